import Verif.PropsSafe

/-!
# C50, Fortran GEMV: every call is safe if both vectors are as long as the longer side of the matrix

`C50_reference_partial` leaves out the calls on which GEMV takes the wrong lengths.  With storage for `max M N` elements of x and
of y — and, for a negative increment, as many again in front — no call can leave it.
-/

namespace Haxx
open Arith
variable {F : Type} [Arith F] [ArithEq F]
set_option linter.unusedSectionVars false

/-- The cells of `L` elements with stride `|INC|` from X on and, for a negative or zero increment, of as many before X. -/
def PadCell (X INC L : Int) (a : Int) : Prop :=
  ∃ k : Int, (if 0 < INC then 0 else -L) ≤ k ∧ k < L ∧ InQ (X + 4 * (k * |INC|)) a

theorem padEnv {P : Int → Prop} {X INC L n l : Int} (h : ∀ a, PadCell X INC L a → P a) (hn : n ≤ L) (hl : l ≤ L) (hl0 : 0 ≤ l) :
    Thr.VEnv P X (if decide (INC > 0) = true then 1 else 1 - (l - 1) * INC) INC n.toNat (decide (INC = 1) = true) := by
  refine Thr.VEnv.of (fun i hi a ha => h a ?_) (fun hx => ?_)
  · by_cases hI : 0 < INC
    · simp only [gt_iff_lt, hI, decide_true, if_true] at ha
      refine ⟨i, by simp [hI], by omega, ?_⟩
      rw [abs_of_pos hI]
      simpa using ha
    · simp only [gt_iff_lt, hI, decide_false, Bool.false_eq_true, if_false] at ha
      by_cases h0 : INC = 0
      · subst h0
        refine ⟨0, by simp; omega, by omega, ?_⟩
        simpa using ha
      · refine ⟨l - 1 - i, by simp [hI]; omega, by omega, ?_⟩
        rw [abs_of_neg (by omega), show X + 4 * ((l - 1 - (i:Int)) * -INC) = X + 4 * (1 - (l - 1) * INC - 1) + 4 * ((i:Int) * INC) by ring]
        exact ha
  · have : INC = 1 := by simpa using hx
    subst this
    simp

theorem padGemvEnv {S W : Int → Prop} {isN : Prop} {M N A LDA X INCX Y INCY LX LY : Int} (hM : 0 ≤ M) (hN : 0 ≤ N)
    (h1 : LX = M ∨ LX = N) (h2 : LY = M ∨ LY = N)
    (a : ∀ a, MatCell A LDA M.toNat N.toNat a → S a) (x : ∀ a, PadCell X INCX (max M N) a → S a)
    (y : ∀ a, PadCell Y INCY (max M N) a → S a) (w : ∀ a, PadCell Y INCY (max M N) a → W a) :
    Thr.GemvEnv S W isN M N A LDA X INCX Y INCY LX LY where
  a := fun i j hi hj => .mat a hi hj
  xN := fun _ => padEnv x (by omega) (by omega) (by omega)
  xT := fun _ => padEnv x (by omega) (by omega) (by omega)
  y := padEnv y (by omega) (by omega) (by omega)
  w := padEnv w (by omega) (by omega) (by omega)
  yN := fun _ => padEnv y (by omega) (by omega) (by omega)
  yT := fun _ => padEnv y (by omega) (by omega) (by omega)
  wN := fun _ => padEnv w (by omega) (by omega) (by omega)
  wT := fun _ => padEnv w (by omega) (by omega) (by omega)

/-- The matrix and the two padded vectors. -/
def GemvStore (M N A LDA X INCX Y INCY : Int) (a : Int) : Prop :=
  MatCell A LDA M.toNat N.toNat a ∨ PadCell X INCX (max M N) a ∨ PadCell Y INCY (max M N) a

theorem gemvF_pad_safe (t : Char) (M N : Int) (ALPHA : Scal F) (A LDA X INCX : Int) (BETA : Scal F) (Y INCY : Int) (hM : 0 ≤ M) (hN : 0 ≤ N) :
    Thr.Safe (GemvStore M N A LDA X INCX Y INCY) (PadCell Y INCY (max M N)) (Thr.gemvF t M N ALPHA A LDA X INCX BETA Y INCY) (fun _ => True) := by
  have env : ∀ {LX LY : Int}, LX = M ∨ LX = N → LY = M ∨ LY = N → Thr.GemvEnv (GemvStore M N A LDA X INCX Y INCY) (PadCell Y INCY (max M N))
      (lsame t 'N' = true) M N A LDA X INCX Y INCY LX LY := fun h1 h2 =>
    padGemvEnv hM hN h1 h2 (fun _ h => .inl h) (fun _ h => .inr (.inl h)) (fun _ h => .inr (.inr h)) (fun _ h => h)
  have e1 := env (.inr rfl) (.inl rfl)
  have e2 := env (.inl rfl) (.inr rfl)
  cases ALPHA <;> cases BETA
  · exact Thr.hgemvdd_safe _ _ _ _ _ _ _ _ _ _ _ (fun _ => e1) (fun _ => e2)
  · exact Thr.hgemvdz_safe _ _ _ _ _ _ _ _ _ _ _ (fun _ => e1) (fun _ => e2)
  · exact Thr.hgemvdh_safe _ _ _ _ _ _ _ _ _ _ _ (fun _ => e1) (fun _ => e2)
  · exact Thr.hgemvzd_safe _ _ _ _ _ _ _ _ _ _ _ (fun _ => e1) (fun _ => e2)
  · exact Thr.hgemvzz_safe _ _ _ _ _ _ _ _ _ _ _ (fun _ => e1) (fun _ => e2)
  · exact Thr.hgemvzh_safe _ _ _ _ _ _ _ _ _ _ _ (fun _ => e1) (fun _ => e2)
  · exact Thr.hgemvhd_safe _ _ _ _ _ _ _ _ _ _ _ (fun _ => e1) (fun _ => e2)
  · exact Thr.hgemvhz_safe _ _ _ _ _ _ _ _ _ _ _ (fun _ => e1) (fun _ => e2)
  · exact Thr.hgemvhh_safe _ _ _ _ _ _ _ _ _ _ _ (fun _ => e1) (fun _ => e2)

/-- C50, Fortran GEMV, every call (TRANS, scalars, increments of either sign, any arithmetic, any overlap): if both vectors have
storage for `max M N` elements (on both sides of the pointer for an increment that is not positive), the call ends without fault,
changes only the storage of y, and does the same whatever the rest of the memory holds. -/
theorem C50_gemv_padded (t : Char) (M N : Int) (ALPHA : Scal F) (A LDA X INCX : Int) (BETA : Scal F) (Y INCY : Int)
    (hM : 0 ≤ M) (hN : 0 ≤ N) (m : Mem F) (hm : Accessible (GemvStore M N A LDA X INCX Y INCY) m) :
    ∃ mf, gemvF t M N ALPHA A LDA X INCX BETA Y INCY m = .ok ((), mf) ∧ SameOutside (PadCell Y INCY (max M N)) m mf ∧
      ∀ m2, (∀ a, GemvStore M N A LDA X INCX Y INCY a → m2 a = m a) →
        ∃ mf2, gemvF t M N ALPHA A LDA X INCX BETA Y INCY m2 = .ok ((), mf2) ∧ SameOutside (PadCell Y INCY (max M N)) m2 mf2 ∧
          ∀ a, GemvStore M N A LDA X INCX Y INCY a → mf2 a = mf a := by
  have s := gemvF_pad_safe t M N ALPHA A LDA X INCX BETA Y INCY hM hN
  obtain ⟨r, mf, hf, _⟩ := s.foot hm
  have hr := Thr.run_gemvF t M N ALPHA A LDA X INCX BETA Y INCY
  refine ⟨mf, by rw [← hr]; exact hf.run, fun a ha => Thr.run_frame hf.run fun hw => ha (hf.wrs a hw), ?_⟩
  intro m2 hag
  obtain ⟨r2, mg, mf2, h1, h2, h3⟩ := s.agree hm hag
  cases hf.run.symm.trans h1
  obtain ⟨r3, mf3, hf3, _⟩ := s.foot (m := m2) (fun a ha => by rw [hag a ha]; exact hm a ha)
  cases hf3.run.symm.trans h2
  exact ⟨mf2, by rw [← hr]; exact h2, fun a ha => Thr.run_frame hf3.run fun hw => ha (hf3.wrs a hw), h3⟩

/-- The hypothesis is satisfiable for a call that overruns an exact-length y: 2 × 3, TRANS = N, quaternion scalars, INCX = -1. -/
example (f : Int → F) (al be : Quat F) : ∃ mf, gemvF 'N' 2 3 (.h al) 0 2 40 (-1) (.h be) 60 1 (memOf 0 72 f) = .ok ((), mf) := by
  obtain ⟨mf, h, _⟩ := C50_gemv_padded 'N' 2 3 (.h al) 0 2 40 (-1) (.h be) 60 1 (by decide) (by decide) (memOf 0 72 f) (by
    rintro a (⟨i, j, hi, hj, h⟩ | ⟨k, h1, h2, h⟩ | ⟨k, h1, h2, h⟩)
    · have hi : i < 2 := hi
      have hj : j < 3 := hj
      unfold InQ at h
      unfold memOf
      rw [if_pos (by omega)]; simp
    · simp at h1 h2 h
      unfold InQ at h
      unfold memOf
      rw [if_pos (by omega)]; simp
    · simp at h1 h2 h
      unfold InQ at h
      unfold memOf
      rw [if_pos (by omega)]; simp)
  exact ⟨mf, h⟩

end Haxx
