import Verif.PropsGemm
import Verif.FGerLemmas
import Verif.Hblas1m

/-!
# C38: 32-bit index arithmetic of the SIMD level-1 routines, and where the bounds are needed

`C38_gemm_no_overflow` is in `PropsGemm.lean`.
-/

set_option linter.unusedSectionVars false

namespace Haxx
open Arith

section lemmas
variable {F : Type} {α β σ : Type}

/-- Whatever the memory, the program never gets to an overflowing 32-bit computation. -/
def NoOv (p : Prog F α) : Prop := ∀ m, p m ≠ .error .overflow

theorem NoOv.pure (a : α) : NoOv (Pure.pure a : Prog F α) := by
  intro m h; cases h

theorem NoOv.bind {p : Prog F α} {f : α → Prog F β} (hp : NoOv p) (hf : ∀ a, NoOv (f a)) : NoOv (p >>= f) := by
  intro m e
  cases hq : p m with
  | error x => rw [bind_error hq] at e; cases e; exact hp m hq
  | ok r => obtain ⟨a, m1⟩ := r; rw [bind_ok hq] at e; exact hf a m1 e

theorem NoOv.rd {a : Int} : NoOv (rd a : Prog F F) := by
  intro m e; unfold Haxx.rd at e; cases hm : m a <;> rw [hm] at e <;> cases e

theorem NoOv.wr {a : Int} {v : F} : NoOv (wr a v) := by
  intro m e; unfold Haxx.wr at e; cases hm : m a <;> rw [hm] at e <;> cases e

theorem NoOv.loadQ {p : Int} : NoOv (loadQ p : Prog F (Quat F)) :=
  .bind .rd fun _ => .bind .rd fun _ => .bind .rd fun _ => .bind .rd fun _ => .pure _

theorem NoOv.storeQ {p : Int} {q : Quat F} : NoOv (storeQ p q) :=
  .bind .wr fun _ => .bind .wr fun _ => .bind .wr fun _ => .wr

theorem NoOv.loadM {al : Bool} {p : Int} : NoOv (loadM al p : Prog F (V4 F)) := by
  unfold Haxx.loadM loadA
  split
  · split
    · exact .loadQ
    · intro m e; cases e
  · exact .loadQ

theorem NoOv.storeM {al : Bool} {p : Int} {v : V4 F} : NoOv (storeM al p v) := by
  unfold Haxx.storeM storeA
  split
  · split
    · exact .storeQ
    · intro m e; cases e
  · exact .storeQ

theorem NoOv.foldN {n : Nat} {f : Nat → σ → Prog F σ} (hf : ∀ i s, i < n → NoOv (f i s)) (s : σ) : NoOv (foldN n f s) := by
  induction n with
  | zero => exact .pure s
  | succ n ih => exact .bind (ih (fun i s h => hf i s (by omega))) fun s' => hf n s' (by omega)

theorem NoOv.assertP {b : Bool} : NoOv (assertP b : Prog F Unit) := by
  unfold Haxx.assertP
  split
  · exact .pure _
  · intro m e; cases e

theorem NoOv.i32 {x : Int} (h : Fits32 x) : NoOv (i32 x : Prog F Int) := by
  unfold Haxx.i32 Fits32 at *
  rw [if_pos h]
  exact .pure _

end lemmas

section
variable {F : Type} [Arith F]

/-- C38. The SIMD copy, swap, scaling and update routines perform no 32-bit product at all: for no
arguments and no memory — valid or not — do they overflow.  The same for the matrix routines on top of them. -/
theorem C38_level1_no_overflow [ArithEq F] (m : Mem F) (SIDE TRANSA : Char) (M N : Int) (ALPHA : Scal F)
    (X INCX Y INCY LDX LDY : Int) :
    copyvAVX N X INCX Y INCY m ≠ .error .overflow ∧ swapvAVX N X INCX Y INCY m ≠ .error .overflow ∧
    scalvAVX SIDE N ALPHA X INCX m ≠ .error .overflow ∧ axpyvAVX SIDE N ALPHA X INCX Y INCY m ≠ .error .overflow ∧
    scalm scalvAVX SIDE TRANSA M N ALPHA X LDX INCX m ≠ .error .overflow ∧
    axpym axpyvAVX SIDE TRANSA M N ALPHA X LDX INCX Y LDY INCY m ≠ .error .overflow := by
  have hs : ∀ N X INCX, NoOv (scalvAVX SIDE N ALPHA X INCX) := by
    intro N X INCX
    unfold scalvAVX
    exact .bind (.foldN (fun _ _ _ => .bind .loadM fun _ => .bind .storeM fun _ => .pure _) _) fun _ => .pure _
  have ha : ∀ N X INCX Y INCY, NoOv (axpyvAVX SIDE N ALPHA X INCX Y INCY) := by
    intro N X INCX Y INCY
    unfold axpyvAVX
    exact .bind (.foldN (fun _ _ _ => .bind .loadM fun _ => .bind .loadM fun _ => .bind .storeM fun _ => .pure _) _)
      fun _ => .pure _
  refine ⟨?_, ?_, hs N X INCX m, ha N X INCX Y INCY m, ?_, ?_⟩
  · refine (?_ : NoOv (copyvAVX N X INCX Y INCY)) m
    unfold copyvAVX copyBody
    dsimp only
    split <;>
    exact .bind (.foldN (fun _ _ _ => .bind .loadM fun _ => .bind .storeM fun _ => .pure _) _) fun _ => .pure _
  · refine (?_ : NoOv (swapvAVX N X INCX Y INCY)) m
    unfold swapvAVX swapBody
    dsimp only
    split <;>
    exact .bind (.foldN (fun _ _ _ => .bind .loadM fun _ => .bind .loadM fun _ => .bind .storeM fun _ =>
      .bind .storeM fun _ => .pure _) _) fun _ => .pure _
  · refine (?_ : NoOv (scalm scalvAVX SIDE TRANSA M N ALPHA X LDX INCX)) m
    unfold scalm
    split
    · exact .pure _
    · exact .bind .assertP fun _ => .bind (.foldN (fun _ _ _ => .bind (hs _ _ _) fun _ => .pure _) _) fun _ => .pure _
  · refine (?_ : NoOv (axpym axpyvAVX SIDE TRANSA M N ALPHA X LDX INCX Y LDY INCY)) m
    unfold axpym
    split
    · exact .pure _
    · split
      · exact .pure _
      · exact .bind .assertP fun _ => .bind (.foldN (fun _ _ _ => .bind (ha _ _ _ _ _) fun _ => .pure _) _)
          fun _ => .pure _

/-- C38. The SIMD dot products do not overflow, whatever the memory, when `4*INCX` and `4*INCY` fit in 32 bits. -/
theorem C38_dot_no_overflow (conj : Bool) (m : Mem F) (N X INCX Y INCY : Int) (hx : Fits32 (4 * INCX)) (hy : Fits32 (4 * INCY)) :
    dotAVX conj N X INCX Y INCY m ≠ .error .overflow := by
  have f : ∀ {INC : Int} {k : Int}, Fits32 (4 * INC) → 0 ≤ k → k ≤ 4 → Fits32 (k * INC) := by
    intro INC k h h0 h4
    unfold Fits32 at *
    have : k = 0 ∨ k = 1 ∨ k = 2 ∨ k = 3 ∨ k = 4 := by omega
    rcases this with rfl | rfl | rfl | rfl | rfl <;> omega
  refine (?_ : NoOv (dotAVX conj N X INCX Y INCY)) m
  unfold dotAVX
  refine .bind (.foldN (fun _ _ _ => ?_) _) fun s => .foldN (fun i r hi => ?_) _
  · unfold dotBatch
    exact .bind (.i32 (f hx (by omega) (by omega))) fun _ => .bind (.i32 (f hx (by omega) (by omega))) fun _ =>
      .bind .loadM fun _ => .bind .loadM fun _ => .bind .loadM fun _ => .bind .loadM fun _ =>
      .bind (.i32 (f hy (by omega) (by omega))) fun _ => .bind (.i32 (f hy (by omega) (by omega))) fun _ =>
      .bind .loadM fun _ => .bind .loadM fun _ => .bind .loadM fun _ => .bind .loadM fun _ =>
      .bind (.i32 hx) fun _ => .bind (.i32 hy) fun _ => .pure _
  · have hi4 : (i : Int) ≤ 4 := by
      have := Int.tmod_lt_of_pos N (show (0:Int) < 4 by decide)
      omega
    unfold dotClean
    refine .bind (.i32 (f hx (by omega) hi4)) fun _ => .bind (.i32 (f hy (by omega) hi4)) fun _ =>
      .bind .loadM fun _ => .bind .loadM fun _ => ?_
    split <;> exact .pure _

/-- C38: the bound is needed.  With `N ≥ 4` and `4*INCX` or `4*INCY` outside 32 bits the dot product of
vectors that are entirely accessible overflows. -/
theorem C38_dot_bound_needed (conj : Bool) (m : Mem F) (N X INCX Y INCY : Int) (x y : Nat → Quat F)
    (hX : VecAt m X INCX N.toNat x) (hY : VecAt m Y INCY N.toNat y) (hN : 4 ≤ N)
    (h : ¬ Fits32 (4 * INCX) ∨ ¬ Fits32 (4 * INCY)) :
    dotAVX conj N X INCX Y INCY m = .error .overflow := by
  have case32 : ∀ {k INC : Int} {β : Type} {f : Int → Prog F β}, (Fits32 (k * INC) → Faults (f (k * INC)) m .overflow) →
      Faults (i32 (k * INC) >>= f) m .overflow := by
    intro k INC β f hf
    by_cases c : Fits32 (k * INC)
    · exact faults_bind_ok ((wp_i32 c).2 (hf c))
    · apply faults_bind_err
      unfold i32 Faults Fits32 at *
      rw [if_neg c]
      rfl
  have alx : ∀ k : Int, (aligned32 X && aligned32 Y) = true → aligned32 (X + 4 * k) = true := by
    intro k h; simp only [aligned32, Bool.and_eq_true, beq_iff_eq] at *; omega
  have aly : ∀ k : Int, (aligned32 X && aligned32 Y) = true → aligned32 (Y + 4 * k) = true := by
    intro k h; simp only [aligned32, Bool.and_eq_true, beq_iff_eq] at *; omega
  have rx : ∀ k : Nat, k < 4 → readQ m (X + 4 * (k * INCX)) = some (x k) := fun k hk => hX k (by omega)
  have ry : ∀ k : Nat, k < 4 → readQ m (Y + 4 * (k * INCY)) = some (y k) := fun k hk => hY k (by omega)
  have lx : ∀ (k : Nat) (p : Int) {β : Type} {f : V4 F → Prog F β}, k < 4 → p = X + 4 * (k * INCX) →
      (∀ q, Faults (f q) m .overflow) → Faults (loadM (aligned32 X && aligned32 Y) p >>= f) m .overflow := by
    rintro k p β f hk rfl hf
    exact faults_bind_ok ((wp_loadM (alx _) (rx k hk)).2 (hf _))
  have ly : ∀ (k : Nat) (p : Int) {β : Type} {f : V4 F → Prog F β}, k < 4 → p = Y + 4 * (k * INCY) →
      (∀ q, Faults (f q) m .overflow) → Faults (loadM (aligned32 X && aligned32 Y) p >>= f) m .overflow := by
    rintro k p β f hk rfl hf
    exact faults_bind_ok ((wp_loadM (aly _) (ry k hk)).2 (hf _))
  show Faults _ _ _
  unfold dotAVX
  apply faults_bind_err
  refine faults_foldN (j := 0) (fun _ => (⟨X, Y, ⟨setzero, setzero, setzero, setzero⟩⟩ : DotSt F)) ?_
    (fun i hi => absurd hi (Nat.not_lt_zero i)) ?_
  · have : 1 ≤ N.tdiv 4 := by
      rw [Int.tdiv_eq_ediv_of_nonneg (by omega)]; omega
    omega
  · unfold dotBatch
    refine case32 fun _ => case32 fun _ => ?_
    refine lx 0 _ (by omega) (by simp) fun _ => lx 1 _ (by omega) (by push_cast; ring) fun _ =>
      lx 2 _ (by omega) (by push_cast; ring) fun _ => lx 3 _ (by omega) (by push_cast; ring) fun _ => ?_
    refine case32 fun _ => case32 fun _ => ?_
    refine ly 0 _ (by omega) (by simp) fun _ => ly 1 _ (by omega) (by push_cast; ring) fun _ =>
      ly 2 _ (by omega) (by push_cast; ring) fun _ => ly 3 _ (by omega) (by push_cast; ring) fun _ => ?_
    refine case32 fun c1 => case32 fun c2 => ?_
    rcases h with h | h
    · exact absurd c1 h
    · exact absurd c2 h

end

/-- C38: GEMM's bound on `2*LDC` is needed too, even for one column: the pointer to the next pair of
columns of C is computed before the loop ends. -/
theorem C38_gemm_bound_needed :
    gemmAVX (F := Int) ⟨64, 512, 64⟩ 1000 200000 (fun _ => 0) 'N' 'N' 1 1 1 (.d 1) 0 1 4 1 (.d 1) 8 1073741824
      (memOf 0 12 id) = .error .overflow := by
  rfl

/-- Non-vacuity of `C38_dot_bound_needed`: five elements `2^29` apart. -/
example : ∃ x y, VecAt (fun a => if 0 ≤ a then some a else none : Mem Int) 0 536870912 5 x ∧
    VecAt (fun a => if 0 ≤ a then some a else none : Mem Int) 1 1 5 y ∧ ¬ Fits32 (4 * 536870912) := by
  refine ⟨fun i => let p : Int := 0 + 4 * (i * 536870912); ⟨p, p+1, p+2, p+3⟩, fun i => let p : Int := 1 + 4 * (i * 1);
    ⟨p, p+1, p+2, p+3⟩, ?_, ?_, by unfold Fits32; decide⟩ <;>
  · intro i hi
    rw [readQ_eq_some]
    refine ⟨?_, ?_, ?_, ?_⟩ <;> exact if_pos (by omega)

end Haxx
