import Verif.FGerBits
import Verif.PropsGer
import Verif.PropsRoundF

/-!
# C42, C47 and C53 for the Fortran rank-one updates
-/

set_option linter.unusedSectionVars false

namespace Haxx
open Arith

section
variable {F : Type} [Arith F] [ArithEq F]

/-- The Fortran rank-one updates leave `fGer` of `x_i`, `y_j` and the old entry in `A(i,j)`, and nothing else changes.
(A real ALPHA needs `INCX = 1`: see `C31_real_strided_violated`.) -/
theorem gerF_bits (conjY : Bool) (m : Mem F) (M N : Int) (ALPHA : Scal F) (X INCX Y INCY A LDA : Int)
    (x y : Nat → Quat F) (a : Nat → Nat → Quat F) (h : GerArgs m M N X INCX Y INCY A LDA x y a)
    (hd : ∀ r, ALPHA = .d r → INCX = 1) :
    ∃ m', gerF conjY M N ALPHA X INCX Y INCY A LDA m = .ok ((), m') ∧
      MatAt m' A LDA M.toNat N.toNat (fun i j => fGer (if conjY then .C else .N) ALPHA (x i) (y j) (a i j)) ∧
      SameOutside (MatCell A LDA M.toNat N.toNat) m m' := by
  have key : wp (gerF conjY M N ALPHA X INCX Y INCY A LDA) m (fun _ m' => GPost (fun m' => ∀ c, ¬ MatCell A LDA M.toNat N.toNat c → m' c = m c) m A LDA
      M.toNat N.toNat (fun i j => fGer (if conjY then .C else .N) ALPHA (x i) (y j) (a i j)) m') := by
    cases conjY
    · cases ALPHA with
      | d r => exact hgerud_bits (hd r rfl) h.env (fun _ _ => rfl) h.hA
      | z r => exact hgeruz_bits h.env (fun _ _ => rfl) h.hA
      | h r => exact hgeruh_bits h.env (fun _ _ => rfl) h.hA
    · cases ALPHA with
      | d r => exact hgercd_bits (hd r rfl) h.env (fun _ _ => rfl) h.hA
      | z r => exact hgercz_bits h.env (fun _ _ => rfl) h.hA
      | h r => exact hgerch_bits h.env (fun _ _ => rfl) h.hA
  obtain ⟨_, m', h1, h2, h3, _⟩ := key
  exact ⟨m', h1, h2, h3⟩

/-- C47, Fortran GERU and GERC: entry `(i,j)` depends on `x_i`, `y_j` and its old value only.  (`hd`, `hd'`: the calls
that are not undefined, see `C31_real_strided_violated`.) -/
theorem C47_ger_fortran (conjY : Bool) (ALPHA : Scal F)
    (m : Mem F) (M N X INCX Y INCY A LDA : Int) (x y : Nat → Quat F) (a : Nat → Nat → Quat F)
    (h : GerArgs m M N X INCX Y INCY A LDA x y a) (hd : ∀ r, ALPHA = .d r → INCX = 1)
    (n : Mem F) (M' N' X' INCX' Y' INCY' A' LDA' : Int) (x' y' : Nat → Quat F) (a' : Nat → Nat → Quat F)
    (h' : GerArgs n M' N' X' INCX' Y' INCY' A' LDA' x' y' a') (hd' : ∀ r, ALPHA = .d r → INCX' = 1)
    (i j i' j' : Nat) (hi : i < M.toNat) (hj : j < N.toNat) (hi' : i' < M'.toNat) (hj' : j' < N'.toNat)
    (hx : x i = x' i') (hy : y j = y' j') (ha : a i j = a' i' j') :
    ∃ m' n' q, gerF conjY M N ALPHA X INCX Y INCY A LDA m = .ok ((), m') ∧
      gerF conjY M' N' ALPHA X' INCX' Y' INCY' A' LDA' n = .ok ((), n') ∧
      readQ m' (A + 4 * (i + j * LDA)) = some q ∧ readQ n' (A' + 4 * (i' + j' * LDA')) = some q := by
  obtain ⟨m', h1, h2, _⟩ := gerF_bits conjY m M N ALPHA X INCX Y INCY A LDA x y a h hd
  obtain ⟨n', g1, g2, _⟩ := gerF_bits conjY n M' N' ALPHA X' INCX' Y' INCY' A' LDA' x' y' a' h' hd'
  refine ⟨m', n', _, h1, g1, h2 i j hi hj, ?_⟩
  rw [g2 i' j' hi' hj']
  dsimp only
  rw [hx, hy, ha]

/-- C53, GERU and GERC (Fortran), when neither ALPHA nor `y_j` compares equal to zero: a NaN component in ALPHA, `x_i` or
`y_j` makes all of `A(i,j)` NaN; one in the old entry always leaves at least one. -/
theorem C53_ger_fortran_partial {bad : F → Prop} (hn : NaNLike bad) (conjY : Bool) (m : Mem F) (M N : Int) (ALPHA : Scal F)
    (X INCX Y INCY A LDA : Int) (x y : Nat → Quat F) (a : Nat → Nat → Quat F)
    (hp : GerArgs m M N X INCX Y INCY A LDA x y a) (hd : ∀ r, ALPHA = .d r → INCX = 1) :
    ∃ (m' : Mem F) (a' : Nat → Nat → Quat F),
      gerF conjY M N ALPHA X INCX Y INCY A LDA m = .ok ((), m') ∧ MatAt m' A LDA M.toNat N.toNat a' ∧
      ∀ i j, i < M.toNat → j < N.toNat →
        ((a i j).HasNaN bad → (a' i j).HasNaN bad) ∧
        (ALPHA.gIsZero = false → (y j).fIsZero = false →
          (ALPHA.HasNaN bad ∨ (x i).HasNaN bad ∨ (y j).HasNaN bad) → (a' i j).AllNaN bad) := by
  obtain ⟨m', h1, h2, _⟩ := gerF_bits conjY m M N ALPHA X INCX Y INCY A LDA x y a hp hd
  refine ⟨m', _, h1, h2, fun i j _ _ => ⟨?_, ?_⟩⟩
  · intro e
    unfold fGer
    split
    · exact e
    · exact nan_fStep_acc' hn _ _ _ _ _ e
  · intro ha hy e
    unfold fGer
    rw [ha, hy, Bool.or_self, if_neg Bool.false_ne_true]
    exact nan_fStep hn _ _ _ _ _ e

/-- C53 fails for the Fortran GERU and GERC: against a `y_j` that is zero, a column of A is left as it was, whatever NaNs
ALPHA or x hold. -/
theorem C53_ger_fortran_violated (conjY : Bool) (m : Mem F) (M N : Int) (ALPHA : Scal F) (X INCX Y INCY A LDA : Int)
    (x y : Nat → Quat F) (a : Nat → Nat → Quat F) (hp : GerArgs m M N X INCX Y INCY A LDA x y a)
    (hd : ∀ r, ALPHA = .d r → INCX = 1) (j : Nat) (hj : j < N.toNat) (hy : (y j).fIsZero = true) :
    ∃ m' : Mem F, gerF conjY M N ALPHA X INCX Y INCY A LDA m = .ok ((), m') ∧
      ∀ i : Nat, i < M.toNat → readQ m' (A + 4 * ((i:Int) + j * LDA)) = some (a i j) := by
  obtain ⟨m', e1, e2, _⟩ := gerF_bits conjY m M N ALPHA X INCX Y INCY A LDA x y a hp hd
  refine ⟨m', e1, fun i hi => ?_⟩
  rw [e2 i j hi hj]
  dsimp only
  unfold fGer
  rw [hy, Bool.or_true, if_pos rfl]

end

section
open Quaternion
variable {F : Type} [Arith F] [ArithEq F] {u : ℝ}

/-- C42, Fortran GERU (`conjY = false`) and GERC, if `==` is true only of machine numbers of the same value:
`‖computed - exact‖ ≤ 2((1+u)⁸-1) (‖A_ij‖ + 2 ‖ALPHA‖ ‖x_i‖ ‖y_j‖)`. -/
theorem C42_ger_fortran (S : StdModel F u) (conjY : Bool) (m : Mem F) (M N : Int) (ALPHA : Scal F)
    (X INCX Y INCY A LDA : Int) (x y : Nat → Quat F) (a : Nat → Nat → Quat F)
    (he : ∀ a b : F, ArithEq.feq a b = true → S.val a = S.val b)
    (h : GerArgs m M N X INCX Y INCY A LDA x y a) (hd : ∀ r, ALPHA = .d r → INCX = 1) :
    ∃ m' v, gerF conjY M N ALPHA X INCX Y INCY A LDA m = .ok ((), m') ∧
      MatAt m' A LDA M.toNat N.toNat v ∧
      ∀ i j, i < M.toNat → j < N.toNat → (v i j).All S.ok →
        ‖((v i j).map S.val).toH - (((a i j).map S.val).toH + (ALPHA.map S.val).toH * ((x i).map S.val).toH *
            (if conjY then star ((y j).map S.val).toH else ((y j).map S.val).toH))‖ ≤
          2 * (((1 + u) ^ 8 - 1) * (‖((a i j).map S.val).toH‖ +
              2 * ‖(ALPHA.map S.val).toH‖ * ‖((x i).map S.val).toH‖ * ‖((y j).map S.val).toH‖)) := by
  obtain ⟨m', h1, h2, _⟩ := gerF_bits conjY m M N ALPHA X INCX Y INCY A LDA x y a h hd
  refine ⟨m', _, h1, h2, fun i j _ _ ho => ?_⟩
  have h0 := S.zero_val
  have triv : 0 ≤ 2 * (((1 + u) ^ 8 - 1) * (‖((a i j).map S.val).toH‖ +
              2 * ‖(ALPHA.map S.val).toH‖ * ‖((x i).map S.val).toH‖ * ‖((y j).map S.val).toH‖)) := by
    have := S.one_le_pow 8
    have h2 : 0 ≤ (1 + u) ^ 8 - 1 := by linarith
    positivity
  by_cases e : (ALPHA.gIsZero || (y j).fIsZero) = true
  · simp only [fGer, if_pos e]
    have hz : (ALPHA.map S.val).toH * ((x i).map S.val).toH *
        (if conjY then star ((y j).map S.val).toH else ((y j).map S.val).toH) = 0 := by
      rw [Bool.or_eq_true] at e
      rcases e with e | e
      · have : (ALPHA.map S.val).toH = 0 := by
          cases ALPHA with
          | d a =>
            change ArithEq.feq _ _ = true at e
            ext <;> simp [Scal.map, Scal.toH, he _ _ e, h0]
          | z a =>
            simp only [Scal.gIsZero, Cplx.feq, Bool.and_eq_true] at e
            ext <;> simp [Scal.map, Scal.toH, he _ _ e.1, he _ _ e.2, h0]
          | h a =>
            simp only [Scal.gIsZero, Cplx.feq, Quat.lo, Quat.hi, Bool.and_eq_true] at e
            ext <;> simp [Scal.map, Quat.map, Scal.toH, he _ _ e.1.1, he _ _ e.1.2, he _ _ e.2.1, he _ _ e.2.2, h0]
        rw [this, zero_mul, zero_mul]
      · have : ((y j).map S.val).toH = 0 := by
          simp only [Quat.fIsZero, Cplx.feq, Quat.lo, Quat.hi, Bool.and_eq_true] at e
          ext <;> simp [Quat.map, he _ _ e.1.1, he _ _ e.1.2, he _ _ e.2.1, he _ _ e.2.2, h0]
        rw [this, star_zero, ite_self, mul_zero]
    rw [hz, add_zero, sub_self, norm_zero]
    exact triv
  · simp only [fGer, if_neg e] at ho ⊢
    have hc : S.QR 4 (a i j) ((a i j).map S.val) (broadcast ‖((a i j).map S.val).toH‖) :=
      (StdModel.QR.exact (S := S) (p := 0) (a i j)).toNorm.le (by omega)
    have := (StdModel.QR.fStep ALPHA (if conjY then .C else .N) (x i) (y j) hc (le_refl 4)).norm ho
    rw [toH_fStep, ← mul_assoc, ← mul_assoc (2 * ‖(ALPHA.map S.val).toH‖)] at this
    cases conjY
    · exact this
    · exact this

end

/-! ## Concrete cases -/

/-- Arguments that meet `GerArgs`, whatever memory holds: x with stride 2, y backwards, padded A. -/
theorem gerArgs_example' {F : Type} (f : Int → F) : GerArgs (memOf 0 200 f) 2 3 60 2 90 (-1) 0 4
    (fun i => let p : Int := 60 + 4 * ((i:Int) * 2); ⟨f p, f (p+1), f (p+2), f (p+3)⟩)
    (fun i => let p : Int := 98 + 4 * ((i:Int) * (-1)); ⟨f p, f (p+1), f (p+2), f (p+3)⟩)
    (fun i j => let p : Int := 0 + 4 * ((i:Int) + j * 4); ⟨f p, f (p+1), f (p+2), f (p+3)⟩) where
  hA := by
    intro i j hi hj
    have h1 : i < 2 := hi
    have h2 : j < 3 := hj
    exact readQ_memOf (by omega) (by omega)
  hX := by
    intro i hi
    have h1 : i < 2 := hi
    exact readQ_memOf (by omega) (by omega)
  hY := by
    intro i hi
    have h1 : i < 3 := hi
    exact readQ_memOf (by omega) (by omega)
  hld := by decide
  hXA := gerArgs_example.hXA
  hYA := gerArgs_example.hYA

/-- A case of `C53_ger_fortran_partial`: `x_1` holds one NaN; every entry of row 1 becomes NaN. -/
example : letI := toyNaN; letI := toyNaNEq
    ∃ (m' : Mem (Option Int)), gerF true 2 3 (.z ⟨some 1, some 2⟩) 60 2 90 (-1) 0 4
      (memOf 0 200 (fun a => if a = 69 then none else some a)) = .ok ((), m') ∧
      ∀ j : Nat, j < 3 → ∃ q, readQ m' (4 * (1 + (j : Int) * 4)) = some q ∧ q.AllNaN (· = none) := by
  let := toyNaN
  let := toyNaNEq
  obtain ⟨m', a', h1, h2, h3⟩ := C53_ger_fortran_partial toyNaN_like true _ 2 3 (.z ⟨some (1:Int), some 2⟩) 60 2 90 (-1) 0 4
    _ _ _ (gerArgs_example' (fun a => if a = 69 then none else some a)) (by intro r h; exact absurd h (by simp))
  refine ⟨m', h1, fun j hj => ⟨a' 1 j, ?_, ?_⟩⟩
  · have := h2 1 j (by decide) hj
    simpa using this
  · refine (h3 1 j (by decide) hj).2 rfl ?_ (Or.inr (Or.inl (Or.inr (Or.inl rfl))))
    have : j = 0 ∨ j = 1 ∨ j = 2 := by omega
    rcases this with rfl | rfl | rfl <;> rfl

/-- C53 is violated by a call of the Fortran GERU: `x_1` is NaN in every component and ALPHA is 1, but `y_0 = 0`, and
column 0 of A is the same afterwards. -/
theorem C53_ger_fortran_witness : letI := toyNaN; letI := toyNaNEq
    ∃ m' : Mem (Option Int), gerF false 2 3 (.z ⟨some 1, some 0⟩) 60 2 90 (-1) 0 4
        (memOf 0 200 (fun a => if 68 ≤ a ∧ a < 72 then none else if 98 ≤ a then some 0 else some a)) = .ok ((), m') ∧
      readQ m' 4 = some ⟨some 4, some 5, some 6, some 7⟩ := by
  let := toyNaN
  let := toyNaNEq
  obtain ⟨m', h1, h2⟩ := C53_ger_fortran_violated false _ 2 3 (.z ⟨some (1:Int), some 0⟩) 60 2 90 (-1) 0 4
    _ _ _ (gerArgs_example' (fun a => if 68 ≤ a ∧ a < 72 then none else if 98 ≤ a then some 0 else some a))
    (by intro r h; exact absurd h (by simp)) 0 (by decide) rfl
  exact ⟨m', h1, h2 1 (by decide)⟩

/-- The hypotheses of `C42_ger_fortran` are met by rounded arithmetic. -/
example (f : Int → Chop) : (∃ x y a, GerArgs (memOf 0 200 f) 2 3 60 2 90 (-1) 0 4 x y a) ∧
    ∀ a b : Chop, ArithEq.feq a b = true → chopModel.val a = chopModel.val b :=
  ⟨⟨_, _, _, gerArgs_example' f⟩, chop_truth.2⟩

end Haxx
