import Verif.PropsGeneric2
import Verif.Generic2Bits

/-!
# C31: exactly which calls of the portable GERU and GERC are rank-one updates
-/

set_option linter.unusedSectionVars false

namespace Haxx
open Arith
open scoped Quaternion

section
variable {R : Type} [CommRing R] [DecidableEq R]

/-- A scalar of the form `ck`, `c ≠ 0`. -/
def Scal.PureK (s : Scal R) : Prop := ∃ q, s = .h q ∧ q.PureK

theorem neOp_zero (y : Quat R) : Quat.neOp y (Quat.mkReal zero) = true ↔ ¬ (y.re = 0 ∧ y.i = 0 ∧ y.j = 0) := by
  simp only [Quat.neOp, Quat.eqOp, Quat.mkReal, ar_feq, ar_zero, Bool.not_eq_true', Bool.and_eq_false_iff, decide_eq_false_iff_not]
  tauto

theorem pGer_skip (conjY : Bool) {ALPHA : Scal R} {x y a : Quat R} (h : ALPHA.PureK ∨ y.PureK) : pGer conjY ALPHA x y a = a := by
  unfold pGer
  rcases h with ⟨q, rfl, h1, h2, h3, _⟩ | ⟨h1, h2, h3, _⟩
  · rw [if_pos]
    simp [Scal.eqZero, Quat.eqOp, Quat.mkReal, h1, h2, h3]
  · rw [if_neg (fun h5 => (neOp_zero y).1 h5 ⟨h1, h2, h3⟩), ite_self]

theorem pGer_do (conjY : Bool) {ALPHA : Scal R} {x y a : Quat R} (h : ¬ (ALPHA.PureK ∨ y.PureK)) :
    pGer conjY ALPHA x y a = Quat.ofH (a.toH + ALPHA.toH * x.toH * (if conjY then star y.toH else y.toH)) := by
  rw [not_or] at h
  unfold pGer
  by_cases h1 : ALPHA.eqZero = true
  · rw [if_pos h1]
    have h0 : ALPHA.toH = 0 := by
      cases ALPHA with
      | d a =>
        simp only [Scal.eqZero, ar_feq, ar_zero, decide_eq_true_eq] at h1
        subst h1; ext <;> rfl
      | z a =>
        simp only [Scal.eqZero, ar_feq, ar_zero, decide_eq_true_eq, Bool.and_eq_true] at h1
        ext <;> simp [Scal.toH, h1.1, h1.2]
      | h q =>
        simp only [Scal.eqZero, Quat.eqOp, Quat.mkReal, ar_feq, ar_zero, decide_eq_true_eq, Bool.and_eq_true] at h1
        have hk : q.k = 0 := by
          by_contra hk
          exact h.1 ⟨q, rfl, by tauto, by tauto, by tauto, hk⟩
        ext <;> simp_all [Scal.toH, Quat.toH]
    exact eq_ofH (by rw [h0]; simp)
  rw [if_neg h1]
  by_cases h2 : Quat.neOp y (Quat.mkReal zero) = true
  · rw [if_pos h2]
    refine eq_ofH ?_
    rw [toH_addAssign, toH_mul, toH_smulL]
    cases conjY
    · rfl
    · simp only [if_true, toH_conj]
  · rw [if_neg h2]
    have hz := not_not.1 (mt (neOp_zero y).2 h2)
    have hy : y.toH = 0 := by
      have hk : y.k = 0 := by
        by_contra hk
        exact h.2 ⟨hz.1, hz.2.1, hz.2.2, hk⟩
      ext <;> simp_all [Quat.toH]
    exact eq_ofH (by rw [hy]; simp)

/-- C31, exactly: the portable GERU and GERC do the rank-one update if and only if nothing they leave out matters:
they add nothing if ALPHA is `ck`, c ≠ 0, and nothing to column `j` if y_j is. -/
theorem C31_portable_exact (m : Mem R) (M N : Int) (ALPHA : Scal R) (X INCX Y INCY A LDA : Int)
    (x y : Nat → Quat R) (a : Nat → Nat → Quat R) (h : GerKArgs m M N X INCX Y INCY A LDA x y a) :
    (IsGeru (gerGen false M N ALPHA X INCX Y INCY A LDA) m M N ALPHA A LDA x y a ↔
      ∀ i j, i < M.toNat → j < N.toNat → ALPHA.PureK ∨ (y j).PureK → ALPHA.toH * (x i).toH * (y j).toH = 0) ∧
    (IsGerc (gerGen true M N ALPHA X INCX Y INCY A LDA) m M N ALPHA A LDA x y a ↔
      ∀ i j, i < M.toNat → j < N.toNat → ALPHA.PureK ∨ (y j).PureK → ALPHA.toH * (x i).toH * star (y j).toH = 0) := by
  have key : ∀ conjY : Bool, ((∃ m', gerGen conjY M N ALPHA X INCX Y INCY A LDA m = .ok ((), m') ∧
      MatAt m' A LDA M.toNat N.toNat (fun i j => Quat.ofH ((a i j).toH + ALPHA.toH * (x i).toH * (if conjY then star (y j).toH else (y j).toH))) ∧
      SameOutside (MatCell A LDA M.toNat N.toNat) m m') ↔
      ∀ i j, i < M.toNat → j < N.toNat → ALPHA.PureK ∨ (y j).PureK →
        ALPHA.toH * (x i).toH * (if conjY then star (y j).toH else (y j).toH) = 0) := by
    intro conjY
    obtain ⟨m', e, v, s⟩ := gerGen_bits conjY m M N ALPHA X INCX Y INCY A LDA x y a
      ⟨h.incX, h.incY, h.hA, h.hX, h.hY, h.hld, h.hXA, h.hYA, h.fitA, h.fitX, h.fitY⟩
    constructor
    · rintro ⟨m2, e2, v2, _⟩ i j hi hj hk
      rw [e] at e2
      cases e2
      have h1 := v i j hi hj
      rw [v2 i j hi hj] at h1
      dsimp only at h1
      rw [pGer_skip conjY hk] at h1
      have h2 := congrArg Quat.toH (Option.some.inj h1)
      rw [toH_ofH] at h2
      simpa using h2
    · intro hz
      refine ⟨m', e, ?_, s⟩
      intro i j hi hj
      rw [v i j hi hj]
      dsimp only
      by_cases hk : ALPHA.PureK ∨ (y j).PureK
      · rw [pGer_skip conjY hk]
        exact congrArg some (eq_ofH (by rw [hz i j hi hj hk, add_zero]))
      · rw [pGer_do conjY hk]
  exact ⟨key false, key true⟩

/-- The 2 × 3 call of `gerKArgs_example`, no element of y is `ck`: the right side holds. -/
example : ∃ x y a, IsGeru (gerGen (F := Int) false 2 3 (.h ⟨1, 2, 3, 4⟩) 60 2 90 1 0 4) (memOf 0 200 (fun a => a)) 2 3
    (.h ⟨1, 2, 3, 4⟩) 0 4 x y a := by
  refine ⟨_, _, _, (C31_portable_exact _ 2 3 _ 60 2 90 1 0 4 _ _ _ gerKArgs_example).1.2 ?_⟩
  rintro i j _ _ (⟨q, hq, h⟩ | h)
  · cases hq; exact absurd h.1 (by decide)
  · obtain ⟨h1, _⟩ := h
    dsimp only at h1
    omega

/-- and with ALPHA = k it is not a rank-one update: x_0 y_0 is not zero. -/
example : ∃ x y a, ¬ IsGeru (gerGen (F := Int) false 2 3 (.h ⟨0, 0, 0, 1⟩) 60 2 90 1 0 4) (memOf 0 200 (fun a => a)) 2 3
    (.h ⟨0, 0, 0, 1⟩) 0 4 x y a := by
  have h := C31_portable_exact _ 2 3 (.h ⟨0, 0, 0, 1⟩) 60 2 90 1 0 4 _ _ _ gerKArgs_example
  refine ⟨_, _, _, mt h.1.1 fun hc => ?_⟩
  have h2 := hc 0 0 (by decide) (by decide) (Or.inl ⟨_, rfl, rfl, rfl, rfl, by decide⟩)
  have h1 := congrArg (fun q : ℍ[Int] => q.re) h2
  simp only [Scal.toH, Quat.toH] at h1
  exact absurd h1 (by decide)

end
end Haxx
