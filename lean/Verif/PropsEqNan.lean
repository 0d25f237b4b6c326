import Verif.FinInst

/-!
# C07 in IEEE arithmetic: what `operator==` and `operator!=` decide when components are NaN or infinite

`PropsScalar.lean` treats `==` over components on which comparison is ordinary equality.  Here the components
are IEEE doubles, where a NaN differs from everything including itself, so that the slip in
`haxx_quaternion_op.hpp:156-162` (`q.imag_k() == q.imag_k()`) has a second effect: the outcome depends on
whether the *second* operand's `k` is a NaN, and `==` is not even symmetric.
-/

namespace Haxx

/-- IEEE equality of two doubles: the same number or infinity, and not a NaN. -/
def IeeeEq {fused : Bool} (a b : F64 fused) : Prop := a = b ∧ a ≠ .nan

theorem feq_ieee {fused : Bool} (a b : F64 fused) : ArithEq.feq a b = true ↔ IeeeEq a b := by
  cases a <;> cases b <;> simp [ArithEq.feq, IeeeEq]

/-- C07 in full, for IEEE components: `==` holds iff all four pairs of components are IEEE-equal, `!=` is its
negation. -/
def C07_ieee_statement (fused : Bool) : Prop := ∀ p q : Quat (F64 fused),
  (Quat.eqOp p q = true ↔ IeeeEq p.re q.re ∧ IeeeEq p.i q.i ∧ IeeeEq p.j q.j ∧ IeeeEq p.k q.k) ∧
  (Quat.neOp p q = true ↔ ¬ Quat.eqOp p q = true)

/-- C07 for IEEE components, the part that holds: `==` decides IEEE equality of the first three components and
that the second operand's `k` is no NaN; so it is exact whenever the two `k` are the same.
Missing: the comparison of the `k` components (`C07_ieee_violated`). -/
theorem C07_ieee_partial {fused : Bool} (p q : Quat (F64 fused)) :
    (Quat.eqOp p q = true ↔ IeeeEq p.re q.re ∧ IeeeEq p.i q.i ∧ IeeeEq p.j q.j ∧ q.k ≠ .nan) ∧
    (p.k = q.k →
      (Quat.eqOp p q = true ↔ IeeeEq p.re q.re ∧ IeeeEq p.i q.i ∧ IeeeEq p.j q.j ∧ IeeeEq p.k q.k)) ∧
    (Quat.neOp p q = true ↔ ¬ Quat.eqOp p q = true) := by
  have h1 : Quat.eqOp p q = true ↔ IeeeEq p.re q.re ∧ IeeeEq p.i q.i ∧ IeeeEq p.j q.j ∧ q.k ≠ .nan := by
    simp only [Quat.eqOp, Bool.and_eq_true, feq_ieee, and_assoc]
    simp [IeeeEq]
  refine ⟨h1, fun hk => ?_, by simp [Quat.neOp]⟩
  rw [h1]; simp [IeeeEq, hk]

/-- C07 is false of the code on IEEE components too, and `==` is not symmetric: a NaN in the `k` component is
noticed on the right of `==` and ignored on the left. -/
theorem C07_ieee_violated (fused : Bool) : ¬ C07_ieee_statement fused ∧
    ∃ p q : Quat (F64 fused), Quat.eqOp p q = true ∧ Quat.eqOp q p = false ∧ p.k = .nan ∧ q.k ≠ .nan := by
  have key : Quat.eqOp (⟨.num 1, .num 2, .inf true, .nan⟩ : Quat (F64 fused)) ⟨.num 1, .num 2, .inf true, .num 4⟩ = true := by
    rw [(C07_ieee_partial _ _).1]; simp [IeeeEq]
  refine ⟨fun h => ?_, _, _, key, ?_, rfl, by simp⟩
  · have := ((h _ _).1.mp key).2.2.2.1
    simp at this
  · rw [← Bool.not_eq_true, (C07_ieee_partial _ _).1]; simp

/-- Non-trivial case: equal infinities compare equal, quaternions that differ in `j` do not, and a quaternion
with a NaN in the real part is not equal to itself. -/
example (fused : Bool) :
    Quat.eqOp (⟨.num 1, .inf false, .num 3, .num 5⟩ : Quat (F64 fused)) ⟨.num 1, .inf false, .num 3, .num 5⟩ = true ∧
    Quat.neOp (⟨.num 1, .inf false, .num 3, .num 5⟩ : Quat (F64 fused)) ⟨.num 1, .inf false, .num 4, .num 5⟩ = true ∧
    Quat.neOp (⟨.nan, .num 2, .num 3, .num 5⟩ : Quat (F64 fused)) ⟨.nan, .num 2, .num 3, .num 5⟩ = true := by
  refine ⟨?_, ?_, ?_⟩
  · rw [(C07_ieee_partial _ _).1]; simp [IeeeEq]
  · rw [(C07_ieee_partial _ _).2.2, (C07_ieee_partial _ _).1]; simp [IeeeEq]
  · rw [(C07_ieee_partial _ _).2.2, (C07_ieee_partial _ _).1]; simp [IeeeEq]

end Haxx
