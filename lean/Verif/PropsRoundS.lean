import Verif.PropsRound
import Verif.PropsRoundP

/-!
# C57: rounding errors of the quaternion operators

Division and square root are added to the standard model of `Round.lean`. The values the results are compared
with are written with Mathlib's quaternions (`ℍ[ℝ]`, its norm, inverse and `star`).
-/

set_option linter.unusedSectionVars false

namespace Haxx
open Quaternion Finset
open scoped Arith

variable {F : Type} [Arith F] [ArithDiv F] {u : ℝ}

/-- The standard model for division and square root; `ok` results come from `ok` operands, a nonzero
divisor, a radicand that is not negative. -/
structure DivModel (S : StdModel F u) : Prop where
  div_ok : ∀ a b, S.ok (ArithDiv.div a b) → S.ok a ∧ S.ok b ∧ S.val b ≠ 0
  div_err : ∀ a b, S.ok (ArithDiv.div a b) → |S.val (ArithDiv.div a b) - S.val a / S.val b| ≤ u * |S.val a / S.val b|
  sqrt_ok : ∀ a, S.ok (ArithDiv.sqrt a) → S.ok a ∧ 0 ≤ S.val a
  sqrt_err : ∀ a, S.ok (ArithDiv.sqrt a) → |S.val (ArithDiv.sqrt a) - √(S.val a)| ≤ u * √(S.val a)

namespace DivModel
variable {S : StdModel F u} (D : DivModel S)

/-- `x'` is `x` up to a relative error `ρ - 1`. -/
def E (S : StdModel F u) (ρ : ℝ) (x' : F) (x : ℝ) : Prop := S.ok x' → |S.val x' - x| ≤ (ρ - 1) * |x|

theorem E.exact (a : F) : E S 1 a (S.val a) := by intro _; simp

theorem E.neg {ρ : ℝ} {a' : F} {a : ℝ} (h : E S ρ a' a) : E S ρ (~ᶠ a') (-a) := by
  intro ho
  have := h (S.neg_ok _ ho)
  rw [S.neg_val, abs_neg, ← abs_neg, show -(-S.val a' - -a) = S.val a' - a by ring]
  exact this

theorem E.mul {ρ : ℝ} {a' b' : F} {a : ℝ} (h : E S ρ a' a) : E S (ρ * (1 + u)) (a' *ᶠ b') (a * S.val b') := by
  intro ho
  have h1 := h (S.mul_ok _ _ ho).1
  have h2 := S.mul_err _ _ ho
  have hu := S.u_nonneg
  have h3 : |S.val a' * S.val b' - a * S.val b'| ≤ (ρ - 1) * |a * S.val b'| := by
    rw [← sub_mul, abs_mul, abs_mul, ← mul_assoc]
    exact mul_le_mul_of_nonneg_right h1 (abs_nonneg _)
  have h4 := abs_split h3
  have h5 : |S.val (a' *ᶠ b') - a * S.val b'| ≤ |S.val (a' *ᶠ b') - S.val a' * S.val b'| +
      |S.val a' * S.val b' - a * S.val b'| := abs_sub_le _ _ _
  have h6 := mul_le_mul_of_nonneg_left h4 hu
  nlinarith

include D in
/-- Division by a divisor known up to `δ < 1`. -/
theorem E.div {ρ δ : ℝ} {a' n' : F} {a n : ℝ} (h : E S ρ a' a) (hδ : δ < 1) (hn : |S.val n' - n| ≤ δ * |n|) :
    E S (ρ * ((1 + u) / (1 - δ))) (ArithDiv.div a' n') (a / n) := by
  intro ho
  obtain ⟨oa, ob, hne⟩ := D.div_ok _ _ ho
  have h1 := h oa
  have h2 := D.div_err _ _ ho
  have hu := S.u_nonneg
  have h0 : n ≠ 0 := by
    rintro rfl
    simp at hn
    exact hne hn
  have hn0 : 0 < |n| := abs_pos.mpr h0
  have hd : 0 < 1 - δ := by linarith
  have hν : (1 - δ) * |n| ≤ |S.val n'| := by
    have := abs_sub_abs_le_abs_sub n (S.val n')
    rw [abs_sub_comm] at this
    linarith
  have hν0 : 0 < |S.val n'| := lt_of_lt_of_le (by positivity) hν
  -- the quotient of the perturbed values
  have k1 := abs_split h1
  have k2 : |S.val a' / S.val n' - a / n| ≤ ((ρ - 1) + δ) / (1 - δ) * |a / n| := by
    have e : S.val a' / S.val n' - a / n = ((S.val a' - a) * n - a * (S.val n' - n)) / (S.val n' * n) := by
      field_simp; ring
    rw [e, abs_div, abs_div, abs_mul, div_le_iff₀ (by positivity)]
    have k3 : |(S.val a' - a) * n - a * (S.val n' - n)| ≤ ((ρ - 1) + δ) * (|a| * |n|) := by
      refine (abs_sub _ _).trans ?_
      rw [abs_mul, abs_mul]
      have := mul_le_mul_of_nonneg_right h1 hn0.le
      have := mul_le_mul_of_nonneg_left hn (abs_nonneg a)
      nlinarith
    refine k3.trans ?_
    have hρ : 0 ≤ ((ρ - 1) + δ) * (|a| * |n|) := (abs_nonneg _).trans k3
    have e2 : ((ρ - 1) + δ) / (1 - δ) * (|a| / |n|) * (|S.val n'| * |n|) =
        (((ρ - 1) + δ) * (|a| * |n|)) * (|S.val n'| / ((1 - δ) * |n|)) := by
      field_simp
    rw [e2]
    have : 1 ≤ |S.val n'| / ((1 - δ) * |n|) := by rwa [one_le_div (by positivity)]
    nlinarith
  have k4 := abs_split k2
  have k5 : |S.val (ArithDiv.div a' n') - a / n| ≤ |S.val (ArithDiv.div a' n') - S.val a' / S.val n'| +
      |S.val a' / S.val n' - a / n| := abs_sub_le _ _ _
  have k6 := mul_le_mul_of_nonneg_left k4 hu
  have e3 : (ρ * ((1 + u) / (1 - δ)) - 1) * |a / n| =
      u * (|a / n| + ((ρ - 1) + δ) / (1 - δ) * |a / n|) + ((ρ - 1) + δ) / (1 - δ) * |a / n| := by
    field_simp; ring
  linarith

/-- Componentwise relative error gives the same relative error in norm. -/
theorem E.norm {ρ : ℝ} {x' : Quat F} {x : Quat ℝ} (h : E S ρ x'.re x.re ∧ E S ρ x'.i x.i ∧ E S ρ x'.j x.j ∧ E S ρ x'.k x.k)
    (hρ : 1 ≤ ρ) (ho : x'.All S.ok) : ‖(x'.map S.val).toH - x.toH‖ ≤ (ρ - 1) * ‖x.toH‖ := by
  have e : (x'.map S.val).toH - x.toH =
      (⟨S.val x'.re - x.re, S.val x'.i - x.i, S.val x'.j - x.j, S.val x'.k - x.k⟩ : Quat ℝ).toH := by
    ext <;> simp [Quat.map]
  rw [e]
  refine norm_le_of_comp.le_of_sq_le_sq' ?_ (mul_nonneg (by linarith) (norm_nonneg _))
  rw [mul_pow, norm_sq_toH, norm_sq_toH]
  have f : ∀ a b : ℝ, |a| ≤ (ρ - 1) * |b| → a ^ 2 ≤ (ρ - 1) ^ 2 * b ^ 2 := fun a b hab => by
    rw [← sq_abs a, ← sq_abs b, ← mul_pow]; exact pow_le_pow_left₀ (abs_nonneg _) hab 2
  have := f _ _ (h.1 ho.1)
  have := f _ _ (h.2.1 ho.2.1)
  have := f _ _ (h.2.2.1 ho.2.2.1)
  have := f _ _ (h.2.2.2 ho.2.2.2)
  dsimp only
  linarith

theorem sqrt_near {x S e : ℝ} (hx : 0 ≤ x) (hS : 0 ≤ S) (h : |x - S| ≤ e * S) : |√x - √S| ≤ e * √S := by
  rcases hS.eq_or_lt with rfl | hS
  · simp at h
    simp [h]
  have hs : 0 < √S := Real.sqrt_pos.mpr hS
  have hr := Real.sqrt_nonneg x
  have e1 : (√x - √S) * (√x + √S) = x - S := by
    have := Real.sq_sqrt hx
    have := Real.sq_sqrt hS.le
    nlinarith
  have e2 : |√x - √S| * (√x + √S) = |x - S| := by
    rw [← e1, abs_mul, abs_of_nonneg (a := √x + √S) (by linarith)]
  have e3 : |√x - √S| * √S ≤ (e * √S) * √S := by
    have : e * √S * √S = e * S := by rw [mul_assoc, Real.mul_self_sqrt hS.le]
    rw [this]
    have := mul_nonneg (abs_nonneg (√x - √S)) hr
    nlinarith
  exact le_of_mul_le_mul_right e3 hs

end DivModel

open DivModel

variable {S : StdModel F u}

/-- C57, `norm`: relative error at most `(1+u)^5 - 1`. -/
theorem C57_norm (D : DivModel S) (q : Quat F) (ho : S.ok q.norm) :
    |S.val q.norm - ‖(q.map S.val).toH‖| ≤ ((1 + u) ^ 5 - 1) * ‖(q.map S.val).toH‖ := by
  obtain ⟨o1, h0⟩ := D.sqrt_ok _ ho
  have h1 := D.sqrt_err _ ho
  set N := q.re *ᶠ q.re +ᶠ q.i *ᶠ q.i +ᶠ q.j *ᶠ q.j +ᶠ q.k *ᶠ q.k with hN
  have hq : q.norm = ArithDiv.sqrt N := rfl
  set n := ‖(q.map S.val).toH‖ with hn
  have hnn : 0 ≤ n := norm_nonneg _
  have hsq : n ^ 2 = S.val q.re ^ 2 + S.val q.i ^ 2 + S.val q.j ^ 2 + S.val q.k ^ 2 := norm_sq_toH _
  have hR : S.R 4 N (n ^ 2) (n ^ 2) := by
    have r := fun x : F => (StdModel.R.exact (S := S) (p := 0) x).mul (StdModel.R.exact (S := S) (p := 0) x)
    have := ((((r q.re).addL (r q.i) (n := 2) (by omega) (by omega)).addL (r q.j) (n := 3) (by omega) (by omega)).addL (r q.k)
      (n := 4) (by omega) (by omega))
    simp only [← sq, sq_abs] at this
    rw [← hsq] at this
    exact this
  have h2 := hR.1 o1
  have h3 := sqrt_near h0 (sq_nonneg n) h2
  rw [Real.sqrt_sq hnn] at h3
  rw [hq]
  have hu := S.u_nonneg
  have h4 : |S.val (ArithDiv.sqrt N) - n| ≤ |S.val (ArithDiv.sqrt N) - √(S.val N)| + |√(S.val N) - n| := abs_sub_le _ _ _
  have h5 := abs_split h3
  rw [abs_of_nonneg (Real.sqrt_nonneg _), abs_of_nonneg hnn] at h5
  have h6 := mul_le_mul_of_nonneg_left h5 hu
  have : (1 + u) ^ 5 = (1 + u) ^ 4 * (1 + u) := by ring
  rw [this]
  nlinarith

/-- the part common to `versor` and `inv` -/
theorem norm_close (D : DivModel S) (q : Quat F) (ho : S.ok q.norm) :
    |S.val q.norm - ‖(q.map S.val).toH‖| ≤ ((1 + u) ^ 5 - 1) * |‖(q.map S.val).toH‖| := by
  rw [abs_of_nonneg (norm_nonneg _)]
  exact C57_norm D q ho

/-- The factor by which a division by the computed norm can be off. -/
noncomputable def nrmFactor (u : ℝ) : ℝ := (1 + u) / (2 - (1 + u) ^ 5)

theorem nrmFactor_ge (hu : 0 ≤ u) (h : (1 + u) ^ 5 < 2) : 1 ≤ nrmFactor u := by
  unfold nrmFactor
  rw [le_div_iff₀ (by linarith)]
  have : (1:ℝ) ≤ (1 + u) ^ 5 := one_le_pow₀ (by linarith)
  linarith

theorem E.divNorm (D : DivModel S) {ρ : ℝ} {a' : F} {a : ℝ} (q : Quat F) (h5 : (1 + u) ^ 5 < 2) (h : E S ρ a' a) :
    E S (ρ * nrmFactor u) (ArithDiv.div a' q.norm) (a / ‖(q.map S.val).toH‖) := by
  intro ho
  have := (D.div_ok _ _ ho).2.1
  have := DivModel.E.div D h (δ := (1 + u) ^ 5 - 1) (by linarith) (norm_close D q this) ho
  unfold nrmFactor
  rwa [show (2:ℝ) - (1 + u) ^ 5 = 1 - ((1 + u) ^ 5 - 1) by ring]

/-- C57, `versor` (`q / norm(q)`): relative error at most `(1+u)/(2-(1+u)^5) - 1` (about `6u`). -/
theorem C57_versor (D : DivModel S) (h5 : (1 + u) ^ 5 < 2) (q : Quat F) (ho : q.versor.All S.ok) :
    ‖(q.versor.map S.val).toH - ‖(q.map S.val).toH‖⁻¹ • (q.map S.val).toH‖ ≤ (1 + u) / (2 - (1 + u) ^ 5) - 1 := by
  set n := ‖(q.map S.val).toH‖ with hn
  have h := E.norm (S := S) (ρ := 1 * nrmFactor u) (x' := q.versor)
    (x := ⟨S.val q.re / n, S.val q.i / n, S.val q.j / n, S.val q.k / n⟩)
    ⟨E.divNorm D q h5 (.exact _), E.divNorm D q h5 (.exact _), E.divNorm D q h5 (.exact _), E.divNorm D q h5 (.exact _)⟩
    (by rw [one_mul]; exact nrmFactor_ge S.u_nonneg h5) ho
  have e : (⟨S.val q.re / n, S.val q.i / n, S.val q.j / n, S.val q.k / n⟩ : Quat ℝ).toH = n⁻¹ • (q.map S.val).toH := by
    ext <;> simp [Quat.map, div_eq_inv_mul]
  rw [e, one_mul, norm_smul, norm_inv, ← hn, Real.norm_of_nonneg (norm_nonneg _)] at h
  have h1 := nrmFactor_ge S.u_nonneg h5
  refine h.trans ?_
  change (nrmFactor u - 1) * (n⁻¹ * n) ≤ nrmFactor u - 1
  have : n⁻¹ * n ≤ 1 := by
    rcases eq_or_ne n 0 with h | h
    · simp [h]
    · rw [inv_mul_cancel₀ h]
  nlinarith

theorem inv_comps (D : DivModel S) (h5 : (1 + u) ^ 5 < 2) (q : Quat F) :
    E S (nrmFactor u ^ 2) q.inv.re ((q.map S.val).toH⁻¹).re ∧ E S (nrmFactor u ^ 2) q.inv.i ((q.map S.val).toH⁻¹).imI ∧
    E S (nrmFactor u ^ 2) q.inv.j ((q.map S.val).toH⁻¹).imJ ∧ E S (nrmFactor u ^ 2) q.inv.k ((q.map S.val).toH⁻¹).imK := by
  have e : ∀ c : ℝ, c / ‖(q.map S.val).toH‖ / ‖(q.map S.val).toH‖ = (normSq (q.map S.val).toH)⁻¹ * c := by
    intro c
    rw [normSq_eq_norm_mul_self, div_div, div_eq_inv_mul]
  have k : ∀ (a' : F) (a : ℝ), E S 1 a' a → E S (nrmFactor u ^ 2) (ArithDiv.div (ArithDiv.div a' q.norm) q.norm)
      ((normSq (q.map S.val).toH)⁻¹ * a) := by
    intro a' a h
    have := E.divNorm D q h5 (E.divNorm D q h5 h)
    rw [e] at this
    rwa [one_mul, ← sq] at this
  have hi : (q.map S.val).toH⁻¹ = (normSq (q.map S.val).toH)⁻¹ • star (q.map S.val).toH := rfl
  rw [hi]
  refine ⟨?_, ?_, ?_, ?_⟩
  · have := k q.re (S.val q.re) (E.exact _)
    simpa [Quat.map, Quat.inv, Quat.divReal, Quat.divAssignReal, Quat.conj] using this
  · have := k (~ᶠ q.i) (-(S.val q.i)) (E.exact _).neg
    simpa [Quat.map, Quat.inv, Quat.divReal, Quat.divAssignReal, Quat.conj] using this
  · have := k (~ᶠ q.j) (-(S.val q.j)) (E.exact _).neg
    simpa [Quat.map, Quat.inv, Quat.divReal, Quat.divAssignReal, Quat.conj] using this
  · have := k (~ᶠ q.k) (-(S.val q.k)) (E.exact _).neg
    simpa [Quat.map, Quat.inv, Quat.divReal, Quat.divAssignReal, Quat.conj] using this

/-- C57, `inv`: relative error at most `((1+u)/(2-(1+u)^5))^2 - 1` (about `12u`). -/
theorem C57_inv (D : DivModel S) (h5 : (1 + u) ^ 5 < 2) (q : Quat F) (ho : q.inv.All S.ok) :
    ‖(q.inv.map S.val).toH - (q.map S.val).toH⁻¹‖ ≤ (((1 + u) / (2 - (1 + u) ^ 5)) ^ 2 - 1) * ‖(q.map S.val).toH‖⁻¹ := by
  have h := E.norm (S := S) (x' := q.inv) (x := Quat.ofH (q.map S.val).toH⁻¹) (inv_comps D h5 q)
    (one_le_pow₀ (nrmFactor_ge S.u_nonneg h5)) ho
  rw [← norm_inv]
  exact h

/-- C57, real number divided by a quaternion: relative error at most `(1+u) ((1+u)/(2-(1+u)^5))^2 - 1`. -/
theorem C57_real_div (D : DivModel S) (h5 : (1 + u) ^ 5 < 2) (x : F) (q : Quat F) (ho : (Quat.realDiv x q).All S.ok) :
    ‖((Quat.realDiv x q).map S.val).toH - ((S.val x : ℝ) : ℍ[ℝ]) * (q.map S.val).toH⁻¹‖ ≤
      ((1 + u) * ((1 + u) / (2 - (1 + u) ^ 5)) ^ 2 - 1) * (|S.val x| * ‖(q.map S.val).toH‖⁻¹) := by
  obtain ⟨h0, h1, h2, h3⟩ := inv_comps D h5 q
  have hu := S.u_nonneg
  have hg : 1 ≤ nrmFactor u ^ 2 := one_le_pow₀ (nrmFactor_ge hu h5)
  have h := E.norm (S := S) (x' := Quat.realDiv x q) (x := Quat.ofH ((q.map S.val).toH⁻¹ * ((S.val x : ℝ) : ℍ[ℝ])))
    (ρ := nrmFactor u ^ 2 * (1 + u)) (by
      refine ⟨?_, ?_, ?_, ?_⟩
      · have := E.mul (b' := x) h0; simpa [Quat.ofH, Quat.realDiv, Quat.mulAssignReal] using this
      · have := E.mul (b' := x) h1; simpa [Quat.ofH, Quat.realDiv, Quat.mulAssignReal] using this
      · have := E.mul (b' := x) h2; simpa [Quat.ofH, Quat.realDiv, Quat.mulAssignReal] using this
      · have := E.mul (b' := x) h3; simpa [Quat.ofH, Quat.realDiv, Quat.mulAssignReal] using this)
    (by nlinarith) ho
  rw [Quaternion.coe_commutes, ← norm_inv, ← Real.norm_eq_abs, ← Quaternion.norm_coe (S.val x), mul_comm ‖_‖, ← norm_mul]
  rw [show (1 + u) * ((1 + u) / (2 - (1 + u) ^ 5)) ^ 2 = nrmFactor u ^ 2 * (1 + u) by unfold nrmFactor; ring] 
  exact h

/-- C57, quaternion divided by a real number: relative error at most `u`. -/
theorem C57_div_real (D : DivModel S) (q : Quat F) (x : F) (ho : (Quat.divReal q x).All S.ok) :
    ‖((Quat.divReal q x).map S.val).toH - (S.val x)⁻¹ • (q.map S.val).toH‖ ≤ u * (|S.val x|⁻¹ * ‖(q.map S.val).toH‖) := by
  have k : ∀ a : F, E S (1 + u) (ArithDiv.div a x) ((S.val x)⁻¹ * S.val a) := by
    intro a o
    rw [← div_eq_inv_mul, show (1 + u - 1 : ℝ) = u by ring]
    exact D.div_err _ _ o
  have h := E.norm (S := S) (x' := Quat.divReal q x) (x := Quat.ofH ((S.val x)⁻¹ • (q.map S.val).toH)) (ρ := 1 + u)
    ⟨by simpa [Quat.ofH, Quat.map, Quat.divReal, Quat.divAssignReal] using k q.re, by simpa [Quat.ofH, Quat.map, Quat.divReal, Quat.divAssignReal] using k q.i,
      by simpa [Quat.ofH, Quat.map, Quat.divReal, Quat.divAssignReal] using k q.j, by simpa [Quat.ofH, Quat.map, Quat.divReal, Quat.divAssignReal] using k q.k⟩
    (by linarith [S.u_nonneg]) ho
  rw [show (1 + u - 1 : ℝ) = u by ring] at h
  have e : ‖(Quat.ofH ((S.val x)⁻¹ • (q.map S.val).toH)).toH‖ = |S.val x|⁻¹ * ‖(q.map S.val).toH‖ := by
    change ‖(S.val x)⁻¹ • (q.map S.val).toH‖ = _
    rw [norm_smul, norm_inv, Real.norm_eq_abs]
  rw [e] at h
  exact h

/-! ### products, sums, commutators -/

omit [ArithDiv F] in
/-- C57, the product of two quaternions, portable operator and AVX operator, and the AVX product with the first
factor conjugated. -/
theorem C57_mul (S : StdModel F u) (x y : Quat F) :
    ((Quat.mul x y).All S.ok → ‖((Quat.mul x y).map S.val).toH - (x.map S.val).toH * (y.map S.val).toH‖ ≤
      2 * (((1 + u) ^ 4 - 1) * (‖(x.map S.val).toH‖ * ‖(y.map S.val).toH‖))) ∧
    ((Quat.mulAVX x y).All S.ok → ‖((Quat.mulAVX x y).map S.val).toH - (x.map S.val).toH * (y.map S.val).toH‖ ≤
      2 * (((1 + u) ^ 3 - 1) * (‖(x.map S.val).toH‖ * ‖(y.map S.val).toH‖))) ∧
    ((MULDQ_CN x y).All S.ok → ‖((MULDQ_CN x y).map S.val).toH - star (x.map S.val).toH * (y.map S.val).toH‖ ≤
      2 * (((1 + u) ^ 3 - 1) * (‖(x.map S.val).toH‖ * ‖(y.map S.val).toH‖))) := by
  refine ⟨fun ho => ?_, fun ho => ?_, fun ho => ?_⟩
  · have := (StdModel.QR.mul (S := S) (p := 0) (q := 0) (.exact x) (.exact y)).norm ho
    rw [norm_abs, norm_abs, toH_mul] at this
    exact this
  · have := (StdModel.QR.mulNN (S := S) (p := 0) (q := 0) (.exact x) (.exact y)).norm ho
    have e := (C02_simd_product (x.map S.val) (y.map S.val)).1
    unfold Quat.mulAVX at e
    rw [norm_abs, norm_abs, e, toH_mul] at this
    exact this
  · have := (StdModel.QR.mulNN (S := S) (p := 0) (q := 0) (StdModel.QR.conj (.exact x)) (.exact y)).norm ho
    have e := (C02_simd_product (x.map S.val) (y.map S.val)).2
    unfold MULDQ_CN at e
    rw [norm_abs, norm_abs, e, toH_mul, toH_conj] at this
    exact this

omit [ArithDiv F] in
/-- C57, a product with a real or complex factor on either side. -/
theorem C57_mul_scalar (S : StdModel F u) (s : Scal F) (q : Quat F) :
    ((s.mulL q).All S.ok → ‖((s.mulL q).map S.val).toH - (s.map S.val).toH * (q.map S.val).toH‖ ≤
      2 * (((1 + u) ^ 4 - 1) * (‖(s.map S.val).toH‖ * ‖(q.map S.val).toH‖))) ∧
    ((Scal.mulR q s).All S.ok → ‖((Scal.mulR q s).map S.val).toH - (q.map S.val).toH * (s.map S.val).toH‖ ≤
      2 * (((1 + u) ^ 4 - 1) * (‖(s.map S.val).toH‖ * ‖(q.map S.val).toH‖))) := by
  refine ⟨fun ho => ?_, fun ho => ?_⟩
  · have := (StdModel.QR.mulL (S := S) (p := 0) (q := 0) (.exact s) (.exact q)).norm ho
    rw [StdModel.norm_emb, norm_abs, StdModel.toH_mulL] at this
    exact this
  · have := (StdModel.QR.mulR (S := S) (p := 0) (q := 0) (.exact s) (.exact q)).norm ho
    rw [StdModel.norm_emb, norm_abs, StdModel.toH_mulR] at this
    exact this

/-- C57, sums and differences: relative error at most `u`. -/
theorem C57_add_sub (S : StdModel F u) (hS : S.Strict) (x y : Quat F) :
    ((Quat.add x y).All S.ok → ‖((Quat.add x y).map S.val).toH - ((x.map S.val).toH + (y.map S.val).toH)‖ ≤
      u * ‖(x.map S.val).toH + (y.map S.val).toH‖) ∧
    ((Quat.sub x y).All S.ok → ‖((Quat.sub x y).map S.val).toH - ((x.map S.val).toH - (y.map S.val).toH)‖ ≤
      u * ‖(x.map S.val).toH - (y.map S.val).toH‖) := by
  refine ⟨fun ho => ?_, fun ho => ?_⟩
  · have k : ∀ a b : F, E S (1 + u) (a +ᶠ b) (S.val a + S.val b) := fun a b o => by
      rw [show (1 + u - 1 : ℝ) = u by ring]; exact hS.1 _ _ o
    have h := E.norm (S := S) (x' := Quat.add x y) (x := Quat.ofH ((x.map S.val).toH + (y.map S.val).toH)) (ρ := 1 + u)
      ⟨k _ _, k _ _, k _ _, k _ _⟩ (by linarith [S.u_nonneg]) ho
    rw [show (1 + u - 1 : ℝ) = u by ring] at h
    exact h
  · have k : ∀ a b : F, E S (1 + u) (a -ᶠ b) (S.val a - S.val b) := fun a b o => by
      rw [show (1 + u - 1 : ℝ) = u by ring]; exact hS.2 _ _ o
    have h := E.norm (S := S) (x' := Quat.sub x y) (x := Quat.ofH ((x.map S.val).toH - (y.map S.val).toH)) (ρ := 1 + u)
      ⟨k _ _, k _ _, k _ _, k _ _⟩ (by linarith [S.u_nonneg]) ho
    rw [show (1 + u - 1 : ℝ) = u by ring] at h
    exact h

omit [ArithDiv F] in
theorem StdModel.QR.subB {S : StdModel F u} {p : ℕ} {x' y' : Quat F} {x y : Quat ℝ} {s t : ℝ}
    (h : S.QR p x' x (broadcast s)) (g : S.QR p y' y (broadcast t)) :
    S.QR (p + 1) (Quat.sub x' y') (Quat.sub x y) (broadcast (s + t)) :=
  ⟨h.1.sub g.1, h.2.1.sub g.2.1, h.2.2.1.sub g.2.2.1, h.2.2.2.sub g.2.2.2⟩

/-- `comm(quaternion,quaternion)` — `haxx_quaternion_reduction.hpp:88-93`, with the AVX `operator*`. -/
def Quat.commAVX (p q : Quat F) : Quat F := sub (mulAVX p q) (mulAVX q p)

omit [ArithDiv F] in
/-- C57, commutators of quaternions (portable and AVX product) and of a quaternion with a complex number. -/
theorem C57_comm (S : StdModel F u) (p q : Quat F) (z : Cplx F) :
    ((Quat.comm p q).All S.ok → ‖((Quat.comm p q).map S.val).toH -
        ((p.map S.val).toH * (q.map S.val).toH - (q.map S.val).toH * (p.map S.val).toH)‖ ≤
      4 * (((1 + u) ^ 5 - 1) * (‖(p.map S.val).toH‖ * ‖(q.map S.val).toH‖))) ∧
    ((Quat.commAVX p q).All S.ok → ‖((Quat.commAVX p q).map S.val).toH -
        ((p.map S.val).toH * (q.map S.val).toH - (q.map S.val).toH * (p.map S.val).toH)‖ ≤
      4 * (((1 + u) ^ 4 - 1) * (‖(p.map S.val).toH‖ * ‖(q.map S.val).toH‖))) ∧
    ((Quat.commC p z).All S.ok → ‖((Quat.commC p z).map S.val).toH -
        ((p.map S.val).toH * (Scal.map S.val (.z z)).toH - (Scal.map S.val (.z z)).toH * (p.map S.val).toH)‖ ≤
      4 * (((1 + u) ^ 5 - 1) * (‖(p.map S.val).toH‖ * ‖(Scal.map S.val (.z z)).toH‖))) := by
  refine ⟨fun ho => ?_, fun ho => ?_, fun ho => ?_⟩
  · have h1 := StdModel.QR.mul (S := S) (p := 0) (q := 0) (.exact p) (.exact q)
    have h2 := StdModel.QR.mul (S := S) (p := 0) (q := 0) (.exact q) (.exact p)
    have := (h1.subB h2).norm ho
    rw [norm_abs, norm_abs] at this
    have e := (C06_comm (p.map S.val) (q.map S.val) ⟨0, 0⟩ 0).1
    unfold Quat.comm at e
    rw [e] at this
    refine this.trans (le_of_eq ?_)
    ring
  · have h1 := StdModel.QR.mulNN (S := S) (p := 0) (q := 0) (.exact p) (.exact q)
    have h2 := StdModel.QR.mulNN (S := S) (p := 0) (q := 0) (.exact q) (.exact p)
    have := (h1.subB h2).norm ho
    rw [norm_abs, norm_abs] at this
    have e1 := (C02_simd_product (p.map S.val) (q.map S.val)).1
    have e2 := (C02_simd_product (q.map S.val) (p.map S.val)).1
    have e := (C06_comm (p.map S.val) (q.map S.val) ⟨0, 0⟩ 0).1
    unfold Quat.mulAVX at e1 e2
    unfold Quat.comm at e
    rw [e1, e2, e] at this
    refine this.trans (le_of_eq ?_)
    ring
  · have h1 := StdModel.QR.mulR (S := S) (p := 0) (q := 0) (.exact (.z z)) (.exact p)
    have h2 := StdModel.QR.mulL (S := S) (p := 0) (q := 0) (.exact (.z z)) (.exact p)
    have := (h1.subB h2).norm ho
    rw [StdModel.norm_emb, norm_abs] at this
    have e := (C06_comm (p.map S.val) (p.map S.val) ⟨S.val z.re, S.val z.im⟩ 0).2.1
    refine le_trans (le_of_eq ?_) (this.trans (le_of_eq ?_))
    · congr 2
      exact e.symm
    · ring

/-! ### the hypotheses are satisfiable -/

/-- Division and square root rounded by `rnd`, out of range or undefined results being `none`. -/
noncomputable instance (rnd : ℝ → ℝ) (rng : ℝ → Prop) (fused : Bool) : ArithDiv (Fl rnd rng fused) where
  div a b := Option.bind a fun x => Option.bind b fun y => if y = 0 then none else flRes rnd rng (x / y)
  sqrt a := Option.bind a fun x => if x < 0 then none else flRes rnd rng (√x)

theorem flDiv (rnd : ℝ → ℝ) (rng : ℝ → Prop) (fused : Bool) (u : ℝ) (hu : 0 ≤ u) (hr : ∀ x, |rnd x - x| ≤ u * |x|) :
    DivModel (flModel rnd rng fused u hu hr) where
  div_ok a b h := by
    cases a with
    | none => cases h
    | some x => cases b with
      | none => cases h
      | some y =>
        refine ⟨rfl, rfl, ?_⟩
        rintro (rfl : y = 0)
        simp [flModel, ArithDiv.div] at h
  div_err a b h := by
    cases a with
    | none => cases h
    | some x => cases b with
      | none => cases h
      | some y =>
        have hy : y ≠ 0 := by
          rintro rfl
          simp [flModel, ArithDiv.div] at h
        change (if y = 0 then none else flRes rnd rng (x / y)).isSome = true at h
        change |Option.getD (if y = 0 then none else flRes rnd rng (x / y)) 0 - x / y| ≤ u * |x / y|
        rw [if_neg hy] at h ⊢
        obtain ⟨v, hv⟩ := Option.isSome_iff_exists.mp h
        rw [hv, Option.getD_some, flRes_some hv]
        exact hr _
  sqrt_ok a h := by
    cases a with
    | none => cases h
    | some x =>
      refine ⟨rfl, ?_⟩
      change 0 ≤ x
      by_contra hx
      change (if x < 0 then none else flRes rnd rng (√x)).isSome = true at h
      rw [if_pos (not_le.mp hx)] at h
      cases h
  sqrt_err a h := by
    cases a with
    | none => cases h
    | some x =>
      change (if x < 0 then none else flRes rnd rng (√x)).isSome = true at h
      change |Option.getD (if x < 0 then none else flRes rnd rng (√x)) 0 - √x| ≤ u * √x
      by_cases hx : x < 0
      · rw [if_pos hx] at h; cases h
      rw [if_neg hx] at h ⊢
      obtain ⟨v, hv⟩ := Option.isSome_iff_exists.mp h
      rw [hv, Option.getD_some, flRes_some hv]
      have := hr (√x)
      rwa [abs_of_nonneg (Real.sqrt_nonneg x)] at this

/-- 53-bit truncating arithmetic with overflow beyond `2^1024`. -/
theorem chop53_div (fused : Bool) : DivModel (chop53 fused) := flDiv _ _ _ _ _ _

/-- Sums and differences in 53-bit arithmetic. -/
example (fused : Bool) := C57_add_sub (chop53 fused) (flModel_strict ..)

/-- Its unit roundoff is small enough for `C57_versor`, `C57_inv`, `C57_real_div`. -/
theorem chop53_small : (1 + (2:ℝ)⁻¹ ^ 52) ^ 5 < 2 := by norm_num

theorem chop_pos {x : ℝ} (h : 0 < x) : 0 < chop 52 x := by
  have := chop_err 52 x
  rw [abs_of_pos h, abs_le] at this
  have h2 : (2:ℝ)⁻¹ ^ 52 * x < x := by
    have : (2:ℝ)⁻¹ ^ 52 < 1 := by norm_num
    nlinarith
  linarith [this.1]

theorem chop_nonneg {x : ℝ} (h : 0 ≤ x) : 0 ≤ chop 52 x := by
  rcases h.eq_or_lt with rfl | h
  · simp [chop]
  · exact (chop_pos h).le

/-- A quaternion of reals as one of machine numbers. -/
def Quat.asChop (q : Quat ℝ) : Quat Chop := ⟨some q.re, some q.i, some q.j, some q.k⟩

/-- In 53-bit arithmetic without overflow the hypotheses of `C57_norm`, `C57_versor`, `C57_inv`, `C57_real_div` hold of every
nonzero quaternion. -/
theorem quatOps_example (q : Quat ℝ) (hq : q ≠ ⟨0, 0, 0, 0⟩) (a : ℝ) :
    DivModel chopModel ∧ chopModel.ok (Quat.norm (q.asChop) : Chop) ∧
    (Quat.versor (q.asChop) : Quat Chop).All chopModel.ok ∧ (Quat.inv (q.asChop) : Quat Chop).All chopModel.ok ∧
    (Quat.realDiv (F := Chop) (some a) q.asChop).All chopModel.ok := by
  have hn : ∃ n : ℝ, (Quat.norm (q.asChop) : Chop) = some n ∧ n ≠ 0 := by
    set s := chop 52 (chop 52 (chop 52 (chop 52 (q.re * q.re) + chop 52 (q.i * q.i)) + chop 52 (q.j * q.j)) +
      chop 52 (q.k * q.k)) with hs
    have h0 := chop_nonneg (mul_self_nonneg q.re)
    have h1 := chop_nonneg (mul_self_nonneg q.i)
    have h2 := chop_nonneg (mul_self_nonneg q.j)
    have h3 := chop_nonneg (mul_self_nonneg q.k)
    have h01 := chop_nonneg (add_nonneg h0 h1)
    have h012 := chop_nonneg (add_nonneg h01 h2)
    have sp : 0 < s := by
      by_cases a3 : q.k = 0
      · by_cases a2 : q.j = 0
        · have : 0 < chop 52 (q.re * q.re) + chop 52 (q.i * q.i) := by
            by_cases a1 : q.i = 0
            · have a0 : q.re ≠ 0 := by
                intro a0; apply hq
                cases q; simp_all
              have := chop_pos (mul_self_pos.mpr a0)
              linarith
            · have := chop_pos (mul_self_pos.mpr a1)
              linarith
          have := chop_pos this
          have : 0 < chop 52 (chop 52 (q.re * q.re) + chop 52 (q.i * q.i)) + chop 52 (q.j * q.j) := by linarith
          have := chop_pos this
          exact chop_pos (by linarith)
        · have := chop_pos (mul_self_pos.mpr a2)
          have : 0 < chop 52 (chop 52 (q.re * q.re) + chop 52 (q.i * q.i)) + chop 52 (q.j * q.j) := by linarith
          have := chop_pos this
          exact chop_pos (by linarith)
      · have := chop_pos (mul_self_pos.mpr a3)
        exact chop_pos (by linarith)
    refine ⟨chop 52 (√s), ?_, (chop_pos (Real.sqrt_pos.mpr sp)).ne'⟩
    have ad : ∀ x y : ℝ, Arith.add (F := Chop) (some x) (some y) = some (chop 52 (x + y)) := fun x y => by
      simp [Arith.add, flRes]; rfl
    have mu : ∀ x : ℝ, Arith.mul (F := Chop) (some x) (some x) = some (chop 52 (x * x)) := fun x => by
      simp [Arith.mul, flRes]; rfl
    unfold Quat.norm Quat.asChop
    dsimp only
    rw [mu, mu, mu, mu, ad, ad, ad, ← hs]
    simp only [ArithDiv.sqrt, Option.bind_some, flRes, if_true, if_neg (not_lt.mpr sp.le)]
    rfl
  obtain ⟨n, hn, n0⟩ := hn
  have dv : ∀ x : ℝ, ∃ y : ℝ, ArithDiv.div (F := Chop) (some x) (Quat.norm (q.asChop)) = some y := by
    intro x
    rw [hn]
    refine ⟨chop 52 (x / n), ?_⟩
    simp [ArithDiv.div, n0, flRes]; rfl
  have iv : ∀ x : ℝ, ∃ y : ℝ,
      ArithDiv.div (F := Chop) (ArithDiv.div (F := Chop) (some x) (Quat.norm (q.asChop))) (Quat.norm (q.asChop)) = some y := by
    intro x
    obtain ⟨y, hy⟩ := dv x
    rw [hy]
    exact dv y
  have ok : ∀ (x : Chop), (∃ y : ℝ, x = some y) → chopModel.ok x := by
    rintro _ ⟨y, rfl⟩; rfl
  have ml : ∀ (x : Chop), (∃ y : ℝ, x = some y) → chopModel.ok (Arith.mul (F := Chop) x (some a)) := by
    rintro _ ⟨y, rfl⟩
    exact ok _ ⟨chop 52 (y * a), by simp [Arith.mul, flRes]; rfl⟩
  refine ⟨flDiv _ _ _ _ _ _, ok _ ⟨n, hn⟩, ?_, ?_, ?_⟩
  · exact ⟨ok _ (dv q.re), ok _ (dv q.i), ok _ (dv q.j), ok _ (dv q.k)⟩
  · exact ⟨ok _ (iv q.re), ok _ (iv (-q.i)), ok _ (iv (-q.j)), ok _ (iv (-q.k))⟩
  · exact ⟨ml _ (iv q.re), ml _ (iv (-q.i)), ml _ (iv (-q.j)), ml _ (iv (-q.k))⟩

/-- A limit of the code that C57 (which speaks of results that are numbers) does not hide: `norm` squares the components
without scaling, so for real `x` with `2^513 ≤ |x| < 2^1024` it overflows, although the exact norm `|x|` is in range. -/
theorem C57_norm_overflow (fused : Bool) (x : ℝ) (hx : (2:ℝ) ^ 513 ≤ |x|) (i j k : ℝ) :
    ¬ (chop53 fused).ok (Quat.norm (F := Fl (chop 52) (fun x => |x| < (2:ℝ) ^ 1024) fused)
      ⟨some x, some i, some j, some k⟩) := by
  have hb : ¬ |chop 52 (x * x)| < (2:ℝ) ^ 1024 := by
    rw [not_lt]
    have h1 := chop_err 52 (x * x)
    have h2 := abs_sub_abs_le_abs_sub (x * x) (chop 52 (x * x))
    rw [abs_sub_comm] at h2
    rw [abs_mul] at h1 h2
    have h3 : ((2:ℝ) ^ 513) * (2:ℝ) ^ 513 ≤ |x| * |x| := mul_le_mul hx hx (by positivity) (abs_nonneg _)
    have h4 : (2:ℝ)⁻¹ ^ 52 * (|x| * |x|) ≤ 1 / 2 * (|x| * |x|) :=
      mul_le_mul_of_nonneg_right (by norm_num) (by positivity)
    have h5 : (2:ℝ) ^ 513 = 2 ^ 512 * 2 := pow_succ 2 512
    have h6 : (2:ℝ) ^ 1024 = 2 ^ 512 * 2 ^ 512 := pow_add 2 512 512
    rw [h5] at h3
    rw [h6]
    generalize (2:ℝ)⁻¹ ^ 52 = v at h1 h4
    generalize (2:ℝ) ^ 512 = P at h3 ⊢
    nlinarith [mul_self_nonneg P]
  have e : Quat.norm (F := Fl (chop 52) (fun x => |x| < (2:ℝ) ^ 1024) fused) ⟨some x, some i, some j, some k⟩ = none := by
    unfold Quat.norm
    simp only [ArithDiv.sqrt, Arith.add, Arith.mul, Option.bind_some, flRes, if_neg hb, Option.bind_none]
    rfl
  rw [e]
  intro h; cases h

end Haxx
