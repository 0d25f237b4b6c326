import Verif.QuatLemmas
import Mathlib.Analysis.Real.Sqrt
import Mathlib.Tactic.FieldSimp
import Mathlib.Tactic.Positivity

/-!
# Property theorems: the quaternion class and the register kernels (C01–C10)
-/

namespace Haxx
open Quaternion

section ring
variable {R : Type} [CommRing R]

/-! ### C01 -/

/-- C01. `x*y`, `x+y`, `x-y`, `-x` denote the operations of `ℍ[R]` on all inputs. -/
theorem C01_hamilton (x y : Quat R) :
    (Quat.mul x y).toH = x.toH * y.toH ∧ (Quat.add x y).toH = x.toH + y.toH ∧
    (Quat.sub x y).toH = x.toH - y.toH ∧ (Quat.neg x).toH = -x.toH :=
  ⟨toH_mul x y, toH_add x y, toH_sub x y, toH_neg x⟩

/-- C01. The multiplication table that fixes Hamilton's product. -/
theorem C01_table :
    let one : Quat R := ⟨1, 0, 0, 0⟩
    let i : Quat R := ⟨0, 1, 0, 0⟩
    let j : Quat R := ⟨0, 0, 1, 0⟩
    let k : Quat R := ⟨0, 0, 0, 1⟩
    Quat.mul i j = k ∧ Quat.mul j k = i ∧ Quat.mul k i = j ∧
    Quat.mul j i = Quat.neg k ∧ Quat.mul k j = Quat.neg i ∧ Quat.mul i k = Quat.neg j ∧
    Quat.mul i i = Quat.neg one ∧ Quat.mul j j = Quat.neg one ∧ Quat.mul k k = Quat.neg one ∧
    ∀ q, Quat.mul one q = q ∧ Quat.mul q one = q := by
  refine ⟨?_, ?_, ?_, ?_, ?_, ?_, ?_, ?_, ?_, ?_⟩
  all_goals try (ext <;> simp [Quat.mul, Quat.neg])
  intro q
  constructor <;> (ext <;> simp [Quat.mul])

/-- C01. Associativity and distributivity. -/
theorem C01_assoc_distrib (x y z : Quat R) :
    Quat.mul (Quat.mul x y) z = Quat.mul x (Quat.mul y z) ∧
    Quat.mul x (Quat.add y z) = Quat.add (Quat.mul x y) (Quat.mul x z) ∧
    Quat.mul (Quat.add x y) z = Quat.add (Quat.mul x z) (Quat.mul y z) := by
  refine ⟨?_, ?_, ?_⟩ <;> rw [← toH_inj] <;> simp only [toH_mul, toH_add]
  · exact mul_assoc _ _ _
  · exact mul_add _ _ _
  · exact add_mul _ _ _

-- the product does not commute
example : Quat.mul (⟨0, 1, 0, 0⟩ : Quat ℤ) ⟨0, 0, 1, 0⟩ ≠ Quat.mul ⟨0, 0, 1, 0⟩ ⟨0, 1, 0, 0⟩ := by
  decide
example : Quat.mul (⟨1, 2, 3, 4⟩ : Quat ℤ) ⟨5, 6, 7, 8⟩ = ⟨-60, 12, 30, 24⟩ := by decide

/-! ### C02 -/

/-- C02. The AVX `operator*` computes the portable product; the conjugating register
product computes `conj(x)*y`. -/
theorem C02_simd_product (x y : Quat R) :
    Quat.mulAVX x y = Quat.mul x y ∧ MULDQ_CN x y = Quat.mul (Quat.conj x) y := by
  constructor <;> rw [← toH_inj]
  · rw [Quat.mulAVX, toH_MULDQ_NN, toH_mul]
  · rw [toH_MULDQ_CN, toH_mul, toH_conj]

example : Quat.mulAVX (⟨1, 2, 3, 4⟩ : Quat ℤ) ⟨5, 6, 7, 8⟩ = ⟨-60, 12, 30, 24⟩ := by decide
example : MULDQ_CN (⟨1, 2, 3, 4⟩ : Quat ℤ) ⟨5, 6, 7, 8⟩ = ⟨70, 0, -16, -8⟩ := by decide

/-! ### C03 -/

/-- C03. Every mixed real–quaternion operation is the quaternion operation on the embedded
real. -/
theorem C03_real (q : Quat R) (a : R) :
    (Quat.addReal q a).toH = q.toH + (a : ℍ[R]) ∧ (Quat.realAdd a q).toH = (a : ℍ[R]) + q.toH ∧
    (Quat.subReal q a).toH = q.toH - (a : ℍ[R]) ∧ (Quat.realSub a q).toH = (a : ℍ[R]) - q.toH ∧
    (Quat.mulReal q a).toH = q.toH * (a : ℍ[R]) ∧ (Quat.realMul a q).toH = (a : ℍ[R]) * q.toH ∧
    (Quat.addAssignReal q a).toH = q.toH + (a : ℍ[R]) ∧
    (Quat.subAssignReal q a).toH = q.toH - (a : ℍ[R]) ∧
    (Quat.mulAssignReal q a).toH = q.toH * (a : ℍ[R]) ∧
    (Quat.assignReal q a).toH = (a : ℍ[R]) := by
  refine ⟨?_, ?_, ?_, ?_, toH_mulReal q a, toH_realMul q a, ?_, ?_, toH_mulReal q a, ?_⟩
  all_goals
    ext <;> simp [Quat.addReal, Quat.realAdd, Quat.subReal, Quat.realSub, Quat.addAssignReal,
      Quat.subAssignReal, Quat.neg, Quat.assignReal] <;> ring

/-- C03. Every mixed complex–quaternion operation is the quaternion operation on the embedded
complex, with left and right products kept apart. -/
theorem C03_complex (q : Quat R) (z : Cplx R) :
    (Quat.addCplx q z).toH = q.toH + z.toH ∧ (Quat.cplxAdd z q).toH = z.toH + q.toH ∧
    (Quat.subCplx q z).toH = q.toH - z.toH ∧ (Quat.cplxSub z q).toH = z.toH - q.toH ∧
    (Quat.mulCplx q z).toH = q.toH * z.toH ∧ (Quat.cplxMul z q).toH = z.toH * q.toH ∧
    (Quat.addAssignCplx q z).toH = q.toH + z.toH ∧
    (Quat.subAssignCplx q z).toH = q.toH - z.toH ∧
    (Quat.assignCplx q z).toH = z.toH := by
  refine ⟨?_, ?_, ?_, ?_, toH_mulCplx q z, toH_cplxMul q z, ?_, ?_, ?_⟩
  all_goals
    ext <;> simp [Quat.addCplx, Quat.cplxAdd, Quat.subCplx, Quat.cplxSub, Quat.addAssignCplx,
      Quat.subAssignCplx, Quat.neg, Quat.assignCplx] <;> ring

/-- C03. Quaternion compound assignment. -/
theorem C03_quat_assign (p q : Quat R) :
    (Quat.addAssign p q).toH = p.toH + q.toH ∧ (Quat.subAssign p q).toH = p.toH - q.toH :=
  ⟨toH_add p q, toH_sub p q⟩

example : Quat.mulCplx (⟨1, 2, 3, 4⟩ : Quat ℤ) ⟨5, 6⟩ ≠ Quat.cplxMul ⟨5, 6⟩ ⟨1, 2, 3, 4⟩ := by decide

/-! ### C04 -/

/-- C04. Conjugation is the star of `ℍ[R]`: an involutive anti-automorphism. -/
theorem C04_conj (p q : Quat R) :
    Quat.conj (Quat.conj q) = q ∧
    Quat.conj (Quat.add p q) = Quat.add (Quat.conj p) (Quat.conj q) ∧
    Quat.conj (Quat.mul p q) = Quat.mul (Quat.conj q) (Quat.conj p) ∧
    (Quat.conj q).toH = star q.toH := by
  refine ⟨?_, ?_, ?_, toH_conj q⟩ <;> rw [← toH_inj] <;> simp [toH_conj, toH_add, toH_mul]

/-- C04. `q * conj q = conj q * q` is the real sum of squares. -/
theorem C04_normSq (q : Quat R) :
    Quat.mul q (Quat.conj q) = ⟨q.re ^ 2 + q.i ^ 2 + q.j ^ 2 + q.k ^ 2, 0, 0, 0⟩ ∧
    Quat.mul (Quat.conj q) q = ⟨q.re ^ 2 + q.i ^ 2 + q.j ^ 2 + q.k ^ 2, 0, 0, 0⟩ := by
  constructor <;> ext <;> simp [Quat.mul, Quat.conj] <;> ring

/-- C04. `SmartConj` is the conjugation of the embedded scalar. -/
theorem C04_smartConj (s : Scal R) : s.smartConj.toH = star s.toH := by
  cases s with
  | d a => ext <;> simp [Scal.smartConj, Scal.toH]
  | z a => ext <;> simp [Scal.smartConj, Scal.toH, Cplx.conj]
  | h a => exact toH_conj a

example : Quat.conj (⟨1, 2, 3, 4⟩ : Quat ℤ) = ⟨1, -2, -3, -4⟩ := by decide

/-! ### C06 -/

/-- C06. Every overload of `comm` is `p*q - q*p` on the embedded arguments. -/
theorem C06_comm (p q : Quat R) (z : Cplx R) (a : R) :
    (Quat.comm p q).toH = p.toH * q.toH - q.toH * p.toH ∧
    (Quat.commC p z).toH = p.toH * z.toH - z.toH * p.toH ∧
    (Quat.cComm z p).toH = z.toH * p.toH - p.toH * z.toH ∧
    (Quat.rComm a p).toH = (a : ℍ[R]) * p.toH - p.toH * (a : ℍ[R]) ∧
    (Quat.commR p a).toH = p.toH * (a : ℍ[R]) - (a : ℍ[R]) * p.toH := by
  refine ⟨?_, ?_, ?_, ?_, ?_⟩
  · rw [Quat.comm, toH_sub, toH_mul, toH_mul]
  · rw [Quat.commC, toH_sub, toH_mulCplx, toH_cplxMul]
  · rw [Quat.cComm, toH_neg, Quat.commC, toH_sub, toH_mulCplx, toH_cplxMul]; abel
  · ext <;> simp [Quat.rComm, Quat.mkReal, mul_comm]
  · ext <;> simp [Quat.commR, Quat.mkReal, mul_comm]

/-- C06. Antisymmetry and vanishing real part. -/
theorem C06_antisymm (p q : Quat R) (z : Cplx R) :
    Quat.comm p q = Quat.neg (Quat.comm q p) ∧ (Quat.comm p q).re = 0 ∧
    (Quat.commC p z).re = 0 ∧ (Quat.cComm z p).re = 0 := by
  refine ⟨?_, ?_, ?_, ?_⟩
  · rw [← toH_inj, toH_neg, (C06_comm p q z 0).1, (C06_comm q p z 0).1]; abel
  all_goals
    simp [Quat.comm, Quat.commC, Quat.cComm, Quat.sub, Quat.subAssign, Quat.mul, Quat.mulCplx,
      Quat.cplxMul, Quat.neg]
    try ring

example : Quat.comm (⟨0, 1, 0, 0⟩ : Quat ℤ) ⟨0, 0, 1, 0⟩ = ⟨0, 0, 0, 2⟩ := by decide
example : Quat.commC (⟨0, 0, 1, 0⟩ : Quat ℤ) ⟨0, 1⟩ ≠ ⟨0, 0, 0, 0⟩ := by decide

end ring

/-! ### C07 -/

/-- C07, full statement: `==` decides equality of quaternions. -/
def C07_statement (R : Type) [DecidableEq R] : Prop :=
  ∀ p q : Quat R, (Quat.eqOp p q = true ↔ p = q) ∧ (Quat.neOp p q = true ↔ p ≠ q)

/-- C07 is false of the code: `operator==` ignores the `k` component. -/
theorem C07_violated : ¬ C07_statement ℤ := by
  intro h
  have := ((h ⟨0, 0, 0, 1⟩ ⟨0, 0, 0, 2⟩).1.mp (by decide))
  exact absurd this (by decide)

/-- C07, the part that holds: `==` decides equality of the first three components (so it is exact on
quaternions with equal `k`), and `!=` is its negation. Missing: the `k` component. -/
theorem C07_equality_partial {R : Type} [DecidableEq R] (p q : Quat R) :
    (Quat.eqOp p q = true ↔ p.re = q.re ∧ p.i = q.i ∧ p.j = q.j) ∧
    (p = q → Quat.eqOp p q = true) ∧
    (p.k = q.k → (Quat.eqOp p q = true ↔ p = q)) ∧
    (Quat.neOp p q = true ↔ ¬ Quat.eqOp p q = true) := by
  have h1 : (Quat.eqOp p q = true ↔ p.re = q.re ∧ p.i = q.i ∧ p.j = q.j) := by
    simp [Quat.eqOp, and_assoc]
  refine ⟨h1, ?_, ?_, ?_⟩
  · rintro rfl; rw [h1]; simp
  · intro hk; rw [h1, Quat.ext_iff]; simp [hk]
  · simp [Quat.neOp]

example : Quat.eqOp (⟨1, 2, 3, 4⟩ : Quat ℤ) ⟨1, 2, 3, 4⟩ = true ∧
    Quat.eqOp (⟨1, 2, 3, 4⟩ : Quat ℤ) ⟨1, 2, 0, 4⟩ = false := by decide

/-! ### C08 (for arbitrary component types: no arithmetic law is used) -/

section access
variable {F : Type} [Arith F]

/-- C08. Constructors followed by accessors. -/
theorem C08_ctor (a b c d : F) (z w : Cplx F) (arr : Fin 4 → F) (carr : Fin 2 → Cplx F) :
    (let q := Quat.mkReal a b c d
     q.getReal = a ∧ q.getI = b ∧ q.getJ = c ∧ q.getK = d ∧ q.getImag = (b, c, d)) ∧
    (let q := Quat.mkCplx z w
     q.getReal = z.re ∧ q.getI = z.im ∧ q.getJ = w.re ∧ q.getK = w.im) ∧
    (let q := Quat.mkCplx z
     q.getReal = z.re ∧ q.getI = z.im ∧ q.getJ = Arith.zero ∧ q.getK = Arith.zero) ∧
    (let q := Quat.mkReal (F := F)
     q.getReal = Arith.zero ∧ q.getI = Arith.zero ∧ q.getJ = Arith.zero ∧ q.getK = Arith.zero) ∧
    (let q := Quat.mkReal a
     q.getReal = a ∧ q.getI = Arith.zero ∧ q.getJ = Arith.zero ∧ q.getK = Arith.zero) ∧
    (let q := Quat.mkArr4 arr
     q.getReal = arr 0 ∧ q.getI = arr 1 ∧ q.getJ = arr 2 ∧ q.getK = arr 3) ∧
    (let q := Quat.mkArr2 carr
     q.getReal = (carr 0).re ∧ q.getI = (carr 0).im ∧ q.getJ = (carr 1).re ∧
      q.getK = (carr 1).im) := by
  refine ⟨?_, ?_, ?_, ?_, ?_, ?_, ?_⟩ <;>
    simp [Quat.mkReal, Quat.mkCplx, Quat.mkArr4, Quat.mkArr2, Quat.getReal, Quat.getI, Quat.getJ,
      Quat.getK, Quat.getImag]

omit [Arith F] in
/-- C08. Each setter changes exactly the component it names. -/
theorem C08_setters (q : Quat F) (x y z : F) :
    Quat.setReal q x = ⟨x, q.getI, q.getJ, q.getK⟩ ∧
    Quat.setI q x = ⟨q.getReal, x, q.getJ, q.getK⟩ ∧
    Quat.setJ q x = ⟨q.getReal, q.getI, x, q.getK⟩ ∧
    Quat.setK q x = ⟨q.getReal, q.getI, q.getJ, x⟩ ∧
    Quat.setImag q (x, y, z) = ⟨q.getReal, x, y, z⟩ :=
  ⟨rfl, rfl, rfl, rfl, rfl⟩

/-- C08. Assignment from a real or complex number zeroes the other components; conversion is
component-wise. -/
theorem C08_assign (q : Quat F) (a : F) (z : Cplx F) {G : Type} (cv : G → F) (g : Quat G) :
    (let r := Quat.assignReal q a
     r.getReal = a ∧ r.getI = Arith.zero ∧ r.getJ = Arith.zero ∧ r.getK = Arith.zero) ∧
    (let r := Quat.assignCplx q z
     r.getReal = z.re ∧ r.getI = z.im ∧ r.getJ = Arith.zero ∧ r.getK = Arith.zero) ∧
    (let r := Quat.convert cv g
     r.getReal = cv g.getReal ∧ r.getI = cv g.getI ∧ r.getJ = cv g.getJ ∧ r.getK = cv g.getK) :=
  ⟨⟨rfl, rfl, rfl, rfl⟩, ⟨rfl, rfl, rfl, rfl⟩, ⟨rfl, rfl, rfl, rfl⟩⟩

example : (Quat.mkCplx (⟨1, 2⟩ : Cplx ℤ) ⟨3, 4⟩) = Quat.mkReal 1 2 3 4 := by decide
example : Quat.setJ (⟨1, 2, 3, 4⟩ : Quat ℤ) 9 = ⟨1, 2, 9, 4⟩ := by decide

end access

/-! ### C09 -/

section batch

/-- Register `n` of four. -/
def R4.reg {F : Type} (x : R4 F) : Fin 4 → V4 F
  | 0 => x.r1
  | 1 => x.r2
  | 2 => x.r3
  | 3 => x.r4

/-- C09. In every lane the batched products are the quaternion products. -/
theorem C09_batched {R : Type} [CommRing R] (x y r : R4 R) (l : Fin 4) :
    (laneQ (MULD4Q_NN x y) l).toH = (laneQ x l).toH * (laneQ y l).toH ∧
    (laneQ (MULD4Q_CN x y) l).toH = star (laneQ x l).toH * (laneQ y l).toH ∧
    (laneQ (INC_MULD4Q_NN x y r) l).toH = (laneQ r l).toH + (laneQ x l).toH * (laneQ y l).toH ∧
    (laneQ (INC_MULD4Q_CN x y r) l).toH =
      (laneQ r l).toH + star (laneQ x l).toH * (laneQ y l).toH := by
  refine ⟨?_, ?_, ?_, ?_⟩ <;> fin_cases l <;> ext <;>
    simp [laneQ, lane, MULD4Q_NN, MULD4Q_CN, INC_MULD4Q_NN, INC_MULD4Q_CN, VEC_MULD4Q_NN,
      VEC_MULD4Q_CN, MULD4Q_SCALAR, INC_MULD4Q_SCALAR, vfma, vfnma, vmul] <;> ring

/-- C09. The register transpose moves lane `j` of register `i` to lane `i` of register `j`, for
arbitrary payloads. -/
theorem C09_transpose {F : Type} [Arith F] (x : R4 F) (i j : Fin 4) :
    lane ((transpose4 x).reg i) j = lane (x.reg j) i := by
  fin_cases i <;> fin_cases j <;> rfl

/-- C09. Transposing twice is the identity. -/
theorem C09_transpose_involutive {F : Type} [Arith F] (x : R4 F) :
    transpose4 (transpose4 x) = x := rfl

example : transpose4 (⟨⟨1, 2, 3, 4⟩, ⟨5, 6, 7, 8⟩, ⟨9, 10, 11, 12⟩, ⟨13, 14, 15, 16⟩⟩ : R4 ℤ) =
    ⟨⟨1, 5, 9, 13⟩, ⟨2, 6, 10, 14⟩, ⟨3, 7, 11, 15⟩, ⟨4, 8, 12, 16⟩⟩ := rfl

end batch

/-! ### C10 -/

/-- C10. Register multiplication by a cached scalar, on either side; register conjugation;
absent scalar. -/
theorem C10_register_scaling {R : Type} [CommRing R] (s : Scal R) (q : Quat R) :
    (regMulL (loadScalar (some s)) q).toH = s.toH * q.toH ∧
    (regMulR q (loadScalar (some s))).toH = q.toH * s.toH ∧
    regMulL (loadScalar none) q = q ∧ regMulR q (loadScalar none) = q ∧
    (qconj256 q).toH = star q.toH :=
  ⟨toH_regMulL s q, toH_regMulR s q, rfl, rfl, toH_qconj256 q⟩

example : regMulR (⟨1, 2, 3, 4⟩ : Quat ℤ) (loadScalar (some (.z ⟨5, 6⟩))) =
    Quat.mulCplx ⟨1, 2, 3, 4⟩ ⟨5, 6⟩ := by decide

/-! ### C05 -/

section real

/-- `operator/` and `std::sqrt` on exact reals. -/
noncomputable instance : ArithDiv ℝ where
  div := (· / ·)
  sqrt := Real.sqrt

theorem div_real (a b : ℝ) : ArithDiv.div a b = a / b := rfl
theorem sqrt_real (a : ℝ) : ArithDiv.sqrt a = Real.sqrt a := rfl

theorem norm_sq (q : Quat ℝ) : Quat.norm q ^ 2 = q.re ^ 2 + q.i ^ 2 + q.j ^ 2 + q.k ^ 2 := by
  simp only [Quat.norm, sqrt_real, ar_add, ar_mul]
  have h : 0 ≤ q.re * q.re + q.i * q.i + q.j * q.j + q.k * q.k := by
    nlinarith [mul_self_nonneg q.re, mul_self_nonneg q.i, mul_self_nonneg q.j, mul_self_nonneg q.k]
  rw [Real.sq_sqrt h]; ring

theorem norm_nonneg' (q : Quat ℝ) : 0 ≤ Quat.norm q := Real.sqrt_nonneg _

/-- C05. The norm is the Euclidean norm: non-negative, `‖q‖² = a²+b²+c²+d²`, definite,
multiplicative. -/
theorem C05_norm (p q : Quat ℝ) :
    0 ≤ Quat.norm q ∧ Quat.norm q ^ 2 = q.re ^ 2 + q.i ^ 2 + q.j ^ 2 + q.k ^ 2 ∧
    Quat.norm q ^ 2 = normSq q.toH ∧
    (Quat.norm q = 0 ↔ q = ⟨0, 0, 0, 0⟩) ∧
    Quat.norm (Quat.mul p q) = Quat.norm p * Quat.norm q ∧
    Quat.norm (Quat.conj q) = Quat.norm q := by
  refine ⟨norm_nonneg' q, norm_sq q, ?_, ?_, ?_, ?_⟩
  · rw [norm_sq, Quaternion.normSq_def']; rfl
  · constructor
    · intro h
      have h2 := norm_sq q
      rw [h] at h2
      have : q.re = 0 ∧ q.i = 0 ∧ q.j = 0 ∧ q.k = 0 := by
        refine ⟨?_, ?_, ?_, ?_⟩ <;>
          nlinarith [sq_nonneg q.re, sq_nonneg q.i, sq_nonneg q.j, sq_nonneg q.k]
      exact Quat.ext this.1 this.2.1 this.2.2.1 this.2.2.2
    · rintro rfl; simp [Quat.norm, sqrt_real]
  · have hp := norm_nonneg' p
    have hq := norm_nonneg' q
    have hpq := norm_nonneg' (Quat.mul p q)
    have h : Quat.norm (Quat.mul p q) ^ 2 = (Quat.norm p * Quat.norm q) ^ 2 := by
      rw [mul_pow, norm_sq, norm_sq, norm_sq]; simp [Quat.mul]; ring
    exact (pow_left_inj₀ hpq (mul_nonneg hp hq) (by norm_num)).mp h
  · simp [Quat.norm, Quat.conj]

/-- C05. For `q ≠ 0`: two-sided inverse, unit versor, polar decomposition, real-by-quaternion
division and quaternion-by-real division. -/
theorem C05_inverse (q : Quat ℝ) (hq : q ≠ ⟨0, 0, 0, 0⟩) (a : ℝ) :
    Quat.mul (Quat.inv q) q = ⟨1, 0, 0, 0⟩ ∧ Quat.mul q (Quat.inv q) = ⟨1, 0, 0, 0⟩ ∧
    Quat.norm (Quat.versor q) = 1 ∧ Quat.realMul (Quat.norm q) (Quat.versor q) = q ∧
    Quat.mul (Quat.realDiv a q) q = ⟨a, 0, 0, 0⟩ ∧
    (a ≠ 0 → Quat.mulReal (Quat.divReal q a) a = q) := by
  have hn : Quat.norm q ≠ 0 := fun h => hq ((C05_norm q q).2.2.2.1.mp h)
  have hs := norm_sq q
  have hpos : 0 < Quat.norm q := lt_of_le_of_ne (norm_nonneg' q) (Ne.symm hn)
  have e1 : Quat.inv q = ⟨q.re / Quat.norm q ^ 2, -q.i / Quat.norm q ^ 2, -q.j / Quat.norm q ^ 2,
      -q.k / Quat.norm q ^ 2⟩ := by
    ext <;> simp only [Quat.inv, Quat.divReal, Quat.divAssignReal, Quat.conj, div_real, ar_neg] <;>
      field_simp
  have hs' : Quat.norm q ^ 2 ≠ 0 := pow_ne_zero 2 hn
  refine ⟨?_, ?_, ?_, ?_, ?_, ?_⟩
  · rw [e1]; ext <;> simp [Quat.mul] <;> field_simp <;> (try rw [hs]) <;> ring
  · rw [e1]; ext <;> simp [Quat.mul] <;> field_simp <;> (try rw [hs]) <;> ring
  · have h0 := norm_nonneg' (Quat.versor q)
    have h2 : Quat.norm (Quat.versor q) ^ 2 = 1 := by
      rw [norm_sq]
      simp only [Quat.versor, Quat.divReal, Quat.divAssignReal, div_real]
      field_simp
      rw [hs]
    nlinarith
  · ext <;> simp [Quat.versor, Quat.realMul, Quat.mulAssignReal, Quat.divReal, Quat.divAssignReal,
      div_real, hn]
  · rw [Quat.realDiv, e1]; ext <;> simp [Quat.mul, Quat.mulAssignReal] <;> field_simp <;>
      (try rw [hs]) <;> ring
  · intro ha
    ext <;> simp [Quat.mulReal, Quat.mulAssignReal, Quat.divReal, Quat.divAssignReal, div_real, ha]

example : (⟨1, 2, 3, 4⟩ : Quat ℝ) ≠ ⟨0, 0, 0, 0⟩ := by
  intro h; have := congrArg Quat.re h; norm_num at this

end real

end Haxx
