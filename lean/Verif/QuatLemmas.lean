import Verif.Spec
import Mathlib.Tactic.Ring
import Mathlib.Tactic.FinCases

/-! Lemmas connecting the code's quaternion operations to `ℍ[R]`. -/

namespace Haxx
open Quaternion

variable {R : Type} [CommRing R]

theorem toH_inj {p q : Quat R} : p.toH = q.toH ↔ p = q := by
  constructor
  · intro h
    have h0 := congrArg QuaternionAlgebra.re h
    have h1 := congrArg QuaternionAlgebra.imI h
    have h2 := congrArg QuaternionAlgebra.imJ h
    have h3 := congrArg QuaternionAlgebra.imK h
    exact Quat.ext h0 h1 h2 h3
  · rintro rfl; rfl

@[simp] theorem toH_re (q : Quat R) : q.toH.re = q.re := rfl
@[simp] theorem toH_imI (q : Quat R) : q.toH.imI = q.i := rfl
@[simp] theorem toH_imJ (q : Quat R) : q.toH.imJ = q.j := rfl
@[simp] theorem toH_imK (q : Quat R) : q.toH.imK = q.k := rfl
@[simp] theorem ctoH_re (q : Cplx R) : q.toH.re = q.re := rfl
@[simp] theorem ctoH_imI (q : Cplx R) : q.toH.imI = q.im := rfl
@[simp] theorem ctoH_imJ (q : Cplx R) : q.toH.imJ = 0 := rfl
@[simp] theorem ctoH_imK (q : Cplx R) : q.toH.imK = 0 := rfl

@[simp] theorem ofH_toH (q : Quat R) : Quat.ofH q.toH = q := rfl
@[simp] theorem toH_ofH (q : ℍ[R]) : (Quat.ofH q).toH = q := rfl

theorem eq_ofH {p : Quat R} {q : ℍ[R]} (h : p.toH = q) : p = Quat.ofH q := by
  rw [← h]; rfl

theorem toH_mul (x y : Quat R) : (Quat.mul x y).toH = x.toH * y.toH := by
  ext <;> simp [Quat.mul]

theorem toH_add (x y : Quat R) : (Quat.add x y).toH = x.toH + y.toH := by
  ext <;> simp [Quat.add, Quat.addAssign]

theorem toH_sub (x y : Quat R) : (Quat.sub x y).toH = x.toH - y.toH := by
  ext <;> simp [Quat.sub, Quat.subAssign]

theorem toH_neg (x : Quat R) : (Quat.neg x).toH = - x.toH := by
  ext <;> simp [Quat.neg]

theorem toH_conj (x : Quat R) : (Quat.conj x).toH = star x.toH := by
  ext <;> simp [Quat.conj]

theorem toH_mulCplx (x : Quat R) (z : Cplx R) : (Quat.mulCplx x z).toH = x.toH * z.toH := by
  ext <;> simp [Quat.mulCplx]
  ring

theorem toH_cplxMul (x : Quat R) (z : Cplx R) : (Quat.cplxMul z x).toH = z.toH * x.toH := by
  ext <;> simp [Quat.cplxMul]

theorem toH_mulReal (x : Quat R) (a : R) : (Quat.mulReal x a).toH = x.toH * (a : ℍ[R]) := by
  ext <;> simp [Quat.mulReal, Quat.mulAssignReal]

theorem toH_realMul (x : Quat R) (a : R) : (Quat.realMul a x).toH = (a : ℍ[R]) * x.toH := by
  ext <;> simp [Quat.realMul, Quat.mulAssignReal, mul_comm]

theorem toH_smulL (s : Scal R) (q : Quat R) : (s.mulL q).toH = s.toH * q.toH := by
  cases s with
  | d a => exact toH_realMul q a
  | z a => exact toH_cplxMul q a
  | h a => exact toH_mul a q

theorem toH_smulR (s : Scal R) (q : Quat R) : (Scal.mulR q s).toH = q.toH * s.toH := by
  cases s with
  | d a => exact toH_mulReal q a
  | z a => exact toH_mulCplx q a
  | h a => exact toH_mul q a

theorem toH_MULDQ_NN (x y : Quat R) : (MULDQ_NN x y).toH = x.toH * y.toH := by
  ext <;> simp [MULDQ_NN, vadd, vfms, vfma, vmul, xorSign, set256, shuffle2, permute4, getLo, getHi,
    Nat.testBit] <;> ring

theorem toH_qconj256 (x : Quat R) : (qconj256 x).toH = star x.toH := by
  ext <;> simp [qconj256, xorSign]

theorem toH_MULDQ_CN (x y : Quat R) : (MULDQ_CN x y).toH = star x.toH * y.toH := by
  unfold MULDQ_CN; rw [toH_MULDQ_NN, toH_qconj256]

theorem toH_vadd (x y : Quat R) : (vadd x y).toH = x.toH + y.toH := by
  ext <;> simp [vadd]

theorem toH_setzero : (setzero : Quat R).toH = 0 := by
  ext <;> simp [setzero]

/-- The value of a register-cached scalar. -/
theorem toH_regMulL (s : Scal R) (q : Quat R) :
    (regMulL (loadScalar (some s)) q).toH = s.toH * q.toH := by
  cases s with
  | d a => ext <;> simp [loadScalar, regMulL, vmul, broadcast, Scal.toH]
  | z a =>
    ext <;> simp [loadScalar, regMulL, vmul, vhsub, xorSign, permute4, set256, Scal.toH, Nat.testBit]
      <;> ring
  | h a => exact toH_MULDQ_NN a q

theorem toH_regMulR (s : Scal R) (q : Quat R) :
    (regMulR q (loadScalar (some s))).toH = q.toH * s.toH := by
  cases s with
  | d a => ext <;> simp [loadScalar, regMulR, vmul, broadcast, Scal.toH, mul_comm]
  | z a =>
    ext <;> simp [loadScalar, regMulR, vmul, vhsub, xorSign, permute4, set256, Scal.toH, Nat.testBit]
  | h a => exact toH_MULDQ_NN q a

end Haxx
