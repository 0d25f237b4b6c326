import Verif.Quat

/-!
# SIMD registers, intrinsics and the register quaternion kernels

A 256-bit register of four doubles has lanes 0..3; loading a quaternion puts
`real, imag_i, imag_j, imag_k` into lanes 0,1,2,3, so the register type reuses `Quat`
(`re`,`i`,`j`,`k` = lanes 0,1,2,3).  Intrinsics are defined by their lane semantics
(Intel intrinsics guide); immediates are decoded bit by bit.
-/

namespace Haxx
open Arith

/-- `__m256d`. -/
abbrev V4 (F : Type) := Quat F

/-- `__m128d`. -/
@[ext] structure V2 (F : Type) where
  lo : F
  hi : F
deriving DecidableEq

variable {F : Type}

/-! ## Intrinsics -/

/-- `_mm256_castpd256_pd128` (`GET_LO_128D_256D`, `intrin_alias.hpp:49`). -/
def getLo (x : V4 F) : V2 F := ⟨x.re, x.i⟩
/-- `_mm256_extractf128_pd(x,1)` (`GET_HI_128D_256D`, `intrin_alias.hpp:50`). -/
def getHi (x : V4 F) : V2 F := ⟨x.j, x.k⟩
/-- `SET_256D_FROM_128D` (insertf128 at position 1) — `intrin_alias.hpp:52-57`. -/
def set256 (lo hi : V2 F) : V4 F := ⟨lo.lo, lo.hi, hi.lo, hi.hi⟩
/-- `_mm_shuffle_pd(a,b,imm)`. -/
def shuffle2 (a b : V2 F) (imm : Nat) : V2 F :=
  ⟨if imm.testBit 0 then a.hi else a.lo, if imm.testBit 1 then b.hi else b.lo⟩
/-- `_mm256_shuffle_pd(a,b,imm)`. -/
def shuffle4 (a b : V4 F) (imm : Nat) : V4 F :=
  ⟨if imm.testBit 0 then a.i else a.re, if imm.testBit 1 then b.i else b.re,
   if imm.testBit 2 then a.k else a.j, if imm.testBit 3 then b.k else b.j⟩
/-- `_mm256_permute_pd(a,imm)`. -/
def permute4 (a : V4 F) (imm : Nat) : V4 F :=
  ⟨if imm.testBit 0 then a.i else a.re, if imm.testBit 1 then a.i else a.re,
   if imm.testBit 2 then a.k else a.j, if imm.testBit 3 then a.k else a.j⟩
/-- One 128-bit half selected by a 4-bit control of `_mm256_permute2f128_pd`. -/
def sel128 [Arith F] (a b : V4 F) (c : Nat) : V2 F :=
  if c.testBit 3 then ⟨zero, zero⟩
  else match c % 4 with
    | 0 => getLo a
    | 1 => getHi a
    | 2 => getLo b
    | _ => getHi b
/-- `_mm256_permute2f128_pd(a,b,imm)`. -/
def permute2f128 [Arith F] (a b : V4 F) (imm : Nat) : V4 F :=
  set256 (sel128 a b (imm % 16)) (sel128 a b (imm / 16 % 16))
/-- `_mm256_unpacklo_pd`. -/
def unpacklo (a b : V4 F) : V4 F := ⟨a.re, b.re, a.j, b.j⟩
/-- `_mm256_unpackhi_pd`. -/
def unpackhi (a b : V4 F) : V4 F := ⟨a.i, b.i, a.k, b.k⟩
/-- `_mm256_xor_pd(x, _mm256_set_epi64x(e3,e2,e1,e0))` where each `e` is either `0` (false) or the
sign bit `0x8000000000000000` (true). -/
def xorSign [Arith F] (x : V4 F) (e3 e2 e1 e0 : Bool) : V4 F :=
  ⟨if e0 then ~ᶠ x.re else x.re, if e1 then ~ᶠ x.i else x.i,
   if e2 then ~ᶠ x.j else x.j, if e3 then ~ᶠ x.k else x.k⟩

variable [Arith F]

/-- `_mm256_setzero_pd`. -/
def setzero : V4 F := ⟨zero, zero, zero, zero⟩
/-- `_mm256_broadcast_sd`. -/
def broadcast (a : F) : V4 F := ⟨a, a, a, a⟩
/-- `_mm256_add_pd`. -/
def vadd (a b : V4 F) : V4 F := ⟨a.re +ᶠ b.re, a.i +ᶠ b.i, a.j +ᶠ b.j, a.k +ᶠ b.k⟩
/-- `_mm256_mul_pd`. -/
def vmul (a b : V4 F) : V4 F := ⟨a.re *ᶠ b.re, a.i *ᶠ b.i, a.j *ᶠ b.j, a.k *ᶠ b.k⟩
/-- `_mm256_hsub_pd`. -/
def vhsub (a b : V4 F) : V4 F := ⟨a.re -ᶠ a.i, b.re -ᶠ b.i, a.j -ᶠ a.k, b.j -ᶠ b.k⟩
/-- `FMA_256D` — `intrin_alias.hpp:77,84`. -/
def vfma (a b c : V4 F) : V4 F :=
  ⟨fma a.re b.re c.re, fma a.i b.i c.i, fma a.j b.j c.j, fma a.k b.k c.k⟩
/-- `FMS_256D` — `intrin_alias.hpp:78,85`. -/
def vfms (a b c : V4 F) : V4 F :=
  ⟨fms a.re b.re c.re, fms a.i b.i c.i, fms a.j b.j c.j, fms a.k b.k c.k⟩
/-- `FNMA_256D` — `intrin_alias.hpp:79,86`. -/
def vfnma (a b c : V4 F) : V4 F :=
  ⟨fnma a.re b.re c.re, fnma a.i b.i c.i, fnma a.j b.j c.j, fnma a.k b.k c.k⟩

/-! ## `include/util/simd/qop.hpp` -/

/-- `QCONJ_256D` — `qop.hpp:18-28`. -/
def qconj256 (x : V4 F) : V4 F := xorSign x true true true false

/-- `MULDQ_NN` — `qop.hpp:43-104`. -/
def MULDQ_NN (x y : V4 F) : V4 F :=
  let xLo := getLo x
  let yLo := getLo y
  let xHi := getHi x
  let yHi := getHi y
  let x1123 := permute4 x 0xB
  let rLo := shuffle2 xHi xHi 0x0
  let rHi := shuffle2 xHi xLo 0x3
  let x2231 := set256 rLo rHi
  let rLo := shuffle2 yLo yLo 0x1
  let rHi := shuffle2 yLo yLo 0x0
  let y1000 := set256 rLo rHi
  let rHi := shuffle2 yLo yHi 0x1
  let y2312 := set256 yHi rHi
  let t1 := vmul x1123 y1000
  let t12 := vfma x2231 y2312 t1
  let t12 := xorSign t12 false false false true
  let rLo := shuffle2 xHi xHi 0x3
  let rHi := shuffle2 xLo xHi 0x1
  let x3312 := set256 rLo rHi
  let rHi := shuffle2 xLo xLo 0x0
  let x0000 := set256 rHi rHi
  let rLo := shuffle2 yHi yHi 0x1
  let rHi := shuffle2 yHi yLo 0x3
  let y3231 := set256 rLo rHi
  let t3 := vmul x3312 y3231
  let t03 := vfms x0000 y t3
  vadd t03 t12

/-- `MULDQ_CN` — `qop.hpp:116-130`. -/
def MULDQ_CN (x y : V4 F) : V4 F := MULDQ_NN (qconj256 x) y

/-- `operator*<double>` of the AVX build (load, `MULDQ_NN`, store to a local) —
`include/haxx/haxx_quaternion_op.hpp:131-150`. -/
def Quat.mulAVX (x y : Quat F) : Quat F := MULDQ_NN x y

/-- Four registers passed by reference. -/
@[ext] structure R4 (F : Type) where
  r1 : V4 F
  r2 : V4 F
  r3 : V4 F
  r4 : V4 F

/-- `INC_MULD4Q_SCALAR` — `qop.hpp:160-171`. -/
def INC_MULD4Q_SCALAR (x y r : R4 F) : R4 F :=
  ⟨vfma x.r1 y.r1 r.r1, vfma x.r1 y.r2 r.r2, vfma x.r1 y.r3 r.r3, vfma x.r1 y.r4 r.r4⟩

/-- `MULD4Q_SCALAR` — `qop.hpp:198-209`. -/
def MULD4Q_SCALAR (x y : R4 F) : R4 F :=
  ⟨vmul x.r1 y.r1, vmul x.r1 y.r2, vmul x.r1 y.r3, vmul x.r1 y.r4⟩

/-- `VEC_MULD4Q_NN` — `qop.hpp:237-259`. -/
def VEC_MULD4Q_NN (x y r : R4 F) : R4 F :=
  let r1 := vfnma x.r2 y.r2 r.r1
  let r1 := vfnma x.r3 y.r3 r1
  let r1 := vfnma x.r4 y.r4 r1
  let r2 := vfma x.r2 y.r1 r.r2
  let r2 := vfma x.r3 y.r4 r2
  let r2 := vfnma x.r4 y.r3 r2
  let r3 := vfnma x.r2 y.r4 r.r3
  let r3 := vfma x.r3 y.r1 r3
  let r3 := vfma x.r4 y.r2 r3
  let r4 := vfma x.r2 y.r3 r.r4
  let r4 := vfnma x.r3 y.r2 r4
  let r4 := vfma x.r4 y.r1 r4
  ⟨r1, r2, r3, r4⟩

/-- `VEC_MULD4Q_CN` — `qop.hpp:288-310`. -/
def VEC_MULD4Q_CN (x y r : R4 F) : R4 F :=
  let r1 := vfma x.r2 y.r2 r.r1
  let r1 := vfma x.r3 y.r3 r1
  let r1 := vfma x.r4 y.r4 r1
  let r2 := vfnma x.r2 y.r1 r.r2
  let r2 := vfnma x.r3 y.r4 r2
  let r2 := vfma x.r4 y.r3 r2
  let r3 := vfma x.r2 y.r4 r.r3
  let r3 := vfnma x.r3 y.r1 r3
  let r3 := vfnma x.r4 y.r2 r3
  let r4 := vfnma x.r2 y.r3 r.r4
  let r4 := vfma x.r3 y.r2 r4
  let r4 := vfnma x.r4 y.r1 r4
  ⟨r1, r2, r3, r4⟩

/-- `MULD4Q_NN` — `qop.hpp:332-340`. -/
def MULD4Q_NN (x y : R4 F) : R4 F := VEC_MULD4Q_NN x y (MULD4Q_SCALAR x y)
/-- `MULD4Q_CN` — `qop.hpp:363-371`. -/
def MULD4Q_CN (x y : R4 F) : R4 F := VEC_MULD4Q_CN x y (MULD4Q_SCALAR x y)
/-- `INC_MULD4Q_NN` — `qop.hpp:394-402`. -/
def INC_MULD4Q_NN (x y r : R4 F) : R4 F := VEC_MULD4Q_NN x y (INC_MULD4Q_SCALAR x y r)
/-- `INC_MULD4Q_CN` — `qop.hpp:428-436`. -/
def INC_MULD4Q_CN (x y r : R4 F) : R4 F := VEC_MULD4Q_CN x y (INC_MULD4Q_SCALAR x y r)

/-- `_MM_TRANSPOSE_4x4_PD` — `include/util/simd/misc.hpp:38-47`. -/
def transpose4 (x : R4 F) : R4 F :=
  let t1 := shuffle4 x.r1 x.r2 0x0
  let t3 := shuffle4 x.r1 x.r2 0xF
  let t2 := shuffle4 x.r3 x.r4 0x0
  let t4 := shuffle4 x.r3 x.r4 0xF
  ⟨permute2f128 t1 t2 0x20, permute2f128 t3 t4 0x20,
   permute2f128 t1 t2 0x31, permute2f128 t3 t4 0x31⟩

/-! ## `include/util/types.hpp`: `AVXType<double>` -/

/-- A scalar cached for register multiplication: `noscalar_t`, `real_t`, `complex_t`,
`quaternion_t` — `types.hpp:24,95-97`. -/
inductive RegScal (F : Type) where
  | none
  | real (x : V4 F)
  | cplx (x y : V4 F)
  | quat (x : V4 F)

/-- `LoadScalar()` / `LoadScalar(double)` / `LoadScalar(complex)` / `LoadScalar(quaternion)` —
`types.hpp:57,135-139,144-159,162-166`. -/
def loadScalar : Option (Scal F) → RegScal F
  | .none => .none
  | .some (.d x) => .real (broadcast x)
  | .some (.z x) =>
    let alphaC : V2 F := ⟨x.re, x.im⟩
    let alpha := set256 alphaC alphaC
    let alpha_C := xorSign (permute4 alpha 0x5) true false true false
    .cplx alpha alpha_C
  | .some (.h x) => .quat x

/-- `Mul(scalar, register)` — `types.hpp:75-79,177-181,184-191,215-219`. -/
def regMulL : RegScal F → V4 F → V4 F
  | .none, b => b
  | .real a, b => vmul a b
  | .cplx ax ay, b =>
    let p1 := vmul b ax
    let p2 := vmul b ay
    vhsub p1 p2
  | .quat a, b => MULDQ_NN a b

/-- `Mul(register, scalar)` — `types.hpp:69-73,172-176,192-207,210-214`. -/
def regMulR : V4 F → RegScal F → V4 F
  | a, .none => a
  | a, .real b => vmul b a
  | a, .cplx bx bY =>
    let b1 := xorSign bx true false false false
    let b2 := xorSign bY false true false false
    let p1 := vmul a b1
    let p2 := vmul a b2
    vhsub p1 p2
  | a, .quat b => MULDQ_NN a b

end Haxx
