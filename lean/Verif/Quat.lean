import Verif.Arith

/-!
# The quaternion struct and its free functions (`include/haxx/*.hpp`)
-/

namespace Haxx
open Arith

/-- `struct quaternion` — `include/haxx/haxx_def.hpp:38,186-190`. -/
@[ext] structure Quat (F : Type) where
  re : F
  i : F
  j : F
  k : F
deriving DecidableEq, Repr

/-- `std::complex<_F>` (two consecutive components). -/
@[ext] structure Cplx (F : Type) where
  re : F
  im : F
deriving DecidableEq, Repr

variable {F : Type} [Arith F]

namespace Quat

/-- Default / real-quadruple constructor with default arguments `_F()` —
`haxx_def.hpp:50-52`. -/
def mkReal (a : F := zero) (b : F := zero) (c : F := zero) (d : F := zero) : Quat F := ⟨a, b, c, d⟩

/-- Complex (Cayley–Dickson) constructor, second argument defaulting to `_CF()` —
`haxx_def.hpp:59-61`. -/
def mkCplx (a : Cplx F) (b : Cplx F := ⟨zero, zero⟩) : Quat F := ⟨a.re, a.im, b.re, b.im⟩

/-- `std::array<_F,4>` constructor — `haxx_def.hpp:66-67` (array as a function on `Fin 4`). -/
def mkArr4 (q : Fin 4 → F) : Quat F := mkReal (q 0) (q 1) (q 2) (q 3)

/-- `std::array<_CF,2>` constructor — `haxx_def.hpp:71-72`. -/
def mkArr2 (q : Fin 2 → Cplx F) : Quat F := mkCplx (q 0) (q 1)

/-- Converting constructor / converting assignment (component type conversion `cv`) —
`haxx_def.hpp:80-83`, `haxx_quaternion_op.hpp:20-31`. -/
def convert {G : Type} (cv : G → F) (q : Quat G) : Quat F := ⟨cv q.re, cv q.i, cv q.j, cv q.k⟩

omit [Arith F] in section
/-- `real()` — `haxx_def.hpp:93`, and the free function `real(q)` `haxx_def.hpp:225-226`. -/
def getReal (q : Quat F) : F := q.re
/-- `imag_i()` — `haxx_def.hpp:95`, free function `:229-230`. -/
def getI (q : Quat F) : F := q.i
/-- `imag_j()` — `haxx_def.hpp:97`, free function `:233-234`. -/
def getJ (q : Quat F) : F := q.j
/-- `imag_k()` — `haxx_def.hpp:99`, free function `:237-238`. -/
def getK (q : Quat F) : F := q.k
/-- `imag()` — `haxx_def.hpp:101`. -/
def getImag (q : Quat F) : F × F × F := (q.i, q.j, q.k)
/-- `real(x)` — `haxx_def.hpp:107`. -/
def setReal (q : Quat F) (x : F) : Quat F := { q with re := x }
/-- `imag_i(x)` — `haxx_def.hpp:109`. -/
def setI (q : Quat F) (x : F) : Quat F := { q with i := x }
/-- `imag_j(x)` — `haxx_def.hpp:111`. -/
def setJ (q : Quat F) (x : F) : Quat F := { q with j := x }
/-- `imag_k(x)` — `haxx_def.hpp:113`. -/
def setK (q : Quat F) (x : F) : Quat F := { q with k := x }
/-- `imag(array)` — `haxx_def.hpp:115-119`. -/
def setImag (q : Quat F) (x : F × F × F) : Quat F := { q with i := x.1, j := x.2.1, k := x.2.2 }
end

/-- `operator=(const _F&)` — `haxx_scalar_op.hpp:25-35`. -/
def assignReal (_q : Quat F) (t : F) : Quat F := ⟨t, zero, zero, zero⟩
/-- `operator=(const _CF&)` — `haxx_complex_op.hpp:25-35`. -/
def assignCplx (_q : Quat F) (t : Cplx F) : Quat F := ⟨t.re, t.im, zero, zero⟩

/-- `operator+=(const _F&)` — `haxx_scalar_op.hpp:48-54`. -/
def addAssignReal (q : Quat F) (t : F) : Quat F := { q with re := q.re +ᶠ t }
/-- `operator-=(const _F&)` — `haxx_scalar_op.hpp:65-71`. -/
def subAssignReal (q : Quat F) (t : F) : Quat F := { q with re := q.re -ᶠ t }
/-- `operator*=(const _F&)` — `haxx_scalar_op.hpp:82-92`. -/
def mulAssignReal (q : Quat F) (t : F) : Quat F :=
  ⟨q.re *ᶠ t, q.i *ᶠ t, q.j *ᶠ t, q.k *ᶠ t⟩
/-- `operator/=(const _F&)` — `haxx_scalar_op.hpp:104-114`. -/
def divAssignReal [ArithDiv F] (q : Quat F) (t : F) : Quat F :=
  ⟨ArithDiv.div q.re t, ArithDiv.div q.i t, ArithDiv.div q.j t, ArithDiv.div q.k t⟩

/-- `operator+=(const _CF&)` — `haxx_complex_op.hpp:46-53`. -/
def addAssignCplx (q : Quat F) (t : Cplx F) : Quat F :=
  { q with re := q.re +ᶠ t.re, i := q.i +ᶠ t.im }
/-- `operator-=(const _CF&)` — `haxx_complex_op.hpp:65-72`. -/
def subAssignCplx (q : Quat F) (t : Cplx F) : Quat F :=
  { q with re := q.re -ᶠ t.re, i := q.i -ᶠ t.im }

/-- `operator+=(const quaternion<_G>&)` — `haxx_quaternion_op.hpp:36-47`. -/
def addAssign (p q : Quat F) : Quat F := ⟨p.re +ᶠ q.re, p.i +ᶠ q.i, p.j +ᶠ q.j, p.k +ᶠ q.k⟩
/-- `operator-=(const quaternion<_G>&)` — `haxx_quaternion_op.hpp:52-63`. -/
def subAssign (p q : Quat F) : Quat F := ⟨p.re -ᶠ q.re, p.i -ᶠ q.i, p.j -ᶠ q.j, p.k -ᶠ q.k⟩

/-- unary `operator-` — `haxx_quaternion_op.hpp:71-76`. -/
def neg (x : Quat F) : Quat F := ⟨~ᶠ x.re, ~ᶠ x.i, ~ᶠ x.j, ~ᶠ x.k⟩

/-- `operator+(quaternion,quaternion)` — `haxx_quaternion_op.hpp:82-90`. -/
def add (x y : Quat F) : Quat F := addAssign x y
/-- `operator-(quaternion,quaternion)` — `haxx_quaternion_op.hpp:95-103`. -/
def sub (x y : Quat F) : Quat F := subAssign x y

/-- Portable `operator*(quaternion,quaternion)` — `haxx_quaternion_op.hpp:108-129`. -/
def mul (x y : Quat F) : Quat F :=
  ⟨x.re *ᶠ y.re -ᶠ x.i *ᶠ y.i -ᶠ x.j *ᶠ y.j -ᶠ x.k *ᶠ y.k,
   x.re *ᶠ y.i +ᶠ x.i *ᶠ y.re +ᶠ x.j *ᶠ y.k -ᶠ x.k *ᶠ y.j,
   x.re *ᶠ y.j -ᶠ x.i *ᶠ y.k +ᶠ x.j *ᶠ y.re +ᶠ x.k *ᶠ y.i,
   x.re *ᶠ y.k +ᶠ x.i *ᶠ y.j -ᶠ x.j *ᶠ y.i +ᶠ x.k *ᶠ y.re⟩

/-- `operator==` — `haxx_quaternion_op.hpp:156-162`, with the comparison of `q.imag_k()` to itself
exactly as written. -/
def eqOp {F : Type} [ArithEq F] (p q : Quat F) : Bool :=
  (p.re ==ᶠ q.re) && (p.i ==ᶠ q.i) && (p.j ==ᶠ q.j) && (q.k ==ᶠ q.k)

/-- `operator!=` — `haxx_quaternion_op.hpp:168-173`. -/
def neOp {F : Type} [ArithEq F] (p q : Quat F) : Bool := !(eqOp p q)

/-! ### quaternion – real — `haxx_scalar_op.hpp:130-267` -/

/-- `operator+(quaternion,_F)` — `haxx_scalar_op.hpp:130-137`. -/
def addReal (x : Quat F) (y : F) : Quat F := addAssignReal x y
/-- `operator+(_F,quaternion)` — `haxx_scalar_op.hpp:149-156`. -/
def realAdd (x : F) (y : Quat F) : Quat F := addAssignReal y x
/-- `operator-(quaternion,_F)` — `haxx_scalar_op.hpp:168-175`. -/
def subReal (x : Quat F) (y : F) : Quat F := subAssignReal x y
/-- `operator-(_F,quaternion)` — `haxx_scalar_op.hpp:187-194`. -/
def realSub (x : F) (y : Quat F) : Quat F := addAssignReal (neg y) x
/-- `operator*(quaternion,_F)` — `haxx_scalar_op.hpp:206-213`. -/
def mulReal (x : Quat F) (y : F) : Quat F := mulAssignReal x y
/-- `operator*(_F,quaternion)` — `haxx_scalar_op.hpp:224-231`. -/
def realMul (x : F) (y : Quat F) : Quat F := mulAssignReal y x
/-- `operator/(quaternion,_F)` — `haxx_scalar_op.hpp:242-249`. -/
def divReal [ArithDiv F] (x : Quat F) (y : F) : Quat F := divAssignReal x y

/-! ### quaternion – complex — `haxx_complex_op.hpp:87-209` -/

/-- `operator+(quaternion,complex)` — `haxx_complex_op.hpp:87-95`. -/
def addCplx (x : Quat F) (y : Cplx F) : Quat F := addAssignCplx x y
/-- `operator+(complex,quaternion)` — `haxx_complex_op.hpp:107-115`. -/
def cplxAdd (x : Cplx F) (y : Quat F) : Quat F := addAssignCplx y x
/-- `operator-(quaternion,complex)` — `haxx_complex_op.hpp:127-135`. -/
def subCplx (x : Quat F) (y : Cplx F) : Quat F := subAssignCplx x y
/-- `operator-(complex,quaternion)` — `haxx_complex_op.hpp:147-155`. -/
def cplxSub (x : Cplx F) (y : Quat F) : Quat F := addAssignCplx (neg y) x
/-- `operator*(quaternion,complex)` — `haxx_complex_op.hpp:169-183`. -/
def mulCplx (x : Quat F) (y : Cplx F) : Quat F :=
  ⟨x.re *ᶠ y.re -ᶠ x.i *ᶠ y.im,
   x.re *ᶠ y.im +ᶠ x.i *ᶠ y.re,
   x.j *ᶠ y.re +ᶠ x.k *ᶠ y.im,
   x.k *ᶠ y.re -ᶠ x.j *ᶠ y.im⟩
/-- `operator*(complex,quaternion)` — `haxx_complex_op.hpp:195-209`. -/
def cplxMul (x : Cplx F) (y : Quat F) : Quat F :=
  ⟨x.re *ᶠ y.re -ᶠ x.im *ᶠ y.i,
   x.re *ᶠ y.i +ᶠ x.im *ᶠ y.re,
   x.re *ᶠ y.j -ᶠ x.im *ᶠ y.k,
   x.re *ᶠ y.k +ᶠ x.im *ᶠ y.j⟩

/-! ### reductions — `haxx_quaternion_reduction.hpp` -/

/-- `norm` — `haxx_quaternion_reduction.hpp:23-31`. -/
def norm [ArithDiv F] (q : Quat F) : F :=
  let nmsq := q.re *ᶠ q.re
  let nmsq := nmsq +ᶠ q.i *ᶠ q.i
  let nmsq := nmsq +ᶠ q.j *ᶠ q.j
  let nmsq := nmsq +ᶠ q.k *ᶠ q.k
  ArithDiv.sqrt nmsq

/-- `conj` — `haxx_quaternion_reduction.hpp:36-41`. -/
def conj (q : Quat F) : Quat F := ⟨q.re, ~ᶠ q.i, ~ᶠ q.j, ~ᶠ q.k⟩

/-- `inv` — `haxx_quaternion_reduction.hpp:66-72`. -/
def inv [ArithDiv F] (q : Quat F) : Quat F :=
  let nrm := norm q
  divReal (divReal (conj q) nrm) nrm

/-- `versor` — `haxx_quaternion_reduction.hpp:77-83`. -/
def versor [ArithDiv F] (q : Quat F) : Quat F :=
  let nrm := norm q
  divReal q nrm

/-- `operator/(_F,quaternion)` — `haxx_scalar_op.hpp:260-267`. -/
def realDiv [ArithDiv F] (x : F) (y : Quat F) : Quat F := mulAssignReal (inv y) x

/-- `comm(quaternion,quaternion)` — `haxx_quaternion_reduction.hpp:88-93`. -/
def comm (p q : Quat F) : Quat F := sub (mul p q) (mul q p)
/-- `comm(quaternion,complex)` — `haxx_quaternion_reduction.hpp:95-102`. -/
def commC (p : Quat F) (q : Cplx F) : Quat F := sub (mulCplx p q) (cplxMul q p)
/-- `comm(complex,quaternion)` — `haxx_quaternion_reduction.hpp:104-109`. -/
def cComm (p : Cplx F) (q : Quat F) : Quat F := neg (commC q p)
/-- `comm(_F,quaternion)` — `haxx_quaternion_reduction.hpp:112-117`. -/
def rComm (_p : F) (_q : Quat F) : Quat F := mkReal zero
/-- `comm(quaternion,_F)` — `haxx_quaternion_reduction.hpp:119-124`. -/
def commR (_q : Quat F) (_p : F) : Quat F := mkReal zero

end Quat

/-- The three scalar types that `ALPHA`/`BETA` and matrix elements range over
(`include/util/constants.hpp:13-16`, `include/hblas/config/types.hpp:16-59`). -/
inductive Scal (F : Type) where
  | d (a : F)
  | z (a : Cplx F)
  | h (a : Quat F)
deriving DecidableEq

/-- `std::conj` on `std::complex<double>`. -/
def Cplx.conj (z : Cplx F) : Cplx F := ⟨z.re, ~ᶠ z.im⟩

namespace Scal

/-- `SmartConj` — `haxx_quaternion_reduction.hpp:128-136`. -/
def smartConj : Scal F → Scal F
  | .d x => .d x
  | .z x => .z x.conj
  | .h x => .h x.conj

/-- `a * q` resolved by overloading on the type of `a` (portable quaternion product). -/
def mulL : Scal F → Quat F → Quat F
  | .d a, q => Quat.realMul a q
  | .z a, q => Quat.cplxMul a q
  | .h a, q => Quat.mul a q

/-- `q * a` resolved by overloading on the type of `a` (portable quaternion product). -/
def mulR : Quat F → Scal F → Quat F
  | q, .d a => Quat.mulReal q a
  | q, .z a => Quat.mulCplx q a
  | q, .h a => Quat.mul q a

end Scal

end Haxx
