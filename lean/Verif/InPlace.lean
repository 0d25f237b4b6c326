import Verif.Mem

/-!
# The in-place operators of `quaternion<F>`, statement by statement

The compound assignments take their operand by reference and read it again in every statement, so
what they do depends on where the operand lies.  `Quat.lean` models them as functions of values;
here each is a program on memory: `q` is the address of `*this` (four cells `q`, …, `q+3`, struct
order of `include/haxx/haxx_def.hpp:186-190`), `t` the address of the operand (one cell for
`const F&`, two for `const std::complex<F>&` — real part first —, four for `const quaternion<F>&`).
Not modelled: the compiler's freedom to assume that a `std::complex` object and a `quaternion`
object do not overlap; operands of another component type (the conversion happens on the value
read, nothing else changes).
-/

namespace Haxx
namespace InPlace

open Arith

variable {F : Type} [Arith F]

/-- `x += v`, `x -= v`, … on one cell where `v` is read through a reference: `*x = f(*x, *v)`; both
are read before the cell is written (the C++ meaning of `_M_real += __t`). -/
def upd (f : F → F → F) (x v : Int) : Prog F Unit := do
  let a ← rd x
  let b ← rd v
  wr x (f a b)

/-- `operator=(const _F&)` — `haxx_scalar_op.hpp:25-35`. -/
def assignReal (q t : Int) : Prog F Unit := do
  let v ← rd t
  wr q v
  wr (q+1) zero
  wr (q+2) zero
  wr (q+3) zero

/-- `operator+=(const _F&)` — `haxx_scalar_op.hpp:48-54`. -/
def addAssignReal (q t : Int) : Prog F Unit := upd (· +ᶠ ·) q t

/-- `operator-=(const _F&)` — `haxx_scalar_op.hpp:65-71`. -/
def subAssignReal (q t : Int) : Prog F Unit := upd (· -ᶠ ·) q t

/-- `operator*=(const _F&)` — `haxx_scalar_op.hpp:82-92`: four statements, each reads `__t`. -/
def mulAssignReal (q t : Int) : Prog F Unit := do
  upd (· *ᶠ ·) q t
  upd (· *ᶠ ·) (q+1) t
  upd (· *ᶠ ·) (q+2) t
  upd (· *ᶠ ·) (q+3) t

/-- `operator/=(const _F&)` — `haxx_scalar_op.hpp:104-114`. -/
def divAssignReal [ArithDiv F] (q t : Int) : Prog F Unit := do
  upd ArithDiv.div q t
  upd ArithDiv.div (q+1) t
  upd ArithDiv.div (q+2) t
  upd ArithDiv.div (q+3) t

/-- `operator=(const _CF&)` — `haxx_complex_op.hpp:25-35`. -/
def assignCplx (q t : Int) : Prog F Unit := do
  let v ← rd t
  wr q v
  let w ← rd (t+1)
  wr (q+1) w
  wr (q+2) zero
  wr (q+3) zero

/-- `operator+=(const _CF&)` — `haxx_complex_op.hpp:46-53`. -/
def addAssignCplx (q t : Int) : Prog F Unit := do
  upd (· +ᶠ ·) q t
  upd (· +ᶠ ·) (q+1) (t+1)

/-- `operator-=(const _CF&)` — `haxx_complex_op.hpp:65-72`. -/
def subAssignCplx (q t : Int) : Prog F Unit := do
  upd (· -ᶠ ·) q t
  upd (· -ᶠ ·) (q+1) (t+1)

/-- The template `operator=(const quaternion<_G>&)` — `haxx_quaternion_op.hpp:20-31` (the same
four copies as the defaulted copy assignment, `haxx_def.hpp:163`). -/
def assign (q p : Int) : Prog F Unit := do
  let a ← rd p
  wr q a
  let b ← rd (p+1)
  wr (q+1) b
  let c ← rd (p+2)
  wr (q+2) c
  let d ← rd (p+3)
  wr (q+3) d

/-- `operator+=(const quaternion<_G>&)` — `haxx_quaternion_op.hpp:36-47`. -/
def addAssign (q p : Int) : Prog F Unit := do
  upd (· +ᶠ ·) q p
  upd (· +ᶠ ·) (q+1) (p+1)
  upd (· +ᶠ ·) (q+2) (p+2)
  upd (· +ᶠ ·) (q+3) (p+3)

/-- `operator-=(const quaternion<_G>&)` — `haxx_quaternion_op.hpp:52-63`. -/
def subAssign (q p : Int) : Prog F Unit := do
  upd (· -ᶠ ·) q p
  upd (· -ᶠ ·) (q+1) (p+1)
  upd (· -ᶠ ·) (q+2) (p+2)
  upd (· -ᶠ ·) (q+3) (p+3)

/-- A function of the components read through the getters and passed to `*=` — e.g.
`q *= q.real()`, `q *= norm(q)`: the getters return by value (`haxx_def.hpp:92-101`), the
temporary `tmp` is what the reference is bound to. -/
def mulByOwn (f : Quat F → F) (q tmp : Int) : Prog F Unit := do
  let x ← loadQ q
  wr tmp (f x)
  mulAssignReal q tmp

/-- The same for `/=` — e.g. `q /= norm(q)`. -/
def divByOwn [ArithDiv F] (f : Quat F → F) (q tmp : Int) : Prog F Unit := do
  let x ← loadQ q
  wr tmp (f x)
  divAssignReal q tmp

end InPlace
end Haxx
