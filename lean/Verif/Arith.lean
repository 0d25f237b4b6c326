import Mathlib.Algebra.Ring.Basic

/-!
# Scalar arithmetic

All modelled code computes with `double`s.  The model is written over an *uninterpreted* set of
operations; no law is assumed of them, so a theorem about a general `Arith F` holds in particular
for IEEE-754 doubles with any rounding, for `F` = bit patterns, and so on.
The instance `Arith.ofRing` (exact arithmetic in a commutative ring) is used for the
algebraic theorems.
-/

namespace Haxx

/-- The machine operations on `double` the code uses.  `neg` is the sign-bit flip
(`_mm256_xor_pd` with `0x8000000000000000`, and unary minus in scalar code); `fma a b c = a*b+c`,
`fms a b c = a*b-c`, `fnma a b c = c-a*b`
(`include/util/simd/intrin_alias.hpp:74-88`: either one fused instruction or a `mul` followed by
`add`/`sub`; the class allows both). -/
class Arith (F : Type) where
  zero : F
  one : F
  add : F → F → F
  sub : F → F → F
  mul : F → F → F
  neg : F → F
  fma : F → F → F → F
  fms : F → F → F → F
  fnma : F → F → F → F

/-- Floating-point comparison `==` on `double`. -/
class ArithEq (F : Type) where
  feq : F → F → Bool

/-- Division and square root (`operator/`, `std::sqrt`). -/
class ArithDiv (F : Type) where
  div : F → F → F
  sqrt : F → F

scoped infixl:65 " +ᶠ " => Arith.add
scoped infixl:65 " -ᶠ " => Arith.sub
scoped infixl:70 " *ᶠ " => Arith.mul
scoped prefix:max "~ᶠ" => Arith.neg
scoped infix:50 " ==ᶠ " => ArithEq.feq

/-- Exact arithmetic in a commutative ring. -/
instance Arith.ofRing {R : Type} [CommRing R] : Arith R where
  zero := 0
  one := 1
  add := (· + ·)
  sub := (· - ·)
  mul := (· * ·)
  neg := (- ·)
  fma a b c := a * b + c
  fms a b c := a * b - c
  fnma a b c := c - a * b

/-- Exact comparison. -/
instance ArithEq.ofDecEq {R : Type} [DecidableEq R] : ArithEq R where
  feq a b := decide (a = b)

section
variable {R : Type} [CommRing R] (a b c : R)
@[simp] theorem ar_zero : (Arith.zero : R) = 0 := rfl
@[simp] theorem ar_one : (Arith.one : R) = 1 := rfl
@[simp] theorem ar_add : a +ᶠ b = a + b := rfl
@[simp] theorem ar_sub : a -ᶠ b = a - b := rfl
@[simp] theorem ar_mul : a *ᶠ b = a * b := rfl
@[simp] theorem ar_neg : ~ᶠ a = -a := rfl
@[simp] theorem ar_fma : Arith.fma a b c = a * b + c := rfl
@[simp] theorem ar_fms : Arith.fms a b c = a * b - c := rfl
@[simp] theorem ar_fnma : Arith.fnma a b c = c - a * b := rfl
end

@[simp] theorem ar_feq {R : Type} [DecidableEq R] (a b : R) :
    (a ==ᶠ b) = decide (a = b) := rfl

end Haxx
