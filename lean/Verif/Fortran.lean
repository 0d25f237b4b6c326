import Verif.Mem
import Verif.Spec

/-!
# The Fortran fragment used by HAXX

Vocabulary of the modules generated by `tools/f2lean.py` from `src/hblas/fortran/**/*.f`.
Arrays are base addresses (in 8-byte cells); `REAL*8` occupies one cell, `COMPLEX*16` two.
`INTEGER*4` arithmetic is modelled by mathematical integers (no wrap-around), and
`DO I = 1,N` by `max(N,0)` iterations, the Fortran trip count.
-/

namespace Haxx
open Arith

section
variable {F : Type}

/-- Reading a variable that was never assigned. -/
def uninit {α : Type} : Prog F α := fault .uninit

/-- Read a `COMPLEX*16` at cell address `p`. -/
def rdC (p : Int) : Prog F (Cplx F) := do
  let a ← rd p
  let b ← rd (p+1)
  pure ⟨a, b⟩

/-- Write a `COMPLEX*16` at cell address `p`. -/
def wrC (p : Int) (z : Cplx F) : Prog F Unit := do
  wr p z.re
  wr (p+1) z.im

/-- Address of `B(I,J)` for an array declared `B(d1,*)` whose elements take `w` cells. -/
def el2 (w d1 b i j : Int) : Int := b + w * ((i - 1) + d1 * (j - 1))

/-- Address of `A(I,J,K)` for an array declared `A(d1,d2,*)` whose elements take `w` cells. -/
def el3 (w d1 d2 b i j k : Int) : Int := b + w * ((i - 1) + d1 * ((j - 1) + d2 * (k - 1)))

/-- `ALPHA(1)` of a quaternion passed as `COMPLEX*16 ALPHA(2)`. -/
def Quat.lo (q : Quat F) : Cplx F := ⟨q.re, q.i⟩
/-- `ALPHA(2)` of a quaternion passed as `COMPLEX*16 ALPHA(2)`. -/
def Quat.hi (q : Quat F) : Cplx F := ⟨q.j, q.k⟩
end

section
variable {F : Type} [Arith F]

/-- Implicit conversion `REAL*8` to `COMPLEX*16`. -/
def Cplx.ofReal (a : F) : Cplx F := ⟨a, zero⟩
/-- `COMPLEX*16` unary minus. -/
def Cplx.neg (a : Cplx F) : Cplx F := ⟨~ᶠ a.re, ~ᶠ a.im⟩
/-- `COMPLEX*16` addition. -/
def Cplx.add (a b : Cplx F) : Cplx F := ⟨a.re +ᶠ b.re, a.im +ᶠ b.im⟩
/-- `COMPLEX*16` subtraction. -/
def Cplx.sub (a b : Cplx F) : Cplx F := ⟨a.re -ᶠ b.re, a.im -ᶠ b.im⟩
/-- `COMPLEX*16` multiplication. -/
def Cplx.mul (a b : Cplx F) : Cplx F :=
  ⟨a.re *ᶠ b.re -ᶠ a.im *ᶠ b.im, a.re *ᶠ b.im +ᶠ a.im *ᶠ b.re⟩
end

scoped infixl:65 " +ᶜ " => Cplx.add
scoped infixl:65 " -ᶜ " => Cplx.sub
scoped infixl:70 " *ᶜ " => Cplx.mul

/-- `COMPLEX*16` `.EQ.`. -/
def Cplx.feq {F : Type} [ArithEq F] (a b : Cplx F) : Bool := (a.re ==ᶠ b.re) && (a.im ==ᶠ b.im)

/-- `ABS(Z).EQ.0.0D0` for `COMPLEX*16 Z` (`src/hblas/fortran/hblas1/hscalc.f:22`); simplification:
the modulus is zero exactly when both components are. -/
def cabsIsZero {F : Type} [Arith F] [ArithEq F] (z : Cplx F) : Bool :=
  (z.re ==ᶠ zero) && (z.im ==ᶠ zero)

/-- `LSAME` — `src/hblas/fortran/util/lsame.f:1-87`, on ASCII processors (`ICHAR('Z') = 90`, so the
branch at lines 52-58 is the one executed). -/
def lsame (CA CB : Char) : Bool :=
  if CA = CB then true
  else
    let INTA := CA.toNat
    let INTB := CB.toNat
    let INTA := if 97 ≤ INTA ∧ INTA ≤ 122 then INTA - 32 else INTA
    let INTB := if 97 ≤ INTB ∧ INTB ≤ 122 then INTB - 32 else INTB
    decide (INTA = INTB)

end Haxx
