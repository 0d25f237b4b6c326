import Verif.FUtil

/-!
# Utility layer: complex/real expansion and contraction, alignment test
-/

namespace Haxx
open Arith

section
variable {F : Type} [Arith F] [ArithEq F]

/-- `HBLAS_COMPLEX_EXPAND` — `include/hblas/generic/util/expand_impl.hpp:18-30`. -/
def HBLAS_COMPLEX_EXPAND (ORDER : Char) (M N A LDA B LDB : Int) : Prog F Unit := do
  assertP (ORDER == 'F' || ORDER == 'S')
  if ORDER == 'F' then
    hzexp1 M N A LDA B LDB
  else
    hzexp2 M N A LDA B LDB

/-- `HBLAS_REAL_EXPAND` — `include/hblas/generic/util/expand_impl.hpp:32-38`. -/
def HBLAS_REAL_EXPAND (M N A LDA B LDB : Int) : Prog F Unit :=
  hdexp M N A LDA B LDB

/-- `HBLAS_COMPLEX_CONTRACT` — `include/hblas/generic/util/contract_impl.hpp:18-30`. -/
def HBLAS_COMPLEX_CONTRACT (ORDER UPLO : Char) (M N A LDA B LDB : Int) : Prog F Unit := do
  assertP (ORDER == 'F' || ORDER == 'S')
  if ORDER == 'F' then
    hzcon1 UPLO M N A LDA B LDB
  else
    hzcon2 UPLO M N A LDA B LDB

end

/-- `IS_ALIGNED(X,B)` — `include/util/macro.hpp:19`: `((unsigned long)(X) & (B-1)) == 0`; the `int` value
`B-1` is converted to 64 bits. -/
def isAligned (X : BitVec 64) (B : Int) : Bool := (X &&& BitVec.ofInt 64 (B - 1)) == 0#64

end Haxx
