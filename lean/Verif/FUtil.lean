import Verif.Fortran

/-!
# Fortran utility routines

Generated by `tools/f2lean.py` from the Fortran sources cited on each definition; do not edit.
-/

set_option linter.unusedVariables false

namespace Haxx
open Arith

variable {F : Type} [Arith F] [ArithEq F]

/-- `src/hblas/fortran/util/hdexp.f:17-39`, body of `DO 10 I`. -/
def hdexp_10_I (A : Int) (B : Int) (J : Int) (JB : Int) (LDA : Int) (LDB : Int) (I : Int) (IB : Int) : Prog F (Int) := do
  let t1 ← rd (el3 1 4 LDA A 1 I J)
  wr (el2 1 LDB B IB JB) t1
  let t2 ← rd (el3 1 4 LDA A 2 I J)
  wr (el2 1 LDB B IB (JB + 1)) t2
  let t3 ← rd (el3 1 4 LDA A 3 I J)
  wr (el2 1 LDB B IB (JB + 2)) t3
  let t4 ← rd (el3 1 4 LDA A 4 I J)
  wr (el2 1 LDB B IB (JB + 3)) t4
  let t5 ← rd (el3 1 4 LDA A 2 I J)
  wr (el2 1 LDB B (IB + 1) JB) (~ᶠt5)
  let t6 ← rd (el3 1 4 LDA A 1 I J)
  wr (el2 1 LDB B (IB + 1) (JB + 1)) t6
  let t7 ← rd (el3 1 4 LDA A 4 I J)
  wr (el2 1 LDB B (IB + 1) (JB + 2)) (~ᶠt7)
  let t8 ← rd (el3 1 4 LDA A 3 I J)
  wr (el2 1 LDB B (IB + 1) (JB + 3)) t8
  let t9 ← rd (el3 1 4 LDA A 3 I J)
  wr (el2 1 LDB B (IB + 2) JB) (~ᶠt9)
  let t10 ← rd (el3 1 4 LDA A 4 I J)
  wr (el2 1 LDB B (IB + 2) (JB + 1)) t10
  let t11 ← rd (el3 1 4 LDA A 1 I J)
  wr (el2 1 LDB B (IB + 2) (JB + 2)) t11
  let t12 ← rd (el3 1 4 LDA A 2 I J)
  wr (el2 1 LDB B (IB + 2) (JB + 3)) (~ᶠt12)
  let t13 ← rd (el3 1 4 LDA A 4 I J)
  wr (el2 1 LDB B (IB + 3) JB) (~ᶠt13)
  let t14 ← rd (el3 1 4 LDA A 3 I J)
  wr (el2 1 LDB B (IB + 3) (JB + 1)) (~ᶠt14)
  let t15 ← rd (el3 1 4 LDA A 2 I J)
  wr (el2 1 LDB B (IB + 3) (JB + 2)) t15
  let t16 ← rd (el3 1 4 LDA A 1 I J)
  wr (el2 1 LDB B (IB + 3) (JB + 3)) t16
  let IB : Int := IB + 4
  pure IB

/-- `src/hblas/fortran/util/hdexp.f:15-41`, body of `DO 20 J`. -/
def hdexp_20_J (A : Int) (B : Int) (LDA : Int) (LDB : Int) (M : Int) (J : Int) (JB : Int) : Prog F (Int) := do
  let IB : Int := 1
  let r ← foldN (M).toNat (fun i (s : Int) => hdexp_10_I A B J JB LDA LDB ((i : Int) + 1) s) IB
  let JB : Int := JB + 4
  pure JB

/-- `src/hblas/fortran/util/hdexp.f:9-43`. -/
def hdexp (M : Int) (N : Int) (A : Int) (LDA : Int) (B : Int) (LDB : Int) : Prog F (Unit) := do
  let JB : Int := 1
  let r ← foldN (N).toNat (fun i (s : Int) => hdexp_20_J A B LDA LDB M ((i : Int) + 1) s) JB
  pure ()

/-- `src/hblas/fortran/util/hzexp.f:17-24`, body of `DO 10 I`. -/
def hzexp1_10_I (A : Int) (B : Int) (J : Int) (JB : Int) (LDA : Int) (LDB : Int) (I : Int) (IB : Int) : Prog F (Int) := do
  let t1 ← rdC (el3 2 2 LDA A 1 I J)
  wrC (el2 2 LDB B IB JB) t1
  let t2 ← rdC (el3 2 2 LDA A 1 I J)
  wrC (el2 2 LDB B (IB + 1) (JB + 1)) (Cplx.conj t2)
  let t3 ← rdC (el3 2 2 LDA A 2 I J)
  wrC (el2 2 LDB B IB (JB + 1)) t3
  let t4 ← rdC (el3 2 2 LDA A 2 I J)
  wrC (el2 2 LDB B (IB + 1) JB) (Cplx.neg (Cplx.conj t4))
  let IB : Int := IB + 2
  pure IB

/-- `src/hblas/fortran/util/hzexp.f:15-26`, body of `DO 20 J`. -/
def hzexp1_20_J (A : Int) (B : Int) (LDA : Int) (LDB : Int) (M : Int) (J : Int) (JB : Int) : Prog F (Int) := do
  let IB : Int := 1
  let r ← foldN (M).toNat (fun i (s : Int) => hzexp1_10_I A B J JB LDA LDB ((i : Int) + 1) s) IB
  let JB : Int := JB + 2
  pure JB

/-- `src/hblas/fortran/util/hzexp.f:9-28`. -/
def hzexp1 (M : Int) (N : Int) (A : Int) (LDA : Int) (B : Int) (LDB : Int) : Prog F (Unit) := do
  let JB : Int := 1
  let r ← foldN (N).toNat (fun i (s : Int) => hzexp1_20_J A B LDA LDB M ((i : Int) + 1) s) JB
  pure ()

/-- `src/hblas/fortran/util/hzexp.f:38-43`, body of `DO 10 I`. -/
def hzexp2_10_I (A : Int) (B : Int) (J : Int) (LDA : Int) (LDB : Int) (M : Int) (N : Int) (I : Int)  : Prog F (Unit) := do
  let t1 ← rdC (el3 2 2 LDA A 1 I J)
  wrC (el2 2 LDB B I J) t1
  let t2 ← rdC (el3 2 2 LDA A 1 I J)
  wrC (el2 2 LDB B (I + M) (J + N)) (Cplx.conj t2)
  let t3 ← rdC (el3 2 2 LDA A 2 I J)
  wrC (el2 2 LDB B I (J + N)) t3
  let t4 ← rdC (el3 2 2 LDA A 2 I J)
  wrC (el2 2 LDB B (I + M) J) (Cplx.neg (Cplx.conj t4))
  pure ()

/-- `src/hblas/fortran/util/hzexp.f:37-43`, body of `DO 10 J`. -/
def hzexp2_10_J (A : Int) (B : Int) (LDA : Int) (LDB : Int) (M : Int) (N : Int) (J : Int)  : Prog F (Unit) := do
  forN (M).toNat (fun i => hzexp2_10_I A B J LDA LDB M N ((i : Int) + 1))
  pure ()

/-- `src/hblas/fortran/util/hzexp.f:32-45`. -/
def hzexp2 (M : Int) (N : Int) (A : Int) (LDA : Int) (B : Int) (LDB : Int) : Prog F (Unit) := do
  forN (N).toNat (fun i => hzexp2_10_J A B LDA LDB M N ((i : Int) + 1))
  pure ()

/-- `src/hblas/fortran/util/hzcon.f:25-35`, body of `DO 10 I`. -/
def hzcon1_10_I (A : Int) (B : Int) (J : Int) (JB : Int) (LDA : Int) (LDB : Int) (NOTL : Bool) (I : Int) (IB : Int) : Prog F (Int) := do
  let t1 ← rdC (el2 2 LDB B IB JB)
  wrC (el3 2 2 LDA A 1 I J) t1
  let _ ← (do
    if NOTL then
      let t2 ← rdC (el2 2 LDB B IB (JB + 1))
      wrC (el3 2 2 LDA A 2 I J) t2
      pure ()
    else
      let t3 ← rdC (el2 2 LDB B (IB + 1) JB)
      wrC (el3 2 2 LDA A 2 I J) (Cplx.neg (Cplx.conj t3))
      pure () : Prog F Unit)
  let IB : Int := IB + 2
  pure IB

/-- `src/hblas/fortran/util/hzcon.f:23-37`, body of `DO 20 J`. -/
def hzcon1_20_J (A : Int) (B : Int) (LDA : Int) (LDB : Int) (M : Int) (NOTL : Bool) (J : Int) (JB : Int) : Prog F (Int) := do
  let IB : Int := 1
  let r ← foldN (M).toNat (fun i (s : Int) => hzcon1_10_I A B J JB LDA LDB NOTL ((i : Int) + 1) s) IB
  let JB : Int := JB + 2
  pure JB

/-- `src/hblas/fortran/util/hzcon.f:9-39`. -/
def hzcon1 (UPLO : Char) (M : Int) (N : Int) (A : Int) (LDA : Int) (B : Int) (LDB : Int) : Prog F (Unit) := do
  let NOTL : Bool := lsame UPLO 'U'
  let JB : Int := 1
  let r ← foldN (N).toNat (fun i (s : Int) => hzcon1_20_J A B LDA LDB M NOTL ((i : Int) + 1) s) JB
  pure ()

/-- `src/hblas/fortran/util/hzcon.f:59-69`, body of `DO 10 I`. -/
def hzcon2_10_I (A : Int) (B : Int) (J : Int) (LDA : Int) (LDB : Int) (M : Int) (N : Int) (NOTL : Bool) (I : Int)  : Prog F (Unit) := do
  let t1 ← rdC (el2 2 LDB B I J)
  wrC (el3 2 2 LDA A 1 I J) t1
  let _ ← (do
    if NOTL then
      let t2 ← rdC (el2 2 LDB B I (J + N))
      wrC (el3 2 2 LDA A 2 I J) t2
      pure ()
    else
      let t3 ← rdC (el2 2 LDB B (I + M) J)
      wrC (el3 2 2 LDA A 2 I J) (Cplx.neg (Cplx.conj t3))
      pure () : Prog F Unit)
  pure ()

/-- `src/hblas/fortran/util/hzcon.f:58-69`, body of `DO 10 J`. -/
def hzcon2_10_J (A : Int) (B : Int) (LDA : Int) (LDB : Int) (M : Int) (N : Int) (NOTL : Bool) (J : Int)  : Prog F (Unit) := do
  forN (M).toNat (fun i => hzcon2_10_I A B J LDA LDB M N NOTL ((i : Int) + 1))
  pure ()

/-- `src/hblas/fortran/util/hzcon.f:43-71`. -/
def hzcon2 (UPLO : Char) (M : Int) (N : Int) (A : Int) (LDA : Int) (B : Int) (LDB : Int) : Prog F (Unit) := do
  let NOTL : Bool := lsame UPLO 'U'
  forN (N).toNat (fun i => hzcon2_10_J A B LDA LDB M N NOTL ((i : Int) + 1))
  pure ()

end Haxx
