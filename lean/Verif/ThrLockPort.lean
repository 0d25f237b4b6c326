import Verif.ThrLock

/-! # The C++ templates and the conversion utilities in lock step (except GERU, GERC) -/

namespace Haxx.Thr
open Arith
set_option linter.unusedSectionVars false
set_option linter.unusedTactic false
set_option linter.unreachableTactic false

variable {F : Type} [Arith F] [ArithEq F]

theorem lock_loadK (k : Kind) (p : Int) : @Lock F (Scal F) shTriv (loadK k p) (loadK k p) := by
  unfold loadK; cases k <;> repeat' lock_step
theorem copyvGen_lock (N X INCX Y INCY : Int) : Lock (copyvGen N X INCX Y INCY : Prog F Unit) (copyvGen N X INCX Y INCY) := by
  repeat' first
    | lock_step
    | unfold copyvGen
    | unfold copyUnroll
    | unfold stridedStep
    | unfold copyEl
theorem swapvGen_lock (N X INCX Y INCY : Int) : Lock (swapvGen N X INCX Y INCY : Prog F Unit) (swapvGen N X INCX Y INCY) := by
  repeat' first
    | lock_step
    | unfold swapvGen
    | unfold swapUnroll
    | unfold stridedStep
    | unfold swapEl
theorem scalvGen_lock (SIDE : Char) (N : Int) (ALPHA : Scal F) (X INCX : Int) :
    Lock (scalvGen SIDE N ALPHA X INCX) (scalvGen SIDE N ALPHA X INCX) := by
  repeat' first
    | lock_step
    | unfold scalvGen
    | unfold scalUnroll
    | unfold scalEl
theorem axpyvGen_lock (SIDE : Char) (N : Int) (ALPHA : Scal F) (X INCX Y INCY : Int) :
    Lock (axpyvGen SIDE N ALPHA X INCX Y INCY) (axpyvGen SIDE N ALPHA X INCX Y INCY) := by
  repeat' first
    | lock_step
    | unfold axpyvGen
    | unfold axpyUnroll
    | unfold stridedStep
    | unfold axpyEl
theorem dotGen_lock (conj : Bool) (N X INCX Y INCY : Int) :
    Lock (dotGen conj N X INCX Y INCY : Prog F (Quat F)) (dotGen conj N X INCX Y INCY) := by
  repeat' first
    | lock_step
    | unfold dotGen
    | unfold dotStep
    | unfold dotEl
theorem gemmGen_lock (k : Kind) (TRANSA TRANSB : Char) (M N K : Int) (ALPHA : Scal F) (A LDA B LDB : Int) (BETA : Scal F) (C LDC : Int) :
    Lock (gemmGen k TRANSA TRANSB M N K ALPHA A LDA B LDB BETA C LDC) (gemmGen k TRANSA TRANSB M N K ALPHA A LDA B LDB BETA C LDC) := by
  repeat' first
    | with_reducible exact lock_loadK ..
    | lock_step
    | unfold gemmGen
    | unfold gemmColNN
    | unfold gemmColNT
    | unfold gemmColTN
    | unfold gemmColTT
    | unfold gemmColA0
    | unfold gemmElTN
    | unfold gemmElTT
    | unfold gemmStoreEl
    | unfold gemmDotEl
    | unfold gemmBetaCol
    | unfold gemmAxpyEl
    | unfold betaEl
    | unfold zeroEl
theorem gemvGen_lock (k : Kind) (TRANS : Char) (M N : Int) (ALPHA : Scal F) (A LDA X INCX : Int) (BETA : Scal F) (Y INCY : Int) :
    Lock (gemvGen k TRANS M N ALPHA A LDA X INCX BETA Y INCY) (gemvGen k TRANS M N ALPHA A LDA X INCX BETA Y INCY) := by
  repeat' first
    | with_reducible exact lock_loadK ..
    | lock_step
    | unfold gemvGen
    | unfold gemvScale
    | unfold gemvColN
    | unfold gemvColT
    | unfold gemvAxpyEl
    | unfold gemvDotEl
    | unfold zeroEl
    | unfold betaEl
    | unfold rank2
end Haxx.Thr
