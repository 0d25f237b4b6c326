import Verif.ThrLock

/-! # The SIMD routines in lock step -/

namespace Haxx.Thr
open Arith
set_option linter.unusedSectionVars false
set_option linter.unusedTactic false
set_option linter.unreachableTactic false

variable {F : Type} [Arith F] [ArithEq F]

theorem copyvAVX_lock (N X INCX Y INCY : Int) : Lock (copyvAVX N X INCX Y INCY : Prog F Unit) (copyvAVX N X INCX Y INCY) := by
  repeat' first
    | lock_step
    | unfold copyvAVX
    | unfold copyBody
theorem swapvAVX_lock (N X INCX Y INCY : Int) : Lock (swapvAVX N X INCX Y INCY : Prog F Unit) (swapvAVX N X INCX Y INCY) := by
  repeat' first
    | lock_step
    | unfold swapvAVX
    | unfold swapBody
theorem scalvAVX_lock (SIDE : Char) (N : Int) (ALPHA : Scal F) (X INCX : Int) :
    Lock (scalvAVX SIDE N ALPHA X INCX) (scalvAVX SIDE N ALPHA X INCX) := by
  repeat' first
    | lock_step
    | unfold scalvAVX
theorem axpyvAVX_lock (SIDE : Char) (N : Int) (ALPHA : Scal F) (X INCX Y INCY : Int) :
    Lock (axpyvAVX SIDE N ALPHA X INCX Y INCY) (axpyvAVX SIDE N ALPHA X INCX Y INCY) := by
  repeat' first
    | lock_step
    | unfold axpyvAVX
theorem dotClean_lock (conj al : Bool) (locX locY INCX INCY : Int) (i : Nat) (r r' : V4 F) :
    @Lock F (V4 F) shTriv (dotClean conj al locX locY INCX INCY i r) (dotClean conj al locX locY INCX INCY i r') := by
  unfold dotClean
  repeat' lock_step
theorem dotAVX_lock (conj : Bool) (N X INCX Y INCY : Int) :
    @Lock F (Quat F) shTriv (dotAVX conj N X INCX Y INCY) (dotAVX conj N X INCX Y INCY) := by
  repeat' first
    | lock_step
    | exact dotClean_lock ..
    | unfold dotAVX
    | unfold dotBatch
theorem scalm_lock (SCALV : Char → Int → Scal F → Int → Int → Prog F Unit) (h : ∀ a b c d e, Lock (SCALV a b c d e) (SCALV a b c d e))
    (SIDE TRANSA : Char) (M N : Int) (ALPHA : Scal F) (A LDA INCA : Int) :
    Lock (scalm SCALV SIDE TRANSA M N ALPHA A LDA INCA) (scalm SCALV SIDE TRANSA M N ALPHA A LDA INCA) := by
  repeat' first
    | exact h ..
    | lock_step
    | unfold scalm
theorem axpym_lock (AXPYV : Char → Int → Scal F → Int → Int → Int → Int → Prog F Unit)
    (h : ∀ a b c d e f g, Lock (AXPYV a b c d e f g) (AXPYV a b c d e f g))
    (SIDE TRANSA : Char) (M N : Int) (ALPHA : Scal F) (A LDA INCA B LDB INCB : Int) :
    Lock (axpym AXPYV SIDE TRANSA M N ALPHA A LDA INCA B LDB INCB) (axpym AXPYV SIDE TRANSA M N ALPHA A LDA INCA B LDB INCB) := by
  repeat' first
    | exact h ..
    | lock_step
    | unfold axpym
theorem TPACK_lock (pre : V4 F → V4 F) (op : VV F → VV F) (M N X LDX Xp : Int) :
    Lock (TPACK pre op M N X LDX Xp) (TPACK pre op M N X LDX Xp) := by
  repeat' first
    | lock_step
    | unfold TPACK
    | unfold packCol2
    | unfold packCol1
theorem NPACK_lock (pre : V4 F → V4 F) (op : VV F → VV F) (M N X LDX Xp : Int) :
    Lock (NPACK pre op M N X LDX Xp) (NPACK pre op M N X LDX Xp) := by
  repeat' first
    | lock_step
    | unfold NPACK
    | unfold packCol2
    | unfold packCol1
theorem Kern_lock (M N K A B C LDC : Int) : Lock (Kern M N K A B C LDC : Prog F Unit) (Kern M N K A B C LDC) := by
  repeat' first
    | lock_step
    | unfold Kern
    | unfold kernBody
theorem gemmAVX_lock (blk : Blk) (bAddr aAddr : Int) (junk junk' : Int → F) (TRANSA TRANSB : Char) (M N K : Int)
    (ALPHA : Scal F) (A LDA B LDB : Int) (BETA : Scal F) (C LDC : Int) :
    Lock (gemmAVX blk bAddr aAddr junk TRANSA TRANSB M N K ALPHA A LDA B LDB BETA C LDC)
      (gemmAVX blk bAddr aAddr junk' TRANSA TRANSB M N K ALPHA A LDA B LDB BETA C LDC) := by
  repeat' first
    | with_reducible exact TPACK_lock ..
    | with_reducible exact NPACK_lock ..
    | with_reducible exact Kern_lock ..
    | with_reducible exact scalm_lock _ scalvAVX_lock ..
    | lock_step
    | unfold gemmAVX
    | unfold gemmJ
    | unfold gemmJStep
    | unfold gemmK
    | unfold gemmKStep
    | unfold gemmI
    | unfold gemmIStep
    | unfold gemmJJ
    | unfold gemmJJStep
    | unfold gemmII
    | unfold gemmIIStep
    | unfold advance
    | unfold aPackSel
    | unfold bPackSel
end Haxx.Thr
