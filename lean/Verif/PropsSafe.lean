import Verif.PropsThread
import Verif.ThrSafeL1
import Verif.ThrSafeGer
import Verif.ThrSafeGemvhh
import Verif.ThrSafeGemmd
import Verif.ThrSafeGemmz
import Verif.ThrSafeGemmh
import Verif.ThrSafeUtil
import Verif.ThrSafePort
import Verif.ThrSafeMix
import Verif.PropsGemv
import Verif.PropsGer
import Verif.PropsUtil
import Verif.PropsGeneric2

/-!
# C50: memory safety does not depend on the numbers;  C49 for every build

`RefCall` lists the routines of the Fortran and the portable (template) builds.  Each of them, whatever the
numbers in memory and the scalars are — NaNs, infinities, any rounding, and whatever the operands overlap —
finishes without undefined behaviour as soon as the cells of its operands are accessible, touches no other cell,
and writes only its output.
-/

namespace Haxx
open Arith
set_option linter.unusedSectionVars false

section dispatch
variable {F : Type} [Arith F] [ArithEq F]

/-- SCAL of the Fortran build — `src/hblas/fortran/hblas1/hscal{d,c,h}.f`. -/
def scalF (SIDE : Char) (N : Int) (ALPHA : Scal F) (X INCX : Int) : Prog F Unit :=
  match ALPHA with
  | .d a => hscald SIDE N a X INCX
  | .z a => hscalc SIDE N a X INCX
  | .h a => hscalh SIDE N a X INCX
/-- AXPY of the Fortran build — `src/hblas/fortran/hblas1/haxpy{dh,ch,hh}.f`. -/
def axpyF (SIDE : Char) (N : Int) (ALPHA : Scal F) (X INCX Y INCY : Int) : Prog F Unit :=
  match ALPHA with
  | .d a => haxpydh SIDE N a X INCX Y INCY
  | .z a => haxpych SIDE N a X INCX Y INCY
  | .h a => haxpyhh SIDE N a X INCX Y INCY

namespace Thr
/-- As `Haxx.scalF`. -/
def scalF (SIDE : Char) (N : Int) (ALPHA : Scal F) (X INCX : Int) : Prog F Unit :=
  match ALPHA with
  | .d a => hscald SIDE N a X INCX
  | .z a => hscalc SIDE N a X INCX
  | .h a => hscalh SIDE N a X INCX
/-- As `Haxx.axpyF`. -/
def axpyF (SIDE : Char) (N : Int) (ALPHA : Scal F) (X INCX Y INCY : Int) : Prog F Unit :=
  match ALPHA with
  | .d a => haxpydh SIDE N a X INCX Y INCY
  | .z a => haxpych SIDE N a X INCX Y INCY
  | .h a => haxpyhh SIDE N a X INCX Y INCY
/-- As `Haxx.dotF`. -/
def dotF (conj : Bool) (N X INCX Y INCY : Int) : Prog F (Quat F) :=
  if conj then hdotc N X INCX Y INCY else hdotu N X INCX Y INCY
/-- As `Haxx.geruF`. -/
def geruF (M N : Int) (ALPHA : Scal F) (X INCX Y INCY A LDA : Int) : Prog F Unit :=
  match ALPHA with
  | .d a => hgerud M N a X INCX Y INCY A LDA
  | .z a => hgeruz M N a X INCX Y INCY A LDA
  | .h a => hgeruh M N a X INCX Y INCY A LDA
/-- As `Haxx.gercF`. -/
def gercF (M N : Int) (ALPHA : Scal F) (X INCX Y INCY A LDA : Int) : Prog F Unit :=
  match ALPHA with
  | .d a => hgercd M N a X INCX Y INCY A LDA
  | .z a => hgercz M N a X INCX Y INCY A LDA
  | .h a => hgerch M N a X INCX Y INCY A LDA
/-- As `Haxx.gerF`. -/
def gerF (conj : Bool) (M N : Int) (ALPHA : Scal F) (X INCX Y INCY A LDA : Int) : Prog F Unit :=
  if conj then gercF M N ALPHA X INCX Y INCY A LDA else geruF M N ALPHA X INCX Y INCY A LDA
/-- As `Haxx.gemvF`. -/
def gemvF (TRANS : Char) (M N : Int) (ALPHA : Scal F) (A LDA X INCX : Int) (BETA : Scal F) (Y INCY : Int) : Prog F Unit :=
  match ALPHA, BETA with
  | .d a, .d b => hgemvdd TRANS M N a A LDA X INCX b Y INCY
  | .d a, .z b => hgemvdz TRANS M N a A LDA X INCX b Y INCY
  | .d a, .h b => hgemvdh TRANS M N a A LDA X INCX b Y INCY
  | .z a, .d b => hgemvzd TRANS M N a A LDA X INCX b Y INCY
  | .z a, .z b => hgemvzz TRANS M N a A LDA X INCX b Y INCY
  | .z a, .h b => hgemvzh TRANS M N a A LDA X INCX b Y INCY
  | .h a, .d b => hgemvhd TRANS M N a A LDA X INCX b Y INCY
  | .h a, .z b => hgemvhz TRANS M N a A LDA X INCX b Y INCY
  | .h a, .h b => hgemvhh TRANS M N a A LDA X INCX b Y INCY
/-- As `Haxx.hgemmF`. -/
def hgemmF (TRANSA TRANSB : Char) (M N K : Int) (ALPHA : Scal F) (A LDA B LDB : Int) (BETA : Scal F) (C LDC : Int) : Prog F Unit :=
  match ALPHA, BETA with
  | .d a, .d b => hgemmdd TRANSA TRANSB M N K a A LDA B LDB b C LDC
  | .d a, .z b => hgemmdz TRANSA TRANSB M N K a A LDA B LDB b C LDC
  | .d a, .h b => hgemmdh TRANSA TRANSB M N K a A LDA B LDB b C LDC
  | .z a, .d b => hgemmzd TRANSA TRANSB M N K a A LDA B LDB b C LDC
  | .z a, .z b => hgemmzz TRANSA TRANSB M N K a A LDA B LDB b C LDC
  | .z a, .h b => hgemmzh TRANSA TRANSB M N K a A LDA B LDB b C LDC
  | .h a, .d b => hgemmhd TRANSA TRANSB M N K a A LDA B LDB b C LDC
  | .h a, .z b => hgemmhz TRANSA TRANSB M N K a A LDA B LDB b C LDC
  | .h a, .h b => hgemmhh TRANSA TRANSB M N K a A LDA B LDB b C LDC

theorem run_scalF (SIDE : Char) (N : Int) (ALPHA : Scal F) (X INCX : Int) : (scalF SIDE N ALPHA X INCX).run = Haxx.scalF SIDE N ALPHA X INCX := by
  cases ALPHA
  · exact run_hscald (SIDE := SIDE) ..
  · exact run_hscalc ..
  · exact run_hscalh ..
theorem run_axpyF (SIDE : Char) (N : Int) (ALPHA : Scal F) (X INCX Y INCY : Int) :
    (axpyF SIDE N ALPHA X INCX Y INCY).run = Haxx.axpyF SIDE N ALPHA X INCX Y INCY := by
  cases ALPHA
  · exact run_haxpydh (SIDE := SIDE) ..
  · exact run_haxpych ..
  · exact run_haxpyhh ..
theorem run_dotF (conj : Bool) (N X INCX Y INCY : Int) : (dotF conj N X INCX Y INCY : Prog F (Quat F)).run = Haxx.dotF conj N X INCX Y INCY := by
  cases conj
  · exact run_hdotu ..
  · exact run_hdotc ..
theorem run_gerF (conj : Bool) (M N : Int) (ALPHA : Scal F) (X INCX Y INCY A LDA : Int) :
    (gerF conj M N ALPHA X INCX Y INCY A LDA).run = Haxx.gerF conj M N ALPHA X INCX Y INCY A LDA := by
  cases conj <;> cases ALPHA
  · exact run_hgerud ..
  · exact run_hgeruz ..
  · exact run_hgeruh ..
  · exact run_hgercd ..
  · exact run_hgercz ..
  · exact run_hgerch ..
theorem run_gemvF (TRANS : Char) (M N : Int) (ALPHA : Scal F) (A LDA X INCX : Int) (BETA : Scal F) (Y INCY : Int) :
    (gemvF TRANS M N ALPHA A LDA X INCX BETA Y INCY).run = Haxx.gemvF TRANS M N ALPHA A LDA X INCX BETA Y INCY := by
  cases ALPHA <;> cases BETA
  · exact run_hgemvdd ..
  · exact run_hgemvdz ..
  · exact run_hgemvdh ..
  · exact run_hgemvzd ..
  · exact run_hgemvzz ..
  · exact run_hgemvzh ..
  · exact run_hgemvhd ..
  · exact run_hgemvhz ..
  · exact run_hgemvhh ..
theorem run_hgemmF (TRANSA TRANSB : Char) (M N K : Int) (ALPHA : Scal F) (A LDA B LDB : Int) (BETA : Scal F) (C LDC : Int) :
    (hgemmF TRANSA TRANSB M N K ALPHA A LDA B LDB BETA C LDC).run = Haxx.hgemmF TRANSA TRANSB M N K ALPHA A LDA B LDB BETA C LDC := by
  cases ALPHA <;> cases BETA
  · exact run_hgemmdd ..
  · exact run_hgemmdz ..
  · exact run_hgemmdh ..
  · exact run_hgemmzd ..
  · exact run_hgemmzz ..
  · exact run_hgemmzh ..
  · exact run_hgemmhd ..
  · exact run_hgemmhz ..
  · exact run_hgemmhh ..
end Thr
end dispatch

/-- A call of a routine of the Fortran build (`f…`), of the utilities, or of a C++ template (`p…`).  `fscalm` and
`faxpym` are the templates SCALM and AXPYM linked with the Fortran SCALV and AXPYV. -/
inductive RefCall (F : Type) where
  | fscal (SIDE : Char) (N : Int) (ALPHA : Scal F) (X INCX : Int)
  | faxpy (SIDE : Char) (N : Int) (ALPHA : Scal F) (X INCX Y INCY : Int)
  | fdot (conj : Bool) (N X INCX Y INCY : Int)
  | fger (conj : Bool) (M N : Int) (ALPHA : Scal F) (X INCX Y INCY A LDA : Int)
  | fgemv (TRANS : Char) (M N : Int) (ALPHA : Scal F) (A LDA X INCX : Int) (BETA : Scal F) (Y INCY : Int)
  | fgemm (TRANSA TRANSB : Char) (M N K : Int) (ALPHA : Scal F) (A LDA B LDB : Int) (BETA : Scal F) (C LDC : Int)
  | expandZ (ORDER : Char) (M N A LDA B LDB : Int)
  | expandD (M N A LDA B LDB : Int)
  | contractZ (ORDER UPLO : Char) (M N A LDA B LDB : Int)
  | pcopy (N X INCX Y INCY : Int)
  | pswap (N X INCX Y INCY : Int)
  | pscal (SIDE : Char) (N : Int) (ALPHA : Scal F) (X INCX : Int)
  | paxpy (SIDE : Char) (N : Int) (ALPHA : Scal F) (X INCX Y INCY : Int)
  | pdot (conj : Bool) (N X INCX Y INCY : Int)
  | pger (conj : Bool) (M N : Int) (ALPHA : Scal F) (X INCX Y INCY A LDA : Int)
  | pgemv (k : Kind) (TRANS : Char) (M N : Int) (ALPHA : Scal F) (A LDA X INCX : Int) (BETA : Scal F) (Y INCY : Int)
  | pgemm (k : Kind) (TRANSA TRANSB : Char) (M N K : Int) (ALPHA : Scal F) (A LDA B LDB : Int) (BETA : Scal F) (C LDC : Int)
  | fscalm (SIDE : Char) (M N : Int) (ALPHA : Scal F) (A LDA INCA : Int)
  | faxpym (SIDE : Char) (M N : Int) (ALPHA : Scal F) (A LDA INCA B LDB INCB : Int)
  | pscalm (SIDE : Char) (M N : Int) (ALPHA : Scal F) (A LDA INCA : Int)
  | paxpym (SIDE : Char) (M N : Int) (ALPHA : Scal F) (A LDA INCA B LDB INCB : Int)
  | kaxpy (kX : Kind) (SIDE : Char) (N : Int) (ALPHA : Scal F) (X INCX Y INCY : Int)
  | kger (kX kY : Kind) (conj : Bool) (M N : Int) (ALPHA : Scal F) (X INCX Y INCY A LDA : Int)
  | kgemv (k kX : Kind) (TRANS : Char) (M N : Int) (ALPHA : Scal F) (A LDA X INCX : Int) (BETA : Scal F) (Y INCY : Int)
  | kgemm (k kB : Kind) (TRANSA TRANSB : Char) (M N K : Int) (ALPHA : Scal F) (A LDA B LDB : Int) (BETA : Scal F) (C LDC : Int)

namespace RefCall
variable {F : Type} [Arith F] [ArithEq F]

/-- The type of the value the call returns. -/
def Res : RefCall F → Type
  | fdot .. => Quat F
  | pdot .. => Quat F
  | _ => Unit

/-- The call in the sequential model. -/
def seq : (c : RefCall F) → Prog F c.Res
  | fscal SIDE N ALPHA X INCX => scalF SIDE N ALPHA X INCX
  | faxpy SIDE N ALPHA X INCX Y INCY => axpyF SIDE N ALPHA X INCX Y INCY
  | fdot conj N X INCX Y INCY => dotF conj N X INCX Y INCY
  | fger conj M N ALPHA X INCX Y INCY A LDA => gerF conj M N ALPHA X INCX Y INCY A LDA
  | fgemv t M N ALPHA A LDA X INCX BETA Y INCY => gemvF t M N ALPHA A LDA X INCX BETA Y INCY
  | fgemm tA tB M N K ALPHA A LDA B LDB BETA C LDC => hgemmF tA tB M N K ALPHA A LDA B LDB BETA C LDC
  | expandZ ORDER M N A LDA B LDB => HBLAS_COMPLEX_EXPAND ORDER M N A LDA B LDB
  | expandD M N A LDA B LDB => HBLAS_REAL_EXPAND M N A LDA B LDB
  | contractZ ORDER UPLO M N A LDA B LDB => HBLAS_COMPLEX_CONTRACT ORDER UPLO M N A LDA B LDB
  | pcopy N X INCX Y INCY => copyvGen N X INCX Y INCY
  | pswap N X INCX Y INCY => swapvGen N X INCX Y INCY
  | pscal SIDE N ALPHA X INCX => scalvGen SIDE N ALPHA X INCX
  | paxpy SIDE N ALPHA X INCX Y INCY => axpyvGen SIDE N ALPHA X INCX Y INCY
  | pdot conj N X INCX Y INCY => dotGen conj N X INCX Y INCY
  | pger conj M N ALPHA X INCX Y INCY A LDA => gerGen conj M N ALPHA X INCX Y INCY A LDA
  | pgemv k t M N ALPHA A LDA X INCX BETA Y INCY => gemvGen k t M N ALPHA A LDA X INCX BETA Y INCY
  | pgemm k tA tB M N K ALPHA A LDA B LDB BETA C LDC => gemmGen k tA tB M N K ALPHA A LDA B LDB BETA C LDC
  | fscalm SIDE M N ALPHA A LDA INCA => scalm scalF SIDE 'N' M N ALPHA A LDA INCA
  | faxpym SIDE M N ALPHA A LDA INCA B LDB INCB => axpym axpyF SIDE 'N' M N ALPHA A LDA INCA B LDB INCB
  | pscalm SIDE M N ALPHA A LDA INCA => scalm scalvGen SIDE 'N' M N ALPHA A LDA INCA
  | paxpym SIDE M N ALPHA A LDA INCA B LDB INCB => axpym axpyvGen SIDE 'N' M N ALPHA A LDA INCA B LDB INCB
  | kaxpy kX SIDE N ALPHA X INCX Y INCY => axpyvGenK kX SIDE N ALPHA X INCX Y INCY
  | kger kX kY conj M N ALPHA X INCX Y INCY A LDA => gerGenK kX kY conj M N ALPHA X INCX Y INCY A LDA
  | kgemv k kX t M N ALPHA A LDA X INCX BETA Y INCY => gemvGenK k kX t M N ALPHA A LDA X INCX BETA Y INCY
  | kgemm k kB tA tB M N K ALPHA A LDA B LDB BETA C LDC => gemmGenK k kB tA tB M N K ALPHA A LDA B LDB BETA C LDC

/-- The call as a sequence of single memory accesses. -/
def thread : (c : RefCall F) → Thr.Prog F c.Res
  | fscal SIDE N ALPHA X INCX => Thr.scalF SIDE N ALPHA X INCX
  | faxpy SIDE N ALPHA X INCX Y INCY => Thr.axpyF SIDE N ALPHA X INCX Y INCY
  | fdot conj N X INCX Y INCY => Thr.dotF conj N X INCX Y INCY
  | fger conj M N ALPHA X INCX Y INCY A LDA => Thr.gerF conj M N ALPHA X INCX Y INCY A LDA
  | fgemv t M N ALPHA A LDA X INCX BETA Y INCY => Thr.gemvF t M N ALPHA A LDA X INCX BETA Y INCY
  | fgemm tA tB M N K ALPHA A LDA B LDB BETA C LDC => Thr.hgemmF tA tB M N K ALPHA A LDA B LDB BETA C LDC
  | expandZ ORDER M N A LDA B LDB => Thr.HBLAS_COMPLEX_EXPAND ORDER M N A LDA B LDB
  | expandD M N A LDA B LDB => Thr.HBLAS_REAL_EXPAND M N A LDA B LDB
  | contractZ ORDER UPLO M N A LDA B LDB => Thr.HBLAS_COMPLEX_CONTRACT ORDER UPLO M N A LDA B LDB
  | pcopy N X INCX Y INCY => Thr.copyvGen N X INCX Y INCY
  | pswap N X INCX Y INCY => Thr.swapvGen N X INCX Y INCY
  | pscal SIDE N ALPHA X INCX => Thr.scalvGen SIDE N ALPHA X INCX
  | paxpy SIDE N ALPHA X INCX Y INCY => Thr.axpyvGen SIDE N ALPHA X INCX Y INCY
  | pdot conj N X INCX Y INCY => Thr.dotGen conj N X INCX Y INCY
  | pger conj M N ALPHA X INCX Y INCY A LDA => Thr.gerGen conj M N ALPHA X INCX Y INCY A LDA
  | pgemv k t M N ALPHA A LDA X INCX BETA Y INCY => Thr.gemvGen k t M N ALPHA A LDA X INCX BETA Y INCY
  | pgemm k tA tB M N K ALPHA A LDA B LDB BETA C LDC => Thr.gemmGen k tA tB M N K ALPHA A LDA B LDB BETA C LDC
  | fscalm SIDE M N ALPHA A LDA INCA => Thr.scalm Thr.scalF SIDE 'N' M N ALPHA A LDA INCA
  | faxpym SIDE M N ALPHA A LDA INCA B LDB INCB => Thr.axpym Thr.axpyF SIDE 'N' M N ALPHA A LDA INCA B LDB INCB
  | pscalm SIDE M N ALPHA A LDA INCA => Thr.scalm Thr.scalvGen SIDE 'N' M N ALPHA A LDA INCA
  | paxpym SIDE M N ALPHA A LDA INCA B LDB INCB => Thr.axpym Thr.axpyvGen SIDE 'N' M N ALPHA A LDA INCA B LDB INCB
  | kaxpy kX SIDE N ALPHA X INCX Y INCY => Thr.axpyvGenK kX SIDE N ALPHA X INCX Y INCY
  | kger kX kY conj M N ALPHA X INCX Y INCY A LDA => Thr.gerGenK kX kY conj M N ALPHA X INCX Y INCY A LDA
  | kgemv k kX t M N ALPHA A LDA X INCX BETA Y INCY => Thr.gemvGenK k kX t M N ALPHA A LDA X INCX BETA Y INCY
  | kgemm k kB tA tB M N K ALPHA A LDA B LDB BETA C LDC => Thr.gemmGenK k kB tA tB M N K ALPHA A LDA B LDB BETA C LDC

/-- The cells of the operands the call only reads.  (A vector of the Fortran build with a negative increment
starts at its far end: `vecStart`.) -/
def Inputs : RefCall F → Int → Prop
  | fscal .. => fun _ => False
  | faxpy _ N _ X INCX _ _ => VecCell (vecStart X N INCX) INCX N.toNat
  | fdot _ N X INCX Y INCY => fun a => VecCell (vecStart X N INCX) INCX N.toNat a ∨ VecCell (vecStart Y N INCY) INCY N.toNat a
  | fger _ M N _ X INCX Y INCY _ _ => fun a => VecCell (vecStart X M INCX) INCX M.toNat a ∨ VecCell (vecStart Y N INCY) INCY N.toNat a
  | fgemv t M N _ A LDA X INCX _ _ _ => fun a => MatCell A LDA M.toNat N.toNat a ∨
    VecCell (vecStart X (gemvLenX t M N) INCX) INCX (gemvLenX t M N).toNat a
  | fgemm tA tB M N K _ A LDA B LDB _ _ _ => fun a =>
    MatCell A LDA (if IsN tA then M.toNat else K.toNat) (if IsN tA then K.toNat else M.toNat) a ∨
    MatCell B LDB (if IsN tB then K.toNat else N.toNat) (if IsN tB then N.toNat else K.toNat) a
  | expandZ _ M N A LDA _ _ => MatCell A LDA M.toNat N.toNat
  | expandD M N A LDA _ _ => MatCell A LDA M.toNat N.toNat
  | contractZ _ _ M N _ _ B LDB => BlockCell 2 B LDB (2 * M.toNat) (2 * N.toNat)
  | pcopy N X INCX _ _ => VecCell X INCX N.toNat
  | pswap .. => fun _ => False
  | pscal .. => fun _ => False
  | paxpy _ N _ X INCX _ _ => VecCell X INCX N.toNat
  | pdot _ N X INCX Y INCY => fun a => VecCell X INCX N.toNat a ∨ VecCell Y INCY N.toNat a
  | pger _ M N _ X INCX Y INCY _ _ => fun a => VecCell X INCX M.toNat a ∨ VecCell Y INCY N.toNat a
  | pgemv k t M N _ A LDA X INCX _ _ _ => fun a => KMatCell k A LDA M.toNat N.toNat a ∨ VecCell X INCX (if t = 'N' then N else M).toNat a
  | pgemm k tA tB M N K _ A LDA B LDB _ _ _ => fun a =>
    KMatCell k A LDA (if tA = 'N' then M.toNat else K.toNat) (if tA = 'N' then K.toNat else M.toNat) a ∨
    MatCell B LDB (if tB = 'N' then K.toNat else N.toNat) (if tB = 'N' then N.toNat else K.toNat) a
  | fscalm .. => fun _ => False
  | faxpym _ M N _ A LDA INCA _ _ _ => SMatCell A INCA LDA M.toNat N.toNat
  | pscalm .. => fun _ => False
  | paxpym _ M N _ A LDA INCA _ _ _ => SMatCell A INCA LDA M.toNat N.toNat
  | kaxpy kX _ N _ X INCX _ _ => KVecCell kX X INCX N.toNat
  | kger kX kY _ M N _ X INCX Y INCY _ _ => fun a => KVecCell kX X INCX M.toNat a ∨ KVecCell kY Y INCY N.toNat a
  | kgemv k kX t M N _ A LDA X INCX _ _ _ => fun a => KMatCell k A LDA M.toNat N.toNat a ∨ KVecCell kX X INCX (if t = 'N' then N else M).toNat a
  | kgemm k kB tA tB M N K _ A LDA B LDB _ _ _ => fun a =>
    KMatCell k A LDA (if tA = 'N' then M.toNat else K.toNat) (if tA = 'N' then K.toNat else M.toNat) a ∨
    KMatCell kB B LDB (if tB = 'N' then K.toNat else N.toNat) (if tB = 'N' then N.toNat else K.toNat) a

/-- The cells of its outputs. -/
def Outputs : RefCall F → Int → Prop
  | fscal _ N _ X INCX => VecCell (vecStart X N INCX) INCX N.toNat
  | faxpy _ N _ _ _ Y INCY => VecCell (vecStart Y N INCY) INCY N.toNat
  | fdot .. => fun _ => False
  | fger _ M N _ _ _ _ _ A LDA => MatCell A LDA M.toNat N.toNat
  | fgemv t M N _ _ _ _ _ _ Y INCY => VecCell (vecStart Y (gemvLenY t M N) INCY) INCY (gemvLenY t M N).toNat
  | fgemm _ _ M N _ _ _ _ _ _ _ C LDC => MatCell C LDC M.toNat N.toNat
  | expandZ _ M N _ _ B LDB => BlockCell 2 B LDB (2 * M.toNat) (2 * N.toNat)
  | expandD M N _ _ B LDB => BlockCell 1 B LDB (4 * M.toNat) (4 * N.toNat)
  | contractZ _ _ M N A LDA _ _ => MatCell A LDA M.toNat N.toNat
  | pcopy N _ _ Y INCY => VecCell Y INCY N.toNat
  | pswap N X INCX Y INCY => fun a => VecCell X INCX N.toNat a ∨ VecCell Y INCY N.toNat a
  | pscal _ N _ X INCX => VecCell X INCX N.toNat
  | paxpy _ N _ _ _ Y INCY => VecCell Y INCY N.toNat
  | pdot .. => fun _ => False
  | pger _ M N _ _ _ _ _ A LDA => MatCell A LDA M.toNat N.toNat
  | pgemv _ t M N _ _ _ _ _ _ Y INCY => VecCell Y INCY (if t = 'N' then M else N).toNat
  | pgemm _ _ _ M N _ _ _ _ _ _ _ C LDC => MatCell C LDC M.toNat N.toNat
  | fscalm _ M N _ A LDA INCA => SMatCell A INCA LDA M.toNat N.toNat
  | faxpym _ M N _ _ _ _ B LDB INCB => SMatCell B INCB LDB M.toNat N.toNat
  | pscalm _ M N _ A LDA INCA => SMatCell A INCA LDA M.toNat N.toNat
  | paxpym _ M N _ _ _ _ B LDB INCB => SMatCell B INCB LDB M.toNat N.toNat
  | kaxpy _ _ N _ _ _ Y INCY => VecCell Y INCY N.toNat
  | kger _ _ _ M N _ _ _ _ _ A LDA => MatCell A LDA M.toNat N.toNat
  | kgemv _ _ t M N _ _ _ _ _ _ Y INCY => VecCell Y INCY (if t = 'N' then M else N).toNat
  | kgemm _ _ _ _ M N _ _ _ _ _ _ _ C LDC => MatCell C LDC M.toNat N.toNat

/-- What is asked of the arguments.  Fortran: a real ALPHA in GERU/GERC needs `INCX = 1`
(`C31_real_strided_violated`), and GEMV needs real scalars, a square A or TRANS = C (`C50_gemv_violated`).
Utilities: a known ORDER.  Templates: positive increments and index computations within 32 bits. -/
def Valid : RefCall F → Prop
  | fger _ _ _ ALPHA _ INCX _ _ _ _ => ALPHA.IsReal → INCX = 1
  | fgemv t M N ALPHA _ _ _ _ BETA _ _ => (ALPHA.IsReal ∧ BETA.IsReal) ∨ M = N ∨ IsC t
  | expandZ ORDER .. => ORDER = 'F' ∨ ORDER = 'S'
  | contractZ ORDER .. => ORDER = 'F' ∨ ORDER = 'S'
  | pcopy N _ INCX _ INCY => 0 < INCX ∧ 0 < INCY ∧ Fits32 (N * INCX) ∧ Fits32 (N * INCY)
  | pswap N _ INCX _ INCY => 0 < INCX ∧ 0 < INCY ∧ Fits32 (N * INCX) ∧ Fits32 (N * INCY)
  | pscal _ N _ _ INCX => Fits32 (N * INCX)
  | paxpy _ N _ _ INCX _ INCY => 0 < INCX ∧ 0 < INCY ∧ Fits32 (N * INCX) ∧ Fits32 (N * INCY)
  | pdot _ N _ INCX _ INCY => 0 < INCX ∧ 0 < INCY ∧ Fits32 (N * INCX) ∧ Fits32 (N * INCY)
  | pger _ M N _ _ INCX _ INCY _ LDA => 0 < INCX ∧ 0 < INCY ∧ (∀ i j : Nat, i < M.toNat → j < N.toNat → Fits32 (j * LDA) ∧ Fits32 (i + j * LDA)) ∧
    (∀ i : Nat, i ≤ M.toNat → Fits32 (i * INCX)) ∧ (∀ j : Nat, j ≤ N.toNat → Fits32 (j * INCY))
  | pgemv _ t M N _ _ LDA _ INCX _ _ INCY => 0 < INCX ∧ 0 < INCY ∧
    (∀ i j : Nat, i < M.toNat → j < N.toNat → Fits32 (j * LDA) ∧ Fits32 (i + j * LDA)) ∧
    (∀ i : Nat, i ≤ (if t = 'N' then N else M).toNat → Fits32 (i * INCX)) ∧
    (∀ i : Nat, i ≤ (if t = 'N' then M else N).toNat → Fits32 (i * INCY))
  | pgemm _ tA tB M N K _ _ LDA _ LDB _ _ LDC =>
    (∀ l : Nat, l < (if tA = 'N' then K.toNat else M.toNat) → Fits32 (l * LDA)) ∧
    (∀ l : Nat, l < (if tB = 'N' then N.toNat else K.toNat) → Fits32 (l * LDB)) ∧
    (∀ l : Nat, l < N.toNat → Fits32 (l * LDC))
  | fscalm _ _ _ _ _ _ INCA => 0 < INCA
  | faxpym _ _ _ _ _ _ INCA _ _ INCB => 0 < INCA ∧ 0 < INCB
  | pscalm _ M _ _ _ _ INCA => Fits32 (M * INCA)
  | paxpym _ M _ _ _ _ INCA _ _ INCB => 0 < INCA ∧ 0 < INCB ∧ Fits32 (M * INCA) ∧ Fits32 (M * INCB)
  | kaxpy _ _ N _ _ INCX _ INCY => 0 < INCX ∧ 0 < INCY ∧ Fits32 (N * INCX) ∧ Fits32 (N * INCY)
  | kger _ _ _ M N _ _ INCX _ INCY _ LDA => 0 < INCX ∧ 0 < INCY ∧ (∀ i j : Nat, i < M.toNat → j < N.toNat → Fits32 (j * LDA) ∧ Fits32 (i + j * LDA)) ∧
    (∀ i : Nat, i ≤ M.toNat → Fits32 (i * INCX)) ∧ (∀ j : Nat, j ≤ N.toNat → Fits32 (j * INCY))
  | kgemv _ _ t M N _ _ LDA _ INCX _ _ INCY => 0 < INCX ∧ 0 < INCY ∧
    (∀ i j : Nat, i < M.toNat → j < N.toNat → Fits32 (j * LDA) ∧ Fits32 (i + j * LDA)) ∧
    (∀ i : Nat, i ≤ (if t = 'N' then N else M).toNat → Fits32 (i * INCX)) ∧
    (∀ i : Nat, i ≤ (if t = 'N' then M else N).toNat → Fits32 (i * INCY))
  | kgemm _ _ tA tB M N K _ _ LDA _ LDB _ _ LDC =>
    (∀ l : Nat, l < (if tA = 'N' then K.toNat else M.toNat) → Fits32 (l * LDA)) ∧
    (∀ l : Nat, l < (if tB = 'N' then N.toNat else K.toNat) → Fits32 (l * LDB)) ∧
    (∀ l : Nat, l < N.toNat → Fits32 (l * LDC))
  | _ => True

/-- The storage of the call. -/
def Uses (c : RefCall F) (a : Int) : Prop := c.Inputs a ∨ c.Outputs a

theorem thread_run (c : RefCall F) : c.thread.run = c.seq := by
  cases c with
  | fscal => exact Thr.run_scalF ..
  | faxpy => exact Thr.run_axpyF ..
  | fdot => exact Thr.run_dotF ..
  | fger => exact Thr.run_gerF ..
  | fgemv => exact Thr.run_gemvF ..
  | fgemm => exact Thr.run_hgemmF ..
  | expandZ => exact Thr.run_HBLAS_COMPLEX_EXPAND ..
  | expandD => exact Thr.run_HBLAS_REAL_EXPAND ..
  | contractZ => exact Thr.run_HBLAS_COMPLEX_CONTRACT ..
  | pcopy => exact Thr.run_copyvGen ..
  | pswap => exact Thr.run_swapvGen ..
  | pscal => exact Thr.run_scalvGen ..
  | paxpy => exact Thr.run_axpyvGen ..
  | pdot => exact Thr.run_dotGen ..
  | pger => exact Thr.run_gerGen ..
  | pgemv => exact Thr.run_gemvGen ..
  | pgemm => exact Thr.run_gemmGen ..
  | fscalm => exact (Thr.run_scalm ..).trans (by simp only [Thr.run_scalF, seq])
  | faxpym => exact (Thr.run_axpym ..).trans (by simp only [Thr.run_axpyF, seq])
  | pscalm => exact (Thr.run_scalm ..).trans (by simp only [Thr.run_scalvGen, seq])
  | paxpym => exact (Thr.run_axpym ..).trans (by simp only [Thr.run_axpyvGen, seq])
  | kaxpy => exact Thr.run_axpyvGenK ..
  | kger => exact Thr.run_gerGenK ..
  | kgemv => exact Thr.run_gemvGenK ..
  | kgemm => exact Thr.run_gemmGenK ..

omit [Arith F] [ArithEq F] in
theorem vec_of {X INC n : Int} {a : Int} (h : Thr.Vec X INC n.toNat a) : VecCell (vecStart X n INC) INC n.toNat a := by
  obtain ⟨i, hi, ha⟩ := h
  have e : ((n.toNat : Nat):Int) = n := by omega
  rw [e] at ha
  exact ⟨i, hi, ha⟩

theorem env1 {P : Int → Prop} {X INC n : Int} {u : Prop} (h : ∀ a, VecCell (vecStart X n INC) INC n.toNat a → P a) (hu : u → INC = 1) :
    Thr.VEnv P X (if decide (INC < 0) = true then ((-n) + 1) * INC + 1 else 1) INC n.toNat u :=
  .of1 (fun a ha => h a (vec_of ha)) hu

theorem env2 {P : Int → Prop} {X INC n : Int} {u : Prop} (h : ∀ a, VecCell (vecStart X n INC) INC n.toNat a → P a) (hu : u → INC = 1) :
    Thr.VEnv P X (if decide (INC > 0) = true then 1 else 1 - (n - 1) * INC) INC n.toNat u :=
  .of2 (fun a ha => h a (vec_of ha)) hu

theorem gemvEnv {S W : Int → Prop} {isN : Prop} {M N A LDA X INCX Y INCY LX LY LX' LY' : Int}
    (hX : isN → LX = N) (hX' : ¬ isN → LX = M) (hY : isN → LY = M) (hY' : ¬ isN → LY = N) (e1 : LX' = LX) (e2 : LY' = LY)
    (a : ∀ a, MatCell A LDA M.toNat N.toNat a → S a) (x : ∀ a, VecCell (vecStart X LX INCX) INCX LX.toNat a → S a)
    (y : ∀ a, VecCell (vecStart Y LY INCY) INCY LY.toNat a → S a) (w : ∀ a, VecCell (vecStart Y LY INCY) INCY LY.toNat a → W a) :
    Thr.GemvEnv S W isN M N A LDA X INCX Y INCY LX' LY' := by
  subst e1; subst e2
  have ux : (decide (INCX = 1) = true) → INCX = 1 := by simp
  have uy : (decide (INCY = 1) = true) → INCY = 1 := by simp
  exact {
    a := fun i j hi hj => .mat a hi hj
    xN := fun h => by rw [← hX h]; exact env2 x ux
    xT := fun h => by rw [← hX' h]; exact env2 x ux
    y := env2 y uy
    w := env2 w uy
    yN := fun h => by rw [← hY h]; exact env2 y uy
    yT := fun h => by rw [← hY' h]; exact env2 y uy
    wN := fun h => by rw [← hY h]; exact env2 w uy
    wT := fun h => by rw [← hY' h]; exact env2 w uy }


omit [Arith F] [ArithEq F] in
theorem lsame_isN (t : Char) : lsame t 'N' = true ↔ IsN t := by
  rw [lsame_N]
  unfold FTrans.ofChar IsN
  split
  · simp [*]
  · split <;> simp_all

omit [Arith F] [ArithEq F] in
theorem lsame_isC {t : Char} (h : IsC t) : lsame 'T' t = false ∧ ¬ IsN t := by
  rcases h with rfl | rfl <;> decide

omit [Arith F] [ArithEq F] in
theorem blk2 {P : Int → Prop} {B LDB : Int} {r c : Nat} (h : ∀ a, BlockCell 2 B LDB r c a → P a) {p q : Int} (hp : 1 ≤ p) (hp' : p ≤ r)
    (hq : 1 ≤ q) (hq' : q ≤ c) : Thr.Two P (el2 2 LDB B p q) := by
  have e : el2 2 LDB B p q = B + 2 * (((p - 1).toNat : Int) + LDB * ((q - 1).toNat : Int)) := by
    rw [Int.toNat_of_nonneg (by omega), Int.toNat_of_nonneg (by omega)]; rfl
  refine ⟨h _ ⟨(p-1).toNat, (q-1).toNat, by omega, by omega, ?_⟩, h _ ⟨(p-1).toNat, (q-1).toNat, by omega, by omega, ?_⟩⟩ <;> rw [e] <;> omega

omit [Arith F] [ArithEq F] in
theorem blk1 {P : Int → Prop} {B LDB : Int} {r c : Nat} (h : ∀ a, BlockCell 1 B LDB r c a → P a) {p q : Int} (hp : 1 ≤ p) (hp' : p ≤ r)
    (hq : 1 ≤ q) (hq' : q ≤ c) : P (el2 1 LDB B p q) := by
  have e : el2 1 LDB B p q = B + 1 * (((p - 1).toNat : Int) + LDB * ((q - 1).toNat : Int)) := by
    rw [Int.toNat_of_nonneg (by omega), Int.toNat_of_nonneg (by omega)]; rfl
  refine h _ ⟨(p-1).toNat, (q-1).toNat, by omega, by omega, ?_⟩
  rw [e]; omega

omit [Arith F] [ArithEq F] in
theorem zok {P : Int → Prop} {B LDB M N : Int} (h : ∀ a, BlockCell 2 B LDB (2 * M.toNat) (2 * N.toNat) a → P a) (p q : Int) (i j : Nat)
    (hp : p = 1 + (i:Int) * 2) (hq : q = 1 + (j:Int) * 2) (hi : i < M.toNat) (hj : j < N.toNat) : Thr.ZOk P LDB B p q := by
  constructor <;> (refine blk2 h ?_ ?_ ?_ ?_ <;> (try push_cast) <;> omega)

omit [Arith F] [ArithEq F] in
theorem zok2 {P : Int → Prop} {B LDB M N : Int} (h : ∀ a, BlockCell 2 B LDB (2 * M.toNat) (2 * N.toNat) a → P a) (i j : Nat)
    (hi : i < M.toNat) (hj : j < N.toNat) : Thr.ZOk2 P LDB B M N ((i:Int) + 1) ((j:Int) + 1) := by
  constructor <;> (refine blk2 h ?_ ?_ ?_ ?_ <;> (try push_cast) <;> omega)

omit [Arith F] [ArithEq F] in
theorem dok {P : Int → Prop} {B LDB M N : Int} (h : ∀ a, BlockCell 1 B LDB (4 * M.toNat) (4 * N.toNat) a → P a) (p q : Int) (i j : Nat)
    (hp : p = 1 + (i:Int) * 4) (hq : q = 1 + (j:Int) * 4) (hi : i < M.toNat) (hj : j < N.toNat) : Thr.DOk P LDB B p q := by
  constructor <;> (refine blk1 h ?_ ?_ ?_ ?_ <;> (try push_cast) <;> omega)

/-- Each call touches only its operands and writes only its outputs, whatever it finds in memory. -/
theorem safe (c : RefCall F) (h : c.Valid) : Thr.Safe c.Uses c.Outputs c.thread (fun _ => True) := by
  have u1 : ∀ {I : Int}, (decide (I = 1) = true) → I = 1 := by simp
  have ux : ∀ {I J : Int}, ((decide (I = 1) && decide (J = 1)) = true) → I = 1 := by simp
  have uy : ∀ {I J : Int}, ((decide (I = 1) && decide (J = 1)) = true) → J = 1 := by simp
  cases c with
  | fscal SIDE N ALPHA X INCX =>
    cases ALPHA
    · exact Thr.hscald_safe SIDE _ _ _ _ (env1 (fun _ => Or.inr) u1) (env1 (fun _ h => h) u1)
    · exact Thr.hscalc_safe _ _ _ _ _ (env1 (fun _ => Or.inr) u1) (env1 (fun _ h => h) u1)
    · exact Thr.hscalh_safe _ _ _ _ _ (env1 (fun _ => Or.inr) u1) (env1 (fun _ h => h) u1)
  | faxpy SIDE N ALPHA X INCX Y INCY =>
    cases ALPHA
    · exact Thr.haxpydh_safe SIDE _ _ _ _ _ _ (env1 (fun _ => Or.inl) ux) (env1 (fun _ => Or.inr) uy) (env1 (fun _ h => h) uy)
    · exact Thr.haxpych_safe _ _ _ _ _ _ _ (env1 (fun _ => Or.inl) ux) (env1 (fun _ => Or.inr) uy) (env1 (fun _ h => h) uy)
    · exact Thr.haxpyhh_safe _ _ _ _ _ _ _ (env1 (fun _ => Or.inl) ux) (env1 (fun _ => Or.inr) uy) (env1 (fun _ h => h) uy)
  | fdot conj N X INCX Y INCY =>
    cases conj
    · exact Thr.hdotu_safe _ _ _ _ _ (env1 (fun _ h => Or.inl (Or.inl h)) ux) (env1 (fun _ h => Or.inl (Or.inr h)) uy)
    · exact Thr.hdotc_safe _ _ _ _ _ (env1 (fun _ h => Or.inl (Or.inl h)) ux) (env1 (fun _ h => Or.inl (Or.inr h)) uy)
  | fger conj M N ALPHA X INCX Y INCY A LDA =>
    have hx : ∀ u : Prop, (u → INCX = 1) → _ := fun u hu =>
      env2 (P := (fger conj M N ALPHA X INCX Y INCY A LDA).Uses) (X := X) (INC := INCX) (n := M) (u := u) (fun _ h => Or.inl (Or.inl h)) hu
    have hy := env2 (P := (fger conj M N ALPHA X INCX Y INCY A LDA).Uses) (X := Y) (INC := INCY) (n := N) (u := False) (fun _ h => Or.inl (Or.inr h)) False.elim
    have ha := fun (i j : Nat) (hi : i < M.toNat) (hj : j < N.toNat) =>
      Thr.MOk.mat (P := (fger conj M N ALPHA X INCX Y INCY A LDA).Uses) (LDA := LDA) (A := A) (fun _ h => Or.inr h) hi hj
    have hw := fun (i j : Nat) (hi : i < M.toNat) (hj : j < N.toNat) =>
      Thr.MOk.mat (P := (fger conj M N ALPHA X INCX Y INCY A LDA).Outputs) (LDA := LDA) (A := A) (fun _ h => h) hi hj
    cases ALPHA with
    | d a =>
      have h1 : decide (INCX = 1) = true := decide_eq_true (h ⟨a, rfl⟩)
      cases conj
      · exact Thr.hgerud_safe _ _ _ _ _ _ _ _ _ h1 (hx _ u1) hy ha hw
      · exact Thr.hgercd_safe _ _ _ _ _ _ _ _ _ h1 (hx _ u1) hy ha hw
    | z a =>
      cases conj
      · exact Thr.hgeruz_safe _ _ _ _ _ _ _ _ _ (hx _ u1) hy ha hw
      · exact Thr.hgercz_safe _ _ _ _ _ _ _ _ _ (hx _ u1) hy ha hw
    | h a =>
      cases conj
      · exact Thr.hgeruh_safe _ _ _ _ _ _ _ _ _ (hx _ u1) hy ha hw
      · exact Thr.hgerch_safe _ _ _ _ _ _ _ _ _ (hx _ u1) hy ha hw
  | fgemv t M N ALPHA A LDA X INCX BETA Y INCY =>
    have nN := lsame_isN t
    have hX : lsame t 'N' = true → gemvLenX t M N = N := fun e => by rw [nN] at e; unfold gemvLenX; rw [if_pos e]
    have hX' : ¬ lsame t 'N' = true → gemvLenX t M N = M := fun e => by rw [nN] at e; unfold gemvLenX; rw [if_neg e]
    have hY : lsame t 'N' = true → gemvLenY t M N = M := fun e => by rw [nN] at e; unfold gemvLenY; rw [if_pos e]
    have hY' : ¬ lsame t 'N' = true → gemvLenY t M N = N := fun e => by rw [nN] at e; unfold gemvLenY; rw [if_neg e]
    have env : ∀ LX LY : Int, LX = gemvLenX t M N → LY = gemvLenY t M N → Thr.GemvEnv (fgemv t M N ALPHA A LDA X INCX BETA Y INCY).Uses
        (fgemv t M N ALPHA A LDA X INCX BETA Y INCY).Outputs (lsame t 'N' = true) M N A LDA X INCX Y INCY LX LY := fun LX LY e1 e2 =>
      gemvEnv hX hX' hY hY' e1 e2 (fun _ h => Or.inl (Or.inl h)) (fun _ h => Or.inl (Or.inr h)) (fun _ h => Or.inr h) (fun _ h => h)
    have dt : lsame 'N' t = true → Thr.GemvEnv (fgemv t M N ALPHA A LDA X INCX BETA Y INCY).Uses
        (fgemv t M N ALPHA A LDA X INCX BETA Y INCY).Outputs (lsame t 'N' = true) M N A LDA X INCX Y INCY N M := fun e =>
      env _ _ (hX (by rw [lsame_symm]; exact e)).symm (hY (by rw [lsame_symm]; exact e)).symm
    have df : ¬ lsame 'N' t = true → Thr.GemvEnv (fgemv t M N ALPHA A LDA X INCX BETA Y INCY).Uses
        (fgemv t M N ALPHA A LDA X INCX BETA Y INCY).Outputs (lsame t 'N' = true) M N A LDA X INCX Y INCY M N := fun e =>
      env _ _ (hX' (by rw [lsame_symm]; exact e)).symm (hY' (by rw [lsame_symm]; exact e)).symm
    have both : M = N ∨ IsC t → (lsame 'T' t = true → Thr.GemvEnv (fgemv t M N ALPHA A LDA X INCX BETA Y INCY).Uses
        (fgemv t M N ALPHA A LDA X INCX BETA Y INCY).Outputs (lsame t 'N' = true) M N A LDA X INCX Y INCY N M) ∧
        (¬ lsame 'T' t = true → Thr.GemvEnv (fgemv t M N ALPHA A LDA X INCX BETA Y INCY).Uses
        (fgemv t M N ALPHA A LDA X INCX BETA Y INCY).Outputs (lsame t 'N' = true) M N A LDA X INCX Y INCY M N) := by
      rintro (e | e)
      · have l1 : gemvLenX t M N = M := by unfold gemvLenX; split <;> simp [e]
        have l2 : gemvLenY t M N = M := by unfold gemvLenY; split <;> simp [e]
        exact ⟨fun _ => env _ _ (by rw [l1, e]) l2.symm, fun _ => env _ _ l1.symm (by rw [l2, e])⟩
      · obtain ⟨e1, e2⟩ := lsame_isC e
        rw [← nN] at e2
        exact ⟨fun h => absurd h (by rw [e1]; simp), fun _ => env _ _ (hX' e2).symm (hY' e2).symm⟩
    have nr : ∀ {s : Scal F}, s.IsReal → ∃ r, s = .d r := fun h => h
    cases ALPHA <;> cases BETA
    · exact Thr.hgemvdd_safe _ _ _ _ _ _ _ _ _ _ _ dt df
    all_goals
      have hv : M = N ∨ IsC t := by
        rcases h with ⟨h1, h2⟩ | h
        · obtain ⟨_, h1⟩ := nr h1
          obtain ⟨_, h2⟩ := nr h2
          cases h1 <;> cases h2
        · exact h
    · exact Thr.hgemvdz_safe _ _ _ _ _ _ _ _ _ _ _ (both hv).1 (both hv).2
    · exact Thr.hgemvdh_safe _ _ _ _ _ _ _ _ _ _ _ (both hv).1 (both hv).2
    · exact Thr.hgemvzd_safe _ _ _ _ _ _ _ _ _ _ _ (both hv).1 (both hv).2
    · exact Thr.hgemvzz_safe _ _ _ _ _ _ _ _ _ _ _ (both hv).1 (both hv).2
    · exact Thr.hgemvzh_safe _ _ _ _ _ _ _ _ _ _ _ (both hv).1 (both hv).2
    · exact Thr.hgemvhd_safe _ _ _ _ _ _ _ _ _ _ _ (both hv).1 (both hv).2
    · exact Thr.hgemvhz_safe _ _ _ _ _ _ _ _ _ _ _ (both hv).1 (both hv).2
    · exact Thr.hgemvhh_safe _ _ _ _ _ _ _ _ _ _ _ (both hv).1 (both hv).2
  | fgemm tA tB M N K ALPHA A LDA B LDB BETA C LDC =>
    have env : Thr.FGemmEnv (fgemm tA tB M N K ALPHA A LDA B LDB BETA C LDC).Uses (fgemm tA tB M N K ALPHA A LDA B LDB BETA C LDC).Outputs
        (lsame tA 'N') (lsame tB 'N') M N K A LDA B LDB C LDC := by
      refine Thr.FGemmEnv.of ?_ ?_ (fun _ h => Or.inr h) (fun _ h => h)
      · intro a ha
        simp only [lsame_isN] at ha
        exact Or.inl (Or.inl ha)
      · intro a ha
        simp only [lsame_isN] at ha
        exact Or.inl (Or.inr ha)
    cases ALPHA <;> cases BETA
    · exact Thr.hgemmdd_safe _ _ _ _ _ _ _ _ _ _ _ _ _ env
    · exact Thr.hgemmdz_safe _ _ _ _ _ _ _ _ _ _ _ _ _ env
    · exact Thr.hgemmdh_safe _ _ _ _ _ _ _ _ _ _ _ _ _ env
    · exact Thr.hgemmzd_safe _ _ _ _ _ _ _ _ _ _ _ _ _ env
    · exact Thr.hgemmzz_safe _ _ _ _ _ _ _ _ _ _ _ _ _ env
    · exact Thr.hgemmzh_safe _ _ _ _ _ _ _ _ _ _ _ _ _ env
    · exact Thr.hgemmhd_safe _ _ _ _ _ _ _ _ _ _ _ _ _ env
    · exact Thr.hgemmhz_safe _ _ _ _ _ _ _ _ _ _ _ _ _ env
    · exact Thr.hgemmhh_safe _ _ _ _ _ _ _ _ _ _ _ _ _ env
  | expandZ ORDER M N A LDA B LDB =>
    refine Thr.safe_assert (by rcases h with rfl | rfl <;> rfl) (Thr.safe_ite (fun _ => ?_) fun _ => ?_)
    · exact Thr.hzexp1_safe _ _ _ _ _ _ (fun i j hi hj => .mat (fun _ h => Or.inl h) hi hj) (zok fun _ h => Or.inr h) (zok fun _ h => h)
    · exact Thr.hzexp2_safe _ _ _ _ _ _ (fun i j hi hj => .mat (fun _ h => Or.inl h) hi hj) (zok2 fun _ h => Or.inr h) (zok2 fun _ h => h)
  | expandD M N A LDA B LDB =>
    exact Thr.hdexp_safe _ _ _ _ _ _ (fun i j hi hj => .mat (fun _ h => Or.inl h) hi hj) (dok fun _ h => Or.inr h) (dok fun _ h => h)
  | contractZ ORDER UPLO M N A LDA B LDB =>
    refine Thr.safe_assert (by rcases h with rfl | rfl <;> rfl) (Thr.safe_ite (fun _ => ?_) fun _ => ?_)
    · exact Thr.hzcon1_safe _ _ _ _ _ _ _ (fun i j hi hj => .mat (fun _ h => Or.inr h) hi hj) (fun i j hi hj => .mat (fun _ h => h) hi hj) (zok fun _ h => Or.inl h)
    · exact Thr.hzcon2_safe _ _ _ _ _ _ _ (fun i j hi hj => .mat (fun _ h => Or.inr h) hi hj) (fun i j hi hj => .mat (fun _ h => h) hi hj) (zok2 fun _ h => Or.inl h)
  | pcopy =>
    exact Thr.copyvGen_safe h.1 h.2.1 h.2.2.1 h.2.2.2 (fun _ => Or.inl) (fun _ => Or.inr) (fun _ h => h)
  | pswap =>
    exact Thr.swapvGen_safe h.1 h.2.1 h.2.2.1 h.2.2.2 (fun _ h => Or.inr (Or.inl h)) (fun _ h => Or.inr (Or.inr h)) (fun _ => Or.inl) (fun _ => Or.inr)
  | pscal => exact Thr.scalvGen_safe h (fun _ => Or.inr) (fun _ h => h)
  | paxpy =>
    exact Thr.axpyvGen_safe h.1 h.2.1 h.2.2.1 h.2.2.2 (fun _ => Or.inl) (fun _ => Or.inr) (fun _ h => h)
  | pdot =>
    exact Thr.dotGen_safe h.1 h.2.1 h.2.2.1 h.2.2.2 (fun _ h => Or.inl (Or.inl h)) (fun _ h => Or.inl (Or.inr h))
  | pger =>
    exact Thr.gerGen_safe ⟨h.1, h.2.1, fun _ h => Or.inl (Or.inl h), fun _ h => Or.inl (Or.inr h), fun _ h => Or.inr h, fun _ h => h, h.2.2.1, h.2.2.2.1, h.2.2.2.2⟩
  | pgemv =>
    exact Thr.gemvGen_safe ⟨h.1, h.2.1, fun _ h => Or.inl (Or.inl h), fun _ h => Or.inl (Or.inr h), fun _ h => Or.inr h, fun _ h => h, h.2.2.1, h.2.2.2.1, h.2.2.2.2⟩
  | pgemm k tA tB M N K ALPHA A LDA B LDB BETA C LDC =>
    obtain ⟨h1, h2, h3⟩ := h
    refine Thr.gemmGen_safe (.of ?_ ?_ (fun _ h => Or.inr h) (fun _ h => h) ?_ ?_ h3)
    · intro a ha
      simp only [beq_iff_eq] at ha
      exact Or.inl (Or.inl ha)
    · intro a ha
      simp only [beq_iff_eq] at ha
      exact Or.inl (Or.inr ha)
    · intro l hl
      simp only [beq_iff_eq] at hl
      exact h1 l hl
    · intro l hl
      simp only [beq_iff_eq] at hl
      exact h2 l hl
  | fscalm SIDE M N ALPHA A LDA INCA =>
    have h : 0 < INCA := h
    refine Thr.scalm_safe (fun X hX => ?_) (fun a ha => ⟨Or.inr ha, ha⟩)
    have e : vecStart X M INCA = X := if_neg (by omega)
    have k1 := fun (P : Int → Prop) (hp : ∀ a, VecCell X INCA M.toNat a → P a) =>
      env1 (P := P) (X := X) (INC := INCA) (n := M) (u := decide (INCA = 1) = true) (by rwa [e]) u1
    cases ALPHA
    · exact Thr.hscald_safe SIDE _ _ _ _ (k1 _ fun a ha => (hX a ha).1) (k1 _ fun a ha => (hX a ha).2)
    · exact Thr.hscalc_safe _ _ _ _ _ (k1 _ fun a ha => (hX a ha).1) (k1 _ fun a ha => (hX a ha).2)
    · exact Thr.hscalh_safe _ _ _ _ _ (k1 _ fun a ha => (hX a ha).1) (k1 _ fun a ha => (hX a ha).2)
  | faxpym SIDE M N ALPHA A LDA INCA B LDB INCB =>
    obtain ⟨h1, h2⟩ : 0 < INCA ∧ 0 < INCB := h
    refine Thr.axpym_safe (fun X Y hX hY => ?_) (fun a ha => Or.inl ha) (fun a ha => ⟨Or.inr ha, ha⟩)
    have eX : vecStart X M INCA = X := if_neg (by omega)
    have eY : vecStart Y M INCB = Y := if_neg (by omega)
    have kX := fun (P : Int → Prop) (hp : ∀ a, VecCell X INCA M.toNat a → P a) =>
      env1 (P := P) (X := X) (INC := INCA) (n := M) (u := (decide (INCA = 1) && decide (INCB = 1)) = true) (by rwa [eX]) ux
    have kY := fun (P : Int → Prop) (hp : ∀ a, VecCell Y INCB M.toNat a → P a) =>
      env1 (P := P) (X := Y) (INC := INCB) (n := M) (u := (decide (INCA = 1) && decide (INCB = 1)) = true) (by rwa [eY]) uy
    cases ALPHA
    · exact Thr.haxpydh_safe SIDE _ _ _ _ _ _ (kX _ hX) (kY _ fun a ha => (hY a ha).1) (kY _ fun a ha => (hY a ha).2)
    · exact Thr.haxpych_safe _ _ _ _ _ _ _ (kX _ hX) (kY _ fun a ha => (hY a ha).1) (kY _ fun a ha => (hY a ha).2)
    · exact Thr.haxpyhh_safe _ _ _ _ _ _ _ (kX _ hX) (kY _ fun a ha => (hY a ha).1) (kY _ fun a ha => (hY a ha).2)
  | pscalm =>
    exact Thr.scalm_safe (fun X hX => Thr.scalvGen_safe h (fun a ha => (hX a ha).1) (fun a ha => (hX a ha).2))
      (fun a ha => ⟨Or.inr ha, ha⟩)
  | paxpym =>
    obtain ⟨h1, h2, h3, h4⟩ := h
    exact Thr.axpym_safe (fun X Y hX hY => Thr.axpyvGen_safe h1 h2 h3 h4 hX (fun a ha => (hY a ha).1) (fun a ha => (hY a ha).2))
      (fun a ha => Or.inl ha) (fun a ha => ⟨Or.inr ha, ha⟩)
  | kaxpy =>
    exact Thr.axpyvGenK_safe h.1 h.2.1 h.2.2.1 h.2.2.2 (fun _ => Or.inl) (fun _ => Or.inr) (fun _ h => h)
  | kger =>
    exact Thr.gerGenK_safe ⟨h.1, h.2.1, fun _ h => Or.inl (Or.inl h), fun _ h => Or.inl (Or.inr h), fun _ h => Or.inr h, fun _ h => h, h.2.2.1, h.2.2.2.1, h.2.2.2.2⟩
  | kgemv =>
    exact Thr.gemvGenK_safe ⟨h.1, h.2.1, fun _ h => Or.inl (Or.inl h), fun _ h => Or.inl (Or.inr h), fun _ h => Or.inr h, fun _ h => h, h.2.2.1, h.2.2.2.1, h.2.2.2.2⟩
  | kgemm k kB tA tB M N K ALPHA A LDA B LDB BETA C LDC =>
    obtain ⟨h1, h2, h3⟩ := h
    refine Thr.gemmGenK_safe (.of ?_ ?_ (fun _ h => Or.inr h) (fun _ h => h) ?_ ?_ h3)
    · intro a ha
      simp only [beq_iff_eq] at ha
      exact Or.inl (Or.inl ha)
    · intro a ha
      simp only [beq_iff_eq] at ha
      exact Or.inl (Or.inr ha)
    · intro l hl
      simp only [beq_iff_eq] at hl
      exact h1 l hl
    · intro l hl
      simp only [beq_iff_eq] at hl
      exact h2 l hl

end RefCall

section C50
variable {F : Type} [Arith F] [ArithEq F]

/-- C50 (partial: `Valid` leaves out the Fortran calls that do overrun their operands, `C50_gemv_violated` and
`C31_real_strided_violated`).  Whatever the numbers — over any arithmetic whatsoever, so with NaNs and infinities —
and however the operands overlap, a call of the Fortran or of the template build whose operands are accessible
runs to its end without fault, changes nothing but its outputs, and does the same, with the same returned value,
whatever the rest of the memory holds. -/
theorem C50_reference_partial (c : RefCall F) (h : c.Valid) (m : Mem F) (hm : Accessible c.Uses m) :
    ∃ r mf, c.seq m = .ok (r, mf) ∧ SameOutside c.Outputs m mf ∧
      ∀ m2, (∀ a, c.Uses a → m2 a = m a) → ∃ mf2, c.seq m2 = .ok (r, mf2) ∧ SameOutside c.Outputs m2 mf2 ∧ ∀ a, c.Uses a → mf2 a = mf a := by
  obtain ⟨r, mf, hf, _⟩ := (c.safe h).foot hm
  refine ⟨r, mf, by rw [← c.thread_run]; exact hf.run, fun a ha => Thr.run_frame hf.run fun hw => ha (hf.wrs a hw), ?_⟩
  intro m2 hag
  obtain ⟨r2, mg, mf2, h1, h2, h3⟩ := (c.safe h).agree hm hag
  cases hf.run.symm.trans h1
  obtain ⟨r3, mf3, hf3, _⟩ := (c.safe h).foot (m := m2) (fun a ha => by rw [hag a ha]; exact hm a ha)
  cases hf3.run.symm.trans h2
  exact ⟨mf2, by rw [← c.thread_run]; exact h2, fun a ha => Thr.run_frame hf3.run fun hw => ha (hf3.wrs a hw), h3⟩

/-- C50, vectorised build: the same.  `Ok`: no 32-bit overflow, accessible operands, and, for GEMM, usable block sizes
and work arrays that are fresh, aligned memory.  Only the results differ from the memory before — the work arrays are
gone again — and what the rest of the memory holds does not matter. -/
theorem C50_simd (c : Call F) (m : Mem F) (h : c.Ok m) :
    ∃ r mf, c.seq m = .ok (r, mf) ∧ SameOutside c.Results m mf ∧
      ∀ m2, (∀ a, c.Inputs a ∨ c.Outputs a → m2 a = m a) → ∃ mf2, c.seq m2 = .ok (r, mf2) ∧ SameOutside c.Results m2 mf2 ∧
        ∀ a, c.Inputs a ∨ c.Outputs a → mf2 a = mf a := by
  obtain ⟨r, mf, _, e, _, hs, _⟩ := c.runs h (m2 := m) fun _ _ => rfl
  refine ⟨r, mf, e, hs, fun m2 hag => ?_⟩
  obtain ⟨r', mf', mf2, e1, e2, _, s2, ha⟩ := c.runs h hag
  cases e.symm.trans e1
  exact ⟨mf2, e2, s2, ha⟩

/-- Non-vacuity: a 2 × 3 GEMM on the vectorised build whose A, B and C all overlap. -/
example (f junk : Int → F) (al be : Scal F) :
    (Call.gemm ⟨64, 512, 64⟩ 1000 200000 junk 'N' 'T' 2 3 2 al 0 2 4 3 be 8 2).Ok (memOf 0 100 f) where
  valid := by
    constructor <;> first | decide | (unfold Fits32; decide)
  acc := by
    rintro a ((⟨i, j, h1, h2, h3, h4⟩ | ⟨i, j, h1, h2, h3, h4⟩) | ⟨i, j, h1, h2, h3, h4⟩)
    all_goals
      have h1' : i < 3 := lt_of_lt_of_le h1 (by decide)
      have h2' : j < 3 := lt_of_lt_of_le h2 (by decide)
      unfold memOf
      rw [if_pos (by omega)]
      rfl
  fresh := by
    rintro a (⟨h, _⟩ | ⟨h, _⟩) <;> exact if_neg (by omega)

/-- Non-vacuity: a 2 × 3 GEMM whose A, B and C all overlap. -/
example (f : Int → F) (al be : Scal F) : ∃ r mf, (RefCall.fgemm 'N' 't' 2 3 2 al 0 2 4 3 be 8 2).seq (memOf 0 100 f) = .ok (r, mf) := by
  obtain ⟨r, mf, h, _⟩ := C50_reference_partial (.fgemm 'N' 't' 2 3 2 al 0 2 4 3 be 8 2) trivial (memOf 0 100 f) (by
    rintro a ((⟨i, j, h1, h2, h3, h4⟩ | ⟨i, j, h1, h2, h3, h4⟩) | ⟨i, j, h1, h2, h3, h4⟩)
    all_goals
      have h1' : i < 3 := lt_of_lt_of_le h1 (by decide)
      have h2' : j < 3 := lt_of_lt_of_le h2 (by decide)
      unfold memOf
      rw [if_pos (by omega)]
      rfl)
  exact ⟨r, mf, h⟩

end C50

section violated
variable {R : Type} [CommRing R] [DecidableEq R]

/-- C50, violated: with a scalar that is not passed as a real number, TRANS = N or T, and len(y) < len(x), the
Fortran GEMV overwrites what lies behind y. -/
theorem C50_gemv_violated (m : Mem R) (t : Char) (M N : Int) (ALPHA BETA : Scal R) (A LDA X INCX Y : Int)
    (c : Nat → Quat R) (hM : M ≠ 0) (hN : N ≠ 0) (ht : t = 'N' ∨ t = 'n' ∨ t = 'T' ∨ t = 't')
    (hr : ¬ (ALPHA.IsReal ∧ BETA.IsReal)) (h0 : ALPHA.toH = 0) (h1 : BETA.toH ≠ 1)
    (hY : VecAt m Y 1 (gemvLenX t M N).toNat c) (i : Nat) (hi1 : (gemvLenY t M N).toNat ≤ i) (hi2 : i < (gemvLenX t M N).toNat)
    (hne : BETA.toH * (c i).toH ≠ (c i).toH) :
    ∃ m', (RefCall.fgemv t M N ALPHA A LDA X INCX BETA Y 1).seq m = .ok ((), m') ∧
      ¬ SameOutside (RefCall.fgemv t M N ALPHA A LDA X INCX BETA Y 1).Outputs m m' := by
  obtain ⟨m', hrun, hv, _⟩ := C30_lengths_violated m t M N ALPHA BETA A LDA X INCX Y c hM hN ht hr h0 h1 hY
  refine ⟨m', hrun, fun hs => ?_⟩
  have e1 := hv i hi2
  have e2 := hY i hi2
  have e : readQ m' (Y + 4 * ((i:Int) * 1)) = readQ m (Y + 4 * ((i:Int) * 1)) := by
    refine readQ_congr fun a ha => hs a ?_
    rintro ⟨k, hk, hc⟩
    have h3 : vecStart Y (gemvLenY t M N) 1 = Y := by unfold vecStart; rw [if_neg (by decide)]
    rw [h3] at hc
    unfold InQ at ha hc
    omega
  rw [e1, e2] at e
  injection e with e
  refine hne ?_
  have := congrArg Quat.toH e
  simpa using this

/-- Such a call: `A` is 1 × 2, `y` one element long, BETA the complex number zero; the element behind y is erased. -/
example : ∃ m', (RefCall.fgemv 'N' 1 2 (.z (⟨0, 0⟩ : Cplx Int)) 0 1 8 1 (.z ⟨0, 0⟩) 16 1).seq (memOf 0 24 (fun _ => 1)) = .ok ((), m') ∧
    ¬ SameOutside (RefCall.fgemv 'N' 1 2 (.z (⟨0, 0⟩ : Cplx Int)) 0 1 8 1 (.z ⟨0, 0⟩) 16 1).Outputs (memOf 0 24 (fun _ => 1)) m' := by
  refine C50_gemv_violated _ 'N' 1 2 _ _ 0 1 8 1 16 (fun _ => ⟨1, 1, 1, 1⟩) (by decide) (by decide) (Or.inl rfl) ?_ ?_ ?_ ?_ 1 (by decide) (by decide) ?_
  · rintro ⟨⟨r, h⟩, _⟩; cases h
  · ext <;> rfl
  · intro h; have := congrArg QuaternionAlgebra.re h; revert this; decide
  · intro i hi
    have hi' : i < 2 := hi
    interval_cases i <;> rfl
  · intro h
    have := congrArg QuaternionAlgebra.re h
    revert this
    decide

end violated

/-! ### C49 for mixtures of calls of all builds -/

/-- A call of any build. -/
inductive AnyCall (F : Type) where
  | simd (c : Call F)
  | ref (c : RefCall F)

namespace AnyCall
variable {F : Type} [Arith F] [ArithEq F]

/-- The type of the value the call returns. -/
def Res : AnyCall F → Type
  | simd c => c.Res
  | ref c => c.Res
/-- The call in the sequential model. -/
def seq : (c : AnyCall F) → Prog F c.Res
  | simd c => c.seq
  | ref c => c.seq
/-- The call as a sequence of single memory accesses. -/
def thread : (c : AnyCall F) → Thr.Prog F c.Res
  | simd c => c.thread
  | ref c => c.thread
/-- The cells it only reads. -/
def Inputs : AnyCall F → Int → Prop
  | simd c => c.Inputs
  | ref c => c.Inputs
/-- The cells it may write. -/
def Outputs : AnyCall F → Int → Prop
  | simd c => c.Outputs
  | ref c => c.Outputs
/-- What is asked of each call on its own. -/
def Ok (m : Mem F) : AnyCall F → Prop
  | simd c => c.Ok m
  | ref c => c.Valid ∧ Accessible c.Uses m

theorem thread_run (c : AnyCall F) : c.thread.run = c.seq := by
  cases c with
  | simd c => exact c.thread_run
  | ref c => exact c.thread_run

theorem foot {m : Mem F} {c : AnyCall F} (h : c.Ok m) :
    ∃ r mf, Thr.Foot c.thread m (fun a => c.Inputs a ∨ c.Outputs a) c.Outputs r mf := by
  cases c with
  | simd c => exact Call.foot h
  | ref c =>
    obtain ⟨r, mf, hf, _⟩ := (c.safe h.1).foot h.2
    exact ⟨r, mf, hf⟩
end AnyCall

section C49
variable {F : Type} [Arith F] [ArithEq F]

/-- C49 for any mixture of calls of the vectorised, the Fortran and the template routines and of the utilities. -/
theorem C49_any_calls {ι : Type} [Fintype ι] [DecidableEq ι] (c : ι → AnyCall F) (m : Mem F) (hok : ∀ i, (c i).Ok m)
    (hind : ∀ i j, i ≠ j → Apart (c i).Outputs (fun a => (c j).Inputs a ∨ (c j).Outputs a)) :
    ∃ (r : (i : ι) → (c i).Res) (mf : Mem F),
      (∀ i, ∃ mi, (c i).seq m = .ok (r i, mi) ∧ (∀ a, (c i).Outputs a → mf a = mi a)) ∧
      (∀ a, (∀ i, ¬ (c i).Outputs a) → mf a = m a) ∧
      (∀ l : List ι, l.Nodup → (∀ i, i ∈ l) → Thr.Serial (fun i => (c i).seq) r l m mf) ∧
      (∀ s, Thr.Steps (fun i => (c i).thread, m) s →
        ¬ Thr.Crash s ∧ (Thr.Done s r ∨ ∃ s', Thr.Step s s') ∧ ∀ x, Thr.Done s x → x = r ∧ s.2 = mf) ∧
      (∃ B : Nat, ∀ (n : Nat) (s : Nat → Thr.Pool F fun i => (c i).Res), s 0 = (fun i => (c i).thread, m) →
        (∀ k, k < n → Thr.Step (s k) (s (k+1))) → n ≤ B) := by
  choose r ms hf using fun i => AnyCall.foot (hok i)
  have hr : Thr.RaceFree (fun i => (c i).thread) m := by
    intro i j hij a h1 h2
    exact hind i j hij a ((hf i).wrs a h1) ((hf j).accs a h2)
  obtain ⟨mf, h1, h2, h3, h4, h5⟩ := Thr.race_free (fun i => (hf i).run) hr
  refine ⟨r, mf, ?_, ?_, ?_, h4, h5⟩
  · intro i
    refine ⟨ms i, by rw [← (c i).thread_run]; exact (hf i).run, ?_⟩
    intro a ha
    by_cases hw : (c i).thread.wrs m a
    · exact h1 i a hw
    · have hnone : ∀ j, ¬ (c j).thread.wrs m a := by
        intro j hj
        by_cases e : j = i
        · subst e; exact hw hj
        · exact hind j i e a ((hf j).wrs a hj) (Or.inr ha)
      rw [h2 a hnone, Thr.run_frame (hf i).run hw]
  · intro a ha
    exact h2 a (fun i hi => ha i ((hf i).wrs a hi))
  · intro l hl hall
    have := h3 l hl hall
    simp only [AnyCall.thread_run] at this
    exact this

/-- Two calls at the same time: a template COPY into eight cells and a Fortran dot product (with a negative
increment) that reads the same source. -/
def twoCalls (b : Bool) : AnyCall F := if b then .ref (.pcopy 2 0 1 16 1) else .ref (.fdot true 2 0 (-1) 8 1)

/-- Non-vacuity: they meet the hypotheses. -/
theorem twoCalls_ok (f : Int → F) : (∀ b, (twoCalls b : AnyCall F).Ok (memOf 0 24 f)) ∧
    ∀ i j, i ≠ j → Apart (twoCalls i : AnyCall F).Outputs (fun a => (twoCalls j : AnyCall F).Inputs a ∨ (twoCalls j : AnyCall F).Outputs a) := by
  have vec : ∀ (X INC a : Int), VecCell X INC (2 : Int).toNat a → (X ≤ a ∧ a < X + 4) ∨ (X + 4 * INC ≤ a ∧ a < X + 4 * INC + 4) := by
    rintro X INC a ⟨i, hi, h1, h2⟩
    have hi' : i < 2 := hi
    interval_cases i <;> push_cast at h1 h2 <;> omega
  have acc : ∀ a : Int, 0 ≤ a → a < 24 → (memOf 0 24 f a).isSome := fun a h1 h2 => by
    unfold memOf; rw [if_pos (by omega)]; rfl
  have s1 : vecStart 0 2 (-1) = 4 := by decide
  have s2 : vecStart 8 2 1 = 8 := by decide
  constructor
  · intro b
    cases b
    · refine ⟨trivial, ?_⟩
      rintro a ((h | h) | h)
      · have := vec _ _ _ h; rw [s1] at this; exact acc a (by omega) (by omega)
      · have := vec _ _ _ h; rw [s2] at this; exact acc a (by omega) (by omega)
      · exact h.elim
    · refine ⟨⟨by decide, by decide, by unfold Fits32; decide, by unfold Fits32; decide⟩, ?_⟩
      rintro a (h | h)
      · have := vec _ _ _ h; exact acc a (by omega) (by omega)
      · have := vec _ _ _ h; exact acc a (by omega) (by omega)
  · intro i j hij a h1 h2
    cases i
    · exact h1.elim
    · cases j
      · have h1 := vec _ _ _ h1
        rcases h2 with (h | h) | h
        · have := vec _ _ _ h; rw [s1] at this; omega
        · have := vec _ _ _ h; rw [s2] at this; omega
        · exact h.elim
      · exact hij rfl

end C49
end Haxx
