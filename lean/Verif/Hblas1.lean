import Verif.Mem
import Verif.Simd

/-!
# HBLAS level 1: SIMD routines (`src/hblas/cxx/hblas1/*.cxx`)

The files are compiled once per routine with `_SWAP`, `_AXPY`/`_SCAL`, `_CONJ` and `ALPHAF`
selecting the variant; the model has one definition per variant, or one with the variant as an
argument.  `BatchSize = 1` in copy/swap/axpy/scal, so `NBatch = N`.
-/

namespace Haxx
open Arith

variable {F : Type}

/-- `if (isAligned) x = LOAD_256D_ALIGNED_AS(..) else x = LOAD_256D_UNALIGNED_AS(..)`. -/
def loadM (isAligned : Bool) (p : Int) : Prog F (V4 F) := if isAligned then loadA p else loadQ p
/-- `if (isAligned) STORE_256D_ALIGNED_AS(..) else STORE_256D_UNALIGNED_AS(..)`. -/
def storeM (isAligned : Bool) (p : Int) (v : V4 F) : Prog F Unit :=
  if isAligned then storeA p v else storeQ p v

/-- Loop body of `HBLAS_COPYV` — `copy_swap.cxx:58-77` (aligned) and `:79-99` (unaligned). -/
def copyBody (al : Bool) (INCX INCY : Int) (loc : Int × Int) : Prog F (Int × Int) := do
  let x1 ← loadM al loc.1
  storeM al loc.2 x1
  pure (loc.1 + 4 * INCX, loc.2 + 4 * INCY)

/-- `HBLAS_COPYV` — `src/hblas/cxx/hblas1/copy_swap.cxx:22-101` without `_SWAP`. -/
def copyvAVX (N X INCX Y INCY : Int) : Prog F Unit := do
  let isAligned := aligned32 X && aligned32 Y
  if isAligned then
    let _ ← foldN N.toNat (fun _ loc => copyBody true INCX INCY loc) (X, Y)
  else
    let _ ← foldN N.toNat (fun _ loc => copyBody false INCX INCY loc) (X, Y)

/-- Loop body of `HBLAS_SWAPV` — `copy_swap.cxx:58-77`, `:79-99` with `_SWAP`. -/
def swapBody (al : Bool) (INCX INCY : Int) (loc : Int × Int) : Prog F (Int × Int) := do
  let x1 ← loadM al loc.1
  let y1 ← loadM al loc.2
  storeM al loc.2 x1
  storeM al loc.1 y1
  pure (loc.1 + 4 * INCX, loc.2 + 4 * INCY)

/-- `HBLAS_SWAPV` — `src/hblas/cxx/hblas1/copy_swap.cxx:22-101` with `_SWAP`. -/
def swapvAVX (N X INCX Y INCY : Int) : Prog F Unit := do
  let isAligned := aligned32 X && aligned32 Y
  if isAligned then
    let _ ← foldN N.toNat (fun _ loc => swapBody true INCX INCY loc) (X, Y)
  else
    let _ ← foldN N.toNat (fun _ loc => swapBody false INCX INCY loc) (X, Y)

variable [Arith F]

/-- Registers `alpha` (and `alpha_conj` for `ALPHAF == DCOMPLEX`) — `axpy_scal.cxx:82-136`. -/
def alphaRegs (mulLeft : Bool) : Scal F → V4 F × V4 F
  | .d a => (broadcast a, setzero)
  | .z a =>
    let alpha_c := a.conj
    let alphaC : V2 F := ⟨a.re, a.im⟩
    let alphaC_conj : V2 F := if mulLeft then ⟨a.re, a.im⟩ else ⟨alpha_c.re, alpha_c.im⟩
    let alpha := set256 alphaC alphaC_conj
    (alpha, xorSign (permute4 alpha 0x5) true false true false)
  | .h a => (a, setzero)

/-- The element operation of `_SCAL` — `axpy_scal.cxx:163-176`. -/
def scalOp (mulLeft : Bool) (ALPHA : Scal F) (x1 : V4 F) : V4 F :=
  let alpha := (alphaRegs mulLeft ALPHA).1
  let alpha_conj := (alphaRegs mulLeft ALPHA).2
  match ALPHA with
  | .d _ => vmul alpha x1
  | .z _ => vhsub (vmul x1 alpha) (vmul x1 alpha_conj)
  | .h _ => if mulLeft then MULDQ_NN alpha x1 else MULDQ_NN x1 alpha

/-- The element operation of `_AXPY` — `axpy_scal.cxx:184-194`. -/
def axpyOp (mulLeft : Bool) (ALPHA : Scal F) (x1 y1 : V4 F) : V4 F :=
  let alpha := (alphaRegs mulLeft ALPHA).1
  let alpha_conj := (alphaRegs mulLeft ALPHA).2
  match ALPHA with
  | .d _ => vfma alpha x1 y1
  | .z _ => vadd y1 (vhsub (vmul x1 alpha) (vmul x1 alpha_conj))
  | .h _ => if mulLeft then vadd y1 (MULDQ_NN alpha x1) else vadd y1 (MULDQ_NN x1 alpha)

/-- `HBLAS_SCALV` — `src/hblas/cxx/hblas1/axpy_scal.cxx:26-212` with `_SCAL`. -/
def scalvAVX (SIDE : Char) (N : Int) (ALPHA : Scal F) (X INCX : Int) : Prog F Unit := do
  let MulLeft := SIDE == 'L'
  let isAligned := aligned32 X
  let _ ← foldN N.toNat (fun _ locX => do
    let x1 ← loadM isAligned locX
    let x1 := scalOp MulLeft ALPHA x1
    storeM isAligned locX x1
    pure (locX + 4 * INCX)) X

/-- `HBLAS_AXPYV` — `src/hblas/cxx/hblas1/axpy_scal.cxx:26-212` with `_AXPY`. -/
def axpyvAVX (SIDE : Char) (N : Int) (ALPHA : Scal F) (X INCX Y INCY : Int) : Prog F Unit := do
  let MulLeft := SIDE == 'L'
  let isAligned := aligned32 X && aligned32 Y
  let _ ← foldN N.toNat (fun _ (loc : Int × Int) => do
    let x1 ← loadM isAligned loc.1
    let y1 ← loadM isAligned loc.2
    let y1 := axpyOp MulLeft ALPHA x1 y1
    storeM isAligned loc.2 y1
    pure (loc.1 + 4 * INCX, loc.2 + 4 * INCY)) (X, Y)

/-- Local state of the batched loop of `HBLAS_DOT?`: pointers and result registers. -/
structure DotSt (F : Type) where
  locX : Int
  locY : Int
  r : R4 F

/-- Batched loop body of `HBLAS_DOTUV`/`HBLAS_DOTCV` — `src/hblas/cxx/hblas1/dot.cxx:70-127`.
The `HAXX_INT` products `2*INCX`, `3*INCX`, `BatchSize*INCX` (and for Y) are 32-bit. -/
def dotBatch (conj : Bool) (al : Bool) (INCX INCY : Int) (s : DotSt F) : Prog F (DotSt F) := do
  let inc2x ← i32 (2 * INCX)
  let inc3x ← i32 (3 * INCX)
  let x1 ← loadM al s.locX
  let x2 ← loadM al (s.locX + 4 * INCX)
  let x3 ← loadM al (s.locX + 4 * inc2x)
  let x4 ← loadM al (s.locX + 4 * inc3x)
  let inc2y ← i32 (2 * INCY)
  let inc3y ← i32 (3 * INCY)
  let y1 ← loadM al s.locY
  let y2 ← loadM al (s.locY + 4 * INCY)
  let y3 ← loadM al (s.locY + 4 * inc2y)
  let y4 ← loadM al (s.locY + 4 * inc3y)
  let x := transpose4 ⟨x1, x2, x3, x4⟩
  let y := transpose4 ⟨y1, y2, y3, y4⟩
  let r := if conj then INC_MULD4Q_CN x y s.r else INC_MULD4Q_NN x y s.r
  let dx ← i32 (4 * INCX)
  let dy ← i32 (4 * INCY)
  pure ⟨s.locX + 4 * dx, s.locY + 4 * dy, r⟩

/-- Clean-up loop body — `dot.cxx:144-165`; `i*INCX`, `i*INCY` are 32-bit. -/
def dotClean (conj : Bool) (al : Bool) (locX locY INCX INCY : Int) (i : Nat) (r1 : V4 F) :
    Prog F (V4 F) := do
  let ix ← i32 (i * INCX)
  let iy ← i32 (i * INCY)
  let x1 ← loadM al (locX + 4 * ix)
  let y1 ← loadM al (locY + 4 * iy)
  if conj then pure (vadd r1 (MULDQ_CN x1 y1)) else pure (vadd r1 (MULDQ_NN x1 y1))

/-- `HBLAS_DOTUV` (`conj = false`) / `HBLAS_DOTCV` (`_CONJ`, `conj = true`) —
`src/hblas/cxx/hblas1/dot.cxx:20-175`.  The final unaligned store goes to the local `res`, which is
returned. -/
def dotAVX (conj : Bool) (N X INCX Y INCY : Int) : Prog F (Quat F) := do
  let NBatch := N.tdiv 4
  let nLeft := N.tmod 4
  let isAligned := aligned32 X && aligned32 Y
  let s ← foldN NBatch.toNat (fun _ s => dotBatch conj isAligned INCX INCY s)
    ⟨X, Y, ⟨setzero, setzero, setzero, setzero⟩⟩
  let r := transpose4 s.r
  let r1 := vadd r.r1 r.r2
  let r1 := vadd r1 r.r3
  let r1 := vadd r1 r.r4
  foldN nLeft.toNat (fun i r1 => dotClean conj isAligned s.locX s.locY INCX INCY i r1) r1

end Haxx
