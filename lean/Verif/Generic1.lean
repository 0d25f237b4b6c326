import Verif.Hblas1m

/-!
# HBLAS level 1: the portable header templates (`include/hblas/generic/hblas1/*_impl.hpp`)

The `HAXX_INT` locals are 32-bit: the increments `ix += INCX`, `iy += INCY` and the product
`N*INCX` go through `i32`.  (`i + k` with `k` below the unroll factor is at most `N`.)
Pointer indexing `X[i]` is `X + 4*i` in cells.
-/

namespace Haxx
open Arith

section
variable {F : Type}

/-- `for (i = lo; i < hi; i += s) body(i)` with `s > 0`: `⌈(hi-lo)/s⌉` iterations. -/
def forStep (lo hi s : Int) (body : Int → Prog F Unit) : Prog F Unit :=
  forN ((hi - lo + s - 1) / s).toNat (fun k => body (lo + s * k))

/-- `Y[iy] = X[ix]`. -/
def copyEl (X Y ix iy : Int) : Prog F Unit := do
  let q ← loadQ (X + 4 * ix)
  storeQ (Y + 4 * iy) q

/-- Unrolled loop body — `hblas_copyv_impl.hpp:47-53`. -/
def copyUnroll (X Y i : Int) : Prog F Unit := do
  copyEl X Y i i
  copyEl X Y (i+1) (i+1)
  copyEl X Y (i+2) (i+2)
  copyEl X Y (i+3) (i+3)
  copyEl X Y (i+4) (i+4)
  copyEl X Y (i+5) (i+5)
  copyEl X Y (i+6) (i+6)

/-- Strided loop `for( i = 0; i < N; ++i, ix += INCX, iy += INCY ) el(ix,iy)`, with `ix`, `iy`
32-bit — `hblas_copyv_impl.hpp:62`, `hblas_swapv_impl.hpp:75-79`, `hblas_axpyv_impl.hpp:88,90`. -/
def stridedStep (el : Int → Int → Prog F Unit) (INCX INCY : Int) (s : Int × Int) :
    Prog F (Int × Int) := do
  el s.1 s.2
  let ix ← i32 (s.1 + INCX)
  let iy ← i32 (s.2 + INCY)
  pure (ix, iy)

/-- `HBLAS_COPYV` — `include/hblas/generic/hblas1/hblas_copyv_impl.hpp:27-66`. -/
def copyvGen (N X INCX Y INCY : Int) : Prog F Unit :=
  if N ≤ 0 then pure ()
  else do
    assertP (INCX > 0)
    assertP (INCY > 0)
    if INCX = 1 ∧ INCY = 1 then
      let m := N.tmod 7
      if m ≠ 0 then
        forN m.toNat (fun i => copyEl X Y i i)
        if N < 7 then pure ()
        else forStep m N 7 (copyUnroll X Y)
      else forStep m N 7 (copyUnroll X Y)
    else
      let _ ← foldN N.toNat (fun _ s => stridedStep (copyEl X Y) INCX INCY s) (0, 0)

/-- `qtmp = X[ix]; X[ix] = Y[iy]; Y[iy] = qtmp;`. -/
def swapEl (X Y ix iy : Int) : Prog F Unit := do
  let qtmp ← loadQ (X + 4 * ix)
  let y ← loadQ (Y + 4 * iy)
  storeQ (X + 4 * ix) y
  storeQ (Y + 4 * iy) qtmp

/-- Unrolled loop body — `hblas_swapv_impl.hpp:56-66`. -/
def swapUnroll (X Y i : Int) : Prog F Unit := do
  swapEl X Y i i
  swapEl X Y (i+1) (i+1)
  swapEl X Y (i+2) (i+2)

/-- `HBLAS_SWAPV` — `include/hblas/generic/hblas1/hblas_swapv_impl.hpp:27-82`. -/
def swapvGen (N X INCX Y INCY : Int) : Prog F Unit :=
  if N ≤ 0 then pure ()
  else do
    assertP (INCX > 0)
    assertP (INCY > 0)
    if INCX = 1 ∧ INCY = 1 then
      let m := N.tmod 3
      if m ≠ 0 then
        forN m.toNat (fun i => swapEl X Y i i)
        if N < 3 then pure ()
        else forStep m N 3 (swapUnroll X Y)
      else forStep m N 3 (swapUnroll X Y)
    else
      let _ ← foldN N.toNat (fun _ s => stridedStep (swapEl X Y) INCX INCY s) (0, 0)

end

variable {F : Type} [Arith F]

/-- `X[i] = ALPHA * X[i]` / `X[i] = X[i] * ALPHA`. -/
def scalEl (isL : Bool) (ALPHA : Scal F) (X i : Int) : Prog F Unit := do
  let x ← loadQ (X + 4 * i)
  storeQ (X + 4 * i) (if isL then Scal.mulL ALPHA x else Scal.mulR x ALPHA)

/-- Unrolled loop body — `hblas_scalv_impl.hpp:61-65` (left), `:69-73` (right). -/
def scalUnroll (isL : Bool) (ALPHA : Scal F) (X i : Int) : Prog F Unit := do
  scalEl isL ALPHA X i
  scalEl isL ALPHA X (i+1)
  scalEl isL ALPHA X (i+2)
  scalEl isL ALPHA X (i+3)
  scalEl isL ALPHA X (i+4)

/-- `HBLAS_SCALV` — `include/hblas/generic/hblas1/hblas_scalv_impl.hpp:36-84`. -/
def scalvGen (SIDE : Char) (N : Int) (ALPHA : Scal F) (X INCX : Int) : Prog F Unit :=
  if N ≤ 0 ∨ INCX ≤ 0 then pure ()
  else do
    let isR := SIDE == 'R'
    let isL := !isR
    if INCX = 1 then
      let m := N.tmod 5
      if m ≠ 0 then
        forN m.toNat (fun i => scalEl isL ALPHA X i)
        if N < 5 then pure ()
        else forStep m N 5 (scalUnroll isL ALPHA X)
      else forStep m N 5 (scalUnroll isL ALPHA X)
    else
      let NINCX ← i32 (N * INCX)
      forStep 0 NINCX INCX (scalEl isL ALPHA X)

/-- `Y[iy] += ALPHA * X[ix]` / `Y[iy] += X[ix] * ALPHA`. -/
def axpyEl (isL : Bool) (ALPHA : Scal F) (X Y ix iy : Int) : Prog F Unit := do
  let x ← loadQ (X + 4 * ix)
  let y ← loadQ (Y + 4 * iy)
  storeQ (Y + 4 * iy) (Quat.addAssign y (if isL then Scal.mulL ALPHA x else Scal.mulR x ALPHA))

/-- Unrolled loop body — `hblas_axpyv_impl.hpp:69-72` (left), `:76-79` (right). -/
def axpyUnroll (isL : Bool) (ALPHA : Scal F) (X Y i : Int) : Prog F Unit := do
  axpyEl isL ALPHA X Y i i
  axpyEl isL ALPHA X Y (i+1) (i+1)
  axpyEl isL ALPHA X Y (i+2) (i+2)
  axpyEl isL ALPHA X Y (i+3) (i+3)

/-- `HBLAS_AXPYV` — `include/hblas/generic/hblas1/hblas_axpyv_impl.hpp:36-93`, with
`_XF = quaternion<_F>`. -/
def axpyvGen [ArithEq F] (SIDE : Char) (N : Int) (ALPHA : Scal F) (X INCX Y INCY : Int) :
    Prog F Unit :=
  if N ≤ 0 then pure ()
  else if ALPHA.eqZero then pure ()
  else do
    assertP (INCX > 0)
    assertP (INCY > 0)
    let isR := SIDE == 'R'
    let isL := !isR
    if INCX = 1 ∧ INCY = 1 then
      let m := N.tmod 4
      if m ≠ 0 then
        forN m.toNat (fun i => axpyEl isL ALPHA X Y i i)
        if N < 4 then pure ()
        else forStep m N 4 (axpyUnroll isL ALPHA X Y)
      else forStep m N 4 (axpyUnroll isL ALPHA X Y)
    else
      let _ ← foldN N.toNat (fun _ s => stridedStep (axpyEl isL ALPHA X Y) INCX INCY s) (0, 0)

/-- `htemp += X[ix]*Y[iy]` (`hblas_dotuv_impl.hpp`) / `htemp += conj(X[ix])*Y[iy]`. -/
def dotEl (conj : Bool) (X Y ix iy : Int) (htemp : Quat F) : Prog F (Quat F) := do
  let x ← loadQ (X + 4 * ix)
  let y ← loadQ (Y + 4 * iy)
  pure (Quat.addAssign htemp (Quat.mul (if conj then Quat.conj x else x) y))

/-- Strided step of the dot products — `hblas_dotcv_impl.hpp:48-49`. -/
def dotStep (conj : Bool) (X Y INCX INCY : Int) (s : Int × Int × Quat F) :
    Prog F (Int × Int × Quat F) := do
  let htemp ← dotEl conj X Y s.1 s.2.1 s.2.2
  let ix ← i32 (s.1 + INCX)
  let iy ← i32 (s.2.1 + INCY)
  pure (ix, iy, htemp)

/-- `HBLAS_DOTUV` — `include/hblas/generic/hblas1/hblas_dotuv_impl.hpp:25-53` (`conj = false`) and
`HBLAS_DOTCV` — `include/hblas/generic/hblas1/hblas_dotcv_impl.hpp:25-53` (`conj = true`). -/
def dotGen (conj : Bool) (N X INCX Y INCY : Int) : Prog F (Quat F) :=
  if N ≤ 0 then pure ⟨zero, zero, zero, zero⟩
  else do
    assertP (INCX > 0)
    assertP (INCY > 0)
    if INCX = 1 ∧ INCY = 1 then
      foldN N.toNat (fun i htemp => dotEl conj X Y i i htemp) ⟨zero, zero, zero, zero⟩
    else
      let r ← foldN N.toNat (fun _ s => dotStep conj X Y INCX INCY s)
        (0, 0, ⟨zero, zero, zero, zero⟩)
      pure r.2.2

end Haxx
