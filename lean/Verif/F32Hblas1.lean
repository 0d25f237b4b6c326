import Verif.F32

/-!
# Fortran level-1 routines, with INTEGER*4 index arithmetic

Generated by `tools/gen_f32.py` from `FHblas1.lean`; do not edit.
-/

set_option linter.unusedVariables false

namespace Haxx.F32
open Arith

variable {F : Type} [Arith F] [ArithEq F]

/-- With 32-bit index arithmetic: `src/hblas/fortran/hblas1/hscald.f:22-27`, body of `DO 10 I`. -/
def hscald_10_I (ALPHA : F) (X : Int) (I : Int)  : Prog F (Unit) := do
  let t1 ← rd (el2 1 4 X 1 I)
  wr (el2 1 4 X 1 I) (ALPHA *ᶠ t1)
  let t2 ← rd (el2 1 4 X 2 I)
  wr (el2 1 4 X 2 I) (ALPHA *ᶠ t2)
  let t3 ← rd (el2 1 4 X 3 I)
  wr (el2 1 4 X 3 I) (ALPHA *ᶠ t3)
  let t4 ← rd (el2 1 4 X 4 I)
  wr (el2 1 4 X 4 I) (ALPHA *ᶠ t4)
  pure ()

/-- With 32-bit index arithmetic: `src/hblas/fortran/hblas1/hscald.f:33-40`, body of `DO 20 I`. -/
def hscald_20_I (ALPHA : F) (INCX : Int) (X : Int) (I : Int) (IX : Int) : Prog F (Int) := do
  let t1 ← rd (el2 1 4 X 1 IX)
  wr (el2 1 4 X 1 IX) (ALPHA *ᶠ t1)
  let t2 ← rd (el2 1 4 X 2 IX)
  wr (el2 1 4 X 2 IX) (ALPHA *ᶠ t2)
  let t3 ← rd (el2 1 4 X 3 IX)
  wr (el2 1 4 X 3 IX) (ALPHA *ᶠ t3)
  let t4 ← rd (el2 1 4 X 4 IX)
  wr (el2 1 4 X 4 IX) (ALPHA *ᶠ t4)
  let IX ← i32 (IX + INCX)
  pure IX

/-- With 32-bit index arithmetic: `src/hblas/fortran/hblas1/hscald.f:21-41`. -/
def hscald_if21 (ALPHA : F) (INCX : Int) (N : Int) (X : Int) : Prog F (Unit) := do
  if decide (INCX = 1) then
    forN (N).toNat (fun i => hscald_10_I ALPHA X ((i : Int) + 1))
    pure ()
  else
    let IX : Int := 1
    let r ← (do
      if decide (INCX < 0) then
        let c1 ← i32 (-N)
        let c2 ← i32 (c1 + 1)
        let c3 ← i32 (c2 * INCX)
        let IX ← i32 (c3 + 1)
        pure IX
      else
        pure IX : Prog F (Int))
    let IX : Int := r
    let r ← foldN (N).toNat (fun i (s : Int) => hscald_20_I ALPHA INCX X ((i : Int) + 1) s) IX
    pure ()

/-- With 32-bit index arithmetic: `src/hblas/fortran/hblas1/hscald.f:9-43`. -/
def hscald (SIDE : Char) (N : Int) (ALPHA : F) (X : Int) (INCX : Int) : Prog F (Unit) := do
  if decide (N ≤ 0) then
    pure ()
  else
    if ALPHA ==ᶠ zero then
      pure ()
    else
      hscald_if21 ALPHA INCX N X
      pure ()

/-- With 32-bit index arithmetic: `src/hblas/fortran/hblas1/hscalc.f:28-32`, body of `DO 10 I`. -/
def hscalc_10_I (ALPHA : Cplx F) (X : Int) (I : Int)  : Prog F (Unit) := do
  let t1 ← rdC (el2 2 2 X 1 I)
  wrC (el2 2 2 X 1 I) (ALPHA *ᶜ t1)
  let t2 ← rdC (el2 2 2 X 2 I)
  wrC (el2 2 2 X 2 I) (ALPHA *ᶜ t2)
  pure ()

/-- With 32-bit index arithmetic: `src/hblas/fortran/hblas1/hscalc.f:34-38`, body of `DO 20 I`. -/
def hscalc_20_I (ALPHA : Cplx F) (X : Int) (I : Int)  : Prog F (Unit) := do
  let t1 ← rdC (el2 2 2 X 1 I)
  wrC (el2 2 2 X 1 I) (t1 *ᶜ ALPHA)
  let t2 ← rdC (el2 2 2 X 2 I)
  wrC (el2 2 2 X 2 I) (t2 *ᶜ Cplx.conj ALPHA)
  pure ()

/-- With 32-bit index arithmetic: `src/hblas/fortran/hblas1/hscalc.f:27-39`. -/
def hscalc_if27 (ALPHA : Cplx F) (MRIGHT : Bool) (N : Int) (X : Int) : Prog F (Unit) := do
  if !MRIGHT then
    forN (N).toNat (fun i => hscalc_10_I ALPHA X ((i : Int) + 1))
    pure ()
  else
    forN (N).toNat (fun i => hscalc_20_I ALPHA X ((i : Int) + 1))
    pure ()

/-- With 32-bit index arithmetic: `src/hblas/fortran/hblas1/hscalc.f:46-52`, body of `DO 30 I`. -/
def hscalc_30_I (ALPHA : Cplx F) (INCX : Int) (X : Int) (I : Int) (IX : Int) : Prog F (Int) := do
  let t1 ← rdC (el2 2 2 X 1 IX)
  wrC (el2 2 2 X 1 IX) (ALPHA *ᶜ t1)
  let t2 ← rdC (el2 2 2 X 2 IX)
  wrC (el2 2 2 X 2 IX) (ALPHA *ᶜ t2)
  let IX ← i32 (IX + INCX)
  pure IX

/-- With 32-bit index arithmetic: `src/hblas/fortran/hblas1/hscalc.f:54-60`, body of `DO 40 I`. -/
def hscalc_40_I (ALPHA : Cplx F) (INCX : Int) (X : Int) (I : Int) (IX : Int) : Prog F (Int) := do
  let t1 ← rdC (el2 2 2 X 1 IX)
  wrC (el2 2 2 X 1 IX) (t1 *ᶜ ALPHA)
  let t2 ← rdC (el2 2 2 X 2 IX)
  wrC (el2 2 2 X 2 IX) (t2 *ᶜ Cplx.conj ALPHA)
  let IX ← i32 (IX + INCX)
  pure IX

/-- With 32-bit index arithmetic: `src/hblas/fortran/hblas1/hscalc.f:45-61`. -/
def hscalc_if45 (ALPHA : Cplx F) (INCX : Int) (IX : Int) (MRIGHT : Bool) (N : Int) (X : Int) : Prog F (Unit) := do
  if !MRIGHT then
    let r ← foldN (N).toNat (fun i (s : Int) => hscalc_30_I ALPHA INCX X ((i : Int) + 1) s) IX
    pure ()
  else
    let r ← foldN (N).toNat (fun i (s : Int) => hscalc_40_I ALPHA INCX X ((i : Int) + 1) s) IX
    pure ()

/-- With 32-bit index arithmetic: `src/hblas/fortran/hblas1/hscalc.f:26-62`. -/
def hscalc_if26 (ALPHA : Cplx F) (INCX : Int) (MRIGHT : Bool) (N : Int) (X : Int) : Prog F (Unit) := do
  if decide (INCX = 1) then
    hscalc_if27 ALPHA MRIGHT N X
    pure ()
  else
    let IX : Int := 1
    let r ← (do
      if decide (INCX < 0) then
        let c1 ← i32 (-N)
        let c2 ← i32 (c1 + 1)
        let c3 ← i32 (c2 * INCX)
        let IX ← i32 (c3 + 1)
        pure IX
      else
        pure IX : Prog F (Int))
    let IX : Int := r
    hscalc_if45 ALPHA INCX IX MRIGHT N X
    pure ()

/-- With 32-bit index arithmetic: `src/hblas/fortran/hblas1/hscalc.f:9-64`. -/
def hscalc (SIDE : Char) (N : Int) (ALPHA : Cplx F) (X : Int) (INCX : Int) : Prog F (Unit) := do
  if decide (N ≤ 0) then
    pure ()
  else
    if cabsIsZero ALPHA then
      pure ()
    else
      let MRIGHT : Bool := lsame 'R' SIDE
      hscalc_if26 ALPHA INCX MRIGHT N X
      pure ()

/-- With 32-bit index arithmetic: `src/hblas/fortran/hblas1/hscalh.f:29-45`, body of `DO 10 I`. -/
def hscalh_10_I (ALPHA : Quat F) (X : Int) (I : Int)  : Prog F (Unit) := do
  let t1 ← rd (el2 1 4 X 1 I)
  let t2 ← rd (el2 1 4 X 2 I)
  let t3 ← rd (el2 1 4 X 3 I)
  let t4 ← rd (el2 1 4 X 4 I)
  let HTMPS : F := ALPHA.re *ᶠ t1 -ᶠ ALPHA.i *ᶠ t2 -ᶠ ALPHA.j *ᶠ t3 -ᶠ ALPHA.k *ᶠ t4
  let t5 ← rd (el2 1 4 X 2 I)
  let t6 ← rd (el2 1 4 X 1 I)
  let t7 ← rd (el2 1 4 X 4 I)
  let t8 ← rd (el2 1 4 X 3 I)
  let HTMPI : F := ALPHA.re *ᶠ t5 +ᶠ ALPHA.i *ᶠ t6 +ᶠ ALPHA.j *ᶠ t7 -ᶠ ALPHA.k *ᶠ t8
  let t9 ← rd (el2 1 4 X 3 I)
  let t10 ← rd (el2 1 4 X 4 I)
  let t11 ← rd (el2 1 4 X 1 I)
  let t12 ← rd (el2 1 4 X 2 I)
  let HTMPJ : F := ALPHA.re *ᶠ t9 -ᶠ ALPHA.i *ᶠ t10 +ᶠ ALPHA.j *ᶠ t11 +ᶠ ALPHA.k *ᶠ t12
  let t13 ← rd (el2 1 4 X 4 I)
  let t14 ← rd (el2 1 4 X 3 I)
  let t15 ← rd (el2 1 4 X 2 I)
  let t16 ← rd (el2 1 4 X 1 I)
  wr (el2 1 4 X 4 I) (ALPHA.re *ᶠ t13 +ᶠ ALPHA.i *ᶠ t14 -ᶠ ALPHA.j *ᶠ t15 +ᶠ ALPHA.k *ᶠ t16)
  wr (el2 1 4 X 1 I) HTMPS
  wr (el2 1 4 X 2 I) HTMPI
  wr (el2 1 4 X 3 I) HTMPJ
  pure ()

/-- With 32-bit index arithmetic: `src/hblas/fortran/hblas1/hscalh.f:47-63`, body of `DO 20 I`. -/
def hscalh_20_I (ALPHA : Quat F) (X : Int) (I : Int)  : Prog F (Unit) := do
  let t1 ← rd (el2 1 4 X 1 I)
  let t2 ← rd (el2 1 4 X 2 I)
  let t3 ← rd (el2 1 4 X 3 I)
  let t4 ← rd (el2 1 4 X 4 I)
  let HTMPS : F := t1 *ᶠ ALPHA.re -ᶠ t2 *ᶠ ALPHA.i -ᶠ t3 *ᶠ ALPHA.j -ᶠ t4 *ᶠ ALPHA.k
  let t5 ← rd (el2 1 4 X 1 I)
  let t6 ← rd (el2 1 4 X 2 I)
  let t7 ← rd (el2 1 4 X 3 I)
  let t8 ← rd (el2 1 4 X 4 I)
  let HTMPI : F := t5 *ᶠ ALPHA.i +ᶠ t6 *ᶠ ALPHA.re +ᶠ t7 *ᶠ ALPHA.k -ᶠ t8 *ᶠ ALPHA.j
  let t9 ← rd (el2 1 4 X 1 I)
  let t10 ← rd (el2 1 4 X 2 I)
  let t11 ← rd (el2 1 4 X 3 I)
  let t12 ← rd (el2 1 4 X 4 I)
  let HTMPJ : F := t9 *ᶠ ALPHA.j -ᶠ t10 *ᶠ ALPHA.k +ᶠ t11 *ᶠ ALPHA.re +ᶠ t12 *ᶠ ALPHA.i
  let t13 ← rd (el2 1 4 X 1 I)
  let t14 ← rd (el2 1 4 X 2 I)
  let t15 ← rd (el2 1 4 X 3 I)
  let t16 ← rd (el2 1 4 X 4 I)
  wr (el2 1 4 X 4 I) (t13 *ᶠ ALPHA.k +ᶠ t14 *ᶠ ALPHA.j -ᶠ t15 *ᶠ ALPHA.i +ᶠ t16 *ᶠ ALPHA.re)
  wr (el2 1 4 X 1 I) HTMPS
  wr (el2 1 4 X 2 I) HTMPI
  wr (el2 1 4 X 3 I) HTMPJ
  pure ()

/-- With 32-bit index arithmetic: `src/hblas/fortran/hblas1/hscalh.f:28-64`. -/
def hscalh_if28 (ALPHA : Quat F) (MRIGHT : Bool) (N : Int) (X : Int) : Prog F (Unit) := do
  if !MRIGHT then
    forN (N).toNat (fun i => hscalh_10_I ALPHA X ((i : Int) + 1))
    pure ()
  else
    forN (N).toNat (fun i => hscalh_20_I ALPHA X ((i : Int) + 1))
    pure ()

/-- With 32-bit index arithmetic: `src/hblas/fortran/hblas1/hscalh.f:71-89`, body of `DO 30 I`. -/
def hscalh_30_I (ALPHA : Quat F) (INCX : Int) (X : Int) (I : Int) (IX : Int) : Prog F (Int) := do
  let t1 ← rd (el2 1 4 X 1 IX)
  let t2 ← rd (el2 1 4 X 2 IX)
  let t3 ← rd (el2 1 4 X 3 IX)
  let t4 ← rd (el2 1 4 X 4 IX)
  let HTMPS : F := ALPHA.re *ᶠ t1 -ᶠ ALPHA.i *ᶠ t2 -ᶠ ALPHA.j *ᶠ t3 -ᶠ ALPHA.k *ᶠ t4
  let t5 ← rd (el2 1 4 X 2 IX)
  let t6 ← rd (el2 1 4 X 1 IX)
  let t7 ← rd (el2 1 4 X 4 IX)
  let t8 ← rd (el2 1 4 X 3 IX)
  let HTMPI : F := ALPHA.re *ᶠ t5 +ᶠ ALPHA.i *ᶠ t6 +ᶠ ALPHA.j *ᶠ t7 -ᶠ ALPHA.k *ᶠ t8
  let t9 ← rd (el2 1 4 X 3 IX)
  let t10 ← rd (el2 1 4 X 4 IX)
  let t11 ← rd (el2 1 4 X 1 IX)
  let t12 ← rd (el2 1 4 X 2 IX)
  let HTMPJ : F := ALPHA.re *ᶠ t9 -ᶠ ALPHA.i *ᶠ t10 +ᶠ ALPHA.j *ᶠ t11 +ᶠ ALPHA.k *ᶠ t12
  let t13 ← rd (el2 1 4 X 4 IX)
  let t14 ← rd (el2 1 4 X 3 IX)
  let t15 ← rd (el2 1 4 X 2 IX)
  let t16 ← rd (el2 1 4 X 1 IX)
  wr (el2 1 4 X 4 IX) (ALPHA.re *ᶠ t13 +ᶠ ALPHA.i *ᶠ t14 -ᶠ ALPHA.j *ᶠ t15 +ᶠ ALPHA.k *ᶠ t16)
  wr (el2 1 4 X 1 IX) HTMPS
  wr (el2 1 4 X 2 IX) HTMPI
  wr (el2 1 4 X 3 IX) HTMPJ
  let IX ← i32 (IX + INCX)
  pure IX

/-- With 32-bit index arithmetic: `src/hblas/fortran/hblas1/hscalh.f:91-109`, body of `DO 40 I`. -/
def hscalh_40_I (ALPHA : Quat F) (INCX : Int) (X : Int) (I : Int) (IX : Int) : Prog F (Int) := do
  let t1 ← rd (el2 1 4 X 1 IX)
  let t2 ← rd (el2 1 4 X 2 IX)
  let t3 ← rd (el2 1 4 X 3 IX)
  let t4 ← rd (el2 1 4 X 4 IX)
  let HTMPS : F := t1 *ᶠ ALPHA.re -ᶠ t2 *ᶠ ALPHA.i -ᶠ t3 *ᶠ ALPHA.j -ᶠ t4 *ᶠ ALPHA.k
  let t5 ← rd (el2 1 4 X 1 IX)
  let t6 ← rd (el2 1 4 X 2 IX)
  let t7 ← rd (el2 1 4 X 3 IX)
  let t8 ← rd (el2 1 4 X 4 IX)
  let HTMPI : F := t5 *ᶠ ALPHA.i +ᶠ t6 *ᶠ ALPHA.re +ᶠ t7 *ᶠ ALPHA.k -ᶠ t8 *ᶠ ALPHA.j
  let t9 ← rd (el2 1 4 X 1 IX)
  let t10 ← rd (el2 1 4 X 2 IX)
  let t11 ← rd (el2 1 4 X 3 IX)
  let t12 ← rd (el2 1 4 X 4 IX)
  let HTMPJ : F := t9 *ᶠ ALPHA.j -ᶠ t10 *ᶠ ALPHA.k +ᶠ t11 *ᶠ ALPHA.re +ᶠ t12 *ᶠ ALPHA.i
  let t13 ← rd (el2 1 4 X 1 IX)
  let t14 ← rd (el2 1 4 X 2 IX)
  let t15 ← rd (el2 1 4 X 3 IX)
  let t16 ← rd (el2 1 4 X 4 IX)
  wr (el2 1 4 X 4 IX) (t13 *ᶠ ALPHA.k +ᶠ t14 *ᶠ ALPHA.j -ᶠ t15 *ᶠ ALPHA.i +ᶠ t16 *ᶠ ALPHA.re)
  wr (el2 1 4 X 1 IX) HTMPS
  wr (el2 1 4 X 2 IX) HTMPI
  wr (el2 1 4 X 3 IX) HTMPJ
  let IX ← i32 (IX + INCX)
  pure IX

/-- With 32-bit index arithmetic: `src/hblas/fortran/hblas1/hscalh.f:70-110`. -/
def hscalh_if70 (ALPHA : Quat F) (INCX : Int) (IX : Int) (MRIGHT : Bool) (N : Int) (X : Int) : Prog F (Unit) := do
  if !MRIGHT then
    let r ← foldN (N).toNat (fun i (s : Int) => hscalh_30_I ALPHA INCX X ((i : Int) + 1) s) IX
    pure ()
  else
    let r ← foldN (N).toNat (fun i (s : Int) => hscalh_40_I ALPHA INCX X ((i : Int) + 1) s) IX
    pure ()

/-- With 32-bit index arithmetic: `src/hblas/fortran/hblas1/hscalh.f:27-111`. -/
def hscalh_if27 (ALPHA : Quat F) (INCX : Int) (MRIGHT : Bool) (N : Int) (X : Int) : Prog F (Unit) := do
  if decide (INCX = 1) then
    hscalh_if28 ALPHA MRIGHT N X
    pure ()
  else
    let IX : Int := 1
    let r ← (do
      if decide (INCX < 0) then
        let c1 ← i32 (-N)
        let c2 ← i32 (c1 + 1)
        let c3 ← i32 (c2 * INCX)
        let IX ← i32 (c3 + 1)
        pure IX
      else
        pure IX : Prog F (Int))
    let IX : Int := r
    hscalh_if70 ALPHA INCX IX MRIGHT N X
    pure ()

/-- With 32-bit index arithmetic: `src/hblas/fortran/hblas1/hscalh.f:9-113`. -/
def hscalh (SIDE : Char) (N : Int) (ALPHA : Quat F) (X : Int) (INCX : Int) : Prog F (Unit) := do
  if decide (N ≤ 0) then
    pure ()
  else
    if (((ALPHA.re ==ᶠ zero) && (ALPHA.i ==ᶠ zero)) && (ALPHA.j ==ᶠ zero)) && (ALPHA.k ==ᶠ zero) then
      pure ()
    else
      let MRIGHT : Bool := lsame 'R' SIDE
      hscalh_if27 ALPHA INCX MRIGHT N X
      pure ()

/-- With 32-bit index arithmetic: `src/hblas/fortran/hblas1/haxpydh.f:22-27`, body of `DO 10 I`. -/
def haxpydh_10_I (ALPHA : F) (X : Int) (Y : Int) (I : Int)  : Prog F (Unit) := do
  let t1 ← rd (el2 1 4 Y 1 I)
  let t2 ← rd (el2 1 4 X 1 I)
  wr (el2 1 4 Y 1 I) (t1 +ᶠ ALPHA *ᶠ t2)
  let t3 ← rd (el2 1 4 Y 2 I)
  let t4 ← rd (el2 1 4 X 2 I)
  wr (el2 1 4 Y 2 I) (t3 +ᶠ ALPHA *ᶠ t4)
  let t5 ← rd (el2 1 4 Y 3 I)
  let t6 ← rd (el2 1 4 X 3 I)
  wr (el2 1 4 Y 3 I) (t5 +ᶠ ALPHA *ᶠ t6)
  let t7 ← rd (el2 1 4 Y 4 I)
  let t8 ← rd (el2 1 4 X 4 I)
  wr (el2 1 4 Y 4 I) (t7 +ᶠ ALPHA *ᶠ t8)
  pure ()

/-- With 32-bit index arithmetic: `src/hblas/fortran/hblas1/haxpydh.f:35-42`, body of `DO 20 I`. -/
def haxpydh_20_I (ALPHA : F) (INCX : Int) (INCY : Int) (X : Int) (Y : Int) (I : Int) (IX : Int) (IY : Int) : Prog F (Int × Int) := do
  let t1 ← rd (el2 1 4 Y 1 IY)
  let t2 ← rd (el2 1 4 X 1 IX)
  wr (el2 1 4 Y 1 IY) (t1 +ᶠ ALPHA *ᶠ t2)
  let t3 ← rd (el2 1 4 Y 2 IY)
  let t4 ← rd (el2 1 4 X 2 IX)
  wr (el2 1 4 Y 2 IY) (t3 +ᶠ ALPHA *ᶠ t4)
  let t5 ← rd (el2 1 4 Y 3 IY)
  let t6 ← rd (el2 1 4 X 3 IX)
  wr (el2 1 4 Y 3 IY) (t5 +ᶠ ALPHA *ᶠ t6)
  let t7 ← rd (el2 1 4 Y 4 IY)
  let t8 ← rd (el2 1 4 X 4 IX)
  wr (el2 1 4 Y 4 IY) (t7 +ᶠ ALPHA *ᶠ t8)
  let IX ← i32 (IX + INCX)
  let IY ← i32 (IY + INCY)
  pure (IX, IY)

/-- With 32-bit index arithmetic: `src/hblas/fortran/hblas1/haxpydh.f:21-43`. -/
def haxpydh_if21 (ALPHA : F) (INCX : Int) (INCY : Int) (N : Int) (X : Int) (Y : Int) : Prog F (Unit) := do
  if (decide (INCX = 1)) && (decide (INCY = 1)) then
    forN (N).toNat (fun i => haxpydh_10_I ALPHA X Y ((i : Int) + 1))
    pure ()
  else
    let IX : Int := 1
    let IY : Int := 1
    let r ← (do
      if decide (INCX < 0) then
        let c1 ← i32 (-N)
        let c2 ← i32 (c1 + 1)
        let c3 ← i32 (c2 * INCX)
        let IX ← i32 (c3 + 1)
        pure IX
      else
        pure IX : Prog F (Int))
    let IX : Int := r
    let r ← (do
      if decide (INCY < 0) then
        let c1 ← i32 (-N)
        let c2 ← i32 (c1 + 1)
        let c3 ← i32 (c2 * INCY)
        let IY ← i32 (c3 + 1)
        pure IY
      else
        pure IY : Prog F (Int))
    let IY : Int := r
    let r ← foldN (N).toNat (fun i (s : Int × Int) => haxpydh_20_I ALPHA INCX INCY X Y ((i : Int) + 1) s.1 s.2) (IX, IY)
    pure ()

/-- With 32-bit index arithmetic: `src/hblas/fortran/hblas1/haxpydh.f:9-45`. -/
def haxpydh (SIDE : Char) (N : Int) (ALPHA : F) (X : Int) (INCX : Int) (Y : Int) (INCY : Int) : Prog F (Unit) := do
  if decide (N ≤ 0) then
    pure ()
  else
    if ALPHA ==ᶠ zero then
      pure ()
    else
      haxpydh_if21 ALPHA INCX INCY N X Y
      pure ()

/-- With 32-bit index arithmetic: `src/hblas/fortran/hblas1/haxpych.f:26-32`, body of `DO 10 I`. -/
def haxpych_10_I (ALPHA : Cplx F) (X : Int) (Y : Int) (I : Int)  : Prog F (Unit) := do
  let t1 ← rd (el2 1 4 Y 1 I)
  let t2 ← rd (el2 1 4 X 1 I)
  let t3 ← rd (el2 1 4 X 2 I)
  wr (el2 1 4 Y 1 I) (t1 +ᶠ ALPHA.re *ᶠ t2 -ᶠ ALPHA.im *ᶠ t3)
  let t4 ← rd (el2 1 4 Y 2 I)
  let t5 ← rd (el2 1 4 X 2 I)
  let t6 ← rd (el2 1 4 X 1 I)
  wr (el2 1 4 Y 2 I) (t4 +ᶠ ALPHA.re *ᶠ t5 +ᶠ ALPHA.im *ᶠ t6)
  let t7 ← rd (el2 1 4 Y 3 I)
  let t8 ← rd (el2 1 4 X 3 I)
  let t9 ← rd (el2 1 4 X 4 I)
  wr (el2 1 4 Y 3 I) (t7 +ᶠ ALPHA.re *ᶠ t8 -ᶠ ALPHA.im *ᶠ t9)
  let t10 ← rd (el2 1 4 Y 4 I)
  let t11 ← rd (el2 1 4 X 4 I)
  let t12 ← rd (el2 1 4 X 3 I)
  wr (el2 1 4 Y 4 I) (t10 +ᶠ ALPHA.re *ᶠ t11 +ᶠ ALPHA.im *ᶠ t12)
  pure ()

/-- With 32-bit index arithmetic: `src/hblas/fortran/hblas1/haxpych.f:34-40`, body of `DO 20 I`. -/
def haxpych_20_I (ALPHA : Cplx F) (X : Int) (Y : Int) (I : Int)  : Prog F (Unit) := do
  let t1 ← rd (el2 1 4 Y 1 I)
  let t2 ← rd (el2 1 4 X 1 I)
  let t3 ← rd (el2 1 4 X 2 I)
  wr (el2 1 4 Y 1 I) (t1 +ᶠ t2 *ᶠ ALPHA.re -ᶠ t3 *ᶠ ALPHA.im)
  let t4 ← rd (el2 1 4 Y 2 I)
  let t5 ← rd (el2 1 4 X 1 I)
  let t6 ← rd (el2 1 4 X 2 I)
  wr (el2 1 4 Y 2 I) (t4 +ᶠ t5 *ᶠ ALPHA.im +ᶠ t6 *ᶠ ALPHA.re)
  let t7 ← rd (el2 1 4 Y 3 I)
  let t8 ← rd (el2 1 4 X 3 I)
  let t9 ← rd (el2 1 4 X 4 I)
  wr (el2 1 4 Y 3 I) (t7 +ᶠ t8 *ᶠ ALPHA.re +ᶠ t9 *ᶠ ALPHA.im)
  let t10 ← rd (el2 1 4 Y 4 I)
  let t11 ← rd (el2 1 4 X 3 I)
  let t12 ← rd (el2 1 4 X 4 I)
  wr (el2 1 4 Y 4 I) (t10 -ᶠ t11 *ᶠ ALPHA.im +ᶠ t12 *ᶠ ALPHA.re)
  pure ()

/-- With 32-bit index arithmetic: `src/hblas/fortran/hblas1/haxpych.f:25-41`. -/
def haxpych_if25 (ALPHA : Cplx F) (MRIGHT : Bool) (N : Int) (X : Int) (Y : Int) : Prog F (Unit) := do
  if !MRIGHT then
    forN (N).toNat (fun i => haxpych_10_I ALPHA X Y ((i : Int) + 1))
    pure ()
  else
    forN (N).toNat (fun i => haxpych_20_I ALPHA X Y ((i : Int) + 1))
    pure ()

/-- With 32-bit index arithmetic: `src/hblas/fortran/hblas1/haxpych.f:50-59`, body of `DO 30 I`. -/
def haxpych_30_I (ALPHA : Cplx F) (INCX : Int) (INCY : Int) (X : Int) (Y : Int) (I : Int) (IX : Int) (IY : Int) : Prog F (Int × Int) := do
  let t1 ← rd (el2 1 4 Y 1 IY)
  let t2 ← rd (el2 1 4 X 1 IX)
  let t3 ← rd (el2 1 4 X 2 IX)
  wr (el2 1 4 Y 1 IY) (t1 +ᶠ ALPHA.re *ᶠ t2 -ᶠ ALPHA.im *ᶠ t3)
  let t4 ← rd (el2 1 4 Y 2 IY)
  let t5 ← rd (el2 1 4 X 2 IX)
  let t6 ← rd (el2 1 4 X 1 IX)
  wr (el2 1 4 Y 2 IY) (t4 +ᶠ ALPHA.re *ᶠ t5 +ᶠ ALPHA.im *ᶠ t6)
  let t7 ← rd (el2 1 4 Y 3 IY)
  let t8 ← rd (el2 1 4 X 3 IX)
  let t9 ← rd (el2 1 4 X 4 IX)
  wr (el2 1 4 Y 3 IY) (t7 +ᶠ ALPHA.re *ᶠ t8 -ᶠ ALPHA.im *ᶠ t9)
  let t10 ← rd (el2 1 4 Y 4 IY)
  let t11 ← rd (el2 1 4 X 4 IX)
  let t12 ← rd (el2 1 4 X 3 IX)
  wr (el2 1 4 Y 4 IY) (t10 +ᶠ ALPHA.re *ᶠ t11 +ᶠ ALPHA.im *ᶠ t12)
  let IX ← i32 (IX + INCX)
  let IY ← i32 (IY + INCY)
  pure (IX, IY)

/-- With 32-bit index arithmetic: `src/hblas/fortran/hblas1/haxpych.f:61-70`, body of `DO 40 I`. -/
def haxpych_40_I (ALPHA : Cplx F) (INCX : Int) (INCY : Int) (X : Int) (Y : Int) (I : Int) (IX : Int) (IY : Int) : Prog F (Int × Int) := do
  let t1 ← rd (el2 1 4 Y 1 IY)
  let t2 ← rd (el2 1 4 X 1 IX)
  let t3 ← rd (el2 1 4 X 2 IX)
  wr (el2 1 4 Y 1 IY) (t1 +ᶠ t2 *ᶠ ALPHA.re -ᶠ t3 *ᶠ ALPHA.im)
  let t4 ← rd (el2 1 4 Y 2 IY)
  let t5 ← rd (el2 1 4 X 1 IX)
  let t6 ← rd (el2 1 4 X 2 IX)
  wr (el2 1 4 Y 2 IY) (t4 +ᶠ t5 *ᶠ ALPHA.im +ᶠ t6 *ᶠ ALPHA.re)
  let t7 ← rd (el2 1 4 Y 3 IY)
  let t8 ← rd (el2 1 4 X 3 IX)
  let t9 ← rd (el2 1 4 X 4 IX)
  wr (el2 1 4 Y 3 IY) (t7 +ᶠ t8 *ᶠ ALPHA.re +ᶠ t9 *ᶠ ALPHA.im)
  let t10 ← rd (el2 1 4 Y 4 IY)
  let t11 ← rd (el2 1 4 X 3 IX)
  let t12 ← rd (el2 1 4 X 4 IX)
  wr (el2 1 4 Y 4 IY) (t10 -ᶠ t11 *ᶠ ALPHA.im +ᶠ t12 *ᶠ ALPHA.re)
  let IX ← i32 (IX + INCX)
  let IY ← i32 (IY + INCY)
  pure (IX, IY)

/-- With 32-bit index arithmetic: `src/hblas/fortran/hblas1/haxpych.f:49-71`. -/
def haxpych_if49 (ALPHA : Cplx F) (INCX : Int) (INCY : Int) (IX : Int) (IY : Int) (MRIGHT : Bool) (N : Int) (X : Int) (Y : Int) : Prog F (Unit) := do
  if !MRIGHT then
    let r ← foldN (N).toNat (fun i (s : Int × Int) => haxpych_30_I ALPHA INCX INCY X Y ((i : Int) + 1) s.1 s.2) (IX, IY)
    pure ()
  else
    let r ← foldN (N).toNat (fun i (s : Int × Int) => haxpych_40_I ALPHA INCX INCY X Y ((i : Int) + 1) s.1 s.2) (IX, IY)
    pure ()

/-- With 32-bit index arithmetic: `src/hblas/fortran/hblas1/haxpych.f:24-72`. -/
def haxpych_if24 (ALPHA : Cplx F) (INCX : Int) (INCY : Int) (MRIGHT : Bool) (N : Int) (X : Int) (Y : Int) : Prog F (Unit) := do
  if (decide (INCX = 1)) && (decide (INCY = 1)) then
    haxpych_if25 ALPHA MRIGHT N X Y
    pure ()
  else
    let IX : Int := 1
    let IY : Int := 1
    let r ← (do
      if decide (INCX < 0) then
        let c1 ← i32 (-N)
        let c2 ← i32 (c1 + 1)
        let c3 ← i32 (c2 * INCX)
        let IX ← i32 (c3 + 1)
        pure IX
      else
        pure IX : Prog F (Int))
    let IX : Int := r
    let r ← (do
      if decide (INCY < 0) then
        let c1 ← i32 (-N)
        let c2 ← i32 (c1 + 1)
        let c3 ← i32 (c2 * INCY)
        let IY ← i32 (c3 + 1)
        pure IY
      else
        pure IY : Prog F (Int))
    let IY : Int := r
    haxpych_if49 ALPHA INCX INCY IX IY MRIGHT N X Y
    pure ()

/-- With 32-bit index arithmetic: `src/hblas/fortran/hblas1/haxpych.f:9-74`. -/
def haxpych (SIDE : Char) (N : Int) (ALPHA : Cplx F) (X : Int) (INCX : Int) (Y : Int) (INCY : Int) : Prog F (Unit) := do
  if decide (N ≤ 0) then
    pure ()
  else
    if (ALPHA.re ==ᶠ zero) && (ALPHA.im ==ᶠ zero) then
      pure ()
    else
      let MRIGHT : Bool := lsame 'R' SIDE
      haxpych_if24 ALPHA INCX INCY MRIGHT N X Y
      pure ()

/-- With 32-bit index arithmetic: `src/hblas/fortran/hblas1/haxpyhh.f:27-40`, body of `DO 10 I`. -/
def haxpyhh_10_I (ALPHA : Quat F) (X : Int) (Y : Int) (I : Int)  : Prog F (Unit) := do
  let t1 ← rd (el2 1 4 Y 1 I)
  let t2 ← rd (el2 1 4 X 1 I)
  let t3 ← rd (el2 1 4 X 2 I)
  let t4 ← rd (el2 1 4 X 3 I)
  let t5 ← rd (el2 1 4 X 4 I)
  wr (el2 1 4 Y 1 I) (t1 +ᶠ ALPHA.re *ᶠ t2 -ᶠ ALPHA.i *ᶠ t3 -ᶠ ALPHA.j *ᶠ t4 -ᶠ ALPHA.k *ᶠ t5)
  let t6 ← rd (el2 1 4 Y 2 I)
  let t7 ← rd (el2 1 4 X 2 I)
  let t8 ← rd (el2 1 4 X 1 I)
  let t9 ← rd (el2 1 4 X 4 I)
  let t10 ← rd (el2 1 4 X 3 I)
  wr (el2 1 4 Y 2 I) (t6 +ᶠ ALPHA.re *ᶠ t7 +ᶠ ALPHA.i *ᶠ t8 +ᶠ ALPHA.j *ᶠ t9 -ᶠ ALPHA.k *ᶠ t10)
  let t11 ← rd (el2 1 4 Y 3 I)
  let t12 ← rd (el2 1 4 X 3 I)
  let t13 ← rd (el2 1 4 X 4 I)
  let t14 ← rd (el2 1 4 X 1 I)
  let t15 ← rd (el2 1 4 X 2 I)
  wr (el2 1 4 Y 3 I) (t11 +ᶠ ALPHA.re *ᶠ t12 -ᶠ ALPHA.i *ᶠ t13 +ᶠ ALPHA.j *ᶠ t14 +ᶠ ALPHA.k *ᶠ t15)
  let t16 ← rd (el2 1 4 Y 4 I)
  let t17 ← rd (el2 1 4 X 4 I)
  let t18 ← rd (el2 1 4 X 3 I)
  let t19 ← rd (el2 1 4 X 2 I)
  let t20 ← rd (el2 1 4 X 1 I)
  wr (el2 1 4 Y 4 I) (t16 +ᶠ ALPHA.re *ᶠ t17 +ᶠ ALPHA.i *ᶠ t18 -ᶠ ALPHA.j *ᶠ t19 +ᶠ ALPHA.k *ᶠ t20)
  pure ()

/-- With 32-bit index arithmetic: `src/hblas/fortran/hblas1/haxpyhh.f:42-55`, body of `DO 20 I`. -/
def haxpyhh_20_I (ALPHA : Quat F) (X : Int) (Y : Int) (I : Int)  : Prog F (Unit) := do
  let t1 ← rd (el2 1 4 Y 1 I)
  let t2 ← rd (el2 1 4 X 1 I)
  let t3 ← rd (el2 1 4 X 2 I)
  let t4 ← rd (el2 1 4 X 3 I)
  let t5 ← rd (el2 1 4 X 4 I)
  wr (el2 1 4 Y 1 I) (t1 +ᶠ t2 *ᶠ ALPHA.re -ᶠ t3 *ᶠ ALPHA.i -ᶠ t4 *ᶠ ALPHA.j -ᶠ t5 *ᶠ ALPHA.k)
  let t6 ← rd (el2 1 4 Y 2 I)
  let t7 ← rd (el2 1 4 X 1 I)
  let t8 ← rd (el2 1 4 X 2 I)
  let t9 ← rd (el2 1 4 X 3 I)
  let t10 ← rd (el2 1 4 X 4 I)
  wr (el2 1 4 Y 2 I) (t6 +ᶠ t7 *ᶠ ALPHA.i +ᶠ t8 *ᶠ ALPHA.re +ᶠ t9 *ᶠ ALPHA.k -ᶠ t10 *ᶠ ALPHA.j)
  let t11 ← rd (el2 1 4 Y 3 I)
  let t12 ← rd (el2 1 4 X 1 I)
  let t13 ← rd (el2 1 4 X 2 I)
  let t14 ← rd (el2 1 4 X 3 I)
  let t15 ← rd (el2 1 4 X 4 I)
  wr (el2 1 4 Y 3 I) (t11 +ᶠ t12 *ᶠ ALPHA.j -ᶠ t13 *ᶠ ALPHA.k +ᶠ t14 *ᶠ ALPHA.re +ᶠ t15 *ᶠ ALPHA.i)
  let t16 ← rd (el2 1 4 Y 4 I)
  let t17 ← rd (el2 1 4 X 1 I)
  let t18 ← rd (el2 1 4 X 2 I)
  let t19 ← rd (el2 1 4 X 3 I)
  let t20 ← rd (el2 1 4 X 4 I)
  wr (el2 1 4 Y 4 I) (t16 +ᶠ t17 *ᶠ ALPHA.k +ᶠ t18 *ᶠ ALPHA.j -ᶠ t19 *ᶠ ALPHA.i +ᶠ t20 *ᶠ ALPHA.re)
  pure ()

/-- With 32-bit index arithmetic: `src/hblas/fortran/hblas1/haxpyhh.f:26-56`. -/
def haxpyhh_if26 (ALPHA : Quat F) (MRIGHT : Bool) (N : Int) (X : Int) (Y : Int) : Prog F (Unit) := do
  if !MRIGHT then
    forN (N).toNat (fun i => haxpyhh_10_I ALPHA X Y ((i : Int) + 1))
    pure ()
  else
    forN (N).toNat (fun i => haxpyhh_20_I ALPHA X Y ((i : Int) + 1))
    pure ()

/-- With 32-bit index arithmetic: `src/hblas/fortran/hblas1/haxpyhh.f:65-81`, body of `DO 30 I`. -/
def haxpyhh_30_I (ALPHA : Quat F) (INCX : Int) (INCY : Int) (X : Int) (Y : Int) (I : Int) (IX : Int) (IY : Int) : Prog F (Int × Int) := do
  let t1 ← rd (el2 1 4 Y 1 IY)
  let t2 ← rd (el2 1 4 X 1 IX)
  let t3 ← rd (el2 1 4 X 2 IX)
  let t4 ← rd (el2 1 4 X 3 IX)
  let t5 ← rd (el2 1 4 X 4 IX)
  wr (el2 1 4 Y 1 IY) (t1 +ᶠ ALPHA.re *ᶠ t2 -ᶠ ALPHA.i *ᶠ t3 -ᶠ ALPHA.j *ᶠ t4 -ᶠ ALPHA.k *ᶠ t5)
  let t6 ← rd (el2 1 4 Y 2 IY)
  let t7 ← rd (el2 1 4 X 2 IX)
  let t8 ← rd (el2 1 4 X 1 IX)
  let t9 ← rd (el2 1 4 X 4 IX)
  let t10 ← rd (el2 1 4 X 3 IX)
  wr (el2 1 4 Y 2 IY) (t6 +ᶠ ALPHA.re *ᶠ t7 +ᶠ ALPHA.i *ᶠ t8 +ᶠ ALPHA.j *ᶠ t9 -ᶠ ALPHA.k *ᶠ t10)
  let t11 ← rd (el2 1 4 Y 3 IY)
  let t12 ← rd (el2 1 4 X 3 IX)
  let t13 ← rd (el2 1 4 X 4 IX)
  let t14 ← rd (el2 1 4 X 1 IX)
  let t15 ← rd (el2 1 4 X 2 IX)
  wr (el2 1 4 Y 3 IY) (t11 +ᶠ ALPHA.re *ᶠ t12 -ᶠ ALPHA.i *ᶠ t13 +ᶠ ALPHA.j *ᶠ t14 +ᶠ ALPHA.k *ᶠ t15)
  let t16 ← rd (el2 1 4 Y 4 IY)
  let t17 ← rd (el2 1 4 X 4 IX)
  let t18 ← rd (el2 1 4 X 3 IX)
  let t19 ← rd (el2 1 4 X 2 IX)
  let t20 ← rd (el2 1 4 X 1 IX)
  wr (el2 1 4 Y 4 IY) (t16 +ᶠ ALPHA.re *ᶠ t17 +ᶠ ALPHA.i *ᶠ t18 -ᶠ ALPHA.j *ᶠ t19 +ᶠ ALPHA.k *ᶠ t20)
  let IX ← i32 (IX + INCX)
  let IY ← i32 (IY + INCY)
  pure (IX, IY)

/-- With 32-bit index arithmetic: `src/hblas/fortran/hblas1/haxpyhh.f:83-99`, body of `DO 40 I`. -/
def haxpyhh_40_I (ALPHA : Quat F) (INCX : Int) (INCY : Int) (X : Int) (Y : Int) (I : Int) (IX : Int) (IY : Int) : Prog F (Int × Int) := do
  let t1 ← rd (el2 1 4 Y 1 IY)
  let t2 ← rd (el2 1 4 X 1 IX)
  let t3 ← rd (el2 1 4 X 2 IX)
  let t4 ← rd (el2 1 4 X 3 IX)
  let t5 ← rd (el2 1 4 X 4 IX)
  wr (el2 1 4 Y 1 IY) (t1 +ᶠ t2 *ᶠ ALPHA.re -ᶠ t3 *ᶠ ALPHA.i -ᶠ t4 *ᶠ ALPHA.j -ᶠ t5 *ᶠ ALPHA.k)
  let t6 ← rd (el2 1 4 Y 2 IY)
  let t7 ← rd (el2 1 4 X 1 IX)
  let t8 ← rd (el2 1 4 X 2 IX)
  let t9 ← rd (el2 1 4 X 3 IX)
  let t10 ← rd (el2 1 4 X 4 IX)
  wr (el2 1 4 Y 2 IY) (t6 +ᶠ t7 *ᶠ ALPHA.i +ᶠ t8 *ᶠ ALPHA.re +ᶠ t9 *ᶠ ALPHA.k -ᶠ t10 *ᶠ ALPHA.j)
  let t11 ← rd (el2 1 4 Y 3 IY)
  let t12 ← rd (el2 1 4 X 1 IX)
  let t13 ← rd (el2 1 4 X 2 IX)
  let t14 ← rd (el2 1 4 X 3 IX)
  let t15 ← rd (el2 1 4 X 4 IX)
  wr (el2 1 4 Y 3 IY) (t11 +ᶠ t12 *ᶠ ALPHA.j -ᶠ t13 *ᶠ ALPHA.k +ᶠ t14 *ᶠ ALPHA.re +ᶠ t15 *ᶠ ALPHA.i)
  let t16 ← rd (el2 1 4 Y 4 IY)
  let t17 ← rd (el2 1 4 X 1 IX)
  let t18 ← rd (el2 1 4 X 2 IX)
  let t19 ← rd (el2 1 4 X 3 IX)
  let t20 ← rd (el2 1 4 X 4 IX)
  wr (el2 1 4 Y 4 IY) (t16 +ᶠ t17 *ᶠ ALPHA.k +ᶠ t18 *ᶠ ALPHA.j -ᶠ t19 *ᶠ ALPHA.i +ᶠ t20 *ᶠ ALPHA.re)
  let IX ← i32 (IX + INCX)
  let IY ← i32 (IY + INCY)
  pure (IX, IY)

/-- With 32-bit index arithmetic: `src/hblas/fortran/hblas1/haxpyhh.f:64-100`. -/
def haxpyhh_if64 (ALPHA : Quat F) (INCX : Int) (INCY : Int) (IX : Int) (IY : Int) (MRIGHT : Bool) (N : Int) (X : Int) (Y : Int) : Prog F (Unit) := do
  if !MRIGHT then
    let r ← foldN (N).toNat (fun i (s : Int × Int) => haxpyhh_30_I ALPHA INCX INCY X Y ((i : Int) + 1) s.1 s.2) (IX, IY)
    pure ()
  else
    let r ← foldN (N).toNat (fun i (s : Int × Int) => haxpyhh_40_I ALPHA INCX INCY X Y ((i : Int) + 1) s.1 s.2) (IX, IY)
    pure ()

/-- With 32-bit index arithmetic: `src/hblas/fortran/hblas1/haxpyhh.f:25-101`. -/
def haxpyhh_if25 (ALPHA : Quat F) (INCX : Int) (INCY : Int) (MRIGHT : Bool) (N : Int) (X : Int) (Y : Int) : Prog F (Unit) := do
  if (decide (INCX = 1)) && (decide (INCY = 1)) then
    haxpyhh_if26 ALPHA MRIGHT N X Y
    pure ()
  else
    let IX : Int := 1
    let IY : Int := 1
    let r ← (do
      if decide (INCX < 0) then
        let c1 ← i32 (-N)
        let c2 ← i32 (c1 + 1)
        let c3 ← i32 (c2 * INCX)
        let IX ← i32 (c3 + 1)
        pure IX
      else
        pure IX : Prog F (Int))
    let IX : Int := r
    let r ← (do
      if decide (INCY < 0) then
        let c1 ← i32 (-N)
        let c2 ← i32 (c1 + 1)
        let c3 ← i32 (c2 * INCY)
        let IY ← i32 (c3 + 1)
        pure IY
      else
        pure IY : Prog F (Int))
    let IY : Int := r
    haxpyhh_if64 ALPHA INCX INCY IX IY MRIGHT N X Y
    pure ()

/-- With 32-bit index arithmetic: `src/hblas/fortran/hblas1/haxpyhh.f:9-103`. -/
def haxpyhh (SIDE : Char) (N : Int) (ALPHA : Quat F) (X : Int) (INCX : Int) (Y : Int) (INCY : Int) : Prog F (Unit) := do
  if decide (N ≤ 0) then
    pure ()
  else
    if (((ALPHA.re ==ᶠ zero) && (ALPHA.i ==ᶠ zero)) && (ALPHA.j ==ᶠ zero)) && (ALPHA.k ==ᶠ zero) then
      pure ()
    else
      let MRIGHT : Bool := lsame 'R' SIDE
      haxpyhh_if25 ALPHA INCX INCY MRIGHT N X Y
      pure ()

/-- With 32-bit index arithmetic: `src/hblas/fortran/hblas1/hdotu.f:21-34`, body of `DO 10 I`. -/
def hdotu_10_I (X : Int) (Y : Int) (I : Int) (R1 : F) (R2 : F) (R3 : F) (R4 : F) : Prog F (F × F × F × F) := do
  let t1 ← rd (el2 1 4 X 1 I)
  let t2 ← rd (el2 1 4 Y 1 I)
  let t3 ← rd (el2 1 4 X 2 I)
  let t4 ← rd (el2 1 4 Y 2 I)
  let t5 ← rd (el2 1 4 X 3 I)
  let t6 ← rd (el2 1 4 Y 3 I)
  let t7 ← rd (el2 1 4 X 4 I)
  let t8 ← rd (el2 1 4 Y 4 I)
  let R1 : F := R1 +ᶠ t1 *ᶠ t2 -ᶠ t3 *ᶠ t4 -ᶠ t5 *ᶠ t6 -ᶠ t7 *ᶠ t8
  let t9 ← rd (el2 1 4 X 1 I)
  let t10 ← rd (el2 1 4 Y 2 I)
  let t11 ← rd (el2 1 4 X 2 I)
  let t12 ← rd (el2 1 4 Y 1 I)
  let t13 ← rd (el2 1 4 X 3 I)
  let t14 ← rd (el2 1 4 Y 4 I)
  let t15 ← rd (el2 1 4 X 4 I)
  let t16 ← rd (el2 1 4 Y 3 I)
  let R2 : F := R2 +ᶠ t9 *ᶠ t10 +ᶠ t11 *ᶠ t12 +ᶠ t13 *ᶠ t14 -ᶠ t15 *ᶠ t16
  let t17 ← rd (el2 1 4 X 1 I)
  let t18 ← rd (el2 1 4 Y 3 I)
  let t19 ← rd (el2 1 4 X 2 I)
  let t20 ← rd (el2 1 4 Y 4 I)
  let t21 ← rd (el2 1 4 X 3 I)
  let t22 ← rd (el2 1 4 Y 1 I)
  let t23 ← rd (el2 1 4 X 4 I)
  let t24 ← rd (el2 1 4 Y 2 I)
  let R3 : F := R3 +ᶠ t17 *ᶠ t18 -ᶠ t19 *ᶠ t20 +ᶠ t21 *ᶠ t22 +ᶠ t23 *ᶠ t24
  let t25 ← rd (el2 1 4 X 1 I)
  let t26 ← rd (el2 1 4 Y 4 I)
  let t27 ← rd (el2 1 4 X 2 I)
  let t28 ← rd (el2 1 4 Y 3 I)
  let t29 ← rd (el2 1 4 X 3 I)
  let t30 ← rd (el2 1 4 Y 2 I)
  let t31 ← rd (el2 1 4 X 4 I)
  let t32 ← rd (el2 1 4 Y 1 I)
  let R4 : F := R4 +ᶠ t25 *ᶠ t26 +ᶠ t27 *ᶠ t28 -ᶠ t29 *ᶠ t30 +ᶠ t31 *ᶠ t32
  pure (R1, R2, R3, R4)

/-- With 32-bit index arithmetic: `src/hblas/fortran/hblas1/hdotu.f:42-57`, body of `DO 20 I`. -/
def hdotu_20_I (INCX : Int) (INCY : Int) (X : Int) (Y : Int) (I : Int) (IX : Int) (IY : Int) (R1 : F) (R2 : F) (R3 : F) (R4 : F) : Prog F (Int × Int × F × F × F × F) := do
  let t1 ← rd (el2 1 4 X 1 IX)
  let t2 ← rd (el2 1 4 Y 1 IY)
  let t3 ← rd (el2 1 4 X 2 IX)
  let t4 ← rd (el2 1 4 Y 2 IY)
  let t5 ← rd (el2 1 4 X 3 IX)
  let t6 ← rd (el2 1 4 Y 3 IY)
  let t7 ← rd (el2 1 4 X 4 IX)
  let t8 ← rd (el2 1 4 Y 4 IY)
  let R1 : F := R1 +ᶠ t1 *ᶠ t2 -ᶠ t3 *ᶠ t4 -ᶠ t5 *ᶠ t6 -ᶠ t7 *ᶠ t8
  let t9 ← rd (el2 1 4 X 1 IX)
  let t10 ← rd (el2 1 4 Y 2 IY)
  let t11 ← rd (el2 1 4 X 2 IX)
  let t12 ← rd (el2 1 4 Y 1 IY)
  let t13 ← rd (el2 1 4 X 3 IX)
  let t14 ← rd (el2 1 4 Y 4 IY)
  let t15 ← rd (el2 1 4 X 4 IX)
  let t16 ← rd (el2 1 4 Y 3 IY)
  let R2 : F := R2 +ᶠ t9 *ᶠ t10 +ᶠ t11 *ᶠ t12 +ᶠ t13 *ᶠ t14 -ᶠ t15 *ᶠ t16
  let t17 ← rd (el2 1 4 X 1 IX)
  let t18 ← rd (el2 1 4 Y 3 IY)
  let t19 ← rd (el2 1 4 X 2 IX)
  let t20 ← rd (el2 1 4 Y 4 IY)
  let t21 ← rd (el2 1 4 X 3 IX)
  let t22 ← rd (el2 1 4 Y 1 IY)
  let t23 ← rd (el2 1 4 X 4 IX)
  let t24 ← rd (el2 1 4 Y 2 IY)
  let R3 : F := R3 +ᶠ t17 *ᶠ t18 -ᶠ t19 *ᶠ t20 +ᶠ t21 *ᶠ t22 +ᶠ t23 *ᶠ t24
  let t25 ← rd (el2 1 4 X 1 IX)
  let t26 ← rd (el2 1 4 Y 4 IY)
  let t27 ← rd (el2 1 4 X 2 IX)
  let t28 ← rd (el2 1 4 Y 3 IY)
  let t29 ← rd (el2 1 4 X 3 IX)
  let t30 ← rd (el2 1 4 Y 2 IY)
  let t31 ← rd (el2 1 4 X 4 IX)
  let t32 ← rd (el2 1 4 Y 1 IY)
  let R4 : F := R4 +ᶠ t25 *ᶠ t26 +ᶠ t27 *ᶠ t28 -ᶠ t29 *ᶠ t30 +ᶠ t31 *ᶠ t32
  let IX ← i32 (IX + INCX)
  let IY ← i32 (IY + INCY)
  pure (IX, IY, R1, R2, R3, R4)

/-- With 32-bit index arithmetic: `src/hblas/fortran/hblas1/hdotu.f:20-58`. -/
def hdotu_if20 (INCX : Int) (INCY : Int) (N : Int) (R1 : F) (R2 : F) (R3 : F) (R4 : F) (X : Int) (Y : Int) : Prog F (F × F × F × F) := do
  if (decide (INCX = 1)) && (decide (INCY = 1)) then
    let r ← foldN (N).toNat (fun i (s : F × F × F × F) => hdotu_10_I X Y ((i : Int) + 1) s.1 s.2.1 s.2.2.1 s.2.2.2) (R1, R2, R3, R4)
    let R1 : F := r.1
    let R2 : F := r.2.1
    let R3 : F := r.2.2.1
    let R4 : F := r.2.2.2
    pure (R1, R2, R3, R4)
  else
    let IX : Int := 1
    let IY : Int := 1
    let r ← (do
      if decide (INCX < 0) then
        let c1 ← i32 (-N)
        let c2 ← i32 (c1 + 1)
        let c3 ← i32 (c2 * INCX)
        let IX ← i32 (c3 + 1)
        pure IX
      else
        pure IX : Prog F (Int))
    let IX : Int := r
    let r ← (do
      if decide (INCY < 0) then
        let c1 ← i32 (-N)
        let c2 ← i32 (c1 + 1)
        let c3 ← i32 (c2 * INCY)
        let IY ← i32 (c3 + 1)
        pure IY
      else
        pure IY : Prog F (Int))
    let IY : Int := r
    let r ← foldN (N).toNat (fun i (s : Int × Int × F × F × F × F) => hdotu_20_I INCX INCY X Y ((i : Int) + 1) s.1 s.2.1 s.2.2.1 s.2.2.2.1 s.2.2.2.2.1 s.2.2.2.2.2) (IX, IY, R1, R2, R3, R4)
    let R1 : F := r.2.2.1
    let R2 : F := r.2.2.2.1
    let R3 : F := r.2.2.2.2.1
    let R4 : F := r.2.2.2.2.2
    pure (R1, R2, R3, R4)

/-- With 32-bit index arithmetic: `src/hblas/fortran/hblas1/hdotu.f:9-60`. -/
def hdotu (N : Int) (X : Int) (INCX : Int) (Y : Int) (INCY : Int) : Prog F (Quat F) := do
  let R1 : F := zero
  let R2 : F := zero
  let R3 : F := zero
  let R4 : F := zero
  if decide (N ≤ 0) then
    pure ⟨R1, R2, R3, R4⟩
  else
    let r ← hdotu_if20 INCX INCY N R1 R2 R3 R4 X Y
    let R1 : F := r.1
    let R2 : F := r.2.1
    let R3 : F := r.2.2.1
    let R4 : F := r.2.2.2
    pure ⟨R1, R2, R3, R4⟩

/-- With 32-bit index arithmetic: `src/hblas/fortran/hblas1/hdotc.f:21-34`, body of `DO 10 I`. -/
def hdotc_10_I (X : Int) (Y : Int) (I : Int) (R1 : F) (R2 : F) (R3 : F) (R4 : F) : Prog F (F × F × F × F) := do
  let t1 ← rd (el2 1 4 X 1 I)
  let t2 ← rd (el2 1 4 Y 1 I)
  let t3 ← rd (el2 1 4 X 2 I)
  let t4 ← rd (el2 1 4 Y 2 I)
  let t5 ← rd (el2 1 4 X 3 I)
  let t6 ← rd (el2 1 4 Y 3 I)
  let t7 ← rd (el2 1 4 X 4 I)
  let t8 ← rd (el2 1 4 Y 4 I)
  let R1 : F := R1 +ᶠ t1 *ᶠ t2 +ᶠ t3 *ᶠ t4 +ᶠ t5 *ᶠ t6 +ᶠ t7 *ᶠ t8
  let t9 ← rd (el2 1 4 X 1 I)
  let t10 ← rd (el2 1 4 Y 2 I)
  let t11 ← rd (el2 1 4 X 2 I)
  let t12 ← rd (el2 1 4 Y 1 I)
  let t13 ← rd (el2 1 4 X 3 I)
  let t14 ← rd (el2 1 4 Y 4 I)
  let t15 ← rd (el2 1 4 X 4 I)
  let t16 ← rd (el2 1 4 Y 3 I)
  let R2 : F := R2 +ᶠ t9 *ᶠ t10 -ᶠ t11 *ᶠ t12 -ᶠ t13 *ᶠ t14 +ᶠ t15 *ᶠ t16
  let t17 ← rd (el2 1 4 X 1 I)
  let t18 ← rd (el2 1 4 Y 3 I)
  let t19 ← rd (el2 1 4 X 2 I)
  let t20 ← rd (el2 1 4 Y 4 I)
  let t21 ← rd (el2 1 4 X 3 I)
  let t22 ← rd (el2 1 4 Y 1 I)
  let t23 ← rd (el2 1 4 X 4 I)
  let t24 ← rd (el2 1 4 Y 2 I)
  let R3 : F := R3 +ᶠ t17 *ᶠ t18 +ᶠ t19 *ᶠ t20 -ᶠ t21 *ᶠ t22 -ᶠ t23 *ᶠ t24
  let t25 ← rd (el2 1 4 X 1 I)
  let t26 ← rd (el2 1 4 Y 4 I)
  let t27 ← rd (el2 1 4 X 2 I)
  let t28 ← rd (el2 1 4 Y 3 I)
  let t29 ← rd (el2 1 4 X 3 I)
  let t30 ← rd (el2 1 4 Y 2 I)
  let t31 ← rd (el2 1 4 X 4 I)
  let t32 ← rd (el2 1 4 Y 1 I)
  let R4 : F := R4 +ᶠ t25 *ᶠ t26 -ᶠ t27 *ᶠ t28 +ᶠ t29 *ᶠ t30 -ᶠ t31 *ᶠ t32
  pure (R1, R2, R3, R4)

/-- With 32-bit index arithmetic: `src/hblas/fortran/hblas1/hdotc.f:42-57`, body of `DO 20 I`. -/
def hdotc_20_I (INCX : Int) (INCY : Int) (X : Int) (Y : Int) (I : Int) (IX : Int) (IY : Int) (R1 : F) (R2 : F) (R3 : F) (R4 : F) : Prog F (Int × Int × F × F × F × F) := do
  let t1 ← rd (el2 1 4 X 1 IX)
  let t2 ← rd (el2 1 4 Y 1 IY)
  let t3 ← rd (el2 1 4 X 2 IX)
  let t4 ← rd (el2 1 4 Y 2 IY)
  let t5 ← rd (el2 1 4 X 3 IX)
  let t6 ← rd (el2 1 4 Y 3 IY)
  let t7 ← rd (el2 1 4 X 4 IX)
  let t8 ← rd (el2 1 4 Y 4 IY)
  let R1 : F := R1 +ᶠ t1 *ᶠ t2 +ᶠ t3 *ᶠ t4 +ᶠ t5 *ᶠ t6 +ᶠ t7 *ᶠ t8
  let t9 ← rd (el2 1 4 X 1 IX)
  let t10 ← rd (el2 1 4 Y 2 IY)
  let t11 ← rd (el2 1 4 X 2 IX)
  let t12 ← rd (el2 1 4 Y 1 IY)
  let t13 ← rd (el2 1 4 X 3 IX)
  let t14 ← rd (el2 1 4 Y 4 IY)
  let t15 ← rd (el2 1 4 X 4 IX)
  let t16 ← rd (el2 1 4 Y 3 IY)
  let R2 : F := R2 +ᶠ t9 *ᶠ t10 -ᶠ t11 *ᶠ t12 -ᶠ t13 *ᶠ t14 +ᶠ t15 *ᶠ t16
  let t17 ← rd (el2 1 4 X 1 IX)
  let t18 ← rd (el2 1 4 Y 3 IY)
  let t19 ← rd (el2 1 4 X 2 IX)
  let t20 ← rd (el2 1 4 Y 4 IY)
  let t21 ← rd (el2 1 4 X 3 IX)
  let t22 ← rd (el2 1 4 Y 1 IY)
  let t23 ← rd (el2 1 4 X 4 IX)
  let t24 ← rd (el2 1 4 Y 2 IY)
  let R3 : F := R3 +ᶠ t17 *ᶠ t18 +ᶠ t19 *ᶠ t20 -ᶠ t21 *ᶠ t22 -ᶠ t23 *ᶠ t24
  let t25 ← rd (el2 1 4 X 1 IX)
  let t26 ← rd (el2 1 4 Y 4 IY)
  let t27 ← rd (el2 1 4 X 2 IX)
  let t28 ← rd (el2 1 4 Y 3 IY)
  let t29 ← rd (el2 1 4 X 3 IX)
  let t30 ← rd (el2 1 4 Y 2 IY)
  let t31 ← rd (el2 1 4 X 4 IX)
  let t32 ← rd (el2 1 4 Y 1 IY)
  let R4 : F := R4 +ᶠ t25 *ᶠ t26 -ᶠ t27 *ᶠ t28 +ᶠ t29 *ᶠ t30 -ᶠ t31 *ᶠ t32
  let IX ← i32 (IX + INCX)
  let IY ← i32 (IY + INCY)
  pure (IX, IY, R1, R2, R3, R4)

/-- With 32-bit index arithmetic: `src/hblas/fortran/hblas1/hdotc.f:20-58`. -/
def hdotc_if20 (INCX : Int) (INCY : Int) (N : Int) (R1 : F) (R2 : F) (R3 : F) (R4 : F) (X : Int) (Y : Int) : Prog F (F × F × F × F) := do
  if (decide (INCX = 1)) && (decide (INCY = 1)) then
    let r ← foldN (N).toNat (fun i (s : F × F × F × F) => hdotc_10_I X Y ((i : Int) + 1) s.1 s.2.1 s.2.2.1 s.2.2.2) (R1, R2, R3, R4)
    let R1 : F := r.1
    let R2 : F := r.2.1
    let R3 : F := r.2.2.1
    let R4 : F := r.2.2.2
    pure (R1, R2, R3, R4)
  else
    let IX : Int := 1
    let IY : Int := 1
    let r ← (do
      if decide (INCX < 0) then
        let c1 ← i32 (-N)
        let c2 ← i32 (c1 + 1)
        let c3 ← i32 (c2 * INCX)
        let IX ← i32 (c3 + 1)
        pure IX
      else
        pure IX : Prog F (Int))
    let IX : Int := r
    let r ← (do
      if decide (INCY < 0) then
        let c1 ← i32 (-N)
        let c2 ← i32 (c1 + 1)
        let c3 ← i32 (c2 * INCY)
        let IY ← i32 (c3 + 1)
        pure IY
      else
        pure IY : Prog F (Int))
    let IY : Int := r
    let r ← foldN (N).toNat (fun i (s : Int × Int × F × F × F × F) => hdotc_20_I INCX INCY X Y ((i : Int) + 1) s.1 s.2.1 s.2.2.1 s.2.2.2.1 s.2.2.2.2.1 s.2.2.2.2.2) (IX, IY, R1, R2, R3, R4)
    let R1 : F := r.2.2.1
    let R2 : F := r.2.2.2.1
    let R3 : F := r.2.2.2.2.1
    let R4 : F := r.2.2.2.2.2
    pure (R1, R2, R3, R4)

/-- With 32-bit index arithmetic: `src/hblas/fortran/hblas1/hdotc.f:9-60`. -/
def hdotc (N : Int) (X : Int) (INCX : Int) (Y : Int) (INCY : Int) : Prog F (Quat F) := do
  let R1 : F := zero
  let R2 : F := zero
  let R3 : F := zero
  let R4 : F := zero
  if decide (N ≤ 0) then
    pure ⟨R1, R2, R3, R4⟩
  else
    let r ← hdotc_if20 INCX INCY N R1 R2 R3 R4 X Y
    let R1 : F := r.1
    let R2 : F := r.2.1
    let R3 : F := r.2.2.1
    let R4 : F := r.2.2.2
    pure ⟨R1, R2, R3, R4⟩

end Haxx.F32
