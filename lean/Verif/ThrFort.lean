import Verif.ThrPrim
import Verif.Fortran
import Verif.FHblas1
import Verif.FGer
import Verif.FUtil
import Verif.Util
import Verif.FGemvdd
import Verif.FGemvdz
import Verif.FGemvdh
import Verif.FGemvzd
import Verif.FGemvzz
import Verif.FGemvzh
import Verif.FGemvhd
import Verif.FGemvhz
import Verif.FGemvhh

/-!
# Threads: Fortran, FHblas1, FGer, FUtil, Util, FGemvdd, FGemvdz, FGemvdh, FGemvzd, FGemvzz, FGemvzh, FGemvhd, FGemvhz, FGemvhh

Generated by `tools/gen_thr.py` from the definitions of the main model: every definition has the text of its
namesake, read with single memory accesses (`Haxx.Thr.Prog`); `run_…` says that its sequential meaning is the namesake.
-/

set_option linter.unusedVariables false
set_option linter.unusedSectionVars false
set_option linter.unusedSimpArgs false

namespace Haxx.Thr
open Arith

section
variable {F : Type}
/-- As `Haxx.uninit`, Reading a variable that was never assigned. -/
def uninit {α : Type} : Prog F α := fault .uninit

@[thr] theorem run_uninit {α : Type} :
    (Thr.uninit  (F := F) (α := α)).run = Haxx.uninit  (F := F) (α := α) := by
  simp only [Thr.uninit, Haxx.uninit, thr]

/-- As `Haxx.rdC`, Read a `COMPLEX*16` at cell address `p`. -/
def rdC (p : Int) : Prog F (Cplx F) := do
  let a ← rd p
  let b ← rd (p+1)
  pure ⟨a, b⟩

@[thr] theorem run_rdC (p : Int) :
    (Thr.rdC p (F := F)).run = Haxx.rdC p (F := F) := by
  simp only [Thr.rdC, Haxx.rdC, thr]

/-- As `Haxx.wrC`, Write a `COMPLEX*16` at cell address `p`. -/
def wrC (p : Int) (z : Cplx F) : Prog F Unit := do
  wr p z.re
  wr (p+1) z.im

@[thr] theorem run_wrC (p : Int) (z : Cplx F) :
    (Thr.wrC p z (F := F)).run = Haxx.wrC p z (F := F) := by
  simp only [Thr.wrC, Haxx.wrC, thr]

end
section
variable {F : Type} [Arith F]
end
-- end of Fortran

variable {F : Type} [Arith F] [ArithEq F]
/-- As `Haxx.hscald_10_I`, `src/hblas/fortran/hblas1/hscald.f:22-27`, body of `DO 10 I`. -/
def hscald_10_I (ALPHA : F) (X : Int) (I : Int)  : Prog F (Unit) := do
  let t1 ← rd (el2 1 4 X 1 I)
  wr (el2 1 4 X 1 I) (ALPHA *ᶠ t1)
  let t2 ← rd (el2 1 4 X 2 I)
  wr (el2 1 4 X 2 I) (ALPHA *ᶠ t2)
  let t3 ← rd (el2 1 4 X 3 I)
  wr (el2 1 4 X 3 I) (ALPHA *ᶠ t3)
  let t4 ← rd (el2 1 4 X 4 I)
  wr (el2 1 4 X 4 I) (ALPHA *ᶠ t4)
  pure ()

@[thr] theorem run_hscald_10_I (ALPHA : F) (X : Int) (I : Int) :
    (Thr.hscald_10_I ALPHA X I (F := F)).run = Haxx.hscald_10_I ALPHA X I (F := F) := by
  simp only [Thr.hscald_10_I, Haxx.hscald_10_I, thr]

/-- As `Haxx.hscald_20_I`, `src/hblas/fortran/hblas1/hscald.f:33-40`, body of `DO 20 I`. -/
def hscald_20_I (ALPHA : F) (INCX : Int) (X : Int) (I : Int) (IX : Int) : Prog F (Int) := do
  let t1 ← rd (el2 1 4 X 1 IX)
  wr (el2 1 4 X 1 IX) (ALPHA *ᶠ t1)
  let t2 ← rd (el2 1 4 X 2 IX)
  wr (el2 1 4 X 2 IX) (ALPHA *ᶠ t2)
  let t3 ← rd (el2 1 4 X 3 IX)
  wr (el2 1 4 X 3 IX) (ALPHA *ᶠ t3)
  let t4 ← rd (el2 1 4 X 4 IX)
  wr (el2 1 4 X 4 IX) (ALPHA *ᶠ t4)
  let IX : Int := IX + INCX
  pure IX

@[thr] theorem run_hscald_20_I (ALPHA : F) (INCX : Int) (X : Int) (I : Int) (IX : Int) :
    (Thr.hscald_20_I ALPHA INCX X I IX (F := F)).run = Haxx.hscald_20_I ALPHA INCX X I IX (F := F) := by
  simp only [Thr.hscald_20_I, Haxx.hscald_20_I, thr]

/-- As `Haxx.hscald_if21`, `src/hblas/fortran/hblas1/hscald.f:21-41`. -/
def hscald_if21 (ALPHA : F) (INCX : Int) (N : Int) (X : Int) : Prog F (Unit) := do
  if decide (INCX = 1) then
    forN (N).toNat (fun i => hscald_10_I ALPHA X ((i : Int) + 1))
    pure ()
  else
    let IX : Int := 1
    let r ← (do
      if decide (INCX < 0) then
        let IX : Int := ((-N) + 1) * INCX + 1
        pure IX
      else
        pure IX : Prog F (Int))
    let IX : Int := r
    let r ← foldN (N).toNat (fun i (s : Int) => hscald_20_I ALPHA INCX X ((i : Int) + 1) s) IX
    pure ()

@[thr] theorem run_hscald_if21 (ALPHA : F) (INCX : Int) (N : Int) (X : Int) :
    (Thr.hscald_if21 ALPHA INCX N X (F := F)).run = Haxx.hscald_if21 ALPHA INCX N X (F := F) := by
  simp only [Thr.hscald_if21, Haxx.hscald_if21, thr]

/-- As `Haxx.hscald`, `src/hblas/fortran/hblas1/hscald.f:9-43`. -/
def hscald (SIDE : Char) (N : Int) (ALPHA : F) (X : Int) (INCX : Int) : Prog F (Unit) := do
  if decide (N ≤ 0) then
    pure ()
  else
    if ALPHA ==ᶠ zero then
      pure ()
    else
      hscald_if21 ALPHA INCX N X
      pure ()

@[thr] theorem run_hscald (SIDE : Char) (N : Int) (ALPHA : F) (X : Int) (INCX : Int) :
    (Thr.hscald SIDE N ALPHA X INCX (F := F)).run = Haxx.hscald SIDE N ALPHA X INCX (F := F) := by
  simp only [Thr.hscald, Haxx.hscald, thr]

/-- As `Haxx.hscalc_10_I`, `src/hblas/fortran/hblas1/hscalc.f:28-32`, body of `DO 10 I`. -/
def hscalc_10_I (ALPHA : Cplx F) (X : Int) (I : Int)  : Prog F (Unit) := do
  let t1 ← rdC (el2 2 2 X 1 I)
  wrC (el2 2 2 X 1 I) (ALPHA *ᶜ t1)
  let t2 ← rdC (el2 2 2 X 2 I)
  wrC (el2 2 2 X 2 I) (ALPHA *ᶜ t2)
  pure ()

@[thr] theorem run_hscalc_10_I (ALPHA : Cplx F) (X : Int) (I : Int) :
    (Thr.hscalc_10_I ALPHA X I (F := F)).run = Haxx.hscalc_10_I ALPHA X I (F := F) := by
  simp only [Thr.hscalc_10_I, Haxx.hscalc_10_I, thr]

/-- As `Haxx.hscalc_20_I`, `src/hblas/fortran/hblas1/hscalc.f:34-38`, body of `DO 20 I`. -/
def hscalc_20_I (ALPHA : Cplx F) (X : Int) (I : Int)  : Prog F (Unit) := do
  let t1 ← rdC (el2 2 2 X 1 I)
  wrC (el2 2 2 X 1 I) (t1 *ᶜ ALPHA)
  let t2 ← rdC (el2 2 2 X 2 I)
  wrC (el2 2 2 X 2 I) (t2 *ᶜ Cplx.conj ALPHA)
  pure ()

@[thr] theorem run_hscalc_20_I (ALPHA : Cplx F) (X : Int) (I : Int) :
    (Thr.hscalc_20_I ALPHA X I (F := F)).run = Haxx.hscalc_20_I ALPHA X I (F := F) := by
  simp only [Thr.hscalc_20_I, Haxx.hscalc_20_I, thr]

/-- As `Haxx.hscalc_if27`, `src/hblas/fortran/hblas1/hscalc.f:27-39`. -/
def hscalc_if27 (ALPHA : Cplx F) (MRIGHT : Bool) (N : Int) (X : Int) : Prog F (Unit) := do
  if !MRIGHT then
    forN (N).toNat (fun i => hscalc_10_I ALPHA X ((i : Int) + 1))
    pure ()
  else
    forN (N).toNat (fun i => hscalc_20_I ALPHA X ((i : Int) + 1))
    pure ()

@[thr] theorem run_hscalc_if27 (ALPHA : Cplx F) (MRIGHT : Bool) (N : Int) (X : Int) :
    (Thr.hscalc_if27 ALPHA MRIGHT N X (F := F)).run = Haxx.hscalc_if27 ALPHA MRIGHT N X (F := F) := by
  simp only [Thr.hscalc_if27, Haxx.hscalc_if27, thr]

/-- As `Haxx.hscalc_30_I`, `src/hblas/fortran/hblas1/hscalc.f:46-52`, body of `DO 30 I`. -/
def hscalc_30_I (ALPHA : Cplx F) (INCX : Int) (X : Int) (I : Int) (IX : Int) : Prog F (Int) := do
  let t1 ← rdC (el2 2 2 X 1 IX)
  wrC (el2 2 2 X 1 IX) (ALPHA *ᶜ t1)
  let t2 ← rdC (el2 2 2 X 2 IX)
  wrC (el2 2 2 X 2 IX) (ALPHA *ᶜ t2)
  let IX : Int := IX + INCX
  pure IX

@[thr] theorem run_hscalc_30_I (ALPHA : Cplx F) (INCX : Int) (X : Int) (I : Int) (IX : Int) :
    (Thr.hscalc_30_I ALPHA INCX X I IX (F := F)).run = Haxx.hscalc_30_I ALPHA INCX X I IX (F := F) := by
  simp only [Thr.hscalc_30_I, Haxx.hscalc_30_I, thr]

/-- As `Haxx.hscalc_40_I`, `src/hblas/fortran/hblas1/hscalc.f:54-60`, body of `DO 40 I`. -/
def hscalc_40_I (ALPHA : Cplx F) (INCX : Int) (X : Int) (I : Int) (IX : Int) : Prog F (Int) := do
  let t1 ← rdC (el2 2 2 X 1 IX)
  wrC (el2 2 2 X 1 IX) (t1 *ᶜ ALPHA)
  let t2 ← rdC (el2 2 2 X 2 IX)
  wrC (el2 2 2 X 2 IX) (t2 *ᶜ Cplx.conj ALPHA)
  let IX : Int := IX + INCX
  pure IX

@[thr] theorem run_hscalc_40_I (ALPHA : Cplx F) (INCX : Int) (X : Int) (I : Int) (IX : Int) :
    (Thr.hscalc_40_I ALPHA INCX X I IX (F := F)).run = Haxx.hscalc_40_I ALPHA INCX X I IX (F := F) := by
  simp only [Thr.hscalc_40_I, Haxx.hscalc_40_I, thr]

/-- As `Haxx.hscalc_if45`, `src/hblas/fortran/hblas1/hscalc.f:45-61`. -/
def hscalc_if45 (ALPHA : Cplx F) (INCX : Int) (IX : Int) (MRIGHT : Bool) (N : Int) (X : Int) : Prog F (Unit) := do
  if !MRIGHT then
    let r ← foldN (N).toNat (fun i (s : Int) => hscalc_30_I ALPHA INCX X ((i : Int) + 1) s) IX
    pure ()
  else
    let r ← foldN (N).toNat (fun i (s : Int) => hscalc_40_I ALPHA INCX X ((i : Int) + 1) s) IX
    pure ()

@[thr] theorem run_hscalc_if45 (ALPHA : Cplx F) (INCX : Int) (IX : Int) (MRIGHT : Bool) (N : Int) (X : Int) :
    (Thr.hscalc_if45 ALPHA INCX IX MRIGHT N X (F := F)).run = Haxx.hscalc_if45 ALPHA INCX IX MRIGHT N X (F := F) := by
  simp only [Thr.hscalc_if45, Haxx.hscalc_if45, thr]

/-- As `Haxx.hscalc_if26`, `src/hblas/fortran/hblas1/hscalc.f:26-62`. -/
def hscalc_if26 (ALPHA : Cplx F) (INCX : Int) (MRIGHT : Bool) (N : Int) (X : Int) : Prog F (Unit) := do
  if decide (INCX = 1) then
    hscalc_if27 ALPHA MRIGHT N X
    pure ()
  else
    let IX : Int := 1
    let r ← (do
      if decide (INCX < 0) then
        let IX : Int := ((-N) + 1) * INCX + 1
        pure IX
      else
        pure IX : Prog F (Int))
    let IX : Int := r
    hscalc_if45 ALPHA INCX IX MRIGHT N X
    pure ()

@[thr] theorem run_hscalc_if26 (ALPHA : Cplx F) (INCX : Int) (MRIGHT : Bool) (N : Int) (X : Int) :
    (Thr.hscalc_if26 ALPHA INCX MRIGHT N X (F := F)).run = Haxx.hscalc_if26 ALPHA INCX MRIGHT N X (F := F) := by
  simp only [Thr.hscalc_if26, Haxx.hscalc_if26, thr]

/-- As `Haxx.hscalc`, `src/hblas/fortran/hblas1/hscalc.f:9-64`. -/
def hscalc (SIDE : Char) (N : Int) (ALPHA : Cplx F) (X : Int) (INCX : Int) : Prog F (Unit) := do
  if decide (N ≤ 0) then
    pure ()
  else
    if cabsIsZero ALPHA then
      pure ()
    else
      let MRIGHT : Bool := lsame 'R' SIDE
      hscalc_if26 ALPHA INCX MRIGHT N X
      pure ()

@[thr] theorem run_hscalc (SIDE : Char) (N : Int) (ALPHA : Cplx F) (X : Int) (INCX : Int) :
    (Thr.hscalc SIDE N ALPHA X INCX (F := F)).run = Haxx.hscalc SIDE N ALPHA X INCX (F := F) := by
  simp only [Thr.hscalc, Haxx.hscalc, thr]

/-- As `Haxx.hscalh_10_I`, `src/hblas/fortran/hblas1/hscalh.f:29-45`, body of `DO 10 I`. -/
def hscalh_10_I (ALPHA : Quat F) (X : Int) (I : Int)  : Prog F (Unit) := do
  let t1 ← rd (el2 1 4 X 1 I)
  let t2 ← rd (el2 1 4 X 2 I)
  let t3 ← rd (el2 1 4 X 3 I)
  let t4 ← rd (el2 1 4 X 4 I)
  let HTMPS : F := ALPHA.re *ᶠ t1 -ᶠ ALPHA.i *ᶠ t2 -ᶠ ALPHA.j *ᶠ t3 -ᶠ ALPHA.k *ᶠ t4
  let t5 ← rd (el2 1 4 X 2 I)
  let t6 ← rd (el2 1 4 X 1 I)
  let t7 ← rd (el2 1 4 X 4 I)
  let t8 ← rd (el2 1 4 X 3 I)
  let HTMPI : F := ALPHA.re *ᶠ t5 +ᶠ ALPHA.i *ᶠ t6 +ᶠ ALPHA.j *ᶠ t7 -ᶠ ALPHA.k *ᶠ t8
  let t9 ← rd (el2 1 4 X 3 I)
  let t10 ← rd (el2 1 4 X 4 I)
  let t11 ← rd (el2 1 4 X 1 I)
  let t12 ← rd (el2 1 4 X 2 I)
  let HTMPJ : F := ALPHA.re *ᶠ t9 -ᶠ ALPHA.i *ᶠ t10 +ᶠ ALPHA.j *ᶠ t11 +ᶠ ALPHA.k *ᶠ t12
  let t13 ← rd (el2 1 4 X 4 I)
  let t14 ← rd (el2 1 4 X 3 I)
  let t15 ← rd (el2 1 4 X 2 I)
  let t16 ← rd (el2 1 4 X 1 I)
  wr (el2 1 4 X 4 I) (ALPHA.re *ᶠ t13 +ᶠ ALPHA.i *ᶠ t14 -ᶠ ALPHA.j *ᶠ t15 +ᶠ ALPHA.k *ᶠ t16)
  wr (el2 1 4 X 1 I) HTMPS
  wr (el2 1 4 X 2 I) HTMPI
  wr (el2 1 4 X 3 I) HTMPJ
  pure ()

@[thr] theorem run_hscalh_10_I (ALPHA : Quat F) (X : Int) (I : Int) :
    (Thr.hscalh_10_I ALPHA X I (F := F)).run = Haxx.hscalh_10_I ALPHA X I (F := F) := by
  simp only [Thr.hscalh_10_I, Haxx.hscalh_10_I, thr]

/-- As `Haxx.hscalh_20_I`, `src/hblas/fortran/hblas1/hscalh.f:47-63`, body of `DO 20 I`. -/
def hscalh_20_I (ALPHA : Quat F) (X : Int) (I : Int)  : Prog F (Unit) := do
  let t1 ← rd (el2 1 4 X 1 I)
  let t2 ← rd (el2 1 4 X 2 I)
  let t3 ← rd (el2 1 4 X 3 I)
  let t4 ← rd (el2 1 4 X 4 I)
  let HTMPS : F := t1 *ᶠ ALPHA.re -ᶠ t2 *ᶠ ALPHA.i -ᶠ t3 *ᶠ ALPHA.j -ᶠ t4 *ᶠ ALPHA.k
  let t5 ← rd (el2 1 4 X 1 I)
  let t6 ← rd (el2 1 4 X 2 I)
  let t7 ← rd (el2 1 4 X 3 I)
  let t8 ← rd (el2 1 4 X 4 I)
  let HTMPI : F := t5 *ᶠ ALPHA.i +ᶠ t6 *ᶠ ALPHA.re +ᶠ t7 *ᶠ ALPHA.k -ᶠ t8 *ᶠ ALPHA.j
  let t9 ← rd (el2 1 4 X 1 I)
  let t10 ← rd (el2 1 4 X 2 I)
  let t11 ← rd (el2 1 4 X 3 I)
  let t12 ← rd (el2 1 4 X 4 I)
  let HTMPJ : F := t9 *ᶠ ALPHA.j -ᶠ t10 *ᶠ ALPHA.k +ᶠ t11 *ᶠ ALPHA.re +ᶠ t12 *ᶠ ALPHA.i
  let t13 ← rd (el2 1 4 X 1 I)
  let t14 ← rd (el2 1 4 X 2 I)
  let t15 ← rd (el2 1 4 X 3 I)
  let t16 ← rd (el2 1 4 X 4 I)
  wr (el2 1 4 X 4 I) (t13 *ᶠ ALPHA.k +ᶠ t14 *ᶠ ALPHA.j -ᶠ t15 *ᶠ ALPHA.i +ᶠ t16 *ᶠ ALPHA.re)
  wr (el2 1 4 X 1 I) HTMPS
  wr (el2 1 4 X 2 I) HTMPI
  wr (el2 1 4 X 3 I) HTMPJ
  pure ()

@[thr] theorem run_hscalh_20_I (ALPHA : Quat F) (X : Int) (I : Int) :
    (Thr.hscalh_20_I ALPHA X I (F := F)).run = Haxx.hscalh_20_I ALPHA X I (F := F) := by
  simp only [Thr.hscalh_20_I, Haxx.hscalh_20_I, thr]

/-- As `Haxx.hscalh_if28`, `src/hblas/fortran/hblas1/hscalh.f:28-64`. -/
def hscalh_if28 (ALPHA : Quat F) (MRIGHT : Bool) (N : Int) (X : Int) : Prog F (Unit) := do
  if !MRIGHT then
    forN (N).toNat (fun i => hscalh_10_I ALPHA X ((i : Int) + 1))
    pure ()
  else
    forN (N).toNat (fun i => hscalh_20_I ALPHA X ((i : Int) + 1))
    pure ()

@[thr] theorem run_hscalh_if28 (ALPHA : Quat F) (MRIGHT : Bool) (N : Int) (X : Int) :
    (Thr.hscalh_if28 ALPHA MRIGHT N X (F := F)).run = Haxx.hscalh_if28 ALPHA MRIGHT N X (F := F) := by
  simp only [Thr.hscalh_if28, Haxx.hscalh_if28, thr]

/-- As `Haxx.hscalh_30_I`, `src/hblas/fortran/hblas1/hscalh.f:71-89`, body of `DO 30 I`. -/
def hscalh_30_I (ALPHA : Quat F) (INCX : Int) (X : Int) (I : Int) (IX : Int) : Prog F (Int) := do
  let t1 ← rd (el2 1 4 X 1 IX)
  let t2 ← rd (el2 1 4 X 2 IX)
  let t3 ← rd (el2 1 4 X 3 IX)
  let t4 ← rd (el2 1 4 X 4 IX)
  let HTMPS : F := ALPHA.re *ᶠ t1 -ᶠ ALPHA.i *ᶠ t2 -ᶠ ALPHA.j *ᶠ t3 -ᶠ ALPHA.k *ᶠ t4
  let t5 ← rd (el2 1 4 X 2 IX)
  let t6 ← rd (el2 1 4 X 1 IX)
  let t7 ← rd (el2 1 4 X 4 IX)
  let t8 ← rd (el2 1 4 X 3 IX)
  let HTMPI : F := ALPHA.re *ᶠ t5 +ᶠ ALPHA.i *ᶠ t6 +ᶠ ALPHA.j *ᶠ t7 -ᶠ ALPHA.k *ᶠ t8
  let t9 ← rd (el2 1 4 X 3 IX)
  let t10 ← rd (el2 1 4 X 4 IX)
  let t11 ← rd (el2 1 4 X 1 IX)
  let t12 ← rd (el2 1 4 X 2 IX)
  let HTMPJ : F := ALPHA.re *ᶠ t9 -ᶠ ALPHA.i *ᶠ t10 +ᶠ ALPHA.j *ᶠ t11 +ᶠ ALPHA.k *ᶠ t12
  let t13 ← rd (el2 1 4 X 4 IX)
  let t14 ← rd (el2 1 4 X 3 IX)
  let t15 ← rd (el2 1 4 X 2 IX)
  let t16 ← rd (el2 1 4 X 1 IX)
  wr (el2 1 4 X 4 IX) (ALPHA.re *ᶠ t13 +ᶠ ALPHA.i *ᶠ t14 -ᶠ ALPHA.j *ᶠ t15 +ᶠ ALPHA.k *ᶠ t16)
  wr (el2 1 4 X 1 IX) HTMPS
  wr (el2 1 4 X 2 IX) HTMPI
  wr (el2 1 4 X 3 IX) HTMPJ
  let IX : Int := IX + INCX
  pure IX

@[thr] theorem run_hscalh_30_I (ALPHA : Quat F) (INCX : Int) (X : Int) (I : Int) (IX : Int) :
    (Thr.hscalh_30_I ALPHA INCX X I IX (F := F)).run = Haxx.hscalh_30_I ALPHA INCX X I IX (F := F) := by
  simp only [Thr.hscalh_30_I, Haxx.hscalh_30_I, thr]

/-- As `Haxx.hscalh_40_I`, `src/hblas/fortran/hblas1/hscalh.f:91-109`, body of `DO 40 I`. -/
def hscalh_40_I (ALPHA : Quat F) (INCX : Int) (X : Int) (I : Int) (IX : Int) : Prog F (Int) := do
  let t1 ← rd (el2 1 4 X 1 IX)
  let t2 ← rd (el2 1 4 X 2 IX)
  let t3 ← rd (el2 1 4 X 3 IX)
  let t4 ← rd (el2 1 4 X 4 IX)
  let HTMPS : F := t1 *ᶠ ALPHA.re -ᶠ t2 *ᶠ ALPHA.i -ᶠ t3 *ᶠ ALPHA.j -ᶠ t4 *ᶠ ALPHA.k
  let t5 ← rd (el2 1 4 X 1 IX)
  let t6 ← rd (el2 1 4 X 2 IX)
  let t7 ← rd (el2 1 4 X 3 IX)
  let t8 ← rd (el2 1 4 X 4 IX)
  let HTMPI : F := t5 *ᶠ ALPHA.i +ᶠ t6 *ᶠ ALPHA.re +ᶠ t7 *ᶠ ALPHA.k -ᶠ t8 *ᶠ ALPHA.j
  let t9 ← rd (el2 1 4 X 1 IX)
  let t10 ← rd (el2 1 4 X 2 IX)
  let t11 ← rd (el2 1 4 X 3 IX)
  let t12 ← rd (el2 1 4 X 4 IX)
  let HTMPJ : F := t9 *ᶠ ALPHA.j -ᶠ t10 *ᶠ ALPHA.k +ᶠ t11 *ᶠ ALPHA.re +ᶠ t12 *ᶠ ALPHA.i
  let t13 ← rd (el2 1 4 X 1 IX)
  let t14 ← rd (el2 1 4 X 2 IX)
  let t15 ← rd (el2 1 4 X 3 IX)
  let t16 ← rd (el2 1 4 X 4 IX)
  wr (el2 1 4 X 4 IX) (t13 *ᶠ ALPHA.k +ᶠ t14 *ᶠ ALPHA.j -ᶠ t15 *ᶠ ALPHA.i +ᶠ t16 *ᶠ ALPHA.re)
  wr (el2 1 4 X 1 IX) HTMPS
  wr (el2 1 4 X 2 IX) HTMPI
  wr (el2 1 4 X 3 IX) HTMPJ
  let IX : Int := IX + INCX
  pure IX

@[thr] theorem run_hscalh_40_I (ALPHA : Quat F) (INCX : Int) (X : Int) (I : Int) (IX : Int) :
    (Thr.hscalh_40_I ALPHA INCX X I IX (F := F)).run = Haxx.hscalh_40_I ALPHA INCX X I IX (F := F) := by
  simp only [Thr.hscalh_40_I, Haxx.hscalh_40_I, thr]

/-- As `Haxx.hscalh_if70`, `src/hblas/fortran/hblas1/hscalh.f:70-110`. -/
def hscalh_if70 (ALPHA : Quat F) (INCX : Int) (IX : Int) (MRIGHT : Bool) (N : Int) (X : Int) : Prog F (Unit) := do
  if !MRIGHT then
    let r ← foldN (N).toNat (fun i (s : Int) => hscalh_30_I ALPHA INCX X ((i : Int) + 1) s) IX
    pure ()
  else
    let r ← foldN (N).toNat (fun i (s : Int) => hscalh_40_I ALPHA INCX X ((i : Int) + 1) s) IX
    pure ()

@[thr] theorem run_hscalh_if70 (ALPHA : Quat F) (INCX : Int) (IX : Int) (MRIGHT : Bool) (N : Int) (X : Int) :
    (Thr.hscalh_if70 ALPHA INCX IX MRIGHT N X (F := F)).run = Haxx.hscalh_if70 ALPHA INCX IX MRIGHT N X (F := F) := by
  simp only [Thr.hscalh_if70, Haxx.hscalh_if70, thr]

/-- As `Haxx.hscalh_if27`, `src/hblas/fortran/hblas1/hscalh.f:27-111`. -/
def hscalh_if27 (ALPHA : Quat F) (INCX : Int) (MRIGHT : Bool) (N : Int) (X : Int) : Prog F (Unit) := do
  if decide (INCX = 1) then
    hscalh_if28 ALPHA MRIGHT N X
    pure ()
  else
    let IX : Int := 1
    let r ← (do
      if decide (INCX < 0) then
        let IX : Int := ((-N) + 1) * INCX + 1
        pure IX
      else
        pure IX : Prog F (Int))
    let IX : Int := r
    hscalh_if70 ALPHA INCX IX MRIGHT N X
    pure ()

@[thr] theorem run_hscalh_if27 (ALPHA : Quat F) (INCX : Int) (MRIGHT : Bool) (N : Int) (X : Int) :
    (Thr.hscalh_if27 ALPHA INCX MRIGHT N X (F := F)).run = Haxx.hscalh_if27 ALPHA INCX MRIGHT N X (F := F) := by
  simp only [Thr.hscalh_if27, Haxx.hscalh_if27, thr]

/-- As `Haxx.hscalh`, `src/hblas/fortran/hblas1/hscalh.f:9-113`. -/
def hscalh (SIDE : Char) (N : Int) (ALPHA : Quat F) (X : Int) (INCX : Int) : Prog F (Unit) := do
  if decide (N ≤ 0) then
    pure ()
  else
    if (((ALPHA.re ==ᶠ zero) && (ALPHA.i ==ᶠ zero)) && (ALPHA.j ==ᶠ zero)) && (ALPHA.k ==ᶠ zero) then
      pure ()
    else
      let MRIGHT : Bool := lsame 'R' SIDE
      hscalh_if27 ALPHA INCX MRIGHT N X
      pure ()

@[thr] theorem run_hscalh (SIDE : Char) (N : Int) (ALPHA : Quat F) (X : Int) (INCX : Int) :
    (Thr.hscalh SIDE N ALPHA X INCX (F := F)).run = Haxx.hscalh SIDE N ALPHA X INCX (F := F) := by
  simp only [Thr.hscalh, Haxx.hscalh, thr]

/-- As `Haxx.haxpydh_10_I`, `src/hblas/fortran/hblas1/haxpydh.f:22-27`, body of `DO 10 I`. -/
def haxpydh_10_I (ALPHA : F) (X : Int) (Y : Int) (I : Int)  : Prog F (Unit) := do
  let t1 ← rd (el2 1 4 Y 1 I)
  let t2 ← rd (el2 1 4 X 1 I)
  wr (el2 1 4 Y 1 I) (t1 +ᶠ ALPHA *ᶠ t2)
  let t3 ← rd (el2 1 4 Y 2 I)
  let t4 ← rd (el2 1 4 X 2 I)
  wr (el2 1 4 Y 2 I) (t3 +ᶠ ALPHA *ᶠ t4)
  let t5 ← rd (el2 1 4 Y 3 I)
  let t6 ← rd (el2 1 4 X 3 I)
  wr (el2 1 4 Y 3 I) (t5 +ᶠ ALPHA *ᶠ t6)
  let t7 ← rd (el2 1 4 Y 4 I)
  let t8 ← rd (el2 1 4 X 4 I)
  wr (el2 1 4 Y 4 I) (t7 +ᶠ ALPHA *ᶠ t8)
  pure ()

@[thr] theorem run_haxpydh_10_I (ALPHA : F) (X : Int) (Y : Int) (I : Int) :
    (Thr.haxpydh_10_I ALPHA X Y I (F := F)).run = Haxx.haxpydh_10_I ALPHA X Y I (F := F) := by
  simp only [Thr.haxpydh_10_I, Haxx.haxpydh_10_I, thr]

/-- As `Haxx.haxpydh_20_I`, `src/hblas/fortran/hblas1/haxpydh.f:35-42`, body of `DO 20 I`. -/
def haxpydh_20_I (ALPHA : F) (INCX : Int) (INCY : Int) (X : Int) (Y : Int) (I : Int) (IX : Int) (IY : Int) : Prog F (Int × Int) := do
  let t1 ← rd (el2 1 4 Y 1 IY)
  let t2 ← rd (el2 1 4 X 1 IX)
  wr (el2 1 4 Y 1 IY) (t1 +ᶠ ALPHA *ᶠ t2)
  let t3 ← rd (el2 1 4 Y 2 IY)
  let t4 ← rd (el2 1 4 X 2 IX)
  wr (el2 1 4 Y 2 IY) (t3 +ᶠ ALPHA *ᶠ t4)
  let t5 ← rd (el2 1 4 Y 3 IY)
  let t6 ← rd (el2 1 4 X 3 IX)
  wr (el2 1 4 Y 3 IY) (t5 +ᶠ ALPHA *ᶠ t6)
  let t7 ← rd (el2 1 4 Y 4 IY)
  let t8 ← rd (el2 1 4 X 4 IX)
  wr (el2 1 4 Y 4 IY) (t7 +ᶠ ALPHA *ᶠ t8)
  let IX : Int := IX + INCX
  let IY : Int := IY + INCY
  pure (IX, IY)

@[thr] theorem run_haxpydh_20_I (ALPHA : F) (INCX : Int) (INCY : Int) (X : Int) (Y : Int) (I : Int) (IX : Int) (IY : Int) :
    (Thr.haxpydh_20_I ALPHA INCX INCY X Y I IX IY (F := F)).run = Haxx.haxpydh_20_I ALPHA INCX INCY X Y I IX IY (F := F) := by
  simp only [Thr.haxpydh_20_I, Haxx.haxpydh_20_I, thr]

/-- As `Haxx.haxpydh_if21`, `src/hblas/fortran/hblas1/haxpydh.f:21-43`. -/
def haxpydh_if21 (ALPHA : F) (INCX : Int) (INCY : Int) (N : Int) (X : Int) (Y : Int) : Prog F (Unit) := do
  if (decide (INCX = 1)) && (decide (INCY = 1)) then
    forN (N).toNat (fun i => haxpydh_10_I ALPHA X Y ((i : Int) + 1))
    pure ()
  else
    let IX : Int := 1
    let IY : Int := 1
    let r ← (do
      if decide (INCX < 0) then
        let IX : Int := ((-N) + 1) * INCX + 1
        pure IX
      else
        pure IX : Prog F (Int))
    let IX : Int := r
    let r ← (do
      if decide (INCY < 0) then
        let IY : Int := ((-N) + 1) * INCY + 1
        pure IY
      else
        pure IY : Prog F (Int))
    let IY : Int := r
    let r ← foldN (N).toNat (fun i (s : Int × Int) => haxpydh_20_I ALPHA INCX INCY X Y ((i : Int) + 1) s.1 s.2) (IX, IY)
    pure ()

@[thr] theorem run_haxpydh_if21 (ALPHA : F) (INCX : Int) (INCY : Int) (N : Int) (X : Int) (Y : Int) :
    (Thr.haxpydh_if21 ALPHA INCX INCY N X Y (F := F)).run = Haxx.haxpydh_if21 ALPHA INCX INCY N X Y (F := F) := by
  simp only [Thr.haxpydh_if21, Haxx.haxpydh_if21, thr]

/-- As `Haxx.haxpydh`, `src/hblas/fortran/hblas1/haxpydh.f:9-45`. -/
def haxpydh (SIDE : Char) (N : Int) (ALPHA : F) (X : Int) (INCX : Int) (Y : Int) (INCY : Int) : Prog F (Unit) := do
  if decide (N ≤ 0) then
    pure ()
  else
    if ALPHA ==ᶠ zero then
      pure ()
    else
      haxpydh_if21 ALPHA INCX INCY N X Y
      pure ()

@[thr] theorem run_haxpydh (SIDE : Char) (N : Int) (ALPHA : F) (X : Int) (INCX : Int) (Y : Int) (INCY : Int) :
    (Thr.haxpydh SIDE N ALPHA X INCX Y INCY (F := F)).run = Haxx.haxpydh SIDE N ALPHA X INCX Y INCY (F := F) := by
  simp only [Thr.haxpydh, Haxx.haxpydh, thr]

/-- As `Haxx.haxpych_10_I`, `src/hblas/fortran/hblas1/haxpych.f:26-32`, body of `DO 10 I`. -/
def haxpych_10_I (ALPHA : Cplx F) (X : Int) (Y : Int) (I : Int)  : Prog F (Unit) := do
  let t1 ← rd (el2 1 4 Y 1 I)
  let t2 ← rd (el2 1 4 X 1 I)
  let t3 ← rd (el2 1 4 X 2 I)
  wr (el2 1 4 Y 1 I) (t1 +ᶠ ALPHA.re *ᶠ t2 -ᶠ ALPHA.im *ᶠ t3)
  let t4 ← rd (el2 1 4 Y 2 I)
  let t5 ← rd (el2 1 4 X 2 I)
  let t6 ← rd (el2 1 4 X 1 I)
  wr (el2 1 4 Y 2 I) (t4 +ᶠ ALPHA.re *ᶠ t5 +ᶠ ALPHA.im *ᶠ t6)
  let t7 ← rd (el2 1 4 Y 3 I)
  let t8 ← rd (el2 1 4 X 3 I)
  let t9 ← rd (el2 1 4 X 4 I)
  wr (el2 1 4 Y 3 I) (t7 +ᶠ ALPHA.re *ᶠ t8 -ᶠ ALPHA.im *ᶠ t9)
  let t10 ← rd (el2 1 4 Y 4 I)
  let t11 ← rd (el2 1 4 X 4 I)
  let t12 ← rd (el2 1 4 X 3 I)
  wr (el2 1 4 Y 4 I) (t10 +ᶠ ALPHA.re *ᶠ t11 +ᶠ ALPHA.im *ᶠ t12)
  pure ()

@[thr] theorem run_haxpych_10_I (ALPHA : Cplx F) (X : Int) (Y : Int) (I : Int) :
    (Thr.haxpych_10_I ALPHA X Y I (F := F)).run = Haxx.haxpych_10_I ALPHA X Y I (F := F) := by
  simp only [Thr.haxpych_10_I, Haxx.haxpych_10_I, thr]

/-- As `Haxx.haxpych_20_I`, `src/hblas/fortran/hblas1/haxpych.f:34-40`, body of `DO 20 I`. -/
def haxpych_20_I (ALPHA : Cplx F) (X : Int) (Y : Int) (I : Int)  : Prog F (Unit) := do
  let t1 ← rd (el2 1 4 Y 1 I)
  let t2 ← rd (el2 1 4 X 1 I)
  let t3 ← rd (el2 1 4 X 2 I)
  wr (el2 1 4 Y 1 I) (t1 +ᶠ t2 *ᶠ ALPHA.re -ᶠ t3 *ᶠ ALPHA.im)
  let t4 ← rd (el2 1 4 Y 2 I)
  let t5 ← rd (el2 1 4 X 1 I)
  let t6 ← rd (el2 1 4 X 2 I)
  wr (el2 1 4 Y 2 I) (t4 +ᶠ t5 *ᶠ ALPHA.im +ᶠ t6 *ᶠ ALPHA.re)
  let t7 ← rd (el2 1 4 Y 3 I)
  let t8 ← rd (el2 1 4 X 3 I)
  let t9 ← rd (el2 1 4 X 4 I)
  wr (el2 1 4 Y 3 I) (t7 +ᶠ t8 *ᶠ ALPHA.re +ᶠ t9 *ᶠ ALPHA.im)
  let t10 ← rd (el2 1 4 Y 4 I)
  let t11 ← rd (el2 1 4 X 3 I)
  let t12 ← rd (el2 1 4 X 4 I)
  wr (el2 1 4 Y 4 I) (t10 -ᶠ t11 *ᶠ ALPHA.im +ᶠ t12 *ᶠ ALPHA.re)
  pure ()

@[thr] theorem run_haxpych_20_I (ALPHA : Cplx F) (X : Int) (Y : Int) (I : Int) :
    (Thr.haxpych_20_I ALPHA X Y I (F := F)).run = Haxx.haxpych_20_I ALPHA X Y I (F := F) := by
  simp only [Thr.haxpych_20_I, Haxx.haxpych_20_I, thr]

/-- As `Haxx.haxpych_if25`, `src/hblas/fortran/hblas1/haxpych.f:25-41`. -/
def haxpych_if25 (ALPHA : Cplx F) (MRIGHT : Bool) (N : Int) (X : Int) (Y : Int) : Prog F (Unit) := do
  if !MRIGHT then
    forN (N).toNat (fun i => haxpych_10_I ALPHA X Y ((i : Int) + 1))
    pure ()
  else
    forN (N).toNat (fun i => haxpych_20_I ALPHA X Y ((i : Int) + 1))
    pure ()

@[thr] theorem run_haxpych_if25 (ALPHA : Cplx F) (MRIGHT : Bool) (N : Int) (X : Int) (Y : Int) :
    (Thr.haxpych_if25 ALPHA MRIGHT N X Y (F := F)).run = Haxx.haxpych_if25 ALPHA MRIGHT N X Y (F := F) := by
  simp only [Thr.haxpych_if25, Haxx.haxpych_if25, thr]

/-- As `Haxx.haxpych_30_I`, `src/hblas/fortran/hblas1/haxpych.f:50-59`, body of `DO 30 I`. -/
def haxpych_30_I (ALPHA : Cplx F) (INCX : Int) (INCY : Int) (X : Int) (Y : Int) (I : Int) (IX : Int) (IY : Int) : Prog F (Int × Int) := do
  let t1 ← rd (el2 1 4 Y 1 IY)
  let t2 ← rd (el2 1 4 X 1 IX)
  let t3 ← rd (el2 1 4 X 2 IX)
  wr (el2 1 4 Y 1 IY) (t1 +ᶠ ALPHA.re *ᶠ t2 -ᶠ ALPHA.im *ᶠ t3)
  let t4 ← rd (el2 1 4 Y 2 IY)
  let t5 ← rd (el2 1 4 X 2 IX)
  let t6 ← rd (el2 1 4 X 1 IX)
  wr (el2 1 4 Y 2 IY) (t4 +ᶠ ALPHA.re *ᶠ t5 +ᶠ ALPHA.im *ᶠ t6)
  let t7 ← rd (el2 1 4 Y 3 IY)
  let t8 ← rd (el2 1 4 X 3 IX)
  let t9 ← rd (el2 1 4 X 4 IX)
  wr (el2 1 4 Y 3 IY) (t7 +ᶠ ALPHA.re *ᶠ t8 -ᶠ ALPHA.im *ᶠ t9)
  let t10 ← rd (el2 1 4 Y 4 IY)
  let t11 ← rd (el2 1 4 X 4 IX)
  let t12 ← rd (el2 1 4 X 3 IX)
  wr (el2 1 4 Y 4 IY) (t10 +ᶠ ALPHA.re *ᶠ t11 +ᶠ ALPHA.im *ᶠ t12)
  let IX : Int := IX + INCX
  let IY : Int := IY + INCY
  pure (IX, IY)

@[thr] theorem run_haxpych_30_I (ALPHA : Cplx F) (INCX : Int) (INCY : Int) (X : Int) (Y : Int) (I : Int) (IX : Int) (IY : Int) :
    (Thr.haxpych_30_I ALPHA INCX INCY X Y I IX IY (F := F)).run = Haxx.haxpych_30_I ALPHA INCX INCY X Y I IX IY (F := F) := by
  simp only [Thr.haxpych_30_I, Haxx.haxpych_30_I, thr]

/-- As `Haxx.haxpych_40_I`, `src/hblas/fortran/hblas1/haxpych.f:61-70`, body of `DO 40 I`. -/
def haxpych_40_I (ALPHA : Cplx F) (INCX : Int) (INCY : Int) (X : Int) (Y : Int) (I : Int) (IX : Int) (IY : Int) : Prog F (Int × Int) := do
  let t1 ← rd (el2 1 4 Y 1 IY)
  let t2 ← rd (el2 1 4 X 1 IX)
  let t3 ← rd (el2 1 4 X 2 IX)
  wr (el2 1 4 Y 1 IY) (t1 +ᶠ t2 *ᶠ ALPHA.re -ᶠ t3 *ᶠ ALPHA.im)
  let t4 ← rd (el2 1 4 Y 2 IY)
  let t5 ← rd (el2 1 4 X 1 IX)
  let t6 ← rd (el2 1 4 X 2 IX)
  wr (el2 1 4 Y 2 IY) (t4 +ᶠ t5 *ᶠ ALPHA.im +ᶠ t6 *ᶠ ALPHA.re)
  let t7 ← rd (el2 1 4 Y 3 IY)
  let t8 ← rd (el2 1 4 X 3 IX)
  let t9 ← rd (el2 1 4 X 4 IX)
  wr (el2 1 4 Y 3 IY) (t7 +ᶠ t8 *ᶠ ALPHA.re +ᶠ t9 *ᶠ ALPHA.im)
  let t10 ← rd (el2 1 4 Y 4 IY)
  let t11 ← rd (el2 1 4 X 3 IX)
  let t12 ← rd (el2 1 4 X 4 IX)
  wr (el2 1 4 Y 4 IY) (t10 -ᶠ t11 *ᶠ ALPHA.im +ᶠ t12 *ᶠ ALPHA.re)
  let IX : Int := IX + INCX
  let IY : Int := IY + INCY
  pure (IX, IY)

@[thr] theorem run_haxpych_40_I (ALPHA : Cplx F) (INCX : Int) (INCY : Int) (X : Int) (Y : Int) (I : Int) (IX : Int) (IY : Int) :
    (Thr.haxpych_40_I ALPHA INCX INCY X Y I IX IY (F := F)).run = Haxx.haxpych_40_I ALPHA INCX INCY X Y I IX IY (F := F) := by
  simp only [Thr.haxpych_40_I, Haxx.haxpych_40_I, thr]

/-- As `Haxx.haxpych_if49`, `src/hblas/fortran/hblas1/haxpych.f:49-71`. -/
def haxpych_if49 (ALPHA : Cplx F) (INCX : Int) (INCY : Int) (IX : Int) (IY : Int) (MRIGHT : Bool) (N : Int) (X : Int) (Y : Int) : Prog F (Unit) := do
  if !MRIGHT then
    let r ← foldN (N).toNat (fun i (s : Int × Int) => haxpych_30_I ALPHA INCX INCY X Y ((i : Int) + 1) s.1 s.2) (IX, IY)
    pure ()
  else
    let r ← foldN (N).toNat (fun i (s : Int × Int) => haxpych_40_I ALPHA INCX INCY X Y ((i : Int) + 1) s.1 s.2) (IX, IY)
    pure ()

@[thr] theorem run_haxpych_if49 (ALPHA : Cplx F) (INCX : Int) (INCY : Int) (IX : Int) (IY : Int) (MRIGHT : Bool) (N : Int) (X : Int) (Y : Int) :
    (Thr.haxpych_if49 ALPHA INCX INCY IX IY MRIGHT N X Y (F := F)).run = Haxx.haxpych_if49 ALPHA INCX INCY IX IY MRIGHT N X Y (F := F) := by
  simp only [Thr.haxpych_if49, Haxx.haxpych_if49, thr]

/-- As `Haxx.haxpych_if24`, `src/hblas/fortran/hblas1/haxpych.f:24-72`. -/
def haxpych_if24 (ALPHA : Cplx F) (INCX : Int) (INCY : Int) (MRIGHT : Bool) (N : Int) (X : Int) (Y : Int) : Prog F (Unit) := do
  if (decide (INCX = 1)) && (decide (INCY = 1)) then
    haxpych_if25 ALPHA MRIGHT N X Y
    pure ()
  else
    let IX : Int := 1
    let IY : Int := 1
    let r ← (do
      if decide (INCX < 0) then
        let IX : Int := ((-N) + 1) * INCX + 1
        pure IX
      else
        pure IX : Prog F (Int))
    let IX : Int := r
    let r ← (do
      if decide (INCY < 0) then
        let IY : Int := ((-N) + 1) * INCY + 1
        pure IY
      else
        pure IY : Prog F (Int))
    let IY : Int := r
    haxpych_if49 ALPHA INCX INCY IX IY MRIGHT N X Y
    pure ()

@[thr] theorem run_haxpych_if24 (ALPHA : Cplx F) (INCX : Int) (INCY : Int) (MRIGHT : Bool) (N : Int) (X : Int) (Y : Int) :
    (Thr.haxpych_if24 ALPHA INCX INCY MRIGHT N X Y (F := F)).run = Haxx.haxpych_if24 ALPHA INCX INCY MRIGHT N X Y (F := F) := by
  simp only [Thr.haxpych_if24, Haxx.haxpych_if24, thr]

/-- As `Haxx.haxpych`, `src/hblas/fortran/hblas1/haxpych.f:9-74`. -/
def haxpych (SIDE : Char) (N : Int) (ALPHA : Cplx F) (X : Int) (INCX : Int) (Y : Int) (INCY : Int) : Prog F (Unit) := do
  if decide (N ≤ 0) then
    pure ()
  else
    if (ALPHA.re ==ᶠ zero) && (ALPHA.im ==ᶠ zero) then
      pure ()
    else
      let MRIGHT : Bool := lsame 'R' SIDE
      haxpych_if24 ALPHA INCX INCY MRIGHT N X Y
      pure ()

@[thr] theorem run_haxpych (SIDE : Char) (N : Int) (ALPHA : Cplx F) (X : Int) (INCX : Int) (Y : Int) (INCY : Int) :
    (Thr.haxpych SIDE N ALPHA X INCX Y INCY (F := F)).run = Haxx.haxpych SIDE N ALPHA X INCX Y INCY (F := F) := by
  simp only [Thr.haxpych, Haxx.haxpych, thr]

/-- As `Haxx.haxpyhh_10_I`, `src/hblas/fortran/hblas1/haxpyhh.f:27-40`, body of `DO 10 I`. -/
def haxpyhh_10_I (ALPHA : Quat F) (X : Int) (Y : Int) (I : Int)  : Prog F (Unit) := do
  let t1 ← rd (el2 1 4 Y 1 I)
  let t2 ← rd (el2 1 4 X 1 I)
  let t3 ← rd (el2 1 4 X 2 I)
  let t4 ← rd (el2 1 4 X 3 I)
  let t5 ← rd (el2 1 4 X 4 I)
  wr (el2 1 4 Y 1 I) (t1 +ᶠ ALPHA.re *ᶠ t2 -ᶠ ALPHA.i *ᶠ t3 -ᶠ ALPHA.j *ᶠ t4 -ᶠ ALPHA.k *ᶠ t5)
  let t6 ← rd (el2 1 4 Y 2 I)
  let t7 ← rd (el2 1 4 X 2 I)
  let t8 ← rd (el2 1 4 X 1 I)
  let t9 ← rd (el2 1 4 X 4 I)
  let t10 ← rd (el2 1 4 X 3 I)
  wr (el2 1 4 Y 2 I) (t6 +ᶠ ALPHA.re *ᶠ t7 +ᶠ ALPHA.i *ᶠ t8 +ᶠ ALPHA.j *ᶠ t9 -ᶠ ALPHA.k *ᶠ t10)
  let t11 ← rd (el2 1 4 Y 3 I)
  let t12 ← rd (el2 1 4 X 3 I)
  let t13 ← rd (el2 1 4 X 4 I)
  let t14 ← rd (el2 1 4 X 1 I)
  let t15 ← rd (el2 1 4 X 2 I)
  wr (el2 1 4 Y 3 I) (t11 +ᶠ ALPHA.re *ᶠ t12 -ᶠ ALPHA.i *ᶠ t13 +ᶠ ALPHA.j *ᶠ t14 +ᶠ ALPHA.k *ᶠ t15)
  let t16 ← rd (el2 1 4 Y 4 I)
  let t17 ← rd (el2 1 4 X 4 I)
  let t18 ← rd (el2 1 4 X 3 I)
  let t19 ← rd (el2 1 4 X 2 I)
  let t20 ← rd (el2 1 4 X 1 I)
  wr (el2 1 4 Y 4 I) (t16 +ᶠ ALPHA.re *ᶠ t17 +ᶠ ALPHA.i *ᶠ t18 -ᶠ ALPHA.j *ᶠ t19 +ᶠ ALPHA.k *ᶠ t20)
  pure ()

@[thr] theorem run_haxpyhh_10_I (ALPHA : Quat F) (X : Int) (Y : Int) (I : Int) :
    (Thr.haxpyhh_10_I ALPHA X Y I (F := F)).run = Haxx.haxpyhh_10_I ALPHA X Y I (F := F) := by
  simp only [Thr.haxpyhh_10_I, Haxx.haxpyhh_10_I, thr]

/-- As `Haxx.haxpyhh_20_I`, `src/hblas/fortran/hblas1/haxpyhh.f:42-55`, body of `DO 20 I`. -/
def haxpyhh_20_I (ALPHA : Quat F) (X : Int) (Y : Int) (I : Int)  : Prog F (Unit) := do
  let t1 ← rd (el2 1 4 Y 1 I)
  let t2 ← rd (el2 1 4 X 1 I)
  let t3 ← rd (el2 1 4 X 2 I)
  let t4 ← rd (el2 1 4 X 3 I)
  let t5 ← rd (el2 1 4 X 4 I)
  wr (el2 1 4 Y 1 I) (t1 +ᶠ t2 *ᶠ ALPHA.re -ᶠ t3 *ᶠ ALPHA.i -ᶠ t4 *ᶠ ALPHA.j -ᶠ t5 *ᶠ ALPHA.k)
  let t6 ← rd (el2 1 4 Y 2 I)
  let t7 ← rd (el2 1 4 X 1 I)
  let t8 ← rd (el2 1 4 X 2 I)
  let t9 ← rd (el2 1 4 X 3 I)
  let t10 ← rd (el2 1 4 X 4 I)
  wr (el2 1 4 Y 2 I) (t6 +ᶠ t7 *ᶠ ALPHA.i +ᶠ t8 *ᶠ ALPHA.re +ᶠ t9 *ᶠ ALPHA.k -ᶠ t10 *ᶠ ALPHA.j)
  let t11 ← rd (el2 1 4 Y 3 I)
  let t12 ← rd (el2 1 4 X 1 I)
  let t13 ← rd (el2 1 4 X 2 I)
  let t14 ← rd (el2 1 4 X 3 I)
  let t15 ← rd (el2 1 4 X 4 I)
  wr (el2 1 4 Y 3 I) (t11 +ᶠ t12 *ᶠ ALPHA.j -ᶠ t13 *ᶠ ALPHA.k +ᶠ t14 *ᶠ ALPHA.re +ᶠ t15 *ᶠ ALPHA.i)
  let t16 ← rd (el2 1 4 Y 4 I)
  let t17 ← rd (el2 1 4 X 1 I)
  let t18 ← rd (el2 1 4 X 2 I)
  let t19 ← rd (el2 1 4 X 3 I)
  let t20 ← rd (el2 1 4 X 4 I)
  wr (el2 1 4 Y 4 I) (t16 +ᶠ t17 *ᶠ ALPHA.k +ᶠ t18 *ᶠ ALPHA.j -ᶠ t19 *ᶠ ALPHA.i +ᶠ t20 *ᶠ ALPHA.re)
  pure ()

@[thr] theorem run_haxpyhh_20_I (ALPHA : Quat F) (X : Int) (Y : Int) (I : Int) :
    (Thr.haxpyhh_20_I ALPHA X Y I (F := F)).run = Haxx.haxpyhh_20_I ALPHA X Y I (F := F) := by
  simp only [Thr.haxpyhh_20_I, Haxx.haxpyhh_20_I, thr]

/-- As `Haxx.haxpyhh_if26`, `src/hblas/fortran/hblas1/haxpyhh.f:26-56`. -/
def haxpyhh_if26 (ALPHA : Quat F) (MRIGHT : Bool) (N : Int) (X : Int) (Y : Int) : Prog F (Unit) := do
  if !MRIGHT then
    forN (N).toNat (fun i => haxpyhh_10_I ALPHA X Y ((i : Int) + 1))
    pure ()
  else
    forN (N).toNat (fun i => haxpyhh_20_I ALPHA X Y ((i : Int) + 1))
    pure ()

@[thr] theorem run_haxpyhh_if26 (ALPHA : Quat F) (MRIGHT : Bool) (N : Int) (X : Int) (Y : Int) :
    (Thr.haxpyhh_if26 ALPHA MRIGHT N X Y (F := F)).run = Haxx.haxpyhh_if26 ALPHA MRIGHT N X Y (F := F) := by
  simp only [Thr.haxpyhh_if26, Haxx.haxpyhh_if26, thr]

/-- As `Haxx.haxpyhh_30_I`, `src/hblas/fortran/hblas1/haxpyhh.f:65-81`, body of `DO 30 I`. -/
def haxpyhh_30_I (ALPHA : Quat F) (INCX : Int) (INCY : Int) (X : Int) (Y : Int) (I : Int) (IX : Int) (IY : Int) : Prog F (Int × Int) := do
  let t1 ← rd (el2 1 4 Y 1 IY)
  let t2 ← rd (el2 1 4 X 1 IX)
  let t3 ← rd (el2 1 4 X 2 IX)
  let t4 ← rd (el2 1 4 X 3 IX)
  let t5 ← rd (el2 1 4 X 4 IX)
  wr (el2 1 4 Y 1 IY) (t1 +ᶠ ALPHA.re *ᶠ t2 -ᶠ ALPHA.i *ᶠ t3 -ᶠ ALPHA.j *ᶠ t4 -ᶠ ALPHA.k *ᶠ t5)
  let t6 ← rd (el2 1 4 Y 2 IY)
  let t7 ← rd (el2 1 4 X 2 IX)
  let t8 ← rd (el2 1 4 X 1 IX)
  let t9 ← rd (el2 1 4 X 4 IX)
  let t10 ← rd (el2 1 4 X 3 IX)
  wr (el2 1 4 Y 2 IY) (t6 +ᶠ ALPHA.re *ᶠ t7 +ᶠ ALPHA.i *ᶠ t8 +ᶠ ALPHA.j *ᶠ t9 -ᶠ ALPHA.k *ᶠ t10)
  let t11 ← rd (el2 1 4 Y 3 IY)
  let t12 ← rd (el2 1 4 X 3 IX)
  let t13 ← rd (el2 1 4 X 4 IX)
  let t14 ← rd (el2 1 4 X 1 IX)
  let t15 ← rd (el2 1 4 X 2 IX)
  wr (el2 1 4 Y 3 IY) (t11 +ᶠ ALPHA.re *ᶠ t12 -ᶠ ALPHA.i *ᶠ t13 +ᶠ ALPHA.j *ᶠ t14 +ᶠ ALPHA.k *ᶠ t15)
  let t16 ← rd (el2 1 4 Y 4 IY)
  let t17 ← rd (el2 1 4 X 4 IX)
  let t18 ← rd (el2 1 4 X 3 IX)
  let t19 ← rd (el2 1 4 X 2 IX)
  let t20 ← rd (el2 1 4 X 1 IX)
  wr (el2 1 4 Y 4 IY) (t16 +ᶠ ALPHA.re *ᶠ t17 +ᶠ ALPHA.i *ᶠ t18 -ᶠ ALPHA.j *ᶠ t19 +ᶠ ALPHA.k *ᶠ t20)
  let IX : Int := IX + INCX
  let IY : Int := IY + INCY
  pure (IX, IY)

@[thr] theorem run_haxpyhh_30_I (ALPHA : Quat F) (INCX : Int) (INCY : Int) (X : Int) (Y : Int) (I : Int) (IX : Int) (IY : Int) :
    (Thr.haxpyhh_30_I ALPHA INCX INCY X Y I IX IY (F := F)).run = Haxx.haxpyhh_30_I ALPHA INCX INCY X Y I IX IY (F := F) := by
  simp only [Thr.haxpyhh_30_I, Haxx.haxpyhh_30_I, thr]

/-- As `Haxx.haxpyhh_40_I`, `src/hblas/fortran/hblas1/haxpyhh.f:83-99`, body of `DO 40 I`. -/
def haxpyhh_40_I (ALPHA : Quat F) (INCX : Int) (INCY : Int) (X : Int) (Y : Int) (I : Int) (IX : Int) (IY : Int) : Prog F (Int × Int) := do
  let t1 ← rd (el2 1 4 Y 1 IY)
  let t2 ← rd (el2 1 4 X 1 IX)
  let t3 ← rd (el2 1 4 X 2 IX)
  let t4 ← rd (el2 1 4 X 3 IX)
  let t5 ← rd (el2 1 4 X 4 IX)
  wr (el2 1 4 Y 1 IY) (t1 +ᶠ t2 *ᶠ ALPHA.re -ᶠ t3 *ᶠ ALPHA.i -ᶠ t4 *ᶠ ALPHA.j -ᶠ t5 *ᶠ ALPHA.k)
  let t6 ← rd (el2 1 4 Y 2 IY)
  let t7 ← rd (el2 1 4 X 1 IX)
  let t8 ← rd (el2 1 4 X 2 IX)
  let t9 ← rd (el2 1 4 X 3 IX)
  let t10 ← rd (el2 1 4 X 4 IX)
  wr (el2 1 4 Y 2 IY) (t6 +ᶠ t7 *ᶠ ALPHA.i +ᶠ t8 *ᶠ ALPHA.re +ᶠ t9 *ᶠ ALPHA.k -ᶠ t10 *ᶠ ALPHA.j)
  let t11 ← rd (el2 1 4 Y 3 IY)
  let t12 ← rd (el2 1 4 X 1 IX)
  let t13 ← rd (el2 1 4 X 2 IX)
  let t14 ← rd (el2 1 4 X 3 IX)
  let t15 ← rd (el2 1 4 X 4 IX)
  wr (el2 1 4 Y 3 IY) (t11 +ᶠ t12 *ᶠ ALPHA.j -ᶠ t13 *ᶠ ALPHA.k +ᶠ t14 *ᶠ ALPHA.re +ᶠ t15 *ᶠ ALPHA.i)
  let t16 ← rd (el2 1 4 Y 4 IY)
  let t17 ← rd (el2 1 4 X 1 IX)
  let t18 ← rd (el2 1 4 X 2 IX)
  let t19 ← rd (el2 1 4 X 3 IX)
  let t20 ← rd (el2 1 4 X 4 IX)
  wr (el2 1 4 Y 4 IY) (t16 +ᶠ t17 *ᶠ ALPHA.k +ᶠ t18 *ᶠ ALPHA.j -ᶠ t19 *ᶠ ALPHA.i +ᶠ t20 *ᶠ ALPHA.re)
  let IX : Int := IX + INCX
  let IY : Int := IY + INCY
  pure (IX, IY)

@[thr] theorem run_haxpyhh_40_I (ALPHA : Quat F) (INCX : Int) (INCY : Int) (X : Int) (Y : Int) (I : Int) (IX : Int) (IY : Int) :
    (Thr.haxpyhh_40_I ALPHA INCX INCY X Y I IX IY (F := F)).run = Haxx.haxpyhh_40_I ALPHA INCX INCY X Y I IX IY (F := F) := by
  simp only [Thr.haxpyhh_40_I, Haxx.haxpyhh_40_I, thr]

/-- As `Haxx.haxpyhh_if64`, `src/hblas/fortran/hblas1/haxpyhh.f:64-100`. -/
def haxpyhh_if64 (ALPHA : Quat F) (INCX : Int) (INCY : Int) (IX : Int) (IY : Int) (MRIGHT : Bool) (N : Int) (X : Int) (Y : Int) : Prog F (Unit) := do
  if !MRIGHT then
    let r ← foldN (N).toNat (fun i (s : Int × Int) => haxpyhh_30_I ALPHA INCX INCY X Y ((i : Int) + 1) s.1 s.2) (IX, IY)
    pure ()
  else
    let r ← foldN (N).toNat (fun i (s : Int × Int) => haxpyhh_40_I ALPHA INCX INCY X Y ((i : Int) + 1) s.1 s.2) (IX, IY)
    pure ()

@[thr] theorem run_haxpyhh_if64 (ALPHA : Quat F) (INCX : Int) (INCY : Int) (IX : Int) (IY : Int) (MRIGHT : Bool) (N : Int) (X : Int) (Y : Int) :
    (Thr.haxpyhh_if64 ALPHA INCX INCY IX IY MRIGHT N X Y (F := F)).run = Haxx.haxpyhh_if64 ALPHA INCX INCY IX IY MRIGHT N X Y (F := F) := by
  simp only [Thr.haxpyhh_if64, Haxx.haxpyhh_if64, thr]

/-- As `Haxx.haxpyhh_if25`, `src/hblas/fortran/hblas1/haxpyhh.f:25-101`. -/
def haxpyhh_if25 (ALPHA : Quat F) (INCX : Int) (INCY : Int) (MRIGHT : Bool) (N : Int) (X : Int) (Y : Int) : Prog F (Unit) := do
  if (decide (INCX = 1)) && (decide (INCY = 1)) then
    haxpyhh_if26 ALPHA MRIGHT N X Y
    pure ()
  else
    let IX : Int := 1
    let IY : Int := 1
    let r ← (do
      if decide (INCX < 0) then
        let IX : Int := ((-N) + 1) * INCX + 1
        pure IX
      else
        pure IX : Prog F (Int))
    let IX : Int := r
    let r ← (do
      if decide (INCY < 0) then
        let IY : Int := ((-N) + 1) * INCY + 1
        pure IY
      else
        pure IY : Prog F (Int))
    let IY : Int := r
    haxpyhh_if64 ALPHA INCX INCY IX IY MRIGHT N X Y
    pure ()

@[thr] theorem run_haxpyhh_if25 (ALPHA : Quat F) (INCX : Int) (INCY : Int) (MRIGHT : Bool) (N : Int) (X : Int) (Y : Int) :
    (Thr.haxpyhh_if25 ALPHA INCX INCY MRIGHT N X Y (F := F)).run = Haxx.haxpyhh_if25 ALPHA INCX INCY MRIGHT N X Y (F := F) := by
  simp only [Thr.haxpyhh_if25, Haxx.haxpyhh_if25, thr]

/-- As `Haxx.haxpyhh`, `src/hblas/fortran/hblas1/haxpyhh.f:9-103`. -/
def haxpyhh (SIDE : Char) (N : Int) (ALPHA : Quat F) (X : Int) (INCX : Int) (Y : Int) (INCY : Int) : Prog F (Unit) := do
  if decide (N ≤ 0) then
    pure ()
  else
    if (((ALPHA.re ==ᶠ zero) && (ALPHA.i ==ᶠ zero)) && (ALPHA.j ==ᶠ zero)) && (ALPHA.k ==ᶠ zero) then
      pure ()
    else
      let MRIGHT : Bool := lsame 'R' SIDE
      haxpyhh_if25 ALPHA INCX INCY MRIGHT N X Y
      pure ()

@[thr] theorem run_haxpyhh (SIDE : Char) (N : Int) (ALPHA : Quat F) (X : Int) (INCX : Int) (Y : Int) (INCY : Int) :
    (Thr.haxpyhh SIDE N ALPHA X INCX Y INCY (F := F)).run = Haxx.haxpyhh SIDE N ALPHA X INCX Y INCY (F := F) := by
  simp only [Thr.haxpyhh, Haxx.haxpyhh, thr]

/-- As `Haxx.hdotu_10_I`, `src/hblas/fortran/hblas1/hdotu.f:21-34`, body of `DO 10 I`. -/
def hdotu_10_I (X : Int) (Y : Int) (I : Int) (R1 : F) (R2 : F) (R3 : F) (R4 : F) : Prog F (F × F × F × F) := do
  let t1 ← rd (el2 1 4 X 1 I)
  let t2 ← rd (el2 1 4 Y 1 I)
  let t3 ← rd (el2 1 4 X 2 I)
  let t4 ← rd (el2 1 4 Y 2 I)
  let t5 ← rd (el2 1 4 X 3 I)
  let t6 ← rd (el2 1 4 Y 3 I)
  let t7 ← rd (el2 1 4 X 4 I)
  let t8 ← rd (el2 1 4 Y 4 I)
  let R1 : F := R1 +ᶠ t1 *ᶠ t2 -ᶠ t3 *ᶠ t4 -ᶠ t5 *ᶠ t6 -ᶠ t7 *ᶠ t8
  let t9 ← rd (el2 1 4 X 1 I)
  let t10 ← rd (el2 1 4 Y 2 I)
  let t11 ← rd (el2 1 4 X 2 I)
  let t12 ← rd (el2 1 4 Y 1 I)
  let t13 ← rd (el2 1 4 X 3 I)
  let t14 ← rd (el2 1 4 Y 4 I)
  let t15 ← rd (el2 1 4 X 4 I)
  let t16 ← rd (el2 1 4 Y 3 I)
  let R2 : F := R2 +ᶠ t9 *ᶠ t10 +ᶠ t11 *ᶠ t12 +ᶠ t13 *ᶠ t14 -ᶠ t15 *ᶠ t16
  let t17 ← rd (el2 1 4 X 1 I)
  let t18 ← rd (el2 1 4 Y 3 I)
  let t19 ← rd (el2 1 4 X 2 I)
  let t20 ← rd (el2 1 4 Y 4 I)
  let t21 ← rd (el2 1 4 X 3 I)
  let t22 ← rd (el2 1 4 Y 1 I)
  let t23 ← rd (el2 1 4 X 4 I)
  let t24 ← rd (el2 1 4 Y 2 I)
  let R3 : F := R3 +ᶠ t17 *ᶠ t18 -ᶠ t19 *ᶠ t20 +ᶠ t21 *ᶠ t22 +ᶠ t23 *ᶠ t24
  let t25 ← rd (el2 1 4 X 1 I)
  let t26 ← rd (el2 1 4 Y 4 I)
  let t27 ← rd (el2 1 4 X 2 I)
  let t28 ← rd (el2 1 4 Y 3 I)
  let t29 ← rd (el2 1 4 X 3 I)
  let t30 ← rd (el2 1 4 Y 2 I)
  let t31 ← rd (el2 1 4 X 4 I)
  let t32 ← rd (el2 1 4 Y 1 I)
  let R4 : F := R4 +ᶠ t25 *ᶠ t26 +ᶠ t27 *ᶠ t28 -ᶠ t29 *ᶠ t30 +ᶠ t31 *ᶠ t32
  pure (R1, R2, R3, R4)

@[thr] theorem run_hdotu_10_I (X : Int) (Y : Int) (I : Int) (R1 : F) (R2 : F) (R3 : F) (R4 : F) :
    (Thr.hdotu_10_I X Y I R1 R2 R3 R4 (F := F)).run = Haxx.hdotu_10_I X Y I R1 R2 R3 R4 (F := F) := by
  simp only [Thr.hdotu_10_I, Haxx.hdotu_10_I, thr]

/-- As `Haxx.hdotu_20_I`, `src/hblas/fortran/hblas1/hdotu.f:42-57`, body of `DO 20 I`. -/
def hdotu_20_I (INCX : Int) (INCY : Int) (X : Int) (Y : Int) (I : Int) (IX : Int) (IY : Int) (R1 : F) (R2 : F) (R3 : F) (R4 : F) : Prog F (Int × Int × F × F × F × F) := do
  let t1 ← rd (el2 1 4 X 1 IX)
  let t2 ← rd (el2 1 4 Y 1 IY)
  let t3 ← rd (el2 1 4 X 2 IX)
  let t4 ← rd (el2 1 4 Y 2 IY)
  let t5 ← rd (el2 1 4 X 3 IX)
  let t6 ← rd (el2 1 4 Y 3 IY)
  let t7 ← rd (el2 1 4 X 4 IX)
  let t8 ← rd (el2 1 4 Y 4 IY)
  let R1 : F := R1 +ᶠ t1 *ᶠ t2 -ᶠ t3 *ᶠ t4 -ᶠ t5 *ᶠ t6 -ᶠ t7 *ᶠ t8
  let t9 ← rd (el2 1 4 X 1 IX)
  let t10 ← rd (el2 1 4 Y 2 IY)
  let t11 ← rd (el2 1 4 X 2 IX)
  let t12 ← rd (el2 1 4 Y 1 IY)
  let t13 ← rd (el2 1 4 X 3 IX)
  let t14 ← rd (el2 1 4 Y 4 IY)
  let t15 ← rd (el2 1 4 X 4 IX)
  let t16 ← rd (el2 1 4 Y 3 IY)
  let R2 : F := R2 +ᶠ t9 *ᶠ t10 +ᶠ t11 *ᶠ t12 +ᶠ t13 *ᶠ t14 -ᶠ t15 *ᶠ t16
  let t17 ← rd (el2 1 4 X 1 IX)
  let t18 ← rd (el2 1 4 Y 3 IY)
  let t19 ← rd (el2 1 4 X 2 IX)
  let t20 ← rd (el2 1 4 Y 4 IY)
  let t21 ← rd (el2 1 4 X 3 IX)
  let t22 ← rd (el2 1 4 Y 1 IY)
  let t23 ← rd (el2 1 4 X 4 IX)
  let t24 ← rd (el2 1 4 Y 2 IY)
  let R3 : F := R3 +ᶠ t17 *ᶠ t18 -ᶠ t19 *ᶠ t20 +ᶠ t21 *ᶠ t22 +ᶠ t23 *ᶠ t24
  let t25 ← rd (el2 1 4 X 1 IX)
  let t26 ← rd (el2 1 4 Y 4 IY)
  let t27 ← rd (el2 1 4 X 2 IX)
  let t28 ← rd (el2 1 4 Y 3 IY)
  let t29 ← rd (el2 1 4 X 3 IX)
  let t30 ← rd (el2 1 4 Y 2 IY)
  let t31 ← rd (el2 1 4 X 4 IX)
  let t32 ← rd (el2 1 4 Y 1 IY)
  let R4 : F := R4 +ᶠ t25 *ᶠ t26 +ᶠ t27 *ᶠ t28 -ᶠ t29 *ᶠ t30 +ᶠ t31 *ᶠ t32
  let IX : Int := IX + INCX
  let IY : Int := IY + INCY
  pure (IX, IY, R1, R2, R3, R4)

@[thr] theorem run_hdotu_20_I (INCX : Int) (INCY : Int) (X : Int) (Y : Int) (I : Int) (IX : Int) (IY : Int) (R1 : F) (R2 : F) (R3 : F) (R4 : F) :
    (Thr.hdotu_20_I INCX INCY X Y I IX IY R1 R2 R3 R4 (F := F)).run = Haxx.hdotu_20_I INCX INCY X Y I IX IY R1 R2 R3 R4 (F := F) := by
  simp only [Thr.hdotu_20_I, Haxx.hdotu_20_I, thr]

/-- As `Haxx.hdotu_if20`, `src/hblas/fortran/hblas1/hdotu.f:20-58`. -/
def hdotu_if20 (INCX : Int) (INCY : Int) (N : Int) (R1 : F) (R2 : F) (R3 : F) (R4 : F) (X : Int) (Y : Int) : Prog F (F × F × F × F) := do
  if (decide (INCX = 1)) && (decide (INCY = 1)) then
    let r ← foldN (N).toNat (fun i (s : F × F × F × F) => hdotu_10_I X Y ((i : Int) + 1) s.1 s.2.1 s.2.2.1 s.2.2.2) (R1, R2, R3, R4)
    let R1 : F := r.1
    let R2 : F := r.2.1
    let R3 : F := r.2.2.1
    let R4 : F := r.2.2.2
    pure (R1, R2, R3, R4)
  else
    let IX : Int := 1
    let IY : Int := 1
    let r ← (do
      if decide (INCX < 0) then
        let IX : Int := ((-N) + 1) * INCX + 1
        pure IX
      else
        pure IX : Prog F (Int))
    let IX : Int := r
    let r ← (do
      if decide (INCY < 0) then
        let IY : Int := ((-N) + 1) * INCY + 1
        pure IY
      else
        pure IY : Prog F (Int))
    let IY : Int := r
    let r ← foldN (N).toNat (fun i (s : Int × Int × F × F × F × F) => hdotu_20_I INCX INCY X Y ((i : Int) + 1) s.1 s.2.1 s.2.2.1 s.2.2.2.1 s.2.2.2.2.1 s.2.2.2.2.2) (IX, IY, R1, R2, R3, R4)
    let R1 : F := r.2.2.1
    let R2 : F := r.2.2.2.1
    let R3 : F := r.2.2.2.2.1
    let R4 : F := r.2.2.2.2.2
    pure (R1, R2, R3, R4)

@[thr] theorem run_hdotu_if20 (INCX : Int) (INCY : Int) (N : Int) (R1 : F) (R2 : F) (R3 : F) (R4 : F) (X : Int) (Y : Int) :
    (Thr.hdotu_if20 INCX INCY N R1 R2 R3 R4 X Y (F := F)).run = Haxx.hdotu_if20 INCX INCY N R1 R2 R3 R4 X Y (F := F) := by
  simp only [Thr.hdotu_if20, Haxx.hdotu_if20, thr]

/-- As `Haxx.hdotu`, `src/hblas/fortran/hblas1/hdotu.f:9-60`. -/
def hdotu (N : Int) (X : Int) (INCX : Int) (Y : Int) (INCY : Int) : Prog F (Quat F) := do
  let R1 : F := zero
  let R2 : F := zero
  let R3 : F := zero
  let R4 : F := zero
  if decide (N ≤ 0) then
    pure ⟨R1, R2, R3, R4⟩
  else
    let r ← hdotu_if20 INCX INCY N R1 R2 R3 R4 X Y
    let R1 : F := r.1
    let R2 : F := r.2.1
    let R3 : F := r.2.2.1
    let R4 : F := r.2.2.2
    pure ⟨R1, R2, R3, R4⟩

@[thr] theorem run_hdotu (N : Int) (X : Int) (INCX : Int) (Y : Int) (INCY : Int) :
    (Thr.hdotu N X INCX Y INCY (F := F)).run = Haxx.hdotu N X INCX Y INCY (F := F) := by
  simp only [Thr.hdotu, Haxx.hdotu, thr]

/-- As `Haxx.hdotc_10_I`, `src/hblas/fortran/hblas1/hdotc.f:21-34`, body of `DO 10 I`. -/
def hdotc_10_I (X : Int) (Y : Int) (I : Int) (R1 : F) (R2 : F) (R3 : F) (R4 : F) : Prog F (F × F × F × F) := do
  let t1 ← rd (el2 1 4 X 1 I)
  let t2 ← rd (el2 1 4 Y 1 I)
  let t3 ← rd (el2 1 4 X 2 I)
  let t4 ← rd (el2 1 4 Y 2 I)
  let t5 ← rd (el2 1 4 X 3 I)
  let t6 ← rd (el2 1 4 Y 3 I)
  let t7 ← rd (el2 1 4 X 4 I)
  let t8 ← rd (el2 1 4 Y 4 I)
  let R1 : F := R1 +ᶠ t1 *ᶠ t2 +ᶠ t3 *ᶠ t4 +ᶠ t5 *ᶠ t6 +ᶠ t7 *ᶠ t8
  let t9 ← rd (el2 1 4 X 1 I)
  let t10 ← rd (el2 1 4 Y 2 I)
  let t11 ← rd (el2 1 4 X 2 I)
  let t12 ← rd (el2 1 4 Y 1 I)
  let t13 ← rd (el2 1 4 X 3 I)
  let t14 ← rd (el2 1 4 Y 4 I)
  let t15 ← rd (el2 1 4 X 4 I)
  let t16 ← rd (el2 1 4 Y 3 I)
  let R2 : F := R2 +ᶠ t9 *ᶠ t10 -ᶠ t11 *ᶠ t12 -ᶠ t13 *ᶠ t14 +ᶠ t15 *ᶠ t16
  let t17 ← rd (el2 1 4 X 1 I)
  let t18 ← rd (el2 1 4 Y 3 I)
  let t19 ← rd (el2 1 4 X 2 I)
  let t20 ← rd (el2 1 4 Y 4 I)
  let t21 ← rd (el2 1 4 X 3 I)
  let t22 ← rd (el2 1 4 Y 1 I)
  let t23 ← rd (el2 1 4 X 4 I)
  let t24 ← rd (el2 1 4 Y 2 I)
  let R3 : F := R3 +ᶠ t17 *ᶠ t18 +ᶠ t19 *ᶠ t20 -ᶠ t21 *ᶠ t22 -ᶠ t23 *ᶠ t24
  let t25 ← rd (el2 1 4 X 1 I)
  let t26 ← rd (el2 1 4 Y 4 I)
  let t27 ← rd (el2 1 4 X 2 I)
  let t28 ← rd (el2 1 4 Y 3 I)
  let t29 ← rd (el2 1 4 X 3 I)
  let t30 ← rd (el2 1 4 Y 2 I)
  let t31 ← rd (el2 1 4 X 4 I)
  let t32 ← rd (el2 1 4 Y 1 I)
  let R4 : F := R4 +ᶠ t25 *ᶠ t26 -ᶠ t27 *ᶠ t28 +ᶠ t29 *ᶠ t30 -ᶠ t31 *ᶠ t32
  pure (R1, R2, R3, R4)

@[thr] theorem run_hdotc_10_I (X : Int) (Y : Int) (I : Int) (R1 : F) (R2 : F) (R3 : F) (R4 : F) :
    (Thr.hdotc_10_I X Y I R1 R2 R3 R4 (F := F)).run = Haxx.hdotc_10_I X Y I R1 R2 R3 R4 (F := F) := by
  simp only [Thr.hdotc_10_I, Haxx.hdotc_10_I, thr]

/-- As `Haxx.hdotc_20_I`, `src/hblas/fortran/hblas1/hdotc.f:42-57`, body of `DO 20 I`. -/
def hdotc_20_I (INCX : Int) (INCY : Int) (X : Int) (Y : Int) (I : Int) (IX : Int) (IY : Int) (R1 : F) (R2 : F) (R3 : F) (R4 : F) : Prog F (Int × Int × F × F × F × F) := do
  let t1 ← rd (el2 1 4 X 1 IX)
  let t2 ← rd (el2 1 4 Y 1 IY)
  let t3 ← rd (el2 1 4 X 2 IX)
  let t4 ← rd (el2 1 4 Y 2 IY)
  let t5 ← rd (el2 1 4 X 3 IX)
  let t6 ← rd (el2 1 4 Y 3 IY)
  let t7 ← rd (el2 1 4 X 4 IX)
  let t8 ← rd (el2 1 4 Y 4 IY)
  let R1 : F := R1 +ᶠ t1 *ᶠ t2 +ᶠ t3 *ᶠ t4 +ᶠ t5 *ᶠ t6 +ᶠ t7 *ᶠ t8
  let t9 ← rd (el2 1 4 X 1 IX)
  let t10 ← rd (el2 1 4 Y 2 IY)
  let t11 ← rd (el2 1 4 X 2 IX)
  let t12 ← rd (el2 1 4 Y 1 IY)
  let t13 ← rd (el2 1 4 X 3 IX)
  let t14 ← rd (el2 1 4 Y 4 IY)
  let t15 ← rd (el2 1 4 X 4 IX)
  let t16 ← rd (el2 1 4 Y 3 IY)
  let R2 : F := R2 +ᶠ t9 *ᶠ t10 -ᶠ t11 *ᶠ t12 -ᶠ t13 *ᶠ t14 +ᶠ t15 *ᶠ t16
  let t17 ← rd (el2 1 4 X 1 IX)
  let t18 ← rd (el2 1 4 Y 3 IY)
  let t19 ← rd (el2 1 4 X 2 IX)
  let t20 ← rd (el2 1 4 Y 4 IY)
  let t21 ← rd (el2 1 4 X 3 IX)
  let t22 ← rd (el2 1 4 Y 1 IY)
  let t23 ← rd (el2 1 4 X 4 IX)
  let t24 ← rd (el2 1 4 Y 2 IY)
  let R3 : F := R3 +ᶠ t17 *ᶠ t18 +ᶠ t19 *ᶠ t20 -ᶠ t21 *ᶠ t22 -ᶠ t23 *ᶠ t24
  let t25 ← rd (el2 1 4 X 1 IX)
  let t26 ← rd (el2 1 4 Y 4 IY)
  let t27 ← rd (el2 1 4 X 2 IX)
  let t28 ← rd (el2 1 4 Y 3 IY)
  let t29 ← rd (el2 1 4 X 3 IX)
  let t30 ← rd (el2 1 4 Y 2 IY)
  let t31 ← rd (el2 1 4 X 4 IX)
  let t32 ← rd (el2 1 4 Y 1 IY)
  let R4 : F := R4 +ᶠ t25 *ᶠ t26 -ᶠ t27 *ᶠ t28 +ᶠ t29 *ᶠ t30 -ᶠ t31 *ᶠ t32
  let IX : Int := IX + INCX
  let IY : Int := IY + INCY
  pure (IX, IY, R1, R2, R3, R4)

@[thr] theorem run_hdotc_20_I (INCX : Int) (INCY : Int) (X : Int) (Y : Int) (I : Int) (IX : Int) (IY : Int) (R1 : F) (R2 : F) (R3 : F) (R4 : F) :
    (Thr.hdotc_20_I INCX INCY X Y I IX IY R1 R2 R3 R4 (F := F)).run = Haxx.hdotc_20_I INCX INCY X Y I IX IY R1 R2 R3 R4 (F := F) := by
  simp only [Thr.hdotc_20_I, Haxx.hdotc_20_I, thr]

/-- As `Haxx.hdotc_if20`, `src/hblas/fortran/hblas1/hdotc.f:20-58`. -/
def hdotc_if20 (INCX : Int) (INCY : Int) (N : Int) (R1 : F) (R2 : F) (R3 : F) (R4 : F) (X : Int) (Y : Int) : Prog F (F × F × F × F) := do
  if (decide (INCX = 1)) && (decide (INCY = 1)) then
    let r ← foldN (N).toNat (fun i (s : F × F × F × F) => hdotc_10_I X Y ((i : Int) + 1) s.1 s.2.1 s.2.2.1 s.2.2.2) (R1, R2, R3, R4)
    let R1 : F := r.1
    let R2 : F := r.2.1
    let R3 : F := r.2.2.1
    let R4 : F := r.2.2.2
    pure (R1, R2, R3, R4)
  else
    let IX : Int := 1
    let IY : Int := 1
    let r ← (do
      if decide (INCX < 0) then
        let IX : Int := ((-N) + 1) * INCX + 1
        pure IX
      else
        pure IX : Prog F (Int))
    let IX : Int := r
    let r ← (do
      if decide (INCY < 0) then
        let IY : Int := ((-N) + 1) * INCY + 1
        pure IY
      else
        pure IY : Prog F (Int))
    let IY : Int := r
    let r ← foldN (N).toNat (fun i (s : Int × Int × F × F × F × F) => hdotc_20_I INCX INCY X Y ((i : Int) + 1) s.1 s.2.1 s.2.2.1 s.2.2.2.1 s.2.2.2.2.1 s.2.2.2.2.2) (IX, IY, R1, R2, R3, R4)
    let R1 : F := r.2.2.1
    let R2 : F := r.2.2.2.1
    let R3 : F := r.2.2.2.2.1
    let R4 : F := r.2.2.2.2.2
    pure (R1, R2, R3, R4)

@[thr] theorem run_hdotc_if20 (INCX : Int) (INCY : Int) (N : Int) (R1 : F) (R2 : F) (R3 : F) (R4 : F) (X : Int) (Y : Int) :
    (Thr.hdotc_if20 INCX INCY N R1 R2 R3 R4 X Y (F := F)).run = Haxx.hdotc_if20 INCX INCY N R1 R2 R3 R4 X Y (F := F) := by
  simp only [Thr.hdotc_if20, Haxx.hdotc_if20, thr]

/-- As `Haxx.hdotc`, `src/hblas/fortran/hblas1/hdotc.f:9-60`. -/
def hdotc (N : Int) (X : Int) (INCX : Int) (Y : Int) (INCY : Int) : Prog F (Quat F) := do
  let R1 : F := zero
  let R2 : F := zero
  let R3 : F := zero
  let R4 : F := zero
  if decide (N ≤ 0) then
    pure ⟨R1, R2, R3, R4⟩
  else
    let r ← hdotc_if20 INCX INCY N R1 R2 R3 R4 X Y
    let R1 : F := r.1
    let R2 : F := r.2.1
    let R3 : F := r.2.2.1
    let R4 : F := r.2.2.2
    pure ⟨R1, R2, R3, R4⟩

@[thr] theorem run_hdotc (N : Int) (X : Int) (INCX : Int) (Y : Int) (INCY : Int) :
    (Thr.hdotc N X INCX Y INCY (F := F)).run = Haxx.hdotc N X INCX Y INCY (F := F) := by
  simp only [Thr.hdotc, Haxx.hdotc, thr]

-- end of FHblas1

variable {F : Type} [Arith F] [ArithEq F]
/-- As `Haxx.hgerud_10_I`, `src/hblas/fortran/hblas2/hgerud.f:39-42`, body of `DO 10 I`. -/
def hgerud_10_I (A : Int) (HTMPJ : Cplx F) (HTMPS : Cplx F) (J : Int) (LDA : Int) (X : Int) (I : Int)  : Prog F (Unit) := do
  let t1 ← rdC (el3 2 2 LDA A 1 I J)
  let t2 ← rdC (el2 2 2 X 1 I)
  let t3 ← rdC (el2 2 2 X 2 I)
  wrC (el3 2 2 LDA A 1 I J) (t1 +ᶜ t2 *ᶜ HTMPS -ᶜ t3 *ᶜ Cplx.conj HTMPJ)
  let t4 ← rdC (el3 2 2 LDA A 2 I J)
  let t5 ← rdC (el2 2 2 X 1 I)
  let t6 ← rdC (el2 2 2 X 2 I)
  wrC (el3 2 2 LDA A 2 I J) (t4 +ᶜ t5 *ᶜ HTMPJ +ᶜ t6 *ᶜ Cplx.conj HTMPS)
  pure ()

@[thr] theorem run_hgerud_10_I (A : Int) (HTMPJ : Cplx F) (HTMPS : Cplx F) (J : Int) (LDA : Int) (X : Int) (I : Int) :
    (Thr.hgerud_10_I A HTMPJ HTMPS J LDA X I (F := F)).run = Haxx.hgerud_10_I A HTMPJ HTMPS J LDA X I (F := F) := by
  simp only [Thr.hgerud_10_I, Haxx.hgerud_10_I, thr]

/-- As `Haxx.hgerud_if36`, `src/hblas/fortran/hblas2/hgerud.f:36-43`. -/
def hgerud_if36 (A : Int) (ALPHA : F) (J : Int) (JY : Int) (LDA : Int) (M : Int) (X : Int) (Y : Int) : Prog F (Unit) := do
  let t1 ← rdC (el2 2 2 Y 1 JY)
  let t2 ← rdC (el2 2 2 Y 2 JY)
  if (!(Cplx.feq t1 (⟨zero, zero⟩ : Cplx F))) || (!(Cplx.feq t2 (⟨zero, zero⟩ : Cplx F))) then
    let t3 ← rdC (el2 2 2 Y 1 JY)
    let HTMPS : Cplx F := Cplx.ofReal ALPHA *ᶜ t3
    let t4 ← rdC (el2 2 2 Y 2 JY)
    let HTMPJ : Cplx F := Cplx.ofReal ALPHA *ᶜ t4
    forN (M).toNat (fun i => hgerud_10_I A HTMPJ HTMPS J LDA X ((i : Int) + 1))
    pure ()
  else
    pure ()

@[thr] theorem run_hgerud_if36 (A : Int) (ALPHA : F) (J : Int) (JY : Int) (LDA : Int) (M : Int) (X : Int) (Y : Int) :
    (Thr.hgerud_if36 A ALPHA J JY LDA M X Y (F := F)).run = Haxx.hgerud_if36 A ALPHA J JY LDA M X Y (F := F) := by
  simp only [Thr.hgerud_if36, Haxx.hgerud_if36, thr]

/-- As `Haxx.hgerud_20_J`, `src/hblas/fortran/hblas2/hgerud.f:35-45`, body of `DO 20 J`. -/
def hgerud_20_J (A : Int) (ALPHA : F) (INCY : Int) (LDA : Int) (M : Int) (X : Int) (Y : Int) (J : Int) (JY : Int) : Prog F (Int) := do
  hgerud_if36 A ALPHA J JY LDA M X Y
  let JY : Int := JY + INCY
  pure JY

@[thr] theorem run_hgerud_20_J (A : Int) (ALPHA : F) (INCY : Int) (LDA : Int) (M : Int) (X : Int) (Y : Int) (J : Int) (JY : Int) :
    (Thr.hgerud_20_J A ALPHA INCY LDA M X Y J JY (F := F)).run = Haxx.hgerud_20_J A ALPHA INCY LDA M X Y J JY (F := F) := by
  simp only [Thr.hgerud_20_J, Haxx.hgerud_20_J, thr]

/-- As `Haxx.hgerud_30_I`, `src/hblas/fortran/hblas2/hgerud.f:57-61`, body of `DO 30 I`. -/
def hgerud_30_I (A : Int) (HTMPJ : Cplx F) (INCX : Int) (J : Int) (LDA : Int) (X : Int) (I : Int) (IX : Int) : Prog F (Int) := do
  let t1 ← rdC (el3 2 2 LDA A 1 I J)
  let t2 ← rdC (el2 2 2 X 1 IX)
  let HTMPS ← (uninit : Prog F (Cplx F))
  let t3 ← rdC (el2 2 2 X 2 IX)
  wrC (el3 2 2 LDA A 1 I J) (t1 +ᶜ t2 *ᶜ HTMPS -ᶜ t3 *ᶜ Cplx.conj HTMPJ)
  let t4 ← rdC (el3 2 2 LDA A 2 I J)
  let t5 ← rdC (el2 2 2 X 1 IX)
  let t6 ← rdC (el2 2 2 X 2 IX)
  wrC (el3 2 2 LDA A 2 I J) (t4 +ᶜ t5 *ᶜ HTMPJ +ᶜ t6 *ᶜ Cplx.conj HTMPS)
  let IX : Int := IX + INCX
  pure IX

@[thr] theorem run_hgerud_30_I (A : Int) (HTMPJ : Cplx F) (INCX : Int) (J : Int) (LDA : Int) (X : Int) (I : Int) (IX : Int) :
    (Thr.hgerud_30_I A HTMPJ INCX J LDA X I IX (F := F)).run = Haxx.hgerud_30_I A HTMPJ INCX J LDA X I IX (F := F) := by
  simp only [Thr.hgerud_30_I, Haxx.hgerud_30_I, thr]

/-- As `Haxx.hgerud_if53`, `src/hblas/fortran/hblas2/hgerud.f:53-62`. -/
def hgerud_if53 (A : Int) (ALPHA : F) (INCX : Int) (J : Int) (JY : Int) (KX : Int) (LDA : Int) (M : Int) (X : Int) (Y : Int) : Prog F (Unit) := do
  let t1 ← rdC (el2 2 2 Y 1 JY)
  let t2 ← rdC (el2 2 2 Y 2 JY)
  if (!(Cplx.feq t1 (⟨zero, zero⟩ : Cplx F))) || (!(Cplx.feq t2 (⟨zero, zero⟩ : Cplx F))) then
    -- HTMPI (line 54) is never read
    let t3 ← rdC (el2 2 2 Y 2 JY)
    let HTMPJ : Cplx F := Cplx.ofReal ALPHA *ᶜ t3
    let IX : Int := KX
    let r ← foldN (M).toNat (fun i (s : Int) => hgerud_30_I A HTMPJ INCX J LDA X ((i : Int) + 1) s) IX
    pure ()
  else
    pure ()

@[thr] theorem run_hgerud_if53 (A : Int) (ALPHA : F) (INCX : Int) (J : Int) (JY : Int) (KX : Int) (LDA : Int) (M : Int) (X : Int) (Y : Int) :
    (Thr.hgerud_if53 A ALPHA INCX J JY KX LDA M X Y (F := F)).run = Haxx.hgerud_if53 A ALPHA INCX J JY KX LDA M X Y (F := F) := by
  simp only [Thr.hgerud_if53, Haxx.hgerud_if53, thr]

/-- As `Haxx.hgerud_40_J`, `src/hblas/fortran/hblas2/hgerud.f:52-64`, body of `DO 40 J`. -/
def hgerud_40_J (A : Int) (ALPHA : F) (INCX : Int) (INCY : Int) (KX : Int) (LDA : Int) (M : Int) (X : Int) (Y : Int) (J : Int) (JY : Int) : Prog F (Int) := do
  hgerud_if53 A ALPHA INCX J JY KX LDA M X Y
  let JY : Int := JY + INCY
  pure JY

@[thr] theorem run_hgerud_40_J (A : Int) (ALPHA : F) (INCX : Int) (INCY : Int) (KX : Int) (LDA : Int) (M : Int) (X : Int) (Y : Int) (J : Int) (JY : Int) :
    (Thr.hgerud_40_J A ALPHA INCX INCY KX LDA M X Y J JY (F := F)).run = Haxx.hgerud_40_J A ALPHA INCX INCY KX LDA M X Y J JY (F := F) := by
  simp only [Thr.hgerud_40_J, Haxx.hgerud_40_J, thr]

/-- As `Haxx.hgerud_if34`, `src/hblas/fortran/hblas2/hgerud.f:34-65`. -/
def hgerud_if34 (A : Int) (ALPHA : F) (INCX : Int) (INCY : Int) (JY : Int) (LDA : Int) (M : Int) (N : Int) (X : Int) (Y : Int) : Prog F (Unit) := do
  if decide (INCX = 1) then
    let r ← foldN (N).toNat (fun i (s : Int) => hgerud_20_J A ALPHA INCY LDA M X Y ((i : Int) + 1) s) JY
    pure ()
  else
    let r ← (do
      if decide (INCX > 0) then
        let KX : Int := 1
        pure KX
      else
        let KX : Int := 1 - (M - 1) * INCX
        pure KX : Prog F (Int))
    let KX : Int := r
    let r ← foldN (N).toNat (fun i (s : Int) => hgerud_40_J A ALPHA INCX INCY KX LDA M X Y ((i : Int) + 1) s) JY
    pure ()

@[thr] theorem run_hgerud_if34 (A : Int) (ALPHA : F) (INCX : Int) (INCY : Int) (JY : Int) (LDA : Int) (M : Int) (N : Int) (X : Int) (Y : Int) :
    (Thr.hgerud_if34 A ALPHA INCX INCY JY LDA M N X Y (F := F)).run = Haxx.hgerud_if34 A ALPHA INCX INCY JY LDA M N X Y (F := F) := by
  simp only [Thr.hgerud_if34, Haxx.hgerud_if34, thr]

/-- As `Haxx.hgerud`, `src/hblas/fortran/hblas2/hgerud.f:9-67`. -/
def hgerud (M : Int) (N : Int) (ALPHA : F) (X : Int) (INCX : Int) (Y : Int) (INCY : Int) (A : Int) (LDA : Int) : Prog F (Unit) := do
  let AZERO : Bool := ALPHA ==ᶠ (zero : F)
  -- AONE (line 24) is never read
  if ((decide (M = 0)) || (decide (N = 0))) || AZERO then
    pure ()
  else
    let r ← (do
      if decide (INCY > 0) then
        let JY : Int := 1
        pure JY
      else
        let JY : Int := 1 - (N - 1) * INCY
        pure JY : Prog F (Int))
    let JY : Int := r
    hgerud_if34 A ALPHA INCX INCY JY LDA M N X Y
    pure ()

@[thr] theorem run_hgerud (M : Int) (N : Int) (ALPHA : F) (X : Int) (INCX : Int) (Y : Int) (INCY : Int) (A : Int) (LDA : Int) :
    (Thr.hgerud M N ALPHA X INCX Y INCY A LDA (F := F)).run = Haxx.hgerud M N ALPHA X INCX Y INCY A LDA (F := F) := by
  simp only [Thr.hgerud, Haxx.hgerud, thr]

/-- As `Haxx.hgeruz_10_I`, `src/hblas/fortran/hblas2/hgeruz.f:40-43`, body of `DO 10 I`. -/
def hgeruz_10_I (A : Int) (HTMP1J : Cplx F) (HTMP1S : Cplx F) (HTMP2J : Cplx F) (HTMP2S : Cplx F) (J : Int) (LDA : Int) (X : Int) (I : Int)  : Prog F (Unit) := do
  let t1 ← rdC (el3 2 2 LDA A 1 I J)
  let t2 ← rdC (el2 2 2 X 1 I)
  let t3 ← rdC (el2 2 2 X 2 I)
  wrC (el3 2 2 LDA A 1 I J) (t1 +ᶜ t2 *ᶜ HTMP1S -ᶜ t3 *ᶜ HTMP2J)
  let t4 ← rdC (el3 2 2 LDA A 2 I J)
  let t5 ← rdC (el2 2 2 X 1 I)
  let t6 ← rdC (el2 2 2 X 2 I)
  wrC (el3 2 2 LDA A 2 I J) (t4 +ᶜ t5 *ᶜ HTMP1J +ᶜ t6 *ᶜ HTMP2S)
  pure ()

@[thr] theorem run_hgeruz_10_I (A : Int) (HTMP1J : Cplx F) (HTMP1S : Cplx F) (HTMP2J : Cplx F) (HTMP2S : Cplx F) (J : Int) (LDA : Int) (X : Int) (I : Int) :
    (Thr.hgeruz_10_I A HTMP1J HTMP1S HTMP2J HTMP2S J LDA X I (F := F)).run = Haxx.hgeruz_10_I A HTMP1J HTMP1S HTMP2J HTMP2S J LDA X I (F := F) := by
  simp only [Thr.hgeruz_10_I, Haxx.hgeruz_10_I, thr]

/-- As `Haxx.hgeruz_if35`, `src/hblas/fortran/hblas2/hgeruz.f:35-44`. -/
def hgeruz_if35 (A : Int) (ALPHA : Cplx F) (J : Int) (JY : Int) (LDA : Int) (M : Int) (X : Int) (Y : Int) : Prog F (Unit) := do
  let t1 ← rdC (el2 2 2 Y 1 JY)
  let t2 ← rdC (el2 2 2 Y 2 JY)
  if (!(Cplx.feq t1 (⟨zero, zero⟩ : Cplx F))) || (!(Cplx.feq t2 (⟨zero, zero⟩ : Cplx F))) then
    let t3 ← rdC (el2 2 2 Y 1 JY)
    let HTMP1S : Cplx F := ALPHA *ᶜ t3
    let t4 ← rdC (el2 2 2 Y 2 JY)
    let HTMP1J : Cplx F := ALPHA *ᶜ t4
    let t5 ← rdC (el2 2 2 Y 1 JY)
    let HTMP2S : Cplx F := ALPHA *ᶜ Cplx.conj t5
    let t6 ← rdC (el2 2 2 Y 2 JY)
    let HTMP2J : Cplx F := ALPHA *ᶜ Cplx.conj t6
    forN (M).toNat (fun i => hgeruz_10_I A HTMP1J HTMP1S HTMP2J HTMP2S J LDA X ((i : Int) + 1))
    pure ()
  else
    pure ()

@[thr] theorem run_hgeruz_if35 (A : Int) (ALPHA : Cplx F) (J : Int) (JY : Int) (LDA : Int) (M : Int) (X : Int) (Y : Int) :
    (Thr.hgeruz_if35 A ALPHA J JY LDA M X Y (F := F)).run = Haxx.hgeruz_if35 A ALPHA J JY LDA M X Y (F := F) := by
  simp only [Thr.hgeruz_if35, Haxx.hgeruz_if35, thr]

/-- As `Haxx.hgeruz_20_J`, `src/hblas/fortran/hblas2/hgeruz.f:34-46`, body of `DO 20 J`. -/
def hgeruz_20_J (A : Int) (ALPHA : Cplx F) (INCY : Int) (LDA : Int) (M : Int) (X : Int) (Y : Int) (J : Int) (JY : Int) : Prog F (Int) := do
  hgeruz_if35 A ALPHA J JY LDA M X Y
  let JY : Int := JY + INCY
  pure JY

@[thr] theorem run_hgeruz_20_J (A : Int) (ALPHA : Cplx F) (INCY : Int) (LDA : Int) (M : Int) (X : Int) (Y : Int) (J : Int) (JY : Int) :
    (Thr.hgeruz_20_J A ALPHA INCY LDA M X Y J JY (F := F)).run = Haxx.hgeruz_20_J A ALPHA INCY LDA M X Y J JY (F := F) := by
  simp only [Thr.hgeruz_20_J, Haxx.hgeruz_20_J, thr]

/-- As `Haxx.hgeruz_30_I`, `src/hblas/fortran/hblas2/hgeruz.f:60-64`, body of `DO 30 I`. -/
def hgeruz_30_I (A : Int) (HTMP1J : Cplx F) (HTMP1S : Cplx F) (HTMP2J : Cplx F) (HTMP2S : Cplx F) (INCX : Int) (J : Int) (LDA : Int) (X : Int) (I : Int) (IX : Int) : Prog F (Int) := do
  let t1 ← rdC (el3 2 2 LDA A 1 I J)
  let t2 ← rdC (el2 2 2 X 1 IX)
  let t3 ← rdC (el2 2 2 X 2 IX)
  wrC (el3 2 2 LDA A 1 I J) (t1 +ᶜ t2 *ᶜ HTMP1S -ᶜ t3 *ᶜ HTMP2J)
  let t4 ← rdC (el3 2 2 LDA A 2 I J)
  let t5 ← rdC (el2 2 2 X 1 IX)
  let t6 ← rdC (el2 2 2 X 2 IX)
  wrC (el3 2 2 LDA A 2 I J) (t4 +ᶜ t5 *ᶜ HTMP1J +ᶜ t6 *ᶜ HTMP2S)
  let IX : Int := IX + INCX
  pure IX

@[thr] theorem run_hgeruz_30_I (A : Int) (HTMP1J : Cplx F) (HTMP1S : Cplx F) (HTMP2J : Cplx F) (HTMP2S : Cplx F) (INCX : Int) (J : Int) (LDA : Int) (X : Int) (I : Int) (IX : Int) :
    (Thr.hgeruz_30_I A HTMP1J HTMP1S HTMP2J HTMP2S INCX J LDA X I IX (F := F)).run = Haxx.hgeruz_30_I A HTMP1J HTMP1S HTMP2J HTMP2S INCX J LDA X I IX (F := F) := by
  simp only [Thr.hgeruz_30_I, Haxx.hgeruz_30_I, thr]

/-- As `Haxx.hgeruz_if54`, `src/hblas/fortran/hblas2/hgeruz.f:54-65`. -/
def hgeruz_if54 (A : Int) (ALPHA : Cplx F) (INCX : Int) (J : Int) (JY : Int) (KX : Int) (LDA : Int) (M : Int) (X : Int) (Y : Int) : Prog F (Unit) := do
  let t1 ← rdC (el2 2 2 Y 1 JY)
  let t2 ← rdC (el2 2 2 Y 2 JY)
  if (!(Cplx.feq t1 (⟨zero, zero⟩ : Cplx F))) || (!(Cplx.feq t2 (⟨zero, zero⟩ : Cplx F))) then
    let t3 ← rdC (el2 2 2 Y 1 JY)
    let HTMP1S : Cplx F := ALPHA *ᶜ t3
    let t4 ← rdC (el2 2 2 Y 2 JY)
    let HTMP1J : Cplx F := ALPHA *ᶜ t4
    let t5 ← rdC (el2 2 2 Y 1 JY)
    let HTMP2S : Cplx F := ALPHA *ᶜ Cplx.conj t5
    let t6 ← rdC (el2 2 2 Y 2 JY)
    let HTMP2J : Cplx F := ALPHA *ᶜ Cplx.conj t6
    let IX : Int := KX
    let r ← foldN (M).toNat (fun i (s : Int) => hgeruz_30_I A HTMP1J HTMP1S HTMP2J HTMP2S INCX J LDA X ((i : Int) + 1) s) IX
    pure ()
  else
    pure ()

@[thr] theorem run_hgeruz_if54 (A : Int) (ALPHA : Cplx F) (INCX : Int) (J : Int) (JY : Int) (KX : Int) (LDA : Int) (M : Int) (X : Int) (Y : Int) :
    (Thr.hgeruz_if54 A ALPHA INCX J JY KX LDA M X Y (F := F)).run = Haxx.hgeruz_if54 A ALPHA INCX J JY KX LDA M X Y (F := F) := by
  simp only [Thr.hgeruz_if54, Haxx.hgeruz_if54, thr]

/-- As `Haxx.hgeruz_40_J`, `src/hblas/fortran/hblas2/hgeruz.f:53-67`, body of `DO 40 J`. -/
def hgeruz_40_J (A : Int) (ALPHA : Cplx F) (INCX : Int) (INCY : Int) (KX : Int) (LDA : Int) (M : Int) (X : Int) (Y : Int) (J : Int) (JY : Int) : Prog F (Int) := do
  hgeruz_if54 A ALPHA INCX J JY KX LDA M X Y
  let JY : Int := JY + INCY
  pure JY

@[thr] theorem run_hgeruz_40_J (A : Int) (ALPHA : Cplx F) (INCX : Int) (INCY : Int) (KX : Int) (LDA : Int) (M : Int) (X : Int) (Y : Int) (J : Int) (JY : Int) :
    (Thr.hgeruz_40_J A ALPHA INCX INCY KX LDA M X Y J JY (F := F)).run = Haxx.hgeruz_40_J A ALPHA INCX INCY KX LDA M X Y J JY (F := F) := by
  simp only [Thr.hgeruz_40_J, Haxx.hgeruz_40_J, thr]

/-- As `Haxx.hgeruz_if33`, `src/hblas/fortran/hblas2/hgeruz.f:33-68`. -/
def hgeruz_if33 (A : Int) (ALPHA : Cplx F) (INCX : Int) (INCY : Int) (JY : Int) (LDA : Int) (M : Int) (N : Int) (X : Int) (Y : Int) : Prog F (Unit) := do
  if decide (INCX = 1) then
    let r ← foldN (N).toNat (fun i (s : Int) => hgeruz_20_J A ALPHA INCY LDA M X Y ((i : Int) + 1) s) JY
    pure ()
  else
    let r ← (do
      if decide (INCX > 0) then
        let KX : Int := 1
        pure KX
      else
        let KX : Int := 1 - (M - 1) * INCX
        pure KX : Prog F (Int))
    let KX : Int := r
    let r ← foldN (N).toNat (fun i (s : Int) => hgeruz_40_J A ALPHA INCX INCY KX LDA M X Y ((i : Int) + 1) s) JY
    pure ()

@[thr] theorem run_hgeruz_if33 (A : Int) (ALPHA : Cplx F) (INCX : Int) (INCY : Int) (JY : Int) (LDA : Int) (M : Int) (N : Int) (X : Int) (Y : Int) :
    (Thr.hgeruz_if33 A ALPHA INCX INCY JY LDA M N X Y (F := F)).run = Haxx.hgeruz_if33 A ALPHA INCX INCY JY LDA M N X Y (F := F) := by
  simp only [Thr.hgeruz_if33, Haxx.hgeruz_if33, thr]

/-- As `Haxx.hgeruz`, `src/hblas/fortran/hblas2/hgeruz.f:9-70`. -/
def hgeruz (M : Int) (N : Int) (ALPHA : Cplx F) (X : Int) (INCX : Int) (Y : Int) (INCY : Int) (A : Int) (LDA : Int) : Prog F (Unit) := do
  let AZERO : Bool := Cplx.feq ALPHA (⟨zero, zero⟩ : Cplx F)
  -- AONE (line 23) is never read
  if ((decide (M = 0)) || (decide (N = 0))) || AZERO then
    pure ()
  else
    let r ← (do
      if decide (INCY > 0) then
        let JY : Int := 1
        pure JY
      else
        let JY : Int := 1 - (N - 1) * INCY
        pure JY : Prog F (Int))
    let JY : Int := r
    hgeruz_if33 A ALPHA INCX INCY JY LDA M N X Y
    pure ()

@[thr] theorem run_hgeruz (M : Int) (N : Int) (ALPHA : Cplx F) (X : Int) (INCX : Int) (Y : Int) (INCY : Int) (A : Int) (LDA : Int) :
    (Thr.hgeruz M N ALPHA X INCX Y INCY A LDA (F := F)).run = Haxx.hgeruz M N ALPHA X INCX Y INCY A LDA (F := F) := by
  simp only [Thr.hgeruz, Haxx.hgeruz, thr]

/-- As `Haxx.hgeruh_10_I`, `src/hblas/fortran/hblas2/hgeruh.f:45-52`, body of `DO 10 I`. -/
def hgeruh_10_I (A : Int) (HTMP1J : Cplx F) (HTMP1S : Cplx F) (HTMP2J : Cplx F) (HTMP2S : Cplx F) (HTMP3J : Cplx F) (HTMP3S : Cplx F) (HTMP4J : Cplx F) (HTMP4S : Cplx F) (J : Int) (LDA : Int) (X : Int) (I : Int)  : Prog F (Unit) := do
  let t1 ← rdC (el3 2 2 LDA A 1 I J)
  let t2 ← rdC (el2 2 2 X 1 I)
  let t3 ← rdC (el2 2 2 X 2 I)
  let t4 ← rdC (el2 2 2 X 1 I)
  let t5 ← rdC (el2 2 2 X 2 I)
  wrC (el3 2 2 LDA A 1 I J) (t1 +ᶜ t2 *ᶜ HTMP1S -ᶜ t3 *ᶜ HTMP2J -ᶜ Cplx.conj t4 *ᶜ HTMP4J -ᶜ Cplx.conj t5 *ᶜ HTMP3S)
  let t6 ← rdC (el3 2 2 LDA A 2 I J)
  let t7 ← rdC (el2 2 2 X 1 I)
  let t8 ← rdC (el2 2 2 X 2 I)
  let t9 ← rdC (el2 2 2 X 1 I)
  let t10 ← rdC (el2 2 2 X 2 I)
  wrC (el3 2 2 LDA A 2 I J) (t6 +ᶜ t7 *ᶜ HTMP1J +ᶜ t8 *ᶜ HTMP2S +ᶜ Cplx.conj t9 *ᶜ HTMP4S -ᶜ Cplx.conj t10 *ᶜ HTMP3J)
  pure ()

@[thr] theorem run_hgeruh_10_I (A : Int) (HTMP1J : Cplx F) (HTMP1S : Cplx F) (HTMP2J : Cplx F) (HTMP2S : Cplx F) (HTMP3J : Cplx F) (HTMP3S : Cplx F) (HTMP4J : Cplx F) (HTMP4S : Cplx F) (J : Int) (LDA : Int) (X : Int) (I : Int) :
    (Thr.hgeruh_10_I A HTMP1J HTMP1S HTMP2J HTMP2S HTMP3J HTMP3S HTMP4J HTMP4S J LDA X I (F := F)).run = Haxx.hgeruh_10_I A HTMP1J HTMP1S HTMP2J HTMP2S HTMP3J HTMP3S HTMP4J HTMP4S J LDA X I (F := F) := by
  simp only [Thr.hgeruh_10_I, Haxx.hgeruh_10_I, thr]

/-- As `Haxx.hgeruh_if36`, `src/hblas/fortran/hblas2/hgeruh.f:36-53`. -/
def hgeruh_if36 (A : Int) (ALPHA : Quat F) (J : Int) (JY : Int) (LDA : Int) (M : Int) (X : Int) (Y : Int) : Prog F (Unit) := do
  let t1 ← rdC (el2 2 2 Y 1 JY)
  let t2 ← rdC (el2 2 2 Y 2 JY)
  if (!(Cplx.feq t1 (⟨zero, zero⟩ : Cplx F))) || (!(Cplx.feq t2 (⟨zero, zero⟩ : Cplx F))) then
    let t3 ← rdC (el2 2 2 Y 1 JY)
    let HTMP1S : Cplx F := Quat.lo ALPHA *ᶜ t3
    let t4 ← rdC (el2 2 2 Y 2 JY)
    let HTMP1J : Cplx F := Quat.lo ALPHA *ᶜ t4
    let t5 ← rdC (el2 2 2 Y 1 JY)
    let HTMP2S : Cplx F := Quat.lo ALPHA *ᶜ Cplx.conj t5
    let t6 ← rdC (el2 2 2 Y 2 JY)
    let HTMP2J : Cplx F := Quat.lo ALPHA *ᶜ Cplx.conj t6
    let t7 ← rdC (el2 2 2 Y 1 JY)
    let HTMP3S : Cplx F := Quat.hi ALPHA *ᶜ t7
    let t8 ← rdC (el2 2 2 Y 2 JY)
    let HTMP3J : Cplx F := Quat.hi ALPHA *ᶜ t8
    let t9 ← rdC (el2 2 2 Y 1 JY)
    let HTMP4S : Cplx F := Quat.hi ALPHA *ᶜ Cplx.conj t9
    let t10 ← rdC (el2 2 2 Y 2 JY)
    let HTMP4J : Cplx F := Quat.hi ALPHA *ᶜ Cplx.conj t10
    forN (M).toNat (fun i => hgeruh_10_I A HTMP1J HTMP1S HTMP2J HTMP2S HTMP3J HTMP3S HTMP4J HTMP4S J LDA X ((i : Int) + 1))
    pure ()
  else
    pure ()

@[thr] theorem run_hgeruh_if36 (A : Int) (ALPHA : Quat F) (J : Int) (JY : Int) (LDA : Int) (M : Int) (X : Int) (Y : Int) :
    (Thr.hgeruh_if36 A ALPHA J JY LDA M X Y (F := F)).run = Haxx.hgeruh_if36 A ALPHA J JY LDA M X Y (F := F) := by
  simp only [Thr.hgeruh_if36, Haxx.hgeruh_if36, thr]

/-- As `Haxx.hgeruh_20_J`, `src/hblas/fortran/hblas2/hgeruh.f:35-55`, body of `DO 20 J`. -/
def hgeruh_20_J (A : Int) (ALPHA : Quat F) (INCY : Int) (LDA : Int) (M : Int) (X : Int) (Y : Int) (J : Int) (JY : Int) : Prog F (Int) := do
  hgeruh_if36 A ALPHA J JY LDA M X Y
  let JY : Int := JY + INCY
  pure JY

@[thr] theorem run_hgeruh_20_J (A : Int) (ALPHA : Quat F) (INCY : Int) (LDA : Int) (M : Int) (X : Int) (Y : Int) (J : Int) (JY : Int) :
    (Thr.hgeruh_20_J A ALPHA INCY LDA M X Y J JY (F := F)).run = Haxx.hgeruh_20_J A ALPHA INCY LDA M X Y J JY (F := F) := by
  simp only [Thr.hgeruh_20_J, Haxx.hgeruh_20_J, thr]

/-- As `Haxx.hgeruh_30_I`, `src/hblas/fortran/hblas2/hgeruh.f:73-81`, body of `DO 30 I`. -/
def hgeruh_30_I (A : Int) (HTMP1J : Cplx F) (HTMP1S : Cplx F) (HTMP2J : Cplx F) (HTMP2S : Cplx F) (HTMP3J : Cplx F) (HTMP3S : Cplx F) (HTMP4J : Cplx F) (HTMP4S : Cplx F) (INCX : Int) (J : Int) (LDA : Int) (X : Int) (I : Int) (IX : Int) : Prog F (Int) := do
  let t1 ← rdC (el3 2 2 LDA A 1 I J)
  let t2 ← rdC (el2 2 2 X 1 IX)
  let t3 ← rdC (el2 2 2 X 2 IX)
  let t4 ← rdC (el2 2 2 X 1 IX)
  let t5 ← rdC (el2 2 2 X 2 IX)
  wrC (el3 2 2 LDA A 1 I J) (t1 +ᶜ t2 *ᶜ HTMP1S -ᶜ t3 *ᶜ HTMP2J -ᶜ Cplx.conj t4 *ᶜ HTMP4J -ᶜ Cplx.conj t5 *ᶜ HTMP3S)
  let t6 ← rdC (el3 2 2 LDA A 2 I J)
  let t7 ← rdC (el2 2 2 X 1 IX)
  let t8 ← rdC (el2 2 2 X 2 IX)
  let t9 ← rdC (el2 2 2 X 1 IX)
  let t10 ← rdC (el2 2 2 X 2 IX)
  wrC (el3 2 2 LDA A 2 I J) (t6 +ᶜ t7 *ᶜ HTMP1J +ᶜ t8 *ᶜ HTMP2S +ᶜ Cplx.conj t9 *ᶜ HTMP4S -ᶜ Cplx.conj t10 *ᶜ HTMP3J)
  let IX : Int := IX + INCX
  pure IX

@[thr] theorem run_hgeruh_30_I (A : Int) (HTMP1J : Cplx F) (HTMP1S : Cplx F) (HTMP2J : Cplx F) (HTMP2S : Cplx F) (HTMP3J : Cplx F) (HTMP3S : Cplx F) (HTMP4J : Cplx F) (HTMP4S : Cplx F) (INCX : Int) (J : Int) (LDA : Int) (X : Int) (I : Int) (IX : Int) :
    (Thr.hgeruh_30_I A HTMP1J HTMP1S HTMP2J HTMP2S HTMP3J HTMP3S HTMP4J HTMP4S INCX J LDA X I IX (F := F)).run = Haxx.hgeruh_30_I A HTMP1J HTMP1S HTMP2J HTMP2S HTMP3J HTMP3S HTMP4J HTMP4S INCX J LDA X I IX (F := F) := by
  simp only [Thr.hgeruh_30_I, Haxx.hgeruh_30_I, thr]

/-- As `Haxx.hgeruh_if63`, `src/hblas/fortran/hblas2/hgeruh.f:63-82`. -/
def hgeruh_if63 (A : Int) (ALPHA : Quat F) (INCX : Int) (J : Int) (JY : Int) (KX : Int) (LDA : Int) (M : Int) (X : Int) (Y : Int) : Prog F (Unit) := do
  let t1 ← rdC (el2 2 2 Y 1 JY)
  let t2 ← rdC (el2 2 2 Y 2 JY)
  if (!(Cplx.feq t1 (⟨zero, zero⟩ : Cplx F))) || (!(Cplx.feq t2 (⟨zero, zero⟩ : Cplx F))) then
    let t3 ← rdC (el2 2 2 Y 1 JY)
    let HTMP1S : Cplx F := Quat.lo ALPHA *ᶜ t3
    let t4 ← rdC (el2 2 2 Y 2 JY)
    let HTMP1J : Cplx F := Quat.lo ALPHA *ᶜ t4
    let t5 ← rdC (el2 2 2 Y 1 JY)
    let HTMP2S : Cplx F := Quat.lo ALPHA *ᶜ Cplx.conj t5
    let t6 ← rdC (el2 2 2 Y 2 JY)
    let HTMP2J : Cplx F := Quat.lo ALPHA *ᶜ Cplx.conj t6
    let t7 ← rdC (el2 2 2 Y 1 JY)
    let HTMP3S : Cplx F := Quat.hi ALPHA *ᶜ t7
    let t8 ← rdC (el2 2 2 Y 2 JY)
    let HTMP3J : Cplx F := Quat.hi ALPHA *ᶜ t8
    let t9 ← rdC (el2 2 2 Y 1 JY)
    let HTMP4S : Cplx F := Quat.hi ALPHA *ᶜ Cplx.conj t9
    let t10 ← rdC (el2 2 2 Y 2 JY)
    let HTMP4J : Cplx F := Quat.hi ALPHA *ᶜ Cplx.conj t10
    let IX : Int := KX
    let r ← foldN (M).toNat (fun i (s : Int) => hgeruh_30_I A HTMP1J HTMP1S HTMP2J HTMP2S HTMP3J HTMP3S HTMP4J HTMP4S INCX J LDA X ((i : Int) + 1) s) IX
    pure ()
  else
    pure ()

@[thr] theorem run_hgeruh_if63 (A : Int) (ALPHA : Quat F) (INCX : Int) (J : Int) (JY : Int) (KX : Int) (LDA : Int) (M : Int) (X : Int) (Y : Int) :
    (Thr.hgeruh_if63 A ALPHA INCX J JY KX LDA M X Y (F := F)).run = Haxx.hgeruh_if63 A ALPHA INCX J JY KX LDA M X Y (F := F) := by
  simp only [Thr.hgeruh_if63, Haxx.hgeruh_if63, thr]

/-- As `Haxx.hgeruh_40_J`, `src/hblas/fortran/hblas2/hgeruh.f:62-84`, body of `DO 40 J`. -/
def hgeruh_40_J (A : Int) (ALPHA : Quat F) (INCX : Int) (INCY : Int) (KX : Int) (LDA : Int) (M : Int) (X : Int) (Y : Int) (J : Int) (JY : Int) : Prog F (Int) := do
  hgeruh_if63 A ALPHA INCX J JY KX LDA M X Y
  let JY : Int := JY + INCY
  pure JY

@[thr] theorem run_hgeruh_40_J (A : Int) (ALPHA : Quat F) (INCX : Int) (INCY : Int) (KX : Int) (LDA : Int) (M : Int) (X : Int) (Y : Int) (J : Int) (JY : Int) :
    (Thr.hgeruh_40_J A ALPHA INCX INCY KX LDA M X Y J JY (F := F)).run = Haxx.hgeruh_40_J A ALPHA INCX INCY KX LDA M X Y J JY (F := F) := by
  simp only [Thr.hgeruh_40_J, Haxx.hgeruh_40_J, thr]

/-- As `Haxx.hgeruh_if34`, `src/hblas/fortran/hblas2/hgeruh.f:34-85`. -/
def hgeruh_if34 (A : Int) (ALPHA : Quat F) (INCX : Int) (INCY : Int) (JY : Int) (LDA : Int) (M : Int) (N : Int) (X : Int) (Y : Int) : Prog F (Unit) := do
  if decide (INCX = 1) then
    let r ← foldN (N).toNat (fun i (s : Int) => hgeruh_20_J A ALPHA INCY LDA M X Y ((i : Int) + 1) s) JY
    pure ()
  else
    let r ← (do
      if decide (INCX > 0) then
        let KX : Int := 1
        pure KX
      else
        let KX : Int := 1 - (M - 1) * INCX
        pure KX : Prog F (Int))
    let KX : Int := r
    let r ← foldN (N).toNat (fun i (s : Int) => hgeruh_40_J A ALPHA INCX INCY KX LDA M X Y ((i : Int) + 1) s) JY
    pure ()

@[thr] theorem run_hgeruh_if34 (A : Int) (ALPHA : Quat F) (INCX : Int) (INCY : Int) (JY : Int) (LDA : Int) (M : Int) (N : Int) (X : Int) (Y : Int) :
    (Thr.hgeruh_if34 A ALPHA INCX INCY JY LDA M N X Y (F := F)).run = Haxx.hgeruh_if34 A ALPHA INCX INCY JY LDA M N X Y (F := F) := by
  simp only [Thr.hgeruh_if34, Haxx.hgeruh_if34, thr]

/-- As `Haxx.hgeruh`, `src/hblas/fortran/hblas2/hgeruh.f:9-87`. -/
def hgeruh (M : Int) (N : Int) (ALPHA : Quat F) (X : Int) (INCX : Int) (Y : Int) (INCY : Int) (A : Int) (LDA : Int) : Prog F (Unit) := do
  let AZERO : Bool := (Cplx.feq (Quat.lo ALPHA) (⟨zero, zero⟩ : Cplx F)) && (Cplx.feq (Quat.hi ALPHA) (⟨zero, zero⟩ : Cplx F))
  -- AONE (line 24) is never read
  if ((decide (M = 0)) || (decide (N = 0))) || AZERO then
    pure ()
  else
    let r ← (do
      if decide (INCY > 0) then
        let JY : Int := 1
        pure JY
      else
        let JY : Int := 1 - (N - 1) * INCY
        pure JY : Prog F (Int))
    let JY : Int := r
    hgeruh_if34 A ALPHA INCX INCY JY LDA M N X Y
    pure ()

@[thr] theorem run_hgeruh (M : Int) (N : Int) (ALPHA : Quat F) (X : Int) (INCX : Int) (Y : Int) (INCY : Int) (A : Int) (LDA : Int) :
    (Thr.hgeruh M N ALPHA X INCX Y INCY A LDA (F := F)).run = Haxx.hgeruh M N ALPHA X INCX Y INCY A LDA (F := F) := by
  simp only [Thr.hgeruh, Haxx.hgeruh, thr]

/-- As `Haxx.hgercd_10_I`, `src/hblas/fortran/hblas2/hgercd.f:39-42`, body of `DO 10 I`. -/
def hgercd_10_I (A : Int) (HTMPJ : Cplx F) (HTMPS : Cplx F) (J : Int) (LDA : Int) (X : Int) (I : Int)  : Prog F (Unit) := do
  let t1 ← rdC (el3 2 2 LDA A 1 I J)
  let t2 ← rdC (el2 2 2 X 1 I)
  let t3 ← rdC (el2 2 2 X 2 I)
  wrC (el3 2 2 LDA A 1 I J) (t1 +ᶜ t2 *ᶜ HTMPS -ᶜ t3 *ᶜ Cplx.conj HTMPJ)
  let t4 ← rdC (el3 2 2 LDA A 2 I J)
  let t5 ← rdC (el2 2 2 X 1 I)
  let t6 ← rdC (el2 2 2 X 2 I)
  wrC (el3 2 2 LDA A 2 I J) (t4 +ᶜ t5 *ᶜ HTMPJ +ᶜ t6 *ᶜ Cplx.conj HTMPS)
  pure ()

@[thr] theorem run_hgercd_10_I (A : Int) (HTMPJ : Cplx F) (HTMPS : Cplx F) (J : Int) (LDA : Int) (X : Int) (I : Int) :
    (Thr.hgercd_10_I A HTMPJ HTMPS J LDA X I (F := F)).run = Haxx.hgercd_10_I A HTMPJ HTMPS J LDA X I (F := F) := by
  simp only [Thr.hgercd_10_I, Haxx.hgercd_10_I, thr]

/-- As `Haxx.hgercd_if36`, `src/hblas/fortran/hblas2/hgercd.f:36-43`. -/
def hgercd_if36 (A : Int) (ALPHA : F) (J : Int) (JY : Int) (LDA : Int) (M : Int) (X : Int) (Y : Int) : Prog F (Unit) := do
  let t1 ← rdC (el2 2 2 Y 1 JY)
  let t2 ← rdC (el2 2 2 Y 2 JY)
  if (!(Cplx.feq t1 (⟨zero, zero⟩ : Cplx F))) || (!(Cplx.feq t2 (⟨zero, zero⟩ : Cplx F))) then
    let t3 ← rdC (el2 2 2 Y 1 JY)
    let HTMPS : Cplx F := Cplx.ofReal ALPHA *ᶜ Cplx.conj t3
    let t4 ← rdC (el2 2 2 Y 2 JY)
    let HTMPJ : Cplx F := Cplx.neg (Cplx.ofReal ALPHA *ᶜ t4)
    forN (M).toNat (fun i => hgercd_10_I A HTMPJ HTMPS J LDA X ((i : Int) + 1))
    pure ()
  else
    pure ()

@[thr] theorem run_hgercd_if36 (A : Int) (ALPHA : F) (J : Int) (JY : Int) (LDA : Int) (M : Int) (X : Int) (Y : Int) :
    (Thr.hgercd_if36 A ALPHA J JY LDA M X Y (F := F)).run = Haxx.hgercd_if36 A ALPHA J JY LDA M X Y (F := F) := by
  simp only [Thr.hgercd_if36, Haxx.hgercd_if36, thr]

/-- As `Haxx.hgercd_20_J`, `src/hblas/fortran/hblas2/hgercd.f:35-45`, body of `DO 20 J`. -/
def hgercd_20_J (A : Int) (ALPHA : F) (INCY : Int) (LDA : Int) (M : Int) (X : Int) (Y : Int) (J : Int) (JY : Int) : Prog F (Int) := do
  hgercd_if36 A ALPHA J JY LDA M X Y
  let JY : Int := JY + INCY
  pure JY

@[thr] theorem run_hgercd_20_J (A : Int) (ALPHA : F) (INCY : Int) (LDA : Int) (M : Int) (X : Int) (Y : Int) (J : Int) (JY : Int) :
    (Thr.hgercd_20_J A ALPHA INCY LDA M X Y J JY (F := F)).run = Haxx.hgercd_20_J A ALPHA INCY LDA M X Y J JY (F := F) := by
  simp only [Thr.hgercd_20_J, Haxx.hgercd_20_J, thr]

/-- As `Haxx.hgercd_30_I`, `src/hblas/fortran/hblas2/hgercd.f:57-61`, body of `DO 30 I`. -/
def hgercd_30_I (A : Int) (HTMPJ : Cplx F) (INCX : Int) (J : Int) (LDA : Int) (X : Int) (I : Int) (IX : Int) : Prog F (Int) := do
  let t1 ← rdC (el3 2 2 LDA A 1 I J)
  let t2 ← rdC (el2 2 2 X 1 IX)
  let HTMPS ← (uninit : Prog F (Cplx F))
  let t3 ← rdC (el2 2 2 X 2 IX)
  wrC (el3 2 2 LDA A 1 I J) (t1 +ᶜ t2 *ᶜ HTMPS -ᶜ t3 *ᶜ Cplx.conj HTMPJ)
  let t4 ← rdC (el3 2 2 LDA A 2 I J)
  let t5 ← rdC (el2 2 2 X 1 IX)
  let t6 ← rdC (el2 2 2 X 2 IX)
  wrC (el3 2 2 LDA A 2 I J) (t4 +ᶜ t5 *ᶜ HTMPJ +ᶜ t6 *ᶜ Cplx.conj HTMPS)
  let IX : Int := IX + INCX
  pure IX

@[thr] theorem run_hgercd_30_I (A : Int) (HTMPJ : Cplx F) (INCX : Int) (J : Int) (LDA : Int) (X : Int) (I : Int) (IX : Int) :
    (Thr.hgercd_30_I A HTMPJ INCX J LDA X I IX (F := F)).run = Haxx.hgercd_30_I A HTMPJ INCX J LDA X I IX (F := F) := by
  simp only [Thr.hgercd_30_I, Haxx.hgercd_30_I, thr]

/-- As `Haxx.hgercd_if53`, `src/hblas/fortran/hblas2/hgercd.f:53-62`. -/
def hgercd_if53 (A : Int) (ALPHA : F) (INCX : Int) (J : Int) (JY : Int) (KX : Int) (LDA : Int) (M : Int) (X : Int) (Y : Int) : Prog F (Unit) := do
  let t1 ← rdC (el2 2 2 Y 1 JY)
  let t2 ← rdC (el2 2 2 Y 2 JY)
  if (!(Cplx.feq t1 (⟨zero, zero⟩ : Cplx F))) || (!(Cplx.feq t2 (⟨zero, zero⟩ : Cplx F))) then
    -- HTMPI (line 54) is never read
    let t3 ← rdC (el2 2 2 Y 2 JY)
    let HTMPJ : Cplx F := Cplx.neg (Cplx.ofReal ALPHA *ᶜ t3)
    let IX : Int := KX
    let r ← foldN (M).toNat (fun i (s : Int) => hgercd_30_I A HTMPJ INCX J LDA X ((i : Int) + 1) s) IX
    pure ()
  else
    pure ()

@[thr] theorem run_hgercd_if53 (A : Int) (ALPHA : F) (INCX : Int) (J : Int) (JY : Int) (KX : Int) (LDA : Int) (M : Int) (X : Int) (Y : Int) :
    (Thr.hgercd_if53 A ALPHA INCX J JY KX LDA M X Y (F := F)).run = Haxx.hgercd_if53 A ALPHA INCX J JY KX LDA M X Y (F := F) := by
  simp only [Thr.hgercd_if53, Haxx.hgercd_if53, thr]

/-- As `Haxx.hgercd_40_J`, `src/hblas/fortran/hblas2/hgercd.f:52-64`, body of `DO 40 J`. -/
def hgercd_40_J (A : Int) (ALPHA : F) (INCX : Int) (INCY : Int) (KX : Int) (LDA : Int) (M : Int) (X : Int) (Y : Int) (J : Int) (JY : Int) : Prog F (Int) := do
  hgercd_if53 A ALPHA INCX J JY KX LDA M X Y
  let JY : Int := JY + INCY
  pure JY

@[thr] theorem run_hgercd_40_J (A : Int) (ALPHA : F) (INCX : Int) (INCY : Int) (KX : Int) (LDA : Int) (M : Int) (X : Int) (Y : Int) (J : Int) (JY : Int) :
    (Thr.hgercd_40_J A ALPHA INCX INCY KX LDA M X Y J JY (F := F)).run = Haxx.hgercd_40_J A ALPHA INCX INCY KX LDA M X Y J JY (F := F) := by
  simp only [Thr.hgercd_40_J, Haxx.hgercd_40_J, thr]

/-- As `Haxx.hgercd_if34`, `src/hblas/fortran/hblas2/hgercd.f:34-65`. -/
def hgercd_if34 (A : Int) (ALPHA : F) (INCX : Int) (INCY : Int) (JY : Int) (LDA : Int) (M : Int) (N : Int) (X : Int) (Y : Int) : Prog F (Unit) := do
  if decide (INCX = 1) then
    let r ← foldN (N).toNat (fun i (s : Int) => hgercd_20_J A ALPHA INCY LDA M X Y ((i : Int) + 1) s) JY
    pure ()
  else
    let r ← (do
      if decide (INCX > 0) then
        let KX : Int := 1
        pure KX
      else
        let KX : Int := 1 - (M - 1) * INCX
        pure KX : Prog F (Int))
    let KX : Int := r
    let r ← foldN (N).toNat (fun i (s : Int) => hgercd_40_J A ALPHA INCX INCY KX LDA M X Y ((i : Int) + 1) s) JY
    pure ()

@[thr] theorem run_hgercd_if34 (A : Int) (ALPHA : F) (INCX : Int) (INCY : Int) (JY : Int) (LDA : Int) (M : Int) (N : Int) (X : Int) (Y : Int) :
    (Thr.hgercd_if34 A ALPHA INCX INCY JY LDA M N X Y (F := F)).run = Haxx.hgercd_if34 A ALPHA INCX INCY JY LDA M N X Y (F := F) := by
  simp only [Thr.hgercd_if34, Haxx.hgercd_if34, thr]

/-- As `Haxx.hgercd`, `src/hblas/fortran/hblas2/hgercd.f:9-67`. -/
def hgercd (M : Int) (N : Int) (ALPHA : F) (X : Int) (INCX : Int) (Y : Int) (INCY : Int) (A : Int) (LDA : Int) : Prog F (Unit) := do
  let AZERO : Bool := ALPHA ==ᶠ (zero : F)
  -- AONE (line 24) is never read
  if ((decide (M = 0)) || (decide (N = 0))) || AZERO then
    pure ()
  else
    let r ← (do
      if decide (INCY > 0) then
        let JY : Int := 1
        pure JY
      else
        let JY : Int := 1 - (N - 1) * INCY
        pure JY : Prog F (Int))
    let JY : Int := r
    hgercd_if34 A ALPHA INCX INCY JY LDA M N X Y
    pure ()

@[thr] theorem run_hgercd (M : Int) (N : Int) (ALPHA : F) (X : Int) (INCX : Int) (Y : Int) (INCY : Int) (A : Int) (LDA : Int) :
    (Thr.hgercd M N ALPHA X INCX Y INCY A LDA (F := F)).run = Haxx.hgercd M N ALPHA X INCX Y INCY A LDA (F := F) := by
  simp only [Thr.hgercd, Haxx.hgercd, thr]

/-- As `Haxx.hgercz_10_I`, `src/hblas/fortran/hblas2/hgercz.f:40-43`, body of `DO 10 I`. -/
def hgercz_10_I (A : Int) (HTMP1J : Cplx F) (HTMP1S : Cplx F) (HTMP2J : Cplx F) (HTMP2S : Cplx F) (J : Int) (LDA : Int) (X : Int) (I : Int)  : Prog F (Unit) := do
  let t1 ← rdC (el3 2 2 LDA A 1 I J)
  let t2 ← rdC (el2 2 2 X 1 I)
  let t3 ← rdC (el2 2 2 X 2 I)
  wrC (el3 2 2 LDA A 1 I J) (t1 +ᶜ t2 *ᶜ HTMP1S -ᶜ t3 *ᶜ HTMP2J)
  let t4 ← rdC (el3 2 2 LDA A 2 I J)
  let t5 ← rdC (el2 2 2 X 1 I)
  let t6 ← rdC (el2 2 2 X 2 I)
  wrC (el3 2 2 LDA A 2 I J) (t4 +ᶜ t5 *ᶜ HTMP1J +ᶜ t6 *ᶜ HTMP2S)
  pure ()

@[thr] theorem run_hgercz_10_I (A : Int) (HTMP1J : Cplx F) (HTMP1S : Cplx F) (HTMP2J : Cplx F) (HTMP2S : Cplx F) (J : Int) (LDA : Int) (X : Int) (I : Int) :
    (Thr.hgercz_10_I A HTMP1J HTMP1S HTMP2J HTMP2S J LDA X I (F := F)).run = Haxx.hgercz_10_I A HTMP1J HTMP1S HTMP2J HTMP2S J LDA X I (F := F) := by
  simp only [Thr.hgercz_10_I, Haxx.hgercz_10_I, thr]

/-- As `Haxx.hgercz_if35`, `src/hblas/fortran/hblas2/hgercz.f:35-44`. -/
def hgercz_if35 (A : Int) (ALPHA : Cplx F) (J : Int) (JY : Int) (LDA : Int) (M : Int) (X : Int) (Y : Int) : Prog F (Unit) := do
  let t1 ← rdC (el2 2 2 Y 1 JY)
  let t2 ← rdC (el2 2 2 Y 2 JY)
  if (!(Cplx.feq t1 (⟨zero, zero⟩ : Cplx F))) || (!(Cplx.feq t2 (⟨zero, zero⟩ : Cplx F))) then
    let t3 ← rdC (el2 2 2 Y 1 JY)
    let HTMP1S : Cplx F := ALPHA *ᶜ Cplx.conj t3
    let t4 ← rdC (el2 2 2 Y 2 JY)
    let HTMP1J : Cplx F := Cplx.neg (ALPHA *ᶜ t4)
    let t5 ← rdC (el2 2 2 Y 1 JY)
    let HTMP2S : Cplx F := ALPHA *ᶜ t5
    let t6 ← rdC (el2 2 2 Y 2 JY)
    let HTMP2J : Cplx F := Cplx.neg (ALPHA *ᶜ Cplx.conj t6)
    forN (M).toNat (fun i => hgercz_10_I A HTMP1J HTMP1S HTMP2J HTMP2S J LDA X ((i : Int) + 1))
    pure ()
  else
    pure ()

@[thr] theorem run_hgercz_if35 (A : Int) (ALPHA : Cplx F) (J : Int) (JY : Int) (LDA : Int) (M : Int) (X : Int) (Y : Int) :
    (Thr.hgercz_if35 A ALPHA J JY LDA M X Y (F := F)).run = Haxx.hgercz_if35 A ALPHA J JY LDA M X Y (F := F) := by
  simp only [Thr.hgercz_if35, Haxx.hgercz_if35, thr]

/-- As `Haxx.hgercz_20_J`, `src/hblas/fortran/hblas2/hgercz.f:34-46`, body of `DO 20 J`. -/
def hgercz_20_J (A : Int) (ALPHA : Cplx F) (INCY : Int) (LDA : Int) (M : Int) (X : Int) (Y : Int) (J : Int) (JY : Int) : Prog F (Int) := do
  hgercz_if35 A ALPHA J JY LDA M X Y
  let JY : Int := JY + INCY
  pure JY

@[thr] theorem run_hgercz_20_J (A : Int) (ALPHA : Cplx F) (INCY : Int) (LDA : Int) (M : Int) (X : Int) (Y : Int) (J : Int) (JY : Int) :
    (Thr.hgercz_20_J A ALPHA INCY LDA M X Y J JY (F := F)).run = Haxx.hgercz_20_J A ALPHA INCY LDA M X Y J JY (F := F) := by
  simp only [Thr.hgercz_20_J, Haxx.hgercz_20_J, thr]

/-- As `Haxx.hgercz_30_I`, `src/hblas/fortran/hblas2/hgercz.f:60-64`, body of `DO 30 I`. -/
def hgercz_30_I (A : Int) (HTMP1J : Cplx F) (HTMP1S : Cplx F) (HTMP2J : Cplx F) (HTMP2S : Cplx F) (INCX : Int) (J : Int) (LDA : Int) (X : Int) (I : Int) (IX : Int) : Prog F (Int) := do
  let t1 ← rdC (el3 2 2 LDA A 1 I J)
  let t2 ← rdC (el2 2 2 X 1 IX)
  let t3 ← rdC (el2 2 2 X 2 IX)
  wrC (el3 2 2 LDA A 1 I J) (t1 +ᶜ t2 *ᶜ HTMP1S -ᶜ t3 *ᶜ HTMP2J)
  let t4 ← rdC (el3 2 2 LDA A 2 I J)
  let t5 ← rdC (el2 2 2 X 1 IX)
  let t6 ← rdC (el2 2 2 X 2 IX)
  wrC (el3 2 2 LDA A 2 I J) (t4 +ᶜ t5 *ᶜ HTMP1J +ᶜ t6 *ᶜ HTMP2S)
  let IX : Int := IX + INCX
  pure IX

@[thr] theorem run_hgercz_30_I (A : Int) (HTMP1J : Cplx F) (HTMP1S : Cplx F) (HTMP2J : Cplx F) (HTMP2S : Cplx F) (INCX : Int) (J : Int) (LDA : Int) (X : Int) (I : Int) (IX : Int) :
    (Thr.hgercz_30_I A HTMP1J HTMP1S HTMP2J HTMP2S INCX J LDA X I IX (F := F)).run = Haxx.hgercz_30_I A HTMP1J HTMP1S HTMP2J HTMP2S INCX J LDA X I IX (F := F) := by
  simp only [Thr.hgercz_30_I, Haxx.hgercz_30_I, thr]

/-- As `Haxx.hgercz_if54`, `src/hblas/fortran/hblas2/hgercz.f:54-65`. -/
def hgercz_if54 (A : Int) (ALPHA : Cplx F) (INCX : Int) (J : Int) (JY : Int) (KX : Int) (LDA : Int) (M : Int) (X : Int) (Y : Int) : Prog F (Unit) := do
  let t1 ← rdC (el2 2 2 Y 1 JY)
  let t2 ← rdC (el2 2 2 Y 2 JY)
  if (!(Cplx.feq t1 (⟨zero, zero⟩ : Cplx F))) || (!(Cplx.feq t2 (⟨zero, zero⟩ : Cplx F))) then
    let t3 ← rdC (el2 2 2 Y 1 JY)
    let HTMP1S : Cplx F := ALPHA *ᶜ Cplx.conj t3
    let t4 ← rdC (el2 2 2 Y 2 JY)
    let HTMP1J : Cplx F := Cplx.neg (ALPHA *ᶜ t4)
    let t5 ← rdC (el2 2 2 Y 1 JY)
    let HTMP2S : Cplx F := ALPHA *ᶜ t5
    let t6 ← rdC (el2 2 2 Y 2 JY)
    let HTMP2J : Cplx F := Cplx.neg (ALPHA *ᶜ Cplx.conj t6)
    let IX : Int := KX
    let r ← foldN (M).toNat (fun i (s : Int) => hgercz_30_I A HTMP1J HTMP1S HTMP2J HTMP2S INCX J LDA X ((i : Int) + 1) s) IX
    pure ()
  else
    pure ()

@[thr] theorem run_hgercz_if54 (A : Int) (ALPHA : Cplx F) (INCX : Int) (J : Int) (JY : Int) (KX : Int) (LDA : Int) (M : Int) (X : Int) (Y : Int) :
    (Thr.hgercz_if54 A ALPHA INCX J JY KX LDA M X Y (F := F)).run = Haxx.hgercz_if54 A ALPHA INCX J JY KX LDA M X Y (F := F) := by
  simp only [Thr.hgercz_if54, Haxx.hgercz_if54, thr]

/-- As `Haxx.hgercz_40_J`, `src/hblas/fortran/hblas2/hgercz.f:53-67`, body of `DO 40 J`. -/
def hgercz_40_J (A : Int) (ALPHA : Cplx F) (INCX : Int) (INCY : Int) (KX : Int) (LDA : Int) (M : Int) (X : Int) (Y : Int) (J : Int) (JY : Int) : Prog F (Int) := do
  hgercz_if54 A ALPHA INCX J JY KX LDA M X Y
  let JY : Int := JY + INCY
  pure JY

@[thr] theorem run_hgercz_40_J (A : Int) (ALPHA : Cplx F) (INCX : Int) (INCY : Int) (KX : Int) (LDA : Int) (M : Int) (X : Int) (Y : Int) (J : Int) (JY : Int) :
    (Thr.hgercz_40_J A ALPHA INCX INCY KX LDA M X Y J JY (F := F)).run = Haxx.hgercz_40_J A ALPHA INCX INCY KX LDA M X Y J JY (F := F) := by
  simp only [Thr.hgercz_40_J, Haxx.hgercz_40_J, thr]

/-- As `Haxx.hgercz_if33`, `src/hblas/fortran/hblas2/hgercz.f:33-68`. -/
def hgercz_if33 (A : Int) (ALPHA : Cplx F) (INCX : Int) (INCY : Int) (JY : Int) (LDA : Int) (M : Int) (N : Int) (X : Int) (Y : Int) : Prog F (Unit) := do
  if decide (INCX = 1) then
    let r ← foldN (N).toNat (fun i (s : Int) => hgercz_20_J A ALPHA INCY LDA M X Y ((i : Int) + 1) s) JY
    pure ()
  else
    let r ← (do
      if decide (INCX > 0) then
        let KX : Int := 1
        pure KX
      else
        let KX : Int := 1 - (M - 1) * INCX
        pure KX : Prog F (Int))
    let KX : Int := r
    let r ← foldN (N).toNat (fun i (s : Int) => hgercz_40_J A ALPHA INCX INCY KX LDA M X Y ((i : Int) + 1) s) JY
    pure ()

@[thr] theorem run_hgercz_if33 (A : Int) (ALPHA : Cplx F) (INCX : Int) (INCY : Int) (JY : Int) (LDA : Int) (M : Int) (N : Int) (X : Int) (Y : Int) :
    (Thr.hgercz_if33 A ALPHA INCX INCY JY LDA M N X Y (F := F)).run = Haxx.hgercz_if33 A ALPHA INCX INCY JY LDA M N X Y (F := F) := by
  simp only [Thr.hgercz_if33, Haxx.hgercz_if33, thr]

/-- As `Haxx.hgercz`, `src/hblas/fortran/hblas2/hgercz.f:9-70`. -/
def hgercz (M : Int) (N : Int) (ALPHA : Cplx F) (X : Int) (INCX : Int) (Y : Int) (INCY : Int) (A : Int) (LDA : Int) : Prog F (Unit) := do
  let AZERO : Bool := Cplx.feq ALPHA (⟨zero, zero⟩ : Cplx F)
  -- AONE (line 23) is never read
  if ((decide (M = 0)) || (decide (N = 0))) || AZERO then
    pure ()
  else
    let r ← (do
      if decide (INCY > 0) then
        let JY : Int := 1
        pure JY
      else
        let JY : Int := 1 - (N - 1) * INCY
        pure JY : Prog F (Int))
    let JY : Int := r
    hgercz_if33 A ALPHA INCX INCY JY LDA M N X Y
    pure ()

@[thr] theorem run_hgercz (M : Int) (N : Int) (ALPHA : Cplx F) (X : Int) (INCX : Int) (Y : Int) (INCY : Int) (A : Int) (LDA : Int) :
    (Thr.hgercz M N ALPHA X INCX Y INCY A LDA (F := F)).run = Haxx.hgercz M N ALPHA X INCX Y INCY A LDA (F := F) := by
  simp only [Thr.hgercz, Haxx.hgercz, thr]

/-- As `Haxx.hgerch_10_I`, `src/hblas/fortran/hblas2/hgerch.f:45-52`, body of `DO 10 I`. -/
def hgerch_10_I (A : Int) (HTMP1J : Cplx F) (HTMP1S : Cplx F) (HTMP2J : Cplx F) (HTMP2S : Cplx F) (HTMP3J : Cplx F) (HTMP3S : Cplx F) (HTMP4J : Cplx F) (HTMP4S : Cplx F) (J : Int) (LDA : Int) (X : Int) (I : Int)  : Prog F (Unit) := do
  let t1 ← rdC (el3 2 2 LDA A 1 I J)
  let t2 ← rdC (el2 2 2 X 1 I)
  let t3 ← rdC (el2 2 2 X 2 I)
  let t4 ← rdC (el2 2 2 X 1 I)
  let t5 ← rdC (el2 2 2 X 2 I)
  wrC (el3 2 2 LDA A 1 I J) (t1 +ᶜ t2 *ᶜ HTMP1S -ᶜ t3 *ᶜ HTMP2J -ᶜ Cplx.conj t4 *ᶜ HTMP4J -ᶜ Cplx.conj t5 *ᶜ HTMP3S)
  let t6 ← rdC (el3 2 2 LDA A 2 I J)
  let t7 ← rdC (el2 2 2 X 1 I)
  let t8 ← rdC (el2 2 2 X 2 I)
  let t9 ← rdC (el2 2 2 X 1 I)
  let t10 ← rdC (el2 2 2 X 2 I)
  wrC (el3 2 2 LDA A 2 I J) (t6 +ᶜ t7 *ᶜ HTMP1J +ᶜ t8 *ᶜ HTMP2S +ᶜ Cplx.conj t9 *ᶜ HTMP4S -ᶜ Cplx.conj t10 *ᶜ HTMP3J)
  pure ()

@[thr] theorem run_hgerch_10_I (A : Int) (HTMP1J : Cplx F) (HTMP1S : Cplx F) (HTMP2J : Cplx F) (HTMP2S : Cplx F) (HTMP3J : Cplx F) (HTMP3S : Cplx F) (HTMP4J : Cplx F) (HTMP4S : Cplx F) (J : Int) (LDA : Int) (X : Int) (I : Int) :
    (Thr.hgerch_10_I A HTMP1J HTMP1S HTMP2J HTMP2S HTMP3J HTMP3S HTMP4J HTMP4S J LDA X I (F := F)).run = Haxx.hgerch_10_I A HTMP1J HTMP1S HTMP2J HTMP2S HTMP3J HTMP3S HTMP4J HTMP4S J LDA X I (F := F) := by
  simp only [Thr.hgerch_10_I, Haxx.hgerch_10_I, thr]

/-- As `Haxx.hgerch_if36`, `src/hblas/fortran/hblas2/hgerch.f:36-53`. -/
def hgerch_if36 (A : Int) (ALPHA : Quat F) (J : Int) (JY : Int) (LDA : Int) (M : Int) (X : Int) (Y : Int) : Prog F (Unit) := do
  let t1 ← rdC (el2 2 2 Y 1 JY)
  let t2 ← rdC (el2 2 2 Y 2 JY)
  if (!(Cplx.feq t1 (⟨zero, zero⟩ : Cplx F))) || (!(Cplx.feq t2 (⟨zero, zero⟩ : Cplx F))) then
    let t3 ← rdC (el2 2 2 Y 1 JY)
    let HTMP1S : Cplx F := Quat.lo ALPHA *ᶜ Cplx.conj t3
    let t4 ← rdC (el2 2 2 Y 2 JY)
    let HTMP1J : Cplx F := Cplx.neg (Quat.lo ALPHA *ᶜ t4)
    let t5 ← rdC (el2 2 2 Y 1 JY)
    let HTMP2S : Cplx F := Quat.lo ALPHA *ᶜ t5
    let t6 ← rdC (el2 2 2 Y 2 JY)
    let HTMP2J : Cplx F := Cplx.neg (Quat.lo ALPHA *ᶜ Cplx.conj t6)
    let t7 ← rdC (el2 2 2 Y 1 JY)
    let HTMP3S : Cplx F := Quat.hi ALPHA *ᶜ Cplx.conj t7
    let t8 ← rdC (el2 2 2 Y 2 JY)
    let HTMP3J : Cplx F := Cplx.neg (Quat.hi ALPHA *ᶜ t8)
    let t9 ← rdC (el2 2 2 Y 1 JY)
    let HTMP4S : Cplx F := Quat.hi ALPHA *ᶜ t9
    let t10 ← rdC (el2 2 2 Y 2 JY)
    let HTMP4J : Cplx F := Cplx.neg (Quat.hi ALPHA *ᶜ Cplx.conj t10)
    forN (M).toNat (fun i => hgerch_10_I A HTMP1J HTMP1S HTMP2J HTMP2S HTMP3J HTMP3S HTMP4J HTMP4S J LDA X ((i : Int) + 1))
    pure ()
  else
    pure ()

@[thr] theorem run_hgerch_if36 (A : Int) (ALPHA : Quat F) (J : Int) (JY : Int) (LDA : Int) (M : Int) (X : Int) (Y : Int) :
    (Thr.hgerch_if36 A ALPHA J JY LDA M X Y (F := F)).run = Haxx.hgerch_if36 A ALPHA J JY LDA M X Y (F := F) := by
  simp only [Thr.hgerch_if36, Haxx.hgerch_if36, thr]

/-- As `Haxx.hgerch_20_J`, `src/hblas/fortran/hblas2/hgerch.f:35-55`, body of `DO 20 J`. -/
def hgerch_20_J (A : Int) (ALPHA : Quat F) (INCY : Int) (LDA : Int) (M : Int) (X : Int) (Y : Int) (J : Int) (JY : Int) : Prog F (Int) := do
  hgerch_if36 A ALPHA J JY LDA M X Y
  let JY : Int := JY + INCY
  pure JY

@[thr] theorem run_hgerch_20_J (A : Int) (ALPHA : Quat F) (INCY : Int) (LDA : Int) (M : Int) (X : Int) (Y : Int) (J : Int) (JY : Int) :
    (Thr.hgerch_20_J A ALPHA INCY LDA M X Y J JY (F := F)).run = Haxx.hgerch_20_J A ALPHA INCY LDA M X Y J JY (F := F) := by
  simp only [Thr.hgerch_20_J, Haxx.hgerch_20_J, thr]

/-- As `Haxx.hgerch_30_I`, `src/hblas/fortran/hblas2/hgerch.f:73-81`, body of `DO 30 I`. -/
def hgerch_30_I (A : Int) (HTMP1J : Cplx F) (HTMP1S : Cplx F) (HTMP2J : Cplx F) (HTMP2S : Cplx F) (HTMP3J : Cplx F) (HTMP3S : Cplx F) (HTMP4J : Cplx F) (HTMP4S : Cplx F) (INCX : Int) (J : Int) (LDA : Int) (X : Int) (I : Int) (IX : Int) : Prog F (Int) := do
  let t1 ← rdC (el3 2 2 LDA A 1 I J)
  let t2 ← rdC (el2 2 2 X 1 IX)
  let t3 ← rdC (el2 2 2 X 2 IX)
  let t4 ← rdC (el2 2 2 X 1 IX)
  let t5 ← rdC (el2 2 2 X 2 IX)
  wrC (el3 2 2 LDA A 1 I J) (t1 +ᶜ t2 *ᶜ HTMP1S -ᶜ t3 *ᶜ HTMP2J -ᶜ Cplx.conj t4 *ᶜ HTMP4J -ᶜ Cplx.conj t5 *ᶜ HTMP3S)
  let t6 ← rdC (el3 2 2 LDA A 2 I J)
  let t7 ← rdC (el2 2 2 X 1 IX)
  let t8 ← rdC (el2 2 2 X 2 IX)
  let t9 ← rdC (el2 2 2 X 1 IX)
  let t10 ← rdC (el2 2 2 X 2 IX)
  wrC (el3 2 2 LDA A 2 I J) (t6 +ᶜ t7 *ᶜ HTMP1J +ᶜ t8 *ᶜ HTMP2S +ᶜ Cplx.conj t9 *ᶜ HTMP4S -ᶜ Cplx.conj t10 *ᶜ HTMP3J)
  let IX : Int := IX + INCX
  pure IX

@[thr] theorem run_hgerch_30_I (A : Int) (HTMP1J : Cplx F) (HTMP1S : Cplx F) (HTMP2J : Cplx F) (HTMP2S : Cplx F) (HTMP3J : Cplx F) (HTMP3S : Cplx F) (HTMP4J : Cplx F) (HTMP4S : Cplx F) (INCX : Int) (J : Int) (LDA : Int) (X : Int) (I : Int) (IX : Int) :
    (Thr.hgerch_30_I A HTMP1J HTMP1S HTMP2J HTMP2S HTMP3J HTMP3S HTMP4J HTMP4S INCX J LDA X I IX (F := F)).run = Haxx.hgerch_30_I A HTMP1J HTMP1S HTMP2J HTMP2S HTMP3J HTMP3S HTMP4J HTMP4S INCX J LDA X I IX (F := F) := by
  simp only [Thr.hgerch_30_I, Haxx.hgerch_30_I, thr]

/-- As `Haxx.hgerch_if63`, `src/hblas/fortran/hblas2/hgerch.f:63-82`. -/
def hgerch_if63 (A : Int) (ALPHA : Quat F) (INCX : Int) (J : Int) (JY : Int) (KX : Int) (LDA : Int) (M : Int) (X : Int) (Y : Int) : Prog F (Unit) := do
  let t1 ← rdC (el2 2 2 Y 1 JY)
  let t2 ← rdC (el2 2 2 Y 2 JY)
  if (!(Cplx.feq t1 (⟨zero, zero⟩ : Cplx F))) || (!(Cplx.feq t2 (⟨zero, zero⟩ : Cplx F))) then
    let t3 ← rdC (el2 2 2 Y 1 JY)
    let HTMP1S : Cplx F := Quat.lo ALPHA *ᶜ Cplx.conj t3
    let t4 ← rdC (el2 2 2 Y 2 JY)
    let HTMP1J : Cplx F := Cplx.neg (Quat.lo ALPHA *ᶜ t4)
    let t5 ← rdC (el2 2 2 Y 1 JY)
    let HTMP2S : Cplx F := Quat.lo ALPHA *ᶜ t5
    let t6 ← rdC (el2 2 2 Y 2 JY)
    let HTMP2J : Cplx F := Cplx.neg (Quat.lo ALPHA *ᶜ Cplx.conj t6)
    let t7 ← rdC (el2 2 2 Y 1 JY)
    let HTMP3S : Cplx F := Quat.hi ALPHA *ᶜ Cplx.conj t7
    let t8 ← rdC (el2 2 2 Y 2 JY)
    let HTMP3J : Cplx F := Cplx.neg (Quat.hi ALPHA *ᶜ t8)
    let t9 ← rdC (el2 2 2 Y 1 JY)
    let HTMP4S : Cplx F := Quat.hi ALPHA *ᶜ t9
    let t10 ← rdC (el2 2 2 Y 2 JY)
    let HTMP4J : Cplx F := Cplx.neg (Quat.hi ALPHA *ᶜ Cplx.conj t10)
    let IX : Int := KX
    let r ← foldN (M).toNat (fun i (s : Int) => hgerch_30_I A HTMP1J HTMP1S HTMP2J HTMP2S HTMP3J HTMP3S HTMP4J HTMP4S INCX J LDA X ((i : Int) + 1) s) IX
    pure ()
  else
    pure ()

@[thr] theorem run_hgerch_if63 (A : Int) (ALPHA : Quat F) (INCX : Int) (J : Int) (JY : Int) (KX : Int) (LDA : Int) (M : Int) (X : Int) (Y : Int) :
    (Thr.hgerch_if63 A ALPHA INCX J JY KX LDA M X Y (F := F)).run = Haxx.hgerch_if63 A ALPHA INCX J JY KX LDA M X Y (F := F) := by
  simp only [Thr.hgerch_if63, Haxx.hgerch_if63, thr]

/-- As `Haxx.hgerch_40_J`, `src/hblas/fortran/hblas2/hgerch.f:62-84`, body of `DO 40 J`. -/
def hgerch_40_J (A : Int) (ALPHA : Quat F) (INCX : Int) (INCY : Int) (KX : Int) (LDA : Int) (M : Int) (X : Int) (Y : Int) (J : Int) (JY : Int) : Prog F (Int) := do
  hgerch_if63 A ALPHA INCX J JY KX LDA M X Y
  let JY : Int := JY + INCY
  pure JY

@[thr] theorem run_hgerch_40_J (A : Int) (ALPHA : Quat F) (INCX : Int) (INCY : Int) (KX : Int) (LDA : Int) (M : Int) (X : Int) (Y : Int) (J : Int) (JY : Int) :
    (Thr.hgerch_40_J A ALPHA INCX INCY KX LDA M X Y J JY (F := F)).run = Haxx.hgerch_40_J A ALPHA INCX INCY KX LDA M X Y J JY (F := F) := by
  simp only [Thr.hgerch_40_J, Haxx.hgerch_40_J, thr]

/-- As `Haxx.hgerch_if34`, `src/hblas/fortran/hblas2/hgerch.f:34-85`. -/
def hgerch_if34 (A : Int) (ALPHA : Quat F) (INCX : Int) (INCY : Int) (JY : Int) (LDA : Int) (M : Int) (N : Int) (X : Int) (Y : Int) : Prog F (Unit) := do
  if decide (INCX = 1) then
    let r ← foldN (N).toNat (fun i (s : Int) => hgerch_20_J A ALPHA INCY LDA M X Y ((i : Int) + 1) s) JY
    pure ()
  else
    let r ← (do
      if decide (INCX > 0) then
        let KX : Int := 1
        pure KX
      else
        let KX : Int := 1 - (M - 1) * INCX
        pure KX : Prog F (Int))
    let KX : Int := r
    let r ← foldN (N).toNat (fun i (s : Int) => hgerch_40_J A ALPHA INCX INCY KX LDA M X Y ((i : Int) + 1) s) JY
    pure ()

@[thr] theorem run_hgerch_if34 (A : Int) (ALPHA : Quat F) (INCX : Int) (INCY : Int) (JY : Int) (LDA : Int) (M : Int) (N : Int) (X : Int) (Y : Int) :
    (Thr.hgerch_if34 A ALPHA INCX INCY JY LDA M N X Y (F := F)).run = Haxx.hgerch_if34 A ALPHA INCX INCY JY LDA M N X Y (F := F) := by
  simp only [Thr.hgerch_if34, Haxx.hgerch_if34, thr]

/-- As `Haxx.hgerch`, `src/hblas/fortran/hblas2/hgerch.f:9-87`. -/
def hgerch (M : Int) (N : Int) (ALPHA : Quat F) (X : Int) (INCX : Int) (Y : Int) (INCY : Int) (A : Int) (LDA : Int) : Prog F (Unit) := do
  let AZERO : Bool := (Cplx.feq (Quat.lo ALPHA) (⟨zero, zero⟩ : Cplx F)) && (Cplx.feq (Quat.hi ALPHA) (⟨zero, zero⟩ : Cplx F))
  -- AONE (line 24) is never read
  if ((decide (M = 0)) || (decide (N = 0))) || AZERO then
    pure ()
  else
    let r ← (do
      if decide (INCY > 0) then
        let JY : Int := 1
        pure JY
      else
        let JY : Int := 1 - (N - 1) * INCY
        pure JY : Prog F (Int))
    let JY : Int := r
    hgerch_if34 A ALPHA INCX INCY JY LDA M N X Y
    pure ()

@[thr] theorem run_hgerch (M : Int) (N : Int) (ALPHA : Quat F) (X : Int) (INCX : Int) (Y : Int) (INCY : Int) (A : Int) (LDA : Int) :
    (Thr.hgerch M N ALPHA X INCX Y INCY A LDA (F := F)).run = Haxx.hgerch M N ALPHA X INCX Y INCY A LDA (F := F) := by
  simp only [Thr.hgerch, Haxx.hgerch, thr]

-- end of FGer

variable {F : Type} [Arith F] [ArithEq F]
/-- As `Haxx.hdexp_10_I`, `src/hblas/fortran/util/hdexp.f:17-39`, body of `DO 10 I`. -/
def hdexp_10_I (A : Int) (B : Int) (J : Int) (JB : Int) (LDA : Int) (LDB : Int) (I : Int) (IB : Int) : Prog F (Int) := do
  let t1 ← rd (el3 1 4 LDA A 1 I J)
  wr (el2 1 LDB B IB JB) t1
  let t2 ← rd (el3 1 4 LDA A 2 I J)
  wr (el2 1 LDB B IB (JB + 1)) t2
  let t3 ← rd (el3 1 4 LDA A 3 I J)
  wr (el2 1 LDB B IB (JB + 2)) t3
  let t4 ← rd (el3 1 4 LDA A 4 I J)
  wr (el2 1 LDB B IB (JB + 3)) t4
  let t5 ← rd (el3 1 4 LDA A 2 I J)
  wr (el2 1 LDB B (IB + 1) JB) (~ᶠt5)
  let t6 ← rd (el3 1 4 LDA A 1 I J)
  wr (el2 1 LDB B (IB + 1) (JB + 1)) t6
  let t7 ← rd (el3 1 4 LDA A 4 I J)
  wr (el2 1 LDB B (IB + 1) (JB + 2)) (~ᶠt7)
  let t8 ← rd (el3 1 4 LDA A 3 I J)
  wr (el2 1 LDB B (IB + 1) (JB + 3)) t8
  let t9 ← rd (el3 1 4 LDA A 3 I J)
  wr (el2 1 LDB B (IB + 2) JB) (~ᶠt9)
  let t10 ← rd (el3 1 4 LDA A 4 I J)
  wr (el2 1 LDB B (IB + 2) (JB + 1)) t10
  let t11 ← rd (el3 1 4 LDA A 1 I J)
  wr (el2 1 LDB B (IB + 2) (JB + 2)) t11
  let t12 ← rd (el3 1 4 LDA A 2 I J)
  wr (el2 1 LDB B (IB + 2) (JB + 3)) (~ᶠt12)
  let t13 ← rd (el3 1 4 LDA A 4 I J)
  wr (el2 1 LDB B (IB + 3) JB) (~ᶠt13)
  let t14 ← rd (el3 1 4 LDA A 3 I J)
  wr (el2 1 LDB B (IB + 3) (JB + 1)) (~ᶠt14)
  let t15 ← rd (el3 1 4 LDA A 2 I J)
  wr (el2 1 LDB B (IB + 3) (JB + 2)) t15
  let t16 ← rd (el3 1 4 LDA A 1 I J)
  wr (el2 1 LDB B (IB + 3) (JB + 3)) t16
  let IB : Int := IB + 4
  pure IB

@[thr] theorem run_hdexp_10_I (A : Int) (B : Int) (J : Int) (JB : Int) (LDA : Int) (LDB : Int) (I : Int) (IB : Int) :
    (Thr.hdexp_10_I A B J JB LDA LDB I IB (F := F)).run = Haxx.hdexp_10_I A B J JB LDA LDB I IB (F := F) := by
  simp only [Thr.hdexp_10_I, Haxx.hdexp_10_I, thr]

/-- As `Haxx.hdexp_20_J`, `src/hblas/fortran/util/hdexp.f:15-41`, body of `DO 20 J`. -/
def hdexp_20_J (A : Int) (B : Int) (LDA : Int) (LDB : Int) (M : Int) (J : Int) (JB : Int) : Prog F (Int) := do
  let IB : Int := 1
  let r ← foldN (M).toNat (fun i (s : Int) => hdexp_10_I A B J JB LDA LDB ((i : Int) + 1) s) IB
  let JB : Int := JB + 4
  pure JB

@[thr] theorem run_hdexp_20_J (A : Int) (B : Int) (LDA : Int) (LDB : Int) (M : Int) (J : Int) (JB : Int) :
    (Thr.hdexp_20_J A B LDA LDB M J JB (F := F)).run = Haxx.hdexp_20_J A B LDA LDB M J JB (F := F) := by
  simp only [Thr.hdexp_20_J, Haxx.hdexp_20_J, thr]

/-- As `Haxx.hdexp`, `src/hblas/fortran/util/hdexp.f:9-43`. -/
def hdexp (M : Int) (N : Int) (A : Int) (LDA : Int) (B : Int) (LDB : Int) : Prog F (Unit) := do
  let JB : Int := 1
  let r ← foldN (N).toNat (fun i (s : Int) => hdexp_20_J A B LDA LDB M ((i : Int) + 1) s) JB
  pure ()

@[thr] theorem run_hdexp (M : Int) (N : Int) (A : Int) (LDA : Int) (B : Int) (LDB : Int) :
    (Thr.hdexp M N A LDA B LDB (F := F)).run = Haxx.hdexp M N A LDA B LDB (F := F) := by
  simp only [Thr.hdexp, Haxx.hdexp, thr]

/-- As `Haxx.hzexp1_10_I`, `src/hblas/fortran/util/hzexp.f:17-24`, body of `DO 10 I`. -/
def hzexp1_10_I (A : Int) (B : Int) (J : Int) (JB : Int) (LDA : Int) (LDB : Int) (I : Int) (IB : Int) : Prog F (Int) := do
  let t1 ← rdC (el3 2 2 LDA A 1 I J)
  wrC (el2 2 LDB B IB JB) t1
  let t2 ← rdC (el3 2 2 LDA A 1 I J)
  wrC (el2 2 LDB B (IB + 1) (JB + 1)) (Cplx.conj t2)
  let t3 ← rdC (el3 2 2 LDA A 2 I J)
  wrC (el2 2 LDB B IB (JB + 1)) t3
  let t4 ← rdC (el3 2 2 LDA A 2 I J)
  wrC (el2 2 LDB B (IB + 1) JB) (Cplx.neg (Cplx.conj t4))
  let IB : Int := IB + 2
  pure IB

@[thr] theorem run_hzexp1_10_I (A : Int) (B : Int) (J : Int) (JB : Int) (LDA : Int) (LDB : Int) (I : Int) (IB : Int) :
    (Thr.hzexp1_10_I A B J JB LDA LDB I IB (F := F)).run = Haxx.hzexp1_10_I A B J JB LDA LDB I IB (F := F) := by
  simp only [Thr.hzexp1_10_I, Haxx.hzexp1_10_I, thr]

/-- As `Haxx.hzexp1_20_J`, `src/hblas/fortran/util/hzexp.f:15-26`, body of `DO 20 J`. -/
def hzexp1_20_J (A : Int) (B : Int) (LDA : Int) (LDB : Int) (M : Int) (J : Int) (JB : Int) : Prog F (Int) := do
  let IB : Int := 1
  let r ← foldN (M).toNat (fun i (s : Int) => hzexp1_10_I A B J JB LDA LDB ((i : Int) + 1) s) IB
  let JB : Int := JB + 2
  pure JB

@[thr] theorem run_hzexp1_20_J (A : Int) (B : Int) (LDA : Int) (LDB : Int) (M : Int) (J : Int) (JB : Int) :
    (Thr.hzexp1_20_J A B LDA LDB M J JB (F := F)).run = Haxx.hzexp1_20_J A B LDA LDB M J JB (F := F) := by
  simp only [Thr.hzexp1_20_J, Haxx.hzexp1_20_J, thr]

/-- As `Haxx.hzexp1`, `src/hblas/fortran/util/hzexp.f:9-28`. -/
def hzexp1 (M : Int) (N : Int) (A : Int) (LDA : Int) (B : Int) (LDB : Int) : Prog F (Unit) := do
  let JB : Int := 1
  let r ← foldN (N).toNat (fun i (s : Int) => hzexp1_20_J A B LDA LDB M ((i : Int) + 1) s) JB
  pure ()

@[thr] theorem run_hzexp1 (M : Int) (N : Int) (A : Int) (LDA : Int) (B : Int) (LDB : Int) :
    (Thr.hzexp1 M N A LDA B LDB (F := F)).run = Haxx.hzexp1 M N A LDA B LDB (F := F) := by
  simp only [Thr.hzexp1, Haxx.hzexp1, thr]

/-- As `Haxx.hzexp2_10_I`, `src/hblas/fortran/util/hzexp.f:38-43`, body of `DO 10 I`. -/
def hzexp2_10_I (A : Int) (B : Int) (J : Int) (LDA : Int) (LDB : Int) (M : Int) (N : Int) (I : Int)  : Prog F (Unit) := do
  let t1 ← rdC (el3 2 2 LDA A 1 I J)
  wrC (el2 2 LDB B I J) t1
  let t2 ← rdC (el3 2 2 LDA A 1 I J)
  wrC (el2 2 LDB B (I + M) (J + N)) (Cplx.conj t2)
  let t3 ← rdC (el3 2 2 LDA A 2 I J)
  wrC (el2 2 LDB B I (J + N)) t3
  let t4 ← rdC (el3 2 2 LDA A 2 I J)
  wrC (el2 2 LDB B (I + M) J) (Cplx.neg (Cplx.conj t4))
  pure ()

@[thr] theorem run_hzexp2_10_I (A : Int) (B : Int) (J : Int) (LDA : Int) (LDB : Int) (M : Int) (N : Int) (I : Int) :
    (Thr.hzexp2_10_I A B J LDA LDB M N I (F := F)).run = Haxx.hzexp2_10_I A B J LDA LDB M N I (F := F) := by
  simp only [Thr.hzexp2_10_I, Haxx.hzexp2_10_I, thr]

/-- As `Haxx.hzexp2_10_J`, `src/hblas/fortran/util/hzexp.f:37-43`, body of `DO 10 J`. -/
def hzexp2_10_J (A : Int) (B : Int) (LDA : Int) (LDB : Int) (M : Int) (N : Int) (J : Int)  : Prog F (Unit) := do
  forN (M).toNat (fun i => hzexp2_10_I A B J LDA LDB M N ((i : Int) + 1))
  pure ()

@[thr] theorem run_hzexp2_10_J (A : Int) (B : Int) (LDA : Int) (LDB : Int) (M : Int) (N : Int) (J : Int) :
    (Thr.hzexp2_10_J A B LDA LDB M N J (F := F)).run = Haxx.hzexp2_10_J A B LDA LDB M N J (F := F) := by
  simp only [Thr.hzexp2_10_J, Haxx.hzexp2_10_J, thr]

/-- As `Haxx.hzexp2`, `src/hblas/fortran/util/hzexp.f:32-45`. -/
def hzexp2 (M : Int) (N : Int) (A : Int) (LDA : Int) (B : Int) (LDB : Int) : Prog F (Unit) := do
  forN (N).toNat (fun i => hzexp2_10_J A B LDA LDB M N ((i : Int) + 1))
  pure ()

@[thr] theorem run_hzexp2 (M : Int) (N : Int) (A : Int) (LDA : Int) (B : Int) (LDB : Int) :
    (Thr.hzexp2 M N A LDA B LDB (F := F)).run = Haxx.hzexp2 M N A LDA B LDB (F := F) := by
  simp only [Thr.hzexp2, Haxx.hzexp2, thr]

/-- As `Haxx.hzcon1_10_I`, `src/hblas/fortran/util/hzcon.f:25-35`, body of `DO 10 I`. -/
def hzcon1_10_I (A : Int) (B : Int) (J : Int) (JB : Int) (LDA : Int) (LDB : Int) (NOTL : Bool) (I : Int) (IB : Int) : Prog F (Int) := do
  let t1 ← rdC (el2 2 LDB B IB JB)
  wrC (el3 2 2 LDA A 1 I J) t1
  let _ ← (do
    if NOTL then
      let t2 ← rdC (el2 2 LDB B IB (JB + 1))
      wrC (el3 2 2 LDA A 2 I J) t2
      pure ()
    else
      let t3 ← rdC (el2 2 LDB B (IB + 1) JB)
      wrC (el3 2 2 LDA A 2 I J) (Cplx.neg (Cplx.conj t3))
      pure () : Prog F Unit)
  let IB : Int := IB + 2
  pure IB

@[thr] theorem run_hzcon1_10_I (A : Int) (B : Int) (J : Int) (JB : Int) (LDA : Int) (LDB : Int) (NOTL : Bool) (I : Int) (IB : Int) :
    (Thr.hzcon1_10_I A B J JB LDA LDB NOTL I IB (F := F)).run = Haxx.hzcon1_10_I A B J JB LDA LDB NOTL I IB (F := F) := by
  simp only [Thr.hzcon1_10_I, Haxx.hzcon1_10_I, thr]

/-- As `Haxx.hzcon1_20_J`, `src/hblas/fortran/util/hzcon.f:23-37`, body of `DO 20 J`. -/
def hzcon1_20_J (A : Int) (B : Int) (LDA : Int) (LDB : Int) (M : Int) (NOTL : Bool) (J : Int) (JB : Int) : Prog F (Int) := do
  let IB : Int := 1
  let r ← foldN (M).toNat (fun i (s : Int) => hzcon1_10_I A B J JB LDA LDB NOTL ((i : Int) + 1) s) IB
  let JB : Int := JB + 2
  pure JB

@[thr] theorem run_hzcon1_20_J (A : Int) (B : Int) (LDA : Int) (LDB : Int) (M : Int) (NOTL : Bool) (J : Int) (JB : Int) :
    (Thr.hzcon1_20_J A B LDA LDB M NOTL J JB (F := F)).run = Haxx.hzcon1_20_J A B LDA LDB M NOTL J JB (F := F) := by
  simp only [Thr.hzcon1_20_J, Haxx.hzcon1_20_J, thr]

/-- As `Haxx.hzcon1`, `src/hblas/fortran/util/hzcon.f:9-39`. -/
def hzcon1 (UPLO : Char) (M : Int) (N : Int) (A : Int) (LDA : Int) (B : Int) (LDB : Int) : Prog F (Unit) := do
  let NOTL : Bool := lsame UPLO 'U'
  let JB : Int := 1
  let r ← foldN (N).toNat (fun i (s : Int) => hzcon1_20_J A B LDA LDB M NOTL ((i : Int) + 1) s) JB
  pure ()

@[thr] theorem run_hzcon1 (UPLO : Char) (M : Int) (N : Int) (A : Int) (LDA : Int) (B : Int) (LDB : Int) :
    (Thr.hzcon1 UPLO M N A LDA B LDB (F := F)).run = Haxx.hzcon1 UPLO M N A LDA B LDB (F := F) := by
  simp only [Thr.hzcon1, Haxx.hzcon1, thr]

/-- As `Haxx.hzcon2_10_I`, `src/hblas/fortran/util/hzcon.f:59-69`, body of `DO 10 I`. -/
def hzcon2_10_I (A : Int) (B : Int) (J : Int) (LDA : Int) (LDB : Int) (M : Int) (N : Int) (NOTL : Bool) (I : Int)  : Prog F (Unit) := do
  let t1 ← rdC (el2 2 LDB B I J)
  wrC (el3 2 2 LDA A 1 I J) t1
  let _ ← (do
    if NOTL then
      let t2 ← rdC (el2 2 LDB B I (J + N))
      wrC (el3 2 2 LDA A 2 I J) t2
      pure ()
    else
      let t3 ← rdC (el2 2 LDB B (I + M) J)
      wrC (el3 2 2 LDA A 2 I J) (Cplx.neg (Cplx.conj t3))
      pure () : Prog F Unit)
  pure ()

@[thr] theorem run_hzcon2_10_I (A : Int) (B : Int) (J : Int) (LDA : Int) (LDB : Int) (M : Int) (N : Int) (NOTL : Bool) (I : Int) :
    (Thr.hzcon2_10_I A B J LDA LDB M N NOTL I (F := F)).run = Haxx.hzcon2_10_I A B J LDA LDB M N NOTL I (F := F) := by
  simp only [Thr.hzcon2_10_I, Haxx.hzcon2_10_I, thr]

/-- As `Haxx.hzcon2_10_J`, `src/hblas/fortran/util/hzcon.f:58-69`, body of `DO 10 J`. -/
def hzcon2_10_J (A : Int) (B : Int) (LDA : Int) (LDB : Int) (M : Int) (N : Int) (NOTL : Bool) (J : Int)  : Prog F (Unit) := do
  forN (M).toNat (fun i => hzcon2_10_I A B J LDA LDB M N NOTL ((i : Int) + 1))
  pure ()

@[thr] theorem run_hzcon2_10_J (A : Int) (B : Int) (LDA : Int) (LDB : Int) (M : Int) (N : Int) (NOTL : Bool) (J : Int) :
    (Thr.hzcon2_10_J A B LDA LDB M N NOTL J (F := F)).run = Haxx.hzcon2_10_J A B LDA LDB M N NOTL J (F := F) := by
  simp only [Thr.hzcon2_10_J, Haxx.hzcon2_10_J, thr]

/-- As `Haxx.hzcon2`, `src/hblas/fortran/util/hzcon.f:43-71`. -/
def hzcon2 (UPLO : Char) (M : Int) (N : Int) (A : Int) (LDA : Int) (B : Int) (LDB : Int) : Prog F (Unit) := do
  let NOTL : Bool := lsame UPLO 'U'
  forN (N).toNat (fun i => hzcon2_10_J A B LDA LDB M N NOTL ((i : Int) + 1))
  pure ()

@[thr] theorem run_hzcon2 (UPLO : Char) (M : Int) (N : Int) (A : Int) (LDA : Int) (B : Int) (LDB : Int) :
    (Thr.hzcon2 UPLO M N A LDA B LDB (F := F)).run = Haxx.hzcon2 UPLO M N A LDA B LDB (F := F) := by
  simp only [Thr.hzcon2, Haxx.hzcon2, thr]

-- end of FUtil

section
variable {F : Type} [Arith F] [ArithEq F]
/-- As `Haxx.HBLAS_COMPLEX_EXPAND`, `HBLAS_COMPLEX_EXPAND` — `include/hblas/generic/util/expand_impl.hpp:18-30`. -/
def HBLAS_COMPLEX_EXPAND (ORDER : Char) (M N A LDA B LDB : Int) : Prog F Unit := do
  assertP (ORDER == 'F' || ORDER == 'S')
  if ORDER == 'F' then
    hzexp1 M N A LDA B LDB
  else
    hzexp2 M N A LDA B LDB

@[thr] theorem run_HBLAS_COMPLEX_EXPAND (ORDER : Char) (M : Int) (N : Int) (A : Int) (LDA : Int) (B : Int) (LDB : Int) :
    (Thr.HBLAS_COMPLEX_EXPAND ORDER M N A LDA B LDB (F := F)).run = Haxx.HBLAS_COMPLEX_EXPAND ORDER M N A LDA B LDB (F := F) := by
  simp only [Thr.HBLAS_COMPLEX_EXPAND, Haxx.HBLAS_COMPLEX_EXPAND, thr]

/-- As `Haxx.HBLAS_REAL_EXPAND`, `HBLAS_REAL_EXPAND` — `include/hblas/generic/util/expand_impl.hpp:32-38`. -/
def HBLAS_REAL_EXPAND (M N A LDA B LDB : Int) : Prog F Unit :=
  hdexp M N A LDA B LDB

@[thr] theorem run_HBLAS_REAL_EXPAND (M : Int) (N : Int) (A : Int) (LDA : Int) (B : Int) (LDB : Int) :
    (Thr.HBLAS_REAL_EXPAND M N A LDA B LDB (F := F)).run = Haxx.HBLAS_REAL_EXPAND M N A LDA B LDB (F := F) := by
  simp only [Thr.HBLAS_REAL_EXPAND, Haxx.HBLAS_REAL_EXPAND, thr]

/-- As `Haxx.HBLAS_COMPLEX_CONTRACT`, `HBLAS_COMPLEX_CONTRACT` — `include/hblas/generic/util/contract_impl.hpp:18-30`. -/
def HBLAS_COMPLEX_CONTRACT (ORDER UPLO : Char) (M N A LDA B LDB : Int) : Prog F Unit := do
  assertP (ORDER == 'F' || ORDER == 'S')
  if ORDER == 'F' then
    hzcon1 UPLO M N A LDA B LDB
  else
    hzcon2 UPLO M N A LDA B LDB

@[thr] theorem run_HBLAS_COMPLEX_CONTRACT (ORDER : Char) (UPLO : Char) (M : Int) (N : Int) (A : Int) (LDA : Int) (B : Int) (LDB : Int) :
    (Thr.HBLAS_COMPLEX_CONTRACT ORDER UPLO M N A LDA B LDB (F := F)).run = Haxx.HBLAS_COMPLEX_CONTRACT ORDER UPLO M N A LDA B LDB (F := F) := by
  simp only [Thr.HBLAS_COMPLEX_CONTRACT, Haxx.HBLAS_COMPLEX_CONTRACT, thr]

end
-- end of Util

variable {F : Type} [Arith F] [ArithEq F]
/-- As `Haxx.hgemvdd_10_I`, `src/hblas/fortran/hblas2/hgemvdd.f:59-62`, body of `DO 10 I`. -/
def hgemvdd_10_I (Y : Int) (I : Int)  : Prog F (Unit) := do
  wrC (el2 2 2 Y 1 I) (⟨zero, zero⟩ : Cplx F)
  wrC (el2 2 2 Y 2 I) (⟨zero, zero⟩ : Cplx F)
  pure ()

@[thr] theorem run_hgemvdd_10_I (Y : Int) (I : Int) :
    (Thr.hgemvdd_10_I Y I (F := F)).run = Haxx.hgemvdd_10_I Y I (F := F) := by
  simp only [Thr.hgemvdd_10_I, Haxx.hgemvdd_10_I, thr]

/-- As `Haxx.hgemvdd_20_I`, `src/hblas/fortran/hblas2/hgemvdd.f:64-67`, body of `DO 20 I`. -/
def hgemvdd_20_I (BETA : F) (Y : Int) (I : Int)  : Prog F (Unit) := do
  let t1 ← rdC (el2 2 2 Y 1 I)
  wrC (el2 2 2 Y 1 I) (Cplx.ofReal BETA *ᶜ t1)
  let t2 ← rdC (el2 2 2 Y 2 I)
  wrC (el2 2 2 Y 2 I) (Cplx.ofReal BETA *ᶜ t2)
  pure ()

@[thr] theorem run_hgemvdd_20_I (BETA : F) (Y : Int) (I : Int) :
    (Thr.hgemvdd_20_I BETA Y I (F := F)).run = Haxx.hgemvdd_20_I BETA Y I (F := F) := by
  simp only [Thr.hgemvdd_20_I, Haxx.hgemvdd_20_I, thr]

/-- As `Haxx.hgemvdd_if58`, `src/hblas/fortran/hblas2/hgemvdd.f:58-68`. -/
def hgemvdd_if58 (BETA : F) (BZERO : Bool) (LENY : Int) (Y : Int) : Prog F (Unit) := do
  if BZERO then
    forN (LENY).toNat (fun i => hgemvdd_10_I Y ((i : Int) + 1))
    pure ()
  else
    forN (LENY).toNat (fun i => hgemvdd_20_I BETA Y ((i : Int) + 1))
    pure ()

@[thr] theorem run_hgemvdd_if58 (BETA : F) (BZERO : Bool) (LENY : Int) (Y : Int) :
    (Thr.hgemvdd_if58 BETA BZERO LENY Y (F := F)).run = Haxx.hgemvdd_if58 BETA BZERO LENY Y (F := F) := by
  simp only [Thr.hgemvdd_if58, Haxx.hgemvdd_if58, thr]

/-- As `Haxx.hgemvdd_30_I`, `src/hblas/fortran/hblas2/hgemvdd.f:72-76`, body of `DO 30 I`. -/
def hgemvdd_30_I (INCY : Int) (Y : Int) (I : Int) (IY : Int) : Prog F (Int) := do
  wrC (el2 2 2 Y 1 IY) (⟨zero, zero⟩ : Cplx F)
  wrC (el2 2 2 Y 2 IY) (⟨zero, zero⟩ : Cplx F)
  let IY : Int := IY + INCY
  pure IY

@[thr] theorem run_hgemvdd_30_I (INCY : Int) (Y : Int) (I : Int) (IY : Int) :
    (Thr.hgemvdd_30_I INCY Y I IY (F := F)).run = Haxx.hgemvdd_30_I INCY Y I IY (F := F) := by
  simp only [Thr.hgemvdd_30_I, Haxx.hgemvdd_30_I, thr]

/-- As `Haxx.hgemvdd_40_I`, `src/hblas/fortran/hblas2/hgemvdd.f:78-82`, body of `DO 40 I`. -/
def hgemvdd_40_I (BETA : F) (INCY : Int) (Y : Int) (I : Int) (IY : Int) : Prog F (Int) := do
  let t1 ← rdC (el2 2 2 Y 1 IY)
  wrC (el2 2 2 Y 1 IY) (Cplx.ofReal BETA *ᶜ t1)
  let t2 ← rdC (el2 2 2 Y 2 IY)
  wrC (el2 2 2 Y 2 IY) (Cplx.ofReal BETA *ᶜ t2)
  let IY : Int := IY + INCY
  pure IY

@[thr] theorem run_hgemvdd_40_I (BETA : F) (INCY : Int) (Y : Int) (I : Int) (IY : Int) :
    (Thr.hgemvdd_40_I BETA INCY Y I IY (F := F)).run = Haxx.hgemvdd_40_I BETA INCY Y I IY (F := F) := by
  simp only [Thr.hgemvdd_40_I, Haxx.hgemvdd_40_I, thr]

/-- As `Haxx.hgemvdd_if71`, `src/hblas/fortran/hblas2/hgemvdd.f:71-83`. -/
def hgemvdd_if71 (BETA : F) (BZERO : Bool) (INCY : Int) (IY : Int) (LENY : Int) (Y : Int) : Prog F (Unit) := do
  if BZERO then
    let r ← foldN (LENY).toNat (fun i (s : Int) => hgemvdd_30_I INCY Y ((i : Int) + 1) s) IY
    pure ()
  else
    let r ← foldN (LENY).toNat (fun i (s : Int) => hgemvdd_40_I BETA INCY Y ((i : Int) + 1) s) IY
    pure ()

@[thr] theorem run_hgemvdd_if71 (BETA : F) (BZERO : Bool) (INCY : Int) (IY : Int) (LENY : Int) (Y : Int) :
    (Thr.hgemvdd_if71 BETA BZERO INCY IY LENY Y (F := F)).run = Haxx.hgemvdd_if71 BETA BZERO INCY IY LENY Y (F := F) := by
  simp only [Thr.hgemvdd_if71, Haxx.hgemvdd_if71, thr]

/-- As `Haxx.hgemvdd_if57`, `src/hblas/fortran/hblas2/hgemvdd.f:57-84`. -/
def hgemvdd_if57 (BETA : F) (BZERO : Bool) (INCY : Int) (KY : Int) (LENY : Int) (Y : Int) : Prog F (Unit) := do
  if decide (INCY = 1) then
    hgemvdd_if58 BETA BZERO LENY Y
    pure ()
  else
    let IY : Int := KY
    hgemvdd_if71 BETA BZERO INCY IY LENY Y
    pure ()

@[thr] theorem run_hgemvdd_if57 (BETA : F) (BZERO : Bool) (INCY : Int) (KY : Int) (LENY : Int) (Y : Int) :
    (Thr.hgemvdd_if57 BETA BZERO INCY KY LENY Y (F := F)).run = Haxx.hgemvdd_if57 BETA BZERO INCY KY LENY Y (F := F) := by
  simp only [Thr.hgemvdd_if57, Haxx.hgemvdd_if57, thr]

/-- As `Haxx.hgemvdd_if56`, `src/hblas/fortran/hblas2/hgemvdd.f:56-85`. -/
def hgemvdd_if56 (BETA : F) (BONE : Bool) (BZERO : Bool) (INCY : Int) (KY : Int) (LENY : Int) (Y : Int) : Prog F (Unit) := do
  if !BONE then
    hgemvdd_if57 BETA BZERO INCY KY LENY Y
    pure ()
  else
    pure ()

@[thr] theorem run_hgemvdd_if56 (BETA : F) (BONE : Bool) (BZERO : Bool) (INCY : Int) (KY : Int) (LENY : Int) (Y : Int) :
    (Thr.hgemvdd_if56 BETA BONE BZERO INCY KY LENY Y (F := F)).run = Haxx.hgemvdd_if56 BETA BONE BZERO INCY KY LENY Y (F := F) := by
  simp only [Thr.hgemvdd_if56, Haxx.hgemvdd_if56, thr]

/-- As `Haxx.hgemvdd_50_I`, `src/hblas/fortran/hblas2/hgemvdd.f:95-101`, body of `DO 50 I`. -/
def hgemvdd_50_I (A : Int) (HTMPJ : Cplx F) (HTMPS : Cplx F) (J : Int) (LDA : Int) (Y : Int) (I : Int)  : Prog F (Unit) := do
  let t1 ← rdC (el2 2 2 Y 1 I)
  let t2 ← rdC (el3 2 2 LDA A 1 I J)
  let t3 ← rdC (el3 2 2 LDA A 2 I J)
  wrC (el2 2 2 Y 1 I) (t1 +ᶜ t2 *ᶜ HTMPS -ᶜ t3 *ᶜ Cplx.conj HTMPJ)
  let t4 ← rdC (el2 2 2 Y 2 I)
  let t5 ← rdC (el3 2 2 LDA A 1 I J)
  let t6 ← rdC (el3 2 2 LDA A 2 I J)
  wrC (el2 2 2 Y 2 I) (t4 +ᶜ t5 *ᶜ HTMPJ +ᶜ t6 *ᶜ Cplx.conj HTMPS)
  pure ()

@[thr] theorem run_hgemvdd_50_I (A : Int) (HTMPJ : Cplx F) (HTMPS : Cplx F) (J : Int) (LDA : Int) (Y : Int) (I : Int) :
    (Thr.hgemvdd_50_I A HTMPJ HTMPS J LDA Y I (F := F)).run = Haxx.hgemvdd_50_I A HTMPJ HTMPS J LDA Y I (F := F) := by
  simp only [Thr.hgemvdd_50_I, Haxx.hgemvdd_50_I, thr]

/-- As `Haxx.hgemvdd_60_J`, `src/hblas/fortran/hblas2/hgemvdd.f:92-103`, body of `DO 60 J`. -/
def hgemvdd_60_J (A : Int) (ALPHA : F) (INCX : Int) (LDA : Int) (M : Int) (X : Int) (Y : Int) (J : Int) (JX : Int) : Prog F (Int) := do
  let t1 ← rdC (el2 2 2 X 1 JX)
  let HTMPS : Cplx F := Cplx.ofReal ALPHA *ᶜ t1
  let t2 ← rdC (el2 2 2 X 2 JX)
  let HTMPJ : Cplx F := Cplx.ofReal ALPHA *ᶜ t2
  forN (M).toNat (fun i => hgemvdd_50_I A HTMPJ HTMPS J LDA Y ((i : Int) + 1))
  let JX : Int := JX + INCX
  pure JX

@[thr] theorem run_hgemvdd_60_J (A : Int) (ALPHA : F) (INCX : Int) (LDA : Int) (M : Int) (X : Int) (Y : Int) (J : Int) (JX : Int) :
    (Thr.hgemvdd_60_J A ALPHA INCX LDA M X Y J JX (F := F)).run = Haxx.hgemvdd_60_J A ALPHA INCX LDA M X Y J JX (F := F) := by
  simp only [Thr.hgemvdd_60_J, Haxx.hgemvdd_60_J, thr]

/-- As `Haxx.hgemvdd_70_I`, `src/hblas/fortran/hblas2/hgemvdd.f:109-116`, body of `DO 70 I`. -/
def hgemvdd_70_I (A : Int) (HTMPJ : Cplx F) (HTMPS : Cplx F) (INCY : Int) (J : Int) (LDA : Int) (Y : Int) (I : Int) (IY : Int) : Prog F (Int) := do
  let t1 ← rdC (el2 2 2 Y 1 IY)
  let t2 ← rdC (el3 2 2 LDA A 1 I J)
  let t3 ← rdC (el3 2 2 LDA A 2 I J)
  wrC (el2 2 2 Y 1 IY) (t1 +ᶜ t2 *ᶜ HTMPS -ᶜ t3 *ᶜ Cplx.conj HTMPJ)
  let t4 ← rdC (el2 2 2 Y 2 IY)
  let t5 ← rdC (el3 2 2 LDA A 1 I J)
  let t6 ← rdC (el3 2 2 LDA A 2 I J)
  wrC (el2 2 2 Y 2 IY) (t4 +ᶜ t5 *ᶜ HTMPJ +ᶜ t6 *ᶜ Cplx.conj HTMPS)
  let IY : Int := IY + INCY
  pure IY

@[thr] theorem run_hgemvdd_70_I (A : Int) (HTMPJ : Cplx F) (HTMPS : Cplx F) (INCY : Int) (J : Int) (LDA : Int) (Y : Int) (I : Int) (IY : Int) :
    (Thr.hgemvdd_70_I A HTMPJ HTMPS INCY J LDA Y I IY (F := F)).run = Haxx.hgemvdd_70_I A HTMPJ HTMPS INCY J LDA Y I IY (F := F) := by
  simp only [Thr.hgemvdd_70_I, Haxx.hgemvdd_70_I, thr]

/-- As `Haxx.hgemvdd_80_J`, `src/hblas/fortran/hblas2/hgemvdd.f:105-118`, body of `DO 80 J`. -/
def hgemvdd_80_J (A : Int) (ALPHA : F) (INCX : Int) (INCY : Int) (KY : Int) (LDA : Int) (M : Int) (X : Int) (Y : Int) (J : Int) (JX : Int) : Prog F (Int) := do
  let t1 ← rdC (el2 2 2 X 1 JX)
  let HTMPS : Cplx F := Cplx.ofReal ALPHA *ᶜ t1
  let t2 ← rdC (el2 2 2 X 2 JX)
  let HTMPJ : Cplx F := Cplx.ofReal ALPHA *ᶜ t2
  let IY : Int := KY
  let r ← foldN (M).toNat (fun i (s : Int) => hgemvdd_70_I A HTMPJ HTMPS INCY J LDA Y ((i : Int) + 1) s) IY
  let JX : Int := JX + INCX
  pure JX

@[thr] theorem run_hgemvdd_80_J (A : Int) (ALPHA : F) (INCX : Int) (INCY : Int) (KY : Int) (LDA : Int) (M : Int) (X : Int) (Y : Int) (J : Int) (JX : Int) :
    (Thr.hgemvdd_80_J A ALPHA INCX INCY KY LDA M X Y J JX (F := F)).run = Haxx.hgemvdd_80_J A ALPHA INCX INCY KY LDA M X Y J JX (F := F) := by
  simp only [Thr.hgemvdd_80_J, Haxx.hgemvdd_80_J, thr]

/-- As `Haxx.hgemvdd_if91`, `src/hblas/fortran/hblas2/hgemvdd.f:91-119`. -/
def hgemvdd_if91 (A : Int) (ALPHA : F) (INCX : Int) (INCY : Int) (JX : Int) (KY : Int) (LDA : Int) (M : Int) (N : Int) (X : Int) (Y : Int) : Prog F (Unit) := do
  if decide (INCY = 1) then
    let r ← foldN (N).toNat (fun i (s : Int) => hgemvdd_60_J A ALPHA INCX LDA M X Y ((i : Int) + 1) s) JX
    pure ()
  else
    let r ← foldN (N).toNat (fun i (s : Int) => hgemvdd_80_J A ALPHA INCX INCY KY LDA M X Y ((i : Int) + 1) s) JX
    pure ()

@[thr] theorem run_hgemvdd_if91 (A : Int) (ALPHA : F) (INCX : Int) (INCY : Int) (JX : Int) (KY : Int) (LDA : Int) (M : Int) (N : Int) (X : Int) (Y : Int) :
    (Thr.hgemvdd_if91 A ALPHA INCX INCY JX KY LDA M N X Y (F := F)).run = Haxx.hgemvdd_if91 A ALPHA INCX INCY JX KY LDA M N X Y (F := F) := by
  simp only [Thr.hgemvdd_if91, Haxx.hgemvdd_if91, thr]

/-- As `Haxx.hgemvdd_90_I`, `src/hblas/fortran/hblas2/hgemvdd.f:127-131`, body of `DO 90 I`. -/
def hgemvdd_90_I (A : Int) (J : Int) (LDA : Int) (X : Int) (I : Int) (HTMPJ : Cplx F) (HTMPS : Cplx F) : Prog F (Cplx F × Cplx F) := do
  let t1 ← rdC (el3 2 2 LDA A 1 I J)
  let t2 ← rdC (el2 2 2 X 1 I)
  let t3 ← rdC (el3 2 2 LDA A 2 I J)
  let t4 ← rdC (el2 2 2 X 2 I)
  let HTMPS : Cplx F := HTMPS +ᶜ t1 *ᶜ t2 -ᶜ t3 *ᶜ Cplx.conj t4
  let t5 ← rdC (el3 2 2 LDA A 1 I J)
  let t6 ← rdC (el2 2 2 X 2 I)
  let t7 ← rdC (el3 2 2 LDA A 2 I J)
  let t8 ← rdC (el2 2 2 X 1 I)
  let HTMPJ : Cplx F := HTMPJ +ᶜ t5 *ᶜ t6 +ᶜ t7 *ᶜ Cplx.conj t8
  pure (HTMPJ, HTMPS)

@[thr] theorem run_hgemvdd_90_I (A : Int) (J : Int) (LDA : Int) (X : Int) (I : Int) (HTMPJ : Cplx F) (HTMPS : Cplx F) :
    (Thr.hgemvdd_90_I A J LDA X I HTMPJ HTMPS (F := F)).run = Haxx.hgemvdd_90_I A J LDA X I HTMPJ HTMPS (F := F) := by
  simp only [Thr.hgemvdd_90_I, Haxx.hgemvdd_90_I, thr]

/-- As `Haxx.hgemvdd_100_I`, `src/hblas/fortran/hblas2/hgemvdd.f:133-139`, body of `DO 100 I`. -/
def hgemvdd_100_I (A : Int) (J : Int) (LDA : Int) (X : Int) (I : Int) (HTMPJ : Cplx F) (HTMPS : Cplx F) : Prog F (Cplx F × Cplx F) := do
  let t1 ← rdC (el3 2 2 LDA A 1 I J)
  let t2 ← rdC (el2 2 2 X 1 I)
  let t3 ← rdC (el3 2 2 LDA A 2 I J)
  let t4 ← rdC (el2 2 2 X 2 I)
  let HTMPS : Cplx F := HTMPS +ᶜ Cplx.conj t1 *ᶜ t2 +ᶜ t3 *ᶜ Cplx.conj t4
  let t5 ← rdC (el3 2 2 LDA A 1 I J)
  let t6 ← rdC (el2 2 2 X 2 I)
  let t7 ← rdC (el3 2 2 LDA A 2 I J)
  let t8 ← rdC (el2 2 2 X 1 I)
  let HTMPJ : Cplx F := HTMPJ +ᶜ Cplx.conj t5 *ᶜ t6 -ᶜ t7 *ᶜ Cplx.conj t8
  pure (HTMPJ, HTMPS)

@[thr] theorem run_hgemvdd_100_I (A : Int) (J : Int) (LDA : Int) (X : Int) (I : Int) (HTMPJ : Cplx F) (HTMPS : Cplx F) :
    (Thr.hgemvdd_100_I A J LDA X I HTMPJ HTMPS (F := F)).run = Haxx.hgemvdd_100_I A J LDA X I HTMPJ HTMPS (F := F) := by
  simp only [Thr.hgemvdd_100_I, Haxx.hgemvdd_100_I, thr]

/-- As `Haxx.hgemvdd_if126`, `src/hblas/fortran/hblas2/hgemvdd.f:126-140`. -/
def hgemvdd_if126 (A : Int) (HTMPJ : Cplx F) (HTMPS : Cplx F) (J : Int) (LDA : Int) (M : Int) (NOCONJ : Bool) (X : Int) : Prog F (Cplx F × Cplx F) := do
  if NOCONJ then
    let r ← foldN (M).toNat (fun i (s : Cplx F × Cplx F) => hgemvdd_90_I A J LDA X ((i : Int) + 1) s.1 s.2) (HTMPJ, HTMPS)
    let HTMPJ : Cplx F := r.1
    let HTMPS : Cplx F := r.2
    pure (HTMPJ, HTMPS)
  else
    let r ← foldN (M).toNat (fun i (s : Cplx F × Cplx F) => hgemvdd_100_I A J LDA X ((i : Int) + 1) s.1 s.2) (HTMPJ, HTMPS)
    let HTMPJ : Cplx F := r.1
    let HTMPS : Cplx F := r.2
    pure (HTMPJ, HTMPS)

@[thr] theorem run_hgemvdd_if126 (A : Int) (HTMPJ : Cplx F) (HTMPS : Cplx F) (J : Int) (LDA : Int) (M : Int) (NOCONJ : Bool) (X : Int) :
    (Thr.hgemvdd_if126 A HTMPJ HTMPS J LDA M NOCONJ X (F := F)).run = Haxx.hgemvdd_if126 A HTMPJ HTMPS J LDA M NOCONJ X (F := F) := by
  simp only [Thr.hgemvdd_if126, Haxx.hgemvdd_if126, thr]

/-- As `Haxx.hgemvdd_110_J`, `src/hblas/fortran/hblas2/hgemvdd.f:123-144`, body of `DO 110 J`. -/
def hgemvdd_110_J (A : Int) (ALPHA : F) (INCY : Int) (LDA : Int) (M : Int) (NOCONJ : Bool) (X : Int) (Y : Int) (J : Int) (JY : Int) : Prog F (Int) := do
  let HTMPS : Cplx F := (⟨zero, zero⟩ : Cplx F)
  let HTMPJ : Cplx F := (⟨zero, zero⟩ : Cplx F)
  let r ← hgemvdd_if126 A HTMPJ HTMPS J LDA M NOCONJ X
  let HTMPJ : Cplx F := r.1
  let HTMPS : Cplx F := r.2
  let t1 ← rdC (el2 2 2 Y 1 JY)
  wrC (el2 2 2 Y 1 JY) (t1 +ᶜ Cplx.ofReal ALPHA *ᶜ HTMPS)
  let t2 ← rdC (el2 2 2 Y 2 JY)
  wrC (el2 2 2 Y 2 JY) (t2 +ᶜ Cplx.ofReal ALPHA *ᶜ HTMPJ)
  let JY : Int := JY + INCY
  pure JY

@[thr] theorem run_hgemvdd_110_J (A : Int) (ALPHA : F) (INCY : Int) (LDA : Int) (M : Int) (NOCONJ : Bool) (X : Int) (Y : Int) (J : Int) (JY : Int) :
    (Thr.hgemvdd_110_J A ALPHA INCY LDA M NOCONJ X Y J JY (F := F)).run = Haxx.hgemvdd_110_J A ALPHA INCY LDA M NOCONJ X Y J JY (F := F) := by
  simp only [Thr.hgemvdd_110_J, Haxx.hgemvdd_110_J, thr]

/-- As `Haxx.hgemvdd_120_I`, `src/hblas/fortran/hblas2/hgemvdd.f:151-158`, body of `DO 120 I`. -/
def hgemvdd_120_I (A : Int) (INCX : Int) (J : Int) (LDA : Int) (X : Int) (I : Int) (HTMPJ : Cplx F) (HTMPS : Cplx F) (IX : Int) : Prog F (Cplx F × Cplx F × Int) := do
  let t1 ← rdC (el3 2 2 LDA A 1 I J)
  let t2 ← rdC (el2 2 2 X 1 IX)
  let t3 ← rdC (el3 2 2 LDA A 2 I J)
  let t4 ← rdC (el2 2 2 X 2 IX)
  let HTMPS : Cplx F := HTMPS +ᶜ t1 *ᶜ t2 -ᶜ t3 *ᶜ Cplx.conj t4
  let t5 ← rdC (el3 2 2 LDA A 1 I J)
  let t6 ← rdC (el2 2 2 X 2 IX)
  let t7 ← rdC (el3 2 2 LDA A 2 I J)
  let t8 ← rdC (el2 2 2 X 1 IX)
  let HTMPJ : Cplx F := HTMPJ +ᶜ t5 *ᶜ t6 +ᶜ t7 *ᶜ Cplx.conj t8
  let IX : Int := IX + INCX
  pure (HTMPJ, HTMPS, IX)

@[thr] theorem run_hgemvdd_120_I (A : Int) (INCX : Int) (J : Int) (LDA : Int) (X : Int) (I : Int) (HTMPJ : Cplx F) (HTMPS : Cplx F) (IX : Int) :
    (Thr.hgemvdd_120_I A INCX J LDA X I HTMPJ HTMPS IX (F := F)).run = Haxx.hgemvdd_120_I A INCX J LDA X I HTMPJ HTMPS IX (F := F) := by
  simp only [Thr.hgemvdd_120_I, Haxx.hgemvdd_120_I, thr]

/-- As `Haxx.hgemvdd_130_I`, `src/hblas/fortran/hblas2/hgemvdd.f:160-167`, body of `DO 130 I`. -/
def hgemvdd_130_I (A : Int) (INCX : Int) (J : Int) (LDA : Int) (X : Int) (I : Int) (HTMPJ : Cplx F) (HTMPS : Cplx F) (IX : Int) : Prog F (Cplx F × Cplx F × Int) := do
  let t1 ← rdC (el3 2 2 LDA A 1 I J)
  let t2 ← rdC (el2 2 2 X 1 IX)
  let t3 ← rdC (el3 2 2 LDA A 2 I J)
  let t4 ← rdC (el2 2 2 X 2 IX)
  let HTMPS : Cplx F := HTMPS +ᶜ Cplx.conj t1 *ᶜ t2 +ᶜ t3 *ᶜ Cplx.conj t4
  let t5 ← rdC (el3 2 2 LDA A 1 I J)
  let t6 ← rdC (el2 2 2 X 2 IX)
  let t7 ← rdC (el3 2 2 LDA A 2 I J)
  let t8 ← rdC (el2 2 2 X 1 IX)
  let HTMPJ : Cplx F := HTMPJ +ᶜ Cplx.conj t5 *ᶜ t6 -ᶜ t7 *ᶜ Cplx.conj t8
  let IX : Int := IX + INCX
  pure (HTMPJ, HTMPS, IX)

@[thr] theorem run_hgemvdd_130_I (A : Int) (INCX : Int) (J : Int) (LDA : Int) (X : Int) (I : Int) (HTMPJ : Cplx F) (HTMPS : Cplx F) (IX : Int) :
    (Thr.hgemvdd_130_I A INCX J LDA X I HTMPJ HTMPS IX (F := F)).run = Haxx.hgemvdd_130_I A INCX J LDA X I HTMPJ HTMPS IX (F := F) := by
  simp only [Thr.hgemvdd_130_I, Haxx.hgemvdd_130_I, thr]

/-- As `Haxx.hgemvdd_if150`, `src/hblas/fortran/hblas2/hgemvdd.f:150-168`. -/
def hgemvdd_if150 (A : Int) (HTMPJ : Cplx F) (HTMPS : Cplx F) (INCX : Int) (IX : Int) (J : Int) (LDA : Int) (M : Int) (NOCONJ : Bool) (X : Int) : Prog F (Cplx F × Cplx F) := do
  if NOCONJ then
    let r ← foldN (M).toNat (fun i (s : Cplx F × Cplx F × Int) => hgemvdd_120_I A INCX J LDA X ((i : Int) + 1) s.1 s.2.1 s.2.2) (HTMPJ, HTMPS, IX)
    let HTMPJ : Cplx F := r.1
    let HTMPS : Cplx F := r.2.1
    pure (HTMPJ, HTMPS)
  else
    let r ← foldN (M).toNat (fun i (s : Cplx F × Cplx F × Int) => hgemvdd_130_I A INCX J LDA X ((i : Int) + 1) s.1 s.2.1 s.2.2) (HTMPJ, HTMPS, IX)
    let HTMPJ : Cplx F := r.1
    let HTMPS : Cplx F := r.2.1
    pure (HTMPJ, HTMPS)

@[thr] theorem run_hgemvdd_if150 (A : Int) (HTMPJ : Cplx F) (HTMPS : Cplx F) (INCX : Int) (IX : Int) (J : Int) (LDA : Int) (M : Int) (NOCONJ : Bool) (X : Int) :
    (Thr.hgemvdd_if150 A HTMPJ HTMPS INCX IX J LDA M NOCONJ X (F := F)).run = Haxx.hgemvdd_if150 A HTMPJ HTMPS INCX IX J LDA M NOCONJ X (F := F) := by
  simp only [Thr.hgemvdd_if150, Haxx.hgemvdd_if150, thr]

/-- As `Haxx.hgemvdd_140_J`, `src/hblas/fortran/hblas2/hgemvdd.f:146-172`, body of `DO 140 J`. -/
def hgemvdd_140_J (A : Int) (ALPHA : F) (INCX : Int) (INCY : Int) (KX : Int) (LDA : Int) (M : Int) (NOCONJ : Bool) (X : Int) (Y : Int) (J : Int) (JY : Int) : Prog F (Int) := do
  let HTMPS : Cplx F := (⟨zero, zero⟩ : Cplx F)
  let HTMPJ : Cplx F := (⟨zero, zero⟩ : Cplx F)
  let IX : Int := KX
  let r ← hgemvdd_if150 A HTMPJ HTMPS INCX IX J LDA M NOCONJ X
  let HTMPJ : Cplx F := r.1
  let HTMPS : Cplx F := r.2
  let t1 ← rdC (el2 2 2 Y 1 JY)
  wrC (el2 2 2 Y 1 JY) (t1 +ᶜ Cplx.ofReal ALPHA *ᶜ HTMPS)
  let t2 ← rdC (el2 2 2 Y 2 JY)
  wrC (el2 2 2 Y 2 JY) (t2 +ᶜ Cplx.ofReal ALPHA *ᶜ HTMPJ)
  let JY : Int := JY + INCY
  pure JY

@[thr] theorem run_hgemvdd_140_J (A : Int) (ALPHA : F) (INCX : Int) (INCY : Int) (KX : Int) (LDA : Int) (M : Int) (NOCONJ : Bool) (X : Int) (Y : Int) (J : Int) (JY : Int) :
    (Thr.hgemvdd_140_J A ALPHA INCX INCY KX LDA M NOCONJ X Y J JY (F := F)).run = Haxx.hgemvdd_140_J A ALPHA INCX INCY KX LDA M NOCONJ X Y J JY (F := F) := by
  simp only [Thr.hgemvdd_140_J, Haxx.hgemvdd_140_J, thr]

/-- As `Haxx.hgemvdd_if122`, `src/hblas/fortran/hblas2/hgemvdd.f:122-173`. -/
def hgemvdd_if122 (A : Int) (ALPHA : F) (INCX : Int) (INCY : Int) (JY : Int) (KX : Int) (LDA : Int) (M : Int) (N : Int) (NOCONJ : Bool) (X : Int) (Y : Int) : Prog F (Unit) := do
  if decide (INCX = 1) then
    let r ← foldN (N).toNat (fun i (s : Int) => hgemvdd_110_J A ALPHA INCY LDA M NOCONJ X Y ((i : Int) + 1) s) JY
    pure ()
  else
    let r ← foldN (N).toNat (fun i (s : Int) => hgemvdd_140_J A ALPHA INCX INCY KX LDA M NOCONJ X Y ((i : Int) + 1) s) JY
    pure ()

@[thr] theorem run_hgemvdd_if122 (A : Int) (ALPHA : F) (INCX : Int) (INCY : Int) (JY : Int) (KX : Int) (LDA : Int) (M : Int) (N : Int) (NOCONJ : Bool) (X : Int) (Y : Int) :
    (Thr.hgemvdd_if122 A ALPHA INCX INCY JY KX LDA M N NOCONJ X Y (F := F)).run = Haxx.hgemvdd_if122 A ALPHA INCX INCY JY KX LDA M N NOCONJ X Y (F := F) := by
  simp only [Thr.hgemvdd_if122, Haxx.hgemvdd_if122, thr]

/-- As `Haxx.hgemvdd_if89`, `src/hblas/fortran/hblas2/hgemvdd.f:89-174`. -/
def hgemvdd_if89 (A : Int) (ALPHA : F) (INCX : Int) (INCY : Int) (KX : Int) (KY : Int) (LDA : Int) (M : Int) (N : Int) (NOCONJ : Bool) (TRANS : Char) (X : Int) (Y : Int) : Prog F (Unit) := do
  if lsame TRANS 'N' then
    let JX : Int := KX
    hgemvdd_if91 A ALPHA INCX INCY JX KY LDA M N X Y
    pure ()
  else
    let JY : Int := KY
    hgemvdd_if122 A ALPHA INCX INCY JY KX LDA M N NOCONJ X Y
    pure ()

@[thr] theorem run_hgemvdd_if89 (A : Int) (ALPHA : F) (INCX : Int) (INCY : Int) (KX : Int) (KY : Int) (LDA : Int) (M : Int) (N : Int) (NOCONJ : Bool) (TRANS : Char) (X : Int) (Y : Int) :
    (Thr.hgemvdd_if89 A ALPHA INCX INCY KX KY LDA M N NOCONJ TRANS X Y (F := F)).run = Haxx.hgemvdd_if89 A ALPHA INCX INCY KX KY LDA M N NOCONJ TRANS X Y (F := F) := by
  simp only [Thr.hgemvdd_if89, Haxx.hgemvdd_if89, thr]

/-- As `Haxx.hgemvdd`, `src/hblas/fortran/hblas2/hgemvdd.f:9-176`. -/
def hgemvdd (TRANS : Char) (M : Int) (N : Int) (ALPHA : F) (A : Int) (LDA : Int) (X : Int) (INCX : Int) (BETA : F) (Y : Int) (INCY : Int) : Prog F (Unit) := do
  if ((decide (M = 0)) || (decide (N = 0))) || ((Cplx.feq (Cplx.ofReal ALPHA) (⟨zero, zero⟩ : Cplx F)) && (Cplx.feq (Cplx.ofReal BETA) (⟨one, zero⟩ : Cplx F))) then
    pure ()
  else
    let NOCONJ : Bool := lsame 'T' TRANS
    let r ← (do
      if lsame 'N' TRANS then
        let LENX : Int := N
        let LENY : Int := M
        pure (LENX, LENY)
      else
        let LENX : Int := M
        let LENY : Int := N
        pure (LENX, LENY) : Prog F (Int × Int))
    let LENX : Int := r.1
    let LENY : Int := r.2
    let AZERO : Bool := Cplx.feq (Cplx.ofReal ALPHA) (⟨zero, zero⟩ : Cplx F)
    -- AONE (line 39) is never read
    let BZERO : Bool := Cplx.feq (Cplx.ofReal BETA) (⟨zero, zero⟩ : Cplx F)
    let BONE : Bool := Cplx.feq (Cplx.ofReal BETA) (⟨one, zero⟩ : Cplx F)
    let r ← (do
      if decide (INCX > 0) then
        let KX : Int := 1
        pure KX
      else
        let KX : Int := 1 - (LENX - 1) * INCX
        pure KX : Prog F (Int))
    let KX : Int := r
    let r ← (do
      if decide (INCY > 0) then
        let KY : Int := 1
        pure KY
      else
        let KY : Int := 1 - (LENY - 1) * INCY
        pure KY : Prog F (Int))
    let KY : Int := r
    hgemvdd_if56 BETA BONE BZERO INCY KY LENY Y
    if AZERO then
      pure ()
    else
      hgemvdd_if89 A ALPHA INCX INCY KX KY LDA M N NOCONJ TRANS X Y
      pure ()

@[thr] theorem run_hgemvdd (TRANS : Char) (M : Int) (N : Int) (ALPHA : F) (A : Int) (LDA : Int) (X : Int) (INCX : Int) (BETA : F) (Y : Int) (INCY : Int) :
    (Thr.hgemvdd TRANS M N ALPHA A LDA X INCX BETA Y INCY (F := F)).run = Haxx.hgemvdd TRANS M N ALPHA A LDA X INCX BETA Y INCY (F := F) := by
  simp only [Thr.hgemvdd, Haxx.hgemvdd, thr]

-- end of FGemvdd

variable {F : Type} [Arith F] [ArithEq F]
/-- As `Haxx.hgemvdz_10_I`, `src/hblas/fortran/hblas2/hgemvdz.f:59-62`, body of `DO 10 I`. -/
def hgemvdz_10_I (Y : Int) (I : Int)  : Prog F (Unit) := do
  wrC (el2 2 2 Y 1 I) (⟨zero, zero⟩ : Cplx F)
  wrC (el2 2 2 Y 2 I) (⟨zero, zero⟩ : Cplx F)
  pure ()

@[thr] theorem run_hgemvdz_10_I (Y : Int) (I : Int) :
    (Thr.hgemvdz_10_I Y I (F := F)).run = Haxx.hgemvdz_10_I Y I (F := F) := by
  simp only [Thr.hgemvdz_10_I, Haxx.hgemvdz_10_I, thr]

/-- As `Haxx.hgemvdz_20_I`, `src/hblas/fortran/hblas2/hgemvdz.f:64-67`, body of `DO 20 I`. -/
def hgemvdz_20_I (BETA : Cplx F) (Y : Int) (I : Int)  : Prog F (Unit) := do
  let t1 ← rdC (el2 2 2 Y 1 I)
  wrC (el2 2 2 Y 1 I) (BETA *ᶜ t1)
  let t2 ← rdC (el2 2 2 Y 2 I)
  wrC (el2 2 2 Y 2 I) (BETA *ᶜ t2)
  pure ()

@[thr] theorem run_hgemvdz_20_I (BETA : Cplx F) (Y : Int) (I : Int) :
    (Thr.hgemvdz_20_I BETA Y I (F := F)).run = Haxx.hgemvdz_20_I BETA Y I (F := F) := by
  simp only [Thr.hgemvdz_20_I, Haxx.hgemvdz_20_I, thr]

/-- As `Haxx.hgemvdz_if58`, `src/hblas/fortran/hblas2/hgemvdz.f:58-68`. -/
def hgemvdz_if58 (BETA : Cplx F) (BZERO : Bool) (LENY : Int) (Y : Int) : Prog F (Unit) := do
  if BZERO then
    forN (LENY).toNat (fun i => hgemvdz_10_I Y ((i : Int) + 1))
    pure ()
  else
    forN (LENY).toNat (fun i => hgemvdz_20_I BETA Y ((i : Int) + 1))
    pure ()

@[thr] theorem run_hgemvdz_if58 (BETA : Cplx F) (BZERO : Bool) (LENY : Int) (Y : Int) :
    (Thr.hgemvdz_if58 BETA BZERO LENY Y (F := F)).run = Haxx.hgemvdz_if58 BETA BZERO LENY Y (F := F) := by
  simp only [Thr.hgemvdz_if58, Haxx.hgemvdz_if58, thr]

/-- As `Haxx.hgemvdz_30_I`, `src/hblas/fortran/hblas2/hgemvdz.f:72-76`, body of `DO 30 I`. -/
def hgemvdz_30_I (INCY : Int) (Y : Int) (I : Int) (IY : Int) : Prog F (Int) := do
  wrC (el2 2 2 Y 1 IY) (⟨zero, zero⟩ : Cplx F)
  wrC (el2 2 2 Y 2 IY) (⟨zero, zero⟩ : Cplx F)
  let IY : Int := IY + INCY
  pure IY

@[thr] theorem run_hgemvdz_30_I (INCY : Int) (Y : Int) (I : Int) (IY : Int) :
    (Thr.hgemvdz_30_I INCY Y I IY (F := F)).run = Haxx.hgemvdz_30_I INCY Y I IY (F := F) := by
  simp only [Thr.hgemvdz_30_I, Haxx.hgemvdz_30_I, thr]

/-- As `Haxx.hgemvdz_40_I`, `src/hblas/fortran/hblas2/hgemvdz.f:78-82`, body of `DO 40 I`. -/
def hgemvdz_40_I (BETA : Cplx F) (INCY : Int) (Y : Int) (I : Int) (IY : Int) : Prog F (Int) := do
  let t1 ← rdC (el2 2 2 Y 1 IY)
  wrC (el2 2 2 Y 1 IY) (BETA *ᶜ t1)
  let t2 ← rdC (el2 2 2 Y 2 IY)
  wrC (el2 2 2 Y 2 IY) (BETA *ᶜ t2)
  let IY : Int := IY + INCY
  pure IY

@[thr] theorem run_hgemvdz_40_I (BETA : Cplx F) (INCY : Int) (Y : Int) (I : Int) (IY : Int) :
    (Thr.hgemvdz_40_I BETA INCY Y I IY (F := F)).run = Haxx.hgemvdz_40_I BETA INCY Y I IY (F := F) := by
  simp only [Thr.hgemvdz_40_I, Haxx.hgemvdz_40_I, thr]

/-- As `Haxx.hgemvdz_if71`, `src/hblas/fortran/hblas2/hgemvdz.f:71-83`. -/
def hgemvdz_if71 (BETA : Cplx F) (BZERO : Bool) (INCY : Int) (IY : Int) (LENY : Int) (Y : Int) : Prog F (Unit) := do
  if BZERO then
    let r ← foldN (LENY).toNat (fun i (s : Int) => hgemvdz_30_I INCY Y ((i : Int) + 1) s) IY
    pure ()
  else
    let r ← foldN (LENY).toNat (fun i (s : Int) => hgemvdz_40_I BETA INCY Y ((i : Int) + 1) s) IY
    pure ()

@[thr] theorem run_hgemvdz_if71 (BETA : Cplx F) (BZERO : Bool) (INCY : Int) (IY : Int) (LENY : Int) (Y : Int) :
    (Thr.hgemvdz_if71 BETA BZERO INCY IY LENY Y (F := F)).run = Haxx.hgemvdz_if71 BETA BZERO INCY IY LENY Y (F := F) := by
  simp only [Thr.hgemvdz_if71, Haxx.hgemvdz_if71, thr]

/-- As `Haxx.hgemvdz_if57`, `src/hblas/fortran/hblas2/hgemvdz.f:57-84`. -/
def hgemvdz_if57 (BETA : Cplx F) (BZERO : Bool) (INCY : Int) (KY : Int) (LENY : Int) (Y : Int) : Prog F (Unit) := do
  if decide (INCY = 1) then
    hgemvdz_if58 BETA BZERO LENY Y
    pure ()
  else
    let IY : Int := KY
    hgemvdz_if71 BETA BZERO INCY IY LENY Y
    pure ()

@[thr] theorem run_hgemvdz_if57 (BETA : Cplx F) (BZERO : Bool) (INCY : Int) (KY : Int) (LENY : Int) (Y : Int) :
    (Thr.hgemvdz_if57 BETA BZERO INCY KY LENY Y (F := F)).run = Haxx.hgemvdz_if57 BETA BZERO INCY KY LENY Y (F := F) := by
  simp only [Thr.hgemvdz_if57, Haxx.hgemvdz_if57, thr]

/-- As `Haxx.hgemvdz_if56`, `src/hblas/fortran/hblas2/hgemvdz.f:56-85`. -/
def hgemvdz_if56 (BETA : Cplx F) (BONE : Bool) (BZERO : Bool) (INCY : Int) (KY : Int) (LENY : Int) (Y : Int) : Prog F (Unit) := do
  if !BONE then
    hgemvdz_if57 BETA BZERO INCY KY LENY Y
    pure ()
  else
    pure ()

@[thr] theorem run_hgemvdz_if56 (BETA : Cplx F) (BONE : Bool) (BZERO : Bool) (INCY : Int) (KY : Int) (LENY : Int) (Y : Int) :
    (Thr.hgemvdz_if56 BETA BONE BZERO INCY KY LENY Y (F := F)).run = Haxx.hgemvdz_if56 BETA BONE BZERO INCY KY LENY Y (F := F) := by
  simp only [Thr.hgemvdz_if56, Haxx.hgemvdz_if56, thr]

/-- As `Haxx.hgemvdz_50_I`, `src/hblas/fortran/hblas2/hgemvdz.f:95-101`, body of `DO 50 I`. -/
def hgemvdz_50_I (A : Int) (HTMPJ : Cplx F) (HTMPS : Cplx F) (J : Int) (LDA : Int) (Y : Int) (I : Int)  : Prog F (Unit) := do
  let t1 ← rdC (el2 2 2 Y 1 I)
  let t2 ← rdC (el3 2 2 LDA A 1 I J)
  let t3 ← rdC (el3 2 2 LDA A 2 I J)
  wrC (el2 2 2 Y 1 I) (t1 +ᶜ t2 *ᶜ HTMPS -ᶜ t3 *ᶜ Cplx.conj HTMPJ)
  let t4 ← rdC (el2 2 2 Y 2 I)
  let t5 ← rdC (el3 2 2 LDA A 1 I J)
  let t6 ← rdC (el3 2 2 LDA A 2 I J)
  wrC (el2 2 2 Y 2 I) (t4 +ᶜ t5 *ᶜ HTMPJ +ᶜ t6 *ᶜ Cplx.conj HTMPS)
  pure ()

@[thr] theorem run_hgemvdz_50_I (A : Int) (HTMPJ : Cplx F) (HTMPS : Cplx F) (J : Int) (LDA : Int) (Y : Int) (I : Int) :
    (Thr.hgemvdz_50_I A HTMPJ HTMPS J LDA Y I (F := F)).run = Haxx.hgemvdz_50_I A HTMPJ HTMPS J LDA Y I (F := F) := by
  simp only [Thr.hgemvdz_50_I, Haxx.hgemvdz_50_I, thr]

/-- As `Haxx.hgemvdz_60_J`, `src/hblas/fortran/hblas2/hgemvdz.f:92-103`, body of `DO 60 J`. -/
def hgemvdz_60_J (A : Int) (ALPHA : F) (INCX : Int) (LDA : Int) (M : Int) (X : Int) (Y : Int) (J : Int) (JX : Int) : Prog F (Int) := do
  let t1 ← rdC (el2 2 2 X 1 JX)
  let HTMPS : Cplx F := Cplx.ofReal ALPHA *ᶜ t1
  let t2 ← rdC (el2 2 2 X 2 JX)
  let HTMPJ : Cplx F := Cplx.ofReal ALPHA *ᶜ t2
  forN (M).toNat (fun i => hgemvdz_50_I A HTMPJ HTMPS J LDA Y ((i : Int) + 1))
  let JX : Int := JX + INCX
  pure JX

@[thr] theorem run_hgemvdz_60_J (A : Int) (ALPHA : F) (INCX : Int) (LDA : Int) (M : Int) (X : Int) (Y : Int) (J : Int) (JX : Int) :
    (Thr.hgemvdz_60_J A ALPHA INCX LDA M X Y J JX (F := F)).run = Haxx.hgemvdz_60_J A ALPHA INCX LDA M X Y J JX (F := F) := by
  simp only [Thr.hgemvdz_60_J, Haxx.hgemvdz_60_J, thr]

/-- As `Haxx.hgemvdz_70_I`, `src/hblas/fortran/hblas2/hgemvdz.f:109-116`, body of `DO 70 I`. -/
def hgemvdz_70_I (A : Int) (HTMPJ : Cplx F) (HTMPS : Cplx F) (INCY : Int) (J : Int) (LDA : Int) (Y : Int) (I : Int) (IY : Int) : Prog F (Int) := do
  let t1 ← rdC (el2 2 2 Y 1 IY)
  let t2 ← rdC (el3 2 2 LDA A 1 I J)
  let t3 ← rdC (el3 2 2 LDA A 2 I J)
  wrC (el2 2 2 Y 1 IY) (t1 +ᶜ t2 *ᶜ HTMPS -ᶜ t3 *ᶜ Cplx.conj HTMPJ)
  let t4 ← rdC (el2 2 2 Y 2 IY)
  let t5 ← rdC (el3 2 2 LDA A 1 I J)
  let t6 ← rdC (el3 2 2 LDA A 2 I J)
  wrC (el2 2 2 Y 2 IY) (t4 +ᶜ t5 *ᶜ HTMPJ +ᶜ t6 *ᶜ Cplx.conj HTMPS)
  let IY : Int := IY + INCY
  pure IY

@[thr] theorem run_hgemvdz_70_I (A : Int) (HTMPJ : Cplx F) (HTMPS : Cplx F) (INCY : Int) (J : Int) (LDA : Int) (Y : Int) (I : Int) (IY : Int) :
    (Thr.hgemvdz_70_I A HTMPJ HTMPS INCY J LDA Y I IY (F := F)).run = Haxx.hgemvdz_70_I A HTMPJ HTMPS INCY J LDA Y I IY (F := F) := by
  simp only [Thr.hgemvdz_70_I, Haxx.hgemvdz_70_I, thr]

/-- As `Haxx.hgemvdz_80_J`, `src/hblas/fortran/hblas2/hgemvdz.f:105-118`, body of `DO 80 J`. -/
def hgemvdz_80_J (A : Int) (ALPHA : F) (INCX : Int) (INCY : Int) (KY : Int) (LDA : Int) (M : Int) (X : Int) (Y : Int) (J : Int) (JX : Int) : Prog F (Int) := do
  let t1 ← rdC (el2 2 2 X 1 JX)
  let HTMPS : Cplx F := Cplx.ofReal ALPHA *ᶜ t1
  let t2 ← rdC (el2 2 2 X 2 JX)
  let HTMPJ : Cplx F := Cplx.ofReal ALPHA *ᶜ t2
  let IY : Int := KY
  let r ← foldN (M).toNat (fun i (s : Int) => hgemvdz_70_I A HTMPJ HTMPS INCY J LDA Y ((i : Int) + 1) s) IY
  let JX : Int := JX + INCX
  pure JX

@[thr] theorem run_hgemvdz_80_J (A : Int) (ALPHA : F) (INCX : Int) (INCY : Int) (KY : Int) (LDA : Int) (M : Int) (X : Int) (Y : Int) (J : Int) (JX : Int) :
    (Thr.hgemvdz_80_J A ALPHA INCX INCY KY LDA M X Y J JX (F := F)).run = Haxx.hgemvdz_80_J A ALPHA INCX INCY KY LDA M X Y J JX (F := F) := by
  simp only [Thr.hgemvdz_80_J, Haxx.hgemvdz_80_J, thr]

/-- As `Haxx.hgemvdz_if91`, `src/hblas/fortran/hblas2/hgemvdz.f:91-119`. -/
def hgemvdz_if91 (A : Int) (ALPHA : F) (INCX : Int) (INCY : Int) (JX : Int) (KY : Int) (LDA : Int) (M : Int) (N : Int) (X : Int) (Y : Int) : Prog F (Unit) := do
  if decide (INCY = 1) then
    let r ← foldN (N).toNat (fun i (s : Int) => hgemvdz_60_J A ALPHA INCX LDA M X Y ((i : Int) + 1) s) JX
    pure ()
  else
    let r ← foldN (N).toNat (fun i (s : Int) => hgemvdz_80_J A ALPHA INCX INCY KY LDA M X Y ((i : Int) + 1) s) JX
    pure ()

@[thr] theorem run_hgemvdz_if91 (A : Int) (ALPHA : F) (INCX : Int) (INCY : Int) (JX : Int) (KY : Int) (LDA : Int) (M : Int) (N : Int) (X : Int) (Y : Int) :
    (Thr.hgemvdz_if91 A ALPHA INCX INCY JX KY LDA M N X Y (F := F)).run = Haxx.hgemvdz_if91 A ALPHA INCX INCY JX KY LDA M N X Y (F := F) := by
  simp only [Thr.hgemvdz_if91, Haxx.hgemvdz_if91, thr]

/-- As `Haxx.hgemvdz_90_I`, `src/hblas/fortran/hblas2/hgemvdz.f:127-131`, body of `DO 90 I`. -/
def hgemvdz_90_I (A : Int) (J : Int) (LDA : Int) (X : Int) (I : Int) (HTMPJ : Cplx F) (HTMPS : Cplx F) : Prog F (Cplx F × Cplx F) := do
  let t1 ← rdC (el3 2 2 LDA A 1 I J)
  let t2 ← rdC (el2 2 2 X 1 I)
  let t3 ← rdC (el3 2 2 LDA A 2 I J)
  let t4 ← rdC (el2 2 2 X 2 I)
  let HTMPS : Cplx F := HTMPS +ᶜ t1 *ᶜ t2 -ᶜ t3 *ᶜ Cplx.conj t4
  let t5 ← rdC (el3 2 2 LDA A 1 I J)
  let t6 ← rdC (el2 2 2 X 2 I)
  let t7 ← rdC (el3 2 2 LDA A 2 I J)
  let t8 ← rdC (el2 2 2 X 1 I)
  let HTMPJ : Cplx F := HTMPJ +ᶜ t5 *ᶜ t6 +ᶜ t7 *ᶜ Cplx.conj t8
  pure (HTMPJ, HTMPS)

@[thr] theorem run_hgemvdz_90_I (A : Int) (J : Int) (LDA : Int) (X : Int) (I : Int) (HTMPJ : Cplx F) (HTMPS : Cplx F) :
    (Thr.hgemvdz_90_I A J LDA X I HTMPJ HTMPS (F := F)).run = Haxx.hgemvdz_90_I A J LDA X I HTMPJ HTMPS (F := F) := by
  simp only [Thr.hgemvdz_90_I, Haxx.hgemvdz_90_I, thr]

/-- As `Haxx.hgemvdz_100_I`, `src/hblas/fortran/hblas2/hgemvdz.f:133-139`, body of `DO 100 I`. -/
def hgemvdz_100_I (A : Int) (J : Int) (LDA : Int) (X : Int) (I : Int) (HTMPJ : Cplx F) (HTMPS : Cplx F) : Prog F (Cplx F × Cplx F) := do
  let t1 ← rdC (el3 2 2 LDA A 1 I J)
  let t2 ← rdC (el2 2 2 X 1 I)
  let t3 ← rdC (el3 2 2 LDA A 2 I J)
  let t4 ← rdC (el2 2 2 X 2 I)
  let HTMPS : Cplx F := HTMPS +ᶜ Cplx.conj t1 *ᶜ t2 +ᶜ t3 *ᶜ Cplx.conj t4
  let t5 ← rdC (el3 2 2 LDA A 1 I J)
  let t6 ← rdC (el2 2 2 X 2 I)
  let t7 ← rdC (el3 2 2 LDA A 2 I J)
  let t8 ← rdC (el2 2 2 X 1 I)
  let HTMPJ : Cplx F := HTMPJ +ᶜ Cplx.conj t5 *ᶜ t6 -ᶜ t7 *ᶜ Cplx.conj t8
  pure (HTMPJ, HTMPS)

@[thr] theorem run_hgemvdz_100_I (A : Int) (J : Int) (LDA : Int) (X : Int) (I : Int) (HTMPJ : Cplx F) (HTMPS : Cplx F) :
    (Thr.hgemvdz_100_I A J LDA X I HTMPJ HTMPS (F := F)).run = Haxx.hgemvdz_100_I A J LDA X I HTMPJ HTMPS (F := F) := by
  simp only [Thr.hgemvdz_100_I, Haxx.hgemvdz_100_I, thr]

/-- As `Haxx.hgemvdz_if126`, `src/hblas/fortran/hblas2/hgemvdz.f:126-140`. -/
def hgemvdz_if126 (A : Int) (HTMPJ : Cplx F) (HTMPS : Cplx F) (J : Int) (LDA : Int) (M : Int) (NOCONJ : Bool) (X : Int) : Prog F (Cplx F × Cplx F) := do
  if NOCONJ then
    let r ← foldN (M).toNat (fun i (s : Cplx F × Cplx F) => hgemvdz_90_I A J LDA X ((i : Int) + 1) s.1 s.2) (HTMPJ, HTMPS)
    let HTMPJ : Cplx F := r.1
    let HTMPS : Cplx F := r.2
    pure (HTMPJ, HTMPS)
  else
    let r ← foldN (M).toNat (fun i (s : Cplx F × Cplx F) => hgemvdz_100_I A J LDA X ((i : Int) + 1) s.1 s.2) (HTMPJ, HTMPS)
    let HTMPJ : Cplx F := r.1
    let HTMPS : Cplx F := r.2
    pure (HTMPJ, HTMPS)

@[thr] theorem run_hgemvdz_if126 (A : Int) (HTMPJ : Cplx F) (HTMPS : Cplx F) (J : Int) (LDA : Int) (M : Int) (NOCONJ : Bool) (X : Int) :
    (Thr.hgemvdz_if126 A HTMPJ HTMPS J LDA M NOCONJ X (F := F)).run = Haxx.hgemvdz_if126 A HTMPJ HTMPS J LDA M NOCONJ X (F := F) := by
  simp only [Thr.hgemvdz_if126, Haxx.hgemvdz_if126, thr]

/-- As `Haxx.hgemvdz_110_J`, `src/hblas/fortran/hblas2/hgemvdz.f:123-144`, body of `DO 110 J`. -/
def hgemvdz_110_J (A : Int) (ALPHA : F) (INCY : Int) (LDA : Int) (M : Int) (NOCONJ : Bool) (X : Int) (Y : Int) (J : Int) (JY : Int) : Prog F (Int) := do
  let HTMPS : Cplx F := (⟨zero, zero⟩ : Cplx F)
  let HTMPJ : Cplx F := (⟨zero, zero⟩ : Cplx F)
  let r ← hgemvdz_if126 A HTMPJ HTMPS J LDA M NOCONJ X
  let HTMPJ : Cplx F := r.1
  let HTMPS : Cplx F := r.2
  let t1 ← rdC (el2 2 2 Y 1 JY)
  wrC (el2 2 2 Y 1 JY) (t1 +ᶜ Cplx.ofReal ALPHA *ᶜ HTMPS)
  let t2 ← rdC (el2 2 2 Y 2 JY)
  wrC (el2 2 2 Y 2 JY) (t2 +ᶜ Cplx.ofReal ALPHA *ᶜ HTMPJ)
  let JY : Int := JY + INCY
  pure JY

@[thr] theorem run_hgemvdz_110_J (A : Int) (ALPHA : F) (INCY : Int) (LDA : Int) (M : Int) (NOCONJ : Bool) (X : Int) (Y : Int) (J : Int) (JY : Int) :
    (Thr.hgemvdz_110_J A ALPHA INCY LDA M NOCONJ X Y J JY (F := F)).run = Haxx.hgemvdz_110_J A ALPHA INCY LDA M NOCONJ X Y J JY (F := F) := by
  simp only [Thr.hgemvdz_110_J, Haxx.hgemvdz_110_J, thr]

/-- As `Haxx.hgemvdz_120_I`, `src/hblas/fortran/hblas2/hgemvdz.f:151-158`, body of `DO 120 I`. -/
def hgemvdz_120_I (A : Int) (INCX : Int) (J : Int) (LDA : Int) (X : Int) (I : Int) (HTMPJ : Cplx F) (HTMPS : Cplx F) (IX : Int) : Prog F (Cplx F × Cplx F × Int) := do
  let t1 ← rdC (el3 2 2 LDA A 1 I J)
  let t2 ← rdC (el2 2 2 X 1 IX)
  let t3 ← rdC (el3 2 2 LDA A 2 I J)
  let t4 ← rdC (el2 2 2 X 2 IX)
  let HTMPS : Cplx F := HTMPS +ᶜ t1 *ᶜ t2 -ᶜ t3 *ᶜ Cplx.conj t4
  let t5 ← rdC (el3 2 2 LDA A 1 I J)
  let t6 ← rdC (el2 2 2 X 2 IX)
  let t7 ← rdC (el3 2 2 LDA A 2 I J)
  let t8 ← rdC (el2 2 2 X 1 IX)
  let HTMPJ : Cplx F := HTMPJ +ᶜ t5 *ᶜ t6 +ᶜ t7 *ᶜ Cplx.conj t8
  let IX : Int := IX + INCX
  pure (HTMPJ, HTMPS, IX)

@[thr] theorem run_hgemvdz_120_I (A : Int) (INCX : Int) (J : Int) (LDA : Int) (X : Int) (I : Int) (HTMPJ : Cplx F) (HTMPS : Cplx F) (IX : Int) :
    (Thr.hgemvdz_120_I A INCX J LDA X I HTMPJ HTMPS IX (F := F)).run = Haxx.hgemvdz_120_I A INCX J LDA X I HTMPJ HTMPS IX (F := F) := by
  simp only [Thr.hgemvdz_120_I, Haxx.hgemvdz_120_I, thr]

/-- As `Haxx.hgemvdz_130_I`, `src/hblas/fortran/hblas2/hgemvdz.f:160-167`, body of `DO 130 I`. -/
def hgemvdz_130_I (A : Int) (INCX : Int) (J : Int) (LDA : Int) (X : Int) (I : Int) (HTMPJ : Cplx F) (HTMPS : Cplx F) (IX : Int) : Prog F (Cplx F × Cplx F × Int) := do
  let t1 ← rdC (el3 2 2 LDA A 1 I J)
  let t2 ← rdC (el2 2 2 X 1 IX)
  let t3 ← rdC (el3 2 2 LDA A 2 I J)
  let t4 ← rdC (el2 2 2 X 2 IX)
  let HTMPS : Cplx F := HTMPS +ᶜ Cplx.conj t1 *ᶜ t2 +ᶜ t3 *ᶜ Cplx.conj t4
  let t5 ← rdC (el3 2 2 LDA A 1 I J)
  let t6 ← rdC (el2 2 2 X 2 IX)
  let t7 ← rdC (el3 2 2 LDA A 2 I J)
  let t8 ← rdC (el2 2 2 X 1 IX)
  let HTMPJ : Cplx F := HTMPJ +ᶜ Cplx.conj t5 *ᶜ t6 -ᶜ t7 *ᶜ Cplx.conj t8
  let IX : Int := IX + INCX
  pure (HTMPJ, HTMPS, IX)

@[thr] theorem run_hgemvdz_130_I (A : Int) (INCX : Int) (J : Int) (LDA : Int) (X : Int) (I : Int) (HTMPJ : Cplx F) (HTMPS : Cplx F) (IX : Int) :
    (Thr.hgemvdz_130_I A INCX J LDA X I HTMPJ HTMPS IX (F := F)).run = Haxx.hgemvdz_130_I A INCX J LDA X I HTMPJ HTMPS IX (F := F) := by
  simp only [Thr.hgemvdz_130_I, Haxx.hgemvdz_130_I, thr]

/-- As `Haxx.hgemvdz_if150`, `src/hblas/fortran/hblas2/hgemvdz.f:150-168`. -/
def hgemvdz_if150 (A : Int) (HTMPJ : Cplx F) (HTMPS : Cplx F) (INCX : Int) (IX : Int) (J : Int) (LDA : Int) (M : Int) (NOCONJ : Bool) (X : Int) : Prog F (Cplx F × Cplx F) := do
  if NOCONJ then
    let r ← foldN (M).toNat (fun i (s : Cplx F × Cplx F × Int) => hgemvdz_120_I A INCX J LDA X ((i : Int) + 1) s.1 s.2.1 s.2.2) (HTMPJ, HTMPS, IX)
    let HTMPJ : Cplx F := r.1
    let HTMPS : Cplx F := r.2.1
    pure (HTMPJ, HTMPS)
  else
    let r ← foldN (M).toNat (fun i (s : Cplx F × Cplx F × Int) => hgemvdz_130_I A INCX J LDA X ((i : Int) + 1) s.1 s.2.1 s.2.2) (HTMPJ, HTMPS, IX)
    let HTMPJ : Cplx F := r.1
    let HTMPS : Cplx F := r.2.1
    pure (HTMPJ, HTMPS)

@[thr] theorem run_hgemvdz_if150 (A : Int) (HTMPJ : Cplx F) (HTMPS : Cplx F) (INCX : Int) (IX : Int) (J : Int) (LDA : Int) (M : Int) (NOCONJ : Bool) (X : Int) :
    (Thr.hgemvdz_if150 A HTMPJ HTMPS INCX IX J LDA M NOCONJ X (F := F)).run = Haxx.hgemvdz_if150 A HTMPJ HTMPS INCX IX J LDA M NOCONJ X (F := F) := by
  simp only [Thr.hgemvdz_if150, Haxx.hgemvdz_if150, thr]

/-- As `Haxx.hgemvdz_140_J`, `src/hblas/fortran/hblas2/hgemvdz.f:146-172`, body of `DO 140 J`. -/
def hgemvdz_140_J (A : Int) (ALPHA : F) (INCX : Int) (INCY : Int) (KX : Int) (LDA : Int) (M : Int) (NOCONJ : Bool) (X : Int) (Y : Int) (J : Int) (JY : Int) : Prog F (Int) := do
  let HTMPS : Cplx F := (⟨zero, zero⟩ : Cplx F)
  let HTMPJ : Cplx F := (⟨zero, zero⟩ : Cplx F)
  let IX : Int := KX
  let r ← hgemvdz_if150 A HTMPJ HTMPS INCX IX J LDA M NOCONJ X
  let HTMPJ : Cplx F := r.1
  let HTMPS : Cplx F := r.2
  let t1 ← rdC (el2 2 2 Y 1 JY)
  wrC (el2 2 2 Y 1 JY) (t1 +ᶜ Cplx.ofReal ALPHA *ᶜ HTMPS)
  let t2 ← rdC (el2 2 2 Y 2 JY)
  wrC (el2 2 2 Y 2 JY) (t2 +ᶜ Cplx.ofReal ALPHA *ᶜ HTMPJ)
  let JY : Int := JY + INCY
  pure JY

@[thr] theorem run_hgemvdz_140_J (A : Int) (ALPHA : F) (INCX : Int) (INCY : Int) (KX : Int) (LDA : Int) (M : Int) (NOCONJ : Bool) (X : Int) (Y : Int) (J : Int) (JY : Int) :
    (Thr.hgemvdz_140_J A ALPHA INCX INCY KX LDA M NOCONJ X Y J JY (F := F)).run = Haxx.hgemvdz_140_J A ALPHA INCX INCY KX LDA M NOCONJ X Y J JY (F := F) := by
  simp only [Thr.hgemvdz_140_J, Haxx.hgemvdz_140_J, thr]

/-- As `Haxx.hgemvdz_if122`, `src/hblas/fortran/hblas2/hgemvdz.f:122-173`. -/
def hgemvdz_if122 (A : Int) (ALPHA : F) (INCX : Int) (INCY : Int) (JY : Int) (KX : Int) (LDA : Int) (M : Int) (N : Int) (NOCONJ : Bool) (X : Int) (Y : Int) : Prog F (Unit) := do
  if decide (INCX = 1) then
    let r ← foldN (N).toNat (fun i (s : Int) => hgemvdz_110_J A ALPHA INCY LDA M NOCONJ X Y ((i : Int) + 1) s) JY
    pure ()
  else
    let r ← foldN (N).toNat (fun i (s : Int) => hgemvdz_140_J A ALPHA INCX INCY KX LDA M NOCONJ X Y ((i : Int) + 1) s) JY
    pure ()

@[thr] theorem run_hgemvdz_if122 (A : Int) (ALPHA : F) (INCX : Int) (INCY : Int) (JY : Int) (KX : Int) (LDA : Int) (M : Int) (N : Int) (NOCONJ : Bool) (X : Int) (Y : Int) :
    (Thr.hgemvdz_if122 A ALPHA INCX INCY JY KX LDA M N NOCONJ X Y (F := F)).run = Haxx.hgemvdz_if122 A ALPHA INCX INCY JY KX LDA M N NOCONJ X Y (F := F) := by
  simp only [Thr.hgemvdz_if122, Haxx.hgemvdz_if122, thr]

/-- As `Haxx.hgemvdz_if89`, `src/hblas/fortran/hblas2/hgemvdz.f:89-174`. -/
def hgemvdz_if89 (A : Int) (ALPHA : F) (INCX : Int) (INCY : Int) (KX : Int) (KY : Int) (LDA : Int) (M : Int) (N : Int) (NOCONJ : Bool) (TRANS : Char) (X : Int) (Y : Int) : Prog F (Unit) := do
  if lsame TRANS 'N' then
    let JX : Int := KX
    hgemvdz_if91 A ALPHA INCX INCY JX KY LDA M N X Y
    pure ()
  else
    let JY : Int := KY
    hgemvdz_if122 A ALPHA INCX INCY JY KX LDA M N NOCONJ X Y
    pure ()

@[thr] theorem run_hgemvdz_if89 (A : Int) (ALPHA : F) (INCX : Int) (INCY : Int) (KX : Int) (KY : Int) (LDA : Int) (M : Int) (N : Int) (NOCONJ : Bool) (TRANS : Char) (X : Int) (Y : Int) :
    (Thr.hgemvdz_if89 A ALPHA INCX INCY KX KY LDA M N NOCONJ TRANS X Y (F := F)).run = Haxx.hgemvdz_if89 A ALPHA INCX INCY KX KY LDA M N NOCONJ TRANS X Y (F := F) := by
  simp only [Thr.hgemvdz_if89, Haxx.hgemvdz_if89, thr]

/-- As `Haxx.hgemvdz`, `src/hblas/fortran/hblas2/hgemvdz.f:9-176`. -/
def hgemvdz (TRANS : Char) (M : Int) (N : Int) (ALPHA : F) (A : Int) (LDA : Int) (X : Int) (INCX : Int) (BETA : Cplx F) (Y : Int) (INCY : Int) : Prog F (Unit) := do
  if ((decide (M = 0)) || (decide (N = 0))) || ((Cplx.feq (Cplx.ofReal ALPHA) (⟨zero, zero⟩ : Cplx F)) && (Cplx.feq BETA (⟨one, zero⟩ : Cplx F))) then
    pure ()
  else
    let NOCONJ : Bool := lsame 'T' TRANS
    let r ← (do
      if lsame 'T' TRANS then
        let LENX : Int := N
        let LENY : Int := M
        pure (LENX, LENY)
      else
        let LENX : Int := M
        let LENY : Int := N
        pure (LENX, LENY) : Prog F (Int × Int))
    let LENX : Int := r.1
    let LENY : Int := r.2
    let AZERO : Bool := Cplx.feq (Cplx.ofReal ALPHA) (⟨zero, zero⟩ : Cplx F)
    -- AONE (line 39) is never read
    let BZERO : Bool := Cplx.feq BETA (⟨zero, zero⟩ : Cplx F)
    let BONE : Bool := Cplx.feq BETA (⟨one, zero⟩ : Cplx F)
    let r ← (do
      if decide (INCX > 0) then
        let KX : Int := 1
        pure KX
      else
        let KX : Int := 1 - (LENX - 1) * INCX
        pure KX : Prog F (Int))
    let KX : Int := r
    let r ← (do
      if decide (INCY > 0) then
        let KY : Int := 1
        pure KY
      else
        let KY : Int := 1 - (LENY - 1) * INCY
        pure KY : Prog F (Int))
    let KY : Int := r
    hgemvdz_if56 BETA BONE BZERO INCY KY LENY Y
    if AZERO then
      pure ()
    else
      hgemvdz_if89 A ALPHA INCX INCY KX KY LDA M N NOCONJ TRANS X Y
      pure ()

@[thr] theorem run_hgemvdz (TRANS : Char) (M : Int) (N : Int) (ALPHA : F) (A : Int) (LDA : Int) (X : Int) (INCX : Int) (BETA : Cplx F) (Y : Int) (INCY : Int) :
    (Thr.hgemvdz TRANS M N ALPHA A LDA X INCX BETA Y INCY (F := F)).run = Haxx.hgemvdz TRANS M N ALPHA A LDA X INCX BETA Y INCY (F := F) := by
  simp only [Thr.hgemvdz, Haxx.hgemvdz, thr]

-- end of FGemvdz

variable {F : Type} [Arith F] [ArithEq F]
/-- As `Haxx.hgemvdh_10_I`, `src/hblas/fortran/hblas2/hgemvdh.f:60-63`, body of `DO 10 I`. -/
def hgemvdh_10_I (Y : Int) (I : Int)  : Prog F (Unit) := do
  wrC (el2 2 2 Y 1 I) (⟨zero, zero⟩ : Cplx F)
  wrC (el2 2 2 Y 2 I) (⟨zero, zero⟩ : Cplx F)
  pure ()

@[thr] theorem run_hgemvdh_10_I (Y : Int) (I : Int) :
    (Thr.hgemvdh_10_I Y I (F := F)).run = Haxx.hgemvdh_10_I Y I (F := F) := by
  simp only [Thr.hgemvdh_10_I, Haxx.hgemvdh_10_I, thr]

/-- As `Haxx.hgemvdh_20_I`, `src/hblas/fortran/hblas2/hgemvdh.f:65-69`, body of `DO 20 I`. -/
def hgemvdh_20_I (BETA : Quat F) (Y : Int) (I : Int)  : Prog F (Unit) := do
  let t1 ← rdC (el2 2 2 Y 1 I)
  let t2 ← rdC (el2 2 2 Y 2 I)
  let HTMPS : Cplx F := Quat.lo BETA *ᶜ t1 -ᶜ Quat.hi BETA *ᶜ Cplx.conj t2
  let t3 ← rdC (el2 2 2 Y 2 I)
  let t4 ← rdC (el2 2 2 Y 1 I)
  wrC (el2 2 2 Y 2 I) (Quat.lo BETA *ᶜ t3 +ᶜ Quat.hi BETA *ᶜ Cplx.conj t4)
  wrC (el2 2 2 Y 1 I) HTMPS
  pure ()

@[thr] theorem run_hgemvdh_20_I (BETA : Quat F) (Y : Int) (I : Int) :
    (Thr.hgemvdh_20_I BETA Y I (F := F)).run = Haxx.hgemvdh_20_I BETA Y I (F := F) := by
  simp only [Thr.hgemvdh_20_I, Haxx.hgemvdh_20_I, thr]

/-- As `Haxx.hgemvdh_if59`, `src/hblas/fortran/hblas2/hgemvdh.f:59-70`. -/
def hgemvdh_if59 (BETA : Quat F) (BZERO : Bool) (LENY : Int) (Y : Int) : Prog F (Unit) := do
  if BZERO then
    forN (LENY).toNat (fun i => hgemvdh_10_I Y ((i : Int) + 1))
    pure ()
  else
    forN (LENY).toNat (fun i => hgemvdh_20_I BETA Y ((i : Int) + 1))
    pure ()

@[thr] theorem run_hgemvdh_if59 (BETA : Quat F) (BZERO : Bool) (LENY : Int) (Y : Int) :
    (Thr.hgemvdh_if59 BETA BZERO LENY Y (F := F)).run = Haxx.hgemvdh_if59 BETA BZERO LENY Y (F := F) := by
  simp only [Thr.hgemvdh_if59, Haxx.hgemvdh_if59, thr]

/-- As `Haxx.hgemvdh_30_I`, `src/hblas/fortran/hblas2/hgemvdh.f:74-78`, body of `DO 30 I`. -/
def hgemvdh_30_I (INCY : Int) (Y : Int) (I : Int) (IY : Int) : Prog F (Int) := do
  wrC (el2 2 2 Y 1 IY) (⟨zero, zero⟩ : Cplx F)
  wrC (el2 2 2 Y 2 IY) (⟨zero, zero⟩ : Cplx F)
  let IY : Int := IY + INCY
  pure IY

@[thr] theorem run_hgemvdh_30_I (INCY : Int) (Y : Int) (I : Int) (IY : Int) :
    (Thr.hgemvdh_30_I INCY Y I IY (F := F)).run = Haxx.hgemvdh_30_I INCY Y I IY (F := F) := by
  simp only [Thr.hgemvdh_30_I, Haxx.hgemvdh_30_I, thr]

/-- As `Haxx.hgemvdh_40_I`, `src/hblas/fortran/hblas2/hgemvdh.f:80-84`, body of `DO 40 I`. -/
def hgemvdh_40_I (BETA : Quat F) (IY : Int) (Y : Int) (I : Int)  : Prog F (Unit) := do
  let t1 ← rdC (el2 2 2 Y 1 IY)
  let t2 ← rdC (el2 2 2 Y 2 IY)
  let HTMPS : Cplx F := Quat.lo BETA *ᶜ t1 -ᶜ Quat.hi BETA *ᶜ Cplx.conj t2
  let t3 ← rdC (el2 2 2 Y 2 IY)
  let t4 ← rdC (el2 2 2 Y 1 IY)
  wrC (el2 2 2 Y 2 IY) (Quat.lo BETA *ᶜ t3 +ᶜ Quat.hi BETA *ᶜ Cplx.conj t4)
  wrC (el2 2 2 Y 1 IY) HTMPS
  pure ()

@[thr] theorem run_hgemvdh_40_I (BETA : Quat F) (IY : Int) (Y : Int) (I : Int) :
    (Thr.hgemvdh_40_I BETA IY Y I (F := F)).run = Haxx.hgemvdh_40_I BETA IY Y I (F := F) := by
  simp only [Thr.hgemvdh_40_I, Haxx.hgemvdh_40_I, thr]

/-- As `Haxx.hgemvdh_if73`, `src/hblas/fortran/hblas2/hgemvdh.f:73-85`. -/
def hgemvdh_if73 (BETA : Quat F) (BZERO : Bool) (INCY : Int) (IY : Int) (LENY : Int) (Y : Int) : Prog F (Unit) := do
  if BZERO then
    let r ← foldN (LENY).toNat (fun i (s : Int) => hgemvdh_30_I INCY Y ((i : Int) + 1) s) IY
    pure ()
  else
    forN (LENY).toNat (fun i => hgemvdh_40_I BETA IY Y ((i : Int) + 1))
    pure ()

@[thr] theorem run_hgemvdh_if73 (BETA : Quat F) (BZERO : Bool) (INCY : Int) (IY : Int) (LENY : Int) (Y : Int) :
    (Thr.hgemvdh_if73 BETA BZERO INCY IY LENY Y (F := F)).run = Haxx.hgemvdh_if73 BETA BZERO INCY IY LENY Y (F := F) := by
  simp only [Thr.hgemvdh_if73, Haxx.hgemvdh_if73, thr]

/-- As `Haxx.hgemvdh_if58`, `src/hblas/fortran/hblas2/hgemvdh.f:58-86`. -/
def hgemvdh_if58 (BETA : Quat F) (BZERO : Bool) (INCY : Int) (KY : Int) (LENY : Int) (Y : Int) : Prog F (Unit) := do
  if decide (INCY = 1) then
    hgemvdh_if59 BETA BZERO LENY Y
    pure ()
  else
    let IY : Int := KY
    hgemvdh_if73 BETA BZERO INCY IY LENY Y
    pure ()

@[thr] theorem run_hgemvdh_if58 (BETA : Quat F) (BZERO : Bool) (INCY : Int) (KY : Int) (LENY : Int) (Y : Int) :
    (Thr.hgemvdh_if58 BETA BZERO INCY KY LENY Y (F := F)).run = Haxx.hgemvdh_if58 BETA BZERO INCY KY LENY Y (F := F) := by
  simp only [Thr.hgemvdh_if58, Haxx.hgemvdh_if58, thr]

/-- As `Haxx.hgemvdh_if57`, `src/hblas/fortran/hblas2/hgemvdh.f:57-87`. -/
def hgemvdh_if57 (BETA : Quat F) (BONE : Bool) (BZERO : Bool) (INCY : Int) (KY : Int) (LENY : Int) (Y : Int) : Prog F (Unit) := do
  if !BONE then
    hgemvdh_if58 BETA BZERO INCY KY LENY Y
    pure ()
  else
    pure ()

@[thr] theorem run_hgemvdh_if57 (BETA : Quat F) (BONE : Bool) (BZERO : Bool) (INCY : Int) (KY : Int) (LENY : Int) (Y : Int) :
    (Thr.hgemvdh_if57 BETA BONE BZERO INCY KY LENY Y (F := F)).run = Haxx.hgemvdh_if57 BETA BONE BZERO INCY KY LENY Y (F := F) := by
  simp only [Thr.hgemvdh_if57, Haxx.hgemvdh_if57, thr]

/-- As `Haxx.hgemvdh_50_I`, `src/hblas/fortran/hblas2/hgemvdh.f:97-103`, body of `DO 50 I`. -/
def hgemvdh_50_I (A : Int) (HTMPJ : Cplx F) (HTMPS : Cplx F) (J : Int) (LDA : Int) (Y : Int) (I : Int)  : Prog F (Unit) := do
  let t1 ← rdC (el2 2 2 Y 1 I)
  let t2 ← rdC (el3 2 2 LDA A 1 I J)
  let t3 ← rdC (el3 2 2 LDA A 2 I J)
  wrC (el2 2 2 Y 1 I) (t1 +ᶜ t2 *ᶜ HTMPS -ᶜ t3 *ᶜ Cplx.conj HTMPJ)
  let t4 ← rdC (el2 2 2 Y 2 I)
  let t5 ← rdC (el3 2 2 LDA A 1 I J)
  let t6 ← rdC (el3 2 2 LDA A 2 I J)
  wrC (el2 2 2 Y 2 I) (t4 +ᶜ t5 *ᶜ HTMPJ +ᶜ t6 *ᶜ Cplx.conj HTMPS)
  pure ()

@[thr] theorem run_hgemvdh_50_I (A : Int) (HTMPJ : Cplx F) (HTMPS : Cplx F) (J : Int) (LDA : Int) (Y : Int) (I : Int) :
    (Thr.hgemvdh_50_I A HTMPJ HTMPS J LDA Y I (F := F)).run = Haxx.hgemvdh_50_I A HTMPJ HTMPS J LDA Y I (F := F) := by
  simp only [Thr.hgemvdh_50_I, Haxx.hgemvdh_50_I, thr]

/-- As `Haxx.hgemvdh_60_J`, `src/hblas/fortran/hblas2/hgemvdh.f:94-105`, body of `DO 60 J`. -/
def hgemvdh_60_J (A : Int) (ALPHA : F) (INCX : Int) (LDA : Int) (M : Int) (X : Int) (Y : Int) (J : Int) (JX : Int) : Prog F (Int) := do
  let t1 ← rdC (el2 2 2 X 1 JX)
  let HTMPS : Cplx F := Cplx.ofReal ALPHA *ᶜ t1
  let t2 ← rdC (el2 2 2 X 2 JX)
  let HTMPJ : Cplx F := Cplx.ofReal ALPHA *ᶜ t2
  forN (M).toNat (fun i => hgemvdh_50_I A HTMPJ HTMPS J LDA Y ((i : Int) + 1))
  let JX : Int := JX + INCX
  pure JX

@[thr] theorem run_hgemvdh_60_J (A : Int) (ALPHA : F) (INCX : Int) (LDA : Int) (M : Int) (X : Int) (Y : Int) (J : Int) (JX : Int) :
    (Thr.hgemvdh_60_J A ALPHA INCX LDA M X Y J JX (F := F)).run = Haxx.hgemvdh_60_J A ALPHA INCX LDA M X Y J JX (F := F) := by
  simp only [Thr.hgemvdh_60_J, Haxx.hgemvdh_60_J, thr]

/-- As `Haxx.hgemvdh_70_I`, `src/hblas/fortran/hblas2/hgemvdh.f:111-118`, body of `DO 70 I`. -/
def hgemvdh_70_I (A : Int) (HTMPJ : Cplx F) (HTMPS : Cplx F) (INCY : Int) (J : Int) (LDA : Int) (Y : Int) (I : Int) (IY : Int) : Prog F (Int) := do
  let t1 ← rdC (el2 2 2 Y 1 IY)
  let t2 ← rdC (el3 2 2 LDA A 1 I J)
  let t3 ← rdC (el3 2 2 LDA A 2 I J)
  wrC (el2 2 2 Y 1 IY) (t1 +ᶜ t2 *ᶜ HTMPS -ᶜ t3 *ᶜ Cplx.conj HTMPJ)
  let t4 ← rdC (el2 2 2 Y 2 IY)
  let t5 ← rdC (el3 2 2 LDA A 1 I J)
  let t6 ← rdC (el3 2 2 LDA A 2 I J)
  wrC (el2 2 2 Y 2 IY) (t4 +ᶜ t5 *ᶜ HTMPJ +ᶜ t6 *ᶜ Cplx.conj HTMPS)
  let IY : Int := IY + INCY
  pure IY

@[thr] theorem run_hgemvdh_70_I (A : Int) (HTMPJ : Cplx F) (HTMPS : Cplx F) (INCY : Int) (J : Int) (LDA : Int) (Y : Int) (I : Int) (IY : Int) :
    (Thr.hgemvdh_70_I A HTMPJ HTMPS INCY J LDA Y I IY (F := F)).run = Haxx.hgemvdh_70_I A HTMPJ HTMPS INCY J LDA Y I IY (F := F) := by
  simp only [Thr.hgemvdh_70_I, Haxx.hgemvdh_70_I, thr]

/-- As `Haxx.hgemvdh_80_J`, `src/hblas/fortran/hblas2/hgemvdh.f:107-120`, body of `DO 80 J`. -/
def hgemvdh_80_J (A : Int) (ALPHA : F) (INCX : Int) (INCY : Int) (KY : Int) (LDA : Int) (M : Int) (X : Int) (Y : Int) (J : Int) (JX : Int) : Prog F (Int) := do
  let t1 ← rdC (el2 2 2 X 1 JX)
  let HTMPS : Cplx F := Cplx.ofReal ALPHA *ᶜ t1
  let t2 ← rdC (el2 2 2 X 2 JX)
  let HTMPJ : Cplx F := Cplx.ofReal ALPHA *ᶜ t2
  let IY : Int := KY
  let r ← foldN (M).toNat (fun i (s : Int) => hgemvdh_70_I A HTMPJ HTMPS INCY J LDA Y ((i : Int) + 1) s) IY
  let JX : Int := JX + INCX
  pure JX

@[thr] theorem run_hgemvdh_80_J (A : Int) (ALPHA : F) (INCX : Int) (INCY : Int) (KY : Int) (LDA : Int) (M : Int) (X : Int) (Y : Int) (J : Int) (JX : Int) :
    (Thr.hgemvdh_80_J A ALPHA INCX INCY KY LDA M X Y J JX (F := F)).run = Haxx.hgemvdh_80_J A ALPHA INCX INCY KY LDA M X Y J JX (F := F) := by
  simp only [Thr.hgemvdh_80_J, Haxx.hgemvdh_80_J, thr]

/-- As `Haxx.hgemvdh_if93`, `src/hblas/fortran/hblas2/hgemvdh.f:93-121`. -/
def hgemvdh_if93 (A : Int) (ALPHA : F) (INCX : Int) (INCY : Int) (JX : Int) (KY : Int) (LDA : Int) (M : Int) (N : Int) (X : Int) (Y : Int) : Prog F (Unit) := do
  if decide (INCY = 1) then
    let r ← foldN (N).toNat (fun i (s : Int) => hgemvdh_60_J A ALPHA INCX LDA M X Y ((i : Int) + 1) s) JX
    pure ()
  else
    let r ← foldN (N).toNat (fun i (s : Int) => hgemvdh_80_J A ALPHA INCX INCY KY LDA M X Y ((i : Int) + 1) s) JX
    pure ()

@[thr] theorem run_hgemvdh_if93 (A : Int) (ALPHA : F) (INCX : Int) (INCY : Int) (JX : Int) (KY : Int) (LDA : Int) (M : Int) (N : Int) (X : Int) (Y : Int) :
    (Thr.hgemvdh_if93 A ALPHA INCX INCY JX KY LDA M N X Y (F := F)).run = Haxx.hgemvdh_if93 A ALPHA INCX INCY JX KY LDA M N X Y (F := F) := by
  simp only [Thr.hgemvdh_if93, Haxx.hgemvdh_if93, thr]

/-- As `Haxx.hgemvdh_90_I`, `src/hblas/fortran/hblas2/hgemvdh.f:129-133`, body of `DO 90 I`. -/
def hgemvdh_90_I (A : Int) (J : Int) (LDA : Int) (X : Int) (I : Int) (HTMPJ : Cplx F) (HTMPS : Cplx F) : Prog F (Cplx F × Cplx F) := do
  let t1 ← rdC (el3 2 2 LDA A 1 I J)
  let t2 ← rdC (el2 2 2 X 1 I)
  let t3 ← rdC (el3 2 2 LDA A 2 I J)
  let t4 ← rdC (el2 2 2 X 2 I)
  let HTMPS : Cplx F := HTMPS +ᶜ t1 *ᶜ t2 -ᶜ t3 *ᶜ Cplx.conj t4
  let t5 ← rdC (el3 2 2 LDA A 1 I J)
  let t6 ← rdC (el2 2 2 X 2 I)
  let t7 ← rdC (el3 2 2 LDA A 2 I J)
  let t8 ← rdC (el2 2 2 X 1 I)
  let HTMPJ : Cplx F := HTMPJ +ᶜ t5 *ᶜ t6 +ᶜ t7 *ᶜ Cplx.conj t8
  pure (HTMPJ, HTMPS)

@[thr] theorem run_hgemvdh_90_I (A : Int) (J : Int) (LDA : Int) (X : Int) (I : Int) (HTMPJ : Cplx F) (HTMPS : Cplx F) :
    (Thr.hgemvdh_90_I A J LDA X I HTMPJ HTMPS (F := F)).run = Haxx.hgemvdh_90_I A J LDA X I HTMPJ HTMPS (F := F) := by
  simp only [Thr.hgemvdh_90_I, Haxx.hgemvdh_90_I, thr]

/-- As `Haxx.hgemvdh_100_I`, `src/hblas/fortran/hblas2/hgemvdh.f:135-141`, body of `DO 100 I`. -/
def hgemvdh_100_I (A : Int) (J : Int) (LDA : Int) (X : Int) (I : Int) (HTMPJ : Cplx F) (HTMPS : Cplx F) : Prog F (Cplx F × Cplx F) := do
  let t1 ← rdC (el3 2 2 LDA A 1 I J)
  let t2 ← rdC (el2 2 2 X 1 I)
  let t3 ← rdC (el3 2 2 LDA A 2 I J)
  let t4 ← rdC (el2 2 2 X 2 I)
  let HTMPS : Cplx F := HTMPS +ᶜ Cplx.conj t1 *ᶜ t2 +ᶜ t3 *ᶜ Cplx.conj t4
  let t5 ← rdC (el3 2 2 LDA A 1 I J)
  let t6 ← rdC (el2 2 2 X 2 I)
  let t7 ← rdC (el3 2 2 LDA A 2 I J)
  let t8 ← rdC (el2 2 2 X 1 I)
  let HTMPJ : Cplx F := HTMPJ +ᶜ Cplx.conj t5 *ᶜ t6 -ᶜ t7 *ᶜ Cplx.conj t8
  pure (HTMPJ, HTMPS)

@[thr] theorem run_hgemvdh_100_I (A : Int) (J : Int) (LDA : Int) (X : Int) (I : Int) (HTMPJ : Cplx F) (HTMPS : Cplx F) :
    (Thr.hgemvdh_100_I A J LDA X I HTMPJ HTMPS (F := F)).run = Haxx.hgemvdh_100_I A J LDA X I HTMPJ HTMPS (F := F) := by
  simp only [Thr.hgemvdh_100_I, Haxx.hgemvdh_100_I, thr]

/-- As `Haxx.hgemvdh_if128`, `src/hblas/fortran/hblas2/hgemvdh.f:128-142`. -/
def hgemvdh_if128 (A : Int) (HTMPJ : Cplx F) (HTMPS : Cplx F) (J : Int) (LDA : Int) (M : Int) (NOCONJ : Bool) (X : Int) : Prog F (Cplx F × Cplx F) := do
  if NOCONJ then
    let r ← foldN (M).toNat (fun i (s : Cplx F × Cplx F) => hgemvdh_90_I A J LDA X ((i : Int) + 1) s.1 s.2) (HTMPJ, HTMPS)
    let HTMPJ : Cplx F := r.1
    let HTMPS : Cplx F := r.2
    pure (HTMPJ, HTMPS)
  else
    let r ← foldN (M).toNat (fun i (s : Cplx F × Cplx F) => hgemvdh_100_I A J LDA X ((i : Int) + 1) s.1 s.2) (HTMPJ, HTMPS)
    let HTMPJ : Cplx F := r.1
    let HTMPS : Cplx F := r.2
    pure (HTMPJ, HTMPS)

@[thr] theorem run_hgemvdh_if128 (A : Int) (HTMPJ : Cplx F) (HTMPS : Cplx F) (J : Int) (LDA : Int) (M : Int) (NOCONJ : Bool) (X : Int) :
    (Thr.hgemvdh_if128 A HTMPJ HTMPS J LDA M NOCONJ X (F := F)).run = Haxx.hgemvdh_if128 A HTMPJ HTMPS J LDA M NOCONJ X (F := F) := by
  simp only [Thr.hgemvdh_if128, Haxx.hgemvdh_if128, thr]

/-- As `Haxx.hgemvdh_110_J`, `src/hblas/fortran/hblas2/hgemvdh.f:125-146`, body of `DO 110 J`. -/
def hgemvdh_110_J (A : Int) (ALPHA : F) (INCY : Int) (LDA : Int) (M : Int) (NOCONJ : Bool) (X : Int) (Y : Int) (J : Int) (JY : Int) : Prog F (Int) := do
  let HTMPS : Cplx F := (⟨zero, zero⟩ : Cplx F)
  let HTMPJ : Cplx F := (⟨zero, zero⟩ : Cplx F)
  let r ← hgemvdh_if128 A HTMPJ HTMPS J LDA M NOCONJ X
  let HTMPJ : Cplx F := r.1
  let HTMPS : Cplx F := r.2
  let t1 ← rdC (el2 2 2 Y 1 JY)
  wrC (el2 2 2 Y 1 JY) (t1 +ᶜ Cplx.ofReal ALPHA *ᶜ HTMPS)
  let t2 ← rdC (el2 2 2 Y 2 JY)
  wrC (el2 2 2 Y 2 JY) (t2 +ᶜ Cplx.ofReal ALPHA *ᶜ HTMPJ)
  let JY : Int := JY + INCY
  pure JY

@[thr] theorem run_hgemvdh_110_J (A : Int) (ALPHA : F) (INCY : Int) (LDA : Int) (M : Int) (NOCONJ : Bool) (X : Int) (Y : Int) (J : Int) (JY : Int) :
    (Thr.hgemvdh_110_J A ALPHA INCY LDA M NOCONJ X Y J JY (F := F)).run = Haxx.hgemvdh_110_J A ALPHA INCY LDA M NOCONJ X Y J JY (F := F) := by
  simp only [Thr.hgemvdh_110_J, Haxx.hgemvdh_110_J, thr]

/-- As `Haxx.hgemvdh_120_I`, `src/hblas/fortran/hblas2/hgemvdh.f:153-160`, body of `DO 120 I`. -/
def hgemvdh_120_I (A : Int) (INCX : Int) (J : Int) (LDA : Int) (X : Int) (I : Int) (HTMPJ : Cplx F) (HTMPS : Cplx F) (IX : Int) : Prog F (Cplx F × Cplx F × Int) := do
  let t1 ← rdC (el3 2 2 LDA A 1 I J)
  let t2 ← rdC (el2 2 2 X 1 IX)
  let t3 ← rdC (el3 2 2 LDA A 2 I J)
  let t4 ← rdC (el2 2 2 X 2 IX)
  let HTMPS : Cplx F := HTMPS +ᶜ t1 *ᶜ t2 -ᶜ t3 *ᶜ Cplx.conj t4
  let t5 ← rdC (el3 2 2 LDA A 1 I J)
  let t6 ← rdC (el2 2 2 X 2 IX)
  let t7 ← rdC (el3 2 2 LDA A 2 I J)
  let t8 ← rdC (el2 2 2 X 1 IX)
  let HTMPJ : Cplx F := HTMPJ +ᶜ t5 *ᶜ t6 +ᶜ t7 *ᶜ Cplx.conj t8
  let IX : Int := IX + INCX
  pure (HTMPJ, HTMPS, IX)

@[thr] theorem run_hgemvdh_120_I (A : Int) (INCX : Int) (J : Int) (LDA : Int) (X : Int) (I : Int) (HTMPJ : Cplx F) (HTMPS : Cplx F) (IX : Int) :
    (Thr.hgemvdh_120_I A INCX J LDA X I HTMPJ HTMPS IX (F := F)).run = Haxx.hgemvdh_120_I A INCX J LDA X I HTMPJ HTMPS IX (F := F) := by
  simp only [Thr.hgemvdh_120_I, Haxx.hgemvdh_120_I, thr]

/-- As `Haxx.hgemvdh_130_I`, `src/hblas/fortran/hblas2/hgemvdh.f:162-169`, body of `DO 130 I`. -/
def hgemvdh_130_I (A : Int) (INCX : Int) (J : Int) (LDA : Int) (X : Int) (I : Int) (HTMPJ : Cplx F) (HTMPS : Cplx F) (IX : Int) : Prog F (Cplx F × Cplx F × Int) := do
  let t1 ← rdC (el3 2 2 LDA A 1 I J)
  let t2 ← rdC (el2 2 2 X 1 IX)
  let t3 ← rdC (el3 2 2 LDA A 2 I J)
  let t4 ← rdC (el2 2 2 X 2 IX)
  let HTMPS : Cplx F := HTMPS +ᶜ Cplx.conj t1 *ᶜ t2 +ᶜ t3 *ᶜ Cplx.conj t4
  let t5 ← rdC (el3 2 2 LDA A 1 I J)
  let t6 ← rdC (el2 2 2 X 2 IX)
  let t7 ← rdC (el3 2 2 LDA A 2 I J)
  let t8 ← rdC (el2 2 2 X 1 IX)
  let HTMPJ : Cplx F := HTMPJ +ᶜ Cplx.conj t5 *ᶜ t6 -ᶜ t7 *ᶜ Cplx.conj t8
  let IX : Int := IX + INCX
  pure (HTMPJ, HTMPS, IX)

@[thr] theorem run_hgemvdh_130_I (A : Int) (INCX : Int) (J : Int) (LDA : Int) (X : Int) (I : Int) (HTMPJ : Cplx F) (HTMPS : Cplx F) (IX : Int) :
    (Thr.hgemvdh_130_I A INCX J LDA X I HTMPJ HTMPS IX (F := F)).run = Haxx.hgemvdh_130_I A INCX J LDA X I HTMPJ HTMPS IX (F := F) := by
  simp only [Thr.hgemvdh_130_I, Haxx.hgemvdh_130_I, thr]

/-- As `Haxx.hgemvdh_if152`, `src/hblas/fortran/hblas2/hgemvdh.f:152-170`. -/
def hgemvdh_if152 (A : Int) (HTMPJ : Cplx F) (HTMPS : Cplx F) (INCX : Int) (IX : Int) (J : Int) (LDA : Int) (M : Int) (NOCONJ : Bool) (X : Int) : Prog F (Cplx F × Cplx F) := do
  if NOCONJ then
    let r ← foldN (M).toNat (fun i (s : Cplx F × Cplx F × Int) => hgemvdh_120_I A INCX J LDA X ((i : Int) + 1) s.1 s.2.1 s.2.2) (HTMPJ, HTMPS, IX)
    let HTMPJ : Cplx F := r.1
    let HTMPS : Cplx F := r.2.1
    pure (HTMPJ, HTMPS)
  else
    let r ← foldN (M).toNat (fun i (s : Cplx F × Cplx F × Int) => hgemvdh_130_I A INCX J LDA X ((i : Int) + 1) s.1 s.2.1 s.2.2) (HTMPJ, HTMPS, IX)
    let HTMPJ : Cplx F := r.1
    let HTMPS : Cplx F := r.2.1
    pure (HTMPJ, HTMPS)

@[thr] theorem run_hgemvdh_if152 (A : Int) (HTMPJ : Cplx F) (HTMPS : Cplx F) (INCX : Int) (IX : Int) (J : Int) (LDA : Int) (M : Int) (NOCONJ : Bool) (X : Int) :
    (Thr.hgemvdh_if152 A HTMPJ HTMPS INCX IX J LDA M NOCONJ X (F := F)).run = Haxx.hgemvdh_if152 A HTMPJ HTMPS INCX IX J LDA M NOCONJ X (F := F) := by
  simp only [Thr.hgemvdh_if152, Haxx.hgemvdh_if152, thr]

/-- As `Haxx.hgemvdh_140_J`, `src/hblas/fortran/hblas2/hgemvdh.f:148-174`, body of `DO 140 J`. -/
def hgemvdh_140_J (A : Int) (ALPHA : F) (INCX : Int) (INCY : Int) (KX : Int) (LDA : Int) (M : Int) (NOCONJ : Bool) (X : Int) (Y : Int) (J : Int) (JY : Int) : Prog F (Int) := do
  let HTMPS : Cplx F := (⟨zero, zero⟩ : Cplx F)
  let HTMPJ : Cplx F := (⟨zero, zero⟩ : Cplx F)
  let IX : Int := KX
  let r ← hgemvdh_if152 A HTMPJ HTMPS INCX IX J LDA M NOCONJ X
  let HTMPJ : Cplx F := r.1
  let HTMPS : Cplx F := r.2
  let t1 ← rdC (el2 2 2 Y 1 JY)
  wrC (el2 2 2 Y 1 JY) (t1 +ᶜ Cplx.ofReal ALPHA *ᶜ HTMPS)
  let t2 ← rdC (el2 2 2 Y 2 JY)
  wrC (el2 2 2 Y 2 JY) (t2 +ᶜ Cplx.ofReal ALPHA *ᶜ HTMPJ)
  let JY : Int := JY + INCY
  pure JY

@[thr] theorem run_hgemvdh_140_J (A : Int) (ALPHA : F) (INCX : Int) (INCY : Int) (KX : Int) (LDA : Int) (M : Int) (NOCONJ : Bool) (X : Int) (Y : Int) (J : Int) (JY : Int) :
    (Thr.hgemvdh_140_J A ALPHA INCX INCY KX LDA M NOCONJ X Y J JY (F := F)).run = Haxx.hgemvdh_140_J A ALPHA INCX INCY KX LDA M NOCONJ X Y J JY (F := F) := by
  simp only [Thr.hgemvdh_140_J, Haxx.hgemvdh_140_J, thr]

/-- As `Haxx.hgemvdh_if124`, `src/hblas/fortran/hblas2/hgemvdh.f:124-175`. -/
def hgemvdh_if124 (A : Int) (ALPHA : F) (INCX : Int) (INCY : Int) (JY : Int) (KX : Int) (LDA : Int) (M : Int) (N : Int) (NOCONJ : Bool) (X : Int) (Y : Int) : Prog F (Unit) := do
  if decide (INCX = 1) then
    let r ← foldN (N).toNat (fun i (s : Int) => hgemvdh_110_J A ALPHA INCY LDA M NOCONJ X Y ((i : Int) + 1) s) JY
    pure ()
  else
    let r ← foldN (N).toNat (fun i (s : Int) => hgemvdh_140_J A ALPHA INCX INCY KX LDA M NOCONJ X Y ((i : Int) + 1) s) JY
    pure ()

@[thr] theorem run_hgemvdh_if124 (A : Int) (ALPHA : F) (INCX : Int) (INCY : Int) (JY : Int) (KX : Int) (LDA : Int) (M : Int) (N : Int) (NOCONJ : Bool) (X : Int) (Y : Int) :
    (Thr.hgemvdh_if124 A ALPHA INCX INCY JY KX LDA M N NOCONJ X Y (F := F)).run = Haxx.hgemvdh_if124 A ALPHA INCX INCY JY KX LDA M N NOCONJ X Y (F := F) := by
  simp only [Thr.hgemvdh_if124, Haxx.hgemvdh_if124, thr]

/-- As `Haxx.hgemvdh_if91`, `src/hblas/fortran/hblas2/hgemvdh.f:91-176`. -/
def hgemvdh_if91 (A : Int) (ALPHA : F) (INCX : Int) (INCY : Int) (KX : Int) (KY : Int) (LDA : Int) (M : Int) (N : Int) (NOCONJ : Bool) (TRANS : Char) (X : Int) (Y : Int) : Prog F (Unit) := do
  if lsame TRANS 'N' then
    let JX : Int := KX
    hgemvdh_if93 A ALPHA INCX INCY JX KY LDA M N X Y
    pure ()
  else
    let JY : Int := KY
    hgemvdh_if124 A ALPHA INCX INCY JY KX LDA M N NOCONJ X Y
    pure ()

@[thr] theorem run_hgemvdh_if91 (A : Int) (ALPHA : F) (INCX : Int) (INCY : Int) (KX : Int) (KY : Int) (LDA : Int) (M : Int) (N : Int) (NOCONJ : Bool) (TRANS : Char) (X : Int) (Y : Int) :
    (Thr.hgemvdh_if91 A ALPHA INCX INCY KX KY LDA M N NOCONJ TRANS X Y (F := F)).run = Haxx.hgemvdh_if91 A ALPHA INCX INCY KX KY LDA M N NOCONJ TRANS X Y (F := F) := by
  simp only [Thr.hgemvdh_if91, Haxx.hgemvdh_if91, thr]

/-- As `Haxx.hgemvdh`, `src/hblas/fortran/hblas2/hgemvdh.f:9-178`. -/
def hgemvdh (TRANS : Char) (M : Int) (N : Int) (ALPHA : F) (A : Int) (LDA : Int) (X : Int) (INCX : Int) (BETA : Quat F) (Y : Int) (INCY : Int) : Prog F (Unit) := do
  let NOCONJ : Bool := lsame 'T' TRANS
  let r ← (do
    if lsame 'T' TRANS then
      let LENX : Int := N
      let LENY : Int := M
      pure (LENX, LENY)
    else
      let LENX : Int := M
      let LENY : Int := N
      pure (LENX, LENY) : Prog F (Int × Int))
  let LENX : Int := r.1
  let LENY : Int := r.2
  let AZERO : Bool := Cplx.feq (Cplx.ofReal ALPHA) (⟨zero, zero⟩ : Cplx F)
  -- AONE (line 37) is never read
  let BZERO : Bool := (Cplx.feq (Quat.lo BETA) (⟨zero, zero⟩ : Cplx F)) && (Cplx.feq (Quat.hi BETA) (⟨zero, zero⟩ : Cplx F))
  let BONE : Bool := (Cplx.feq (Quat.lo BETA) (⟨one, zero⟩ : Cplx F)) && (Cplx.feq (Quat.hi BETA) (⟨zero, zero⟩ : Cplx F))
  if ((decide (M = 0)) || (decide (N = 0))) || (AZERO && BONE) then
    pure ()
  else
    let r ← (do
      if decide (INCX > 0) then
        let KX : Int := 1
        pure KX
      else
        let KX : Int := 1 - (LENX - 1) * INCX
        pure KX : Prog F (Int))
    let KX : Int := r
    let r ← (do
      if decide (INCY > 0) then
        let KY : Int := 1
        pure KY
      else
        let KY : Int := 1 - (LENY - 1) * INCY
        pure KY : Prog F (Int))
    let KY : Int := r
    hgemvdh_if57 BETA BONE BZERO INCY KY LENY Y
    if AZERO then
      pure ()
    else
      hgemvdh_if91 A ALPHA INCX INCY KX KY LDA M N NOCONJ TRANS X Y
      pure ()

@[thr] theorem run_hgemvdh (TRANS : Char) (M : Int) (N : Int) (ALPHA : F) (A : Int) (LDA : Int) (X : Int) (INCX : Int) (BETA : Quat F) (Y : Int) (INCY : Int) :
    (Thr.hgemvdh TRANS M N ALPHA A LDA X INCX BETA Y INCY (F := F)).run = Haxx.hgemvdh TRANS M N ALPHA A LDA X INCX BETA Y INCY (F := F) := by
  simp only [Thr.hgemvdh, Haxx.hgemvdh, thr]

-- end of FGemvdh

variable {F : Type} [Arith F] [ArithEq F]
/-- As `Haxx.hgemvzd_10_I`, `src/hblas/fortran/hblas2/hgemvzd.f:60-63`, body of `DO 10 I`. -/
def hgemvzd_10_I (Y : Int) (I : Int)  : Prog F (Unit) := do
  wrC (el2 2 2 Y 1 I) (⟨zero, zero⟩ : Cplx F)
  wrC (el2 2 2 Y 2 I) (⟨zero, zero⟩ : Cplx F)
  pure ()

@[thr] theorem run_hgemvzd_10_I (Y : Int) (I : Int) :
    (Thr.hgemvzd_10_I Y I (F := F)).run = Haxx.hgemvzd_10_I Y I (F := F) := by
  simp only [Thr.hgemvzd_10_I, Haxx.hgemvzd_10_I, thr]

/-- As `Haxx.hgemvzd_20_I`, `src/hblas/fortran/hblas2/hgemvzd.f:65-68`, body of `DO 20 I`. -/
def hgemvzd_20_I (BETA : F) (Y : Int) (I : Int)  : Prog F (Unit) := do
  let t1 ← rdC (el2 2 2 Y 1 I)
  wrC (el2 2 2 Y 1 I) (Cplx.ofReal BETA *ᶜ t1)
  let t2 ← rdC (el2 2 2 Y 2 I)
  wrC (el2 2 2 Y 2 I) (Cplx.ofReal BETA *ᶜ t2)
  pure ()

@[thr] theorem run_hgemvzd_20_I (BETA : F) (Y : Int) (I : Int) :
    (Thr.hgemvzd_20_I BETA Y I (F := F)).run = Haxx.hgemvzd_20_I BETA Y I (F := F) := by
  simp only [Thr.hgemvzd_20_I, Haxx.hgemvzd_20_I, thr]

/-- As `Haxx.hgemvzd_if59`, `src/hblas/fortran/hblas2/hgemvzd.f:59-69`. -/
def hgemvzd_if59 (BETA : F) (BZERO : Bool) (LENY : Int) (Y : Int) : Prog F (Unit) := do
  if BZERO then
    forN (LENY).toNat (fun i => hgemvzd_10_I Y ((i : Int) + 1))
    pure ()
  else
    forN (LENY).toNat (fun i => hgemvzd_20_I BETA Y ((i : Int) + 1))
    pure ()

@[thr] theorem run_hgemvzd_if59 (BETA : F) (BZERO : Bool) (LENY : Int) (Y : Int) :
    (Thr.hgemvzd_if59 BETA BZERO LENY Y (F := F)).run = Haxx.hgemvzd_if59 BETA BZERO LENY Y (F := F) := by
  simp only [Thr.hgemvzd_if59, Haxx.hgemvzd_if59, thr]

/-- As `Haxx.hgemvzd_30_I`, `src/hblas/fortran/hblas2/hgemvzd.f:73-77`, body of `DO 30 I`. -/
def hgemvzd_30_I (INCY : Int) (Y : Int) (I : Int) (IY : Int) : Prog F (Int) := do
  wrC (el2 2 2 Y 1 IY) (⟨zero, zero⟩ : Cplx F)
  wrC (el2 2 2 Y 2 IY) (⟨zero, zero⟩ : Cplx F)
  let IY : Int := IY + INCY
  pure IY

@[thr] theorem run_hgemvzd_30_I (INCY : Int) (Y : Int) (I : Int) (IY : Int) :
    (Thr.hgemvzd_30_I INCY Y I IY (F := F)).run = Haxx.hgemvzd_30_I INCY Y I IY (F := F) := by
  simp only [Thr.hgemvzd_30_I, Haxx.hgemvzd_30_I, thr]

/-- As `Haxx.hgemvzd_40_I`, `src/hblas/fortran/hblas2/hgemvzd.f:79-83`, body of `DO 40 I`. -/
def hgemvzd_40_I (BETA : F) (INCY : Int) (Y : Int) (I : Int) (IY : Int) : Prog F (Int) := do
  let t1 ← rdC (el2 2 2 Y 1 IY)
  wrC (el2 2 2 Y 1 IY) (Cplx.ofReal BETA *ᶜ t1)
  let t2 ← rdC (el2 2 2 Y 2 IY)
  wrC (el2 2 2 Y 2 IY) (Cplx.ofReal BETA *ᶜ t2)
  let IY : Int := IY + INCY
  pure IY

@[thr] theorem run_hgemvzd_40_I (BETA : F) (INCY : Int) (Y : Int) (I : Int) (IY : Int) :
    (Thr.hgemvzd_40_I BETA INCY Y I IY (F := F)).run = Haxx.hgemvzd_40_I BETA INCY Y I IY (F := F) := by
  simp only [Thr.hgemvzd_40_I, Haxx.hgemvzd_40_I, thr]

/-- As `Haxx.hgemvzd_if72`, `src/hblas/fortran/hblas2/hgemvzd.f:72-84`. -/
def hgemvzd_if72 (BETA : F) (BZERO : Bool) (INCY : Int) (IY : Int) (LENY : Int) (Y : Int) : Prog F (Unit) := do
  if BZERO then
    let r ← foldN (LENY).toNat (fun i (s : Int) => hgemvzd_30_I INCY Y ((i : Int) + 1) s) IY
    pure ()
  else
    let r ← foldN (LENY).toNat (fun i (s : Int) => hgemvzd_40_I BETA INCY Y ((i : Int) + 1) s) IY
    pure ()

@[thr] theorem run_hgemvzd_if72 (BETA : F) (BZERO : Bool) (INCY : Int) (IY : Int) (LENY : Int) (Y : Int) :
    (Thr.hgemvzd_if72 BETA BZERO INCY IY LENY Y (F := F)).run = Haxx.hgemvzd_if72 BETA BZERO INCY IY LENY Y (F := F) := by
  simp only [Thr.hgemvzd_if72, Haxx.hgemvzd_if72, thr]

/-- As `Haxx.hgemvzd_if58`, `src/hblas/fortran/hblas2/hgemvzd.f:58-85`. -/
def hgemvzd_if58 (BETA : F) (BZERO : Bool) (INCY : Int) (KY : Int) (LENY : Int) (Y : Int) : Prog F (Unit) := do
  if decide (INCY = 1) then
    hgemvzd_if59 BETA BZERO LENY Y
    pure ()
  else
    let IY : Int := KY
    hgemvzd_if72 BETA BZERO INCY IY LENY Y
    pure ()

@[thr] theorem run_hgemvzd_if58 (BETA : F) (BZERO : Bool) (INCY : Int) (KY : Int) (LENY : Int) (Y : Int) :
    (Thr.hgemvzd_if58 BETA BZERO INCY KY LENY Y (F := F)).run = Haxx.hgemvzd_if58 BETA BZERO INCY KY LENY Y (F := F) := by
  simp only [Thr.hgemvzd_if58, Haxx.hgemvzd_if58, thr]

/-- As `Haxx.hgemvzd_if57`, `src/hblas/fortran/hblas2/hgemvzd.f:57-86`. -/
def hgemvzd_if57 (BETA : F) (BONE : Bool) (BZERO : Bool) (INCY : Int) (KY : Int) (LENY : Int) (Y : Int) : Prog F (Unit) := do
  if !BONE then
    hgemvzd_if58 BETA BZERO INCY KY LENY Y
    pure ()
  else
    pure ()

@[thr] theorem run_hgemvzd_if57 (BETA : F) (BONE : Bool) (BZERO : Bool) (INCY : Int) (KY : Int) (LENY : Int) (Y : Int) :
    (Thr.hgemvzd_if57 BETA BONE BZERO INCY KY LENY Y (F := F)).run = Haxx.hgemvzd_if57 BETA BONE BZERO INCY KY LENY Y (F := F) := by
  simp only [Thr.hgemvzd_if57, Haxx.hgemvzd_if57, thr]

/-- As `Haxx.hgemvzd_50_I`, `src/hblas/fortran/hblas2/hgemvzd.f:98-102`, body of `DO 50 I`. -/
def hgemvzd_50_I (A : Int) (HTMP1J : Cplx F) (HTMP1S : Cplx F) (HTMP2J : Cplx F) (HTMP2S : Cplx F) (J : Int) (LDA : Int) (Y : Int) (I : Int)  : Prog F (Unit) := do
  let t1 ← rdC (el2 2 2 Y 1 I)
  let t2 ← rdC (el3 2 2 LDA A 1 I J)
  let t3 ← rdC (el3 2 2 LDA A 2 I J)
  wrC (el2 2 2 Y 1 I) (t1 +ᶜ t2 *ᶜ HTMP1S -ᶜ t3 *ᶜ HTMP2J)
  let t4 ← rdC (el2 2 2 Y 2 I)
  let t5 ← rdC (el3 2 2 LDA A 1 I J)
  let t6 ← rdC (el3 2 2 LDA A 2 I J)
  wrC (el2 2 2 Y 2 I) (t4 +ᶜ t5 *ᶜ HTMP1J +ᶜ t6 *ᶜ HTMP2S)
  pure ()

@[thr] theorem run_hgemvzd_50_I (A : Int) (HTMP1J : Cplx F) (HTMP1S : Cplx F) (HTMP2J : Cplx F) (HTMP2S : Cplx F) (J : Int) (LDA : Int) (Y : Int) (I : Int) :
    (Thr.hgemvzd_50_I A HTMP1J HTMP1S HTMP2J HTMP2S J LDA Y I (F := F)).run = Haxx.hgemvzd_50_I A HTMP1J HTMP1S HTMP2J HTMP2S J LDA Y I (F := F) := by
  simp only [Thr.hgemvzd_50_I, Haxx.hgemvzd_50_I, thr]

/-- As `Haxx.hgemvzd_60_J`, `src/hblas/fortran/hblas2/hgemvzd.f:93-104`, body of `DO 60 J`. -/
def hgemvzd_60_J (A : Int) (ALPHA : Cplx F) (INCX : Int) (LDA : Int) (M : Int) (X : Int) (Y : Int) (J : Int) (JX : Int) : Prog F (Int) := do
  let t1 ← rdC (el2 2 2 X 1 JX)
  let HTMP1S : Cplx F := ALPHA *ᶜ t1
  let t2 ← rdC (el2 2 2 X 2 JX)
  let HTMP1J : Cplx F := ALPHA *ᶜ t2
  let t3 ← rdC (el2 2 2 X 1 JX)
  let HTMP2S : Cplx F := ALPHA *ᶜ Cplx.conj t3
  let t4 ← rdC (el2 2 2 X 2 JX)
  let HTMP2J : Cplx F := ALPHA *ᶜ Cplx.conj t4
  forN (M).toNat (fun i => hgemvzd_50_I A HTMP1J HTMP1S HTMP2J HTMP2S J LDA Y ((i : Int) + 1))
  let JX : Int := JX + INCX
  pure JX

@[thr] theorem run_hgemvzd_60_J (A : Int) (ALPHA : Cplx F) (INCX : Int) (LDA : Int) (M : Int) (X : Int) (Y : Int) (J : Int) (JX : Int) :
    (Thr.hgemvzd_60_J A ALPHA INCX LDA M X Y J JX (F := F)).run = Haxx.hgemvzd_60_J A ALPHA INCX LDA M X Y J JX (F := F) := by
  simp only [Thr.hgemvzd_60_J, Haxx.hgemvzd_60_J, thr]

/-- As `Haxx.hgemvzd_70_I`, `src/hblas/fortran/hblas2/hgemvzd.f:112-117`, body of `DO 70 I`. -/
def hgemvzd_70_I (A : Int) (HTMP1J : Cplx F) (HTMP1S : Cplx F) (HTMP2J : Cplx F) (HTMP2S : Cplx F) (INCY : Int) (J : Int) (LDA : Int) (Y : Int) (I : Int) (IY : Int) : Prog F (Int) := do
  let t1 ← rdC (el2 2 2 Y 1 IY)
  let t2 ← rdC (el3 2 2 LDA A 1 I J)
  let t3 ← rdC (el3 2 2 LDA A 2 I J)
  wrC (el2 2 2 Y 1 IY) (t1 +ᶜ t2 *ᶜ HTMP1S -ᶜ t3 *ᶜ HTMP2J)
  let t4 ← rdC (el2 2 2 Y 2 IY)
  let t5 ← rdC (el3 2 2 LDA A 1 I J)
  let t6 ← rdC (el3 2 2 LDA A 2 I J)
  wrC (el2 2 2 Y 2 IY) (t4 +ᶜ t5 *ᶜ HTMP1J +ᶜ t6 *ᶜ HTMP2S)
  let IY : Int := IY + INCY
  pure IY

@[thr] theorem run_hgemvzd_70_I (A : Int) (HTMP1J : Cplx F) (HTMP1S : Cplx F) (HTMP2J : Cplx F) (HTMP2S : Cplx F) (INCY : Int) (J : Int) (LDA : Int) (Y : Int) (I : Int) (IY : Int) :
    (Thr.hgemvzd_70_I A HTMP1J HTMP1S HTMP2J HTMP2S INCY J LDA Y I IY (F := F)).run = Haxx.hgemvzd_70_I A HTMP1J HTMP1S HTMP2J HTMP2S INCY J LDA Y I IY (F := F) := by
  simp only [Thr.hgemvzd_70_I, Haxx.hgemvzd_70_I, thr]

/-- As `Haxx.hgemvzd_80_J`, `src/hblas/fortran/hblas2/hgemvzd.f:106-119`, body of `DO 80 J`. -/
def hgemvzd_80_J (A : Int) (ALPHA : Cplx F) (INCX : Int) (INCY : Int) (KY : Int) (LDA : Int) (M : Int) (X : Int) (Y : Int) (J : Int) (JX : Int) : Prog F (Int) := do
  let t1 ← rdC (el2 2 2 X 1 JX)
  let HTMP1S : Cplx F := ALPHA *ᶜ t1
  let t2 ← rdC (el2 2 2 X 2 JX)
  let HTMP1J : Cplx F := ALPHA *ᶜ t2
  let t3 ← rdC (el2 2 2 X 1 JX)
  let HTMP2S : Cplx F := ALPHA *ᶜ Cplx.conj t3
  let t4 ← rdC (el2 2 2 X 2 JX)
  let HTMP2J : Cplx F := ALPHA *ᶜ Cplx.conj t4
  let IY : Int := KY
  let r ← foldN (M).toNat (fun i (s : Int) => hgemvzd_70_I A HTMP1J HTMP1S HTMP2J HTMP2S INCY J LDA Y ((i : Int) + 1) s) IY
  let JX : Int := JX + INCX
  pure JX

@[thr] theorem run_hgemvzd_80_J (A : Int) (ALPHA : Cplx F) (INCX : Int) (INCY : Int) (KY : Int) (LDA : Int) (M : Int) (X : Int) (Y : Int) (J : Int) (JX : Int) :
    (Thr.hgemvzd_80_J A ALPHA INCX INCY KY LDA M X Y J JX (F := F)).run = Haxx.hgemvzd_80_J A ALPHA INCX INCY KY LDA M X Y J JX (F := F) := by
  simp only [Thr.hgemvzd_80_J, Haxx.hgemvzd_80_J, thr]

/-- As `Haxx.hgemvzd_if92`, `src/hblas/fortran/hblas2/hgemvzd.f:92-120`. -/
def hgemvzd_if92 (A : Int) (ALPHA : Cplx F) (INCX : Int) (INCY : Int) (JX : Int) (KY : Int) (LDA : Int) (M : Int) (N : Int) (X : Int) (Y : Int) : Prog F (Unit) := do
  if decide (INCY = 1) then
    let r ← foldN (N).toNat (fun i (s : Int) => hgemvzd_60_J A ALPHA INCX LDA M X Y ((i : Int) + 1) s) JX
    pure ()
  else
    let r ← foldN (N).toNat (fun i (s : Int) => hgemvzd_80_J A ALPHA INCX INCY KY LDA M X Y ((i : Int) + 1) s) JX
    pure ()

@[thr] theorem run_hgemvzd_if92 (A : Int) (ALPHA : Cplx F) (INCX : Int) (INCY : Int) (JX : Int) (KY : Int) (LDA : Int) (M : Int) (N : Int) (X : Int) (Y : Int) :
    (Thr.hgemvzd_if92 A ALPHA INCX INCY JX KY LDA M N X Y (F := F)).run = Haxx.hgemvzd_if92 A ALPHA INCX INCY JX KY LDA M N X Y (F := F) := by
  simp only [Thr.hgemvzd_if92, Haxx.hgemvzd_if92, thr]

/-- As `Haxx.hgemvzd_90_I`, `src/hblas/fortran/hblas2/hgemvzd.f:128-134`, body of `DO 90 I`. -/
def hgemvzd_90_I (A : Int) (J : Int) (LDA : Int) (X : Int) (I : Int) (HTMP1J : Cplx F) (HTMP1S : Cplx F) : Prog F (Cplx F × Cplx F) := do
  let t1 ← rdC (el3 2 2 LDA A 1 I J)
  let t2 ← rdC (el2 2 2 X 1 I)
  let t3 ← rdC (el3 2 2 LDA A 2 I J)
  let t4 ← rdC (el2 2 2 X 2 I)
  let HTMP1S : Cplx F := HTMP1S +ᶜ t1 *ᶜ t2 -ᶜ t3 *ᶜ Cplx.conj t4
  let t5 ← rdC (el3 2 2 LDA A 1 I J)
  let t6 ← rdC (el2 2 2 X 2 I)
  let t7 ← rdC (el3 2 2 LDA A 2 I J)
  let t8 ← rdC (el2 2 2 X 1 I)
  let HTMP1J : Cplx F := HTMP1J +ᶜ t5 *ᶜ t6 +ᶜ t7 *ᶜ Cplx.conj t8
  pure (HTMP1J, HTMP1S)

@[thr] theorem run_hgemvzd_90_I (A : Int) (J : Int) (LDA : Int) (X : Int) (I : Int) (HTMP1J : Cplx F) (HTMP1S : Cplx F) :
    (Thr.hgemvzd_90_I A J LDA X I HTMP1J HTMP1S (F := F)).run = Haxx.hgemvzd_90_I A J LDA X I HTMP1J HTMP1S (F := F) := by
  simp only [Thr.hgemvzd_90_I, Haxx.hgemvzd_90_I, thr]

/-- As `Haxx.hgemvzd_100_I`, `src/hblas/fortran/hblas2/hgemvzd.f:136-142`, body of `DO 100 I`. -/
def hgemvzd_100_I (A : Int) (J : Int) (LDA : Int) (X : Int) (I : Int) (HTMP1J : Cplx F) (HTMP1S : Cplx F) : Prog F (Cplx F × Cplx F) := do
  let t1 ← rdC (el3 2 2 LDA A 1 I J)
  let t2 ← rdC (el2 2 2 X 1 I)
  let t3 ← rdC (el3 2 2 LDA A 2 I J)
  let t4 ← rdC (el2 2 2 X 2 I)
  let HTMP1S : Cplx F := HTMP1S +ᶜ Cplx.conj t1 *ᶜ t2 +ᶜ t3 *ᶜ Cplx.conj t4
  let t5 ← rdC (el3 2 2 LDA A 1 I J)
  let t6 ← rdC (el2 2 2 X 2 I)
  let t7 ← rdC (el3 2 2 LDA A 2 I J)
  let t8 ← rdC (el2 2 2 X 1 I)
  let HTMP1J : Cplx F := HTMP1J +ᶜ Cplx.conj t5 *ᶜ t6 -ᶜ t7 *ᶜ Cplx.conj t8
  pure (HTMP1J, HTMP1S)

@[thr] theorem run_hgemvzd_100_I (A : Int) (J : Int) (LDA : Int) (X : Int) (I : Int) (HTMP1J : Cplx F) (HTMP1S : Cplx F) :
    (Thr.hgemvzd_100_I A J LDA X I HTMP1J HTMP1S (F := F)).run = Haxx.hgemvzd_100_I A J LDA X I HTMP1J HTMP1S (F := F) := by
  simp only [Thr.hgemvzd_100_I, Haxx.hgemvzd_100_I, thr]

/-- As `Haxx.hgemvzd_if127`, `src/hblas/fortran/hblas2/hgemvzd.f:127-143`. -/
def hgemvzd_if127 (A : Int) (HTMP1J : Cplx F) (HTMP1S : Cplx F) (J : Int) (LDA : Int) (M : Int) (NOCONJ : Bool) (X : Int) : Prog F (Cplx F × Cplx F) := do
  if NOCONJ then
    let r ← foldN (M).toNat (fun i (s : Cplx F × Cplx F) => hgemvzd_90_I A J LDA X ((i : Int) + 1) s.1 s.2) (HTMP1J, HTMP1S)
    let HTMP1J : Cplx F := r.1
    let HTMP1S : Cplx F := r.2
    pure (HTMP1J, HTMP1S)
  else
    let r ← foldN (M).toNat (fun i (s : Cplx F × Cplx F) => hgemvzd_100_I A J LDA X ((i : Int) + 1) s.1 s.2) (HTMP1J, HTMP1S)
    let HTMP1J : Cplx F := r.1
    let HTMP1S : Cplx F := r.2
    pure (HTMP1J, HTMP1S)

@[thr] theorem run_hgemvzd_if127 (A : Int) (HTMP1J : Cplx F) (HTMP1S : Cplx F) (J : Int) (LDA : Int) (M : Int) (NOCONJ : Bool) (X : Int) :
    (Thr.hgemvzd_if127 A HTMP1J HTMP1S J LDA M NOCONJ X (F := F)).run = Haxx.hgemvzd_if127 A HTMP1J HTMP1S J LDA M NOCONJ X (F := F) := by
  simp only [Thr.hgemvzd_if127, Haxx.hgemvzd_if127, thr]

/-- As `Haxx.hgemvzd_110_J`, `src/hblas/fortran/hblas2/hgemvzd.f:124-147`, body of `DO 110 J`. -/
def hgemvzd_110_J (A : Int) (ALPHA : Cplx F) (INCY : Int) (LDA : Int) (M : Int) (NOCONJ : Bool) (X : Int) (Y : Int) (J : Int) (JY : Int) : Prog F (Int) := do
  let HTMP1S : Cplx F := (⟨zero, zero⟩ : Cplx F)
  let HTMP1J : Cplx F := (⟨zero, zero⟩ : Cplx F)
  let r ← hgemvzd_if127 A HTMP1J HTMP1S J LDA M NOCONJ X
  let HTMP1J : Cplx F := r.1
  let HTMP1S : Cplx F := r.2
  let t1 ← rdC (el2 2 2 Y 1 JY)
  wrC (el2 2 2 Y 1 JY) (t1 +ᶜ ALPHA *ᶜ HTMP1S)
  let t2 ← rdC (el2 2 2 Y 2 JY)
  wrC (el2 2 2 Y 2 JY) (t2 +ᶜ ALPHA *ᶜ HTMP1J)
  let JY : Int := JY + INCY
  pure JY

@[thr] theorem run_hgemvzd_110_J (A : Int) (ALPHA : Cplx F) (INCY : Int) (LDA : Int) (M : Int) (NOCONJ : Bool) (X : Int) (Y : Int) (J : Int) (JY : Int) :
    (Thr.hgemvzd_110_J A ALPHA INCY LDA M NOCONJ X Y J JY (F := F)).run = Haxx.hgemvzd_110_J A ALPHA INCY LDA M NOCONJ X Y J JY (F := F) := by
  simp only [Thr.hgemvzd_110_J, Haxx.hgemvzd_110_J, thr]

/-- As `Haxx.hgemvzd_120_I`, `src/hblas/fortran/hblas2/hgemvzd.f:154-161`, body of `DO 120 I`. -/
def hgemvzd_120_I (A : Int) (INCX : Int) (J : Int) (LDA : Int) (X : Int) (I : Int) (HTMP1J : Cplx F) (HTMP1S : Cplx F) (IX : Int) : Prog F (Cplx F × Cplx F × Int) := do
  let t1 ← rdC (el3 2 2 LDA A 1 I J)
  let t2 ← rdC (el2 2 2 X 1 IX)
  let t3 ← rdC (el3 2 2 LDA A 2 I J)
  let t4 ← rdC (el2 2 2 X 2 IX)
  let HTMP1S : Cplx F := HTMP1S +ᶜ t1 *ᶜ t2 -ᶜ t3 *ᶜ Cplx.conj t4
  let t5 ← rdC (el3 2 2 LDA A 1 I J)
  let t6 ← rdC (el2 2 2 X 2 IX)
  let t7 ← rdC (el3 2 2 LDA A 2 I J)
  let t8 ← rdC (el2 2 2 X 1 IX)
  let HTMP1J : Cplx F := HTMP1J +ᶜ t5 *ᶜ t6 +ᶜ t7 *ᶜ Cplx.conj t8
  let IX : Int := IX + INCX
  pure (HTMP1J, HTMP1S, IX)

@[thr] theorem run_hgemvzd_120_I (A : Int) (INCX : Int) (J : Int) (LDA : Int) (X : Int) (I : Int) (HTMP1J : Cplx F) (HTMP1S : Cplx F) (IX : Int) :
    (Thr.hgemvzd_120_I A INCX J LDA X I HTMP1J HTMP1S IX (F := F)).run = Haxx.hgemvzd_120_I A INCX J LDA X I HTMP1J HTMP1S IX (F := F) := by
  simp only [Thr.hgemvzd_120_I, Haxx.hgemvzd_120_I, thr]

/-- As `Haxx.hgemvzd_130_I`, `src/hblas/fortran/hblas2/hgemvzd.f:163-170`, body of `DO 130 I`. -/
def hgemvzd_130_I (A : Int) (INCX : Int) (J : Int) (LDA : Int) (X : Int) (I : Int) (HTMP1J : Cplx F) (HTMP1S : Cplx F) (IX : Int) : Prog F (Cplx F × Cplx F × Int) := do
  let t1 ← rdC (el3 2 2 LDA A 1 I J)
  let t2 ← rdC (el2 2 2 X 1 IX)
  let t3 ← rdC (el3 2 2 LDA A 2 I J)
  let t4 ← rdC (el2 2 2 X 2 IX)
  let HTMP1S : Cplx F := HTMP1S +ᶜ Cplx.conj t1 *ᶜ t2 +ᶜ t3 *ᶜ Cplx.conj t4
  let t5 ← rdC (el3 2 2 LDA A 1 I J)
  let t6 ← rdC (el2 2 2 X 2 IX)
  let t7 ← rdC (el3 2 2 LDA A 2 I J)
  let t8 ← rdC (el2 2 2 X 1 IX)
  let HTMP1J : Cplx F := HTMP1J +ᶜ Cplx.conj t5 *ᶜ t6 -ᶜ t7 *ᶜ Cplx.conj t8
  let IX : Int := IX + INCX
  pure (HTMP1J, HTMP1S, IX)

@[thr] theorem run_hgemvzd_130_I (A : Int) (INCX : Int) (J : Int) (LDA : Int) (X : Int) (I : Int) (HTMP1J : Cplx F) (HTMP1S : Cplx F) (IX : Int) :
    (Thr.hgemvzd_130_I A INCX J LDA X I HTMP1J HTMP1S IX (F := F)).run = Haxx.hgemvzd_130_I A INCX J LDA X I HTMP1J HTMP1S IX (F := F) := by
  simp only [Thr.hgemvzd_130_I, Haxx.hgemvzd_130_I, thr]

/-- As `Haxx.hgemvzd_if153`, `src/hblas/fortran/hblas2/hgemvzd.f:153-171`. -/
def hgemvzd_if153 (A : Int) (HTMP1J : Cplx F) (HTMP1S : Cplx F) (INCX : Int) (IX : Int) (J : Int) (LDA : Int) (M : Int) (NOCONJ : Bool) (X : Int) : Prog F (Cplx F × Cplx F) := do
  if NOCONJ then
    let r ← foldN (M).toNat (fun i (s : Cplx F × Cplx F × Int) => hgemvzd_120_I A INCX J LDA X ((i : Int) + 1) s.1 s.2.1 s.2.2) (HTMP1J, HTMP1S, IX)
    let HTMP1J : Cplx F := r.1
    let HTMP1S : Cplx F := r.2.1
    pure (HTMP1J, HTMP1S)
  else
    let r ← foldN (M).toNat (fun i (s : Cplx F × Cplx F × Int) => hgemvzd_130_I A INCX J LDA X ((i : Int) + 1) s.1 s.2.1 s.2.2) (HTMP1J, HTMP1S, IX)
    let HTMP1J : Cplx F := r.1
    let HTMP1S : Cplx F := r.2.1
    pure (HTMP1J, HTMP1S)

@[thr] theorem run_hgemvzd_if153 (A : Int) (HTMP1J : Cplx F) (HTMP1S : Cplx F) (INCX : Int) (IX : Int) (J : Int) (LDA : Int) (M : Int) (NOCONJ : Bool) (X : Int) :
    (Thr.hgemvzd_if153 A HTMP1J HTMP1S INCX IX J LDA M NOCONJ X (F := F)).run = Haxx.hgemvzd_if153 A HTMP1J HTMP1S INCX IX J LDA M NOCONJ X (F := F) := by
  simp only [Thr.hgemvzd_if153, Haxx.hgemvzd_if153, thr]

/-- As `Haxx.hgemvzd_140_J`, `src/hblas/fortran/hblas2/hgemvzd.f:149-175`, body of `DO 140 J`. -/
def hgemvzd_140_J (A : Int) (ALPHA : Cplx F) (INCX : Int) (INCY : Int) (KX : Int) (LDA : Int) (M : Int) (NOCONJ : Bool) (X : Int) (Y : Int) (J : Int) (JY : Int) : Prog F (Int) := do
  let HTMP1S : Cplx F := (⟨zero, zero⟩ : Cplx F)
  let HTMP1J : Cplx F := (⟨zero, zero⟩ : Cplx F)
  let IX : Int := KX
  let r ← hgemvzd_if153 A HTMP1J HTMP1S INCX IX J LDA M NOCONJ X
  let HTMP1J : Cplx F := r.1
  let HTMP1S : Cplx F := r.2
  let t1 ← rdC (el2 2 2 Y 1 JY)
  wrC (el2 2 2 Y 1 JY) (t1 +ᶜ ALPHA *ᶜ HTMP1S)
  let t2 ← rdC (el2 2 2 Y 2 JY)
  wrC (el2 2 2 Y 2 JY) (t2 +ᶜ ALPHA *ᶜ HTMP1J)
  let JY : Int := JY + INCY
  pure JY

@[thr] theorem run_hgemvzd_140_J (A : Int) (ALPHA : Cplx F) (INCX : Int) (INCY : Int) (KX : Int) (LDA : Int) (M : Int) (NOCONJ : Bool) (X : Int) (Y : Int) (J : Int) (JY : Int) :
    (Thr.hgemvzd_140_J A ALPHA INCX INCY KX LDA M NOCONJ X Y J JY (F := F)).run = Haxx.hgemvzd_140_J A ALPHA INCX INCY KX LDA M NOCONJ X Y J JY (F := F) := by
  simp only [Thr.hgemvzd_140_J, Haxx.hgemvzd_140_J, thr]

/-- As `Haxx.hgemvzd_if123`, `src/hblas/fortran/hblas2/hgemvzd.f:123-176`. -/
def hgemvzd_if123 (A : Int) (ALPHA : Cplx F) (INCX : Int) (INCY : Int) (JY : Int) (KX : Int) (LDA : Int) (M : Int) (N : Int) (NOCONJ : Bool) (X : Int) (Y : Int) : Prog F (Unit) := do
  if decide (INCX = 1) then
    let r ← foldN (N).toNat (fun i (s : Int) => hgemvzd_110_J A ALPHA INCY LDA M NOCONJ X Y ((i : Int) + 1) s) JY
    pure ()
  else
    let r ← foldN (N).toNat (fun i (s : Int) => hgemvzd_140_J A ALPHA INCX INCY KX LDA M NOCONJ X Y ((i : Int) + 1) s) JY
    pure ()

@[thr] theorem run_hgemvzd_if123 (A : Int) (ALPHA : Cplx F) (INCX : Int) (INCY : Int) (JY : Int) (KX : Int) (LDA : Int) (M : Int) (N : Int) (NOCONJ : Bool) (X : Int) (Y : Int) :
    (Thr.hgemvzd_if123 A ALPHA INCX INCY JY KX LDA M N NOCONJ X Y (F := F)).run = Haxx.hgemvzd_if123 A ALPHA INCX INCY JY KX LDA M N NOCONJ X Y (F := F) := by
  simp only [Thr.hgemvzd_if123, Haxx.hgemvzd_if123, thr]

/-- As `Haxx.hgemvzd_if90`, `src/hblas/fortran/hblas2/hgemvzd.f:90-177`. -/
def hgemvzd_if90 (A : Int) (ALPHA : Cplx F) (INCX : Int) (INCY : Int) (KX : Int) (KY : Int) (LDA : Int) (M : Int) (N : Int) (NOCONJ : Bool) (TRANS : Char) (X : Int) (Y : Int) : Prog F (Unit) := do
  if lsame TRANS 'N' then
    let JX : Int := KX
    hgemvzd_if92 A ALPHA INCX INCY JX KY LDA M N X Y
    pure ()
  else
    let JY : Int := KY
    hgemvzd_if123 A ALPHA INCX INCY JY KX LDA M N NOCONJ X Y
    pure ()

@[thr] theorem run_hgemvzd_if90 (A : Int) (ALPHA : Cplx F) (INCX : Int) (INCY : Int) (KX : Int) (KY : Int) (LDA : Int) (M : Int) (N : Int) (NOCONJ : Bool) (TRANS : Char) (X : Int) (Y : Int) :
    (Thr.hgemvzd_if90 A ALPHA INCX INCY KX KY LDA M N NOCONJ TRANS X Y (F := F)).run = Haxx.hgemvzd_if90 A ALPHA INCX INCY KX KY LDA M N NOCONJ TRANS X Y (F := F) := by
  simp only [Thr.hgemvzd_if90, Haxx.hgemvzd_if90, thr]

/-- As `Haxx.hgemvzd`, `src/hblas/fortran/hblas2/hgemvzd.f:9-179`. -/
def hgemvzd (TRANS : Char) (M : Int) (N : Int) (ALPHA : Cplx F) (A : Int) (LDA : Int) (X : Int) (INCX : Int) (BETA : F) (Y : Int) (INCY : Int) : Prog F (Unit) := do
  let NOCONJ : Bool := lsame 'T' TRANS
  let r ← (do
    if lsame 'T' TRANS then
      let LENX : Int := N
      let LENY : Int := M
      pure (LENX, LENY)
    else
      let LENX : Int := M
      let LENY : Int := N
      pure (LENX, LENY) : Prog F (Int × Int))
  let LENX : Int := r.1
  let LENY : Int := r.2
  let AZERO : Bool := Cplx.feq ALPHA (⟨zero, zero⟩ : Cplx F)
  -- AONE (line 36) is never read
  let BZERO : Bool := Cplx.feq (Cplx.ofReal BETA) (⟨zero, zero⟩ : Cplx F)
  let BONE : Bool := Cplx.feq (Cplx.ofReal BETA) (⟨one, zero⟩ : Cplx F)
  if ((decide (M = 0)) || (decide (N = 0))) || (AZERO && BONE) then
    pure ()
  else
    let r ← (do
      if decide (INCX > 0) then
        let KX : Int := 1
        pure KX
      else
        let KX : Int := 1 - (LENX - 1) * INCX
        pure KX : Prog F (Int))
    let KX : Int := r
    let r ← (do
      if decide (INCY > 0) then
        let KY : Int := 1
        pure KY
      else
        let KY : Int := 1 - (LENY - 1) * INCY
        pure KY : Prog F (Int))
    let KY : Int := r
    hgemvzd_if57 BETA BONE BZERO INCY KY LENY Y
    if AZERO then
      pure ()
    else
      hgemvzd_if90 A ALPHA INCX INCY KX KY LDA M N NOCONJ TRANS X Y
      pure ()

@[thr] theorem run_hgemvzd (TRANS : Char) (M : Int) (N : Int) (ALPHA : Cplx F) (A : Int) (LDA : Int) (X : Int) (INCX : Int) (BETA : F) (Y : Int) (INCY : Int) :
    (Thr.hgemvzd TRANS M N ALPHA A LDA X INCX BETA Y INCY (F := F)).run = Haxx.hgemvzd TRANS M N ALPHA A LDA X INCX BETA Y INCY (F := F) := by
  simp only [Thr.hgemvzd, Haxx.hgemvzd, thr]

-- end of FGemvzd

variable {F : Type} [Arith F] [ArithEq F]
/-- As `Haxx.hgemvzz_10_I`, `src/hblas/fortran/hblas2/hgemvzz.f:59-62`, body of `DO 10 I`. -/
def hgemvzz_10_I (Y : Int) (I : Int)  : Prog F (Unit) := do
  wrC (el2 2 2 Y 1 I) (⟨zero, zero⟩ : Cplx F)
  wrC (el2 2 2 Y 2 I) (⟨zero, zero⟩ : Cplx F)
  pure ()

@[thr] theorem run_hgemvzz_10_I (Y : Int) (I : Int) :
    (Thr.hgemvzz_10_I Y I (F := F)).run = Haxx.hgemvzz_10_I Y I (F := F) := by
  simp only [Thr.hgemvzz_10_I, Haxx.hgemvzz_10_I, thr]

/-- As `Haxx.hgemvzz_20_I`, `src/hblas/fortran/hblas2/hgemvzz.f:64-67`, body of `DO 20 I`. -/
def hgemvzz_20_I (BETA : Cplx F) (Y : Int) (I : Int)  : Prog F (Unit) := do
  let t1 ← rdC (el2 2 2 Y 1 I)
  wrC (el2 2 2 Y 1 I) (BETA *ᶜ t1)
  let t2 ← rdC (el2 2 2 Y 2 I)
  wrC (el2 2 2 Y 2 I) (BETA *ᶜ t2)
  pure ()

@[thr] theorem run_hgemvzz_20_I (BETA : Cplx F) (Y : Int) (I : Int) :
    (Thr.hgemvzz_20_I BETA Y I (F := F)).run = Haxx.hgemvzz_20_I BETA Y I (F := F) := by
  simp only [Thr.hgemvzz_20_I, Haxx.hgemvzz_20_I, thr]

/-- As `Haxx.hgemvzz_if58`, `src/hblas/fortran/hblas2/hgemvzz.f:58-68`. -/
def hgemvzz_if58 (BETA : Cplx F) (BZERO : Bool) (LENY : Int) (Y : Int) : Prog F (Unit) := do
  if BZERO then
    forN (LENY).toNat (fun i => hgemvzz_10_I Y ((i : Int) + 1))
    pure ()
  else
    forN (LENY).toNat (fun i => hgemvzz_20_I BETA Y ((i : Int) + 1))
    pure ()

@[thr] theorem run_hgemvzz_if58 (BETA : Cplx F) (BZERO : Bool) (LENY : Int) (Y : Int) :
    (Thr.hgemvzz_if58 BETA BZERO LENY Y (F := F)).run = Haxx.hgemvzz_if58 BETA BZERO LENY Y (F := F) := by
  simp only [Thr.hgemvzz_if58, Haxx.hgemvzz_if58, thr]

/-- As `Haxx.hgemvzz_30_I`, `src/hblas/fortran/hblas2/hgemvzz.f:72-76`, body of `DO 30 I`. -/
def hgemvzz_30_I (INCY : Int) (Y : Int) (I : Int) (IY : Int) : Prog F (Int) := do
  wrC (el2 2 2 Y 1 IY) (⟨zero, zero⟩ : Cplx F)
  wrC (el2 2 2 Y 2 IY) (⟨zero, zero⟩ : Cplx F)
  let IY : Int := IY + INCY
  pure IY

@[thr] theorem run_hgemvzz_30_I (INCY : Int) (Y : Int) (I : Int) (IY : Int) :
    (Thr.hgemvzz_30_I INCY Y I IY (F := F)).run = Haxx.hgemvzz_30_I INCY Y I IY (F := F) := by
  simp only [Thr.hgemvzz_30_I, Haxx.hgemvzz_30_I, thr]

/-- As `Haxx.hgemvzz_40_I`, `src/hblas/fortran/hblas2/hgemvzz.f:78-82`, body of `DO 40 I`. -/
def hgemvzz_40_I (BETA : Cplx F) (INCY : Int) (Y : Int) (I : Int) (IY : Int) : Prog F (Int) := do
  let t1 ← rdC (el2 2 2 Y 1 IY)
  wrC (el2 2 2 Y 1 IY) (BETA *ᶜ t1)
  let t2 ← rdC (el2 2 2 Y 2 IY)
  wrC (el2 2 2 Y 2 IY) (BETA *ᶜ t2)
  let IY : Int := IY + INCY
  pure IY

@[thr] theorem run_hgemvzz_40_I (BETA : Cplx F) (INCY : Int) (Y : Int) (I : Int) (IY : Int) :
    (Thr.hgemvzz_40_I BETA INCY Y I IY (F := F)).run = Haxx.hgemvzz_40_I BETA INCY Y I IY (F := F) := by
  simp only [Thr.hgemvzz_40_I, Haxx.hgemvzz_40_I, thr]

/-- As `Haxx.hgemvzz_if71`, `src/hblas/fortran/hblas2/hgemvzz.f:71-83`. -/
def hgemvzz_if71 (BETA : Cplx F) (BZERO : Bool) (INCY : Int) (IY : Int) (LENY : Int) (Y : Int) : Prog F (Unit) := do
  if BZERO then
    let r ← foldN (LENY).toNat (fun i (s : Int) => hgemvzz_30_I INCY Y ((i : Int) + 1) s) IY
    pure ()
  else
    let r ← foldN (LENY).toNat (fun i (s : Int) => hgemvzz_40_I BETA INCY Y ((i : Int) + 1) s) IY
    pure ()

@[thr] theorem run_hgemvzz_if71 (BETA : Cplx F) (BZERO : Bool) (INCY : Int) (IY : Int) (LENY : Int) (Y : Int) :
    (Thr.hgemvzz_if71 BETA BZERO INCY IY LENY Y (F := F)).run = Haxx.hgemvzz_if71 BETA BZERO INCY IY LENY Y (F := F) := by
  simp only [Thr.hgemvzz_if71, Haxx.hgemvzz_if71, thr]

/-- As `Haxx.hgemvzz_if57`, `src/hblas/fortran/hblas2/hgemvzz.f:57-84`. -/
def hgemvzz_if57 (BETA : Cplx F) (BZERO : Bool) (INCY : Int) (KY : Int) (LENY : Int) (Y : Int) : Prog F (Unit) := do
  if decide (INCY = 1) then
    hgemvzz_if58 BETA BZERO LENY Y
    pure ()
  else
    let IY : Int := KY
    hgemvzz_if71 BETA BZERO INCY IY LENY Y
    pure ()

@[thr] theorem run_hgemvzz_if57 (BETA : Cplx F) (BZERO : Bool) (INCY : Int) (KY : Int) (LENY : Int) (Y : Int) :
    (Thr.hgemvzz_if57 BETA BZERO INCY KY LENY Y (F := F)).run = Haxx.hgemvzz_if57 BETA BZERO INCY KY LENY Y (F := F) := by
  simp only [Thr.hgemvzz_if57, Haxx.hgemvzz_if57, thr]

/-- As `Haxx.hgemvzz_if56`, `src/hblas/fortran/hblas2/hgemvzz.f:56-85`. -/
def hgemvzz_if56 (BETA : Cplx F) (BONE : Bool) (BZERO : Bool) (INCY : Int) (KY : Int) (LENY : Int) (Y : Int) : Prog F (Unit) := do
  if !BONE then
    hgemvzz_if57 BETA BZERO INCY KY LENY Y
    pure ()
  else
    pure ()

@[thr] theorem run_hgemvzz_if56 (BETA : Cplx F) (BONE : Bool) (BZERO : Bool) (INCY : Int) (KY : Int) (LENY : Int) (Y : Int) :
    (Thr.hgemvzz_if56 BETA BONE BZERO INCY KY LENY Y (F := F)).run = Haxx.hgemvzz_if56 BETA BONE BZERO INCY KY LENY Y (F := F) := by
  simp only [Thr.hgemvzz_if56, Haxx.hgemvzz_if56, thr]

/-- As `Haxx.hgemvzz_50_I`, `src/hblas/fortran/hblas2/hgemvzz.f:97-101`, body of `DO 50 I`. -/
def hgemvzz_50_I (A : Int) (HTMP1J : Cplx F) (HTMP1S : Cplx F) (HTMP2J : Cplx F) (HTMP2S : Cplx F) (J : Int) (LDA : Int) (Y : Int) (I : Int)  : Prog F (Unit) := do
  let t1 ← rdC (el2 2 2 Y 1 I)
  let t2 ← rdC (el3 2 2 LDA A 1 I J)
  let t3 ← rdC (el3 2 2 LDA A 2 I J)
  wrC (el2 2 2 Y 1 I) (t1 +ᶜ t2 *ᶜ HTMP1S -ᶜ t3 *ᶜ HTMP2J)
  let t4 ← rdC (el2 2 2 Y 2 I)
  let t5 ← rdC (el3 2 2 LDA A 1 I J)
  let t6 ← rdC (el3 2 2 LDA A 2 I J)
  wrC (el2 2 2 Y 2 I) (t4 +ᶜ t5 *ᶜ HTMP1J +ᶜ t6 *ᶜ HTMP2S)
  pure ()

@[thr] theorem run_hgemvzz_50_I (A : Int) (HTMP1J : Cplx F) (HTMP1S : Cplx F) (HTMP2J : Cplx F) (HTMP2S : Cplx F) (J : Int) (LDA : Int) (Y : Int) (I : Int) :
    (Thr.hgemvzz_50_I A HTMP1J HTMP1S HTMP2J HTMP2S J LDA Y I (F := F)).run = Haxx.hgemvzz_50_I A HTMP1J HTMP1S HTMP2J HTMP2S J LDA Y I (F := F) := by
  simp only [Thr.hgemvzz_50_I, Haxx.hgemvzz_50_I, thr]

/-- As `Haxx.hgemvzz_60_J`, `src/hblas/fortran/hblas2/hgemvzz.f:92-103`, body of `DO 60 J`. -/
def hgemvzz_60_J (A : Int) (ALPHA : Cplx F) (INCX : Int) (LDA : Int) (M : Int) (X : Int) (Y : Int) (J : Int) (JX : Int) : Prog F (Int) := do
  let t1 ← rdC (el2 2 2 X 1 JX)
  let HTMP1S : Cplx F := ALPHA *ᶜ t1
  let t2 ← rdC (el2 2 2 X 2 JX)
  let HTMP1J : Cplx F := ALPHA *ᶜ t2
  let t3 ← rdC (el2 2 2 X 1 JX)
  let HTMP2S : Cplx F := ALPHA *ᶜ Cplx.conj t3
  let t4 ← rdC (el2 2 2 X 2 JX)
  let HTMP2J : Cplx F := ALPHA *ᶜ Cplx.conj t4
  forN (M).toNat (fun i => hgemvzz_50_I A HTMP1J HTMP1S HTMP2J HTMP2S J LDA Y ((i : Int) + 1))
  let JX : Int := JX + INCX
  pure JX

@[thr] theorem run_hgemvzz_60_J (A : Int) (ALPHA : Cplx F) (INCX : Int) (LDA : Int) (M : Int) (X : Int) (Y : Int) (J : Int) (JX : Int) :
    (Thr.hgemvzz_60_J A ALPHA INCX LDA M X Y J JX (F := F)).run = Haxx.hgemvzz_60_J A ALPHA INCX LDA M X Y J JX (F := F) := by
  simp only [Thr.hgemvzz_60_J, Haxx.hgemvzz_60_J, thr]

/-- As `Haxx.hgemvzz_70_I`, `src/hblas/fortran/hblas2/hgemvzz.f:111-116`, body of `DO 70 I`. -/
def hgemvzz_70_I (A : Int) (HTMP1J : Cplx F) (HTMP1S : Cplx F) (HTMP2J : Cplx F) (HTMP2S : Cplx F) (INCY : Int) (J : Int) (LDA : Int) (Y : Int) (I : Int) (IY : Int) : Prog F (Int) := do
  let t1 ← rdC (el2 2 2 Y 1 IY)
  let t2 ← rdC (el3 2 2 LDA A 1 I J)
  let t3 ← rdC (el3 2 2 LDA A 2 I J)
  wrC (el2 2 2 Y 1 IY) (t1 +ᶜ t2 *ᶜ HTMP1S -ᶜ t3 *ᶜ HTMP2J)
  let t4 ← rdC (el2 2 2 Y 2 IY)
  let t5 ← rdC (el3 2 2 LDA A 1 I J)
  let t6 ← rdC (el3 2 2 LDA A 2 I J)
  wrC (el2 2 2 Y 2 IY) (t4 +ᶜ t5 *ᶜ HTMP1J +ᶜ t6 *ᶜ HTMP2S)
  let IY : Int := IY + INCY
  pure IY

@[thr] theorem run_hgemvzz_70_I (A : Int) (HTMP1J : Cplx F) (HTMP1S : Cplx F) (HTMP2J : Cplx F) (HTMP2S : Cplx F) (INCY : Int) (J : Int) (LDA : Int) (Y : Int) (I : Int) (IY : Int) :
    (Thr.hgemvzz_70_I A HTMP1J HTMP1S HTMP2J HTMP2S INCY J LDA Y I IY (F := F)).run = Haxx.hgemvzz_70_I A HTMP1J HTMP1S HTMP2J HTMP2S INCY J LDA Y I IY (F := F) := by
  simp only [Thr.hgemvzz_70_I, Haxx.hgemvzz_70_I, thr]

/-- As `Haxx.hgemvzz_80_J`, `src/hblas/fortran/hblas2/hgemvzz.f:105-118`, body of `DO 80 J`. -/
def hgemvzz_80_J (A : Int) (ALPHA : Cplx F) (INCX : Int) (INCY : Int) (KY : Int) (LDA : Int) (M : Int) (X : Int) (Y : Int) (J : Int) (JX : Int) : Prog F (Int) := do
  let t1 ← rdC (el2 2 2 X 1 JX)
  let HTMP1S : Cplx F := ALPHA *ᶜ t1
  let t2 ← rdC (el2 2 2 X 2 JX)
  let HTMP1J : Cplx F := ALPHA *ᶜ t2
  let t3 ← rdC (el2 2 2 X 1 JX)
  let HTMP2S : Cplx F := ALPHA *ᶜ Cplx.conj t3
  let t4 ← rdC (el2 2 2 X 2 JX)
  let HTMP2J : Cplx F := ALPHA *ᶜ Cplx.conj t4
  let IY : Int := KY
  let r ← foldN (M).toNat (fun i (s : Int) => hgemvzz_70_I A HTMP1J HTMP1S HTMP2J HTMP2S INCY J LDA Y ((i : Int) + 1) s) IY
  let JX : Int := JX + INCX
  pure JX

@[thr] theorem run_hgemvzz_80_J (A : Int) (ALPHA : Cplx F) (INCX : Int) (INCY : Int) (KY : Int) (LDA : Int) (M : Int) (X : Int) (Y : Int) (J : Int) (JX : Int) :
    (Thr.hgemvzz_80_J A ALPHA INCX INCY KY LDA M X Y J JX (F := F)).run = Haxx.hgemvzz_80_J A ALPHA INCX INCY KY LDA M X Y J JX (F := F) := by
  simp only [Thr.hgemvzz_80_J, Haxx.hgemvzz_80_J, thr]

/-- As `Haxx.hgemvzz_if91`, `src/hblas/fortran/hblas2/hgemvzz.f:91-119`. -/
def hgemvzz_if91 (A : Int) (ALPHA : Cplx F) (INCX : Int) (INCY : Int) (JX : Int) (KY : Int) (LDA : Int) (M : Int) (N : Int) (X : Int) (Y : Int) : Prog F (Unit) := do
  if decide (INCY = 1) then
    let r ← foldN (N).toNat (fun i (s : Int) => hgemvzz_60_J A ALPHA INCX LDA M X Y ((i : Int) + 1) s) JX
    pure ()
  else
    let r ← foldN (N).toNat (fun i (s : Int) => hgemvzz_80_J A ALPHA INCX INCY KY LDA M X Y ((i : Int) + 1) s) JX
    pure ()

@[thr] theorem run_hgemvzz_if91 (A : Int) (ALPHA : Cplx F) (INCX : Int) (INCY : Int) (JX : Int) (KY : Int) (LDA : Int) (M : Int) (N : Int) (X : Int) (Y : Int) :
    (Thr.hgemvzz_if91 A ALPHA INCX INCY JX KY LDA M N X Y (F := F)).run = Haxx.hgemvzz_if91 A ALPHA INCX INCY JX KY LDA M N X Y (F := F) := by
  simp only [Thr.hgemvzz_if91, Haxx.hgemvzz_if91, thr]

/-- As `Haxx.hgemvzz_90_I`, `src/hblas/fortran/hblas2/hgemvzz.f:127-133`, body of `DO 90 I`. -/
def hgemvzz_90_I (A : Int) (J : Int) (LDA : Int) (X : Int) (I : Int) (HTMP1J : Cplx F) (HTMP1S : Cplx F) : Prog F (Cplx F × Cplx F) := do
  let t1 ← rdC (el3 2 2 LDA A 1 I J)
  let t2 ← rdC (el2 2 2 X 1 I)
  let t3 ← rdC (el3 2 2 LDA A 2 I J)
  let t4 ← rdC (el2 2 2 X 2 I)
  let HTMP1S : Cplx F := HTMP1S +ᶜ t1 *ᶜ t2 -ᶜ t3 *ᶜ Cplx.conj t4
  let t5 ← rdC (el3 2 2 LDA A 1 I J)
  let t6 ← rdC (el2 2 2 X 2 I)
  let t7 ← rdC (el3 2 2 LDA A 2 I J)
  let t8 ← rdC (el2 2 2 X 1 I)
  let HTMP1J : Cplx F := HTMP1J +ᶜ t5 *ᶜ t6 +ᶜ t7 *ᶜ Cplx.conj t8
  pure (HTMP1J, HTMP1S)

@[thr] theorem run_hgemvzz_90_I (A : Int) (J : Int) (LDA : Int) (X : Int) (I : Int) (HTMP1J : Cplx F) (HTMP1S : Cplx F) :
    (Thr.hgemvzz_90_I A J LDA X I HTMP1J HTMP1S (F := F)).run = Haxx.hgemvzz_90_I A J LDA X I HTMP1J HTMP1S (F := F) := by
  simp only [Thr.hgemvzz_90_I, Haxx.hgemvzz_90_I, thr]

/-- As `Haxx.hgemvzz_100_I`, `src/hblas/fortran/hblas2/hgemvzz.f:135-141`, body of `DO 100 I`. -/
def hgemvzz_100_I (A : Int) (J : Int) (LDA : Int) (X : Int) (I : Int) (HTMP1J : Cplx F) (HTMP1S : Cplx F) : Prog F (Cplx F × Cplx F) := do
  let t1 ← rdC (el3 2 2 LDA A 1 I J)
  let t2 ← rdC (el2 2 2 X 1 I)
  let t3 ← rdC (el3 2 2 LDA A 2 I J)
  let t4 ← rdC (el2 2 2 X 2 I)
  let HTMP1S : Cplx F := HTMP1S +ᶜ Cplx.conj t1 *ᶜ t2 +ᶜ t3 *ᶜ Cplx.conj t4
  let t5 ← rdC (el3 2 2 LDA A 1 I J)
  let t6 ← rdC (el2 2 2 X 2 I)
  let t7 ← rdC (el3 2 2 LDA A 2 I J)
  let t8 ← rdC (el2 2 2 X 1 I)
  let HTMP1J : Cplx F := HTMP1J +ᶜ Cplx.conj t5 *ᶜ t6 -ᶜ t7 *ᶜ Cplx.conj t8
  pure (HTMP1J, HTMP1S)

@[thr] theorem run_hgemvzz_100_I (A : Int) (J : Int) (LDA : Int) (X : Int) (I : Int) (HTMP1J : Cplx F) (HTMP1S : Cplx F) :
    (Thr.hgemvzz_100_I A J LDA X I HTMP1J HTMP1S (F := F)).run = Haxx.hgemvzz_100_I A J LDA X I HTMP1J HTMP1S (F := F) := by
  simp only [Thr.hgemvzz_100_I, Haxx.hgemvzz_100_I, thr]

/-- As `Haxx.hgemvzz_if126`, `src/hblas/fortran/hblas2/hgemvzz.f:126-142`. -/
def hgemvzz_if126 (A : Int) (HTMP1J : Cplx F) (HTMP1S : Cplx F) (J : Int) (LDA : Int) (M : Int) (NOCONJ : Bool) (X : Int) : Prog F (Cplx F × Cplx F) := do
  if NOCONJ then
    let r ← foldN (M).toNat (fun i (s : Cplx F × Cplx F) => hgemvzz_90_I A J LDA X ((i : Int) + 1) s.1 s.2) (HTMP1J, HTMP1S)
    let HTMP1J : Cplx F := r.1
    let HTMP1S : Cplx F := r.2
    pure (HTMP1J, HTMP1S)
  else
    let r ← foldN (M).toNat (fun i (s : Cplx F × Cplx F) => hgemvzz_100_I A J LDA X ((i : Int) + 1) s.1 s.2) (HTMP1J, HTMP1S)
    let HTMP1J : Cplx F := r.1
    let HTMP1S : Cplx F := r.2
    pure (HTMP1J, HTMP1S)

@[thr] theorem run_hgemvzz_if126 (A : Int) (HTMP1J : Cplx F) (HTMP1S : Cplx F) (J : Int) (LDA : Int) (M : Int) (NOCONJ : Bool) (X : Int) :
    (Thr.hgemvzz_if126 A HTMP1J HTMP1S J LDA M NOCONJ X (F := F)).run = Haxx.hgemvzz_if126 A HTMP1J HTMP1S J LDA M NOCONJ X (F := F) := by
  simp only [Thr.hgemvzz_if126, Haxx.hgemvzz_if126, thr]

/-- As `Haxx.hgemvzz_110_J`, `src/hblas/fortran/hblas2/hgemvzz.f:123-146`, body of `DO 110 J`. -/
def hgemvzz_110_J (A : Int) (ALPHA : Cplx F) (INCY : Int) (LDA : Int) (M : Int) (NOCONJ : Bool) (X : Int) (Y : Int) (J : Int) (JY : Int) : Prog F (Int) := do
  let HTMP1S : Cplx F := (⟨zero, zero⟩ : Cplx F)
  let HTMP1J : Cplx F := (⟨zero, zero⟩ : Cplx F)
  let r ← hgemvzz_if126 A HTMP1J HTMP1S J LDA M NOCONJ X
  let HTMP1J : Cplx F := r.1
  let HTMP1S : Cplx F := r.2
  let t1 ← rdC (el2 2 2 Y 1 JY)
  wrC (el2 2 2 Y 1 JY) (t1 +ᶜ ALPHA *ᶜ HTMP1S)
  let t2 ← rdC (el2 2 2 Y 2 JY)
  wrC (el2 2 2 Y 2 JY) (t2 +ᶜ ALPHA *ᶜ HTMP1J)
  let JY : Int := JY + INCY
  pure JY

@[thr] theorem run_hgemvzz_110_J (A : Int) (ALPHA : Cplx F) (INCY : Int) (LDA : Int) (M : Int) (NOCONJ : Bool) (X : Int) (Y : Int) (J : Int) (JY : Int) :
    (Thr.hgemvzz_110_J A ALPHA INCY LDA M NOCONJ X Y J JY (F := F)).run = Haxx.hgemvzz_110_J A ALPHA INCY LDA M NOCONJ X Y J JY (F := F) := by
  simp only [Thr.hgemvzz_110_J, Haxx.hgemvzz_110_J, thr]

/-- As `Haxx.hgemvzz_120_I`, `src/hblas/fortran/hblas2/hgemvzz.f:153-160`, body of `DO 120 I`. -/
def hgemvzz_120_I (A : Int) (INCX : Int) (J : Int) (LDA : Int) (X : Int) (I : Int) (HTMP1J : Cplx F) (HTMP1S : Cplx F) (IX : Int) : Prog F (Cplx F × Cplx F × Int) := do
  let t1 ← rdC (el3 2 2 LDA A 1 I J)
  let t2 ← rdC (el2 2 2 X 1 IX)
  let t3 ← rdC (el3 2 2 LDA A 2 I J)
  let t4 ← rdC (el2 2 2 X 2 IX)
  let HTMP1S : Cplx F := HTMP1S +ᶜ t1 *ᶜ t2 -ᶜ t3 *ᶜ Cplx.conj t4
  let t5 ← rdC (el3 2 2 LDA A 1 I J)
  let t6 ← rdC (el2 2 2 X 2 IX)
  let t7 ← rdC (el3 2 2 LDA A 2 I J)
  let t8 ← rdC (el2 2 2 X 1 IX)
  let HTMP1J : Cplx F := HTMP1J +ᶜ t5 *ᶜ t6 +ᶜ t7 *ᶜ Cplx.conj t8
  let IX : Int := IX + INCX
  pure (HTMP1J, HTMP1S, IX)

@[thr] theorem run_hgemvzz_120_I (A : Int) (INCX : Int) (J : Int) (LDA : Int) (X : Int) (I : Int) (HTMP1J : Cplx F) (HTMP1S : Cplx F) (IX : Int) :
    (Thr.hgemvzz_120_I A INCX J LDA X I HTMP1J HTMP1S IX (F := F)).run = Haxx.hgemvzz_120_I A INCX J LDA X I HTMP1J HTMP1S IX (F := F) := by
  simp only [Thr.hgemvzz_120_I, Haxx.hgemvzz_120_I, thr]

/-- As `Haxx.hgemvzz_130_I`, `src/hblas/fortran/hblas2/hgemvzz.f:162-169`, body of `DO 130 I`. -/
def hgemvzz_130_I (A : Int) (INCX : Int) (J : Int) (LDA : Int) (X : Int) (I : Int) (HTMP1J : Cplx F) (HTMP1S : Cplx F) (IX : Int) : Prog F (Cplx F × Cplx F × Int) := do
  let t1 ← rdC (el3 2 2 LDA A 1 I J)
  let t2 ← rdC (el2 2 2 X 1 IX)
  let t3 ← rdC (el3 2 2 LDA A 2 I J)
  let t4 ← rdC (el2 2 2 X 2 IX)
  let HTMP1S : Cplx F := HTMP1S +ᶜ Cplx.conj t1 *ᶜ t2 +ᶜ t3 *ᶜ Cplx.conj t4
  let t5 ← rdC (el3 2 2 LDA A 1 I J)
  let t6 ← rdC (el2 2 2 X 2 IX)
  let t7 ← rdC (el3 2 2 LDA A 2 I J)
  let t8 ← rdC (el2 2 2 X 1 IX)
  let HTMP1J : Cplx F := HTMP1J +ᶜ Cplx.conj t5 *ᶜ t6 -ᶜ t7 *ᶜ Cplx.conj t8
  let IX : Int := IX + INCX
  pure (HTMP1J, HTMP1S, IX)

@[thr] theorem run_hgemvzz_130_I (A : Int) (INCX : Int) (J : Int) (LDA : Int) (X : Int) (I : Int) (HTMP1J : Cplx F) (HTMP1S : Cplx F) (IX : Int) :
    (Thr.hgemvzz_130_I A INCX J LDA X I HTMP1J HTMP1S IX (F := F)).run = Haxx.hgemvzz_130_I A INCX J LDA X I HTMP1J HTMP1S IX (F := F) := by
  simp only [Thr.hgemvzz_130_I, Haxx.hgemvzz_130_I, thr]

/-- As `Haxx.hgemvzz_if152`, `src/hblas/fortran/hblas2/hgemvzz.f:152-170`. -/
def hgemvzz_if152 (A : Int) (HTMP1J : Cplx F) (HTMP1S : Cplx F) (INCX : Int) (IX : Int) (J : Int) (LDA : Int) (M : Int) (NOCONJ : Bool) (X : Int) : Prog F (Cplx F × Cplx F) := do
  if NOCONJ then
    let r ← foldN (M).toNat (fun i (s : Cplx F × Cplx F × Int) => hgemvzz_120_I A INCX J LDA X ((i : Int) + 1) s.1 s.2.1 s.2.2) (HTMP1J, HTMP1S, IX)
    let HTMP1J : Cplx F := r.1
    let HTMP1S : Cplx F := r.2.1
    pure (HTMP1J, HTMP1S)
  else
    let r ← foldN (M).toNat (fun i (s : Cplx F × Cplx F × Int) => hgemvzz_130_I A INCX J LDA X ((i : Int) + 1) s.1 s.2.1 s.2.2) (HTMP1J, HTMP1S, IX)
    let HTMP1J : Cplx F := r.1
    let HTMP1S : Cplx F := r.2.1
    pure (HTMP1J, HTMP1S)

@[thr] theorem run_hgemvzz_if152 (A : Int) (HTMP1J : Cplx F) (HTMP1S : Cplx F) (INCX : Int) (IX : Int) (J : Int) (LDA : Int) (M : Int) (NOCONJ : Bool) (X : Int) :
    (Thr.hgemvzz_if152 A HTMP1J HTMP1S INCX IX J LDA M NOCONJ X (F := F)).run = Haxx.hgemvzz_if152 A HTMP1J HTMP1S INCX IX J LDA M NOCONJ X (F := F) := by
  simp only [Thr.hgemvzz_if152, Haxx.hgemvzz_if152, thr]

/-- As `Haxx.hgemvzz_140_J`, `src/hblas/fortran/hblas2/hgemvzz.f:148-174`, body of `DO 140 J`. -/
def hgemvzz_140_J (A : Int) (ALPHA : Cplx F) (INCX : Int) (INCY : Int) (KX : Int) (LDA : Int) (M : Int) (NOCONJ : Bool) (X : Int) (Y : Int) (J : Int) (JY : Int) : Prog F (Int) := do
  let HTMP1S : Cplx F := (⟨zero, zero⟩ : Cplx F)
  let HTMP1J : Cplx F := (⟨zero, zero⟩ : Cplx F)
  let IX : Int := KX
  let r ← hgemvzz_if152 A HTMP1J HTMP1S INCX IX J LDA M NOCONJ X
  let HTMP1J : Cplx F := r.1
  let HTMP1S : Cplx F := r.2
  let t1 ← rdC (el2 2 2 Y 1 JY)
  wrC (el2 2 2 Y 1 JY) (t1 +ᶜ ALPHA *ᶜ HTMP1S)
  let t2 ← rdC (el2 2 2 Y 2 JY)
  wrC (el2 2 2 Y 2 JY) (t2 +ᶜ ALPHA *ᶜ HTMP1J)
  let JY : Int := JY + INCY
  pure JY

@[thr] theorem run_hgemvzz_140_J (A : Int) (ALPHA : Cplx F) (INCX : Int) (INCY : Int) (KX : Int) (LDA : Int) (M : Int) (NOCONJ : Bool) (X : Int) (Y : Int) (J : Int) (JY : Int) :
    (Thr.hgemvzz_140_J A ALPHA INCX INCY KX LDA M NOCONJ X Y J JY (F := F)).run = Haxx.hgemvzz_140_J A ALPHA INCX INCY KX LDA M NOCONJ X Y J JY (F := F) := by
  simp only [Thr.hgemvzz_140_J, Haxx.hgemvzz_140_J, thr]

/-- As `Haxx.hgemvzz_if122`, `src/hblas/fortran/hblas2/hgemvzz.f:122-175`. -/
def hgemvzz_if122 (A : Int) (ALPHA : Cplx F) (INCX : Int) (INCY : Int) (JY : Int) (KX : Int) (LDA : Int) (M : Int) (N : Int) (NOCONJ : Bool) (X : Int) (Y : Int) : Prog F (Unit) := do
  if decide (INCX = 1) then
    let r ← foldN (N).toNat (fun i (s : Int) => hgemvzz_110_J A ALPHA INCY LDA M NOCONJ X Y ((i : Int) + 1) s) JY
    pure ()
  else
    let r ← foldN (N).toNat (fun i (s : Int) => hgemvzz_140_J A ALPHA INCX INCY KX LDA M NOCONJ X Y ((i : Int) + 1) s) JY
    pure ()

@[thr] theorem run_hgemvzz_if122 (A : Int) (ALPHA : Cplx F) (INCX : Int) (INCY : Int) (JY : Int) (KX : Int) (LDA : Int) (M : Int) (N : Int) (NOCONJ : Bool) (X : Int) (Y : Int) :
    (Thr.hgemvzz_if122 A ALPHA INCX INCY JY KX LDA M N NOCONJ X Y (F := F)).run = Haxx.hgemvzz_if122 A ALPHA INCX INCY JY KX LDA M N NOCONJ X Y (F := F) := by
  simp only [Thr.hgemvzz_if122, Haxx.hgemvzz_if122, thr]

/-- As `Haxx.hgemvzz_if89`, `src/hblas/fortran/hblas2/hgemvzz.f:89-176`. -/
def hgemvzz_if89 (A : Int) (ALPHA : Cplx F) (INCX : Int) (INCY : Int) (KX : Int) (KY : Int) (LDA : Int) (M : Int) (N : Int) (NOCONJ : Bool) (TRANS : Char) (X : Int) (Y : Int) : Prog F (Unit) := do
  if lsame TRANS 'N' then
    let JX : Int := KX
    hgemvzz_if91 A ALPHA INCX INCY JX KY LDA M N X Y
    pure ()
  else
    let JY : Int := KY
    hgemvzz_if122 A ALPHA INCX INCY JY KX LDA M N NOCONJ X Y
    pure ()

@[thr] theorem run_hgemvzz_if89 (A : Int) (ALPHA : Cplx F) (INCX : Int) (INCY : Int) (KX : Int) (KY : Int) (LDA : Int) (M : Int) (N : Int) (NOCONJ : Bool) (TRANS : Char) (X : Int) (Y : Int) :
    (Thr.hgemvzz_if89 A ALPHA INCX INCY KX KY LDA M N NOCONJ TRANS X Y (F := F)).run = Haxx.hgemvzz_if89 A ALPHA INCX INCY KX KY LDA M N NOCONJ TRANS X Y (F := F) := by
  simp only [Thr.hgemvzz_if89, Haxx.hgemvzz_if89, thr]

/-- As `Haxx.hgemvzz`, `src/hblas/fortran/hblas2/hgemvzz.f:9-178`. -/
def hgemvzz (TRANS : Char) (M : Int) (N : Int) (ALPHA : Cplx F) (A : Int) (LDA : Int) (X : Int) (INCX : Int) (BETA : Cplx F) (Y : Int) (INCY : Int) : Prog F (Unit) := do
  let NOCONJ : Bool := lsame 'T' TRANS
  let r ← (do
    if lsame 'T' TRANS then
      let LENX : Int := N
      let LENY : Int := M
      pure (LENX, LENY)
    else
      let LENX : Int := M
      let LENY : Int := N
      pure (LENX, LENY) : Prog F (Int × Int))
  let LENX : Int := r.1
  let LENY : Int := r.2
  let AZERO : Bool := Cplx.feq ALPHA (⟨zero, zero⟩ : Cplx F)
  -- AONE (line 35) is never read
  let BZERO : Bool := Cplx.feq BETA (⟨zero, zero⟩ : Cplx F)
  let BONE : Bool := Cplx.feq BETA (⟨one, zero⟩ : Cplx F)
  if ((decide (M = 0)) || (decide (N = 0))) || (AZERO && BONE) then
    pure ()
  else
    let r ← (do
      if decide (INCX > 0) then
        let KX : Int := 1
        pure KX
      else
        let KX : Int := 1 - (LENX - 1) * INCX
        pure KX : Prog F (Int))
    let KX : Int := r
    let r ← (do
      if decide (INCY > 0) then
        let KY : Int := 1
        pure KY
      else
        let KY : Int := 1 - (LENY - 1) * INCY
        pure KY : Prog F (Int))
    let KY : Int := r
    hgemvzz_if56 BETA BONE BZERO INCY KY LENY Y
    if AZERO then
      pure ()
    else
      hgemvzz_if89 A ALPHA INCX INCY KX KY LDA M N NOCONJ TRANS X Y
      pure ()

@[thr] theorem run_hgemvzz (TRANS : Char) (M : Int) (N : Int) (ALPHA : Cplx F) (A : Int) (LDA : Int) (X : Int) (INCX : Int) (BETA : Cplx F) (Y : Int) (INCY : Int) :
    (Thr.hgemvzz TRANS M N ALPHA A LDA X INCX BETA Y INCY (F := F)).run = Haxx.hgemvzz TRANS M N ALPHA A LDA X INCX BETA Y INCY (F := F) := by
  simp only [Thr.hgemvzz, Haxx.hgemvzz, thr]

-- end of FGemvzz

variable {F : Type} [Arith F] [ArithEq F]
/-- As `Haxx.hgemvzh_10_I`, `src/hblas/fortran/hblas2/hgemvzh.f:59-62`, body of `DO 10 I`. -/
def hgemvzh_10_I (Y : Int) (I : Int)  : Prog F (Unit) := do
  wrC (el2 2 2 Y 1 I) (⟨zero, zero⟩ : Cplx F)
  wrC (el2 2 2 Y 2 I) (⟨zero, zero⟩ : Cplx F)
  pure ()

@[thr] theorem run_hgemvzh_10_I (Y : Int) (I : Int) :
    (Thr.hgemvzh_10_I Y I (F := F)).run = Haxx.hgemvzh_10_I Y I (F := F) := by
  simp only [Thr.hgemvzh_10_I, Haxx.hgemvzh_10_I, thr]

/-- As `Haxx.hgemvzh_20_I`, `src/hblas/fortran/hblas2/hgemvzh.f:64-68`, body of `DO 20 I`. -/
def hgemvzh_20_I (BETA : Quat F) (Y : Int) (I : Int)  : Prog F (Unit) := do
  let t1 ← rdC (el2 2 2 Y 1 I)
  let t2 ← rdC (el2 2 2 Y 2 I)
  let HTMP1S : Cplx F := Quat.lo BETA *ᶜ t1 -ᶜ Quat.hi BETA *ᶜ Cplx.conj t2
  let t3 ← rdC (el2 2 2 Y 2 I)
  let t4 ← rdC (el2 2 2 Y 1 I)
  wrC (el2 2 2 Y 2 I) (Quat.lo BETA *ᶜ t3 +ᶜ Quat.hi BETA *ᶜ Cplx.conj t4)
  wrC (el2 2 2 Y 1 I) HTMP1S
  pure ()

@[thr] theorem run_hgemvzh_20_I (BETA : Quat F) (Y : Int) (I : Int) :
    (Thr.hgemvzh_20_I BETA Y I (F := F)).run = Haxx.hgemvzh_20_I BETA Y I (F := F) := by
  simp only [Thr.hgemvzh_20_I, Haxx.hgemvzh_20_I, thr]

/-- As `Haxx.hgemvzh_if58`, `src/hblas/fortran/hblas2/hgemvzh.f:58-69`. -/
def hgemvzh_if58 (BETA : Quat F) (BZERO : Bool) (LENY : Int) (Y : Int) : Prog F (Unit) := do
  if BZERO then
    forN (LENY).toNat (fun i => hgemvzh_10_I Y ((i : Int) + 1))
    pure ()
  else
    forN (LENY).toNat (fun i => hgemvzh_20_I BETA Y ((i : Int) + 1))
    pure ()

@[thr] theorem run_hgemvzh_if58 (BETA : Quat F) (BZERO : Bool) (LENY : Int) (Y : Int) :
    (Thr.hgemvzh_if58 BETA BZERO LENY Y (F := F)).run = Haxx.hgemvzh_if58 BETA BZERO LENY Y (F := F) := by
  simp only [Thr.hgemvzh_if58, Haxx.hgemvzh_if58, thr]

/-- As `Haxx.hgemvzh_30_I`, `src/hblas/fortran/hblas2/hgemvzh.f:73-77`, body of `DO 30 I`. -/
def hgemvzh_30_I (INCY : Int) (Y : Int) (I : Int) (IY : Int) : Prog F (Int) := do
  wrC (el2 2 2 Y 1 IY) (⟨zero, zero⟩ : Cplx F)
  wrC (el2 2 2 Y 2 IY) (⟨zero, zero⟩ : Cplx F)
  let IY : Int := IY + INCY
  pure IY

@[thr] theorem run_hgemvzh_30_I (INCY : Int) (Y : Int) (I : Int) (IY : Int) :
    (Thr.hgemvzh_30_I INCY Y I IY (F := F)).run = Haxx.hgemvzh_30_I INCY Y I IY (F := F) := by
  simp only [Thr.hgemvzh_30_I, Haxx.hgemvzh_30_I, thr]

/-- As `Haxx.hgemvzh_40_I`, `src/hblas/fortran/hblas2/hgemvzh.f:79-84`, body of `DO 40 I`. -/
def hgemvzh_40_I (BETA : Quat F) (INCY : Int) (Y : Int) (I : Int) (IY : Int) : Prog F (Int) := do
  let t1 ← rdC (el2 2 2 Y 1 IY)
  let t2 ← rdC (el2 2 2 Y 2 IY)
  let HTMP1S : Cplx F := Quat.lo BETA *ᶜ t1 -ᶜ Quat.hi BETA *ᶜ Cplx.conj t2
  let t3 ← rdC (el2 2 2 Y 2 IY)
  let t4 ← rdC (el2 2 2 Y 1 IY)
  wrC (el2 2 2 Y 2 IY) (Quat.lo BETA *ᶜ t3 +ᶜ Quat.hi BETA *ᶜ Cplx.conj t4)
  wrC (el2 2 2 Y 1 IY) HTMP1S
  let IY : Int := IY + INCY
  pure IY

@[thr] theorem run_hgemvzh_40_I (BETA : Quat F) (INCY : Int) (Y : Int) (I : Int) (IY : Int) :
    (Thr.hgemvzh_40_I BETA INCY Y I IY (F := F)).run = Haxx.hgemvzh_40_I BETA INCY Y I IY (F := F) := by
  simp only [Thr.hgemvzh_40_I, Haxx.hgemvzh_40_I, thr]

/-- As `Haxx.hgemvzh_if72`, `src/hblas/fortran/hblas2/hgemvzh.f:72-85`. -/
def hgemvzh_if72 (BETA : Quat F) (BZERO : Bool) (INCY : Int) (IY : Int) (LENY : Int) (Y : Int) : Prog F (Unit) := do
  if BZERO then
    let r ← foldN (LENY).toNat (fun i (s : Int) => hgemvzh_30_I INCY Y ((i : Int) + 1) s) IY
    pure ()
  else
    let r ← foldN (LENY).toNat (fun i (s : Int) => hgemvzh_40_I BETA INCY Y ((i : Int) + 1) s) IY
    pure ()

@[thr] theorem run_hgemvzh_if72 (BETA : Quat F) (BZERO : Bool) (INCY : Int) (IY : Int) (LENY : Int) (Y : Int) :
    (Thr.hgemvzh_if72 BETA BZERO INCY IY LENY Y (F := F)).run = Haxx.hgemvzh_if72 BETA BZERO INCY IY LENY Y (F := F) := by
  simp only [Thr.hgemvzh_if72, Haxx.hgemvzh_if72, thr]

/-- As `Haxx.hgemvzh_if57`, `src/hblas/fortran/hblas2/hgemvzh.f:57-86`. -/
def hgemvzh_if57 (BETA : Quat F) (BZERO : Bool) (INCY : Int) (KY : Int) (LENY : Int) (Y : Int) : Prog F (Unit) := do
  if decide (INCY = 1) then
    hgemvzh_if58 BETA BZERO LENY Y
    pure ()
  else
    let IY : Int := KY
    hgemvzh_if72 BETA BZERO INCY IY LENY Y
    pure ()

@[thr] theorem run_hgemvzh_if57 (BETA : Quat F) (BZERO : Bool) (INCY : Int) (KY : Int) (LENY : Int) (Y : Int) :
    (Thr.hgemvzh_if57 BETA BZERO INCY KY LENY Y (F := F)).run = Haxx.hgemvzh_if57 BETA BZERO INCY KY LENY Y (F := F) := by
  simp only [Thr.hgemvzh_if57, Haxx.hgemvzh_if57, thr]

/-- As `Haxx.hgemvzh_if56`, `src/hblas/fortran/hblas2/hgemvzh.f:56-87`. -/
def hgemvzh_if56 (BETA : Quat F) (BONE : Bool) (BZERO : Bool) (INCY : Int) (KY : Int) (LENY : Int) (Y : Int) : Prog F (Unit) := do
  if !BONE then
    hgemvzh_if57 BETA BZERO INCY KY LENY Y
    pure ()
  else
    pure ()

@[thr] theorem run_hgemvzh_if56 (BETA : Quat F) (BONE : Bool) (BZERO : Bool) (INCY : Int) (KY : Int) (LENY : Int) (Y : Int) :
    (Thr.hgemvzh_if56 BETA BONE BZERO INCY KY LENY Y (F := F)).run = Haxx.hgemvzh_if56 BETA BONE BZERO INCY KY LENY Y (F := F) := by
  simp only [Thr.hgemvzh_if56, Haxx.hgemvzh_if56, thr]

/-- As `Haxx.hgemvzh_50_I`, `src/hblas/fortran/hblas2/hgemvzh.f:99-103`, body of `DO 50 I`. -/
def hgemvzh_50_I (A : Int) (HTMP1J : Cplx F) (HTMP1S : Cplx F) (HTMP2J : Cplx F) (HTMP2S : Cplx F) (J : Int) (LDA : Int) (Y : Int) (I : Int)  : Prog F (Unit) := do
  let t1 ← rdC (el2 2 2 Y 1 I)
  let t2 ← rdC (el3 2 2 LDA A 1 I J)
  let t3 ← rdC (el3 2 2 LDA A 2 I J)
  wrC (el2 2 2 Y 1 I) (t1 +ᶜ t2 *ᶜ HTMP1S -ᶜ t3 *ᶜ HTMP2J)
  let t4 ← rdC (el2 2 2 Y 2 I)
  let t5 ← rdC (el3 2 2 LDA A 1 I J)
  let t6 ← rdC (el3 2 2 LDA A 2 I J)
  wrC (el2 2 2 Y 2 I) (t4 +ᶜ t5 *ᶜ HTMP1J +ᶜ t6 *ᶜ HTMP2S)
  pure ()

@[thr] theorem run_hgemvzh_50_I (A : Int) (HTMP1J : Cplx F) (HTMP1S : Cplx F) (HTMP2J : Cplx F) (HTMP2S : Cplx F) (J : Int) (LDA : Int) (Y : Int) (I : Int) :
    (Thr.hgemvzh_50_I A HTMP1J HTMP1S HTMP2J HTMP2S J LDA Y I (F := F)).run = Haxx.hgemvzh_50_I A HTMP1J HTMP1S HTMP2J HTMP2S J LDA Y I (F := F) := by
  simp only [Thr.hgemvzh_50_I, Haxx.hgemvzh_50_I, thr]

/-- As `Haxx.hgemvzh_60_J`, `src/hblas/fortran/hblas2/hgemvzh.f:94-105`, body of `DO 60 J`. -/
def hgemvzh_60_J (A : Int) (ALPHA : Cplx F) (INCX : Int) (LDA : Int) (M : Int) (X : Int) (Y : Int) (J : Int) (JX : Int) : Prog F (Int) := do
  let t1 ← rdC (el2 2 2 X 1 JX)
  let HTMP1S : Cplx F := ALPHA *ᶜ t1
  let t2 ← rdC (el2 2 2 X 2 JX)
  let HTMP1J : Cplx F := ALPHA *ᶜ t2
  let t3 ← rdC (el2 2 2 X 1 JX)
  let HTMP2S : Cplx F := ALPHA *ᶜ Cplx.conj t3
  let t4 ← rdC (el2 2 2 X 2 JX)
  let HTMP2J : Cplx F := ALPHA *ᶜ Cplx.conj t4
  forN (M).toNat (fun i => hgemvzh_50_I A HTMP1J HTMP1S HTMP2J HTMP2S J LDA Y ((i : Int) + 1))
  let JX : Int := JX + INCX
  pure JX

@[thr] theorem run_hgemvzh_60_J (A : Int) (ALPHA : Cplx F) (INCX : Int) (LDA : Int) (M : Int) (X : Int) (Y : Int) (J : Int) (JX : Int) :
    (Thr.hgemvzh_60_J A ALPHA INCX LDA M X Y J JX (F := F)).run = Haxx.hgemvzh_60_J A ALPHA INCX LDA M X Y J JX (F := F) := by
  simp only [Thr.hgemvzh_60_J, Haxx.hgemvzh_60_J, thr]

/-- As `Haxx.hgemvzh_70_I`, `src/hblas/fortran/hblas2/hgemvzh.f:113-118`, body of `DO 70 I`. -/
def hgemvzh_70_I (A : Int) (HTMP1J : Cplx F) (HTMP1S : Cplx F) (HTMP2J : Cplx F) (HTMP2S : Cplx F) (INCY : Int) (J : Int) (LDA : Int) (Y : Int) (I : Int) (IY : Int) : Prog F (Int) := do
  let t1 ← rdC (el2 2 2 Y 1 IY)
  let t2 ← rdC (el3 2 2 LDA A 1 I J)
  let t3 ← rdC (el3 2 2 LDA A 2 I J)
  wrC (el2 2 2 Y 1 IY) (t1 +ᶜ t2 *ᶜ HTMP1S -ᶜ t3 *ᶜ HTMP2J)
  let t4 ← rdC (el2 2 2 Y 2 IY)
  let t5 ← rdC (el3 2 2 LDA A 1 I J)
  let t6 ← rdC (el3 2 2 LDA A 2 I J)
  wrC (el2 2 2 Y 2 IY) (t4 +ᶜ t5 *ᶜ HTMP1J +ᶜ t6 *ᶜ HTMP2S)
  let IY : Int := IY + INCY
  pure IY

@[thr] theorem run_hgemvzh_70_I (A : Int) (HTMP1J : Cplx F) (HTMP1S : Cplx F) (HTMP2J : Cplx F) (HTMP2S : Cplx F) (INCY : Int) (J : Int) (LDA : Int) (Y : Int) (I : Int) (IY : Int) :
    (Thr.hgemvzh_70_I A HTMP1J HTMP1S HTMP2J HTMP2S INCY J LDA Y I IY (F := F)).run = Haxx.hgemvzh_70_I A HTMP1J HTMP1S HTMP2J HTMP2S INCY J LDA Y I IY (F := F) := by
  simp only [Thr.hgemvzh_70_I, Haxx.hgemvzh_70_I, thr]

/-- As `Haxx.hgemvzh_80_J`, `src/hblas/fortran/hblas2/hgemvzh.f:107-120`, body of `DO 80 J`. -/
def hgemvzh_80_J (A : Int) (ALPHA : Cplx F) (INCX : Int) (INCY : Int) (KY : Int) (LDA : Int) (M : Int) (X : Int) (Y : Int) (J : Int) (JX : Int) : Prog F (Int) := do
  let t1 ← rdC (el2 2 2 X 1 JX)
  let HTMP1S : Cplx F := ALPHA *ᶜ t1
  let t2 ← rdC (el2 2 2 X 2 JX)
  let HTMP1J : Cplx F := ALPHA *ᶜ t2
  let t3 ← rdC (el2 2 2 X 1 JX)
  let HTMP2S : Cplx F := ALPHA *ᶜ Cplx.conj t3
  let t4 ← rdC (el2 2 2 X 2 JX)
  let HTMP2J : Cplx F := ALPHA *ᶜ Cplx.conj t4
  let IY : Int := KY
  let r ← foldN (M).toNat (fun i (s : Int) => hgemvzh_70_I A HTMP1J HTMP1S HTMP2J HTMP2S INCY J LDA Y ((i : Int) + 1) s) IY
  let JX : Int := JX + INCX
  pure JX

@[thr] theorem run_hgemvzh_80_J (A : Int) (ALPHA : Cplx F) (INCX : Int) (INCY : Int) (KY : Int) (LDA : Int) (M : Int) (X : Int) (Y : Int) (J : Int) (JX : Int) :
    (Thr.hgemvzh_80_J A ALPHA INCX INCY KY LDA M X Y J JX (F := F)).run = Haxx.hgemvzh_80_J A ALPHA INCX INCY KY LDA M X Y J JX (F := F) := by
  simp only [Thr.hgemvzh_80_J, Haxx.hgemvzh_80_J, thr]

/-- As `Haxx.hgemvzh_if93`, `src/hblas/fortran/hblas2/hgemvzh.f:93-121`. -/
def hgemvzh_if93 (A : Int) (ALPHA : Cplx F) (INCX : Int) (INCY : Int) (JX : Int) (KY : Int) (LDA : Int) (M : Int) (N : Int) (X : Int) (Y : Int) : Prog F (Unit) := do
  if decide (INCY = 1) then
    let r ← foldN (N).toNat (fun i (s : Int) => hgemvzh_60_J A ALPHA INCX LDA M X Y ((i : Int) + 1) s) JX
    pure ()
  else
    let r ← foldN (N).toNat (fun i (s : Int) => hgemvzh_80_J A ALPHA INCX INCY KY LDA M X Y ((i : Int) + 1) s) JX
    pure ()

@[thr] theorem run_hgemvzh_if93 (A : Int) (ALPHA : Cplx F) (INCX : Int) (INCY : Int) (JX : Int) (KY : Int) (LDA : Int) (M : Int) (N : Int) (X : Int) (Y : Int) :
    (Thr.hgemvzh_if93 A ALPHA INCX INCY JX KY LDA M N X Y (F := F)).run = Haxx.hgemvzh_if93 A ALPHA INCX INCY JX KY LDA M N X Y (F := F) := by
  simp only [Thr.hgemvzh_if93, Haxx.hgemvzh_if93, thr]

/-- As `Haxx.hgemvzh_90_I`, `src/hblas/fortran/hblas2/hgemvzh.f:129-135`, body of `DO 90 I`. -/
def hgemvzh_90_I (A : Int) (J : Int) (LDA : Int) (X : Int) (I : Int) (HTMP1J : Cplx F) (HTMP1S : Cplx F) : Prog F (Cplx F × Cplx F) := do
  let t1 ← rdC (el3 2 2 LDA A 1 I J)
  let t2 ← rdC (el2 2 2 X 1 I)
  let t3 ← rdC (el3 2 2 LDA A 2 I J)
  let t4 ← rdC (el2 2 2 X 2 I)
  let HTMP1S : Cplx F := HTMP1S +ᶜ t1 *ᶜ t2 -ᶜ t3 *ᶜ Cplx.conj t4
  let t5 ← rdC (el3 2 2 LDA A 1 I J)
  let t6 ← rdC (el2 2 2 X 2 I)
  let t7 ← rdC (el3 2 2 LDA A 2 I J)
  let t8 ← rdC (el2 2 2 X 1 I)
  let HTMP1J : Cplx F := HTMP1J +ᶜ t5 *ᶜ t6 +ᶜ t7 *ᶜ Cplx.conj t8
  pure (HTMP1J, HTMP1S)

@[thr] theorem run_hgemvzh_90_I (A : Int) (J : Int) (LDA : Int) (X : Int) (I : Int) (HTMP1J : Cplx F) (HTMP1S : Cplx F) :
    (Thr.hgemvzh_90_I A J LDA X I HTMP1J HTMP1S (F := F)).run = Haxx.hgemvzh_90_I A J LDA X I HTMP1J HTMP1S (F := F) := by
  simp only [Thr.hgemvzh_90_I, Haxx.hgemvzh_90_I, thr]

/-- As `Haxx.hgemvzh_100_I`, `src/hblas/fortran/hblas2/hgemvzh.f:137-143`, body of `DO 100 I`. -/
def hgemvzh_100_I (A : Int) (J : Int) (LDA : Int) (X : Int) (I : Int) (HTMP1J : Cplx F) (HTMP1S : Cplx F) : Prog F (Cplx F × Cplx F) := do
  let t1 ← rdC (el3 2 2 LDA A 1 I J)
  let t2 ← rdC (el2 2 2 X 1 I)
  let t3 ← rdC (el3 2 2 LDA A 2 I J)
  let t4 ← rdC (el2 2 2 X 2 I)
  let HTMP1S : Cplx F := HTMP1S +ᶜ Cplx.conj t1 *ᶜ t2 +ᶜ t3 *ᶜ Cplx.conj t4
  let t5 ← rdC (el3 2 2 LDA A 1 I J)
  let t6 ← rdC (el2 2 2 X 2 I)
  let t7 ← rdC (el3 2 2 LDA A 2 I J)
  let t8 ← rdC (el2 2 2 X 1 I)
  let HTMP1J : Cplx F := HTMP1J +ᶜ Cplx.conj t5 *ᶜ t6 -ᶜ t7 *ᶜ Cplx.conj t8
  pure (HTMP1J, HTMP1S)

@[thr] theorem run_hgemvzh_100_I (A : Int) (J : Int) (LDA : Int) (X : Int) (I : Int) (HTMP1J : Cplx F) (HTMP1S : Cplx F) :
    (Thr.hgemvzh_100_I A J LDA X I HTMP1J HTMP1S (F := F)).run = Haxx.hgemvzh_100_I A J LDA X I HTMP1J HTMP1S (F := F) := by
  simp only [Thr.hgemvzh_100_I, Haxx.hgemvzh_100_I, thr]

/-- As `Haxx.hgemvzh_if128`, `src/hblas/fortran/hblas2/hgemvzh.f:128-144`. -/
def hgemvzh_if128 (A : Int) (HTMP1J : Cplx F) (HTMP1S : Cplx F) (J : Int) (LDA : Int) (M : Int) (NOCONJ : Bool) (X : Int) : Prog F (Cplx F × Cplx F) := do
  if NOCONJ then
    let r ← foldN (M).toNat (fun i (s : Cplx F × Cplx F) => hgemvzh_90_I A J LDA X ((i : Int) + 1) s.1 s.2) (HTMP1J, HTMP1S)
    let HTMP1J : Cplx F := r.1
    let HTMP1S : Cplx F := r.2
    pure (HTMP1J, HTMP1S)
  else
    let r ← foldN (M).toNat (fun i (s : Cplx F × Cplx F) => hgemvzh_100_I A J LDA X ((i : Int) + 1) s.1 s.2) (HTMP1J, HTMP1S)
    let HTMP1J : Cplx F := r.1
    let HTMP1S : Cplx F := r.2
    pure (HTMP1J, HTMP1S)

@[thr] theorem run_hgemvzh_if128 (A : Int) (HTMP1J : Cplx F) (HTMP1S : Cplx F) (J : Int) (LDA : Int) (M : Int) (NOCONJ : Bool) (X : Int) :
    (Thr.hgemvzh_if128 A HTMP1J HTMP1S J LDA M NOCONJ X (F := F)).run = Haxx.hgemvzh_if128 A HTMP1J HTMP1S J LDA M NOCONJ X (F := F) := by
  simp only [Thr.hgemvzh_if128, Haxx.hgemvzh_if128, thr]

/-- As `Haxx.hgemvzh_110_J`, `src/hblas/fortran/hblas2/hgemvzh.f:125-148`, body of `DO 110 J`. -/
def hgemvzh_110_J (A : Int) (ALPHA : Cplx F) (INCY : Int) (LDA : Int) (M : Int) (NOCONJ : Bool) (X : Int) (Y : Int) (J : Int) (JY : Int) : Prog F (Int) := do
  let HTMP1S : Cplx F := (⟨zero, zero⟩ : Cplx F)
  let HTMP1J : Cplx F := (⟨zero, zero⟩ : Cplx F)
  let r ← hgemvzh_if128 A HTMP1J HTMP1S J LDA M NOCONJ X
  let HTMP1J : Cplx F := r.1
  let HTMP1S : Cplx F := r.2
  let t1 ← rdC (el2 2 2 Y 1 JY)
  wrC (el2 2 2 Y 1 JY) (t1 +ᶜ ALPHA *ᶜ HTMP1S)
  let t2 ← rdC (el2 2 2 Y 2 JY)
  wrC (el2 2 2 Y 2 JY) (t2 +ᶜ ALPHA *ᶜ HTMP1J)
  let JY : Int := JY + INCY
  pure JY

@[thr] theorem run_hgemvzh_110_J (A : Int) (ALPHA : Cplx F) (INCY : Int) (LDA : Int) (M : Int) (NOCONJ : Bool) (X : Int) (Y : Int) (J : Int) (JY : Int) :
    (Thr.hgemvzh_110_J A ALPHA INCY LDA M NOCONJ X Y J JY (F := F)).run = Haxx.hgemvzh_110_J A ALPHA INCY LDA M NOCONJ X Y J JY (F := F) := by
  simp only [Thr.hgemvzh_110_J, Haxx.hgemvzh_110_J, thr]

/-- As `Haxx.hgemvzh_120_I`, `src/hblas/fortran/hblas2/hgemvzh.f:155-162`, body of `DO 120 I`. -/
def hgemvzh_120_I (A : Int) (INCX : Int) (J : Int) (LDA : Int) (X : Int) (I : Int) (HTMP1J : Cplx F) (HTMP1S : Cplx F) (IX : Int) : Prog F (Cplx F × Cplx F × Int) := do
  let t1 ← rdC (el3 2 2 LDA A 1 I J)
  let t2 ← rdC (el2 2 2 X 1 IX)
  let t3 ← rdC (el3 2 2 LDA A 2 I J)
  let t4 ← rdC (el2 2 2 X 2 IX)
  let HTMP1S : Cplx F := HTMP1S +ᶜ t1 *ᶜ t2 -ᶜ t3 *ᶜ Cplx.conj t4
  let t5 ← rdC (el3 2 2 LDA A 1 I J)
  let t6 ← rdC (el2 2 2 X 2 IX)
  let t7 ← rdC (el3 2 2 LDA A 2 I J)
  let t8 ← rdC (el2 2 2 X 1 IX)
  let HTMP1J : Cplx F := HTMP1J +ᶜ t5 *ᶜ t6 +ᶜ t7 *ᶜ Cplx.conj t8
  let IX : Int := IX + INCX
  pure (HTMP1J, HTMP1S, IX)

@[thr] theorem run_hgemvzh_120_I (A : Int) (INCX : Int) (J : Int) (LDA : Int) (X : Int) (I : Int) (HTMP1J : Cplx F) (HTMP1S : Cplx F) (IX : Int) :
    (Thr.hgemvzh_120_I A INCX J LDA X I HTMP1J HTMP1S IX (F := F)).run = Haxx.hgemvzh_120_I A INCX J LDA X I HTMP1J HTMP1S IX (F := F) := by
  simp only [Thr.hgemvzh_120_I, Haxx.hgemvzh_120_I, thr]

/-- As `Haxx.hgemvzh_130_I`, `src/hblas/fortran/hblas2/hgemvzh.f:164-171`, body of `DO 130 I`. -/
def hgemvzh_130_I (A : Int) (INCX : Int) (J : Int) (LDA : Int) (X : Int) (I : Int) (HTMP1J : Cplx F) (HTMP1S : Cplx F) (IX : Int) : Prog F (Cplx F × Cplx F × Int) := do
  let t1 ← rdC (el3 2 2 LDA A 1 I J)
  let t2 ← rdC (el2 2 2 X 1 IX)
  let t3 ← rdC (el3 2 2 LDA A 2 I J)
  let t4 ← rdC (el2 2 2 X 2 IX)
  let HTMP1S : Cplx F := HTMP1S +ᶜ Cplx.conj t1 *ᶜ t2 +ᶜ t3 *ᶜ Cplx.conj t4
  let t5 ← rdC (el3 2 2 LDA A 1 I J)
  let t6 ← rdC (el2 2 2 X 2 IX)
  let t7 ← rdC (el3 2 2 LDA A 2 I J)
  let t8 ← rdC (el2 2 2 X 1 IX)
  let HTMP1J : Cplx F := HTMP1J +ᶜ Cplx.conj t5 *ᶜ t6 -ᶜ t7 *ᶜ Cplx.conj t8
  let IX : Int := IX + INCX
  pure (HTMP1J, HTMP1S, IX)

@[thr] theorem run_hgemvzh_130_I (A : Int) (INCX : Int) (J : Int) (LDA : Int) (X : Int) (I : Int) (HTMP1J : Cplx F) (HTMP1S : Cplx F) (IX : Int) :
    (Thr.hgemvzh_130_I A INCX J LDA X I HTMP1J HTMP1S IX (F := F)).run = Haxx.hgemvzh_130_I A INCX J LDA X I HTMP1J HTMP1S IX (F := F) := by
  simp only [Thr.hgemvzh_130_I, Haxx.hgemvzh_130_I, thr]

/-- As `Haxx.hgemvzh_if154`, `src/hblas/fortran/hblas2/hgemvzh.f:154-172`. -/
def hgemvzh_if154 (A : Int) (HTMP1J : Cplx F) (HTMP1S : Cplx F) (INCX : Int) (IX : Int) (J : Int) (LDA : Int) (M : Int) (NOCONJ : Bool) (X : Int) : Prog F (Cplx F × Cplx F) := do
  if NOCONJ then
    let r ← foldN (M).toNat (fun i (s : Cplx F × Cplx F × Int) => hgemvzh_120_I A INCX J LDA X ((i : Int) + 1) s.1 s.2.1 s.2.2) (HTMP1J, HTMP1S, IX)
    let HTMP1J : Cplx F := r.1
    let HTMP1S : Cplx F := r.2.1
    pure (HTMP1J, HTMP1S)
  else
    let r ← foldN (M).toNat (fun i (s : Cplx F × Cplx F × Int) => hgemvzh_130_I A INCX J LDA X ((i : Int) + 1) s.1 s.2.1 s.2.2) (HTMP1J, HTMP1S, IX)
    let HTMP1J : Cplx F := r.1
    let HTMP1S : Cplx F := r.2.1
    pure (HTMP1J, HTMP1S)

@[thr] theorem run_hgemvzh_if154 (A : Int) (HTMP1J : Cplx F) (HTMP1S : Cplx F) (INCX : Int) (IX : Int) (J : Int) (LDA : Int) (M : Int) (NOCONJ : Bool) (X : Int) :
    (Thr.hgemvzh_if154 A HTMP1J HTMP1S INCX IX J LDA M NOCONJ X (F := F)).run = Haxx.hgemvzh_if154 A HTMP1J HTMP1S INCX IX J LDA M NOCONJ X (F := F) := by
  simp only [Thr.hgemvzh_if154, Haxx.hgemvzh_if154, thr]

/-- As `Haxx.hgemvzh_140_J`, `src/hblas/fortran/hblas2/hgemvzh.f:150-176`, body of `DO 140 J`. -/
def hgemvzh_140_J (A : Int) (ALPHA : Cplx F) (INCX : Int) (INCY : Int) (KX : Int) (LDA : Int) (M : Int) (NOCONJ : Bool) (X : Int) (Y : Int) (J : Int) (JY : Int) : Prog F (Int) := do
  let HTMP1S : Cplx F := (⟨zero, zero⟩ : Cplx F)
  let HTMP1J : Cplx F := (⟨zero, zero⟩ : Cplx F)
  let IX : Int := KX
  let r ← hgemvzh_if154 A HTMP1J HTMP1S INCX IX J LDA M NOCONJ X
  let HTMP1J : Cplx F := r.1
  let HTMP1S : Cplx F := r.2
  let t1 ← rdC (el2 2 2 Y 1 JY)
  wrC (el2 2 2 Y 1 JY) (t1 +ᶜ ALPHA *ᶜ HTMP1S)
  let t2 ← rdC (el2 2 2 Y 2 JY)
  wrC (el2 2 2 Y 2 JY) (t2 +ᶜ ALPHA *ᶜ HTMP1J)
  let JY : Int := JY + INCY
  pure JY

@[thr] theorem run_hgemvzh_140_J (A : Int) (ALPHA : Cplx F) (INCX : Int) (INCY : Int) (KX : Int) (LDA : Int) (M : Int) (NOCONJ : Bool) (X : Int) (Y : Int) (J : Int) (JY : Int) :
    (Thr.hgemvzh_140_J A ALPHA INCX INCY KX LDA M NOCONJ X Y J JY (F := F)).run = Haxx.hgemvzh_140_J A ALPHA INCX INCY KX LDA M NOCONJ X Y J JY (F := F) := by
  simp only [Thr.hgemvzh_140_J, Haxx.hgemvzh_140_J, thr]

/-- As `Haxx.hgemvzh_if124`, `src/hblas/fortran/hblas2/hgemvzh.f:124-177`. -/
def hgemvzh_if124 (A : Int) (ALPHA : Cplx F) (INCX : Int) (INCY : Int) (JY : Int) (KX : Int) (LDA : Int) (M : Int) (N : Int) (NOCONJ : Bool) (X : Int) (Y : Int) : Prog F (Unit) := do
  if decide (INCX = 1) then
    let r ← foldN (N).toNat (fun i (s : Int) => hgemvzh_110_J A ALPHA INCY LDA M NOCONJ X Y ((i : Int) + 1) s) JY
    pure ()
  else
    let r ← foldN (N).toNat (fun i (s : Int) => hgemvzh_140_J A ALPHA INCX INCY KX LDA M NOCONJ X Y ((i : Int) + 1) s) JY
    pure ()

@[thr] theorem run_hgemvzh_if124 (A : Int) (ALPHA : Cplx F) (INCX : Int) (INCY : Int) (JY : Int) (KX : Int) (LDA : Int) (M : Int) (N : Int) (NOCONJ : Bool) (X : Int) (Y : Int) :
    (Thr.hgemvzh_if124 A ALPHA INCX INCY JY KX LDA M N NOCONJ X Y (F := F)).run = Haxx.hgemvzh_if124 A ALPHA INCX INCY JY KX LDA M N NOCONJ X Y (F := F) := by
  simp only [Thr.hgemvzh_if124, Haxx.hgemvzh_if124, thr]

/-- As `Haxx.hgemvzh_if91`, `src/hblas/fortran/hblas2/hgemvzh.f:91-178`. -/
def hgemvzh_if91 (A : Int) (ALPHA : Cplx F) (INCX : Int) (INCY : Int) (KX : Int) (KY : Int) (LDA : Int) (M : Int) (N : Int) (NOCONJ : Bool) (TRANS : Char) (X : Int) (Y : Int) : Prog F (Unit) := do
  if lsame TRANS 'N' then
    let JX : Int := KX
    hgemvzh_if93 A ALPHA INCX INCY JX KY LDA M N X Y
    pure ()
  else
    let JY : Int := KY
    hgemvzh_if124 A ALPHA INCX INCY JY KX LDA M N NOCONJ X Y
    pure ()

@[thr] theorem run_hgemvzh_if91 (A : Int) (ALPHA : Cplx F) (INCX : Int) (INCY : Int) (KX : Int) (KY : Int) (LDA : Int) (M : Int) (N : Int) (NOCONJ : Bool) (TRANS : Char) (X : Int) (Y : Int) :
    (Thr.hgemvzh_if91 A ALPHA INCX INCY KX KY LDA M N NOCONJ TRANS X Y (F := F)).run = Haxx.hgemvzh_if91 A ALPHA INCX INCY KX KY LDA M N NOCONJ TRANS X Y (F := F) := by
  simp only [Thr.hgemvzh_if91, Haxx.hgemvzh_if91, thr]

/-- As `Haxx.hgemvzh`, `src/hblas/fortran/hblas2/hgemvzh.f:9-180`. -/
def hgemvzh (TRANS : Char) (M : Int) (N : Int) (ALPHA : Cplx F) (A : Int) (LDA : Int) (X : Int) (INCX : Int) (BETA : Quat F) (Y : Int) (INCY : Int) : Prog F (Unit) := do
  let NOCONJ : Bool := lsame 'T' TRANS
  let r ← (do
    if lsame 'T' TRANS then
      let LENX : Int := N
      let LENY : Int := M
      pure (LENX, LENY)
    else
      let LENX : Int := M
      let LENY : Int := N
      pure (LENX, LENY) : Prog F (Int × Int))
  let LENX : Int := r.1
  let LENY : Int := r.2
  let AZERO : Bool := Cplx.feq ALPHA (⟨zero, zero⟩ : Cplx F)
  -- AONE (line 35) is never read
  let BZERO : Bool := (Cplx.feq (Quat.lo BETA) (⟨zero, zero⟩ : Cplx F)) && (Cplx.feq (Quat.hi BETA) (⟨zero, zero⟩ : Cplx F))
  let BONE : Bool := (Cplx.feq (Quat.lo BETA) (⟨one, zero⟩ : Cplx F)) && (Cplx.feq (Quat.hi BETA) (⟨zero, zero⟩ : Cplx F))
  if ((decide (M = 0)) || (decide (N = 0))) || (AZERO && BONE) then
    pure ()
  else
    let r ← (do
      if decide (INCX > 0) then
        let KX : Int := 1
        pure KX
      else
        let KX : Int := 1 - (LENX - 1) * INCX
        pure KX : Prog F (Int))
    let KX : Int := r
    let r ← (do
      if decide (INCY > 0) then
        let KY : Int := 1
        pure KY
      else
        let KY : Int := 1 - (LENY - 1) * INCY
        pure KY : Prog F (Int))
    let KY : Int := r
    hgemvzh_if56 BETA BONE BZERO INCY KY LENY Y
    if AZERO then
      pure ()
    else
      hgemvzh_if91 A ALPHA INCX INCY KX KY LDA M N NOCONJ TRANS X Y
      pure ()

@[thr] theorem run_hgemvzh (TRANS : Char) (M : Int) (N : Int) (ALPHA : Cplx F) (A : Int) (LDA : Int) (X : Int) (INCX : Int) (BETA : Quat F) (Y : Int) (INCY : Int) :
    (Thr.hgemvzh TRANS M N ALPHA A LDA X INCX BETA Y INCY (F := F)).run = Haxx.hgemvzh TRANS M N ALPHA A LDA X INCX BETA Y INCY (F := F) := by
  simp only [Thr.hgemvzh, Haxx.hgemvzh, thr]

-- end of FGemvzh

variable {F : Type} [Arith F] [ArithEq F]
/-- As `Haxx.hgemvhd_10_I`, `src/hblas/fortran/hblas2/hgemvhd.f:61-64`, body of `DO 10 I`. -/
def hgemvhd_10_I (Y : Int) (I : Int)  : Prog F (Unit) := do
  wrC (el2 2 2 Y 1 I) (⟨zero, zero⟩ : Cplx F)
  wrC (el2 2 2 Y 2 I) (⟨zero, zero⟩ : Cplx F)
  pure ()

@[thr] theorem run_hgemvhd_10_I (Y : Int) (I : Int) :
    (Thr.hgemvhd_10_I Y I (F := F)).run = Haxx.hgemvhd_10_I Y I (F := F) := by
  simp only [Thr.hgemvhd_10_I, Haxx.hgemvhd_10_I, thr]

/-- As `Haxx.hgemvhd_20_I`, `src/hblas/fortran/hblas2/hgemvhd.f:66-69`, body of `DO 20 I`. -/
def hgemvhd_20_I (BETA : F) (Y : Int) (I : Int)  : Prog F (Unit) := do
  let t1 ← rdC (el2 2 2 Y 1 I)
  wrC (el2 2 2 Y 1 I) (Cplx.ofReal BETA *ᶜ t1)
  let t2 ← rdC (el2 2 2 Y 2 I)
  wrC (el2 2 2 Y 2 I) (Cplx.ofReal BETA *ᶜ t2)
  pure ()

@[thr] theorem run_hgemvhd_20_I (BETA : F) (Y : Int) (I : Int) :
    (Thr.hgemvhd_20_I BETA Y I (F := F)).run = Haxx.hgemvhd_20_I BETA Y I (F := F) := by
  simp only [Thr.hgemvhd_20_I, Haxx.hgemvhd_20_I, thr]

/-- As `Haxx.hgemvhd_if60`, `src/hblas/fortran/hblas2/hgemvhd.f:60-70`. -/
def hgemvhd_if60 (BETA : F) (BZERO : Bool) (LENY : Int) (Y : Int) : Prog F (Unit) := do
  if BZERO then
    forN (LENY).toNat (fun i => hgemvhd_10_I Y ((i : Int) + 1))
    pure ()
  else
    forN (LENY).toNat (fun i => hgemvhd_20_I BETA Y ((i : Int) + 1))
    pure ()

@[thr] theorem run_hgemvhd_if60 (BETA : F) (BZERO : Bool) (LENY : Int) (Y : Int) :
    (Thr.hgemvhd_if60 BETA BZERO LENY Y (F := F)).run = Haxx.hgemvhd_if60 BETA BZERO LENY Y (F := F) := by
  simp only [Thr.hgemvhd_if60, Haxx.hgemvhd_if60, thr]

/-- As `Haxx.hgemvhd_30_I`, `src/hblas/fortran/hblas2/hgemvhd.f:74-78`, body of `DO 30 I`. -/
def hgemvhd_30_I (INCY : Int) (Y : Int) (I : Int) (IY : Int) : Prog F (Int) := do
  wrC (el2 2 2 Y 1 IY) (⟨zero, zero⟩ : Cplx F)
  wrC (el2 2 2 Y 2 IY) (⟨zero, zero⟩ : Cplx F)
  let IY : Int := IY + INCY
  pure IY

@[thr] theorem run_hgemvhd_30_I (INCY : Int) (Y : Int) (I : Int) (IY : Int) :
    (Thr.hgemvhd_30_I INCY Y I IY (F := F)).run = Haxx.hgemvhd_30_I INCY Y I IY (F := F) := by
  simp only [Thr.hgemvhd_30_I, Haxx.hgemvhd_30_I, thr]

/-- As `Haxx.hgemvhd_40_I`, `src/hblas/fortran/hblas2/hgemvhd.f:80-84`, body of `DO 40 I`. -/
def hgemvhd_40_I (BETA : F) (INCY : Int) (Y : Int) (I : Int) (IY : Int) : Prog F (Int) := do
  let t1 ← rdC (el2 2 2 Y 1 IY)
  wrC (el2 2 2 Y 1 IY) (Cplx.ofReal BETA *ᶜ t1)
  let t2 ← rdC (el2 2 2 Y 2 IY)
  wrC (el2 2 2 Y 2 IY) (Cplx.ofReal BETA *ᶜ t2)
  let IY : Int := IY + INCY
  pure IY

@[thr] theorem run_hgemvhd_40_I (BETA : F) (INCY : Int) (Y : Int) (I : Int) (IY : Int) :
    (Thr.hgemvhd_40_I BETA INCY Y I IY (F := F)).run = Haxx.hgemvhd_40_I BETA INCY Y I IY (F := F) := by
  simp only [Thr.hgemvhd_40_I, Haxx.hgemvhd_40_I, thr]

/-- As `Haxx.hgemvhd_if73`, `src/hblas/fortran/hblas2/hgemvhd.f:73-85`. -/
def hgemvhd_if73 (BETA : F) (BZERO : Bool) (INCY : Int) (IY : Int) (LENY : Int) (Y : Int) : Prog F (Unit) := do
  if BZERO then
    let r ← foldN (LENY).toNat (fun i (s : Int) => hgemvhd_30_I INCY Y ((i : Int) + 1) s) IY
    pure ()
  else
    let r ← foldN (LENY).toNat (fun i (s : Int) => hgemvhd_40_I BETA INCY Y ((i : Int) + 1) s) IY
    pure ()

@[thr] theorem run_hgemvhd_if73 (BETA : F) (BZERO : Bool) (INCY : Int) (IY : Int) (LENY : Int) (Y : Int) :
    (Thr.hgemvhd_if73 BETA BZERO INCY IY LENY Y (F := F)).run = Haxx.hgemvhd_if73 BETA BZERO INCY IY LENY Y (F := F) := by
  simp only [Thr.hgemvhd_if73, Haxx.hgemvhd_if73, thr]

/-- As `Haxx.hgemvhd_if59`, `src/hblas/fortran/hblas2/hgemvhd.f:59-86`. -/
def hgemvhd_if59 (BETA : F) (BZERO : Bool) (INCY : Int) (KY : Int) (LENY : Int) (Y : Int) : Prog F (Unit) := do
  if decide (INCY = 1) then
    hgemvhd_if60 BETA BZERO LENY Y
    pure ()
  else
    let IY : Int := KY
    hgemvhd_if73 BETA BZERO INCY IY LENY Y
    pure ()

@[thr] theorem run_hgemvhd_if59 (BETA : F) (BZERO : Bool) (INCY : Int) (KY : Int) (LENY : Int) (Y : Int) :
    (Thr.hgemvhd_if59 BETA BZERO INCY KY LENY Y (F := F)).run = Haxx.hgemvhd_if59 BETA BZERO INCY KY LENY Y (F := F) := by
  simp only [Thr.hgemvhd_if59, Haxx.hgemvhd_if59, thr]

/-- As `Haxx.hgemvhd_if58`, `src/hblas/fortran/hblas2/hgemvhd.f:58-87`. -/
def hgemvhd_if58 (BETA : F) (BONE : Bool) (BZERO : Bool) (INCY : Int) (KY : Int) (LENY : Int) (Y : Int) : Prog F (Unit) := do
  if !BONE then
    hgemvhd_if59 BETA BZERO INCY KY LENY Y
    pure ()
  else
    pure ()

@[thr] theorem run_hgemvhd_if58 (BETA : F) (BONE : Bool) (BZERO : Bool) (INCY : Int) (KY : Int) (LENY : Int) (Y : Int) :
    (Thr.hgemvhd_if58 BETA BONE BZERO INCY KY LENY Y (F := F)).run = Haxx.hgemvhd_if58 BETA BONE BZERO INCY KY LENY Y (F := F) := by
  simp only [Thr.hgemvhd_if58, Haxx.hgemvhd_if58, thr]

/-- As `Haxx.hgemvhd_50_I`, `src/hblas/fortran/hblas2/hgemvhd.f:103-111`, body of `DO 50 I`. -/
def hgemvhd_50_I (A : Int) (HTMP1J : Cplx F) (HTMP1S : Cplx F) (HTMP2J : Cplx F) (HTMP2S : Cplx F) (HTMP3J : Cplx F) (HTMP3S : Cplx F) (HTMP4J : Cplx F) (HTMP4S : Cplx F) (J : Int) (LDA : Int) (Y : Int) (I : Int)  : Prog F (Unit) := do
  let t1 ← rdC (el2 2 2 Y 1 I)
  let t2 ← rdC (el3 2 2 LDA A 1 I J)
  let t3 ← rdC (el3 2 2 LDA A 2 I J)
  let t4 ← rdC (el3 2 2 LDA A 1 I J)
  let t5 ← rdC (el3 2 2 LDA A 2 I J)
  wrC (el2 2 2 Y 1 I) (t1 +ᶜ t2 *ᶜ HTMP1S -ᶜ t3 *ᶜ HTMP2J -ᶜ Cplx.conj t4 *ᶜ HTMP4J -ᶜ Cplx.conj t5 *ᶜ HTMP3S)
  let t6 ← rdC (el2 2 2 Y 2 I)
  let t7 ← rdC (el3 2 2 LDA A 1 I J)
  let t8 ← rdC (el3 2 2 LDA A 2 I J)
  let t9 ← rdC (el3 2 2 LDA A 1 I J)
  let t10 ← rdC (el3 2 2 LDA A 2 I J)
  wrC (el2 2 2 Y 2 I) (t6 +ᶜ t7 *ᶜ HTMP1J +ᶜ t8 *ᶜ HTMP2S +ᶜ Cplx.conj t9 *ᶜ HTMP4S -ᶜ Cplx.conj t10 *ᶜ HTMP3J)
  pure ()

@[thr] theorem run_hgemvhd_50_I (A : Int) (HTMP1J : Cplx F) (HTMP1S : Cplx F) (HTMP2J : Cplx F) (HTMP2S : Cplx F) (HTMP3J : Cplx F) (HTMP3S : Cplx F) (HTMP4J : Cplx F) (HTMP4S : Cplx F) (J : Int) (LDA : Int) (Y : Int) (I : Int) :
    (Thr.hgemvhd_50_I A HTMP1J HTMP1S HTMP2J HTMP2S HTMP3J HTMP3S HTMP4J HTMP4S J LDA Y I (F := F)).run = Haxx.hgemvhd_50_I A HTMP1J HTMP1S HTMP2J HTMP2S HTMP3J HTMP3S HTMP4J HTMP4S J LDA Y I (F := F) := by
  simp only [Thr.hgemvhd_50_I, Haxx.hgemvhd_50_I, thr]

/-- As `Haxx.hgemvhd_60_J`, `src/hblas/fortran/hblas2/hgemvhd.f:94-113`, body of `DO 60 J`. -/
def hgemvhd_60_J (A : Int) (ALPHA : Quat F) (INCX : Int) (LDA : Int) (M : Int) (X : Int) (Y : Int) (J : Int) (JX : Int) : Prog F (Int) := do
  let t1 ← rdC (el2 2 2 X 1 JX)
  let HTMP1S : Cplx F := Quat.lo ALPHA *ᶜ t1
  let t2 ← rdC (el2 2 2 X 2 JX)
  let HTMP1J : Cplx F := Quat.lo ALPHA *ᶜ t2
  let t3 ← rdC (el2 2 2 X 1 JX)
  let HTMP2S : Cplx F := Quat.lo ALPHA *ᶜ Cplx.conj t3
  let t4 ← rdC (el2 2 2 X 2 JX)
  let HTMP2J : Cplx F := Quat.lo ALPHA *ᶜ Cplx.conj t4
  let t5 ← rdC (el2 2 2 X 1 JX)
  let HTMP3S : Cplx F := Quat.hi ALPHA *ᶜ t5
  let t6 ← rdC (el2 2 2 X 2 JX)
  let HTMP3J : Cplx F := Quat.hi ALPHA *ᶜ t6
  let t7 ← rdC (el2 2 2 X 1 JX)
  let HTMP4S : Cplx F := Quat.hi ALPHA *ᶜ Cplx.conj t7
  let t8 ← rdC (el2 2 2 X 2 JX)
  let HTMP4J : Cplx F := Quat.hi ALPHA *ᶜ Cplx.conj t8
  forN (M).toNat (fun i => hgemvhd_50_I A HTMP1J HTMP1S HTMP2J HTMP2S HTMP3J HTMP3S HTMP4J HTMP4S J LDA Y ((i : Int) + 1))
  let JX : Int := JX + INCX
  pure JX

@[thr] theorem run_hgemvhd_60_J (A : Int) (ALPHA : Quat F) (INCX : Int) (LDA : Int) (M : Int) (X : Int) (Y : Int) (J : Int) (JX : Int) :
    (Thr.hgemvhd_60_J A ALPHA INCX LDA M X Y J JX (F := F)).run = Haxx.hgemvhd_60_J A ALPHA INCX LDA M X Y J JX (F := F) := by
  simp only [Thr.hgemvhd_60_J, Haxx.hgemvhd_60_J, thr]

/-- As `Haxx.hgemvhd_70_I`, `src/hblas/fortran/hblas2/hgemvhd.f:125-134`, body of `DO 70 I`. -/
def hgemvhd_70_I (A : Int) (HTMP1J : Cplx F) (HTMP1S : Cplx F) (HTMP2J : Cplx F) (HTMP2S : Cplx F) (HTMP3J : Cplx F) (HTMP3S : Cplx F) (HTMP4J : Cplx F) (HTMP4S : Cplx F) (INCY : Int) (J : Int) (LDA : Int) (Y : Int) (I : Int) (IY : Int) : Prog F (Int) := do
  let t1 ← rdC (el2 2 2 Y 1 IY)
  let t2 ← rdC (el3 2 2 LDA A 1 I J)
  let t3 ← rdC (el3 2 2 LDA A 2 I J)
  let t4 ← rdC (el3 2 2 LDA A 1 I J)
  let t5 ← rdC (el3 2 2 LDA A 2 I J)
  wrC (el2 2 2 Y 1 IY) (t1 +ᶜ t2 *ᶜ HTMP1S -ᶜ t3 *ᶜ HTMP2J -ᶜ Cplx.conj t4 *ᶜ HTMP4J -ᶜ Cplx.conj t5 *ᶜ HTMP3S)
  let t6 ← rdC (el2 2 2 Y 2 IY)
  let t7 ← rdC (el3 2 2 LDA A 1 I J)
  let t8 ← rdC (el3 2 2 LDA A 2 I J)
  let t9 ← rdC (el3 2 2 LDA A 1 I J)
  let t10 ← rdC (el3 2 2 LDA A 2 I J)
  wrC (el2 2 2 Y 2 IY) (t6 +ᶜ t7 *ᶜ HTMP1J +ᶜ t8 *ᶜ Cplx.conj HTMP2S +ᶜ Cplx.conj t9 *ᶜ HTMP4S -ᶜ Cplx.conj t10 *ᶜ HTMP3J)
  let IY : Int := IY + INCY
  pure IY

@[thr] theorem run_hgemvhd_70_I (A : Int) (HTMP1J : Cplx F) (HTMP1S : Cplx F) (HTMP2J : Cplx F) (HTMP2S : Cplx F) (HTMP3J : Cplx F) (HTMP3S : Cplx F) (HTMP4J : Cplx F) (HTMP4S : Cplx F) (INCY : Int) (J : Int) (LDA : Int) (Y : Int) (I : Int) (IY : Int) :
    (Thr.hgemvhd_70_I A HTMP1J HTMP1S HTMP2J HTMP2S HTMP3J HTMP3S HTMP4J HTMP4S INCY J LDA Y I IY (F := F)).run = Haxx.hgemvhd_70_I A HTMP1J HTMP1S HTMP2J HTMP2S HTMP3J HTMP3S HTMP4J HTMP4S INCY J LDA Y I IY (F := F) := by
  simp only [Thr.hgemvhd_70_I, Haxx.hgemvhd_70_I, thr]

/-- As `Haxx.hgemvhd_80_J`, `src/hblas/fortran/hblas2/hgemvhd.f:115-136`, body of `DO 80 J`. -/
def hgemvhd_80_J (A : Int) (ALPHA : Quat F) (INCX : Int) (INCY : Int) (KY : Int) (LDA : Int) (M : Int) (X : Int) (Y : Int) (J : Int) (JX : Int) : Prog F (Int) := do
  let t1 ← rdC (el2 2 2 X 1 JX)
  let HTMP1S : Cplx F := Quat.lo ALPHA *ᶜ t1
  let t2 ← rdC (el2 2 2 X 2 JX)
  let HTMP1J : Cplx F := Quat.lo ALPHA *ᶜ t2
  let t3 ← rdC (el2 2 2 X 1 JX)
  let HTMP2S : Cplx F := Quat.lo ALPHA *ᶜ Cplx.conj t3
  let t4 ← rdC (el2 2 2 X 2 JX)
  let HTMP2J : Cplx F := Quat.lo ALPHA *ᶜ Cplx.conj t4
  let t5 ← rdC (el2 2 2 X 1 JX)
  let HTMP3S : Cplx F := Quat.hi ALPHA *ᶜ t5
  let t6 ← rdC (el2 2 2 X 2 JX)
  let HTMP3J : Cplx F := Quat.hi ALPHA *ᶜ t6
  let t7 ← rdC (el2 2 2 X 1 JX)
  let HTMP4S : Cplx F := Quat.hi ALPHA *ᶜ Cplx.conj t7
  let t8 ← rdC (el2 2 2 X 2 JX)
  let HTMP4J : Cplx F := Quat.hi ALPHA *ᶜ Cplx.conj t8
  let IY : Int := KY
  let r ← foldN (M).toNat (fun i (s : Int) => hgemvhd_70_I A HTMP1J HTMP1S HTMP2J HTMP2S HTMP3J HTMP3S HTMP4J HTMP4S INCY J LDA Y ((i : Int) + 1) s) IY
  let JX : Int := JX + INCX
  pure JX

@[thr] theorem run_hgemvhd_80_J (A : Int) (ALPHA : Quat F) (INCX : Int) (INCY : Int) (KY : Int) (LDA : Int) (M : Int) (X : Int) (Y : Int) (J : Int) (JX : Int) :
    (Thr.hgemvhd_80_J A ALPHA INCX INCY KY LDA M X Y J JX (F := F)).run = Haxx.hgemvhd_80_J A ALPHA INCX INCY KY LDA M X Y J JX (F := F) := by
  simp only [Thr.hgemvhd_80_J, Haxx.hgemvhd_80_J, thr]

/-- As `Haxx.hgemvhd_if93`, `src/hblas/fortran/hblas2/hgemvhd.f:93-137`. -/
def hgemvhd_if93 (A : Int) (ALPHA : Quat F) (INCX : Int) (INCY : Int) (JX : Int) (KY : Int) (LDA : Int) (M : Int) (N : Int) (X : Int) (Y : Int) : Prog F (Unit) := do
  if decide (INCY = 1) then
    let r ← foldN (N).toNat (fun i (s : Int) => hgemvhd_60_J A ALPHA INCX LDA M X Y ((i : Int) + 1) s) JX
    pure ()
  else
    let r ← foldN (N).toNat (fun i (s : Int) => hgemvhd_80_J A ALPHA INCX INCY KY LDA M X Y ((i : Int) + 1) s) JX
    pure ()

@[thr] theorem run_hgemvhd_if93 (A : Int) (ALPHA : Quat F) (INCX : Int) (INCY : Int) (JX : Int) (KY : Int) (LDA : Int) (M : Int) (N : Int) (X : Int) (Y : Int) :
    (Thr.hgemvhd_if93 A ALPHA INCX INCY JX KY LDA M N X Y (F := F)).run = Haxx.hgemvhd_if93 A ALPHA INCX INCY JX KY LDA M N X Y (F := F) := by
  simp only [Thr.hgemvhd_if93, Haxx.hgemvhd_if93, thr]

/-- As `Haxx.hgemvhd_90_I`, `src/hblas/fortran/hblas2/hgemvhd.f:145-151`, body of `DO 90 I`. -/
def hgemvhd_90_I (A : Int) (J : Int) (LDA : Int) (X : Int) (I : Int) (HTMP1J : Cplx F) (HTMP1S : Cplx F) : Prog F (Cplx F × Cplx F) := do
  let t1 ← rdC (el3 2 2 LDA A 1 I J)
  let t2 ← rdC (el2 2 2 X 1 I)
  let t3 ← rdC (el3 2 2 LDA A 2 I J)
  let t4 ← rdC (el2 2 2 X 2 I)
  let HTMP1S : Cplx F := HTMP1S +ᶜ t1 *ᶜ t2 -ᶜ t3 *ᶜ Cplx.conj t4
  let t5 ← rdC (el3 2 2 LDA A 1 I J)
  let t6 ← rdC (el2 2 2 X 2 I)
  let t7 ← rdC (el3 2 2 LDA A 2 I J)
  let t8 ← rdC (el2 2 2 X 1 I)
  let HTMP1J : Cplx F := HTMP1J +ᶜ t5 *ᶜ t6 +ᶜ t7 *ᶜ Cplx.conj t8
  pure (HTMP1J, HTMP1S)

@[thr] theorem run_hgemvhd_90_I (A : Int) (J : Int) (LDA : Int) (X : Int) (I : Int) (HTMP1J : Cplx F) (HTMP1S : Cplx F) :
    (Thr.hgemvhd_90_I A J LDA X I HTMP1J HTMP1S (F := F)).run = Haxx.hgemvhd_90_I A J LDA X I HTMP1J HTMP1S (F := F) := by
  simp only [Thr.hgemvhd_90_I, Haxx.hgemvhd_90_I, thr]

/-- As `Haxx.hgemvhd_100_I`, `src/hblas/fortran/hblas2/hgemvhd.f:153-159`, body of `DO 100 I`. -/
def hgemvhd_100_I (A : Int) (J : Int) (LDA : Int) (X : Int) (I : Int) (HTMP1J : Cplx F) (HTMP1S : Cplx F) : Prog F (Cplx F × Cplx F) := do
  let t1 ← rdC (el3 2 2 LDA A 1 I J)
  let t2 ← rdC (el2 2 2 X 1 I)
  let t3 ← rdC (el3 2 2 LDA A 2 I J)
  let t4 ← rdC (el2 2 2 X 2 I)
  let HTMP1S : Cplx F := HTMP1S +ᶜ Cplx.conj t1 *ᶜ t2 +ᶜ t3 *ᶜ Cplx.conj t4
  let t5 ← rdC (el3 2 2 LDA A 1 I J)
  let t6 ← rdC (el2 2 2 X 2 I)
  let t7 ← rdC (el3 2 2 LDA A 2 I J)
  let t8 ← rdC (el2 2 2 X 1 I)
  let HTMP1J : Cplx F := HTMP1J +ᶜ Cplx.conj t5 *ᶜ t6 -ᶜ t7 *ᶜ Cplx.conj t8
  pure (HTMP1J, HTMP1S)

@[thr] theorem run_hgemvhd_100_I (A : Int) (J : Int) (LDA : Int) (X : Int) (I : Int) (HTMP1J : Cplx F) (HTMP1S : Cplx F) :
    (Thr.hgemvhd_100_I A J LDA X I HTMP1J HTMP1S (F := F)).run = Haxx.hgemvhd_100_I A J LDA X I HTMP1J HTMP1S (F := F) := by
  simp only [Thr.hgemvhd_100_I, Haxx.hgemvhd_100_I, thr]

/-- As `Haxx.hgemvhd_if144`, `src/hblas/fortran/hblas2/hgemvhd.f:144-160`. -/
def hgemvhd_if144 (A : Int) (HTMP1J : Cplx F) (HTMP1S : Cplx F) (J : Int) (LDA : Int) (M : Int) (NOCONJ : Bool) (X : Int) : Prog F (Cplx F × Cplx F) := do
  if NOCONJ then
    let r ← foldN (M).toNat (fun i (s : Cplx F × Cplx F) => hgemvhd_90_I A J LDA X ((i : Int) + 1) s.1 s.2) (HTMP1J, HTMP1S)
    let HTMP1J : Cplx F := r.1
    let HTMP1S : Cplx F := r.2
    pure (HTMP1J, HTMP1S)
  else
    let r ← foldN (M).toNat (fun i (s : Cplx F × Cplx F) => hgemvhd_100_I A J LDA X ((i : Int) + 1) s.1 s.2) (HTMP1J, HTMP1S)
    let HTMP1J : Cplx F := r.1
    let HTMP1S : Cplx F := r.2
    pure (HTMP1J, HTMP1S)

@[thr] theorem run_hgemvhd_if144 (A : Int) (HTMP1J : Cplx F) (HTMP1S : Cplx F) (J : Int) (LDA : Int) (M : Int) (NOCONJ : Bool) (X : Int) :
    (Thr.hgemvhd_if144 A HTMP1J HTMP1S J LDA M NOCONJ X (F := F)).run = Haxx.hgemvhd_if144 A HTMP1J HTMP1S J LDA M NOCONJ X (F := F) := by
  simp only [Thr.hgemvhd_if144, Haxx.hgemvhd_if144, thr]

/-- As `Haxx.hgemvhd_110_J`, `src/hblas/fortran/hblas2/hgemvhd.f:141-164`, body of `DO 110 J`. -/
def hgemvhd_110_J (A : Int) (ALPHA : Quat F) (INCY : Int) (LDA : Int) (M : Int) (NOCONJ : Bool) (X : Int) (Y : Int) (J : Int) (JY : Int) : Prog F (Int) := do
  let HTMP1S : Cplx F := (⟨zero, zero⟩ : Cplx F)
  let HTMP1J : Cplx F := (⟨zero, zero⟩ : Cplx F)
  let r ← hgemvhd_if144 A HTMP1J HTMP1S J LDA M NOCONJ X
  let HTMP1J : Cplx F := r.1
  let HTMP1S : Cplx F := r.2
  let t1 ← rdC (el2 2 2 Y 1 JY)
  wrC (el2 2 2 Y 1 JY) (t1 +ᶜ Quat.lo ALPHA *ᶜ HTMP1S -ᶜ Quat.hi ALPHA *ᶜ Cplx.conj HTMP1J)
  let t2 ← rdC (el2 2 2 Y 2 JY)
  wrC (el2 2 2 Y 2 JY) (t2 +ᶜ Quat.lo ALPHA *ᶜ HTMP1J +ᶜ Quat.hi ALPHA *ᶜ Cplx.conj HTMP1S)
  let JY : Int := JY + INCY
  pure JY

@[thr] theorem run_hgemvhd_110_J (A : Int) (ALPHA : Quat F) (INCY : Int) (LDA : Int) (M : Int) (NOCONJ : Bool) (X : Int) (Y : Int) (J : Int) (JY : Int) :
    (Thr.hgemvhd_110_J A ALPHA INCY LDA M NOCONJ X Y J JY (F := F)).run = Haxx.hgemvhd_110_J A ALPHA INCY LDA M NOCONJ X Y J JY (F := F) := by
  simp only [Thr.hgemvhd_110_J, Haxx.hgemvhd_110_J, thr]

/-- As `Haxx.hgemvhd_120_I`, `src/hblas/fortran/hblas2/hgemvhd.f:171-178`, body of `DO 120 I`. -/
def hgemvhd_120_I (A : Int) (INCX : Int) (J : Int) (LDA : Int) (X : Int) (I : Int) (HTMP1J : Cplx F) (HTMP1S : Cplx F) (IX : Int) : Prog F (Cplx F × Cplx F × Int) := do
  let t1 ← rdC (el3 2 2 LDA A 1 I J)
  let t2 ← rdC (el2 2 2 X 1 IX)
  let t3 ← rdC (el3 2 2 LDA A 2 I J)
  let t4 ← rdC (el2 2 2 X 2 IX)
  let HTMP1S : Cplx F := HTMP1S +ᶜ t1 *ᶜ t2 -ᶜ t3 *ᶜ Cplx.conj t4
  let t5 ← rdC (el3 2 2 LDA A 1 I J)
  let t6 ← rdC (el2 2 2 X 2 IX)
  let t7 ← rdC (el3 2 2 LDA A 2 I J)
  let t8 ← rdC (el2 2 2 X 1 IX)
  let HTMP1J : Cplx F := HTMP1J +ᶜ t5 *ᶜ t6 +ᶜ t7 *ᶜ Cplx.conj t8
  let IX : Int := IX + INCX
  pure (HTMP1J, HTMP1S, IX)

@[thr] theorem run_hgemvhd_120_I (A : Int) (INCX : Int) (J : Int) (LDA : Int) (X : Int) (I : Int) (HTMP1J : Cplx F) (HTMP1S : Cplx F) (IX : Int) :
    (Thr.hgemvhd_120_I A INCX J LDA X I HTMP1J HTMP1S IX (F := F)).run = Haxx.hgemvhd_120_I A INCX J LDA X I HTMP1J HTMP1S IX (F := F) := by
  simp only [Thr.hgemvhd_120_I, Haxx.hgemvhd_120_I, thr]

/-- As `Haxx.hgemvhd_130_I`, `src/hblas/fortran/hblas2/hgemvhd.f:180-187`, body of `DO 130 I`. -/
def hgemvhd_130_I (A : Int) (INCX : Int) (J : Int) (LDA : Int) (X : Int) (I : Int) (HTMP1J : Cplx F) (HTMP1S : Cplx F) (IX : Int) : Prog F (Cplx F × Cplx F × Int) := do
  let t1 ← rdC (el3 2 2 LDA A 1 I J)
  let t2 ← rdC (el2 2 2 X 1 IX)
  let t3 ← rdC (el3 2 2 LDA A 2 I J)
  let t4 ← rdC (el2 2 2 X 2 IX)
  let HTMP1S : Cplx F := HTMP1S +ᶜ Cplx.conj t1 *ᶜ t2 +ᶜ t3 *ᶜ Cplx.conj t4
  let t5 ← rdC (el3 2 2 LDA A 1 I J)
  let t6 ← rdC (el2 2 2 X 2 IX)
  let t7 ← rdC (el3 2 2 LDA A 2 I J)
  let t8 ← rdC (el2 2 2 X 1 IX)
  let HTMP1J : Cplx F := HTMP1J +ᶜ Cplx.conj t5 *ᶜ t6 -ᶜ t7 *ᶜ Cplx.conj t8
  let IX : Int := IX + INCX
  pure (HTMP1J, HTMP1S, IX)

@[thr] theorem run_hgemvhd_130_I (A : Int) (INCX : Int) (J : Int) (LDA : Int) (X : Int) (I : Int) (HTMP1J : Cplx F) (HTMP1S : Cplx F) (IX : Int) :
    (Thr.hgemvhd_130_I A INCX J LDA X I HTMP1J HTMP1S IX (F := F)).run = Haxx.hgemvhd_130_I A INCX J LDA X I HTMP1J HTMP1S IX (F := F) := by
  simp only [Thr.hgemvhd_130_I, Haxx.hgemvhd_130_I, thr]

/-- As `Haxx.hgemvhd_if170`, `src/hblas/fortran/hblas2/hgemvhd.f:170-188`. -/
def hgemvhd_if170 (A : Int) (HTMP1J : Cplx F) (HTMP1S : Cplx F) (INCX : Int) (IX : Int) (J : Int) (LDA : Int) (M : Int) (NOCONJ : Bool) (X : Int) : Prog F (Cplx F × Cplx F) := do
  if NOCONJ then
    let r ← foldN (M).toNat (fun i (s : Cplx F × Cplx F × Int) => hgemvhd_120_I A INCX J LDA X ((i : Int) + 1) s.1 s.2.1 s.2.2) (HTMP1J, HTMP1S, IX)
    let HTMP1J : Cplx F := r.1
    let HTMP1S : Cplx F := r.2.1
    pure (HTMP1J, HTMP1S)
  else
    let r ← foldN (M).toNat (fun i (s : Cplx F × Cplx F × Int) => hgemvhd_130_I A INCX J LDA X ((i : Int) + 1) s.1 s.2.1 s.2.2) (HTMP1J, HTMP1S, IX)
    let HTMP1J : Cplx F := r.1
    let HTMP1S : Cplx F := r.2.1
    pure (HTMP1J, HTMP1S)

@[thr] theorem run_hgemvhd_if170 (A : Int) (HTMP1J : Cplx F) (HTMP1S : Cplx F) (INCX : Int) (IX : Int) (J : Int) (LDA : Int) (M : Int) (NOCONJ : Bool) (X : Int) :
    (Thr.hgemvhd_if170 A HTMP1J HTMP1S INCX IX J LDA M NOCONJ X (F := F)).run = Haxx.hgemvhd_if170 A HTMP1J HTMP1S INCX IX J LDA M NOCONJ X (F := F) := by
  simp only [Thr.hgemvhd_if170, Haxx.hgemvhd_if170, thr]

/-- As `Haxx.hgemvhd_140_J`, `src/hblas/fortran/hblas2/hgemvhd.f:166-192`, body of `DO 140 J`. -/
def hgemvhd_140_J (A : Int) (ALPHA : Quat F) (INCX : Int) (INCY : Int) (KX : Int) (LDA : Int) (M : Int) (NOCONJ : Bool) (X : Int) (Y : Int) (J : Int) (JY : Int) : Prog F (Int) := do
  let HTMP1S : Cplx F := (⟨zero, zero⟩ : Cplx F)
  let HTMP1J : Cplx F := (⟨zero, zero⟩ : Cplx F)
  let IX : Int := KX
  let r ← hgemvhd_if170 A HTMP1J HTMP1S INCX IX J LDA M NOCONJ X
  let HTMP1J : Cplx F := r.1
  let HTMP1S : Cplx F := r.2
  let t1 ← rdC (el2 2 2 Y 1 JY)
  wrC (el2 2 2 Y 1 JY) (t1 +ᶜ Quat.lo ALPHA *ᶜ HTMP1S -ᶜ Quat.hi ALPHA *ᶜ Cplx.conj HTMP1J)
  let t2 ← rdC (el2 2 2 Y 2 JY)
  wrC (el2 2 2 Y 2 JY) (t2 +ᶜ Quat.lo ALPHA *ᶜ HTMP1J +ᶜ Quat.hi ALPHA *ᶜ Cplx.conj HTMP1S)
  let JY : Int := JY + INCY
  pure JY

@[thr] theorem run_hgemvhd_140_J (A : Int) (ALPHA : Quat F) (INCX : Int) (INCY : Int) (KX : Int) (LDA : Int) (M : Int) (NOCONJ : Bool) (X : Int) (Y : Int) (J : Int) (JY : Int) :
    (Thr.hgemvhd_140_J A ALPHA INCX INCY KX LDA M NOCONJ X Y J JY (F := F)).run = Haxx.hgemvhd_140_J A ALPHA INCX INCY KX LDA M NOCONJ X Y J JY (F := F) := by
  simp only [Thr.hgemvhd_140_J, Haxx.hgemvhd_140_J, thr]

/-- As `Haxx.hgemvhd_if140`, `src/hblas/fortran/hblas2/hgemvhd.f:140-193`. -/
def hgemvhd_if140 (A : Int) (ALPHA : Quat F) (INCX : Int) (INCY : Int) (JY : Int) (KX : Int) (LDA : Int) (M : Int) (N : Int) (NOCONJ : Bool) (X : Int) (Y : Int) : Prog F (Unit) := do
  if decide (INCX = 1) then
    let r ← foldN (N).toNat (fun i (s : Int) => hgemvhd_110_J A ALPHA INCY LDA M NOCONJ X Y ((i : Int) + 1) s) JY
    pure ()
  else
    let r ← foldN (N).toNat (fun i (s : Int) => hgemvhd_140_J A ALPHA INCX INCY KX LDA M NOCONJ X Y ((i : Int) + 1) s) JY
    pure ()

@[thr] theorem run_hgemvhd_if140 (A : Int) (ALPHA : Quat F) (INCX : Int) (INCY : Int) (JY : Int) (KX : Int) (LDA : Int) (M : Int) (N : Int) (NOCONJ : Bool) (X : Int) (Y : Int) :
    (Thr.hgemvhd_if140 A ALPHA INCX INCY JY KX LDA M N NOCONJ X Y (F := F)).run = Haxx.hgemvhd_if140 A ALPHA INCX INCY JY KX LDA M N NOCONJ X Y (F := F) := by
  simp only [Thr.hgemvhd_if140, Haxx.hgemvhd_if140, thr]

/-- As `Haxx.hgemvhd_if91`, `src/hblas/fortran/hblas2/hgemvhd.f:91-194`. -/
def hgemvhd_if91 (A : Int) (ALPHA : Quat F) (INCX : Int) (INCY : Int) (KX : Int) (KY : Int) (LDA : Int) (M : Int) (N : Int) (NOCONJ : Bool) (TRANS : Char) (X : Int) (Y : Int) : Prog F (Unit) := do
  if lsame TRANS 'N' then
    let JX : Int := KX
    hgemvhd_if93 A ALPHA INCX INCY JX KY LDA M N X Y
    pure ()
  else
    let JY : Int := KY
    hgemvhd_if140 A ALPHA INCX INCY JY KX LDA M N NOCONJ X Y
    pure ()

@[thr] theorem run_hgemvhd_if91 (A : Int) (ALPHA : Quat F) (INCX : Int) (INCY : Int) (KX : Int) (KY : Int) (LDA : Int) (M : Int) (N : Int) (NOCONJ : Bool) (TRANS : Char) (X : Int) (Y : Int) :
    (Thr.hgemvhd_if91 A ALPHA INCX INCY KX KY LDA M N NOCONJ TRANS X Y (F := F)).run = Haxx.hgemvhd_if91 A ALPHA INCX INCY KX KY LDA M N NOCONJ TRANS X Y (F := F) := by
  simp only [Thr.hgemvhd_if91, Haxx.hgemvhd_if91, thr]

/-- As `Haxx.hgemvhd`, `src/hblas/fortran/hblas2/hgemvhd.f:9-196`. -/
def hgemvhd (TRANS : Char) (M : Int) (N : Int) (ALPHA : Quat F) (A : Int) (LDA : Int) (X : Int) (INCX : Int) (BETA : F) (Y : Int) (INCY : Int) : Prog F (Unit) := do
  let NOCONJ : Bool := lsame 'T' TRANS
  let r ← (do
    if lsame 'T' TRANS then
      let LENX : Int := N
      let LENY : Int := M
      pure (LENX, LENY)
    else
      let LENX : Int := M
      let LENY : Int := N
      pure (LENX, LENY) : Prog F (Int × Int))
  let LENX : Int := r.1
  let LENY : Int := r.2
  let AZERO : Bool := (Cplx.feq (Quat.lo ALPHA) (⟨zero, zero⟩ : Cplx F)) && (Cplx.feq (Quat.hi ALPHA) (⟨zero, zero⟩ : Cplx F))
  -- AONE (line 37) is never read
  let BZERO : Bool := Cplx.feq (Cplx.ofReal BETA) (⟨zero, zero⟩ : Cplx F)
  let BONE : Bool := Cplx.feq (Cplx.ofReal BETA) (⟨one, zero⟩ : Cplx F)
  if ((decide (M = 0)) || (decide (N = 0))) || (AZERO && BONE) then
    pure ()
  else
    let r ← (do
      if decide (INCX > 0) then
        let KX : Int := 1
        pure KX
      else
        let KX : Int := 1 - (LENX - 1) * INCX
        pure KX : Prog F (Int))
    let KX : Int := r
    let r ← (do
      if decide (INCY > 0) then
        let KY : Int := 1
        pure KY
      else
        let KY : Int := 1 - (LENY - 1) * INCY
        pure KY : Prog F (Int))
    let KY : Int := r
    hgemvhd_if58 BETA BONE BZERO INCY KY LENY Y
    if AZERO then
      pure ()
    else
      hgemvhd_if91 A ALPHA INCX INCY KX KY LDA M N NOCONJ TRANS X Y
      pure ()

@[thr] theorem run_hgemvhd (TRANS : Char) (M : Int) (N : Int) (ALPHA : Quat F) (A : Int) (LDA : Int) (X : Int) (INCX : Int) (BETA : F) (Y : Int) (INCY : Int) :
    (Thr.hgemvhd TRANS M N ALPHA A LDA X INCX BETA Y INCY (F := F)).run = Haxx.hgemvhd TRANS M N ALPHA A LDA X INCX BETA Y INCY (F := F) := by
  simp only [Thr.hgemvhd, Haxx.hgemvhd, thr]

-- end of FGemvhd

variable {F : Type} [Arith F] [ArithEq F]
/-- As `Haxx.hgemvhz_10_I`, `src/hblas/fortran/hblas2/hgemvhz.f:60-63`, body of `DO 10 I`. -/
def hgemvhz_10_I (Y : Int) (I : Int)  : Prog F (Unit) := do
  wrC (el2 2 2 Y 1 I) (⟨zero, zero⟩ : Cplx F)
  wrC (el2 2 2 Y 2 I) (⟨zero, zero⟩ : Cplx F)
  pure ()

@[thr] theorem run_hgemvhz_10_I (Y : Int) (I : Int) :
    (Thr.hgemvhz_10_I Y I (F := F)).run = Haxx.hgemvhz_10_I Y I (F := F) := by
  simp only [Thr.hgemvhz_10_I, Haxx.hgemvhz_10_I, thr]

/-- As `Haxx.hgemvhz_20_I`, `src/hblas/fortran/hblas2/hgemvhz.f:65-68`, body of `DO 20 I`. -/
def hgemvhz_20_I (BETA : Cplx F) (Y : Int) (I : Int)  : Prog F (Unit) := do
  let t1 ← rdC (el2 2 2 Y 1 I)
  wrC (el2 2 2 Y 1 I) (BETA *ᶜ t1)
  let t2 ← rdC (el2 2 2 Y 2 I)
  wrC (el2 2 2 Y 2 I) (BETA *ᶜ t2)
  pure ()

@[thr] theorem run_hgemvhz_20_I (BETA : Cplx F) (Y : Int) (I : Int) :
    (Thr.hgemvhz_20_I BETA Y I (F := F)).run = Haxx.hgemvhz_20_I BETA Y I (F := F) := by
  simp only [Thr.hgemvhz_20_I, Haxx.hgemvhz_20_I, thr]

/-- As `Haxx.hgemvhz_if59`, `src/hblas/fortran/hblas2/hgemvhz.f:59-69`. -/
def hgemvhz_if59 (BETA : Cplx F) (BZERO : Bool) (LENY : Int) (Y : Int) : Prog F (Unit) := do
  if BZERO then
    forN (LENY).toNat (fun i => hgemvhz_10_I Y ((i : Int) + 1))
    pure ()
  else
    forN (LENY).toNat (fun i => hgemvhz_20_I BETA Y ((i : Int) + 1))
    pure ()

@[thr] theorem run_hgemvhz_if59 (BETA : Cplx F) (BZERO : Bool) (LENY : Int) (Y : Int) :
    (Thr.hgemvhz_if59 BETA BZERO LENY Y (F := F)).run = Haxx.hgemvhz_if59 BETA BZERO LENY Y (F := F) := by
  simp only [Thr.hgemvhz_if59, Haxx.hgemvhz_if59, thr]

/-- As `Haxx.hgemvhz_30_I`, `src/hblas/fortran/hblas2/hgemvhz.f:73-77`, body of `DO 30 I`. -/
def hgemvhz_30_I (INCY : Int) (Y : Int) (I : Int) (IY : Int) : Prog F (Int) := do
  wrC (el2 2 2 Y 1 IY) (⟨zero, zero⟩ : Cplx F)
  wrC (el2 2 2 Y 2 IY) (⟨zero, zero⟩ : Cplx F)
  let IY : Int := IY + INCY
  pure IY

@[thr] theorem run_hgemvhz_30_I (INCY : Int) (Y : Int) (I : Int) (IY : Int) :
    (Thr.hgemvhz_30_I INCY Y I IY (F := F)).run = Haxx.hgemvhz_30_I INCY Y I IY (F := F) := by
  simp only [Thr.hgemvhz_30_I, Haxx.hgemvhz_30_I, thr]

/-- As `Haxx.hgemvhz_40_I`, `src/hblas/fortran/hblas2/hgemvhz.f:79-83`, body of `DO 40 I`. -/
def hgemvhz_40_I (BETA : Cplx F) (INCY : Int) (Y : Int) (I : Int) (IY : Int) : Prog F (Int) := do
  let t1 ← rdC (el2 2 2 Y 1 IY)
  wrC (el2 2 2 Y 1 IY) (BETA *ᶜ t1)
  let t2 ← rdC (el2 2 2 Y 2 IY)
  wrC (el2 2 2 Y 2 IY) (BETA *ᶜ t2)
  let IY : Int := IY + INCY
  pure IY

@[thr] theorem run_hgemvhz_40_I (BETA : Cplx F) (INCY : Int) (Y : Int) (I : Int) (IY : Int) :
    (Thr.hgemvhz_40_I BETA INCY Y I IY (F := F)).run = Haxx.hgemvhz_40_I BETA INCY Y I IY (F := F) := by
  simp only [Thr.hgemvhz_40_I, Haxx.hgemvhz_40_I, thr]

/-- As `Haxx.hgemvhz_if72`, `src/hblas/fortran/hblas2/hgemvhz.f:72-84`. -/
def hgemvhz_if72 (BETA : Cplx F) (BZERO : Bool) (INCY : Int) (IY : Int) (LENY : Int) (Y : Int) : Prog F (Unit) := do
  if BZERO then
    let r ← foldN (LENY).toNat (fun i (s : Int) => hgemvhz_30_I INCY Y ((i : Int) + 1) s) IY
    pure ()
  else
    let r ← foldN (LENY).toNat (fun i (s : Int) => hgemvhz_40_I BETA INCY Y ((i : Int) + 1) s) IY
    pure ()

@[thr] theorem run_hgemvhz_if72 (BETA : Cplx F) (BZERO : Bool) (INCY : Int) (IY : Int) (LENY : Int) (Y : Int) :
    (Thr.hgemvhz_if72 BETA BZERO INCY IY LENY Y (F := F)).run = Haxx.hgemvhz_if72 BETA BZERO INCY IY LENY Y (F := F) := by
  simp only [Thr.hgemvhz_if72, Haxx.hgemvhz_if72, thr]

/-- As `Haxx.hgemvhz_if58`, `src/hblas/fortran/hblas2/hgemvhz.f:58-85`. -/
def hgemvhz_if58 (BETA : Cplx F) (BZERO : Bool) (INCY : Int) (KY : Int) (LENY : Int) (Y : Int) : Prog F (Unit) := do
  if decide (INCY = 1) then
    hgemvhz_if59 BETA BZERO LENY Y
    pure ()
  else
    let IY : Int := KY
    hgemvhz_if72 BETA BZERO INCY IY LENY Y
    pure ()

@[thr] theorem run_hgemvhz_if58 (BETA : Cplx F) (BZERO : Bool) (INCY : Int) (KY : Int) (LENY : Int) (Y : Int) :
    (Thr.hgemvhz_if58 BETA BZERO INCY KY LENY Y (F := F)).run = Haxx.hgemvhz_if58 BETA BZERO INCY KY LENY Y (F := F) := by
  simp only [Thr.hgemvhz_if58, Haxx.hgemvhz_if58, thr]

/-- As `Haxx.hgemvhz_if57`, `src/hblas/fortran/hblas2/hgemvhz.f:57-86`. -/
def hgemvhz_if57 (BETA : Cplx F) (BONE : Bool) (BZERO : Bool) (INCY : Int) (KY : Int) (LENY : Int) (Y : Int) : Prog F (Unit) := do
  if !BONE then
    hgemvhz_if58 BETA BZERO INCY KY LENY Y
    pure ()
  else
    pure ()

@[thr] theorem run_hgemvhz_if57 (BETA : Cplx F) (BONE : Bool) (BZERO : Bool) (INCY : Int) (KY : Int) (LENY : Int) (Y : Int) :
    (Thr.hgemvhz_if57 BETA BONE BZERO INCY KY LENY Y (F := F)).run = Haxx.hgemvhz_if57 BETA BONE BZERO INCY KY LENY Y (F := F) := by
  simp only [Thr.hgemvhz_if57, Haxx.hgemvhz_if57, thr]

/-- As `Haxx.hgemvhz_50_I`, `src/hblas/fortran/hblas2/hgemvhz.f:102-110`, body of `DO 50 I`. -/
def hgemvhz_50_I (A : Int) (HTMP1J : Cplx F) (HTMP1S : Cplx F) (HTMP2J : Cplx F) (HTMP2S : Cplx F) (HTMP3J : Cplx F) (HTMP3S : Cplx F) (HTMP4J : Cplx F) (HTMP4S : Cplx F) (J : Int) (LDA : Int) (Y : Int) (I : Int)  : Prog F (Unit) := do
  let t1 ← rdC (el2 2 2 Y 1 I)
  let t2 ← rdC (el3 2 2 LDA A 1 I J)
  let t3 ← rdC (el3 2 2 LDA A 2 I J)
  let t4 ← rdC (el3 2 2 LDA A 1 I J)
  let t5 ← rdC (el3 2 2 LDA A 2 I J)
  wrC (el2 2 2 Y 1 I) (t1 +ᶜ t2 *ᶜ HTMP1S -ᶜ t3 *ᶜ HTMP2J -ᶜ Cplx.conj t4 *ᶜ HTMP4J -ᶜ Cplx.conj t5 *ᶜ HTMP3S)
  let t6 ← rdC (el2 2 2 Y 2 I)
  let t7 ← rdC (el3 2 2 LDA A 1 I J)
  let t8 ← rdC (el3 2 2 LDA A 2 I J)
  let t9 ← rdC (el3 2 2 LDA A 1 I J)
  let t10 ← rdC (el3 2 2 LDA A 2 I J)
  wrC (el2 2 2 Y 2 I) (t6 +ᶜ t7 *ᶜ HTMP1J +ᶜ t8 *ᶜ HTMP2S +ᶜ Cplx.conj t9 *ᶜ HTMP4S -ᶜ Cplx.conj t10 *ᶜ HTMP3J)
  pure ()

@[thr] theorem run_hgemvhz_50_I (A : Int) (HTMP1J : Cplx F) (HTMP1S : Cplx F) (HTMP2J : Cplx F) (HTMP2S : Cplx F) (HTMP3J : Cplx F) (HTMP3S : Cplx F) (HTMP4J : Cplx F) (HTMP4S : Cplx F) (J : Int) (LDA : Int) (Y : Int) (I : Int) :
    (Thr.hgemvhz_50_I A HTMP1J HTMP1S HTMP2J HTMP2S HTMP3J HTMP3S HTMP4J HTMP4S J LDA Y I (F := F)).run = Haxx.hgemvhz_50_I A HTMP1J HTMP1S HTMP2J HTMP2S HTMP3J HTMP3S HTMP4J HTMP4S J LDA Y I (F := F) := by
  simp only [Thr.hgemvhz_50_I, Haxx.hgemvhz_50_I, thr]

/-- As `Haxx.hgemvhz_60_J`, `src/hblas/fortran/hblas2/hgemvhz.f:93-112`, body of `DO 60 J`. -/
def hgemvhz_60_J (A : Int) (ALPHA : Quat F) (INCX : Int) (LDA : Int) (M : Int) (X : Int) (Y : Int) (J : Int) (JX : Int) : Prog F (Int) := do
  let t1 ← rdC (el2 2 2 X 1 JX)
  let HTMP1S : Cplx F := Quat.lo ALPHA *ᶜ t1
  let t2 ← rdC (el2 2 2 X 2 JX)
  let HTMP1J : Cplx F := Quat.lo ALPHA *ᶜ t2
  let t3 ← rdC (el2 2 2 X 1 JX)
  let HTMP2S : Cplx F := Quat.lo ALPHA *ᶜ Cplx.conj t3
  let t4 ← rdC (el2 2 2 X 2 JX)
  let HTMP2J : Cplx F := Quat.lo ALPHA *ᶜ Cplx.conj t4
  let t5 ← rdC (el2 2 2 X 1 JX)
  let HTMP3S : Cplx F := Quat.hi ALPHA *ᶜ t5
  let t6 ← rdC (el2 2 2 X 2 JX)
  let HTMP3J : Cplx F := Quat.hi ALPHA *ᶜ t6
  let t7 ← rdC (el2 2 2 X 1 JX)
  let HTMP4S : Cplx F := Quat.hi ALPHA *ᶜ Cplx.conj t7
  let t8 ← rdC (el2 2 2 X 2 JX)
  let HTMP4J : Cplx F := Quat.hi ALPHA *ᶜ Cplx.conj t8
  forN (M).toNat (fun i => hgemvhz_50_I A HTMP1J HTMP1S HTMP2J HTMP2S HTMP3J HTMP3S HTMP4J HTMP4S J LDA Y ((i : Int) + 1))
  let JX : Int := JX + INCX
  pure JX

@[thr] theorem run_hgemvhz_60_J (A : Int) (ALPHA : Quat F) (INCX : Int) (LDA : Int) (M : Int) (X : Int) (Y : Int) (J : Int) (JX : Int) :
    (Thr.hgemvhz_60_J A ALPHA INCX LDA M X Y J JX (F := F)).run = Haxx.hgemvhz_60_J A ALPHA INCX LDA M X Y J JX (F := F) := by
  simp only [Thr.hgemvhz_60_J, Haxx.hgemvhz_60_J, thr]

/-- As `Haxx.hgemvhz_70_I`, `src/hblas/fortran/hblas2/hgemvhz.f:124-133`, body of `DO 70 I`. -/
def hgemvhz_70_I (A : Int) (HTMP1J : Cplx F) (HTMP1S : Cplx F) (HTMP2J : Cplx F) (HTMP2S : Cplx F) (HTMP3J : Cplx F) (HTMP3S : Cplx F) (HTMP4J : Cplx F) (HTMP4S : Cplx F) (INCY : Int) (J : Int) (LDA : Int) (Y : Int) (I : Int) (IY : Int) : Prog F (Int) := do
  let t1 ← rdC (el2 2 2 Y 1 IY)
  let t2 ← rdC (el3 2 2 LDA A 1 I J)
  let t3 ← rdC (el3 2 2 LDA A 2 I J)
  let t4 ← rdC (el3 2 2 LDA A 1 I J)
  let t5 ← rdC (el3 2 2 LDA A 2 I J)
  wrC (el2 2 2 Y 1 IY) (t1 +ᶜ t2 *ᶜ HTMP1S -ᶜ t3 *ᶜ HTMP2J -ᶜ Cplx.conj t4 *ᶜ HTMP4J -ᶜ Cplx.conj t5 *ᶜ HTMP3S)
  let t6 ← rdC (el2 2 2 Y 2 IY)
  let t7 ← rdC (el3 2 2 LDA A 1 I J)
  let t8 ← rdC (el3 2 2 LDA A 2 I J)
  let t9 ← rdC (el3 2 2 LDA A 1 I J)
  let t10 ← rdC (el3 2 2 LDA A 2 I J)
  wrC (el2 2 2 Y 2 IY) (t6 +ᶜ t7 *ᶜ HTMP1J +ᶜ t8 *ᶜ Cplx.conj HTMP2S +ᶜ Cplx.conj t9 *ᶜ HTMP4S -ᶜ Cplx.conj t10 *ᶜ HTMP3J)
  let IY : Int := IY + INCY
  pure IY

@[thr] theorem run_hgemvhz_70_I (A : Int) (HTMP1J : Cplx F) (HTMP1S : Cplx F) (HTMP2J : Cplx F) (HTMP2S : Cplx F) (HTMP3J : Cplx F) (HTMP3S : Cplx F) (HTMP4J : Cplx F) (HTMP4S : Cplx F) (INCY : Int) (J : Int) (LDA : Int) (Y : Int) (I : Int) (IY : Int) :
    (Thr.hgemvhz_70_I A HTMP1J HTMP1S HTMP2J HTMP2S HTMP3J HTMP3S HTMP4J HTMP4S INCY J LDA Y I IY (F := F)).run = Haxx.hgemvhz_70_I A HTMP1J HTMP1S HTMP2J HTMP2S HTMP3J HTMP3S HTMP4J HTMP4S INCY J LDA Y I IY (F := F) := by
  simp only [Thr.hgemvhz_70_I, Haxx.hgemvhz_70_I, thr]

/-- As `Haxx.hgemvhz_80_J`, `src/hblas/fortran/hblas2/hgemvhz.f:114-135`, body of `DO 80 J`. -/
def hgemvhz_80_J (A : Int) (ALPHA : Quat F) (INCX : Int) (INCY : Int) (KY : Int) (LDA : Int) (M : Int) (X : Int) (Y : Int) (J : Int) (JX : Int) : Prog F (Int) := do
  let t1 ← rdC (el2 2 2 X 1 JX)
  let HTMP1S : Cplx F := Quat.lo ALPHA *ᶜ t1
  let t2 ← rdC (el2 2 2 X 2 JX)
  let HTMP1J : Cplx F := Quat.lo ALPHA *ᶜ t2
  let t3 ← rdC (el2 2 2 X 1 JX)
  let HTMP2S : Cplx F := Quat.lo ALPHA *ᶜ Cplx.conj t3
  let t4 ← rdC (el2 2 2 X 2 JX)
  let HTMP2J : Cplx F := Quat.lo ALPHA *ᶜ Cplx.conj t4
  let t5 ← rdC (el2 2 2 X 1 JX)
  let HTMP3S : Cplx F := Quat.hi ALPHA *ᶜ t5
  let t6 ← rdC (el2 2 2 X 2 JX)
  let HTMP3J : Cplx F := Quat.hi ALPHA *ᶜ t6
  let t7 ← rdC (el2 2 2 X 1 JX)
  let HTMP4S : Cplx F := Quat.hi ALPHA *ᶜ Cplx.conj t7
  let t8 ← rdC (el2 2 2 X 2 JX)
  let HTMP4J : Cplx F := Quat.hi ALPHA *ᶜ Cplx.conj t8
  let IY : Int := KY
  let r ← foldN (M).toNat (fun i (s : Int) => hgemvhz_70_I A HTMP1J HTMP1S HTMP2J HTMP2S HTMP3J HTMP3S HTMP4J HTMP4S INCY J LDA Y ((i : Int) + 1) s) IY
  let JX : Int := JX + INCX
  pure JX

@[thr] theorem run_hgemvhz_80_J (A : Int) (ALPHA : Quat F) (INCX : Int) (INCY : Int) (KY : Int) (LDA : Int) (M : Int) (X : Int) (Y : Int) (J : Int) (JX : Int) :
    (Thr.hgemvhz_80_J A ALPHA INCX INCY KY LDA M X Y J JX (F := F)).run = Haxx.hgemvhz_80_J A ALPHA INCX INCY KY LDA M X Y J JX (F := F) := by
  simp only [Thr.hgemvhz_80_J, Haxx.hgemvhz_80_J, thr]

/-- As `Haxx.hgemvhz_if92`, `src/hblas/fortran/hblas2/hgemvhz.f:92-136`. -/
def hgemvhz_if92 (A : Int) (ALPHA : Quat F) (INCX : Int) (INCY : Int) (JX : Int) (KY : Int) (LDA : Int) (M : Int) (N : Int) (X : Int) (Y : Int) : Prog F (Unit) := do
  if decide (INCY = 1) then
    let r ← foldN (N).toNat (fun i (s : Int) => hgemvhz_60_J A ALPHA INCX LDA M X Y ((i : Int) + 1) s) JX
    pure ()
  else
    let r ← foldN (N).toNat (fun i (s : Int) => hgemvhz_80_J A ALPHA INCX INCY KY LDA M X Y ((i : Int) + 1) s) JX
    pure ()

@[thr] theorem run_hgemvhz_if92 (A : Int) (ALPHA : Quat F) (INCX : Int) (INCY : Int) (JX : Int) (KY : Int) (LDA : Int) (M : Int) (N : Int) (X : Int) (Y : Int) :
    (Thr.hgemvhz_if92 A ALPHA INCX INCY JX KY LDA M N X Y (F := F)).run = Haxx.hgemvhz_if92 A ALPHA INCX INCY JX KY LDA M N X Y (F := F) := by
  simp only [Thr.hgemvhz_if92, Haxx.hgemvhz_if92, thr]

/-- As `Haxx.hgemvhz_90_I`, `src/hblas/fortran/hblas2/hgemvhz.f:144-150`, body of `DO 90 I`. -/
def hgemvhz_90_I (A : Int) (J : Int) (LDA : Int) (X : Int) (I : Int) (HTMP1J : Cplx F) (HTMP1S : Cplx F) : Prog F (Cplx F × Cplx F) := do
  let t1 ← rdC (el3 2 2 LDA A 1 I J)
  let t2 ← rdC (el2 2 2 X 1 I)
  let t3 ← rdC (el3 2 2 LDA A 2 I J)
  let t4 ← rdC (el2 2 2 X 2 I)
  let HTMP1S : Cplx F := HTMP1S +ᶜ t1 *ᶜ t2 -ᶜ t3 *ᶜ Cplx.conj t4
  let t5 ← rdC (el3 2 2 LDA A 1 I J)
  let t6 ← rdC (el2 2 2 X 2 I)
  let t7 ← rdC (el3 2 2 LDA A 2 I J)
  let t8 ← rdC (el2 2 2 X 1 I)
  let HTMP1J : Cplx F := HTMP1J +ᶜ t5 *ᶜ t6 +ᶜ t7 *ᶜ Cplx.conj t8
  pure (HTMP1J, HTMP1S)

@[thr] theorem run_hgemvhz_90_I (A : Int) (J : Int) (LDA : Int) (X : Int) (I : Int) (HTMP1J : Cplx F) (HTMP1S : Cplx F) :
    (Thr.hgemvhz_90_I A J LDA X I HTMP1J HTMP1S (F := F)).run = Haxx.hgemvhz_90_I A J LDA X I HTMP1J HTMP1S (F := F) := by
  simp only [Thr.hgemvhz_90_I, Haxx.hgemvhz_90_I, thr]

/-- As `Haxx.hgemvhz_100_I`, `src/hblas/fortran/hblas2/hgemvhz.f:152-158`, body of `DO 100 I`. -/
def hgemvhz_100_I (A : Int) (J : Int) (LDA : Int) (X : Int) (I : Int) (HTMP1J : Cplx F) (HTMP1S : Cplx F) : Prog F (Cplx F × Cplx F) := do
  let t1 ← rdC (el3 2 2 LDA A 1 I J)
  let t2 ← rdC (el2 2 2 X 1 I)
  let t3 ← rdC (el3 2 2 LDA A 2 I J)
  let t4 ← rdC (el2 2 2 X 2 I)
  let HTMP1S : Cplx F := HTMP1S +ᶜ Cplx.conj t1 *ᶜ t2 +ᶜ t3 *ᶜ Cplx.conj t4
  let t5 ← rdC (el3 2 2 LDA A 1 I J)
  let t6 ← rdC (el2 2 2 X 2 I)
  let t7 ← rdC (el3 2 2 LDA A 2 I J)
  let t8 ← rdC (el2 2 2 X 1 I)
  let HTMP1J : Cplx F := HTMP1J +ᶜ Cplx.conj t5 *ᶜ t6 -ᶜ t7 *ᶜ Cplx.conj t8
  pure (HTMP1J, HTMP1S)

@[thr] theorem run_hgemvhz_100_I (A : Int) (J : Int) (LDA : Int) (X : Int) (I : Int) (HTMP1J : Cplx F) (HTMP1S : Cplx F) :
    (Thr.hgemvhz_100_I A J LDA X I HTMP1J HTMP1S (F := F)).run = Haxx.hgemvhz_100_I A J LDA X I HTMP1J HTMP1S (F := F) := by
  simp only [Thr.hgemvhz_100_I, Haxx.hgemvhz_100_I, thr]

/-- As `Haxx.hgemvhz_if143`, `src/hblas/fortran/hblas2/hgemvhz.f:143-159`. -/
def hgemvhz_if143 (A : Int) (HTMP1J : Cplx F) (HTMP1S : Cplx F) (J : Int) (LDA : Int) (M : Int) (NOCONJ : Bool) (X : Int) : Prog F (Cplx F × Cplx F) := do
  if NOCONJ then
    let r ← foldN (M).toNat (fun i (s : Cplx F × Cplx F) => hgemvhz_90_I A J LDA X ((i : Int) + 1) s.1 s.2) (HTMP1J, HTMP1S)
    let HTMP1J : Cplx F := r.1
    let HTMP1S : Cplx F := r.2
    pure (HTMP1J, HTMP1S)
  else
    let r ← foldN (M).toNat (fun i (s : Cplx F × Cplx F) => hgemvhz_100_I A J LDA X ((i : Int) + 1) s.1 s.2) (HTMP1J, HTMP1S)
    let HTMP1J : Cplx F := r.1
    let HTMP1S : Cplx F := r.2
    pure (HTMP1J, HTMP1S)

@[thr] theorem run_hgemvhz_if143 (A : Int) (HTMP1J : Cplx F) (HTMP1S : Cplx F) (J : Int) (LDA : Int) (M : Int) (NOCONJ : Bool) (X : Int) :
    (Thr.hgemvhz_if143 A HTMP1J HTMP1S J LDA M NOCONJ X (F := F)).run = Haxx.hgemvhz_if143 A HTMP1J HTMP1S J LDA M NOCONJ X (F := F) := by
  simp only [Thr.hgemvhz_if143, Haxx.hgemvhz_if143, thr]

/-- As `Haxx.hgemvhz_110_J`, `src/hblas/fortran/hblas2/hgemvhz.f:140-163`, body of `DO 110 J`. -/
def hgemvhz_110_J (A : Int) (ALPHA : Quat F) (INCY : Int) (LDA : Int) (M : Int) (NOCONJ : Bool) (X : Int) (Y : Int) (J : Int) (JY : Int) : Prog F (Int) := do
  let HTMP1S : Cplx F := (⟨zero, zero⟩ : Cplx F)
  let HTMP1J : Cplx F := (⟨zero, zero⟩ : Cplx F)
  let r ← hgemvhz_if143 A HTMP1J HTMP1S J LDA M NOCONJ X
  let HTMP1J : Cplx F := r.1
  let HTMP1S : Cplx F := r.2
  let t1 ← rdC (el2 2 2 Y 1 JY)
  wrC (el2 2 2 Y 1 JY) (t1 +ᶜ Quat.lo ALPHA *ᶜ HTMP1S -ᶜ Quat.hi ALPHA *ᶜ Cplx.conj HTMP1J)
  let t2 ← rdC (el2 2 2 Y 2 JY)
  wrC (el2 2 2 Y 2 JY) (t2 +ᶜ Quat.lo ALPHA *ᶜ HTMP1J +ᶜ Quat.hi ALPHA *ᶜ Cplx.conj HTMP1S)
  let JY : Int := JY + INCY
  pure JY

@[thr] theorem run_hgemvhz_110_J (A : Int) (ALPHA : Quat F) (INCY : Int) (LDA : Int) (M : Int) (NOCONJ : Bool) (X : Int) (Y : Int) (J : Int) (JY : Int) :
    (Thr.hgemvhz_110_J A ALPHA INCY LDA M NOCONJ X Y J JY (F := F)).run = Haxx.hgemvhz_110_J A ALPHA INCY LDA M NOCONJ X Y J JY (F := F) := by
  simp only [Thr.hgemvhz_110_J, Haxx.hgemvhz_110_J, thr]

/-- As `Haxx.hgemvhz_120_I`, `src/hblas/fortran/hblas2/hgemvhz.f:170-177`, body of `DO 120 I`. -/
def hgemvhz_120_I (A : Int) (INCX : Int) (J : Int) (LDA : Int) (X : Int) (I : Int) (HTMP1J : Cplx F) (HTMP1S : Cplx F) (IX : Int) : Prog F (Cplx F × Cplx F × Int) := do
  let t1 ← rdC (el3 2 2 LDA A 1 I J)
  let t2 ← rdC (el2 2 2 X 1 IX)
  let t3 ← rdC (el3 2 2 LDA A 2 I J)
  let t4 ← rdC (el2 2 2 X 2 IX)
  let HTMP1S : Cplx F := HTMP1S +ᶜ t1 *ᶜ t2 -ᶜ t3 *ᶜ Cplx.conj t4
  let t5 ← rdC (el3 2 2 LDA A 1 I J)
  let t6 ← rdC (el2 2 2 X 2 IX)
  let t7 ← rdC (el3 2 2 LDA A 2 I J)
  let t8 ← rdC (el2 2 2 X 1 IX)
  let HTMP1J : Cplx F := HTMP1J +ᶜ t5 *ᶜ t6 +ᶜ t7 *ᶜ Cplx.conj t8
  let IX : Int := IX + INCX
  pure (HTMP1J, HTMP1S, IX)

@[thr] theorem run_hgemvhz_120_I (A : Int) (INCX : Int) (J : Int) (LDA : Int) (X : Int) (I : Int) (HTMP1J : Cplx F) (HTMP1S : Cplx F) (IX : Int) :
    (Thr.hgemvhz_120_I A INCX J LDA X I HTMP1J HTMP1S IX (F := F)).run = Haxx.hgemvhz_120_I A INCX J LDA X I HTMP1J HTMP1S IX (F := F) := by
  simp only [Thr.hgemvhz_120_I, Haxx.hgemvhz_120_I, thr]

/-- As `Haxx.hgemvhz_130_I`, `src/hblas/fortran/hblas2/hgemvhz.f:179-186`, body of `DO 130 I`. -/
def hgemvhz_130_I (A : Int) (INCX : Int) (J : Int) (LDA : Int) (X : Int) (I : Int) (HTMP1J : Cplx F) (HTMP1S : Cplx F) (IX : Int) : Prog F (Cplx F × Cplx F × Int) := do
  let t1 ← rdC (el3 2 2 LDA A 1 I J)
  let t2 ← rdC (el2 2 2 X 1 IX)
  let t3 ← rdC (el3 2 2 LDA A 2 I J)
  let t4 ← rdC (el2 2 2 X 2 IX)
  let HTMP1S : Cplx F := HTMP1S +ᶜ Cplx.conj t1 *ᶜ t2 +ᶜ t3 *ᶜ Cplx.conj t4
  let t5 ← rdC (el3 2 2 LDA A 1 I J)
  let t6 ← rdC (el2 2 2 X 2 IX)
  let t7 ← rdC (el3 2 2 LDA A 2 I J)
  let t8 ← rdC (el2 2 2 X 1 IX)
  let HTMP1J : Cplx F := HTMP1J +ᶜ Cplx.conj t5 *ᶜ t6 -ᶜ t7 *ᶜ Cplx.conj t8
  let IX : Int := IX + INCX
  pure (HTMP1J, HTMP1S, IX)

@[thr] theorem run_hgemvhz_130_I (A : Int) (INCX : Int) (J : Int) (LDA : Int) (X : Int) (I : Int) (HTMP1J : Cplx F) (HTMP1S : Cplx F) (IX : Int) :
    (Thr.hgemvhz_130_I A INCX J LDA X I HTMP1J HTMP1S IX (F := F)).run = Haxx.hgemvhz_130_I A INCX J LDA X I HTMP1J HTMP1S IX (F := F) := by
  simp only [Thr.hgemvhz_130_I, Haxx.hgemvhz_130_I, thr]

/-- As `Haxx.hgemvhz_if169`, `src/hblas/fortran/hblas2/hgemvhz.f:169-187`. -/
def hgemvhz_if169 (A : Int) (HTMP1J : Cplx F) (HTMP1S : Cplx F) (INCX : Int) (IX : Int) (J : Int) (LDA : Int) (M : Int) (NOCONJ : Bool) (X : Int) : Prog F (Cplx F × Cplx F) := do
  if NOCONJ then
    let r ← foldN (M).toNat (fun i (s : Cplx F × Cplx F × Int) => hgemvhz_120_I A INCX J LDA X ((i : Int) + 1) s.1 s.2.1 s.2.2) (HTMP1J, HTMP1S, IX)
    let HTMP1J : Cplx F := r.1
    let HTMP1S : Cplx F := r.2.1
    pure (HTMP1J, HTMP1S)
  else
    let r ← foldN (M).toNat (fun i (s : Cplx F × Cplx F × Int) => hgemvhz_130_I A INCX J LDA X ((i : Int) + 1) s.1 s.2.1 s.2.2) (HTMP1J, HTMP1S, IX)
    let HTMP1J : Cplx F := r.1
    let HTMP1S : Cplx F := r.2.1
    pure (HTMP1J, HTMP1S)

@[thr] theorem run_hgemvhz_if169 (A : Int) (HTMP1J : Cplx F) (HTMP1S : Cplx F) (INCX : Int) (IX : Int) (J : Int) (LDA : Int) (M : Int) (NOCONJ : Bool) (X : Int) :
    (Thr.hgemvhz_if169 A HTMP1J HTMP1S INCX IX J LDA M NOCONJ X (F := F)).run = Haxx.hgemvhz_if169 A HTMP1J HTMP1S INCX IX J LDA M NOCONJ X (F := F) := by
  simp only [Thr.hgemvhz_if169, Haxx.hgemvhz_if169, thr]

/-- As `Haxx.hgemvhz_140_J`, `src/hblas/fortran/hblas2/hgemvhz.f:165-191`, body of `DO 140 J`. -/
def hgemvhz_140_J (A : Int) (ALPHA : Quat F) (INCX : Int) (INCY : Int) (KX : Int) (LDA : Int) (M : Int) (NOCONJ : Bool) (X : Int) (Y : Int) (J : Int) (JY : Int) : Prog F (Int) := do
  let HTMP1S : Cplx F := (⟨zero, zero⟩ : Cplx F)
  let HTMP1J : Cplx F := (⟨zero, zero⟩ : Cplx F)
  let IX : Int := KX
  let r ← hgemvhz_if169 A HTMP1J HTMP1S INCX IX J LDA M NOCONJ X
  let HTMP1J : Cplx F := r.1
  let HTMP1S : Cplx F := r.2
  let t1 ← rdC (el2 2 2 Y 1 JY)
  wrC (el2 2 2 Y 1 JY) (t1 +ᶜ Quat.lo ALPHA *ᶜ HTMP1S -ᶜ Quat.hi ALPHA *ᶜ Cplx.conj HTMP1J)
  let t2 ← rdC (el2 2 2 Y 2 JY)
  wrC (el2 2 2 Y 2 JY) (t2 +ᶜ Quat.lo ALPHA *ᶜ HTMP1J +ᶜ Quat.hi ALPHA *ᶜ Cplx.conj HTMP1S)
  let JY : Int := JY + INCY
  pure JY

@[thr] theorem run_hgemvhz_140_J (A : Int) (ALPHA : Quat F) (INCX : Int) (INCY : Int) (KX : Int) (LDA : Int) (M : Int) (NOCONJ : Bool) (X : Int) (Y : Int) (J : Int) (JY : Int) :
    (Thr.hgemvhz_140_J A ALPHA INCX INCY KX LDA M NOCONJ X Y J JY (F := F)).run = Haxx.hgemvhz_140_J A ALPHA INCX INCY KX LDA M NOCONJ X Y J JY (F := F) := by
  simp only [Thr.hgemvhz_140_J, Haxx.hgemvhz_140_J, thr]

/-- As `Haxx.hgemvhz_if139`, `src/hblas/fortran/hblas2/hgemvhz.f:139-192`. -/
def hgemvhz_if139 (A : Int) (ALPHA : Quat F) (INCX : Int) (INCY : Int) (JY : Int) (KX : Int) (LDA : Int) (M : Int) (N : Int) (NOCONJ : Bool) (X : Int) (Y : Int) : Prog F (Unit) := do
  if decide (INCX = 1) then
    let r ← foldN (N).toNat (fun i (s : Int) => hgemvhz_110_J A ALPHA INCY LDA M NOCONJ X Y ((i : Int) + 1) s) JY
    pure ()
  else
    let r ← foldN (N).toNat (fun i (s : Int) => hgemvhz_140_J A ALPHA INCX INCY KX LDA M NOCONJ X Y ((i : Int) + 1) s) JY
    pure ()

@[thr] theorem run_hgemvhz_if139 (A : Int) (ALPHA : Quat F) (INCX : Int) (INCY : Int) (JY : Int) (KX : Int) (LDA : Int) (M : Int) (N : Int) (NOCONJ : Bool) (X : Int) (Y : Int) :
    (Thr.hgemvhz_if139 A ALPHA INCX INCY JY KX LDA M N NOCONJ X Y (F := F)).run = Haxx.hgemvhz_if139 A ALPHA INCX INCY JY KX LDA M N NOCONJ X Y (F := F) := by
  simp only [Thr.hgemvhz_if139, Haxx.hgemvhz_if139, thr]

/-- As `Haxx.hgemvhz_if90`, `src/hblas/fortran/hblas2/hgemvhz.f:90-193`. -/
def hgemvhz_if90 (A : Int) (ALPHA : Quat F) (INCX : Int) (INCY : Int) (KX : Int) (KY : Int) (LDA : Int) (M : Int) (N : Int) (NOCONJ : Bool) (TRANS : Char) (X : Int) (Y : Int) : Prog F (Unit) := do
  if lsame TRANS 'N' then
    let JX : Int := KX
    hgemvhz_if92 A ALPHA INCX INCY JX KY LDA M N X Y
    pure ()
  else
    let JY : Int := KY
    hgemvhz_if139 A ALPHA INCX INCY JY KX LDA M N NOCONJ X Y
    pure ()

@[thr] theorem run_hgemvhz_if90 (A : Int) (ALPHA : Quat F) (INCX : Int) (INCY : Int) (KX : Int) (KY : Int) (LDA : Int) (M : Int) (N : Int) (NOCONJ : Bool) (TRANS : Char) (X : Int) (Y : Int) :
    (Thr.hgemvhz_if90 A ALPHA INCX INCY KX KY LDA M N NOCONJ TRANS X Y (F := F)).run = Haxx.hgemvhz_if90 A ALPHA INCX INCY KX KY LDA M N NOCONJ TRANS X Y (F := F) := by
  simp only [Thr.hgemvhz_if90, Haxx.hgemvhz_if90, thr]

/-- As `Haxx.hgemvhz`, `src/hblas/fortran/hblas2/hgemvhz.f:9-195`. -/
def hgemvhz (TRANS : Char) (M : Int) (N : Int) (ALPHA : Quat F) (A : Int) (LDA : Int) (X : Int) (INCX : Int) (BETA : Cplx F) (Y : Int) (INCY : Int) : Prog F (Unit) := do
  let NOCONJ : Bool := lsame 'T' TRANS
  let r ← (do
    if lsame 'T' TRANS then
      let LENX : Int := N
      let LENY : Int := M
      pure (LENX, LENY)
    else
      let LENX : Int := M
      let LENY : Int := N
      pure (LENX, LENY) : Prog F (Int × Int))
  let LENX : Int := r.1
  let LENY : Int := r.2
  let AZERO : Bool := (Cplx.feq (Quat.lo ALPHA) (⟨zero, zero⟩ : Cplx F)) && (Cplx.feq (Quat.hi ALPHA) (⟨zero, zero⟩ : Cplx F))
  -- AONE (line 36) is never read
  let BZERO : Bool := Cplx.feq BETA (⟨zero, zero⟩ : Cplx F)
  let BONE : Bool := Cplx.feq BETA (⟨one, zero⟩ : Cplx F)
  if ((decide (M = 0)) || (decide (N = 0))) || (AZERO && BONE) then
    pure ()
  else
    let r ← (do
      if decide (INCX > 0) then
        let KX : Int := 1
        pure KX
      else
        let KX : Int := 1 - (LENX - 1) * INCX
        pure KX : Prog F (Int))
    let KX : Int := r
    let r ← (do
      if decide (INCY > 0) then
        let KY : Int := 1
        pure KY
      else
        let KY : Int := 1 - (LENY - 1) * INCY
        pure KY : Prog F (Int))
    let KY : Int := r
    hgemvhz_if57 BETA BONE BZERO INCY KY LENY Y
    if AZERO then
      pure ()
    else
      hgemvhz_if90 A ALPHA INCX INCY KX KY LDA M N NOCONJ TRANS X Y
      pure ()

@[thr] theorem run_hgemvhz (TRANS : Char) (M : Int) (N : Int) (ALPHA : Quat F) (A : Int) (LDA : Int) (X : Int) (INCX : Int) (BETA : Cplx F) (Y : Int) (INCY : Int) :
    (Thr.hgemvhz TRANS M N ALPHA A LDA X INCX BETA Y INCY (F := F)).run = Haxx.hgemvhz TRANS M N ALPHA A LDA X INCX BETA Y INCY (F := F) := by
  simp only [Thr.hgemvhz, Haxx.hgemvhz, thr]

-- end of FGemvhz

variable {F : Type} [Arith F] [ArithEq F]
/-- As `Haxx.hgemvhh_10_I`, `src/hblas/fortran/hblas2/hgemvhh.f:60-63`, body of `DO 10 I`. -/
def hgemvhh_10_I (Y : Int) (I : Int)  : Prog F (Unit) := do
  wrC (el2 2 2 Y 1 I) (⟨zero, zero⟩ : Cplx F)
  wrC (el2 2 2 Y 2 I) (⟨zero, zero⟩ : Cplx F)
  pure ()

@[thr] theorem run_hgemvhh_10_I (Y : Int) (I : Int) :
    (Thr.hgemvhh_10_I Y I (F := F)).run = Haxx.hgemvhh_10_I Y I (F := F) := by
  simp only [Thr.hgemvhh_10_I, Haxx.hgemvhh_10_I, thr]

/-- As `Haxx.hgemvhh_20_I`, `src/hblas/fortran/hblas2/hgemvhh.f:65-69`, body of `DO 20 I`. -/
def hgemvhh_20_I (BETA : Quat F) (Y : Int) (I : Int)  : Prog F (Unit) := do
  let t1 ← rdC (el2 2 2 Y 1 I)
  let t2 ← rdC (el2 2 2 Y 2 I)
  let HTMP1S : Cplx F := Quat.lo BETA *ᶜ t1 -ᶜ Quat.hi BETA *ᶜ Cplx.conj t2
  let t3 ← rdC (el2 2 2 Y 2 I)
  let t4 ← rdC (el2 2 2 Y 1 I)
  wrC (el2 2 2 Y 2 I) (Quat.lo BETA *ᶜ t3 +ᶜ Quat.hi BETA *ᶜ Cplx.conj t4)
  wrC (el2 2 2 Y 1 I) HTMP1S
  pure ()

@[thr] theorem run_hgemvhh_20_I (BETA : Quat F) (Y : Int) (I : Int) :
    (Thr.hgemvhh_20_I BETA Y I (F := F)).run = Haxx.hgemvhh_20_I BETA Y I (F := F) := by
  simp only [Thr.hgemvhh_20_I, Haxx.hgemvhh_20_I, thr]

/-- As `Haxx.hgemvhh_if59`, `src/hblas/fortran/hblas2/hgemvhh.f:59-70`. -/
def hgemvhh_if59 (BETA : Quat F) (BZERO : Bool) (LENY : Int) (Y : Int) : Prog F (Unit) := do
  if BZERO then
    forN (LENY).toNat (fun i => hgemvhh_10_I Y ((i : Int) + 1))
    pure ()
  else
    forN (LENY).toNat (fun i => hgemvhh_20_I BETA Y ((i : Int) + 1))
    pure ()

@[thr] theorem run_hgemvhh_if59 (BETA : Quat F) (BZERO : Bool) (LENY : Int) (Y : Int) :
    (Thr.hgemvhh_if59 BETA BZERO LENY Y (F := F)).run = Haxx.hgemvhh_if59 BETA BZERO LENY Y (F := F) := by
  simp only [Thr.hgemvhh_if59, Haxx.hgemvhh_if59, thr]

/-- As `Haxx.hgemvhh_30_I`, `src/hblas/fortran/hblas2/hgemvhh.f:74-78`, body of `DO 30 I`. -/
def hgemvhh_30_I (INCY : Int) (Y : Int) (I : Int) (IY : Int) : Prog F (Int) := do
  wrC (el2 2 2 Y 1 IY) (⟨zero, zero⟩ : Cplx F)
  wrC (el2 2 2 Y 2 IY) (⟨zero, zero⟩ : Cplx F)
  let IY : Int := IY + INCY
  pure IY

@[thr] theorem run_hgemvhh_30_I (INCY : Int) (Y : Int) (I : Int) (IY : Int) :
    (Thr.hgemvhh_30_I INCY Y I IY (F := F)).run = Haxx.hgemvhh_30_I INCY Y I IY (F := F) := by
  simp only [Thr.hgemvhh_30_I, Haxx.hgemvhh_30_I, thr]

/-- As `Haxx.hgemvhh_40_I`, `src/hblas/fortran/hblas2/hgemvhh.f:80-85`, body of `DO 40 I`. -/
def hgemvhh_40_I (BETA : Quat F) (INCY : Int) (Y : Int) (I : Int) (IY : Int) : Prog F (Int) := do
  let t1 ← rdC (el2 2 2 Y 1 IY)
  let t2 ← rdC (el2 2 2 Y 2 IY)
  let HTMP1S : Cplx F := Quat.lo BETA *ᶜ t1 -ᶜ Quat.hi BETA *ᶜ Cplx.conj t2
  let t3 ← rdC (el2 2 2 Y 2 IY)
  let t4 ← rdC (el2 2 2 Y 1 IY)
  wrC (el2 2 2 Y 2 IY) (Quat.lo BETA *ᶜ t3 +ᶜ Quat.hi BETA *ᶜ Cplx.conj t4)
  wrC (el2 2 2 Y 1 IY) HTMP1S
  let IY : Int := IY + INCY
  pure IY

@[thr] theorem run_hgemvhh_40_I (BETA : Quat F) (INCY : Int) (Y : Int) (I : Int) (IY : Int) :
    (Thr.hgemvhh_40_I BETA INCY Y I IY (F := F)).run = Haxx.hgemvhh_40_I BETA INCY Y I IY (F := F) := by
  simp only [Thr.hgemvhh_40_I, Haxx.hgemvhh_40_I, thr]

/-- As `Haxx.hgemvhh_if73`, `src/hblas/fortran/hblas2/hgemvhh.f:73-86`. -/
def hgemvhh_if73 (BETA : Quat F) (BZERO : Bool) (INCY : Int) (IY : Int) (LENY : Int) (Y : Int) : Prog F (Unit) := do
  if BZERO then
    let r ← foldN (LENY).toNat (fun i (s : Int) => hgemvhh_30_I INCY Y ((i : Int) + 1) s) IY
    pure ()
  else
    let r ← foldN (LENY).toNat (fun i (s : Int) => hgemvhh_40_I BETA INCY Y ((i : Int) + 1) s) IY
    pure ()

@[thr] theorem run_hgemvhh_if73 (BETA : Quat F) (BZERO : Bool) (INCY : Int) (IY : Int) (LENY : Int) (Y : Int) :
    (Thr.hgemvhh_if73 BETA BZERO INCY IY LENY Y (F := F)).run = Haxx.hgemvhh_if73 BETA BZERO INCY IY LENY Y (F := F) := by
  simp only [Thr.hgemvhh_if73, Haxx.hgemvhh_if73, thr]

/-- As `Haxx.hgemvhh_if58`, `src/hblas/fortran/hblas2/hgemvhh.f:58-87`. -/
def hgemvhh_if58 (BETA : Quat F) (BZERO : Bool) (INCY : Int) (KY : Int) (LENY : Int) (Y : Int) : Prog F (Unit) := do
  if decide (INCY = 1) then
    hgemvhh_if59 BETA BZERO LENY Y
    pure ()
  else
    let IY : Int := KY
    hgemvhh_if73 BETA BZERO INCY IY LENY Y
    pure ()

@[thr] theorem run_hgemvhh_if58 (BETA : Quat F) (BZERO : Bool) (INCY : Int) (KY : Int) (LENY : Int) (Y : Int) :
    (Thr.hgemvhh_if58 BETA BZERO INCY KY LENY Y (F := F)).run = Haxx.hgemvhh_if58 BETA BZERO INCY KY LENY Y (F := F) := by
  simp only [Thr.hgemvhh_if58, Haxx.hgemvhh_if58, thr]

/-- As `Haxx.hgemvhh_if57`, `src/hblas/fortran/hblas2/hgemvhh.f:57-88`. -/
def hgemvhh_if57 (BETA : Quat F) (BONE : Bool) (BZERO : Bool) (INCY : Int) (KY : Int) (LENY : Int) (Y : Int) : Prog F (Unit) := do
  if !BONE then
    hgemvhh_if58 BETA BZERO INCY KY LENY Y
    pure ()
  else
    pure ()

@[thr] theorem run_hgemvhh_if57 (BETA : Quat F) (BONE : Bool) (BZERO : Bool) (INCY : Int) (KY : Int) (LENY : Int) (Y : Int) :
    (Thr.hgemvhh_if57 BETA BONE BZERO INCY KY LENY Y (F := F)).run = Haxx.hgemvhh_if57 BETA BONE BZERO INCY KY LENY Y (F := F) := by
  simp only [Thr.hgemvhh_if57, Haxx.hgemvhh_if57, thr]

/-- As `Haxx.hgemvhh_50_I`, `src/hblas/fortran/hblas2/hgemvhh.f:104-112`, body of `DO 50 I`. -/
def hgemvhh_50_I (A : Int) (HTMP1J : Cplx F) (HTMP1S : Cplx F) (HTMP2J : Cplx F) (HTMP2S : Cplx F) (HTMP3J : Cplx F) (HTMP3S : Cplx F) (HTMP4J : Cplx F) (HTMP4S : Cplx F) (J : Int) (LDA : Int) (Y : Int) (I : Int)  : Prog F (Unit) := do
  let t1 ← rdC (el2 2 2 Y 1 I)
  let t2 ← rdC (el3 2 2 LDA A 1 I J)
  let t3 ← rdC (el3 2 2 LDA A 2 I J)
  let t4 ← rdC (el3 2 2 LDA A 1 I J)
  let t5 ← rdC (el3 2 2 LDA A 2 I J)
  wrC (el2 2 2 Y 1 I) (t1 +ᶜ t2 *ᶜ HTMP1S -ᶜ t3 *ᶜ HTMP2J -ᶜ Cplx.conj t4 *ᶜ HTMP4J -ᶜ Cplx.conj t5 *ᶜ HTMP3S)
  let t6 ← rdC (el2 2 2 Y 2 I)
  let t7 ← rdC (el3 2 2 LDA A 1 I J)
  let t8 ← rdC (el3 2 2 LDA A 2 I J)
  let t9 ← rdC (el3 2 2 LDA A 1 I J)
  let t10 ← rdC (el3 2 2 LDA A 2 I J)
  wrC (el2 2 2 Y 2 I) (t6 +ᶜ t7 *ᶜ HTMP1J +ᶜ t8 *ᶜ HTMP2S +ᶜ Cplx.conj t9 *ᶜ HTMP4S -ᶜ Cplx.conj t10 *ᶜ HTMP3J)
  pure ()

@[thr] theorem run_hgemvhh_50_I (A : Int) (HTMP1J : Cplx F) (HTMP1S : Cplx F) (HTMP2J : Cplx F) (HTMP2S : Cplx F) (HTMP3J : Cplx F) (HTMP3S : Cplx F) (HTMP4J : Cplx F) (HTMP4S : Cplx F) (J : Int) (LDA : Int) (Y : Int) (I : Int) :
    (Thr.hgemvhh_50_I A HTMP1J HTMP1S HTMP2J HTMP2S HTMP3J HTMP3S HTMP4J HTMP4S J LDA Y I (F := F)).run = Haxx.hgemvhh_50_I A HTMP1J HTMP1S HTMP2J HTMP2S HTMP3J HTMP3S HTMP4J HTMP4S J LDA Y I (F := F) := by
  simp only [Thr.hgemvhh_50_I, Haxx.hgemvhh_50_I, thr]

/-- As `Haxx.hgemvhh_60_J`, `src/hblas/fortran/hblas2/hgemvhh.f:95-114`, body of `DO 60 J`. -/
def hgemvhh_60_J (A : Int) (ALPHA : Quat F) (INCX : Int) (LDA : Int) (M : Int) (X : Int) (Y : Int) (J : Int) (JX : Int) : Prog F (Int) := do
  let t1 ← rdC (el2 2 2 X 1 JX)
  let HTMP1S : Cplx F := Quat.lo ALPHA *ᶜ t1
  let t2 ← rdC (el2 2 2 X 2 JX)
  let HTMP1J : Cplx F := Quat.lo ALPHA *ᶜ t2
  let t3 ← rdC (el2 2 2 X 1 JX)
  let HTMP2S : Cplx F := Quat.lo ALPHA *ᶜ Cplx.conj t3
  let t4 ← rdC (el2 2 2 X 2 JX)
  let HTMP2J : Cplx F := Quat.lo ALPHA *ᶜ Cplx.conj t4
  let t5 ← rdC (el2 2 2 X 1 JX)
  let HTMP3S : Cplx F := Quat.hi ALPHA *ᶜ t5
  let t6 ← rdC (el2 2 2 X 2 JX)
  let HTMP3J : Cplx F := Quat.hi ALPHA *ᶜ t6
  let t7 ← rdC (el2 2 2 X 1 JX)
  let HTMP4S : Cplx F := Quat.hi ALPHA *ᶜ Cplx.conj t7
  let t8 ← rdC (el2 2 2 X 2 JX)
  let HTMP4J : Cplx F := Quat.hi ALPHA *ᶜ Cplx.conj t8
  forN (M).toNat (fun i => hgemvhh_50_I A HTMP1J HTMP1S HTMP2J HTMP2S HTMP3J HTMP3S HTMP4J HTMP4S J LDA Y ((i : Int) + 1))
  let JX : Int := JX + INCX
  pure JX

@[thr] theorem run_hgemvhh_60_J (A : Int) (ALPHA : Quat F) (INCX : Int) (LDA : Int) (M : Int) (X : Int) (Y : Int) (J : Int) (JX : Int) :
    (Thr.hgemvhh_60_J A ALPHA INCX LDA M X Y J JX (F := F)).run = Haxx.hgemvhh_60_J A ALPHA INCX LDA M X Y J JX (F := F) := by
  simp only [Thr.hgemvhh_60_J, Haxx.hgemvhh_60_J, thr]

/-- As `Haxx.hgemvhh_70_I`, `src/hblas/fortran/hblas2/hgemvhh.f:126-135`, body of `DO 70 I`. -/
def hgemvhh_70_I (A : Int) (HTMP1J : Cplx F) (HTMP1S : Cplx F) (HTMP2J : Cplx F) (HTMP2S : Cplx F) (HTMP3J : Cplx F) (HTMP3S : Cplx F) (HTMP4J : Cplx F) (HTMP4S : Cplx F) (INCY : Int) (J : Int) (LDA : Int) (Y : Int) (I : Int) (IY : Int) : Prog F (Int) := do
  let t1 ← rdC (el2 2 2 Y 1 IY)
  let t2 ← rdC (el3 2 2 LDA A 1 I J)
  let t3 ← rdC (el3 2 2 LDA A 2 I J)
  let t4 ← rdC (el3 2 2 LDA A 1 I J)
  let t5 ← rdC (el3 2 2 LDA A 2 I J)
  wrC (el2 2 2 Y 1 IY) (t1 +ᶜ t2 *ᶜ HTMP1S -ᶜ t3 *ᶜ HTMP2J -ᶜ Cplx.conj t4 *ᶜ HTMP4J -ᶜ Cplx.conj t5 *ᶜ HTMP3S)
  let t6 ← rdC (el2 2 2 Y 2 IY)
  let t7 ← rdC (el3 2 2 LDA A 1 I J)
  let t8 ← rdC (el3 2 2 LDA A 2 I J)
  let t9 ← rdC (el3 2 2 LDA A 1 I J)
  let t10 ← rdC (el3 2 2 LDA A 2 I J)
  wrC (el2 2 2 Y 2 IY) (t6 +ᶜ t7 *ᶜ HTMP1J +ᶜ t8 *ᶜ Cplx.conj HTMP2S +ᶜ Cplx.conj t9 *ᶜ HTMP4S -ᶜ Cplx.conj t10 *ᶜ HTMP3J)
  let IY : Int := IY + INCY
  pure IY

@[thr] theorem run_hgemvhh_70_I (A : Int) (HTMP1J : Cplx F) (HTMP1S : Cplx F) (HTMP2J : Cplx F) (HTMP2S : Cplx F) (HTMP3J : Cplx F) (HTMP3S : Cplx F) (HTMP4J : Cplx F) (HTMP4S : Cplx F) (INCY : Int) (J : Int) (LDA : Int) (Y : Int) (I : Int) (IY : Int) :
    (Thr.hgemvhh_70_I A HTMP1J HTMP1S HTMP2J HTMP2S HTMP3J HTMP3S HTMP4J HTMP4S INCY J LDA Y I IY (F := F)).run = Haxx.hgemvhh_70_I A HTMP1J HTMP1S HTMP2J HTMP2S HTMP3J HTMP3S HTMP4J HTMP4S INCY J LDA Y I IY (F := F) := by
  simp only [Thr.hgemvhh_70_I, Haxx.hgemvhh_70_I, thr]

/-- As `Haxx.hgemvhh_80_J`, `src/hblas/fortran/hblas2/hgemvhh.f:116-137`, body of `DO 80 J`. -/
def hgemvhh_80_J (A : Int) (ALPHA : Quat F) (INCX : Int) (INCY : Int) (KY : Int) (LDA : Int) (M : Int) (X : Int) (Y : Int) (J : Int) (JX : Int) : Prog F (Int) := do
  let t1 ← rdC (el2 2 2 X 1 JX)
  let HTMP1S : Cplx F := Quat.lo ALPHA *ᶜ t1
  let t2 ← rdC (el2 2 2 X 2 JX)
  let HTMP1J : Cplx F := Quat.lo ALPHA *ᶜ t2
  let t3 ← rdC (el2 2 2 X 1 JX)
  let HTMP2S : Cplx F := Quat.lo ALPHA *ᶜ Cplx.conj t3
  let t4 ← rdC (el2 2 2 X 2 JX)
  let HTMP2J : Cplx F := Quat.lo ALPHA *ᶜ Cplx.conj t4
  let t5 ← rdC (el2 2 2 X 1 JX)
  let HTMP3S : Cplx F := Quat.hi ALPHA *ᶜ t5
  let t6 ← rdC (el2 2 2 X 2 JX)
  let HTMP3J : Cplx F := Quat.hi ALPHA *ᶜ t6
  let t7 ← rdC (el2 2 2 X 1 JX)
  let HTMP4S : Cplx F := Quat.hi ALPHA *ᶜ Cplx.conj t7
  let t8 ← rdC (el2 2 2 X 2 JX)
  let HTMP4J : Cplx F := Quat.hi ALPHA *ᶜ Cplx.conj t8
  let IY : Int := KY
  let r ← foldN (M).toNat (fun i (s : Int) => hgemvhh_70_I A HTMP1J HTMP1S HTMP2J HTMP2S HTMP3J HTMP3S HTMP4J HTMP4S INCY J LDA Y ((i : Int) + 1) s) IY
  let JX : Int := JX + INCX
  pure JX

@[thr] theorem run_hgemvhh_80_J (A : Int) (ALPHA : Quat F) (INCX : Int) (INCY : Int) (KY : Int) (LDA : Int) (M : Int) (X : Int) (Y : Int) (J : Int) (JX : Int) :
    (Thr.hgemvhh_80_J A ALPHA INCX INCY KY LDA M X Y J JX (F := F)).run = Haxx.hgemvhh_80_J A ALPHA INCX INCY KY LDA M X Y J JX (F := F) := by
  simp only [Thr.hgemvhh_80_J, Haxx.hgemvhh_80_J, thr]

/-- As `Haxx.hgemvhh_if94`, `src/hblas/fortran/hblas2/hgemvhh.f:94-138`. -/
def hgemvhh_if94 (A : Int) (ALPHA : Quat F) (INCX : Int) (INCY : Int) (JX : Int) (KY : Int) (LDA : Int) (M : Int) (N : Int) (X : Int) (Y : Int) : Prog F (Unit) := do
  if decide (INCY = 1) then
    let r ← foldN (N).toNat (fun i (s : Int) => hgemvhh_60_J A ALPHA INCX LDA M X Y ((i : Int) + 1) s) JX
    pure ()
  else
    let r ← foldN (N).toNat (fun i (s : Int) => hgemvhh_80_J A ALPHA INCX INCY KY LDA M X Y ((i : Int) + 1) s) JX
    pure ()

@[thr] theorem run_hgemvhh_if94 (A : Int) (ALPHA : Quat F) (INCX : Int) (INCY : Int) (JX : Int) (KY : Int) (LDA : Int) (M : Int) (N : Int) (X : Int) (Y : Int) :
    (Thr.hgemvhh_if94 A ALPHA INCX INCY JX KY LDA M N X Y (F := F)).run = Haxx.hgemvhh_if94 A ALPHA INCX INCY JX KY LDA M N X Y (F := F) := by
  simp only [Thr.hgemvhh_if94, Haxx.hgemvhh_if94, thr]

/-- As `Haxx.hgemvhh_90_I`, `src/hblas/fortran/hblas2/hgemvhh.f:146-152`, body of `DO 90 I`. -/
def hgemvhh_90_I (A : Int) (J : Int) (LDA : Int) (X : Int) (I : Int) (HTMP1J : Cplx F) (HTMP1S : Cplx F) : Prog F (Cplx F × Cplx F) := do
  let t1 ← rdC (el3 2 2 LDA A 1 I J)
  let t2 ← rdC (el2 2 2 X 1 I)
  let t3 ← rdC (el3 2 2 LDA A 2 I J)
  let t4 ← rdC (el2 2 2 X 2 I)
  let HTMP1S : Cplx F := HTMP1S +ᶜ t1 *ᶜ t2 -ᶜ t3 *ᶜ Cplx.conj t4
  let t5 ← rdC (el3 2 2 LDA A 1 I J)
  let t6 ← rdC (el2 2 2 X 2 I)
  let t7 ← rdC (el3 2 2 LDA A 2 I J)
  let t8 ← rdC (el2 2 2 X 1 I)
  let HTMP1J : Cplx F := HTMP1J +ᶜ t5 *ᶜ t6 +ᶜ t7 *ᶜ Cplx.conj t8
  pure (HTMP1J, HTMP1S)

@[thr] theorem run_hgemvhh_90_I (A : Int) (J : Int) (LDA : Int) (X : Int) (I : Int) (HTMP1J : Cplx F) (HTMP1S : Cplx F) :
    (Thr.hgemvhh_90_I A J LDA X I HTMP1J HTMP1S (F := F)).run = Haxx.hgemvhh_90_I A J LDA X I HTMP1J HTMP1S (F := F) := by
  simp only [Thr.hgemvhh_90_I, Haxx.hgemvhh_90_I, thr]

/-- As `Haxx.hgemvhh_100_I`, `src/hblas/fortran/hblas2/hgemvhh.f:154-160`, body of `DO 100 I`. -/
def hgemvhh_100_I (A : Int) (J : Int) (LDA : Int) (X : Int) (I : Int) (HTMP1J : Cplx F) (HTMP1S : Cplx F) : Prog F (Cplx F × Cplx F) := do
  let t1 ← rdC (el3 2 2 LDA A 1 I J)
  let t2 ← rdC (el2 2 2 X 1 I)
  let t3 ← rdC (el3 2 2 LDA A 2 I J)
  let t4 ← rdC (el2 2 2 X 2 I)
  let HTMP1S : Cplx F := HTMP1S +ᶜ Cplx.conj t1 *ᶜ t2 +ᶜ t3 *ᶜ Cplx.conj t4
  let t5 ← rdC (el3 2 2 LDA A 1 I J)
  let t6 ← rdC (el2 2 2 X 2 I)
  let t7 ← rdC (el3 2 2 LDA A 2 I J)
  let t8 ← rdC (el2 2 2 X 1 I)
  let HTMP1J : Cplx F := HTMP1J +ᶜ Cplx.conj t5 *ᶜ t6 -ᶜ t7 *ᶜ Cplx.conj t8
  pure (HTMP1J, HTMP1S)

@[thr] theorem run_hgemvhh_100_I (A : Int) (J : Int) (LDA : Int) (X : Int) (I : Int) (HTMP1J : Cplx F) (HTMP1S : Cplx F) :
    (Thr.hgemvhh_100_I A J LDA X I HTMP1J HTMP1S (F := F)).run = Haxx.hgemvhh_100_I A J LDA X I HTMP1J HTMP1S (F := F) := by
  simp only [Thr.hgemvhh_100_I, Haxx.hgemvhh_100_I, thr]

/-- As `Haxx.hgemvhh_if145`, `src/hblas/fortran/hblas2/hgemvhh.f:145-161`. -/
def hgemvhh_if145 (A : Int) (HTMP1J : Cplx F) (HTMP1S : Cplx F) (J : Int) (LDA : Int) (M : Int) (NOCONJ : Bool) (X : Int) : Prog F (Cplx F × Cplx F) := do
  if NOCONJ then
    let r ← foldN (M).toNat (fun i (s : Cplx F × Cplx F) => hgemvhh_90_I A J LDA X ((i : Int) + 1) s.1 s.2) (HTMP1J, HTMP1S)
    let HTMP1J : Cplx F := r.1
    let HTMP1S : Cplx F := r.2
    pure (HTMP1J, HTMP1S)
  else
    let r ← foldN (M).toNat (fun i (s : Cplx F × Cplx F) => hgemvhh_100_I A J LDA X ((i : Int) + 1) s.1 s.2) (HTMP1J, HTMP1S)
    let HTMP1J : Cplx F := r.1
    let HTMP1S : Cplx F := r.2
    pure (HTMP1J, HTMP1S)

@[thr] theorem run_hgemvhh_if145 (A : Int) (HTMP1J : Cplx F) (HTMP1S : Cplx F) (J : Int) (LDA : Int) (M : Int) (NOCONJ : Bool) (X : Int) :
    (Thr.hgemvhh_if145 A HTMP1J HTMP1S J LDA M NOCONJ X (F := F)).run = Haxx.hgemvhh_if145 A HTMP1J HTMP1S J LDA M NOCONJ X (F := F) := by
  simp only [Thr.hgemvhh_if145, Haxx.hgemvhh_if145, thr]

/-- As `Haxx.hgemvhh_110_J`, `src/hblas/fortran/hblas2/hgemvhh.f:142-165`, body of `DO 110 J`. -/
def hgemvhh_110_J (A : Int) (ALPHA : Quat F) (INCY : Int) (LDA : Int) (M : Int) (NOCONJ : Bool) (X : Int) (Y : Int) (J : Int) (JY : Int) : Prog F (Int) := do
  let HTMP1S : Cplx F := (⟨zero, zero⟩ : Cplx F)
  let HTMP1J : Cplx F := (⟨zero, zero⟩ : Cplx F)
  let r ← hgemvhh_if145 A HTMP1J HTMP1S J LDA M NOCONJ X
  let HTMP1J : Cplx F := r.1
  let HTMP1S : Cplx F := r.2
  let t1 ← rdC (el2 2 2 Y 1 JY)
  wrC (el2 2 2 Y 1 JY) (t1 +ᶜ Quat.lo ALPHA *ᶜ HTMP1S -ᶜ Quat.hi ALPHA *ᶜ Cplx.conj HTMP1J)
  let t2 ← rdC (el2 2 2 Y 2 JY)
  wrC (el2 2 2 Y 2 JY) (t2 +ᶜ Quat.lo ALPHA *ᶜ HTMP1J +ᶜ Quat.hi ALPHA *ᶜ Cplx.conj HTMP1S)
  let JY : Int := JY + INCY
  pure JY

@[thr] theorem run_hgemvhh_110_J (A : Int) (ALPHA : Quat F) (INCY : Int) (LDA : Int) (M : Int) (NOCONJ : Bool) (X : Int) (Y : Int) (J : Int) (JY : Int) :
    (Thr.hgemvhh_110_J A ALPHA INCY LDA M NOCONJ X Y J JY (F := F)).run = Haxx.hgemvhh_110_J A ALPHA INCY LDA M NOCONJ X Y J JY (F := F) := by
  simp only [Thr.hgemvhh_110_J, Haxx.hgemvhh_110_J, thr]

/-- As `Haxx.hgemvhh_120_I`, `src/hblas/fortran/hblas2/hgemvhh.f:172-179`, body of `DO 120 I`. -/
def hgemvhh_120_I (A : Int) (INCX : Int) (J : Int) (LDA : Int) (X : Int) (I : Int) (HTMP1J : Cplx F) (HTMP1S : Cplx F) (IX : Int) : Prog F (Cplx F × Cplx F × Int) := do
  let t1 ← rdC (el3 2 2 LDA A 1 I J)
  let t2 ← rdC (el2 2 2 X 1 IX)
  let t3 ← rdC (el3 2 2 LDA A 2 I J)
  let t4 ← rdC (el2 2 2 X 2 IX)
  let HTMP1S : Cplx F := HTMP1S +ᶜ t1 *ᶜ t2 -ᶜ t3 *ᶜ Cplx.conj t4
  let t5 ← rdC (el3 2 2 LDA A 1 I J)
  let t6 ← rdC (el2 2 2 X 2 IX)
  let t7 ← rdC (el3 2 2 LDA A 2 I J)
  let t8 ← rdC (el2 2 2 X 1 IX)
  let HTMP1J : Cplx F := HTMP1J +ᶜ t5 *ᶜ t6 +ᶜ t7 *ᶜ Cplx.conj t8
  let IX : Int := IX + INCX
  pure (HTMP1J, HTMP1S, IX)

@[thr] theorem run_hgemvhh_120_I (A : Int) (INCX : Int) (J : Int) (LDA : Int) (X : Int) (I : Int) (HTMP1J : Cplx F) (HTMP1S : Cplx F) (IX : Int) :
    (Thr.hgemvhh_120_I A INCX J LDA X I HTMP1J HTMP1S IX (F := F)).run = Haxx.hgemvhh_120_I A INCX J LDA X I HTMP1J HTMP1S IX (F := F) := by
  simp only [Thr.hgemvhh_120_I, Haxx.hgemvhh_120_I, thr]

/-- As `Haxx.hgemvhh_130_I`, `src/hblas/fortran/hblas2/hgemvhh.f:181-188`, body of `DO 130 I`. -/
def hgemvhh_130_I (A : Int) (INCX : Int) (J : Int) (LDA : Int) (X : Int) (I : Int) (HTMP1J : Cplx F) (HTMP1S : Cplx F) (IX : Int) : Prog F (Cplx F × Cplx F × Int) := do
  let t1 ← rdC (el3 2 2 LDA A 1 I J)
  let t2 ← rdC (el2 2 2 X 1 IX)
  let t3 ← rdC (el3 2 2 LDA A 2 I J)
  let t4 ← rdC (el2 2 2 X 2 IX)
  let HTMP1S : Cplx F := HTMP1S +ᶜ Cplx.conj t1 *ᶜ t2 +ᶜ t3 *ᶜ Cplx.conj t4
  let t5 ← rdC (el3 2 2 LDA A 1 I J)
  let t6 ← rdC (el2 2 2 X 2 IX)
  let t7 ← rdC (el3 2 2 LDA A 2 I J)
  let t8 ← rdC (el2 2 2 X 1 IX)
  let HTMP1J : Cplx F := HTMP1J +ᶜ Cplx.conj t5 *ᶜ t6 -ᶜ t7 *ᶜ Cplx.conj t8
  let IX : Int := IX + INCX
  pure (HTMP1J, HTMP1S, IX)

@[thr] theorem run_hgemvhh_130_I (A : Int) (INCX : Int) (J : Int) (LDA : Int) (X : Int) (I : Int) (HTMP1J : Cplx F) (HTMP1S : Cplx F) (IX : Int) :
    (Thr.hgemvhh_130_I A INCX J LDA X I HTMP1J HTMP1S IX (F := F)).run = Haxx.hgemvhh_130_I A INCX J LDA X I HTMP1J HTMP1S IX (F := F) := by
  simp only [Thr.hgemvhh_130_I, Haxx.hgemvhh_130_I, thr]

/-- As `Haxx.hgemvhh_if171`, `src/hblas/fortran/hblas2/hgemvhh.f:171-189`. -/
def hgemvhh_if171 (A : Int) (HTMP1J : Cplx F) (HTMP1S : Cplx F) (INCX : Int) (IX : Int) (J : Int) (LDA : Int) (M : Int) (NOCONJ : Bool) (X : Int) : Prog F (Cplx F × Cplx F) := do
  if NOCONJ then
    let r ← foldN (M).toNat (fun i (s : Cplx F × Cplx F × Int) => hgemvhh_120_I A INCX J LDA X ((i : Int) + 1) s.1 s.2.1 s.2.2) (HTMP1J, HTMP1S, IX)
    let HTMP1J : Cplx F := r.1
    let HTMP1S : Cplx F := r.2.1
    pure (HTMP1J, HTMP1S)
  else
    let r ← foldN (M).toNat (fun i (s : Cplx F × Cplx F × Int) => hgemvhh_130_I A INCX J LDA X ((i : Int) + 1) s.1 s.2.1 s.2.2) (HTMP1J, HTMP1S, IX)
    let HTMP1J : Cplx F := r.1
    let HTMP1S : Cplx F := r.2.1
    pure (HTMP1J, HTMP1S)

@[thr] theorem run_hgemvhh_if171 (A : Int) (HTMP1J : Cplx F) (HTMP1S : Cplx F) (INCX : Int) (IX : Int) (J : Int) (LDA : Int) (M : Int) (NOCONJ : Bool) (X : Int) :
    (Thr.hgemvhh_if171 A HTMP1J HTMP1S INCX IX J LDA M NOCONJ X (F := F)).run = Haxx.hgemvhh_if171 A HTMP1J HTMP1S INCX IX J LDA M NOCONJ X (F := F) := by
  simp only [Thr.hgemvhh_if171, Haxx.hgemvhh_if171, thr]

/-- As `Haxx.hgemvhh_140_J`, `src/hblas/fortran/hblas2/hgemvhh.f:167-193`, body of `DO 140 J`. -/
def hgemvhh_140_J (A : Int) (ALPHA : Quat F) (INCX : Int) (INCY : Int) (KX : Int) (LDA : Int) (M : Int) (NOCONJ : Bool) (X : Int) (Y : Int) (J : Int) (JY : Int) : Prog F (Int) := do
  let HTMP1S : Cplx F := (⟨zero, zero⟩ : Cplx F)
  let HTMP1J : Cplx F := (⟨zero, zero⟩ : Cplx F)
  let IX : Int := KX
  let r ← hgemvhh_if171 A HTMP1J HTMP1S INCX IX J LDA M NOCONJ X
  let HTMP1J : Cplx F := r.1
  let HTMP1S : Cplx F := r.2
  let t1 ← rdC (el2 2 2 Y 1 JY)
  wrC (el2 2 2 Y 1 JY) (t1 +ᶜ Quat.lo ALPHA *ᶜ HTMP1S -ᶜ Quat.hi ALPHA *ᶜ Cplx.conj HTMP1J)
  let t2 ← rdC (el2 2 2 Y 2 JY)
  wrC (el2 2 2 Y 2 JY) (t2 +ᶜ Quat.lo ALPHA *ᶜ HTMP1J +ᶜ Quat.hi ALPHA *ᶜ Cplx.conj HTMP1S)
  let JY : Int := JY + INCY
  pure JY

@[thr] theorem run_hgemvhh_140_J (A : Int) (ALPHA : Quat F) (INCX : Int) (INCY : Int) (KX : Int) (LDA : Int) (M : Int) (NOCONJ : Bool) (X : Int) (Y : Int) (J : Int) (JY : Int) :
    (Thr.hgemvhh_140_J A ALPHA INCX INCY KX LDA M NOCONJ X Y J JY (F := F)).run = Haxx.hgemvhh_140_J A ALPHA INCX INCY KX LDA M NOCONJ X Y J JY (F := F) := by
  simp only [Thr.hgemvhh_140_J, Haxx.hgemvhh_140_J, thr]

/-- As `Haxx.hgemvhh_if141`, `src/hblas/fortran/hblas2/hgemvhh.f:141-194`. -/
def hgemvhh_if141 (A : Int) (ALPHA : Quat F) (INCX : Int) (INCY : Int) (JY : Int) (KX : Int) (LDA : Int) (M : Int) (N : Int) (NOCONJ : Bool) (X : Int) (Y : Int) : Prog F (Unit) := do
  if decide (INCX = 1) then
    let r ← foldN (N).toNat (fun i (s : Int) => hgemvhh_110_J A ALPHA INCY LDA M NOCONJ X Y ((i : Int) + 1) s) JY
    pure ()
  else
    let r ← foldN (N).toNat (fun i (s : Int) => hgemvhh_140_J A ALPHA INCX INCY KX LDA M NOCONJ X Y ((i : Int) + 1) s) JY
    pure ()

@[thr] theorem run_hgemvhh_if141 (A : Int) (ALPHA : Quat F) (INCX : Int) (INCY : Int) (JY : Int) (KX : Int) (LDA : Int) (M : Int) (N : Int) (NOCONJ : Bool) (X : Int) (Y : Int) :
    (Thr.hgemvhh_if141 A ALPHA INCX INCY JY KX LDA M N NOCONJ X Y (F := F)).run = Haxx.hgemvhh_if141 A ALPHA INCX INCY JY KX LDA M N NOCONJ X Y (F := F) := by
  simp only [Thr.hgemvhh_if141, Haxx.hgemvhh_if141, thr]

/-- As `Haxx.hgemvhh_if92`, `src/hblas/fortran/hblas2/hgemvhh.f:92-195`. -/
def hgemvhh_if92 (A : Int) (ALPHA : Quat F) (INCX : Int) (INCY : Int) (KX : Int) (KY : Int) (LDA : Int) (M : Int) (N : Int) (NOCONJ : Bool) (TRANS : Char) (X : Int) (Y : Int) : Prog F (Unit) := do
  if lsame TRANS 'N' then
    let JX : Int := KX
    hgemvhh_if94 A ALPHA INCX INCY JX KY LDA M N X Y
    pure ()
  else
    let JY : Int := KY
    hgemvhh_if141 A ALPHA INCX INCY JY KX LDA M N NOCONJ X Y
    pure ()

@[thr] theorem run_hgemvhh_if92 (A : Int) (ALPHA : Quat F) (INCX : Int) (INCY : Int) (KX : Int) (KY : Int) (LDA : Int) (M : Int) (N : Int) (NOCONJ : Bool) (TRANS : Char) (X : Int) (Y : Int) :
    (Thr.hgemvhh_if92 A ALPHA INCX INCY KX KY LDA M N NOCONJ TRANS X Y (F := F)).run = Haxx.hgemvhh_if92 A ALPHA INCX INCY KX KY LDA M N NOCONJ TRANS X Y (F := F) := by
  simp only [Thr.hgemvhh_if92, Haxx.hgemvhh_if92, thr]

/-- As `Haxx.hgemvhh`, `src/hblas/fortran/hblas2/hgemvhh.f:9-197`. -/
def hgemvhh (TRANS : Char) (M : Int) (N : Int) (ALPHA : Quat F) (A : Int) (LDA : Int) (X : Int) (INCX : Int) (BETA : Quat F) (Y : Int) (INCY : Int) : Prog F (Unit) := do
  let NOCONJ : Bool := lsame 'T' TRANS
  let r ← (do
    if lsame 'T' TRANS then
      let LENX : Int := N
      let LENY : Int := M
      pure (LENX, LENY)
    else
      let LENX : Int := M
      let LENY : Int := N
      pure (LENX, LENY) : Prog F (Int × Int))
  let LENX : Int := r.1
  let LENY : Int := r.2
  let AZERO : Bool := (Cplx.feq (Quat.lo ALPHA) (⟨zero, zero⟩ : Cplx F)) && (Cplx.feq (Quat.hi ALPHA) (⟨zero, zero⟩ : Cplx F))
  -- AONE (line 36) is never read
  let BZERO : Bool := (Cplx.feq (Quat.lo BETA) (⟨zero, zero⟩ : Cplx F)) && (Cplx.feq (Quat.hi BETA) (⟨zero, zero⟩ : Cplx F))
  let BONE : Bool := (Cplx.feq (Quat.lo BETA) (⟨one, zero⟩ : Cplx F)) && (Cplx.feq (Quat.hi BETA) (⟨zero, zero⟩ : Cplx F))
  if ((decide (M = 0)) || (decide (N = 0))) || (AZERO && BONE) then
    pure ()
  else
    let r ← (do
      if decide (INCX > 0) then
        let KX : Int := 1
        pure KX
      else
        let KX : Int := 1 - (LENX - 1) * INCX
        pure KX : Prog F (Int))
    let KX : Int := r
    let r ← (do
      if decide (INCY > 0) then
        let KY : Int := 1
        pure KY
      else
        let KY : Int := 1 - (LENY - 1) * INCY
        pure KY : Prog F (Int))
    let KY : Int := r
    hgemvhh_if57 BETA BONE BZERO INCY KY LENY Y
    if AZERO then
      pure ()
    else
      hgemvhh_if92 A ALPHA INCX INCY KX KY LDA M N NOCONJ TRANS X Y
      pure ()

@[thr] theorem run_hgemvhh (TRANS : Char) (M : Int) (N : Int) (ALPHA : Quat F) (A : Int) (LDA : Int) (X : Int) (INCX : Int) (BETA : Quat F) (Y : Int) (INCY : Int) :
    (Thr.hgemvhh TRANS M N ALPHA A LDA X INCX BETA Y INCY (F := F)).run = Haxx.hgemvhh TRANS M N ALPHA A LDA X INCX BETA Y INCY (F := F) := by
  simp only [Thr.hgemvhh, Haxx.hgemvhh, thr]

-- end of FGemvhh

end Haxx.Thr
