import Verif.ThrPrim
import Verif.Generic1
import Verif.Generic3

/-!
# Threads: Generic1, Generic3

Generated by `tools/gen_thr.py` from the definitions of the main model: every definition has the text of its
namesake, read with single memory accesses (`Haxx.Thr.Prog`); `run_…` says that its sequential meaning is the namesake.
-/

set_option linter.unusedVariables false
set_option linter.unusedSectionVars false
set_option linter.unusedSimpArgs false

namespace Haxx.Thr
open Arith

section
variable {F : Type}
/-- As `Haxx.forStep`, `for (i = lo; i < hi; i += s) body(i)` with `s > 0`: `⌈(hi-lo)/s⌉` iterations. -/
def forStep (lo hi s : Int) (body : Int → Prog F Unit) : Prog F Unit :=
  forN ((hi - lo + s - 1) / s).toNat (fun k => body (lo + s * k))

@[thr] theorem run_forStep (lo : Int) (hi : Int) (s : Int) (body : Int → Prog F Unit) :
    (Thr.forStep lo hi s body (F := F)).run = Haxx.forStep lo hi s (fun x0 => (body x0).run) (F := F) := by
  simp only [Thr.forStep, Haxx.forStep, thr]

/-- As `Haxx.copyEl`, `Y[iy] = X[ix]`. -/
def copyEl (X Y ix iy : Int) : Prog F Unit := do
  let q ← loadQ (X + 4 * ix)
  storeQ (Y + 4 * iy) q

@[thr] theorem run_copyEl (X : Int) (Y : Int) (ix : Int) (iy : Int) :
    (Thr.copyEl X Y ix iy (F := F)).run = Haxx.copyEl X Y ix iy (F := F) := by
  simp only [Thr.copyEl, Haxx.copyEl, thr]

/-- As `Haxx.copyUnroll`, Unrolled loop body — `hblas_copyv_impl.hpp:47-53`. -/
def copyUnroll (X Y i : Int) : Prog F Unit := do
  copyEl X Y i i
  copyEl X Y (i+1) (i+1)
  copyEl X Y (i+2) (i+2)
  copyEl X Y (i+3) (i+3)
  copyEl X Y (i+4) (i+4)
  copyEl X Y (i+5) (i+5)
  copyEl X Y (i+6) (i+6)

@[thr] theorem run_copyUnroll (X : Int) (Y : Int) (i : Int) :
    (Thr.copyUnroll X Y i (F := F)).run = Haxx.copyUnroll X Y i (F := F) := by
  simp only [Thr.copyUnroll, Haxx.copyUnroll, thr]

/-- As `Haxx.stridedStep`, Strided loop `for( i = 0; i < N; ++i, ix += INCX, iy += INCY ) el(ix,iy)`, with `ix`, `iy` 32-bit — `hblas_copyv_impl.hpp:62`, `hblas_swapv_impl.hpp:75-79`, `hblas_axpyv_impl.hpp:88,90`. -/
def stridedStep (el : Int → Int → Prog F Unit) (INCX INCY : Int) (s : Int × Int) :
    Prog F (Int × Int) := do
  el s.1 s.2
  let ix ← i32 (s.1 + INCX)
  let iy ← i32 (s.2 + INCY)
  pure (ix, iy)

@[thr] theorem run_stridedStep (el : Int → Int → Prog F Unit) (INCX : Int) (INCY : Int) (s : Int × Int) :
    (Thr.stridedStep el INCX INCY s (F := F)).run = Haxx.stridedStep (fun x0 x1 => (el x0 x1).run) INCX INCY s (F := F) := by
  simp only [Thr.stridedStep, Haxx.stridedStep, thr]

/-- As `Haxx.copyvGen`, `HBLAS_COPYV` — `include/hblas/generic/hblas1/hblas_copyv_impl.hpp:27-66`. -/
def copyvGen (N X INCX Y INCY : Int) : Prog F Unit :=
  if N ≤ 0 then pure ()
  else do
    assertP (INCX > 0)
    assertP (INCY > 0)
    if INCX = 1 ∧ INCY = 1 then
      let m := N.tmod 7
      if m ≠ 0 then
        forN m.toNat (fun i => copyEl X Y i i)
        if N < 7 then pure ()
        else forStep m N 7 (copyUnroll X Y)
      else forStep m N 7 (copyUnroll X Y)
    else
      let _ ← foldN N.toNat (fun _ s => stridedStep (copyEl X Y) INCX INCY s) (0, 0)

@[thr] theorem run_copyvGen (N : Int) (X : Int) (INCX : Int) (Y : Int) (INCY : Int) :
    (Thr.copyvGen N X INCX Y INCY (F := F)).run = Haxx.copyvGen N X INCX Y INCY (F := F) := by
  simp only [Thr.copyvGen, Haxx.copyvGen, thr]

/-- As `Haxx.swapEl`, `qtmp = X[ix]; X[ix] = Y[iy]; Y[iy] = qtmp;`. -/
def swapEl (X Y ix iy : Int) : Prog F Unit := do
  let qtmp ← loadQ (X + 4 * ix)
  let y ← loadQ (Y + 4 * iy)
  storeQ (X + 4 * ix) y
  storeQ (Y + 4 * iy) qtmp

@[thr] theorem run_swapEl (X : Int) (Y : Int) (ix : Int) (iy : Int) :
    (Thr.swapEl X Y ix iy (F := F)).run = Haxx.swapEl X Y ix iy (F := F) := by
  simp only [Thr.swapEl, Haxx.swapEl, thr]

/-- As `Haxx.swapUnroll`, Unrolled loop body — `hblas_swapv_impl.hpp:56-66`. -/
def swapUnroll (X Y i : Int) : Prog F Unit := do
  swapEl X Y i i
  swapEl X Y (i+1) (i+1)
  swapEl X Y (i+2) (i+2)

@[thr] theorem run_swapUnroll (X : Int) (Y : Int) (i : Int) :
    (Thr.swapUnroll X Y i (F := F)).run = Haxx.swapUnroll X Y i (F := F) := by
  simp only [Thr.swapUnroll, Haxx.swapUnroll, thr]

/-- As `Haxx.swapvGen`, `HBLAS_SWAPV` — `include/hblas/generic/hblas1/hblas_swapv_impl.hpp:27-82`. -/
def swapvGen (N X INCX Y INCY : Int) : Prog F Unit :=
  if N ≤ 0 then pure ()
  else do
    assertP (INCX > 0)
    assertP (INCY > 0)
    if INCX = 1 ∧ INCY = 1 then
      let m := N.tmod 3
      if m ≠ 0 then
        forN m.toNat (fun i => swapEl X Y i i)
        if N < 3 then pure ()
        else forStep m N 3 (swapUnroll X Y)
      else forStep m N 3 (swapUnroll X Y)
    else
      let _ ← foldN N.toNat (fun _ s => stridedStep (swapEl X Y) INCX INCY s) (0, 0)

@[thr] theorem run_swapvGen (N : Int) (X : Int) (INCX : Int) (Y : Int) (INCY : Int) :
    (Thr.swapvGen N X INCX Y INCY (F := F)).run = Haxx.swapvGen N X INCX Y INCY (F := F) := by
  simp only [Thr.swapvGen, Haxx.swapvGen, thr]

end
variable {F : Type} [Arith F]
/-- As `Haxx.scalEl`, `X[i] = ALPHA * X[i]` / `X[i] = X[i] * ALPHA`. -/
def scalEl (isL : Bool) (ALPHA : Scal F) (X i : Int) : Prog F Unit := do
  let x ← loadQ (X + 4 * i)
  storeQ (X + 4 * i) (if isL then Scal.mulL ALPHA x else Scal.mulR x ALPHA)

@[thr] theorem run_scalEl (isL : Bool) (ALPHA : Scal F) (X : Int) (i : Int) :
    (Thr.scalEl isL ALPHA X i (F := F)).run = Haxx.scalEl isL ALPHA X i (F := F) := by
  simp only [Thr.scalEl, Haxx.scalEl, thr]

/-- As `Haxx.scalUnroll`, Unrolled loop body — `hblas_scalv_impl.hpp:61-65` (left), `:69-73` (right). -/
def scalUnroll (isL : Bool) (ALPHA : Scal F) (X i : Int) : Prog F Unit := do
  scalEl isL ALPHA X i
  scalEl isL ALPHA X (i+1)
  scalEl isL ALPHA X (i+2)
  scalEl isL ALPHA X (i+3)
  scalEl isL ALPHA X (i+4)

@[thr] theorem run_scalUnroll (isL : Bool) (ALPHA : Scal F) (X : Int) (i : Int) :
    (Thr.scalUnroll isL ALPHA X i (F := F)).run = Haxx.scalUnroll isL ALPHA X i (F := F) := by
  simp only [Thr.scalUnroll, Haxx.scalUnroll, thr]

/-- As `Haxx.scalvGen`, `HBLAS_SCALV` — `include/hblas/generic/hblas1/hblas_scalv_impl.hpp:36-84`. -/
def scalvGen (SIDE : Char) (N : Int) (ALPHA : Scal F) (X INCX : Int) : Prog F Unit :=
  if N ≤ 0 ∨ INCX ≤ 0 then pure ()
  else do
    let isR := SIDE == 'R'
    let isL := !isR
    if INCX = 1 then
      let m := N.tmod 5
      if m ≠ 0 then
        forN m.toNat (fun i => scalEl isL ALPHA X i)
        if N < 5 then pure ()
        else forStep m N 5 (scalUnroll isL ALPHA X)
      else forStep m N 5 (scalUnroll isL ALPHA X)
    else
      let NINCX ← i32 (N * INCX)
      forStep 0 NINCX INCX (scalEl isL ALPHA X)

@[thr] theorem run_scalvGen (SIDE : Char) (N : Int) (ALPHA : Scal F) (X : Int) (INCX : Int) :
    (Thr.scalvGen SIDE N ALPHA X INCX (F := F)).run = Haxx.scalvGen SIDE N ALPHA X INCX (F := F) := by
  simp only [Thr.scalvGen, Haxx.scalvGen, thr]

/-- As `Haxx.axpyEl`, `Y[iy] += ALPHA * X[ix]` / `Y[iy] += X[ix] * ALPHA`. -/
def axpyEl (isL : Bool) (ALPHA : Scal F) (X Y ix iy : Int) : Prog F Unit := do
  let x ← loadQ (X + 4 * ix)
  let y ← loadQ (Y + 4 * iy)
  storeQ (Y + 4 * iy) (Quat.addAssign y (if isL then Scal.mulL ALPHA x else Scal.mulR x ALPHA))

@[thr] theorem run_axpyEl (isL : Bool) (ALPHA : Scal F) (X : Int) (Y : Int) (ix : Int) (iy : Int) :
    (Thr.axpyEl isL ALPHA X Y ix iy (F := F)).run = Haxx.axpyEl isL ALPHA X Y ix iy (F := F) := by
  simp only [Thr.axpyEl, Haxx.axpyEl, thr]

/-- As `Haxx.axpyUnroll`, Unrolled loop body — `hblas_axpyv_impl.hpp:69-72` (left), `:76-79` (right). -/
def axpyUnroll (isL : Bool) (ALPHA : Scal F) (X Y i : Int) : Prog F Unit := do
  axpyEl isL ALPHA X Y i i
  axpyEl isL ALPHA X Y (i+1) (i+1)
  axpyEl isL ALPHA X Y (i+2) (i+2)
  axpyEl isL ALPHA X Y (i+3) (i+3)

@[thr] theorem run_axpyUnroll (isL : Bool) (ALPHA : Scal F) (X : Int) (Y : Int) (i : Int) :
    (Thr.axpyUnroll isL ALPHA X Y i (F := F)).run = Haxx.axpyUnroll isL ALPHA X Y i (F := F) := by
  simp only [Thr.axpyUnroll, Haxx.axpyUnroll, thr]

/-- As `Haxx.axpyvGen`, `HBLAS_AXPYV` — `include/hblas/generic/hblas1/hblas_axpyv_impl.hpp:36-93`, with `_XF = quaternion<_F>`. -/
def axpyvGen [ArithEq F] (SIDE : Char) (N : Int) (ALPHA : Scal F) (X INCX Y INCY : Int) :
    Prog F Unit :=
  if N ≤ 0 then pure ()
  else if ALPHA.eqZero then pure ()
  else do
    assertP (INCX > 0)
    assertP (INCY > 0)
    let isR := SIDE == 'R'
    let isL := !isR
    if INCX = 1 ∧ INCY = 1 then
      let m := N.tmod 4
      if m ≠ 0 then
        forN m.toNat (fun i => axpyEl isL ALPHA X Y i i)
        if N < 4 then pure ()
        else forStep m N 4 (axpyUnroll isL ALPHA X Y)
      else forStep m N 4 (axpyUnroll isL ALPHA X Y)
    else
      let _ ← foldN N.toNat (fun _ s => stridedStep (axpyEl isL ALPHA X Y) INCX INCY s) (0, 0)

@[thr] theorem run_axpyvGen [ArithEq F] (SIDE : Char) (N : Int) (ALPHA : Scal F) (X : Int) (INCX : Int) (Y : Int) (INCY : Int) :
    (Thr.axpyvGen SIDE N ALPHA X INCX Y INCY (F := F)).run = Haxx.axpyvGen SIDE N ALPHA X INCX Y INCY (F := F) := by
  simp only [Thr.axpyvGen, Haxx.axpyvGen, thr]

/-- As `Haxx.dotEl`, `htemp += X[ix]*Y[iy]` (`hblas_dotuv_impl.hpp`) / `htemp += conj(X[ix])*Y[iy]`. -/
def dotEl (conj : Bool) (X Y ix iy : Int) (htemp : Quat F) : Prog F (Quat F) := do
  let x ← loadQ (X + 4 * ix)
  let y ← loadQ (Y + 4 * iy)
  pure (Quat.addAssign htemp (Quat.mul (if conj then Quat.conj x else x) y))

@[thr] theorem run_dotEl (conj : Bool) (X : Int) (Y : Int) (ix : Int) (iy : Int) (htemp : Quat F) :
    (Thr.dotEl conj X Y ix iy htemp (F := F)).run = Haxx.dotEl conj X Y ix iy htemp (F := F) := by
  simp only [Thr.dotEl, Haxx.dotEl, thr]

/-- As `Haxx.dotStep`, Strided step of the dot products — `hblas_dotcv_impl.hpp:48-49`. -/
def dotStep (conj : Bool) (X Y INCX INCY : Int) (s : Int × Int × Quat F) :
    Prog F (Int × Int × Quat F) := do
  let htemp ← dotEl conj X Y s.1 s.2.1 s.2.2
  let ix ← i32 (s.1 + INCX)
  let iy ← i32 (s.2.1 + INCY)
  pure (ix, iy, htemp)

@[thr] theorem run_dotStep (conj : Bool) (X : Int) (Y : Int) (INCX : Int) (INCY : Int) (s : Int × Int × Quat F) :
    (Thr.dotStep conj X Y INCX INCY s (F := F)).run = Haxx.dotStep conj X Y INCX INCY s (F := F) := by
  simp only [Thr.dotStep, Haxx.dotStep, thr]

/-- As `Haxx.dotGen`, `HBLAS_DOTUV` — `include/hblas/generic/hblas1/hblas_dotuv_impl.hpp:25-53` (`conj = false`) and `HBLAS_DOTCV` — `include/hblas/generic/hblas1/hblas_dotcv_impl.hpp:25-53` (`conj = true`). -/
def dotGen (conj : Bool) (N X INCX Y INCY : Int) : Prog F (Quat F) :=
  if N ≤ 0 then pure ⟨zero, zero, zero, zero⟩
  else do
    assertP (INCX > 0)
    assertP (INCY > 0)
    if INCX = 1 ∧ INCY = 1 then
      foldN N.toNat (fun i htemp => dotEl conj X Y i i htemp) ⟨zero, zero, zero, zero⟩
    else
      let r ← foldN N.toNat (fun _ s => dotStep conj X Y INCX INCY s)
        (0, 0, ⟨zero, zero, zero, zero⟩)
      pure r.2.2

@[thr] theorem run_dotGen (conj : Bool) (N : Int) (X : Int) (INCX : Int) (Y : Int) (INCY : Int) :
    (Thr.dotGen conj N X INCX Y INCY (F := F)).run = Haxx.dotGen conj N X INCX Y INCY (F := F) := by
  simp only [Thr.dotGen, Haxx.dotGen, thr]

-- end of Generic1

variable {F : Type} [Arith F]
/-- As `Haxx.loadK`, `A[i]` for the three element types. -/
def loadK {F : Type} (k : Kind) (p : Int) : Prog F (Scal F) :=
  match k with
  | .d => do let a ← rd p; pure (.d a)
  | .z => do let a ← rd p; let b ← rd (p+1); pure (.z ⟨a, b⟩)
  | .h => do let q ← loadQ p; pure (.h q)

@[thr] theorem run_loadK {F : Type} (k : Kind) (p : Int) :
    (Thr.loadK k p (F := F)).run = Haxx.loadK k p (F := F) := by
  cases k <;> simp only [Thr.loadK, Haxx.loadK, thr]

section -- Scal
variable [ArithEq F]
end
/-- As `Haxx.zeroEl`, `CCol[i] = 0.`. -/
def zeroEl (CCol i : Int) : Prog F Unit := storeQ (CCol + 4 * i) (Quat.mkReal zero)

@[thr] theorem run_zeroEl (CCol : Int) (i : Int) :
    (Thr.zeroEl CCol i (F := F)).run = Haxx.zeroEl CCol i (F := F) := by
  simp only [Thr.zeroEl, Haxx.zeroEl, thr]

/-- As `Haxx.betaEl`, `CCol[i] = BETA * CCol[i]`. -/
def betaEl (BETA : Scal F) (CCol i : Int) : Prog F Unit := do
  let c ← loadQ (CCol + 4 * i)
  storeQ (CCol + 4 * i) (BETA.mulL c)

@[thr] theorem run_betaEl (BETA : Scal F) (CCol : Int) (i : Int) :
    (Thr.betaEl BETA CCol i (F := F)).run = Haxx.betaEl BETA CCol i (F := F) := by
  simp only [Thr.betaEl, Haxx.betaEl, thr]

/-- As `Haxx.gemmAxpyEl`, `CCol[i] += ALPHA * ACol[i] * b`, `b` being the quaternion at `bp`, conjugated or not — `hblas_gemm_impl.hpp:99,147,165`. -/
def gemmAxpyEl (kA : Kind) (conjB : Bool) (ALPHA : Scal F) (ACol bp CCol i : Int) : Prog F Unit := do
  let a ← loadK kA (ACol + kA.width * i)
  let b ← loadQ bp
  let c ← loadQ (CCol + 4 * i)
  storeQ (CCol + 4 * i) (Quat.addAssign c ((ALPHA.mul a).mulL (if conjB then b.conj else b)))

@[thr] theorem run_gemmAxpyEl (kA : Kind) (conjB : Bool) (ALPHA : Scal F) (ACol : Int) (bp : Int) (CCol : Int) (i : Int) :
    (Thr.gemmAxpyEl kA conjB ALPHA ACol bp CCol i (F := F)).run = Haxx.gemmAxpyEl kA conjB ALPHA ACol bp CCol i (F := F) := by
  simp only [Thr.gemmAxpyEl, Haxx.gemmAxpyEl, thr]

/-- As `Haxx.gemmBetaCol`, Scaling of a column by BETA — `hblas_gemm_impl.hpp:90-93` (also `:137-140`, `:155-158`). -/
def gemmBetaCol [ArithEq F] (BETA : Scal F) (M CCol : Int) : Prog F Unit :=
  if BETA.eqZero then forN M.toNat (fun i => zeroEl CCol i)
  else if !BETA.eqOne then forN M.toNat (fun i => betaEl BETA CCol i)
  else pure ()

@[thr] theorem run_gemmBetaCol [ArithEq F] (BETA : Scal F) (M : Int) (CCol : Int) :
    (Thr.gemmBetaCol BETA M CCol (F := F)).run = Haxx.gemmBetaCol BETA M CCol (F := F) := by
  simp only [Thr.gemmBetaCol, Haxx.gemmBetaCol, thr]

/-- As `Haxx.gemmColNN`, Body of the `j` loop for op(A) = A, op(B) = B — `hblas_gemm_impl.hpp:86-101`. -/
def gemmColNN [ArithEq F] (kA : Kind) (M K : Int) (ALPHA : Scal F) (A LDA B LDB : Int) (BETA : Scal F) (C LDC j : Int) :
    Prog F Unit := do
  let jc ← i32 (j * LDC)
  let jb ← i32 (j * LDB)
  gemmBetaCol BETA M (C + 4 * jc)
  forN K.toNat (fun (l : Nat) => do
    let la ← i32 (l * LDA)
    forN M.toNat (fun i => gemmAxpyEl kA false ALPHA (A + kA.width * la) (B + 4 * jb + 4 * l) (C + 4 * jc) i))

@[thr] theorem run_gemmColNN [ArithEq F] (kA : Kind) (M : Int) (K : Int) (ALPHA : Scal F) (A : Int) (LDA : Int) (B : Int) (LDB : Int) (BETA : Scal F) (C : Int) (LDC : Int) (j : Int) :
    (Thr.gemmColNN kA M K ALPHA A LDA B LDB BETA C LDC j (F := F)).run = Haxx.gemmColNN kA M K ALPHA A LDA B LDB BETA C LDC j (F := F) := by
  simp only [Thr.gemmColNN, Haxx.gemmColNN, thr]

/-- As `Haxx.gemmColNT`, Body of the `j` loop for op(A) = A, op(B) = B^H (`conjB`) — `hblas_gemm_impl.hpp:134-149` — or op(B) = B^T — `:152-167`. -/
def gemmColNT [ArithEq F] (kA : Kind) (conjB : Bool) (M K : Int) (ALPHA : Scal F) (A LDA B LDB : Int) (BETA : Scal F)
    (C LDC j : Int) : Prog F Unit := do
  let jc ← i32 (j * LDC)
  gemmBetaCol BETA M (C + 4 * jc)
  forN K.toNat (fun (l : Nat) => do
    let la ← i32 (l * LDA)
    let lb ← i32 (l * LDB)
    forN M.toNat (fun i => gemmAxpyEl kA conjB ALPHA (A + kA.width * la) (B + 4 * lb + 4 * j) (C + 4 * jc) i))

@[thr] theorem run_gemmColNT [ArithEq F] (kA : Kind) (conjB : Bool) (M : Int) (K : Int) (ALPHA : Scal F) (A : Int) (LDA : Int) (B : Int) (LDB : Int) (BETA : Scal F) (C : Int) (LDC : Int) (j : Int) :
    (Thr.gemmColNT kA conjB M K ALPHA A LDA B LDB BETA C LDC j (F := F)).run = Haxx.gemmColNT kA conjB M K ALPHA A LDA B LDB BETA C LDC j (F := F) := by
  simp only [Thr.gemmColNT, Haxx.gemmColNT, thr]

/-- As `Haxx.gemmDotEl`, `htemp += a * b`, `a = ACol[l]`, `b` at `bp`, each conjugated or not — `hblas_gemm_impl.hpp:110,125,177,190,206,219`. -/
def gemmDotEl (kA : Kind) (conjA conjB : Bool) (ACol bp l : Int) (htemp : Quat F) : Prog F (Quat F) := do
  let a ← loadK kA (ACol + kA.width * l)
  let b ← loadQ bp
  pure (Quat.addAssign htemp
    ((if conjA then a.smartConj else a).mulL (if conjB then b.conj else b)))

@[thr] theorem run_gemmDotEl (kA : Kind) (conjA : Bool) (conjB : Bool) (ACol : Int) (bp : Int) (l : Int) (htemp : Quat F) :
    (Thr.gemmDotEl kA conjA conjB ACol bp l htemp (F := F)).run = Haxx.gemmDotEl kA conjA conjB ACol bp l htemp (F := F) := by
  simp only [Thr.gemmDotEl, Haxx.gemmDotEl, thr]

/-- As `Haxx.gemmStoreEl`, `if( BetaIsZero ) CCol[i] = ALPHA*htemp; else CCol[i] = ALPHA*htemp + BETA*CCol[i];` — `hblas_gemm_impl.hpp:112-113` (also `:127-128`, `:179-180`, `:192-193`, `:208-209`, `:221-222`). -/
def gemmStoreEl [ArithEq F] (ALPHA BETA : Scal F) (CCol i : Int) (htemp : Quat F) : Prog F Unit :=
  if BETA.eqZero then storeQ (CCol + 4 * i) (ALPHA.mulL htemp)
  else do
    let c ← loadQ (CCol + 4 * i)
    storeQ (CCol + 4 * i) (Quat.add (ALPHA.mulL htemp) (BETA.mulL c))

@[thr] theorem run_gemmStoreEl [ArithEq F] (ALPHA : Scal F) (BETA : Scal F) (CCol : Int) (i : Int) (htemp : Quat F) :
    (Thr.gemmStoreEl ALPHA BETA CCol i htemp (F := F)).run = Haxx.gemmStoreEl ALPHA BETA CCol i htemp (F := F) := by
  simp only [Thr.gemmStoreEl, Haxx.gemmStoreEl, thr]

/-- As `Haxx.gemmElTN`, Body of the `i` loop for op(A) ≠ A, op(B) = B — `hblas_gemm_impl.hpp:107-114` (A^H), `:122-129` (A^T). -/
def gemmElTN [ArithEq F] (kA : Kind) (conjA : Bool) (K : Int) (ALPHA : Scal F) (A LDA BCol : Int) (BETA : Scal F)
    (CCol i : Int) : Prog F Unit := do
  let ia ← i32 (i * LDA)
  let htemp ← foldN K.toNat (fun l htemp =>
    gemmDotEl kA conjA false (A + kA.width * ia) (BCol + 4 * l) l htemp) (Quat.mkReal zero)
  gemmStoreEl ALPHA BETA CCol i htemp

@[thr] theorem run_gemmElTN [ArithEq F] (kA : Kind) (conjA : Bool) (K : Int) (ALPHA : Scal F) (A : Int) (LDA : Int) (BCol : Int) (BETA : Scal F) (CCol : Int) (i : Int) :
    (Thr.gemmElTN kA conjA K ALPHA A LDA BCol BETA CCol i (F := F)).run = Haxx.gemmElTN kA conjA K ALPHA A LDA BCol BETA CCol i (F := F) := by
  simp only [Thr.gemmElTN, Haxx.gemmElTN, thr]

/-- As `Haxx.gemmElTT`, Body of the `i` loop for op(A) ≠ A, op(B) ≠ B — `hblas_gemm_impl.hpp:174-181` (A^H B^H), `:187-194` (A^H B^T), `:203-210` (A^T B^H), `:216-223` (A^T B^T). -/
def gemmElTT [ArithEq F] (kA : Kind) (conjA conjB : Bool) (K : Int) (ALPHA : Scal F) (A LDA BRow LDB : Int)
    (BETA : Scal F) (CCol i : Int) : Prog F Unit := do
  let ia ← i32 (i * LDA)
  let htemp ← foldN K.toNat (fun (l : Nat) htemp => do
    let lb ← i32 (l * LDB)
    gemmDotEl kA conjA conjB (A + kA.width * ia) (BRow + 4 * lb) l htemp) (Quat.mkReal zero)
  gemmStoreEl ALPHA BETA CCol i htemp

@[thr] theorem run_gemmElTT [ArithEq F] (kA : Kind) (conjA : Bool) (conjB : Bool) (K : Int) (ALPHA : Scal F) (A : Int) (LDA : Int) (BRow : Int) (LDB : Int) (BETA : Scal F) (CCol : Int) (i : Int) :
    (Thr.gemmElTT kA conjA conjB K ALPHA A LDA BRow LDB BETA CCol i (F := F)).run = Haxx.gemmElTT kA conjA conjB K ALPHA A LDA BRow LDB BETA CCol i (F := F) := by
  simp only [Thr.gemmElTT, Haxx.gemmElTT, thr]

/-- As `Haxx.gemmColTN`, Body of the `j` loop for op(A) ≠ A, op(B) = B — `hblas_gemm_impl.hpp:103-115`, `:118-130`. -/
def gemmColTN [ArithEq F] (kA : Kind) (conjA : Bool) (M K : Int) (ALPHA : Scal F) (A LDA B LDB : Int) (BETA : Scal F)
    (C LDC j : Int) : Prog F Unit := do
  let jc ← i32 (j * LDC)
  let jb ← i32 (j * LDB)
  forN M.toNat (fun i => gemmElTN kA conjA K ALPHA A LDA (B + 4 * jb) BETA (C + 4 * jc) i)

@[thr] theorem run_gemmColTN [ArithEq F] (kA : Kind) (conjA : Bool) (M : Int) (K : Int) (ALPHA : Scal F) (A : Int) (LDA : Int) (B : Int) (LDB : Int) (BETA : Scal F) (C : Int) (LDC : Int) (j : Int) :
    (Thr.gemmColTN kA conjA M K ALPHA A LDA B LDB BETA C LDC j (F := F)).run = Haxx.gemmColTN kA conjA M K ALPHA A LDA B LDB BETA C LDC j (F := F) := by
  simp only [Thr.gemmColTN, Haxx.gemmColTN, thr]

/-- As `Haxx.gemmColTT`, Body of the `j` loop for op(A) ≠ A, op(B) ≠ B — `hblas_gemm_impl.hpp:171-182`, `:184-195`, `:200-211`, `:213-224`. -/
def gemmColTT [ArithEq F] (kA : Kind) (conjA conjB : Bool) (M K : Int) (ALPHA : Scal F) (A LDA B LDB : Int)
    (BETA : Scal F) (C LDC j : Int) : Prog F Unit := do
  let jc ← i32 (j * LDC)
  forN M.toNat (fun i => gemmElTT kA conjA conjB K ALPHA A LDA (B + 4 * j) LDB BETA (C + 4 * jc) i)

@[thr] theorem run_gemmColTT [ArithEq F] (kA : Kind) (conjA : Bool) (conjB : Bool) (M : Int) (K : Int) (ALPHA : Scal F) (A : Int) (LDA : Int) (B : Int) (LDB : Int) (BETA : Scal F) (C : Int) (LDC : Int) (j : Int) :
    (Thr.gemmColTT kA conjA conjB M K ALPHA A LDA B LDB BETA C LDC j (F := F)).run = Haxx.gemmColTT kA conjA conjB M K ALPHA A LDA B LDB BETA C LDC j (F := F) := by
  simp only [Thr.gemmColTT, Haxx.gemmColTT, thr]

/-- As `Haxx.gemmColA0`, Body of the `j` loop for ALPHA = 0 — `hblas_gemm_impl.hpp:71-74` (BETA = 0), `:76-79`. -/
def gemmColA0 [ArithEq F] (M : Int) (BETA : Scal F) (C LDC j : Int) : Prog F Unit := do
  let jc ← i32 (j * LDC)
  if BETA.eqZero then forN M.toNat (fun i => zeroEl (C + 4 * jc) i)
  else forN M.toNat (fun i => betaEl BETA (C + 4 * jc) i)

@[thr] theorem run_gemmColA0 [ArithEq F] (M : Int) (BETA : Scal F) (C : Int) (LDC : Int) (j : Int) :
    (Thr.gemmColA0 M BETA C LDC j (F := F)).run = Haxx.gemmColA0 M BETA C LDC j (F := F) := by
  simp only [Thr.gemmColA0, Haxx.gemmColA0, thr]

/-- As `Haxx.gemmGen`, `HBLAS_GEMM` (template) — `include/hblas/generic/hblas3/hblas_gemm_impl.hpp:17-227`. -/
def gemmGen [ArithEq F] (kA : Kind) (TRANSA TRANSB : Char) (M N K : Int) (ALPHA : Scal F) (A LDA B LDB : Int)
    (BETA : Scal F) (C LDC : Int) : Prog F Unit :=
  let NOTA := TRANSA == 'N'
  let NOTB := TRANSB == 'N'
  let CONJA := TRANSA == 'C'
  let CONJB := TRANSB == 'C'
  if (decide (M = 0)) || (decide (N = 0)) || ((ALPHA.eqZero || decide (K = 0)) && BETA.eqOne) then pure ()
  else if ALPHA.eqZero then forN N.toNat (fun j => gemmColA0 M BETA C LDC j)
  else if NOTB then
    if NOTA then forN N.toNat (fun j => gemmColNN kA M K ALPHA A LDA B LDB BETA C LDC j)
    else if CONJA then forN N.toNat (fun j => gemmColTN kA true M K ALPHA A LDA B LDB BETA C LDC j)
    else forN N.toNat (fun j => gemmColTN kA false M K ALPHA A LDA B LDB BETA C LDC j)
  else if NOTA then
    if CONJB then forN N.toNat (fun j => gemmColNT kA true M K ALPHA A LDA B LDB BETA C LDC j)
    else forN N.toNat (fun j => gemmColNT kA false M K ALPHA A LDA B LDB BETA C LDC j)
  else if CONJA then
    if CONJB then forN N.toNat (fun j => gemmColTT kA true true M K ALPHA A LDA B LDB BETA C LDC j)
    else forN N.toNat (fun j => gemmColTT kA true false M K ALPHA A LDA B LDB BETA C LDC j)
  else
    if CONJB then forN N.toNat (fun j => gemmColTT kA false true M K ALPHA A LDA B LDB BETA C LDC j)
    else forN N.toNat (fun j => gemmColTT kA false false M K ALPHA A LDA B LDB BETA C LDC j)

@[thr] theorem run_gemmGen [ArithEq F] (kA : Kind) (TRANSA : Char) (TRANSB : Char) (M : Int) (N : Int) (K : Int) (ALPHA : Scal F) (A : Int) (LDA : Int) (B : Int) (LDB : Int) (BETA : Scal F) (C : Int) (LDC : Int) :
    (Thr.gemmGen kA TRANSA TRANSB M N K ALPHA A LDA B LDB BETA C LDC (F := F)).run = Haxx.gemmGen kA TRANSA TRANSB M N K ALPHA A LDA B LDB BETA C LDC (F := F) := by
  simp only [Thr.gemmGen, Haxx.gemmGen, thr]

/-- As `Haxx.gemvScale`, Scaling of y — `include/hblas/generic/hblas2/hblas_gemv_impl.hpp:82-105`; the strided loop counts `iy += INCY` in 32 bits. -/
def gemvScale [ArithEq F] (LENY : Int) (BETA : Scal F) (Y INCY : Int) : Prog F Unit :=
  if !BETA.eqOne then
    if INCY = 1 then
      if BETA.eqZero then forN LENY.toNat (fun i => zeroEl Y i)
      else forN LENY.toNat (fun i => betaEl BETA Y i)
    else if BETA.eqZero then do
      let _ ← foldN LENY.toNat (fun _ iy => do zeroEl Y iy; i32 (iy + INCY)) 0
    else do
      let _ ← foldN LENY.toNat (fun _ iy => do betaEl BETA Y iy; i32 (iy + INCY)) 0
  else pure ()

@[thr] theorem run_gemvScale [ArithEq F] (LENY : Int) (BETA : Scal F) (Y : Int) (INCY : Int) :
    (Thr.gemvScale LENY BETA Y INCY (F := F)).run = Haxx.gemvScale LENY BETA Y INCY (F := F) := by
  simp only [Thr.gemvScale, Haxx.gemvScale, thr]

/-- As `Haxx.rank2`, `RANK2_INDX(i,j,LDA)` — `include/util/macro.hpp:16`. -/
def rank2 {F : Type} (i j LD : Int) : Prog F Int := do
  let p ← i32 (j * LD)
  i32 (i + p)

@[thr] theorem run_rank2 {F : Type} (i : Int) (j : Int) (LD : Int) :
    (Thr.rank2 i j LD (F := F)).run = Haxx.rank2 i j LD (F := F) := by
  simp only [Thr.rank2, Haxx.rank2, thr]

/-- As `Haxx.gemvAxpyEl`, `Y[iy] += A(i,j)*htemp1; Y[iy] += (ALPHA*A(i,j) - A(i,j)*ALPHA) * X[jx];` — `hblas_gemv_impl.hpp:126,133` and `:149,156`. -/
def gemvAxpyEl (kA : Kind) (ALPHA : Scal F) (A LDA X Y j jx : Int) (htemp1 : Quat F) (i iy : Int) : Prog F Unit := do
  let p ← rank2 i j LDA
  let a ← loadK kA (A + kA.width * p)
  let y ← loadQ (Y + 4 * iy)
  storeQ (Y + 4 * iy) (Quat.addAssign y (a.mulL htemp1))
  let a1 ← loadK kA (A + kA.width * p)
  let x ← loadQ (X + 4 * jx)
  let y1 ← loadQ (Y + 4 * iy)
  storeQ (Y + 4 * iy) (Quat.addAssign y1 (((ALPHA.mul a1).sub (a1.mul ALPHA)).mulL x))

@[thr] theorem run_gemvAxpyEl (kA : Kind) (ALPHA : Scal F) (A : Int) (LDA : Int) (X : Int) (Y : Int) (j : Int) (jx : Int) (htemp1 : Quat F) (i : Int) (iy : Int) :
    (Thr.gemvAxpyEl kA ALPHA A LDA X Y j jx htemp1 i iy (F := F)).run = Haxx.gemvAxpyEl kA ALPHA A LDA X Y j jx htemp1 i iy (F := F) := by
  simp only [Thr.gemvAxpyEl, Haxx.gemvAxpyEl, thr]

/-- As `Haxx.gemvColN`, Body of the `j` loop, TRANS = 'N' — `hblas_gemv_impl.hpp:118-137` (INCY = 1), `:141-160`. -/
def gemvColN (kA : Kind) (M : Int) (ALPHA : Scal F) (A LDA X INCX Y INCY j jx : Int) : Prog F Int := do
  let x ← loadQ (X + 4 * jx)
  let htemp1 := ALPHA.mulL x
  if INCY = 1 then forN M.toNat (fun i => gemvAxpyEl kA ALPHA A LDA X Y j jx htemp1 i i)
  else do
    let _ ← foldN M.toNat (fun i iy => do
      gemvAxpyEl kA ALPHA A LDA X Y j jx htemp1 i iy
      i32 (iy + INCY)) 0
  i32 (jx + INCX)

@[thr] theorem run_gemvColN (kA : Kind) (M : Int) (ALPHA : Scal F) (A : Int) (LDA : Int) (X : Int) (INCX : Int) (Y : Int) (INCY : Int) (j : Int) (jx : Int) :
    (Thr.gemvColN kA M ALPHA A LDA X INCX Y INCY j jx (F := F)).run = Haxx.gemvColN kA M ALPHA A LDA X INCX Y INCY j jx (F := F) := by
  simp only [Thr.gemvColN, Haxx.gemvColN, thr]

/-- As `Haxx.gemvDotEl`, `htemp1 += A(i,j) * X[ix]`, A(i,j) conjugated unless NOCONJ — `hblas_gemv_impl.hpp:181,184,198,201`. -/
def gemvDotEl (kA : Kind) (NOCONJ : Bool) (A LDA X j i ix : Int) (htemp1 : Quat F) : Prog F (Quat F) := do
  let p ← rank2 i j LDA
  let a ← loadK kA (A + kA.width * p)
  let x ← loadQ (X + 4 * ix)
  pure (Quat.addAssign htemp1 ((if NOCONJ then a else a.smartConj).mulL x))

@[thr] theorem run_gemvDotEl (kA : Kind) (NOCONJ : Bool) (A : Int) (LDA : Int) (X : Int) (j : Int) (i : Int) (ix : Int) (htemp1 : Quat F) :
    (Thr.gemvDotEl kA NOCONJ A LDA X j i ix htemp1 (F := F)).run = Haxx.gemvDotEl kA NOCONJ A LDA X j i ix htemp1 (F := F) := by
  simp only [Thr.gemvDotEl, Haxx.gemvDotEl, thr]

/-- As `Haxx.gemvColT`, Body of the `j` loop, TRANS ≠ 'N' — `hblas_gemv_impl.hpp:175-188` (INCX = 1), `:192-205`. -/
def gemvColT (kA : Kind) (NOCONJ : Bool) (M : Int) (ALPHA : Scal F) (A LDA X INCX Y INCY j jy : Int) : Prog F Int := do
  let htemp1 ← if INCX = 1 then
      foldN M.toNat (fun i h => gemvDotEl kA NOCONJ A LDA X j i i h) (Quat.mkReal zero)
    else (do
      let r ← foldN M.toNat (fun i (s : Int × Quat F) => do
        let h ← gemvDotEl kA NOCONJ A LDA X j i s.1 s.2
        let ix ← i32 (s.1 + INCX)
        pure (ix, h)) (0, Quat.mkReal zero)
      pure r.2)
  let y ← loadQ (Y + 4 * jy)
  storeQ (Y + 4 * jy) (Quat.addAssign y (ALPHA.mulL htemp1))
  i32 (jy + INCY)

@[thr] theorem run_gemvColT (kA : Kind) (NOCONJ : Bool) (M : Int) (ALPHA : Scal F) (A : Int) (LDA : Int) (X : Int) (INCX : Int) (Y : Int) (INCY : Int) (j : Int) (jy : Int) :
    (Thr.gemvColT kA NOCONJ M ALPHA A LDA X INCX Y INCY j jy (F := F)).run = Haxx.gemvColT kA NOCONJ M ALPHA A LDA X INCX Y INCY j jy (F := F) := by
  simp only [Thr.gemvColT, Haxx.gemvColT, thr]

/-- As `Haxx.gemvGen`, `HBLAS_GEMV` (template) — `include/hblas/generic/hblas2/hblas_gemv_impl.hpp:48-211`. -/
def gemvGen [ArithEq F] (kA : Kind) (TRANS : Char) (M N : Int) (ALPHA : Scal F) (A LDA X INCX : Int) (BETA : Scal F)
    (Y INCY : Int) : Prog F Unit :=
  if (decide (M = 0)) || (decide (N = 0)) || (ALPHA.eqZero && BETA.eqOne) then pure ()
  else do
    assertP (INCX > 0)
    assertP (INCY > 0)
    let NOCONJ := TRANS == 'T'
    let LENY := if TRANS ≠ 'N' then N else M
    gemvScale LENY BETA Y INCY
    if ALPHA.eqZero then pure ()
    else if TRANS = 'N' then do
      let _ ← foldN N.toNat (fun j jx => gemvColN kA M ALPHA A LDA X INCX Y INCY j jx) 0
    else do
      let _ ← foldN N.toNat (fun j jy => gemvColT kA NOCONJ M ALPHA A LDA X INCX Y INCY j jy) 0

@[thr] theorem run_gemvGen [ArithEq F] (kA : Kind) (TRANS : Char) (M : Int) (N : Int) (ALPHA : Scal F) (A : Int) (LDA : Int) (X : Int) (INCX : Int) (BETA : Scal F) (Y : Int) (INCY : Int) :
    (Thr.gemvGen kA TRANS M N ALPHA A LDA X INCX BETA Y INCY (F := F)).run = Haxx.gemvGen kA TRANS M N ALPHA A LDA X INCX BETA Y INCY (F := F) := by
  simp only [Thr.gemvGen, Haxx.gemvGen, thr]

/-- As `Haxx.gerEl`, `A[RANK2_INDX(i,j,LDA)] += ALPHA * X[ix] * Y[JY]` — `hblas_geru_impl.hpp:63,77` — or with `conj(Y[JY])` — `hblas_gerc_impl.hpp:63,77`. -/
def gerEl (conjY : Bool) (ALPHA : Scal F) (X Y A LDA j JY i ix : Int) : Prog F Unit := do
  let x ← loadQ (X + 4 * ix)
  let y ← loadQ (Y + 4 * JY)
  let p ← rank2 i j LDA
  let a ← loadQ (A + 4 * p)
  storeQ (A + 4 * p) (Quat.addAssign a (Quat.mul (ALPHA.mulL x) (if conjY then y.conj else y)))

@[thr] theorem run_gerEl (conjY : Bool) (ALPHA : Scal F) (X : Int) (Y : Int) (A : Int) (LDA : Int) (j : Int) (JY : Int) (i : Int) (ix : Int) :
    (Thr.gerEl conjY ALPHA X Y A LDA j JY i ix (F := F)).run = Haxx.gerEl conjY ALPHA X Y A LDA j JY i ix (F := F) := by
  simp only [Thr.gerEl, Haxx.gerEl, thr]

/-- As `Haxx.gerCol`, Body of the `j` loop — `hblas_geru_impl.hpp:59-66` (INCX = 1), `:73-80`; `hblas_gerc_impl.hpp` the same lines. -/
def gerCol [ArithEq F] (conjY : Bool) (M : Int) (ALPHA : Scal F) (X INCX Y INCY A LDA j JY : Int) : Prog F Int := do
  let y ← loadQ (Y + 4 * JY)
  if Quat.neOp y (Quat.mkReal zero) then
    if INCX = 1 then forN M.toNat (fun i => gerEl conjY ALPHA X Y A LDA j JY i i)
    else do
      let _ ← foldN M.toNat (fun i ix => do
        gerEl conjY ALPHA X Y A LDA j JY i ix
        i32 (ix + INCX)) 0
  else pure ()
  i32 (JY + INCY)

@[thr] theorem run_gerCol [ArithEq F] (conjY : Bool) (M : Int) (ALPHA : Scal F) (X : Int) (INCX : Int) (Y : Int) (INCY : Int) (A : Int) (LDA : Int) (j : Int) (JY : Int) :
    (Thr.gerCol conjY M ALPHA X INCX Y INCY A LDA j JY (F := F)).run = Haxx.gerCol conjY M ALPHA X INCX Y INCY A LDA j JY (F := F) := by
  simp only [Thr.gerCol, Haxx.gerCol, thr]

/-- As `Haxx.gerGen`, `HBLAS_GERU` (template) — `include/hblas/generic/hblas2/hblas_geru_impl.hpp:35-82` (`conjY = false`), and `HBLAS_GERC` — `hblas_gerc_impl.hpp:36-82` (`conjY = true`). -/
def gerGen [ArithEq F] (conjY : Bool) (M N : Int) (ALPHA : Scal F) (X INCX Y INCY A LDA : Int) : Prog F Unit :=
  if (decide (M = 0)) || (decide (N = 0)) || ALPHA.eqZero then pure ()
  else do
    assertP (INCX > 0)
    assertP (INCY > 0)
    let _ ← foldN N.toNat (fun j JY => gerCol conjY M ALPHA X INCX Y INCY A LDA j JY) 0

@[thr] theorem run_gerGen [ArithEq F] (conjY : Bool) (M : Int) (N : Int) (ALPHA : Scal F) (X : Int) (INCX : Int) (Y : Int) (INCY : Int) (A : Int) (LDA : Int) :
    (Thr.gerGen conjY M N ALPHA X INCX Y INCY A LDA (F := F)).run = Haxx.gerGen conjY M N ALPHA X INCX Y INCY A LDA (F := F) := by
  simp only [Thr.gerGen, Haxx.gerGen, thr]

-- end of Generic3

end Haxx.Thr
