import Verif.Generic1
import Verif.Fortran

/-!
# HBLAS levels 2 and 3: the portable header templates
(`include/hblas/generic/hblas2/*_impl.hpp`, `include/hblas/generic/hblas3/hblas_gemm_impl.hpp`)

The library instantiates the GEMV and GEMM templates for real A, quaternion x (or B), real ALPHA and
BETA (`src/hblas/hblas2.cxx.in:75`, `src/hblas/hblas3.cxx.in:64`); a program that includes the
headers can instantiate all of them for any scalar types.  Modelled: A (in GEMV, GEMM) and ALPHA, BETA
real, complex or quaternion; x, y, B, C (and A of GERU, GERC) quaternion.

`HAXX_INT` products and sums that index memory go through `i32`.  Loop counters are at most `M`,
`N`, `K` and cannot overflow.
-/

namespace Haxx
open Arith

variable {F : Type} [Arith F]

/-- Element type of a matrix. -/
inductive Kind where
  | d | z | h
deriving DecidableEq

/-- Size of an element in cells. -/
def Kind.width : Kind → Int
  | .d => 1
  | .z => 2
  | .h => 4

/-- `A[i]` for the three element types. -/
def loadK {F : Type} (k : Kind) (p : Int) : Prog F (Scal F) :=
  match k with
  | .d => do let a ← rd p; pure (.d a)
  | .z => do let a ← rd p; let b ← rd (p+1); pure (.z ⟨a, b⟩)
  | .h => do let q ← loadQ p; pure (.h q)

namespace Scal

/-- `a * b` for the three scalar types.  (`double*double`; `std::complex` products, whose recovery of
NaN results is not modelled; the quaternion overloads.) -/
def mul : Scal F → Scal F → Scal F
  | .d a, .d b => .d (a *ᶠ b)
  | .d a, .z b => .z ⟨a *ᶠ b.re, a *ᶠ b.im⟩
  | .d a, .h b => .h (Quat.realMul a b)
  | .z a, .d b => .z ⟨a.re *ᶠ b, a.im *ᶠ b⟩
  | .z a, .z b => .z (a *ᶜ b)
  | .z a, .h b => .h (Quat.cplxMul a b)
  | .h a, .d b => .h (Quat.mulReal a b)
  | .h a, .z b => .h (Quat.mulCplx a b)
  | .h a, .h b => .h (Quat.mul a b)

/-- `a - b` for two scalars of the same type (as in `ALPHA*A - A*ALPHA`). Two scalars of different
types do not occur. -/
def sub : Scal F → Scal F → Scal F
  | .d a, .d b => .d (a -ᶠ b)
  | .z a, .z b => .z (a -ᶜ b)
  | .h a, .h b => .h (Quat.sub a b)
  | a, _ => a

variable [ArithEq F]

/-- `BETA == _BetaF(1.)` (the quaternion case is `operator==`, see `Quat.eqOp`). -/
def eqOne : Scal F → Bool
  | .d a => a ==ᶠ one
  | .z a => (a.re ==ᶠ one) && (a.im ==ᶠ zero)
  | .h a => Quat.eqOp a (Quat.mkReal one)

end Scal

/-! ## GEMM -/

/-- `CCol[i] = 0.`. -/
def zeroEl (CCol i : Int) : Prog F Unit := storeQ (CCol + 4 * i) (Quat.mkReal zero)

/-- `CCol[i] = BETA * CCol[i]`. -/
def betaEl (BETA : Scal F) (CCol i : Int) : Prog F Unit := do
  let c ← loadQ (CCol + 4 * i)
  storeQ (CCol + 4 * i) (BETA.mulL c)

/-- `CCol[i] += ALPHA * ACol[i] * b`, `b` being the quaternion at `bp`, conjugated or not —
`hblas_gemm_impl.hpp:99,147,165`. -/
def gemmAxpyEl (kA : Kind) (conjB : Bool) (ALPHA : Scal F) (ACol bp CCol i : Int) : Prog F Unit := do
  let a ← loadK kA (ACol + kA.width * i)
  let b ← loadQ bp
  let c ← loadQ (CCol + 4 * i)
  storeQ (CCol + 4 * i) (Quat.addAssign c ((ALPHA.mul a).mulL (if conjB then b.conj else b)))

/-- Scaling of a column by BETA — `hblas_gemm_impl.hpp:90-93` (also `:137-140`, `:155-158`). -/
def gemmBetaCol [ArithEq F] (BETA : Scal F) (M CCol : Int) : Prog F Unit :=
  if BETA.eqZero then forN M.toNat (fun i => zeroEl CCol i)
  else if !BETA.eqOne then forN M.toNat (fun i => betaEl BETA CCol i)
  else pure ()

/-- Body of the `j` loop for op(A) = A, op(B) = B — `hblas_gemm_impl.hpp:86-101`. -/
def gemmColNN [ArithEq F] (kA : Kind) (M K : Int) (ALPHA : Scal F) (A LDA B LDB : Int) (BETA : Scal F) (C LDC j : Int) :
    Prog F Unit := do
  let jc ← i32 (j * LDC)
  let jb ← i32 (j * LDB)
  gemmBetaCol BETA M (C + 4 * jc)
  forN K.toNat (fun (l : Nat) => do
    let la ← i32 (l * LDA)
    forN M.toNat (fun i => gemmAxpyEl kA false ALPHA (A + kA.width * la) (B + 4 * jb + 4 * l) (C + 4 * jc) i))

/-- Body of the `j` loop for op(A) = A, op(B) = B^H (`conjB`) — `hblas_gemm_impl.hpp:134-149` — or
op(B) = B^T — `:152-167`. -/
def gemmColNT [ArithEq F] (kA : Kind) (conjB : Bool) (M K : Int) (ALPHA : Scal F) (A LDA B LDB : Int) (BETA : Scal F)
    (C LDC j : Int) : Prog F Unit := do
  let jc ← i32 (j * LDC)
  gemmBetaCol BETA M (C + 4 * jc)
  forN K.toNat (fun (l : Nat) => do
    let la ← i32 (l * LDA)
    let lb ← i32 (l * LDB)
    forN M.toNat (fun i => gemmAxpyEl kA conjB ALPHA (A + kA.width * la) (B + 4 * lb + 4 * j) (C + 4 * jc) i))

/-- `htemp += a * b`, `a = ACol[l]`, `b` at `bp`, each conjugated or not —
`hblas_gemm_impl.hpp:110,125,177,190,206,219`. -/
def gemmDotEl (kA : Kind) (conjA conjB : Bool) (ACol bp l : Int) (htemp : Quat F) : Prog F (Quat F) := do
  let a ← loadK kA (ACol + kA.width * l)
  let b ← loadQ bp
  pure (Quat.addAssign htemp
    ((if conjA then a.smartConj else a).mulL (if conjB then b.conj else b)))

/-- `if( BetaIsZero ) CCol[i] = ALPHA*htemp; else CCol[i] = ALPHA*htemp + BETA*CCol[i];` —
`hblas_gemm_impl.hpp:112-113` (also `:127-128`, `:179-180`, `:192-193`, `:208-209`, `:221-222`). -/
def gemmStoreEl [ArithEq F] (ALPHA BETA : Scal F) (CCol i : Int) (htemp : Quat F) : Prog F Unit :=
  if BETA.eqZero then storeQ (CCol + 4 * i) (ALPHA.mulL htemp)
  else do
    let c ← loadQ (CCol + 4 * i)
    storeQ (CCol + 4 * i) (Quat.add (ALPHA.mulL htemp) (BETA.mulL c))

/-- Body of the `i` loop for op(A) ≠ A, op(B) = B — `hblas_gemm_impl.hpp:107-114` (A^H),
`:122-129` (A^T). -/
def gemmElTN [ArithEq F] (kA : Kind) (conjA : Bool) (K : Int) (ALPHA : Scal F) (A LDA BCol : Int) (BETA : Scal F)
    (CCol i : Int) : Prog F Unit := do
  let ia ← i32 (i * LDA)
  let htemp ← foldN K.toNat (fun l htemp =>
    gemmDotEl kA conjA false (A + kA.width * ia) (BCol + 4 * l) l htemp) (Quat.mkReal zero)
  gemmStoreEl ALPHA BETA CCol i htemp

/-- Body of the `i` loop for op(A) ≠ A, op(B) ≠ B — `hblas_gemm_impl.hpp:174-181` (A^H B^H),
`:187-194` (A^H B^T), `:203-210` (A^T B^H), `:216-223` (A^T B^T). -/
def gemmElTT [ArithEq F] (kA : Kind) (conjA conjB : Bool) (K : Int) (ALPHA : Scal F) (A LDA BRow LDB : Int)
    (BETA : Scal F) (CCol i : Int) : Prog F Unit := do
  let ia ← i32 (i * LDA)
  let htemp ← foldN K.toNat (fun (l : Nat) htemp => do
    let lb ← i32 (l * LDB)
    gemmDotEl kA conjA conjB (A + kA.width * ia) (BRow + 4 * lb) l htemp) (Quat.mkReal zero)
  gemmStoreEl ALPHA BETA CCol i htemp

/-- Body of the `j` loop for op(A) ≠ A, op(B) = B — `hblas_gemm_impl.hpp:103-115`, `:118-130`. -/
def gemmColTN [ArithEq F] (kA : Kind) (conjA : Bool) (M K : Int) (ALPHA : Scal F) (A LDA B LDB : Int) (BETA : Scal F)
    (C LDC j : Int) : Prog F Unit := do
  let jc ← i32 (j * LDC)
  let jb ← i32 (j * LDB)
  forN M.toNat (fun i => gemmElTN kA conjA K ALPHA A LDA (B + 4 * jb) BETA (C + 4 * jc) i)

/-- Body of the `j` loop for op(A) ≠ A, op(B) ≠ B — `hblas_gemm_impl.hpp:171-182`, `:184-195`,
`:200-211`, `:213-224`. -/
def gemmColTT [ArithEq F] (kA : Kind) (conjA conjB : Bool) (M K : Int) (ALPHA : Scal F) (A LDA B LDB : Int)
    (BETA : Scal F) (C LDC j : Int) : Prog F Unit := do
  let jc ← i32 (j * LDC)
  forN M.toNat (fun i => gemmElTT kA conjA conjB K ALPHA A LDA (B + 4 * j) LDB BETA (C + 4 * jc) i)

/-- Body of the `j` loop for ALPHA = 0 — `hblas_gemm_impl.hpp:71-74` (BETA = 0), `:76-79`. -/
def gemmColA0 [ArithEq F] (M : Int) (BETA : Scal F) (C LDC j : Int) : Prog F Unit := do
  let jc ← i32 (j * LDC)
  if BETA.eqZero then forN M.toNat (fun i => zeroEl (C + 4 * jc) i)
  else forN M.toNat (fun i => betaEl BETA (C + 4 * jc) i)

/-- `HBLAS_GEMM` (template) — `include/hblas/generic/hblas3/hblas_gemm_impl.hpp:17-227`. -/
def gemmGen [ArithEq F] (kA : Kind) (TRANSA TRANSB : Char) (M N K : Int) (ALPHA : Scal F) (A LDA B LDB : Int)
    (BETA : Scal F) (C LDC : Int) : Prog F Unit :=
  let NOTA := TRANSA == 'N'
  let NOTB := TRANSB == 'N'
  let CONJA := TRANSA == 'C'
  let CONJB := TRANSB == 'C'
  if (decide (M = 0)) || (decide (N = 0)) || ((ALPHA.eqZero || decide (K = 0)) && BETA.eqOne) then pure ()
  else if ALPHA.eqZero then forN N.toNat (fun j => gemmColA0 M BETA C LDC j)
  else if NOTB then
    if NOTA then forN N.toNat (fun j => gemmColNN kA M K ALPHA A LDA B LDB BETA C LDC j)
    else if CONJA then forN N.toNat (fun j => gemmColTN kA true M K ALPHA A LDA B LDB BETA C LDC j)
    else forN N.toNat (fun j => gemmColTN kA false M K ALPHA A LDA B LDB BETA C LDC j)
  else if NOTA then
    if CONJB then forN N.toNat (fun j => gemmColNT kA true M K ALPHA A LDA B LDB BETA C LDC j)
    else forN N.toNat (fun j => gemmColNT kA false M K ALPHA A LDA B LDB BETA C LDC j)
  else if CONJA then
    if CONJB then forN N.toNat (fun j => gemmColTT kA true true M K ALPHA A LDA B LDB BETA C LDC j)
    else forN N.toNat (fun j => gemmColTT kA true false M K ALPHA A LDA B LDB BETA C LDC j)
  else
    if CONJB then forN N.toNat (fun j => gemmColTT kA false true M K ALPHA A LDA B LDB BETA C LDC j)
    else forN N.toNat (fun j => gemmColTT kA false false M K ALPHA A LDA B LDB BETA C LDC j)

/-! ## GEMV -/

/-- Scaling of y — `include/hblas/generic/hblas2/hblas_gemv_impl.hpp:82-105`; the strided loop counts
`iy += INCY` in 32 bits. -/
def gemvScale [ArithEq F] (LENY : Int) (BETA : Scal F) (Y INCY : Int) : Prog F Unit :=
  if !BETA.eqOne then
    if INCY = 1 then
      if BETA.eqZero then forN LENY.toNat (fun i => zeroEl Y i)
      else forN LENY.toNat (fun i => betaEl BETA Y i)
    else if BETA.eqZero then do
      let _ ← foldN LENY.toNat (fun _ iy => do zeroEl Y iy; i32 (iy + INCY)) 0
    else do
      let _ ← foldN LENY.toNat (fun _ iy => do betaEl BETA Y iy; i32 (iy + INCY)) 0
  else pure ()

/-- `RANK2_INDX(i,j,LDA)` — `include/util/macro.hpp:16`. -/
def rank2 {F : Type} (i j LD : Int) : Prog F Int := do
  let p ← i32 (j * LD)
  i32 (i + p)

/-- `Y[iy] += A(i,j)*htemp1; Y[iy] += (ALPHA*A(i,j) - A(i,j)*ALPHA) * X[jx];` —
`hblas_gemv_impl.hpp:126,133` and `:149,156`. -/
def gemvAxpyEl (kA : Kind) (ALPHA : Scal F) (A LDA X Y j jx : Int) (htemp1 : Quat F) (i iy : Int) : Prog F Unit := do
  let p ← rank2 i j LDA
  let a ← loadK kA (A + kA.width * p)
  let y ← loadQ (Y + 4 * iy)
  storeQ (Y + 4 * iy) (Quat.addAssign y (a.mulL htemp1))
  let a1 ← loadK kA (A + kA.width * p)
  let x ← loadQ (X + 4 * jx)
  let y1 ← loadQ (Y + 4 * iy)
  storeQ (Y + 4 * iy) (Quat.addAssign y1 (((ALPHA.mul a1).sub (a1.mul ALPHA)).mulL x))

/-- Body of the `j` loop, TRANS = 'N' — `hblas_gemv_impl.hpp:118-137` (INCY = 1), `:141-160`. -/
def gemvColN (kA : Kind) (M : Int) (ALPHA : Scal F) (A LDA X INCX Y INCY j jx : Int) : Prog F Int := do
  let x ← loadQ (X + 4 * jx)
  let htemp1 := ALPHA.mulL x
  if INCY = 1 then forN M.toNat (fun i => gemvAxpyEl kA ALPHA A LDA X Y j jx htemp1 i i)
  else do
    let _ ← foldN M.toNat (fun i iy => do
      gemvAxpyEl kA ALPHA A LDA X Y j jx htemp1 i iy
      i32 (iy + INCY)) 0
  i32 (jx + INCX)

/-- `htemp1 += A(i,j) * X[ix]`, A(i,j) conjugated unless NOCONJ — `hblas_gemv_impl.hpp:181,184,198,201`. -/
def gemvDotEl (kA : Kind) (NOCONJ : Bool) (A LDA X j i ix : Int) (htemp1 : Quat F) : Prog F (Quat F) := do
  let p ← rank2 i j LDA
  let a ← loadK kA (A + kA.width * p)
  let x ← loadQ (X + 4 * ix)
  pure (Quat.addAssign htemp1 ((if NOCONJ then a else a.smartConj).mulL x))

/-- Body of the `j` loop, TRANS ≠ 'N' — `hblas_gemv_impl.hpp:175-188` (INCX = 1), `:192-205`. -/
def gemvColT (kA : Kind) (NOCONJ : Bool) (M : Int) (ALPHA : Scal F) (A LDA X INCX Y INCY j jy : Int) : Prog F Int := do
  let htemp1 ← if INCX = 1 then
      foldN M.toNat (fun i h => gemvDotEl kA NOCONJ A LDA X j i i h) (Quat.mkReal zero)
    else (do
      let r ← foldN M.toNat (fun i (s : Int × Quat F) => do
        let h ← gemvDotEl kA NOCONJ A LDA X j i s.1 s.2
        let ix ← i32 (s.1 + INCX)
        pure (ix, h)) (0, Quat.mkReal zero)
      pure r.2)
  let y ← loadQ (Y + 4 * jy)
  storeQ (Y + 4 * jy) (Quat.addAssign y (ALPHA.mulL htemp1))
  i32 (jy + INCY)

/-- `HBLAS_GEMV` (template) — `include/hblas/generic/hblas2/hblas_gemv_impl.hpp:48-211`. -/
def gemvGen [ArithEq F] (kA : Kind) (TRANS : Char) (M N : Int) (ALPHA : Scal F) (A LDA X INCX : Int) (BETA : Scal F)
    (Y INCY : Int) : Prog F Unit :=
  if (decide (M = 0)) || (decide (N = 0)) || (ALPHA.eqZero && BETA.eqOne) then pure ()
  else do
    assertP (INCX > 0)
    assertP (INCY > 0)
    let NOCONJ := TRANS == 'T'
    let LENY := if TRANS ≠ 'N' then N else M
    gemvScale LENY BETA Y INCY
    if ALPHA.eqZero then pure ()
    else if TRANS = 'N' then do
      let _ ← foldN N.toNat (fun j jx => gemvColN kA M ALPHA A LDA X INCX Y INCY j jx) 0
    else do
      let _ ← foldN N.toNat (fun j jy => gemvColT kA NOCONJ M ALPHA A LDA X INCX Y INCY j jy) 0

/-! ## GERU, GERC -/

/-- `A[RANK2_INDX(i,j,LDA)] += ALPHA * X[ix] * Y[JY]` — `hblas_geru_impl.hpp:63,77` — or with
`conj(Y[JY])` — `hblas_gerc_impl.hpp:63,77`. -/
def gerEl (conjY : Bool) (ALPHA : Scal F) (X Y A LDA j JY i ix : Int) : Prog F Unit := do
  let x ← loadQ (X + 4 * ix)
  let y ← loadQ (Y + 4 * JY)
  let p ← rank2 i j LDA
  let a ← loadQ (A + 4 * p)
  storeQ (A + 4 * p) (Quat.addAssign a (Quat.mul (ALPHA.mulL x) (if conjY then y.conj else y)))

/-- Body of the `j` loop — `hblas_geru_impl.hpp:59-66` (INCX = 1), `:73-80`; `hblas_gerc_impl.hpp` the
same lines. -/
def gerCol [ArithEq F] (conjY : Bool) (M : Int) (ALPHA : Scal F) (X INCX Y INCY A LDA j JY : Int) : Prog F Int := do
  let y ← loadQ (Y + 4 * JY)
  if Quat.neOp y (Quat.mkReal zero) then
    if INCX = 1 then forN M.toNat (fun i => gerEl conjY ALPHA X Y A LDA j JY i i)
    else do
      let _ ← foldN M.toNat (fun i ix => do
        gerEl conjY ALPHA X Y A LDA j JY i ix
        i32 (ix + INCX)) 0
  else pure ()
  i32 (JY + INCY)

/-- `HBLAS_GERU` (template) — `include/hblas/generic/hblas2/hblas_geru_impl.hpp:35-82`
(`conjY = false`), and `HBLAS_GERC` — `hblas_gerc_impl.hpp:36-82` (`conjY = true`). -/
def gerGen [ArithEq F] (conjY : Bool) (M N : Int) (ALPHA : Scal F) (X INCX Y INCY A LDA : Int) : Prog F Unit :=
  if (decide (M = 0)) || (decide (N = 0)) || ALPHA.eqZero then pure ()
  else do
    assertP (INCX > 0)
    assertP (INCY > 0)
    let _ ← foldN N.toNat (fun j JY => gerCol conjY M ALPHA X INCX Y INCY A LDA j JY) 0

end Haxx
