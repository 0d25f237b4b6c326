import Verif.Generic3

/-!
# The portable header templates for real and complex vectors and matrices
(`include/hblas/generic/hblas1/hblas_axpyv_impl.hpp`, `include/hblas/generic/hblas2/*_impl.hpp`,
`include/hblas/generic/hblas3/hblas_gemm_impl.hpp`)

`Generic1` and `Generic3` model the templates with X (AXPYV, GEMV), X and Y (GERU, GERC) and B (GEMM)
quaternion.  The element types of these operands are template parameters (`_XF`, `_VecF`, `_LeftVecF`,
`_RightVecF`, `_BMatF`) too: here they are `double`, `std::complex<double>` or `quaternion<double>`, so
that products such as `ALPHA * X[i]` need not be quaternions and the overloads `quaternion += double`,
`quaternion += std::complex`, `quaternion = double` and `quaternion = std::complex` come into play.
(`PropsMix` proves that with the quaternion type these definitions are those of `Generic1` and `Generic3`.)

GERC applies `conj` to an element of Y, which for a `double` does not compile: that case is not a program.
-/

namespace Haxx
open Arith

variable {F : Type} [Arith F]

namespace Scal

/-- `q += s` — `include/haxx/haxx_scalar_op.hpp:48-54` (real), `haxx_complex_op.hpp:46-52` (complex),
`haxx_quaternion_op.hpp:36-44` (quaternion). -/
def addTo (q : Quat F) : Scal F → Quat F
  | .d a => Quat.addAssignReal q a
  | .z a => Quat.addAssignCplx q a
  | .h a => Quat.addAssign q a

/-- `quaternion q; q = s` — `include/haxx/haxx_scalar_op.hpp:25-33` (real), `haxx_complex_op.hpp:25-33`
(complex), the defaulted assignment (quaternion). -/
def toQuat : Scal F → Quat F
  | .d a => ⟨a, zero, zero, zero⟩
  | .z a => ⟨a.re, a.im, zero, zero⟩
  | .h a => a

end Scal

/-! ## AXPYV -/

/-- `Y[iy] += ALPHA * X[ix]` / `Y[iy] += X[ix] * ALPHA`. -/
def axpyElK (kX : Kind) (isL : Bool) (ALPHA : Scal F) (X Y ix iy : Int) : Prog F Unit := do
  let x ← loadK kX (X + kX.width * ix)
  let y ← loadQ (Y + 4 * iy)
  storeQ (Y + 4 * iy) (Scal.addTo y (if isL then Scal.mul ALPHA x else Scal.mul x ALPHA))

/-- Unrolled loop body — `hblas_axpyv_impl.hpp:69-72` (left), `:76-79` (right). -/
def axpyUnrollK (kX : Kind) (isL : Bool) (ALPHA : Scal F) (X Y i : Int) : Prog F Unit := do
  axpyElK kX isL ALPHA X Y i i
  axpyElK kX isL ALPHA X Y (i+1) (i+1)
  axpyElK kX isL ALPHA X Y (i+2) (i+2)
  axpyElK kX isL ALPHA X Y (i+3) (i+3)

/-- `HBLAS_AXPYV` — `include/hblas/generic/hblas1/hblas_axpyv_impl.hpp:36-93`, for any `_XF`. -/
def axpyvGenK [ArithEq F] (kX : Kind) (SIDE : Char) (N : Int) (ALPHA : Scal F) (X INCX Y INCY : Int) :
    Prog F Unit :=
  if N ≤ 0 then pure ()
  else if ALPHA.eqZero then pure ()
  else do
    assertP (INCX > 0)
    assertP (INCY > 0)
    let isR := SIDE == 'R'
    let isL := !isR
    if INCX = 1 ∧ INCY = 1 then
      let m := N.tmod 4
      if m ≠ 0 then
        forN m.toNat (fun i => axpyElK kX isL ALPHA X Y i i)
        if N < 4 then pure ()
        else forStep m N 4 (axpyUnrollK kX isL ALPHA X Y)
      else forStep m N 4 (axpyUnrollK kX isL ALPHA X Y)
    else
      let _ ← foldN N.toNat (fun _ s => stridedStep (axpyElK kX isL ALPHA X Y) INCX INCY s) (0, 0)

/-! ## GEMM -/

/-- `CCol[i] += ALPHA * ACol[i] * b`, `b` being the element at `bp`, conjugated or not —
`hblas_gemm_impl.hpp:99,147,165`. -/
def gemmAxpyElK (kA kB : Kind) (conjB : Bool) (ALPHA : Scal F) (ACol bp CCol i : Int) : Prog F Unit := do
  let a ← loadK kA (ACol + kA.width * i)
  let b ← loadK kB bp
  let c ← loadQ (CCol + 4 * i)
  storeQ (CCol + 4 * i) (Scal.addTo c ((ALPHA.mul a).mul (if conjB then b.smartConj else b)))

/-- Body of the `j` loop for op(A) = A, op(B) = B — `hblas_gemm_impl.hpp:86-101`. -/
def gemmColNNK [ArithEq F] (kA kB : Kind) (M K : Int) (ALPHA : Scal F) (A LDA B LDB : Int) (BETA : Scal F) (C LDC j : Int) :
    Prog F Unit := do
  let jc ← i32 (j * LDC)
  let jb ← i32 (j * LDB)
  gemmBetaCol BETA M (C + 4 * jc)
  forN K.toNat (fun (l : Nat) => do
    let la ← i32 (l * LDA)
    forN M.toNat (fun i => gemmAxpyElK kA kB false ALPHA (A + kA.width * la) (B + kB.width * jb + kB.width * l) (C + 4 * jc) i))

/-- Body of the `j` loop for op(A) = A, op(B) = B^H (`conjB`) — `hblas_gemm_impl.hpp:134-149` — or
op(B) = B^T — `:152-167`. -/
def gemmColNTK [ArithEq F] (kA kB : Kind) (conjB : Bool) (M K : Int) (ALPHA : Scal F) (A LDA B LDB : Int) (BETA : Scal F)
    (C LDC j : Int) : Prog F Unit := do
  let jc ← i32 (j * LDC)
  gemmBetaCol BETA M (C + 4 * jc)
  forN K.toNat (fun (l : Nat) => do
    let la ← i32 (l * LDA)
    let lb ← i32 (l * LDB)
    forN M.toNat (fun i => gemmAxpyElK kA kB conjB ALPHA (A + kA.width * la) (B + kB.width * lb + kB.width * j) (C + 4 * jc) i))

/-- `htemp += a * b`, `a = ACol[l]`, `b` at `bp`, each conjugated or not —
`hblas_gemm_impl.hpp:110,125,177,190,206,219`. -/
def gemmDotElK (kA kB : Kind) (conjA conjB : Bool) (ACol bp l : Int) (htemp : Quat F) : Prog F (Quat F) := do
  let a ← loadK kA (ACol + kA.width * l)
  let b ← loadK kB bp
  pure (Scal.addTo htemp
    ((if conjA then a.smartConj else a).mul (if conjB then b.smartConj else b)))

/-- Body of the `i` loop for op(A) ≠ A, op(B) = B — `hblas_gemm_impl.hpp:107-114` (A^H),
`:122-129` (A^T). -/
def gemmElTNK [ArithEq F] (kA kB : Kind) (conjA : Bool) (K : Int) (ALPHA : Scal F) (A LDA BCol : Int) (BETA : Scal F)
    (CCol i : Int) : Prog F Unit := do
  let ia ← i32 (i * LDA)
  let htemp ← foldN K.toNat (fun l htemp =>
    gemmDotElK kA kB conjA false (A + kA.width * ia) (BCol + kB.width * l) l htemp) (Quat.mkReal zero)
  gemmStoreEl ALPHA BETA CCol i htemp

/-- Body of the `i` loop for op(A) ≠ A, op(B) ≠ B — `hblas_gemm_impl.hpp:174-181` (A^H B^H),
`:187-194` (A^H B^T), `:203-210` (A^T B^H), `:216-223` (A^T B^T). -/
def gemmElTTK [ArithEq F] (kA kB : Kind) (conjA conjB : Bool) (K : Int) (ALPHA : Scal F) (A LDA BRow LDB : Int)
    (BETA : Scal F) (CCol i : Int) : Prog F Unit := do
  let ia ← i32 (i * LDA)
  let htemp ← foldN K.toNat (fun (l : Nat) htemp => do
    let lb ← i32 (l * LDB)
    gemmDotElK kA kB conjA conjB (A + kA.width * ia) (BRow + kB.width * lb) l htemp) (Quat.mkReal zero)
  gemmStoreEl ALPHA BETA CCol i htemp

/-- Body of the `j` loop for op(A) ≠ A, op(B) = B — `hblas_gemm_impl.hpp:103-115`, `:118-130`. -/
def gemmColTNK [ArithEq F] (kA kB : Kind) (conjA : Bool) (M K : Int) (ALPHA : Scal F) (A LDA B LDB : Int) (BETA : Scal F)
    (C LDC j : Int) : Prog F Unit := do
  let jc ← i32 (j * LDC)
  let jb ← i32 (j * LDB)
  forN M.toNat (fun i => gemmElTNK kA kB conjA K ALPHA A LDA (B + kB.width * jb) BETA (C + 4 * jc) i)

/-- Body of the `j` loop for op(A) ≠ A, op(B) ≠ B — `hblas_gemm_impl.hpp:171-182`, `:184-195`,
`:200-211`, `:213-224`. -/
def gemmColTTK [ArithEq F] (kA kB : Kind) (conjA conjB : Bool) (M K : Int) (ALPHA : Scal F) (A LDA B LDB : Int)
    (BETA : Scal F) (C LDC j : Int) : Prog F Unit := do
  let jc ← i32 (j * LDC)
  forN M.toNat (fun i => gemmElTTK kA kB conjA conjB K ALPHA A LDA (B + kB.width * j) LDB BETA (C + 4 * jc) i)

/-- `HBLAS_GEMM` (template) — `include/hblas/generic/hblas3/hblas_gemm_impl.hpp:17-227`, for any types
of A and B. -/
def gemmGenK [ArithEq F] (kA kB : Kind) (TRANSA TRANSB : Char) (M N K : Int) (ALPHA : Scal F) (A LDA B LDB : Int)
    (BETA : Scal F) (C LDC : Int) : Prog F Unit :=
  let NOTA := TRANSA == 'N'
  let NOTB := TRANSB == 'N'
  let CONJA := TRANSA == 'C'
  let CONJB := TRANSB == 'C'
  if (decide (M = 0)) || (decide (N = 0)) || ((ALPHA.eqZero || decide (K = 0)) && BETA.eqOne) then pure ()
  else if ALPHA.eqZero then forN N.toNat (fun j => gemmColA0 M BETA C LDC j)
  else if NOTB then
    if NOTA then forN N.toNat (fun j => gemmColNNK kA kB M K ALPHA A LDA B LDB BETA C LDC j)
    else if CONJA then forN N.toNat (fun j => gemmColTNK kA kB true M K ALPHA A LDA B LDB BETA C LDC j)
    else forN N.toNat (fun j => gemmColTNK kA kB false M K ALPHA A LDA B LDB BETA C LDC j)
  else if NOTA then
    if CONJB then forN N.toNat (fun j => gemmColNTK kA kB true M K ALPHA A LDA B LDB BETA C LDC j)
    else forN N.toNat (fun j => gemmColNTK kA kB false M K ALPHA A LDA B LDB BETA C LDC j)
  else if CONJA then
    if CONJB then forN N.toNat (fun j => gemmColTTK kA kB true true M K ALPHA A LDA B LDB BETA C LDC j)
    else forN N.toNat (fun j => gemmColTTK kA kB true false M K ALPHA A LDA B LDB BETA C LDC j)
  else
    if CONJB then forN N.toNat (fun j => gemmColTTK kA kB false true M K ALPHA A LDA B LDB BETA C LDC j)
    else forN N.toNat (fun j => gemmColTTK kA kB false false M K ALPHA A LDA B LDB BETA C LDC j)

/-! ## GEMV -/

/-- `Y[iy] += A(i,j)*htemp1; Y[iy] += (ALPHA*A(i,j) - A(i,j)*ALPHA) * X[jx];` —
`hblas_gemv_impl.hpp:126,133` and `:149,156`. -/
def gemvAxpyElK (kA kX : Kind) (ALPHA : Scal F) (A LDA X Y j jx : Int) (htemp1 : Quat F) (i iy : Int) : Prog F Unit := do
  let p ← rank2 i j LDA
  let a ← loadK kA (A + kA.width * p)
  let y ← loadQ (Y + 4 * iy)
  storeQ (Y + 4 * iy) (Quat.addAssign y (a.mulL htemp1))
  let a1 ← loadK kA (A + kA.width * p)
  let x ← loadK kX (X + kX.width * jx)
  let y1 ← loadQ (Y + 4 * iy)
  storeQ (Y + 4 * iy) (Scal.addTo y1 (((ALPHA.mul a1).sub (a1.mul ALPHA)).mul x))

/-- Body of the `j` loop, TRANS = 'N' — `hblas_gemv_impl.hpp:118-137` (INCY = 1), `:141-160`;
`htemp1 = ALPHA * X[jx]` assigns a real, complex or quaternion number to a quaternion. -/
def gemvColNK (kA kX : Kind) (M : Int) (ALPHA : Scal F) (A LDA X INCX Y INCY j jx : Int) : Prog F Int := do
  let x ← loadK kX (X + kX.width * jx)
  let htemp1 := (ALPHA.mul x).toQuat
  if INCY = 1 then forN M.toNat (fun i => gemvAxpyElK kA kX ALPHA A LDA X Y j jx htemp1 i i)
  else do
    let _ ← foldN M.toNat (fun i iy => do
      gemvAxpyElK kA kX ALPHA A LDA X Y j jx htemp1 i iy
      i32 (iy + INCY)) 0
  i32 (jx + INCX)

/-- `htemp1 += A(i,j) * X[ix]`, A(i,j) conjugated unless NOCONJ — `hblas_gemv_impl.hpp:181,184,198,201`. -/
def gemvDotElK (kA kX : Kind) (NOCONJ : Bool) (A LDA X j i ix : Int) (htemp1 : Quat F) : Prog F (Quat F) := do
  let p ← rank2 i j LDA
  let a ← loadK kA (A + kA.width * p)
  let x ← loadK kX (X + kX.width * ix)
  pure (Scal.addTo htemp1 ((if NOCONJ then a else a.smartConj).mul x))

/-- Body of the `j` loop, TRANS ≠ 'N' — `hblas_gemv_impl.hpp:175-188` (INCX = 1), `:192-205`. -/
def gemvColTK (kA kX : Kind) (NOCONJ : Bool) (M : Int) (ALPHA : Scal F) (A LDA X INCX Y INCY j jy : Int) : Prog F Int := do
  let htemp1 ← if INCX = 1 then
      foldN M.toNat (fun i h => gemvDotElK kA kX NOCONJ A LDA X j i i h) (Quat.mkReal zero)
    else (do
      let r ← foldN M.toNat (fun i (s : Int × Quat F) => do
        let h ← gemvDotElK kA kX NOCONJ A LDA X j i s.1 s.2
        let ix ← i32 (s.1 + INCX)
        pure (ix, h)) (0, Quat.mkReal zero)
      pure r.2)
  let y ← loadQ (Y + 4 * jy)
  storeQ (Y + 4 * jy) (Quat.addAssign y (ALPHA.mulL htemp1))
  i32 (jy + INCY)

/-- `HBLAS_GEMV` (template) — `include/hblas/generic/hblas2/hblas_gemv_impl.hpp:48-211`, for any types
of A and X. -/
def gemvGenK [ArithEq F] (kA kX : Kind) (TRANS : Char) (M N : Int) (ALPHA : Scal F) (A LDA X INCX : Int) (BETA : Scal F)
    (Y INCY : Int) : Prog F Unit :=
  if (decide (M = 0)) || (decide (N = 0)) || (ALPHA.eqZero && BETA.eqOne) then pure ()
  else do
    assertP (INCX > 0)
    assertP (INCY > 0)
    let NOCONJ := TRANS == 'T'
    let LENY := if TRANS ≠ 'N' then N else M
    gemvScale LENY BETA Y INCY
    if ALPHA.eqZero then pure ()
    else if TRANS = 'N' then do
      let _ ← foldN N.toNat (fun j jx => gemvColNK kA kX M ALPHA A LDA X INCX Y INCY j jx) 0
    else do
      let _ ← foldN N.toNat (fun j jy => gemvColTK kA kX NOCONJ M ALPHA A LDA X INCX Y INCY j jy) 0

/-! ## GERU, GERC -/

/-- `A[RANK2_INDX(i,j,LDA)] += ALPHA * X[ix] * Y[JY]` — `hblas_geru_impl.hpp:63,77` — or with
`conj(Y[JY])` — `hblas_gerc_impl.hpp:63,77` (for a complex Y[JY], `std::conj`). -/
def gerElK (kX kY : Kind) (conjY : Bool) (ALPHA : Scal F) (X Y A LDA j JY i ix : Int) : Prog F Unit := do
  let x ← loadK kX (X + kX.width * ix)
  let y ← loadK kY (Y + kY.width * JY)
  let p ← rank2 i j LDA
  let a ← loadQ (A + 4 * p)
  storeQ (A + 4 * p) (Scal.addTo a ((ALPHA.mul x).mul (if conjY then y.smartConj else y)))

/-- Body of the `j` loop — `hblas_geru_impl.hpp:59-66` (INCX = 1), `:73-80`; `hblas_gerc_impl.hpp` the
same lines.  `Y[JY] != _RightVecF(0.)` is the negation of `==` for each of the three types. -/
def gerColK [ArithEq F] (kX kY : Kind) (conjY : Bool) (M : Int) (ALPHA : Scal F) (X INCX Y INCY A LDA j JY : Int) :
    Prog F Int := do
  let y ← loadK kY (Y + kY.width * JY)
  if !y.eqZero then
    if INCX = 1 then forN M.toNat (fun i => gerElK kX kY conjY ALPHA X Y A LDA j JY i i)
    else do
      let _ ← foldN M.toNat (fun i ix => do
        gerElK kX kY conjY ALPHA X Y A LDA j JY i ix
        i32 (ix + INCX)) 0
  else pure ()
  i32 (JY + INCY)

/-- `HBLAS_GERU` (template) — `include/hblas/generic/hblas2/hblas_geru_impl.hpp:35-82`
(`conjY = false`), and `HBLAS_GERC` — `hblas_gerc_impl.hpp:36-82` (`conjY = true`), for any types of X
and Y. -/
def gerGenK [ArithEq F] (kX kY : Kind) (conjY : Bool) (M N : Int) (ALPHA : Scal F) (X INCX Y INCY A LDA : Int) :
    Prog F Unit :=
  if (decide (M = 0)) || (decide (N = 0)) || ALPHA.eqZero then pure ()
  else do
    assertP (INCX > 0)
    assertP (INCY > 0)
    let _ ← foldN N.toNat (fun j JY => gerColK kX kY conjY M ALPHA X INCX Y INCY A LDA j JY) 0

end Haxx
