import Verif.ThrPrim
import Verif.Hblas1
import Verif.Hblas1m
import Verif.Gemm

/-!
# Threads: Hblas1, Hblas1m, Gemm

Generated by `tools/gen_thr.py` from the definitions of the main model: every definition has the text of its
namesake, read with single memory accesses (`Haxx.Thr.Prog`); `run_…` says that its sequential meaning is the namesake.
-/

set_option linter.unusedVariables false
set_option linter.unusedSectionVars false
set_option linter.unusedSimpArgs false

namespace Haxx.Thr
open Arith

variable {F : Type}
/-- As `Haxx.loadM`, `if (isAligned) x = LOAD_256D_ALIGNED_AS(..) else x = LOAD_256D_UNALIGNED_AS(..)`. -/
def loadM (isAligned : Bool) (p : Int) : Prog F (V4 F) := if isAligned then loadA p else loadQ p

@[thr] theorem run_loadM (isAligned : Bool) (p : Int) :
    (Thr.loadM isAligned p (F := F)).run = Haxx.loadM isAligned p (F := F) := by
  simp only [Thr.loadM, Haxx.loadM, thr]

/-- As `Haxx.storeM`, `if (isAligned) STORE_256D_ALIGNED_AS(..) else STORE_256D_UNALIGNED_AS(..)`. -/
def storeM (isAligned : Bool) (p : Int) (v : V4 F) : Prog F Unit :=
  if isAligned then storeA p v else storeQ p v

@[thr] theorem run_storeM (isAligned : Bool) (p : Int) (v : V4 F) :
    (Thr.storeM isAligned p v (F := F)).run = Haxx.storeM isAligned p v (F := F) := by
  simp only [Thr.storeM, Haxx.storeM, thr]

/-- As `Haxx.copyBody`, Loop body of `HBLAS_COPYV` — `copy_swap.cxx:58-77` (aligned) and `:79-99` (unaligned). -/
def copyBody (al : Bool) (INCX INCY : Int) (loc : Int × Int) : Prog F (Int × Int) := do
  let x1 ← loadM al loc.1
  storeM al loc.2 x1
  pure (loc.1 + 4 * INCX, loc.2 + 4 * INCY)

@[thr] theorem run_copyBody (al : Bool) (INCX : Int) (INCY : Int) (loc : Int × Int) :
    (Thr.copyBody al INCX INCY loc (F := F)).run = Haxx.copyBody al INCX INCY loc (F := F) := by
  simp only [Thr.copyBody, Haxx.copyBody, thr]

/-- As `Haxx.copyvAVX`, `HBLAS_COPYV` — `src/hblas/cxx/hblas1/copy_swap.cxx:22-101` without `_SWAP`. -/
def copyvAVX (N X INCX Y INCY : Int) : Prog F Unit := do
  let isAligned := aligned32 X && aligned32 Y
  if isAligned then
    let _ ← foldN N.toNat (fun _ loc => copyBody true INCX INCY loc) (X, Y)
  else
    let _ ← foldN N.toNat (fun _ loc => copyBody false INCX INCY loc) (X, Y)

@[thr] theorem run_copyvAVX (N : Int) (X : Int) (INCX : Int) (Y : Int) (INCY : Int) :
    (Thr.copyvAVX N X INCX Y INCY (F := F)).run = Haxx.copyvAVX N X INCX Y INCY (F := F) := by
  simp only [Thr.copyvAVX, Haxx.copyvAVX, thr]

/-- As `Haxx.swapBody`, Loop body of `HBLAS_SWAPV` — `copy_swap.cxx:58-77`, `:79-99` with `_SWAP`. -/
def swapBody (al : Bool) (INCX INCY : Int) (loc : Int × Int) : Prog F (Int × Int) := do
  let x1 ← loadM al loc.1
  let y1 ← loadM al loc.2
  storeM al loc.2 x1
  storeM al loc.1 y1
  pure (loc.1 + 4 * INCX, loc.2 + 4 * INCY)

@[thr] theorem run_swapBody (al : Bool) (INCX : Int) (INCY : Int) (loc : Int × Int) :
    (Thr.swapBody al INCX INCY loc (F := F)).run = Haxx.swapBody al INCX INCY loc (F := F) := by
  simp only [Thr.swapBody, Haxx.swapBody, thr]

/-- As `Haxx.swapvAVX`, `HBLAS_SWAPV` — `src/hblas/cxx/hblas1/copy_swap.cxx:22-101` with `_SWAP`. -/
def swapvAVX (N X INCX Y INCY : Int) : Prog F Unit := do
  let isAligned := aligned32 X && aligned32 Y
  if isAligned then
    let _ ← foldN N.toNat (fun _ loc => swapBody true INCX INCY loc) (X, Y)
  else
    let _ ← foldN N.toNat (fun _ loc => swapBody false INCX INCY loc) (X, Y)

@[thr] theorem run_swapvAVX (N : Int) (X : Int) (INCX : Int) (Y : Int) (INCY : Int) :
    (Thr.swapvAVX N X INCX Y INCY (F := F)).run = Haxx.swapvAVX N X INCX Y INCY (F := F) := by
  simp only [Thr.swapvAVX, Haxx.swapvAVX, thr]

variable [Arith F]
/-- As `Haxx.scalvAVX`, `HBLAS_SCALV` — `src/hblas/cxx/hblas1/axpy_scal.cxx:26-212` with `_SCAL`. -/
def scalvAVX (SIDE : Char) (N : Int) (ALPHA : Scal F) (X INCX : Int) : Prog F Unit := do
  let MulLeft := SIDE == 'L'
  let isAligned := aligned32 X
  let _ ← foldN N.toNat (fun _ locX => do
    let x1 ← loadM isAligned locX
    let x1 := scalOp MulLeft ALPHA x1
    storeM isAligned locX x1
    pure (locX + 4 * INCX)) X

@[thr] theorem run_scalvAVX (SIDE : Char) (N : Int) (ALPHA : Scal F) (X : Int) (INCX : Int) :
    (Thr.scalvAVX SIDE N ALPHA X INCX (F := F)).run = Haxx.scalvAVX SIDE N ALPHA X INCX (F := F) := by
  simp only [Thr.scalvAVX, Haxx.scalvAVX, thr]

/-- As `Haxx.axpyvAVX`, `HBLAS_AXPYV` — `src/hblas/cxx/hblas1/axpy_scal.cxx:26-212` with `_AXPY`. -/
def axpyvAVX (SIDE : Char) (N : Int) (ALPHA : Scal F) (X INCX Y INCY : Int) : Prog F Unit := do
  let MulLeft := SIDE == 'L'
  let isAligned := aligned32 X && aligned32 Y
  let _ ← foldN N.toNat (fun _ (loc : Int × Int) => do
    let x1 ← loadM isAligned loc.1
    let y1 ← loadM isAligned loc.2
    let y1 := axpyOp MulLeft ALPHA x1 y1
    storeM isAligned loc.2 y1
    pure (loc.1 + 4 * INCX, loc.2 + 4 * INCY)) (X, Y)

@[thr] theorem run_axpyvAVX (SIDE : Char) (N : Int) (ALPHA : Scal F) (X : Int) (INCX : Int) (Y : Int) (INCY : Int) :
    (Thr.axpyvAVX SIDE N ALPHA X INCX Y INCY (F := F)).run = Haxx.axpyvAVX SIDE N ALPHA X INCX Y INCY (F := F) := by
  simp only [Thr.axpyvAVX, Haxx.axpyvAVX, thr]

/-- As `Haxx.dotBatch`, Batched loop body of `HBLAS_DOTUV`/`HBLAS_DOTCV` — `src/hblas/cxx/hblas1/dot.cxx:70-127`. The `HAXX_INT` products `2*INCX`, `3*INCX`, `BatchSize*INCX` (and for Y) are 32-bit. -/
def dotBatch (conj : Bool) (al : Bool) (INCX INCY : Int) (s : DotSt F) : Prog F (DotSt F) := do
  let inc2x ← i32 (2 * INCX)
  let inc3x ← i32 (3 * INCX)
  let x1 ← loadM al s.locX
  let x2 ← loadM al (s.locX + 4 * INCX)
  let x3 ← loadM al (s.locX + 4 * inc2x)
  let x4 ← loadM al (s.locX + 4 * inc3x)
  let inc2y ← i32 (2 * INCY)
  let inc3y ← i32 (3 * INCY)
  let y1 ← loadM al s.locY
  let y2 ← loadM al (s.locY + 4 * INCY)
  let y3 ← loadM al (s.locY + 4 * inc2y)
  let y4 ← loadM al (s.locY + 4 * inc3y)
  let x := transpose4 ⟨x1, x2, x3, x4⟩
  let y := transpose4 ⟨y1, y2, y3, y4⟩
  let r := if conj then INC_MULD4Q_CN x y s.r else INC_MULD4Q_NN x y s.r
  let dx ← i32 (4 * INCX)
  let dy ← i32 (4 * INCY)
  pure ⟨s.locX + 4 * dx, s.locY + 4 * dy, r⟩

@[thr] theorem run_dotBatch (conj : Bool) (al : Bool) (INCX : Int) (INCY : Int) (s : DotSt F) :
    (Thr.dotBatch conj al INCX INCY s (F := F)).run = Haxx.dotBatch conj al INCX INCY s (F := F) := by
  simp only [Thr.dotBatch, Haxx.dotBatch, thr]

/-- As `Haxx.dotClean`, Clean-up loop body — `dot.cxx:144-165`; `i*INCX`, `i*INCY` are 32-bit. -/
def dotClean (conj : Bool) (al : Bool) (locX locY INCX INCY : Int) (i : Nat) (r1 : V4 F) :
    Prog F (V4 F) := do
  let ix ← i32 (i * INCX)
  let iy ← i32 (i * INCY)
  let x1 ← loadM al (locX + 4 * ix)
  let y1 ← loadM al (locY + 4 * iy)
  if conj then pure (vadd r1 (MULDQ_CN x1 y1)) else pure (vadd r1 (MULDQ_NN x1 y1))

@[thr] theorem run_dotClean (conj : Bool) (al : Bool) (locX : Int) (locY : Int) (INCX : Int) (INCY : Int) (i : Nat) (r1 : V4 F) :
    (Thr.dotClean conj al locX locY INCX INCY i r1 (F := F)).run = Haxx.dotClean conj al locX locY INCX INCY i r1 (F := F) := by
  simp only [Thr.dotClean, Haxx.dotClean, thr]

/-- As `Haxx.dotAVX`, `HBLAS_DOTUV` (`conj = false`) / `HBLAS_DOTCV` (`_CONJ`, `conj = true`) — `src/hblas/cxx/hblas1/dot.cxx:20-175`.  The final unaligned store goes to the local `res`, which is returned. -/
def dotAVX (conj : Bool) (N X INCX Y INCY : Int) : Prog F (Quat F) := do
  let NBatch := N.tdiv 4
  let nLeft := N.tmod 4
  let isAligned := aligned32 X && aligned32 Y
  let s ← foldN NBatch.toNat (fun _ s => dotBatch conj isAligned INCX INCY s)
    ⟨X, Y, ⟨setzero, setzero, setzero, setzero⟩⟩
  let r := transpose4 s.r
  let r1 := vadd r.r1 r.r2
  let r1 := vadd r1 r.r3
  let r1 := vadd r1 r.r4
  foldN nLeft.toNat (fun i r1 => dotClean conj isAligned s.locX s.locY INCX INCY i r1) r1

@[thr] theorem run_dotAVX (conj : Bool) (N : Int) (X : Int) (INCX : Int) (Y : Int) (INCY : Int) :
    (Thr.dotAVX conj N X INCX Y INCY (F := F)).run = Haxx.dotAVX conj N X INCX Y INCY (F := F) := by
  simp only [Thr.dotAVX, Haxx.dotAVX, thr]

-- end of Hblas1

variable {F : Type} [Arith F]
/-- As `Haxx.scalm`, `HBLAS_SCALM` — `include/hblas/generic/hblas1/hblas_scalm_impl.hpp:25-43`. -/
def scalm (SCALV : Char → Int → Scal F → Int → Int → Prog F Unit)
    (SIDE TRANSA : Char) (M N : Int) (ALPHA : Scal F) (A LDA INCA : Int) : Prog F Unit :=
  if N ≤ 0 ∨ M ≤ 0 ∨ INCA ≤ 0 then pure ()
  else do
    assertP (TRANSA == 'N')
    let _ ← foldN N.toNat (fun _ locA => do
      SCALV SIDE M ALPHA locA INCA
      pure (locA + 4 * LDA)) A

@[thr] theorem run_scalm (SCALV : Char → Int → Scal F → Int → Int → Prog F Unit) (SIDE : Char) (TRANSA : Char) (M : Int) (N : Int) (ALPHA : Scal F) (A : Int) (LDA : Int) (INCA : Int) :
    (Thr.scalm SCALV SIDE TRANSA M N ALPHA A LDA INCA (F := F)).run = Haxx.scalm (fun x0 x1 x2 x3 x4 => (SCALV x0 x1 x2 x3 x4).run) SIDE TRANSA M N ALPHA A LDA INCA (F := F) := by
  simp only [Thr.scalm, Haxx.scalm, thr]

/-- As `Haxx.axpym`, `HBLAS_AXPYM` — `include/hblas/generic/hblas1/hblas_axpym_impl.hpp:20-45`. -/
def axpym [ArithEq F] (AXPYV : Char → Int → Scal F → Int → Int → Int → Int → Prog F Unit)
    (SIDE TRANSA : Char) (M N : Int) (ALPHA : Scal F) (A LDA INCA B LDB INCB : Int) : Prog F Unit :=
  if N ≤ 0 ∨ M ≤ 0 then pure ()
  else if ALPHA.eqZero then pure ()
  else do
    assertP (TRANSA == 'N')
    let _ ← foldN N.toNat (fun _ (loc : Int × Int) => do
      AXPYV SIDE M ALPHA loc.1 INCA loc.2 INCB
      pure (loc.1 + 4 * LDA, loc.2 + 4 * LDB)) (A, B)

@[thr] theorem run_axpym [ArithEq F] (AXPYV : Char → Int → Scal F → Int → Int → Int → Int → Prog F Unit) (SIDE : Char) (TRANSA : Char) (M : Int) (N : Int) (ALPHA : Scal F) (A : Int) (LDA : Int) (INCA : Int) (B : Int) (LDB : Int) (INCB : Int) :
    (Thr.axpym AXPYV SIDE TRANSA M N ALPHA A LDA INCA B LDB INCB (F := F)).run = Haxx.axpym (fun x0 x1 x2 x3 x4 x5 x6 => (AXPYV x0 x1 x2 x3 x4 x5 x6).run) SIDE TRANSA M N ALPHA A LDA INCA B LDB INCB (F := F) := by
  simp only [Thr.axpym, Haxx.axpym, thr]

section
end
-- end of Hblas1m

variable {F : Type}
section
variable [Arith F]
end
/-- As `Haxx.packCol2`, `loopBody` with a tuple of two source pointers — `pack.hpp:81-95` (`inc = 1`) and `pack.hpp:169-182` (`inc = LDX`); state `(xCol<0>, xCol<1>, xp)`. `Load`/`Store` are unaligned (`types.hpp:110-125`). -/
def packCol2 (pre : V4 F → V4 F) (op : VV F → VV F) (inc : Int) (s : Int × Int × Int) :
    Prog F (Int × Int × Int) := do
  let x0 ← loadQ s.1
  let x1 ← loadQ s.2.1
  let t := op (pre x0, pre x1)
  storeQ s.2.2 t.1
  storeQ (s.2.2 + 4) t.2
  pure (s.1 + 4 * inc, s.2.1 + 4 * inc, s.2.2 + 4 * 2)

@[thr] theorem run_packCol2 (pre : V4 F → V4 F) (op : VV F → VV F) (inc : Int) (s : Int × Int × Int) :
    (Thr.packCol2 pre op inc s (F := F)).run = Haxx.packCol2 pre op inc s (F := F) := by
  simp only [Thr.packCol2, Haxx.packCol2, thr]

/-- As `Haxx.packCol1`, `loopBody` with a tuple of one source pointer: `apply_n` (`boilerplate.hpp:84-123`) calls `Load()` (zero) for the missing operand. -/
def packCol1 [Arith F] (pre : V4 F → V4 F) (op : VV F → VV F) (inc : Int) (s : Int × Int) :
    Prog F (Int × Int) := do
  let x0 ← loadQ s.1
  let x1 := setzero
  let t := op (pre x0, pre x1)
  storeQ s.2 t.1
  storeQ (s.2 + 4) t.2
  pure (s.1 + 4 * inc, s.2 + 4 * 2)

@[thr] theorem run_packCol1 [Arith F] (pre : V4 F → V4 F) (op : VV F → VV F) (inc : Int) (s : Int × Int) :
    (Thr.packCol1 pre op inc s (F := F)).run = Haxx.packCol1 pre op inc s (F := F) := by
  simp only [Thr.packCol1, Haxx.packCol1, thr]

/-- As `Haxx.TPACK`, `TPACK<2,…>(M,N,X,LDX,Xp,args…)` — `pack.hpp:28-127`.  `N/PK`, `N%PK` are unsigned divisions; the routine is only called with `M,N > 0`. -/
def TPACK [Arith F] (pre : V4 F → V4 F) (op : VV F → VV F) (M N X LDX Xp : Int) : Prog F Unit := do
  let s ← foldN (N / 2).toNat (fun _ (s : Int × Int) => do
    let r ← foldN M.toNat (fun _ c => packCol2 pre op 1 c) (s.1, s.1 + 4 * LDX, s.2)
    pure (s.1 + 4 * (2 * LDX), r.2.2)) (X, Xp)
  let j := N % 2
  if j ≠ 0 then do
    assertP (j == 1)
    let _ ← foldN M.toNat (fun _ c => packCol1 pre op 1 c) s
    pure ()
  else pure ()

@[thr] theorem run_TPACK [Arith F] (pre : V4 F → V4 F) (op : VV F → VV F) (M : Int) (N : Int) (X : Int) (LDX : Int) (Xp : Int) :
    (Thr.TPACK pre op M N X LDX Xp (F := F)).run = Haxx.TPACK pre op M N X LDX Xp (F := F) := by
  simp only [Thr.TPACK, Haxx.TPACK, thr]

/-- As `Haxx.NPACK`, `NPACK<2,…>(M,N,X,LDX,Xp,args…)` — `pack.hpp:133-234`. -/
def NPACK [Arith F] (pre : V4 F → V4 F) (op : VV F → VV F) (M N X LDX Xp : Int) : Prog F Unit := do
  let s ← foldN (M / 2).toNat (fun _ (s : Int × Int) => do
    let r ← foldN N.toNat (fun _ c => packCol2 pre op LDX c) (s.1, s.1 + 4 * 1, s.2)
    pure (s.1 + 4 * 2, r.2.2)) (X, Xp)
  let i := M % 2
  if i ≠ 0 then do
    assertP (i == 1)
    let _ ← foldN N.toNat (fun _ c => packCol1 pre op LDX c) s
    pure ()
  else pure ()

@[thr] theorem run_NPACK [Arith F] (pre : V4 F → V4 F) (op : VV F → VV F) (M : Int) (N : Int) (X : Int) (LDX : Int) (Xp : Int) :
    (Thr.NPACK pre op M N X LDX Xp (F := F)).run = Haxx.NPACK pre op M N X LDX Xp (F := F) := by
  simp only [Thr.NPACK, Haxx.NPACK, thr]

/-- As `Haxx.load2A`, `_mm_load_pd`: 16-byte aligned load of two doubles. -/
def load2A (p : Int) : Prog F (V2 F) := do
  if p % 2 = 0 then
    let a ← rd p
    let b ← rd (p+1)
    pure ⟨a, b⟩
  else fault (.misaligned p)

@[thr] theorem run_load2A (p : Int) :
    (Thr.load2A p (F := F)).run = Haxx.load2A p (F := F) := by
  simp only [Thr.load2A, Haxx.load2A, thr]

variable [Arith F]
/-- As `Haxx.kernBody`, Body of the `do … while` of `Kern` — `kern.cxx:57-123`. -/
def kernBody (s : KernSt F) : Prog F (KernSt F) := do
  let a00 ← loadA s.locA
  let a10 ← loadA (s.locA + 4 * 1)
  let b00lo ← load2A s.locB
  let b00hi ← load2A (s.locB + 2)
  let b10lo ← load2A (s.locB + 4)
  let b10hi ← load2A (s.locB + 6)
  let a_IIII := permute4 a00 0xF
  let a00 := permute4 a00 0x0
  let a_KKKK := permute4 a10 0xF
  let a10 := permute4 a10 0x0
  let bSSSS := set256 b00lo b00lo
  let bIIII := set256 b10lo b10lo
  let bJJJJ := set256 b00hi b00hi
  let bKKKK := set256 b10hi b10hi
  let c := INC_MULD4Q_NN ⟨a00, a_IIII, a10, a_KKKK⟩ ⟨bSSSS, bIIII, bJJJJ, bKKKK⟩ s.c
  pure ⟨s.locA + 4 * 2, s.locB + 4 * 2, c⟩

@[thr] theorem run_kernBody (s : KernSt F) :
    (Thr.kernBody s (F := F)).run = Haxx.kernBody s (F := F) := by
  simp only [Thr.kernBody, Haxx.kernBody, thr]

/-- As `Haxx.Kern`, `Kern(M,N,K,A,B,C,LDC)` — `kern.cxx:27-133`.  Registers are passed to `_MM_TRANSPOSE_4x4_PD` and `INC_MULD4Q_NN` in the order `c00,c01,c10,c11`. -/
def Kern (M N K A B C LDC : Int) : Prog F Unit := do
  let M2 := M == 2
  let N2 := N == 2
  let c00 ← loadQ C
  let c10 ← if M2 then loadQ (C + 4 * 1) else pure setzero
  let c01 ← if N2 then loadQ (C + 4 * LDC) else pure setzero
  let c11 ← if M2 && N2 then loadQ (C + 4 * (LDC + 1)) else pure setzero
  let c := transpose4 ⟨c00, c01, c10, c11⟩
  let s ← foldN K.toNat (fun _ s => kernBody s) ⟨A, B, c⟩
  let c := transpose4 s.c
  storeQ C c.r1
  if M2 then storeQ (C + 4 * 1) c.r3 else pure ()
  if N2 then storeQ (C + 4 * LDC) c.r2 else pure ()
  if M2 && N2 then storeQ (C + 4 * (LDC + 1)) c.r4 else pure ()

@[thr] theorem run_Kern (M : Int) (N : Int) (K : Int) (A : Int) (B : Int) (C : Int) (LDC : Int) :
    (Thr.Kern M N K A B C LDC (F := F)).run = Haxx.Kern M N K A B C LDC (F := F) := by
  simp only [Thr.Kern, Haxx.Kern, thr]

/-- As `Haxx.bPackSel`, `BPACKT`/`BPACKCT`/`BPACKR`/`BPACK` selected as in `gemm.cxx:104-109`, `config/hblas3/gemm.hpp:55-58`; no scalar is passed. -/
def bPackSel (TRANSB : Char) (nJ nK Bp LDB bPack : Int) : Prog F Unit :=
  let alpha : RegScal F := loadScalar none
  if TRANSB = 'T' then NPACK (preOP false alpha) opT2 nJ nK Bp LDB bPack
  else if TRANSB = 'C' then NPACK (preOP true alpha) opT2 nJ nK Bp LDB bPack
  else if TRANSB = 'R' then TPACK (preOP true alpha) opT2 nK nJ Bp LDB bPack
  else TPACK (preOP false alpha) opT2 nK nJ Bp LDB bPack

@[thr] theorem run_bPackSel (TRANSB : Char) (nJ : Int) (nK : Int) (Bp : Int) (LDB : Int) (bPack : Int) :
    (Thr.bPackSel TRANSB nJ nK Bp LDB bPack (F := F)).run = Haxx.bPackSel TRANSB nJ nK Bp LDB bPack (F := F) := by
  simp only [Thr.bPackSel, Haxx.bPackSel, thr]

/-- As `Haxx.aPackSel`, `APACKT`/`APACKCT`/`APACKR`/`APACK` selected as in `gemm.cxx:124-128`, `config/hblas3/gemm.hpp:71-74`, with ALPHA. -/
def aPackSel (TRANSA : Char) (ALPHA : Scal F) (nI nK Ai LDA aPack : Int) : Prog F Unit :=
  let alpha : RegScal F := loadScalar (some ALPHA)
  if TRANSA = 'T' then TPACK (preOP false alpha) opT1 nK nI Ai LDA aPack
  else if TRANSA = 'C' then TPACK (preOP true alpha) opT1 nK nI Ai LDA aPack
  else if TRANSA = 'R' then NPACK (preOP true alpha) opT1 nI nK Ai LDA aPack
  else NPACK (preOP false alpha) opT1 nI nK Ai LDA aPack

@[thr] theorem run_aPackSel (TRANSA : Char) (ALPHA : Scal F) (nI : Int) (nK : Int) (Ai : Int) (LDA : Int) (aPack : Int) :
    (Thr.aPackSel TRANSA ALPHA nI nK Ai LDA aPack (F := F)).run = Haxx.aPackSel TRANSA ALPHA nI nK Ai LDA aPack (F := F) := by
  simp only [Thr.aPackSel, Haxx.aPackSel, thr]

/-- As `Haxx.gemmIIStep`, Body of the loop over `ii` — `gemm.cxx:147-154`; `ii = 2*b`, `nIII = min(2, nI-ii)`; returns the new `(smallC, smallA)`. -/
def gemmIIStep (nI nJJJ nK BL1 LDC : Int) (b : Nat) (smallC smallA : Int) : Prog F (Int × Int) := do
  Kern (min 2 (nI - b * 2)) nJJJ nK smallA BL1 smallC LDC
  let d ← i32 (2 * nK)
  let _ ← i32 (b * 2 + 2)
  pure (smallC + 4 * 2, smallA + 4 * d)

@[thr] theorem run_gemmIIStep (nI : Int) (nJJJ : Int) (nK : Int) (BL1 : Int) (LDC : Int) (b : Nat) (smallC : Int) (smallA : Int) :
    (Thr.gemmIIStep nI nJJJ nK BL1 LDC b smallC smallA (F := F)).run = Haxx.gemmIIStep nI nJJJ nK BL1 LDC b smallC smallA (F := F) := by
  exact run_bind_eq (run_Kern ..) (fun _ => run_bind_eq (run_i32 _) (fun _ => run_bind_eq (run_i32 _) fun _ => run_pure _))

/-- As `Haxx.gemmII`, The loop over `ii` — `gemm.cxx:147-155`, with `smallC = CBlk`, `smallA = aPack` (`gemm.cxx:144-145`). -/
def gemmII (nI nJJJ nK aPack BL1 CBlk LDC : Int) : Prog F Unit := do
  let _ ← foldN (nIter nI 2) (fun b (s : Int × Int) => gemmIIStep nI nJJJ nK BL1 LDC b s.1 s.2)
    (CBlk, aPack)

@[thr] theorem run_gemmII (nI : Int) (nJJJ : Int) (nK : Int) (aPack : Int) (BL1 : Int) (CBlk : Int) (LDC : Int) :
    (Thr.gemmII nI nJJJ nK aPack BL1 CBlk LDC (F := F)).run = Haxx.gemmII nI nJJJ nK aPack BL1 CBlk LDC (F := F) := by
  simp only [Thr.gemmII, Haxx.gemmII, thr]

/-- As `Haxx.gemmJJStep`, Body of the loop over `jj` — `gemm.cxx:141-159`; `jj = 2*b`, `nJJJ = min(2, nJ-jj)`; returns the new `(BL1, CBlk)`. -/
def gemmJJStep (nI nJ nK aPack LDC : Int) (b : Nat) (BL1 CBlk : Int) : Prog F (Int × Int) := do
  gemmII nI (min 2 (nJ - b * 2)) nK aPack BL1 CBlk LDC
  let d ← i32 (2 * nK)
  let e ← i32 (2 * LDC)
  let _ ← i32 (b * 2 + 2)
  pure (BL1 + 4 * d, CBlk + 4 * e)

@[thr] theorem run_gemmJJStep (nI : Int) (nJ : Int) (nK : Int) (aPack : Int) (LDC : Int) (b : Nat) (BL1 : Int) (CBlk : Int) :
    (Thr.gemmJJStep nI nJ nK aPack LDC b BL1 CBlk (F := F)).run = Haxx.gemmJJStep nI nJ nK aPack LDC b BL1 CBlk (F := F) := by
  exact run_bind_eq (run_gemmII ..) (fun _ => run_bind_eq (run_i32 _) (fun _ => run_bind_eq (run_i32 _) (fun _ => run_bind_eq (run_i32 _) fun _ => run_pure _)))

/-- As `Haxx.gemmJJ`, The loop over `jj` — `gemm.cxx:141-159`. -/
def gemmJJ (nI nJ nK aPack bPack Ci LDC : Int) : Prog F Unit := do
  let _ ← foldN (nIter nJ 2) (fun b (s : Int × Int) => gemmJJStep nI nJ nK aPack LDC b s.1 s.2)
    (bPack, Ci)

@[thr] theorem run_gemmJJ (nI : Int) (nJ : Int) (nK : Int) (aPack : Int) (bPack : Int) (Ci : Int) (LDC : Int) :
    (Thr.gemmJJ nI nJ nK aPack bPack Ci LDC (F := F)).run = Haxx.gemmJJ nI nJ nK aPack bPack Ci LDC (F := F) := by
  simp only [Thr.gemmJJ, Haxx.gemmJJ, thr]

/-- As `Haxx.advance`, The pointer updates `P += n*LD` (when `c`, with a 32-bit product) or `P += n` — `gemm.cxx:162-163` (`Ai`), `gemm.cxx:168-172` (`Ap`, `Bp`), `gemm.cxx:177-178` (`Bj`). -/
def advance (c : Prop) [Decidable c] (p n LD : Int) : Prog F Int :=
  if c then do
    let d ← i32 (n * LD)
    pure (p + 4 * d)
  else pure (p + 4 * n)

@[thr] theorem run_advance (c : Prop) [Decidable c] (p : Int) (n : Int) (LD : Int) :
    (Thr.advance c p n LD (F := F)).run = Haxx.advance c p n LD (F := F) := by
  simp only [Thr.advance, Haxx.advance, thr]

/-- As `Haxx.gemmIStep`, Body of the loop over `i` — `gemm.cxx:113-166`; `i = MC*b`; returns the new `(Ai, Ci)`.  The unused `iDo` is omitted. -/
def gemmIStep (blk : Blk) (TRANSA : Char) (M nJ nK : Int) (ALPHA : Scal F) (LDA LDC aPack bPack : Int)
    (b : Nat) (Ai Ci : Int) : Prog F (Int × Int) := do
  let nI ← pure (min (M - b * blk.MC) blk.MC)
  aPackSel TRANSA ALPHA nI nK Ai LDA aPack
  gemmJJ nI nJ nK aPack bPack Ci LDC
  let Ai' ← advance (TRANSA = 'T' ∨ TRANSA = 'C') Ai nI LDA
  let _ ← i32 (b * blk.MC + blk.MC)
  pure (Ai', Ci + 4 * nI)

@[thr] theorem run_gemmIStep (blk : Blk) (TRANSA : Char) (M : Int) (nJ : Int) (nK : Int) (ALPHA : Scal F) (LDA : Int) (LDC : Int) (aPack : Int) (bPack : Int) (b : Nat) (Ai : Int) (Ci : Int) :
    (Thr.gemmIStep blk TRANSA M nJ nK ALPHA LDA LDC aPack bPack b Ai Ci (F := F)).run = Haxx.gemmIStep blk TRANSA M nJ nK ALPHA LDA LDC aPack bPack b Ai Ci (F := F) := by
  simp only [Thr.gemmIStep, Haxx.gemmIStep, thr]

/-- As `Haxx.gemmI`, The loop over `i` — `gemm.cxx:113-166`, with `Ai = Ap`, `Ci = Cj` (`gemm.cxx:93-94`). -/
def gemmI (blk : Blk) (TRANSA : Char) (M nJ nK : Int) (ALPHA : Scal F) (Ap LDA Cj LDC : Int)
    (aPack bPack : Int) : Prog F Unit := do
  let _ ← foldN (nIter M blk.MC) (fun b (s : Int × Int) =>
    gemmIStep blk TRANSA M nJ nK ALPHA LDA LDC aPack bPack b s.1 s.2) (Ap, Cj)

@[thr] theorem run_gemmI (blk : Blk) (TRANSA : Char) (M : Int) (nJ : Int) (nK : Int) (ALPHA : Scal F) (Ap : Int) (LDA : Int) (Cj : Int) (LDC : Int) (aPack : Int) (bPack : Int) :
    (Thr.gemmI blk TRANSA M nJ nK ALPHA Ap LDA Cj LDC aPack bPack (F := F)).run = Haxx.gemmI blk TRANSA M nJ nK ALPHA Ap LDA Cj LDC aPack bPack (F := F) := by
  simp only [Thr.gemmI, Haxx.gemmI, thr]

/-- As `Haxx.gemmKStep`, Body of the loop over `k` — `gemm.cxx:89-173`; `k = KC*b`; returns the new `(Ap, Bp)`. -/
def gemmKStep (blk : Blk) (TRANSA TRANSB : Char) (M nJ K : Int) (ALPHA : Scal F) (LDA LDB Cj LDC : Int)
    (aPack bPack : Int) (b : Nat) (Ap Bp : Int) : Prog F (Int × Int) := do
  let nK ← pure (min (K - b * blk.KC) blk.KC)
  bPackSel TRANSB nJ nK Bp LDB bPack
  gemmI blk TRANSA M nJ nK ALPHA Ap LDA Cj LDC aPack bPack
  let Ap' ← advance (¬ (TRANSA = 'T' ∨ TRANSA = 'C')) Ap nK LDA
  let Bp' ← advance (TRANSB = 'T' ∨ TRANSB = 'C') Bp nK LDB
  let _ ← i32 (b * blk.KC + blk.KC)
  pure (Ap', Bp')

@[thr] theorem run_gemmKStep (blk : Blk) (TRANSA : Char) (TRANSB : Char) (M : Int) (nJ : Int) (K : Int) (ALPHA : Scal F) (LDA : Int) (LDB : Int) (Cj : Int) (LDC : Int) (aPack : Int) (bPack : Int) (b : Nat) (Ap : Int) (Bp : Int) :
    (Thr.gemmKStep blk TRANSA TRANSB M nJ K ALPHA LDA LDB Cj LDC aPack bPack b Ap Bp (F := F)).run = Haxx.gemmKStep blk TRANSA TRANSB M nJ K ALPHA LDA LDB Cj LDC aPack bPack b Ap Bp (F := F) := by
  simp only [Thr.gemmKStep, Haxx.gemmKStep, thr]

/-- As `Haxx.gemmK`, The loop over `k` — `gemm.cxx:89-173`, with `Bp = Bj`, `Ap = A` (`gemm.cxx:86-87`). -/
def gemmK (blk : Blk) (TRANSA TRANSB : Char) (M nJ K : Int) (ALPHA : Scal F) (A LDA Bj LDB Cj LDC : Int)
    (aPack bPack : Int) : Prog F Unit := do
  let _ ← foldN (nIter K blk.KC) (fun b (s : Int × Int) =>
    gemmKStep blk TRANSA TRANSB M nJ K ALPHA LDA LDB Cj LDC aPack bPack b s.1 s.2) (A, Bj)

@[thr] theorem run_gemmK (blk : Blk) (TRANSA : Char) (TRANSB : Char) (M : Int) (nJ : Int) (K : Int) (ALPHA : Scal F) (A : Int) (LDA : Int) (Bj : Int) (LDB : Int) (Cj : Int) (LDC : Int) (aPack : Int) (bPack : Int) :
    (Thr.gemmK blk TRANSA TRANSB M nJ K ALPHA A LDA Bj LDB Cj LDC aPack bPack (F := F)).run = Haxx.gemmK blk TRANSA TRANSB M nJ K ALPHA A LDA Bj LDB Cj LDC aPack bPack (F := F) := by
  simp only [Thr.gemmK, Haxx.gemmK, thr]

/-- As `Haxx.gemmJStep`, Body of the loop over `j` — `gemm.cxx:81-179`; `j = NC*b`; returns the new `(Cj, Bj)`.  The unused `jDo` is omitted. -/
def gemmJStep (blk : Blk) (TRANSA TRANSB : Char) (M N K : Int) (ALPHA : Scal F) (A LDA LDB LDC : Int)
    (aPack bPack : Int) (b : Nat) (Cj Bj : Int) : Prog F (Int × Int) := do
  let nJ ← pure (min (N - b * blk.NC) blk.NC)
  gemmK blk TRANSA TRANSB M nJ K ALPHA A LDA Bj LDB Cj LDC aPack bPack
  let d ← i32 (nJ * LDC)
  let Bj' ← advance (¬ (TRANSB = 'T' ∨ TRANSB = 'C')) Bj nJ LDB
  let _ ← i32 (b * blk.NC + blk.NC)
  pure (Cj + 4 * d, Bj')

@[thr] theorem run_gemmJStep (blk : Blk) (TRANSA : Char) (TRANSB : Char) (M : Int) (N : Int) (K : Int) (ALPHA : Scal F) (A : Int) (LDA : Int) (LDB : Int) (LDC : Int) (aPack : Int) (bPack : Int) (b : Nat) (Cj : Int) (Bj : Int) :
    (Thr.gemmJStep blk TRANSA TRANSB M N K ALPHA A LDA LDB LDC aPack bPack b Cj Bj (F := F)).run = Haxx.gemmJStep blk TRANSA TRANSB M N K ALPHA A LDA LDB LDC aPack bPack b Cj Bj (F := F) := by
  simp only [Thr.gemmJStep, Haxx.gemmJStep, thr]

/-- As `Haxx.gemmJ`, The loop over `j` — `gemm.cxx:81-179`. -/
def gemmJ (blk : Blk) (TRANSA TRANSB : Char) (M N K : Int) (ALPHA : Scal F) (A LDA B LDB C LDC : Int)
    (aPack bPack : Int) : Prog F Unit := do
  let _ ← foldN (nIter N blk.NC) (fun b (s : Int × Int) =>
    gemmJStep blk TRANSA TRANSB M N K ALPHA A LDA LDB LDC aPack bPack b s.1 s.2) (C, B)

@[thr] theorem run_gemmJ (blk : Blk) (TRANSA : Char) (TRANSB : Char) (M : Int) (N : Int) (K : Int) (ALPHA : Scal F) (A : Int) (LDA : Int) (B : Int) (LDB : Int) (C : Int) (LDC : Int) (aPack : Int) (bPack : Int) :
    (Thr.gemmJ blk TRANSA TRANSB M N K ALPHA A LDA B LDB C LDC aPack bPack (F := F)).run = Haxx.gemmJ blk TRANSA TRANSB M N K ALPHA A LDA B LDB C LDC aPack bPack (F := F) := by
  simp only [Thr.gemmJ, Haxx.gemmJ, thr]

/-- As `Haxx.gemmAVX`, `HBLAS_GEMM` (AVX) — `gemm.cxx:41-184`.  `bAddr`, `aAddr` are the addresses `aligned_alloc` returns, `junk` the initial contents of the blocks. -/
def gemmAVX (blk : Blk) (bAddr aAddr : Int) (junk : Int → F) (TRANSA TRANSB : Char) (M N K : Int)
    (ALPHA : Scal F) (A LDA B LDB : Int) (BETA : Scal F) (C LDC : Int) : Prog F Unit := do
  allocQ bAddr (fixMod (blk.KC * blk.NC) 32) junk
  allocQ aAddr (fixMod (blk.KC * blk.MC) 32) junk
  scalm scalvAVX 'L' 'N' M N BETA C LDC 1
  gemmJ blk TRANSA TRANSB M N K ALPHA A LDA B LDB C LDC aAddr bAddr
  freeQ bAddr (fixMod (blk.KC * blk.NC) 32)
  freeQ aAddr (fixMod (blk.KC * blk.MC) 32)

@[thr] theorem run_gemmAVX (blk : Blk) (bAddr : Int) (aAddr : Int) (junk : Int → F) (TRANSA : Char) (TRANSB : Char) (M : Int) (N : Int) (K : Int) (ALPHA : Scal F) (A : Int) (LDA : Int) (B : Int) (LDB : Int) (BETA : Scal F) (C : Int) (LDC : Int) :
    (Thr.gemmAVX blk bAddr aAddr junk TRANSA TRANSB M N K ALPHA A LDA B LDB BETA C LDC (F := F)).run = Haxx.gemmAVX blk bAddr aAddr junk TRANSA TRANSB M N K ALPHA A LDA B LDB BETA C LDC (F := F) := by
  simp only [Thr.gemmAVX, Haxx.gemmAVX, thr]

-- end of Gemm

end Haxx.Thr
