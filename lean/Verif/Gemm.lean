import Verif.Hblas1m

/-!
# SIMD GEMM: packing, micro-kernel, driver

`include/hblas/pack/pack.hpp`, `include/hblas/pack/packops.hpp`, `src/hblas/cxx/hblas3/kern.cxx`,
`src/hblas/cxx/hblas3/gemm.cxx`, configuration `include/hblas/config/hblas3/gemm.hpp`
(`MR = NR = 2`, ALPHA folded into the packing of A, transposes folded into both packings).
-/

namespace Haxx
open Arith

variable {F : Type}

/-! ## Packing -/

/-- A pair of registers (`std::tuple<__m256d,__m256d>`). -/
abbrev VV (F : Type) := V4 F × V4 F

section
variable [Arith F]

/-- `GenericPackOps_T1::OP` — `packops.hpp:160-165`. -/
def opT1 (t : VV F) : VV F := (permute2f128 t.1 t.2 0x20, permute2f128 t.1 t.2 0x31)

/-- `GenericPackOps_T2::OP` — `packops.hpp:185-190`. -/
def opT2 (t : VV F) : VV F := (unpacklo t.1 t.2, unpackhi t.1 t.2)

/-- `preOP`: `ConjPackOps::preOP` (`packops.hpp:75-79`) conjugates, then both scale on the left
(`packops.hpp:110-111`). -/
def preOP (conj : Bool) (alpha : RegScal F) (x : V4 F) : V4 F :=
  if conj then (let y := qconj256 x; regMulL alpha y) else regMulL alpha x

end

/-- `loopBody` with a tuple of two source pointers — `pack.hpp:81-95` (`inc = 1`) and
`pack.hpp:169-182` (`inc = LDX`); state `(xCol<0>, xCol<1>, xp)`.
`Load`/`Store` are unaligned (`types.hpp:110-125`). -/
def packCol2 (pre : V4 F → V4 F) (op : VV F → VV F) (inc : Int) (s : Int × Int × Int) :
    Prog F (Int × Int × Int) := do
  let x0 ← loadQ s.1
  let x1 ← loadQ s.2.1
  let t := op (pre x0, pre x1)
  storeQ s.2.2 t.1
  storeQ (s.2.2 + 4) t.2
  pure (s.1 + 4 * inc, s.2.1 + 4 * inc, s.2.2 + 4 * 2)

/-- `loopBody` with a tuple of one source pointer: `apply_n` (`boilerplate.hpp:84-123`) calls
`Load()` (zero) for the missing operand. -/
def packCol1 [Arith F] (pre : V4 F → V4 F) (op : VV F → VV F) (inc : Int) (s : Int × Int) :
    Prog F (Int × Int) := do
  let x0 ← loadQ s.1
  let x1 := setzero
  let t := op (pre x0, pre x1)
  storeQ s.2 t.1
  storeQ (s.2 + 4) t.2
  pure (s.1 + 4 * inc, s.2 + 4 * 2)

/-- `TPACK<2,…>(M,N,X,LDX,Xp,args…)` — `pack.hpp:28-127`.  `N/PK`, `N%PK` are unsigned divisions;
the routine is only called with `M,N > 0`. -/
def TPACK [Arith F] (pre : V4 F → V4 F) (op : VV F → VV F) (M N X LDX Xp : Int) : Prog F Unit := do
  let s ← foldN (N / 2).toNat (fun _ (s : Int × Int) => do
    let r ← foldN M.toNat (fun _ c => packCol2 pre op 1 c) (s.1, s.1 + 4 * LDX, s.2)
    pure (s.1 + 4 * (2 * LDX), r.2.2)) (X, Xp)
  let j := N % 2
  if j ≠ 0 then do
    assertP (j == 1)
    let _ ← foldN M.toNat (fun _ c => packCol1 pre op 1 c) s
    pure ()
  else pure ()

/-- `NPACK<2,…>(M,N,X,LDX,Xp,args…)` — `pack.hpp:133-234`. -/
def NPACK [Arith F] (pre : V4 F → V4 F) (op : VV F → VV F) (M N X LDX Xp : Int) : Prog F Unit := do
  let s ← foldN (M / 2).toNat (fun _ (s : Int × Int) => do
    let r ← foldN N.toNat (fun _ c => packCol2 pre op LDX c) (s.1, s.1 + 4 * 1, s.2)
    pure (s.1 + 4 * 2, r.2.2)) (X, Xp)
  let i := M % 2
  if i ≠ 0 then do
    assertP (i == 1)
    let _ ← foldN N.toNat (fun _ c => packCol1 pre op LDX c) s
    pure ()
  else pure ()

/-! ## Micro-kernel -/

/-- `_mm_load_pd`: 16-byte aligned load of two doubles. -/
def load2A (p : Int) : Prog F (V2 F) := do
  if p % 2 = 0 then
    let a ← rd p
    let b ← rd (p+1)
    pure ⟨a, b⟩
  else fault (.misaligned p)

variable [Arith F]

/-- Loop state of `Kern`: `locA`, `locB`, `c00,c01,c10,c11`. -/
structure KernSt (F : Type) where
  locA : Int
  locB : Int
  c : R4 F

/-- Body of the `do … while` of `Kern` — `kern.cxx:57-123`. -/
def kernBody (s : KernSt F) : Prog F (KernSt F) := do
  let a00 ← loadA s.locA
  let a10 ← loadA (s.locA + 4 * 1)
  let b00lo ← load2A s.locB
  let b00hi ← load2A (s.locB + 2)
  let b10lo ← load2A (s.locB + 4)
  let b10hi ← load2A (s.locB + 6)
  let a_IIII := permute4 a00 0xF
  let a00 := permute4 a00 0x0
  let a_KKKK := permute4 a10 0xF
  let a10 := permute4 a10 0x0
  let bSSSS := set256 b00lo b00lo
  let bIIII := set256 b10lo b10lo
  let bJJJJ := set256 b00hi b00hi
  let bKKKK := set256 b10hi b10hi
  let c := INC_MULD4Q_NN ⟨a00, a_IIII, a10, a_KKKK⟩ ⟨bSSSS, bIIII, bJJJJ, bKKKK⟩ s.c
  pure ⟨s.locA + 4 * 2, s.locB + 4 * 2, c⟩

/-- `Kern(M,N,K,A,B,C,LDC)` — `kern.cxx:27-133`.  Registers are passed to `_MM_TRANSPOSE_4x4_PD` and
`INC_MULD4Q_NN` in the order `c00,c01,c10,c11`. -/
def Kern (M N K A B C LDC : Int) : Prog F Unit := do
  let M2 := M == 2
  let N2 := N == 2
  let c00 ← loadQ C
  let c10 ← if M2 then loadQ (C + 4 * 1) else pure setzero
  let c01 ← if N2 then loadQ (C + 4 * LDC) else pure setzero
  let c11 ← if M2 && N2 then loadQ (C + 4 * (LDC + 1)) else pure setzero
  let c := transpose4 ⟨c00, c01, c10, c11⟩
  let s ← foldN K.toNat (fun _ s => kernBody s) ⟨A, B, c⟩
  let c := transpose4 s.c
  storeQ C c.r1
  if M2 then storeQ (C + 4 * 1) c.r3 else pure ()
  if N2 then storeQ (C + 4 * LDC) c.r2 else pure ()
  if M2 && N2 then storeQ (C + 4 * (LDC + 1)) c.r4 else pure ()

/-! ## Driver -/

/-- `FixMod` — `include/util/macro.hpp:22`. -/
def fixMod (X N : Int) : Int := if X.tmod N ≠ 0 then X + N - X.tmod N else X

/-- `aligned_alloc` returning `p` (an address range that is not in use) for `n` quaternions; the
contents are arbitrary. -/
def allocQ (p n : Int) (junk : Int → F) : Prog F Unit := fun m =>
  .ok ((), fun a => if p ≤ a ∧ a < p + 4 * n then some (junk a) else m a)

/-- `free`: the block becomes inaccessible. -/
def freeQ (p n : Int) : Prog F Unit := fun m =>
  .ok ((), fun a => if p ≤ a ∧ a < p + 4 * n then none else m a)

/-- Number of iterations of `for( v = 0; v < N; v += S )`, `S > 0`. -/
def nIter (N S : Int) : Nat := ((N + S - 1) / S).toNat

/-- Caching dimensions `MC`, `NC`, `KC` (macros; shipped values 64, 512, 64). -/
structure Blk where
  MC : Int
  NC : Int
  KC : Int

/-- `BPACKT`/`BPACKCT`/`BPACKR`/`BPACK` selected as in `gemm.cxx:104-109`,
`config/hblas3/gemm.hpp:55-58`; no scalar is passed. -/
def bPackSel (TRANSB : Char) (nJ nK Bp LDB bPack : Int) : Prog F Unit :=
  let alpha : RegScal F := loadScalar none
  if TRANSB = 'T' then NPACK (preOP false alpha) opT2 nJ nK Bp LDB bPack
  else if TRANSB = 'C' then NPACK (preOP true alpha) opT2 nJ nK Bp LDB bPack
  else if TRANSB = 'R' then TPACK (preOP true alpha) opT2 nK nJ Bp LDB bPack
  else TPACK (preOP false alpha) opT2 nK nJ Bp LDB bPack

/-- `APACKT`/`APACKCT`/`APACKR`/`APACK` selected as in `gemm.cxx:124-128`,
`config/hblas3/gemm.hpp:71-74`, with ALPHA. -/
def aPackSel (TRANSA : Char) (ALPHA : Scal F) (nI nK Ai LDA aPack : Int) : Prog F Unit :=
  let alpha : RegScal F := loadScalar (some ALPHA)
  if TRANSA = 'T' then TPACK (preOP false alpha) opT1 nK nI Ai LDA aPack
  else if TRANSA = 'C' then TPACK (preOP true alpha) opT1 nK nI Ai LDA aPack
  else if TRANSA = 'R' then NPACK (preOP true alpha) opT1 nI nK Ai LDA aPack
  else NPACK (preOP false alpha) opT1 nI nK Ai LDA aPack

/-- Body of the loop over `ii` — `gemm.cxx:147-154`; `ii = 2*b`, `nIII = min(2, nI-ii)`; returns the
new `(smallC, smallA)`. -/
def gemmIIStep (nI nJJJ nK BL1 LDC : Int) (b : Nat) (smallC smallA : Int) : Prog F (Int × Int) := do
  Kern (min 2 (nI - b * 2)) nJJJ nK smallA BL1 smallC LDC
  let d ← i32 (2 * nK)
  let _ ← i32 (b * 2 + 2)
  pure (smallC + 4 * 2, smallA + 4 * d)

/-- The loop over `ii` — `gemm.cxx:147-155`, with `smallC = CBlk`, `smallA = aPack`
(`gemm.cxx:144-145`). -/
def gemmII (nI nJJJ nK aPack BL1 CBlk LDC : Int) : Prog F Unit := do
  let _ ← foldN (nIter nI 2) (fun b (s : Int × Int) => gemmIIStep nI nJJJ nK BL1 LDC b s.1 s.2)
    (CBlk, aPack)

/-- Body of the loop over `jj` — `gemm.cxx:141-159`; `jj = 2*b`, `nJJJ = min(2, nJ-jj)`; returns the
new `(BL1, CBlk)`. -/
def gemmJJStep (nI nJ nK aPack LDC : Int) (b : Nat) (BL1 CBlk : Int) : Prog F (Int × Int) := do
  gemmII nI (min 2 (nJ - b * 2)) nK aPack BL1 CBlk LDC
  let d ← i32 (2 * nK)
  let e ← i32 (2 * LDC)
  let _ ← i32 (b * 2 + 2)
  pure (BL1 + 4 * d, CBlk + 4 * e)

/-- The loop over `jj` — `gemm.cxx:141-159`. -/
def gemmJJ (nI nJ nK aPack bPack Ci LDC : Int) : Prog F Unit := do
  let _ ← foldN (nIter nJ 2) (fun b (s : Int × Int) => gemmJJStep nI nJ nK aPack LDC b s.1 s.2)
    (bPack, Ci)

/-- The pointer updates `P += n*LD` (when `c`, with a 32-bit product) or `P += n` —
`gemm.cxx:162-163` (`Ai`), `gemm.cxx:168-172` (`Ap`, `Bp`), `gemm.cxx:177-178` (`Bj`). -/
def advance (c : Prop) [Decidable c] (p n LD : Int) : Prog F Int :=
  if c then do
    let d ← i32 (n * LD)
    pure (p + 4 * d)
  else pure (p + 4 * n)

/-- Body of the loop over `i` — `gemm.cxx:113-166`; `i = MC*b`; returns the new `(Ai, Ci)`.  The
unused `iDo` is omitted. -/
def gemmIStep (blk : Blk) (TRANSA : Char) (M nJ nK : Int) (ALPHA : Scal F) (LDA LDC aPack bPack : Int)
    (b : Nat) (Ai Ci : Int) : Prog F (Int × Int) := do
  let nI ← pure (min (M - b * blk.MC) blk.MC)
  aPackSel TRANSA ALPHA nI nK Ai LDA aPack
  gemmJJ nI nJ nK aPack bPack Ci LDC
  let Ai' ← advance (TRANSA = 'T' ∨ TRANSA = 'C') Ai nI LDA
  let _ ← i32 (b * blk.MC + blk.MC)
  pure (Ai', Ci + 4 * nI)

/-- The loop over `i` — `gemm.cxx:113-166`, with `Ai = Ap`, `Ci = Cj` (`gemm.cxx:93-94`). -/
def gemmI (blk : Blk) (TRANSA : Char) (M nJ nK : Int) (ALPHA : Scal F) (Ap LDA Cj LDC : Int)
    (aPack bPack : Int) : Prog F Unit := do
  let _ ← foldN (nIter M blk.MC) (fun b (s : Int × Int) =>
    gemmIStep blk TRANSA M nJ nK ALPHA LDA LDC aPack bPack b s.1 s.2) (Ap, Cj)

/-- Body of the loop over `k` — `gemm.cxx:89-173`; `k = KC*b`; returns the new `(Ap, Bp)`. -/
def gemmKStep (blk : Blk) (TRANSA TRANSB : Char) (M nJ K : Int) (ALPHA : Scal F) (LDA LDB Cj LDC : Int)
    (aPack bPack : Int) (b : Nat) (Ap Bp : Int) : Prog F (Int × Int) := do
  let nK ← pure (min (K - b * blk.KC) blk.KC)
  bPackSel TRANSB nJ nK Bp LDB bPack
  gemmI blk TRANSA M nJ nK ALPHA Ap LDA Cj LDC aPack bPack
  let Ap' ← advance (¬ (TRANSA = 'T' ∨ TRANSA = 'C')) Ap nK LDA
  let Bp' ← advance (TRANSB = 'T' ∨ TRANSB = 'C') Bp nK LDB
  let _ ← i32 (b * blk.KC + blk.KC)
  pure (Ap', Bp')

/-- The loop over `k` — `gemm.cxx:89-173`, with `Bp = Bj`, `Ap = A` (`gemm.cxx:86-87`). -/
def gemmK (blk : Blk) (TRANSA TRANSB : Char) (M nJ K : Int) (ALPHA : Scal F) (A LDA Bj LDB Cj LDC : Int)
    (aPack bPack : Int) : Prog F Unit := do
  let _ ← foldN (nIter K blk.KC) (fun b (s : Int × Int) =>
    gemmKStep blk TRANSA TRANSB M nJ K ALPHA LDA LDB Cj LDC aPack bPack b s.1 s.2) (A, Bj)

/-- Body of the loop over `j` — `gemm.cxx:81-179`; `j = NC*b`; returns the new `(Cj, Bj)`.  The
unused `jDo` is omitted. -/
def gemmJStep (blk : Blk) (TRANSA TRANSB : Char) (M N K : Int) (ALPHA : Scal F) (A LDA LDB LDC : Int)
    (aPack bPack : Int) (b : Nat) (Cj Bj : Int) : Prog F (Int × Int) := do
  let nJ ← pure (min (N - b * blk.NC) blk.NC)
  gemmK blk TRANSA TRANSB M nJ K ALPHA A LDA Bj LDB Cj LDC aPack bPack
  let d ← i32 (nJ * LDC)
  let Bj' ← advance (¬ (TRANSB = 'T' ∨ TRANSB = 'C')) Bj nJ LDB
  let _ ← i32 (b * blk.NC + blk.NC)
  pure (Cj + 4 * d, Bj')

/-- The loop over `j` — `gemm.cxx:81-179`. -/
def gemmJ (blk : Blk) (TRANSA TRANSB : Char) (M N K : Int) (ALPHA : Scal F) (A LDA B LDB C LDC : Int)
    (aPack bPack : Int) : Prog F Unit := do
  let _ ← foldN (nIter N blk.NC) (fun b (s : Int × Int) =>
    gemmJStep blk TRANSA TRANSB M N K ALPHA A LDA LDB LDC aPack bPack b s.1 s.2) (C, B)

/-- `HBLAS_GEMM` (AVX) — `gemm.cxx:41-184`.  `bAddr`, `aAddr` are the addresses `aligned_alloc`
returns, `junk` the initial contents of the blocks. -/
def gemmAVX (blk : Blk) (bAddr aAddr : Int) (junk : Int → F) (TRANSA TRANSB : Char) (M N K : Int)
    (ALPHA : Scal F) (A LDA B LDB : Int) (BETA : Scal F) (C LDC : Int) : Prog F Unit := do
  allocQ bAddr (fixMod (blk.KC * blk.NC) 32) junk
  allocQ aAddr (fixMod (blk.KC * blk.MC) 32) junk
  scalm scalvAVX 'L' 'N' M N BETA C LDC 1
  gemmJ blk TRANSA TRANSB M N K ALPHA A LDA B LDB C LDC aAddr bAddr
  freeQ bAddr (fixMod (blk.KC * blk.NC) 32)
  freeQ aAddr (fixMod (blk.KC * blk.MC) 32)

end Haxx
