import Verif.GemmTop

/-!
# SIMD GEMM with the other compile-time switches

`include/hblas/config/hblas3/gemm.hpp:33-45` lets the person who compiles the library choose which packing ALPHA is folded
into (`_FACTOR_ALPHA_IN_A_PACK`, `_FACTOR_ALPHA_IN_B_PACK`, both is an `#error`, none is accepted) and whether the
permutations the micro-kernel needs are done while packing (`_FACTOR_TRANSPOSE_INTO_{A,B}_PACK`).  `Gemm.lean` models the
shipped choice.  Here is the driver for every choice about ALPHA, and the micro-kernel body for every choice about the
permutations.
-/

namespace Haxx.Cfg
open Arith

variable {F : Type}

/-- `_FACTOR_ALPHA_IN_A_PACK` / `_FACTOR_ALPHA_IN_B_PACK` / neither — `gemm.hpp:33-39`. -/
inductive AlphaAt | aPack | bPack | neither
  deriving DecidableEq

/-- The scalar handed to the packing of A — `gemm.cxx:124-134`. -/
def AlphaAt.forA (w : AlphaAt) (ALPHA : Scal F) : Option (Scal F) := if w = .aPack then some ALPHA else none

/-- The scalar handed to the packing of B — `gemm.cxx:99-109`. -/
def AlphaAt.forB (w : AlphaAt) (ALPHA : Scal F) : Option (Scal F) := if w = .bPack then some ALPHA else none

variable [Arith F]

/-- As `Haxx.bPackSel`, with ALPHA where `w` says: `BPACKT`/`BPACKCT`/`BPACKR`/`BPACK` selected as in `gemm.cxx:99-109`,
`config/hblas3/gemm.hpp:55-58`. -/
def bPackSel (w : AlphaAt) (TRANSB : Char) (ALPHA : Scal F) (nJ nK Bp LDB bPack : Int) : Prog F Unit :=
  let alpha : RegScal F := loadScalar (w.forB ALPHA)
  if TRANSB = 'T' then NPACK (preOP false alpha) opT2 nJ nK Bp LDB bPack
  else if TRANSB = 'C' then NPACK (preOP true alpha) opT2 nJ nK Bp LDB bPack
  else if TRANSB = 'R' then TPACK (preOP true alpha) opT2 nK nJ Bp LDB bPack
  else TPACK (preOP false alpha) opT2 nK nJ Bp LDB bPack

/-- As `Haxx.aPackSel`, with ALPHA where `w` says: `APACKT`/`APACKCT`/`APACKR`/`APACK` selected as in `gemm.cxx:124-134`,
`config/hblas3/gemm.hpp:71-74`. -/
def aPackSel (w : AlphaAt) (TRANSA : Char) (ALPHA : Scal F) (nI nK Ai LDA aPack : Int) : Prog F Unit :=
  let alpha : RegScal F := loadScalar (w.forA ALPHA)
  if TRANSA = 'T' then TPACK (preOP false alpha) opT1 nK nI Ai LDA aPack
  else if TRANSA = 'C' then TPACK (preOP true alpha) opT1 nK nI Ai LDA aPack
  else if TRANSA = 'R' then NPACK (preOP true alpha) opT1 nI nK Ai LDA aPack
  else NPACK (preOP false alpha) opT1 nI nK Ai LDA aPack

/-- As `Haxx.gemmIStep`, with ALPHA where `w` says: Body of the loop over `i` — `gemm.cxx:113-166`; `i = MC*b`; returns the new `(Ai, Ci)`.  The
unused `iDo` is omitted. -/
def gemmIStep (blk : Blk) (TRANSA : Char) (M nJ nK : Int) (w : AlphaAt) (ALPHA : Scal F) (LDA LDC aPack bPack : Int)
    (b : Nat) (Ai Ci : Int) : Prog F (Int × Int) := do
  let nI ← pure (min (M - b * blk.MC) blk.MC)
  aPackSel w TRANSA ALPHA nI nK Ai LDA aPack
  gemmJJ nI nJ nK aPack bPack Ci LDC
  let Ai' ← advance (TRANSA = 'T' ∨ TRANSA = 'C') Ai nI LDA
  let _ ← i32 (b * blk.MC + blk.MC)
  pure (Ai', Ci + 4 * nI)

/-- As `Haxx.gemmI`, with ALPHA where `w` says: The loop over `i` — `gemm.cxx:113-166`, with `Ai = Ap`, `Ci = Cj` (`gemm.cxx:93-94`). -/
def gemmI (blk : Blk) (TRANSA : Char) (M nJ nK : Int) (w : AlphaAt) (ALPHA : Scal F) (Ap LDA Cj LDC : Int)
    (aPack bPack : Int) : Prog F Unit := do
  let _ ← foldN (nIter M blk.MC) (fun b (s : Int × Int) =>
    gemmIStep blk TRANSA M nJ nK w ALPHA LDA LDC aPack bPack b s.1 s.2) (Ap, Cj)

/-- As `Haxx.gemmKStep`, with ALPHA where `w` says: Body of the loop over `k` — `gemm.cxx:89-173`; `k = KC*b`; returns the new `(Ap, Bp)`. -/
def gemmKStep (blk : Blk) (TRANSA TRANSB : Char) (M nJ K : Int) (w : AlphaAt) (ALPHA : Scal F) (LDA LDB Cj LDC : Int)
    (aPack bPack : Int) (b : Nat) (Ap Bp : Int) : Prog F (Int × Int) := do
  let nK ← pure (min (K - b * blk.KC) blk.KC)
  bPackSel w TRANSB ALPHA nJ nK Bp LDB bPack
  gemmI blk TRANSA M nJ nK w ALPHA Ap LDA Cj LDC aPack bPack
  let Ap' ← advance (¬ (TRANSA = 'T' ∨ TRANSA = 'C')) Ap nK LDA
  let Bp' ← advance (TRANSB = 'T' ∨ TRANSB = 'C') Bp nK LDB
  let _ ← i32 (b * blk.KC + blk.KC)
  pure (Ap', Bp')

/-- As `Haxx.gemmK`, with ALPHA where `w` says: The loop over `k` — `gemm.cxx:89-173`, with `Bp = Bj`, `Ap = A` (`gemm.cxx:86-87`). -/
def gemmK (blk : Blk) (TRANSA TRANSB : Char) (M nJ K : Int) (w : AlphaAt) (ALPHA : Scal F) (A LDA Bj LDB Cj LDC : Int)
    (aPack bPack : Int) : Prog F Unit := do
  let _ ← foldN (nIter K blk.KC) (fun b (s : Int × Int) =>
    gemmKStep blk TRANSA TRANSB M nJ K w ALPHA LDA LDB Cj LDC aPack bPack b s.1 s.2) (A, Bj)

/-- As `Haxx.gemmJStep`, with ALPHA where `w` says: Body of the loop over `j` — `gemm.cxx:81-179`; `j = NC*b`; returns the new `(Cj, Bj)`.  The
unused `jDo` is omitted. -/
def gemmJStep (blk : Blk) (TRANSA TRANSB : Char) (M N K : Int) (w : AlphaAt) (ALPHA : Scal F) (A LDA LDB LDC : Int)
    (aPack bPack : Int) (b : Nat) (Cj Bj : Int) : Prog F (Int × Int) := do
  let nJ ← pure (min (N - b * blk.NC) blk.NC)
  gemmK blk TRANSA TRANSB M nJ K w ALPHA A LDA Bj LDB Cj LDC aPack bPack
  let d ← i32 (nJ * LDC)
  let Bj' ← advance (¬ (TRANSB = 'T' ∨ TRANSB = 'C')) Bj nJ LDB
  let _ ← i32 (b * blk.NC + blk.NC)
  pure (Cj + 4 * d, Bj')

/-- As `Haxx.gemmJ`, with ALPHA where `w` says: The loop over `j` — `gemm.cxx:81-179`. -/
def gemmJ (blk : Blk) (TRANSA TRANSB : Char) (M N K : Int) (w : AlphaAt) (ALPHA : Scal F) (A LDA B LDB C LDC : Int)
    (aPack bPack : Int) : Prog F Unit := do
  let _ ← foldN (nIter N blk.NC) (fun b (s : Int × Int) =>
    gemmJStep blk TRANSA TRANSB M N K w ALPHA A LDA LDB LDC aPack bPack b s.1 s.2) (C, B)

/-- As `Haxx.gemmAVX`, with ALPHA where `w` says: `HBLAS_GEMM` (AVX) — `gemm.cxx:41-184`.  `bAddr`, `aAddr` are the addresses `aligned_alloc`
returns, `junk` the initial contents of the blocks. -/
def gemmAVX (blk : Blk) (bAddr aAddr : Int) (junk : Int → F) (TRANSA TRANSB : Char) (M N K : Int)
    (w : AlphaAt) (ALPHA : Scal F) (A LDA B LDB : Int) (BETA : Scal F) (C LDC : Int) : Prog F Unit := do
  allocQ bAddr (fixMod (blk.KC * blk.NC) 32) junk
  allocQ aAddr (fixMod (blk.KC * blk.MC) 32) junk
  scalm scalvAVX 'L' 'N' M N BETA C LDC 1
  gemmJ blk TRANSA TRANSB M N K w ALPHA A LDA B LDB C LDC aAddr bAddr
  freeQ bAddr (fixMod (blk.KC * blk.NC) 32)
  freeQ aAddr (fixMod (blk.KC * blk.MC) 32)

/-! ## The micro-kernel and the permutation switches -/

/-- The four registers made from two quaternions of A: with `fa` they come permuted (`packops.hpp:160-165`) and are
spread out, `kern.cxx:82-90`; otherwise they are transposed here, `kern.cxx:94-96`. -/
def spreadA (fa : Bool) (a00 a10 : V4 F) : R4 F :=
  if fa then ⟨permute4 a00 0x0, permute4 a00 0xF, permute4 a10 0x0, permute4 a10 0xF⟩
  else transpose4 ⟨a00, a00, a10, a10⟩

/-- The four registers made from the two quaternions of B at `locB`: with `fb` they come interleaved
(`packops.hpp:185-190`), are loaded in halves (`kern.cxx:71-75`) and doubled (`kern.cxx:101-109`); otherwise they are
loaded whole (`kern.cxx:68-69`) and transposed here (`kern.cxx:113-115`).  (The loads happen before A's registers are
rearranged; nothing is stored in between.) -/
def spreadB (fb : Bool) (locB : Int) : Prog F (R4 F) :=
  if fb then do
    let b00lo ← load2A locB
    let b00hi ← load2A (locB + 2)
    let b10lo ← load2A (locB + 4)
    let b10hi ← load2A (locB + 6)
    pure ⟨set256 b00lo b00lo, set256 b10lo b10lo, set256 b00hi b00hi, set256 b10hi b10hi⟩
  else do
    let b00 ← loadA locB
    let b10 ← loadA (locB + 4 * 1)
    pure (transpose4 ⟨b00, b10, b00, b10⟩)

/-- Body of the `do … while` of `Kern` — `kern.cxx:57-123`, with `_FACTOR_TRANSPOSE_INTO_A_PACK` = `fa` and
`_FACTOR_TRANSPOSE_INTO_B_PACK` = `fb`. -/
def kernBody (fa fb : Bool) (s : KernSt F) : Prog F (KernSt F) := do
  let a00 ← loadA s.locA
  let a10 ← loadA (s.locA + 4 * 1)
  let b ← spreadB fb s.locB
  let c := INC_MULD4Q_NN (spreadA fa a00 a10) b s.c
  pure ⟨s.locA + 4 * 2, s.locB + 4 * 2, c⟩

/-- `Kern(M,N,K,A,B,C,LDC)` — `kern.cxx:27-133`.  Registers are passed to `_MM_TRANSPOSE_4x4_PD` and
`INC_MULD4Q_NN` in the order `c00,c01,c10,c11`. -/
def Kern (fa fb : Bool) (M N K A B C LDC : Int) : Prog F Unit := do
  let M2 := M == 2
  let N2 := N == 2
  let c00 ← loadQ C
  let c10 ← if M2 then loadQ (C + 4 * 1) else pure setzero
  let c01 ← if N2 then loadQ (C + 4 * LDC) else pure setzero
  let c11 ← if M2 && N2 then loadQ (C + 4 * (LDC + 1)) else pure setzero
  let c := transpose4 ⟨c00, c01, c10, c11⟩
  let s ← foldN K.toNat (fun _ s => kernBody fa fb s) ⟨A, B, c⟩
  let c := transpose4 s.c
  storeQ C c.r1
  if M2 then storeQ (C + 4 * 1) c.r3 else pure ()
  if N2 then storeQ (C + 4 * LDC) c.r2 else pure ()
  if M2 && N2 then storeQ (C + 4 * (LDC + 1)) c.r4 else pure ()

/-- How a pair of elements of A is stored in its panel: `opT1`, or (`GenericPackOps::OP`, `packops.hpp:57-59`) as it is. -/
def opA (fa : Bool) : VV F → VV F := if fa then opT1 else id

/-- The same for B: `opT2`, or as it is. -/
def opB (fb : Bool) : VV F → VV F := if fb then opT2 else id

end Haxx.Cfg
