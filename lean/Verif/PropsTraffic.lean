import Verif.PropsOblivious
import Verif.TrafficPort

/-!
# C68: the memory traffic of a call is what its size says

`Moves c m r w`: running the call `c` from memory `m` reads at most `r` and writes at most `w` doubles, and exactly so many if it
finishes.  The counts include the private work arrays of GEMM.  The theorems hold for every memory — whatever numbers the
operands hold, however they overlap — and over any arithmetic.
-/

namespace Haxx
open Arith
set_option linter.unusedSectionVars false

variable {F : Type} [Arith F] [ArithEq F]

/-- The number of doubles the call reads, run alone from `m`. -/
def AnyCall.reads (c : AnyCall F) (m : Mem F) : Nat := ((c.accesses m).filter fun e => match e with | .rd _ => true | _ => false).length
/-- The number of doubles the call writes, run alone from `m`. -/
def AnyCall.writes (c : AnyCall F) (m : Mem F) : Nat := ((c.accesses m).filter fun e => match e with | .wr _ => true | _ => false).length

/-- The call reads `r` and writes `w` doubles; it may have made fewer accesses only if it faulted. -/
def Moves (c : AnyCall F) (m : Mem F) (r w : Nat) : Prop :=
  c.reads m ≤ r ∧ c.writes m ≤ w ∧ ∀ x m', c.seq m = .ok (x, m') → c.reads m = r ∧ c.writes m = w

theorem Moves.of {c : AnyCall F} {m : Mem F} {r w r' w' : Nat} (h : Thr.Cnt c.thread r w) (hr : r = r') (hw : w = w') :
    Moves c m r' w' := by
  subst hr hw
  have e1 : c.reads m = Thr.reads (c.thread.trace m) := (List.countP_eq_length_filter).symm
  have e2 : c.writes m = Thr.writes (c.thread.trace m) := (List.countP_eq_length_filter).symm
  obtain ⟨h1, h2, h3⟩ := h.sound m
  refine ⟨e1 ▸ h1, e2 ▸ h2, fun x m' hx => ?_⟩
  rw [e1, e2]
  rw [← c.thread_run] at hx
  exact h3 x m' hx

theorem moves_le {c : AnyCall F} {m : Mem F} {r w : Nat} (h : Thr.CntLe c.thread r w) : c.reads m ≤ r ∧ c.writes m ≤ w := by
  have e1 : c.reads m = Thr.reads (c.thread.trace m) := (List.countP_eq_length_filter).symm
  have e2 : c.writes m = Thr.writes (c.thread.trace m) := (List.countP_eq_length_filter).symm
  rw [e1, e2]
  exact h.sound m

/-- A call with valid arguments and accessible operands makes exactly so many accesses. -/
theorem C68_valid_call_exact {c : AnyCall F} {m : Mem F} {r w : Nat} (h : Moves c m r w) (hok : c.Ok m) :
    c.reads m = r ∧ c.writes m = w := by
  obtain ⟨x, mf, hf⟩ := AnyCall.foot hok
  have := hf.run
  rw [c.thread_run] at this
  exact h.2.2 _ _ this

/-! ## The vectorised build -/

/-- C68.  COPYV: each element read once and written once. -/
theorem C68_copyv (N X INCX Y INCY : Int) (m : Mem F) :
    Moves (.simd (.copyv N X INCX Y INCY)) m (4 * N.toNat) (4 * N.toNat) :=
  .of (Thr.cnt_copyvAVX N X INCX Y INCY) (by omega) (by omega)

/-- C68.  SWAPV. -/
theorem C68_swapv (N X INCX Y INCY : Int) (m : Mem F) :
    Moves (.simd (.swapv N X INCX Y INCY)) m (8 * N.toNat) (8 * N.toNat) :=
  .of (Thr.cnt_swapvAVX N X INCX Y INCY) (by omega) (by omega)

/-- C68.  SCALV. -/
theorem C68_scalv (SIDE : Char) (N : Int) (ALPHA : Scal F) (X INCX : Int) (m : Mem F) :
    Moves (.simd (.scalv SIDE N ALPHA X INCX)) m (4 * N.toNat) (4 * N.toNat) :=
  .of (Thr.cnt_scalvAVX SIDE N ALPHA X INCX) (by omega) (by omega)

/-- C68.  AXPYV. -/
theorem C68_axpyv (SIDE : Char) (N : Int) (ALPHA : Scal F) (X INCX Y INCY : Int) (m : Mem F) :
    Moves (.simd (.axpyv SIDE N ALPHA X INCX Y INCY)) m (8 * N.toNat) (4 * N.toNat) :=
  .of (Thr.cnt_axpyvAVX SIDE N ALPHA X INCX Y INCY) (by omega) (by omega)

/-- C68.  DOTUV, DOTCV: every element of x and of y read once, nothing written. -/
theorem C68_dot (conj : Bool) (N X INCX Y INCY : Int) (m : Mem F) :
    Moves (.simd (.dot conj N X INCX Y INCY)) m (8 * N.toNat) 0 :=
  .of (Thr.cnt_dotAVX conj N X INCX Y INCY) (by omega) rfl

/-- C68.  SCALM: every entry read once and written once; nothing when INCA ≤ 0. -/
theorem C68_scalm (SIDE : Char) (M N : Int) (ALPHA : Scal F) (A LDA INCA : Int) (m : Mem F) (h : 0 < INCA) :
    Moves (.simd (.scalm SIDE M N ALPHA A LDA INCA)) m (4 * (M.toNat * N.toNat)) (4 * (M.toNat * N.toNat)) :=
  .of (Thr.cnt_scalm (r := M.toNat * 4) (w := M.toNat * 4) SIDE 'N' M N ALPHA A LDA INCA (fun _ _ p => Thr.cnt_scalvAVX ..)
    (by rintro (h' | h') <;> omega)) (by ring) (by ring)

/-- C68.  AXPYM with ALPHA ≠ 0. -/
theorem C68_axpym (SIDE : Char) (M N : Int) (ALPHA : Scal F) (A LDA INCA B LDB INCB : Int) (m : Mem F) (h0 : ALPHA.eqZero = false) :
    Moves (.simd (.axpym SIDE M N ALPHA A LDA INCA B LDB INCB)) m (8 * (M.toNat * N.toNat)) (4 * (M.toNat * N.toNat)) :=
  .of (Thr.cnt_axpym (r := M.toNat * 8) (w := M.toNat * 4) SIDE 'N' M N ALPHA A LDA INCA B LDB INCB h0
    (fun _ p q => Thr.cnt_axpyvAVX ..) (by omega)) (by ring) (by ring)

/-- C68.  GEMM.  Reads: C once for BETA; B once for packing; A once per column block; C once per block of K; and the packed
arrays, 16 doubles per 2×2 tile and step of K.  Writes: C once for BETA and once per block of K; the packed B once and the packed A
once per column block, odd edges padded. -/
theorem C68_gemm (blk : Blk) (bAddr aAddr : Int) (junk : Int → F) (tA tB : Char) (M N K : Nat) (ALPHA : Scal F) (A LDA B LDB : Int)
    (BETA : Scal F) (C LDC : Int) (m : Mem F)
    (h1 : 0 < blk.MC) (h2 : blk.MC % 2 = 0) (h3 : 0 < blk.KC) (h4 : 0 < blk.NC) (h5 : blk.NC % 2 = 0) :
    Moves (.simd (.gemm blk bAddr aAddr junk tA tB M N K ALPHA A LDA B LDB BETA C LDC)) m
      (4 * M * N + 4 * N * K + 4 * M * K * ((N + blk.NC.toNat - 1) / blk.NC.toNat) + 4 * M * N * ((K + blk.KC.toNat - 1) / blk.KC.toNat) +
        16 * ((M + 1) / 2) * ((N + 1) / 2) * K)
      (4 * M * N + 8 * ((N + 1) / 2) * K + 8 * ((M + 1) / 2) * K * ((N + blk.NC.toNat - 1) / blk.NC.toNat) +
        4 * M * N * ((K + blk.KC.toNat - 1) / blk.KC.toNat)) := by
  refine .of (Thr.cnt_gemmAVX blk bAddr aAddr junk tA tB M N K ALPHA A LDA B LDB BETA C LDC h1 h2 h3 h4 h5) ?_ ?_
  · rw [Thr.nIter_eq h4, Thr.nIter_eq h3]; simp only [Int.toNat_natCast]
  · rw [Thr.nIter_eq h4, Thr.nIter_eq h3]; simp only [Int.toNat_natCast]

/-! ## The portable templates -/

/-- C68.  Portable COPYV. -/
theorem C68_copyv_portable (N X INCX Y INCY : Int) (m : Mem F) :
    Moves (.ref (.pcopy N X INCX Y INCY)) m (4 * N.toNat) (4 * N.toNat) :=
  .of (Thr.cnt_copyvGen N X INCX Y INCY) (by omega) (by omega)

/-- C68.  Portable SWAPV. -/
theorem C68_swapv_portable (N X INCX Y INCY : Int) (m : Mem F) :
    Moves (.ref (.pswap N X INCX Y INCY)) m (8 * N.toNat) (8 * N.toNat) :=
  .of (Thr.cnt_swapvGen N X INCX Y INCY) (by omega) (by omega)

/-- C68.  Portable SCALV: nothing when INCX ≤ 0. -/
theorem C68_scalv_portable (SIDE : Char) (N : Int) (ALPHA : Scal F) (X INCX : Int) (m : Mem F) :
    Moves (.ref (.pscal SIDE N ALPHA X INCX)) m (if 0 < INCX then 4 * N.toNat else 0) (if 0 < INCX then 4 * N.toNat else 0) :=
  .of (Thr.cnt_scalvGen SIDE N ALPHA X INCX) (by split <;> omega) (by split <;> omega)

/-- C68.  Portable AXPYV, any element type of x: `kX.width` is 1, 2 or 4 doubles.  Nothing when ALPHA = 0. -/
theorem C68_axpyv_portable (kX : Kind) (SIDE : Char) (N : Int) (ALPHA : Scal F) (X INCX Y INCY : Int) (m : Mem F) :
    Moves (.ref (.kaxpy kX SIDE N ALPHA X INCX Y INCY)) m
      (if ALPHA.eqZero then 0 else (kX.width.toNat + 4) * N.toNat) (if ALPHA.eqZero then 0 else 4 * N.toNat) ∧
    Moves (.ref (.paxpy SIDE N ALPHA X INCX Y INCY)) m
      (if ALPHA.eqZero then 0 else 8 * N.toNat) (if ALPHA.eqZero then 0 else 4 * N.toNat) := by
  cases h : ALPHA.eqZero
  · exact ⟨.of (Thr.cnt_axpyvGenK kX SIDE N ALPHA X INCX Y INCY h) (by simp [Nat.mul_comm]) (by simp [Nat.mul_comm]),
      .of (Thr.cnt_axpyvGen SIDE N ALPHA X INCX Y INCY h) (by simp [Nat.mul_comm]) (by simp [Nat.mul_comm])⟩
  · exact ⟨.of (Thr.cnt_axpyvGenK_zero kX SIDE N ALPHA X INCX Y INCY h) (by simp) (by simp),
      .of (Thr.cnt_axpyvGen_zero SIDE N ALPHA X INCX Y INCY h) (by simp) (by simp)⟩

/-- C68.  Portable DOTUV, DOTCV. -/
theorem C68_dot_portable (conj : Bool) (N X INCX Y INCY : Int) (m : Mem F) :
    Moves (.ref (.pdot conj N X INCX Y INCY)) m (8 * N.toNat) 0 :=
  .of (Thr.cnt_dotGen conj N X INCX Y INCY) (by omega) rfl

/-- Doubles read when `n` elements are scaled by BETA: none for BETA = 0 (the old values are not read) or BETA = 1. -/
def scaleReads (BETA : Scal F) (n : Nat) : Nat := if BETA.eqZero ∨ BETA.eqOne then 0 else 4 * n
/-- Doubles written when `n` elements are scaled by BETA: none for BETA = 1. -/
def scaleWrites (BETA : Scal F) (n : Nat) : Nat := if BETA.eqOne then 0 else 4 * n

theorem betaR_eq (b : Scal F) (n : Nat) : Thr.betaR b n = scaleReads b n := by unfold Thr.betaR scaleReads; split <;> omega
theorem betaW_eq (b : Scal F) (n : Nat) : Thr.betaW b n = scaleWrites b n := by unfold Thr.betaW scaleWrites; split <;> omega

/-- C68.  Portable GEMM, op(A) = A, A and B of any element types, ALPHA ≠ 0: beyond the scaling of C, every product `a(i,l) b(l,j)`
costs one load of each factor and one update of C. -/
theorem C68_gemm_portable_N (kA kB : Kind) (tB : Char) (M N K : Int) (ALPHA : Scal F) (A LDA B LDB : Int) (BETA : Scal F) (C LDC : Int)
    (m : Mem F) (h0 : ALPHA.eqZero = false) (h01 : BETA.eqZero = true → BETA.eqOne = false) :
    Moves (.ref (.kgemm kA kB 'N' tB M N K ALPHA A LDA B LDB BETA C LDC)) m
      (N.toNat * scaleReads BETA M.toNat + M.toNat * N.toNat * K.toNat * (kA.width.toNat + kB.width.toNat + 4))
      (N.toNat * scaleWrites BETA M.toNat + 4 * (M.toNat * N.toNat * K.toNat)) ∧
    Moves (.ref (.pgemm kA 'N' tB M N K ALPHA A LDA B LDB BETA C LDC)) m
      (N.toNat * scaleReads BETA M.toNat + M.toNat * N.toNat * K.toNat * (kA.width.toNat + 8))
      (N.toNat * scaleWrites BETA M.toNat + 4 * (M.toNat * N.toNat * K.toNat)) :=
  ⟨.of (Thr.cnt_gemmGenK_N kA kB tB M N K ALPHA A LDA B LDB BETA C LDC h0 h01) (by rw [betaR_eq]; ring) (by rw [betaW_eq]; ring),
    .of (Thr.cnt_gemmGen_N kA tB M N K ALPHA A LDA B LDB BETA C LDC h0 h01) (by rw [betaR_eq]; ring) (by rw [betaW_eq]; ring)⟩

/-- C68.  Portable GEMM, op(A) ≠ A, ALPHA ≠ 0: every entry of C is stored once, and read once unless BETA = 0.  (For K = 0 and
BETA = 1 the call returns at once.) -/
theorem C68_gemm_portable_T (kA kB : Kind) (tA tB : Char) (M N K : Int) (ALPHA : Scal F) (A LDA B LDB : Int) (BETA : Scal F) (C LDC : Int)
    (m : Mem F) (hA : tA ≠ 'N') (h0 : ALPHA.eqZero = false) (hK : K = 0 → BETA.eqOne = false) :
    Moves (.ref (.kgemm kA kB tA tB M N K ALPHA A LDA B LDB BETA C LDC)) m
      ((if BETA.eqZero then 0 else 4 * (M.toNat * N.toNat)) + M.toNat * N.toNat * K.toNat * (kA.width.toNat + kB.width.toNat))
      (4 * (M.toNat * N.toNat)) ∧
    Moves (.ref (.pgemm kA tA tB M N K ALPHA A LDA B LDB BETA C LDC)) m
      ((if BETA.eqZero then 0 else 4 * (M.toNat * N.toNat)) + M.toNat * N.toNat * K.toNat * (kA.width.toNat + 4))
      (4 * (M.toNat * N.toNat)) :=
  ⟨.of (Thr.cnt_gemmGenK_T kA kB tA tB M N K ALPHA A LDA B LDB BETA C LDC hA h0 hK) (by split <;> ring) (by ring),
    .of (Thr.cnt_gemmGen_T kA tA tB M N K ALPHA A LDA B LDB BETA C LDC hA h0 hK) (by split <;> ring) (by ring)⟩

/-- C68.  Portable GEMM with ALPHA = 0: only C is touched, and not even C if BETA = 1. -/
theorem C68_gemm_portable_zero (kA kB : Kind) (tA tB : Char) (M N K : Int) (ALPHA : Scal F) (A LDA B LDB : Int) (BETA : Scal F)
    (C LDC : Int) (m : Mem F) (h0 : ALPHA.eqZero = true) :
    Moves (.ref (.kgemm kA kB tA tB M N K ALPHA A LDA B LDB BETA C LDC)) m
      (N.toNat * scaleReads BETA M.toNat) (N.toNat * scaleWrites BETA M.toNat) ∧
    Moves (.ref (.pgemm kA tA tB M N K ALPHA A LDA B LDB BETA C LDC)) m
      (N.toNat * scaleReads BETA M.toNat) (N.toNat * scaleWrites BETA M.toNat) :=
  ⟨.of (Thr.cnt_gemmGenK_zero kA kB tA tB M N K ALPHA A LDA B LDB BETA C LDC h0) (by rw [betaR_eq]) (by rw [betaW_eq]),
    .of (Thr.cnt_gemmGen_zero kA tA tB M N K ALPHA A LDA B LDB BETA C LDC h0) (by rw [betaR_eq]) (by rw [betaW_eq])⟩

/-- C68.  Portable GEMV, 'N', ALPHA ≠ 0: y is updated twice for every entry of A, which is read twice, as is x. -/
theorem C68_gemv_portable_N (kA kX : Kind) (M N : Int) (ALPHA : Scal F) (A LDA X INCX : Int) (BETA : Scal F) (Y INCY : Int)
    (m : Mem F) (hM : M ≠ 0) (hN : N ≠ 0) (h0 : ALPHA.eqZero = false) :
    Moves (.ref (.kgemv kA kX 'N' M N ALPHA A LDA X INCX BETA Y INCY)) m
      (scaleReads BETA M.toNat + kX.width.toNat * N.toNat + M.toNat * N.toNat * (2 * kA.width.toNat + kX.width.toNat + 8))
      (scaleWrites BETA M.toNat + 8 * (M.toNat * N.toNat)) ∧
    Moves (.ref (.pgemv kA 'N' M N ALPHA A LDA X INCX BETA Y INCY)) m
      (scaleReads BETA M.toNat + 4 * N.toNat + M.toNat * N.toNat * (2 * kA.width.toNat + 12))
      (scaleWrites BETA M.toNat + 8 * (M.toNat * N.toNat)) :=
  ⟨.of (Thr.cnt_gemvGenK_N kA kX M N ALPHA A LDA X INCX BETA Y INCY hM hN h0) (by rw [betaR_eq]; ring) (by rw [betaW_eq]; ring),
    .of (Thr.cnt_gemvGen_N kA M N ALPHA A LDA X INCX BETA Y INCY hM hN h0) (by rw [betaR_eq]; ring) (by rw [betaW_eq]; ring)⟩

/-- C68.  Portable GEMV, not 'N', ALPHA ≠ 0: A is read once, x once per column, y updated once. -/
theorem C68_gemv_portable_T (kA kX : Kind) (t : Char) (M N : Int) (ALPHA : Scal F) (A LDA X INCX : Int) (BETA : Scal F) (Y INCY : Int)
    (m : Mem F) (ht : t ≠ 'N') (hM : M ≠ 0) (hN : N ≠ 0) (h0 : ALPHA.eqZero = false) :
    Moves (.ref (.kgemv kA kX t M N ALPHA A LDA X INCX BETA Y INCY)) m
      (scaleReads BETA N.toNat + 4 * N.toNat + M.toNat * N.toNat * (kA.width.toNat + kX.width.toNat))
      (scaleWrites BETA N.toNat + 4 * N.toNat) ∧
    Moves (.ref (.pgemv kA t M N ALPHA A LDA X INCX BETA Y INCY)) m
      (scaleReads BETA N.toNat + 4 * N.toNat + M.toNat * N.toNat * (kA.width.toNat + 4))
      (scaleWrites BETA N.toNat + 4 * N.toNat) :=
  ⟨.of (Thr.cnt_gemvGenK_T kA kX t M N ALPHA A LDA X INCX BETA Y INCY ht hM hN h0) (by rw [betaR_eq]; ring) (by rw [betaW_eq]; ring),
    .of (Thr.cnt_gemvGen_T kA t M N ALPHA A LDA X INCX BETA Y INCY ht hM hN h0) (by rw [betaR_eq]; ring) (by rw [betaW_eq]; ring)⟩

/-- C68.  Portable GEMV with ALPHA = 0: only y is touched. -/
theorem C68_gemv_portable_zero (kA kX : Kind) (t : Char) (M N : Int) (ALPHA : Scal F) (A LDA X INCX : Int) (BETA : Scal F) (Y INCY : Int)
    (m : Mem F) (hM : M ≠ 0) (hN : N ≠ 0) (h0 : ALPHA.eqZero = true) :
    Moves (.ref (.kgemv kA kX t M N ALPHA A LDA X INCX BETA Y INCY)) m
      (scaleReads BETA (if t = 'N' then M else N).toNat) (scaleWrites BETA (if t = 'N' then M else N).toNat) ∧
    Moves (.ref (.pgemv kA t M N ALPHA A LDA X INCX BETA Y INCY)) m
      (scaleReads BETA (if t = 'N' then M else N).toNat) (scaleWrites BETA (if t = 'N' then M else N).toNat) :=
  ⟨.of (Thr.cnt_gemvGenK_zero kA kX t M N ALPHA A LDA X INCX BETA Y INCY hM hN h0) (by rw [betaR_eq]) (by rw [betaW_eq]),
    .of (Thr.cnt_gemvGen_zero kA t M N ALPHA A LDA X INCX BETA Y INCY hM hN h0) (by rw [betaR_eq]) (by rw [betaW_eq])⟩

/-- C68.  Portable GERU, GERC: at most one load of x, y and one update of A per entry (columns with a zero in y are skipped). -/
theorem C68_ger_portable (kX kY : Kind) (conj : Bool) (M N : Int) (ALPHA : Scal F) (X INCX Y INCY A LDA : Int) (m : Mem F) :
    (AnyCall.ref (.kger kX kY conj M N ALPHA X INCX Y INCY A LDA)).reads m ≤
      kY.width.toNat * N.toNat + M.toNat * N.toNat * (kX.width.toNat + kY.width.toNat + 4) ∧
    (AnyCall.ref (.kger kX kY conj M N ALPHA X INCX Y INCY A LDA)).writes m ≤ 4 * (M.toNat * N.toNat) ∧
    (AnyCall.ref (.pger conj M N ALPHA X INCX Y INCY A LDA)).reads m ≤ 4 * N.toNat + 12 * (M.toNat * N.toNat) ∧
    (AnyCall.ref (.pger conj M N ALPHA X INCX Y INCY A LDA)).writes m ≤ 4 * (M.toNat * N.toNat) := by
  have h1 := moves_le (c := .ref (.kger kX kY conj M N ALPHA X INCX Y INCY A LDA)) (m := m)
    (Thr.cnt_gerGenK kX kY conj M N ALPHA X INCX Y INCY A LDA)
  have h2 := moves_le (c := .ref (.pger conj M N ALPHA X INCX Y INCY A LDA)) (m := m)
    (Thr.cnt_gerGen conj M N ALPHA X INCX Y INCY A LDA)
  refine ⟨h1.1.trans (le_of_eq (by ring)), h1.2.trans (le_of_eq (by ring)), h2.1.trans (le_of_eq (by ring)), h2.2.trans (le_of_eq (by ring))⟩

/-- C68.  Portable SCALM. -/
theorem C68_scalm_portable (SIDE : Char) (M N : Int) (ALPHA : Scal F) (A LDA INCA : Int) (m : Mem F) (h : 0 < INCA) :
    Moves (.ref (.pscalm SIDE M N ALPHA A LDA INCA)) m (4 * (M.toNat * N.toNat)) (4 * (M.toNat * N.toNat)) :=
  .of (Thr.cnt_scalm (r := M.toNat * 4) (w := M.toNat * 4) SIDE 'N' M N ALPHA A LDA INCA
    (fun _ _ p => (Thr.cnt_scalvGen ..).cast (if_pos h) (if_pos h)) (by rintro (h' | h') <;> omega)) (by ring) (by ring)

/-- C68.  Portable AXPYM. -/
theorem C68_axpym_portable (SIDE : Char) (M N : Int) (ALPHA : Scal F) (A LDA INCA B LDB INCB : Int) (m : Mem F) (h0 : ALPHA.eqZero = false) :
    Moves (.ref (.paxpym SIDE M N ALPHA A LDA INCA B LDB INCB)) m (8 * (M.toNat * N.toNat)) (4 * (M.toNat * N.toNat)) :=
  .of (Thr.cnt_axpym (r := M.toNat * (4 + 4)) (w := M.toNat * 4) SIDE 'N' M N ALPHA A LDA INCA B LDB INCB h0
    (fun _ p q => Thr.cnt_axpyvGen _ _ _ _ _ _ _ h0) (by omega)) (by ring) (by ring)

/-! ## Examples -/

/-- A 2×3×2 GEMM with the shipped block sizes. -/
example (f junk : Int → F) (al be : Scal F) :
    Moves (.simd (.gemm ⟨64, 512, 64⟩ 1000 200000 junk 'N' 'T' 2 3 2 al 0 2 4 3 be 8 2)) (memOf 0 100 f) 152 96 :=
  C68_gemm ⟨64, 512, 64⟩ 1000 200000 junk 'N' 'T' 2 3 2 al 0 2 4 3 be 8 2 _ (by decide) (by decide) (by decide) (by decide) (by decide)

/-- It does run, so that the counts are attained. -/
example (f junk : Int → F) (al be : Scal F) :
    (AnyCall.simd (.gemm ⟨64, 512, 64⟩ 1000 200000 junk 'N' 'T' 2 3 2 al 0 2 4 3 be 8 2)).reads (memOf 0 100 f) = 152 := by
  refine (C68_valid_call_exact (C68_gemm ⟨64, 512, 64⟩ 1000 200000 junk 'N' 'T' 2 3 2 al 0 2 4 3 be 8 2 _ (by decide) (by decide)
    (by decide) (by decide) (by decide)) ?_).1
  refine ⟨?_, ?_, ?_⟩
  · constructor <;> first | decide | (unfold Fits32; decide)
  · rintro a ((⟨i, j, h1, h2, h3, h4⟩ | ⟨i, j, h1, h2, h3, h4⟩) | ⟨i, j, h1, h2, h3, h4⟩)
    all_goals
      have h1' : i < 3 := lt_of_lt_of_le h1 (by decide)
      have h2' : j < 3 := lt_of_lt_of_le h2 (by decide)
      unfold memOf
      rw [if_pos (by omega)]
      rfl
  · rintro a (⟨h1, h2⟩ | ⟨h1, h2⟩)
    all_goals
      unfold memOf
      rw [if_neg (by omega)]

/-- A portable call: 3 elements scaled. -/
example (f : Int → F) (al : Scal F) : (AnyCall.ref (.pscal 'L' 3 al 0 2)).reads (memOf 0 24 f) = 12 := by
  refine (C68_valid_call_exact (C68_scalv_portable 'L' 3 al 0 2 _) ⟨?_, ?_⟩).1
  · trivial
  · rintro a h
    rcases h with h | h <;> first | exact h.elim | skip
    obtain ⟨i, h1, h3, h4⟩ := h
    have h1' : i < 3 := h1
    unfold memOf
    rw [if_pos (by omega)]
    rfl

/-- The hypotheses on ALPHA and BETA hold for ordinary scalars. -/
example : (Scal.d (2 : Int)).eqZero = false ∧ ((Scal.d (3 : Int)).eqZero = true → (Scal.d (3 : Int)).eqOne = false) ∧
    (Scal.d (0 : Int)).eqZero = true ∧ scaleReads (Scal.d (3 : Int)) 5 = 20 ∧ scaleReads (Scal.d (0 : Int)) 5 = 0 ∧
    scaleWrites (Scal.d (0 : Int)) 5 = 20 := by decide

end Haxx
