import Verif.PropsGemm

/-!
# C56: what GEMM does when the packing buffers cannot be allocated

`gemm.cxx:56-59` uses the results of `aligned_alloc` without looking at them.
-/

set_option linter.unusedSectionVars false

namespace Haxx
open Arith

section model
variable {F : Type} [Arith F]

/-- `aligned_alloc`: `some p` is success with block `p`, `none` failure, where the result is the null pointer. -/
def tryAlloc (null : Int) (r : Option Int) (n : Int) (junk : Int → F) : Prog F Int :=
  match r with
  | some p => do allocQ p n junk; pure p
  | none => pure null

/-- `free` of what `aligned_alloc` returned; `free(NULL)` does nothing. -/
def tryFree (r : Option Int) (n : Int) : Prog F Unit :=
  match r with
  | some p => freeQ p n
  | none => pure ()

/-- `HBLAS_GEMM` (AVX) — `gemm.cxx:41-184`, with the outcomes `bRes`, `aRes` of the two calls of `aligned_alloc`
(`gemm.cxx:56-59`) left open; `null` is the address of the null pointer. -/
def gemmMay (null : Int) (blk : Blk) (bRes aRes : Option Int) (junk : Int → F) (TRANSA TRANSB : Char) (M N K : Int)
    (ALPHA : Scal F) (A LDA B LDB : Int) (BETA : Scal F) (C LDC : Int) : Prog F Unit := do
  let bPack ← tryAlloc null bRes (fixMod (blk.KC * blk.NC) 32) junk
  let aPack ← tryAlloc null aRes (fixMod (blk.KC * blk.MC) 32) junk
  scalm scalvAVX 'L' 'N' M N BETA C LDC 1
  gemmJ blk TRANSA TRANSB M N K ALPHA A LDA B LDB C LDC aPack bPack
  tryFree bRes (fixMod (blk.KC * blk.NC) 32)
  tryFree aRes (fixMod (blk.KC * blk.MC) 32)

end model

section lemmas
variable {F : Type} {α β σ : Type}

/-- The program does not end normally in `m` (it faults). -/
def Stops (p : Prog F α) (m : Mem F) : Prop := ∃ e, p m = .error e

/-- Cell `c` stays inaccessible. -/
def KeepsNone (c : Int) (p : Prog F α) : Prop :=
  ∀ m a m', m c = none → p m = .ok (a, m') → m' c = none

theorem KeepsNone.pure {c : Int} (a : α) : KeepsNone c (Pure.pure a : Prog F α) := by
  intro m a' m' h e; cases e; exact h

theorem KeepsNone.bind {c : Int} {p : Prog F α} {f : α → Prog F β} (hp : KeepsNone c p) (hf : ∀ a, KeepsNone c (f a)) :
    KeepsNone c (p >>= f) := by
  intro m b m' h e
  cases hq : p m with
  | error x => rw [bind_error hq] at e; cases e
  | ok r =>
    obtain ⟨a, m1⟩ := r
    rw [bind_ok hq] at e
    exact hf a m1 b m' (hp m a m1 h hq) e

theorem KeepsNone.rd {c a : Int} : KeepsNone c (rd a : Prog F F) := by
  intro m v m' h e
  unfold Haxx.rd at e
  split at e
  · cases e; exact h
  · cases e

theorem KeepsNone.wr {c a : Int} {v : F} : KeepsNone c (wr a v) := by
  intro m u m' h e
  unfold Haxx.wr at e
  split at e
  · rename_i w hw
    cases e
    have : c ≠ a := by rintro rfl; rw [h] at hw; cases hw
    simp only [if_neg this, h]
  · cases e

theorem KeepsNone.fault {c : Int} {e : Fault} : KeepsNone c (fault e : Prog F α) := by
  intro m a m' _ h; cases h

theorem KeepsNone.loadQ {c p : Int} : KeepsNone c (loadQ p : Prog F (Quat F)) :=
  .bind .rd fun _ => .bind .rd fun _ => .bind .rd fun _ => .bind .rd fun _ => .pure _

theorem KeepsNone.storeQ {c p : Int} {q : Quat F} : KeepsNone c (storeQ p q) :=
  .bind .wr fun _ => .bind .wr fun _ => .bind .wr fun _ => .wr

theorem KeepsNone.foldN {c : Int} {n : Nat} {f : Nat → σ → Prog F σ} (hf : ∀ i s, KeepsNone c (f i s)) (s : σ) :
    KeepsNone c (foldN n f s) := by
  induction n with
  | zero => exact .pure _
  | succ n ih => exact .bind ih fun _ => hf _ _

theorem KeepsNone.assertP {c : Int} {b : Bool} : KeepsNone c (assertP b : Prog F Unit) := by
  unfold Haxx.assertP; split
  · exact .pure _
  · exact .fault

/-- What the first half leaves inaccessible makes the second half fault: the whole faults. -/
theorem Stops.bind {c : Int} {p : Prog F α} {f : α → Prog F β} {m : Mem F} (hc : m c = none) (hp : KeepsNone c p)
    (hf : ∀ a m', m' c = none → Stops (f a) m') : Stops (p >>= f) m := by
  cases hq : p m with
  | error x => exact ⟨x, bind_error hq⟩
  | ok r =>
    obtain ⟨a, m1⟩ := r
    obtain ⟨e, he⟩ := hf a m1 (hp m a m1 hc hq)
    exact ⟨e, by rw [bind_ok hq, he]⟩

theorem Stops.left {p : Prog F α} {f : α → Prog F β} {m : Mem F} (h : Stops p m) : Stops (p >>= f) m := by
  obtain ⟨e, he⟩ := h
  exact ⟨e, bind_error he⟩

theorem Stops.pure_bind {a : α} {f : α → Prog F β} {m : Mem F} (h : Stops (f a) m) : Stops (Pure.pure a >>= f) m := h

/-- A loop whose first iteration faults. -/
theorem Stops.foldN {n : Nat} {f : Nat → σ → Prog F σ} {s : σ} {m : Mem F} (hn : 0 < n) (h : Stops (f 0 s) m) :
    Stops (foldN n f s) m := by
  induction n with
  | zero => cases hn
  | succ n ih =>
    rcases Nat.eq_zero_or_pos n with rfl | hn'
    · exact h
    · exact (ih hn').left

theorem Stops.storeQ {p : Int} {q : Quat F} {m : Mem F} (h : m p = none) : Stops (storeQ p q) m := by
  refine Stops.left ⟨.oob p, ?_⟩
  unfold wr; rw [h]

variable [Arith F]

theorem packCol2_faults {pre : V4 F → V4 F} {op : VV F → VV F} {inc : Int} {s : Int × Int × Int} {m : Mem F}
    (h : m s.2.2 = none) : Stops (packCol2 pre op inc s) m :=
  .bind h .loadQ fun _ _ h => .bind h .loadQ fun _ _ h => .left (.storeQ h)

theorem packCol1_faults {pre : V4 F → V4 F} {op : VV F → VV F} {inc : Int} {s : Int × Int} {m : Mem F}
    (h : m s.2 = none) : Stops (packCol1 pre op inc s) m :=
  .bind h .loadQ fun _ _ h => .left (.storeQ h)

theorem TPACK_faults {pre : V4 F → V4 F} {op : VV F → VV F} {M N X LDX Xp : Int} {m : Mem F}
    (hM : 0 < M) (hN : 0 < N) (h : m Xp = none) : Stops (TPACK pre op M N X LDX Xp) m := by
  unfold TPACK
  by_cases h2 : 2 ≤ N
  · exact .left (.foldN (by omega) (.left (.foldN (by omega) (packCol2_faults h))))
  · obtain rfl : N = 1 := by omega
    rw [show ((1:Int) / 2).toNat = 0 from rfl]
    simp only [foldN]
    refine .pure_bind ?_
    rw [if_pos (by decide)]
    exact .bind h .assertP fun _ m' h => .left (.foldN (by omega) (packCol1_faults h))

theorem NPACK_faults {pre : V4 F → V4 F} {op : VV F → VV F} {M N X LDX Xp : Int} {m : Mem F}
    (hM : 0 < M) (hN : 0 < N) (h : m Xp = none) : Stops (NPACK pre op M N X LDX Xp) m := by
  unfold NPACK
  by_cases h2 : 2 ≤ M
  · exact .left (.foldN (by omega) (.left (.foldN (by omega) (packCol2_faults h))))
  · obtain rfl : M = 1 := by omega
    rw [show ((1:Int) / 2).toNat = 0 from rfl]
    simp only [foldN]
    refine .pure_bind ?_
    rw [if_pos (by decide)]
    exact .bind h .assertP fun _ m' h => .left (.foldN (by omega) (packCol1_faults h))

theorem bPackSel_faults {t : Char} {nJ nK Bp LDB bPack : Int} {m : Mem F} (hJ : 0 < nJ) (hK : 0 < nK)
    (h : m bPack = none) : Stops (bPackSel t nJ nK Bp LDB bPack) m := by
  unfold bPackSel
  dsimp only
  split_ifs
  · exact NPACK_faults hJ hK h
  · exact NPACK_faults hJ hK h
  · exact TPACK_faults hK hJ h
  · exact TPACK_faults hK hJ h

theorem aPackSel_faults {t : Char} {ALPHA : Scal F} {nI nK Ai LDA aPack : Int} {m : Mem F} (hI : 0 < nI) (hK : 0 < nK)
    (h : m aPack = none) : Stops (aPackSel t ALPHA nI nK Ai LDA aPack) m := by
  unfold aPackSel
  dsimp only
  split_ifs
  · exact TPACK_faults hK hI h
  · exact TPACK_faults hK hI h
  · exact NPACK_faults hI hK h
  · exact NPACK_faults hI hK h

theorem packCol2_keeps {c : Int} {pre : V4 F → V4 F} {op : VV F → VV F} {inc : Int} {s : Int × Int × Int} :
    KeepsNone c (packCol2 pre op inc s) :=
  .bind .loadQ fun _ => .bind .loadQ fun _ => .bind .storeQ fun _ => .bind .storeQ fun _ => .pure _

theorem packCol1_keeps {c : Int} {pre : V4 F → V4 F} {op : VV F → VV F} {inc : Int} {s : Int × Int} :
    KeepsNone c (packCol1 pre op inc s) :=
  .bind .loadQ fun _ => .bind .storeQ fun _ => .bind .storeQ fun _ => .pure _

theorem TPACK_keeps {c : Int} {pre : V4 F → V4 F} {op : VV F → VV F} {M N X LDX Xp : Int} :
    KeepsNone c (TPACK pre op M N X LDX Xp) := by
  unfold TPACK
  refine .bind (.foldN (fun _ _ => .bind (.foldN (fun _ _ => packCol2_keeps) _) fun _ => .pure _) _) fun _ => ?_
  dsimp only
  split_ifs
  · exact .bind .assertP fun _ => .bind (.foldN (fun _ _ => packCol1_keeps) _) fun _ => .pure _
  · exact .pure _

theorem NPACK_keeps {c : Int} {pre : V4 F → V4 F} {op : VV F → VV F} {M N X LDX Xp : Int} :
    KeepsNone c (NPACK pre op M N X LDX Xp) := by
  unfold NPACK
  refine .bind (.foldN (fun _ _ => .bind (.foldN (fun _ _ => packCol2_keeps) _) fun _ => .pure _) _) fun _ => ?_
  dsimp only
  split_ifs
  · exact .bind .assertP fun _ => .bind (.foldN (fun _ _ => packCol1_keeps) _) fun _ => .pure _
  · exact .pure _

theorem bPackSel_keeps {c : Int} {t : Char} {nJ nK Bp LDB bPack : Int} :
    KeepsNone c (bPackSel t nJ nK Bp LDB bPack : Prog F Unit) := by
  unfold bPackSel
  dsimp only
  split_ifs
  · exact NPACK_keeps
  · exact NPACK_keeps
  · exact TPACK_keeps
  · exact TPACK_keeps

theorem scalvAVX_keeps {c : Int} {SIDE : Char} {N : Int} {ALPHA : Scal F} {X INCX : Int} :
    KeepsNone c (scalvAVX SIDE N ALPHA X INCX) := by
  unfold scalvAVX
  refine .bind (.foldN (fun _ _ => .bind ?_ fun _ => .bind ?_ fun _ => .pure _) _) fun _ => .pure _
  · unfold loadM loadA; split_ifs
    · exact .loadQ
    · exact .fault
    · exact .loadQ
  · unfold storeM storeA; split_ifs
    · exact .storeQ
    · exact .fault
    · exact .storeQ

theorem scalm_keeps {c : Int} {SIDE t : Char} {M N : Int} {ALPHA : Scal F} {A LDA INCA : Int} :
    KeepsNone c (scalm scalvAVX SIDE t M N ALPHA A LDA INCA) := by
  unfold scalm
  split_ifs
  · exact .pure _
  · exact .bind .assertP fun _ => .bind (.foldN (fun _ _ => .bind scalvAVX_keeps fun _ => .pure _) _) fun _ => .pure _

theorem nIter_pos {N S : Int} (hN : 0 < N) (hS : 0 < S) : 0 < nIter N S := by
  unfold nIter
  have : 1 ≤ (N + S - 1) / S := by
    rw [Int.le_ediv_iff_mul_le hS]; omega
  omega

end lemmas

section
variable {F : Type} [Arith F]

/-- If both allocations succeed this is the routine of C22–C27. -/
theorem gemmMay_some (null : Int) (blk : Blk) (bAddr aAddr : Int) (junk : Int → F) (TRANSA TRANSB : Char) (M N K : Int)
    (ALPHA : Scal F) (A LDA B LDB : Int) (BETA : Scal F) (C LDC : Int) :
    gemmMay null blk (some bAddr) (some aAddr) junk TRANSA TRANSB M N K ALPHA A LDA B LDB BETA C LDC =
      gemmAVX blk bAddr aAddr junk TRANSA TRANSB M N K ALPHA A LDA B LDB BETA C LDC := rfl

/-- The claim of C56 for all calls of the given sizes: whatever the allocator answers, a well-formed call ends
normally, and leaves either what a call with enough memory leaves, or (to report the failure) the memory as it was. -/
def AllocSafe (blk : Blk) (M N K : Int) : Prop :=
  ∀ (F : Type) [Arith F] (m : Mem F) (null bAddr aAddr : Int) (junk : Int → F) (TRANSA TRANSB : Char)
    (ALPHA BETA : Scal F) (A LDA B LDB C LDC : Int) (Av Bv Cv : Nat → Nat → Quat F),
    GemmPre m blk bAddr aAddr TRANSA TRANSB M.toNat N.toNat K.toNat A LDA Av B LDB Bv C LDC Cv →
    m null = none → ¬ InBuf bAddr (4 * fixMod (blk.KC * blk.NC) 32) null →
    ¬ InBuf aAddr (4 * fixMod (blk.KC * blk.MC) 32) null →
    ∀ bRes aRes, (bRes = none ∨ bRes = some bAddr) → (aRes = none ∨ aRes = some aAddr) →
    ∃ m', gemmMay null blk bRes aRes junk TRANSA TRANSB M N K ALPHA A LDA B LDB BETA C LDC m = .ok ((), m') ∧
      (m' = m ∨ gemmAVX blk bAddr aAddr junk TRANSA TRANSB M N K ALPHA A LDA B LDB BETA C LDC m = .ok ((), m'))

theorem tryAlloc_keeps {null : Int} {r : Option Int} {n : Int} {junk : Int → F}
    (h : ∀ p, r = some p → ¬ InBuf p (4 * n) null) : KeepsNone null (tryAlloc null r n junk) := by
  unfold tryAlloc
  split
  · rename_i p
    refine .bind ?_ fun _ => .pure _
    intro m u m' h1 e
    cases e
    have := h p rfl
    unfold InBuf at this
    dsimp only
    rw [if_neg this, h1]
  · exact .pure _

/-- C56 fails: if the first allocation fails and N, K are positive, the call faults, whatever the operands; -/
theorem C56_bPack_violated (m : Mem F) (null : Int) (h0 : m null = none) (blk : Blk) (M N K : Int) (hN : 0 < N) (hK : 0 < K)
    (hNC : 0 < blk.NC) (hKC : 0 < blk.KC) (aRes : Option Int)
    (hA : ∀ p, aRes = some p → ¬ InBuf p (4 * fixMod (blk.KC * blk.MC) 32) null) (junk : Int → F) (TRANSA TRANSB : Char)
    (ALPHA : Scal F) (A LDA B LDB : Int) (BETA : Scal F) (C LDC : Int) :
    ∃ e, gemmMay null blk none aRes junk TRANSA TRANSB M N K ALPHA A LDA B LDB BETA C LDC m = .error e := by
  change Stops _ m
  unfold gemmMay
  refine .pure_bind (.bind h0 (tryAlloc_keeps hA) fun aPack m1 h1 => ?_)
  refine .bind h1 scalm_keeps fun _ m2 h2 => .left ?_
  unfold gemmJ
  refine .left (.foldN (nIter_pos hN hNC) ?_)
  unfold gemmJStep
  refine .pure_bind (.left ?_)
  unfold gemmK
  refine .left (.foldN (nIter_pos hK hKC) ?_)
  unfold gemmKStep
  exact .pure_bind (.left (bPackSel_faults (by simp only [Nat.cast_zero]; omega) (by simp only [Nat.cast_zero]; omega) h2))

/-- and so it does if the second one fails and M, N, K are positive. -/
theorem C56_aPack_violated (m : Mem F) (null : Int) (h0 : m null = none) (blk : Blk) (M N K : Int) (hM : 0 < M) (hN : 0 < N)
    (hK : 0 < K) (hMC : 0 < blk.MC) (hNC : 0 < blk.NC) (hKC : 0 < blk.KC) (bRes : Option Int)
    (hB : ∀ p, bRes = some p → ¬ InBuf p (4 * fixMod (blk.KC * blk.NC) 32) null) (junk : Int → F) (TRANSA TRANSB : Char)
    (ALPHA : Scal F) (A LDA B LDB : Int) (BETA : Scal F) (C LDC : Int) :
    ∃ e, gemmMay null blk bRes none junk TRANSA TRANSB M N K ALPHA A LDA B LDB BETA C LDC m = .error e := by
  change Stops _ m
  unfold gemmMay
  refine .bind h0 (tryAlloc_keeps hB) fun bPack m1 h1 => ?_
  refine .pure_bind (.bind h1 scalm_keeps fun _ m2 h2 => .left ?_)
  unfold gemmJ
  refine .left (.foldN (nIter_pos hN hNC) ?_)
  unfold gemmJStep
  refine .pure_bind (.left ?_)
  unfold gemmK
  refine .left (.foldN (nIter_pos hK hKC) ?_)
  unfold gemmKStep
  refine .pure_bind (.bind h2 bPackSel_keeps fun _ m3 h3 => .left ?_)
  unfold gemmI
  refine .left (.foldN (nIter_pos hM hMC) ?_)
  unfold gemmIStep
  exact .pure_bind (.left (aPackSel_faults (by simp only [Nat.cast_zero]; omega) (by simp only [Nat.cast_zero]; omega) h3))

/-- With `N ≤ 0` or `K ≤ 0` the loops do not touch memory. -/
theorem gemmJ_degenerate {blk : Blk} {tA tB : Char} {M N K : Int} {ALPHA : Scal F} {A LDA B LDB C LDC aPack bPack : Int}
    {m : Mem F} (hNC : 0 < blk.NC) (hKC : 0 < blk.KC) (h : N ≤ 0 ∨ K ≤ 0) (hb : 0 ≤ LDB) (hc : 0 ≤ LDC)
    (n32 : Fits32 ((N.toNat:Int) + blk.NC + 2)) (ldc32 : Fits32 (min (N.toNat:Int) blk.NC * LDC))
    (ldb32 : Fits32 (min (N.toNat:Int) blk.NC * LDB)) :
    wp (gemmJ blk tA tB M N K ALPHA A LDA B LDB C LDC aPack bPack) m (fun _ m' => m' = m) := by
  unfold gemmJ
  rcases le_or_gt N 0 with hN | hN
  · rw [nIter_nonpos hNC hN, wp_bind]
    simp only [foldN]
    rw [wp_pure, wp_pure]
  have hK : K ≤ 0 := by omega
  rw [wp_bind]
  refine wp_foldN (fun _ _ m' => m' = m) rfl ?_ (fun _ _ h => by rw [wp_pure]; exact h)
  rintro b ⟨Cj, Bj⟩ m1 hb1 rfl
  unfold gemmJStep
  rw [wp_bind, wp_pure, wp_bind]
  have hk : wp (gemmK blk tA tB M (min (N - b * blk.NC) blk.NC) K ALPHA A LDA Bj LDB Cj LDC aPack bPack) m1 (fun _ m' => m' = m1) := by
    unfold gemmK
    rw [nIter_nonpos hKC hK, wp_bind]
    simp only [foldN]
    rw [wp_pure, wp_pure]
  refine wp_mono hk ?_
  rintro _ _ rfl
  have hlt : (b:Int) * blk.NC < N := by
    unfold nIter at hb1
    have h1 : (b:Int) + 1 ≤ (N + blk.NC - 1) / blk.NC := by omega
    rw [Int.le_ediv_iff_mul_le hNC] at h1
    linarith
  have hbN : 0 ≤ (b:Int) * blk.NC := by positivity
  have hcap : ∀ L : Int, 0 ≤ L → Fits32 (min (N.toNat:Int) blk.NC * L) → Fits32 (min (N - b * blk.NC) blk.NC * L) := by
    intro L hL hf
    refine hf.mono (mul_nonneg (by omega) hL) (mul_le_mul_of_nonneg_right ?_ hL)
    omega
  rw [wp_bind, wp_i32 (hcap LDC hc ldc32), wp_bind]
  have hadv : ∀ m1, wp (advance (F := F) (¬ (tB = 'T' ∨ tB = 'C')) Bj (min (N - b * blk.NC) blk.NC) LDB) m1 (fun _ m' => m' = m1) := by
    intro m1
    unfold advance
    split_ifs
    · rw [wp_pure]
    · rw [wp_bind, wp_i32 (hcap LDB hb ldb32), wp_pure]
  refine wp_mono (hadv _) ?_
  rintro _ _ rfl
  rw [wp_bind, wp_i32 (n32.mono (by omega) (by omega)), wp_pure]

/-- The part of the routine between the allocations and the frees, for `N ≤ 0` or `K ≤ 0`. -/
theorem gemmMid_wp {m m1 : Mem F} {blk : Blk} {bAddr aAddr : Int} {tA tB : Char} {M N K : Int} {ALPHA BETA : Scal F}
    {A LDA B LDB C LDC : Int} {Av Bv Cv : Nat → Nat → Quat F} (aPack bPack : Int)
    (hp : GemmPre m blk bAddr aAddr tA tB M.toNat N.toNat K.toNat A LDA Av B LDB Bv C LDC Cv) (h : N ≤ 0 ∨ K ≤ 0)
    (hs : ∀ a, (m a).isSome → m1 a = m a) {Q : Unit → Mem F → Prop} {rest : Prog F Unit}
    (hQ : ∀ m2, MatAt m2 C LDC M.toNat N.toNat (fun i j => scalOp true BETA (Cv i j)) →
      (∀ a, ¬ MatCell C LDC M.toNat N.toNat a → m2 a = m1 a) → wp rest m2 Q) :
    wp (do
      scalm scalvAVX 'L' 'N' M N BETA C LDC 1
      gemmJ blk tA tB M N K ALPHA A LDA B LDB C LDC aPack bPack
      rest) m1 Q := by
  have hld := hp.ldc
  have hC1 := matAt_congr (m' := m1) (fun a ha => (hs a (matCell_isSome hp.matC ha)).symm) hp.matC
  rw [wp_bind]
  refine wp_mono (scalm_wp (SCALV := scalvAVX) (SIDE := 'L') (M := M) (N := N) (ALPHA := BETA) (Av := Cv)
    (f := scalOp true BETA) (fun m X x hx => scalvAVX_wp hx (Or.inl (by decide))) (smat_one.mpr hC1) (by omega)
    (by unfold ColFits; omega)) ?_
  rintro _ m2 ⟨h2, s2⟩
  rw [smat_one] at h2
  rw [wp_bind]
  refine wp_mono (gemmJ_degenerate hp.nc_pos hp.kc_pos h hp.ldb (by omega) hp.n32 hp.ldcN32 hp.ldbN32) ?_
  rintro _ _ rfl
  exact hQ _ h2 (fun a ha => s2 a (fun hc => ha (smatCell_one.mp hc)))

/-- C56 where it holds: with `N ≤ 0` or `K ≤ 0` the buffers are not used, and a failed allocation does no harm. -/
theorem C56_alloc_partial (blk : Blk) (M N K : Int) (h : N ≤ 0 ∨ K ≤ 0) : AllocSafe blk M N K := by
  intro F _ m null bAddr aAddr junk tA tB ALPHA BETA A LDA B LDB C LDC Av Bv Cv hp h0 hb ha bRes aRes hbr har
  have hgood : ∃ m', gemmAVX blk bAddr aAddr junk tA tB M N K ALPHA A LDA B LDB BETA C LDC m = .ok ((), m') ∧
      MatAt m' C LDC M.toNat N.toNat (fun i j => scalOp true BETA (Cv i j)) ∧
      SameOutside (MatCell C LDC M.toNat N.toNat) m m' := by
    obtain ⟨_, m', h1, h2, h3⟩ := gemmAVX_wp (junk := junk) (ALPHA := ALPHA) (BETA := BETA) hp
    rw [gemmAVX_clamp hp.mc_pos hp.nc_pos hp.kc_pos]
    refine ⟨m', h1, ?_, h3⟩
    intro i j hi hj
    have := h2 i j hi hj
    rw [this]
    have : K.toNat = 0 := by omega
    rw [this]
    rfl
  obtain ⟨m', e1, v1, s1⟩ := hgood
  -- any run that scales C and gives the blocks back ends in the same memory
  have fin : ∀ m3, MatAt m3 C LDC M.toNat N.toNat (fun i j => scalOp true BETA (Cv i j)) →
      (∀ a, ¬ MatCell C LDC M.toNat N.toNat a → m3 a = m a) → m3 = m' := by
    intro m3 v3 s3
    funext a
    by_cases hc : MatCell C LDC M.toNat N.toNat a
    · obtain ⟨i, j, hi, hj, ha⟩ := hc
      exact mem_eq_of_readQ (v3 i j hi hj) (v1 i j hi hj) ha
    · rw [s3 a hc, s1 a hc]
  suffices hw : wp (gemmMay null blk bRes aRes junk tA tB M N K ALPHA A LDA B LDB BETA C LDC) m (fun _ m3 => m3 = m') by
    obtain ⟨⟨⟩, m3, e3, rfl⟩ := hw
    exact ⟨m3, e3, Or.inr e1⟩
  have hin : ∀ a, MatCell C LDC M.toNat N.toNat a → ¬ InBuf bAddr (4 * fixMod (blk.KC * blk.NC) 32) a ∧
      ¬ InBuf aAddr (4 * fixMod (blk.KC * blk.MC) 32) a := by
    intro a ha
    have := matCell_isSome hp.matC ha
    refine ⟨fun hc => ?_, fun hc => ?_⟩
    · rw [hp.freshB a hc] at this; cases this
    · rw [hp.freshA a hc] at this; cases this
  -- one block allocated and freed around the middle part
  have one : ∀ (p n : Int) (aPack bPack : Int), (∀ a, InBuf p (4 * n) a → m a = none) →
      wp (do
        allocQ p n junk
        scalm scalvAVX 'L' 'N' M N BETA C LDC 1
        gemmJ blk tA tB M N K ALPHA A LDA B LDB C LDC aPack bPack
        freeQ p n) m (fun _ m3 => m3 = m') := by
    intro p n aPack bPack hf
    rw [wp_bind, wp_allocQ]
    refine gemmMid_wp aPack bPack hp h ?_ ?_
    · intro a ha
      rw [if_neg]
      intro hc
      rw [hf a hc] at ha; cases ha
    · intro m2 v2 s2
      rw [wp_freeQ]
      refine fin _ ?_ ?_
      · refine matAt_congr ?_ v2
        intro a ha
        rw [if_neg]
        intro hc
        have := matCell_isSome hp.matC ha
        rw [hf a hc] at this; cases this
      · intro a hc
        by_cases hb : p ≤ a ∧ a < p + 4 * n
        · simp only [if_pos hb]; exact (hf a hb).symm
        · simp only [if_neg hb]
          rw [s2 a hc, if_neg hb]
  rcases hbr with rfl | rfl <;> rcases har with rfl | rfl
  · unfold gemmMay
    refine gemmMid_wp (m1 := m) null null hp h (fun _ _ => rfl) ?_
    intro m2 v2 s2
    exact ⟨(), m2, rfl, fin m2 v2 s2⟩
  · exact one aAddr _ aAddr null hp.freshA
  · exact one bAddr _ null bAddr hp.freshB
  · rw [gemmMay_some]
    exact ⟨(), m', e1, rfl⟩

/-- A call meeting the hypotheses of `C56_alloc_partial` and of the claim `AllocSafe`: 3 x 1 result, K = 0. -/
theorem gemmPre_example_K0 {F : Type} [Arith F] (f : Int → F) :
    GemmPre (memOf 0 64 f) ⟨64, 512, 64⟩ 1000 200000 'C' 'N' 3 1 0
      0 2 (fun i j => let p : Int := 0 + 4 * (i + j * 2); ⟨f p, f (p+1), f (p+2), f (p+3)⟩)
      24 2 (fun i j => let p : Int := 24 + 4 * (i + j * 2); ⟨f p, f (p+1), f (p+2), f (p+3)⟩)
      33 4 (fun i j => let p : Int := 33 + 4 * (i + j * 4); ⟨f p, f (p+1), f (p+2), f (p+3)⟩) :=
  { gemmPre_example' f with
    matA := fun i _ h _ => absurd (show i < 0 from h) (by omega)
    matB := fun i _ h _ => absurd (show i < 0 from h) (by omega)
    k32 := by unfold Fits32; decide
    ldbK32 := by unfold Fits32; decide
    ldaK32 := by unfold Fits32; decide
    apartA := by
      rintro a ⟨i, j, hi, hj, h⟩
      exact absurd (show i < 0 from hi) (by omega)
    apartB := by
      rintro a ⟨i, j, hi, hj, h⟩
      exact absurd (show i < 0 from hi) (by omega) }

example : ∃ m', gemmMay (-1) ⟨64, 512, 64⟩ none (some 200000) (fun _ => 0) 'C' 'N' 3 1 0 (.d (1:Int)) 0 2 24 2 (.d 2) 33 4
    (memOf 0 64 (fun a => a)) = .ok ((), m') ∧ (m' = memOf 0 64 (fun a => a) ∨
      gemmAVX ⟨64, 512, 64⟩ 1000 200000 (fun _ => 0) 'C' 'N' 3 1 0 (.d (1:Int)) 0 2 24 2 (.d 2) 33 4
        (memOf 0 64 (fun a => a)) = .ok ((), m')) :=
  C56_alloc_partial ⟨64, 512, 64⟩ 3 1 0 (Or.inr (by decide)) Int _ (-1) 1000 200000 (fun _ => 0) 'C' 'N' (.d 1) (.d 2)
    0 2 24 2 33 4 _ _ _ (gemmPre_example_K0 _) rfl (by unfold InBuf; decide) (by unfold InBuf; decide) none (some 200000)
    (Or.inl rfl) (Or.inr rfl)

/-- Both halves of C56 at concrete sizes and the shipped block sizes. -/
theorem C56_violated : ¬ AllocSafe ⟨64, 512, 64⟩ 3 1 2 := by
  intro h
  obtain ⟨m', e, _⟩ := h Int (memOf 0 64 (fun a => a)) (-1) 1000 200000 (fun _ => 0) 'C' 'N' (.d 1) (.d 1) 0 2 24 2 33 4 _ _ _
    (gemmPre_example' _) rfl (by unfold InBuf; decide) (by unfold InBuf; decide) none none (Or.inl rfl) (Or.inl rfl)
  obtain ⟨x, e'⟩ := C56_bPack_violated (memOf 0 64 (fun a => a)) (-1) rfl ⟨64, 512, 64⟩ 3 1 2 (by decide) (by decide) (by decide)
    (by decide) none (by intro p h; cases h) (fun _ => 0) 'C' 'N' (.d (1:Int)) 0 2 24 2 (.d 1) 33 4
  rw [e'] at e
  cases e

end
end Haxx
