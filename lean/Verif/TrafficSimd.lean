import Verif.Traffic

/-!
# Memory accesses of the vectorised routines
-/

namespace Haxx.Thr
open Arith Finset
set_option linter.unusedSectionVars false

variable {F : Type}

theorem cnt_copyvAVX (N X INCX Y INCY : Int) : Cnt (copyvAVX N X INCX Y INCY : Prog F Unit) (N.toNat * 4) (N.toNat * 4) := by
  have b : ∀ al (s : Int × Int), Cnt (copyBody al INCX INCY s : Prog F _) 4 4 := fun al s => by
    unfold copyBody
    exact ((cnt_loadM al _).bind fun _ => (cnt_storeM al _ _).bind fun _ => .ret)
  unfold copyvAVX
  exact Cnt.ite (fun _ => (Cnt.fold_const fun _ s _ => b true s).bind fun _ => .ret)
    (fun _ => (Cnt.fold_const fun _ s _ => b false s).bind fun _ => .ret)

theorem cnt_swapvAVX (N X INCX Y INCY : Int) : Cnt (swapvAVX N X INCX Y INCY : Prog F Unit) (N.toNat * 8) (N.toNat * 8) := by
  have b : ∀ al (s : Int × Int), Cnt (swapBody al INCX INCY s : Prog F _) 8 8 := fun al s => by
    unfold swapBody
    exact ((cnt_loadM al _).bind fun _ => (cnt_loadM al _).bind fun _ => (cnt_storeM al _ _).bind fun _ =>
      (cnt_storeM al _ _).bind fun _ => .ret)
  unfold swapvAVX
  exact Cnt.ite (fun _ => (Cnt.fold_const fun _ s _ => b true s).bind fun _ => .ret)
    (fun _ => (Cnt.fold_const fun _ s _ => b false s).bind fun _ => .ret)

variable [Arith F]

theorem cnt_scalvAVX (SIDE : Char) (N : Int) (ALPHA : Scal F) (X INCX : Int) :
    Cnt (scalvAVX SIDE N ALPHA X INCX) (N.toNat * 4) (N.toNat * 4) := by
  unfold scalvAVX
  exact (Cnt.fold_const fun _ s _ => (cnt_loadM _ _).bind fun _ => (cnt_storeM _ _ _).bind fun _ => .ret).bind fun _ => .ret

theorem cnt_axpyvAVX (SIDE : Char) (N : Int) (ALPHA : Scal F) (X INCX Y INCY : Int) :
    Cnt (axpyvAVX SIDE N ALPHA X INCX Y INCY) (N.toNat * 8) (N.toNat * 4) := by
  unfold axpyvAVX
  exact (Cnt.fold_const fun _ s _ => (cnt_loadM _ _).bind fun _ => (cnt_loadM _ _).bind fun _ =>
    (cnt_storeM _ _ _).bind fun _ => .ret).bind fun _ => .ret

theorem cnt_dotAVX (conj : Bool) (N X INCX Y INCY : Int) :
    Cnt (dotAVX conj N X INCX Y INCY : Prog F (Quat F)) (N.toNat * 8) 0 := by
  have h1 : ∀ al (s : DotSt F), Cnt (dotBatch conj al INCX INCY s) 32 0 := fun al s => by
    unfold dotBatch
    exact (cnt_i32 _).bind fun _ => (cnt_i32 _).bind fun _ => (cnt_loadM al _).bind fun _ => (cnt_loadM al _).bind fun _ =>
      (cnt_loadM al _).bind fun _ => (cnt_loadM al _).bind fun _ => (cnt_i32 _).bind fun _ => (cnt_i32 _).bind fun _ =>
      (cnt_loadM al _).bind fun _ => (cnt_loadM al _).bind fun _ => (cnt_loadM al _).bind fun _ => (cnt_loadM al _).bind fun _ =>
      (cnt_i32 _).bind fun _ => (cnt_i32 _).bind fun _ => .ret
  have h2 : ∀ al a b i (v : V4 F), Cnt (dotClean conj al a b INCX INCY i v) 8 0 := fun al a b i v => by
    unfold dotClean
    refine (cnt_i32 _).bind0 fun _ => (cnt_i32 _).bind0 fun _ => Cnt.cast ((cnt_loadM al _).bind fun _ => (cnt_loadM al _).bind
      (r' := 0) (w' := 0) fun _ => ?_) rfl rfl
    exact Cnt.ite (fun _ => .ret) (fun _ => .ret)
  unfold dotAVX
  refine ((Cnt.fold_const fun _ s _ => h1 _ s).bind fun s => Cnt.fold_const fun i r _ => h2 _ _ _ i r).cast ?_ ?_
  · by_cases h : 0 ≤ N
    · rw [Int.tdiv_eq_ediv_of_nonneg h, Int.tmod_eq_emod_of_nonneg h]
      omega
    · have a1 : (N.tdiv 4) ≤ 0 := by
        rw [show N = -(-N) by ring, Int.neg_tdiv, Int.tdiv_eq_ediv_of_nonneg (by omega)]
        omega
      have a2 : (N.tmod 4) ≤ 0 := by
        rw [show N = -(-N) by ring, Int.neg_tmod, Int.tmod_eq_emod_of_nonneg (by omega)]
        omega
      omega
  · simp

/-- SCALM reads and writes what `N` calls of SCALV do. -/
theorem cnt_scalm {SCALV : Char → Int → Scal F → Int → Int → Prog F Unit} {r w : Nat} (SIDE TRANSA : Char) (M N : Int) (ALPHA : Scal F)
    (A LDA INCA : Int) (h : 0 < M → 0 < INCA → ∀ p, Cnt (SCALV SIDE M ALPHA p INCA) r w) (hM : M ≤ 0 ∨ INCA ≤ 0 → r = 0 ∧ w = 0) :
    Cnt (scalm SCALV SIDE TRANSA M N ALPHA A LDA INCA) (N.toNat * r) (N.toNat * w) := by
  unfold scalm
  refine Cnt.ite (fun hc => ?_) (fun hc => ?_)
  · refine Cnt.ret.cast ?_ ?_
    · rcases hc with hc | hc
      · rw [show N.toNat = 0 by omega]; simp
      · rw [(hM hc).1]; simp
    · rcases hc with hc | hc
      · rw [show N.toNat = 0 by omega]; simp
      · rw [(hM hc).2]; simp
  · push Not at hc
    exact (cnt_assert _).bind0 fun _ => ((Cnt.fold_const (r := r) (w := w) fun _ p _ => ((h hc.2.1 hc.2.2 p).bind fun _ => .ret)).bind
      fun _ => .ret)

theorem cnt_axpym [ArithEq F] {AXPYV : Char → Int → Scal F → Int → Int → Int → Int → Prog F Unit} {r w : Nat} (SIDE TRANSA : Char)
    (M N : Int) (ALPHA : Scal F) (A LDA INCA B LDB INCB : Int) (h0 : ALPHA.eqZero = false)
    (h : 0 < M → ∀ p q, Cnt (AXPYV SIDE M ALPHA p INCA q INCB) r w) (hM : M ≤ 0 → r = 0 ∧ w = 0) :
    Cnt (axpym AXPYV SIDE TRANSA M N ALPHA A LDA INCA B LDB INCB) (N.toNat * r) (N.toNat * w) := by
  unfold axpym
  refine Cnt.ite (fun hc => ?_) (fun hc => ?_)
  · refine Cnt.ret.cast ?_ ?_
    · rcases hc with hc | hc
      · rw [show N.toNat = 0 by omega]; simp
      · rw [(hM hc).1]; simp
    · rcases hc with hc | hc
      · rw [show N.toNat = 0 by omega]; simp
      · rw [(hM hc).2]; simp
  · push Not at hc
    rw [h0]
    exact (cnt_assert _).bind0 fun _ => ((Cnt.fold_const (r := r) (w := w) fun _ p _ => ((h hc.2 p.1 p.2).bind fun _ => .ret)).bind
      fun _ => .ret)

/-! ## GEMM -/

section
omit [Arith F]
theorem cnt_packCol2 (pre : V4 F → V4 F) (op : VV F → VV F) (inc : Int) (s : Int × Int × Int) : Cnt (packCol2 pre op inc s) 8 8 := by
  unfold packCol2
  exact (cnt_loadQ _).bind fun _ => (cnt_loadQ _).bind fun _ => (cnt_storeQ _ _).bind fun _ => (cnt_storeQ _ _).bind fun _ => .ret
end

theorem cnt_packCol1 (pre : V4 F → V4 F) (op : VV F → VV F) (inc : Int) (s : Int × Int) : Cnt (packCol1 pre op inc s) 4 8 := by
  unfold packCol1
  exact (cnt_loadQ _).bind fun _ => (cnt_storeQ _ _).bind fun _ => (cnt_storeQ _ _).bind fun _ => .ret

/-- Packing `c` columns (rows) of length `l`: every element read once; pairs of columns written, the last one padded. -/
theorem cnt_TPACK (pre : V4 F → V4 F) (op : VV F → VV F) (l c : Nat) (X LDX Xp : Int) :
    Cnt (TPACK pre op l c X LDX Xp) (4 * c * l) (8 * ((c + 1) / 2) * l) := by
  unfold TPACK
  have e1 : ((c : Int) / 2).toNat = c / 2 := by omega
  refine ((Cnt.fold_const fun _ s _ => (Cnt.fold_const fun _ t _ => cnt_packCol2 pre op 1 t).bind fun _ => .ret).bind
    (r' := 4 * (c % 2) * l) (w' := 8 * (c % 2) * l) fun s => ?_).cast ?_ ?_
  · refine Cnt.ite (fun h => ?_) (fun h => ?_)
    · have : c % 2 = 1 := by omega
      rw [this]
      exact ((cnt_assert _).bind0 fun _ => (Cnt.fold_const fun _ t _ => cnt_packCol1 pre op 1 t).bind fun _ => .ret).cast
        (by simp; ring) (by simp; ring)
    · have : c % 2 = 0 := by omega
      rw [this]
      exact Cnt.ret.cast (by simp) (by simp)
  · rw [e1, Int.toNat_natCast]
    have := Nat.div_add_mod c 2
    calc c / 2 * (l * 8 + 0) + 4 * (c % 2) * l = 4 * (2 * (c / 2) + c % 2) * l := by ring
      _ = _ := by rw [this]
  · rw [e1, Int.toNat_natCast]
    have : (c + 1) / 2 = c / 2 + c % 2 := by omega
    rw [this]
    ring

theorem cnt_NPACK (pre : V4 F → V4 F) (op : VV F → VV F) (c l : Nat) (X LDX Xp : Int) :
    Cnt (NPACK pre op c l X LDX Xp) (4 * c * l) (8 * ((c + 1) / 2) * l) := by
  unfold NPACK
  have e1 : ((c : Int) / 2).toNat = c / 2 := by omega
  refine ((Cnt.fold_const fun _ s _ => (Cnt.fold_const fun _ t _ => cnt_packCol2 pre op LDX t).bind fun _ => .ret).bind
    (r' := 4 * (c % 2) * l) (w' := 8 * (c % 2) * l) fun s => ?_).cast ?_ ?_
  · refine Cnt.ite (fun h => ?_) (fun h => ?_)
    · have : c % 2 = 1 := by omega
      rw [this]
      exact ((cnt_assert _).bind0 fun _ => (Cnt.fold_const fun _ t _ => cnt_packCol1 pre op LDX t).bind fun _ => .ret).cast
        (by simp; ring) (by simp; ring)
    · have : c % 2 = 0 := by omega
      rw [this]
      exact Cnt.ret.cast (by simp) (by simp)
  · rw [e1, Int.toNat_natCast]
    have := Nat.div_add_mod c 2
    calc c / 2 * (l * 8 + 0) + 4 * (c % 2) * l = 4 * (2 * (c / 2) + c % 2) * l := by ring
      _ = _ := by rw [this]
  · rw [e1, Int.toNat_natCast]
    have : (c + 1) / 2 = c / 2 + c % 2 := by omega
    rw [this]
    ring

theorem cnt_bPackSel (t : Char) (nJ nK : Nat) (Bp LDB bPack : Int) :
    Cnt (bPackSel t nJ nK Bp LDB bPack : Prog F Unit) (4 * nJ * nK) (8 * ((nJ + 1) / 2) * nK) := by
  unfold bPackSel
  exact Cnt.ite (fun _ => cnt_NPACK ..) fun _ => Cnt.ite (fun _ => cnt_NPACK ..) fun _ =>
    Cnt.ite (fun _ => cnt_TPACK ..) fun _ => cnt_TPACK ..

theorem cnt_aPackSel (t : Char) (ALPHA : Scal F) (nI nK : Nat) (Ai LDA aPack : Int) :
    Cnt (aPackSel t ALPHA nI nK Ai LDA aPack : Prog F Unit) (4 * nI * nK) (8 * ((nI + 1) / 2) * nK) := by
  unfold aPackSel
  exact Cnt.ite (fun _ => cnt_TPACK ..) fun _ => Cnt.ite (fun _ => cnt_TPACK ..) fun _ =>
    Cnt.ite (fun _ => cnt_NPACK ..) fun _ => cnt_NPACK ..

section
omit [Arith F]
theorem cnt_load2A (p : Int) : Cnt (load2A p : Prog F (V2 F)) 2 0 := by
  unfold load2A
  exact Cnt.ite (fun _ => .rd fun _ => .rd fun _ => .ret) fun _ => .fail
end

theorem cnt_kernBody (s : KernSt F) : Cnt (kernBody s) 16 0 := by
  unfold kernBody
  exact (cnt_loadA _).bind fun _ => (cnt_loadA _).bind fun _ => (cnt_load2A _).bind fun _ => (cnt_load2A _).bind fun _ =>
    (cnt_load2A _).bind fun _ => (cnt_load2A _).bind fun _ => .ret

/-- The kernel on an `a × b` tile, `a, b` 1 or 2. -/
theorem cnt_Kern (M N : Int) (K : Nat) (A B C LDC : Int) (hM : M = 1 ∨ M = 2) (hN : N = 1 ∨ N = 2) :
    Cnt (Kern M N K A B C LDC : Prog F Unit) (4 * M.toNat * N.toNat + 16 * K) (4 * M.toNat * N.toNat) := by
  have k : ∀ (s : KernSt F), Cnt (foldN (K:Int).toNat (fun _ s => kernBody s) s) (16 * K) 0 := fun s =>
    (Cnt.fold_const fun _ s _ => cnt_kernBody s).cast (by simp; ring) (by simp)
  rcases hM with rfl | rfl <;> rcases hN with rfl | rfl
  · exact ((cnt_loadQ _).bind fun _ => (k _).bind fun _ => cnt_storeQ _ _).cast (by simp) (by simp)
  · exact ((cnt_loadQ _).bind fun _ => (cnt_loadQ _).bind fun _ => (k _).bind fun _ => (cnt_storeQ _ _).bind fun _ =>
      cnt_storeQ _ _).cast (by simp; omega) (by simp)
  · exact ((cnt_loadQ _).bind fun _ => (cnt_loadQ _).bind fun _ => (k _).bind fun _ => (cnt_storeQ _ _).bind fun _ =>
      cnt_storeQ _ _).cast (by simp; omega) (by simp)
  · exact ((cnt_loadQ _).bind fun _ => (cnt_loadQ _).bind fun _ => (cnt_loadQ _).bind fun _ => (cnt_loadQ _).bind fun _ =>
      (k _).bind fun _ => (cnt_storeQ _ _).bind fun _ => (cnt_storeQ _ _).bind fun _ => (cnt_storeQ _ _).bind fun _ =>
      cnt_storeQ _ _).cast (by simp; omega) (by simp)

theorem cnt_gemmII (nI nK : Nat) (c : Int) (hc : c = 1 ∨ c = 2) (aPack BL1 CBlk LDC : Int) :
    Cnt (gemmII nI c nK aPack BL1 CBlk LDC : Prog F Unit) (4 * nI * c.toNat + 16 * ((nI + 1) / 2) * nK) (4 * nI * c.toNat) := by
  unfold gemmII
  have e : nIter (nI:Int) 2 = (nI + 1) / 2 := by rw [nIter_eq (by decide)]; simp
  have s1 : ∑ b ∈ range (nIter (nI:Int) 2), (min 2 ((nI:Int) - b * 2)).toNat = nI := by
    have := blocks_sum (N := (nI:Int)) (S := 2) (by decide)
    simp only [min_comm, Int.toNat_natCast] at this ⊢
    exact this
  refine ((Cnt.fold (r := fun b => 4 * (min 2 ((nI:Int) - b * 2)).toNat * c.toNat + 16 * nK)
    (w := fun b => 4 * (min 2 ((nI:Int) - b * 2)).toNat * c.toNat) fun b s hb => ?_).bind fun _ => .ret).cast ?_ ?_
  · unfold gemmIIStep
    refine ((cnt_Kern _ _ nK _ _ _ _ ?_ hc).bind fun _ => (cnt_i32 _).bind fun _ => (cnt_i32 _).bind fun _ => .ret).cast rfl rfl
    rw [e] at hb
    omega
  · rw [sum_add_distrib, ← sum_mul, ← mul_sum, s1, sum_const, card_range, e, smul_eq_mul]
    ring
  · rw [← sum_mul, ← mul_sum, s1]; rfl

theorem cnt_gemmJJ (nI nJ nK : Nat) (aPack bPack Ci LDC : Int) :
    Cnt (gemmJJ nI nJ nK aPack bPack Ci LDC : Prog F Unit)
      (4 * nI * nJ + 16 * ((nI + 1) / 2) * ((nJ + 1) / 2) * nK) (4 * nI * nJ) := by
  unfold gemmJJ
  have e : nIter (nJ:Int) 2 = (nJ + 1) / 2 := by rw [nIter_eq (by decide)]; simp
  have s1 : ∑ b ∈ range (nIter (nJ:Int) 2), (min 2 ((nJ:Int) - b * 2)).toNat = nJ := by
    have := blocks_sum (N := (nJ:Int)) (S := 2) (by decide)
    simp only [min_comm, Int.toNat_natCast] at this ⊢
    exact this
  refine ((Cnt.fold (r := fun b => 4 * nI * (min 2 ((nJ:Int) - b * 2)).toNat + 16 * ((nI + 1) / 2) * nK)
    (w := fun b => 4 * nI * (min 2 ((nJ:Int) - b * 2)).toNat) fun b s hb => ?_).bind fun _ => .ret).cast ?_ ?_
  · unfold gemmJJStep
    refine ((cnt_gemmII nI nK _ ?_ _ _ _ _).bind fun _ => (cnt_i32 _).bind fun _ => (cnt_i32 _).bind fun _ =>
      (cnt_i32 _).bind fun _ => .ret).cast rfl rfl
    rw [e] at hb
    omega
  · rw [sum_add_distrib, ← mul_sum, s1, sum_const, card_range, e, smul_eq_mul]
    ring
  · rw [← mul_sum, s1]; rfl

section
omit [Arith F]
theorem cnt_advance (c : Prop) [Decidable c] (p n LD : Int) : Cnt (advance c p n LD : Prog F Int) 0 0 := by
  unfold advance
  exact Cnt.ite (fun _ => (cnt_i32 _).bind0 fun _ => .ret) fun _ => .ret
end

/-- An index below the number of blocks is the number of a nonempty block. -/
theorem blk_pos {N S : Int} (hS : 0 < S) {b : Nat} (hb : b < nIter N S) : (b:Int) * S < N := by
  unfold nIter at hb
  have h1 : (b:Int) + 1 ≤ (N + S - 1) / S := by omega
  have h2 := (Int.le_ediv_iff_mul_le hS).mp h1
  nlinarith

theorem cnt_gemmI (blk : Blk) (tA : Char) (M : Int) (nJ nK : Nat) (ALPHA : Scal F) (Ap LDA Cj LDC aPack bPack : Int)
    (h1 : 0 < blk.MC) (h2 : blk.MC % 2 = 0) :
    Cnt (gemmI blk tA M nJ nK ALPHA Ap LDA Cj LDC aPack bPack)
      (4 * M.toNat * nK + 4 * M.toNat * nJ + 16 * ((M.toNat + 1) / 2) * ((nJ + 1) / 2) * nK)
      (8 * ((M.toNat + 1) / 2) * nK + 4 * M.toNat * nJ) := by
  unfold gemmI
  have s1 := blocks_sum (N := M) h1
  have s2 := blocks_half (N := M) h1 h2
  refine ((Cnt.fold (r := fun b => 4 * (min (M - b * blk.MC) blk.MC).toNat * nK + (4 * (min (M - b * blk.MC) blk.MC).toNat * nJ +
      16 * (((min (M - b * blk.MC) blk.MC).toNat + 1) / 2) * ((nJ + 1) / 2) * nK))
    (w := fun b => 8 * (((min (M - b * blk.MC) blk.MC).toNat + 1) / 2) * nK + 4 * (min (M - b * blk.MC) blk.MC).toNat * nJ)
    fun b s hb => ?_).bind fun _ => .ret).cast ?_ ?_
  · have hb := blk_pos h1 hb
    unfold gemmIStep
    obtain ⟨n, hn⟩ : ∃ n : Nat, min (M - b * blk.MC) blk.MC = n := ⟨(min (M - b * blk.MC) blk.MC).toNat, by omega⟩
    rw [hn]
    exact ((cnt_aPackSel tA ALPHA n nK _ _ _).bind fun _ => (cnt_gemmJJ n nJ nK _ _ _ _).bind fun _ => (cnt_advance ..).bind fun _ =>
      (cnt_i32 _).bind fun _ => .ret).cast (by simp) (by simp)
  · rw [sum_add_distrib, sum_add_distrib, ← sum_mul, ← mul_sum, ← sum_mul, ← mul_sum, ← sum_mul, ← sum_mul, ← mul_sum, s1, s2]
    ring
  · rw [sum_add_distrib, ← sum_mul, ← mul_sum, ← sum_mul, ← mul_sum, s1, s2]
    ring

theorem cnt_gemmK (blk : Blk) (tA tB : Char) (M : Int) (nJ : Nat) (K : Int) (ALPHA : Scal F) (A LDA Bj LDB Cj LDC aPack bPack : Int)
    (h1 : 0 < blk.MC) (h2 : blk.MC % 2 = 0) (h3 : 0 < blk.KC) :
    Cnt (gemmK blk tA tB M nJ K ALPHA A LDA Bj LDB Cj LDC aPack bPack)
      (4 * nJ * K.toNat + 4 * M.toNat * K.toNat + 4 * M.toNat * nJ * nIter K blk.KC +
        16 * ((M.toNat + 1) / 2) * ((nJ + 1) / 2) * K.toNat)
      (8 * ((nJ + 1) / 2) * K.toNat + 8 * ((M.toNat + 1) / 2) * K.toNat + 4 * M.toNat * nJ * nIter K blk.KC) := by
  unfold gemmK
  have s1 := blocks_sum (N := K) h3
  refine ((Cnt.fold (r := fun b => (4 * nJ + 4 * M.toNat + 16 * ((M.toNat + 1) / 2) * ((nJ + 1) / 2)) *
      (min (K - b * blk.KC) blk.KC).toNat + 4 * M.toNat * nJ)
    (w := fun b => (8 * ((nJ + 1) / 2) + 8 * ((M.toNat + 1) / 2)) * (min (K - b * blk.KC) blk.KC).toNat + 4 * M.toNat * nJ)
    fun b s hb => ?_).bind fun _ => .ret).cast ?_ ?_
  · have hb := blk_pos h3 hb
    unfold gemmKStep
    obtain ⟨n, hn⟩ : ∃ n : Nat, min (K - b * blk.KC) blk.KC = n := ⟨(min (K - b * blk.KC) blk.KC).toNat, by omega⟩
    rw [hn]
    exact ((cnt_bPackSel tB nJ n _ _ _).bind fun _ => (cnt_gemmI blk tA M nJ n _ _ _ _ _ _ _ h1 h2).bind fun _ =>
      (cnt_advance ..).bind fun _ => (cnt_advance ..).bind fun _ => (cnt_i32 _).bind fun _ => .ret).cast
      (by simp only [Int.toNat_natCast]; ring) (by simp only [Int.toNat_natCast]; ring)
  · rw [sum_add_distrib, ← mul_sum, s1, sum_const, card_range, smul_eq_mul]
    ring
  · rw [sum_add_distrib, ← mul_sum, s1, sum_const, card_range, smul_eq_mul]
    ring

theorem cnt_gemmJ (blk : Blk) (tA tB : Char) (M N K : Int) (ALPHA : Scal F) (A LDA B LDB C LDC aPack bPack : Int)
    (h1 : 0 < blk.MC) (h2 : blk.MC % 2 = 0) (h3 : 0 < blk.KC) (h4 : 0 < blk.NC) (h5 : blk.NC % 2 = 0) :
    Cnt (gemmJ blk tA tB M N K ALPHA A LDA B LDB C LDC aPack bPack)
      (4 * N.toNat * K.toNat + 4 * M.toNat * K.toNat * nIter N blk.NC + 4 * M.toNat * N.toNat * nIter K blk.KC +
        16 * ((M.toNat + 1) / 2) * ((N.toNat + 1) / 2) * K.toNat)
      (8 * ((N.toNat + 1) / 2) * K.toNat + 8 * ((M.toNat + 1) / 2) * K.toNat * nIter N blk.NC +
        4 * M.toNat * N.toNat * nIter K blk.KC) := by
  unfold gemmJ
  have s1 := blocks_sum (N := N) h4
  have s2 := blocks_half (N := N) h4 h5
  refine ((Cnt.fold (r := fun b => (4 * K.toNat + 4 * M.toNat * nIter K blk.KC) * (min (N - b * blk.NC) blk.NC).toNat +
      4 * M.toNat * K.toNat + 16 * ((M.toNat + 1) / 2) * K.toNat * (((min (N - b * blk.NC) blk.NC).toNat + 1) / 2))
    (w := fun b => 8 * K.toNat * (((min (N - b * blk.NC) blk.NC).toNat + 1) / 2) + 8 * ((M.toNat + 1) / 2) * K.toNat +
      4 * M.toNat * nIter K blk.KC * (min (N - b * blk.NC) blk.NC).toNat)
    fun b s hb => ?_).bind fun _ => .ret).cast ?_ ?_
  · have hb := blk_pos h4 hb
    unfold gemmJStep
    obtain ⟨n, hn⟩ : ∃ n : Nat, min (N - b * blk.NC) blk.NC = n := ⟨(min (N - b * blk.NC) blk.NC).toNat, by omega⟩
    rw [hn]
    exact ((cnt_gemmK blk tA tB M n K _ _ _ _ _ _ _ _ _ h1 h2 h3).bind fun _ => (cnt_i32 _).bind fun _ =>
      (cnt_advance ..).bind fun _ => (cnt_i32 _).bind fun _ => .ret).cast
      (by simp only [Int.toNat_natCast]; ring) (by simp only [Int.toNat_natCast]; ring)
  · simp only [sum_add_distrib, ← mul_sum, s1, s2, sum_const, card_range, smul_eq_mul]
    ring
  · simp only [sum_add_distrib, ← mul_sum, s1, s2, sum_const, card_range, smul_eq_mul]
    ring

theorem cnt_gemmAVX (blk : Blk) (bAddr aAddr : Int) (junk : Int → F) (tA tB : Char) (M N K : Int) (ALPHA : Scal F)
    (A LDA B LDB : Int) (BETA : Scal F) (C LDC : Int)
    (h1 : 0 < blk.MC) (h2 : blk.MC % 2 = 0) (h3 : 0 < blk.KC) (h4 : 0 < blk.NC) (h5 : blk.NC % 2 = 0) :
    Cnt (gemmAVX blk bAddr aAddr junk tA tB M N K ALPHA A LDA B LDB BETA C LDC)
      (4 * M.toNat * N.toNat + 4 * N.toNat * K.toNat + 4 * M.toNat * K.toNat * nIter N blk.NC +
        4 * M.toNat * N.toNat * nIter K blk.KC + 16 * ((M.toNat + 1) / 2) * ((N.toNat + 1) / 2) * K.toNat)
      (4 * M.toNat * N.toNat + 8 * ((N.toNat + 1) / 2) * K.toNat + 8 * ((M.toNat + 1) / 2) * K.toNat * nIter N blk.NC +
        4 * M.toNat * N.toNat * nIter K blk.KC) := by
  unfold gemmAVX
  have al : ∀ (p n : Int) (j : Int → F), Cnt (allocQ p n j) 0 0 := fun p n j => .map .ret
  have fr : ∀ (p n : Int), Cnt (freeQ p n : Prog F Unit) 0 0 := fun p n => .map .ret
  refine ((al _ _ _).bind0 fun _ => (al _ _ _).bind0 fun _ =>
    (cnt_scalm (r := M.toNat * 4) (w := M.toNat * 4) 'L' 'N' M N BETA C LDC 1 (fun _ _ p => cnt_scalvAVX ..) (by intro h; omega)).bind fun _ =>
    (cnt_gemmJ blk tA tB M N K ALPHA A LDA B LDB C LDC aAddr bAddr h1 h2 h3 h4 h5).bind fun _ => (fr _ _).bind0 fun _ => fr _ _).cast ?_ ?_
  · ring
  · ring

end Haxx.Thr
