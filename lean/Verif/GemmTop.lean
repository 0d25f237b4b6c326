import Verif.GemmProofs2

/-! Correctness of the whole SIMD GEMM routine. -/

namespace Haxx
open Arith

variable {F : Type}

/-- Does the flag ask for a transposed operand? -/
def isT (t : Char) : Prop := t = 'T' ∨ t = 'C'

instance (t : Char) : Decidable (isT t) := by unfold isT; infer_instance

/-- The element of the stored matrix at position `(i,k)` of `op(X)`, before any conjugation. -/
def opE (t : Char) (X : Nat → Nat → Quat F) (i k : Nat) : Quat F := if isT t then X k i else X i k

theorem smat_opA {m : Mem F} {t : Char} {A LDA : Int} {M K : Nat} {Av : Nat → Nat → Quat F}
    (h : MatAt m A LDA (if isT t then K else M) (if isT t then M else K) Av) :
    SMatAt m A (rs t LDA) (cs t LDA) M K (opE t Av) := by
  intro i k hi hk
  unfold rs cs opE
  by_cases ht : isT t
  · rw [if_pos ht, if_pos ht] at h
    rw [if_pos ht]
    unfold isT at ht
    rw [if_pos ht, if_pos ht, ← h k i hk hi]
    congr 1; ring
  · rw [if_neg ht, if_neg ht] at h
    rw [if_neg ht]
    unfold isT at ht
    rw [if_neg ht, if_neg ht, ← h i k hi hk]
    congr 1; ring

theorem smat_opA_cell {t : Char} {A LDA : Int} {M K : Nat} {a : Int}
    (h : SMatCell A (rs t LDA) (cs t LDA) M K a) :
    MatCell A LDA (if isT t then K else M) (if isT t then M else K) a := by
  obtain ⟨i, k, hi, hk, h⟩ := h
  unfold rs cs at h
  by_cases ht : isT t
  · rw [if_pos ht, if_pos ht]
    unfold isT at ht
    rw [if_pos ht, if_pos ht] at h
    refine ⟨k, i, hk, hi, ?_⟩
    convert h using 1; ring
  · rw [if_neg ht, if_neg ht]
    unfold isT at ht
    rw [if_neg ht, if_neg ht] at h
    refine ⟨i, k, hi, hk, ?_⟩
    convert h using 1; ring

theorem smat_opB {m : Mem F} {t : Char} {B LDB : Int} {K N : Nat} {Bv : Nat → Nat → Quat F}
    (h : MatAt m B LDB (if isT t then N else K) (if isT t then K else N) Bv) :
    SMatAt m B (cs t LDB) (rs t LDB) N K (fun j k => opE t Bv k j) := by
  intro j k hj hk
  have := smat_opA h k j hk hj
  rw [← this]; congr 1; ring

theorem smat_opB_cell {t : Char} {B LDB : Int} {K N : Nat} {a : Int}
    (h : SMatCell B (cs t LDB) (rs t LDB) N K a) :
    MatCell B LDB (if isT t then N else K) (if isT t then K else N) a := by
  obtain ⟨j, k, hj, hk, h⟩ := h
  refine smat_opA_cell ⟨k, j, hk, hj, ?_⟩
  convert h using 1; ring

theorem matCell_isSome {m : Mem F} {A L : Int} {r c : Nat} {Av : Nat → Nat → Quat F} {a : Int}
    (h : MatAt m A L r c Av) (ha : MatCell A L r c a) : (m a).isSome := by
  obtain ⟨i, j, hi, hj, ha⟩ := ha
  exact isSome_of_readQ (h i j hi hj) ha

theorem fixMod_ge {X : Int} (h : 0 ≤ X) : X ≤ fixMod X 32 := by
  unfold fixMod
  split
  · have := Int.tmod_lt_of_pos X (by omega : (0:Int) < 32)
    omega
  · exact le_refl _

section
variable [Arith F]

/-- The requirements on a call of the SIMD GEMM: valid operands, C apart from A and B, the memory
returned by `aligned_alloc` fresh and aligned, the packed panels' block sizes positive with `MC`,
`NC` even, and index products within 32 bits. -/
structure GemmPre (m : Mem F) (blk : Blk) (bAddr aAddr : Int) (tA tB : Char) (M N K : Nat)
    (A LDA : Int) (Av : Nat → Nat → Quat F) (B LDB : Int) (Bv : Nat → Nat → Quat F)
    (C LDC : Int) (Cv : Nat → Nat → Quat F) : Prop where
  mc_pos : 0 < blk.MC
  nc_pos : 0 < blk.NC
  kc_pos : 0 < blk.KC
  mc_even : blk.MC % 2 = 0
  nc_even : blk.NC % 2 = 0
  matA : MatAt m A LDA (if isT tA then K else M) (if isT tA then M else K) Av
  matB : MatAt m B LDB (if isT tB then N else K) (if isT tB then K else N) Bv
  matC : MatAt m C LDC M N Cv
  lda : 0 ≤ LDA
  ldb : 0 ≤ LDB
  ldc : (M:Int) ≤ LDC
  apartA : Apart (MatCell A LDA (if isT tA then K else M) (if isT tA then M else K)) (MatCell C LDC M N)
  apartB : Apart (MatCell B LDB (if isT tB then N else K) (if isT tB then K else N)) (MatCell C LDC M N)
  alignB : aligned32 bAddr = true
  alignA : aligned32 aAddr = true
  freshB : ∀ a, InBuf bAddr (4 * fixMod (blk.KC * blk.NC) 32) a → m a = none
  freshA : ∀ a, InBuf aAddr (4 * fixMod (blk.KC * blk.MC) 32) a → m a = none
  freshAB : Apart (InBuf bAddr (4 * fixMod (blk.KC * blk.NC) 32))
    (InBuf aAddr (4 * fixMod (blk.KC * blk.MC) 32))
  kc32 : Fits32 (2 * blk.KC)
  m32 : Fits32 ((M:Int) + blk.MC + 2)
  n32 : Fits32 ((N:Int) + blk.NC + 2)
  k32 : Fits32 ((K:Int) + blk.KC)
  ldc32 : Fits32 (2 * LDC)
  ldcN32 : Fits32 (min (N:Int) blk.NC * LDC)
  ldbN32 : Fits32 (min (N:Int) blk.NC * LDB)
  ldbK32 : Fits32 (min (K:Int) blk.KC * LDB)
  ldaM32 : Fits32 (min (M:Int) blk.MC * LDA)
  ldaK32 : Fits32 (min (K:Int) blk.KC * LDA)

/-- The value the routine leaves at `C(i,j)`, from row `x` of (stored) op(A), column `y` of (stored)
op(B) and the old entry `c`: which operations, in which order. -/
def gemmElt (tA tB : Char) (ALPHA BETA : Scal F) (K : Nat) (x y : Nat → Quat F) (c : Quat F) :
    Quat F :=
  accum (fun k => preOP (isCj tA) (loadScalar (some ALPHA)) (x k))
    (fun k => preOP (isCj tB) (loadScalar none) (y k)) K (scalOp true BETA c)

omit [Arith F] in
theorem wp_allocQ {p n : Int} {junk : Int → F} {m : Mem F} {Q : Unit → Mem F → Prop} :
    wp (allocQ p n junk) m Q ↔ Q () (fun a => if p ≤ a ∧ a < p + 4 * n then some (junk a) else m a) := by
  constructor
  · rintro ⟨_, m', h, hq⟩; unfold allocQ at h; cases h; exact hq
  · intro h; exact ⟨(), _, rfl, h⟩

omit [Arith F] in
theorem wp_freeQ {p n : Int} {m : Mem F} {Q : Unit → Mem F → Prop} :
    wp (freeQ p n) m Q ↔ Q () (fun a => if p ≤ a ∧ a < p + 4 * n then none else m a) := by
  constructor
  · rintro ⟨_, m', h, hq⟩; unfold freeQ at h; cases h; exact hq
  · intro h; exact ⟨(), _, rfl, h⟩

theorem fits_mul {n c X : Nat} {L : Int} (hL : 0 ≤ L) (h : Fits32 (min (X:Int) (c:Int) * L))
    (h1 : n ≤ c) (h2 : n ≤ X) : Fits32 ((n:Int) * L) := by
  refine h.mono (by positivity) (mul_le_mul_of_nonneg_right ?_ hL)
  omega

theorem gemmAVX_wp {m0 : Mem F} {blk : Blk} {bAddr aAddr : Int} {junk : Int → F} {tA tB : Char}
    {M N K : Nat} {ALPHA BETA : Scal F} {A LDA B LDB C LDC : Int} {Av Bv Cv : Nat → Nat → Quat F}
    (h : GemmPre m0 blk bAddr aAddr tA tB M N K A LDA Av B LDB Bv C LDC Cv) :
    wp (gemmAVX blk bAddr aAddr junk tA tB M N K ALPHA A LDA B LDB BETA C LDC) m0 (fun _ m =>
      MatAt m C LDC M N (fun i j => gemmElt tA tB ALPHA BETA K (fun k => opE tA Av i k)
        (fun k => opE tB Bv k j) (Cv i j)) ∧
      SameOutside (MatCell C LDC M N) m0 m) := by
  obtain ⟨mc, hmc⟩ : ∃ n : Nat, blk.MC = n := ⟨blk.MC.toNat, by have := h.mc_pos; omega⟩
  obtain ⟨nc, hnc⟩ : ∃ n : Nat, blk.NC = n := ⟨blk.NC.toNat, by have := h.nc_pos; omega⟩
  obtain ⟨kc, hkc⟩ : ∃ n : Nat, blk.KC = n := ⟨blk.KC.toNat, by have := h.kc_pos; omega⟩
  obtain ⟨MC, NC, KC⟩ := blk
  dsimp only at hmc hnc hkc
  subst hmc hnc hkc
  obtain ⟨mcp, ncp, kcp, mce, nce, hA, hB, hC, la, lb, lc, aA, aB, alB, alA, fB, fA, fAB, k2, m32, n32,
    k32, lc2, lcN, lbN, lbK, laM, laK⟩ := h
  dsimp only at *
  generalize hcB : fixMod ((kc:Int) * nc) 32 = capB at *
  generalize hcA : fixMod ((kc:Int) * mc) 32 = capA at *
  have hcapA : 8 * (((mc+1)/2 * kc : Nat) : Int) ≤ 4 * capA := by
    have h1 := fixMod_ge (X := (kc:Int) * mc) (by positivity)
    rw [hcA] at h1
    obtain ⟨h, rfl⟩ : ∃ h, mc = 2 * h := ⟨mc / 2, by omega⟩
    have h2 : (2 * h + 1) / 2 = h := by omega
    rw [h2]
    push_cast at h1 ⊢
    nlinarith
  have hcapB : 8 * (((nc+1)/2 * kc : Nat) : Int) ≤ 4 * capB := by
    have h1 := fixMod_ge (X := (kc:Int) * nc) (by positivity)
    rw [hcB] at h1
    obtain ⟨h, rfl⟩ : ∃ h, nc = 2 * h := ⟨nc / 2, by omega⟩
    have h2 : (2 * h + 1) / 2 = h := by omega
    rw [h2]
    push_cast at h1 ⊢
    nlinarith
  unfold gemmAVX
  dsimp only
  rw [hcA, hcB, wp_bind, wp_allocQ, wp_bind, wp_allocQ, wp_bind]
  -- the memory with the two blocks
  generalize hm1 : (fun a => if aAddr ≤ a ∧ a < aAddr + 4 * capA then some (junk a) else
    (fun a => if bAddr ≤ a ∧ a < bAddr + 4 * capB then some (junk a) else m0 a) a) = m1
  have hsame : ∀ a, (m0 a).isSome → m1 a = m0 a := by
    intro a ha
    rw [← hm1]
    have e1 : ¬ (aAddr ≤ a ∧ a < aAddr + 4 * capA) := by
      intro hc; rw [fA a hc] at ha; cases ha
    have e2 : ¬ (bAddr ≤ a ∧ a < bAddr + 4 * capB) := by
      intro hc; rw [fB a hc] at ha; cases ha
    simp only [if_neg e1, if_neg e2]
  have hJ : ∀ a, InBuf aAddr (4 * capA) a ∨ InBuf bAddr (4 * capB) a → (m1 a).isSome := by
    intro a ha
    rw [← hm1]
    unfold InBuf at ha
    by_cases e1 : aAddr ≤ a ∧ a < aAddr + 4 * capA
    · simp only [if_pos e1, Option.isSome_some]
    · have e2 := ha.resolve_left e1
      simp only [if_neg e1, if_pos e2, Option.isSome_some]
  have hout : ∀ a, ¬ (InBuf aAddr (4 * capA) a ∨ InBuf bAddr (4 * capB) a) → m1 a = m0 a := by
    intro a ha
    rw [← hm1]
    unfold InBuf at ha
    have e1 : ¬ (aAddr ≤ a ∧ a < aAddr + 4 * capA) := fun hc => ha (Or.inl hc)
    have e2 : ¬ (bAddr ≤ a ∧ a < bAddr + 4 * capB) := fun hc => ha (Or.inr hc)
    simp only [if_neg e1, if_neg e2]
  have hnb : ∀ a, (m0 a).isSome → ¬ (InBuf aAddr (4 * capA) a ∨ InBuf bAddr (4 * capB) a) := by
    rintro a ha (hc | hc)
    · rw [fA a hc] at ha; cases ha
    · rw [fB a hc] at ha; cases ha
  have hA1 := matAt_congr (m' := m1) (fun a ha => (hsame a (matCell_isSome hA ha)).symm) hA
  have hB1 := matAt_congr (m' := m1) (fun a ha => (hsame a (matCell_isSome hB ha)).symm) hB
  have hC1 := matAt_congr (m' := m1) (fun a ha => (hsame a (matCell_isSome hC ha)).symm) hC
  -- scaling of C
  refine wp_mono (scalm_wp (SCALV := scalvAVX) (SIDE := 'L') (M := M) (N := N) (ALPHA := BETA) (Av := Cv)
    (f := scalOp true BETA) ?_ ?_ (by omega) ?_) ?_
  · intro m X x hx
    exact scalvAVX_wp hx (Or.inl (by decide))
  · rw [Int.toNat_natCast, Int.toNat_natCast]; exact smat_one.mpr hC1
  · unfold ColFits; rw [Int.toNat_natCast]; omega
  rintro _ m2 ⟨hC2, hS2⟩
  simp only [Int.toNat_natCast] at hC2 hS2
  rw [smat_one] at hC2
  have hS2' : ∀ a, ¬ MatCell C LDC M N a → m2 a = m1 a := fun a ha =>
    hS2 a (fun hc => ha (smatCell_one.mp hc))
  have hbufC : ∀ a, MatCell C LDC M N a → ¬ (InBuf aAddr (4 * capA) a ∨ InBuf bAddr (4 * capB) a) :=
    fun a ha => hnb a (matCell_isSome hC ha)
  rw [wp_bind]
  refine wp_mono (gemmJ_wp (capA := 4 * capA) (capB := 4 * capB) (EA := opE tA Av)
    (EB := fun j k => opE tB Bv k j) (by omega) (by omega) (by omega) lc
    (smat_opA (matAt_congr ?_ hA1)) (smat_opB (matAt_congr ?_ hB1)) alA alB hC2 hcapA hcapB
    ?_ hbufC ?_ ?_ ?_ ?_ fAB k2 (m32.mono (by omega) (by omega)) (n32.mono (by omega) (by omega)) lc2
    (m32.mono (by omega) (by omega)) k32 (n32.mono (by omega) (by omega))
    (fun n h1 h2 => fits_mul la laM h1 h2) (fun n h1 h2 => fits_mul la laK h1 h2)
    (fun n h1 h2 => fits_mul lb lbK h1 h2) (fun n h1 h2 => fits_mul lb lbN h1 h2)
    (fun n h1 h2 => fits_mul (by omega) lcN h1 h2)) ?_
  · intro a ha; exact (hS2' a (aA a ha)).symm
  · intro a ha; exact (hS2' a (aB a ha)).symm
  · intro a ha; rw [hS2' a (fun hc => hbufC a hc ha)]; exact hJ a ha
  · intro a ha; exact hnb a (matCell_isSome hA (smat_opA_cell ha))
  · intro a ha; exact hnb a (matCell_isSome hB (smat_opB_cell ha))
  · intro a ha; exact aA a (smat_opA_cell ha)
  · intro a ha; exact aB a (smat_opB_cell ha)
  rintro _ m3 ⟨h3, hS3⟩
  rw [wp_bind, wp_freeQ, wp_freeQ]
  refine ⟨?_, ?_⟩
  · refine matAt_congr ?_ h3
    intro a ha
    have := hbufC a ha
    unfold InBuf at this
    have e1 : ¬ (aAddr ≤ a ∧ a < aAddr + 4 * capA) := fun hc => this (Or.inl hc)
    have e2 : ¬ (bAddr ≤ a ∧ a < bAddr + 4 * capB) := fun hc => this (Or.inr hc)
    simp only [if_neg e1, if_neg e2]
  · intro a ha
    by_cases e1 : aAddr ≤ a ∧ a < aAddr + 4 * capA
    · simp only [if_pos e1]; exact (fA a e1).symm
    · by_cases e2 : bAddr ≤ a ∧ a < bAddr + 4 * capB
      · simp only [if_neg e1, if_pos e2]; exact (fB a e2).symm
      · simp only [if_neg e1, if_neg e2]
        have hn : ¬ (InBuf aAddr (4 * capA) a ∨ InBuf bAddr (4 * capB) a) := by
          rintro (hc | hc)
          · exact e1 hc
          · exact e2 hc
        rw [hS3 a ha hn, hS2' a ha, hout a hn]

end

end Haxx
