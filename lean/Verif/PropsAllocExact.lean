import Verif.PropsAlloc
import Verif.ThrSafeSimd

/-!
# C56: exactly which outcomes of the two allocations GEMM survives
-/

set_option linter.unusedSectionVars false

namespace Haxx
open Arith

section
variable {F : Type} [Arith F]

/-- With `M ≤ 0` the block for A is not looked at. -/
theorem gemmJ_noA {blk : Blk} (hb : 0 < blk.MC) {tA tB : Char} {M N K : Int} {ALPHA : Scal F}
    {A LDA B LDB C LDC bPack : Int} (aPack aPack' : Int) (hM : M ≤ 0) :
    gemmJ blk tA tB M N K ALPHA A LDA B LDB C LDC aPack bPack =
      gemmJ blk tA tB 0 N K ALPHA A LDA B LDB C LDC aPack' bPack := by
  unfold gemmJ gemmJStep gemmK gemmKStep
  simp only [gemmI_neg hb hM, gemmI_neg hb (le_refl (0:Int))]

/-- With `M ≤ 0` and the first block only, the call ends normally and changes nothing. -/
theorem gemmMay_noRows {m : Mem F} {null : Int} {blk : Blk} {bAddr aAddr : Int} {junk : Int → F} {tA tB : Char} {M N K : Int}
    {ALPHA BETA : Scal F} {A LDA B LDB C LDC : Int} {Av Bv Cv : Nat → Nat → Quat F}
    (hp : GemmPre m blk bAddr aAddr tA tB M.toNat N.toNat K.toNat A LDA Av B LDB Bv C LDC Cv) (hM : M ≤ 0) (hN : 0 ≤ N) (hK : 0 ≤ K) :
    gemmMay null blk (some bAddr) none junk tA tB M N K ALPHA A LDA B LDB BETA C LDC m = .ok ((), m) := by
  have hM0 : M.toNat = 0 := by omega
  have hN0 : ((N.toNat : Nat) : Int) = N := by omega
  have hK0 : ((K.toNat : Nat) : Int) = K := by omega
  have hs := Thr.gemmBody_safe (blk := blk) (bAddr := bAddr) (aAddr := aAddr) (tA := tA) (tB := tB) (M := 0) (N := N.toNat) (K := K.toNat)
    (ALPHA := ALPHA) (BETA := BETA) (A := A) (LDA := LDA) (B := B) (LDB := LDB) (C := C) (LDC := LDC)
    (S := fun a => InBuf bAddr (4 * fixMod (blk.KC * blk.NC) 32) a ∨
      MatCell B LDB (if isT tB then N.toNat else K.toNat) (if isT tB then K.toNat else N.toNat) a)
    (W := InBuf bAddr (4 * fixMod (blk.KC * blk.NC) 32))
    ⟨hp.mc_pos, hp.nc_pos, hp.kc_pos, hp.mc_even, hp.nc_even, hp.alignB, hp.alignA, hp.kc32, hM0 ▸ hp.m32, hp.n32, hp.k32, hp.ldc32,
      hp.ldcN32, hp.ldbN32, hp.ldbK32, hM0 ▸ hp.ldaM32, hp.ldaK32⟩
    (by
      rintro a ⟨i, j, hi, hj, _⟩
      exfalso
      split_ifs at hi hj <;> omega)
    (fun a ha => Or.inr ha) (by rintro a ⟨i, j, hi, _⟩; omega) (fun a ha => ⟨Or.inl ha, ha⟩) (fun h => absurd h (by omega))
  set m1 : Mem F := fun a => if bAddr ≤ a ∧ a < bAddr + 4 * fixMod (blk.KC * blk.NC) 32 then some (junk a) else m a with hm1
  obtain ⟨⟨⟩, mf, hf, _⟩ := hs.foot (m := m1) (by
    rintro a (ha | ha)
    · unfold InBuf at ha; rw [hm1]; dsimp only; rw [if_pos ha]; rfl
    · rw [hm1]; dsimp only
      split_ifs
      · rfl
      · exact matCell_isSome hp.matB ha)
  have hrun := hf.run
  rw [Thr.run_bind_eq (Thr.run_scalm ..) (fun _ => Thr.run_gemmJ ..)] at hrun
  simp only [Thr.run_scalvAVX] at hrun
  have hsame : ∀ a, ¬ InBuf bAddr (4 * fixMod (blk.KC * blk.NC) 32) a → mf a = m a := by
    intro a ha
    rw [Thr.run_frame hf.run (fun h => ha (hf.wrs a h)), hm1]
    exact if_neg ha
  have hw : wp (gemmMay null blk (some bAddr) none junk tA tB M N K ALPHA A LDA B LDB BETA C LDC) m (fun _ m' => m' = m) := by
    unfold gemmMay
    simp only [tryAlloc, tryFree]
    rw [wp_bind, wp_bind, wp_allocQ, wp_pure, wp_bind, wp_pure, wp_bind]
    rw [scalm_clamp (Or.inl hM), wp_pure, wp_bind, gemmJ_noA hp.mc_pos null aAddr hM]
    rw [Nat.cast_zero, scalm_clamp (Or.inl (le_refl _)), hN0, hK0] at hrun
    refine ⟨(), mf, hrun, ?_⟩
    dsimp only
    rw [wp_bind, wp_freeQ, wp_pure]
    funext a
    by_cases ha : InBuf bAddr (4 * fixMod (blk.KC * blk.NC) 32) a
    · rw [hp.freshB a ha]; exact if_pos ha
    · exact (if_neg ha).trans (hsame a ha)
  obtain ⟨⟨⟩, m', e, rfl⟩ := hw
  exact e

/-- C56, call by call: whatever the allocator answers, a well-formed call ends normally — leaving what a call with enough
memory leaves, or the memory as it was — exactly when it has no use for the block it did not get: the first is used
when N and K are positive, the second when M is as well. -/
theorem C56_exact_partial (m : Mem F) (null : Int) (blk : Blk) (bAddr aAddr : Int) (junk : Int → F) (TRANSA TRANSB : Char) (M N K : Int)
    (ALPHA BETA : Scal F) (A LDA B LDB C LDC : Int) (Av Bv Cv : Nat → Nat → Quat F)
    (hp : GemmPre m blk bAddr aAddr TRANSA TRANSB M.toNat N.toNat K.toNat A LDA Av B LDB Bv C LDC Cv)
    (h0 : m null = none) (hb : ¬ InBuf bAddr (4 * fixMod (blk.KC * blk.NC) 32) null)
    (ha : ¬ InBuf aAddr (4 * fixMod (blk.KC * blk.MC) 32) null)
    (bRes aRes : Option Int) (hbr : bRes = none ∨ bRes = some bAddr) (har : aRes = none ∨ aRes = some aAddr) :
    (∃ m', gemmMay null blk bRes aRes junk TRANSA TRANSB M N K ALPHA A LDA B LDB BETA C LDC m = .ok ((), m') ∧
      (m' = m ∨ gemmAVX blk bAddr aAddr junk TRANSA TRANSB M N K ALPHA A LDA B LDB BETA C LDC m = .ok ((), m'))) ↔
    (bRes = none → N ≤ 0 ∨ K ≤ 0) ∧ (aRes = none → M ≤ 0 ∨ N ≤ 0 ∨ K ≤ 0) := by
  constructor
  · rintro ⟨m', e, _⟩
    refine ⟨?_, ?_⟩
    · rintro rfl
      by_contra hc
      obtain ⟨x, e'⟩ := C56_bPack_violated m null h0 blk M N K (by omega) (by omega) hp.nc_pos hp.kc_pos aRes
        (by rcases har with rfl | rfl
            · intro p h; cases h
            · intro p h; cases h; exact ha) junk TRANSA TRANSB ALPHA A LDA B LDB BETA C LDC
      rw [e'] at e; cases e
    · rintro rfl
      by_contra hc
      obtain ⟨x, e'⟩ := C56_aPack_violated m null h0 blk M N K (by omega) (by omega) (by omega) hp.mc_pos hp.nc_pos hp.kc_pos bRes
        (by rcases hbr with rfl | rfl
            · intro p h; cases h
            · intro p h; cases h; exact hb) junk TRANSA TRANSB ALPHA A LDA B LDB BETA C LDC
      rw [e'] at e; cases e
  · rintro ⟨h1, h2⟩
    by_cases h : N ≤ 0 ∨ K ≤ 0
    · exact C56_alloc_partial blk M N K h F m null bAddr aAddr junk TRANSA TRANSB ALPHA BETA A LDA B LDB C LDC Av Bv Cv hp h0 hb ha
        bRes aRes hbr har
    rcases hbr with rfl | rfl
    · exact absurd (h1 rfl) h
    rcases har with rfl | rfl
    · have hM : M ≤ 0 := (h2 rfl).resolve_right h
      exact ⟨m, gemmMay_noRows hp hM (by omega) (by omega), Or.inl rfl⟩
    · obtain ⟨⟨⟩, m', e, _⟩ := gemmAVX_wp (junk := junk) (ALPHA := ALPHA) (BETA := BETA) hp
      rw [gemmMay_some]
      rw [← gemmAVX_clamp hp.mc_pos hp.nc_pos hp.kc_pos] at e
      exact ⟨m', e, Or.inr e⟩

/-- At the shipped block sizes, the 3 x 1 call with K = 2 survives exactly if both allocations succeed. -/
example (bRes aRes : Option Int) (hbr : bRes = none ∨ bRes = some 1000) (har : aRes = none ∨ aRes = some 200000) :
    (∃ m', gemmMay (-1) ⟨64, 512, 64⟩ bRes aRes (fun _ => 0) 'C' 'N' 3 1 2 (.d (1:Int)) 0 2 24 2 (.d 2) 33 4
        (memOf 0 64 (fun a => a)) = .ok ((), m') ∧ (m' = memOf 0 64 (fun a => a) ∨
      gemmAVX ⟨64, 512, 64⟩ 1000 200000 (fun _ => 0) 'C' 'N' 3 1 2 (.d (1:Int)) 0 2 24 2 (.d 2) 33 4
        (memOf 0 64 (fun a => a)) = .ok ((), m'))) ↔ bRes = some 1000 ∧ aRes = some 200000 := by
  rw [C56_exact_partial (memOf 0 64 (fun a => a)) (-1) ⟨64, 512, 64⟩ 1000 200000 (fun _ => 0) 'C' 'N' 3 1 2 (.d (1:Int)) (.d 2) 0 2 24 2
    33 4 _ _ _ (gemmPre_example' _) rfl (by unfold InBuf; decide) (by unfold InBuf; decide) bRes aRes hbr har]
  rcases hbr with rfl | rfl <;> rcases har with rfl | rfl <;> simp

/-- Without rows, the same call survives a failed second allocation. -/
theorem gemmPre_example_M0 {F : Type} [Arith F] (f : Int → F) :
    GemmPre (memOf 0 64 f) ⟨64, 512, 64⟩ 1000 200000 'C' 'N' 0 1 2
      0 2 (fun i j => let p : Int := 0 + 4 * (i + j * 2); ⟨f p, f (p+1), f (p+2), f (p+3)⟩)
      24 2 (fun i j => let p : Int := 24 + 4 * (i + j * 2); ⟨f p, f (p+1), f (p+2), f (p+3)⟩)
      33 4 (fun i j => let p : Int := 33 + 4 * (i + j * 4); ⟨f p, f (p+1), f (p+2), f (p+3)⟩) :=
  { gemmPre_example' f with
    matA := fun _ j _ h => absurd (show j < 0 from h) (by omega)
    matC := fun i _ h _ => absurd (show i < 0 from h) (by omega)
    ldc := by decide
    m32 := by unfold Fits32; decide
    ldaM32 := by unfold Fits32; decide
    apartA := by
      rintro a _ ⟨i, j, hi, hj, h⟩
      exact absurd hi (by omega)
    apartB := by
      rintro a _ ⟨i, j, hi, hj, h⟩
      exact absurd hi (by omega) }

example : gemmMay (-1) ⟨64, 512, 64⟩ (some 1000) none (fun _ => 0) 'C' 'N' (-5) 1 2 (.d (1:Int)) 0 2 24 2 (.d 2) 33 4
    (memOf 0 64 (fun a => a)) = .ok ((), memOf 0 64 (fun a => a)) :=
  gemmMay_noRows (M := -5) (N := 1) (K := 2) (aAddr := 200000) (gemmPre_example_M0 _) (by decide) (by decide) (by decide)

end
end Haxx
