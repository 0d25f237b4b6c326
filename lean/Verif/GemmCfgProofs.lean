import Verif.GemmCfg

/-! The proofs about GEMM under the other compile-time switches: as `GemmKern`, `GemmProofs2`, `GemmTop`. -/

namespace Haxx.Cfg
open Arith

variable {F : Type} [Arith F]

/-! ### The micro-kernel -/

/-- The registers made from two quaternions of B. -/
def regB (fb : Bool) (b0 b1 : V4 F) : R4 F :=
  if fb then ⟨set256 (getLo b0) (getLo b0), set256 (getLo b1) (getLo b1), set256 (getHi b0) (getHi b0),
    set256 (getHi b1) (getHi b1)⟩
  else transpose4 ⟨b0, b1, b0, b1⟩

theorem wp_spreadB {fb : Bool} {p : Int} {m : Mem F} {Q : R4 F → Mem F → Prop} {b0 b1 : Quat F}
    (hp : aligned32 p = true) (h0 : readQ m p = some b0) (h1 : readQ m (p + 4) = some b1) :
    wp (spreadB fb p) m Q ↔ Q (regB fb b0 b1) m := by
  rw [aligned32_iff] at hp
  unfold spreadB regB
  cases fb
  · rw [if_neg (by decide), if_neg (by decide), wp_bind, wp_loadA (by rw [aligned32_iff]; omega) h0, wp_bind,
      wp_loadA (p := p + 4 * 1) (by rw [aligned32_iff]; omega) h1, wp_pure]
  · have b0' := readQ_eq_some.mp h0
    have b1' := readQ_eq_some.mp h1
    have e2 : p + 2 + 1 = p + 3 := by ring
    have e4 : p + 6 = p + 4 + 2 := by ring
    have e5 : p + 6 + 1 = p + 4 + 3 := by ring
    rw [if_pos rfl, if_pos rfl, wp_bind,
      wp_load2A (by omega) b0'.1 b0'.2.1, wp_bind,
      wp_load2A (by omega) b0'.2.2.1 (by rw [e2]; exact b0'.2.2.2), wp_bind,
      wp_load2A (by omega) b1'.1 b1'.2.1, wp_bind,
      wp_load2A (by omega) (by rw [e4]; exact b1'.2.2.1) (by rw [e5]; exact b1'.2.2.2), wp_pure]
    rfl

theorem spread_step (fa fb : Bool) (xa xb : Nat → Quat F) (c : Nat → Nat → Quat F) :
    INC_MULD4Q_NN (spreadA fa (opA fa (xa 0, xa 1)).1 (opA fa (xa 0, xa 1)).2)
      (regB fb (opB fb (xb 0, xb 1)).1 (opB fb (xb 0, xb 1)).2) (kreg c) =
      kreg (fun i j => qinc (xa i) (xb j) (c i j)) := by
  cases fa <;> cases fb <;> rfl

theorem kern_loop {fa fb : Bool} {K : Nat} {A B : Int} {xa xb : Nat → Nat → Quat F}
    {c : Nat → Nat → Quat F} {m : Mem F}
    (hA : ∀ k, k < K → PairAt m (A + 8 * k) (opA fa (xa 0 k, xa 1 k)))
    (hB : ∀ k, k < K → PairAt m (B + 8 * k) (opB fb (xb 0 k, xb 1 k)))
    (haA : aligned32 A = true) (haB : aligned32 B = true) :
    wp (foldN K (fun _ s => kernBody fa fb s) ⟨A, B, kreg c⟩) m (fun s m' => m' = m ∧
      s.c = kreg (fun i j => accum (xa i) (xb j) K (c i j))) := by
  apply wp_foldN (fun k (s : KernSt F) m' => m' = m ∧ s = ⟨A + 8 * (k:Int), B + 8 * (k:Int),
    kreg (fun i j => accum (xa i) (xb j) k (c i j))⟩)
  · exact ⟨rfl, by simp [accum]⟩
  · rintro k s m' hk ⟨rfl, rfl⟩
    obtain ⟨a0, a1⟩ := hA k hk
    obtain ⟨b0, b1⟩ := hB k hk
    rw [aligned32_iff] at haA haB
    unfold kernBody
    dsimp only
    rw [wp_bind, wp_loadA (by rw [aligned32_iff]; omega) a0, wp_bind,
      wp_loadA (p := A + 8 * (k:Int) + 4 * 1) (by rw [aligned32_iff]; omega) a1, wp_bind,
      wp_spreadB (by rw [aligned32_iff]; omega) b0 b1, wp_pure]
    refine ⟨rfl, ?_⟩
    rw [KernSt.mk.injEq]
    refine ⟨by push_cast; ring, by push_cast; ring, ?_⟩
    exact spread_step fa fb (fun i => xa i k) (fun j => xb j k) _
  · rintro s m' ⟨rfl, rfl⟩
    exact ⟨rfl, rfl⟩

/-- Storing a small block entry by entry. -/
theorem Kern_wp {fa fb : Bool} {mm nn K : Nat} {A B C LDC : Int} {xa xb c : Nat → Nat → Quat F}
    {m0 : Mem F} (hmm : mm = 1 ∨ mm = 2) (hnn : nn = 1 ∨ nn = 2) (hld : (mm:Int) ≤ LDC)
    (hA : ∀ k, k < K → PairAt m0 (A + 8 * k) (opA fa (xa 0 k, xa 1 k)))
    (hB : ∀ k, k < K → PairAt m0 (B + 8 * k) (opB fb (xb 0 k, xb 1 k)))
    (haA : aligned32 A = true) (haB : aligned32 B = true)
    (hC : MatAt m0 C LDC mm nn c) :
    wp (Kern fa fb mm nn K A B C LDC) m0 (fun _ m =>
      MatAt m C LDC mm nn (fun i j => accum (xa i) (xb j) K (c i j)) ∧
      SameOutside (MatCell C LDC mm nn) m0 m) := by
  have d01 : QDisj C (C + 4 * 1) := by unfold QDisj; omega
  have dl1 : LDC ≥ 1 := by omega
  have dl : QDisj C (C + 4 * LDC) := by unfold QDisj; omega
  have c00 : readQ m0 C = some (c 0 0) := by
    have := hC 0 0 (by omega) (by omega); simpa using this
  unfold Kern
  simp only [Int.toNat_natCast]
  rw [wp_bind, wp_loadQ c00]
  rcases hmm with rfl | rfl <;> rcases hnn with rfl | rfl
  · -- 1 x 1
    simp only [show (((1:Nat):Int) == 2) = false by decide, Bool.false_eq_true, if_false, Bool.and_self, wp_bind,
      wp_pure]
    refine wp_mono (kern_loop (xa := xa) (xb := xb)
      (c := fun i j => if i = 0 ∧ j = 0 then c 0 0 else setzero) hA hB haA haB) ?_
    rintro s m ⟨rfl, hs⟩
    rw [hs, wp_storeQ c00]
    refine ⟨?_, ?_⟩
    · intro i j hi hj
      have hi0 : i = 0 := by omega
      have hj0 : j = 0 := by omega
      subst hi0; subst hj0
      simp only [Nat.cast_zero, zero_mul, add_zero, mul_zero]
      exact readQ_writeQ_same _ _ _
    · intro a ha
      exact writeQ_other (fun h => ha ⟨0, 0, by omega, by omega, by simpa using h⟩)
  · -- 1 x 2
    have c01 : readQ m0 (C + 4 * LDC) = some (c 0 1) := by
      have := hC 0 1 (by omega) (by omega); simpa using this
    simp only [show (((1:Nat):Int) == 2) = false by decide,
      show (((2:Nat):Int) == 2) = true by decide, Bool.false_eq_true, if_false, if_true,
      Bool.and_true, Bool.false_and, wp_bind, wp_pure, wp_loadQ c01]
    refine wp_mono (kern_loop (xa := xa) (xb := xb)
      (c := fun i j => if i = 0 then c 0 j else setzero) hA hB haA haB) ?_
    rintro s m ⟨rfl, hs⟩
    rw [hs, wp_storeQ c00, wp_storeQ (q0 := c 0 1)
      (by rw [readQ_writeQ_disj (by unfold QDisj at *; omega)]; exact c01)]
    refine ⟨?_, ?_⟩
    · intro i j hi hj
      have hi0 : i = 0 := by omega
      have hj0 : j = 0 ∨ j = 1 := by omega
      subst hi0
      rcases hj0 with rfl | rfl
      · simp only [Nat.cast_zero, zero_mul, add_zero, mul_zero]
        rw [readQ_writeQ_disj dl, readQ_writeQ_same]
        rfl
      · simp only [Nat.cast_zero, Nat.cast_one, one_mul, zero_add]
        exact readQ_writeQ_same _ _ _
    · intro a ha
      rw [writeQ_other (fun h => ha ⟨0, 1, by omega, by omega, by simpa using h⟩),
        writeQ_other (fun h => ha ⟨0, 0, by omega, by omega, by simpa using h⟩)]
  · -- 2 x 1
    have c10 : readQ m0 (C + 4 * 1) = some (c 1 0) := by
      have := hC 1 0 (by omega) (by omega); simpa using this
    simp only [show (((1:Nat):Int) == 2) = false by decide,
      show (((2:Nat):Int) == 2) = true by decide, Bool.false_eq_true, if_false, if_true,
      Bool.and_false, wp_bind, wp_pure, wp_loadQ c10]
    refine wp_mono (kern_loop (xa := xa) (xb := xb)
      (c := fun i j => if j = 0 then c i 0 else setzero) hA hB haA haB) ?_
    rintro s m ⟨rfl, hs⟩
    rw [hs, wp_storeQ c00, wp_storeQ (q0 := c 1 0)
      (by rw [readQ_writeQ_disj (by unfold QDisj at *; omega)]; exact c10)]
    refine ⟨?_, ?_⟩
    · intro i j hi hj
      have hj0 : j = 0 := by omega
      have hi0 : i = 0 ∨ i = 1 := by omega
      subst hj0
      rcases hi0 with rfl | rfl
      · simp only [Nat.cast_zero, zero_mul, add_zero, mul_zero]
        rw [readQ_writeQ_disj d01, readQ_writeQ_same]
        rfl
      · simp only [Nat.cast_zero, Nat.cast_one, zero_mul, add_zero]
        exact readQ_writeQ_same _ _ _
    · intro a ha
      rw [writeQ_other (fun h => ha ⟨1, 0, by omega, by omega, by simpa using h⟩),
        writeQ_other (fun h => ha ⟨0, 0, by omega, by omega, by simpa using h⟩)]
  · -- 2 x 2
    have c01 : readQ m0 (C + 4 * LDC) = some (c 0 1) := by
      have := hC 0 1 (by omega) (by omega); simpa using this
    have c10 : readQ m0 (C + 4 * 1) = some (c 1 0) := by
      have := hC 1 0 (by omega) (by omega); simpa using this
    have c11 : readQ m0 (C + 4 * (LDC + 1)) = some (c 1 1) := by
      have := hC 1 1 (by omega) (by omega)
      rw [← this]; congr 1; push_cast; ring
    simp only [show (((2:Nat):Int) == 2) = true by decide, if_true, 
      Bool.and_self, wp_bind, wp_pure, wp_loadQ c10, wp_loadQ c01, wp_loadQ c11]
    refine wp_mono (kern_loop (xa := xa) (xb := xb) (c := c) hA hB haA haB) ?_
    rintro s m ⟨rfl, hs⟩
    have d : ∀ x y : Int, QDisj x y → QDisj y x := by intro x y h; unfold QDisj at *; omega
    have e1 : QDisj (C + 4 * 1) (C + 4 * LDC) := by unfold QDisj at *; push_cast at *; omega
    have e2 : QDisj C (C + 4 * (LDC + 1)) := by unfold QDisj at *; push_cast at *; omega
    have e3 : QDisj (C + 4 * 1) (C + 4 * (LDC + 1)) := by unfold QDisj at *; push_cast at *; omega
    have e4 : QDisj (C + 4 * LDC) (C + 4 * (LDC + 1)) := by unfold QDisj at *; push_cast at *; omega
    rw [hs, wp_storeQ c00, wp_storeQ (q0 := c 1 0)
      (by rw [readQ_writeQ_disj (d _ _ d01)]; exact c10), wp_storeQ (q0 := c 0 1)
      (by rw [readQ_writeQ_disj (d _ _ e1), readQ_writeQ_disj (d _ _ dl)]; exact c01),
      wp_storeQ (q0 := c 1 1) (by rw [readQ_writeQ_disj (d _ _ e4), readQ_writeQ_disj (d _ _ e3),
        readQ_writeQ_disj (d _ _ e2)]; exact c11)]
    refine ⟨?_, ?_⟩
    · intro i j hi hj
      have hj0 : j = 0 ∨ j = 1 := by omega
      have hi0 : i = 0 ∨ i = 1 := by omega
      rcases hi0 with rfl | rfl <;> rcases hj0 with rfl | rfl
      · simp only [Nat.cast_zero, zero_mul, add_zero, mul_zero]
        rw [readQ_writeQ_disj e2, readQ_writeQ_disj dl, readQ_writeQ_disj d01, readQ_writeQ_same]
        rfl
      · simp only [Nat.cast_zero, Nat.cast_one, one_mul, zero_add]
        rw [readQ_writeQ_disj e4, readQ_writeQ_same]
        rfl
      · simp only [Nat.cast_zero, Nat.cast_one, zero_mul, add_zero]
        rw [readQ_writeQ_disj e3, readQ_writeQ_disj e1, readQ_writeQ_same]
        rfl
      · simp only [Nat.cast_one, one_mul]
        rw [show C + 4 * (1 + LDC) = C + 4 * (LDC + 1) by ring, readQ_writeQ_same]
        rfl
    · intro a ha
      rw [writeQ_other (fun h => ha ⟨1, 1, by omega, by omega, by
            convert h using 1; push_cast; ring⟩),
        writeQ_other (fun h => ha ⟨0, 1, by omega, by omega, by simpa using h⟩),
        writeQ_other (fun h => ha ⟨1, 0, by omega, by omega, by simpa using h⟩),
        writeQ_other (fun h => ha ⟨0, 0, by omega, by omega, by simpa using h⟩)]

/-! ### The driver -/

theorem aPackSel_eq (w : AlphaAt) (t : Char) (ALPHA : Scal F) (nI nK Ai LDA aPack : Int) :
    aPackSel w t ALPHA nI nK Ai LDA aPack =
      packGen (preOP (isCj t) (loadScalar (w.forA ALPHA))) opT1 nI nK Ai (rs t LDA) (cs t LDA) aPack := by
  unfold aPackSel rs cs isCj
  by_cases h1 : t = 'T'
  · subst h1; simp [TPACK_eq]
  by_cases h2 : t = 'C'
  · subst h2; simp [TPACK_eq]
  by_cases h3 : t = 'R'
  · subst h3; simp [NPACK_eq]
  simp [h1, h2, h3, NPACK_eq]

theorem bPackSel_eq (w : AlphaAt) (t : Char) (ALPHA : Scal F) (nJ nK Bp LDB bPack : Int) :
    (bPackSel w t ALPHA nJ nK Bp LDB bPack : Prog F Unit) =
      packGen (preOP (isCj t) (loadScalar (w.forB ALPHA))) opT2 nJ nK Bp (cs t LDB) (rs t LDB) bPack := by
  unfold bPackSel rs cs isCj
  by_cases h1 : t = 'T'
  · subst h1; simp [NPACK_eq]
  by_cases h2 : t = 'C'
  · subst h2; simp [NPACK_eq]
  by_cases h3 : t = 'R'
  · subst h3; simp [TPACK_eq]
  simp [h1, h2, h3, TPACK_eq]

theorem gemmI_wp {mc M nj nk : Nat} {nc kc : Int} {t : Char} {w : AlphaAt} {ALPHA : Scal F}
    {Ap LDA Cj L aPack bPack capA : Int} {E xb c : Nat → Nat → Quat F} {m0 : Mem F}
    (hmc : 0 < mc) (hld : (M:Int) ≤ L)
    (hA : SMatAt m0 Ap (rs t LDA) (cs t LDA) M nk E)
    (hB : PackAt m0 bPack opT2 ((nj+1)/2) nk xb)
    (haA : aligned32 aPack = true) (haB : aligned32 bPack = true)
    (hC : MatAt m0 Cj L M nj c)
    (hcap : 8 * (((mc+1)/2 * nk : Nat) : Int) ≤ capA)
    (hJ : ∀ a, InBuf aPack capA a → (m0 a).isSome)
    (sCA : ∀ a, MatCell Cj L M nj a → ¬ InBuf aPack capA a)
    (sCB : ∀ a, MatCell Cj L M nj a → ¬ InBuf bPack (8 * (((nj+1)/2 * nk : Nat) : Int)) a)
    (sAA : ∀ a, SMatCell Ap (rs t LDA) (cs t LDA) M nk a → ¬ InBuf aPack capA a)
    (sAC : ∀ a, SMatCell Ap (rs t LDA) (cs t LDA) M nk a → ¬ MatCell Cj L M nj a)
    (sBA : ∀ a, InBuf bPack (8 * (((nj+1)/2 * nk : Nat) : Int)) a → ¬ InBuf aPack capA a)
    (h2k : Fits32 (2 * nk)) (hi2 : Fits32 ((mc:Int) + 2)) (hj2 : Fits32 ((nj:Int) + 2))
    (hL32 : Fits32 (2 * L)) (hM32 : Fits32 ((M:Int) + mc))
    (hadv : ∀ n : Nat, n ≤ mc → n ≤ M → Fits32 ((n:Int) * LDA)) :
    wp (gemmI ⟨mc, nc, kc⟩ t M nj nk w ALPHA Ap LDA Cj L aPack bPack) m0 (fun _ m =>
      MatAt m Cj L M nj (fun i j =>
        accum (fun k => preOP (isCj t) (loadScalar (w.forA ALPHA)) (E i k)) (xb j) nk (c i j)) ∧
      (∀ a, InBuf aPack capA a → (m a).isSome) ∧
      (∀ a, ¬ MatCell Cj L M nj a → ¬ InBuf aPack capA a → m a = m0 a)) := by
  unfold gemmI
  rw [wp_bind]
  refine wp_mono ?_ (fun _ _ h => wp_pure.mpr h)
  refine wp_region_se
    (fun b => (Ap + 4 * (((min (b * mc) M : Nat):Int) * rs t LDA + ((0:Nat):Int) * cs t LDA),
      Cj + 4 * (((min (b * mc) M : Nat):Int) + ((0:Nat):Int) * L)))
    (fun b a => MatCell (Cj + 4 * (((b * mc : Nat):Int) + ((0:Nat):Int) * L)) L (csz M mc b) nj a)
    (InBuf aPack capA) (fun m => ∀ a, InBuf aPack capA a → (m a).isSome)
    (fun b m => MatAt m (Cj + 4 * (((b * mc : Nat):Int) + ((0:Nat):Int) * L)) L (csz M mc b) nj
      (fun i j => accum (fun k => preOP (isCj t) (loadScalar (w.forA ALPHA)) (E (b*mc+i) k)) (xb (0+j)) nk
        (c (b*mc+i) (0+j)))) ?_ ?_ ?_ ?_ hJ ?_ ?_
  · simp
  · intro b b' a hb hb' hne h h'
    replace hb := (nIter_lt hmc).mp hb
    replace hb' := (nIter_lt hmc).mp hb'
    have s1 : csz M mc b ≤ mc := by unfold csz; omega
    have s2 : csz M mc b' ≤ mc := by unfold csz; omega
    have s3 : b * mc + csz M mc b ≤ M := by unfold csz; omega
    have s4 : b' * mc + csz M mc b' ≤ M := by unfold csz; omega
    obtain ⟨i, j, h1⟩ := sub_disj hld h s3 h' s4
    exact chunk_disj hne (x := i) h1.1 (by omega) (by omega) (by omega)
  · intro b a hb h
    replace hb := (nIter_lt hmc).mp hb
    have s3 : b * mc + csz M mc b ≤ M := by unfold csz; omega
    exact sCA a (sub_cell h s3 (by omega))
  · intro b m m' _ h hA'; exact matAt_congr h hA'
  · rintro b ⟨s1, s2⟩ m hb hs hJm hF
    obtain ⟨hs1, hs2⟩ := Prod.mk.inj hs
    clear hs
    change wp (gemmIStep _ t M nj nk w ALPHA LDA L aPack bPack b s1 s2) m _
    replace hb := (nIter_lt hmc).mp hb
    have hmb : min (b * mc) M = b * mc := by omega
    have s0 : csz M mc b ≤ mc := by unfold csz; omega
    have s3 : b * mc + csz M mc b ≤ M := by unfold csz; omega
    have hmin : min ((M:Int) - (b:Int) * mc) (mc:Int) = ((csz M mc b : Nat) : Int) := csz_cast hb
    have hbufle : (csz M mc b + 1)/2 * nk ≤ (mc+1)/2 * nk := Nat.mul_le_mul_right nk (by omega)
    have hbsub : ∀ a, InBuf aPack (8 * (((csz M mc b + 1)/2 * nk : Nat) : Int)) a →
        InBuf aPack capA a := by intro a ha; unfold InBuf at *; omega
    have hout : ∀ a, ¬ MatCell Cj L M nj a → ¬ InBuf aPack capA a → m a = m0 a := by
      intro a ha ha'
      apply hF a ha'
      intro k hk hc
      have s5 : k * mc + csz M mc k ≤ M := by
        have : k * mc ≤ b * mc := Nat.mul_le_mul_right mc (by omega)
        unfold csz; omega
      exact ha (sub_cell hc s5 (by omega))
    rw [hmb] at hs1 hs2
    unfold gemmIStep
    dsimp only
    rw [wp_bind, wp_pure, hmin, wp_bind, aPackSel_eq]
    subst hs1 hs2
    refine wp_mono (packGen_wp (E := fun i k => E (b*mc+i) (0+k)) ?_ ?_ ?_) ?_
    · refine smatAt_congr ?_ (ssub_at hA s3 (by omega))
      intro a ha
      have := ssub_cell ha s3 (by omega : 0 + nk ≤ nk)
      exact (hout a (sAC a this) (sAA a this)).symm
    · intro a ha; exact hJm a (hbsub a ha)
    · intro a ha hc
      exact sAA a (ssub_cell ha s3 (by omega : 0 + nk ≤ nk)) (hbsub a hc)
    · rintro _ m1 ⟨hP, hfr⟩
      have hfr' : ∀ a, ¬ InBuf aPack capA a → m1 a = m a := fun a ha => hfr a (fun h => ha (hbsub a h))
      rw [wp_bind]
      refine wp_mono (gemmJJ_wp (c := fun i j => c (b*mc+i) (0+j)) (by omega) hP (xb := xb) ?_ haA haB
        ?_ ?_ ?_ h2k (hi2.mono (by omega) (by omega)) hj2 hL32) ?_
      · refine packAt_congr ?_ hB
        intro a ha
        rw [hfr' a (sBA a ha)]
        refine (hout a ?_ (sBA a ha)).symm
        intro hc; exact sCB a hc ha
      · refine matAt_congr ?_ (sub_at hC s3 (by omega))
        intro a ha
        have hca := sub_cell ha s3 (by omega : 0 + nj ≤ nj)
        rw [hfr' a (sCA a hca)]
        symm
        apply hF a (sCA a hca)
        intro k hk hc
        have hk' : k * mc + mc ≤ b * mc := by
          have : (k+1) * mc ≤ b * mc := Nat.mul_le_mul_right mc (by omega)
          rw [Nat.add_mul, Nat.one_mul] at this; exact this
        have s5 : k * mc + csz M mc k ≤ M := by unfold csz; omega
        have s6 : csz M mc k ≤ mc := by unfold csz; omega
        obtain ⟨i, j, h1⟩ := sub_disj hld ha s3 hc s5
        omega
      · intro a ha hc
        exact sCA a (sub_cell ha s3 (by omega : 0 + nj ≤ nj)) (hbsub a hc)
      · intro a ha hc
        exact sCB a (sub_cell ha s3 (by omega : 0 + nj ≤ nj)) hc
      · rintro _ m2 ⟨h1, h2⟩
        rw [wp_bind, wp_advance (fun _ => hadv _ s0 (by omega)), wp_bind,
          wp_i32F (hM32.mono (by positivity) ?_), wp_pure]
        · refine ⟨?_, ?_, ?_, ?_⟩
          · have hst : min ((b+1) * mc) M = b * mc + csz M mc b := by rw [cut_step hb, hmb]
            rw [hst]
            refine Prod.ext ?_ ?_
            · change _ = Ap + 4 * (((b * mc + csz M mc b : Nat):Int) * rs t LDA + ((0:Nat):Int) * cs t LDA)
              rw [← rs]; push_cast; ring
            · change _ = Cj + 4 * (((b * mc + csz M mc b : Nat):Int) + ((0:Nat):Int) * L)
              push_cast; ring
          · refine matAt_ext ?_ h1
            intro i j hi hj
            simp only [Nat.zero_add]
            refine accum_congr ?_ (fun _ _ => rfl)
            intro k hk
            unfold packElt
            rw [if_pos hi]
          · intro a ha
            rw [h2 a (fun hc => sCA a (sub_cell hc s3 (by omega : 0 + nj ≤ nj)) ha)]
            by_cases hx : InBuf aPack (8 * (((csz M mc b + 1)/2 * nk : Nat) : Int)) a
            · exact packAt_isSome hP hx
            · rw [hfr a hx]; exact hJm a ha
          · intro a ha ha'
            rw [h2 a ha, hfr' a ha']
        · have : (b:Int) * mc < M := by exact_mod_cast hb
          omega
  · intro m hJm hP hF
    refine ⟨?_, hJm, ?_⟩
    · intro i j hi hj
      obtain ⟨h1, h2, h3⟩ := chunk_of hmc hi
      have := hP (i/mc) h1 (i%mc) j h2 hj
      rw [sub_entry] at this
      simp only [Nat.zero_add, ← h3] at this
      exact this
    · intro a ha ha'
      apply hF a ha'
      intro k hk hc
      replace hk := (nIter_lt hmc).mp hk
      have s5 : k * mc + csz M mc k ≤ M := by unfold csz; omega
      exact ha (sub_cell hc s5 (by omega))

theorem gemmK_wp {mc kc M nj K : Nat} {nc : Int} {tA tB : Char} {w : AlphaAt} {ALPHA : Scal F}
    {A LDA Bj LDB Cj L aPack bPack capA capB : Int} {EA EB c : Nat → Nat → Quat F} {m0 : Mem F}
    (hmc : 0 < mc) (hkc : 0 < kc) (hld : (M:Int) ≤ L)
    (hA : SMatAt m0 A (rs tA LDA) (cs tA LDA) M K EA)
    (hB : SMatAt m0 Bj (cs tB LDB) (rs tB LDB) nj K EB)
    (haA : aligned32 aPack = true) (haB : aligned32 bPack = true)
    (hC : MatAt m0 Cj L M nj c)
    (hcapA : 8 * (((mc+1)/2 * kc : Nat) : Int) ≤ capA)
    (hcapB : 8 * (((nj+1)/2 * kc : Nat) : Int) ≤ capB)
    (hJ : ∀ a, InBuf aPack capA a ∨ InBuf bPack capB a → (m0 a).isSome)
    (sCA : ∀ a, MatCell Cj L M nj a → ¬ InBuf aPack capA a)
    (sCB : ∀ a, MatCell Cj L M nj a → ¬ InBuf bPack capB a)
    (sAA : ∀ a, SMatCell A (rs tA LDA) (cs tA LDA) M K a → ¬ InBuf aPack capA a)
    (sAB : ∀ a, SMatCell A (rs tA LDA) (cs tA LDA) M K a → ¬ InBuf bPack capB a)
    (sAC : ∀ a, SMatCell A (rs tA LDA) (cs tA LDA) M K a → ¬ MatCell Cj L M nj a)
    (sBA : ∀ a, SMatCell Bj (cs tB LDB) (rs tB LDB) nj K a → ¬ InBuf aPack capA a)
    (sBB : ∀ a, SMatCell Bj (cs tB LDB) (rs tB LDB) nj K a → ¬ InBuf bPack capB a)
    (sBC : ∀ a, SMatCell Bj (cs tB LDB) (rs tB LDB) nj K a → ¬ MatCell Cj L M nj a)
    (sbuf : ∀ a, InBuf bPack capB a → ¬ InBuf aPack capA a)
    (h2k : Fits32 (2 * kc)) (hi2 : Fits32 ((mc:Int) + 2)) (hj2 : Fits32 ((nj:Int) + 2))
    (hL32 : Fits32 (2 * L)) (hM32 : Fits32 ((M:Int) + mc)) (hK32 : Fits32 ((K:Int) + kc))
    (hadvM : ∀ n : Nat, n ≤ mc → n ≤ M → Fits32 ((n:Int) * LDA))
    (hadvA : ∀ n : Nat, n ≤ kc → n ≤ K → Fits32 ((n:Int) * LDA))
    (hadvB : ∀ n : Nat, n ≤ kc → n ≤ K → Fits32 ((n:Int) * LDB)) :
    wp (gemmK ⟨mc, nc, kc⟩ tA tB M nj K w ALPHA A LDA Bj LDB Cj L aPack bPack) m0 (fun _ m =>
      MatAt m Cj L M nj (fun i j =>
        accum (fun k => preOP (isCj tA) (loadScalar (w.forA ALPHA)) (EA i k))
          (fun k => preOP (isCj tB) (loadScalar (w.forB ALPHA)) (EB j k)) K (c i j)) ∧
      (∀ a, InBuf aPack capA a ∨ InBuf bPack capB a → (m a).isSome) ∧
      (∀ a, ¬ MatCell Cj L M nj a → ¬ (InBuf aPack capA a ∨ InBuf bPack capB a) → m a = m0 a)) := by
  unfold gemmK
  rw [wp_bind]
  refine wp_mono ?_ (fun _ _ h => wp_pure.mpr h)
  refine wp_foldN (fun b s m =>
    s = (A + 4 * (((0:Nat):Int) * rs tA LDA + ((min (b * kc) K : Nat):Int) * cs tA LDA),
      Bj + 4 * (((0:Nat):Int) * cs tB LDB + ((min (b * kc) K : Nat):Int) * rs tB LDB)) ∧
    MatAt m Cj L M nj (fun i j =>
      accum (fun k => preOP (isCj tA) (loadScalar (w.forA ALPHA)) (EA i k))
        (fun k => preOP (isCj tB) (loadScalar (w.forB ALPHA)) (EB j k)) (min (b * kc) K) (c i j)) ∧
    (∀ a, InBuf aPack capA a ∨ InBuf bPack capB a → (m a).isSome) ∧
    (∀ a, ¬ MatCell Cj L M nj a → ¬ (InBuf aPack capA a ∨ InBuf bPack capB a) → m a = m0 a))
    ?_ ?_ ?_
  · refine ⟨by simp, ?_, hJ, fun _ _ _ => rfl⟩
    rw [Nat.zero_mul, Nat.zero_min]
    exact hC
  · rintro b ⟨s1, s2⟩ m hb ⟨hs, hCm, hJm, hF⟩
    obtain ⟨hs1, hs2⟩ := Prod.mk.inj hs
    clear hs
    change wp (gemmKStep _ tA tB M nj K w ALPHA LDA LDB Cj L aPack bPack b s1 s2) m _
    replace hb := (nIter_lt hkc).mp hb
    have hmb : min (b * kc) K = b * kc := by omega
    have s0 : csz K kc b ≤ kc := by unfold csz; omega
    have s3 : b * kc + csz K kc b ≤ K := by unfold csz; omega
    have hmin : min ((K:Int) - (b:Int) * kc) (kc:Int) = ((csz K kc b : Nat) : Int) := csz_cast hb
    have hst : min ((b+1) * kc) K = b * kc + csz K kc b := by rw [cut_step hb, hmb]
    have hble : (nj + 1)/2 * csz K kc b ≤ (nj+1)/2 * kc := Nat.mul_le_mul_left _ s0
    have hale : (mc + 1)/2 * csz K kc b ≤ (mc+1)/2 * kc := Nat.mul_le_mul_left _ s0
    have hbsub : ∀ a, InBuf bPack (8 * (((nj + 1)/2 * csz K kc b : Nat) : Int)) a →
        InBuf bPack capB a := by intro a ha; unfold InBuf at *; omega
    rw [hmb] at hs1 hs2 hCm
    unfold gemmKStep
    dsimp only
    rw [wp_bind, wp_pure, hmin, wp_bind, bPackSel_eq]
    subst hs1 hs2
    have hAm : SMatAt m A (rs tA LDA) (cs tA LDA) M K EA := by
      refine smatAt_congr ?_ hA
      intro a ha
      exact (hF a (sAC a ha) (fun h => h.elim (sAA a ha) (sAB a ha))).symm
    have hBm : SMatAt m Bj (cs tB LDB) (rs tB LDB) nj K EB := by
      refine smatAt_congr ?_ hB
      intro a ha
      exact (hF a (sBC a ha) (fun h => h.elim (sBA a ha) (sBB a ha))).symm
    refine wp_mono (packGen_wp (E := fun j k => EB (0+j) (b*kc+k)) (ssub_at hBm (by omega) s3) ?_ ?_) ?_
    · intro a ha; exact hJm a (Or.inr (hbsub a ha))
    · intro a ha hc
      exact sBB a (ssub_cell ha (by omega : 0 + nj ≤ nj) s3) (hbsub a hc)
    · rintro _ m1 ⟨hP, hfr⟩
      have hfr' : ∀ a, ¬ InBuf bPack capB a → m1 a = m a := fun a ha => hfr a (fun h => ha (hbsub a h))
      rw [wp_bind]
      refine wp_mono (gemmI_wp (capA := capA) (E := fun i k => EA (0+i) (b*kc+k)) hmc hld ?_ hP haA haB
        (matAt_congr ?_ hCm) ?_ ?_ sCA ?_ ?_ ?_ ?_ (h2k.mono (by omega) (by omega)) hi2 hj2 hL32 hM32
        hadvM) ?_
      · refine smatAt_congr ?_ (ssub_at hAm (by omega) s3)
        intro a ha
        exact (hfr' a (sAB a (ssub_cell ha (by omega : 0 + M ≤ M) s3))).symm
      · intro a ha; exact (hfr' a (sCB a ha)).symm
      · omega
      · intro a ha
        rw [hfr' a (fun h => sbuf a h ha)]
        exact hJm a (Or.inl ha)
      · intro a ha hc; exact sCB a ha (hbsub a hc)
      · intro a ha; exact sAA a (ssub_cell ha (by omega : 0 + M ≤ M) s3)
      · intro a ha; exact sAC a (ssub_cell ha (by omega : 0 + M ≤ M) s3)
      · intro a ha; exact sbuf a (hbsub a ha)
      · rintro _ m2 ⟨h1, h2, h3⟩
        rw [wp_bind, wp_advance (fun _ => hadvA _ s0 (by omega)), wp_bind,
          wp_advance (fun _ => hadvB _ s0 (by omega)), wp_bind,
          wp_i32F (hK32.mono (by positivity) ?_), wp_pure]
        · refine ⟨?_, ?_, ?_, ?_⟩
          · rw [hst]
            refine Prod.ext ?_ ?_
            · change _ = A + 4 * (((0:Nat):Int) * rs tA LDA +
                ((b * kc + csz K kc b : Nat):Int) * cs tA LDA)
              have : (if ¬ (tA = 'T' ∨ tA = 'C') then LDA else 1) = cs tA LDA := by
                unfold cs; by_cases h : tA = 'T' ∨ tA = 'C' <;> simp [h]
              rw [this]; push_cast; ring
            · change _ = Bj + 4 * (((0:Nat):Int) * cs tB LDB +
                ((b * kc + csz K kc b : Nat):Int) * rs tB LDB)
              rw [← rs]; push_cast; ring
          · refine matAt_ext ?_ h1
            intro i j hi hj
            rw [hst, accum_add]
            simp only [Nat.zero_add]
            refine accum_congr (fun _ _ => rfl) ?_
            intro k hk
            unfold packElt
            rw [if_pos hj]
          · intro a ha
            by_cases hxA : InBuf aPack capA a
            · exact h2 a hxA
            · have hxB : InBuf bPack capB a := ha.resolve_left hxA
              rw [h3 a (fun h => sCB a h hxB) hxA]
              by_cases hx : InBuf bPack (8 * (((nj + 1)/2 * csz K kc b : Nat) : Int)) a
              · exact packAt_isSome hP hx
              · rw [hfr a hx]; exact hJm a ha
          · intro a ha ha'
            rw [h3 a ha (fun h => ha' (Or.inl h)), hfr' a (fun h => ha' (Or.inr h)), hF a ha ha']
        · have : (b:Int) * kc < K := by exact_mod_cast hb
          omega
  · rintro s m ⟨-, h1, h2, h3⟩
    refine ⟨?_, h2, h3⟩
    have : min (nIter (K:Int) (kc:Int) * kc) K = K := by
      have := (nIter_lt (n := K) (b := nIter (K:Int) (kc:Int)) hkc)
      omega
    rw [this] at h1
    exact h1

theorem gemmJ_wp {mc nc kc M N K : Nat} {tA tB : Char} {w : AlphaAt} {ALPHA : Scal F}
    {A LDA B LDB C L aPack bPack capA capB : Int} {EA EB c : Nat → Nat → Quat F} {m0 : Mem F}
    (hmc : 0 < mc) (hnc : 0 < nc) (hkc : 0 < kc) (hld : (M:Int) ≤ L)
    (hA : SMatAt m0 A (rs tA LDA) (cs tA LDA) M K EA)
    (hB : SMatAt m0 B (cs tB LDB) (rs tB LDB) N K EB)
    (haA : aligned32 aPack = true) (haB : aligned32 bPack = true)
    (hC : MatAt m0 C L M N c)
    (hcapA : 8 * (((mc+1)/2 * kc : Nat) : Int) ≤ capA)
    (hcapB : 8 * (((nc+1)/2 * kc : Nat) : Int) ≤ capB)
    (hJ : ∀ a, InBuf aPack capA a ∨ InBuf bPack capB a → (m0 a).isSome)
    (sC : ∀ a, MatCell C L M N a → ¬ (InBuf aPack capA a ∨ InBuf bPack capB a))
    (sA : ∀ a, SMatCell A (rs tA LDA) (cs tA LDA) M K a → ¬ (InBuf aPack capA a ∨ InBuf bPack capB a))
    (sB : ∀ a, SMatCell B (cs tB LDB) (rs tB LDB) N K a → ¬ (InBuf aPack capA a ∨ InBuf bPack capB a))
    (sAC : ∀ a, SMatCell A (rs tA LDA) (cs tA LDA) M K a → ¬ MatCell C L M N a)
    (sBC : ∀ a, SMatCell B (cs tB LDB) (rs tB LDB) N K a → ¬ MatCell C L M N a)
    (sbuf : ∀ a, InBuf bPack capB a → ¬ InBuf aPack capA a)
    (h2k : Fits32 (2 * kc)) (hi2 : Fits32 ((mc:Int) + 2)) (hj2 : Fits32 ((nc:Int) + 2))
    (hL32 : Fits32 (2 * L)) (hM32 : Fits32 ((M:Int) + mc)) (hK32 : Fits32 ((K:Int) + kc))
    (hN32 : Fits32 ((N:Int) + nc))
    (hadvM : ∀ n : Nat, n ≤ mc → n ≤ M → Fits32 ((n:Int) * LDA))
    (hadvA : ∀ n : Nat, n ≤ kc → n ≤ K → Fits32 ((n:Int) * LDA))
    (hadvB : ∀ n : Nat, n ≤ kc → n ≤ K → Fits32 ((n:Int) * LDB))
    (hadvBN : ∀ n : Nat, n ≤ nc → n ≤ N → Fits32 ((n:Int) * LDB))
    (hadvC : ∀ n : Nat, n ≤ nc → n ≤ N → Fits32 ((n:Int) * L)) :
    wp (gemmJ ⟨mc, nc, kc⟩ tA tB M N K w ALPHA A LDA B LDB C L aPack bPack) m0 (fun _ m =>
      MatAt m C L M N (fun i j =>
        accum (fun k => preOP (isCj tA) (loadScalar (w.forA ALPHA)) (EA i k))
          (fun k => preOP (isCj tB) (loadScalar (w.forB ALPHA)) (EB j k)) K (c i j)) ∧
      (∀ a, ¬ MatCell C L M N a → ¬ (InBuf aPack capA a ∨ InBuf bPack capB a) → m a = m0 a)) := by
  unfold gemmJ
  rw [wp_bind]
  refine wp_mono ?_ (fun _ _ h => wp_pure.mpr h)
  refine wp_region_se
    (fun b => (C + 4 * (((0:Nat):Int) + ((min (b * nc) N : Nat):Int) * L),
      B + 4 * (((min (b * nc) N : Nat):Int) * cs tB LDB + ((0:Nat):Int) * rs tB LDB)))
    (fun b a => MatCell (C + 4 * (((0:Nat):Int) + ((b * nc : Nat):Int) * L)) L M (csz N nc b) a)
    (fun a => InBuf aPack capA a ∨ InBuf bPack capB a)
    (fun m => ∀ a, InBuf aPack capA a ∨ InBuf bPack capB a → (m a).isSome)
    (fun b m => MatAt m (C + 4 * (((0:Nat):Int) + ((b * nc : Nat):Int) * L)) L M (csz N nc b)
      (fun i j => accum (fun k => preOP (isCj tA) (loadScalar (w.forA ALPHA)) (EA (0+i) k))
          (fun k => preOP (isCj tB) (loadScalar (w.forB ALPHA)) (EB (b*nc+j) k)) K (c (0+i) (b*nc+j))))
    ?_ ?_ ?_ ?_ hJ ?_ ?_
  · simp
  · intro b b' a hb hb' hne h h'
    have s1 : csz N nc b ≤ nc := by unfold csz; omega
    have s2 : csz N nc b' ≤ nc := by unfold csz; omega
    obtain ⟨i, j, h1⟩ := sub_disj hld h (by omega) h' (by omega)
    exact chunk_disj (s := nc) hne (x := j) (by omega) (by omega) (by omega) (by omega)
  · intro b a hb h
    replace hb := (nIter_lt hnc).mp hb
    have s3 : b * nc + csz N nc b ≤ N := by unfold csz; omega
    exact sC a (sub_cell h (by omega) s3)
  · intro b m m' _ h hA'; exact matAt_congr h hA'
  · rintro b ⟨s1, s2⟩ m hb hs hJm hF
    obtain ⟨hs1, hs2⟩ := Prod.mk.inj hs
    clear hs
    change wp (gemmJStep _ tA tB M N K w ALPHA A LDA LDB L aPack bPack b s1 s2) m _
    replace hb := (nIter_lt hnc).mp hb
    have hmb : min (b * nc) N = b * nc := by omega
    have s0 : csz N nc b ≤ nc := by unfold csz; omega
    have s3 : b * nc + csz N nc b ≤ N := by unfold csz; omega
    have hmin : min ((N:Int) - (b:Int) * nc) (nc:Int) = ((csz N nc b : Nat) : Int) := csz_cast hb
    have hst : min ((b+1) * nc) N = b * nc + csz N nc b := by rw [cut_step hb, hmb]
    have hble : (csz N nc b + 1)/2 * kc ≤ (nc+1)/2 * kc := Nat.mul_le_mul_right kc (by omega)
    have hsubC : ∀ a, MatCell (C + 4 * (((0:Nat):Int) + ((b * nc : Nat):Int) * L)) L M (csz N nc b) a →
        MatCell C L M N a := fun a ha => sub_cell ha (by omega) s3
    have hsubB : ∀ a, SMatCell (B + 4 * (((b * nc : Nat):Int) * cs tB LDB + ((0:Nat):Int) * rs tB LDB))
        (cs tB LDB) (rs tB LDB) (csz N nc b) K a → SMatCell B (cs tB LDB) (rs tB LDB) N K a :=
      fun a ha => ssub_cell ha s3 (by omega)
    have hout : ∀ a, ¬ MatCell C L M N a → ¬ (InBuf aPack capA a ∨ InBuf bPack capB a) →
        m a = m0 a := by
      intro a ha ha'
      apply hF a ha'
      intro k hk hc
      have s5 : k * nc + csz N nc k ≤ N := by
        have : k * nc ≤ b * nc := Nat.mul_le_mul_right nc (by omega)
        unfold csz; omega
      exact ha (sub_cell hc (by omega) s5)
    rw [hmb] at hs1 hs2
    unfold gemmJStep
    dsimp only
    rw [wp_bind, wp_pure, hmin, wp_bind]
    subst hs1 hs2
    refine wp_mono (gemmK_wp (capA := capA) (capB := capB) (EA := fun i k => EA (0+i) k)
      (EB := fun j k => EB (b*nc+j) (0+k)) (c := fun i j => c (0+i) (b*nc+j)) hmc hkc hld ?_ ?_ haA haB
      ?_ hcapA (by omega) hJm ?_ ?_ ?_ ?_ ?_ ?_ ?_ ?_ sbuf h2k hi2 (hj2.mono (by omega) (by omega))
      hL32 hM32 hK32 hadvM hadvA hadvB) ?_
    · simp only [Nat.zero_add]
      refine smatAt_congr ?_ hA
      intro a ha
      exact (hout a (sAC a ha) (sA a ha)).symm
    · refine smatAt_congr ?_ (ssub_at hB s3 (by omega))
      intro a ha
      exact (hout a (sBC a (hsubB a ha)) (sB a (hsubB a ha))).symm
    · refine matAt_congr ?_ (sub_at hC (by omega) s3)
      intro a ha
      symm
      apply hF a (sC a (hsubC a ha))
      intro k hk hc
      have hk' : k * nc + nc ≤ b * nc := by
        have : (k+1) * nc ≤ b * nc := Nat.mul_le_mul_right nc (by omega)
        rw [Nat.add_mul, Nat.one_mul] at this; exact this
      have s6 : csz N nc k ≤ nc := by unfold csz; omega
      obtain ⟨i, j, h1⟩ := sub_disj hld ha (by omega) hc (by omega)
      omega
    · intro a ha h; exact sC a (hsubC a ha) (Or.inl h)
    · intro a ha h; exact sC a (hsubC a ha) (Or.inr h)
    · intro a ha h; exact sA a ha (Or.inl h)
    · intro a ha h; exact sA a ha (Or.inr h)
    · intro a ha h; exact sAC a ha (hsubC a h)
    · intro a ha h; exact sB a (hsubB a ha) (Or.inl h)
    · intro a ha h; exact sB a (hsubB a ha) (Or.inr h)
    · intro a ha h; exact sBC a (hsubB a ha) (hsubC a h)
    · rintro _ m2 ⟨h1, h2, h3⟩
      rw [wp_bind, wp_i32F (hadvC _ s0 (by omega)), wp_bind,
        wp_advance (fun _ => hadvBN _ s0 (by omega)), wp_bind,
        wp_i32F (hN32.mono (by positivity) ?_), wp_pure]
      · refine ⟨?_, ?_, h2, h3⟩
        · rw [hst]
          refine Prod.ext ?_ ?_
          · change _ = C + 4 * (((0:Nat):Int) + ((b * nc + csz N nc b : Nat):Int) * L)
            push_cast; ring
          · change _ = B + 4 * (((b * nc + csz N nc b : Nat):Int) * cs tB LDB + ((0:Nat):Int) * rs tB LDB)
            have : (if ¬ (tB = 'T' ∨ tB = 'C') then LDB else 1) = cs tB LDB := by
              unfold cs; by_cases h : tB = 'T' ∨ tB = 'C' <;> simp [h]
            rw [this]; push_cast; ring
        · simpa only [Nat.zero_add] using h1
      · have : (b:Int) * nc < N := by exact_mod_cast hb
        omega
  · intro m hJm hP hF
    refine ⟨?_, ?_⟩
    · intro i j hi hj
      obtain ⟨h1, h2, h3⟩ := chunk_of hnc hj
      have := hP (j/nc) h1 i (j%nc) hi h2
      rw [sub_entry] at this
      simp only [Nat.zero_add, ← h3] at this
      exact this
    · intro a ha ha'
      apply hF a ha'
      intro k hk hc
      replace hk := (nIter_lt hnc).mp hk
      have s5 : k * nc + csz N nc k ≤ N := by unfold csz; omega
      exact ha (sub_cell hc (by omega) s5)

/-- The value the routine leaves at `C(i,j)`, from row `x` of (stored) op(A), column `y` of (stored)
op(B) and the old entry `c`: which operations, in which order. -/
def gemmElt (w : AlphaAt) (tA tB : Char) (ALPHA BETA : Scal F) (K : Nat) (x y : Nat → Quat F) (c : Quat F) :
    Quat F :=
  accum (fun k => preOP (isCj tA) (loadScalar (w.forA ALPHA)) (x k))
    (fun k => preOP (isCj tB) (loadScalar (w.forB ALPHA)) (y k)) K (scalOp true BETA c)

theorem gemmAVX_wp {m0 : Mem F} {blk : Blk} {bAddr aAddr : Int} {junk : Int → F} {tA tB : Char}
    {M N K : Nat} {w : AlphaAt} {ALPHA BETA : Scal F} {A LDA B LDB C LDC : Int} {Av Bv Cv : Nat → Nat → Quat F}
    (h : GemmPre m0 blk bAddr aAddr tA tB M N K A LDA Av B LDB Bv C LDC Cv) :
    wp (gemmAVX blk bAddr aAddr junk tA tB M N K w ALPHA A LDA B LDB BETA C LDC) m0 (fun _ m =>
      MatAt m C LDC M N (fun i j => gemmElt w tA tB ALPHA BETA K (fun k => opE tA Av i k)
        (fun k => opE tB Bv k j) (Cv i j)) ∧
      SameOutside (MatCell C LDC M N) m0 m) := by
  obtain ⟨mc, hmc⟩ : ∃ n : Nat, blk.MC = n := ⟨blk.MC.toNat, by have := h.mc_pos; omega⟩
  obtain ⟨nc, hnc⟩ : ∃ n : Nat, blk.NC = n := ⟨blk.NC.toNat, by have := h.nc_pos; omega⟩
  obtain ⟨kc, hkc⟩ : ∃ n : Nat, blk.KC = n := ⟨blk.KC.toNat, by have := h.kc_pos; omega⟩
  obtain ⟨MC, NC, KC⟩ := blk
  dsimp only at hmc hnc hkc
  subst hmc hnc hkc
  obtain ⟨mcp, ncp, kcp, mce, nce, hA, hB, hC, la, lb, lc, aA, aB, alB, alA, fB, fA, fAB, k2, m32, n32,
    k32, lc2, lcN, lbN, lbK, laM, laK⟩ := h
  dsimp only at *
  generalize hcB : fixMod ((kc:Int) * nc) 32 = capB at *
  generalize hcA : fixMod ((kc:Int) * mc) 32 = capA at *
  have hcapA : 8 * (((mc+1)/2 * kc : Nat) : Int) ≤ 4 * capA := by
    have h1 := fixMod_ge (X := (kc:Int) * mc) (by positivity)
    rw [hcA] at h1
    obtain ⟨h, rfl⟩ : ∃ h, mc = 2 * h := ⟨mc / 2, by omega⟩
    have h2 : (2 * h + 1) / 2 = h := by omega
    rw [h2]
    push_cast at h1 ⊢
    nlinarith
  have hcapB : 8 * (((nc+1)/2 * kc : Nat) : Int) ≤ 4 * capB := by
    have h1 := fixMod_ge (X := (kc:Int) * nc) (by positivity)
    rw [hcB] at h1
    obtain ⟨h, rfl⟩ : ∃ h, nc = 2 * h := ⟨nc / 2, by omega⟩
    have h2 : (2 * h + 1) / 2 = h := by omega
    rw [h2]
    push_cast at h1 ⊢
    nlinarith
  unfold gemmAVX
  dsimp only
  rw [hcA, hcB, wp_bind, wp_allocQ, wp_bind, wp_allocQ, wp_bind]
  -- the memory with the two blocks
  generalize hm1 : (fun a => if aAddr ≤ a ∧ a < aAddr + 4 * capA then some (junk a) else
    (fun a => if bAddr ≤ a ∧ a < bAddr + 4 * capB then some (junk a) else m0 a) a) = m1
  have hsame : ∀ a, (m0 a).isSome → m1 a = m0 a := by
    intro a ha
    rw [← hm1]
    have e1 : ¬ (aAddr ≤ a ∧ a < aAddr + 4 * capA) := by
      intro hc; rw [fA a hc] at ha; cases ha
    have e2 : ¬ (bAddr ≤ a ∧ a < bAddr + 4 * capB) := by
      intro hc; rw [fB a hc] at ha; cases ha
    simp only [if_neg e1, if_neg e2]
  have hJ : ∀ a, InBuf aAddr (4 * capA) a ∨ InBuf bAddr (4 * capB) a → (m1 a).isSome := by
    intro a ha
    rw [← hm1]
    unfold InBuf at ha
    by_cases e1 : aAddr ≤ a ∧ a < aAddr + 4 * capA
    · simp only [if_pos e1, Option.isSome_some]
    · have e2 := ha.resolve_left e1
      simp only [if_neg e1, if_pos e2, Option.isSome_some]
  have hout : ∀ a, ¬ (InBuf aAddr (4 * capA) a ∨ InBuf bAddr (4 * capB) a) → m1 a = m0 a := by
    intro a ha
    rw [← hm1]
    unfold InBuf at ha
    have e1 : ¬ (aAddr ≤ a ∧ a < aAddr + 4 * capA) := fun hc => ha (Or.inl hc)
    have e2 : ¬ (bAddr ≤ a ∧ a < bAddr + 4 * capB) := fun hc => ha (Or.inr hc)
    simp only [if_neg e1, if_neg e2]
  have hnb : ∀ a, (m0 a).isSome → ¬ (InBuf aAddr (4 * capA) a ∨ InBuf bAddr (4 * capB) a) := by
    rintro a ha (hc | hc)
    · rw [fA a hc] at ha; cases ha
    · rw [fB a hc] at ha; cases ha
  have hA1 := matAt_congr (m' := m1) (fun a ha => (hsame a (matCell_isSome hA ha)).symm) hA
  have hB1 := matAt_congr (m' := m1) (fun a ha => (hsame a (matCell_isSome hB ha)).symm) hB
  have hC1 := matAt_congr (m' := m1) (fun a ha => (hsame a (matCell_isSome hC ha)).symm) hC
  -- scaling of C
  refine wp_mono (scalm_wp (SCALV := scalvAVX) (SIDE := 'L') (M := M) (N := N) (ALPHA := BETA) (Av := Cv)
    (f := scalOp true BETA) ?_ ?_ (by omega) ?_) ?_
  · intro m X x hx
    exact scalvAVX_wp hx (Or.inl (by decide))
  · rw [Int.toNat_natCast, Int.toNat_natCast]; exact smat_one.mpr hC1
  · unfold ColFits; rw [Int.toNat_natCast]; omega
  rintro _ m2 ⟨hC2, hS2⟩
  simp only [Int.toNat_natCast] at hC2 hS2
  rw [smat_one] at hC2
  have hS2' : ∀ a, ¬ MatCell C LDC M N a → m2 a = m1 a := fun a ha =>
    hS2 a (fun hc => ha (smatCell_one.mp hc))
  have hbufC : ∀ a, MatCell C LDC M N a → ¬ (InBuf aAddr (4 * capA) a ∨ InBuf bAddr (4 * capB) a) :=
    fun a ha => hnb a (matCell_isSome hC ha)
  rw [wp_bind]
  refine wp_mono (gemmJ_wp (capA := 4 * capA) (capB := 4 * capB) (EA := opE tA Av)
    (EB := fun j k => opE tB Bv k j) (by omega) (by omega) (by omega) lc
    (smat_opA (matAt_congr ?_ hA1)) (smat_opB (matAt_congr ?_ hB1)) alA alB hC2 hcapA hcapB
    ?_ hbufC ?_ ?_ ?_ ?_ fAB k2 (m32.mono (by omega) (by omega)) (n32.mono (by omega) (by omega)) lc2
    (m32.mono (by omega) (by omega)) k32 (n32.mono (by omega) (by omega))
    (fun n h1 h2 => fits_mul la laM h1 h2) (fun n h1 h2 => fits_mul la laK h1 h2)
    (fun n h1 h2 => fits_mul lb lbK h1 h2) (fun n h1 h2 => fits_mul lb lbN h1 h2)
    (fun n h1 h2 => fits_mul (by omega) lcN h1 h2)) ?_
  · intro a ha; exact (hS2' a (aA a ha)).symm
  · intro a ha; exact (hS2' a (aB a ha)).symm
  · intro a ha; rw [hS2' a (fun hc => hbufC a hc ha)]; exact hJ a ha
  · intro a ha; exact hnb a (matCell_isSome hA (smat_opA_cell ha))
  · intro a ha; exact hnb a (matCell_isSome hB (smat_opB_cell ha))
  · intro a ha; exact aA a (smat_opA_cell ha)
  · intro a ha; exact aB a (smat_opB_cell ha)
  rintro _ m3 ⟨h3, hS3⟩
  rw [wp_bind, wp_freeQ, wp_freeQ]
  refine ⟨?_, ?_⟩
  · refine matAt_congr ?_ h3
    intro a ha
    have := hbufC a ha
    unfold InBuf at this
    have e1 : ¬ (aAddr ≤ a ∧ a < aAddr + 4 * capA) := fun hc => this (Or.inl hc)
    have e2 : ¬ (bAddr ≤ a ∧ a < bAddr + 4 * capB) := fun hc => this (Or.inr hc)
    simp only [if_neg e1, if_neg e2]
  · intro a ha
    by_cases e1 : aAddr ≤ a ∧ a < aAddr + 4 * capA
    · simp only [if_pos e1]; exact (fA a e1).symm
    · by_cases e2 : bAddr ≤ a ∧ a < bAddr + 4 * capB
      · simp only [if_neg e1, if_pos e2]; exact (fB a e2).symm
      · simp only [if_neg e1, if_neg e2]
        have hn : ¬ (InBuf aAddr (4 * capA) a ∨ InBuf bAddr (4 * capB) a) := by
          rintro (hc | hc)
          · exact e1 hc
          · exact e2 hc
        rw [hS3 a ha hn, hS2' a ha, hout a hn]

end Haxx.Cfg
