import Verif.GemmProofs

/-! Correctness of the cache-block loops of the GEMM driver. -/

namespace Haxx
open Arith

variable {F : Type}

/-! ### Strided sub-blocks -/

theorem ssub_entry (p si sk : Int) (i0 k0 i k : Nat) :
    p + 4 * ((i0:Int) * si + k0 * sk) + 4 * ((i:Int) * si + k * sk) =
      p + 4 * (((i0 + i : Nat) : Int) * si + ((k0 + k : Nat) : Int) * sk) := by push_cast; ring

theorem ssub_at {m : Mem F} {p si sk : Int} {i0 k0 r c M K : Nat} {A : Nat → Nat → Quat F}
    (h : SMatAt m p si sk M K A) (hr : i0 + r ≤ M) (hc : k0 + c ≤ K) :
    SMatAt m (p + 4 * ((i0:Int) * si + k0 * sk)) si sk r c (fun i k => A (i0 + i) (k0 + k)) := by
  intro i j hi hj
  rw [ssub_entry]
  exact h _ _ (by omega) (by omega)

theorem ssub_cell {p si sk : Int} {i0 k0 r c M K : Nat} {a : Int}
    (h : SMatCell (p + 4 * ((i0:Int) * si + k0 * sk)) si sk r c a) (hr : i0 + r ≤ M)
    (hc : k0 + c ≤ K) : SMatCell p si sk M K a := by
  obtain ⟨i, j, hi, hj, h⟩ := h
  rw [ssub_entry] at h
  exact ⟨i0 + i, k0 + j, by omega, by omega, h⟩

theorem smatAt_congr {m m' : Mem F} {p si sk : Int} {r c : Nat} {A : Nat → Nat → Quat F}
    (h : ∀ a, SMatCell p si sk r c a → m a = m' a) (hA : SMatAt m p si sk r c A) :
    SMatAt m' p si sk r c A := by
  intro i j hi hj
  rw [← hA i j hi hj]
  exact (readQ_congr (fun a ha => h a ⟨i, j, hi, hj, ha⟩)).symm

theorem packAt_congr {m m' : Mem F} {Xp : Int} {op : VV F → VV F} {np n : Nat}
    {e : Nat → Nat → Quat F} (h : ∀ a, InBuf Xp (8 * ((np * n : Nat) : Int)) a → m a = m' a)
    (hp : PackAt m Xp op np n e) : PackAt m' Xp op np n e := by
  intro p r hpp hr
  refine pairAt_congr ?_ (hp p r hpp hr)
  intro a ha
  apply h
  have : (p+1) * n ≤ np * n := Nat.mul_le_mul_right n (by omega)
  rw [Nat.add_mul, Nat.one_mul] at this
  unfold InBuf at *; omega

theorem packAt_isSome {m : Mem F} {Xp : Int} {op : VV F → VV F} {np n : Nat}
    {e : Nat → Nat → Quat F} (hP : PackAt m Xp op np n e) {a : Int}
    (hx : InBuf Xp (8 * ((np * n : Nat) : Int)) a) : (m a).isSome := by
  have hn : 0 < n := by
    rcases Nat.eq_zero_or_pos n with h | h
    · subst h; unfold InBuf at hx; simp at hx; omega
    · exact h
  have hq : InBuf (Xp + 8 * ((((a - Xp) / 8).toNat / n * n + ((a - Xp) / 8).toNat % n : Nat) : Int)) 8 a := by
    rw [Nat.mul_comm, Nat.div_add_mod]
    unfold InBuf at *; omega
  obtain ⟨q1, q2⟩ := hP (((a - Xp) / 8).toNat / n) (((a - Xp) / 8).toNat % n)
    (by rw [Nat.div_lt_iff_lt_mul hn]; unfold InBuf at hx; omega) (Nat.mod_lt _ hn)
  by_cases hlo : a < Xp + 8 * ((((a - Xp) / 8).toNat / n * n + ((a - Xp) / 8).toNat % n : Nat) : Int) + 4
  · exact isSome_of_readQ q1 (by unfold InQ InBuf at *; omega)
  · exact isSome_of_readQ q2 (by unfold InQ InBuf at *; omega)

/-! ### The access pattern of an operand -/

/-- Row stride of `op(X)` for the flag `t`. -/
def rs (t : Char) (L : Int) : Int := if t = 'T' ∨ t = 'C' then L else 1

/-- Column stride of `op(X)` for the flag `t`. -/
def cs (t : Char) (L : Int) : Int := if t = 'T' ∨ t = 'C' then 1 else L

/-- Whether `op(X)` conjugates its elements. -/
def isCj (t : Char) : Bool := t = 'C' ∨ t = 'R'

section
variable [Arith F]

theorem aPackSel_eq (t : Char) (ALPHA : Scal F) (nI nK Ai LDA aPack : Int) :
    aPackSel t ALPHA nI nK Ai LDA aPack =
      packGen (preOP (isCj t) (loadScalar (some ALPHA))) opT1 nI nK Ai (rs t LDA) (cs t LDA) aPack := by
  unfold aPackSel rs cs isCj
  by_cases h1 : t = 'T'
  · subst h1; simp [TPACK_eq]
  by_cases h2 : t = 'C'
  · subst h2; simp [TPACK_eq]
  by_cases h3 : t = 'R'
  · subst h3; simp [NPACK_eq]
  simp [h1, h2, h3, NPACK_eq]

theorem bPackSel_eq (t : Char) (nJ nK Bp LDB bPack : Int) :
    (bPackSel t nJ nK Bp LDB bPack : Prog F Unit) =
      packGen (preOP (isCj t) (loadScalar none)) opT2 nJ nK Bp (cs t LDB) (rs t LDB) bPack := by
  unfold bPackSel rs cs isCj
  by_cases h1 : t = 'T'
  · subst h1; simp [NPACK_eq]
  by_cases h2 : t = 'C'
  · subst h2; simp [NPACK_eq]
  by_cases h3 : t = 'R'
  · subst h3; simp [TPACK_eq]
  simp [h1, h2, h3, TPACK_eq]

omit [Arith F] in
theorem wp_advance {c : Prop} [Decidable c] {p n LD : Int} {m : Mem F} {Q : Int → Mem F → Prop}
    (h : c → Fits32 (n * LD)) :
    wp (advance c p n LD) m Q ↔ Q (p + 4 * (n * (if c then LD else 1))) m := by
  unfold advance
  by_cases hc : c
  · rw [if_pos hc, if_pos hc, wp_bind, wp_i32F (h hc), wp_pure]
  · rw [if_neg hc, if_neg hc, wp_pure, mul_one]

theorem gemmI_wp {mc M nj nk : Nat} {nc kc : Int} {t : Char} {ALPHA : Scal F}
    {Ap LDA Cj L aPack bPack capA : Int} {E xb c : Nat → Nat → Quat F} {m0 : Mem F}
    (hmc : 0 < mc) (hld : (M:Int) ≤ L)
    (hA : SMatAt m0 Ap (rs t LDA) (cs t LDA) M nk E)
    (hB : PackAt m0 bPack opT2 ((nj+1)/2) nk xb)
    (haA : aligned32 aPack = true) (haB : aligned32 bPack = true)
    (hC : MatAt m0 Cj L M nj c)
    (hcap : 8 * (((mc+1)/2 * nk : Nat) : Int) ≤ capA)
    (hJ : ∀ a, InBuf aPack capA a → (m0 a).isSome)
    (sCA : ∀ a, MatCell Cj L M nj a → ¬ InBuf aPack capA a)
    (sCB : ∀ a, MatCell Cj L M nj a → ¬ InBuf bPack (8 * (((nj+1)/2 * nk : Nat) : Int)) a)
    (sAA : ∀ a, SMatCell Ap (rs t LDA) (cs t LDA) M nk a → ¬ InBuf aPack capA a)
    (sAC : ∀ a, SMatCell Ap (rs t LDA) (cs t LDA) M nk a → ¬ MatCell Cj L M nj a)
    (sBA : ∀ a, InBuf bPack (8 * (((nj+1)/2 * nk : Nat) : Int)) a → ¬ InBuf aPack capA a)
    (h2k : Fits32 (2 * nk)) (hi2 : Fits32 ((mc:Int) + 2)) (hj2 : Fits32 ((nj:Int) + 2))
    (hL32 : Fits32 (2 * L)) (hM32 : Fits32 ((M:Int) + mc))
    (hadv : ∀ n : Nat, n ≤ mc → n ≤ M → Fits32 ((n:Int) * LDA)) :
    wp (gemmI ⟨mc, nc, kc⟩ t M nj nk ALPHA Ap LDA Cj L aPack bPack) m0 (fun _ m =>
      MatAt m Cj L M nj (fun i j =>
        accum (fun k => preOP (isCj t) (loadScalar (some ALPHA)) (E i k)) (xb j) nk (c i j)) ∧
      (∀ a, InBuf aPack capA a → (m a).isSome) ∧
      (∀ a, ¬ MatCell Cj L M nj a → ¬ InBuf aPack capA a → m a = m0 a)) := by
  unfold gemmI
  rw [wp_bind]
  refine wp_mono ?_ (fun _ _ h => wp_pure.mpr h)
  refine wp_region_se
    (fun b => (Ap + 4 * (((min (b * mc) M : Nat):Int) * rs t LDA + ((0:Nat):Int) * cs t LDA),
      Cj + 4 * (((min (b * mc) M : Nat):Int) + ((0:Nat):Int) * L)))
    (fun b a => MatCell (Cj + 4 * (((b * mc : Nat):Int) + ((0:Nat):Int) * L)) L (csz M mc b) nj a)
    (InBuf aPack capA) (fun m => ∀ a, InBuf aPack capA a → (m a).isSome)
    (fun b m => MatAt m (Cj + 4 * (((b * mc : Nat):Int) + ((0:Nat):Int) * L)) L (csz M mc b) nj
      (fun i j => accum (fun k => preOP (isCj t) (loadScalar (some ALPHA)) (E (b*mc+i) k)) (xb (0+j)) nk
        (c (b*mc+i) (0+j)))) ?_ ?_ ?_ ?_ hJ ?_ ?_
  · simp
  · intro b b' a hb hb' hne h h'
    replace hb := (nIter_lt hmc).mp hb
    replace hb' := (nIter_lt hmc).mp hb'
    have s1 : csz M mc b ≤ mc := by unfold csz; omega
    have s2 : csz M mc b' ≤ mc := by unfold csz; omega
    have s3 : b * mc + csz M mc b ≤ M := by unfold csz; omega
    have s4 : b' * mc + csz M mc b' ≤ M := by unfold csz; omega
    obtain ⟨i, j, h1⟩ := sub_disj hld h s3 h' s4
    exact chunk_disj hne (x := i) h1.1 (by omega) (by omega) (by omega)
  · intro b a hb h
    replace hb := (nIter_lt hmc).mp hb
    have s3 : b * mc + csz M mc b ≤ M := by unfold csz; omega
    exact sCA a (sub_cell h s3 (by omega))
  · intro b m m' _ h hA'; exact matAt_congr h hA'
  · rintro b ⟨s1, s2⟩ m hb hs hJm hF
    obtain ⟨hs1, hs2⟩ := Prod.mk.inj hs
    clear hs
    change wp (gemmIStep _ t M nj nk ALPHA LDA L aPack bPack b s1 s2) m _
    replace hb := (nIter_lt hmc).mp hb
    have hmb : min (b * mc) M = b * mc := by omega
    have s0 : csz M mc b ≤ mc := by unfold csz; omega
    have s3 : b * mc + csz M mc b ≤ M := by unfold csz; omega
    have hmin : min ((M:Int) - (b:Int) * mc) (mc:Int) = ((csz M mc b : Nat) : Int) := csz_cast hb
    have hbufle : (csz M mc b + 1)/2 * nk ≤ (mc+1)/2 * nk := Nat.mul_le_mul_right nk (by omega)
    have hbsub : ∀ a, InBuf aPack (8 * (((csz M mc b + 1)/2 * nk : Nat) : Int)) a →
        InBuf aPack capA a := by intro a ha; unfold InBuf at *; omega
    have hout : ∀ a, ¬ MatCell Cj L M nj a → ¬ InBuf aPack capA a → m a = m0 a := by
      intro a ha ha'
      apply hF a ha'
      intro k hk hc
      have s5 : k * mc + csz M mc k ≤ M := by
        have : k * mc ≤ b * mc := Nat.mul_le_mul_right mc (by omega)
        unfold csz; omega
      exact ha (sub_cell hc s5 (by omega))
    rw [hmb] at hs1 hs2
    unfold gemmIStep
    dsimp only
    rw [wp_bind, wp_pure, hmin, wp_bind, aPackSel_eq]
    subst hs1 hs2
    refine wp_mono (packGen_wp (E := fun i k => E (b*mc+i) (0+k)) ?_ ?_ ?_) ?_
    · refine smatAt_congr ?_ (ssub_at hA s3 (by omega))
      intro a ha
      have := ssub_cell ha s3 (by omega : 0 + nk ≤ nk)
      exact (hout a (sAC a this) (sAA a this)).symm
    · intro a ha; exact hJm a (hbsub a ha)
    · intro a ha hc
      exact sAA a (ssub_cell ha s3 (by omega : 0 + nk ≤ nk)) (hbsub a hc)
    · rintro _ m1 ⟨hP, hfr⟩
      have hfr' : ∀ a, ¬ InBuf aPack capA a → m1 a = m a := fun a ha => hfr a (fun h => ha (hbsub a h))
      rw [wp_bind]
      refine wp_mono (gemmJJ_wp (c := fun i j => c (b*mc+i) (0+j)) (by omega) hP (xb := xb) ?_ haA haB
        ?_ ?_ ?_ h2k (hi2.mono (by omega) (by omega)) hj2 hL32) ?_
      · refine packAt_congr ?_ hB
        intro a ha
        rw [hfr' a (sBA a ha)]
        refine (hout a ?_ (sBA a ha)).symm
        intro hc; exact sCB a hc ha
      · refine matAt_congr ?_ (sub_at hC s3 (by omega))
        intro a ha
        have hca := sub_cell ha s3 (by omega : 0 + nj ≤ nj)
        rw [hfr' a (sCA a hca)]
        symm
        apply hF a (sCA a hca)
        intro k hk hc
        have hk' : k * mc + mc ≤ b * mc := by
          have : (k+1) * mc ≤ b * mc := Nat.mul_le_mul_right mc (by omega)
          rw [Nat.add_mul, Nat.one_mul] at this; exact this
        have s5 : k * mc + csz M mc k ≤ M := by unfold csz; omega
        have s6 : csz M mc k ≤ mc := by unfold csz; omega
        obtain ⟨i, j, h1⟩ := sub_disj hld ha s3 hc s5
        omega
      · intro a ha hc
        exact sCA a (sub_cell ha s3 (by omega : 0 + nj ≤ nj)) (hbsub a hc)
      · intro a ha hc
        exact sCB a (sub_cell ha s3 (by omega : 0 + nj ≤ nj)) hc
      · rintro _ m2 ⟨h1, h2⟩
        rw [wp_bind, wp_advance (fun _ => hadv _ s0 (by omega)), wp_bind,
          wp_i32F (hM32.mono (by positivity) ?_), wp_pure]
        · refine ⟨?_, ?_, ?_, ?_⟩
          · have hst : min ((b+1) * mc) M = b * mc + csz M mc b := by rw [cut_step hb, hmb]
            rw [hst]
            refine Prod.ext ?_ ?_
            · change _ = Ap + 4 * (((b * mc + csz M mc b : Nat):Int) * rs t LDA + ((0:Nat):Int) * cs t LDA)
              rw [← rs]; push_cast; ring
            · change _ = Cj + 4 * (((b * mc + csz M mc b : Nat):Int) + ((0:Nat):Int) * L)
              push_cast; ring
          · refine matAt_ext ?_ h1
            intro i j hi hj
            simp only [Nat.zero_add]
            refine accum_congr ?_ (fun _ _ => rfl)
            intro k hk
            unfold packElt
            rw [if_pos hi]
          · intro a ha
            rw [h2 a (fun hc => sCA a (sub_cell hc s3 (by omega : 0 + nj ≤ nj)) ha)]
            by_cases hx : InBuf aPack (8 * (((csz M mc b + 1)/2 * nk : Nat) : Int)) a
            · exact packAt_isSome hP hx
            · rw [hfr a hx]; exact hJm a ha
          · intro a ha ha'
            rw [h2 a ha, hfr' a ha']
        · have : (b:Int) * mc < M := by exact_mod_cast hb
          omega
  · intro m hJm hP hF
    refine ⟨?_, hJm, ?_⟩
    · intro i j hi hj
      obtain ⟨h1, h2, h3⟩ := chunk_of hmc hi
      have := hP (i/mc) h1 (i%mc) j h2 hj
      rw [sub_entry] at this
      simp only [Nat.zero_add, ← h3] at this
      exact this
    · intro a ha ha'
      apply hF a ha'
      intro k hk hc
      replace hk := (nIter_lt hmc).mp hk
      have s5 : k * mc + csz M mc k ≤ M := by unfold csz; omega
      exact ha (sub_cell hc s5 (by omega))

theorem gemmK_wp {mc kc M nj K : Nat} {nc : Int} {tA tB : Char} {ALPHA : Scal F}
    {A LDA Bj LDB Cj L aPack bPack capA capB : Int} {EA EB c : Nat → Nat → Quat F} {m0 : Mem F}
    (hmc : 0 < mc) (hkc : 0 < kc) (hld : (M:Int) ≤ L)
    (hA : SMatAt m0 A (rs tA LDA) (cs tA LDA) M K EA)
    (hB : SMatAt m0 Bj (cs tB LDB) (rs tB LDB) nj K EB)
    (haA : aligned32 aPack = true) (haB : aligned32 bPack = true)
    (hC : MatAt m0 Cj L M nj c)
    (hcapA : 8 * (((mc+1)/2 * kc : Nat) : Int) ≤ capA)
    (hcapB : 8 * (((nj+1)/2 * kc : Nat) : Int) ≤ capB)
    (hJ : ∀ a, InBuf aPack capA a ∨ InBuf bPack capB a → (m0 a).isSome)
    (sCA : ∀ a, MatCell Cj L M nj a → ¬ InBuf aPack capA a)
    (sCB : ∀ a, MatCell Cj L M nj a → ¬ InBuf bPack capB a)
    (sAA : ∀ a, SMatCell A (rs tA LDA) (cs tA LDA) M K a → ¬ InBuf aPack capA a)
    (sAB : ∀ a, SMatCell A (rs tA LDA) (cs tA LDA) M K a → ¬ InBuf bPack capB a)
    (sAC : ∀ a, SMatCell A (rs tA LDA) (cs tA LDA) M K a → ¬ MatCell Cj L M nj a)
    (sBA : ∀ a, SMatCell Bj (cs tB LDB) (rs tB LDB) nj K a → ¬ InBuf aPack capA a)
    (sBB : ∀ a, SMatCell Bj (cs tB LDB) (rs tB LDB) nj K a → ¬ InBuf bPack capB a)
    (sBC : ∀ a, SMatCell Bj (cs tB LDB) (rs tB LDB) nj K a → ¬ MatCell Cj L M nj a)
    (sbuf : ∀ a, InBuf bPack capB a → ¬ InBuf aPack capA a)
    (h2k : Fits32 (2 * kc)) (hi2 : Fits32 ((mc:Int) + 2)) (hj2 : Fits32 ((nj:Int) + 2))
    (hL32 : Fits32 (2 * L)) (hM32 : Fits32 ((M:Int) + mc)) (hK32 : Fits32 ((K:Int) + kc))
    (hadvM : ∀ n : Nat, n ≤ mc → n ≤ M → Fits32 ((n:Int) * LDA))
    (hadvA : ∀ n : Nat, n ≤ kc → n ≤ K → Fits32 ((n:Int) * LDA))
    (hadvB : ∀ n : Nat, n ≤ kc → n ≤ K → Fits32 ((n:Int) * LDB)) :
    wp (gemmK ⟨mc, nc, kc⟩ tA tB M nj K ALPHA A LDA Bj LDB Cj L aPack bPack) m0 (fun _ m =>
      MatAt m Cj L M nj (fun i j =>
        accum (fun k => preOP (isCj tA) (loadScalar (some ALPHA)) (EA i k))
          (fun k => preOP (isCj tB) (loadScalar none) (EB j k)) K (c i j)) ∧
      (∀ a, InBuf aPack capA a ∨ InBuf bPack capB a → (m a).isSome) ∧
      (∀ a, ¬ MatCell Cj L M nj a → ¬ (InBuf aPack capA a ∨ InBuf bPack capB a) → m a = m0 a)) := by
  unfold gemmK
  rw [wp_bind]
  refine wp_mono ?_ (fun _ _ h => wp_pure.mpr h)
  refine wp_foldN (fun b s m =>
    s = (A + 4 * (((0:Nat):Int) * rs tA LDA + ((min (b * kc) K : Nat):Int) * cs tA LDA),
      Bj + 4 * (((0:Nat):Int) * cs tB LDB + ((min (b * kc) K : Nat):Int) * rs tB LDB)) ∧
    MatAt m Cj L M nj (fun i j =>
      accum (fun k => preOP (isCj tA) (loadScalar (some ALPHA)) (EA i k))
        (fun k => preOP (isCj tB) (loadScalar none) (EB j k)) (min (b * kc) K) (c i j)) ∧
    (∀ a, InBuf aPack capA a ∨ InBuf bPack capB a → (m a).isSome) ∧
    (∀ a, ¬ MatCell Cj L M nj a → ¬ (InBuf aPack capA a ∨ InBuf bPack capB a) → m a = m0 a))
    ?_ ?_ ?_
  · refine ⟨by simp, ?_, hJ, fun _ _ _ => rfl⟩
    rw [Nat.zero_mul, Nat.zero_min]
    exact hC
  · rintro b ⟨s1, s2⟩ m hb ⟨hs, hCm, hJm, hF⟩
    obtain ⟨hs1, hs2⟩ := Prod.mk.inj hs
    clear hs
    change wp (gemmKStep _ tA tB M nj K ALPHA LDA LDB Cj L aPack bPack b s1 s2) m _
    replace hb := (nIter_lt hkc).mp hb
    have hmb : min (b * kc) K = b * kc := by omega
    have s0 : csz K kc b ≤ kc := by unfold csz; omega
    have s3 : b * kc + csz K kc b ≤ K := by unfold csz; omega
    have hmin : min ((K:Int) - (b:Int) * kc) (kc:Int) = ((csz K kc b : Nat) : Int) := csz_cast hb
    have hst : min ((b+1) * kc) K = b * kc + csz K kc b := by rw [cut_step hb, hmb]
    have hble : (nj + 1)/2 * csz K kc b ≤ (nj+1)/2 * kc := Nat.mul_le_mul_left _ s0
    have hale : (mc + 1)/2 * csz K kc b ≤ (mc+1)/2 * kc := Nat.mul_le_mul_left _ s0
    have hbsub : ∀ a, InBuf bPack (8 * (((nj + 1)/2 * csz K kc b : Nat) : Int)) a →
        InBuf bPack capB a := by intro a ha; unfold InBuf at *; omega
    rw [hmb] at hs1 hs2 hCm
    unfold gemmKStep
    dsimp only
    rw [wp_bind, wp_pure, hmin, wp_bind, bPackSel_eq]
    subst hs1 hs2
    have hAm : SMatAt m A (rs tA LDA) (cs tA LDA) M K EA := by
      refine smatAt_congr ?_ hA
      intro a ha
      exact (hF a (sAC a ha) (fun h => h.elim (sAA a ha) (sAB a ha))).symm
    have hBm : SMatAt m Bj (cs tB LDB) (rs tB LDB) nj K EB := by
      refine smatAt_congr ?_ hB
      intro a ha
      exact (hF a (sBC a ha) (fun h => h.elim (sBA a ha) (sBB a ha))).symm
    refine wp_mono (packGen_wp (E := fun j k => EB (0+j) (b*kc+k)) (ssub_at hBm (by omega) s3) ?_ ?_) ?_
    · intro a ha; exact hJm a (Or.inr (hbsub a ha))
    · intro a ha hc
      exact sBB a (ssub_cell ha (by omega : 0 + nj ≤ nj) s3) (hbsub a hc)
    · rintro _ m1 ⟨hP, hfr⟩
      have hfr' : ∀ a, ¬ InBuf bPack capB a → m1 a = m a := fun a ha => hfr a (fun h => ha (hbsub a h))
      rw [wp_bind]
      refine wp_mono (gemmI_wp (capA := capA) (E := fun i k => EA (0+i) (b*kc+k)) hmc hld ?_ hP haA haB
        (matAt_congr ?_ hCm) ?_ ?_ sCA ?_ ?_ ?_ ?_ (h2k.mono (by omega) (by omega)) hi2 hj2 hL32 hM32
        hadvM) ?_
      · refine smatAt_congr ?_ (ssub_at hAm (by omega) s3)
        intro a ha
        exact (hfr' a (sAB a (ssub_cell ha (by omega : 0 + M ≤ M) s3))).symm
      · intro a ha; exact (hfr' a (sCB a ha)).symm
      · omega
      · intro a ha
        rw [hfr' a (fun h => sbuf a h ha)]
        exact hJm a (Or.inl ha)
      · intro a ha hc; exact sCB a ha (hbsub a hc)
      · intro a ha; exact sAA a (ssub_cell ha (by omega : 0 + M ≤ M) s3)
      · intro a ha; exact sAC a (ssub_cell ha (by omega : 0 + M ≤ M) s3)
      · intro a ha; exact sbuf a (hbsub a ha)
      · rintro _ m2 ⟨h1, h2, h3⟩
        rw [wp_bind, wp_advance (fun _ => hadvA _ s0 (by omega)), wp_bind,
          wp_advance (fun _ => hadvB _ s0 (by omega)), wp_bind,
          wp_i32F (hK32.mono (by positivity) ?_), wp_pure]
        · refine ⟨?_, ?_, ?_, ?_⟩
          · rw [hst]
            refine Prod.ext ?_ ?_
            · change _ = A + 4 * (((0:Nat):Int) * rs tA LDA +
                ((b * kc + csz K kc b : Nat):Int) * cs tA LDA)
              have : (if ¬ (tA = 'T' ∨ tA = 'C') then LDA else 1) = cs tA LDA := by
                unfold cs; by_cases h : tA = 'T' ∨ tA = 'C' <;> simp [h]
              rw [this]; push_cast; ring
            · change _ = Bj + 4 * (((0:Nat):Int) * cs tB LDB +
                ((b * kc + csz K kc b : Nat):Int) * rs tB LDB)
              rw [← rs]; push_cast; ring
          · refine matAt_ext ?_ h1
            intro i j hi hj
            rw [hst, accum_add]
            simp only [Nat.zero_add]
            refine accum_congr (fun _ _ => rfl) ?_
            intro k hk
            unfold packElt
            rw [if_pos hj]
          · intro a ha
            by_cases hxA : InBuf aPack capA a
            · exact h2 a hxA
            · have hxB : InBuf bPack capB a := ha.resolve_left hxA
              rw [h3 a (fun h => sCB a h hxB) hxA]
              by_cases hx : InBuf bPack (8 * (((nj + 1)/2 * csz K kc b : Nat) : Int)) a
              · exact packAt_isSome hP hx
              · rw [hfr a hx]; exact hJm a ha
          · intro a ha ha'
            rw [h3 a ha (fun h => ha' (Or.inl h)), hfr' a (fun h => ha' (Or.inr h)), hF a ha ha']
        · have : (b:Int) * kc < K := by exact_mod_cast hb
          omega
  · rintro s m ⟨-, h1, h2, h3⟩
    refine ⟨?_, h2, h3⟩
    have : min (nIter (K:Int) (kc:Int) * kc) K = K := by
      have := (nIter_lt (n := K) (b := nIter (K:Int) (kc:Int)) hkc)
      omega
    rw [this] at h1
    exact h1

theorem gemmJ_wp {mc nc kc M N K : Nat} {tA tB : Char} {ALPHA : Scal F}
    {A LDA B LDB C L aPack bPack capA capB : Int} {EA EB c : Nat → Nat → Quat F} {m0 : Mem F}
    (hmc : 0 < mc) (hnc : 0 < nc) (hkc : 0 < kc) (hld : (M:Int) ≤ L)
    (hA : SMatAt m0 A (rs tA LDA) (cs tA LDA) M K EA)
    (hB : SMatAt m0 B (cs tB LDB) (rs tB LDB) N K EB)
    (haA : aligned32 aPack = true) (haB : aligned32 bPack = true)
    (hC : MatAt m0 C L M N c)
    (hcapA : 8 * (((mc+1)/2 * kc : Nat) : Int) ≤ capA)
    (hcapB : 8 * (((nc+1)/2 * kc : Nat) : Int) ≤ capB)
    (hJ : ∀ a, InBuf aPack capA a ∨ InBuf bPack capB a → (m0 a).isSome)
    (sC : ∀ a, MatCell C L M N a → ¬ (InBuf aPack capA a ∨ InBuf bPack capB a))
    (sA : ∀ a, SMatCell A (rs tA LDA) (cs tA LDA) M K a → ¬ (InBuf aPack capA a ∨ InBuf bPack capB a))
    (sB : ∀ a, SMatCell B (cs tB LDB) (rs tB LDB) N K a → ¬ (InBuf aPack capA a ∨ InBuf bPack capB a))
    (sAC : ∀ a, SMatCell A (rs tA LDA) (cs tA LDA) M K a → ¬ MatCell C L M N a)
    (sBC : ∀ a, SMatCell B (cs tB LDB) (rs tB LDB) N K a → ¬ MatCell C L M N a)
    (sbuf : ∀ a, InBuf bPack capB a → ¬ InBuf aPack capA a)
    (h2k : Fits32 (2 * kc)) (hi2 : Fits32 ((mc:Int) + 2)) (hj2 : Fits32 ((nc:Int) + 2))
    (hL32 : Fits32 (2 * L)) (hM32 : Fits32 ((M:Int) + mc)) (hK32 : Fits32 ((K:Int) + kc))
    (hN32 : Fits32 ((N:Int) + nc))
    (hadvM : ∀ n : Nat, n ≤ mc → n ≤ M → Fits32 ((n:Int) * LDA))
    (hadvA : ∀ n : Nat, n ≤ kc → n ≤ K → Fits32 ((n:Int) * LDA))
    (hadvB : ∀ n : Nat, n ≤ kc → n ≤ K → Fits32 ((n:Int) * LDB))
    (hadvBN : ∀ n : Nat, n ≤ nc → n ≤ N → Fits32 ((n:Int) * LDB))
    (hadvC : ∀ n : Nat, n ≤ nc → n ≤ N → Fits32 ((n:Int) * L)) :
    wp (gemmJ ⟨mc, nc, kc⟩ tA tB M N K ALPHA A LDA B LDB C L aPack bPack) m0 (fun _ m =>
      MatAt m C L M N (fun i j =>
        accum (fun k => preOP (isCj tA) (loadScalar (some ALPHA)) (EA i k))
          (fun k => preOP (isCj tB) (loadScalar none) (EB j k)) K (c i j)) ∧
      (∀ a, ¬ MatCell C L M N a → ¬ (InBuf aPack capA a ∨ InBuf bPack capB a) → m a = m0 a)) := by
  unfold gemmJ
  rw [wp_bind]
  refine wp_mono ?_ (fun _ _ h => wp_pure.mpr h)
  refine wp_region_se
    (fun b => (C + 4 * (((0:Nat):Int) + ((min (b * nc) N : Nat):Int) * L),
      B + 4 * (((min (b * nc) N : Nat):Int) * cs tB LDB + ((0:Nat):Int) * rs tB LDB)))
    (fun b a => MatCell (C + 4 * (((0:Nat):Int) + ((b * nc : Nat):Int) * L)) L M (csz N nc b) a)
    (fun a => InBuf aPack capA a ∨ InBuf bPack capB a)
    (fun m => ∀ a, InBuf aPack capA a ∨ InBuf bPack capB a → (m a).isSome)
    (fun b m => MatAt m (C + 4 * (((0:Nat):Int) + ((b * nc : Nat):Int) * L)) L M (csz N nc b)
      (fun i j => accum (fun k => preOP (isCj tA) (loadScalar (some ALPHA)) (EA (0+i) k))
          (fun k => preOP (isCj tB) (loadScalar none) (EB (b*nc+j) k)) K (c (0+i) (b*nc+j))))
    ?_ ?_ ?_ ?_ hJ ?_ ?_
  · simp
  · intro b b' a hb hb' hne h h'
    have s1 : csz N nc b ≤ nc := by unfold csz; omega
    have s2 : csz N nc b' ≤ nc := by unfold csz; omega
    obtain ⟨i, j, h1⟩ := sub_disj hld h (by omega) h' (by omega)
    exact chunk_disj (s := nc) hne (x := j) (by omega) (by omega) (by omega) (by omega)
  · intro b a hb h
    replace hb := (nIter_lt hnc).mp hb
    have s3 : b * nc + csz N nc b ≤ N := by unfold csz; omega
    exact sC a (sub_cell h (by omega) s3)
  · intro b m m' _ h hA'; exact matAt_congr h hA'
  · rintro b ⟨s1, s2⟩ m hb hs hJm hF
    obtain ⟨hs1, hs2⟩ := Prod.mk.inj hs
    clear hs
    change wp (gemmJStep _ tA tB M N K ALPHA A LDA LDB L aPack bPack b s1 s2) m _
    replace hb := (nIter_lt hnc).mp hb
    have hmb : min (b * nc) N = b * nc := by omega
    have s0 : csz N nc b ≤ nc := by unfold csz; omega
    have s3 : b * nc + csz N nc b ≤ N := by unfold csz; omega
    have hmin : min ((N:Int) - (b:Int) * nc) (nc:Int) = ((csz N nc b : Nat) : Int) := csz_cast hb
    have hst : min ((b+1) * nc) N = b * nc + csz N nc b := by rw [cut_step hb, hmb]
    have hble : (csz N nc b + 1)/2 * kc ≤ (nc+1)/2 * kc := Nat.mul_le_mul_right kc (by omega)
    have hsubC : ∀ a, MatCell (C + 4 * (((0:Nat):Int) + ((b * nc : Nat):Int) * L)) L M (csz N nc b) a →
        MatCell C L M N a := fun a ha => sub_cell ha (by omega) s3
    have hsubB : ∀ a, SMatCell (B + 4 * (((b * nc : Nat):Int) * cs tB LDB + ((0:Nat):Int) * rs tB LDB))
        (cs tB LDB) (rs tB LDB) (csz N nc b) K a → SMatCell B (cs tB LDB) (rs tB LDB) N K a :=
      fun a ha => ssub_cell ha s3 (by omega)
    have hout : ∀ a, ¬ MatCell C L M N a → ¬ (InBuf aPack capA a ∨ InBuf bPack capB a) →
        m a = m0 a := by
      intro a ha ha'
      apply hF a ha'
      intro k hk hc
      have s5 : k * nc + csz N nc k ≤ N := by
        have : k * nc ≤ b * nc := Nat.mul_le_mul_right nc (by omega)
        unfold csz; omega
      exact ha (sub_cell hc (by omega) s5)
    rw [hmb] at hs1 hs2
    unfold gemmJStep
    dsimp only
    rw [wp_bind, wp_pure, hmin, wp_bind]
    subst hs1 hs2
    refine wp_mono (gemmK_wp (capA := capA) (capB := capB) (EA := fun i k => EA (0+i) k)
      (EB := fun j k => EB (b*nc+j) (0+k)) (c := fun i j => c (0+i) (b*nc+j)) hmc hkc hld ?_ ?_ haA haB
      ?_ hcapA (by omega) hJm ?_ ?_ ?_ ?_ ?_ ?_ ?_ ?_ sbuf h2k hi2 (hj2.mono (by omega) (by omega))
      hL32 hM32 hK32 hadvM hadvA hadvB) ?_
    · simp only [Nat.zero_add]
      refine smatAt_congr ?_ hA
      intro a ha
      exact (hout a (sAC a ha) (sA a ha)).symm
    · refine smatAt_congr ?_ (ssub_at hB s3 (by omega))
      intro a ha
      exact (hout a (sBC a (hsubB a ha)) (sB a (hsubB a ha))).symm
    · refine matAt_congr ?_ (sub_at hC (by omega) s3)
      intro a ha
      symm
      apply hF a (sC a (hsubC a ha))
      intro k hk hc
      have hk' : k * nc + nc ≤ b * nc := by
        have : (k+1) * nc ≤ b * nc := Nat.mul_le_mul_right nc (by omega)
        rw [Nat.add_mul, Nat.one_mul] at this; exact this
      have s6 : csz N nc k ≤ nc := by unfold csz; omega
      obtain ⟨i, j, h1⟩ := sub_disj hld ha (by omega) hc (by omega)
      omega
    · intro a ha h; exact sC a (hsubC a ha) (Or.inl h)
    · intro a ha h; exact sC a (hsubC a ha) (Or.inr h)
    · intro a ha h; exact sA a ha (Or.inl h)
    · intro a ha h; exact sA a ha (Or.inr h)
    · intro a ha h; exact sAC a ha (hsubC a h)
    · intro a ha h; exact sB a (hsubB a ha) (Or.inl h)
    · intro a ha h; exact sB a (hsubB a ha) (Or.inr h)
    · intro a ha h; exact sBC a (hsubB a ha) (hsubC a h)
    · rintro _ m2 ⟨h1, h2, h3⟩
      rw [wp_bind, wp_i32F (hadvC _ s0 (by omega)), wp_bind,
        wp_advance (fun _ => hadvBN _ s0 (by omega)), wp_bind,
        wp_i32F (hN32.mono (by positivity) ?_), wp_pure]
      · refine ⟨?_, ?_, h2, h3⟩
        · rw [hst]
          refine Prod.ext ?_ ?_
          · change _ = C + 4 * (((0:Nat):Int) + ((b * nc + csz N nc b : Nat):Int) * L)
            push_cast; ring
          · change _ = B + 4 * (((b * nc + csz N nc b : Nat):Int) * cs tB LDB + ((0:Nat):Int) * rs tB LDB)
            have : (if ¬ (tB = 'T' ∨ tB = 'C') then LDB else 1) = cs tB LDB := by
              unfold cs; by_cases h : tB = 'T' ∨ tB = 'C' <;> simp [h]
            rw [this]; push_cast; ring
        · simpa only [Nat.zero_add] using h1
      · have : (b:Int) * nc < N := by exact_mod_cast hb
        omega
  · intro m hJm hP hF
    refine ⟨?_, ?_⟩
    · intro i j hi hj
      obtain ⟨h1, h2, h3⟩ := chunk_of hnc hj
      have := hP (j/nc) h1 i (j%nc) hi h2
      rw [sub_entry] at this
      simp only [Nat.zero_add, ← h3] at this
      exact this
    · intro a ha ha'
      apply hF a ha'
      intro k hk hc
      replace hk := (nIter_lt hnc).mp hk
      have s5 : k * nc + csz N nc k ≤ N := by unfold csz; omega
      exact ha (sub_cell hc (by omega) s5)

end

end Haxx
