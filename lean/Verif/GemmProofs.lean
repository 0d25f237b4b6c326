import Verif.GemmKern

/-! Correctness of the blocked GEMM driver. -/

namespace Haxx
open Arith

variable {F : Type}

/-! ### Sub-blocks -/

theorem sub_entry (C L : Int) (i0 j0 i j : Nat) :
    C + 4 * ((i0:Int) + j0 * L) + 4 * ((i:Int) + j * L) =
      C + 4 * (((i0 + i : Nat) : Int) + ((j0 + j : Nat) : Int) * L) := by push_cast; ring

theorem sub_cell {C L : Int} {i0 j0 r c M N : Nat} {a : Int}
    (h : MatCell (C + 4 * ((i0:Int) + j0 * L)) L r c a) (hr : i0 + r ≤ M) (hc : j0 + c ≤ N) :
    MatCell C L M N a := by
  obtain ⟨i, j, hi, hj, h⟩ := h
  rw [sub_entry] at h
  exact ⟨i0 + i, j0 + j, by omega, by omega, h⟩

theorem sub_disj {C L : Int} {i0 j0 r c i0' j0' r' c' M : Nat} {a : Int} (hM : (M:Int) ≤ L)
    (h : MatCell (C + 4 * ((i0:Int) + j0 * L)) L r c a) (hr : i0 + r ≤ M)
    (h' : MatCell (C + 4 * ((i0':Int) + j0' * L)) L r' c' a) (hr' : i0' + r' ≤ M) :
    ∃ i j, i0 ≤ i ∧ i < i0 + r ∧ j0 ≤ j ∧ j < j0 + c ∧ i0' ≤ i ∧ i < i0' + r' ∧ j0' ≤ j ∧
      j < j0' + c' := by
  obtain ⟨i, j, hi, hj, h⟩ := h
  obtain ⟨i', j', hi', hj', h'⟩ := h'
  rw [sub_entry] at h h'
  obtain ⟨e1, e2⟩ := mat_unique (r := M) hM (by omega) (by omega) h h'
  exact ⟨i0 + i, j0 + j, by omega, by omega, by omega, by omega, by omega, by omega, by omega,
    by omega⟩

theorem sub_at {m : Mem F} {C L : Int} {i0 j0 r c M N : Nat} {A : Nat → Nat → Quat F}
    (h : MatAt m C L M N A) (hr : i0 + r ≤ M) (hc : j0 + c ≤ N) :
    MatAt m (C + 4 * ((i0:Int) + j0 * L)) L r c (fun i j => A (i0 + i) (j0 + j)) := by
  intro i j hi hj
  rw [sub_entry]
  exact h _ _ (by omega) (by omega)

theorem matAt_congr {m m' : Mem F} {C L : Int} {r c : Nat} {A : Nat → Nat → Quat F}
    (h : ∀ a, MatCell C L r c a → m a = m' a) (hA : MatAt m C L r c A) : MatAt m' C L r c A := by
  intro i j hi hj
  rw [← hA i j hi hj]
  exact (readQ_congr (fun a ha => h a ⟨i, j, hi, hj, ha⟩)).symm

theorem matAt_ext {m : Mem F} {C L : Int} {r c : Nat} {A B : Nat → Nat → Quat F}
    (h : ∀ i j, i < r → j < c → A i j = B i j) (hA : MatAt m C L r c A) : MatAt m C L r c B := by
  intro i j hi hj
  rw [hA i j hi hj, h i j hi hj]

/-! ### Chunked loops -/

theorem nIter_nat (n s : Nat) (hs : 0 < s) : nIter n s = (n + s - 1) / s := by
  unfold nIter
  have : ((n:Int) + s - 1) = ((n + s - 1 : Nat) : Int) := by omega
  rw [this, ← Int.natCast_ediv, Int.toNat_natCast]

theorem nIter_lt {n s b : Nat} (hs : 0 < s) : b < nIter n s ↔ b * s < n := by
  rw [nIter_nat n s hs, Nat.lt_iff_add_one_le, Nat.le_div_iff_mul_le hs, Nat.add_mul, Nat.one_mul]
  omega

theorem nIter_nonpos {N s : Int} (hs : 0 < s) (hN : N ≤ 0) : nIter N s = 0 := by
  unfold nIter
  have : (N + s - 1) / s ≤ 0 := by
    have h1 : (N + s - 1) / s ≤ (s - 1) / s := Int.ediv_le_ediv hs (by omega)
    have h2 : (s - 1) / s = 0 := Int.ediv_eq_zero_of_lt (by omega) (by omega)
    omega
  omega

/-- The number of items of chunk `b`. -/
def csz (n s b : Nat) : Nat := min (n - b * s) s

theorem csz_cast {n s b : Nat} (h : b * s < n) :
    min ((n:Int) - (b:Int) * s) (s:Int) = ((csz n s b : Nat) : Int) := by
  unfold csz
  push_cast [Nat.cast_sub (Nat.le_of_lt h)]
  rfl

theorem cut_step {n s b : Nat} (h : b * s < n) : min ((b+1) * s) n = min (b * s) n + csz n s b := by
  unfold csz
  have : (b+1) * s = b * s + s := by ring
  omega

theorem chunk_of {n s i : Nat} (hs : 0 < s) (h : i < n) :
    (i / s) < nIter n s ∧ i % s < csz n s (i/s) ∧ i = (i/s) * s + i % s := by
  have h1 : i = (i/s) * s + i % s := by rw [Nat.mul_comm]; exact (Nat.div_add_mod i s).symm
  have h2 : i % s < s := Nat.mod_lt _ hs
  refine ⟨(nIter_lt hs).mpr (by omega), ?_, h1⟩
  unfold csz; omega

theorem chunk_disj {s b b' : Nat} (h : b ≠ b') {x : Nat} (h1 : b * s ≤ x) (h2 : x < b * s + s)
    (h3 : b' * s ≤ x) (h4 : x < b' * s + s) : False := by
  rcases Nat.lt_or_gt_of_ne h with h' | h'
  · have : (b+1) * s ≤ b' * s := Nat.mul_le_mul_right s (by omega)
    rw [Nat.add_mul, Nat.one_mul] at this; omega
  · have : (b'+1) * s ≤ b * s := Nat.mul_le_mul_right s (by omega)
    rw [Nat.add_mul, Nat.one_mul] at this; omega

theorem Fits32.mono {x y : Int} (h : Fits32 y) (h0 : 0 ≤ x) (h1 : x ≤ y) : Fits32 x :=
  ⟨by linarith, by linarith [h.2]⟩

theorem wp_i32F {x : Int} {m : Mem F} {Q : Int → Mem F → Prop} (h : Fits32 x) :
    wp (i32 x) m Q ↔ Q x m := wp_i32 h

section
variable [Arith F]

/-! ### The register-tile loops -/

theorem nIter_lt2 {n b : Nat} : b < nIter n 2 ↔ b * 2 < n := by
  have := nIter_lt (n := n) (s := 2) (b := b) (by omega)
  simpa using this

theorem gemmII_wp {mi nn nk : Nat} {aPack BL1 C L : Int} {xa xb c : Nat → Nat → Quat F}
    {m0 : Mem F} (hnn : nn = 1 ∨ nn = 2) (hld : (mi:Int) ≤ L)
    (hA : PackAt m0 aPack opT1 ((mi+1)/2) nk xa)
    (hB : ∀ k, k < nk → PairAt m0 (BL1 + 8 * k) (opT2 (xb 0 k, xb 1 k)))
    (haA : aligned32 aPack = true) (haB : aligned32 BL1 = true)
    (hC : MatAt m0 C L mi nn c)
    (hsA : ∀ a, MatCell C L mi nn a → ¬ InBuf aPack (8 * (((mi+1)/2 * nk : Nat) : Int)) a)
    (hsB : ∀ a, MatCell C L mi nn a → ¬ InBuf BL1 (8 * (nk:Int)) a)
    (h2k : Fits32 (2 * nk)) (hi32 : Fits32 ((mi:Int) + 2)) :
    wp (gemmII mi nn nk aPack BL1 C L) m0 (fun _ m =>
      MatAt m C L mi nn (fun i j => accum (xa i) (xb j) nk (c i j)) ∧
      SameOutside (MatCell C L mi nn) m0 m) := by
  unfold gemmII
  rw [wp_bind]
  refine wp_mono ?_ (fun _ _ h => wp_pure.mpr h)
  refine wp_region_e
    (fun b => (C + 4 * (((b * 2 : Nat):Int) + ((0:Nat):Int) * L), aPack + 8 * ((b * nk : Nat) : Int)))
    (fun b a => MatCell (C + 4 * (((b * 2 : Nat):Int) + ((0:Nat):Int) * L)) L (csz mi 2 b) nn a)
    (fun b m => MatAt m (C + 4 * (((b * 2 : Nat):Int) + ((0:Nat):Int) * L)) L (csz mi 2 b) nn
      (fun i j => accum (xa (b*2+i)) (xb (0+j)) nk (c (b*2+i) (0+j))))
    ?_ ?_ ?_ ?_ ?_
  · simp
  · intro b b' a hb hb' hne h h'
    rw [nIter_lt2] at hb hb'
    have s1 : csz mi 2 b ≤ 2 := by unfold csz; omega
    have s2 : csz mi 2 b' ≤ 2 := by unfold csz; omega
    have s3 : b * 2 + csz mi 2 b ≤ mi := by unfold csz; omega
    have s4 : b' * 2 + csz mi 2 b' ≤ mi := by unfold csz; omega
    obtain ⟨i, j, h1⟩ := sub_disj hld h s3 h' s4
    omega
  · intro b m m' _ h hA'; exact matAt_congr h hA'
  · rintro b ⟨s1, s2⟩ m hb hs hF
    obtain ⟨hs1, hs2⟩ := Prod.mk.inj hs
    clear hs
    change wp (gemmIIStep mi nn nk BL1 L b s1 s2) m _
    unfold gemmIIStep
    subst hs1 hs2
    rw [nIter_lt2] at hb
    have s3 : b * 2 + csz mi 2 b ≤ mi := by unfold csz; omega
    have hsz : csz mi 2 b = 1 ∨ csz mi 2 b = 2 := by unfold csz; omega
    have hmin : min 2 ((mi:Int) - (b:Int) * 2) = ((csz mi 2 b : Nat) : Int) := by
      rw [← csz_cast hb, min_comm]; rfl
    have hout : ∀ a, ¬ MatCell C L mi nn a → m a = m0 a := by
      intro a ha
      apply hF
      intro k hk hc
      have s5 : k * 2 + csz mi 2 k ≤ mi := by unfold csz; omega
      exact ha (sub_cell hc s5 (by omega))
    have hbn : b * nk + nk ≤ (mi+1)/2 * nk := by
      have : (b+1) * nk ≤ (mi+1)/2 * nk := Nat.mul_le_mul_right nk (by omega)
      rw [Nat.add_mul, Nat.one_mul] at this; exact this
    rw [hmin, wp_bind]
    refine wp_mono (Kern_wp (xa := fun i k => xa (b*2+i) k) (xb := fun j k => xb (0+j) k)
      (c := fun i j => c (b*2+i) (0+j)) hsz hnn (by omega) ?_ ?_ ?_ haB ?_) ?_
    · intro k hk
      have := hA b k (by omega) hk
      rw [show aPack + 8 * ((b * nk : Nat) : Int) + 8 * (k:Int) =
        aPack + 8 * ((b * nk + k : Nat) : Int) by push_cast; ring]
      rw [show 2 * b = b * 2 by ring] at this
      refine pairAt_congr ?_ this
      intro a ha
      refine (hout a ?_).symm
      intro hc
      apply hsA a hc
      unfold InBuf at *; omega
    · intro k hk
      simp only [Nat.zero_add]
      refine pairAt_congr ?_ (hB k hk)
      intro a ha
      refine (hout a ?_).symm
      intro hc
      apply hsB a hc
      unfold InBuf at *; omega
    · rw [aligned32_iff] at *; omega
    · refine matAt_congr ?_ (sub_at hC s3 (by omega))
      intro a ha
      symm
      apply hF
      intro k hk hc
      have s5 : k * 2 + csz mi 2 k ≤ mi := by unfold csz; omega
      have s6 : csz mi 2 k ≤ 2 := by unfold csz; omega
      obtain ⟨i, j, h1⟩ := sub_disj hld ha s3 hc s5
      omega
    · rintro _ m' ⟨h1, h2⟩
      rw [wp_bind, wp_i32F h2k, wp_bind, wp_i32F (hi32.mono (by positivity) (by omega)), wp_pure]
      refine ⟨?_, h1, h2⟩
      push_cast
      refine Prod.ext ?_ ?_ <;> simp only <;> ring
  · intro m hP hF
    refine ⟨?_, ?_⟩
    · intro i j hi hj
      obtain ⟨h1, h2, h3⟩ := chunk_of (s := 2) (by omega) hi
      have := hP (i/2) h1 (i%2) j h2 hj
      rw [sub_entry] at this
      simp only [Nat.zero_add, ← h3] at this
      exact this
    · intro a ha
      apply hF
      intro k hk hc
      rw [nIter_lt2] at hk
      have s5 : k * 2 + csz mi 2 k ≤ mi := by unfold csz; omega
      exact ha (sub_cell hc s5 (by omega))

theorem gemmJJ_wp {mi nj nk : Nat} {aPack bPack C L : Int} {xa xb c : Nat → Nat → Quat F}
    {m0 : Mem F} (hld : (mi:Int) ≤ L)
    (hA : PackAt m0 aPack opT1 ((mi+1)/2) nk xa)
    (hB : PackAt m0 bPack opT2 ((nj+1)/2) nk xb)
    (haA : aligned32 aPack = true) (haB : aligned32 bPack = true)
    (hC : MatAt m0 C L mi nj c)
    (hsA : ∀ a, MatCell C L mi nj a → ¬ InBuf aPack (8 * (((mi+1)/2 * nk : Nat) : Int)) a)
    (hsB : ∀ a, MatCell C L mi nj a → ¬ InBuf bPack (8 * (((nj+1)/2 * nk : Nat) : Int)) a)
    (h2k : Fits32 (2 * nk)) (hi32 : Fits32 ((mi:Int) + 2)) (hj32 : Fits32 ((nj:Int) + 2))
    (hL32 : Fits32 (2 * L)) :
    wp (gemmJJ mi nj nk aPack bPack C L) m0 (fun _ m =>
      MatAt m C L mi nj (fun i j => accum (xa i) (xb j) nk (c i j)) ∧
      SameOutside (MatCell C L mi nj) m0 m) := by
  unfold gemmJJ
  rw [wp_bind]
  refine wp_mono ?_ (fun _ _ h => wp_pure.mpr h)
  refine wp_region_e
    (fun b => (bPack + 8 * ((b * nk : Nat) : Int), C + 4 * (((0:Nat):Int) + ((b * 2 : Nat):Int) * L)))
    (fun b a => MatCell (C + 4 * (((0:Nat):Int) + ((b * 2 : Nat):Int) * L)) L mi (csz nj 2 b) a)
    (fun b m => MatAt m (C + 4 * (((0:Nat):Int) + ((b * 2 : Nat):Int) * L)) L mi (csz nj 2 b)
      (fun i j => accum (xa (0+i)) (xb (b*2+j)) nk (c (0+i) (b*2+j))))
    ?_ ?_ ?_ ?_ ?_
  · simp
  · intro b b' a hb hb' hne h h'
    rw [nIter_lt2] at hb hb'
    have s1 : csz nj 2 b ≤ 2 := by unfold csz; omega
    have s2 : csz nj 2 b' ≤ 2 := by unfold csz; omega
    obtain ⟨i, j, h1⟩ := sub_disj hld h (by omega) h' (by omega)
    omega
  · intro b m m' _ h hA'; exact matAt_congr h hA'
  · rintro b ⟨s1, s2⟩ m hb hs hF
    obtain ⟨hs1, hs2⟩ := Prod.mk.inj hs
    clear hs
    change wp (gemmJJStep mi nj nk aPack L b s1 s2) m _
    unfold gemmJJStep
    subst hs1 hs2
    rw [nIter_lt2] at hb
    have s3 : b * 2 + csz nj 2 b ≤ nj := by unfold csz; omega
    have hsz : csz nj 2 b = 1 ∨ csz nj 2 b = 2 := by unfold csz; omega
    have hmin : min 2 ((nj:Int) - (b:Int) * 2) = ((csz nj 2 b : Nat) : Int) := by
      rw [← csz_cast hb, min_comm]; rfl
    have hout : ∀ a, ¬ MatCell C L mi nj a → m a = m0 a := by
      intro a ha
      apply hF
      intro k hk hc
      have s5 : k * 2 + csz nj 2 k ≤ nj := by unfold csz; omega
      exact ha (sub_cell hc (by omega) s5)
    have hbn : b * nk + nk ≤ (nj+1)/2 * nk := by
      have : (b+1) * nk ≤ (nj+1)/2 * nk := Nat.mul_le_mul_right nk (by omega)
      rw [Nat.add_mul, Nat.one_mul] at this; exact this
    have hsub : ∀ a, MatCell (C + 4 * (((0:Nat):Int) + ((b * 2 : Nat):Int) * L)) L mi (csz nj 2 b) a →
        MatCell C L mi nj a := fun a ha => sub_cell ha (by omega) s3
    rw [hmin, wp_bind]
    refine wp_mono (gemmII_wp (xa := fun i k => xa (0+i) k) (xb := fun j k => xb (b*2+j) k)
      (c := fun i j => c (0+i) (b*2+j)) hsz hld ?_ ?_ haA ?_ ?_ ?_ ?_ h2k hi32) ?_
    · intro p k hp hk
      simp only [Nat.zero_add]
      refine pairAt_congr ?_ (hA p k hp hk)
      intro a ha
      refine (hout a ?_).symm
      intro hc
      apply hsA a hc
      have : (p+1) * nk ≤ (mi+1)/2 * nk := Nat.mul_le_mul_right nk (by omega)
      rw [Nat.add_mul, Nat.one_mul] at this
      unfold InBuf at *; omega
    · intro k hk
      have := hB b k (by omega) hk
      rw [show bPack + 8 * ((b * nk : Nat) : Int) + 8 * (k:Int) =
        bPack + 8 * ((b * nk + k : Nat) : Int) by push_cast; ring]
      rw [show 2 * b = b * 2 by ring] at this
      refine pairAt_congr ?_ this
      intro a ha
      refine (hout a ?_).symm
      intro hc
      apply hsB a hc
      unfold InBuf at *; omega
    · rw [aligned32_iff] at *; omega
    · refine matAt_congr ?_ (sub_at hC (by omega) s3)
      intro a ha
      symm
      apply hF
      intro k hk hc
      have s6 : csz nj 2 k ≤ 2 := by unfold csz; omega
      obtain ⟨i, j, h1⟩ := sub_disj hld ha (by omega) hc (by omega)
      omega
    · intro a ha; exact hsA a (hsub a ha)
    · intro a ha hc
      apply hsB a (hsub a ha)
      unfold InBuf at *; omega
    · rintro _ m' ⟨h1, h2⟩
      rw [wp_bind, wp_i32F h2k, wp_bind, wp_i32F hL32, wp_bind,
        wp_i32F (hj32.mono (by positivity) (by omega)), wp_pure]
      refine ⟨?_, h1, h2⟩
      push_cast
      refine Prod.ext ?_ ?_ <;> simp only <;> ring
  · intro m hP hF
    refine ⟨?_, ?_⟩
    · intro i j hi hj
      obtain ⟨h1, h2, h3⟩ := chunk_of (s := 2) (by omega) hj
      have := hP (j/2) h1 i (j%2) hi h2
      rw [sub_entry] at this
      simp only [Nat.zero_add, ← h3] at this
      exact this
    · intro a ha
      apply hF
      intro k hk hc
      rw [nIter_lt2] at hk
      have s5 : k * 2 + csz nj 2 k ≤ nj := by unfold csz; omega
      exact ha (sub_cell hc (by omega) s5)

end

end Haxx
