import Verif.Pack
import Verif.Generic1Proofs
import Verif.PropsHblas1

/-!
# C73: the packing templates for any packing width
-/

set_option linter.unusedSectionVars false

namespace Haxx.Pack
open Arith

variable {F : Type} [Arith F]

/-- Both templates are this program: `P` vectors at stride `sp`, `n` elements each at stride `sr`. -/
def packGen (PK : Nat) (o : Nat → List Nat) (pre : V4 F → V4 F) (OP : List (V4 F) → List (V4 F)) (P n X sp sr Xp : Int) :
    Prog F Unit := do
  let s ← foldN (P / PK).toNat (fun _ (s : Int × Int) => do
    let r ← foldN n.toNat (fun _ c => body PK o pre OP sr c) (pointerSequence PK s.1 sp, s.2)
    pure (s.1 + 4 * (PK * sp), r.2)) (X, Xp)
  let j := P % PK
  if j ≠ 0 then do
    assertP (j == 1)
    let _ ← foldN n.toNat (fun _ c => body PK o pre OP sr c) ([s.1], s.2)
    pure ()
  else pure ()

theorem TPACK_eq (PK : Nat) (o : Nat → List Nat) (pre : V4 F → V4 F) (OP : List (V4 F) → List (V4 F)) (M N X LDX Xp : Int) :
    TPACK PK o pre OP M N X LDX Xp = packGen PK o pre OP N M X LDX 1 Xp := rfl

theorem NPACK_eq (PK : Nat) (o : Nat → List Nat) (pre : V4 F → V4 F) (OP : List (V4 F) → List (V4 F)) (M N X LDX Xp : Int) :
    NPACK PK o pre OP M N X LDX Xp = packGen PK o pre OP M N X 1 LDX Xp := by
  unfold NPACK packGen
  simp only [Int.mul_one]

theorem getD_lt {α : Type} {l : List α} {d : α} {n : Nat} (h : n < l.length) : l.getD n d = l[n] := by
  simp [List.getD, h]

theorem applyLoad_wp {m : Mem F} {o : List Nat} {pre : V4 F → V4 F} {t : List Int} {e : Nat → Quat F}
    (ho : o.Perm (List.range t.length)) (ht : ∀ i, i < t.length → readQ m (t.getD i 0) = some (e i)) :
    wp (applyLoad o pre t) m (fun x m' => m' = m ∧ x = (List.range t.length).map (fun i => pre (e i))) := by
  unfold applyLoad
  rw [wp_bind]
  have hmem : ∀ n, n < o.length → o.getD n 0 < t.length := by
    intro n hn
    have h1 : o.getD n 0 ∈ o := by
      rw [getD_lt hn]; exact List.getElem_mem hn
    simpa using ho.mem_iff.mp h1
  refine wp_foldN (fun n f m' => m' = m ∧ ∀ j, j < n → f (o.getD j 0) = pre (e (o.getD j 0)))
    ⟨rfl, fun j hj => absurd hj (by omega)⟩ ?_ ?_
  · rintro n f m' hn ⟨rfl, hf⟩
    rw [wp_bind, wp_loadQ (ht _ (hmem n hn)), wp_pure]
    refine ⟨rfl, ?_⟩
    intro j hj
    by_cases h : o.getD j 0 = o.getD n 0
    · show (if _ then _ else _) = _
      rw [if_pos h, h]
    · show (if _ then _ else _) = _
      rw [if_neg h]
      refine hf j ?_
      rcases Nat.lt_succ_iff_lt_or_eq.mp hj with h' | h'
      · exact h'
      · subst h'; exact absurd rfl h
  · rintro f m' ⟨rfl, hf⟩
    rw [wp_pure]
    refine ⟨rfl, List.map_congr_left ?_⟩
    intro i hi
    have h1 : i ∈ o := ho.mem_iff.mpr hi
    obtain ⟨n, hn, he⟩ := List.getElem_of_mem h1
    have := hf n hn
    rw [getD_lt hn, he] at this
    exact this

theorem applyNImpl_wp {m : Mem F} {o : List Nat} {pre : V4 F → V4 F} {t : List Int} {e : Nat → Quat F}
    (ho : o.Perm (List.range t.length)) (ht : ∀ i, i < t.length → readQ m (t.getD i 0) = some (e i)) (n : Nat) :
    wp (applyNImpl o pre t n) m (fun x m' => m' = m ∧
      x = (List.range (t.length + n)).map (fun i => pre (if i < t.length then e i else setzero))) := by
  induction n with
  | zero =>
    refine wp_mono (applyLoad_wp ho ht) ?_
    rintro x m' ⟨rfl, rfl⟩
    refine ⟨rfl, List.map_congr_left ?_⟩
    intro i hi
    rw [if_pos (List.mem_range.mp hi)]
  | succ n ih =>
    rw [applyNImpl, wp_bind]
    refine wp_mono ih ?_
    rintro x m' ⟨rfl, rfl⟩
    rw [wp_pure]
    refine ⟨rfl, ?_⟩
    rw [← Nat.add_assoc, List.range_succ, List.map_append]
    simp

/-- A tuple stored at `p`. -/
def TupAt (m : Mem F) (p : Int) (l : List (V4 F)) : Prop := ∀ s (h : s < l.length), readQ m (p + 4 * (s:Int)) = some l[s]

theorem storeAll_wp {m : Mem F} {p : Int} {l : List (V4 F)} (h : ∀ a, InBuf p (4 * (l.length : Int)) a → (m a).isSome) :
    wp (storeAll p l) m (fun _ m' => TupAt m' p l ∧ (∀ a, ¬ InBuf p (4 * (l.length : Int)) a → m' a = m a) ∧
      (∀ a, (m a).isSome → (m' a).isSome)) := by
  induction l generalizing p m with
  | nil =>
    rw [storeAll, wp_pure]
    exact ⟨fun s h => absurd h (by simp), fun _ _ => rfl, fun _ h => h⟩
  | cons x l ih =>
    rw [storeAll, wp_bind]
    have hq : ∃ q, readQ m p = some q := by
      have k : ∀ d : Int, 0 ≤ d → d < 4 → (m (p + d)).isSome := by
        intro d h1 h2
        apply h; unfold InBuf; simp only [List.length_cons]; push_cast; omega
      obtain ⟨a, ha⟩ := Option.isSome_iff_exists.mp (k 0 (by omega) (by omega))
      obtain ⟨b, hb⟩ := Option.isSome_iff_exists.mp (k 1 (by omega) (by omega))
      obtain ⟨c, hc⟩ := Option.isSome_iff_exists.mp (k 2 (by omega) (by omega))
      obtain ⟨d, hd⟩ := Option.isSome_iff_exists.mp (k 3 (by omega) (by omega))
      rw [Int.add_zero] at ha
      exact ⟨⟨a, b, c, d⟩, readQ_eq_some.mpr ⟨ha, hb, hc, hd⟩⟩
    obtain ⟨q, hq⟩ := hq
    rw [wp_storeQ hq]
    refine wp_mono (ih ?_) ?_
    · intro a ha
      apply writeQ_isSome; apply h
      unfold InBuf at *; simp only [List.length_cons]; push_cast; omega
    · rintro _ m' ⟨h1, h2, h3⟩
      refine ⟨?_, ?_, fun a ha => h3 a (writeQ_isSome ha)⟩
      · intro s hs
        cases s with
        | zero =>
          simp only [List.getElem_cons_zero]
          rw [← readQ_writeQ_same m p x]
          rw [show p + 4 * ((0:Nat):Int) = p by simp]
          refine readQ_congr (fun a ha => h2 a ?_)
          unfold InBuf InQ at *; omega
        | succ s =>
          simp only [List.getElem_cons_succ]
          have := h1 s (by simpa using hs)
          rw [← this]; congr 1; push_cast; ring
      · intro a ha
        simp only [List.length_cons] at ha
        rw [h2 a (by unfold InBuf at *; push_cast at ha; omega), writeQ_other (by unfold InBuf InQ at *; push_cast at ha; omega)]

/-- The tuple that `loopBody` hands to `OP` for row `r` of a panel whose sources are the first `k` of `PK`. -/
def rowTup (PK k : Nat) (pre : V4 F → V4 F) (e : Nat → Quat F) : List (V4 F) :=
  (List.range PK).map (fun i => pre (if i < k then e i else setzero))

/-- The loop over the elements of a panel. -/
theorem panel_wp {m0 : Mem F} {PK n : Nat} {o : Nat → List Nat} {pre : V4 F → V4 F} {OP : List (V4 F) → List (V4 F)}
    {sr xp : Int} {t : List Int} {E : Nat → Nat → Quat F} (ho : ∀ k, (o k).Perm (List.range k))
    (hOP : ∀ l, l.length = PK → (OP l).length = PK) (htl : t.length ≤ PK)
    (hsrc : ∀ i r, i < t.length → r < n → readQ m0 (t.getD i 0 + 4 * ((r:Int) * sr)) = some (E i r))
    (hbuf : ∀ a, InBuf xp (4 * ((n:Int) * PK)) a → (m0 a).isSome)
    (hsep : ∀ i r a, i < t.length → r < n → InQ (t.getD i 0 + 4 * ((r:Int) * sr)) a → ¬ InBuf xp (4 * ((n:Int) * PK)) a) :
    wp (foldN n (fun _ c => body PK o pre OP sr c) (t, xp)) m0 (fun s m' =>
      s.2 = xp + 4 * ((n:Int) * PK) ∧
      (∀ r, r < n → TupAt m' (xp + 4 * ((r:Int) * PK)) (OP (rowTup PK t.length pre (fun i => E i r)))) ∧
      (∀ a, ¬ InBuf xp (4 * ((n:Int) * PK)) a → m' a = m0 a) ∧ (∀ a, (m0 a).isSome → (m' a).isSome)) := by
  refine wp_foldN (fun i s m' => s.1 = t.map (fun p => p + 4 * ((i:Int) * sr)) ∧ s.2 = xp + 4 * ((i:Int) * PK) ∧
      (∀ r, r < i → TupAt m' (xp + 4 * ((r:Int) * PK)) (OP (rowTup PK t.length pre (fun k => E k r)))) ∧
      (∀ a, ¬ InBuf xp (4 * ((n:Int) * PK)) a → m' a = m0 a) ∧ (∀ a, (m0 a).isSome → (m' a).isSome)) ?_ ?_ ?_
  · refine ⟨by simp, by simp, fun r hr => absurd hr (by omega), fun _ _ => rfl, fun _ h => h⟩
  · rintro i ⟨ts, p⟩ m' hi ⟨h1, h2, h3, h4, h5⟩
    dsimp only at h1 h2
    subst h1 h2
    have hlen : (t.map (fun p => p + 4 * ((i:Int) * sr))).length = t.length := by simp
    have hin : ∀ (r s : Nat) (a : Int), r < n → s ≤ PK → InBuf (xp + 4 * ((r:Int) * PK)) (4 * (s:Int)) a → InBuf xp (4 * ((n:Int) * PK)) a := by
      intro r s a hr hs ha
      have e1 : ((r:Int) + 1) * PK ≤ n * PK := by
        have : ((r + 1 : Nat) : Int) * PK ≤ n * PK := by exact_mod_cast Nat.mul_le_mul_right PK (by omega)
        push_cast at this; exact this
      have e0 : (0:Int) ≤ (r:Int) * PK := by positivity
      unfold InBuf at *
      have : ((r:Int) + 1) * PK = r * PK + PK := by ring
      omega
    unfold body
    rw [wp_bind]
    dsimp only
    refine wp_mono (applyNImpl_wp (e := fun k => E k i) ?_ ?_ _) ?_
    · exact ho _
    · intro k hk
      rw [hlen] at hk
      rw [getD_lt (by simpa using hk), List.getElem_map]
      have h6 := hsrc k i hk hi
      rw [getD_lt hk] at h6
      rw [← h6]
      refine readQ_congr (fun a ha => h4 a (hsep k i a hk hi ?_))
      rw [getD_lt hk]; exact ha
    · rintro x m'' ⟨rfl, rfl⟩
      rw [hlen, Nat.add_sub_cancel' htl]
      change wp (do storeAll _ (OP (rowTup PK t.length pre (fun k => E k i))); pure _) _ _
      have hl : (OP (rowTup PK t.length pre (fun k => E k i))).length = PK := hOP _ (by simp [rowTup])
      rw [wp_bind]
      refine wp_mono (storeAll_wp ?_) ?_
      · intro a ha
        rw [hl] at ha
        exact h5 a (hbuf a (hin i PK a hi (le_refl _) ha))
      · rintro _ m3 ⟨k1, k2, k3⟩
        rw [wp_pure]
        rw [hl] at k2
        refine ⟨?_, ?_, ?_, ?_, fun a ha => k3 a (h5 a ha)⟩
        · rw [List.map_map]
          refine List.map_congr_left (fun p _ => ?_)
          simp only [Function.comp]; push_cast; ring
        · push_cast; ring
        · intro r hr
          by_cases hri : r = i
          · subst hri; exact k1
          · intro s hs
            rw [← h3 r (by omega) s hs]
            have hs' : s < PK := by
              have : (OP (rowTup PK t.length pre (fun k => E k r))).length = PK := hOP _ (by simp [rowTup])
              omega
            refine readQ_congr (fun a ha => k2 a ?_)
            have e1 : ((r:Int) + 1) * PK ≤ i * PK := by
              have : ((r + 1 : Nat) : Int) * PK ≤ i * PK := by exact_mod_cast Nat.mul_le_mul_right PK (by omega)
              push_cast at this; exact this
            have : ((r:Int) + 1) * PK = r * PK + PK := by ring
            unfold InBuf InQ at *; omega
        · intro a ha
          rw [k2 a (fun h => ha (hin i PK a hi (le_refl _) h))]; exact h4 a ha
  · rintro s m' ⟨h1, h2, h3, h4, h5⟩
    exact ⟨h2, h3, h4, h5⟩

/-- What a packed panel should hold at position `r`: the pre-processed elements `r` of the vectors `p·PK, …, p·PK+PK-1`, with the
pre-processed zero for vectors that do not exist. -/
def panelRow (PK P : Nat) (pre : V4 F → V4 F) (E : Nat → Nat → Quat F) (p r : Nat) : List (V4 F) :=
  (List.range PK).map (fun s => pre (if p * PK + s < P then E (p * PK + s) r else setzero))

/-- Position `r` of panel `p` in the buffer at `Xp`. -/
def slot (Xp : Int) (PK n p r : Nat) : Int := Xp + 4 * (((p * n + r) * PK : Nat) : Int)

theorem mulN {a b c : Nat} (h : a < b) : a * c + c ≤ b * c := by
  have : (a+1) * c ≤ b * c := Nat.mul_le_mul_right c (by omega)
  calc a * c + c = (a+1) * c := by ring
    _ ≤ _ := this

/-- The loop over the full panels. -/
theorem full_wp {m0 : Mem F} {PK P n np : Nat} {o : Nat → List Nat} {pre : V4 F → V4 F} {OP : List (V4 F) → List (V4 F)}
    {X sp sr Xp : Int} {E : Nat → Nat → Quat F} (ho : ∀ k, (o k).Perm (List.range k))
    (hOP : ∀ l, l.length = PK → (OP l).length = PK) (hnp : P / PK ≤ np)
    (hsrc : ∀ c r, c < P → r < n → readQ m0 (X + 4 * ((c:Int) * sp + r * sr)) = some (E c r))
    (hbuf : ∀ a, InBuf Xp (4 * ((np * n * PK : Nat) : Int)) a → (m0 a).isSome)
    (hsep : ∀ c r a, c < P → r < n → InQ (X + 4 * ((c:Int) * sp + r * sr)) a → ¬ InBuf Xp (4 * ((np * n * PK : Nat) : Int)) a) :
    wp (foldN (P / PK) (fun _ (s : Int × Int) => do
      let r ← foldN n (fun _ c => body PK o pre OP sr c) (pointerSequence PK s.1 sp, s.2)
      pure (s.1 + 4 * (PK * sp), r.2)) (X, Xp)) m0 (fun s m' =>
      s = (X + 4 * (((P / PK * PK : Nat) : Int) * sp), slot Xp PK n (P / PK) 0) ∧
      (∀ p r, p < P / PK → r < n → TupAt m' (slot Xp PK n p r) (OP (panelRow PK P pre E p r))) ∧
      (∀ a, ¬ InBuf Xp (4 * ((np * n * PK : Nat) : Int)) a → m' a = m0 a) ∧ (∀ a, (m0 a).isSome → (m' a).isSome)) := by
  refine wp_foldN (fun i s m' => s = (X + 4 * (((i * PK : Nat) : Int) * sp), slot Xp PK n i 0) ∧
      (∀ p r, p < i → r < n → TupAt m' (slot Xp PK n p r) (OP (panelRow PK P pre E p r))) ∧
      (∀ a, ¬ InBuf Xp (4 * ((np * n * PK : Nat) : Int)) a → m' a = m0 a) ∧ (∀ a, (m0 a).isSome → (m' a).isSome)) ?_ ?_ ?_
  · refine ⟨by simp [slot], fun p r hp => absurd hp (by omega), fun _ _ => rfl, fun _ h => h⟩
  · rintro i s m' hi ⟨rfl, h2, h3, h4⟩
    have hiP : i * PK + PK ≤ P := (mulN hi).trans (Nat.div_mul_le_self P PK)
    have hinp : i * n * PK + n * PK ≤ np * n * PK := by
      have := mulN (c := n * PK) (lt_of_lt_of_le hi hnp)
      rw [← Nat.mul_assoc, ← Nat.mul_assoc] at this; exact this
    have hin : ∀ a, InBuf (slot Xp PK n i 0) (4 * ((n:Int) * PK)) a → InBuf Xp (4 * ((np * n * PK : Nat) : Int)) a := by
      intro a ha
      have e : ((n * PK : Nat) : Int) = (n:Int) * PK := by push_cast; rfl
      unfold InBuf slot at *
      rw [← e] at ha
      rw [Nat.add_zero] at ha
      omega
    have hlen : (pointerSequence PK (X + 4 * (((i * PK : Nat) : Int) * sp)) sp).length = PK := by simp [pointerSequence]
    have hptr : ∀ k r : Nat, k < PK → (pointerSequence PK (X + 4 * (((i * PK : Nat) : Int) * sp)) sp).getD k 0 + 4 * ((r:Int) * sr) =
        X + 4 * (((i * PK + k : Nat) : Int) * sp + r * sr) := by
      intro k r hk
      rw [getD_lt (by rw [hlen]; exact hk)]
      simp only [pointerSequence, List.getElem_map, List.getElem_range]
      push_cast; ring
    rw [wp_bind]
    refine wp_mono (panel_wp (E := fun k r => E (i * PK + k) r) ho hOP (by rw [hlen]) ?_ ?_ ?_) ?_
    · intro k r hk hr
      rw [hlen] at hk
      rw [hptr k r hk, ← hsrc (i * PK + k) r (by omega) hr]
      exact readQ_congr (fun a ha => h3 a (hsep (i * PK + k) r a (by omega) hr ha))
    · intro a ha; exact h4 a (hbuf a (hin a ha))
    · intro k r a hk hr ha hc
      rw [hlen] at hk
      rw [hptr k r hk] at ha
      exact hsep (i * PK + k) r a (by omega) hr ha (hin a hc)
    · rintro ⟨t', p'⟩ m2 ⟨k1, k2, k3, k4⟩
      dsimp only at k1
      subst k1
      rw [wp_pure]
      refine ⟨?_, ?_, ?_, fun a ha => k4 a (h4 a ha)⟩
      · refine Prod.ext ?_ ?_
        · dsimp only; push_cast; ring
        · dsimp only; unfold slot; push_cast; ring
      · intro p r hp hr
        by_cases hpi : p = i
        · subst hpi
          have := k2 r hr
          rw [hlen] at this
          have e1 : rowTup PK PK pre (fun k => E (p * PK + k) r) = panelRow PK P pre E p r := by
            unfold rowTup panelRow
            refine List.map_congr_left (fun k hk => ?_)
            have := List.mem_range.mp hk
            rw [if_pos this, if_pos (by omega)]
          rw [e1] at this
          have e2 : slot Xp PK n p 0 + 4 * ((r:Int) * PK) = slot Xp PK n p r := by unfold slot; push_cast; ring
          rw [e2] at this; exact this
        · intro s hs
          rw [← h2 p r (by omega) hr s hs]
          have hl : (OP (panelRow PK P pre E p r)).length = PK := hOP _ (by simp [panelRow])
          refine readQ_congr (fun a ha => k3 a ?_)
          have q1 : (p * n + r) * PK + PK ≤ i * n * PK := by
            have a1 := mulN (c := n) (show p < i by omega)
            have a2 := mulN (c := PK) (show p * n + r < i * n by omega)
            exact a2
          unfold InBuf InQ slot at *
          rw [Nat.add_zero]
          omega
      · intro a ha
        rw [k3 a (fun h => ha (hin a h))]; exact h3 a ha
  · rintro s m' h; exact h

/-- The templates on `P` vectors of `n` elements with at most one vector left over. -/
theorem packGen_wp {m0 : Mem F} {PK P n : Nat} {o : Nat → List Nat} {pre : V4 F → V4 F} {OP : List (V4 F) → List (V4 F)}
    {X sp sr Xp : Int} {E : Nat → Nat → Quat F} (hPK : 0 < PK) (hrem : P % PK ≤ 1) (ho : ∀ k, (o k).Perm (List.range k))
    (hOP : ∀ l, l.length = PK → (OP l).length = PK)
    (hsrc : ∀ c r, c < P → r < n → readQ m0 (X + 4 * ((c:Int) * sp + r * sr)) = some (E c r))
    (hbuf : ∀ a, InBuf Xp (4 * (((P / PK + P % PK) * n * PK : Nat) : Int)) a → (m0 a).isSome)
    (hsep : ∀ c r a, c < P → r < n → InQ (X + 4 * ((c:Int) * sp + r * sr)) a →
      ¬ InBuf Xp (4 * (((P / PK + P % PK) * n * PK : Nat) : Int)) a) :
    wp (packGen PK o pre OP P n X sp sr Xp) m0 (fun _ m' =>
      (∀ p r, p < P / PK + P % PK → r < n → TupAt m' (slot Xp PK n p r) (OP (panelRow PK P pre E p r))) ∧
      (∀ a, ¬ InBuf Xp (4 * (((P / PK + P % PK) * n * PK : Nat) : Int)) a → m' a = m0 a)) := by
  unfold packGen
  have e1 : ((P:Int) / PK).toNat = P / PK := by
    rw [← Int.natCast_ediv, Int.toNat_natCast]
  have e2 : (P:Int) % PK = ((P % PK : Nat) : Int) := (Int.natCast_emod _ _).symm
  have hdm : P / PK * PK + P % PK = P := by rw [Nat.mul_comm]; exact Nat.div_add_mod P PK
  rw [e1, Int.toNat_natCast, e2, wp_bind]
  obtain ⟨rem, hr⟩ : ∃ rem, P % PK = rem := ⟨_, rfl⟩
  rw [hr] at hrem hdm ⊢
  simp only [hr] at hbuf hsep
  refine wp_mono (full_wp ho hOP (by omega) hsrc hbuf hsep) ?_
  rintro s m' ⟨rfl, h2, h3, h4⟩
  dsimp only
  by_cases h0 : rem = 0
  · subst h0
    rw [if_neg (by simp), wp_pure]
    exact ⟨h2, h3⟩
  have h1 : rem = 1 := by omega
  subst h1
  rw [if_pos (by simp), wp_bind, wp_assert (by simp), wp_bind]
  have hin : ∀ a, InBuf (slot Xp PK n (P / PK) 0) (4 * ((n:Int) * PK)) a → InBuf Xp (4 * (((P / PK + 1) * n * PK : Nat) : Int)) a := by
    intro a ha
    have e : ((n * PK : Nat) : Int) = (n:Int) * PK := by push_cast; rfl
    have e' : (P / PK + 1) * n * PK = P / PK * n * PK + n * PK := by ring
    unfold InBuf slot at *
    rw [← e] at ha
    rw [Nat.add_zero] at ha
    omega
  have hptr : ∀ r : Nat, X + 4 * (((P / PK * PK : Nat) : Int) * sp) + 4 * ((r:Int) * sr) =
      X + 4 * (((P / PK * PK : Nat) : Int) * sp + r * sr) := by intro r; ring
  have g0 : ∀ k, k < 1 → [X + 4 * (((P / PK * PK : Nat) : Int) * sp)].getD k 0 = X + 4 * (((P / PK * PK : Nat) : Int) * sp) := by
    intro k hk; have : k = 0 := by omega
    subst this; rfl
  refine wp_mono (panel_wp (E := fun _ r => E (P / PK * PK) r) ho hOP hPK ?_ ?_ ?_) ?_
  · intro k r hk hr
    rw [g0 k (by simpa using hk), hptr, ← hsrc (P / PK * PK) r (by omega) hr]
    exact readQ_congr (fun a ha => h3 a (hsep _ r a (by omega) hr ha))
  · intro a ha; exact h4 a (hbuf a (hin a ha))
  · intro k r a hk hr ha hc
    rw [g0 k (by simpa using hk), hptr] at ha
    exact hsep _ r a (by omega) hr ha (hin a hc)
  · rintro ⟨t', p'⟩ m2 ⟨-, k2, k3, k4⟩
    rw [wp_pure]
    refine ⟨?_, ?_⟩
    · intro p r hp hr
      by_cases hpi : p = P / PK
      · subst hpi
        have := k2 r hr
        have e3 : rowTup PK ([X + 4 * (((P / PK * PK : Nat) : Int) * sp)].length) pre (fun _ => E (P / PK * PK) r) =
            panelRow PK P pre E (P / PK) r := by
          unfold rowTup panelRow
          refine List.map_congr_left (fun k hk => ?_)
          have := List.mem_range.mp hk
          by_cases hk0 : k = 0
          · subst hk0; rw [if_pos (by simp), if_pos (by omega), Nat.add_zero]
          · rw [if_neg (by simp; omega), if_neg (by omega)]
        rw [e3] at this
        have e4 : slot Xp PK n (P / PK) 0 + 4 * ((r:Int) * PK) = slot Xp PK n (P / PK) r := by unfold slot; push_cast; ring
        rw [e4] at this; exact this
      · intro s hs
        rw [← h2 p r (by omega) hr s hs]
        have hl : (OP (panelRow PK P pre E p r)).length = PK := hOP _ (by simp [panelRow])
        refine readQ_congr (fun a ha => k3 a ?_)
        have q1 : (p * n + r) * PK + PK ≤ P / PK * n * PK := by
          have a1 := mulN (c := n) (show p < P / PK by omega)
          exact mulN (c := PK) (show p * n + r < P / PK * n by omega)
        unfold InBuf InQ slot at *
        rw [Nat.add_zero]
        omega
    · intro a ha
      rw [k3 a (fun h => ha (hin a h))]; exact h3 a ha

/-! ## The claims -/

/-- The panels in the buffer at `Xp`: for panel `p`, position `r` and place `s` the buffer holds, at index `(p·n + r)·PK + s`, entry
`s` of `OP` of the tuple of pre-processed elements of the vectors `p·PK, …, p·PK + PK - 1` (zero for a vector past the last). -/
def Panels (m : Mem F) (Xp : Int) (PK P n : Nat) (pre : V4 F → V4 F) (OP : List (V4 F) → List (V4 F)) (e : Nat → Nat → Quat F) : Prop :=
  ∀ p r s, p * PK < P → r < n → s < PK →
    readQ m (Xp + 4 * (((p * n + r) * PK + s : Nat) : Int)) =
      (OP ((List.range PK).map (fun s => pre (if p * PK + s < P then e (p * PK + s) r else ⟨zero, zero, zero, zero⟩))))[s]?

theorem panels_of {m : Mem F} {Xp : Int} {PK P n : Nat} {pre : V4 F → V4 F} {OP : List (V4 F) → List (V4 F)} {e : Nat → Nat → Quat F}
    (hOP : ∀ l, l.length = PK → (OP l).length = PK) (hPK : 0 < PK) (hrem : P % PK ≤ 1)
    (h : ∀ p r, p < P / PK + P % PK → r < n → TupAt m (slot Xp PK n p r) (OP (panelRow PK P pre e p r))) :
    Panels m Xp PK P n pre OP e := by
  intro p r s hp hr hs
  have hdm : P / PK * PK + P % PK = P := by rw [Nat.mul_comm]; exact Nat.div_add_mod P PK
  have hp' : p < P / PK + P % PK := by
    by_contra hc
    rcases Nat.lt_or_ge p (P / PK + 1) with h1 | h1
    · have : p = P / PK := by omega
      subst this; omega
    · have := Nat.mul_le_mul_right PK h1
      rw [Nat.add_mul] at this
      have := Nat.mod_lt P hPK
      omega
  have hl : (OP (panelRow PK P pre e p r)).length = PK := hOP _ (by simp [panelRow])
  have := h p r hp' hr s (by omega)
  have e1 : slot Xp PK n p r + 4 * (s:Int) = Xp + 4 * (((p * n + r) * PK + s : Nat) : Int) := by unfold slot; push_cast; ring
  rw [e1] at this
  rw [this]
  exact (List.getElem?_eq_getElem (by omega)).symm

/-- `⌈P/PK⌉ · n · PK` quaternions: the size of the packed buffer when at most one vector is left over. -/
def bufLen (PK P n : Nat) : Int := 4 * (((P / PK + P % PK) * n * PK : Nat) : Int)

/-- C73. `TPACK<PK>` on an `M × N` matrix, `N` a multiple of `PK` or one more: no fault, reading only the matrix and writing only the
buffer; the buffer holds the panels of columns.  For every width, operation, arithmetic and order of evaluation of the loads. -/
theorem C73_tpack_partial (m : Mem F) (PK : Nat) (hPK : 0 < PK) (o : Nat → List Nat) (ho : ∀ k, (o k).Perm (List.range k))
    (pre : V4 F → V4 F) (OP : List (V4 F) → List (V4 F)) (hOP : ∀ l, l.length = PK → (OP l).length = PK)
    (M N : Nat) (X LDX Xp : Int) (A : Nat → Nat → Quat F) (hrem : N % PK ≤ 1)
    (hA : MatAt m X LDX M N A) (hbuf : ∀ a, InBuf Xp (bufLen PK N M) a → (m a).isSome)
    (hsep : Apart (MatCell X LDX M N) (InBuf Xp (bufLen PK N M))) :
    ∃ m', TPACK PK o pre OP M N X LDX Xp m = .ok ((), m') ∧ Panels m' Xp PK N M pre OP (fun c r => A r c) ∧
      ∀ a, ¬ InBuf Xp (bufLen PK N M) a → m' a = m a := by
  rw [TPACK_eq]
  obtain ⟨_, m', he, h1, h2⟩ := packGen_wp (m0 := m) (PK := PK) (P := N) (n := M) (o := o) (pre := pre) (OP := OP) (X := X) (sp := LDX)
    (sr := 1) (Xp := Xp) (E := fun c r => A r c) hPK hrem ho hOP
    (by intro c r hc hr; rw [← hA r c hr hc]; congr 1; ring) hbuf
    (by
      intro c r a hc hr ha
      refine hsep a ⟨r, c, hr, hc, ?_⟩
      have e : X + 4 * ((r:Int) + c * LDX) = X + 4 * ((c:Int) * LDX + r * 1) := by ring
      rw [e]; exact ha)
  exact ⟨m', he, panels_of hOP hPK hrem h1, h2⟩

/-- C73. `NPACK<PK>`, `M` a multiple of `PK` or one more: the panels of rows. -/
theorem C73_npack_partial (m : Mem F) (PK : Nat) (hPK : 0 < PK) (o : Nat → List Nat) (ho : ∀ k, (o k).Perm (List.range k))
    (pre : V4 F → V4 F) (OP : List (V4 F) → List (V4 F)) (hOP : ∀ l, l.length = PK → (OP l).length = PK)
    (M N : Nat) (X LDX Xp : Int) (A : Nat → Nat → Quat F) (hrem : M % PK ≤ 1)
    (hA : MatAt m X LDX M N A) (hbuf : ∀ a, InBuf Xp (bufLen PK M N) a → (m a).isSome)
    (hsep : Apart (MatCell X LDX M N) (InBuf Xp (bufLen PK M N))) :
    ∃ m', NPACK PK o pre OP M N X LDX Xp m = .ok ((), m') ∧ Panels m' Xp PK M N pre OP A ∧
      ∀ a, ¬ InBuf Xp (bufLen PK M N) a → m' a = m a := by
  rw [NPACK_eq]
  obtain ⟨_, m', he, h1, h2⟩ := packGen_wp (m0 := m) (PK := PK) (P := M) (n := N) (o := o) (pre := pre) (OP := OP) (X := X) (sp := 1)
    (sr := LDX) (Xp := Xp) (E := A) hPK hrem ho hOP
    (by intro c r hc hr; rw [← hA c r hc hr]; congr 1; ring) hbuf
    (by
      intro c r a hc hr ha
      refine hsep a ⟨c, r, hc, hr, ?_⟩
      have e : X + 4 * ((c:Int) + r * LDX) = X + 4 * ((c:Int) * 1 + r * LDX) := by ring
      rw [e]; exact ha)
  exact ⟨m', he, panels_of hOP hPK hrem h1, h2⟩

theorem packGen_stops {m0 : Mem F} {PK P n : Nat} {o : Nat → List Nat} {pre : V4 F → V4 F} {OP : List (V4 F) → List (V4 F)}
    {X sp sr Xp : Int} {E : Nat → Nat → Quat F} (hrem : 2 ≤ P % PK) (ho : ∀ k, (o k).Perm (List.range k))
    (hOP : ∀ l, l.length = PK → (OP l).length = PK)
    (hsrc : ∀ c r, c < P → r < n → readQ m0 (X + 4 * ((c:Int) * sp + r * sr)) = some (E c r))
    (hbuf : ∀ a, InBuf Xp (4 * ((P / PK * n * PK : Nat) : Int)) a → (m0 a).isSome)
    (hsep : ∀ c r a, c < P → r < n → InQ (X + 4 * ((c:Int) * sp + r * sr)) a → ¬ InBuf Xp (4 * ((P / PK * n * PK : Nat) : Int)) a) :
    packGen PK o pre OP P n X sp sr Xp m0 = .error .assertFail := by
  unfold packGen
  have e1 : ((P:Int) / PK).toNat = P / PK := by
    rw [← Int.natCast_ediv, Int.toNat_natCast]
  have e2 : (P:Int) % PK = ((P % PK : Nat) : Int) := (Int.natCast_emod _ _).symm
  rw [e1, Int.toNat_natCast, e2]
  obtain ⟨s, m', he, -⟩ := full_wp (pre := pre) (sr := sr) ho hOP (le_refl _) hsrc hbuf hsep
  rw [bind_ok he]
  rw [if_pos (by omega)]
  refine bind_error ?_
  unfold assertP
  have : ((((P % PK : Nat) : Int)) == 1) = false := by
    rw [beq_eq_false_iff_ne]; omega
  rw [this]
  rfl

/-- C73, violated. With two or more vectors left over (so `PK ≥ 3`), both templates stop at the assertion "this has yet to be worked
out", on every matrix and every buffer. -/
theorem C73_remainder_violated (m : Mem F) (PK : Nat) (o : Nat → List Nat) (ho : ∀ k, (o k).Perm (List.range k))
    (pre : V4 F → V4 F) (OP : List (V4 F) → List (V4 F)) (hOP : ∀ l, l.length = PK → (OP l).length = PK)
    (M N : Nat) (X LDX Xp : Int) (A : Nat → Nat → Quat F) (hA : MatAt m X LDX M N A) :
    (2 ≤ N % PK → (∀ a, InBuf Xp (4 * ((N / PK * M * PK : Nat) : Int)) a → (m a).isSome) →
      Apart (MatCell X LDX M N) (InBuf Xp (4 * ((N / PK * M * PK : Nat) : Int))) →
      TPACK PK o pre OP M N X LDX Xp m = .error .assertFail) ∧
    (2 ≤ M % PK → (∀ a, InBuf Xp (4 * ((M / PK * N * PK : Nat) : Int)) a → (m a).isSome) →
      Apart (MatCell X LDX M N) (InBuf Xp (4 * ((M / PK * N * PK : Nat) : Int))) →
      NPACK PK o pre OP M N X LDX Xp m = .error .assertFail) := by
  constructor
  · intro hr hbuf hsep
    rw [TPACK_eq]
    refine packGen_stops (E := fun c r => A r c) hr ho hOP ?_ hbuf ?_
    · intro c r hc hr; rw [← hA r c hr hc]; congr 1; ring
    · intro c r a hc hr ha
      refine hsep a ⟨r, c, hr, hc, ?_⟩
      have e : X + 4 * ((r:Int) + c * LDX) = X + 4 * ((c:Int) * LDX + r * 1) := by ring
      rw [e]; exact ha
  · intro hr hbuf hsep
    rw [NPACK_eq]
    refine packGen_stops (E := A) hr ho hOP ?_ hbuf ?_
    · intro c r hc hr; rw [← hA c r hc hr]; congr 1; ring
    · intro c r a hc hr ha
      refine hsep a ⟨c, r, hc, hr, ?_⟩
      have e : X + 4 * ((c:Int) + r * LDX) = X + 4 * ((c:Int) * 1 + r * LDX) := by ring
      rw [e]; exact ha

/-! ### The order of evaluation -/

theorem panels_unique {m m1 m2 : Mem F} {Xp : Int} {PK P n : Nat} {pre : V4 F → V4 F} {OP : List (V4 F) → List (V4 F)}
    {e : Nat → Nat → Quat F} (hPK : 0 < PK) (hrem : P % PK ≤ 1) (hOP : ∀ l, l.length = PK → (OP l).length = PK)
    (h1 : Panels m1 Xp PK P n pre OP e) (h2 : Panels m2 Xp PK P n pre OP e)
    (o1 : ∀ a, ¬ InBuf Xp (bufLen PK P n) a → m1 a = m a) (o2 : ∀ a, ¬ InBuf Xp (bufLen PK P n) a → m2 a = m a) : m1 = m2 := by
  funext a
  by_cases ha : InBuf Xp (bufLen PK P n) a
  · obtain ⟨q, d, hq, hd⟩ : ∃ (q : Nat) (d : Int), a = Xp + 4 * (q:Int) + d ∧ 0 ≤ d ∧ d < 4 := by
      unfold InBuf at ha
      refine ⟨((a - Xp) / 4).toNat, (a - Xp) % 4, ?_, by omega, by omega⟩
      omega
    have hqlt : q < (P / PK + P % PK) * n * PK := by
      unfold InBuf bufLen at ha; omega
    have hs : q % PK < PK := Nat.mod_lt _ hPK
    have hq1 : q / PK < (P / PK + P % PK) * n := (Nat.div_lt_iff_lt_mul hPK).mpr hqlt
    have hn : 0 < n := by
      rcases Nat.eq_zero_or_pos n with h | h
      · subst h; simp at hq1
      · exact h
    have hp : q / PK / n < P / PK + P % PK := (Nat.div_lt_iff_lt_mul hn).mpr hq1
    have hr : q / PK % n < n := Nat.mod_lt _ hn
    have hpP : q / PK / n * PK < P := by
      have hdm : P / PK * PK + P % PK = P := by rw [Nat.mul_comm]; exact Nat.div_add_mod P PK
      rcases Nat.lt_or_ge (q / PK / n) (P / PK) with h | h
      · have := mulN (c := PK) h; omega
      · have : q / PK / n = P / PK := by omega
        rw [this]; omega
    have e1 := h1 _ _ _ hpP hr hs
    have e2 := h2 _ _ _ hpP hr hs
    have eq : (q / PK / n * n + q / PK % n) * PK + q % PK = q := by
      rw [Nat.div_add_mod' (q / PK) n, Nat.div_add_mod' q PK]
    rw [eq] at e1 e2
    have hl := hOP ((List.range PK).map (fun s => pre (if q / PK / n * PK + s < P then e (q / PK / n * PK + s) (q / PK % n)
      else ⟨zero, zero, zero, zero⟩))) (by simp)
    rw [List.getElem?_eq_getElem (by omega)] at e1 e2
    rw [readQ_eq_some] at e1 e2
    have hd' : d = 0 ∨ d = 1 ∨ d = 2 ∨ d = 3 := by omega
    subst hq
    rcases hd' with rfl | rfl | rfl | rfl
    · rw [Int.add_zero, e1.1, e2.1]
    · rw [e1.2.1, e2.2.1]
    · rw [e1.2.2.1, e2.2.2.1]
    · rw [e1.2.2.2, e2.2.2.2]
  · rw [o1 a ha, o2 a ha]

/-- C73. C++ leaves the order of the loads of a tuple to the compiler; the outcome is the same for all orders. -/
theorem C73_order_partial (m : Mem F) (PK : Nat) (hPK : 0 < PK) (pre : V4 F → V4 F) (OP : List (V4 F) → List (V4 F))
    (hOP : ∀ l, l.length = PK → (OP l).length = PK) (M N : Nat) (X LDX Xp : Int) (A : Nat → Nat → Quat F)
    (hA : MatAt m X LDX M N A) :
    (N % PK ≤ 1 → (∀ a, InBuf Xp (bufLen PK N M) a → (m a).isSome) → Apart (MatCell X LDX M N) (InBuf Xp (bufLen PK N M)) →
      ∃ m', ∀ o : Nat → List Nat, (∀ k, (o k).Perm (List.range k)) → TPACK PK o pre OP M N X LDX Xp m = .ok ((), m')) ∧
    (M % PK ≤ 1 → (∀ a, InBuf Xp (bufLen PK M N) a → (m a).isSome) → Apart (MatCell X LDX M N) (InBuf Xp (bufLen PK M N)) →
      ∃ m', ∀ o : Nat → List Nat, (∀ k, (o k).Perm (List.range k)) → NPACK PK o pre OP M N X LDX Xp m = .ok ((), m')) := by
  constructor
  · intro hr hb hs
    obtain ⟨m1, -, p1, q1⟩ := C73_tpack_partial m PK hPK List.range (fun k => List.Perm.refl _) pre OP hOP M N X LDX Xp A hr hA hb hs
    refine ⟨m1, fun o ho => ?_⟩
    obtain ⟨m2, h2, p2, q2⟩ := C73_tpack_partial m PK hPK o ho pre OP hOP M N X LDX Xp A hr hA hb hs
    rw [h2, panels_unique hPK hr hOP p1 p2 q1 q2]
  · intro hr hb hs
    obtain ⟨m1, -, p1, q1⟩ := C73_npack_partial m PK hPK List.range (fun k => List.Perm.refl _) pre OP hOP M N X LDX Xp A hr hA hb hs
    refine ⟨m1, fun o ho => ?_⟩
    obtain ⟨m2, h2, p2, q2⟩ := C73_npack_partial m PK hPK o ho pre OP hOP M N X LDX Xp A hr hA hb hs
    rw [h2, panels_unique hPK hr hOP p1 p2 q1 q2]

/-! ### The instance GEMM uses -/

/-- An operation on pairs as an operation on tuples. -/
def liftOp (op : VV F → VV F) : List (V4 F) → List (V4 F)
  | [a, b] => [(op (a, b)).1, (op (a, b)).2]
  | l => l

theorem foldN_sim {σ τ : Type} (f : σ → τ) (n : Nat) (g : Nat → τ → Prog F τ) (h : Nat → σ → Prog F σ)
    (hgh : ∀ i s, g i (f s) = h i s >>= fun r => pure (f r)) (s : σ) : foldN n g (f s) = foldN n h s >>= fun r => pure (f r) := by
  induction n with
  | zero => simp only [foldN]; rw [prog_pure_bind]
  | succ n ih =>
    simp only [foldN]
    rw [ih, prog_bind_assoc, prog_bind_assoc]
    refine congrArg _ (funext fun r => ?_)
    rw [prog_pure_bind, hgh]

theorem body_two (pre : V4 F → V4 F) (op : VV F → VV F) (inc : Int) (s : Int × Int × Int) :
    body 2 List.range pre (liftOp op) inc ([s.1, s.2.1], s.2.2) =
      packCol2 pre op inc s >>= fun r => pure ([r.1, r.2.1], r.2.2) := by
  simp [body, applyNImpl, applyLoad, foldN, packCol2, prog_bind_assoc, prog_pure_bind, liftOp, storeAll, List.range_succ]

theorem body_one (pre : V4 F → V4 F) (op : VV F → VV F) (inc : Int) (s : Int × Int) :
    body 2 List.range pre (liftOp op) inc ([s.1], s.2) =
      packCol1 pre op inc s >>= fun r => pure ([r.1], r.2) := by
  simp [body, applyNImpl, applyLoad, foldN, packCol1, prog_bind_assoc, prog_pure_bind, liftOp, storeAll, List.range_succ]

theorem packGen_two (pre : V4 F → V4 F) (op : VV F → VV F) (P n X sp sr Xp : Int) :
    Haxx.packGen pre op P n X sp sr Xp = packGen 2 List.range pre (liftOp op) P n X sp sr Xp := by
  unfold Haxx.packGen packGen
  have hp : ∀ x : Int, pointerSequence 2 x sp = [x, x + 4 * sp] := by
    intro x; simp [pointerSequence, List.range_succ]
  have h2 : ∀ s : Int × Int, (foldN n.toNat (fun _ c => body 2 List.range pre (liftOp op) sr c) (pointerSequence 2 s.1 sp, s.2) : Prog F _) =
      foldN n.toNat (fun _ c => packCol2 pre op sr c) (s.1, s.1 + 4 * sp, s.2) >>= fun r => pure ([r.1, r.2.1], r.2.2) := by
    intro s
    rw [hp]
    exact foldN_sim (fun r : Int × Int × Int => ([r.1, r.2.1], r.2.2)) _ _ _ (fun _ s => body_two pre op sr s) (s.1, s.1 + 4 * sp, s.2)
  have h1 : ∀ s : Int × Int, (foldN n.toNat (fun _ c => body 2 List.range pre (liftOp op) sr c) ([s.1], s.2) : Prog F _) =
      foldN n.toNat (fun _ c => packCol1 pre op sr c) s >>= fun r => pure ([r.1], r.2) := by
    intro s
    exact foldN_sim (fun r : Int × Int => ([r.1], r.2)) _ _ _ (fun _ s => body_one pre op sr s) s
  simp only [h1, h2, prog_bind_assoc, prog_pure_bind, Nat.cast_ofNat]

/-- C73. The packing GEMM uses is the template with `PK = 2` and the shipped operations on pairs: the same program. -/
theorem C73_gemm_instance (pre : V4 F → V4 F) (op : VV F → VV F) (M N X LDX Xp : Int) :
    Haxx.TPACK pre op M N X LDX Xp = TPACK 2 List.range pre (liftOp op) M N X LDX Xp ∧
    Haxx.NPACK pre op M N X LDX Xp = NPACK 2 List.range pre (liftOp op) M N X LDX Xp := by
  refine ⟨?_, ?_⟩
  · rw [TPACK_eq, Haxx.TPACK_eq, packGen_two]
  · rw [NPACK_eq, Haxx.NPACK_eq, packGen_two]

/-- The hypotheses are met: a 2 × 7 matrix packed in panels of three columns, loads evaluated from the right; 18 quaternions. -/
example : ∃ m', TPACK 3 (fun k => (List.range k).reverse) id List.reverse (2:Nat) (7:Nat) 0 2 100 (memOf 0 200 (fun a => a) : Mem Int) = .ok ((), m') ∧
    readQ m' (100 + 4 * 2) = some ⟨0, 1, 2, 3⟩ ∧ readQ m' (100 + 4 * 14) = some ⟨48, 49, 50, 51⟩ ∧
    readQ m' (100 + 4 * 12) = some ⟨0, 0, 0, 0⟩ := by
  have hA : MatAt (memOf 0 200 (fun a => a) : Mem Int) 0 2 2 7 (fun i j => ⟨4 * (i + j * 2), 4 * (i + j * 2) + 1, 4 * (i + j * 2) + 2, 4 * (i + j * 2) + 3⟩) := by
    intro i j hi hj
    rw [readQ_memOf (by omega) (by omega)]; simp
  obtain ⟨m', h1, h2, -⟩ := C73_tpack_partial _ 3 (by omega) (fun k => (List.range k).reverse) (fun k => List.reverse_perm _) id List.reverse
    (by intro l h; simpa using h) 2 7 0 2 100 _ (by decide) hA
    (by
      intro a ha
      have : bufLen 3 7 2 = 72 := by decide
      rw [this] at ha
      unfold InBuf at ha; unfold memOf; rw [if_pos (by omega)]; rfl)
    (by
      rintro a ⟨i, j, hi, hj, ha⟩ hb
      have : bufLen 3 7 2 = 72 := by decide
      rw [this] at hb
      unfold InBuf at hb; unfold InQ at ha; omega)
  refine ⟨m', h1, ?_, ?_, ?_⟩
  · have := h2 0 0 2 (by omega) (by omega) (by omega)
    simpa [List.range_succ] using this
  · have := h2 2 0 2 (by omega) (by omega) (by omega)
    simpa [List.range_succ] using this
  · have := h2 2 0 0 (by omega) (by omega) (by omega)
    simpa [List.range_succ, Arith.zero] using this

/-- … and with eight columns two are left over: the program stops. -/
example : TPACK 3 List.range id id (1:Nat) (8:Nat) 0 1 100 (memOf 0 200 (fun a => a) : Mem Int) = .error .assertFail :=
  (C73_remainder_violated _ 3 List.range (fun _ => List.Perm.refl _) id id (fun _ h => h) 1 8 0 1 100
    (fun i j => ⟨4 * ((i:Int) + j * 1), 4 * (i + j * 1) + 1, 4 * (i + j * 1) + 2, 4 * (i + j * 1) + 3⟩)
    (by intro i j hi hj; rw [readQ_memOf (by omega) (by omega)]; simp)).1 (by decide)
    (by intro a ha; have : (8 / 3 * 1 * 3 : Nat) = 6 := by decide
        rw [this] at ha
        unfold InBuf at ha; unfold memOf; rw [if_pos (by omega)]; rfl)
    (by rintro a ⟨i, j, hi, hj, ha⟩ hb
        have : (8 / 3 * 1 * 3 : Nat) = 6 := by decide
        rw [this] at hb
        unfold InBuf at hb; unfold InQ at ha; omega)

end Haxx.Pack
