import Verif.Gemm

/-! Correctness of the packing routines. -/

namespace Haxx
open Arith

variable {F : Type}

/-- Cells of a buffer of `n` doubles. -/
def InBuf (p n a : Int) : Prop := p ≤ a ∧ a < p + n

/-- Two interleaved packed quaternions at `p`. -/
def PairAt (m : Mem F) (p : Int) (t : VV F) : Prop :=
  readQ m p = some t.1 ∧ readQ m (p + 4) = some t.2

theorem pairAt_congr {m m' : Mem F} {p : Int} {t : VV F} (h : ∀ a, InBuf p 8 a → m a = m' a)
    (hp : PairAt m p t) : PairAt m' p t := by
  obtain ⟨h1, h2⟩ := hp
  refine ⟨?_, ?_⟩
  · rw [← h1]; exact (readQ_congr (fun a ha => h a (by unfold InQ InBuf at *; omega))).symm
  · rw [← h2]; exact (readQ_congr (fun a ha => h a (by unfold InQ InBuf at *; omega))).symm

/-- Storing a pair into accessible cells. -/
theorem wp_storePair {p : Int} {t : VV F} {m : Mem F} {α : Type} {k : Prog F α}
    {Q : α → Mem F → Prop} (hacc : ∀ a, InBuf p 8 a → (m a).isSome)
    (h : ∀ m', PairAt m' p t → (∀ a, ¬ InBuf p 8 a → m' a = m a) → wp k m' Q) :
    wp (do storeQ p t.1; storeQ (p + 4) t.2; k) m Q := by
  obtain ⟨q0, h0⟩ := readQ_of_isSome (m := m) (p := p)
    (fun a ha => hacc a (by unfold InQ InBuf at *; omega))
  obtain ⟨q1, h1⟩ := readQ_of_isSome (m := m) (p := p + 4)
    (fun a ha => hacc a (by unfold InQ InBuf at *; omega))
  have hd : QDisj p (p + 4) := by unfold QDisj; omega
  have hd' : QDisj (p + 4) p := by unfold QDisj; omega
  rw [wp_bind, wp_storeQ h0, wp_bind, wp_storeQ (q0 := q1) (by rw [readQ_writeQ_disj hd']; exact h1)]
  apply h
  · exact ⟨by rw [readQ_writeQ_disj hd, readQ_writeQ_same], readQ_writeQ_same _ _ _⟩
  · intro a ha
    rw [writeQ_other (by unfold InQ InBuf at *; omega), writeQ_other (by unfold InQ InBuf at *; omega)]

theorem packCol2_loop {pre : V4 F → V4 F} {op : VV F → VV F} {inc x0 x1 xp : Int} {n : Nat}
    {E0 E1 : Nat → Quat F} {m0 : Mem F}
    (h0 : ∀ r, r < n → readQ m0 (x0 + 4 * (r * inc)) = some (E0 r))
    (h1 : ∀ r, r < n → readQ m0 (x1 + 4 * (r * inc)) = some (E1 r))
    (hb : ∀ a, InBuf xp (8 * n) a → (m0 a).isSome)
    (hs0 : ∀ r a, r < n → InQ (x0 + 4 * (r * inc)) a → ¬ InBuf xp (8 * n) a)
    (hs1 : ∀ r a, r < n → InQ (x1 + 4 * (r * inc)) a → ¬ InBuf xp (8 * n) a) :
    wp (foldN n (fun _ c => packCol2 pre op inc c) (x0, x1, xp)) m0 (fun s m =>
      s = (x0 + 4 * (n * inc), x1 + 4 * (n * inc), xp + 8 * n) ∧
      (∀ r, r < n → PairAt m (xp + 8 * r) (op (pre (E0 r), pre (E1 r)))) ∧
      (∀ a, ¬ InBuf xp (8 * n) a → m a = m0 a)) := by
  have key := wp_region_s (F := F) (n := n) (m0 := m0) (f := fun _ c => packCol2 pre op inc c)
    (fun r => (x0 + 4 * ((r:Int) * inc), x1 + 4 * ((r:Int) * inc), xp + 8 * (r:Int)))
    (fun r a => InBuf (xp + 8 * (r:Int)) 8 a) (fun _ => False)
    (fun m => ∀ a, InBuf xp (8 * n) a → (m a).isSome)
    (fun r m => PairAt m (xp + 8 * (r:Int)) (op (pre (E0 r), pre (E1 r))))
    (Q := fun s m => s = (x0 + 4 * (n * inc), x1 + 4 * (n * inc), xp + 8 * n) ∧
      (∀ r, r < n → PairAt m (xp + 8 * r) (op (pre (E0 r), pre (E1 r)))) ∧
      (∀ a, ¬ InBuf xp (8 * n) a → m a = m0 a)) ?_ ?_ ?_ hb ?_ ?_
  · simpa using key
  · intro i j a hi hj hij h h'
    unfold InBuf at *; omega
  · intro i a _ _ h; exact h
  · intro i m m' _ h hp; exact pairAt_congr h hp
  · intro i m hi hJ hF
    have hout : ∀ a, ¬ InBuf xp (8 * n) a → m a = m0 a := by
      intro a ha
      apply hF a (fun h => h)
      intro k hk hc
      apply ha; unfold InBuf at *; omega
    have r0 : readQ m (x0 + 4 * ((i:Int) * inc)) = some (E0 i) := by
      rw [← h0 i hi]; exact readQ_congr (fun a ha => hout a (hs0 i a hi ha))
    have r1 : readQ m (x1 + 4 * ((i:Int) * inc)) = some (E1 i) := by
      rw [← h1 i hi]; exact readQ_congr (fun a ha => hout a (hs1 i a hi ha))
    unfold packCol2
    rw [wp_bind, wp_loadQ r0, wp_bind, wp_loadQ r1]
    apply wp_storePair
    · intro a ha; dsimp only at ha; apply hJ; unfold InBuf at *; omega
    · intro m' hp hfr
      rw [wp_pure]
      refine ⟨?_, hp, ?_, fun a ha _ => hfr a ha⟩
      · push_cast
        refine Prod.ext ?_ (Prod.ext ?_ ?_) <;> simp only <;> ring
      · intro a ha
        by_cases hc : InBuf (xp + 8 * (i:Int)) 8 a
        · have : InQ (xp + 8 * (i:Int)) a ∨ InQ (xp + 8 * (i:Int) + 4) a := by
            unfold InBuf InQ at *; omega
          rcases this with h | h
          · exact isSome_of_readQ hp.1 h
          · exact isSome_of_readQ hp.2 h
        · rw [hfr a hc]; exact hJ a ha
  · intro m _ hP hF
    refine ⟨rfl, hP, ?_⟩
    intro a ha
    apply hF a (fun h => h)
    intro k hk hc
    apply ha; unfold InBuf at *; omega

theorem packCol1_loop [Arith F] {pre : V4 F → V4 F} {op : VV F → VV F} {inc x0 xp : Int} {n : Nat}
    {E0 : Nat → Quat F} {m0 : Mem F}
    (h0 : ∀ r, r < n → readQ m0 (x0 + 4 * (r * inc)) = some (E0 r))
    (hb : ∀ a, InBuf xp (8 * n) a → (m0 a).isSome)
    (hs0 : ∀ r a, r < n → InQ (x0 + 4 * (r * inc)) a → ¬ InBuf xp (8 * n) a) :
    wp (foldN n (fun _ c => packCol1 pre op inc c) (x0, xp)) m0 (fun _ m =>
      (∀ r, r < n → PairAt m (xp + 8 * r) (op (pre (E0 r), pre setzero))) ∧
      (∀ a, ¬ InBuf xp (8 * n) a → m a = m0 a)) := by
  have key := wp_region_s (F := F) (n := n) (m0 := m0) (f := fun _ c => packCol1 pre op inc c)
    (fun r => (x0 + 4 * ((r:Int) * inc), xp + 8 * (r:Int)))
    (fun r a => InBuf (xp + 8 * (r:Int)) 8 a) (fun _ => False)
    (fun m => ∀ a, InBuf xp (8 * n) a → (m a).isSome)
    (fun r m => PairAt m (xp + 8 * (r:Int)) (op (pre (E0 r), pre setzero)))
    (Q := fun _ m => 
      (∀ r, r < n → PairAt m (xp + 8 * r) (op (pre (E0 r), pre setzero))) ∧
      (∀ a, ¬ InBuf xp (8 * n) a → m a = m0 a)) ?_ ?_ ?_ hb ?_ ?_
  · simpa using key
  · intro i j a hi hj hij h h'
    unfold InBuf at *; omega
  · intro i a _ _ h; exact h
  · intro i m m' _ h hp; exact pairAt_congr h hp
  · intro i m hi hJ hF
    have hout : ∀ a, ¬ InBuf xp (8 * n) a → m a = m0 a := by
      intro a ha
      apply hF a (fun h => h)
      intro k hk hc
      apply ha; unfold InBuf at *; omega
    have r0 : readQ m (x0 + 4 * ((i:Int) * inc)) = some (E0 i) := by
      rw [← h0 i hi]; exact readQ_congr (fun a ha => hout a (hs0 i a hi ha))
    unfold packCol1
    rw [wp_bind, wp_loadQ r0]
    apply wp_storePair
    · intro a ha; dsimp only at ha; apply hJ; unfold InBuf at *; omega
    · intro m' hp hfr
      rw [wp_pure]
      refine ⟨?_, hp, ?_, fun a ha _ => hfr a ha⟩
      · push_cast
        refine Prod.ext ?_ ?_ <;> simp only <;> ring
      · intro a ha
        by_cases hc : InBuf (xp + 8 * (i:Int)) 8 a
        · have : InQ (xp + 8 * (i:Int)) a ∨ InQ (xp + 8 * (i:Int) + 4) a := by
            unfold InBuf InQ at *; omega
          rcases this with h | h
          · exact isSome_of_readQ hp.1 h
          · exact isSome_of_readQ hp.2 h
        · rw [hfr a hc]; exact hJ a ha
  · intro m _ hP hF
    refine ⟨hP, ?_⟩
    intro a ha
    apply hF a (fun h => h)
    intro k hk hc
    apply ha; unfold InBuf at *; omega

/-- Both packing routines are this program: `P` packed vectors at stride `sp`, `n` elements each at
stride `sr`. -/
def packGen [Arith F] (pre : V4 F → V4 F) (op : VV F → VV F) (P n : Int) (X sp sr Xp : Int) :
    Prog F Unit := do
  let s ← foldN (P / 2).toNat (fun _ (s : Int × Int) => do
    let r ← foldN n.toNat (fun _ c => packCol2 pre op sr c) (s.1, s.1 + 4 * sp, s.2)
    pure (s.1 + 4 * (2 * sp), r.2.2)) (X, Xp)
  let j := P % 2
  if j ≠ 0 then do
    assertP (j == 1)
    let _ ← foldN n.toNat (fun _ c => packCol1 pre op sr c) s
    pure ()
  else pure ()

theorem TPACK_eq [Arith F] (pre : V4 F → V4 F) (op : VV F → VV F) (M N X LDX Xp : Int) :
    TPACK pre op M N X LDX Xp = packGen pre op N M X LDX 1 Xp := rfl

theorem NPACK_eq [Arith F] (pre : V4 F → V4 F) (op : VV F → VV F) (M N X LDX Xp : Int) :
    NPACK pre op M N X LDX Xp = packGen pre op M N X 1 LDX Xp := rfl

/-- The packed panels: pair `p` (vectors `2p`, `2p+1`), position `r`. -/
def PackAt (m : Mem F) (Xp : Int) (op : VV F → VV F) (np n : Nat) (e : Nat → Nat → Quat F) : Prop :=
  ∀ p r, p < np → r < n → PairAt m (Xp + 8 * (((p * n + r : Nat)) : Int)) (op (e (2*p) r, e (2*p+1) r))

/-- What ends up packed for vector `c`: the pre-processed element, or the pre-processed zero for
the missing partner of an odd last vector. -/
def packElt [Arith F] (pre : V4 F → V4 F) (P : Nat) (E : Nat → Nat → Quat F) (c r : Nat) : Quat F :=
  if c < P then pre (E c r) else pre setzero

theorem packGen_wp [Arith F] {pre : V4 F → V4 F} {op : VV F → VV F} {P n : Nat} {X sp sr Xp : Int}
    {E : Nat → Nat → Quat F} {m0 : Mem F}
    (hsrc : SMatAt m0 X sp sr P n E)
    (hbuf : ∀ a, InBuf Xp (8 * (((P+1)/2 * n : Nat) : Int)) a → (m0 a).isSome)
    (hsep : ∀ a, SMatCell X sp sr P n a → ¬ InBuf Xp (8 * (((P+1)/2 * n : Nat) : Int)) a) :
    wp (packGen pre op P n X sp sr Xp) m0 (fun _ m =>
      PackAt m Xp op ((P+1)/2) n (packElt pre P E) ∧
      (∀ a, ¬ InBuf Xp (8 * (((P+1)/2 * n : Nat) : Int)) a → m a = m0 a)) := by
  have hP2 : ((P:Int) / 2).toNat = P / 2 := by omega
  have hle : ∀ p, p < (P+1)/2 → p * n + n ≤ (P+1)/2 * n := by
    intro p hp
    have : (p+1) * n ≤ (P+1)/2 * n := Nat.mul_le_mul_right n (by omega)
    calc p * n + n = (p+1) * n := by ring
      _ ≤ _ := this
  unfold packGen
  simp only [hP2, Int.toNat_natCast]
  rw [wp_bind]
  have hmulsep : ∀ i j : Nat, i < j → i * n + n ≤ j * n := by
    intro i j h
    have : (i+1) * n ≤ j * n := Nat.mul_le_mul_right n (by omega)
    calc i * n + n = (i+1) * n := by ring
      _ ≤ _ := this
  have key := wp_region_s (F := F) (n := P/2) (m0 := m0)
    (f := fun (_ : Nat) (s : Int × Int) => (do
      let r ← foldN n (fun _ c => packCol2 pre op sr c) (s.1, s.1 + 4 * sp, s.2)
      pure (s.1 + 4 * (2 * sp), r.2.2) : Prog F (Int × Int)))
    (fun p => (X + 4 * (((2 * p : Nat) : Int) * sp), Xp + 8 * ((p * n : Nat) : Int)))
    (fun p a => InBuf (Xp + 8 * ((p * n : Nat) : Int)) (8 * n) a) (fun _ => False)
    (fun m => ∀ a, InBuf Xp (8 * (((P+1)/2 * n : Nat) : Int)) a → (m a).isSome)
    (fun p m => ∀ r, r < n → PairAt m (Xp + 8 * ((p * n : Nat) : Int) + 8 * r)
      (op (pre (E (2*p) r), pre (E (2*p+1) r))))
    (Q := fun s m => wp (if (P:Int) % 2 ≠ 0 then do
        assertP ((P:Int) % 2 == 1)
        let _ ← foldN n (fun _ c => packCol1 pre op sr c) s
        pure ()
      else pure () : Prog F Unit) m (fun _ m =>
      PackAt m Xp op ((P+1)/2) n (packElt pre P E) ∧
      (∀ a, ¬ InBuf Xp (8 * (((P+1)/2 * n : Nat) : Int)) a → m a = m0 a))) ?_ ?_ ?_ hbuf ?_ ?_
  · simpa using key
  · intro i j a hi hj hij h h'
    have := hmulsep i j
    have := hmulsep j i
    unfold InBuf at *; omega
  · intro i a _ _ h; exact h
  · intro p m m' hp h hh r hr
    refine pairAt_congr ?_ (hh r hr)
    intro a ha; apply h; unfold InBuf at *; omega
  · intro p m hp hJ hF
    have hpl := hle p (by omega)
    have hout : ∀ a, ¬ InBuf Xp (8 * (((P+1)/2 * n : Nat) : Int)) a → m a = m0 a := by
      intro a ha
      apply hF a (fun h => h)
      intro k hk hc
      have := hle k (by omega)
      apply ha; unfold InBuf at *; omega
    have hsub : ∀ a, InBuf (Xp + 8 * ((p * n : Nat) : Int)) (8 * n) a →
        InBuf Xp (8 * (((P+1)/2 * n : Nat) : Int)) a := by
      intro a ha; unfold InBuf at *; omega
    have ea : ∀ (c r : Nat), X + 4 * (((c : Nat) : Int) * sp) + 4 * ((r:Int) * sr) =
        X + 4 * ((c:Int) * sp + r * sr) := by intros; ring
    have e1 : ∀ r : Nat, X + 4 * (((2 * p : Nat) : Int) * sp) + 4 * sp + 4 * ((r:Int) * sr) =
        X + 4 * (((2*p+1 : Nat):Int) * sp + r * sr) := by intros; push_cast; ring
    rw [wp_bind]
    refine wp_mono (packCol2_loop (E0 := E (2*p)) (E1 := E (2*p+1)) ?_ ?_ ?_ ?_ ?_) ?_
    · intro r hr
      rw [ea, ← hsrc (2*p) r (by omega) hr]
      exact readQ_congr (fun a ha => hout a (hsep a ⟨2*p, r, by omega, hr, ha⟩))
    · intro r hr
      rw [e1, ← hsrc (2*p+1) r (by omega) hr]
      exact readQ_congr (fun a ha => hout a (hsep a ⟨2*p+1, r, by omega, hr, ha⟩))
    · intro a ha; exact hJ a (hsub a ha)
    · intro r a hr ha hc
      rw [ea] at ha
      exact hsep a ⟨2*p, r, by omega, hr, ha⟩ (hsub a hc)
    · intro r a hr ha hc
      rw [e1] at ha
      exact hsep a ⟨2*p+1, r, by omega, hr, ha⟩ (hsub a hc)
    · rintro s m' ⟨rfl, hp', hfr⟩
      rw [wp_pure]
      refine ⟨?_, hp', ?_, fun a ha _ => hfr a ha⟩
      · push_cast
        refine Prod.ext ?_ ?_ <;> simp only <;> ring
      · intro a ha
        by_cases hc : InBuf (Xp + 8 * ((p * n : Nat) : Int)) (8 * n) a
        · have hex : ∃ r : Nat, r < n ∧ InBuf (Xp + 8 * ((p * n : Nat) : Int) + 8 * r) 8 a := by
            refine ⟨((a - (Xp + 8 * ((p * n : Nat) : Int))) / 8).toNat, ?_, ?_⟩ <;>
              unfold InBuf at * <;> omega
          obtain ⟨r, hr, hin⟩ := hex
          have hpp := hp' r hr
          have : InQ (Xp + 8 * ((p * n : Nat) : Int) + 8 * r) a ∨
              InQ (Xp + 8 * ((p * n : Nat) : Int) + 8 * r + 4) a := by
            unfold InBuf InQ at *; omega
          rcases this with h | h
          · exact isSome_of_readQ hpp.1 h
          · exact isSome_of_readQ hpp.2 h
        · rw [hfr a hc]; exact hJ a ha
  · intro m hJ hP hF
    have hout : ∀ a, ¬ InBuf Xp (8 * (((P+1)/2 * n : Nat) : Int)) a → m a = m0 a := by
      intro a ha
      apply hF a (fun h => h)
      intro k hk hc
      have := hle k (by omega)
      apply ha; unfold InBuf at *; omega
    by_cases hodd : (P:Int) % 2 ≠ 0
    · have h1 : (P:Int) % 2 = 1 := by omega
      have hP' : P = 2 * (P/2) + 1 := by omega
      have hl := hle (P/2) (by omega)
      have hsub : ∀ a, InBuf (Xp + 8 * (((P/2) * n : Nat) : Int)) (8 * n) a →
          InBuf Xp (8 * (((P+1)/2 * n : Nat) : Int)) a := by
        intro a ha; unfold InBuf at *; omega
      have ea : ∀ (r : Nat), X + 4 * (((2 * (P/2) : Nat) : Int) * sp) + 4 * ((r:Int) * sr) =
          X + 4 * (((2 * (P/2) : Nat):Int) * sp + r * sr) := by intros; ring
      rw [if_pos hodd, wp_bind, wp_assert (by simp [h1]), wp_bind]
      refine wp_mono (packCol1_loop (E0 := E (2*(P/2))) ?_ ?_ ?_) ?_
      · intro r hr
        rw [ea, ← hsrc (2*(P/2)) r (by omega) hr]
        exact readQ_congr (fun a ha => hout a (hsep a ⟨2*(P/2), r, by omega, hr, ha⟩))
      · intro a ha; exact hJ a (hsub a ha)
      · intro r a hr ha hc
        rw [ea] at ha
        exact hsep a ⟨2*(P/2), r, by omega, hr, ha⟩ (hsub a hc)
      · rintro _ m' ⟨hp', hfr⟩
        rw [wp_pure]
        refine ⟨?_, ?_⟩
        · intro p r hp hr
          have hadd : (Xp + 8 * (((p * n + r : Nat)) : Int)) = Xp + 8 * ((p * n : Nat) : Int) + 8 * r := by
            push_cast; ring
          rw [hadd]
          by_cases hlast : p = P/2
          · have := hp' r hr
            rw [← hlast] at this
            have a1 : packElt pre P E (2*p) r = pre (E (2*p) r) := by
              unfold packElt; rw [if_pos (by omega)]
            have a2 : packElt pre P E (2*p+1) r = pre setzero := by
              unfold packElt; rw [if_neg (by omega)]
            rw [a1, a2]; exact this
          · have := hP p (by omega) r hr
            have a1 : packElt pre P E (2*p) r = pre (E (2*p) r) := by
              unfold packElt; rw [if_pos (by omega)]
            have a2 : packElt pre P E (2*p+1) r = pre (E (2*p+1) r) := by
              unfold packElt; rw [if_pos (by omega)]
            rw [a1, a2]
            refine pairAt_congr ?_ this
            intro a ha
            refine (hfr a ?_).symm
            have := hmulsep p (P/2) (by omega)
            unfold InBuf at *; omega
        · intro a ha
          rw [hfr a (fun h => ha (hsub a h)), hout a ha]
    · rw [if_neg hodd, wp_pure]
      refine ⟨?_, hout⟩
      intro p r hp hr
      have hadd : (Xp + 8 * (((p * n + r : Nat)) : Int)) = Xp + 8 * ((p * n : Nat) : Int) + 8 * r := by
        push_cast; ring
      rw [hadd]
      have := hP p (by omega) r hr
      have a1 : packElt pre P E (2*p) r = pre (E (2*p) r) := by
        unfold packElt; rw [if_pos (by omega)]
      have a2 : packElt pre P E (2*p+1) r = pre (E (2*p+1) r) := by
        unfold packElt; rw [if_pos (by omega)]
      rw [a1, a2]; exact this

end Haxx
