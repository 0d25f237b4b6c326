import Verif.PropsAlias

/-!
# C48, continued: SWAPV of a vector with itself shifted by one element

The two vectors share all elements but one each.  The elements are exchanged pair by pair in increasing order, so
the element at the bottom travels all the way up: the `N+1` elements are rotated, whichever of the two arguments is
the shifted one.
-/

namespace Haxx
variable {F : Type}

/-- `N+1` elements rotated down by one place: the first becomes the last. -/
def rotated (n : Nat) (b : Nat → Quat F) (i : Nat) : Quat F := if i < n then b (i + 1) else b 0

/-- A step that exchanges elements `i` and `i+1` of the storage for `i = 0, …, n-1` in turn rotates it. -/
theorem rotate_wp {σ : Type} {m : Mem F} {n : Nat} {B INC : Int} {b : Nat → Quat F} (f : Nat → σ → Prog F σ) (st : Nat → σ)
    (hB : VecAt m B INC (n + 1) b) (hinc : INC ≠ 0)
    (hb : ∀ i m p q, i < n → readQ m (B + 4 * ((i:Int) * INC)) = some p →
      readQ m (B + 4 * (((i+1 : Nat):Int) * INC)) = some q →
      wp (f i (st i)) m (fun s' m' => s' = st (i+1) ∧ readQ m' (B + 4 * ((i:Int) * INC)) = some q ∧
        readQ m' (B + 4 * (((i+1 : Nat):Int) * INC)) = some p ∧
        SameOutside (fun a => InQ (B + 4 * ((i:Int) * INC)) a ∨ InQ (B + 4 * (((i+1 : Nat):Int) * INC)) a) m m')) :
    wp (foldN n f (st 0)) m (fun _ m' => VecAt m' B INC (n + 1) (rotated n b) ∧ SameOutside (VecCell B INC (n + 1)) m m') := by
  apply wp_foldN (fun i s m' => s = st i ∧ VecAt m' B INC (n + 1) (fun k => if k < i then b (k+1) else if k = i then b 0 else b k) ∧
    SameOutside (VecCell B INC (n + 1)) m m')
  · refine ⟨rfl, fun k hk => ?_, fun _ _ => rfl⟩
    rw [hB k hk]
    by_cases e : k = 0 <;> simp [e]
  · rintro i s m' hi ⟨rfl, h1, h2⟩
    have hp := h1 i (by omega)
    have hq := h1 (i+1) (by omega)
    refine wp_mono (hb i m' _ _ hi hp hq) ?_
    rintro s' m2 ⟨hs, a1, a2, a3⟩
    refine ⟨hs, fun k hk => ?_, fun a ha => ?_⟩
    · by_cases e : k = i
      · subst e; rw [a1]; simp
      by_cases e' : k = i + 1
      · subst e'; rw [a2]; simp
      have hr : readQ m2 (B + 4 * ((k:Int) * INC)) = readQ m' (B + 4 * ((k:Int) * INC)) := by
        apply readQ_congr
        intro a ha
        refine a3 a ?_
        have d1 := strided_disj (x := B) hinc e
        have d2 := strided_disj (x := B) hinc e'
        unfold QDisj at d1 d2
        unfold InQ at *
        omega
      rw [hr, h1 k hk]
      by_cases l : k < i
      · simp [l, show k < i + 1 by omega]
      · simp [l, e, e', show ¬ k < i + 1 by omega]
    · rw [a3 a (fun h => ha (h.elim (fun h => ⟨i, by omega, h⟩) (fun h => ⟨i+1, by omega, h⟩))), h2 a ha]
  · rintro s m' ⟨_, h1, h2⟩
    refine ⟨fun k hk => ?_, h2⟩
    rw [h1 k hk]
    unfold rotated
    by_cases l : k < n
    · simp [l]
    · simp [show k = n by omega]

/-- Two stores exchange two disjoint elements, in either order. -/
theorem exchange {m : Mem F} {a b : Int} (p q : Quat F) (hd : QDisj a b) :
    readQ (writeQ (writeQ m b p) a q) a = some q ∧ readQ (writeQ (writeQ m b p) a q) b = some p ∧
    SameOutside (fun c => InQ a c ∨ InQ b c) m (writeQ (writeQ m b p) a q) := by
  refine ⟨readQ_writeQ_same _ _ _, ?_, fun c hc => ?_⟩
  · rw [readQ_writeQ_disj (by unfold QDisj at *; omega)]; exact readQ_writeQ_same _ _ _
  · rw [writeQ_other (fun h => hc (Or.inl h)), writeQ_other (fun h => hc (Or.inr h))]

/-- C48.  SWAPV of `b_0, …, b_{N-1}` with `b_1, …, b_N` (in either order of the arguments) rotates the storage:
afterwards it holds `b_1, …, b_N, b_0`, and nothing else has changed; vectorised build. -/
theorem C48_swapv_shift (m : Mem F) (N B INC : Int) (b : Nat → Quat F) (hB : VecAt m B INC (N.toNat + 1) b) (hinc : INC ≠ 0) :
    (∃ m', swapvAVX N B INC (B + 4 * INC) INC m = .ok ((), m') ∧ VecAt m' B INC (N.toNat + 1) (rotated N.toNat b) ∧
      SameOutside (VecCell B INC (N.toNat + 1)) m m') ∧
    (∃ m', swapvAVX N (B + 4 * INC) INC B INC m = .ok ((), m') ∧ VecAt m' B INC (N.toNat + 1) (rotated N.toNat b) ∧
      SameOutside (VecCell B INC (N.toNat + 1)) m m') := by
  have dj : ∀ i : Nat, QDisj (B + 4 * ((i:Int) * INC)) (B + 4 * (((i+1 : Nat):Int) * INC)) := fun i => strided_disj hinc (by omega)
  have e0 : B + 4 * (((0:Nat):Int) * INC) = B := by simp
  have e1 : B + 4 * (((0+1:Nat):Int) * INC) = B + 4 * INC := by simp
  have up : ∀ al : Bool, (al = true → aligned32 B = true) →
      wp (foldN N.toNat (fun _ loc => swapBody al INC INC loc) (B, B + 4 * INC)) m
        (fun _ m' => VecAt m' B INC (N.toNat + 1) (rotated N.toNat b) ∧ SameOutside (VecCell B INC (N.toNat + 1)) m m') := by
    intro al hal
    have := rotate_wp (fun _ loc => swapBody al INC INC loc)
      (fun i => (B + 4 * ((i:Int) * INC), B + 4 * (((i+1 : Nat):Int) * INC))) hB hinc ?_
    · rw [e0, e1] at this; exact this
    · intro i m p q hi hp hq
      unfold swapBody
      rw [wp_bind, wp_loadM (fun h => aligned32_add (hal h) _) hp, wp_bind, wp_loadM (fun h => aligned32_add (hal h) _) hq, wp_bind,
        wp_storeM (fun h => aligned32_add (hal h) _) hq, wp_bind,
        wp_storeM (fun h => aligned32_add (hal h) _) (by rw [readQ_writeQ_disj (dj i)]; exact hp), wp_pure]
      exact ⟨by simp only [vec_step], exchange p q (dj i)⟩
  have down : ∀ al : Bool, (al = true → aligned32 B = true) →
      wp (foldN N.toNat (fun _ loc => swapBody al INC INC loc) (B + 4 * INC, B)) m
        (fun _ m' => VecAt m' B INC (N.toNat + 1) (rotated N.toNat b) ∧ SameOutside (VecCell B INC (N.toNat + 1)) m m') := by
    intro al hal
    have := rotate_wp (fun _ loc => swapBody al INC INC loc)
      (fun i => (B + 4 * (((i+1 : Nat):Int) * INC), B + 4 * ((i:Int) * INC))) hB hinc ?_
    · rw [e0, e1] at this; exact this
    · intro i m p q hi hp hq
      have dj' : QDisj (B + 4 * (((i+1 : Nat):Int) * INC)) (B + 4 * ((i:Int) * INC)) := strided_disj hinc (by omega)
      unfold swapBody
      rw [wp_bind, wp_loadM (fun h => aligned32_add (hal h) _) hq, wp_bind, wp_loadM (fun h => aligned32_add (hal h) _) hp, wp_bind,
        wp_storeM (fun h => aligned32_add (hal h) _) hp, wp_bind,
        wp_storeM (fun h => aligned32_add (hal h) _) (by rw [readQ_writeQ_disj dj']; exact hq), wp_pure]
      obtain ⟨a1, a2, a3⟩ := exchange (m := m) q p dj'
      exact ⟨by simp only [vec_step], a2, a1, fun c hc => a3 c fun h => hc h.symm⟩
  constructor
  · have : wp (swapvAVX N B INC (B + 4 * INC) INC) m
        (fun _ m' => VecAt m' B INC (N.toNat + 1) (rotated N.toNat b) ∧ SameOutside (VecCell B INC (N.toNat + 1)) m m') := by
      unfold swapvAVX
      by_cases h : (aligned32 B && aligned32 (B + 4 * INC)) = true
      · rw [if_pos h]; simp only [wp_bind, wp_pure]
        exact up true (fun _ => by simp only [Bool.and_eq_true] at h; exact h.1)
      · rw [if_neg h]; simp only [wp_bind, wp_pure]
        exact up false (fun h => by cases h)
    obtain ⟨_, m', h, h1⟩ := this
    exact ⟨m', h, h1⟩
  · have : wp (swapvAVX N (B + 4 * INC) INC B INC) m
        (fun _ m' => VecAt m' B INC (N.toNat + 1) (rotated N.toNat b) ∧ SameOutside (VecCell B INC (N.toNat + 1)) m m') := by
      unfold swapvAVX
      by_cases h : (aligned32 (B + 4 * INC) && aligned32 B) = true
      · rw [if_pos h]; simp only [wp_bind, wp_pure]
        exact down true (fun _ => by simp only [Bool.and_eq_true] at h; exact h.2)
      · rw [if_neg h]; simp only [wp_bind, wp_pure]
        exact down false (fun h => by cases h)
    obtain ⟨_, m', h, h1⟩ := this
    exact ⟨m', h, h1⟩

/-- C48.  The same for the portable template SWAPV. -/
theorem C48_swapv_shift_portable (m : Mem F) (N B INC : Int) (b : Nat → Quat F) (hB : VecAt m B INC (N.toNat + 1) b)
    (hinc : 0 < INC) (hf : Fits32 (N * INC)) :
    (∃ m', swapvGen N B INC (B + 4 * INC) INC m = .ok ((), m') ∧ VecAt m' B INC (N.toNat + 1) (rotated N.toNat b) ∧
      SameOutside (VecCell B INC (N.toNat + 1)) m m') ∧
    (∃ m', swapvGen N (B + 4 * INC) INC B INC m = .ok ((), m') ∧ VecAt m' B INC (N.toNat + 1) (rotated N.toNat b) ∧
      SameOutside (VecCell B INC (N.toNat + 1)) m m') := by
  have hne : INC ≠ 0 := by omega
  have ey : ∀ i : Nat, B + 4 * INC + 4 * ((i:Int) * INC) = B + 4 * (((i+1 : Nat) : Int) * INC) := by
    intro i; push_cast; ring
  constructor
  · have : wp (swapvGen N B INC (B + 4 * INC) INC) m
        (fun _ m' => VecAt m' B INC (N.toNat + 1) (rotated N.toNat b) ∧ SameOutside (VecCell B INC (N.toNat + 1)) m m') := by
      rw [swapvGen_eq hinc hinc hf hf]
      unfold forN
      refine rotate_wp _ (fun _ => ()) hB hne fun i m p q hi hp hq => ?_
      have dj' : QDisj (B + 4 * (((i+1 : Nat):Int) * INC)) (B + 4 * ((i:Int) * INC)) := strided_disj hne (by omega)
      unfold swapEl
      rw [wp_bind, wp_loadQ hp, wp_bind, ey, wp_loadQ hq, wp_bind, wp_storeQ hp,
        wp_storeQ (by rw [readQ_writeQ_disj dj']; exact hq)]
      obtain ⟨a1, a2, a3⟩ := exchange (m := m) q p dj'
      exact ⟨rfl, a2, a1, fun c hc => a3 c fun h => hc h.symm⟩
    obtain ⟨_, m', h, h1⟩ := this
    exact ⟨m', h, h1⟩
  · have : wp (swapvGen N (B + 4 * INC) INC B INC) m
        (fun _ m' => VecAt m' B INC (N.toNat + 1) (rotated N.toNat b) ∧ SameOutside (VecCell B INC (N.toNat + 1)) m m') := by
      rw [swapvGen_eq hinc hinc hf hf]
      unfold forN
      refine rotate_wp _ (fun _ => ()) hB hne fun i m p q hi hp hq => ?_
      have dj' : QDisj (B + 4 * ((i:Int) * INC)) (B + 4 * (((i+1 : Nat):Int) * INC)) := strided_disj hne (by omega)
      unfold swapEl
      rw [wp_bind, ey, wp_loadQ hq, wp_bind, wp_loadQ hp, wp_bind, wp_storeQ hq,
        wp_storeQ (by rw [readQ_writeQ_disj dj']; exact hp)]
      obtain ⟨a1, a2, a3⟩ := exchange (m := m) p q dj'
      exact ⟨rfl, a1, a2, a3⟩
    obtain ⟨_, m', h, h1⟩ := this
    exact ⟨m', h, h1⟩

/-- Non-vacuity: four quaternions with stride 2, `N = 3`; the third element moves to the second place and the first to
the last. -/
example : VecAt (memOf 0 40 (fun a => a)) 0 2 ((3:Int).toNat + 1) (fun i => ⟨8 * i, 8 * i + 1, 8 * i + 2, 8 * i + 3⟩) ∧
    rotated 3 (fun i => (⟨8 * i, 8 * i + 1, 8 * i + 2, 8 * i + 3⟩ : Quat Int)) 1 = ⟨16, 17, 18, 19⟩ ∧
    rotated 3 (fun i => (⟨8 * i, 8 * i + 1, 8 * i + 2, 8 * i + 3⟩ : Quat Int)) 3 = ⟨0, 1, 2, 3⟩ := by
  refine ⟨?_, by simp [rotated], by simp [rotated]⟩
  intro i hi
  have h4 : i < 4 := hi
  obtain rfl | rfl | rfl | rfl : i = 0 ∨ i = 1 ∨ i = 2 ∨ i = 3 := by omega
  all_goals rfl

end Haxx
