import Verif.PropsHblas1
import Verif.PropsGemm
import Verif.Generic1Proofs
import Mathlib.Algebra.Star.BigOperators

/-!
# C48: overlapping operands

What the routines do when their vector or matrix arguments share storage.
-/

set_option linter.unusedSectionVars false

namespace Haxx
open Arith Quaternion Finset

/-- No element of x is overwritten before it is read when the elements of the two vectors are visited in
order: `x_i` shares no cell with `y_k` for `k < i`.  (Disjoint vectors, the same vector twice, and an x that
lies above y with the same increment are all of this form.) -/
def ReadFirst (X INCX Y INCY : Int) (n : Nat) : Prop :=
  ∀ i k : Nat, k < i → i < n → ∀ a, InQ (X + 4 * ((i:Int) * INCX)) a → ¬ InQ (Y + 4 * ((k:Int) * INCY)) a

theorem readFirst_apart {X INCX Y INCY : Int} {n : Nat} (h : Apart (VecCell X INCX n) (VecCell Y INCY n)) :
    ReadFirst X INCX Y INCY n :=
  fun i k hk hi a h1 h2 => h a ⟨i, hi, h1⟩ ⟨k, by omega, h2⟩

theorem readFirst_self {X INCX : Int} {n : Nat} (h : INCX ≠ 0) : ReadFirst X INCX X INCX n := by
  intro i k hk _ a h1 h2
  have : QDisj (X + 4 * ((i:Int) * INCX)) (X + 4 * ((k:Int) * INCX)) := strided_disj h (by omega)
  unfold InQ QDisj at *; omega

/-- Moving a vector towards lower addresses. -/
theorem readFirst_down {X Y INC : Int} {n : Nat} (h : 0 < INC) (hle : Y ≤ X) : ReadFirst X INC Y INC n := by
  intro i k hk _ a h1 h2
  have : ((k:Int) + 1) * INC ≤ i * INC := mul_le_mul_of_nonneg_right (by omega) (by omega)
  have e : ((k:Int) + 1) * INC = k * INC + INC := by ring
  unfold InQ at *; omega

section
variable {F : Type}

theorem wp_ahead {σ : Type} {f : Nat → σ → Prog F σ} {m0 : Mem F} (st : Nat → σ)
    {X INCX Y INCY : Int} {n : Nat} {xv yv : Nat → Quat F} (new : Nat → Quat F)
    (hX : VecAt m0 X INCX n xv) (hY : VecAt m0 Y INCY n yv) (hinc : INCY ≠ 0) (hr : ReadFirst X INCX Y INCY n)
    (hbody : ∀ i m, i < n → readQ m (X + 4 * ((i:Int) * INCX)) = some (xv i) →
      readQ m (Y + 4 * ((i:Int) * INCY)) = some (yv i) →
      wp (f i (st i)) m
        (fun s' m' => s' = st (i+1) ∧ m' = writeQ m (Y + 4 * ((i:Int) * INCY)) (new i))) :
    wp (foldN n f (st 0)) m0
      (fun _ m => VecAt m Y INCY n new ∧ SameOutside (VecCell Y INCY n) m0 m) := by
  apply wp_map st (fun i => Y + 4 * ((i:Int) * INCY)) new
  · intro i j hi hj hij; exact vec_disj (Or.inl hinc) hi hj hij
  · intro i m hi hF
    apply hbody i m hi
    · rw [← hX i hi]; apply readQ_congr
      intro a ha
      exact hF a (fun k hk hc => hr i k hk hi a ha hc)
    · rw [← hY i hi]; apply readQ_congr
      intro a ha
      apply hF a
      intro k hk hc
      have : QDisj (Y + 4 * ((i:Int) * INCY)) (Y + 4 * ((k:Int) * INCY)) :=
        vec_disj (Or.inl hinc) hi (by omega) (by omega)
      unfold InQ QDisj at *; omega
  · intro m h1 h2
    exact ⟨h1, fun a ha => h2 a (fun k hk hc => ha ⟨k, hk, hc⟩)⟩

/-- C48, COPYV (SIMD and portable): y receives the old x even if the vectors overlap, as long as no element of x
is overwritten before it is read. -/
theorem C48_copyv (m : Mem F) (N X INCX Y INCY : Int) (x y : Nat → Quat F)
    (hX : VecAt m X INCX N.toNat x) (hY : VecAt m Y INCY N.toNat y) (hinc : INCY ≠ 0)
    (hr : ReadFirst X INCX Y INCY N.toNat) :
    (∃ m', copyvAVX N X INCX Y INCY m = .ok ((), m') ∧ VecAt m' Y INCY N.toNat x ∧
      SameOutside (VecCell Y INCY N.toNat) m m') ∧
    (0 < INCX → 0 < INCY → Fits32 (N * INCX) → Fits32 (N * INCY) →
      ∃ m', copyvGen N X INCX Y INCY m = .ok ((), m') ∧ VecAt m' Y INCY N.toNat x ∧
      SameOutside (VecCell Y INCY N.toNat) m m') := by
  constructor
  · have key : ∀ al : Bool, (al = true → aligned32 X = true ∧ aligned32 Y = true) →
        wp (foldN N.toNat (fun _ loc => copyBody al INCX INCY loc) (X, Y)) m
        (fun _ m' => VecAt m' Y INCY N.toNat x ∧ SameOutside (VecCell Y INCY N.toNat) m m') := by
      intro al hal
      have := wp_ahead (f := fun _ loc => copyBody al INCX INCY loc)
        (fun i => (X + 4 * ((i:Int) * INCX), Y + 4 * ((i:Int) * INCY))) x hX hY hinc hr ?_
      · simp only [← vec_zero] at this; exact this
      · intro i m hi hx hy
        unfold copyBody
        rw [wp_bind, wp_loadM (fun h => aligned32_add (hal h).1 _) hx, wp_bind,
          wp_storeM (fun h => aligned32_add (hal h).2 _) hy, wp_pure]
        exact ⟨by simp only [vec_step], rfl⟩
    have : wp (copyvAVX N X INCX Y INCY) m
        (fun _ m' => VecAt m' Y INCY N.toNat x ∧ SameOutside (VecCell Y INCY N.toNat) m m') := by
      unfold copyvAVX
      by_cases h : (aligned32 X && aligned32 Y) = true
      · rw [if_pos h]; simp only [wp_bind, wp_pure]
        exact key true (fun _ => by simpa using h)
      · rw [if_neg h]; simp only [wp_bind, wp_pure]
        exact key false (fun h => by cases h)
    obtain ⟨_, m', h, h1⟩ := this
    exact ⟨m', h, h1⟩
  · intro hx hy fx fy
    have : wp (copyvGen N X INCX Y INCY) m
        (fun _ m' => VecAt m' Y INCY N.toNat x ∧ SameOutside (VecCell Y INCY N.toNat) m m') := by
      rw [copyvGen_eq hx hy fx fy]
      unfold forN
      refine wp_ahead (fun _ => ()) x hX hY hinc hr ?_
      intro i m hi hxi hyi
      unfold copyEl
      rw [wp_bind, wp_loadQ hxi, wp_storeQ hyi]
      exact ⟨rfl, rfl⟩
    obtain ⟨_, m', h, h1⟩ := this
    exact ⟨m', h, h1⟩

/-- Copying or swapping a vector with itself leaves the memory as it is (SIMD and portable). -/
theorem C48_self (m : Mem F) (N X INCX : Int) (x : Nat → Quat F) (hX : VecAt m X INCX N.toNat x) (hinc : INCX ≠ 0) :
    copyvAVX N X INCX X INCX m = .ok ((), m) ∧ swapvAVX N X INCX X INCX m = .ok ((), m) ∧
    (0 < INCX → Fits32 (N * INCX) → copyvGen N X INCX X INCX m = .ok ((), m) ∧ swapvGen N X INCX X INCX m = .ok ((), m)) := by
  have fin : ∀ m', VecAt m' X INCX N.toNat x → SameOutside (VecCell X INCX N.toNat) m m' → m' = m := by
    intro m' h1 h2
    funext a
    by_cases hc : VecCell X INCX N.toNat a
    · obtain ⟨i, hi, ha⟩ := hc
      exact mem_eq_of_readQ (h1 i hi) (hX i hi) ha
    · exact h2 a hc
  obtain ⟨⟨m1, h1, a1, b1⟩, hg⟩ := C48_copyv m N X INCX X INCX x x hX hX hinc (readFirst_self hinc)
  have wself : ∀ {m : Mem F} {p : Int} {q : Quat F}, readQ m p = some q → writeQ m p q = m := by
    intro m p q h
    funext a
    by_cases ha : InQ p a
    · exact mem_eq_of_readQ (readQ_writeQ_same _ _ _) h ha
    · exact writeQ_other ha
  refine ⟨by rw [h1, fin m1 a1 b1], ?_, ?_⟩
  · have key : ∀ al : Bool, (al = true → aligned32 X = true ∧ aligned32 X = true) →
        wp (foldN N.toNat (fun _ loc => swapBody al INCX INCX loc) (X, X)) m (fun _ m' => m' = m) := by
      intro al hal
      apply wp_foldN (fun i (s : Int × Int) m' => s = (X + 4 * ((i:Int) * INCX), X + 4 * ((i:Int) * INCX)) ∧ m' = m)
      · exact ⟨by simp, rfl⟩
      · rintro i s _ hi ⟨rfl, rfl⟩
        have hx := hX i hi
        unfold swapBody
        rw [wp_bind, wp_loadM (fun h => aligned32_add (hal h).1 _) hx, wp_bind,
          wp_loadM (fun h => aligned32_add (hal h).1 _) hx, wp_bind,
          wp_storeM (fun h => aligned32_add (hal h).1 _) hx, wp_bind, wself hx,
          wp_storeM (fun h => aligned32_add (hal h).1 _) hx, wself hx, wp_pure]
        exact ⟨by simp only [vec_step], rfl⟩
      · rintro s m' ⟨_, h⟩; exact h
    have : wp (swapvAVX N X INCX X INCX) m (fun _ m' => m' = m) := by
      unfold swapvAVX
      by_cases h : (aligned32 X && aligned32 X) = true
      · rw [if_pos h]; simp only [wp_bind, wp_pure]
        exact key true (fun _ => by simpa using h)
      · rw [if_neg h]; simp only [wp_bind, wp_pure]
        exact key false (fun h => by cases h)
    obtain ⟨_, m', h, rfl⟩ := this
    exact h
  · intro hx fx
    obtain ⟨m2, h2, a2, b2⟩ := hg hx hx fx fx
    refine ⟨by rw [h2, fin m2 a2 b2], ?_⟩
    have : wp (swapvGen N X INCX X INCX) m (fun _ m' => m' = m) := by
      rw [swapvGen_eq hx hx fx fx]
      unfold forN
      apply wp_foldN (fun _ _ m' => m' = m)
      · rfl
      · rintro i s _ hi rfl
        have hx := hX i hi
        unfold swapEl
        rw [wp_bind, wp_loadQ hx, wp_bind, wp_loadQ hx, wp_bind, wp_storeQ hx, wself hx, wp_storeQ hx, wself hx]
      · intro _ _ h; exact h
    obtain ⟨_, m', h, rfl⟩ := this
    exact h

/-- The other direction is not a move: COPYV from a vector to itself shifted up by one element puts `x_0`
into every element of y (SIMD and portable), it does not move the data as `memmove` would. -/
theorem C48_copyv_up (m : Mem F) (N X INCX : Int) (x : Nat → Quat F)
    (hX : VecAt m X INCX (N.toNat + 1) x) (hinc : INCX ≠ 0) :
    (∃ m', copyvAVX N X INCX (X + 4 * INCX) INCX m = .ok ((), m') ∧ VecAt m' (X + 4 * INCX) INCX N.toNat (fun _ => x 0)) ∧
    (0 < INCX → Fits32 (N * INCX) → ∃ m', copyvGen N X INCX (X + 4 * INCX) INCX m = .ok ((), m') ∧
      VecAt m' (X + 4 * INCX) INCX N.toNat (fun _ => x 0)) := by
  have ey : ∀ i : Nat, X + 4 * INCX + 4 * ((i:Int) * INCX) = X + 4 * (((i+1 : Nat) : Int) * INCX) := by
    intro i; push_cast; ring
  have gen : ∀ {σ : Type} (f : Nat → σ → Prog F σ) (st : Nat → σ),
      (∀ i m q p, i < N.toNat → readQ m (X + 4 * ((i:Int) * INCX)) = some q →
        readQ m (X + 4 * (((i+1 : Nat):Int) * INCX)) = some p →
        wp (f i (st i)) m (fun s' m' => s' = st (i+1) ∧ m' = writeQ m (X + 4 * (((i+1 : Nat):Int) * INCX)) q)) →
      wp (foldN N.toNat f (st 0)) m (fun _ m' => VecAt m' (X + 4 * INCX) INCX N.toNat (fun _ => x 0)) := by
    intro σ f st hb
    apply wp_foldN (fun i s m' => s = st i ∧ (∀ k : Nat, k ≤ i → readQ m' (X + 4 * ((k:Int) * INCX)) = some (x 0)) ∧
      ∀ k : Nat, i < k → k < N.toNat + 1 → readQ m' (X + 4 * ((k:Int) * INCX)) = some (x k))
    · refine ⟨rfl, ?_, ?_⟩
      · intro k hk
        rw [hX k (by omega), show k = 0 by omega]
      · intro k _ hk; exact hX k hk
    · rintro i s m' hi ⟨rfl, h1, h2⟩
      refine wp_mono (hb i m' _ _ hi (h1 i le_rfl) (h2 (i+1) (by omega) (by omega))) ?_
      rintro s' m2 ⟨hs, rfl⟩
      refine ⟨hs, ?_, ?_⟩
      · intro k hk
        by_cases e : k = i + 1
        · subst e; exact readQ_writeQ_same _ _ _
        · rw [readQ_writeQ_disj (strided_disj hinc (by omega))]
          exact h1 k (by omega)
      · intro k hk hk'
        rw [readQ_writeQ_disj (strided_disj hinc (by omega))]
        exact h2 k (by omega) hk'
    · rintro s m' ⟨_, h1, _⟩ i hi
      rw [ey]; exact h1 (i+1) (by omega)
  constructor
  · have key : ∀ al : Bool, (al = true → aligned32 X = true) →
        wp (foldN N.toNat (fun _ loc => copyBody al INCX INCX loc) (X, X + 4 * INCX)) m
        (fun _ m' => VecAt m' (X + 4 * INCX) INCX N.toNat (fun _ => x 0)) := by
      intro al hal
      have := gen (fun _ loc => copyBody al INCX INCX loc)
        (fun i => (X + 4 * ((i:Int) * INCX), X + 4 * (((i+1 : Nat):Int) * INCX))) ?_
      · have e : ((X + 4 * (((0:Nat):Int) * INCX), X + 4 * (((0 + 1 : Nat):Int) * INCX)) : Int × Int) = (X, X + 4 * INCX) := by simp
        rw [e] at this; exact this
      · intro i m q p hi hx hy
        unfold copyBody
        rw [wp_bind, wp_loadM (fun h => aligned32_add (hal h) _) hx, wp_bind,
          wp_storeM (fun h => aligned32_add (hal h) _) hy, wp_pure]
        exact ⟨by simp only [vec_step], rfl⟩
    have : wp (copyvAVX N X INCX (X + 4 * INCX) INCX) m
        (fun _ m' => VecAt m' (X + 4 * INCX) INCX N.toNat (fun _ => x 0)) := by
      unfold copyvAVX
      by_cases h : (aligned32 X && aligned32 (X + 4 * INCX)) = true
      · rw [if_pos h]; simp only [wp_bind, wp_pure]
        exact key true (fun _ => by simp only [Bool.and_eq_true] at h; exact h.1)
      · rw [if_neg h]; simp only [wp_bind, wp_pure]
        exact key false (fun h => by cases h)
    obtain ⟨_, m', h, h1⟩ := this
    exact ⟨m', h, h1⟩
  · intro hx fx
    have : wp (copyvGen N X INCX (X + 4 * INCX) INCX) m
        (fun _ m' => VecAt m' (X + 4 * INCX) INCX N.toNat (fun _ => x 0)) := by
      rw [copyvGen_eq hx hx fx fx]
      unfold forN
      refine gen _ (fun _ => ()) ?_
      intro i m q p hi hxi hyi
      unfold copyEl
      rw [wp_bind, wp_loadQ hxi, wp_storeQ (by rw [ey]; exact hyi), ey]
      exact ⟨rfl, rfl⟩
    obtain ⟨_, m', h, h1⟩ := this
    exact ⟨m', h, h1⟩

variable [Arith F]

/-- AXPYV (SIMD) with overlapping operands, bit for bit what it computes for disjoint ones. -/
theorem axpyv_ahead (m : Mem F) (SIDE : Char) (N X INCX Y INCY : Int) (ALPHA : Scal F) (x y : Nat → Quat F)
    (hX : VecAt m X INCX N.toNat x) (hY : VecAt m Y INCY N.toNat y) (hinc : INCY ≠ 0)
    (hr : ReadFirst X INCX Y INCY N.toNat) :
    ∃ m', axpyvAVX SIDE N ALPHA X INCX Y INCY m = .ok ((), m') ∧
      VecAt m' Y INCY N.toNat (fun i => axpyOp (SIDE == 'L') ALPHA (x i) (y i)) ∧
      SameOutside (VecCell Y INCY N.toNat) m m' := by
  have : wp (axpyvAVX SIDE N ALPHA X INCX Y INCY) m
      (fun _ m' => VecAt m' Y INCY N.toNat (fun i => axpyOp (SIDE == 'L') ALPHA (x i) (y i)) ∧
        SameOutside (VecCell Y INCY N.toNat) m m') := by
    unfold axpyvAVX
    simp only [wp_bind, wp_pure]
    have key := wp_ahead (f := fun _ (loc : Int × Int) => (do
        let x1 ← loadM (aligned32 X && aligned32 Y) loc.1
        let y1 ← loadM (aligned32 X && aligned32 Y) loc.2
        let y1 := axpyOp (SIDE == 'L') ALPHA x1 y1
        storeM (aligned32 X && aligned32 Y) loc.2 y1
        pure (loc.1 + 4 * INCX, loc.2 + 4 * INCY) : Prog F (Int × Int)))
      (fun i => (X + 4 * ((i:Int) * INCX), Y + 4 * ((i:Int) * INCY)))
      (fun i => axpyOp (SIDE == 'L') ALPHA (x i) (y i)) hX hY hinc hr ?_
    · simp only [← vec_zero] at key; exact key
    · intro i m hi hx hy
      have hal : (aligned32 X && aligned32 Y) = true → aligned32 X = true ∧ aligned32 Y = true := by simp
      rw [wp_bind, wp_loadM (fun h => aligned32_add (hal h).1 _) hx, wp_bind,
        wp_loadM (fun h => aligned32_add (hal h).2 _) hy]
      dsimp only
      rw [wp_bind, wp_storeM (fun h => aligned32_add (hal h).2 _) hy, wp_pure]
      exact ⟨by simp only [vec_step], rfl⟩
  obtain ⟨_, m', h, h1⟩ := this
  exact ⟨m', h, h1⟩

/-- the same for the portable AXPYV -/
theorem axpyvGen_ahead [ArithEq F] (m : Mem F) (SIDE : Char) (N X INCX Y INCY : Int) (ALPHA : Scal F) (x y : Nat → Quat F)
    (hX : VecAt m X INCX N.toNat x) (hY : VecAt m Y INCY N.toNat y) (hx : 0 < INCX) (hy : 0 < INCY)
    (fx : Fits32 (N * INCX)) (fy : Fits32 (N * INCY)) (hz : ALPHA.eqZero = false)
    (hr : ReadFirst X INCX Y INCY N.toNat) :
    ∃ m', axpyvGen SIDE N ALPHA X INCX Y INCY m = .ok ((), m') ∧
      VecAt m' Y INCY N.toNat (fun i => Quat.addAssign (y i)
        (if SIDE = 'R' then Scal.mulR (x i) ALPHA else Scal.mulL ALPHA (x i))) ∧
      SameOutside (VecCell Y INCY N.toNat) m m' := by
  have : wp (axpyvGen SIDE N ALPHA X INCX Y INCY) m
      (fun _ m' => VecAt m' Y INCY N.toNat (fun i => Quat.addAssign (y i)
        (if SIDE = 'R' then Scal.mulR (x i) ALPHA else Scal.mulL ALPHA (x i))) ∧
        SameOutside (VecCell Y INCY N.toNat) m m') := by
    rw [axpyvGen_eq hx hy fx fy hz]
    unfold forN
    refine wp_ahead (fun _ => ()) _ hX hY (by omega) hr ?_
    intro i m hi hxi hyi
    unfold axpyEl
    rw [wp_bind, wp_loadQ hxi, wp_bind, wp_loadQ hyi, wp_storeQ hyi]
    refine ⟨rfl, ?_⟩
    by_cases h : SIDE = 'R' <;> simp [h]
  obtain ⟨_, m', h, h1⟩ := this
  exact ⟨m', h, h1⟩

end

section
variable {R : Type} [CommRing R]

/-- C48, AXPYV (SIMD): `y := y + ALPHA x` with the old x, even if the vectors overlap, as long as no element of
x is overwritten before it is read. -/
theorem C48_axpyv (m : Mem R) (SIDE : Char) (N X INCX Y INCY : Int) (ALPHA : Scal R) (x y : Nat → Quat R)
    (hX : VecAt m X INCX N.toNat x) (hY : VecAt m Y INCY N.toNat y) (hinc : INCY ≠ 0)
    (hr : ReadFirst X INCX Y INCY N.toNat) :
    ∃ m', axpyvAVX SIDE N ALPHA X INCX Y INCY m = .ok ((), m') ∧
      VecAt m' Y INCY N.toNat (fun i => Quat.ofH ((y i).toH +
        (if SIDE = 'L' then ALPHA.toH * (x i).toH else (x i).toH * ALPHA.toH))) ∧
      SameOutside (VecCell Y INCY N.toNat) m m' := by
  obtain ⟨m', h, h1, h2⟩ := axpyv_ahead m SIDE N X INCX Y INCY ALPHA x y hX hY hinc hr
  refine ⟨m', h, ?_, h2⟩
  intro i hi
  rw [h1 i hi]
  refine congrArg some (eq_ofH ?_)
  rw [toH_axpyOp]
  by_cases e : SIDE = 'L' <;> simp [e]

/-- C48, in-place AXPYV (SIMD): `x := (1 + ALPHA) x` on the left, `x (1 + ALPHA)` on the right. -/
theorem C48_axpyv_self (m : Mem R) (SIDE : Char) (N X INCX : Int) (ALPHA : Scal R) (x : Nat → Quat R)
    (hX : VecAt m X INCX N.toNat x) (hinc : INCX ≠ 0) :
    ∃ m', axpyvAVX SIDE N ALPHA X INCX X INCX m = .ok ((), m') ∧
      VecAt m' X INCX N.toNat (fun i => Quat.ofH
        (if SIDE = 'L' then (1 + ALPHA.toH) * (x i).toH else (x i).toH * (1 + ALPHA.toH))) ∧
      SameOutside (VecCell X INCX N.toNat) m m' := by
  obtain ⟨m', h, h1, h2⟩ := C48_axpyv m SIDE N X INCX X INCX ALPHA x x hX hX hinc (readFirst_self hinc)
  refine ⟨m', h, ?_, h2⟩
  intro i hi
  rw [h1 i hi]
  refine congrArg some (congrArg Quat.ofH ?_)
  by_cases e : SIDE = 'L'
  · simp only [e, if_true]; rw [add_mul, one_mul]
  · simp only [e, if_false]; rw [mul_add, mul_one]

/-- C48, AXPYV (portable), as `C48_axpyv`; a nonzero ALPHA must be recognised as such. -/
theorem C48_axpyv_portable [DecidableEq R] (m : Mem R) (SIDE : Char) (hs : SIDE = 'L' ∨ SIDE = 'R') (N X INCX Y INCY : Int)
    (ALPHA : Scal R) (x y : Nat → Quat R)
    (hX : VecAt m X INCX N.toNat x) (hY : VecAt m Y INCY N.toNat y) (hx : 0 < INCX) (hy : 0 < INCY)
    (fx : Fits32 (N * INCX)) (fy : Fits32 (N * INCY)) (hz : ALPHA.eqZero = false)
    (hr : ReadFirst X INCX Y INCY N.toNat) :
    ∃ m', axpyvGen SIDE N ALPHA X INCX Y INCY m = .ok ((), m') ∧
      VecAt m' Y INCY N.toNat (fun i => Quat.ofH ((y i).toH +
        (if SIDE = 'L' then ALPHA.toH * (x i).toH else (x i).toH * ALPHA.toH))) ∧
      SameOutside (VecCell Y INCY N.toNat) m m' := by
  obtain ⟨m', h, h1, h2⟩ := axpyvGen_ahead m SIDE N X INCX Y INCY ALPHA x y hX hY hx hy fx fy hz hr
  refine ⟨m', h, ?_, h2⟩
  intro i hi
  rw [h1 i hi]
  refine congrArg some (eq_ofH ?_)
  rw [toH_addAssign]
  rcases hs with rfl | rfl
  · rw [if_neg (by decide), if_pos rfl, toH_smulL]
  · rw [if_pos rfl, if_neg (by decide), toH_smulR]

/-- C48, GEMM (SIMD) with B = A: `C := ALPHA·A*·A + BETA·C` is computed correctly when the two inputs are one
matrix; with ALPHA = 1, BETA = 0 the result is Hermitian. -/
theorem C48_gemm_gram (m : Mem R) (blk : Blk) (bAddr aAddr : Int) (junk : Int → R) (N K : Int)
    (A LDA C LDC : Int) (Av Cv : Nat → Nat → Quat R)
    (h : GemmPre m blk bAddr aAddr 'C' 'N' N.toNat N.toNat K.toNat A LDA Av A LDA Av C LDC Cv) :
    ∃ m' G, gemmAVX blk bAddr aAddr junk 'C' 'N' N N K (.d 1) A LDA A LDA (.d 0) C LDC m = .ok ((), m') ∧
      MatAt m' C LDC N.toNat N.toNat G ∧
      (∀ i j, (G i j).toH = ∑ k ∈ range K.toNat, star (Av k i).toH * (Av k j).toH) ∧
      (∀ i j, G j i = (G i j).conj) ∧
      (∀ i, (G i i).re = ∑ k ∈ range K.toNat, ((Av k i).re ^ 2 + (Av k i).i ^ 2 + (Av k i).j ^ 2 + (Av k i).k ^ 2) ∧
        (G i i).toH = ((G i i).re : ℍ[R])) := by
  obtain ⟨m', h1, h2⟩ := C22_gemm m blk bAddr aAddr junk 'C' 'N' N N K (.d 1) (.d 0) A LDA A LDA C LDC Av Av Cv h
  have e1 : (Scal.d (1:R)).toH = 1 := by ext <;> simp [Scal.toH]
  have e0 : (Scal.d (0:R)).toH = 0 := by ext <;> simp [Scal.toH]
  have eg : ∀ i j, (Scal.d (1:R)).toH * ∑ k ∈ range K.toNat, opSpec 'C' Av i k * opSpec 'N' Av k j +
      (Scal.d (0:R)).toH * (Cv i j).toH = ∑ k ∈ range K.toNat, star (Av k i).toH * (Av k j).toH := by
    intro i j
    rw [e1, e0, one_mul, zero_mul, add_zero]
    exact Finset.sum_congr rfl (fun k _ => by simp [opSpec])
  have hg : ∀ i j, (Quat.ofH (∑ k ∈ range K.toNat, star (Av k i).toH * (Av k j).toH)).toH =
    ∑ k ∈ range K.toNat, star (Av k i).toH * (Av k j).toH := fun i j => toH_ofH _
  have dg : ∀ i, ∑ k ∈ range K.toNat, star (Av k i).toH * (Av k i).toH =
      ((∑ k ∈ range K.toNat, ((Av k i).re ^ 2 + (Av k i).i ^ 2 + (Av k i).j ^ 2 + (Av k i).k ^ 2) : R) : ℍ[R]) := by
    intro i
    generalize K.toNat = n
    induction n with
    | zero => simp
    | succ n ih =>
      rw [sum_range_succ, sum_range_succ, ih, Quaternion.coe_add]
      congr 1
      apply Quaternion.ext (R := R)
      · rw [Quaternion.re_coe]; simp; ring
      · rw [Quaternion.imI_coe]; simp; ring
      · rw [Quaternion.imJ_coe]; simp; ring
      · rw [Quaternion.imK_coe]; simp; ring
  refine ⟨m', fun i j => Quat.ofH (∑ k ∈ range K.toNat, star (Av k i).toH * (Av k j).toH), h1, ?_, hg, ?_, ?_⟩
  · intro i j hi hj
    rw [h2 i j hi hj]
    exact congrArg some (congrArg Quat.ofH (eg i j))
  · intro i j
    rw [← toH_inj, toH_conj, hg, hg, star_sum]
    exact Finset.sum_congr rfl (fun k _ => by rw [star_mul, star_star])
  · intro i
    dsimp only
    rw [dg]
    refine ⟨?_, ?_⟩
    · unfold Quat.ofH; rw [Quaternion.re_coe]
    · rw [toH_ofH]; unfold Quat.ofH; rw [Quaternion.re_coe]

end

/-! ### Non-vacuity -/

/-- Moving 3 quaternions down by one place: `y_i` becomes the old `x_i = y_{i+1}`. -/
example (f : Int → Int) : ∃ m', copyvAVX 3 4 1 0 1 (memOf 0 16 f) = .ok ((), m') ∧
    readQ m' 0 = readQ (memOf 0 16 f) 4 ∧ readQ m' 8 = readQ (memOf 0 16 f) 12 := by
  have hv : ∀ p : Int, 0 ≤ p → p ≤ 4 → VecAt (memOf 0 16 f) p 1 3
      (fun i => ⟨f (p + 4 * (i * 1)), f (p + 4 * (i * 1) + 1), f (p + 4 * (i * 1) + 2), f (p + 4 * (i * 1) + 3)⟩) := by
    intro p h1 h2 i hi
    exact readQ_memOf (by omega) (by omega)
  obtain ⟨⟨m', h, h1, _⟩, _⟩ := C48_copyv (memOf 0 16 f) 3 4 1 0 1 _ _ (hv 4 (by omega) (by omega)) (hv 0 (by omega) (by omega))
    (by decide) (readFirst_down (by decide) (by decide))
  refine ⟨m', h, ?_, ?_⟩
  · exact (h1 0 (by decide)).trans ((hv 4 (by omega) (by omega)) 0 (by decide)).symm
  · exact (h1 2 (by decide)).trans ((hv 4 (by omega) (by omega)) 2 (by decide)).symm

/-- `Aᴴ A` for a 2 × 3 matrix A meets the conditions of `C48_gemm_gram`. -/
theorem gram_example {F : Type} [Arith F] (f : Int → F) :
    GemmPre (memOf 0 100 f) ⟨64, 512, 64⟩ 1000 200000 'C' 'N' 3 3 2
      0 2 (fun i j => let p : Int := 0 + 4 * (i + j * 2); ⟨f p, f (p+1), f (p+2), f (p+3)⟩)
      0 2 (fun i j => let p : Int := 0 + 4 * (i + j * 2); ⟨f p, f (p+1), f (p+2), f (p+3)⟩)
      40 4 (fun i j => let p : Int := 40 + 4 * (i + j * 4); ⟨f p, f (p+1), f (p+2), f (p+3)⟩) where
  mc_pos := by decide
  nc_pos := by decide
  kc_pos := by decide
  mc_even := by decide
  nc_even := by decide
  matA := by
    intro i j hi hj
    have h1 : i < 2 := hi
    have h2 : j < 3 := hj
    exact readQ_memOf (by omega) (by omega)
  matB := by
    intro i j hi hj
    have h1 : i < 2 := hi
    have h2 : j < 3 := hj
    exact readQ_memOf (by omega) (by omega)
  matC := by
    intro i j hi hj
    exact readQ_memOf (by omega) (by omega)
  lda := by decide
  ldb := by decide
  ldc := by decide
  apartA := by
    rintro a ⟨i, j, hi, hj, h⟩ ⟨i', j', hi', hj', h'⟩
    have h1 : i < 2 := hi
    have h2 : j < 3 := hj
    unfold InQ at *; omega
  apartB := by
    rintro a ⟨i, j, hi, hj, h⟩ ⟨i', j', hi', hj', h'⟩
    have h1 : i < 2 := hi
    have h2 : j < 3 := hj
    unfold InQ at *; omega
  alignB := by decide
  alignA := by decide
  freshB := by
    intro a ha
    unfold InBuf at ha; unfold memOf
    rw [if_neg (by omega)]
  freshA := by
    intro a ha
    unfold InBuf at ha; unfold memOf
    rw [if_neg (by omega)]
  freshAB := by
    intro a h1 h2
    have e1 : fixMod ((64:Int) * 64) 32 = 4096 := by decide
    have e2 : fixMod ((64:Int) * 512) 32 = 32768 := by decide
    simp only [InBuf] at h1 h2
    omega
  kc32 := by unfold Fits32; decide
  m32 := by unfold Fits32; decide
  n32 := by unfold Fits32; decide
  k32 := by unfold Fits32; decide
  ldc32 := by unfold Fits32; decide
  ldcN32 := by unfold Fits32; decide
  ldbN32 := by unfold Fits32; decide
  ldbK32 := by unfold Fits32; decide
  ldaM32 := by unfold Fits32; decide
  ldaK32 := by unfold Fits32; decide

end Haxx
