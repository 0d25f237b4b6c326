import Verif.Hblas1
import Verif.QuatLemmas
import Mathlib.Algebra.BigOperators.Intervals

/-! Proofs about the SIMD level-1 routines. -/

namespace Haxx
open Quaternion

variable {F : Type}

theorem aligned32_iff {p : Int} : aligned32 p = true ↔ p % 4 = 0 := by
  simp [aligned32]

theorem aligned32_add {p : Int} (h : aligned32 p = true) (k : Int) :
    aligned32 (p + 4 * k) = true := by
  rw [aligned32_iff] at *; omega

theorem wp_loadM {al : Bool} {p : Int} {m : Mem F} {Q : Quat F → Mem F → Prop} {q : Quat F}
    (ha : al = true → aligned32 p = true) (h : readQ m p = some q) :
    wp (loadM al p) m Q ↔ Q q m := by
  unfold loadM
  cases al with
  | true => simpa using wp_loadA (ha rfl) h
  | false => simpa using wp_loadQ h

theorem wp_storeM {al : Bool} {p : Int} {q : Quat F} {m : Mem F} {Q : Unit → Mem F → Prop}
    {q0 : Quat F} (ha : al = true → aligned32 p = true) (h : readQ m p = some q0) :
    wp (storeM al p q) m Q ↔ Q () (writeQ m p q) := by
  unfold storeM
  cases al with
  | true => simpa using wp_storeA (ha rfl) h
  | false => simpa using wp_storeQ h

theorem vec_step (p inc : Int) (i : Nat) :
    p + 4 * ((i:Int) * inc) + 4 * inc = p + 4 * (((i + 1 : Nat) : Int) * inc) := by
  push_cast; ring

theorem vec_zero (p inc : Int) : p = p + 4 * (((0 : Nat) : Int) * inc) := by simp

/-- Reading element `i` of a vector none of whose cells changed. -/
theorem read_unchanged {m m0 : Mem F} {p : Int} {q : Quat F} (S : Int → Prop)
    (hs : ∀ a, ¬ S a → m a = m0 a) (hd : ∀ a, InQ p a → ¬ S a) (h : readQ m0 p = some q) :
    readQ m p = some q := by
  rw [← h]; exact readQ_congr (fun a ha => hs a (hd a ha))


theorem vec_disj {p inc : Int} {n i j : Nat} (hinc : inc ≠ 0 ∨ n ≤ 1) (hi : i < n) (hj : j < n)
    (hij : i ≠ j) : QDisj (p + 4 * ((i:Int) * inc)) (p + 4 * ((j:Int) * inc)) := by
  rcases hinc with h | h
  · exact strided_disj h hij
  · omega

/-- Element-wise vector update: step `i` reads `y_i` and cells outside the vector, and stores
`new i` to `y_i`. -/
theorem wp_vecmap {σ : Type} {f : Nat → σ → Prog F σ} {m0 : Mem F} (st : Nat → σ)
    {Y INCY : Int} {n : Nat} {yv : Nat → Quat F} (new : Nat → Quat F)
    (hY : VecAt m0 Y INCY n yv) (hinc : INCY ≠ 0 ∨ n ≤ 1)
    (hbody : ∀ i m, i < n → readQ m (Y + 4 * ((i:Int) * INCY)) = some (yv i) →
      SameOutside (VecCell Y INCY n) m0 m →
      wp (f i (st i)) m
        (fun s' m' => s' = st (i+1) ∧ m' = writeQ m (Y + 4 * ((i:Int) * INCY)) (new i))) :
    wp (foldN n f (st 0)) m0
      (fun s m => s = st n ∧ VecAt m Y INCY n new ∧ SameOutside (VecCell Y INCY n) m0 m) := by
  apply wp_map st (fun i => Y + 4 * ((i:Int) * INCY)) new
  · intro i j hi hj hij; exact vec_disj hinc hi hj hij
  · intro i m hi hF
    apply hbody i m hi
    · rw [← hY i hi]; apply readQ_congr
      intro a ha
      apply hF a
      intro k hk hc
      have : QDisj (Y + 4 * ((i:Int) * INCY)) (Y + 4 * ((k:Int) * INCY)) :=
        vec_disj hinc hi (by omega) (by omega)
      unfold InQ QDisj at *; omega
    · intro a ha
      exact hF a (fun k hk hc => ha ⟨k, by omega, hc⟩)
  · intro m h1 h2
    exact ⟨rfl, h1, fun a ha => h2 a (fun k hk hc => ha ⟨k, hk, hc⟩)⟩

theorem vecAt_apart {m m0 : Mem F} {S : Int → Prop} {X INCX : Int} {n : Nat} {xv : Nat → Quat F}
    (hX : VecAt m0 X INCX n xv) (hd : Apart (VecCell X INCX n) S) (hs : SameOutside S m0 m) :
    VecAt m X INCX n xv := by
  intro i hi
  exact read_unchanged S hs (fun a ha => hd a ⟨i, hi, ha⟩) (hX i hi)

/-- Two-vector loop: reads `x_i`, `y_i`, stores `new i` to `y_i`; pointers advance. -/
theorem wp_vecmap2 {f : Nat → Int × Int → Prog F (Int × Int)} {m0 : Mem F}
    {X INCX Y INCY : Int} {n : Nat} {xv yv : Nat → Quat F} (new : Nat → Quat F)
    (hX : VecAt m0 X INCX n xv) (hY : VecAt m0 Y INCY n yv) (hinc : INCY ≠ 0 ∨ n ≤ 1)
    (hdis : Apart (VecCell X INCX n) (VecCell Y INCY n))
    (hbody : ∀ i m, i < n → readQ m (X + 4 * ((i:Int) * INCX)) = some (xv i) →
      readQ m (Y + 4 * ((i:Int) * INCY)) = some (yv i) →
      wp (f i (X + 4 * ((i:Int) * INCX), Y + 4 * ((i:Int) * INCY))) m
        (fun s' m' => s' = (X + 4 * ((i:Int) * INCX) + 4 * INCX, Y + 4 * ((i:Int) * INCY) + 4 * INCY)
          ∧ m' = writeQ m (Y + 4 * ((i:Int) * INCY)) (new i))) :
    wp (foldN n f (X, Y)) m0
      (fun _ m => VecAt m Y INCY n new ∧ SameOutside (VecCell Y INCY n) m0 m) := by
  have key := wp_vecmap (f := f) (m0 := m0)
    (fun i => (X + 4 * ((i:Int) * INCX), Y + 4 * ((i:Int) * INCY))) new hY hinc ?_
  · simp only [← vec_zero] at key
    exact wp_mono key (fun _ _ h => h.2)
  · intro i m hi hy hs
    refine wp_mono (hbody i m hi (vecAt_apart hX hdis hs i hi) hy) ?_
    rintro s' m' ⟨rfl, rfl⟩
    exact ⟨by simp only [vec_step], rfl⟩

theorem copyvAVX_wp {m0 : Mem F} {N X INCX Y INCY : Int} {xv yv : Nat → Quat F}
    (hX : VecAt m0 X INCX N.toNat xv) (hY : VecAt m0 Y INCY N.toNat yv)
    (hinc : INCY ≠ 0 ∨ N.toNat ≤ 1)
    (hdis : Apart (VecCell X INCX N.toNat) (VecCell Y INCY N.toNat)) :
    wp (copyvAVX N X INCX Y INCY) m0
      (fun _ m => VecAt m Y INCY N.toNat xv ∧ SameOutside (VecCell Y INCY N.toNat) m0 m) := by
  have key : ∀ al : Bool, (al = true → aligned32 X = true ∧ aligned32 Y = true) →
      wp (foldN N.toNat (fun _ loc => copyBody al INCX INCY loc) (X, Y)) m0
      (fun _ m => VecAt m Y INCY N.toNat xv ∧ SameOutside (VecCell Y INCY N.toNat) m0 m) := by
    intro al hal
    apply wp_vecmap2 xv hX hY hinc hdis
    intro i m hi hx hy
    unfold copyBody
    rw [wp_bind, wp_loadM (fun h => aligned32_add (hal h).1 _) hx, wp_bind,
      wp_storeM (fun h => aligned32_add (hal h).2 _) hy, wp_pure]
    exact ⟨rfl, rfl⟩
  unfold copyvAVX
  by_cases h : (aligned32 X && aligned32 Y) = true
  · rw [if_pos h]; simp only [wp_bind, wp_pure]
    exact key true (fun _ => by simpa using h)
  · rw [if_neg h]; simp only [wp_bind, wp_pure]
    exact key false (fun h => by cases h)

theorem swapvAVX_wp {m0 : Mem F} {N X INCX Y INCY : Int} {xv yv : Nat → Quat F}
    (hX : VecAt m0 X INCX N.toNat xv) (hY : VecAt m0 Y INCY N.toNat yv)
    (hincx : INCX ≠ 0 ∨ N.toNat ≤ 1) (hincy : INCY ≠ 0 ∨ N.toNat ≤ 1)
    (hdis : Apart (VecCell X INCX N.toNat) (VecCell Y INCY N.toNat)) :
    wp (swapvAVX N X INCX Y INCY) m0
      (fun _ m => VecAt m X INCX N.toNat yv ∧ VecAt m Y INCY N.toNat xv ∧
        SameOutside (fun a => VecCell X INCX N.toNat a ∨ VecCell Y INCY N.toNat a) m0 m) := by
  have key : ∀ al : Bool, (al = true → aligned32 X = true ∧ aligned32 Y = true) →
      wp (foldN N.toNat (fun _ loc => swapBody al INCX INCY loc) (X, Y)) m0
      (fun _ m => VecAt m X INCX N.toNat yv ∧ VecAt m Y INCY N.toNat xv ∧
        SameOutside (fun a => VecCell X INCX N.toNat a ∨ VecCell Y INCY N.toNat a) m0 m) := by
    intro al hal
    have hxy : ∀ i j, i < N.toNat → j < N.toNat →
        ∀ a, InQ (X + 4 * ((i:Int) * INCX)) a → ¬ InQ (Y + 4 * ((j:Int) * INCY)) a :=
      fun i j hi hj a h1 h2 => hdis a ⟨i, hi, h1⟩ ⟨j, hj, h2⟩
    have hw := wp_region (n := N.toNat) (f := fun _ loc => swapBody (F := F) al INCX INCY loc)
      (m0 := m0) (fun i => (X + 4 * ((i:Int) * INCX), Y + 4 * ((i:Int) * INCY)))
      (fun i a => InQ (X + 4 * ((i:Int) * INCX)) a ∨ InQ (Y + 4 * ((i:Int) * INCY)) a)
      (fun i m => readQ m (X + 4 * ((i:Int) * INCX)) = some (yv i) ∧
        readQ m (Y + 4 * ((i:Int) * INCY)) = some (xv i))
      (Q := fun _ m => VecAt m X INCX N.toNat yv ∧ VecAt m Y INCY N.toNat xv ∧
        SameOutside (fun a => VecCell X INCX N.toNat a ∨ VecCell Y INCY N.toNat a) m0 m)
      ?_ ?_ ?_ ?_
    · simp only [← vec_zero] at hw; exact hw
    · intro i j a hi hj hij h1 h2
      rcases h1 with h1 | h1 <;> rcases h2 with h2 | h2
      · have : QDisj (X + 4 * ((i:Int) * INCX)) (X + 4 * ((j:Int) * INCX)) :=
          vec_disj hincx hi hj hij
        unfold InQ QDisj at *; omega
      · exact hxy i j hi hj a h1 h2
      · exact hxy j i hj hi a h2 h1
      · have : QDisj (Y + 4 * ((i:Int) * INCY)) (Y + 4 * ((j:Int) * INCY)) :=
          vec_disj hincy hi hj hij
        unfold InQ QDisj at *; omega
    · rintro i m m' hi h ⟨h1, h2⟩
      refine ⟨?_, ?_⟩
      · rw [← h1]; exact (readQ_congr (fun a ha => h a (Or.inl ha))).symm
      · rw [← h2]; exact (readQ_congr (fun a ha => h a (Or.inr ha))).symm
    · intro i m hi hF
      have hx : readQ m (X + 4 * ((i:Int) * INCX)) = some (xv i) := by
        rw [← hX i hi]; apply readQ_congr
        intro a ha
        apply hF a
        rintro k hk (hc | hc)
        · have : QDisj (X + 4 * ((i:Int) * INCX)) (X + 4 * ((k:Int) * INCX)) :=
            vec_disj hincx hi (by omega) (by omega)
          unfold InQ QDisj at *; omega
        · exact hxy i k hi (by omega) a ha hc
      have hy : readQ m (Y + 4 * ((i:Int) * INCY)) = some (yv i) := by
        rw [← hY i hi]; apply readQ_congr
        intro a ha
        apply hF a
        rintro k hk (hc | hc)
        · exact hxy k i (by omega) hi a hc ha
        · have : QDisj (Y + 4 * ((i:Int) * INCY)) (Y + 4 * ((k:Int) * INCY)) :=
            vec_disj hincy hi (by omega) (by omega)
          unfold InQ QDisj at *; omega
      have hd : QDisj (X + 4 * ((i:Int) * INCX)) (Y + 4 * ((i:Int) * INCY)) := by
        have h1 := hxy i i hi hi (X + 4 * ((i:Int) * INCX)) (by unfold InQ; omega)
        have h2 := hxy i i hi hi (Y + 4 * ((i:Int) * INCY))
        unfold InQ QDisj at *; omega
      unfold swapBody
      rw [wp_bind, wp_loadM (fun h => aligned32_add (hal h).1 _) hx, wp_bind,
        wp_loadM (fun h => aligned32_add (hal h).2 _) hy, wp_bind,
        wp_storeM (fun h => aligned32_add (hal h).2 _) hy, wp_bind,
        wp_storeM (q0 := xv i) (fun h => aligned32_add (hal h).1 _)
          (by rw [readQ_writeQ_disj hd]; exact hx), wp_pure]
      refine ⟨by simp only [vec_step], ⟨readQ_writeQ_same _ _ _, ?_⟩, ?_⟩
      · rw [readQ_writeQ_disj (by unfold QDisj at *; omega), readQ_writeQ_same]
      · intro a ha
        rw [writeQ_other (fun h => ha (Or.inl h)), writeQ_other (fun h => ha (Or.inr h))]
    · intro m h1 h2
      refine ⟨fun i hi => (h1 i hi).1, fun i hi => (h1 i hi).2, ?_⟩
      intro a ha
      apply h2 a
      rintro k hk (hc | hc)
      · exact ha (Or.inl ⟨k, hk, hc⟩)
      · exact ha (Or.inr ⟨k, hk, hc⟩)
  unfold swapvAVX
  by_cases h : (aligned32 X && aligned32 Y) = true
  · rw [if_pos h]; simp only [wp_bind, wp_pure]
    exact key true (fun _ => by simpa using h)
  · rw [if_neg h]; simp only [wp_bind, wp_pure]
    exact key false (fun h => by cases h)

section
variable [Arith F]

theorem scalvAVX_wp {m0 : Mem F} {SIDE : Char} {N X INCX : Int} {ALPHA : Scal F}
    {xv : Nat → Quat F} (hX : VecAt m0 X INCX N.toNat xv) (hinc : INCX ≠ 0 ∨ N.toNat ≤ 1) :
    wp (scalvAVX SIDE N ALPHA X INCX) m0
      (fun _ m => VecAt m X INCX N.toNat (fun i => scalOp (SIDE == 'L') ALPHA (xv i)) ∧
        SameOutside (VecCell X INCX N.toNat) m0 m) := by
  unfold scalvAVX
  simp only [wp_bind, wp_pure]
  have key := wp_vecmap (F := F) (n := N.toNat) (m0 := m0)
    (f := fun _ locX => do
      let x1 ← loadM (aligned32 X) locX
      let x1 := scalOp (SIDE == 'L') ALPHA x1
      storeM (aligned32 X) locX x1
      pure (locX + 4 * INCX))
    (fun i => X + 4 * ((i:Int) * INCX))
    (fun i => scalOp (SIDE == 'L') ALPHA (xv i)) hX hinc ?_
  · simp only [← vec_zero] at key
    exact wp_mono key (fun _ _ h => h.2)
  · intro i m hi hx hs
    rw [wp_bind, wp_loadM (fun h => aligned32_add h _) hx, wp_bind,
      wp_storeM (fun h => aligned32_add h _) hx, wp_pure]
    exact ⟨by simp only [vec_step], rfl⟩

theorem axpyvAVX_wp {m0 : Mem F} {SIDE : Char} {N X INCX Y INCY : Int} {ALPHA : Scal F}
    {xv yv : Nat → Quat F}
    (hX : VecAt m0 X INCX N.toNat xv) (hY : VecAt m0 Y INCY N.toNat yv)
    (hinc : INCY ≠ 0 ∨ N.toNat ≤ 1)
    (hdis : Apart (VecCell X INCX N.toNat) (VecCell Y INCY N.toNat)) :
    wp (axpyvAVX SIDE N ALPHA X INCX Y INCY) m0
      (fun _ m => VecAt m Y INCY N.toNat (fun i => axpyOp (SIDE == 'L') ALPHA (xv i) (yv i)) ∧
        SameOutside (VecCell Y INCY N.toNat) m0 m) := by
  unfold axpyvAVX
  simp only [wp_bind, wp_pure]
  apply wp_vecmap2 (fun i => axpyOp (SIDE == 'L') ALPHA (xv i) (yv i)) hX hY hinc hdis
  intro i m hi hx hy
  have hal : (aligned32 X && aligned32 Y) = true → aligned32 X = true ∧ aligned32 Y = true :=
    fun h => by simpa using h
  rw [wp_bind, wp_loadM (fun h => aligned32_add (hal h).1 _) hx, wp_bind,
    wp_loadM (fun h => aligned32_add (hal h).2 _) hy, wp_bind,
    wp_storeM (fun h => aligned32_add (hal h).2 _) hy, wp_pure]
  exact ⟨rfl, rfl⟩

/-- Batched accumulation of `dot.cxx` as a function of the vector contents. -/
def dotBatches (conj : Bool) (xv yv : Nat → Quat F) : Nat → R4 F
  | 0 => ⟨setzero, setzero, setzero, setzero⟩
  | b+1 =>
    let x := transpose4 ⟨xv (4*b), xv (4*b+1), xv (4*b+2), xv (4*b+3)⟩
    let y := transpose4 ⟨yv (4*b), yv (4*b+1), yv (4*b+2), yv (4*b+3)⟩
    if conj then INC_MULD4Q_CN x y (dotBatches conj xv yv b)
    else INC_MULD4Q_NN x y (dotBatches conj xv yv b)

/-- Clean-up accumulation of `dot.cxx` as a function of the vector contents. -/
def dotRest (conj : Bool) (xv yv : Nat → Quat F) (o : Nat) (r : Quat F) : Nat → Quat F
  | 0 => r
  | i+1 => vadd (dotRest conj xv yv o r i)
      (if conj then MULDQ_CN (xv (o+i)) (yv (o+i)) else MULDQ_NN (xv (o+i)) (yv (o+i)))

/-- The value of `dot.cxx` as a function of the vector contents. -/
def dotVal (conj : Bool) (n : Nat) (xv yv : Nat → Quat F) : Quat F :=
  let r := transpose4 (dotBatches conj xv yv (n/4))
  dotRest conj xv yv (4*(n/4)) (vadd (vadd (vadd r.r1 r.r2) r.r3) r.r4) (n%4)

theorem dotAVX_wp {m0 : Mem F} {conj : Bool} {N X INCX Y INCY : Int}
    {xv yv : Nat → Quat F}
    (hX : VecAt m0 X INCX N.toNat xv) (hY : VecAt m0 Y INCY N.toNat yv)
    (h32x : N ≥ 2 → Fits32 (4 * INCX)) (h32y : N ≥ 2 → Fits32 (4 * INCY)) :
    wp (dotAVX conj N X INCX Y INCY) m0
      (fun r m => r = dotVal conj N.toNat xv yv ∧ m = m0) := by
  have hb : (N.tdiv 4).toNat = N.toNat / 4 := by
    rcases Int.le_total 0 N with h | h
    · rw [Int.tdiv_eq_ediv_of_nonneg h]; omega
    · have h2 : N.tdiv 4 ≤ 0 := by
        have := Int.tdiv_nonneg (a := -N) (b := 4) (by omega) (by omega)
        rw [Int.neg_tdiv] at this; omega
      omega
  have hr : (N.tmod 4).toNat = N.toNat % 4 := by
    rcases Int.le_total 0 N with h | h
    · rw [Int.tmod_eq_emod_of_nonneg h]; omega
    · have h2 : N.tmod 4 ≤ 0 := by
        have := Int.tmod_nonneg 4 (a := -N) (by omega)
        rw [Int.neg_tmod] at this; omega
      omega
  have hal : (aligned32 X && aligned32 Y) = true → aligned32 X = true ∧ aligned32 Y = true :=
    fun h => by simpa using h
  generalize hn : N.toNat = n at *
  have haddr : ∀ (P INC : Int) (b c : Nat),
      P + 4 * (((4 * b : Nat) : Int) * INC) + 4 * ((c : Int) * INC) =
        P + 4 * (((4 * b + c : Nat) : Int) * INC) := by
    intros; push_cast; ring
  unfold dotAVX
  simp only [hb, hr, wp_bind]
  apply wp_foldN (fun b (s : DotSt F) m => s = ⟨X + 4 * (((4 * b : Nat) : Int) * INCX),
    Y + 4 * (((4 * b : Nat) : Int) * INCY), dotBatches conj xv yv b⟩ ∧ m = m0)
  · exact ⟨by simp [dotBatches], rfl⟩
  · rintro b s m hbn ⟨rfl, rfl⟩
    have hNx := h32x (by omega)
    have hNy := h32y (by omega)
    unfold Fits32 at hNx hNy
    have hx : ∀ c : Nat, c < 4 →
        readQ m (X + 4 * (((4 * b : Nat) : Int) * INCX) + 4 * ((c : Int) * INCX)) =
          some (xv (4 * b + c)) := by
      intro c hc; rw [haddr]; exact hX _ (by omega)
    have hy : ∀ c : Nat, c < 4 →
        readQ m (Y + 4 * (((4 * b : Nat) : Int) * INCY) + 4 * ((c : Int) * INCY)) =
          some (yv (4 * b + c)) := by
      intro c hc; rw [haddr]; exact hY _ (by omega)
    have hx0 := hx 0 (by omega); have hx1 := hx 1 (by omega)
    have hx2 := hx 2 (by omega); have hx3 := hx 3 (by omega)
    have hy0 := hy 0 (by omega); have hy1 := hy 1 (by omega)
    have hy2 := hy 2 (by omega); have hy3 := hy 3 (by omega)
    simp only [Nat.cast_zero, zero_mul, mul_zero, add_zero, Nat.cast_one, one_mul,
      Nat.cast_ofNat] at hx0 hx1 hx2 hx3 hy0 hy1 hy2 hy3
    have ax : ∀ k, (aligned32 X && aligned32 Y) = true →
        aligned32 (X + 4 * (((4 * b : Nat) : Int) * INCX) + 4 * k) = true :=
      fun k h => aligned32_add (aligned32_add (hal h).1 _) _
    have ay : ∀ k, (aligned32 X && aligned32 Y) = true →
        aligned32 (Y + 4 * (((4 * b : Nat) : Int) * INCY) + 4 * k) = true :=
      fun k h => aligned32_add (aligned32_add (hal h).2 _) _
    unfold dotBatch
    rw [wp_bind, wp_i32 (by omega), wp_bind, wp_i32 (by omega),
      wp_bind, wp_loadM (fun h => aligned32_add (hal h).1 _) hx0,
      wp_bind, wp_loadM (ax _) hx1, wp_bind, wp_loadM (ax _) hx2, wp_bind, wp_loadM (ax _) hx3,
      wp_bind, wp_i32 (by omega), wp_bind, wp_i32 (by omega),
      wp_bind, wp_loadM (fun h => aligned32_add (hal h).2 _) hy0,
      wp_bind, wp_loadM (ay _) hy1, wp_bind, wp_loadM (ay _) hy2, wp_bind, wp_loadM (ay _) hy3,
      wp_bind, wp_i32 (by omega), wp_bind, wp_i32 (by omega), wp_pure]
    refine ⟨?_, rfl⟩
    rw [DotSt.mk.injEq]
    refine ⟨by push_cast; ring, by push_cast; ring, rfl⟩
  · rintro s m ⟨rfl, rfl⟩
    apply wp_foldN (fun i r m' => r = dotRest conj xv yv (4 * (n/4))
      (let r := transpose4 (dotBatches conj xv yv (n/4))
       vadd (vadd (vadd r.r1 r.r2) r.r3) r.r4) i ∧ m' = m)
    · exact ⟨rfl, rfl⟩
    · rintro i r m' hi ⟨rfl, rfl⟩
      have hfx : Fits32 ((i:Int) * INCX) := by
        by_cases hN : N ≥ 2
        · have := h32x hN; have h4 : i = 0 ∨ i = 1 ∨ i = 2 := by omega
          unfold Fits32 at *
          rcases h4 with rfl | rfl | rfl <;> push_cast <;> omega
        · have : i = 0 := by omega
          subst this; simp [Fits32]
      have hfy : Fits32 ((i:Int) * INCY) := by
        by_cases hN : N ≥ 2
        · have := h32y hN; have h4 : i = 0 ∨ i = 1 ∨ i = 2 := by omega
          unfold Fits32 at *
          rcases h4 with rfl | rfl | rfl <;> push_cast <;> omega
        · have : i = 0 := by omega
          subst this; simp [Fits32]
      have hx : readQ m' (X + 4 * (((4 * (n/4) : Nat) : Int) * INCX) + 4 * ((i : Int) * INCX)) =
          some (xv (4 * (n/4) + i)) := by rw [haddr]; exact hX _ (by omega)
      have hy : readQ m' (Y + 4 * (((4 * (n/4) : Nat) : Int) * INCY) + 4 * ((i : Int) * INCY)) =
          some (yv (4 * (n/4) + i)) := by rw [haddr]; exact hY _ (by omega)
      unfold dotClean
      rw [wp_bind, wp_i32 hfx, wp_bind, wp_i32 hfy, wp_bind,
        wp_loadM (fun h => aligned32_add (aligned32_add (hal h).1 _) _) hx, wp_bind,
        wp_loadM (fun h => aligned32_add (aligned32_add (hal h).2 _) _) hy]
      cases conj <;> simp only [Bool.false_eq_true, if_false, if_true, wp_pure] <;>
        exact ⟨by simp [dotRest], trivial⟩
    · rintro r m' ⟨rfl, rfl⟩
      exact ⟨rfl, rfl⟩

end

/-! Exact values -/

section exact
variable {R : Type} [CommRing R]

theorem toH_scalOp (ml : Bool) (s : Scal R) (x : Quat R) :
    (scalOp ml s x).toH = if ml then s.toH * x.toH else x.toH * s.toH := by
  cases s with
  | d a => cases ml <;> ext <;> simp [scalOp, alphaRegs, vmul, broadcast, Scal.toH, mul_comm]
  | z a =>
    cases ml <;> ext <;> simp [scalOp, alphaRegs, vmul, vhsub, xorSign, permute4, set256, Scal.toH,
      Nat.testBit, Cplx.conj] <;> ring
  | h a => cases ml <;> simp [scalOp, alphaRegs, toH_MULDQ_NN, Scal.toH]

theorem toH_axpyOp (ml : Bool) (s : Scal R) (x y : Quat R) :
    (axpyOp ml s x y).toH = y.toH + if ml then s.toH * x.toH else x.toH * s.toH := by
  cases s with
  | d a => cases ml <;> ext <;> simp [axpyOp, alphaRegs, vfma, broadcast, Scal.toH] <;> ring
  | z a =>
    cases ml <;> ext <;> simp [axpyOp, alphaRegs, vmul, vhsub, vadd, xorSign, permute4, set256,
      Scal.toH, Nat.testBit, Cplx.conj] <;> ring
  | h a => cases ml <;> simp [axpyOp, alphaRegs, toH_MULDQ_NN, Scal.toH, toH_vadd]

end exact

end Haxx
