import Verif.Generic1

/-! Proofs about the portable level-1 templates. -/

namespace Haxx
open Quaternion Finset

section loops
variable {F : Type} {α β γ σ : Type}

theorem prog_bind_assoc (p : Prog F α) (f : α → Prog F β) (g : β → Prog F γ) :
    (p >>= f) >>= g = p >>= fun a => f a >>= g := by
  funext m
  cases h : p m with
  | error e => rw [bind_error (bind_error h), bind_error h]
  | ok r =>
    obtain ⟨a, m'⟩ := r
    rw [bind_ok h]
    cases h2 : f a m' with
    | error e =>
      rw [bind_error (by rw [bind_ok h]; exact h2), bind_error h2]
    | ok r =>
      obtain ⟨b, m2⟩ := r
      rw [bind_ok (show (p >>= f) m = _ by rw [bind_ok h]; exact h2), bind_ok h2]

theorem prog_pure_bind (a : α) (f : α → Prog F β) : (pure a : Prog F α) >>= f = f a := by
  funext m; rfl

theorem prog_bind_pure (p : Prog F α) : (p >>= fun a => pure a) = p := by
  funext m
  cases h : p m with
  | error e => rw [bind_error h]
  | ok r => obtain ⟨a, m'⟩ := r; rw [bind_ok h]; rfl

theorem forN_zero (f : Nat → Prog F Unit) : forN 0 f = pure () := rfl
theorem forN_succ (n : Nat) (f : Nat → Prog F Unit) :
    forN (n+1) f = (do forN n f; f n) := rfl

theorem forN_add (m n : Nat) (f : Nat → Prog F Unit) :
    (do forN m f; forN n (fun i => f (m + i))) = forN (m + n) f := by
  induction n with
  | zero => rw [forN_zero, Nat.add_zero]; exact prog_bind_pure _
  | succ n ih =>
    rw [forN_succ, ← prog_bind_assoc, ih]; rfl

theorem forN_chunks (m u k : Nat) (f : Nat → Prog F Unit) :
    (do forN m f; forN k (fun j => forN u (fun t => f (m + u * j + t)))) = forN (m + u * k) f := by
  induction k with
  | zero => rw [forN_zero, Nat.mul_zero, Nat.add_zero]; exact prog_bind_pure _
  | succ k ih =>
    rw [forN_succ, ← prog_bind_assoc, ih, forN_add]
    congr 1; ring

theorem forN_congr {n : Nat} {f g : Nat → Prog F Unit} (h : ∀ i, i < n → f i = g i) :
    forN n f = forN n g := by
  induction n with
  | zero => rfl
  | succ n ih => rw [forN_succ, forN_succ, ih (fun i hi => h i (by omega)), h n (by omega)]

/-- An unrolled loop with remainder first is the plain loop. -/
theorem unroll_eq (u : Nat) (hu : 0 < u) (N : Int) (hN : 0 < N) (f : Int → Prog F Unit)
    (g : Int → Prog F Unit) (hg : ∀ i, g i = forN u (fun t => f (i + t))) :
    (if N.tmod u ≠ 0 then
        (do forN (N.tmod u).toNat (fun i => f i)
            if N < u then pure () else forStep (N.tmod u) N u g)
      else forStep (N.tmod u) N u g) = forN N.toNat (fun i => f i) := by
  have hmod : N.tmod u = N % u := Int.tmod_eq_emod_of_nonneg (by omega)
  have hu' : (0:Int) < u := by omega
  have h0 : 0 ≤ N % (u:Int) := Int.emod_nonneg _ (by omega)
  have h1 : N % (u:Int) < u := Int.emod_lt_of_pos _ hu'
  rw [hmod]
  obtain ⟨r, hr⟩ : ∃ r : Nat, (r : Int) = N % u := ⟨(N % u).toNat, by omega⟩
  have hq0 : 0 ≤ N / (u:Int) := Int.ediv_nonneg (by omega) (by omega)
  obtain ⟨q, hq⟩ : ∃ q : Nat, (q : Int) = N / u := ⟨(N / u).toNat, by omega⟩
  have hdiv : N = r + u * q := by rw [hr, hq]; have := Int.emod_add_mul_ediv N u; omega
  have hn : N.toNat = r + u * q := by
    have : ((N.toNat : Nat) : Int) = ((r + u * q : Nat) : Int) := by push_cast; omega
    exact_mod_cast this
  have hstep : forStep (r:Int) N u g =
      forN q (fun j => forN u (fun t => (fun i : Nat => f (i:Int)) (r + u * j + t))) := by
    unfold forStep
    have hc : ((N - r + u - 1) / (u:Int)).toNat = q := by
      have : (N - r + u - 1) / (u:Int) = q := by
        have e : N - r + u - 1 = (u - 1) + u * q := by omega
        rw [e, Int.add_mul_ediv_left _ _ (by omega), Int.ediv_eq_zero_of_lt (by omega) (by omega)]
        omega
      omega
    rw [hc]
    apply forN_congr
    intro j _
    rw [hg]
    apply forN_congr
    intro t _
    simp
  rw [← hr, hstep]
  have key := forN_chunks r u q (fun i : Nat => f (i:Int))
  rw [hn, ← key]
  by_cases hr0 : (r:Int) ≠ 0
  · rw [if_pos hr0]
    by_cases hlt : N < u
    · rw [if_pos hlt]
      have : q = 0 := by
        have : N / (u:Int) = 0 := Int.ediv_eq_zero_of_lt (by omega) hlt
        omega
      subst this; rfl
    · rw [if_neg hlt]; rfl
  · rw [if_neg hr0]
    have : r = 0 := by omega
    subst this
    rw [forN_zero, prog_pure_bind]

theorem i32_ok {x : Int} (h : Fits32 x) : (i32 x : Prog F Int) = pure x := by
  unfold i32 Fits32 at *; rw [if_pos h]

/-- The strided loop, when the final index fits in 32 bits. -/
theorem strided_eq (el : Int → Int → Prog F Unit) {INCX INCY : Int} {N : Nat} (hx : 0 ≤ INCX)
    (hy : 0 ≤ INCY) (fx : Fits32 (N * INCX)) (fy : Fits32 (N * INCY)) :
    foldN N (fun _ s => stridedStep el INCX INCY s) (0, 0) =
      (do forN N (fun i => el (i * INCX) (i * INCY)); pure ((N:Int) * INCX, (N:Int) * INCY)) := by
  suffices h : ∀ k, k ≤ N → foldN k (fun _ s => stridedStep el INCX INCY s) (0, 0) =
      (do forN k (fun i => el (i * INCX) (i * INCY)); pure ((k:Int) * INCX, (k:Int) * INCY)) from
    h N le_rfl
  intro k hk
  induction k with
  | zero => simp only [foldN, forN_zero, prog_pure_bind]; simp
  | succ k ih =>
    simp only [foldN, forN_succ]
    rw [ih (by omega), prog_bind_assoc, prog_bind_assoc]
    congr 1
    funext _
    rw [prog_pure_bind]
    unfold stridedStep
    congr 1
    funext _
    have e1 : (k:Int) * INCX + INCX = ((k+1 : Nat):Int) * INCX := by push_cast; ring
    have e2 : (k:Int) * INCY + INCY = ((k+1 : Nat):Int) * INCY := by push_cast; ring
    have b1 : ((k+1 : Nat):Int) * INCX ≤ N * INCX := mul_le_mul_of_nonneg_right (by omega) hx
    have b2 : ((k+1 : Nat):Int) * INCY ≤ N * INCY := mul_le_mul_of_nonneg_right (by omega) hy
    have c1 : 0 ≤ ((k+1 : Nat):Int) * INCX := mul_nonneg (by omega) hx
    have c2 : 0 ≤ ((k+1 : Nat):Int) * INCY := mul_nonneg (by omega) hy
    unfold Fits32 at *
    simp only [e1, e2]
    rw [i32_ok (by unfold Fits32; omega), i32_ok (by unfold Fits32; omega), prog_pure_bind,
      prog_pure_bind]

theorem assertP_ok {b : Bool} (h : b = true) : (assertP b : Prog F Unit) = pure () := by
  unfold assertP; rw [if_pos h]

theorem gen_shape (el : Int → Int → Prog F Unit) (u : Nat) (hu : 0 < u) {N INCX INCY : Int}
    (g : Int → Prog F Unit) (hg : ∀ i, g i = forN u (fun t => el (i + t) (i + t)))
    (hx : 0 < INCX) (hy : 0 < INCY)
    (fx : Fits32 (N * INCX)) (fy : Fits32 (N * INCY)) :
    (if N ≤ 0 then pure ()
    else do
      assertP (INCX > 0)
      assertP (INCY > 0)
      if INCX = 1 ∧ INCY = 1 then
        let m := N.tmod u
        if m ≠ 0 then
          forN m.toNat (fun i => el i i)
          if N < u then pure ()
          else forStep m N u g
        else forStep m N u g
      else
        let _ ← foldN N.toNat (fun _ s => stridedStep el INCX INCY s) (0, 0) : Prog F Unit) =
    forN N.toNat (fun i => el (i * INCX) (i * INCY)) := by
  by_cases hN : N ≤ 0
  · rw [if_pos hN, show N.toNat = 0 by omega]; rfl
  · rw [if_neg hN, assertP_ok (by simpa using hx), assertP_ok (by simpa using hy), prog_pure_bind,
      prog_pure_bind]
    have hNc : ((N.toNat : Nat) : Int) = N := by omega
    by_cases h1 : INCX = 1 ∧ INCY = 1
    · rw [if_pos h1]
      obtain ⟨rfl, rfl⟩ := h1
      rw [unroll_eq u hu N (by omega) (fun i => el i i) g hg]
      simp
    · rw [if_neg h1, strided_eq el (by omega) (by omega) (by rw [hNc]; exact fx)
        (by rw [hNc]; exact fy), prog_bind_assoc]
      simp only [prog_pure_bind]
      exact prog_bind_pure _

theorem copyvGen_eq {N X INCX Y INCY : Int} (hx : 0 < INCX) (hy : 0 < INCY)
    (fx : Fits32 (N * INCX)) (fy : Fits32 (N * INCY)) :
    (copyvGen N X INCX Y INCY : Prog F Unit) =
      forN N.toNat (fun i => copyEl X Y (i * INCX) (i * INCY)) := by
  rw [← gen_shape (copyEl X Y) 7 (by omega) (copyUnroll X Y) ?_ hx hy fx fy]
  · rfl
  · intro i
    simp only [forN_succ, forN_zero, prog_pure_bind, prog_bind_assoc, copyUnroll, Nat.cast_ofNat,
      Nat.cast_zero, Nat.cast_one, add_zero]

theorem swapvGen_eq {N X INCX Y INCY : Int} (hx : 0 < INCX) (hy : 0 < INCY)
    (fx : Fits32 (N * INCX)) (fy : Fits32 (N * INCY)) :
    (swapvGen N X INCX Y INCY : Prog F Unit) =
      forN N.toNat (fun i => swapEl X Y (i * INCX) (i * INCY)) := by
  rw [← gen_shape (swapEl X Y) 3 (by omega) (swapUnroll X Y) ?_ hx hy fx fy]
  · rfl
  · intro i
    simp only [forN_succ, forN_zero, prog_pure_bind, prog_bind_assoc, swapUnroll, Nat.cast_ofNat,
      Nat.cast_zero, Nat.cast_one, add_zero]

theorem axpyvGen_eq [Arith F] [ArithEq F] {SIDE : Char} {ALPHA : Scal F} {N X INCX Y INCY : Int}
    (hx : 0 < INCX) (hy : 0 < INCY)
    (fx : Fits32 (N * INCX)) (fy : Fits32 (N * INCY)) (hz : ALPHA.eqZero = false) :
    (axpyvGen SIDE N ALPHA X INCX Y INCY : Prog F Unit) =
      forN N.toNat (fun i => axpyEl (!(SIDE == 'R')) ALPHA X Y (i * INCX) (i * INCY)) := by
  rw [← gen_shape (axpyEl (!(SIDE == 'R')) ALPHA X Y) 4 (by omega)
    (axpyUnroll (!(SIDE == 'R')) ALPHA X Y) ?_ hx hy fx fy]
  · unfold axpyvGen
    rw [hz]
    rfl
  · intro i
    simp only [forN_succ, forN_zero, prog_pure_bind, prog_bind_assoc, axpyUnroll, Nat.cast_ofNat,
      Nat.cast_zero, Nat.cast_one, add_zero]

theorem scalvGen_eq [Arith F] {SIDE : Char} {ALPHA : Scal F} {N X INCX : Int}
    (hx : 0 < INCX) (fx : Fits32 (N * INCX)) :
    (scalvGen SIDE N ALPHA X INCX : Prog F Unit) =
      forN N.toNat (fun i => scalEl (!(SIDE == 'R')) ALPHA X (i * INCX)) := by
  unfold scalvGen
  by_cases hN : N ≤ 0
  · rw [if_pos (Or.inl hN), show N.toNat = 0 by omega]; rfl
  · rw [if_neg (by omega)]
    by_cases h1 : INCX = 1
    · subst h1
      have := unroll_eq 5 (by omega) N (by omega) (fun i => scalEl (!(SIDE == 'R')) ALPHA X i)
        (scalUnroll (!(SIDE == 'R')) ALPHA X) ?_
      · simp only [if_true, mul_one]
        exact this
      · intro i
        simp only [forN_succ, forN_zero, prog_pure_bind, prog_bind_assoc, scalUnroll,
          Nat.cast_ofNat, Nat.cast_zero, Nat.cast_one, add_zero]
    · simp only [if_neg h1]
      rw [i32_ok fx, prog_pure_bind]
      unfold forStep
      have hc : ((N * INCX - 0 + INCX - 1) / INCX).toNat = N.toNat := by
        have : (N * INCX - 0 + INCX - 1) / INCX = N := by
          have e : N * INCX - 0 + INCX - 1 = (INCX - 1) + INCX * N := by ring
          rw [e, Int.add_mul_ediv_left _ _ (by omega), Int.ediv_eq_zero_of_lt (by omega) (by omega)]
          omega
        omega
      rw [hc]
      apply forN_congr
      intro i _
      congr 1; ring

end loops

section wps
variable {F : Type}

theorem copyvGen_wp {m0 : Mem F} {N X INCX Y INCY : Int} {xv yv : Nat → Quat F}
    (hx : 0 < INCX) (hy : 0 < INCY) (fx : Fits32 (N * INCX)) (fy : Fits32 (N * INCY))
    (hX : VecAt m0 X INCX N.toNat xv) (hY : VecAt m0 Y INCY N.toNat yv)
    (hdis : Apart (VecCell X INCX N.toNat) (VecCell Y INCY N.toNat)) :
    wp (copyvGen N X INCX Y INCY) m0
      (fun _ m => VecAt m Y INCY N.toNat xv ∧ SameOutside (VecCell Y INCY N.toNat) m0 m) := by
  rw [copyvGen_eq hx hy fx fy]
  unfold forN
  refine wp_mono (wp_vecmap (fun _ => ()) xv hY (Or.inl (by omega)) ?_) (fun _ _ h => h.2)
  intro i m hi hyi hs
  have hxi := vecAt_apart hX hdis hs i hi
  unfold copyEl
  rw [wp_bind, wp_loadQ hxi, wp_storeQ hyi]
  exact ⟨rfl, rfl⟩

theorem swapvGen_wp {m0 : Mem F} {N X INCX Y INCY : Int} {xv yv : Nat → Quat F}
    (hx : 0 < INCX) (hy : 0 < INCY) (fx : Fits32 (N * INCX)) (fy : Fits32 (N * INCY))
    (hX : VecAt m0 X INCX N.toNat xv) (hY : VecAt m0 Y INCY N.toNat yv)
    (hdis : Apart (VecCell X INCX N.toNat) (VecCell Y INCY N.toNat)) :
    wp (swapvGen N X INCX Y INCY) m0
      (fun _ m => VecAt m X INCX N.toNat yv ∧ VecAt m Y INCY N.toNat xv ∧
        SameOutside (fun a => VecCell X INCX N.toNat a ∨ VecCell Y INCY N.toNat a) m0 m) := by
  rw [swapvGen_eq hx hy fx fy]
  have hincx : INCX ≠ 0 ∨ N.toNat ≤ 1 := Or.inl (by omega)
  have hincy : INCY ≠ 0 ∨ N.toNat ≤ 1 := Or.inl (by omega)
  have hxy : ∀ i j, i < N.toNat → j < N.toNat →
      ∀ a, InQ (X + 4 * ((i:Int) * INCX)) a → ¬ InQ (Y + 4 * ((j:Int) * INCY)) a :=
    fun i j hi hj a h1 h2 => hdis a ⟨i, hi, h1⟩ ⟨j, hj, h2⟩
  unfold forN
  apply wp_region (fun _ => ())
    (fun i a => InQ (X + 4 * ((i:Int) * INCX)) a ∨ InQ (Y + 4 * ((i:Int) * INCY)) a)
    (fun i m => readQ m (X + 4 * ((i:Int) * INCX)) = some (yv i) ∧
      readQ m (Y + 4 * ((i:Int) * INCY)) = some (xv i))
  · intro i j a hi hj hij h1 h2
    rcases h1 with h1 | h1 <;> rcases h2 with h2 | h2
    · have : QDisj (X + 4 * ((i:Int) * INCX)) (X + 4 * ((j:Int) * INCX)) :=
        vec_disj hincx hi hj hij
      unfold InQ QDisj at *; omega
    · exact hxy i j hi hj a h1 h2
    · exact hxy j i hj hi a h2 h1
    · have : QDisj (Y + 4 * ((i:Int) * INCY)) (Y + 4 * ((j:Int) * INCY)) :=
        vec_disj hincy hi hj hij
      unfold InQ QDisj at *; omega
  · rintro i m m' hi h ⟨h1, h2⟩
    refine ⟨?_, ?_⟩
    · rw [← h1]; exact (readQ_congr (fun a ha => h a (Or.inl ha))).symm
    · rw [← h2]; exact (readQ_congr (fun a ha => h a (Or.inr ha))).symm
  · intro i m hi hF
    have hx : readQ m (X + 4 * ((i:Int) * INCX)) = some (xv i) := by
      rw [← hX i hi]; apply readQ_congr
      intro a ha
      apply hF a
      rintro k hk (hc | hc)
      · have : QDisj (X + 4 * ((i:Int) * INCX)) (X + 4 * ((k:Int) * INCX)) :=
          vec_disj hincx hi (by omega) (by omega)
        unfold InQ QDisj at *; omega
      · exact hxy i k hi (by omega) a ha hc
    have hy : readQ m (Y + 4 * ((i:Int) * INCY)) = some (yv i) := by
      rw [← hY i hi]; apply readQ_congr
      intro a ha
      apply hF a
      rintro k hk (hc | hc)
      · exact hxy k i (by omega) hi a hc ha
      · have : QDisj (Y + 4 * ((i:Int) * INCY)) (Y + 4 * ((k:Int) * INCY)) :=
          vec_disj hincy hi (by omega) (by omega)
        unfold InQ QDisj at *; omega
    have hd : QDisj (X + 4 * ((i:Int) * INCX)) (Y + 4 * ((i:Int) * INCY)) := by
      have h1 := hxy i i hi hi (X + 4 * ((i:Int) * INCX)) (by unfold InQ; omega)
      have h2 := hxy i i hi hi (Y + 4 * ((i:Int) * INCY))
      unfold InQ QDisj at *; omega
    have hd' : QDisj (Y + 4 * ((i:Int) * INCY)) (X + 4 * ((i:Int) * INCX)) := by
      unfold QDisj at *; omega
    unfold swapEl
    rw [wp_bind, wp_loadQ hx, wp_bind, wp_loadQ hy, wp_bind, wp_storeQ hx,
      wp_storeQ (q0 := yv i) (by rw [readQ_writeQ_disj hd']; exact hy)]
    refine ⟨rfl, ⟨?_, readQ_writeQ_same _ _ _⟩, ?_⟩
    · rw [readQ_writeQ_disj hd, readQ_writeQ_same]
    · intro a ha
      rw [writeQ_other (fun h => ha (Or.inr h)), writeQ_other (fun h => ha (Or.inl h))]
  · intro m h1 h2
    refine ⟨fun i hi => (h1 i hi).1, fun i hi => (h1 i hi).2, ?_⟩
    intro a ha
    apply h2 a
    rintro k hk (hc | hc)
    · exact ha (Or.inl ⟨k, hk, hc⟩)
    · exact ha (Or.inr ⟨k, hk, hc⟩)

variable [Arith F]

theorem scalvGen_wp {m0 : Mem F} {SIDE : Char} {N X INCX : Int} {ALPHA : Scal F}
    {xv : Nat → Quat F} (hx : 0 < INCX) (fx : Fits32 (N * INCX))
    (hX : VecAt m0 X INCX N.toNat xv) :
    wp (scalvGen SIDE N ALPHA X INCX) m0
      (fun _ m => VecAt m X INCX N.toNat (fun i =>
          if SIDE = 'R' then Scal.mulR (xv i) ALPHA else Scal.mulL ALPHA (xv i)) ∧
        SameOutside (VecCell X INCX N.toNat) m0 m) := by
  rw [scalvGen_eq hx fx]
  unfold forN
  refine wp_mono (wp_vecmap (fun _ => ()) (fun i =>
    if SIDE = 'R' then Scal.mulR (xv i) ALPHA else Scal.mulL ALPHA (xv i)) hX
    (Or.inl (by omega)) ?_) (fun _ _ h => h.2)
  intro i m hi hxi hs
  unfold scalEl
  rw [wp_bind, wp_loadQ hxi, wp_storeQ hxi]
  refine ⟨rfl, ?_⟩
  by_cases h : SIDE = 'R' <;> simp [h]

theorem axpyvGen_wp [ArithEq F] {m0 : Mem F} {SIDE : Char} {N X INCX Y INCY : Int} {ALPHA : Scal F}
    {xv yv : Nat → Quat F} (hx : 0 < INCX) (hy : 0 < INCY)
    (fx : Fits32 (N * INCX)) (fy : Fits32 (N * INCY)) (hz : ALPHA.eqZero = false)
    (hX : VecAt m0 X INCX N.toNat xv) (hY : VecAt m0 Y INCY N.toNat yv)
    (hdis : Apart (VecCell X INCX N.toNat) (VecCell Y INCY N.toNat)) :
    wp (axpyvGen SIDE N ALPHA X INCX Y INCY) m0
      (fun _ m => VecAt m Y INCY N.toNat (fun i => Quat.addAssign (yv i)
          (if SIDE = 'R' then Scal.mulR (xv i) ALPHA else Scal.mulL ALPHA (xv i))) ∧
        SameOutside (VecCell Y INCY N.toNat) m0 m) := by
  rw [axpyvGen_eq hx hy fx fy hz]
  unfold forN
  refine wp_mono (wp_vecmap (fun _ => ()) (fun i => Quat.addAssign (yv i)
    (if SIDE = 'R' then Scal.mulR (xv i) ALPHA else Scal.mulL ALPHA (xv i))) hY
    (Or.inl (by omega)) ?_) (fun _ _ h => h.2)
  intro i m hi hyi hs
  have hxi := vecAt_apart hX hdis hs i hi
  unfold axpyEl
  rw [wp_bind, wp_loadQ hxi, wp_bind, wp_loadQ hyi, wp_storeQ hyi]
  refine ⟨rfl, ?_⟩
  by_cases h : SIDE = 'R' <;> simp [h]

end wps

section exact
variable {R : Type} [CommRing R]

theorem toH_addAssign (x y : Quat R) : (Quat.addAssign x y).toH = x.toH + y.toH := by
  ext <;> simp [Quat.addAssign]

theorem dotGen_wp {m0 : Mem R} {conj : Bool} {N X INCX Y INCY : Int}
    {xv yv : Nat → Quat R} (hx : 0 < INCX) (hy : 0 < INCY)
    (fx : Fits32 (N * INCX)) (fy : Fits32 (N * INCY))
    (hX : VecAt m0 X INCX N.toNat xv) (hY : VecAt m0 Y INCY N.toNat yv) :
    wp (dotGen conj N X INCX Y INCY) m0 (fun r m => m = m0 ∧
      r.toH = ∑ k ∈ range N.toNat, (if conj then star (xv k).toH else (xv k).toH) * (yv k).toH) := by
  have hel : ∀ i (h : Quat R), i < N.toNat →
      wp (dotEl conj X Y (i * INCX) (i * INCY) h) m0 (fun r m => m = m0 ∧
        r.toH = h.toH + (if conj then star (xv i).toH else (xv i).toH) * (yv i).toH) := by
    intro i h hi
    unfold dotEl
    rw [wp_bind, wp_loadQ (hX i hi), wp_bind, wp_loadQ (hY i hi), wp_pure]
    refine ⟨rfl, ?_⟩
    rw [toH_addAssign, toH_mul]
    cases conj <;> simp [toH_conj]
  have hz : (⟨Arith.zero, Arith.zero, Arith.zero, Arith.zero⟩ : Quat R).toH = 0 := by
    ext <;> simp
  unfold dotGen
  by_cases hN : N ≤ 0
  · rw [if_pos hN, wp_pure, show N.toNat = 0 by omega]
    exact ⟨rfl, by simpa using hz⟩
  · rw [if_neg hN, assertP_ok (by simpa using hx), assertP_ok (by simpa using hy), prog_pure_bind,
      prog_pure_bind]
    have hNc : ((N.toNat : Nat) : Int) = N := by omega
    by_cases h1 : INCX = 1 ∧ INCY = 1
    · rw [if_pos h1]
      obtain ⟨rfl, rfl⟩ := h1
      apply wp_foldN (fun i (r : Quat R) m => m = m0 ∧
        r.toH = ∑ k ∈ range i, (if conj then star (xv k).toH else (xv k).toH) * (yv k).toH)
      · exact ⟨rfl, by simpa using hz⟩
      · rintro i s m hi ⟨rfl, hs⟩
        have := hel i s hi
        rw [mul_one] at this
        refine wp_mono this ?_
        rintro r m' ⟨rfl, h⟩
        exact ⟨rfl, by rw [h, hs, sum_range_succ]⟩
      · rintro s m h; exact h
    · rw [if_neg h1, wp_bind]
      apply wp_foldN (fun i (r : Int × Int × Quat R) m => m = m0 ∧ r.1 = i * INCX ∧
        r.2.1 = i * INCY ∧
        r.2.2.toH = ∑ k ∈ range i, (if conj then star (xv k).toH else (xv k).toH) * (yv k).toH)
      · exact ⟨rfl, by simp, by simp, by simpa using hz⟩
      · rintro i s m hi ⟨rfl, h1, h2, hs⟩
        unfold dotStep
        rw [wp_bind, h1, h2]
        refine wp_mono (hel i s.2.2 hi) ?_
        rintro r m' ⟨rfl, h⟩
        have e1 : (i:Int) * INCX + INCX = ((i+1 : Nat):Int) * INCX := by push_cast; ring
        have e2 : (i:Int) * INCY + INCY = ((i+1 : Nat):Int) * INCY := by push_cast; ring
        have b1 : ((i+1 : Nat):Int) * INCX ≤ N * INCX := mul_le_mul_of_nonneg_right (by omega) (by omega)
        have b2 : ((i+1 : Nat):Int) * INCY ≤ N * INCY := mul_le_mul_of_nonneg_right (by omega) (by omega)
        have c1 : 0 ≤ ((i+1 : Nat):Int) * INCX := mul_nonneg (by omega) (by omega)
        have c2 : 0 ≤ ((i+1 : Nat):Int) * INCY := mul_nonneg (by omega) (by omega)
        unfold Fits32 at *
        rw [wp_bind, e1, wp_i32 (by omega), wp_bind, e2, wp_i32 (by omega), wp_pure]
        exact ⟨rfl, rfl, rfl, by rw [h, hs, sum_range_succ]⟩
      · rintro s m ⟨rfl, _, _, h⟩
        rw [wp_pure]
        exact ⟨rfl, h⟩

end exact

end Haxx
