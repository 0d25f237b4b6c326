import Verif.Util
import Verif.FortranLemmas

/-!
# Scatter loops: every iteration writes its own set of cells
-/

namespace Haxx
open Arith

section
variable {F : Type} {κ : Type} {σ : Type}

/-- `m` is `m0` with the cells `t k` (`k` in `S`) set to `v k`. -/
structure Put (S : κ → Prop) (t : κ → Int) (v : κ → F) (m0 m : Mem F) : Prop where
  put : ∀ k, S k → m (t k) = some (v k)
  out : ∀ a, (∀ k, S k → t k ≠ a) → m a = m0 a

theorem Put.nil {t : Nat → Int} {v : Nat → F} {m : Mem F} : Put (· < 0) t v m m :=
  ⟨fun k hk => absurd hk (by omega), fun _ _ => rfl⟩

theorem wp_wr_put {t : Nat → Int} {v : Nat → F} {m0 m : Mem F} {n k : Nat} {a : Int} {x : F}
    {Q : Unit → Mem F → Prop}
    (hinj : ∀ k k', k < n → k' < n → t k = t k' → k = k') (hacc : ∀ k, k < n → (m0 (t k)).isSome)
    (hk : k < n) (h : Put (· < k) t v m0 m) (ha : a = t k) (hx : x = v k)
    (hq : ∀ m', Put (· < k+1) t v m0 m' → Q () m') : wp (wr a x) m Q := by
  subst ha hx
  have hm : m (t k) = m0 (t k) := h.out _ (fun k' hk' e => by
    have := hinj k' k (by omega) hk e; omega)
  obtain ⟨w, hw⟩ := Option.isSome_iff_exists.mp (hacc k hk)
  rw [wp_wr (w := w) (by rw [hm, hw])]
  apply hq
  constructor
  · intro k' hk'
    by_cases e : k' = k
    · subst e; simp
    · have : t k' ≠ t k := fun e' => e (hinj k' k (by omega) hk e')
      rw [if_neg this]
      exact h.put k' (by omega)
  · intro a' ha'
    rw [if_neg (fun e => ha' k (by omega) e.symm)]
    exact h.out a' (fun k' hk' => ha' k' (by omega))

theorem wp_rd_put {t : Nat → Int} {v : Nat → F} {m0 m : Mem F} {k : Nat} {a : Int} {x : F}
    {Q : F → Mem F → Prop} (h : Put (· < k) t v m0 m) (ha : ∀ k', k' < k → t k' ≠ a)
    (h0 : m0 a = some x) (hq : Q x m) : wp (rd a) m Q := by
  rw [wp_rd (v := x) (by rw [h.out a ha, h0])]; exact hq

theorem wp_rdC_put {t : Nat → Int} {v : Nat → F} {m0 m : Mem F} {k : Nat} {a : Int} {z : Cplx F}
    {Q : Cplx F → Mem F → Prop} (h : Put (· < k) t v m0 m)
    (ha : ∀ k', k' < k → t k' ≠ a ∧ t k' ≠ a + 1)
    (h0 : m0 a = some z.re ∧ m0 (a+1) = some z.im) (hq : Q z m) : wp (rdC a) m Q := by
  rw [wp_rdC (a := z.re) (b := z.im)]
  · exact hq
  · rw [h.out a (fun k' hk' => (ha k' hk').1), h0.1]
  · rw [h.out (a+1) (fun k' hk' => (ha k' hk').2), h0.2]

theorem wp_wrC_put {t : Nat → Int} {v : Nat → F} {m0 m : Mem F} {n k : Nat} {a : Int} {z : Cplx F}
    {Q : Unit → Mem F → Prop}
    (hinj : ∀ k k', k < n → k' < n → t k = t k' → k = k') (hacc : ∀ k, k < n → (m0 (t k)).isSome)
    (hk : k + 1 < n) (h : Put (· < k) t v m0 m) (ha : a = t k ∧ a + 1 = t (k+1))
    (hx : z.re = v k ∧ z.im = v (k+1))
    (hq : ∀ m', Put (· < k+2) t v m0 m' → Q () m') : wp (wrC a z) m Q := by
  unfold wrC
  rw [wp_bind]
  refine wp_wr_put hinj hacc (by omega) h ha.1 hx.1 ?_
  intro m' h'
  exact wp_wr_put hinj hacc hk h' ha.2 hx.2 hq

/-- One loop of scatters. -/
theorem wp_scat {n : Nat} {S : κ → Prop} {f : Nat → σ → Prog F σ} {s0 : σ} {m0 : Mem F}
    (st : Nat → σ) (hs0 : s0 = st 0) (t : Nat → κ → Int) (v : Nat → κ → F)
    (hinj : ∀ i k i' k', i < n → S k → i' < n → S k' → t i k = t i' k' → i = i')
    (hacc : ∀ i k, i < n → S k → (m0 (t i k)).isSome)
    (hbody : ∀ i m, i < n → (∀ a, (∀ i' k, i' < n → S k → t i' k ≠ a) → m a = m0 a) →
      (∀ k, S k → (m (t i k)).isSome) →
      wp (f i (st i)) m (fun s' m' => s' = st (i+1) ∧ Put S (t i) (v i) m m')) :
    wp (foldN n f s0) m0 (fun s' m' => s' = st n ∧
      Put (fun p : Nat × κ => p.1 < n ∧ S p.2) (fun p => t p.1 p.2) (fun p => v p.1 p.2) m0 m') := by
  subst hs0
  apply wp_region st (fun i a => ∃ k, S k ∧ t i k = a) (fun i m => ∀ k, S k → m (t i k) = some (v i k))
  · rintro i j a hi hj hij ⟨k, hk, rfl⟩ ⟨k', hk', e⟩
    exact hij (hinj i k j k' hi hk hj hk' e.symm)
  · intro i m m' hi h hp k hk
    rw [← h _ ⟨k, hk, rfl⟩]; exact hp k hk
  · intro i m hi hF
    refine wp_mono (hbody i m hi ?_ ?_) ?_
    · intro a ha
      apply hF
      rintro k hk ⟨k', hk', e⟩
      exact ha k k' (by omega) hk' e
    · intro k hk
      rw [hF]
      · exact hacc i k hi hk
      · rintro i' hi' ⟨k', hk', e⟩
        have := hinj i' k' i k (by omega) hk' hi hk e
        omega
    · rintro s' m' ⟨hs, hP⟩
      refine ⟨hs, hP.put, ?_⟩
      intro a ha
      exact hP.out a (fun k hk e => ha ⟨k, hk, e⟩)
  · intro m hP hF
    refine ⟨rfl, ⟨fun p hp => hP p.1 hp.1 p.2 hp.2, ?_⟩⟩
    intro a ha
    apply hF
    rintro i hi ⟨k, hk, e⟩
    exact ha (i, k) ⟨hi, hk⟩ e

/-- Positions of a column-major array are distinct. -/
theorem grid_inj {R ld r r' c c' : Int} (hr : 0 ≤ r ∧ r < R) (hr' : 0 ≤ r' ∧ r' < R) (hld : R ≤ ld)
    (h : r + ld * c = r' + ld * c') : r = r' ∧ c = c' := by
  have hc : c = c' := by
    rcases lt_trichotomy c c' with h1 | h1 | h1
    · have : ld * (c + 1) ≤ ld * c' := mul_le_mul_of_nonneg_left (by omega) (by omega)
      nlinarith
    · exact h1
    · have : ld * (c' + 1) ≤ ld * c := mul_le_mul_of_nonneg_left (by omega) (by omega)
      nlinarith
  subst hc
  exact ⟨by linarith, rfl⟩


end

section expand
variable {F : Type} [Arith F]

/-- Row of the 2×2 block written by the `e`-th store. -/
def zA : Nat → Nat
  | 0 => 0
  | 1 => 1
  | 2 => 0
  | _ => 1
/-- Column of the 2×2 block written by the `e`-th store. -/
def zB : Nat → Nat
  | 0 => 0
  | 1 => 1
  | 2 => 1
  | _ => 0

/-- Component 0 (real) or 1 (imaginary). -/
def Cplx.comp {F : Type} (z : Cplx F) : Nat → F
  | 0 => z.re
  | _ => z.im

/-- Entry of the 2×2 complex block of a quaternion. -/
def cblkN (q : Quat F) : Nat → Nat → Cplx F
  | 0, 0 => q.lo
  | 0, _ => q.hi
  | _, 0 => Cplx.neg (Cplx.conj q.hi)
  | _, _ => Cplx.conj q.lo

/-- The eight cells of a 2×2 complex block, in the order they are written. -/
def zT (B LDB : Int) (row col : Nat → Int) (k : Nat) : Int :=
  B + 2 * (row (zA (k/2)) + LDB * col (zB (k/2))) + (k % 2 : Nat)

/-- and their contents. -/
def zV (q : Quat F) (k : Nat) : F := (cblkN q (zA (k/2)) (zB (k/2))).comp (k%2)

theorem zAB_inj {e e' : Nat} (h : e < 4) (h' : e' < 4) (hA : zA e = zA e') (hB : zB e = zB e') :
    e = e' := by
  have h1 : e = 0 ∨ e = 1 ∨ e = 2 ∨ e = 3 := by omega
  have h2 : e' = 0 ∨ e' = 1 ∨ e' = 2 ∨ e' = 3 := by omega
  rcases h1 with rfl | rfl | rfl | rfl <;> rcases h2 with rfl | rfl | rfl | rfl <;>
    simp_all [zA, zB]

theorem zA_lt (e : Nat) : zA e < 2 := by unfold zA; split <;> omega
theorem zB_lt (e : Nat) : zB e < 2 := by unfold zB; split <;> omega

/-- The body of both complex expansions. -/
theorem wp_zbody {m : Mem F} {a w0 w1 w2 w3 : Int} {q : Quat F} {t : Nat → Int} {σ : Type} {s : σ}
    {Q : σ → Mem F → Prop} (hq : readQ m a = some q)
    (hw : w0 = t 0 ∧ w0 + 1 = t 1 ∧ w1 = t 2 ∧ w1 + 1 = t 3 ∧ w2 = t 4 ∧ w2 + 1 = t 5 ∧
      w3 = t 6 ∧ w3 + 1 = t 7)
    (hinj : ∀ k k', k < 8 → k' < 8 → t k = t k' → k = k') (hacc : ∀ k, k < 8 → (m (t k)).isSome)
    (hA : ∀ k, k < 8 → ¬ InQ a (t k))
    (hQ : ∀ m', Put (· < 8) t (zV q) m m' → Q s m') :
    wp (do
      let t1 ← rdC a
      wrC w0 t1
      let t2 ← rdC a
      wrC w1 (Cplx.conj t2)
      let t3 ← rdC (a + 2)
      wrC w2 t3
      let t4 ← rdC (a + 2)
      wrC w3 (Cplx.neg (Cplx.conj t4))
      pure s) m Q := by
  rw [readQ_eq_some] at hq
  obtain ⟨h0, h1, h2, h3⟩ := hq
  have e3 : a + 2 + 1 = a + 3 := by ring
  have hlo : ∀ k', k' < 8 → t k' ≠ a ∧ t k' ≠ a + 1 := fun k' hk' => by
    have := hA k' hk'; unfold InQ at this; omega
  have hhi : ∀ k', k' < 8 → t k' ≠ a + 2 ∧ t k' ≠ a + 2 + 1 := fun k' hk' => by
    have := hA k' hk'; unfold InQ at this; omega
  rw [wp_bind]
  refine wp_rdC_put (z := q.lo) (v := zV q) Put.nil (fun k' hk' => hlo k' (by omega)) ⟨h0, h1⟩ ?_
  rw [wp_bind]
  refine wp_wrC_put hinj hacc (k := 0) (v := zV q) (by omega) Put.nil ⟨hw.1, hw.2.1⟩ ⟨rfl, rfl⟩ ?_
  intro m1 p1
  rw [wp_bind]
  refine wp_rdC_put (z := q.lo) p1 (fun k' hk' => hlo k' (by omega)) ⟨h0, h1⟩ ?_
  rw [wp_bind]
  refine wp_wrC_put hinj hacc (by omega) p1 ⟨hw.2.2.1, hw.2.2.2.1⟩ ⟨rfl, rfl⟩ ?_
  intro m2 p2
  rw [wp_bind]
  refine wp_rdC_put (z := q.hi) p2 (fun k' hk' => hhi k' (by omega)) ⟨h2, by rw [e3]; exact h3⟩ ?_
  rw [wp_bind]
  refine wp_wrC_put hinj hacc (by omega) p2 ⟨hw.2.2.2.2.1, hw.2.2.2.2.2.1⟩ ⟨rfl, rfl⟩ ?_
  intro m3 p3
  rw [wp_bind]
  refine wp_rdC_put (z := q.hi) p3 (fun k' hk' => hhi k' (by omega)) ⟨h2, by rw [e3]; exact h3⟩ ?_
  rw [wp_bind]
  refine wp_wrC_put hinj hacc (by omega) p3 ⟨hw.2.2.2.2.2.2.1, hw.2.2.2.2.2.2.2⟩ ⟨rfl, rfl⟩ ?_
  intro m4 p4
  rw [wp_pure]
  exact hQ m4 p4

/-- What a layout of block rows must satisfy: within bounds and injective. -/
structure Lay (n w : Nat) (R : Int) (row : Nat → Nat → Int) : Prop where
  lo : ∀ i a, i < n → a < w → 0 ≤ row i a
  hi : ∀ i a, i < n → a < w → row i a < R
  inj : ∀ i a i' a', i < n → a < w → i' < n → a' < w → row i a = row i' a' → i = i' ∧ a = a'

theorem layF (n w : Nat) : Lay n w (w * n) (fun i a => (w:Int) * i + a) where
  lo i a hi ha := by positivity
  hi i a hi ha := by
    have : (w:Int) * (i + 1) ≤ w * n := mul_le_mul_of_nonneg_left (by omega) (by omega)
    have : (a:Int) < w := by omega
    nlinarith
  inj i a i' a' hi ha hi' ha' h := by
    have := grid_inj (R := w) (ld := w) (r := a) (r' := a') (c := i) (c' := i') (by omega) (by omega)
      (by omega) (by linarith)
    omega

theorem layS (n w : Nat) : Lay n w (w * n) (fun i a => (i:Int) + n * a) where
  lo i a hi ha := by positivity
  hi i a hi ha := by
    have : (n:Int) * (a + 1) ≤ n * w := mul_le_mul_of_nonneg_left (by omega) (by omega)
    have : (i:Int) < n := by omega
    nlinarith
  inj i a i' a' hi ha hi' ha' h := by
    have := grid_inj (R := n) (ld := n) (r := i) (r' := i') (c := a) (c' := a') (by omega) (by omega)
      (by omega) h
    omega

theorem zT_inj {B LDB R : Int} {nr nc : Nat} {row col : Nat → Nat → Int} {C : Int} (hr : Lay nr 2 R row) (hc : Lay nc 2 C col)
    (hld : R ≤ LDB) {i j k i' j' k' : Nat} (hi : i < nr) (hj : j < nc) (hi' : i' < nr) (hj' : j' < nc) (hk : k < 8) (hk' : k' < 8)
    (h : zT B LDB (row i) (col j) k = zT B LDB (row i') (col j') k') : i = i' ∧ j = j' ∧ k = k' := by
  unfold zT at h
  have h2 : k % 2 = k' % 2 := by omega
  have := grid_inj (R := R) (ld := LDB) (r := row i (zA (k/2))) (r' := row i' (zA (k'/2))) (c := col j (zB (k/2)))
    (c' := col j' (zB (k'/2))) ⟨hr.lo _ _ hi (zA_lt _), hr.hi _ _ hi (zA_lt _)⟩
    ⟨hr.lo _ _ hi' (zA_lt _), hr.hi _ _ hi' (zA_lt _)⟩ hld (by omega)
  have e1 := hr.inj _ _ _ _ hi (zA_lt _) hi' (zA_lt _) this.1
  have e2 := hc.inj _ _ _ _ hj (zB_lt _) hj' (zB_lt _) this.2
  have := zAB_inj (show k/2 < 4 by omega) (show k'/2 < 4 by omega) e1.2 e2.2
  exact ⟨e1.1, e2.1, by omega⟩

/-- Result of a complex expansion. -/
def ZPost (B LDB : Int) (row col : Nat → Nat → Int) (M N : Nat) (Av : Nat → Nat → Quat F) (m m' : Mem F) : Prop :=
  Put (fun p : Nat × (Nat × Nat) => p.1 < N ∧ p.2.1 < M ∧ p.2.2 < 8) (fun p => zT B LDB (row p.2.1) (col p.1) p.2.2)
    (fun p => zV (Av p.2.1 p.1) p.2.2) m m'

/-- Preconditions of a complex expansion. -/
structure ZPre (m : Mem F) (A LDA B LDB : Int) (row col : Nat → Nat → Int) (M N : Nat) (Av : Nat → Nat → Quat F) : Prop where
  layr : Lay M 2 (2 * M) row
  layc : Lay N 2 (2 * N) col
  ld : 2 * (M:Int) ≤ LDB
  src : MatAt m A LDA M N Av
  acc : ∀ i j k, i < M → j < N → k < 8 → (m (zT B LDB (row i) (col j) k)).isSome
  apart : ∀ i j i' j' k, i < M → j < N → i' < M → j' < N → k < 8 → ¬ InQ (A + 4 * (i' + j' * LDA)) (zT B LDB (row i) (col j) k)

/-- Both complex expansions. -/
theorem wp_zexp {m : Mem F} {A LDA B LDB : Int} {row col : Nat → Nat → Int} {M N : Nat} {Av : Nat → Nat → Quat F}
    (hp : ZPre m A LDA B LDB row col M N Av) {σ τ : Type} {f : Nat → τ → Nat → σ → Prog F σ} {g : Nat → τ → Prog F τ}
    {s0 : σ} {t0 : τ} (st : Nat → σ) (tt : Nat → τ) (hs0 : s0 = st 0) (ht0 : t0 = tt 0)
    (hg : ∀ j, j < N → g j (tt j) = (do let _ ← foldN M (f j (tt j)) s0; pure (tt (j+1))))
    (hf : ∀ i j, i < M → j < N → f j (tt j) i (st i) = (do
      let t1 ← rdC (A + 4 * (i + j * LDA))
      wrC (zT B LDB (row i) (col j) 0) t1
      let t2 ← rdC (A + 4 * (i + j * LDA))
      wrC (zT B LDB (row i) (col j) 2) (Cplx.conj t2)
      let t3 ← rdC (A + 4 * (i + j * LDA) + 2)
      wrC (zT B LDB (row i) (col j) 4) t3
      let t4 ← rdC (A + 4 * (i + j * LDA) + 2)
      wrC (zT B LDB (row i) (col j) 6) (Cplx.neg (Cplx.conj t4))
      pure (st (i+1)))) :
    wp (foldN N g t0) m (fun _ m' => ZPost B LDB row col M N Av m m') := by
  have hinj := @zT_inj B LDB _ M N row col _ hp.layr hp.layc hp.ld
  refine wp_mono (wp_scat (S := fun p : Nat × Nat => p.1 < M ∧ p.2 < 8) tt ht0
    (fun j p => zT B LDB (row p.1) (col j) p.2) (fun j p => zV (Av p.1 j) p.2) ?_ ?_ ?_) (fun _ _ h => h.2)
  · intro j p j' p' hj hP hj' hP' h
    exact (hinj hP.1 hj hP'.1 hj' hP.2 hP'.2 h).2.1
  · intro j p hj hP
    exact hp.acc p.1 j p.2 hP.1 hj hP.2
  · intro j m1 hj hout hacc1
    rw [hg j hj, wp_bind]
    refine wp_mono (wp_scat (S := fun k => k < 8) st hs0 (fun i k => zT B LDB (row i) (col j) k)
      (fun i k => zV (Av i j) k) ?_ ?_ ?_) ?_
    · intro i k i' k' hi hk hi' hk' h
      exact (hinj hi hj hi' hj hk hk' h).1
    · intro i k hi hk
      exact hacc1 (i, k) ⟨hi, hk⟩
    · intro i m2 hi hout2 hacc2
      rw [hf i j hi hj]
      have hsame : ∀ a, (∀ i' j' k, i' < M → j' < N → k < 8 → zT B LDB (row i') (col j') k ≠ a) → m2 a = m a := by
        intro a ha
        rw [hout2 a (fun i' k hi' hk => ha i' j k hi' hj hk), hout a (fun j' p hj' hP => ha p.1 j' p.2 hP.1 hj' hP.2)]
      have hq : readQ m2 (A + 4 * (i + j * LDA)) = some (Av i j) := by
        rw [readQ_congr (m' := m)]
        · exact hp.src i j hi hj
        · intro a ha
          apply hsame
          rintro i' j' k hi' hj' hk rfl
          exact hp.apart i' j' i j k hi' hj' hi hj hk ha
      refine wp_zbody (t := zT B LDB (row i) (col j)) hq ?_ ?_ hacc2 ?_ (fun m' h => ⟨rfl, h⟩)
      · refine ⟨rfl, ?_, rfl, ?_, rfl, ?_, rfl, ?_⟩ <;> simp [zT]
      · intro k k' hk hk' h
        exact (hinj hi hj hi hj hk hk' h).2.2
      · intro k hk
        exact hp.apart i j i j k hi hj hi hj hk
    · rintro s m' ⟨_, h⟩
      rw [wp_pure]
      exact ⟨rfl, h⟩

theorem hzexp1_wp [ArithEq F] {m : Mem F} {M N A LDA B LDB : Int} {Av : Nat → Nat → Quat F}
    (hp : ZPre m A LDA B LDB (fun i a => ((2:Nat):Int) * i + a) (fun i a => ((2:Nat):Int) * i + a) M.toNat N.toNat Av) :
    wp (hzexp1 M N A LDA B LDB) m (fun _ m' => ZPost B LDB (fun i a => ((2:Nat):Int) * i + a) (fun i a => ((2:Nat):Int) * i + a)
      M.toNat N.toNat Av m m') := by
  unfold hzexp1
  rw [wp_bind]
  refine wp_mono (wp_zexp hp (fun i => 1 + 2 * (i:Int)) (fun j => 1 + 2 * (j:Int)) (s0 := (1:Int)) rfl rfl
    (f := fun j t i s => hzexp1_10_I A B ((j:Int)+1) t LDA LDB ((i:Int)+1) s) ?_ ?_) (fun _ m' h => by rw [wp_pure]; exact h)
  · intro j hj
    unfold hzexp1_20_J
    simp only [show 1 + 2 * (j:Int) + 2 = 1 + 2 * ((j+1 : Nat):Int) by push_cast; ring]
  · intro i j hi hj
    unfold hzexp1_10_I
    simp only [el3c_1, el3c_2, show 1 + 2 * (i:Int) + 2 = 1 + 2 * ((i+1 : Nat):Int) by push_cast; ring]
    have e0 : el2 2 LDB B (1 + 2 * (i:Int)) (1 + 2 * (j:Int)) = zT B LDB (fun a => ((2:Nat):Int) * i + a) (fun a => ((2:Nat):Int) * j + a) 0 := by
      simp [el2, zT, zA, zB]
    have e1 : el2 2 LDB B (1 + 2 * (i:Int) + 1) (1 + 2 * (j:Int) + 1) = zT B LDB (fun a => ((2:Nat):Int) * i + a) (fun a => ((2:Nat):Int) * j + a) 2 := by
      simp [el2, zT, zA, zB]; ring
    have e2 : el2 2 LDB B (1 + 2 * (i:Int)) (1 + 2 * (j:Int) + 1) = zT B LDB (fun a => ((2:Nat):Int) * i + a) (fun a => ((2:Nat):Int) * j + a) 4 := by
      simp only [el2, zT, zA, zB]; push_cast; ring
    have e3 : el2 2 LDB B (1 + 2 * (i:Int) + 1) (1 + 2 * (j:Int)) = zT B LDB (fun a => ((2:Nat):Int) * i + a) (fun a => ((2:Nat):Int) * j + a) 6 := by
      simp [el2, zT, zA, zB]; ring
    rw [e0, e1, e2, e3]

theorem hzexp2_wp [ArithEq F] {m : Mem F} {M N A LDA B LDB : Int} {Av : Nat → Nat → Quat F}
    (hp : ZPre m A LDA B LDB (fun i a => (i:Int) + M.toNat * a) (fun i a => (i:Int) + N.toNat * a) M.toNat N.toNat Av) :
    wp (hzexp2 M N A LDA B LDB) m (fun _ m' => ZPost B LDB (fun i a => (i:Int) + M.toNat * a) (fun i a => (i:Int) + N.toNat * a)
      M.toNat N.toNat Av m m') := by
  unfold hzexp2
  rw [wp_bind]
  refine wp_mono (wp_zexp hp (fun _ => ()) (fun _ => ()) (s0 := ()) rfl rfl
    (f := fun j t i s => hzexp2_10_I A B ((j:Int)+1) LDA LDB M N ((i:Int)+1)) ?_ ?_) (fun _ m' h => by rw [wp_pure]; exact h)
  · intro j hj
    unfold hzexp2_10_J
    rfl
  · intro i j hi hj
    unfold hzexp2_10_I
    simp only [el3c_1, el3c_2]
    have hM : ((M.toNat : Nat) : Int) = M := by omega
    have hN : ((N.toNat : Nat) : Int) = N := by omega
    have e0 : el2 2 LDB B (i+1) (j+1) = zT B LDB (fun a => (i:Int) + M.toNat * a) (fun a => (j:Int) + N.toNat * a) 0 := by
      simp [el2, zT, zA, zB]
    have e1 : el2 2 LDB B (i+1+M) (j+1+N) = zT B LDB (fun a => (i:Int) + M.toNat * a) (fun a => (j:Int) + N.toNat * a) 2 := by
      simp only [el2, zT, zA, zB, hM, hN]; push_cast; ring
    have e2 : el2 2 LDB B (i+1) (j+1+N) = zT B LDB (fun a => (i:Int) + M.toNat * a) (fun a => (j:Int) + N.toNat * a) 4 := by
      simp only [el2, zT, zA, zB, hM, hN]; push_cast; ring
    have e3 : el2 2 LDB B (i+1+M) (j+1) = zT B LDB (fun a => (i:Int) + M.toNat * a) (fun a => (j:Int) + N.toNat * a) 6 := by
      simp only [el2, zT, zA, zB, hM, hN]; push_cast; ring
    rw [e0, e1, e2, e3]

/-- Entry of the 4×4 real block of a quaternion. -/
def rblkN (q : Quat F) : Nat → Nat → F
  | 0, 0 => q.re
  | 0, 1 => q.i
  | 0, 2 => q.j
  | 0, _ => q.k
  | 1, 0 => ~ᶠq.i
  | 1, 1 => q.re
  | 1, 2 => ~ᶠq.k
  | 1, _ => q.j
  | 2, 0 => ~ᶠq.j
  | 2, 1 => q.k
  | 2, 2 => q.re
  | 2, _ => ~ᶠq.i
  | _, 0 => ~ᶠq.k
  | _, 1 => ~ᶠq.j
  | _, 2 => q.i
  | _, _ => q.re

/-- The sixteen cells of a 4×4 real block, in the order they are written. -/
def dT (B LDB : Int) (row col : Nat → Int) (k : Nat) : Int := B + (row (k/4) + LDB * col (k%4))

/-- and their contents. -/
def dV (q : Quat F) (k : Nat) : F := rblkN q (k/4) (k%4)

/-- Layout of the real expansion. -/
def row4 (i a : Nat) : Int := ((4:Nat):Int) * i + a

theorem dT_inj {B LDB : Int} {nr nc : Nat} (hld : 4 * (nr:Int) ≤ LDB) {i j k i' j' k' : Nat} (hi : i < nr) (hj : j < nc) (hi' : i' < nr)
    (hj' : j' < nc) (hk : k < 16) (hk' : k' < 16)
    (h : dT B LDB (row4 i) (row4 j) k = dT B LDB (row4 i') (row4 j') k') : i = i' ∧ j = j' ∧ k = k' := by
  unfold dT row4 at h
  have hr := layF nr 4
  have hc := layF nc 4
  have := grid_inj (R := 4 * nr) (ld := LDB) (r := (4:Nat) * i + (k/4 : Nat)) (r' := (4:Nat) * i' + (k'/4 : Nat))
    (c := (4:Nat) * j + (k%4 : Nat)) (c' := (4:Nat) * j' + (k'%4 : Nat)) ⟨by omega, by omega⟩ ⟨by omega, by omega⟩ hld
    (by linarith)
  omega

/-- Preconditions of the real expansion. -/
structure DPre (m : Mem F) (A LDA B LDB : Int) (M N : Nat) (Av : Nat → Nat → Quat F) : Prop where
  ld : 4 * (M:Int) ≤ LDB
  src : MatAt m A LDA M N Av
  acc : ∀ i j k, i < M → j < N → k < 16 → (m (dT B LDB (row4 i) (row4 j) k)).isSome
  apart : ∀ i j i' j' k, i < M → j < N → i' < M → j' < N → k < 16 → ¬ InQ (A + 4 * (i' + j' * LDA)) (dT B LDB (row4 i) (row4 j) k)

/-- Result of the real expansion. -/
def DPost (B LDB : Int) (M N : Nat) (Av : Nat → Nat → Quat F) (m m' : Mem F) : Prop :=
  Put (fun p : Nat × (Nat × Nat) => p.1 < N ∧ p.2.1 < M ∧ p.2.2 < 16) (fun p => dT B LDB (row4 p.2.1) (row4 p.1) p.2.2)
    (fun p => dV (Av p.2.1 p.1) p.2.2) m m'

theorem hdexp_body_wp [ArithEq F] {m : Mem F} {A LDA B LDB : Int} {q : Quat F} {i j : Nat} {Q : Int → Mem F → Prop}
    (hq : readQ m (A + 4 * (i + j * LDA)) = some q)
    (hinj : ∀ k k', k < 16 → k' < 16 → dT B LDB (row4 i) (row4 j) k = dT B LDB (row4 i) (row4 j) k' → k = k')
    (hacc : ∀ k, k < 16 → (m (dT B LDB (row4 i) (row4 j) k)).isSome)
    (hA : ∀ k, k < 16 → ¬ InQ (A + 4 * (i + j * LDA)) (dT B LDB (row4 i) (row4 j) k))
    (hQ : ∀ m', Put (· < 16) (dT B LDB (row4 i) (row4 j)) (dV q) m m' → Q (1 + 4 * ((i+1:Nat):Int)) m') :
    wp (hdexp_10_I A B ((j:Int)+1) (1 + 4 * (j:Int)) LDA LDB ((i:Int)+1) (1 + 4 * (i:Int))) m Q := by
  rw [readQ_eq_some] at hq
  obtain ⟨h1, h2, h3, h4⟩ := hq
  have n1 : ∀ k', k' < 16 → dT B LDB (row4 i) (row4 j) k' ≠ A + 4 * (i + j * LDA) := fun k' hk' => by
    have := hA k' hk'; unfold InQ at this; omega
  have n2 : ∀ k', k' < 16 → dT B LDB (row4 i) (row4 j) k' ≠ A + 4 * (i + j * LDA) + 1 := fun k' hk' => by
    have := hA k' hk'; unfold InQ at this; omega
  have n3 : ∀ k', k' < 16 → dT B LDB (row4 i) (row4 j) k' ≠ A + 4 * (i + j * LDA) + 2 := fun k' hk' => by
    have := hA k' hk'; unfold InQ at this; omega
  have n4 : ∀ k', k' < 16 → dT B LDB (row4 i) (row4 j) k' ≠ A + 4 * (i + j * LDA) + 3 := fun k' hk' => by
    have := hA k' hk'; unfold InQ at this; omega
  unfold hdexp_10_I
  simp only [el3r_1, el3r_2, el3r_3, el3r_4, show 1 + 4 * (i:Int) + 4 = 1 + 4 * ((i+1 : Nat):Int) by push_cast; ring]
  have p0 : Put (· < 0) (dT B LDB (row4 i) (row4 j)) (dV q) m m := Put.nil
  rw [wp_bind]
  refine wp_rd_put p0 (fun k' hk' => n1 k' (by omega)) h1 ?_
  rw [wp_bind]
  refine wp_wr_put hinj hacc (by omega) p0 (by simp only [el2, dT, row4]; push_cast; ring) rfl ?_
  intro m1 p1
  rw [wp_bind]
  refine wp_rd_put p1 (fun k' hk' => n2 k' (by omega)) h2 ?_
  rw [wp_bind]
  refine wp_wr_put hinj hacc (by omega) p1 (by simp only [el2, dT, row4]; push_cast; ring) rfl ?_
  intro m2 p2
  rw [wp_bind]
  refine wp_rd_put p2 (fun k' hk' => n3 k' (by omega)) h3 ?_
  rw [wp_bind]
  refine wp_wr_put hinj hacc (by omega) p2 (by simp only [el2, dT, row4]; push_cast; ring) rfl ?_
  intro m3 p3
  rw [wp_bind]
  refine wp_rd_put p3 (fun k' hk' => n4 k' (by omega)) h4 ?_
  rw [wp_bind]
  refine wp_wr_put hinj hacc (by omega) p3 (by simp only [el2, dT, row4]; push_cast; ring) rfl ?_
  intro m4 p4
  rw [wp_bind]
  refine wp_rd_put p4 (fun k' hk' => n2 k' (by omega)) h2 ?_
  rw [wp_bind]
  refine wp_wr_put hinj hacc (by omega) p4 (by simp only [el2, dT, row4]; push_cast; ring) rfl ?_
  intro m5 p5
  rw [wp_bind]
  refine wp_rd_put p5 (fun k' hk' => n1 k' (by omega)) h1 ?_
  rw [wp_bind]
  refine wp_wr_put hinj hacc (by omega) p5 (by simp only [el2, dT, row4]; push_cast; ring) rfl ?_
  intro m6 p6
  rw [wp_bind]
  refine wp_rd_put p6 (fun k' hk' => n4 k' (by omega)) h4 ?_
  rw [wp_bind]
  refine wp_wr_put hinj hacc (by omega) p6 (by simp only [el2, dT, row4]; push_cast; ring) rfl ?_
  intro m7 p7
  rw [wp_bind]
  refine wp_rd_put p7 (fun k' hk' => n3 k' (by omega)) h3 ?_
  rw [wp_bind]
  refine wp_wr_put hinj hacc (by omega) p7 (by simp only [el2, dT, row4]; push_cast; ring) rfl ?_
  intro m8 p8
  rw [wp_bind]
  refine wp_rd_put p8 (fun k' hk' => n3 k' (by omega)) h3 ?_
  rw [wp_bind]
  refine wp_wr_put hinj hacc (by omega) p8 (by simp only [el2, dT, row4]; push_cast; ring) rfl ?_
  intro m9 p9
  rw [wp_bind]
  refine wp_rd_put p9 (fun k' hk' => n4 k' (by omega)) h4 ?_
  rw [wp_bind]
  refine wp_wr_put hinj hacc (by omega) p9 (by simp only [el2, dT, row4]; push_cast; ring) rfl ?_
  intro m10 p10
  rw [wp_bind]
  refine wp_rd_put p10 (fun k' hk' => n1 k' (by omega)) h1 ?_
  rw [wp_bind]
  refine wp_wr_put hinj hacc (by omega) p10 (by simp only [el2, dT, row4]; push_cast; ring) rfl ?_
  intro m11 p11
  rw [wp_bind]
  refine wp_rd_put p11 (fun k' hk' => n2 k' (by omega)) h2 ?_
  rw [wp_bind]
  refine wp_wr_put hinj hacc (by omega) p11 (by simp only [el2, dT, row4]; push_cast; ring) rfl ?_
  intro m12 p12
  rw [wp_bind]
  refine wp_rd_put p12 (fun k' hk' => n4 k' (by omega)) h4 ?_
  rw [wp_bind]
  refine wp_wr_put hinj hacc (by omega) p12 (by simp only [el2, dT, row4]; push_cast; ring) rfl ?_
  intro m13 p13
  rw [wp_bind]
  refine wp_rd_put p13 (fun k' hk' => n3 k' (by omega)) h3 ?_
  rw [wp_bind]
  refine wp_wr_put hinj hacc (by omega) p13 (by simp only [el2, dT, row4]; push_cast; ring) rfl ?_
  intro m14 p14
  rw [wp_bind]
  refine wp_rd_put p14 (fun k' hk' => n2 k' (by omega)) h2 ?_
  rw [wp_bind]
  refine wp_wr_put hinj hacc (by omega) p14 (by simp only [el2, dT, row4]; push_cast; ring) rfl ?_
  intro m15 p15
  rw [wp_bind]
  refine wp_rd_put p15 (fun k' hk' => n1 k' (by omega)) h1 ?_
  rw [wp_bind]
  refine wp_wr_put hinj hacc (by omega) p15 (by simp only [el2, dT, row4]; push_cast; ring) rfl ?_
  intro m16 p16
  rw [wp_pure]
  exact hQ _ p16

theorem hdexp_wp [ArithEq F] {m : Mem F} {M N A LDA B LDB : Int} {Av : Nat → Nat → Quat F}
    (hp : DPre m A LDA B LDB M.toNat N.toNat Av) :
    wp (hdexp M N A LDA B LDB) m (fun _ m' => DPost B LDB M.toNat N.toNat Av m m') := by
  have hinj := @dT_inj B LDB M.toNat N.toNat hp.ld
  unfold hdexp
  rw [wp_bind]
  refine wp_mono (wp_scat (S := fun p : Nat × Nat => p.1 < M.toNat ∧ p.2 < 16) (fun j => 1 + 4 * (j:Int)) rfl
    (fun j p => dT B LDB (row4 p.1) (row4 j) p.2) (fun j p => dV (Av p.1 j) p.2) ?_ ?_ ?_) (fun _ _ h => by rw [wp_pure]; exact h.2)
  · intro j p j' p' hj hP hj' hP' h
    exact (hinj hP.1 hj hP'.1 hj' hP.2 hP'.2 h).2.1
  · intro j p hj hP
    exact hp.acc p.1 j p.2 hP.1 hj hP.2
  · intro j m1 hj hout hacc1
    unfold hdexp_20_J
    rw [wp_bind]
    refine wp_mono (wp_scat (S := fun k => k < 16) (fun i => 1 + 4 * (i:Int)) rfl (fun i k => dT B LDB (row4 i) (row4 j) k)
      (fun i k => dV (Av i j) k) ?_ ?_ ?_) ?_
    · intro i k i' k' hi hk hi' hk' h
      exact (hinj hi hj hi' hj hk hk' h).1
    · intro i k hi hk
      exact hacc1 (i, k) ⟨hi, hk⟩
    · intro i m2 hi hout2 hacc2
      have hsame : ∀ a, (∀ i' j' k, i' < M.toNat → j' < N.toNat → k < 16 → dT B LDB (row4 i') (row4 j') k ≠ a) → m2 a = m a := by
        intro a ha
        rw [hout2 a (fun i' k hi' hk => ha i' j k hi' hj hk), hout a (fun j' p hj' hP => ha p.1 j' p.2 hP.1 hj' hP.2)]
      have hq : readQ m2 (A + 4 * (i + j * LDA)) = some (Av i j) := by
        rw [readQ_congr (m' := m)]
        · exact hp.src i j hi hj
        · intro a ha
          apply hsame
          rintro i' j' k hi' hj' hk rfl
          exact hp.apart i' j' i j k hi' hj' hi hj hk ha
      refine hdexp_body_wp hq ?_ hacc2 ?_ (fun m' h => ⟨rfl, h⟩)
      · intro k k' hk hk' h
        exact (hinj hi hj hi hj hk hk' h).2.2
      · intro k hk
        exact hp.apart i j i j k hi hj hi hj hk
    · rintro s m' ⟨_, h⟩
      simp only [show 1 + 4 * (j:Int) + 4 = 1 + 4 * ((j+1 : Nat):Int) by push_cast; ring]
      rw [wp_pure]
      exact ⟨rfl, h⟩

/-- Component `k` of a stored quaternion. -/
def Quat.comp {F : Type} (q : Quat F) : Nat → F
  | 0 => q.re
  | 1 => q.i
  | 2 => q.j
  | _ => q.k

omit [Arith F] in
theorem put_writeQ (m : Mem F) (a : Int) (q : Quat F) :
    Put (· < 4) (fun k : Nat => a + k) q.comp m (writeQ m a q) := by
  have h := readQ_eq_some.mp (readQ_writeQ_same m a q)
  constructor
  · intro k hk
    have : k = 0 ∨ k = 1 ∨ k = 2 ∨ k = 3 := by omega
    rcases this with rfl | rfl | rfl | rfl
    · rw [show a + ((0:Nat):Int) = a by omega]; exact h.1
    · exact h.2.1
    · exact h.2.2.1
    · exact h.2.2.2
  · intro b hb
    apply writeQ_other
    rintro ⟨h1, h2⟩
    have := hb (b - a).toNat (by omega)
    omega

/-- The contracted quaternion. -/
def conQ (U : Bool) (z00 z01 z10 : Cplx F) : Quat F :=
  if U then ⟨z00.re, z00.im, z01.re, z01.im⟩
  else ⟨z00.re, z00.im, (Cplx.neg (Cplx.conj z10)).re, (Cplx.neg (Cplx.conj z10)).im⟩

/-- A complex number is stored at `p`. -/
def CAt {F : Type} (m : Mem F) (p : Int) (z : Cplx F) : Prop := m p = some z.re ∧ m (p+1) = some z.im

theorem wp_cbody {m : Mem F} {a b0 b1 b2 : Int} {q : Quat F} {z0 z1 z2 : Cplx F} {U : Bool} {σ : Type} {s : σ} {Q : σ → Mem F → Prop}
    (hq : readQ m a = some q) (h0 : CAt m b0 z0) (h1 : U = true → CAt m b1 z1) (h2 : U = false → CAt m b2 z2)
    (n1 : U = true → ¬ InQ a b1 ∧ ¬ InQ a (b1+1)) (n2 : U = false → ¬ InQ a b2 ∧ ¬ InQ a (b2+1))
    (hQ : Q s (writeQ m a (conQ U z0 z1 z2))) :
    wp (do
      let t1 ← rdC b0
      wrC a t1
      let _ ← (do
        if U then
          let t2 ← rdC b1
          wrC (a+2) t2
          pure ()
        else
          let t3 ← rdC b2
          wrC (a+2) (Cplx.neg (Cplx.conj t3))
          pure () : Prog F Unit)
      pure s) m Q := by
  rw [wp_bind, wp_rdC h0.1 h0.2, wp_bind, wp_wrC_lo hq, wp_bind]
  cases U
  · rw [if_neg (by simp), wp_bind, wp_rdC (a := z2.re) (b := z2.im)
      (by rw [writeQ_other (n2 rfl).1]; exact (h2 rfl).1) (by rw [writeQ_other (n2 rfl).2]; exact (h2 rfl).2),
      wp_bind, wp_wrC_hi (readQ_writeQ_same _ _ _), wp_pure, wp_pure, writeQ_writeQ]
    exact hQ
  · rw [if_pos rfl, wp_bind, wp_rdC (a := z1.re) (b := z1.im)
      (by rw [writeQ_other (n1 rfl).1]; exact (h1 rfl).1) (by rw [writeQ_other (n1 rfl).2]; exact (h1 rfl).2),
      wp_bind, wp_wrC_hi (readQ_writeQ_same _ _ _), wp_pure, wp_pure, writeQ_writeQ]
    exact hQ

/-- Address of the complex entry `(r,c)`. -/
def cAddr (B LDB r c : Int) : Int := B + 2 * (r + LDB * c)

/-- Preconditions of a contraction: the entries it reads are there and are not part of `A`. -/
structure CPre (m : Mem F) (U : Bool) (A LDA B LDB : Int) (row col : Nat → Nat → Int) (M N : Nat) (z : Nat → Nat → Nat → Nat → Cplx F) : Prop where
  ld : (M:Int) ≤ LDA
  dst : ∃ q, MatAt m A LDA M N q
  src : ∀ i j a b, i < M → j < N → (a = 0 ∧ b = 0 ∨ a = 0 ∧ b = 1 ∧ U = true ∨ a = 1 ∧ b = 0 ∧ U = false) →
    CAt m (cAddr B LDB (row i a) (col j b)) (z i j a b) ∧
    ∀ i' j', i' < M → j' < N → ¬ InQ (A + 4 * (i' + j' * LDA)) (cAddr B LDB (row i a) (col j b)) ∧
      ¬ InQ (A + 4 * (i' + j' * LDA)) (cAddr B LDB (row i a) (col j b) + 1)

/-- Both contractions. -/
theorem wp_zcon {m : Mem F} {U : Bool} {A LDA B LDB : Int} {row col : Nat → Nat → Int} {M N : Nat} {z : Nat → Nat → Nat → Nat → Cplx F}
    (hp : CPre m U A LDA B LDB row col M N z) {σ τ : Type} {f : Nat → τ → Nat → σ → Prog F σ} {g : Nat → τ → Prog F τ}
    {s0 : σ} {t0 : τ} (st : Nat → σ) (tt : Nat → τ) (hs0 : s0 = st 0) (ht0 : t0 = tt 0)
    (hg : ∀ j, j < N → g j (tt j) = (do let _ ← foldN M (f j (tt j)) s0; pure (tt (j+1))))
    (hf : ∀ i j, i < M → j < N → f j (tt j) i (st i) = (do
      let t1 ← rdC (cAddr B LDB (row i 0) (col j 0))
      wrC (A + 4 * (i + j * LDA)) t1
      let _ ← (do
        if U then
          let t2 ← rdC (cAddr B LDB (row i 0) (col j 1))
          wrC (A + 4 * (i + j * LDA) + 2) t2
          pure ()
        else
          let t3 ← rdC (cAddr B LDB (row i 1) (col j 0))
          wrC (A + 4 * (i + j * LDA) + 2) (Cplx.neg (Cplx.conj t3))
          pure () : Prog F Unit)
      pure (st (i+1)))) :
    wp (foldN N g t0) m (fun _ m' => MatAt m' A LDA M N (fun i j => conQ U (z i j 0 0) (z i j 0 1) (z i j 1 0)) ∧
      SameOutside (MatCell A LDA M N) m m') := by
  obtain ⟨q0, hq0⟩ := hp.dst
  have hd : ∀ {i j i' j' : Nat} {k k' : Nat}, i < M → i' < M → k < 4 → k' < 4 →
      A + 4 * (i + j * LDA) + k = A + 4 * (i' + j' * LDA) + k' → i = i' ∧ j = j' := by
    intro i j i' j' k k' hi hi' hk hk' h
    by_contra hne
    have := mat_disj (x := A) hp.ld hi hi' hne
    unfold QDisj at this; omega
  refine wp_mono (wp_scat (S := fun p : Nat × Nat => p.1 < M ∧ p.2 < 4) tt ht0
    (fun j p => A + 4 * (p.1 + j * LDA) + p.2) (fun j p => (conQ U (z p.1 j 0 0) (z p.1 j 0 1) (z p.1 j 1 0)).comp p.2) ?_ ?_ ?_) ?_
  · intro j p j' p' hj hP hj' hP' h
    exact (hd hP.1 hP'.1 hP.2 hP'.2 h).2
  · intro j p hj hP
    exact isSome_of_readQ (hq0 p.1 j hP.1 hj) (by unfold InQ; omega)
  · intro j m1 hj hout hacc1
    rw [hg j hj, wp_bind]
    refine wp_mono (wp_scat (S := fun k : Nat => k < 4) st hs0 (fun i k => A + 4 * (i + j * LDA) + k)
      (fun i k => (conQ U (z i j 0 0) (z i j 0 1) (z i j 1 0)).comp k) ?_ ?_ ?_) ?_
    · intro i k i' k' hi hk hi' hk' h
      exact (hd hi hi' hk hk' h).1
    · intro i k hi hk
      exact hacc1 (i, k) ⟨hi, hk⟩
    · intro i m2 hi hout2 hacc2
      rw [hf i j hi hj]
      have hsame : ∀ a, (∀ i' j', i' < M → j' < N → ¬ InQ (A + 4 * (i' + j' * LDA)) a) → m2 a = m a := by
        intro a ha
        rw [hout2 a (fun i' k hi' hk e => ha i' j hi' hj (by unfold InQ; omega)),
          hout a (fun j' p hj' hP e => ha p.1 j' hP.1 hj' (by unfold InQ; have := hP.2; omega))]
      have hz : ∀ a b, (a = 0 ∧ b = 0 ∨ a = 0 ∧ b = 1 ∧ U = true ∨ a = 1 ∧ b = 0 ∧ U = false) →
          CAt m2 (cAddr B LDB (row i a) (col j b)) (z i j a b) := by
        intro a b hab
        have := hp.src i j a b hi hj hab
        unfold CAt
        rw [hsame _ (fun i' j' hi' hj' => (this.2 i' j' hi' hj').1), hsame _ (fun i' j' hi' hj' => (this.2 i' j' hi' hj').2)]
        exact this.1
      obtain ⟨q, hq⟩ := readQ_of_isSome (m := m2) (p := A + 4 * (i + j * LDA)) (by
        intro a ha
        have := hacc2 (a - (A + 4 * (i + j * LDA))).toNat (by unfold InQ at ha; omega)
        rwa [show A + 4 * (i + j * LDA) + ((a - (A + 4 * (i + j * LDA))).toNat : Int) = a by unfold InQ at ha; omega] at this)
      refine wp_cbody hq (hz 0 0 (Or.inl ⟨rfl, rfl⟩)) (fun h => hz 0 1 (Or.inr (Or.inl ⟨rfl, rfl, h⟩)))
        (fun h => hz 1 0 (Or.inr (Or.inr ⟨rfl, rfl, h⟩)))
        (fun h => (hp.src i j 0 1 hi hj (Or.inr (Or.inl ⟨rfl, rfl, h⟩))).2 i j hi hj)
        (fun h => (hp.src i j 1 0 hi hj (Or.inr (Or.inr ⟨rfl, rfl, h⟩))).2 i j hi hj) ⟨rfl, put_writeQ _ _ _⟩
    · rintro s m' ⟨_, h⟩
      rw [wp_pure]
      exact ⟨rfl, h⟩
  · rintro t m' ⟨_, h⟩
    constructor
    · intro i j hi hj
      rw [readQ_eq_some]
      have hh : ∀ k : Nat, k < 4 → m' (A + 4 * (i + j * LDA) + k) = some ((conQ U (z i j 0 0) (z i j 0 1) (z i j 1 0)).comp k) :=
        fun k hk => h.put (j, (i, k)) ⟨hj, hi, hk⟩
      refine ⟨by have := hh 0 (by omega); rw [show A + 4 * (i + j * LDA) + ((0:Nat):Int) = A + 4 * (i + j * LDA) by omega] at this; exact this, hh 1 (by omega), hh 2 (by omega), hh 3 (by omega)⟩
    · intro a ha
      apply h.out
      rintro ⟨j, i, k⟩ ⟨hj, hi, hk⟩ e
      exact ha ⟨i, j, hi, hj, by dsimp only at e hk; unfold InQ; omega⟩

theorem hzcon1_wp [ArithEq F] {m : Mem F} {UPLO : Char} {M N A LDA B LDB : Int} {z : Nat → Nat → Nat → Nat → Cplx F}
    (hp : CPre m (lsame UPLO 'U') A LDA B LDB (fun i a => ((2:Nat):Int) * i + a) (fun i a => ((2:Nat):Int) * i + a) M.toNat N.toNat z) :
    wp (hzcon1 UPLO M N A LDA B LDB) m (fun _ m' =>
      MatAt m' A LDA M.toNat N.toNat (fun i j => conQ (lsame UPLO 'U') (z i j 0 0) (z i j 0 1) (z i j 1 0)) ∧
      SameOutside (MatCell A LDA M.toNat N.toNat) m m') := by
  unfold hzcon1
  rw [wp_bind]
  refine wp_mono (wp_zcon hp (fun i => 1 + 2 * (i:Int)) (fun j => 1 + 2 * (j:Int)) (s0 := (1:Int)) rfl rfl
    (f := fun j t i s => hzcon1_10_I A B ((j:Int)+1) t LDA LDB (lsame UPLO 'U') ((i:Int)+1) s) ?_ ?_) (fun _ m' h => by rw [wp_pure]; exact h)
  · intro j hj
    unfold hzcon1_20_J
    simp only [show 1 + 2 * (j:Int) + 2 = 1 + 2 * ((j+1 : Nat):Int) by push_cast; ring]
  · intro i j hi hj
    unfold hzcon1_10_I
    simp only [el3c_1, el3c_2, show 1 + 2 * (i:Int) + 2 = 1 + 2 * ((i+1 : Nat):Int) by push_cast; ring]
    have e0 : el2 2 LDB B (1 + 2 * (i:Int)) (1 + 2 * (j:Int)) = cAddr B LDB (((2:Nat):Int) * i + (0:Nat)) (((2:Nat):Int) * j + (0:Nat)) := by
      simp only [el2, cAddr]; push_cast; ring
    have e2 : el2 2 LDB B (1 + 2 * (i:Int)) (1 + 2 * (j:Int) + 1) = cAddr B LDB (((2:Nat):Int) * i + (0:Nat)) (((2:Nat):Int) * j + (1:Nat)) := by
      simp only [el2, cAddr]; push_cast; ring
    have e3 : el2 2 LDB B (1 + 2 * (i:Int) + 1) (1 + 2 * (j:Int)) = cAddr B LDB (((2:Nat):Int) * i + (1:Nat)) (((2:Nat):Int) * j + (0:Nat)) := by
      simp only [el2, cAddr]; push_cast; ring
    rw [e0, e2, e3]

theorem hzcon2_wp [ArithEq F] {m : Mem F} {UPLO : Char} {M N A LDA B LDB : Int} {z : Nat → Nat → Nat → Nat → Cplx F}
    (hp : CPre m (lsame UPLO 'U') A LDA B LDB (fun i a => (i:Int) + M.toNat * a) (fun i a => (i:Int) + N.toNat * a) M.toNat N.toNat z) :
    wp (hzcon2 UPLO M N A LDA B LDB) m (fun _ m' =>
      MatAt m' A LDA M.toNat N.toNat (fun i j => conQ (lsame UPLO 'U') (z i j 0 0) (z i j 0 1) (z i j 1 0)) ∧
      SameOutside (MatCell A LDA M.toNat N.toNat) m m') := by
  unfold hzcon2
  rw [wp_bind]
  refine wp_mono (wp_zcon hp (fun _ => ()) (fun _ => ()) (s0 := ()) rfl rfl
    (f := fun j t i s => hzcon2_10_I A B ((j:Int)+1) LDA LDB M N (lsame UPLO 'U') ((i:Int)+1)) ?_ ?_) (fun _ m' h => by rw [wp_pure]; exact h)
  · intro j hj
    unfold hzcon2_10_J
    rfl
  · intro i j hi hj
    unfold hzcon2_10_I
    simp only [el3c_1, el3c_2]
    have hM : ((M.toNat : Nat) : Int) = M := by omega
    have hN : ((N.toNat : Nat) : Int) = N := by omega
    have e0 : el2 2 LDB B ((i:Int)+1) ((j:Int)+1) = cAddr B LDB ((i:Int) + M.toNat * (0:Nat)) ((j:Int) + N.toNat * (0:Nat)) := by
      simp only [el2, cAddr]; push_cast; ring
    have e2 : el2 2 LDB B ((i:Int)+1) ((j:Int)+1+N) = cAddr B LDB ((i:Int) + M.toNat * (0:Nat)) ((j:Int) + N.toNat * (1:Nat)) := by
      simp only [el2, cAddr, hM, hN]; push_cast; ring
    have e3 : el2 2 LDB B ((i:Int)+1+M) ((j:Int)+1) = cAddr B LDB ((i:Int) + M.toNat * (1:Nat)) ((j:Int) + N.toNat * (0:Nat)) := by
      simp only [el2, cAddr, hM, hN]; push_cast; ring
    rw [e0, e2, e3]

end expand
end Haxx
