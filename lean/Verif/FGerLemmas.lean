import Verif.FHblas1Proofs2
import Verif.FGer

/-! Shared lemmas of the Fortran rank-one update proofs. -/

namespace Haxx
open Arith Quaternion Finset

section
variable {F : Type}

/-- Column by column, with a loop-carried value. -/
theorem wp_cols {σ : Type} {K : Mem F → Prop} {addr : Nat → Nat → Int} {M N : Nat} {m0 : Mem F}
    {c c' : Nat → Nat → Quat F} {f : Nat → σ → Prog F σ} {s0 : σ} (st : Nat → σ) (hs0 : s0 = st 0)
    (hdisj : ∀ i j i' j', i < M → i' < M → ¬ (i = i' ∧ j = j') → QDisj (addr i j) (addr i' j'))
    (hk0 : K m0) (hc0 : ∀ i j, i < M → j < N → readQ m0 (addr i j) = some (c i j))
    (hbody : ∀ j m, j < N → Upd K (fun i => addr i j) M m (fun i => c i j) m →
      wp (f j (st j)) m (fun s m' => s = st (j+1) ∧ Upd K (fun i => addr i j) M m (fun i => c' i j) m')) :
    wp (foldN N f s0) m0 (fun _ m' => (∀ i j, i < M → j < N → readQ m' (addr i j) = some (c' i j)) ∧
      K m' ∧ ∀ a, (∀ i j, i < M → j < N → ¬ InQ (addr i j) a) → m' a = m0 a) := by
  apply wp_foldN (fun k s m => s = st k ∧ (∀ i j, i < M → j < N →
      readQ m (addr i j) = some (if j < k then c' i j else c i j)) ∧
    K m ∧ (∀ a, (∀ i j, i < M → j < N → ¬ InQ (addr i j) a) → m a = m0 a))
  · exact ⟨hs0, fun i j hi hj => by simpa using hc0 i j hi hj, hk0, fun _ _ => rfl⟩
  · rintro k s m hk ⟨rfl, hc, hKm, ho⟩
    refine wp_mono (hbody k m hk ⟨fun i hi => by simpa using hc i k hi hk, hKm, fun _ _ => rfl⟩) ?_
    rintro s m' ⟨rfl, hU⟩
    refine ⟨rfl, ?_, hU.k, ?_⟩
    · intro i j hi hj
      by_cases hjk : j = k
      · subst hjk; simpa using hU.cur i hi
      · rw [readQ_congr (m' := m), hc i j hi hj]
        · by_cases h : j < k
          · rw [if_pos h, if_pos (by omega)]
          · rw [if_neg h, if_neg (by omega)]
        · intro a ha
          apply hU.out
          intro i' hi' hin
          have := hdisj i j i' k hi hi' (fun e => hjk e.2)
          unfold InQ QDisj at *; omega
    · intro a ha
      rw [hU.out a (fun i hi => ha i k hi hk), ho a ha]
  · rintro s m ⟨rfl, hc, hKm, ho⟩
    exact ⟨fun i j hi hj => by simpa [hj] using hc i j hi hj, hKm, ho⟩

/-- The reads of a rank-one update: `K` makes the vectors readable and survives stores to `A`. -/
structure GerEnv (K : Mem F → Prop) (X INCX : Int) (M : Nat) (x : Nat → Quat F)
    (Y INCY : Int) (N : Nat) (y : Nat → Quat F) (A LDA : Int) : Prop where
  rdX : ∀ m, K m → VecAt m X INCX M x
  rdY : ∀ m, K m → VecAt m Y INCY N y
  stable : ∀ m (i j : Nat) q, i < M → j < N → K m → K (writeQ m (A + 4 * (i + j * LDA)) q)
  disj : ∀ i j i' j' : Nat, i < M → i' < M → ¬ (i = i' ∧ j = j') →
    QDisj (A + 4 * (i + j * LDA)) (A + 4 * (i' + j' * LDA))

/-- Running `p` from `m` ends in fault `e`. -/
def Faults {α : Type} (p : Prog F α) (m : Mem F) (e : Fault) : Prop := p m = .error e

theorem faults_bind_err {α β : Type} {p : Prog F α} {k : α → Prog F β} {m : Mem F} {e : Fault}
    (h : Faults p m e) : Faults (p >>= k) m e := by
  exact bind_error h

theorem faults_bind_ok {α β : Type} {p : Prog F α} {k : α → Prog F β} {m : Mem F} {e : Fault}
    (h : wp p m (fun a m' => Faults (k a) m' e)) : Faults (p >>= k) m e := by
  obtain ⟨a, m', h1, h2⟩ := h
  exact (bind_ok h1).trans h2

/-- A loop whose passes before `j` only advance the state, and whose pass `j` faults. -/
theorem faults_foldN {σ : Type} {n j : Nat} {f : Nat → σ → Prog F σ} {m : Mem F} {e : Fault}
    (st : Nat → σ) (hj : j < n) (hbef : ∀ i, i < j → wp (f i (st i)) m (fun s m' => s = st (i+1) ∧ m' = m))
    (h : Faults (f j (st j)) m e) : Faults (foldN n f (st 0)) m e := by
  induction n with
  | zero => omega
  | succ n ih =>
    unfold foldN
    by_cases hn : j < n
    · exact faults_bind_err (ih hn)
    · have : j = n := by omega
      subst this
      apply faults_bind_ok
      apply wp_foldN (fun k s m' => s = st k ∧ m' = m) ⟨rfl, rfl⟩
      · rintro k s m' hk ⟨rfl, rfl⟩
        exact hbef k hk
      · rintro s m' ⟨rfl, rfl⟩
        exact h

theorem fstart (X N INC : Int) (i : Nat) :
    X + 4 * ((if INC > 0 then 1 else 1 - (N - 1) * INC) + i * INC - 1) =
      fbase X N INC + 4 * (i * INC) := by
  unfold fbase
  rcases lt_trichotomy INC 0 with h | h | h
  · rw [if_neg (by omega), if_pos h]; ring
  · subst h; simp
  · rw [if_pos h, if_neg (by omega)]; ring

theorem wp_fstart {N INC : Int} {m : Mem F} {Q : Int → Mem F → Prop} :
    wp (do if decide (INC > 0) = true then pure 1 else pure (1 - (N - 1) * INC) : Prog F Int)
      m Q ↔ Q (if INC > 0 then 1 else 1 - (N - 1) * INC) m := by
  by_cases h : INC > 0
  · simp only [h, decide_true, if_true, wp_pure]
  · simp only [h, decide_false, Bool.false_eq_true, if_false, wp_pure]

end

section
variable {R : Type} [CommRing R] [DecidableEq R]

theorem feq_zero_toH {q : Quat R}
    (h : ¬ ((!(Cplx.feq q.lo (⟨zero, zero⟩ : Cplx R))) ||
      (!(Cplx.feq q.hi (⟨zero, zero⟩ : Cplx R)))) = true) : q.toH = 0 := by
  simp [Cplx.feq] at h
  obtain ⟨⟨h0, h1⟩, h2, h3⟩ := h
  ext <;> simp [h0, h1, h2, h3]

theorem allZero_of_feq_d {a : R} (h : (a ==ᶠ (zero : R)) = true) : (Scal.d a).toH = 0 := by
  rw [← allZero_iff]; simpa [Scal.allZero] using h

end
end Haxx
