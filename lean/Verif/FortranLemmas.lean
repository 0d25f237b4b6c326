import Verif.Fortran
import Verif.QuatLemmas
import Mathlib.Algebra.BigOperators.Ring.Finset

/-!
# Reasoning about the Fortran fragment
-/

namespace Haxx
open Arith Quaternion Finset

section mem
variable {F : Type} {α : Type}

theorem wp_rdC {p : Int} {m : Mem F} {Q : Cplx F → Mem F → Prop} {a b : F} (h0 : m p = some a)
    (h1 : m (p+1) = some b) : wp (rdC p) m Q ↔ Q ⟨a, b⟩ m := by
  unfold rdC
  rw [wp_bind, wp_rd h0, wp_bind, wp_rd h1, wp_pure]

/-- First half of a quaternion. -/
theorem wp_rdC_lo {p : Int} {m : Mem F} {Q : Cplx F → Mem F → Prop} {q : Quat F}
    (h : readQ m p = some q) : wp (rdC p) m Q ↔ Q q.lo m := by
  rw [readQ_eq_some] at h
  exact wp_rdC h.1 h.2.1

/-- Second half of a quaternion. -/
theorem wp_rdC_hi {p : Int} {m : Mem F} {Q : Cplx F → Mem F → Prop} {q : Quat F}
    (h : readQ m p = some q) : wp (rdC (p+2)) m Q ↔ Q q.hi m := by
  rw [readQ_eq_some] at h
  exact wp_rdC h.2.2.1 (by rw [show p + 2 + 1 = p + 3 by ring]; exact h.2.2.2)

theorem wp_wrC {p : Int} {m : Mem F} {z : Cplx F} {Q : Unit → Mem F → Prop} {a b : F}
    (h0 : m p = some a) (h1 : m (p+1) = some b) :
    wp (wrC p z) m Q ↔
      Q () (fun x => if x = p+1 then some z.im else if x = p then some z.re else m x) := by
  unfold wrC
  rw [wp_bind, wp_wr h0, wp_wr (w := b) (by rw [if_neg (by omega)]; exact h1)]

theorem wp_wrC_lo {p : Int} {m : Mem F} {z : Cplx F} {Q : Unit → Mem F → Prop} {q : Quat F}
    (h : readQ m p = some q) :
    wp (wrC p z) m Q ↔ Q () (writeQ m p ⟨z.re, z.im, q.j, q.k⟩) := by
  rw [readQ_eq_some] at h
  rw [wp_wrC h.1 h.2.1]
  have : (fun x => if x = p+1 then some z.im else if x = p then some z.re else m x) =
      writeQ m p ⟨z.re, z.im, q.j, q.k⟩ := by
    funext x
    unfold writeQ
    by_cases c0 : x = p
    · subst c0; simp
    · by_cases c1 : x = p+1
      · subst c1; simp
      · by_cases c2 : x = p+2
        · subst c2; simp [h]
        · by_cases c3 : x = p+3
          · subst c3; simp [h]
          · simp [c0, c1, c2, c3]
  rw [this]

theorem wp_wrC_hi {p : Int} {m : Mem F} {z : Cplx F} {Q : Unit → Mem F → Prop} {q : Quat F}
    (h : readQ m p = some q) :
    wp (wrC (p+2) z) m Q ↔ Q () (writeQ m p ⟨q.re, q.i, z.re, z.im⟩) := by
  rw [readQ_eq_some] at h
  rw [wp_wrC h.2.2.1 (b := q.k) (by rw [show p + 2 + 1 = p + 3 by ring]; exact h.2.2.2)]
  have : (fun x => if x = p+2+1 then some z.im else if x = p+2 then some z.re else m x) =
      writeQ m p ⟨q.re, q.i, z.re, z.im⟩ := by
    funext x
    unfold writeQ
    rw [show p + 2 + 1 = p + 3 by ring]
    by_cases c0 : x = p
    · subst c0; simp [h]
    · by_cases c1 : x = p+1
      · subst c1; simp [h]
      · by_cases c2 : x = p+2
        · subst c2; simp
        · by_cases c3 : x = p+3
          · subst c3; simp
          · simp [c0, c1, c2, c3]
  rw [this]

/-! Single components (`REAL*8` arrays). -/

theorem wp_rd0 {p : Int} {m : Mem F} {Q : F → Mem F → Prop} {q : Quat F}
    (h : readQ m p = some q) : wp (rd p) m Q ↔ Q q.re m := wp_rd (readQ_eq_some.mp h).1
theorem wp_rd1 {p : Int} {m : Mem F} {Q : F → Mem F → Prop} {q : Quat F}
    (h : readQ m p = some q) : wp (rd (p+1)) m Q ↔ Q q.i m := wp_rd (readQ_eq_some.mp h).2.1
theorem wp_rd2 {p : Int} {m : Mem F} {Q : F → Mem F → Prop} {q : Quat F}
    (h : readQ m p = some q) : wp (rd (p+2)) m Q ↔ Q q.j m := wp_rd (readQ_eq_some.mp h).2.2.1
theorem wp_rd3 {p : Int} {m : Mem F} {Q : F → Mem F → Prop} {q : Quat F}
    (h : readQ m p = some q) : wp (rd (p+3)) m Q ↔ Q q.k m := wp_rd (readQ_eq_some.mp h).2.2.2

theorem wr_writeQ {p : Int} {m : Mem F} {q q' : Quat F} {a : Int} {v : F}
    (h : readQ m p = some q)
    (hq : (a = p ∧ q' = ⟨v, q.i, q.j, q.k⟩) ∨ (a = p+1 ∧ q' = ⟨q.re, v, q.j, q.k⟩) ∨
      (a = p+2 ∧ q' = ⟨q.re, q.i, v, q.k⟩) ∨ (a = p+3 ∧ q' = ⟨q.re, q.i, q.j, v⟩)) :
    (fun x => if x = a then some v else m x) = writeQ m p q' := by
  rw [readQ_eq_some] at h
  obtain ⟨h0, h1, h2, h3⟩ := h
  funext x
  unfold writeQ
  by_cases c0 : x = p
  · subst c0; rcases hq with ⟨rfl, rfl⟩ | ⟨rfl, rfl⟩ | ⟨rfl, rfl⟩ | ⟨rfl, rfl⟩ <;> simp [h0]
  by_cases c1 : x = p+1
  · subst c1; rcases hq with ⟨rfl, rfl⟩ | ⟨rfl, rfl⟩ | ⟨rfl, rfl⟩ | ⟨rfl, rfl⟩ <;> simp [h1]
  by_cases c2 : x = p+2
  · subst c2; rcases hq with ⟨rfl, rfl⟩ | ⟨rfl, rfl⟩ | ⟨rfl, rfl⟩ | ⟨rfl, rfl⟩ <;> simp [h2]
  by_cases c3 : x = p+3
  · subst c3; rcases hq with ⟨rfl, rfl⟩ | ⟨rfl, rfl⟩ | ⟨rfl, rfl⟩ | ⟨rfl, rfl⟩ <;> simp [h3]
  rcases hq with ⟨rfl, rfl⟩ | ⟨rfl, rfl⟩ | ⟨rfl, rfl⟩ | ⟨rfl, rfl⟩ <;> simp [c0, c1, c2, c3]

theorem wp_wr0 {p : Int} {m : Mem F} {v : F} {Q : Unit → Mem F → Prop} {q : Quat F}
    (h : readQ m p = some q) : wp (wr p v) m Q ↔ Q () (writeQ m p ⟨v, q.i, q.j, q.k⟩) := by
  rw [wp_wr (readQ_eq_some.mp h).1, wr_writeQ h (Or.inl ⟨rfl, rfl⟩)]
theorem wp_wr1 {p : Int} {m : Mem F} {v : F} {Q : Unit → Mem F → Prop} {q : Quat F}
    (h : readQ m p = some q) : wp (wr (p+1) v) m Q ↔ Q () (writeQ m p ⟨q.re, v, q.j, q.k⟩) := by
  rw [wp_wr (readQ_eq_some.mp h).2.1, wr_writeQ h (Or.inr (Or.inl ⟨rfl, rfl⟩))]
theorem wp_wr2 {p : Int} {m : Mem F} {v : F} {Q : Unit → Mem F → Prop} {q : Quat F}
    (h : readQ m p = some q) : wp (wr (p+2) v) m Q ↔ Q () (writeQ m p ⟨q.re, q.i, v, q.k⟩) := by
  rw [wp_wr (readQ_eq_some.mp h).2.2.1, wr_writeQ h (Or.inr (Or.inr (Or.inl ⟨rfl, rfl⟩)))]
theorem wp_wr3 {p : Int} {m : Mem F} {v : F} {Q : Unit → Mem F → Prop} {q : Quat F}
    (h : readQ m p = some q) : wp (wr (p+3) v) m Q ↔ Q () (writeQ m p ⟨q.re, q.i, q.j, v⟩) := by
  rw [wp_wr (readQ_eq_some.mp h).2.2.2, wr_writeQ h (Or.inr (Or.inr (Or.inr ⟨rfl, rfl⟩)))]

theorem writeQ_writeQ (m : Mem F) (p : Int) (q q' : Quat F) :
    writeQ (writeQ m p q) p q' = writeQ m p q' := by
  funext a
  unfold writeQ
  by_cases h0 : a = p
  · simp [h0]
  · by_cases h1 : a = p+1
    · simp [h1]
    · by_cases h2 : a = p+2
      · simp [h2]
      · by_cases h3 : a = p+3
        · simp [h3]
        · simp [h0, h1, h2, h3]

/-! Addresses. -/

theorem el3c_1 (d b i j : Int) : el3 2 2 d b 1 (i+1) (j+1) = b + 4 * (i + j * d) := by
  unfold el3; ring
theorem el3c_2 (d b i j : Int) : el3 2 2 d b 2 (i+1) (j+1) = b + 4 * (i + j * d) + 2 := by
  unfold el3; ring
theorem el3r_1 (d b i j : Int) : el3 1 4 d b 1 (i+1) (j+1) = b + 4 * (i + j * d) := by
  unfold el3; ring
theorem el3r_2 (d b i j : Int) : el3 1 4 d b 2 (i+1) (j+1) = b + 4 * (i + j * d) + 1 := by
  unfold el3; ring
theorem el3r_3 (d b i j : Int) : el3 1 4 d b 3 (i+1) (j+1) = b + 4 * (i + j * d) + 2 := by
  unfold el3; ring
theorem el3r_4 (d b i j : Int) : el3 1 4 d b 4 (i+1) (j+1) = b + 4 * (i + j * d) + 3 := by
  unfold el3; ring
theorem el2c_1 (b i : Int) : el2 2 2 b 1 i = b + 4 * (i - 1) := by unfold el2; ring
theorem el2c_2 (b i : Int) : el2 2 2 b 2 i = b + 4 * (i - 1) + 2 := by unfold el2; ring
theorem el2r_1 (b i : Int) : el2 1 4 b 1 i = b + 4 * (i - 1) := by unfold el2; ring
theorem el2r_2 (b i : Int) : el2 1 4 b 2 i = b + 4 * (i - 1) + 1 := by unfold el2; ring
theorem el2r_3 (b i : Int) : el2 1 4 b 3 i = b + 4 * (i - 1) + 2 := by unfold el2; ring
theorem el2r_4 (b i : Int) : el2 1 4 b 4 i = b + 4 * (i - 1) + 3 := by unfold el2; ring

/-! Update loops. -/

/-- Elements `addr 0..n-1` hold `c`; `K` holds; everything else is as in `m0`. -/
structure Upd (K : Mem F → Prop) (addr : Nat → Int) (n : Nat) (m0 : Mem F) (c : Nat → Quat F)
    (m : Mem F) : Prop where
  cur : ∀ i, i < n → readQ m (addr i) = some (c i)
  k : K m
  out : ∀ a, (∀ i, i < n → ¬ InQ (addr i) a) → m a = m0 a

/-- Element-wise pass over disjoint elements. -/
theorem wp_pass {K : Mem F → Prop} {addr : Nat → Int} {n : Nat} {m0 m : Mem F} {c c' : Nat → Quat F}
    {σ : Type} {f : Nat → σ → Prog F σ} {s0 : σ} (st : Nat → σ) (hs0 : s0 = st 0)
    (hdisj : ∀ i j, i < n → j < n → i ≠ j → QDisj (addr i) (addr j))
    (hK : ∀ m i q, i < n → K m → K (writeQ m (addr i) q))
    (hU : Upd K addr n m0 c m)
    (hbody : ∀ i m, i < n → K m → readQ m (addr i) = some (c i) →
      wp (f i (st i)) m (fun s' m' => s' = st (i+1) ∧ m' = writeQ m (addr i) (c' i))) :
    wp (foldN n f s0) m (fun s' m' => s' = st n ∧ Upd K addr n m0 c' m') := by
  apply wp_foldN (fun k s m => s = st k ∧ (∀ i, i < n → readQ m (addr i) = some (if i < k then c' i else c i)) ∧
    K m ∧ (∀ a, (∀ i, i < n → ¬ InQ (addr i) a) → m a = m0 a))
  · exact ⟨hs0, fun i hi => by simpa using hU.cur i hi, hU.k, hU.out⟩
  · rintro k s m hk ⟨rfl, hc, hKm, ho⟩
    refine wp_mono (hbody k m hk hKm (by simpa using hc k hk)) ?_
    rintro s' m' ⟨rfl, rfl⟩
    refine ⟨rfl, ?_, hK m k _ hk hKm, ?_⟩
    · intro i hi
      by_cases hik : i = k
      · subst hik; simp [readQ_writeQ_same]
      · rw [readQ_writeQ_disj (hdisj i k hi hk hik), hc i hi]
        by_cases h : i < k
        · rw [if_pos h, if_pos (by omega)]
        · rw [if_neg h, if_neg (by omega)]
    · intro a ha
      rw [writeQ_other (ha k hk), ho a ha]
  · rintro s m ⟨rfl, hc, hKm, ho⟩
    exact ⟨rfl, fun i hi => by simpa [hi] using hc i hi, hKm, ho⟩

/-- Element-wise pass without loop-carried state. -/
theorem wp_passU {K : Mem F → Prop} {addr : Nat → Int} {n : Nat} {m0 m : Mem F} {c c' : Nat → Quat F}
    {f : Nat → Prog F Unit}
    (hdisj : ∀ i j, i < n → j < n → i ≠ j → QDisj (addr i) (addr j))
    (hK : ∀ m i q, i < n → K m → K (writeQ m (addr i) q))
    (hU : Upd K addr n m0 c m)
    (hbody : ∀ i m, i < n → K m → readQ m (addr i) = some (c i) →
      wp (f i) m (fun _ m' => m' = writeQ m (addr i) (c' i))) :
    wp (forN n f) m (fun _ m' => Upd K addr n m0 c' m') := by
  refine wp_mono (wp_pass (fun _ => ()) rfl hdisj hK hU ?_) (fun _ _ h => h.2)
  intro i m hi hk hc
  exact wp_mono (hbody i m hi hk hc) (fun _ _ h => ⟨rfl, h⟩)

/-- Column by column. -/
theorem wp_colsU {K : Mem F → Prop} {addr : Nat → Nat → Int} {M N : Nat} {m0 : Mem F}
    {c c' : Nat → Nat → Quat F} {f : Nat → Prog F Unit}
    (hdisj : ∀ i j i' j', i < M → i' < M → ¬ (i = i' ∧ j = j') → QDisj (addr i j) (addr i' j'))
    (hk0 : K m0) (hc0 : ∀ i j, i < M → j < N → readQ m0 (addr i j) = some (c i j))
    (hbody : ∀ j m, j < N → Upd K (fun i => addr i j) M m (fun i => c i j) m →
      wp (f j) m (fun _ m' => Upd K (fun i => addr i j) M m (fun i => c' i j) m')) :
    wp (forN N f) m0 (fun _ m' => (∀ i j, i < M → j < N → readQ m' (addr i j) = some (c' i j)) ∧
      K m' ∧ ∀ a, (∀ i j, i < M → j < N → ¬ InQ (addr i j) a) → m' a = m0 a) := by
  apply wp_forN (fun k m => (∀ i j, i < M → j < N →
      readQ m (addr i j) = some (if j < k then c' i j else c i j)) ∧
    K m ∧ (∀ a, (∀ i j, i < M → j < N → ¬ InQ (addr i j) a) → m a = m0 a))
  · exact ⟨fun i j hi hj => by simpa using hc0 i j hi hj, hk0, fun _ _ => rfl⟩
  · rintro k m hk ⟨hc, hKm, ho⟩
    refine wp_mono (hbody k m hk ⟨fun i hi => by simpa using hc i k hi hk, hKm, fun _ _ => rfl⟩) ?_
    rintro _ m' hU
    refine ⟨?_, hU.k, ?_⟩
    · intro i j hi hj
      by_cases hjk : j = k
      · subst hjk; simpa using hU.cur i hi
      · rw [readQ_congr (m' := m), hc i j hi hj]
        · by_cases h : j < k
          · rw [if_pos h, if_pos (by omega)]
          · rw [if_neg h, if_neg (by omega)]
        · intro a ha
          apply hU.out
          intro i' hi' hin
          have := hdisj i j i' k hi hi' (fun e => hjk e.2)
          unfold InQ QDisj at *; omega
    · intro a ha
      rw [hU.out a (fun i hi => ha i k hi hk), ho a ha]
  · rintro m ⟨hc, hKm, ho⟩
    exact ⟨fun i j hi hj => by simpa [hj] using hc i j hi hj, hKm, ho⟩

/-- Row by row within a column by column nest, each element once. -/
theorem wp_nestU {K : Mem F → Prop} {addr : Nat → Nat → Int} {M N : Nat} {m0 : Mem F}
    {c c' : Nat → Nat → Quat F} {f : Nat → Nat → Prog F Unit} {g : Nat → Prog F Unit}
    (hg : ∀ j, g j = (do forN M (f j); pure ()))
    (hdisj : ∀ i j i' j', i < M → i' < M → ¬ (i = i' ∧ j = j') → QDisj (addr i j) (addr i' j'))
    (hK : ∀ m i j q, i < M → j < N → K m → K (writeQ m (addr i j) q))
    (hk0 : K m0) (hc0 : ∀ i j, i < M → j < N → readQ m0 (addr i j) = some (c i j))
    (hbody : ∀ i j m, i < M → j < N → K m → readQ m (addr i j) = some (c i j) →
      wp (f j i) m (fun _ m' => m' = writeQ m (addr i j) (c' i j))) :
    wp (forN N g) m0 (fun _ m' => (∀ i j, i < M → j < N → readQ m' (addr i j) = some (c' i j)) ∧
      K m' ∧ ∀ a, (∀ i j, i < M → j < N → ¬ InQ (addr i j) a) → m' a = m0 a) := by
  apply wp_colsU hdisj hk0 hc0
  intro j m hj hU
  rw [hg, wp_bind]
  refine wp_mono (wp_passU (K := K) (addr := fun i => addr i j) (c' := fun i => c' i j) ?_ ?_ hU ?_) ?_
  · intro i i' hi hi' hne; exact hdisj i j i' j hi hi' (fun e => hne e.1)
  · intro m i q hi; exact hK m i j q hi hj
  · intro i m hi hk hc; exact hbody i j m hi hj hk hc
  · intro _ m' h; rw [wp_pure]; exact h

/-- A loop that only reads and keeps locals. -/
theorem wp_acc {σ : Type} {n : Nat} {f : Nat → σ → Prog F σ} {s0 : σ} {m : Mem F}
    {Q : σ → Mem F → Prop} (I : Nat → σ → Prop) (h0 : I 0 s0)
    (hstep : ∀ i s, i < n → I i s → wp (f i s) m (fun s' m' => m' = m ∧ I (i+1) s'))
    (hend : ∀ s, I n s → Q s m) : wp (foldN n f s0) m Q := by
  apply wp_foldN (fun i s m' => m' = m ∧ I i s) ⟨rfl, h0⟩
  · rintro i s m' hi ⟨rfl, h⟩; exact hstep i s hi h
  · rintro s m' ⟨rfl, h⟩; exact hend s h

end mem

section exact
variable {R : Type} [CommRing R]

@[simp] theorem c_add_re (a b : Cplx R) : (a +ᶜ b).re = a.re + b.re := rfl
@[simp] theorem c_add_im (a b : Cplx R) : (a +ᶜ b).im = a.im + b.im := rfl
@[simp] theorem c_sub_re (a b : Cplx R) : (a -ᶜ b).re = a.re - b.re := rfl
@[simp] theorem c_sub_im (a b : Cplx R) : (a -ᶜ b).im = a.im - b.im := rfl
@[simp] theorem c_mul_re (a b : Cplx R) : (a *ᶜ b).re = a.re * b.re - a.im * b.im := rfl
@[simp] theorem c_mul_im (a b : Cplx R) : (a *ᶜ b).im = a.re * b.im + a.im * b.re := rfl
@[simp] theorem c_neg_re (a : Cplx R) : (Cplx.neg a).re = -a.re := rfl
@[simp] theorem c_neg_im (a : Cplx R) : (Cplx.neg a).im = -a.im := rfl
@[simp] theorem c_conj_re (a : Cplx R) : (Cplx.conj a).re = a.re := rfl
@[simp] theorem c_conj_im (a : Cplx R) : (Cplx.conj a).im = -a.im := rfl
@[simp] theorem c_ofReal_re (a : R) : (Cplx.ofReal a).re = a := rfl
@[simp] theorem c_ofReal_im (a : R) : (Cplx.ofReal a).im = 0 := rfl
@[simp] theorem q_lo_re (q : Quat R) : q.lo.re = q.re := rfl
@[simp] theorem q_lo_im (q : Quat R) : q.lo.im = q.i := rfl
@[simp] theorem q_hi_re (q : Quat R) : q.hi.re = q.j := rfl
@[simp] theorem q_hi_im (q : Quat R) : q.hi.im = q.k := rfl

/-- Accumulating passes: pass `l` adds `t l i` to every element `i`. -/
theorem wp_accPass {K : Mem R → Prop} {addr : Nat → Int} {n k : Nat} {m0 m : Mem R}
    {c : Nat → Quat R} {f : Nat → Prog R Unit} (t : Nat → Nat → ℍ[R])
    (hU : Upd K addr n m0 c m)
    (hbody : ∀ l m c, l < k → Upd K addr n m0 c m →
      wp (f l) m (fun _ m' => Upd K addr n m0 (fun i => Quat.ofH ((c i).toH + t l i)) m')) :
    wp (forN k f) m (fun _ m' => Upd K addr n m0
      (fun i => Quat.ofH ((c i).toH + ∑ l ∈ range k, t l i)) m') := by
  apply wp_forN (fun l m => Upd K addr n m0
      (fun i => Quat.ofH ((c i).toH + ∑ l' ∈ range l, t l' i)) m)
  · simpa using hU
  · intro l m hl h
    refine wp_mono (hbody l m _ hl h) ?_
    intro _ m' h'
    simpa [sum_range_succ, add_assoc] using h'
  · intro m h; exact h

end exact

end Haxx
