import Verif.Quat
import Mathlib.Tactic.Linarith

/-!
# Memory, undefined behaviour, program monad, loops

Addresses count 8-byte cells (`double`s).  A `quaternion<double>` at cell address `p` occupies
`p, p+1, p+2, p+3` (component order of the struct, `include/haxx/haxx_def.hpp:186-190`), so pointer
arithmetic `ptr + n` on `quaternion<double>*` is `p + 4*n`.  The byte address of cell `a` is `8*a`,
so 32-byte alignment (`REQ_ALIGN`, `include/util/simd.hpp:18-20`) is `a % 4 = 0`.
-/

namespace Haxx

/-- Undefined behaviour / abnormal termination, each a distinct outcome. -/
inductive Fault where
  /-- access to a cell that is not part of a live object -/
  | oob (a : Int)
  /-- aligned vector access at a misaligned address -/
  | misaligned (a : Int)
  /-- `assert` failed -/
  | assertFail
  /-- signed 32-bit overflow in `HAXX_INT` arithmetic -/
  | overflow
  /-- use of an uninitialised local -/
  | uninit
deriving DecidableEq, Repr

/-- Memory: `none` means the cell is not accessible. -/
abbrev Mem (F : Type) := Int → Option F

/-- A program reads and writes memory, may fault, and returns a value. -/
def Prog (F α : Type) := Mem F → Except Fault (α × Mem F)

variable {F α β σ : Type}

instance : Monad (Prog F) where
  pure a := fun m => .ok (a, m)
  bind p f := fun m => match p m with
    | .error e => .error e
    | .ok (a, m') => f a m'

theorem bind_ok {p : Prog F α} {f : α → Prog F β} {m m' : Mem F} {a : α} (h : p m = .ok (a, m')) :
    (p >>= f) m = f a m' := by
  change (match p m with
    | .error e => Except.error e
    | .ok (a, m') => f a m') = _
  rw [h]

theorem bind_error {p : Prog F α} {f : α → Prog F β} {m : Mem F} {e : Fault} (h : p m = .error e) :
    (p >>= f) m = .error e := by
  change (match p m with
    | .error e => Except.error e
    | .ok (a, m') => f a m') = _
  rw [h]

/-- Abort with undefined behaviour. -/
def fault (e : Fault) : Prog F α := fun _ => .error e

/-- Read one cell. -/
def rd (a : Int) : Prog F F := fun m => match m a with
  | some v => .ok (v, m)
  | none => .error (.oob a)

/-- Write one cell. -/
def wr (a : Int) (v : F) : Prog F Unit := fun m => match m a with
  | some _ => .ok ((), fun b => if b = a then some v else m b)
  | none => .error (.oob a)

/-- Load a quaternion (`*ptr`, or `_mm256_loadu_pd` on its four cells). -/
def loadQ (p : Int) : Prog F (Quat F) := do
  let a ← rd p
  let b ← rd (p+1)
  let c ← rd (p+2)
  let d ← rd (p+3)
  pure ⟨a, b, c, d⟩

/-- Store a quaternion (`*ptr = q`, or `_mm256_storeu_pd`). -/
def storeQ (p : Int) (q : Quat F) : Prog F Unit := do
  wr p q.re
  wr (p+1) q.i
  wr (p+2) q.j
  wr (p+3) q.k

/-- `IS_ALIGNED(X,32)` — `include/util/macro.hpp:19` on the byte address `8*p`
(see `Util.isAligned_iff` for the bit-level definition). -/
def aligned32 (p : Int) : Bool := p % 4 == 0

/-- `_mm256_load_pd`: faults on a misaligned address — `include/util/simd/intrin_alias.hpp:19`. -/
def loadA (p : Int) : Prog F (Quat F) :=
  if aligned32 p then loadQ p else fault (.misaligned p)

/-- `_mm256_store_pd` — `include/util/simd/intrin_alias.hpp:38`. -/
def storeA (p : Int) (q : Quat F) : Prog F Unit :=
  if aligned32 p then storeQ p q else fault (.misaligned p)

/-- `assert(b)`. -/
def assertP (b : Bool) : Prog F Unit := if b then pure () else fault .assertFail

/-- The value of a signed 32-bit computation (`HAXX_INT` = `int32_t`); overflow is undefined. -/
def i32 (x : Int) : Prog F Int :=
  if -2147483648 ≤ x ∧ x ≤ 2147483647 then pure x else fault .overflow

/-- `for (i = 0; i < n; i++) s = f i s` in order `0,1,…,n-1`. -/
def foldN : (n : Nat) → (Nat → σ → Prog F σ) → σ → Prog F σ
  | 0, _, s => pure s
  | n+1, f, s => do
    let s' ← foldN n f s
    f n s'

/-- Loop without loop-carried locals. -/
def forN (n : Nat) (f : Nat → Prog F Unit) : Prog F Unit := foldN n (fun i _ => f i) ()

/-! ## Observing memory -/

/-- The quaternion stored at `p`, if all four cells are accessible. -/
def readQ (m : Mem F) (p : Int) : Option (Quat F) :=
  match m p, m (p+1), m (p+2), m (p+3) with
  | some a, some b, some c, some d => some ⟨a, b, c, d⟩
  | _, _, _, _ => none

/-- Memory after storing `q` at `p`. -/
def writeQ (m : Mem F) (p : Int) (q : Quat F) : Mem F := fun a =>
  if a = p then some q.re
  else if a = p+1 then some q.i
  else if a = p+2 then some q.j
  else if a = p+3 then some q.k
  else m a

/-- Cell `a` belongs to the quaternion at `p`. -/
def InQ (p a : Int) : Prop := p ≤ a ∧ a < p + 4

/-- The quaternions at `p` and `q` do not overlap. -/
def QDisj (p q : Int) : Prop := p + 4 ≤ q ∨ q + 4 ≤ p

/-! ## Weakest preconditions (total correctness: no fault) -/

/-- `p` run from `m` does not fault and its result and final memory satisfy `Q`. -/
def wp (p : Prog F α) (m : Mem F) (Q : α → Mem F → Prop) : Prop :=
  ∃ a m', p m = .ok (a, m') ∧ Q a m'

theorem wp_pure {a : α} {m : Mem F} {Q : α → Mem F → Prop} :
    wp (pure a) m Q ↔ Q a m := by
  constructor
  · rintro ⟨a', m', h, hq⟩
    have : (Except.ok (a, m) : Except Fault _) = .ok (a', m') := h
    cases this; exact hq
  · intro h; exact ⟨a, m, rfl, h⟩

theorem wp_bind {p : Prog F α} {f : α → Prog F β} {m : Mem F} {Q : β → Mem F → Prop} :
    wp (p >>= f) m Q ↔ wp p m (fun a m' => wp (f a) m' Q) := by
  constructor
  · rintro ⟨b, m', h, hq⟩
    change (match p m with
      | .error e => Except.error e
      | .ok (a, m') => f a m') = _ at h
    cases hp : p m with
    | error e => rw [hp] at h; cases h
    | ok r =>
      obtain ⟨a, m1⟩ := r
      rw [hp] at h
      exact ⟨a, m1, hp, b, m', h, hq⟩
  · rintro ⟨a, m1, hp, b, m', h, hq⟩
    refine ⟨b, m', ?_, hq⟩
    change (match p m with
      | .error e => Except.error e
      | .ok (a, m') => f a m') = _
    rw [hp]; exact h

theorem wp_mono {p : Prog F α} {m : Mem F} {Q Q' : α → Mem F → Prop}
    (h : wp p m Q) (hq : ∀ a m', Q a m' → Q' a m') : wp p m Q' := by
  obtain ⟨a, m', h1, h2⟩ := h
  exact ⟨a, m', h1, hq _ _ h2⟩

theorem wp_ite {c : Prop} [Decidable c] {p q : Prog F α} {m : Mem F} {Q : α → Mem F → Prop} :
    wp (if c then p else q) m Q ↔ (if c then wp p m Q else wp q m Q) := by
  split <;> rfl

theorem wp_fault {e : Fault} {m : Mem F} {Q : α → Mem F → Prop} :
    wp (fault e) m Q ↔ False := by
  constructor
  · rintro ⟨a, m', h, _⟩; cases h
  · intro h; cases h

theorem wp_rd {a : Int} {m : Mem F} {Q : F → Mem F → Prop} {v : F} (h : m a = some v) :
    wp (rd a) m Q ↔ Q v m := by
  constructor
  · rintro ⟨v', m', hr, hq⟩
    simp only [rd, h] at hr; cases hr; exact hq
  · intro hq; exact ⟨v, m, by simp [rd, h], hq⟩

theorem wp_wr {a : Int} {v : F} {m : Mem F} {Q : Unit → Mem F → Prop} {w : F} (h : m a = some w) :
    wp (wr a v) m Q ↔ Q () (fun b => if b = a then some v else m b) := by
  constructor
  · rintro ⟨v', m', hr, hq⟩
    simp only [wr, h] at hr; cases hr; exact hq
  · intro hq; exact ⟨(), _, by simp [wr, h], hq⟩

theorem readQ_eq_some {m : Mem F} {p : Int} {q : Quat F} :
    readQ m p = some q ↔ m p = some q.re ∧ m (p+1) = some q.i ∧ m (p+2) = some q.j ∧
      m (p+3) = some q.k := by
  unfold readQ
  constructor
  · intro h
    split at h
    · cases h; simp_all
    · cases h
  · rintro ⟨h0, h1, h2, h3⟩
    simp [h0, h1, h2, h3]

theorem wp_loadQ {p : Int} {m : Mem F} {Q : Quat F → Mem F → Prop} {q : Quat F}
    (h : readQ m p = some q) : wp (loadQ p) m Q ↔ Q q m := by
  rw [readQ_eq_some] at h
  obtain ⟨h0, h1, h2, h3⟩ := h
  unfold loadQ
  rw [wp_bind, wp_rd h0, wp_bind, wp_rd h1, wp_bind, wp_rd h2, wp_bind, wp_rd h3, wp_pure]

theorem wp_storeQ {p : Int} {q : Quat F} {m : Mem F} {Q : Unit → Mem F → Prop} {q0 : Quat F}
    (h : readQ m p = some q0) : wp (storeQ p q) m Q ↔ Q () (writeQ m p q) := by
  rw [readQ_eq_some] at h
  obtain ⟨h0, h1, h2, h3⟩ := h
  unfold storeQ
  have e1 : ¬ (p + 1 = p) := by omega
  have e2 : ¬ (p + 2 = p) := by omega
  have e2' : ¬ (p + 2 = p + 1) := by omega
  have e3 : ¬ (p + 3 = p) := by omega
  have e3' : ¬ (p + 3 = p + 1) := by omega
  have e3'' : ¬ (p + 3 = p + 2) := by omega
  rw [wp_bind, wp_wr h0, wp_bind, wp_wr (w := q0.i) (by simp [h1]), wp_bind,
    wp_wr (w := q0.j) (by simp [e2', e2, h2]), wp_wr (w := q0.k) (by simp [e3, e3', e3'', h3])]
  have : (fun b => if b = p + 3 then some q.k else if b = p + 2 then some q.j
      else if b = p + 1 then some q.i else if b = p then some q.re else m b) = writeQ m p q := by
    funext b
    unfold writeQ
    by_cases c0 : b = p
    · subst c0; simp
    · by_cases c1 : b = p+1
      · subst c1; simp
      · by_cases c2 : b = p+2
        · subst c2; simp
        · simp [c0, c1, c2]
  rw [this]

theorem wp_loadA {p : Int} {m : Mem F} {Q : Quat F → Mem F → Prop} {q : Quat F}
    (ha : aligned32 p = true) (h : readQ m p = some q) : wp (loadA p) m Q ↔ Q q m := by
  unfold loadA; rw [if_pos ha, wp_loadQ h]

theorem wp_storeA {p : Int} {q : Quat F} {m : Mem F} {Q : Unit → Mem F → Prop} {q0 : Quat F}
    (ha : aligned32 p = true) (h : readQ m p = some q0) :
    wp (storeA p q) m Q ↔ Q () (writeQ m p q) := by
  unfold storeA; rw [if_pos ha, wp_storeQ h]

theorem wp_i32 {x : Int} {m : Mem F} {Q : Int → Mem F → Prop}
    (h : -2147483648 ≤ x ∧ x ≤ 2147483647) : wp (i32 x) m Q ↔ Q x m := by
  unfold i32; rw [if_pos h, wp_pure]

theorem wp_assert {b : Bool} {m : Mem F} {Q : Unit → Mem F → Prop}
    (h : b = true) : wp (assertP b) m Q ↔ Q () m := by
  unfold assertP; rw [if_pos h, wp_pure]

/-- Invariant rule. -/
theorem wp_foldN {n : Nat} {f : Nat → σ → Prog F σ} {s : σ} {m : Mem F} {Q : σ → Mem F → Prop}
    (I : Nat → σ → Mem F → Prop) (h0 : I 0 s m)
    (hstep : ∀ i s m, i < n → I i s m → wp (f i s) m (fun s' m' => I (i+1) s' m'))
    (hend : ∀ s m, I n s m → Q s m) : wp (foldN n f s) m Q := by
  suffices h : ∀ k, k ≤ n → wp (foldN k f s) m (fun s' m' => I k s' m') from
    wp_mono (h n (Nat.le_refl n)) (fun s m hh => hend s m hh)
  intro k hk
  induction k with
  | zero => simp only [foldN]; rw [wp_pure]; exact h0
  | succ k ih =>
    simp only [foldN]
    rw [wp_bind]
    exact wp_mono (ih (by omega)) (fun s' m' hi => hstep k s' m' (by omega) hi)

theorem wp_forN {n : Nat} {f : Nat → Prog F Unit} {m : Mem F} {Q : Unit → Mem F → Prop}
    (I : Nat → Mem F → Prop) (h0 : I 0 m)
    (hstep : ∀ i m, i < n → I i m → wp (f i) m (fun _ m' => I (i+1) m'))
    (hend : ∀ m, I n m → Q () m) : wp (forN n f) m Q :=
  wp_foldN (fun i _ m => I i m) h0 (fun i _ m hi h => hstep i m hi h) (fun _ m h => hend m h)

/-! ## Reads and writes -/

theorem readQ_writeQ_same (m : Mem F) (p : Int) (q : Quat F) : readQ (writeQ m p q) p = some q := by
  rw [readQ_eq_some]
  have e1 : ¬ (p + 1 = p) := by omega
  have e2 : ¬ (p + 2 = p) := by omega
  have e3 : ¬ (p + 3 = p) := by omega
  have e4 : ¬ (p + 2 = p + 1) := by omega
  have e5 : ¬ (p + 3 = p + 1) := by omega
  have e6 : ¬ (p + 3 = p + 2) := by omega
  simp [writeQ]

theorem writeQ_other {m : Mem F} {p a : Int} {q : Quat F} (h : ¬ InQ p a) :
    writeQ m p q a = m a := by
  unfold InQ at h
  unfold writeQ
  rw [if_neg (by omega), if_neg (by omega), if_neg (by omega), if_neg (by omega)]

theorem readQ_congr {m m' : Mem F} {p : Int} (h : ∀ a, InQ p a → m a = m' a) :
    readQ m p = readQ m' p := by
  unfold readQ
  rw [h p (by unfold InQ; omega), h (p+1) (by unfold InQ; omega), h (p+2) (by unfold InQ; omega),
    h (p+3) (by unfold InQ; omega)]

theorem readQ_writeQ_disj {m : Mem F} {p r : Int} {q : Quat F} (h : QDisj p r) :
    readQ (writeQ m r q) p = readQ m p := by
  apply readQ_congr
  intro a ha
  apply writeQ_other
  unfold InQ at *; unfold QDisj at h; omega

/-- Accessibility is preserved by stores to accessible quaternions. -/
theorem writeQ_isSome {m : Mem F} {p a : Int} {q : Quat F} (h : (m a).isSome) :
    (writeQ m p q a).isSome := by
  unfold writeQ; repeat' split
  all_goals simp_all

/-! ## Region loops: iteration `i` touches only its own region -/

/-- Iteration `i` (with known loop-carried locals `st i`) establishes `P i`, a property of region
`R i`, and changes memory only inside `R i`; the regions are pairwise disjoint. -/
theorem wp_region {n : Nat} {f : Nat → σ → Prog F σ} {m0 : Mem F} (st : Nat → σ)
    (R : Nat → Int → Prop) (P : Nat → Mem F → Prop)
    (hdisj : ∀ i j a, i < n → j < n → i ≠ j → R i a → ¬ R j a)
    (hloc : ∀ i m m', i < n → (∀ a, R i a → m a = m' a) → P i m → P i m')
    (hbody : ∀ i m, i < n → (∀ a, (∀ k, k < i → ¬ R k a) → m a = m0 a) →
      wp (f i (st i)) m (fun s' m' => s' = st (i+1) ∧ P i m' ∧ ∀ a, ¬ R i a → m' a = m a))
    {Q : σ → Mem F → Prop}
    (hend : ∀ m, (∀ i, i < n → P i m) → (∀ a, (∀ k, k < n → ¬ R k a) → m a = m0 a) → Q (st n) m) :
    wp (foldN n f (st 0)) m0 Q := by
  apply wp_foldN (fun i s m => s = st i ∧ (∀ k, k < i → P k m) ∧
      (∀ a, (∀ k, k < i → ¬ R k a) → m a = m0 a))
  · exact ⟨rfl, fun k hk => by omega, fun _ _ => rfl⟩
  · rintro i s m hi ⟨rfl, hP, hF⟩
    refine wp_mono (hbody i m hi hF) ?_
    rintro s' m' ⟨hs, hPi, hfr⟩
    refine ⟨hs, ?_, ?_⟩
    · intro k hk
      by_cases hki : k = i
      · subst hki; exact hPi
      · refine hloc k m m' (by omega) ?_ (hP k (by omega))
        intro a ha
        exact (hfr a (hdisj k i a (by omega) hi hki ha)).symm
    · intro a ha
      rw [hfr a (ha i (by omega)), hF a (fun k hk => ha k (by omega))]
  · rintro s m ⟨rfl, hP, hF⟩
    exact hend m hP hF

/-- As `wp_region`, with a scratch area `S` that every iteration may overwrite, and a property `J` of
memory that every iteration keeps (for instance that the scratch area is accessible). -/
theorem wp_region_s {n : Nat} {f : Nat → σ → Prog F σ} {m0 : Mem F} (st : Nat → σ)
    (R : Nat → Int → Prop) (S : Int → Prop) (J : Mem F → Prop) (P : Nat → Mem F → Prop)
    (hdisj : ∀ i j a, i < n → j < n → i ≠ j → R i a → ¬ R j a)
    (hsc : ∀ i a, i < n → R i a → ¬ S a)
    (hloc : ∀ i m m', i < n → (∀ a, R i a → m a = m' a) → P i m → P i m')
    (hJ : J m0)
    (hbody : ∀ i m, i < n → J m → (∀ a, ¬ S a → (∀ k, k < i → ¬ R k a) → m a = m0 a) →
      wp (f i (st i)) m (fun s' m' => s' = st (i+1) ∧ P i m' ∧ J m' ∧
        ∀ a, ¬ R i a → ¬ S a → m' a = m a))
    {Q : σ → Mem F → Prop}
    (hend : ∀ m, J m → (∀ i, i < n → P i m) →
      (∀ a, ¬ S a → (∀ k, k < n → ¬ R k a) → m a = m0 a) → Q (st n) m) :
    wp (foldN n f (st 0)) m0 Q := by
  apply wp_foldN (fun i s m => s = st i ∧ J m ∧ (∀ k, k < i → P k m) ∧
      (∀ a, ¬ S a → (∀ k, k < i → ¬ R k a) → m a = m0 a))
  · exact ⟨rfl, hJ, fun k hk => by omega, fun _ _ _ => rfl⟩
  · rintro i s m hi ⟨rfl, hJm, hP, hF⟩
    refine wp_mono (hbody i m hi hJm hF) ?_
    rintro s' m' ⟨hs, hPi, hJ', hfr⟩
    refine ⟨hs, hJ', ?_, ?_⟩
    · intro k hk
      by_cases hki : k = i
      · subst hki; exact hPi
      · refine hloc k m m' (by omega) ?_ (hP k (by omega))
        intro a ha
        exact (hfr a (hdisj k i a (by omega) hi hki ha) (hsc k a (by omega) ha)).symm
    · intro a hS ha
      rw [hfr a (ha i (by omega)) hS, hF a hS (fun k hk => ha k (by omega))]
  · rintro s m ⟨rfl, hJm, hP, hF⟩
    exact hend m hJm hP hF

/-- `wp_region` with the initial state and the state at iteration `i` given by equations. -/
theorem wp_region_e {n : Nat} {f : Nat → σ → Prog F σ} {s0 : σ} {m0 : Mem F} (st : Nat → σ)
    (R : Nat → Int → Prop) (P : Nat → Mem F → Prop) (hs0 : s0 = st 0)
    (hdisj : ∀ i j a, i < n → j < n → i ≠ j → R i a → ¬ R j a)
    (hloc : ∀ i m m', i < n → (∀ a, R i a → m a = m' a) → P i m → P i m')
    (hbody : ∀ i s m, i < n → s = st i → (∀ a, (∀ k, k < i → ¬ R k a) → m a = m0 a) →
      wp (f i s) m (fun s' m' => s' = st (i+1) ∧ P i m' ∧ ∀ a, ¬ R i a → m' a = m a))
    {Q : σ → Mem F → Prop}
    (hend : ∀ m, (∀ i, i < n → P i m) → (∀ a, (∀ k, k < n → ¬ R k a) → m a = m0 a) → Q (st n) m) :
    wp (foldN n f s0) m0 Q := by
  subst hs0
  exact wp_region st R P hdisj hloc (fun i m hi hF => hbody i _ m hi rfl hF) hend

/-- `wp_region_s` with the initial state and the state at iteration `i` given by equations. -/
theorem wp_region_se {n : Nat} {f : Nat → σ → Prog F σ} {s0 : σ} {m0 : Mem F} (st : Nat → σ)
    (R : Nat → Int → Prop) (S : Int → Prop) (J : Mem F → Prop) (P : Nat → Mem F → Prop)
    (hs0 : s0 = st 0)
    (hdisj : ∀ i j a, i < n → j < n → i ≠ j → R i a → ¬ R j a)
    (hsc : ∀ i a, i < n → R i a → ¬ S a)
    (hloc : ∀ i m m', i < n → (∀ a, R i a → m a = m' a) → P i m → P i m')
    (hJ : J m0)
    (hbody : ∀ i s m, i < n → s = st i → J m →
      (∀ a, ¬ S a → (∀ k, k < i → ¬ R k a) → m a = m0 a) →
      wp (f i s) m (fun s' m' => s' = st (i+1) ∧ P i m' ∧ J m' ∧
        ∀ a, ¬ R i a → ¬ S a → m' a = m a))
    {Q : σ → Mem F → Prop}
    (hend : ∀ m, J m → (∀ i, i < n → P i m) →
      (∀ a, ¬ S a → (∀ k, k < n → ¬ R k a) → m a = m0 a) → Q (st n) m) :
    wp (foldN n f s0) m0 Q := by
  subst hs0
  exact wp_region_s st R S J P hdisj hsc hloc hJ (fun i m hi hJ hF => hbody i _ m hi rfl hJ hF) hend

/-- Accessible cells can be read as a quaternion. -/
theorem readQ_of_isSome {m : Mem F} {p : Int} (h : ∀ a, InQ p a → (m a).isSome) :
    ∃ q, readQ m p = some q := by
  have h0 := h p (by unfold InQ; omega)
  have h1 := h (p+1) (by unfold InQ; omega)
  have h2 := h (p+2) (by unfold InQ; omega)
  have h3 := h (p+3) (by unfold InQ; omega)
  rw [Option.isSome_iff_exists] at h0 h1 h2 h3
  obtain ⟨a, ha⟩ := h0
  obtain ⟨b, hb⟩ := h1
  obtain ⟨c, hc⟩ := h2
  obtain ⟨d, hd⟩ := h3
  exact ⟨⟨a, b, c, d⟩, readQ_eq_some.mpr ⟨ha, hb, hc, hd⟩⟩

theorem isSome_of_readQ {m : Mem F} {p a : Int} {q : Quat F} (h : readQ m p = some q)
    (ha : InQ p a) : (m a).isSome := by
  rw [readQ_eq_some] at h
  obtain ⟨h0, h1, h2, h3⟩ := h
  unfold InQ at ha
  have : a = p ∨ a = p+1 ∨ a = p+2 ∨ a = p+3 := by omega
  rcases this with rfl | rfl | rfl | rfl <;> simp_all

/-- Element-wise update loop: iteration `i` stores `new i` at `addr i`. -/
theorem wp_map {n : Nat} {f : Nat → σ → Prog F σ} {m0 : Mem F} (st : Nat → σ)
    (addr : Nat → Int) (new : Nat → Quat F)
    (hdisj : ∀ i j, i < n → j < n → i ≠ j → QDisj (addr i) (addr j))
    (hbody : ∀ i m, i < n → (∀ a, (∀ k, k < i → ¬ InQ (addr k) a) → m a = m0 a) →
      wp (f i (st i)) m (fun s' m' => s' = st (i+1) ∧ m' = writeQ m (addr i) (new i)))
    {Q : σ → Mem F → Prop}
    (hend : ∀ m, (∀ i, i < n → readQ m (addr i) = some (new i)) →
      (∀ a, (∀ k, k < n → ¬ InQ (addr k) a) → m a = m0 a) → Q (st n) m) :
    wp (foldN n f (st 0)) m0 Q := by
  apply wp_region st (fun i a => InQ (addr i) a) (fun i m => readQ m (addr i) = some (new i))
  · intro i j a hi hj hij h1 h2
    have := hdisj i j hi hj hij
    unfold InQ QDisj at *; omega
  · intro i m m' _ h hp
    rw [← hp]; exact (readQ_congr h).symm
  · intro i m hi hF
    refine wp_mono (hbody i m hi hF) ?_
    rintro s' m' ⟨hs, rfl⟩
    exact ⟨hs, readQ_writeQ_same _ _ _, fun a ha => writeQ_other ha⟩
  · exact hend

/-- The program never changes memory and returns `a`. -/
theorem wp_det {p : Prog F α} {m : Mem F} {Q : α → Mem F → Prop} (h : wp p m Q) :
    ∃ r, p m = .ok r ∧ Q r.1 r.2 := by
  obtain ⟨a, m', h1, h2⟩ := h
  exact ⟨(a, m'), h1, h2⟩

/-! ## Strided addresses -/

/-- Distinct elements of a strided vector with non-zero increment do not overlap. -/
theorem strided_disj {x inc : Int} (hinc : inc ≠ 0) {i j : Nat} (hij : i ≠ j) :
    QDisj (x + 4 * (i * inc)) (x + 4 * (j * inc)) := by
  unfold QDisj
  rcases lt_or_gt_of_ne hinc with h | h <;> rcases Nat.lt_or_gt_of_ne hij with h' | h'
  all_goals
    have h'' : ((i:Int) < j) ∨ ((j:Int) < i) := by omega
    rcases h'' with h'' | h'' <;> first | omega | skip
  · right; nlinarith
  · left; nlinarith
  · left; nlinarith
  · right; nlinarith

/-- Distinct entries of a column-major matrix block with at most `ld` rows do not overlap. -/
theorem mat_disj {x ld : Int} {r : Nat} (hld : (r:Int) ≤ ld) {i j i' j' : Nat}
    (hi : i < r) (hi' : i' < r) (h : ¬ (i = i' ∧ j = j')) :
    QDisj (x + 4 * (i + j * ld)) (x + 4 * (i' + j' * ld)) := by
  unfold QDisj
  have hr : (0:Int) ≤ ld := by omega
  by_cases hj : j = j'
  · subst hj
    have : i ≠ i' := fun e => h ⟨e, rfl⟩
    have : ((i:Int) < i') ∨ ((i':Int) < i) := by omega
    rcases this with h1 | h1
    · left; linarith
    · right; linarith
  · have : ((j:Int) + 1 ≤ j') ∨ ((j':Int) + 1 ≤ j) := by omega
    have hi2 : (i:Int) + 1 ≤ ld := by omega
    have hi2' : (i':Int) + 1 ≤ ld := by omega
    rcases this with h1 | h1
    · left
      have : ((j:Int) + 1) * ld ≤ j' * ld := mul_le_mul_of_nonneg_right h1 hr
      nlinarith
    · right
      have : ((j':Int) + 1) * ld ≤ j * ld := mul_le_mul_of_nonneg_right h1 hr
      nlinarith

end Haxx
