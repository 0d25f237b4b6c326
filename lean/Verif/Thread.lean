import Verif.Mem
import Mathlib.Logic.Function.Basic
import Mathlib.Logic.Relation
import Mathlib.Algebra.BigOperators.Fin
import Mathlib.Algebra.Order.BigOperators.Group.Finset
import Mathlib.Data.Fintype.Basic

/-!
# Threads: programs as trees of single memory accesses, and their interleavings

`Haxx.Prog` runs a routine in one go.  Here a routine is a *tree* whose nodes are single-cell reads and
writes (and the mapping / unmapping of a block of cells by `aligned_alloc` / `free`), so that the accesses of
several threads can be interleaved in every possible way.  `Thr.run` gives back the sequential meaning; the
module `ThrModel` writes every routine once more as such a tree and proves that its sequential meaning is the
one of the main model.

Simplifications: memory is sequentially consistent (for race-free programs this is what the C++ memory model
guarantees), and a vector load or store is four independent single-cell accesses (finer than any hardware).
-/

namespace Haxx.Thr

/-- A program whose memory accesses are visible one by one. -/
inductive Prog (F α : Type) : Type where
  /-- finished -/
  | ret (a : α)
  /-- undefined behaviour -/
  | fail (e : Fault)
  /-- read cell `a`, go on with what was read -/
  | rd (a : Int) (k : F → Prog F α)
  /-- write cell `a` -/
  | wr (a : Int) (v : F) (k : Prog F α)
  /-- the allocator maps (`some`) or unmaps (`none`) the cells `p, …, p+n-1` -/
  | map (p n : Int) (g : Int → Option F) (k : Prog F α)

variable {F α β σ : Type}

/-- Sequential composition. -/
def Prog.bind : Prog F α → (α → Prog F β) → Prog F β
  | .ret a, f => f a
  | .fail e, _ => .fail e
  | .rd a k, f => .rd a (fun v => (k v).bind f)
  | .wr a v k, f => .wr a v (k.bind f)
  | .map p n g k, f => .map p n g (k.bind f)

instance : Monad (Prog F) where
  pure := .ret
  bind := Prog.bind

/-- The memory after mapping or unmapping a block. -/
def remap (m : Mem F) (p n : Int) (g : Int → Option F) : Mem F :=
  fun a => if p ≤ a ∧ a < p + n then g a else m a

/-- The memory after writing one cell. -/
def upd (m : Mem F) (a : Int) (v : F) : Mem F := fun b => if b = a then some v else m b

/-- One memory access: `none` when the program has finished; reading or writing a cell that is not part of a
live object is a fault. -/
def Prog.next : Prog F α → Mem F → Option (Except Fault (Prog F α × Mem F))
  | .ret _, _ => none
  | .fail e, _ => some (.error e)
  | .rd a k, m => match m a with
    | some v => some (.ok (k v, m))
    | none => some (.error (.oob a))
  | .wr a v k, m => match m a with
    | some _ => some (.ok (k, upd m a v))
    | none => some (.error (.oob a))
  | .map p n g k, m => some (.ok (k, remap m p n g))

/-- The sequential meaning: all accesses, one after the other. -/
def Prog.run : Prog F α → Haxx.Prog F α
  | .ret a, m => .ok (a, m)
  | .fail e, _ => .error e
  | .rd a k, m => match m a with
    | some v => (k v).run m
    | none => .error (.oob a)
  | .wr a v k, m => match m a with
    | some _ => k.run (upd m a v)
    | none => .error (.oob a)
  | .map p n g k, m => k.run (remap m p n g)

/-- The cells the program accesses when it runs alone from `m`. -/
def Prog.accs : Prog F α → Mem F → Int → Prop
  | .ret _, _, _ => False
  | .fail _, _, _ => False
  | .rd a k, m, c => c = a ∨ (match m a with
    | some v => (k v).accs m c
    | none => False)
  | .wr a v k, m, c => c = a ∨ k.accs (upd m a v) c
  | .map p n g k, m, c => (p ≤ c ∧ c < p + n) ∨ k.accs (remap m p n g) c

/-- The cells the program writes (or maps, unmaps) when it runs alone from `m`. -/
def Prog.wrs : Prog F α → Mem F → Int → Prop
  | .ret _, _, _ => False
  | .fail _, _, _ => False
  | .rd a k, m, c => match m a with
    | some v => (k v).wrs m c
    | none => False
  | .wr a v k, m, c => c = a ∨ k.wrs (upd m a v) c
  | .map p n g k, m, c => (p ≤ c ∧ c < p + n) ∨ k.wrs (remap m p n g) c

/-- The number of accesses when it runs alone from `m`. -/
def Prog.len : Prog F α → Mem F → Nat
  | .ret _, _ => 0
  | .fail _, _ => 0
  | .rd a k, m => match m a with
    | some v => (k v).len m + 1
    | none => 0
  | .wr a v k, m => k.len (upd m a v) + 1
  | .map p n g k, m => k.len (remap m p n g) + 1

/-! ## Pools of threads -/

section pool

variable {ι : Type} [DecidableEq ι] {α : ι → Type}

/-- The state of a pool: what each thread still has to do, and the shared memory. -/
abbrev Pool (F : Type) {ι : Type} (α : ι → Type) := ((i : ι) → Prog F (α i)) × Mem F

/-- One step of the pool: the scheduler picks any thread, which performs one memory access. -/
def Step (c c' : Pool F α) : Prop :=
  ∃ i T m', (c.1 i).next c.2 = some (.ok (T, m')) ∧ c' = (Function.update c.1 i T, m')

/-- Any number of steps, under any schedule. -/
abbrev Steps : Pool F α → Pool F α → Prop := Relation.ReflTransGen Step

/-- Some thread is about to fault. -/
def Crash (c : Pool F α) : Prop := ∃ i e, (c.1 i).next c.2 = some (.error e)

/-- All threads have finished, thread `i` with the value `r i`. -/
def Done (c : Pool F α) (r : (i : ι) → α i) : Prop := ∀ i, c.1 i = .ret (r i)

/-- No thread writes a cell that another one accesses (when each runs alone from `m`). -/
def RaceFree (t : (i : ι) → Prog F (α i)) (m : Mem F) : Prop :=
  ∀ i j, i ≠ j → ∀ a, (t i).wrs m a → ¬ (t j).accs m a

end pool

/-! ## Every schedule of race-free threads does what each thread does alone -/

theorem wrs_accs {t : Prog F α} {m : Mem F} {a : Int} (h : t.wrs m a) : t.accs m a := by
  induction t generalizing m with
  | ret _ => exact h
  | fail _ => exact h
  | rd b k ih =>
    unfold Prog.wrs at h; unfold Prog.accs
    cases e : m b with
    | none => rw [e] at h; exact h.elim
    | some v => rw [e] at h; exact Or.inr (ih v h)
  | wr b v k ih =>
    unfold Prog.wrs at h; unfold Prog.accs
    exact h.imp id ih
  | map p n g k ih =>
    unfold Prog.wrs at h; unfold Prog.accs
    exact h.imp id ih

/-- Alone, a program changes only the cells it writes. -/
theorem run_frame {t : Prog F α} {m m' : Mem F} {r : α} (h : t.run m = .ok (r, m')) {a : Int}
    (ha : ¬ t.wrs m a) : m' a = m a := by
  induction t generalizing m with
  | ret _ => unfold Prog.run at h; cases h; rfl
  | fail _ => unfold Prog.run at h; cases h
  | rd b k ih =>
    unfold Prog.run at h; unfold Prog.wrs at ha
    cases e : m b with
    | none => rw [e] at h; cases h
    | some v => rw [e] at h ha; exact ih v h ha
  | wr b v k ih =>
    unfold Prog.run at h; unfold Prog.wrs at ha
    cases e : m b with
    | none => rw [e] at h; cases h
    | some w =>
      rw [e] at h
      push Not at ha
      rw [ih h ha.2]; unfold upd; rw [if_neg ha.1]
  | map p n g k ih =>
    unfold Prog.run at h; unfold Prog.wrs at ha
    push Not at ha
    rw [ih h ha.2]; unfold remap; rw [if_neg (fun hh => absurd hh.2 (not_lt.mpr (ha.1 hh.1)))]

/-- What is known of one thread in the middle of an interleaving: there is a memory `μ` from which it would
finish alone as it would have from the beginning, and which the shared memory agrees with on all cells the
thread ever accesses. -/
structure Mid (t0 : Prog F α) (m0 : Mem F) (r : α) (mf : Mem F) (t : Prog F α) (m : Mem F) (μ : Mem F) : Prop where
  run : t.run μ = .ok (r, mf)
  accs : ∀ a, t.accs μ a → t0.accs m0 a
  wrs : ∀ a, t.wrs μ a → t0.wrs m0 a
  agree : ∀ a, t0.accs m0 a → m a = μ a

theorem Mid.step {t0 : Prog F α} {m0 : Mem F} {r : α} {mf : Mem F} {t : Prog F α} {m μ : Mem F}
    (h : Mid t0 m0 r mf t m μ) :
    (t = .ret r ∧ μ = mf) ∨
    ∃ t' m' μ', t.next m = some (.ok (t', m')) ∧ Mid t0 m0 r mf t' m' μ' ∧
      (∀ a, ¬ t0.wrs m0 a → m' a = m a) ∧ t.len μ = t'.len μ' + 1 := by
  obtain ⟨h1, h2, h3, h4⟩ := h
  cases t with
  | ret a =>
    left; unfold Prog.run at h1; cases h1; exact ⟨rfl, rfl⟩
  | fail e => unfold Prog.run at h1; cases h1
  | rd b k =>
    right
    have hb : m b = μ b := h4 b (h2 b (by unfold Prog.accs; exact Or.inl rfl))
    simp only [Prog.run] at h1; simp only [Prog.accs] at h2; simp only [Prog.wrs] at h3
    cases e : μ b with
    | none => rw [e] at h1; cases h1
    | some v =>
      rw [e] at h1 h2 h3
      refine ⟨k v, m, μ, by simp only [Prog.next, hb, e], ⟨h1, fun a ha => h2 a (Or.inr ha), h3, h4⟩, fun _ _ => rfl, ?_⟩
      simp only [Prog.len, e]
  | wr b v k =>
    right
    have hb : m b = μ b := h4 b (h2 b (by unfold Prog.accs; exact Or.inl rfl))
    have hw : t0.wrs m0 b := h3 b (by unfold Prog.wrs; exact Or.inl rfl)
    simp only [Prog.run] at h1; simp only [Prog.accs] at h2; simp only [Prog.wrs] at h3
    cases e : μ b with
    | none => rw [e] at h1; cases h1
    | some w =>
      rw [e] at h1
      refine ⟨k, upd m b v, upd μ b v, by simp only [Prog.next, hb, e],
        ⟨h1, fun a ha => h2 a (Or.inr ha), fun a ha => h3 a (Or.inr ha), ?_⟩, ?_, rfl⟩
      · intro a ha; unfold upd; split
        · rfl
        · exact h4 a ha
      · intro a ha; unfold upd; rw [if_neg]; intro hc; exact ha (hc ▸ hw)
  | map p n g k =>
    right
    have hw : ∀ a, (p ≤ a ∧ a < p + n) → t0.wrs m0 a := fun a ha => h3 a (by unfold Prog.wrs; exact Or.inl ha)
    simp only [Prog.run] at h1; simp only [Prog.accs] at h2; simp only [Prog.wrs] at h3
    refine ⟨k, remap m p n g, remap μ p n g, rfl,
      ⟨h1, fun a ha => h2 a (Or.inr ha), fun a ha => h3 a (Or.inr ha), ?_⟩, ?_, rfl⟩
    · intro a ha; unfold remap; split
      · rfl
      · exact h4 a ha
    · intro a ha; unfold remap; rw [if_neg]; intro hc; exact ha (hw a hc)

section pool

variable {ι : Type} [DecidableEq ι] {α : ι → Type}

/-- The invariant of every reachable pool state. -/
def Inv (t0 : (i : ι) → Prog F (α i)) (m0 : Mem F) (r : (i : ι) → α i) (mf : ι → Mem F) (c : Pool F α) (μ : ι → Mem F) : Prop :=
  (∀ i, Mid (t0 i) m0 (r i) (mf i) (c.1 i) c.2 (μ i)) ∧ ∀ a, (∀ i, ¬ (t0 i).wrs m0 a) → c.2 a = m0 a

theorem Inv.step {t0 : (i : ι) → Prog F (α i)} {m0 : Mem F} {r : (i : ι) → α i} {mf : ι → Mem F}
    (hr : RaceFree t0 m0) {c c' : Pool F α} {μ : ι → Mem F} (h : Inv t0 m0 r mf c μ) (hs : Step c c') :
    ∃ μ', Inv t0 m0 r mf c' μ' ∧ ∃ i, (c.1 i).len (μ i) = (c'.1 i).len (μ' i) + 1 ∧
      ∀ j, j ≠ i → (c'.1 j).len (μ' j) = (c.1 j).len (μ j) := by
  obtain ⟨i, T, m', hn, rfl⟩ := hs
  rcases (h.1 i).step with ⟨e, _⟩ | ⟨t', m1, μ1, e1, e2, e3, e4⟩
  · rw [e] at hn; simp [Prog.next] at hn
  · rw [e1] at hn
    simp only [Option.some.injEq, Except.ok.injEq, Prod.mk.injEq] at hn
    obtain ⟨rfl, rfl⟩ := hn
    refine ⟨Function.update μ i μ1, ⟨?_, ?_⟩, i, ?_, ?_⟩
    · intro j
      by_cases hj : j = i
      · subst hj; simpa using e2
      · simp only [Function.update_of_ne hj]
        refine ⟨(h.1 j).run, (h.1 j).accs, (h.1 j).wrs, ?_⟩
        intro a ha
        rw [← (h.1 j).agree a ha]
        exact e3 a (fun hw => hr i j (Ne.symm hj) a hw ha)
    · intro a ha
      exact (e3 a (ha i)).trans (h.2 a ha)
    · simpa using e4
    · intro j hj; simp only [Function.update_of_ne hj]

omit [DecidableEq ι] in
theorem inv_start {t0 : (i : ι) → Prog F (α i)} {m0 : Mem F} {r : (i : ι) → α i} {mf : ι → Mem F}
    (h : ∀ i, (t0 i).run m0 = .ok (r i, mf i)) : Inv t0 m0 r mf (t0, m0) (fun _ => m0) :=
  ⟨fun i => ⟨h i, fun _ => id, fun _ => id, fun _ _ => rfl⟩, fun _ _ => rfl⟩

theorem inv_steps {t0 : (i : ι) → Prog F (α i)} {m0 : Mem F} {r : (i : ι) → α i} {mf : ι → Mem F}
    (h : ∀ i, (t0 i).run m0 = .ok (r i, mf i)) (hr : RaceFree t0 m0) {c : Pool F α} (hs : Steps (t0, m0) c) :
    ∃ μ, Inv t0 m0 r mf c μ := by
  induction hs with
  | refl => exact ⟨_, inv_start h⟩
  | tail _ hc ih =>
    obtain ⟨μ, ih⟩ := ih
    obtain ⟨μ', h', _⟩ := ih.step hr hc
    exact ⟨μ', h'⟩

/-- No schedule makes a race-free pool fault. -/
theorem pool_safe {t0 : (i : ι) → Prog F (α i)} {m0 : Mem F} {r : (i : ι) → α i} {mf : ι → Mem F}
    (h : ∀ i, (t0 i).run m0 = .ok (r i, mf i)) (hr : RaceFree t0 m0) {c : Pool F α} (hs : Steps (t0, m0) c) : ¬ Crash c := by
  obtain ⟨μ, hi⟩ := inv_steps h hr hs
  rintro ⟨i, e, he⟩
  rcases (hi.1 i).step with ⟨e', _⟩ | ⟨t', m1, μ1, e1, _⟩
  · rw [e'] at he; simp [Prog.next] at he
  · rw [e1] at he; simp at he

/-- Whatever the schedule, the threads end with the values and the memory of their runs alone. -/
theorem pool_result {t0 : (i : ι) → Prog F (α i)} {m0 : Mem F} {r : (i : ι) → α i} {mf : ι → Mem F}
    (h : ∀ i, (t0 i).run m0 = .ok (r i, mf i)) (hr : RaceFree t0 m0) {c : Pool F α} (hs : Steps (t0, m0) c)
    {x : (i : ι) → α i} (hd : Done c x) :
    x = r ∧ (∀ i a, (t0 i).wrs m0 a → c.2 a = mf i a) ∧ ∀ a, (∀ i, ¬ (t0 i).wrs m0 a) → c.2 a = m0 a := by
  obtain ⟨μ, hi⟩ := inv_steps h hr hs
  have key : ∀ i, x i = r i ∧ μ i = mf i := by
    intro i
    have := (hi.1 i).run
    rw [hd i, Prog.run] at this
    simpa only [Except.ok.injEq, Prod.mk.injEq] using this
  refine ⟨funext fun i => (key i).1, ?_, hi.2⟩
  intro i a ha
  rw [(hi.1 i).agree a (wrs_accs ha), (key i).2]

/-- As long as a thread has not finished, the pool can make a step: there is no deadlock. -/
theorem pool_progress {t0 : (i : ι) → Prog F (α i)} {m0 : Mem F} {r : (i : ι) → α i} {mf : ι → Mem F}
    (h : ∀ i, (t0 i).run m0 = .ok (r i, mf i)) (hr : RaceFree t0 m0) {c : Pool F α} (hs : Steps (t0, m0) c) :
    Done c r ∨ ∃ c', Step c c' := by
  obtain ⟨μ, hi⟩ := inv_steps h hr hs
  by_cases hd : ∃ i t' m', (c.1 i).next c.2 = some (.ok (t', m'))
  · obtain ⟨i, t', m', e⟩ := hd
    exact Or.inr ⟨_, i, t', m', e, rfl⟩
  · left
    intro i
    rcases (hi.1 i).step with ⟨e, _⟩ | ⟨t', m1, μ1, e1, _⟩
    · exact e
    · exact absurd ⟨i, _, _, e1⟩ hd

/-- Every schedule is finite: it has at most as many steps as the runs alone have together. -/
theorem pool_terminates [Fintype ι] {t0 : (i : ι) → Prog F (α i)} {m0 : Mem F} {r : (i : ι) → α i} {mf : ι → Mem F}
    (h : ∀ i, (t0 i).run m0 = .ok (r i, mf i)) (hr : RaceFree t0 m0) (n : Nat) (c : Nat → Pool F α)
    (h0 : c 0 = (t0, m0)) (hc : ∀ k, k < n → Step (c k) (c (k+1))) : n ≤ ∑ i, (t0 i).len m0 := by
  have key : ∀ k, k ≤ n → ∃ μ, Inv t0 m0 r mf (c k) μ ∧ (∑ i, ((c k).1 i).len (μ i)) + k = ∑ i, (t0 i).len m0 := by
    intro k
    induction k with
    | zero => intro _; exact ⟨fun _ => m0, by rw [h0]; exact inv_start h, by rw [h0]; rfl⟩
    | succ k ih =>
      intro hk
      obtain ⟨μ, h1, h2⟩ := ih (by omega)
      obtain ⟨μ', h3, i, h4, h5⟩ := h1.step hr (hc k (by omega))
      refine ⟨μ', h3, ?_⟩
      rw [← h2, ← Finset.sum_erase_add _ _ (Finset.mem_univ i),
        ← Finset.sum_erase_add (a := i) _ (fun i => ((c k).1 i).len (μ i)) (Finset.mem_univ i), h4,
        Finset.sum_congr rfl (fun j hj => h5 j (Finset.ne_of_mem_erase hj))]
      omega
  obtain ⟨μ, _, h2⟩ := key n le_rfl
  omega

/-- Running one thread to completion is a sequence of steps of the pool. -/
theorem steps_run {c : Pool F α} {i : ι} {r : α i} {m' : Mem F} (h : (c.1 i).run c.2 = .ok (r, m')) :
    Steps c (Function.update c.1 i (.ret r), m') := by
  obtain ⟨P, m⟩ := c
  dsimp only at h ⊢
  generalize ht : P i = t at h
  induction t generalizing P m with
  | ret a =>
    unfold Prog.run at h; cases h
    rw [← ht, Function.update_eq_self]
  | fail e => unfold Prog.run at h; cases h
  | rd b k ih =>
    unfold Prog.run at h
    cases e : m b with
    | none => rw [e] at h; cases h
    | some v =>
      rw [e] at h
      have := ih v (Function.update P i (k v)) m (by simp) h
      rw [Function.update_idem] at this
      refine Relation.ReflTransGen.head ⟨i, k v, m, ?_, rfl⟩ this
      dsimp only; rw [ht, Prog.next, e]
  | wr b v k ih =>
    unfold Prog.run at h
    cases e : m b with
    | none => rw [e] at h; cases h
    | some w =>
      rw [e] at h
      have := ih (Function.update P i k) (upd m b v) (by simp) h
      rw [Function.update_idem] at this
      refine Relation.ReflTransGen.head ⟨i, k, upd m b v, ?_, rfl⟩ this
      dsimp only; rw [ht, Prog.next, e]
  | map p n g k ih =>
    unfold Prog.run at h
    have := ih (Function.update P i k) (remap m p n g) (by simp) h
    rw [Function.update_idem] at this
    refine Relation.ReflTransGen.head ⟨i, k, remap m p n g, ?_, rfl⟩ this
    dsimp only; rw [ht]; rfl

/-- A run alone depends only on the cells it accesses. -/
theorem run_agree {β : Type} {t : Prog F β} {m μ : Mem F} {r : β} {μ' : Mem F} (h : t.run μ = .ok (r, μ'))
    (ha : ∀ a, t.accs μ a → m a = μ a) : ∃ m', t.run m = .ok (r, m') := by
  induction t generalizing m μ with
  | ret a =>
    have h' : (Except.ok (a, μ) : Except Fault _) = .ok (r, μ') := h
    cases h'; exact ⟨m, rfl⟩
  | fail e =>
    have h' : (Except.error e : Except Fault _) = .ok (r, μ') := h
    cases h'
  | rd b k ih =>
    have hb := ha b (by simp only [Prog.accs, true_or])
    cases e : μ b with
    | none => simp only [Prog.run, e] at h; cases h
    | some v =>
      simp only [Prog.run, e] at h
      simp only [Prog.accs, e] at ha
      obtain ⟨m', h'⟩ := ih v h (fun a hh => ha a (Or.inr hh))
      exact ⟨m', by simp only [Prog.run, hb, e]; exact h'⟩
  | wr b v k ih =>
    have hb := ha b (by simp only [Prog.accs, true_or])
    cases e : μ b with
    | none => simp only [Prog.run, e] at h; cases h
    | some w =>
      simp only [Prog.run, e] at h
      simp only [Prog.accs] at ha
      obtain ⟨m', h'⟩ := ih (m := upd m b v) h (fun a hh => by
        unfold upd; split
        · rfl
        · exact ha a (Or.inr hh))
      exact ⟨m', by simp only [Prog.run, hb, e]; exact h'⟩
  | map p n g k ih =>
    simp only [Prog.accs] at ha
    obtain ⟨m', h'⟩ := ih (m := remap m p n g) h (fun a hh => by
      unfold remap; split
      · rfl
      · exact ha a (Or.inr hh))
    exact ⟨m', h'⟩

/-- The programs `p i`, `i` running through the list, one after the other: `p i` returns `r i`, and the memory
goes from the first to the second. -/
inductive Serial (p : (i : ι) → Haxx.Prog F (α i)) (r : (i : ι) → α i) : List ι → Mem F → Mem F → Prop
  | nil (m : Mem F) : Serial p r [] m m
  | cons {i : ι} {l : List ι} {m m1 m' : Mem F} (h : p i m = .ok (r i, m1)) (hl : Serial p r l m1 m') :
      Serial p r (i :: l) m m'

/-- Running the threads one after the other is one of the schedules. -/
theorem pool_serial {t0 : (i : ι) → Prog F (α i)} {m0 : Mem F} {r : (i : ι) → α i} {mf : ι → Mem F}
    (h : ∀ i, (t0 i).run m0 = .ok (r i, mf i)) (hr : RaceFree t0 m0) (l : List ι) (hn : l.Nodup) (hall : ∀ i, i ∈ l) :
    ∃ m', Serial (fun i => (t0 i).run) r l m0 m' ∧ Steps (t0, m0) ((fun i => .ret (r i)), m') := by
  have key : ∀ (l : List ι) (P : (i : ι) → Prog F (α i)) (m : Mem F), l.Nodup → (∀ i, i ∈ l → P i = t0 i) →
      (∀ i, i ∉ l → P i = .ret (r i)) → Steps (t0, m0) (P, m) →
      ∃ m', Serial (fun i => (t0 i).run) r l m m' ∧ Steps (P, m) ((fun i => .ret (r i)), m') := by
    intro l
    induction l with
    | nil =>
      intro P m _ _ h2 _
      refine ⟨m, .nil m, ?_⟩
      have : P = fun i => .ret (r i) := funext fun i => h2 i (by simp)
      rw [this]
    | cons i l ih =>
      intro P m hnd h1 h2 hs
      obtain ⟨μ, hi⟩ := inv_steps h hr hs
      have hmid := hi.1 i
      dsimp only at hmid
      rw [h1 i (by simp)] at hmid
      obtain ⟨m1, hm1⟩ := run_agree hmid.run (fun a ha => hmid.agree a (hmid.accs a ha))
      have hst : Steps (P, m) (Function.update P i (.ret (r i)), m1) :=
        steps_run (c := (P, m)) (by dsimp only; rw [h1 i (by simp)]; exact hm1)
      obtain ⟨m', hser, hst'⟩ := ih (Function.update P i (.ret (r i))) m1 (List.nodup_cons.1 hnd).2
        (by
          intro j hj
          have hji : j ≠ i := fun e => (List.nodup_cons.1 hnd).1 (e ▸ hj)
          rw [Function.update_of_ne hji]; exact h1 j (by simp [hj]))
        (by
          intro j hj
          by_cases hji : j = i
          · subst hji; simp
          · rw [Function.update_of_ne hji]; exact h2 j (by simp [hj, hji]))
        (hs.trans hst)
      exact ⟨m', .cons hm1 hser, hst.trans hst'⟩
  exact key l t0 m0 hn (fun _ _ => rfl) (fun i hi => absurd (hall i) hi) .refl

/-- Summary: every schedule of a race-free pool, and every order of the calls one after the other, ends with the
same memory `mf` and values `r`. -/
theorem race_free [Fintype ι] {t0 : (i : ι) → Prog F (α i)} {m0 : Mem F} {r : (i : ι) → α i} {ms : ι → Mem F}
    (h : ∀ i, (t0 i).run m0 = .ok (r i, ms i)) (hr : RaceFree t0 m0) :
    ∃ mf : Mem F,
      (∀ i a, (t0 i).wrs m0 a → mf a = ms i a) ∧ (∀ a, (∀ i, ¬ (t0 i).wrs m0 a) → mf a = m0 a) ∧
      (∀ l : List ι, l.Nodup → (∀ i, i ∈ l) → Serial (fun i => (t0 i).run) r l m0 mf) ∧
      (∀ s, Steps (t0, m0) s → ¬ Crash s ∧ (Done s r ∨ ∃ s', Step s s') ∧ ∀ x, Done s x → x = r ∧ s.2 = mf) ∧
      (∃ B : Nat, ∀ (n : Nat) (s : Nat → Pool F α), s 0 = (t0, m0) → (∀ k, k < n → Step (s k) (s (k+1))) → n ≤ B) := by
  obtain ⟨mf, _, hst⟩ := pool_serial h hr (Finset.univ : Finset ι).toList (Finset.nodup_toList _) (by simp)
  obtain ⟨_, h1, h2⟩ := pool_result h hr hst (x := r) (fun _ => rfl)
  have uniq : ∀ s, Steps (t0, m0) s → ∀ x, Done s x → x = r ∧ s.2 = mf := by
    intro s hs x hd
    obtain ⟨e, e1, e2⟩ := pool_result h hr hs hd
    refine ⟨e, funext fun a => ?_⟩
    by_cases ha : ∃ i, (t0 i).wrs m0 a
    · obtain ⟨i, hi⟩ := ha
      rw [e1 i a hi]; exact (h1 i a hi).symm
    · push Not at ha
      rw [e2 a ha]; exact (h2 a ha).symm
  refine ⟨mf, h1, h2, ?_, ?_, _, fun n s h0 hc => pool_terminates h hr n s h0 hc⟩
  · intro l hl hall
    obtain ⟨m', hser, hst'⟩ := pool_serial h hr l hl hall
    have := (uniq _ hst' r (fun _ => rfl)).2
    dsimp only at this
    rw [← this]; exact hser
  · intro s hs
    exact ⟨pool_safe h hr hs, pool_progress h hr hs, uniq s hs⟩

end pool

end Haxx.Thr
