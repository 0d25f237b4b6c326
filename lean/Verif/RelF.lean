import Verif.Rel
import Verif.FGemmLemmas

/-!
# Two runs of one program: column-by-column updates of a matrix, Fortran addressing
-/

namespace Haxx

section
variable {F : Type}

/-- Cells known to agree when the first `c` columns of C, and the first `r` elements of the next one, are done;
outside of `S` everything agrees. -/
def doneM (S : Int → Prop) (C LDC : Int) (M c r : Nat) (a : Int) : Prop :=
  ¬ S a ∨ (∃ i j : Nat, i < M ∧ j < c ∧ InQ (C + 4 * (i + j * LDC)) a) ∨
    ∃ i : Nat, i < r ∧ InQ (C + 4 * (i + c * LDC)) a

variable {S : Int → Prop} {C LDC : Int} {M N c r : Nat}

theorem doneM_next (a : Int) (h : doneM S C LDC M (c+1) 0 a) : doneM S C LDC M c M a := by
  rcases h with h | ⟨i, j, hi, hj, h⟩ | ⟨i, hi, _⟩
  · exact .inl h
  · by_cases e : j = c
    · subst e; exact .inr (.inr ⟨i, hi, h⟩)
    · exact .inr (.inl ⟨i, j, hi, by omega, h⟩)
  · omega

theorem doneM_succ (a : Int) (h : doneM S C LDC M c (r+1) a) : doneM S C LDC M c r a ∨ InQ (C + 4 * (r + c * LDC)) a := by
  rcases h with h | h | ⟨i, hi, h⟩
  · exact .inl (.inl h)
  · exact .inl (.inr (.inl h))
  · by_cases e : i = r
    · subst e; exact .inr h
    · exact .inl (.inr (.inr ⟨i, by omega, h⟩))

theorem doneM_start (a : Int) (h : doneM S C LDC M 0 0 a) : ¬ S a := by
  rcases h with h | ⟨_, _, _, h, _⟩ | ⟨_, h, _⟩
  · exact h
  · omega
  · omega

theorem doneM_fin (a : Int) : doneM (MatCell C LDC M N) C LDC M N 0 a := by
  by_cases ha : MatCell C LDC M N a
  · obtain ⟨i, j, hi, hj, h⟩ := ha
    exact .inr (.inl ⟨i, j, hi, hj, h⟩)
  · exact .inl ha

theorem Sim.rdC_lo {D : Int → Prop} {p : Int} (h : ∀ a, InQ p a → D a) : Sim (F := F) D (Haxx.rdC p) (fun _ => True) D :=
  Sim.rdC (h _ ⟨by omega, by omega⟩) (h _ ⟨by omega, by omega⟩)

theorem Sim.rdC_hi {D : Int → Prop} {p : Int} (h : ∀ a, InQ p a → D a) :
    Sim (F := F) D (Haxx.rdC (p + 2)) (fun _ => True) D :=
  Sim.rdC (h _ ⟨by omega, by omega⟩) (h _ ⟨by omega, by omega⟩)

theorem Sim.wrC_keep {D : Int → Prop} {p : Int} {z : Cplx F} : Sim D (Haxx.wrC p z) (fun _ => True) D :=
  Sim.wrC.mono (fun _ h => h) (fun _ h => .inl h) (fun _ h => h)

/-- Both halves of an element written. -/
theorem Sim.wrQ {D : Int → Prop} {p : Int} {z w : Cplx F} :
    Sim D (Haxx.wrC p z >>= fun _ => Haxx.wrC (p + 2) w >>= fun _ => Pure.pure ()) (fun _ => True)
      (fun b => D b ∨ InQ p b) := by
  refine Sim.wrC.bind fun _ _ => Sim.wrC.bind fun _ _ => (Sim.pure trivial).mono (fun _ h => h) ?_ (fun _ h => h)
  unfold InQ
  rintro b (h | h)
  · exact .inl (.inl h)
  · by_cases h1 : b = p ∨ b = p + 1
    · exact .inl (.inr h1)
    · exact .inr (by omega)

@[inherit_doc Sim.wrQ]
theorem Sim.wrQP {α : Type} {D : Int → Prop} {p : Int} {z w : Cplx F} {v : α} {P : α → Prop} (hP : P v) :
    Sim D (Haxx.wrC p z >>= fun _ => Haxx.wrC (p + 2) w >>= fun _ => Pure.pure v) P
      (fun b => D b ∨ InQ p b) := by
  refine Sim.wrC.bind fun _ _ => Sim.wrC.bind fun _ _ => (Sim.pure hP).mono (fun _ h => h) ?_ (fun _ h => h)
  unfold InQ
  rintro b (h | h)
  · exact .inl (.inl h)
  · by_cases h1 : b = p ∨ b = p + 1
    · exact .inl (.inr h1)
    · exact .inr (by omega)

/-- A column whose elements are stored without reading them. -/
theorem sim_colF {el : Nat → Prog F Unit}
    (h : ∀ i, i < M → ∀ D : Int → Prop, (∀ a, ¬ S a → D a) →
      Sim D (el i) (fun _ => True) (fun b => D b ∨ InQ (C + 4 * ((i:Int) + c * LDC)) b)) :
    Sim (doneM S C LDC M c 0) (forN M el) (fun _ => True) (doneM S C LDC M c M) := by
  refine Sim.forN (fun i => doneM S C LDC M c i) (fun i hi => ?_)
  exact (h i hi _ (fun a ha => .inl ha)).mono (fun _ h => h) doneM_succ (fun _ h => h)

/-- All columns. -/
theorem sim_colsF {col : Nat → Prog F Unit}
    (h : ∀ j, j < N → Sim (doneM S C LDC M j 0) (col j) (fun _ => True) (doneM S C LDC M j M)) :
    Sim (doneM S C LDC M 0 0) (forN N col) (fun _ => True) (doneM S C LDC M N 0) :=
  Sim.forN (fun j => doneM S C LDC M j 0) (fun j hj => (h j hj).mono (fun _ h => h) doneM_next (fun _ h => h))

/-- If everything agrees, so do the outcomes. -/
theorem Sim.all {α : Type} {p : Prog F α} : Sim (fun _ => True) p (fun _ => True) (fun _ => True) := by
  intro m n h
  have e : m = n := funext fun a => h.eq a trivial
  subst e
  cases p m
  · rfl
  · exact ⟨rfl, trivial, fun _ => rfl, fun _ _ => rfl⟩

/-- Storing the elements of a vector with increment 1 … -/
theorem sim_vec1 {f : Nat → Prog F Unit} {Y : Int} {n : Nat} {D : Int → Prop}
    (h : ∀ i D, Sim D (f i) (fun _ => True) (fun b => D b ∨ InQ (Y + 4 * ((i:Int) + 1 - 1)) b)) :
    Sim D (forN n f) (fun _ => True) (fun b => D b ∨ VecCell Y 1 n b) := by
  refine (Sim.forN (fun i b => D b ∨ VecCell Y 1 i b) fun i _ => (h i _).mono (fun _ h => h) ?_ (fun _ h => h)).mono
    ?_ (fun _ h => h) (fun _ h => h)
  · rintro b (hb | ⟨k, hk, hb⟩)
    · exact .inl (.inl hb)
    · by_cases e : k = i
      · subst e
        refine .inr ?_
        have e : Y + 4 * ((k:Int) + 1 - 1) = Y + 4 * (k * 1) := by ring
        rw [e]; exact hb
      · exact .inl (.inr ⟨k, by omega, hb⟩)
  · rintro b (hb | ⟨k, hk, _⟩)
    · exact hb
    · omega

/-- … and with any increment. -/
theorem sim_vecI {f : Nat → Int → Prog F Int} {Y INC KY : Int} {n : Nat} {D : Int → Prop}
    (h : ∀ i iy D, Sim D (f i iy) (fun r => r = iy + INC) (fun b => D b ∨ InQ (Y + 4 * (iy - 1)) b)) :
    Sim D (foldN n f KY) (fun _ => True) (fun b => D b ∨ VecCell (Y + 4 * (KY - 1)) INC n b) := by
  refine (Sim.foldN (fun i b => D b ∨ VecCell (Y + 4 * (KY - 1)) INC i b) (fun i r => r = KY + i * INC) (by simp)
    fun i s _ hs => (h i s _).mono (fun _ h => h) ?_ ?_).mono ?_ (fun _ h => h) (fun _ _ => trivial)
  · rintro b (hb | ⟨k, hk, hb⟩)
    · exact .inl (.inl hb)
    · by_cases e : k = i
      · subst e
        refine .inr ?_
        have e : Y + 4 * (s - 1) = Y + 4 * (KY - 1) + 4 * (k * INC) := by rw [hs]; ring
        rw [e]; exact hb
      · exact .inl (.inr ⟨k, by omega, hb⟩)
  · rintro r rfl
    rw [hs]; push_cast; ring
  · rintro b (hb | ⟨k, hk, _⟩)
    · exact hb
    · omega

end

/-- Straight-line code that reads only agreeing cells. -/
macro "sim_go" : tactic => `(tactic| repeat' (first
  | exact Sim.pure trivial
  | refine Sim.bind (Sim.rdC_lo (by assumption)) fun _ _ => ?_
  | refine Sim.bind (Sim.rdC_hi (by assumption)) fun _ _ => ?_
  | refine Sim.bind Sim.wrC_keep fun _ _ => ?_))

end Haxx
