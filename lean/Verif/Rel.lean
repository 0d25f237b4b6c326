import Verif.Mem
import Verif.Spec
import Verif.Fortran

/-!
# Two runs of one program

`Sim D p P E`: run `p` in two memories with the same accessible cells that agree on the cells `D`.
Either both runs fault, with the same fault, or both return the same value, the value satisfies `P`
and the final memories have the same accessible cells and agree on `E`.
-/

namespace Haxx

section
variable {F α β σ : Type}

/-- Same accessible cells, same contents on `D`. -/
structure Agr (D : Int → Prop) (m n : Mem F) : Prop where
  acc : ∀ a, (m a).isSome = (n a).isSome
  eq : ∀ a, D a → m a = n a

def Sim (D : Int → Prop) (p : Prog F α) (P : α → Prop) (E : Int → Prop) : Prop :=
  ∀ m n, Agr D m n → match p m, p n with
    | .ok (a, m'), .ok (b, n') => a = b ∧ P a ∧ Agr E m' n'
    | .error e, .error f => e = f
    | _, _ => False

theorem Agr.mono {D E : Int → Prop} {m n : Mem F} (h : Agr D m n) (hs : ∀ a, E a → D a) : Agr E m n :=
  ⟨h.acc, fun a ha => h.eq a (hs a ha)⟩

theorem Sim.mono {D D' E E' : Int → Prop} {p : Prog F α} {P P' : α → Prop} (h : Sim D p P E)
    (hD : ∀ a, D a → D' a) (hE : ∀ a, E' a → E a) (hP : ∀ a, P a → P' a) : Sim D' p P' E' := by
  intro m n ha
  have := h m n (ha.mono hD)
  revert this
  cases p m <;> cases p n
  · exact id
  · exact id
  · exact id
  · rintro ⟨h1, h2, h3⟩
    exact ⟨h1, hP _ h2, h3.mono hE⟩

theorem Sim.pure {D : Int → Prop} {a : α} {P : α → Prop} (h : P a) : Sim (F := F) D (pure a) P D :=
  fun _ _ ha => ⟨rfl, h, ha⟩

theorem Sim.fault {D E : Int → Prop} {P : α → Prop} {e : Fault} : Sim (F := F) D (Haxx.fault e) P E :=
  fun _ _ _ => rfl

theorem Sim.bind {D E G : Int → Prop} {p : Prog F α} {f : α → Prog F β} {P : α → Prop} {Q : β → Prop}
    (h : Sim D p P E) (hf : ∀ a, P a → Sim E (f a) Q G) : Sim D (p >>= f) Q G := by
  intro m n ha
  have h1 := h m n ha
  cases hm : p m with
  | error e =>
    cases hn : p n with
    | error e' => rw [hm, hn] at h1; rw [bind_error hm, bind_error hn]; exact h1
    | ok b => rw [hm, hn] at h1; exact h1.elim
  | ok a =>
    cases hn : p n with
    | error e' => rw [hm, hn] at h1; exact h1.elim
    | ok b =>
      obtain ⟨a, m'⟩ := a
      obtain ⟨b, n'⟩ := b
      rw [hm, hn] at h1
      obtain ⟨rfl, h2, h3⟩ := h1
      rw [bind_ok hm, bind_ok hn]
      exact hf a h2 m' n' h3

theorem Sim.rd {D : Int → Prop} {a : Int} (h : D a) : Sim (F := F) D (rd a) (fun _ => True) D := by
  intro m n ha
  have e := ha.eq a h
  unfold Haxx.rd
  rw [← e]
  cases m a
  · rfl
  · exact ⟨rfl, trivial, ha⟩

theorem Sim.wr {D : Int → Prop} {a : Int} {v : F} : Sim D (wr a v) (fun _ => True) (fun b => D b ∨ b = a) := by
  intro m n ha
  have e := ha.acc a
  unfold Haxx.wr
  cases hm : m a with
  | none =>
    cases hn : n a with
    | none => rfl
    | some w => rw [hm, hn] at e; cases e
  | some v' =>
    cases hn : n a with
    | none => rw [hm, hn] at e; cases e
    | some w =>
      refine ⟨rfl, trivial, ?_, ?_⟩
      · intro b; split
        · rfl
        · exact ha.acc b
      · intro b hb; split
        · rfl
        · rename_i hne
          exact ha.eq b (hb.resolve_right hne)

theorem Sim.loadQ {D : Int → Prop} {p : Int} (h : ∀ a, InQ p a → D a) : Sim (F := F) D (loadQ p) (fun _ => True) D := by
  unfold Haxx.loadQ
  refine (Sim.rd (h _ ⟨by omega, by omega⟩)).bind fun _ _ => ?_
  refine (Sim.rd (h _ ⟨by omega, by omega⟩)).bind fun _ _ => ?_
  refine (Sim.rd (h _ ⟨by omega, by omega⟩)).bind fun _ _ => ?_
  refine (Sim.rd (h _ ⟨by omega, by omega⟩)).bind fun _ _ => ?_
  exact Sim.pure trivial

theorem Sim.storeQ {D : Int → Prop} {p : Int} {q : Quat F} :
    Sim D (storeQ p q) (fun _ => True) (fun b => D b ∨ InQ p b) := by
  unfold Haxx.storeQ
  refine Sim.wr.bind fun _ _ => ?_
  refine Sim.wr.bind fun _ _ => ?_
  refine Sim.wr.bind fun _ _ => ?_
  refine Sim.wr.mono (fun _ h => h) ?_ (fun _ h => h)
  unfold InQ
  intro b hb
  rcases hb with hb | hb
  · exact .inl (.inl (.inl (.inl hb)))
  · by_cases h1 : b = p
    · exact .inl (.inl (.inl (.inr h1)))
    by_cases h2 : b = p + 1
    · exact .inl (.inl (.inr h2))
    by_cases h3 : b = p + 2
    · exact .inl (.inr h3)
    · exact .inr (by omega)

theorem Sim.rdC {D : Int → Prop} {p : Int} (h : D p) (h1 : D (p+1)) : Sim (F := F) D (rdC p) (fun _ => True) D := by
  unfold Haxx.rdC
  refine (Sim.rd h).bind fun _ _ => ?_
  refine (Sim.rd h1).bind fun _ _ => ?_
  exact Sim.pure trivial

theorem Sim.wrC {D : Int → Prop} {p : Int} {z : Cplx F} :
    Sim D (wrC p z) (fun _ => True) (fun b => D b ∨ b = p ∨ b = p + 1) := by
  unfold Haxx.wrC
  refine Sim.wr.bind fun _ _ => ?_
  refine Sim.wr.mono (fun _ h => h) ?_ (fun _ h => h)
  rintro b (h | h | h)
  · exact .inl (.inl h)
  · exact .inl (.inr h)
  · exact .inr h

theorem Sim.i32 {D : Int → Prop} {x : Int} : Sim (F := F) D (i32 x) (fun v => v = x) D := by
  unfold Haxx.i32
  split
  · exact Sim.pure rfl
  · exact Sim.fault

theorem Sim.assertP {D : Int → Prop} {b : Bool} : Sim (F := F) D (assertP b) (fun _ => b = true) D := by
  unfold Haxx.assertP
  split
  · exact Sim.pure ‹_›
  · exact Sim.fault

theorem Sim.foldN {n : Nat} {f : Nat → σ → Prog F σ} {s : σ} (D : Nat → Int → Prop) (I : Nat → σ → Prop)
    (h0 : I 0 s) (h : ∀ i s, i < n → I i s → Sim (D i) (f i s) (I (i+1)) (D (i+1))) :
    Sim (D 0) (foldN n f s) (I n) (D n) := by
  suffices hk : ∀ k, k ≤ n → Sim (D 0) (Haxx.foldN k f s) (I k) (D k) from hk n le_rfl
  intro k hk
  induction k with
  | zero => exact Sim.pure h0
  | succ k ih => exact (ih (by omega)).bind fun s hs => h k s (by omega) hs

theorem Sim.forN {n : Nat} {f : Nat → Prog F Unit} (D : Nat → Int → Prop)
    (h : ∀ i, i < n → Sim (D i) (f i) (fun _ => True) (D (i+1))) :
    Sim (D 0) (forN n f) (fun _ => True) (D n) :=
  Sim.foldN D (fun _ _ => True) trivial (fun i _ hi _ => h i hi)

/-- The two outcomes are equal if in the end everything agrees. -/
theorem Sim.eq {D E : Int → Prop} {p : Prog F α} {P : α → Prop} (h : Sim D p P E) (hE : ∀ a, E a) {m n : Mem F}
    (ha : Agr D m n) : p m = p n := by
  have h1 := h m n ha
  cases hm : p m with
  | error e =>
    cases hn : p n with
    | error e' => rw [hm, hn] at h1; rw [show e = e' from h1]
    | ok b => rw [hm, hn] at h1; exact h1.elim
  | ok a =>
    cases hn : p n with
    | error e' => rw [hm, hn] at h1; exact h1.elim
    | ok b =>
      obtain ⟨a, m'⟩ := a
      obtain ⟨b, n'⟩ := b
      rw [hm, hn] at h1
      obtain ⟨rfl, _, h3⟩ := h1
      have : m' = n' := funext fun c => h3.eq c (hE c)
      rw [this]

end
end Haxx
