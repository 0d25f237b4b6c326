import Verif.ThrFort
import Verif.ThrSimd
import Verif.ThrPort

/-!
# The accesses of a program, and pairs of programs that make the same ones

`Prog.trace` is the sequence of memory accesses of a program.  `Lock p q` says, by the structure of the two
programs, that they make the same accesses in the same order whatever each of them reads; `Lock.sound` draws the
conclusion for the runs.
-/

namespace Haxx.Thr
open Arith
set_option linter.unusedSectionVars false

variable {F α β σ : Type}

/-- A memory access as an observer of the bus sees it: the place and the kind, not the data. -/
inductive Ev where
  /-- a cell is read -/
  | rd (a : Int)
  /-- a cell is written -/
  | wr (a : Int)
  /-- a block is allocated or freed -/
  | map (p n : Int)
deriving DecidableEq, Repr

/-- The accesses of the program, in order, when it runs alone from `m`; an access outside of all live objects is
the last one. -/
def Prog.trace : Prog F α → Mem F → List Ev
  | .ret _, _ => []
  | .fail _, _ => []
  | .rd a k, m => .rd a :: (match m a with
    | some v => (k v).trace m
    | none => [])
  | .wr a v k, m => .wr a :: (match m a with
    | some _ => k.trace (upd m a v)
    | none => [])
  | .map p n g k, m => .map p n :: k.trace (remap m p n g)

/-- The same cells are accessible in both memories. -/
def SameCells (m m' : Mem F) : Prop := ∀ a, (m a).isSome = (m' a).isSome

/-- Both runs finish, or both fault in the same way. -/
def SameEnd (r r' : Except Fault (α × Mem F)) (R : α → α → Prop) : Prop :=
  match r, r' with
  | .ok (a, n), .ok (b, n') => R a b ∧ SameCells n n'
  | .error e, .error e' => e = e'
  | _, _ => False

/-- Two programs in lock step: the same accesses in the same order, whatever is read, and results related by `R`. -/
inductive LockR (R : α → α → Prop) : Prog F α → Prog F α → Prop where
  | ret {a b : α} : R a b → LockR R (.ret a) (.ret b)
  | fail {e : Fault} : LockR R (.fail e) (.fail e)
  | rd {a : Int} {k l : F → Prog F α} : (∀ v w, LockR R (k v) (l w)) → LockR R (.rd a k) (.rd a l)
  | wr {a : Int} {v w : F} {k l : Prog F α} : LockR R k l → LockR R (.wr a v k) (.wr a w l)
  | map {p n : Int} {g h : Int → Option F} {k l : Prog F α} : (∀ a, (g a).isSome = (h a).isSome) → LockR R k l →
      LockR R (.map p n g k) (.map p n h l)

theorem SameCells.upd {m m' : Mem F} (h : SameCells m m') (a : Int) (v w : F) : SameCells (upd m a v) (upd m' a w) := by
  intro b; unfold Thr.upd; split
  · rfl
  · exact h b

theorem SameCells.remap {m m' : Mem F} (h : SameCells m m') (p n : Int) {g g' : Int → Option F}
    (hg : ∀ a, (g a).isSome = (g' a).isSome) : SameCells (remap m p n g) (remap m' p n g') := by
  intro b; unfold Thr.remap; split
  · exact hg b
  · exact h b

theorem LockR.sound {R : α → α → Prop} {p q : Prog F α} (h : LockR R p q) {m m' : Mem F} (hm : SameCells m m') :
    p.trace m = q.trace m' ∧ SameEnd (p.run m) (q.run m') R := by
  induction h generalizing m m' with
  | ret hr => exact ⟨rfl, hr, hm⟩
  | fail => exact ⟨rfl, rfl⟩
  | @rd a k l _ ih =>
    have ha := hm a
    unfold Prog.trace Prog.run
    cases e : m a with
    | none =>
      cases e' : m' a with
      | none => exact ⟨rfl, rfl⟩
      | some w => rw [e, e'] at ha; cases ha
    | some v =>
      cases e' : m' a with
      | none => rw [e, e'] at ha; cases ha
      | some w => exact ⟨congrArg _ (ih v w hm).1, (ih v w hm).2⟩
  | @wr a v w k l _ ih =>
    have ha := hm a
    unfold Prog.trace Prog.run
    cases e : m a with
    | none =>
      cases e' : m' a with
      | none => exact ⟨rfl, rfl⟩
      | some w => rw [e, e'] at ha; cases ha
    | some x =>
      cases e' : m' a with
      | none => rw [e, e'] at ha; cases ha
      | some y => exact ⟨congrArg _ (ih (hm.upd a v w)).1, (ih (hm.upd a v w)).2⟩
  | @map p n g g' k l hg _ ih =>
    unfold Prog.trace Prog.run
    exact ⟨congrArg _ (ih (hm.remap p n hg)).1, (ih (hm.remap p n hg)).2⟩

theorem LockR.bind {R : α → α → Prop} {Q : β → β → Prop} {p q : Prog F α} {f g : α → Prog F β} (h : LockR R p q)
    (hk : ∀ a b, R a b → LockR Q (f a) (g b)) : LockR Q (p >>= f) (q >>= g) := by
  show LockR Q (p.bind f) (q.bind g)
  induction h with
  | ret hr => exact hk _ _ hr
  | fail => exact .fail
  | rd _ ih => exact .rd fun v w => ih v w
  | wr _ ih => exact .wr ih
  | map hg _ ih => exact .map hg ih

theorem LockR.fold {R : σ → σ → Prop} {n : Nat} {f g : Nat → σ → Prog F σ} {s t : σ}
    (hk : ∀ i a b, R a b → LockR R (f i a) (g i b)) (h : R s t) : LockR R (foldN n f s) (foldN n g t) := by
  induction n with
  | zero => exact .ret h
  | succ n ih => exact ih.bind (hk n)

/-- Which part of a value the addresses may depend on: two values are related if they agree on it. -/
class Sh (α : Type) where
  /-- the two values agree on the part that is not data -/
  rel : α → α → Prop

/-- Everything counts. -/
@[reducible] def Sh.eq (α : Type) : Sh α := ⟨Eq⟩
/-- Floating-point data: nothing counts. -/
instance (priority := low) shTriv : Sh α := ⟨fun _ _ => True⟩
instance : Sh Int := Sh.eq _
instance : Sh Unit := Sh.eq _
instance : Sh (Int × Int) := Sh.eq _
instance : Sh (Int × Int × Int) := Sh.eq _
instance : Sh (Cplx F × Cplx F × Int) := ⟨fun s t => s.2.2 = t.2.2⟩
instance : Sh (Int × Quat F) := ⟨fun s t => s.1 = t.1⟩
instance : Sh (Int × Int × Quat F) := ⟨fun s t => s.1 = t.1 ∧ s.2.1 = t.2.1⟩
instance : Sh (Int × Int × F × F × F × F) := ⟨fun s t => s.1 = t.1 ∧ s.2.1 = t.2.1⟩
instance : Sh (DotSt F) := ⟨fun s t => s.locX = t.locX ∧ s.locY = t.locY⟩
instance : Sh (KernSt F) := ⟨fun s t => s.locA = t.locA ∧ s.locB = t.locB⟩

/-- Lock step, with results that agree on what is not data. -/
def Lock [Sh α] (p q : Prog F α) : Prop := LockR Sh.rel p q

section rules
variable [Sh α] [Sh β]

theorem lock_bind {p q : Prog F α} {f g : α → Prog F β} (h : Lock p q) (hk : ∀ a b, Sh.rel a b → Lock (f a) (g b)) :
    Lock (p >>= f) (q >>= g) := LockR.bind h hk
theorem lock_ite {c : Prop} [Decidable c] {p q p' q' : Prog F α} (h : c → Lock p q) (h' : ¬ c → Lock p' q') :
    Lock (if c then p else p') (if c then q else q') := by
  split
  · exact h ‹_›
  · exact h' ‹_›
theorem lock_fault {e : Fault} : Lock (fault e : Prog F α) (fault e) := .fail
theorem lock_pure {a b : α} (h : Sh.rel a b) : Lock (pure a : Prog F α) (pure b) := .ret h
end rules

variable [Sh β]
theorem lock_seqE [Sh α] {p q : Prog F α} {f g : α → Prog F β} (h : Lock p q) (e : ∀ a b : α, Sh.rel a b → a = b)
    (hk : ∀ a, Lock (f a) (g a)) : Lock (p >>= f) (q >>= g) := lock_bind h fun a b hab => e a b hab ▸ hk a
theorem lock_seqI {p q : Prog F Int} {f g : Int → Prog F β} (h : Lock p q) (hk : ∀ a, Lock (f a) (g a)) :
    Lock (p >>= f) (q >>= g) := lock_seqE h (fun _ _ h => h) hk
theorem lock_seqU {p q : Prog F Unit} {f g : Unit → Prog F β} (h : Lock p q) (hk : Lock (f ()) (g ())) :
    Lock (p >>= f) (q >>= g) := lock_seqE h (fun _ _ h => h) fun _ => hk
theorem lock_seqII {p q : Prog F (Int × Int)} {f g : Int × Int → Prog F β} (h : Lock p q) (hk : ∀ a b, Lock (f (a, b)) (g (a, b))) :
    Lock (p >>= f) (q >>= g) := lock_seqE h (fun _ _ h => h) fun x => hk x.1 x.2
theorem lock_seqIII {p q : Prog F (Int × Int × Int)} {f g : Int × Int × Int → Prog F β} (h : Lock p q)
    (hk : ∀ a b c, Lock (f (a, b, c)) (g (a, b, c))) :
    Lock (p >>= f) (q >>= g) := lock_seqE h (fun _ _ h => h) fun x => hk x.1 x.2.1 x.2.2
/-- The value is data. -/
theorem lock_seqT {p q : Prog F α} {f g : α → Prog F β} (h : @Lock F α shTriv p q) (hk : ∀ a b, Lock (f a) (g b)) :
    Lock (p >>= f) (q >>= g) := @lock_bind F α β shTriv _ p q f g h fun a b _ => hk a b
theorem lock_seqTTI {p q : Prog F (Cplx F × Cplx F × Int)} {f g : Cplx F × Cplx F × Int → Prog F β} (h : Lock p q)
    (hk : ∀ a b a' b' n, Lock (f (a, b, n)) (g (a', b', n))) : Lock (p >>= f) (q >>= g) :=
  lock_bind h fun ⟨a, b, n⟩ ⟨a', b', n'⟩ e => by
    have e : n = n' := e
    subst e; exact hk a b a' b' n
theorem lock_seqIT {p q : Prog F (Int × Quat F)} {f g : Int × Quat F → Prog F β} (h : Lock p q)
    (hk : ∀ a c c', Lock (f (a, c)) (g (a, c'))) : Lock (p >>= f) (q >>= g) :=
  lock_bind h fun ⟨a, c⟩ ⟨a', c'⟩ e => by
    have e : a = a' := e
    subst e; exact hk a c c'
theorem lock_seqIIT {p q : Prog F (Int × Int × Quat F)} {f g : Int × Int × Quat F → Prog F β} (h : Lock p q)
    (hk : ∀ a b c c', Lock (f (a, b, c)) (g (a, b, c'))) : Lock (p >>= f) (q >>= g) :=
  lock_bind h fun ⟨a, b, c⟩ ⟨a', b', c'⟩ e => by
    obtain ⟨e1, e2⟩ : a = a' ∧ b = b' := e
    subst e1 e2; exact hk a b c c'
theorem lock_seqII4 {p q : Prog F (Int × Int × F × F × F × F)} {f g : Int × Int × F × F × F × F → Prog F β} (h : Lock p q)
    (hk : ∀ a b c c', Lock (f (a, b, c)) (g (a, b, c'))) : Lock (p >>= f) (q >>= g) :=
  lock_bind h fun ⟨a, b, c⟩ ⟨a', b', c'⟩ e => by
    obtain ⟨e1, e2⟩ : a = a' ∧ b = b' := e
    subst e1 e2; exact hk a b c c'
theorem lock_seqD {p q : Prog F (DotSt F)} {f g : DotSt F → Prog F β} (h : Lock p q)
    (hk : ∀ a b c c', Lock (f ⟨a, b, c⟩) (g ⟨a, b, c'⟩)) : Lock (p >>= f) (q >>= g) :=
  lock_bind h fun ⟨a, b, c⟩ ⟨a', b', c'⟩ e => by
    obtain ⟨e1, e2⟩ : a = a' ∧ b = b' := e
    subst e1 e2; exact hk a b c c'

theorem lock_seqK {p q : Prog F (KernSt F)} {f g : KernSt F → Prog F β} (h : Lock p q)
    (hk : ∀ a b c c', Lock (f ⟨a, b, c⟩) (g ⟨a, b, c'⟩)) : Lock (p >>= f) (q >>= g) :=
  lock_bind h fun ⟨a, b, c⟩ ⟨a', b', c'⟩ e => by
    obtain ⟨e1, e2⟩ : a = a' ∧ b = b' := e
    subst e1 e2; exact hk a b c c'

omit [Sh β] in
theorem lock_foldE [Sh σ] {n : Nat} {f g : Nat → σ → Prog F σ} {s : σ} (e : ∀ a b : σ, Sh.rel a b → a = b) (r : ∀ a : σ, Sh.rel a a)
    (hk : ∀ i a, Lock (f i a) (g i a)) : Lock (foldN n f s) (foldN n g s) :=
  LockR.fold (fun i a b h => e a b h ▸ hk i a) (r s)
omit [Sh β] in
theorem lock_foldI {n : Nat} {f g : Nat → Int → Prog F Int} {s : Int} (hk : ∀ i a, Lock (f i a) (g i a)) :
    Lock (foldN n f s) (foldN n g s) := lock_foldE (fun _ _ h => h) (fun _ => rfl) hk
omit [Sh β] in
theorem lock_foldU {n : Nat} {f g : Nat → Unit → Prog F Unit} {s : Unit} (hk : ∀ i a, Lock (f i a) (g i a)) :
    Lock (foldN n f s) (foldN n g s) := lock_foldE (fun _ _ h => h) (fun _ => rfl) hk
omit [Sh β] in
theorem lock_foldII {n : Nat} {f g : Nat → Int × Int → Prog F (Int × Int)} {s : Int × Int}
    (hk : ∀ i a b, Lock (f i (a, b)) (g i (a, b))) :
    Lock (foldN n f s) (foldN n g s) := lock_foldE (fun _ _ h => h) (fun _ => rfl) fun i x => hk i x.1 x.2
omit [Sh β] in
theorem lock_foldIII {n : Nat} {f g : Nat → Int × Int × Int → Prog F (Int × Int × Int)} {s : Int × Int × Int}
    (hk : ∀ i a b c, Lock (f i (a, b, c)) (g i (a, b, c))) :
    Lock (foldN n f s) (foldN n g s) := lock_foldE (fun _ _ h => h) (fun _ => rfl) fun i x => hk i x.1 x.2.1 x.2.2
omit [Sh β] in
theorem lock_foldT {n : Nat} {f g : Nat → σ → Prog F σ} {s t : σ} (hk : ∀ i a b, @Lock F σ shTriv (f i a) (g i b)) :
    @Lock F σ shTriv (foldN n f s) (foldN n g t) := LockR.fold (fun i a b _ => hk i a b) trivial
omit [Sh β] in
theorem lock_foldTTI {n : Nat} {f g : Nat → Cplx F × Cplx F × Int → Prog F (Cplx F × Cplx F × Int)} {a b a' b' : Cplx F} {k : Int}
    (hk : ∀ i a b a' b' n, Lock (f i (a, b, n)) (g i (a', b', n))) :
    Lock (foldN n f (a, b, k)) (foldN n g (a', b', k)) :=
  LockR.fold (fun i ⟨a, b, n⟩ ⟨a', b', n'⟩ e => by
    have e : n = n' := e
    subst e; exact hk i a b a' b' n) rfl
omit [Sh β] in
theorem lock_foldIT {n : Nat} {f g : Nat → Int × Quat F → Prog F (Int × Quat F)} {a : Int} {c c' : Quat F}
    (hk : ∀ i a c c', Lock (f i (a, c)) (g i (a, c'))) :
    Lock (foldN n f (a, c)) (foldN n g (a, c')) :=
  LockR.fold (fun i ⟨a, c⟩ ⟨a', c'⟩ e => by
    have e : a = a' := e
    subst e; exact hk i a c c') rfl
omit [Sh β] in
theorem lock_foldIIT {n : Nat} {f g : Nat → Int × Int × Quat F → Prog F (Int × Int × Quat F)} {a b : Int} {c c' : Quat F}
    (hk : ∀ i a b c c', Lock (f i (a, b, c)) (g i (a, b, c'))) :
    Lock (foldN n f (a, b, c)) (foldN n g (a, b, c')) :=
  LockR.fold (fun i ⟨a, b, c⟩ ⟨a', b', c'⟩ e => by
    obtain ⟨e1, e2⟩ : a = a' ∧ b = b' := e
    subst e1 e2; exact hk i a b c c') ⟨rfl, rfl⟩
omit [Sh β] in
theorem lock_foldII4 {n : Nat} {f g : Nat → Int × Int × F × F × F × F → Prog F (Int × Int × F × F × F × F)} {a b : Int}
    {c c' : F × F × F × F} (hk : ∀ i a b c c', Lock (f i (a, b, c)) (g i (a, b, c'))) :
    Lock (foldN n f (a, b, c)) (foldN n g (a, b, c')) :=
  LockR.fold (fun i ⟨a, b, c⟩ ⟨a', b', c'⟩ e => by
    obtain ⟨e1, e2⟩ : a = a' ∧ b = b' := e
    subst e1 e2; exact hk i a b c c') ⟨rfl, rfl⟩
omit [Sh β] in
theorem lock_foldD {n : Nat} {f g : Nat → DotSt F → Prog F (DotSt F)} {a b : Int} {c c' : R4 F}
    (hk : ∀ i a b c c', Lock (f i ⟨a, b, c⟩) (g i ⟨a, b, c'⟩)) :
    Lock (foldN n f ⟨a, b, c⟩) (foldN n g ⟨a, b, c'⟩) :=
  LockR.fold (fun i ⟨a, b, c⟩ ⟨a', b', c'⟩ e => by
    obtain ⟨e1, e2⟩ : a = a' ∧ b = b' := e
    subst e1 e2; exact hk i a b c c') ⟨rfl, rfl⟩
omit [Sh β] in
theorem lock_foldK {n : Nat} {f g : Nat → KernSt F → Prog F (KernSt F)} {a b : Int} {c c' : R4 F}
    (hk : ∀ i a b c c', Lock (f i ⟨a, b, c⟩) (g i ⟨a, b, c'⟩)) :
    Lock (foldN n f ⟨a, b, c⟩) (foldN n g ⟨a, b, c'⟩) :=
  LockR.fold (fun i ⟨a, b, c⟩ ⟨a', b', c'⟩ e => by
    obtain ⟨e1, e2⟩ : a = a' ∧ b = b' := e
    subst e1 e2; exact hk i a b c c') ⟨rfl, rfl⟩
omit [Sh β] in
theorem lock_forN {n : Nat} {f g : Nat → Prog F Unit} (hk : ∀ i, Lock (f i) (g i)) : Lock (forN n f) (forN n g) :=
  lock_foldU fun i _ => hk i
omit [Sh β] in
theorem lock_forStep {lo hi s : Int} {f g : Int → Prog F Unit} (hk : ∀ i, Lock (f i) (g i)) :
    Lock (forStep lo hi s f) (forStep lo hi s g) := lock_forN fun _ => hk _

/-! ### Primitive accesses -/

omit [Sh β]
theorem lock_rd {a : Int} : @Lock F F shTriv (rd a) (rd a) := .rd fun _ _ => .ret trivial
theorem lock_wr {a : Int} {v w : F} : Lock (wr a v) (wr a w) := .wr (.ret rfl)
theorem lock_loadQ {a : Int} : @Lock F (Quat F) shTriv (loadQ a) (loadQ a) :=
  .rd fun _ _ => .rd fun _ _ => .rd fun _ _ => .rd fun _ _ => .ret trivial
theorem lock_storeQ {a : Int} {q r : Quat F} : Lock (storeQ a q) (storeQ a r) := .wr (.wr (.wr (.wr (.ret rfl))))
theorem lock_rdC {a : Int} : @Lock F (Cplx F) shTriv (rdC a) (rdC a) := .rd fun _ _ => .rd fun _ _ => .ret trivial
theorem lock_wrC {a : Int} {z w : Cplx F} : Lock (wrC a z) (wrC a w) := .wr (.wr (.ret rfl))
theorem lock_loadA {a : Int} : @Lock F (Quat F) shTriv (loadA a) (loadA a) := by
  unfold loadA; exact @lock_ite F _ shTriv _ _ _ _ _ _ (fun _ => lock_loadQ) (fun _ => .fail)
theorem lock_storeA {a : Int} {q r : Quat F} : Lock (storeA a q) (storeA a r) :=
  lock_ite (fun _ => lock_storeQ) (fun _ => .fail)
theorem lock_assertP {b : Bool} : Lock (assertP b : Prog F Unit) (assertP b) := lock_ite (fun _ => .ret rfl) (fun _ => .fail)
theorem lock_i32 {x : Int} : Lock (i32 x : Prog F Int) (i32 x) := lock_ite (fun _ => .ret rfl) (fun _ => .fail)
theorem lock_allocQ {p n : Int} {j j' : Int → F} : Lock (allocQ p n j) (allocQ p n j') := .map (fun _ => rfl) (.ret rfl)
theorem lock_freeQ {p n : Int} : Lock (freeQ p n : Prog F Unit) (freeQ p n) := .map (fun _ => rfl) (.ret rfl)

theorem lock_loadM {b : Bool} {a : Int} : @Lock F (V4 F) shTriv (loadM b a) (loadM b a) := by
  unfold loadM; cases b
  · exact lock_loadQ
  · exact lock_loadA
theorem lock_storeM {b : Bool} {a : Int} {q r : V4 F} : Lock (storeM b a q) (storeM b a r) := by
  unfold storeM; cases b
  · exact lock_storeQ
  · exact lock_storeA

theorem lock_load2A {a : Int} : @Lock F (V2 F) shTriv (load2A a) (load2A a) := by
  unfold load2A
  exact @lock_ite F _ shTriv _ _ _ _ _ _ (fun _ => .rd fun _ _ => .rd fun _ _ => .ret trivial) (fun _ => .fail)
theorem lock_pureT {a b : α} : @Lock F α shTriv (pure a) (pure b) := .ret trivial
theorem lock_pureD {a b a' b' : Int} {c c' : R4 F} (h : a = a') (h' : b = b') :
    Lock (pure ⟨a, b, c⟩ : Prog F (DotSt F)) (pure ⟨a', b', c'⟩) := .ret ⟨h, h'⟩
theorem lock_pureK {a b a' b' : Int} {c c' : R4 F} (h : a = a') (h' : b = b') :
    Lock (pure ⟨a, b, c⟩ : Prog F (KernSt F)) (pure ⟨a', b', c'⟩) := .ret ⟨h, h'⟩
theorem lock_pureII4 {a b a' b' : Int} {c c' : F × F × F × F} (h : a = a') (h' : b = b') :
    Lock (pure (a, b, c) : Prog F (Int × Int × F × F × F × F)) (pure (a', b', c')) := .ret ⟨h, h'⟩
theorem lock_pureIT {a a' : Int} {c c' : Quat F} (h : a = a') :
    Lock (pure (a, c) : Prog F (Int × Quat F)) (pure (a', c')) := .ret h
theorem lock_pureIIT {a b a' b' : Int} {c c' : Quat F} (h : a = a') (h' : b = b') :
    Lock (pure (a, b, c) : Prog F (Int × Int × Quat F)) (pure (a', b', c')) := .ret ⟨h, h'⟩
theorem lock_iteT {c : Prop} [Decidable c] {p q p' q' : Prog F α} (h : @Lock F α shTriv p q) (h' : @Lock F α shTriv p' q') :
    @Lock F α shTriv (if c then p else p') (if c then q else q') := @lock_ite F α shTriv c _ p q p' q' (fun _ => h) (fun _ => h')

/-- One step of a proof of `Lock`. -/
syntax "lock_step" : tactic
macro_rules
  | `(tactic| lock_step) => `(tactic| first
    | with_reducible exact lock_pure rfl
    | with_reducible exact lock_pure trivial
    | with_reducible exact lock_pure ⟨rfl, rfl⟩
    | with_reducible exact lock_rd
    | with_reducible exact lock_wr
    | with_reducible exact lock_rdC
    | with_reducible exact lock_wrC
    | with_reducible exact lock_loadQ
    | with_reducible exact lock_storeQ
    | with_reducible exact lock_loadA
    | with_reducible exact lock_storeA
    | with_reducible exact lock_pureT
    | (with_reducible refine lock_pureD ?_ ?_ <;> rfl)
    | (with_reducible refine lock_pureK ?_ ?_ <;> rfl)
    | (with_reducible refine lock_pureII4 ?_ ?_ <;> rfl)
    | (with_reducible refine lock_pureIT ?_; rfl)
    | (with_reducible refine lock_pureIIT ?_ ?_ <;> rfl)
    | with_reducible exact lock_load2A
    | with_reducible exact lock_loadM
    | with_reducible exact lock_storeM
    | with_reducible exact lock_assertP
    | with_reducible exact lock_allocQ
    | with_reducible exact lock_freeQ
    | with_reducible exact lock_i32
    | with_reducible exact lock_fault
    | with_reducible refine lock_ite (fun _ => ?_) (fun _ => ?_)
    | with_reducible refine lock_iteT ?_ ?_
    | with_reducible refine lock_seqU ?_ ?_
    | with_reducible refine lock_seqI ?_ (fun _ => ?_)
    | with_reducible refine lock_seqII ?_ (fun _ _ => ?_)
    | with_reducible refine lock_seqIII ?_ (fun _ _ _ => ?_)
    | with_reducible refine lock_seqTTI ?_ (fun _ _ _ _ _ => ?_)
    | with_reducible refine lock_seqIT ?_ (fun _ _ _ => ?_)
    | with_reducible refine lock_seqIIT ?_ (fun _ _ _ _ => ?_)
    | with_reducible refine lock_seqII4 ?_ (fun _ _ _ _ => ?_)
    | with_reducible refine lock_seqD ?_ (fun _ _ _ _ => ?_)
    | with_reducible refine lock_seqK ?_ (fun _ _ _ _ => ?_)
    | with_reducible refine lock_seqT ?_ (fun _ _ => ?_)
    | with_reducible refine lock_forN (fun _ => ?_)
    | with_reducible refine lock_forStep (fun _ => ?_)
    | with_reducible refine lock_foldI (fun _ _ => ?_)
    | with_reducible refine lock_foldU (fun _ _ => ?_)
    | with_reducible refine lock_foldII (fun _ _ _ => ?_)
    | with_reducible refine lock_foldIII (fun _ _ _ _ => ?_)
    | with_reducible refine lock_foldK (fun _ _ _ _ _ => ?_)
    | with_reducible refine lock_foldTTI (fun _ _ _ _ _ _ => ?_)
    | with_reducible refine lock_foldIT (fun _ _ _ _ => ?_)
    | with_reducible refine lock_foldIIT (fun _ _ _ _ _ => ?_)
    | with_reducible refine lock_foldII4 (fun _ _ _ _ _ => ?_)
    | with_reducible refine lock_foldD (fun _ _ _ _ _ => ?_)
    | with_reducible refine lock_foldK (fun _ _ _ _ _ => ?_)
    | with_reducible refine lock_foldT (fun _ _ _ => ?_))

end Haxx.Thr
