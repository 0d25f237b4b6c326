import Verif.ThrLock
import Verif.ThrFort
import Verif.ThrSafeVec
import Verif.ThrSafePort

/-!
# Programs whose accesses depend on the data only through a given set of cells

`LockS S` is `LockR` with one more rule: a cell of `S` reads the same in both runs.  In exchange no cell of `S` may be
written.  Used for GERU and GERC, where `S` is the vector y.
-/

namespace Haxx.Thr
open Arith
set_option linter.unusedSectionVars false

variable {F α β : Type}

/-- Two programs in lock step, given that they read the same from the cells of `S`, which they do not write. -/
inductive LockS (S : Int → Prop) (R : α → α → Prop) : Prog F α → Prog F α → Prop where
  | ret {a b : α} : R a b → LockS S R (.ret a) (.ret b)
  | fail {e : Fault} : LockS S R (.fail e) (.fail e)
  | rd {a : Int} {k l : F → Prog F α} : (∀ v w, LockS S R (k v) (l w)) → LockS S R (.rd a k) (.rd a l)
  | rdS {a : Int} {k l : F → Prog F α} : S a → (∀ v, LockS S R (k v) (l v)) → LockS S R (.rd a k) (.rd a l)
  | wr {a : Int} {v w : F} {k l : Prog F α} : ¬ S a → LockS S R k l → LockS S R (.wr a v k) (.wr a w l)

theorem LockS.sound {S : Int → Prop} {R : α → α → Prop} {p q : Prog F α} (h : LockS S R p q) {m m' : Mem F} (hm : SameCells m m')
    (hs : ∀ a, S a → m a = m' a) : p.trace m = q.trace m' ∧ SameEnd (p.run m) (q.run m') R := by
  induction h generalizing m m' with
  | ret hr => exact ⟨rfl, hr, hm⟩
  | fail => exact ⟨rfl, rfl⟩
  | @rd a k l _ ih =>
    have ha := hm a
    unfold Prog.trace Prog.run
    cases e : m a with
    | none =>
      cases e' : m' a with
      | none => exact ⟨rfl, rfl⟩
      | some w => rw [e, e'] at ha; cases ha
    | some v =>
      cases e' : m' a with
      | none => rw [e, e'] at ha; cases ha
      | some w => exact ⟨congrArg _ (ih v w hm hs).1, (ih v w hm hs).2⟩
  | @rdS a k l h _ ih =>
    unfold Prog.trace Prog.run
    rw [← hs a h]
    cases e : m a with
    | none => exact ⟨rfl, rfl⟩
    | some v => exact ⟨congrArg _ (ih v hm hs).1, (ih v hm hs).2⟩
  | @wr a v w k l hna _ ih =>
    have ha := hm a
    have hs' : ∀ b, S b → upd m a v b = upd m' a w b := fun b hb => by
      have : b ≠ a := fun e => hna (e ▸ hb)
      unfold upd; rw [if_neg this, if_neg this]; exact hs b hb
    unfold Prog.trace Prog.run
    cases e : m a with
    | none =>
      cases e' : m' a with
      | none => exact ⟨rfl, rfl⟩
      | some w => rw [e, e'] at ha; cases ha
    | some x =>
      cases e' : m' a with
      | none => rw [e, e'] at ha; cases ha
      | some y => exact ⟨congrArg _ (ih (hm.upd a v w) hs').1, (ih (hm.upd a v w) hs').2⟩

variable {S : Int → Prop}

theorem LockS.bind {R : α → α → Prop} {Q : β → β → Prop} {p q : Prog F α} {f g : α → Prog F β} (h : LockS S R p q)
    (hk : ∀ a b, R a b → LockS S Q (f a) (g b)) : LockS S Q (p >>= f) (q >>= g) := by
  show LockS S Q (p.bind f) (q.bind g)
  induction h with
  | ret hr => exact hk _ _ hr
  | fail => exact .fail
  | rd _ ih => exact .rd fun v w => ih v w
  | rdS hs _ ih => exact .rdS hs fun v => ih v
  | wr hs _ ih => exact .wr hs ih

theorem LockS.weak {R T : α → α → Prop} {p q : Prog F α} (h : LockS S R p q) (hr : ∀ a b, R a b → T a b) : LockS S T p q := by
  induction h with
  | ret h => exact .ret (hr _ _ h)
  | fail => exact .fail
  | rd _ ih => exact .rd ih
  | rdS hs _ ih => exact .rdS hs ih
  | wr hs _ ih => exact .wr hs ih

/-- Any result will do. -/
@[reducible] def Any (_ _ : α) : Prop := True

variable {Q : β → β → Prop}
theorem ls_ret {a b : β} (h : Q a b) : LockS S Q (pure a : Prog F β) (pure b) := .ret h
theorem ls_retA {a b : α} : LockS S Any (pure a : Prog F α) (pure b) := .ret trivial
theorem ls_retE {a : α} : LockS S Eq (pure a : Prog F α) (pure a) := .ret rfl
theorem ls_retP {a b : Int} : LockS S (fun x y => x = y ∧ x = a + b) (pure (a + b) : Prog F Int) (pure (a + b)) := .ret ⟨rfl, rfl⟩
theorem ls_fail {e : Fault} : LockS S Q (fault e : Prog F β) (fault e) := .fail
theorem ls_uninit {f g : α → Prog F β} : LockS S Q ((uninit : Prog F α) >>= f) ((uninit : Prog F α) >>= g) := .fail
theorem ls_seqS {p q : Prog F α} {f g : α → Prog F β} (h : LockS S Eq p q) (hk : ∀ a, LockS S Q (f a) (g a)) :
    LockS S Q (p >>= f) (q >>= g) := h.bind fun a _ e => e ▸ hk a
theorem ls_seqT {p q : Prog F α} {f g : α → Prog F β} (h : LockS S Any p q) (hk : ∀ a b, LockS S Q (f a) (g b)) :
    LockS S Q (p >>= f) (q >>= g) := h.bind fun a b _ => hk a b
theorem ls_seqU {p q : Prog F Unit} {f g : Unit → Prog F β} (h : LockS S Any p q) (hk : LockS S Q (f ()) (g ())) :
    LockS S Q (p >>= f) (q >>= g) := h.bind fun _ _ _ => hk
theorem ls_ite {c : Prop} [Decidable c] {p q p' q' : Prog F β} (h : c → LockS S Q p q) (h' : ¬ c → LockS S Q p' q') :
    LockS S Q (if c then p else p') (if c then q else q') := by
  split
  · exact h ‹_›
  · exact h' ‹_›
theorem ls_bind_ite {c : Prop} [Decidable c] {a b : α} {f g : α → Prog F β}
    (h : LockS S Q (f (if c then a else b)) (g (if c then a else b))) :
    LockS S Q ((if c then pure a else pure b : Prog F α) >>= f) ((if c then pure a else pure b : Prog F α) >>= g) := by
  split at h
  · rw [if_pos ‹_›]; exact h
  · rw [if_neg ‹_›]; exact h
theorem ls_rdCS {a : Int} (h : Two S a) : LockS S Eq (rdC a : Prog F (Cplx F)) (rdC a) :=
  .rdS h.1 fun _ => .rdS h.2 fun _ => .ret rfl
theorem ls_rdC {a : Int} : LockS S Any (rdC a : Prog F (Cplx F)) (rdC a) := .rd fun _ _ => .rd fun _ _ => .ret trivial
theorem ls_wrC {a : Int} {z w : Cplx F} (h : Two (fun a => ¬ S a) a) : LockS S Any (wrC a z) (wrC a w) :=
  .wr h.1 (.wr h.2 (.ret trivial))
theorem ls_loadQS {a : Int} (h : Q4 S a) : LockS S Eq (loadQ a : Prog F (Quat F)) (loadQ a) :=
  .rdS (h _ (by unfold InQ; omega)) fun _ => .rdS (h _ (by unfold InQ; omega)) fun _ => .rdS (h _ (by unfold InQ; omega)) fun _ =>
    .rdS (h _ (by unfold InQ; omega)) fun _ => .ret rfl
theorem ls_loadQ {a : Int} : LockS S Any (loadQ a : Prog F (Quat F)) (loadQ a) :=
  .rd fun _ _ => .rd fun _ _ => .rd fun _ _ => .rd fun _ _ => .ret trivial
theorem ls_storeQ {a : Int} {q r : Quat F} (h : Q4 (fun a => ¬ S a) a) : LockS S Any (storeQ a q) (storeQ a r) :=
  .wr (h _ (by unfold InQ; omega)) (.wr (h _ (by unfold InQ; omega)) (.wr (h _ (by unfold InQ; omega))
    (.wr (h _ (by unfold InQ; omega)) (.ret trivial))))
theorem ls_assert {b : Bool} {p q : Prog F β} (h : b = true → LockS S Q p q) :
    LockS S Q ((assertP b : Prog F Unit) >>= fun _ => p) ((assertP b : Prog F Unit) >>= fun _ => q) := by
  cases b
  · exact .fail
  · exact h rfl
/-- The value of a 32-bit integer expression is the integer, or both runs overflow. -/
theorem ls_i32 {x : Int} : LockS S (fun a b => a = b ∧ a = x) (i32 x : Prog F Int) (i32 x) :=
  ls_ite (fun _ => .ret ⟨rfl, rfl⟩) (fun _ => .fail)
theorem ls_i32' {x y : Int} (h : x = y) : LockS S (fun a b => a = b ∧ a = y) (i32 x : Prog F Int) (i32 x) := h ▸ ls_i32
theorem ls_i32_bind {x : Int} {f g : Int → Prog F β} (h : LockS S Q (f x) (g x)) : LockS S Q (i32 x >>= f) (i32 x >>= g) :=
  ls_i32.bind fun a b e => by obtain ⟨rfl, rfl⟩ := e; exact h

/-- A loop that advances a position by `INC`. -/
theorem ls_foldP {n : Nat} {f g : Nat → Int → Prog F Int} {s : Int} (INC : Int)
    (hk : ∀ (i : Nat) (p : Int), p = s + (i:Int) * INC → i < n → LockS S (fun a b => a = b ∧ a = p + INC) (f i p) (g i p)) :
    LockS S Eq (foldN n f s) (foldN n g s) := by
  have key : ∀ k, k ≤ n → LockS S (fun a b => a = b ∧ a = s + (k:Int) * INC) (foldN k f s) (foldN k g s) := by
    intro k
    induction k with
    | zero => intro _; exact .ret ⟨rfl, by simp⟩
    | succ k ih =>
      intro hk'
      refine (ih (by omega)).bind fun a b e => ?_
      obtain ⟨rfl, e⟩ := e
      have := hk k a e (by omega)
      have e2 : a + INC = s + ((k + 1 : Nat) : Int) * INC := by rw [e]; push_cast; ring
      rwa [← e2]
  exact (key n le_rfl).weak fun _ _ e => e.1

theorem ls_forN {n : Nat} {f g : Nat → Prog F Unit} (hk : ∀ i, i < n → LockS S Any (f i) (g i)) :
    LockS S Any (forN n f) (forN n g) := by
  unfold forN
  have key : ∀ k, k ≤ n → LockS S (Any (α := Unit)) (foldN k (fun i _ => f i) ()) (foldN k (fun i _ => g i) ()) := by
    intro k
    induction k with
    | zero => intro _; exact .ret trivial
    | succ k ih => exact fun h => (ih (by omega)).bind fun _ _ _ => hk k (by omega)
  exact key n le_rfl

end Haxx.Thr
