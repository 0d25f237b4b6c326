import Verif.Thread
import Verif.ThrAttr
import Verif.Gemm

/-!
# Threads: the primitive actions and loops

The definitions of `Mem.lean` (and `allocQ`, `freeQ` of `Gemm.lean`) once more, as interleavable programs.
-/

namespace Haxx.Thr

variable {F α β σ : Type}

theorem run_bind' (t : Prog F α) (f : α → Prog F β) : (t.bind f).run = (t.run >>= fun a => (f a).run) := by
  funext m
  induction t generalizing m with
  | ret a => rfl
  | fail e => rfl
  | rd a k ih =>
    show (Prog.rd a (fun v => (k v).bind f)).run m = _
    cases e : m a with
    | none =>
      rw [bind_error (e := .oob a)]
      · simp only [Prog.run, e]
      · simp only [Prog.run, e]
    | some v =>
      have h1 : (Prog.rd a (fun v => (k v).bind f)).run m = ((k v).bind f).run m := by simp only [Prog.run, e]
      have h2 : (Prog.rd a k).run m = (k v).run m := by simp only [Prog.run, e]
      rw [h1, ih v m]
      cases hk : (k v).run m with
      | error x => rw [bind_error hk, bind_error (h2.trans hk)]
      | ok x => obtain ⟨b, m'⟩ := x; rw [bind_ok hk, bind_ok (h2.trans hk)]
  | wr a v k ih =>
    show (Prog.wr a v (k.bind f)).run m = _
    cases e : m a with
    | none =>
      rw [bind_error (e := .oob a)]
      · simp only [Prog.run, e]
      · simp only [Prog.run, e]
    | some w =>
      have h1 : (Prog.wr a v (k.bind f)).run m = (k.bind f).run (upd m a v) := by simp only [Prog.run, e]
      have h2 : (Prog.wr a v k).run m = k.run (upd m a v) := by simp only [Prog.run, e]
      rw [h1, ih]
      cases hk : k.run (upd m a v) with
      | error x => rw [bind_error hk, bind_error (h2.trans hk)]
      | ok x => obtain ⟨b, m'⟩ := x; rw [bind_ok hk, bind_ok (h2.trans hk)]
  | map p n g k ih =>
    have h1 : (Prog.map p n g (k.bind f)).run m = (k.bind f).run (remap m p n g) := rfl
    have h2 : (Prog.map p n g k).run m = k.run (remap m p n g) := rfl
    show (Prog.map p n g (k.bind f)).run m = _
    rw [h1, ih]
    cases hk : k.run (remap m p n g) with
    | error x => rw [bind_error hk, bind_error (h2.trans hk)]
    | ok x => obtain ⟨b, m'⟩ := x; rw [bind_ok hk, bind_ok (h2.trans hk)]

@[thr] theorem run_bind (t : Prog F α) (f : α → Prog F β) : (t >>= f).run = (t.run >>= fun a => (f a).run) := run_bind' t f

theorem run_bind_eq {t : Prog F α} {f : α → Prog F β} {p : Haxx.Prog F α} {g : α → Haxx.Prog F β}
    (h : t.run = p) (h2 : ∀ a, (f a).run = g a) : (t >>= f).run = p >>= g := by
  rw [run_bind, h]; congr 1; funext a; exact h2 a

@[thr] theorem run_pure (a : α) : (pure a : Prog F α).run = pure a := by funext m; rfl

@[thr] theorem run_ite (c : Prop) [Decidable c] (t u : Prog F α) : (if c then t else u).run = if c then t.run else u.run := by
  split <;> rfl

/-- As `Haxx.fault`. -/
def fault (e : Fault) : Prog F α := .fail e
@[thr] theorem run_fault (e : Fault) : (fault e : Prog F α).run = Haxx.fault e := by funext m; rfl

/-- As `Haxx.rd`. -/
def rd (a : Int) : Prog F F := .rd a .ret
@[thr] theorem run_rd (a : Int) : (rd a : Prog F F).run = Haxx.rd a := by
  funext m; unfold rd Haxx.rd Prog.run; cases m a <;> rfl

/-- As `Haxx.wr`. -/
def wr (a : Int) (v : F) : Prog F Unit := .wr a v (.ret ())
@[thr] theorem run_wr (a : Int) (v : F) : (wr a v).run = Haxx.wr a v := by
  funext m; unfold wr Haxx.wr Prog.run; cases m a <;> rfl

/-- As `Haxx.loadQ`. -/
def loadQ (p : Int) : Prog F (Quat F) := do
  let a ← rd p
  let b ← rd (p+1)
  let c ← rd (p+2)
  let d ← rd (p+3)
  pure ⟨a, b, c, d⟩
@[thr] theorem run_loadQ (p : Int) : (loadQ p : Prog F (Quat F)).run = Haxx.loadQ p := by
  simp only [loadQ, Haxx.loadQ, thr]

/-- As `Haxx.storeQ`. -/
def storeQ (p : Int) (q : Quat F) : Prog F Unit := do
  wr p q.re
  wr (p+1) q.i
  wr (p+2) q.j
  wr (p+3) q.k
@[thr] theorem run_storeQ (p : Int) (q : Quat F) : (storeQ p q).run = Haxx.storeQ p q := by
  simp only [storeQ, Haxx.storeQ, thr]

/-- As `Haxx.loadA`. -/
def loadA (p : Int) : Prog F (Quat F) :=
  if aligned32 p then loadQ p else fault (.misaligned p)
@[thr] theorem run_loadA (p : Int) : (loadA p : Prog F (Quat F)).run = Haxx.loadA p := by
  simp only [loadA, Haxx.loadA, thr]

/-- As `Haxx.storeA`. -/
def storeA (p : Int) (q : Quat F) : Prog F Unit :=
  if aligned32 p then storeQ p q else fault (.misaligned p)
@[thr] theorem run_storeA (p : Int) (q : Quat F) : (storeA p q).run = Haxx.storeA p q := by
  simp only [storeA, Haxx.storeA, thr]

/-- As `Haxx.assertP`. -/
def assertP (b : Bool) : Prog F Unit := if b then pure () else fault .assertFail
@[thr] theorem run_assertP (b : Bool) : (assertP b : Prog F Unit).run = Haxx.assertP b := by
  simp only [assertP, Haxx.assertP, thr]

/-- As `Haxx.i32`. -/
def i32 (x : Int) : Prog F Int :=
  if -2147483648 ≤ x ∧ x ≤ 2147483647 then pure x else fault .overflow
@[thr] theorem run_i32 (x : Int) : (i32 x : Prog F Int).run = Haxx.i32 x := by
  simp only [i32, Haxx.i32, thr]

/-- As `Haxx.foldN`. -/
def foldN : (n : Nat) → (Nat → σ → Prog F σ) → σ → Prog F σ
  | 0, _, s => pure s
  | n+1, f, s => do
    let s' ← foldN n f s
    f n s'
@[thr] theorem run_foldN (n : Nat) (f : Nat → σ → Prog F σ) (s : σ) :
    (foldN n f s).run = Haxx.foldN n (fun i s => (f i s).run) s := by
  induction n with
  | zero => rfl
  | succ n ih => unfold foldN Haxx.foldN; rw [run_bind, ih]

/-- As `Haxx.forN`. -/
def forN (n : Nat) (f : Nat → Prog F Unit) : Prog F Unit := foldN n (fun i _ => f i) ()
@[thr] theorem run_forN (n : Nat) (f : Nat → Prog F Unit) : (forN n f).run = Haxx.forN n (fun i => (f i).run) := by
  simp only [forN, Haxx.forN, thr]

/-- As `Haxx.allocQ`: the block becomes accessible, with arbitrary contents. -/
def allocQ (p n : Int) (junk : Int → F) : Prog F Unit := .map p (4 * n) (fun a => some (junk a)) (.ret ())
@[thr] theorem run_allocQ (p n : Int) (junk : Int → F) : (allocQ p n junk).run = Haxx.allocQ p n junk := by funext m; rfl

/-- As `Haxx.freeQ`. -/
def freeQ (p n : Int) : Prog F Unit := .map p (4 * n) (fun _ => none) (.ret ())
@[thr] theorem run_freeQ (p n : Int) : (freeQ p n : Prog F Unit).run = Haxx.freeQ p n := by funext m; rfl

end Haxx.Thr
