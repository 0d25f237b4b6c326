import Verif.SpecProgram
import Verif.PropsCross

/-!
# C54: a program of library calls computes what the mathematics says
-/

set_option linter.unusedSectionVars false

namespace Haxx
open Quaternion Finset

/-! ## A library, and programs for it -/

/-- The entry points of one build of the library, for quaternion operands. -/
structure Lib (R : Type) where
  copyv : Int → Int → Int → Int → Int → Prog R Unit
  swapv : Int → Int → Int → Int → Int → Prog R Unit
  scalv : Char → Int → Scal R → Int → Int → Prog R Unit
  axpyv : Char → Int → Scal R → Int → Int → Int → Int → Prog R Unit
  dot : Bool → Int → Int → Int → Int → Int → Prog R (Quat R)
  scalm : Char → Char → Int → Int → Scal R → Int → Int → Int → Prog R Unit
  axpym : Char → Char → Int → Int → Scal R → Int → Int → Int → Int → Int → Int → Prog R Unit
  gemv : Char → Int → Int → Scal R → Int → Int → Int → Int → Scal R → Int → Int → Prog R Unit
  ger : Bool → Int → Int → Scal R → Int → Int → Int → Int → Int → Int → Prog R Unit
  gemm : Char → Char → Int → Int → Int → Scal R → Int → Int → Int → Int → Scal R → Int → Int → Prog R Unit

def Side.char : Side → Char | .left => 'L' | .right => 'R'
def Op.char : Op → Char | .none => 'N' | .trans => 'T' | .conjTrans => 'C'

section
variable {ι R : Type}

/-- Address of entry `(i, j)`. -/
def Layout.addr (L : Layout ι) (v : ι) (i j : Nat) : Int := L.base v + 4 * ((i:Int) + j * L.ld v)
/-- Address of the first element of a line, its increment, the address of a block. -/
def Layout.linePtr (L : Layout ι) (x : Line ι) : Int := L.addr x.v x.r x.c
@[inherit_doc Layout.linePtr]
def Layout.lineInc (L : Layout ι) (x : Line ι) : Int := x.dr + x.dc * L.ld x.v
@[inherit_doc Layout.linePtr]
def Layout.blockPtr (L : Layout ι) (b : Block ι) : Int := L.addr b.v b.r b.c

/-- The call a user writes. -/
def Cmd.exec (L : Layout ι) (l : Lib R) : Cmd ι R → Prog R (List (Quat R))
  | .copy x y => do l.copyv x.n (L.linePtr x) (L.lineInc x) (L.linePtr y) (L.lineInc y); pure []
  | .swap x y => do l.swapv x.n (L.linePtr x) (L.lineInc x) (L.linePtr y) (L.lineInc y); pure []
  | .scal s a x => do l.scalv s.char x.n a (L.linePtr x) (L.lineInc x); pure []
  | .axpy s a x y => do l.axpyv s.char x.n a (L.linePtr x) (L.lineInc x) (L.linePtr y) (L.lineInc y); pure []
  | .dot cj x y => do
      let r ← l.dot cj x.n (L.linePtr x) (L.lineInc x) (L.linePtr y) (L.lineInc y)
      pure [r]
  | .scalm s a A => do l.scalm s.char 'N' A.m A.n a (L.blockPtr A) (L.ld A.v) 1; pure []
  | .axpym s a A B => do
      l.axpym s.char 'N' A.m A.n a (L.blockPtr A) (L.ld A.v) 1 (L.blockPtr B) (L.ld B.v) 1
      pure []
  | .gemv t a A x b y => do
      l.gemv t.char A.m A.n a (L.blockPtr A) (L.ld A.v) (L.linePtr x) (L.lineInc x) b (L.linePtr y) (L.lineInc y)
      pure []
  | .ger cj a x y A => do
      l.ger cj A.m A.n a (L.linePtr x) (L.lineInc x) (L.linePtr y) (L.lineInc y) (L.blockPtr A) (L.ld A.v)
      pure []
  | .gemm tA tB a A B b C => do
      l.gemm tA.char tB.char C.m C.n (tA.cols A) a (L.blockPtr A) (L.ld A.v) (L.blockPtr B) (L.ld B.v) b
        (L.blockPtr C) (L.ld C.v)
      pure []

/-- Run the calls in order, collecting the returned values. -/
def execAll (L : Layout ι) (l : Lib R) : List (Cmd ι R) → Prog R (List (Quat R))
  | [] => pure []
  | c :: cs => do
      let r ← c.exec L l
      let rs ← execAll L l cs
      pure (r ++ rs)
end

/-! ## What a build must get right, call by call -/

section
variable {R : Type} [CommRing R]

/-- Calls the build supports: all but the ones its known defects spoil. -/
structure Quirks (R : Type) [CommRing R] where
  scal : Scal R → Prop
  axpy : Scal R → Prop
  axpym : Scal R → Prop
  gemv : Op → Nat → Nat → Scal R → Scal R → Int → Int → Prop
  ger : Scal R → Int → Nat → (Nat → ℍ[R]) → Prop
  gemm : Op → Op → Nat → Nat → Nat → Scal R → Scal R → Int → Int → Int → Prop

/-- The operand vector and its length fit the index type. -/
def Fit (n : Nat) (INC : Int) : Prop := 0 < INC ∧ Fits32 (n * INC) ∧ Fits32 (4 * INC)

variable (q : Quirks R) (Inv : Mem R → Prop) (l : Lib R)

/-- Each call does what its own documentation says, in every memory with the accessible cells `Inv` talks
about. -/
structure Lawful : Prop where
  inv : ∀ m m', Inv m → (∀ a, (m' a).isSome = (m a).isSome) → Inv m'
  copyv : ∀ m (n : Nat) X INCX Y INCY x y, Fit n INCX → Fit n INCY → VecAt m X INCX n x → VecAt m Y INCY n y →
    Apart (VecCell X INCX n) (VecCell Y INCY n) →
    ∃ m', l.copyv n X INCX Y INCY m = .ok ((), m') ∧ VecAt m' Y INCY n x ∧ SameOutside (VecCell Y INCY n) m m'
  swapv : ∀ m (n : Nat) X INCX Y INCY x y, Fit n INCX → Fit n INCY → VecAt m X INCX n x → VecAt m Y INCY n y →
    Apart (VecCell X INCX n) (VecCell Y INCY n) →
    ∃ m', l.swapv n X INCX Y INCY m = .ok ((), m') ∧ VecAt m' X INCX n y ∧ VecAt m' Y INCY n x ∧
      SameOutside (fun a => VecCell X INCX n a ∨ VecCell Y INCY n a) m m'
  scalv : ∀ m (s : Side) (n : Nat) a X INCX x, Fit n INCX → q.scal a → VecAt m X INCX n x →
    ∃ m', l.scalv s.char n a X INCX m = .ok ((), m') ∧
      VecAt m' X INCX n (fun i => Quat.ofH (s.mul a.toH (x i).toH)) ∧ SameOutside (VecCell X INCX n) m m'
  axpyv : ∀ m (s : Side) (n : Nat) a X INCX Y INCY x y, Fit n INCX → Fit n INCY → q.axpy a →
    VecAt m X INCX n x → VecAt m Y INCY n y → Apart (VecCell X INCX n) (VecCell Y INCY n) →
    ∃ m', l.axpyv s.char n a X INCX Y INCY m = .ok ((), m') ∧
      VecAt m' Y INCY n (fun i => Quat.ofH ((y i).toH + s.mul a.toH (x i).toH)) ∧
      SameOutside (VecCell Y INCY n) m m'
  dot : ∀ m (cj : Bool) (n : Nat) X INCX Y INCY x y, Fit n INCX → Fit n INCY →
    VecAt m X INCX n x → VecAt m Y INCY n y →
    l.dot cj n X INCX Y INCY m = .ok (Quat.ofH (∑ k ∈ range n, (if cj then star (x k).toH else (x k).toH) * (y k).toH), m)
  scalm : ∀ m (s : Side) (M N : Nat) a A LDA Av, (M:Int) ≤ LDA → Fits32 (4 * LDA) → q.scal a → MatAt m A LDA M N Av →
    ∃ m', l.scalm s.char 'N' M N a A LDA 1 m = .ok ((), m') ∧
      MatAt m' A LDA M N (fun i j => Quat.ofH (s.mul a.toH (Av i j).toH)) ∧ SameOutside (MatCell A LDA M N) m m'
  axpym : ∀ m (s : Side) (M N : Nat) a A LDA B LDB Av Bv, (M:Int) ≤ LDA → (M:Int) ≤ LDB → Fits32 (4 * LDA) →
    Fits32 (4 * LDB) → q.axpym a → MatAt m A LDA M N Av → MatAt m B LDB M N Bv →
    Apart (MatCell A LDA M N) (MatCell B LDB M N) →
    ∃ m', l.axpym s.char 'N' M N a A LDA 1 B LDB 1 m = .ok ((), m') ∧
      MatAt m' B LDB M N (fun i j => Quat.ofH ((Bv i j).toH + s.mul a.toH (Av i j).toH)) ∧
      SameOutside (MatCell B LDB M N) m m'
  gemv : ∀ m (t : Op) (M N nx ny : Nat) a b A LDA X INCX Y INCY Av x y, 0 < M → 0 < N →
    nx = (if t = .none then N else M) → ny = (if t = .none then M else N) →
    (∀ j : Nat, j ≤ N → Fits32 (j * LDA)) → (M:Int) ≤ LDA → Fits32 (N * LDA) → Fit nx INCX → Fit ny INCY →
    q.gemv t M N a b INCX INCY →
    MatAt m A LDA M N Av → VecAt m X INCX nx x → VecAt m Y INCY ny y → Apart (MatCell A LDA M N) (VecCell Y INCY ny) →
    Apart (VecCell X INCX nx) (VecCell Y INCY ny) →
    ∃ m', l.gemv t.char M N a A LDA X INCX b Y INCY m = .ok ((), m') ∧
      VecAt m' Y INCY ny (fun i => Quat.ofH (a.toH * (∑ k ∈ range nx, t.app (fun i j => (Av i j).toH) i k * (x k).toH) +
        b.toH * (y i).toH)) ∧ SameOutside (VecCell Y INCY ny) m m'
  ger : ∀ m (cj : Bool) (M N : Nat) a X INCX Y INCY A LDA x y Av, Fit M INCX → Fit N INCY → (M:Int) ≤ LDA →
    Fits32 (N * LDA) → q.ger a INCX N (fun j => (y j).toH) →
    MatAt m A LDA M N Av → VecAt m X INCX M x → VecAt m Y INCY N y → Apart (VecCell X INCX M) (MatCell A LDA M N) →
    Apart (VecCell Y INCY N) (MatCell A LDA M N) →
    ∃ m', l.ger cj M N a X INCX Y INCY A LDA m = .ok ((), m') ∧
      MatAt m' A LDA M N (fun i j => Quat.ofH ((Av i j).toH +
        a.toH * (x i).toH * (if cj then star (y j).toH else (y j).toH))) ∧ SameOutside (MatCell A LDA M N) m m'
  gemm : ∀ m (tA tB : Op) (M N K rA cA rB cB : Nat) a b A LDA B LDB C LDC Av Bv Cv,
    rA = (if tA = .none then M else K) → cA = (if tA = .none then K else M) →
    rB = (if tB = .none then K else N) → cB = (if tB = .none then N else K) →
    (rA:Int) ≤ LDA → (rB:Int) ≤ LDB → (M:Int) ≤ LDC → Fits32 (cA * LDA) → Fits32 (cB * LDB) → Fits32 (N * LDC) →
    Fits32 (4 * LDC) → 4 * (M:Int) ≤ 2147483647 → 4 * (N:Int) ≤ 2147483647 → 4 * (K:Int) ≤ 2147483647 →
    q.gemm tA tB M N K a b LDA LDB LDC → Inv m →
    MatAt m A LDA rA cA Av → MatAt m B LDB rB cB Bv → MatAt m C LDC M N Cv →
    Apart (MatCell A LDA rA cA) (MatCell C LDC M N) → Apart (MatCell B LDB rB cB) (MatCell C LDC M N) →
    ∃ m', l.gemm tA.char tB.char M N K a A LDA B LDB b C LDC m = .ok ((), m') ∧
      MatAt m' C LDC M N (fun i j => Quat.ofH (a.toH * (∑ k ∈ range K, tA.app (fun i j => (Av i j).toH) i k *
        tB.app (fun i j => (Bv i j).toH) k j) + b.toH * (Cv i j).toH)) ∧ SameOutside (MatCell C LDC M N) m m'

/-- The call is one the build supports, in the state it is made in. -/
def Cmd.Sup {ι : Type} (L : Layout ι) (s : State ι R) : Cmd ι R → Prop
  | .scal _ a _ => q.scal a
  | .axpy _ a _ _ => q.axpy a
  | .scalm _ a _ => q.scal a
  | .axpym _ a _ _ => q.axpym a
  | .gemv t a A x b y => q.gemv t A.m A.n a b (L.lineInc x) (L.lineInc y)
  | .ger _ a x y A => q.ger a (L.lineInc x) A.n (y.val s)
  | .gemm tA tB a A B b C => q.gemm tA tB C.m C.n (tA.cols A) a b (L.ld A.v) (L.ld B.v) (L.ld C.v)
  | _ => True

/-- All calls make sense and are supported, each in the state it is made in. -/
def Program {ι : Type} [DecidableEq ι] (L : Layout ι) : List (Cmd ι R) → State ι R → Prop
  | [], _ => True
  | c :: cs, s => c.Typed L ∧ c.Sup q L s ∧ Program L cs (c.next s)

end

/-! ## Layout lemmas -/

section
variable {ι R : Type} [CommRing R] {L : Layout ι}

theorem Layout.line_addr (x : Line ι) (k : Nat) :
    L.linePtr x + 4 * ((k:Int) * L.lineInc x) = L.addr x.v (x.r + k * x.dr) (x.c + k * x.dc) := by
  unfold Layout.linePtr Layout.lineInc Layout.addr
  push_cast; ring

theorem Layout.block_addr (b : Block ι) (i j : Nat) :
    L.blockPtr b + 4 * ((i:Int) + j * L.ld b.v) = L.addr b.v (b.r + i) (b.c + j) := by
  unfold Layout.blockPtr Layout.addr
  push_cast; ring

theorem Layout.Ok.disj (h : L.Ok) {v w : ι} {i j i' j' : Nat} (hi : i < L.rows v) (hj : j < L.cols v)
    (hi' : i' < L.rows w) (hj' : j' < L.cols w) (hne : ¬ (v = w ∧ i = i' ∧ j = j')) {a : Int}
    (ha : InQ (L.addr v i j) a) : ¬ InQ (L.addr w i' j') a := by
  intro hb
  by_cases hv : v = w
  · subst hv
    have := mat_disj (x := L.base v) (h.ld v).2 hi hi' (j := j) (j' := j') (fun e => hne ⟨rfl, e⟩)
    unfold Layout.addr InQ at *
    unfold QDisj at this
    omega
  · exact h.apart v w hv a ⟨i, j, hi, hj, ha⟩ ⟨i', j', hi', hj', hb⟩

theorem Layout.Holds.read {m : Mem R} {s : State ι R} (h : L.Holds m s) {v : ι} {i j : Nat} (hi : i < L.rows v)
    (hj : j < L.cols v) : readQ m (L.addr v i j) = some (Quat.ofH (s v i j)) := h v i j hi hj

theorem Layout.Holds.line {m : Mem R} {s : State ι R} (h : L.Holds m s) {x : Line ι} (hx : L.LineIn x) :
    VecAt m (L.linePtr x) (L.lineInc x) x.n (fun k => Quat.ofH (x.val s k)) := by
  intro k hk
  rw [Layout.line_addr]
  exact h.read (hx.mem k hk).1 (hx.mem k hk).2

theorem Layout.Holds.block {m : Mem R} {s : State ι R} (h : L.Holds m s) {b : Block ι} (hb : L.BlockIn b) :
    MatAt m (L.blockPtr b) (L.ld b.v) b.m b.n (fun i j => Quat.ofH (b.val s i j)) := by
  intro i j hi hj
  rw [Layout.block_addr]
  have := hb.rows
  have := hb.cols
  exact h.read (by omega) (by omega)

/-- A cell of a line belongs to an entry on the line. -/
theorem Layout.line_cell {x : Line ι} (hx : L.LineIn x) {a : Int} (h : VecCell (L.linePtr x) (L.lineInc x) x.n a) :
    ∃ i j, x.Mem x.v i j ∧ i < L.rows x.v ∧ j < L.cols x.v ∧ InQ (L.addr x.v i j) a := by
  obtain ⟨k, hk, ha⟩ := h
  rw [Layout.line_addr] at ha
  exact ⟨_, _, ⟨k, hk, rfl, rfl, rfl⟩, (hx.mem k hk).1, (hx.mem k hk).2, ha⟩

theorem Layout.block_cell {b : Block ι} (hb : L.BlockIn b) {a : Int}
    (h : MatCell (L.blockPtr b) (L.ld b.v) b.m b.n a) :
    ∃ i j, b.Mem b.v i j ∧ i < L.rows b.v ∧ j < L.cols b.v ∧ InQ (L.addr b.v i j) a := by
  obtain ⟨i, j, hi, hj, ha⟩ := h
  rw [Layout.block_addr] at ha
  have := hb.rows
  have := hb.cols
  exact ⟨_, _, ⟨rfl, by omega, by omega, by omega, by omega⟩, by omega, by omega, ha⟩

theorem Layout.Ok.lineLine (h : L.Ok) {x y : Line ι} (hx : L.LineIn x) (hy : L.LineIn y) (hd : LineLine x y) :
    Apart (VecCell (L.linePtr x) (L.lineInc x) x.n) (VecCell (L.linePtr y) (L.lineInc y) y.n) := by
  intro a ha hb
  obtain ⟨i, j, h1, h2, h3, h4⟩ := Layout.line_cell hx ha
  obtain ⟨i', j', g1, g2, g3, g4⟩ := Layout.line_cell hy hb
  refine h.disj h2 h3 g2 g3 ?_ h4 g4
  rintro ⟨e1, rfl, rfl⟩
  refine hd _ _ _ h1 ?_
  rw [e1]; exact g1

theorem Layout.Ok.lineBlock (h : L.Ok) {x : Line ι} {b : Block ι} (hx : L.LineIn x) (hy : L.BlockIn b)
    (hd : LineBlock x b) :
    Apart (VecCell (L.linePtr x) (L.lineInc x) x.n) (MatCell (L.blockPtr b) (L.ld b.v) b.m b.n) := by
  intro a ha hb
  obtain ⟨i, j, h1, h2, h3, h4⟩ := Layout.line_cell hx ha
  obtain ⟨i', j', g1, g2, g3, g4⟩ := Layout.block_cell hy hb
  refine h.disj h2 h3 g2 g3 ?_ h4 g4
  rintro ⟨e1, rfl, rfl⟩
  refine hd _ _ _ h1 ?_
  rw [e1]; exact g1

theorem Layout.Ok.blockBlock (h : L.Ok) {x b : Block ι} (hx : L.BlockIn x) (hy : L.BlockIn b) (hd : BlockBlock x b) :
    Apart (MatCell (L.blockPtr x) (L.ld x.v) x.m x.n) (MatCell (L.blockPtr b) (L.ld b.v) b.m b.n) := by
  intro a ha hb
  obtain ⟨i, j, h1, h2, h3, h4⟩ := Layout.block_cell hx ha
  obtain ⟨i', j', g1, g2, g3, g4⟩ := Layout.block_cell hy hb
  refine h.disj h2 h3 g2 g3 ?_ h4 g4
  rintro ⟨e1, rfl, rfl⟩
  refine hd _ _ _ h1 ?_
  rw [e1]; exact g1

theorem Apart.symm {S T : Int → Prop} (h : Apart S T) : Apart T S := fun a ha hb => h a hb ha

variable [DecidableEq ι]

theorem State.setLine_at {s : State ι R} {x : Line ι} {f : Nat → ℍ[R]} {v : ι} {i j : Nat} :
    (∃ k, k < x.n ∧ x.At k v i j ∧ s.setLine x f v i j = f k) ∨ (¬ x.Mem v i j ∧ s.setLine x f v i j = s v i j) := by
  unfold State.setLine
  cases h : (List.range x.n).find? (fun k => decide (x.At k v i j)) with
  | some k =>
    left
    have h1 := List.mem_of_find?_eq_some h
    have h2 := List.find?_some h
    exact ⟨k, by simpa using h1, by simpa using h2, rfl⟩
  | none =>
    right
    rw [List.find?_eq_none] at h
    refine ⟨?_, rfl⟩
    rintro ⟨k, hk, hat⟩
    exact h k (by simpa using hk) (by simpa using hat)

theorem Layout.Ok.holds_line (h : L.Ok) {m m' : Mem R} {s : State ι R} {x : Line ι} (hx : L.LineIn x) {f : Nat → ℍ[R]}
    (hh : L.Holds m s) (hv : VecAt m' (L.linePtr x) (L.lineInc x) x.n (fun k => Quat.ofH (f k)))
    (ho : SameOutside (VecCell (L.linePtr x) (L.lineInc x) x.n) m m') : L.Holds m' (s.setLine x f) := by
  intro v i j hi hj
  rcases State.setLine_at (s := s) (x := x) (f := f) (v := v) (i := i) (j := j) with ⟨k, hk, ⟨e1, e2, e3⟩, e⟩ | ⟨hm, e⟩
  · have := hv k hk
    rw [Layout.line_addr] at this
    subst e1; subst e2; subst e3
    dsimp only; rw [e]; exact this
  · dsimp only; rw [e]
    refine Eq.trans (readQ_congr (fun a ha => ho a ?_)) (hh v i j hi hj)
    intro hc
    obtain ⟨i', j', g1, g2, g3, g4⟩ := Layout.line_cell hx hc
    refine h.disj hi hj g2 g3 ?_ ha g4
    rintro ⟨e1, rfl, rfl⟩
    exact hm (by rw [e1]; exact g1)

theorem Layout.Ok.holds_block (h : L.Ok) {m m' : Mem R} {s : State ι R} {x : Block ι} (hx : L.BlockIn x)
    {f : Nat → Nat → ℍ[R]}
    (hh : L.Holds m s) (hv : MatAt m' (L.blockPtr x) (L.ld x.v) x.m x.n (fun i j => Quat.ofH (f i j)))
    (ho : SameOutside (MatCell (L.blockPtr x) (L.ld x.v) x.m x.n) m m') : L.Holds m' (s.setBlock x f) := by
  intro v i j hi hj
  by_cases hm : x.Mem v i j
  · have e : s.setBlock x f v i j = f (i - x.r) (j - x.c) := if_pos hm
    obtain ⟨e1, h1, h2, h3, h4⟩ := hm
    have := hv (i - x.r) (j - x.c) (by omega) (by omega)
    rw [Layout.block_addr] at this
    have q1 : x.r + (i - x.r) = i := by omega
    have q2 : x.c + (j - x.c) = j := by omega
    rw [q1, q2] at this
    subst e1
    dsimp only; rw [e]; exact this
  · have e : s.setBlock x f v i j = s v i j := if_neg hm
    dsimp only; rw [e]
    refine Eq.trans (readQ_congr (fun a ha => ho a ?_)) (hh v i j hi hj)
    intro hc
    obtain ⟨i', j', g1, g2, g3, g4⟩ := Layout.block_cell hx hc
    refine h.disj hi hj g2 g3 ?_ ha g4
    rintro ⟨e1, rfl, rfl⟩
    exact hm (by rw [e1]; exact g1)

theorem Layout.Ok.holds_lines (h : L.Ok) {m m' : Mem R} {s : State ι R} {x y : Line ι} (hx : L.LineIn x)
    (hy : L.LineIn y) {f g : Nat → ℍ[R]} (hh : L.Holds m s)
    (hv : VecAt m' (L.linePtr x) (L.lineInc x) x.n (fun k => Quat.ofH (f k)))
    (hw : VecAt m' (L.linePtr y) (L.lineInc y) y.n (fun k => Quat.ofH (g k)))
    (ho : SameOutside (fun a => VecCell (L.linePtr x) (L.lineInc x) x.n a ∨ VecCell (L.linePtr y) (L.lineInc y) y.n a) m m') :
    L.Holds m' ((s.setLine x f).setLine y g) := by
  intro v i j hi hj
  dsimp only
  rcases State.setLine_at (s := s.setLine x f) (x := y) (f := g) (v := v) (i := i) (j := j) with ⟨k, hk, ⟨e1, e2, e3⟩, e⟩ | ⟨hm, e⟩
  · have := hw k hk
    rw [Layout.line_addr] at this
    subst e1; subst e2; subst e3
    rw [e]; exact this
  · rw [e]
    rcases State.setLine_at (s := s) (x := x) (f := f) (v := v) (i := i) (j := j) with ⟨k, hk, ⟨e1, e2, e3⟩, e'⟩ | ⟨hm', e'⟩
    · have := hv k hk
      rw [Layout.line_addr] at this
      subst e1; subst e2; subst e3
      rw [e']; exact this
    · rw [e']
      refine Eq.trans (readQ_congr (fun a ha => ho a ?_)) (hh v i j hi hj)
      rintro (hc | hc)
      · obtain ⟨i', j', g1, g2, g3, g4⟩ := Layout.line_cell hx hc
        refine h.disj hi hj g2 g3 ?_ ha g4
        rintro ⟨e1, rfl, rfl⟩
        exact hm' (by rw [e1]; exact g1)
      · obtain ⟨i', j', g1, g2, g3, g4⟩ := Layout.line_cell hy hc
        refine h.disj hi hj g2 g3 ?_ ha g4
        rintro ⟨e1, rfl, rfl⟩
        exact hm (by rw [e1]; exact g1)

/-- All the cells of all the matrices. -/
def Layout.All (L : Layout ι) (a : Int) : Prop := ∃ v, L.cells v a

theorem Layout.line_all {x : Line ι} (hx : L.LineIn x) {a : Int} (h : VecCell (L.linePtr x) (L.lineInc x) x.n a) :
    L.All a := by
  obtain ⟨i, j, _, h2, h3, h4⟩ := Layout.line_cell hx h
  exact ⟨x.v, i, j, h2, h3, h4⟩

theorem Layout.block_all {x : Block ι} (hx : L.BlockIn x) {a : Int}
    (h : MatCell (L.blockPtr x) (L.ld x.v) x.m x.n a) : L.All a := by
  obtain ⟨i, j, _, h2, h3, h4⟩ := Layout.block_cell hx h
  exact ⟨x.v, i, j, h2, h3, h4⟩

theorem Layout.Holds.acc {m m' : Mem R} {s s' : State ι R} (h : L.Holds m s) (h' : L.Holds m' s')
    (ho : SameOutside L.All m m') (a : Int) : (m' a).isSome = (m a).isSome := by
  by_cases ha : L.All a
  · obtain ⟨v, hv⟩ := ha
    rw [matCell_isSome (h v) hv, matCell_isSome (h' v) hv]
  · rw [ho a ha]

theorem Layout.Ok.fit (h : L.Ok) {x : Line ι} (hx : L.LineIn x) : Fit x.n (L.lineInc x) := by
  have h1 := (h.ld x.v).1
  have h2 := (h.ld x.v).2
  have h3 := h.small x.v
  have s1 := hx.step
  have s2 := hx.dr
  have s3 := hx.dc
  have hdc : (x.dc:Int) * L.ld x.v ≤ L.cols x.v * L.ld x.v := by
    apply mul_le_mul_of_nonneg_right <;> omega
  have hdc0 : (0:Int) ≤ (x.dc:Int) * L.ld x.v := by apply mul_nonneg <;> omega
  have hinc : 0 < L.lineInc x := by
    unfold Layout.lineInc
    rcases Nat.eq_zero_or_pos x.dc with e | e
    · omega
    · have : (1:Int) * 1 ≤ (x.dc:Int) * L.ld x.v := by apply mul_le_mul <;> omega
      omega
  have hle : L.lineInc x ≤ L.ld x.v * (L.cols x.v + 1) := by
    unfold Layout.lineInc
    have : L.ld x.v * (L.cols x.v + 1) = L.cols x.v * L.ld x.v + L.ld x.v := by ring
    omega
  refine ⟨hinc, ?_, ?_⟩
  · have hn : (x.n:Int) * L.lineInc x ≤ 2 * (L.ld x.v * (L.cols x.v + 1)) := by
      rcases Nat.lt_or_ge x.n 1 with e | e
      · have : x.n = 0 := by omega
        rw [this]; simp only [Nat.cast_zero, zero_mul]; omega
      · obtain ⟨q1, q2⟩ := hx.mem (x.n - 1) (by omega)
        have e1 : ((x.n - 1 : Nat):Int) * L.lineInc x ≤ L.ld x.v * (L.cols x.v + 1) := by
          unfold Layout.lineInc
          have a1 : ((x.n - 1 : Nat):Int) * x.dr ≤ L.ld x.v := by
            have : (x.n - 1) * x.dr ≤ L.rows x.v := by omega
            have : (((x.n - 1) * x.dr : Nat):Int) ≤ L.rows x.v := by exact_mod_cast this
            push_cast at this ⊢; omega
          have a2 : ((x.n - 1 : Nat):Int) * x.dc ≤ L.cols x.v := by
            have : (x.n - 1) * x.dc ≤ L.cols x.v := by omega
            have : (((x.n - 1) * x.dc : Nat):Int) ≤ L.cols x.v := by exact_mod_cast this
            push_cast at this ⊢; omega
          have a3 : ((x.n - 1 : Nat):Int) * x.dc * L.ld x.v ≤ L.cols x.v * L.ld x.v := by
            apply mul_le_mul_of_nonneg_right a2; omega
          have : L.ld x.v * (L.cols x.v + 1) = L.cols x.v * L.ld x.v + L.ld x.v := by ring
          have : ((x.n - 1 : Nat):Int) * (x.dr + x.dc * L.ld x.v) =
            ((x.n - 1 : Nat):Int) * x.dr + ((x.n - 1 : Nat):Int) * x.dc * L.ld x.v := by ring
          omega
        have e2 : (x.n:Int) * L.lineInc x = ((x.n - 1 : Nat):Int) * L.lineInc x + L.lineInc x := by
          have : (x.n:Int) = ((x.n - 1 : Nat):Int) + 1 := by omega
          rw [this]; ring_nf
        omega
    have : 0 ≤ (x.n:Int) * L.lineInc x := by apply mul_nonneg <;> omega
    unfold Fits32; omega
  · unfold Fits32; omega

theorem Layout.Ok.ld4 (h : L.Ok) (v : ι) : Fits32 (4 * L.ld v) := by
  have h1 := (h.ld v).1
  have h3 := h.small v
  have : L.ld v * 1 ≤ L.ld v * (L.cols v + 1) := by apply mul_le_mul_of_nonneg_left <;> omega
  unfold Fits32; omega

theorem Layout.Ok.col (h : L.Ok) {b : Block ι} (hb : L.BlockIn b) {j : Nat} (hj : j ≤ b.n) : Fits32 (j * L.ld b.v) := by
  have h1 := (h.ld b.v).1
  have h3 := h.small b.v
  have h4 := hb.cols
  have : (j:Int) * L.ld b.v ≤ (L.cols b.v + 1) * L.ld b.v := by
    apply mul_le_mul_of_nonneg_right <;> omega
  have e : ((L.cols b.v:Int) + 1) * L.ld b.v = L.ld b.v * (L.cols b.v + 1) := by ring
  have : 0 ≤ (j:Int) * L.ld b.v := by apply mul_nonneg <;> omega
  unfold Fits32; omega

theorem Layout.Ok.rowsLe (h : L.Ok) {b : Block ι} (hb : L.BlockIn b) : (b.m:Int) ≤ L.ld b.v := by
  have := (h.ld b.v).2
  have := hb.rows
  omega

theorem Layout.Ok.m4 (h : L.Ok) {b : Block ι} (hb : L.BlockIn b) : 4 * (b.m:Int) ≤ 2147483647 := by
  have := h.ld4 b.v
  have := h.rowsLe hb
  unfold Fits32 at *
  omega

theorem Layout.Ok.n4 (h : L.Ok) {b : Block ι} (hb : L.BlockIn b) : 4 * (b.n:Int) ≤ 2147483647 := by
  have h1 := (h.ld b.v).1
  have h3 := h.small b.v
  have h4 := hb.cols
  have : 1 * ((L.cols b.v:Int) + 1) ≤ L.ld b.v * (L.cols b.v + 1) := by
    apply mul_le_mul_of_nonneg_right <;> omega
  omega

end

/-! ## The theorem -/

section
variable {ι R : Type} [CommRing R] [DecidableEq ι] {L : Layout ι} {q : Quirks R} {Inv : Mem R → Prop} {l : Lib R}

/-- One call. -/
theorem Lawful.step (hl : Lawful q Inv l) (hL : L.Ok) (c : Cmd ι R) {m : Mem R} {s : State ι R} (hh : L.Holds m s)
    (hi : Inv m) (ht : c.Typed L) (hs : c.Sup q L s) :
    ∃ m', c.exec L l m = .ok ((c.ret s).map Quat.ofH, m') ∧ L.Holds m' (c.next s) ∧ SameOutside L.All m m' := by
  cases c with
  | copy x y =>
    obtain ⟨hx, hy, hn, hd⟩ := ht
    have vy := hh.line hy
    have ap := hL.lineLine hx hy hd
    have fy := hL.fit hy
    rw [← hn] at vy ap fy
    obtain ⟨m', h1, h2, h3⟩ := hl.copyv m x.n _ _ _ _ _ _ (hL.fit hx) fy (hh.line hx) vy ap
    rw [hn] at h2 h3
    exact ⟨m', bind_ok h1, hL.holds_line hy hh h2 h3, fun a ha => h3 a (fun hc => ha (Layout.line_all hy hc))⟩
  | swap x y =>
    obtain ⟨hx, hy, hn, hd⟩ := ht
    have vy := hh.line hy
    have ap := hL.lineLine hx hy hd
    have fy := hL.fit hy
    rw [← hn] at vy ap fy
    obtain ⟨m', h1, h2, h4, h3⟩ := hl.swapv m x.n _ _ _ _ _ _ (hL.fit hx) fy (hh.line hx) vy ap
    rw [hn] at h4
    refine ⟨m', bind_ok h1, hL.holds_lines hx hy hh h2 h4 (by rw [← hn]; exact h3), ?_⟩
    intro a ha
    refine h3 a ?_
    rintro (hc | hc)
    · exact ha (Layout.line_all hx hc)
    · rw [hn] at hc; exact ha (Layout.line_all hy hc)
  | scal d a x =>
    obtain ⟨m', h1, h2, h3⟩ := hl.scalv m d x.n a _ _ _ (hL.fit ht) hs (hh.line ht)
    exact ⟨m', bind_ok h1, hL.holds_line ht hh h2 h3, fun a ha => h3 a (fun hc => ha (Layout.line_all ht hc))⟩
  | axpy d a x y =>
    obtain ⟨hx, hy, hn, hd⟩ := ht
    have vy := hh.line hy
    have ap := hL.lineLine hx hy hd
    have fy := hL.fit hy
    rw [← hn] at vy ap fy
    obtain ⟨m', h1, h2, h3⟩ := hl.axpyv m d x.n a _ _ _ _ _ _ (hL.fit hx) fy hs (hh.line hx) vy ap
    rw [hn] at h2 h3
    exact ⟨m', bind_ok h1, hL.holds_line hy hh h2 h3, fun a ha => h3 a (fun hc => ha (Layout.line_all hy hc))⟩
  | dot cj x y =>
    obtain ⟨hx, hy, hn⟩ := ht
    have vy := hh.line hy
    have fy := hL.fit hy
    rw [← hn] at vy fy
    have h1 := hl.dot m cj x.n _ _ _ _ _ _ (hL.fit hx) fy (hh.line hx) vy
    exact ⟨m, bind_ok h1, hh, fun _ _ => rfl⟩
  | scalm d a A =>
    obtain ⟨m', h1, h2, h3⟩ := hl.scalm m d A.m A.n a _ _ _ (hL.rowsLe ht) (hL.ld4 _) hs (hh.block ht)
    exact ⟨m', bind_ok h1, hL.holds_block ht hh h2 h3, fun a ha => h3 a (fun hc => ha (Layout.block_all ht hc))⟩
  | axpym d a A B =>
    obtain ⟨hA, hB, hm, hn, hd⟩ := ht
    have vB := hh.block hB
    have ap := hL.blockBlock hA hB hd
    have lB := hL.rowsLe hB
    rw [← hm, ← hn] at vB ap
    rw [← hm] at lB
    obtain ⟨m', h1, h2, h3⟩ := hl.axpym m d A.m A.n a _ _ _ _ _ _ (hL.rowsLe hA) lB (hL.ld4 _) (hL.ld4 _) hs
      (hh.block hA) vB ap
    rw [hm, hn] at h2 h3
    exact ⟨m', bind_ok h1, hL.holds_block hB hh h2 h3, fun a ha => h3 a (fun hc => ha (Layout.block_all hB hc))⟩
  | gemv t a A x b y =>
    obtain ⟨hA, hx, hy, h0m, h0n, hnx, hny, hyA, hxy⟩ := ht
    obtain ⟨m', h1, h2, h3⟩ := hl.gemv m t A.m A.n x.n y.n a b _ _ _ _ _ _ _ _ _ h0m h0n
      (by rw [hnx]; cases t <;> rfl) (by rw [hny]; cases t <;> rfl) (fun j hj => hL.col hA hj) (hL.rowsLe hA)
      (hL.col hA le_rfl) (hL.fit hx) (hL.fit hy) hs (hh.block hA) (hh.line hx) (hh.line hy)
      (hL.lineBlock hy hA hyA).symm (hL.lineLine hx hy hxy)
    rw [hnx] at h2
    exact ⟨m', bind_ok h1, hL.holds_line hy hh h2 h3, fun a ha => h3 a (fun hc => ha (Layout.line_all hy hc))⟩
  | ger cj a x y A =>
    obtain ⟨hx, hy, hA, hnx, hny, hxA, hyA⟩ := ht
    have vx := hh.line hx
    have vy := hh.line hy
    have fx := hL.fit hx
    have fy := hL.fit hy
    have ax := hL.lineBlock hx hA hxA
    have ay := hL.lineBlock hy hA hyA
    rw [hnx] at vx fx ax
    rw [hny] at vy fy ay
    obtain ⟨m', h1, h2, h3⟩ := hl.ger m cj A.m A.n a _ _ _ _ _ _ _ (fun k => Quat.ofH (y.val s k)) _ fx fy (hL.rowsLe hA) (hL.col hA le_rfl) hs
      (hh.block hA) vx vy ax ay
    exact ⟨m', bind_ok h1, hL.holds_block hA hh h2 h3, fun a ha => h3 a (fun hc => ha (Layout.block_all hA hc))⟩
  | gemm tA tB a A B b C =>
    obtain ⟨hA, hB, hC, eM, eN, eK, dA, dB⟩ := ht
    obtain ⟨m', h1, h2, h3⟩ := hl.gemm m tA tB C.m C.n (tA.cols A) A.m A.n B.m B.n a b _ _ _ _ _ _ _ _ _
      (by rw [← eM]; cases tA <;> rfl) (by rw [← eM]; cases tA <;> rfl)
      (by rw [eK, ← eN]; cases tB <;> rfl) (by rw [eK, ← eN]; cases tB <;> rfl)
      (hL.rowsLe hA) (hL.rowsLe hB) (hL.rowsLe hC) (hL.col hA le_rfl) (hL.col hB le_rfl) (hL.col hC le_rfl)
      (hL.ld4 _) (hL.m4 hC) (hL.n4 hC) (by cases tA <;> [exact hL.n4 hA; exact hL.m4 hA; exact hL.m4 hA])
      hs hi (hh.block hA) (hh.block hB) (hh.block hC) (hL.blockBlock hA hC dA) (hL.blockBlock hB hC dB)
    exact ⟨m', bind_ok h1, hL.holds_block hC hh h2 h3, fun a ha => h3 a (fun hc => ha (Layout.block_all hC hc))⟩

/-- C54, for any build that gets single calls right: after any list of calls memory holds the values the
mathematics gives, the returned values are the mathematical ones, nothing else in memory has changed, and no
call faults. -/
theorem Lawful.run (hl : Lawful q Inv l) (hL : L.Ok) (cs : List (Cmd ι R)) {m : Mem R} {s : State ι R}
    (hh : L.Holds m s) (hi : Inv m) (hp : Program q L cs s) :
    ∃ m', execAll L l cs m = .ok ((runSpec cs s).2.map Quat.ofH, m') ∧ L.Holds m' (runSpec cs s).1 ∧
      SameOutside L.All m m' := by
  induction cs generalizing m s with
  | nil => exact ⟨m, rfl, hh, fun _ _ => rfl⟩
  | cons c cs ih =>
    obtain ⟨ht, hs, hp⟩ := hp
    obtain ⟨m1, h1, h2, h3⟩ := hl.step hL c hh hi ht hs
    obtain ⟨m', g1, g2, g3⟩ := ih h2 (hl.inv m m1 hi (hh.acc h2 h3)) hp
    refine ⟨m', ?_, g2, fun a ha => (g3 a ha).trans (h3 a ha)⟩
    unfold execAll
    rw [bind_ok h1, bind_ok g1]
    simp [runSpec, pure, Pure.pure]

end
end Haxx
