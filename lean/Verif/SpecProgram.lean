import Verif.Spec
import Mathlib.Algebra.BigOperators.Ring.Finset

/-!
# Programs of BLAS calls, as mathematics

Named matrices of quaternions, calls on parts of them (blocks; lines such as rows, columns, diagonals and strided
pieces of those), and what each call does to the matrices.  No memory, no code of the library.
-/

namespace Haxx
open Quaternion

variable {ι R : Type}

/-- The entries `(r + k*dr, c + k*dc)`, `k < n`, of matrix `v`: a row for `dr = 0`, a column for `dc = 0`. -/
structure Line (ι : Type) where
  v : ι
  r : Nat
  c : Nat
  dr : Nat
  dc : Nat
  n : Nat

/-- The `m × n` block of matrix `v` with top left entry `(r, c)`. -/
structure Block (ι : Type) where
  v : ι
  r : Nat
  c : Nat
  m : Nat
  n : Nat

/-- Entry `(i, j)` of matrix `v` is element `k` of the line. -/
def Line.At (x : Line ι) (k : Nat) (v : ι) (i j : Nat) : Prop := v = x.v ∧ i = x.r + k * x.dr ∧ j = x.c + k * x.dc
/-- Entry `(i, j)` of matrix `v` is on the line. -/
def Line.Mem (x : Line ι) (v : ι) (i j : Nat) : Prop := ∃ k, k < x.n ∧ x.At k v i j
/-- Entry `(i, j)` of matrix `v` is in the block. -/
def Block.Mem (b : Block ι) (v : ι) (i j : Nat) : Prop :=
  v = b.v ∧ b.r ≤ i ∧ i < b.r + b.m ∧ b.c ≤ j ∧ j < b.c + b.n

instance [DecidableEq ι] (x : Line ι) (k : Nat) (v : ι) (i j : Nat) : Decidable (x.At k v i j) := by
  unfold Line.At; infer_instance
instance [DecidableEq ι] (b : Block ι) (v : ι) (i j : Nat) : Decidable (b.Mem v i j) := by
  unfold Block.Mem; infer_instance

/-- The values of all matrices. -/
abbrev State (ι R : Type) [CommRing R] := ι → Nat → Nat → ℍ[R]

section
variable [CommRing R]

/-- The elements of a line. -/
def Line.val (x : Line ι) (s : State ι R) (k : Nat) : ℍ[R] := s x.v (x.r + k * x.dr) (x.c + k * x.dc)
/-- The entries of a block. -/
def Block.val (b : Block ι) (s : State ι R) (i j : Nat) : ℍ[R] := s b.v (b.r + i) (b.c + j)

/-- Assign `f 0, f 1, …` to the elements of a line. -/
def State.setLine [DecidableEq ι] (s : State ι R) (x : Line ι) (f : Nat → ℍ[R]) : State ι R := fun v i j =>
  match (List.range x.n).find? (fun k => decide (x.At k v i j)) with
  | some k => f k
  | none => s v i j

/-- Assign `f i j` to the entries of a block. -/
def State.setBlock [DecidableEq ι] (s : State ι R) (b : Block ι) (f : Nat → Nat → ℍ[R]) : State ι R := fun v i j =>
  if b.Mem v i j then f (i - b.r) (j - b.c) else s v i j

inductive Side | left | right
inductive Op | none | trans | conjTrans
deriving DecidableEq

/-- `a q` or `q a`. -/
def Side.mul : Side → ℍ[R] → ℍ[R] → ℍ[R]
  | .left, a, q => a * q
  | .right, a, q => q * a

/-- `op(A)(i,k)`. -/
def Op.app : Op → (Nat → Nat → ℍ[R]) → Nat → Nat → ℍ[R]
  | .none, A, i, k => A i k
  | .trans, A, i, k => A k i
  | .conjTrans, A, i, k => star (A k i)

end

/-- A call of the library. -/
inductive Cmd (ι R : Type)
  | copy (x y : Line ι)
  | swap (x y : Line ι)
  | scal (s : Side) (a : Scal R) (x : Line ι)
  | axpy (s : Side) (a : Scal R) (x y : Line ι)
  | dot (conj : Bool) (x y : Line ι)
  | scalm (s : Side) (a : Scal R) (A : Block ι)
  | axpym (s : Side) (a : Scal R) (A B : Block ι)
  | gemv (t : Op) (a : Scal R) (A : Block ι) (x : Line ι) (b : Scal R) (y : Line ι)
  | ger (conj : Bool) (a : Scal R) (x y : Line ι) (A : Block ι)
  | gemm (tA tB : Op) (a : Scal R) (A B : Block ι) (b : Scal R) (C : Block ι)

section
variable [CommRing R] [DecidableEq ι]

/-- The number of columns of `op(A)`. -/
def Op.cols (t : Op) (A : Block ι) : Nat := match t with | .none => A.n | _ => A.m
/-- The number of rows of `op(A)`. -/
def Op.rows (t : Op) (A : Block ι) : Nat := match t with | .none => A.m | _ => A.n

open Finset in
/-- What a call does to the matrices. -/
def Cmd.next (s : State ι R) : Cmd ι R → State ι R
  | .copy x y => s.setLine y (x.val s)
  | .swap x y => (s.setLine x (y.val s)).setLine y (x.val s)
  | .scal d a x => s.setLine x (fun k => d.mul a.toH (x.val s k))
  | .axpy d a x y => s.setLine y (fun k => y.val s k + d.mul a.toH (x.val s k))
  | .dot _ _ _ => s
  | .scalm d a A => s.setBlock A (fun i j => d.mul a.toH (A.val s i j))
  | .axpym d a A B => s.setBlock B (fun i j => B.val s i j + d.mul a.toH (A.val s i j))
  | .gemv t a A x b y => s.setLine y (fun i =>
      a.toH * (∑ k ∈ range (t.cols A), t.app (A.val s) i k * x.val s k) + b.toH * y.val s i)
  | .ger cj a x y A => s.setBlock A (fun i j =>
      A.val s i j + a.toH * x.val s i * (if cj then star (y.val s j) else y.val s j))
  | .gemm tA tB a A B b C => s.setBlock C (fun i j =>
      a.toH * (∑ k ∈ range (tA.cols A), tA.app (A.val s) i k * tB.app (B.val s) k j) + b.toH * C.val s i j)

open Finset in
/-- What a call returns. -/
def Cmd.ret (s : State ι R) : Cmd ι R → List ℍ[R]
  | .dot cj x y => [∑ k ∈ range x.n, (if cj then star (x.val s k) else x.val s k) * y.val s k]
  | _ => []

/-- The values of the matrices after a list of calls, and all the values returned. -/
def runSpec : List (Cmd ι R) → State ι R → State ι R × List ℍ[R]
  | [], s => (s, [])
  | c :: cs, s => ((runSpec cs (c.next s)).1, c.ret s ++ (runSpec cs (c.next s)).2)

end

/-! ## Where the matrices are, and which calls make sense -/

/-- Where each matrix is stored: column-major from address `base`, leading dimension `ld`. -/
structure Layout (ι : Type) where
  base : ι → Int
  ld : ι → Int
  rows : ι → Nat
  cols : ι → Nat

variable (L : Layout ι)

def Layout.cells (v : ι) : Int → Prop := MatCell (L.base v) (L.ld v) (L.rows v) (L.cols v)

/-- Leading dimensions as BLAS wants them, no shared storage, and at most 2^29 - 1 quaternions (16 GB) each. -/
structure Layout.Ok : Prop where
  ld : ∀ v, 1 ≤ L.ld v ∧ (L.rows v : Int) ≤ L.ld v
  apart : ∀ v w, v ≠ w → Apart (L.cells v) (L.cells w)
  small : ∀ v, 4 * (L.ld v * (L.cols v + 1)) ≤ 2147483647

/-- Memory holds the values `s`. -/
def Layout.Holds [CommRing R] (m : Mem R) (s : State ι R) : Prop :=
  ∀ v, MatAt m (L.base v) (L.ld v) (L.rows v) (L.cols v) (fun i j => Quat.ofH (s v i j))

/-- The line is inside its matrix, and does not stay in one place. -/
structure Layout.LineIn (x : Line ι) : Prop where
  step : 0 < x.dr + x.dc
  dr : x.dr ≤ L.rows x.v
  dc : x.dc ≤ L.cols x.v
  mem : ∀ k, k < x.n → x.r + k * x.dr < L.rows x.v ∧ x.c + k * x.dc < L.cols x.v

/-- The block is inside its matrix. -/
structure Layout.BlockIn (b : Block ι) : Prop where
  rows : b.r + b.m ≤ L.rows b.v
  cols : b.c + b.n ≤ L.cols b.v

/-- No entry is on both. -/
def LineLine (x y : Line ι) : Prop := ∀ v i j, x.Mem v i j → ¬ y.Mem v i j
@[inherit_doc LineLine]
def LineBlock (x : Line ι) (b : Block ι) : Prop := ∀ v i j, x.Mem v i j → ¬ b.Mem v i j
@[inherit_doc LineLine]
def BlockBlock (a b : Block ι) : Prop := ∀ v i j, a.Mem v i j → ¬ b.Mem v i j

/-- The operands exist, have matching sizes, and what is written is not also an input (GEMV: and A is not
empty). -/
def Cmd.Typed : Cmd ι R → Prop
  | .copy x y => L.LineIn x ∧ L.LineIn y ∧ x.n = y.n ∧ LineLine x y
  | .swap x y => L.LineIn x ∧ L.LineIn y ∧ x.n = y.n ∧ LineLine x y
  | .scal _ _ x => L.LineIn x
  | .axpy _ _ x y => L.LineIn x ∧ L.LineIn y ∧ x.n = y.n ∧ LineLine x y
  | .dot _ x y => L.LineIn x ∧ L.LineIn y ∧ x.n = y.n
  | .scalm _ _ A => L.BlockIn A
  | .axpym _ _ A B => L.BlockIn A ∧ L.BlockIn B ∧ A.m = B.m ∧ A.n = B.n ∧ BlockBlock A B
  | .gemv t _ A x _ y => L.BlockIn A ∧ L.LineIn x ∧ L.LineIn y ∧ 0 < A.m ∧ 0 < A.n ∧ x.n = t.cols A ∧
      y.n = t.rows A ∧ LineBlock y A ∧ LineLine x y
  | .ger _ _ x y A => L.LineIn x ∧ L.LineIn y ∧ L.BlockIn A ∧ x.n = A.m ∧ y.n = A.n ∧ LineBlock x A ∧ LineBlock y A
  | .gemm tA tB _ A B _ C => L.BlockIn A ∧ L.BlockIn B ∧ L.BlockIn C ∧ tA.rows A = C.m ∧ tB.cols B = C.n ∧
      tA.cols A = tB.rows B ∧ BlockBlock A C ∧ BlockBlock B C

end Haxx
