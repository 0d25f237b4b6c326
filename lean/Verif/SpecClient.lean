import Verif.SpecProgram

/-!
# User programs that decide as they go

A user's program makes library calls, looks at and sets single matrix entries, and chooses each next step from what it has
seen so far: it is a machine with any states and any transition function.  Here is what such a program does to matrices of
quaternions, as mathematics; no memory, no code of the library.
-/

namespace Haxx
open Quaternion

variable {σ ι R : Type} [CommRing R]

/-- One step of a user program whose own variables are a `σ`. -/
inductive Act (σ ι R : Type) [CommRing R]
  /-- the program has finished -/
  | stop
  /-- a library call; the program goes on with the values returned -/
  | call (c : Cmd ι R) (k : List ℍ[R] → σ)
  /-- look at entry `(i, j)` of matrix `v` -/
  | look (v : ι) (i j : Nat) (k : ℍ[R] → σ)
  /-- set entry `(i, j)` of matrix `v` -/
  | set (v : ι) (i j : Nat) (x : ℍ[R]) (next : σ)

/-- A user program. -/
abbrev Client (σ ι R : Type) [CommRing R] := σ → Act σ ι R

/-- One entry set. -/
def State.setAt [DecidableEq ι] (s : State ι R) (v : ι) (i j : Nat) (x : ℍ[R]) : State ι R := fun v' i' j' =>
  if v' = v ∧ i' = i ∧ j' = j then x else s v' i' j'

/-- The program's variables and the matrices after at most `n` steps. -/
def Client.spec [DecidableEq ι] (p : Client σ ι R) : Nat → σ → State ι R → σ × State ι R
  | 0, t, s => (t, s)
  | n+1, t, s => match p t with
    | .stop => (t, s)
    | .call c k => p.spec n (k (c.ret s)) (c.next s)
    | .look v i j k => p.spec n (k (s v i j)) s
    | .set v i j x t' => p.spec n t' (s.setAt v i j x)

/-- In its first `n` steps the program only makes calls that make sense and that satisfy `Sup`, and only touches entries that
exist. -/
def Client.Safe [DecidableEq ι] (Sup : State ι R → Cmd ι R → Prop) (L : Layout ι) (p : Client σ ι R) : Nat → σ → State ι R → Prop
  | 0, _, _ => True
  | n+1, t, s => match p t with
    | .stop => True
    | .call c k => c.Typed L ∧ Sup s c ∧ p.Safe Sup L n (k (c.ret s)) (c.next s)
    | .look v i j k => (i < L.rows v ∧ j < L.cols v) ∧ p.Safe Sup L n (k (s v i j)) s
    | .set v i j x t' => (i < L.rows v ∧ j < L.cols v) ∧ p.Safe Sup L n t' (s.setAt v i j x)

end Haxx
