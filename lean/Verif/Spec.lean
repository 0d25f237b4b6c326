import Verif.Mem
import Verif.Simd
import Mathlib.Algebra.Quaternion
import Mathlib.Algebra.BigOperators.Group.Finset.Basic

/-!
# Specification vocabulary

Independent of the modelled code: Mathlib's quaternions `ℍ[R]`, and what it means for a strided
vector or a column-major matrix to be stored in memory.
-/

namespace Haxx
open Quaternion

section
variable {R : Type} [CommRing R]

/-- The mathematical quaternion denoted by a stored quaternion. -/
def Quat.toH (q : Quat R) : ℍ[R] := ⟨q.re, q.i, q.j, q.k⟩

/-- The stored form of a mathematical quaternion. -/
def Quat.ofH (q : ℍ[R]) : Quat R := ⟨q.re, q.imI, q.imJ, q.imK⟩

/-- The embedding `z ↦ (Re z, Im z, 0, 0)`. -/
def Cplx.toH (z : Cplx R) : ℍ[R] := ⟨z.re, z.im, 0, 0⟩

/-- The embedding of a real, complex or quaternion scalar. -/
def Scal.toH : Scal R → ℍ[R]
  | .d a => (a : ℍ[R])
  | .z a => a.toH
  | .h a => a.toH

end

variable {F : Type}

/-- Lane `l` of a register. -/
def lane {F : Type} (x : V4 F) : Fin 4 → F
  | 0 => x.re
  | 1 => x.i
  | 2 => x.j
  | 3 => x.k

/-- The quaternion stored across lane `l` of four registers (structure-of-arrays layout). -/
def laneQ {F : Type} (x : R4 F) (l : Fin 4) : Quat F :=
  ⟨lane x.r1 l, lane x.r2 l, lane x.r3 l, lane x.r4 l⟩

/-- `v 0, …, v (n-1)` is the strided quaternion vector at `p` with increment `inc`. -/
def VecAt (m : Mem F) (p : Int) (inc : Int) (n : Nat) (v : Nat → Quat F) : Prop :=
  ∀ i, i < n → readQ m (p + 4 * (i * inc)) = some (v i)

/-- Cell `a` belongs to the strided quaternion vector. -/
def VecCell (p inc : Int) (n : Nat) (a : Int) : Prop :=
  ∃ i, i < n ∧ InQ (p + 4 * (i * inc)) a

/-- `A i j` (`i < r`, `j < c`) is the column-major quaternion matrix at `p`, leading
dimension `ld`. -/
def MatAt (m : Mem F) (p ld : Int) (r c : Nat) (A : Nat → Nat → Quat F) : Prop :=
  ∀ i j, i < r → j < c → readQ m (p + 4 * (i + j * ld)) = some (A i j)

/-- Cell `a` belongs to the `r × c` block. -/
def MatCell (p ld : Int) (r c : Nat) (a : Int) : Prop :=
  ∃ i j, i < r ∧ j < c ∧ InQ (p + 4 * (i + j * ld)) a

/-- Two sets of cells have nothing in common. -/
def Apart (S T : Int → Prop) : Prop := ∀ a, S a → ¬ T a

/-- Outside `S`, memory is the same. -/
def SameOutside (S : Int → Prop) (m m' : Mem F) : Prop := ∀ a, ¬ S a → m' a = m a

/-- A signed 32-bit value. -/
def Fits32 (x : Int) : Prop := -2147483648 ≤ x ∧ x ≤ 2147483647

end Haxx
