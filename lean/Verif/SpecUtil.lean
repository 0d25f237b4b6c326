import Verif.Spec
import Mathlib.Data.Complex.Basic
import Mathlib.LinearAlgebra.Matrix.ConjTranspose
import Mathlib.LinearAlgebra.Matrix.Notation
import Mathlib.Data.Fintype.BigOperators

/-!
# Specification of expansion and contraction

Independent of the modelled code: Mathlib matrices over ℍ[ℝ], ℂ and a commutative ring.
-/

namespace Haxx
open Quaternion Matrix

/-- A complex entry stored at cell `p` (real part, then imaginary part). -/
def CplxAt (m : Mem ℝ) (p : Int) (z : ℂ) : Prop := m p = some z.re ∧ m (p+1) = some z.im

/-- `q = z + w j` as the complex 2×2 matrix `[[z, w], [-w̄, z̄]]`. -/
noncomputable def cRep (q : ℍ[ℝ]) : Matrix (Fin 2) (Fin 2) ℂ :=
  !![⟨q.re, q.imI⟩, ⟨q.imJ, q.imK⟩; -star ⟨q.imJ, q.imK⟩, star ⟨q.re, q.imI⟩]

/-- Entry by entry, with rows `(i,a)` and columns `(j,b)`. -/
noncomputable def cExpand {M N : Nat} (A : Matrix (Fin M) (Fin N) ℍ[ℝ]) :
    Matrix (Fin M × Fin 2) (Fin N × Fin 2) ℂ := fun p q => cRep (A p.1 q.1) p.2 q.2

/-- The row (column) number of row (column) `(i,a)` of an expanded matrix with `n` block rows (columns):
order `'F'` interleaves (`2 i + a`), order `'S'` stacks (`i + n a`). -/
def expIdx (ORDER : Char) (n : Nat) (p : Fin n × Fin 2) : Int :=
  if ORDER = 'F' then 2 * (p.1 : Nat) + (p.2 : Nat) else (p.1 : Nat) + n * (p.2 : Nat)

/-- Memory holds the expanded matrix `E`, column-major with leading dimension `ld`, in layout `ORDER`. -/
def CExpAt (m : Mem ℝ) (B ld : Int) (ORDER : Char) {M N : Nat} (E : Matrix (Fin M × Fin 2) (Fin N × Fin 2) ℂ) : Prop :=
  ∀ (p : Fin M × Fin 2) (q : Fin N × Fin 2), CplxAt m (B + 2 * (expIdx ORDER M p + ld * expIdx ORDER N q)) (E p q)

/-- Memory holds the quaternion matrix `X`, column-major with leading dimension `ld`. -/
def HMatAt {R : Type} [CommRing R] (m : Mem R) (A ld : Int) {M N : Nat} (X : Matrix (Fin M) (Fin N) ℍ[R]) : Prop :=
  ∀ (i : Fin M) (j : Fin N), readQ m (A + 4 * ((i : Nat) + (j : Nat) * ld)) = some (Quat.ofH (X i j))

/-- Cell `a` belongs to the `r × c` block at `p` with leading dimension `ld` and entries of `w` cells. -/
def BlockCell (w p ld : Int) (r c : Nat) (a : Int) : Prop :=
  ∃ i j : Nat, i < r ∧ j < c ∧ p + w * (i + ld * j) ≤ a ∧ a < p + w * (i + ld * j) + w

/-- All cells of a set are accessible. -/
def Accessible {F : Type} (S : Int → Prop) (m : Mem F) : Prop := ∀ a, S a → (m a).isSome

/-- `1, i, j, k`. -/
def hUnit {R : Type} [CommRing R] (a : Fin 4) : ℍ[R] :=
  ⟨if a = 0 then 1 else 0, if a = 1 then 1 else 0, if a = 2 then 1 else 0, if a = 3 then 1 else 0⟩

/-- The 4×4 real matrix of `x ↦ x q` on row vectors of components: row `a` holds the components of `e_a q`,
`e = 1, i, j, k`. -/
def rRep {R : Type} [CommRing R] (q : ℍ[R]) : Matrix (Fin 4) (Fin 4) R := fun a b =>
  ![(hUnit a * q).re, (hUnit a * q).imI, (hUnit a * q).imJ, (hUnit a * q).imK] b

/-- Entry by entry. -/
def rExpand {R : Type} [CommRing R] {M N : Nat} (A : Matrix (Fin M) (Fin N) ℍ[R]) :
    Matrix (Fin M × Fin 4) (Fin N × Fin 4) R := fun p q => rRep (A p.1 q.1) p.2 q.2

/-- Memory holds the expanded real matrix: row `(i,a)` is row `4 i + a`. -/
def RExpAt {R : Type} (m : Mem R) (B ld : Int) {M N : Nat} (E : Matrix (Fin M × Fin 4) (Fin N × Fin 4) R) : Prop :=
  ∀ (p : Fin M × Fin 4) (q : Fin N × Fin 4), m (B + ((4 * (p.1 : Nat) + (p.2 : Nat)) + ld * (4 * (q.1 : Nat) + (q.2 : Nat)))) = some (E p q)

end Haxx
