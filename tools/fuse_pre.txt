import Verif.FuseUnits
import Verif.PropsMixFin
import Verif.PropsMixNaN
import Verif.PropsMatF

/-!
# C66: the compiler may fuse products with additions

(Generated by tools/gen_fuse.py.) The accuracy theorems of C60, the exactness theorems of C59 and the NaN theorems of C53, for
code in which the compiler has fused any of the products with the additions and subtractions that use them. The memory holds
expressions (Fuse.lean): before the call single doubles, afterwards the expressions that the source prescribes; `Fused.dbl` is the
double that the compiled code stores for one, for a compiler that makes the choices `pol`.
-/

set_option linter.unusedSectionVars false

namespace Haxx
open Arith Finset Quaternion

variable {F : Type} [Arith F] [ArithEq F] {pol : Ex Unit → Fusing} {u η Ω B Bd : ℝ}

/-- The real number that the compiled code computes for an expression. -/
noncomputable def cval (J : FinModel F u η Ω) (a : Fused F pol) : ℝ := J.val a.dbl

/-- A single double, finite and of magnitude at most `s`. -/
def Lit1 (J : FinModel F u η Ω) (s : ℝ) (a : Fused F pol) : Prop := ∃ n v, a = Fused.lit n v ∧ J.fin v ∧ |J.val v| ≤ s
/-- A quaternion of such doubles. -/
def LitQ (J : FinModel F u η Ω) (s : ℝ) (q : Quat (Fused F pol)) : Prop := q.All (Lit1 J s)
/-- A real, complex or quaternion scalar of such doubles. -/
def LitS (J : FinModel F u η Ω) (s : ℝ) : Scal (Fused F pol) → Prop
  | .d a => Lit1 J s a
  | .z a => Lit1 J s a.re ∧ Lit1 J s a.im
  | .h a => LitQ J s a
/-- A vector of quaternions of such doubles. -/
def LitVec (J : FinModel F u η Ω) (s : ℝ) (n : ℕ) (x : ℕ → Quat (Fused F pol)) : Prop := ∀ i, i < n → LitQ J s (x i)
/-- A vector of scalars of such doubles. -/
def LitKVec (J : FinModel F u η Ω) (s : ℝ) (n : ℕ) (x : ℕ → Scal (Fused F pol)) : Prop := ∀ i, i < n → LitS J s (x i)
/-- A matrix of quaternions of such doubles. -/
def LitMat (J : FinModel F u η Ω) (s : ℝ) (r c : ℕ) (X : ℕ → ℕ → Quat (Fused F pol)) : Prop :=
  ∀ i j, i < r → j < c → LitQ J s (X i j)
/-- A matrix of scalars of such doubles. -/
def LitKMat (J : FinModel F u η Ω) (s : ℝ) (r c : ℕ) (X : ℕ → ℕ → Scal (Fused F pol)) : Prop :=
  ∀ i j, i < r → j < c → LitS J s (X i j)
/-- The comparisons of a scalar with 0 and 1 tell the truth. -/
def CTruth (J : FinModel F u η Ω) (s : Scal (Fused F pol)) : Prop :=
  (s.eqZero = true → (s.map (cval J)).toH = 0) ∧ (s.eqOne = true → (s.map (cval J)).toH = 1)
/-- The compiled code computes finite components within `e` of those of `z`. -/
def CNear (J : FinModel F u η Ω) (e : ℝ) (q : Quat (Fused F pol)) (z : ℍ[ℝ]) : Prop := J.Near e (q.map Fused.dbl) z
/-- Error of `D` roundings with relative error `4u`, of numbers of magnitude at most `S`. -/
noncomputable def Err8 (u : ℝ) (D : ℕ) (S : ℝ) : ℝ := ((1 + 2 * (4 * u)) ^ D - 1) * S
/-- Numbers of magnitude at most `S` cannot overflow within `D` such roundings. -/
def Fits8 (u Ω : ℝ) (D : ℕ) (S : ℝ) : Prop := (1 + 2 * (4 * u)) ^ D * S ≤ Ω / 2

section
variable {J : FinModel F u η Ω} {hJ : ∀ a, ¬ J.prod a} {hu : u ≤ 1 / 16} {hΩ : 1 ≤ Ω} {s e : ℝ}

theorem lit1_bdd {a : Fused F pol} (h : Lit1 J s a) : (fusedFin J hJ hu hΩ pol).Bdd1 s a := by
  obtain ⟨n, v, rfl, h1, h2⟩ := h
  exact ⟨⟨⟨h1, fun _ _ _ k => nomatch k⟩, fun ⟨_, _, _, k, _⟩ => nomatch k⟩, h2⟩
theorem litQ_bdd {q : Quat (Fused F pol)} (h : LitQ J s q) : (fusedFin J hJ hu hΩ pol).BddQ s q :=
  ⟨lit1_bdd h.1, lit1_bdd h.2.1, lit1_bdd h.2.2.1, lit1_bdd h.2.2.2⟩
theorem litS_bdd {q : Scal (Fused F pol)} (h : LitS J s q) : (fusedFin J hJ hu hΩ pol).BddS s q := by
  cases q with
  | d a => exact lit1_bdd h
  | z a => exact ⟨lit1_bdd h.1, lit1_bdd h.2⟩
  | h a => exact litQ_bdd h
theorem near_c {q : Quat (Fused F pol)} {z : ℍ[ℝ]} (h : (fusedFin J hJ hu hΩ pol).Near e q z) : CNear J e q z :=
  ⟨⟨h.1.1.1, h.1.2.1.1, h.1.2.2.1.1, h.1.2.2.2.1⟩, h.2⟩
end

/-- The real number that the compiled code computes for an expression (arithmetic exact on integers). -/
noncomputable def ival (I : IntModel F u B) (a : Fused F pol) : ℝ := I.val a.dbl
/-- A single double, an integer of magnitude at most `s`. -/
def IntLit1 (I : IntModel F u B) (s : ℝ) (a : Fused F pol) : Prop := ∃ n v, a = Fused.lit n v ∧ I.Int1 s v
/-- A quaternion of such doubles. -/
def IntLitQ (I : IntModel F u B) (s : ℝ) (q : Quat (Fused F pol)) : Prop := q.All (IntLit1 I s)
/-- A real, complex or quaternion scalar of such doubles. -/
def IntLitS (I : IntModel F u B) (s : ℝ) : Scal (Fused F pol) → Prop
  | .d a => IntLit1 I s a
  | .z a => IntLit1 I s a.re ∧ IntLit1 I s a.im
  | .h a => IntLitQ I s a
/-- A vector of quaternions of such doubles. -/
def IntLitVec (I : IntModel F u B) (s : ℝ) (n : ℕ) (x : ℕ → Quat (Fused F pol)) : Prop := ∀ i, i < n → IntLitQ I s (x i)
/-- A vector of scalars of such doubles. -/
def IntLitKVec (I : IntModel F u B) (s : ℝ) (n : ℕ) (x : ℕ → Scal (Fused F pol)) : Prop := ∀ i, i < n → IntLitS I s (x i)
/-- A matrix of quaternions of such doubles. -/
def IntLitMat (I : IntModel F u B) (s : ℝ) (r c : ℕ) (X : ℕ → ℕ → Quat (Fused F pol)) : Prop :=
  ∀ i j, i < r → j < c → IntLitQ I s (X i j)
/-- A matrix of scalars of such doubles. -/
def IntLitKMat (I : IntModel F u B) (s : ℝ) (r c : ℕ) (X : ℕ → ℕ → Scal (Fused F pol)) : Prop :=
  ∀ i j, i < r → j < c → IntLitS I s (X i j)
/-- The comparisons of a scalar with 0 and 1 tell the truth. -/
def ITruth (I : IntModel F u B) (s : Scal (Fused F pol)) : Prop :=
  (s.eqZero = true → (s.map (ival I)).toH = 0) ∧ (s.eqOne = true → (s.map (ival I)).toH = 1)
/-- The compiled code computes the quaternion `z` exactly. -/
def CIs (I : IntModel F u B) (q : Quat (Fused F pol)) (z : ℍ[ℝ]) : Prop := I.Is (q.map Fused.dbl) z

section
variable {I : IntModel F u B} {hu : u ≤ 1 / 16} {s : ℝ}

theorem lit1_int {a : Fused F pol} (h : IntLit1 I s a) : (fusedInt I hu pol).Int1 s a := by
  obtain ⟨n, v, rfl, h1, h2⟩ := h
  exact ⟨h1, h2⟩
theorem litQ_int {q : Quat (Fused F pol)} (h : IntLitQ I s q) : (fusedInt I hu pol).IntQ s q :=
  ⟨lit1_int h.1, lit1_int h.2.1, lit1_int h.2.2.1, lit1_int h.2.2.2⟩
theorem litS_int {q : Scal (Fused F pol)} (h : IntLitS I s q) : (fusedInt I hu pol).IntS s q := by
  cases q with
  | d a => exact lit1_int h
  | z a => exact ⟨lit1_int h.1, lit1_int h.2⟩
  | h a => exact litQ_int h
theorem is_c {q : Quat (Fused F pol)} {z : ℍ[ℝ]} (h : (fusedInt I hu pol).Is q z) : CIs I q z :=
  ⟨⟨Ex.okE.dbl h.1.1, Ex.okE.dbl h.1.2.1, Ex.okE.dbl h.1.2.2.1, Ex.okE.dbl h.1.2.2.2⟩, h.2⟩
end

/-- A double is a NaN of the compiled code iff it is one. -/
theorem bad_lit {bad : F → Prop} {n : ℤ} {v : F} : Fused.bad bad (Fused.lit n v : Fused F pol) ↔ bad v :=
  ⟨fun h => h.1, fun h => ⟨h, fun _ _ _ k => nomatch k⟩⟩

/-! ## Finite data -/

