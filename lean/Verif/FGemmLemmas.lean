import Verif.FortranLemmas

/-! Shared vocabulary of the Fortran GEMM proofs. -/

namespace Haxx
open Arith Quaternion Finset

section
variable {F : Type}

/-- The reads of a matrix update of `C`: `K` makes `A` and `B` readable and survives stores to `C`. -/
structure GEnv (K : Mem F → Prop) (A LDA : Int) (rA cA : Nat) (X : Nat → Nat → Quat F)
    (B LDB : Int) (rB cB : Nat) (Y : Nat → Nat → Quat F) (C LDC : Int) (M N : Nat) : Prop where
  rdA : ∀ m, K m → MatAt m A LDA rA cA X
  rdB : ∀ m, K m → MatAt m B LDB rB cB Y
  stable : ∀ m (i j : Nat) q, i < M → j < N → K m → K (writeQ m (C + 4 * (i + j * LDC)) q)
  disj : ∀ i j i' j' : Nat, i < M → i' < M → ¬ (i = i' ∧ j = j') →
    QDisj (C + 4 * (i + j * LDC)) (C + 4 * (i' + j' * LDC))

/-- The block of `C` holds `new` and nothing else changed. -/
def GPost (K : Mem F → Prop) (m0 : Mem F) (C LDC : Int) (M N : Nat) (new : Nat → Nat → Quat F)
    (m : Mem F) : Prop :=
  (∀ i j : Nat, i < M → j < N → readQ m (C + 4 * (i + j * LDC)) = some (new i j)) ∧ K m ∧
    ∀ a, (∀ i j : Nat, i < M → j < N → ¬ InQ (C + 4 * (i + j * LDC)) a) → m a = m0 a

theorem GPost.congr {K : Mem F → Prop} {m0 : Mem F} {C LDC : Int} {M N : Nat}
    {new new' : Nat → Nat → Quat F} {m : Mem F} (h : GPost K m0 C LDC M N new m)
    (e : ∀ i j, i < M → j < N → new i j = new' i j) : GPost K m0 C LDC M N new' m :=
  ⟨fun i j hi hj => by rw [← e i j hi hj]; exact h.1 i j hi hj, h.2⟩

/-- One element update, with the store kept apart from the readable matrices. -/
theorem matAt_write {K : Mem F → Prop} {A LDA : Int} {r c : Nat} {X : Nat → Nat → Quat F} {p : Int}
    {m : Mem F} (hrd : ∀ m, K m → MatAt m A LDA r c X) (hst : ∀ q, K (writeQ m p q)) {i j : Nat}
    (hi : i < r) (hj : j < c) (q : Quat F) :
    readQ (writeQ m p q) (A + 4 * (i + j * LDA)) = some (X i j) :=
  hrd _ (hst q) i j hi hj

end

section
variable {R : Type} [CommRing R]

/-- `α Σ_k x_k y_k + β c`. -/
noncomputable def gemmSpec (al be : ℍ[R]) (K : Nat) (x y : Nat → ℍ[R]) (c : ℍ[R]) : ℍ[R] :=
  al * ∑ k ∈ range K, x k * y k + be * c

end

/-! ## Flags and scalar tests -/

/-- What a Fortran transposition flag means. -/
inductive FTrans where
  | N | T | C
deriving DecidableEq

/-- The Fortran routines' reading of a flag: `N`/`n` no transposition, `C`/`c` conjugate transpose,
anything else transpose. -/
def FTrans.ofChar (c : Char) : FTrans :=
  if c = 'N' ∨ c = 'n' then .N else if c = 'C' ∨ c = 'c' then .C else .T

/-- Number of rows of the stored matrix whose `op` has `r` rows and `c` columns. -/
def FTrans.rows : FTrans → Nat → Nat → Nat
  | .N, r, _ => r
  | _, _, c => c

/-- `op(X)(i,k)`. -/
def FTrans.op {R : Type} [CommRing R] : FTrans → (Nat → Nat → Quat R) → Nat → Nat → ℍ[R]
  | .N, X, i, k => (X i k).toH
  | .T, X, i, k => (X k i).toH
  | .C, X, i, k => star (X k i).toH

@[simp] theorem ft_NN : (FTrans.N == FTrans.N) = true := rfl
@[simp] theorem ft_TN : (FTrans.T == FTrans.N) = false := rfl
@[simp] theorem ft_CN : (FTrans.C == FTrans.N) = false := rfl
@[simp] theorem ft_NC : (FTrans.N == FTrans.C) = false := rfl
@[simp] theorem ft_TC : (FTrans.T == FTrans.C) = false := rfl
@[simp] theorem ft_CC : (FTrans.C == FTrans.C) = true := rfl

/-- `LSAME` against an upper-case letter. -/
theorem lsame_upper {x c : Char} (hc : 65 ≤ c.toNat ∧ c.toNat ≤ 90) :
    lsame x c = decide (x = c ∨ x.toNat = c.toNat + 32) := by
  unfold lsame
  by_cases h : x = c
  · simp [h]
  · have hne : x.toNat ≠ c.toNat := fun e => h (Char.toNat_inj.mp e)
    rw [if_neg h]
    dsimp only
    rw [if_neg (show ¬ (97 ≤ c.toNat ∧ c.toNat ≤ 122) by omega)]
    simp only [h, false_or, decide_eq_decide]
    split <;> omega

theorem lsame_N (x : Char) : lsame x 'N' = (FTrans.ofChar x == .N) := by
  rw [lsame_upper (by decide)]
  have : (x.toNat = 'N'.toNat + 32) ↔ x = 'n' := by
    rw [show 'N'.toNat + 32 = 'n'.toNat from rfl]; exact Char.toNat_inj
  simp only [this]
  unfold FTrans.ofChar
  by_cases h : x = 'N' ∨ x = 'n'
  · simp [h]
  · rw [if_neg h]
    by_cases h2 : x = 'C' ∨ x = 'c'
    · rw [if_pos h2]; simpa using h
    · rw [if_neg h2]; simpa using h

theorem lsame_C (x : Char) : lsame x 'C' = (FTrans.ofChar x == .C) := by
  rw [lsame_upper (by decide)]
  have : (x.toNat = 'C'.toNat + 32) ↔ x = 'c' := by
    rw [show 'C'.toNat + 32 = 'c'.toNat from rfl]; exact Char.toNat_inj
  simp only [this]
  unfold FTrans.ofChar
  by_cases h : x = 'N' ∨ x = 'n'
  · rw [if_pos h]
    rcases h with rfl | rfl <;> decide
  · rw [if_neg h]
    by_cases h2 : x = 'C' ∨ x = 'c'
    · simp [h2]
    · simp [h2]

section
variable {R : Type} [CommRing R] [DecidableEq R]

theorem scal0_d (a : R) (h : Cplx.feq (Cplx.ofReal a) (⟨zero, zero⟩ : Cplx R) = true) :
    (Scal.d a).toH = 0 := by
  simp [Cplx.feq] at h
  simp [Scal.toH, h]
theorem scal0_d' (a : R) (h : (Scal.d a).toH = 0) :
    Cplx.feq (Cplx.ofReal a) (⟨zero, zero⟩ : Cplx R) = true := by
  have := congrArg QuaternionAlgebra.re h
  simp [Scal.toH] at this
  simp [Cplx.feq, this]
theorem scal0_z' (a : Cplx R) (h : (Scal.z a).toH = 0) :
    Cplx.feq a (⟨zero, zero⟩ : Cplx R) = true := by
  have h0 := congrArg QuaternionAlgebra.re h
  have h1 := congrArg QuaternionAlgebra.imI h
  simp [Scal.toH] at h0 h1
  simp [Cplx.feq, h0, h1]
theorem scal0_h' (a : Quat R) (h : (Scal.h a).toH = 0) : (Cplx.feq a.lo (⟨zero, zero⟩ : Cplx R) &&
    Cplx.feq a.hi (⟨zero, zero⟩ : Cplx R)) = true := by
  have h0 := congrArg QuaternionAlgebra.re h
  have h1 := congrArg QuaternionAlgebra.imI h
  have h2 := congrArg QuaternionAlgebra.imJ h
  have h3 := congrArg QuaternionAlgebra.imK h
  simp [Scal.toH] at h0 h1 h2 h3
  simp [Cplx.feq, h0, h1, h2, h3]
theorem scal1_d (a : R) (h : Cplx.feq (Cplx.ofReal a) (⟨one, zero⟩ : Cplx R) = true) :
    (Scal.d a).toH = 1 := by
  simp [Cplx.feq] at h
  simp [Scal.toH, h]
theorem scal0_z (a : Cplx R) (h : Cplx.feq a (⟨zero, zero⟩ : Cplx R) = true) :
    (Scal.z a).toH = 0 := by
  simp [Cplx.feq] at h
  ext <;> simp [Scal.toH, h]
theorem scal1_z (a : Cplx R) (h : Cplx.feq a (⟨one, zero⟩ : Cplx R) = true) :
    (Scal.z a).toH = 1 := by
  simp [Cplx.feq] at h
  ext <;> simp [Scal.toH, h]
theorem scal0_h (a : Quat R) (h : (Cplx.feq a.lo (⟨zero, zero⟩ : Cplx R) &&
    Cplx.feq a.hi (⟨zero, zero⟩ : Cplx R)) = true) : (Scal.h a).toH = 0 := by
  simp [Cplx.feq] at h
  ext <;> simp [Scal.toH, h]
theorem scal1_h (a : Quat R) (h : (Cplx.feq a.lo (⟨one, zero⟩ : Cplx R) &&
    Cplx.feq a.hi (⟨zero, zero⟩ : Cplx R)) = true) : (Scal.h a).toH = 1 := by
  simp [Cplx.feq] at h
  ext <;> simp [Scal.toH, h]
end

end Haxx
