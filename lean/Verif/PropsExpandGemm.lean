import Verif.PropsTile
import Verif.PropsUtil
import Verif.PropsUtil2

/-!
# C46: quaternion GEMM against complex and real matrix products of the expansions
-/

set_option linter.unusedSectionVars false

namespace Haxx
open Arith Quaternion Finset Matrix

section
variable {R : Type} [CommRing R] [DecidableEq R]

/-- The `r × c` matrix `op(X)` of a stored matrix X, for the flags of the SIMD GEMM. -/
noncomputable def opMat (t : Char) (X : Nat → Nat → Quat R) (r c : Nat) : Matrix (Fin r) (Fin c) ℍ[R] :=
  Matrix.of fun i j => if t = 'T' then (X j i).toH else if t = 'C' then star (X j i).toH
    else if t = 'R' then star (X i j).toH else (X i j).toH

theorem gemm_hmat {m m1 : Mem R} {blk : Blk} {bAddr aAddr : Int} {junk : Int → R} {tA tB : Char}
    {M N K : Int} {ALPHA BETA : Scal R} {A LDA B LDB C LDC : Int} {Av Bv Cv : Nat → Nat → Quat R}
    (h : GemmPre m blk bAddr aAddr tA tB M.toNat N.toNat K.toNat A LDA Av B LDB Bv C LDC Cv)
    (e1 : gemmAVX blk bAddr aAddr junk tA tB M N K ALPHA A LDA B LDB BETA C LDC m = .ok ((), m1)) :
    HMatAt m1 C LDC (Matrix.diagonal (fun _ => ALPHA.toH) * (opMat tA Av M.toNat K.toNat * opMat tB Bv K.toNat N.toNat) +
      Matrix.diagonal (fun _ => BETA.toH) * opMat 'N' Cv M.toNat N.toNat) ∧
    SameOutside (MatCell C LDC M.toNat N.toNat) m m1 := by
  obtain ⟨m1', h1, v1⟩ := C22_gemm m blk bAddr aAddr junk tA tB M N K ALPHA BETA A LDA B LDB C LDC Av Bv Cv h
  obtain ⟨m1'', h1', s1, _⟩ := C23_gemm_frame m blk bAddr aAddr junk tA tB M N K ALPHA BETA A LDA B LDB C LDC Av Bv Cv h
  rw [e1] at h1 h1'
  cases h1; cases h1'
  refine ⟨?_, s1⟩
  intro i j
  have e := v1 i j i.2 j.2
  rw [e]
  refine congrArg some (congrArg Quat.ofH ?_)
  rw [Matrix.add_apply, Matrix.diagonal_mul, Matrix.diagonal_mul, Matrix.mul_apply]
  refine congrArg₂ (· + ·) (congrArg (ALPHA.toH * ·) ?_) rfl
  exact (Fin.sum_univ_eq_sum_range (fun k => opSpec tA Av i k * opSpec tB Bv k j) K.toNat).symm

theorem ExpandPre.after {m m1 : Mem R} {r : Nat} {w M N A LDA B LDB : Int} (h : ExpandPre m r w M N A LDA B LDB)
    (s : SameOutside (MatCell A LDA M.toNat N.toNat) m m1) : ExpandPre m1 r w M N A LDA B LDB where
  ld := h.ld
  apart := h.apart
  acc := by
    intro a ha
    rw [s a (fun hc => h.apart a hc ha)]
    exact h.acc a ha

/-- C46, real expansion.  GEMM followed by HBLAS_REAL_EXPAND of C leaves the real matrix
`[ALPHA]·[op(A)]·[op(B)] + [BETA]·[C]`, where `[X]` is the real expansion of X (of a scalar: of that multiple of
the identity). -/
theorem C46_real (m : Mem R) (blk : Blk) (bAddr aAddr : Int) (junk : Int → R) (tA tB : Char)
    (M N K : Int) (ALPHA BETA : Scal R) (A LDA B LDB C LDC E LDE : Int) (Av Bv Cv : Nat → Nat → Quat R)
    (h : GemmPre m blk bAddr aAddr tA tB M.toNat N.toNat K.toNat A LDA Av B LDB Bv C LDC Cv)
    (hE : ExpandPre m 4 1 M N C LDC E LDE) :
    ∃ m1 m2, gemmAVX blk bAddr aAddr junk tA tB M N K ALPHA A LDA B LDB BETA C LDC m = .ok ((), m1) ∧
      HBLAS_REAL_EXPAND M N C LDC E LDE m1 = .ok ((), m2) ∧
      RExpAt m2 E LDE (rExpand (Matrix.diagonal fun _ => ALPHA.toH) *
        (rExpand (opMat tA Av M.toNat K.toNat) * rExpand (opMat tB Bv K.toNat N.toNat)) +
        rExpand (Matrix.diagonal fun _ => BETA.toH) * rExpand (opMat 'N' Cv M.toNat N.toNat)) := by
  obtain ⟨m1, h1, _⟩ := C22_gemm m blk bAddr aAddr junk tA tB M N K ALPHA BETA A LDA B LDB C LDC Av Bv Cv h
  obtain ⟨hm, s1⟩ := gemm_hmat h h1
  obtain ⟨m2, h2, e2, _⟩ := C33_real_expand m1 M N C LDC E LDE _ hm (hE.after s1)
  refine ⟨m1, m2, h1, h2, ?_⟩
  rw [(C33_expand_algebra _ _).1, C33_expand_mul, C33_expand_mul, C33_expand_mul] at e2
  exact e2

end

/-- C46, complex expansion, for real ALPHA and BETA: GEMM followed by HBLAS_COMPLEX_EXPAND of C (in either ORDER)
leaves the complex matrix `ALPHA·[op(A)]·[op(B)] + BETA·[C]`, where `[X]` is the complex expansion of X: a complex
GEMM on the expansions computes the expansion of the quaternion GEMM. -/
theorem C46_complex (m : Mem ℝ) (blk : Blk) (bAddr aAddr : Int) (junk : Int → ℝ) (tA tB : Char) (ORDER : Char)
    (ho : ORDER = 'F' ∨ ORDER = 'S') (M N K : Int) (α β : ℝ) (A LDA B LDB C LDC E LDE : Int)
    (Av Bv Cv : Nat → Nat → Quat ℝ)
    (h : GemmPre m blk bAddr aAddr tA tB M.toNat N.toNat K.toNat A LDA Av B LDB Bv C LDC Cv)
    (hE : ExpandPre m 2 2 M N C LDC E LDE) :
    ∃ m1 m2, gemmAVX blk bAddr aAddr junk tA tB M N K (.d α) A LDA B LDB (.d β) C LDC m = .ok ((), m1) ∧
      HBLAS_COMPLEX_EXPAND ORDER M N C LDC E LDE m1 = .ok ((), m2) ∧
      CExpAt m2 E LDE ORDER ((α : ℂ) • (cExpand (opMat tA Av M.toNat K.toNat) * cExpand (opMat tB Bv K.toNat N.toNat)) +
        (β : ℂ) • cExpand (opMat 'N' Cv M.toNat N.toNat)) := by
  obtain ⟨m1, h1, _⟩ := C22_gemm m blk bAddr aAddr junk tA tB M N K (.d α) (.d β) A LDA B LDB C LDC Av Bv Cv h
  obtain ⟨hm, s1⟩ := gemm_hmat h h1
  obtain ⟨m2, h2, e2, _⟩ := C32_complex_expand m1 ORDER ho M N C LDC E LDE _ hm (hE.after s1)
  refine ⟨m1, m2, h1, h2, ?_⟩
  have sc : ∀ (a : ℝ) {r c : Nat} (X : Matrix (Fin r) (Fin c) ℍ[ℝ]),
      cExpand (Matrix.diagonal (fun _ => (Scal.d a).toH) * X) = (a : ℂ) • cExpand X := by
    intro a r c X
    ext ⟨i, p⟩ ⟨j, q⟩
    change cRep ((Matrix.diagonal (fun _ => (Scal.d a).toH) * X : Matrix (Fin r) (Fin c) ℍ[ℝ]) i j) p q = (a:ℂ) * cRep (X i j) p q
    rw [Matrix.diagonal_mul]
    have : (Scal.d a).toH = (a : ℍ[ℝ]) := by ext <;> simp [Scal.toH]
    rw [this]
    fin_cases p <;> fin_cases q <;> apply Complex.ext <;> simp [cRep]
  rw [(C32_expand_star_algebra _ _).1, sc, sc, C32_expand_mul] at e2
  exact e2

/-- C46, for complex ALPHA and BETA the scalars act on the expansions as the block-diagonal matrices
`diag(z, conj z)`, not as the complex scalars themselves. -/
theorem C46_complex_scalar (m : Mem ℝ) (blk : Blk) (bAddr aAddr : Int) (junk : Int → ℝ) (tA tB : Char) (ORDER : Char)
    (ho : ORDER = 'F' ∨ ORDER = 'S') (M N K : Int) (ALPHA BETA : Scal ℝ) (A LDA B LDB C LDC E LDE : Int)
    (Av Bv Cv : Nat → Nat → Quat ℝ)
    (h : GemmPre m blk bAddr aAddr tA tB M.toNat N.toNat K.toNat A LDA Av B LDB Bv C LDC Cv)
    (hE : ExpandPre m 2 2 M N C LDC E LDE) :
    ∃ m1 m2, gemmAVX blk bAddr aAddr junk tA tB M N K ALPHA A LDA B LDB BETA C LDC m = .ok ((), m1) ∧
      HBLAS_COMPLEX_EXPAND ORDER M N C LDC E LDE m1 = .ok ((), m2) ∧
      CExpAt m2 E LDE ORDER (cExpand (Matrix.diagonal fun _ => ALPHA.toH) *
        (cExpand (opMat tA Av M.toNat K.toNat) * cExpand (opMat tB Bv K.toNat N.toNat)) +
        cExpand (Matrix.diagonal fun _ => BETA.toH) * cExpand (opMat 'N' Cv M.toNat N.toNat)) := by
  obtain ⟨m1, h1, _⟩ := C22_gemm m blk bAddr aAddr junk tA tB M N K ALPHA BETA A LDA B LDB C LDC Av Bv Cv h
  obtain ⟨hm, s1⟩ := gemm_hmat h h1
  obtain ⟨m2, h2, e2, _⟩ := C32_complex_expand m1 ORDER ho M N C LDC E LDE _ hm (hE.after s1)
  refine ⟨m1, m2, h1, h2, ?_⟩
  rw [(C32_expand_star_algebra _ _).1, C32_expand_mul, C32_expand_mul, C32_expand_mul] at e2
  exact e2

/-- The expansion of `i` times the identity is not `i` times the identity (as soon as there is a row). -/
theorem C46_complex_scalar_differs {n : Nat} (hn : 0 < n) (z : Cplx ℝ) (hz : z.im ≠ 0) :
    cExpand (Matrix.diagonal fun _ : Fin n => (Scal.z z).toH) ≠ (⟨z.re, z.im⟩ : ℂ) • (1 : Matrix (Fin n × Fin 2) (Fin n × Fin 2) ℂ) := by
  intro e
  have := congrFun (congrFun e (⟨0, hn⟩, 1)) (⟨0, hn⟩, 1)
  simp only [cExpand, Matrix.diagonal_apply_eq, Matrix.smul_apply, Matrix.one_apply_eq] at this
  have := congrArg Complex.im this
  simp [cRep, Scal.toH, Cplx.toH] at this
  exact hz (by linarith)

/-! ### Non-vacuity -/

example (f : Int → ℝ) : ∃ m1 m2, gemmAVX ⟨64, 512, 64⟩ 1000 200000 (fun _ => 0) 'C' 'N' 3 1 2 (.d 5) 0 2 24 2 (.d 7) 40 4
      (memOf 0 100 f) = .ok ((), m1) ∧ HBLAS_COMPLEX_EXPAND 'S' 3 1 40 4 60 7 m1 = .ok ((), m2) := by
  obtain ⟨m1, m2, h1, h2, _⟩ := C46_complex (memOf 0 100 f) ⟨64, 512, 64⟩ 1000 200000 (fun _ => 0) 'C' 'N' 'S' (Or.inr rfl)
    3 1 2 5 7 0 2 24 2 40 4 60 7 _ _ _ (adj_example1 f)
    { ld := by decide
      acc := by
        rintro a ⟨i, j, hi, hj, h1, h2⟩
        have hi' : i < 6 := hi
        have hj' : j < 2 := hj
        have : memOf 0 100 f a = some (f a) := if_pos ⟨by omega, by omega⟩
        rw [this]; rfl
      apart := by
        rintro a ⟨i, j, hi, hj, h1, h2⟩ ⟨i', j', hi', hj', h1', h2'⟩
        have hi' : i < 3 := hi
        have hj' : j < 1 := hj
        omega }
  exact ⟨m1, m2, h1, h2⟩

end Haxx
