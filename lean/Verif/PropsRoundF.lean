import Verif.RoundF
import Verif.PropsRoundP
import Verif.PropsFBits

/-!
# C42 for the Fortran GEMM
-/

set_option linter.unusedSectionVars false

namespace Haxx
open Quaternion Finset

variable {F : Type} [Arith F] [ArithEq F] {u : ℝ}

theorem norm_cj (t : FTrans) (q : ℍ[ℝ]) : ‖t.cj q‖ = ‖q‖ := by
  cases t
  · rfl
  · rfl
  · exact Quaternion.norm_star q

theorem cj_pick {R : Type} [CommRing R] {t : Char} {X : Nat → Nat → Quat R} {op : Nat → Nat → ℍ[R]} (h : OpIs t X op)
    (i k : Nat) : (FTrans.ofChar t).cj (((FTrans.ofChar t).pick X i k).toH) = op i k := by
  rw [← opIs_ofChar h]
  cases FTrans.ofChar t <;> rfl

theorem map_pick (S : StdModel F u) (t : FTrans) (X : Nat → Nat → Quat F) (i k : Nat) :
    (t.pick X i k).map S.val = t.pick (fun i k => (X i k).map S.val) i k := by
  cases t <;> rfl

/-- If `==` on machine numbers tells the truth and `1` is exact, so do the Fortran tests on a scalar of any type. -/
theorem fTruth_of {S : StdModel F u} (h1 : S.val Arith.one = 1)
    (he : ∀ a b : F, ArithEq.feq a b = true → S.val a = S.val b) (s : Scal F) : StdModel.FTruth S s := by
  have h0 := S.zero_val
  cases s with
  | d a =>
    refine ⟨fun h => ?_, fun h => ?_⟩
    · simp only [Scal.fIsZero, Cplx.feq, Cplx.ofReal, Bool.and_eq_true] at h
      ext <;> simp [Scal.map, Scal.toH, he _ _ h.1, h0]
    · simp only [Scal.fIsOne, Cplx.feq, Cplx.ofReal, Bool.and_eq_true] at h
      ext <;> simp [Scal.map, Scal.toH, he _ _ h.1, h1]
  | z a =>
    refine ⟨fun h => ?_, fun h => ?_⟩
    · simp only [Scal.fIsZero, Cplx.feq, Bool.and_eq_true] at h
      ext <;> simp [Scal.map, Scal.toH, he _ _ h.1, he _ _ h.2, h0]
    · simp only [Scal.fIsOne, Cplx.feq, Bool.and_eq_true] at h
      ext <;> simp [Scal.map, Scal.toH, he _ _ h.1, he _ _ h.2, h0, h1]
  | h a =>
    refine ⟨fun h => ?_, fun h => ?_⟩
    · simp only [Scal.fIsZero, Cplx.feq, Quat.lo, Quat.hi, Bool.and_eq_true] at h
      ext <;> simp [Scal.map, Quat.map, Scal.toH, he _ _ h.1.1, he _ _ h.1.2, he _ _ h.2.1, he _ _ h.2.2, h0]
    · simp only [Scal.fIsOne, Cplx.feq, Quat.lo, Quat.hi, Bool.and_eq_true] at h
      ext <;> simp [Scal.map, Quat.map, Scal.toH, he _ _ h.1.1, he _ _ h.1.2, he _ _ h.2.1, he _ _ h.2.2, h0, h1]

/-- C42, Fortran GEMM (every pair of scalar types, any flags), if 1 is exact and
`==` is true only of machine numbers of the same value: every entry of the result satisfies
`‖computed - exact‖ ≤ 2((1+u)^(4K+7)-1) (‖BETA‖ ‖C_ij‖ + 2 ‖ALPHA‖ Σ_k ‖op(A)_ik‖ ‖op(B)_kj‖)`. -/
theorem C42_gemm_fortran (S : StdModel F u) (m : Mem F) (tA tB : Char) (M N K : Int) (ALPHA BETA : Scal F)
    (A LDA B LDB C LDC : Int) (Av Bv Cv : Nat → Nat → Quat F) (opA opB : Nat → Nat → ℍ[ℝ])
    (hA : OpIs tA (fun i k => (Av i k).map S.val) opA) (hB : OpIs tB (fun i k => (Bv i k).map S.val) opB)
    (h1 : S.val Arith.one = 1) (he : ∀ a b : F, ArithEq.feq a b = true → S.val a = S.val b)
    (h : FGemmArgs m tA tB M N K ALPHA A LDA B LDB C LDC Av Bv Cv) :
    ∃ m' V, hgemmF tA tB M N K ALPHA A LDA B LDB BETA C LDC m = .ok ((), m') ∧
      MatAt m' C LDC M.toNat N.toNat V ∧
      ∀ i j, i < M.toNat → j < N.toNat → (V i j).All S.ok →
        ‖((V i j).map S.val).toH - ((ALPHA.map S.val).toH * ∑ k ∈ range K.toNat, opA i k * opB k j +
            (BETA.map S.val).toH * ((Cv i j).map S.val).toH)‖ ≤
          2 * (((1 + u) ^ (4 * K.toNat + 7) - 1) *
            (‖(BETA.map S.val).toH‖ * ‖((Cv i j).map S.val).toH‖ +
              2 * ‖(ALPHA.map S.val).toH‖ * ∑ k ∈ range K.toNat, ‖opA i k‖ * ‖opB k j‖)) := by
  have ha := fTruth_of h1 he ALPHA
  have hb := fTruth_of h1 he BETA
  obtain ⟨m', h1, h2, _⟩ := hgemmF_bits m tA tB M N K ALPHA BETA A LDA B LDB C LDC Av Bv Cv h
  refine ⟨m', _, h1, h2, fun i j _ _ ho => ?_⟩
  obtain ⟨z, hz, ez⟩ := StdModel.QR.fGemm (ta := FTrans.ofChar tA) (tb := FTrans.ofChar tB) (c := Cv i j) (K := K)
    (x := fun k => (FTrans.ofChar tA).pick Av i k) (y := fun k => (FTrans.ofChar tB).pick Bv k j) ha hb
  have := hz.norm ho
  rw [ez] at this
  simp only [map_pick, cj_pick hA, cj_pick hB] at this
  have e : ∀ k, ‖(((FTrans.ofChar tA).pick (fun i k => (Av i k).map S.val) i k).toH)‖ *
      ‖(((FTrans.ofChar tB).pick (fun i k => (Bv i k).map S.val) k j).toH)‖ = ‖opA i k‖ * ‖opB k j‖ := by
    intro k
    rw [← cj_pick hA, ← cj_pick hB, norm_cj, norm_cj]
  simp only [e] at this
  exact this

/-- The hypotheses of `C42_gemm_fortran` are met: rounded arithmetic (`Chop`), quaternion ALPHA, conjugate-transposed A. -/
example (f : Int → Chop) : (∃ (Av Bv Cv : Nat → Nat → Quat Chop) (opA opB : Nat → Nat → ℍ[ℝ]),
    FGemmArgs (memOf 0 64 f) 'c' 'N' 3 1 2 (.h ⟨f 1, f 2, f 3, f 4⟩) 0 2 24 2 33 4 Av Bv Cv ∧
    OpIs 'c' (fun i k => (Av i k).map chopModel.val) opA ∧ OpIs 'N' (fun i k => (Bv i k).map chopModel.val) opB) ∧
    chopModel.val Arith.one = 1 ∧ ∀ a b : Chop, ArithEq.feq a b = true → chopModel.val a = chopModel.val b := by
  obtain ⟨Av, Bv, Cv, h, _⟩ := fGemmArgs_example f (.h ⟨f 1, f 2, f 3, f 4⟩)
  exact ⟨⟨Av, Bv, Cv, _, _, h, Or.inr (Or.inr ⟨Or.inr rfl, fun _ _ => rfl⟩), Or.inl ⟨Or.inl rfl, fun _ _ => rfl⟩⟩,
    chop_truth.1, chop_truth.2⟩

end Haxx
