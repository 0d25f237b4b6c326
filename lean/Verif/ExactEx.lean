import Verif.ExactInst

/-!
# C59: every theorem applied to concrete integer data in IEEE double precision

Memory holds `a % 7` at cell `a`; `fused` is arbitrary.
-/

namespace Haxx
open Arith Quaternion Finset IntModel

variable {fused : Bool}

noncomputable def num7 (a : Int) : Dbl fused := some ((a % 7 : ℤ) : ℝ)

theorem num7_int (a : Int) : (rneModel fused).Int1 7 (num7 a) := by
  refine ⟨rfl, a % 7, rfl, ?_⟩
  have h1 := Int.emod_nonneg a (show (7:ℤ) ≠ 0 by decide)
  have h2 := Int.emod_lt_of_pos a (show (0:ℤ) < 7 by decide)
  rw [abs_of_nonneg (by exact_mod_cast h1)]
  exact_mod_cast h2.le

theorem num7_q (a b c d : Int) : (rneModel fused).IntQ 7 ⟨num7 a, num7 b, num7 c, num7 d⟩ :=
  ⟨num7_int a, num7_int b, num7_int c, num7_int d⟩

theorem num7_truth (a b : Int) : StdModel.Truth (rneModel fused).toStdModel (.z ⟨num7 a, num7 b⟩) :=
  (truth_of (rne_truth fused).1 (rne_truth fused).2).2.1 _

/-- SCALV, AXPYV with a quaternion ALPHA = 1 + 2i + 3j + 4k, DOT: five elements at increments 2 and 3. -/
example := C59_scalv (rneModel fused) _ 'L' 5 0 2 (.h ⟨num7 1, num7 2, num7 3, num7 4⟩) _ (lv1_example num7).1 (by decide)
  7 7 (num7_q ..) (fun _ _ => num7_q ..) (by norm_num)

example := C59_axpyv (rneModel fused) _ 'R' 5 0 2 60 3 (.h ⟨num7 1, num7 2, num7 3, num7 4⟩) _ _ (lv1_example num7).1
  (lv1_example num7).2.1 (by decide) (lv1_example (num7 (fused := fused))).2.2 7 7 7 (num7_q ..) (fun _ _ => num7_q ..) (fun _ _ => num7_q ..)
  (by norm_num)

example := C59_dot (rneModel fused) _ 5 0 2 60 3 _ _ (lv1_example num7).1 (lv1_example num7).2.1 (by unfold Fits32; decide)
  (by unfold Fits32; decide) 7 7 (by norm_num) (by norm_num) (fun _ _ => num7_q ..) (fun _ _ => num7_q ..)
  (by rw [show (5:Int).toNat = 5 from rfl]; norm_num)

example := C59_dot_builds_agree (rneModel fused) _ 5 0 2 60 3 _ _ (lv1_example num7).1 (lv1_example num7).2.1 (by decide)
  (by decide) (by unfold Fits32; decide) (by unfold Fits32; decide) (by unfold Fits32; decide) (by unfold Fits32; decide)
  7 7 (by norm_num) (by norm_num) (fun _ _ => num7_q ..) (fun _ _ => num7_q ..) (by rw [show (5:Int).toNat = 5 from rfl]; norm_num) true

/-- GEMM: A conjugate-transposed, M N K = 3 1 2. -/
example (junk : Int → Dbl fused) := C59_gemm (rneModel fused) _ _ _ _ junk 'C' 'N' 3 1 2 (.z ⟨num7 1, num7 2⟩) (.d (num7 3)) _ _ _ _ _ _ _ _ _
  (gemmPre_example' num7) 7 7 7 7 7 ⟨num7_int _, num7_int _⟩ (num7_int 3) (fun _ _ _ _ => num7_q ..)
  (fun _ _ _ _ => num7_q ..) (fun _ _ _ _ => num7_q ..) (by norm_num) (by norm_num)
  (by rw [show (2:Int).toNat = 2 from rfl]; norm_num)

example := C59_scalv_portable (rneModel fused) _ 'R' 5 0 2 (.h ⟨num7 1, num7 2, num7 3, num7 4⟩) _ (lv1_example num7).1 (by decide)
  (by unfold Fits32; decide) 7 7 (num7_q ..) (fun _ _ => num7_q ..) (by norm_num)

example := C59_axpyv_portable (rneModel fused) _ 'R' 5 0 2 60 3 (.z ⟨num7 1, num7 2⟩) _ _ (lv1_example num7).1
  (lv1_example num7).2.1 (by decide) (by decide) (by unfold Fits32; decide) (by unfold Fits32; decide) (lv1_example (num7 (fused := fused))).2.2
  (num7_truth 1 2).zero 7 7 7 ⟨num7_int _, num7_int _⟩ (fun _ _ => num7_q ..) (fun _ _ => num7_q ..) (by norm_num)

/-- GEMV: A complex, conjugate-transposed. -/
example := C59_gemv_portable (rneModel fused) _ .z 'C' 2 3 (.z ⟨num7 1, num7 2⟩) 0 2 20 2 (.z ⟨num7 3, num7 4⟩) 40 1 _ _ _ _
  (.inr (.inr ⟨rfl, fun _ _ => rfl⟩)) (num7_truth 1 2) (num7_truth 3 4) (by decide) (by decide)
  (gemvBArgs_example num7 (.z ⟨num7 1, num7 2⟩)) 7 7 7 7 7 ⟨num7_int _, num7_int _⟩ ⟨num7_int _, num7_int _⟩
  (fun _ _ _ _ => ⟨num7_int _, num7_int _⟩) (fun _ _ => num7_q ..) (fun _ _ => num7_q ..)
  (by norm_num) (by norm_num) (by norm_num) (by norm_num)
  (by rw [show (if 'C' = 'N' then (3:Int) else 2).toNat = 2 from rfl]; norm_num)

example := C59_ger_portable (rneModel fused) true _ 2 3 (.z ⟨num7 1, num7 2⟩) 60 2 90 1 0 4 _ _ _ (num7_truth 1 2)
  (gerBArgs_example num7) 7 7 7 7 ⟨num7_int _, num7_int _⟩ (fun _ _ => num7_q ..) (fun _ _ => num7_q ..)
  (fun _ _ _ _ => num7_q ..) (by norm_num) (by norm_num)

/-- Fortran, with a negative increment. -/
example := C59_axpyv_fortran (rneModel fused) _ 'r' 5 0 (-2) 90 3 (.h ⟨num7 1, num7 2, num7 3, num7 4⟩) _ _ (lv1F_example num7).1
  (lv1F_example num7).2.1 (by decide) (lv1F_example (num7 (fused := fused))).2.2 (rne_truth fused).2 7 7 7 (num7_q ..) (fun _ _ => num7_q ..)
  (fun _ _ => num7_q ..) (by norm_num)

example := C59_scalv_fortran (rneModel fused) _ 'r' 5 90 3 (.d (num7 1)) _ (lv1F_example num7).2.1 (by decide)
  (by
    refine Bool.eq_false_iff.mpr fun h => ?_
    have h' : ∃ x : ℝ, (num7 1 : Dbl fused) = some x ∧ (Arith.zero : Dbl fused) = some x := by
      classical exact of_decide_eq_true h
    obtain ⟨x, h1, h2⟩ := h'
    have h1 : (((1 % 7 : ℤ) : ℝ)) = x := Option.some.inj h1
    have h2 : (0:ℝ) = x := Option.some.inj h2
    rw [← h2] at h1
    norm_num at h1)
  7 7 (num7_int 1) (fun _ _ => num7_q ..) (by norm_num)

example := C59_dot_fortran (rneModel fused) _ 5 0 (-2) 90 3 _ _ (lv1F_example num7).1 (lv1F_example num7).2.1 7 7
  (by norm_num) (by norm_num) (fun _ _ => num7_q ..) (fun _ _ => num7_q ..)
  (by rw [show (5:Int).toNat = 5 from rfl]; norm_num)

example := C59_gemv_fortran_partial (rneModel fused) _ 'C' 2 3 (.h ⟨num7 1, num7 2, num7 3, num7 4⟩) 0 4 60 2 (.z ⟨num7 3, num7 4⟩) 90 (-1)
  _ _ _ _ (.inr (.inr ⟨.inl rfl, fun _ _ => rfl⟩)) (rne_truth fused).1 (rne_truth fused).2 (by decide) (by decide)
  (fGemvArgs_example num7 _) (fGemvGood_example _ _) 7 7 7 7 7 (num7_q ..) ⟨num7_int _, num7_int _⟩
  (fun _ _ _ _ => num7_q ..) (fun _ _ => num7_q ..) (fun _ _ => num7_q ..)
  (by norm_num) (by norm_num) (by norm_num) (by norm_num) (by rw [show (gemvLenX 'C' 2 3).toNat = 2 from rfl]; norm_num)

example := C59_ger_fortran (rneModel fused) true _ 2 3 (.h ⟨num7 1, num7 2, num7 3, num7 4⟩) 60 2 90 (-1) 0 4 _ _ _
  (rne_truth fused).2 (gerArgs_example' num7) (by intro r h; cases h) 7 7 7 7 (num7_q ..) (fun _ _ => num7_q ..) (fun _ _ => num7_q ..)
  (fun _ _ _ _ => num7_q ..) (by norm_num) (by norm_num)

theorem gemmBArgs_hexample {F : Type} [Arith F] [ArithEq F] (f : Int → F) (s : Scal F) :
    GemmBArgs (memOf 0 64 f) .h 'C' 'N' 3 1 2 s 0 2 24 2 33 4
      (fun i j => .h (let p : Int := 0 + 4 * (i + j * 2); ⟨f p, f (p+1), f (p+2), f (p+3)⟩))
      (fun i j => let p : Int := 24 + 4 * (i + j * 2); ⟨f p, f (p+1), f (p+2), f (p+3)⟩)
      (fun i j => let p : Int := 33 + 4 * (i + j * 4); ⟨f p, f (p+1), f (p+2), f (p+3)⟩) where
  hA := by
    intro _ i j hi hj
    have := (gemmPre_example' f).matA i j hi hj
    simp only [readK, Kind.width] at this ⊢
    rw [this]
  hB := fun _ => (gemmPre_example' f).matB
  hC := (gemmPre_example' f).matC
  hld := by decide
  fitA := by
    intro l hl
    have hl : l < 3 := hl
    unfold Fits32; omega
  fitB := by
    intro l hl
    have hl : l < 1 := hl
    unfold Fits32; omega
  fitC := by
    intro l hl
    have hl : l < 1 := hl
    unfold Fits32; omega
  hAC := by
    rintro a ⟨i, j, hi, hj, h1, h2⟩ h3
    exact (gemmPre_example' f).apartA a ⟨i, j, hi, hj, h1, h2⟩ h3
  hBC := (gemmPre_example' f).apartB

theorem fGemmArgs_cexample {F : Type} [Arith F] [ArithEq F] (f : Int → F) (s : Scal F) :
    FGemmArgs (memOf 0 64 f) 'C' 'N' 3 1 2 s 0 2 24 2 33 4
      (fun i j => let p : Int := 0 + 4 * (i + j * 2); ⟨f p, f (p+1), f (p+2), f (p+3)⟩)
      (fun i j => let p : Int := 24 + 4 * (i + j * 2); ⟨f p, f (p+1), f (p+2), f (p+3)⟩)
      (fun i j => let p : Int := 33 + 4 * (i + j * 4); ⟨f p, f (p+1), f (p+2), f (p+3)⟩) :=
  have h := gemmPre_example' f
  ⟨fun _ => h.matA, fun _ => h.matB, h.matC, by decide, h.apartA, h.apartB⟩

/-- All three builds of GEMM on the same integer matrices (this needs the hypotheses of `C59_gemm`,
`C59_gemm_portable` and `C59_gemm_fortran`). -/
example (junk : Int → Dbl fused) := C59_gemm_builds_agree (rneModel fused) _ _ _ _ junk 'C' 'N' 3 1 2 (.z ⟨num7 1, num7 2⟩)
  (.z ⟨num7 3, num7 4⟩) _ _ _ _ _ _ _ _ _ (.inr (.inr rfl)) (.inl rfl) (rne_truth fused).1 (rne_truth fused).2
  (num7_truth 1 2) (num7_truth 3 4) (gemmPre_example' num7) (gemmBArgs_hexample num7 _) (fGemmArgs_cexample num7 _)
  7 7 7 7 7 ⟨num7_int _, num7_int _⟩ ⟨num7_int _, num7_int _⟩ (fun _ _ _ _ => num7_q ..) (fun _ _ _ _ => num7_q ..)
  (fun _ _ _ _ => num7_q ..) (by norm_num) (by norm_num) (by norm_num) (by norm_num)
  (by rw [show (2:Int).toNat = 2 from rfl]; norm_num)

end Haxx
