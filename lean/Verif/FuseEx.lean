import Verif.PropsFuse
import Verif.ExactEx
import Verif.FinEx

/-!
# C66: concrete calls, signs, and the unfused run

(The first part is generated by tools/gen_fuse_ex.py.) Calls that meet the hypotheses of the theorems of PropsFuse.lean, over
IEEE double precision, for every choice `pol` of the compiler.
-/

namespace Haxx
open Arith F64

variable {fused : Bool} {pol : Ex Unit → Fusing}

section examples

noncomputable def lbig (a : Int) : Fused (F64 fused) pol := Fused.lit a (big7 a)
noncomputable def lnum (a : Int) : Fused (Dbl fused) pol := Fused.lit a (num7 a)

theorem u16 : (2:ℝ)⁻¹ ^ 53 ≤ 1 / 16 := by norm_num
theorem one_le_max : 1 ≤ maxDouble := by
  unfold maxDouble
  refine (one_le_zpow₀ (by norm_num : (1:ℝ) ≤ 2) (by norm_num : (0:ℤ) ≤ 971)).trans ?_
  exact le_mul_of_one_le_left (two_zpow_pos 971).le (by norm_num)

theorem lbig_bdd (a : Int) : Lit1 (ieeeModel fused) big (lbig a : Fused _ pol) :=
  ⟨a, _, rfl, (big7_bdd a).1.1, (big7_bdd a).2⟩
theorem lbig_q (a b c d : Int) : LitQ (ieeeModel fused) big (⟨lbig a, lbig b, lbig c, lbig d⟩ : Quat (Fused _ pol)) :=
  ⟨lbig_bdd a, lbig_bdd b, lbig_bdd c, lbig_bdd d⟩
theorem lnum_int (a : Int) : IntLit1 (rneModel fused) 7 (lnum a : Fused _ pol) := ⟨a, _, rfl, num7_int a⟩
theorem lnum_q (a b c d : Int) : IntLitQ (rneModel fused) 7 (⟨lnum a, lnum b, lnum c, lnum d⟩ : Quat (Fused _ pol)) :=
  ⟨lnum_int a, lnum_int b, lnum_int c, lnum_int d⟩

theorem lbig_truth (a b : Int) : CTruth (ieeeModel fused) (.z ⟨lbig a, lbig b⟩ : Scal (Fused _ pol)) :=
  ⟨(big7_truth a b).zero, (big7_truth a b).one⟩
theorem lnum_truth (a b : Int) : ITruth (rneModel fused) (.z ⟨lnum a, lnum b⟩ : Scal (Fused _ pol)) :=
  ⟨(num7_truth a b).zero, (num7_truth a b).one⟩
theorem lbig_ne_zero : (Scal.d (lbig 1 : Fused (F64 fused) pol)).vIsZero = false := big7_ne_zero (fused := fused)
theorem lnum_ne_zero : (Scal.d (lnum 1 : Fused (Dbl fused) pol)).vIsZero = false := by
  refine Bool.eq_false_iff.mpr fun h => ?_
  have h' : ∃ x : ℝ, (num7 1 : Dbl fused) = some x ∧ (Arith.zero : Dbl fused) = some x := by
    classical exact of_decide_eq_true h
  obtain ⟨x, h1, h2⟩ := h'
  have h1 : (((1 % 7 : ℤ) : ℝ)) = x := Option.some.inj h1
  have h2 : (0:ℝ) = x := Option.some.inj h2
  rw [← h2] at h1
  norm_num at h1

/-- chains of up to 60 roundings of numbers up to 200 · 2⁶⁰⁹ do not overflow -/
theorem fits8_big {D : ℕ} {S : ℝ} (hD : D ≤ 60) (hS : S ≤ 200 * (big * big * big)) : Fits8 ((2:ℝ)⁻¹ ^ 53) maxDouble D S := by
  unfold Fits8
  have h3 : big * big * big = (2:ℝ) ^ (609:ℤ) := by
    unfold big; rw [← zpow_add₀ (by norm_num), ← zpow_add₀ (by norm_num)]; norm_num
  have h1 : (1 + 2 * (4 * (2:ℝ)⁻¹ ^ 53)) ^ D ≤ (2:ℝ) ^ 60 :=
    (pow_le_pow_left₀ (by positivity) (by norm_num) D).trans (pow_le_pow_right₀ (by norm_num) hD)
  have h4 : (0:ℝ) < (2:ℝ) ^ (609:ℤ) := two_zpow_pos 609
  have h5 : (2:ℝ) ^ (677:ℤ) = 2 ^ 60 * (2 ^ 8 * (2:ℝ) ^ (609:ℤ)) := by
    rw [show (677:ℤ) = 60 + (8 + 609) by norm_num, zpow_add₀ (by norm_num), zpow_add₀ (by norm_num), zpow_ofNat 2 60, zpow_ofNat 2 8]
  have h6 : (2:ℝ) ^ (677:ℤ) ≤ maxDouble / 2 := by
    have h7 : (2:ℝ) ^ (971:ℤ) ≤ maxDouble / 2 := by
      unfold maxDouble
      have := two_zpow_pos 971
      rw [le_div_iff₀ (by norm_num), mul_comm]
      exact mul_le_mul_of_nonneg_right (by norm_num) this.le
    exact (zpow_le_zpow_right₀ (by norm_num) (by norm_num : (677:ℤ) ≤ 971)).trans h7
  refine le_trans ?_ h6
  rw [h5]
  rw [h3] at hS
  have h7 : S ≤ 2 ^ 8 * (2:ℝ) ^ (609:ℤ) := hS.trans (mul_le_mul_of_nonneg_right (by norm_num) h4.le)
  have h8 : (0:ℝ) ≤ 2 ^ 8 * (2:ℝ) ^ (609:ℤ) := by positivity
  have h0 : (0:ℝ) ≤ (1 + 2 * (4 * (2:ℝ)⁻¹ ^ 53)) ^ D := by positivity
  exact (mul_le_mul_of_nonneg_left h7 h0).trans (mul_le_mul_of_nonneg_right h1 h8)

/-- the side conditions on the sizes -/
local macro "fitsl" : tactic => `(tactic| refine fits8_big (by decide) (by
  first
    | (linarith [big_pow.1, big_pow.2.1, big_pow.2.2])
    | (rw [show (5:Int).toNat = 5 from rfl]; push_cast; linarith [big_pow.1, big_pow.2.1, big_pow.2.2])
    | (rw [show (2:Int).toNat = 2 from rfl]; push_cast; linarith [big_pow.1, big_pow.2.1, big_pow.2.2])
    | (rw [show (if 'C' = 'N' then (3:Int) else 2).toNat = 2 from rfl]; push_cast; linarith [big_pow.1, big_pow.2.1, big_pow.2.2])
    | (rw [show (gemvLenX 'C' 2 3).toNat = 2 from rfl]; push_cast; linarith [big_pow.1, big_pow.2.1, big_pow.2.2])))

example := C66_exact_scalv (rneModel fused) u16 pol _ 'L' 5 0 2 (.h ⟨lnum 1, lnum 2, lnum 3, lnum 4⟩) _ (lv1_example lnum).1 (by decide)
  7 7 (lnum_q ..) (fun _ _ => lnum_q ..) (by norm_num)

example := C66_exact_axpyv (rneModel fused) u16 pol _ 'R' 5 0 2 60 3 (.h ⟨lnum 1, lnum 2, lnum 3, lnum 4⟩) _ _ (lv1_example lnum).1
  (lv1_example lnum).2.1 (by decide) (lv1_example (lnum (fused := fused) (pol := pol))).2.2 7 7 7 (lnum_q ..) (fun _ _ => lnum_q ..) (fun _ _ => lnum_q ..)
  (by norm_num)

example := C66_exact_dot (rneModel fused) u16 pol _ 5 0 2 60 3 _ _ (lv1_example lnum).1 (lv1_example lnum).2.1 (by unfold Fits32; decide)
  (by unfold Fits32; decide) 7 7 (by norm_num) (by norm_num) (fun _ _ => lnum_q ..) (fun _ _ => lnum_q ..)
  (by rw [show (5:Int).toNat = 5 from rfl]; norm_num)

example (junk : Int → Fused (Dbl fused) pol) := C66_exact_gemm (rneModel fused) u16 pol _ _ _ _ junk 'C' 'N' 3 1 2 (.z ⟨lnum 1, lnum 2⟩) (.d (lnum 3)) _ _ _ _ _ _ _ _ _
  (gemmPre_example' lnum) 7 7 7 7 7 ⟨lnum_int _, lnum_int _⟩ (lnum_int 3) (fun _ _ _ _ => lnum_q ..)
  (fun _ _ _ _ => lnum_q ..) (fun _ _ _ _ => lnum_q ..) (by norm_num) (by norm_num)
  (by rw [show (2:Int).toNat = 2 from rfl]; norm_num)

example := C66_exact_scalv_portable (rneModel fused) u16 pol _ 'R' 5 0 2 (.h ⟨lnum 1, lnum 2, lnum 3, lnum 4⟩) _ (lv1_example lnum).1 (by decide)
  (by unfold Fits32; decide) 7 7 (lnum_q ..) (fun _ _ => lnum_q ..) (by norm_num)

example := C66_exact_axpyv_portable (rneModel fused) u16 pol _ 'R' 5 0 2 60 3 (.z ⟨lnum 1, lnum 2⟩) _ _ (lv1_example lnum).1
  (lv1_example lnum).2.1 (by decide) (by decide) (by unfold Fits32; decide) (by unfold Fits32; decide) (lv1_example (lnum (fused := fused) (pol := pol))).2.2
  (lnum_truth 1 2).1 7 7 7 ⟨lnum_int _, lnum_int _⟩ (fun _ _ => lnum_q ..) (fun _ _ => lnum_q ..) (by norm_num)

example := C66_exact_gemv_portable (rneModel fused) u16 pol _ .z 'C' 2 3 (.z ⟨lnum 1, lnum 2⟩) 0 2 20 2 (.z ⟨lnum 3, lnum 4⟩) 40 1 _ _ _ _
  (.inr (.inr ⟨rfl, fun _ _ => rfl⟩)) (lnum_truth 1 2) (lnum_truth 3 4) (by decide) (by decide)
  (gemvBArgs_example lnum (.z ⟨lnum 1, lnum 2⟩)) 7 7 7 7 7 ⟨lnum_int _, lnum_int _⟩ ⟨lnum_int _, lnum_int _⟩
  (fun _ _ _ _ => ⟨lnum_int _, lnum_int _⟩) (fun _ _ => lnum_q ..) (fun _ _ => lnum_q ..)
  (by norm_num) (by norm_num) (by norm_num) (by norm_num)
  (by rw [show (if 'C' = 'N' then (3:Int) else 2).toNat = 2 from rfl]; norm_num)

example := C66_exact_ger_portable (rneModel fused) u16 pol true _ 2 3 (.z ⟨lnum 1, lnum 2⟩) 60 2 90 1 0 4 _ _ _ (lnum_truth 1 2)
  (gerBArgs_example lnum) 7 7 7 7 ⟨lnum_int _, lnum_int _⟩ (fun _ _ => lnum_q ..) (fun _ _ => lnum_q ..)
  (fun _ _ _ _ => lnum_q ..) (by norm_num) (by norm_num)

example := C66_exact_axpyv_fortran (rneModel fused) u16 pol _ 'r' 5 0 (-2) 90 3 (.h ⟨lnum 1, lnum 2, lnum 3, lnum 4⟩) _ _ (lv1F_example lnum).1
  (lv1F_example lnum).2.1 (by decide) (lv1F_example (lnum (fused := fused) (pol := pol))).2.2 (rne_truth fused).2 7 7 7 (lnum_q ..) (fun _ _ => lnum_q ..)
  (fun _ _ => lnum_q ..) (by norm_num)

example := C66_exact_scalv_fortran (rneModel fused) u16 pol _ 'r' 5 90 3 (.d (lnum 1)) _ (lv1F_example lnum).2.1 (by decide)
  lnum_ne_zero
  7 7 (lnum_int 1) (fun _ _ => lnum_q ..) (by norm_num)

example := C66_exact_dot_fortran (rneModel fused) u16 pol _ 5 0 (-2) 90 3 _ _ (lv1F_example lnum).1 (lv1F_example lnum).2.1 7 7
  (by norm_num) (by norm_num) (fun _ _ => lnum_q ..) (fun _ _ => lnum_q ..)
  (by rw [show (5:Int).toNat = 5 from rfl]; norm_num)

example := C66_exact_gemv_fortran_partial (rneModel fused) u16 pol _ 'C' 2 3 (.h ⟨lnum 1, lnum 2, lnum 3, lnum 4⟩) 0 4 60 2 (.z ⟨lnum 3, lnum 4⟩) 90 (-1)
  _ _ _ _ (.inr (.inr ⟨.inl rfl, fun _ _ => rfl⟩)) (rne_truth fused).1 (rne_truth fused).2 (by decide) (by decide)
  (fGemvArgs_example lnum _) (fGemvGood_example _ _) 7 7 7 7 7 (lnum_q ..) ⟨lnum_int _, lnum_int _⟩
  (fun _ _ _ _ => lnum_q ..) (fun _ _ => lnum_q ..) (fun _ _ => lnum_q ..)
  (by norm_num) (by norm_num) (by norm_num) (by norm_num) (by rw [show (gemvLenX 'C' 2 3).toNat = 2 from rfl]; norm_num)

example := C66_exact_ger_fortran (rneModel fused) u16 pol true _ 2 3 (.h ⟨lnum 1, lnum 2, lnum 3, lnum 4⟩) 60 2 90 (-1) 0 4 _ _ _
  (rne_truth fused).2 (gerArgs_example' lnum) (by intro r h; cases h) 7 7 7 7 (lnum_q ..) (fun _ _ => lnum_q ..) (fun _ _ => lnum_q ..)
  (fun _ _ _ _ => lnum_q ..) (by norm_num) (by norm_num)

example := C66_acc_scalv (ieeeModel fused) (fun _ h => h) u16 one_le_max pol _ 'L' 5 0 2 (.h ⟨lbig 1, lbig 2, lbig 3, lbig 4⟩) _ (lv1_example lbig).1 (by decide)
  big big one_le_big one_le_big (lbig_q ..) (fun _ _ => lbig_q ..) (by fitsl)

example := C66_acc_axpyv (ieeeModel fused) (fun _ h => h) u16 one_le_max pol _ 'R' 5 0 2 60 3 (.h ⟨lbig 1, lbig 2, lbig 3, lbig 4⟩) _ _ (lv1_example lbig).1
  (lv1_example lbig).2.1 (by decide) (lv1_example (lbig (fused := fused) (pol := pol))).2.2 big big big one_le_big one_le_big (lbig_q ..) (fun _ _ => lbig_q ..)
  (fun _ _ => lbig_q ..) (by fitsl)

example := C66_acc_dot (ieeeModel fused) (fun _ h => h) u16 one_le_max pol _ 5 0 2 60 3 _ _ (lv1_example lbig).1 (lv1_example lbig).2.1 (by unfold Fits32; decide)
  (by unfold Fits32; decide) big big one_le_big one_le_big (fun _ _ => lbig_q ..) (fun _ _ => lbig_q ..) (by fitsl)

example (junk : Int → Fused (F64 fused) pol) := C66_acc_gemm (ieeeModel fused) (fun _ h => h) u16 one_le_max pol _ _ _ _ junk 'C' 'N' 3 1 2 (.z ⟨lbig 1, lbig 2⟩) (.d (lbig 3)) _ _ _ _ _ _ _ _ _
  (gemmPre_example' lbig) big big big big big ⟨lbig_bdd _, lbig_bdd _⟩ (lbig_bdd 3) (fun _ _ _ _ => lbig_q ..)
  (fun _ _ _ _ => lbig_q ..) (fun _ _ _ _ => lbig_q ..) one_le_big one_le_big one_le_big one_le_big one_le_big (by fitsl)

example := C66_acc_scalv_portable (ieeeModel fused) (fun _ h => h) u16 one_le_max pol _ 'R' 5 0 2 (.h ⟨lbig 1, lbig 2, lbig 3, lbig 4⟩) _ (lv1_example lbig).1 (by decide)
  (by unfold Fits32; decide) big big one_le_big one_le_big (lbig_q ..) (fun _ _ => lbig_q ..) (by fitsl)

example := C66_acc_axpyv_portable (ieeeModel fused) (fun _ h => h) u16 one_le_max pol _ 'R' 5 0 2 60 3 (.z ⟨lbig 1, lbig 2⟩) _ _ (lv1_example lbig).1
  (lv1_example lbig).2.1 (by decide) (by decide) (by unfold Fits32; decide) (by unfold Fits32; decide) (lv1_example (lbig (fused := fused) (pol := pol))).2.2
  (lbig_truth 1 2).1 big big big one_le_big one_le_big ⟨lbig_bdd _, lbig_bdd _⟩ (fun _ _ => lbig_q ..) (fun _ _ => lbig_q ..) (by fitsl)

example := C66_acc_dot_portable (ieeeModel fused) (fun _ h => h) u16 one_le_max pol _ 5 0 2 60 3 _ _ (lv1_example lbig).1 (lv1_example lbig).2.1 (by decide) (by decide)
  (by unfold Fits32; decide) (by unfold Fits32; decide) big big one_le_big one_le_big (fun _ _ => lbig_q ..) (fun _ _ => lbig_q ..) (by fitsl)

example := C66_acc_gemm_portable (ieeeModel fused) (fun _ h => h) u16 one_le_max pol _ .h 'C' 'N' 3 1 2 (.z ⟨lbig 1, lbig 2⟩) (.z ⟨lbig 3, lbig 4⟩) _ _ _ _ _ _ _ _ _ _ _
  (.inr (.inr ⟨rfl, fun _ _ => rfl⟩)) (.inl ⟨rfl, fun _ _ => rfl⟩) (lbig_truth 1 2) (lbig_truth 3 4)
  (gemmBArgs_hexample lbig _) big big big big big ⟨lbig_bdd _, lbig_bdd _⟩ ⟨lbig_bdd _, lbig_bdd _⟩
  (fun _ _ _ _ => lbig_q ..) (fun _ _ _ _ => lbig_q ..) (fun _ _ _ _ => lbig_q ..) one_le_big one_le_big one_le_big one_le_big one_le_big (by fitsl)

example := C66_acc_gemv_portable (ieeeModel fused) (fun _ h => h) u16 one_le_max pol _ .z 'C' 2 3 (.z ⟨lbig 1, lbig 2⟩) 0 2 20 2 (.z ⟨lbig 3, lbig 4⟩) 40 1 _ _ _ _
  (.inr (.inr ⟨rfl, fun _ _ => rfl⟩)) (lbig_truth 1 2) (lbig_truth 3 4) (by decide) (by decide)
  (gemvBArgs_example lbig (.z ⟨lbig 1, lbig 2⟩)) big big big big big ⟨lbig_bdd _, lbig_bdd _⟩ ⟨lbig_bdd _, lbig_bdd _⟩
  (fun _ _ _ _ => ⟨lbig_bdd _, lbig_bdd _⟩) (fun _ _ => lbig_q ..) (fun _ _ => lbig_q ..) one_le_big one_le_big one_le_big one_le_big one_le_big (by fitsl)

example := C66_acc_ger_portable (ieeeModel fused) (fun _ h => h) u16 one_le_max pol true _ 2 3 (.z ⟨lbig 1, lbig 2⟩) 60 2 90 1 0 4 _ _ _ (lbig_truth 1 2)
  (gerBArgs_example lbig) big big big big ⟨lbig_bdd _, lbig_bdd _⟩ (fun _ _ => lbig_q ..) (fun _ _ => lbig_q ..)
  (fun _ _ _ _ => lbig_q ..) one_le_big one_le_big one_le_big (by fitsl)

example := C66_acc_scalv_fortran (ieeeModel fused) (fun _ h => h) u16 one_le_max pol _ 'r' 5 90 3 (.d (lbig 1)) _ (lv1F_example lbig).2.1 (by decide)
  lbig_ne_zero big big one_le_big one_le_big (lbig_bdd 1) (fun _ _ => lbig_q ..) (by fitsl)

example := C66_acc_axpyv_fortran (ieeeModel fused) (fun _ h => h) u16 one_le_max pol _ 'r' 5 0 (-2) 90 3 (.h ⟨lbig 1, lbig 2, lbig 3, lbig 4⟩) _ _ (lv1F_example lbig).1
  (lv1F_example lbig).2.1 (by decide) (lv1F_example (lbig (fused := fused) (pol := pol))).2.2 (ieee_truth fused).2 big big big one_le_big one_le_big (lbig_q ..)
  (fun _ _ => lbig_q ..) (fun _ _ => lbig_q ..) (by fitsl)

example := C66_acc_dot_fortran (ieeeModel fused) (fun _ h => h) u16 one_le_max pol _ 5 0 (-2) 90 3 _ _ (lv1F_example lbig).1 (lv1F_example lbig).2.1 big big
  one_le_big one_le_big (fun _ _ => lbig_q ..) (fun _ _ => lbig_q ..) (by fitsl)

example := C66_acc_gemm_fortran (ieeeModel fused) (fun _ h => h) u16 one_le_max pol _ 'C' 'N' 3 1 2 (.z ⟨lbig 1, lbig 2⟩) (.z ⟨lbig 3, lbig 4⟩) _ _ _ _ _ _ _ _ _ _ _
  (.inr (.inr ⟨.inl rfl, fun _ _ => rfl⟩)) (.inl ⟨.inl rfl, fun _ _ => rfl⟩) (ieee_truth fused).1 (ieee_truth fused).2
  (fGemmArgs_cexample lbig _) big big big big big ⟨lbig_bdd _, lbig_bdd _⟩ ⟨lbig_bdd _, lbig_bdd _⟩
  (fun _ _ _ _ => lbig_q ..) (fun _ _ _ _ => lbig_q ..) (fun _ _ _ _ => lbig_q ..) one_le_big one_le_big one_le_big one_le_big one_le_big (by fitsl)

example := C66_acc_gemv_fortran_partial (ieeeModel fused) (fun _ h => h) u16 one_le_max pol _ 'C' 2 3 (.h ⟨lbig 1, lbig 2, lbig 3, lbig 4⟩) 0 4 60 2 (.z ⟨lbig 3, lbig 4⟩) 90 (-1)
  _ _ _ _ (.inr (.inr ⟨.inl rfl, fun _ _ => rfl⟩)) (ieee_truth fused).1 (ieee_truth fused).2 (by decide) (by decide)
  (fGemvArgs_example lbig _) (fGemvGood_example _ _) big big big big big (lbig_q ..) ⟨lbig_bdd _, lbig_bdd _⟩
  (fun _ _ _ _ => lbig_q ..) (fun _ _ => lbig_q ..) (fun _ _ => lbig_q ..) one_le_big one_le_big one_le_big one_le_big one_le_big (by fitsl)

example := C66_acc_ger_fortran (ieeeModel fused) (fun _ h => h) u16 one_le_max pol true _ 2 3 (.h ⟨lbig 1, lbig 2, lbig 3, lbig 4⟩) 60 2 90 (-1) 0 4 _ _ _
  (ieee_truth fused).2 (gerArgs_example' lbig) (by intro r h; cases h) big big big big (lbig_q ..) (fun _ _ => lbig_q ..)
  (fun _ _ => lbig_q ..) (fun _ _ _ _ => lbig_q ..) one_le_big one_le_big one_le_big (by fitsl)

example := C66_exact_scalm (rneModel fused) u16 pol _ 'L' 3 2 (.h ⟨lnum 1, lnum 2, lnum 3, lnum 4⟩) 0 6 2 _ (smat_example lnum 0 (by omega) (by omega))
  (by omega) (by decide) 7 7 (lnum_q ..) (fun _ _ _ _ => lnum_q ..) (by norm_num)

example := C66_exact_axpym_portable (rneModel fused) u16 pol _ 'R' 3 2 (.z ⟨lnum 1, lnum 2⟩) 0 6 2 60 6 2 _ _ (smat_example lnum 0 (by omega) (by omega))
  (smat_example lnum 60 (by omega) (by omega)) (by omega) (by decide) smat_apart (by omega) (by unfold Fits32; decide) (by unfold Fits32; decide)
  (lnum_truth 1 2).1 7 7 7 ⟨lnum_int _, lnum_int _⟩ (fun _ _ _ _ => lnum_q ..) (fun _ _ _ _ => lnum_q ..) (by norm_num)

example := C66_exact_axpym_fortran (rneModel fused) u16 pol _ 'R' 3 2 (.z ⟨lnum 1, lnum 2⟩) 0 6 2 60 6 2 _ _ (smat_example lnum 0 (by omega) (by omega))
  (smat_example lnum 60 (by omega) (by omega)) (by omega) (by decide) smat_apart (by omega) (rne_truth fused).2
  (lnum_truth 1 2).1 7 7 7 ⟨lnum_int _, lnum_int _⟩ (fun _ _ _ _ => lnum_q ..) (fun _ _ _ _ => lnum_q ..) (by norm_num)

example := C66_acc_scalm (ieeeModel fused) (fun _ h => h) u16 one_le_max pol _ 'L' 3 2 (.h ⟨lbig 1, lbig 2, lbig 3, lbig 4⟩) 0 6 2 _ (smat_example lbig 0 (by omega) (by omega))
  (by omega) (by decide) big big one_le_big one_le_big (lbig_q ..) (fun _ _ _ _ => lbig_q ..) (by fitsl)

example := C66_acc_scalm_fortran (ieeeModel fused) (fun _ h => h) u16 one_le_max pol _ 'r' 3 2 (.d (lbig 1)) 0 6 2 _ (smat_example lbig 0 (by omega) (by omega))
  (by omega) (by decide) lbig_ne_zero big big one_le_big one_le_big (lbig_bdd 1) (fun _ _ _ _ => lbig_q ..) (by fitsl)

example := C66_acc_axpym (ieeeModel fused) (fun _ h => h) u16 one_le_max pol _ 'R' 3 2 (.z ⟨lbig 1, lbig 2⟩) 0 6 2 60 6 2 _ _ (smat_example lbig 0 (by omega) (by omega))
  (smat_example lbig 60 (by omega) (by omega)) (by omega) (by decide) smat_apart
  (lbig_truth 1 2).1 big big big one_le_big one_le_big ⟨lbig_bdd _, lbig_bdd _⟩ (fun _ _ _ _ => lbig_q ..) (fun _ _ _ _ => lbig_q ..) (by fitsl)

example := C66_exact_axpyv_mixed (rneModel fused) u16 pol _ .d 'R' 3 0 2 20 1 (.z ⟨lnum 1, lnum 2⟩) _ _ (axpyvK_example' lnum).1
  (axpyvK_example' lnum).2.1 (by decide) (by decide) (by unfold Fits32; decide) (by unfold Fits32; decide)
  (axpyvK_example' (lnum (fused := fused) (pol := pol))).2.2 (lnum_truth 1 2).1 7 7 7 ⟨lnum_int _, lnum_int _⟩
  (fun _ _ => lnum_int _) (fun _ _ => lnum_q ..) (by norm_num)

example := C66_exact_gemm_mixed (rneModel fused) u16 pol _ .d .z 'N' 'N' 2 2 3 (.z ⟨lnum 1, lnum 2⟩) (.z ⟨lnum 3, lnum 4⟩) _ _ _ _ _ _ _ _ _ _ _
  (.inl ⟨rfl, fun _ _ => rfl⟩) (.inl ⟨rfl, fun _ _ => rfl⟩) (lnum_truth 1 2) (lnum_truth 3 4)
  (gemmMArgs_example' lnum _) 7 7 7 7 7 ⟨lnum_int _, lnum_int _⟩ ⟨lnum_int _, lnum_int _⟩
  (fun _ _ _ _ => lnum_int _) (fun _ _ _ _ => ⟨lnum_int _, lnum_int _⟩) (fun _ _ _ _ => lnum_q ..)
  (by norm_num) (by norm_num) (by norm_num) (by norm_num) (by rw [show (3:Int).toNat = 3 from rfl]; norm_num)

example := C66_exact_gemv_mixed (rneModel fused) u16 pol _ .z .d 'C' 2 3 (.z ⟨lnum 1, lnum 2⟩) 0 4 60 2 (.z ⟨lnum 3, lnum 4⟩) 90 1 _ _ _ _
  (.inr (.inr ⟨rfl, fun _ _ => rfl⟩)) (lnum_truth 1 2) (lnum_truth 3 4) (by decide) (by decide)
  (gemvMArgs_example' lnum _) 7 7 7 7 7 ⟨lnum_int _, lnum_int _⟩ ⟨lnum_int _, lnum_int _⟩
  (fun _ _ _ _ => ⟨lnum_int _, lnum_int _⟩) (fun _ _ => lnum_int _) (fun _ _ => lnum_q ..)
  (by norm_num) (by norm_num) (by norm_num) (by norm_num)
  (by rw [show (if 'C' = 'N' then (3:Int) else 2).toNat = 2 from rfl]; norm_num)

example := C66_exact_ger_mixed (rneModel fused) u16 pol .d .z true _ 2 2 (.z ⟨lnum 1, lnum 2⟩) 0 3 20 1 60 2 _ _ _ (lnum_truth 1 2)
  (gerMArgs_example' lnum) 7 7 7 7 ⟨lnum_int _, lnum_int _⟩ (fun _ _ => lnum_int _) (fun _ _ => ⟨lnum_int _, lnum_int _⟩)
  (fun _ _ _ _ => lnum_q ..) (by norm_num) (by norm_num)

example := C66_acc_axpyv_mixed (ieeeModel fused) (fun _ h => h) u16 one_le_max pol _ .d 'R' 3 0 2 20 1 (.z ⟨lbig 1, lbig 2⟩) _ _ (axpyvK_example' lbig).1
  (axpyvK_example' lbig).2.1 (by decide) (by decide) (by unfold Fits32; decide) (by unfold Fits32; decide)
  (axpyvK_example' (lbig (fused := fused) (pol := pol))).2.2 (lbig_truth 1 2).1 big big big
  one_le_big one_le_big ⟨lbig_bdd _, lbig_bdd _⟩ (fun _ _ => lbig_bdd _) (fun _ _ => lbig_q ..) (by fitsl)

example := C66_acc_gemm_mixed (ieeeModel fused) (fun _ h => h) u16 one_le_max pol _ .d .z 'N' 'N' 2 2 3 (.z ⟨lbig 1, lbig 2⟩) (.z ⟨lbig 3, lbig 4⟩) _ _ _ _ _ _ _ _ _ _ _
  (.inl ⟨rfl, fun _ _ => rfl⟩) (.inl ⟨rfl, fun _ _ => rfl⟩) (lbig_truth 1 2) (lbig_truth 3 4)
  (gemmMArgs_example' lbig _) big big big big big ⟨lbig_bdd _, lbig_bdd _⟩ ⟨lbig_bdd _, lbig_bdd _⟩
  (fun _ _ _ _ => lbig_bdd _) (fun _ _ _ _ => ⟨lbig_bdd _, lbig_bdd _⟩) (fun _ _ _ _ => lbig_q ..)
  one_le_big one_le_big one_le_big one_le_big one_le_big
  (by
    refine fits8_big (by decide) ?_
    rw [show (3:Int).toNat = 3 from rfl]; push_cast; linarith [big_pow.1, big_pow.2.1, big_pow.2.2])

example := C66_acc_gemv_mixed (ieeeModel fused) (fun _ h => h) u16 one_le_max pol _ .z .d 'C' 2 3 (.z ⟨lbig 1, lbig 2⟩) 0 4 60 2 (.z ⟨lbig 3, lbig 4⟩) 90 1 _ _ _ _
  (.inr (.inr ⟨rfl, fun _ _ => rfl⟩)) (lbig_truth 1 2) (lbig_truth 3 4) (by decide) (by decide)
  (gemvMArgs_example' lbig _) big big big big big ⟨lbig_bdd _, lbig_bdd _⟩ ⟨lbig_bdd _, lbig_bdd _⟩
  (fun _ _ _ _ => ⟨lbig_bdd _, lbig_bdd _⟩) (fun _ _ => lbig_bdd _) (fun _ _ => lbig_q ..)
  one_le_big one_le_big one_le_big one_le_big one_le_big (by fitsl)

example := C66_acc_ger_mixed (ieeeModel fused) (fun _ h => h) u16 one_le_max pol .d .z true _ 2 2 (.z ⟨lbig 1, lbig 2⟩) 0 3 20 1 60 2 _ _ _ (lbig_truth 1 2)
  (gerMArgs_example' lbig) big big big big ⟨lbig_bdd _, lbig_bdd _⟩ (fun _ _ => lbig_bdd _) (fun _ _ => ⟨lbig_bdd _, lbig_bdd _⟩)
  (fun _ _ _ _ => lbig_q ..) one_le_big one_le_big one_le_big (by fitsl)

end examples

/-! ## NaNs: a concrete case -/

/-- The portable DOTU of two vectors of length 2, cell 1 (the i component of `x_0`) a NaN, over integers with a NaN: whatever
the compiler fuses, the result is NaN in all components. -/
example : letI := toyNaN; letI := toyNaNEq
    ∃ r, dotGen false 2 0 1 8 1 (memOf 0 16 fun a => (Fused.lit a (if a = 1 then none else some a) : Fused (Option Int) pol)) =
      .ok (r, memOf 0 16 fun a => Fused.lit a (if a = 1 then none else some a)) ∧ (r.map Fused.dbl).AllNaN (· = none) := by
  let := toyNaN
  let := toyNaNEq
  obtain ⟨r, h1, h2⟩ := C66_nan_dot_portable toyNaN_like pol
    (memOf 0 16 fun a => (Fused.lit a (if a = 1 then none else some a) : Fused (Option Int) pol)) false 2 0 1 8 1
    (fun i => let p : Int := 0 + 4 * (i * 1); let f := fun a : Int => (Fused.lit a (if a = 1 then none else some a) : Fused (Option Int) pol)
      ⟨f p, f (p+1), f (p+2), f (p+3)⟩)
    (fun i => let p : Int := 8 + 4 * (i * 1); let f := fun a : Int => (Fused.lit a (if a = 1 then none else some a) : Fused (Option Int) pol)
      ⟨f p, f (p+1), f (p+2), f (p+3)⟩)
    (by decide) (by decide) (by unfold Fits32; decide) (by unfold Fits32; decide)
    (by intro i hi; have hi : i < 2 := hi; exact readQ_memOf (by omega) (by omega))
    (by intro i hi; have hi : i < 2 := hi; exact readQ_memOf (by omega) (by omega))
  have h3 := h2 0 (by decide) (Or.inl (Or.inr (Or.inl (bad_lit.mpr rfl))))
  exact ⟨r, h1, h3.1.1, h3.2.1.1, h3.2.2.1.1, h3.2.2.2.1⟩

/-! ## Signs -/

section signs

/-- The same double with the sign `s`. -/
def SignLit (s : ℤˣ) (a b : Fused (F64 fused) pol) : Prop := ∃ n v, a = Fused.lit n v ∧ b = Fused.lit n (sgn s v)
/-- componentwise -/
def SignLitQ (s : ℤˣ) (p q : Quat (Fused (F64 fused) pol)) : Prop :=
  SignLit s p.re q.re ∧ SignLit s p.i q.i ∧ SignLit s p.j q.j ∧ SignLit s p.k q.k
/-- for scalars of the three types -/
def SignLitS (s : ℤˣ) : Scal (Fused (F64 fused) pol) → Scal (Fused (F64 fused) pol) → Prop
  | .d a, .d b => SignLit s a b
  | .z a, .z b => SignLit s a.re b.re ∧ SignLit s a.im b.im
  | .h a, .h b => SignLitQ s a b
  | _, _ => False

theorem SignLit.d {s : ℤˣ} {a b : Fused (F64 fused) pol} (h : SignLit s a b) : (fusedUnits (ieeeSigns fused) pol).D s a b := by
  obtain ⟨n, v, rfl, rfl⟩ := h
  exact ⟨rfl, rfl, rfl, rfl⟩
theorem SignLitQ.d {s : ℤˣ} {p q : Quat (Fused (F64 fused) pol)} (h : SignLitQ s p q) : (fusedUnits (ieeeSigns fused) pol).QD s p q :=
  ⟨h.1.d, h.2.1.d, h.2.2.1.d, h.2.2.2.d⟩
theorem SignLitS.d {s : ℤˣ} {p q : Scal (Fused (F64 fused) pol)} (h : SignLitS s p q) : (fusedUnits (ieeeSigns fused) pol).SD s p q := by
  cases p <;> cases q <;> first | exact h.elim | skip
  · exact SignLit.d h
  · exact ⟨SignLit.d h.1, SignLit.d h.2⟩
  · exact SignLitQ.d h
theorem signLit_Q {s : ℤˣ} {p q : Quat (Fused (F64 fused) pol)} (h : (fusedUnits (ieeeSigns fused) pol).Q s p q) :
    q.map Fused.dbl = (p.map Fused.dbl).map (sgn s) :=
  Quat.ext h.1.2.1 h.2.1.2.1 h.2.2.1.2.1 h.2.2.2.2.1

/-- C66, signs: change the sign of x and of y in DOTU or DOTC: the compiled code computes the same quaternion with the sign changed
accordingly. -/
theorem C66_sign_dot (s t : ℤˣ) (conj : Bool) (m n : Mem (Fused (F64 fused) pol)) (N X INCX Y INCY : Int)
    (x y x' y' : Nat → Quat (Fused (F64 fused) pol)) (hX : VecAt m X INCX N.toNat x) (hY : VecAt m Y INCY N.toNat y)
    (hX' : VecAt n X INCX N.toNat x') (hY' : VecAt n Y INCY N.toNat y') (fx : Fits32 (4 * INCX)) (fy : Fits32 (4 * INCY))
    (hx : ∀ i, i < N.toNat → SignLitQ s (x i) (x' i)) (hy : ∀ i, i < N.toNat → SignLitQ t (y i) (y' i)) :
    ∃ v v', dotAVX conj N X INCX Y INCY m = .ok (v, m) ∧ dotAVX conj N X INCX Y INCY n = .ok (v', n) ∧
      v'.map Fused.dbl = (v.map Fused.dbl).map (sgn (s * t)) := by
  obtain ⟨v, v', h1, h2, h3⟩ := C64_dot (fusedUnits (ieeeSigns fused) pol) s t conj m n N X INCX Y INCY X INCX Y INCY x y _ _ hX hX' hY hY'
    fx fy fx fy (fun i hi => (hx i hi).d) (fun i hi => (hy i hi).d)
  exact ⟨v, v', h1, h2, signLit_Q h3⟩

/-- C66, signs, portable DOTU and DOTC. -/
theorem C66_sign_dot_portable (s t : ℤˣ) (conj : Bool) (m n : Mem (Fused (F64 fused) pol)) (N X INCX Y INCY : Int)
    (x y x' y' : Nat → Quat (Fused (F64 fused) pol)) (hX : VecAt m X INCX N.toNat x) (hY : VecAt m Y INCY N.toNat y)
    (hX' : VecAt n X INCX N.toNat x') (hY' : VecAt n Y INCY N.toNat y') (ix : 0 < INCX) (iy : 0 < INCY)
    (fx : Fits32 (N * INCX)) (fy : Fits32 (N * INCY))
    (hx : ∀ i, i < N.toNat → SignLitQ s (x i) (x' i)) (hy : ∀ i, i < N.toNat → SignLitQ t (y i) (y' i)) :
    ∃ v v', dotGen conj N X INCX Y INCY m = .ok (v, m) ∧ dotGen conj N X INCX Y INCY n = .ok (v', n) ∧
      v'.map Fused.dbl = (v.map Fused.dbl).map (sgn (s * t)) := by
  obtain ⟨v, v', h1, h2, h3⟩ := C64_dot_portable (fusedUnits (ieeeSigns fused) pol) s t conj m n N X INCX Y INCY X INCX Y INCY x y _ _
    hX hX' hY hY' ix iy ix iy fx fy fx fy (fun i hi => (hx i hi).d) (fun i hi => (hy i hi).d)
  exact ⟨v, v', h1, h2, signLit_Q h3⟩

/-- C66, signs: the same for GEMM: ALPHA, A and B in signs `r`, `s` and `t`, C in sign `r*s*t`, BETA unchanged. -/
theorem C66_sign_gemm (r s t : ℤˣ) (m n : Mem (Fused (F64 fused) pol)) (blk : Blk) (bAddr aAddr : Int)
    (junk : Int → Fused (F64 fused) pol) (TRANSA TRANSB : Char) (M N K : Int) (ALPHA BETA ALPHA' BETA' : Scal (Fused (F64 fused) pol))
    (A LDA B LDB C LDC : Int) (Av Bv Cv Av' Bv' Cv' : Nat → Nat → Quat (Fused (F64 fused) pol))
    (p : GemmPre m blk bAddr aAddr TRANSA TRANSB M.toNat N.toNat K.toNat A LDA Av B LDB Bv C LDC Cv)
    (p' : GemmPre n blk bAddr aAddr TRANSA TRANSB M.toNat N.toNat K.toNat A LDA Av' B LDB Bv' C LDC Cv')
    (hα : SignLitS r ALPHA ALPHA') (hβ : SignLitS 1 BETA BETA') (hA : ∀ i j, SignLitQ s (Av i j) (Av' i j))
    (hB : ∀ i j, SignLitQ t (Bv i j) (Bv' i j)) (hC : ∀ i j, SignLitQ (r * s * t) (Cv i j) (Cv' i j)) :
    ∃ m' n' V V', gemmAVX blk bAddr aAddr junk TRANSA TRANSB M N K ALPHA A LDA B LDB BETA C LDC m = .ok ((), m') ∧
      gemmAVX blk bAddr aAddr junk TRANSA TRANSB M N K ALPHA' A LDA B LDB BETA' C LDC n = .ok ((), n') ∧
      MatAt m' C LDC M.toNat N.toNat V ∧ MatAt n' C LDC M.toNat N.toNat V' ∧
      ∀ i j, i < M.toNat → j < N.toNat → (V' i j).map Fused.dbl = ((V i j).map Fused.dbl).map (sgn (r * s * t)) := by
  obtain ⟨m', n', V, V', h1, h2, h3, h4, h5⟩ := C64_gemm (fusedUnits (ieeeSigns fused) pol) r s t m n blk blk bAddr aAddr bAddr aAddr
    junk junk TRANSA TRANSB M N K ALPHA BETA ALPHA' BETA' A LDA B LDB C LDC A LDA B LDB C LDC Av Bv Cv _ _ _ p p'
    hα.d hβ.d (fun i j _ _ => (hA i j).d) (fun i j _ _ => (hB i j).d) (fun i j _ _ => (hC i j).d)
  exact ⟨m', n', V, V', h1, h2, h3, h4, fun i j hi hj => signLit_Q (h5 i j hi hj)⟩

/-- C66, signs, portable GEMM (A, ALPHA and BETA of any scalar type). -/
theorem C66_sign_gemm_portable (r s t : ℤˣ) (m n : Mem (Fused (F64 fused) pol)) (k : Kind) (tA tB : Char) (M N K : Int)
    (ALPHA BETA ALPHA' BETA' : Scal (Fused (F64 fused) pol)) (A LDA B LDB C LDC : Int)
    (Av Av' : Nat → Nat → Scal (Fused (F64 fused) pol)) (Bv Cv Bv' Cv' : Nat → Nat → Quat (Fused (F64 fused) pol))
    (p : GemmBArgs m k tA tB M N K ALPHA A LDA B LDB C LDC Av Bv Cv) (p' : GemmBArgs n k tA tB M N K ALPHA' A LDA B LDB C LDC Av' Bv' Cv')
    (hα : SignLitS r ALPHA ALPHA') (hβ : SignLitS 1 BETA BETA') (hA : ∀ i j, SignLitS s (Av i j) (Av' i j))
    (hB : ∀ i j, SignLitQ t (Bv i j) (Bv' i j)) (hC : ∀ i j, SignLitQ (r * s * t) (Cv i j) (Cv' i j)) :
    ∃ m' n' V V', gemmGen k tA tB M N K ALPHA A LDA B LDB BETA C LDC m = .ok ((), m') ∧
      gemmGen k tA tB M N K ALPHA' A LDA B LDB BETA' C LDC n = .ok ((), n') ∧
      MatAt m' C LDC M.toNat N.toNat V ∧ MatAt n' C LDC M.toNat N.toNat V' ∧
      ∀ i j, i < M.toNat → j < N.toNat → (V' i j).map Fused.dbl = ((V i j).map Fused.dbl).map (sgn (r * s * t)) := by
  obtain ⟨m', n', V, V', h1, h2, h3, h4, h5⟩ := C64_gemm_portable (fusedUnits (ieeeSigns fused) pol) r s t m n k tA tB M N K
    ALPHA BETA ALPHA' BETA' A LDA B LDB C LDC A LDA B LDB C LDC Av Bv Cv _ _ _ p p'
    hα.d hβ.d (fun i j _ _ => (hA i j).d) (fun i j _ _ => (hB i j).d) (fun i j _ _ => (hC i j).d)
  exact ⟨m', n', V, V', h1, h2, h3, h4, fun i j hi hj => signLit_Q (h5 i j hi hj)⟩

theorem signLit_f (s : ℤˣ) (f : Int → F64 fused) (a : Int) :
    SignLit s (Fused.lit a (f a) : Fused (F64 fused) pol) (Fused.lit a (sgn s (f a))) := ⟨a, _, rfl, rfl⟩

example (f : Int → F64 fused) := C66_sign_dot (pol := pol) (-1) (-1) true _ _ 5 0 2 60 3 _ _ _ _
  (lv1_example fun a => Fused.lit a (f a)).1 (lv1_example fun a => Fused.lit a (f a)).2.1
  (lv1_example fun a => Fused.lit a (sgn (-1) (f a))).1 (lv1_example fun a => Fused.lit a (sgn (-1) (f a))).2.1
  (by unfold Fits32; decide) (by unfold Fits32; decide)
  (fun _ _ => ⟨signLit_f _ _ _, signLit_f _ _ _, signLit_f _ _ _, signLit_f _ _ _⟩)
  (fun _ _ => ⟨signLit_f _ _ _, signLit_f _ _ _, signLit_f _ _ _, signLit_f _ _ _⟩)

example (f : Int → F64 fused) := C66_sign_gemm_portable (pol := pol) (-1) (-1) (-1) _ _ .h 'C' 'N' 3 1 2
  (.z ⟨Fused.lit 1 (f 1), Fused.lit 2 (f 2)⟩) (.d (Fused.lit 3 (f 3))) (.z ⟨Fused.lit 1 (sgn (-1) (f 1)), Fused.lit 2 (sgn (-1) (f 2))⟩)
  (.d (Fused.lit 3 (sgn 1 (f 3)))) _ _ _ _ _ _ _ _ _ _ _ _
  (gemmBArgs_hexample (fun a => Fused.lit a (f a)) _) (gemmBArgs_hexample (fun a => Fused.lit a (sgn (-1) (f a))) _)
  ⟨⟨1, _, rfl, rfl⟩, ⟨2, _, rfl, rfl⟩⟩ ⟨3, _, rfl, rfl⟩
  (fun _ _ => ⟨signLit_f _ _ _, signLit_f _ _ _, signLit_f _ _ _, signLit_f _ _ _⟩)
  (fun _ _ => ⟨signLit_f _ _ _, signLit_f _ _ _, signLit_f _ _ _, signLit_f _ _ _⟩)
  (fun _ _ => ⟨signLit_f _ _ _, signLit_f _ _ _, signLit_f _ _ _, signLit_f _ _ _⟩)

end signs

/-! ## No fusing -/

section none
variable {F : Type} [Arith F] [ArithEq F]

/-- C66: a compiler that fuses nothing computes what the other theorems say, here for the portable GEMM: the doubles it stores are those
of the run over plain doubles. -/
theorem C66_none_gemm_portable (m : Mem F) (n : Mem (Fused F fun _ => .none)) (k : Kind) (tA tB : Char) (M N K : Int)
    (ALPHA BETA : Scal F) (ALPHA' BETA' : Scal (Fused F fun _ => .none)) (A LDA B LDB C LDC : Int)
    (Av : Nat → Nat → Scal F) (Bv Cv : Nat → Nat → Quat F) (Av' : Nat → Nat → Scal (Fused F fun _ => .none))
    (Bv' Cv' : Nat → Nat → Quat (Fused F fun _ => .none))
    (p : GemmBArgs m k tA tB M N K ALPHA A LDA B LDB C LDC Av Bv Cv) (p' : GemmBArgs n k tA tB M N K ALPHA' A LDA B LDB C LDC Av' Bv' Cv')
    (hα : ALPHA'.map Fused.dbl = ALPHA) (hβ : BETA'.map Fused.dbl = BETA) (hA : ∀ i j, (Av' i j).map Fused.dbl = Av i j)
    (hB : ∀ i j, (Bv' i j).map Fused.dbl = Bv i j) (hC : ∀ i j, (Cv' i j).map Fused.dbl = Cv i j) :
    ∃ m' n' V V', gemmGen k tA tB M N K ALPHA A LDA B LDB BETA C LDC m = .ok ((), m') ∧
      gemmGen k tA tB M N K ALPHA' A LDA B LDB BETA' C LDC n = .ok ((), n') ∧
      MatAt m' C LDC M.toNat N.toNat V ∧ MatAt n' C LDC M.toNat N.toNat V' ∧
      ∀ i j, i < M.toNat → j < N.toNat → (V' i j).map Fused.dbl = V i j := by
  have hq : ∀ q' : Quat (Fused F fun _ => .none), ∀ q, q'.map Fused.dbl = q → unfused.QD PUnit.unit q' q := by
    rintro q' _ rfl
    exact ⟨rfl, rfl, rfl, rfl⟩
  have hs : ∀ q' : Scal (Fused F fun _ => .none), ∀ q, q'.map Fused.dbl = q → unfused.SD PUnit.unit q' q := by
    rintro q' _ rfl
    cases q'
    · exact rfl
    · exact ⟨rfl, rfl⟩
    · exact ⟨rfl, rfl, rfl, rfl⟩
  obtain ⟨n', m', V', V, h1, h2, h3, h4, h5⟩ := C64_gemm_portable unfused PUnit.unit PUnit.unit PUnit.unit n m k tA tB M N K
    ALPHA' BETA' ALPHA BETA A LDA B LDB C LDC A LDA B LDB C LDC Av' Bv' Cv' Av Bv Cv p' p
    (hs _ _ hα) (hs _ _ hβ) (fun i j _ _ => hs _ _ (hA i j)) (fun i j _ _ => hq _ _ (hB i j)) (fun i j _ _ => hq _ _ (hC i j))
  exact ⟨m', n', V, V', h2, h1, h4, h3, fun i j hi hj =>
    have h := h5 i j hi hj
    Quat.ext h.1 h.2.1 h.2.2.1 h.2.2.2⟩

/-- Fusing makes a difference: with the left product fused, `a*b - c*d` is computed as one multiplication and one multiply-subtract. -/
example (a b c d : F) : ((Fused.lit 0 a *ᶠ Fused.lit 1 b -ᶠ Fused.lit 2 c *ᶠ Fused.lit 3 d : Fused F fun _ => .left)).dbl =
    Arith.fms a b (c *ᶠ d) := rfl
example (a b c d : F) : ((Fused.lit 0 a *ᶠ Fused.lit 1 b -ᶠ Fused.lit 2 c *ᶠ Fused.lit 3 d : Fused F fun _ => .right)).dbl =
    Arith.fnma c d (a *ᶠ b) := rfl

end none

end Haxx
