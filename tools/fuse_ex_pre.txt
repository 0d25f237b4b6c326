import Verif.PropsFuse
import Verif.ExactEx
import Verif.FinEx

/-!
# C66: concrete calls, signs, and the unfused run

(The first part is generated by tools/gen_fuse_ex.py.) Calls that meet the hypotheses of the theorems of PropsFuse.lean, over
IEEE double precision, for every choice `pol` of the compiler.
-/

namespace Haxx
open Arith F64

variable {fused : Bool} {pol : Ex Unit → Fusing}

section examples

noncomputable def lbig (a : Int) : Fused (F64 fused) pol := Fused.lit a (big7 a)
noncomputable def lnum (a : Int) : Fused (Dbl fused) pol := Fused.lit a (num7 a)

theorem u16 : (2:ℝ)⁻¹ ^ 53 ≤ 1 / 16 := by norm_num
theorem one_le_max : 1 ≤ maxDouble := by
  unfold maxDouble
  refine (one_le_zpow₀ (by norm_num : (1:ℝ) ≤ 2) (by norm_num : (0:ℤ) ≤ 971)).trans ?_
  exact le_mul_of_one_le_left (two_zpow_pos 971).le (by norm_num)

theorem lbig_bdd (a : Int) : Lit1 (ieeeModel fused) big (lbig a : Fused _ pol) :=
  ⟨a, _, rfl, (big7_bdd a).1.1, (big7_bdd a).2⟩
theorem lbig_q (a b c d : Int) : LitQ (ieeeModel fused) big (⟨lbig a, lbig b, lbig c, lbig d⟩ : Quat (Fused _ pol)) :=
  ⟨lbig_bdd a, lbig_bdd b, lbig_bdd c, lbig_bdd d⟩
theorem lnum_int (a : Int) : IntLit1 (rneModel fused) 7 (lnum a : Fused _ pol) := ⟨a, _, rfl, num7_int a⟩
theorem lnum_q (a b c d : Int) : IntLitQ (rneModel fused) 7 (⟨lnum a, lnum b, lnum c, lnum d⟩ : Quat (Fused _ pol)) :=
  ⟨lnum_int a, lnum_int b, lnum_int c, lnum_int d⟩

theorem lbig_truth (a b : Int) : CTruth (ieeeModel fused) (.z ⟨lbig a, lbig b⟩ : Scal (Fused _ pol)) :=
  ⟨(big7_truth a b).zero, (big7_truth a b).one⟩
theorem lnum_truth (a b : Int) : ITruth (rneModel fused) (.z ⟨lnum a, lnum b⟩ : Scal (Fused _ pol)) :=
  ⟨(num7_truth a b).zero, (num7_truth a b).one⟩
theorem lbig_ne_zero : (Scal.d (lbig 1 : Fused (F64 fused) pol)).vIsZero = false := big7_ne_zero (fused := fused)
theorem lnum_ne_zero : (Scal.d (lnum 1 : Fused (Dbl fused) pol)).vIsZero = false := by
  refine Bool.eq_false_iff.mpr fun h => ?_
  have h' : ∃ x : ℝ, (num7 1 : Dbl fused) = some x ∧ (Arith.zero : Dbl fused) = some x := by
    classical exact of_decide_eq_true h
  obtain ⟨x, h1, h2⟩ := h'
  have h1 : (((1 % 7 : ℤ) : ℝ)) = x := Option.some.inj h1
  have h2 : (0:ℝ) = x := Option.some.inj h2
  rw [← h2] at h1
  norm_num at h1

/-- chains of up to 60 roundings of numbers up to 200 · 2⁶⁰⁹ do not overflow -/
theorem fits8_big {D : ℕ} {S : ℝ} (hD : D ≤ 60) (hS : S ≤ 200 * (big * big * big)) : Fits8 ((2:ℝ)⁻¹ ^ 53) maxDouble D S := by
  unfold Fits8
  have h3 : big * big * big = (2:ℝ) ^ (609:ℤ) := by
    unfold big; rw [← zpow_add₀ (by norm_num), ← zpow_add₀ (by norm_num)]; norm_num
  have h1 : (1 + 2 * (4 * (2:ℝ)⁻¹ ^ 53)) ^ D ≤ (2:ℝ) ^ 60 :=
    (pow_le_pow_left₀ (by positivity) (by norm_num) D).trans (pow_le_pow_right₀ (by norm_num) hD)
  have h4 : (0:ℝ) < (2:ℝ) ^ (609:ℤ) := two_zpow_pos 609
  have h5 : (2:ℝ) ^ (677:ℤ) = 2 ^ 60 * (2 ^ 8 * (2:ℝ) ^ (609:ℤ)) := by
    rw [show (677:ℤ) = 60 + (8 + 609) by norm_num, zpow_add₀ (by norm_num), zpow_add₀ (by norm_num), zpow_ofNat 2 60, zpow_ofNat 2 8]
  have h6 : (2:ℝ) ^ (677:ℤ) ≤ maxDouble / 2 := by
    have h7 : (2:ℝ) ^ (971:ℤ) ≤ maxDouble / 2 := by
      unfold maxDouble
      have := two_zpow_pos 971
      rw [le_div_iff₀ (by norm_num), mul_comm]
      exact mul_le_mul_of_nonneg_right (by norm_num) this.le
    exact (zpow_le_zpow_right₀ (by norm_num) (by norm_num : (677:ℤ) ≤ 971)).trans h7
  refine le_trans ?_ h6
  rw [h5]
  rw [h3] at hS
  have h7 : S ≤ 2 ^ 8 * (2:ℝ) ^ (609:ℤ) := hS.trans (mul_le_mul_of_nonneg_right (by norm_num) h4.le)
  have h8 : (0:ℝ) ≤ 2 ^ 8 * (2:ℝ) ^ (609:ℤ) := by positivity
  have h0 : (0:ℝ) ≤ (1 + 2 * (4 * (2:ℝ)⁻¹ ^ 53)) ^ D := by positivity
  exact (mul_le_mul_of_nonneg_left h7 h0).trans (mul_le_mul_of_nonneg_right h1 h8)

/-- the side conditions on the sizes -/
local macro "fitsl" : tactic => `(tactic| refine fits8_big (by decide) (by
  first
    | (linarith [big_pow.1, big_pow.2.1, big_pow.2.2])
    | (rw [show (5:Int).toNat = 5 from rfl]; push_cast; linarith [big_pow.1, big_pow.2.1, big_pow.2.2])
    | (rw [show (2:Int).toNat = 2 from rfl]; push_cast; linarith [big_pow.1, big_pow.2.1, big_pow.2.2])
    | (rw [show (if 'C' = 'N' then (3:Int) else 2).toNat = 2 from rfl]; push_cast; linarith [big_pow.1, big_pow.2.1, big_pow.2.2])
    | (rw [show (gemvLenX 'C' 2 3).toNat = 2 from rfl]; push_cast; linarith [big_pow.1, big_pow.2.1, big_pow.2.2])))

