import Verif.FinInst
import Verif.ExactEx

/-!
# C60: every theorem applied to concrete large data in IEEE double precision with infinities and NaNs

Memory holds `(a % 7) · 2²⁰⁰` at cell `a`: far beyond the integers of C59, and products of three of them reach
2⁶⁰⁹; `fused` is arbitrary. The last part shows that the condition on the sizes cannot be dropped: on data of
size 2⁶⁰⁰ a DOT whose value is 0 comes out as a NaN.
-/

namespace Haxx
open Arith Quaternion Finset FinModel

variable {fused : Bool}

/-- the bound of the example data -/
noncomputable def big : ℝ := (2:ℝ) ^ (203:ℤ)

theorem one_le_big : 1 ≤ big := one_le_zpow₀ (by norm_num) (by norm_num)

theorem big_pow : big ≤ big * big * big ∧ big * big ≤ big * big * big ∧ 0 < big * big * big := by
  have h := one_le_big
  have h2 : 1 ≤ big * big := one_le_mul' h h
  exact ⟨by nlinarith, by nlinarith, by positivity⟩

noncomputable def big7 (a : Int) : F64 fused := .num ((a % 7 : ℤ) * (2:ℝ) ^ (200:ℤ))

theorem big7_bdd (a : Int) : (ieeeModel fused).Bdd1 big (big7 a) := by
  have h1 := Int.emod_nonneg a (show (7:ℤ) ≠ 0 by decide)
  have h2 := Int.emod_lt_of_pos a (show (0:ℤ) < 7 by decide)
  have hp := two_zpow_pos 200
  refine ⟨⟨⟨_, rfl, a % 7, 200, ?_, by norm_num, by norm_num, rfl⟩, not_false⟩, ?_⟩
  · rw [abs_of_nonneg h1]; exact h2.trans (by norm_num)
  · change |((a % 7 : ℤ) : ℝ) * (2:ℝ) ^ (200:ℤ)| ≤ big
    rw [abs_mul, abs_of_pos hp, abs_of_nonneg (by exact_mod_cast h1)]
    have e : big = 8 * (2:ℝ) ^ (200:ℤ) := by
      unfold big
      rw [show (203:ℤ) = 3 + 200 by norm_num, zpow_add₀ (by norm_num)]; norm_num
    rw [e]
    refine mul_le_mul_of_nonneg_right ?_ hp.le
    have : ((a % 7 : ℤ) : ℝ) ≤ ((8 : ℤ) : ℝ) := by exact_mod_cast (by omega)
    rwa [Int.cast_ofNat] at this

theorem big7_q (a b c d : Int) : (ieeeModel fused).BddQ big ⟨big7 a, big7 b, big7 c, big7 d⟩ :=
  ⟨big7_bdd a, big7_bdd b, big7_bdd c, big7_bdd d⟩

theorem big7_truth (a b : Int) : (ieeeModel fused).Truth (.z ⟨big7 a, big7 b⟩) :=
  (FinModel.truth_of (ieee_truth fused).1 (ieee_truth fused).2).2.1 _

/-- chains of up to 60 roundings of numbers up to 200 · 2⁶⁰⁹ do not overflow -/
theorem fits_big {D : ℕ} {S : ℝ} (hD : D ≤ 60) (hS : S ≤ 200 * (big * big * big)) : (ieeeModel fused).Fits D S := by
  unfold FinModel.Fits
  have h3 : big * big * big = (2:ℝ) ^ (609:ℤ) := by
    unfold big; rw [← zpow_add₀ (by norm_num), ← zpow_add₀ (by norm_num)]; norm_num
  have h1 : (1 + 2 * (2:ℝ)⁻¹ ^ 53) ^ D ≤ (2:ℝ) ^ 60 :=
    (pow_le_pow_left₀ (by positivity) (by norm_num) D).trans (pow_le_pow_right₀ (by norm_num) hD)
  have h4 : (0:ℝ) < (2:ℝ) ^ (609:ℤ) := two_zpow_pos 609
  have h5 : (2:ℝ) ^ (677:ℤ) = 2 ^ 60 * (2 ^ 8 * (2:ℝ) ^ (609:ℤ)) := by
    rw [show (677:ℤ) = 60 + (8 + 609) by norm_num, zpow_add₀ (by norm_num), zpow_add₀ (by norm_num), zpow_ofNat 2 60, zpow_ofNat 2 8]
  have h6 : (2:ℝ) ^ (677:ℤ) ≤ maxDouble := by
    unfold maxDouble
    refine (zpow_le_zpow_right₀ (by norm_num) (by norm_num : (677:ℤ) ≤ 971)).trans ?_
    refine le_mul_of_one_le_left (two_zpow_pos 971).le (by norm_num)
  refine le_trans ?_ h6
  rw [h5]
  rw [h3] at hS
  have h7 : S ≤ 2 ^ 8 * (2:ℝ) ^ (609:ℤ) := hS.trans (mul_le_mul_of_nonneg_right (by norm_num) h4.le)
  have h8 : (0:ℝ) ≤ 2 ^ 8 * (2:ℝ) ^ (609:ℤ) := by positivity
  have h0 : (0:ℝ) ≤ (1 + 2 * (2:ℝ)⁻¹ ^ 53) ^ D := by positivity
  exact (mul_le_mul_of_nonneg_left h7 h0).trans (mul_le_mul_of_nonneg_right h1 h8)

/-- the side conditions on the sizes -/
macro "fitsb" : tactic => `(tactic| refine fits_big (by decide) (by
  first
    | (linarith [big_pow.1, big_pow.2.1, big_pow.2.2])
    | (rw [show (5:Int).toNat = 5 from rfl]; push_cast; linarith [big_pow.1, big_pow.2.1, big_pow.2.2])
    | (rw [show (2:Int).toNat = 2 from rfl]; push_cast; linarith [big_pow.1, big_pow.2.1, big_pow.2.2])
    | (rw [show (if 'C' = 'N' then (3:Int) else 2).toNat = 2 from rfl]; push_cast; linarith [big_pow.1, big_pow.2.1, big_pow.2.2])
    | (rw [show (gemvLenX 'C' 2 3).toNat = 2 from rfl]; push_cast; linarith [big_pow.1, big_pow.2.1, big_pow.2.2])))

local macro "l1" : term => `(one_le_big)

example := C60_scalv (ieeeModel fused) _ 'L' 5 0 2 (.h ⟨big7 1, big7 2, big7 3, big7 4⟩) _ (lv1_example big7).1 (by decide)
  big big l1 l1 (big7_q ..) (fun _ _ => big7_q ..) (by fitsb)

example := C60_axpyv (ieeeModel fused) _ 'R' 5 0 2 60 3 (.h ⟨big7 1, big7 2, big7 3, big7 4⟩) _ _ (lv1_example big7).1
  (lv1_example big7).2.1 (by decide) (lv1_example (big7 (fused := fused))).2.2 big big big l1 l1 (big7_q ..) (fun _ _ => big7_q ..)
  (fun _ _ => big7_q ..) (by fitsb)

example := C60_dot (ieeeModel fused) _ 5 0 2 60 3 _ _ (lv1_example big7).1 (lv1_example big7).2.1 (by unfold Fits32; decide)
  (by unfold Fits32; decide) big big l1 l1 (fun _ _ => big7_q ..) (fun _ _ => big7_q ..) (by fitsb)

example (junk : Int → F64 fused) := C60_gemm (ieeeModel fused) _ _ _ _ junk 'C' 'N' 3 1 2 (.z ⟨big7 1, big7 2⟩) (.d (big7 3)) _ _ _ _ _ _ _ _ _
  (gemmPre_example' big7) big big big big big ⟨big7_bdd _, big7_bdd _⟩ (big7_bdd 3) (fun _ _ _ _ => big7_q ..)
  (fun _ _ _ _ => big7_q ..) (fun _ _ _ _ => big7_q ..) l1 l1 l1 l1 l1 (by fitsb)

example := C60_scalv_portable (ieeeModel fused) _ 'R' 5 0 2 (.h ⟨big7 1, big7 2, big7 3, big7 4⟩) _ (lv1_example big7).1 (by decide)
  (by unfold Fits32; decide) big big l1 l1 (big7_q ..) (fun _ _ => big7_q ..) (by fitsb)

example := C60_axpyv_portable (ieeeModel fused) _ 'R' 5 0 2 60 3 (.z ⟨big7 1, big7 2⟩) _ _ (lv1_example big7).1
  (lv1_example big7).2.1 (by decide) (by decide) (by unfold Fits32; decide) (by unfold Fits32; decide) (lv1_example (big7 (fused := fused))).2.2
  (big7_truth 1 2).zero big big big l1 l1 ⟨big7_bdd _, big7_bdd _⟩ (fun _ _ => big7_q ..) (fun _ _ => big7_q ..) (by fitsb)

example := C60_dot_portable (ieeeModel fused) _ 5 0 2 60 3 _ _ (lv1_example big7).1 (lv1_example big7).2.1 (by decide) (by decide)
  (by unfold Fits32; decide) (by unfold Fits32; decide) big big l1 l1 (fun _ _ => big7_q ..) (fun _ _ => big7_q ..) (by fitsb)

example := C60_gemm_portable (ieeeModel fused) _ .h 'C' 'N' 3 1 2 (.z ⟨big7 1, big7 2⟩) (.z ⟨big7 3, big7 4⟩) _ _ _ _ _ _ _ _ _ _ _
  (.inr (.inr ⟨rfl, fun _ _ => rfl⟩)) (.inl ⟨rfl, fun _ _ => rfl⟩) (big7_truth 1 2) (big7_truth 3 4)
  (gemmBArgs_hexample big7 _) big big big big big ⟨big7_bdd _, big7_bdd _⟩ ⟨big7_bdd _, big7_bdd _⟩
  (fun _ _ _ _ => big7_q ..) (fun _ _ _ _ => big7_q ..) (fun _ _ _ _ => big7_q ..) l1 l1 l1 l1 l1 (by fitsb)

example := C60_gemv_portable (ieeeModel fused) _ .z 'C' 2 3 (.z ⟨big7 1, big7 2⟩) 0 2 20 2 (.z ⟨big7 3, big7 4⟩) 40 1 _ _ _ _
  (.inr (.inr ⟨rfl, fun _ _ => rfl⟩)) (big7_truth 1 2) (big7_truth 3 4) (by decide) (by decide)
  (gemvBArgs_example big7 (.z ⟨big7 1, big7 2⟩)) big big big big big ⟨big7_bdd _, big7_bdd _⟩ ⟨big7_bdd _, big7_bdd _⟩
  (fun _ _ _ _ => ⟨big7_bdd _, big7_bdd _⟩) (fun _ _ => big7_q ..) (fun _ _ => big7_q ..) l1 l1 l1 l1 l1 (by fitsb)

example := C60_ger_portable (ieeeModel fused) true _ 2 3 (.z ⟨big7 1, big7 2⟩) 60 2 90 1 0 4 _ _ _ (big7_truth 1 2)
  (gerBArgs_example big7) big big big big ⟨big7_bdd _, big7_bdd _⟩ (fun _ _ => big7_q ..) (fun _ _ => big7_q ..)
  (fun _ _ _ _ => big7_q ..) l1 l1 l1 (by fitsb)

theorem big7_ne_zero : (Scal.d (big7 1 : F64 fused)).vIsZero = false := by
  refine Bool.eq_false_iff.mpr fun h => ?_
  have h' : ((1 % 7 : ℤ) : ℝ) * (2:ℝ) ^ (200:ℤ) = 0 := by classical exact of_decide_eq_true h
  have := two_zpow_pos 200
  rw [show ((1 % 7 : ℤ) : ℝ) = 1 by norm_num, one_mul] at h'
  exact this.ne' h'

example := C60_scalv_fortran (ieeeModel fused) _ 'r' 5 90 3 (.d (big7 1)) _ (lv1F_example big7).2.1 (by decide)
  big7_ne_zero big big l1 l1 (big7_bdd 1) (fun _ _ => big7_q ..) (by fitsb)

example := C60_axpyv_fortran (ieeeModel fused) _ 'r' 5 0 (-2) 90 3 (.h ⟨big7 1, big7 2, big7 3, big7 4⟩) _ _ (lv1F_example big7).1
  (lv1F_example big7).2.1 (by decide) (lv1F_example (big7 (fused := fused))).2.2 (ieee_truth fused).2 big big big l1 l1 (big7_q ..)
  (fun _ _ => big7_q ..) (fun _ _ => big7_q ..) (by fitsb)

example := C60_dot_fortran (ieeeModel fused) _ 5 0 (-2) 90 3 _ _ (lv1F_example big7).1 (lv1F_example big7).2.1 big big
  l1 l1 (fun _ _ => big7_q ..) (fun _ _ => big7_q ..) (by fitsb)

example := C60_gemm_fortran (ieeeModel fused) _ 'C' 'N' 3 1 2 (.z ⟨big7 1, big7 2⟩) (.z ⟨big7 3, big7 4⟩) _ _ _ _ _ _ _ _ _ _ _
  (.inr (.inr ⟨.inl rfl, fun _ _ => rfl⟩)) (.inl ⟨.inl rfl, fun _ _ => rfl⟩) (ieee_truth fused).1 (ieee_truth fused).2
  (fGemmArgs_cexample big7 _) big big big big big ⟨big7_bdd _, big7_bdd _⟩ ⟨big7_bdd _, big7_bdd _⟩
  (fun _ _ _ _ => big7_q ..) (fun _ _ _ _ => big7_q ..) (fun _ _ _ _ => big7_q ..) l1 l1 l1 l1 l1 (by fitsb)

example := C60_gemv_fortran_partial (ieeeModel fused) _ 'C' 2 3 (.h ⟨big7 1, big7 2, big7 3, big7 4⟩) 0 4 60 2 (.z ⟨big7 3, big7 4⟩) 90 (-1)
  _ _ _ _ (.inr (.inr ⟨.inl rfl, fun _ _ => rfl⟩)) (ieee_truth fused).1 (ieee_truth fused).2 (by decide) (by decide)
  (fGemvArgs_example big7 _) (fGemvGood_example _ _) big big big big big (big7_q ..) ⟨big7_bdd _, big7_bdd _⟩
  (fun _ _ _ _ => big7_q ..) (fun _ _ => big7_q ..) (fun _ _ => big7_q ..) l1 l1 l1 l1 l1 (by fitsb)

example := C60_ger_fortran (ieeeModel fused) true _ 2 3 (.h ⟨big7 1, big7 2, big7 3, big7 4⟩) 60 2 90 (-1) 0 4 _ _ _
  (ieee_truth fused).2 (gerArgs_example' big7) (by intro r h; cases h) big big big big (big7_q ..) (fun _ _ => big7_q ..)
  (fun _ _ => big7_q ..) (fun _ _ _ _ => big7_q ..) l1 l1 l1 (by fitsb)

/-! ## The condition on the sizes is needed -/

namespace F64

theorem round_zero : (round 0 : F64 fused) = .num 0 := by
  rw [round, if_pos (by rw [rnd64_zero, abs_zero]; exact two_zpow_pos 1024), rnd64_zero]

theorem rnd64_huge {x : ℝ} (h : (2:ℝ) ^ (1024:ℤ) ≤ |x|) : (2:ℝ) ^ (1024:ℤ) ≤ |rnd64 x| := by
  by_contra hc
  have hc := lt_of_not_ge hc
  have hp := two_zpow_pos 1024
  have hpx : 0 < |x| := hp.trans_le h
  have hlog : 1024 ≤ Int.log 2 |x| := by
    by_contra hl
    have := (Int.lt_zpow_iff_log_lt (b := 2) (by norm_num) hpx).mpr (by omega : Int.log 2 |x| < 1024)
    exact absurd h (not_le.mpr this)
  have e : ulpE x = Int.log 2 |x| - 52 := max_eq_left (by omega)
  have hu := two_zpow_pos (ulpE x)
  have h1 : (2:ℝ) ^ (Int.log 2 |x|) ≤ |x| := by exact_mod_cast Int.zpow_log_le_self (b := 2) (by norm_num) hpx
  have h2 : ((2 ^ 52 : ℤ) : ℝ) ≤ |x / (2:ℝ) ^ ulpE x| := by
    rw [abs_div, abs_of_pos hu, le_div_iff₀ hu]
    refine le_trans (le_of_eq ?_) h1
    rw [e, Int.cast_pow, Int.cast_ofNat, ← zpow_natCast, ← zpow_add₀ (by norm_num)]
    congr 1
    rw [Nat.cast_ofNat]; ring
  have h3 := le_nearEven_abs h2
  have h4 : ((2 ^ 52 : ℤ) : ℝ) * (2:ℝ) ^ ulpE x ≤ |rnd64 x| := by
    unfold rnd64
    rw [abs_mul, abs_of_pos hu]
    refine mul_le_mul_of_nonneg_right ?_ hu.le
    exact_mod_cast h3
  have h5 : (2:ℝ) ^ (1024:ℤ) ≤ ((2 ^ 52 : ℤ) : ℝ) * (2:ℝ) ^ ulpE x := by
    rw [Int.cast_pow, Int.cast_ofNat, ← zpow_natCast, ← zpow_add₀ (by norm_num)]
    refine zpow_le_zpow_right₀ (by norm_num) ?_
    rw [Nat.cast_ofNat]; omega
  exact absurd (h5.trans h4) (not_le.mpr hc)

/-- a result of 2¹⁰²⁴ or more is an infinity -/
theorem round_huge {x : ℝ} (h : (2:ℝ) ^ (1024:ℤ) ≤ |x|) : (round x : F64 fused) = .inf (decide (x < 0)) := by
  rw [round, if_neg (not_lt.mpr (rnd64_huge h))]

end F64

/-- 2⁶⁰⁰ -/
noncomputable def huge : ℝ := (2:ℝ) ^ (600:ℤ)

/-- x = (2⁶⁰⁰, 2⁶⁰⁰) at cell 0 and y = (2⁶⁰⁰, -2⁶⁰⁰) at cell 8 -/
noncomputable def hugeData (p : Int) : F64 fused :=
  if p = 12 then .num (-huge) else if p % 4 = 0 then .num huge else .num 0

theorem huge_sq : (2:ℝ) ^ (1024:ℤ) ≤ huge * huge := by
  unfold huge
  rw [← zpow_add₀ (by norm_num)]
  exact zpow_le_zpow_right₀ (by norm_num) (by norm_num)

theorem huge_fin (p : Int) : (ieeeModel fused).Bdd1 huge (hugeData p) := by
  have hp : 0 < huge := two_zpow_pos 600
  have hd : IsDouble huge := ⟨1, 600, by norm_num, by norm_num, by norm_num, by unfold huge; rw [Int.cast_one, one_mul]⟩
  unfold hugeData
  split
  · exact ⟨⟨⟨_, rfl, hd.neg⟩, not_false⟩, by change |-huge| ≤ huge; rw [abs_neg, abs_of_pos hp]⟩
  · split
    · exact ⟨⟨⟨_, rfl, hd⟩, not_false⟩, by change |huge| ≤ huge; rw [abs_of_pos hp]⟩
    · exact ⟨⟨⟨0, rfl, 0, 0, by norm_num, by norm_num, by norm_num, by norm_num⟩, not_false⟩, by change |(0:ℝ)| ≤ huge; rw [abs_zero]; exact hp.le⟩

/-- C60: without the condition on the sizes the claim is false. There are vectors of two finite quaternions whose
unconjugated product is exactly 0, and DOTU returns a NaN for it. -/
theorem C60_sizes_needed (fused : Bool) : ∃ (m : Mem (F64 fused)) (x y : Nat → Quat (F64 fused)) (r : Quat (F64 fused)),
    VecAt m 0 1 (2:Int).toNat x ∧ VecAt m 8 1 (2:Int).toNat y ∧
    (ieeeModel fused).BddVec huge 2 x ∧ (ieeeModel fused).BddVec huge 2 y ∧
    ∑ i ∈ range 2, ((x i).map (ieeeModel fused).val).toH * ((y i).map (ieeeModel fused).val).toH = 0 ∧
    dotAVX false 2 0 1 8 1 m = .ok (r, m) ∧ r.re = .nan := by
  have hX : VecAt (memOf 0 16 (hugeData (fused := fused))) 0 1 (2:Int).toNat (fun i => ⟨hugeData (0 + 4 * (i * 1)),
      hugeData (0 + 4 * (i * 1) + 1), hugeData (0 + 4 * (i * 1) + 2), hugeData (0 + 4 * (i * 1) + 3)⟩) := by
    intro i hi
    have hi : i < 2 := hi
    exact readQ_memOf (by omega) (by omega)
  have hY : VecAt (memOf 0 16 (hugeData (fused := fused))) 8 1 (2:Int).toNat (fun i => ⟨hugeData (8 + 4 * (i * 1)),
      hugeData (8 + 4 * (i * 1) + 1), hugeData (8 + 4 * (i * 1) + 2), hugeData (8 + 4 * (i * 1) + 3)⟩) := by
    intro i hi
    have hi : i < 2 := hi
    exact readQ_memOf (by omega) (by omega)
  obtain ⟨_, _, h, rfl, rfl⟩ := dotAVX_wp (conj := false) hX hY (fun _ => by unfold Fits32; decide) (fun _ => by unfold Fits32; decide)
  have hp : 0 < huge := two_zpow_pos 600
  have hq : 0 < huge * huge := by positivity
  refine ⟨_, _, _, _, hX, hY, fun i _ => ⟨huge_fin _, huge_fin _, huge_fin _, huge_fin _⟩,
    fun i _ => ⟨huge_fin _, huge_fin _, huge_fin _, huge_fin _⟩, ?_, h, ?_⟩
  · rw [sum_range_succ, sum_range_one]
    ext <;> simp [hugeData, Quat.map, ieeeModel, F64.val]
  · have r1 : (F64.round (huge * huge) : F64 fused) = .inf false := by
      rw [F64.round_huge (by rw [abs_of_pos hq]; exact huge_sq)]
      simp [hq.le]
    have r2 : (F64.round (-(huge * huge)) : F64 fused) = .inf true := by
      rw [F64.round_huge (by rw [abs_neg, abs_of_pos hq]; exact huge_sq)]
      simp [hp]
    cases fused <;>
    simp [dotVal, dotRest, dotBatches, transpose4, permute2f128, shuffle4, sel128, setzero, vadd, MULDQ_NN, vmul, vfma, vfms, xorSign, getLo, getHi, set256, shuffle2,
      permute4, hugeData, Arith.add, Arith.mul, Arith.fma, Arith.fms, Arith.neg, Arith.zero, F64.add, F64.mul, F64.fma, F64.neg, F64.round_zero, r1, r2]

end Haxx
