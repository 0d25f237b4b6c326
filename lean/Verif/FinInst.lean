import Verif.PropsFin
import Verif.ExactInst

/-!
# IEEE double precision with infinities, NaNs and gradual underflow

`F64 fused` is IEEE 754 binary64 arithmetic with rounding to nearest even: a finite number, an infinity or a NaN
(the two zeros are not told apart). `ieeeModel` says that it is a `FinModel` with `u = 2⁻⁵³`, `η = 2⁻¹⁰⁷⁵` and
`Ω` the largest double, whether multiply-add is fused or not; its finite numbers are the doubles (`IsDouble`).
-/

namespace Haxx
open Arith

/-- exponent of the unit in the last place of `x`, at least that of the subnormal numbers -/
noncomputable def ulpE (x : ℝ) : ℤ := max (Int.log 2 |x| - 52) (-1074)

/-- rounding to nearest, ties to even, to 53 bits or to a multiple of 2⁻¹⁰⁷⁴, whichever is coarser -/
noncomputable def rnd64 (x : ℝ) : ℝ := nearEven (x / (2:ℝ) ^ ulpE x) * (2:ℝ) ^ ulpE x

/-- the finite double precision numbers -/
def IsDouble (x : ℝ) : Prop := ∃ k e : ℤ, |k| < 2 ^ 53 ∧ -1074 ≤ e ∧ e ≤ 971 ∧ x = k * (2:ℝ) ^ e

/-- the largest double -/
noncomputable def maxDouble : ℝ := (2 ^ 53 - 1) * (2:ℝ) ^ (971:ℤ)

theorem nearEven_abs_le {y : ℝ} {N : ℤ} (h : |y| ≤ N) : |nearEven y| ≤ N := by
  have h1 := abs_le.mp (nearEven_err y)
  have h2 := abs_le.mp h
  rw [abs_le]
  constructor
  · by_contra hc
    have : (nearEven y : ℝ) + 1 ≤ -N := by exact_mod_cast (show nearEven y + 1 ≤ -N by omega)
    linarith
  · by_contra hc
    have : (N : ℝ) + 1 ≤ nearEven y := by exact_mod_cast (show N + 1 ≤ nearEven y by omega)
    linarith

theorem le_nearEven_abs {y : ℝ} {N : ℤ} (h : N ≤ |y|) : N ≤ |nearEven y| := by
  have h1 := nearEven_err y
  have h2 : |y| ≤ |(nearEven y : ℝ)| + 1 / 2 := by
    have := abs_sub_abs_le_abs_sub y (nearEven y)
    rw [abs_sub_comm] at this
    linarith
  have h3 : |(nearEven y : ℝ)| = ((|nearEven y| : ℤ) : ℝ) := by push_cast; rfl
  by_contra hc
  have : ((|nearEven y| : ℤ) : ℝ) + 1 ≤ N := by exact_mod_cast (show |nearEven y| + 1 ≤ N by omega)
  linarith

theorem two_zpow_pos (e : ℤ) : (0:ℝ) < 2 ^ e := by positivity

theorem rnd64_int {x : ℝ} {k : ℤ} (h : x = k * (2:ℝ) ^ ulpE x) : rnd64 x = x := by
  have hp := two_zpow_pos (ulpE x)
  have : x / (2:ℝ) ^ ulpE x = k := by rw [div_eq_iff hp.ne']; exact h
  unfold rnd64
  rw [this, nearEven_int, ← h]

theorem rnd64_zero : rnd64 0 = 0 := rnd64_int (k := 0) (by simp)

theorem rnd64_abs_err (x : ℝ) : |rnd64 x - x| ≤ (2:ℝ) ^ ulpE x / 2 := by
  have hp := two_zpow_pos (ulpE x)
  have e : rnd64 x - x = (nearEven (x / (2:ℝ) ^ ulpE x) - x / (2:ℝ) ^ ulpE x) * (2:ℝ) ^ ulpE x := by
    unfold rnd64; field_simp
  rw [e, abs_mul, abs_of_pos hp]
  have := mul_le_mul_of_nonneg_right (nearEven_err (x / (2:ℝ) ^ ulpE x)) hp.le
  linarith

theorem rnd64_normal {x : ℝ} (h : -1074 ≤ Int.log 2 |x| - 52) (hx : x ≠ 0) : |rnd64 x - x| ≤ (2:ℝ)⁻¹ ^ 53 * |x| := by
  have h1 := rnd64_abs_err x
  have h2 := ulp_le 52 hx
  have e : ulpE x = Int.log 2 |x| - 52 := max_eq_left h
  rw [e] at h1
  have h2 : (2:ℝ) ^ (Int.log 2 |x| - 52) ≤ (2:ℝ)⁻¹ ^ 52 * |x| := by exact_mod_cast h2
  rw [show (2:ℝ)⁻¹ ^ 53 = (2:ℝ)⁻¹ ^ 52 / 2 by rw [pow_succ]; ring]
  linarith

/-- every rounding: relative error 2⁻⁵³ plus absolute error 2⁻¹⁰⁷⁵ -/
theorem rnd64_err (x : ℝ) : |rnd64 x - x| ≤ (2:ℝ)⁻¹ ^ 53 * |x| + (2:ℝ) ^ (-1075:ℤ) := by
  by_cases hx : x = 0
  · subst hx; rw [rnd64_zero]; simp
  rcases le_or_gt (-1074) (Int.log 2 |x| - 52) with h | h
  · exact le_add_of_le_of_nonneg (rnd64_normal h hx) (two_zpow_pos _).le
  · have h1 := rnd64_abs_err x
    have e : ulpE x = -1074 := max_eq_right h.le
    rw [e] at h1
    have e2 : (2:ℝ) ^ (-1074:ℤ) / 2 = (2:ℝ) ^ (-1075:ℤ) := by
      rw [show (-1074:ℤ) = -1075 + 1 by norm_num, zpow_add₀ (by norm_num), zpow_one, mul_div_assoc, div_self (by norm_num), mul_one]
    rw [e2] at h1
    exact h1.trans (le_add_of_nonneg_left (by positivity))

/-- a multiple of 2⁻¹⁰⁷⁴ is rounded with relative error 2⁻⁵³ only -/
theorem rnd64_grid {x : ℝ} (h : ∃ k : ℤ, x = k * (2:ℝ) ^ (-1074:ℤ)) : |rnd64 x - x| ≤ (2:ℝ)⁻¹ ^ 53 * |x| := by
  by_cases hx : x = 0
  · subst hx; rw [rnd64_zero]; simp
  rcases le_or_gt (-1074) (Int.log 2 |x| - 52) with h' | h'
  · exact rnd64_normal h' hx
  · obtain ⟨k, hk⟩ := h
    have e : ulpE x = -1074 := max_eq_right h'.le
    rw [rnd64_int (k := k) (by rw [e]; exact hk)]
    simp only [sub_self, abs_zero]; positivity

theorem IsDouble.grid {x : ℝ} (h : IsDouble x) : ∃ k : ℤ, x = k * (2:ℝ) ^ (-1074:ℤ) := by
  obtain ⟨k, e, _, h1, _, rfl⟩ := h
  obtain ⟨n, hn⟩ : ∃ n : ℕ, e = (n:ℤ) + -1074 := ⟨(e + 1074).toNat, by omega⟩
  refine ⟨k * 2 ^ n, ?_⟩
  rw [hn, zpow_add₀ (by norm_num), zpow_natCast]
  push_cast; ring

theorem grid_add {x y : ℝ} (h : ∃ k : ℤ, x = k * (2:ℝ) ^ (-1074:ℤ)) (g : ∃ k : ℤ, y = k * (2:ℝ) ^ (-1074:ℤ)) :
    (∃ k : ℤ, x + y = k * (2:ℝ) ^ (-1074:ℤ)) ∧ (∃ k : ℤ, x - y = k * (2:ℝ) ^ (-1074:ℤ)) := by
  obtain ⟨k, hk⟩ := h
  obtain ⟨l, hl⟩ := g
  exact ⟨⟨k + l, by rw [hk, hl]; push_cast; ring⟩, ⟨k - l, by rw [hk, hl]; push_cast; ring⟩⟩

theorem quot_lt (x : ℝ) : |x / (2:ℝ) ^ ulpE x| < 2 ^ 53 := by
  have hp := two_zpow_pos (ulpE x)
  rw [abs_div, abs_of_pos hp, div_lt_iff₀ hp]
  by_cases hx : x = 0
  · subst hx; simp only [abs_zero]; positivity
  have h1 : |x| < (2:ℝ) ^ (Int.log 2 |x| + 1) := by
    exact_mod_cast Int.lt_zpow_succ_log_self (b := 2) (by norm_num) |x|
  refine h1.trans_le ?_
  rw [show (2:ℝ) ^ 53 * (2:ℝ) ^ ulpE x = (2:ℝ) ^ (53 + ulpE x) by rw [zpow_add₀ (by norm_num)]; norm_cast]
  refine zpow_le_zpow_right₀ (by norm_num) ?_
  have := le_max_left (Int.log 2 |x| - 52) (-1074)
  unfold ulpE
  omega

/-- what is not an overflow is a double -/
theorem rnd64_double {x : ℝ} (h : |rnd64 x| < (2:ℝ) ^ (1024:ℤ)) : IsDouble (rnd64 x) := by
  have hp := two_zpow_pos (ulpE x)
  have hq := quot_lt x
  have hN : |nearEven (x / (2:ℝ) ^ ulpE x)| ≤ 2 ^ 53 := nearEven_abs_le (by rw [Int.cast_pow, Int.cast_ofNat]; exact hq.le)
  have he : -1074 ≤ ulpE x := le_max_right _ _
  have habs : |rnd64 x| = ((|nearEven (x / (2:ℝ) ^ ulpE x)| : ℤ) : ℝ) * (2:ℝ) ^ ulpE x := by
    unfold rnd64; rw [abs_mul, abs_of_pos hp]; push_cast; rfl
  have small : ∀ n : ℕ, (2:ℝ) ^ n * (2:ℝ) ^ ulpE x ≤ |rnd64 x| → (n:ℤ) + ulpE x < 1024 := by
    intro n hn
    have : (2:ℝ) ^ ((n:ℤ) + ulpE x) < (2:ℝ) ^ (1024:ℤ) := by
      rw [zpow_add₀ (by norm_num), zpow_natCast]
      exact hn.trans_lt h
    exact (zpow_lt_zpow_iff_right₀ (by norm_num)).mp this
  rcases hN.lt_or_eq with hN | hN
  · refine ⟨_, ulpE x, hN, he, ?_, rfl⟩
    by_contra hc
    have e : ulpE x = Int.log 2 |x| - 52 := by unfold ulpE at hc ⊢; omega
    have hx : x ≠ 0 := by
      rintro rfl
      rw [e] at hc
      simp at hc
    have hpx : 0 < |x| := abs_pos.mpr hx
    have h1 : (2:ℝ) ^ (Int.log 2 |x|) ≤ |x| := by exact_mod_cast Int.zpow_log_le_self (b := 2) (by norm_num) hpx
    have h2 : ((2 ^ 52 : ℤ) : ℝ) ≤ |x / (2:ℝ) ^ ulpE x| := by
      rw [abs_div, abs_of_pos hp, le_div_iff₀ hp]
      refine le_trans (le_of_eq ?_) h1
      rw [e]
      rw [Int.cast_pow, Int.cast_ofNat, ← zpow_natCast, ← zpow_add₀ (by norm_num)]
      congr 1
      rw [Nat.cast_ofNat]; ring
    have h3 := le_nearEven_abs h2
    have h4 := small 52 (by
      rw [habs]
      refine mul_le_mul_of_nonneg_right ?_ hp.le
      exact_mod_cast h3)
    omega
  · have h4 := small 53 (by
      rw [habs, hN, Int.cast_pow, Int.cast_ofNat])
    have e2 : ((2:ℝ) ^ ulpE x) = (2:ℝ) ^ (ulpE x + 1) / 2 := by
      rw [zpow_add₀ (by norm_num), zpow_one]; ring
    rcases abs_choice (nearEven (x / (2:ℝ) ^ ulpE x)) with hs | hs
    · refine ⟨2 ^ 52, ulpE x + 1, by norm_num, by omega, by push_cast at h4; omega, ?_⟩
      unfold rnd64
      rw [show nearEven (x / (2:ℝ) ^ ulpE x) = 2 ^ 53 by rw [← hs]; exact hN]
      rw [e2]; push_cast; ring
    · refine ⟨-2 ^ 52, ulpE x + 1, by norm_num, by omega, by push_cast at h4; omega, ?_⟩
      unfold rnd64
      rw [show nearEven (x / (2:ℝ) ^ ulpE x) = -2 ^ 53 by rw [hs] at hN; omega]
      rw [e2]; push_cast; ring

/-- nothing up to the largest double overflows -/
theorem rnd64_le {x : ℝ} (h : |x| ≤ maxDouble) : |rnd64 x| < (2:ℝ) ^ (1024:ℤ) := by
  have hp := two_zpow_pos (ulpE x)
  have hm : maxDouble < (2:ℝ) ^ (1024:ℤ) := by
    unfold maxDouble
    rw [show (1024:ℤ) = 53 + 971 by norm_num, zpow_add₀ (by norm_num)]
    refine mul_lt_mul_of_pos_right ?_ (two_zpow_pos 971)
    norm_num
  have hl : ulpE x ≤ 971 := by
    by_cases hx : x = 0
    · subst hx; simp [ulpE]
    have hpx : 0 < |x| := abs_pos.mpr hx
    have : Int.log 2 |x| < 1024 := by
      refine (Int.lt_zpow_iff_log_lt (b := 2) (by norm_num) hpx).mp ?_
      exact h.trans_lt (by rw [Nat.cast_ofNat]; exact hm)
    unfold ulpE; omega
  obtain ⟨n, hn⟩ : ∃ n : ℕ, (971:ℤ) = (n:ℤ) + ulpE x := ⟨(971 - ulpE x).toNat, by omega⟩
  have h1 : |x / (2:ℝ) ^ ulpE x| ≤ (((2 ^ 53 - 1) * 2 ^ n : ℤ) : ℝ) := by
    rw [abs_div, abs_of_pos hp, div_le_iff₀ hp]
    refine h.trans (le_of_eq ?_)
    unfold maxDouble
    rw [hn, zpow_add₀ (by norm_num), zpow_natCast]; push_cast; ring
  have h2 := nearEven_abs_le h1
  refine lt_of_le_of_lt ?_ hm
  unfold rnd64 maxDouble
  rw [abs_mul, abs_of_pos hp, hn, zpow_add₀ (by norm_num), zpow_natCast, ← mul_assoc]
  refine mul_le_mul_of_nonneg_right ?_ hp.le
  exact_mod_cast h2

/-- a double is its own rounding -/
theorem rnd64_of_double {x : ℝ} (h : IsDouble x) : rnd64 x = x := by
  by_cases hx : x = 0
  · rw [hx, rnd64_zero]
  obtain ⟨k, e, hk, h1, h2, rfl⟩ := h
  have hp := two_zpow_pos e
  have hpx := abs_pos.mpr hx
  have hl : Int.log 2 |(k:ℝ) * (2:ℝ) ^ e| < 53 + e := by
    refine (Int.lt_zpow_iff_log_lt (b := 2) (by norm_num) hpx).mp ?_
    rw [Nat.cast_ofNat, zpow_add₀ (by norm_num), abs_mul, abs_of_pos hp]
    refine mul_lt_mul_of_pos_right ?_ hp
    have : ((|k| : ℤ) : ℝ) < ((2 ^ 53 : ℤ) : ℝ) := by exact_mod_cast hk
    rw [Int.cast_abs, Int.cast_pow, Int.cast_ofNat] at this
    exact_mod_cast this
  have hu : ulpE ((k:ℝ) * (2:ℝ) ^ e) ≤ e := by unfold ulpE; omega
  obtain ⟨n, hn⟩ : ∃ n : ℕ, e = (n:ℤ) + ulpE ((k:ℝ) * (2:ℝ) ^ e) := ⟨(e - ulpE ((k:ℝ) * (2:ℝ) ^ e)).toNat, by omega⟩
  refine rnd64_int (k := k * 2 ^ n) ?_
  rw [Int.cast_mul, Int.cast_pow, Int.cast_ofNat, mul_assoc, ← zpow_natCast, ← zpow_add₀ (by norm_num), ← hn]

/-- IEEE 754 binary64: a finite number, an infinity (`true`: negative) or a NaN. `fused` tells whether the
multiply-add operations round once or twice. The two zeros are one value. -/
inductive F64 (fused : Bool) where
  | num (x : ℝ)
  | inf (neg : Bool)
  | nan

namespace F64
variable {fused : Bool}

/-- Round a real number; a result that the exponent range cannot hold becomes an infinity. -/
noncomputable def round (x : ℝ) : F64 fused :=
  open Classical in if |rnd64 x| < (2:ℝ) ^ (1024:ℤ) then .num (rnd64 x) else .inf (decide (x < 0))

def neg : F64 fused → F64 fused
  | .num x => .num (-x)
  | .inf s => .inf (!s)
  | .nan => .nan

noncomputable def add : F64 fused → F64 fused → F64 fused
  | .num x, .num y => round (x + y)
  | .num _, .inf s => .inf s
  | .inf s, .num _ => .inf s
  | .inf s, .inf t => if s = t then .inf s else .nan
  | _, _ => .nan

noncomputable def mul : F64 fused → F64 fused → F64 fused
  | .num x, .num y => round (x * y)
  | .num x, .inf s => open Classical in if x = 0 then .nan else .inf (xor s (decide (x < 0)))
  | .inf s, .num y => open Classical in if y = 0 then .nan else .inf (xor s (decide (y < 0)))
  | .inf s, .inf t => .inf (xor s t)
  | _, _ => .nan

/-- Multiply-add: one rounding if fused, otherwise two. -/
noncomputable def fma (a b c : F64 fused) : F64 fused :=
  if fused then
    match a, b, c with
    | .num x, .num y, .num z => round (x * y + z)
    | .num _, .num _, c => c
    | a, b, c => add (mul a b) c
  else add (mul a b) c

noncomputable instance : Arith (F64 fused) where
  zero := .num 0
  one := .num 1
  add := add
  sub a b := add a (neg b)
  mul := mul
  neg := neg
  fma := fma
  fms a b c := fma a b (neg c)
  fnma a b c := if fused then fma (neg a) b c else add c (neg (mul a b))

/-- IEEE comparison: a NaN is not equal to anything. -/
noncomputable instance : ArithEq (F64 fused) where
  feq a b := open Classical in match a, b with
    | .num x, .num y => decide (x = y)
    | .inf s, .inf t => decide (s = t)
    | _, _ => false

/-- value of a finite number -/
def val : F64 fused → ℝ
  | .num x => x
  | _ => 0

/-- the finite numbers -/
def fin (a : F64 fused) : Prop := ∃ x, a = .num x ∧ IsDouble x

theorem round_fin {x : ℝ} (h : |x| ≤ maxDouble) : (round x : F64 fused) = .num (rnd64 x) ∧ IsDouble (rnd64 x) := by
  have := rnd64_le h
  exact ⟨by rw [round, if_pos this], rnd64_double this⟩

theorem fin_round {x : ℝ} (h : |x| ≤ maxDouble) : (round x : F64 fused).fin ∧ (round x : F64 fused).val = rnd64 x := by
  obtain ⟨h1, h2⟩ := round_fin (fused := fused) h
  rw [h1]
  exact ⟨⟨_, rfl, h2⟩, rfl⟩

end F64

theorem IsDouble.neg {x : ℝ} (h : IsDouble x) : IsDouble (-x) := by
  obtain ⟨k, e, h1, h2, h3, rfl⟩ := h
  exact ⟨-k, e, by rwa [abs_neg], h2, h3, by push_cast; ring⟩

open F64 in
/-- IEEE double precision is a `FinModel`. -/
noncomputable def ieeeModel (fused : Bool) : FinModel (F64 fused) ((2:ℝ)⁻¹ ^ 53) ((2:ℝ) ^ (-1075:ℤ)) maxDouble where
  val := F64.val
  fin := F64.fin
  u_nonneg := by positivity
  η_nonneg := (two_zpow_pos _).le
  η_le := by
    rw [inv_pow, ← zpow_natCast, ← zpow_neg]
    exact zpow_le_zpow_right₀ (by norm_num) (by norm_num)
  zero_fin := ⟨0, rfl, 0, 0, by norm_num, by norm_num, by norm_num, by norm_num⟩
  zero_val := rfl
  neg_fin a h := by
    obtain ⟨x, rfl, h⟩ := h
    exact ⟨-x, rfl, h.neg⟩
  neg_val a := by
    cases a with
    | num x => rfl
    | inf s => exact neg_zero.symm
    | nan => exact neg_zero.symm
  add_fin a b ha hb h := by
    obtain ⟨x, rfl, hx⟩ := ha
    obtain ⟨y, rfl, hy⟩ := hb
    obtain ⟨h1, h2⟩ := fin_round (fused := fused) (x := x + y) ((abs_add_le _ _).trans h)
    have e : |F64.val (F64.round (x + y) : F64 fused) - (x + y)| ≤ (2:ℝ)⁻¹ ^ 53 * (|x| + |y|) := by
      rw [h2]
      exact (rnd64_grid (grid_add hx.grid hy.grid).1).trans (mul_le_mul_of_nonneg_left (abs_add_le _ _) (by positivity))
    exact ⟨h1, not_false, e.trans (le_add_of_nonneg_right (two_zpow_pos _).le), fun _ _ => e⟩
  sub_fin a b ha hb h := by
    obtain ⟨x, rfl, hx⟩ := ha
    obtain ⟨y, rfl, hy⟩ := hb
    obtain ⟨h1, h2⟩ := fin_round (fused := fused) (x := x + -y) (by rw [← sub_eq_add_neg]; exact (abs_sub _ _).trans h)
    have e : |F64.val (F64.round (x + -y) : F64 fused) - (x - y)| ≤ (2:ℝ)⁻¹ ^ 53 * (|x| + |y|) := by
      rw [h2, ← sub_eq_add_neg]
      exact (rnd64_grid (grid_add hx.grid hy.grid).2).trans (mul_le_mul_of_nonneg_left (abs_sub _ _) (by positivity))
    exact ⟨h1, not_false, e.trans (le_add_of_nonneg_right (two_zpow_pos _).le), fun _ _ => e⟩
  mul_fin a b ha hb h := by
    obtain ⟨x, rfl, hx⟩ := ha
    obtain ⟨y, rfl, hy⟩ := hb
    obtain ⟨h1, h2⟩ := fin_round (fused := fused) (x := x * y) h
    refine ⟨h1, ?_, ?_⟩
    · change |F64.val (F64.round (x * y)) - _| ≤ _
      rw [h2]
      exact rnd64_err _
    · intro h0
      change x * y = 0 at h0
      refine ⟨?_, not_false⟩
      change F64.val (F64.round (x * y)) = 0
      rw [h2, h0, rnd64_zero]
  fma_fin a b c ha hb hc := by
    obtain ⟨x, rfl, hx⟩ := ha
    obtain ⟨y, rfl, hy⟩ := hb
    obtain ⟨z, rfl, hz⟩ := hc
    cases fused with
    | false => exact .inl rfl
    | true =>
      refine .inr fun h => ?_
      obtain ⟨h1, h2⟩ := fin_round (fused := true) (x := x * y + z) ((abs_add_le _ _).trans h)
      refine ⟨h1, not_false, ?_, fun h0 => ?_⟩
      · change |F64.val (F64.round (x * y + z)) - _| ≤ _
        rw [h2]
        exact (rnd64_err _).trans (add_le_add_left (mul_le_mul_of_nonneg_left (abs_add_le _ _) (by positivity)) _)
      · change x * y = 0 at h0
        change |F64.val (F64.round (x * y + z)) - (x * y + z)| ≤ _ * |z|
        rw [h2, h0, zero_add]
        exact rnd64_grid hz.grid
  fms_fin a b c ha hb hc := by
    obtain ⟨x, rfl, hx⟩ := ha
    obtain ⟨y, rfl, hy⟩ := hb
    obtain ⟨z, rfl, hz⟩ := hc
    cases fused with
    | false => exact .inl rfl
    | true =>
      refine .inr fun h => ?_
      obtain ⟨h1, h2⟩ := fin_round (fused := true) (x := x * y + -z) (by rw [← sub_eq_add_neg]; exact (abs_sub _ _).trans h)
      refine ⟨h1, not_false, ?_, fun h0 => ?_⟩
      · change |F64.val (F64.round (x * y + -z)) - _| ≤ _
        rw [h2, ← sub_eq_add_neg]
        exact (rnd64_err _).trans (add_le_add_left (mul_le_mul_of_nonneg_left (abs_sub _ _) (by positivity)) _)
      · change x * y = 0 at h0
        change |F64.val (F64.round (x * y + -z)) - (x * y - z)| ≤ _ * |z|
        rw [h2, h0, zero_add, zero_sub, ← abs_neg z]
        exact rnd64_grid hz.neg.grid
  fnma_fin a b c ha hb hc := by
    obtain ⟨x, rfl, hx⟩ := ha
    obtain ⟨y, rfl, hy⟩ := hb
    obtain ⟨z, rfl, hz⟩ := hc
    cases fused with
    | false => exact .inl rfl
    | true =>
      refine .inr fun h => ?_
      obtain ⟨h1, h2⟩ := fin_round (fused := true) (x := -x * y + z) (by
        rw [show -x * y + z = z - x * y by ring, abs_sub_comm]; exact (abs_sub _ _).trans h)
      refine ⟨h1, not_false, ?_, fun h0 => ?_⟩
      · change |F64.val (F64.round (-x * y + z)) - _| ≤ _
        rw [h2, show -x * y + z = z - x * y by ring]
        refine (rnd64_err _).trans (add_le_add_left (mul_le_mul_of_nonneg_left ?_ (by positivity)) _)
        rw [abs_sub_comm]
        exact abs_sub _ _
      · change x * y = 0 at h0
        change |F64.val (F64.round (-x * y + z)) - (z - x * y)| ≤ _ * |z|
        rw [h2, show -x * y + z = z - x * y by ring, h0, sub_zero]
        exact rnd64_grid hz.grid

theorem ieee_truth (fused : Bool) : (ieeeModel fused).val Arith.one = 1 ∧
    ∀ a b : F64 fused, ArithEq.feq a b = true → (ieeeModel fused).val a = (ieeeModel fused).val b := by
  refine ⟨rfl, fun a b h => ?_⟩
  cases a <;> cases b <;> first | cases h | rfl | skip
  classical exact of_decide_eq_true h

end Haxx
