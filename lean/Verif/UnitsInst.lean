import Verif.PropsUnits
import Verif.FinInst

/-!
# Signs and powers of two as units

`ieeeSigns`: IEEE double precision (infinities, NaNs and gradual underflow included; the two zeros are one value), units +1 and
-1. `pow2Units`: double precision in the normal range, units ±2^k.
-/

namespace Haxx
open Arith

/-! ## Rounding commutes with a change of sign and of scale -/

theorem nearEven_neg (y : ℝ) : nearEven (-y) = -nearEven y := by
  by_cases h0 : Int.fract y = 0
  · have e : y = ⌊y⌋ := by have := Int.floor_add_fract y; rw [h0, add_zero] at this; exact this.symm
    rw [e, nearEven_int, ← Int.cast_neg, nearEven_int]
  have hf := Int.fract_neg h0
  have hfl : ⌊-y⌋ = -⌊y⌋ - 1 := by
    have h1 := Int.floor_add_fract y
    have h2 := Int.floor_add_fract (-y)
    rw [hf] at h2
    have : ((⌊-y⌋ : ℤ) : ℝ) = ((-⌊y⌋ - 1 : ℤ) : ℝ) := by push_cast; linarith
    exact_mod_cast this
  unfold nearEven
  rw [hf, hfl]
  rcases lt_trichotomy (Int.fract y) (1 / 2) with h | h | h
  · rw [if_neg (by linarith), if_pos (by linarith), if_pos h]; ring
  · simp only [h, show ¬ ((1:ℝ) - 1 / 2 < 1 / 2) by norm_num, show ¬ ((1:ℝ) / 2 < 1 - 1 / 2) by norm_num, lt_irrefl, if_false]
    have : Even (-⌊y⌋ - 1) ↔ ¬ Even ⌊y⌋ := by
      rw [show -⌊y⌋ - 1 = -(⌊y⌋ + 1) by ring, even_neg, Int.even_add_one]
    by_cases he : Even ⌊y⌋
    · rw [if_neg (fun c => this.mp c he), if_pos he]; ring
    · rw [if_pos (this.mpr he), if_neg he]; ring
  · rw [if_pos (by linarith), if_neg (by linarith), if_pos h]; ring

theorem rnd64_neg (x : ℝ) : rnd64 (-x) = -rnd64 x := by
  unfold rnd64 ulpE
  rw [abs_neg, neg_div, nearEven_neg]
  push_cast; ring

theorem rne_neg (t : ℕ) (x : ℝ) : rne t (-x) = -rne t x := by
  unfold rne
  rw [abs_neg, neg_div, nearEven_neg]
  push_cast; ring

theorem log_scale {x : ℝ} (hx : 0 < x) (k : ℤ) : Int.log 2 ((2:ℝ) ^ k * x) = k + Int.log 2 x := by
  have hp := two_zpow_pos k
  have hpx : 0 < (2:ℝ) ^ k * x := mul_pos hp hx
  have h1 : (2:ℝ) ^ (Int.log 2 x) ≤ x := by exact_mod_cast Int.zpow_log_le_self (b := 2) (by norm_num) hx
  have h2 : x < (2:ℝ) ^ (Int.log 2 x + 1) := by exact_mod_cast Int.lt_zpow_succ_log_self (b := 2) (by norm_num) x
  apply le_antisymm
  · have : Int.log 2 ((2:ℝ) ^ k * x) < k + Int.log 2 x + 1 := by
      refine (Int.lt_zpow_iff_log_lt (b := 2) (by norm_num) hpx).mp ?_
      rw [Nat.cast_ofNat, add_assoc, zpow_add₀ (by norm_num)]
      exact mul_lt_mul_of_pos_left h2 hp
    omega
  · refine (Int.zpow_le_iff_le_log (b := 2) (by norm_num) hpx).mp ?_
    rw [Nat.cast_ofNat, zpow_add₀ (by norm_num)]
    exact mul_le_mul_of_nonneg_left h1 hp.le

theorem rne_scale (t : ℕ) (k : ℤ) (x : ℝ) : rne t ((2:ℝ) ^ k * x) = (2:ℝ) ^ k * rne t x := by
  by_cases hx : x = 0
  · subst hx
    have := rne_int t 0 (by simp)
    rw [Int.cast_zero] at this
    rw [mul_zero, this, mul_zero]
  have hp := two_zpow_pos k
  unfold rne
  rw [abs_mul, abs_of_pos hp, log_scale (abs_pos.mpr hx)]
  rw [show k + Int.log 2 |x| - (t:ℤ) = k + (Int.log 2 |x| - t) by ring, zpow_add₀ (by norm_num),
    mul_div_mul_left _ _ hp.ne']
  ring

/-! ## Signs -/

namespace F64
variable {fused : Bool}

/-- multiply by a sign -/
def sgn (s : ℤˣ) (a : F64 fused) : F64 fused := if s = 1 then a else neg a

theorem neg_neg (a : F64 fused) : neg (neg a) = a := by cases a <;> simp [neg]

theorem round_neg (x : ℝ) : (round (-x) : F64 fused) = neg (round x) := by
  unfold round
  rw [rnd64_neg, abs_neg]
  split
  · rfl
  · rename_i h
    have hx : x ≠ 0 := by
      rintro rfl
      rw [rnd64_zero, abs_zero] at h
      exact h (two_zpow_pos _)
    simp only [neg]
    rcases lt_or_gt_of_ne hx with h | h
    · simp [h, h.le]
    · simp [h, h.le]

theorem add_neg (a b : F64 fused) : add (neg a) (neg b) = neg (add a b) := by
  cases a <;> cases b <;> simp only [add, neg]
  · rw [← neg_add, round_neg]; rfl
  · rename_i s t
    cases s <;> cases t <;> simp [neg]

theorem neg_mul (a b : F64 fused) : mul (neg a) b = neg (mul a b) := by
  cases a <;> cases b <;> simp only [mul, neg]
  · rw [_root_.neg_mul, round_neg]; rfl
  · rename_i x s
    by_cases hx : x = 0
    · simp [hx, neg]
    · rw [if_neg (by simpa using hx), if_neg hx]
      rcases lt_or_gt_of_ne hx with h | h <;> cases s <;> simp [h, h.le, neg]
  · rename_i s y
    split
    · rfl
    · cases s <;> by_cases h : y < 0 <;> simp [h, neg]
  · rename_i s t
    cases s <;> cases t <;> simp

theorem mul_neg (a b : F64 fused) : mul a (neg b) = neg (mul a b) := by
  cases a <;> cases b <;> simp only [mul, neg]
  · rw [_root_.mul_neg, round_neg]; rfl
  · rename_i x s
    split
    · rfl
    · cases s <;> by_cases h : x < 0 <;> simp [h, neg]
  · rename_i s x
    by_cases hx : x = 0
    · simp [hx, neg]
    · rw [if_neg (by simpa using hx), if_neg hx]
      rcases lt_or_gt_of_ne hx with h | h <;> cases s <;> simp [h, h.le, neg]
  · rename_i s t
    cases s <;> cases t <;> simp

theorem fma_negL (a b c : F64 fused) : fma (neg a) b (neg c) = neg (fma a b c) := by
  have key : add (mul (neg a) b) (neg c) = neg (add (mul a b) c) := by rw [neg_mul, add_neg]
  cases fused with
  | false => exact key
  | true =>
    cases a with
    | num x =>
      cases b with
      | num y =>
        cases c with
        | num z => change round _ = neg (round _); rw [← round_neg]; congr 1; ring
        | inf s => rfl
        | nan => rfl
      | inf s => exact key
      | nan => exact key
    | inf s => cases b <;> exact key
    | nan => cases b <;> exact key

theorem fma_negR (a b c : F64 fused) : fma a (neg b) (neg c) = neg (fma a b c) := by
  have key : add (mul a (neg b)) (neg c) = neg (add (mul a b) c) := by rw [mul_neg, add_neg]
  cases fused with
  | false => exact key
  | true =>
    cases a with
    | num x =>
      cases b with
      | num y =>
        cases c with
        | num z => change round _ = neg (round _); rw [← round_neg]; congr 1; ring
        | inf s => rfl
        | nan => rfl
      | inf s => exact key
      | nan => exact key
    | inf s => cases b <;> exact key
    | nan => cases b <;> exact key

theorem sgn_one (a : F64 fused) : sgn 1 a = a := if_pos rfl
theorem sgn_neg_one (a : F64 fused) : sgn (-1) a = neg a := if_neg (by decide)

theorem sgn_neg (s : ℤˣ) (a : F64 fused) : sgn s (neg a) = neg (sgn s a) := by
  rcases Int.units_eq_one_or s with rfl | rfl <;> simp only [sgn_one, sgn_neg_one]

theorem sgn_add (s : ℤˣ) (a b : F64 fused) : add (sgn s a) (sgn s b) = sgn s (add a b) := by
  rcases Int.units_eq_one_or s with rfl | rfl <;> simp only [sgn_one, sgn_neg_one, add_neg]

theorem sgn_mul (s t : ℤˣ) (a b : F64 fused) : mul (sgn s a) (sgn t b) = sgn (s * t) (mul a b) := by
  rcases Int.units_eq_one_or s with rfl | rfl <;> rcases Int.units_eq_one_or t with rfl | rfl <;>
    simp only [sgn_one, sgn_neg_one, neg_mul, mul_neg, one_mul, mul_one, _root_.neg_mul, _root_.mul_neg, _root_.neg_neg, neg_neg]

theorem sgn_fma (s t : ℤˣ) (a b c : F64 fused) : fma (sgn s a) (sgn t b) (sgn (s * t) c) = sgn (s * t) (fma a b c) := by
  rcases Int.units_eq_one_or s with rfl | rfl <;> rcases Int.units_eq_one_or t with rfl | rfl
  · simp only [mul_one, sgn_one]
  · simp only [one_mul, sgn_one, sgn_neg_one, fma_negR]
  · simp only [mul_one, sgn_one, sgn_neg_one, fma_negL]
  · simp only [_root_.mul_neg, mul_one, _root_.neg_neg, sgn_one, sgn_neg_one]
    have := fma_negL a (neg b) (neg c)
    rw [neg_neg] at this
    rw [this, fma_negR, neg_neg]

end F64

open F64 in
/-- IEEE double precision, units +1 and -1: `b` is `a` or its opposite. -/
noncomputable def ieeeSigns (fused : Bool) : Haxx.Units (F64 fused) (F64 fused) ℤˣ where
  R s a b := b = sgn s a
  D s a b := b = sgn s a
  zero s := by
    change F64.num 0 = sgn s (F64.num 0)
    rcases Int.units_eq_one_or s with rfl | rfl <;> simp [sgn_one, sgn_neg_one, F64.neg]
  data h := h
  test0 := by
    rintro s a b rfl
    rcases Int.units_eq_one_or s with rfl | rfl
    · rw [sgn_one]
    · rw [sgn_neg_one]
      cases a with
      | num x =>
        change decide (x = 0) = decide (-x = 0)
        simp
      | inf s => rfl
      | nan => rfl
  test1 := by intro a b h; rw [h, sgn_one]
  dneg := by rintro s a b rfl; exact (sgn_neg s a).symm
  neg := by rintro s a b rfl; exact (sgn_neg s a).symm
  add := by rintro s a b a' b' rfl rfl; exact sgn_add s a a'
  sub := by
    rintro s a b a' b' rfl rfl
    change F64.add _ (F64.neg _) = sgn s (F64.add _ (F64.neg _))
    rw [← sgn_neg, sgn_add]
  mul := by rintro s t a b a' b' rfl rfl; exact sgn_mul s t a a'
  fma := by rintro s t a b a' b' c d rfl rfl rfl; exact sgn_fma s t a a' c
  fms := by
    rintro s t a b a' b' c d rfl rfl rfl
    change F64.fma _ _ (F64.neg _) = sgn _ (F64.fma _ _ (F64.neg _))
    rw [← sgn_neg, sgn_fma]
  fnma := by
    rintro s t a b a' b' c d rfl rfl rfl
    change (if fused then F64.fma (F64.neg _) _ _ else F64.add _ (F64.neg (F64.mul _ _))) =
      sgn _ (if fused then F64.fma (F64.neg _) _ _ else F64.add _ (F64.neg (F64.mul _ _)))
    split
    · rw [← sgn_neg, sgn_fma]
    · rw [sgn_mul, ← sgn_neg, sgn_add]

/-! ## Powers of two -/

/-- the numbers ±2^k -/
def pow2 : Submonoid ℝ where
  carrier := {c | ∃ k : ℤ, c = (2:ℝ) ^ k ∨ c = -(2:ℝ) ^ k}
  one_mem' := ⟨0, by simp⟩
  mul_mem' := by
    rintro _ _ ⟨k, rfl | rfl⟩ ⟨l, rfl | rfl⟩ <;> refine ⟨k + l, ?_⟩ <;> rw [zpow_add₀ (by norm_num)] <;> simp

theorem pow2_ne {c : ℝ} (h : c ∈ pow2) : c ≠ 0 := by
  obtain ⟨k, rfl | rfl⟩ := h
  · exact (two_zpow_pos k).ne'
  · exact neg_ne_zero.mpr (two_zpow_pos k).ne'

theorem rne_pow2 (t : ℕ) {c : ℝ} (h : c ∈ pow2) (x : ℝ) : rne t (c * x) = c * rne t x := by
  obtain ⟨k, rfl | rfl⟩ := h
  · exact rne_scale t k x
  · rw [neg_mul, rne_neg, rne_scale, neg_mul]

section
variable {rng : ℝ → Prop} {c d : ℝ}

/-- a results: both are numbers and the second is `c` times the first, unless one of them is not a number -/
def PowR (c : ℝ) (a b : Option ℝ) : Prop := ∀ x y, a = some x → b = some y → y = c * x

theorem PowR.res (h : c ∈ pow2) {x y : ℝ} (e : y = c * x) : PowR c (flRes (rne 52) rng x) (flRes (rne 52) rng y) := by
  intro u v hu hv
  rw [flRes_some hu, flRes_some hv, e, rne_pow2 52 h]

theorem PowR.bind {a b : Option ℝ} {f f' : ℝ → Option ℝ} (h : PowR c a b)
    (g : ∀ x y, y = c * x → PowR d (f x) (f' y)) : PowR d (a.bind f) (b.bind f') := by
  intro u v hu hv
  obtain ⟨x, rfl, hu⟩ := Option.bind_eq_some_iff.mp hu
  obtain ⟨y, rfl, hv⟩ := Option.bind_eq_some_iff.mp hv
  exact g x y (h x y rfl rfl) u v hu hv

end

/-- Double precision in the normal range, units ±2^k. Operands: numbers, the second `c` times the first. Results: the second is
`c` times the first unless one of them is not a number (a run left the normal range). -/
noncomputable def pow2Units (fused : Bool) : Haxx.Units (Dbl fused) (Dbl fused) pow2 where
  R c a b := PowR c a b
  D c a b := ∃ x : ℝ, a = some x ∧ b = some (c * x)
  zero c := ⟨0, rfl, by rw [mul_zero]; rfl⟩
  data := by
    rintro c a b ⟨x, rfl, rfl⟩ u v hu hv
    cases hu; cases hv; rfl
  test0 := by
    rintro c a b ⟨x, rfl, rfl⟩
    have : (∃ z : ℝ, (some x : Option ℝ) = some z ∧ (some 0 : Option ℝ) = some z) ↔
        (∃ z : ℝ, (some ((c:ℝ) * x) : Option ℝ) = some z ∧ (some 0 : Option ℝ) = some z) := by
      simp [pow2_ne c.2, eq_comm]
    classical exact decide_eq_decide.mpr this
  test1 := by
    rintro a b ⟨x, rfl, rfl⟩
    rw [Submonoid.coe_one, one_mul]
  dneg := by
    rintro c a b ⟨x, rfl, rfl⟩
    exact ⟨-x, rfl, by rw [mul_neg]; rfl⟩
  neg := by
    rintro c a b h u v hu hv
    cases a with
    | none => cases hu
    | some x => cases b with
      | none => cases hv
      | some y =>
        cases hu; cases hv
        rw [h x y rfl rfl, mul_neg]
  add {c _ _ _ _} h k := PowR.bind h fun x y e => PowR.bind k fun x' y' e' => PowR.res c.2 (by rw [e, e']; ring)
  sub {c _ _ _ _} h k := PowR.bind h fun x y e => PowR.bind k fun x' y' e' => PowR.res c.2 (by rw [e, e']; ring)
  mul {c d _ _ _ _} h k := PowR.bind h fun x y e => PowR.bind k fun x' y' e' =>
    PowR.res (c * d).2 (by rw [e, e', Submonoid.coe_mul]; ring)
  fma {c d _ _ _ _ _ _} h k l := PowR.bind h fun x y e => PowR.bind k fun x' y' e' => PowR.bind l fun z w f => by
    have p : y * y' = (c * d : pow2) * (x * x') := by rw [e, e', Submonoid.coe_mul]; ring
    cases fused
    · exact PowR.bind (PowR.res (c * d).2 p) fun u v g => PowR.res (c * d).2 (by rw [g, f]; ring)
    · exact PowR.res (c * d).2 (by rw [p, f]; ring)
  fms {c d _ _ _ _ _ _} h k l := PowR.bind h fun x y e => PowR.bind k fun x' y' e' => PowR.bind l fun z w f => by
    have p : y * y' = (c * d : pow2) * (x * x') := by rw [e, e', Submonoid.coe_mul]; ring
    cases fused
    · exact PowR.bind (PowR.res (c * d).2 p) fun u v g => PowR.res (c * d).2 (by rw [g, f]; ring)
    · exact PowR.res (c * d).2 (by rw [p, f]; ring)
  fnma {c d _ _ _ _ _ _} h k l := PowR.bind h fun x y e => PowR.bind k fun x' y' e' => PowR.bind l fun z w f => by
    have p : y * y' = (c * d : pow2) * (x * x') := by rw [e, e', Submonoid.coe_mul]; ring
    cases fused
    · exact PowR.bind (PowR.res (c * d).2 p) fun u v g => PowR.res (c * d).2 (by rw [g, f]; ring)
    · exact PowR.res (c * d).2 (by rw [p, f]; ring)

end Haxx
