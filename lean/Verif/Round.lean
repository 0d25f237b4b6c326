import Verif.PropsGemm
import Mathlib.Analysis.Quaternion
import Mathlib.Tactic.Linarith
import Mathlib.Tactic.Positivity
import Mathlib.Tactic.GCongr

/-!
# Rounding-error calculus

`StdModel F u` is the standard model of floating-point arithmetic (Higham, *Accuracy and Stability*,
(2.4)) on top of an uninterpreted `Arith F`: a value `val x : ℝ` for every machine number and a
predicate `ok x` ("finite, and nothing in its history overflowed or underflowed").  Only *sticky*
exceptions are assumed: an `ok` result has `ok` operands.  Inf/NaN are sticky in IEEE arithmetic;
underflow is sticky if `F` is "a double together with its exception flag".  A contracted
multiply-add may be fused or not.
-/

namespace Haxx
open Quaternion Finset

/-- The standard model of rounded arithmetic with unit roundoff `u`. -/
structure StdModel (F : Type) [Arith F] (u : ℝ) where
  u_nonneg : 0 ≤ u
  /-- the real number a machine number stands for -/
  val : F → ℝ
  /-- a machine number that stands for a real number (not Inf, NaN or an underflow victim) -/
  ok : F → Prop
  zero_ok : ok Arith.zero
  zero_val : val Arith.zero = 0
  neg_ok : ∀ a, ok (~ᶠ a) → ok a
  neg_val : ∀ a, val (~ᶠ a) = - val a
  add_ok : ∀ a b, ok (a +ᶠ b) → ok a ∧ ok b
  /-- the error may be relative to the operands rather than the sum: that leaves room for a compiler that fuses a product
  among the operands with the addition (`Fuse.lean`) -/
  add_err : ∀ a b, ok (a +ᶠ b) → |val (a +ᶠ b) - (val a + val b)| ≤ u * (|val a| + |val b|)
  sub_ok : ∀ a b, ok (a -ᶠ b) → ok a ∧ ok b
  sub_err : ∀ a b, ok (a -ᶠ b) → |val (a -ᶠ b) - (val a - val b)| ≤ u * (|val a| + |val b|)
  mul_ok : ∀ a b, ok (a *ᶠ b) → ok a ∧ ok b
  mul_err : ∀ a b, ok (a *ᶠ b) → |val (a *ᶠ b) - val a * val b| ≤ u * |val a * val b|
  /-- one rounding if the instruction is fused, two if it is a multiplication followed by an
  addition; the bound is the larger of the two -/
  fma_ok : ∀ a b c, ok (Arith.fma a b c) → ok a ∧ ok b ∧ ok c
  fma_err : ∀ a b c, ok (Arith.fma a b c) →
    |val (Arith.fma a b c) - (val a * val b + val c)| ≤
      u * |val a * val b + val c| + u * (1 + u) * |val a * val b|
  fms_ok : ∀ a b c, ok (Arith.fms a b c) → ok a ∧ ok b ∧ ok c
  fms_err : ∀ a b c, ok (Arith.fms a b c) →
    |val (Arith.fms a b c) - (val a * val b - val c)| ≤
      u * |val a * val b - val c| + u * (1 + u) * |val a * val b|
  fnma_ok : ∀ a b c, ok (Arith.fnma a b c) → ok a ∧ ok b ∧ ok c
  fnma_err : ∀ a b c, ok (Arith.fnma a b c) →
    |val (Arith.fnma a b c) - (val c - val a * val b)| ≤
      u * |val c - val a * val b| + u * (1 + u) * |val a * val b|

/-- Additions and subtractions are rounded once: relative error `u` of the sum. -/
def StdModel.Strict {F : Type} [Arith F] {u : ℝ} (S : StdModel F u) : Prop :=
  (∀ a b, S.ok (a +ᶠ b) → |S.val (a +ᶠ b) - (S.val a + S.val b)| ≤ u * |S.val a + S.val b|) ∧
  (∀ a b, S.ok (a -ᶠ b) → |S.val (a -ᶠ b) - (S.val a - S.val b)| ≤ u * |S.val a - S.val b|)

/-- Apply `f` to the components. -/
def Quat.map {F G : Type} (f : F → G) (q : Quat F) : Quat G := ⟨f q.re, f q.i, f q.j, f q.k⟩
/-- Apply `f` to the components. -/
def Scal.map {F G : Type} (f : F → G) : Scal F → Scal G
  | .d a => .d (f a)
  | .z a => .z ⟨f a.re, f a.im⟩
  | .h a => .h (a.map f)

/-- All four components satisfy `P`. -/
def Quat.All {F : Type} (P : F → Prop) (q : Quat F) : Prop := P q.re ∧ P q.i ∧ P q.j ∧ P q.k

theorem abs_split {x y e : ℝ} (h : |x - y| ≤ e) : |x| ≤ |y| + e := by
  have := abs_sub_abs_le_abs_sub x y
  linarith

/-- the arithmetic common to the three multiply-adds -/
theorem fmaBound {u P Q v st w X Y : ℝ} (hu : 0 ≤ u) (hXY : |X + Y| ≤ |X| + |Y|)
    (hv : |v| ≤ u * |X + Y| + u * (1 + u) * |X|) (hX : |X| ≤ P * st) (hY : |Y| ≤ Q * w) :
    |v| ≤ (u + u * (1 + u)) * (P * st) + u * (Q * w) := by
  have h1 := mul_le_mul_of_nonneg_left (hXY.trans (add_le_add hX hY)) hu
  have h2 := mul_le_mul_of_nonneg_left hX (show 0 ≤ u * (1 + u) by positivity)
  nlinarith

variable {F : Type} [Arith F] {u : ℝ}

/-- `x'` approximates `x` with `p` accumulated roundings relative to the magnitude `s`. -/
def StdModel.R (S : StdModel F u) (p : ℕ) (x' : F) (x s : ℝ) : Prop :=
  (S.ok x' → |S.val x' - x| ≤ ((1 + u) ^ p - 1) * s) ∧ |x| ≤ s

namespace StdModel
variable (S : StdModel F u)
include S

theorem pow_le {p q : ℕ} (h : p ≤ q) : (1 + u) ^ p ≤ (1 + u) ^ q :=
  pow_le_pow_right₀ (by linarith [S.u_nonneg]) h

theorem one_le_pow (p : ℕ) : 1 ≤ (1 + u) ^ p := one_le_pow₀ (by linarith [S.u_nonneg])

variable {S}
variable {p q r n : ℕ} {a' b' c' : F} {a b c s t w : ℝ}

theorem R.nonneg (h : S.R p a' a s) : 0 ≤ s := le_trans (abs_nonneg _) h.2

theorem R.mono (h : S.R p a' a s) (hp : p ≤ q) (hs : s ≤ t) : S.R q a' a t := by
  refine ⟨fun ho => (h.1 ho).trans ?_, h.2.trans hs⟩
  have h1 := S.pow_le hp
  have h2 := S.one_le_pow p
  exact mul_le_mul (by linarith) hs h.nonneg (by linarith)

theorem R.le (h : S.R p a' a s) (hp : p ≤ q) : S.R q a' a s := h.mono hp le_rfl

/-- an input -/
theorem R.exact (x' : F) : S.R p x' (S.val x') |S.val x'| := by
  refine ⟨fun _ => ?_, le_rfl⟩
  rw [sub_self, abs_zero]
  exact mul_nonneg (by linarith [S.one_le_pow p]) (abs_nonneg _)

theorem R.zero : S.R p Arith.zero 0 0 := by
  have := R.exact (S := S) (p := p) Arith.zero
  rwa [S.zero_val, abs_zero] at this

theorem R.neg (h : S.R p a' a s) : S.R p (~ᶠ a') (-a) s := by
  refine ⟨fun ho => ?_, by rw [abs_neg]; exact h.2⟩
  rw [S.neg_val, ← neg_sub', abs_neg]
  exact h.1 (S.neg_ok _ ho)

theorem R.val_le (h : S.R p a' a s) (ho : S.ok a') : |S.val a'| ≤ (1 + u) ^ p * s := by
  have := abs_split (h.1 ho)
  nlinarith [h.2]

/-- error of the exact product of two approximations -/
theorem R.prod (h : S.R p a' a s) (g : S.R q b' b t) (ha : S.ok a') (hb : S.ok b') :
    |S.val a' * S.val b' - a * b| ≤ ((1 + u) ^ (p + q) - 1) * (s * t) ∧
    |S.val a' * S.val b'| ≤ (1 + u) ^ (p + q) * (s * t) := by
  have e : S.val a' * S.val b' - a * b = (S.val a' - a) * S.val b' + a * (S.val b' - b) := by ring
  have h1 := h.1 ha
  have g1 := g.1 hb
  have hs := h.nonneg
  have ht := g.nonneg
  have vb := g.val_le hb
  have va := h.val_le ha
  have P := S.one_le_pow p
  have Q := S.one_le_pow q
  constructor
  · rw [e]
    refine (abs_add_le _ _).trans ?_
    rw [abs_mul, abs_mul]
    have k1 : |S.val a' - a| * |S.val b'| ≤ (((1 + u) ^ p - 1) * s) * ((1 + u) ^ q * t) :=
      mul_le_mul h1 vb (abs_nonneg _) (mul_nonneg (by linarith) hs)
    have k2 : |a| * |S.val b' - b| ≤ s * (((1 + u) ^ q - 1) * t) :=
      mul_le_mul h.2 g1 (abs_nonneg _) hs
    refine (add_le_add k1 k2).trans (le_of_eq ?_)
    rw [pow_add]; ring
  · rw [abs_mul]
    refine (mul_le_mul va vb (abs_nonneg _) (by positivity)).trans (le_of_eq ?_)
    rw [pow_add]; ring

theorem R.mul (h : S.R p a' a s) (g : S.R q b' b t) :
    S.R (p + q + 1) (a' *ᶠ b') (a * b) (s * t) := by
  have hs := h.nonneg
  have ht := g.nonneg
  refine ⟨fun ho => ?_, by rw [abs_mul]; exact mul_le_mul h.2 g.2 (abs_nonneg _) hs⟩
  obtain ⟨ha, hb⟩ := S.mul_ok _ _ ho
  obtain ⟨k1, k2⟩ := h.prod g ha hb
  have k3 := S.mul_err _ _ ho
  have e : S.val (a' *ᶠ b') - a * b =
    (S.val (a' *ᶠ b') - S.val a' * S.val b') + (S.val a' * S.val b' - a * b) := by ring
  rw [e]
  refine (abs_add_le _ _).trans ?_
  have k4 := mul_le_mul_of_nonneg_left k2 S.u_nonneg
  rw [pow_succ]
  nlinarith

theorem R.add (h : S.R p a' a s) (g : S.R p b' b t) : S.R (p + 1) (a' +ᶠ b') (a + b) (s + t) := by
  refine ⟨fun ho => ?_, (abs_add_le _ _).trans (add_le_add h.2 g.2)⟩
  obtain ⟨ha, hb⟩ := S.add_ok _ _ ho
  have k3 := S.add_err _ _ ho
  have h1 := h.1 ha
  have g1 := g.1 hb
  have e : S.val (a' +ᶠ b') - (a + b) =
    (S.val (a' +ᶠ b') - (S.val a' + S.val b')) + ((S.val a' - a) + (S.val b' - b)) := by ring
  rw [e]
  refine (abs_add_le _ _).trans ?_
  have k5 := abs_add_le (S.val a' - a) (S.val b' - b)
  have k6 : |S.val a'| + |S.val b'| ≤ (1 + u) ^ p * (s + t) := by
    have := h.val_le ha
    have := g.val_le hb
    nlinarith
  have k4 := mul_le_mul_of_nonneg_left k6 S.u_nonneg
  rw [pow_succ]
  nlinarith

theorem R.sub (h : S.R p a' a s) (g : S.R p b' b t) : S.R (p + 1) (a' -ᶠ b') (a - b) (s + t) := by
  refine ⟨fun ho => ?_, (abs_sub _ _).trans (add_le_add h.2 g.2)⟩
  obtain ⟨ha, hb⟩ := S.sub_ok _ _ ho
  have k3 := S.sub_err _ _ ho
  have h1 := h.1 ha
  have g1 := g.1 hb
  have e : S.val (a' -ᶠ b') - (a - b) =
    (S.val (a' -ᶠ b') - (S.val a' - S.val b')) + ((S.val a' - a) - (S.val b' - b)) := by ring
  rw [e]
  refine (abs_add_le _ _).trans ?_
  have k5 := abs_sub (S.val a' - a) (S.val b' - b)
  have k6 : |S.val a'| + |S.val b'| ≤ (1 + u) ^ p * (s + t) := by
    have := h.val_le ha
    have := g.val_le hb
    nlinarith
  have k4 := mul_le_mul_of_nonneg_left k6 S.u_nonneg
  rw [pow_succ]
  nlinarith

theorem R.fma (h : S.R p a' a s) (g : S.R q b' b t) (k : S.R r c' c w) (h1 : p + q + 2 ≤ n)
    (h2 : r + 1 ≤ n) : S.R n (Arith.fma a' b' c') (a * b + c) (s * t + w) := by
  have hs := h.nonneg
  have ht := g.nonneg
  have hst : 0 ≤ s * t := mul_nonneg hs ht
  refine ⟨fun ho => ?_, (abs_add_le _ _).trans (add_le_add ?_ k.2)⟩
  · obtain ⟨ha, hb, hc⟩ := S.fma_ok _ _ _ ho
    obtain ⟨k1, k2⟩ := h.prod g ha hb
    have k3 := fmaBound S.u_nonneg (abs_add_le _ _) (S.fma_err _ _ _ ho) k2 (k.val_le hc)
    have e : S.val (Arith.fma a' b' c') - (a * b + c) =
      (S.val (Arith.fma a' b' c') - (S.val a' * S.val b' + S.val c')) +
        ((S.val a' * S.val b' - a * b) + (S.val c' - c)) := by ring
    rw [e]
    refine (abs_add_le _ _).trans ((add_le_add k3 ((abs_add_le _ _).trans
      (add_le_add k1 (k.1 hc)))).trans ?_)
    have m1 := mul_le_mul_of_nonneg_right (S.pow_le h1) hst
    have m2 := mul_le_mul_of_nonneg_right (S.pow_le h2) k.nonneg
    rw [pow_succ, pow_succ] at m1
    rw [pow_succ] at m2
    nlinarith
  · rw [abs_mul]; exact mul_le_mul h.2 g.2 (abs_nonneg _) hs

theorem R.fms (h : S.R p a' a s) (g : S.R q b' b t) (k : S.R r c' c w) (h1 : p + q + 2 ≤ n)
    (h2 : r + 1 ≤ n) : S.R n (Arith.fms a' b' c') (a * b - c) (s * t + w) := by
  have hs := h.nonneg
  have ht := g.nonneg
  have hst : 0 ≤ s * t := mul_nonneg hs ht
  refine ⟨fun ho => ?_, (abs_sub _ _).trans (add_le_add ?_ k.2)⟩
  · obtain ⟨ha, hb, hc⟩ := S.fms_ok _ _ _ ho
    obtain ⟨k1, k2⟩ := h.prod g ha hb
    have hv := S.fms_err _ _ _ ho
    rw [sub_eq_add_neg (S.val a' * S.val b') (S.val c')] at hv
    have k3 := fmaBound S.u_nonneg (abs_add_le _ _) hv k2
      (by rw [abs_neg]; exact k.val_le hc)
    have e : S.val (Arith.fms a' b' c') - (a * b - c) =
      (S.val (Arith.fms a' b' c') - (S.val a' * S.val b' + -S.val c')) +
        ((S.val a' * S.val b' - a * b) - (S.val c' - c)) := by ring
    rw [e]
    refine (abs_add_le _ _).trans ((add_le_add k3 ((abs_sub _ _).trans
      (add_le_add k1 (k.1 hc)))).trans ?_)
    have m1 := mul_le_mul_of_nonneg_right (S.pow_le h1) hst
    have m2 := mul_le_mul_of_nonneg_right (S.pow_le h2) k.nonneg
    rw [pow_succ, pow_succ] at m1
    rw [pow_succ] at m2
    nlinarith
  · rw [abs_mul]; exact mul_le_mul h.2 g.2 (abs_nonneg _) hs

theorem R.fnma (h : S.R p a' a s) (g : S.R q b' b t) (k : S.R r c' c w) (h1 : p + q + 2 ≤ n)
    (h2 : r + 1 ≤ n) : S.R n (Arith.fnma a' b' c') (c - a * b) (s * t + w) := by
  have hs := h.nonneg
  have ht := g.nonneg
  have hst : 0 ≤ s * t := mul_nonneg hs ht
  refine ⟨fun ho => ?_, (abs_sub _ _).trans ?_⟩
  · obtain ⟨ha, hb, hc⟩ := S.fnma_ok _ _ _ ho
    obtain ⟨k1, k2⟩ := h.prod g ha hb
    have hv := S.fnma_err _ _ _ ho
    rw [show |S.val c' - S.val a' * S.val b'| = |S.val a' * S.val b' + -S.val c'| by
      rw [← abs_neg]; congr 1; ring] at hv
    have k3 := fmaBound S.u_nonneg (abs_add_le _ _) hv k2
      (by rw [abs_neg]; exact k.val_le hc)
    have e : S.val (Arith.fnma a' b' c') - (c - a * b) =
      (S.val (Arith.fnma a' b' c') - (S.val c' - S.val a' * S.val b')) +
        ((S.val c' - c) - (S.val a' * S.val b' - a * b)) := by ring
    rw [e]
    refine (abs_add_le _ _).trans ((add_le_add k3 ((abs_sub _ _).trans
      (add_le_add (k.1 hc) k1))).trans ?_)
    have m1 := mul_le_mul_of_nonneg_right (S.pow_le h1) hst
    have m2 := mul_le_mul_of_nonneg_right (S.pow_le h2) k.nonneg
    rw [pow_succ, pow_succ] at m1
    rw [pow_succ] at m2
    nlinarith
  · have : |a * b| ≤ s * t := by rw [abs_mul]; exact mul_le_mul h.2 g.2 (abs_nonneg _) hs
    linarith [k.2]

end StdModel
end Haxx
