import Verif.RoundF
import Verif.PropsRound2
import Verif.FHblas1Bits

/-!
# Calculus of rounding errors with overflow and gradual underflow

`FinModel F u η Ω` is floating-point arithmetic as IEEE 754 specifies it: numbers are finite or not; an operation on
finite numbers whose exact result is at most `Ω` in magnitude gives a finite number, with relative error at most `u`
and, for products, absolute error at most `η` more (a product may underflow). For doubles `u = 2⁻⁵³`, `η = 2⁻¹⁰⁷⁵`
and `Ω` is the largest double.

Unlike `StdModel`, nothing is assumed of the results: that they are finite is part of what is proved.
-/

set_option linter.unusedSectionVars false

namespace Haxx
open Arith Quaternion Finset

/-- Floating-point arithmetic with overflow beyond `Ω`, unit roundoff `u` and underflow error `η`. The errors of additions
are relative to the operands, and a number may be a product that the compiler can still fuse with the addition that uses it
(`prod`; none in plain IEEE arithmetic): that leaves room for the fused arithmetics of `Fuse.lean`. -/
structure FinModel (F : Type) [Arith F] (u η Ω : ℝ) where
  /-- the real number a finite machine number stands for -/
  val : F → ℝ
  /-- neither infinite nor not-a-number -/
  fin : F → Prop
  /-- a nonzero product that may be fused with the addition that uses it -/
  prod : F → Prop := fun _ => False
  u_nonneg : 0 ≤ u
  η_nonneg : 0 ≤ η
  η_le : η ≤ u
  zero_fin : fin Arith.zero
  zero_val : val Arith.zero = 0
  zero_prod : ¬ prod Arith.zero := by exact not_false
  neg_fin : ∀ a, fin a → fin (~ᶠ a)
  neg_val : ∀ a, val (~ᶠ a) = - val a
  neg_prod : ∀ a, prod (~ᶠ a) → prod a := by exact fun _ h => h
  add_fin : ∀ a b, fin a → fin b → |val a| + |val b| ≤ Ω → fin (a +ᶠ b) ∧ ¬ prod (a +ᶠ b) ∧
    |val (a +ᶠ b) - (val a + val b)| ≤ u * (|val a| + |val b|) + η ∧
    (¬ prod a → ¬ prod b → |val (a +ᶠ b) - (val a + val b)| ≤ u * (|val a| + |val b|))
  sub_fin : ∀ a b, fin a → fin b → |val a| + |val b| ≤ Ω → fin (a -ᶠ b) ∧ ¬ prod (a -ᶠ b) ∧
    |val (a -ᶠ b) - (val a - val b)| ≤ u * (|val a| + |val b|) + η ∧
    (¬ prod a → ¬ prod b → |val (a -ᶠ b) - (val a - val b)| ≤ u * (|val a| + |val b|))
  mul_fin : ∀ a b, fin a → fin b → |val a * val b| ≤ Ω →
    fin (a *ᶠ b) ∧ |val (a *ᶠ b) - val a * val b| ≤ u * |val a * val b| + η ∧
      (val a * val b = 0 → val (a *ᶠ b) = 0 ∧ ¬ prod (a *ᶠ b))
  /-- multiply-add: either two operations, or one with a single rounding -/
  fma_fin : ∀ a b c, fin a → fin b → fin c → Arith.fma a b c = (a *ᶠ b) +ᶠ c ∨ (|val a * val b| + |val c| ≤ Ω →
    fin (Arith.fma a b c) ∧ ¬ prod (Arith.fma a b c) ∧
    |val (Arith.fma a b c) - (val a * val b + val c)| ≤ u * (|val a * val b| + |val c|) + η ∧
    (val a * val b = 0 → |val (Arith.fma a b c) - (val a * val b + val c)| ≤ u * |val c|))
  fms_fin : ∀ a b c, fin a → fin b → fin c → Arith.fms a b c = (a *ᶠ b) -ᶠ c ∨ (|val a * val b| + |val c| ≤ Ω →
    fin (Arith.fms a b c) ∧ ¬ prod (Arith.fms a b c) ∧
    |val (Arith.fms a b c) - (val a * val b - val c)| ≤ u * (|val a * val b| + |val c|) + η ∧
    (val a * val b = 0 → |val (Arith.fms a b c) - (val a * val b - val c)| ≤ u * |val c|))
  fnma_fin : ∀ a b c, fin a → fin b → fin c → Arith.fnma a b c = c -ᶠ (a *ᶠ b) ∨ (|val a * val b| + |val c| ≤ Ω →
    fin (Arith.fnma a b c) ∧ ¬ prod (Arith.fnma a b c) ∧
    |val (Arith.fnma a b c) - (val c - val a * val b)| ≤ u * (|val a * val b| + |val c|) + η ∧
    (val a * val b = 0 → |val (Arith.fnma a b c) - (val c - val a * val b)| ≤ u * |val c|))

/-- An arithmetic together with room for `n` roundings of numbers of magnitude at most `S`. -/
structure Room (F : Type) [Arith F] where
  u : ℝ
  η : ℝ
  Ω : ℝ
  M : FinModel F u η Ω
  n : ℕ
  S : ℝ
  room : (1 + 2 * u) ^ n * S ≤ Ω

variable {F : Type} [Arith F]

namespace Room

/-- growth per rounding -/
noncomputable def g (I : Room F) : ℝ := 1 + 2 * I.u

/-- The machine number `x'` is finite and stands for `x`, of magnitude at most `s`, after `p` roundings. -/
def W (I : Room F) (p : ℕ) (x' : F) (x s : ℝ) : Prop :=
  I.M.fin x' ∧ |I.M.val x' - x| ≤ (I.g ^ p - 1) * s ∧ |x| ≤ s ∧ (I.M.prod x' → 1 ≤ s)

variable {I : Room F} {a' b' c' : F} {a b c s t w : ℝ} {p q r n : ℕ}

theorem one_le_g : 1 ≤ I.g := by have := I.M.u_nonneg; unfold g; linarith

theorem one_le_gp (p : ℕ) : 1 ≤ I.g ^ p := one_le_pow₀ one_le_g

theorem gp_mono (h : p ≤ q) : I.g ^ p ≤ I.g ^ q := pow_le_pow_right₀ one_le_g h

theorem W.nonneg (h : I.W p a' a s) : 0 ≤ s := (abs_nonneg _).trans h.2.2.1

theorem W.mono (h : I.W p a' a s) (hp : p ≤ q) (hs : s ≤ t) : I.W q a' a t := by
  refine ⟨h.1, h.2.1.trans ?_, h.2.2.1.trans hs, fun e => (h.2.2.2 e).trans hs⟩
  have h1 := gp_mono (I := I) hp
  have h2 := one_le_gp (I := I) p
  exact mul_le_mul (by linarith) hs h.nonneg (by linarith)

theorem W.zero : I.W 0 Arith.zero (Arith.zero : ℝ) 0 :=
  ⟨I.M.zero_fin, by rw [I.M.zero_val]; change |(0:ℝ) - 0| ≤ _; simp, by change |(0:ℝ)| ≤ 0; simp, fun h => (I.M.zero_prod h).elim⟩

theorem W.neg (h : I.W p a' a s) : I.W p (~ᶠ a') (~ᶠ a) s := by
  obtain ⟨h1, h2, h3, h4⟩ := h
  refine ⟨I.M.neg_fin _ h1, ?_, ?_, fun e => h4 (I.M.neg_prod _ e)⟩
  · rw [I.M.neg_val]
    change |- I.M.val a' - - a| ≤ _
    rwa [show - I.M.val a' - - a = -(I.M.val a' - a) by ring, abs_neg]
  · change |- a| ≤ _; rwa [abs_neg]

/-- exact value of the operands within the room -/
theorem inRoom {X' X S : ℝ} (h : |X' - X| ≤ (I.g ^ p - 1) * S) (hX : |X| ≤ S) : |X'| ≤ I.g ^ p * S := by
  have := abs_sub_abs_le_abs_sub X' X
  nlinarith

theorem leΩ {x S : ℝ} (h : x ≤ I.g ^ p * S) (hS : S ≤ I.S) (h0 : 0 ≤ S) (hn : p ≤ I.n) : x ≤ I.Ω := by
  refine h.trans (le_trans ?_ I.room)
  have h1 := gp_mono (I := I) hn
  have h2 := one_le_gp (I := I) p
  exact mul_le_mul h1 hS h0 (by change 0 ≤ I.g ^ I.n; linarith)

/-- one more rounding -/
theorem round {X' X S r' e Y : ℝ} (h : |X' - X| ≤ (I.g ^ p - 1) * S) (hX : |X| ≤ S) (hY : Y ≤ I.g ^ p * S)
    (hr : |r' - X'| ≤ I.u * Y + e) (he : e ≤ I.u * S) : |r' - X| ≤ (I.g ^ (p + 1) - 1) * S := by
  have hu := I.M.u_nonneg
  have h0 : 0 ≤ S := (abs_nonneg _).trans hX
  have h2 := mul_le_mul_of_nonneg_left hY hu
  have h3 := abs_sub_le r' X' X
  have h4 : I.u * S ≤ I.u * (I.g ^ p * S) := by
    refine mul_le_mul_of_nonneg_left ?_ hu
    have := one_le_gp (I := I) p
    nlinarith
  rw [pow_succ]
  have e1 : (I.g ^ p * I.g - 1) * S = (I.g ^ p - 1) * S + 2 * (I.u * (I.g ^ p * S)) := by unfold g; ring
  rw [e1]
  linarith

/-- the operands of a sum within the room -/
theorem sumR {a' a b' b : ℝ} (h : |a' - a| ≤ (I.g ^ p - 1) * s) (ha : |a| ≤ s) (k : |b' - b| ≤ (I.g ^ q - 1) * t) (hb : |b| ≤ t) :
    |a'| + |b'| ≤ I.g ^ max p q * (s + t) := by
  have h1 := (inRoom h ha).trans (mul_le_mul_of_nonneg_right (gp_mono (I := I) (le_max_left p q)) ((abs_nonneg _).trans ha))
  have h2 := (inRoom k hb).trans (mul_le_mul_of_nonneg_right (gp_mono (I := I) (le_max_right p q)) ((abs_nonneg _).trans hb))
  rw [mul_add]
  linarith

theorem sumE {a' a b' b : ℝ} (h : |a' - a| ≤ (I.g ^ p - 1) * s) (k : |b' - b| ≤ (I.g ^ q - 1) * t) (hs : 0 ≤ s) (ht : 0 ≤ t) :
    |a' - a| + |b' - b| ≤ (I.g ^ max p q - 1) * (s + t) := by
  have h1 := mul_le_mul_of_nonneg_right (sub_le_sub_right (gp_mono (I := I) (le_max_left p q)) 1) hs
  have h2 := mul_le_mul_of_nonneg_right (sub_le_sub_right (gp_mono (I := I) (le_max_right p q)) 1) ht
  rw [mul_add]
  linarith

theorem W.add (h : I.W p a' a s) (k : I.W q b' b t) (hB : s + t ≤ I.S) (hn : max p q + 1 ≤ I.n) :
    I.W (max p q + 1) (a' +ᶠ b') (a +ᶠ b) (s + t) := by
  have hs := h.nonneg
  have ht := k.nonneg
  obtain ⟨h1, h2, h3, h4⟩ := h
  obtain ⟨k1, k2, k3, k4⟩ := k
  have e : |(I.M.val a' + I.M.val b') - (a + b)| ≤ (I.g ^ max p q - 1) * (s + t) := by
    refine le_trans ?_ (sumE h2 k2 hs ht)
    rw [show (I.M.val a' + I.M.val b') - (a + b) = (I.M.val a' - a) + (I.M.val b' - b) by ring]
    exact abs_add_le _ _
  have hX : |a + b| ≤ s + t := (abs_add_le _ _).trans (add_le_add h3 k3)
  have hY := sumR h2 h3 k2 k3
  obtain ⟨r1, r0, r2, r3⟩ := I.M.add_fin a' b' h1 k1 (leΩ hY hB (by linarith) (by omega))
  refine ⟨r1, ?_, hX, fun e => (r0 e).elim⟩
  by_cases hp : I.M.prod a' ∨ I.M.prod b'
  · refine round e hX hY r2 (I.M.η_le.trans (le_mul_of_one_le_right I.M.u_nonneg ?_))
    rcases hp with hp | hp
    · linarith [h4 hp]
    · linarith [k4 hp]
  · rw [not_or] at hp
    exact round (e := 0) e hX hY (by linarith [r3 hp.1 hp.2]) (mul_nonneg I.M.u_nonneg (by linarith))

theorem W.sub (h : I.W p a' a s) (k : I.W q b' b t) (hB : s + t ≤ I.S) (hn : max p q + 1 ≤ I.n) :
    I.W (max p q + 1) (a' -ᶠ b') (a -ᶠ b) (s + t) := by
  have hs := h.nonneg
  have ht := k.nonneg
  obtain ⟨h1, h2, h3, h4⟩ := h
  obtain ⟨k1, k2, k3, k4⟩ := k
  have e : |(I.M.val a' - I.M.val b') - (a - b)| ≤ (I.g ^ max p q - 1) * (s + t) := by
    refine le_trans ?_ (sumE h2 k2 hs ht)
    rw [show (I.M.val a' - I.M.val b') - (a - b) = (I.M.val a' - a) - (I.M.val b' - b) by ring]
    exact abs_sub _ _
  have hX : |a - b| ≤ s + t := (abs_sub _ _).trans (add_le_add h3 k3)
  have hY := sumR h2 h3 k2 k3
  obtain ⟨r1, r0, r2, r3⟩ := I.M.sub_fin a' b' h1 k1 (leΩ hY hB (by linarith) (by omega))
  refine ⟨r1, ?_, hX, fun e => (r0 e).elim⟩
  by_cases hp : I.M.prod a' ∨ I.M.prod b'
  · refine round e hX hY r2 (I.M.η_le.trans (le_mul_of_one_le_right I.M.u_nonneg ?_))
    rcases hp with hp | hp
    · linarith [h4 hp]
    · linarith [k4 hp]
  · rw [not_or] at hp
    exact round (e := 0) e hX hY (by linarith [r3 hp.1 hp.2]) (mul_nonneg I.M.u_nonneg (by linarith))

theorem mulB (ha : |a| ≤ s) (hb : |b| ≤ t) : |a * b| ≤ s * t := by
  rw [abs_mul]; exact mul_le_mul ha hb (abs_nonneg _) ((abs_nonneg _).trans ha)

theorem mulE {a' a b' b : ℝ} (h : |a' - a| ≤ (I.g ^ p - 1) * s) (ha : |a| ≤ s) (k : |b' - b| ≤ (I.g ^ q - 1) * t) (hb : |b| ≤ t) :
    |a' * b' - a * b| ≤ (I.g ^ (p + q) - 1) * (s * t) := by
  have hs : 0 ≤ s := (abs_nonneg _).trans ha
  have ht : 0 ≤ t := (abs_nonneg _).trans hb
  have p1 := one_le_gp (I := I) p
  have b1 := inRoom k hb
  have e1 := mulB h b1
  have e2 := mulB ha k
  rw [show a' * b' - a * b = (a' - a) * b' + a * (b' - b) by ring]
  refine (abs_add_le _ _).trans ((add_le_add e1 e2).trans (le_of_eq ?_))
  rw [pow_add]; ring

theorem W.mul (h : I.W p a' a s) (k : I.W q b' b t) (h1 : s * t = 0 ∨ 1 ≤ s * t) (hB : s * t ≤ I.S) (hn : p + q + 1 ≤ I.n) :
    I.W (p + q + 1) (a' *ᶠ b') (a *ᶠ b) (s * t) := by
  have hu := I.M.u_nonneg
  have hp := mul_nonneg h.nonneg k.nonneg
  obtain ⟨f1, h2, h3, _⟩ := h
  obtain ⟨k1, k2, k3, _⟩ := k
  have e := mulE h2 h3 k2 k3
  have hX := mulB h3 k3
  obtain ⟨r1, r2, r3⟩ := I.M.mul_fin a' b' f1 k1 (leΩ (inRoom e hX) hB hp (by omega))
  rcases h1 with h1 | h1
  · rw [h1] at e hX ⊢
    have x0 : a * b = 0 := abs_nonpos_iff.mp hX
    have x1 : I.M.val a' * I.M.val b' = 0 := by
      rw [mul_zero, x0, sub_zero] at e
      exact abs_nonpos_iff.mp e
    refine ⟨r1, ?_, hX, fun e => ((r3 x1).2 e).elim⟩
    change |_ - a * b| ≤ _
    rw [(r3 x1).1, x0]; simp
  · refine ⟨r1, round e hX (inRoom e hX) r2 (I.M.η_le.trans ?_), hX, fun _ => h1⟩
    nlinarith

theorem W.fma (h : I.W p a' a s) (k : I.W q b' b t) (l : I.W r c' c w) (h1 : 1 ≤ s * t) (hB : s * t + w ≤ I.S)
    (hn : max (p + q + 1) r + 1 ≤ I.n) : I.W (max (p + q + 1) r + 1) (Arith.fma a' b' c') (Arith.fma a b c) (s * t + w) := by
  have hu := I.M.u_nonneg
  have hw := l.nonneg
  rcases I.M.fma_fin a' b' c' h.1 k.1 l.1 with e | e
  · rw [e]
    exact (W.mul h k (.inr h1) (by linarith) (by omega)).add l hB hn
  · obtain ⟨f1, h2, h3, _⟩ := h
    obtain ⟨k1, k2, k3, _⟩ := k
    obtain ⟨l1, l2, l3, _⟩ := l
    have E := mulE h2 h3 k2 k3
    have hX : |a * b + c| ≤ s * t + w := (abs_add_le _ _).trans (add_le_add (mulB h3 k3) l3)
    have E2 : |(I.M.val a' * I.M.val b' + I.M.val c') - (a * b + c)| ≤ (I.g ^ max (p + q) r - 1) * (s * t + w) := by
      refine le_trans ?_ (sumE E l2 (by linarith) hw)
      rw [show (I.M.val a' * I.M.val b' + I.M.val c') - (a * b + c) = (I.M.val a' * I.M.val b' - a * b) + (I.M.val c' - c) by ring]
      exact abs_add_le _ _
    have hY := sumR E (mulB h3 k3) l2 l3
    obtain ⟨r1, r0, r2, _⟩ := e (leΩ hY hB (by linarith) (by omega))
    have := round E2 hX hY r2 (I.M.η_le.trans (by nlinarith))
    exact W.mono ⟨r1, this, hX, fun e => (r0 e).elim⟩ (by omega) le_rfl

theorem W.fms (h : I.W p a' a s) (k : I.W q b' b t) (l : I.W r c' c w) (h1 : 1 ≤ s * t) (hB : s * t + w ≤ I.S)
    (hn : max (p + q + 1) r + 1 ≤ I.n) : I.W (max (p + q + 1) r + 1) (Arith.fms a' b' c') (Arith.fms a b c) (s * t + w) := by
  have hu := I.M.u_nonneg
  have hw := l.nonneg
  rcases I.M.fms_fin a' b' c' h.1 k.1 l.1 with e | e
  · rw [e]
    exact (W.mul h k (.inr h1) (by linarith) (by omega)).sub l hB hn
  · obtain ⟨f1, h2, h3, _⟩ := h
    obtain ⟨k1, k2, k3, _⟩ := k
    obtain ⟨l1, l2, l3, _⟩ := l
    have E := mulE h2 h3 k2 k3
    have hX : |a * b - c| ≤ s * t + w := (abs_sub _ _).trans (add_le_add (mulB h3 k3) l3)
    have E2 : |(I.M.val a' * I.M.val b' - I.M.val c') - (a * b - c)| ≤ (I.g ^ max (p + q) r - 1) * (s * t + w) := by
      refine le_trans ?_ (sumE E l2 (by linarith) hw)
      rw [show (I.M.val a' * I.M.val b' - I.M.val c') - (a * b - c) = (I.M.val a' * I.M.val b' - a * b) - (I.M.val c' - c) by ring]
      exact abs_sub _ _
    have hY := sumR E (mulB h3 k3) l2 l3
    obtain ⟨r1, r0, r2, _⟩ := e (leΩ hY hB (by linarith) (by omega))
    have := round E2 hX hY r2 (I.M.η_le.trans (by nlinarith))
    exact W.mono ⟨r1, this, hX, fun e => (r0 e).elim⟩ (by omega) le_rfl

theorem W.fnma (h : I.W p a' a s) (k : I.W q b' b t) (l : I.W r c' c w) (h1 : 1 ≤ s * t) (hB : s * t + w ≤ I.S)
    (hn : max (p + q + 1) r + 1 ≤ I.n) : I.W (max (p + q + 1) r + 1) (Arith.fnma a' b' c') (Arith.fnma a b c) (s * t + w) := by
  have hu := I.M.u_nonneg
  have hw := l.nonneg
  rcases I.M.fnma_fin a' b' c' h.1 k.1 l.1 with e | e
  · rw [e]
    exact (W.sub l (W.mul h k (.inr h1) (by linarith) (by omega)) (by linarith) (by omega)).mono (by omega) (by linarith)
  · obtain ⟨f1, h2, h3, _⟩ := h
    obtain ⟨k1, k2, k3, _⟩ := k
    obtain ⟨l1, l2, l3, _⟩ := l
    have E := mulE h2 h3 k2 k3
    have hX : |c - a * b| ≤ s * t + w := (abs_sub _ _).trans (by linarith [mulB h3 k3])
    have E2 : |(I.M.val c' - I.M.val a' * I.M.val b') - (c - a * b)| ≤ (I.g ^ max (p + q) r - 1) * (s * t + w) := by
      refine le_trans ?_ (sumE E l2 (by linarith) hw)
      rw [show (I.M.val c' - I.M.val a' * I.M.val b') - (c - a * b) = (I.M.val c' - c) - (I.M.val a' * I.M.val b' - a * b) by ring]
      exact (abs_sub _ _).trans (by linarith)
    have hY := sumR E (mulB h3 k3) l2 l3
    obtain ⟨r1, r0, r2, _⟩ := e (leΩ hY hB (by linarith) (by omega))
    have := round E2 hX hY r2 (I.M.η_le.trans (by nlinarith))
    exact W.mono ⟨r1, this, hX, fun e => (r0 e).elim⟩ (by omega) le_rfl

/-- Componentwise. -/
def WQ (I : Room F) (p : ℕ) (x' : Quat F) (x : Quat ℝ) (s : ℝ) : Prop :=
  I.W p x'.re x.re s ∧ I.W p x'.i x.i s ∧ I.W p x'.j x.j s ∧ I.W p x'.k x.k s

/-- The same for a scalar of one of the three types. -/
def WS (I : Room F) (p : ℕ) (s' : Scal F) (s : Scal ℝ) (t : ℝ) : Prop :=
  match s', s with
  | .d a', .d a => I.W p a' a t
  | .z a', .z a => I.W p a'.re a.re t ∧ I.W p a'.im a.im t
  | .h a', .h a => I.WQ p a' a t
  | _, _ => False

variable {x' y' r' : Quat F} {x y z : Quat ℝ} {al' be' : Scal F} {al be : Scal ℝ}

theorem WQ.nonneg (h : I.WQ p x' x s) : 0 ≤ s := h.1.nonneg

theorem WS.nonneg (h : I.WS p al' al s) : 0 ≤ s := by
  cases al' <;> cases al <;> first | exact h.elim | skip
  · exact W.nonneg h
  · exact W.nonneg h.1
  · exact WQ.nonneg h

theorem WQ.mono (h : I.WQ p x' x s) (hp : p ≤ q) (hs : s ≤ t) : I.WQ q x' x t :=
  ⟨h.1.mono hp hs, h.2.1.mono hp hs, h.2.2.1.mono hp hs, h.2.2.2.mono hp hs⟩

theorem WS.conj (h : I.WS p al' al s) : I.WS p al'.smartConj al.smartConj s := by
  cases al' <;> cases al <;> first | exact h.elim | skip
  · exact h
  · exact ⟨h.1, W.neg h.2⟩
  · exact ⟨h.1, h.2.1.neg, h.2.2.1.neg, h.2.2.2.neg⟩

/-- one rule -/
macro "round_rule" : tactic => `(tactic| first
  | assumption | apply W.zero | apply W.neg | apply W.fma | apply W.fms | apply W.fnma | apply W.add | apply W.sub | apply W.mul)

/-- apply the rules to an expression; the bounds are linear in the products of the bounds of the operands -/
macro "round_rules" : tactic => `(tactic| (
  apply W.mono
  on_goal 1 => ((repeat' round_rule) <;> first | omega | linarith | (right; linarith) | (left; ring1) | (rw [mul_comm]; assumption))
  on_goal 2 => linarith
  omega))

theorem WQ.conj (h : I.WQ p x' x s) : I.WQ p (qconj256 x') (qconj256 x) s :=
  ⟨h.1, h.2.1.neg, h.2.2.1.neg, h.2.2.2.neg⟩

theorem WQ.zero : I.WQ 0 (Quat.mkReal Arith.zero) (Quat.mkReal Arith.zero) 0 := ⟨W.zero, W.zero, W.zero, W.zero⟩

theorem WQ.fZero : I.WQ 0 Haxx.fZero Haxx.fZero 0 := ⟨W.zero, W.zero, W.zero, W.zero⟩

theorem WQ.vadd (h : I.WQ p x' x s) (k : I.WQ q y' y t) (hB : s + t ≤ I.S) (hn : max p q + 1 ≤ I.n) :
    I.WQ (max p q + 1) (vadd x' y') (vadd x y) (s + t) :=
  ⟨h.1.add k.1 hB hn, h.2.1.add k.2.1 hB hn, h.2.2.1.add k.2.2.1 hB hn, h.2.2.2.add k.2.2.2 hB hn⟩

theorem WQ.addAssign (h : I.WQ p x' x s) (k : I.WQ q y' y t) (hB : s + t ≤ I.S) (hn : max p q + 1 ≤ I.n) :
    I.WQ (max p q + 1) (Quat.addAssign x' y') (Quat.addAssign x y) (s + t) :=
  ⟨h.1.add k.1 hB hn, h.2.1.add k.2.1 hB hn, h.2.2.1.add k.2.2.1 hB hn, h.2.2.2.add k.2.2.2 hB hn⟩

/-- portable quaternion product -/
theorem WQ.mul (hx : I.WQ p x' x s) (hy : I.WQ q y' y t) (h1 : s * t = 0 ∨ 1 ≤ s * t) (hB : 4 * (s * t) ≤ I.S) (hn : p + q + 4 ≤ I.n) :
    I.WQ (p + q + 4) (Quat.mul x' y') (Quat.mul x y) (4 * (s * t)) := by
  have h0 := mul_nonneg hx.nonneg hy.nonneg
  obtain ⟨x0, x1, x2, x3⟩ := hx
  obtain ⟨y0, y1, y2, y3⟩ := hy
  refine ⟨?_, ?_, ?_, ?_⟩ <;> dsimp only [Quat.mul] <;> round_rules

/-! ### portable operators -/

theorem WQ.mulL (hs : I.WS p al' al s) (hy : I.WQ q y' y t) (h1 : s * t = 0 ∨ 1 ≤ s * t) (hB : 4 * (s * t) ≤ I.S) (hn : p + q + 4 ≤ I.n) :
    I.WQ (p + q + 4) (al'.mulL y') (al.mulL y) (4 * (s * t)) := by
  have h0 := mul_nonneg hs.nonneg hy.nonneg
  cases al' <;> cases al <;> first | exact hs.elim | skip
  · have hs : I.W _ _ _ _ := hs
    obtain ⟨y0, y1, y2, y3⟩ := hy
    refine ⟨?_, ?_, ?_, ?_⟩ <;> dsimp only [Scal.mulL, Quat.realMul, Quat.mulAssignReal] <;> round_rules
  · obtain ⟨x0, x1⟩ := hs
    obtain ⟨y0, y1, y2, y3⟩ := hy
    refine ⟨?_, ?_, ?_, ?_⟩ <;> dsimp only [Scal.mulL, Quat.cplxMul] <;> round_rules
  · exact WQ.mul hs hy h1 hB hn

theorem WQ.mulR (hs : I.WS p al' al s) (hy : I.WQ q y' y t) (h1 : 1 ≤ s * t) (hB : 4 * (s * t) ≤ I.S) (hn : p + q + 4 ≤ I.n) :
    I.WQ (p + q + 4) (Scal.mulR y' al') (Scal.mulR y al) (4 * (s * t)) := by
  cases al' <;> cases al <;> first | exact hs.elim | skip
  · have hs : I.W _ _ _ _ := hs
    obtain ⟨y0, y1, y2, y3⟩ := hy
    refine ⟨?_, ?_, ?_, ?_⟩ <;> dsimp only [Scal.mulR, Quat.mulReal, Quat.mulAssignReal] <;> round_rules
  · obtain ⟨x0, x1⟩ := hs
    obtain ⟨y0, y1, y2, y3⟩ := hy
    refine ⟨?_, ?_, ?_, ?_⟩ <;> dsimp only [Scal.mulR, Quat.mulCplx] <;> round_rules
  · rw [mul_comm s t] at h1 hB ⊢
    rw [add_comm p q] at hn ⊢
    exact WQ.mul hy hs (.inr h1) hB hn

theorem WS.mul (hs : I.WS p al' al s) (ht : I.WS q be' be t) (h1 : 1 ≤ s * t) (hB : 4 * (s * t) ≤ I.S) (hn : p + q + 4 ≤ I.n) :
    I.WS (p + q + 4) (al'.mul be') (al.mul be) (4 * (s * t)) := by
  cases be' <;> cases be <;> first | exact ht.elim | skip
  · have ht : I.W _ _ _ _ := ht
    cases al' <;> cases al <;> first | exact hs.elim | skip
    · have hs : I.W _ _ _ _ := hs
      dsimp only [Scal.mul, WS]
      round_rules
    · obtain ⟨x0, x1⟩ := hs
      refine ⟨?_, ?_⟩ <;> dsimp only [Scal.mul] <;> round_rules
    · obtain ⟨x0, x1, x2, x3⟩ := hs
      refine ⟨?_, ?_, ?_, ?_⟩ <;> dsimp only [Scal.mul, Quat.mulReal, Quat.mulAssignReal] <;> round_rules
  · obtain ⟨y0, y1⟩ := ht
    cases al' <;> cases al <;> first | exact hs.elim | skip
    · have hs : I.W _ _ _ _ := hs
      refine ⟨?_, ?_⟩ <;> dsimp only [Scal.mul] <;> round_rules
    · obtain ⟨x0, x1⟩ := hs
      refine ⟨?_, ?_⟩ <;> dsimp only [Cplx.mul] <;> round_rules
    · obtain ⟨x0, x1, x2, x3⟩ := hs
      refine ⟨?_, ?_, ?_, ?_⟩ <;> dsimp only [Scal.mul, Quat.mulCplx] <;> round_rules
  · cases al' <;> cases al <;> first | exact hs.elim | skip
    · exact WQ.mulL (al' := .d _) (al := .d _) hs ht (.inr h1) hB hn
    · exact WQ.mulL (al' := .z _) (al := .z _) hs ht (.inr h1) hB hn
    · exact WQ.mul hs ht (.inr h1) hB hn

set_option maxHeartbeats 1000000 in
/-- `ALPHA*a - a*ALPHA` -/
theorem WS.comm (hα : I.WS 0 al' al s) (ha : I.WS 0 be' be t) (h1 : 1 ≤ s * t) (hB : 8 * (s * t) ≤ I.S) (hn : 5 ≤ I.n) :
    I.WS 5 ((al'.mul be').sub (be'.mul al')) ((al.mul be).sub (be.mul al)) (8 * (s * t)) := by
  have k1 : I.WS 4 _ _ _ := WS.mul (p := 0) (q := 0) hα ha h1 (by linarith) (by omega)
  have k2 : I.WS 4 _ _ _ := WS.mul (p := 0) (q := 0) ha hα (by linarith) (by linarith) (by omega)
  have e : 8 * (s * t) = 4 * (s * t) + 4 * (t * s) := by ring
  rw [e] at hB ⊢
  have hn : max 4 4 + 1 ≤ I.n := hn
  change I.WS (max 4 4 + 1) _ _ _
  cases al' <;> cases al <;> first | exact hα.elim | skip
  all_goals cases be' <;> cases be <;> first | exact ha.elim | skip
  all_goals first
    | exact W.sub k1 k2 hB hn
    | exact ⟨W.sub k1.1 k2.1 hB hn, W.sub k1.2 k2.2 hB hn⟩
    | exact ⟨W.sub k1.1 k2.1 hB hn, W.sub k1.2.1 k2.2.1 hB hn, W.sub k1.2.2.1 k2.2.2.1 hB hn, W.sub k1.2.2.2 k2.2.2.2 hB hn⟩

/-! ### SIMD operators -/

theorem mulNN_eq {G : Type} [Arith G] (x y : Quat G) : MULDQ_NN x y =
    ⟨Arith.fms x.re y.re (x.k *ᶠ y.k) +ᶠ ~ᶠ (Arith.fma x.j y.j (x.i *ᶠ y.i)),
     Arith.fms x.re y.i (x.k *ᶠ y.j) +ᶠ Arith.fma x.j y.k (x.i *ᶠ y.re),
     Arith.fms x.re y.j (x.i *ᶠ y.k) +ᶠ Arith.fma x.k y.i (x.j *ᶠ y.re),
     Arith.fms x.re y.k (x.j *ᶠ y.i) +ᶠ Arith.fma x.i y.j (x.k *ᶠ y.re)⟩ := rfl

theorem WQ.mulNN (hx : I.WQ p x' x s) (hy : I.WQ q y' y t) (h1 : 1 ≤ s * t) (hB : 4 * (s * t) ≤ I.S) (hn : p + q + 4 ≤ I.n) :
    I.WQ (p + q + 4) (MULDQ_NN x' y') (MULDQ_NN x y) (4 * (s * t)) := by
  obtain ⟨x0, x1, x2, x3⟩ := hx
  obtain ⟨y0, y1, y2, y3⟩ := hy
  rw [mulNN_eq, mulNN_eq]
  refine ⟨?_, ?_, ?_, ?_⟩ <;> dsimp only <;> round_rules

theorem scalOp_z {G : Type} [Arith G] (a : Cplx G) (x : Quat G) :
    scalOp true (.z a) x = ⟨x.re *ᶠ a.re -ᶠ x.i *ᶠ a.im, x.re *ᶠ a.im -ᶠ x.i *ᶠ ~ᶠ a.re,
      x.j *ᶠ a.re -ᶠ x.k *ᶠ a.im, x.j *ᶠ a.im -ᶠ x.k *ᶠ ~ᶠ a.re⟩ ∧
    scalOp false (.z a) x = ⟨x.re *ᶠ a.re -ᶠ x.i *ᶠ a.im, x.re *ᶠ a.im -ᶠ x.i *ᶠ ~ᶠ a.re,
      x.j *ᶠ a.re -ᶠ x.k *ᶠ ~ᶠ a.im, x.j *ᶠ ~ᶠ a.im -ᶠ x.k *ᶠ ~ᶠ a.re⟩ := ⟨rfl, rfl⟩

theorem WQ.scalOp (L : Bool) (hs : I.WS p al' al s) (hx : I.WQ q x' x t) (h1 : 1 ≤ s * t) (hB : 4 * (s * t) ≤ I.S)
    (hn : p + q + 4 ≤ I.n) : I.WQ (p + q + 4) (scalOp L al' x') (scalOp L al x) (4 * (s * t)) := by
  cases al' <;> cases al <;> first | exact hs.elim | skip
  · have hs : I.W _ _ _ _ := hs
    obtain ⟨x0, x1, x2, x3⟩ := hx
    refine ⟨?_, ?_, ?_, ?_⟩ <;> dsimp only [Haxx.scalOp, alphaRegs, broadcast, vmul] <;> round_rules
  · obtain ⟨y0, y1⟩ := hs
    obtain ⟨x0, x1, x2, x3⟩ := hx
    cases L
    · rw [(scalOp_z _ _).2, (scalOp_z _ _).2]
      refine ⟨?_, ?_, ?_, ?_⟩ <;> dsimp only <;> round_rules
    · rw [(scalOp_z _ _).1, (scalOp_z _ _).1]
      refine ⟨?_, ?_, ?_, ?_⟩ <;> dsimp only <;> round_rules
  · cases L
    · rw [mul_comm s t] at h1 hB ⊢
      rw [add_comm p q] at hn ⊢
      exact WQ.mulNN hx hs h1 hB hn
    · exact WQ.mulNN hs hx h1 hB hn

theorem WQ.axpyOp (L : Bool) (hs : I.WS p al' al s) (hx : I.WQ q x' x t) (hy : I.WQ r y' y w) (h1 : 1 ≤ s * t)
    (hB : w + 4 * (s * t) ≤ I.S) (hn : max (p + q + 1) r + 4 ≤ I.n) :
    I.WQ (max (p + q + 1) r + 4) (axpyOp L al' x' y') (axpyOp L al x y) (w + 4 * (s * t)) := by
  have hw := hy.nonneg
  cases al' <;> cases al <;> first | exact hs.elim | skip
  · have hs : I.W _ _ _ _ := hs
    obtain ⟨x0, x1, x2, x3⟩ := hx
    obtain ⟨y0, y1, y2, y3⟩ := hy
    refine ⟨?_, ?_, ?_, ?_⟩ <;> dsimp only [Haxx.axpyOp, alphaRegs, broadcast, vfma] <;> round_rules
  · exact (hy.vadd (WQ.scalOp L (al' := .z _) (al := .z _) hs hx h1 (by linarith) (by omega)) hB (by omega)).mono (by omega) le_rfl
  · cases L
    · exact (hy.vadd (WQ.scalOp false (al' := .h _) (al := .h _) hs hx h1 (by linarith) (by omega)) hB (by omega)).mono (by omega) le_rfl
    · exact (hy.vadd (WQ.scalOp true (al' := .h _) (al := .h _) hs hx h1 (by linarith) (by omega)) hB (by omega)).mono (by omega) le_rfl

theorem WQ.qinc (hx : I.WQ p x' x s) (hy : I.WQ q y' y t) (hr : I.WQ r r' z w) (h1 : 1 ≤ s * t) (hB : w + 4 * (s * t) ≤ I.S)
    (hn : max (p + q + 1) r + 4 ≤ I.n) :
    I.WQ (max (p + q + 1) r + 4) (qinc x' y' r') (qinc x y z) (w + 4 * (s * t)) := by
  have hw := hr.nonneg
  obtain ⟨x0, x1, x2, x3⟩ := hx
  obtain ⟨y0, y1, y2, y3⟩ := hy
  obtain ⟨r0, r1, r2, r3⟩ := hr
  refine ⟨?_, ?_, ?_, ?_⟩ <;> dsimp only [Haxx.qinc] <;> round_rules

theorem WQ.qincC (hx : I.WQ p x' x s) (hy : I.WQ q y' y t) (hr : I.WQ r r' z w) (h1 : 1 ≤ s * t) (hB : w + 4 * (s * t) ≤ I.S)
    (hn : max (p + q + 1) r + 4 ≤ I.n) :
    I.WQ (max (p + q + 1) r + 4) (StdModel.qincC x' y' r') (StdModel.qincC x y z) (w + 4 * (s * t)) := by
  have hw := hr.nonneg
  obtain ⟨x0, x1, x2, x3⟩ := hx
  obtain ⟨y0, y1, y2, y3⟩ := hy
  obtain ⟨r0, r1, r2, r3⟩ := hr
  refine ⟨?_, ?_, ?_, ?_⟩ <;> dsimp only [StdModel.qincC] <;> round_rules

/-! ### loops -/

section loops
variable {xs' ys' : ℕ → Quat F} {xs ys : ℕ → Quat ℝ} {as' : ℕ → Scal F} {as : ℕ → Scal ℝ} {α : ℝ}

theorem stepB {K : ℕ} {w p B : ℝ} (hp : 0 ≤ p) (hB : w + ((K + 1 : ℕ) : ℝ) * p ≤ B) :
    w + (K : ℝ) * p ≤ B ∧ w + (K : ℝ) * p + p = w + ((K + 1 : ℕ) : ℝ) * p := by
  push_cast at hB ⊢
  constructor <;> linarith

theorem oneB {K k : ℕ} (hk : k < K) {p : ℝ} (hp : 0 ≤ p) : p ≤ (K : ℝ) * p := by
  have : (1:ℝ) ≤ K := by exact_mod_cast Nat.one_le_of_lt hk
  nlinarith

theorem WQ.accum (hr : I.WQ r r' z w) (K : ℕ) (hx : ∀ k, k < K → I.WQ p (xs' k) (xs k) s)
    (hy : ∀ k, k < K → I.WQ q (ys' k) (ys k) t) (h0 : 1 ≤ s * t) (hB : w + K * (4 * (s * t)) ≤ I.S)
    (hn : max (p + q + 1) r + 4 * K ≤ I.n) :
    I.WQ (max (p + q + 1) r + 4 * K) (accum xs' ys' K r') (accum xs ys K z) (w + K * (4 * (s * t))) := by
  induction K with
  | zero => exact hr.mono (by omega) (by simp)
  | succ K ih =>
    obtain ⟨h1, h2⟩ := stepB (by linarith) hB
    rw [← h2] at hB ⊢
    exact (WQ.qinc (hx K (by omega)) (hy K (by omega)) (ih (fun k hk => hx k (by omega)) (fun k hk => hy k (by omega)) h1
      (by omega)) h0 hB (by omega)).mono (by omega) le_rfl

theorem WQ.laneAcc (cj : Bool) (l b : ℕ) (hx : ∀ k, k < b → I.WQ p (xs' (4*k+l)) (xs (4*k+l)) s)
    (hy : ∀ k, k < b → I.WQ q (ys' (4*k+l)) (ys (4*k+l)) t) (h0 : 1 ≤ s * t) (hB : 0 + b * (4 * (s * t)) ≤ I.S)
    (hn : p + q + 1 + 4 * b ≤ I.n) :
    I.WQ (p + q + 1 + 4 * b) (StdModel.laneAcc cj xs' ys' l b) (StdModel.laneAcc cj xs ys l b) (0 + b * (4 * (s * t))) := by
  induction b with
  | zero =>
    have h : I.WQ 0 (StdModel.laneAcc cj xs' ys' l 0) (StdModel.laneAcc cj xs ys l 0) 0 := ⟨W.zero, W.zero, W.zero, W.zero⟩
    exact h.mono (by omega) (by simp)
  | succ b ih =>
    obtain ⟨h1, h2⟩ := stepB (by linarith) hB
    rw [← h2] at hB ⊢
    have ih := ih (fun k hk => hx k (by omega)) (fun k hk => hy k (by omega)) h1 (by omega)
    cases cj
    · exact (WQ.qinc (hx b (by omega)) (hy b (by omega)) ih h0 hB (by omega)).mono (by omega) le_rfl
    · exact (WQ.qincC (hx b (by omega)) (hy b (by omega)) ih h0 hB (by omega)).mono (by omega) le_rfl

theorem WQ.dotRest (cj : Bool) (o n : ℕ) (hr : I.WQ r r' z w) (hx : ∀ k, k < n → I.WQ p (xs' (o+k)) (xs (o+k)) s)
    (hy : ∀ k, k < n → I.WQ q (ys' (o+k)) (ys (o+k)) t) (h0 : 1 ≤ s * t) (hw : 0 ≤ w) (hB : w + n * (4 * (s * t)) ≤ I.S)
    (hn : max (p + q + 1) r + 4 * n ≤ I.n) :
    I.WQ (max (p + q + 1) r + 4 * n) (dotRest cj xs' ys' o r' n) (dotRest cj xs ys o z n) (w + n * (4 * (s * t))) := by
  induction n with
  | zero => exact hr.mono (by omega) (by simp)
  | succ n ih =>
    obtain ⟨h1, h2⟩ := stepB (by linarith) hB
    rw [← h2] at hB ⊢
    have ih := ih (fun k hk => hx k (by omega)) (fun k hk => hy k (by omega)) h1 (by omega)
    have hp : (0:ℝ) ≤ n * (4 * (s * t)) := by positivity
    refine (WQ.vadd (q := p + q + 4) ih ?_ hB (by omega)).mono (by omega) le_rfl
    cases cj
    · exact WQ.mulNN (hx n (by omega)) (hy n (by omega)) h0 (by linarith) (by omega)
    · exact WQ.mulNN (hx n (by omega)).conj (hy n (by omega)) h0 (by linarith) (by omega)

set_option maxHeartbeats 1000000 in
/-- SIMD DOT -/
theorem WQ.dotVal (cj : Bool) (n : ℕ) (hx : ∀ k, k < n → I.WQ p (xs' k) (xs k) s)
    (hy : ∀ k, k < n → I.WQ q (ys' k) (ys k) t) (h0 : 1 ≤ s * t) (hB : n * (4 * (s * t)) ≤ I.S) (hn : p + q + 4 + 4 * n ≤ I.n) :
    I.WQ (p + q + 4 + 4 * n) (dotVal cj n xs' ys') (dotVal cj n xs ys) (n * (4 * (s * t))) := by
  unfold Haxx.dotVal
  rw [StdModel.dotBatches_lane, StdModel.dotBatches_lane]
  have e : (n : ℝ) = 4 * (n / 4 : ℕ) + (n % 4 : ℕ) := by
    exact_mod_cast (Nat.div_add_mod n 4).symm
  have p1 : (0:ℝ) ≤ (n / 4 : ℕ) * (4 * (s * t)) := by positivity
  have p2 : (0:ℝ) ≤ (n % 4 : ℕ) * (4 * (s * t)) := by positivity
  have e2 : (n : ℝ) * (4 * (s * t)) = (0 + (n / 4 : ℕ) * (4 * (s * t)) + (0 + (n / 4 : ℕ) * (4 * (s * t))) +
      (0 + (n / 4 : ℕ) * (4 * (s * t))) + (0 + (n / 4 : ℕ) * (4 * (s * t)))) + (n % 4 : ℕ) * (4 * (s * t)) := by
    rw [e]; ring
  rw [e2] at hB ⊢
  have L : ∀ l, l < 4 → _ := fun l hl => WQ.laneAcc (I := I) (xs' := xs') (xs := xs) (ys' := ys') (ys := ys) (p := p) (q := q) cj l (n/4)
    (fun k hk => hx _ (by omega)) (fun k hk => hy _ (by omega)) h0 (by linarith) (by omega)
  have T := (((L 0 (by omega)).vadd (L 1 (by omega)) (by linarith) (by omega)).vadd (L 2 (by omega))
    (by linarith) (by omega)).vadd (L 3 (by omega)) (by linarith) (by omega)
  exact (WQ.dotRest (p := p) (q := q) cj (4*(n/4)) (n % 4) T (fun k hk => hx _ (by omega)) (fun k hk => hy _ (by omega)) h0
    (by linarith) hB (by omega)).mono (by omega) le_rfl

/-- one entry of the SIMD GEMM -/
theorem WQ.gemmElt (tA tB : Char) {β c : ℝ} (K : ℕ) (hα : I.WS 0 al' al α) (hβ : I.WS 0 be' be β) (hr : I.WQ 0 r' z c)
    (hx : ∀ k, k < K → I.WQ 0 (xs' k) (xs k) s) (hy : ∀ k, k < K → I.WQ 0 (ys' k) (ys k) t) (hα1 : 1 ≤ α) (hβ1 : 1 ≤ β) (hc : 1 ≤ c)
    (hs : 1 ≤ s) (ht : 1 ≤ t)
    (hB : 4 * (β * c) + K * (16 * (α * s * t)) ≤ I.S) (hn : 4 * K + 5 ≤ I.n) :
    I.WQ (4 * K + 5) (gemmElt tA tB al' be' K xs' ys' r') (gemmElt tA tB al be K xs ys z) (4 * (β * c) + K * (16 * (α * s * t))) := by
  have q1 : 1 ≤ α * s := by nlinarith
  have q2 : 1 ≤ β * c := by nlinarith
  have q3 : α * s ≤ α * s * t := by nlinarith
  have q4 : (0:ℝ) ≤ K * (16 * (α * s * t)) := mul_nonneg (by positivity) (by linarith)
  unfold Haxx.gemmElt
  have e : 4 * (β * c) + K * (16 * (α * s * t)) = 4 * (β * c) + K * (4 * (4 * (α * s) * t)) := by ring
  rw [e] at hB ⊢
  refine (WQ.accum (r := 4) (p := 4) (q := 0) (s := 4 * (α * s)) (t := t) ?_ K (fun k hk => ?_) (fun k hk => ?_) (by nlinarith) hB
    (by omega)).mono (by omega) le_rfl
  · exact WQ.scalOp (p := 0) (q := 0) true hβ hr q2 (by linarith) (by omega)
  · have q5 := oneB hk (show 0 ≤ 16 * (α * s * t) by linarith)
    cases isCj tA
    · simp only [preOP, StdModel.regMulL_eq, Bool.false_eq_true, if_false]
      exact WQ.scalOp (p := 0) (q := 0) true hα (hx k hk) q1 (by linarith) (by omega)
    · simp only [preOP, StdModel.regMulL_eq, if_true]
      exact WQ.scalOp (p := 0) (q := 0) true hα (hx k hk).conj q1 (by linarith) (by omega)
  · cases isCj tB
    · exact hy k hk
    · exact (hy k hk).conj

/-- portable DOT -/
theorem WQ.pDotQ (cj : Bool) (n : ℕ) (hx : ∀ k, k < n → I.WQ p (xs' k) (xs k) s)
    (hy : ∀ k, k < n → I.WQ q (ys' k) (ys k) t) (h0 : 1 ≤ s * t) (hB : 0 + n * (4 * (s * t)) ≤ I.S) (hn : p + q + 1 + 4 * n ≤ I.n) :
    I.WQ (p + q + 1 + 4 * n) (pDotQ cj xs' ys' n) (pDotQ cj xs ys n) (0 + n * (4 * (s * t))) := by
  induction n with
  | zero =>
    have h : I.WQ 0 (Haxx.pDotQ cj xs' ys' 0) (Haxx.pDotQ cj xs ys 0) 0 := WQ.zero
    exact h.mono (by omega) (by simp)
  | succ n ih =>
    obtain ⟨h1, h2⟩ := stepB (by linarith) hB
    rw [← h2] at hB ⊢
    have ih := ih (fun k hk => hx k (by omega)) (fun k hk => hy k (by omega)) h1 (by omega)
    have hp : (0:ℝ) ≤ n * (4 * (s * t)) := by positivity
    refine (WQ.addAssign (q := p + q + 4) ih ?_ hB (by omega)).mono (by omega) le_rfl
    cases cj
    · exact WQ.mul (hx n (by omega)) (hy n (by omega)) (.inr h0) (by linarith) (by omega)
    · exact WQ.mul (WQ.conj (hx n (by omega))) (hy n (by omega)) (.inr h0) (by linarith) (by omega)

theorem WQ.pDot (n : ℕ) (hx : ∀ k, k < n → I.WS p (as' k) (as k) s)
    (hy : ∀ k, k < n → I.WQ q (ys' k) (ys k) t) (h0 : 1 ≤ s * t) (hB : 0 + n * (4 * (s * t)) ≤ I.S) (hn : p + q + 1 + 4 * n ≤ I.n) :
    I.WQ (p + q + 1 + 4 * n) (pDot as' ys' n) (pDot as ys n) (0 + n * (4 * (s * t))) := by
  induction n with
  | zero =>
    have h : I.WQ 0 (Haxx.pDot as' ys' 0) (Haxx.pDot as ys 0) 0 := WQ.zero
    exact h.mono (by omega) (by simp)
  | succ n ih =>
    obtain ⟨h1, h2⟩ := stepB (by linarith) hB
    rw [← h2] at hB ⊢
    have ih := ih (fun k hk => hx k (by omega)) (fun k hk => hy k (by omega)) h1 (by omega)
    have hp : (0:ℝ) ≤ n * (4 * (s * t)) := by positivity
    exact (WQ.addAssign ih (WQ.mulL (hx n (by omega)) (hy n (by omega)) (.inr h0) (by linarith) (by omega)) hB (by omega)).mono (by omega) le_rfl

theorem WQ.pAcc (n : ℕ) (hα : I.WS 0 al' al α) (hr : I.WQ r r' z w) (hx : ∀ k, k < n → I.WS 0 (as' k) (as k) s)
    (hy : ∀ k, k < n → I.WQ 0 (ys' k) (ys k) t) (hα1 : 1 ≤ α) (hs : 1 ≤ s) (ht : 1 ≤ t) (hB : w + n * (16 * (α * s * t)) ≤ I.S)
    (hn : max 8 r + n ≤ I.n) :
    I.WQ (max 8 r + n) (pAcc al' as' ys' r' n) (pAcc al as ys z n) (w + n * (16 * (α * s * t))) := by
  have q1 : 1 ≤ α * s := by nlinarith
  have q3 : α * s ≤ α * s * t := by nlinarith
  have hw := hr.nonneg
  induction n with
  | zero => exact hr.mono (by omega) (by simp)
  | succ n ih =>
    obtain ⟨h1, h2⟩ := stepB (by linarith) hB
    rw [← h2] at hB ⊢
    have ih := ih (fun k hk => hx k (by omega)) (fun k hk => hy k (by omega)) h1 (by omega)
    have hp : (0:ℝ) ≤ n * (16 * (α * s * t)) := mul_nonneg (by positivity) (by linarith)
    exact (WQ.addAssign ih ((WQ.mulL (WS.mul hα (hx n (by omega)) q1 (by linarith) (by omega)) (hy n (by omega)) (.inr (by linarith))
      (by linarith) (by omega)).mono (q := 8) (t := 16 * (α * s * t)) (by omega) (by linarith)) hB (by omega)).mono (by omega) le_rfl

theorem WQ.pAxpys (n : ℕ) (hα : I.WS 0 al' al α) (hr : I.WQ r r' z w) (hx : ∀ k, k < n → I.WS 0 (as' k) (as k) s)
    (hy : ∀ k, k < n → I.WQ 0 (ys' k) (ys k) t) (hα1 : 1 ≤ α) (hs : 1 ≤ s) (ht : 1 ≤ t) (hB : w + n * (48 * (α * s * t)) ≤ I.S)
    (hn : max 9 r + 2 * n ≤ I.n) :
    I.WQ (max 9 r + 2 * n) (pAxpys al' as' ys' r' n) (pAxpys al as ys z n) (w + n * (48 * (α * s * t))) := by
  have q1 : 1 ≤ α * s := by nlinarith
  have q2 : 1 ≤ α * t := by nlinarith
  have q3 : α * s ≤ α * s * t := by nlinarith
  have q4 : α * t ≤ α * s * t := by nlinarith
  have hw := hr.nonneg
  induction n with
  | zero => exact hr.mono (by omega) (by simp)
  | succ n ih =>
    obtain ⟨h1, h2⟩ := stepB (by linarith) hB
    rw [← h2] at hB ⊢
    have ih := ih (fun k hk => hx k (by omega)) (fun k hk => hy k (by omega)) h1 (by omega)
    have hp : (0:ℝ) ≤ n * (48 * (α * s * t)) := mul_nonneg (by positivity) (by linarith)
    have A := WQ.mulL (hx n (by omega)) (WQ.mulL hα (hy n (by omega)) (.inr q2) (by linarith) (by omega)) (.inr (by linarith)) (by linarith) (by omega)
    have C := WQ.mulL (WS.comm hα (hx n (by omega)) q1 (by linarith) (by omega)) (hy n (by omega)) (.inr (by linarith)) (by linarith) (by omega)
    exact ((ih.addAssign A (by linarith) (by omega)).addAssign C (by linarith) (by omega)).mono (by omega) (by linarith)

end loops

/-! ### Fortran operators -/

section fortran
variable {xs' ys' : ℕ → Quat F} {xs ys : ℕ → Quat ℝ} {α : ℝ}

theorem WQ.fScal (hs : I.WS p al' al s) (hy : I.WQ q y' y t) (h1 : s * t = 0 ∨ 1 ≤ s * t) (hB : 4 * (s * t) ≤ I.S) (hn : p + q + 4 ≤ I.n) :
    I.WQ (p + q + 4) (fScal al' y') (fScal al y) (4 * (s * t)) := by
  have h0 := mul_nonneg hs.nonneg hy.nonneg
  obtain ⟨y0, y1, y2, y3⟩ := hy
  cases al' <;> cases al <;> first | exact hs.elim | skip
  · have hs : I.W _ _ _ _ := hs
    refine ⟨?_, ?_, ?_, ?_⟩ <;> dsimp only [Haxx.fScal, Quat.ofC, Cplx.mul, Cplx.ofReal, Quat.lo, Quat.hi] <;> round_rules
  · obtain ⟨x0, x1⟩ := hs
    refine ⟨?_, ?_, ?_, ?_⟩ <;> dsimp only [Haxx.fScal, Quat.ofC, Cplx.mul, Cplx.ofReal, Quat.lo, Quat.hi] <;> round_rules
  · obtain ⟨x0, x1, x2, x3⟩ := hs
    refine ⟨?_, ?_, ?_, ?_⟩ <;> dsimp only [Haxx.fScal, Quat.ofC, Cplx.mul, Cplx.add, Cplx.sub, Cplx.conj, Quat.lo, Quat.hi] <;>
      round_rules

theorem WQ.fAlpha (hs : I.WS p al' al s) (hy : I.WQ q y' y t) (h1 : s * t = 0 ∨ 1 ≤ s * t) (hB : 4 * (s * t) ≤ I.S) (hn : p + q + 4 ≤ I.n) :
    I.WQ (p + q + 4) (fAlpha al' y') (fAlpha al y) (4 * (s * t)) := by
  have := WQ.fScal hs hy h1 hB hn
  cases al' <;> cases al <;> first | exact hs.elim | exact this

theorem WQ.fAddBeta (hs : I.WS p al' al s) (hr : I.WQ r r' z w) (hy : I.WQ q y' y t) (h1 : s * t = 0 ∨ 1 ≤ s * t) (hB : w + 4 * (s * t) ≤ I.S)
    (hn : max (p + q + 1) r + 4 ≤ I.n) :
    I.WQ (max (p + q + 1) r + 4) (fAddBeta al' r' y') (fAddBeta al z y) (w + 4 * (s * t)) := by
  have h0 := mul_nonneg hs.nonneg hy.nonneg
  have hw := hr.nonneg
  obtain ⟨y0, y1, y2, y3⟩ := hy
  obtain ⟨r0, r1, r2, r3⟩ := hr
  cases al' <;> cases al <;> first | exact hs.elim | skip
  · have hs : I.W _ _ _ _ := hs
    refine ⟨?_, ?_, ?_, ?_⟩ <;> dsimp only [Haxx.fAddBeta, Quat.ofC, Cplx.mul, Cplx.add, Cplx.ofReal, Quat.lo, Quat.hi] <;> round_rules
  · obtain ⟨x0, x1⟩ := hs
    refine ⟨?_, ?_, ?_, ?_⟩ <;> dsimp only [Haxx.fAddBeta, Quat.ofC, Cplx.mul, Cplx.add, Cplx.ofReal, Quat.lo, Quat.hi] <;> round_rules
  · obtain ⟨x0, x1, x2, x3⟩ := hs
    refine ⟨?_, ?_, ?_, ?_⟩ <;> dsimp only [Haxx.fAddBeta, Quat.ofC, Cplx.mul, Cplx.add, Cplx.sub, Cplx.conj, Quat.lo, Quat.hi] <;>
      round_rules

set_option maxHeartbeats 4000000 in
theorem WQ.fAcc (ta tb : FTrans) (hx : I.WQ p x' x s) (hy : I.WQ q y' y t) (hr : I.WQ r r' z w) (h1 : 1 ≤ s * t)
    (hB : w + 4 * (s * t) ≤ I.S) (hn : max (p + q + 1) r + 4 ≤ I.n) :
    I.WQ (max (p + q + 1) r + 4) (fAcc ta tb x' y' r') (fAcc ta tb x y z) (w + 4 * (s * t)) := by
  have hw := hr.nonneg
  obtain ⟨y0, y1, y2, y3⟩ := hy
  obtain ⟨x0, x1, x2, x3⟩ := hx
  obtain ⟨r0, r1, r2, r3⟩ := hr
  cases ta <;> cases tb <;> refine ⟨?_, ?_, ?_, ?_⟩ <;>
    dsimp only [Haxx.fAcc, Quat.ofC, Cplx.mul, Cplx.add, Cplx.sub, Cplx.conj, Quat.lo, Quat.hi] <;> round_rules

set_option maxHeartbeats 4000000 in
theorem WQ.fStep (tb : FTrans) (hs : I.WS 0 al' al α) (hx : I.WQ 0 x' x s) (hy : I.WQ 0 y' y t) (hr : I.WQ r r' z w) (hα1 : 1 ≤ α)
    (hs1 : 1 ≤ s) (ht1 : 1 ≤ t) (hB : w + 16 * (α * s * t) ≤ I.S) (hn : max 8 r + 4 ≤ I.n) :
    I.WQ (max 8 r + 4) (fStep al' tb x' y' r') (fStep al tb x y z) (w + 16 * (α * s * t)) := by
  have h1 : 1 ≤ α * t := by nlinarith
  have h2 : α * t ≤ α * s * t := by nlinarith
  have hw := hr.nonneg
  obtain ⟨y0, y1, y2, y3⟩ := hy
  obtain ⟨x0, x1, x2, x3⟩ := hx
  obtain ⟨r0, r1, r2, r3⟩ := hr
  cases al' <;> cases al <;> first | exact hs.elim | skip
  · have hs : I.W _ _ _ _ := hs
    cases tb <;> refine ⟨?_, ?_, ?_, ?_⟩ <;>
      dsimp only [Haxx.fStep, Quat.ofC, Cplx.mul, Cplx.add, Cplx.sub, Cplx.conj, Cplx.neg, Cplx.ofReal, Quat.lo, Quat.hi] <;> round_rules
  · obtain ⟨a0, a1⟩ := hs
    cases tb <;> refine ⟨?_, ?_, ?_, ?_⟩ <;>
      dsimp only [Haxx.fStep, Quat.ofC, Cplx.mul, Cplx.add, Cplx.sub, Cplx.conj, Cplx.neg, Cplx.ofReal, Quat.lo, Quat.hi] <;> round_rules
  · obtain ⟨a0, a1, a2, a3⟩ := hs
    cases tb <;> refine ⟨?_, ?_, ?_, ?_⟩ <;>
      dsimp only [Haxx.fStep, Quat.ofC, Cplx.mul, Cplx.add, Cplx.sub, Cplx.conj, Cplx.neg, Cplx.ofReal, Quat.lo, Quat.hi] <;> round_rules

theorem WQ.fSteps (tb : FTrans) (K : ℕ) (hs : I.WS 0 al' al α) (hx : ∀ k, k < K → I.WQ 0 (xs' k) (xs k) s)
    (hy : ∀ k, k < K → I.WQ 0 (ys' k) (ys k) t) (hr : I.WQ r r' z w) (hα1 : 1 ≤ α) (hs1 : 1 ≤ s) (ht : 1 ≤ t)
    (hB : w + K * (16 * (α * s * t)) ≤ I.S) (hn : max 8 r + 4 * K ≤ I.n) :
    I.WQ (max 8 r + 4 * K) (fSteps al' tb xs' ys' r' K) (fSteps al tb xs ys z K) (w + K * (16 * (α * s * t))) := by
  have h0 : 0 ≤ α * s * t := by positivity
  induction K with
  | zero => exact hr.mono (by omega) (by simp)
  | succ K ih =>
    obtain ⟨h2, h3⟩ := stepB (by linarith) hB
    rw [← h3] at hB ⊢
    exact (WQ.fStep tb hs (hx K (by omega)) (hy K (by omega))
      (ih (fun k hk => hx k (by omega)) (fun k hk => hy k (by omega)) h2 (by omega)) hα1 hs1 ht hB (by omega)).mono (by omega) le_rfl

theorem WQ.fAccs (ta tb : FTrans) (K : ℕ) (hx : ∀ k, k < K → I.WQ p (xs' k) (xs k) s)
    (hy : ∀ k, k < K → I.WQ q (ys' k) (ys k) t) (h0 : 1 ≤ s * t) (hB : 0 + K * (4 * (s * t)) ≤ I.S) (hn : p + q + 1 + 4 * K ≤ I.n) :
    I.WQ (p + q + 1 + 4 * K) (fAccs ta tb xs' ys' K) (fAccs ta tb xs ys K) (0 + K * (4 * (s * t))) := by
  induction K with
  | zero =>
    have h : I.WQ 0 (Haxx.fAccs ta tb xs' ys' 0) (Haxx.fAccs ta tb xs ys 0) 0 := WQ.fZero
    exact h.mono (by omega) (by simp)
  | succ K ih =>
    obtain ⟨h2, h3⟩ := stepB (by linarith) hB
    rw [← h3] at hB ⊢
    exact (WQ.fAcc ta tb (hx K (by omega)) (hy K (by omega))
      (ih (fun k hk => hx k (by omega)) (fun k hk => hy k (by omega)) h2 (by omega)) h0 hB (by omega)).mono (by omega) le_rfl

theorem WQ.fScalV (R : Bool) (hs : I.WS p al' al s) (hy : I.WQ q y' y t) (h1 : 1 ≤ s * t) (hB : 4 * (s * t) ≤ I.S)
    (hn : p + q + 4 ≤ I.n) : I.WQ (p + q + 4) (fScalV R al' y') (fScalV R al y) (4 * (s * t)) := by
  obtain ⟨y0, y1, y2, y3⟩ := hy
  cases al' <;> cases al <;> first | exact hs.elim | skip
  · have hs : I.W _ _ _ _ := hs
    cases R <;> refine ⟨?_, ?_, ?_, ?_⟩ <;> dsimp only [Haxx.fScalV] <;> round_rules
  · obtain ⟨x0, x1⟩ := hs
    cases R <;> refine ⟨?_, ?_, ?_, ?_⟩ <;> dsimp only [Haxx.fScalV, Quat.ofC, Cplx.mul, Cplx.conj, Quat.lo, Quat.hi] <;> round_rules
  · obtain ⟨x0, x1, x2, x3⟩ := hs
    cases R <;> refine ⟨?_, ?_, ?_, ?_⟩ <;> dsimp only [Haxx.fScalV] <;> round_rules

theorem WQ.fAxpyV (R : Bool) (hs : I.WS p al' al s) (hy : I.WQ q y' y t) (hr : I.WQ r r' z w) (h1 : 1 ≤ s * t)
    (hB : w + 4 * (s * t) ≤ I.S) (hn : max (p + q + 1) r + 4 ≤ I.n) :
    I.WQ (max (p + q + 1) r + 4) (fAxpyV R al' y' r') (fAxpyV R al y z) (w + 4 * (s * t)) := by
  have hw := hr.nonneg
  obtain ⟨y0, y1, y2, y3⟩ := hy
  obtain ⟨r0, r1, r2, r3⟩ := hr
  cases al' <;> cases al <;> first | exact hs.elim | skip
  · have hs : I.W _ _ _ _ := hs
    cases R <;> refine ⟨?_, ?_, ?_, ?_⟩ <;> dsimp only [Haxx.fAxpyV] <;> round_rules
  · obtain ⟨x0, x1⟩ := hs
    cases R <;> refine ⟨?_, ?_, ?_, ?_⟩ <;> dsimp only [Haxx.fAxpyV] <;> round_rules
  · obtain ⟨x0, x1, x2, x3⟩ := hs
    cases R <;> refine ⟨?_, ?_, ?_, ?_⟩ <;> dsimp only [Haxx.fAxpyV] <;> round_rules

theorem WQ.fDot (cj : Bool) (K : ℕ) (hx : ∀ k, k < K → I.WQ p (xs' k) (xs k) s)
    (hy : ∀ k, k < K → I.WQ q (ys' k) (ys k) t) (h0 : 1 ≤ s * t) (hB : 0 + K * (4 * (s * t)) ≤ I.S) (hn : p + q + 1 + 4 * K ≤ I.n) :
    I.WQ (p + q + 1 + 4 * K) (fDot cj xs' ys' K) (fDot cj xs ys K) (0 + K * (4 * (s * t))) := by
  induction K with
  | zero =>
    have h : I.WQ 0 (Haxx.fDot cj xs' ys' 0) (Haxx.fDot cj xs ys 0) 0 := ⟨W.zero, W.zero, W.zero, W.zero⟩
    exact h.mono (by omega) (by simp)
  | succ K ih =>
    obtain ⟨h2, h3⟩ := stepB (by linarith) hB
    rw [← h3] at hB ⊢
    have ih := ih (fun k hk => hx k (by omega)) (fun k hk => hy k (by omega)) h2 (by omega)
    have hw := ih.nonneg
    obtain ⟨x0, x1, x2, x3⟩ := hx K (by omega)
    obtain ⟨y0, y1, y2, y3⟩ := hy K (by omega)
    obtain ⟨r0, r1, r2, r3⟩ := ih
    cases cj <;> refine ⟨?_, ?_, ?_, ?_⟩ <;> dsimp only [Haxx.fDot, Haxx.fDotStep] <;> round_rules

end fortran

end Room
end Haxx
