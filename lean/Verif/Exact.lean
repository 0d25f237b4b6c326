import Verif.RoundF
import Verif.PropsRound2
import Verif.FHblas1Bits

/-!
# Exact calculus: operations on machine numbers that are integers

`IntModel F u B` is the standard model (`StdModel`) in which the machine arithmetic is moreover exact on integers of
magnitude at most `B` (`B = 2^53` for IEEE doubles): if the operands are integers and the exact result is at most `B`
in magnitude, the computed result is a number and equals it.
-/

set_option linter.unusedSectionVars false

namespace Haxx
open Arith Quaternion Finset

/-- Rounded arithmetic that computes with integers of magnitude at most `B` exactly. -/
structure IntModel (F : Type) [Arith F] (u B : ℝ) extends StdModel F u where
  neg_num : ∀ a, ok a → ok (~ᶠ a)
  add_int : ∀ a b (m n : ℤ), ok a → ok b → val a = m → val b = n → |val a + val b| ≤ B →
    ok (a +ᶠ b) ∧ val (a +ᶠ b) = val a + val b
  sub_int : ∀ a b (m n : ℤ), ok a → ok b → val a = m → val b = n → |val a - val b| ≤ B →
    ok (a -ᶠ b) ∧ val (a -ᶠ b) = val a - val b
  mul_int : ∀ a b (m n : ℤ), ok a → ok b → val a = m → val b = n → |val a * val b| ≤ B →
    ok (a *ᶠ b) ∧ val (a *ᶠ b) = val a * val b
  fma_int : ∀ a b c (m n p : ℤ), ok a → ok b → ok c → val a = m → val b = n → val c = p →
    |val a * val b| ≤ B → |val a * val b + val c| ≤ B →
    ok (Arith.fma a b c) ∧ val (Arith.fma a b c) = val a * val b + val c
  fms_int : ∀ a b c (m n p : ℤ), ok a → ok b → ok c → val a = m → val b = n → val c = p →
    |val a * val b| ≤ B → |val a * val b - val c| ≤ B →
    ok (Arith.fms a b c) ∧ val (Arith.fms a b c) = val a * val b - val c
  fnma_int : ∀ a b c (m n p : ℤ), ok a → ok b → ok c → val a = m → val b = n → val c = p →
    |val a * val b| ≤ B → |val c - val a * val b| ≤ B →
    ok (Arith.fnma a b c) ∧ val (Arith.fnma a b c) = val c - val a * val b

variable {F : Type} [Arith F] {u B : ℝ}

namespace IntModel

/-- The machine number `x'` is exactly the integer `x`, of magnitude at most `s`. -/
def E (I : IntModel F u B) (x' : F) (x s : ℝ) : Prop :=
  I.ok x' ∧ I.val x' = x ∧ (∃ n : ℤ, x = n) ∧ |x| ≤ s

variable {I : IntModel F u B} {a' b' c' : F} {a b c s t w : ℝ}

theorem E.nonneg (h : I.E a' a s) : 0 ≤ s := (abs_nonneg _).trans h.2.2.2

theorem E.mono (h : I.E a' a s) (hs : s ≤ t) : I.E a' a t := ⟨h.1, h.2.1, h.2.2.1, h.2.2.2.trans hs⟩

theorem E.zero : I.E Arith.zero (Arith.zero : ℝ) 0 :=
  ⟨I.zero_ok, I.zero_val, ⟨0, by rw [Int.cast_zero]; rfl⟩, by change |(0:ℝ)| ≤ 0; simp⟩

theorem E.neg (h : I.E a' a s) : I.E (~ᶠ a') (~ᶠ a) s := by
  obtain ⟨h1, rfl, ⟨n, hn⟩, h4⟩ := h
  refine ⟨I.neg_num _ h1, I.neg_val _, ⟨-n, ?_⟩, ?_⟩
  · change - I.val a' = _; rw [hn]; push_cast; rfl
  · change |- I.val a'| ≤ _; rwa [abs_neg]

theorem E.add (h : I.E a' a s) (g : I.E b' b t) (hB : s + t ≤ B) : I.E (a' +ᶠ b') (a +ᶠ b) (s + t) := by
  obtain ⟨h1, rfl, ⟨m, hm⟩, h4⟩ := h
  obtain ⟨g1, rfl, ⟨n, hn⟩, g4⟩ := g
  have hb : |I.val a' + I.val b'| ≤ s + t := (abs_add_le _ _).trans (add_le_add h4 g4)
  obtain ⟨r1, r2⟩ := I.add_int a' b' m n h1 g1 hm hn (hb.trans hB)
  refine ⟨r1, r2, ⟨m + n, ?_⟩, hb⟩
  change I.val a' + I.val b' = _; rw [hm, hn]; push_cast; rfl

theorem E.sub (h : I.E a' a s) (g : I.E b' b t) (hB : s + t ≤ B) : I.E (a' -ᶠ b') (a -ᶠ b) (s + t) := by
  obtain ⟨h1, rfl, ⟨m, hm⟩, h4⟩ := h
  obtain ⟨g1, rfl, ⟨n, hn⟩, g4⟩ := g
  have hb : |I.val a' - I.val b'| ≤ s + t := (abs_sub _ _).trans (add_le_add h4 g4)
  obtain ⟨r1, r2⟩ := I.sub_int a' b' m n h1 g1 hm hn (hb.trans hB)
  refine ⟨r1, r2, ⟨m - n, ?_⟩, hb⟩
  change I.val a' - I.val b' = _; rw [hm, hn]; push_cast; rfl

theorem mulB (ha : |a| ≤ s) (hb : |b| ≤ t) : |a * b| ≤ s * t := by
  rw [abs_mul]; exact mul_le_mul ha hb (abs_nonneg _) ((abs_nonneg _).trans ha)

theorem E.mul (h : I.E a' a s) (g : I.E b' b t) (hB : s * t ≤ B) : I.E (a' *ᶠ b') (a *ᶠ b) (s * t) := by
  obtain ⟨h1, rfl, ⟨m, hm⟩, h4⟩ := h
  obtain ⟨g1, rfl, ⟨n, hn⟩, g4⟩ := g
  have hb := mulB h4 g4
  obtain ⟨r1, r2⟩ := I.mul_int a' b' m n h1 g1 hm hn (hb.trans hB)
  refine ⟨r1, r2, ⟨m * n, ?_⟩, hb⟩
  change I.val a' * I.val b' = _; rw [hm, hn]; push_cast; rfl

theorem E.fma (h : I.E a' a s) (g : I.E b' b t) (k : I.E c' c w) (hB : s * t + w ≤ B) :
    I.E (Arith.fma a' b' c') (Arith.fma a b c) (s * t + w) := by
  have hw := k.nonneg
  obtain ⟨h1, rfl, ⟨m, hm⟩, h4⟩ := h
  obtain ⟨g1, rfl, ⟨n, hn⟩, g4⟩ := g
  obtain ⟨k1, rfl, ⟨p, hp⟩, k4⟩ := k
  have hb := mulB h4 g4
  have hc : |I.val a' * I.val b' + I.val c'| ≤ s * t + w := (abs_add_le _ _).trans (add_le_add hb k4)
  obtain ⟨r1, r2⟩ := I.fma_int a' b' c' m n p h1 g1 k1 hm hn hp (by linarith) (hc.trans hB)
  refine ⟨r1, r2, ⟨m * n + p, ?_⟩, hc⟩
  change I.val a' * I.val b' + I.val c' = _; rw [hm, hn, hp]; push_cast; rfl

theorem E.fms (h : I.E a' a s) (g : I.E b' b t) (k : I.E c' c w) (hB : s * t + w ≤ B) :
    I.E (Arith.fms a' b' c') (Arith.fms a b c) (s * t + w) := by
  have hw := k.nonneg
  obtain ⟨h1, rfl, ⟨m, hm⟩, h4⟩ := h
  obtain ⟨g1, rfl, ⟨n, hn⟩, g4⟩ := g
  obtain ⟨k1, rfl, ⟨p, hp⟩, k4⟩ := k
  have hb := mulB h4 g4
  have hc : |I.val a' * I.val b' - I.val c'| ≤ s * t + w := (abs_sub _ _).trans (add_le_add hb k4)
  obtain ⟨r1, r2⟩ := I.fms_int a' b' c' m n p h1 g1 k1 hm hn hp (by linarith) (hc.trans hB)
  refine ⟨r1, r2, ⟨m * n - p, ?_⟩, hc⟩
  change I.val a' * I.val b' - I.val c' = _; rw [hm, hn, hp]; push_cast; rfl

theorem E.fnma (h : I.E a' a s) (g : I.E b' b t) (k : I.E c' c w) (hB : s * t + w ≤ B) :
    I.E (Arith.fnma a' b' c') (Arith.fnma a b c) (s * t + w) := by
  have hw := k.nonneg
  obtain ⟨h1, rfl, ⟨m, hm⟩, h4⟩ := h
  obtain ⟨g1, rfl, ⟨n, hn⟩, g4⟩ := g
  obtain ⟨k1, rfl, ⟨p, hp⟩, k4⟩ := k
  have hb := mulB h4 g4
  have hc : |I.val c' - I.val a' * I.val b'| ≤ s * t + w := (abs_sub _ _).trans (by linarith)
  obtain ⟨r1, r2⟩ := I.fnma_int a' b' c' m n p h1 g1 k1 hm hn hp (by linarith) (hc.trans hB)
  refine ⟨r1, r2, ⟨p - m * n, ?_⟩, hc⟩
  change I.val c' - I.val a' * I.val b' = _; rw [hm, hn, hp]; push_cast; rfl

/-- Componentwise. -/
def EQ (I : IntModel F u B) (x' : Quat F) (x : Quat ℝ) (s : ℝ) : Prop :=
  I.E x'.re x.re s ∧ I.E x'.i x.i s ∧ I.E x'.j x.j s ∧ I.E x'.k x.k s

/-- The same for a scalar of one of the three types. -/
def ES (I : IntModel F u B) (s' : Scal F) (s : Scal ℝ) (t : ℝ) : Prop :=
  match s', s with
  | .d a', .d a => I.E a' a t
  | .z a', .z a => I.E a'.re a.re t ∧ I.E a'.im a.im t
  | .h a', .h a => I.EQ a' a t
  | _, _ => False

variable {x' y' r' : Quat F} {x y r : Quat ℝ} {al' be' : Scal F} {al be : Scal ℝ}

theorem EQ.nonneg (h : I.EQ x' x s) : 0 ≤ s := h.1.nonneg

theorem ES.nonneg (h : I.ES al' al s) : 0 ≤ s := by
  cases al' <;> cases al <;> first | exact h.elim | skip
  · exact E.nonneg h
  · exact E.nonneg h.1
  · exact EQ.nonneg h

theorem EQ.mono (h : I.EQ x' x s) (hs : s ≤ t) : I.EQ x' x t :=
  ⟨h.1.mono hs, h.2.1.mono hs, h.2.2.1.mono hs, h.2.2.2.mono hs⟩

theorem ES.conj (h : I.ES al' al s) : I.ES al'.smartConj al.smartConj s := by
  cases al' <;> cases al <;> first | exact h.elim | skip
  · exact h
  · exact ⟨h.1, E.neg h.2⟩
  · exact ⟨h.1, h.2.1.neg, h.2.2.1.neg, h.2.2.2.neg⟩

/-- one rule -/
macro "exact_rule" : tactic => `(tactic| first
  | assumption | apply E.zero | apply E.neg | apply E.fma | apply E.fms | apply E.fnma | apply E.add | apply E.sub | apply E.mul)

/-- apply the rules to an expression; the bounds are linear in the products of the bounds of the operands -/
macro "exact_rules" : tactic => `(tactic| (
  apply E.mono
  on_goal 1 => ((repeat' exact_rule) <;> linarith)
  linarith))

theorem EQ.conj (h : I.EQ x' x s) : I.EQ (qconj256 x') (qconj256 x) s :=
  ⟨h.1, h.2.1.neg, h.2.2.1.neg, h.2.2.2.neg⟩

theorem EQ.zero : I.EQ (Quat.mkReal Arith.zero) (Quat.mkReal Arith.zero) 0 := ⟨E.zero, E.zero, E.zero, E.zero⟩

theorem EQ.fZero : I.EQ Haxx.fZero Haxx.fZero 0 := ⟨E.zero, E.zero, E.zero, E.zero⟩

theorem EQ.vadd (h : I.EQ x' x s) (g : I.EQ y' y t) (hB : s + t ≤ B) : I.EQ (vadd x' y') (vadd x y) (s + t) :=
  ⟨h.1.add g.1 hB, h.2.1.add g.2.1 hB, h.2.2.1.add g.2.2.1 hB, h.2.2.2.add g.2.2.2 hB⟩

theorem EQ.addAssign (h : I.EQ x' x s) (g : I.EQ y' y t) (hB : s + t ≤ B) :
    I.EQ (Quat.addAssign x' y') (Quat.addAssign x y) (s + t) :=
  ⟨h.1.add g.1 hB, h.2.1.add g.2.1 hB, h.2.2.1.add g.2.2.1 hB, h.2.2.2.add g.2.2.2 hB⟩

/-- portable quaternion product -/
theorem EQ.mul (hx : I.EQ x' x s) (hy : I.EQ y' y t) (hB : 4 * (s * t) ≤ B) :
    I.EQ (Quat.mul x' y') (Quat.mul x y) (4 * (s * t)) := by
  have h0 := mul_nonneg hx.nonneg hy.nonneg
  obtain ⟨x0, x1, x2, x3⟩ := hx
  obtain ⟨y0, y1, y2, y3⟩ := hy
  refine ⟨?_, ?_, ?_, ?_⟩ <;> dsimp only [Quat.mul] <;> exact_rules

/-! ### portable operators -/

theorem EQ.mulL (hs : I.ES al' al s) (hy : I.EQ y' y t) (hB : 4 * (s * t) ≤ B) :
    I.EQ (al'.mulL y') (al.mulL y) (4 * (s * t)) := by
  have h0 := mul_nonneg hs.nonneg hy.nonneg
  cases al' <;> cases al <;> first | exact hs.elim | skip
  · have hs : I.E _ _ _ := hs
    obtain ⟨y0, y1, y2, y3⟩ := hy
    refine ⟨?_, ?_, ?_, ?_⟩ <;> dsimp only [Scal.mulL, Quat.realMul, Quat.mulAssignReal] <;> exact_rules
  · obtain ⟨x0, x1⟩ := hs
    obtain ⟨y0, y1, y2, y3⟩ := hy
    refine ⟨?_, ?_, ?_, ?_⟩ <;> dsimp only [Scal.mulL, Quat.cplxMul] <;> exact_rules
  · exact EQ.mul hs hy hB

theorem EQ.mulR (hs : I.ES al' al s) (hy : I.EQ y' y t) (hB : 4 * (s * t) ≤ B) :
    I.EQ (Scal.mulR y' al') (Scal.mulR y al) (4 * (s * t)) := by
  have h0 := mul_nonneg hs.nonneg hy.nonneg
  cases al' <;> cases al <;> first | exact hs.elim | skip
  · have hs : I.E _ _ _ := hs
    obtain ⟨y0, y1, y2, y3⟩ := hy
    refine ⟨?_, ?_, ?_, ?_⟩ <;> dsimp only [Scal.mulR, Quat.mulReal, Quat.mulAssignReal] <;> exact_rules
  · obtain ⟨x0, x1⟩ := hs
    obtain ⟨y0, y1, y2, y3⟩ := hy
    refine ⟨?_, ?_, ?_, ?_⟩ <;> dsimp only [Scal.mulR, Quat.mulCplx] <;> exact_rules
  · rw [mul_comm s t] at hB ⊢
    exact EQ.mul hy hs hB

theorem ES.mul (hs : I.ES al' al s) (ht : I.ES be' be t) (hB : 4 * (s * t) ≤ B) :
    I.ES (al'.mul be') (al.mul be) (4 * (s * t)) := by
  have h0 := mul_nonneg hs.nonneg ht.nonneg
  cases be' <;> cases be <;> first | exact ht.elim | skip
  · have ht : I.E _ _ _ := ht
    cases al' <;> cases al <;> first | exact hs.elim | skip
    · have hs : I.E _ _ _ := hs
      dsimp only [Scal.mul, ES]
      exact_rules
    · obtain ⟨x0, x1⟩ := hs
      refine ⟨?_, ?_⟩ <;> dsimp only [Scal.mul] <;> exact_rules
    · obtain ⟨x0, x1, x2, x3⟩ := hs
      refine ⟨?_, ?_, ?_, ?_⟩ <;> dsimp only [Scal.mul, Quat.mulReal, Quat.mulAssignReal] <;> exact_rules
  · obtain ⟨y0, y1⟩ := ht
    cases al' <;> cases al <;> first | exact hs.elim | skip
    · have hs : I.E _ _ _ := hs
      refine ⟨?_, ?_⟩ <;> dsimp only [Scal.mul] <;> exact_rules
    · obtain ⟨x0, x1⟩ := hs
      refine ⟨?_, ?_⟩ <;> dsimp only [Cplx.mul] <;> exact_rules
    · obtain ⟨x0, x1, x2, x3⟩ := hs
      refine ⟨?_, ?_, ?_, ?_⟩ <;> dsimp only [Scal.mul, Quat.mulCplx] <;> exact_rules
  · cases al' <;> cases al <;> first | exact hs.elim | skip
    · exact EQ.mulL (al' := .d _) (al := .d _) hs ht hB
    · exact EQ.mulL (al' := .z _) (al := .z _) hs ht hB
    · exact EQ.mul hs ht hB

/-- `ALPHA*a - a*ALPHA` -/
theorem ES.comm (hα : I.ES al' al s) (ha : I.ES be' be t) (hB : 8 * (s * t) ≤ B) :
    I.ES ((al'.mul be').sub (be'.mul al')) ((al.mul be).sub (be.mul al)) (8 * (s * t)) := by
  have h0 := mul_nonneg hα.nonneg ha.nonneg
  have h1 := ES.mul hα ha (by linarith)
  have h2 := ES.mul ha hα (by linarith)
  have e : 8 * (s * t) = 4 * (s * t) + 4 * (t * s) := by ring
  rw [e] at hB ⊢
  cases al' <;> cases al <;> first | exact hα.elim | skip
  all_goals cases be' <;> cases be <;> first | exact ha.elim | skip
  all_goals first
    | exact E.sub h1 h2 hB
    | exact ⟨E.sub h1.1 h2.1 hB, E.sub h1.2 h2.2 hB⟩
    | exact ⟨E.sub h1.1 h2.1 hB, E.sub h1.2.1 h2.2.1 hB, E.sub h1.2.2.1 h2.2.2.1 hB, E.sub h1.2.2.2 h2.2.2.2 hB⟩

/-! ### SIMD operators -/

theorem mulNN_eq {G : Type} [Arith G] (x y : Quat G) : MULDQ_NN x y =
    ⟨Arith.fms x.re y.re (x.k *ᶠ y.k) +ᶠ ~ᶠ (Arith.fma x.j y.j (x.i *ᶠ y.i)),
     Arith.fms x.re y.i (x.k *ᶠ y.j) +ᶠ Arith.fma x.j y.k (x.i *ᶠ y.re),
     Arith.fms x.re y.j (x.i *ᶠ y.k) +ᶠ Arith.fma x.k y.i (x.j *ᶠ y.re),
     Arith.fms x.re y.k (x.j *ᶠ y.i) +ᶠ Arith.fma x.i y.j (x.k *ᶠ y.re)⟩ := rfl

theorem EQ.mulNN (hx : I.EQ x' x s) (hy : I.EQ y' y t) (hB : 4 * (s * t) ≤ B) :
    I.EQ (MULDQ_NN x' y') (MULDQ_NN x y) (4 * (s * t)) := by
  have h0 := mul_nonneg hx.nonneg hy.nonneg
  obtain ⟨x0, x1, x2, x3⟩ := hx
  obtain ⟨y0, y1, y2, y3⟩ := hy
  rw [mulNN_eq, mulNN_eq]
  refine ⟨?_, ?_, ?_, ?_⟩ <;> dsimp only <;> exact_rules

theorem scalOp_z {G : Type} [Arith G] (a : Cplx G) (x : Quat G) :
    scalOp true (.z a) x = ⟨x.re *ᶠ a.re -ᶠ x.i *ᶠ a.im, x.re *ᶠ a.im -ᶠ x.i *ᶠ ~ᶠ a.re,
      x.j *ᶠ a.re -ᶠ x.k *ᶠ a.im, x.j *ᶠ a.im -ᶠ x.k *ᶠ ~ᶠ a.re⟩ ∧
    scalOp false (.z a) x = ⟨x.re *ᶠ a.re -ᶠ x.i *ᶠ a.im, x.re *ᶠ a.im -ᶠ x.i *ᶠ ~ᶠ a.re,
      x.j *ᶠ a.re -ᶠ x.k *ᶠ ~ᶠ a.im, x.j *ᶠ ~ᶠ a.im -ᶠ x.k *ᶠ ~ᶠ a.re⟩ := ⟨rfl, rfl⟩

theorem EQ.scalOp (L : Bool) (hs : I.ES al' al s) (hx : I.EQ x' x t) (hB : 4 * (s * t) ≤ B) :
    I.EQ (scalOp L al' x') (scalOp L al x) (4 * (s * t)) := by
  have h0 := mul_nonneg hs.nonneg hx.nonneg
  cases al' <;> cases al <;> first | exact hs.elim | skip
  · have hs : I.E _ _ _ := hs
    obtain ⟨x0, x1, x2, x3⟩ := hx
    refine ⟨?_, ?_, ?_, ?_⟩ <;> dsimp only [Haxx.scalOp, alphaRegs, broadcast, vmul] <;> exact_rules
  · obtain ⟨y0, y1⟩ := hs
    obtain ⟨x0, x1, x2, x3⟩ := hx
    cases L
    · rw [(scalOp_z _ _).2, (scalOp_z _ _).2]
      refine ⟨?_, ?_, ?_, ?_⟩ <;> dsimp only <;> exact_rules
    · rw [(scalOp_z _ _).1, (scalOp_z _ _).1]
      refine ⟨?_, ?_, ?_, ?_⟩ <;> dsimp only <;> exact_rules
  · cases L
    · rw [mul_comm s t] at hB ⊢
      exact EQ.mulNN hx hs hB
    · exact EQ.mulNN hs hx hB

theorem EQ.axpyOp (L : Bool) (hs : I.ES al' al s) (hx : I.EQ x' x t) (hy : I.EQ y' y w) (hB : w + 4 * (s * t) ≤ B) :
    I.EQ (axpyOp L al' x' y') (axpyOp L al x y) (w + 4 * (s * t)) := by
  have h0 := mul_nonneg hs.nonneg hx.nonneg
  have hw := hy.nonneg
  cases al' <;> cases al <;> first | exact hs.elim | skip
  · have hs : I.E _ _ _ := hs
    obtain ⟨x0, x1, x2, x3⟩ := hx
    obtain ⟨y0, y1, y2, y3⟩ := hy
    refine ⟨?_, ?_, ?_, ?_⟩ <;> dsimp only [Haxx.axpyOp, alphaRegs, broadcast, vfma] <;> exact_rules
  · exact hy.vadd (EQ.scalOp L (al' := .z _) (al := .z _) hs hx (by linarith)) hB
  · cases L
    · exact hy.vadd (EQ.scalOp false (al' := .h _) (al := .h _) hs hx (by linarith)) hB
    · exact hy.vadd (EQ.scalOp true (al' := .h _) (al := .h _) hs hx (by linarith)) hB

theorem EQ.qinc (hx : I.EQ x' x s) (hy : I.EQ y' y t) (hr : I.EQ r' r w) (hB : w + 4 * (s * t) ≤ B) :
    I.EQ (qinc x' y' r') (qinc x y r) (w + 4 * (s * t)) := by
  have h0 := mul_nonneg hx.nonneg hy.nonneg
  have hw := hr.nonneg
  obtain ⟨x0, x1, x2, x3⟩ := hx
  obtain ⟨y0, y1, y2, y3⟩ := hy
  obtain ⟨r0, r1, r2, r3⟩ := hr
  refine ⟨?_, ?_, ?_, ?_⟩ <;> dsimp only [Haxx.qinc] <;> exact_rules

theorem EQ.qincC (hx : I.EQ x' x s) (hy : I.EQ y' y t) (hr : I.EQ r' r w) (hB : w + 4 * (s * t) ≤ B) :
    I.EQ (StdModel.qincC x' y' r') (StdModel.qincC x y r) (w + 4 * (s * t)) := by
  have h0 := mul_nonneg hx.nonneg hy.nonneg
  have hw := hr.nonneg
  obtain ⟨x0, x1, x2, x3⟩ := hx
  obtain ⟨y0, y1, y2, y3⟩ := hy
  obtain ⟨r0, r1, r2, r3⟩ := hr
  refine ⟨?_, ?_, ?_, ?_⟩ <;> dsimp only [StdModel.qincC] <;> exact_rules

/-! ### loops -/

section loops
variable {xs' ys' : ℕ → Quat F} {xs ys : ℕ → Quat ℝ} {as' : ℕ → Scal F} {as : ℕ → Scal ℝ} {α : ℝ}

theorem stepB {K : ℕ} {w p : ℝ} (hp : 0 ≤ p) (hB : w + ((K + 1 : ℕ) : ℝ) * p ≤ B) :
    w + (K : ℝ) * p ≤ B ∧ w + (K : ℝ) * p + p = w + ((K + 1 : ℕ) : ℝ) * p := by
  push_cast at hB ⊢
  constructor <;> linarith

theorem oneB {K k : ℕ} (hk : k < K) {p : ℝ} (hp : 0 ≤ p) : p ≤ (K : ℝ) * p := by
  have : (1:ℝ) ≤ K := by exact_mod_cast Nat.one_le_of_lt hk
  nlinarith

theorem EQ.accum (hr : I.EQ r' r w) (K : ℕ) (hx : ∀ k, k < K → I.EQ (xs' k) (xs k) s)
    (hy : ∀ k, k < K → I.EQ (ys' k) (ys k) t) (h0 : 0 ≤ s * t) (hB : w + K * (4 * (s * t)) ≤ B) :
    I.EQ (accum xs' ys' K r') (accum xs ys K r) (w + K * (4 * (s * t))) := by
  induction K with
  | zero => simpa [Haxx.accum] using hr
  | succ K ih =>
    obtain ⟨h1, h2⟩ := stepB (by linarith) hB
    rw [← h2] at hB ⊢
    exact EQ.qinc (hx K (by omega)) (hy K (by omega)) (ih (fun k hk => hx k (by omega)) (fun k hk => hy k (by omega)) h1) hB

theorem EQ.laneAcc (cj : Bool) (l b : ℕ) (hx : ∀ k, k < b → I.EQ (xs' (4*k+l)) (xs (4*k+l)) s)
    (hy : ∀ k, k < b → I.EQ (ys' (4*k+l)) (ys (4*k+l)) t) (h0 : 0 ≤ s * t) (hB : 0 + b * (4 * (s * t)) ≤ B) :
    I.EQ (StdModel.laneAcc cj xs' ys' l b) (StdModel.laneAcc cj xs ys l b) (0 + b * (4 * (s * t))) := by
  induction b with
  | zero =>
    have h : I.EQ (StdModel.laneAcc cj xs' ys' l 0) (StdModel.laneAcc cj xs ys l 0) 0 := ⟨E.zero, E.zero, E.zero, E.zero⟩
    exact h.mono (by simp)
  | succ b ih =>
    obtain ⟨h1, h2⟩ := stepB (by linarith) hB
    rw [← h2] at hB ⊢
    have ih := ih (fun k hk => hx k (by omega)) (fun k hk => hy k (by omega)) h1
    cases cj
    · exact EQ.qinc (hx b (by omega)) (hy b (by omega)) ih hB
    · exact EQ.qincC (hx b (by omega)) (hy b (by omega)) ih hB

theorem EQ.dotRest (cj : Bool) (o n : ℕ) (hr : I.EQ r' r w) (hx : ∀ k, k < n → I.EQ (xs' (o+k)) (xs (o+k)) s)
    (hy : ∀ k, k < n → I.EQ (ys' (o+k)) (ys (o+k)) t) (h0 : 0 ≤ s * t) (hw : 0 ≤ w) (hB : w + n * (4 * (s * t)) ≤ B) :
    I.EQ (dotRest cj xs' ys' o r' n) (dotRest cj xs ys o r n) (w + n * (4 * (s * t))) := by
  induction n with
  | zero => simpa [Haxx.dotRest] using hr
  | succ n ih =>
    obtain ⟨h1, h2⟩ := stepB (by linarith) hB
    rw [← h2] at hB ⊢
    have ih := ih (fun k hk => hx k (by omega)) (fun k hk => hy k (by omega)) h1
    have hn : (0:ℝ) ≤ n * (4 * (s * t)) := by positivity
    refine EQ.vadd ih ?_ hB
    cases cj
    · exact EQ.mulNN (hx n (by omega)) (hy n (by omega)) (by linarith)
    · exact EQ.mulNN (hx n (by omega)).conj (hy n (by omega)) (by linarith)

/-- SIMD DOT -/
theorem EQ.dotVal (cj : Bool) (n : ℕ) (hx : ∀ k, k < n → I.EQ (xs' k) (xs k) s)
    (hy : ∀ k, k < n → I.EQ (ys' k) (ys k) t) (h0 : 0 ≤ s * t) (hB : n * (4 * (s * t)) ≤ B) :
    I.EQ (dotVal cj n xs' ys') (dotVal cj n xs ys) (n * (4 * (s * t))) := by
  unfold Haxx.dotVal
  rw [StdModel.dotBatches_lane, StdModel.dotBatches_lane]
  have e : (n : ℝ) = 4 * (n / 4 : ℕ) + (n % 4 : ℕ) := by
    exact_mod_cast (Nat.div_add_mod n 4).symm
  have p1 : (0:ℝ) ≤ (n / 4 : ℕ) * (4 * (s * t)) := by positivity
  have p2 : (0:ℝ) ≤ (n % 4 : ℕ) * (4 * (s * t)) := by positivity
  have e2 : (n : ℝ) * (4 * (s * t)) = (0 + (n / 4 : ℕ) * (4 * (s * t)) + (0 + (n / 4 : ℕ) * (4 * (s * t))) +
      (0 + (n / 4 : ℕ) * (4 * (s * t))) + (0 + (n / 4 : ℕ) * (4 * (s * t)))) + (n % 4 : ℕ) * (4 * (s * t)) := by
    rw [e]; ring
  rw [e2] at hB ⊢
  have L : ∀ l, l < 4 → _ := fun l hl => EQ.laneAcc (I := I) (xs' := xs') (xs := xs) (ys' := ys') (ys := ys) cj l (n/4)
    (fun k hk => hx _ (by omega)) (fun k hk => hy _ (by omega)) h0 (by linarith)
  exact EQ.dotRest cj (4*(n/4)) (n % 4) ((((L 0 (by omega)).vadd (L 1 (by omega)) (by linarith)).vadd (L 2 (by omega))
    (by linarith)).vadd (L 3 (by omega)) (by linarith)) (fun k hk => hx _ (by omega)) (fun k hk => hy _ (by omega)) h0
    (by linarith) hB

/-- one entry of the SIMD GEMM -/
theorem EQ.gemmElt (tA tB : Char) {β c : ℝ} (K : ℕ) (hα : I.ES al' al α) (hβ : I.ES be' be β) (hr : I.EQ r' r c)
    (hx : ∀ k, k < K → I.EQ (xs' k) (xs k) s) (hy : ∀ k, k < K → I.EQ (ys' k) (ys k) t) (hs : 0 ≤ s) (ht : 1 ≤ t)
    (hB : 4 * (β * c) + K * (16 * (α * s * t)) ≤ B) :
    I.EQ (gemmElt tA tB al' be' K xs' ys' r') (gemmElt tA tB al be K xs ys r) (4 * (β * c) + K * (16 * (α * s * t))) := by
  have q1 := mul_nonneg hα.nonneg hs
  have q2 := mul_nonneg hβ.nonneg hr.nonneg
  have q3 : α * s ≤ α * s * t := by nlinarith
  have q4 : (0:ℝ) ≤ K * (16 * (α * s * t)) := mul_nonneg (by positivity) (by linarith)
  unfold Haxx.gemmElt
  have e : 4 * (β * c) + K * (16 * (α * s * t)) = 4 * (β * c) + K * (4 * (4 * (α * s) * t)) := by ring
  rw [e] at hB ⊢
  refine EQ.accum (s := 4 * (α * s)) (t := t) ?_ K (fun k hk => ?_) (fun k hk => ?_) (by nlinarith) hB
  · exact EQ.scalOp true hβ hr (by linarith)
  · have q5 := oneB hk (show 0 ≤ 16 * (α * s * t) by linarith)
    cases isCj tA
    · simp only [preOP, StdModel.regMulL_eq, Bool.false_eq_true, if_false]
      exact EQ.scalOp true hα (hx k hk) (by linarith)
    · simp only [preOP, StdModel.regMulL_eq, if_true]
      exact EQ.scalOp true hα (hx k hk).conj (by linarith)
  · cases isCj tB
    · exact hy k hk
    · exact (hy k hk).conj

/-- portable DOT -/
theorem EQ.pDotQ (cj : Bool) (n : ℕ) (hx : ∀ k, k < n → I.EQ (xs' k) (xs k) s)
    (hy : ∀ k, k < n → I.EQ (ys' k) (ys k) t) (h0 : 0 ≤ s * t) (hB : 0 + n * (4 * (s * t)) ≤ B) :
    I.EQ (pDotQ cj xs' ys' n) (pDotQ cj xs ys n) (0 + n * (4 * (s * t))) := by
  induction n with
  | zero =>
    have h : I.EQ (Haxx.pDotQ cj xs' ys' 0) (Haxx.pDotQ cj xs ys 0) 0 := EQ.zero
    exact h.mono (by simp)
  | succ n ih =>
    obtain ⟨h1, h2⟩ := stepB (by linarith) hB
    rw [← h2] at hB ⊢
    have ih := ih (fun k hk => hx k (by omega)) (fun k hk => hy k (by omega)) h1
    have hn : (0:ℝ) ≤ n * (4 * (s * t)) := by positivity
    refine EQ.addAssign ih ?_ hB
    cases cj
    · exact EQ.mul (hx n (by omega)) (hy n (by omega)) (by linarith)
    · exact EQ.mul (EQ.conj (hx n (by omega))) (hy n (by omega)) (by linarith)

theorem EQ.pDot (n : ℕ) (hx : ∀ k, k < n → I.ES (as' k) (as k) s)
    (hy : ∀ k, k < n → I.EQ (ys' k) (ys k) t) (h0 : 0 ≤ s * t) (hB : 0 + n * (4 * (s * t)) ≤ B) :
    I.EQ (pDot as' ys' n) (pDot as ys n) (0 + n * (4 * (s * t))) := by
  induction n with
  | zero =>
    have h : I.EQ (Haxx.pDot as' ys' 0) (Haxx.pDot as ys 0) 0 := EQ.zero
    exact h.mono (by simp)
  | succ n ih =>
    obtain ⟨h1, h2⟩ := stepB (by linarith) hB
    rw [← h2] at hB ⊢
    have ih := ih (fun k hk => hx k (by omega)) (fun k hk => hy k (by omega)) h1
    have hn : (0:ℝ) ≤ n * (4 * (s * t)) := by positivity
    exact EQ.addAssign ih (EQ.mulL (hx n (by omega)) (hy n (by omega)) (by linarith)) hB

theorem EQ.pAcc (n : ℕ) (hα : I.ES al' al α) (hr : I.EQ r' r w) (hx : ∀ k, k < n → I.ES (as' k) (as k) s)
    (hy : ∀ k, k < n → I.EQ (ys' k) (ys k) t) (hs : 0 ≤ s) (ht : 1 ≤ t) (hB : w + n * (16 * (α * s * t)) ≤ B) :
    I.EQ (pAcc al' as' ys' r' n) (pAcc al as ys r n) (w + n * (16 * (α * s * t))) := by
  have q1 := mul_nonneg hα.nonneg hs
  have q3 : α * s ≤ α * s * t := by nlinarith
  have hw := hr.nonneg
  induction n with
  | zero => simpa [Haxx.pAcc] using hr
  | succ n ih =>
    obtain ⟨h1, h2⟩ := stepB (by linarith) hB
    rw [← h2] at hB ⊢
    have ih := ih (fun k hk => hx k (by omega)) (fun k hk => hy k (by omega)) h1
    have hn : (0:ℝ) ≤ n * (16 * (α * s * t)) := mul_nonneg (by positivity) (by linarith)
    refine EQ.addAssign ih (EQ.mono (EQ.mulL (ES.mul hα (hx n (by omega)) ?_) (hy n (by omega)) ?_) ?_) hB <;> linarith

theorem EQ.pAxpys (n : ℕ) (hα : I.ES al' al α) (hr : I.EQ r' r w) (hx : ∀ k, k < n → I.ES (as' k) (as k) s)
    (hy : ∀ k, k < n → I.EQ (ys' k) (ys k) t) (hs : 1 ≤ s) (ht : 1 ≤ t) (hB : w + n * (48 * (α * s * t)) ≤ B) :
    I.EQ (pAxpys al' as' ys' r' n) (pAxpys al as ys r n) (w + n * (48 * (α * s * t))) := by
  have hα0 := hα.nonneg
  have q1 := mul_nonneg hα.nonneg (zero_le_one.trans hs)
  have q2 := mul_nonneg hα.nonneg (zero_le_one.trans ht)
  have q3 : α * s ≤ α * s * t := by nlinarith
  have q4 : α * t ≤ α * s * t := by nlinarith
  have hw := hr.nonneg
  induction n with
  | zero => simpa [Haxx.pAxpys] using hr
  | succ n ih =>
    obtain ⟨h1, h2⟩ := stepB (by linarith) hB
    rw [← h2] at hB ⊢
    have ih := ih (fun k hk => hx k (by omega)) (fun k hk => hy k (by omega)) h1
    have hn : (0:ℝ) ≤ n * (48 * (α * s * t)) := mul_nonneg (by positivity) (by linarith)
    have A := EQ.mulL (hx n (by omega)) (EQ.mulL hα (hy n (by omega)) (by linarith)) (by linarith)
    have C := EQ.mulL (ES.comm hα (hx n (by omega)) (by linarith)) (hy n (by omega)) (by linarith)
    exact ((ih.addAssign A (by linarith)).addAssign C (by linarith)).mono (by linarith)

end loops

/-! ### Fortran operators -/

section fortran
variable {xs' ys' : ℕ → Quat F} {xs ys : ℕ → Quat ℝ} {α : ℝ}

theorem EQ.fScal (hs : I.ES al' al s) (hy : I.EQ y' y t) (hB : 4 * (s * t) ≤ B) :
    I.EQ (fScal al' y') (fScal al y) (4 * (s * t)) := by
  have h0 := mul_nonneg hs.nonneg hy.nonneg
  obtain ⟨y0, y1, y2, y3⟩ := hy
  cases al' <;> cases al <;> first | exact hs.elim | skip
  · have hs : I.E _ _ _ := hs
    refine ⟨?_, ?_, ?_, ?_⟩ <;> dsimp only [Haxx.fScal, Quat.ofC, Cplx.mul, Cplx.ofReal, Quat.lo, Quat.hi] <;> exact_rules
  · obtain ⟨x0, x1⟩ := hs
    refine ⟨?_, ?_, ?_, ?_⟩ <;> dsimp only [Haxx.fScal, Quat.ofC, Cplx.mul, Cplx.ofReal, Quat.lo, Quat.hi] <;> exact_rules
  · obtain ⟨x0, x1, x2, x3⟩ := hs
    refine ⟨?_, ?_, ?_, ?_⟩ <;> dsimp only [Haxx.fScal, Quat.ofC, Cplx.mul, Cplx.add, Cplx.sub, Cplx.conj, Quat.lo, Quat.hi] <;>
      exact_rules

theorem EQ.fAlpha (hs : I.ES al' al s) (hy : I.EQ y' y t) (hB : 4 * (s * t) ≤ B) :
    I.EQ (fAlpha al' y') (fAlpha al y) (4 * (s * t)) := by
  have := EQ.fScal hs hy hB
  cases al' <;> cases al <;> first | exact hs.elim | exact this

theorem EQ.fAddBeta (hs : I.ES al' al s) (hr : I.EQ r' r w) (hy : I.EQ y' y t) (hB : w + 4 * (s * t) ≤ B) :
    I.EQ (fAddBeta al' r' y') (fAddBeta al r y) (w + 4 * (s * t)) := by
  have h0 := mul_nonneg hs.nonneg hy.nonneg
  have hw := hr.nonneg
  obtain ⟨y0, y1, y2, y3⟩ := hy
  obtain ⟨r0, r1, r2, r3⟩ := hr
  cases al' <;> cases al <;> first | exact hs.elim | skip
  · have hs : I.E _ _ _ := hs
    refine ⟨?_, ?_, ?_, ?_⟩ <;> dsimp only [Haxx.fAddBeta, Quat.ofC, Cplx.mul, Cplx.add, Cplx.ofReal, Quat.lo, Quat.hi] <;> exact_rules
  · obtain ⟨x0, x1⟩ := hs
    refine ⟨?_, ?_, ?_, ?_⟩ <;> dsimp only [Haxx.fAddBeta, Quat.ofC, Cplx.mul, Cplx.add, Cplx.ofReal, Quat.lo, Quat.hi] <;> exact_rules
  · obtain ⟨x0, x1, x2, x3⟩ := hs
    refine ⟨?_, ?_, ?_, ?_⟩ <;> dsimp only [Haxx.fAddBeta, Quat.ofC, Cplx.mul, Cplx.add, Cplx.sub, Cplx.conj, Quat.lo, Quat.hi] <;>
      exact_rules

theorem EQ.fAcc (ta tb : FTrans) (hx : I.EQ x' x s) (hy : I.EQ y' y t) (hr : I.EQ r' r w) (hB : w + 4 * (s * t) ≤ B) :
    I.EQ (fAcc ta tb x' y' r') (fAcc ta tb x y r) (w + 4 * (s * t)) := by
  have h0 := mul_nonneg hx.nonneg hy.nonneg
  have hw := hr.nonneg
  obtain ⟨y0, y1, y2, y3⟩ := hy
  obtain ⟨x0, x1, x2, x3⟩ := hx
  obtain ⟨r0, r1, r2, r3⟩ := hr
  cases ta <;> cases tb <;> refine ⟨?_, ?_, ?_, ?_⟩ <;>
    dsimp only [Haxx.fAcc, Quat.ofC, Cplx.mul, Cplx.add, Cplx.sub, Cplx.conj, Quat.lo, Quat.hi] <;> exact_rules

set_option maxHeartbeats 2000000 in
theorem EQ.fStep (tb : FTrans) (hs : I.ES al' al α) (hx : I.EQ x' x s) (hy : I.EQ y' y t) (hr : I.EQ r' r w) (h1 : 1 ≤ s)
    (hB : w + 16 * (α * s * t) ≤ B) :
    I.EQ (fStep al' tb x' y' r') (fStep al tb x y r) (w + 16 * (α * s * t)) := by
  have h0 := mul_nonneg hs.nonneg hy.nonneg
  have h2 : α * t ≤ α * s * t := by nlinarith
  have hw := hr.nonneg
  obtain ⟨y0, y1, y2, y3⟩ := hy
  obtain ⟨x0, x1, x2, x3⟩ := hx
  obtain ⟨r0, r1, r2, r3⟩ := hr
  cases al' <;> cases al <;> first | exact hs.elim | skip
  · have hs : I.E _ _ _ := hs
    cases tb <;> refine ⟨?_, ?_, ?_, ?_⟩ <;>
      dsimp only [Haxx.fStep, Quat.ofC, Cplx.mul, Cplx.add, Cplx.sub, Cplx.conj, Cplx.neg, Cplx.ofReal, Quat.lo, Quat.hi] <;> exact_rules
  · obtain ⟨a0, a1⟩ := hs
    cases tb <;> refine ⟨?_, ?_, ?_, ?_⟩ <;>
      dsimp only [Haxx.fStep, Quat.ofC, Cplx.mul, Cplx.add, Cplx.sub, Cplx.conj, Cplx.neg, Cplx.ofReal, Quat.lo, Quat.hi] <;> exact_rules
  · obtain ⟨a0, a1, a2, a3⟩ := hs
    cases tb <;> refine ⟨?_, ?_, ?_, ?_⟩ <;>
      dsimp only [Haxx.fStep, Quat.ofC, Cplx.mul, Cplx.add, Cplx.sub, Cplx.conj, Cplx.neg, Cplx.ofReal, Quat.lo, Quat.hi] <;> exact_rules

theorem EQ.fSteps (tb : FTrans) (K : ℕ) (hs : I.ES al' al α) (hx : ∀ k, k < K → I.EQ (xs' k) (xs k) s)
    (hy : ∀ k, k < K → I.EQ (ys' k) (ys k) t) (hr : I.EQ r' r w) (h1 : 1 ≤ s) (ht : 0 ≤ t)
    (hB : w + K * (16 * (α * s * t)) ≤ B) :
    I.EQ (fSteps al' tb xs' ys' r' K) (fSteps al tb xs ys r K) (w + K * (16 * (α * s * t))) := by
  have h0 := mul_nonneg (mul_nonneg hs.nonneg (zero_le_one.trans h1)) ht
  induction K with
  | zero => simpa [Haxx.fSteps] using hr
  | succ K ih =>
    obtain ⟨h2, h3⟩ := stepB (by linarith) hB
    rw [← h3] at hB ⊢
    exact EQ.fStep tb hs (hx K (by omega)) (hy K (by omega))
      (ih (fun k hk => hx k (by omega)) (fun k hk => hy k (by omega)) h2) h1 hB

theorem EQ.fAccs (ta tb : FTrans) (K : ℕ) (hx : ∀ k, k < K → I.EQ (xs' k) (xs k) s)
    (hy : ∀ k, k < K → I.EQ (ys' k) (ys k) t) (h0 : 0 ≤ s * t) (hB : 0 + K * (4 * (s * t)) ≤ B) :
    I.EQ (fAccs ta tb xs' ys' K) (fAccs ta tb xs ys K) (0 + K * (4 * (s * t))) := by
  induction K with
  | zero =>
    have h : I.EQ (Haxx.fAccs ta tb xs' ys' 0) (Haxx.fAccs ta tb xs ys 0) 0 := EQ.fZero
    exact h.mono (by simp)
  | succ K ih =>
    obtain ⟨h2, h3⟩ := stepB (by linarith) hB
    rw [← h3] at hB ⊢
    exact EQ.fAcc ta tb (hx K (by omega)) (hy K (by omega))
      (ih (fun k hk => hx k (by omega)) (fun k hk => hy k (by omega)) h2) hB

theorem EQ.fScalV (R : Bool) (hs : I.ES al' al s) (hy : I.EQ y' y t) (hB : 4 * (s * t) ≤ B) :
    I.EQ (fScalV R al' y') (fScalV R al y) (4 * (s * t)) := by
  have h0 := mul_nonneg hs.nonneg hy.nonneg
  obtain ⟨y0, y1, y2, y3⟩ := hy
  cases al' <;> cases al <;> first | exact hs.elim | skip
  · have hs : I.E _ _ _ := hs
    cases R <;> refine ⟨?_, ?_, ?_, ?_⟩ <;> dsimp only [Haxx.fScalV] <;> exact_rules
  · obtain ⟨x0, x1⟩ := hs
    cases R <;> refine ⟨?_, ?_, ?_, ?_⟩ <;> dsimp only [Haxx.fScalV, Quat.ofC, Cplx.mul, Cplx.conj, Quat.lo, Quat.hi] <;> exact_rules
  · obtain ⟨x0, x1, x2, x3⟩ := hs
    cases R <;> refine ⟨?_, ?_, ?_, ?_⟩ <;> dsimp only [Haxx.fScalV] <;> exact_rules

theorem EQ.fAxpyV (R : Bool) (hs : I.ES al' al s) (hy : I.EQ y' y t) (hr : I.EQ r' r w) (hB : w + 4 * (s * t) ≤ B) :
    I.EQ (fAxpyV R al' y' r') (fAxpyV R al y r) (w + 4 * (s * t)) := by
  have h0 := mul_nonneg hs.nonneg hy.nonneg
  have hw := hr.nonneg
  obtain ⟨y0, y1, y2, y3⟩ := hy
  obtain ⟨r0, r1, r2, r3⟩ := hr
  cases al' <;> cases al <;> first | exact hs.elim | skip
  · have hs : I.E _ _ _ := hs
    cases R <;> refine ⟨?_, ?_, ?_, ?_⟩ <;> dsimp only [Haxx.fAxpyV] <;> exact_rules
  · obtain ⟨x0, x1⟩ := hs
    cases R <;> refine ⟨?_, ?_, ?_, ?_⟩ <;> dsimp only [Haxx.fAxpyV] <;> exact_rules
  · obtain ⟨x0, x1, x2, x3⟩ := hs
    cases R <;> refine ⟨?_, ?_, ?_, ?_⟩ <;> dsimp only [Haxx.fAxpyV] <;> exact_rules

theorem EQ.fDot (cj : Bool) (K : ℕ) (hx : ∀ k, k < K → I.EQ (xs' k) (xs k) s)
    (hy : ∀ k, k < K → I.EQ (ys' k) (ys k) t) (h0 : 0 ≤ s * t) (hB : 0 + K * (4 * (s * t)) ≤ B) :
    I.EQ (fDot cj xs' ys' K) (fDot cj xs ys K) (0 + K * (4 * (s * t))) := by
  induction K with
  | zero =>
    have h : I.EQ (Haxx.fDot cj xs' ys' 0) (Haxx.fDot cj xs ys 0) 0 := ⟨E.zero, E.zero, E.zero, E.zero⟩
    exact h.mono (by simp)
  | succ K ih =>
    obtain ⟨h2, h3⟩ := stepB (by linarith) hB
    rw [← h3] at hB ⊢
    have ih := ih (fun k hk => hx k (by omega)) (fun k hk => hy k (by omega)) h2
    have hw := ih.nonneg
    obtain ⟨x0, x1, x2, x3⟩ := hx K (by omega)
    obtain ⟨y0, y1, y2, y3⟩ := hy K (by omega)
    obtain ⟨r0, r1, r2, r3⟩ := ih
    cases cj <;> refine ⟨?_, ?_, ?_, ?_⟩ <;> dsimp only [Haxx.fDot, Haxx.fDotStep] <;> exact_rules

end fortran

end IntModel
end Haxx
