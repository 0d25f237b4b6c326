import Verif.RoundK
import Verif.GenericBits

/-!
# Rounding in the portable operators and templates
-/

namespace Haxx
open Quaternion Finset

variable {F : Type} [Arith F] {u : ℝ}

/-- Cauchy–Schwarz with part of the components -/
theorem csP {T B : Quat ℝ} (a b c d e f g h : ℝ) (h1 : a ^ 2 + b ^ 2 + c ^ 2 + d ^ 2 ≤ ‖T.toH‖ ^ 2)
    (h2 : e ^ 2 + f ^ 2 + g ^ 2 + h ^ 2 ≤ ‖B.toH‖ ^ 2) :
    a * e + b * f + c * g + d * h ≤ ‖T.toH‖ * ‖B.toH‖ := by
  have k := cs4 (n := Real.sqrt (a ^ 2 + b ^ 2 + c ^ 2 + d ^ 2))
    (m := Real.sqrt (e ^ 2 + f ^ 2 + g ^ 2 + h ^ 2)) (Real.sqrt_nonneg _) (Real.sqrt_nonneg _)
    (Real.sq_sqrt (by positivity)) (Real.sq_sqrt (by positivity))
  exact k.trans (mul_le_mul (Real.sqrt_le_iff.mpr ⟨norm_nonneg _, h1⟩)
    (Real.sqrt_le_iff.mpr ⟨norm_nonneg _, h2⟩) (Real.sqrt_nonneg _) (norm_nonneg _))

/-- a scalar as a quaternion of components -/
def Scal.emb : Scal ℝ → Quat ℝ
  | .d a => ⟨a, 0, 0, 0⟩
  | .z a => ⟨a.re, a.im, 0, 0⟩
  | .h a => a

theorem Scal.toH_emb (s : Scal ℝ) : s.emb.toH = s.toH := by
  cases s <;> ext <;> simp [Scal.emb, Scal.toH]

namespace StdModel
variable {S : StdModel F u} {p q r n : ℕ} {x' y' r' : Quat F} {x y z A B T U : Quat ℝ} {s t : ℝ}
  {a' b' : F} {a b : ℝ}

theorem R.addL (h : S.R p a' a s) (g : S.R q b' b t) (hp : p + 1 ≤ n) (hq : q + 1 ≤ n) :
    S.R n (a' +ᶠ b') (a + b) (s + t) :=
  (R.add (h.le (Nat.le_max_left p q)) (g.le (Nat.le_max_right p q))).le (by omega)

theorem R.subL (h : S.R p a' a s) (g : S.R q b' b t) (hp : p + 1 ≤ n) (hq : q + 1 ≤ n) :
    S.R n (a' -ᶠ b') (a - b) (s + t) :=
  (R.sub (h.le (Nat.le_max_left p q)) (g.le (Nat.le_max_right p q))).le (by omega)

/-- `x'` (a scalar of one of the three types) approximates `x` of the same type -/
def SR (S : StdModel F u) (p : ℕ) (s' : Scal F) (s : Scal ℝ) (T : Quat ℝ) : Prop :=
  match s', s with
  | .d a', .d a => S.R p a' a T.re
  | .z a', .z a => S.R p a'.re a.re T.re ∧ S.R p a'.im a.im T.i
  | .h a', .h a => S.QR p a' a T
  | _, _ => False

theorem SR.exact (s : Scal F) : S.SR p s (s.map S.val) (Quat.abs (s.map S.val).emb) := by
  cases s
  · exact R.exact _
  · exact ⟨R.exact _, R.exact _⟩
  · exact QR.exact _

theorem SR.le {s' : Scal F} {s : Scal ℝ} (h : S.SR p s' s T) (hp : p ≤ q) : S.SR q s' s T := by
  cases s' <;> cases s <;> first | exact h.elim | skip
  · exact R.le h hp
  · exact ⟨R.le h.1 hp, R.le h.2 hp⟩
  · exact QR.le h hp

theorem SR.conj {s' : Scal F} {s : Scal ℝ} (h : S.SR p s' s T) : S.SR p s'.smartConj s.smartConj T := by
  cases s' <;> cases s <;> first | exact h.elim | skip
  · exact h
  · exact ⟨h.1, R.neg h.2⟩
  · exact ⟨h.1, h.2.1.neg, h.2.2.1.neg, h.2.2.2.neg⟩

theorem norm_emb (s : Scal ℝ) : ‖(Quat.abs s.emb).toH‖ = ‖s.toH‖ := by
  rw [norm_abs, Scal.toH_emb]

/-- portable quaternion product -/
theorem QR.mul (hx : S.QR p x' x A) (hy : S.QR q y' y B) :
    S.QR (p + q + 4) (Quat.mul x' y') (Quat.mul x y) (broadcast (‖A.toH‖ * ‖B.toH‖)) := by
  have hA := norm_sq_toH A
  have hB := norm_sq_toH B
  refine ⟨?_, ?_, ?_, ?_⟩
  · exact ((((hx.1.mul hy.1).sub (hx.2.1.mul hy.2.1)).subL (hx.2.2.1.mul hy.2.2.1) le_rfl (by omega)).subL
      (hx.2.2.2.mul hy.2.2.2) le_rfl (by omega)).mono (by omega)
      (csP _ _ _ _ _ _ _ _ (by linarith) (by linarith))
  · exact ((((hx.1.mul hy.2.1).add (hx.2.1.mul hy.1)).addL (hx.2.2.1.mul hy.2.2.2) le_rfl (by omega)).subL
      (hx.2.2.2.mul hy.2.2.1) le_rfl (by omega)).mono (by omega)
      (csP _ _ _ _ _ _ _ _ (by linarith) (by linarith))
  · exact ((((hx.1.mul hy.2.2.1).sub (hx.2.1.mul hy.2.2.2)).addL (hx.2.2.1.mul hy.1) le_rfl (by omega)).addL
      (hx.2.2.2.mul hy.2.1) le_rfl (by omega)).mono (by omega)
      (csP _ _ _ _ _ _ _ _ (by linarith) (by linarith))
  · exact ((((hx.1.mul hy.2.2.2).add (hx.2.1.mul hy.2.2.1)).subL (hx.2.2.1.mul hy.2.1) le_rfl (by omega)).addL
      (hx.2.2.2.mul hy.1) le_rfl (by omega)).mono (by omega)
      (csP _ _ _ _ _ _ _ _ (by linarith) (by linarith))

theorem cs1 {a b : ℝ} (h1 : a ^ 2 ≤ ‖T.toH‖ ^ 2) (h2 : b ^ 2 ≤ ‖B.toH‖ ^ 2) :
    a * b ≤ ‖T.toH‖ * ‖B.toH‖ := by
  have := csP a 0 0 0 b 0 0 0 (T := T) (B := B) (by linarith) (by linarith)
  linarith

theorem cs2' {a b c d : ℝ} (h1 : a ^ 2 + b ^ 2 ≤ ‖T.toH‖ ^ 2) (h2 : c ^ 2 + d ^ 2 ≤ ‖B.toH‖ ^ 2) :
    a * c + b * d ≤ ‖T.toH‖ * ‖B.toH‖ := by
  have := csP a b 0 0 c d 0 0 (T := T) (B := B) (by linarith) (by linarith)
  linarith

/-- facts about the squares of the components -/
theorem sqs (T : Quat ℝ) : ‖T.toH‖ ^ 2 = T.re ^ 2 + T.i ^ 2 + T.j ^ 2 + T.k ^ 2 ∧ 0 ≤ T.re ^ 2 ∧ 0 ≤ T.i ^ 2 ∧
    0 ≤ T.j ^ 2 ∧ 0 ≤ T.k ^ 2 :=
  ⟨norm_sq_toH T, sq_nonneg _, sq_nonneg _, sq_nonneg _, sq_nonneg _⟩

theorem QR.mulL {s' : Scal F} {s : Scal ℝ} (hs : S.SR p s' s T) (hy : S.QR q y' y B) :
    S.QR (p + q + 4) (s'.mulL y') (s.mulL y) (broadcast (‖T.toH‖ * ‖B.toH‖)) := by
  obtain ⟨hT, t0, t1, t2, t3⟩ := sqs T
  obtain ⟨hB, b0, b1, b2, b3⟩ := sqs B
  cases s' <;> cases s <;> first | exact hs.elim | skip
  · refine ⟨?_, ?_, ?_, ?_⟩
    · exact (R.mul hy.1 hs).mono (by omega) (by rw [mul_comm]; exact cs1 (by linarith) (by linarith))
    · exact (R.mul hy.2.1 hs).mono (by omega) (by rw [mul_comm]; exact cs1 (by linarith) (by linarith))
    · exact (R.mul hy.2.2.1 hs).mono (by omega) (by rw [mul_comm]; exact cs1 (by linarith) (by linarith))
    · exact (R.mul hy.2.2.2 hs).mono (by omega) (by rw [mul_comm]; exact cs1 (by linarith) (by linarith))
  · obtain ⟨h0, h1⟩ := hs
    refine ⟨?_, ?_, ?_, ?_⟩
    · exact (R.sub (h0.mul hy.1) (h1.mul hy.2.1)).mono (by omega) (cs2' (by linarith) (by linarith))
    · exact (R.add (h0.mul hy.2.1) (h1.mul hy.1)).mono (by omega) (cs2' (by linarith) (by linarith))
    · exact (R.sub (h0.mul hy.2.2.1) (h1.mul hy.2.2.2)).mono (by omega) (cs2' (by linarith) (by linarith))
    · exact (R.add (h0.mul hy.2.2.2) (h1.mul hy.2.2.1)).mono (by omega) (cs2' (by linarith) (by linarith))
  · exact QR.mul hs hy

theorem QR.mulR {s' : Scal F} {s : Scal ℝ} (hs : S.SR p s' s T) (hy : S.QR q y' y B) :
    S.QR (p + q + 4) (Scal.mulR y' s') (Scal.mulR y s) (broadcast (‖T.toH‖ * ‖B.toH‖)) := by
  obtain ⟨hT, t0, t1, t2, t3⟩ := sqs T
  obtain ⟨hB, b0, b1, b2, b3⟩ := sqs B
  rw [mul_comm ‖T.toH‖]
  cases s' <;> cases s <;> first | exact hs.elim | skip
  · refine ⟨?_, ?_, ?_, ?_⟩
    · exact (R.mul hy.1 hs).mono (by omega) (cs1 (by linarith) (by linarith))
    · exact (R.mul hy.2.1 hs).mono (by omega) (cs1 (by linarith) (by linarith))
    · exact (R.mul hy.2.2.1 hs).mono (by omega) (cs1 (by linarith) (by linarith))
    · exact (R.mul hy.2.2.2 hs).mono (by omega) (cs1 (by linarith) (by linarith))
  · obtain ⟨h0, h1⟩ := hs
    refine ⟨?_, ?_, ?_, ?_⟩
    · exact (R.sub (hy.1.mul h0) (hy.2.1.mul h1)).mono (by omega) (cs2' (by linarith) (by linarith))
    · exact (R.add (hy.1.mul h1) (hy.2.1.mul h0)).mono (by omega) (cs2' (by linarith) (by linarith))
    · exact (R.add (hy.2.2.1.mul h0) (hy.2.2.2.mul h1)).mono (by omega) (cs2' (by linarith) (by linarith))
    · exact (R.sub (hy.2.2.2.mul h0) (hy.2.2.1.mul h1)).mono (by omega) (cs2' (by linarith) (by linarith))
  · have := QR.mul hy hs
    rw [show p + q + 4 = q + p + 4 by omega]
    exact this

theorem SR.mul {s' t' : Scal F} {s t : Scal ℝ} (hs : S.SR p s' s T) (ht : S.SR q t' t U) :
    S.SR (p + q + 4) (s'.mul t') (s.mul t) (broadcast (‖T.toH‖ * ‖U.toH‖)) := by
  obtain ⟨hT, t0, t1, t2, t3⟩ := sqs T
  obtain ⟨hB, b0, b1, b2, b3⟩ := sqs U
  cases t' <;> cases t <;> first | exact ht.elim | skip
  · cases s' <;> cases s <;> first | exact hs.elim | skip
    · exact (R.mul hs ht).mono (by omega) (cs1 (by linarith) (by linarith))
    · exact ⟨(R.mul hs.1 ht).mono (by omega) (cs1 (by linarith) (by linarith)),
        (R.mul hs.2 ht).mono (by omega) (cs1 (by linarith) (by linarith))⟩
    · refine ⟨?_, ?_, ?_, ?_⟩
      · exact (R.mul hs.1 ht).mono (by omega) (cs1 (by linarith) (by linarith))
      · exact (R.mul hs.2.1 ht).mono (by omega) (cs1 (by linarith) (by linarith))
      · exact (R.mul hs.2.2.1 ht).mono (by omega) (cs1 (by linarith) (by linarith))
      · exact (R.mul hs.2.2.2 ht).mono (by omega) (cs1 (by linarith) (by linarith))
  · obtain ⟨g0, g1⟩ := ht
    cases s' <;> cases s <;> first | exact hs.elim | skip
    · exact ⟨(R.mul hs g0).mono (by omega) (cs1 (by linarith) (by linarith)),
        (R.mul hs g1).mono (by omega) (cs1 (by linarith) (by linarith))⟩
    · exact ⟨(R.sub (hs.1.mul g0) (hs.2.mul g1)).mono (by omega) (cs2' (by linarith) (by linarith)),
        (R.add (hs.1.mul g1) (hs.2.mul g0)).mono (by omega) (cs2' (by linarith) (by linarith))⟩
    · refine ⟨?_, ?_, ?_, ?_⟩
      · exact (R.sub (hs.1.mul g0) (hs.2.1.mul g1)).mono (by omega) (cs2' (by linarith) (by linarith))
      · exact (R.add (hs.1.mul g1) (hs.2.1.mul g0)).mono (by omega) (cs2' (by linarith) (by linarith))
      · exact (R.add (hs.2.2.1.mul g0) (hs.2.2.2.mul g1)).mono (by omega) (cs2' (by linarith) (by linarith))
      · exact (R.sub (hs.2.2.2.mul g0) (hs.2.2.1.mul g1)).mono (by omega) (cs2' (by linarith) (by linarith))
  · cases s' <;> cases s <;> first | exact hs.elim | skip
    · exact QR.mulL (s' := .d _) (s := .d _) hs ht
    · exact QR.mulL (s' := .z _) (s := .z _) hs ht
    · exact QR.mul hs ht

theorem QR.addAssign (h : S.QR p x' x (broadcast s)) (g : S.QR q y' y (broadcast t)) (hp : p + 1 ≤ n)
    (hq : q + 1 ≤ n) : S.QR n (Quat.addAssign x' y') (Quat.addAssign x y) (broadcast (s + t)) :=
  ⟨h.1.addL g.1 hp hq, h.2.1.addL g.2.1 hp hq, h.2.2.1.addL g.2.2.1 hp hq, h.2.2.2.addL g.2.2.2 hp hq⟩

theorem QR.zero : S.QR p (Quat.mkReal Arith.zero) (Quat.mkReal 0) (broadcast 0) :=
  ⟨R.zero, R.zero, R.zero, R.zero⟩

/-- portable DOT -/
theorem QR.pDotQ (cj : Bool) (x y : ℕ → Quat F) (K : ℕ) :
    S.QR (4 + K) (Haxx.pDotQ cj x y K)
      (Haxx.pDotQ cj (fun k => (x k).map S.val) (fun k => (y k).map S.val) K)
      (broadcast (∑ k ∈ range K, ‖((x k).map S.val).toH‖ * ‖((y k).map S.val).toH‖)) := by
  induction K with
  | zero => exact QR.zero
  | succ K ih =>
    rw [sum_range_succ]
    refine QR.addAssign ih (q := 4) ?_ (by omega) (by omega)
    cases cj
    · have := QR.mul (S := S) (p := 0) (q := 0) (QR.exact (x K)) (QR.exact (y K))
      rw [norm_abs, norm_abs] at this
      exact this
    · have hc : S.QR 0 (x K).conj ((x K).map S.val).conj (Quat.abs ((x K).map S.val)) :=
        (QR.exact (x K)).conj
      have := QR.mul (S := S) (p := 0) (q := 0) hc (QR.exact (y K))
      rw [norm_abs, norm_abs] at this
      exact this

/-- the template's dot product of a row of op(A) and a column of op(B) -/
theorem QR.pDot {x' : ℕ → Scal F} {y' : ℕ → Quat F} {x : ℕ → Scal ℝ} {y A B : ℕ → Quat ℝ}
    (hx : ∀ k, S.SR 0 (x' k) (x k) (A k)) (hy : ∀ k, S.QR 0 (y' k) (y k) (B k)) (K : ℕ) :
    S.QR (4 + K) (pDot x' y' K) (Haxx.pDot x y K)
      (broadcast (∑ k ∈ range K, ‖(A k).toH‖ * ‖(B k).toH‖)) := by
  induction K with
  | zero => exact QR.zero
  | succ K ih =>
    rw [sum_range_succ]
    exact QR.addAssign ih (QR.mulL (hx K) (hy K)) (by omega) (by omega)

/-- the template's accumulation `c += (ALPHA*x_l)*y_l` -/
theorem QR.pAcc {α : Scal F} {x' : ℕ → Scal F} {y' : ℕ → Quat F} {x : ℕ → Scal ℝ} {y A B : ℕ → Quat ℝ} {c' : Quat F}
    {c : Quat ℝ} (hx : ∀ k, S.SR 0 (x' k) (x k) (A k)) (hy : ∀ k, S.QR 0 (y' k) (y k) (B k))
    (hc : S.QR 8 c' c (broadcast s)) (K : ℕ) :
    S.QR (8 + K) (pAcc α x' y' c' K) (Haxx.pAcc (α.map S.val) x y c K)
      (broadcast (s + ∑ k ∈ range K, 2 * (‖(α.map S.val).toH‖ * ‖(A k).toH‖) * ‖(B k).toH‖)) := by
  induction K with
  | zero => simpa [Haxx.pAcc] using hc
  | succ K ih =>
    rw [sum_range_succ, ← add_assoc s]
    have h := QR.mulL (SR.mul (SR.exact (p := 0) α) (hx K)) (hy K)
    rw [norm_broadcast (by positivity), norm_emb] at h
    exact QR.addAssign (p := 8 + K) (q := 8) ih h (by omega) (by omega)

theorem toH_pDotQ (cj : Bool) (x y : ℕ → Quat ℝ) (K : ℕ) :
    (Haxx.pDotQ cj x y K).toH = ∑ k ∈ range K, (if cj then star (x k).toH else (x k).toH) * (y k).toH := by
  induction K with
  | zero => ext <;> simp [Haxx.pDotQ]
  | succ K ih =>
    rw [sum_range_succ, ← ih, Haxx.pDotQ]
    cases cj
    · ext <;> simp [Quat.addAssign, Quat.mul]
    · ext <;> simp [Quat.addAssign, Quat.mul, Quat.conj]

theorem toH_mulL (s : Scal ℝ) (q : Quat ℝ) : (s.mulL q).toH = s.toH * q.toH := by
  have := toH_scalMul s (.h q)
  cases s <;> simpa [Scal.mul, Scal.mulL, Scal.toH] using this

theorem toH_mulR (s : Scal ℝ) (q : Quat ℝ) : (Scal.mulR q s).toH = q.toH * s.toH := by
  have := toH_scalMul (.h q) s
  cases s <;> simpa [Scal.mul, Scal.mulR, Scal.toH] using this

theorem toH_addAssign (x y : Quat ℝ) : (Quat.addAssign x y).toH = x.toH + y.toH := by
  ext <;> simp [Quat.addAssign]

theorem toH_mkReal0 : (Quat.mkReal (0:ℝ)).toH = 0 := by
  ext <;> simp [Quat.mkReal]

theorem toH_pDot (x : ℕ → Scal ℝ) (y : ℕ → Quat ℝ) (K : ℕ) :
    (Haxx.pDot x y K).toH = ∑ k ∈ range K, (x k).toH * (y k).toH := by
  induction K with
  | zero => exact toH_mkReal0
  | succ K ih => rw [sum_range_succ, ← ih, Haxx.pDot, toH_addAssign, toH_mulL]

theorem toH_pAcc (α : Scal ℝ) (x : ℕ → Scal ℝ) (y : ℕ → Quat ℝ) (c : Quat ℝ) (K : ℕ) :
    (Haxx.pAcc α x y c K).toH = c.toH + α.toH * ∑ k ∈ range K, (x k).toH * (y k).toH := by
  induction K with
  | zero => simp [Haxx.pAcc]
  | succ K ih => rw [sum_range_succ, Haxx.pAcc, toH_addAssign, toH_mulL, toH_scalMul, ih, mul_add, add_assoc, mul_assoc]

variable [ArithEq F]

/-- the tests the template makes on ALPHA and BETA tell the truth about their values -/
structure Truth (S : StdModel F u) (s : Scal F) : Prop where
  zero : s.eqZero = true → (s.map S.val).toH = 0
  one : s.eqOne = true → (s.map S.val).toH = 1

omit [ArithEq F] in
theorem QR.betaC (β : Scal F) (c : Quat F) :
    S.QR 4 (β.mulL c) ((β.map S.val).mulL (c.map S.val)) (broadcast (‖(β.map S.val).toH‖ * ‖(c.map S.val).toH‖)) := by
  have := QR.mulL (S := S) (p := 0) (q := 0) (SR.exact β) (QR.exact c)
  rwa [norm_emb, norm_abs] at this

/-- one entry of the portable GEMM -/
theorem QR.pGemm {tA : Char} {α β : Scal F} {K : Int} {x' : ℕ → Scal F} {y' : ℕ → Quat F} {x : ℕ → Scal ℝ} {y A B : ℕ → Quat ℝ}
    {c : Quat F} (ha : Truth S α) (hb : Truth S β)
    (hx : ∀ k, S.SR 0 (x' k) (x k) (A k)) (hy : ∀ k, S.QR 0 (y' k) (y k) (B k)) :
    ∃ z : Quat ℝ, S.QR (K.toNat + 9) (pGemm tA α β K x' y' c) z
        (broadcast (‖(β.map S.val).toH‖ * ‖(c.map S.val).toH‖ +
          2 * ‖(α.map S.val).toH‖ * ∑ k ∈ range K.toNat, ‖(A k).toH‖ * ‖(B k).toH‖)) ∧
      z.toH = (α.map S.val).toH * (∑ k ∈ range K.toNat, (x k).toH * (y k).toH) +
        (β.map S.val).toH * (c.map S.val).toH := by
  have hs : 0 ≤ 2 * ‖(α.map S.val).toH‖ * ∑ k ∈ range K.toNat, ‖(A k).toH‖ * ‖(B k).toH‖ := by positivity
  have hs2 : 0 ≤ ‖(β.map S.val).toH‖ * ‖(c.map S.val).toH‖ := by positivity
  unfold Haxx.pGemm
  split
  · rename_i e
    simp only [Bool.and_eq_true, Bool.or_eq_true, decide_eq_true_eq] at e
    have hb1 := hb.one e.2
    refine ⟨c.map S.val, (QR.exact c).toNorm.mono (p := 0) (by omega) ?_, ?_⟩
    · rw [hb1]; simpa using hs
    · rw [hb1, one_mul]
      rcases e.1 with e | e
      · rw [ha.zero e, zero_mul, zero_add]
      · rw [e]; simp
  · split
    · rename_i e
      rw [ha.zero e]
      split
      · rename_i e
        refine ⟨Quat.mkReal 0, QR.zero.mono (p := 0) (by omega) (by rw [hb.zero e]; simp), ?_⟩
        rw [hb.zero e, toH_mkReal0]; simp
      · refine ⟨_, (QR.betaC β c).mono (by omega) (by simp), ?_⟩
        rw [toH_mulL]; simp
    · split
      · have hB : ∃ z : Quat ℝ, S.QR 8 (pBeta β c) z (broadcast (‖(β.map S.val).toH‖ * ‖(c.map S.val).toH‖)) ∧
            z.toH = (β.map S.val).toH * (c.map S.val).toH := by
          unfold pBeta
          split
          · rename_i e
            refine ⟨Quat.mkReal 0, QR.zero.mono (p := 0) (by omega) hs2, ?_⟩
            rw [hb.zero e, toH_mkReal0]; simp
          · split
            · exact ⟨_, (QR.betaC β c).le (by omega), toH_mulL _ _⟩
            · rename_i e
              have hb1 := hb.one (by simpa using e)
              refine ⟨c.map S.val, (QR.exact c).toNorm.mono (p := 0) (by omega) ?_, ?_⟩
              · rw [hb1]; simp
              · rw [hb1, one_mul]
        obtain ⟨z, h1, h2⟩ := hB
        refine ⟨_, (QR.pAcc (α := α) hx hy h1 K.toNat).mono (by omega) (le_of_eq ?_), ?_⟩
        · rw [mul_sum]; congr 1; apply sum_congr rfl; intros; ring
        · rw [toH_pAcc, h2, add_comm]
      · have hD := QR.mulL (SR.exact (p := 0) α) (QR.pDot hx hy K.toNat)
        rw [norm_broadcast (by positivity), norm_emb] at hD
        have e2 : ‖(α.map S.val).toH‖ * (2 * ∑ k ∈ range K.toNat, ‖(A k).toH‖ * ‖(B k).toH‖) =
          2 * ‖(α.map S.val).toH‖ * ∑ k ∈ range K.toNat, ‖(A k).toH‖ * ‖(B k).toH‖ := by ring
        rw [e2] at hD
        unfold pStore
        split
        · rename_i e
          refine ⟨_, hD.mono (by omega) (by linarith), ?_⟩
          rw [toH_mulL, toH_pDot, hb.zero e]; simp
        · refine ⟨_, (QR.addAssign hD (QR.betaC β c) (n := K.toNat + 9) (by omega) (by omega)).mono le_rfl
            (le_of_eq (add_comm _ _)), ?_⟩
          rw [toH_addAssign, toH_mulL, toH_mulL, toH_pDot]

end StdModel
end Haxx
