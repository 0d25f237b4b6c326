import Verif.Fin
import Verif.PropsFBits2
import Verif.PropsFBits3
import Verif.PropsFBits4

/-!
# Rounding with overflow and underflow: the routines that test ALPHA and BETA

For each of them, the machine's result is finite and near `z`, whose value is the mathematical result.
-/

set_option linter.unusedSectionVars false

namespace Haxx
open Arith Quaternion Finset

variable {F : Type} [Arith F] [ArithEq F] {u η Ω : ℝ}

/-- the portable tests `== 0.` and `== 1.` of a scalar are right when they succeed -/
structure FinModel.Truth (M : FinModel F u η Ω) (s : Scal F) : Prop where
  zero : s.eqZero = true → (s.map M.val).toH = 0
  one : s.eqOne = true → (s.map M.val).toH = 1

/-- the same for the Fortran tests -/
structure FinModel.FTruth (M : FinModel F u η Ω) (s : Scal F) : Prop where
  zero : s.fIsZero = true → (s.map M.val).toH = 0
  one : s.fIsOne = true → (s.map M.val).toH = 1

theorem FinModel.truth_of {M : FinModel F u η Ω} (h1 : M.val Arith.one = 1)
    (he : ∀ a b : F, ArithEq.feq a b = true → M.val a = M.val b) :
    (∀ a, M.Truth (.d a)) ∧ (∀ a, M.Truth (.z a)) ∧ (∀ a : Quat F, M.val a.k = 0 → M.Truth (.h a)) := by
  have h0 := M.zero_val
  refine ⟨fun a => ⟨fun h => ?_, fun h => ?_⟩, fun a => ⟨fun h => ?_, fun h => ?_⟩,
    fun a hk => ⟨fun h => ?_, fun h => ?_⟩⟩
  · have := he _ _ h
    ext <;> simp [Scal.map, Scal.toH, this, h0]
  · have := he _ _ h
    ext <;> simp [Scal.map, Scal.toH, this, h1]
  · simp only [Scal.eqZero, Bool.and_eq_true] at h
    ext <;> simp [Scal.map, Scal.toH, he _ _ h.1, he _ _ h.2, h0]
  · simp only [Scal.eqOne, Bool.and_eq_true] at h
    ext <;> simp [Scal.map, Scal.toH, he _ _ h.1, he _ _ h.2, h0, h1]
  · simp only [Scal.eqZero, Quat.eqOp, Quat.mkReal, Bool.and_eq_true] at h
    ext <;> simp [Scal.map, Quat.map, Scal.toH, he _ _ h.1.1.1, he _ _ h.1.1.2, he _ _ h.1.2, h0, hk]
  · simp only [Scal.eqOne, Quat.eqOp, Quat.mkReal, Bool.and_eq_true] at h
    ext <;> simp [Scal.map, Quat.map, Scal.toH, he _ _ h.1.1.1, he _ _ h.1.1.2, he _ _ h.1.2, h0, h1, hk]

theorem FinModel.fTruth_of {M : FinModel F u η Ω} (h1 : M.val Arith.one = 1)
    (he : ∀ a b : F, ArithEq.feq a b = true → M.val a = M.val b) (s : Scal F) : M.FTruth s := by
  have h0 := M.zero_val
  cases s with
  | d a =>
    refine ⟨fun h => ?_, fun h => ?_⟩
    · simp only [Scal.fIsZero, Cplx.feq, Cplx.ofReal, Bool.and_eq_true] at h
      ext <;> simp [Scal.map, Scal.toH, he _ _ h.1, h0]
    · simp only [Scal.fIsOne, Cplx.feq, Cplx.ofReal, Bool.and_eq_true] at h
      ext <;> simp [Scal.map, Scal.toH, he _ _ h.1, h1]
  | z a =>
    refine ⟨fun h => ?_, fun h => ?_⟩
    · simp only [Scal.fIsZero, Cplx.feq, Bool.and_eq_true] at h
      ext <;> simp [Scal.map, Scal.toH, he _ _ h.1, he _ _ h.2, h0]
    · simp only [Scal.fIsOne, Cplx.feq, Bool.and_eq_true] at h
      ext <;> simp [Scal.map, Scal.toH, he _ _ h.1, he _ _ h.2, h0, h1]
  | h a =>
    refine ⟨fun h => ?_, fun h => ?_⟩
    · simp only [Scal.fIsZero, Cplx.feq, Quat.lo, Quat.hi, Bool.and_eq_true] at h
      ext <;> simp [Scal.map, Quat.map, Scal.toH, he _ _ h.1.1, he _ _ h.1.2, he _ _ h.2.1, he _ _ h.2.2, h0]
    · simp only [Scal.fIsOne, Cplx.feq, Quat.lo, Quat.hi, Bool.and_eq_true] at h
      ext <;> simp [Scal.map, Quat.map, Scal.toH, he _ _ h.1.1, he _ _ h.1.2, he _ _ h.2.1, he _ _ h.2.2, h0, h1]

namespace Room
variable {I : Room F} {al be : Scal F} {c : Quat F} {K : ℕ} {sa sb sc s t : ℝ}

variable {xs' : ℕ → Scal F} {ys' qs' : ℕ → Quat F} {xs : ℕ → Scal ℝ} {ys qs : ℕ → Quat ℝ}

theorem kOr (K : ℕ) {x p : ℝ} (hx : 1 ≤ x) (hp : 1 ≤ p) : x * (0 + K * (4 * p)) = 0 ∨ 1 ≤ x * (0 + K * (4 * p)) := by
  rcases Nat.eq_zero_or_pos K with k0 | k0
  · left; simp [k0]
  · right
    have : (1:ℝ) ≤ K := by exact_mod_cast k0
    have : 1 ≤ (K : ℝ) * (4 * p) := by nlinarith
    nlinarith

/-- portable GEMM -/
theorem WQ.pGemm {tA : Char} {K : Int} (ha : I.M.Truth al) (hb : I.M.Truth be)
    (hα : I.WS 0 al (al.map I.M.val) sa) (hβ : I.WS 0 be (be.map I.M.val) sb) (hc : I.WQ 0 c (c.map I.M.val) sc)
    (hx : ∀ k, k < K.toNat → I.WS 0 (xs' k) (xs k) s) (hy : ∀ k, k < K.toNat → I.WQ 0 (ys' k) (ys k) t)
    (ha1 : 1 ≤ sa) (hb1 : 1 ≤ sb) (hc1 : 1 ≤ sc) (hs : 1 ≤ s) (ht : 1 ≤ t)
    (hB : 4 * (sb * sc) + K.toNat * (16 * (sa * s * t)) ≤ I.S) (hn : 4 * K.toNat + 8 ≤ I.n) :
    ∃ z : Quat ℝ, I.WQ (4 * K.toNat + 8) (pGemm tA al be K xs' ys' c) z (4 * (sb * sc) + K.toNat * (16 * (sa * s * t))) ∧
      z.toH = (al.map I.M.val).toH * (∑ k ∈ range K.toNat, (xs k).toH * (ys k).toH) + (be.map I.M.val).toH * (c.map I.M.val).toH := by
  have q0 : 1 ≤ s * t := by nlinarith
  have q1 : sc ≤ 4 * (sb * sc) := by nlinarith
  have q1' : 1 ≤ sb * sc := by nlinarith
  have q2 : 0 ≤ sa * s * t := by positivity
  have q3 : (0:ℝ) ≤ K.toNat * (16 * (sa * s * t)) := by positivity
  unfold Haxx.pGemm
  split
  · rename_i e
    simp only [Bool.and_eq_true, Bool.or_eq_true, decide_eq_true_eq] at e
    refine ⟨_, hc.mono (by omega) (by linarith), ?_⟩
    rw [hb.one e.2, one_mul]
    rcases e.1 with e | e
    · rw [ha.zero e, zero_mul, zero_add]
    · rw [e]; simp
  · split
    · rename_i e
      split
      · rename_i e'
        refine ⟨_, WQ.zero.mono (by omega) (by linarith), ?_⟩
        rw [ha.zero e, hb.zero e']
        change (Quat.mkReal (0:ℝ)).toH = _
        rw [StdModel.toH_mkReal0]; simp
      · refine ⟨_, (WQ.mulL hβ hc (.inr q1') (by linarith) (by omega)).mono (by omega) (by linarith), ?_⟩
        rw [ha.zero e, StdModel.toH_mulL]; simp
    · split
      · have hP : ∃ z : Quat ℝ, I.WQ 4 (pBeta be c) z (4 * (sb * sc)) ∧ z.toH = (be.map I.M.val).toH * (c.map I.M.val).toH := by
          unfold pBeta
          split
          · rename_i e
            refine ⟨_, WQ.zero.mono (by omega) (by linarith), ?_⟩
            rw [hb.zero e]
            change (Quat.mkReal (0:ℝ)).toH = _
            rw [StdModel.toH_mkReal0]; simp
          · split
            · exact ⟨_, WQ.mulL (p := 0) (q := 0) hβ hc (.inr q1') (by linarith) (by omega), StdModel.toH_mulL _ _⟩
            · rename_i e
              exact ⟨_, hc.mono (by omega) q1, by rw [hb.one (by simpa using e), one_mul]⟩
        obtain ⟨z, h1, h2⟩ := hP
        exact ⟨_, (WQ.pAcc K.toNat hα h1 hx hy ha1 hs ht hB (by omega)).mono (by omega) le_rfl,
          by rw [StdModel.toH_pAcc, h2, add_comm]⟩
      · have q4 : (K.toNat : ℝ) * (4 * (s * t)) ≤ K.toNat * (16 * (sa * s * t)) := by
          refine mul_le_mul_of_nonneg_left ?_ (by positivity)
          nlinarith
        have q5 : 4 * (sa * (0 + K.toNat * (4 * (s * t)))) = K.toNat * (16 * (sa * s * t)) := by ring
        have hpD : I.WQ (4 * K.toNat + 1) (Haxx.pDot xs' ys' K.toNat) (Haxx.pDot xs ys K.toNat) (0 + K.toNat * (4 * (s * t))) :=
          (WQ.pDot K.toNat hx hy q0 (by linarith) (by omega)).mono (by omega) le_rfl
        have hD : I.WQ (4 * K.toNat + 5) (al.mulL (Haxx.pDot xs' ys' K.toNat)) ((al.map I.M.val).mulL (Haxx.pDot xs ys K.toNat))
            (K.toNat * (16 * (sa * s * t))) :=
          (WQ.mulL hα hpD (kOr K.toNat ha1 q0) (by linarith) (by omega)).mono (by omega) (by linarith)
        unfold pStore
        split
        · rename_i e
          refine ⟨_, hD.mono (by omega) (by linarith), ?_⟩
          rw [StdModel.toH_mulL, StdModel.toH_pDot, hb.zero e]; simp
        · refine ⟨_, (WQ.addAssign hD (WQ.mulL hβ hc (.inr q1') (by linarith) (by omega)) (by linarith) (by omega)).mono (by omega) (by linarith), ?_⟩
          rw [StdModel.toH_addAssign, StdModel.toH_mulL, StdModel.toH_mulL, StdModel.toH_pDot]

theorem WQ.pScale (hb : I.M.Truth be) (hβ : I.WS 0 be (be.map I.M.val) sb) (hc : I.WQ 0 c (c.map I.M.val) sc)
    (hb1 : 1 ≤ sb) (hc1 : 1 ≤ sc) (hB : 4 * (sb * sc) ≤ I.S) (hn : 4 ≤ I.n) :
    ∃ z : Quat ℝ, I.WQ 4 (pScale be c) z (4 * (sb * sc)) ∧ z.toH = (be.map I.M.val).toH * (c.map I.M.val).toH := by
  have q1 : sc ≤ 4 * (sb * sc) := by nlinarith
  have q1' : 1 ≤ sb * sc := by nlinarith
  unfold Haxx.pScale
  split
  · split
    · rename_i e
      refine ⟨_, WQ.zero.mono (by omega) (by linarith), ?_⟩
      rw [hb.zero e]
      change (Quat.mkReal (0:ℝ)).toH = _
      rw [StdModel.toH_mkReal0]; simp
    · exact ⟨_, WQ.mulL (p := 0) (q := 0) hβ hc (.inr q1') (by linarith) (by omega), StdModel.toH_mulL _ _⟩
  · rename_i e
    exact ⟨_, hc.mono (by omega) q1, by rw [hb.one (by simpa using e), one_mul]⟩

/-- portable GEMV -/
theorem WQ.pGemv {tA : Char} (ha : I.M.Truth al) (hb : I.M.Truth be)
    (hα : I.WS 0 al (al.map I.M.val) sa) (hβ : I.WS 0 be (be.map I.M.val) sb) (hc : I.WQ 0 c (c.map I.M.val) sc)
    (hx : ∀ k, k < K → I.WS 0 (xs' k) (xs k) s) (hy : ∀ k, k < K → I.WQ 0 (ys' k) (ys k) t)
    (ha1 : 1 ≤ sa) (hb1 : 1 ≤ sb) (hc1 : 1 ≤ sc) (hs : 1 ≤ s) (ht : 1 ≤ t)
    (hB : 4 * (sb * sc) + K * (48 * (sa * s * t)) ≤ I.S) (hn : 4 * K + 9 ≤ I.n) :
    ∃ z : Quat ℝ, I.WQ (4 * K + 9) (pGemv tA al be K xs' ys' c) z (4 * (sb * sc) + K * (48 * (sa * s * t))) ∧
      z.toH = (al.map I.M.val).toH * (∑ k ∈ range K, (xs k).toH * (ys k).toH) + (be.map I.M.val).toH * (c.map I.M.val).toH := by
  have q1 : sc ≤ 4 * (sb * sc) := by nlinarith
  have q0 : 1 ≤ s * t := by nlinarith
  have q2 : 0 ≤ sa * s * t := by positivity
  have q3 : (0:ℝ) ≤ K * (48 * (sa * s * t)) := by positivity
  obtain ⟨z, h1, h2⟩ := WQ.pScale hb hβ hc hb1 hc1 (by linarith) (by omega)
  unfold Haxx.pGemv
  split
  · rename_i e
    simp only [Bool.and_eq_true] at e
    refine ⟨_, hc.mono (by omega) (by linarith), ?_⟩
    rw [hb.one e.2, ha.zero e.1]; simp
  · split
    · rename_i e
      exact ⟨z, h1.mono (by omega) (by linarith), by rw [h2, ha.zero e]; simp⟩
    · split
      · exact ⟨_, (WQ.pAxpys K hα h1 hx hy ha1 hs ht hB (by omega)).mono (by omega) le_rfl,
          by rw [StdModel.toH_pAxpys, h2, add_comm]⟩
      · have q4 : (K : ℝ) * (4 * (s * t)) ≤ K * (48 * (sa * s * t)) := by
          refine mul_le_mul_of_nonneg_left ?_ (by positivity)
          nlinarith
        have q5 : 4 * (sa * (0 + K * (4 * (s * t)))) = K * (16 * (sa * s * t)) := by ring
        have q6 : (K : ℝ) * (16 * (sa * s * t)) ≤ K * (48 * (sa * s * t)) := by
          refine mul_le_mul_of_nonneg_left ?_ (by positivity)
          linarith
        have hD := WQ.mulL hα (WQ.pDot K hx hy q0 (by linarith) (by omega)) (kOr K ha1 q0) (by linarith) (by omega)
        rw [q5] at hD
        refine ⟨_, (WQ.addAssign h1 hD (by linarith) (by omega)).mono (by omega) (by linarith), ?_⟩
        rw [StdModel.toH_addAssign, StdModel.toH_mulL, StdModel.toH_pDot, h2, add_comm]

/-- portable GERU and GERC -/
theorem WQ.pGer (conjY : Bool) {x y a : Quat F} {sx sy : ℝ} (ha : I.M.Truth al)
    (h0 : Quat.neOp y (Quat.mkReal Arith.zero) = false → (y.map I.M.val).toH = 0)
    (hα : I.WS 0 al (al.map I.M.val) sa) (hx : I.WQ 0 x (x.map I.M.val) sx) (hy : I.WQ 0 y (y.map I.M.val) sy)
    (hc : I.WQ 0 a (a.map I.M.val) sc) (ha1 : 1 ≤ sa) (hx1 : 1 ≤ sx) (hy1 : 1 ≤ sy)
    (hB : sc + 16 * (sa * sx * sy) ≤ I.S) (hn : 9 ≤ I.n) :
    ∃ z : Quat ℝ, I.WQ 9 (pGer conjY al x y a) z (sc + 16 * (sa * sx * sy)) ∧
      z.toH = (a.map I.M.val).toH + (al.map I.M.val).toH * (x.map I.M.val).toH *
        (if conjY then star (y.map I.M.val).toH else (y.map I.M.val).toH) := by
  have c0 := hc.nonneg
  have q1 : 1 ≤ sa * sx := by nlinarith
  have q2 : sa * sx ≤ sa * sx * sy := by nlinarith
  unfold Haxx.pGer
  split
  · rename_i e
    exact ⟨_, hc.mono (by omega) (by linarith), by rw [ha.zero e]; simp⟩
  · split
    · have hz : ∃ z : Quat ℝ, I.WQ 0 (if conjY then y.conj else y) z sy ∧
          z.toH = (if conjY then star (y.map I.M.val).toH else (y.map I.M.val).toH) := by
        cases conjY
        · exact ⟨_, hy, rfl⟩
        · exact ⟨_, hy.conj, toH_qconj256 _⟩
      obtain ⟨z, hz, ez⟩ := hz
      have hm := WQ.mul (WQ.mulL hα hx (.inr q1) (by linarith) (by omega)) hz (.inr (by linarith)) (by linarith) (by omega)
      refine ⟨_, (WQ.addAssign hc hm (by linarith) (by omega)).mono (by omega) (by linarith), ?_⟩
      rw [StdModel.toH_addAssign, Haxx.toH_mul, StdModel.toH_mulL, ez]
    · rename_i e
      refine ⟨_, hc.mono (by omega) (by linarith), ?_⟩
      rw [h0 (by simpa using e)]; simp

theorem WQ.fBeta (hb : I.M.FTruth be) (hβ : I.WS 0 be (be.map I.M.val) sb) (hc : I.WQ 0 c (c.map I.M.val) sc)
    (hb1 : 1 ≤ sb) (hc1 : 1 ≤ sc) (hB : 4 * (sb * sc) ≤ I.S) (hn : 4 ≤ I.n) :
    ∃ z : Quat ℝ, I.WQ 4 (fBetaV be c) z (4 * (sb * sc)) ∧ z.toH = (be.map I.M.val).toH * (c.map I.M.val).toH := by
  have q1 : sc ≤ 4 * (sb * sc) := by nlinarith
  have q1' : 1 ≤ sb * sc := by nlinarith
  unfold fBetaV
  split
  · rename_i e
    exact ⟨_, hc.mono (by omega) q1, by rw [hb.one (by simpa using e), one_mul]⟩
  · split
    · rename_i e
      exact ⟨_, WQ.fZero.mono (by omega) (by linarith), by rw [hb.zero e, toH_fZero]; simp⟩
    · exact ⟨_, WQ.fScal (p := 0) (q := 0) hβ hc (.inr q1') (by linarith) (by omega), toH_fScal _ _⟩

/-- Fortran GEMV -/
theorem WQ.fGemv {tt : FTrans} (ha : I.M.FTruth al) (hb : I.M.FTruth be)
    (hα : I.WS 0 al (al.map I.M.val) sa) (hβ : I.WS 0 be (be.map I.M.val) sb) (hc : I.WQ 0 c (c.map I.M.val) sc)
    (hx : ∀ k, k < K → I.WQ 0 (qs' k) (qs k) s) (hy : ∀ k, k < K → I.WQ 0 (ys' k) (ys k) t)
    (ha1 : 1 ≤ sa) (hb1 : 1 ≤ sb) (hc1 : 1 ≤ sc) (hs : 1 ≤ s) (ht : 1 ≤ t)
    (hB : 4 * (sb * sc) + K * (16 * (sa * s * t)) ≤ I.S) (hn : 4 * K + 8 ≤ I.n) :
    ∃ z : Quat ℝ, I.WQ (4 * K + 8) (fGemv tt al be K qs' ys' c) z (4 * (sb * sc) + K * (16 * (sa * s * t))) ∧
      z.toH = (al.map I.M.val).toH * (∑ k ∈ range K, tt.cj (qs k).toH * (ys k).toH) + (be.map I.M.val).toH * (c.map I.M.val).toH := by
  have q0 : 1 ≤ s * t := by nlinarith
  have q1 : 0 ≤ sb * sc := by positivity
  have q2 : 0 ≤ sa * s * t := by positivity
  have q3 : (0:ℝ) ≤ K * (16 * (sa * s * t)) := by positivity
  obtain ⟨z, h1, h2⟩ := WQ.fBeta hb hβ hc hb1 hc1 (by linarith) (by omega)
  unfold Haxx.fGemv
  split
  · rename_i e
    exact ⟨z, h1.mono (by omega) (by linarith), by rw [h2, ha.zero e]; simp⟩
  · have hT : ∀ r, r ≠ FTrans.N → ∃ z : Quat ℝ, I.WQ (4 * K + 8) (Haxx.fAddBeta al (fBetaV be c) (Haxx.fAccs r .N qs' ys' K)) z
        (4 * (sb * sc) + K * (16 * (sa * s * t))) ∧
        z.toH = (al.map I.M.val).toH * (∑ k ∈ range K, r.cj (qs k).toH * (ys k).toH) + (be.map I.M.val).toH * (c.map I.M.val).toH := by
      intro r hr
      have q4 : (K : ℝ) * (4 * (s * t)) ≤ K * (16 * (sa * s * t)) := by
        refine mul_le_mul_of_nonneg_left ?_ (by positivity)
        nlinarith
      have q5 : 4 * (sa * (0 + K * (4 * (s * t)))) = K * (16 * (sa * s * t)) := by ring
      have hD := WQ.fAccs r .N K hx hy q0 (by linarith) (by omega)
      refine ⟨_, (WQ.fAddBeta hα h1 hD (kOr K ha1 q0) (by linarith) (by omega)).mono (by omega) (by linarith), ?_⟩
      rw [toH_fAddBeta, toH_fAccs r .N hr, h2, add_comm]
      rfl
    cases tt
    · refine ⟨_, (WQ.fSteps .N K hα hx hy h1 ha1 hs ht hB (by omega)).mono (by omega) le_rfl, ?_⟩
      rw [toH_fSteps, h2, add_comm]
      rfl
    · exact hT _ (by decide)
    · exact hT _ (by decide)

/-- Fortran GERU (`conjY = false`) and GERC -/
theorem WQ.fGer (conjY : Bool) {x y a : Quat F} {sx sy : ℝ}
    (he : ∀ a b : F, ArithEq.feq a b = true → I.M.val a = I.M.val b)
    (hα : I.WS 0 al (al.map I.M.val) sa) (hx : I.WQ 0 x (x.map I.M.val) sx) (hy : I.WQ 0 y (y.map I.M.val) sy)
    (hc : I.WQ 0 a (a.map I.M.val) sc) (ha1 : 1 ≤ sa) (hx1 : 1 ≤ sx) (hy1 : 1 ≤ sy)
    (hB : sc + 16 * (sa * sx * sy) ≤ I.S) (hn : 12 ≤ I.n) :
    ∃ z : Quat ℝ, I.WQ 12 (fGer (if conjY then .C else .N) al x y a) z (sc + 16 * (sa * sx * sy)) ∧
      z.toH = (a.map I.M.val).toH + (al.map I.M.val).toH * (x.map I.M.val).toH *
        (if conjY then star (y.map I.M.val).toH else (y.map I.M.val).toH) := by
  have h0 := I.M.zero_val
  have c0 := hc.nonneg
  have q1 := mul_nonneg (mul_nonneg hα.nonneg hx.nonneg) hy.nonneg
  unfold Haxx.fGer
  split
  · rename_i e
    refine ⟨_, hc.mono (by omega) (by linarith), ?_⟩
    rw [Bool.or_eq_true] at e
    rcases e with e | e
    · have : (al.map I.M.val).toH = 0 := by
        cases al with
        | d a =>
          change ArithEq.feq _ _ = true at e
          ext <;> simp [Scal.map, Scal.toH, he _ _ e, h0]
        | z a =>
          simp only [Scal.gIsZero, Cplx.feq, Bool.and_eq_true] at e
          ext <;> simp [Scal.map, Scal.toH, he _ _ e.1, he _ _ e.2, h0]
        | h a =>
          simp only [Scal.gIsZero, Cplx.feq, Quat.lo, Quat.hi, Bool.and_eq_true] at e
          ext <;> simp [Scal.map, Quat.map, Scal.toH, he _ _ e.1.1, he _ _ e.1.2, he _ _ e.2.1, he _ _ e.2.2, h0]
      rw [this, zero_mul, zero_mul, add_zero]
    · have : (y.map I.M.val).toH = 0 := by
        simp only [Quat.fIsZero, Cplx.feq, Quat.lo, Quat.hi, Bool.and_eq_true] at e
        ext <;> simp [Quat.map, he _ _ e.1.1, he _ _ e.1.2, he _ _ e.2.1, he _ _ e.2.2, h0]
      rw [this, star_zero, ite_self, mul_zero, add_zero]
  · refine ⟨_, (WQ.fStep _ hα hx hy hc ha1 hx1 hy1 hB (by omega)).mono (by omega) le_rfl, ?_⟩
    rw [toH_fStep, ← mul_assoc]
    cases conjY <;> rfl

/-- Fortran GEMM -/
theorem WQ.fGemm {ta tb : FTrans} {K : Int} (ha : I.M.FTruth al) (hb : I.M.FTruth be)
    (hα : I.WS 0 al (al.map I.M.val) sa) (hβ : I.WS 0 be (be.map I.M.val) sb) (hc : I.WQ 0 c (c.map I.M.val) sc)
    (hx : ∀ k, k < K.toNat → I.WQ 0 (qs' k) (qs k) s) (hy : ∀ k, k < K.toNat → I.WQ 0 (ys' k) (ys k) t)
    (ha1 : 1 ≤ sa) (hb1 : 1 ≤ sb) (hc1 : 1 ≤ sc) (hs : 1 ≤ s) (ht : 1 ≤ t)
    (hB : 4 * (sb * sc) + K.toNat * (16 * (sa * s * t)) ≤ I.S) (hn : 4 * K.toNat + 9 ≤ I.n) :
    ∃ z : Quat ℝ, I.WQ (4 * K.toNat + 9) (fGemm ta tb al be K qs' ys' c) z (4 * (sb * sc) + K.toNat * (16 * (sa * s * t))) ∧
      z.toH = (al.map I.M.val).toH * (∑ k ∈ range K.toNat, ta.cj (qs k).toH * tb.cj (ys k).toH) +
        (be.map I.M.val).toH * (c.map I.M.val).toH := by
  have q0 : 1 ≤ s * t := by nlinarith
  have q1 : sc ≤ 4 * (sb * sc) := by nlinarith
  have q1' : 1 ≤ sb * sc := by nlinarith
  have q2 : 0 ≤ sa * s * t := by positivity
  have q3 : (0:ℝ) ≤ K.toNat * (16 * (sa * s * t)) := by positivity
  unfold Haxx.fGemm
  split
  · rename_i e
    simp only [Bool.and_eq_true, Bool.or_eq_true, decide_eq_true_eq] at e
    refine ⟨_, hc.mono (by omega) (by linarith), ?_⟩
    rw [hb.one e.2, one_mul]
    rcases e.1 with e | e
    · rw [ha.zero e, zero_mul, zero_add]
    · rw [e]; simp
  · split
    · rename_i e
      split
      · rename_i e'
        exact ⟨_, WQ.fZero.mono (by omega) (by linarith), by rw [ha.zero e, hb.zero e', toH_fZero]; simp⟩
      · exact ⟨_, (WQ.fScal hβ hc (.inr q1') (by linarith) (by omega)).mono (by omega) (by linarith),
          by rw [ha.zero e, toH_fScal]; simp⟩
    · unfold fMain
      have hT : ∀ r, r ≠ FTrans.N → ∃ z : Quat ℝ, I.WQ (4 * K.toNat + 9)
          (if be.fIsZero then Haxx.fAlpha al (Haxx.fAccs r tb qs' ys' K.toNat) else
            Haxx.fAddBeta be (Haxx.fAlpha al (Haxx.fAccs r tb qs' ys' K.toNat)) c) z
          (4 * (sb * sc) + K.toNat * (16 * (sa * s * t))) ∧
          z.toH = (al.map I.M.val).toH * (∑ k ∈ range K.toNat, r.cj (qs k).toH * tb.cj (ys k).toH) +
            (be.map I.M.val).toH * (c.map I.M.val).toH := by
        intro r hr
        have q4 : (K.toNat : ℝ) * (4 * (s * t)) ≤ K.toNat * (16 * (sa * s * t)) := by
          refine mul_le_mul_of_nonneg_left ?_ (by positivity)
          nlinarith
        have q5 : 4 * (sa * (0 + K.toNat * (4 * (s * t)))) = K.toNat * (16 * (sa * s * t)) := by ring
        have hD := WQ.fAlpha hα (WQ.fAccs r tb K.toNat hx hy q0 (by linarith) (by omega)) (kOr K.toNat ha1 q0) (by linarith) (by omega)
        rw [q5] at hD
        split
        · rename_i e
          refine ⟨_, hD.mono (by omega) (by linarith), ?_⟩
          rw [toH_fAlpha, toH_fAccs r tb hr, hb.zero e]; simp
        · refine ⟨_, (WQ.fAddBeta hβ hD hc (.inr q1') (by linarith) (by omega)).mono (by omega) (by linarith), ?_⟩
          rw [toH_fAddBeta, toH_fAlpha, toH_fAccs r tb hr]
      cases ta
      · have hP : ∃ z : Quat ℝ, I.WQ 4 (Haxx.fBeta be.fIsZero be.fIsOne be c) z (4 * (sb * sc)) ∧
            z.toH = (be.map I.M.val).toH * (c.map I.M.val).toH := by
          unfold Haxx.fBeta
          split
          · rename_i e
            exact ⟨_, WQ.fZero.mono (by omega) (by linarith), by rw [hb.zero e, toH_fZero]; simp⟩
          · split
            · rename_i e
              exact ⟨_, hc.mono (by omega) q1, by rw [hb.one (by simpa using e), one_mul]⟩
            · exact ⟨_, WQ.fScal (p := 0) (q := 0) hβ hc (.inr q1') (by linarith) (by omega), toH_fScal _ _⟩
        obtain ⟨z, h1, h2⟩ := hP
        refine ⟨_, (WQ.fSteps tb K.toNat hα hx hy h1 ha1 hs ht hB (by omega)).mono (by omega) le_rfl, ?_⟩
        rw [toH_fSteps, h2, add_comm]
        rfl
      · exact hT _ (by decide)
      · exact hT _ (by decide)

end Room
end Haxx
