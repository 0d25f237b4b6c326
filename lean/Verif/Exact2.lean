import Verif.Exact
import Verif.PropsFBits2
import Verif.PropsFBits3
import Verif.PropsFBits4

/-!
# Integer data: the routines that test ALPHA and BETA

For each of them, the machine's result is the exact one (`z`), whose value is the mathematical one.
-/

set_option linter.unusedSectionVars false

namespace Haxx
open Arith Quaternion Finset

variable {F : Type} [Arith F] [ArithEq F] {u B : ℝ}

namespace IntModel
variable {I : IntModel F u B} {al be : Scal F} {c : Quat F} {K : ℕ} {sa sb sc s t : ℝ}

variable {xs' : ℕ → Scal F} {ys' qs' : ℕ → Quat F} {xs : ℕ → Scal ℝ} {ys qs : ℕ → Quat ℝ}

/-- portable GEMM -/
theorem EQ.pGemm {tA : Char} {K : Int} (ha : StdModel.Truth I.toStdModel al) (hb : StdModel.Truth I.toStdModel be)
    (hα : I.ES al (al.map I.val) sa) (hβ : I.ES be (be.map I.val) sb) (hc : I.EQ c (c.map I.val) sc)
    (hx : ∀ k, k < K.toNat → I.ES (xs' k) (xs k) s) (hy : ∀ k, k < K.toNat → I.EQ (ys' k) (ys k) t)
    (ha1 : 1 ≤ sa) (hb1 : 1 ≤ sb) (hs : 0 ≤ s) (ht : 1 ≤ t) (hB : 4 * (sb * sc) + K.toNat * (16 * (sa * s * t)) ≤ B) :
    ∃ z : Quat ℝ, I.EQ (pGemm tA al be K xs' ys' c) z (4 * (sb * sc) + K.toNat * (16 * (sa * s * t))) ∧
      z.toH = (al.map I.val).toH * (∑ k ∈ range K.toNat, (xs k).toH * (ys k).toH) + (be.map I.val).toH * (c.map I.val).toH := by
  have a0 := hα.nonneg
  have c0 := hc.nonneg
  have q1 : sc ≤ 4 * (sb * sc) := by nlinarith
  have q2 : 0 ≤ sa * s * t := mul_nonneg (mul_nonneg a0 hs) (by linarith)
  have q3 : (0:ℝ) ≤ K.toNat * (16 * (sa * s * t)) := by positivity
  unfold Haxx.pGemm
  split
  · rename_i e
    simp only [Bool.and_eq_true, Bool.or_eq_true, decide_eq_true_eq] at e
    refine ⟨_, hc.mono (by linarith), ?_⟩
    rw [hb.one e.2, one_mul]
    rcases e.1 with e | e
    · rw [ha.zero e, zero_mul, zero_add]
    · rw [e]; simp
  · split
    · rename_i e
      split
      · rename_i e'
        refine ⟨_, EQ.zero.mono (by linarith), ?_⟩
        rw [ha.zero e, hb.zero e']
        change (Quat.mkReal (0:ℝ)).toH = _
        rw [StdModel.toH_mkReal0]; simp
      · refine ⟨_, (EQ.mulL hβ hc (by linarith)).mono (by linarith), ?_⟩
        rw [ha.zero e, StdModel.toH_mulL]; simp
    · split
      · have hP : ∃ z : Quat ℝ, I.EQ (pBeta be c) z (4 * (sb * sc)) ∧ z.toH = (be.map I.val).toH * (c.map I.val).toH := by
          unfold pBeta
          split
          · rename_i e
            refine ⟨_, EQ.zero.mono (by linarith), ?_⟩
            rw [hb.zero e]
            change (Quat.mkReal (0:ℝ)).toH = _
            rw [StdModel.toH_mkReal0]; simp
          · split
            · exact ⟨_, EQ.mulL hβ hc (by linarith), StdModel.toH_mulL _ _⟩
            · rename_i e
              exact ⟨_, hc.mono q1, by rw [hb.one (by simpa using e), one_mul]⟩
        obtain ⟨z, h1, h2⟩ := hP
        exact ⟨_, EQ.pAcc K.toNat hα h1 hx hy hs ht hB, by rw [StdModel.toH_pAcc, h2, add_comm]⟩
      · have q0 : 0 ≤ s * t := mul_nonneg hs (by linarith)
        have q4 : (K.toNat : ℝ) * (4 * (s * t)) ≤ K.toNat * (16 * (sa * s * t)) := by
          refine mul_le_mul_of_nonneg_left ?_ (by positivity)
          nlinarith
        have q5 : 4 * (sa * (0 + K.toNat * (4 * (s * t)))) = K.toNat * (16 * (sa * s * t)) := by ring
        have hD := EQ.mulL hα (EQ.pDot K.toNat hx hy q0 (by linarith)) (by linarith)
        rw [q5] at hD
        unfold pStore
        split
        · rename_i e
          refine ⟨_, hD.mono (by linarith), ?_⟩
          rw [StdModel.toH_mulL, StdModel.toH_pDot, hb.zero e]; simp
        · refine ⟨_, (EQ.addAssign hD (EQ.mulL hβ hc (by linarith)) (by linarith)).mono (by linarith), ?_⟩
          rw [StdModel.toH_addAssign, StdModel.toH_mulL, StdModel.toH_mulL, StdModel.toH_pDot]

theorem EQ.pScale (hb : StdModel.Truth I.toStdModel be) (hβ : I.ES be (be.map I.val) sb) (hc : I.EQ c (c.map I.val) sc)
    (hb1 : 1 ≤ sb) (hB : 4 * (sb * sc) ≤ B) :
    ∃ z : Quat ℝ, I.EQ (pScale be c) z (4 * (sb * sc)) ∧ z.toH = (be.map I.val).toH * (c.map I.val).toH := by
  have c0 := hc.nonneg
  have q1 : sc ≤ 4 * (sb * sc) := by nlinarith
  unfold Haxx.pScale
  split
  · split
    · rename_i e
      refine ⟨_, EQ.zero.mono (by linarith), ?_⟩
      rw [hb.zero e]
      change (Quat.mkReal (0:ℝ)).toH = _
      rw [StdModel.toH_mkReal0]; simp
    · exact ⟨_, EQ.mulL hβ hc (by linarith), StdModel.toH_mulL _ _⟩
  · rename_i e
    exact ⟨_, hc.mono q1, by rw [hb.one (by simpa using e), one_mul]⟩

/-- portable GEMV -/
theorem EQ.pGemv {tA : Char} (ha : StdModel.Truth I.toStdModel al) (hb : StdModel.Truth I.toStdModel be)
    (hα : I.ES al (al.map I.val) sa) (hβ : I.ES be (be.map I.val) sb) (hc : I.EQ c (c.map I.val) sc)
    (hx : ∀ k, k < K → I.ES (xs' k) (xs k) s) (hy : ∀ k, k < K → I.EQ (ys' k) (ys k) t)
    (ha1 : 1 ≤ sa) (hb1 : 1 ≤ sb) (hs : 1 ≤ s) (ht : 1 ≤ t) (hB : 4 * (sb * sc) + K * (48 * (sa * s * t)) ≤ B) :
    ∃ z : Quat ℝ, I.EQ (pGemv tA al be K xs' ys' c) z (4 * (sb * sc) + K * (48 * (sa * s * t))) ∧
      z.toH = (al.map I.val).toH * (∑ k ∈ range K, (xs k).toH * (ys k).toH) + (be.map I.val).toH * (c.map I.val).toH := by
  have c0 := hc.nonneg
  have q1 : sc ≤ 4 * (sb * sc) := by nlinarith
  have q0 : 0 ≤ s * t := by nlinarith
  have q2 : 0 ≤ sa * s * t := by positivity
  have q3 : (0:ℝ) ≤ K * (48 * (sa * s * t)) := by positivity
  obtain ⟨z, h1, h2⟩ := EQ.pScale hb hβ hc hb1 (by linarith)
  unfold Haxx.pGemv
  split
  · rename_i e
    simp only [Bool.and_eq_true] at e
    refine ⟨_, hc.mono (by linarith), ?_⟩
    rw [hb.one e.2, ha.zero e.1]; simp
  · split
    · rename_i e
      exact ⟨z, h1.mono (by linarith), by rw [h2, ha.zero e]; simp⟩
    · split
      · exact ⟨_, EQ.pAxpys K hα h1 hx hy hs ht hB, by rw [StdModel.toH_pAxpys, h2, add_comm]⟩
      · have q4 : (K : ℝ) * (4 * (s * t)) ≤ K * (48 * (sa * s * t)) := by
          refine mul_le_mul_of_nonneg_left ?_ (by positivity)
          nlinarith
        have q5 : 4 * (sa * (0 + K * (4 * (s * t)))) = K * (16 * (sa * s * t)) := by ring
        have q6 : (K : ℝ) * (16 * (sa * s * t)) ≤ K * (48 * (sa * s * t)) := by
          refine mul_le_mul_of_nonneg_left ?_ (by positivity)
          linarith
        have hD := EQ.mulL hα (EQ.pDot K hx hy q0 (by linarith)) (by linarith)
        rw [q5] at hD
        refine ⟨_, (EQ.addAssign h1 hD (by linarith)).mono (by linarith), ?_⟩
        rw [StdModel.toH_addAssign, StdModel.toH_mulL, StdModel.toH_pDot, h2, add_comm]

/-- portable GERU and GERC -/
theorem EQ.pGer (conjY : Bool) {x y a : Quat F} {sx sy : ℝ} (ha : StdModel.Truth I.toStdModel al)
    (h0 : Quat.neOp y (Quat.mkReal Arith.zero) = false → (y.map I.val).toH = 0)
    (hα : I.ES al (al.map I.val) sa) (hx : I.EQ x (x.map I.val) sx) (hy : I.EQ y (y.map I.val) sy)
    (hc : I.EQ a (a.map I.val) sc) (hy1 : 1 ≤ sy) (hB : sc + 16 * (sa * sx * sy) ≤ B) :
    ∃ z : Quat ℝ, I.EQ (pGer conjY al x y a) z (sc + 16 * (sa * sx * sy)) ∧
      z.toH = (a.map I.val).toH + (al.map I.val).toH * (x.map I.val).toH *
        (if conjY then star (y.map I.val).toH else (y.map I.val).toH) := by
  have a0 := hα.nonneg
  have c0 := hc.nonneg
  have q1 := mul_nonneg a0 hx.nonneg
  have q2 : sa * sx ≤ sa * sx * sy := by nlinarith
  unfold Haxx.pGer
  split
  · rename_i e
    exact ⟨_, hc.mono (by linarith), by rw [ha.zero e]; simp⟩
  · split
    · have hz : ∃ z : Quat ℝ, I.EQ (if conjY then y.conj else y) z sy ∧
          z.toH = (if conjY then star (y.map I.val).toH else (y.map I.val).toH) := by
        cases conjY
        · exact ⟨_, hy, rfl⟩
        · exact ⟨_, hy.conj, toH_qconj256 _⟩
      obtain ⟨z, hz, ez⟩ := hz
      have hm := EQ.mul (EQ.mulL hα hx (by linarith)) hz (by linarith)
      refine ⟨_, (EQ.addAssign hc hm (by linarith)).mono (by linarith), ?_⟩
      rw [StdModel.toH_addAssign, Haxx.toH_mul, StdModel.toH_mulL, ez]
    · rename_i e
      refine ⟨_, hc.mono (by linarith), ?_⟩
      rw [h0 (by simpa using e)]; simp

theorem EQ.fBeta (hb : StdModel.FTruth I.toStdModel be) (hβ : I.ES be (be.map I.val) sb) (hc : I.EQ c (c.map I.val) sc)
    (hb1 : 1 ≤ sb) (hB : 4 * (sb * sc) ≤ B) :
    ∃ z : Quat ℝ, I.EQ (fBetaV be c) z (4 * (sb * sc)) ∧ z.toH = (be.map I.val).toH * (c.map I.val).toH := by
  have c0 := hc.nonneg
  have q1 : sc ≤ 4 * (sb * sc) := by nlinarith
  unfold fBetaV
  split
  · rename_i e
    exact ⟨_, hc.mono q1, by rw [hb.one (by simpa using e), one_mul]⟩
  · split
    · rename_i e
      exact ⟨_, EQ.fZero.mono (by linarith), by rw [hb.zero e, toH_fZero]; simp⟩
    · exact ⟨_, EQ.fScal hβ hc (by linarith), toH_fScal _ _⟩

/-- Fortran GEMV -/
theorem EQ.fGemv {tt : FTrans} (ha : StdModel.FTruth I.toStdModel al) (hb : StdModel.FTruth I.toStdModel be)
    (hα : I.ES al (al.map I.val) sa) (hβ : I.ES be (be.map I.val) sb) (hc : I.EQ c (c.map I.val) sc)
    (hx : ∀ k, k < K → I.EQ (qs' k) (qs k) s) (hy : ∀ k, k < K → I.EQ (ys' k) (ys k) t)
    (ha1 : 1 ≤ sa) (hb1 : 1 ≤ sb) (hs : 1 ≤ s) (ht : 1 ≤ t) (hB : 4 * (sb * sc) + K * (16 * (sa * s * t)) ≤ B) :
    ∃ z : Quat ℝ, I.EQ (fGemv tt al be K qs' ys' c) z (4 * (sb * sc) + K * (16 * (sa * s * t))) ∧
      z.toH = (al.map I.val).toH * (∑ k ∈ range K, tt.cj (qs k).toH * (ys k).toH) + (be.map I.val).toH * (c.map I.val).toH := by
  have c0 := hc.nonneg
  have q0 : 0 ≤ s * t := by nlinarith
  have q1 : 0 ≤ sb * sc := by positivity
  have q2 : 0 ≤ sa * s * t := by positivity
  have q3 : (0:ℝ) ≤ K * (16 * (sa * s * t)) := by positivity
  obtain ⟨z, h1, h2⟩ := EQ.fBeta hb hβ hc hb1 (by linarith)
  unfold Haxx.fGemv
  split
  · rename_i e
    exact ⟨z, h1.mono (by linarith), by rw [h2, ha.zero e]; simp⟩
  · have hT : ∀ r, r ≠ FTrans.N → ∃ z : Quat ℝ, I.EQ (Haxx.fAddBeta al (fBetaV be c) (Haxx.fAccs r .N qs' ys' K)) z
        (4 * (sb * sc) + K * (16 * (sa * s * t))) ∧
        z.toH = (al.map I.val).toH * (∑ k ∈ range K, r.cj (qs k).toH * (ys k).toH) + (be.map I.val).toH * (c.map I.val).toH := by
      intro r hr
      have q4 : (K : ℝ) * (4 * (s * t)) ≤ K * (16 * (sa * s * t)) := by
        refine mul_le_mul_of_nonneg_left ?_ (by positivity)
        nlinarith
      have q5 : 4 * (sa * (0 + K * (4 * (s * t)))) = K * (16 * (sa * s * t)) := by ring
      have hD := EQ.fAccs r .N K hx hy q0 (by linarith)
      refine ⟨_, (EQ.fAddBeta hα h1 hD (by linarith)).mono (by linarith), ?_⟩
      rw [toH_fAddBeta, toH_fAccs r .N hr, h2, add_comm]
      rfl
    cases tt
    · refine ⟨_, EQ.fSteps .N K hα hx hy h1 hs (by linarith) hB, ?_⟩
      rw [toH_fSteps, h2, add_comm]
      rfl
    · exact hT _ (by decide)
    · exact hT _ (by decide)

/-- Fortran GERU (`conjY = false`) and GERC -/
theorem EQ.fGer (conjY : Bool) {x y a : Quat F} {sx sy : ℝ}
    (he : ∀ a b : F, ArithEq.feq a b = true → I.val a = I.val b)
    (hα : I.ES al (al.map I.val) sa) (hx : I.EQ x (x.map I.val) sx) (hy : I.EQ y (y.map I.val) sy)
    (hc : I.EQ a (a.map I.val) sc) (hx1 : 1 ≤ sx) (hB : sc + 16 * (sa * sx * sy) ≤ B) :
    ∃ z : Quat ℝ, I.EQ (fGer (if conjY then .C else .N) al x y a) z (sc + 16 * (sa * sx * sy)) ∧
      z.toH = (a.map I.val).toH + (al.map I.val).toH * (x.map I.val).toH *
        (if conjY then star (y.map I.val).toH else (y.map I.val).toH) := by
  have h0 := I.zero_val
  have c0 := hc.nonneg
  have q1 := mul_nonneg (mul_nonneg hα.nonneg hx.nonneg) hy.nonneg
  unfold Haxx.fGer
  split
  · rename_i e
    refine ⟨_, hc.mono (by linarith), ?_⟩
    rw [Bool.or_eq_true] at e
    rcases e with e | e
    · have : (al.map I.val).toH = 0 := by
        cases al with
        | d a =>
          change ArithEq.feq _ _ = true at e
          ext <;> simp [Scal.map, Scal.toH, he _ _ e, h0]
        | z a =>
          simp only [Scal.gIsZero, Cplx.feq, Bool.and_eq_true] at e
          ext <;> simp [Scal.map, Scal.toH, he _ _ e.1, he _ _ e.2, h0]
        | h a =>
          simp only [Scal.gIsZero, Cplx.feq, Quat.lo, Quat.hi, Bool.and_eq_true] at e
          ext <;> simp [Scal.map, Quat.map, Scal.toH, he _ _ e.1.1, he _ _ e.1.2, he _ _ e.2.1, he _ _ e.2.2, h0]
      rw [this, zero_mul, zero_mul, add_zero]
    · have : (y.map I.val).toH = 0 := by
        simp only [Quat.fIsZero, Cplx.feq, Quat.lo, Quat.hi, Bool.and_eq_true] at e
        ext <;> simp [Quat.map, he _ _ e.1.1, he _ _ e.1.2, he _ _ e.2.1, he _ _ e.2.2, h0]
      rw [this, star_zero, ite_self, mul_zero, add_zero]
  · refine ⟨_, EQ.fStep _ hα hx hy hc hx1 hB, ?_⟩
    rw [toH_fStep, ← mul_assoc]
    cases conjY <;> rfl

/-- Fortran GEMM -/
theorem EQ.fGemm {ta tb : FTrans} {K : Int} (ha : StdModel.FTruth I.toStdModel al) (hb : StdModel.FTruth I.toStdModel be)
    (hα : I.ES al (al.map I.val) sa) (hβ : I.ES be (be.map I.val) sb) (hc : I.EQ c (c.map I.val) sc)
    (hx : ∀ k, k < K.toNat → I.EQ (qs' k) (qs k) s) (hy : ∀ k, k < K.toNat → I.EQ (ys' k) (ys k) t)
    (ha1 : 1 ≤ sa) (hb1 : 1 ≤ sb) (hs : 1 ≤ s) (ht : 1 ≤ t) (hB : 4 * (sb * sc) + K.toNat * (16 * (sa * s * t)) ≤ B) :
    ∃ z : Quat ℝ, I.EQ (fGemm ta tb al be K qs' ys' c) z (4 * (sb * sc) + K.toNat * (16 * (sa * s * t))) ∧
      z.toH = (al.map I.val).toH * (∑ k ∈ range K.toNat, ta.cj (qs k).toH * tb.cj (ys k).toH) +
        (be.map I.val).toH * (c.map I.val).toH := by
  have c0 := hc.nonneg
  have q0 : 0 ≤ s * t := by nlinarith
  have q1 : sc ≤ 4 * (sb * sc) := by nlinarith
  have q2 : 0 ≤ sa * s * t := by positivity
  have q3 : (0:ℝ) ≤ K.toNat * (16 * (sa * s * t)) := by positivity
  unfold Haxx.fGemm
  split
  · rename_i e
    simp only [Bool.and_eq_true, Bool.or_eq_true, decide_eq_true_eq] at e
    refine ⟨_, hc.mono (by linarith), ?_⟩
    rw [hb.one e.2, one_mul]
    rcases e.1 with e | e
    · rw [ha.zero e, zero_mul, zero_add]
    · rw [e]; simp
  · split
    · rename_i e
      split
      · rename_i e'
        exact ⟨_, EQ.fZero.mono (by linarith), by rw [ha.zero e, hb.zero e', toH_fZero]; simp⟩
      · exact ⟨_, (EQ.fScal hβ hc (by linarith)).mono (by linarith), by rw [ha.zero e, toH_fScal]; simp⟩
    · unfold fMain
      have hT : ∀ r, r ≠ FTrans.N → ∃ z : Quat ℝ, I.EQ
          (if be.fIsZero then Haxx.fAlpha al (Haxx.fAccs r tb qs' ys' K.toNat) else
            Haxx.fAddBeta be (Haxx.fAlpha al (Haxx.fAccs r tb qs' ys' K.toNat)) c) z
          (4 * (sb * sc) + K.toNat * (16 * (sa * s * t))) ∧
          z.toH = (al.map I.val).toH * (∑ k ∈ range K.toNat, r.cj (qs k).toH * tb.cj (ys k).toH) +
            (be.map I.val).toH * (c.map I.val).toH := by
        intro r hr
        have q4 : (K.toNat : ℝ) * (4 * (s * t)) ≤ K.toNat * (16 * (sa * s * t)) := by
          refine mul_le_mul_of_nonneg_left ?_ (by positivity)
          nlinarith
        have q5 : 4 * (sa * (0 + K.toNat * (4 * (s * t)))) = K.toNat * (16 * (sa * s * t)) := by ring
        have hD := EQ.fAlpha hα (EQ.fAccs r tb K.toNat hx hy q0 (by linarith)) (by linarith)
        rw [q5] at hD
        split
        · rename_i e
          refine ⟨_, hD.mono (by linarith), ?_⟩
          rw [toH_fAlpha, toH_fAccs r tb hr, hb.zero e]; simp
        · refine ⟨_, (EQ.fAddBeta hβ hD hc (by linarith)).mono (by linarith), ?_⟩
          rw [toH_fAddBeta, toH_fAlpha, toH_fAccs r tb hr]
      cases ta
      · have hP : ∃ z : Quat ℝ, I.EQ (Haxx.fBeta be.fIsZero be.fIsOne be c) z (4 * (sb * sc)) ∧
            z.toH = (be.map I.val).toH * (c.map I.val).toH := by
          unfold Haxx.fBeta
          split
          · rename_i e
            exact ⟨_, EQ.fZero.mono (by linarith), by rw [hb.zero e, toH_fZero]; simp⟩
          · split
            · rename_i e
              exact ⟨_, hc.mono q1, by rw [hb.one (by simpa using e), one_mul]⟩
            · exact ⟨_, EQ.fScal hβ hc (by linarith), toH_fScal _ _⟩
        obtain ⟨z, h1, h2⟩ := hP
        refine ⟨_, EQ.fSteps tb K.toNat hα hx hy h1 hs (by linarith) hB, ?_⟩
        rw [toH_fSteps, h2, add_comm]
        rfl
      · exact hT _ (by decide)
      · exact hT _ (by decide)

end IntModel
end Haxx
