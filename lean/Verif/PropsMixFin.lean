import Verif.PropsMix
import Verif.PropsMixUnits
import Verif.PropsNaN
import Verif.ExactEx
import Verif.FinEx

/-!
# C59 and C60 for the mixed-type templates

X, Y, A and B of any of the three types (`MixGen`): integer data are exact, results of moderate data are
finite and accurate.
-/

set_option linter.unusedSectionVars false

namespace Haxx
open Arith Quaternion Finset

variable {F : Type} [Arith F] [ArithEq F] {u B : ℝ}

namespace IntModel
variable {I : IntModel F u B} {al' be' : Scal F} {r' : Quat F} {r : Quat ℝ} {s t w α : ℝ} {as' ys' : ℕ → Scal F} {as ys : ℕ → Scal ℝ}
  {al be : Scal ℝ}

theorem ES.mono (h : I.ES al' al s) (hs : s ≤ t) : I.ES al' al t := by
  cases al' <;> cases al <;> first | exact h.elim | skip
  · exact E.mono h hs
  · exact ⟨h.1.mono hs, h.2.mono hs⟩
  · exact EQ.mono h hs

theorem EQ.addTo (h : I.EQ r' r w) (g : I.ES al' al t) (hB : w + t ≤ B) : I.EQ (Scal.addTo r' al') (Scal.addTo r al) (w + t) := by
  have g0 := g.nonneg
  have l : w ≤ w + t := by linarith
  cases al' <;> cases al <;> first | exact g.elim | skip
  · exact ⟨h.1.add g hB, h.2.1.mono l, h.2.2.1.mono l, h.2.2.2.mono l⟩
  · exact ⟨h.1.add g.1 hB, h.2.1.add g.2 hB, h.2.2.1.mono l, h.2.2.2.mono l⟩
  · exact h.addAssign g hB

theorem ES.toQuat (g : I.ES al' al t) : I.EQ al'.toQuat al.toQuat t := by
  have g0 := g.nonneg
  cases al' <;> cases al <;> first | exact g.elim | skip
  · exact ⟨g, E.zero.mono g0, E.zero.mono g0, E.zero.mono g0⟩
  · exact ⟨g.1, g.2, E.zero.mono g0, E.zero.mono g0⟩
  · exact g

theorem EQ.pDotK (n : ℕ) (hx : ∀ k, k < n → I.ES (as' k) (as k) s)
    (hy : ∀ k, k < n → I.ES (ys' k) (ys k) t) (h0 : 0 ≤ s * t) (hB : 0 + n * (4 * (s * t)) ≤ B) :
    I.EQ (pDotK as' ys' n) (pDotK as ys n) (0 + n * (4 * (s * t))) := by
  induction n with
  | zero =>
    have h : I.EQ (Haxx.pDotK as' ys' 0) (Haxx.pDotK as ys 0) 0 := EQ.zero
    exact h.mono (by simp)
  | succ n ih =>
    obtain ⟨h1, h2⟩ := stepB (by linarith) hB
    rw [← h2] at hB ⊢
    have ih := ih (fun k hk => hx k (by omega)) (fun k hk => hy k (by omega)) h1
    have hn : (0:ℝ) ≤ n * (4 * (s * t)) := by positivity
    exact EQ.addTo ih (ES.mul (hx n (by omega)) (hy n (by omega)) (by linarith)) hB

theorem EQ.pAccK (n : ℕ) (hα : I.ES al' al α) (hr : I.EQ r' r w) (hx : ∀ k, k < n → I.ES (as' k) (as k) s)
    (hy : ∀ k, k < n → I.ES (ys' k) (ys k) t) (hs : 0 ≤ s) (ht : 1 ≤ t) (hB : w + n * (16 * (α * s * t)) ≤ B) :
    I.EQ (pAccK al' as' ys' r' n) (pAccK al as ys r n) (w + n * (16 * (α * s * t))) := by
  have q1 := mul_nonneg hα.nonneg hs
  have q3 : α * s ≤ α * s * t := by nlinarith
  have hw := hr.nonneg
  induction n with
  | zero => simpa [Haxx.pAccK] using hr
  | succ n ih =>
    obtain ⟨h1, h2⟩ := stepB (by linarith) hB
    rw [← h2] at hB ⊢
    have ih := ih (fun k hk => hx k (by omega)) (fun k hk => hy k (by omega)) h1
    have hn : (0:ℝ) ≤ n * (16 * (α * s * t)) := mul_nonneg (by positivity) (by linarith)
    refine EQ.addTo ih (ES.mono (ES.mul (ES.mul hα (hx n (by omega)) ?_) (hy n (by omega)) ?_) ?_) hB <;> linarith

theorem EQ.pAxpysK (n : ℕ) (hα : I.ES al' al α) (hr : I.EQ r' r w) (hx : ∀ k, k < n → I.ES (as' k) (as k) s)
    (hy : ∀ k, k < n → I.ES (ys' k) (ys k) t) (hs : 1 ≤ s) (ht : 1 ≤ t) (hB : w + n * (48 * (α * s * t)) ≤ B) :
    I.EQ (pAxpysK al' as' ys' r' n) (pAxpysK al as ys r n) (w + n * (48 * (α * s * t))) := by
  have hα0 := hα.nonneg
  have q1 := mul_nonneg hα.nonneg (zero_le_one.trans hs)
  have q2 := mul_nonneg hα.nonneg (zero_le_one.trans ht)
  have q3 : α * s ≤ α * s * t := by nlinarith
  have q4 : α * t ≤ α * s * t := by nlinarith
  have hw := hr.nonneg
  induction n with
  | zero => simpa [Haxx.pAxpysK] using hr
  | succ n ih =>
    obtain ⟨h1, h2⟩ := stepB (by linarith) hB
    rw [← h2] at hB ⊢
    have ih := ih (fun k hk => hx k (by omega)) (fun k hk => hy k (by omega)) h1
    have hn : (0:ℝ) ≤ n * (48 * (α * s * t)) := mul_nonneg (by positivity) (by linarith)
    have A := EQ.mulL (hx n (by omega)) (ES.toQuat (ES.mul hα (hy n (by omega)) (by linarith))) (by linarith)
    have C := ES.mul (ES.comm hα (hx n (by omega)) (by linarith)) (hy n (by omega)) (by linarith)
    exact ((ih.addAssign A (by linarith)).addTo C (by linarith)).mono (by linarith)

end IntModel

namespace IntModel
variable {I : IntModel F u B} {al be : Scal F} {c : Quat F} {K : ℕ} {sa sb sc s t : ℝ}
variable {xs' ys' : ℕ → Scal F} {xs ys : ℕ → Scal ℝ}

/-- portable GEMM -/
theorem EQ.pGemmK {tA : Char} {K : Int} (ha : StdModel.Truth I.toStdModel al) (hb : StdModel.Truth I.toStdModel be)
    (hα : I.ES al (al.map I.val) sa) (hβ : I.ES be (be.map I.val) sb) (hc : I.EQ c (c.map I.val) sc)
    (hx : ∀ k, k < K.toNat → I.ES (xs' k) (xs k) s) (hy : ∀ k, k < K.toNat → I.ES (ys' k) (ys k) t)
    (ha1 : 1 ≤ sa) (hb1 : 1 ≤ sb) (hs : 0 ≤ s) (ht : 1 ≤ t) (hB : 4 * (sb * sc) + K.toNat * (16 * (sa * s * t)) ≤ B) :
    ∃ z : Quat ℝ, I.EQ (pGemmK tA al be K xs' ys' c) z (4 * (sb * sc) + K.toNat * (16 * (sa * s * t))) ∧
      z.toH = (al.map I.val).toH * (∑ k ∈ range K.toNat, (xs k).toH * (ys k).toH) + (be.map I.val).toH * (c.map I.val).toH := by
  have a0 := hα.nonneg
  have c0 := hc.nonneg
  have q1 : sc ≤ 4 * (sb * sc) := by nlinarith
  have q2 : 0 ≤ sa * s * t := mul_nonneg (mul_nonneg a0 hs) (by linarith)
  have q3 : (0:ℝ) ≤ K.toNat * (16 * (sa * s * t)) := by positivity
  unfold Haxx.pGemmK
  split
  · rename_i e
    simp only [Bool.and_eq_true, Bool.or_eq_true, decide_eq_true_eq] at e
    refine ⟨_, hc.mono (by linarith), ?_⟩
    rw [hb.one e.2, one_mul]
    rcases e.1 with e | e
    · rw [ha.zero e, zero_mul, zero_add]
    · rw [e]; simp
  · split
    · rename_i e
      split
      · rename_i e'
        refine ⟨_, EQ.zero.mono (by linarith), ?_⟩
        rw [ha.zero e, hb.zero e']
        change (Quat.mkReal (0:ℝ)).toH = _
        rw [StdModel.toH_mkReal0]; simp
      · refine ⟨_, (EQ.mulL hβ hc (by linarith)).mono (by linarith), ?_⟩
        rw [ha.zero e, StdModel.toH_mulL]; simp
    · split
      · have hP : ∃ z : Quat ℝ, I.EQ (pBeta be c) z (4 * (sb * sc)) ∧ z.toH = (be.map I.val).toH * (c.map I.val).toH := by
          unfold pBeta
          split
          · rename_i e
            refine ⟨_, EQ.zero.mono (by linarith), ?_⟩
            rw [hb.zero e]
            change (Quat.mkReal (0:ℝ)).toH = _
            rw [StdModel.toH_mkReal0]; simp
          · split
            · exact ⟨_, EQ.mulL hβ hc (by linarith), StdModel.toH_mulL _ _⟩
            · rename_i e
              exact ⟨_, hc.mono q1, by rw [hb.one (by simpa using e), one_mul]⟩
        obtain ⟨z, h1, h2⟩ := hP
        exact ⟨_, EQ.pAccK K.toNat hα h1 hx hy hs ht hB, by rw [Haxx.toH_pAccK, h2]⟩
      · have q0 : 0 ≤ s * t := mul_nonneg hs (by linarith)
        have q4 : (K.toNat : ℝ) * (4 * (s * t)) ≤ K.toNat * (16 * (sa * s * t)) := by
          refine mul_le_mul_of_nonneg_left ?_ (by positivity)
          nlinarith
        have q5 : 4 * (sa * (0 + K.toNat * (4 * (s * t)))) = K.toNat * (16 * (sa * s * t)) := by ring
        have hD := EQ.mulL hα (EQ.pDotK K.toNat hx hy q0 (by linarith)) (by linarith)
        rw [q5] at hD
        unfold pStore
        split
        · rename_i e
          refine ⟨_, hD.mono (by linarith), ?_⟩
          rw [StdModel.toH_mulL, Haxx.toH_pDotK, hb.zero e]; simp
        · refine ⟨_, (EQ.addAssign hD (EQ.mulL hβ hc (by linarith)) (by linarith)).mono (by linarith), ?_⟩
          rw [StdModel.toH_addAssign, StdModel.toH_mulL, StdModel.toH_mulL, Haxx.toH_pDotK]

/-- portable GEMV -/
theorem EQ.pGemvK {tA : Char} (ha : StdModel.Truth I.toStdModel al) (hb : StdModel.Truth I.toStdModel be)
    (hα : I.ES al (al.map I.val) sa) (hβ : I.ES be (be.map I.val) sb) (hc : I.EQ c (c.map I.val) sc)
    (hx : ∀ k, k < K → I.ES (xs' k) (xs k) s) (hy : ∀ k, k < K → I.ES (ys' k) (ys k) t)
    (ha1 : 1 ≤ sa) (hb1 : 1 ≤ sb) (hs : 1 ≤ s) (ht : 1 ≤ t) (hB : 4 * (sb * sc) + K * (48 * (sa * s * t)) ≤ B) :
    ∃ z : Quat ℝ, I.EQ (pGemvK tA al be K xs' ys' c) z (4 * (sb * sc) + K * (48 * (sa * s * t))) ∧
      z.toH = (al.map I.val).toH * (∑ k ∈ range K, (xs k).toH * (ys k).toH) + (be.map I.val).toH * (c.map I.val).toH := by
  have c0 := hc.nonneg
  have q1 : sc ≤ 4 * (sb * sc) := by nlinarith
  have q0 : 0 ≤ s * t := by nlinarith
  have q2 : 0 ≤ sa * s * t := by positivity
  have q3 : (0:ℝ) ≤ K * (48 * (sa * s * t)) := by positivity
  obtain ⟨z, h1, h2⟩ := EQ.pScale hb hβ hc hb1 (by linarith)
  unfold Haxx.pGemvK
  split
  · rename_i e
    simp only [Bool.and_eq_true] at e
    refine ⟨_, hc.mono (by linarith), ?_⟩
    rw [hb.one e.2, ha.zero e.1]; simp
  · split
    · rename_i e
      exact ⟨z, h1.mono (by linarith), by rw [h2, ha.zero e]; simp⟩
    · split
      · exact ⟨_, EQ.pAxpysK K hα h1 hx hy hs ht hB, by rw [Haxx.toH_pAxpysK, h2]⟩
      · have q4 : (K : ℝ) * (4 * (s * t)) ≤ K * (48 * (sa * s * t)) := by
          refine mul_le_mul_of_nonneg_left ?_ (by positivity)
          nlinarith
        have q5 : 4 * (sa * (0 + K * (4 * (s * t)))) = K * (16 * (sa * s * t)) := by ring
        have q6 : (K : ℝ) * (16 * (sa * s * t)) ≤ K * (48 * (sa * s * t)) := by
          refine mul_le_mul_of_nonneg_left ?_ (by positivity)
          linarith
        have hD := EQ.mulL hα (EQ.pDotK K hx hy q0 (by linarith)) (by linarith)
        rw [q5] at hD
        refine ⟨_, (EQ.addAssign h1 hD (by linarith)).mono (by linarith), ?_⟩
        rw [StdModel.toH_addAssign, StdModel.toH_mulL, Haxx.toH_pDotK, h2, add_comm]

/-- portable GERU and GERC -/
theorem EQ.pGerK (conjY : Bool) {x y : Scal F} {a : Quat F} {sx sy : ℝ} (ha : StdModel.Truth I.toStdModel al)
    (h0 : y.eqZero = true → (y.map I.val).toH = 0)
    (hα : I.ES al (al.map I.val) sa) (hx : I.ES x (x.map I.val) sx) (hy : I.ES y (y.map I.val) sy)
    (hc : I.EQ a (a.map I.val) sc) (hy1 : 1 ≤ sy) (hB : sc + 16 * (sa * sx * sy) ≤ B) :
    ∃ z : Quat ℝ, I.EQ (pGerK conjY al x y a) z (sc + 16 * (sa * sx * sy)) ∧
      z.toH = (a.map I.val).toH + (al.map I.val).toH * (x.map I.val).toH *
        (if conjY then star (y.map I.val).toH else (y.map I.val).toH) := by
  have a0 := hα.nonneg
  have c0 := hc.nonneg
  have q1 := mul_nonneg a0 hx.nonneg
  have q2 : sa * sx ≤ sa * sx * sy := by nlinarith
  unfold Haxx.pGerK
  split
  · rename_i e
    exact ⟨_, hc.mono (by linarith), by rw [ha.zero e]; simp⟩
  · split
    · have hz : ∃ z : Scal ℝ, I.ES (if conjY then y.smartConj else y) z sy ∧
          z.toH = (if conjY then star (y.map I.val).toH else (y.map I.val).toH) := by
        cases conjY
        · exact ⟨_, hy, rfl⟩
        · exact ⟨_, hy.conj, toH_smartConj' _⟩
      obtain ⟨z, hz, ez⟩ := hz
      have hm := ES.mul (ES.mul hα hx (by linarith)) hz (by linarith)
      refine ⟨_, (EQ.addTo hc hm (by linarith)).mono (by linarith), ?_⟩
      rw [toH_addTo, toH_scalMul, toH_scalMul, ez]
    · rename_i e
      refine ⟨_, hc.mono (by linarith), ?_⟩
      rw [h0 (by simpa using e)]; simp

end IntModel

open IntModel

/-- the first `n` elements of a vector of scalars of any type are integer ones -/
def IntModel.IntKVec (I : IntModel F u B) (s : ℝ) (n : ℕ) (x : ℕ → Scal F) : Prop := ∀ i, i < n → I.IntS s (x i)

/-- C59, AXPYV with x, ALPHA of any scalar type (the test of ALPHA for zero being right, as it is unless only its k component is non-zero). -/
theorem C59_axpyv_mixed (I : IntModel F u B) (m : Mem F) (kX : Kind) (SIDE : Char) (N X INCX Y INCY : Int) (ALPHA : Scal F)
    (x : Nat → Scal F) (y : Nat → Quat F) (hX : KVecAt m kX X INCX N.toNat x) (hY : VecAt m Y INCY N.toNat y)
    (hix : 0 < INCX) (hiy : 0 < INCY) (fx : Fits32 (N * INCX)) (fy : Fits32 (N * INCY))
    (hdis : Apart (KVecCell kX X INCX N.toNat) (VecCell Y INCY N.toNat))
    (hA : ALPHA.eqZero = true → (ALPHA.map I.val).toH = 0) (s t w : ℝ)
    (hα : I.IntS s ALPHA) (hx : I.IntKVec t N.toNat x) (hy : I.IntVec w N.toNat y) (hB : w + 4 * (s * t) ≤ B) :
    ∃ m' v, axpyvGenK kX SIDE N ALPHA X INCX Y INCY m = .ok ((), m') ∧ VecAt m' Y INCY N.toNat v ∧
      ∀ i, i < N.toNat → I.Is (v i) (((y i).map I.val).toH +
        (if SIDE = 'R' then ((x i).map I.val).toH * (ALPHA.map I.val).toH
         else (ALPHA.map I.val).toH * ((x i).map I.val).toH)) := by
  obtain ⟨m', h1, h2, _⟩ := axpyvGenK_bits m kX SIDE N X INCX Y INCY ALPHA x y hix hiy fx fy hX hY hdis
  refine ⟨m', _, h1, h2, fun i hi => ?_⟩
  unfold pAxpyvK
  cases hz : ALPHA.eqZero with
  | true =>
    rw [if_pos rfl, hA hz]
    simpa using (hy i hi).e.is
  | false =>
    rw [if_neg Bool.false_ne_true]
    have w0 := (hy i hi).e.nonneg
    have l := (EQ.addTo (hy i hi).e (ES.mul hα.e (hx i hi).e (by linarith)) hB).is
    have r := (EQ.addTo (hy i hi).e (ES.mul (hx i hi).e hα.e (by linarith)) (by linarith)).is
    rw [toH_addTo, toH_scalMul] at l r
    by_cases hs : SIDE = 'R' <;> simpa [hs]

/-- C59, GEMM (A, B, ALPHA and BETA of any scalar type). -/
theorem C59_gemm_mixed (I : IntModel F u B) (m : Mem F) (k kB : Kind) (tA tB : Char) (M N K : Int) (ALPHA BETA : Scal F)
    (A LDA Bp LDB C LDC : Int) (Av Bv : Nat → Nat → Scal F) (Cv : Nat → Nat → Quat F)
    (opA opB : Nat → Nat → ℍ[ℝ])
    (hA : KOpIs tA (fun i k => (Av i k).map I.val) opA) (hBo : KOpIs tB (fun i k => (Bv i k).map I.val) opB)
    (ta : StdModel.Truth I.toStdModel ALPHA) (tb : StdModel.Truth I.toStdModel BETA)
    (h : GemmMArgs m k kB tA tB M N K ALPHA A LDA Bp LDB C LDC Av Bv Cv)
    (sα sβ a b c : ℝ) (hα : I.IntS sα ALPHA) (hβ : I.IntS sβ BETA)
    (iA : I.IntKMat a (if tA = 'N' then M else K).toNat (if tA = 'N' then K else M).toNat Av)
    (iB : I.IntKMat b (if tB = 'N' then K else N).toNat (if tB = 'N' then N else K).toNat Bv)
    (iC : I.IntMat c M.toNat N.toNat Cv) (h1α : 1 ≤ sα) (h1β : 1 ≤ sβ) (ha : 0 ≤ a) (hb : 1 ≤ b)
    (hB : 4 * (sβ * c) + K.toNat * (16 * (sα * a * b)) ≤ B) :
    ∃ m' V, gemmGenK k kB tA tB M N K ALPHA A LDA Bp LDB BETA C LDC m = .ok ((), m') ∧
      MatAt m' C LDC M.toNat N.toNat V ∧
      ∀ i j, i < M.toNat → j < N.toNat → I.Is (V i j)
        ((ALPHA.map I.val).toH * ∑ k ∈ range K.toNat, opA i k * opB k j +
            (BETA.map I.val).toH * ((Cv i j).map I.val).toH) := by
  obtain ⟨m', h1, h2, _⟩ := gemmGenK_bits m k kB tA tB M N K ALPHA BETA A LDA Bp LDB C LDC Av Bv Cv h
  refine ⟨m', _, h1, h2, fun i j hi hj => ?_⟩
  have eA : ∀ l, ∃ x : Scal ℝ, x.toH = opA i l ∧ (l < K.toNat → I.ES (opKE tA Av i l) x a) := by
    intro l
    rcases hA with ⟨rfl, e⟩ | ⟨rfl, e⟩ | ⟨rfl, e⟩
    · exact ⟨_, (e i l).symm, fun hl => (iA i l hi hl).e⟩
    · exact ⟨_, (e i l).symm, fun hl => (iA l i hl hi).e⟩
    · exact ⟨((Av l i).map I.val).smartConj, by rw [e, C04_smartConj], fun hl => (iA l i hl hi).e.conj⟩
  have eB : ∀ l, ∃ y : Scal ℝ, y.toH = opB l j ∧ (l < K.toNat → I.ES (opKE tB Bv l j) y b) := by
    intro l
    rcases hBo with ⟨rfl, e⟩ | ⟨rfl, e⟩ | ⟨rfl, e⟩
    · exact ⟨_, (e l j).symm, fun hl => (iB l j hl hj).e⟩
    · exact ⟨_, (e l j).symm, fun hl => (iB j l hj hl).e⟩
    · exact ⟨((Bv j l).map I.val).smartConj, by rw [e, C04_smartConj], fun hl => (iB j l hj hl).e.conj⟩
  choose x ex hx using eA
  choose y ey hy using eB
  obtain ⟨z, hz, ez⟩ := EQ.pGemmK (tA := tA) ta tb hα.e hβ.e (iC i j hi hj).e hx hy h1α h1β ha hb hB
  have := hz.is
  rw [ez] at this
  simpa only [ex, ey] using this

/-- C59, GEMV (A, x, ALPHA and BETA of any scalar type). -/
theorem C59_gemv_mixed (I : IntModel F u B) (m : Mem F) (k kX : Kind) (t : Char) (M N : Int) (ALPHA : Scal F)
    (A LDA X INCX : Int) (BETA : Scal F) (Y INCY : Int) (a : Nat → Nat → Scal F) (x : Nat → Scal F) (y : Nat → Quat F)
    (op : Nat → Nat → ℍ[ℝ]) (hop : KOpIs t (fun i k => (a i k).map I.val) op)
    (ta : StdModel.Truth I.toStdModel ALPHA) (tb : StdModel.Truth I.toStdModel BETA) (hM : M ≠ 0) (hN : N ≠ 0)
    (h : GemvMArgs m k kX t M N ALPHA A LDA X INCX Y INCY a x y)
    (sα sβ sa sx sy : ℝ) (hα : I.IntS sα ALPHA) (hβ : I.IntS sβ BETA) (iA : I.IntKMat sa M.toNat N.toNat a)
    (ix : I.IntKVec sx (if t = 'N' then N else M).toNat x) (iy : I.IntVec sy (if t = 'N' then M else N).toNat y)
    (h1α : 1 ≤ sα) (h1β : 1 ≤ sβ) (h1a : 1 ≤ sa) (h1x : 1 ≤ sx)
    (hB : 4 * (sβ * sy) + (if t = 'N' then N else M).toNat * (48 * (sα * sa * sx)) ≤ B) :
    ∃ m' v, gemvGenK k kX t M N ALPHA A LDA X INCX BETA Y INCY m = .ok ((), m') ∧
      VecAt m' Y INCY (if t = 'N' then M else N).toNat v ∧
      ∀ i, i < (if t = 'N' then M else N).toNat → I.Is (v i)
        ((ALPHA.map I.val).toH * ∑ k ∈ range (if t = 'N' then N else M).toNat, op i k * ((x k).map I.val).toH +
            (BETA.map I.val).toH * ((y i).map I.val).toH) := by
  obtain ⟨m', h1, h2, _⟩ := gemvGenK_bits m k kX t M N ALPHA A LDA X INCX BETA Y INCY a x y hM hN h
  refine ⟨m', _, h1, h2, fun i hi => ?_⟩
  have eA : ∀ l, ∃ x : Scal ℝ, x.toH = op i l ∧ (l < (if t = 'N' then N else M).toNat → I.ES (opVE t a i l) x sa) := by
    intro l
    rcases hop with ⟨rfl, e⟩ | ⟨rfl, e⟩ | ⟨rfl, e⟩
    · exact ⟨_, (e i l).symm, fun hl => (iA i l hi hl).e⟩
    · exact ⟨_, (e i l).symm, fun hl => (iA l i hl hi).e⟩
    · exact ⟨((a l i).map I.val).smartConj, by rw [e, C04_smartConj], fun hl => (iA l i hl hi).e.conj⟩
  choose z ez hz using eA
  obtain ⟨w, hw, ew⟩ := EQ.pGemvK (tA := t) ta tb hα.e hβ.e (iy i hi).e hz (fun k hk => (ix k hk).e) h1α h1β h1a h1x hB
  have := hw.is
  rw [ew] at this
  simpa only [ez] using this

/-- C59, GERU (`conjY = false`) and GERC, for the y_j whose comparison with zero is right. -/
theorem C59_ger_mixed (I : IntModel F u B) (kX kY : Kind) (conjY : Bool) (m : Mem F) (M N : Int) (ALPHA : Scal F)
    (X INCX Y INCY A LDA : Int) (x y : Nat → Scal F) (a : Nat → Nat → Quat F)
    (ta : StdModel.Truth I.toStdModel ALPHA) (h : GerMArgs m kX kY M N X INCX Y INCY A LDA x y a)
    (sα sx sy sa : ℝ) (hα : I.IntS sα ALPHA) (ix : I.IntKVec sx M.toNat x) (iy : I.IntKVec sy N.toNat y)
    (iA : I.IntMat sa M.toNat N.toNat a) (h1y : 1 ≤ sy) (hB : sa + 16 * (sα * sx * sy) ≤ B) :
    ∃ m' v, gerGenK kX kY conjY M N ALPHA X INCX Y INCY A LDA m = .ok ((), m') ∧
      MatAt m' A LDA M.toNat N.toNat v ∧
      ∀ i j, i < M.toNat → j < N.toNat →
        ((y j).eqZero = true → ((y j).map I.val).toH = 0) →
        I.Is (v i j) (((a i j).map I.val).toH + (ALPHA.map I.val).toH * ((x i).map I.val).toH *
            (if conjY then star ((y j).map I.val).toH else ((y j).map I.val).toH)) := by
  obtain ⟨m', h1, h2, _⟩ := gerGenK_bits kX kY conjY m M N ALPHA X INCX Y INCY A LDA x y a h
  refine ⟨m', _, h1, h2, fun i j hi hj h0 => ?_⟩
  obtain ⟨z, hz, ez⟩ := EQ.pGerK conjY ta h0 hα.e (ix i hi).e (iy j hj).e (iA i j hi hj).e h1y hB
  have := hz.is
  rwa [ez] at this

/-! ## C60 -/

variable {η Ω : ℝ}

namespace Room
variable {I : Room F} {al' be' : Scal F} {r' : Quat F} {z : Quat ℝ} {s t w α : ℝ} {as' ys' : ℕ → Scal F} {as ys : ℕ → Scal ℝ}
  {al be : Scal ℝ} {p q r : ℕ}

theorem WS.mono (h : I.WS p al' al s) (hp : p ≤ q) (hs : s ≤ t) : I.WS q al' al t := by
  cases al' <;> cases al <;> first | exact h.elim | skip
  · exact W.mono h hp hs
  · exact ⟨h.1.mono hp hs, h.2.mono hp hs⟩
  · exact WQ.mono h hp hs

theorem WQ.addTo (h : I.WQ p r' z w) (k : I.WS q al' al t) (hB : w + t ≤ I.S) (hn : max p q + 1 ≤ I.n) :
    I.WQ (max p q + 1) (Scal.addTo r' al') (Scal.addTo z al) (w + t) := by
  have g0 := k.nonneg
  have l : w ≤ w + t := by linarith
  have l' : p ≤ max p q + 1 := by omega
  cases al' <;> cases al <;> first | exact k.elim | skip
  · exact ⟨h.1.add k hB hn, h.2.1.mono l' l, h.2.2.1.mono l' l, h.2.2.2.mono l' l⟩
  · exact ⟨h.1.add k.1 hB hn, h.2.1.add k.2 hB hn, h.2.2.1.mono l' l, h.2.2.2.mono l' l⟩
  · exact h.addAssign k hB hn

theorem WS.toQuat (g : I.WS p al' al t) : I.WQ p al'.toQuat al.toQuat t := by
  have g0 := g.nonneg
  cases al' <;> cases al <;> first | exact g.elim | skip
  · exact ⟨g, W.zero.mono (Nat.zero_le _) g0, W.zero.mono (Nat.zero_le _) g0, W.zero.mono (Nat.zero_le _) g0⟩
  · exact ⟨g.1, g.2, W.zero.mono (Nat.zero_le _) g0, W.zero.mono (Nat.zero_le _) g0⟩
  · exact g

theorem WQ.pDotK (n : ℕ) (hx : ∀ k, k < n → I.WS p (as' k) (as k) s)
    (hy : ∀ k, k < n → I.WS q (ys' k) (ys k) t) (h0 : 1 ≤ s * t) (hB : 0 + n * (4 * (s * t)) ≤ I.S) (hn : p + q + 1 + 4 * n ≤ I.n) :
    I.WQ (p + q + 1 + 4 * n) (pDotK as' ys' n) (pDotK as ys n) (0 + n * (4 * (s * t))) := by
  induction n with
  | zero =>
    have h : I.WQ 0 (Haxx.pDotK as' ys' 0) (Haxx.pDotK as ys 0) 0 := WQ.zero
    exact h.mono (by omega) (by simp)
  | succ n ih =>
    obtain ⟨h1, h2⟩ := stepB (by linarith) hB
    rw [← h2] at hB ⊢
    have ih := ih (fun k hk => hx k (by omega)) (fun k hk => hy k (by omega)) h1 (by omega)
    have hp : (0:ℝ) ≤ n * (4 * (s * t)) := by positivity
    exact (WQ.addTo ih (WS.mul (hx n (by omega)) (hy n (by omega)) h0 (by linarith) (by omega)) hB (by omega)).mono (by omega) le_rfl

theorem WQ.pAccK (n : ℕ) (hα : I.WS 0 al' al α) (hr : I.WQ r r' z w) (hx : ∀ k, k < n → I.WS 0 (as' k) (as k) s)
    (hy : ∀ k, k < n → I.WS 0 (ys' k) (ys k) t) (hα1 : 1 ≤ α) (hs : 1 ≤ s) (ht : 1 ≤ t) (hB : w + n * (16 * (α * s * t)) ≤ I.S)
    (hn : max 8 r + n ≤ I.n) :
    I.WQ (max 8 r + n) (pAccK al' as' ys' r' n) (pAccK al as ys z n) (w + n * (16 * (α * s * t))) := by
  have q1 : 1 ≤ α * s := by nlinarith
  have q3 : α * s ≤ α * s * t := by nlinarith
  have hw := hr.nonneg
  induction n with
  | zero => exact hr.mono (by omega) (by simp)
  | succ n ih =>
    obtain ⟨h1, h2⟩ := stepB (by linarith) hB
    rw [← h2] at hB ⊢
    have ih := ih (fun k hk => hx k (by omega)) (fun k hk => hy k (by omega)) h1 (by omega)
    have hp : (0:ℝ) ≤ n * (16 * (α * s * t)) := mul_nonneg (by positivity) (by linarith)
    exact (WQ.addTo ih ((WS.mul (WS.mul hα (hx n (by omega)) q1 (by linarith) (by omega)) (hy n (by omega)) (by linarith)
      (by linarith) (by omega)).mono (q := 8) (t := 16 * (α * s * t)) (by omega) (by linarith)) hB (by omega)).mono (by omega) le_rfl

theorem WQ.pAxpysK (n : ℕ) (hα : I.WS 0 al' al α) (hr : I.WQ r r' z w) (hx : ∀ k, k < n → I.WS 0 (as' k) (as k) s)
    (hy : ∀ k, k < n → I.WS 0 (ys' k) (ys k) t) (hα1 : 1 ≤ α) (hs : 1 ≤ s) (ht : 1 ≤ t) (hB : w + n * (48 * (α * s * t)) ≤ I.S)
    (hn : max 9 r + 2 * n ≤ I.n) :
    I.WQ (max 9 r + 2 * n) (pAxpysK al' as' ys' r' n) (pAxpysK al as ys z n) (w + n * (48 * (α * s * t))) := by
  have q1 : 1 ≤ α * s := by nlinarith
  have q2 : 1 ≤ α * t := by nlinarith
  have q3 : α * s ≤ α * s * t := by nlinarith
  have q4 : α * t ≤ α * s * t := by nlinarith
  have hw := hr.nonneg
  induction n with
  | zero => exact hr.mono (by omega) (by simp)
  | succ n ih =>
    obtain ⟨h1, h2⟩ := stepB (by linarith) hB
    rw [← h2] at hB ⊢
    have ih := ih (fun k hk => hx k (by omega)) (fun k hk => hy k (by omega)) h1 (by omega)
    have hp : (0:ℝ) ≤ n * (48 * (α * s * t)) := mul_nonneg (by positivity) (by linarith)
    have A := WQ.mulL (hx n (by omega)) (WS.toQuat (WS.mul hα (hy n (by omega)) q2 (by linarith) (by omega))) (.inr (by linarith)) (by linarith) (by omega)
    have C := WS.mul (WS.comm hα (hx n (by omega)) q1 (by linarith) (by omega)) (hy n (by omega)) (by linarith) (by linarith) (by omega)
    exact ((ih.addAssign A (by linarith) (by omega)).addTo C (by linarith) (by omega)).mono (by omega) (by linarith)

end Room

namespace Room
variable {I : Room F} {al be : Scal F} {c : Quat F} {K : ℕ} {sa sb sc s t : ℝ}
variable {xs' ys' : ℕ → Scal F} {xs ys : ℕ → Scal ℝ}

/-- portable GEMM -/
theorem WQ.pGemmK {tA : Char} {K : Int} (ha : I.M.Truth al) (hb : I.M.Truth be)
    (hα : I.WS 0 al (al.map I.M.val) sa) (hβ : I.WS 0 be (be.map I.M.val) sb) (hc : I.WQ 0 c (c.map I.M.val) sc)
    (hx : ∀ k, k < K.toNat → I.WS 0 (xs' k) (xs k) s) (hy : ∀ k, k < K.toNat → I.WS 0 (ys' k) (ys k) t)
    (ha1 : 1 ≤ sa) (hb1 : 1 ≤ sb) (hc1 : 1 ≤ sc) (hs : 1 ≤ s) (ht : 1 ≤ t)
    (hB : 4 * (sb * sc) + K.toNat * (16 * (sa * s * t)) ≤ I.S) (hn : 4 * K.toNat + 8 ≤ I.n) :
    ∃ z : Quat ℝ, I.WQ (4 * K.toNat + 8) (pGemmK tA al be K xs' ys' c) z (4 * (sb * sc) + K.toNat * (16 * (sa * s * t))) ∧
      z.toH = (al.map I.M.val).toH * (∑ k ∈ range K.toNat, (xs k).toH * (ys k).toH) + (be.map I.M.val).toH * (c.map I.M.val).toH := by
  have q0 : 1 ≤ s * t := by nlinarith
  have q1 : sc ≤ 4 * (sb * sc) := by nlinarith
  have q1' : 1 ≤ sb * sc := by nlinarith
  have q2 : 0 ≤ sa * s * t := by positivity
  have q3 : (0:ℝ) ≤ K.toNat * (16 * (sa * s * t)) := by positivity
  unfold Haxx.pGemmK
  split
  · rename_i e
    simp only [Bool.and_eq_true, Bool.or_eq_true, decide_eq_true_eq] at e
    refine ⟨_, hc.mono (by omega) (by linarith), ?_⟩
    rw [hb.one e.2, one_mul]
    rcases e.1 with e | e
    · rw [ha.zero e, zero_mul, zero_add]
    · rw [e]; simp
  · split
    · rename_i e
      split
      · rename_i e'
        refine ⟨_, WQ.zero.mono (by omega) (by linarith), ?_⟩
        rw [ha.zero e, hb.zero e']
        change (Quat.mkReal (0:ℝ)).toH = _
        rw [StdModel.toH_mkReal0]; simp
      · refine ⟨_, (WQ.mulL hβ hc (.inr q1') (by linarith) (by omega)).mono (by omega) (by linarith), ?_⟩
        rw [ha.zero e, StdModel.toH_mulL]; simp
    · split
      · have hP : ∃ z : Quat ℝ, I.WQ 4 (pBeta be c) z (4 * (sb * sc)) ∧ z.toH = (be.map I.M.val).toH * (c.map I.M.val).toH := by
          unfold pBeta
          split
          · rename_i e
            refine ⟨_, WQ.zero.mono (by omega) (by linarith), ?_⟩
            rw [hb.zero e]
            change (Quat.mkReal (0:ℝ)).toH = _
            rw [StdModel.toH_mkReal0]; simp
          · split
            · exact ⟨_, WQ.mulL (p := 0) (q := 0) hβ hc (.inr q1') (by linarith) (by omega), StdModel.toH_mulL _ _⟩
            · rename_i e
              exact ⟨_, hc.mono (by omega) q1, by rw [hb.one (by simpa using e), one_mul]⟩
        obtain ⟨z, h1, h2⟩ := hP
        exact ⟨_, (WQ.pAccK K.toNat hα h1 hx hy ha1 hs ht hB (by omega)).mono (by omega) le_rfl,
          by rw [Haxx.toH_pAccK, h2]⟩
      · have q4 : (K.toNat : ℝ) * (4 * (s * t)) ≤ K.toNat * (16 * (sa * s * t)) := by
          refine mul_le_mul_of_nonneg_left ?_ (by positivity)
          nlinarith
        have q5 : 4 * (sa * (0 + K.toNat * (4 * (s * t)))) = K.toNat * (16 * (sa * s * t)) := by ring
        have hpD : I.WQ (4 * K.toNat + 1) (Haxx.pDotK xs' ys' K.toNat) (Haxx.pDotK xs ys K.toNat) (0 + K.toNat * (4 * (s * t))) :=
          (WQ.pDotK K.toNat hx hy q0 (by linarith) (by omega)).mono (by omega) le_rfl
        have hD : I.WQ (4 * K.toNat + 5) (al.mulL (Haxx.pDotK xs' ys' K.toNat)) ((al.map I.M.val).mulL (Haxx.pDotK xs ys K.toNat))
            (K.toNat * (16 * (sa * s * t))) :=
          (WQ.mulL hα hpD (kOr K.toNat ha1 q0) (by linarith) (by omega)).mono (by omega) (by linarith)
        unfold pStore
        split
        · rename_i e
          refine ⟨_, hD.mono (by omega) (by linarith), ?_⟩
          rw [StdModel.toH_mulL, Haxx.toH_pDotK, hb.zero e]; simp
        · refine ⟨_, (WQ.addAssign hD (WQ.mulL hβ hc (.inr q1') (by linarith) (by omega)) (by linarith) (by omega)).mono (by omega) (by linarith), ?_⟩
          rw [StdModel.toH_addAssign, StdModel.toH_mulL, StdModel.toH_mulL, Haxx.toH_pDotK]

/-- portable GEMV -/
theorem WQ.pGemvK {tA : Char} (ha : I.M.Truth al) (hb : I.M.Truth be)
    (hα : I.WS 0 al (al.map I.M.val) sa) (hβ : I.WS 0 be (be.map I.M.val) sb) (hc : I.WQ 0 c (c.map I.M.val) sc)
    (hx : ∀ k, k < K → I.WS 0 (xs' k) (xs k) s) (hy : ∀ k, k < K → I.WS 0 (ys' k) (ys k) t)
    (ha1 : 1 ≤ sa) (hb1 : 1 ≤ sb) (hc1 : 1 ≤ sc) (hs : 1 ≤ s) (ht : 1 ≤ t)
    (hB : 4 * (sb * sc) + K * (48 * (sa * s * t)) ≤ I.S) (hn : 4 * K + 9 ≤ I.n) :
    ∃ z : Quat ℝ, I.WQ (4 * K + 9) (pGemvK tA al be K xs' ys' c) z (4 * (sb * sc) + K * (48 * (sa * s * t))) ∧
      z.toH = (al.map I.M.val).toH * (∑ k ∈ range K, (xs k).toH * (ys k).toH) + (be.map I.M.val).toH * (c.map I.M.val).toH := by
  have q1 : sc ≤ 4 * (sb * sc) := by nlinarith
  have q0 : 1 ≤ s * t := by nlinarith
  have q2 : 0 ≤ sa * s * t := by positivity
  have q3 : (0:ℝ) ≤ K * (48 * (sa * s * t)) := by positivity
  obtain ⟨z, h1, h2⟩ := WQ.pScale hb hβ hc hb1 hc1 (by linarith) (by omega)
  unfold Haxx.pGemvK
  split
  · rename_i e
    simp only [Bool.and_eq_true] at e
    refine ⟨_, hc.mono (by omega) (by linarith), ?_⟩
    rw [hb.one e.2, ha.zero e.1]; simp
  · split
    · rename_i e
      exact ⟨z, h1.mono (by omega) (by linarith), by rw [h2, ha.zero e]; simp⟩
    · split
      · exact ⟨_, (WQ.pAxpysK K hα h1 hx hy ha1 hs ht hB (by omega)).mono (by omega) le_rfl,
          by rw [Haxx.toH_pAxpysK, h2]⟩
      · have q4 : (K : ℝ) * (4 * (s * t)) ≤ K * (48 * (sa * s * t)) := by
          refine mul_le_mul_of_nonneg_left ?_ (by positivity)
          nlinarith
        have q5 : 4 * (sa * (0 + K * (4 * (s * t)))) = K * (16 * (sa * s * t)) := by ring
        have q6 : (K : ℝ) * (16 * (sa * s * t)) ≤ K * (48 * (sa * s * t)) := by
          refine mul_le_mul_of_nonneg_left ?_ (by positivity)
          linarith
        have hD := WQ.mulL hα (WQ.pDotK K hx hy q0 (by linarith) (by omega)) (kOr K ha1 q0) (by linarith) (by omega)
        rw [q5] at hD
        refine ⟨_, (WQ.addAssign h1 hD (by linarith) (by omega)).mono (by omega) (by linarith), ?_⟩
        rw [StdModel.toH_addAssign, StdModel.toH_mulL, Haxx.toH_pDotK, h2, add_comm]

/-- portable GERU and GERC -/
theorem WQ.pGerK (conjY : Bool) {x y : Scal F} {a : Quat F} {sx sy : ℝ} (ha : I.M.Truth al)
    (h0 : y.eqZero = true → (y.map I.M.val).toH = 0)
    (hα : I.WS 0 al (al.map I.M.val) sa) (hx : I.WS 0 x (x.map I.M.val) sx) (hy : I.WS 0 y (y.map I.M.val) sy)
    (hc : I.WQ 0 a (a.map I.M.val) sc) (ha1 : 1 ≤ sa) (hx1 : 1 ≤ sx) (hy1 : 1 ≤ sy)
    (hB : sc + 16 * (sa * sx * sy) ≤ I.S) (hn : 9 ≤ I.n) :
    ∃ z : Quat ℝ, I.WQ 9 (pGerK conjY al x y a) z (sc + 16 * (sa * sx * sy)) ∧
      z.toH = (a.map I.M.val).toH + (al.map I.M.val).toH * (x.map I.M.val).toH *
        (if conjY then star (y.map I.M.val).toH else (y.map I.M.val).toH) := by
  have c0 := hc.nonneg
  have q1 : 1 ≤ sa * sx := by nlinarith
  have q2 : sa * sx ≤ sa * sx * sy := by nlinarith
  unfold Haxx.pGerK
  split
  · rename_i e
    exact ⟨_, hc.mono (by omega) (by linarith), by rw [ha.zero e]; simp⟩
  · split
    · have hz : ∃ z : Scal ℝ, I.WS 0 (if conjY then y.smartConj else y) z sy ∧
          z.toH = (if conjY then star (y.map I.M.val).toH else (y.map I.M.val).toH) := by
        cases conjY
        · exact ⟨_, hy, rfl⟩
        · exact ⟨_, hy.conj, toH_smartConj' _⟩
      obtain ⟨z, hz, ez⟩ := hz
      have hm := WS.mul (WS.mul hα hx q1 (by linarith) (by omega)) hz (by linarith) (by linarith) (by omega)
      refine ⟨_, (WQ.addTo hc hm (by linarith) (by omega)).mono (by omega) (by linarith), ?_⟩
      rw [toH_addTo, toH_scalMul, toH_scalMul, ez]
    · rename_i e
      refine ⟨_, hc.mono (by omega) (by linarith), ?_⟩
      rw [h0 (by simpa using e)]; simp

end Room

open FinModel Room

/-- the first `n` elements of a vector of scalars of any type are finite and of magnitude at most `s` -/
def FinModel.BddKVec (J : FinModel F u η Ω) (s : ℝ) (n : ℕ) (x : ℕ → Scal F) : Prop := ∀ i, i < n → J.BddS s (x i)

/-- C60, AXPYV with x, ALPHA of any scalar type (the test of ALPHA for zero being right, as it is unless only its k component is non-zero). -/
theorem C60_axpyv_mixed (J : FinModel F u η Ω) (m : Mem F) (kX : Kind) (SIDE : Char) (N X INCX Y INCY : Int) (ALPHA : Scal F)
    (x : Nat → Scal F) (y : Nat → Quat F) (hX : KVecAt m kX X INCX N.toNat x) (hY : VecAt m Y INCY N.toNat y)
    (hix : 0 < INCX) (hiy : 0 < INCY) (fx : Fits32 (N * INCX)) (fy : Fits32 (N * INCY))
    (hdis : Apart (KVecCell kX X INCX N.toNat) (VecCell Y INCY N.toNat))
    (hA : ALPHA.eqZero = true → (ALPHA.map J.val).toH = 0) (s t w : ℝ) (hs1 : 1 ≤ s) (ht1 : 1 ≤ t)
    (hα : J.BddS s ALPHA) (hx : J.BddKVec t N.toNat x) (hy : J.BddVec w N.toNat y) (hB : J.Fits 5 (w + 4 * (s * t))) :
    ∃ m' v, axpyvGenK kX SIDE N ALPHA X INCX Y INCY m = .ok ((), m') ∧ VecAt m' Y INCY N.toNat v ∧
      ∀ i, i < N.toNat → J.Near (J.Err 5 (w + 4 * (s * t))) (v i) (((y i).map J.val).toH +
        (if SIDE = 'R' then ((x i).map J.val).toH * (ALPHA.map J.val).toH
         else (ALPHA.map J.val).toH * ((x i).map J.val).toH)) := by
  obtain ⟨m', h1, h2, _⟩ := axpyvGenK_bits m kX SIDE N X INCX Y INCY ALPHA x y hix hiy fx fy hX hY hdis
  refine ⟨m', _, h1, h2, fun i hi => ?_⟩
  unfold pAxpyvK
  cases hz : ALPHA.eqZero with
  | true =>
    rw [if_pos rfl, hA hz]
    have w1 : w ≤ w + 4 * (s * t) := by nlinarith
    simpa using near (h := hB) ((hy i hi).w.mono (q := 0) le_rfl w1) (by omega)
  | false =>
    rw [if_neg Bool.false_ne_true]
    have w0 := (abs_nonneg _).trans (hy i hi).1.2
    have l := near (h := hB) (WQ.addTo (hy i hi).w (WS.mul hα.w (hx i hi).w (one_le_mul' hs1 ht1)
      (by change 4 * (s * t) ≤ w + 4 * (s * t); linarith) (by rmn)) le_rfl (by rmn)) (by omega)
    have r := near (h := hB) ((WQ.addTo (hy i hi).w (WS.mul (hx i hi).w hα.w (one_le_mul' ht1 hs1)
      (by change 4 * (t * s) ≤ w + 4 * (s * t); linarith) (by rmn)) (by change w + 4 * (t * s) ≤ w + 4 * (s * t); linarith) (by rmn)).mono
      (t := w + 4 * (s * t)) le_rfl (by linarith)) (by omega)
    rw [toH_addTo, toH_scalMul] at l r
    by_cases hs : SIDE = 'R' <;> simpa [hs]

/-- C60, GEMM (A, B, ALPHA and BETA of any scalar type). -/
theorem C60_gemm_mixed (J : FinModel F u η Ω) (m : Mem F) (k kB : Kind) (tA tB : Char) (M N K : Int) (ALPHA BETA : Scal F)
    (A LDA Bp LDB C LDC : Int) (Av Bv : Nat → Nat → Scal F) (Cv : Nat → Nat → Quat F)
    (opA opB : Nat → Nat → ℍ[ℝ])
    (hA : KOpIs tA (fun i k => (Av i k).map J.val) opA) (hBo : KOpIs tB (fun i k => (Bv i k).map J.val) opB)
    (ta : J.Truth ALPHA) (tb : J.Truth BETA)
    (h : GemmMArgs m k kB tA tB M N K ALPHA A LDA Bp LDB C LDC Av Bv Cv)
    (sα sβ a b c : ℝ) (hα : J.BddS sα ALPHA) (hβ : J.BddS sβ BETA)
    (iA : J.BddKMat a (if tA = 'N' then M else K).toNat (if tA = 'N' then K else M).toNat Av)
    (iB : J.BddKMat b (if tB = 'N' then K else N).toNat (if tB = 'N' then N else K).toNat Bv)
    (iC : J.BddMat c M.toNat N.toNat Cv) (h1α : 1 ≤ sα) (h1β : 1 ≤ sβ) (ha : 1 ≤ a) (hb : 1 ≤ b) (hc : 1 ≤ c)
    (hB : J.Fits (4 * K.toNat + 8) (4 * (sβ * c) + K.toNat * (16 * (sα * a * b)))) :
    ∃ m' V, gemmGenK k kB tA tB M N K ALPHA A LDA Bp LDB BETA C LDC m = .ok ((), m') ∧
      MatAt m' C LDC M.toNat N.toNat V ∧
      ∀ i j, i < M.toNat → j < N.toNat → J.Near (J.Err (4 * K.toNat + 8) (4 * (sβ * c) + K.toNat * (16 * (sα * a * b)))) (V i j)
        ((ALPHA.map J.val).toH * ∑ k ∈ range K.toNat, opA i k * opB k j +
            (BETA.map J.val).toH * ((Cv i j).map J.val).toH) := by
  obtain ⟨m', h1, h2, _⟩ := gemmGenK_bits m k kB tA tB M N K ALPHA BETA A LDA Bp LDB C LDC Av Bv Cv h
  refine ⟨m', _, h1, h2, fun i j hi hj => ?_⟩
  have eA : ∀ l, ∃ x : Scal ℝ, x.toH = opA i l ∧ (l < K.toNat → (J.rm _ _ hB).WS 0 (opKE tA Av i l) x a) := by
    intro l
    rcases hA with ⟨rfl, e⟩ | ⟨rfl, e⟩ | ⟨rfl, e⟩
    · exact ⟨_, (e i l).symm, fun hl => (iA i l hi hl).w⟩
    · exact ⟨_, (e i l).symm, fun hl => (iA l i hl hi).w⟩
    · exact ⟨((Av l i).map J.val).smartConj, by rw [e, C04_smartConj], fun hl => (iA l i hl hi).w.conj⟩
  have eB : ∀ l, ∃ y : Scal ℝ, y.toH = opB l j ∧ (l < K.toNat → (J.rm _ _ hB).WS 0 (opKE tB Bv l j) y b) := by
    intro l
    rcases hBo with ⟨rfl, e⟩ | ⟨rfl, e⟩ | ⟨rfl, e⟩
    · exact ⟨_, (e l j).symm, fun hl => (iB l j hl hj).w⟩
    · exact ⟨_, (e l j).symm, fun hl => (iB j l hj hl).w⟩
    · exact ⟨((Bv j l).map J.val).smartConj, by rw [e, C04_smartConj], fun hl => (iB j l hj hl).w.conj⟩
  choose x ex hx using eA
  choose y ey hy using eB
  obtain ⟨z, hz, ez⟩ := WQ.pGemmK (tA := tA) ta tb hα.w hβ.w (iC i j hi hj).w hx hy h1α h1β hc ha hb le_rfl (by rmn)
  have := near (h := hB) hz (by omega)
  rw [ez] at this
  simpa only [ex, ey] using this

/-- C60, GEMV (A, x, ALPHA and BETA of any scalar type). -/
theorem C60_gemv_mixed (J : FinModel F u η Ω) (m : Mem F) (k kX : Kind) (t : Char) (M N : Int) (ALPHA : Scal F)
    (A LDA X INCX : Int) (BETA : Scal F) (Y INCY : Int) (a : Nat → Nat → Scal F) (x : Nat → Scal F) (y : Nat → Quat F)
    (op : Nat → Nat → ℍ[ℝ]) (hop : KOpIs t (fun i k => (a i k).map J.val) op)
    (ta : J.Truth ALPHA) (tb : J.Truth BETA) (hM : M ≠ 0) (hN : N ≠ 0)
    (h : GemvMArgs m k kX t M N ALPHA A LDA X INCX Y INCY a x y)
    (sα sβ sa sx sy : ℝ) (hα : J.BddS sα ALPHA) (hβ : J.BddS sβ BETA) (iA : J.BddKMat sa M.toNat N.toNat a)
    (ix : J.BddKVec sx (if t = 'N' then N else M).toNat x) (iy : J.BddVec sy (if t = 'N' then M else N).toNat y)
    (h1α : 1 ≤ sα) (h1β : 1 ≤ sβ) (h1a : 1 ≤ sa) (h1x : 1 ≤ sx) (h1y : 1 ≤ sy)
    (hB : J.Fits (4 * (if t = 'N' then N else M).toNat + 9) (4 * (sβ * sy) + (if t = 'N' then N else M).toNat * (48 * (sα * sa * sx)))) :
    ∃ m' v, gemvGenK k kX t M N ALPHA A LDA X INCX BETA Y INCY m = .ok ((), m') ∧
      VecAt m' Y INCY (if t = 'N' then M else N).toNat v ∧
      ∀ i, i < (if t = 'N' then M else N).toNat → J.Near (J.Err (4 * (if t = 'N' then N else M).toNat + 9) (4 * (sβ * sy) + (if t = 'N' then N else M).toNat * (48 * (sα * sa * sx)))) (v i)
        ((ALPHA.map J.val).toH * ∑ k ∈ range (if t = 'N' then N else M).toNat, op i k * ((x k).map J.val).toH +
            (BETA.map J.val).toH * ((y i).map J.val).toH) := by
  obtain ⟨m', h1, h2, _⟩ := gemvGenK_bits m k kX t M N ALPHA A LDA X INCX BETA Y INCY a x y hM hN h
  refine ⟨m', _, h1, h2, fun i hi => ?_⟩
  have eA : ∀ l, ∃ x : Scal ℝ, x.toH = op i l ∧ (l < (if t = 'N' then N else M).toNat → (J.rm _ _ hB).WS 0 (opVE t a i l) x sa) := by
    intro l
    rcases hop with ⟨rfl, e⟩ | ⟨rfl, e⟩ | ⟨rfl, e⟩
    · exact ⟨_, (e i l).symm, fun hl => (iA i l hi hl).w⟩
    · exact ⟨_, (e i l).symm, fun hl => (iA l i hl hi).w⟩
    · exact ⟨((a l i).map J.val).smartConj, by rw [e, C04_smartConj], fun hl => (iA l i hl hi).w.conj⟩
  choose z ez hz using eA
  obtain ⟨w, hw, ew⟩ := WQ.pGemvK (tA := t) ta tb hα.w hβ.w (iy i hi).w hz (fun k hk => (ix k hk).w)
    h1α h1β h1y h1a h1x le_rfl (by rmn)
  have := near (h := hB) hw (by omega)
  rw [ew] at this
  simpa only [ez] using this

/-- C60, GERU (`conjY = false`) and GERC, for the y_j whose comparison with zero is right. -/
theorem C60_ger_mixed (J : FinModel F u η Ω) (kX kY : Kind) (conjY : Bool) (m : Mem F) (M N : Int) (ALPHA : Scal F)
    (X INCX Y INCY A LDA : Int) (x y : Nat → Scal F) (a : Nat → Nat → Quat F)
    (ta : J.Truth ALPHA) (h : GerMArgs m kX kY M N X INCX Y INCY A LDA x y a)
    (sα sx sy sa : ℝ) (hα : J.BddS sα ALPHA) (ix : J.BddKVec sx M.toNat x) (iy : J.BddKVec sy N.toNat y)
    (iA : J.BddMat sa M.toNat N.toNat a) (h1α : 1 ≤ sα) (h1x : 1 ≤ sx) (h1y : 1 ≤ sy)
    (hB : J.Fits 9 (sa + 16 * (sα * sx * sy))) :
    ∃ m' v, gerGenK kX kY conjY M N ALPHA X INCX Y INCY A LDA m = .ok ((), m') ∧
      MatAt m' A LDA M.toNat N.toNat v ∧
      ∀ i j, i < M.toNat → j < N.toNat →
        ((y j).eqZero = true → ((y j).map J.val).toH = 0) →
        J.Near (J.Err 9 (sa + 16 * (sα * sx * sy))) (v i j) (((a i j).map J.val).toH + (ALPHA.map J.val).toH * ((x i).map J.val).toH *
            (if conjY then star ((y j).map J.val).toH else ((y j).map J.val).toH)) := by
  obtain ⟨m', h1, h2, _⟩ := gerGenK_bits kX kY conjY m M N ALPHA X INCX Y INCY A LDA x y a h
  refine ⟨m', _, h1, h2, fun i j hi hj h0 => ?_⟩
  obtain ⟨z, hz, ez⟩ := WQ.pGerK conjY ta h0 hα.w (ix i hi).w (iy j hj).w (iA i j hi hj).w h1α h1x h1y le_rfl (by rmn)
  have := near (h := hB) hz (by omega)
  rwa [ez] at this

/-! ## Examples: C59 and C60 applied to concrete data (those of `ExactEx` and `FinEx`) -/

section
open IntModel FinModel
variable {fused : Bool}

/-- AXPYV: X real, ALPHA complex. -/
example := C59_axpyv_mixed (rneModel fused) _ .d 'R' 3 0 2 20 1 (.z ⟨num7 1, num7 2⟩) _ _ (axpyvK_example' num7).1
  (axpyvK_example' num7).2.1 (by decide) (by decide) (by unfold Fits32; decide) (by unfold Fits32; decide)
  (axpyvK_example' (num7 (fused := fused))).2.2 (num7_truth 1 2).zero 7 7 7 ⟨num7_int _, num7_int _⟩
  (fun _ _ => num7_int _) (fun _ _ => num7_q ..) (by norm_num)

/-- GEMM: A real, B and ALPHA complex, M N K = 2 2 3. -/
example := C59_gemm_mixed (rneModel fused) _ .d .z 'N' 'N' 2 2 3 (.z ⟨num7 1, num7 2⟩) (.z ⟨num7 3, num7 4⟩) _ _ _ _ _ _ _ _ _ _ _
  (.inl ⟨rfl, fun _ _ => rfl⟩) (.inl ⟨rfl, fun _ _ => rfl⟩) (num7_truth 1 2) (num7_truth 3 4)
  (gemmMArgs_example' num7 _) 7 7 7 7 7 ⟨num7_int _, num7_int _⟩ ⟨num7_int _, num7_int _⟩
  (fun _ _ _ _ => num7_int _) (fun _ _ _ _ => ⟨num7_int _, num7_int _⟩) (fun _ _ _ _ => num7_q ..)
  (by norm_num) (by norm_num) (by norm_num) (by norm_num) (by rw [show (3:Int).toNat = 3 from rfl]; norm_num)

/-- GEMV: A complex and conjugate-transposed, X real. -/
example := C59_gemv_mixed (rneModel fused) _ .z .d 'C' 2 3 (.z ⟨num7 1, num7 2⟩) 0 4 60 2 (.z ⟨num7 3, num7 4⟩) 90 1 _ _ _ _
  (.inr (.inr ⟨rfl, fun _ _ => rfl⟩)) (num7_truth 1 2) (num7_truth 3 4) (by decide) (by decide)
  (gemvMArgs_example' num7 _) 7 7 7 7 7 ⟨num7_int _, num7_int _⟩ ⟨num7_int _, num7_int _⟩
  (fun _ _ _ _ => ⟨num7_int _, num7_int _⟩) (fun _ _ => num7_int _) (fun _ _ => num7_q ..)
  (by norm_num) (by norm_num) (by norm_num) (by norm_num)
  (by rw [show (if 'C' = 'N' then (3:Int) else 2).toNat = 2 from rfl]; norm_num)

/-- GERC: X real, Y complex. -/
example := C59_ger_mixed (rneModel fused) .d .z true _ 2 2 (.z ⟨num7 1, num7 2⟩) 0 3 20 1 60 2 _ _ _ (num7_truth 1 2)
  (gerMArgs_example' num7) 7 7 7 7 ⟨num7_int _, num7_int _⟩ (fun _ _ => num7_int _) (fun _ _ => ⟨num7_int _, num7_int _⟩)
  (fun _ _ _ _ => num7_q ..) (by norm_num) (by norm_num)

example := C60_axpyv_mixed (ieeeModel fused) _ .d 'R' 3 0 2 20 1 (.z ⟨big7 1, big7 2⟩) _ _ (axpyvK_example' big7).1
  (axpyvK_example' big7).2.1 (by decide) (by decide) (by unfold Fits32; decide) (by unfold Fits32; decide)
  (axpyvK_example' (big7 (fused := fused))).2.2 (big7_truth 1 2).zero big big big
  one_le_big one_le_big ⟨big7_bdd _, big7_bdd _⟩ (fun _ _ => big7_bdd _) (fun _ _ => big7_q ..) (by fitsb)

example := C60_gemm_mixed (ieeeModel fused) _ .d .z 'N' 'N' 2 2 3 (.z ⟨big7 1, big7 2⟩) (.z ⟨big7 3, big7 4⟩) _ _ _ _ _ _ _ _ _ _ _
  (.inl ⟨rfl, fun _ _ => rfl⟩) (.inl ⟨rfl, fun _ _ => rfl⟩) (big7_truth 1 2) (big7_truth 3 4)
  (gemmMArgs_example' big7 _) big big big big big ⟨big7_bdd _, big7_bdd _⟩ ⟨big7_bdd _, big7_bdd _⟩
  (fun _ _ _ _ => big7_bdd _) (fun _ _ _ _ => ⟨big7_bdd _, big7_bdd _⟩) (fun _ _ _ _ => big7_q ..)
  one_le_big one_le_big one_le_big one_le_big one_le_big
  (by
    refine fits_big (by decide) ?_
    rw [show (3:Int).toNat = 3 from rfl]; push_cast; linarith [big_pow.1, big_pow.2.1, big_pow.2.2])

example := C60_gemv_mixed (ieeeModel fused) _ .z .d 'C' 2 3 (.z ⟨big7 1, big7 2⟩) 0 4 60 2 (.z ⟨big7 3, big7 4⟩) 90 1 _ _ _ _
  (.inr (.inr ⟨rfl, fun _ _ => rfl⟩)) (big7_truth 1 2) (big7_truth 3 4) (by decide) (by decide)
  (gemvMArgs_example' big7 _) big big big big big ⟨big7_bdd _, big7_bdd _⟩ ⟨big7_bdd _, big7_bdd _⟩
  (fun _ _ _ _ => ⟨big7_bdd _, big7_bdd _⟩) (fun _ _ => big7_bdd _) (fun _ _ => big7_q ..)
  one_le_big one_le_big one_le_big one_le_big one_le_big (by fitsb)

example := C60_ger_mixed (ieeeModel fused) .d .z true _ 2 2 (.z ⟨big7 1, big7 2⟩) 0 3 20 1 60 2 _ _ _ (big7_truth 1 2)
  (gerMArgs_example' big7) big big big big ⟨big7_bdd _, big7_bdd _⟩ (fun _ _ => big7_bdd _) (fun _ _ => ⟨big7_bdd _, big7_bdd _⟩)
  (fun _ _ _ _ => big7_q ..) one_le_big one_le_big one_le_big (by fitsb)
end

end Haxx
