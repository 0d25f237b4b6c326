import Verif.PropsMix
import Verif.PropsMixFin
import Verif.PropsRound2

/-!
# C42 for the mixed-type templates

X, Y, A and B of any of the three types (`MixGen`): the rounding error of every element is bounded, with the
same constants as for quaternion operands.
-/

set_option linter.unusedSectionVars false

namespace Haxx
open Quaternion Finset

variable {F : Type} [Arith F] {u : ℝ}

namespace StdModel
variable {S : StdModel F u} {p q n : ℕ} {x' : Quat F} {x A B T U : Quat ℝ} {al' : Scal F} {al : Scal ℝ} {s t : ℝ}

/-- `q += s` for a scalar `s` of any type -/
theorem QR.addTo (h : S.QR p x' x (broadcast s)) (g : S.SR q al' al (broadcast t)) (ht : 0 ≤ t) (hp : p + 1 ≤ n)
    (hq : q + 1 ≤ n) : S.QR n (Scal.addTo x' al') (Scal.addTo x al) (broadcast (s + t)) := by
  have l : s ≤ s + t := by linarith
  have hpn : p ≤ n := by omega
  cases al' <;> cases al <;> first | exact g.elim | skip
  · exact ⟨h.1.addL g hp hq, h.2.1.mono hpn l, h.2.2.1.mono hpn l, h.2.2.2.mono hpn l⟩
  · exact ⟨h.1.addL g.1 hp hq, h.2.1.addL g.2 hp hq, h.2.2.1.mono hpn l, h.2.2.2.mono hpn l⟩
  · exact h.addAssign g hp hq

/-- the constructor `quaternion(s)` -/
theorem SR.toQuat (g : S.SR p al' al (broadcast t)) (ht : 0 ≤ t) : S.QR p al'.toQuat al.toQuat (broadcast t) := by
  cases al' <;> cases al <;> first | exact g.elim | skip
  · exact ⟨g, R.zero.mono le_rfl ht, R.zero.mono le_rfl ht, R.zero.mono le_rfl ht⟩
  · exact ⟨g.1, g.2, R.zero.mono le_rfl ht, R.zero.mono le_rfl ht⟩
  · exact g

variable {α β : Scal F} {a' y' : ℕ → Scal F} {a y : ℕ → Scal ℝ} {As Bs : ℕ → Quat ℝ} {c' : Quat F} {c : Quat ℝ}

theorem QR.pDotK (hx : ∀ k, S.SR 0 (a' k) (a k) (As k)) (hy : ∀ k, S.SR 0 (y' k) (y k) (Bs k)) (K : ℕ) :
    S.QR (4 + K) (Haxx.pDotK a' y' K) (Haxx.pDotK a y K)
      (broadcast (∑ k ∈ range K, ‖(As k).toH‖ * ‖(Bs k).toH‖)) := by
  induction K with
  | zero => exact QR.zero
  | succ K ih =>
    rw [sum_range_succ]
    exact QR.addTo ih (SR.mul (hx K) (hy K)) (by positivity) (by omega) (by omega)

theorem QR.pAccK (hx : ∀ k, S.SR 0 (a' k) (a k) (As k)) (hy : ∀ k, S.SR 0 (y' k) (y k) (Bs k))
    (hc : S.QR 8 c' c (broadcast s)) (K : ℕ) :
    S.QR (8 + K) (Haxx.pAccK α a' y' c' K) (Haxx.pAccK (α.map S.val) a y c K)
      (broadcast (s + ∑ k ∈ range K, 2 * (‖(α.map S.val).toH‖ * ‖(As k).toH‖) * ‖(Bs k).toH‖)) := by
  induction K with
  | zero => simpa [Haxx.pAccK] using hc
  | succ K ih =>
    rw [sum_range_succ, ← add_assoc s]
    have h := SR.mul (SR.mul (SR.exact (p := 0) α) (hx K)) (hy K)
    rw [norm_broadcast (by positivity), norm_emb] at h
    exact QR.addTo (p := 8 + K) (q := 8) ih h (by positivity) (by omega) (by omega)

theorem QR.pAxpysK (ha : ∀ k, S.SR 0 (a' k) (a k) (As k)) (hx : ∀ k, S.SR 0 (y' k) (y k) (Bs k))
    (hc : S.QR 8 c' c (broadcast s)) (K : ℕ) :
    S.QR (8 + 2 * K) (Haxx.pAxpysK α a' y' c' K) (Haxx.pAxpysK (α.map S.val) a y c K)
      (broadcast (s + ∑ k ∈ range K, 6 * (‖(α.map S.val).toH‖ * (‖(As k).toH‖ * ‖(Bs k).toH‖)))) := by
  induction K with
  | zero => simpa [Haxx.pAxpysK] using hc
  | succ K ih =>
    have h1 := QR.mulL (ha K) (SR.toQuat (SR.mul (SR.exact (p := 0) α) (hx K)) (by positivity))
    rw [norm_broadcast (by positivity), norm_emb] at h1
    have h2 := SR.mul (SR.comm (SR.exact α) (ha K)) (hx K)
    rw [norm_broadcast (by positivity), norm_emb] at h2
    have h3 := QR.addAssign (n := 9 + 2 * K) ih h1 (by omega) (by omega)
    have h4 := QR.addTo (n := 10 + 2 * K) h3 h2 (by positivity) (by omega) (by omega)
    refine QR.mono h4 (by omega) (le_of_eq ?_)
    rw [sum_range_succ]; ring

variable [ArithEq F]

/-- one entry of the mixed-type GEMM -/
theorem QR.pGemmK {tA : Char} {K : Int} {c : Quat F} (ha : Truth S α) (hb : Truth S β)
    (hx : ∀ k, S.SR 0 (a' k) (a k) (As k)) (hy : ∀ k, S.SR 0 (y' k) (y k) (Bs k)) :
    ∃ z : Quat ℝ, S.QR (K.toNat + 9) (Haxx.pGemmK tA α β K a' y' c) z
        (broadcast (‖(β.map S.val).toH‖ * ‖(c.map S.val).toH‖ +
          2 * ‖(α.map S.val).toH‖ * ∑ k ∈ range K.toNat, ‖(As k).toH‖ * ‖(Bs k).toH‖)) ∧
      z.toH = (α.map S.val).toH * (∑ k ∈ range K.toNat, (a k).toH * (y k).toH) +
        (β.map S.val).toH * (c.map S.val).toH := by
  have hs : 0 ≤ 2 * ‖(α.map S.val).toH‖ * ∑ k ∈ range K.toNat, ‖(As k).toH‖ * ‖(Bs k).toH‖ := by positivity
  have hs2 : 0 ≤ ‖(β.map S.val).toH‖ * ‖(c.map S.val).toH‖ := by positivity
  unfold Haxx.pGemmK
  split
  · rename_i e
    simp only [Bool.and_eq_true, Bool.or_eq_true, decide_eq_true_eq] at e
    have hb1 := hb.one e.2
    refine ⟨c.map S.val, (QR.exact c).toNorm.mono (p := 0) (by omega) ?_, ?_⟩
    · rw [hb1]; simpa using hs
    · rw [hb1, one_mul]
      rcases e.1 with e | e
      · rw [ha.zero e, zero_mul, zero_add]
      · rw [e]; simp
  · split
    · rename_i e
      rw [ha.zero e]
      split
      · rename_i e
        refine ⟨Quat.mkReal 0, QR.zero.mono (p := 0) (by omega) (by rw [hb.zero e]; simp), ?_⟩
        rw [hb.zero e, toH_mkReal0]; simp
      · refine ⟨_, (QR.betaC β c).mono (by omega) (by simp), ?_⟩
        rw [toH_mulL]; simp
    · split
      · have hB : ∃ z : Quat ℝ, S.QR 8 (pBeta β c) z (broadcast (‖(β.map S.val).toH‖ * ‖(c.map S.val).toH‖)) ∧
            z.toH = (β.map S.val).toH * (c.map S.val).toH := by
          unfold pBeta
          split
          · rename_i e
            refine ⟨Quat.mkReal 0, QR.zero.mono (p := 0) (by omega) hs2, ?_⟩
            rw [hb.zero e, toH_mkReal0]; simp
          · split
            · exact ⟨_, (QR.betaC β c).le (by omega), toH_mulL _ _⟩
            · rename_i e
              have hb1 := hb.one (by simpa using e)
              refine ⟨c.map S.val, (QR.exact c).toNorm.mono (p := 0) (by omega) ?_, ?_⟩
              · rw [hb1]; simp
              · rw [hb1, one_mul]
        obtain ⟨z, h1, h2⟩ := hB
        refine ⟨_, (QR.pAccK (α := α) hx hy h1 K.toNat).mono (by omega) (le_of_eq ?_), ?_⟩
        · rw [mul_sum]; congr 1; apply sum_congr rfl; intros; ring
        · rw [toH_pAccK, h2, add_comm]
      · have hD := QR.mulL (SR.exact (p := 0) α) (QR.pDotK hx hy K.toNat)
        rw [norm_broadcast (by positivity), norm_emb] at hD
        have e2 : ‖(α.map S.val).toH‖ * (2 * ∑ k ∈ range K.toNat, ‖(As k).toH‖ * ‖(Bs k).toH‖) =
          2 * ‖(α.map S.val).toH‖ * ∑ k ∈ range K.toNat, ‖(As k).toH‖ * ‖(Bs k).toH‖ := by ring
        rw [e2] at hD
        unfold pStore
        split
        · rename_i e
          refine ⟨_, hD.mono (by omega) (by linarith), ?_⟩
          rw [toH_mulL, toH_pDotK, hb.zero e]; simp
        · refine ⟨_, (QR.addAssign hD (QR.betaC β c) (n := K.toNat + 9) (by omega) (by omega)).mono le_rfl
            (le_of_eq (add_comm _ _)), ?_⟩
          rw [toH_addAssign, toH_mulL, toH_mulL, toH_pDotK]

/-- one element of the mixed-type GEMV -/
theorem QR.pGemvK {t : Char} {K : ℕ} {c : Quat F} (hα : Truth S α) (hb : Truth S β)
    (ha : ∀ k, S.SR 0 (a' k) (a k) (As k)) (hx : ∀ k, S.SR 0 (y' k) (y k) (Bs k)) :
    ∃ z : Quat ℝ, S.QR (2 * K + 9) (Haxx.pGemvK t α β K a' y' c) z
        (broadcast (‖(β.map S.val).toH‖ * ‖(c.map S.val).toH‖ +
          6 * ‖(α.map S.val).toH‖ * ∑ k ∈ range K, ‖(As k).toH‖ * ‖(Bs k).toH‖)) ∧
      z.toH = (α.map S.val).toH * (∑ k ∈ range K, (a k).toH * (y k).toH) +
        (β.map S.val).toH * (c.map S.val).toH := by
  have hs : 0 ≤ ‖(α.map S.val).toH‖ * ∑ k ∈ range K, ‖(As k).toH‖ * ‖(Bs k).toH‖ := by positivity
  obtain ⟨z, h1, h2⟩ := QR.pScale (S := S) hb c
  unfold Haxx.pGemvK
  split
  · rename_i e
    simp only [Bool.and_eq_true] at e
    refine ⟨c.map S.val, (QR.exact c).toNorm.mono (p := 0) (by omega) ?_, ?_⟩
    · rw [hb.one e.2]; simp only [norm_one, one_mul]; linarith
    · rw [hb.one e.2, hα.zero e.1]; simp
  · split
    · rename_i e
      exact ⟨z, h1.mono (by omega) (by linarith), by rw [h2, hα.zero e]; simp⟩
    · split
      · refine ⟨_, (QR.pAxpysK (α := α) ha hx h1 K).mono (by omega) (le_of_eq ?_), ?_⟩
        · rw [mul_sum]; congr 1; apply sum_congr rfl; intros; ring
        · rw [toH_pAxpysK, h2, add_comm]
      · have hD := QR.mulL (SR.exact (p := 0) α) (QR.pDotK ha hx K)
        rw [norm_broadcast (by positivity), norm_emb] at hD
        refine ⟨_, (QR.addAssign h1 hD (n := K + 9) (by omega) (by omega)).mono (by omega) (by linarith), ?_⟩
        rw [toH_addAssign, toH_mulL, toH_pDotK, h2, add_comm]

end StdModel

variable [ArithEq F]

/-- C42, portable AXPYV with X and ALPHA of any type:
`‖computed - exact‖ ≤ 2((1+u)⁵-1) (‖y_i‖ + ‖ALPHA‖ ‖x_i‖)`. -/
theorem C42_axpyv_mixed (S : StdModel F u) (m : Mem F) (kX : Kind) (SIDE : Char) (N X INCX Y INCY : Int) (ALPHA : Scal F)
    (x : Nat → Scal F) (y : Nat → Quat F) (hX : KVecAt m kX X INCX N.toNat x) (hY : VecAt m Y INCY N.toNat y)
    (hix : 0 < INCX) (hiy : 0 < INCY) (fx : Fits32 (N * INCX)) (fy : Fits32 (N * INCY))
    (hdis : Apart (KVecCell kX X INCX N.toNat) (VecCell Y INCY N.toNat))
    (hA : ALPHA.eqZero = true → (ALPHA.map S.val).toH = 0) :
    ∃ m' v, axpyvGenK kX SIDE N ALPHA X INCX Y INCY m = .ok ((), m') ∧ VecAt m' Y INCY N.toNat v ∧
      ∀ i, i < N.toNat → (v i).All S.ok →
        ‖((v i).map S.val).toH - (((y i).map S.val).toH +
          (if SIDE = 'R' then ((x i).map S.val).toH * (ALPHA.map S.val).toH
           else (ALPHA.map S.val).toH * ((x i).map S.val).toH))‖ ≤
          2 * (((1 + u) ^ 5 - 1) * (‖((y i).map S.val).toH‖ +
            ‖(ALPHA.map S.val).toH‖ * ‖((x i).map S.val).toH‖)) := by
  obtain ⟨m', h1, h2, _⟩ := axpyvGenK_bits m kX SIDE N X INCX Y INCY ALPHA x y hix hiy fx fy hX hY hdis
  refine ⟨m', _, h1, h2, fun i _ ho => ?_⟩
  unfold pAxpyvK at ho ⊢
  cases hz : ALPHA.eqZero with
  | true =>
    rw [if_pos rfl, hA hz]
    have h1 := S.one_le_pow 5
    have : 0 ≤ ((1 + u) ^ 5 - 1) * ‖((y i).map S.val).toH‖ := mul_nonneg (by linarith) (norm_nonneg _)
    simpa using this
  | false =>
    rw [hz, if_neg Bool.false_ne_true] at ho
    rw [if_neg Bool.false_ne_true]
    have hq : S.QR 4 (y i) ((y i).map S.val) (broadcast ‖((y i).map S.val).toH‖) :=
      (StdModel.QR.exact (y i)).toNorm
    have hl := StdModel.SR.mul (StdModel.SR.exact (S := S) (p := 0) ALPHA) (StdModel.SR.exact (S := S) (p := 0) (x i))
    have hr := StdModel.SR.mul (StdModel.SR.exact (S := S) (p := 0) (x i)) (StdModel.SR.exact (S := S) (p := 0) ALPHA)
    rw [StdModel.norm_emb, StdModel.norm_emb] at hl hr
    rw [mul_comm] at hr
    by_cases hs : SIDE = 'R'
    · simp only [if_pos hs] at ho ⊢
      have := (StdModel.QR.addTo (n := 5) hq hr (by positivity) le_rfl le_rfl).norm ho
      rwa [toH_addTo, toH_scalMul] at this
    · simp only [if_neg hs] at ho ⊢
      have := (StdModel.QR.addTo (n := 5) hq hl (by positivity) le_rfl le_rfl).norm ho
      rwa [toH_addTo, toH_scalMul] at this

/-- every entry of op(A) is represented exactly -/
theorem srOp (S : StdModel F u) {t : Char} {Av : Nat → Nat → Scal F} {op : Nat → Nat → ℍ[ℝ]}
    (h : KOpIs t (fun i k => (Av i k).map S.val) op) (i l : Nat) :
    ∃ (x : Scal ℝ) (T : Quat ℝ), S.SR 0 (opKE t Av i l) x T ∧ x.toH = op i l ∧ ‖T.toH‖ = ‖op i l‖ := by
  rcases h with ⟨rfl, e⟩ | ⟨rfl, e⟩ | ⟨rfl, e⟩
  · exact ⟨_, _, StdModel.SR.exact _, (e i l).symm, by rw [e, StdModel.norm_emb]; rfl⟩
  · exact ⟨_, _, StdModel.SR.exact _, (e i l).symm, by rw [e, StdModel.norm_emb]; rfl⟩
  · refine ⟨_, _, (StdModel.SR.exact (Av l i)).conj, ?_, ?_⟩
    · rw [e, C04_smartConj]
    · rw [e, StdModel.norm_emb, Quaternion.norm_star]

/-- every entry of op(A) is represented exactly (GEMV) -/
theorem srOpV (S : StdModel F u) {t : Char} {Av : Nat → Nat → Scal F} {op : Nat → Nat → ℍ[ℝ]}
    (h : KOpIs t (fun i k => (Av i k).map S.val) op) (i l : Nat) :
    ∃ (x : Scal ℝ) (T : Quat ℝ), S.SR 0 (opVE t Av i l) x T ∧ x.toH = op i l ∧ ‖T.toH‖ = ‖op i l‖ := by
  rcases h with ⟨rfl, e⟩ | ⟨rfl, e⟩ | ⟨rfl, e⟩
  · exact ⟨_, _, StdModel.SR.exact _, (e i l).symm, by rw [e, StdModel.norm_emb]; rfl⟩
  · exact ⟨_, _, StdModel.SR.exact _, (e i l).symm, by rw [e, StdModel.norm_emb]; rfl⟩
  · refine ⟨_, _, (StdModel.SR.exact (Av l i)).conj, ?_, ?_⟩
    · rw [e, C04_smartConj]
    · rw [e, StdModel.norm_emb, Quaternion.norm_star]

/-- C42, portable GEMM with A, B, ALPHA and BETA of any type: every entry of the result satisfies
`‖computed - exact‖ ≤ 2((1+u)^(K+9)-1) (‖BETA‖ ‖C_ij‖ + 2 ‖ALPHA‖ Σ_k ‖op(A)_ik‖ ‖op(B)_kj‖)`. -/
theorem C42_gemm_mixed (S : StdModel F u) (m : Mem F) (k kB : Kind) (tA tB : Char) (M N K : Int) (ALPHA BETA : Scal F)
    (A LDA Bp LDB C LDC : Int) (Av Bv : Nat → Nat → Scal F) (Cv : Nat → Nat → Quat F)
    (opA opB : Nat → Nat → ℍ[ℝ])
    (hA : KOpIs tA (fun i k => (Av i k).map S.val) opA) (hB : KOpIs tB (fun i k => (Bv i k).map S.val) opB)
    (ha : StdModel.Truth S ALPHA) (hb : StdModel.Truth S BETA)
    (h : GemmMArgs m k kB tA tB M N K ALPHA A LDA Bp LDB C LDC Av Bv Cv) :
    ∃ m' V, gemmGenK k kB tA tB M N K ALPHA A LDA Bp LDB BETA C LDC m = .ok ((), m') ∧
      MatAt m' C LDC M.toNat N.toNat V ∧
      ∀ i j, i < M.toNat → j < N.toNat → (V i j).All S.ok →
        ‖((V i j).map S.val).toH - ((ALPHA.map S.val).toH * ∑ k ∈ range K.toNat, opA i k * opB k j +
            (BETA.map S.val).toH * ((Cv i j).map S.val).toH)‖ ≤
          2 * (((1 + u) ^ (K.toNat + 9) - 1) *
            (‖(BETA.map S.val).toH‖ * ‖((Cv i j).map S.val).toH‖ +
              2 * ‖(ALPHA.map S.val).toH‖ * ∑ k ∈ range K.toNat, ‖opA i k‖ * ‖opB k j‖)) := by
  obtain ⟨m', h1, h2, _⟩ := gemmGenK_bits m k kB tA tB M N K ALPHA BETA A LDA Bp LDB C LDC Av Bv Cv h
  refine ⟨m', _, h1, h2, fun i j _ _ ho => ?_⟩
  choose x T hx ex nx using srOp S hA i
  choose y U hy ey ny using fun l => srOp S hB l j
  obtain ⟨z, hz, ez⟩ := StdModel.QR.pGemmK (tA := tA) (c := Cv i j) (K := K) ha hb hx hy
  have := hz.norm ho
  rw [ez] at this
  simpa only [ex, ey, nx, ny] using this

/-- C42, portable GEMV with A, x, ALPHA and BETA of any type: with K the length of x, every element of the
result satisfies `‖computed - exact‖ ≤ 2((1+u)^(2K+9)-1) (‖BETA‖ ‖y_i‖ + 6 ‖ALPHA‖ Σ_k ‖op(A)_ik‖ ‖x_k‖)`. -/
theorem C42_gemv_mixed (S : StdModel F u) (m : Mem F) (k kX : Kind) (t : Char) (M N : Int) (ALPHA : Scal F)
    (A LDA X INCX : Int) (BETA : Scal F) (Y INCY : Int) (a : Nat → Nat → Scal F) (x : Nat → Scal F) (y : Nat → Quat F)
    (op : Nat → Nat → ℍ[ℝ]) (hop : KOpIs t (fun i k => (a i k).map S.val) op)
    (ha : StdModel.Truth S ALPHA) (hb : StdModel.Truth S BETA) (hM : M ≠ 0) (hN : N ≠ 0)
    (h : GemvMArgs m k kX t M N ALPHA A LDA X INCX Y INCY a x y) :
    ∃ m' v, gemvGenK k kX t M N ALPHA A LDA X INCX BETA Y INCY m = .ok ((), m') ∧
      VecAt m' Y INCY (if t = 'N' then M else N).toNat v ∧
      ∀ i, i < (if t = 'N' then M else N).toNat → (v i).All S.ok →
        ‖((v i).map S.val).toH - ((ALPHA.map S.val).toH *
            ∑ k ∈ range (if t = 'N' then N else M).toNat, op i k * ((x k).map S.val).toH +
            (BETA.map S.val).toH * ((y i).map S.val).toH)‖ ≤
          2 * (((1 + u) ^ (2 * (if t = 'N' then N else M).toNat + 9) - 1) *
            (‖(BETA.map S.val).toH‖ * ‖((y i).map S.val).toH‖ +
              6 * ‖(ALPHA.map S.val).toH‖ * ∑ k ∈ range (if t = 'N' then N else M).toNat, ‖op i k‖ * ‖((x k).map S.val).toH‖)) := by
  obtain ⟨m', h1, h2, _⟩ := gemvGenK_bits m k kX t M N ALPHA A LDA X INCX BETA Y INCY a x y hM hN h
  refine ⟨m', _, h1, h2, fun i _ ho => ?_⟩
  choose z T hz ez nz using srOpV S hop i
  obtain ⟨w, hw, ew⟩ := StdModel.QR.pGemvK (t := t) (c := y i) (K := (if t = 'N' then N else M).toNat) ha hb hz
    (fun l => StdModel.SR.exact (S := S) (p := 0) (x l))
  have := hw.norm ho
  rw [ew] at this
  simpa only [ez, nz, StdModel.norm_emb] using this

/-- C42, portable GERU (`conjY = false`) and GERC with x, y and ALPHA of any type: every entry of the result satisfies
`‖computed - exact‖ ≤ 2((1+u)⁹-1) (‖A_ij‖ + 2 ‖ALPHA‖ ‖x_i‖ ‖y_j‖)`, for the y_j whose comparison with 0 tells
the truth (all but a quaternion `ck`, see `C63_pure_k_violated`). -/
theorem C42_ger_mixed (S : StdModel F u) (kX kY : Kind) (conjY : Bool) (m : Mem F) (M N : Int) (ALPHA : Scal F)
    (X INCX Y INCY A LDA : Int) (x y : Nat → Scal F) (a : Nat → Nat → Quat F)
    (ha : StdModel.Truth S ALPHA) (h : GerMArgs m kX kY M N X INCX Y INCY A LDA x y a) :
    ∃ m' v, gerGenK kX kY conjY M N ALPHA X INCX Y INCY A LDA m = .ok ((), m') ∧
      MatAt m' A LDA M.toNat N.toNat v ∧
      ∀ i j, i < M.toNat → j < N.toNat → (v i j).All S.ok →
        ((y j).eqZero = true → ((y j).map S.val).toH = 0) →
        ‖((v i j).map S.val).toH - (((a i j).map S.val).toH + (ALPHA.map S.val).toH * ((x i).map S.val).toH *
            (if conjY then star ((y j).map S.val).toH else ((y j).map S.val).toH))‖ ≤
          2 * (((1 + u) ^ 9 - 1) * (‖((a i j).map S.val).toH‖ +
              2 * ‖(ALPHA.map S.val).toH‖ * ‖((x i).map S.val).toH‖ * ‖((y j).map S.val).toH‖)) := by
  obtain ⟨m', h1, h2, _⟩ := gerGenK_bits kX kY conjY m M N ALPHA X INCX Y INCY A LDA x y a h
  refine ⟨m', _, h1, h2, fun i j _ _ ho h0 => ?_⟩
  have triv : 0 ≤ 2 * (((1 + u) ^ 9 - 1) * (‖((a i j).map S.val).toH‖ +
              2 * ‖(ALPHA.map S.val).toH‖ * ‖((x i).map S.val).toH‖ * ‖((y j).map S.val).toH‖)) := by
    have := S.one_le_pow 9
    have h2 : 0 ≤ (1 + u) ^ 9 - 1 := by linarith
    positivity
  by_cases e : ALPHA.eqZero = true
  · simp only [pGerK, if_pos e]
    rw [ha.zero e]
    rw [ha.zero e] at triv
    simpa using triv
  · by_cases e2 : (y j).eqZero = true
    · simp only [pGerK, if_neg e, e2]
      rw [h0 e2] at triv ⊢
      simpa using triv
    · have e3 : (!(y j).eqZero) = true := by simpa using e2
      simp only [pGerK, if_neg e, if_pos e3] at ho ⊢
      have hc : ∃ z : Scal ℝ, S.SR 0 (if conjY then (y j).smartConj else y j) z (Quat.abs ((y j).map S.val).emb) ∧
          z.toH = (if conjY then star ((y j).map S.val).toH else ((y j).map S.val).toH) := by
        cases conjY
        · exact ⟨_, StdModel.SR.exact _, rfl⟩
        · exact ⟨_, (StdModel.SR.exact (y j)).conj, C04_smartConj _⟩
      obtain ⟨z, hz, ez⟩ := hc
      have hm := StdModel.SR.mul (StdModel.SR.mul (StdModel.SR.exact (S := S) (p := 0) ALPHA)
        (StdModel.SR.exact (S := S) (p := 0) (x i))) hz
      rw [norm_broadcast (by positivity), StdModel.norm_emb, StdModel.norm_emb, StdModel.norm_emb] at hm
      have hq : S.QR 0 (a i j) ((a i j).map S.val) (broadcast ‖((a i j).map S.val).toH‖) :=
        (StdModel.QR.exact (a i j)).toNorm
      have := (StdModel.QR.addTo (n := 9) hq hm (by positivity) (by omega) (by omega)).norm ho
      rw [toH_addTo, toH_scalMul, toH_scalMul, ez] at this
      refine this.trans (le_of_eq ?_)
      ring

/-! ## Examples: the hypotheses hold for concrete data in 53-bit arithmetic -/

section
variable (f : Int → Chop)

/-- AXPYV: X real, ALPHA complex. -/
example := C42_axpyv_mixed chopModel _ .d 'R' 3 0 2 20 1 (.z ⟨f 1, f 2⟩) _ _ (axpyvK_example' f).1
  (axpyvK_example' f).2.1 (by decide) (by decide) (by unfold Fits32; decide) (by unfold Fits32; decide)
  (axpyvK_example' f).2.2 ((truth_of chop_truth.1 chop_truth.2).2.1 _).zero

/-- GEMM: A real, B, ALPHA and BETA complex, M N K = 2 2 3. -/
example := C42_gemm_mixed chopModel _ .d .z 'N' 'N' 2 2 3 (.z ⟨f 1, f 2⟩) (.z ⟨f 3, f 4⟩) _ _ _ _ _ _ _ _ _ _ _
  (.inl ⟨rfl, fun _ _ => rfl⟩) (.inl ⟨rfl, fun _ _ => rfl⟩) ((truth_of chop_truth.1 chop_truth.2).2.1 _)
  ((truth_of chop_truth.1 chop_truth.2).2.1 _) (gemmMArgs_example' f _)

/-- GEMV: A complex and conjugate-transposed, X real. -/
example := C42_gemv_mixed chopModel _ .z .d 'C' 2 3 (.z ⟨f 1, f 2⟩) 0 4 60 2 (.z ⟨f 3, f 4⟩) 90 1 _ _ _ _
  (.inr (.inr ⟨rfl, fun _ _ => rfl⟩)) ((truth_of chop_truth.1 chop_truth.2).2.1 _)
  ((truth_of chop_truth.1 chop_truth.2).2.1 _) (by decide) (by decide) (gemvMArgs_example' f _)

/-- GERC: X real, Y complex. -/
example := C42_ger_mixed chopModel .d .z true _ 2 2 (.z ⟨f 1, f 2⟩) 0 3 20 1 60 2 _ _ _
  ((truth_of chop_truth.1 chop_truth.2).2.1 _) (gerMArgs_example' f)
end

end Haxx
