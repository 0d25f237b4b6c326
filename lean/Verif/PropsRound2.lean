import Verif.Generic2Bits
import Verif.PropsRoundP

/-!
# C42 for the portable GEMV, GERU and GERC
-/

namespace Haxx
open Quaternion Finset

variable {F : Type} [Arith F] {u : ℝ}

namespace StdModel
variable {S : StdModel F u} {p q r n : ℕ} {x' y' r' : Quat F} {x y z A B T U : Quat ℝ} {s t : ℝ}

/-- `ALPHA*a - a*ALPHA` -/
theorem SR.comm {α' a' : Scal F} {α a : Scal ℝ} (hα : S.SR 0 α' α T) (ha : S.SR 0 a' a U) :
    S.SR 5 ((α'.mul a').sub (a'.mul α')) ((α.mul a).sub (a.mul α)) (broadcast (2 * (‖T.toH‖ * ‖U.toH‖))) := by
  have h1 := SR.mul hα ha
  have h2 := SR.mul ha hα
  rw [mul_comm ‖U.toH‖] at h2
  have e : 2 * (‖T.toH‖ * ‖U.toH‖) = ‖T.toH‖ * ‖U.toH‖ + ‖T.toH‖ * ‖U.toH‖ := by ring
  rw [e]
  cases α' <;> cases α <;> first | exact hα.elim | skip
  all_goals cases a' <;> cases a <;> first | exact ha.elim | skip
  all_goals first
    | exact R.sub h1 h2
    | exact ⟨R.sub h1.1 h2.1, R.sub h1.2 h2.2⟩
    | exact ⟨R.sub h1.1 h2.1, R.sub h1.2.1 h2.2.1, R.sub h1.2.2.1 h2.2.2.1, R.sub h1.2.2.2 h2.2.2.2⟩

theorem QR.pAxpys {α : Scal F} {a' : ℕ → Scal F} {x' : ℕ → Quat F} {a : ℕ → Scal ℝ} {x A B : ℕ → Quat ℝ} {c' : Quat F}
    {c : Quat ℝ} (ha : ∀ k, S.SR 0 (a' k) (a k) (A k)) (hx : ∀ k, S.QR 0 (x' k) (x k) (B k))
    (hc : S.QR 8 c' c (broadcast s)) (K : ℕ) :
    S.QR (8 + 2 * K) (Haxx.pAxpys α a' x' c' K) (Haxx.pAxpys (α.map S.val) a x c K)
      (broadcast (s + ∑ k ∈ range K, 6 * (‖(α.map S.val).toH‖ * (‖(A k).toH‖ * ‖(B k).toH‖)))) := by
  induction K with
  | zero => simpa [Haxx.pAxpys] using hc
  | succ K ih =>
    have h1 := QR.mulL (ha K) (QR.mulL (SR.exact (p := 0) α) (hx K))
    rw [norm_broadcast (by positivity), norm_emb] at h1
    have h2 := QR.mulL (SR.comm (SR.exact α) (ha K)) (hx K)
    rw [norm_broadcast (by positivity), norm_emb] at h2
    have h3 := QR.addAssign (n := 9 + 2 * K) ih h1 (by omega) (by omega)
    have h4 := QR.addAssign (n := 10 + 2 * K) h3 h2 (by omega) (by omega)
    refine QR.mono h4 (by omega) (le_of_eq ?_)
    rw [sum_range_succ]; ring

theorem toH_pAxpy (α a : Scal ℝ) (x y : Quat ℝ) :
    (Haxx.pAxpy α a x y).toH = y.toH + α.toH * (a.toH * x.toH) := by
  unfold Haxx.pAxpy
  rw [toH_addAssign, toH_addAssign, toH_mulL, toH_mulL, toH_mulL, toH_scalComm]
  rw [sub_mul, mul_assoc, mul_assoc]; abel

theorem toH_pAxpys (α : Scal ℝ) (a : ℕ → Scal ℝ) (x : ℕ → Quat ℝ) (y : Quat ℝ) (K : ℕ) :
    (Haxx.pAxpys α a x y K).toH = y.toH + α.toH * ∑ k ∈ range K, (a k).toH * (x k).toH := by
  induction K with
  | zero => simp [Haxx.pAxpys]
  | succ K ih => rw [sum_range_succ, Haxx.pAxpys, toH_pAxpy, ih, mul_add, add_assoc]

variable [ArithEq F]

theorem QR.pScale {β : Scal F} (hb : Truth S β) (c : Quat F) :
    ∃ z : Quat ℝ, S.QR 8 (Haxx.pScale β c) z (broadcast (‖(β.map S.val).toH‖ * ‖(c.map S.val).toH‖)) ∧
      z.toH = (β.map S.val).toH * (c.map S.val).toH := by
  unfold Haxx.pScale
  split
  · split
    · rename_i e
      refine ⟨Quat.mkReal 0, QR.zero.mono (p := 0) (by omega) (by positivity), ?_⟩
      rw [hb.zero e, toH_mkReal0]; simp
    · exact ⟨_, (QR.betaC β c).le (by omega), toH_mulL _ _⟩
  · rename_i e
    have hb1 := hb.one (by simpa using e)
    refine ⟨c.map S.val, (QR.exact c).toNorm.mono (p := 0) (by omega) ?_, ?_⟩
    · rw [hb1]; simp
    · rw [hb1, one_mul]

/-- one element of the portable GEMV -/
theorem QR.pGemv {t : Char} {α β : Scal F} {K : ℕ} {a' : ℕ → Scal F} {x' : ℕ → Quat F} {a : ℕ → Scal ℝ} {x A B : ℕ → Quat ℝ}
    {c : Quat F} (hα : Truth S α) (hb : Truth S β)
    (ha : ∀ k, S.SR 0 (a' k) (a k) (A k)) (hx : ∀ k, S.QR 0 (x' k) (x k) (B k)) :
    ∃ z : Quat ℝ, S.QR (2 * K + 9) (Haxx.pGemv t α β K a' x' c) z
        (broadcast (‖(β.map S.val).toH‖ * ‖(c.map S.val).toH‖ +
          6 * ‖(α.map S.val).toH‖ * ∑ k ∈ range K, ‖(A k).toH‖ * ‖(B k).toH‖)) ∧
      z.toH = (α.map S.val).toH * (∑ k ∈ range K, (a k).toH * (x k).toH) +
        (β.map S.val).toH * (c.map S.val).toH := by
  have hs : 0 ≤ ‖(α.map S.val).toH‖ * ∑ k ∈ range K, ‖(A k).toH‖ * ‖(B k).toH‖ := by positivity
  obtain ⟨z, h1, h2⟩ := QR.pScale (S := S) hb c
  unfold Haxx.pGemv
  split
  · rename_i e
    simp only [Bool.and_eq_true] at e
    refine ⟨c.map S.val, (QR.exact c).toNorm.mono (p := 0) (by omega) ?_, ?_⟩
    · rw [hb.one e.2]; simp only [norm_one, one_mul]; linarith
    · rw [hb.one e.2, hα.zero e.1]; simp
  · split
    · rename_i e
      exact ⟨z, h1.mono (by omega) (by linarith), by rw [h2, hα.zero e]; simp⟩
    · split
      · refine ⟨_, (QR.pAxpys (α := α) ha hx h1 K).mono (by omega) (le_of_eq ?_), ?_⟩
        · rw [mul_sum]; congr 1; apply sum_congr rfl; intros; ring
        · rw [toH_pAxpys, h2, add_comm]
      · have hD := QR.mulL (SR.exact (p := 0) α) (QR.pDot ha hx K)
        rw [norm_broadcast (by positivity), norm_emb] at hD
        refine ⟨_, (QR.addAssign h1 hD (n := K + 9) (by omega) (by omega)).mono (by omega) (by linarith), ?_⟩
        rw [toH_addAssign, toH_mulL, toH_pDot, h2, add_comm]

end StdModel

variable [ArithEq F]

/-- C42, portable GEMV (A, ALPHA and BETA of any scalar type): with K the length of x, every element of the
result satisfies `‖computed - exact‖ ≤ 2((1+u)^(2K+9)-1) (‖BETA‖ ‖y_i‖ + 6 ‖ALPHA‖ Σ_k ‖op(A)_ik‖ ‖x_k‖)`. -/
theorem C42_gemv_portable (S : StdModel F u) (m : Mem F) (k : Kind) (t : Char) (M N : Int) (ALPHA : Scal F)
    (A LDA X INCX : Int) (BETA : Scal F) (Y INCY : Int) (a : Nat → Nat → Scal F) (x y : Nat → Quat F)
    (op : Nat → Nat → ℍ[ℝ]) (hop : KOpIs t (fun i k => (a i k).map S.val) op)
    (ha : StdModel.Truth S ALPHA) (hb : StdModel.Truth S BETA) (hM : M ≠ 0) (hN : N ≠ 0)
    (h : GemvBArgs m k t M N ALPHA A LDA X INCX Y INCY a x y) :
    ∃ m' v, gemvGen k t M N ALPHA A LDA X INCX BETA Y INCY m = .ok ((), m') ∧
      VecAt m' Y INCY (if t = 'N' then M else N).toNat v ∧
      ∀ i, i < (if t = 'N' then M else N).toNat → (v i).All S.ok →
        ‖((v i).map S.val).toH - ((ALPHA.map S.val).toH *
            ∑ k ∈ range (if t = 'N' then N else M).toNat, op i k * ((x k).map S.val).toH +
            (BETA.map S.val).toH * ((y i).map S.val).toH)‖ ≤
          2 * (((1 + u) ^ (2 * (if t = 'N' then N else M).toNat + 9) - 1) *
            (‖(BETA.map S.val).toH‖ * ‖((y i).map S.val).toH‖ +
              6 * ‖(ALPHA.map S.val).toH‖ * ∑ k ∈ range (if t = 'N' then N else M).toNat, ‖op i k‖ * ‖((x k).map S.val).toH‖)) := by
  obtain ⟨m', h1, h2, _⟩ := gemvGen_bits m k t M N ALPHA A LDA X INCX BETA Y INCY a x y hM hN h
  refine ⟨m', _, h1, h2, fun i _ ho => ?_⟩
  have eA : ∀ l, ∃ (z : Scal ℝ) (T : Quat ℝ), S.SR 0 (opVE t a i l) z T ∧ z.toH = op i l ∧ ‖T.toH‖ = ‖op i l‖ := by
    intro l
    rcases hop with ⟨rfl, e⟩ | ⟨rfl, e⟩ | ⟨rfl, e⟩
    · exact ⟨_, _, StdModel.SR.exact _, (e i l).symm, by rw [e, StdModel.norm_emb]; rfl⟩
    · exact ⟨_, _, StdModel.SR.exact _, (e i l).symm, by rw [e, StdModel.norm_emb]; rfl⟩
    · refine ⟨_, _, (StdModel.SR.exact (a l i)).conj, ?_, ?_⟩
      · rw [e]
        rw [C04_smartConj]
      · rw [e, StdModel.norm_emb, Quaternion.norm_star]
  choose z T hz ez nz using eA
  obtain ⟨w, hw, ew⟩ := StdModel.QR.pGemv (t := t) (c := y i) (K := (if t = 'N' then N else M).toNat) ha hb hz
    (fun l => StdModel.QR.exact (S := S) (p := 0) (x l))
  have := hw.norm ho
  rw [ew] at this
  simpa only [ez, nz, norm_abs] using this

/-- C42, portable GERU (`conjY = false`) and GERC: every entry of the result satisfies
`‖computed - exact‖ ≤ 2((1+u)⁹-1) (‖A_ij‖ + 2 ‖ALPHA‖ ‖x_i‖ ‖y_j‖)`, for the y_j whose comparison with 0 tells
the truth (all but `ck`, see `C31_portable_pure_k_violated`). -/
theorem C42_ger_portable (S : StdModel F u) (conjY : Bool) (m : Mem F) (M N : Int) (ALPHA : Scal F)
    (X INCX Y INCY A LDA : Int) (x y : Nat → Quat F) (a : Nat → Nat → Quat F)
    (ha : StdModel.Truth S ALPHA) (h : GerBArgs m M N X INCX Y INCY A LDA x y a) :
    ∃ m' v, gerGen conjY M N ALPHA X INCX Y INCY A LDA m = .ok ((), m') ∧
      MatAt m' A LDA M.toNat N.toNat v ∧
      ∀ i j, i < M.toNat → j < N.toNat → (v i j).All S.ok →
        (Quat.neOp (y j) (Quat.mkReal Arith.zero) = false → ((y j).map S.val).toH = 0) →
        ‖((v i j).map S.val).toH - (((a i j).map S.val).toH + (ALPHA.map S.val).toH * ((x i).map S.val).toH *
            (if conjY then star ((y j).map S.val).toH else ((y j).map S.val).toH))‖ ≤
          2 * (((1 + u) ^ 9 - 1) * (‖((a i j).map S.val).toH‖ +
              2 * ‖(ALPHA.map S.val).toH‖ * ‖((x i).map S.val).toH‖ * ‖((y j).map S.val).toH‖)) := by
  obtain ⟨m', h1, h2, _⟩ := gerGen_bits conjY m M N ALPHA X INCX Y INCY A LDA x y a h
  refine ⟨m', _, h1, h2, fun i j _ _ ho h0 => ?_⟩
  have triv : 0 ≤ 2 * (((1 + u) ^ 9 - 1) * (‖((a i j).map S.val).toH‖ +
              2 * ‖(ALPHA.map S.val).toH‖ * ‖((x i).map S.val).toH‖ * ‖((y j).map S.val).toH‖)) := by
    have := S.one_le_pow 9
    have h2 : 0 ≤ (1 + u) ^ 9 - 1 := by linarith
    positivity
  by_cases e : ALPHA.eqZero = true
  · simp only [pGer, if_pos e]
    rw [ha.zero e]
    rw [ha.zero e] at triv
    simpa using triv
  · by_cases e2 : Quat.neOp (y j) (Quat.mkReal Arith.zero) = true
    · simp only [pGer, if_neg e, if_pos e2] at ho ⊢
      have hc : ∃ z : Quat ℝ, S.QR 0 (if conjY then (y j).conj else y j) z (Quat.abs ((y j).map S.val)) ∧
          z.toH = (if conjY then star ((y j).map S.val).toH else ((y j).map S.val).toH) := by
        cases conjY
        · exact ⟨_, StdModel.QR.exact _, rfl⟩
        · exact ⟨_, (StdModel.QR.exact (y j)).conj, toH_qconj256 _⟩
      obtain ⟨z, hz, ez⟩ := hc
      have hm := StdModel.QR.mul (StdModel.QR.betaC ALPHA (x i)) hz
      rw [norm_broadcast (by positivity), norm_abs] at hm
      have hq : S.QR 0 (a i j) ((a i j).map S.val) (broadcast ‖((a i j).map S.val).toH‖) :=
        (StdModel.QR.exact (a i j)).toNorm
      have := (StdModel.QR.addAssign (n := 9) hq hm (by omega) (by omega)).norm ho
      rw [StdModel.toH_addAssign, toH_mul, StdModel.toH_mulL, ez] at this
      refine this.trans (le_of_eq ?_)
      ring
    · simp only [pGer, if_neg e, if_neg e2]
      rw [h0 (by simpa using e2)] at triv ⊢
      simpa using triv

/-! ## The hypotheses are satisfiable -/

/-- 2 × 3 complex A at 0 (LDA 2), x of length 2 at 20 (stride 2), y of length 3 at 40 (stride 1), `'C'`. -/
theorem gemvBArgs_example {F : Type} [Arith F] [ArithEq F] (f : Int → F) (s : Scal F) :
    GemvBArgs (memOf 0 100 f) .z 'C' 2 3 s 0 2 20 2 40 1
      (fun i j => .z ⟨f (0 + 2 * (i + j * 2)), f (0 + 2 * (i + j * 2) + 1)⟩)
      (fun i => ⟨f (20 + 4 * (i * 2)), f (20 + 4 * (i * 2) + 1), f (20 + 4 * (i * 2) + 2), f (20 + 4 * (i * 2) + 3)⟩)
      (fun i => ⟨f (40 + 4 * (i * 1)), f (40 + 4 * (i * 1) + 1), f (40 + 4 * (i * 1) + 2), f (40 + 4 * (i * 1) + 3)⟩) where
  incX := by decide
  incY := by decide
  hY := by
    intro i hi
    have h1 : i < 3 := hi
    exact readQ_memOf (by omega) (by omega)
  hA := by
    intro _ i j hi hj
    have hi : i < 2 := hi
    have hj : j < 3 := hj
    simp only [readK, Kind.width]
    simp only [memOf]
    rw [if_pos (by omega), if_pos (by omega)]
  hX := by
    intro _ i hi
    have h1 : i < 2 := hi
    exact readQ_memOf (by omega) (by omega)
  hAY := by
    rintro a ⟨i, j, hi, hj, h1, h2⟩ ⟨i', hi', h3, h4⟩
    have hi : i < 2 := hi
    have hj : j < 3 := hj
    have hi' : i' < 3 := hi'
    simp only [Kind.width] at h1 h2
    omega
  hXY := by
    rintro a ⟨i, hi, h1, h2⟩ ⟨i', hi', h3, h4⟩
    have hi : i < 2 := hi
    have hi' : i' < 3 := hi'
    omega
  fitA := by
    intro i j hi hj
    have hi : i < 2 := hi
    have hj : j < 3 := hj
    unfold Fits32; omega
  fitX := by
    intro i hi
    have hi : i ≤ 2 := hi
    unfold Fits32; omega
  fitY := by
    intro i hi
    have hi : i ≤ 3 := hi
    unfold Fits32; omega

/-- 2 × 3 A at 0 (LDA 4), x at 60 (stride 2), y at 90. -/
theorem gerBArgs_example {F : Type} [Arith F] [ArithEq F] (f : Int → F) :
    GerBArgs (memOf 0 200 f) 2 3 60 2 90 1 0 4
      (fun i => ⟨f (60 + 4 * (i * 2)), f (60 + 4 * (i * 2) + 1), f (60 + 4 * (i * 2) + 2), f (60 + 4 * (i * 2) + 3)⟩)
      (fun i => ⟨f (90 + 4 * (i * 1)), f (90 + 4 * (i * 1) + 1), f (90 + 4 * (i * 1) + 2), f (90 + 4 * (i * 1) + 3)⟩)
      (fun i j => ⟨f (0 + 4 * (i + j * 4)), f (0 + 4 * (i + j * 4) + 1), f (0 + 4 * (i + j * 4) + 2), f (0 + 4 * (i + j * 4) + 3)⟩) where
  incX := by decide
  incY := by decide
  hA := by
    intro i j hi hj
    have h1 : i < 2 := hi
    have h2 : j < 3 := hj
    exact readQ_memOf (by omega) (by omega)
  hX := by
    intro i hi
    have h1 : i < 2 := hi
    exact readQ_memOf (by omega) (by omega)
  hY := by
    intro i hi
    have h1 : i < 3 := hi
    exact readQ_memOf (by omega) (by omega)
  hld := by omega
  hXA := by
    rintro c ⟨i, hi, h1, h2⟩ ⟨i', j', hi', hj', h3, h4⟩
    have hi : i < 2 := hi
    have hi' : i' < 2 := hi'
    have hj' : j' < 3 := hj'
    omega
  hYA := by
    rintro c ⟨i, hi, h1, h2⟩ ⟨i', j', hi', hj', h3, h4⟩
    have hi : i < 3 := hi
    have hi' : i' < 2 := hi'
    have hj' : j' < 3 := hj'
    omega
  fitA := by
    intro i j hi hj
    have hi : i < 2 := hi
    have hj : j < 3 := hj
    unfold Fits32; omega
  fitX := by
    intro i hi
    have hi : i ≤ 2 := hi
    unfold Fits32; omega
  fitY := by
    intro i hi
    have hi : i ≤ 3 := hi
    unfold Fits32; omega

/-- Non-vacuity of C42_gemv_portable and C42_ger_portable in rounded arithmetic, with a complex ALPHA. -/
example (f : Int → Chop) : (∃ a x y, GemvBArgs (memOf 0 100 f) .z 'C' 2 3 (.z ⟨f 1, f 2⟩) 0 2 20 2 40 1 a x y) ∧
    (∃ x y a, GerBArgs (memOf 0 200 f) 2 3 60 2 90 1 0 4 x y a) ∧
    StdModel.Truth chopModel (.z ⟨f 1, f 2⟩) ∧ StdModel.Truth chopModel (.d (f 3)) := by
  obtain ⟨td, tz, _⟩ := truth_of chop_truth.1 chop_truth.2
  exact ⟨⟨_, _, _, gemvBArgs_example f _⟩, ⟨_, _, _, gerBArgs_example f⟩, tz _, td _⟩

end Haxx
