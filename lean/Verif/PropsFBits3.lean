import Verif.FGemvBits
import Verif.PropsRoundF

/-!
# C42, C47 and C53 for the Fortran GEMV
-/

set_option linter.unusedSectionVars false

namespace Haxx
open Arith

section
variable {F : Type} [Arith F] [ArithEq F]

theorem fGemv_congr {t : FTrans} {al be : Scal F} {K : Nat} {a a' x x' : Nat → Quat F} {y : Quat F}
    (ha : ∀ k, k < K → a k = a' k) (hx : ∀ k, k < K → x k = x' k) :
    fGemv t al be K a x y = fGemv t al be K a' x' y := by
  unfold fGemv
  split
  · rfl
  · split
    · exact fSteps_congr ha hx
    · rw [fAccs_congr ha hx]

/-- C47, Fortran GEMV (partial: calls outside its known defects, `FGemvGood`): an element of the result depends on its row
of op(A), on x and on its old value only. -/
theorem C47_gemv_fortran_partial (t : Char) (K : Int) (ALPHA BETA : Scal F)
    (m : Mem F) (M N A LDA X INCX Y INCY : Int) (a : Nat → Nat → Quat F) (x y : Nat → Quat F)
    (hM : M ≠ 0) (hN : N ≠ 0) (h : FGemvArgs m t M N ALPHA A LDA X INCX Y INCY a x y)
    (hg : FGemvGood t M N ALPHA BETA INCX INCY)
    (n : Mem F) (M' N' A' LDA' X' INCX' Y' INCY' : Int) (a' : Nat → Nat → Quat F) (x' y' : Nat → Quat F)
    (hM' : M' ≠ 0) (hN' : N' ≠ 0) (h' : FGemvArgs n t M' N' ALPHA A' LDA' X' INCX' Y' INCY' a' x' y')
    (hg' : FGemvGood t M' N' ALPHA BETA INCX' INCY')
    (hK : gemvLenX t M N = K) (hK' : gemvLenX t M' N' = K)
    (i i' : Nat) (hi : i < (gemvLenY t M N).toNat) (hi' : i' < (gemvLenY t M' N').toNat)
    (hrow : ∀ l, l < K.toNat → (if IsN t then a i l else a l i) = (if IsN t then a' i' l else a' l i'))
    (hx : ∀ l, l < K.toNat → x l = x' l) (hy : y i = y' i') :
    ∃ m' n' q, gemvF t M N ALPHA A LDA X INCX BETA Y INCY m = .ok ((), m') ∧
      gemvF t M' N' ALPHA A' LDA' X' INCX' BETA Y' INCY' n = .ok ((), n') ∧
      readQ m' (vecStart Y (gemvLenY t M N) INCY + 4 * (i * INCY)) = some q ∧
      readQ n' (vecStart Y' (gemvLenY t M' N') INCY' + 4 * (i' * INCY')) = some q := by
  obtain ⟨m', h1, h2, _⟩ := gemvF_bits m t M N ALPHA A LDA X INCX BETA Y INCY a x y hM hN h hg
  obtain ⟨n', g1, g2, _⟩ := gemvF_bits n t M' N' ALPHA A' LDA' X' INCX' BETA Y' INCY' a' x' y' hM' hN' h' hg'
  refine ⟨m', n', _, h1, g1, h2 i hi, ?_⟩
  rw [g2 i' hi']
  dsimp only
  rw [hy, hK, hK']
  refine congrArg some (fGemv_congr ?_ (fun k hk => (hx k hk).symm))
  intro k hk
  rw [gv_pick, gv_pick]; exact (hrow k hk).symm

end

section
variable {F : Type} [Arith F] [ArithEq F] {bad : F → Prop} (h : NaNLike bad)
include h

theorem nan_fAddBeta_acc {be : Scal F} {t c : Quat F} (e : t.HasNaN bad) : (fAddBeta be t c).HasNaN bad := by
  rw [Quat.hasNaN_halves] at e
  rcases e with e | e
  · cases be <;> refine Cplx.HasNaN.mkL ?_
    · exact nanC_addL' h e
    · exact nanC_addL' h e
    · exact nanC_subL' h (nanC_addL' h e)
  · cases be <;> refine Cplx.HasNaN.mkR ?_
    · exact nanC_addL' h e
    · exact nanC_addL' h e
    · exact nanC_addL' h (nanC_addL' h e)

theorem nan_fAddBeta_all {be : Scal F} {t c : Quat F} (e : c.AllNaN bad) : (fAddBeta be t c).AllNaN bad := by
  rw [Quat.allNaN_halves] at e
  obtain ⟨e1, e2⟩ := e
  cases be <;> refine Cplx.AllNaN.mk ?_ ?_
  · exact nanC_addR h (nanC_mulR h e1.has)
  · exact nanC_addR h (nanC_mulR h e2.has)
  · exact nanC_addR h (nanC_mulR h e1.has)
  · exact nanC_addR h (nanC_mulR h e2.has)
  · exact nanC_subL h (nanC_addR h (nanC_mulR h e1.has))
  · exact nanC_addL h (nanC_addR h (nanC_mulR h e2.has))

/-- C53, GEMV (Fortran, partial: calls outside its known defects), when ALPHA does not compare equal to zero: one NaN
component in ALPHA, in row `i` of op(A) or in x makes all of `y_i` NaN; one in the old `y_i` leaves at least one unless
BETA compares equal to zero; one in BETA makes all of `y_i` NaN unless BETA compares equal to 0 or 1. -/
theorem C53_gemv_fortran_partial (m : Mem F) (t : Char) (M N : Int) (ALPHA : Scal F) (A LDA X INCX : Int)
    (BETA : Scal F) (Y INCY : Int) (a : Nat → Nat → Quat F) (x y : Nat → Quat F)
    (hM : M ≠ 0) (hN : N ≠ 0) (hp : FGemvArgs m t M N ALPHA A LDA X INCX Y INCY a x y)
    (hg : FGemvGood t M N ALPHA BETA INCX INCY) (ha : ALPHA.fIsZero = false) :
    ∃ (m' : Mem F) (y' : Nat → Quat F),
      gemvF t M N ALPHA A LDA X INCX BETA Y INCY m = .ok ((), m') ∧
      VecAt m' (vecStart Y (gemvLenY t M N) INCY) INCY (gemvLenY t M N).toNat y' ∧
      ∀ i, i < (gemvLenY t M N).toNat →
        (∀ l, l < (gemvLenX t M N).toNat → (ALPHA.HasNaN bad ∨
          (if IsN t then a i l else a l i).HasNaN bad ∨ (x l).HasNaN bad) → (y' i).AllNaN bad) ∧
        (BETA.fIsZero = false ∨ BETA.fIsOne = true → (y i).HasNaN bad → (y' i).HasNaN bad) ∧
        (BETA.fIsZero = false → BETA.fIsOne = false → BETA.HasNaN bad → (y' i).AllNaN bad) := by
  obtain ⟨m', h1, h2, _⟩ := gemvF_bits m t M N ALPHA A LDA X INCX BETA Y INCY a x y hM hN hp hg
  refine ⟨m', _, h1, h2, fun i _ => ?_⟩
  unfold fGemv
  rw [ha, if_neg Bool.false_ne_true]
  refine ⟨?_, ?_, ?_⟩
  · intro l hl e
    rw [← gv_pick t] at e
    split
    · exact nan_fSteps h (Or.inr ⟨l, hl, e⟩)
    · rcases e with e | e
      · exact nan_fAddBeta h (Or.inl e)
      · exact nan_fAddBeta_all h (nan_fAccs h hl e)
  · intro hb e
    have hB : (fBetaV BETA (y i)).HasNaN bad := by
      unfold fBetaV
      split
      · exact e
      · rename_i q
        rcases hb with hb | hb
        · rw [hb, if_neg Bool.false_ne_true]; exact nan_fScal' h e
        · exact absurd hb q
    split
    · exact nan_fSteps' h _ hB
    · exact nan_fAddBeta_acc h hB
  · intro hb hb1 e
    have hB : (fBetaV BETA (y i)).AllNaN bad := by
      unfold fBetaV
      rw [hb, hb1, if_neg Bool.false_ne_true, if_neg Bool.false_ne_true]
      exact nan_fScal h e
    split
    · exact nan_fSteps h (Or.inl hB)
    · exact nan_fAddBeta h (Or.inr hB)

end

section
open Quaternion Finset
variable {F : Type} [Arith F] [ArithEq F] {u : ℝ}
namespace StdModel
variable {S : StdModel F u} {p : ℕ} {c' : Quat F} {c : Quat ℝ} {s : ℝ}

/-- `t + be*c` when `c` carries an error. -/
theorem QR.fAddBeta2 {q : ℕ} {y' : Quat F} {y : Quat ℝ} {r : ℝ} (be : Scal F) (hc : S.QR p c' c (broadcast s))
    (hy : S.QR q y' y (broadcast r)) (hr : 0 ≤ r) {n : ℕ} (hp : p + 2 ≤ n) (hq : q + 4 ≤ n) :
    S.QR n (Haxx.fAddBeta be c' y') (Haxx.fAddBeta (be.map S.val) c y)
      (broadcast (s + 2 * ‖(be.map S.val).toH‖ * r)) := by
  have w := weighted (be.map S.val).emb (le_refl r) (le_refl r) (le_refl r) (le_refl r) hr
  rw [Scal.toH_emb] at w
  cases be with
  | d b =>
    have h0 : S.CR (0 + q + 2) (Cplx.ofReal b *ᶜ y'.lo) (Cplx.ofReal (S.val b) *ᶜ y.lo) _ := (CR.ofReal b).mul hy.lo
    have h1 : S.CR (0 + q + 2) (Cplx.ofReal b *ᶜ y'.hi) (Cplx.ofReal (S.val b) *ᶜ y.hi) _ := (CR.ofReal b).mul hy.hi
    simp only [Scal.map, Scal.emb, abs_zero, zero_mul, add_zero] at w
    refine CR.mk (hc.lo.add h0 (n := n) (by omega) (by omega)) (hc.hi.add h1 (n := n) (by omega) (by omega)) (le_refl n) ?_ ?_ ?_ ?_ <;>
      simp only [cm, csum, broadcast, Quat.lo, Quat.hi, Scal.map] <;> linarith
  | z b =>
    have hb : S.CR 0 b ⟨S.val b.re, S.val b.im⟩ ⟨|S.val b.re|, |S.val b.im|⟩ := ⟨R.exact _, R.exact _⟩
    have h0 := hb.mul hy.lo
    have h1 := hb.mul hy.hi
    simp only [Scal.map, Scal.emb, abs_zero, zero_mul, add_zero] at w
    refine CR.mk (hc.lo.add h0 (n := n) (by omega) (by omega)) (hc.hi.add h1 (n := n) (by omega) (by omega)) (le_refl n) ?_ ?_ ?_ ?_ <;>
      simp only [cm, csum, broadcast, Quat.lo, Quat.hi, Scal.map] <;> linarith
  | h b =>
    have hb : S.QR 0 b (b.map S.val) _ := QR.exact b
    have h0 := hb.lo.mul hy.lo
    have h1 := hb.hi.mul hy.hi.conj
    have h2 := hb.lo.mul hy.hi
    have h3 := hb.hi.mul hy.lo.conj
    simp only [Scal.map, Scal.emb, Quat.map] at w
    refine CR.mk ((hc.lo.add h0 (n := n-1) (by omega) (by omega)).sub h1 (n := n) (by omega) (by omega))
      ((hc.hi.add h2 (n := n-1) (by omega) (by omega)).add h3 (n := n) (by omega) (by omega)) (le_refl n) ?_ ?_ ?_ ?_ <;>
      simp only [cm, csum, Quat.abs, broadcast, Quat.lo, Quat.hi, Quat.map, Scal.map] <;> linarith

/-- one element of the Fortran GEMV -/
theorem QR.fGemv {t : FTrans} {α β : Scal F} {K : ℕ} {a x : ℕ → Quat F} {y : Quat F} (ha : FTruth S α) (hb : FTruth S β) :
    ∃ z : Quat ℝ, S.QR (4 * K + 7) (fGemv t α β K a x y) z
        (broadcast (‖(β.map S.val).toH‖ * ‖(y.map S.val).toH‖ +
          2 * ‖(α.map S.val).toH‖ * ∑ k ∈ range K, ‖((a k).map S.val).toH‖ * ‖((x k).map S.val).toH‖)) ∧
      z.toH = (α.map S.val).toH * (∑ k ∈ range K, t.cj ((a k).map S.val).toH * ((x k).map S.val).toH) +
        (β.map S.val).toH * (y.map S.val).toH := by
  have hs1 : 0 ≤ ∑ k ∈ range K, ‖((a k).map S.val).toH‖ * ‖((x k).map S.val).toH‖ :=
    sum_nonneg (fun k _ => by positivity)
  have hs : 0 ≤ 2 * ‖(α.map S.val).toH‖ * ∑ k ∈ range K, ‖((a k).map S.val).toH‖ * ‖((x k).map S.val).toH‖ := by
    positivity
  have hs2 : 0 ≤ ‖(β.map S.val).toH‖ * ‖(y.map S.val).toH‖ := by positivity
  have hB : ∃ z : Quat ℝ, S.QR 4 (fBetaV β y) z (broadcast (‖(β.map S.val).toH‖ * ‖(y.map S.val).toH‖)) ∧
      z.toH = (β.map S.val).toH * (y.map S.val).toH := by
    unfold fBetaV
    split
    · rename_i e
      have hb1 := hb.one e
      refine ⟨y.map S.val, (QR.exact y).toNorm.mono (p := 0) (by omega) ?_, ?_⟩
      · rw [hb1]; simp
      · rw [hb1, one_mul]
    · split
      · rename_i e
        refine ⟨Haxx.fZero, QR.fZero.mono (p := 0) (by omega) hs2, ?_⟩
        rw [hb.zero e, toH_fZero]; simp
      · exact ⟨_, (QR.fScal β y).le (by omega), toH_fScal _ _⟩
  obtain ⟨z, hz, ez⟩ := hB
  unfold Haxx.fGemv
  split
  · rename_i e
    refine ⟨z, hz.mono (by omega) (by linarith), ?_⟩
    rw [ha.zero e, zero_mul, zero_add, ez]
  · have hT : ∀ s, s ≠ FTrans.N → ∃ z : Quat ℝ, S.QR (4 * K + 7)
          (Haxx.fAddBeta α (fBetaV β y) (Haxx.fAccs s .N a x K)) z
          (broadcast (‖(β.map S.val).toH‖ * ‖(y.map S.val).toH‖ +
            2 * ‖(α.map S.val).toH‖ * ∑ k ∈ range K, ‖((a k).map S.val).toH‖ * ‖((x k).map S.val).toH‖)) ∧
          z.toH = (α.map S.val).toH * (∑ k ∈ range K, s.cj ((a k).map S.val).toH * ((x k).map S.val).toH) +
            (β.map S.val).toH * (y.map S.val).toH := by
      intro s hsN
      refine ⟨_, QR.fAddBeta2 α hz (QR.fAccs (S := S) s .N a x K) hs1 (by omega) (by omega), ?_⟩
      rw [toH_fAddBeta, toH_fAccs s .N hsN, ez, add_comm]
      rfl
    cases t
    · refine ⟨_, (QR.fSteps α .N a x hz le_rfl K).mono (by omega) le_rfl, ?_⟩
      rw [toH_fSteps, ez, add_comm]
      rfl
    · exact hT _ (by decide)
    · exact hT _ (by decide)

end StdModel

theorem cj_gv_pick {R : Type} [CommRing R] {t : Char} {X : Nat → Nat → Quat R} {op : Nat → Nat → ℍ[R]} (h : OpIs t X op)
    (i k : Nat) : (FTrans.gv t).cj (((FTrans.gv t).pick X i k).toH) = op i k := by
  rcases h with ⟨rfl | rfl, e⟩ | ⟨rfl | rfl, e⟩ | ⟨rfl | rfl, e⟩ <;> rw [e] <;> rfl

/-- C42, Fortran GEMV (every pair of scalar types; partial: calls outside its known defects), if 1 is exact and `==` is
true only of machine numbers of the same value: every element of the result satisfies
`‖computed - exact‖ ≤ 2((1+u)^(4K+7)-1) (‖BETA‖ ‖y_i‖ + 2 ‖ALPHA‖ Σ_k ‖op(A)_ik‖ ‖x_k‖)`. -/
theorem C42_gemv_fortran_partial (S : StdModel F u) (m : Mem F) (t : Char) (M N : Int) (ALPHA : Scal F)
    (A LDA X INCX : Int) (BETA : Scal F) (Y INCY : Int) (a : Nat → Nat → Quat F) (x y : Nat → Quat F)
    (op : Nat → Nat → ℍ[ℝ]) (hop : OpIs t (fun i k => (a i k).map S.val) op)
    (h1 : S.val Arith.one = 1) (he : ∀ a b : F, ArithEq.feq a b = true → S.val a = S.val b) (hM : M ≠ 0) (hN : N ≠ 0)
    (h : FGemvArgs m t M N ALPHA A LDA X INCX Y INCY a x y) (hg : FGemvGood t M N ALPHA BETA INCX INCY) :
    ∃ m' v, gemvF t M N ALPHA A LDA X INCX BETA Y INCY m = .ok ((), m') ∧
      VecAt m' (vecStart Y (gemvLenY t M N) INCY) INCY (gemvLenY t M N).toNat v ∧
      ∀ i, i < (gemvLenY t M N).toNat → (v i).All S.ok →
        ‖((v i).map S.val).toH - ((ALPHA.map S.val).toH *
            ∑ k ∈ range (gemvLenX t M N).toNat, op i k * ((x k).map S.val).toH +
            (BETA.map S.val).toH * ((y i).map S.val).toH)‖ ≤
          2 * (((1 + u) ^ (4 * (gemvLenX t M N).toNat + 7) - 1) *
            (‖(BETA.map S.val).toH‖ * ‖((y i).map S.val).toH‖ +
              2 * ‖(ALPHA.map S.val).toH‖ * ∑ k ∈ range (gemvLenX t M N).toNat, ‖op i k‖ * ‖((x k).map S.val).toH‖)) := by
  have ha := fTruth_of h1 he ALPHA
  have hb := fTruth_of h1 he BETA
  obtain ⟨m', h1, h2, _⟩ := gemvF_bits m t M N ALPHA A LDA X INCX BETA Y INCY a x y hM hN h hg
  refine ⟨m', _, h1, h2, fun i _ ho => ?_⟩
  obtain ⟨z, hz, ez⟩ := StdModel.QR.fGemv (t := FTrans.gv t) (y := y i) (K := (gemvLenX t M N).toNat)
    (a := fun k => (FTrans.gv t).pick a i k) (x := x) ha hb
  have := hz.norm ho
  rw [ez] at this
  simp only [map_pick, cj_gv_pick hop] at this
  have e : ∀ k, ‖(((FTrans.gv t).pick (fun i k => (a i k).map S.val) i k).toH)‖ = ‖op i k‖ := by
    intro k
    rw [← cj_gv_pick hop, norm_cj]
  simp only [e] at this
  exact this

end

/-! ## Concrete cases -/

/-- Arguments that meet `FGemvArgs`, whatever memory holds: 2 × 3 padded A, x with stride 2, y backwards, TRANS = 'C'. -/
theorem fGemvArgs_example {F : Type} [Arith F] [ArithEq F] (f : Int → F) (ALPHA : Scal F) :
    FGemvArgs (memOf 0 200 f) 'C' 2 3 ALPHA 0 4 60 2 90 (-1)
    (fun i j => let p : Int := 0 + 4 * ((i:Int) + j * 4); ⟨f p, f (p+1), f (p+2), f (p+3)⟩)
    (fun i => let p : Int := 60 + 4 * ((i:Int) * 2); ⟨f p, f (p+1), f (p+2), f (p+3)⟩)
    (fun i => let p : Int := 98 + 4 * ((i:Int) * (-1)); ⟨f p, f (p+1), f (p+2), f (p+3)⟩) where
  hinc := by decide
  hA := by
    intro _ i j hi hj
    have h1 : i < 2 := hi
    have h2 : j < 3 := hj
    exact readQ_memOf (by omega) (by omega)
  hX := by
    intro _ i hi
    have h1 : i < 2 := hi
    rw [show vecStart 60 (gemvLenX 'C' 2 3) 2 = 60 by decide]
    exact readQ_memOf (by omega) (by omega)
  hY := by
    intro i hi
    have h1 : i < 3 := hi
    rw [show vecStart 90 (gemvLenY 'C' 2 3) (-1) = 98 by decide]
    exact readQ_memOf (by omega) (by omega)
  hAY := fun _ => (gemvArgs_example (.d 1)).hAY (by intro h; have := congrArg QuaternionAlgebra.re h; exact absurd (show (1:Int) = 0 from this) (by decide))
  hXY := fun _ => (gemvArgs_example (.d 1)).hXY (by intro h; have := congrArg QuaternionAlgebra.re h; exact absurd (show (1:Int) = 0 from this) (by decide))

/-- `FGemvGood` for those arguments, whatever the scalars (unless ALPHA is real and BETA a quaternion). -/
theorem fGemvGood_example {F : Type} [Arith F] [ArithEq F] (a : Quat F) (b : Cplx F) :
    FGemvGood 'C' 2 3 (.h a) (.z b) 2 (-1) :=
  ⟨.inr (.inr (.inl ⟨by unfold IsN; decide, by unfold IsT; decide⟩)), (by rintro ⟨_, h⟩; cases h),
    by rintro _ (h | h) <;> exact absurd h (by decide)⟩

/-- A case of `C53_gemv_fortran_partial`: `x_1` holds one NaN; every element of y becomes NaN. -/
example : letI := toyNaN; letI := toyNaNEq
    ∃ (m' : Mem (Option Int)), gemvF 'C' 2 3 (.h ⟨some 1, some 2, some 3, some 4⟩) 0 4 60 2 (.z ⟨some 1, some 2⟩) 90 (-1)
      (memOf 0 200 (fun a => if a = 69 then none else some a)) = .ok ((), m') ∧
      ∀ j : Nat, j < 3 → ∃ q, readQ m' (98 - 4 * (j : Int)) = some q ∧ q.AllNaN (· = none) := by
  let := toyNaN
  let := toyNaNEq
  obtain ⟨m', y', h1, h2, h3⟩ := C53_gemv_fortran_partial toyNaN_like _ 'C' 2 3 (.h ⟨some (1:Int), some 2, some 3, some 4⟩) 0 4 60 2
    (.z ⟨some 1, some 2⟩) 90 (-1) _ _ _ (by decide) (by decide)
    (fGemvArgs_example (fun a => if a = 69 then none else some a) _) (fGemvGood_example _ _) rfl
  refine ⟨m', h1, fun j hj => ⟨y' j, ?_, (h3 j hj).1 1 (by decide) (Or.inr (Or.inr (Or.inr (Or.inl rfl))))⟩⟩
  have := h2 j hj
  rw [show vecStart 90 (gemvLenY 'C' 2 3) (-1) = 98 by decide] at this
  rw [← this]
  congr 1
  ring

/-- The hypotheses of `C42_gemv_fortran_partial` are met by rounded arithmetic. -/
example (f : Int → Chop) (a : Quat Chop) (b : Cplx Chop) : (∃ A x y op, FGemvArgs (memOf 0 200 f) 'C' 2 3 (.h a) 0 4 60 2 90 (-1) A x y ∧
    OpIs 'C' (fun i k => (A i k).map chopModel.val) op) ∧ FGemvGood 'C' 2 3 (.h a) (.z b) 2 (-1) ∧
    chopModel.val Arith.one = 1 ∧ ∀ a b : Chop, ArithEq.feq a b = true → chopModel.val a = chopModel.val b :=
  ⟨⟨_, _, _, _, fGemvArgs_example f _, .inr (.inr ⟨.inl rfl, fun _ _ => rfl⟩)⟩, fGemvGood_example a b, chop_truth⟩

end Haxx
