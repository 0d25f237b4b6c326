import Verif.RoundP
import Verif.PropsRound
import Verif.PropsGeneric

/-!
# C42 for the portable build
-/

namespace Haxx
open Quaternion Finset

variable {F : Type} [Arith F] {u : ℝ}

/-- C42, `operator*(quaternion,quaternion)`: the portable expression and the SIMD one. -/
theorem C42_mul (S : StdModel F u) (x y : Quat F) :
    ((Quat.mul x y).All S.ok → ‖((Quat.mul x y).map S.val).toH - (x.map S.val).toH * (y.map S.val).toH‖ ≤
      2 * (((1 + u) ^ 4 - 1) * (‖(x.map S.val).toH‖ * ‖(y.map S.val).toH‖))) ∧
    ((MULDQ_NN x y).All S.ok → ‖((MULDQ_NN x y).map S.val).toH - (x.map S.val).toH * (y.map S.val).toH‖ ≤
      2 * (((1 + u) ^ 3 - 1) * (‖(x.map S.val).toH‖ * ‖(y.map S.val).toH‖))) := by
  constructor
  · intro ho
    have h := (StdModel.QR.mul (S := S) (p := 0) (q := 0) (StdModel.QR.exact x) (StdModel.QR.exact y)).norm ho
    rw [norm_abs, norm_abs] at h
    have e := StdModel.toH_mulL (.h (x.map S.val)) (y.map S.val)
    simp only [Scal.mulL, Scal.toH] at e
    rwa [e] at h
  · intro ho
    have h := (StdModel.QR.scalOp (S := S) true (.h x) y).norm ho
    rw [toH_scalOp] at h
    exact h

theorem scalBound (S : StdModel F u) (R : Bool) (s : Scal F) (x : Quat F) :
    S.QR 4 (if R then Scal.mulR x s else Scal.mulL s x)
      (if R then Scal.mulR (x.map S.val) (s.map S.val) else Scal.mulL (s.map S.val) (x.map S.val))
      (broadcast (‖(s.map S.val).toH‖ * ‖(x.map S.val).toH‖)) := by
  cases R
  · exact StdModel.QR.betaC s x
  · have := StdModel.QR.mulR (S := S) (p := 0) (q := 0) (StdModel.SR.exact s) (StdModel.QR.exact x)
    rwa [StdModel.norm_emb, norm_abs] at this

/-- C42, portable SCALV: `‖computed - exact‖ ≤ 2((1+u)⁴-1) ‖ALPHA‖ ‖x_i‖`. -/
theorem C42_scalv_portable (S : StdModel F u) (m : Mem F) (SIDE : Char) (N X INCX : Int) (ALPHA : Scal F)
    (x : Nat → Quat F) (hX : VecAt m X INCX N.toNat x) (hinc : 0 < INCX) (fx : Fits32 (N * INCX)) :
    ∃ m' v, scalvGen SIDE N ALPHA X INCX m = .ok ((), m') ∧ VecAt m' X INCX N.toNat v ∧
      ∀ i, i < N.toNat → (v i).All S.ok →
        ‖((v i).map S.val).toH -
          (if SIDE = 'R' then ((x i).map S.val).toH * (ALPHA.map S.val).toH
           else (ALPHA.map S.val).toH * ((x i).map S.val).toH)‖ ≤
          2 * (((1 + u) ^ 4 - 1) * (‖(ALPHA.map S.val).toH‖ * ‖((x i).map S.val).toH‖)) := by
  obtain ⟨_, m', h, h1, _⟩ := scalvGen_wp (SIDE := SIDE) (ALPHA := ALPHA) hinc fx hX
  refine ⟨m', _, h, h1, fun i _ ho => ?_⟩
  have := (scalBound S (decide (SIDE = 'R')) ALPHA (x i)).norm (by simpa using ho)
  by_cases hs : SIDE = 'R' <;> simpa [hs, StdModel.toH_mulL, StdModel.toH_mulR] using this

variable [ArithEq F]

/-- C42, portable AXPYV: `‖computed - exact‖ ≤ 2((1+u)⁵-1) (‖y_i‖ + ‖ALPHA‖ ‖x_i‖)`. -/
theorem C42_axpyv_portable (S : StdModel F u) (m : Mem F) (SIDE : Char) (N X INCX Y INCY : Int) (ALPHA : Scal F)
    (x y : Nat → Quat F) (hX : VecAt m X INCX N.toNat x) (hY : VecAt m Y INCY N.toNat y)
    (hx : 0 < INCX) (hy : 0 < INCY) (fx : Fits32 (N * INCX)) (fy : Fits32 (N * INCY))
    (hdis : Apart (VecCell X INCX N.toNat) (VecCell Y INCY N.toNat))
    (hA : ALPHA.eqZero = true → (ALPHA.map S.val).toH = 0) :
    ∃ m' v, axpyvGen SIDE N ALPHA X INCX Y INCY m = .ok ((), m') ∧ VecAt m' Y INCY N.toNat v ∧
      ∀ i, i < N.toNat → (v i).All S.ok →
        ‖((v i).map S.val).toH - (((y i).map S.val).toH +
          (if SIDE = 'R' then ((x i).map S.val).toH * (ALPHA.map S.val).toH
           else (ALPHA.map S.val).toH * ((x i).map S.val).toH))‖ ≤
          2 * (((1 + u) ^ 5 - 1) * (‖((y i).map S.val).toH‖ +
            ‖(ALPHA.map S.val).toH‖ * ‖((x i).map S.val).toH‖)) := by
  by_cases hz : ALPHA.eqZero = true
  · refine ⟨m, y, ?_, hY, fun i _ _ => ?_⟩
    · unfold axpyvGen; rw [if_pos hz]; split <;> rfl
    · rw [hA hz]
      have h1 := S.one_le_pow 5
      have : 0 ≤ ((1 + u) ^ 5 - 1) * ‖((y i).map S.val).toH‖ := mul_nonneg (by linarith) (norm_nonneg _)
      simpa using this
  · obtain ⟨_, m', h, h1, _⟩ := axpyvGen_wp (SIDE := SIDE) (ALPHA := ALPHA) hx hy fx fy
      (by simpa using hz) hX hY hdis
    refine ⟨m', _, h, h1, fun i _ ho => ?_⟩
    have hq : S.QR 4 (y i) ((y i).map S.val) (broadcast ‖((y i).map S.val).toH‖) :=
      (StdModel.QR.exact (y i)).toNorm
    have := (StdModel.QR.addAssign (n := 5) hq (scalBound S (decide (SIDE = 'R')) ALPHA (x i)) le_rfl le_rfl).norm
      (by simpa using ho)
    rw [StdModel.toH_addAssign] at this
    by_cases hs : SIDE = 'R' <;> simpa [hs, StdModel.toH_mulL, StdModel.toH_mulR] using this

omit [ArithEq F] in
/-- C42, portable DOTU and DOTC: `‖computed - exact‖ ≤ 2((1+u)^(N+4)-1) Σ ‖x_i‖ ‖y_i‖`. -/
theorem C42_dot_portable (S : StdModel F u) (m : Mem F) (N X INCX Y INCY : Int) (x y : Nat → Quat F)
    (hX : VecAt m X INCX N.toNat x) (hY : VecAt m Y INCY N.toNat y)
    (hx : 0 < INCX) (hy : 0 < INCY) (fx : Fits32 (N * INCX)) (fy : Fits32 (N * INCY)) :
    ∃ ru rc, dotGen false N X INCX Y INCY m = .ok (ru, m) ∧ dotGen true N X INCX Y INCY m = .ok (rc, m) ∧
      (ru.All S.ok →
        ‖(ru.map S.val).toH - ∑ i ∈ range N.toNat, ((x i).map S.val).toH * ((y i).map S.val).toH‖ ≤
          2 * (((1 + u) ^ (4 + N.toNat) - 1) *
            ∑ i ∈ range N.toNat, ‖((x i).map S.val).toH‖ * ‖((y i).map S.val).toH‖)) ∧
      (rc.All S.ok →
        ‖(rc.map S.val).toH - ∑ i ∈ range N.toNat, star ((x i).map S.val).toH * ((y i).map S.val).toH‖ ≤
          2 * (((1 + u) ^ (4 + N.toNat) - 1) *
            ∑ i ∈ range N.toNat, ‖((x i).map S.val).toH‖ * ‖((y i).map S.val).toH‖)) := by
  obtain ⟨_, _, h, rfl, rfl⟩ := dotGen_bits (conj := false) hx hy fx fy hX hY
  obtain ⟨_, _, h', rfl, rfl⟩ := dotGen_bits (conj := true) hx hy fx fy hX hY
  refine ⟨_, _, h, h', fun ho => ?_, fun ho => ?_⟩
  · have := (StdModel.QR.pDotQ (S := S) false x y N.toNat).norm ho
    rw [StdModel.toH_pDotQ] at this
    simpa using this
  · have := (StdModel.QR.pDotQ (S := S) true x y N.toNat).norm ho
    rw [StdModel.toH_pDotQ] at this
    simpa using this

/-- C42, portable GEMM (A, ALPHA and BETA of any scalar type): every entry of the result satisfies
`‖computed - exact‖ ≤ 2((1+u)^(K+9)-1) (‖BETA‖ ‖C_ij‖ + 2 ‖ALPHA‖ Σ_k ‖op(A)_ik‖ ‖op(B)_kj‖)`. -/
theorem C42_gemm_portable (S : StdModel F u) (m : Mem F) (k : Kind) (tA tB : Char) (M N K : Int) (ALPHA BETA : Scal F)
    (A LDA B LDB C LDC : Int) (Av : Nat → Nat → Scal F) (Bv Cv : Nat → Nat → Quat F)
    (opA opB : Nat → Nat → ℍ[ℝ])
    (hA : KOpIs tA (fun i k => (Av i k).map S.val) opA) (hB : QOpIs tB (fun i k => (Bv i k).map S.val) opB)
    (ha : StdModel.Truth S ALPHA) (hb : StdModel.Truth S BETA)
    (h : GemmBArgs m k tA tB M N K ALPHA A LDA B LDB C LDC Av Bv Cv) :
    ∃ m' V, gemmGen k tA tB M N K ALPHA A LDA B LDB BETA C LDC m = .ok ((), m') ∧
      MatAt m' C LDC M.toNat N.toNat V ∧
      ∀ i j, i < M.toNat → j < N.toNat → (V i j).All S.ok →
        ‖((V i j).map S.val).toH - ((ALPHA.map S.val).toH * ∑ k ∈ range K.toNat, opA i k * opB k j +
            (BETA.map S.val).toH * ((Cv i j).map S.val).toH)‖ ≤
          2 * (((1 + u) ^ (K.toNat + 9) - 1) *
            (‖(BETA.map S.val).toH‖ * ‖((Cv i j).map S.val).toH‖ +
              2 * ‖(ALPHA.map S.val).toH‖ * ∑ k ∈ range K.toNat, ‖opA i k‖ * ‖opB k j‖)) := by
  obtain ⟨m', h1, h2, _⟩ := gemmGen_bits m k tA tB M N K ALPHA BETA A LDA B LDB C LDC Av Bv Cv h
  refine ⟨m', _, h1, h2, fun i j _ _ ho => ?_⟩
  have eA : ∀ l, ∃ (x : Scal ℝ) (T : Quat ℝ), S.SR 0 (opKE tA Av i l) x T ∧ x.toH = opA i l ∧ ‖T.toH‖ = ‖opA i l‖ := by
    intro l
    rcases hA with ⟨rfl, e⟩ | ⟨rfl, e⟩ | ⟨rfl, e⟩
    · exact ⟨_, _, StdModel.SR.exact _, (e i l).symm, by rw [e, StdModel.norm_emb]; rfl⟩
    · exact ⟨_, _, StdModel.SR.exact _, (e i l).symm, by rw [e, StdModel.norm_emb]; rfl⟩
    · refine ⟨_, _, (StdModel.SR.exact (Av l i)).conj, ?_, ?_⟩
      · rw [e]
        rw [C04_smartConj]
      · rw [e, StdModel.norm_emb, Quaternion.norm_star]
  have eB : ∀ l, ∃ (y T : Quat ℝ), S.QR 0 (opQE tB Bv l j) y T ∧ y.toH = opB l j ∧ ‖T.toH‖ = ‖opB l j‖ := by
    intro l
    rcases hB with ⟨rfl, e⟩ | ⟨rfl, e⟩ | ⟨rfl, e⟩
    · exact ⟨_, _, StdModel.QR.exact _, (e l j).symm, by rw [e, norm_abs]; rfl⟩
    · exact ⟨_, _, StdModel.QR.exact _, (e l j).symm, by rw [e, norm_abs]; rfl⟩
    · refine ⟨_, _, (StdModel.QR.exact (Bv j l)).conj, ?_, ?_⟩
      · rw [e, toH_qconj256]
      · rw [e, norm_abs, Quaternion.norm_star]
  choose x T hx ex nx using eA
  choose y U hy ey ny using eB
  obtain ⟨z, hz, ez⟩ := StdModel.QR.pGemm (tA := tA) (c := Cv i j) (K := K) ha hb hx hy
  have := hz.norm ho
  rw [ez] at this
  simpa only [ex, ey, nx, ny] using this

/-! ## The hypotheses are satisfiable -/

/-- If `==` on machine numbers tells the truth and `1` is exact, the tests on a real or complex scalar
do, and those on a quaternion do unless its k component is what makes the difference. -/
theorem truth_of {S : StdModel F u} (h1 : S.val Arith.one = 1)
    (he : ∀ a b : F, ArithEq.feq a b = true → S.val a = S.val b) :
    (∀ a, StdModel.Truth S (.d a)) ∧ (∀ a, StdModel.Truth S (.z a)) ∧
      (∀ a : Quat F, S.val a.k = 0 → StdModel.Truth S (.h a)) := by
  have h0 := S.zero_val
  refine ⟨fun a => ⟨fun h => ?_, fun h => ?_⟩, fun a => ⟨fun h => ?_, fun h => ?_⟩,
    fun a hk => ⟨fun h => ?_, fun h => ?_⟩⟩
  · have := he _ _ h
    ext <;> simp [Scal.map, Scal.toH, this, h0]
  · have := he _ _ h
    ext <;> simp [Scal.map, Scal.toH, this, h1]
  · simp only [Scal.eqZero, Bool.and_eq_true] at h
    ext <;> simp [Scal.map, Scal.toH, he _ _ h.1, he _ _ h.2, h0]
  · simp only [Scal.eqOne, Bool.and_eq_true] at h
    ext <;> simp [Scal.map, Scal.toH, he _ _ h.1, he _ _ h.2, h0, h1]
  · simp only [Scal.eqZero, Quat.eqOp, Quat.mkReal, Bool.and_eq_true] at h
    ext <;> simp [Scal.map, Quat.map, Scal.toH, he _ _ h.1.1.1, he _ _ h.1.1.2, he _ _ h.1.2, h0, hk]
  · simp only [Scal.eqOne, Quat.eqOp, Quat.mkReal, Bool.and_eq_true] at h
    ext <;> simp [Scal.map, Quat.map, Scal.toH, he _ _ h.1.1.1, he _ _ h.1.1.2, he _ _ h.1.2, h0, h1, hk]

/-- IEEE-like comparison: nothing equals a result that is not a number. -/
noncomputable instance (rnd : ℝ → ℝ) (rng : ℝ → Prop) (fused : Bool) : ArithEq (Fl rnd rng fused) where
  feq a b := open Classical in decide (∃ x : ℝ, a = some x ∧ b = some x)

theorem chop_truth : chopModel.val Arith.one = 1 ∧
    ∀ a b : Chop, ArithEq.feq a b = true → chopModel.val a = chopModel.val b := by
  refine ⟨rfl, fun a b h => ?_⟩
  have h' : ∃ x : ℝ, a = some x ∧ b = some x := by
    classical exact of_decide_eq_true h
  obtain ⟨x, h1, h2⟩ := h'
  rw [h1, h2]

/-- Non-vacuity of C42_gemm_portable: a complex A (2x3, conjugate-transposed), a 2x2 B and a 3x2 C in
rounded arithmetic with complex ALPHA and real BETA. -/
example (f : Int → Chop) : ∃ Av Bv Cv, GemmBArgs (memOf 0 100 f) .z 'C' 'N' 3 2 2 (.z ⟨f 1, f 2⟩) 0 2 20 2 40 4 Av Bv Cv ∧
    StdModel.Truth chopModel (.z ⟨f 1, f 2⟩) ∧ StdModel.Truth chopModel (.d (f 3)) := by
  obtain ⟨td, tz, _⟩ := truth_of chop_truth.1 chop_truth.2
  refine ⟨fun i j => .z ⟨f (0 + 2 * (i + j * 2)), f (0 + 2 * (i + j * 2) + 1)⟩,
    fun i j => ⟨f (20 + 4 * (i + j * 2)), f (20 + 4 * (i + j * 2) + 1), f (20 + 4 * (i + j * 2) + 2), f (20 + 4 * (i + j * 2) + 3)⟩,
    fun i j => ⟨f (40 + 4 * (i + j * 4)), f (40 + 4 * (i + j * 4) + 1), f (40 + 4 * (i + j * 4) + 2), f (40 + 4 * (i + j * 4) + 3)⟩,
    ?_, tz _, td _⟩
  constructor
  · intro _ i j hi hj
    have hi : i < 2 := hi
    have hj : j < 3 := hj
    simp only [readK, Kind.width]
    simp only [memOf]
    rw [if_pos (by omega), if_pos (by omega)]
  · intro _ i j hi hj
    have hi : i < 2 := hi
    have hj : j < 2 := hj
    exact readQ_memOf (by omega) (by omega)
  · intro i j hi hj
    have hi : i < 3 := hi
    have hj : j < 2 := hj
    exact readQ_memOf (by omega) (by omega)
  · norm_num
  · intro l hl
    have hl : l < 3 := hl
    unfold Fits32; omega
  · intro l hl
    have hl : l < 2 := hl
    unfold Fits32; omega
  · intro l hl
    have hl : l < 2 := hl
    unfold Fits32; omega
  · rintro a ⟨i, j, hi, hj, h1, h2⟩ ⟨i', j', hi', hj', h3, h4⟩
    have hi : i < 2 := hi
    have hj : j < 3 := hj
    have hi' : i' < 3 := hi'
    have hj' : j' < 2 := hj'
    simp only [Kind.width] at h1 h2
    omega
  · rintro a ⟨i, j, hi, hj, h1, h2⟩ ⟨i', j', hi', hj', h3, h4⟩
    have hi : i < 2 := hi
    have hj : j < 2 := hj
    have hi' : i' < 3 := hi'
    have hj' : j' < 2 := hj'
    omega

end Haxx
