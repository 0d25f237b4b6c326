import Verif.PropsRoundP
import Verif.PropsRound2
import Verif.PropsRoundF
import Verif.PropsFBits2
import Verif.PropsFBits3
import Verif.PropsFBits4
import Verif.PropsCross

/-!
# C55: in rounded arithmetic the builds agree up to the rounding errors
-/

set_option linter.unusedSectionVars false

namespace Haxx
open Arith Quaternion Finset

section
variable {F : Type} [Arith F] {u : ℝ}

/-- Two computed quaternions, if they are numbers, differ by at most `e`. -/
def StdModel.Near (S : StdModel F u) (e : ℝ) (p q : Quat F) : Prop :=
  p.All S.ok → q.All S.ok → ‖(p.map S.val).toH - (q.map S.val).toH‖ ≤ e

/-- Two quaternions within `2((1+u)^a-1) c` and `2((1+u)^b-1) c` of a third are near each other. -/
theorem StdModel.near_of (S : StdModel F u) {p q : Quat F} {t : ℍ[ℝ]} {c : ℝ} {a b n : ℕ} (hc : 0 ≤ c) (ha : a ≤ n) (hb : b ≤ n)
    (h1 : p.All S.ok → ‖(p.map S.val).toH - t‖ ≤ 2 * (((1 + u) ^ a - 1) * c))
    (h2 : q.All S.ok → ‖(q.map S.val).toH - t‖ ≤ 2 * (((1 + u) ^ b - 1) * c)) :
    S.Near (4 * (((1 + u) ^ n - 1) * c)) p q := by
  intro hp hq
  have hu : 1 ≤ 1 + u := by linarith [S.u_nonneg]
  have e1 : ((1 + u) ^ a - 1) * c ≤ ((1 + u) ^ n - 1) * c :=
    mul_le_mul_of_nonneg_right (by linarith [pow_le_pow_right₀ hu ha]) hc
  have e2 : ((1 + u) ^ b - 1) * c ≤ ((1 + u) ^ n - 1) * c :=
    mul_le_mul_of_nonneg_right (by linarith [pow_le_pow_right₀ hu hb]) hc
  have e3 := norm_sub_le ((p.map S.val).toH - t) ((q.map S.val).toH - t)
  rw [sub_sub_sub_cancel_right] at e3
  have e4 := h1 hp
  have e5 := h2 hq
  linarith

variable [ArithEq F]

/-- C55, SCALV: the SIMD, the portable and the Fortran build differ by at most `4((1+u)⁴-1) ‖ALPHA‖ ‖x_i‖` (SIDE `'L'`
or `'R'`, positive increment; `ALPHA = 0` excluded, `C19_fortran_violated`). -/
theorem C55_scalv (S : StdModel F u) (m : Mem F) (SIDE : Char) (hs : SIDE = 'L' ∨ SIDE = 'R') (N X INCX : Int)
    (ALPHA : Scal F) (x : Nat → Quat F) (hX : VecAt m X INCX N.toNat x) (hinc : 0 < INCX) (fx : Fits32 (N * INCX))
    (hz : ALPHA.vIsZero = false) :
    ∃ m1 m2 m3 v1 v2 v3, scalvAVX SIDE N ALPHA X INCX m = .ok ((), m1) ∧ scalvGen SIDE N ALPHA X INCX m = .ok ((), m2) ∧
      scalvF SIDE N ALPHA X INCX m = .ok ((), m3) ∧ VecAt m1 X INCX N.toNat v1 ∧ VecAt m2 X INCX N.toNat v2 ∧
      VecAt m3 X INCX N.toNat v3 ∧ ∀ i, i < N.toNat →
        let e := 4 * (((1 + u) ^ 4 - 1) * (‖(ALPHA.map S.val).toH‖ * ‖((x i).map S.val).toH‖))
        S.Near e (v1 i) (v2 i) ∧ S.Near e (v2 i) (v3 i) ∧ S.Near e (v1 i) (v3 i) := by
  obtain ⟨m1, v1, a1, b1, c1⟩ := C42_scalv S m SIDE N X INCX ALPHA x hX (by omega)
  obtain ⟨m2, v2, a2, b2, c2⟩ := C42_scalv_portable S m SIDE N X INCX ALPHA x hX hinc fx
  obtain ⟨m3, v3, a3, b3, c3⟩ := C42_scalv_fortran S m SIDE N X INCX ALPHA x (by rwa [fbase_pos hinc]) (by omega) hz
  rw [fbase_pos hinc] at b3
  refine ⟨m1, m2, m3, v1, v2, v3, a1, a2, a3, b1, b2, b3, fun i hi => ?_⟩
  have c1 := c1 i hi
  have c2 := c2 i hi
  have c3 := c3 i hi
  have hc : 0 ≤ ‖(ALPHA.map S.val).toH‖ * ‖((x i).map S.val).toH‖ := by positivity
  rcases hs with rfl | rfl
  · rw [if_pos rfl] at c1
    rw [if_neg (by decide)] at c2 c3
    exact ⟨S.near_of hc (by omega) le_rfl c1 c2, S.near_of hc le_rfl le_rfl c2 c3, S.near_of hc (by omega) le_rfl c1 c3⟩
  · rw [if_neg (by decide)] at c1
    rw [if_pos rfl] at c2
    rw [if_pos (Or.inl rfl)] at c3
    exact ⟨S.near_of hc (by omega) le_rfl c1 c2, S.near_of hc le_rfl le_rfl c2 c3, S.near_of hc (by omega) le_rfl c1 c3⟩

/-- C55, AXPYV: the three builds differ by at most `4((1+u)⁵-1) (‖y_i‖ + ‖ALPHA‖ ‖x_i‖)`. -/
theorem C55_axpyv (S : StdModel F u) (m : Mem F) (SIDE : Char) (hs : SIDE = 'L' ∨ SIDE = 'R') (N X INCX Y INCY : Int)
    (ALPHA : Scal F) (x y : Nat → Quat F) (hX : VecAt m X INCX N.toNat x) (hY : VecAt m Y INCY N.toNat y)
    (hx : 0 < INCX) (hy : 0 < INCY) (fx : Fits32 (N * INCX)) (fy : Fits32 (N * INCY))
    (hdis : Apart (VecCell X INCX N.toNat) (VecCell Y INCY N.toNat))
    (he : ∀ a b : F, (a ==ᶠ b) = true → S.val a = S.val b)
    (hA : ALPHA.eqZero = true → (ALPHA.map S.val).toH = 0) :
    ∃ m1 m2 m3 v1 v2 v3, axpyvAVX SIDE N ALPHA X INCX Y INCY m = .ok ((), m1) ∧
      axpyvGen SIDE N ALPHA X INCX Y INCY m = .ok ((), m2) ∧ axpyvF SIDE N ALPHA X INCX Y INCY m = .ok ((), m3) ∧
      VecAt m1 Y INCY N.toNat v1 ∧ VecAt m2 Y INCY N.toNat v2 ∧ VecAt m3 Y INCY N.toNat v3 ∧ ∀ i, i < N.toNat →
        let e := 4 * (((1 + u) ^ 5 - 1) * (‖((y i).map S.val).toH‖ + ‖(ALPHA.map S.val).toH‖ * ‖((x i).map S.val).toH‖))
        S.Near e (v1 i) (v2 i) ∧ S.Near e (v2 i) (v3 i) ∧ S.Near e (v1 i) (v3 i) := by
  obtain ⟨m1, v1, a1, b1, c1⟩ := C42_axpyv S m SIDE N X INCX Y INCY ALPHA x y hX hY (by omega) hdis
  obtain ⟨m2, v2, a2, b2, c2⟩ := C42_axpyv_portable S m SIDE N X INCX Y INCY ALPHA x y hX hY hx hy fx fy hdis hA
  obtain ⟨m3, v3, a3, b3, c3⟩ := C42_axpyv_fortran S m SIDE N X INCX Y INCY ALPHA x y (by rwa [fbase_pos hx])
    (by rwa [fbase_pos hy]) (by omega) (by rwa [fbase_pos hx, fbase_pos hy]) he
  rw [fbase_pos hy] at b3
  refine ⟨m1, m2, m3, v1, v2, v3, a1, a2, a3, b1, b2, b3, fun i hi => ?_⟩
  have c1 := c1 i hi
  have c2 := c2 i hi
  have c3 := c3 i hi
  have hc : 0 ≤ ‖((y i).map S.val).toH‖ + ‖(ALPHA.map S.val).toH‖ * ‖((x i).map S.val).toH‖ := by positivity
  rcases hs with rfl | rfl
  · rw [if_pos rfl] at c1
    rw [if_neg (by decide)] at c2 c3
    exact ⟨S.near_of hc (by omega) le_rfl c1 c2, S.near_of hc le_rfl le_rfl c2 c3, S.near_of hc (by omega) le_rfl c1 c3⟩
  · rw [if_neg (by decide)] at c1
    rw [if_pos rfl] at c2
    rw [if_pos (Or.inl rfl)] at c3
    exact ⟨S.near_of hc (by omega) le_rfl c1 c2, S.near_of hc le_rfl le_rfl c2 c3, S.near_of hc (by omega) le_rfl c1 c3⟩

/-- C55, DOTU (`conj = false`) and DOTC: the three builds differ by at most `4((1+u)^(4N+4)-1) Σ ‖x_i‖ ‖y_i‖`. -/
theorem C55_dot (S : StdModel F u) (conj : Bool) (m : Mem F) (N X INCX Y INCY : Int) (x y : Nat → Quat F)
    (hX : VecAt m X INCX N.toNat x) (hY : VecAt m Y INCY N.toNat y)
    (hx : 0 < INCX) (hy : 0 < INCY) (fx : Fits32 (N * INCX)) (fy : Fits32 (N * INCY))
    (hx32 : Fits32 (4 * INCX)) (hy32 : Fits32 (4 * INCY)) :
    ∃ r1 r2 r3, dotAVX conj N X INCX Y INCY m = .ok (r1, m) ∧ dotGen conj N X INCX Y INCY m = .ok (r2, m) ∧
      dotF conj N X INCX Y INCY m = .ok (r3, m) ∧
      let e := 4 * (((1 + u) ^ (4 * N.toNat + 4) - 1) *
        ∑ i ∈ range N.toNat, ‖((x i).map S.val).toH‖ * ‖((y i).map S.val).toH‖)
      S.Near e r1 r2 ∧ S.Near e r2 r3 ∧ S.Near e r1 r3 := by
  obtain ⟨u1, c1, a1, a1', b1, b1'⟩ := C42_dot S m N X INCX Y INCY x y hX hY hx32 hy32
  obtain ⟨u2, c2, a2, a2', b2, b2'⟩ := C42_dot_portable S m N X INCX Y INCY x y hX hY hx hy fx fy
  obtain ⟨u3, c3, a3, a3', b3, b3'⟩ := C42_dot_fortran S m N X INCX Y INCY x y (by rwa [fbase_pos hx]) (by rwa [fbase_pos hy])
  have hc : 0 ≤ ∑ i ∈ range N.toNat, ‖((x i).map S.val).toH‖ * ‖((y i).map S.val).toH‖ :=
    sum_nonneg fun _ _ => by positivity
  cases conj
  · exact ⟨u1, u2, u3, a1, a2, a3, S.near_of hc (by omega) (by omega) b1 b2, S.near_of hc (by omega) (by omega) b2 b3,
      S.near_of hc (by omega) (by omega) b1 b3⟩
  · exact ⟨c1, c2, c3, a1', a2', a3', S.near_of hc (by omega) (by omega) b1' b2', S.near_of hc (by omega) (by omega) b2' b3',
      S.near_of hc (by omega) (by omega) b1' b3'⟩

/-- C55, GEMM, flags `'N'`, `'T'`, `'C'`: the three builds differ by at most
`4((1+u)^(4K+9)-1) (‖BETA‖ ‖C_ij‖ + 2 ‖ALPHA‖ Σ_k ‖op(A)_ik‖ ‖op(B)_kj‖)`. -/
theorem C55_gemm (S : StdModel F u) (m : Mem F) (blk : Blk) (bAddr aAddr : Int) (junk : Int → F) (tA tB : Char)
    (htA : tA = 'N' ∨ tA = 'T' ∨ tA = 'C') (htB : tB = 'N' ∨ tB = 'T' ∨ tB = 'C')
    (M N K : Int) (ALPHA BETA : Scal F) (A LDA B LDB C LDC : Int) (Av Bv Cv : Nat → Nat → Quat F)
    (h : GemmPre m blk bAddr aAddr tA tB M.toNat N.toNat K.toNat A LDA Av B LDB Bv C LDC Cv)
    (hA32 : ∀ l : Nat, l < (if tA = 'N' then K.toNat else M.toNat) → Fits32 (l * LDA))
    (hB32 : ∀ l : Nat, l < (if tB = 'N' then N.toNat else K.toNat) → Fits32 (l * LDB))
    (hC32 : ∀ l : Nat, l < N.toNat → Fits32 (l * LDC))
    (h1 : S.val Arith.one = 1) (he : ∀ a b : F, (a ==ᶠ b) = true → S.val a = S.val b)
    (ha : StdModel.Truth S ALPHA) (hb : StdModel.Truth S BETA) :
    ∃ m1 m2 m3 V1 V2 V3, gemmAVX blk bAddr aAddr junk tA tB M N K ALPHA A LDA B LDB BETA C LDC m = .ok ((), m1) ∧
      gemmGen .h tA tB M N K ALPHA A LDA B LDB BETA C LDC m = .ok ((), m2) ∧
      hgemmF tA tB M N K ALPHA A LDA B LDB BETA C LDC m = .ok ((), m3) ∧
      MatAt m1 C LDC M.toNat N.toNat V1 ∧ MatAt m2 C LDC M.toNat N.toNat V2 ∧ MatAt m3 C LDC M.toNat N.toNat V3 ∧
      ∀ i j, i < M.toNat → j < N.toNat →
        let a := opSpec tA (fun i k => (Av i k).map S.val)
        let b := opSpec tB (fun k j => (Bv k j).map S.val)
        let e := 4 * (((1 + u) ^ (4 * K.toNat + 9) - 1) * (‖(BETA.map S.val).toH‖ * ‖((Cv i j).map S.val).toH‖ +
          2 * ‖(ALPHA.map S.val).toH‖ * ∑ k ∈ range K.toNat, ‖a i k‖ * ‖b k j‖))
        S.Near e (V1 i j) (V2 i j) ∧ S.Near e (V2 i j) (V3 i j) ∧ S.Near e (V1 i j) (V3 i j) := by
  have tN : ∀ t : Char, (t = 'N' ∨ t = 'T' ∨ t = 'C') → (isT t ↔ ¬ t = 'N') ∧ (IsN t ↔ t = 'N') := by
    rintro t (rfl | rfl | rfl) <;> decide
  have sw : ∀ (t : Char), (t = 'N' ∨ t = 'T' ∨ t = 'C') → ∀ a b : Nat, (if isT t then a else b) = (if t = 'N' then b else a) := by
    intro t ht a b
    by_cases e : t = 'N'
    · rw [if_neg ((tN t ht).1.not.mpr (not_not.mpr e)), if_pos e]
    · rw [if_pos ((tN t ht).1.mpr e), if_neg e]
  have sn : ∀ (t : Char), (t = 'N' ∨ t = 'T' ∨ t = 'C') → ∀ a b : Nat, (if IsN t then a else b) = (if t = 'N' then a else b) := by
    intro t ht a b
    simp only [(tN t ht).2]
  have oO : ∀ (t : Char) (X : Nat → Nat → Quat ℝ), (t = 'N' ∨ t = 'T' ∨ t = 'C') → OpIs t X (opSpec t X) := by
    rintro t X (rfl | rfl | rfl)
    · exact Or.inl ⟨Or.inl rfl, fun _ _ => rfl⟩
    · exact Or.inr (Or.inl ⟨Or.inl rfl, fun _ _ => rfl⟩)
    · exact Or.inr (Or.inr ⟨Or.inl rfl, fun _ _ => rfl⟩)
  have kA : KOpIs tA (fun i j => (Scal.h (Av i j)).map S.val) (opSpec tA (fun i k => (Av i k).map S.val)) := by
    rcases htA with rfl | rfl | rfl
    · exact Or.inl ⟨rfl, fun _ _ => rfl⟩
    · exact Or.inr (Or.inl ⟨rfl, fun _ _ => rfl⟩)
    · exact Or.inr (Or.inr ⟨rfl, fun _ _ => rfl⟩)
  have qB : QOpIs tB (fun i j => (Bv i j).map S.val) (opSpec tB (fun i k => (Bv i k).map S.val)) := by
    rcases htB with rfl | rfl | rfl
    · exact Or.inl ⟨rfl, fun _ _ => rfl⟩
    · exact Or.inr (Or.inl ⟨rfl, fun _ _ => rfl⟩)
    · exact Or.inr (Or.inr ⟨rfl, fun _ _ => rfl⟩)
  have hld : M ≤ LDC := by have := h.ldc; omega
  have mA := h.matA
  have mB := h.matB
  have aA := h.apartA
  have aB := h.apartB
  rw [sw tA htA, sw tA htA] at mA aA
  rw [sw tB htB, sw tB htB] at mB aB
  obtain ⟨m1, V1, a1, b1, c1⟩ := C42_gemm S m blk bAddr aAddr junk tA tB M N K ALPHA BETA A LDA B LDB C LDC Av Bv Cv h
  obtain ⟨m2, V2, a2, b2, c2⟩ := C42_gemm_portable S m .h tA tB M N K ALPHA BETA A LDA B LDB C LDC
    (fun i j => .h (Av i j)) Bv Cv _ _ kA qB ha hb
    { hA := fun _ i j hi hj => by
        have := mA i j hi hj
        simp only [readK, Kind.width]
        rw [this]
      hB := fun _ => mB
      hC := h.matC
      hld := hld
      fitA := hA32
      fitB := hB32
      fitC := hC32
      hAC := by
        rintro a ⟨i, j, hi, hj, q1, q2⟩
        exact aA a ⟨i, j, hi, hj, q1, q2⟩
      hBC := aB }
  obtain ⟨m3, V3, a3, b3, c3⟩ := C42_gemm_fortran S m tA tB M N K ALPHA BETA A LDA B LDB C LDC Av Bv Cv _ _
    (oO tA _ htA) (oO tB _ htB) h1 he
    { hA := fun _ => by rw [sn tA htA, sn tA htA]; exact mA
      hB := fun _ => by rw [sn tB htB, sn tB htB]; exact mB
      hC := h.matC
      hld := hld
      hAC := by rw [sn tA htA, sn tA htA]; exact aA
      hBC := by rw [sn tB htB, sn tB htB]; exact aB }
  refine ⟨m1, m2, m3, V1, V2, V3, a1, a2, a3, b1, b2, b3, fun i j hi hj => ?_⟩
  intro a b e
  have hc : 0 ≤ ‖(BETA.map S.val).toH‖ * ‖((Cv i j).map S.val).toH‖ +
      2 * ‖(ALPHA.map S.val).toH‖ * ∑ k ∈ range K.toNat, ‖a i k‖ * ‖b k j‖ := by
    have : 0 ≤ ∑ k ∈ range K.toNat, ‖a i k‖ * ‖b k j‖ := sum_nonneg fun _ _ => by positivity
    positivity
  have c1 := c1 i j hi hj
  have c2 := c2 i j hi hj
  have c3 := c3 i j hi hj
  exact ⟨S.near_of hc (by omega) (by omega) c1 c2, S.near_of hc (by omega) (by omega) c2 c3,
    S.near_of hc (by omega) (by omega) c1 c3⟩

/-- C55, GEMV (partial, because `FGemvGood` excludes the calls on which the Fortran kernels are wrong and `Truth` those
on which the portable template is), flags `'N'`, `'T'`, `'C'`: with K the length of x, the portable and the Fortran
build differ by at most `4((1+u)^(4K+9)-1) (‖BETA‖ ‖y_i‖ + 6 ‖ALPHA‖ Σ_k ‖op(A)_ik‖ ‖x_k‖)`. -/
theorem C55_gemv_partial (S : StdModel F u) (m : Mem F) (t : Char) (ht : t = 'N' ∨ t = 'T' ∨ t = 'C') (M N : Int)
    (ALPHA : Scal F) (A LDA X INCX : Int) (BETA : Scal F) (Y INCY : Int) (Av : Nat → Nat → Quat F) (x y : Nat → Quat F)
    (hM : M ≠ 0) (hN : N ≠ 0)
    (hY : VecAt m Y INCY (if t = 'N' then M else N).toNat y) (hA : MatAt m A LDA M.toNat N.toNat Av)
    (hX : VecAt m X INCX (if t = 'N' then N else M).toNat x)
    (hAY : Apart (MatCell A LDA M.toNat N.toNat) (VecCell Y INCY (if t = 'N' then M else N).toNat))
    (hXY : Apart (VecCell X INCX (if t = 'N' then N else M).toNat) (VecCell Y INCY (if t = 'N' then M else N).toNat))
    (hx : 0 < INCX) (hy : 0 < INCY)
    (fitA : ∀ i j : Nat, i < M.toNat → j < N.toNat → Fits32 (j * LDA) ∧ Fits32 (i + j * LDA))
    (fitX : ∀ i : Nat, i ≤ (if t = 'N' then N else M).toNat → Fits32 (i * INCX))
    (fitY : ∀ i : Nat, i ≤ (if t = 'N' then M else N).toNat → Fits32 (i * INCY))
    (h1 : S.val Arith.one = 1) (he : ∀ a b : F, (a ==ᶠ b) = true → S.val a = S.val b)
    (ha : StdModel.Truth S ALPHA) (hb : StdModel.Truth S BETA) (hg : FGemvGood t M N ALPHA BETA INCX INCY) :
    ∃ m1 m2 v1 v2, gemvGen .h t M N ALPHA A LDA X INCX BETA Y INCY m = .ok ((), m1) ∧
      gemvF t M N ALPHA A LDA X INCX BETA Y INCY m = .ok ((), m2) ∧
      VecAt m1 Y INCY (if t = 'N' then M else N).toNat v1 ∧ VecAt m2 Y INCY (if t = 'N' then M else N).toNat v2 ∧
      ∀ i, i < (if t = 'N' then M else N).toNat →
        let a := opSpec t (fun i k => (Av i k).map S.val)
        let K := (if t = 'N' then N else M).toNat
        S.Near (4 * (((1 + u) ^ (4 * K + 9) - 1) * (‖(BETA.map S.val).toH‖ * ‖((y i).map S.val).toH‖ +
          6 * ‖(ALPHA.map S.val).toH‖ * ∑ k ∈ range K, ‖a i k‖ * ‖((x k).map S.val).toH‖))) (v1 i) (v2 i) := by
  have oO : ∀ (t : Char) (X : Nat → Nat → Quat ℝ), (t = 'N' ∨ t = 'T' ∨ t = 'C') → OpIs t X (opSpec t X) := by
    rintro t X (rfl | rfl | rfl)
    · exact Or.inl ⟨Or.inl rfl, fun _ _ => rfl⟩
    · exact Or.inr (Or.inl ⟨Or.inl rfl, fun _ _ => rfl⟩)
    · exact Or.inr (Or.inr ⟨Or.inl rfl, fun _ _ => rfl⟩)
  have kA : KOpIs t (fun i j => (Scal.h (Av i j)).map S.val) (opSpec t (fun i k => (Av i k).map S.val)) := by
    rcases ht with rfl | rfl | rfl
    · exact Or.inl ⟨rfl, fun _ _ => rfl⟩
    · exact Or.inr (Or.inl ⟨rfl, fun _ _ => rfl⟩)
    · exact Or.inr (Or.inr ⟨rfl, fun _ _ => rfl⟩)
  have lY : gemvLenY t M N = if t = 'N' then M else N := by rcases ht with rfl | rfl | rfl <;> rfl
  have lX : gemvLenX t M N = if t = 'N' then N else M := by rcases ht with rfl | rfl | rfl <;> rfl
  obtain ⟨m1, v1, a1, b1, c1⟩ := C42_gemv_portable S m .h t M N ALPHA A LDA X INCX BETA Y INCY (fun i j => .h (Av i j)) x y
    _ kA ha hb hM hN
    { incX := hx, incY := hy, hY := hY, hX := fun _ => hX, hXY := hXY, fitA := fitA, fitX := fitX, fitY := fitY
      hA := fun _ i j hi hj => by
        have := hA i j hi hj
        simp only [readK, Kind.width]
        rw [this]
      hAY := by
        rintro a ⟨i, j, hi, hj, q1, q2⟩
        exact hAY a ⟨i, j, hi, hj, q1, q2⟩ }
  obtain ⟨m2, v2, a2, b2, c2⟩ := C42_gemv_fortran_partial S m t M N ALPHA A LDA X INCX BETA Y INCY Av x y _ (oO t _ ht)
    h1 he hM hN
    { hinc := by omega
      hY := by rw [vecStart_pos hy, lY]; exact hY
      hA := fun _ => hA
      hX := fun _ => by rw [vecStart_pos hx, lX]; exact hX
      hAY := fun _ => by rw [vecStart_pos hy, lY]; exact hAY
      hXY := fun _ => by rw [vecStart_pos hx, vecStart_pos hy, lX, lY]; exact hXY } hg
  rw [vecStart_pos hy] at b2
  rw [lY, lX] at c2
  rw [lY] at b2
  refine ⟨m1, m2, v1, v2, a1, a2, b1, b2, fun i hi => ?_⟩
  intro a K
  have c1 := c1 i hi
  have c2 := c2 i hi
  have hs : 0 ≤ ∑ k ∈ range K, ‖a i k‖ * ‖((x k).map S.val).toH‖ := sum_nonneg fun _ _ => by positivity
  have hc : 0 ≤ ‖(BETA.map S.val).toH‖ * ‖((y i).map S.val).toH‖ +
      6 * ‖(ALPHA.map S.val).toH‖ * ∑ k ∈ range K, ‖a i k‖ * ‖((x k).map S.val).toH‖ := by positivity
  refine S.near_of hc (by omega) (Nat.le_of_lt (by omega : 4 * K + 7 < 4 * K + 9)) c1 (fun ho => (c2 ho).trans ?_)
  have h7 := S.one_le_pow (4 * K + 7)
  have hk : 0 ≤ ‖(ALPHA.map S.val).toH‖ * ∑ k ∈ range K, ‖a i k‖ * ‖((x k).map S.val).toH‖ := by positivity
  refine mul_le_mul_of_nonneg_left (mul_le_mul_of_nonneg_left ?_ (by linarith)) (by norm_num)
  have e2 : ∀ c : ℝ, c * ‖(ALPHA.map S.val).toH‖ * ∑ k ∈ range K, ‖a i k‖ * ‖((x k).map S.val).toH‖ =
    c * (‖(ALPHA.map S.val).toH‖ * ∑ k ∈ range K, ‖a i k‖ * ‖((x k).map S.val).toH‖) := fun c => by ring
  change _ + 2 * ‖(ALPHA.map S.val).toH‖ * ∑ k ∈ range K, ‖a i k‖ * ‖((x k).map S.val).toH‖ ≤ _
  rw [e2, e2]
  linarith

/-- C55, GERU (`conjY = false`) and GERC (partial: a real ALPHA needs `INCX = 1` and no y_j may be `ck`): the portable and
the Fortran build differ by at most `4((1+u)⁹-1) (‖A_ij‖ + 2 ‖ALPHA‖ ‖x_i‖ ‖y_j‖)`. -/
theorem C55_ger_partial (S : StdModel F u) (conjY : Bool) (m : Mem F) (M N : Int) (ALPHA : Scal F)
    (X INCX Y INCY A LDA : Int) (x y : Nat → Quat F) (a : Nat → Nat → Quat F)
    (he : ∀ a b : F, (a ==ᶠ b) = true → S.val a = S.val b) (ha : StdModel.Truth S ALPHA)
    (h : GerBArgs m M N X INCX Y INCY A LDA x y a) (hd : ∀ r, ALPHA = .d r → INCX = 1)
    (hyk : ∀ j, j < N.toNat → Quat.neOp (y j) (Quat.mkReal Arith.zero) = false → ((y j).map S.val).toH = 0) :
    ∃ m1 m2 v1 v2, gerGen conjY M N ALPHA X INCX Y INCY A LDA m = .ok ((), m1) ∧
      gerF conjY M N ALPHA X INCX Y INCY A LDA m = .ok ((), m2) ∧
      MatAt m1 A LDA M.toNat N.toNat v1 ∧ MatAt m2 A LDA M.toNat N.toNat v2 ∧
      ∀ i j, i < M.toNat → j < N.toNat →
        S.Near (4 * (((1 + u) ^ 9 - 1) * (‖((a i j).map S.val).toH‖ +
          2 * ‖(ALPHA.map S.val).toH‖ * ‖((x i).map S.val).toH‖ * ‖((y j).map S.val).toH‖))) (v1 i j) (v2 i j) := by
  have hx : ¬ INCX < 0 := by have := h.incX; omega
  have hy : ¬ INCY < 0 := by have := h.incY; omega
  obtain ⟨m1, v1, a1, b1, c1⟩ := C42_ger_portable S conjY m M N ALPHA X INCX Y INCY A LDA x y a ha h
  obtain ⟨m2, v2, a2, b2, c2⟩ := C42_ger_fortran S conjY m M N ALPHA X INCX Y INCY A LDA x y a he
    ⟨h.hA, by rw [if_neg hx]; exact h.hX, by rw [if_neg hy]; exact h.hY, h.hld, by rw [if_neg hx]; exact h.hXA,
      by rw [if_neg hy]; exact h.hYA⟩ hd
  refine ⟨m1, m2, v1, v2, a1, a2, b1, b2, fun i j hi hj => ?_⟩
  have c1 := fun ho => c1 i j hi hj ho (hyk j hj)
  have c2 := c2 i j hi hj
  exact S.near_of (by positivity) le_rfl (by omega) c1 c2

/-! ## The hypotheses are satisfiable: rounded arithmetic, any contents -/

/-- Five elements with stride 2 at 0 and stride 3 at 60. -/
theorem lv1_example {F : Type} (f : Int → F) :
    VecAt (memOf 0 200 f) 0 2 (5:Int).toNat (fun i => ⟨f (0 + 4 * (i * 2)), f (0 + 4 * (i * 2) + 1), f (0 + 4 * (i * 2) + 2), f (0 + 4 * (i * 2) + 3)⟩) ∧
    VecAt (memOf 0 200 f) 60 3 (5:Int).toNat (fun i => ⟨f (60 + 4 * (i * 3)), f (60 + 4 * (i * 3) + 1), f (60 + 4 * (i * 3) + 2), f (60 + 4 * (i * 3) + 3)⟩) ∧
    Apart (VecCell 0 2 (5:Int).toNat) (VecCell 60 3 (5:Int).toNat) := by
  refine ⟨fun i hi => ?_, fun i hi => ?_, ?_⟩
  · have hi : i < 5 := hi
    exact readQ_memOf (by omega) (by omega)
  · have hi : i < 5 := hi
    exact readQ_memOf (by omega) (by omega)
  · rintro a ⟨i, hi, h1, h2⟩ ⟨i', hi', h3, h4⟩
    have hi : i < 5 := hi
    have hi' : i' < 5 := hi'
    omega

example (f : Int → Chop) (z : Cplx Chop) :=
  C55_axpyv chopModel _ 'R' (Or.inr rfl) 5 0 2 60 3 (.z z) _ _ (lv1_example f).1 (lv1_example f).2.1 (by decide) (by decide)
    (by unfold Fits32; omega) (by unfold Fits32; omega) (lv1_example f).2.2 chop_truth.2
    ((truth_of chop_truth.1 chop_truth.2).2.1 z).zero

example (f : Int → Chop) :=
  C55_dot chopModel true _ 5 0 2 60 3 _ _ (lv1_example f).1 (lv1_example f).2.1 (by decide) (by decide)
    (by unfold Fits32; omega) (by unfold Fits32; omega) (by unfold Fits32; omega) (by unfold Fits32; omega)

example (f : Int → Chop) :=
  C55_scalv chopModel _ 'L' (Or.inl rfl) 5 0 2 (.d Arith.one) _ (lv1_example f).1 (by decide) (by unfold Fits32; omega) (by
    cases h : (Scal.d (Arith.one : Chop)).vIsZero with
    | false => rfl
    | true =>
      have := chop_truth.2 _ _ h
      rw [chop_truth.1, chopModel.zero_val] at this
      exact absurd this one_ne_zero)

example (f : Int → Chop) (a : Cplx Chop) (b : Chop) :=
  C55_gemm chopModel _ _ _ _ f 'C' 'N' (by decide) (by decide) 3 1 2 (.z a) (.d b) 0 2 24 2 33 4 _ _ _ (gemmPre_example' f)
    (by intro l hl; have hl : l < 3 := hl; unfold Fits32; omega) (by intro l hl; have hl : l < 1 := hl; unfold Fits32; omega)
    (by intro l hl; have hl : l < 1 := hl; unfold Fits32; omega) chop_truth.1 chop_truth.2
    ((truth_of chop_truth.1 chop_truth.2).2.1 a) ((truth_of chop_truth.1 chop_truth.2).1 b)

/-- y of length 3 at 90, A 2 × 3 at 0 (LDA 4), x of length 2 at 60, ALPHA complex, BETA real. -/
example (f : Int → Chop) (a : Cplx Chop) (b : Chop) :=
  C55_gemv_partial chopModel (memOf 0 200 f) 'C' (by decide) 2 3 (.z a) 0 4 60 2 (.d b) 90 1
    (fun i j => ⟨f (0 + 4 * (i + j * 4)), f (0 + 4 * (i + j * 4) + 1), f (0 + 4 * (i + j * 4) + 2), f (0 + 4 * (i + j * 4) + 3)⟩)
    (fun i => ⟨f (60 + 4 * (i * 2)), f (60 + 4 * (i * 2) + 1), f (60 + 4 * (i * 2) + 2), f (60 + 4 * (i * 2) + 3)⟩)
    (fun i => ⟨f (90 + 4 * (i * 1)), f (90 + 4 * (i * 1) + 1), f (90 + 4 * (i * 1) + 2), f (90 + 4 * (i * 1) + 3)⟩)
    (by decide) (by decide)
    (by intro i hi; have hi : i < 3 := hi; exact readQ_memOf (by omega) (by omega))
    (by intro i j hi hj; have hi : i < 2 := hi; have hj : j < 3 := hj; exact readQ_memOf (by omega) (by omega))
    (by intro i hi; have hi : i < 2 := hi; exact readQ_memOf (by omega) (by omega))
    (by
      rintro c ⟨i, j, hi, hj, h1, h2⟩ ⟨i', hi', h3, h4⟩
      have hi : i < 2 := hi
      have hj : j < 3 := hj
      have hi' : i' < 3 := hi'
      omega)
    (by
      rintro c ⟨i, hi, h1, h2⟩ ⟨i', hi', h3, h4⟩
      have hi : i < 2 := hi
      have hi' : i' < 3 := hi'
      omega)
    (by decide) (by decide)
    (by intro i j hi hj; have hi : i < 2 := hi; have hj : j < 3 := hj; unfold Fits32; omega)
    (by intro i hi; have hi : i ≤ 2 := hi; unfold Fits32; omega)
    (by intro i hi; have hi : i ≤ 3 := hi; unfold Fits32; omega)
    chop_truth.1 chop_truth.2
    ((truth_of chop_truth.1 chop_truth.2).2.1 a) ((truth_of chop_truth.1 chop_truth.2).1 b)
    ⟨Or.inr (Or.inr (Or.inl ⟨by decide, by unfold IsT; decide⟩)), (by rintro ⟨_, h⟩; cases h), (by rintro ⟨_, h⟩; cases h)⟩

/-- The y_j have a zero k component, everything else is arbitrary. -/
example (g : Int → Chop) (a : Cplx Chop) :=
  C55_ger_partial chopModel true _ 2 3 (.z a) 60 2 90 1 0 4 _ _ _ chop_truth.2 ((truth_of chop_truth.1 chop_truth.2).2.1 a)
    (gerBArgs_example (fun n => if 90 ≤ n ∧ n % 4 = 1 then Arith.zero else g n)) (by intro r h; cases h) (by
      intro j hj h
      refine ((truth_of chop_truth.1 chop_truth.2).2.2 _ ?_).zero (by unfold Quat.neOp at h; exact (Bool.not_eq_false' _).mp h)
      have : 90 ≤ (90 + 4 * ((j:Int) * 1) + 3) ∧ (90 + 4 * ((j:Int) * 1) + 3) % 4 = 1 := by omega
      simp only [if_pos this]
      exact chopModel.zero_val)

end
end Haxx
