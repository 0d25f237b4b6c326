import Verif.PropsAgree
import Verif.PropsFuseNorm

/-!
# C67: the same operation carried out twice agrees up to rounding, whatever the builds, compilers and layouts

Two calls on the same numbers: on two machines whose arithmetic may differ (`S₁`, `S₂`: for example one compiled with fused
multiply-adds and one without, or two different fusings), by any two of the three builds, with the data at different addresses
with different strides, and the scalars possibly passed as different types.
-/

set_option linter.unusedSectionVars false
set_option linter.unusedVariables false

namespace Haxx
open Arith Quaternion Finset

/-- The three implementations of an operation: the AVX kernels (src/hblas{1,3}), the portable templates
(include/hblas/generic), the Fortran kernels (src/fortran). -/
inductive Build | simd | portable | fortran
deriving DecidableEq

section
variable {F : Type} [Arith F] [ArithEq F] {u : ℝ}

/-- SCALV of a build. -/
def scalvOf : Build → Char → Int → Scal F → Int → Int → Prog F Unit
  | .simd => scalvAVX | .portable => scalvGen | .fortran => scalvF
/-- AXPYV of a build. -/
def axpyvOf : Build → Char → Int → Scal F → Int → Int → Int → Int → Prog F Unit
  | .simd => axpyvAVX | .portable => axpyvGen | .fortran => axpyvF
/-- DOTU (`false`) and DOTC of a build. -/
def dotOf : Build → Bool → Int → Int → Int → Int → Int → Prog F (Quat F)
  | .simd => dotAVX | .portable => dotGen | .fortran => dotF

/-- a SCALV call: `x` in memory, all index computations in range, no known defect -/
structure ScalvCall (b : Build) (m : Mem F) (SIDE : Char) (N X INCX : Int) (ALPHA : Scal F) (x : Nat → Quat F) : Prop where
  side : SIDE = 'L' ∨ SIDE = 'R'
  hX : VecAt m X INCX N.toNat x
  hinc : 0 < INCX
  fx : Fits32 (N * INCX)
  hz : b = .fortran → ALPHA.vIsZero = false

theorem scalv_of (S : StdModel F u) (b : Build) (m : Mem F) (SIDE : Char) (N X INCX : Int) (ALPHA : Scal F) (x : Nat → Quat F)
    (h : ScalvCall b m SIDE N X INCX ALPHA x) :
    ∃ m' v, scalvOf b SIDE N ALPHA X INCX m = .ok ((), m') ∧ VecAt m' X INCX N.toNat v ∧ ∀ i, i < N.toNat → (v i).All S.ok →
      ‖((v i).map S.val).toH - (if SIDE = 'L' then (ALPHA.map S.val).toH * ((x i).map S.val).toH
           else ((x i).map S.val).toH * (ALPHA.map S.val).toH)‖ ≤
        2 * (((1 + u) ^ 4 - 1) * (‖(ALPHA.map S.val).toH‖ * ‖((x i).map S.val).toH‖)) := by
  obtain ⟨hs, hX, hinc, fx, hz⟩ := h
  cases b with
  | simd =>
    obtain ⟨m1, v1, a1, b1, c1⟩ := C42_scalv S m SIDE N X INCX ALPHA x hX (by omega)
    refine ⟨m1, v1, a1, b1, fun i hi ho => (c1 i hi ho).trans ?_⟩
    have := pow_le_pow_right₀ (by linarith [S.u_nonneg] : 1 ≤ 1 + u) (by decide : 3 ≤ 4)
    refine mul_le_mul_of_nonneg_left (mul_le_mul_of_nonneg_right (by linarith) (by positivity)) (by norm_num)
  | portable =>
    obtain ⟨m1, v1, a1, b1, c1⟩ := C42_scalv_portable S m SIDE N X INCX ALPHA x hX hinc fx
    refine ⟨m1, v1, a1, b1, fun i hi ho => ?_⟩
    have := c1 i hi ho
    rcases hs with rfl | rfl
    · rwa [if_neg (by decide)] at this
    · rwa [if_pos rfl] at this
  | fortran =>
    obtain ⟨m1, v1, a1, b1, c1⟩ := C42_scalv_fortran S m SIDE N X INCX ALPHA x (by rwa [fbase_pos hinc]) (by omega) (hz rfl)
    rw [fbase_pos hinc] at b1
    refine ⟨m1, v1, a1, b1, fun i hi ho => ?_⟩
    have := c1 i hi ho
    rcases hs with rfl | rfl
    · rwa [if_neg (by decide)] at this
    · rwa [if_pos (Or.inl rfl)] at this

/-- an AXPYV call: x and y in memory and apart, all index computations in range, comparisons truthful -/
structure AxpyvCall (S : StdModel F u) (m : Mem F) (SIDE : Char) (N : Int) (ALPHA : Scal F) (X INCX Y INCY : Int)
    (x y : Nat → Quat F) : Prop where
  side : SIDE = 'L' ∨ SIDE = 'R'
  hX : VecAt m X INCX N.toNat x
  hY : VecAt m Y INCY N.toNat y
  hx : 0 < INCX
  hy : 0 < INCY
  fx : Fits32 (N * INCX)
  fy : Fits32 (N * INCY)
  hdis : Apart (VecCell X INCX N.toNat) (VecCell Y INCY N.toNat)
  he : ∀ a b : F, (a ==ᶠ b) = true → S.val a = S.val b
  hA : ALPHA.eqZero = true → (ALPHA.map S.val).toH = 0

theorem axpyv_of (S : StdModel F u) (b : Build) (m : Mem F) (SIDE : Char) (N : Int) (ALPHA : Scal F) (X INCX Y INCY : Int)
    (x y : Nat → Quat F) (h : AxpyvCall S m SIDE N ALPHA X INCX Y INCY x y) :
    ∃ m' v, axpyvOf b SIDE N ALPHA X INCX Y INCY m = .ok ((), m') ∧ VecAt m' Y INCY N.toNat v ∧
      ∀ i, i < N.toNat → (v i).All S.ok →
      ‖((v i).map S.val).toH - (((y i).map S.val).toH + (if SIDE = 'L' then (ALPHA.map S.val).toH * ((x i).map S.val).toH
           else ((x i).map S.val).toH * (ALPHA.map S.val).toH))‖ ≤
        2 * (((1 + u) ^ 5 - 1) * (‖((y i).map S.val).toH‖ + ‖(ALPHA.map S.val).toH‖ * ‖((x i).map S.val).toH‖)) := by
  obtain ⟨hs, hX, hY, hx, hy, fx, fy, hdis, he, hA⟩ := h
  cases b with
  | simd =>
    obtain ⟨m1, v1, a1, b1, c1⟩ := C42_axpyv S m SIDE N X INCX Y INCY ALPHA x y hX hY (by omega) hdis
    refine ⟨m1, v1, a1, b1, fun i hi ho => (c1 i hi ho).trans ?_⟩
    have := pow_le_pow_right₀ (by linarith [S.u_nonneg] : 1 ≤ 1 + u) (by decide : 4 ≤ 5)
    refine mul_le_mul_of_nonneg_left (mul_le_mul_of_nonneg_right (by linarith) (by positivity)) (by norm_num)
  | portable =>
    obtain ⟨m1, v1, a1, b1, c1⟩ := C42_axpyv_portable S m SIDE N X INCX Y INCY ALPHA x y hX hY hx hy fx fy hdis hA
    refine ⟨m1, v1, a1, b1, fun i hi ho => ?_⟩
    have := c1 i hi ho
    rcases hs with rfl | rfl
    · rwa [if_neg (by decide)] at this
    · rwa [if_pos rfl] at this
  | fortran =>
    obtain ⟨m1, v1, a1, b1, c1⟩ := C42_axpyv_fortran S m SIDE N X INCX Y INCY ALPHA x y (by rwa [fbase_pos hx])
      (by rwa [fbase_pos hy]) (by omega) (by rwa [fbase_pos hx, fbase_pos hy]) he
    rw [fbase_pos hy] at b1
    refine ⟨m1, v1, a1, b1, fun i hi ho => ?_⟩
    have := c1 i hi ho
    rcases hs with rfl | rfl
    · rwa [if_neg (by decide)] at this
    · rwa [if_pos (Or.inl rfl)] at this

/-- a DOT call: x and y in memory, all index computations in range -/
structure DotCall (m : Mem F) (N X INCX Y INCY : Int) (x y : Nat → Quat F) : Prop where
  hX : VecAt m X INCX N.toNat x
  hY : VecAt m Y INCY N.toNat y
  hx : 0 < INCX
  hy : 0 < INCY
  fx : Fits32 (N * INCX)
  fy : Fits32 (N * INCY)
  hx32 : Fits32 (4 * INCX)
  hy32 : Fits32 (4 * INCY)

theorem dot_of (S : StdModel F u) (b : Build) (conj : Bool) (m : Mem F) (N X INCX Y INCY : Int) (x y : Nat → Quat F)
    (h : DotCall m N X INCX Y INCY x y) :
    ∃ r, dotOf b conj N X INCX Y INCY m = .ok (r, m) ∧ (r.All S.ok →
      ‖(r.map S.val).toH - ∑ i ∈ range N.toNat,
          (if conj then star ((x i).map S.val).toH else ((x i).map S.val).toH) * ((y i).map S.val).toH‖ ≤
        2 * (((1 + u) ^ (4 * N.toNat + 4) - 1) * ∑ i ∈ range N.toNat, ‖((x i).map S.val).toH‖ * ‖((y i).map S.val).toH‖)) := by
  obtain ⟨hX, hY, hx, hy, fx, fy, hx32, hy32⟩ := h
  have up : ∀ n, n ≤ 4 * N.toNat + 4 → 2 * (((1 + u) ^ n - 1) * ∑ i ∈ range N.toNat, ‖((x i).map S.val).toH‖ * ‖((y i).map S.val).toH‖) ≤
      2 * (((1 + u) ^ (4 * N.toNat + 4) - 1) * ∑ i ∈ range N.toNat, ‖((x i).map S.val).toH‖ * ‖((y i).map S.val).toH‖) := by
    intro n hn
    have := pow_le_pow_right₀ (by linarith [S.u_nonneg] : 1 ≤ 1 + u) hn
    exact mul_le_mul_of_nonneg_left (mul_le_mul_of_nonneg_right (by linarith) (sum_nonneg fun _ _ => by positivity)) (by norm_num)
  cases b with
  | simd =>
    obtain ⟨u1, c1, a1, a1', b1, b1'⟩ := C42_dot S m N X INCX Y INCY x y hX hY hx32 hy32
    cases conj
    · exact ⟨u1, a1, fun ho => (b1 ho).trans (up _ (by omega))⟩
    · exact ⟨c1, a1', fun ho => (b1' ho).trans (up _ (by omega))⟩
  | portable =>
    obtain ⟨u1, c1, a1, a1', b1, b1'⟩ := C42_dot_portable S m N X INCX Y INCY x y hX hY hx hy fx fy
    cases conj
    · exact ⟨u1, a1, fun ho => (b1 ho).trans (up _ (by omega))⟩
    · exact ⟨c1, a1', fun ho => (b1' ho).trans (up _ (by omega))⟩
  | fortran =>
    obtain ⟨u1, c1, a1, a1', b1, b1'⟩ := C42_dot_fortran S m N X INCX Y INCY x y (by rwa [fbase_pos hx]) (by rwa [fbase_pos hy])
    cases conj
    · exact ⟨u1, a1, fun ho => (b1 ho).trans (up _ (by omega))⟩
    · exact ⟨c1, a1', fun ho => (b1' ho).trans (up _ (by omega))⟩

/-! GEMM. -/

/-- GEMM of a build, quaternion A; the SIMD one gets its block sizes and pack buffers. -/
def gemmOf (blk : Blk) (bAddr aAddr : Int) (junk : Int → F) :
    Build → Char → Char → Int → Int → Int → Scal F → Int → Int → Int → Int → Scal F → Int → Int → Prog F Unit
  | .simd => gemmAVX blk bAddr aAddr junk | .portable => gemmGen .h | .fortran => hgemmF

/-- a GEMM call, flags `'N'`, `'T'`, `'C'`: operands in memory and apart from C, all index computations in range, comparisons
truthful -/
structure GemmCall (S : StdModel F u) (m : Mem F) (blk : Blk) (bAddr aAddr : Int) (tA tB : Char) (M N K : Int)
    (ALPHA : Scal F) (A LDA B LDB : Int) (BETA : Scal F) (C LDC : Int) (Av Bv Cv : Nat → Nat → Quat F) : Prop where
  htA : tA = 'N' ∨ tA = 'T' ∨ tA = 'C'
  htB : tB = 'N' ∨ tB = 'T' ∨ tB = 'C'
  pre : GemmPre m blk bAddr aAddr tA tB M.toNat N.toNat K.toNat A LDA Av B LDB Bv C LDC Cv
  hA32 : ∀ l : Nat, l < (if tA = 'N' then K.toNat else M.toNat) → Fits32 (l * LDA)
  hB32 : ∀ l : Nat, l < (if tB = 'N' then N.toNat else K.toNat) → Fits32 (l * LDB)
  hC32 : ∀ l : Nat, l < N.toNat → Fits32 (l * LDC)
  h1 : S.val Arith.one = 1
  he : ∀ a b : F, (a ==ᶠ b) = true → S.val a = S.val b
  ha : StdModel.Truth S ALPHA
  hb : StdModel.Truth S BETA

theorem gemm_of (S : StdModel F u) (b : Build) (m : Mem F) (blk : Blk) (bAddr aAddr : Int) (junk : Int → F) (tA tB : Char)
    (M N K : Int) (ALPHA : Scal F) (A LDA B LDB : Int) (BETA : Scal F) (C LDC : Int) (Av Bv Cv : Nat → Nat → Quat F)
    (h : GemmCall S m blk bAddr aAddr tA tB M N K ALPHA A LDA B LDB BETA C LDC Av Bv Cv) :
    ∃ m' V, gemmOf blk bAddr aAddr junk b tA tB M N K ALPHA A LDA B LDB BETA C LDC m = .ok ((), m') ∧
      MatAt m' C LDC M.toNat N.toNat V ∧ ∀ i j, i < M.toNat → j < N.toNat → (V i j).All S.ok →
        let a := opSpec tA (fun i k => (Av i k).map S.val)
        let b := opSpec tB (fun k j => (Bv k j).map S.val)
        ‖((V i j).map S.val).toH - ((ALPHA.map S.val).toH * ∑ k ∈ range K.toNat, a i k * b k j +
            (BETA.map S.val).toH * ((Cv i j).map S.val).toH)‖ ≤
        2 * (((1 + u) ^ (4 * K.toNat + 9) - 1) * (‖(BETA.map S.val).toH‖ * ‖((Cv i j).map S.val).toH‖ +
          2 * ‖(ALPHA.map S.val).toH‖ * ∑ k ∈ range K.toNat, ‖a i k‖ * ‖b k j‖)) := by
  obtain ⟨htA, htB, h, hA32, hB32, hC32, h1, he, ha, hb⟩ := h
  have tN : ∀ t : Char, (t = 'N' ∨ t = 'T' ∨ t = 'C') → (isT t ↔ ¬ t = 'N') ∧ (IsN t ↔ t = 'N') := by
    rintro t (rfl | rfl | rfl) <;> decide
  have sw : ∀ (t : Char), (t = 'N' ∨ t = 'T' ∨ t = 'C') → ∀ a b : Nat, (if isT t then a else b) = (if t = 'N' then b else a) := by
    intro t ht a b
    by_cases e : t = 'N'
    · rw [if_neg ((tN t ht).1.not.mpr (not_not.mpr e)), if_pos e]
    · rw [if_pos ((tN t ht).1.mpr e), if_neg e]
  have sn : ∀ (t : Char), (t = 'N' ∨ t = 'T' ∨ t = 'C') → ∀ a b : Nat, (if IsN t then a else b) = (if t = 'N' then a else b) := by
    intro t ht a b
    simp only [(tN t ht).2]
  have oO : ∀ (t : Char) (X : Nat → Nat → Quat ℝ), (t = 'N' ∨ t = 'T' ∨ t = 'C') → OpIs t X (opSpec t X) := by
    rintro t X (rfl | rfl | rfl)
    · exact Or.inl ⟨Or.inl rfl, fun _ _ => rfl⟩
    · exact Or.inr (Or.inl ⟨Or.inl rfl, fun _ _ => rfl⟩)
    · exact Or.inr (Or.inr ⟨Or.inl rfl, fun _ _ => rfl⟩)
  have kA : KOpIs tA (fun i j => (Scal.h (Av i j)).map S.val) (opSpec tA (fun i k => (Av i k).map S.val)) := by
    rcases htA with rfl | rfl | rfl
    · exact Or.inl ⟨rfl, fun _ _ => rfl⟩
    · exact Or.inr (Or.inl ⟨rfl, fun _ _ => rfl⟩)
    · exact Or.inr (Or.inr ⟨rfl, fun _ _ => rfl⟩)
  have qB : QOpIs tB (fun i j => (Bv i j).map S.val) (opSpec tB (fun i k => (Bv i k).map S.val)) := by
    rcases htB with rfl | rfl | rfl
    · exact Or.inl ⟨rfl, fun _ _ => rfl⟩
    · exact Or.inr (Or.inl ⟨rfl, fun _ _ => rfl⟩)
    · exact Or.inr (Or.inr ⟨rfl, fun _ _ => rfl⟩)
  have hld : M ≤ LDC := by have := h.ldc; omega
  have mA := h.matA
  have mB := h.matB
  have aA := h.apartA
  have aB := h.apartB
  rw [sw tA htA, sw tA htA] at mA aA
  rw [sw tB htB, sw tB htB] at mB aB
  have up : ∀ (n : ℕ) (c : ℝ), n ≤ 4 * K.toNat + 9 → 0 ≤ c → 2 * (((1 + u) ^ n - 1) * c) ≤
      2 * (((1 + u) ^ (4 * K.toNat + 9) - 1) * c) := by
    intro n c hn hc
    have := pow_le_pow_right₀ (by linarith [S.u_nonneg] : 1 ≤ 1 + u) hn
    exact mul_le_mul_of_nonneg_left (mul_le_mul_of_nonneg_right (by linarith) hc) (by norm_num)
  have pos : ∀ (a b : Nat → ℍ[ℝ]) (p : ℝ), 0 ≤ p → 0 ≤ p + 2 * ‖(ALPHA.map S.val).toH‖ * ∑ k ∈ range K.toNat, ‖a k‖ * ‖b k‖ := by
    intro a b p hp
    have : 0 ≤ ∑ k ∈ range K.toNat, ‖a k‖ * ‖b k‖ := sum_nonneg fun _ _ => by positivity
    positivity
  cases b with
  | simd =>
    obtain ⟨m1, V1, a1, b1, c1⟩ := C42_gemm S m blk bAddr aAddr junk tA tB M N K ALPHA BETA A LDA B LDB C LDC Av Bv Cv h
    exact ⟨m1, V1, a1, b1, fun i j hi hj ho => (c1 i j hi hj ho).trans
      (up _ _ (by omega) (pos (fun k => _) (fun k => _) _ (by positivity)))⟩
  | portable =>
    obtain ⟨m2, V2, a2, b2, c2⟩ := C42_gemm_portable S m .h tA tB M N K ALPHA BETA A LDA B LDB C LDC
      (fun i j => .h (Av i j)) Bv Cv _ _ kA qB ha hb
      { hA := fun _ i j hi hj => by
          have := mA i j hi hj
          simp only [readK, Kind.width]
          rw [this]
        hB := fun _ => mB
        hC := h.matC
        hld := hld
        fitA := hA32
        fitB := hB32
        fitC := hC32
        hAC := by
          rintro a ⟨i, j, hi, hj, q1, q2⟩
          exact aA a ⟨i, j, hi, hj, q1, q2⟩
        hBC := aB }
    exact ⟨m2, V2, a2, b2, fun i j hi hj ho => (c2 i j hi hj ho).trans
      (up _ _ (by omega) (pos (fun k => _) (fun k => _) _ (by positivity)))⟩
  | fortran =>
    obtain ⟨m3, V3, a3, b3, c3⟩ := C42_gemm_fortran S m tA tB M N K ALPHA BETA A LDA B LDB C LDC Av Bv Cv _ _
      (oO tA _ htA) (oO tB _ htB) h1 he
      { hA := fun _ => by rw [sn tA htA, sn tA htA]; exact mA
        hB := fun _ => by rw [sn tB htB, sn tB htB]; exact mB
        hC := h.matC
        hld := hld
        hAC := by rw [sn tA htA, sn tA htA]; exact aA
        hBC := by rw [sn tB htB, sn tB htB]; exact aB }
    exact ⟨m3, V3, a3, b3, fun i j hi hj ho => (c3 i j hi hj ho).trans
      (up _ _ (by omega) (pos (fun k => _) (fun k => _) _ (by positivity)))⟩

/-! GEMV and GER: the portable templates and the Fortran kernels. -/

/-- GEMV, quaternion A: the portable template or the Fortran kernel. -/
def gemvOf : (fortran : Bool) → Char → Int → Int → Scal F → Int → Int → Int → Int → Scal F → Int → Int → Prog F Unit
  | false => gemvGen .h | true => gemvF
/-- GERU and GERC: the portable template or the Fortran kernel. -/
def gerOf : (fortran : Bool) → Bool → Int → Int → Scal F → Int → Int → Int → Int → Int → Int → Prog F Unit
  | false => gerGen | true => gerF

/-- a GEMV call, flags `'N'`, `'T'`, `'C'`: operands in memory and apart from y, all index computations in range, comparisons
truthful, and for the Fortran kernels none of their known defects -/
structure GemvCall (S : StdModel F u) (fortran : Bool) (m : Mem F) (t : Char) (M N : Int) (ALPHA : Scal F) (A LDA X INCX : Int)
    (BETA : Scal F) (Y INCY : Int) (Av : Nat → Nat → Quat F) (x y : Nat → Quat F) : Prop where
  ht : t = 'N' ∨ t = 'T' ∨ t = 'C'
  hM : M ≠ 0
  hN : N ≠ 0
  hY : VecAt m Y INCY (if t = 'N' then M else N).toNat y
  hA : MatAt m A LDA M.toNat N.toNat Av
  hX : VecAt m X INCX (if t = 'N' then N else M).toNat x
  hAY : Apart (MatCell A LDA M.toNat N.toNat) (VecCell Y INCY (if t = 'N' then M else N).toNat)
  hXY : Apart (VecCell X INCX (if t = 'N' then N else M).toNat) (VecCell Y INCY (if t = 'N' then M else N).toNat)
  hx : 0 < INCX
  hy : 0 < INCY
  fitA : ∀ i j : Nat, i < M.toNat → j < N.toNat → Fits32 (j * LDA) ∧ Fits32 (i + j * LDA)
  fitX : ∀ i : Nat, i ≤ (if t = 'N' then N else M).toNat → Fits32 (i * INCX)
  fitY : ∀ i : Nat, i ≤ (if t = 'N' then M else N).toNat → Fits32 (i * INCY)
  h1 : S.val Arith.one = 1
  he : ∀ a b : F, (a ==ᶠ b) = true → S.val a = S.val b
  ha : StdModel.Truth S ALPHA
  hb : StdModel.Truth S BETA
  hg : fortran = true → FGemvGood t M N ALPHA BETA INCX INCY

theorem gemv_of (S : StdModel F u) (b : Bool) (m : Mem F) (t : Char) (M N : Int) (ALPHA : Scal F) (A LDA X INCX : Int)
    (BETA : Scal F) (Y INCY : Int) (Av : Nat → Nat → Quat F) (x y : Nat → Quat F)
    (h : GemvCall S b m t M N ALPHA A LDA X INCX BETA Y INCY Av x y) :
    ∃ m' v, gemvOf b t M N ALPHA A LDA X INCX BETA Y INCY m = .ok ((), m') ∧
      VecAt m' Y INCY (if t = 'N' then M else N).toNat v ∧
      ∀ i, i < (if t = 'N' then M else N).toNat → (v i).All S.ok →
        let a := opSpec t (fun i k => (Av i k).map S.val)
        let K := (if t = 'N' then N else M).toNat
        ‖((v i).map S.val).toH - ((ALPHA.map S.val).toH * ∑ k ∈ range K, a i k * ((x k).map S.val).toH +
            (BETA.map S.val).toH * ((y i).map S.val).toH)‖ ≤
          2 * (((1 + u) ^ (4 * K + 9) - 1) * (‖(BETA.map S.val).toH‖ * ‖((y i).map S.val).toH‖ +
            6 * ‖(ALPHA.map S.val).toH‖ * ∑ k ∈ range K, ‖a i k‖ * ‖((x k).map S.val).toH‖)) := by
  obtain ⟨ht, hM, hN, hY, hA, hX, hAY, hXY, hx, hy, fitA, fitX, fitY, h1, he, ha, hb, hg⟩ := h
  have oO : OpIs t (fun i k => (Av i k).map S.val) (opSpec t (fun i k => (Av i k).map S.val)) := by
    rcases ht with rfl | rfl | rfl
    · exact Or.inl ⟨Or.inl rfl, fun _ _ => rfl⟩
    · exact Or.inr (Or.inl ⟨Or.inl rfl, fun _ _ => rfl⟩)
    · exact Or.inr (Or.inr ⟨Or.inl rfl, fun _ _ => rfl⟩)
  have kA : KOpIs t (fun i j => (Scal.h (Av i j)).map S.val) (opSpec t (fun i k => (Av i k).map S.val)) := by
    rcases ht with rfl | rfl | rfl
    · exact Or.inl ⟨rfl, fun _ _ => rfl⟩
    · exact Or.inr (Or.inl ⟨rfl, fun _ _ => rfl⟩)
    · exact Or.inr (Or.inr ⟨rfl, fun _ _ => rfl⟩)
  have lY : gemvLenY t M N = if t = 'N' then M else N := by rcases ht with rfl | rfl | rfl <;> rfl
  have lX : gemvLenX t M N = if t = 'N' then N else M := by rcases ht with rfl | rfl | rfl <;> rfl
  have up : ∀ (n K : ℕ) (p c s : ℝ), n ≤ 4 * K + 9 → 0 ≤ p → 0 ≤ s → 0 ≤ c → c ≤ 6 →
      2 * (((1 + u) ^ n - 1) * (p + c * ‖(ALPHA.map S.val).toH‖ * s)) ≤
      2 * (((1 + u) ^ (4 * K + 9) - 1) * (p + 6 * ‖(ALPHA.map S.val).toH‖ * s)) := by
    intro n K p c s hn hp hs hc hc6
    have h2 := pow_le_pow_right₀ (by linarith [S.u_nonneg] : 1 ≤ 1 + u) hn
    have h3 := S.one_le_pow n
    refine mul_le_mul_of_nonneg_left (mul_le_mul (by linarith) ?_ (by positivity) (by linarith)) (by norm_num)
    have : c * ‖(ALPHA.map S.val).toH‖ * s ≤ 6 * ‖(ALPHA.map S.val).toH‖ * s := by gcongr
    linarith
  have sp : ∀ (K : ℕ) (a b : Nat → ℍ[ℝ]), 0 ≤ ∑ k ∈ range K, ‖a k‖ * ‖b k‖ := fun _ _ _ => sum_nonneg fun _ _ => by positivity
  cases b with
  | false =>
    obtain ⟨m1, v1, a1, b1, c1⟩ := C42_gemv_portable S m .h t M N ALPHA A LDA X INCX BETA Y INCY (fun i j => .h (Av i j)) x y
      _ kA ha hb hM hN
      { incX := hx, incY := hy, hY := hY, hX := fun _ => hX, hXY := hXY, fitA := fitA, fitX := fitX, fitY := fitY
        hA := fun _ i j hi hj => by
          have := hA i j hi hj
          simp only [readK, Kind.width]
          rw [this]
        hAY := by
          rintro a ⟨i, j, hi, hj, q1, q2⟩
          exact hAY a ⟨i, j, hi, hj, q1, q2⟩ }
    exact ⟨m1, v1, a1, b1, fun i hi ho => (c1 i hi ho).trans (up _ _ _ _ _ (by omega) (by positivity)
      (sp _ (fun k => _) (fun k => _)) (by norm_num) (by norm_num))⟩
  | true =>
    obtain ⟨m2, v2, a2, b2, c2⟩ := C42_gemv_fortran_partial S m t M N ALPHA A LDA X INCX BETA Y INCY Av x y _ oO
      h1 he hM hN
      { hinc := by omega
        hY := by rw [vecStart_pos hy, lY]; exact hY
        hA := fun _ => hA
        hX := fun _ => by rw [vecStart_pos hx, lX]; exact hX
        hAY := fun _ => by rw [vecStart_pos hy, lY]; exact hAY
        hXY := fun _ => by rw [vecStart_pos hx, vecStart_pos hy, lX, lY]; exact hXY } (hg rfl)
    rw [vecStart_pos hy] at b2
    rw [lY, lX] at c2
    rw [lY] at b2
    exact ⟨m2, v2, a2, b2, fun i hi ho => (c2 i hi ho).trans (up _ _ _ _ _ (by omega) (by positivity)
      (sp _ (fun k => _) (fun k => _)) (by norm_num) (by norm_num))⟩

/-- a GER call: operands in memory and apart from A, all index computations in range, comparisons truthful, none of the known
defects of the two implementations -/
structure GerCall (S : StdModel F u) (fortran : Bool) (m : Mem F) (M N : Int) (ALPHA : Scal F) (X INCX Y INCY A LDA : Int)
    (x y : Nat → Quat F) (a : Nat → Nat → Quat F) : Prop where
  args : GerBArgs m M N X INCX Y INCY A LDA x y a
  he : ∀ a b : F, (a ==ᶠ b) = true → S.val a = S.val b
  ha : StdModel.Truth S ALPHA
  hd : fortran = true → ∀ r, ALPHA = .d r → INCX = 1
  hyk : fortran = false → ∀ j, j < N.toNat → Quat.neOp (y j) (Quat.mkReal Arith.zero) = false → ((y j).map S.val).toH = 0

theorem ger_of (S : StdModel F u) (b conjY : Bool) (m : Mem F) (M N : Int) (ALPHA : Scal F) (X INCX Y INCY A LDA : Int)
    (x y : Nat → Quat F) (a : Nat → Nat → Quat F) (h : GerCall S b m M N ALPHA X INCX Y INCY A LDA x y a) :
    ∃ m' v, gerOf b conjY M N ALPHA X INCX Y INCY A LDA m = .ok ((), m') ∧ MatAt m' A LDA M.toNat N.toNat v ∧
      ∀ i j, i < M.toNat → j < N.toNat → (v i j).All S.ok →
        ‖((v i j).map S.val).toH - (((a i j).map S.val).toH + (ALPHA.map S.val).toH * ((x i).map S.val).toH *
            (if conjY then star ((y j).map S.val).toH else ((y j).map S.val).toH))‖ ≤
          2 * (((1 + u) ^ 9 - 1) * (‖((a i j).map S.val).toH‖ +
            2 * ‖(ALPHA.map S.val).toH‖ * ‖((x i).map S.val).toH‖ * ‖((y j).map S.val).toH‖)) := by
  obtain ⟨h, he, ha, hd, hyk⟩ := h
  have hx : ¬ INCX < 0 := by have := h.incX; omega
  have hy : ¬ INCY < 0 := by have := h.incY; omega
  cases b with
  | false =>
    obtain ⟨m1, v1, a1, b1, c1⟩ := C42_ger_portable S conjY m M N ALPHA X INCX Y INCY A LDA x y a ha h
    exact ⟨m1, v1, a1, b1, fun i j hi hj ho => c1 i j hi hj ho (hyk rfl j hj)⟩
  | true =>
    obtain ⟨m2, v2, a2, b2, c2⟩ := C42_ger_fortran S conjY m M N ALPHA X INCX Y INCY A LDA x y a he
      ⟨h.hA, by rw [if_neg hx]; exact h.hX, by rw [if_neg hy]; exact h.hY, h.hld, by rw [if_neg hx]; exact h.hXA,
        by rw [if_neg hy]; exact h.hYA⟩ (hd rfl)
    refine ⟨m2, v2, a2, b2, fun i j hi hj ho => (c2 i j hi hj ho).trans ?_⟩
    have := pow_le_pow_right₀ (by linarith [S.u_nonneg] : 1 ≤ 1 + u) (by decide : 8 ≤ 9)
    exact mul_le_mul_of_nonneg_left (mul_le_mul_of_nonneg_right (by linarith) (by positivity)) (by norm_num)

end

/-! ## Two calls -/

section
variable {F G : Type} [Arith F] [ArithEq F] [Arith G] [ArithEq G] {u : ℝ}

/-- Quaternions computed on two machines, if they are numbers, differ by at most `e`. -/
def Near2 (S : StdModel F u) (T : StdModel G u) (e : ℝ) (p : Quat F) (q : Quat G) : Prop :=
  p.All S.ok → q.All T.ok → ‖(p.map S.val).toH - (q.map T.val).toH‖ ≤ e

/-- A quaternion of one machine and a quaternion of the other are the same number. -/
def SameQ (S : StdModel F u) (T : StdModel G u) (p : Quat F) (q : Quat G) : Prop := (p.map S.val).toH = (q.map T.val).toH
/-- A scalar of one machine and a scalar of the other (perhaps of another type) are the same number. -/
def SameS (S : StdModel F u) (T : StdModel G u) (p : Scal F) (q : Scal G) : Prop := (p.map S.val).toH = (q.map T.val).toH

theorem near2_of {S : StdModel F u} {T : StdModel G u} {p : Quat F} {q : Quat G} {s t : ℍ[ℝ]} {e f : ℝ}
    (h1 : p.All S.ok → ‖(p.map S.val).toH - s‖ ≤ 2 * e) (h2 : q.All T.ok → ‖(q.map T.val).toH - t‖ ≤ 2 * f) (hs : s = t)
    (he : e = f) : Near2 S T (4 * e) p q := by
  intro hp hq
  subst hs he
  have e3 := norm_sub_le ((p.map S.val).toH - s) ((q.map T.val).toH - s)
  rw [sub_sub_sub_cancel_right] at e3
  linarith [h1 hp, h2 hq]

/-- C67, SCALV: two calls on the same numbers, by any builds, on machines with roundoff `u`, with any strides and types of
ALPHA, give results that differ by at most `4((1+u)⁴-1) ‖ALPHA‖ ‖x_i‖`. -/
theorem C67_scalv (S : StdModel F u) (T : StdModel G u) (b b' : Build) (m : Mem F) (m' : Mem G) (SIDE : Char)
    (N X INCX X' INCX' : Int) (ALPHA : Scal F) (ALPHA' : Scal G) (x : Nat → Quat F) (x' : Nat → Quat G)
    (h : ScalvCall b m SIDE N X INCX ALPHA x) (h' : ScalvCall b' m' SIDE N X' INCX' ALPHA' x')
    (ea : SameS S T ALPHA ALPHA') (ex : ∀ i, i < N.toNat → SameQ S T (x i) (x' i)) :
    ∃ w w' v v', scalvOf b SIDE N ALPHA X INCX m = .ok ((), w) ∧ scalvOf b' SIDE N ALPHA' X' INCX' m' = .ok ((), w') ∧
      VecAt w X INCX N.toNat v ∧ VecAt w' X' INCX' N.toNat v' ∧ ∀ i, i < N.toNat →
        Near2 S T (4 * (((1 + u) ^ 4 - 1) * (‖(ALPHA.map S.val).toH‖ * ‖((x i).map S.val).toH‖))) (v i) (v' i) := by
  obtain ⟨w, v, a1, a2, a3⟩ := scalv_of S b m SIDE N X INCX ALPHA x h
  obtain ⟨w', v', b1, b2, b3⟩ := scalv_of T b' m' SIDE N X' INCX' ALPHA' x' h'
  refine ⟨w, w', v, v', a1, b1, a2, b2, fun i hi => near2_of (a3 i hi) (b3 i hi) ?_ ?_⟩
  · rw [show (ALPHA.map S.val).toH = _ from ea, show ((x i).map S.val).toH = _ from ex i hi]
  · rw [show (ALPHA.map S.val).toH = _ from ea, show ((x i).map S.val).toH = _ from ex i hi]

/-- C67, AXPYV: the results differ by at most `4((1+u)⁵-1) (‖y_i‖ + ‖ALPHA‖ ‖x_i‖)`. -/
theorem C67_axpyv (S : StdModel F u) (T : StdModel G u) (b b' : Build) (m : Mem F) (m' : Mem G) (SIDE : Char)
    (N X INCX Y INCY X' INCX' Y' INCY' : Int) (ALPHA : Scal F) (ALPHA' : Scal G) (x y : Nat → Quat F) (x' y' : Nat → Quat G)
    (h : AxpyvCall S m SIDE N ALPHA X INCX Y INCY x y) (h' : AxpyvCall T m' SIDE N ALPHA' X' INCX' Y' INCY' x' y')
    (ea : SameS S T ALPHA ALPHA') (ex : ∀ i, i < N.toNat → SameQ S T (x i) (x' i))
    (ey : ∀ i, i < N.toNat → SameQ S T (y i) (y' i)) :
    ∃ w w' v v', axpyvOf b SIDE N ALPHA X INCX Y INCY m = .ok ((), w) ∧
      axpyvOf b' SIDE N ALPHA' X' INCX' Y' INCY' m' = .ok ((), w') ∧
      VecAt w Y INCY N.toNat v ∧ VecAt w' Y' INCY' N.toNat v' ∧ ∀ i, i < N.toNat →
        Near2 S T (4 * (((1 + u) ^ 5 - 1) * (‖((y i).map S.val).toH‖ +
          ‖(ALPHA.map S.val).toH‖ * ‖((x i).map S.val).toH‖))) (v i) (v' i) := by
  obtain ⟨w, v, a1, a2, a3⟩ := axpyv_of S b m SIDE N ALPHA X INCX Y INCY x y h
  obtain ⟨w', v', b1, b2, b3⟩ := axpyv_of T b' m' SIDE N ALPHA' X' INCX' Y' INCY' x' y' h'
  refine ⟨w, w', v, v', a1, b1, a2, b2, fun i hi => near2_of (a3 i hi) (b3 i hi) ?_ ?_⟩
  · rw [show (ALPHA.map S.val).toH = _ from ea, show ((x i).map S.val).toH = _ from ex i hi,
      show ((y i).map S.val).toH = _ from ey i hi]
  · rw [show (ALPHA.map S.val).toH = _ from ea, show ((x i).map S.val).toH = _ from ex i hi,
      show ((y i).map S.val).toH = _ from ey i hi]

/-- C67, DOTU (`conj = false`) and DOTC: the results differ by at most `4((1+u)^(4N+4)-1) Σ ‖x_i‖ ‖y_i‖`. -/
theorem C67_dot (S : StdModel F u) (T : StdModel G u) (b b' : Build) (conj : Bool) (m : Mem F) (m' : Mem G)
    (N X INCX Y INCY X' INCX' Y' INCY' : Int) (x y : Nat → Quat F) (x' y' : Nat → Quat G)
    (h : DotCall m N X INCX Y INCY x y) (h' : DotCall m' N X' INCX' Y' INCY' x' y')
    (ex : ∀ i, i < N.toNat → SameQ S T (x i) (x' i)) (ey : ∀ i, i < N.toNat → SameQ S T (y i) (y' i)) :
    ∃ r r', dotOf b conj N X INCX Y INCY m = .ok (r, m) ∧ dotOf b' conj N X' INCX' Y' INCY' m' = .ok (r', m') ∧
      Near2 S T (4 * (((1 + u) ^ (4 * N.toNat + 4) - 1) *
        ∑ i ∈ range N.toNat, ‖((x i).map S.val).toH‖ * ‖((y i).map S.val).toH‖)) r r' := by
  obtain ⟨r, a1, a2⟩ := dot_of S b conj m N X INCX Y INCY x y h
  obtain ⟨r', b1, b2⟩ := dot_of T b' conj m' N X' INCX' Y' INCY' x' y' h'
  refine ⟨r, r', a1, b1, near2_of a2 b2 ?_ ?_⟩
  · refine sum_congr rfl fun i hi => ?_
    rw [show ((x i).map S.val).toH = _ from ex i (mem_range.mp hi), show ((y i).map S.val).toH = _ from ey i (mem_range.mp hi)]
  · congr 1
    refine sum_congr rfl fun i hi => ?_
    rw [show ((x i).map S.val).toH = _ from ex i (mem_range.mp hi), show ((y i).map S.val).toH = _ from ey i (mem_range.mp hi)]

/-- C67, GEMM: two calls with the same op(A), op(B), C, ALPHA and BETA (the flags may differ) give results that differ by at most
`4((1+u)^(4K+9)-1) (‖BETA‖ ‖C_ij‖ + 2 ‖ALPHA‖ Σ_k ‖op(A)_ik‖ ‖op(B)_kj‖)`. -/
theorem C67_gemm (S : StdModel F u) (T : StdModel G u) (b b' : Build) (m : Mem F) (m' : Mem G)
    (blk blk' : Blk) (bAddr aAddr bAddr' aAddr' : Int) (junk : Int → F) (junk' : Int → G) (tA tB tA' tB' : Char) (M N K : Int)
    (ALPHA BETA : Scal F) (ALPHA' BETA' : Scal G) (A LDA B LDB C LDC A' LDA' B' LDB' C' LDC' : Int)
    (Av Bv Cv : Nat → Nat → Quat F) (Av' Bv' Cv' : Nat → Nat → Quat G)
    (h : GemmCall S m blk bAddr aAddr tA tB M N K ALPHA A LDA B LDB BETA C LDC Av Bv Cv)
    (h' : GemmCall T m' blk' bAddr' aAddr' tA' tB' M N K ALPHA' A' LDA' B' LDB' BETA' C' LDC' Av' Bv' Cv')
    (ea : SameS S T ALPHA ALPHA') (eb : SameS S T BETA BETA')
    (eA : ∀ i k, i < M.toNat → k < K.toNat →
      opSpec tA (fun i k => (Av i k).map S.val) i k = opSpec tA' (fun i k => (Av' i k).map T.val) i k)
    (eB : ∀ k j, k < K.toNat → j < N.toNat →
      opSpec tB (fun i k => (Bv i k).map S.val) k j = opSpec tB' (fun i k => (Bv' i k).map T.val) k j)
    (eC : ∀ i j, i < M.toNat → j < N.toNat → SameQ S T (Cv i j) (Cv' i j)) :
    ∃ w w' V V', gemmOf blk bAddr aAddr junk b tA tB M N K ALPHA A LDA B LDB BETA C LDC m = .ok ((), w) ∧
      gemmOf blk' bAddr' aAddr' junk' b' tA' tB' M N K ALPHA' A' LDA' B' LDB' BETA' C' LDC' m' = .ok ((), w') ∧
      MatAt w C LDC M.toNat N.toNat V ∧ MatAt w' C' LDC' M.toNat N.toNat V' ∧ ∀ i j, i < M.toNat → j < N.toNat →
        let a := opSpec tA (fun i k => (Av i k).map S.val)
        let b := opSpec tB (fun k j => (Bv k j).map S.val)
        Near2 S T (4 * (((1 + u) ^ (4 * K.toNat + 9) - 1) * (‖(BETA.map S.val).toH‖ * ‖((Cv i j).map S.val).toH‖ +
          2 * ‖(ALPHA.map S.val).toH‖ * ∑ k ∈ range K.toNat, ‖a i k‖ * ‖b k j‖))) (V i j) (V' i j) := by
  obtain ⟨w, v, a1, a2, a3⟩ := gemm_of S b m blk bAddr aAddr junk tA tB M N K ALPHA A LDA B LDB BETA C LDC Av Bv Cv h
  obtain ⟨w', v', b1, b2, b3⟩ := gemm_of T b' m' blk' bAddr' aAddr' junk' tA' tB' M N K ALPHA' A' LDA' B' LDB' BETA' C' LDC'
    Av' Bv' Cv' h'
  refine ⟨w, w', v, v', a1, b1, a2, b2, fun i j hi hj => near2_of (a3 i j hi hj) (b3 i j hi hj) ?_ ?_⟩
  · rw [show (ALPHA.map S.val).toH = _ from ea, show (BETA.map S.val).toH = _ from eb,
      show ((Cv i j).map S.val).toH = _ from eC i j hi hj]
    congr 2
    refine sum_congr rfl fun k hk => ?_
    rw [eA i k hi (mem_range.mp hk), eB k j (mem_range.mp hk) hj]
  · rw [show (ALPHA.map S.val).toH = _ from ea, show (BETA.map S.val).toH = _ from eb,
      show ((Cv i j).map S.val).toH = _ from eC i j hi hj]
    congr 3
    refine sum_congr rfl fun k hk => ?_
    rw [eA i k hi (mem_range.mp hk), eB k j (mem_range.mp hk) hj]

/-- C67, GEMV (partial: `GemvCall` excludes the calls on which an implementation is known to be wrong): two calls with the
same op(A), x, y, ALPHA and BETA, with K the length of x, differ by at most
`4((1+u)^(4K+9)-1) (‖BETA‖ ‖y_i‖ + 6 ‖ALPHA‖ Σ_k ‖op(A)_ik‖ ‖x_k‖)`. -/
theorem C67_gemv_partial (S : StdModel F u) (T : StdModel G u) (b b' : Bool) (m : Mem F) (m' : Mem G) (t : Char) (M N : Int)
    (ALPHA : Scal F) (A LDA X INCX : Int) (BETA : Scal F) (Y INCY : Int) (Av : Nat → Nat → Quat F) (x y : Nat → Quat F)
    (ALPHA' : Scal G) (A' LDA' X' INCX' : Int) (BETA' : Scal G) (Y' INCY' : Int) (Av' : Nat → Nat → Quat G)
    (x' y' : Nat → Quat G) (h : GemvCall S b m t M N ALPHA A LDA X INCX BETA Y INCY Av x y)
    (h' : GemvCall T b' m' t M N ALPHA' A' LDA' X' INCX' BETA' Y' INCY' Av' x' y')
    (ea : SameS S T ALPHA ALPHA') (eb : SameS S T BETA BETA')
    (eA : ∀ i k, i < (if t = 'N' then M else N).toNat → k < (if t = 'N' then N else M).toNat →
      opSpec t (fun i k => (Av i k).map S.val) i k = opSpec t (fun i k => (Av' i k).map T.val) i k)
    (ex : ∀ k, k < (if t = 'N' then N else M).toNat → SameQ S T (x k) (x' k))
    (ey : ∀ i, i < (if t = 'N' then M else N).toNat → SameQ S T (y i) (y' i)) :
    ∃ w w' v v', gemvOf b t M N ALPHA A LDA X INCX BETA Y INCY m = .ok ((), w) ∧
      gemvOf b' t M N ALPHA' A' LDA' X' INCX' BETA' Y' INCY' m' = .ok ((), w') ∧
      VecAt w Y INCY (if t = 'N' then M else N).toNat v ∧ VecAt w' Y' INCY' (if t = 'N' then M else N).toNat v' ∧
      ∀ i, i < (if t = 'N' then M else N).toNat →
        let a := opSpec t (fun i k => (Av i k).map S.val)
        let K := (if t = 'N' then N else M).toNat
        Near2 S T (4 * (((1 + u) ^ (4 * K + 9) - 1) * (‖(BETA.map S.val).toH‖ * ‖((y i).map S.val).toH‖ +
          6 * ‖(ALPHA.map S.val).toH‖ * ∑ k ∈ range K, ‖a i k‖ * ‖((x k).map S.val).toH‖))) (v i) (v' i) := by
  obtain ⟨w, v, a1, a2, a3⟩ := gemv_of S b m t M N ALPHA A LDA X INCX BETA Y INCY Av x y h
  obtain ⟨w', v', b1, b2, b3⟩ := gemv_of T b' m' t M N ALPHA' A' LDA' X' INCX' BETA' Y' INCY' Av' x' y' h'
  refine ⟨w, w', v, v', a1, b1, a2, b2, fun i hi => near2_of (a3 i hi) (b3 i hi) ?_ ?_⟩
  · rw [show (ALPHA.map S.val).toH = _ from ea, show (BETA.map S.val).toH = _ from eb,
      show ((y i).map S.val).toH = _ from ey i hi]
    congr 2
    refine sum_congr rfl fun k hk => ?_
    rw [eA i k hi (mem_range.mp hk), show ((x k).map S.val).toH = _ from ex k (mem_range.mp hk)]
  · rw [show (ALPHA.map S.val).toH = _ from ea, show (BETA.map S.val).toH = _ from eb,
      show ((y i).map S.val).toH = _ from ey i hi]
    congr 3
    refine sum_congr rfl fun k hk => ?_
    rw [eA i k hi (mem_range.mp hk), show ((x k).map S.val).toH = _ from ex k (mem_range.mp hk)]

/-- C67, GERU and GERC (partial: `GerCall` excludes the calls on which an implementation is known to be wrong): two calls on the
same numbers differ by at most `4((1+u)⁹-1) (‖A_ij‖ + 2 ‖ALPHA‖ ‖x_i‖ ‖y_j‖)`. -/
theorem C67_ger_partial (S : StdModel F u) (T : StdModel G u) (b b' conjY : Bool) (m : Mem F) (m' : Mem G) (M N : Int)
    (ALPHA : Scal F) (X INCX Y INCY A LDA : Int) (x y : Nat → Quat F) (a : Nat → Nat → Quat F)
    (ALPHA' : Scal G) (X' INCX' Y' INCY' A' LDA' : Int) (x' y' : Nat → Quat G) (a' : Nat → Nat → Quat G)
    (h : GerCall S b m M N ALPHA X INCX Y INCY A LDA x y a) (h' : GerCall T b' m' M N ALPHA' X' INCX' Y' INCY' A' LDA' x' y' a')
    (ea : SameS S T ALPHA ALPHA') (ex : ∀ i, i < M.toNat → SameQ S T (x i) (x' i))
    (ey : ∀ j, j < N.toNat → SameQ S T (y j) (y' j)) (eA : ∀ i j, i < M.toNat → j < N.toNat → SameQ S T (a i j) (a' i j)) :
    ∃ w w' v v', gerOf b conjY M N ALPHA X INCX Y INCY A LDA m = .ok ((), w) ∧
      gerOf b' conjY M N ALPHA' X' INCX' Y' INCY' A' LDA' m' = .ok ((), w') ∧
      MatAt w A LDA M.toNat N.toNat v ∧ MatAt w' A' LDA' M.toNat N.toNat v' ∧
      ∀ i j, i < M.toNat → j < N.toNat →
        Near2 S T (4 * (((1 + u) ^ 9 - 1) * (‖((a i j).map S.val).toH‖ +
          2 * ‖(ALPHA.map S.val).toH‖ * ‖((x i).map S.val).toH‖ * ‖((y j).map S.val).toH‖))) (v i j) (v' i j) := by
  obtain ⟨w, v, a1, a2, a3⟩ := ger_of S b conjY m M N ALPHA X INCX Y INCY A LDA x y a h
  obtain ⟨w', v', b1, b2, b3⟩ := ger_of T b' conjY m' M N ALPHA' X' INCX' Y' INCY' A' LDA' x' y' a' h'
  refine ⟨w, w', v, v', a1, b1, a2, b2, fun i j hi hj => near2_of (a3 i j hi hj) (b3 i j hi hj) ?_ ?_⟩
  · rw [show (ALPHA.map S.val).toH = _ from ea, show ((x i).map S.val).toH = _ from ex i hi,
      show ((y j).map S.val).toH = _ from ey j hj, show ((a i j).map S.val).toH = _ from eA i j hi hj]
  · rw [show (ALPHA.map S.val).toH = _ from ea, show ((x i).map S.val).toH = _ from ex i hi,
      show ((y j).map S.val).toH = _ from ey j hj, show ((a i j).map S.val).toH = _ from eA i j hi hj]

end

/-! ## One source, compiled twice -/

section
variable {F : Type} [Arith F] [ArithEq F] {u : ℝ}

/-- Memory of doubles, as the compiled code sees it. -/
def litM (pol : Ex Unit → Fusing) (m : Mem F) : Mem (Fused F pol) := fun a => (m a).map (Fused.lit a)
/-- A quaternion of doubles at `p`. -/
def litQ (pol : Ex Unit → Fusing) (p : Int) (q : Quat F) : Quat (Fused F pol) :=
  ⟨Fused.lit p q.re, Fused.lit (p+1) q.i, Fused.lit (p+2) q.j, Fused.lit (p+3) q.k⟩

theorem readQ_litM {pol : Ex Unit → Fusing} {m : Mem F} {p : Int} {q : Quat F} (h : readQ m p = some q) :
    readQ (litM pol m) p = some (litQ pol p q) := by
  unfold readQ at h
  split at h
  · rename_i a b c d h1 h2 h3 h4
    injection h with h
    subst h
    simp only [readQ, litM, h1, h2, h3, h4, Option.map_some]
    rfl
  · cases h

theorem litQ_dbl (S : StdModel F u) (pol : Ex Unit → Fusing) (p : Int) (q : Quat F) : (litQ pol p q).map (sval S) = q.map S.val := rfl

theorem vecAt_litM {pol : Ex Unit → Fusing} {m : Mem F} {p inc : Int} {n : Nat} {v : Nat → Quat F} (h : VecAt m p inc n v) :
    VecAt (litM pol m) p inc n (fun i => litQ pol (p + 4 * (i * inc)) (v i)) := fun i hi => readQ_litM (h i hi)

theorem matAt_litM {pol : Ex Unit → Fusing} {m : Mem F} {p ld : Int} {r c : Nat} {v : Nat → Nat → Quat F} (h : MatAt m p ld r c v) :
    MatAt (litM pol m) p ld r c (fun i j => litQ pol (p + 4 * (i + j * ld)) (v i j)) := fun i j hi hj => readQ_litM (h i j hi hj)

theorem eqZero_dbl {pol : Ex Unit → Fusing} (al : Scal (Fused F pol)) : (al.map Fused.dbl).eqZero = al.eqZero := by
  cases al <;> rfl
theorem eqOne_dbl {pol : Ex Unit → Fusing} (al : Scal (Fused F pol)) : (al.map Fused.dbl).eqOne = al.eqOne := by
  cases al <;> rfl
theorem vIsZero_dbl {pol : Ex Unit → Fusing} (al : Scal (Fused F pol)) : (al.map Fused.dbl).vIsZero = al.vIsZero := by
  cases al <;> rfl
theorem map_dbl (S : StdModel F u) {pol : Ex Unit → Fusing} (al : Scal (Fused F pol)) :
    (al.map Fused.dbl).map S.val = al.map (sval S) := by
  cases al <;> rfl

theorem gemmPre_litM {pol : Ex Unit → Fusing} {m : Mem F} {blk : Blk} {bAddr aAddr : Int} {tA tB : Char} {M N K : Nat}
    {A LDA : Int} {Av : Nat → Nat → Quat F} {B LDB : Int} {Bv : Nat → Nat → Quat F} {C LDC : Int} {Cv : Nat → Nat → Quat F}
    (h : GemmPre m blk bAddr aAddr tA tB M N K A LDA Av B LDB Bv C LDC Cv) :
    GemmPre (litM pol m) blk bAddr aAddr tA tB M N K A LDA (fun i j => litQ pol (A + 4 * (i + j * LDA)) (Av i j))
      B LDB (fun i j => litQ pol (B + 4 * (i + j * LDB)) (Bv i j)) C LDC (fun i j => litQ pol (C + 4 * (i + j * LDC)) (Cv i j)) where
  mc_pos := h.mc_pos
  nc_pos := h.nc_pos
  kc_pos := h.kc_pos
  mc_even := h.mc_even
  nc_even := h.nc_even
  matA := matAt_litM h.matA
  matB := matAt_litM h.matB
  matC := matAt_litM h.matC
  lda := h.lda
  ldb := h.ldb
  ldc := h.ldc
  apartA := h.apartA
  apartB := h.apartB
  alignB := h.alignB
  alignA := h.alignA
  freshB a k := by simp only [litM, h.freshB a k, Option.map_none]
  freshA a k := by simp only [litM, h.freshA a k, Option.map_none]
  freshAB := h.freshAB
  kc32 := h.kc32
  m32 := h.m32
  n32 := h.n32
  k32 := h.k32
  ldc32 := h.ldc32
  ldcN32 := h.ldcN32
  ldbN32 := h.ldbN32
  ldbK32 := h.ldbK32
  ldaM32 := h.ldaM32
  ldaK32 := h.ldaK32

/-- C67, SCALV compiled twice: one call on memory `m`, by any two builds, each compiled with its own choice of fused
multiply-adds: the results differ by at most `4((1+4u)⁴-1) ‖ALPHA‖ ‖x_i‖`. `al`, `al'` is the scalar the caller passes. -/
theorem C67_fused_scalv (S : StdModel F u) (hu : u ≤ 1 / 16) (pol pol' : Ex Unit → Fusing) (b b' : Build) (m : Mem F)
    (SIDE : Char) (N X INCX : Int) (ALPHA : Scal F) (x : Nat → Quat F) (al : Scal (Fused F pol)) (al' : Scal (Fused F pol'))
    (hal : al.map Fused.dbl = ALPHA) (hal' : al'.map Fused.dbl = ALPHA)
    (h : ScalvCall b m SIDE N X INCX ALPHA x) (h' : ScalvCall b' m SIDE N X INCX ALPHA x) :
    ∃ w w' v v', scalvOf b SIDE N al X INCX (litM pol m) = .ok ((), w) ∧
      scalvOf b' SIDE N al' X INCX (litM pol' m) = .ok ((), w') ∧
      VecAt w X INCX N.toNat v ∧ VecAt w' X INCX N.toNat v' ∧
      ∀ i, i < N.toNat → (v i).All (SOk S pol) → (v' i).All (SOk S pol') →
        ‖((v i).map (sval S)).toH - ((v' i).map (sval S)).toH‖ ≤
          4 * (((1 + 4 * u) ^ 4 - 1) * (‖(ALPHA.map S.val).toH‖ * ‖((x i).map S.val).toH‖)) := by
  subst hal
  obtain ⟨w, w', v, v', h1, h2, h3, h4, h5⟩ := C67_scalv (fusedStd S hu (fun _ _ => True) pol) (fusedStd S hu (fun _ _ => True) pol')
    b b' (litM pol m) (litM pol' m) SIDE N X INCX X INCX al al' _ _
    ⟨h.side, vecAt_litM h.hX, h.hinc, h.fx, fun k => (vIsZero_dbl al) ▸ h.hz k⟩
    ⟨h'.side, vecAt_litM h'.hX, h'.hinc, h'.fx, fun k => (vIsZero_dbl al') ▸ hal' ▸ h'.hz k⟩
    (congrArg Scal.toH ((map_dbl S al).symm.trans ((congrArg (Scal.map S.val) hal'.symm).trans (map_dbl S al'))))
    (fun i hi => rfl)
  refine ⟨w, w', v, v', h1, h2, h3, h4, fun i hi p q => ?_⟩
  rw [map_dbl]
  exact h5 i hi p q

/-- C67, AXPYV compiled twice: the results differ by at most `4((1+4u)⁵-1) (‖y_i‖ + ‖ALPHA‖ ‖x_i‖)`. -/
theorem C67_fused_axpyv (S : StdModel F u) (hu : u ≤ 1 / 16) (pol pol' : Ex Unit → Fusing) (b b' : Build) (m : Mem F)
    (SIDE : Char) (N X INCX Y INCY : Int) (ALPHA : Scal F) (x y : Nat → Quat F) (al : Scal (Fused F pol))
    (al' : Scal (Fused F pol')) (hal : al.map Fused.dbl = ALPHA) (hal' : al'.map Fused.dbl = ALPHA)
    (h : AxpyvCall S m SIDE N ALPHA X INCX Y INCY x y) :
    ∃ w w' v v', axpyvOf b SIDE N al X INCX Y INCY (litM pol m) = .ok ((), w) ∧
      axpyvOf b' SIDE N al' X INCX Y INCY (litM pol' m) = .ok ((), w') ∧
      VecAt w Y INCY N.toNat v ∧ VecAt w' Y INCY N.toNat v' ∧
      ∀ i, i < N.toNat → (v i).All (SOk S pol) → (v' i).All (SOk S pol') →
        ‖((v i).map (sval S)).toH - ((v' i).map (sval S)).toH‖ ≤
          4 * (((1 + 4 * u) ^ 5 - 1) * (‖((y i).map S.val).toH‖ + ‖(ALPHA.map S.val).toH‖ * ‖((x i).map S.val).toH‖)) := by
  subst hal
  have z : ∀ (P : Ex Unit → Fusing) (a : Scal (Fused F P)), a.map Fused.dbl = al.map Fused.dbl → a.eqZero = true →
      (a.map (fusedStd S hu (fun _ _ => True) P).val).toH = 0 := by
    intro P a e k
    rw [show a.map (fusedStd S hu (fun _ _ => True) P).val = _ from (map_dbl S a).symm, e]
    exact h.hA (by rw [← e, eqZero_dbl]; exact k)
  obtain ⟨w, w', v, v', h1, h2, h3, h4, h5⟩ := C67_axpyv (fusedStd S hu (fun _ _ => True) pol) (fusedStd S hu (fun _ _ => True) pol')
    b b' (litM pol m) (litM pol' m) SIDE N X INCX Y INCY X INCX Y INCY al al' _ _ _ _
    ⟨h.side, vecAt_litM h.hX, vecAt_litM h.hY, h.hx, h.hy, h.fx, h.fy, h.hdis, fun a b k => h.he _ _ k, z pol al rfl⟩
    ⟨h.side, vecAt_litM h.hX, vecAt_litM h.hY, h.hx, h.hy, h.fx, h.fy, h.hdis, fun a b k => h.he _ _ k, z pol' al' hal'⟩
    (congrArg Scal.toH ((map_dbl S al).symm.trans ((congrArg (Scal.map S.val) hal'.symm).trans (map_dbl S al'))))
    (fun i hi => rfl) (fun i hi => rfl)
  refine ⟨w, w', v, v', h1, h2, h3, h4, fun i hi p q => ?_⟩
  rw [map_dbl]
  exact h5 i hi p q

/-- C67, DOTU and DOTC compiled twice: the results differ by at most `4((1+4u)^(4N+4)-1) Σ ‖x_i‖ ‖y_i‖`. -/
theorem C67_fused_dot (S : StdModel F u) (hu : u ≤ 1 / 16) (pol pol' : Ex Unit → Fusing) (b b' : Build) (conj : Bool) (m : Mem F)
    (N X INCX Y INCY : Int) (x y : Nat → Quat F) (h : DotCall m N X INCX Y INCY x y) :
    ∃ r r', dotOf b conj N X INCX Y INCY (litM pol m) = .ok (r, litM pol m) ∧
      dotOf b' conj N X INCX Y INCY (litM pol' m) = .ok (r', litM pol' m) ∧
      (r.All (SOk S pol) → r'.All (SOk S pol') → ‖(r.map (sval S)).toH - (r'.map (sval S)).toH‖ ≤
        4 * (((1 + 4 * u) ^ (4 * N.toNat + 4) - 1) *
          ∑ i ∈ range N.toNat, ‖((x i).map S.val).toH‖ * ‖((y i).map S.val).toH‖)) := by
  have c : ∀ P : Ex Unit → Fusing, DotCall (litM P m) N X INCX Y INCY _ _ := fun P =>
    ⟨vecAt_litM h.hX, vecAt_litM h.hY, h.hx, h.hy, h.fx, h.fy, h.hx32, h.hy32⟩
  obtain ⟨r, r', h1, h2, h3⟩ := C67_dot (fusedStd S hu (fun _ _ => True) pol) (fusedStd S hu (fun _ _ => True) pol')
    b b' conj (litM pol m) (litM pol' m) N X INCX Y INCY X INCX Y INCY _ _ _ _ (c pol) (c pol')
    (fun i hi => rfl) (fun i hi => rfl)
  refine ⟨r, r', h1, h2, fun p q => ?_⟩
  have h4 := h3 p q
  have e1 : ∀ (P : Int) (q : Quat F), (litQ pol P q).map (fusedStd S hu (fun _ _ => True) pol).val = q.map S.val := fun _ _ => rfl
  simp only [e1] at h4
  exact h4

/-- C67, GEMM compiled twice: the results differ by at most
`4((1+4u)^(4K+9)-1) (‖BETA‖ ‖C_ij‖ + 2 ‖ALPHA‖ Σ_k ‖op(A)_ik‖ ‖op(B)_kj‖)`, whatever the builds, the fusings, the block sizes
(MC, NC, KC), the addresses of the pack buffers and what they contained. -/
theorem C67_fused_gemm (S : StdModel F u) (hu : u ≤ 1 / 16) (pol pol' : Ex Unit → Fusing) (b b' : Build) (m : Mem F)
    (blk blk' : Blk) (bAddr aAddr bAddr' aAddr' : Int) (junk : Int → Fused F pol) (junk' : Int → Fused F pol') (tA tB : Char)
    (M N K : Int) (ALPHA BETA : Scal F) (A LDA B LDB C LDC : Int) (Av Bv Cv : Nat → Nat → Quat F)
    (al be : Scal (Fused F pol)) (al' be' : Scal (Fused F pol')) (hal : al.map Fused.dbl = ALPHA)
    (hal' : al'.map Fused.dbl = ALPHA) (hbe : be.map Fused.dbl = BETA) (hbe' : be'.map Fused.dbl = BETA)
    (h : GemmCall S m blk bAddr aAddr tA tB M N K ALPHA A LDA B LDB BETA C LDC Av Bv Cv)
    (h' : GemmCall S m blk' bAddr' aAddr' tA tB M N K ALPHA A LDA B LDB BETA C LDC Av Bv Cv) :
    ∃ w w' V V', gemmOf blk bAddr aAddr junk b tA tB M N K al A LDA B LDB be C LDC (litM pol m) = .ok ((), w) ∧
      gemmOf blk' bAddr' aAddr' junk' b' tA tB M N K al' A LDA B LDB be' C LDC (litM pol' m) = .ok ((), w') ∧
      MatAt w C LDC M.toNat N.toNat V ∧ MatAt w' C LDC M.toNat N.toNat V' ∧ ∀ i j, i < M.toNat → j < N.toNat →
        (V i j).All (SOk S pol) → (V' i j).All (SOk S pol') →
        ‖((V i j).map (sval S)).toH - ((V' i j).map (sval S)).toH‖ ≤
          4 * (((1 + 4 * u) ^ (4 * K.toNat + 9) - 1) * (‖(BETA.map S.val).toH‖ * ‖((Cv i j).map S.val).toH‖ +
          2 * ‖(ALPHA.map S.val).toH‖ * ∑ k ∈ range K.toNat, ‖opSpec tA (fun i k => (Av i k).map S.val) i k‖ *
            ‖opSpec tB (fun k j => (Bv k j).map S.val) k j‖)) := by
  have tr : ∀ (P : Ex Unit → Fusing) (a : Scal (Fused F P)) (s : Scal F), a.map Fused.dbl = s → StdModel.Truth S s →
      StdModel.Truth (fusedStd S hu (fun _ _ => True) P) a := by
    intro P a s e k
    subst e
    constructor
    · intro q
      rw [show a.map (fusedStd S hu (fun _ _ => True) P).val = _ from (map_dbl S a).symm]
      exact k.zero (by rw [eqZero_dbl]; exact q)
    · intro q
      rw [show a.map (fusedStd S hu (fun _ _ => True) P).val = _ from (map_dbl S a).symm]
      exact k.one (by rw [eqOne_dbl]; exact q)
  have same : ∀ (a : Scal (Fused F pol)) (a' : Scal (Fused F pol')), a.map Fused.dbl = a'.map Fused.dbl →
      SameS (fusedStd S hu (fun _ _ => True) pol) (fusedStd S hu (fun _ _ => True) pol') a a' := fun a a' e =>
    congrArg Scal.toH ((map_dbl S a).symm.trans ((congrArg (Scal.map S.val) e).trans (map_dbl S a')))
  obtain ⟨w, w', v, v', h1, h2, h3, h4, h5⟩ := C67_gemm (fusedStd S hu (fun _ _ => True) pol) (fusedStd S hu (fun _ _ => True) pol')
    b b' (litM pol m) (litM pol' m) blk blk' bAddr aAddr bAddr' aAddr' junk junk' tA tB tA tB M N K al be al' be'
    A LDA B LDB C LDC A LDA B LDB C LDC _ _ _ _ _ _
    { htA := h.htA, htB := h.htB, pre := gemmPre_litM h.pre, hA32 := h.hA32, hB32 := h.hB32, hC32 := h.hC32, h1 := h.h1
      he := fun a b k => h.he _ _ k, ha := tr pol al ALPHA hal h.ha, hb := tr pol be BETA hbe h.hb }
    { htA := h.htA, htB := h.htB, pre := gemmPre_litM h'.pre, hA32 := h.hA32, hB32 := h.hB32, hC32 := h.hC32, h1 := h.h1
      he := fun a b k => h.he _ _ k, ha := tr pol' al' ALPHA hal' h.ha, hb := tr pol' be' BETA hbe' h.hb }
    (same al al' (hal.trans hal'.symm)) (same be be' (hbe.trans hbe'.symm))
    (fun i k hi hk => rfl) (fun i k hi hk => rfl) (fun i j hi hj => rfl)
  refine ⟨w, w', v, v', h1, h2, h3, h4, fun i j hi hj p q => ?_⟩
  subst hal hbe
  have e1 : (fun i k => (litQ pol (A + 4 * ((i:Nat) + (k:Nat) * LDA)) (Av i k)).map (fusedStd S hu (fun _ _ => True) pol).val) =
      fun i k => (Av i k).map S.val := rfl
  have e2 : (fun i k => (litQ pol (B + 4 * ((i:Nat) + (k:Nat) * LDB)) (Bv i k)).map (fusedStd S hu (fun _ _ => True) pol).val) =
      fun i k => (Bv i k).map S.val := rfl
  have h6 := h5 i j hi hj p q
  simp only [e1, e2] at h6
  rw [map_dbl, map_dbl]
  exact h6

/-! ## The hypotheses are satisfiable -/

/-- five elements with stride 2, x and y, in rounded arithmetic, any contents -/
theorem dotCall_example (f : Int → F) : DotCall (memOf 0 200 f) 5 0 2 60 3
    (fun i => ⟨f (0 + 4 * (i * 2)), f (0 + 4 * (i * 2) + 1), f (0 + 4 * (i * 2) + 2), f (0 + 4 * (i * 2) + 3)⟩)
    (fun i => ⟨f (60 + 4 * (i * 3)), f (60 + 4 * (i * 3) + 1), f (60 + 4 * (i * 3) + 2), f (60 + 4 * (i * 3) + 3)⟩) :=
  ⟨(lv1_example f).1, (lv1_example f).2.1, by decide, by decide, by unfold Fits32; omega, by unfold Fits32; omega,
    by unfold Fits32; omega, by unfold Fits32; omega⟩

/-- the SIMD and the Fortran DOTC, compiled differently, 53-bit arithmetic, any contents of memory -/
example (pol pol' : Ex Unit → Fusing) (f : Int → Chop) :=
  C67_fused_dot chopModel u52 pol pol' .simd .fortran true _ _ _ _ _ _ _ _ (dotCall_example f)

/-- the portable and the SIMD AXPYV, compiled differently -/
example (pol pol' : Ex Unit → Fusing) (f : Int → Chop) (z : Cplx Chop) :=
  C67_fused_axpyv chopModel u52 pol pol' .portable .simd (memOf 0 200 f) 'R' 5 0 2 60 3 (.z z) _ _
    (.z ⟨Fused.lit (-1) z.re, Fused.lit (-2) z.im⟩) (.z ⟨Fused.lit (-1) z.re, Fused.lit (-2) z.im⟩) rfl rfl
    ⟨Or.inr rfl, (lv1_example f).1, (lv1_example f).2.1, by decide, by decide, by unfold Fits32; omega, by unfold Fits32; omega,
      (lv1_example f).2.2, chop_truth.2, ((truth_of chop_truth.1 chop_truth.2).2.1 z).zero⟩

/-- SCALV of five elements with stride 2, by the Fortran kernel and the SIMD kernel -/
example (pol pol' : Ex Unit → Fusing) (f : Int → Chop) :=
  have hz : (Scal.d (Arith.one : Chop)).vIsZero = false := by
    cases h : (Scal.d (Arith.one : Chop)).vIsZero with
    | false => rfl
    | true =>
      have := chop_truth.2 _ _ h
      rw [chop_truth.1, chopModel.zero_val] at this
      exact absurd this one_ne_zero
  C67_fused_scalv chopModel u52 pol pol' .fortran .simd (memOf 0 200 f) 'L' 5 0 2 (.d Arith.one) _
    (.d Arith.one) (.d Arith.one) rfl rfl
    ⟨Or.inl rfl, (lv1_example f).1, by decide, by unfold Fits32; omega, fun _ => hz⟩
    ⟨Or.inl rfl, (lv1_example f).1, by decide, by unfold Fits32; omega, fun _ => hz⟩

/-- GEMM with `A` conjugate-transposed, complex ALPHA and real BETA, any contents: any two builds compiled in any two ways -/
example (pol pol' : Ex Unit → Fusing) (f : Int → Chop) (b b' : Build) (a : Cplx Chop) (r : Chop) :=
  have c : GemmCall chopModel (memOf 0 64 f) _ _ _ 'C' 'N' 3 1 2 (.z a) 0 2 24 2 (.d r) 33 4 _ _ _ :=
    { htA := by decide, htB := by decide, pre := gemmPre_example' f
      hA32 := by intro l hl; have hl : l < 3 := hl; unfold Fits32; omega
      hB32 := by intro l hl; have hl : l < 1 := hl; unfold Fits32; omega
      hC32 := by intro l hl; have hl : l < 1 := hl; unfold Fits32; omega
      h1 := chop_truth.1, he := chop_truth.2
      ha := (truth_of chop_truth.1 chop_truth.2).2.1 a, hb := (truth_of chop_truth.1 chop_truth.2).1 r }
  C67_fused_gemm chopModel u52 pol pol' b b' (memOf 0 64 f) _ _ _ _ _ _ (fun p => Fused.lit p (f p)) (fun p => Fused.lit p (f p))
    'C' 'N' 3 1 2 (.z a) (.d r) 0 2 24 2 33 4 _ _ _
    (.z ⟨Fused.lit (-1) a.re, Fused.lit (-2) a.im⟩) (.d (Fused.lit (-3) r))
    (.z ⟨Fused.lit (-1) a.re, Fused.lit (-2) a.im⟩) (.d (Fused.lit (-3) r)) rfl rfl rfl rfl c c

/-- one machine, two layouts and two types of ALPHA: x of stride 2 and of stride 3, all ones; ALPHA the double 1 or the
complex 1 -/
example := by
  have one : (Scal.map chopModel.val (.d (Arith.one : Chop))).toH = (Scal.map chopModel.val (.z ⟨Arith.one, Arith.zero⟩)).toH := by
    simp only [Scal.map, Scal.toH, chop_truth.1, chopModel.zero_val]
    ext <;> simp [Cplx.toH]
  exact C67_scalv chopModel chopModel .simd .portable (memOf 0 200 fun _ => (Arith.one : Chop)) (memOf 0 200 fun _ => Arith.one) 'L' 5
    0 2 60 3 (.d Arith.one) (.z ⟨Arith.one, Arith.zero⟩) _ _
    ⟨Or.inl rfl, (lv1_example _).1, by decide, by unfold Fits32; omega, by intro h; cases h⟩
    ⟨Or.inl rfl, (lv1_example _).2.1, by decide, by unfold Fits32; omega, by intro h; cases h⟩ one (fun i hi => rfl)

/-- GEMV, the portable template against the Fortran kernel: y of length 3 at 90, A 2 × 3 at 0 (LDA 4), x of length 2 at 60 -/
theorem gemvCall_example (b : Bool) (f : Int → Chop) (a : Cplx Chop) (r : Chop) :
    GemvCall chopModel b (memOf 0 200 f) 'C' 2 3 (.z a) 0 4 60 2 (.d r) 90 1
      (fun i j => ⟨f (0 + 4 * (i + j * 4)), f (0 + 4 * (i + j * 4) + 1), f (0 + 4 * (i + j * 4) + 2), f (0 + 4 * (i + j * 4) + 3)⟩)
      (fun i => ⟨f (60 + 4 * (i * 2)), f (60 + 4 * (i * 2) + 1), f (60 + 4 * (i * 2) + 2), f (60 + 4 * (i * 2) + 3)⟩)
      (fun i => ⟨f (90 + 4 * (i * 1)), f (90 + 4 * (i * 1) + 1), f (90 + 4 * (i * 1) + 2), f (90 + 4 * (i * 1) + 3)⟩) where
  ht := by decide
  hM := by decide
  hN := by decide
  hY := by intro i hi; have hi : i < 3 := hi; exact readQ_memOf (by omega) (by omega)
  hA := by intro i j hi hj; have hi : i < 2 := hi; have hj : j < 3 := hj; exact readQ_memOf (by omega) (by omega)
  hX := by intro i hi; have hi : i < 2 := hi; exact readQ_memOf (by omega) (by omega)
  hAY := by
    rintro c ⟨i, j, hi, hj, h1, h2⟩ ⟨i', hi', h3, h4⟩
    have hi : i < 2 := hi
    have hj : j < 3 := hj
    have hi' : i' < 3 := hi'
    omega
  hXY := by
    rintro c ⟨i, hi, h1, h2⟩ ⟨i', hi', h3, h4⟩
    have hi : i < 2 := hi
    have hi' : i' < 3 := hi'
    omega
  hx := by decide
  hy := by decide
  fitA := by intro i j hi hj; have hi : i < 2 := hi; have hj : j < 3 := hj; unfold Fits32; omega
  fitX := by intro i hi; have hi : i ≤ 2 := hi; unfold Fits32; omega
  fitY := by intro i hi; have hi : i ≤ 3 := hi; unfold Fits32; omega
  h1 := chop_truth.1
  he := chop_truth.2
  ha := (truth_of chop_truth.1 chop_truth.2).2.1 a
  hb := (truth_of chop_truth.1 chop_truth.2).1 r
  hg := fun _ => ⟨Or.inr (Or.inr (Or.inl ⟨by decide, by unfold IsT; decide⟩)), (by rintro ⟨_, h⟩; cases h), (by rintro ⟨_, h⟩; cases h)⟩

example (f : Int → Chop) (a : Cplx Chop) (r : Chop) :=
  C67_gemv_partial chopModel chopModel false true _ _ _ _ _ _ _ _ _ _ _ _ _ _ _ _ _ _ _ _ _ _ _ _ _ _ _
    (gemvCall_example false f a r) (gemvCall_example true f a r) rfl rfl (fun _ _ _ _ => rfl) (fun _ _ => rfl) (fun _ _ => rfl)

/-- GER: the y_j have a zero k component, everything else is arbitrary. -/
example (g : Int → Chop) (a : Cplx Chop) :=
  have c : ∀ b : Bool, GerCall chopModel b _ 2 3 (.z a) 60 2 90 1 0 4 _ _ _ := fun b =>
    { args := gerBArgs_example (fun n => if 90 ≤ n ∧ n % 4 = 1 then Arith.zero else g n)
      he := chop_truth.2
      ha := (truth_of chop_truth.1 chop_truth.2).2.1 a
      hd := by intro _ r h; cases h
      hyk := by
        intro _ j hj h
        refine ((truth_of chop_truth.1 chop_truth.2).2.2 _ ?_).zero (by unfold Quat.neOp at h; exact (Bool.not_eq_false' _).mp h)
        have : 90 ≤ (90 + 4 * ((j:Int) * 1) + 3) ∧ (90 + 4 * ((j:Int) * 1) + 3) % 4 = 1 := by omega
        simp only [if_pos this]
        exact chopModel.zero_val }
  C67_ger_partial chopModel chopModel false true true _ _ _ _ _ _ _ _ _ _ _ _ _ _ _ _ _ _ _ _ _ _ _ _ (c false) (c true)
    rfl (fun _ _ => rfl) (fun _ _ => rfl) (fun _ _ _ _ => rfl)

end

end Haxx
