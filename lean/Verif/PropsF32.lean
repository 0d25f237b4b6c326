import Verif.F32Hblas1Pf
import Verif.F32GerPf
import Verif.F32UtilPf
import Verif.F32GemvPfdd
import Verif.F32GemvPfdz
import Verif.F32GemvPfdh
import Verif.F32GemvPfzd
import Verif.F32GemvPfzz
import Verif.F32GemvPfzh
import Verif.F32GemvPfhd
import Verif.F32GemvPfhz
import Verif.F32GemvPfhh
import Verif.PropsGemv
import Verif.PropsGer
import Verif.Util
import Verif.PropsHblas1G
import Verif.PropsUtil2

/-!
# C58: the Fortran routines with INTEGER*4 index arithmetic

The routines `F32.*` are the Fortran routines with every integer operation checked for 32-bit overflow.  They are shown to
be the routines all other theorems are about whenever the positions fit, so those theorems hold of the checked ones.
GEMM (`hgemm*.f`) performs no integer arithmetic besides its DO loops.
-/

set_option linter.unusedSectionVars false

namespace Haxx.F32
open Arith
open scoped Quaternion

section
variable {F : Type} [Arith F] [ArithEq F]

/-- As `Haxx.scalvF` (`src/hblas/hblas1.cxx.in:58-65,87-89`), 32-bit indices. -/
def scalvF (SIDE : Char) (N : Int) (ALPHA : Scal F) (X INCX : Int) : Prog F Unit :=
  match ALPHA with
  | .d a => hscald SIDE N a X INCX
  | .z a => hscalc SIDE N a X INCX
  | .h a => hscalh SIDE N a X INCX

/-- As `Haxx.axpyvF` (`src/hblas/hblas1.cxx.in:68-76,97-99`), 32-bit indices. -/
def axpyvF (SIDE : Char) (N : Int) (ALPHA : Scal F) (X INCX Y INCY : Int) : Prog F Unit :=
  match ALPHA with
  | .d a => haxpydh SIDE N a X INCX Y INCY
  | .z a => haxpych SIDE N a X INCX Y INCY
  | .h a => haxpyhh SIDE N a X INCX Y INCY

/-- As `Haxx.dotF` (`src/hblas/hblas1.cxx.in:47-56,103-104`), 32-bit indices. -/
def dotF (conj : Bool) (N X INCX Y INCY : Int) : Prog F (Quat F) :=
  if conj then hdotc N X INCX Y INCY else hdotu N X INCX Y INCY

/-- As `Haxx.geruF` (`src/hblas/hblas2.cxx.in:38-46,81-86`), 32-bit indices. -/
def geruF (M N : Int) (ALPHA : Scal F) (X INCX Y INCY A LDA : Int) : Prog F Unit :=
  match ALPHA with
  | .d a => hgerud M N a X INCX Y INCY A LDA
  | .z a => hgeruz M N a X INCX Y INCY A LDA
  | .h a => hgeruh M N a X INCX Y INCY A LDA

/-- As `Haxx.gercF` (`src/hblas/hblas2.cxx.in:38-46,90-95`), 32-bit indices. -/
def gercF (M N : Int) (ALPHA : Scal F) (X INCX Y INCY A LDA : Int) : Prog F Unit :=
  match ALPHA with
  | .d a => hgercd M N a X INCX Y INCY A LDA
  | .z a => hgercz M N a X INCX Y INCY A LDA
  | .h a => hgerch M N a X INCX Y INCY A LDA

/-- As `Haxx.gemvF` (`src/hblas/hblas2.cxx.in:27-36,53-72`), 32-bit indices. -/
def gemvF (TRANS : Char) (M N : Int) (ALPHA : Scal F) (A LDA X INCX : Int) (BETA : Scal F) (Y INCY : Int) : Prog F Unit :=
  match ALPHA, BETA with
  | .d a, .d b => hgemvdd TRANS M N a A LDA X INCX b Y INCY
  | .d a, .z b => hgemvdz TRANS M N a A LDA X INCX b Y INCY
  | .d a, .h b => hgemvdh TRANS M N a A LDA X INCX b Y INCY
  | .z a, .d b => hgemvzd TRANS M N a A LDA X INCX b Y INCY
  | .z a, .z b => hgemvzz TRANS M N a A LDA X INCX b Y INCY
  | .z a, .h b => hgemvzh TRANS M N a A LDA X INCX b Y INCY
  | .h a, .d b => hgemvhd TRANS M N a A LDA X INCX b Y INCY
  | .h a, .z b => hgemvhz TRANS M N a A LDA X INCX b Y INCY
  | .h a, .h b => hgemvhh TRANS M N a A LDA X INCX b Y INCY

/-- As `Haxx.HBLAS_COMPLEX_EXPAND` (`include/hblas/generic/util/expand_impl.hpp:18-30`), 32-bit indices. -/
def HBLAS_COMPLEX_EXPAND (ORDER : Char) (M N A LDA B LDB : Int) : Prog F Unit := do
  assertP (ORDER == 'F' || ORDER == 'S')
  if ORDER == 'F' then hzexp1 M N A LDA B LDB else hzexp2 M N A LDA B LDB

/-- As `Haxx.HBLAS_REAL_EXPAND` (`include/hblas/generic/util/expand_impl.hpp:32-38`), 32-bit indices. -/
def HBLAS_REAL_EXPAND (M N A LDA B LDB : Int) : Prog F Unit := hdexp M N A LDA B LDB

/-- As `Haxx.HBLAS_COMPLEX_CONTRACT` (`include/hblas/generic/util/contract_impl.hpp:18-30`), 32-bit indices. -/
def HBLAS_COMPLEX_CONTRACT (ORDER UPLO : Char) (M N A LDA B LDB : Int) : Prog F Unit := do
  assertP (ORDER == 'F' || ORDER == 'S')
  if ORDER == 'F' then hzcon1 UPLO M N A LDA B LDB else hzcon2 UPLO M N A LDA B LDB

/-- C58. Level 1: if `N*|INC| + 1` fits in 32 bits for each vector, the outcome of a call — in every memory, for both
signs of the increments, every N — is that of the routine with unbounded indices; in particular no overflow. -/
theorem C58_level1 (m : Mem F) (conj : Bool) (SIDE : Char) (N : Int) (ALPHA : Scal F) (X INCX Y INCY : Int)
    (hx : 0 < N → N * |INCX| + 1 ≤ 2147483647) (hy : 0 < N → N * |INCY| + 1 ≤ 2147483647) (hN : N ≤ 2147483647) :
    scalvF SIDE N ALPHA X INCX m = Haxx.scalvF SIDE N ALPHA X INCX m ∧
    axpyvF SIDE N ALPHA X INCX Y INCY m = Haxx.axpyvF SIDE N ALPHA X INCX Y INCY m ∧
    dotF conj N X INCX Y INCY m = Haxx.dotF conj N X INCX Y INCY m := by
  by_cases h0 : 0 < N
  · have fit : ∀ {INC : Int}, (0 < N → N * |INC| + 1 ≤ 2147483647) → VFit N INC := by
      intro INC h
      have h1 := h h0
      have h2 : |INC| ≤ N * |INC| := le_mul_of_one_le_left (abs_nonneg _) (by omega)
      exact ⟨by omega, hN, by omega, h1⟩
    have fx := fit hx
    have fy := fit hy
    refine ⟨?_, ?_, ?_⟩
    · cases ALPHA
      · exact congrFun (hscald_eq32 SIDE N _ X INCX h0 fx).eq m
      · exact congrFun (hscalc_eq32 SIDE N _ X INCX h0 fx).eq m
      · exact congrFun (hscalh_eq32 SIDE N _ X INCX h0 fx).eq m
    · cases ALPHA
      · exact congrFun (haxpydh_eq32 SIDE N _ X INCX Y INCY h0 fx fy).eq m
      · exact congrFun (haxpych_eq32 SIDE N _ X INCX Y INCY h0 fx fy).eq m
      · exact congrFun (haxpyhh_eq32 SIDE N _ X INCX Y INCY h0 fx fy).eq m
    · cases conj
      · exact congrFun (hdotu_eq32 N X INCX Y INCY h0 fx fy).eq m
      · exact congrFun (hdotc_eq32 N X INCX Y INCY h0 fx fy).eq m
  · have hd : decide (N ≤ 0) = true := by rw [decide_eq_true_eq]; omega
    refine ⟨?_, ?_, ?_⟩
    · cases ALPHA
      · show hscald SIDE N _ X INCX m = Haxx.hscald SIDE N _ X INCX m
        unfold hscald Haxx.hscald; rw [if_pos hd, if_pos hd]
      · show hscalc SIDE N _ X INCX m = Haxx.hscalc SIDE N _ X INCX m
        unfold hscalc Haxx.hscalc; rw [if_pos hd, if_pos hd]
      · show hscalh SIDE N _ X INCX m = Haxx.hscalh SIDE N _ X INCX m
        unfold hscalh Haxx.hscalh; rw [if_pos hd, if_pos hd]
    · cases ALPHA
      · show haxpydh SIDE N _ X INCX Y INCY m = Haxx.haxpydh SIDE N _ X INCX Y INCY m
        unfold haxpydh Haxx.haxpydh; simp only [hd, if_true]
      · show haxpych SIDE N _ X INCX Y INCY m = Haxx.haxpych SIDE N _ X INCX Y INCY m
        unfold haxpych Haxx.haxpych; simp only [hd, if_true]
      · show haxpyhh SIDE N _ X INCX Y INCY m = Haxx.haxpyhh SIDE N _ X INCX Y INCY m
        unfold haxpyhh Haxx.haxpyhh; simp only [hd, if_true]
    · cases conj
      · show hdotu N X INCX Y INCY m = Haxx.hdotu N X INCX Y INCY m
        unfold hdotu Haxx.hdotu; simp only [hd, if_true]
      · show hdotc N X INCX Y INCY m = Haxx.hdotc N X INCX Y INCY m
        unfold hdotc Haxx.hdotc; simp only [hd, if_true]

/-- C58. The rank-one updates, for `M, N ≥ 0`. -/
theorem C58_ger (m : Mem F) (M N : Int) (ALPHA : Scal F) (X INCX Y INCY A LDA : Int) (hM : 0 ≤ M) (hN : 0 ≤ N)
    (hM32 : M ≤ 2147483647) (hN32 : N ≤ 2147483647)
    (hx : M * |INCX| + 1 ≤ 2147483647) (hy : N * |INCY| + 1 ≤ 2147483647) :
    geruF M N ALPHA X INCX Y INCY A LDA m = Haxx.geruF M N ALPHA X INCX Y INCY A LDA m ∧
    gercF M N ALPHA X INCX Y INCY A LDA m = Haxx.gercF M N ALPHA X INCX Y INCY A LDA m := by
  by_cases h0 : M = 0 ∨ N = 0
  · have hd : (decide (M = 0) || decide (N = 0)) = true := by simpa using h0
    constructor
    · cases ALPHA
      · show hgerud M N _ X INCX Y INCY A LDA m = Haxx.hgerud M N _ X INCX Y INCY A LDA m
        unfold hgerud Haxx.hgerud; simp only [hd, Bool.true_or, if_true]
      · show hgeruz M N _ X INCX Y INCY A LDA m = Haxx.hgeruz M N _ X INCX Y INCY A LDA m
        unfold hgeruz Haxx.hgeruz; simp only [hd, Bool.true_or, if_true]
      · show hgeruh M N _ X INCX Y INCY A LDA m = Haxx.hgeruh M N _ X INCX Y INCY A LDA m
        unfold hgeruh Haxx.hgeruh; simp only [hd, Bool.true_or, if_true]
    · cases ALPHA
      · show hgercd M N _ X INCX Y INCY A LDA m = Haxx.hgercd M N _ X INCX Y INCY A LDA m
        unfold hgercd Haxx.hgercd; simp only [hd, Bool.true_or, if_true]
      · show hgercz M N _ X INCX Y INCY A LDA m = Haxx.hgercz M N _ X INCX Y INCY A LDA m
        unfold hgercz Haxx.hgercz; simp only [hd, Bool.true_or, if_true]
      · show hgerch M N _ X INCX Y INCY A LDA m = Haxx.hgerch M N _ X INCX Y INCY A LDA m
        unfold hgerch Haxx.hgerch; simp only [hd, Bool.true_or, if_true]
  · push Not at h0
    have fit : ∀ {L INC : Int}, 0 < L → L ≤ 2147483647 → L * |INC| + 1 ≤ 2147483647 → VFit L INC := by
      intro L INC h1 h2 h3
      have h4 : |INC| ≤ L * |INC| := le_mul_of_one_le_left (abs_nonneg _) (by omega)
      exact ⟨by omega, h2, by omega, h3⟩
    have M0 : 0 < M := by omega
    have N0 : 0 < N := by omega
    have fx := fit M0 hM32 hx
    have fy := fit N0 hN32 hy
    constructor
    · cases ALPHA
      · exact congrFun (hgerud_eq32 M N _ X INCX Y INCY A LDA M0 N0 fx fy).eq m
      · exact congrFun (hgeruz_eq32 M N _ X INCX Y INCY A LDA M0 N0 fx fy).eq m
      · exact congrFun (hgeruh_eq32 M N _ X INCX Y INCY A LDA M0 N0 fx fy).eq m
    · cases ALPHA
      · exact congrFun (hgercd_eq32 M N _ X INCX Y INCY A LDA M0 N0 fx fy).eq m
      · exact congrFun (hgercz_eq32 M N _ X INCX Y INCY A LDA M0 N0 fx fy).eq m
      · exact congrFun (hgerch_eq32 M N _ X INCX Y INCY A LDA M0 N0 fx fy).eq m

/-- C58. GEMV, for `M, N ≥ 0` (the positions of both vectors may run up to the larger dimension, whatever TRANS). -/
theorem C58_gemv (m : Mem F) (TRANS : Char) (M N : Int) (ALPHA : Scal F) (A LDA X INCX : Int) (BETA : Scal F) (Y INCY : Int)
    (hM : 0 ≤ M) (hN : 0 ≤ N) (hM32 : M ≤ 2147483647) (hN32 : N ≤ 2147483647)
    (hx : max M N * |INCX| + 1 ≤ 2147483647) (hy : max M N * |INCY| + 1 ≤ 2147483647) :
    gemvF TRANS M N ALPHA A LDA X INCX BETA Y INCY m = Haxx.gemvF TRANS M N ALPHA A LDA X INCX BETA Y INCY m := by
  by_cases h0 : M = 0 ∨ N = 0
  · have hd : (decide (M = 0) || decide (N = 0)) = true := by simpa using h0
    cases ALPHA <;> cases BETA
    · show hgemvdd TRANS M N _ A LDA X INCX _ Y INCY m = Haxx.hgemvdd TRANS M N _ A LDA X INCX _ Y INCY m
      unfold hgemvdd Haxx.hgemvdd; simp only [hd, Bool.true_or, if_true]
    · show hgemvdz TRANS M N _ A LDA X INCX _ Y INCY m = Haxx.hgemvdz TRANS M N _ A LDA X INCX _ Y INCY m
      unfold hgemvdz Haxx.hgemvdz; simp only [hd, Bool.true_or, if_true]
    · show hgemvdh TRANS M N _ A LDA X INCX _ Y INCY m = Haxx.hgemvdh TRANS M N _ A LDA X INCX _ Y INCY m
      unfold hgemvdh Haxx.hgemvdh; simp only [hd, Bool.true_or, if_true]
    · show hgemvzd TRANS M N _ A LDA X INCX _ Y INCY m = Haxx.hgemvzd TRANS M N _ A LDA X INCX _ Y INCY m
      unfold hgemvzd Haxx.hgemvzd; simp only [hd, Bool.true_or, if_true]
    · show hgemvzz TRANS M N _ A LDA X INCX _ Y INCY m = Haxx.hgemvzz TRANS M N _ A LDA X INCX _ Y INCY m
      unfold hgemvzz Haxx.hgemvzz; simp only [hd, Bool.true_or, if_true]
    · show hgemvzh TRANS M N _ A LDA X INCX _ Y INCY m = Haxx.hgemvzh TRANS M N _ A LDA X INCX _ Y INCY m
      unfold hgemvzh Haxx.hgemvzh; simp only [hd, Bool.true_or, if_true]
    · show hgemvhd TRANS M N _ A LDA X INCX _ Y INCY m = Haxx.hgemvhd TRANS M N _ A LDA X INCX _ Y INCY m
      unfold hgemvhd Haxx.hgemvhd; simp only [hd, Bool.true_or, if_true]
    · show hgemvhz TRANS M N _ A LDA X INCX _ Y INCY m = Haxx.hgemvhz TRANS M N _ A LDA X INCX _ Y INCY m
      unfold hgemvhz Haxx.hgemvhz; simp only [hd, Bool.true_or, if_true]
    · show hgemvhh TRANS M N _ A LDA X INCX _ Y INCY m = Haxx.hgemvhh TRANS M N _ A LDA X INCX _ Y INCY m
      unfold hgemvhh Haxx.hgemvhh; simp only [hd, Bool.true_or, if_true]
  · push Not at h0
    have hL1 : 1 ≤ max M N := by omega
    have fit : ∀ {INC : Int}, max M N * |INC| + 1 ≤ 2147483647 → VFit (max M N) INC := by
      intro INC h
      have h2 : |INC| ≤ max M N * |INC| := le_mul_of_one_le_left (abs_nonneg _) hL1
      exact ⟨by omega, by omega, by omega, h⟩
    have fx := fit hx
    have fy := fit hy
    have M0 : 0 < M := by omega
    have N0 : 0 < N := by omega
    cases ALPHA <;> cases BETA
    · exact congrFun (hgemvdd_eq32 TRANS M N _ A LDA X INCX _ Y INCY M0 N0 (le_max_left M N) (le_max_right M N) fx fy).eq m
    · exact congrFun (hgemvdz_eq32 TRANS M N _ A LDA X INCX _ Y INCY M0 N0 (le_max_left M N) (le_max_right M N) fx fy).eq m
    · exact congrFun (hgemvdh_eq32 TRANS M N _ A LDA X INCX _ Y INCY M0 N0 (le_max_left M N) (le_max_right M N) fx fy).eq m
    · exact congrFun (hgemvzd_eq32 TRANS M N _ A LDA X INCX _ Y INCY M0 N0 (le_max_left M N) (le_max_right M N) fx fy).eq m
    · exact congrFun (hgemvzz_eq32 TRANS M N _ A LDA X INCX _ Y INCY M0 N0 (le_max_left M N) (le_max_right M N) fx fy).eq m
    · exact congrFun (hgemvzh_eq32 TRANS M N _ A LDA X INCX _ Y INCY M0 N0 (le_max_left M N) (le_max_right M N) fx fy).eq m
    · exact congrFun (hgemvhd_eq32 TRANS M N _ A LDA X INCX _ Y INCY M0 N0 (le_max_left M N) (le_max_right M N) fx fy).eq m
    · exact congrFun (hgemvhz_eq32 TRANS M N _ A LDA X INCX _ Y INCY M0 N0 (le_max_left M N) (le_max_right M N) fx fy).eq m
    · exact congrFun (hgemvhh_eq32 TRANS M N _ A LDA X INCX _ Y INCY M0 N0 (le_max_left M N) (le_max_right M N) fx fy).eq m

/-- C58. Expansion and contraction: the dimensions of the expanded matrix (plus one) must fit. -/
theorem C58_util (m : Mem F) (ORDER UPLO : Char) (M N A LDA B LDB : Int) :
    (2 * M + 1 ≤ 2147483647 → 2 * N + 1 ≤ 2147483647 →
      HBLAS_COMPLEX_EXPAND ORDER M N A LDA B LDB m = Haxx.HBLAS_COMPLEX_EXPAND ORDER M N A LDA B LDB m ∧
      HBLAS_COMPLEX_CONTRACT ORDER UPLO M N A LDA B LDB m = Haxx.HBLAS_COMPLEX_CONTRACT ORDER UPLO M N A LDA B LDB m) ∧
    (4 * M + 1 ≤ 2147483647 → 4 * N + 1 ≤ 2147483647 →
      HBLAS_REAL_EXPAND M N A LDA B LDB m = Haxx.HBLAS_REAL_EXPAND M N A LDA B LDB m) := by
  refine ⟨fun hM hN => ⟨?_, ?_⟩, fun hM hN => ?_⟩
  · unfold HBLAS_COMPLEX_EXPAND Haxx.HBLAS_COMPLEX_EXPAND
    rw [(hzexp1_eq32 M N A LDA B LDB hM hN).eq, (hzexp2_eq32 M N A LDA B LDB hM hN).eq]
  · unfold HBLAS_COMPLEX_CONTRACT Haxx.HBLAS_COMPLEX_CONTRACT
    rw [(hzcon1_eq32 UPLO M N A LDA B LDB hM hN).eq, (hzcon2_eq32 UPLO M N A LDA B LDB hM hN).eq]
  · exact congrFun (hdexp_eq32 M N A LDA B LDB hM hN).eq m

end

/-- C58: the bound on the increment is needed, already for one element: the position after the last is computed. -/
theorem C58_bound_needed :
    scalvF (F := Int) 'L' 1 (.d 2) 0 2147483647 (fun a => if 0 ≤ a ∧ a < 4 then some a else none) = .error .overflow := by
  rfl

section
variable {R : Type} [CommRing R] [DecidableEq R]

/-- C58: hence the checked rank-one updates meet the specification of C31, exactly where the unchecked ones do. -/
theorem C58_ger_spec (m : Mem R) (M N : Int) (ALPHA : Scal R) (X INCX Y INCY A LDA : Int)
    (x y : Nat → Quat R) (a : Nat → Nat → Quat R) (h : GerArgs m M N X INCX Y INCY A LDA x y a) (hM : 0 ≤ M) (hN : 0 ≤ N)
    (hM32 : M ≤ 2147483647) (hN32 : N ≤ 2147483647)
    (hx : M * |INCX| + 1 ≤ 2147483647) (hy : N * |INCY| + 1 ≤ 2147483647) :
    (IsGeru (geruF M N ALPHA X INCX Y INCY A LDA) m M N ALPHA A LDA x y a ↔
      ¬ (∃ r, ALPHA = .d r ∧ r ≠ 0 ∧ INCX ≠ 1 ∧ 0 < M ∧ ∃ j, j < N.toNat ∧ (y j).toH ≠ 0)) ∧
    (IsGerc (gercF M N ALPHA X INCX Y INCY A LDA) m M N ALPHA A LDA x y a ↔
      ¬ (∃ r, ALPHA = .d r ∧ r ≠ 0 ∧ INCX ≠ 1 ∧ 0 < M ∧ ∃ j, j < N.toNat ∧ (y j).toH ≠ 0)) := by
  have e := C58_ger m M N ALPHA X INCX Y INCY A LDA hM hN hM32 hN32 hx hy
  have := C31_fortran_exact m M N ALPHA X INCX Y INCY A LDA x y a h
  unfold IsGeru IsGerc at *
  rw [e.1, e.2]; exact this

/-- C58: and the checked GEMV that of C30, outside the calls listed there. -/
theorem C58_gemv_spec (m : Mem R) (t : Char) (M N : Int) (ALPHA : Scal R) (A LDA X INCX : Int)
    (BETA : Scal R) (Y INCY : Int) (a : Nat → Nat → Quat R) (x y : Nat → Quat R) (op : Nat → Nat → ℍ[R])
    (hM : 0 < M) (hN : 0 < N) (hM32 : M ≤ 2147483647) (hN32 : N ≤ 2147483647)
    (hx : max M N * |INCX| + 1 ≤ 2147483647) (hy : max M N * |INCY| + 1 ≤ 2147483647)
    (h : GemvArgs m t M N ALPHA A LDA X INCX Y INCY a x y) (hop : OpIs t a op) (hg : GemvGood t M N ALPHA BETA INCX INCY) :
    IsGemv (gemvF t M N ALPHA A LDA X INCX BETA Y INCY) m t M N ALPHA BETA Y INCY op x y := by
  have e := C58_gemv m t M N ALPHA A LDA X INCX BETA Y INCY hM.le hN.le hM32 hN32 hx hy
  have := C30_gemv_partial m t M N ALPHA A LDA X INCX BETA Y INCY a x y op (by omega) (by omega) h hop hg
  unfold IsGemv at *
  rw [e]; exact this

end

/-- A 2 × 3 rank-one update, x at every second element, y backwards, with checked indices. -/
example : ∃ x y a, IsGerc (gercF (F := Int) 2 3 (.h ⟨1, 2, 3, 4⟩) 60 2 90 (-1) 0 4) (memOf 0 200 (fun a => a)) 2 3
    (.h ⟨1, 2, 3, 4⟩) 0 4 x y a :=
  ⟨_, _, _, (C58_ger_spec _ 2 3 _ 60 2 90 (-1) 0 4 _ _ _ gerArgs_example (by decide) (by decide) (by decide) (by decide)
    (by decide) (by decide)).2.2 (by rintro ⟨r, h, _⟩; cases h)⟩

/-- A 2 × 3 GEMV with checked indices. -/
example : ∃ op x y, IsGemv (gemvF (F := Int) 'C' 2 3 (.h ⟨1, 2, 3, 4⟩) 0 4 60 2 (.z ⟨5, 6⟩) 90 (-1))
    (memOf 0 200 (fun a => a)) 'C' 2 3 (.h ⟨1, 2, 3, 4⟩) (.z ⟨5, 6⟩) 90 (-1) op x y :=
  ⟨_, _, _, C58_gemv_spec _ 'C' 2 3 _ 0 4 60 2 _ 90 (-1) _ _ _ _ (by decide) (by decide) (by decide) (by decide)
    (by decide) (by decide) (gemvArgs_example _) (.inr (.inr ⟨.inl rfl, fun _ _ => rfl⟩))
    ⟨.inr (.inr (.inl (.inl rfl))), (by rintro ⟨_, h⟩; cases h), by rintro _ (h | h) <;> exact absurd h (by decide)⟩⟩

/-- Largest dot product with INCX = -2: `N*2 + 1 = 2^31 - 1`. -/
example (m : Mem Int) : dotF true 1073741823 0 (-2) 8 1 m = Haxx.dotF true 1073741823 0 (-2) 8 1 m :=
  (C58_level1 m true 'L' 1073741823 (.d 1) 0 (-2) 8 1 (by decide) (by decide) (by decide)).2.2

end Haxx.F32
