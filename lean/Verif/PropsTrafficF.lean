import Verif.PropsTraffic
import Verif.TrafficFort
import Verif.TrafficFort2
import Verif.FHblas1Bits

/-!
# C68 for the Fortran routines and the expansions

The counts are of the array references in the Fortran text; a compiler that keeps an element in a register between two
references makes fewer accesses, never more.
-/

namespace Haxx
open Arith
set_option linter.unusedSectionVars false

variable {F : Type} [Arith F] [ArithEq F]

/-- How often the Fortran SCALV and AXPYV refer to a component of x, per element: each of the four components once for a
real or complex ALPHA, four times for a quaternion. -/
def Scal.refsScal : Scal F → Nat
  | .d _ => 4
  | .z _ => 4
  | .h _ => 16

/-- References to x per element in AXPYV: every component of y is a combination of one (real ALPHA), two (complex) or four
(quaternion) components of x. -/
def Scal.refsAxpy : Scal F → Nat
  | .d _ => 4
  | .z _ => 8
  | .h _ => 16

/-- C68.  Fortran SCALV: nothing for ALPHA = 0; otherwise four writes per element. -/
theorem C68_scalv_fortran (SIDE : Char) (N : Int) (ALPHA : Scal F) (X INCX : Int) (m : Mem F) :
    Moves (.ref (.fscal SIDE N ALPHA X INCX)) m (if ALPHA.vIsZero then 0 else N.toNat * ALPHA.refsScal)
      (if ALPHA.vIsZero then 0 else 4 * N.toNat) := by
  cases ALPHA with
  | d a => exact .of (Thr.cnt_hscald SIDE N a X INCX) rfl (by simp only [Scal.vIsZero, mul_comm 4])
  | z a => exact .of (Thr.cnt_hscalc SIDE N a X INCX) rfl (by rw [mul_comm]; rfl)
  | h a => exact .of (Thr.cnt_hscalh SIDE N a X INCX) rfl (by simp only [Scal.vIsZero, mul_comm 4])

/-- C68.  Fortran AXPYV: nothing for ALPHA = 0; otherwise y is read once and written once. -/
theorem C68_axpyv_fortran (SIDE : Char) (N : Int) (ALPHA : Scal F) (X INCX Y INCY : Int) (m : Mem F) :
    Moves (.ref (.faxpy SIDE N ALPHA X INCX Y INCY)) m (if ALPHA.vIsZero then 0 else N.toNat * (4 + ALPHA.refsAxpy))
      (if ALPHA.vIsZero then 0 else 4 * N.toNat) := by
  cases ALPHA with
  | d a => exact .of (Thr.cnt_haxpydh SIDE N a X INCX Y INCY) rfl (by simp only [Scal.vIsZero, mul_comm 4])
  | z a => exact .of (Thr.cnt_haxpych SIDE N a X INCX Y INCY) rfl (by simp only [Scal.vIsZero, mul_comm 4])
  | h a => exact .of (Thr.cnt_haxpyhh SIDE N a X INCX Y INCY) rfl (by simp only [Scal.vIsZero, mul_comm 4])

/-- C68.  Fortran DOTU, DOTC: the sixteen products of the components of x_i and y_i, nothing written. -/
theorem C68_dot_fortran (conj : Bool) (N X INCX Y INCY : Int) (m : Mem F) :
    Moves (.ref (.fdot conj N X INCX Y INCY)) m (32 * N.toNat) 0 := by
  cases conj
  · exact .of (Thr.cnt_hdotu N X INCX Y INCY) (by ring) (by ring)
  · exact .of (Thr.cnt_hdotc N X INCX Y INCY) (by ring) (by ring)

/-- C68.  Complex expansion, both layouts: 8 doubles written per quaternion — every entry of the result once — and 8 read. -/
theorem C68_expandZ (ORDER : Char) (M N A LDA B LDB : Int) (m : Mem F) :
    Moves (.ref (.expandZ ORDER M N A LDA B LDB)) m (8 * (M.toNat * N.toNat)) (8 * (M.toNat * N.toNat)) :=
  .of (Thr.cnt_HBLAS_COMPLEX_EXPAND ORDER M N A LDA B LDB) (by ring) (by ring)

/-- C68.  Real expansion: 16 doubles per quaternion, every entry of the result once. -/
theorem C68_expandD (M N A LDA B LDB : Int) (m : Mem F) :
    Moves (.ref (.expandD M N A LDA B LDB)) m (16 * (M.toNat * N.toNat)) (16 * (M.toNat * N.toNat)) :=
  .of (Thr.cnt_HBLAS_REAL_EXPAND M N A LDA B LDB) (by ring) (by ring)

/-- C68.  Complex contraction: half of the complex matrix is read, each element of the result written once. -/
theorem C68_contractZ (ORDER UPLO : Char) (M N A LDA B LDB : Int) (m : Mem F) :
    Moves (.ref (.contractZ ORDER UPLO M N A LDA B LDB)) m (4 * (M.toNat * N.toNat)) (4 * (M.toNat * N.toNat)) :=
  .of (Thr.cnt_HBLAS_COMPLEX_CONTRACT ORDER UPLO M N A LDA B LDB) (by ring) (by ring)

/-- C68.  SCALM linked with the Fortran routines, ALPHA ≠ 0. -/
theorem C68_scalm_fortran (SIDE : Char) (M N : Int) (ALPHA : Scal F) (A LDA INCA : Int) (m : Mem F)
    (h : 0 < INCA) (h0 : ALPHA.vIsZero = false) :
    Moves (.ref (.fscalm SIDE M N ALPHA A LDA INCA)) m (ALPHA.refsScal * (M.toNat * N.toNat)) (4 * (M.toNat * N.toNat)) := by
  have hc : ∀ p : Int, Thr.Cnt (Thr.scalF SIDE M ALPHA p INCA) (M.toNat * ALPHA.refsScal) (M.toNat * 4) := by
    intro p
    cases ALPHA with
    | d a => exact (Thr.cnt_hscald SIDE M a p INCA).cast (if_neg (by simpa [Scal.vIsZero] using h0)) (if_neg (by simpa [Scal.vIsZero] using h0))
    | z a => exact (Thr.cnt_hscalc SIDE M a p INCA).cast (if_neg (by simpa [Scal.vIsZero, cabsIsZero] using h0)) (if_neg (by simpa [Scal.vIsZero, cabsIsZero] using h0))
    | h a => exact (Thr.cnt_hscalh SIDE M a p INCA).cast (if_neg (by simpa [Scal.vIsZero] using h0)) (if_neg (by simpa [Scal.vIsZero] using h0))
  exact .of (Thr.cnt_scalm (r := M.toNat * ALPHA.refsScal) (w := M.toNat * 4) SIDE 'N' M N ALPHA A LDA INCA
    (fun _ _ p => hc p) (by
      rintro (h' | h')
      · simp [Int.toNat_of_nonpos h']
      · omega)) (by ring) (by ring)

/-- C68.  AXPYM linked with the Fortran routines (ALPHA not 0 for the test of the template nor for that of the routines). -/
theorem C68_axpym_fortran (SIDE : Char) (M N : Int) (ALPHA : Scal F) (A LDA INCA B LDB INCB : Int) (m : Mem F)
    (h1 : ALPHA.eqZero = false) (h0 : ALPHA.vIsZero = false) :
    Moves (.ref (.faxpym SIDE M N ALPHA A LDA INCA B LDB INCB)) m ((4 + ALPHA.refsAxpy) * (M.toNat * N.toNat)) (4 * (M.toNat * N.toNat)) := by
  have hc : ∀ p q : Int, Thr.Cnt (Thr.axpyF SIDE M ALPHA p INCA q INCB) (M.toNat * (4 + ALPHA.refsAxpy)) (M.toNat * 4) := by
    intro p q
    cases ALPHA with
    | d a => exact (Thr.cnt_haxpydh SIDE M a p INCA q INCB).cast (if_neg (by simpa [Scal.vIsZero] using h0)) (if_neg (by simpa [Scal.vIsZero] using h0))
    | z a => exact (Thr.cnt_haxpych SIDE M a p INCA q INCB).cast (if_neg (by simpa [Scal.vIsZero] using h0)) (if_neg (by simpa [Scal.vIsZero] using h0))
    | h a => exact (Thr.cnt_haxpyhh SIDE M a p INCA q INCB).cast (if_neg (by simpa [Scal.vIsZero] using h0)) (if_neg (by simpa [Scal.vIsZero] using h0))
  exact .of (Thr.cnt_axpym (r := M.toNat * (4 + ALPHA.refsAxpy)) (w := M.toNat * 4) SIDE 'N' M N ALPHA A LDA INCA B LDB INCB h1
    (fun _ p q => hc p q) (by intro h'; simp [Int.toNat_of_nonpos h'])) (by ring) (by ring)

/-- C68.  Fortran GERU, GERC: at most `4 M` writes for each of the N columns. -/
theorem C68_ger_fortran (conj : Bool) (M N : Int) (ALPHA : Scal F) (X INCX Y INCY A LDA : Int) (m : Mem F) :
    AnyCall.reads (.ref (.fger conj M N ALPHA X INCX Y INCY A LDA)) m ≤ N.toNat * (20 * M.toNat + 20) ∧
      AnyCall.writes (.ref (.fger conj M N ALPHA X INCX Y INCY A LDA)) m ≤ N.toNat * (4 * M.toNat) := by
  apply moves_le
  rw [mul_comm 20, mul_comm 4]
  cases conj <;> cases ALPHA
  · exact Thr.le_hgerud ..
  · exact Thr.le_hgeruz ..
  · exact Thr.le_hgeruh ..
  · exact Thr.le_hgercd ..
  · exact Thr.le_hgercz ..
  · exact Thr.le_hgerch ..

/-- C68.  Fortran GEMV, all nine forms and every TRANS: one pass over y for BETA, then one pass over A. -/
theorem C68_gemv_fortran (TRANS : Char) (M N : Int) (ALPHA : Scal F) (A LDA X INCX : Int) (BETA : Scal F) (Y INCY : Int) (m : Mem F) :
    AnyCall.reads (.ref (.fgemv TRANS M N ALPHA A LDA X INCX BETA Y INCY)) m ≤ 8 * max M.toNat N.toNat + N.toNat * (20 * M.toNat + 16) ∧
      AnyCall.writes (.ref (.fgemv TRANS M N ALPHA A LDA X INCX BETA Y INCY)) m ≤ 4 * max M.toNat N.toNat + N.toNat * (4 * M.toNat + 4) := by
  apply moves_le
  rw [mul_comm 20, mul_comm 4 M.toNat, mul_comm 8, mul_comm 4 (max _ _)]
  cases ALPHA <;> cases BETA
  · exact Thr.le_hgemvdd ..
  · exact Thr.le_hgemvdz ..
  · exact Thr.le_hgemvdh ..
  · exact Thr.le_hgemvzd ..
  · exact Thr.le_hgemvzz ..
  · exact Thr.le_hgemvzh ..
  · exact Thr.le_hgemvhd ..
  · exact Thr.le_hgemvhz ..
  · exact Thr.le_hgemvhh ..

/-- C68.  Fortran GEMM, all nine forms, all TRANSA and TRANSB: per column of C one pass for BETA and K passes over a column. -/
theorem C68_gemm_fortran (TRANSA TRANSB : Char) (M N K : Int) (ALPHA : Scal F) (A LDA B LDB : Int) (BETA : Scal F) (C LDC : Int) (m : Mem F) :
    AnyCall.reads (.ref (.fgemm TRANSA TRANSB M N K ALPHA A LDA B LDB BETA C LDC)) m ≤
        N.toNat * (8 * M.toNat + K.toNat * (20 * M.toNat + 16)) ∧
      AnyCall.writes (.ref (.fgemm TRANSA TRANSB M N K ALPHA A LDA B LDB BETA C LDC)) m ≤
        N.toNat * (4 * M.toNat + K.toNat * (4 * M.toNat)) := by
  apply moves_le
  rw [mul_comm 20, mul_comm 4, mul_comm 8]
  cases ALPHA <;> cases BETA
  · exact Thr.le_hgemmdd ..
  · exact Thr.le_hgemmdz ..
  · exact Thr.le_hgemmdh ..
  · exact Thr.le_hgemmzd ..
  · exact Thr.le_hgemmzz ..
  · exact Thr.le_hgemmzh ..
  · exact Thr.le_hgemmhd ..
  · exact Thr.le_hgemmhz ..
  · exact Thr.le_hgemmhh ..

/-! ## Examples -/

/-- A quaternion SCALV of three elements by a non-zero quaternion: 48 references, 12 writes, over the integers. -/
example (m : Mem Int) : Moves (.ref (.fscal 'L' 3 (.h ⟨0, 0, 0, 1⟩) 0 2)) m 48 12 :=
  C68_scalv_fortran 'L' 3 (.h ⟨0, 0, 0, 1⟩) 0 2 m

/-- A real expansion of a 2×3 matrix. -/
example (m : Mem F) : Moves (.ref (.expandD 2 3 0 2 100 8)) m 96 96 := C68_expandD 2 3 0 2 100 8 m

/-- A 2×3 GEMM with K = 4 refers to at most 720 components: 3 × (16 + 4 × 56). -/
example (m : Mem F) (al be : Scal F) : AnyCall.reads (.ref (.fgemm 'N' 'C' 2 3 4 al 0 2 100 3 be 200 2)) m ≤ 720 :=
  (C68_gemm_fortran 'N' 'C' 2 3 4 al 0 2 100 3 be 200 2 m).1

end Haxx
