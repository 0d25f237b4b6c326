import Verif.PropsAgree
import Verif.PropsFBits2
import Verif.PropsFBits3
import Verif.PropsFBits4
import Verif.PropsFuse
import Verif.PropsMat
import Verif.PropsMixRound
import Verif.PropsRound
import Verif.PropsRound2
import Verif.PropsRoundF
import Verif.PropsRoundP
import Verif.PropsRoundS

/-!
# C66: norm-wise rounding bounds for fused code

(Generated by tools/gen_fuse_norm.py.) The bounds of C42, relative to the norms of the operands, for code in which the compiler
has fused any of the products with the additions and subtractions that use them: the unit roundoff `u` becomes `4u`.
-/

set_option linter.unusedSectionVars false
set_option linter.unusedVariables false

namespace Haxx
open Arith Finset Quaternion

variable {F : Type} [Arith F] [ArithEq F] {pol : Ex Unit → Fusing} {u : ℝ}

/-- The real number that the compiled code computes for an expression. -/
noncomputable def sval (S : StdModel F u) (a : Fused F pol) : ℝ := S.val a.dbl
/-- Every double the compiled code computes for the expression, and every product, stands for a real number. -/
def SOk (S : StdModel F u) (pol : Ex Unit → Fusing) (a : Fused F pol) : Prop := Ex.okE S (fun _ _ => True) pol a
/-- The comparisons of a scalar with 0 and 1 tell the truth. -/
def STruth (S : StdModel F u) (s : Scal (Fused F pol)) : Prop :=
  (s.eqZero = true → (s.map (sval S)).toH = 0) ∧ (s.eqOne = true → (s.map (sval S)).toH = 1)

/-- C66: Fortran GERU (`conjY = false`) and GERC, if `==` is true only of machine numbers of the same value: `‖computed -
exact‖ ≤ 2((1+u)⁸-1) (‖A_ij‖ + 2 ‖ALPHA‖ ‖x_i‖ ‖y_j‖)`. With `4u` in place of `u`. -/
theorem C66_norm_ger_fortran (S : StdModel F u) (hu : u ≤ 1 / 16) (pol : Ex Unit → Fusing) (conjY : Bool)
    (m : Mem (Fused F pol)) (M N : Int) (ALPHA : Scal (Fused F pol)) (X INCX Y INCY A LDA : Int)
    (x y : Nat → Quat (Fused F pol)) (a : Nat → Nat → Quat (Fused F pol))
    (he : ∀ a b : F, ArithEq.feq a b = true → S.val a = S.val b) (h : GerArgs m M N X INCX Y INCY A LDA x y a)
    (hd : ∀ r, ALPHA = .d r → INCX = 1) :
    ∃ m' v, gerF conjY M N ALPHA X INCX Y INCY A LDA m = .ok ((), m') ∧
      MatAt m' A LDA M.toNat N.toNat v ∧
      ∀ i j, i < M.toNat → j < N.toNat → (v i j).All (SOk S pol) →
        ‖((v i j).map (sval S)).toH - (((a i j).map (sval S)).toH + (ALPHA.map (sval S)).toH * ((x i).map (sval S)).toH *
            (if conjY then star ((y j).map (sval S)).toH else ((y j).map (sval S)).toH))‖ ≤
          2 * (((1 + 4 * u) ^ 8 - 1) * (‖((a i j).map (sval S)).toH‖ +
              2 * ‖(ALPHA.map (sval S)).toH‖ * ‖((x i).map (sval S)).toH‖ * ‖((y j).map (sval S)).toH‖)) :=
  C42_ger_fortran (fusedStd S hu (fun _ _ => True) pol) conjY m M N ALPHA X INCX Y INCY A LDA x y a (fun a b k => he _ _ k) h hd

/-- C66: Fortran GEMV (every pair of scalar types; partial: calls outside its known defects), if 1 is exact and `==` is true
only of machine numbers of the same value: every element of the result satisfies `‖computed - exact‖ ≤ 2((1+u)^(4K+7)-1)
(‖BETA‖ ‖y_i‖ + 2 ‖ALPHA‖ Σ_k ‖op(A)_ik‖ ‖x_k‖)`. With `4u` in place of `u`. -/
theorem C66_norm_gemv_fortran_partial (S : StdModel F u) (hu : u ≤ 1 / 16) (pol : Ex Unit → Fusing) (m : Mem (Fused F pol))
    (t : Char) (M N : Int) (ALPHA : Scal (Fused F pol)) (A LDA X INCX : Int) (BETA : Scal (Fused F pol)) (Y INCY : Int)
    (a : Nat → Nat → Quat (Fused F pol)) (x y : Nat → Quat (Fused F pol)) (op : Nat → Nat → ℍ[ℝ])
    (hop : OpIs t (fun i k => (a i k).map (sval S)) op) (h1 : S.val Arith.one = 1)
    (he : ∀ a b : F, ArithEq.feq a b = true → S.val a = S.val b) (hM : M ≠ 0) (hN : N ≠ 0)
    (h : FGemvArgs m t M N ALPHA A LDA X INCX Y INCY a x y) (hg : FGemvGood t M N ALPHA BETA INCX INCY) :
    ∃ m' v, gemvF t M N ALPHA A LDA X INCX BETA Y INCY m = .ok ((), m') ∧
      VecAt m' (vecStart Y (gemvLenY t M N) INCY) INCY (gemvLenY t M N).toNat v ∧
      ∀ i, i < (gemvLenY t M N).toNat → (v i).All (SOk S pol) →
        ‖((v i).map (sval S)).toH - ((ALPHA.map (sval S)).toH *
            ∑ k ∈ range (gemvLenX t M N).toNat, op i k * ((x k).map (sval S)).toH +
            (BETA.map (sval S)).toH * ((y i).map (sval S)).toH)‖ ≤
          2 * (((1 + 4 * u) ^ (4 * (gemvLenX t M N).toNat + 7) - 1) *
            (‖(BETA.map (sval S)).toH‖ * ‖((y i).map (sval S)).toH‖ +
              2 * ‖(ALPHA.map (sval S)).toH‖ * ∑ k ∈ range (gemvLenX t M N).toNat, ‖op i k‖ * ‖((x k).map (sval S)).toH‖)) :=
  C42_gemv_fortran_partial (fusedStd S hu (fun _ _ => True) pol) m t M N ALPHA A LDA X INCX BETA Y INCY a x y op hop h1 (fun a
      b k => he _ _ k) hM hN h hg

/-- C66: Fortran SCALV, ALPHA not comparing equal to zero: `‖computed - exact‖ ≤ 2((1+u)⁴-1) ‖ALPHA‖ ‖x_i‖`. With `4u` in place
of `u`. -/
theorem C66_norm_scalv_fortran (S : StdModel F u) (hu : u ≤ 1 / 16) (pol : Ex Unit → Fusing) (m : Mem (Fused F pol))
    (SIDE : Char) (N X INCX : Int) (ALPHA : Scal (Fused F pol)) (x : Nat → Quat (Fused F pol))
    (hX : VecAt m (fbase X N INCX) INCX N.toNat x) (hinc : INCX ≠ 0) (hz : ALPHA.vIsZero = false) :
    ∃ m' v, scalvF SIDE N ALPHA X INCX m = .ok ((), m') ∧ VecAt m' (fbase X N INCX) INCX N.toNat v ∧
      ∀ i, i < N.toNat → (v i).All (SOk S pol) →
        ‖((v i).map (sval S)).toH -
          (if SIDE = 'R' ∨ SIDE = 'r' then ((x i).map (sval S)).toH * (ALPHA.map (sval S)).toH
           else (ALPHA.map (sval S)).toH * ((x i).map (sval S)).toH)‖ ≤
          2 * (((1 + 4 * u) ^ 4 - 1) * (‖(ALPHA.map (sval S)).toH‖ * ‖((x i).map (sval S)).toH‖)) :=
  C42_scalv_fortran (fusedStd S hu (fun _ _ => True) pol) m SIDE N X INCX ALPHA x hX hinc hz

/-- C66: Fortran AXPYV, if `==` is true only of machine numbers of the same value: `‖computed - exact‖ ≤ 2((1+u)⁵-1) (‖y_i‖ +
‖ALPHA‖ ‖x_i‖)`. With `4u` in place of `u`. -/
theorem C66_norm_axpyv_fortran (S : StdModel F u) (hu : u ≤ 1 / 16) (pol : Ex Unit → Fusing) (m : Mem (Fused F pol))
    (SIDE : Char) (N X INCX Y INCY : Int) (ALPHA : Scal (Fused F pol)) (x y : Nat → Quat (Fused F pol))
    (hX : VecAt m (fbase X N INCX) INCX N.toNat x) (hY : VecAt m (fbase Y N INCY) INCY N.toNat y) (hinc : INCY ≠ 0)
    (hdis : Apart (VecCell (fbase X N INCX) INCX N.toNat) (VecCell (fbase Y N INCY) INCY N.toNat))
    (heq : ∀ a b : F, (a ==ᶠ b) = true → S.val a = S.val b) :
    ∃ m' v, axpyvF SIDE N ALPHA X INCX Y INCY m = .ok ((), m') ∧ VecAt m' (fbase Y N INCY) INCY N.toNat v ∧
      ∀ i, i < N.toNat → (v i).All (SOk S pol) →
        ‖((v i).map (sval S)).toH - (((y i).map (sval S)).toH +
          (if SIDE = 'R' ∨ SIDE = 'r' then ((x i).map (sval S)).toH * (ALPHA.map (sval S)).toH
           else (ALPHA.map (sval S)).toH * ((x i).map (sval S)).toH))‖ ≤
          2 * (((1 + 4 * u) ^ 5 - 1) * (‖((y i).map (sval S)).toH‖ +
            ‖(ALPHA.map (sval S)).toH‖ * ‖((x i).map (sval S)).toH‖)) :=
  C42_axpyv_fortran (fusedStd S hu (fun _ _ => True) pol) m SIDE N X INCX Y INCY ALPHA x y hX hY hinc hdis (fun a b k => heq _
      _ k)

/-- C66: Fortran DOTU and DOTC: `‖computed - exact‖ ≤ 2((1+u)^(4N+1)-1) Σ ‖x_i‖ ‖y_i‖`. With `4u` in place of `u`. -/
theorem C66_norm_dot_fortran (S : StdModel F u) (hu : u ≤ 1 / 16) (pol : Ex Unit → Fusing) (m : Mem (Fused F pol))
    (N X INCX Y INCY : Int) (x y : Nat → Quat (Fused F pol)) (hX : VecAt m (fbase X N INCX) INCX N.toNat x)
    (hY : VecAt m (fbase Y N INCY) INCY N.toNat y) :
    ∃ ru rc, dotF false N X INCX Y INCY m = .ok (ru, m) ∧ dotF true N X INCX Y INCY m = .ok (rc, m) ∧
      (ru.All (SOk S pol) →
        ‖(ru.map (sval S)).toH - ∑ i ∈ range N.toNat, ((x i).map (sval S)).toH * ((y i).map (sval S)).toH‖ ≤
          2 * (((1 + 4 * u) ^ (4 * N.toNat + 1) - 1) *
            ∑ i ∈ range N.toNat, ‖((x i).map (sval S)).toH‖ * ‖((y i).map (sval S)).toH‖)) ∧
      (rc.All (SOk S pol) →
        ‖(rc.map (sval S)).toH - ∑ i ∈ range N.toNat, star ((x i).map (sval S)).toH * ((y i).map (sval S)).toH‖ ≤
          2 * (((1 + 4 * u) ^ (4 * N.toNat + 1) - 1) *
            ∑ i ∈ range N.toNat, ‖((x i).map (sval S)).toH‖ * ‖((y i).map (sval S)).toH‖)) :=
  C42_dot_fortran (fusedStd S hu (fun _ _ => True) pol) m N X INCX Y INCY x y hX hY

/-- C66: SCALM on the SIMD SCALV: `‖computed - exact‖ ≤ 2((1+u)³-1) ‖ALPHA‖ ‖A_ij‖` for every entry. With `4u` in place of `u`.
-/
theorem C66_norm_scalm (S : StdModel F u) (hu : u ≤ 1 / 16) (pol : Ex Unit → Fusing) (m : Mem (Fused F pol)) (SIDE : Char)
    (M N : Int) (ALPHA : Scal (Fused F pol)) (A LDA INCA : Int) (Av : Nat → Nat → Quat (Fused F pol))
    (hA : SMatAt m A INCA LDA M.toNat N.toNat Av) (hinc : 0 < INCA) (hfit : ((M.toNat:Int) - 1) * INCA + 1 ≤ LDA) :
    ∃ m' V, scalm scalvAVX SIDE 'N' M N ALPHA A LDA INCA m = .ok ((), m') ∧
      SMatAt m' A INCA LDA M.toNat N.toNat V ∧
      ∀ i j, i < M.toNat → j < N.toNat → (V i j).All (SOk S pol) →
        ‖((V i j).map (sval S)).toH -
          (if SIDE = 'L' then (ALPHA.map (sval S)).toH * ((Av i j).map (sval S)).toH
           else ((Av i j).map (sval S)).toH * (ALPHA.map (sval S)).toH)‖ ≤
          2 * (((1 + 4 * u) ^ 3 - 1) * (‖(ALPHA.map (sval S)).toH‖ * ‖((Av i j).map (sval S)).toH‖)) :=
  C42_scalm (fusedStd S hu (fun _ _ => True) pol) m SIDE M N ALPHA A LDA INCA Av hA hinc hfit

/-- C66: SCALM on the portable SCALV: `‖computed - exact‖ ≤ 2((1+u)⁴-1) ‖ALPHA‖ ‖A_ij‖`. With `4u` in place of `u`. -/
theorem C66_norm_scalm_portable (S : StdModel F u) (hu : u ≤ 1 / 16) (pol : Ex Unit → Fusing) (m : Mem (Fused F pol))
    (SIDE : Char) (M N : Int) (ALPHA : Scal (Fused F pol)) (A LDA INCA : Int) (Av : Nat → Nat → Quat (Fused F pol))
    (hA : SMatAt m A INCA LDA M.toNat N.toNat Av) (hinc : 0 < INCA) (hfit : ((M.toNat:Int) - 1) * INCA + 1 ≤ LDA)
    (f32 : Fits32 (M * INCA)) :
    ∃ m' V, scalm scalvGen SIDE 'N' M N ALPHA A LDA INCA m = .ok ((), m') ∧
      SMatAt m' A INCA LDA M.toNat N.toNat V ∧
      ∀ i j, i < M.toNat → j < N.toNat → (V i j).All (SOk S pol) →
        ‖((V i j).map (sval S)).toH -
          (if SIDE = 'R' then ((Av i j).map (sval S)).toH * (ALPHA.map (sval S)).toH
           else (ALPHA.map (sval S)).toH * ((Av i j).map (sval S)).toH)‖ ≤
          2 * (((1 + 4 * u) ^ 4 - 1) * (‖(ALPHA.map (sval S)).toH‖ * ‖((Av i j).map (sval S)).toH‖)) :=
  C42_scalm_portable (fusedStd S hu (fun _ _ => True) pol) m SIDE M N ALPHA A LDA INCA Av hA hinc hfit f32

/-- C66: SCALM on the Fortran SCALV, ALPHA not comparing equal to zero. With `4u` in place of `u`. -/
theorem C66_norm_scalm_fortran (S : StdModel F u) (hu : u ≤ 1 / 16) (pol : Ex Unit → Fusing) (m : Mem (Fused F pol))
    (SIDE : Char) (M N : Int) (ALPHA : Scal (Fused F pol)) (A LDA INCA : Int) (Av : Nat → Nat → Quat (Fused F pol))
    (hA : SMatAt m A INCA LDA M.toNat N.toNat Av) (hinc : 0 < INCA) (hfit : ((M.toNat:Int) - 1) * INCA + 1 ≤ LDA)
    (hz : ALPHA.vIsZero = false) :
    ∃ m' V, scalm scalvF SIDE 'N' M N ALPHA A LDA INCA m = .ok ((), m') ∧
      SMatAt m' A INCA LDA M.toNat N.toNat V ∧
      ∀ i j, i < M.toNat → j < N.toNat → (V i j).All (SOk S pol) →
        ‖((V i j).map (sval S)).toH -
          (if SIDE = 'R' ∨ SIDE = 'r' then ((Av i j).map (sval S)).toH * (ALPHA.map (sval S)).toH
           else (ALPHA.map (sval S)).toH * ((Av i j).map (sval S)).toH)‖ ≤
          2 * (((1 + 4 * u) ^ 4 - 1) * (‖(ALPHA.map (sval S)).toH‖ * ‖((Av i j).map (sval S)).toH‖)) :=
  C42_scalm_fortran (fusedStd S hu (fun _ _ => True) pol) m SIDE M N ALPHA A LDA INCA Av hA hinc hfit hz

/-- C66: AXPYM on the SIMD AXPYV, if ALPHA compares equal to zero only when it is: `‖computed - exact‖ ≤ 2((1+u)⁴-1) (‖B_ij‖ +
‖ALPHA‖ ‖A_ij‖)` for every entry. With `4u` in place of `u`. -/
theorem C66_norm_axpym (S : StdModel F u) (hu : u ≤ 1 / 16) (pol : Ex Unit → Fusing) (m : Mem (Fused F pol)) (SIDE : Char)
    (M N : Int) (ALPHA : Scal (Fused F pol)) (A LDA INCA B LDB INCB : Int) (Av Bv : Nat → Nat → Quat (Fused F pol))
    (hA : SMatAt m A INCA LDA M.toNat N.toNat Av) (hB : SMatAt m B INCB LDB M.toNat N.toNat Bv) (hinc : 0 < INCB)
    (hfit : ((M.toNat:Int) - 1) * INCB + 1 ≤ LDB)
    (hdis : Apart (SMatCell A INCA LDA M.toNat N.toNat) (SMatCell B INCB LDB M.toNat N.toNat))
    (h0 : ALPHA.eqZero = true → (ALPHA.map (sval S)).toH = 0) :
    ∃ m' V, axpym axpyvAVX SIDE 'N' M N ALPHA A LDA INCA B LDB INCB m = .ok ((), m') ∧
      SMatAt m' B INCB LDB M.toNat N.toNat V ∧
      ∀ i j, i < M.toNat → j < N.toNat → (V i j).All (SOk S pol) →
        ‖((V i j).map (sval S)).toH - (((Bv i j).map (sval S)).toH +
          (if SIDE = 'L' then (ALPHA.map (sval S)).toH * ((Av i j).map (sval S)).toH
           else ((Av i j).map (sval S)).toH * (ALPHA.map (sval S)).toH))‖ ≤
          2 * (((1 + 4 * u) ^ 4 - 1) * (‖((Bv i j).map (sval S)).toH‖ +
            ‖(ALPHA.map (sval S)).toH‖ * ‖((Av i j).map (sval S)).toH‖)) :=
  C42_axpym (fusedStd S hu (fun _ _ => True) pol) m SIDE M N ALPHA A LDA INCA B LDB INCB Av Bv hA hB hinc hfit hdis h0

/-- C66: AXPYM on the portable AXPYV. With `4u` in place of `u`. -/
theorem C66_norm_axpym_portable (S : StdModel F u) (hu : u ≤ 1 / 16) (pol : Ex Unit → Fusing) (m : Mem (Fused F pol))
    (SIDE : Char) (M N : Int) (ALPHA : Scal (Fused F pol)) (A LDA INCA B LDB INCB : Int)
    (Av Bv : Nat → Nat → Quat (Fused F pol)) (hA : SMatAt m A INCA LDA M.toNat N.toNat Av)
    (hB : SMatAt m B INCB LDB M.toNat N.toNat Bv) (hia : 0 < INCA) (hinc : 0 < INCB)
    (hfit : ((M.toNat:Int) - 1) * INCB + 1 ≤ LDB)
    (hdis : Apart (SMatCell A INCA LDA M.toNat N.toNat) (SMatCell B INCB LDB M.toNat N.toNat)) (fa : Fits32 (M * INCA))
    (fb : Fits32 (M * INCB)) (h0 : ALPHA.eqZero = true → (ALPHA.map (sval S)).toH = 0) :
    ∃ m' V, axpym axpyvGen SIDE 'N' M N ALPHA A LDA INCA B LDB INCB m = .ok ((), m') ∧
      SMatAt m' B INCB LDB M.toNat N.toNat V ∧
      ∀ i j, i < M.toNat → j < N.toNat → (V i j).All (SOk S pol) →
        ‖((V i j).map (sval S)).toH - (((Bv i j).map (sval S)).toH +
          (if SIDE = 'R' then ((Av i j).map (sval S)).toH * (ALPHA.map (sval S)).toH
           else (ALPHA.map (sval S)).toH * ((Av i j).map (sval S)).toH))‖ ≤
          2 * (((1 + 4 * u) ^ 5 - 1) * (‖((Bv i j).map (sval S)).toH‖ +
            ‖(ALPHA.map (sval S)).toH‖ * ‖((Av i j).map (sval S)).toH‖)) :=
  C42_axpym_portable (fusedStd S hu (fun _ _ => True) pol) m SIDE M N ALPHA A LDA INCA B LDB INCB Av Bv hA hB hia hinc hfit
      hdis fa fb h0

/-- C66: AXPYM on the Fortran AXPYV. With `4u` in place of `u`. -/
theorem C66_norm_axpym_fortran (S : StdModel F u) (hu : u ≤ 1 / 16) (pol : Ex Unit → Fusing) (m : Mem (Fused F pol))
    (SIDE : Char) (M N : Int) (ALPHA : Scal (Fused F pol)) (A LDA INCA B LDB INCB : Int)
    (Av Bv : Nat → Nat → Quat (Fused F pol)) (hA : SMatAt m A INCA LDA M.toNat N.toNat Av)
    (hB : SMatAt m B INCB LDB M.toNat N.toNat Bv) (hia : 0 < INCA) (hinc : 0 < INCB)
    (hfit : ((M.toNat:Int) - 1) * INCB + 1 ≤ LDB)
    (hdis : Apart (SMatCell A INCA LDA M.toNat N.toNat) (SMatCell B INCB LDB M.toNat N.toNat))
    (heq : ∀ a b : F, (a ==ᶠ b) = true → S.val a = S.val b) (h0 : ALPHA.eqZero = true → (ALPHA.map (sval S)).toH = 0) :
    ∃ m' V, axpym axpyvF SIDE 'N' M N ALPHA A LDA INCA B LDB INCB m = .ok ((), m') ∧
      SMatAt m' B INCB LDB M.toNat N.toNat V ∧
      ∀ i j, i < M.toNat → j < N.toNat → (V i j).All (SOk S pol) →
        ‖((V i j).map (sval S)).toH - (((Bv i j).map (sval S)).toH +
          (if SIDE = 'R' ∨ SIDE = 'r' then ((Av i j).map (sval S)).toH * (ALPHA.map (sval S)).toH
           else (ALPHA.map (sval S)).toH * ((Av i j).map (sval S)).toH))‖ ≤
          2 * (((1 + 4 * u) ^ 5 - 1) * (‖((Bv i j).map (sval S)).toH‖ +
            ‖(ALPHA.map (sval S)).toH‖ * ‖((Av i j).map (sval S)).toH‖)) :=
  C42_axpym_fortran (fusedStd S hu (fun _ _ => True) pol) m SIDE M N ALPHA A LDA INCA B LDB INCB Av Bv hA hB hia hinc hfit hdis
      (fun a b k => heq _ _ k) h0

/-- C66: portable AXPYV with X and ALPHA of any type: `‖computed - exact‖ ≤ 2((1+u)⁵-1) (‖y_i‖ + ‖ALPHA‖ ‖x_i‖)`. With `4u` in
place of `u`. -/
theorem C66_norm_axpyv_mixed (S : StdModel F u) (hu : u ≤ 1 / 16) (pol : Ex Unit → Fusing) (m : Mem (Fused F pol)) (kX : Kind)
    (SIDE : Char) (N X INCX Y INCY : Int) (ALPHA : Scal (Fused F pol)) (x : Nat → Scal (Fused F pol))
    (y : Nat → Quat (Fused F pol)) (hX : KVecAt m kX X INCX N.toNat x) (hY : VecAt m Y INCY N.toNat y) (hix : 0 < INCX)
    (hiy : 0 < INCY) (fx : Fits32 (N * INCX)) (fy : Fits32 (N * INCY))
    (hdis : Apart (KVecCell kX X INCX N.toNat) (VecCell Y INCY N.toNat))
    (hA : ALPHA.eqZero = true → (ALPHA.map (sval S)).toH = 0) :
    ∃ m' v, axpyvGenK kX SIDE N ALPHA X INCX Y INCY m = .ok ((), m') ∧ VecAt m' Y INCY N.toNat v ∧
      ∀ i, i < N.toNat → (v i).All (SOk S pol) →
        ‖((v i).map (sval S)).toH - (((y i).map (sval S)).toH +
          (if SIDE = 'R' then ((x i).map (sval S)).toH * (ALPHA.map (sval S)).toH
           else (ALPHA.map (sval S)).toH * ((x i).map (sval S)).toH))‖ ≤
          2 * (((1 + 4 * u) ^ 5 - 1) * (‖((y i).map (sval S)).toH‖ +
            ‖(ALPHA.map (sval S)).toH‖ * ‖((x i).map (sval S)).toH‖)) :=
  C42_axpyv_mixed (fusedStd S hu (fun _ _ => True) pol) m kX SIDE N X INCX Y INCY ALPHA x y hX hY hix hiy fx fy hdis hA

/-- C66: portable GEMM with A, B, ALPHA and BETA of any type: every entry of the result satisfies `‖computed - exact‖ ≤
2((1+u)^(K+9)-1) (‖BETA‖ ‖C_ij‖ + 2 ‖ALPHA‖ Σ_k ‖op(A)_ik‖ ‖op(B)_kj‖)`. With `4u` in place of `u`. -/
theorem C66_norm_gemm_mixed (S : StdModel F u) (hu : u ≤ 1 / 16) (pol : Ex Unit → Fusing) (m : Mem (Fused F pol)) (k kB : Kind)
    (tA tB : Char) (M N K : Int) (ALPHA BETA : Scal (Fused F pol)) (A LDA Bp LDB C LDC : Int)
    (Av Bv : Nat → Nat → Scal (Fused F pol)) (Cv : Nat → Nat → Quat (Fused F pol)) (opA opB : Nat → Nat → ℍ[ℝ])
    (hA : KOpIs tA (fun i k => (Av i k).map (sval S)) opA) (hB : KOpIs tB (fun i k => (Bv i k).map (sval S)) opB)
    (ha : STruth S ALPHA) (hb : STruth S BETA) (h : GemmMArgs m k kB tA tB M N K ALPHA A LDA Bp LDB C LDC Av Bv Cv) :
    ∃ m' V, gemmGenK k kB tA tB M N K ALPHA A LDA Bp LDB BETA C LDC m = .ok ((), m') ∧
      MatAt m' C LDC M.toNat N.toNat V ∧
      ∀ i j, i < M.toNat → j < N.toNat → (V i j).All (SOk S pol) →
        ‖((V i j).map (sval S)).toH - ((ALPHA.map (sval S)).toH * ∑ k ∈ range K.toNat, opA i k * opB k j +
            (BETA.map (sval S)).toH * ((Cv i j).map (sval S)).toH)‖ ≤
          2 * (((1 + 4 * u) ^ (K.toNat + 9) - 1) *
            (‖(BETA.map (sval S)).toH‖ * ‖((Cv i j).map (sval S)).toH‖ +
              2 * ‖(ALPHA.map (sval S)).toH‖ * ∑ k ∈ range K.toNat, ‖opA i k‖ * ‖opB k j‖)) :=
  C42_gemm_mixed (fusedStd S hu (fun _ _ => True) pol) m k kB tA tB M N K ALPHA BETA A LDA Bp LDB C LDC Av Bv Cv opA opB hA hB
      ⟨ha.1, ha.2⟩ ⟨hb.1, hb.2⟩ h

/-- C66: portable GEMV with A, x, ALPHA and BETA of any type: with K the length of x, every element of the result satisfies
`‖computed - exact‖ ≤ 2((1+u)^(2K+9)-1) (‖BETA‖ ‖y_i‖ + 6 ‖ALPHA‖ Σ_k ‖op(A)_ik‖ ‖x_k‖)`. With `4u` in place of `u`. -/
theorem C66_norm_gemv_mixed (S : StdModel F u) (hu : u ≤ 1 / 16) (pol : Ex Unit → Fusing) (m : Mem (Fused F pol)) (k kX : Kind)
    (t : Char) (M N : Int) (ALPHA : Scal (Fused F pol)) (A LDA X INCX : Int) (BETA : Scal (Fused F pol)) (Y INCY : Int)
    (a : Nat → Nat → Scal (Fused F pol)) (x : Nat → Scal (Fused F pol)) (y : Nat → Quat (Fused F pol)) (op : Nat → Nat → ℍ[ℝ])
    (hop : KOpIs t (fun i k => (a i k).map (sval S)) op) (ha : STruth S ALPHA) (hb : STruth S BETA) (hM : M ≠ 0) (hN : N ≠ 0)
    (h : GemvMArgs m k kX t M N ALPHA A LDA X INCX Y INCY a x y) :
    ∃ m' v, gemvGenK k kX t M N ALPHA A LDA X INCX BETA Y INCY m = .ok ((), m') ∧
      VecAt m' Y INCY (if t = 'N' then M else N).toNat v ∧
      ∀ i, i < (if t = 'N' then M else N).toNat → (v i).All (SOk S pol) →
        ‖((v i).map (sval S)).toH - ((ALPHA.map (sval S)).toH *
            ∑ k ∈ range (if t = 'N' then N else M).toNat, op i k * ((x k).map (sval S)).toH +
            (BETA.map (sval S)).toH * ((y i).map (sval S)).toH)‖ ≤
          2 * (((1 + 4 * u) ^ (2 * (if t = 'N' then N else M).toNat + 9) - 1) *
            (‖(BETA.map (sval S)).toH‖ * ‖((y i).map (sval S)).toH‖ +
              6 * ‖(ALPHA.map (sval S)).toH‖ * ∑ k ∈ range (if t = 'N' then N else M).toNat, ‖op i k‖ * ‖((x k).map (sval
                  S)).toH‖)) :=
  C42_gemv_mixed (fusedStd S hu (fun _ _ => True) pol) m k kX t M N ALPHA A LDA X INCX BETA Y INCY a x y op hop ⟨ha.1, ha.2⟩
      ⟨hb.1, hb.2⟩ hM hN h

/-- C66: portable GERU (`conjY = false`) and GERC with x, y and ALPHA of any type: every entry of the result satisfies
`‖computed - exact‖ ≤ 2((1+u)⁹-1) (‖A_ij‖ + 2 ‖ALPHA‖ ‖x_i‖ ‖y_j‖)`, for the y_j whose comparison with 0 tells the truth (all
but a quaternion `ck`, see `C63_pure_k_violated`). With `4u` in place of `u`. -/
theorem C66_norm_ger_mixed (S : StdModel F u) (hu : u ≤ 1 / 16) (pol : Ex Unit → Fusing) (kX kY : Kind) (conjY : Bool)
    (m : Mem (Fused F pol)) (M N : Int) (ALPHA : Scal (Fused F pol)) (X INCX Y INCY A LDA : Int)
    (x y : Nat → Scal (Fused F pol)) (a : Nat → Nat → Quat (Fused F pol)) (ha : STruth S ALPHA)
    (h : GerMArgs m kX kY M N X INCX Y INCY A LDA x y a) :
    ∃ m' v, gerGenK kX kY conjY M N ALPHA X INCX Y INCY A LDA m = .ok ((), m') ∧
      MatAt m' A LDA M.toNat N.toNat v ∧
      ∀ i j, i < M.toNat → j < N.toNat → (v i j).All (SOk S pol) →
        ((y j).eqZero = true → ((y j).map (sval S)).toH = 0) →
        ‖((v i j).map (sval S)).toH - (((a i j).map (sval S)).toH + (ALPHA.map (sval S)).toH * ((x i).map (sval S)).toH *
            (if conjY then star ((y j).map (sval S)).toH else ((y j).map (sval S)).toH))‖ ≤
          2 * (((1 + 4 * u) ^ 9 - 1) * (‖((a i j).map (sval S)).toH‖ +
              2 * ‖(ALPHA.map (sval S)).toH‖ * ‖((x i).map (sval S)).toH‖ * ‖((y j).map (sval S)).toH‖)) :=
  C42_ger_mixed (fusedStd S hu (fun _ _ => True) pol) kX kY conjY m M N ALPHA X INCX Y INCY A LDA x y a ⟨ha.1, ha.2⟩ h

/-- C66: SCALV: `‖computed - exact‖ ≤ 2((1+u)³-1) ‖ALPHA‖ ‖x_i‖` for every element. With `4u` in place of `u`. -/
theorem C66_norm_scalv (S : StdModel F u) (hu : u ≤ 1 / 16) (pol : Ex Unit → Fusing) (m : Mem (Fused F pol)) (SIDE : Char)
    (N X INCX : Int) (ALPHA : Scal (Fused F pol)) (x : Nat → Quat (Fused F pol)) (hX : VecAt m X INCX N.toNat x)
    (hinc : INCX ≠ 0) :
    ∃ m' v, scalvAVX SIDE N ALPHA X INCX m = .ok ((), m') ∧ VecAt m' X INCX N.toNat v ∧
      ∀ i, i < N.toNat → (v i).All (SOk S pol) →
        ‖((v i).map (sval S)).toH -
          (if SIDE = 'L' then (ALPHA.map (sval S)).toH * ((x i).map (sval S)).toH
           else ((x i).map (sval S)).toH * (ALPHA.map (sval S)).toH)‖ ≤
          2 * (((1 + 4 * u) ^ 3 - 1) * (‖(ALPHA.map (sval S)).toH‖ * ‖((x i).map (sval S)).toH‖)) :=
  C42_scalv (fusedStd S hu (fun _ _ => True) pol) m SIDE N X INCX ALPHA x hX hinc

/-- C66: AXPYV: `‖computed - exact‖ ≤ 2((1+u)⁴-1) (‖y_i‖ + ‖ALPHA‖ ‖x_i‖)` for every element. With `4u` in place of `u`. -/
theorem C66_norm_axpyv (S : StdModel F u) (hu : u ≤ 1 / 16) (pol : Ex Unit → Fusing) (m : Mem (Fused F pol)) (SIDE : Char)
    (N X INCX Y INCY : Int) (ALPHA : Scal (Fused F pol)) (x y : Nat → Quat (Fused F pol)) (hX : VecAt m X INCX N.toNat x)
    (hY : VecAt m Y INCY N.toNat y) (hinc : INCY ≠ 0) (hdis : Apart (VecCell X INCX N.toNat) (VecCell Y INCY N.toNat)) :
    ∃ m' v, axpyvAVX SIDE N ALPHA X INCX Y INCY m = .ok ((), m') ∧ VecAt m' Y INCY N.toNat v ∧
      ∀ i, i < N.toNat → (v i).All (SOk S pol) →
        ‖((v i).map (sval S)).toH - (((y i).map (sval S)).toH +
          (if SIDE = 'L' then (ALPHA.map (sval S)).toH * ((x i).map (sval S)).toH
           else ((x i).map (sval S)).toH * (ALPHA.map (sval S)).toH))‖ ≤
          2 * (((1 + 4 * u) ^ 4 - 1) * (‖((y i).map (sval S)).toH‖ +
            ‖(ALPHA.map (sval S)).toH‖ * ‖((x i).map (sval S)).toH‖)) :=
  C42_axpyv (fusedStd S hu (fun _ _ => True) pol) m SIDE N X INCX Y INCY ALPHA x y hX hY hinc hdis

/-- C66: DOTU and DOTC: `‖computed - exact‖ ≤ 2((1+u)^(N+4)-1) Σ ‖x_i‖ ‖y_i‖`. With `4u` in place of `u`. -/
theorem C66_norm_dot (S : StdModel F u) (hu : u ≤ 1 / 16) (pol : Ex Unit → Fusing) (m : Mem (Fused F pol))
    (N X INCX Y INCY : Int) (x y : Nat → Quat (Fused F pol)) (hX : VecAt m X INCX N.toNat x) (hY : VecAt m Y INCY N.toNat y)
    (hx32 : Fits32 (4 * INCX)) (hy32 : Fits32 (4 * INCY)) :
    ∃ ru rc, dotAVX false N X INCX Y INCY m = .ok (ru, m) ∧ dotAVX true N X INCX Y INCY m = .ok (rc, m) ∧
      (ru.All (SOk S pol) →
        ‖(ru.map (sval S)).toH - ∑ i ∈ range N.toNat, ((x i).map (sval S)).toH * ((y i).map (sval S)).toH‖ ≤
          2 * (((1 + 4 * u) ^ (N.toNat + 4) - 1) *
            ∑ i ∈ range N.toNat, ‖((x i).map (sval S)).toH‖ * ‖((y i).map (sval S)).toH‖)) ∧
      (rc.All (SOk S pol) →
        ‖(rc.map (sval S)).toH - ∑ i ∈ range N.toNat, star ((x i).map (sval S)).toH * ((y i).map (sval S)).toH‖ ≤
          2 * (((1 + 4 * u) ^ (N.toNat + 4) - 1) *
            ∑ i ∈ range N.toNat, ‖((x i).map (sval S)).toH‖ * ‖((y i).map (sval S)).toH‖)) :=
  C42_dot (fusedStd S hu (fun _ _ => True) pol) m N X INCX Y INCY x y hX hY hx32 hy32

/-- C66: GEMM: every entry of the result satisfies `‖computed - exact‖ ≤ 2((1+u)^(4K+4)-1) (‖BETA‖ ‖C_ij‖ + 2 ‖ALPHA‖ Σ_k
‖op(A)_ik‖ ‖op(B)_kj‖)`. With `4u` in place of `u`. -/
theorem C66_norm_gemm (S : StdModel F u) (hu : u ≤ 1 / 16) (pol : Ex Unit → Fusing) (m : Mem (Fused F pol)) (blk : Blk)
    (bAddr aAddr : Int) (junk : Int → Fused F pol) (TRANSA TRANSB : Char) (M N K : Int) (ALPHA BETA : Scal (Fused F pol))
    (A LDA B LDB C LDC : Int) (Av Bv Cv : Nat → Nat → Quat (Fused F pol))
    (h : GemmPre m blk bAddr aAddr TRANSA TRANSB M.toNat N.toNat K.toNat A LDA Av B LDB Bv C LDC Cv) :
    ∃ m' V, gemmAVX blk bAddr aAddr junk TRANSA TRANSB M N K ALPHA A LDA B LDB BETA C LDC m = .ok ((), m') ∧
      MatAt m' C LDC M.toNat N.toNat V ∧
      ∀ i j, i < M.toNat → j < N.toNat → (V i j).All (SOk S pol) →
        let a := opSpec TRANSA (fun i k => (Av i k).map (sval S))
        let b := opSpec TRANSB (fun k j => (Bv k j).map (sval S))
        ‖((V i j).map (sval S)).toH - ((ALPHA.map (sval S)).toH * ∑ k ∈ range K.toNat, a i k * b k j +
            (BETA.map (sval S)).toH * ((Cv i j).map (sval S)).toH)‖ ≤
          2 * (((1 + 4 * u) ^ (4 + 4 * K.toNat) - 1) *
            (‖(BETA.map (sval S)).toH‖ * ‖((Cv i j).map (sval S)).toH‖ +
              2 * ‖(ALPHA.map (sval S)).toH‖ * ∑ k ∈ range K.toNat, ‖a i k‖ * ‖b k j‖)) :=
  C42_gemm (fusedStd S hu (fun _ _ => True) pol) m blk bAddr aAddr junk TRANSA TRANSB M N K ALPHA BETA A LDA B LDB C LDC Av Bv
      Cv h

/-- C66: portable GEMV (A, ALPHA and BETA of any scalar type): with K the length of x, every element of the result satisfies
`‖computed - exact‖ ≤ 2((1+u)^(2K+9)-1) (‖BETA‖ ‖y_i‖ + 6 ‖ALPHA‖ Σ_k ‖op(A)_ik‖ ‖x_k‖)`. With `4u` in place of `u`. -/
theorem C66_norm_gemv_portable (S : StdModel F u) (hu : u ≤ 1 / 16) (pol : Ex Unit → Fusing) (m : Mem (Fused F pol)) (k : Kind)
    (t : Char) (M N : Int) (ALPHA : Scal (Fused F pol)) (A LDA X INCX : Int) (BETA : Scal (Fused F pol)) (Y INCY : Int)
    (a : Nat → Nat → Scal (Fused F pol)) (x y : Nat → Quat (Fused F pol)) (op : Nat → Nat → ℍ[ℝ])
    (hop : KOpIs t (fun i k => (a i k).map (sval S)) op) (ha : STruth S ALPHA) (hb : STruth S BETA) (hM : M ≠ 0) (hN : N ≠ 0)
    (h : GemvBArgs m k t M N ALPHA A LDA X INCX Y INCY a x y) :
    ∃ m' v, gemvGen k t M N ALPHA A LDA X INCX BETA Y INCY m = .ok ((), m') ∧
      VecAt m' Y INCY (if t = 'N' then M else N).toNat v ∧
      ∀ i, i < (if t = 'N' then M else N).toNat → (v i).All (SOk S pol) →
        ‖((v i).map (sval S)).toH - ((ALPHA.map (sval S)).toH *
            ∑ k ∈ range (if t = 'N' then N else M).toNat, op i k * ((x k).map (sval S)).toH +
            (BETA.map (sval S)).toH * ((y i).map (sval S)).toH)‖ ≤
          2 * (((1 + 4 * u) ^ (2 * (if t = 'N' then N else M).toNat + 9) - 1) *
            (‖(BETA.map (sval S)).toH‖ * ‖((y i).map (sval S)).toH‖ +
              6 * ‖(ALPHA.map (sval S)).toH‖ * ∑ k ∈ range (if t = 'N' then N else M).toNat, ‖op i k‖ * ‖((x k).map (sval
                  S)).toH‖)) :=
  C42_gemv_portable (fusedStd S hu (fun _ _ => True) pol) m k t M N ALPHA A LDA X INCX BETA Y INCY a x y op hop ⟨ha.1, ha.2⟩
      ⟨hb.1, hb.2⟩ hM hN h

/-- C66: portable GERU (`conjY = false`) and GERC: every entry of the result satisfies `‖computed - exact‖ ≤ 2((1+u)⁹-1)
(‖A_ij‖ + 2 ‖ALPHA‖ ‖x_i‖ ‖y_j‖)`, for the y_j whose comparison with 0 tells the truth (all but `ck`, see
`C31_portable_pure_k_violated`). With `4u` in place of `u`. -/
theorem C66_norm_ger_portable (S : StdModel F u) (hu : u ≤ 1 / 16) (pol : Ex Unit → Fusing) (conjY : Bool)
    (m : Mem (Fused F pol)) (M N : Int) (ALPHA : Scal (Fused F pol)) (X INCX Y INCY A LDA : Int)
    (x y : Nat → Quat (Fused F pol)) (a : Nat → Nat → Quat (Fused F pol)) (ha : STruth S ALPHA)
    (h : GerBArgs m M N X INCX Y INCY A LDA x y a) :
    ∃ m' v, gerGen conjY M N ALPHA X INCX Y INCY A LDA m = .ok ((), m') ∧
      MatAt m' A LDA M.toNat N.toNat v ∧
      ∀ i j, i < M.toNat → j < N.toNat → (v i j).All (SOk S pol) →
        (Quat.neOp (y j) (Quat.mkReal Arith.zero) = false → ((y j).map (sval S)).toH = 0) →
        ‖((v i j).map (sval S)).toH - (((a i j).map (sval S)).toH + (ALPHA.map (sval S)).toH * ((x i).map (sval S)).toH *
            (if conjY then star ((y j).map (sval S)).toH else ((y j).map (sval S)).toH))‖ ≤
          2 * (((1 + 4 * u) ^ 9 - 1) * (‖((a i j).map (sval S)).toH‖ +
              2 * ‖(ALPHA.map (sval S)).toH‖ * ‖((x i).map (sval S)).toH‖ * ‖((y j).map (sval S)).toH‖)) :=
  C42_ger_portable (fusedStd S hu (fun _ _ => True) pol) conjY m M N ALPHA X INCX Y INCY A LDA x y a ⟨ha.1, ha.2⟩ h

/-- C66: Fortran GEMM (every pair of scalar types, any flags), if 1 is exact and `==` is true only of machine numbers of the
same value: every entry of the result satisfies `‖computed - exact‖ ≤ 2((1+u)^(4K+7)-1) (‖BETA‖ ‖C_ij‖ + 2 ‖ALPHA‖ Σ_k
‖op(A)_ik‖ ‖op(B)_kj‖)`. With `4u` in place of `u`. -/
theorem C66_norm_gemm_fortran (S : StdModel F u) (hu : u ≤ 1 / 16) (pol : Ex Unit → Fusing) (m : Mem (Fused F pol))
    (tA tB : Char) (M N K : Int) (ALPHA BETA : Scal (Fused F pol)) (A LDA B LDB C LDC : Int)
    (Av Bv Cv : Nat → Nat → Quat (Fused F pol)) (opA opB : Nat → Nat → ℍ[ℝ])
    (hA : OpIs tA (fun i k => (Av i k).map (sval S)) opA) (hB : OpIs tB (fun i k => (Bv i k).map (sval S)) opB)
    (h1 : S.val Arith.one = 1) (he : ∀ a b : F, ArithEq.feq a b = true → S.val a = S.val b)
    (h : FGemmArgs m tA tB M N K ALPHA A LDA B LDB C LDC Av Bv Cv) :
    ∃ m' V, hgemmF tA tB M N K ALPHA A LDA B LDB BETA C LDC m = .ok ((), m') ∧
      MatAt m' C LDC M.toNat N.toNat V ∧
      ∀ i j, i < M.toNat → j < N.toNat → (V i j).All (SOk S pol) →
        ‖((V i j).map (sval S)).toH - ((ALPHA.map (sval S)).toH * ∑ k ∈ range K.toNat, opA i k * opB k j +
            (BETA.map (sval S)).toH * ((Cv i j).map (sval S)).toH)‖ ≤
          2 * (((1 + 4 * u) ^ (4 * K.toNat + 7) - 1) *
            (‖(BETA.map (sval S)).toH‖ * ‖((Cv i j).map (sval S)).toH‖ +
              2 * ‖(ALPHA.map (sval S)).toH‖ * ∑ k ∈ range K.toNat, ‖opA i k‖ * ‖opB k j‖)) :=
  C42_gemm_fortran (fusedStd S hu (fun _ _ => True) pol) m tA tB M N K ALPHA BETA A LDA B LDB C LDC Av Bv Cv opA opB hA hB h1
      (fun a b k => he _ _ k) h

/-- C66: `operator*(quaternion,quaternion)`: the portable expression and the SIMD one. With `4u` in place of `u`. -/
theorem C66_norm_mul (S : StdModel F u) (hu : u ≤ 1 / 16) (pol : Ex Unit → Fusing) (x y : Quat (Fused F pol)) :
    ((Quat.mul x y).All (SOk S pol) → ‖((Quat.mul x y).map (sval S)).toH - (x.map (sval S)).toH * (y.map (sval S)).toH‖ ≤
      2 * (((1 + 4 * u) ^ 4 - 1) * (‖(x.map (sval S)).toH‖ * ‖(y.map (sval S)).toH‖))) ∧
    ((MULDQ_NN x y).All (SOk S pol) → ‖((MULDQ_NN x y).map (sval S)).toH - (x.map (sval S)).toH * (y.map (sval S)).toH‖ ≤
      2 * (((1 + 4 * u) ^ 3 - 1) * (‖(x.map (sval S)).toH‖ * ‖(y.map (sval S)).toH‖))) :=
  C42_mul (fusedStd S hu (fun _ _ => True) pol) x y

/-- C66: portable SCALV: `‖computed - exact‖ ≤ 2((1+u)⁴-1) ‖ALPHA‖ ‖x_i‖`. With `4u` in place of `u`. -/
theorem C66_norm_scalv_portable (S : StdModel F u) (hu : u ≤ 1 / 16) (pol : Ex Unit → Fusing) (m : Mem (Fused F pol))
    (SIDE : Char) (N X INCX : Int) (ALPHA : Scal (Fused F pol)) (x : Nat → Quat (Fused F pol)) (hX : VecAt m X INCX N.toNat x)
    (hinc : 0 < INCX) (fx : Fits32 (N * INCX)) :
    ∃ m' v, scalvGen SIDE N ALPHA X INCX m = .ok ((), m') ∧ VecAt m' X INCX N.toNat v ∧
      ∀ i, i < N.toNat → (v i).All (SOk S pol) →
        ‖((v i).map (sval S)).toH -
          (if SIDE = 'R' then ((x i).map (sval S)).toH * (ALPHA.map (sval S)).toH
           else (ALPHA.map (sval S)).toH * ((x i).map (sval S)).toH)‖ ≤
          2 * (((1 + 4 * u) ^ 4 - 1) * (‖(ALPHA.map (sval S)).toH‖ * ‖((x i).map (sval S)).toH‖)) :=
  C42_scalv_portable (fusedStd S hu (fun _ _ => True) pol) m SIDE N X INCX ALPHA x hX hinc fx

/-- C66: portable AXPYV: `‖computed - exact‖ ≤ 2((1+u)⁵-1) (‖y_i‖ + ‖ALPHA‖ ‖x_i‖)`. With `4u` in place of `u`. -/
theorem C66_norm_axpyv_portable (S : StdModel F u) (hu : u ≤ 1 / 16) (pol : Ex Unit → Fusing) (m : Mem (Fused F pol))
    (SIDE : Char) (N X INCX Y INCY : Int) (ALPHA : Scal (Fused F pol)) (x y : Nat → Quat (Fused F pol))
    (hX : VecAt m X INCX N.toNat x) (hY : VecAt m Y INCY N.toNat y) (hx : 0 < INCX) (hy : 0 < INCY) (fx : Fits32 (N * INCX))
    (fy : Fits32 (N * INCY)) (hdis : Apart (VecCell X INCX N.toNat) (VecCell Y INCY N.toNat))
    (hA : ALPHA.eqZero = true → (ALPHA.map (sval S)).toH = 0) :
    ∃ m' v, axpyvGen SIDE N ALPHA X INCX Y INCY m = .ok ((), m') ∧ VecAt m' Y INCY N.toNat v ∧
      ∀ i, i < N.toNat → (v i).All (SOk S pol) →
        ‖((v i).map (sval S)).toH - (((y i).map (sval S)).toH +
          (if SIDE = 'R' then ((x i).map (sval S)).toH * (ALPHA.map (sval S)).toH
           else (ALPHA.map (sval S)).toH * ((x i).map (sval S)).toH))‖ ≤
          2 * (((1 + 4 * u) ^ 5 - 1) * (‖((y i).map (sval S)).toH‖ +
            ‖(ALPHA.map (sval S)).toH‖ * ‖((x i).map (sval S)).toH‖)) :=
  C42_axpyv_portable (fusedStd S hu (fun _ _ => True) pol) m SIDE N X INCX Y INCY ALPHA x y hX hY hx hy fx fy hdis hA

/-- C66: portable DOTU and DOTC: `‖computed - exact‖ ≤ 2((1+u)^(N+4)-1) Σ ‖x_i‖ ‖y_i‖`. With `4u` in place of `u`. -/
theorem C66_norm_dot_portable (S : StdModel F u) (hu : u ≤ 1 / 16) (pol : Ex Unit → Fusing) (m : Mem (Fused F pol))
    (N X INCX Y INCY : Int) (x y : Nat → Quat (Fused F pol)) (hX : VecAt m X INCX N.toNat x) (hY : VecAt m Y INCY N.toNat y)
    (hx : 0 < INCX) (hy : 0 < INCY) (fx : Fits32 (N * INCX)) (fy : Fits32 (N * INCY)) :
    ∃ ru rc, dotGen false N X INCX Y INCY m = .ok (ru, m) ∧ dotGen true N X INCX Y INCY m = .ok (rc, m) ∧
      (ru.All (SOk S pol) →
        ‖(ru.map (sval S)).toH - ∑ i ∈ range N.toNat, ((x i).map (sval S)).toH * ((y i).map (sval S)).toH‖ ≤
          2 * (((1 + 4 * u) ^ (4 + N.toNat) - 1) *
            ∑ i ∈ range N.toNat, ‖((x i).map (sval S)).toH‖ * ‖((y i).map (sval S)).toH‖)) ∧
      (rc.All (SOk S pol) →
        ‖(rc.map (sval S)).toH - ∑ i ∈ range N.toNat, star ((x i).map (sval S)).toH * ((y i).map (sval S)).toH‖ ≤
          2 * (((1 + 4 * u) ^ (4 + N.toNat) - 1) *
            ∑ i ∈ range N.toNat, ‖((x i).map (sval S)).toH‖ * ‖((y i).map (sval S)).toH‖)) :=
  C42_dot_portable (fusedStd S hu (fun _ _ => True) pol) m N X INCX Y INCY x y hX hY hx hy fx fy

/-- C66: portable GEMM (A, ALPHA and BETA of any scalar type): every entry of the result satisfies `‖computed - exact‖ ≤
2((1+u)^(K+9)-1) (‖BETA‖ ‖C_ij‖ + 2 ‖ALPHA‖ Σ_k ‖op(A)_ik‖ ‖op(B)_kj‖)`. With `4u` in place of `u`. -/
theorem C66_norm_gemm_portable (S : StdModel F u) (hu : u ≤ 1 / 16) (pol : Ex Unit → Fusing) (m : Mem (Fused F pol)) (k : Kind)
    (tA tB : Char) (M N K : Int) (ALPHA BETA : Scal (Fused F pol)) (A LDA B LDB C LDC : Int)
    (Av : Nat → Nat → Scal (Fused F pol)) (Bv Cv : Nat → Nat → Quat (Fused F pol)) (opA opB : Nat → Nat → ℍ[ℝ])
    (hA : KOpIs tA (fun i k => (Av i k).map (sval S)) opA) (hB : QOpIs tB (fun i k => (Bv i k).map (sval S)) opB)
    (ha : STruth S ALPHA) (hb : STruth S BETA) (h : GemmBArgs m k tA tB M N K ALPHA A LDA B LDB C LDC Av Bv Cv) :
    ∃ m' V, gemmGen k tA tB M N K ALPHA A LDA B LDB BETA C LDC m = .ok ((), m') ∧
      MatAt m' C LDC M.toNat N.toNat V ∧
      ∀ i j, i < M.toNat → j < N.toNat → (V i j).All (SOk S pol) →
        ‖((V i j).map (sval S)).toH - ((ALPHA.map (sval S)).toH * ∑ k ∈ range K.toNat, opA i k * opB k j +
            (BETA.map (sval S)).toH * ((Cv i j).map (sval S)).toH)‖ ≤
          2 * (((1 + 4 * u) ^ (K.toNat + 9) - 1) *
            (‖(BETA.map (sval S)).toH‖ * ‖((Cv i j).map (sval S)).toH‖ +
              2 * ‖(ALPHA.map (sval S)).toH‖ * ∑ k ∈ range K.toNat, ‖opA i k‖ * ‖opB k j‖)) :=
  C42_gemm_portable (fusedStd S hu (fun _ _ => True) pol) m k tA tB M N K ALPHA BETA A LDA B LDB C LDC Av Bv Cv opA opB hA hB
      ⟨ha.1, ha.2⟩ ⟨hb.1, hb.2⟩ h

/-- C66: the product of two quaternions, portable operator and AVX operator, and the AVX product with the first factor
conjugated. With `4u` in place of `u`. -/
theorem C66_norm_op_mul (S : StdModel F u) (hu : u ≤ 1 / 16) (pol : Ex Unit → Fusing) (x y : Quat (Fused F pol)) :
    ((Quat.mul x y).All (SOk S pol) → ‖((Quat.mul x y).map (sval S)).toH - (x.map (sval S)).toH * (y.map (sval S)).toH‖ ≤
      2 * (((1 + 4 * u) ^ 4 - 1) * (‖(x.map (sval S)).toH‖ * ‖(y.map (sval S)).toH‖))) ∧
    ((Quat.mulAVX x y).All (SOk S pol) → ‖((Quat.mulAVX x y).map (sval S)).toH - (x.map (sval S)).toH * (y.map (sval S)).toH‖ ≤
      2 * (((1 + 4 * u) ^ 3 - 1) * (‖(x.map (sval S)).toH‖ * ‖(y.map (sval S)).toH‖))) ∧
    ((MULDQ_CN x y).All (SOk S pol) → ‖((MULDQ_CN x y).map (sval S)).toH - star (x.map (sval S)).toH * (y.map (sval S)).toH‖ ≤
      2 * (((1 + 4 * u) ^ 3 - 1) * (‖(x.map (sval S)).toH‖ * ‖(y.map (sval S)).toH‖))) :=
  C57_mul (fusedStd S hu (fun _ _ => True) pol) x y

/-- C66: a product with a real or complex factor on either side. With `4u` in place of `u`. -/
theorem C66_norm_op_mul_scalar (S : StdModel F u) (hu : u ≤ 1 / 16) (pol : Ex Unit → Fusing) (s : Scal (Fused F pol))
    (q : Quat (Fused F pol)) :
    ((s.mulL q).All (SOk S pol) → ‖((s.mulL q).map (sval S)).toH - (s.map (sval S)).toH * (q.map (sval S)).toH‖ ≤
      2 * (((1 + 4 * u) ^ 4 - 1) * (‖(s.map (sval S)).toH‖ * ‖(q.map (sval S)).toH‖))) ∧
    ((Scal.mulR q s).All (SOk S pol) → ‖((Scal.mulR q s).map (sval S)).toH - (q.map (sval S)).toH * (s.map (sval S)).toH‖ ≤
      2 * (((1 + 4 * u) ^ 4 - 1) * (‖(s.map (sval S)).toH‖ * ‖(q.map (sval S)).toH‖))) :=
  C57_mul_scalar (fusedStd S hu (fun _ _ => True) pol) s q

/-- C66: commutators of quaternions (portable and AVX product) and of a quaternion with a complex number. With `4u` in place of
`u`. -/
theorem C66_norm_op_comm (S : StdModel F u) (hu : u ≤ 1 / 16) (pol : Ex Unit → Fusing) (p q : Quat (Fused F pol))
    (z : Cplx (Fused F pol)) :
    ((Quat.comm p q).All (SOk S pol) → ‖((Quat.comm p q).map (sval S)).toH -
        ((p.map (sval S)).toH * (q.map (sval S)).toH - (q.map (sval S)).toH * (p.map (sval S)).toH)‖ ≤
      4 * (((1 + 4 * u) ^ 5 - 1) * (‖(p.map (sval S)).toH‖ * ‖(q.map (sval S)).toH‖))) ∧
    ((Quat.commAVX p q).All (SOk S pol) → ‖((Quat.commAVX p q).map (sval S)).toH -
        ((p.map (sval S)).toH * (q.map (sval S)).toH - (q.map (sval S)).toH * (p.map (sval S)).toH)‖ ≤
      4 * (((1 + 4 * u) ^ 4 - 1) * (‖(p.map (sval S)).toH‖ * ‖(q.map (sval S)).toH‖))) ∧
    ((Quat.commC p z).All (SOk S pol) → ‖((Quat.commC p z).map (sval S)).toH -
        ((p.map (sval S)).toH * (Scal.map (sval S) (.z z)).toH - (Scal.map (sval S) (.z z)).toH * (p.map (sval S)).toH)‖ ≤
      4 * (((1 + 4 * u) ^ 5 - 1) * (‖(p.map (sval S)).toH‖ * ‖(Scal.map (sval S) (.z z)).toH‖))) :=
  C57_comm (fusedStd S hu (fun _ _ => True) pol) p q z

/-! ## Examples: the hypotheses hold for concrete data in 53-bit arithmetic and any choice of the compiler -/

section
variable (v : Int → Chop)

/-- memory of single doubles -/
def litMem (pol : Ex Unit → Fusing) (v : Int → Chop) (p : Int) : Fused Chop pol := Fused.lit p (v p)

theorem u52 : (2:ℝ)⁻¹ ^ 52 ≤ 1 / 16 := by norm_num

theorem chop_struth (s : Cplx (Fused Chop pol)) : STruth chopModel (.z s : Scal (Fused Chop pol)) := by
  have h := (truth_of (S := fusedStd chopModel u52 (fun _ _ => True) pol) chop_truth.1
    (fun a b k => chop_truth.2 _ _ k)).2.1 s
  exact ⟨h.zero, h.one⟩

example := C66_norm_axpyv chopModel u52 pol (memOf 0 200 (litMem pol v)) 'R' 5 0 2 60 3 (.z ⟨litMem pol v 1, litMem pol v 2⟩) _ _
  (lv1_example _).1 (lv1_example _).2.1 (by decide) (lv1_example (litMem pol v)).2.2

example := C66_norm_dot chopModel u52 pol (memOf 0 200 (litMem pol v)) 5 0 2 60 3 _ _
  (lv1_example _).1 (lv1_example _).2.1 (by unfold Fits32; decide) (by unfold Fits32; decide)

example := C66_norm_gemm chopModel u52 pol (memOf 0 64 (litMem pol v)) ⟨64, 512, 64⟩ 1000 200000 (litMem pol v) 'C' 'N' 3 1 2
  (.z ⟨litMem pol v 1, litMem pol v 2⟩) (.d (litMem pol v 3)) 0 2 24 2 33 4 _ _ _ (gemmPre_example' (litMem pol v))

example := C66_norm_gemm_mixed chopModel u52 pol _ .d .z 'N' 'N' 2 2 3 (.z ⟨litMem pol v 1, litMem pol v 2⟩)
  (.z ⟨litMem pol v 3, litMem pol v 4⟩) _ _ _ _ _ _ _ _ _ _ _
  (.inl ⟨rfl, fun _ _ => rfl⟩) (.inl ⟨rfl, fun _ _ => rfl⟩) (chop_struth _) (chop_struth _) (gemmMArgs_example' (litMem pol v) _)

example := C66_norm_gemv_mixed chopModel u52 pol _ .z .d 'C' 2 3 (.z ⟨litMem pol v 1, litMem pol v 2⟩) 0 4 60 2
  (.z ⟨litMem pol v 3, litMem pol v 4⟩) 90 1 _ _ _ _ (.inr (.inr ⟨rfl, fun _ _ => rfl⟩)) (chop_struth _) (chop_struth _)
  (by decide) (by decide) (gemvMArgs_example' (litMem pol v) _)

example := C66_norm_ger_mixed chopModel u52 pol .d .z true _ 2 2 (.z ⟨litMem pol v 1, litMem pol v 2⟩) 0 3 20 1 60 2 _ _ _
  (chop_struth _) (gerMArgs_example' (litMem pol v))
end

end Haxx
