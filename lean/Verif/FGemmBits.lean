import Verif.FGemmBitsdd
import Verif.FGemmBitsdz
import Verif.FGemmBitsdh
import Verif.FGemmBitszd
import Verif.FGemmBitszz
import Verif.FGemmBitszh
import Verif.FGemmBitshd
import Verif.FGemmBitshz
import Verif.FGemmBitshh
import Verif.PropsGemmF

/-!
# The Fortran GEMM, bit for bit, for every pair of scalar types
-/

set_option linter.unusedSectionVars false

namespace Haxx
open Arith

variable {F : Type} [Arith F] [ArithEq F]

/-- What a caller of the Fortran GEMM must provide, over any arithmetic: A and B (only if ALPHA is not zero) and C
readable, columns of C that do not overlap, and C apart from A and B. -/
structure FGemmArgs (m : Mem F) (TRANSA TRANSB : Char) (M N K : Int) (ALPHA : Scal F) (A LDA B LDB C LDC : Int)
    (Av Bv Cv : Nat → Nat → Quat F) : Prop where
  hA : ALPHA.fIsZero = false →
    MatAt m A LDA (if IsN TRANSA then M.toNat else K.toNat) (if IsN TRANSA then K.toNat else M.toNat) Av
  hB : ALPHA.fIsZero = false →
    MatAt m B LDB (if IsN TRANSB then K.toNat else N.toNat) (if IsN TRANSB then N.toNat else K.toNat) Bv
  hC : MatAt m C LDC M.toNat N.toNat Cv
  hld : M ≤ LDC
  hAC : Apart (MatCell A LDA (if IsN TRANSA then M.toNat else K.toNat) (if IsN TRANSA then K.toNat else M.toNat))
      (MatCell C LDC M.toNat N.toNat)
  hBC : Apart (MatCell B LDB (if IsN TRANSB then K.toNat else N.toNat) (if IsN TRANSB then N.toNat else K.toNat))
      (MatCell C LDC M.toNat N.toNat)

theorem hgemmF_bits0 {Kp : Mem F → Prop} {m : Mem F} {TRANSA TRANSB : Char} {M N K : Int} {A LDA B LDB C LDC : Int}
    {X Y c : Nat → Nat → Quat F} {ALPHA BETA : Scal F}
    (hdisj : ∀ i j i' j' : Nat, i < M.toNat → i' < M.toNat → ¬ (i = i' ∧ j = j') →
      QDisj (C + 4 * (i + j * LDC)) (C + 4 * (i' + j' * LDC)))
    (hst : ∀ m (i j : Nat) q, i < M.toNat → j < N.toNat → Kp m → Kp (writeQ m (C + 4 * (i + j * LDC)) q))
    (env : ALPHA.fIsZero = false → GEnv Kp A LDA ((FTrans.ofChar TRANSA).rows M.toNat K.toNat)
      ((FTrans.ofChar TRANSA).rows K.toNat M.toNat) X
      B LDB ((FTrans.ofChar TRANSB).rows K.toNat N.toNat) ((FTrans.ofChar TRANSB).rows N.toNat K.toNat) Y
      C LDC M.toNat N.toNat)
    (hk : Kp m) (hc : MatAt m C LDC M.toNat N.toNat c) :
    wp (hgemmF TRANSA TRANSB M N K ALPHA A LDA B LDB BETA C LDC) m
      (fun _ m' => GPost Kp m C LDC M.toNat N.toNat (fun i j => fGemm (FTrans.ofChar TRANSA) (FTrans.ofChar TRANSB)
        ALPHA BETA K (fun k => (FTrans.ofChar TRANSA).pick X i k) (fun k => (FTrans.ofChar TRANSB).pick Y k j)
        (c i j)) m') := by
  cases ALPHA <;> cases BETA
  · exact hgemmdd_bits hdisj hst env hk hc
  · exact hgemmdz_bits hdisj hst env hk hc
  · exact hgemmdh_bits hdisj hst env hk hc
  · exact hgemmzd_bits hdisj hst env hk hc
  · exact hgemmzz_bits hdisj hst env hk hc
  · exact hgemmzh_bits hdisj hst env hk hc
  · exact hgemmhd_bits hdisj hst env hk hc
  · exact hgemmhz_bits hdisj hst env hk hc
  · exact hgemmhh_bits hdisj hst env hk hc

/-- The Fortran GEMM leaves `fGemm` of row i of op(A), column j of op(B) and the old entry in `C(i,j)`, and nothing else
changes. -/
theorem hgemmF_bits (m : Mem F) (TRANSA TRANSB : Char) (M N K : Int) (ALPHA BETA : Scal F)
    (A LDA B LDB C LDC : Int) (Av Bv Cv : Nat → Nat → Quat F)
    (h : FGemmArgs m TRANSA TRANSB M N K ALPHA A LDA B LDB C LDC Av Bv Cv) :
    ∃ m', hgemmF TRANSA TRANSB M N K ALPHA A LDA B LDB BETA C LDC m = .ok ((), m') ∧
      MatAt m' C LDC M.toNat N.toNat (fun i j => fGemm (FTrans.ofChar TRANSA) (FTrans.ofChar TRANSB)
        ALPHA BETA K (fun k => (FTrans.ofChar TRANSA).pick Av i k) (fun k => (FTrans.ofChar TRANSB).pick Bv k j)
        (Cv i j)) ∧
      SameOutside (MatCell C LDC M.toNat N.toNat) m m' := by
  have hst : ∀ (m' : Mem F) (i j : Nat) (q : Quat F), i < M.toNat → j < N.toNat →
      (∀ a, ¬ MatCell C LDC M.toNat N.toNat a → m' a = m a) →
      ∀ a, ¬ MatCell C LDC M.toNat N.toNat a → writeQ m' (C + 4 * (i + j * LDC)) q a = m a := by
    intro m' i j q hi hj h a ha
    rw [writeQ_other (fun hin => ha ⟨i, j, hi, hj, hin⟩)]
    exact h a ha
  have hd : ∀ i j i' j' : Nat, i < M.toNat → i' < M.toNat → ¬ (i = i' ∧ j = j') →
      QDisj (C + 4 * (i + j * LDC)) (C + 4 * (i' + j' * LDC)) := by
    intro i j i' j' hi hi' hne
    have := h.hld
    exact mat_disj (r := M.toNat) (by omega) hi hi' hne
  obtain ⟨u, m', h1, h2, h3, h4⟩ := hgemmF_bits0 (Kp := fun m' => ∀ a, ¬ MatCell C LDC M.toNat N.toNat a → m' a = m a)
    (TRANSA := TRANSA) (TRANSB := TRANSB) (K := K) (A := A) (LDA := LDA) (B := B) (LDB := LDB) (X := Av) (Y := Bv)
    (ALPHA := ALPHA) (BETA := BETA) hd hst
    (fun h0 => ⟨fun m' g => by
        rw [rows_ofChar, rows_ofChar]
        exact matAt_congr (fun a ha => (g a (h.hAC a ha)).symm) (h.hA h0),
      fun m' g => by
        rw [rows_ofChar, rows_ofChar]
        exact matAt_congr (fun a ha => (g a (h.hBC a ha)).symm) (h.hB h0), hst, hd⟩) (fun a _ => rfl) h.hC
  exact ⟨m', h1, h2, h3⟩

theorem pick_ofChar {α : Type} (t : Char) (X : Nat → Nat → α) (i k : Nat) :
    (FTrans.ofChar t).pick X i k = if IsN t then X i k else X k i := by
  by_cases h : t = 'N' ∨ t = 'n'
  · rw [if_pos (show IsN t from h)]; unfold FTrans.ofChar; rw [if_pos h]; rfl
  · rw [if_neg (show ¬ IsN t from h)]; unfold FTrans.ofChar; rw [if_neg h]; split <;> rfl

end Haxx
