import Verif.FGemmPfdd
import Verif.FGemmPfdz
import Verif.FGemmPfdh
import Verif.FGemmPfzd
import Verif.FGemmPfzz
import Verif.FGemmPfzh
import Verif.FGemmPfhd
import Verif.FGemmPfhz
import Verif.FGemmPfhh
import Verif.PropsGemm

/-!
# Property theorems: Fortran GEMM (C28)
-/

namespace Haxx
open Quaternion Finset

/-- `HBLAS_GEMM` over the Fortran routines, by the types of ALPHA and BETA —
`src/hblas/hblas3.cxx.in:24-62` (`GEMM_FORTRAN_IMPL`): the bound pairs `dh, zh, hd, hz, hh`, and the
compiled routines `hgemmdd, hgemmdz, hgemmzd, hgemmzz` whose binding is commented out there
(lines 40-43, 47-50) in favour of the SIMD code. -/
def hgemmF {F : Type} [Arith F] [ArithEq F] (TRANSA TRANSB : Char) (M N K : Int) (ALPHA : Scal F) (A LDA B LDB : Int)
    (BETA : Scal F) (C LDC : Int) : Prog F Unit :=
  match ALPHA, BETA with
  | .d a, .d b => hgemmdd TRANSA TRANSB M N K a A LDA B LDB b C LDC
  | .d a, .z b => hgemmdz TRANSA TRANSB M N K a A LDA B LDB b C LDC
  | .d a, .h b => hgemmdh TRANSA TRANSB M N K a A LDA B LDB b C LDC
  | .z a, .d b => hgemmzd TRANSA TRANSB M N K a A LDA B LDB b C LDC
  | .z a, .z b => hgemmzz TRANSA TRANSB M N K a A LDA B LDB b C LDC
  | .z a, .h b => hgemmzh TRANSA TRANSB M N K a A LDA B LDB b C LDC
  | .h a, .d b => hgemmhd TRANSA TRANSB M N K a A LDA B LDB b C LDC
  | .h a, .z b => hgemmhz TRANSA TRANSB M N K a A LDA B LDB b C LDC
  | .h a, .h b => hgemmhh TRANSA TRANSB M N K a A LDA B LDB b C LDC

/-- `op(X)(i,k)` for a flag of the Fortran routines, which ignore letter case: `N`/`n` the entry
itself, `T`/`t` the transposed entry, `C`/`c` the conjugate of the transposed entry. -/
def OpIs {R : Type} [CommRing R] (t : Char) (X : Nat → Nat → Quat R) (op : Nat → Nat → ℍ[R]) : Prop :=
  ((t = 'N' ∨ t = 'n') ∧ ∀ i k, op i k = (X i k).toH) ∨
  ((t = 'T' ∨ t = 't') ∧ ∀ i k, op i k = (X k i).toH) ∨
  ((t = 'C' ∨ t = 'c') ∧ ∀ i k, op i k = star (X k i).toH)

/-- The flag means "as stored" (as opposed to transposed or conjugate-transposed). -/
def IsN (t : Char) : Prop := t = 'N' ∨ t = 'n'

instance (t : Char) : Decidable (IsN t) := by unfold IsN; infer_instance

section
variable {R : Type} [CommRing R]

theorem opIs_ofChar {t : Char} {X : Nat → Nat → Quat R} {op : Nat → Nat → ℍ[R]} (h : OpIs t X op) :
    ∀ i k, (FTrans.ofChar t).op X i k = op i k := by
  rcases h with ⟨rfl | rfl, h⟩ | ⟨rfl | rfl, h⟩ | ⟨rfl | rfl, h⟩ <;> intro i k <;> rw [h] <;> rfl

theorem rows_ofChar (t : Char) (r c : Nat) :
    (FTrans.ofChar t).rows r c = if IsN t then r else c := by
  by_cases h : t = 'N' ∨ t = 'n'
  · rw [if_pos (show IsN t from h)]
    unfold FTrans.ofChar
    rw [if_pos h]
    rfl
  · rw [if_neg (show ¬ IsN t from h)]
    unfold FTrans.ofChar
    rw [if_neg h]
    split <;> rfl

variable [DecidableEq R]

theorem hgemmF_wp {Kp : Mem R → Prop} {m : Mem R} {TRANSA TRANSB : Char} {M N K : Int} {A LDA B LDB C LDC : Int}
    {X Y c : Nat → Nat → Quat R} {ALPHA BETA : Scal R}
    (hdisj : ∀ i j i' j' : Nat, i < M.toNat → i' < M.toNat → ¬ (i = i' ∧ j = j') →
      QDisj (C + 4 * (i + j * LDC)) (C + 4 * (i' + j' * LDC)))
    (hst : ∀ m (i j : Nat) q, i < M.toNat → j < N.toNat → Kp m → Kp (writeQ m (C + 4 * (i + j * LDC)) q))
    (env : ALPHA.toH ≠ 0 → GEnv Kp A LDA ((FTrans.ofChar TRANSA).rows M.toNat K.toNat) ((FTrans.ofChar TRANSA).rows K.toNat M.toNat) X
      B LDB ((FTrans.ofChar TRANSB).rows K.toNat N.toNat) ((FTrans.ofChar TRANSB).rows N.toNat K.toNat) Y
      C LDC M.toNat N.toNat)
    (hk : Kp m) (hc : MatAt m C LDC M.toNat N.toNat c) :
    wp (hgemmF TRANSA TRANSB M N K ALPHA A LDA B LDB BETA C LDC) m
      (fun _ m' => GPost Kp m C LDC M.toNat N.toNat (fun i j => Quat.ofH (gemmSpec ALPHA.toH BETA.toH
        K.toNat (fun k => (FTrans.ofChar TRANSA).op X i k) (fun k => (FTrans.ofChar TRANSB).op Y k j) (c i j).toH)) m') := by
  cases ALPHA <;> cases BETA
  · exact hgemmdd_wp hdisj hst env hk hc
  · exact hgemmdz_wp hdisj hst env hk hc
  · exact hgemmdh_wp hdisj hst env hk hc
  · exact hgemmzd_wp hdisj hst env hk hc
  · exact hgemmzz_wp hdisj hst env hk hc
  · exact hgemmzh_wp hdisj hst env hk hc
  · exact hgemmhd_wp hdisj hst env hk hc
  · exact hgemmhz_wp hdisj hst env hk hc
  · exact hgemmhh_wp hdisj hst env hk hc

/-- C28. For every pair of scalar types, sizes, leading dimensions and flags, the Fortran GEMM leaves
`C(i,j) = ALPHA * Σ_k op(A)(i,k) op(B)(k,j) + BETA * C(i,j)`, changes nothing outside the `M × N` block of C and
does not fault; A and B need not even be accessible when `ALPHA = 0`. -/
theorem C28_gemm_fortran (m : Mem R) (TRANSA TRANSB : Char) (M N K : Int) (ALPHA BETA : Scal R)
    (A LDA B LDB C LDC : Int) (Av Bv Cv : Nat → Nat → Quat R) (opA opB : Nat → Nat → ℍ[R])
    (hopA : OpIs TRANSA Av opA) (hopB : OpIs TRANSB Bv opB)
    (hA : ALPHA.toH ≠ 0 → MatAt m A LDA (if IsN TRANSA then M.toNat else K.toNat) (if IsN TRANSA then K.toNat else M.toNat) Av)
    (hB : ALPHA.toH ≠ 0 → MatAt m B LDB (if IsN TRANSB then K.toNat else N.toNat) (if IsN TRANSB then N.toNat else K.toNat) Bv)
    (hC : MatAt m C LDC M.toNat N.toNat Cv) (hld : M ≤ LDC)
    (hAC : Apart (MatCell A LDA (if IsN TRANSA then M.toNat else K.toNat) (if IsN TRANSA then K.toNat else M.toNat))
      (MatCell C LDC M.toNat N.toNat))
    (hBC : Apart (MatCell B LDB (if IsN TRANSB then K.toNat else N.toNat) (if IsN TRANSB then N.toNat else K.toNat))
      (MatCell C LDC M.toNat N.toNat)) :
    ∃ m', hgemmF TRANSA TRANSB M N K ALPHA A LDA B LDB BETA C LDC m = .ok ((), m') ∧
      MatAt m' C LDC M.toNat N.toNat (fun i j => Quat.ofH
        (ALPHA.toH * ∑ k ∈ range K.toNat, opA i k * opB k j + BETA.toH * (Cv i j).toH)) ∧
      SameOutside (MatCell C LDC M.toNat N.toNat) m m' := by
  have hst : ∀ (m' : Mem R) (i j : Nat) (q : Quat R), i < M.toNat → j < N.toNat →
      (∀ a, ¬ MatCell C LDC M.toNat N.toNat a → m' a = m a) →
      ∀ a, ¬ MatCell C LDC M.toNat N.toNat a → writeQ m' (C + 4 * (i + j * LDC)) q a = m a := by
    intro m' i j q hi hj h a ha
    rw [writeQ_other (fun hin => ha ⟨i, j, hi, hj, hin⟩)]
    exact h a ha
  have hd : ∀ i j i' j' : Nat, i < M.toNat → i' < M.toNat → ¬ (i = i' ∧ j = j') →
      QDisj (C + 4 * (i + j * LDC)) (C + 4 * (i' + j' * LDC)) := by
    intro i j i' j' hi hi' hne
    exact mat_disj (r := M.toNat) (by omega) hi hi' hne
  obtain ⟨u, m', h1, h2, h3, h4⟩ := hgemmF_wp (Kp := fun m' => ∀ a, ¬ MatCell C LDC M.toNat N.toNat a → m' a = m a)
    (TRANSA := TRANSA) (TRANSB := TRANSB) (K := K) (A := A) (LDA := LDA) (B := B) (LDB := LDB) (X := Av) (Y := Bv)
    (ALPHA := ALPHA) (BETA := BETA) hd hst
    (fun h0 => ⟨fun m' h => by
        rw [rows_ofChar, rows_ofChar]
        exact matAt_congr (fun a ha => (h a (hAC a ha)).symm) (hA h0),
      fun m' h => by
        rw [rows_ofChar, rows_ofChar]
        exact matAt_congr (fun a ha => (h a (hBC a ha)).symm) (hB h0), hst, hd⟩) (fun a _ => rfl) hC
  refine ⟨m', h1, ?_, h3⟩
  intro i j hi hj
  rw [h2 i j hi hj]
  simp only [gemmSpec, opIs_ofChar hopA, opIs_ofChar hopB]

/-- C28. Every flag other than `N`,`n`,`C`,`c` is taken as transposition. -/
theorem C28_other_flags_transpose (t : Char) (ht : ¬ IsN t ∧ t ≠ 'C' ∧ t ≠ 'c') (tB : Char) (M N K : Int)
    (ALPHA BETA : Scal R) (A LDA B LDB C LDC : Int) :
    hgemmF t tB M N K ALPHA A LDA B LDB BETA C LDC = hgemmF 'T' tB M N K ALPHA A LDA B LDB BETA C LDC ∧
    hgemmF tB t M N K ALPHA A LDA B LDB BETA C LDC = hgemmF tB 'T' M N K ALPHA A LDA B LDB BETA C LDC := by
  have hT : FTrans.ofChar t = .T := by
    unfold FTrans.ofChar
    rw [if_neg (show ¬ (t = 'N' ∨ t = 'n') from ht.1), if_neg (by rintro (h | h); exacts [ht.2.1 h, ht.2.2 h])]
  have h1 : lsame t 'N' = lsame 'T' 'N' := by rw [lsame_N, lsame_N, hT]; rfl
  have h2 : lsame t 'C' = lsame 'T' 'C' := by rw [lsame_C, lsame_C, hT]; rfl
  unfold hgemmF hgemmdd hgemmdz hgemmdh hgemmzd hgemmzz hgemmzh hgemmhd hgemmhz hgemmhh
  rw [h1, h2]
  exact ⟨rfl, rfl⟩

/-- Non-vacuity for C28: a conjugate-transposed A (`'c'`), padded C, misaligned, quaternion scalars. -/
example :
    ∃ m', hgemmF (F := Int) 'c' 'N' 3 1 2 (.h ⟨1, 2, 3, 4⟩) 0 2 24 2 (.h ⟨0, 1, 0, -1⟩) 33 4
      (memOf 0 64 (fun a => a * a)) = .ok ((), m') ∧
      MatAt m' 33 4 3 1 (fun i j => Quat.ofH
        ((Scal.h (⟨1, 2, 3, 4⟩ : Quat Int)).toH * ∑ k ∈ range 2,
          star (let p : Int := 0 + 4 * ((k:Int) + i * 2); (⟨p*p, (p+1)*(p+1), (p+2)*(p+2), (p+3)*(p+3)⟩ : Quat Int)).toH *
          (let p : Int := 24 + 4 * ((k:Int) + j * 2); (⟨p*p, (p+1)*(p+1), (p+2)*(p+2), (p+3)*(p+3)⟩ : Quat Int)).toH +
          (Scal.h (⟨0, 1, 0, -1⟩ : Quat Int)).toH *
          (let p : Int := 33 + 4 * ((i:Int) + j * 4); (⟨p*p, (p+1)*(p+1), (p+2)*(p+2), (p+3)*(p+3)⟩ : Quat Int)).toH)) := by
  have h := gemmPre_example
  obtain ⟨m', h1, h2, _⟩ := C28_gemm_fortran (R := Int) (memOf 0 64 (fun a => a * a)) 'c' 'N' 3 1 2 (.h ⟨1, 2, 3, 4⟩)
    (.h ⟨0, 1, 0, -1⟩) 0 2 24 2 33 4 _ _ _ _ _ (Or.inr (Or.inr ⟨Or.inr rfl, fun _ _ => rfl⟩))
    (Or.inl ⟨Or.inl rfl, fun _ _ => rfl⟩) (fun _ => h.matA) (fun _ => h.matB) h.matC (by decide) h.apartA h.apartB
  exact ⟨m', h1, h2⟩

end

end Haxx
