import Verif.PropsMat
import Verif.PropsFin
import Verif.ExactEx
import Verif.FinEx
import Verif.PropsUnits2

/-!
# C53, C59, C60 and C64 for `HBLAS_SCALM` and `HBLAS_AXPYM`, in every build of the vector routine

NaNs are not lost, integer data are exact, results of moderate data are finite and accurate, and a change of units carries
over exactly, for every entry of the block.
-/

set_option linter.unusedSectionVars false

namespace Haxx
open Arith Quaternion Finset

section bits
variable {F : Type} [Arith F] [ArithEq F]

/-! ## The bits of every entry -/

theorem scalmS_bits {m : Mem F} {SIDE : Char} {M N : Int} {ALPHA : Scal F} {A LDA INCA : Int} {Av : Nat → Nat → Quat F}
    (hA : SMatAt m A INCA LDA M.toNat N.toNat Av) (hinc : 0 < INCA) (hfit : ((M.toNat:Int) - 1) * INCA + 1 ≤ LDA) :
    ∃ m', scalm scalvAVX SIDE 'N' M N ALPHA A LDA INCA m = .ok ((), m') ∧
      SMatAt m' A INCA LDA M.toNat N.toNat (fun i j => scalOp (SIDE == 'L') ALPHA (Av i j)) := by
  obtain ⟨_, m', h, h1, _⟩ := scalm_wp (SCALV := scalvAVX) (SIDE := SIDE) (ALPHA := ALPHA)
    (f := scalOp (SIDE == 'L') ALPHA)
    (fun m X x hx => scalvAVX_wp hx (Or.inl (by omega))) hA hinc ⟨hinc, hfit⟩
  exact ⟨m', h, h1⟩

theorem scalmP_bits {m : Mem F} {SIDE : Char} {M N : Int} {ALPHA : Scal F} {A LDA INCA : Int} {Av : Nat → Nat → Quat F}
    (hA : SMatAt m A INCA LDA M.toNat N.toNat Av) (hinc : 0 < INCA) (hfit : ((M.toNat:Int) - 1) * INCA + 1 ≤ LDA)
    (f32 : Fits32 (M * INCA)) :
    ∃ m', scalm scalvGen SIDE 'N' M N ALPHA A LDA INCA m = .ok ((), m') ∧
      SMatAt m' A INCA LDA M.toNat N.toNat
        (fun i j => if SIDE = 'R' then Scal.mulR (Av i j) ALPHA else Scal.mulL ALPHA (Av i j)) := by
  obtain ⟨_, m', h, h1, _⟩ := scalm_wp (SCALV := scalvGen) (SIDE := SIDE) (ALPHA := ALPHA)
    (f := fun q => if SIDE = 'R' then Scal.mulR q ALPHA else Scal.mulL ALPHA q)
    (fun m X x hx => scalvGen_wp hinc f32 hx) hA hinc ⟨hinc, hfit⟩
  exact ⟨m', h, h1⟩

theorem scalmF_bits {m : Mem F} {SIDE : Char} {M N : Int} {ALPHA : Scal F} {A LDA INCA : Int} {Av : Nat → Nat → Quat F}
    (hA : SMatAt m A INCA LDA M.toNat N.toNat Av) (hinc : 0 < INCA) (hfit : ((M.toNat:Int) - 1) * INCA + 1 ≤ LDA) :
    ∃ m', scalm scalvF SIDE 'N' M N ALPHA A LDA INCA m = .ok ((), m') ∧
      SMatAt m' A INCA LDA M.toNat N.toNat
        (fun i j => if ALPHA.vIsZero then Av i j else fScalV (lsame 'R' SIDE) ALPHA (Av i j)) := by
  obtain ⟨_, m', h, h1, _⟩ := scalm_wp (SCALV := scalvF) (SIDE := SIDE) (ALPHA := ALPHA)
    (f := fun q => if ALPHA.vIsZero then q else fScalV (lsame 'R' SIDE) ALPHA q)
    (fun m X x hx => by
      have := scalvF_bits (SIDE := SIDE) (ALPHA := ALPHA) (N := M) (X := X) (INCX := INCA) (m0 := m) (x := x)
        (by omega) (by rwa [fbase_pos hinc])
      rwa [fbase_pos hinc] at this) hA hinc ⟨hinc, hfit⟩
  exact ⟨m', h, h1⟩

theorem axpymS_bits {m : Mem F} {SIDE : Char} {M N : Int} {ALPHA : Scal F} {A LDA INCA B LDB INCB : Int}
    {Av Bv : Nat → Nat → Quat F} (hA : SMatAt m A INCA LDA M.toNat N.toNat Av)
    (hB : SMatAt m B INCB LDB M.toNat N.toNat Bv) (hinc : 0 < INCB) (hfit : ((M.toNat:Int) - 1) * INCB + 1 ≤ LDB)
    (hdis : Apart (SMatCell A INCA LDA M.toNat N.toNat) (SMatCell B INCB LDB M.toNat N.toNat)) :
    ∃ m', axpym axpyvAVX SIDE 'N' M N ALPHA A LDA INCA B LDB INCB m = .ok ((), m') ∧
      SMatAt m' B INCB LDB M.toNat N.toNat
        (fun i j => if ALPHA.eqZero then Bv i j else axpyOp (SIDE == 'L') ALPHA (Av i j) (Bv i j)) := by
  cases hz : ALPHA.eqZero with
  | true => exact ⟨m, C65_axpym_zero _ _ _ _ _ _ _ _ _ _ _ _ _ hz, hB⟩
  | false =>
    obtain ⟨_, m', h, h1, _⟩ := axpym_wp (AXPYV := axpyvAVX) (SIDE := SIDE) (ALPHA := ALPHA)
      (g := fun x y => axpyOp (SIDE == 'L') ALPHA x y)
      (fun m X Y x y hx hy hd => axpyvAVX_wp hx hy (Or.inl (by omega)) hd) hz hA hB ⟨hinc, hfit⟩ hdis
    exact ⟨m', h, h1⟩

theorem axpymP_bits {m : Mem F} {SIDE : Char} {M N : Int} {ALPHA : Scal F} {A LDA INCA B LDB INCB : Int}
    {Av Bv : Nat → Nat → Quat F} (hA : SMatAt m A INCA LDA M.toNat N.toNat Av)
    (hB : SMatAt m B INCB LDB M.toNat N.toNat Bv) (hia : 0 < INCA) (hinc : 0 < INCB)
    (hfit : ((M.toNat:Int) - 1) * INCB + 1 ≤ LDB) (fa : Fits32 (M * INCA)) (fb : Fits32 (M * INCB))
    (hdis : Apart (SMatCell A INCA LDA M.toNat N.toNat) (SMatCell B INCB LDB M.toNat N.toNat)) :
    ∃ m', axpym axpyvGen SIDE 'N' M N ALPHA A LDA INCA B LDB INCB m = .ok ((), m') ∧
      SMatAt m' B INCB LDB M.toNat N.toNat (fun i j => if ALPHA.eqZero then Bv i j else
        Quat.addAssign (Bv i j) (if SIDE = 'R' then Scal.mulR (Av i j) ALPHA else Scal.mulL ALPHA (Av i j))) := by
  cases hz : ALPHA.eqZero with
  | true => exact ⟨m, C65_axpym_zero _ _ _ _ _ _ _ _ _ _ _ _ _ hz, hB⟩
  | false =>
    obtain ⟨_, m', h, h1, _⟩ := axpym_wp (AXPYV := axpyvGen) (SIDE := SIDE) (ALPHA := ALPHA)
      (g := fun x y => Quat.addAssign y (if SIDE = 'R' then Scal.mulR x ALPHA else Scal.mulL ALPHA x))
      (fun m X Y x y hx hy hd => axpyvGen_wp hia hinc fa fb hz hx hy hd) hz hA hB ⟨hinc, hfit⟩ hdis
    exact ⟨m', h, h1⟩

theorem axpymF_bits {m : Mem F} {SIDE : Char} {M N : Int} {ALPHA : Scal F} {A LDA INCA B LDB INCB : Int}
    {Av Bv : Nat → Nat → Quat F} (hA : SMatAt m A INCA LDA M.toNat N.toNat Av)
    (hB : SMatAt m B INCB LDB M.toNat N.toNat Bv) (hia : 0 < INCA) (hinc : 0 < INCB)
    (hfit : ((M.toNat:Int) - 1) * INCB + 1 ≤ LDB)
    (hdis : Apart (SMatCell A INCA LDA M.toNat N.toNat) (SMatCell B INCB LDB M.toNat N.toNat)) :
    ∃ m', axpym axpyvF SIDE 'N' M N ALPHA A LDA INCA B LDB INCB m = .ok ((), m') ∧
      SMatAt m' B INCB LDB M.toNat N.toNat (fun i j => if ALPHA.eqZero then Bv i j else
        if ALPHA.vIsZero then Bv i j else fAxpyV (lsame 'R' SIDE) ALPHA (Av i j) (Bv i j)) := by
  cases hz : ALPHA.eqZero with
  | true => exact ⟨m, C65_axpym_zero _ _ _ _ _ _ _ _ _ _ _ _ _ hz, hB⟩
  | false =>
    obtain ⟨_, m', h, h1, _⟩ := axpym_wp (AXPYV := axpyvF) (SIDE := SIDE) (ALPHA := ALPHA)
      (g := fun x y => if ALPHA.vIsZero then y else fAxpyV (lsame 'R' SIDE) ALPHA x y)
      (fun m X Y x y hx hy hd => by
        have := axpyvF_bits (SIDE := SIDE) (ALPHA := ALPHA) (N := M) (X := X) (INCX := INCA) (Y := Y) (INCY := INCB)
          (m0 := m) (x := x) (y := y) (by omega) (by rwa [fbase_pos hia]) (by rwa [fbase_pos hinc])
          (by rwa [fbase_pos hia, fbase_pos hinc])
        rwa [fbase_pos hinc] at this) hz hA hB ⟨hinc, hfit⟩ hdis
    exact ⟨m', h, h1⟩

end bits


section nan
variable {F : Type} [Arith F] [ArithEq F] {bad : F → Prop} (h : NaNLike bad)
include h

/-- C53, SCALM on the SIMD SCALV. -/
theorem C53_scalm_simd (m : Mem F) (SIDE : Char) (M N : Int) (ALPHA : Scal F) (A LDA INCA : Int) (Av : Nat → Nat → Quat F)
    (hA : SMatAt m A INCA LDA M.toNat N.toNat Av) (hinc : 0 < INCA) (hfit : ((M.toNat:Int) - 1) * INCA + 1 ≤ LDA) :
    ∃ m' V, scalm scalvAVX SIDE 'N' M N ALPHA A LDA INCA m = .ok ((), m') ∧ SMatAt m' A INCA LDA M.toNat N.toNat V ∧
      ∀ i j, i < M.toNat → j < N.toNat → (ALPHA.HasNaN bad ∨ (Av i j).HasNaN bad) → (V i j).HasNaN bad := by
  obtain ⟨m', h1, h2⟩ := scalmS_bits (SIDE := SIDE) (ALPHA := ALPHA) hA hinc hfit
  exact ⟨m', _, h1, h2, fun i j _ _ e => nan_scalOp h _ e⟩

/-- C53, AXPYM on the SIMD AXPYV: what B holds always counts, ALPHA and A unless ALPHA compares equal to zero. -/
theorem C53_axpym_simd (m : Mem F) (SIDE : Char) (M N : Int) (ALPHA : Scal F) (A LDA INCA B LDB INCB : Int) (Av Bv : Nat → Nat → Quat F)
    (hA : SMatAt m A INCA LDA M.toNat N.toNat Av) (hB : SMatAt m B INCB LDB M.toNat N.toNat Bv)
    (hinc : 0 < INCB) (hfit : ((M.toNat:Int) - 1) * INCB + 1 ≤ LDB)
    (hdis : Apart (SMatCell A INCA LDA M.toNat N.toNat) (SMatCell B INCB LDB M.toNat N.toNat)) :
    ∃ m' V, axpym axpyvAVX SIDE 'N' M N ALPHA A LDA INCA B LDB INCB m = .ok ((), m') ∧ SMatAt m' B INCB LDB M.toNat N.toNat V ∧
      ∀ i j, i < M.toNat → j < N.toNat → ((Bv i j).HasNaN bad → (V i j).HasNaN bad) ∧
        (ALPHA.eqZero = false → (ALPHA.HasNaN bad ∨ (Av i j).HasNaN bad) → (V i j).HasNaN bad) := by
  obtain ⟨m', h1, h2⟩ := axpymS_bits (SIDE := SIDE) (ALPHA := ALPHA) hA hB hinc hfit hdis
  refine ⟨m', _, h1, h2, fun i j _ _ => ⟨fun e => ?_, fun ez e => ?_⟩⟩
  · try dsimp only
    split
    · exact e
    · exact nan_axpyOp h _ (Or.inl e)
  · try dsimp only
    rw [ez, if_neg Bool.false_ne_true]
    exact nan_axpyOp h _ (Or.inr e)

/-- C53, SCALM on the portable SCALV. -/
theorem C53_scalm_portable (m : Mem F) (SIDE : Char) (M N : Int) (ALPHA : Scal F) (A LDA INCA : Int) (Av : Nat → Nat → Quat F)
    (hA : SMatAt m A INCA LDA M.toNat N.toNat Av) (hinc : 0 < INCA) (hfit : ((M.toNat:Int) - 1) * INCA + 1 ≤ LDA) (f32 : Fits32 (M * INCA)) :
    ∃ m' V, scalm scalvGen SIDE 'N' M N ALPHA A LDA INCA m = .ok ((), m') ∧ SMatAt m' A INCA LDA M.toNat N.toNat V ∧
      ∀ i j, i < M.toNat → j < N.toNat → (ALPHA.HasNaN bad ∨ (Av i j).HasNaN bad) → (V i j).HasNaN bad := by
  obtain ⟨m', h1, h2⟩ := scalmP_bits (SIDE := SIDE) (ALPHA := ALPHA) hA hinc hfit f32
  refine ⟨m', _, h1, h2, fun i j _ _ e => ?_⟩
  try dsimp only
  split
  · exact nan_smulR h e
  · exact nan_smulL h e

/-- C53, AXPYM on the portable AXPYV: what B holds always counts, ALPHA and A unless ALPHA compares equal to zero. -/
theorem C53_axpym_portable (m : Mem F) (SIDE : Char) (M N : Int) (ALPHA : Scal F) (A LDA INCA B LDB INCB : Int) (Av Bv : Nat → Nat → Quat F)
    (hA : SMatAt m A INCA LDA M.toNat N.toNat Av) (hB : SMatAt m B INCB LDB M.toNat N.toNat Bv)
    (hinc : 0 < INCB) (hfit : ((M.toNat:Int) - 1) * INCB + 1 ≤ LDB)
    (hdis : Apart (SMatCell A INCA LDA M.toNat N.toNat) (SMatCell B INCB LDB M.toNat N.toNat)) (hia : 0 < INCA) (fa : Fits32 (M * INCA)) (fb : Fits32 (M * INCB)) :
    ∃ m' V, axpym axpyvGen SIDE 'N' M N ALPHA A LDA INCA B LDB INCB m = .ok ((), m') ∧ SMatAt m' B INCB LDB M.toNat N.toNat V ∧
      ∀ i j, i < M.toNat → j < N.toNat → ((Bv i j).HasNaN bad → (V i j).HasNaN bad) ∧
        (ALPHA.eqZero = false → (ALPHA.HasNaN bad ∨ (Av i j).HasNaN bad) → (V i j).HasNaN bad) := by
  obtain ⟨m', h1, h2⟩ := axpymP_bits (SIDE := SIDE) (ALPHA := ALPHA) hA hB hia hinc hfit fa fb hdis
  refine ⟨m', _, h1, h2, fun i j _ _ => ⟨fun e => ?_, fun ez e => ?_⟩⟩
  · try dsimp only
    split
    · exact e
    · exact nan_addL h e
  · try dsimp only
    rw [ez, if_neg Bool.false_ne_true]
    apply nan_addR h
    split
    · exact nan_smulR h e
    · exact nan_smulL h e

/-- C53, SCALM on the Fortran SCALV. -/
theorem C53_scalm_fortran (m : Mem F) (SIDE : Char) (M N : Int) (ALPHA : Scal F) (A LDA INCA : Int) (Av : Nat → Nat → Quat F)
    (hA : SMatAt m A INCA LDA M.toNat N.toNat Av) (hinc : 0 < INCA) (hfit : ((M.toNat:Int) - 1) * INCA + 1 ≤ LDA) :
    ∃ m' V, scalm scalvF SIDE 'N' M N ALPHA A LDA INCA m = .ok ((), m') ∧ SMatAt m' A INCA LDA M.toNat N.toNat V ∧
      ∀ i j, i < M.toNat → j < N.toNat → ((Av i j).HasNaN bad → (V i j).HasNaN bad) ∧
        (ALPHA.vIsZero = false → ALPHA.HasNaN bad → (V i j).AllNaN bad) := by
  obtain ⟨m', h1, h2⟩ := scalmF_bits (SIDE := SIDE) (ALPHA := ALPHA) hA hinc hfit
  refine ⟨m', _, h1, h2, fun i j _ _ => ⟨fun e => ?_, fun hz e => ?_⟩⟩
  · try dsimp only
    split
    · exact e
    · exact nan_fScalV h _ e
  · try dsimp only
    rw [hz, if_neg Bool.false_ne_true]; exact nan_fScalV_alpha h _ e

/-- C53, AXPYM on the Fortran AXPYV: what B holds always counts, ALPHA and A unless ALPHA compares equal to zero. -/
theorem C53_axpym_fortran (m : Mem F) (SIDE : Char) (M N : Int) (ALPHA : Scal F) (A LDA INCA B LDB INCB : Int) (Av Bv : Nat → Nat → Quat F)
    (hA : SMatAt m A INCA LDA M.toNat N.toNat Av) (hB : SMatAt m B INCB LDB M.toNat N.toNat Bv)
    (hinc : 0 < INCB) (hfit : ((M.toNat:Int) - 1) * INCB + 1 ≤ LDB)
    (hdis : Apart (SMatCell A INCA LDA M.toNat N.toNat) (SMatCell B INCB LDB M.toNat N.toNat)) (hia : 0 < INCA) :
    ∃ m' V, axpym axpyvF SIDE 'N' M N ALPHA A LDA INCA B LDB INCB m = .ok ((), m') ∧ SMatAt m' B INCB LDB M.toNat N.toNat V ∧
      ∀ i j, i < M.toNat → j < N.toNat → ((Bv i j).HasNaN bad → (V i j).HasNaN bad) ∧
        (ALPHA.eqZero = false → ALPHA.vIsZero = false → (Av i j).HasNaN bad → (V i j).HasNaN bad) ∧
        (ALPHA.eqZero = false → ALPHA.vIsZero = false → ALPHA.HasNaN bad → (V i j).AllNaN bad) := by
  obtain ⟨m', h1, h2⟩ := axpymF_bits (SIDE := SIDE) (ALPHA := ALPHA) hA hB hia hinc hfit hdis
  refine ⟨m', _, h1, h2, fun i j _ _ => ⟨fun e => ?_, fun ez hz e => ?_, fun ez hz e => ?_⟩⟩
  · try dsimp only
    split
    · exact e
    split
    · exact e
    · exact nan_fAxpyV h _ (Or.inr e)
  · try dsimp only
    rw [ez, if_neg Bool.false_ne_true, hz, if_neg Bool.false_ne_true]; exact nan_fAxpyV h _ (Or.inl e)
  · try dsimp only
    rw [ez, if_neg Bool.false_ne_true, hz, if_neg Bool.false_ne_true]; exact nan_fAxpyV_alpha h _ e

end nan


section exact
variable {F : Type} [Arith F] [ArithEq F] {u Bd : ℝ}
open IntModel

/-- C59, SCALM on the SIMD SCALV. -/
theorem C59_scalm (I : IntModel F u Bd) (m : Mem F) (SIDE : Char) (M N : Int) (ALPHA : Scal F) (A LDA INCA : Int) (Av : Nat → Nat → Quat F)
    (hA : SMatAt m A INCA LDA M.toNat N.toNat Av) (hinc : 0 < INCA) (hfit : ((M.toNat:Int) - 1) * INCA + 1 ≤ LDA) (s t : ℝ)
    (hα : I.IntS s ALPHA) (hx : I.IntMat t M.toNat N.toNat Av) (hBd : 4 * (s * t) ≤ Bd) :
    ∃ m' V, scalm scalvAVX SIDE 'N' M N ALPHA A LDA INCA m = .ok ((), m') ∧ SMatAt m' A INCA LDA M.toNat N.toNat V ∧
      ∀ i j, i < M.toNat → j < N.toNat → I.Is (V i j)
        (if SIDE = 'L' then (ALPHA.map I.val).toH * ((Av i j).map I.val).toH
         else ((Av i j).map I.val).toH * (ALPHA.map I.val).toH) := by
  obtain ⟨m', h1, h2⟩ := scalmS_bits (SIDE := SIDE) (ALPHA := ALPHA) hA hinc hfit
  refine ⟨m', _, h1, h2, fun i j hi hj => ?_⟩
  have := (EQ.scalOp (SIDE == 'L') hα.e (hx i j hi hj).e hBd).is
  rw [toH_scalOp] at this
  by_cases hs : SIDE = 'L' <;> simpa [hs] using this

/-- C59, AXPYM on the SIMD AXPYV (the test of ALPHA for zero being right, as it is unless only its k component is non-zero). -/
theorem C59_axpym (I : IntModel F u Bd) (m : Mem F) (SIDE : Char) (M N : Int) (ALPHA : Scal F) (A LDA INCA B LDB INCB : Int) (Av Bv : Nat → Nat → Quat F)
    (hA : SMatAt m A INCA LDA M.toNat N.toNat Av) (hB : SMatAt m B INCB LDB M.toNat N.toNat Bv)
    (hinc : 0 < INCB) (hfit : ((M.toNat:Int) - 1) * INCB + 1 ≤ LDB)
    (hdis : Apart (SMatCell A INCA LDA M.toNat N.toNat) (SMatCell B INCB LDB M.toNat N.toNat))
    (hZ : ALPHA.eqZero = true → (ALPHA.map I.val).toH = 0) (s t w : ℝ)
    (hα : I.IntS s ALPHA) (hx : I.IntMat t M.toNat N.toNat Av) (hy : I.IntMat w M.toNat N.toNat Bv)
    (hBd : w + 4 * (s * t) ≤ Bd) :
    ∃ m' V, axpym axpyvAVX SIDE 'N' M N ALPHA A LDA INCA B LDB INCB m = .ok ((), m') ∧ SMatAt m' B INCB LDB M.toNat N.toNat V ∧
      ∀ i j, i < M.toNat → j < N.toNat → I.Is (V i j) (((Bv i j).map I.val).toH +
        (if SIDE = 'L' then (ALPHA.map I.val).toH * ((Av i j).map I.val).toH
         else ((Av i j).map I.val).toH * (ALPHA.map I.val).toH)) := by
  obtain ⟨m', h1, h2⟩ := axpymS_bits (SIDE := SIDE) (ALPHA := ALPHA) hA hB hinc hfit hdis
  refine ⟨m', _, h1, h2, fun i j hi hj => ?_⟩
  try dsimp only
  cases ez : ALPHA.eqZero with
  | true =>
    rw [if_pos rfl, hZ ez]
    simpa using (hy i j hi hj).e.is
  | false =>
    rw [if_neg Bool.false_ne_true]
    have := (EQ.axpyOp (SIDE == 'L') hα.e (hx i j hi hj).e (hy i j hi hj).e hBd).is
    rw [toH_axpyOp] at this
    by_cases hs : SIDE = 'L' <;> simpa [hs] using this

/-- C59, SCALM on the portable SCALV. -/
theorem C59_scalm_portable (I : IntModel F u Bd) (m : Mem F) (SIDE : Char) (M N : Int) (ALPHA : Scal F) (A LDA INCA : Int) (Av : Nat → Nat → Quat F)
    (hA : SMatAt m A INCA LDA M.toNat N.toNat Av) (hinc : 0 < INCA) (hfit : ((M.toNat:Int) - 1) * INCA + 1 ≤ LDA) (f32 : Fits32 (M * INCA)) (s t : ℝ)
    (hα : I.IntS s ALPHA) (hx : I.IntMat t M.toNat N.toNat Av) (hBd : 4 * (s * t) ≤ Bd) :
    ∃ m' V, scalm scalvGen SIDE 'N' M N ALPHA A LDA INCA m = .ok ((), m') ∧ SMatAt m' A INCA LDA M.toNat N.toNat V ∧
      ∀ i j, i < M.toNat → j < N.toNat → I.Is (V i j)
        (if SIDE = 'R' then ((Av i j).map I.val).toH * (ALPHA.map I.val).toH
         else (ALPHA.map I.val).toH * ((Av i j).map I.val).toH) := by
  obtain ⟨m', h1, h2⟩ := scalmP_bits (SIDE := SIDE) (ALPHA := ALPHA) hA hinc hfit f32
  refine ⟨m', _, h1, h2, fun i j hi hj => ?_⟩
  have l := (EQ.mulL hα.e (hx i j hi hj).e hBd).is
  have r := (EQ.mulR hα.e (hx i j hi hj).e hBd).is
  rw [StdModel.toH_mulL] at l
  rw [StdModel.toH_mulR] at r
  by_cases hs : SIDE = 'R' <;> simpa [hs]

/-- C59, AXPYM on the portable AXPYV (the test of ALPHA for zero being right, as it is unless only its k component is non-zero). -/
theorem C59_axpym_portable (I : IntModel F u Bd) (m : Mem F) (SIDE : Char) (M N : Int) (ALPHA : Scal F) (A LDA INCA B LDB INCB : Int) (Av Bv : Nat → Nat → Quat F)
    (hA : SMatAt m A INCA LDA M.toNat N.toNat Av) (hB : SMatAt m B INCB LDB M.toNat N.toNat Bv)
    (hinc : 0 < INCB) (hfit : ((M.toNat:Int) - 1) * INCB + 1 ≤ LDB)
    (hdis : Apart (SMatCell A INCA LDA M.toNat N.toNat) (SMatCell B INCB LDB M.toNat N.toNat)) (hia : 0 < INCA) (fa : Fits32 (M * INCA)) (fb : Fits32 (M * INCB))
    (hZ : ALPHA.eqZero = true → (ALPHA.map I.val).toH = 0) (s t w : ℝ)
    (hα : I.IntS s ALPHA) (hx : I.IntMat t M.toNat N.toNat Av) (hy : I.IntMat w M.toNat N.toNat Bv)
    (hBd : w + 4 * (s * t) ≤ Bd) :
    ∃ m' V, axpym axpyvGen SIDE 'N' M N ALPHA A LDA INCA B LDB INCB m = .ok ((), m') ∧ SMatAt m' B INCB LDB M.toNat N.toNat V ∧
      ∀ i j, i < M.toNat → j < N.toNat → I.Is (V i j) (((Bv i j).map I.val).toH +
        (if SIDE = 'R' then ((Av i j).map I.val).toH * (ALPHA.map I.val).toH
         else (ALPHA.map I.val).toH * ((Av i j).map I.val).toH)) := by
  obtain ⟨m', h1, h2⟩ := axpymP_bits (SIDE := SIDE) (ALPHA := ALPHA) hA hB hia hinc hfit fa fb hdis
  refine ⟨m', _, h1, h2, fun i j hi hj => ?_⟩
  try dsimp only
  cases ez : ALPHA.eqZero with
  | true =>
    rw [if_pos rfl, hZ ez]
    simpa using (hy i j hi hj).e.is
  | false =>
    rw [if_neg Bool.false_ne_true]
    have w0 := (hy i j hi hj).e.nonneg
    have l := (EQ.addAssign (hy i j hi hj).e (EQ.mulL hα.e (hx i j hi hj).e (by linarith)) hBd).is
    have r := (EQ.addAssign (hy i j hi hj).e (EQ.mulR hα.e (hx i j hi hj).e (by linarith)) hBd).is
    rw [StdModel.toH_addAssign, StdModel.toH_mulL] at l
    rw [StdModel.toH_addAssign, StdModel.toH_mulR] at r
    by_cases hs : SIDE = 'R' <;> simpa [hs]

/-- C59, SCALM on the Fortran SCALV, ALPHA not comparing equal to zero. -/
theorem C59_scalm_fortran (I : IntModel F u Bd) (m : Mem F) (SIDE : Char) (M N : Int) (ALPHA : Scal F) (A LDA INCA : Int) (Av : Nat → Nat → Quat F)
    (hA : SMatAt m A INCA LDA M.toNat N.toNat Av) (hinc : 0 < INCA) (hfit : ((M.toNat:Int) - 1) * INCA + 1 ≤ LDA) (hz : ALPHA.vIsZero = false) (s t : ℝ)
    (hα : I.IntS s ALPHA) (hx : I.IntMat t M.toNat N.toNat Av) (hBd : 4 * (s * t) ≤ Bd) :
    ∃ m' V, scalm scalvF SIDE 'N' M N ALPHA A LDA INCA m = .ok ((), m') ∧ SMatAt m' A INCA LDA M.toNat N.toNat V ∧
      ∀ i j, i < M.toNat → j < N.toNat → I.Is (V i j)
        (if SIDE = 'R' ∨ SIDE = 'r' then ((Av i j).map I.val).toH * (ALPHA.map I.val).toH
         else (ALPHA.map I.val).toH * ((Av i j).map I.val).toH) := by
  obtain ⟨m', h1, h2⟩ := scalmF_bits (SIDE := SIDE) (ALPHA := ALPHA) hA hinc hfit
  refine ⟨m', _, h1, h2, fun i j hi hj => ?_⟩
  try dsimp only
  rw [hz, if_neg Bool.false_ne_true]
  have := (EQ.fScalV (lsame 'R' SIDE) hα.e (hx i j hi hj).e hBd).is
  rw [toH_fScalV] at this
  simpa only [lsame_R_iff] using this

/-- C59, AXPYM on the Fortran AXPYV (the test of ALPHA for zero being right, as it is unless only its k component is non-zero). -/
theorem C59_axpym_fortran (I : IntModel F u Bd) (m : Mem F) (SIDE : Char) (M N : Int) (ALPHA : Scal F) (A LDA INCA B LDB INCB : Int) (Av Bv : Nat → Nat → Quat F)
    (hA : SMatAt m A INCA LDA M.toNat N.toNat Av) (hB : SMatAt m B INCB LDB M.toNat N.toNat Bv)
    (hinc : 0 < INCB) (hfit : ((M.toNat:Int) - 1) * INCB + 1 ≤ LDB)
    (hdis : Apart (SMatCell A INCA LDA M.toNat N.toNat) (SMatCell B INCB LDB M.toNat N.toNat)) (hia : 0 < INCA)
    (heq : ∀ a b : F, (a ==ᶠ b) = true → I.val a = I.val b)
    (hZ : ALPHA.eqZero = true → (ALPHA.map I.val).toH = 0) (s t w : ℝ)
    (hα : I.IntS s ALPHA) (hx : I.IntMat t M.toNat N.toNat Av) (hy : I.IntMat w M.toNat N.toNat Bv)
    (hBd : w + 4 * (s * t) ≤ Bd) :
    ∃ m' V, axpym axpyvF SIDE 'N' M N ALPHA A LDA INCA B LDB INCB m = .ok ((), m') ∧ SMatAt m' B INCB LDB M.toNat N.toNat V ∧
      ∀ i j, i < M.toNat → j < N.toNat → I.Is (V i j) (((Bv i j).map I.val).toH +
        (if SIDE = 'R' ∨ SIDE = 'r' then ((Av i j).map I.val).toH * (ALPHA.map I.val).toH
         else (ALPHA.map I.val).toH * ((Av i j).map I.val).toH)) := by
  obtain ⟨m', h1, h2⟩ := axpymF_bits (SIDE := SIDE) (ALPHA := ALPHA) hA hB hia hinc hfit hdis
  refine ⟨m', _, h1, h2, fun i j hi hj => ?_⟩
  try dsimp only
  cases ez : ALPHA.eqZero with
  | true =>
    rw [if_pos rfl, hZ ez]
    simpa using (hy i j hi hj).e.is
  | false =>
    rw [if_neg Bool.false_ne_true]
    cases hz : ALPHA.vIsZero with
    | true =>
      rw [if_pos rfl, vIsZero_toH I.toStdModel heq hz]
      simpa using (hy i j hi hj).e.is
    | false =>
      rw [if_neg Bool.false_ne_true]
      have := (EQ.fAxpyV (lsame 'R' SIDE) hα.e (hx i j hi hj).e (hy i j hi hj).e hBd).is
      rw [toH_fAxpyV] at this
      simpa only [lsame_R_iff] using this

end exact


section fin
variable {F : Type} [Arith F] [ArithEq F] {u η Ω : ℝ}
open FinModel Room

/-- C60, SCALM on the SIMD SCALV. -/
theorem C60_scalm (J : FinModel F u η Ω) (m : Mem F) (SIDE : Char) (M N : Int) (ALPHA : Scal F) (A LDA INCA : Int) (Av : Nat → Nat → Quat F)
    (hA : SMatAt m A INCA LDA M.toNat N.toNat Av) (hinc : 0 < INCA) (hfit : ((M.toNat:Int) - 1) * INCA + 1 ≤ LDA) (s t : ℝ)
    (hs1 : 1 ≤ s) (ht1 : 1 ≤ t)
    (hα : J.BddS s ALPHA) (hx : J.BddMat t M.toNat N.toNat Av) (hB : J.Fits 4 (4 * (s * t))) :
    ∃ m' V, scalm scalvAVX SIDE 'N' M N ALPHA A LDA INCA m = .ok ((), m') ∧ SMatAt m' A INCA LDA M.toNat N.toNat V ∧
      ∀ i j, i < M.toNat → j < N.toNat → J.Near (J.Err 4 (4 * (s * t))) (V i j)
        (if SIDE = 'L' then (ALPHA.map J.val).toH * ((Av i j).map J.val).toH
         else ((Av i j).map J.val).toH * (ALPHA.map J.val).toH) := by
  obtain ⟨m', h1, h2⟩ := scalmS_bits (SIDE := SIDE) (ALPHA := ALPHA) hA hinc hfit
  refine ⟨m', _, h1, h2, fun i j hi hj => ?_⟩
  have := near (h := hB) (WQ.scalOp (SIDE == 'L') hα.w (hx i j hi hj).w (one_le_mul' hs1 ht1) le_rfl (by rmn)) (by omega)
  rw [toH_scalOp] at this
  by_cases hs : SIDE = 'L' <;> simpa [hs] using this

/-- C60, AXPYM on the SIMD AXPYV (the test of ALPHA for zero being right, as it is unless only its k component is non-zero). -/
theorem C60_axpym (J : FinModel F u η Ω) (m : Mem F) (SIDE : Char) (M N : Int) (ALPHA : Scal F) (A LDA INCA B LDB INCB : Int) (Av Bv : Nat → Nat → Quat F)
    (hA : SMatAt m A INCA LDA M.toNat N.toNat Av) (hB : SMatAt m B INCB LDB M.toNat N.toNat Bv)
    (hinc : 0 < INCB) (hfit : ((M.toNat:Int) - 1) * INCB + 1 ≤ LDB)
    (hdis : Apart (SMatCell A INCA LDA M.toNat N.toNat) (SMatCell B INCB LDB M.toNat N.toNat))
    (hZ : ALPHA.eqZero = true → (ALPHA.map J.val).toH = 0) (s t w : ℝ) (hs1 : 1 ≤ s) (ht1 : 1 ≤ t)
    (hα : J.BddS s ALPHA) (hx : J.BddMat t M.toNat N.toNat Av) (hy : J.BddMat w M.toNat N.toNat Bv)
    (hF : J.Fits 5 (w + 4 * (s * t))) :
    ∃ m' V, axpym axpyvAVX SIDE 'N' M N ALPHA A LDA INCA B LDB INCB m = .ok ((), m') ∧ SMatAt m' B INCB LDB M.toNat N.toNat V ∧
      ∀ i j, i < M.toNat → j < N.toNat → J.Near (J.Err 5 (w + 4 * (s * t))) (V i j) (((Bv i j).map J.val).toH +
        (if SIDE = 'L' then (ALPHA.map J.val).toH * ((Av i j).map J.val).toH
         else ((Av i j).map J.val).toH * (ALPHA.map J.val).toH)) := by
  obtain ⟨m', h1, h2⟩ := axpymS_bits (SIDE := SIDE) (ALPHA := ALPHA) hA hB hinc hfit hdis
  refine ⟨m', _, h1, h2, fun i j hi hj => ?_⟩
  try dsimp only
  cases ez : ALPHA.eqZero with
  | true =>
    rw [if_pos rfl, hZ ez]
    have w1 : w ≤ w + 4 * (s * t) := by nlinarith
    simpa using near (h := hF) ((hy i j hi hj).w.mono (q := 0) le_rfl w1) (by omega)
  | false =>
    rw [if_neg Bool.false_ne_true]
    have := near (h := hF) (WQ.axpyOp (SIDE == 'L') hα.w (hx i j hi hj).w (hy i j hi hj).w (one_le_mul' hs1 ht1) le_rfl (by rmn)) (by omega)
    rw [toH_axpyOp] at this
    by_cases hs : SIDE = 'L' <;> simpa [hs] using this

/-- C60, SCALM on the portable SCALV. -/
theorem C60_scalm_portable (J : FinModel F u η Ω) (m : Mem F) (SIDE : Char) (M N : Int) (ALPHA : Scal F) (A LDA INCA : Int) (Av : Nat → Nat → Quat F)
    (hA : SMatAt m A INCA LDA M.toNat N.toNat Av) (hinc : 0 < INCA) (hfit : ((M.toNat:Int) - 1) * INCA + 1 ≤ LDA) (f32 : Fits32 (M * INCA)) (s t : ℝ)
    (hs1 : 1 ≤ s) (ht1 : 1 ≤ t)
    (hα : J.BddS s ALPHA) (hx : J.BddMat t M.toNat N.toNat Av) (hB : J.Fits 4 (4 * (s * t))) :
    ∃ m' V, scalm scalvGen SIDE 'N' M N ALPHA A LDA INCA m = .ok ((), m') ∧ SMatAt m' A INCA LDA M.toNat N.toNat V ∧
      ∀ i j, i < M.toNat → j < N.toNat → J.Near (J.Err 4 (4 * (s * t))) (V i j)
        (if SIDE = 'R' then ((Av i j).map J.val).toH * (ALPHA.map J.val).toH
         else (ALPHA.map J.val).toH * ((Av i j).map J.val).toH) := by
  obtain ⟨m', h1, h2⟩ := scalmP_bits (SIDE := SIDE) (ALPHA := ALPHA) hA hinc hfit f32
  refine ⟨m', _, h1, h2, fun i j hi hj => ?_⟩
  have l := near (h := hB) (WQ.mulL hα.w (hx i j hi hj).w (.inr (one_le_mul' hs1 ht1)) le_rfl (by rmn)) (by omega)
  have r := near (h := hB) (WQ.mulR hα.w (hx i j hi hj).w (one_le_mul' hs1 ht1) le_rfl (by rmn)) (by omega)
  rw [StdModel.toH_mulL] at l
  rw [StdModel.toH_mulR] at r
  by_cases hs : SIDE = 'R' <;> simpa [hs]

/-- C60, AXPYM on the portable AXPYV (the test of ALPHA for zero being right, as it is unless only its k component is non-zero). -/
theorem C60_axpym_portable (J : FinModel F u η Ω) (m : Mem F) (SIDE : Char) (M N : Int) (ALPHA : Scal F) (A LDA INCA B LDB INCB : Int) (Av Bv : Nat → Nat → Quat F)
    (hA : SMatAt m A INCA LDA M.toNat N.toNat Av) (hB : SMatAt m B INCB LDB M.toNat N.toNat Bv)
    (hinc : 0 < INCB) (hfit : ((M.toNat:Int) - 1) * INCB + 1 ≤ LDB)
    (hdis : Apart (SMatCell A INCA LDA M.toNat N.toNat) (SMatCell B INCB LDB M.toNat N.toNat)) (hia : 0 < INCA) (fa : Fits32 (M * INCA)) (fb : Fits32 (M * INCB))
    (hZ : ALPHA.eqZero = true → (ALPHA.map J.val).toH = 0) (s t w : ℝ) (hs1 : 1 ≤ s) (ht1 : 1 ≤ t)
    (hα : J.BddS s ALPHA) (hx : J.BddMat t M.toNat N.toNat Av) (hy : J.BddMat w M.toNat N.toNat Bv)
    (hF : J.Fits 5 (w + 4 * (s * t))) :
    ∃ m' V, axpym axpyvGen SIDE 'N' M N ALPHA A LDA INCA B LDB INCB m = .ok ((), m') ∧ SMatAt m' B INCB LDB M.toNat N.toNat V ∧
      ∀ i j, i < M.toNat → j < N.toNat → J.Near (J.Err 5 (w + 4 * (s * t))) (V i j) (((Bv i j).map J.val).toH +
        (if SIDE = 'R' then ((Av i j).map J.val).toH * (ALPHA.map J.val).toH
         else (ALPHA.map J.val).toH * ((Av i j).map J.val).toH)) := by
  obtain ⟨m', h1, h2⟩ := axpymP_bits (SIDE := SIDE) (ALPHA := ALPHA) hA hB hia hinc hfit fa fb hdis
  refine ⟨m', _, h1, h2, fun i j hi hj => ?_⟩
  try dsimp only
  cases ez : ALPHA.eqZero with
  | true =>
    rw [if_pos rfl, hZ ez]
    have w1 : w ≤ w + 4 * (s * t) := by nlinarith
    simpa using near (h := hF) ((hy i j hi hj).w.mono (q := 0) le_rfl w1) (by omega)
  | false =>
    rw [if_neg Bool.false_ne_true]
    have w0 := (abs_nonneg _).trans (hy i j hi hj).1.2
    have l := near (h := hF) (WQ.addAssign (hy i j hi hj).w (WQ.mulL hα.w (hx i j hi hj).w (.inr (one_le_mul' hs1 ht1))
      (by change 4 * (s * t) ≤ w + 4 * (s * t); linarith) (by rmn)) le_rfl (by rmn)) (by omega)
    have r := near (h := hF) (WQ.addAssign (hy i j hi hj).w (WQ.mulR hα.w (hx i j hi hj).w (one_le_mul' hs1 ht1)
      (by change 4 * (s * t) ≤ w + 4 * (s * t); linarith) (by rmn)) le_rfl (by rmn)) (by omega)
    rw [StdModel.toH_addAssign, StdModel.toH_mulL] at l
    rw [StdModel.toH_addAssign, StdModel.toH_mulR] at r
    by_cases hs : SIDE = 'R' <;> simpa [hs]

/-- C60, SCALM on the Fortran SCALV, ALPHA not comparing equal to zero. -/
theorem C60_scalm_fortran (J : FinModel F u η Ω) (m : Mem F) (SIDE : Char) (M N : Int) (ALPHA : Scal F) (A LDA INCA : Int) (Av : Nat → Nat → Quat F)
    (hA : SMatAt m A INCA LDA M.toNat N.toNat Av) (hinc : 0 < INCA) (hfit : ((M.toNat:Int) - 1) * INCA + 1 ≤ LDA) (hz : ALPHA.vIsZero = false) (s t : ℝ)
    (hs1 : 1 ≤ s) (ht1 : 1 ≤ t)
    (hα : J.BddS s ALPHA) (hx : J.BddMat t M.toNat N.toNat Av) (hB : J.Fits 4 (4 * (s * t))) :
    ∃ m' V, scalm scalvF SIDE 'N' M N ALPHA A LDA INCA m = .ok ((), m') ∧ SMatAt m' A INCA LDA M.toNat N.toNat V ∧
      ∀ i j, i < M.toNat → j < N.toNat → J.Near (J.Err 4 (4 * (s * t))) (V i j)
        (if SIDE = 'R' ∨ SIDE = 'r' then ((Av i j).map J.val).toH * (ALPHA.map J.val).toH
         else (ALPHA.map J.val).toH * ((Av i j).map J.val).toH) := by
  obtain ⟨m', h1, h2⟩ := scalmF_bits (SIDE := SIDE) (ALPHA := ALPHA) hA hinc hfit
  refine ⟨m', _, h1, h2, fun i j hi hj => ?_⟩
  try dsimp only
  rw [hz, if_neg Bool.false_ne_true]
  have := near (h := hB) (WQ.fScalV (lsame 'R' SIDE) hα.w (hx i j hi hj).w (one_le_mul' hs1 ht1) le_rfl (by rmn)) (by omega)
  rw [toH_fScalV] at this
  simpa only [lsame_R_iff] using this

/-- C60, AXPYM on the Fortran AXPYV (the test of ALPHA for zero being right, as it is unless only its k component is non-zero). -/
theorem C60_axpym_fortran (J : FinModel F u η Ω) (m : Mem F) (SIDE : Char) (M N : Int) (ALPHA : Scal F) (A LDA INCA B LDB INCB : Int) (Av Bv : Nat → Nat → Quat F)
    (hA : SMatAt m A INCA LDA M.toNat N.toNat Av) (hB : SMatAt m B INCB LDB M.toNat N.toNat Bv)
    (hinc : 0 < INCB) (hfit : ((M.toNat:Int) - 1) * INCB + 1 ≤ LDB)
    (hdis : Apart (SMatCell A INCA LDA M.toNat N.toNat) (SMatCell B INCB LDB M.toNat N.toNat)) (hia : 0 < INCA)
    (heq : ∀ a b : F, (a ==ᶠ b) = true → J.val a = J.val b)
    (hZ : ALPHA.eqZero = true → (ALPHA.map J.val).toH = 0) (s t w : ℝ) (hs1 : 1 ≤ s) (ht1 : 1 ≤ t)
    (hα : J.BddS s ALPHA) (hx : J.BddMat t M.toNat N.toNat Av) (hy : J.BddMat w M.toNat N.toNat Bv)
    (hF : J.Fits 5 (w + 4 * (s * t))) :
    ∃ m' V, axpym axpyvF SIDE 'N' M N ALPHA A LDA INCA B LDB INCB m = .ok ((), m') ∧ SMatAt m' B INCB LDB M.toNat N.toNat V ∧
      ∀ i j, i < M.toNat → j < N.toNat → J.Near (J.Err 5 (w + 4 * (s * t))) (V i j) (((Bv i j).map J.val).toH +
        (if SIDE = 'R' ∨ SIDE = 'r' then ((Av i j).map J.val).toH * (ALPHA.map J.val).toH
         else (ALPHA.map J.val).toH * ((Av i j).map J.val).toH)) := by
  obtain ⟨m', h1, h2⟩ := axpymF_bits (SIDE := SIDE) (ALPHA := ALPHA) hA hB hia hinc hfit hdis
  refine ⟨m', _, h1, h2, fun i j hi hj => ?_⟩
  try dsimp only
  cases ez : ALPHA.eqZero with
  | true =>
    rw [if_pos rfl, hZ ez]
    have w1 : w ≤ w + 4 * (s * t) := by nlinarith
    simpa using near (h := hF) ((hy i j hi hj).w.mono (q := 0) le_rfl w1) (by omega)
  | false =>
    rw [if_neg Bool.false_ne_true]
    cases hz : ALPHA.vIsZero with
    | true =>
      rw [if_pos rfl, FinModel.vIsZero_toH J heq hz]
      have w1 : w ≤ w + 4 * (s * t) := by nlinarith
      simpa using near (h := hF) ((hy i j hi hj).w.mono (q := 0) le_rfl w1) (by omega)
    | false =>
      rw [if_neg Bool.false_ne_true]
      have := near (h := hF) (WQ.fAxpyV (lsame 'R' SIDE) hα.w (hx i j hi hj).w (hy i j hi hj).w (one_le_mul' hs1 ht1) le_rfl (by rmn)) (by omega)
      rw [toH_fAxpyV] at this
      simpa only [lsame_R_iff] using this

end fin


section units
open Haxx.Units
variable {F F' G : Type} [Arith F] [ArithEq F] [Arith F'] [ArithEq F'] [CommMonoid G]
variable (U : Units F F' G) (r g : G)

/-- C64, SCALM on the SIMD SCALV. -/
theorem C64_scalm (m : Mem F) (SIDE : Char) (M N : Int) (ALPHA : Scal F) (A LDA INCA : Int) (Av : Nat → Nat → Quat F)
    (hA : SMatAt m A INCA LDA M.toNat N.toNat Av) (hinc : 0 < INCA) (hfit : ((M.toNat:Int) - 1) * INCA + 1 ≤ LDA)
    (n : Mem F') (ALPHA' : Scal F') (A' LDA' INCA' : Int) (Av' : Nat → Nat → Quat F')
    (hA' : SMatAt n A' INCA' LDA' M.toNat N.toNat Av') (hinc' : 0 < INCA') (hfit' : ((M.toNat:Int) - 1) * INCA' + 1 ≤ LDA')
    (hα : U.SD r ALPHA ALPHA') (hx : U.Mat g M.toNat N.toNat Av Av') :
    ∃ m' n' V V', scalm scalvAVX SIDE 'N' M N ALPHA A LDA INCA m = .ok ((), m') ∧
      scalm scalvAVX SIDE 'N' M N ALPHA' A' LDA' INCA' n = .ok ((), n') ∧
      SMatAt m' A INCA LDA M.toNat N.toNat V ∧ SMatAt n' A' INCA' LDA' M.toNat N.toNat V' ∧
      U.MatR (r * g) M.toNat N.toNat V V' := by
  obtain ⟨m', a1, a2⟩ := scalmS_bits (SIDE := SIDE) (ALPHA := ALPHA) hA hinc hfit
  obtain ⟨n', b1, b2⟩ := scalmS_bits (SIDE := SIDE) (ALPHA := ALPHA') hA' hinc' hfit'
  exact ⟨m', n', _, _, a1, b1, a2, b2, fun i j hi hj => Q.scalOp _ hα.s (hx i j hi hj).q⟩

/-- C64, AXPYM on the SIMD AXPYV. -/
theorem C64_axpym (m : Mem F) (SIDE : Char) (M N : Int) (ALPHA : Scal F) (A LDA INCA B LDB INCB : Int) (Av Bv : Nat → Nat → Quat F)
    (hA : SMatAt m A INCA LDA M.toNat N.toNat Av) (hB : SMatAt m B INCB LDB M.toNat N.toNat Bv)
    (hinc : 0 < INCB) (hfit : ((M.toNat:Int) - 1) * INCB + 1 ≤ LDB)
    (hdis : Apart (SMatCell A INCA LDA M.toNat N.toNat) (SMatCell B INCB LDB M.toNat N.toNat))
    (n : Mem F') (ALPHA' : Scal F') (A' LDA' INCA' B' LDB' INCB' : Int) (Av' Bv' : Nat → Nat → Quat F')
    (hA' : SMatAt n A' INCA' LDA' M.toNat N.toNat Av') (hB' : SMatAt n B' INCB' LDB' M.toNat N.toNat Bv')
    (hinc' : 0 < INCB') (hfit' : ((M.toNat:Int) - 1) * INCB' + 1 ≤ LDB')
    (hdis' : Apart (SMatCell A' INCA' LDA' M.toNat N.toNat) (SMatCell B' INCB' LDB' M.toNat N.toNat))
    (hα : U.SD r ALPHA ALPHA') (hx : U.Mat g M.toNat N.toNat Av Av') (hy : U.Mat (r * g) M.toNat N.toNat Bv Bv') :
    ∃ m' n' V V', axpym axpyvAVX SIDE 'N' M N ALPHA A LDA INCA B LDB INCB m = .ok ((), m') ∧
      axpym axpyvAVX SIDE 'N' M N ALPHA' A' LDA' INCA' B' LDB' INCB' n = .ok ((), n') ∧
      SMatAt m' B INCB LDB M.toNat N.toNat V ∧ SMatAt n' B' INCB' LDB' M.toNat N.toNat V' ∧
      U.MatR (r * g) M.toNat N.toNat V V' := by
  obtain ⟨m', a1, a2⟩ := axpymS_bits (SIDE := SIDE) (ALPHA := ALPHA) hA hB hinc hfit hdis
  obtain ⟨n', b1, b2⟩ := axpymS_bits (SIDE := SIDE) (ALPHA := ALPHA') hA' hB' hinc' hfit' hdis'
  rw [← hα.eqZero] at b2
  refine ⟨m', n', _, _, a1, b1, a2, b2, fun i j hi hj => ?_⟩
  try dsimp only
  cases ez : ALPHA.eqZero with
  | true => rw [if_pos rfl, if_pos rfl]; exact (hy i j hi hj).q
  | false =>
    rw [if_neg Bool.false_ne_true, if_neg Bool.false_ne_true]
    exact Q.axpyOp _ hα.s (hx i j hi hj).q (hy i j hi hj).q

/-- C64, SCALM on the portable SCALV. -/
theorem C64_scalm_portable (m : Mem F) (SIDE : Char) (M N : Int) (ALPHA : Scal F) (A LDA INCA : Int) (Av : Nat → Nat → Quat F)
    (hA : SMatAt m A INCA LDA M.toNat N.toNat Av) (hinc : 0 < INCA) (hfit : ((M.toNat:Int) - 1) * INCA + 1 ≤ LDA) (f32 : Fits32 (M * INCA))
    (n : Mem F') (ALPHA' : Scal F') (A' LDA' INCA' : Int) (Av' : Nat → Nat → Quat F')
    (hA' : SMatAt n A' INCA' LDA' M.toNat N.toNat Av') (hinc' : 0 < INCA') (hfit' : ((M.toNat:Int) - 1) * INCA' + 1 ≤ LDA') (f32' : Fits32 (M * INCA'))
    (hα : U.SD r ALPHA ALPHA') (hx : U.Mat g M.toNat N.toNat Av Av') :
    ∃ m' n' V V', scalm scalvGen SIDE 'N' M N ALPHA A LDA INCA m = .ok ((), m') ∧
      scalm scalvGen SIDE 'N' M N ALPHA' A' LDA' INCA' n = .ok ((), n') ∧
      SMatAt m' A INCA LDA M.toNat N.toNat V ∧ SMatAt n' A' INCA' LDA' M.toNat N.toNat V' ∧
      U.MatR (r * g) M.toNat N.toNat V V' := by
  obtain ⟨m', a1, a2⟩ := scalmP_bits (SIDE := SIDE) (ALPHA := ALPHA) hA hinc hfit f32
  obtain ⟨n', b1, b2⟩ := scalmP_bits (SIDE := SIDE) (ALPHA := ALPHA') hA' hinc' hfit' f32'
  refine ⟨m', n', _, _, a1, b1, a2, b2, fun i j hi hj => ?_⟩
  try dsimp only
  split
  · exact Q.mulR hα.s (hx i j hi hj).q
  · exact Q.mulL hα.s (hx i j hi hj).q

/-- C64, AXPYM on the portable AXPYV. -/
theorem C64_axpym_portable (m : Mem F) (SIDE : Char) (M N : Int) (ALPHA : Scal F) (A LDA INCA B LDB INCB : Int) (Av Bv : Nat → Nat → Quat F)
    (hA : SMatAt m A INCA LDA M.toNat N.toNat Av) (hB : SMatAt m B INCB LDB M.toNat N.toNat Bv)
    (hinc : 0 < INCB) (hfit : ((M.toNat:Int) - 1) * INCB + 1 ≤ LDB)
    (hdis : Apart (SMatCell A INCA LDA M.toNat N.toNat) (SMatCell B INCB LDB M.toNat N.toNat)) (hia : 0 < INCA) (fa : Fits32 (M * INCA)) (fb : Fits32 (M * INCB))
    (n : Mem F') (ALPHA' : Scal F') (A' LDA' INCA' B' LDB' INCB' : Int) (Av' Bv' : Nat → Nat → Quat F')
    (hA' : SMatAt n A' INCA' LDA' M.toNat N.toNat Av') (hB' : SMatAt n B' INCB' LDB' M.toNat N.toNat Bv')
    (hinc' : 0 < INCB') (hfit' : ((M.toNat:Int) - 1) * INCB' + 1 ≤ LDB')
    (hdis' : Apart (SMatCell A' INCA' LDA' M.toNat N.toNat) (SMatCell B' INCB' LDB' M.toNat N.toNat)) (hia' : 0 < INCA') (fa' : Fits32 (M * INCA')) (fb' : Fits32 (M * INCB'))
    (hα : U.SD r ALPHA ALPHA') (hx : U.Mat g M.toNat N.toNat Av Av') (hy : U.Mat (r * g) M.toNat N.toNat Bv Bv') :
    ∃ m' n' V V', axpym axpyvGen SIDE 'N' M N ALPHA A LDA INCA B LDB INCB m = .ok ((), m') ∧
      axpym axpyvGen SIDE 'N' M N ALPHA' A' LDA' INCA' B' LDB' INCB' n = .ok ((), n') ∧
      SMatAt m' B INCB LDB M.toNat N.toNat V ∧ SMatAt n' B' INCB' LDB' M.toNat N.toNat V' ∧
      U.MatR (r * g) M.toNat N.toNat V V' := by
  obtain ⟨m', a1, a2⟩ := axpymP_bits (SIDE := SIDE) (ALPHA := ALPHA) hA hB hia hinc hfit fa fb hdis
  obtain ⟨n', b1, b2⟩ := axpymP_bits (SIDE := SIDE) (ALPHA := ALPHA') hA' hB' hia' hinc' hfit' fa' fb' hdis'
  rw [← hα.eqZero] at b2
  refine ⟨m', n', _, _, a1, b1, a2, b2, fun i j hi hj => ?_⟩
  try dsimp only
  cases ez : ALPHA.eqZero with
  | true => rw [if_pos rfl, if_pos rfl]; exact (hy i j hi hj).q
  | false =>
    rw [if_neg Bool.false_ne_true, if_neg Bool.false_ne_true]
    split
    · exact Q.addAssign (hy i j hi hj).q (Q.mulR hα.s (hx i j hi hj).q)
    · exact Q.addAssign (hy i j hi hj).q (Q.mulL hα.s (hx i j hi hj).q)

/-- C64, SCALM on the Fortran SCALV (partial: ALPHA not comparing equal to zero, C07). -/
theorem C64_scalm_fortran_partial (m : Mem F) (SIDE : Char) (M N : Int) (ALPHA : Scal F) (A LDA INCA : Int) (Av : Nat → Nat → Quat F)
    (hA : SMatAt m A INCA LDA M.toNat N.toNat Av) (hinc : 0 < INCA) (hfit : ((M.toNat:Int) - 1) * INCA + 1 ≤ LDA) (hz : ALPHA.vIsZero = false)
    (n : Mem F') (ALPHA' : Scal F') (A' LDA' INCA' : Int) (Av' : Nat → Nat → Quat F')
    (hA' : SMatAt n A' INCA' LDA' M.toNat N.toNat Av') (hinc' : 0 < INCA') (hfit' : ((M.toNat:Int) - 1) * INCA' + 1 ≤ LDA')
    (hα : U.SD r ALPHA ALPHA') (hx : U.Mat g M.toNat N.toNat Av Av') :
    ∃ m' n' V V', scalm scalvF SIDE 'N' M N ALPHA A LDA INCA m = .ok ((), m') ∧
      scalm scalvF SIDE 'N' M N ALPHA' A' LDA' INCA' n = .ok ((), n') ∧
      SMatAt m' A INCA LDA M.toNat N.toNat V ∧ SMatAt n' A' INCA' LDA' M.toNat N.toNat V' ∧
      U.MatR (r * g) M.toNat N.toNat V V' := by
  obtain ⟨m', a1, a2⟩ := scalmF_bits (SIDE := SIDE) (ALPHA := ALPHA) hA hinc hfit
  obtain ⟨n', b1, b2⟩ := scalmF_bits (SIDE := SIDE) (ALPHA := ALPHA') hA' hinc' hfit'
  rw [← hα.vIsZero] at b2
  rw [hz] at a2 b2
  exact ⟨m', n', _, _, a1, b1, a2, b2, fun i j hi hj => Q.fScalV _ hα.s (hx i j hi hj).q⟩

/-- C64, AXPYM on the Fortran AXPYV. -/
theorem C64_axpym_fortran (m : Mem F) (SIDE : Char) (M N : Int) (ALPHA : Scal F) (A LDA INCA B LDB INCB : Int) (Av Bv : Nat → Nat → Quat F)
    (hA : SMatAt m A INCA LDA M.toNat N.toNat Av) (hB : SMatAt m B INCB LDB M.toNat N.toNat Bv)
    (hinc : 0 < INCB) (hfit : ((M.toNat:Int) - 1) * INCB + 1 ≤ LDB)
    (hdis : Apart (SMatCell A INCA LDA M.toNat N.toNat) (SMatCell B INCB LDB M.toNat N.toNat)) (hia : 0 < INCA)
    (n : Mem F') (ALPHA' : Scal F') (A' LDA' INCA' B' LDB' INCB' : Int) (Av' Bv' : Nat → Nat → Quat F')
    (hA' : SMatAt n A' INCA' LDA' M.toNat N.toNat Av') (hB' : SMatAt n B' INCB' LDB' M.toNat N.toNat Bv')
    (hinc' : 0 < INCB') (hfit' : ((M.toNat:Int) - 1) * INCB' + 1 ≤ LDB')
    (hdis' : Apart (SMatCell A' INCA' LDA' M.toNat N.toNat) (SMatCell B' INCB' LDB' M.toNat N.toNat)) (hia' : 0 < INCA')
    (hα : U.SD r ALPHA ALPHA') (hx : U.Mat g M.toNat N.toNat Av Av') (hy : U.Mat (r * g) M.toNat N.toNat Bv Bv') :
    ∃ m' n' V V', axpym axpyvF SIDE 'N' M N ALPHA A LDA INCA B LDB INCB m = .ok ((), m') ∧
      axpym axpyvF SIDE 'N' M N ALPHA' A' LDA' INCA' B' LDB' INCB' n = .ok ((), n') ∧
      SMatAt m' B INCB LDB M.toNat N.toNat V ∧ SMatAt n' B' INCB' LDB' M.toNat N.toNat V' ∧
      U.MatR (r * g) M.toNat N.toNat V V' := by
  obtain ⟨m', a1, a2⟩ := axpymF_bits (SIDE := SIDE) (ALPHA := ALPHA) hA hB hia hinc hfit hdis
  obtain ⟨n', b1, b2⟩ := axpymF_bits (SIDE := SIDE) (ALPHA := ALPHA') hA' hB' hia' hinc' hfit' hdis'
  rw [← hα.eqZero, ← hα.vIsZero] at b2
  refine ⟨m', n', _, _, a1, b1, a2, b2, fun i j hi hj => ?_⟩
  try dsimp only
  cases ez : ALPHA.eqZero with
  | true => rw [if_pos rfl, if_pos rfl]; exact (hy i j hi hj).q
  | false =>
    rw [if_neg Bool.false_ne_true, if_neg Bool.false_ne_true]
    cases hz : ALPHA.vIsZero with
    | true => rw [if_pos rfl, if_pos rfl]; exact (hy i j hi hj).q
    | false =>
      rw [if_neg Bool.false_ne_true, if_neg Bool.false_ne_true]
      exact Q.fAxpyV _ hα.s (hx i j hi hj).q (hy i j hi hj).q

end units


/-! ## Concrete calls -/

section examples

theorem smat_apart : Apart (SMatCell 0 2 6 (3:Int).toNat (2:Int).toNat) (SMatCell 60 2 6 (3:Int).toNat (2:Int).toNat) := by
  rintro a ⟨i, j, hi, hj, h⟩ ⟨i', j', hi', hj', h'⟩
  have hi : i < 3 := hi
  have hj : j < 2 := hj
  unfold InQ at h h'
  omega

/-- A case of `C53_axpym_fortran`: one NaN in A reaches the entry of B. -/
example : letI := toyNaN; letI := toyNaNEq
    ∃ (m' : Mem (Option Int)) (q : Quat (Option Int)),
      axpym axpyvF 'r' 'N' 3 2 (.z ⟨some 2, some 3⟩) 0 6 2 60 6 2 (memOf 0 120 (fun a => if a = 9 then none else some a)) = .ok ((), m') ∧
      readQ m' 68 = some q ∧ q.HasNaN (· = none) := by
  let := toyNaN
  let := toyNaNEq
  obtain ⟨m', V, h1, h2, h3⟩ := C53_axpym_fortran toyNaN_like _ 'r' 3 2 (.z ⟨some 2, some 3⟩) 0 6 2 60 6 2 _ _
    (smat_example (fun a => if a = 9 then none else some a) 0 (by omega) (by omega))
    (smat_example (fun a => if a = 9 then none else some a) 60 (by omega) (by omega)) (by omega) (by decide) smat_apart (by omega)
  exact ⟨m', _, h1, h2 1 0 (by decide) (by decide), (h3 1 0 (by decide) (by decide)).2.1 rfl rfl (by
    show _ ∨ _ ∨ _ ∨ _
    simp)⟩

variable {fused : Bool}

example := C59_scalm (rneModel fused) _ 'L' 3 2 (.h ⟨num7 1, num7 2, num7 3, num7 4⟩) 0 6 2 _ (smat_example num7 0 (by omega) (by omega))
  (by omega) (by decide) 7 7 (num7_q ..) (fun _ _ _ _ => num7_q ..) (by norm_num)

example := C59_axpym_portable (rneModel fused) _ 'R' 3 2 (.z ⟨num7 1, num7 2⟩) 0 6 2 60 6 2 _ _ (smat_example num7 0 (by omega) (by omega))
  (smat_example num7 60 (by omega) (by omega)) (by omega) (by decide) smat_apart (by omega) (by unfold Fits32; decide) (by unfold Fits32; decide)
  (num7_truth 1 2).zero 7 7 7 ⟨num7_int _, num7_int _⟩ (fun _ _ _ _ => num7_q ..) (fun _ _ _ _ => num7_q ..) (by norm_num)

example := C59_axpym_fortran (rneModel fused) _ 'R' 3 2 (.z ⟨num7 1, num7 2⟩) 0 6 2 60 6 2 _ _ (smat_example num7 0 (by omega) (by omega))
  (smat_example num7 60 (by omega) (by omega)) (by omega) (by decide) smat_apart (by omega) (rne_truth fused).2
  (num7_truth 1 2).zero 7 7 7 ⟨num7_int _, num7_int _⟩ (fun _ _ _ _ => num7_q ..) (fun _ _ _ _ => num7_q ..) (by norm_num)

example := C60_scalm (ieeeModel fused) _ 'L' 3 2 (.h ⟨big7 1, big7 2, big7 3, big7 4⟩) 0 6 2 _ (smat_example big7 0 (by omega) (by omega))
  (by omega) (by decide) big big one_le_big one_le_big (big7_q ..) (fun _ _ _ _ => big7_q ..) (by fitsb)

example := C60_scalm_fortran (ieeeModel fused) _ 'r' 3 2 (.d (big7 1)) 0 6 2 _ (smat_example big7 0 (by omega) (by omega))
  (by omega) (by decide) big7_ne_zero big big one_le_big one_le_big (big7_bdd 1) (fun _ _ _ _ => big7_q ..) (by fitsb)

example := C60_axpym (ieeeModel fused) _ 'R' 3 2 (.z ⟨big7 1, big7 2⟩) 0 6 2 60 6 2 _ _ (smat_example big7 0 (by omega) (by omega))
  (smat_example big7 60 (by omega) (by omega)) (by omega) (by decide) smat_apart
  (big7_truth 1 2).zero big big big one_le_big one_le_big ⟨big7_bdd _, big7_bdd _⟩ (fun _ _ _ _ => big7_q ..) (fun _ _ _ _ => big7_q ..) (by fitsb)

open F64
variable (f : Int → F64 fused) (al : Quat (F64 fused))

local notation "f'" => fun a => sgn (-1) (f a)

example := C64_scalm (ieeeSigns fused) (-1) (-1) _ 'L' 3 2 (.h al) 0 6 2 _ (smat_example f 0 (by omega) (by omega)) (by omega) (by decide)
  _ _ 0 6 2 _ (smat_example f' 0 (by omega) (by omega)) (by omega) (by decide) (signs_SD (-1) (.h al)) (fun _ _ _ _ => signs_QD (-1) _)

example := C64_axpym_fortran (ieeeSigns fused) 1 (-1) _ 'L' 3 2 (.h al) 0 6 2 60 6 2 _ _ (smat_example f 0 (by omega) (by omega))
  (smat_example f 60 (by omega) (by omega)) (by omega) (by decide) smat_apart (by omega)
  _ (.h al) 0 6 2 60 6 2 _ _ (smat_example f' 0 (by omega) (by omega)) (smat_example f' 60 (by omega) (by omega)) (by omega) (by decide)
  smat_apart (by omega) (signs_one (.h al)) (fun _ _ _ _ => signs_QD (-1) _) (fun _ _ _ _ => signs_QD (1 * -1) _)

end examples

end Haxx
