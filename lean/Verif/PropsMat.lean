import Verif.PropsGemm
import Verif.PropsRoundP
import Verif.PropsFBits4

/-!
# C65: the matrix templates are their vector routine on every column, in every build

`HBLAS_SCALM` and `HBLAS_AXPYM` are templates over the vector routine that overload resolution picks; here for the SIMD,
the portable and the Fortran one.  The C65 theorems hold in any arithmetic, bit for bit, so every theorem about an element
SCALV or AXPYV computes (C40, C42, C53, C55, C57, C59, C60, C64) is one about an entry of SCALM's or AXPYM's result.
-/

set_option linter.unusedSectionVars false

namespace Haxx
open Quaternion

section bits
variable {F : Type} [Arith F] [ArithEq F]

/-- C65, SCALM on the SIMD SCALV. Column `j` of the result has the bits SCALV gives when called on the same column, at
whatever address, with whatever increment, in whatever memory; nothing but the block changes. -/
theorem C65_scalm (m : Mem F) (SIDE : Char) (M N : Int) (ALPHA : Scal F) (A LDA INCA : Int) (Av : Nat → Nat → Quat F)
    (hA : SMatAt m A INCA LDA M.toNat N.toNat Av) (hinc : 0 < INCA) (hfit : ((M.toNat:Int) - 1) * INCA + 1 ≤ LDA) :
    ∃ m', scalm scalvAVX SIDE 'N' M N ALPHA A LDA INCA m = .ok ((), m') ∧
      SameOutside (SMatCell A INCA LDA M.toNat N.toNat) m m' ∧
      ∀ (n : Mem F) (X INCX : Int) (j : Nat), j < N.toNat → INCX ≠ 0 → VecAt n X INCX M.toNat (fun i => Av i j) →
        ∃ n', scalvAVX SIDE M ALPHA X INCX n = .ok ((), n') ∧ ∀ i : Nat, i < M.toNat →
          ∃ q, readQ m' (A + 4 * (i * INCA + j * LDA)) = some q ∧ readQ n' (X + 4 * (i * INCX)) = some q := by
  obtain ⟨_, m', h, h1, h2⟩ := scalm_wp (SCALV := scalvAVX) (SIDE := SIDE) (ALPHA := ALPHA)
    (f := scalOp (SIDE == 'L') ALPHA)
    (fun m X x hx => scalvAVX_wp hx (Or.inl (by omega))) hA hinc ⟨hinc, hfit⟩
  refine ⟨m', h, h2, fun n X INCX j hj hi hX => ?_⟩
  obtain ⟨_, n', g, g1, _⟩ := scalvAVX_wp (SIDE := SIDE) (ALPHA := ALPHA) hX (Or.inl hi)
  exact ⟨n', g, fun i hi => ⟨_, h1 i j hi hj, g1 i hi⟩⟩

/-- C65, SCALM on the portable SCALV. -/
theorem C65_scalm_portable (m : Mem F) (SIDE : Char) (M N : Int) (ALPHA : Scal F) (A LDA INCA : Int)
    (Av : Nat → Nat → Quat F) (hA : SMatAt m A INCA LDA M.toNat N.toNat Av) (hinc : 0 < INCA)
    (hfit : ((M.toNat:Int) - 1) * INCA + 1 ≤ LDA) (f32 : Fits32 (M * INCA)) :
    ∃ m', scalm scalvGen SIDE 'N' M N ALPHA A LDA INCA m = .ok ((), m') ∧
      SameOutside (SMatCell A INCA LDA M.toNat N.toNat) m m' ∧
      ∀ (n : Mem F) (X INCX : Int) (j : Nat), j < N.toNat → 0 < INCX → Fits32 (M * INCX) →
        VecAt n X INCX M.toNat (fun i => Av i j) →
        ∃ n', scalvGen SIDE M ALPHA X INCX n = .ok ((), n') ∧ ∀ i : Nat, i < M.toNat →
          ∃ q, readQ m' (A + 4 * (i * INCA + j * LDA)) = some q ∧ readQ n' (X + 4 * (i * INCX)) = some q := by
  obtain ⟨_, m', h, h1, h2⟩ := scalm_wp (SCALV := scalvGen) (SIDE := SIDE) (ALPHA := ALPHA)
    (f := fun q => if SIDE = 'R' then Scal.mulR q ALPHA else Scal.mulL ALPHA q)
    (fun m X x hx => scalvGen_wp hinc f32 hx) hA hinc ⟨hinc, hfit⟩
  refine ⟨m', h, h2, fun n X INCX j hj hi fi hX => ?_⟩
  obtain ⟨_, n', g, g1, _⟩ := scalvGen_wp (SIDE := SIDE) (ALPHA := ALPHA) hi fi hX
  exact ⟨n', g, fun i hi => ⟨_, h1 i j hi hj, g1 i hi⟩⟩

/-- C65, SCALM on the Fortran SCALV (a negative increment of the vector call included: `fbase` is where element 0 is). -/
theorem C65_scalm_fortran (m : Mem F) (SIDE : Char) (M N : Int) (ALPHA : Scal F) (A LDA INCA : Int)
    (Av : Nat → Nat → Quat F) (hA : SMatAt m A INCA LDA M.toNat N.toNat Av) (hinc : 0 < INCA)
    (hfit : ((M.toNat:Int) - 1) * INCA + 1 ≤ LDA) :
    ∃ m', scalm scalvF SIDE 'N' M N ALPHA A LDA INCA m = .ok ((), m') ∧
      SameOutside (SMatCell A INCA LDA M.toNat N.toNat) m m' ∧
      ∀ (n : Mem F) (X INCX : Int) (j : Nat), j < N.toNat → INCX ≠ 0 →
        VecAt n (fbase X M INCX) INCX M.toNat (fun i => Av i j) →
        ∃ n', scalvF SIDE M ALPHA X INCX n = .ok ((), n') ∧ ∀ i : Nat, i < M.toNat →
          ∃ q, readQ m' (A + 4 * (i * INCA + j * LDA)) = some q ∧
            readQ n' (fbase X M INCX + 4 * (i * INCX)) = some q := by
  obtain ⟨_, m', h, h1, h2⟩ := scalm_wp (SCALV := scalvF) (SIDE := SIDE) (ALPHA := ALPHA)
    (f := fun q => if ALPHA.vIsZero then q else fScalV (lsame 'R' SIDE) ALPHA q)
    (fun m X x hx => by
      have := scalvF_bits (SIDE := SIDE) (ALPHA := ALPHA) (N := M) (X := X) (INCX := INCA) (m0 := m) (x := x)
        (by omega) (by rwa [fbase_pos hinc])
      rwa [fbase_pos hinc] at this) hA hinc ⟨hinc, hfit⟩
  refine ⟨m', h, h2, fun n X INCX j hj hi hX => ?_⟩
  obtain ⟨_, n', g, g1, _⟩ := scalvF_bits (SIDE := SIDE) (ALPHA := ALPHA) hi hX
  exact ⟨n', g, fun i hi => ⟨_, h1 i j hi hj, g1 i hi⟩⟩

/-- C65, AXPYM on the SIMD AXPYV, ALPHA not comparing equal to zero (then AXPYM returns at once, `C65_axpym_zero`). -/
theorem C65_axpym_partial (m : Mem F) (SIDE : Char) (M N : Int) (ALPHA : Scal F) (A LDA INCA B LDB INCB : Int)
    (Av Bv : Nat → Nat → Quat F) (hA : SMatAt m A INCA LDA M.toNat N.toNat Av)
    (hB : SMatAt m B INCB LDB M.toNat N.toNat Bv) (hinc : 0 < INCB) (hfit : ((M.toNat:Int) - 1) * INCB + 1 ≤ LDB)
    (hdis : Apart (SMatCell A INCA LDA M.toNat N.toNat) (SMatCell B INCB LDB M.toNat N.toNat))
    (hz : ALPHA.eqZero = false) :
    ∃ m', axpym axpyvAVX SIDE 'N' M N ALPHA A LDA INCA B LDB INCB m = .ok ((), m') ∧
      SameOutside (SMatCell B INCB LDB M.toNat N.toNat) m m' ∧
      ∀ (n : Mem F) (X INCX Y INCY : Int) (j : Nat), j < N.toNat → INCY ≠ 0 →
        VecAt n X INCX M.toNat (fun i => Av i j) → VecAt n Y INCY M.toNat (fun i => Bv i j) →
        Apart (VecCell X INCX M.toNat) (VecCell Y INCY M.toNat) →
        ∃ n', axpyvAVX SIDE M ALPHA X INCX Y INCY n = .ok ((), n') ∧ ∀ i : Nat, i < M.toNat →
          ∃ q, readQ m' (B + 4 * (i * INCB + j * LDB)) = some q ∧ readQ n' (Y + 4 * (i * INCY)) = some q := by
  obtain ⟨_, m', h, h1, h2⟩ := axpym_wp (AXPYV := axpyvAVX) (SIDE := SIDE) (ALPHA := ALPHA)
    (g := fun x y => axpyOp (SIDE == 'L') ALPHA x y)
    (fun m X Y x y hx hy hd => axpyvAVX_wp hx hy (Or.inl (by omega)) hd) hz hA hB ⟨hinc, hfit⟩ hdis
  refine ⟨m', h, h2, fun n X INCX Y INCY j hj hi hX hY hd => ?_⟩
  obtain ⟨_, n', g, g1, _⟩ := axpyvAVX_wp (SIDE := SIDE) (ALPHA := ALPHA) hX hY (Or.inl hi) hd
  exact ⟨n', g, fun i hi => ⟨_, h1 i j hi hj, g1 i hi⟩⟩

/-- C65, AXPYM on any AXPYV: nothing happens if ALPHA compares equal to zero, whatever A holds and whatever TRANSA is. -/
theorem C65_axpym_zero (AXPYV : Char → Int → Scal F → Int → Int → Int → Int → Prog F Unit) (m : Mem F)
    (SIDE TRANSA : Char) (M N : Int) (ALPHA : Scal F) (A LDA INCA B LDB INCB : Int) (hz : ALPHA.eqZero = true) :
    axpym AXPYV SIDE TRANSA M N ALPHA A LDA INCA B LDB INCB m = .ok ((), m) := by
  unfold axpym
  rw [hz]
  by_cases hg : N ≤ 0 ∨ M ≤ 0
  · rw [if_pos hg]; rfl
  · rw [if_neg hg, if_pos rfl]; rfl

/-- C65, AXPYM on the portable AXPYV, for every ALPHA: both return at once if ALPHA compares equal to zero. -/
theorem C65_axpym_portable (m : Mem F) (SIDE : Char) (M N : Int) (ALPHA : Scal F) (A LDA INCA B LDB INCB : Int)
    (Av Bv : Nat → Nat → Quat F) (hA : SMatAt m A INCA LDA M.toNat N.toNat Av)
    (hB : SMatAt m B INCB LDB M.toNat N.toNat Bv) (hia : 0 < INCA) (hinc : 0 < INCB)
    (hfit : ((M.toNat:Int) - 1) * INCB + 1 ≤ LDB)
    (hdis : Apart (SMatCell A INCA LDA M.toNat N.toNat) (SMatCell B INCB LDB M.toNat N.toNat))
    (fa : Fits32 (M * INCA)) (fb : Fits32 (M * INCB)) :
    ∃ m', axpym axpyvGen SIDE 'N' M N ALPHA A LDA INCA B LDB INCB m = .ok ((), m') ∧
      SameOutside (SMatCell B INCB LDB M.toNat N.toNat) m m' ∧
      ∀ (n : Mem F) (X INCX Y INCY : Int) (j : Nat), j < N.toNat → 0 < INCX → 0 < INCY → Fits32 (M * INCX) →
        Fits32 (M * INCY) → VecAt n X INCX M.toNat (fun i => Av i j) → VecAt n Y INCY M.toNat (fun i => Bv i j) →
        Apart (VecCell X INCX M.toNat) (VecCell Y INCY M.toNat) →
        ∃ n', axpyvGen SIDE M ALPHA X INCX Y INCY n = .ok ((), n') ∧ ∀ i : Nat, i < M.toNat →
          ∃ q, readQ m' (B + 4 * (i * INCB + j * LDB)) = some q ∧ readQ n' (Y + 4 * (i * INCY)) = some q := by
  cases hz : ALPHA.eqZero with
  | true =>
    refine ⟨m, C65_axpym_zero _ _ _ _ _ _ _ _ _ _ _ _ _ hz, fun _ _ => rfl, fun n X INCX Y INCY j hj _ _ _ _ _ hY _ =>
      ⟨n, ?_, fun i hi => ⟨_, hB i j hi hj, hY i hi⟩⟩⟩
    unfold axpyvGen; rw [if_pos hz]; split <;> rfl
  | false =>
    obtain ⟨_, m', h, h1, h2⟩ := axpym_wp (AXPYV := axpyvGen) (SIDE := SIDE) (ALPHA := ALPHA)
      (g := fun x y => Quat.addAssign y (if SIDE = 'R' then Scal.mulR x ALPHA else Scal.mulL ALPHA x))
      (fun m X Y x y hx hy hd => axpyvGen_wp hia hinc fa fb hz hx hy hd) hz hA hB ⟨hinc, hfit⟩ hdis
    refine ⟨m', h, h2, fun n X INCX Y INCY j hj ix iy fx fy hX hY hd => ?_⟩
    obtain ⟨_, n', g, g1, _⟩ := axpyvGen_wp (SIDE := SIDE) (ALPHA := ALPHA) ix iy fx fy hz hX hY hd
    exact ⟨n', g, fun i hi => ⟨_, h1 i j hi hj, g1 i hi⟩⟩

/-- C65, AXPYM on the Fortran AXPYV, ALPHA not comparing equal to zero in C++ (`C65_axpym_zero`). -/
theorem C65_axpym_fortran_partial (m : Mem F) (SIDE : Char) (M N : Int) (ALPHA : Scal F)
    (A LDA INCA B LDB INCB : Int)
    (Av Bv : Nat → Nat → Quat F) (hA : SMatAt m A INCA LDA M.toNat N.toNat Av)
    (hB : SMatAt m B INCB LDB M.toNat N.toNat Bv) (hia : 0 < INCA) (hinc : 0 < INCB)
    (hfit : ((M.toNat:Int) - 1) * INCB + 1 ≤ LDB)
    (hdis : Apart (SMatCell A INCA LDA M.toNat N.toNat) (SMatCell B INCB LDB M.toNat N.toNat))
    (hz : ALPHA.eqZero = false) :
    ∃ m', axpym axpyvF SIDE 'N' M N ALPHA A LDA INCA B LDB INCB m = .ok ((), m') ∧
      SameOutside (SMatCell B INCB LDB M.toNat N.toNat) m m' ∧
      ∀ (n : Mem F) (X INCX Y INCY : Int) (j : Nat), j < N.toNat → INCY ≠ 0 →
        VecAt n (fbase X M INCX) INCX M.toNat (fun i => Av i j) →
        VecAt n (fbase Y M INCY) INCY M.toNat (fun i => Bv i j) →
        Apart (VecCell (fbase X M INCX) INCX M.toNat) (VecCell (fbase Y M INCY) INCY M.toNat) →
        ∃ n', axpyvF SIDE M ALPHA X INCX Y INCY n = .ok ((), n') ∧ ∀ i : Nat, i < M.toNat →
          ∃ q, readQ m' (B + 4 * (i * INCB + j * LDB)) = some q ∧
            readQ n' (fbase Y M INCY + 4 * (i * INCY)) = some q := by
  obtain ⟨_, m', h, h1, h2⟩ := axpym_wp (AXPYV := axpyvF) (SIDE := SIDE) (ALPHA := ALPHA)
    (g := fun x y => if ALPHA.vIsZero then y else fAxpyV (lsame 'R' SIDE) ALPHA x y)
    (fun m X Y x y hx hy hd => by
      have := axpyvF_bits (SIDE := SIDE) (ALPHA := ALPHA) (N := M) (X := X) (INCX := INCA) (Y := Y) (INCY := INCB)
        (m0 := m) (x := x) (y := y) (by omega) (by rwa [fbase_pos hia]) (by rwa [fbase_pos hinc])
        (by rwa [fbase_pos hia, fbase_pos hinc])
      rwa [fbase_pos hinc] at this) hz hA hB ⟨hinc, hfit⟩ hdis
  refine ⟨m', h, h2, fun n X INCX Y INCY j hj iy hX hY hd => ?_⟩
  obtain ⟨_, n', g, g1, _⟩ := axpyvF_bits (SIDE := SIDE) (ALPHA := ALPHA) iy hX hY hd
  exact ⟨n', g, fun i hi => ⟨_, h1 i j hi hj, g1 i hi⟩⟩

end bits

section exact
variable {R : Type} [CommRing R] [DecidableEq R]

/-- C20, SCALM on the portable SCALV. -/
theorem C20_scalm_portable (m : Mem R) (SIDE : Char) (M N : Int) (ALPHA : Scal R) (A LDA INCA : Int)
    (Av : Nat → Nat → Quat R) (hA : SMatAt m A INCA LDA M.toNat N.toNat Av) (hinc : 0 < INCA)
    (hfit : ((M.toNat:Int) - 1) * INCA + 1 ≤ LDA) (f32 : Fits32 (M * INCA)) :
    ∃ m', scalm scalvGen SIDE 'N' M N ALPHA A LDA INCA m = .ok ((), m') ∧
      SMatAt m' A INCA LDA M.toNat N.toNat (fun i j => Quat.ofH
        (if SIDE = 'R' then (Av i j).toH * ALPHA.toH else ALPHA.toH * (Av i j).toH)) ∧
      SameOutside (SMatCell A INCA LDA M.toNat N.toNat) m m' := by
  obtain ⟨_, m', h, h1, h2⟩ := scalm_wp (SCALV := scalvGen) (SIDE := SIDE) (ALPHA := ALPHA)
    (f := fun q => if SIDE = 'R' then Scal.mulR q ALPHA else Scal.mulL ALPHA q)
    (fun m X x hx => scalvGen_wp hinc f32 hx) hA hinc ⟨hinc, hfit⟩
  refine ⟨m', h, fun i j hi hj => ?_, h2⟩
  rw [h1 i j hi hj]
  congr 1
  apply eq_ofH
  by_cases hs : SIDE = 'R' <;> simp [hs, toH_smulL, toH_smulR]

theorem vIsZero_iff (s : Scal R) : s.vIsZero = true ↔ s.toH = 0 := by
  rw [← allZero_iff]
  cases s <;> simp [Scal.vIsZero, Scal.allZero]

/-- C20 (partial: ALPHA ≠ 0; `C20_scalm_fortran_zero` for the other calls, where the claim is false), SCALM on the
Fortran SCALV. -/
theorem C20_scalm_fortran_partial (m : Mem R) (SIDE : Char) (M N : Int) (ALPHA : Scal R) (A LDA INCA : Int)
    (Av : Nat → Nat → Quat R) (hA : SMatAt m A INCA LDA M.toNat N.toNat Av) (hinc : 0 < INCA)
    (hfit : ((M.toNat:Int) - 1) * INCA + 1 ≤ LDA) (hz : ALPHA.toH ≠ 0) :
    ∃ m', scalm scalvF SIDE 'N' M N ALPHA A LDA INCA m = .ok ((), m') ∧
      SMatAt m' A INCA LDA M.toNat N.toNat (fun i j => Quat.ofH
        (if SIDE = 'R' ∨ SIDE = 'r' then (Av i j).toH * ALPHA.toH else ALPHA.toH * (Av i j).toH)) ∧
      SameOutside (SMatCell A INCA LDA M.toNat N.toNat) m m' := by
  obtain ⟨_, m', h, h1, h2⟩ := scalm_wp (SCALV := scalvF) (SIDE := SIDE) (ALPHA := ALPHA)
    (f := fun q => if ALPHA.vIsZero then q else fScalV (lsame 'R' SIDE) ALPHA q)
    (fun m X x hx => by
      have := scalvF_bits (SIDE := SIDE) (ALPHA := ALPHA) (N := M) (X := X) (INCX := INCA) (m0 := m) (x := x)
        (by omega) (by rwa [fbase_pos hinc])
      rwa [fbase_pos hinc] at this) hA hinc ⟨hinc, hfit⟩
  refine ⟨m', h, fun i j hi hj => ?_, h2⟩
  rw [h1 i j hi hj]
  show some (ite _ _ _) = _
  rw [if_neg (fun e => hz ((vIsZero_iff _).mp e))]
  congr 1
  apply eq_ofH
  rw [toH_fScalV]
  simp only [lsame_R_iff]

/-- C20, violated by the Fortran build: with ALPHA = 0 the matrix keeps its old value (see C19). -/
theorem C20_scalm_fortran_zero (m : Mem R) (SIDE : Char) (M N : Int) (ALPHA : Scal R) (A LDA INCA : Int)
    (Av : Nat → Nat → Quat R) (hA : SMatAt m A INCA LDA M.toNat N.toNat Av) (hinc : 0 < INCA)
    (hfit : ((M.toNat:Int) - 1) * INCA + 1 ≤ LDA) (hz : ALPHA.toH = 0) :
    ∃ m', scalm scalvF SIDE 'N' M N ALPHA A LDA INCA m = .ok ((), m') ∧
      SMatAt m' A INCA LDA M.toNat N.toNat Av ∧ SameOutside (SMatCell A INCA LDA M.toNat N.toNat) m m' := by
  obtain ⟨_, m', h, h1, h2⟩ := scalm_wp (SCALV := scalvF) (SIDE := SIDE) (ALPHA := ALPHA)
    (f := fun q => if ALPHA.vIsZero then q else fScalV (lsame 'R' SIDE) ALPHA q)
    (fun m X x hx => by
      have := scalvF_bits (SIDE := SIDE) (ALPHA := ALPHA) (N := M) (X := X) (INCX := INCA) (m0 := m) (x := x)
        (by omega) (by rwa [fbase_pos hinc])
      rwa [fbase_pos hinc] at this) hA hinc ⟨hinc, hfit⟩
  refine ⟨m', h, fun i j hi hj => ?_, h2⟩
  rw [h1 i j hi hj]
  show some (ite _ _ _) = _
  rw [if_pos ((vIsZero_iff _).mpr hz)]

/-- C21 (partial: ALPHA not a non-zero pure `k` quaternion; `C21_axpym_pureK_ignored_any` for the others), AXPYM on
the portable AXPYV. -/
theorem C21_axpym_portable_partial (m : Mem R) (SIDE : Char) (M N : Int) (ALPHA : Scal R)
    (A LDA INCA B LDB INCB : Int) (Av Bv : Nat → Nat → Quat R)
    (hA : SMatAt m A INCA LDA M.toNat N.toNat Av) (hB : SMatAt m B INCB LDB M.toNat N.toNat Bv)
    (hia : 0 < INCA) (hinc : 0 < INCB) (hfit : ((M.toNat:Int) - 1) * INCB + 1 ≤ LDB)
    (hdis : Apart (SMatCell A INCA LDA M.toNat N.toNat) (SMatCell B INCB LDB M.toNat N.toNat))
    (fa : Fits32 (M * INCA)) (fb : Fits32 (M * INCB)) (hk : ¬ ALPHA.pureK) :
    ∃ m', axpym axpyvGen SIDE 'N' M N ALPHA A LDA INCA B LDB INCB m = .ok ((), m') ∧
      SMatAt m' B INCB LDB M.toNat N.toNat (fun i j => Quat.ofH ((Bv i j).toH +
        (if SIDE = 'R' then (Av i j).toH * ALPHA.toH else ALPHA.toH * (Av i j).toH))) ∧
      SameOutside (SMatCell B INCB LDB M.toNat N.toNat) m m' := by
  cases hz : ALPHA.eqZero with
  | true =>
    refine ⟨m, C65_axpym_zero _ _ _ _ _ _ _ _ _ _ _ _ _ hz, fun i j hi hj => ?_, fun _ _ => rfl⟩
    rw [hB i j hi hj, (eqZero_cases hz).resolve_right hk]
    simp
  | false =>
    obtain ⟨_, m', h, h1, h2⟩ := axpym_wp (AXPYV := axpyvGen) (SIDE := SIDE) (ALPHA := ALPHA)
      (g := fun x y => Quat.addAssign y (if SIDE = 'R' then Scal.mulR x ALPHA else Scal.mulL ALPHA x))
      (fun m X Y x y hx hy hd => axpyvGen_wp hia hinc fa fb hz hx hy hd) hz hA hB ⟨hinc, hfit⟩ hdis
    refine ⟨m', h, fun i j hi hj => ?_, h2⟩
    rw [h1 i j hi hj]
    congr 1
    apply eq_ofH
    rw [toH_addAssign]
    by_cases hs : SIDE = 'R' <;> simp [hs, toH_smulL, toH_smulR]

/-- C21 (partial: ALPHA not a non-zero pure `k` quaternion), AXPYM on the Fortran AXPYV. -/
theorem C21_axpym_fortran_partial (m : Mem R) (SIDE : Char) (M N : Int) (ALPHA : Scal R)
    (A LDA INCA B LDB INCB : Int) (Av Bv : Nat → Nat → Quat R)
    (hA : SMatAt m A INCA LDA M.toNat N.toNat Av) (hB : SMatAt m B INCB LDB M.toNat N.toNat Bv)
    (hia : 0 < INCA) (hinc : 0 < INCB) (hfit : ((M.toNat:Int) - 1) * INCB + 1 ≤ LDB)
    (hdis : Apart (SMatCell A INCA LDA M.toNat N.toNat) (SMatCell B INCB LDB M.toNat N.toNat)) (hk : ¬ ALPHA.pureK) :
    ∃ m', axpym axpyvF SIDE 'N' M N ALPHA A LDA INCA B LDB INCB m = .ok ((), m') ∧
      SMatAt m' B INCB LDB M.toNat N.toNat (fun i j => Quat.ofH ((Bv i j).toH +
        (if SIDE = 'R' ∨ SIDE = 'r' then (Av i j).toH * ALPHA.toH else ALPHA.toH * (Av i j).toH))) ∧
      SameOutside (SMatCell B INCB LDB M.toNat N.toNat) m m' := by
  cases hz : ALPHA.eqZero with
  | true =>
    refine ⟨m, C65_axpym_zero _ _ _ _ _ _ _ _ _ _ _ _ _ hz, fun i j hi hj => ?_, fun _ _ => rfl⟩
    rw [hB i j hi hj, (eqZero_cases hz).resolve_right hk]
    simp
  | false =>
    obtain ⟨_, m', h, h1, h2⟩ := axpym_wp (AXPYV := axpyvF) (SIDE := SIDE) (ALPHA := ALPHA)
      (g := fun x y => if ALPHA.vIsZero then y else fAxpyV (lsame 'R' SIDE) ALPHA x y)
      (fun m X Y x y hx hy hd => by
        have := axpyvF_bits (SIDE := SIDE) (ALPHA := ALPHA) (N := M) (X := X) (INCX := INCA) (Y := Y) (INCY := INCB)
          (m0 := m) (x := x) (y := y) (by omega) (by rwa [fbase_pos hia]) (by rwa [fbase_pos hinc])
          (by rwa [fbase_pos hia, fbase_pos hinc])
        rwa [fbase_pos hinc] at this) hz hA hB ⟨hinc, hfit⟩ hdis
    refine ⟨m', h, fun i j hi hj => ?_, h2⟩
    rw [h1 i j hi hj]
    congr 1
    apply eq_ofH
    show (ite _ _ _ : Quat R).toH = _
    by_cases h0 : ALPHA.toH = 0
    · rw [if_pos ((vIsZero_iff _).mpr h0), h0]; simp
    · rw [if_neg (fun e => h0 ((vIsZero_iff _).mp e)), toH_fAxpyV]
      simp only [lsame_R_iff]

/-- C21, violated in every build: for every non-zero pure-`k` quaternion ALPHA, AXPYM adds nothing. -/
theorem C21_axpym_pureK_ignored_any (AXPYV : Char → Int → Scal R → Int → Int → Int → Int → Prog R Unit) (m : Mem R)
    (SIDE TRANSA : Char) (M N : Int) (ALPHA : Scal R) (A LDA INCA B LDB INCB : Int) (hk : ALPHA.pureK) :
    axpym AXPYV SIDE TRANSA M N ALPHA A LDA INCA B LDB INCB m = .ok ((), m) := by
  apply C65_axpym_zero
  cases ALPHA with
  | d a => exact hk.elim
  | z a => exact hk.elim
  | h a =>
    obtain ⟨h1, h2, h3, _⟩ := hk
    simp_all [Scal.eqZero, Quat.eqOp, Quat.mkReal]

end exact

section round
variable {F : Type} [Arith F] [ArithEq F] {u : ℝ}

omit [Arith F] [ArithEq F] in
theorem smat_choose {m : Mem F} {A INCA LDA : Int} {M N : Nat} {P : Nat → Nat → Quat F → Prop}
    (V0 : Nat → Nat → Quat F)
    (h : ∀ i j : Nat, i < M → j < N → ∃ q, readQ m (A + 4 * (i * INCA + j * LDA)) = some q ∧ P i j q) :
    ∃ V, SMatAt m A INCA LDA M N V ∧ ∀ i j, i < M → j < N → P i j (V i j) := by
  classical
  refine ⟨fun i j => if hh : i < M ∧ j < N then (h i j hh.1 hh.2).choose else V0 i j, ?_, ?_⟩
  · intro i j hi hj
    show _ = some (dite _ _ _)
    rw [dif_pos ⟨hi, hj⟩]
    exact (h i j hi hj).choose_spec.1
  · intro i j hi hj
    show P i j (dite _ _ _)
    rw [dif_pos ⟨hi, hj⟩]
    exact (h i j hi hj).choose_spec.2

/-- C42, SCALM on the SIMD SCALV: `‖computed - exact‖ ≤ 2((1+u)³-1) ‖ALPHA‖ ‖A_ij‖` for every entry. -/
theorem C42_scalm (S : StdModel F u) (m : Mem F) (SIDE : Char) (M N : Int) (ALPHA : Scal F) (A LDA INCA : Int)
    (Av : Nat → Nat → Quat F)
    (hA : SMatAt m A INCA LDA M.toNat N.toNat Av) (hinc : 0 < INCA) (hfit : ((M.toNat:Int) - 1) * INCA + 1 ≤ LDA) :
    ∃ m' V, scalm scalvAVX SIDE 'N' M N ALPHA A LDA INCA m = .ok ((), m') ∧
      SMatAt m' A INCA LDA M.toNat N.toNat V ∧
      ∀ i j, i < M.toNat → j < N.toNat → (V i j).All S.ok →
        ‖((V i j).map S.val).toH -
          (if SIDE = 'L' then (ALPHA.map S.val).toH * ((Av i j).map S.val).toH
           else ((Av i j).map S.val).toH * (ALPHA.map S.val).toH)‖ ≤
          2 * (((1 + u) ^ 3 - 1) * (‖(ALPHA.map S.val).toH‖ * ‖((Av i j).map S.val).toH‖)) := by
  obtain ⟨m', h, _, h2⟩ := C65_scalm m SIDE M N ALPHA A LDA INCA Av hA hinc hfit
  obtain ⟨V, hV, hb⟩ := smat_choose
      (P := fun i j q => q.All S.ok → ‖(q.map S.val).toH - (if SIDE = 'L' then (ALPHA.map S.val).toH * ((Av i
        j).map S.val).toH else ((Av i j).map S.val).toH * (ALPHA.map S.val).toH)‖ ≤ 2 * (((1 + u) ^ 3 - 1) *
        (‖(ALPHA.map S.val).toH‖ * ‖((Av i j).map S.val).toH‖)))
      (m := m') (A := A) (INCA := INCA) (LDA := LDA) Av (fun i j hi hj => by
    have hc := smat_col.mp hA j hj
    obtain ⟨n', e, h3⟩ := h2 m _ INCA j hj (by omega) hc
    obtain ⟨q, q1, q2⟩ := h3 i hi
    obtain ⟨n'', v, e', hv, hb⟩ := C42_scalv S m SIDE M _ INCA ALPHA _ hc (by omega)
    rw [e] at e'; injection e' with e'; injection e' with _ e'; subst e'
    rw [hv i hi] at q2; injection q2 with q2; subst q2
    exact ⟨_, q1, hb i hi⟩)
  exact ⟨m', V, h, hV, hb⟩

/-- C42, SCALM on the portable SCALV: `‖computed - exact‖ ≤ 2((1+u)⁴-1) ‖ALPHA‖ ‖A_ij‖`. -/
theorem C42_scalm_portable (S : StdModel F u) (m : Mem F) (SIDE : Char) (M N : Int) (ALPHA : Scal F)
    (A LDA INCA : Int) (Av : Nat → Nat → Quat F)
    (hA : SMatAt m A INCA LDA M.toNat N.toNat Av) (hinc : 0 < INCA) (hfit : ((M.toNat:Int) - 1) * INCA + 1 ≤ LDA)
    (f32 : Fits32 (M * INCA)) :
    ∃ m' V, scalm scalvGen SIDE 'N' M N ALPHA A LDA INCA m = .ok ((), m') ∧
      SMatAt m' A INCA LDA M.toNat N.toNat V ∧
      ∀ i j, i < M.toNat → j < N.toNat → (V i j).All S.ok →
        ‖((V i j).map S.val).toH -
          (if SIDE = 'R' then ((Av i j).map S.val).toH * (ALPHA.map S.val).toH
           else (ALPHA.map S.val).toH * ((Av i j).map S.val).toH)‖ ≤
          2 * (((1 + u) ^ 4 - 1) * (‖(ALPHA.map S.val).toH‖ * ‖((Av i j).map S.val).toH‖)) := by
  obtain ⟨m', h, _, h2⟩ := C65_scalm_portable m SIDE M N ALPHA A LDA INCA Av hA hinc hfit f32
  obtain ⟨V, hV, hb⟩ := smat_choose
      (P := fun i j q => q.All S.ok → ‖(q.map S.val).toH - (if SIDE = 'R' then ((Av i j).map S.val).toH *
        (ALPHA.map S.val).toH else (ALPHA.map S.val).toH * ((Av i j).map S.val).toH)‖ ≤ 2 * (((1 + u) ^ 4 - 1)
        * (‖(ALPHA.map S.val).toH‖ * ‖((Av i j).map S.val).toH‖)))
      (m := m') (A := A) (INCA := INCA) (LDA := LDA) Av (fun i j hi hj => by
    have hc := smat_col.mp hA j hj
    obtain ⟨n', e, h3⟩ := h2 m _ INCA j hj hinc f32 hc
    obtain ⟨q, q1, q2⟩ := h3 i hi
    obtain ⟨n'', v, e', hv, hb⟩ := C42_scalv_portable S m SIDE M _ INCA ALPHA _ hc hinc f32
    rw [e] at e'; injection e' with e'; injection e' with _ e'; subst e'
    rw [hv i hi] at q2; injection q2 with q2; subst q2
    exact ⟨_, q1, hb i hi⟩)
  exact ⟨m', V, h, hV, hb⟩

/-- C42, SCALM on the Fortran SCALV, ALPHA not comparing equal to zero. -/
theorem C42_scalm_fortran (S : StdModel F u) (m : Mem F) (SIDE : Char) (M N : Int) (ALPHA : Scal F)
    (A LDA INCA : Int) (Av : Nat → Nat → Quat F)
    (hA : SMatAt m A INCA LDA M.toNat N.toNat Av) (hinc : 0 < INCA) (hfit : ((M.toNat:Int) - 1) * INCA + 1 ≤ LDA)
    (hz : ALPHA.vIsZero = false) :
    ∃ m' V, scalm scalvF SIDE 'N' M N ALPHA A LDA INCA m = .ok ((), m') ∧
      SMatAt m' A INCA LDA M.toNat N.toNat V ∧
      ∀ i j, i < M.toNat → j < N.toNat → (V i j).All S.ok →
        ‖((V i j).map S.val).toH -
          (if SIDE = 'R' ∨ SIDE = 'r' then ((Av i j).map S.val).toH * (ALPHA.map S.val).toH
           else (ALPHA.map S.val).toH * ((Av i j).map S.val).toH)‖ ≤
          2 * (((1 + u) ^ 4 - 1) * (‖(ALPHA.map S.val).toH‖ * ‖((Av i j).map S.val).toH‖)) := by
  obtain ⟨m', h, _, h2⟩ := C65_scalm_fortran m SIDE M N ALPHA A LDA INCA Av hA hinc hfit
  obtain ⟨V, hV, hb⟩ := smat_choose
      (P := fun i j q => q.All S.ok → ‖(q.map S.val).toH - (if SIDE = 'R' ∨ SIDE = 'r' then ((Av i j).map
        S.val).toH * (ALPHA.map S.val).toH else (ALPHA.map S.val).toH * ((Av i j).map S.val).toH)‖ ≤ 2 * (((1
        + u) ^ 4 - 1) * (‖(ALPHA.map S.val).toH‖ * ‖((Av i j).map S.val).toH‖)))
      (m := m') (A := A) (INCA := INCA) (LDA := LDA) Av (fun i j hi hj => by
    have hc := smat_col.mp hA j hj
    rw [← fbase_pos (X := A + 4 * ((j:Int) * LDA)) (N := M) hinc] at hc
    obtain ⟨n', e, h3⟩ := h2 m _ INCA j hj (by omega) hc
    obtain ⟨q, q1, q2⟩ := h3 i hi
    obtain ⟨n'', v, e', hv, hb⟩ := C42_scalv_fortran S m SIDE M _ INCA ALPHA _ hc (by omega) hz
    rw [e] at e'; injection e' with e'; injection e' with _ e'; subst e'
    rw [hv i hi] at q2; injection q2 with q2; subst q2
    exact ⟨_, q1, hb i hi⟩)
  exact ⟨m', V, h, hV, hb⟩

/-- C42, AXPYM on the SIMD AXPYV, if ALPHA compares equal to zero only when it is:
`‖computed - exact‖ ≤ 2((1+u)⁴-1) (‖B_ij‖ + ‖ALPHA‖ ‖A_ij‖)` for every entry. -/
theorem C42_axpym (S : StdModel F u) (m : Mem F) (SIDE : Char) (M N : Int) (ALPHA : Scal F)
    (A LDA INCA B LDB INCB : Int) (Av Bv : Nat → Nat → Quat F)
    (hA : SMatAt m A INCA LDA M.toNat N.toNat Av) (hB : SMatAt m B INCB LDB M.toNat N.toNat Bv)
    (hinc : 0 < INCB) (hfit : ((M.toNat:Int) - 1) * INCB + 1 ≤ LDB)
    (hdis : Apart (SMatCell A INCA LDA M.toNat N.toNat) (SMatCell B INCB LDB M.toNat N.toNat))
    (h0 : ALPHA.eqZero = true → (ALPHA.map S.val).toH = 0) :
    ∃ m' V, axpym axpyvAVX SIDE 'N' M N ALPHA A LDA INCA B LDB INCB m = .ok ((), m') ∧
      SMatAt m' B INCB LDB M.toNat N.toNat V ∧
      ∀ i j, i < M.toNat → j < N.toNat → (V i j).All S.ok →
        ‖((V i j).map S.val).toH - (((Bv i j).map S.val).toH +
          (if SIDE = 'L' then (ALPHA.map S.val).toH * ((Av i j).map S.val).toH
           else ((Av i j).map S.val).toH * (ALPHA.map S.val).toH))‖ ≤
          2 * (((1 + u) ^ 4 - 1) * (‖((Bv i j).map S.val).toH‖ +
            ‖(ALPHA.map S.val).toH‖ * ‖((Av i j).map S.val).toH‖)) := by
  cases hz : ALPHA.eqZero with
  | true =>
    refine ⟨m, Bv, C65_axpym_zero _ _ _ _ _ _ _ _ _ _ _ _ _ hz, hB, fun i j _ _ _ => ?_⟩
    rw [h0 hz]
    have h1 := S.one_le_pow 4
    have : 0 ≤ ((1 + u) ^ 4 - 1) * ‖((Bv i j).map S.val).toH‖ := mul_nonneg (by linarith) (norm_nonneg _)
    simpa using this
  | false =>
    obtain ⟨m', h, _, h2⟩ := C65_axpym_partial m SIDE M N ALPHA A LDA INCA B LDB INCB Av Bv hA hB hinc hfit hdis hz
    obtain ⟨V, hV, hb⟩ := smat_choose
      (P := fun i j q => q.All S.ok → ‖(q.map S.val).toH - (((Bv i j).map S.val).toH + (if SIDE = 'L' then
        (ALPHA.map S.val).toH * ((Av i j).map S.val).toH else ((Av i j).map S.val).toH * (ALPHA.map
        S.val).toH))‖ ≤ 2 * (((1 + u) ^ 4 - 1) * (‖((Bv i j).map S.val).toH‖ + ‖(ALPHA.map S.val).toH‖ * ‖((Av
        i j).map S.val).toH‖)))
      (m := m') (A := B) (INCA := INCB) (LDA := LDB) Av (fun i j hi hj => by
      have hc := smat_col.mp hA j hj
      have hcb := smat_col.mp hB j hj
      have hd : Apart (VecCell (A + 4 * ((j:Int) * LDA)) INCA M.toNat) (VecCell (B + 4 * ((j:Int) * LDB)) INCB M.toNat) :=
        fun a h h' => hdis a (smatCell_col.mpr ⟨j, hj, h⟩) (smatCell_col.mpr ⟨j, hj, h'⟩)
      obtain ⟨n', e, h3⟩ := h2 m _ INCA _ INCB j hj (by omega) hc hcb hd
      obtain ⟨q, q1, q2⟩ := h3 i hi
      obtain ⟨n'', v, e', hv, hb⟩ := C42_axpyv S m SIDE M _ INCA _ INCB ALPHA _ _ hc hcb (by omega) hd
      rw [e] at e'; injection e' with e'; injection e' with _ e'; subst e'
      rw [hv i hi] at q2; injection q2 with q2; subst q2
      exact ⟨_, q1, hb i hi⟩)
    exact ⟨m', V, h, hV, hb⟩

/-- C42, AXPYM on the portable AXPYV. -/
theorem C42_axpym_portable (S : StdModel F u) (m : Mem F) (SIDE : Char) (M N : Int) (ALPHA : Scal F)
    (A LDA INCA B LDB INCB : Int) (Av Bv : Nat → Nat → Quat F)
    (hA : SMatAt m A INCA LDA M.toNat N.toNat Av) (hB : SMatAt m B INCB LDB M.toNat N.toNat Bv)
    (hia : 0 < INCA) (hinc : 0 < INCB) (hfit : ((M.toNat:Int) - 1) * INCB + 1 ≤ LDB)
    (hdis : Apart (SMatCell A INCA LDA M.toNat N.toNat) (SMatCell B INCB LDB M.toNat N.toNat))
    (fa : Fits32 (M * INCA)) (fb : Fits32 (M * INCB))
    (h0 : ALPHA.eqZero = true → (ALPHA.map S.val).toH = 0) :
    ∃ m' V, axpym axpyvGen SIDE 'N' M N ALPHA A LDA INCA B LDB INCB m = .ok ((), m') ∧
      SMatAt m' B INCB LDB M.toNat N.toNat V ∧
      ∀ i j, i < M.toNat → j < N.toNat → (V i j).All S.ok →
        ‖((V i j).map S.val).toH - (((Bv i j).map S.val).toH +
          (if SIDE = 'R' then ((Av i j).map S.val).toH * (ALPHA.map S.val).toH
           else (ALPHA.map S.val).toH * ((Av i j).map S.val).toH))‖ ≤
          2 * (((1 + u) ^ 5 - 1) * (‖((Bv i j).map S.val).toH‖ +
            ‖(ALPHA.map S.val).toH‖ * ‖((Av i j).map S.val).toH‖)) := by
  obtain ⟨m', h, _, h2⟩ := C65_axpym_portable m SIDE M N ALPHA A LDA INCA B LDB INCB Av Bv hA hB hia hinc hfit hdis fa fb
  obtain ⟨V, hV, hb⟩ := smat_choose
      (P := fun i j q => q.All S.ok → ‖(q.map S.val).toH - (((Bv i j).map S.val).toH + (if SIDE = 'R' then
        ((Av i j).map S.val).toH * (ALPHA.map S.val).toH else (ALPHA.map S.val).toH * ((Av i j).map
        S.val).toH))‖ ≤ 2 * (((1 + u) ^ 5 - 1) * (‖((Bv i j).map S.val).toH‖ + ‖(ALPHA.map S.val).toH‖ * ‖((Av
        i j).map S.val).toH‖)))
      (m := m') (A := B) (INCA := INCB) (LDA := LDB) Av (fun i j hi hj => by
    have hc := smat_col.mp hA j hj
    have hcb := smat_col.mp hB j hj
    have hd : Apart (VecCell (A + 4 * ((j:Int) * LDA)) INCA M.toNat) (VecCell (B + 4 * ((j:Int) * LDB)) INCB M.toNat) :=
      fun a h h' => hdis a (smatCell_col.mpr ⟨j, hj, h⟩) (smatCell_col.mpr ⟨j, hj, h'⟩)
    obtain ⟨n', e, h3⟩ := h2 m _ INCA _ INCB j hj hia hinc fa fb hc hcb hd
    obtain ⟨q, q1, q2⟩ := h3 i hi
    obtain ⟨n'', v, e', hv, hb⟩ := C42_axpyv_portable S m SIDE M _ INCA _ INCB ALPHA _ _ hc hcb hia hinc fa fb hd h0
    rw [e] at e'; injection e' with e'; injection e' with _ e'; subst e'
    rw [hv i hi] at q2; injection q2 with q2; subst q2
    exact ⟨_, q1, hb i hi⟩)
  exact ⟨m', V, h, hV, hb⟩

/-- C42, AXPYM on the Fortran AXPYV. -/
theorem C42_axpym_fortran (S : StdModel F u) (m : Mem F) (SIDE : Char) (M N : Int) (ALPHA : Scal F)
    (A LDA INCA B LDB INCB : Int) (Av Bv : Nat → Nat → Quat F)
    (hA : SMatAt m A INCA LDA M.toNat N.toNat Av) (hB : SMatAt m B INCB LDB M.toNat N.toNat Bv)
    (hia : 0 < INCA) (hinc : 0 < INCB) (hfit : ((M.toNat:Int) - 1) * INCB + 1 ≤ LDB)
    (hdis : Apart (SMatCell A INCA LDA M.toNat N.toNat) (SMatCell B INCB LDB M.toNat N.toNat))
    (heq : ∀ a b : F, (a ==ᶠ b) = true → S.val a = S.val b)
    (h0 : ALPHA.eqZero = true → (ALPHA.map S.val).toH = 0) :
    ∃ m' V, axpym axpyvF SIDE 'N' M N ALPHA A LDA INCA B LDB INCB m = .ok ((), m') ∧
      SMatAt m' B INCB LDB M.toNat N.toNat V ∧
      ∀ i j, i < M.toNat → j < N.toNat → (V i j).All S.ok →
        ‖((V i j).map S.val).toH - (((Bv i j).map S.val).toH +
          (if SIDE = 'R' ∨ SIDE = 'r' then ((Av i j).map S.val).toH * (ALPHA.map S.val).toH
           else (ALPHA.map S.val).toH * ((Av i j).map S.val).toH))‖ ≤
          2 * (((1 + u) ^ 5 - 1) * (‖((Bv i j).map S.val).toH‖ +
            ‖(ALPHA.map S.val).toH‖ * ‖((Av i j).map S.val).toH‖)) := by
  cases hz : ALPHA.eqZero with
  | true =>
    refine ⟨m, Bv, C65_axpym_zero _ _ _ _ _ _ _ _ _ _ _ _ _ hz, hB, fun i j _ _ _ => ?_⟩
    rw [h0 hz]
    have h1 := S.one_le_pow 5
    have : 0 ≤ ((1 + u) ^ 5 - 1) * ‖((Bv i j).map S.val).toH‖ := mul_nonneg (by linarith) (norm_nonneg _)
    simpa using this
  | false =>
    obtain ⟨m', h, _, h2⟩ := C65_axpym_fortran_partial m SIDE M N ALPHA A LDA INCA B LDB INCB Av Bv hA hB hia hinc hfit
      hdis hz
    obtain ⟨V, hV, hb⟩ := smat_choose
      (P := fun i j q => q.All S.ok → ‖(q.map S.val).toH - (((Bv i j).map S.val).toH + (if SIDE = 'R' ∨ SIDE =
        'r' then ((Av i j).map S.val).toH * (ALPHA.map S.val).toH else (ALPHA.map S.val).toH * ((Av i j).map
        S.val).toH))‖ ≤ 2 * (((1 + u) ^ 5 - 1) * (‖((Bv i j).map S.val).toH‖ + ‖(ALPHA.map S.val).toH‖ * ‖((Av
        i j).map S.val).toH‖)))
      (m := m') (A := B) (INCA := INCB) (LDA := LDB) Av (fun i j hi hj => by
      have hc := smat_col.mp hA j hj
      have hcb := smat_col.mp hB j hj
      have hd : Apart (VecCell (A + 4 * ((j:Int) * LDA)) INCA M.toNat) (VecCell (B + 4 * ((j:Int) * LDB)) INCB M.toNat) :=
        fun a h h' => hdis a (smatCell_col.mpr ⟨j, hj, h⟩) (smatCell_col.mpr ⟨j, hj, h'⟩)
      rw [← fbase_pos (X := A + 4 * ((j:Int) * LDA)) (N := M) hia] at hc
      rw [← fbase_pos (X := B + 4 * ((j:Int) * LDB)) (N := M) hinc] at hcb
      rw [← fbase_pos (X := A + 4 * ((j:Int) * LDA)) (N := M) hia,
        ← fbase_pos (X := B + 4 * ((j:Int) * LDB)) (N := M) hinc] at hd
      obtain ⟨n', e, h3⟩ := h2 m _ INCA _ INCB j hj (by omega) hc hcb hd
      obtain ⟨q, q1, q2⟩ := h3 i hi
      obtain ⟨n'', v, e', hv, hb⟩ := C42_axpyv_fortran S m SIDE M _ INCA _ INCB ALPHA _ _ hc hcb (by omega) hd heq
      rw [e] at e'; injection e' with e'; injection e' with _ e'; subst e'
      rw [hv i hi] at q2; injection q2 with q2; subst q2
      exact ⟨_, q1, hb i hi⟩)
    exact ⟨m', V, h, hV, hb⟩

end round

/-! ### Non-vacuity: a 3 × 2 block with stride 2 and leading dimension 6, for arbitrary contents -/

section examples
variable {F : Type} [Arith F] [ArithEq F]

theorem smat_example (f : Int → F) (p : Int) (h1 : 0 ≤ p) (h2 : p ≤ 60) :
    SMatAt (memOf 0 120 f) p 2 6 (3:Int).toNat (2:Int).toNat
      (fun i j => ⟨f (p + 4 * (i * 2 + j * 6)), f (p + 4 * (i * 2 + j * 6) + 1), f (p + 4 * (i * 2 + j * 6) + 2),
        f (p + 4 * (i * 2 + j * 6) + 3)⟩) := by
  intro i j hi hj
  have hi : i < 3 := hi
  have hj : j < 2 := hj
  exact readQ_memOf (by omega) (by omega)

example (f : Int → F) (SIDE : Char) (ALPHA : Scal F) :
    ∃ m', scalm scalvF SIDE 'N' 3 2 ALPHA 0 6 2 (memOf 0 120 f) = .ok ((), m') := by
  obtain ⟨m', h, _⟩ := C65_scalm_fortran _ SIDE 3 2 ALPHA 0 6 2 _ (smat_example f 0 (by omega) (by omega)) (by omega) (by decide)
  exact ⟨m', h⟩

example (f : Int → F) (SIDE : Char) (ALPHA : Scal F) :
    ∃ m', axpym axpyvGen SIDE 'N' 3 2 ALPHA 0 6 2 60 6 2 (memOf 0 120 f) = .ok ((), m') := by
  obtain ⟨m', h, _⟩ := C65_axpym_portable _ SIDE 3 2 ALPHA 0 6 2 60 6 2 _ _ (smat_example f 0 (by omega) (by omega))
    (smat_example f 60 (by omega) (by omega)) (by omega) (by omega) (by decide)
    (by
      rintro a ⟨i, j, hi, hj, h⟩ ⟨i', j', hi', hj', h'⟩
      have hi : i < 3 := hi
      have hj : j < 2 := hj
      unfold InQ at h h'
      omega)
    (by unfold Fits32; omega) (by unfold Fits32; omega)
  exact ⟨m', h⟩

end examples
end Haxx
