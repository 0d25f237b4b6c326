import Verif.PropsLetters

/-!
# C52: negative increments

The BLAS convention: a vector of `n` elements passed as `(P, INC)` with `INC < 0` occupies the cells
`P, P+|INC|, …` and is traversed from the far end, so that element `i` is at
`P - (n-1)*INC + i*INC`.  `vecStart P n INC` (`PropsGemv`) is the address of element 0.
-/

set_option linter.unusedSectionVars false

namespace Haxx
open Arith Quaternion Finset

section exact
variable {R : Type} [CommRing R] [DecidableEq R]

/-- `v` is the vector a BLAS routine sees for the arguments `(P, INC)` with `n` elements. -/
def BlasVec (m : Mem R) (P : Int) (n INC : Int) (v : Nat → Quat R) : Prop :=
  VecAt m (vecStart P n INC) INC n.toNat v

/-- Its cells. -/
def BlasCell (P n INC : Int) (a : Int) : Prop := VecCell (vecStart P n INC) INC n.toNat a

/-- SCALV with the BLAS convention. -/
def ScalvIsBlas (SCALV : Char → Int → Scal R → Int → Int → Prog R Unit) : Prop :=
  ∀ (m : Mem R) (SIDE : Char) (N X INCX : Int) (ALPHA : Scal R) (x : Nat → Quat R),
    SIDE = 'L' ∨ SIDE = 'R' → ALPHA.toH ≠ 0 → INCX ≠ 0 → Fits32 (N * INCX) → BlasVec m X N INCX x →
    ∃ m', SCALV SIDE N ALPHA X INCX m = .ok ((), m') ∧
      BlasVec m' X N INCX (fun i => Quat.ofH
        (if SIDE = 'L' then ALPHA.toH * (x i).toH else (x i).toH * ALPHA.toH)) ∧
      SameOutside (BlasCell X N INCX) m m'

/-- AXPYV with the BLAS convention. -/
def AxpyvIsBlas (AXPYV : Char → Int → Scal R → Int → Int → Int → Int → Prog R Unit) : Prop :=
  ∀ (m : Mem R) (SIDE : Char) (N X INCX Y INCY : Int) (ALPHA : Scal R) (x y : Nat → Quat R),
    SIDE = 'L' ∨ SIDE = 'R' → ¬ ALPHA.pureK → INCX ≠ 0 → INCY ≠ 0 → Fits32 (N * INCX) → Fits32 (N * INCY) →
    BlasVec m X N INCX x → BlasVec m Y N INCY y → Apart (BlasCell X N INCX) (BlasCell Y N INCY) →
    ∃ m', AXPYV SIDE N ALPHA X INCX Y INCY m = .ok ((), m') ∧
      BlasVec m' Y N INCY (fun i => Quat.ofH ((y i).toH +
        (if SIDE = 'L' then ALPHA.toH * (x i).toH else (x i).toH * ALPHA.toH))) ∧
      SameOutside (BlasCell Y N INCY) m m'

/-- DOTUV (`conj = false`) and DOTCV with the BLAS convention. -/
def DotIsBlas (DOT : Bool → Int → Int → Int → Int → Int → Prog R (Quat R)) : Prop :=
  ∀ (m : Mem R) (conj : Bool) (N X INCX Y INCY : Int) (x y : Nat → Quat R),
    INCX ≠ 0 → INCY ≠ 0 → Fits32 (N * INCX) → Fits32 (N * INCY) → Fits32 (4 * INCX) → Fits32 (4 * INCY) →
    BlasVec m X N INCX x → BlasVec m Y N INCY y →
    DOT conj N X INCX Y INCY m = .ok (Quat.ofH (∑ i ∈ range N.toNat,
      (if conj then star (x i).toH else (x i).toH) * (y i).toH), m)

theorem sideMul_letter {SIDE : Char} (hS : SIDE = 'L' ∨ SIDE = 'R') (α : ℍ[R]) (q : Quat R) :
    sideMul (lsame 'R' SIDE) α q = (if SIDE = 'L' then α * q.toH else q.toH * α) := by
  rcases hS with rfl | rfl
  · rw [lsame_RL]; simp [sideMul]
  · rw [lsame_RR]; simp [sideMul]

/-- C52 (partial: Fortran build only; the other builds violate it, `C52_simd_violated`,
`C52_portable_violated`). -/
theorem C52_fortran_partial : ScalvIsBlas (R := R) scalvF ∧ AxpyvIsBlas (R := R) axpyvF ∧ DotIsBlas (R := R) dotF := by
  refine ⟨?_, ?_, ?_⟩
  · intro m SIDE N X INCX ALPHA x hS hz hi _ hX
    have hz' : ALPHA.allZero = false := by
      rw [Bool.eq_false_iff]; intro h; exact hz ((allZero_iff _).mp h)
    obtain ⟨_, m3, h3, a3, b3⟩ := scalvF_wp (SIDE := SIDE) (INCX := INCX) (X := X) (N := N) hz' hi
      (by rw [vecStart_eq]; exact hX)
    rw [vecStart_eq] at a3 b3
    simp only [sideMul_letter hS] at a3
    exact ⟨m3, h3, a3, b3⟩
  · intro m SIDE N X INCX Y INCY ALPHA x y hS _ _ hi _ _ hX hY hd
    obtain ⟨_, m3, h3, a3, b3⟩ := axpyvF_wp (SIDE := SIDE) (ALPHA := ALPHA) (INCX := INCX) (X := X)
      (N := N) (Y := Y) (INCY := INCY) (m0 := m) (x := x) (y := y) hi
      (by rw [vecStart_eq]; exact hX) (by rw [vecStart_eq]; exact hY)
      (by rw [vecStart_eq, vecStart_eq]; exact hd)
    rw [vecStart_eq] at a3 b3
    simp only [sideMul_letter hS] at a3
    exact ⟨m3, h3, a3, b3⟩
  · intro m conj N X INCX Y INCY x y _ _ _ _ _ _ hX hY
    obtain ⟨v3, m3, h3, rfl, e3⟩ := dotF_wp (conj := conj) (N := N) (X := X) (INCX := INCX) (Y := Y)
      (INCY := INCY) (by rw [vecStart_eq]; exact hX) (by rw [vecStart_eq]; exact hY)
    rw [h3, eq_ofH e3]

/-- C52.  The SIMD routines start at the pointer they are given whatever the sign of the increment: they
compute what BLAS does if the caller passes the address of element 0 instead. -/
theorem C52_simd_from_element_zero :
    ScalvIsBlas (R := R) (fun SIDE N ALPHA X INCX => scalvAVX SIDE N ALPHA (vecStart X N INCX) INCX) ∧
    AxpyvIsBlas (R := R) (fun SIDE N ALPHA X INCX Y INCY =>
      axpyvAVX SIDE N ALPHA (vecStart X N INCX) INCX (vecStart Y N INCY) INCY) ∧
    DotIsBlas (R := R) (fun conj N X INCX Y INCY =>
      dotAVX conj N (vecStart X N INCX) INCX (vecStart Y N INCY) INCY) := by
  refine ⟨?_, ?_, ?_⟩
  · intro m SIDE N X INCX ALPHA x hS hz hi _ hX
    exact C13_scalv m SIDE N _ INCX ALPHA x hX hi
  · intro m SIDE N X INCX Y INCY ALPHA x y hS _ _ hi _ _ hX hY hd
    obtain ⟨m1, h1, a1, _, b1⟩ := C14_axpyv m SIDE N _ INCX _ INCY ALPHA x y hX hY hi hd
    exact ⟨m1, h1, a1, b1⟩
  · intro m conj N X INCX Y INCY x y _ _ _ _ h1 h2 hX hY
    have := C15_dot m N _ INCX _ INCY x y hX hY h1 h2
    cases conj
    · exact this.1
    · exact this.2

/-- C52.  So the SIMD and the Fortran builds agree for every sign once the pointers are translated. -/
theorem C52_simd_fortran_agree (m : Mem R) (SIDE : Char) (N X INCX Y INCY : Int) (ALPHA : Scal R)
    (x y : Nat → Quat R) (hS : SIDE = 'L' ∨ SIDE = 'R') (hz : ALPHA.toH ≠ 0) (hk : ¬ ALPHA.pureK)
    (hix : INCX ≠ 0) (hiy : INCY ≠ 0) (fx : Fits32 (N * INCX)) (fy : Fits32 (N * INCY))
    (fx4 : Fits32 (4 * INCX)) (fy4 : Fits32 (4 * INCY))
    (hX : BlasVec m X N INCX x) (hY : BlasVec m Y N INCY y) (hd : Apart (BlasCell X N INCX) (BlasCell Y N INCY)) :
    scalvF SIDE N ALPHA X INCX m = scalvAVX SIDE N ALPHA (vecStart X N INCX) INCX m ∧
    axpyvF SIDE N ALPHA X INCX Y INCY m =
      axpyvAVX SIDE N ALPHA (vecStart X N INCX) INCX (vecStart Y N INCY) INCY m ∧
    (∀ conj, dotF conj N X INCX Y INCY m = dotAVX conj N (vecStart X N INCX) INCX (vecStart Y N INCY) INCY m) := by
  obtain ⟨f1, f2, f3⟩ := C52_fortran_partial (R := R)
  obtain ⟨s1, s2, s3⟩ := C52_simd_from_element_zero (R := R)
  refine ⟨?_, ?_, ?_⟩
  · obtain ⟨m1, h1, a1, b1⟩ := f1 m SIDE N X INCX ALPHA x hS hz hix fx hX
    obtain ⟨m2, h2, a2, b2⟩ := s1 m SIDE N X INCX ALPHA x hS hz hix fx hX
    rw [h1]
    refine Eq.trans ?_ h2.symm
    rw [mem_ext_vec a1 a2 b1 b2]
  · obtain ⟨m1, h1, a1, b1⟩ := f2 m SIDE N X INCX Y INCY ALPHA x y hS hk hix hiy fx fy hX hY hd
    obtain ⟨m2, h2, a2, b2⟩ := s2 m SIDE N X INCX Y INCY ALPHA x y hS hk hix hiy fx fy hX hY hd
    rw [h1]
    refine Eq.trans ?_ h2.symm
    rw [mem_ext_vec a1 a2 b1 b2]
  · intro conj
    rw [f3 m conj N X INCX Y INCY x y hix hiy fx fy fx4 fy4 hX hY]
    exact (s3 m conj N X INCX Y INCY x y hix hiy fx fy fx4 fy4 hX hY).symm

/-- Two elements of `X` (eight cells from 0 on), increment −1. -/
theorem negVec [Nontrivial R] (f : Int → R) :
    BlasVec (memOf 0 8 f) 0 2 (-1) (fun i => if i = 0 then ⟨f 4, f 5, f 6, f 7⟩ else ⟨f 0, f 1, f 2, f 3⟩) := by
  intro i hi
  have : i < 2 := hi
  have : i = 0 ∨ i = 1 := by omega
  rcases this with rfl | rfl
  · exact readQ_memOf (by unfold vecStart; omega) (by unfold vecStart; omega)
  · exact readQ_memOf (by unfold vecStart; simp) (by unfold vecStart; simp)

end exact

/-- C52, violated by the SIMD build: with two elements and increment −1 the routines reach in front of the
array: SCALV, AXPYV and DOT fault on a legal BLAS call. -/
theorem C52_simd_violated : ¬ ScalvIsBlas (R := Int) scalvAVX ∧ ¬ AxpyvIsBlas (R := Int) axpyvAVX ∧
    ¬ DotIsBlas (R := Int) dotAVX := by
  refine ⟨?_, ?_, ?_⟩
  · intro h
    obtain ⟨m', e, _⟩ := h (memOf 0 8 (fun a => a)) 'L' 2 0 (-1) (.d 2) _ (Or.inl rfl)
      (fun e => by have := congrArg QuaternionAlgebra.re e; simp [Scal.toH] at this) (by decide) (by unfold Fits32; decide) (negVec _)
    have : (scalvAVX 'L' 2 (.d 2) 0 (-1) (memOf 0 8 (fun a => a))).map (fun _ => ()) = .error (.oob (-4)) := by decide
    rw [e] at this
    cases this
  · intro h
    have hY : BlasVec (memOf 0 16 (fun a => a)) 8 2 1 (fun i => ⟨8 + 4 * (i * 1), 8 + 4 * (i * 1) + 1, 8 + 4 * (i * 1) + 2, 8 + 4 * (i * 1) + 3⟩) := by
      intro i hi; have : i < 2 := hi
      exact readQ_memOf (by unfold vecStart; simp; omega) (by unfold vecStart; simp; omega)
    have hX : BlasVec (memOf 0 16 (fun a => a)) 0 2 (-1) (fun i => if i = 0 then ⟨4, 5, 6, 7⟩ else ⟨0, 1, 2, 3⟩) := by
      intro i hi
      have : i < 2 := hi
      have : i = 0 ∨ i = 1 := by omega
      rcases this with rfl | rfl <;> decide
    obtain ⟨m', e, _⟩ := h (memOf 0 16 (fun a => a)) 'L' 2 0 (-1) 8 1 (.d 2) _ _ (Or.inl rfl)
      (by simp [Scal.pureK]) (by decide) (by decide) (by unfold Fits32; decide) (by unfold Fits32; decide) hX hY (by
        rintro a ⟨i, hi, h⟩ ⟨j, hj, h'⟩
        have h1 : i < 2 := hi
        have h2 : j < 2 := hj
        unfold vecStart at *
        rw [if_pos (by decide)] at h
        rw [if_neg (by decide)] at h'
        unfold InQ at *; omega)
    have : (axpyvAVX 'L' 2 (.d 2) 0 (-1) 8 1 (memOf 0 16 (fun a => a))).map (fun _ => ()) = .error (.oob (-4)) := by decide
    rw [e] at this
    cases this
  · intro h
    have e := h (memOf 0 8 (fun a => a)) false 2 0 (-1) 0 (-1) _ _ (by decide) (by decide) (by unfold Fits32; decide)
      (by unfold Fits32; decide) (by unfold Fits32; decide) (by unfold Fits32; decide) (negVec _) (negVec _)
    have : (dotAVX false 2 0 (-1) 0 (-1) (memOf 0 8 (fun a => a))).map (fun _ => ()) = .error (.oob (-4)) := by decide
    rw [e] at this
    cases this

section port
variable {F : Type} [Arith F] [ArithEq F]

/-- C52.  The portable templates reject a non-positive increment with an assertion (memory is not touched),
except SCALV, which returns without doing anything. -/
theorem C52_portable_rejects (m : Mem F) (SIDE : Char) (N X INCX Y INCY : Int) (ALPHA : Scal F) (conj : Bool)
    (hN : 0 < N) (h : INCX ≤ 0 ∨ INCY ≤ 0) :
    copyvGen N X INCX Y INCY m = .error .assertFail ∧ swapvGen N X INCX Y INCY m = .error .assertFail ∧
    (ALPHA.eqZero = false → axpyvGen SIDE N ALPHA X INCX Y INCY m = .error .assertFail) ∧
    dotGen conj N X INCX Y INCY m = .error .assertFail ∧
    (INCX ≤ 0 → scalvGen SIDE N ALPHA X INCX m = .ok ((), m)) := by
  have key : ∀ {α : Type} (P : Prog F α), (do assertP (INCX > 0); assertP (INCY > 0); P : Prog F α) m = .error .assertFail := by
    intro α P
    by_cases hx : INCX > 0
    · have hy : ¬ INCY > 0 := by omega
      simp [assertP, hx, hy]
      rfl
    · simp [assertP, hx]
      rfl
  refine ⟨?_, ?_, ?_, ?_, ?_⟩
  · unfold copyvGen; rw [if_neg (by omega)]; exact key _
  · unfold swapvGen; rw [if_neg (by omega)]; exact key _
  · intro h0; unfold axpyvGen; rw [if_neg (by omega), h0]; exact key _
  · unfold dotGen; rw [if_neg (by omega)]; exact key _
  · intro hx; unfold scalvGen; rw [if_pos (Or.inr hx)]; rfl

end port

/-- C52, violated by the portable build. -/
theorem C52_portable_violated : ¬ ScalvIsBlas (R := Int) scalvGen ∧ ¬ DotIsBlas (R := Int) dotGen := by
  constructor
  · intro h
    obtain ⟨m', e, v, _⟩ := h (memOf 0 8 (fun a => a)) 'L' 2 0 (-1) (.d 2) _ (Or.inl rfl)
      (fun e => by have := congrArg QuaternionAlgebra.re e; simp [Scal.toH] at this) (by decide) (by unfold Fits32; decide) (negVec _)
    rw [(C52_portable_rejects (memOf 0 8 (fun a => a)) 'L' 2 0 (-1) 0 0 (.d 2) false (by decide) (Or.inl (by decide))).2.2.2.2
      (by decide)] at e
    cases e
    have := (negVec (fun a : Int => a) 0 (by decide)).symm.trans (v 0 (by decide))
    simp only [Option.some.injEq] at this
    have := congrArg Quat.re this
    simp [Quat.ofH, Scal.toH] at this
  · intro h
    have e := h (memOf 0 8 (fun a => a)) false 2 0 (-1) 0 (-1) _ _ (by decide) (by decide) (by unfold Fits32; decide)
      (by unfold Fits32; decide) (by unfold Fits32; decide) (by unfold Fits32; decide) (negVec _) (negVec _)
    rw [(C52_portable_rejects (memOf 0 8 (fun a => a)) 'L' 2 0 (-1) 0 (-1) (.d 2) false (by decide) (Or.inl (by decide))).2.2.2.1] at e
    cases e

end Haxx
