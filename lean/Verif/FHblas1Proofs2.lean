import Verif.FHblas1Proofs

/-! The Fortran level-1 routines as a whole. -/

set_option linter.unusedSimpArgs false

namespace Haxx
open Arith Quaternion Finset

/-- `HBLAS_SCALV` as bound to the Fortran routines — `src/hblas/hblas1.cxx.in:58-65,87-89`. -/
def scalvF {F : Type} [Arith F] [ArithEq F] (SIDE : Char) (N : Int) (ALPHA : Scal F)
    (X INCX : Int) : Prog F Unit :=
  match ALPHA with
  | .d a => hscald SIDE N a X INCX
  | .z a => hscalc SIDE N a X INCX
  | .h a => hscalh SIDE N a X INCX

/-- `HBLAS_AXPYV` as bound to the Fortran routines — `src/hblas/hblas1.cxx.in:68-76,97-99`. -/
def axpyvF {F : Type} [Arith F] [ArithEq F] (SIDE : Char) (N : Int) (ALPHA : Scal F)
    (X INCX Y INCY : Int) : Prog F Unit :=
  match ALPHA with
  | .d a => haxpydh SIDE N a X INCX Y INCY
  | .z a => haxpych SIDE N a X INCX Y INCY
  | .h a => haxpyhh SIDE N a X INCX Y INCY

/-- `HBLAS_DOTUV`/`HBLAS_DOTCV` as meant to be bound to the Fortran routines —
`src/hblas/hblas1.cxx.in:47-56,103-104` (the macro is defined as `DOT_FORTRAN_IMPL` but used as
`DOTV_FORTRAN_IMPL`, so the Fortran configuration of that file does not compile as written). -/
def dotF {F : Type} [Arith F] [ArithEq F] (conj : Bool) (N X INCX Y INCY : Int) :
    Prog F (Quat F) :=
  if conj then hdotc N X INCX Y INCY else hdotu N X INCX Y INCY

section
variable {R : Type} [CommRing R] [DecidableEq R]

/-- The scalar is zero, all components compared (what the Fortran tests compute). -/
def Scal.allZero : Scal R → Bool
  | .d a => decide (a = 0)
  | .z a => decide (a.re = 0) && decide (a.im = 0)
  | .h a => ((decide (a.re = 0) && decide (a.i = 0)) && decide (a.j = 0)) && decide (a.k = 0)

theorem allZero_iff (s : Scal R) : s.allZero = true ↔ s.toH = 0 := by
  cases s with
  | d a =>
    simp only [Scal.allZero, decide_eq_true_eq, Scal.toH]
    constructor
    · rintro rfl; simp
    · intro h; simpa using congrArg QuaternionAlgebra.re h
  | z a =>
    simp only [Scal.allZero, Bool.and_eq_true, decide_eq_true_eq, Scal.toH]
    constructor
    · rintro ⟨h1, h2⟩; ext <;> simp [h1, h2]
    · intro h
      exact ⟨by simpa using congrArg QuaternionAlgebra.re h,
        by simpa using congrArg QuaternionAlgebra.imI h⟩
  | h a =>
    simp only [Scal.allZero, Bool.and_eq_true, decide_eq_true_eq, Scal.toH]
    constructor
    · rintro ⟨⟨⟨h1, h2⟩, h3⟩, h4⟩; ext <;> simp [h1, h2, h3, h4]
    · intro h
      exact ⟨⟨⟨by simpa using congrArg QuaternionAlgebra.re h,
        by simpa using congrArg QuaternionAlgebra.imI h⟩,
        by simpa using congrArg QuaternionAlgebra.imJ h⟩,
        by simpa using congrArg QuaternionAlgebra.imK h⟩

theorem fbase_one (X N : Int) : fbase X N 1 = X := by simp [fbase]

theorem fidx (X N INC : Int) :
    X + 4 * ((if INC < 0 then (-N + 1) * INC + 1 else 1) - 1) = fbase X N INC := by
  unfold fbase; split <;> ring

theorem wp_fidx {F : Type} {N INC i0 : Int} {m : Mem F} {Q : Int → Mem F → Prop} :
    wp (do if decide (INC < 0) = true then pure ((-N + 1) * INC + 1) else pure i0 : Prog F Int)
      m Q ↔ Q (if INC < 0 then (-N + 1) * INC + 1 else i0) m := by
  by_cases h : INC < 0
  · simp only [h, decide_true, if_true, wp_pure]
  · simp only [h, decide_false, Bool.false_eq_true, if_false, wp_pure]

theorem scalvF_wp {m0 : Mem R} {SIDE : Char} {N X INCX : Int} {ALPHA : Scal R} {x : Nat → Quat R}
    (hz : ALPHA.allZero = false) (hinc : INCX ≠ 0)
    (hX : VecAt m0 (fbase X N INCX) INCX N.toNat x) :
    wp (scalvF SIDE N ALPHA X INCX) m0 (fun _ m =>
      VecAt m (fbase X N INCX) INCX N.toNat
        (fun i => Quat.ofH (sideMul (lsame 'R' SIDE) ALPHA.toH (x i))) ∧
      SameOutside (VecCell (fbase X N INCX) INCX N.toNat) m0 m) := by
  by_cases hN : N ≤ 0
  · have h0 : N.toNat = 0 := by omega
    have : wp (scalvF SIDE N ALPHA X INCX) m0 (fun _ m => m = m0) := by
      cases ALPHA <;> simp [scalvF, hscald, hscalc, hscalh, hN, wp_pure]
    refine wp_mono this ?_
    rintro _ m rfl
    exact ⟨fun i hi => by omega, fun _ _ => rfl⟩
  have hd : ∀ (s : Bool) (a : R) (y : Quat R), sideMul s (Scal.d a).toH y =
      sideMul false (Scal.d a).toH y := by
    intro s a y; cases s
    · rfl
    · simp only [sideMul, if_true, Bool.false_eq_true, if_false, Scal.toH]
      exact (Quaternion.coe_commutes a _).symm
  cases ALPHA with
  | d a =>
    have hz' : (a ==ᶠ zero) = false := by simpa [Scal.allZero] using hz
    simp only [hd]
    simp only [scalvF, hscald, hN, hz', decide_false, Bool.false_eq_true, if_false, wp_bind,
      wp_pure]
    unfold hscald_if21
    by_cases h1 : INCX = 1
    · subst h1
      rw [fbase_one] at *
      simp only [decide_true, if_true, wp_bind, wp_pure]
      exact fort_unit1 _ (fun m I q h => hscald_10_wp h) hX
    · simp only [h1, decide_false, Bool.false_eq_true, if_false, wp_bind, wp_fidx, wp_pure]
      rw [← fidx] at *
      exact fort_str1 _ (fun m I IX q h => hscald_20_wp (I := I) h) hinc hX
  | z a =>
    have hz' : cabsIsZero a = false := by simpa [Scal.allZero, cabsIsZero] using hz
    simp only [scalvF, hscalc, hN, hz', decide_false, Bool.false_eq_true, if_false, wp_bind,
      wp_pure]
    unfold hscalc_if26
    by_cases h1 : INCX = 1
    · subst h1
      rw [fbase_one] at *
      simp only [decide_true, if_true, wp_bind, wp_pure]
      unfold hscalc_if27
      cases lsame 'R' SIDE
      · simp only [Bool.not_false, if_true, wp_bind, wp_pure]
        exact fort_unit1 _ (fun m I q h => hscalc_10_wp h) hX
      · simp only [Bool.not_true, Bool.false_eq_true, if_false, wp_bind, wp_pure]
        exact fort_unit1 _ (fun m I q h => hscalc_20_wp h) hX
    · simp only [h1, decide_false, Bool.false_eq_true, if_false, wp_bind, wp_fidx, wp_pure]
      rw [← fidx] at *
      unfold hscalc_if45
      cases lsame 'R' SIDE
      · simp only [Bool.not_false, if_true, wp_bind, wp_pure]
        exact fort_str1 _ (fun m I IX q h => hscalc_30_wp (I := I) h) hinc hX
      · simp only [Bool.not_true, Bool.false_eq_true, if_false, wp_bind, wp_pure]
        exact fort_str1 _ (fun m I IX q h => hscalc_40_wp (I := I) h) hinc hX
  | h a =>
    have hz' : ((((a.re ==ᶠ zero) && (a.i ==ᶠ zero)) && (a.j ==ᶠ zero)) && (a.k ==ᶠ zero)) = false :=
      hz
    simp only [scalvF, hscalh, hN, hz', decide_false, Bool.false_eq_true, if_false, wp_bind,
      wp_pure]
    unfold hscalh_if27
    by_cases h1 : INCX = 1
    · subst h1
      rw [fbase_one] at *
      simp only [decide_true, if_true, wp_bind, wp_pure]
      unfold hscalh_if28
      cases lsame 'R' SIDE
      · simp only [Bool.not_false, if_true, wp_bind, wp_pure]
        exact fort_unit1 _ (fun m I q h => hscalh_10_wp h) hX
      · simp only [Bool.not_true, Bool.false_eq_true, if_false, wp_bind, wp_pure]
        exact fort_unit1 _ (fun m I q h => hscalh_20_wp h) hX
    · simp only [h1, decide_false, Bool.false_eq_true, if_false, wp_bind, wp_fidx, wp_pure]
      rw [← fidx] at *
      unfold hscalh_if70
      cases lsame 'R' SIDE
      · simp only [Bool.not_false, if_true, wp_bind, wp_pure]
        exact fort_str1 _ (fun m I IX q h => hscalh_30_wp (I := I) h) hinc hX
      · simp only [Bool.not_true, Bool.false_eq_true, if_false, wp_bind, wp_pure]
        exact fort_str1 _ (fun m I IX q h => hscalh_40_wp (I := I) h) hinc hX

/-- Zero ALPHA: the Fortran scaling returns without touching memory. -/
theorem scalvF_zero {m0 : Mem R} {SIDE : Char} {N X INCX : Int} {ALPHA : Scal R}
    (hz : ALPHA.allZero = true) : scalvF SIDE N ALPHA X INCX m0 = .ok ((), m0) := by
  have : wp (scalvF SIDE N ALPHA X INCX) m0 (fun _ m => m = m0) := by
    by_cases hN : N ≤ 0
    · cases ALPHA <;> simp [scalvF, hscald, hscalc, hscalh, hN, wp_pure]
    · cases ALPHA with
      | d a =>
        have hz' : (a ==ᶠ zero) = true := hz
        simp only [scalvF, hscald, hN, hz', decide_false, Bool.false_eq_true, if_false, if_true, wp_pure]
      | z a =>
        have hz' : cabsIsZero a = true := hz
        simp only [scalvF, hscalc, hN, hz', decide_false, Bool.false_eq_true, if_false, if_true, wp_pure]
      | h a =>
        have hz' : ((((a.re ==ᶠ zero) && (a.i ==ᶠ zero)) && (a.j ==ᶠ zero)) && (a.k ==ᶠ zero)) = true :=
          hz
        simp only [scalvF, hscalh, hN, hz', decide_false, Bool.false_eq_true, if_false, if_true, wp_pure]
  obtain ⟨_, m, h, rfl⟩ := this
  exact h

theorem axpyvF_wp {m0 : Mem R} {SIDE : Char} {N X INCX Y INCY : Int} {ALPHA : Scal R}
    {x y : Nat → Quat R}
    (hinc : INCY ≠ 0)
    (hX : VecAt m0 (fbase X N INCX) INCX N.toNat x)
    (hY : VecAt m0 (fbase Y N INCY) INCY N.toNat y)
    (hdis : Apart (VecCell (fbase X N INCX) INCX N.toNat) (VecCell (fbase Y N INCY) INCY N.toNat)) :
    wp (axpyvF SIDE N ALPHA X INCX Y INCY) m0 (fun _ m =>
      VecAt m (fbase Y N INCY) INCY N.toNat
        (fun i => Quat.ofH ((y i).toH + sideMul (lsame 'R' SIDE) ALPHA.toH (x i))) ∧
      SameOutside (VecCell (fbase Y N INCY) INCY N.toNat) m0 m) := by
  by_cases hN : N ≤ 0
  · have h0 : N.toNat = 0 := by omega
    have : wp (axpyvF SIDE N ALPHA X INCX Y INCY) m0 (fun _ m => m = m0) := by
      cases ALPHA <;> simp [axpyvF, haxpydh, haxpych, haxpyhh, hN, wp_pure]
    refine wp_mono this ?_
    rintro _ m rfl
    exact ⟨fun i hi => by omega, fun _ _ => rfl⟩
  cases hz : ALPHA.allZero with
  | true =>
    have : wp (axpyvF SIDE N ALPHA X INCX Y INCY) m0 (fun _ m => m = m0) := by
      cases ALPHA with
      | d a =>
        have hz' : (a ==ᶠ zero) = true := hz
        simp only [axpyvF, haxpydh, hN, hz', decide_false, Bool.false_eq_true, if_false, if_true,
          wp_pure]
      | z a =>
        have hz' : ((a.re ==ᶠ zero) && (a.im ==ᶠ zero)) = true := hz
        simp only [axpyvF, haxpych, hN, hz', decide_false, Bool.false_eq_true, if_false, if_true,
          wp_pure]
      | h a =>
        have hz' : ((((a.re ==ᶠ zero) && (a.i ==ᶠ zero)) && (a.j ==ᶠ zero)) && (a.k ==ᶠ zero)) =
          true := hz
        simp only [axpyvF, haxpyhh, hN, hz', decide_false, Bool.false_eq_true, if_false, if_true,
          wp_pure]
    refine wp_mono this ?_
    rintro _ m rfl
    refine ⟨fun i hi => ?_, fun _ _ => rfl⟩
    rw [hY i hi, (allZero_iff _).mp hz]
    congr 1
    apply eq_ofH
    cases lsame 'R' SIDE <;> simp [sideMul]
  | false =>
    have hd : ∀ (s : Bool) (a : R) (y : Quat R), sideMul s (Scal.d a).toH y =
        sideMul false (Scal.d a).toH y := by
      intro s a y; cases s
      · rfl
      · simp only [sideMul, if_true, Bool.false_eq_true, if_false, Scal.toH]
        exact (Quaternion.coe_commutes a _).symm
    cases ALPHA with
    | d a =>
      have hz' : (a ==ᶠ zero) = false := by simpa [Scal.allZero] using hz
      simp only [hd]
      simp only [axpyvF, haxpydh, hN, hz', decide_false, Bool.false_eq_true, if_false, wp_bind,
        wp_pure]
      unfold haxpydh_if21
      by_cases h1 : INCX = 1 ∧ INCY = 1
      · obtain ⟨rfl, rfl⟩ := h1
        rw [fbase_one, fbase_one] at *
        simp only [decide_true, Bool.and_self, if_true, wp_bind, wp_pure]
        exact fort_unit2 (fun p q => Quat.ofH (q.toH + sideMul false (Scal.d a).toH p))
          (fun m I p q hw hx hy => haxpydh_10_wp hw hx hy) hX hY hdis
      · have h1' : (decide (INCX = 1) && decide (INCY = 1)) = false := by simpa using h1
        simp only [h1', Bool.false_eq_true, if_false, wp_bind, wp_fidx, wp_pure]
        rw [← fidx X, ← fidx Y] at *
        exact fort_str2 (fun p q => Quat.ofH (q.toH + sideMul false (Scal.d a).toH p))
          (fun m I IX IY p q hw hx hy => haxpydh_20_wp (I := I) hw hx hy) hinc hX hY hdis
    | z a =>
      have hz' : ((a.re ==ᶠ zero) && (a.im ==ᶠ zero)) = false := hz
      simp only [axpyvF, haxpych, hN, hz', decide_false, Bool.false_eq_true, if_false, wp_bind,
        wp_pure]
      unfold haxpych_if24
      by_cases h1 : INCX = 1 ∧ INCY = 1
      · obtain ⟨rfl, rfl⟩ := h1
        rw [fbase_one, fbase_one] at *
        simp only [decide_true, Bool.and_self, if_true, wp_bind, wp_pure]
        unfold haxpych_if25
        cases lsame 'R' SIDE
        · simp only [Bool.not_false, if_true, wp_bind, wp_pure]
          exact fort_unit2 (fun p q => Quat.ofH (q.toH + sideMul false (Scal.z a).toH p))
            (fun m I p q hw hx hy => haxpych_10_wp hw hx hy) hX hY hdis
        · simp only [Bool.not_true, Bool.false_eq_true, if_false, wp_bind, wp_pure]
          exact fort_unit2 (fun p q => Quat.ofH (q.toH + sideMul true (Scal.z a).toH p))
            (fun m I p q hw hx hy => haxpych_20_wp hw hx hy) hX hY hdis
      · have h1' : (decide (INCX = 1) && decide (INCY = 1)) = false := by simpa using h1
        simp only [h1', Bool.false_eq_true, if_false, wp_bind, wp_fidx, wp_pure]
        rw [← fidx X, ← fidx Y] at *
        unfold haxpych_if49
        cases lsame 'R' SIDE
        · simp only [Bool.not_false, if_true, wp_bind, wp_pure]
          exact fort_str2 (fun p q => Quat.ofH (q.toH + sideMul false (Scal.z a).toH p))
            (fun m I IX IY p q hw hx hy => haxpych_30_wp (I := I) hw hx hy) hinc hX hY hdis
        · simp only [Bool.not_true, Bool.false_eq_true, if_false, wp_bind, wp_pure]
          exact fort_str2 (fun p q => Quat.ofH (q.toH + sideMul true (Scal.z a).toH p))
            (fun m I IX IY p q hw hx hy => haxpych_40_wp (I := I) hw hx hy) hinc hX hY hdis
    | h a =>
      have hz' : ((((a.re ==ᶠ zero) && (a.i ==ᶠ zero)) && (a.j ==ᶠ zero)) && (a.k ==ᶠ zero)) =
        false := hz
      simp only [axpyvF, haxpyhh, hN, hz', decide_false, Bool.false_eq_true, if_false, wp_bind,
        wp_pure]
      unfold haxpyhh_if25
      by_cases h1 : INCX = 1 ∧ INCY = 1
      · obtain ⟨rfl, rfl⟩ := h1
        rw [fbase_one, fbase_one] at *
        simp only [decide_true, Bool.and_self, if_true, wp_bind, wp_pure]
        unfold haxpyhh_if26
        cases lsame 'R' SIDE
        · simp only [Bool.not_false, if_true, wp_bind, wp_pure]
          exact fort_unit2 (fun p q => Quat.ofH (q.toH + sideMul false (Scal.h a).toH p))
            (fun m I p q hw hx hy => haxpyhh_10_wp hw hx hy) hX hY hdis
        · simp only [Bool.not_true, Bool.false_eq_true, if_false, wp_bind, wp_pure]
          exact fort_unit2 (fun p q => Quat.ofH (q.toH + sideMul true (Scal.h a).toH p))
            (fun m I p q hw hx hy => haxpyhh_20_wp hw hx hy) hX hY hdis
      · have h1' : (decide (INCX = 1) && decide (INCY = 1)) = false := by simpa using h1
        simp only [h1', Bool.false_eq_true, if_false, wp_bind, wp_fidx, wp_pure]
        rw [← fidx X, ← fidx Y] at *
        unfold haxpyhh_if64
        cases lsame 'R' SIDE
        · simp only [Bool.not_false, if_true, wp_bind, wp_pure]
          exact fort_str2 (fun p q => Quat.ofH (q.toH + sideMul false (Scal.h a).toH p))
            (fun m I IX IY p q hw hx hy => haxpyhh_30_wp (I := I) hw hx hy) hinc hX hY hdis
        · simp only [Bool.not_true, Bool.false_eq_true, if_false, wp_bind, wp_pure]
          exact fort_str2 (fun p q => Quat.ofH (q.toH + sideMul true (Scal.h a).toH p))
            (fun m I IX IY p q hw hx hy => haxpyhh_40_wp (I := I) hw hx hy) hinc hX hY hdis

/-- Step of a dot product on a partial sum held in four variables. -/
theorem hdot_leaf_u {m : Mem R} {I IX IY X Y INCX INCY : Int} {p q : Quat R} {r1 r2 r3 r4 : R}
    (hx : readQ m (X + 4 * (IX - 1)) = some p) (hy : readQ m (Y + 4 * (IY - 1)) = some q) :
    wp (hdotu_20_I INCX INCY X Y I IX IY r1 r2 r3 r4) m (fun s m' => m' = m ∧
      ∃ v : Quat R, s = (IX + INCX, IY + INCY, v.re, v.i, v.j, v.k) ∧
        v.toH = (⟨r1, r2, r3, r4⟩ : Quat R).toH + p.toH * q.toH) := by
  unfold hdotu_20_I
  simp only [el2r_1, el2r_2, el2r_3, el2r_4, wp_bind, wp_pure, wp_rd0 hx, wp_rd1 hx, wp_rd2 hx,
    wp_rd3 hx, wp_rd0 hy, wp_rd1 hy, wp_rd2 hy, wp_rd3 hy]
  refine ⟨trivial, ⟨_, _, _, _⟩, rfl, ?_⟩
  ext <;> simp <;> ring

theorem hdot_leaf_c {m : Mem R} {I IX IY X Y INCX INCY : Int} {p q : Quat R} {r1 r2 r3 r4 : R}
    (hx : readQ m (X + 4 * (IX - 1)) = some p) (hy : readQ m (Y + 4 * (IY - 1)) = some q) :
    wp (hdotc_20_I INCX INCY X Y I IX IY r1 r2 r3 r4) m (fun s m' => m' = m ∧
      ∃ v : Quat R, s = (IX + INCX, IY + INCY, v.re, v.i, v.j, v.k) ∧
        v.toH = (⟨r1, r2, r3, r4⟩ : Quat R).toH + star p.toH * q.toH) := by
  unfold hdotc_20_I
  simp only [el2r_1, el2r_2, el2r_3, el2r_4, wp_bind, wp_pure, wp_rd0 hx, wp_rd1 hx, wp_rd2 hx,
    wp_rd3 hx, wp_rd0 hy, wp_rd1 hy, wp_rd2 hy, wp_rd3 hy]
  refine ⟨trivial, ⟨_, _, _, _⟩, rfl, ?_⟩
  ext <;> simp <;> ring

theorem hdot_unit_u {m : Mem R} {I X Y : Int} {p q : Quat R} {r1 r2 r3 r4 : R}
    (hx : readQ m (X + 4 * (I - 1)) = some p) (hy : readQ m (Y + 4 * (I - 1)) = some q) :
    wp (hdotu_10_I X Y I r1 r2 r3 r4) m (fun s m' => m' = m ∧
      ∃ v : Quat R, s = (v.re, v.i, v.j, v.k) ∧
        v.toH = (⟨r1, r2, r3, r4⟩ : Quat R).toH + p.toH * q.toH) := by
  unfold hdotu_10_I
  simp only [el2r_1, el2r_2, el2r_3, el2r_4, wp_bind, wp_pure, wp_rd0 hx, wp_rd1 hx, wp_rd2 hx,
    wp_rd3 hx, wp_rd0 hy, wp_rd1 hy, wp_rd2 hy, wp_rd3 hy]
  refine ⟨trivial, ⟨_, _, _, _⟩, rfl, ?_⟩
  ext <;> simp <;> ring

theorem hdot_unit_c {m : Mem R} {I X Y : Int} {p q : Quat R} {r1 r2 r3 r4 : R}
    (hx : readQ m (X + 4 * (I - 1)) = some p) (hy : readQ m (Y + 4 * (I - 1)) = some q) :
    wp (hdotc_10_I X Y I r1 r2 r3 r4) m (fun s m' => m' = m ∧
      ∃ v : Quat R, s = (v.re, v.i, v.j, v.k) ∧
        v.toH = (⟨r1, r2, r3, r4⟩ : Quat R).toH + star p.toH * q.toH) := by
  unfold hdotc_10_I
  simp only [el2r_1, el2r_2, el2r_3, el2r_4, wp_bind, wp_pure, wp_rd0 hx, wp_rd1 hx, wp_rd2 hx,
    wp_rd3 hx, wp_rd0 hy, wp_rd1 hy, wp_rd2 hy, wp_rd3 hy]
  refine ⟨trivial, ⟨_, _, _, _⟩, rfl, ?_⟩
  ext <;> simp <;> ring

theorem toH_eta (v : Quat R) : (⟨v.re, v.i, v.j, v.k⟩ : Quat R).toH = v.toH := rfl

/-- Unit-stride accumulation. -/
theorem fdot_unit {body : Int → R → R → R → R → Prog R (R × R × R × R)} {X Y : Int} {m : Mem R}
    {n : Nat} {x y : Nat → Quat R} (g : Quat R → Quat R → ℍ[R])
    (hb : ∀ I p q r1 r2 r3 r4, readQ m (X + 4 * (I - 1)) = some p →
      readQ m (Y + 4 * (I - 1)) = some q → wp (body I r1 r2 r3 r4) m (fun s m' => m' = m ∧
      ∃ v : Quat R, s = (v.re, v.i, v.j, v.k) ∧
        v.toH = (⟨r1, r2, r3, r4⟩ : Quat R).toH + g p q))
    (hX : VecAt m X 1 n x) (hY : VecAt m Y 1 n y) :
    wp (foldN n (fun i (s : R × R × R × R) => body ((i:Int) + 1) s.1 s.2.1 s.2.2.1 s.2.2.2)
      (0, 0, 0, 0)) m (fun s m' => m' = m ∧
        (⟨s.1, s.2.1, s.2.2.1, s.2.2.2⟩ : Quat R).toH = ∑ k ∈ range n, g (x k) (y k)) := by
  apply wp_foldN (fun i (s : R × R × R × R) m' => m' = m ∧
    (⟨s.1, s.2.1, s.2.2.1, s.2.2.2⟩ : Quat R).toH = ∑ k ∈ range i, g (x k) (y k))
  · refine ⟨rfl, ?_⟩
    rw [range_zero, sum_empty]; ext <;> simp
  · rintro i s m' hi ⟨rfl, hs⟩
    have e : ∀ P : Int, P + 4 * ((i:Int) + 1 - 1) = P + 4 * ((i:Int) * 1) := by intro P; ring
    refine wp_mono (hb _ (x i) (y i) _ _ _ _ (by rw [e]; exact hX i hi) (by rw [e]; exact hY i hi)) ?_
    rintro s' m' ⟨rfl, v, rfl, hv⟩
    exact ⟨rfl, by rw [toH_eta, hv, hs, sum_range_succ]⟩
  · intro s m' h; exact h

/-- Accumulation with running indices. -/
theorem fdot_str {body : Int → Int → Int → R → R → R → R → Prog R (Int × Int × R × R × R × R)}
    {X Y INCX INCY IX0 IY0 : Int} {m : Mem R}
    {n : Nat} {x y : Nat → Quat R} (g : Quat R → Quat R → ℍ[R])
    (hb : ∀ I IX IY p q r1 r2 r3 r4, readQ m (X + 4 * (IX - 1)) = some p →
      readQ m (Y + 4 * (IY - 1)) = some q → wp (body I IX IY r1 r2 r3 r4) m (fun s m' => m' = m ∧
      ∃ v : Quat R, s = (IX + INCX, IY + INCY, v.re, v.i, v.j, v.k) ∧
        v.toH = (⟨r1, r2, r3, r4⟩ : Quat R).toH + g p q))
    (hX : VecAt m (X + 4 * (IX0 - 1)) INCX n x) (hY : VecAt m (Y + 4 * (IY0 - 1)) INCY n y) :
    wp (foldN n (fun i (s : Int × Int × R × R × R × R) =>
        body ((i:Int) + 1) s.1 s.2.1 s.2.2.1 s.2.2.2.1 s.2.2.2.2.1 s.2.2.2.2.2)
      (IX0, IY0, 0, 0, 0, 0)) m (fun s m' => m' = m ∧
        (⟨s.2.2.1, s.2.2.2.1, s.2.2.2.2.1, s.2.2.2.2.2⟩ : Quat R).toH =
          ∑ k ∈ range n, g (x k) (y k)) := by
  apply wp_foldN (fun i (s : Int × Int × R × R × R × R) m' => m' = m ∧
    s.1 = IX0 + i * INCX ∧ s.2.1 = IY0 + i * INCY ∧
    (⟨s.2.2.1, s.2.2.2.1, s.2.2.2.2.1, s.2.2.2.2.2⟩ : Quat R).toH = ∑ k ∈ range i, g (x k) (y k))
  · refine ⟨rfl, by simp, by simp, ?_⟩
    rw [range_zero, sum_empty]; ext <;> simp
  · rintro i s m' hi ⟨rfl, h1, h2, hs⟩
    have e : ∀ P I0 INC : Int,
      P + 4 * (I0 + (i:Int) * INC - 1) = P + 4 * (I0 - 1) + 4 * ((i:Int) * INC) := by intros; ring
    refine wp_mono (hb _ _ _ (x i) (y i) _ _ _ _ (by rw [h1, e]; exact hX i hi)
      (by rw [h2, e]; exact hY i hi)) ?_
    rintro s' m' ⟨rfl, v, rfl, hv⟩
    exact ⟨rfl, by rw [h1]; push_cast; ring, by rw [h2]; push_cast; ring,
      by rw [toH_eta, hv, hs, sum_range_succ]⟩
  · rintro s m' ⟨h, _, _, h'⟩; exact ⟨h, h'⟩

theorem dotF_wp {m0 : Mem R} {conj : Bool} {N X INCX Y INCY : Int} {x y : Nat → Quat R}
    (hX : VecAt m0 (fbase X N INCX) INCX N.toNat x)
    (hY : VecAt m0 (fbase Y N INCY) INCY N.toNat y) :
    wp (dotF conj N X INCX Y INCY) m0 (fun r m => m = m0 ∧
      r.toH = ∑ k ∈ range N.toNat, (if conj then star (x k).toH else (x k).toH) * (y k).toH) := by
  by_cases hN : N ≤ 0
  · have h0 : N.toNat = 0 := by omega
    rw [h0, range_zero, sum_empty]
    cases conj <;> simp only [dotF, hdotu, hdotc, hN, decide_true, if_true, Bool.false_eq_true,
      if_false, wp_pure] <;> exact ⟨trivial, by ext <;> simp⟩
  · cases conj with
    | false =>
      simp only [dotF, hdotu, hN, decide_false, Bool.false_eq_true, if_false, wp_bind, wp_pure]
      unfold hdotu_if20
      by_cases h1 : INCX = 1 ∧ INCY = 1
      · obtain ⟨rfl, rfl⟩ := h1
        rw [fbase_one] at *
        simp only [decide_true, Bool.and_self, if_true, wp_bind, wp_pure]
        exact fdot_unit (fun p q => p.toH * q.toH)
          (fun I p q _ _ _ _ h1 h2 => hdot_unit_u h1 h2) hX hY
      · have h1' : (decide (INCX = 1) && decide (INCY = 1)) = false := by simpa using h1
        simp only [h1', Bool.false_eq_true, if_false, wp_bind, wp_fidx, wp_pure]
        rw [← fidx] at hX hY
        exact fdot_str (fun p q => p.toH * q.toH)
          (fun I IX IY p q _ _ _ _ h1 h2 => hdot_leaf_u (I := I) h1 h2) hX hY
    | true =>
      simp only [dotF, hdotc, hN, decide_false, Bool.false_eq_true, if_false, if_true, wp_bind,
        wp_pure]
      unfold hdotc_if20
      by_cases h1 : INCX = 1 ∧ INCY = 1
      · obtain ⟨rfl, rfl⟩ := h1
        rw [fbase_one] at *
        simp only [decide_true, Bool.and_self, if_true, wp_bind, wp_pure]
        exact fdot_unit (fun p q => star p.toH * q.toH)
          (fun I p q _ _ _ _ h1 h2 => hdot_unit_c h1 h2) hX hY
      · have h1' : (decide (INCX = 1) && decide (INCY = 1)) = false := by simpa using h1
        simp only [h1', Bool.false_eq_true, if_false, wp_bind, wp_fidx, wp_pure]
        rw [← fidx] at hX hY
        exact fdot_str (fun p q => star p.toH * q.toH)
          (fun I IX IY p q _ _ _ _ h1 h2 => hdot_leaf_c (I := I) h1 h2) hX hY

end

end Haxx
