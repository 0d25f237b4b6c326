import Verif.FHblas1
import Verif.FGemmLemmas
import Verif.Hblas1m

/-! Proofs about the Fortran level-1 routines. -/

set_option linter.unusedSimpArgs false
set_option linter.unusedTactic false
set_option linter.unreachableTactic false

namespace Haxx
open Arith Quaternion Finset

section drivers
variable {F : Type}

/-- In-place loop with unit stride. -/
theorem fort_unit1 {body : Int → Prog F Unit} {X : Int} (g : Quat F → Quat F) {m0 : Mem F} {n : Nat}
    {x : Nat → Quat F}
    (hb : ∀ m I q, readQ m (X + 4 * (I - 1)) = some q →
      wp (body I) m (fun _ m' => m' = writeQ m (X + 4 * (I - 1)) (g q)))
    (hX : VecAt m0 X 1 n x) :
    wp (forN n (fun i => body ((i:Int) + 1))) m0 (fun _ m =>
      VecAt m X 1 n (fun i => g (x i)) ∧ SameOutside (VecCell X 1 n) m0 m) := by
  unfold forN
  refine wp_mono (wp_vecmap (fun _ => ()) (fun i => g (x i)) hX (Or.inl (by omega)) ?_)
    (fun _ _ h => h.2)
  intro i m hi hxi _
  have e : X + 4 * ((i:Int) + 1 - 1) = X + 4 * ((i:Int) * 1) := by ring
  have := hb m ((i:Int) + 1) (x i) (by rw [e]; exact hxi)
  rw [e] at this
  exact wp_mono this (fun _ _ h => ⟨rfl, h⟩)

/-- In-place loop with a running index. -/
theorem fort_str1 {body : Int → Int → Prog F Int} {X INCX IX0 : Int} (g : Quat F → Quat F)
    {m0 : Mem F} {n : Nat} {x : Nat → Quat F}
    (hb : ∀ m I IX q, readQ m (X + 4 * (IX - 1)) = some q →
      wp (body I IX) m (fun s m' => s = IX + INCX ∧ m' = writeQ m (X + 4 * (IX - 1)) (g q)))
    (hinc : INCX ≠ 0) (hX : VecAt m0 (X + 4 * (IX0 - 1)) INCX n x) :
    wp (foldN n (fun i s => body ((i:Int) + 1) s) IX0) m0 (fun _ m =>
      VecAt m (X + 4 * (IX0 - 1)) INCX n (fun i => g (x i)) ∧
      SameOutside (VecCell (X + 4 * (IX0 - 1)) INCX n) m0 m) := by
  have key := wp_vecmap (f := fun i s => body ((i:Int) + 1) s) (m0 := m0)
    (fun i => IX0 + (i:Int) * INCX) (fun i => g (x i)) hX (Or.inl hinc) ?_
  · simp only [Nat.cast_zero, zero_mul, add_zero] at key
    exact wp_mono key (fun _ _ h => h.2)
  · intro i m hi hxi _
    have e : X + 4 * (IX0 + (i:Int) * INCX - 1) = X + 4 * (IX0 - 1) + 4 * ((i:Int) * INCX) := by ring
    have := hb m ((i:Int) + 1) (IX0 + i * INCX) (x i) (by rw [e]; exact hxi)
    rw [e] at this
    refine wp_mono this ?_
    rintro s m' ⟨h1, h2⟩
    exact ⟨by rw [h1]; push_cast; ring, h2⟩

/-- Two-vector loop with unit strides. -/
theorem fort_unit2 {body : Int → Prog F Unit} {X Y : Int} (g : Quat F → Quat F → Quat F)
    {m0 : Mem F} {n : Nat} {x y : Nat → Quat F}
    (hb : ∀ m I p q, (∀ w, readQ (writeQ m (Y + 4 * (I - 1)) w) (X + 4 * (I - 1)) = some p) →
      readQ m (X + 4 * (I - 1)) = some p → readQ m (Y + 4 * (I - 1)) = some q →
      wp (body I) m (fun _ m' => m' = writeQ m (Y + 4 * (I - 1)) (g p q)))
    (hX : VecAt m0 X 1 n x) (hY : VecAt m0 Y 1 n y)
    (hdis : Apart (VecCell X 1 n) (VecCell Y 1 n)) :
    wp (forN n (fun i => body ((i:Int) + 1))) m0 (fun _ m =>
      VecAt m Y 1 n (fun i => g (x i) (y i)) ∧ SameOutside (VecCell Y 1 n) m0 m) := by
  unfold forN
  refine wp_mono (wp_vecmap (fun _ => ()) (fun i => g (x i) (y i)) hY (Or.inl (by omega)) ?_)
    (fun _ _ h => h.2)
  intro i m hi hyi hs
  have hxi := vecAt_apart hX hdis hs i hi
  have e : ∀ P : Int, P + 4 * ((i:Int) + 1 - 1) = P + 4 * ((i:Int) * 1) := by intro P; ring
  have := hb m ((i:Int) + 1) (x i) (y i)
    (by
      intro w
      rw [e, e, readQ_congr (m' := m)]
      · exact hxi
      · intro a ha
        exact writeQ_other (fun h => hdis a ⟨i, hi, ha⟩ ⟨i, hi, h⟩))
    (by rw [e]; exact hxi) (by rw [e]; exact hyi)
  rw [e] at this
  exact wp_mono this (fun _ _ h => ⟨rfl, h⟩)

/-- Two-vector loop with running indices. -/
theorem fort_str2 {body : Int → Int → Int → Prog F (Int × Int)} {X INCX IX0 Y INCY IY0 : Int}
    (g : Quat F → Quat F → Quat F) {m0 : Mem F} {n : Nat} {x y : Nat → Quat F}
    (hb : ∀ m I IX IY p q,
      (∀ w, readQ (writeQ m (Y + 4 * (IY - 1)) w) (X + 4 * (IX - 1)) = some p) →
      readQ m (X + 4 * (IX - 1)) = some p → readQ m (Y + 4 * (IY - 1)) = some q →
      wp (body I IX IY) m (fun s m' => s = (IX + INCX, IY + INCY) ∧
        m' = writeQ m (Y + 4 * (IY - 1)) (g p q)))
    (hinc : INCY ≠ 0) (hX : VecAt m0 (X + 4 * (IX0 - 1)) INCX n x)
    (hY : VecAt m0 (Y + 4 * (IY0 - 1)) INCY n y)
    (hdis : Apart (VecCell (X + 4 * (IX0 - 1)) INCX n) (VecCell (Y + 4 * (IY0 - 1)) INCY n)) :
    wp (foldN n (fun i (s : Int × Int) => body ((i:Int) + 1) s.1 s.2) (IX0, IY0)) m0 (fun _ m =>
      VecAt m (Y + 4 * (IY0 - 1)) INCY n (fun i => g (x i) (y i)) ∧
      SameOutside (VecCell (Y + 4 * (IY0 - 1)) INCY n) m0 m) := by
  have key := wp_vecmap (f := fun i (s : Int × Int) => body ((i:Int) + 1) s.1 s.2) (m0 := m0)
    (fun i => (IX0 + (i:Int) * INCX, IY0 + (i:Int) * INCY)) (fun i => g (x i) (y i)) hY
    (Or.inl hinc) ?_
  · simp only [Nat.cast_zero, zero_mul, add_zero] at key
    exact wp_mono key (fun _ _ h => h.2)
  · intro i m hi hyi hs
    have hxi := vecAt_apart hX hdis hs i hi
    have e : ∀ P I0 INC : Int,
      P + 4 * (I0 + (i:Int) * INC - 1) = P + 4 * (I0 - 1) + 4 * ((i:Int) * INC) := by intros; ring
    have := hb m ((i:Int) + 1) (IX0 + i * INCX) (IY0 + i * INCY) (x i) (y i)
      (by
        intro w
        rw [e, e, readQ_congr (m' := m)]
        · exact hxi
        · intro a ha
          exact writeQ_other (fun h => hdis a ⟨i, hi, ha⟩ ⟨i, hi, h⟩))
      (by rw [e]; exact hxi) (by rw [e]; exact hyi)
    rw [e Y] at this
    refine wp_mono this ?_
    rintro s m' ⟨h1, h2⟩
    refine ⟨?_, h2⟩
    rw [h1]; push_cast; rw [Prod.mk.injEq]; constructor <;> ring

end drivers

section exact
variable {R : Type} [CommRing R]

/-- `X[i] := ...` on the requested side. -/
noncomputable def sideMul (right : Bool) (al : ℍ[R]) (x : Quat R) : ℍ[R] :=
  if right then x.toH * al else al * x.toH

/-- First element of a Fortran vector argument: with a negative increment the routines start at
the far end, `(-N+1)*INC+1`. -/
def fbase (X N INC : Int) : Int := if INC < 0 then X + 4 * ((-N + 1) * INC) else X

section leaves
variable {m : Mem R} {I IX IY X Y INCX INCY : Int} {p q : Quat R}

theorem hscald_10_wp {al : R} (h : readQ m (X + 4 * (I - 1)) = some q) :
    wp (hscald_10_I al X I) m (fun _ m' =>
      m' = writeQ m (X + 4 * (I - 1)) (Quat.ofH (sideMul false (Scal.d al).toH q))) := by
  unfold hscald_10_I
  simp only [el2r_1, el2r_2, el2r_3, el2r_4, wp_bind, wp_pure, wp_rd0 h, wp_wr0 h,
    wp_rd1 (readQ_writeQ_same _ _ _), wp_wr1 (readQ_writeQ_same _ _ _),
    wp_rd2 (readQ_writeQ_same _ _ _), wp_wr2 (readQ_writeQ_same _ _ _),
    wp_rd3 (readQ_writeQ_same _ _ _), wp_wr3 (readQ_writeQ_same _ _ _), writeQ_writeQ]
  refine congrArg (writeQ m _) (eq_ofH ?_)
  ext <;> simp [sideMul, Scal.toH]

theorem hscald_20_wp {al : R} (h : readQ m (X + 4 * (IX - 1)) = some q) :
    wp (hscald_20_I al INCX X I IX) m (fun s m' => s = IX + INCX ∧
      m' = writeQ m (X + 4 * (IX - 1)) (Quat.ofH (sideMul false (Scal.d al).toH q))) := by
  unfold hscald_20_I
  simp only [el2r_1, el2r_2, el2r_3, el2r_4, wp_bind, wp_pure, wp_rd0 h, wp_wr0 h,
    wp_rd1 (readQ_writeQ_same _ _ _), wp_wr1 (readQ_writeQ_same _ _ _),
    wp_rd2 (readQ_writeQ_same _ _ _), wp_wr2 (readQ_writeQ_same _ _ _),
    wp_rd3 (readQ_writeQ_same _ _ _), wp_wr3 (readQ_writeQ_same _ _ _), writeQ_writeQ, true_and]
  refine congrArg (writeQ m _) (eq_ofH ?_)
  ext <;> simp [sideMul, Scal.toH]

theorem hscalc_10_wp {al : Cplx R} (h : readQ m (X + 4 * (I - 1)) = some q) :
    wp (hscalc_10_I al X I) m (fun _ m' =>
      m' = writeQ m (X + 4 * (I - 1)) (Quat.ofH (sideMul false (Scal.z al).toH q))) := by
  unfold hscalc_10_I
  simp only [el2c_1, el2c_2, wp_bind, wp_pure, wp_rdC_lo h, wp_wrC_lo h,
    wp_rdC_hi (readQ_writeQ_same _ _ _), wp_wrC_hi (readQ_writeQ_same _ _ _), writeQ_writeQ]
  refine congrArg (writeQ m _) (eq_ofH ?_)
  ext <;> simp [sideMul, Scal.toH]

theorem hscalc_20_wp {al : Cplx R} (h : readQ m (X + 4 * (I - 1)) = some q) :
    wp (hscalc_20_I al X I) m (fun _ m' =>
      m' = writeQ m (X + 4 * (I - 1)) (Quat.ofH (sideMul true (Scal.z al).toH q))) := by
  unfold hscalc_20_I
  simp only [el2c_1, el2c_2, wp_bind, wp_pure, wp_rdC_lo h, wp_wrC_lo h,
    wp_rdC_hi (readQ_writeQ_same _ _ _), wp_wrC_hi (readQ_writeQ_same _ _ _), writeQ_writeQ]
  refine congrArg (writeQ m _) (eq_ofH ?_)
  ext <;> simp [sideMul, Scal.toH] <;> ring

theorem hscalc_30_wp {al : Cplx R} (h : readQ m (X + 4 * (IX - 1)) = some q) :
    wp (hscalc_30_I al INCX X I IX) m (fun s m' => s = IX + INCX ∧
      m' = writeQ m (X + 4 * (IX - 1)) (Quat.ofH (sideMul false (Scal.z al).toH q))) := by
  unfold hscalc_30_I
  simp only [el2c_1, el2c_2, wp_bind, wp_pure, wp_rdC_lo h, wp_wrC_lo h,
    wp_rdC_hi (readQ_writeQ_same _ _ _), wp_wrC_hi (readQ_writeQ_same _ _ _), writeQ_writeQ,
    true_and]
  refine congrArg (writeQ m _) (eq_ofH ?_)
  ext <;> simp [sideMul, Scal.toH]

theorem hscalc_40_wp {al : Cplx R} (h : readQ m (X + 4 * (IX - 1)) = some q) :
    wp (hscalc_40_I al INCX X I IX) m (fun s m' => s = IX + INCX ∧
      m' = writeQ m (X + 4 * (IX - 1)) (Quat.ofH (sideMul true (Scal.z al).toH q))) := by
  unfold hscalc_40_I
  simp only [el2c_1, el2c_2, wp_bind, wp_pure, wp_rdC_lo h, wp_wrC_lo h,
    wp_rdC_hi (readQ_writeQ_same _ _ _), wp_wrC_hi (readQ_writeQ_same _ _ _), writeQ_writeQ,
    true_and]
  refine congrArg (writeQ m _) (eq_ofH ?_)
  ext <;> simp [sideMul, Scal.toH] <;> ring

theorem hscalh_10_wp {al : Quat R} (h : readQ m (X + 4 * (I - 1)) = some q) :
    wp (hscalh_10_I al X I) m (fun _ m' =>
      m' = writeQ m (X + 4 * (I - 1)) (Quat.ofH (sideMul false (Scal.h al).toH q))) := by
  unfold hscalh_10_I
  simp only [el2r_1, el2r_2, el2r_3, el2r_4, wp_bind, wp_pure, wp_rd0 h, wp_rd1 h, wp_rd2 h,
    wp_rd3 h, wp_wr0 h, wp_wr1 h, wp_wr2 h, wp_wr3 h,
    wp_rd0 (readQ_writeQ_same _ _ _), wp_wr0 (readQ_writeQ_same _ _ _),
    wp_rd1 (readQ_writeQ_same _ _ _), wp_wr1 (readQ_writeQ_same _ _ _),
    wp_rd2 (readQ_writeQ_same _ _ _), wp_wr2 (readQ_writeQ_same _ _ _),
    wp_rd3 (readQ_writeQ_same _ _ _), wp_wr3 (readQ_writeQ_same _ _ _), writeQ_writeQ]
  refine congrArg (writeQ m _) (eq_ofH ?_)
  ext <;> simp [sideMul, Scal.toH] <;> ring

theorem hscalh_20_wp {al : Quat R} (h : readQ m (X + 4 * (I - 1)) = some q) :
    wp (hscalh_20_I al X I) m (fun _ m' =>
      m' = writeQ m (X + 4 * (I - 1)) (Quat.ofH (sideMul true (Scal.h al).toH q))) := by
  unfold hscalh_20_I
  simp only [el2r_1, el2r_2, el2r_3, el2r_4, wp_bind, wp_pure, wp_rd0 h, wp_rd1 h, wp_rd2 h,
    wp_rd3 h, wp_wr0 h, wp_wr1 h, wp_wr2 h, wp_wr3 h,
    wp_rd0 (readQ_writeQ_same _ _ _), wp_wr0 (readQ_writeQ_same _ _ _),
    wp_rd1 (readQ_writeQ_same _ _ _), wp_wr1 (readQ_writeQ_same _ _ _),
    wp_rd2 (readQ_writeQ_same _ _ _), wp_wr2 (readQ_writeQ_same _ _ _),
    wp_rd3 (readQ_writeQ_same _ _ _), wp_wr3 (readQ_writeQ_same _ _ _), writeQ_writeQ]
  refine congrArg (writeQ m _) (eq_ofH ?_)
  ext <;> simp [sideMul, Scal.toH] <;> ring

theorem hscalh_30_wp {al : Quat R} (h : readQ m (X + 4 * (IX - 1)) = some q) :
    wp (hscalh_30_I al INCX X I IX) m (fun s m' => s = IX + INCX ∧
      m' = writeQ m (X + 4 * (IX - 1)) (Quat.ofH (sideMul false (Scal.h al).toH q))) := by
  unfold hscalh_30_I
  simp only [el2r_1, el2r_2, el2r_3, el2r_4, wp_bind, wp_pure, wp_rd0 h, wp_rd1 h, wp_rd2 h,
    wp_rd3 h, wp_wr0 h, wp_wr1 h, wp_wr2 h, wp_wr3 h,
    wp_rd0 (readQ_writeQ_same _ _ _), wp_wr0 (readQ_writeQ_same _ _ _),
    wp_rd1 (readQ_writeQ_same _ _ _), wp_wr1 (readQ_writeQ_same _ _ _),
    wp_rd2 (readQ_writeQ_same _ _ _), wp_wr2 (readQ_writeQ_same _ _ _),
    wp_rd3 (readQ_writeQ_same _ _ _), wp_wr3 (readQ_writeQ_same _ _ _), writeQ_writeQ, true_and]
  refine congrArg (writeQ m _) (eq_ofH ?_)
  ext <;> simp [sideMul, Scal.toH] <;> ring

theorem hscalh_40_wp {al : Quat R} (h : readQ m (X + 4 * (IX - 1)) = some q) :
    wp (hscalh_40_I al INCX X I IX) m (fun s m' => s = IX + INCX ∧
      m' = writeQ m (X + 4 * (IX - 1)) (Quat.ofH (sideMul true (Scal.h al).toH q))) := by
  unfold hscalh_40_I
  simp only [el2r_1, el2r_2, el2r_3, el2r_4, wp_bind, wp_pure, wp_rd0 h, wp_rd1 h, wp_rd2 h,
    wp_rd3 h, wp_wr0 h, wp_wr1 h, wp_wr2 h, wp_wr3 h,
    wp_rd0 (readQ_writeQ_same _ _ _), wp_wr0 (readQ_writeQ_same _ _ _),
    wp_rd1 (readQ_writeQ_same _ _ _), wp_wr1 (readQ_writeQ_same _ _ _),
    wp_rd2 (readQ_writeQ_same _ _ _), wp_wr2 (readQ_writeQ_same _ _ _),
    wp_rd3 (readQ_writeQ_same _ _ _), wp_wr3 (readQ_writeQ_same _ _ _), writeQ_writeQ, true_and]
  refine congrArg (writeQ m _) (eq_ofH ?_)
  ext <;> simp [sideMul, Scal.toH] <;> ring

/-! AXPY -/

theorem haxpydh_10_wp {al : R}
    (hw : ∀ w, readQ (writeQ m (Y + 4 * (I - 1)) w) (X + 4 * (I - 1)) = some p)
    (hx : readQ m (X + 4 * (I - 1)) = some p) (hy : readQ m (Y + 4 * (I - 1)) = some q) :
    wp (haxpydh_10_I al X Y I) m (fun _ m' => m' = writeQ m (Y + 4 * (I - 1))
      (Quat.ofH (q.toH + sideMul false (Scal.d al).toH p))) := by
  unfold haxpydh_10_I
  simp only [el2r_1, el2r_2, el2r_3, el2r_4, wp_bind, wp_pure,
    wp_rd0 hx, wp_rd1 hx, wp_rd2 hx, wp_rd3 hx,
    wp_rd0 (hw _), wp_rd1 (hw _), wp_rd2 (hw _), wp_rd3 (hw _),
    wp_rd0 hy, wp_wr0 hy,
    wp_rd1 (readQ_writeQ_same _ _ _), wp_wr1 (readQ_writeQ_same _ _ _),
    wp_rd2 (readQ_writeQ_same _ _ _), wp_wr2 (readQ_writeQ_same _ _ _),
    wp_rd3 (readQ_writeQ_same _ _ _), wp_wr3 (readQ_writeQ_same _ _ _), writeQ_writeQ]
  refine congrArg (writeQ m _) (eq_ofH ?_)
  ext <;> simp [sideMul, Scal.toH] <;> ring

theorem haxpydh_20_wp {al : R}
    (hw : ∀ w, readQ (writeQ m (Y + 4 * (IY - 1)) w) (X + 4 * (IX - 1)) = some p)
    (hx : readQ m (X + 4 * (IX - 1)) = some p) (hy : readQ m (Y + 4 * (IY - 1)) = some q) :
    wp (haxpydh_20_I al INCX INCY X Y I IX IY) m (fun s m' => s = (IX + INCX, IY + INCY) ∧
      m' = writeQ m (Y + 4 * (IY - 1))
      (Quat.ofH (q.toH + sideMul false (Scal.d al).toH p))) := by
  unfold haxpydh_20_I
  simp only [el2r_1, el2r_2, el2r_3, el2r_4, wp_bind, wp_pure,
    wp_rd0 hx, wp_rd1 hx, wp_rd2 hx, wp_rd3 hx,
    wp_rd0 (hw _), wp_rd1 (hw _), wp_rd2 (hw _), wp_rd3 (hw _),
    wp_rd0 hy, wp_wr0 hy,
    wp_rd1 (readQ_writeQ_same _ _ _), wp_wr1 (readQ_writeQ_same _ _ _),
    wp_rd2 (readQ_writeQ_same _ _ _), wp_wr2 (readQ_writeQ_same _ _ _),
    wp_rd3 (readQ_writeQ_same _ _ _), wp_wr3 (readQ_writeQ_same _ _ _), writeQ_writeQ, true_and]
  refine congrArg (writeQ m _) (eq_ofH ?_)
  ext <;> simp [sideMul, Scal.toH] <;> ring

theorem haxpych_10_wp {al : Cplx R}
    (hw : ∀ w, readQ (writeQ m (Y + 4 * (I - 1)) w) (X + 4 * (I - 1)) = some p)
    (hx : readQ m (X + 4 * (I - 1)) = some p) (hy : readQ m (Y + 4 * (I - 1)) = some q) :
    wp (haxpych_10_I al X Y I) m (fun _ m' => m' = writeQ m (Y + 4 * (I - 1))
      (Quat.ofH (q.toH + sideMul false (Scal.z al).toH p))) := by
  unfold haxpych_10_I
  simp only [el2r_1, el2r_2, el2r_3, el2r_4, wp_bind, wp_pure,
    wp_rd0 hx, wp_rd1 hx, wp_rd2 hx, wp_rd3 hx,
    wp_rd0 (hw _), wp_rd1 (hw _), wp_rd2 (hw _), wp_rd3 (hw _),
    wp_rd0 hy, wp_wr0 hy,
    wp_rd1 (readQ_writeQ_same _ _ _), wp_wr1 (readQ_writeQ_same _ _ _),
    wp_rd2 (readQ_writeQ_same _ _ _), wp_wr2 (readQ_writeQ_same _ _ _),
    wp_rd3 (readQ_writeQ_same _ _ _), wp_wr3 (readQ_writeQ_same _ _ _), writeQ_writeQ]
  refine congrArg (writeQ m _) (eq_ofH ?_)
  ext <;> simp [sideMul, Scal.toH] <;> ring

theorem haxpych_20_wp {al : Cplx R}
    (hw : ∀ w, readQ (writeQ m (Y + 4 * (I - 1)) w) (X + 4 * (I - 1)) = some p)
    (hx : readQ m (X + 4 * (I - 1)) = some p) (hy : readQ m (Y + 4 * (I - 1)) = some q) :
    wp (haxpych_20_I al X Y I) m (fun _ m' => m' = writeQ m (Y + 4 * (I - 1))
      (Quat.ofH (q.toH + sideMul true (Scal.z al).toH p))) := by
  unfold haxpych_20_I
  simp only [el2r_1, el2r_2, el2r_3, el2r_4, wp_bind, wp_pure,
    wp_rd0 hx, wp_rd1 hx, wp_rd2 hx, wp_rd3 hx,
    wp_rd0 (hw _), wp_rd1 (hw _), wp_rd2 (hw _), wp_rd3 (hw _),
    wp_rd0 hy, wp_wr0 hy,
    wp_rd1 (readQ_writeQ_same _ _ _), wp_wr1 (readQ_writeQ_same _ _ _),
    wp_rd2 (readQ_writeQ_same _ _ _), wp_wr2 (readQ_writeQ_same _ _ _),
    wp_rd3 (readQ_writeQ_same _ _ _), wp_wr3 (readQ_writeQ_same _ _ _), writeQ_writeQ]
  refine congrArg (writeQ m _) (eq_ofH ?_)
  ext <;> simp [sideMul, Scal.toH] <;> ring

theorem haxpych_30_wp {al : Cplx R}
    (hw : ∀ w, readQ (writeQ m (Y + 4 * (IY - 1)) w) (X + 4 * (IX - 1)) = some p)
    (hx : readQ m (X + 4 * (IX - 1)) = some p) (hy : readQ m (Y + 4 * (IY - 1)) = some q) :
    wp (haxpych_30_I al INCX INCY X Y I IX IY) m (fun s m' => s = (IX + INCX, IY + INCY) ∧
      m' = writeQ m (Y + 4 * (IY - 1))
      (Quat.ofH (q.toH + sideMul false (Scal.z al).toH p))) := by
  unfold haxpych_30_I
  simp only [el2r_1, el2r_2, el2r_3, el2r_4, wp_bind, wp_pure,
    wp_rd0 hx, wp_rd1 hx, wp_rd2 hx, wp_rd3 hx,
    wp_rd0 (hw _), wp_rd1 (hw _), wp_rd2 (hw _), wp_rd3 (hw _),
    wp_rd0 hy, wp_wr0 hy,
    wp_rd1 (readQ_writeQ_same _ _ _), wp_wr1 (readQ_writeQ_same _ _ _),
    wp_rd2 (readQ_writeQ_same _ _ _), wp_wr2 (readQ_writeQ_same _ _ _),
    wp_rd3 (readQ_writeQ_same _ _ _), wp_wr3 (readQ_writeQ_same _ _ _), writeQ_writeQ, true_and]
  refine congrArg (writeQ m _) (eq_ofH ?_)
  ext <;> simp [sideMul, Scal.toH] <;> ring

theorem haxpych_40_wp {al : Cplx R}
    (hw : ∀ w, readQ (writeQ m (Y + 4 * (IY - 1)) w) (X + 4 * (IX - 1)) = some p)
    (hx : readQ m (X + 4 * (IX - 1)) = some p) (hy : readQ m (Y + 4 * (IY - 1)) = some q) :
    wp (haxpych_40_I al INCX INCY X Y I IX IY) m (fun s m' => s = (IX + INCX, IY + INCY) ∧
      m' = writeQ m (Y + 4 * (IY - 1))
      (Quat.ofH (q.toH + sideMul true (Scal.z al).toH p))) := by
  unfold haxpych_40_I
  simp only [el2r_1, el2r_2, el2r_3, el2r_4, wp_bind, wp_pure,
    wp_rd0 hx, wp_rd1 hx, wp_rd2 hx, wp_rd3 hx,
    wp_rd0 (hw _), wp_rd1 (hw _), wp_rd2 (hw _), wp_rd3 (hw _),
    wp_rd0 hy, wp_wr0 hy,
    wp_rd1 (readQ_writeQ_same _ _ _), wp_wr1 (readQ_writeQ_same _ _ _),
    wp_rd2 (readQ_writeQ_same _ _ _), wp_wr2 (readQ_writeQ_same _ _ _),
    wp_rd3 (readQ_writeQ_same _ _ _), wp_wr3 (readQ_writeQ_same _ _ _), writeQ_writeQ, true_and]
  refine congrArg (writeQ m _) (eq_ofH ?_)
  ext <;> simp [sideMul, Scal.toH] <;> ring

theorem haxpyhh_10_wp {al : Quat R}
    (hw : ∀ w, readQ (writeQ m (Y + 4 * (I - 1)) w) (X + 4 * (I - 1)) = some p)
    (hx : readQ m (X + 4 * (I - 1)) = some p) (hy : readQ m (Y + 4 * (I - 1)) = some q) :
    wp (haxpyhh_10_I al X Y I) m (fun _ m' => m' = writeQ m (Y + 4 * (I - 1))
      (Quat.ofH (q.toH + sideMul false (Scal.h al).toH p))) := by
  unfold haxpyhh_10_I
  simp only [el2r_1, el2r_2, el2r_3, el2r_4, wp_bind, wp_pure,
    wp_rd0 hx, wp_rd1 hx, wp_rd2 hx, wp_rd3 hx,
    wp_rd0 (hw _), wp_rd1 (hw _), wp_rd2 (hw _), wp_rd3 (hw _),
    wp_rd0 hy, wp_wr0 hy,
    wp_rd1 (readQ_writeQ_same _ _ _), wp_wr1 (readQ_writeQ_same _ _ _),
    wp_rd2 (readQ_writeQ_same _ _ _), wp_wr2 (readQ_writeQ_same _ _ _),
    wp_rd3 (readQ_writeQ_same _ _ _), wp_wr3 (readQ_writeQ_same _ _ _), writeQ_writeQ]
  refine congrArg (writeQ m _) (eq_ofH ?_)
  ext <;> simp [sideMul, Scal.toH] <;> ring

theorem haxpyhh_20_wp {al : Quat R}
    (hw : ∀ w, readQ (writeQ m (Y + 4 * (I - 1)) w) (X + 4 * (I - 1)) = some p)
    (hx : readQ m (X + 4 * (I - 1)) = some p) (hy : readQ m (Y + 4 * (I - 1)) = some q) :
    wp (haxpyhh_20_I al X Y I) m (fun _ m' => m' = writeQ m (Y + 4 * (I - 1))
      (Quat.ofH (q.toH + sideMul true (Scal.h al).toH p))) := by
  unfold haxpyhh_20_I
  simp only [el2r_1, el2r_2, el2r_3, el2r_4, wp_bind, wp_pure,
    wp_rd0 hx, wp_rd1 hx, wp_rd2 hx, wp_rd3 hx,
    wp_rd0 (hw _), wp_rd1 (hw _), wp_rd2 (hw _), wp_rd3 (hw _),
    wp_rd0 hy, wp_wr0 hy,
    wp_rd1 (readQ_writeQ_same _ _ _), wp_wr1 (readQ_writeQ_same _ _ _),
    wp_rd2 (readQ_writeQ_same _ _ _), wp_wr2 (readQ_writeQ_same _ _ _),
    wp_rd3 (readQ_writeQ_same _ _ _), wp_wr3 (readQ_writeQ_same _ _ _), writeQ_writeQ]
  refine congrArg (writeQ m _) (eq_ofH ?_)
  ext <;> simp [sideMul, Scal.toH] <;> ring

theorem haxpyhh_30_wp {al : Quat R}
    (hw : ∀ w, readQ (writeQ m (Y + 4 * (IY - 1)) w) (X + 4 * (IX - 1)) = some p)
    (hx : readQ m (X + 4 * (IX - 1)) = some p) (hy : readQ m (Y + 4 * (IY - 1)) = some q) :
    wp (haxpyhh_30_I al INCX INCY X Y I IX IY) m (fun s m' => s = (IX + INCX, IY + INCY) ∧
      m' = writeQ m (Y + 4 * (IY - 1))
      (Quat.ofH (q.toH + sideMul false (Scal.h al).toH p))) := by
  unfold haxpyhh_30_I
  simp only [el2r_1, el2r_2, el2r_3, el2r_4, wp_bind, wp_pure,
    wp_rd0 hx, wp_rd1 hx, wp_rd2 hx, wp_rd3 hx,
    wp_rd0 (hw _), wp_rd1 (hw _), wp_rd2 (hw _), wp_rd3 (hw _),
    wp_rd0 hy, wp_wr0 hy,
    wp_rd1 (readQ_writeQ_same _ _ _), wp_wr1 (readQ_writeQ_same _ _ _),
    wp_rd2 (readQ_writeQ_same _ _ _), wp_wr2 (readQ_writeQ_same _ _ _),
    wp_rd3 (readQ_writeQ_same _ _ _), wp_wr3 (readQ_writeQ_same _ _ _), writeQ_writeQ, true_and]
  refine congrArg (writeQ m _) (eq_ofH ?_)
  ext <;> simp [sideMul, Scal.toH] <;> ring

theorem haxpyhh_40_wp {al : Quat R}
    (hw : ∀ w, readQ (writeQ m (Y + 4 * (IY - 1)) w) (X + 4 * (IX - 1)) = some p)
    (hx : readQ m (X + 4 * (IX - 1)) = some p) (hy : readQ m (Y + 4 * (IY - 1)) = some q) :
    wp (haxpyhh_40_I al INCX INCY X Y I IX IY) m (fun s m' => s = (IX + INCX, IY + INCY) ∧
      m' = writeQ m (Y + 4 * (IY - 1))
      (Quat.ofH (q.toH + sideMul true (Scal.h al).toH p))) := by
  unfold haxpyhh_40_I
  simp only [el2r_1, el2r_2, el2r_3, el2r_4, wp_bind, wp_pure,
    wp_rd0 hx, wp_rd1 hx, wp_rd2 hx, wp_rd3 hx,
    wp_rd0 (hw _), wp_rd1 (hw _), wp_rd2 (hw _), wp_rd3 (hw _),
    wp_rd0 hy, wp_wr0 hy,
    wp_rd1 (readQ_writeQ_same _ _ _), wp_wr1 (readQ_writeQ_same _ _ _),
    wp_rd2 (readQ_writeQ_same _ _ _), wp_wr2 (readQ_writeQ_same _ _ _),
    wp_rd3 (readQ_writeQ_same _ _ _), wp_wr3 (readQ_writeQ_same _ _ _), writeQ_writeQ, true_and]
  refine congrArg (writeQ m _) (eq_ofH ?_)
  ext <;> simp [sideMul, Scal.toH] <;> ring
end leaves

end exact

end Haxx
