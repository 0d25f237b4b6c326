import Verif.FHblas1Proofs2
import Verif.FBits

/-!
# What the Fortran level-1 routines compute, bit for bit

Pure functions of the elements (over any arithmetic), and proofs that the generated routines compute them.
-/

set_option linter.unusedSimpArgs false
set_option linter.unusedSectionVars false

namespace Haxx
open Arith

section
variable {F : Type} [Arith F]

/-- One element of SCALV (`right`: the side): the bodies of the loops of `hscald.f`, `hscalc.f`, `hscalh.f`. -/
def fScalV : Bool → Scal F → Quat F → Quat F
  | _, .d a, x => ⟨a *ᶠ x.re, a *ᶠ x.i, a *ᶠ x.j, a *ᶠ x.k⟩
  | false, .z a, x => .ofC (a *ᶜ x.lo) (a *ᶜ x.hi)
  | true, .z a, x => .ofC (x.lo *ᶜ a) (x.hi *ᶜ Cplx.conj a)
  | false, .h a, x =>
    ⟨a.re *ᶠ x.re -ᶠ a.i *ᶠ x.i -ᶠ a.j *ᶠ x.j -ᶠ a.k *ᶠ x.k,
     a.re *ᶠ x.i +ᶠ a.i *ᶠ x.re +ᶠ a.j *ᶠ x.k -ᶠ a.k *ᶠ x.j,
     a.re *ᶠ x.j -ᶠ a.i *ᶠ x.k +ᶠ a.j *ᶠ x.re +ᶠ a.k *ᶠ x.i,
     a.re *ᶠ x.k +ᶠ a.i *ᶠ x.j -ᶠ a.j *ᶠ x.i +ᶠ a.k *ᶠ x.re⟩
  | true, .h a, x =>
    ⟨x.re *ᶠ a.re -ᶠ x.i *ᶠ a.i -ᶠ x.j *ᶠ a.j -ᶠ x.k *ᶠ a.k,
     x.re *ᶠ a.i +ᶠ x.i *ᶠ a.re +ᶠ x.j *ᶠ a.k -ᶠ x.k *ᶠ a.j,
     x.re *ᶠ a.j -ᶠ x.i *ᶠ a.k +ᶠ x.j *ᶠ a.re +ᶠ x.k *ᶠ a.i,
     x.re *ᶠ a.k +ᶠ x.i *ᶠ a.j -ᶠ x.j *ᶠ a.i +ᶠ x.k *ᶠ a.re⟩

/-- One element of AXPYV: the bodies of the loops of `haxpydh.f`, `haxpych.f`, `haxpyhh.f`. -/
def fAxpyV : Bool → Scal F → Quat F → Quat F → Quat F
  | _, .d a, x, y => ⟨y.re +ᶠ a *ᶠ x.re, y.i +ᶠ a *ᶠ x.i, y.j +ᶠ a *ᶠ x.j, y.k +ᶠ a *ᶠ x.k⟩
  | false, .z a, x, y =>
    ⟨y.re +ᶠ a.re *ᶠ x.re -ᶠ a.im *ᶠ x.i, y.i +ᶠ a.re *ᶠ x.i +ᶠ a.im *ᶠ x.re,
     y.j +ᶠ a.re *ᶠ x.j -ᶠ a.im *ᶠ x.k, y.k +ᶠ a.re *ᶠ x.k +ᶠ a.im *ᶠ x.j⟩
  | true, .z a, x, y =>
    ⟨y.re +ᶠ x.re *ᶠ a.re -ᶠ x.i *ᶠ a.im, y.i +ᶠ x.re *ᶠ a.im +ᶠ x.i *ᶠ a.re,
     y.j +ᶠ x.j *ᶠ a.re +ᶠ x.k *ᶠ a.im, y.k -ᶠ x.j *ᶠ a.im +ᶠ x.k *ᶠ a.re⟩
  | false, .h a, x, y =>
    ⟨y.re +ᶠ a.re *ᶠ x.re -ᶠ a.i *ᶠ x.i -ᶠ a.j *ᶠ x.j -ᶠ a.k *ᶠ x.k,
     y.i +ᶠ a.re *ᶠ x.i +ᶠ a.i *ᶠ x.re +ᶠ a.j *ᶠ x.k -ᶠ a.k *ᶠ x.j,
     y.j +ᶠ a.re *ᶠ x.j -ᶠ a.i *ᶠ x.k +ᶠ a.j *ᶠ x.re +ᶠ a.k *ᶠ x.i,
     y.k +ᶠ a.re *ᶠ x.k +ᶠ a.i *ᶠ x.j -ᶠ a.j *ᶠ x.i +ᶠ a.k *ᶠ x.re⟩
  | true, .h a, x, y =>
    ⟨y.re +ᶠ x.re *ᶠ a.re -ᶠ x.i *ᶠ a.i -ᶠ x.j *ᶠ a.j -ᶠ x.k *ᶠ a.k,
     y.i +ᶠ x.re *ᶠ a.i +ᶠ x.i *ᶠ a.re +ᶠ x.j *ᶠ a.k -ᶠ x.k *ᶠ a.j,
     y.j +ᶠ x.re *ᶠ a.j -ᶠ x.i *ᶠ a.k +ᶠ x.j *ᶠ a.re +ᶠ x.k *ᶠ a.i,
     y.k +ᶠ x.re *ᶠ a.k +ᶠ x.i *ᶠ a.j -ᶠ x.j *ᶠ a.i +ᶠ x.k *ᶠ a.re⟩

/-- One step of DOTU (`false`) and DOTC (`true`): the loop bodies of `hdotu.f` and `hdotc.f`. -/
def fDotStep : Bool → Quat F → Quat F → Quat F → Quat F
  | false, x, y, r =>
    ⟨r.re +ᶠ x.re *ᶠ y.re -ᶠ x.i *ᶠ y.i -ᶠ x.j *ᶠ y.j -ᶠ x.k *ᶠ y.k,
     r.i +ᶠ x.re *ᶠ y.i +ᶠ x.i *ᶠ y.re +ᶠ x.j *ᶠ y.k -ᶠ x.k *ᶠ y.j,
     r.j +ᶠ x.re *ᶠ y.j -ᶠ x.i *ᶠ y.k +ᶠ x.j *ᶠ y.re +ᶠ x.k *ᶠ y.i,
     r.k +ᶠ x.re *ᶠ y.k +ᶠ x.i *ᶠ y.j -ᶠ x.j *ᶠ y.i +ᶠ x.k *ᶠ y.re⟩
  | true, x, y, r =>
    ⟨r.re +ᶠ x.re *ᶠ y.re +ᶠ x.i *ᶠ y.i +ᶠ x.j *ᶠ y.j +ᶠ x.k *ᶠ y.k,
     r.i +ᶠ x.re *ᶠ y.i -ᶠ x.i *ᶠ y.re -ᶠ x.j *ᶠ y.k +ᶠ x.k *ᶠ y.j,
     r.j +ᶠ x.re *ᶠ y.j +ᶠ x.i *ᶠ y.k -ᶠ x.j *ᶠ y.re -ᶠ x.k *ᶠ y.i,
     r.k +ᶠ x.re *ᶠ y.k -ᶠ x.i *ᶠ y.j +ᶠ x.j *ᶠ y.i -ᶠ x.k *ᶠ y.re⟩

/-- DOTU, DOTC. -/
def fDot (conj : Bool) (x y : Nat → Quat F) : Nat → Quat F
  | 0 => ⟨zero, zero, zero, zero⟩
  | n+1 => fDotStep conj (x n) (y n) (fDot conj x y n)

/-- `ALPHA.EQ.0` of the Fortran level-1 routines: every component compares equal to zero. -/
def Scal.vIsZero [ArithEq F] : Scal F → Bool
  | .d a => a ==ᶠ zero
  | .z a => (a.re ==ᶠ zero) && (a.im ==ᶠ zero)
  | .h a => ((a.re ==ᶠ zero) && (a.i ==ᶠ zero) && (a.j ==ᶠ zero)) && (a.k ==ᶠ zero)

end

section leaves
variable {F : Type} [Arith F] {m : Mem F} {I IX IY X Y INCX INCY : Int} {p q : Quat F}

theorem hscald_10_bits {al : F} (right : Bool) (h : readQ m (X + 4 * (I - 1)) = some q) :
    wp (hscald_10_I al X I) m (fun _ m' => m' = writeQ m (X + 4 * (I - 1)) (fScalV right (.d al) q)) := by
  unfold hscald_10_I
  simp only [el2r_1, el2r_2, el2r_3, el2r_4, wp_bind, wp_pure, wp_rd0 h, wp_rd1 h, wp_rd2 h,
    wp_rd3 h, wp_wr0 h, wp_wr1 h, wp_wr2 h, wp_wr3 h,
    wp_rd0 (readQ_writeQ_same _ _ _), wp_wr0 (readQ_writeQ_same _ _ _),
    wp_rd1 (readQ_writeQ_same _ _ _), wp_wr1 (readQ_writeQ_same _ _ _),
    wp_rd2 (readQ_writeQ_same _ _ _), wp_wr2 (readQ_writeQ_same _ _ _),
    wp_rd3 (readQ_writeQ_same _ _ _), wp_wr3 (readQ_writeQ_same _ _ _), writeQ_writeQ, true_and]
  rfl

theorem hscald_20_bits {al : F} (right : Bool) (h : readQ m (X + 4 * (IX - 1)) = some q) :
    wp (hscald_20_I al INCX X I IX) m (fun s m' => s = IX + INCX ∧
      m' = writeQ m (X + 4 * (IX - 1)) (fScalV right (.d al) q)) := by
  unfold hscald_20_I
  simp only [el2r_1, el2r_2, el2r_3, el2r_4, wp_bind, wp_pure, wp_rd0 h, wp_rd1 h, wp_rd2 h,
    wp_rd3 h, wp_wr0 h, wp_wr1 h, wp_wr2 h, wp_wr3 h,
    wp_rd0 (readQ_writeQ_same _ _ _), wp_wr0 (readQ_writeQ_same _ _ _),
    wp_rd1 (readQ_writeQ_same _ _ _), wp_wr1 (readQ_writeQ_same _ _ _),
    wp_rd2 (readQ_writeQ_same _ _ _), wp_wr2 (readQ_writeQ_same _ _ _),
    wp_rd3 (readQ_writeQ_same _ _ _), wp_wr3 (readQ_writeQ_same _ _ _), writeQ_writeQ, true_and]
  rfl

theorem hscalc_10_bits {al : Cplx F} (h : readQ m (X + 4 * (I - 1)) = some q) :
    wp (hscalc_10_I al X I) m (fun _ m' => m' = writeQ m (X + 4 * (I - 1)) (fScalV false (.z al) q)) := by
  unfold hscalc_10_I
  simp only [el2c_1, el2c_2, wp_bind, wp_pure, wp_rdC_lo h, wp_wrC_lo h,
    wp_rdC_hi (readQ_writeQ_same _ _ _), wp_wrC_hi (readQ_writeQ_same _ _ _), writeQ_writeQ, true_and]
  rfl

theorem hscalc_20_bits {al : Cplx F} (h : readQ m (X + 4 * (I - 1)) = some q) :
    wp (hscalc_20_I al X I) m (fun _ m' => m' = writeQ m (X + 4 * (I - 1)) (fScalV true (.z al) q)) := by
  unfold hscalc_20_I
  simp only [el2c_1, el2c_2, wp_bind, wp_pure, wp_rdC_lo h, wp_wrC_lo h,
    wp_rdC_hi (readQ_writeQ_same _ _ _), wp_wrC_hi (readQ_writeQ_same _ _ _), writeQ_writeQ, true_and]
  rfl

theorem hscalc_30_bits {al : Cplx F} (h : readQ m (X + 4 * (IX - 1)) = some q) :
    wp (hscalc_30_I al INCX X I IX) m (fun s m' => s = IX + INCX ∧
      m' = writeQ m (X + 4 * (IX - 1)) (fScalV false (.z al) q)) := by
  unfold hscalc_30_I
  simp only [el2c_1, el2c_2, wp_bind, wp_pure, wp_rdC_lo h, wp_wrC_lo h,
    wp_rdC_hi (readQ_writeQ_same _ _ _), wp_wrC_hi (readQ_writeQ_same _ _ _), writeQ_writeQ, true_and]
  rfl

theorem hscalc_40_bits {al : Cplx F} (h : readQ m (X + 4 * (IX - 1)) = some q) :
    wp (hscalc_40_I al INCX X I IX) m (fun s m' => s = IX + INCX ∧
      m' = writeQ m (X + 4 * (IX - 1)) (fScalV true (.z al) q)) := by
  unfold hscalc_40_I
  simp only [el2c_1, el2c_2, wp_bind, wp_pure, wp_rdC_lo h, wp_wrC_lo h,
    wp_rdC_hi (readQ_writeQ_same _ _ _), wp_wrC_hi (readQ_writeQ_same _ _ _), writeQ_writeQ, true_and]
  rfl

theorem hscalh_10_bits {al : Quat F} (h : readQ m (X + 4 * (I - 1)) = some q) :
    wp (hscalh_10_I al X I) m (fun _ m' => m' = writeQ m (X + 4 * (I - 1)) (fScalV false (.h al) q)) := by
  unfold hscalh_10_I
  simp only [el2r_1, el2r_2, el2r_3, el2r_4, wp_bind, wp_pure, wp_rd0 h, wp_rd1 h, wp_rd2 h,
    wp_rd3 h, wp_wr0 h, wp_wr1 h, wp_wr2 h, wp_wr3 h,
    wp_rd0 (readQ_writeQ_same _ _ _), wp_wr0 (readQ_writeQ_same _ _ _),
    wp_rd1 (readQ_writeQ_same _ _ _), wp_wr1 (readQ_writeQ_same _ _ _),
    wp_rd2 (readQ_writeQ_same _ _ _), wp_wr2 (readQ_writeQ_same _ _ _),
    wp_rd3 (readQ_writeQ_same _ _ _), wp_wr3 (readQ_writeQ_same _ _ _), writeQ_writeQ, true_and]
  rfl

theorem hscalh_20_bits {al : Quat F} (h : readQ m (X + 4 * (I - 1)) = some q) :
    wp (hscalh_20_I al X I) m (fun _ m' => m' = writeQ m (X + 4 * (I - 1)) (fScalV true (.h al) q)) := by
  unfold hscalh_20_I
  simp only [el2r_1, el2r_2, el2r_3, el2r_4, wp_bind, wp_pure, wp_rd0 h, wp_rd1 h, wp_rd2 h,
    wp_rd3 h, wp_wr0 h, wp_wr1 h, wp_wr2 h, wp_wr3 h,
    wp_rd0 (readQ_writeQ_same _ _ _), wp_wr0 (readQ_writeQ_same _ _ _),
    wp_rd1 (readQ_writeQ_same _ _ _), wp_wr1 (readQ_writeQ_same _ _ _),
    wp_rd2 (readQ_writeQ_same _ _ _), wp_wr2 (readQ_writeQ_same _ _ _),
    wp_rd3 (readQ_writeQ_same _ _ _), wp_wr3 (readQ_writeQ_same _ _ _), writeQ_writeQ, true_and]
  rfl

theorem hscalh_30_bits {al : Quat F} (h : readQ m (X + 4 * (IX - 1)) = some q) :
    wp (hscalh_30_I al INCX X I IX) m (fun s m' => s = IX + INCX ∧
      m' = writeQ m (X + 4 * (IX - 1)) (fScalV false (.h al) q)) := by
  unfold hscalh_30_I
  simp only [el2r_1, el2r_2, el2r_3, el2r_4, wp_bind, wp_pure, wp_rd0 h, wp_rd1 h, wp_rd2 h,
    wp_rd3 h, wp_wr0 h, wp_wr1 h, wp_wr2 h, wp_wr3 h,
    wp_rd0 (readQ_writeQ_same _ _ _), wp_wr0 (readQ_writeQ_same _ _ _),
    wp_rd1 (readQ_writeQ_same _ _ _), wp_wr1 (readQ_writeQ_same _ _ _),
    wp_rd2 (readQ_writeQ_same _ _ _), wp_wr2 (readQ_writeQ_same _ _ _),
    wp_rd3 (readQ_writeQ_same _ _ _), wp_wr3 (readQ_writeQ_same _ _ _), writeQ_writeQ, true_and]
  rfl

theorem hscalh_40_bits {al : Quat F} (h : readQ m (X + 4 * (IX - 1)) = some q) :
    wp (hscalh_40_I al INCX X I IX) m (fun s m' => s = IX + INCX ∧
      m' = writeQ m (X + 4 * (IX - 1)) (fScalV true (.h al) q)) := by
  unfold hscalh_40_I
  simp only [el2r_1, el2r_2, el2r_3, el2r_4, wp_bind, wp_pure, wp_rd0 h, wp_rd1 h, wp_rd2 h,
    wp_rd3 h, wp_wr0 h, wp_wr1 h, wp_wr2 h, wp_wr3 h,
    wp_rd0 (readQ_writeQ_same _ _ _), wp_wr0 (readQ_writeQ_same _ _ _),
    wp_rd1 (readQ_writeQ_same _ _ _), wp_wr1 (readQ_writeQ_same _ _ _),
    wp_rd2 (readQ_writeQ_same _ _ _), wp_wr2 (readQ_writeQ_same _ _ _),
    wp_rd3 (readQ_writeQ_same _ _ _), wp_wr3 (readQ_writeQ_same _ _ _), writeQ_writeQ, true_and]
  rfl

theorem haxpydh_10_bits {al : F} (right : Bool)
    (hw : ∀ w, readQ (writeQ m (Y + 4 * (I - 1)) w) (X + 4 * (I - 1)) = some p)
    (hx : readQ m (X + 4 * (I - 1)) = some p) (hy : readQ m (Y + 4 * (I - 1)) = some q) :
    wp (haxpydh_10_I al X Y I) m (fun _ m' =>
      m' = writeQ m (Y + 4 * (I - 1)) (fAxpyV right (.d al) p q)) := by
  unfold haxpydh_10_I
  simp only [el2r_1, el2r_2, el2r_3, el2r_4, wp_bind, wp_pure,
    wp_rd0 hx, wp_rd1 hx, wp_rd2 hx, wp_rd3 hx,
    wp_rd0 (hw _), wp_rd1 (hw _), wp_rd2 (hw _), wp_rd3 (hw _),
    wp_rd0 hy, wp_wr0 hy,
    wp_rd1 (readQ_writeQ_same _ _ _), wp_wr1 (readQ_writeQ_same _ _ _),
    wp_rd2 (readQ_writeQ_same _ _ _), wp_wr2 (readQ_writeQ_same _ _ _),
    wp_rd3 (readQ_writeQ_same _ _ _), wp_wr3 (readQ_writeQ_same _ _ _), writeQ_writeQ, true_and]
  rfl

theorem haxpydh_20_bits {al : F} (right : Bool)
    (hw : ∀ w, readQ (writeQ m (Y + 4 * (IY - 1)) w) (X + 4 * (IX - 1)) = some p)
    (hx : readQ m (X + 4 * (IX - 1)) = some p) (hy : readQ m (Y + 4 * (IY - 1)) = some q) :
    wp (haxpydh_20_I al INCX INCY X Y I IX IY) m (fun s m' => s = (IX + INCX, IY + INCY) ∧
      m' = writeQ m (Y + 4 * (IY - 1)) (fAxpyV right (.d al) p q)) := by
  unfold haxpydh_20_I
  simp only [el2r_1, el2r_2, el2r_3, el2r_4, wp_bind, wp_pure,
    wp_rd0 hx, wp_rd1 hx, wp_rd2 hx, wp_rd3 hx,
    wp_rd0 (hw _), wp_rd1 (hw _), wp_rd2 (hw _), wp_rd3 (hw _),
    wp_rd0 hy, wp_wr0 hy,
    wp_rd1 (readQ_writeQ_same _ _ _), wp_wr1 (readQ_writeQ_same _ _ _),
    wp_rd2 (readQ_writeQ_same _ _ _), wp_wr2 (readQ_writeQ_same _ _ _),
    wp_rd3 (readQ_writeQ_same _ _ _), wp_wr3 (readQ_writeQ_same _ _ _), writeQ_writeQ, true_and]
  rfl

theorem haxpych_10_bits {al : Cplx F}
    (hw : ∀ w, readQ (writeQ m (Y + 4 * (I - 1)) w) (X + 4 * (I - 1)) = some p)
    (hx : readQ m (X + 4 * (I - 1)) = some p) (hy : readQ m (Y + 4 * (I - 1)) = some q) :
    wp (haxpych_10_I al X Y I) m (fun _ m' =>
      m' = writeQ m (Y + 4 * (I - 1)) (fAxpyV false (.z al) p q)) := by
  unfold haxpych_10_I
  simp only [el2r_1, el2r_2, el2r_3, el2r_4, wp_bind, wp_pure,
    wp_rd0 hx, wp_rd1 hx, wp_rd2 hx, wp_rd3 hx,
    wp_rd0 (hw _), wp_rd1 (hw _), wp_rd2 (hw _), wp_rd3 (hw _),
    wp_rd0 hy, wp_wr0 hy,
    wp_rd1 (readQ_writeQ_same _ _ _), wp_wr1 (readQ_writeQ_same _ _ _),
    wp_rd2 (readQ_writeQ_same _ _ _), wp_wr2 (readQ_writeQ_same _ _ _),
    wp_rd3 (readQ_writeQ_same _ _ _), wp_wr3 (readQ_writeQ_same _ _ _), writeQ_writeQ, true_and]
  rfl

theorem haxpych_20_bits {al : Cplx F}
    (hw : ∀ w, readQ (writeQ m (Y + 4 * (I - 1)) w) (X + 4 * (I - 1)) = some p)
    (hx : readQ m (X + 4 * (I - 1)) = some p) (hy : readQ m (Y + 4 * (I - 1)) = some q) :
    wp (haxpych_20_I al X Y I) m (fun _ m' =>
      m' = writeQ m (Y + 4 * (I - 1)) (fAxpyV true (.z al) p q)) := by
  unfold haxpych_20_I
  simp only [el2r_1, el2r_2, el2r_3, el2r_4, wp_bind, wp_pure,
    wp_rd0 hx, wp_rd1 hx, wp_rd2 hx, wp_rd3 hx,
    wp_rd0 (hw _), wp_rd1 (hw _), wp_rd2 (hw _), wp_rd3 (hw _),
    wp_rd0 hy, wp_wr0 hy,
    wp_rd1 (readQ_writeQ_same _ _ _), wp_wr1 (readQ_writeQ_same _ _ _),
    wp_rd2 (readQ_writeQ_same _ _ _), wp_wr2 (readQ_writeQ_same _ _ _),
    wp_rd3 (readQ_writeQ_same _ _ _), wp_wr3 (readQ_writeQ_same _ _ _), writeQ_writeQ, true_and]
  rfl

theorem haxpych_30_bits {al : Cplx F}
    (hw : ∀ w, readQ (writeQ m (Y + 4 * (IY - 1)) w) (X + 4 * (IX - 1)) = some p)
    (hx : readQ m (X + 4 * (IX - 1)) = some p) (hy : readQ m (Y + 4 * (IY - 1)) = some q) :
    wp (haxpych_30_I al INCX INCY X Y I IX IY) m (fun s m' => s = (IX + INCX, IY + INCY) ∧
      m' = writeQ m (Y + 4 * (IY - 1)) (fAxpyV false (.z al) p q)) := by
  unfold haxpych_30_I
  simp only [el2r_1, el2r_2, el2r_3, el2r_4, wp_bind, wp_pure,
    wp_rd0 hx, wp_rd1 hx, wp_rd2 hx, wp_rd3 hx,
    wp_rd0 (hw _), wp_rd1 (hw _), wp_rd2 (hw _), wp_rd3 (hw _),
    wp_rd0 hy, wp_wr0 hy,
    wp_rd1 (readQ_writeQ_same _ _ _), wp_wr1 (readQ_writeQ_same _ _ _),
    wp_rd2 (readQ_writeQ_same _ _ _), wp_wr2 (readQ_writeQ_same _ _ _),
    wp_rd3 (readQ_writeQ_same _ _ _), wp_wr3 (readQ_writeQ_same _ _ _), writeQ_writeQ, true_and]
  rfl

theorem haxpych_40_bits {al : Cplx F}
    (hw : ∀ w, readQ (writeQ m (Y + 4 * (IY - 1)) w) (X + 4 * (IX - 1)) = some p)
    (hx : readQ m (X + 4 * (IX - 1)) = some p) (hy : readQ m (Y + 4 * (IY - 1)) = some q) :
    wp (haxpych_40_I al INCX INCY X Y I IX IY) m (fun s m' => s = (IX + INCX, IY + INCY) ∧
      m' = writeQ m (Y + 4 * (IY - 1)) (fAxpyV true (.z al) p q)) := by
  unfold haxpych_40_I
  simp only [el2r_1, el2r_2, el2r_3, el2r_4, wp_bind, wp_pure,
    wp_rd0 hx, wp_rd1 hx, wp_rd2 hx, wp_rd3 hx,
    wp_rd0 (hw _), wp_rd1 (hw _), wp_rd2 (hw _), wp_rd3 (hw _),
    wp_rd0 hy, wp_wr0 hy,
    wp_rd1 (readQ_writeQ_same _ _ _), wp_wr1 (readQ_writeQ_same _ _ _),
    wp_rd2 (readQ_writeQ_same _ _ _), wp_wr2 (readQ_writeQ_same _ _ _),
    wp_rd3 (readQ_writeQ_same _ _ _), wp_wr3 (readQ_writeQ_same _ _ _), writeQ_writeQ, true_and]
  rfl

theorem haxpyhh_10_bits {al : Quat F}
    (hw : ∀ w, readQ (writeQ m (Y + 4 * (I - 1)) w) (X + 4 * (I - 1)) = some p)
    (hx : readQ m (X + 4 * (I - 1)) = some p) (hy : readQ m (Y + 4 * (I - 1)) = some q) :
    wp (haxpyhh_10_I al X Y I) m (fun _ m' =>
      m' = writeQ m (Y + 4 * (I - 1)) (fAxpyV false (.h al) p q)) := by
  unfold haxpyhh_10_I
  simp only [el2r_1, el2r_2, el2r_3, el2r_4, wp_bind, wp_pure,
    wp_rd0 hx, wp_rd1 hx, wp_rd2 hx, wp_rd3 hx,
    wp_rd0 (hw _), wp_rd1 (hw _), wp_rd2 (hw _), wp_rd3 (hw _),
    wp_rd0 hy, wp_wr0 hy,
    wp_rd1 (readQ_writeQ_same _ _ _), wp_wr1 (readQ_writeQ_same _ _ _),
    wp_rd2 (readQ_writeQ_same _ _ _), wp_wr2 (readQ_writeQ_same _ _ _),
    wp_rd3 (readQ_writeQ_same _ _ _), wp_wr3 (readQ_writeQ_same _ _ _), writeQ_writeQ, true_and]
  rfl

theorem haxpyhh_20_bits {al : Quat F}
    (hw : ∀ w, readQ (writeQ m (Y + 4 * (I - 1)) w) (X + 4 * (I - 1)) = some p)
    (hx : readQ m (X + 4 * (I - 1)) = some p) (hy : readQ m (Y + 4 * (I - 1)) = some q) :
    wp (haxpyhh_20_I al X Y I) m (fun _ m' =>
      m' = writeQ m (Y + 4 * (I - 1)) (fAxpyV true (.h al) p q)) := by
  unfold haxpyhh_20_I
  simp only [el2r_1, el2r_2, el2r_3, el2r_4, wp_bind, wp_pure,
    wp_rd0 hx, wp_rd1 hx, wp_rd2 hx, wp_rd3 hx,
    wp_rd0 (hw _), wp_rd1 (hw _), wp_rd2 (hw _), wp_rd3 (hw _),
    wp_rd0 hy, wp_wr0 hy,
    wp_rd1 (readQ_writeQ_same _ _ _), wp_wr1 (readQ_writeQ_same _ _ _),
    wp_rd2 (readQ_writeQ_same _ _ _), wp_wr2 (readQ_writeQ_same _ _ _),
    wp_rd3 (readQ_writeQ_same _ _ _), wp_wr3 (readQ_writeQ_same _ _ _), writeQ_writeQ, true_and]
  rfl

theorem haxpyhh_30_bits {al : Quat F}
    (hw : ∀ w, readQ (writeQ m (Y + 4 * (IY - 1)) w) (X + 4 * (IX - 1)) = some p)
    (hx : readQ m (X + 4 * (IX - 1)) = some p) (hy : readQ m (Y + 4 * (IY - 1)) = some q) :
    wp (haxpyhh_30_I al INCX INCY X Y I IX IY) m (fun s m' => s = (IX + INCX, IY + INCY) ∧
      m' = writeQ m (Y + 4 * (IY - 1)) (fAxpyV false (.h al) p q)) := by
  unfold haxpyhh_30_I
  simp only [el2r_1, el2r_2, el2r_3, el2r_4, wp_bind, wp_pure,
    wp_rd0 hx, wp_rd1 hx, wp_rd2 hx, wp_rd3 hx,
    wp_rd0 (hw _), wp_rd1 (hw _), wp_rd2 (hw _), wp_rd3 (hw _),
    wp_rd0 hy, wp_wr0 hy,
    wp_rd1 (readQ_writeQ_same _ _ _), wp_wr1 (readQ_writeQ_same _ _ _),
    wp_rd2 (readQ_writeQ_same _ _ _), wp_wr2 (readQ_writeQ_same _ _ _),
    wp_rd3 (readQ_writeQ_same _ _ _), wp_wr3 (readQ_writeQ_same _ _ _), writeQ_writeQ, true_and]
  rfl

theorem haxpyhh_40_bits {al : Quat F}
    (hw : ∀ w, readQ (writeQ m (Y + 4 * (IY - 1)) w) (X + 4 * (IX - 1)) = some p)
    (hx : readQ m (X + 4 * (IX - 1)) = some p) (hy : readQ m (Y + 4 * (IY - 1)) = some q) :
    wp (haxpyhh_40_I al INCX INCY X Y I IX IY) m (fun s m' => s = (IX + INCX, IY + INCY) ∧
      m' = writeQ m (Y + 4 * (IY - 1)) (fAxpyV true (.h al) p q)) := by
  unfold haxpyhh_40_I
  simp only [el2r_1, el2r_2, el2r_3, el2r_4, wp_bind, wp_pure,
    wp_rd0 hx, wp_rd1 hx, wp_rd2 hx, wp_rd3 hx,
    wp_rd0 (hw _), wp_rd1 (hw _), wp_rd2 (hw _), wp_rd3 (hw _),
    wp_rd0 hy, wp_wr0 hy,
    wp_rd1 (readQ_writeQ_same _ _ _), wp_wr1 (readQ_writeQ_same _ _ _),
    wp_rd2 (readQ_writeQ_same _ _ _), wp_wr2 (readQ_writeQ_same _ _ _),
    wp_rd3 (readQ_writeQ_same _ _ _), wp_wr3 (readQ_writeQ_same _ _ _), writeQ_writeQ, true_and]
  rfl

theorem hdotu_10_bits {r : Quat F}
    (hx : readQ m (X + 4 * (I - 1)) = some p) (hy : readQ m (Y + 4 * (I - 1)) = some q) :
    wp (hdotu_10_I X Y I r.re r.i r.j r.k) m (fun s m' => m' = m ∧
      (⟨s.1, s.2.1, s.2.2.1, s.2.2.2⟩ : Quat F) = fDotStep false p q r) := by
  unfold hdotu_10_I
  simp only [el2r_1, el2r_2, el2r_3, el2r_4, wp_bind, wp_pure, wp_rd0 hx, wp_rd1 hx, wp_rd2 hx,
    wp_rd3 hx, wp_rd0 hy, wp_rd1 hy, wp_rd2 hy, wp_rd3 hy]
  exact ⟨trivial, rfl⟩

theorem hdotu_20_bits {r : Quat F}
    (hx : readQ m (X + 4 * (IX - 1)) = some p) (hy : readQ m (Y + 4 * (IY - 1)) = some q) :
    wp (hdotu_20_I INCX INCY X Y I IX IY r.re r.i r.j r.k) m (fun s m' => m' = m ∧
      s.1 = IX + INCX ∧ s.2.1 = IY + INCY ∧
      (⟨s.2.2.1, s.2.2.2.1, s.2.2.2.2.1, s.2.2.2.2.2⟩ : Quat F) = fDotStep false p q r) := by
  unfold hdotu_20_I
  simp only [el2r_1, el2r_2, el2r_3, el2r_4, wp_bind, wp_pure, wp_rd0 hx, wp_rd1 hx, wp_rd2 hx,
    wp_rd3 hx, wp_rd0 hy, wp_rd1 hy, wp_rd2 hy, wp_rd3 hy]
  exact ⟨trivial, trivial, trivial, rfl⟩

theorem hdotc_10_bits {r : Quat F}
    (hx : readQ m (X + 4 * (I - 1)) = some p) (hy : readQ m (Y + 4 * (I - 1)) = some q) :
    wp (hdotc_10_I X Y I r.re r.i r.j r.k) m (fun s m' => m' = m ∧
      (⟨s.1, s.2.1, s.2.2.1, s.2.2.2⟩ : Quat F) = fDotStep true p q r) := by
  unfold hdotc_10_I
  simp only [el2r_1, el2r_2, el2r_3, el2r_4, wp_bind, wp_pure, wp_rd0 hx, wp_rd1 hx, wp_rd2 hx,
    wp_rd3 hx, wp_rd0 hy, wp_rd1 hy, wp_rd2 hy, wp_rd3 hy]
  exact ⟨trivial, rfl⟩

theorem hdotc_20_bits {r : Quat F}
    (hx : readQ m (X + 4 * (IX - 1)) = some p) (hy : readQ m (Y + 4 * (IY - 1)) = some q) :
    wp (hdotc_20_I INCX INCY X Y I IX IY r.re r.i r.j r.k) m (fun s m' => m' = m ∧
      s.1 = IX + INCX ∧ s.2.1 = IY + INCY ∧
      (⟨s.2.2.1, s.2.2.2.1, s.2.2.2.2.1, s.2.2.2.2.2⟩ : Quat F) = fDotStep true p q r) := by
  unfold hdotc_20_I
  simp only [el2r_1, el2r_2, el2r_3, el2r_4, wp_bind, wp_pure, wp_rd0 hx, wp_rd1 hx, wp_rd2 hx,
    wp_rd3 hx, wp_rd0 hy, wp_rd1 hy, wp_rd2 hy, wp_rd3 hy]
  exact ⟨trivial, trivial, trivial, rfl⟩

end leaves

section
variable {F : Type} [Arith F] [ArithEq F]

/-- SCALV, Fortran: element `i` is left alone if ALPHA compares equal to zero, and is `fScalV` of itself otherwise. -/
theorem scalvF_bits {m0 : Mem F} {SIDE : Char} {N X INCX : Int} {ALPHA : Scal F} {x : Nat → Quat F}
    (hinc : INCX ≠ 0) (hX : VecAt m0 (fbase X N INCX) INCX N.toNat x) :
    wp (scalvF SIDE N ALPHA X INCX) m0 (fun _ m =>
      VecAt m (fbase X N INCX) INCX N.toNat
        (fun i => if ALPHA.vIsZero then x i else fScalV (lsame 'R' SIDE) ALPHA (x i)) ∧
      SameOutside (VecCell (fbase X N INCX) INCX N.toNat) m0 m) := by
  by_cases hN : N ≤ 0
  · have h0 : N.toNat = 0 := by omega
    have : wp (scalvF SIDE N ALPHA X INCX) m0 (fun _ m => m = m0) := by
      cases ALPHA <;> simp [scalvF, hscald, hscalc, hscalh, hN, wp_pure]
    refine wp_mono this ?_
    rintro _ m rfl
    exact ⟨fun i hi => by omega, fun _ _ => rfl⟩
  cases hz : ALPHA.vIsZero with
  | true =>
    have : wp (scalvF SIDE N ALPHA X INCX) m0 (fun _ m => m = m0) := by
      cases ALPHA with
      | d a =>
        have hz' : (a ==ᶠ zero) = true := hz
        simp only [scalvF, hscald, hN, hz', decide_false, Bool.false_eq_true, if_false, if_true, wp_pure]
      | z a =>
        have hz' : cabsIsZero a = true := hz
        simp only [scalvF, hscalc, hN, hz', decide_false, Bool.false_eq_true, if_false, if_true, wp_pure]
      | h a =>
        have hz' : (((a.re ==ᶠ zero) && (a.i ==ᶠ zero) && (a.j ==ᶠ zero)) && (a.k ==ᶠ zero)) = true := hz
        simp only [scalvF, hscalh, hN, hz', decide_false, Bool.false_eq_true, if_false, if_true, wp_pure]
    refine wp_mono this ?_
    rintro _ m rfl
    exact ⟨fun i hi => by dsimp only; rw [if_pos rfl]; exact hX i hi, fun _ _ => rfl⟩
  | false =>
  simp only [Bool.false_eq_true, if_false]
  cases ALPHA with
  | d a =>
    have hz' : (a ==ᶠ zero) = false := hz
    simp only [scalvF, hscald, hN, hz', decide_false, Bool.false_eq_true, if_false, wp_bind,
      wp_pure]
    unfold hscald_if21
    by_cases h1 : INCX = 1
    · subst h1
      rw [fbase_one] at *
      simp only [decide_true, if_true, wp_bind, wp_pure]
      exact fort_unit1 _ (fun m I q h => hscald_10_bits _ h) hX
    · simp only [h1, decide_false, Bool.false_eq_true, if_false, wp_bind, wp_fidx, wp_pure]
      rw [← fidx] at *
      exact fort_str1 _ (fun m I IX q h => hscald_20_bits (I := I) _ h) hinc hX
  | z a =>
    have hz' : cabsIsZero a = false := hz
    simp only [scalvF, hscalc, hN, hz', decide_false, Bool.false_eq_true, if_false, wp_bind,
      wp_pure]
    unfold hscalc_if26
    by_cases h1 : INCX = 1
    · subst h1
      rw [fbase_one] at *
      simp only [decide_true, if_true, wp_bind, wp_pure]
      unfold hscalc_if27
      cases lsame 'R' SIDE
      · simp only [Bool.not_false, if_true, wp_bind, wp_pure]
        exact fort_unit1 _ (fun m I q h => hscalc_10_bits h) hX
      · simp only [Bool.not_true, Bool.false_eq_true, if_false, wp_bind, wp_pure]
        exact fort_unit1 _ (fun m I q h => hscalc_20_bits h) hX
    · simp only [h1, decide_false, Bool.false_eq_true, if_false, wp_bind, wp_fidx, wp_pure]
      rw [← fidx] at *
      unfold hscalc_if45
      cases lsame 'R' SIDE
      · simp only [Bool.not_false, if_true, wp_bind, wp_pure]
        exact fort_str1 _ (fun m I IX q h => hscalc_30_bits (I := I) h) hinc hX
      · simp only [Bool.not_true, Bool.false_eq_true, if_false, wp_bind, wp_pure]
        exact fort_str1 _ (fun m I IX q h => hscalc_40_bits (I := I) h) hinc hX
  | h a =>
    have hz' : ((((a.re ==ᶠ zero) && (a.i ==ᶠ zero)) && (a.j ==ᶠ zero)) && (a.k ==ᶠ zero)) = false :=
      hz
    simp only [scalvF, hscalh, hN, hz', decide_false, Bool.false_eq_true, if_false, wp_bind,
      wp_pure]
    unfold hscalh_if27
    by_cases h1 : INCX = 1
    · subst h1
      rw [fbase_one] at *
      simp only [decide_true, if_true, wp_bind, wp_pure]
      unfold hscalh_if28
      cases lsame 'R' SIDE
      · simp only [Bool.not_false, if_true, wp_bind, wp_pure]
        exact fort_unit1 _ (fun m I q h => hscalh_10_bits h) hX
      · simp only [Bool.not_true, Bool.false_eq_true, if_false, wp_bind, wp_pure]
        exact fort_unit1 _ (fun m I q h => hscalh_20_bits h) hX
    · simp only [h1, decide_false, Bool.false_eq_true, if_false, wp_bind, wp_fidx, wp_pure]
      rw [← fidx] at *
      unfold hscalh_if70
      cases lsame 'R' SIDE
      · simp only [Bool.not_false, if_true, wp_bind, wp_pure]
        exact fort_str1 _ (fun m I IX q h => hscalh_30_bits (I := I) h) hinc hX
      · simp only [Bool.not_true, Bool.false_eq_true, if_false, wp_bind, wp_pure]
        exact fort_str1 _ (fun m I IX q h => hscalh_40_bits (I := I) h) hinc hX

/-- AXPYV, Fortran. -/
theorem axpyvF_bits {m0 : Mem F} {SIDE : Char} {N X INCX Y INCY : Int} {ALPHA : Scal F}
    {x y : Nat → Quat F} (hinc : INCY ≠ 0)
    (hX : VecAt m0 (fbase X N INCX) INCX N.toNat x)
    (hY : VecAt m0 (fbase Y N INCY) INCY N.toNat y)
    (hdis : Apart (VecCell (fbase X N INCX) INCX N.toNat) (VecCell (fbase Y N INCY) INCY N.toNat)) :
    wp (axpyvF SIDE N ALPHA X INCX Y INCY) m0 (fun _ m =>
      VecAt m (fbase Y N INCY) INCY N.toNat
        (fun i => if ALPHA.vIsZero then y i else fAxpyV (lsame 'R' SIDE) ALPHA (x i) (y i)) ∧
      SameOutside (VecCell (fbase Y N INCY) INCY N.toNat) m0 m) := by
  by_cases hN : N ≤ 0
  · have h0 : N.toNat = 0 := by omega
    have : wp (axpyvF SIDE N ALPHA X INCX Y INCY) m0 (fun _ m => m = m0) := by
      cases ALPHA <;> simp [axpyvF, haxpydh, haxpych, haxpyhh, hN, wp_pure]
    refine wp_mono this ?_
    rintro _ m rfl
    exact ⟨fun i hi => by omega, fun _ _ => rfl⟩
  cases hz : ALPHA.vIsZero with
  | true =>
    have : wp (axpyvF SIDE N ALPHA X INCX Y INCY) m0 (fun _ m => m = m0) := by
      cases ALPHA with
      | d a =>
        have hz' : (a ==ᶠ zero) = true := hz
        simp only [axpyvF, haxpydh, hN, hz', decide_false, Bool.false_eq_true, if_false, if_true,
          wp_pure]
      | z a =>
        have hz' : ((a.re ==ᶠ zero) && (a.im ==ᶠ zero)) = true := hz
        simp only [axpyvF, haxpych, hN, hz', decide_false, Bool.false_eq_true, if_false, if_true,
          wp_pure]
      | h a =>
        have hz' : ((((a.re ==ᶠ zero) && (a.i ==ᶠ zero)) && (a.j ==ᶠ zero)) && (a.k ==ᶠ zero)) =
          true := hz
        simp only [axpyvF, haxpyhh, hN, hz', decide_false, Bool.false_eq_true, if_false, if_true,
          wp_pure]
    refine wp_mono this ?_
    rintro _ m rfl
    exact ⟨fun i hi => by dsimp only; rw [if_pos rfl]; exact hY i hi, fun _ _ => rfl⟩
  | false =>
    simp only [Bool.false_eq_true, if_false]
    cases ALPHA with
    | d a =>
      have hz' : (a ==ᶠ zero) = false := hz
      simp only [axpyvF, haxpydh, hN, hz', decide_false, Bool.false_eq_true, if_false, wp_bind,
        wp_pure]
      unfold haxpydh_if21
      by_cases h1 : INCX = 1 ∧ INCY = 1
      · obtain ⟨rfl, rfl⟩ := h1
        rw [fbase_one, fbase_one] at *
        simp only [decide_true, Bool.and_self, if_true, wp_bind, wp_pure]
        exact fort_unit2 _ (fun m I p q hw hx hy => haxpydh_10_bits _ hw hx hy) hX hY hdis
      · have h1' : (decide (INCX = 1) && decide (INCY = 1)) = false := by simpa using h1
        simp only [h1', Bool.false_eq_true, if_false, wp_bind, wp_fidx, wp_pure]
        rw [← fidx X, ← fidx Y] at *
        exact fort_str2 _ (fun m I IX IY p q hw hx hy => haxpydh_20_bits (I := I) _ hw hx hy) hinc hX hY hdis
    | z a =>
      have hz' : ((a.re ==ᶠ zero) && (a.im ==ᶠ zero)) = false := hz
      simp only [axpyvF, haxpych, hN, hz', decide_false, Bool.false_eq_true, if_false, wp_bind,
        wp_pure]
      unfold haxpych_if24
      by_cases h1 : INCX = 1 ∧ INCY = 1
      · obtain ⟨rfl, rfl⟩ := h1
        rw [fbase_one, fbase_one] at *
        simp only [decide_true, Bool.and_self, if_true, wp_bind, wp_pure]
        unfold haxpych_if25
        cases lsame 'R' SIDE
        · simp only [Bool.not_false, if_true, wp_bind, wp_pure]
          exact fort_unit2 _ (fun m I p q hw hx hy => haxpych_10_bits hw hx hy) hX hY hdis
        · simp only [Bool.not_true, Bool.false_eq_true, if_false, wp_bind, wp_pure]
          exact fort_unit2 _ (fun m I p q hw hx hy => haxpych_20_bits hw hx hy) hX hY hdis
      · have h1' : (decide (INCX = 1) && decide (INCY = 1)) = false := by simpa using h1
        simp only [h1', Bool.false_eq_true, if_false, wp_bind, wp_fidx, wp_pure]
        rw [← fidx X, ← fidx Y] at *
        unfold haxpych_if49
        cases lsame 'R' SIDE
        · simp only [Bool.not_false, if_true, wp_bind, wp_pure]
          exact fort_str2 _ (fun m I IX IY p q hw hx hy => haxpych_30_bits (I := I) hw hx hy) hinc hX hY hdis
        · simp only [Bool.not_true, Bool.false_eq_true, if_false, wp_bind, wp_pure]
          exact fort_str2 _ (fun m I IX IY p q hw hx hy => haxpych_40_bits (I := I) hw hx hy) hinc hX hY hdis
    | h a =>
      have hz' : ((((a.re ==ᶠ zero) && (a.i ==ᶠ zero)) && (a.j ==ᶠ zero)) && (a.k ==ᶠ zero)) = false := hz
      simp only [axpyvF, haxpyhh, hN, hz', decide_false, Bool.false_eq_true, if_false, wp_bind,
        wp_pure]
      unfold haxpyhh_if25
      by_cases h1 : INCX = 1 ∧ INCY = 1
      · obtain ⟨rfl, rfl⟩ := h1
        rw [fbase_one, fbase_one] at *
        simp only [decide_true, Bool.and_self, if_true, wp_bind, wp_pure]
        unfold haxpyhh_if26
        cases lsame 'R' SIDE
        · simp only [Bool.not_false, if_true, wp_bind, wp_pure]
          exact fort_unit2 _ (fun m I p q hw hx hy => haxpyhh_10_bits hw hx hy) hX hY hdis
        · simp only [Bool.not_true, Bool.false_eq_true, if_false, wp_bind, wp_pure]
          exact fort_unit2 _ (fun m I p q hw hx hy => haxpyhh_20_bits hw hx hy) hX hY hdis
      · have h1' : (decide (INCX = 1) && decide (INCY = 1)) = false := by simpa using h1
        simp only [h1', Bool.false_eq_true, if_false, wp_bind, wp_fidx, wp_pure]
        rw [← fidx X, ← fidx Y] at *
        unfold haxpyhh_if64
        cases lsame 'R' SIDE
        · simp only [Bool.not_false, if_true, wp_bind, wp_pure]
          exact fort_str2 _ (fun m I IX IY p q hw hx hy => haxpyhh_30_bits (I := I) hw hx hy) hinc hX hY hdis
        · simp only [Bool.not_true, Bool.false_eq_true, if_false, wp_bind, wp_pure]
          exact fort_str2 _ (fun m I IX IY p q hw hx hy => haxpyhh_40_bits (I := I) hw hx hy) hinc hX hY hdis

theorem fdot_unit_bits {body : Int → F → F → F → F → Prog F (F × F × F × F)} {X Y : Int} {m : Mem F}
    {n : Nat} {x y : Nat → Quat F} (c : Bool)
    (hb : ∀ I p q (r : Quat F), readQ m (X + 4 * (I - 1)) = some p →
      readQ m (Y + 4 * (I - 1)) = some q → wp (body I r.re r.i r.j r.k) m (fun s m' => m' = m ∧
        (⟨s.1, s.2.1, s.2.2.1, s.2.2.2⟩ : Quat F) = fDotStep c p q r))
    (hX : VecAt m X 1 n x) (hY : VecAt m Y 1 n y) :
    wp (foldN n (fun i (s : F × F × F × F) => body ((i:Int) + 1) s.1 s.2.1 s.2.2.1 s.2.2.2)
      (zero, zero, zero, zero)) m (fun s m' => m' = m ∧
        (⟨s.1, s.2.1, s.2.2.1, s.2.2.2⟩ : Quat F) = fDot c x y n) := by
  apply wp_foldN (fun i (s : F × F × F × F) m' => m' = m ∧
    (⟨s.1, s.2.1, s.2.2.1, s.2.2.2⟩ : Quat F) = fDot c x y i)
  · exact ⟨rfl, rfl⟩
  · rintro i s m' hi ⟨rfl, hs⟩
    have e : ∀ P : Int, P + 4 * ((i:Int) + 1 - 1) = P + 4 * ((i:Int) * 1) := by intro P; ring
    refine wp_mono (hb _ (x i) (y i) ⟨s.1, s.2.1, s.2.2.1, s.2.2.2⟩ (by rw [e]; exact hX i hi) (by rw [e]; exact hY i hi)) ?_
    rintro s' m' ⟨rfl, hv⟩
    exact ⟨rfl, by rw [hv, hs, fDot]⟩
  · intro s m' h; exact h

theorem fdot_str_bits {body : Int → Int → Int → F → F → F → F → Prog F (Int × Int × F × F × F × F)}
    {X Y INCX INCY IX0 IY0 : Int} {m : Mem F} {n : Nat} {x y : Nat → Quat F} (c : Bool)
    (hb : ∀ I IX IY p q (r : Quat F), readQ m (X + 4 * (IX - 1)) = some p →
      readQ m (Y + 4 * (IY - 1)) = some q → wp (body I IX IY r.re r.i r.j r.k) m (fun s m' => m' = m ∧
      s.1 = IX + INCX ∧ s.2.1 = IY + INCY ∧
        (⟨s.2.2.1, s.2.2.2.1, s.2.2.2.2.1, s.2.2.2.2.2⟩ : Quat F) = fDotStep c p q r))
    (hX : VecAt m (X + 4 * (IX0 - 1)) INCX n x) (hY : VecAt m (Y + 4 * (IY0 - 1)) INCY n y) :
    wp (foldN n (fun i (s : Int × Int × F × F × F × F) =>
        body ((i:Int) + 1) s.1 s.2.1 s.2.2.1 s.2.2.2.1 s.2.2.2.2.1 s.2.2.2.2.2)
      (IX0, IY0, zero, zero, zero, zero)) m (fun s m' => m' = m ∧
        (⟨s.2.2.1, s.2.2.2.1, s.2.2.2.2.1, s.2.2.2.2.2⟩ : Quat F) = fDot c x y n) := by
  apply wp_foldN (fun i (s : Int × Int × F × F × F × F) m' => m' = m ∧
    s.1 = IX0 + i * INCX ∧ s.2.1 = IY0 + i * INCY ∧
    (⟨s.2.2.1, s.2.2.2.1, s.2.2.2.2.1, s.2.2.2.2.2⟩ : Quat F) = fDot c x y i)
  · exact ⟨rfl, by simp, by simp, rfl⟩
  · rintro i s m' hi ⟨rfl, h1, h2, hs⟩
    have e : ∀ P I0 INC : Int,
      P + 4 * (I0 + (i:Int) * INC - 1) = P + 4 * (I0 - 1) + 4 * ((i:Int) * INC) := by intros; ring
    refine wp_mono (hb _ _ _ (x i) (y i) ⟨s.2.2.1, s.2.2.2.1, s.2.2.2.2.1, s.2.2.2.2.2⟩ (by rw [h1, e]; exact hX i hi)
      (by rw [h2, e]; exact hY i hi)) ?_
    rintro s' m' ⟨rfl, g1, g2, hv⟩
    exact ⟨rfl, by rw [g1, h1]; push_cast; ring, by rw [g2, h2]; push_cast; ring, by rw [hv, hs, fDot]⟩
  · rintro s m' ⟨h, _, _, h'⟩; exact ⟨h, h'⟩

/-- DOTU, DOTC, Fortran. -/
theorem dotF_bits {m0 : Mem F} {conj : Bool} {N X INCX Y INCY : Int} {x y : Nat → Quat F}
    (hX : VecAt m0 (fbase X N INCX) INCX N.toNat x)
    (hY : VecAt m0 (fbase Y N INCY) INCY N.toNat y) :
    wp (dotF conj N X INCX Y INCY) m0 (fun r m => m = m0 ∧ r = fDot conj x y N.toNat) := by
  by_cases hN : N ≤ 0
  · have h0 : N.toNat = 0 := by omega
    rw [h0]
    cases conj <;> simp only [dotF, hdotu, hdotc, hN, decide_true, if_true, Bool.false_eq_true,
      if_false, wp_pure] <;> exact ⟨trivial, rfl⟩
  · cases conj with
    | false =>
      simp only [dotF, hdotu, hN, decide_false, Bool.false_eq_true, if_false, if_true, wp_bind, wp_pure]
      unfold hdotu_if20
      by_cases h1 : INCX = 1 ∧ INCY = 1
      · obtain ⟨rfl, rfl⟩ := h1
        rw [fbase_one] at *
        simp only [decide_true, Bool.and_self, if_true, wp_bind, wp_pure]
        exact fdot_unit_bits false (fun I p q _ h1 h2 => hdotu_10_bits h1 h2) hX hY
      · have h1' : (decide (INCX = 1) && decide (INCY = 1)) = false := by simpa using h1
        simp only [h1', Bool.false_eq_true, if_false, wp_bind, wp_fidx, wp_pure]
        rw [← fidx] at hX hY
        exact fdot_str_bits false (fun I IX IY p q _ h1 h2 => hdotu_20_bits (I := I) h1 h2) hX hY
    | true =>
      simp only [dotF, hdotc, hN, decide_false, Bool.false_eq_true, if_false, if_true, wp_bind, wp_pure]
      unfold hdotc_if20
      by_cases h1 : INCX = 1 ∧ INCY = 1
      · obtain ⟨rfl, rfl⟩ := h1
        rw [fbase_one] at *
        simp only [decide_true, Bool.and_self, if_true, wp_bind, wp_pure]
        exact fdot_unit_bits true (fun I p q _ h1 h2 => hdotc_10_bits h1 h2) hX hY
      · have h1' : (decide (INCX = 1) && decide (INCY = 1)) = false := by simpa using h1
        simp only [h1', Bool.false_eq_true, if_false, wp_bind, wp_fidx, wp_pure]
        rw [← fidx] at hX hY
        exact fdot_str_bits true (fun I IX IY p q _ h1 h2 => hdotc_20_bits (I := I) h1 h2) hX hY

end

end Haxx
