import Verif.PropsAlias
import Verif.FHblas1Bits
import Verif.PropsGemmF
import Verif.PropsGeneric
import Verif.PropsGeneric2
import Verif.PropsGer
import Verif.PropsFBits4

/-!
# C48, continued: overlapping operands of the Fortran AXPYV, A = B in the other builds of GEMM, x = y in GERC

The Fortran AXPYV stores the components of `y_i` one at a time and reads those of `x_i` again after each store. So it is
right when `y_i` shares no cell with `x_i` or a later element of x, and in place it is right for every x only if ALPHA
is real.
-/

set_option linter.unusedSectionVars false
set_option linter.unusedSimpArgs false
set_option linter.unusedVariables false

namespace Haxx
open Arith Quaternion Finset

/-- No element of x shares a cell with the element of y of the same index or an earlier one. -/
def ReadBefore (X INCX Y INCY : Int) (n : Nat) : Prop :=
  ∀ i k : Nat, k ≤ i → i < n → ∀ a, InQ (X + 4 * ((i:Int) * INCX)) a → ¬ InQ (Y + 4 * ((k:Int) * INCY)) a

theorem ReadBefore.first {X INCX Y INCY : Int} {n : Nat} (h : ReadBefore X INCX Y INCY n) : ReadFirst X INCX Y INCY n :=
  fun i k hk => h i k hk.le

/-- x starts at a later element of the same strided vector. -/
theorem readBefore_shift {Y INC d : Int} {n : Nat} (h : INC ≠ 0) (hd : 0 < d) : ReadBefore (Y + 4 * (d * INC)) INC Y INC n := by
  intro i k hk _ a h1 h2
  obtain ⟨D, hD⟩ : ∃ D : Nat, d = D := ⟨d.toNat, by omega⟩
  have e : Y + 4 * (d * INC) + 4 * ((i:Int) * INC) = Y + 4 * (((D + i : Nat) : Int) * INC) := by push_cast; rw [hD]; ring
  rw [e] at h1
  have := strided_disj (x := Y) (i := D + i) (j := k) h (by omega)
  unfold InQ QDisj at *; omega

section
variable {F : Type}

theorem fort_unit2' {body : Int → Prog F Unit} {X Y : Int} (g : Quat F → Quat F → Quat F)
    {m0 : Mem F} {n : Nat} {x y : Nat → Quat F}
    (hb : ∀ m I p q, (∀ w, readQ (writeQ m (Y + 4 * (I - 1)) w) (X + 4 * (I - 1)) = some p) →
      readQ m (X + 4 * (I - 1)) = some p → readQ m (Y + 4 * (I - 1)) = some q →
      wp (body I) m (fun _ m' => m' = writeQ m (Y + 4 * (I - 1)) (g p q)))
    (hX : VecAt m0 X 1 n x) (hY : VecAt m0 Y 1 n y) (hr : ReadBefore X 1 Y 1 n) :
    wp (forN n (fun i => body ((i:Int) + 1))) m0 (fun _ m =>
      VecAt m Y 1 n (fun i => g (x i) (y i)) ∧ SameOutside (VecCell Y 1 n) m0 m) := by
  unfold forN
  refine wp_ahead (fun _ => ()) (fun i => g (x i) (y i)) hX hY (by omega) hr.first ?_
  intro i m hi hxi hyi
  have e : ∀ P : Int, P + 4 * ((i:Int) + 1 - 1) = P + 4 * ((i:Int) * 1) := by intro P; ring
  have := hb m ((i:Int) + 1) (x i) (y i)
    (by
      intro w
      rw [e, e, readQ_congr (m' := m)]
      · exact hxi
      · intro a ha
        exact writeQ_other (hr i i le_rfl hi a ha))
    (by rw [e]; exact hxi) (by rw [e]; exact hyi)
  rw [e] at this
  exact wp_mono this (fun _ _ h => ⟨rfl, h⟩)

theorem fort_str2' {body : Int → Int → Int → Prog F (Int × Int)} {X INCX IX0 Y INCY IY0 : Int}
    (g : Quat F → Quat F → Quat F) {m0 : Mem F} {n : Nat} {x y : Nat → Quat F}
    (hb : ∀ m I IX IY p q,
      (∀ w, readQ (writeQ m (Y + 4 * (IY - 1)) w) (X + 4 * (IX - 1)) = some p) →
      readQ m (X + 4 * (IX - 1)) = some p → readQ m (Y + 4 * (IY - 1)) = some q →
      wp (body I IX IY) m (fun s m' => s = (IX + INCX, IY + INCY) ∧
        m' = writeQ m (Y + 4 * (IY - 1)) (g p q)))
    (hinc : INCY ≠ 0) (hX : VecAt m0 (X + 4 * (IX0 - 1)) INCX n x)
    (hY : VecAt m0 (Y + 4 * (IY0 - 1)) INCY n y)
    (hr : ReadBefore (X + 4 * (IX0 - 1)) INCX (Y + 4 * (IY0 - 1)) INCY n) :
    wp (foldN n (fun i (s : Int × Int) => body ((i:Int) + 1) s.1 s.2) (IX0, IY0)) m0 (fun _ m =>
      VecAt m (Y + 4 * (IY0 - 1)) INCY n (fun i => g (x i) (y i)) ∧
      SameOutside (VecCell (Y + 4 * (IY0 - 1)) INCY n) m0 m) := by
  have key := wp_ahead (f := fun i (s : Int × Int) => body ((i:Int) + 1) s.1 s.2) (m0 := m0)
    (fun i => (IX0 + (i:Int) * INCX, IY0 + (i:Int) * INCY)) (fun i => g (x i) (y i)) hX hY hinc hr.first ?_
  · simp only [Nat.cast_zero, zero_mul, add_zero] at key
    exact key
  · intro i m hi hxi hyi
    have e : ∀ P I0 INC : Int,
      P + 4 * (I0 + (i:Int) * INC - 1) = P + 4 * (I0 - 1) + 4 * ((i:Int) * INC) := by intros; ring
    have := hb m ((i:Int) + 1) (IX0 + i * INCX) (IY0 + i * INCY) (x i) (y i)
      (by
        intro w
        rw [e, e, readQ_congr (m' := m)]
        · exact hxi
        · intro a ha
          exact writeQ_other (hr i i le_rfl hi a ha))
      (by rw [e]; exact hxi) (by rw [e]; exact hyi)
    rw [e Y] at this
    refine wp_mono this ?_
    rintro s m' ⟨h1, h2⟩
    refine ⟨?_, h2⟩
    rw [h1]; push_cast; rw [Prod.mk.injEq]; constructor <;> ring

/-- In-place loop with two running indices on the same vector. -/
theorem fort_self {body : Int → Int → Int → Prog F (Int × Int)} {X INC IX0 : Int} (g : Quat F → Quat F)
    {m0 : Mem F} {n : Nat} {x : Nat → Quat F}
    (hb : ∀ m I IX q, readQ m (X + 4 * (IX - 1)) = some q →
      wp (body I IX IX) m (fun s m' => s = (IX + INC, IX + INC) ∧ m' = writeQ m (X + 4 * (IX - 1)) (g q)))
    (hinc : INC ≠ 0) (hX : VecAt m0 (X + 4 * (IX0 - 1)) INC n x) :
    wp (foldN n (fun i (s : Int × Int) => body ((i:Int) + 1) s.1 s.2) (IX0, IX0)) m0 (fun _ m =>
      VecAt m (X + 4 * (IX0 - 1)) INC n (fun i => g (x i)) ∧
      SameOutside (VecCell (X + 4 * (IX0 - 1)) INC n) m0 m) := by
  have key := wp_vecmap (f := fun i (s : Int × Int) => body ((i:Int) + 1) s.1 s.2) (m0 := m0)
    (fun i => (IX0 + (i:Int) * INC, IX0 + (i:Int) * INC)) (fun i => g (x i)) hX (Or.inl hinc) ?_
  · simp only [Nat.cast_zero, zero_mul, add_zero] at key
    exact wp_mono key (fun _ _ h => h.2)
  · intro i m hi hxi _
    have e : X + 4 * (IX0 + (i:Int) * INC - 1) = X + 4 * (IX0 - 1) + 4 * ((i:Int) * INC) := by ring
    have := hb m ((i:Int) + 1) (IX0 + i * INC) (x i) (by rw [e]; exact hxi)
    rw [e] at this
    refine wp_mono this ?_
    rintro s m' ⟨h1, h2⟩
    exact ⟨by rw [h1]; push_cast; rw [Prod.mk.injEq]; constructor <;> ring, h2⟩

variable [Arith F] [ArithEq F]

/-- Fortran AXPYV under `ReadBefore`. -/
theorem axpyvF_ahead {m0 : Mem F} {SIDE : Char} {N X INCX Y INCY : Int} {ALPHA : Scal F}
    {x y : Nat → Quat F} (hinc : INCY ≠ 0)
    (hX : VecAt m0 (fbase X N INCX) INCX N.toNat x)
    (hY : VecAt m0 (fbase Y N INCY) INCY N.toNat y)
    (hdis : ReadBefore (fbase X N INCX) INCX (fbase Y N INCY) INCY N.toNat) :
    wp (axpyvF SIDE N ALPHA X INCX Y INCY) m0 (fun _ m =>
      VecAt m (fbase Y N INCY) INCY N.toNat
        (fun i => if ALPHA.vIsZero then y i else fAxpyV (lsame 'R' SIDE) ALPHA (x i) (y i)) ∧
      SameOutside (VecCell (fbase Y N INCY) INCY N.toNat) m0 m) := by
  by_cases hN : N ≤ 0
  · have h0 : N.toNat = 0 := by omega
    have : wp (axpyvF SIDE N ALPHA X INCX Y INCY) m0 (fun _ m => m = m0) := by
      cases ALPHA <;> simp [axpyvF, haxpydh, haxpych, haxpyhh, hN, wp_pure]
    refine wp_mono this ?_
    rintro _ m rfl
    exact ⟨fun i hi => by omega, fun _ _ => rfl⟩
  cases hz : ALPHA.vIsZero with
  | true =>
    have : wp (axpyvF SIDE N ALPHA X INCX Y INCY) m0 (fun _ m => m = m0) := by
      cases ALPHA with
      | d a =>
        have hz' : (a ==ᶠ zero) = true := hz
        simp only [axpyvF, haxpydh, hN, hz', decide_false, Bool.false_eq_true, if_false, if_true,
          wp_pure]
      | z a =>
        have hz' : ((a.re ==ᶠ zero) && (a.im ==ᶠ zero)) = true := hz
        simp only [axpyvF, haxpych, hN, hz', decide_false, Bool.false_eq_true, if_false, if_true,
          wp_pure]
      | h a =>
        have hz' : ((((a.re ==ᶠ zero) && (a.i ==ᶠ zero)) && (a.j ==ᶠ zero)) && (a.k ==ᶠ zero)) =
          true := hz
        simp only [axpyvF, haxpyhh, hN, hz', decide_false, Bool.false_eq_true, if_false, if_true,
          wp_pure]
    refine wp_mono this ?_
    rintro _ m rfl
    exact ⟨fun i hi => by dsimp only; rw [if_pos rfl]; exact hY i hi, fun _ _ => rfl⟩
  | false =>
    simp only [Bool.false_eq_true, if_false]
    cases ALPHA with
    | d a =>
      have hz' : (a ==ᶠ zero) = false := hz
      simp only [axpyvF, haxpydh, hN, hz', decide_false, Bool.false_eq_true, if_false, wp_bind,
        wp_pure]
      unfold haxpydh_if21
      by_cases h1 : INCX = 1 ∧ INCY = 1
      · obtain ⟨rfl, rfl⟩ := h1
        rw [fbase_one, fbase_one] at *
        simp only [decide_true, Bool.and_self, if_true, wp_bind, wp_pure]
        exact fort_unit2' _ (fun m I p q hw hx hy => haxpydh_10_bits _ hw hx hy) hX hY hdis
      · have h1' : (decide (INCX = 1) && decide (INCY = 1)) = false := by simpa using h1
        simp only [h1', Bool.false_eq_true, if_false, wp_bind, wp_fidx, wp_pure]
        rw [← fidx X, ← fidx Y] at *
        exact fort_str2' _ (fun m I IX IY p q hw hx hy => haxpydh_20_bits (I := I) _ hw hx hy) hinc hX hY hdis
    | z a =>
      have hz' : ((a.re ==ᶠ zero) && (a.im ==ᶠ zero)) = false := hz
      simp only [axpyvF, haxpych, hN, hz', decide_false, Bool.false_eq_true, if_false, wp_bind,
        wp_pure]
      unfold haxpych_if24
      by_cases h1 : INCX = 1 ∧ INCY = 1
      · obtain ⟨rfl, rfl⟩ := h1
        rw [fbase_one, fbase_one] at *
        simp only [decide_true, Bool.and_self, if_true, wp_bind, wp_pure]
        unfold haxpych_if25
        cases lsame 'R' SIDE
        · simp only [Bool.not_false, if_true, wp_bind, wp_pure]
          exact fort_unit2' _ (fun m I p q hw hx hy => haxpych_10_bits hw hx hy) hX hY hdis
        · simp only [Bool.not_true, Bool.false_eq_true, if_false, wp_bind, wp_pure]
          exact fort_unit2' _ (fun m I p q hw hx hy => haxpych_20_bits hw hx hy) hX hY hdis
      · have h1' : (decide (INCX = 1) && decide (INCY = 1)) = false := by simpa using h1
        simp only [h1', Bool.false_eq_true, if_false, wp_bind, wp_fidx, wp_pure]
        rw [← fidx X, ← fidx Y] at *
        unfold haxpych_if49
        cases lsame 'R' SIDE
        · simp only [Bool.not_false, if_true, wp_bind, wp_pure]
          exact fort_str2' _ (fun m I IX IY p q hw hx hy => haxpych_30_bits (I := I) hw hx hy) hinc hX hY hdis
        · simp only [Bool.not_true, Bool.false_eq_true, if_false, wp_bind, wp_pure]
          exact fort_str2' _ (fun m I IX IY p q hw hx hy => haxpych_40_bits (I := I) hw hx hy) hinc hX hY hdis
    | h a =>
      have hz' : ((((a.re ==ᶠ zero) && (a.i ==ᶠ zero)) && (a.j ==ᶠ zero)) && (a.k ==ᶠ zero)) = false := hz
      simp only [axpyvF, haxpyhh, hN, hz', decide_false, Bool.false_eq_true, if_false, wp_bind,
        wp_pure]
      unfold haxpyhh_if25
      by_cases h1 : INCX = 1 ∧ INCY = 1
      · obtain ⟨rfl, rfl⟩ := h1
        rw [fbase_one, fbase_one] at *
        simp only [decide_true, Bool.and_self, if_true, wp_bind, wp_pure]
        unfold haxpyhh_if26
        cases lsame 'R' SIDE
        · simp only [Bool.not_false, if_true, wp_bind, wp_pure]
          exact fort_unit2' _ (fun m I p q hw hx hy => haxpyhh_10_bits hw hx hy) hX hY hdis
        · simp only [Bool.not_true, Bool.false_eq_true, if_false, wp_bind, wp_pure]
          exact fort_unit2' _ (fun m I p q hw hx hy => haxpyhh_20_bits hw hx hy) hX hY hdis
      · have h1' : (decide (INCX = 1) && decide (INCY = 1)) = false := by simpa using h1
        simp only [h1', Bool.false_eq_true, if_false, wp_bind, wp_fidx, wp_pure]
        rw [← fidx X, ← fidx Y] at *
        unfold haxpyhh_if64
        cases lsame 'R' SIDE
        · simp only [Bool.not_false, if_true, wp_bind, wp_pure]
          exact fort_str2' _ (fun m I IX IY p q hw hx hy => haxpyhh_30_bits (I := I) hw hx hy) hinc hX hY hdis
        · simp only [Bool.not_true, Bool.false_eq_true, if_false, wp_bind, wp_pure]
          exact fort_str2' _ (fun m I IX IY p q hw hx hy => haxpyhh_40_bits (I := I) hw hx hy) hinc hX hY hdis

/-- What the Fortran AXPYV leaves in an element of a vector that is x and y at once: each component is
computed from the element as the previous assignments left it — `haxpydh.f:23-28`, `haxpych.f:26-46`, `haxpyhh.f:27-60`. -/
def fAxpyIn (right : Bool) (ALPHA : Scal F) (x : Quat F) : Quat F :=
  let x := { x with re := (fAxpyV right ALPHA x x).re }
  let x := { x with i := (fAxpyV right ALPHA x x).i }
  let x := { x with j := (fAxpyV right ALPHA x x).j }
  { x with k := (fAxpyV right ALPHA x x).k }

theorem haxpydh_10_self {m : Mem F} {X I : Int} {q : Quat F} {al : F} (right : Bool) (hx : readQ m (X + 4 * (I - 1)) = some q) :
    wp (haxpydh_10_I al X X I) m (fun _ m' => m' = writeQ m (X + 4 * (I - 1)) (fAxpyIn right (.d al) q)) := by
  unfold haxpydh_10_I
  simp only [el2r_1, el2r_2, el2r_3, el2r_4, wp_bind, wp_pure,
    wp_rd0 hx, wp_rd1 hx, wp_rd2 hx, wp_rd3 hx, wp_wr0 hx,
    wp_rd0 (readQ_writeQ_same _ _ _), wp_rd1 (readQ_writeQ_same _ _ _), wp_wr1 (readQ_writeQ_same _ _ _),
    wp_rd2 (readQ_writeQ_same _ _ _), wp_wr2 (readQ_writeQ_same _ _ _),
    wp_rd3 (readQ_writeQ_same _ _ _), wp_wr3 (readQ_writeQ_same _ _ _), writeQ_writeQ, true_and]
  rfl

theorem haxpydh_20_self {m : Mem F} {X I IX INC : Int} {q : Quat F} {al : F} (right : Bool) (hx : readQ m (X + 4 * (IX - 1)) = some q) :
    wp (haxpydh_20_I al INC INC X X I IX IX) m (fun s m' => s = (IX + INC, IX + INC) ∧ m' = writeQ m (X + 4 * (IX - 1)) (fAxpyIn right (.d al) q)) := by
  unfold haxpydh_20_I
  simp only [el2r_1, el2r_2, el2r_3, el2r_4, wp_bind, wp_pure,
    wp_rd0 hx, wp_rd1 hx, wp_rd2 hx, wp_rd3 hx, wp_wr0 hx,
    wp_rd0 (readQ_writeQ_same _ _ _), wp_rd1 (readQ_writeQ_same _ _ _), wp_wr1 (readQ_writeQ_same _ _ _),
    wp_rd2 (readQ_writeQ_same _ _ _), wp_wr2 (readQ_writeQ_same _ _ _),
    wp_rd3 (readQ_writeQ_same _ _ _), wp_wr3 (readQ_writeQ_same _ _ _), writeQ_writeQ, true_and]
  rfl

theorem haxpych_10_self {m : Mem F} {X I : Int} {q : Quat F} {al : Cplx F} (hx : readQ m (X + 4 * (I - 1)) = some q) :
    wp (haxpych_10_I al X X I) m (fun _ m' => m' = writeQ m (X + 4 * (I - 1)) (fAxpyIn false (.z al) q)) := by
  unfold haxpych_10_I
  simp only [el2r_1, el2r_2, el2r_3, el2r_4, wp_bind, wp_pure,
    wp_rd0 hx, wp_rd1 hx, wp_rd2 hx, wp_rd3 hx, wp_wr0 hx,
    wp_rd0 (readQ_writeQ_same _ _ _), wp_rd1 (readQ_writeQ_same _ _ _), wp_wr1 (readQ_writeQ_same _ _ _),
    wp_rd2 (readQ_writeQ_same _ _ _), wp_wr2 (readQ_writeQ_same _ _ _),
    wp_rd3 (readQ_writeQ_same _ _ _), wp_wr3 (readQ_writeQ_same _ _ _), writeQ_writeQ, true_and]
  rfl

theorem haxpych_20_self {m : Mem F} {X I : Int} {q : Quat F} {al : Cplx F} (hx : readQ m (X + 4 * (I - 1)) = some q) :
    wp (haxpych_20_I al X X I) m (fun _ m' => m' = writeQ m (X + 4 * (I - 1)) (fAxpyIn true (.z al) q)) := by
  unfold haxpych_20_I
  simp only [el2r_1, el2r_2, el2r_3, el2r_4, wp_bind, wp_pure,
    wp_rd0 hx, wp_rd1 hx, wp_rd2 hx, wp_rd3 hx, wp_wr0 hx,
    wp_rd0 (readQ_writeQ_same _ _ _), wp_rd1 (readQ_writeQ_same _ _ _), wp_wr1 (readQ_writeQ_same _ _ _),
    wp_rd2 (readQ_writeQ_same _ _ _), wp_wr2 (readQ_writeQ_same _ _ _),
    wp_rd3 (readQ_writeQ_same _ _ _), wp_wr3 (readQ_writeQ_same _ _ _), writeQ_writeQ, true_and]
  rfl

theorem haxpych_30_self {m : Mem F} {X I IX INC : Int} {q : Quat F} {al : Cplx F} (hx : readQ m (X + 4 * (IX - 1)) = some q) :
    wp (haxpych_30_I al INC INC X X I IX IX) m (fun s m' => s = (IX + INC, IX + INC) ∧ m' = writeQ m (X + 4 * (IX - 1)) (fAxpyIn false (.z al) q)) := by
  unfold haxpych_30_I
  simp only [el2r_1, el2r_2, el2r_3, el2r_4, wp_bind, wp_pure,
    wp_rd0 hx, wp_rd1 hx, wp_rd2 hx, wp_rd3 hx, wp_wr0 hx,
    wp_rd0 (readQ_writeQ_same _ _ _), wp_rd1 (readQ_writeQ_same _ _ _), wp_wr1 (readQ_writeQ_same _ _ _),
    wp_rd2 (readQ_writeQ_same _ _ _), wp_wr2 (readQ_writeQ_same _ _ _),
    wp_rd3 (readQ_writeQ_same _ _ _), wp_wr3 (readQ_writeQ_same _ _ _), writeQ_writeQ, true_and]
  rfl

theorem haxpych_40_self {m : Mem F} {X I IX INC : Int} {q : Quat F} {al : Cplx F} (hx : readQ m (X + 4 * (IX - 1)) = some q) :
    wp (haxpych_40_I al INC INC X X I IX IX) m (fun s m' => s = (IX + INC, IX + INC) ∧ m' = writeQ m (X + 4 * (IX - 1)) (fAxpyIn true (.z al) q)) := by
  unfold haxpych_40_I
  simp only [el2r_1, el2r_2, el2r_3, el2r_4, wp_bind, wp_pure,
    wp_rd0 hx, wp_rd1 hx, wp_rd2 hx, wp_rd3 hx, wp_wr0 hx,
    wp_rd0 (readQ_writeQ_same _ _ _), wp_rd1 (readQ_writeQ_same _ _ _), wp_wr1 (readQ_writeQ_same _ _ _),
    wp_rd2 (readQ_writeQ_same _ _ _), wp_wr2 (readQ_writeQ_same _ _ _),
    wp_rd3 (readQ_writeQ_same _ _ _), wp_wr3 (readQ_writeQ_same _ _ _), writeQ_writeQ, true_and]
  rfl

theorem haxpyhh_10_self {m : Mem F} {X I : Int} {q : Quat F} {al : Quat F} (hx : readQ m (X + 4 * (I - 1)) = some q) :
    wp (haxpyhh_10_I al X X I) m (fun _ m' => m' = writeQ m (X + 4 * (I - 1)) (fAxpyIn false (.h al) q)) := by
  unfold haxpyhh_10_I
  simp only [el2r_1, el2r_2, el2r_3, el2r_4, wp_bind, wp_pure,
    wp_rd0 hx, wp_rd1 hx, wp_rd2 hx, wp_rd3 hx, wp_wr0 hx,
    wp_rd0 (readQ_writeQ_same _ _ _), wp_rd1 (readQ_writeQ_same _ _ _), wp_wr1 (readQ_writeQ_same _ _ _),
    wp_rd2 (readQ_writeQ_same _ _ _), wp_wr2 (readQ_writeQ_same _ _ _),
    wp_rd3 (readQ_writeQ_same _ _ _), wp_wr3 (readQ_writeQ_same _ _ _), writeQ_writeQ, true_and]
  rfl

theorem haxpyhh_20_self {m : Mem F} {X I : Int} {q : Quat F} {al : Quat F} (hx : readQ m (X + 4 * (I - 1)) = some q) :
    wp (haxpyhh_20_I al X X I) m (fun _ m' => m' = writeQ m (X + 4 * (I - 1)) (fAxpyIn true (.h al) q)) := by
  unfold haxpyhh_20_I
  simp only [el2r_1, el2r_2, el2r_3, el2r_4, wp_bind, wp_pure,
    wp_rd0 hx, wp_rd1 hx, wp_rd2 hx, wp_rd3 hx, wp_wr0 hx,
    wp_rd0 (readQ_writeQ_same _ _ _), wp_rd1 (readQ_writeQ_same _ _ _), wp_wr1 (readQ_writeQ_same _ _ _),
    wp_rd2 (readQ_writeQ_same _ _ _), wp_wr2 (readQ_writeQ_same _ _ _),
    wp_rd3 (readQ_writeQ_same _ _ _), wp_wr3 (readQ_writeQ_same _ _ _), writeQ_writeQ, true_and]
  rfl

theorem haxpyhh_30_self {m : Mem F} {X I IX INC : Int} {q : Quat F} {al : Quat F} (hx : readQ m (X + 4 * (IX - 1)) = some q) :
    wp (haxpyhh_30_I al INC INC X X I IX IX) m (fun s m' => s = (IX + INC, IX + INC) ∧ m' = writeQ m (X + 4 * (IX - 1)) (fAxpyIn false (.h al) q)) := by
  unfold haxpyhh_30_I
  simp only [el2r_1, el2r_2, el2r_3, el2r_4, wp_bind, wp_pure,
    wp_rd0 hx, wp_rd1 hx, wp_rd2 hx, wp_rd3 hx, wp_wr0 hx,
    wp_rd0 (readQ_writeQ_same _ _ _), wp_rd1 (readQ_writeQ_same _ _ _), wp_wr1 (readQ_writeQ_same _ _ _),
    wp_rd2 (readQ_writeQ_same _ _ _), wp_wr2 (readQ_writeQ_same _ _ _),
    wp_rd3 (readQ_writeQ_same _ _ _), wp_wr3 (readQ_writeQ_same _ _ _), writeQ_writeQ, true_and]
  rfl

theorem haxpyhh_40_self {m : Mem F} {X I IX INC : Int} {q : Quat F} {al : Quat F} (hx : readQ m (X + 4 * (IX - 1)) = some q) :
    wp (haxpyhh_40_I al INC INC X X I IX IX) m (fun s m' => s = (IX + INC, IX + INC) ∧ m' = writeQ m (X + 4 * (IX - 1)) (fAxpyIn true (.h al) q)) := by
  unfold haxpyhh_40_I
  simp only [el2r_1, el2r_2, el2r_3, el2r_4, wp_bind, wp_pure,
    wp_rd0 hx, wp_rd1 hx, wp_rd2 hx, wp_rd3 hx, wp_wr0 hx,
    wp_rd0 (readQ_writeQ_same _ _ _), wp_rd1 (readQ_writeQ_same _ _ _), wp_wr1 (readQ_writeQ_same _ _ _),
    wp_rd2 (readQ_writeQ_same _ _ _), wp_wr2 (readQ_writeQ_same _ _ _),
    wp_rd3 (readQ_writeQ_same _ _ _), wp_wr3 (readQ_writeQ_same _ _ _), writeQ_writeQ, true_and]
  rfl

/-- Fortran AXPYV in place. -/
theorem axpyvF_self {m0 : Mem F} {SIDE : Char} {N X INCX : Int} {ALPHA : Scal F} {x : Nat → Quat F} (hinc : INCX ≠ 0)
    (hX : VecAt m0 (fbase X N INCX) INCX N.toNat x) :
    wp (axpyvF SIDE N ALPHA X INCX X INCX) m0 (fun _ m =>
      VecAt m (fbase X N INCX) INCX N.toNat (fun i => if ALPHA.vIsZero then x i else fAxpyIn (lsame 'R' SIDE) ALPHA (x i)) ∧
      SameOutside (VecCell (fbase X N INCX) INCX N.toNat) m0 m) := by
  by_cases hN : N ≤ 0
  · have h0 : N.toNat = 0 := by omega
    have : wp (axpyvF SIDE N ALPHA X INCX X INCX) m0 (fun _ m => m = m0) := by
      cases ALPHA <;> simp [axpyvF, haxpydh, haxpych, haxpyhh, hN, wp_pure]
    refine wp_mono this ?_
    rintro _ m rfl
    exact ⟨fun i hi => by omega, fun _ _ => rfl⟩
  cases hz : ALPHA.vIsZero with
  | true =>
    have : wp (axpyvF SIDE N ALPHA X INCX X INCX) m0 (fun _ m => m = m0) := by
      cases ALPHA with
      | d a =>
        have hz' : (a ==ᶠ zero) = true := hz
        simp only [axpyvF, haxpydh, hN, hz', decide_false, Bool.false_eq_true, if_false, if_true,
          wp_pure]
      | z a =>
        have hz' : ((a.re ==ᶠ zero) && (a.im ==ᶠ zero)) = true := hz
        simp only [axpyvF, haxpych, hN, hz', decide_false, Bool.false_eq_true, if_false, if_true,
          wp_pure]
      | h a =>
        have hz' : ((((a.re ==ᶠ zero) && (a.i ==ᶠ zero)) && (a.j ==ᶠ zero)) && (a.k ==ᶠ zero)) =
          true := hz
        simp only [axpyvF, haxpyhh, hN, hz', decide_false, Bool.false_eq_true, if_false, if_true,
          wp_pure]
    refine wp_mono this ?_
    rintro _ m rfl
    exact ⟨fun i hi => by dsimp only; rw [if_pos rfl]; exact hX i hi, fun _ _ => rfl⟩
  | false =>
    simp only [Bool.false_eq_true, if_false]
    cases ALPHA with
    | d a =>
      have hz' : (a ==ᶠ zero) = false := hz
      simp only [axpyvF, haxpydh, hN, hz', decide_false, Bool.false_eq_true, if_false, wp_bind,
        wp_pure]
      unfold haxpydh_if21
      by_cases h1 : INCX = 1
      · obtain rfl := h1
        rw [fbase_one] at *
        simp only [decide_true, Bool.and_self, if_true, wp_bind, wp_pure]
        exact fort_unit1 _ (fun m I q hx => haxpydh_10_self _ hx) hX
      · have h1' : (decide (INCX = 1) && decide (INCX = 1)) = false := by simpa using h1
        simp only [h1', Bool.false_eq_true, if_false, wp_bind, wp_fidx, wp_pure]
        rw [← fidx X] at *
        exact fort_self _ (fun m I IX q hx => haxpydh_20_self (I := I) _ hx) hinc hX
    | z a =>
      have hz' : ((a.re ==ᶠ zero) && (a.im ==ᶠ zero)) = false := hz
      simp only [axpyvF, haxpych, hN, hz', decide_false, Bool.false_eq_true, if_false, wp_bind,
        wp_pure]
      unfold haxpych_if24
      by_cases h1 : INCX = 1
      · obtain rfl := h1
        rw [fbase_one] at *
        simp only [decide_true, Bool.and_self, if_true, wp_bind, wp_pure]
        unfold haxpych_if25
        cases lsame 'R' SIDE
        · simp only [Bool.not_false, if_true, wp_bind, wp_pure]
          exact fort_unit1 _ (fun m I q hx => haxpych_10_self hx) hX
        · simp only [Bool.not_true, Bool.false_eq_true, if_false, wp_bind, wp_pure]
          exact fort_unit1 _ (fun m I q hx => haxpych_20_self hx) hX
      · have h1' : (decide (INCX = 1) && decide (INCX = 1)) = false := by simpa using h1
        simp only [h1', Bool.false_eq_true, if_false, wp_bind, wp_fidx, wp_pure]
        rw [← fidx X] at *
        unfold haxpych_if49
        cases lsame 'R' SIDE
        · simp only [Bool.not_false, if_true, wp_bind, wp_pure]
          exact fort_self _ (fun m I IX q hx => haxpych_30_self (I := I) hx) hinc hX
        · simp only [Bool.not_true, Bool.false_eq_true, if_false, wp_bind, wp_pure]
          exact fort_self _ (fun m I IX q hx => haxpych_40_self (I := I) hx) hinc hX
    | h a =>
      have hz' : ((((a.re ==ᶠ zero) && (a.i ==ᶠ zero)) && (a.j ==ᶠ zero)) && (a.k ==ᶠ zero)) = false := hz
      simp only [axpyvF, haxpyhh, hN, hz', decide_false, Bool.false_eq_true, if_false, wp_bind,
        wp_pure]
      unfold haxpyhh_if25
      by_cases h1 : INCX = 1
      · obtain rfl := h1
        rw [fbase_one] at *
        simp only [decide_true, Bool.and_self, if_true, wp_bind, wp_pure]
        unfold haxpyhh_if26
        cases lsame 'R' SIDE
        · simp only [Bool.not_false, if_true, wp_bind, wp_pure]
          exact fort_unit1 _ (fun m I q hx => haxpyhh_10_self hx) hX
        · simp only [Bool.not_true, Bool.false_eq_true, if_false, wp_bind, wp_pure]
          exact fort_unit1 _ (fun m I q hx => haxpyhh_20_self hx) hX
      · have h1' : (decide (INCX = 1) && decide (INCX = 1)) = false := by simpa using h1
        simp only [h1', Bool.false_eq_true, if_false, wp_bind, wp_fidx, wp_pure]
        rw [← fidx X] at *
        unfold haxpyhh_if64
        cases lsame 'R' SIDE
        · simp only [Bool.not_false, if_true, wp_bind, wp_pure]
          exact fort_self _ (fun m I IX q hx => haxpyhh_30_self (I := I) hx) hinc hX
        · simp only [Bool.not_true, Bool.false_eq_true, if_false, wp_bind, wp_pure]
          exact fort_self _ (fun m I IX q hx => haxpyhh_40_self (I := I) hx) hinc hX

end

section
variable {R : Type} [CommRing R] [DecidableEq R]

theorem vIsZero_toH0 {s : Scal R} (h : s.vIsZero = true) : s.toH = 0 := by
  cases s with
  | d a =>
    have h : a = 0 := of_decide_eq_true h
    ext <;> simp [Scal.toH, h]
  | z a =>
    simp only [Scal.vIsZero, Bool.and_eq_true] at h
    have h1 : a.re = 0 := of_decide_eq_true h.1
    have h2 : a.im = 0 := of_decide_eq_true h.2
    ext <;> simp [Scal.toH, h1, h2]
  | h a =>
    simp only [Scal.vIsZero, Bool.and_eq_true] at h
    have h1 : a.re = 0 := of_decide_eq_true h.1.1.1
    have h2 : a.i = 0 := of_decide_eq_true h.1.1.2
    have h3 : a.j = 0 := of_decide_eq_true h.1.2
    have h4 : a.k = 0 := of_decide_eq_true h.2
    ext <;> simp [Scal.toH, h1, h2, h3, h4]

/-- C48, AXPYV (Fortran): `y := y + ALPHA x` with the old x, if no element of x shares a cell with the element of y of
the same index or an earlier one (increments of either sign; element i is at `fbase + 4 i INC`). -/
theorem C48_axpyv_fortran (m : Mem R) (SIDE : Char) (N X INCX Y INCY : Int) (ALPHA : Scal R) (x y : Nat → Quat R)
    (hX : VecAt m (fbase X N INCX) INCX N.toNat x) (hY : VecAt m (fbase Y N INCY) INCY N.toNat y) (hinc : INCY ≠ 0)
    (hr : ReadBefore (fbase X N INCX) INCX (fbase Y N INCY) INCY N.toNat) :
    ∃ m', axpyvF SIDE N ALPHA X INCX Y INCY m = .ok ((), m') ∧
      VecAt m' (fbase Y N INCY) INCY N.toNat (fun i => Quat.ofH ((y i).toH +
        (if SIDE = 'R' ∨ SIDE = 'r' then (x i).toH * ALPHA.toH else ALPHA.toH * (x i).toH))) ∧
      SameOutside (VecCell (fbase Y N INCY) INCY N.toNat) m m' := by
  obtain ⟨_, m', h, h1, h2⟩ := axpyvF_ahead (SIDE := SIDE) (ALPHA := ALPHA) hinc hX hY hr
  refine ⟨m', h, fun i hi => ?_, h2⟩
  rw [h1 i hi]
  refine congrArg some (eq_ofH ?_)
  dsimp only
  cases hz : ALPHA.vIsZero with
  | true => rw [if_pos rfl, vIsZero_toH0 hz]; simp
  | false =>
    rw [if_neg Bool.false_ne_true, toH_fAxpyV]
    simp only [lsame_R_iff]

/-- C48, in-place AXPYV (Fortran), for every ALPHA: what is left in each element. The components are assigned one after
the other, each from the element as the assignments before left it. -/
theorem C48_axpyv_self_fortran (m : Mem R) (SIDE : Char) (N X INCX : Int) (ALPHA : Scal R) (x : Nat → Quat R)
    (hX : VecAt m (fbase X N INCX) INCX N.toNat x) (hinc : INCX ≠ 0) :
    ∃ m', axpyvF SIDE N ALPHA X INCX X INCX m = .ok ((), m') ∧
      SameOutside (VecCell (fbase X N INCX) INCX N.toNat) m m' ∧
      ∃ v : Nat → Quat R, VecAt m' (fbase X N INCX) INCX N.toNat v ∧ ∀ i, i < N.toNat →
        let f : Quat R → ℍ[R] := fun q => q.toH + (if SIDE = 'R' ∨ SIDE = 'r' then q.toH * ALPHA.toH else ALPHA.toH * q.toH)
        (v i).re = (f (x i)).re ∧
        (v i).i = (f ⟨(v i).re, (x i).i, (x i).j, (x i).k⟩).imI ∧
        (v i).j = (f ⟨(v i).re, (v i).i, (x i).j, (x i).k⟩).imJ ∧
        (v i).k = (f ⟨(v i).re, (v i).i, (v i).j, (x i).k⟩).imK := by
  obtain ⟨_, m', h, h1, h2⟩ := axpyvF_self (SIDE := SIDE) (ALPHA := ALPHA) hinc hX
  refine ⟨m', h, h2, _, h1, fun i hi => ?_⟩
  cases hz : ALPHA.vIsZero with
  | true => simp [vIsZero_toH0 hz]
  | false =>
    dsimp only
    rw [if_neg Bool.false_ne_true]
    have e : ∀ q : Quat R, q.toH + (if SIDE = 'R' ∨ SIDE = 'r' then q.toH * ALPHA.toH else ALPHA.toH * q.toH) =
        (fAxpyV (lsame 'R' SIDE) ALPHA q q).toH := by
      intro q; rw [toH_fAxpyV]; simp only [lsame_R_iff]
    simp only [e]
    exact ⟨rfl, rfl, rfl, rfl⟩

/-- C48, in-place AXPYV (Fortran) with a real ALPHA: `x := (1 + ALPHA) x`. -/
theorem C48_axpyv_self_fortran_real (m : Mem R) (SIDE : Char) (N X INCX : Int) (r : R) (x : Nat → Quat R)
    (hX : VecAt m (fbase X N INCX) INCX N.toNat x) (hinc : INCX ≠ 0) :
    ∃ m', axpyvF SIDE N (.d r) X INCX X INCX m = .ok ((), m') ∧
      VecAt m' (fbase X N INCX) INCX N.toNat (fun i => Quat.ofH ((1 + r) • (x i).toH)) ∧
      SameOutside (VecCell (fbase X N INCX) INCX N.toNat) m m' := by
  obtain ⟨m', h, h2, v, h1, hv⟩ := C48_axpyv_self_fortran m SIDE N X INCX (.d r) x hX hinc
  refine ⟨m', h, fun i hi => ?_, h2⟩
  rw [h1 i hi]
  obtain ⟨e1, e2, e3, e4⟩ := hv i hi
  refine congrArg some (eq_ofH ?_)
  ext
  · by_cases hs : SIDE = 'R' ∨ SIDE = 'r' <;> simp [hs, Scal.toH] at e1 ⊢ <;> rw [e1] <;> ring
  · by_cases hs : SIDE = 'R' ∨ SIDE = 'r' <;> simp [hs, Scal.toH] at e2 ⊢ <;> rw [e2] <;> ring
  · by_cases hs : SIDE = 'R' ∨ SIDE = 'r' <;> simp [hs, Scal.toH] at e3 ⊢ <;> rw [e3] <;> ring
  · by_cases hs : SIDE = 'R' ∨ SIDE = 'r' <;> simp [hs, Scal.toH] at e4 ⊢ <;> rw [e4] <;> ring

/-- Entries of the Gram matrix of the first K rows of A: Hermitian, with the sums of squares on the diagonal. -/
def IsGram (K : Nat) (Av G : Nat → Nat → Quat R) : Prop :=
  (∀ i j, (G i j).toH = ∑ k ∈ range K, star (Av k i).toH * (Av k j).toH) ∧
  (∀ i j, G j i = (G i j).conj) ∧
  (∀ i, (G i i).re = ∑ k ∈ range K, ((Av k i).re ^ 2 + (Av k i).i ^ 2 + (Av k i).j ^ 2 + (Av k i).k ^ 2) ∧
    (G i i).toH = ((G i i).re : ℍ[R]))

omit [DecidableEq R] in
theorem isGram (K : Nat) (Av : Nat → Nat → Quat R) :
    IsGram K Av (fun i j => Quat.ofH (∑ k ∈ range K, star (Av k i).toH * (Av k j).toH)) := by
  have hg : ∀ i j, (Quat.ofH (∑ k ∈ range K, star (Av k i).toH * (Av k j).toH)).toH =
    ∑ k ∈ range K, star (Av k i).toH * (Av k j).toH := fun i j => toH_ofH _
  have dg : ∀ i, ∑ k ∈ range K, star (Av k i).toH * (Av k i).toH =
      ((∑ k ∈ range K, ((Av k i).re ^ 2 + (Av k i).i ^ 2 + (Av k i).j ^ 2 + (Av k i).k ^ 2) : R) : ℍ[R]) := by
    intro i
    induction K with
    | zero => simp
    | succ n ih =>
      rw [sum_range_succ, sum_range_succ, ih (fun i j => toH_ofH _), Quaternion.coe_add]
      congr 1
      apply Quaternion.ext (R := R)
      · rw [Quaternion.re_coe]; simp; ring
      · rw [Quaternion.imI_coe]; simp; ring
      · rw [Quaternion.imJ_coe]; simp; ring
      · rw [Quaternion.imK_coe]; simp; ring
  refine ⟨hg, ?_, ?_⟩
  · intro i j
    rw [← toH_inj, toH_conj, hg, hg, star_sum]
    exact Finset.sum_congr rfl (fun k _ => by rw [star_mul, star_star])
  · intro i
    dsimp only
    rw [dg]
    refine ⟨?_, ?_⟩
    · unfold Quat.ofH; rw [Quaternion.re_coe]
    · rw [toH_ofH]; unfold Quat.ofH; rw [Quaternion.re_coe]

omit [DecidableEq R] in
theorem gram_entry {K : Nat} {Av Cv : Nat → Nat → Quat R} {i j : Nat} :
    (Scal.d (1:R)).toH * ∑ k ∈ range K, star (Av k i).toH * (Av k j).toH + (Scal.d (0:R)).toH * (Cv i j).toH =
      ∑ k ∈ range K, star (Av k i).toH * (Av k j).toH := by
  have e1 : (Scal.d (1:R)).toH = 1 := by ext <;> simp [Scal.toH]
  have e0 : (Scal.d (0:R)).toH = 0 := by ext <;> simp [Scal.toH]
  rw [e1, e0, one_mul, zero_mul, add_zero]

/-- C48, GEMM (Fortran) with B = A, TRANSA = C, ALPHA = 1, BETA = 0. -/
theorem C48_gemm_gram_fortran (m : Mem R) (N K : Int) (A LDA C LDC : Int) (Av Cv : Nat → Nat → Quat R)
    (hA : MatAt m A LDA K.toNat N.toNat Av) (hC : MatAt m C LDC N.toNat N.toNat Cv) (hld : N ≤ LDC)
    (hAC : Apart (MatCell A LDA K.toNat N.toNat) (MatCell C LDC N.toNat N.toNat)) :
    ∃ m' G, hgemmF 'C' 'N' N N K (.d 1) A LDA A LDA (.d 0) C LDC m = .ok ((), m') ∧
      MatAt m' C LDC N.toNat N.toNat G ∧ IsGram K.toNat Av G ∧ SameOutside (MatCell C LDC N.toNat N.toNat) m m' := by
  obtain ⟨m', h1, h2, h3⟩ := C28_gemm_fortran m 'C' 'N' N N K (.d 1) (.d 0) A LDA A LDA C LDC Av Av Cv _ _
    (.inr (.inr ⟨.inl rfl, fun _ _ => rfl⟩)) (.inl ⟨.inl rfl, fun _ _ => rfl⟩) (fun _ => hA) (fun _ => hA) hC hld hAC hAC
  refine ⟨m', _, h1, ?_, isGram K.toNat Av, h3⟩
  intro i j hi hj
  rw [h2 i j hi hj]
  exact congrArg some (congrArg Quat.ofH gram_entry)

/-- C48, GEMM (portable) with B = A, TRANSA = C, ALPHA = 1, BETA = 0. -/
theorem C48_gemm_gram_portable (m : Mem R) (N K : Int) (A LDA C LDC : Int) (Av Cv : Nat → Nat → Quat R)
    (hA : MatAt m A LDA K.toNat N.toNat Av) (hC : MatAt m C LDC N.toNat N.toNat Cv) (hld : N ≤ LDC)
    (hAC : Apart (MatCell A LDA K.toNat N.toNat) (MatCell C LDC N.toNat N.toNat))
    (fitA : ∀ l : Nat, l < N.toNat → Fits32 (l * LDA)) (fitC : ∀ l : Nat, l < N.toNat → Fits32 (l * LDC)) :
    ∃ m' G, gemmGen .h 'C' 'N' N N K (.d 1) A LDA A LDA (.d 0) C LDC m = .ok ((), m') ∧
      MatAt m' C LDC N.toNat N.toNat G ∧ IsGram K.toNat Av G ∧ SameOutside (MatCell C LDC N.toNat N.toNat) m m' := by
  obtain ⟨m', h1, h2, h3⟩ := C29_gemm_portable m .h 'C' 'N' N N K (.d 1) (.d 0) A LDA A LDA C LDC (fun i j => .h (Av i j)) Av Cv _ _
    (.inr (.inr ⟨rfl, fun _ _ => rfl⟩)) (.inl ⟨rfl, fun _ _ => rfl⟩)
    { hA := fun _ i j hi hj => by
        have := hA i j hi hj
        simp only [readK, Kind.width] at this ⊢
        rw [this]
      hB := fun _ => hA
      hC := hC
      hld := hld
      fitA := fitA
      fitB := fitA
      fitC := fitC
      hAC := by
        rintro a ⟨i, j, hi, hj, h1, h2⟩ h3
        exact hAC a ⟨i, j, hi, hj, h1, h2⟩ h3
      hBC := hAC } (Scal.plain_d 1) (Scal.plain_d 0)
  refine ⟨m', _, h1, ?_, isGram K.toNat Av, h3⟩
  intro i j hi hj
  rw [h2 i j hi hj]
  exact congrArg some (congrArg Quat.ofH gram_entry)

/-- C48, GERC with x = y and a real ALPHA on a Hermitian matrix: it stays Hermitian (Fortran for INCX = 1, portable if no
element of x is `ck` with c ≠ 0). -/
theorem C48_gerc_self (m : Mem R) (N : Int) (r : R) (X INCX A LDA : Int) (x : Nat → Quat R) (a : Nat → Nat → Quat R)
    (hh : ∀ i j, i < N.toNat → j < N.toNat → a j i = (a i j).conj) :
    (GerArgs m N N X 1 X 1 A LDA x x a → ∃ m' V, gercF N N (.d r) X 1 X 1 A LDA m = .ok ((), m') ∧
      MatAt m' A LDA N.toNat N.toNat V ∧
      (∀ i j, i < N.toNat → j < N.toNat → V j i = (V i j).conj ∧ (V i j).toH = (a i j).toH + r • ((x i).toH * star (x j).toH))) ∧
    (GerKArgs m N N X INCX X INCX A LDA x x a → (∀ j, j < N.toNat → ¬ (x j).PureK) →
      ∃ m' V, gerGen true N N (.d r) X INCX X INCX A LDA m = .ok ((), m') ∧
      MatAt m' A LDA N.toNat N.toNat V ∧
      (∀ i j, i < N.toNat → j < N.toNat → V j i = (V i j).conj ∧ (V i j).toH = (a i j).toH + r • ((x i).toH * star (x j).toH))) := by
  have key : ∀ i j, i < N.toNat → j < N.toNat →
      Quat.ofH ((a j i).toH + (Scal.d r).toH * (x j).toH * star (x i).toH) =
        (Quat.ofH ((a i j).toH + (Scal.d r).toH * (x i).toH * star (x j).toH)).conj ∧
      (Quat.ofH ((a i j).toH + (Scal.d r).toH * (x i).toH * star (x j).toH)).toH =
        (a i j).toH + r • ((x i).toH * star (x j).toH) := by
    intro i j hi hj
    have e : ∀ z w : ℍ[R], (Scal.d r).toH * z * w = r • (z * w) := by
      intro z w
      have : (Scal.d r).toH = (r : ℍ[R]) := by ext <;> simp [Scal.toH]
      rw [this, mul_assoc, Quaternion.coe_mul_eq_smul]
    refine ⟨?_, ?_⟩
    · rw [← toH_inj, toH_conj, toH_ofH, toH_ofH, e, e, hh i j hi hj, toH_conj, star_add]
      congr 1
      rw [Quaternion.star_smul, star_mul, star_star]
    · rw [toH_ofH, e]
  constructor
  · intro h
    obtain ⟨m', h1, h2, _⟩ := C31_gerc_partial m N N (.d r) X 1 X 1 A LDA x x a h (fun _ _ => rfl)
    exact ⟨m', _, h1, h2, key⟩
  · intro h hk
    obtain ⟨m', h1, h2, _⟩ := C31_gerc_portable_partial m N N (.d r) X INCX X INCX A LDA x x a h (Scal.plain_d r) hk
    exact ⟨m', _, h1, h2, key⟩

end

/-! ### In-place AXPYV in Fortran is right only for real ALPHA -/

open Classical in
/-- C48, in-place AXPYV (Fortran), exactly: it computes `(1 + ALPHA) x` (or `x (1 + ALPHA)`) for all x if and only if the
imaginary part of ALPHA is zero. N ≥ 1; the other builds do it for every ALPHA (`C48_axpyv_self`). -/
theorem C48_axpyv_self_fortran_violated (SIDE : Char) (N X INCX : Int) (ALPHA : Scal ℝ) (hN : 0 < N) (hinc : INCX ≠ 0) :
    (∀ (m : Mem ℝ) (x : Nat → Quat ℝ), VecAt m (fbase X N INCX) INCX N.toNat x →
      ∃ m', axpyvF SIDE N ALPHA X INCX X INCX m = .ok ((), m') ∧
        VecAt m' (fbase X N INCX) INCX N.toNat (fun i => Quat.ofH
          (if SIDE = 'R' ∨ SIDE = 'r' then (x i).toH * (1 + ALPHA.toH) else (1 + ALPHA.toH) * (x i).toH))) ↔
      ALPHA.toH.imI = 0 ∧ ALPHA.toH.imJ = 0 ∧ ALPHA.toH.imK = 0 := by
  constructor
  · intro hall
    by_contra hc
    -- every element is the imaginary part of ALPHA
    let q : Quat ℝ := ⟨0, ALPHA.toH.imI, ALPHA.toH.imJ, ALPHA.toH.imK⟩
    let m : Mem ℝ := fun a => let r := (a - fbase X N INCX) % 4
      if r = 0 then some q.re else if r = 1 then some q.i else if r = 2 then some q.j else some q.k
    have hX : VecAt m (fbase X N INCX) INCX N.toNat (fun _ => q) := by
      intro i _
      have e : ∀ d : Int, (fbase X N INCX + 4 * ((i:Int) * INCX) + d - fbase X N INCX) % 4 = d % 4 := by
        intro d
        rw [show fbase X N INCX + 4 * ((i:Int) * INCX) + d - fbase X N INCX = d + 4 * ((i:Int) * INCX) by ring,
          Int.add_mul_emod_self_left]
      rw [readQ_eq_some]
      have e0 := e 0
      rw [add_zero] at e0
      refine ⟨?_, ?_, ?_, ?_⟩ <;> simp only [m, e0, e] <;> rfl
    obtain ⟨m1, h1, h2⟩ := hall m _ hX
    obtain ⟨m2, h3, hso, v, h4, hv⟩ := C48_axpyv_self_fortran m SIDE N X INCX ALPHA _ hX hinc
    have h0 : (0:Nat) < N.toNat := by omega
    have em : m1 = m2 := by rw [h1] at h3; injection h3 with h3; exact (Prod.mk.inj h3).2
    subst em
    have ev := Option.some.inj ((h2 0 h0).symm.trans (h4 0 h0))
    obtain ⟨e1, e2, e3, e4⟩ := hv 0 h0
    rw [← ev] at e1 e2 e3 e4
    clear ev hv h4 h3 h2 h1 hX hso
    simp only [q] at e1 e2 e3 e4
    clear hall
    clear m
    clear q
    generalize ALPHA.toH = α at *
    by_cases hs : SIDE = 'R' ∨ SIDE = 'r' <;>
      simp [hs, Quat.ofH] at e2 e3 e4 <;>
      (apply hc
       have hi : α.imI = 0 := by
         by_contra h
         have : 0 < α.imI ^ 2 := by positivity
         have := mul_ne_zero h (show α.imI * α.imI + α.imJ * α.imJ + α.imK * α.imK ≠ 0 by nlinarith [sq_nonneg α.imJ, sq_nonneg α.imK])
         apply this
         linarith
       rw [hi] at e3 e4
       have hj : α.imJ = 0 := by
         by_contra h
         have : 0 < α.imJ ^ 2 := by positivity
         have := mul_ne_zero h (show α.imJ * α.imJ + α.imK * α.imK ≠ 0 by nlinarith [sq_nonneg α.imK])
         apply this
         linarith
       rw [hj] at e4
       have hk : α.imK = 0 := by
         by_contra h
         have := mul_ne_zero h (mul_ne_zero h h)
         apply this
         linarith
       exact ⟨hi, hj, hk⟩)
  · rintro ⟨hi, hj, hk⟩ m x hX
    obtain ⟨m', h, _, v, h1, hv⟩ := C48_axpyv_self_fortran m SIDE N X INCX ALPHA x hX hinc
    refine ⟨m', h, fun i hi' => ?_⟩
    rw [h1 i hi']
    obtain ⟨e1, e2, e3, e4⟩ := hv i hi'
    refine congrArg some (eq_ofH ?_)
    by_cases hs : SIDE = 'R' ∨ SIDE = 'r' <;> simp [hs, hi, hj, hk] at e1 e2 e3 e4 <;>
      (ext <;> simp [hs, hi, hj, hk, e1, e2, e3, e4] <;> ring)

/-! ### The hypotheses are satisfiable -/

theorem vec4_example {F : Type} (f : Int → F) (p : Int) (h1 : 0 ≤ p) (h2 : p ≤ 4) : VecAt (memOf 0 16 f) p 1 3
    (fun i => ⟨f (p + 4 * (i * 1)), f (p + 4 * (i * 1) + 1), f (p + 4 * (i * 1) + 2), f (p + 4 * (i * 1) + 3)⟩) := by
  intro i hi
  exact readQ_memOf (by omega) (by omega)

/-- `y` is three elements of a vector of four, `x` the last three; ALPHA is a quaternion. -/
example (f : Int → Int) (q : Quat Int) : ∃ m', axpyvF 'L' 3 (.h q) 4 1 0 1 (memOf 0 16 f) = .ok ((), m') ∧
    readQ m' 8 = some (Quat.ofH ((⟨f 8, f 9, f 10, f 11⟩ : Quat Int).toH + q.toH * (⟨f 12, f 13, f 14, f 15⟩ : Quat Int).toH)) := by
  obtain ⟨m', h, h1, _⟩ := C48_axpyv_fortran (memOf 0 16 f) 'L' 3 4 1 0 1 (.h q) _ _ (vec4_example f 4 (by omega) (by omega))
    (vec4_example f 0 (by omega) (by omega)) (by decide) (readBefore_shift (d := 1) (Y := 0) (INC := 1) (by decide) (by decide))
  exact ⟨m', h, h1 2 (by decide)⟩

/-- In place on a vector of three elements. -/
example (f : Int → Int) (r : Int) : ∃ m', axpyvF 'L' 3 (.d r) 4 1 4 1 (memOf 0 16 f) = .ok ((), m') ∧
    readQ m' 12 = some (Quat.ofH ((1 + r) • (⟨f 12, f 13, f 14, f 15⟩ : Quat Int).toH)) := by
  obtain ⟨m', h, h1, _⟩ := C48_axpyv_self_fortran_real (memOf 0 16 f) 'L' 3 4 1 r _ (vec4_example f 4 (by omega) (by omega)) (by decide)
  exact ⟨m', h, h1 2 (by decide)⟩

/-- `Aᴴ A` for a 2 × 3 matrix A. -/
example (f : Int → Int) :
    (∃ m' G, hgemmF 'C' 'N' 3 3 2 (.d 1) 0 2 0 2 (.d 0) 40 4 (memOf 0 100 f) = .ok ((), m') ∧ MatAt m' 40 4 3 3 G) ∧
    (∃ m' G, gemmGen .h 'C' 'N' 3 3 2 (.d 1) 0 2 0 2 (.d 0) 40 4 (memOf 0 100 f) = .ok ((), m') ∧ MatAt m' 40 4 3 3 G) := by
  have hA : MatAt (memOf 0 100 f) 0 2 2 3 (fun i j => let p : Int := 0 + 4 * (i + j * 2); ⟨f p, f (p+1), f (p+2), f (p+3)⟩) := by
    intro i j hi hj
    exact readQ_memOf (by omega) (by omega)
  have hC : MatAt (memOf 0 100 f) 40 4 3 3 (fun i j => let p : Int := 40 + 4 * (i + j * 4); ⟨f p, f (p+1), f (p+2), f (p+3)⟩) := by
    intro i j hi hj
    exact readQ_memOf (by omega) (by omega)
  have hap : Apart (MatCell 0 2 2 3) (MatCell 40 4 3 3) := by
    rintro a ⟨i, j, hi, hj, h1⟩ ⟨k, l, hk, hl, h2⟩
    unfold InQ at *; omega
  constructor
  · obtain ⟨m', G, h, h1, _⟩ := C48_gemm_gram_fortran _ 3 2 0 2 40 4 _ _ hA hC (by decide) hap
    exact ⟨m', G, h, h1⟩
  · obtain ⟨m', G, h, h1, _⟩ := C48_gemm_gram_portable _ 3 2 0 2 40 4 _ _ hA hC (by decide) hap
      (fun l hl => by have : l < 3 := hl; unfold Fits32; omega) (fun l hl => by have : l < 3 := hl; unfold Fits32; omega)
    exact ⟨m', G, h, h1⟩

/-- `I + x xᴴ`, x of two arbitrary elements. -/
example (g : Int → Int) :
    let f : Int → Int := fun a => if a = 0 ∨ a = 12 then 1 else if a < 16 then 0 else g a
    let el : Int → Quat Int := fun p => ⟨f p, f (p+1), f (p+2), f (p+3)⟩
    (∀ i j, i < (2:Int).toNat → j < (2:Int).toNat → el (0 + 4 * (((j:Nat):Int) + (i:Nat) * 2)) = (el (0 + 4 * ((i:Int) + j * 2))).conj) ∧
    GerArgs (memOf 0 24 f) 2 2 16 1 16 1 0 2 (fun i => el (16 + 4 * (i * 1))) (fun i => el (16 + 4 * (i * 1)))
      (fun i j => el (0 + 4 * ((i:Int) + j * 2))) ∧
    GerKArgs (memOf 0 24 f) 2 2 16 1 16 1 0 2 (fun i => el (16 + 4 * (i * 1))) (fun i => el (16 + 4 * (i * 1)))
      (fun i j => el (0 + 4 * ((i:Int) + j * 2))) := by
  intro f el
  have hA : MatAt (memOf 0 24 f) 0 2 (2:Int).toNat (2:Int).toNat (fun i j => el (0 + 4 * ((i:Int) + j * 2))) := by
    intro i j hi hj
    have h1 : i < 2 := hi
    have h2 : j < 2 := hj
    exact readQ_memOf (by omega) (by omega)
  have hX : VecAt (memOf 0 24 f) 16 1 (2:Int).toNat (fun i => el (16 + 4 * (i * 1))) := by
    intro i hi
    have h1 : i < 2 := hi
    exact readQ_memOf (by omega) (by omega)
  have hap : Apart (VecCell 16 1 (2:Int).toNat) (MatCell 0 2 (2:Int).toNat (2:Int).toNat) := by
    rintro a ⟨i, hi, h1⟩ ⟨k, l, hk, hl, h2⟩
    have h3 : k < 2 := hk
    have h4 : l < 2 := hl
    unfold InQ at *; omega
  refine ⟨?_, ⟨hA, hX, hX, by decide, hap, hap⟩, ⟨by decide, by decide, hA, hX, hX, by decide, hap, hap, ?_, ?_, ?_⟩⟩
  · intro i j hi hj
    have h1 : i < 2 := hi
    have h2 : j < 2 := hj
    interval_cases i <;> interval_cases j <;> simp [el, f, Quat.conj, neg] 
  · intro i j hi hj
    have h1 : i < 2 := hi
    have h2 : j < 2 := hj
    unfold Fits32; constructor <;> omega
  · intro i hi
    have h1 : i ≤ 2 := hi
    unfold Fits32; omega
  · intro i hi
    have h1 : i ≤ 2 := hi
    unfold Fits32; omega

end Haxx
