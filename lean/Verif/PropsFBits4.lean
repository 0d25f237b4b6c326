import Verif.FHblas1Bits
import Verif.PropsFBits
import Verif.PropsRoundF
import Verif.FGemvLemmas

/-!
# C40, C42 and C53 for the Fortran level-1 routines (C40 also for the portable ones)
-/

set_option linter.unusedSectionVars false

namespace Haxx
open Arith

section
variable {F : Type} [Arith F] [ArithEq F]

/-- C40, Fortran SCALV and AXPYV: in any arithmetic, element `i` of the result is one function of element `i` of the
operands, whatever the addresses, increments (of either sign), length and the rest of the memory. -/
theorem C40_elementwise_fortran (SIDE : Char) (ALPHA : Scal F) :
    ∃ (f : Quat F → Quat F) (g : Quat F → Quat F → Quat F),
      (∀ (m : Mem F) (N X INCX : Int) (x : Nat → Quat F), VecAt m (fbase X N INCX) INCX N.toNat x → INCX ≠ 0 →
        ∃ m', scalvF SIDE N ALPHA X INCX m = .ok ((), m') ∧
          VecAt m' (fbase X N INCX) INCX N.toNat (fun i => f (x i)) ∧
          SameOutside (VecCell (fbase X N INCX) INCX N.toNat) m m') ∧
      (∀ (m : Mem F) (N X INCX Y INCY : Int) (x y : Nat → Quat F), VecAt m (fbase X N INCX) INCX N.toNat x →
        VecAt m (fbase Y N INCY) INCY N.toNat y → INCY ≠ 0 →
        Apart (VecCell (fbase X N INCX) INCX N.toNat) (VecCell (fbase Y N INCY) INCY N.toNat) →
        ∃ m', axpyvF SIDE N ALPHA X INCX Y INCY m = .ok ((), m') ∧
          VecAt m' (fbase Y N INCY) INCY N.toNat (fun i => g (x i) (y i)) ∧
          SameOutside (VecCell (fbase Y N INCY) INCY N.toNat) m m') := by
  refine ⟨fun q => if ALPHA.vIsZero then q else fScalV (lsame 'R' SIDE) ALPHA q,
    fun p q => if ALPHA.vIsZero then q else fAxpyV (lsame 'R' SIDE) ALPHA p q, ?_, ?_⟩
  · intro m N X INCX x hX hinc
    obtain ⟨_, m', h, h1⟩ := scalvF_bits (SIDE := SIDE) (ALPHA := ALPHA) hinc hX
    exact ⟨m', h, h1⟩
  · intro m N X INCX Y INCY x y hX hY hinc hdis
    obtain ⟨_, m', h, h1⟩ := axpyvF_bits (SIDE := SIDE) (ALPHA := ALPHA) hinc hX hY hdis
    exact ⟨m', h, h1⟩

/-- C40, Fortran DOTU and DOTC: the value returned is determined, bit for bit, by the contents of the two vectors. -/
theorem C40_dot_fortran (conj : Bool) (N : Int) (x y : Nat → Quat F) :
    ∃ v : Quat F, ∀ (m : Mem F) (X INCX Y INCY : Int),
      VecAt m (fbase X N INCX) INCX N.toNat x → VecAt m (fbase Y N INCY) INCY N.toNat y →
      dotF conj N X INCX Y INCY m = .ok (v, m) := by
  refine ⟨fDot conj x y N.toNat, ?_⟩
  intro m X INCX Y INCY hX hY
  obtain ⟨r, m', h, rfl, rfl⟩ := dotF_bits (conj := conj) hX hY
  exact h

end

section
variable {F : Type} [Arith F] [ArithEq F]

/-- C40, portable SCALV and AXPYV. -/
theorem C40_elementwise_portable (SIDE : Char) (ALPHA : Scal F) :
    ∃ (f : Quat F → Quat F) (g : Quat F → Quat F → Quat F),
      (∀ (m : Mem F) (N X INCX : Int) (x : Nat → Quat F), VecAt m X INCX N.toNat x → 0 < INCX → Fits32 (N * INCX) →
        ∃ m', scalvGen SIDE N ALPHA X INCX m = .ok ((), m') ∧
          VecAt m' X INCX N.toNat (fun i => f (x i)) ∧ SameOutside (VecCell X INCX N.toNat) m m') ∧
      (∀ (m : Mem F) (N X INCX Y INCY : Int) (x y : Nat → Quat F), VecAt m X INCX N.toNat x →
        VecAt m Y INCY N.toNat y → 0 < INCX → 0 < INCY → Fits32 (N * INCX) → Fits32 (N * INCY) →
        Apart (VecCell X INCX N.toNat) (VecCell Y INCY N.toNat) →
        ∃ m', axpyvGen SIDE N ALPHA X INCX Y INCY m = .ok ((), m') ∧
          VecAt m' Y INCY N.toNat (fun i => g (x i) (y i)) ∧ SameOutside (VecCell Y INCY N.toNat) m m') := by
  refine ⟨fun q => if SIDE = 'R' then Scal.mulR q ALPHA else Scal.mulL ALPHA q,
    fun p q => if ALPHA.eqZero then q else Quat.addAssign q (if SIDE = 'R' then Scal.mulR p ALPHA else Scal.mulL ALPHA p),
    ?_, ?_⟩
  · intro m N X INCX x hX hinc fx
    obtain ⟨_, m', h, h1⟩ := scalvGen_wp (SIDE := SIDE) (ALPHA := ALPHA) hinc fx hX
    exact ⟨m', h, h1⟩
  · intro m N X INCX Y INCY x y hX hY hx hy fx fy hdis
    cases hz : ALPHA.eqZero with
    | true =>
      refine ⟨m, ?_, hY, fun _ _ => rfl⟩
      unfold axpyvGen; rw [if_pos hz]; split <;> rfl
    | false =>
      obtain ⟨_, m', h, h1⟩ := axpyvGen_wp (SIDE := SIDE) (ALPHA := ALPHA) hx hy fx fy hz hX hY hdis
      exact ⟨m', h, h1⟩

/-- C40, portable DOTU and DOTC. -/
theorem C40_dot_portable (conj : Bool) (N : Int) (x y : Nat → Quat F) :
    ∃ v : Quat F, ∀ (m : Mem F) (X INCX Y INCY : Int), 0 < INCX → 0 < INCY → Fits32 (N * INCX) → Fits32 (N * INCY) →
      VecAt m X INCX N.toNat x → VecAt m Y INCY N.toNat y → dotGen conj N X INCX Y INCY m = .ok (v, m) := by
  refine ⟨pDotQ conj x y N.toNat, ?_⟩
  intro m X INCX Y INCY hx hy fx fy hX hY
  obtain ⟨r, m', h, rfl, rfl⟩ := dotGen_bits (conj := conj) hx hy fx fy hX hY
  exact h

end

section
variable {F : Type} [Arith F] [ArithEq F] {bad : F → Prop} (h : NaNLike bad)

local macro "nanS" h:ident : tactic => `(tactic| solve_by_elim (maxDepth := 14) only
  [($h).addL, ($h).addR, ($h).subL, ($h).subR, ($h).mulL, ($h).mulR, ($h).neg, *])

include h

theorem nan_fScalV_alpha (right : Bool) {a : Scal F} {x : Quat F} (e : a.HasNaN bad) : (fScalV right a x).AllNaN bad := by
  cases a with
  | d a => exact ⟨h.mulL e, h.mulL e, h.mulL e, h.mulL e⟩
  | z a =>
    cases right
    · exact Cplx.AllNaN.mk (nanC_mulL h e) (nanC_mulL h e)
    · exact Cplx.AllNaN.mk (nanC_mulR h e) (nanC_mulR h (nanC_conj h e))
  | h a =>
    cases right <;> rcases e with e | e | e | e <;> refine ⟨?_, ?_, ?_, ?_⟩ <;> dsimp only [fScalV] <;> nanS h

theorem nan_fScalV (right : Bool) {a : Scal F} {x : Quat F} (e : x.HasNaN bad) : (fScalV right a x).HasNaN bad := by
  cases a with
  | d a => exact e.imp h.mulR (Or.imp h.mulR (Or.imp h.mulR h.mulR))
  | z a =>
    rw [Quat.hasNaN_halves] at e
    rcases e with e | e <;> cases right
    · exact Cplx.HasNaN.mkL (nanC_mulR' h e)
    · exact Cplx.HasNaN.mkL (nanC_mulL' h e)
    · exact Cplx.HasNaN.mkR (nanC_mulR' h e)
    · exact Cplx.HasNaN.mkR (nanC_mulL' h e)
  | h a =>
    cases right <;> rcases e with e | e | e | e <;> left <;> dsimp only [fScalV] <;> nanS h

theorem nan_fAxpyV_alpha (right : Bool) {a : Scal F} {x y : Quat F} (e : a.HasNaN bad) :
    (fAxpyV right a x y).AllNaN bad := by
  cases a with
  | d a => exact ⟨h.addR (h.mulL e), h.addR (h.mulL e), h.addR (h.mulL e), h.addR (h.mulL e)⟩
  | z a => cases right <;> rcases e with e | e <;> refine ⟨?_, ?_, ?_, ?_⟩ <;> dsimp only [fAxpyV] <;> nanS h
  | h a => cases right <;> rcases e with e | e | e | e <;> refine ⟨?_, ?_, ?_, ?_⟩ <;> dsimp only [fAxpyV] <;> nanS h

theorem nan_fAxpyV (right : Bool) {a : Scal F} {x y : Quat F} (e : x.HasNaN bad ∨ y.HasNaN bad) :
    (fAxpyV right a x y).HasNaN bad := by
  rcases e with e | e
  · cases a with
    | d a =>
      exact e.imp (fun e => h.addR (h.mulR e)) (Or.imp (fun e => h.addR (h.mulR e))
        (Or.imp (fun e => h.addR (h.mulR e)) (fun e => h.addR (h.mulR e))))
    | z a =>
      cases right <;> rcases e with e | e | e | e
      · left; dsimp only [fAxpyV]; nanS h
      · left; dsimp only [fAxpyV]; nanS h
      · right; right; left; dsimp only [fAxpyV]; nanS h
      · right; right; left; dsimp only [fAxpyV]; nanS h
      · left; dsimp only [fAxpyV]; nanS h
      · left; dsimp only [fAxpyV]; nanS h
      · right; right; left; dsimp only [fAxpyV]; nanS h
      · right; right; left; dsimp only [fAxpyV]; nanS h
    | h a => cases right <;> rcases e with e | e | e | e <;> left <;> dsimp only [fAxpyV] <;> nanS h
  · rcases e with e | e | e | e
    · left; cases a <;> cases right <;> dsimp only [fAxpyV] <;> nanS h
    · right; left; cases a <;> cases right <;> dsimp only [fAxpyV] <;> nanS h
    · right; right; left; cases a <;> cases right <;> dsimp only [fAxpyV] <;> nanS h
    · right; right; right; cases a <;> cases right <;> dsimp only [fAxpyV] <;> nanS h

theorem nan_fDotStep (c : Bool) {x y r : Quat F} (e : x.HasNaN bad ∨ y.HasNaN bad ∨ r.AllNaN bad) :
    (fDotStep c x y r).AllNaN bad := by
  rcases e with e | e | ⟨e1, e2, e3, e4⟩
  · cases c <;> rcases e with e | e | e | e <;> refine ⟨?_, ?_, ?_, ?_⟩ <;> dsimp only [fDotStep] <;> nanS h
  · cases c <;> rcases e with e | e | e | e <;> refine ⟨?_, ?_, ?_, ?_⟩ <;> dsimp only [fDotStep] <;> nanS h
  · cases c <;> refine ⟨?_, ?_, ?_, ?_⟩ <;> dsimp only [fDotStep] <;> nanS h

theorem nan_fDot (c : Bool) (x y : Nat → Quat F) (n i : Nat) (hi : i < n) (e : (x i).HasNaN bad ∨ (y i).HasNaN bad) :
    (fDot c x y n).AllNaN bad := by
  induction n with
  | zero => omega
  | succ n ih =>
    rw [fDot]
    by_cases q : i = n
    · subst q
      exact nan_fDotStep h c (e.elim Or.inl (fun e => Or.inr (Or.inl e)))
    · exact nan_fDotStep h c (Or.inr (Or.inr (ih (by omega))))

/-- C53, SCALV (Fortran): a NaN component of `x_i` leaves one in the new `x_i`; one in ALPHA makes all of it NaN, unless
ALPHA compares equal to zero. -/
theorem C53_scalv_fortran (m : Mem F) (SIDE : Char) (N X INCX : Int) (ALPHA : Scal F) (x : Nat → Quat F)
    (hX : VecAt m (fbase X N INCX) INCX N.toNat x) (hinc : INCX ≠ 0) :
    ∃ (m' : Mem F) (x' : Nat → Quat F), scalvF SIDE N ALPHA X INCX m = .ok ((), m') ∧
      VecAt m' (fbase X N INCX) INCX N.toNat x' ∧
      ∀ i, i < N.toNat → ((x i).HasNaN bad → (x' i).HasNaN bad) ∧
        (ALPHA.vIsZero = false → ALPHA.HasNaN bad → (x' i).AllNaN bad) := by
  obtain ⟨_, m', h1, h2, _⟩ := scalvF_bits (SIDE := SIDE) (ALPHA := ALPHA) hinc hX
  refine ⟨m', _, h1, h2, fun i _ => ⟨fun e => ?_, fun hz e => ?_⟩⟩
  · split
    · exact e
    · exact nan_fScalV h _ e
  · rw [hz, if_neg Bool.false_ne_true]; exact nan_fScalV_alpha h _ e

/-- C53, AXPYV (Fortran): a NaN component of the old `y_i` leaves one in the new; so does one in `x_i`, and one in ALPHA
makes all of `y_i` NaN, unless ALPHA compares equal to zero. -/
theorem C53_axpyv_fortran (m : Mem F) (SIDE : Char) (N X INCX Y INCY : Int) (ALPHA : Scal F) (x y : Nat → Quat F)
    (hX : VecAt m (fbase X N INCX) INCX N.toNat x) (hY : VecAt m (fbase Y N INCY) INCY N.toNat y) (hinc : INCY ≠ 0)
    (hdis : Apart (VecCell (fbase X N INCX) INCX N.toNat) (VecCell (fbase Y N INCY) INCY N.toNat)) :
    ∃ (m' : Mem F) (y' : Nat → Quat F), axpyvF SIDE N ALPHA X INCX Y INCY m = .ok ((), m') ∧
      VecAt m' (fbase Y N INCY) INCY N.toNat y' ∧
      ∀ i, i < N.toNat → ((y i).HasNaN bad → (y' i).HasNaN bad) ∧
        (ALPHA.vIsZero = false → (x i).HasNaN bad → (y' i).HasNaN bad) ∧
        (ALPHA.vIsZero = false → ALPHA.HasNaN bad → (y' i).AllNaN bad) := by
  obtain ⟨_, m', h1, h2, _⟩ := axpyvF_bits (SIDE := SIDE) (ALPHA := ALPHA) hinc hX hY hdis
  refine ⟨m', _, h1, h2, fun i _ => ⟨fun e => ?_, fun hz e => ?_, fun hz e => ?_⟩⟩
  · split
    · exact e
    · exact nan_fAxpyV h _ (Or.inr e)
  · rw [hz, if_neg Bool.false_ne_true]; exact nan_fAxpyV h _ (Or.inl e)
  · rw [hz, if_neg Bool.false_ne_true]; exact nan_fAxpyV_alpha h _ e

/-- C53, DOTU and DOTC (Fortran). -/
theorem C53_dot_fortran (m : Mem F) (conj : Bool) (N X INCX Y INCY : Int) (x y : Nat → Quat F)
    (hX : VecAt m (fbase X N INCX) INCX N.toNat x) (hY : VecAt m (fbase Y N INCY) INCY N.toNat y) :
    ∃ r, dotF conj N X INCX Y INCY m = .ok (r, m) ∧
      ∀ i, i < N.toNat → ((x i).HasNaN bad ∨ (y i).HasNaN bad) → r.AllNaN bad := by
  obtain ⟨r, m', h1, rfl, rfl⟩ := dotF_bits (conj := conj) hX hY
  exact ⟨_, h1, fun i hi e => nan_fDot h conj x y _ i hi e⟩

end

section
open Quaternion Finset

section
variable {R : Type} [CommRing R]

theorem toH_fScalV (r : Bool) (a : Scal R) (x : Quat R) :
    (fScalV r a x).toH = if r then x.toH * a.toH else a.toH * x.toH := by
  cases r <;> cases a <;> ext <;> simp [fScalV, toH_ofC, Scal.toH] <;> ring

theorem toH_fAxpyV (r : Bool) (a : Scal R) (x y : Quat R) :
    (fAxpyV r a x y).toH = y.toH + if r then x.toH * a.toH else a.toH * x.toH := by
  cases r <;> cases a <;> ext <;> simp [fAxpyV, Scal.toH] <;> ring

theorem toH_fDotStep (c : Bool) (x y r : Quat R) :
    (fDotStep c x y r).toH = r.toH + (if c then star x.toH else x.toH) * y.toH := by
  cases c <;> ext <;> simp [fDotStep] <;> ring

theorem toH_fDot (c : Bool) (x y : ℕ → Quat R) (n : ℕ) :
    (fDot c x y n).toH = ∑ k ∈ range n, (if c then star (x k).toH else (x k).toH) * (y k).toH := by
  induction n with
  | zero => rfl
  | succ n ih => rw [fDot, toH_fDotStep, ih, sum_range_succ]

end

variable {F : Type} [Arith F] [ArithEq F] {u : ℝ}
namespace StdModel
variable {S : StdModel F u} {p : ℕ} {c' : Quat F} {c : Quat ℝ} {s : ℝ}

theorem QR.fScalV (r : Bool) (a : Scal F) (x : Quat F) :
    S.QR 4 (Haxx.fScalV r a x) (Haxx.fScalV r (a.map S.val) (x.map S.val))
      (broadcast (‖(a.map S.val).toH‖ * ‖(x.map S.val).toH‖)) := by
  have hx : S.QR 0 x (x.map S.val) _ := QR.exact x
  obtain ⟨k0, k1, k2, k3⟩ := fourD (a.map S.val).emb (x.map S.val)
  rw [Scal.toH_emb] at k0 k1 k2 k3
  cases a with
  | d a =>
    have h : S.R 0 a (S.val a) |S.val a| := R.exact a
    simp only [Scal.map, Scal.emb, abs_zero, zero_mul, add_zero] at k0 k1 k2 k3
    cases r <;> exact ⟨(h.mul hx.1).mono (by omega) k0, (h.mul hx.2.1).mono (by omega) k1,
      (h.mul hx.2.2.1).mono (by omega) k2, (h.mul hx.2.2.2).mono (by omega) k3⟩
  | z b =>
    have h : S.CR 0 b ⟨S.val b.re, S.val b.im⟩ ⟨|S.val b.re|, |S.val b.im|⟩ := ⟨R.exact _, R.exact _⟩
    simp only [Scal.map, Scal.emb, abs_zero, zero_mul, add_zero] at k0 k1 k2 k3
    cases r
    · refine CR.mk (h.mul hx.lo) (h.mul hx.hi) (by omega) ?_ ?_ ?_ ?_ <;>
        simp only [cm, Quat.abs, Quat.lo, Quat.hi, Scal.map] <;> linarith
    · refine CR.mk (hx.lo.mul h) (hx.hi.mul h.conj) (by omega) ?_ ?_ ?_ ?_ <;>
        simp only [cm, Quat.abs, Quat.lo, Quat.hi, Scal.map] <;> linarith
  | h a =>
    have h : S.QR 0 a (a.map S.val) _ := QR.exact a
    cases r
    · have := QR.mul h hx
      rw [norm_abs, norm_abs] at this
      exact this
    · have := QR.mul hx h
      rw [norm_abs, norm_abs, mul_comm] at this
      exact this

theorem QR.fDotStep (cj : Bool) (x y : Quat F) (hc : S.QR p c' c (broadcast s)) (hp : 1 ≤ p) :
    S.QR (p + 4) (Haxx.fDotStep cj x y c') (Haxx.fDotStep cj (x.map S.val) (y.map S.val) c)
      (broadcast (s + ‖(x.map S.val).toH‖ * ‖(y.map S.val).toH‖)) := by
  have hx : S.QR 0 x (x.map S.val) _ := QR.exact x
  have hy : S.QR 0 y (y.map S.val) _ := QR.exact y
  obtain ⟨k0, k1, k2, k3⟩ := fourD (x.map S.val) (y.map S.val)
  obtain ⟨x0, x1, x2, x3⟩ := hx
  obtain ⟨y0, y1, y2, y3⟩ := hy
  obtain ⟨c0, c1, c2, c3⟩ := hc
  simp only [Quat.abs] at *
  cases cj
  · refine ⟨?_, ?_, ?_, ?_⟩
    · exact (((((c0.addL (x0.mul y0) le_rfl (by omega)).subL (x1.mul y1) le_rfl (by omega)).subL (x2.mul y2) le_rfl
        (by omega)).subL (x3.mul y3) le_rfl (by omega))).mono (by omega) (by simp only [broadcast]; linarith)
    · exact (((((c1.addL (x0.mul y1) le_rfl (by omega)).addL (x1.mul y0) le_rfl (by omega)).addL (x2.mul y3) le_rfl
        (by omega)).subL (x3.mul y2) le_rfl (by omega))).mono (by omega) (by simp only [broadcast]; linarith)
    · exact (((((c2.addL (x0.mul y2) le_rfl (by omega)).subL (x1.mul y3) le_rfl (by omega)).addL (x2.mul y0) le_rfl
        (by omega)).addL (x3.mul y1) le_rfl (by omega))).mono (by omega) (by simp only [broadcast]; linarith)
    · exact (((((c3.addL (x0.mul y3) le_rfl (by omega)).addL (x1.mul y2) le_rfl (by omega)).subL (x2.mul y1) le_rfl
        (by omega)).addL (x3.mul y0) le_rfl (by omega))).mono (by omega) (by simp only [broadcast]; linarith)
  · refine ⟨?_, ?_, ?_, ?_⟩
    · exact (((((c0.addL (x0.mul y0) le_rfl (by omega)).addL (x1.mul y1) le_rfl (by omega)).addL (x2.mul y2) le_rfl
        (by omega)).addL (x3.mul y3) le_rfl (by omega))).mono (by omega) (by simp only [broadcast]; linarith)
    · exact (((((c1.addL (x0.mul y1) le_rfl (by omega)).subL (x1.mul y0) le_rfl (by omega)).subL (x2.mul y3) le_rfl
        (by omega)).addL (x3.mul y2) le_rfl (by omega))).mono (by omega) (by simp only [broadcast]; linarith)
    · exact (((((c2.addL (x0.mul y2) le_rfl (by omega)).addL (x1.mul y3) le_rfl (by omega)).subL (x2.mul y0) le_rfl
        (by omega)).subL (x3.mul y1) le_rfl (by omega))).mono (by omega) (by simp only [broadcast]; linarith)
    · exact (((((c3.addL (x0.mul y3) le_rfl (by omega)).subL (x1.mul y2) le_rfl (by omega)).addL (x2.mul y1) le_rfl
        (by omega)).subL (x3.mul y0) le_rfl (by omega))).mono (by omega) (by simp only [broadcast]; linarith)

theorem QR.fDot (cj : Bool) (x y : ℕ → Quat F) (n : ℕ) :
    S.QR (1 + 4 * n) (Haxx.fDot cj x y n) (Haxx.fDot cj (fun k => (x k).map S.val) (fun k => (y k).map S.val) n)
      (broadcast (∑ k ∈ range n, ‖((x k).map S.val).toH‖ * ‖((y k).map S.val).toH‖)) := by
  induction n with
  | zero => exact ⟨R.zero, R.zero, R.zero, R.zero⟩
  | succ n ih =>
    rw [sum_range_succ, show 1 + 4 * (n + 1) = 1 + 4 * n + 4 by ring]
    exact QR.fDotStep cj (x n) (y n) ih (by omega)

theorem QR.fAxpyV (r : Bool) (a : Scal F) (x y : Quat F) :
    S.QR 5 (Haxx.fAxpyV r a x y) (Haxx.fAxpyV r (a.map S.val) (x.map S.val) (y.map S.val))
      (broadcast (‖(y.map S.val).toH‖ + ‖(a.map S.val).toH‖ * ‖(x.map S.val).toH‖)) := by
  have hy : S.QR 1 y (y.map S.val) (broadcast ‖(y.map S.val).toH‖) := (QR.exact y).toNorm
  have hx : S.QR 0 x (x.map S.val) _ := QR.exact x
  cases a with
  | h a =>
    cases r
    · exact QR.fDotStep false a x hy le_rfl
    · have := QR.fDotStep false x a hy le_rfl
      rw [mul_comm] at this
      exact this
  | d a =>
    obtain ⟨k0, k1, k2, k3⟩ := fourD (Scal.emb (.d (S.val a))) (x.map S.val)
    rw [Scal.toH_emb] at k0 k1 k2 k3
    have h : S.R 0 a (S.val a) |S.val a| := R.exact a
    simp only [Scal.emb, abs_zero, zero_mul, add_zero] at k0 k1 k2 k3
    obtain ⟨x0, x1, x2, x3⟩ := hx
    obtain ⟨y0, y1, y2, y3⟩ := hy
    cases r <;> exact ⟨(y0.addL (h.mul x0) le_rfl (by omega)).mono (by omega) (add_le_add_right k0 _),
      (y1.addL (h.mul x1) le_rfl (by omega)).mono (by omega) (add_le_add_right k1 _),
      (y2.addL (h.mul x2) le_rfl (by omega)).mono (by omega) (add_le_add_right k2 _),
      (y3.addL (h.mul x3) le_rfl (by omega)).mono (by omega) (add_le_add_right k3 _)⟩
  | z a =>
    obtain ⟨k0, k1, k2, k3⟩ := fourD (Scal.emb (.z ⟨S.val a.re, S.val a.im⟩)) (x.map S.val)
    rw [Scal.toH_emb] at k0 k1 k2 k3
    have h0 : S.R 0 a.re (S.val a.re) |S.val a.re| := R.exact _
    have h1 : S.R 0 a.im (S.val a.im) |S.val a.im| := R.exact _
    simp only [Scal.emb, abs_zero, zero_mul, add_zero] at k0 k1 k2 k3
    obtain ⟨x0, x1, x2, x3⟩ := hx
    obtain ⟨y0, y1, y2, y3⟩ := hy
    simp only [Quat.abs] at *
    cases r
    · exact ⟨((y0.addL (h0.mul x0) le_rfl (by omega)).subL (h1.mul x1) le_rfl (by omega)).mono (by omega)
          (by simp only [broadcast, Scal.map]; linarith),
        ((y1.addL (h0.mul x1) le_rfl (by omega)).addL (h1.mul x0) le_rfl (by omega)).mono (by omega)
          (by simp only [broadcast, Scal.map]; linarith),
        ((y2.addL (h0.mul x2) le_rfl (by omega)).subL (h1.mul x3) le_rfl (by omega)).mono (by omega)
          (by simp only [broadcast, Scal.map]; linarith),
        ((y3.addL (h0.mul x3) le_rfl (by omega)).addL (h1.mul x2) le_rfl (by omega)).mono (by omega)
          (by simp only [broadcast, Scal.map]; linarith)⟩
    · exact ⟨((y0.addL (x0.mul h0) le_rfl (by omega)).subL (x1.mul h1) le_rfl (by omega)).mono (by omega)
          (by simp only [broadcast, Scal.map]; linarith),
        ((y1.addL (x0.mul h1) le_rfl (by omega)).addL (x1.mul h0) le_rfl (by omega)).mono (by omega)
          (by simp only [broadcast, Scal.map]; linarith),
        ((y2.addL (x2.mul h0) le_rfl (by omega)).addL (x3.mul h1) le_rfl (by omega)).mono (by omega)
          (by simp only [broadcast, Scal.map]; linarith),
        ((y3.subL (x2.mul h1) le_rfl (by omega)).addL (x3.mul h0) le_rfl (by omega)).mono (by omega)
          (by simp only [broadcast, Scal.map]; linarith)⟩

end StdModel

theorem lsame_R_iff (s : Char) : lsame 'R' s = true ↔ s = 'R' ∨ s = 'r' := by
  rw [lsame_symm, lsame_upper (by decide), decide_eq_true_eq, show 'R'.toNat + 32 = 'r'.toNat from rfl, Char.toNat_inj]

theorem vIsZero_toH (S : StdModel F u) (he : ∀ a b : F, (a ==ᶠ b) = true → S.val a = S.val b) {s : Scal F}
    (h : s.vIsZero = true) : (s.map S.val).toH = 0 := by
  have h0 := S.zero_val
  cases s with
  | d a =>
    simp only [Scal.vIsZero] at h
    ext <;> simp [Scal.map, Scal.toH, he _ _ h, h0]
  | z a =>
    simp only [Scal.vIsZero, Bool.and_eq_true] at h
    ext <;> simp [Scal.map, Scal.toH, he _ _ h.1, he _ _ h.2, h0]
  | h a =>
    simp only [Scal.vIsZero, Bool.and_eq_true] at h
    ext <;> simp [Scal.map, Quat.map, Scal.toH, he _ _ h.1.1.1, he _ _ h.1.1.2, he _ _ h.1.2, he _ _ h.2, h0]

/-- C42, Fortran SCALV, ALPHA not comparing equal to zero: `‖computed - exact‖ ≤ 2((1+u)⁴-1) ‖ALPHA‖ ‖x_i‖`. -/
theorem C42_scalv_fortran (S : StdModel F u) (m : Mem F) (SIDE : Char) (N X INCX : Int) (ALPHA : Scal F)
    (x : Nat → Quat F) (hX : VecAt m (fbase X N INCX) INCX N.toNat x) (hinc : INCX ≠ 0) (hz : ALPHA.vIsZero = false) :
    ∃ m' v, scalvF SIDE N ALPHA X INCX m = .ok ((), m') ∧ VecAt m' (fbase X N INCX) INCX N.toNat v ∧
      ∀ i, i < N.toNat → (v i).All S.ok →
        ‖((v i).map S.val).toH -
          (if SIDE = 'R' ∨ SIDE = 'r' then ((x i).map S.val).toH * (ALPHA.map S.val).toH
           else (ALPHA.map S.val).toH * ((x i).map S.val).toH)‖ ≤
          2 * (((1 + u) ^ 4 - 1) * (‖(ALPHA.map S.val).toH‖ * ‖((x i).map S.val).toH‖)) := by
  obtain ⟨_, m', h, h1, _⟩ := scalvF_bits (SIDE := SIDE) (ALPHA := ALPHA) hinc hX
  refine ⟨m', _, h, h1, fun i _ ho => ?_⟩
  rw [hz, if_neg Bool.false_ne_true] at ho ⊢
  have := (StdModel.QR.fScalV (S := S) (lsame 'R' SIDE) ALPHA (x i)).norm ho
  rw [toH_fScalV] at this
  simpa only [lsame_R_iff] using this

/-- C42, Fortran AXPYV, if `==` is true only of machine numbers of the same value:
`‖computed - exact‖ ≤ 2((1+u)⁵-1) (‖y_i‖ + ‖ALPHA‖ ‖x_i‖)`. -/
theorem C42_axpyv_fortran (S : StdModel F u) (m : Mem F) (SIDE : Char) (N X INCX Y INCY : Int) (ALPHA : Scal F)
    (x y : Nat → Quat F) (hX : VecAt m (fbase X N INCX) INCX N.toNat x) (hY : VecAt m (fbase Y N INCY) INCY N.toNat y)
    (hinc : INCY ≠ 0) (hdis : Apart (VecCell (fbase X N INCX) INCX N.toNat) (VecCell (fbase Y N INCY) INCY N.toNat))
    (heq : ∀ a b : F, (a ==ᶠ b) = true → S.val a = S.val b) :
    ∃ m' v, axpyvF SIDE N ALPHA X INCX Y INCY m = .ok ((), m') ∧ VecAt m' (fbase Y N INCY) INCY N.toNat v ∧
      ∀ i, i < N.toNat → (v i).All S.ok →
        ‖((v i).map S.val).toH - (((y i).map S.val).toH +
          (if SIDE = 'R' ∨ SIDE = 'r' then ((x i).map S.val).toH * (ALPHA.map S.val).toH
           else (ALPHA.map S.val).toH * ((x i).map S.val).toH))‖ ≤
          2 * (((1 + u) ^ 5 - 1) * (‖((y i).map S.val).toH‖ +
            ‖(ALPHA.map S.val).toH‖ * ‖((x i).map S.val).toH‖)) := by
  obtain ⟨_, m', h, h1, _⟩ := axpyvF_bits (SIDE := SIDE) (ALPHA := ALPHA) hinc hX hY hdis
  refine ⟨m', _, h, h1, fun i _ ho => ?_⟩
  cases hz : ALPHA.vIsZero with
  | true =>
    rw [if_pos rfl, vIsZero_toH S heq hz]
    have h1 := S.one_le_pow 5
    have : 0 ≤ ((1 + u) ^ 5 - 1) * ‖((y i).map S.val).toH‖ := mul_nonneg (by linarith) (norm_nonneg _)
    simpa using this
  | false =>
    rw [hz, if_neg Bool.false_ne_true] at ho
    rw [if_neg Bool.false_ne_true]
    have := (StdModel.QR.fAxpyV (S := S) (lsame 'R' SIDE) ALPHA (x i) (y i)).norm ho
    rw [toH_fAxpyV] at this
    simpa only [lsame_R_iff] using this

/-- C42, Fortran DOTU and DOTC: `‖computed - exact‖ ≤ 2((1+u)^(4N+1)-1) Σ ‖x_i‖ ‖y_i‖`. -/
theorem C42_dot_fortran (S : StdModel F u) (m : Mem F) (N X INCX Y INCY : Int) (x y : Nat → Quat F)
    (hX : VecAt m (fbase X N INCX) INCX N.toNat x) (hY : VecAt m (fbase Y N INCY) INCY N.toNat y) :
    ∃ ru rc, dotF false N X INCX Y INCY m = .ok (ru, m) ∧ dotF true N X INCX Y INCY m = .ok (rc, m) ∧
      (ru.All S.ok →
        ‖(ru.map S.val).toH - ∑ i ∈ range N.toNat, ((x i).map S.val).toH * ((y i).map S.val).toH‖ ≤
          2 * (((1 + u) ^ (4 * N.toNat + 1) - 1) *
            ∑ i ∈ range N.toNat, ‖((x i).map S.val).toH‖ * ‖((y i).map S.val).toH‖)) ∧
      (rc.All S.ok →
        ‖(rc.map S.val).toH - ∑ i ∈ range N.toNat, star ((x i).map S.val).toH * ((y i).map S.val).toH‖ ≤
          2 * (((1 + u) ^ (4 * N.toNat + 1) - 1) *
            ∑ i ∈ range N.toNat, ‖((x i).map S.val).toH‖ * ‖((y i).map S.val).toH‖)) := by
  obtain ⟨_, _, h, rfl, rfl⟩ := dotF_bits (conj := false) hX hY
  obtain ⟨_, _, h', rfl, rfl⟩ := dotF_bits (conj := true) hX hY
  refine ⟨_, _, h, h', fun ho => ?_, fun ho => ?_⟩
  · have := (StdModel.QR.fDot (S := S) false x y N.toNat).norm ho
    rw [toH_fDot, Nat.add_comm 1] at this
    simpa using this
  · have := (StdModel.QR.fDot (S := S) true x y N.toNat).norm ho
    rw [toH_fDot, Nat.add_comm 1] at this
    simpa using this

end

/-! ### Non-vacuity -/

/-- Five elements at increment -2 (so the routine starts at cell 32) and five at increment 3. -/
theorem lv1F_example {F : Type} (f : Int → F) :
    VecAt (memOf 0 200 f) (fbase 0 5 (-2)) (-2) (5:Int).toNat
      (fun i => let p : Int := 32 + 4 * ((i:Int) * (-2)); ⟨f p, f (p+1), f (p+2), f (p+3)⟩) ∧
    VecAt (memOf 0 200 f) (fbase 90 5 3) 3 (5:Int).toNat
      (fun i => let p : Int := 90 + 4 * ((i:Int) * 3); ⟨f p, f (p+1), f (p+2), f (p+3)⟩) ∧
    Apart (VecCell (fbase 0 5 (-2)) (-2) (5:Int).toNat) (VecCell (fbase 90 5 3) 3 (5:Int).toNat) := by
  rw [show fbase 0 5 (-2) = 32 by decide, show fbase 90 5 3 = 90 by decide]
  refine ⟨fun i hi => ?_, fun i hi => ?_, ?_⟩
  · have h1 : i < 5 := hi
    exact readQ_memOf (by omega) (by omega)
  · have h1 : i < 5 := hi
    exact readQ_memOf (by omega) (by omega)
  · rintro c ⟨i, hi, h1⟩ ⟨j, hj, h2⟩
    have : i < 5 := hi
    have : j < 5 := hj
    unfold InQ at h1 h2
    omega

/-- A case of `C53_scalv_fortran`: `x_3` holds one NaN and keeps one. -/
example : letI := toyNaN; letI := toyNaNEq
    ∃ (m' : Mem (Option Int)) (q : Quat (Option Int)),
      scalvF 'r' 5 (.z ⟨some 2, some 3⟩) 0 (-2) (memOf 0 200 (fun a => if a = 9 then none else some a)) = .ok ((), m') ∧
      readQ m' 8 = some q ∧ q.HasNaN (· = none) := by
  let := toyNaN
  let := toyNaNEq
  obtain ⟨m', x', h1, h2, h3⟩ := C53_scalv_fortran toyNaN_like _ 'r' 5 0 (-2) (.z ⟨some 2, some 3⟩) _
    (lv1F_example (fun a : Int => if a = 9 then none else some a)).1 (by decide)
  have h4 := h2 3 (by decide)
  refine ⟨m', x' 3, h1, ?_, (h3 3 (by decide)).1 (Or.inr (Or.inl ?_))⟩
  · rw [← h4]; rfl
  · simp

/-- The hypotheses of `C42_scalv_fortran`, `C42_axpyv_fortran` and `C42_dot_fortran` are met by rounded arithmetic. -/
example (f : Int → Chop) : (∃ x y, VecAt (memOf 0 200 f) (fbase 0 5 (-2)) (-2) (5:Int).toNat x ∧
    VecAt (memOf 0 200 f) (fbase 90 5 3) 3 (5:Int).toNat y ∧
    Apart (VecCell (fbase 0 5 (-2)) (-2) (5:Int).toNat) (VecCell (fbase 90 5 3) 3 (5:Int).toNat)) ∧
    (∀ a b : Chop, (a ==ᶠ b) = true → chopModel.val a = chopModel.val b) ∧
    ((Scal.d (Arith.one : Chop)).vIsZero = false) :=
  ⟨⟨_, _, (lv1F_example f).1, (lv1F_example f).2.1, (lv1F_example f).2.2⟩, chop_truth.2, by
    cases h : (Scal.d (Arith.one : Chop)).vIsZero with
    | false => rfl
    | true =>
      have := chop_truth.2 _ _ h
      rw [chop_truth.1, chopModel.zero_val] at this
      exact absurd this one_ne_zero⟩

end Haxx
