import Verif.FGerPf
import Verif.PropsHblas1G
import Verif.PropsGemmF

/-!
# Property theorems: rank-one updates (C31)
-/

set_option linter.unusedSectionVars false

namespace Haxx
open Arith Quaternion Finset

/-- `HBLAS_GERU` — `src/hblas/hblas2.cxx.in:38-46,81-86`. -/
def geruF {F : Type} [Arith F] [ArithEq F] (M N : Int) (ALPHA : Scal F) (X INCX Y INCY A LDA : Int) :
    Prog F Unit :=
  match ALPHA with
  | .d a => hgerud M N a X INCX Y INCY A LDA
  | .z a => hgeruz M N a X INCX Y INCY A LDA
  | .h a => hgeruh M N a X INCX Y INCY A LDA

/-- `HBLAS_GERC` — `src/hblas/hblas2.cxx.in:38-46,90-95`. -/
def gercF {F : Type} [Arith F] [ArithEq F] (M N : Int) (ALPHA : Scal F) (X INCX Y INCY A LDA : Int) :
    Prog F Unit :=
  match ALPHA with
  | .d a => hgercd M N a X INCX Y INCY A LDA
  | .z a => hgercz M N a X INCX Y INCY A LDA
  | .h a => hgerch M N a X INCX Y INCY A LDA

/-- GERU (`conjY = false`) or GERC of the Fortran build: the two functions above. -/
def gerF {F : Type} [Arith F] [ArithEq F] (conjY : Bool) (M N : Int) (ALPHA : Scal F) (X INCX Y INCY A LDA : Int) :
    Prog F Unit :=
  if conjY then gercF M N ALPHA X INCX Y INCY A LDA else geruF M N ALPHA X INCX Y INCY A LDA

/-- The arguments of a rank-one update: the `M × N` block of A and the two strided vectors are
accessible (a vector with a negative increment is traversed from its far end), and A does not share
storage with x or y. -/
structure GerArgs {F : Type} (m : Mem F) (M N X INCX Y INCY A LDA : Int) (x y : Nat → Quat F)
    (a : Nat → Nat → Quat F) : Prop where
  hA : MatAt m A LDA M.toNat N.toNat a
  hX : VecAt m (if INCX < 0 then X - 4 * ((M - 1) * INCX) else X) INCX M.toNat x
  hY : VecAt m (if INCY < 0 then Y - 4 * ((N - 1) * INCY) else Y) INCY N.toNat y
  hld : M ≤ LDA
  hXA : Apart (VecCell (if INCX < 0 then X - 4 * ((M - 1) * INCX) else X) INCX M.toNat) (MatCell A LDA M.toNat N.toNat)
  hYA : Apart (VecCell (if INCY < 0 then Y - 4 * ((N - 1) * INCY) else Y) INCY N.toNat) (MatCell A LDA M.toNat N.toNat)

theorem fbase_eq (X N INC : Int) : fbase X N INC = if INC < 0 then X - 4 * ((N - 1) * INC) else X := by
  unfold fbase; split
  · ring
  · rfl

theorem GerArgs.env {F : Type} {m : Mem F} {M N X INCX Y INCY A LDA : Int} {x y : Nat → Quat F}
    {a : Nat → Nat → Quat F} (h : GerArgs m M N X INCX Y INCY A LDA x y a) :
    GerEnv (fun m' => ∀ c, ¬ MatCell A LDA M.toNat N.toNat c → m' c = m c) (fbase X M INCX) INCX M.toNat x
      (fbase Y N INCY) INCY N.toNat y A LDA where
  rdX := by
    intro m' hm i hi
    rw [fbase_eq, readQ_congr (m' := m)]
    · exact h.hX i hi
    · intro c hc; exact hm c (h.hXA c ⟨i, hi, hc⟩)
  rdY := by
    intro m' hm i hi
    rw [fbase_eq, readQ_congr (m' := m)]
    · exact h.hY i hi
    · intro c hc; exact hm c (h.hYA c ⟨i, hi, hc⟩)
  stable := by
    intro m' i j q hi hj hm c hc
    rw [writeQ_other (fun hin => hc ⟨i, j, hi, hj, hin⟩)]
    exact hm c hc
  disj := by
    intro i j i' j' hi hi' hne
    exact mat_disj (r := M.toNat) (by have := h.hld; omega) hi hi' hne

section
variable {R : Type} [CommRing R] [DecidableEq R]

/-- `GERU` on `(m, arguments)` does what it should. -/
def IsGeru (GER : Prog R Unit) (m : Mem R) (M N : Int) (ALPHA : Scal R) (A LDA : Int)
    (x y : Nat → Quat R) (a : Nat → Nat → Quat R) : Prop :=
  ∃ m', GER m = .ok ((), m') ∧
    MatAt m' A LDA M.toNat N.toNat
      (fun i j => Quat.ofH ((a i j).toH + ALPHA.toH * (x i).toH * (y j).toH)) ∧
    SameOutside (MatCell A LDA M.toNat N.toNat) m m'

/-- `GERC` on `(m, arguments)` does what it should. -/
def IsGerc (GER : Prog R Unit) (m : Mem R) (M N : Int) (ALPHA : Scal R) (A LDA : Int)
    (x y : Nat → Quat R) (a : Nat → Nat → Quat R) : Prop :=
  ∃ m', GER m = .ok ((), m') ∧
    MatAt m' A LDA M.toNat N.toNat
      (fun i j => Quat.ofH ((a i j).toH + ALPHA.toH * (x i).toH * star (y j).toH)) ∧
    SameOutside (MatCell A LDA M.toNat N.toNat) m m'

/-- C31 (partial: a real ALPHA requires `INCX = 1`; see `C31_real_strided_violated`). -/
theorem C31_geru_partial (m : Mem R) (M N : Int) (ALPHA : Scal R) (X INCX Y INCY A LDA : Int)
    (x y : Nat → Quat R) (a : Nat → Nat → Quat R) (h : GerArgs m M N X INCX Y INCY A LDA x y a)
    (hd : ∀ r, ALPHA = .d r → INCX = 1) :
    IsGeru (geruF M N ALPHA X INCX Y INCY A LDA) m M N ALPHA A LDA x y a := by
  have key : wp (geruF M N ALPHA X INCX Y INCY A LDA) m (fun _ m' => GPost (fun m' => ∀ c, ¬ MatCell A LDA M.toNat N.toNat c → m' c = m c) m A LDA
      M.toNat N.toNat
      (fun i j => Quat.ofH ((a i j).toH + ALPHA.toH * (x i).toH * (y j).toH)) m') := by
    cases ALPHA with
    | d r => exact hgerud_wp (hd r rfl) h.env (fun _ _ => rfl) h.hA
    | z r => exact hgeruz_wp h.env (fun _ _ => rfl) h.hA
    | h r => exact hgeruh_wp h.env (fun _ _ => rfl) h.hA
  obtain ⟨_, m', h1, h2, h3, _⟩ := key
  exact ⟨m', h1, h2, h3⟩

/-- C31 (partial, as above). -/
theorem C31_gerc_partial (m : Mem R) (M N : Int) (ALPHA : Scal R) (X INCX Y INCY A LDA : Int)
    (x y : Nat → Quat R) (a : Nat → Nat → Quat R) (h : GerArgs m M N X INCX Y INCY A LDA x y a)
    (hd : ∀ r, ALPHA = .d r → INCX = 1) :
    IsGerc (gercF M N ALPHA X INCX Y INCY A LDA) m M N ALPHA A LDA x y a := by
  have key : wp (gercF M N ALPHA X INCX Y INCY A LDA) m (fun _ m' => GPost (fun m' => ∀ c, ¬ MatCell A LDA M.toNat N.toNat c → m' c = m c) m A LDA
      M.toNat N.toNat
      (fun i j => Quat.ofH ((a i j).toH + ALPHA.toH * (x i).toH * star (y j).toH)) m') := by
    cases ALPHA with
    | d r => exact hgercd_wp (hd r rfl) h.env (fun _ _ => rfl) h.hA
    | z r => exact hgercz_wp h.env (fun _ _ => rfl) h.hA
    | h r => exact hgerch_wp h.env (fun _ _ => rfl) h.hA
  obtain ⟨_, m', h1, h2, h3, _⟩ := key
  exact ⟨m', h1, h2, h3⟩

/-! ### Real ALPHA, strided x -/

theorem gerd_faults {F : Type} [Arith F] [ArithEq F] {m : Mem F} {M A LDA X INCX KX J : Int} {HJ : Cplx F}
    {a0 x0 : Quat F} (hM : 0 < M)
    (h0 : readQ m (el3 2 2 LDA A 1 1 J) = some a0) (hx : readQ m (X + 4 * (KX - 1)) = some x0) :
    Faults (foldN M.toNat (fun i (s : Int) => hgerud_30_I A HJ INCX J LDA X ((i : Int) + 1) s) KX) m .uninit ∧
    Faults (foldN M.toNat (fun i (s : Int) => hgercd_30_I A HJ INCX J LDA X ((i : Int) + 1) s) KX) m .uninit := by
  constructor <;>
  · apply faults_foldN (fun _ => KX) (j := 0) (by omega) (by intro i hi; omega)
    first | unfold hgerud_30_I | unfold hgercd_30_I
    simp only [Nat.cast_zero, zero_add]
    apply faults_bind_ok
    rw [wp_rdC_lo h0]
    apply faults_bind_ok
    rw [el2c_1, wp_rdC_lo hx]
    apply faults_bind_err
    rfl

/-- C31, violated: for every real ALPHA other than 0, every `INCX ≠ 1`, every M, N ≥ 1 and every y
that is not zero, GERU and GERC use the value of a variable that was never assigned (`HTMPS`), so
what they store in A is not determined by their arguments. -/
theorem C31_real_strided_violated (m : Mem R) (M N : Int) (r : R) (X INCX Y INCY A LDA : Int)
    (x y : Nat → Quat R) (a : Nat → Nat → Quat R) (h : GerArgs m M N X INCX Y INCY A LDA x y a)
    (hr : r ≠ 0) (hinc : INCX ≠ 1) (hM : 0 < M) (hy : ∃ j, j < N.toNat ∧ (y j).toH ≠ 0) :
    geruF M N (.d r) X INCX Y INCY A LDA m = .error .uninit ∧
    gercF M N (.d r) X INCX Y INCY A LDA m = .error .uninit := by
  classical
  obtain ⟨hjN, hyj⟩ := Nat.find_spec hy
  have hmin := fun i (hi : i < Nat.find hy) => Nat.find_min hy hi
  generalize Nat.find hy = j at *
  have hbef : ∀ i, i < j → (y i).toH = 0 := by
    intro i hi
    by_contra hc
    exact hmin i hi ⟨by omega, hc⟩
  have hz : ∀ i, i < N.toNat → ((!(Cplx.feq (y i).lo (⟨zero, zero⟩ : Cplx R))) ||
      (!(Cplx.feq (y i).hi (⟨zero, zero⟩ : Cplx R)))) = !decide ((y i).toH = 0) := by
    intro i _
    by_cases c : (y i).toH = 0
    · have e0 := congrArg QuaternionAlgebra.re c
      have e1 := congrArg QuaternionAlgebra.imI c
      have e2 := congrArg QuaternionAlgebra.imJ c
      have e3 := congrArg QuaternionAlgebra.imK c
      simp at e0 e1 e2 e3
      simp [Cplx.feq, c, Quat.lo, Quat.hi, e0, e1, e2, e3]
    · rw [decide_eq_false c]
      by_contra hc
      exact c (feq_zero_toH (by simpa using hc))
  have hYr : ∀ i, i < N.toNat → readQ m (Y + 4 * ((if INCY > 0 then 1 else 1 - (N - 1) * INCY) + i * INCY - 1)) =
      some (y i) := by
    intro i hi
    rw [fstart, fbase_eq]; exact h.hY i hi
  have hX0 : readQ m (X + 4 * ((if INCX > 0 then 1 else 1 - (M - 1) * INCX) - 1)) = some (x 0) := by
    have := h.hX 0 (by omega)
    rw [← fbase_eq, ← fstart] at this
    simpa using this
  have hA0 : readQ m (el3 2 2 LDA A 1 1 ((j:Int) + 1)) = some (a 0 j) := by
    have := h.hA 0 j (by omega) hjN
    rw [← this]
    congr 1
    unfold el3; push_cast; ring
  have hN : N ≠ 0 := by omega
  have hM' : M ≠ 0 := by omega
  constructor
  · show Faults _ _ _
    unfold geruF hgerud
    simp only [hM', hN, decide_false, Bool.false_or, ArithEq.feq, show (zero : R) = 0 from rfl, hr, Bool.false_eq_true, if_false]
    apply faults_bind_ok
    rw [wp_fstart]
    apply faults_bind_err
    unfold hgerud_if34
    rw [decide_eq_false hinc]
    simp only [Bool.false_eq_true, if_false]
    apply faults_bind_ok
    rw [wp_fstart]
    apply faults_bind_err
    have := faults_foldN (m := m) (e := .uninit) (n := N.toNat) (f := fun i (s : Int) => hgerud_40_J A r INCX INCY
      (if INCX > 0 then 1 else 1 - (M - 1) * INCX) LDA M X Y ((i : Int) + 1) s)
      (fun j => (if INCY > 0 then 1 else 1 - (N - 1) * INCY) + (j:Int) * INCY) hjN ?_ ?_
    · simpa using this
    · intro i hi
      unfold hgerud_40_J hgerud_if53
      have hyi := hYr i (by omega)
      simp only [el2c_1, el2c_2, wp_bind, wp_rdC_lo hyi, wp_rdC_hi hyi, hz i (by omega), hbef i hi, decide_true,
        Bool.not_true, Bool.false_eq_true, if_false, wp_pure]
      exact ⟨by push_cast; ring, trivial⟩
    · unfold hgerud_40_J hgerud_if53
      have hyi := hYr j hjN
      apply faults_bind_err
      apply faults_bind_ok
      rw [el2c_1, wp_rdC_lo hyi]
      apply faults_bind_ok
      rw [el2c_2, wp_rdC_hi hyi]
      rw [hz j hjN, decide_eq_false hyj, Bool.not_false, if_pos rfl]
      apply faults_bind_ok
      rw [wp_rdC_hi hyi]
      apply faults_bind_err
      exact (gerd_faults hM hA0 hX0).1
  · show Faults _ _ _
    unfold gercF hgercd
    simp only [hM', hN, decide_false, Bool.false_or, ArithEq.feq, show (zero : R) = 0 from rfl, hr, Bool.false_eq_true, if_false]
    apply faults_bind_ok
    rw [wp_fstart]
    apply faults_bind_err
    unfold hgercd_if34
    rw [decide_eq_false hinc]
    simp only [Bool.false_eq_true, if_false]
    apply faults_bind_ok
    rw [wp_fstart]
    apply faults_bind_err
    have := faults_foldN (m := m) (e := .uninit) (n := N.toNat) (f := fun i (s : Int) => hgercd_40_J A r INCX INCY
      (if INCX > 0 then 1 else 1 - (M - 1) * INCX) LDA M X Y ((i : Int) + 1) s)
      (fun j => (if INCY > 0 then 1 else 1 - (N - 1) * INCY) + (j:Int) * INCY) hjN ?_ ?_
    · simpa using this
    · intro i hi
      unfold hgercd_40_J hgercd_if53
      have hyi := hYr i (by omega)
      simp only [el2c_1, el2c_2, wp_bind, wp_rdC_lo hyi, wp_rdC_hi hyi, hz i (by omega), hbef i hi, decide_true,
        Bool.not_true, Bool.false_eq_true, if_false, wp_pure]
      exact ⟨by push_cast; ring, trivial⟩
    · unfold hgercd_40_J hgercd_if53
      have hyi := hYr j hjN
      apply faults_bind_err
      apply faults_bind_ok
      rw [el2c_1, wp_rdC_lo hyi]
      apply faults_bind_ok
      rw [el2c_2, wp_rdC_hi hyi]
      rw [hz j hjN, decide_eq_false hyj, Bool.not_false, if_pos rfl]
      apply faults_bind_ok
      rw [wp_rdC_hi hyi]
      apply faults_bind_err
      exact (gerd_faults hM hA0 hX0).2

/-- A real ALPHA, any `INCX`: when ALPHA is zero, or `M ≤ 0`, or y is zero, nothing is touched. -/
theorem ger_real_nothing (m : Mem R) (M N : Int) (r : R) (X INCX Y INCY A LDA : Int)
    (x y : Nat → Quat R) (a : Nat → Nat → Quat R) (h : GerArgs m M N X INCX Y INCY A LDA x y a) (hinc : INCX ≠ 1)
    (hz : r = 0 ∨ M ≤ 0 ∨ ∀ j, j < N.toNat → (y j).toH = 0) :
    geruF M N (.d r) X INCX Y INCY A LDA m = .ok ((), m) ∧ gercF M N (.d r) X INCX Y INCY A LDA m = .ok ((), m) := by
  have mk : ∀ p : Prog R Unit, wp p m (fun _ m' => m' = m) → p m = .ok ((), m) := by
    rintro p ⟨_, m', e, rfl⟩; exact e
  have hYr : ∀ i, i < N.toNat → readQ m (Y + 4 * ((if INCY > 0 then 1 else 1 - (N - 1) * INCY) + i * INCY - 1)) =
      some (y i) := by
    intro i hi
    rw [fstart, fbase_eq]; exact h.hY i hi
  by_cases hr : r = 0
  · subst hr
    constructor
    · unfold geruF hgerud; simp [ArithEq.feq]; rfl
    · unfold gercF hgercd; simp [ArithEq.feq]; rfl
  have hz' : M ≤ 0 ∨ ∀ j, j < N.toNat → (y j).toH = 0 := by
    rcases hz with h | h | h
    · exact absurd h hr
    · exact .inl h
    · exact .inr h
  by_cases hMN : M = 0 ∨ N = 0
  · constructor
    · unfold geruF hgerud; rcases hMN with h | h <;> simp [h] <;> rfl
    · unfold gercF hgercd; rcases hMN with h | h <;> simp [h] <;> rfl
  push Not at hMN
  constructor
  · apply mk
    unfold geruF hgerud
    simp only [hMN.1, hMN.2, decide_false, Bool.false_or, ArithEq.feq, show (zero : R) = 0 from rfl, hr, Bool.false_eq_true,
      if_false]
    rw [wp_bind, wp_fstart, wp_bind]
    unfold hgerud_if34
    rw [decide_eq_false hinc]
    simp only [Bool.false_eq_true, if_false]
    rw [wp_bind, wp_fstart, wp_bind]
    refine wp_foldN (fun j s m' => s = (if INCY > 0 then 1 else 1 - (N - 1) * INCY) + (j:Int) * INCY ∧ m' = m)
      (by simp) ?_ ?_
    · rintro j s m' hj ⟨rfl, rfl⟩
      unfold hgerud_40_J hgerud_if53
      have hyi := hYr j hj
      simp only [wp_bind, el2c_1, el2c_2, wp_rdC_lo hyi, wp_rdC_hi hyi, wp_ite]
      split
      · rename_i hne
        rcases hz' with hM | hy
        · simp only [show M.toNat = 0 by omega, foldN, wp_pure]
          exact ⟨by push_cast; ring, trivial⟩
        · exfalso
          have c := hy j hj
          have e0 := congrArg QuaternionAlgebra.re c
          have e1 := congrArg QuaternionAlgebra.imI c
          have e2 := congrArg QuaternionAlgebra.imJ c
          have e3 := congrArg QuaternionAlgebra.imK c
          simp at e0 e1 e2 e3
          simp [Cplx.feq, Quat.lo, Quat.hi, e0, e1, e2, e3] at hne
      · simp only [wp_pure]
        exact ⟨by push_cast; ring, trivial⟩
    · rintro _ m' ⟨_, rfl⟩
      simp only [wp_pure]
  · apply mk
    unfold gercF hgercd
    simp only [hMN.1, hMN.2, decide_false, Bool.false_or, ArithEq.feq, show (zero : R) = 0 from rfl, hr, Bool.false_eq_true,
      if_false]
    rw [wp_bind, wp_fstart, wp_bind]
    unfold hgercd_if34
    rw [decide_eq_false hinc]
    simp only [Bool.false_eq_true, if_false]
    rw [wp_bind, wp_fstart, wp_bind]
    refine wp_foldN (fun j s m' => s = (if INCY > 0 then 1 else 1 - (N - 1) * INCY) + (j:Int) * INCY ∧ m' = m)
      (by simp) ?_ ?_
    · rintro j s m' hj ⟨rfl, rfl⟩
      unfold hgercd_40_J hgercd_if53
      have hyi := hYr j hj
      simp only [wp_bind, el2c_1, el2c_2, wp_rdC_lo hyi, wp_rdC_hi hyi, wp_ite]
      split
      · rename_i hne
        rcases hz' with hM | hy
        · simp only [show M.toNat = 0 by omega, foldN, wp_pure]
          exact ⟨by push_cast; ring, trivial⟩
        · exfalso
          have c := hy j hj
          have e0 := congrArg QuaternionAlgebra.re c
          have e1 := congrArg QuaternionAlgebra.imI c
          have e2 := congrArg QuaternionAlgebra.imJ c
          have e3 := congrArg QuaternionAlgebra.imK c
          simp at e0 e1 e2 e3
          simp [Cplx.feq, Quat.lo, Quat.hi, e0, e1, e2, e3] at hne
      · simp only [wp_pure]
        exact ⟨by push_cast; ring, trivial⟩
    · rintro _ m' ⟨_, rfl⟩
      simp only [wp_pure]

/-- C31, exactly: GERU and GERC do the rank-one update if and only if the call is not one with a real
ALPHA ≠ 0, `INCX ≠ 1`, `M > 0` and a y that is not zero. -/
theorem C31_fortran_exact (m : Mem R) (M N : Int) (ALPHA : Scal R) (X INCX Y INCY A LDA : Int)
    (x y : Nat → Quat R) (a : Nat → Nat → Quat R) (h : GerArgs m M N X INCX Y INCY A LDA x y a) :
    (IsGeru (geruF M N ALPHA X INCX Y INCY A LDA) m M N ALPHA A LDA x y a ↔
      ¬ (∃ r, ALPHA = .d r ∧ r ≠ 0 ∧ INCX ≠ 1 ∧ 0 < M ∧ ∃ j, j < N.toNat ∧ (y j).toH ≠ 0)) ∧
    (IsGerc (gercF M N ALPHA X INCX Y INCY A LDA) m M N ALPHA A LDA x y a ↔
      ¬ (∃ r, ALPHA = .d r ∧ r ≠ 0 ∧ INCX ≠ 1 ∧ 0 < M ∧ ∃ j, j < N.toNat ∧ (y j).toH ≠ 0)) := by
  have trivialCase : ∀ r, ALPHA = .d r → INCX ≠ 1 →
      ¬ (∃ r, ALPHA = .d r ∧ r ≠ 0 ∧ INCX ≠ 1 ∧ 0 < M ∧ ∃ j, j < N.toNat ∧ (y j).toH ≠ 0) →
      IsGeru (geruF M N ALPHA X INCX Y INCY A LDA) m M N ALPHA A LDA x y a ∧
      IsGerc (gercF M N ALPHA X INCX Y INCY A LDA) m M N ALPHA A LDA x y a := by
    intro r he hinc hn
    subst he
    have hz : r = 0 ∨ M ≤ 0 ∨ ∀ j, j < N.toNat → (y j).toH = 0 := by
      by_contra hc
      push Not at hc
      exact hn ⟨r, rfl, hc.1, hinc, hc.2.1, hc.2.2⟩
    obtain ⟨e1, e2⟩ := ger_real_nothing m M N r X INCX Y INCY A LDA x y a h hinc hz
    refine ⟨⟨m, e1, ?_, fun _ _ => rfl⟩, ⟨m, e2, ?_, fun _ _ => rfl⟩⟩
    · intro i j hi hj
      have : (Scal.d r).toH * (x i).toH * (y j).toH = 0 := by
        rcases hz with rfl | hM | hy
        · have : (Scal.d (0:R)).toH = 0 := by ext <;> rfl
          simp [this]
        · omega
        · simp [hy j hj]
      rw [h.hA i j hi hj]
      simp only [this]
      simp
    · intro i j hi hj
      have : (Scal.d r).toH * (x i).toH * star (y j).toH = 0 := by
        rcases hz with rfl | hM | hy
        · have : (Scal.d (0:R)).toH = 0 := by ext <;> rfl
          simp [this]
        · omega
        · simp [hy j hj]
      rw [h.hA i j hi hj]
      simp only [this]
      simp
  constructor
  · constructor
    · rintro ⟨m', e, _⟩ ⟨r, rfl, hr, hinc, hM, hy⟩
      rw [(C31_real_strided_violated m M N r X INCX Y INCY A LDA x y a h hr hinc hM hy).1] at e
      cases e
    · intro hn
      by_cases hd : ∃ r, ALPHA = .d r ∧ INCX ≠ 1
      · obtain ⟨r, he, hinc⟩ := hd
        exact (trivialCase r he hinc hn).1
      · exact C31_geru_partial m M N ALPHA X INCX Y INCY A LDA x y a h
          (fun r he => by by_contra hc; exact hd ⟨r, he, hc⟩)
  · constructor
    · rintro ⟨m', e, _⟩ ⟨r, rfl, hr, hinc, hM, hy⟩
      rw [(C31_real_strided_violated m M N r X INCX Y INCY A LDA x y a h hr hinc hM hy).2] at e
      cases e
    · intro hn
      by_cases hd : ∃ r, ALPHA = .d r ∧ INCX ≠ 1
      · obtain ⟨r, he, hinc⟩ := hd
        exact (trivialCase r he hinc hn).2
      · exact C31_gerc_partial m M N ALPHA X INCX Y INCY A LDA x y a h
          (fun r he => by by_contra hc; exact hd ⟨r, he, hc⟩)

end

/-- Non-vacuity for C31: A is 2×3 with leading dimension 4, x has increment 2, y increment −1. -/
theorem gerArgs_example : GerArgs (memOf 0 200 (fun a => a)) 2 3 60 2 90 (-1) 0 4
    (fun i => let p : Int := 60 + 4 * ((i:Int) * 2); ⟨p, p+1, p+2, p+3⟩)
    (fun i => let p : Int := 98 + 4 * ((i:Int) * (-1)); ⟨p, p+1, p+2, p+3⟩)
    (fun i j => let p : Int := 0 + 4 * ((i:Int) + j * 4); ⟨p, p+1, p+2, p+3⟩) where
  hA := by
    intro i j hi hj
    have h1 : i < 2 := hi
    have h2 : j < 3 := hj
    exact readQ_memOf (by omega) (by omega)
  hX := by
    intro i hi
    have h1 : i < 2 := hi
    exact readQ_memOf (by omega) (by omega)
  hY := by
    intro i hi
    have h1 : i < 3 := hi
    exact readQ_memOf (by omega) (by omega)
  hld := by omega
  hXA := by
    rintro c ⟨i, hi, h⟩ ⟨i', j', hi', hj', h'⟩
    have h1 : i < 2 := hi
    have h2 : i' < 2 := hi'
    have h3 : j' < 3 := hj'
    simp at h
    unfold InQ at *; omega
  hYA := by
    rintro c ⟨i, hi, h⟩ ⟨i', j', hi', hj', h'⟩
    have h1 : i < 3 := hi
    have h2 : i' < 2 := hi'
    have h3 : j' < 3 := hj'
    simp at h
    unfold InQ at *; omega

example : ∃ x y a, IsGerc (gercF (F := Int) 2 3 (.h ⟨1, 2, 3, 4⟩) 60 2 90 (-1) 0 4) (memOf 0 200 (fun a => a)) 2 3
    (.h ⟨1, 2, 3, 4⟩) 0 4 x y a :=
  ⟨_, _, _, C31_gerc_partial _ 2 3 _ 60 2 90 (-1) 0 4 _ _ _ gerArgs_example (by intro r h; exact absurd h (by simp))⟩

example : geruF (F := Int) 2 3 (.d 5) 60 2 90 (-1) 0 4 (memOf 0 200 (fun a => a)) = .error .uninit :=
  (C31_real_strided_violated _ 2 3 5 60 2 90 (-1) 0 4 _ _ _ gerArgs_example (by decide) (by decide) (by decide)
    ⟨0, by decide, by
      intro h
      have := congrArg QuaternionAlgebra.re h
      simp at this⟩).1

end Haxx
