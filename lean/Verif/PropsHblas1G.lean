import Verif.PropsHblas1
import Verif.PropsGemm
import Verif.Generic1Proofs
import Verif.FHblas1Proofs2

/-!
# Property theorems: the three implementations of level 1 (C18, C19)

`…AVX` is the SIMD build, `…Gen` the portable templates, `…F` the Fortran build.
-/

namespace Haxx
open Quaternion Finset

section ext
variable {F : Type}

/-- Two memories holding the same vector and agreeing with `m` elsewhere are equal. -/
theorem mem_ext_vec {m m1 m2 : Mem F} {p inc : Int} {n : Nat} {v : Nat → Quat F}
    (h1 : VecAt m1 p inc n v) (h2 : VecAt m2 p inc n v) (s1 : SameOutside (VecCell p inc n) m m1)
    (s2 : SameOutside (VecCell p inc n) m m2) : m1 = m2 := by
  funext a
  by_cases hc : VecCell p inc n a
  · obtain ⟨i, hi, ha⟩ := hc
    exact mem_eq_of_readQ (h1 i hi) (h2 i hi) ha
  · rw [s1 a hc, s2 a hc]

/-- C18. COPYV: the portable template and the SIMD routine leave the same memory, bit for bit. -/
theorem C18_copyv (m : Mem F) (N X INCX Y INCY : Int) (x y : Nat → Quat F)
    (hx : 0 < INCX) (hy : 0 < INCY) (fx : Fits32 (N * INCX)) (fy : Fits32 (N * INCY))
    (hX : VecAt m X INCX N.toNat x) (hY : VecAt m Y INCY N.toNat y)
    (hdis : Apart (VecCell X INCX N.toNat) (VecCell Y INCY N.toNat)) :
    ∃ m', copyvAVX N X INCX Y INCY m = .ok ((), m') ∧ copyvGen N X INCX Y INCY m = .ok ((), m') ∧
      VecAt m' Y INCY N.toNat x := by
  obtain ⟨_, m1, h1, a1, b1⟩ := copyvAVX_wp hX hY (Or.inl (by omega)) hdis
  obtain ⟨_, m2, h2, a2, b2⟩ := copyvGen_wp hx hy fx fy hX hY hdis
  have := mem_ext_vec a1 a2 b1 b2
  subst this
  exact ⟨m1, h1, h2, a1⟩

/-- C18. SWAPV: the portable template and the SIMD routine leave the same memory, bit for bit. -/
theorem C18_swapv (m : Mem F) (N X INCX Y INCY : Int) (x y : Nat → Quat F)
    (hx : 0 < INCX) (hy : 0 < INCY) (fx : Fits32 (N * INCX)) (fy : Fits32 (N * INCY))
    (hX : VecAt m X INCX N.toNat x) (hY : VecAt m Y INCY N.toNat y)
    (hdis : Apart (VecCell X INCX N.toNat) (VecCell Y INCY N.toNat)) :
    ∃ m', swapvAVX N X INCX Y INCY m = .ok ((), m') ∧ swapvGen N X INCX Y INCY m = .ok ((), m') ∧
      VecAt m' X INCX N.toNat y ∧ VecAt m' Y INCY N.toNat x := by
  obtain ⟨_, m1, h1, a1, b1, c1⟩ := swapvAVX_wp hX hY (Or.inl (by omega)) (Or.inl (by omega)) hdis
  obtain ⟨_, m2, h2, a2, b2, c2⟩ := swapvGen_wp hx hy fx fy hX hY hdis
  have : m1 = m2 := by
    funext a
    by_cases hc : VecCell X INCX N.toNat a
    · obtain ⟨i, hi, ha⟩ := hc
      exact mem_eq_of_readQ (a1 i hi) (a2 i hi) ha
    · by_cases hc' : VecCell Y INCY N.toNat a
      · obtain ⟨i, hi, ha⟩ := hc'
        exact mem_eq_of_readQ (b1 i hi) (b2 i hi) ha
      · rw [c1 a (by tauto), c2 a (by tauto)]
  subst this
  exact ⟨m1, h1, h2, a1, b1⟩

end ext

section exact
variable {R : Type} [CommRing R] [DecidableEq R]

theorem fbase_pos {X N INC : Int} (h : 0 < INC) : fbase X N INC = X := by
  unfold fbase; rw [if_neg (by omega)]

theorem lsame_RL : lsame 'R' 'L' = false := by decide
theorem lsame_RR : lsame 'R' 'R' = true := by decide

/-- C18. SCALV with non-zero ALPHA: SIMD, portable and Fortran leave the same memory. -/
theorem C18_scalv (m : Mem R) (SIDE : Char) (N X INCX : Int) (ALPHA : Scal R) (x : Nat → Quat R)
    (hS : SIDE = 'L' ∨ SIDE = 'R') (hz : ALPHA.toH ≠ 0)
    (hx : 0 < INCX) (fx : Fits32 (N * INCX)) (hX : VecAt m X INCX N.toNat x) :
    ∃ m', scalvAVX SIDE N ALPHA X INCX m = .ok ((), m') ∧
      scalvGen SIDE N ALPHA X INCX m = .ok ((), m') ∧
      scalvF SIDE N ALPHA X INCX m = .ok ((), m') ∧
      VecAt m' X INCX N.toNat (fun i => Quat.ofH
        (if SIDE = 'L' then ALPHA.toH * (x i).toH else (x i).toH * ALPHA.toH)) := by
  have hz' : ALPHA.allZero = false := by
    rw [Bool.eq_false_iff]; intro h; exact hz ((allZero_iff _).mp h)
  obtain ⟨m1, h1, a1, b1⟩ := C13_scalv m SIDE N X INCX ALPHA x hX (by omega)
  obtain ⟨_, m2, h2, a2, b2⟩ := scalvGen_wp (SIDE := SIDE) (ALPHA := ALPHA) hx fx hX
  have hb : fbase X N INCX = X := fbase_pos hx
  obtain ⟨_, m3, h3, a3, b3⟩ := scalvF_wp (SIDE := SIDE) (INCX := INCX) (X := X) (N := N) hz'
    (by omega) (by rw [hb]; exact hX)
  rw [hb] at a3 b3
  have e2 : (fun i => if SIDE = 'R' then Scal.mulR (x i) ALPHA else ALPHA.mulL (x i)) =
      (fun i => Quat.ofH (if SIDE = 'L' then ALPHA.toH * (x i).toH else (x i).toH * ALPHA.toH)) := by
    funext i
    apply eq_ofH
    rcases hS with rfl | rfl
    · simp [toH_smulL]
    · simp [toH_smulR]
  have e3 : (fun i => Quat.ofH (sideMul (lsame 'R' SIDE) ALPHA.toH (x i))) =
      (fun i => Quat.ofH (if SIDE = 'L' then ALPHA.toH * (x i).toH else (x i).toH * ALPHA.toH)) := by
    funext i
    rcases hS with rfl | rfl
    · rw [lsame_RL]; simp [sideMul]
    · rw [lsame_RR]; simp [sideMul]
  rw [e2] at a2
  rw [e3] at a3
  have q2 := mem_ext_vec a1 a2 b1 b2
  have q3 := mem_ext_vec a1 a3 b1 b3
  subst q2; subst q3
  exact ⟨m1, h1, h2, h3, a1⟩

/-- C18 (partial: ALPHA not a non-zero pure `k` quaternion; for those the portable template does
nothing, see `C18_axpyv_violated`).  AXPYV: SIMD, portable and Fortran leave the same memory. -/
theorem C18_axpyv_partial (m : Mem R) (SIDE : Char) (N X INCX Y INCY : Int) (ALPHA : Scal R)
    (x y : Nat → Quat R)
    (hS : SIDE = 'L' ∨ SIDE = 'R') (hk : ¬ ALPHA.pureK)
    (hx : 0 < INCX) (hy : 0 < INCY) (fx : Fits32 (N * INCX)) (fy : Fits32 (N * INCY))
    (hX : VecAt m X INCX N.toNat x) (hY : VecAt m Y INCY N.toNat y)
    (hdis : Apart (VecCell X INCX N.toNat) (VecCell Y INCY N.toNat)) :
    ∃ m', axpyvAVX SIDE N ALPHA X INCX Y INCY m = .ok ((), m') ∧
      axpyvGen SIDE N ALPHA X INCX Y INCY m = .ok ((), m') ∧
      axpyvF SIDE N ALPHA X INCX Y INCY m = .ok ((), m') ∧
      VecAt m' Y INCY N.toNat (fun i => Quat.ofH ((y i).toH +
        (if SIDE = 'L' then ALPHA.toH * (x i).toH else (x i).toH * ALPHA.toH))) := by
  obtain ⟨m1, h1, a1, _, b1⟩ := C14_axpyv m SIDE N X INCX Y INCY ALPHA x y hX hY (by omega) hdis
  have hbx : fbase X N INCX = X := fbase_pos hx
  have hby : fbase Y N INCY = Y := fbase_pos hy
  obtain ⟨_, m3, h3, a3, b3⟩ := axpyvF_wp (SIDE := SIDE) (ALPHA := ALPHA) (INCX := INCX) (X := X)
    (N := N) (Y := Y) (INCY := INCY) (m0 := m) (x := x) (y := y) (by omega)
    (by rw [hbx]; exact hX) (by rw [hby]; exact hY) (by rw [hbx, hby]; exact hdis)
  rw [hby] at a3 b3
  have e3 : (fun i => Quat.ofH ((y i).toH + sideMul (lsame 'R' SIDE) ALPHA.toH (x i))) =
      (fun i => Quat.ofH ((y i).toH +
        (if SIDE = 'L' then ALPHA.toH * (x i).toH else (x i).toH * ALPHA.toH))) := by
    funext i
    rcases hS with rfl | rfl
    · rw [lsame_RL]; simp [sideMul]
    · rw [lsame_RR]; simp [sideMul]
  rw [e3] at a3
  have q3 := mem_ext_vec a1 a3 b1 b3
  subst q3
  refine ⟨m1, h1, ?_, h3, a1⟩
  cases hz : ALPHA.eqZero with
  | true =>
    have h0 : ALPHA.toH = 0 := (eqZero_cases hz).resolve_right hk
    have : m1 = m := by
      have hY' : VecAt m Y INCY N.toNat (fun i => Quat.ofH ((y i).toH +
          (if SIDE = 'L' then ALPHA.toH * (x i).toH else (x i).toH * ALPHA.toH))) := by
        intro i hi; rw [hY i hi, h0]; simp
      exact mem_ext_vec a1 hY' b1 (fun _ _ => rfl)
    subst this
    unfold axpyvGen
    rw [hz]
    by_cases hg : N ≤ 0
    · rw [if_pos hg]; rfl
    · rw [if_neg hg, if_pos rfl]; rfl
  | false =>
    obtain ⟨_, m2, h2, a2, b2⟩ := axpyvGen_wp (SIDE := SIDE) hx hy fx fy hz hX hY hdis
    have e2 : (fun i => Quat.addAssign (y i)
        (if SIDE = 'R' then Scal.mulR (x i) ALPHA else ALPHA.mulL (x i))) =
        (fun i => Quat.ofH ((y i).toH +
          (if SIDE = 'L' then ALPHA.toH * (x i).toH else (x i).toH * ALPHA.toH))) := by
      funext i
      apply eq_ofH
      rw [toH_addAssign]
      rcases hS with rfl | rfl
      · simp [toH_smulL]
      · simp [toH_smulR]
    rw [e2] at a2
    have q2 := mem_ext_vec a1 a2 b1 b2
    subst q2
    exact h2

/-- C18, violated: for every non-zero pure-`k` quaternion ALPHA the portable AXPYV adds nothing. -/
theorem C18_axpyv_pureK_ignored (m : Mem R) (SIDE : Char) (N X INCX Y INCY : Int) (ALPHA : Scal R)
    (hk : ALPHA.pureK) : axpyvGen SIDE N ALPHA X INCX Y INCY m = .ok ((), m) := by
  have hz : ALPHA.eqZero = true := by
    cases ALPHA with
    | d a => exact hk.elim
    | z a => exact hk.elim
    | h a =>
      obtain ⟨h1, h2, h3, _⟩ := hk
      simp [Scal.eqZero, Quat.eqOp, Quat.mkReal, h1, h2, h3]
  unfold axpyvGen
  rw [hz]
  by_cases hg : N ≤ 0
  · rw [if_pos hg]; rfl
  · rw [if_neg hg, if_pos rfl]; rfl

/-- C18, violated: one element, ALPHA = k. The SIMD and Fortran builds agree with each other and
not with the portable one. -/
theorem C18_axpyv_violated :
    ∃ (m : Mem Int) (x y : Nat → Quat Int), VecAt m 0 1 1 x ∧ VecAt m 4 1 1 y ∧
      axpyvAVX 'L' 1 (.h ⟨0, 0, 0, 1⟩) 0 1 4 1 m = axpyvF 'L' 1 (.h ⟨0, 0, 0, 1⟩) 0 1 4 1 m ∧
      axpyvAVX 'L' 1 (.h ⟨0, 0, 0, 1⟩) 0 1 4 1 m ≠ axpyvGen 'L' 1 (.h ⟨0, 0, 0, 1⟩) 0 1 4 1 m := by
  have hX : VecAt (memOf 0 8 (fun _ => (1:Int))) 0 1 (1:Int).toNat (fun _ => ⟨1, 1, 1, 1⟩) := by
    intro i hi; have : i < 1 := hi; exact readQ_memOf (by omega) (by omega)
  have hY : VecAt (memOf 0 8 (fun _ => (1:Int))) 4 1 (1:Int).toNat (fun _ => ⟨1, 1, 1, 1⟩) := by
    intro i hi; have : i < 1 := hi; exact readQ_memOf (by omega) (by omega)
  have hd : Apart (VecCell 0 1 (1:Int).toNat) (VecCell 4 1 (1:Int).toNat) := by
    rintro a ⟨i, hi, h⟩ ⟨j, hj, h'⟩
    have h1 : i < 1 := hi
    have h2 : j < 1 := hj
    unfold InQ at *; omega
  refine ⟨memOf 0 8 (fun _ => 1), fun _ => ⟨1, 1, 1, 1⟩, fun _ => ⟨1, 1, 1, 1⟩, hX, hY, ?_, ?_⟩
  · obtain ⟨m1, h1, a1, _, b1⟩ := C14_axpyv _ 'L' 1 0 1 4 1 (.h ⟨0, 0, 0, 1⟩) _ _ hX hY (by omega) hd
    obtain ⟨_, m3, h3, a3, b3⟩ := axpyvF_wp (SIDE := 'L') (ALPHA := (.h ⟨0, 0, 0, 1⟩ : Scal Int))
      (INCX := 1) (X := 0) (N := 1) (Y := 4) (INCY := 1) (by omega) hX hY hd
    have : m1 = m3 := by
      refine mem_ext_vec a1 ?_ b1 b3
      rw [lsame_RL, fbase_pos (by omega)] at a3
      simpa [sideMul] using a3
    rw [h1, h3, this]
  · obtain ⟨m1, h1, a1, _, _⟩ := C14_axpyv _ 'L' 1 0 1 4 1 (.h ⟨0, 0, 0, 1⟩) _ _ hX hY (by omega) hd
    rw [h1, C18_axpyv_pureK_ignored _ _ _ _ _ _ _ _ (by simp [Scal.pureK])]
    intro h
    have hm : m1 = memOf 0 8 (fun _ => (1:Int)) := by injection h with h; injection h
    subst hm
    have := (a1 0 (by decide)).symm.trans (hY 0 (by decide))
    simp only [Option.some.injEq, if_true] at this
    have h2 := congrArg (fun q : Quat Int => q.re) this
    simp [Scal.toH, Quat.ofH] at h2

/-- C18. DOTUV/DOTCV: SIMD, portable and Fortran return the same value and leave memory alone. -/
theorem C18_dot (m : Mem R) (conj : Bool) (N X INCX Y INCY : Int) (x y : Nat → Quat R)
    (hx : 0 < INCX) (hy : 0 < INCY) (fx : Fits32 (N * INCX)) (fy : Fits32 (N * INCY))
    (hx32 : Fits32 (4 * INCX)) (hy32 : Fits32 (4 * INCY))
    (hX : VecAt m X INCX N.toNat x) (hY : VecAt m Y INCY N.toNat y) :
    ∃ v, dotAVX conj N X INCX Y INCY m = .ok (v, m) ∧ dotGen conj N X INCX Y INCY m = .ok (v, m) ∧
      dotF conj N X INCX Y INCY m = .ok (v, m) ∧
      v = Quat.ofH (∑ i ∈ range N.toNat,
        (if conj then star (x i).toH else (x i).toH) * (y i).toH) := by
  have hbx : fbase X N INCX = X := fbase_pos hx
  have hby : fbase Y N INCY = Y := fbase_pos hy
  obtain ⟨v2, m2, h2, rfl, e2⟩ := dotGen_wp (conj := conj) hx hy fx fy hX hY
  obtain ⟨v3, m3, h3, rfl, e3⟩ := dotF_wp (conj := conj) (N := N) (X := X) (INCX := INCX) (Y := Y)
    (INCY := INCY) (by rw [hbx]; exact hX) (by rw [hby]; exact hY)
  refine ⟨_, ?_, ?_, ?_, rfl⟩
  · cases conj
    · exact (C15_dot m3 N X INCX Y INCY x y hX hY hx32 hy32).1
    · exact (C15_dot m3 N X INCX Y INCY x y hX hY hx32 hy32).2
  · rw [h2, eq_ofH e2]
  · rw [h3, eq_ofH e3]

/-! ### C19 -/

/-- The property C19 of one implementation of SCALV. -/
def ZeroesVector (SCALV : Char → Int → Scal R → Int → Int → Prog R Unit) : Prop :=
  ∀ (m : Mem R) (SIDE : Char) (N X INCX : Int) (ALPHA : Scal R) (x : Nat → Quat R),
    ALPHA.toH = 0 → 0 < INCX → Fits32 (N * INCX) → VecAt m X INCX N.toNat x →
    ∃ m', SCALV SIDE N ALPHA X INCX m = .ok ((), m') ∧
      VecAt m' X INCX N.toNat (fun _ => ⟨0, 0, 0, 0⟩) ∧ SameOutside (VecCell X INCX N.toNat) m m'

/-- C19 (partial: SIMD and portable builds only; the Fortran build violates it, see
`C19_fortran_violated`). -/
theorem C19_simd_portable_partial : ZeroesVector (R := R) scalvAVX ∧ ZeroesVector (R := R) scalvGen := by
  constructor
  · intro m SIDE N X INCX ALPHA x h0 hx fx hX
    obtain ⟨m', h, h1, h2⟩ := C13_scalv m SIDE N X INCX ALPHA x hX (by omega)
    refine ⟨m', h, ?_, h2⟩
    intro i hi
    rw [h1 i hi, h0]
    simp only [zero_mul, mul_zero, ite_self]
    rfl
  · intro m SIDE N X INCX ALPHA x h0 hx fx hX
    obtain ⟨_, m', h, h1, h2⟩ := scalvGen_wp (SIDE := SIDE) (ALPHA := ALPHA) hx fx hX
    refine ⟨m', h, ?_, h2⟩
    intro i hi
    rw [h1 i hi]
    congr 1
    rw [← toH_inj]
    have : (⟨0, 0, 0, 0⟩ : Quat R).toH = 0 := by ext <;> simp
    rw [this]
    by_cases hs : SIDE = 'R' <;> simp [hs, toH_smulL, toH_smulR, h0]

/-- C19, violated: the Fortran SCALV with zero ALPHA never touches memory. -/
theorem C19_fortran_ignored (m : Mem R) (SIDE : Char) (N X INCX : Int) (ALPHA : Scal R)
    (h0 : ALPHA.toH = 0) : scalvF SIDE N ALPHA X INCX m = .ok ((), m) :=
  scalvF_zero ((allZero_iff _).mpr h0)

/-- C19, violated by the Fortran build (over any ring where `0 ≠ 1`). -/
theorem C19_fortran_violated [Nontrivial R] : ¬ ZeroesVector (R := R) scalvF := by
  intro h
  have hX : VecAt (memOf 0 4 (fun _ => (1:R))) 0 1 (1:Int).toNat (fun _ => ⟨1, 1, 1, 1⟩) := by
    intro i hi; have : i < 1 := hi; exact readQ_memOf (by omega) (by omega)
  have h0 : (Scal.d (0:R)).toH = 0 := by simp [Scal.toH]
  obtain ⟨m', h1, h2, _⟩ := h _ 'L' 1 0 1 (.d 0) _ h0 (by omega) (by unfold Fits32; omega) hX
  rw [C19_fortran_ignored _ _ _ _ _ _ h0] at h1
  have hm : memOf 0 4 (fun _ => (1:R)) = m' := by injection h1 with h1; injection h1
  subst hm
  have := (hX 0 (by decide)).symm.trans (h2 0 (by decide))
  simp only [Option.some.injEq] at this
  have h2 := congrArg (fun q : Quat R => q.re) this
  simp at h2

end exact

/-! ### Outside the shared domain the builds differ -/

/-- Lower-case SIDE: 'r' means right for the SIMD and Fortran builds and left for the portable one;
'l' means right for the SIMD build and left for the other two.  (Why C18 restricts SIDE.) -/
example :
    let m := memOf 0 4 (fun a => a + 1)
    let α : Scal Int := .h ⟨0, 1, 0, 0⟩
    let rd (p : Prog Int Unit) := (p m).map (fun r => readQ r.2 0)
    rd (scalvAVX 'r' 1 α 0 1) = rd (scalvF 'r' 1 α 0 1) ∧
    rd (scalvAVX 'r' 1 α 0 1) ≠ rd (scalvGen 'r' 1 α 0 1) ∧
    rd (scalvF 'l' 1 α 0 1) = rd (scalvGen 'l' 1 α 0 1) ∧
    rd (scalvAVX 'l' 1 α 0 1) ≠ rd (scalvGen 'l' 1 α 0 1) := by
  decide

/-- Non-vacuity: seven elements with increments 2 and 3 meet the hypotheses of the agreement
theorems, as do eleven with unit increments (one pass of each unrolled loop and a remainder). -/
example : ∃ (m : Mem Int) (x y : Nat → Quat Int),
    VecAt m 0 2 (7:Int).toNat x ∧ VecAt m 60 3 (7:Int).toNat y ∧
    Apart (VecCell 0 2 (7:Int).toNat) (VecCell 60 3 (7:Int).toNat) ∧
    Fits32 (7 * 2) ∧ Fits32 (7 * 3) ∧ Fits32 (4 * 2) ∧ Fits32 (4 * 3) ∧ x 1 ≠ y 1 ∧
    ¬ (Scal.h (⟨0, 0, 1, 1⟩ : Quat Int)).pureK ∧ (Scal.h (⟨0, 0, 1, 1⟩ : Quat Int)).toH ≠ 0 := by
  refine ⟨memOf 0 200 id, fun i => ⟨0 + 4 * (i * 2), 0 + 4 * (i * 2) + 1, 0 + 4 * (i * 2) + 2,
      0 + 4 * (i * 2) + 3⟩, fun i => ⟨60 + 4 * (i * 3), 60 + 4 * (i * 3) + 1,
      60 + 4 * (i * 3) + 2, 60 + 4 * (i * 3) + 3⟩, ?_, ?_, ?_, by unfold Fits32; decide,
      by unfold Fits32; decide, by unfold Fits32; decide, by unfold Fits32; decide, by decide,
      by simp [Scal.pureK], ?_⟩
  · intro i hi
    have : i < 7 := hi
    exact readQ_memOf (by omega) (by omega)
  · intro i hi
    have : i < 7 := hi
    exact readQ_memOf (by omega) (by omega)
  · rintro a ⟨i, hi, h⟩ ⟨j, hj, h'⟩
    have h1 : i < 7 := hi
    have h2 : j < 7 := hj
    unfold InQ at *
    omega
  · intro h
    have := congrArg QuaternionAlgebra.imK h
    simp [Scal.toH] at this

end Haxx
