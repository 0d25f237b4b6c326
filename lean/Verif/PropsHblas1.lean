import Verif.Hblas1Proofs
import Verif.PropsScalar
import Mathlib.Tactic.FinCases
import Mathlib.Algebra.BigOperators.Ring.Finset
import Mathlib.Algebra.Order.BigOperators.Group.Finset

/-!
# Property theorems: SIMD level-1 routines (C11–C17, C39, C40)
-/

namespace Haxx
open Quaternion Finset

/-- A memory holding `f a` at the addresses `lo ≤ a < hi`, nothing else (for examples). -/
def memOf {F : Type} (lo hi : Int) (f : Int → F) : Mem F :=
  fun a => if lo ≤ a ∧ a < hi then some (f a) else none

theorem readQ_memOf {F : Type} {lo hi : Int} {f : Int → F} {p : Int} (h1 : lo ≤ p)
    (h2 : p + 3 < hi) : readQ (memOf lo hi f) p = some ⟨f p, f (p+1), f (p+2), f (p+3)⟩ := by
  rw [readQ_eq_some]
  unfold memOf
  refine ⟨?_, ?_, ?_, ?_⟩ <;> rw [if_pos (by omega)]

section bits
variable {F : Type}

/-! ### C11, C12: no arithmetic involved, so these hold for the bits of any payload -/

/-- C11. COPYV copies the strided vector and touches nothing else, without fault. -/
theorem C11_copyv (m : Mem F) (N X INCX Y INCY : Int) (x y : Nat → Quat F)
    (hX : VecAt m X INCX N.toNat x) (hY : VecAt m Y INCY N.toNat y) (hinc : INCY ≠ 0)
    (hdis : Apart (VecCell X INCX N.toNat) (VecCell Y INCY N.toNat)) :
    ∃ m', copyvAVX N X INCX Y INCY m = .ok ((), m') ∧
      VecAt m' Y INCY N.toNat x ∧ VecAt m' X INCX N.toNat x ∧
      SameOutside (VecCell Y INCY N.toNat) m m' := by
  obtain ⟨_, m', h, h1, h2⟩ := copyvAVX_wp hX hY (Or.inl hinc) hdis
  exact ⟨m', h, h1, vecAt_apart hX hdis h2, h2⟩

/-- C12. SWAPV exchanges the vectors and touches nothing else, without fault. -/
theorem C12_swapv (m : Mem F) (N X INCX Y INCY : Int) (x y : Nat → Quat F)
    (hX : VecAt m X INCX N.toNat x) (hY : VecAt m Y INCY N.toNat y)
    (hincx : INCX ≠ 0) (hincy : INCY ≠ 0)
    (hdis : Apart (VecCell X INCX N.toNat) (VecCell Y INCY N.toNat)) :
    ∃ m', swapvAVX N X INCX Y INCY m = .ok ((), m') ∧
      VecAt m' X INCX N.toNat y ∧ VecAt m' Y INCY N.toNat x ∧
      SameOutside (fun a => VecCell X INCX N.toNat a ∨ VecCell Y INCY N.toNat a) m m' := by
  obtain ⟨_, m', h, h1⟩ := swapvAVX_wp hX hY (Or.inl hincx) (Or.inl hincy) hdis
  exact ⟨m', h, h1⟩

theorem mem_eq_of_readQ {m m' : Mem F} {p a : Int} {q : Quat F} (h : readQ m p = some q)
    (h' : readQ m' p = some q) (ha : InQ p a) : m a = m' a := by
  rw [readQ_eq_some] at h h'
  obtain ⟨h0, h1, h2, h3⟩ := h
  obtain ⟨g0, g1, g2, g3⟩ := h'
  unfold InQ at ha
  have : a = p ∨ a = p+1 ∨ a = p+2 ∨ a = p+3 := by omega
  rcases this with rfl | rfl | rfl | rfl
  · rw [h0, g0]
  · rw [h1, g1]
  · rw [h2, g2]
  · rw [h3, g3]

/-- C12. Swapping twice restores the memory exactly. -/
theorem C12_swap_twice (m : Mem F) (N X INCX Y INCY : Int) (x y : Nat → Quat F)
    (hX : VecAt m X INCX N.toNat x) (hY : VecAt m Y INCY N.toNat y)
    (hincx : INCX ≠ 0) (hincy : INCY ≠ 0)
    (hdis : Apart (VecCell X INCX N.toNat) (VecCell Y INCY N.toNat)) :
    (do swapvAVX N X INCX Y INCY; swapvAVX N X INCX Y INCY : Prog F Unit) m = .ok ((), m) := by
  obtain ⟨m1, h1, a1, b1, c1⟩ := C12_swapv m N X INCX Y INCY x y hX hY hincx hincy hdis
  obtain ⟨m2, h2, a2, b2, c2⟩ := C12_swapv m1 N X INCX Y INCY y x a1 b1 hincx hincy hdis
  have hm : m2 = m := by
    funext a
    by_cases hc : VecCell X INCX N.toNat a
    · obtain ⟨i, hi, ha⟩ := hc
      exact mem_eq_of_readQ (a2 i hi) (hX i hi) ha
    · by_cases hc' : VecCell Y INCY N.toNat a
      · obtain ⟨i, hi, ha⟩ := hc'
        exact mem_eq_of_readQ (b2 i hi) (hY i hi) ha
      · rw [c2 a (by tauto), c1 a (by tauto)]
  subst hm
  rw [bind_ok h1]; exact h2

end bits

section exact
variable {R : Type} [CommRing R]

/-! ### C13, C14 -/

/-- C13. SCALV multiplies each element by ALPHA on the side asked for; nothing else changes. -/
theorem C13_scalv (m : Mem R) (SIDE : Char) (N X INCX : Int) (ALPHA : Scal R) (x : Nat → Quat R)
    (hX : VecAt m X INCX N.toNat x) (hinc : INCX ≠ 0) :
    ∃ m', scalvAVX SIDE N ALPHA X INCX m = .ok ((), m') ∧
      VecAt m' X INCX N.toNat (fun i => Quat.ofH
        (if SIDE = 'L' then ALPHA.toH * (x i).toH else (x i).toH * ALPHA.toH)) ∧
      SameOutside (VecCell X INCX N.toNat) m m' := by
  obtain ⟨_, m', h, h1, h2⟩ := scalvAVX_wp (SIDE := SIDE) (ALPHA := ALPHA) hX (Or.inl hinc)
  refine ⟨m', h, ?_, h2⟩
  intro i hi
  rw [h1 i hi]
  congr 1
  apply eq_ofH
  rw [toH_scalOp]
  by_cases hs : SIDE = 'L' <;> simp [hs]

/-- C14. AXPYV adds ALPHA times x_i on the side asked for; nothing else changes. -/
theorem C14_axpyv (m : Mem R) (SIDE : Char) (N X INCX Y INCY : Int) (ALPHA : Scal R)
    (x y : Nat → Quat R)
    (hX : VecAt m X INCX N.toNat x) (hY : VecAt m Y INCY N.toNat y) (hinc : INCY ≠ 0)
    (hdis : Apart (VecCell X INCX N.toNat) (VecCell Y INCY N.toNat)) :
    ∃ m', axpyvAVX SIDE N ALPHA X INCX Y INCY m = .ok ((), m') ∧
      VecAt m' Y INCY N.toNat (fun i => Quat.ofH ((y i).toH +
        (if SIDE = 'L' then ALPHA.toH * (x i).toH else (x i).toH * ALPHA.toH))) ∧
      VecAt m' X INCX N.toNat x ∧ SameOutside (VecCell Y INCY N.toNat) m m' := by
  obtain ⟨_, m', h, h1, h2⟩ := axpyvAVX_wp (SIDE := SIDE) (ALPHA := ALPHA) hX hY (Or.inl hinc) hdis
  refine ⟨m', h, ?_, vecAt_apart hX hdis h2, h2⟩
  intro i hi
  rw [h1 i hi]
  congr 1
  apply eq_ofH
  rw [toH_axpyOp]
  by_cases hs : SIDE = 'L' <;> simp [hs]

/-! ### C15 -/

/-- `conj(x)` or `x`. -/
def cj (conj : Bool) (q : ℍ[R]) : ℍ[R] := if conj then star q else q

theorem laneQ_transpose {F : Type} [Arith F] (x1 x2 x3 x4 : Quat F) (l : Fin 4) :
    laneQ (transpose4 ⟨x1, x2, x3, x4⟩) l =
      (match l with | 0 => x1 | 1 => x2 | 2 => x3 | 3 => x4) := by
  fin_cases l <;> rfl

theorem dotBatches_sum (conj : Bool) (x y : Nat → Quat R) (b : Nat) :
    ∑ l : Fin 4, (laneQ (dotBatches conj x y b) l).toH =
      ∑ k ∈ range (4 * b), cj conj (x k).toH * (y k).toH := by
  induction b with
  | zero =>
    simp [dotBatches, Fin.sum_univ_four, laneQ, lane]
    ext <;> simp [setzero]
  | succ b ih =>
    rw [Nat.mul_succ, sum_range_succ, sum_range_succ, sum_range_succ, sum_range_succ, ← ih]
    simp only [dotBatches]
    cases conj
    · simp only [Bool.false_eq_true, if_false, cj, Fin.sum_univ_four, (C09_batched _ _ _ _).2.2.1,
        laneQ_transpose]
      abel
    · simp only [if_true, cj, Fin.sum_univ_four, (C09_batched _ _ _ _).2.2.2,
        laneQ_transpose]
      abel

theorem dotRest_sum (conj : Bool) (x y : Nat → Quat R) (o : Nat) (r : Quat R) (n : Nat) :
    (dotRest conj x y o r n).toH =
      r.toH + ∑ k ∈ range n, cj conj (x (o + k)).toH * (y (o + k)).toH := by
  induction n with
  | zero => simp [dotRest]
  | succ n ih =>
    rw [sum_range_succ, ← add_assoc, ← ih]
    cases conj <;> simp [dotRest, toH_vadd, toH_MULDQ_CN, toH_MULDQ_NN, cj]

theorem dotVal_sum (conj : Bool) (x y : Nat → Quat R) (n : Nat) :
    (dotVal conj n x y).toH = ∑ k ∈ range n, cj conj (x k).toH * (y k).toH := by
  unfold dotVal
  simp only [dotRest_sum]
  have h : n = 4 * (n/4) + n % 4 := by omega
  conv_rhs => rw [h, sum_range_add]
  rw [← dotBatches_sum, Fin.sum_univ_four]
  congr 1

/-- C15. DOTUV returns `∑ x_i y_i`, DOTCV `∑ conj(x_i) y_i`; memory is untouched; no fault. -/
theorem C15_dot (m : Mem R) (N X INCX Y INCY : Int) (x y : Nat → Quat R)
    (hX : VecAt m X INCX N.toNat x) (hY : VecAt m Y INCY N.toNat y)
    (hx32 : Fits32 (4 * INCX)) (hy32 : Fits32 (4 * INCY)) :
    dotAVX false N X INCX Y INCY m =
      .ok (Quat.ofH (∑ i ∈ range N.toNat, (x i).toH * (y i).toH), m) ∧
    dotAVX true N X INCX Y INCY m =
      .ok (Quat.ofH (∑ i ∈ range N.toNat, star (x i).toH * (y i).toH), m) := by
  constructor
  · obtain ⟨r, m', h, rfl, rfl⟩ := dotAVX_wp (conj := false) hX hY (fun _ => hx32) (fun _ => hy32)
    rw [h, eq_ofH (dotVal_sum _ _ _ _)]; rfl
  · obtain ⟨r, m', h, rfl, rfl⟩ := dotAVX_wp (conj := true) hX hY (fun _ => hx32) (fun _ => hy32)
    rw [h, eq_ofH (dotVal_sum _ _ _ _)]; rfl

/-- C40. For arbitrary (rounded) arithmetic: no fault, no memory change, and the result is a
function of the length and the vector contents only (not of addresses, increments, alignment or
anything else in memory). -/
theorem C40_dot_bits {F : Type} [Arith F] (conj : Bool) (N : Int) (x y : Nat → Quat F)  :
    ∃ v : Quat F, ∀ (m : Mem F) (X INCX Y INCY : Int),
      VecAt m X INCX N.toNat x → VecAt m Y INCY N.toNat y →
      Fits32 (4 * INCX) → Fits32 (4 * INCY) → dotAVX conj N X INCX Y INCY m = .ok (v, m) := by
  refine ⟨dotVal conj N.toNat x y, ?_⟩
  intro m X INCX Y INCY hX hY h1 h2
  obtain ⟨r, m', h, rfl, rfl⟩ := dotAVX_wp (conj := conj) hX hY (fun _ => h1) (fun _ => h2)
  exact h

/-! ### C16 -/

theorem star_sum' (s : Finset ℕ) (f : ℕ → ℍ[R]) : star (∑ i ∈ s, f i) = ∑ i ∈ s, star (f i) :=
  map_sum (starAddEquiv : ℍ[R] ≃+ ℍ[R]) f s

theorem coe_sum' (s : Finset ℕ) (f : ℕ → R) :
    ((∑ i ∈ s, f i : R) : ℍ[R]) = ∑ i ∈ s, (f i : ℍ[R]) :=
  map_sum (algebraMap R ℍ[R]) f s

/-- C16. `DOTCV(y,x) = conj(DOTCV(x,y))`. -/
theorem C16_hermitian (m : Mem R) (N X INCX Y INCY : Int) (x y : Nat → Quat R)
    (hX : VecAt m X INCX N.toNat x) (hY : VecAt m Y INCY N.toNat y)
    (hx32 : Fits32 (4 * INCX)) (hy32 : Fits32 (4 * INCY)) :
    ∃ u v, dotAVX true N X INCX Y INCY m = .ok (u, m) ∧ dotAVX true N Y INCY X INCX m = .ok (v, m) ∧
      v = Quat.conj u := by
  refine ⟨_, _, (C15_dot m N X INCX Y INCY x y hX hY hx32 hy32).2,
    (C15_dot m N Y INCY X INCX y x hY hX hy32 hx32).2, ?_⟩
  rw [← toH_inj, toH_conj, toH_ofH, toH_ofH, star_sum']
  apply sum_congr rfl
  intro i _
  rw [star_mul, star_star]

/-- C16. `DOTCV(x,x)` is real: the sum of squared norms. -/
theorem C16_self (m : Mem R) (N X INCX : Int) (x : Nat → Quat R)
    (hX : VecAt m X INCX N.toNat x) (hx32 : Fits32 (4 * INCX)) :
    dotAVX true N X INCX X INCX m =
      .ok (⟨∑ i ∈ range N.toNat, ((x i).re^2 + (x i).i^2 + (x i).j^2 + (x i).k^2), 0, 0, 0⟩, m) := by
  rw [(C15_dot m N X INCX X INCX x x hX hX hx32 hx32).2]
  have : (∑ i ∈ range N.toNat, star (x i).toH * (x i).toH) =
      ((∑ i ∈ range N.toNat, ((x i).re^2 + (x i).i^2 + (x i).j^2 + (x i).k^2) : R) : ℍ[R]) := by
    rw [coe_sum']
    apply sum_congr rfl
    intro i _
    ext <;> simp only [re_mul, imI_mul, imJ_mul, imK_mul, re_star, imI_star, imJ_star, imK_star,
      toH_re, toH_imI, toH_imJ, toH_imK, re_coe, imI_coe, imJ_coe, imK_coe] <;> ring
  rw [this]; rfl

/-- C16. Over the reals `DOTCV(x,x)` is non-negative and zero only for the zero vector. -/
theorem C16_definite (m : Mem ℝ) (N X INCX : Int) (x : Nat → Quat ℝ)
    (hX : VecAt m X INCX N.toNat x) (hx32 : Fits32 (4 * INCX)) :
    ∃ u, dotAVX true N X INCX X INCX m = .ok (u, m) ∧ 0 ≤ u.re ∧ u.i = 0 ∧ u.j = 0 ∧ u.k = 0 ∧
      (u.re = 0 ↔ ∀ i, i < N.toNat → x i = ⟨0, 0, 0, 0⟩) := by
  refine ⟨_, C16_self m N X INCX x hX hx32, ?_, rfl, rfl, rfl, ?_⟩
  · show 0 ≤ ∑ i ∈ range N.toNat, ((x i).re^2 + (x i).i^2 + (x i).j^2 + (x i).k^2)
    apply sum_nonneg; intro i _; positivity
  · show (∑ i ∈ range N.toNat, ((x i).re^2 + (x i).i^2 + (x i).j^2 + (x i).k^2)) = 0 ↔ _
    rw [sum_eq_zero_iff_of_nonneg (fun i _ => by positivity)]
    constructor
    · intro h i hi
      have := h i (by simpa using hi)
      have h0 : (x i).re = 0 ∧ (x i).i = 0 ∧ (x i).j = 0 ∧ (x i).k = 0 := by
        refine ⟨?_, ?_, ?_, ?_⟩ <;>
          nlinarith [sq_nonneg (x i).re, sq_nonneg (x i).i, sq_nonneg (x i).j, sq_nonneg (x i).k]
      exact Quat.ext h0.1 h0.2.1 h0.2.2.1 h0.2.2.2
    · intro h i hi
      rw [h i (by simpa using hi)]; simp

/-- C16. Right linearity: scaling `y` on the right by `q` (with SCALV) scales `DOTCV(x,y)` on the
right by `q`. -/
theorem C16_right_linear (m : Mem R) (N X INCX Y INCY : Int) (x y : Nat → Quat R) (q : Scal R)
    (hX : VecAt m X INCX N.toNat x) (hY : VecAt m Y INCY N.toNat y) (hinc : INCY ≠ 0)
    (hdis : Apart (VecCell X INCX N.toNat) (VecCell Y INCY N.toNat))
    (hx32 : Fits32 (4 * INCX)) (hy32 : Fits32 (4 * INCY)) :
    ∃ u v m', dotAVX true N X INCX Y INCY m = .ok (u, m) ∧
      (do scalvAVX 'R' N q Y INCY; dotAVX true N X INCX Y INCY : Prog R (Quat R)) m = .ok (v, m') ∧
      v.toH = u.toH * q.toH := by
  obtain ⟨m', h, h1, h2⟩ := C13_scalv m 'R' N Y INCY q y hY hinc
  refine ⟨_, Quat.ofH (∑ i ∈ range N.toNat, star (x i).toH * ((y i).toH * q.toH)), m',
    (C15_dot m N X INCX Y INCY x y hX hY hx32 hy32).2, ?_, ?_⟩
  · rw [bind_ok h]
    have := (C15_dot m' N X INCX Y INCY x _ (vecAt_apart hX hdis h2) h1 hx32 hy32).2
    simp only [toH_ofH] at this
    simpa using this
  · simp only [toH_ofH, sum_mul, mul_assoc]

/-! ### C39 -/

/-- C39. Left and right scaling give the same memory iff ALPHA commutes with every entry; with a
real ALPHA always. -/
theorem C39_side (m : Mem R) (N X INCX : Int) (ALPHA : Scal R) (x : Nat → Quat R)
    (hX : VecAt m X INCX N.toNat x) (hinc : INCX ≠ 0) :
    (scalvAVX 'L' N ALPHA X INCX m = scalvAVX 'R' N ALPHA X INCX m ↔
      ∀ i, i < N.toNat → ALPHA.toH * (x i).toH = (x i).toH * ALPHA.toH) ∧
    (∀ a, scalvAVX 'L' N (.d a) X INCX m = scalvAVX 'R' N (.d a) X INCX m) := by
  have main : ∀ ALPHA : Scal R, (scalvAVX 'L' N ALPHA X INCX m = scalvAVX 'R' N ALPHA X INCX m ↔
      ∀ i, i < N.toNat → ALPHA.toH * (x i).toH = (x i).toH * ALPHA.toH) := by
    intro ALPHA
    obtain ⟨m1, h1, a1, b1⟩ := C13_scalv m 'L' N X INCX ALPHA x hX hinc
    obtain ⟨m2, h2, a2, b2⟩ := C13_scalv m 'R' N X INCX ALPHA x hX hinc
    rw [h1, h2]
    constructor
    · intro h i hi
      have : m1 = m2 := by injection h with h; injection h
      subst this
      have := a1 i hi
      rw [a2 i hi] at this
      injection this with this
      have := congrArg Quat.toH this
      simpa using this.symm
    · intro h
      have : m1 = m2 := by
        funext a
        by_cases hc : VecCell X INCX N.toNat a
        · obtain ⟨i, hi, ha⟩ := hc
          have e1 := a1 i hi
          have e2 := a2 i hi
          simp only [if_true] at e1
          simp only [show ¬ ('R' = 'L') by decide, if_false, ← h i hi] at e2
          exact mem_eq_of_readQ e1 e2 ha
        · rw [b1 a hc, b2 a hc]
      rw [this]
  refine ⟨main ALPHA, fun a => (main (.d a)).mpr ?_⟩
  intro i _
  exact Quaternion.coe_commutes a _

/-! ### C17 -/

/-- C17. N ≤ 0 with arbitrary (also invalid) pointers: nothing happens, dot products are zero. -/
theorem C17_nonpos {F : Type} [Arith F] (m : Mem F) (SIDE : Char) (N X INCX Y INCY : Int)
    (ALPHA : Scal F) (hN : N ≤ 0) :
    copyvAVX N X INCX Y INCY m = .ok ((), m) ∧ swapvAVX N X INCX Y INCY m = .ok ((), m) ∧
    scalvAVX SIDE N ALPHA X INCX m = .ok ((), m) ∧
    axpyvAVX SIDE N ALPHA X INCX Y INCY m = .ok ((), m) := by
  have h0 : N.toNat = 0 := by omega
  refine ⟨?_, ?_, ?_, ?_⟩
  · unfold copyvAVX; rw [h0]; cases h : (aligned32 X && aligned32 Y) <;> rfl
  · unfold swapvAVX; rw [h0]; cases h : (aligned32 X && aligned32 Y) <;> rfl
  · unfold scalvAVX; rw [h0]; rfl
  · unfold axpyvAVX; rw [h0]; rfl

/-- C17. DOTUV/DOTCV with N ≤ 0. -/
theorem C17_dot_nonpos (m : Mem R) (conj : Bool) (N X INCX Y INCY : Int) (hN : N ≤ 0) :
    dotAVX conj N X INCX Y INCY m = .ok (⟨0, 0, 0, 0⟩, m) := by
  have h0 : N.toNat = 0 := by omega
  have hv : ∀ (p inc : Int) v, VecAt m p inc N.toNat v := fun p inc v i hi => by omega
  obtain ⟨r, m', h, rfl, rfl⟩ := dotAVX_wp (conj := conj) (m0 := m) (N := N) (X := X) (INCX := INCX)
    (Y := Y) (INCY := INCY) (hv _ _ (fun _ => ⟨0, 0, 0, 0⟩)) (hv _ _ (fun _ => ⟨0, 0, 0, 0⟩))
    (fun h => by omega) (fun h => by omega)
  rw [h, eq_ofH (dotVal_sum _ _ _ _), h0]; rfl

end exact

/-! ### C40: alignment and layout independence of the element-wise routines, bit for bit -/

/-- C40. For arbitrary (rounded) arithmetic the element written by SCALV / AXPYV is a function of
SIDE, ALPHA and the corresponding input elements only: not of the length, the position, addresses,
alignment, increments or other elements. -/
theorem C40_elementwise {F : Type} [Arith F] (SIDE : Char) (ALPHA : Scal F) :
    ∃ (f : Quat F → Quat F) (g : Quat F → Quat F → Quat F),
      (∀ (m : Mem F) (N X INCX : Int) (x : Nat → Quat F), VecAt m X INCX N.toNat x → INCX ≠ 0 →
        ∃ m', scalvAVX SIDE N ALPHA X INCX m = .ok ((), m') ∧
          VecAt m' X INCX N.toNat (fun i => f (x i)) ∧
          SameOutside (VecCell X INCX N.toNat) m m') ∧
      (∀ (m : Mem F) (N X INCX Y INCY : Int) (x y : Nat → Quat F), VecAt m X INCX N.toNat x →
        VecAt m Y INCY N.toNat y → INCY ≠ 0 →
        Apart (VecCell X INCX N.toNat) (VecCell Y INCY N.toNat) →
        ∃ m', axpyvAVX SIDE N ALPHA X INCX Y INCY m = .ok ((), m') ∧
          VecAt m' Y INCY N.toNat (fun i => g (x i) (y i)) ∧
          SameOutside (VecCell Y INCY N.toNat) m m') := by
  refine ⟨scalOp (SIDE == 'L') ALPHA, axpyOp (SIDE == 'L') ALPHA, ?_, ?_⟩
  · intro m N X INCX x hX hinc
    obtain ⟨_, m', h, h1⟩ := scalvAVX_wp (SIDE := SIDE) (ALPHA := ALPHA) hX (Or.inl hinc)
    exact ⟨m', h, h1⟩
  · intro m N X INCX Y INCY x y hX hY hinc hdis
    obtain ⟨_, m', h, h1⟩ :=
      axpyvAVX_wp (SIDE := SIDE) (ALPHA := ALPHA) hX hY (Or.inl hinc) hdis
    exact ⟨m', h, h1⟩

/-! ### Non-vacuity: a misaligned strided pair of vectors meets the hypotheses -/

/-- Five elements, increment 2, at cell 1 (misaligned); `y` of increment -1 starting at cell 116. -/
example : ∃ (m : Mem ℤ) (x y : Nat → Quat ℤ),
    VecAt m 1 2 (5:Int).toNat x ∧ VecAt m 116 (-1) (5:Int).toNat y ∧
    Apart (VecCell 1 2 (5:Int).toNat) (VecCell 116 (-1) (5:Int).toNat) ∧
    Fits32 (4 * 2) ∧ Fits32 (4 * (-1)) ∧ x 3 ≠ y 2 ∧ x 1 ≠ x 2 := by
  refine ⟨memOf 0 200 id, fun i => ⟨1 + 4 * (i * 2), 1 + 4 * (i * 2) + 1, 1 + 4 * (i * 2) + 2,
      1 + 4 * (i * 2) + 3⟩, fun i => ⟨116 + 4 * (i * (-1)), 116 + 4 * (i * (-1)) + 1,
      116 + 4 * (i * (-1)) + 2, 116 + 4 * (i * (-1)) + 3⟩, ?_, ?_, ?_, ?_, ?_, ?_, ?_⟩
  · intro i hi
    have : i < 5 := hi
    exact readQ_memOf (by omega) (by omega)
  · intro i hi
    have : i < 5 := hi
    exact readQ_memOf (by omega) (by omega)
  · rintro a ⟨i, hi, h⟩ ⟨j, hj, h'⟩
    have h1 : i < 5 := hi
    have h2 : j < 5 := hj
    unfold InQ at *
    omega
  · unfold Fits32; decide
  · unfold Fits32; decide
  · decide
  · decide

/-- A concrete run: dot product of length 5 (one batch and one clean-up element) at aligned
addresses. -/
example : (dotAVX true 5 0 1 0 1 (memOf 0 20 id)).map Prod.fst =
    (Except.ok ⟨2470, 0, 0, 0⟩ : Except Fault (Quat ℤ)) := by rfl

end Haxx
