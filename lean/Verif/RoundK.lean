import Verif.RoundQ

/-! # Rounding-error bounds of the element operations of the SIMD routines -/

namespace Haxx
open Quaternion Finset

variable {F : Type} [Arith F] {u : ℝ}

theorem norm_sq_ctoH (z : Cplx ℝ) : ‖z.toH‖ ^ 2 = z.re ^ 2 + z.im ^ 2 := by
  have := norm_sq_toH ⟨z.re, z.im, 0, 0⟩
  simpa [Cplx.toH, Quat.toH] using this

theorem norm_real (a : ℝ) : ‖(a : ℍ[ℝ])‖ = |a| := by
  rw [Quaternion.norm_coe, Real.norm_eq_abs]

/-- two of the four products of a Cauchy–Schwarz sum -/
theorem cs2 {a b e f : ℝ} {z : Cplx ℝ} {n : ℝ} (hn : 0 ≤ n)
    (ha : e ^ 2 + f ^ 2 = z.re ^ 2 + z.im ^ 2) (hx : a ^ 2 + b ^ 2 ≤ n ^ 2) :
    |a| * |e| + |b| * |f| ≤ ‖z.toH‖ * n := by
  have h := norm_sq_ctoH z
  refine norm_le_of_comp.le_of_sq_le_sq' ?_ (mul_nonneg (norm_nonneg _) hn)
  rw [mul_pow, h, ← ha]
  have h0 := mul_le_mul_of_nonneg_left hx (show 0 ≤ e ^ 2 + f ^ 2 by positivity)
  have h1 := sq_nonneg (|a| * |f| - |b| * |e|)
  have := sq_abs a; have := sq_abs b; have := sq_abs e; have := sq_abs f
  nlinarith

namespace StdModel
variable {S : StdModel F u} {p q r n : ℕ}

/-- `ALPHA * x` / `x * ALPHA` in registers, `x` an input -/
theorem QR.scalOp (L : Bool) (s : Scal F) (x : Quat F) :
    S.QR 3 (scalOp L s x) (scalOp L (s.map S.val) (x.map S.val))
      (broadcast (‖(s.map S.val).toH‖ * ‖(x.map S.val).toH‖)) := by
  have hc := comp_le_norm (x.map S.val)
  have hn := norm_sq_toH (x.map S.val)
  have nn := norm_nonneg (x.map S.val).toH
  cases s with
  | d a =>
    have e : ‖(Scal.map S.val (.d a)).toH‖ = |S.val a| := norm_real _
    rw [e]
    have key : ∀ c : F, |S.val c| ≤ ‖(x.map S.val).toH‖ →
        S.R 3 (a *ᶠ c) (S.val a * S.val c) (|S.val a| * ‖(x.map S.val).toH‖) := fun c hc =>
      R.mono (R.mul (p := 0) (q := 0) (R.exact a) (R.exact c)) (by omega)
        (mul_le_mul_of_nonneg_left hc (abs_nonneg _))
    exact ⟨key _ hc.1, key _ hc.2.1, key _ hc.2.2.1, key _ hc.2.2.2⟩
  | z a =>
    have hx1 : (S.val x.re) ^ 2 + (S.val x.i) ^ 2 ≤ ‖(x.map S.val).toH‖ ^ 2 := by
      rw [hn]; simp only [Quat.map]; nlinarith [sq_nonneg (S.val x.j), sq_nonneg (S.val x.k)]
    have hx2 : (S.val x.j) ^ 2 + (S.val x.k) ^ 2 ≤ ‖(x.map S.val).toH‖ ^ 2 := by
      rw [hn]; simp only [Quat.map]; nlinarith [sq_nonneg (S.val x.re), sq_nonneg (S.val x.i)]
    have key : ∀ (c d e f : F) (e' f' : ℝ), S.R 0 e e' |e'| → S.R 0 f f' |f'| →
        (S.val c) ^ 2 + (S.val d) ^ 2 ≤ ‖(x.map S.val).toH‖ ^ 2 →
        e' ^ 2 + f' ^ 2 = S.val a.re ^ 2 + S.val a.im ^ 2 →
        S.R 3 (c *ᶠ e -ᶠ d *ᶠ f) (S.val c * e' - S.val d * f')
          (‖(Scal.map S.val (.z a)).toH‖ * ‖(x.map S.val).toH‖) := fun c d e f e' f' he hf h1 h2 =>
      R.mono (R.sub (R.mul (p := 0) (q := 0) (R.exact c) he) (R.mul (p := 0) (q := 0) (R.exact d) hf))
        (by omega) (cs2 (z := ⟨S.val a.re, S.val a.im⟩) nn h2 h1)
    have ex : ∀ c : F, S.R 0 c (S.val c) |S.val c| := fun c => R.exact c
    have exn : ∀ c : F, S.R 0 (~ᶠ c) (- S.val c) |- S.val c| := fun c => by
      rw [abs_neg]; exact R.neg (R.exact c)
    have exnn : ∀ c : F, S.R 0 (~ᶠ ~ᶠ c) (- - S.val c) |- - S.val c| := fun c => by
      rw [abs_neg, abs_neg]; exact R.neg (R.neg (R.exact c))
    cases L
    · exact ⟨key _ _ _ _ (S.val a.re) (S.val a.im) (ex a.re) (ex a.im) hx1 rfl,
        key _ _ _ _ (S.val a.im) (- S.val a.re) (ex a.im) (exn a.re) hx1 (by ring),
        key _ _ _ _ (S.val a.re) (- S.val a.im) (ex a.re) (exn a.im) hx2 (by ring),
        key _ _ _ _ (- S.val a.im) (- S.val a.re) (exn a.im) (exn a.re) hx2 (by ring)⟩
    · exact ⟨key _ _ _ _ (S.val a.re) (S.val a.im) (ex a.re) (ex a.im) hx1 rfl,
        key _ _ _ _ (S.val a.im) (- S.val a.re) (ex a.im) (exn a.re) hx1 (by ring),
        key _ _ _ _ (S.val a.re) (S.val a.im) (ex a.re) (ex a.im) hx2 (by ring),
        key _ _ _ _ (S.val a.im) (- S.val a.re) (ex a.im) (exn a.re) hx2 (by ring)⟩
  | h a =>
    cases L
    · have := QR.mulNN (S := S) (p := 0) (q := 0) (QR.exact x) (QR.exact a)
      rw [norm_abs, norm_abs, mul_comm] at this
      exact this
    · have := QR.mulNN (S := S) (p := 0) (q := 0) (QR.exact a) (QR.exact x)
      rw [norm_abs, norm_abs] at this
      exact this

/-- register multiplication by a cached scalar is the same operation -/
theorem regMulL_eq {G : Type} [Arith G] (s : Scal G) (x : Quat G) :
    regMulL (loadScalar (some s)) x = Haxx.scalOp true s x := by
  cases s <;> rfl

theorem qconj_map (x : Quat F) : (qconj256 x).map S.val = qconj256 (x.map S.val) := by
  simp [qconj256, xorSign, Quat.map, S.neg_val]

theorem norm_qconj (x : Quat ℝ) : ‖(qconj256 x).toH‖ = ‖x.toH‖ := by
  rw [toH_qconj256, norm_star]

theorem QR.preOP (c : Bool) (s : Scal F) (x : Quat F) :
    S.QR 3 (preOP c (loadScalar (some s)) x)
      (preOP c (loadScalar (some (s.map S.val))) (x.map S.val))
      (broadcast (‖(s.map S.val).toH‖ * ‖(x.map S.val).toH‖)) := by
  cases c
  · exact QR.scalOp true s x |> fun h => by
      simpa only [Haxx.preOP, regMulL_eq, Bool.false_eq_true, if_false] using h
  · have h := QR.scalOp (S := S) true s (qconj256 x)
    rw [qconj_map, norm_qconj] at h
    simpa only [Haxx.preOP, regMulL_eq, if_true] using h

theorem QR.preOPnone (c : Bool) (x : Quat F) :
    S.QR 0 (Haxx.preOP c (loadScalar none) x)
      (Haxx.preOP c (loadScalar none) (x.map S.val)) (Quat.abs (x.map S.val)) := by
  cases c
  · exact QR.exact x
  · exact (QR.exact x).conj

/-- one entry of the SIMD GEMM -/
theorem QR.gemmElt (tA tB : Char) (α β : Scal F) (K : ℕ) (x y : ℕ → Quat F) (c : Quat F) :
    S.QR (4 + 4 * K) (gemmElt tA tB α β K x y c)
      (gemmElt tA tB (α.map S.val) (β.map S.val) K (fun k => (x k).map S.val)
        (fun k => (y k).map S.val) (c.map S.val))
      (broadcast (‖(β.map S.val).toH‖ * ‖(c.map S.val).toH‖ +
        2 * ‖(α.map S.val).toH‖ * ∑ k ∈ range K, ‖((x k).map S.val).toH‖ * ‖((y k).map S.val).toH‖)) := by
  have h := QR.accum (S := S) (p := 3) (q := 0) (r := 4) (by omega) K
    (fun k => QR.preOP (isCj tA) α (x k)) (fun k => QR.preOPnone (isCj tB) (y k))
    ((QR.scalOp true β c).le (by omega))
  unfold Haxx.gemmElt
  refine h.mono le_rfl (le_of_eq ?_)
  congr 1
  rw [mul_sum]
  refine sum_congr rfl fun k _ => ?_
  rw [norm_broadcast (by positivity), norm_abs]
  ring

theorem QR.axpyOp (L : Bool) (s : Scal F) (x y : Quat F) :
    S.QR 4 (axpyOp L s x y) (axpyOp L (s.map S.val) (x.map S.val) (y.map S.val))
      (broadcast (‖(y.map S.val).toH‖ + ‖(s.map S.val).toH‖ * ‖(x.map S.val).toH‖)) := by
  have hy : S.QR 3 y (y.map S.val) (broadcast ‖(y.map S.val).toH‖) := (QR.exact y).toNorm
  cases s with
  | d a =>
    have e : ‖(Scal.map S.val (.d a)).toH‖ = |S.val a| := norm_real _
    rw [e]
    have hc := comp_le_norm (x.map S.val)
    have key : ∀ (c : F) (d : F) , |S.val c| ≤ ‖(x.map S.val).toH‖ →
        S.R 3 d (S.val d) ‖(y.map S.val).toH‖ →
        S.R 4 (Arith.fma a c d) (S.val a * S.val c + S.val d)
          (‖(y.map S.val).toH‖ + |S.val a| * ‖(x.map S.val).toH‖) := fun c d hc hd =>
      R.mono (R.fma (p := 0) (q := 0) (R.exact a) (R.exact c) hd (by omega) le_rfl) le_rfl
        (by have := mul_le_mul_of_nonneg_left hc (abs_nonneg (S.val a)); linarith)
    exact ⟨key _ _ hc.1 hy.1, key _ _ hc.2.1 hy.2.1, key _ _ hc.2.2.1 hy.2.2.1,
      key _ _ hc.2.2.2 hy.2.2.2⟩
  | z a => exact hy.vadd (QR.scalOp L (.z a) x)
  | h a =>
    cases L
    · exact hy.vadd (QR.scalOp (S := S) false (.h a) x)
    · exact hy.vadd (QR.scalOp (S := S) true (.h a) x)

/-! ### the inner product -/

/-- `MULDQ_CN` / `MULDQ_NN` -/
theorem QR.dotMul (cj : Bool) (x y : Quat F) :
    S.QR 3 (if cj then MULDQ_CN x y else MULDQ_NN x y)
      (if cj then MULDQ_CN (x.map S.val) (y.map S.val) else MULDQ_NN (x.map S.val) (y.map S.val))
      (broadcast (‖(x.map S.val).toH‖ * ‖(y.map S.val).toH‖)) := by
  cases cj
  · have := QR.mulNN (S := S) (p := 0) (q := 0) (QR.exact x) (QR.exact y)
    rw [norm_abs, norm_abs] at this
    exact this
  · have := QR.mulNN (S := S) (p := 0) (q := 0) (QR.exact x).conj (QR.exact y)
    rw [norm_abs, norm_abs] at this
    exact this

theorem QR.dotRest (cj : Bool) (x y : ℕ → Quat F) (o : ℕ) {r' : Quat F} {z : Quat ℝ} {s : ℝ}
    (hp : 3 ≤ p) (hr : S.QR p r' z (broadcast s)) (n : ℕ) :
    S.QR (p + n) (dotRest cj x y o r' n)
      (dotRest cj (fun k => (x k).map S.val) (fun k => (y k).map S.val) o z n)
      (broadcast (s + ∑ k ∈ range n, ‖((x (o+k)).map S.val).toH‖ * ‖((y (o+k)).map S.val).toH‖)) := by
  induction n with
  | zero => simpa [Haxx.dotRest] using hr
  | succ n ih =>
    have h := ih.vadd ((QR.dotMul (S := S) cj (x (o + n)) (y (o + n))).le (show 3 ≤ p + n by omega))
    rw [sum_range_succ, ← add_assoc s]
    exact h

/-- the conjugating counterpart of `qinc` -/
def qincC {G : Type} [Arith G] (x y r : Quat G) : Quat G :=
  ⟨Arith.fma x.k y.k (Arith.fma x.j y.j (Arith.fma x.i y.i (Arith.fma x.re y.re r.re))),
   Arith.fma x.k y.j (Arith.fnma x.j y.k (Arith.fnma x.i y.re (Arith.fma x.re y.i r.i))),
   Arith.fnma x.k y.i (Arith.fnma x.j y.re (Arith.fma x.i y.k (Arith.fma x.re y.j r.j))),
   Arith.fnma x.k y.re (Arith.fma x.j y.i (Arith.fnma x.i y.j (Arith.fma x.re y.k r.k)))⟩

theorem QR.qincC {x' y' r' : Quat F} {x y z A B : Quat ℝ} {s : ℝ}
    (hx : S.QR p x' x A) (hy : S.QR q y' y B) (hr : S.QR r r' z (broadcast s))
    (h1 : p + q + 1 ≤ r) :
    S.QR (r + 4) (qincC x' y' r') (qincC x y z) (broadcast (s + ‖A.toH‖ * ‖B.toH‖)) := by
  have hA := norm_sq_toH A
  have hB := norm_sq_toH B
  have nA := norm_nonneg A.toH
  have nB := norm_nonneg B.toH
  have l0 : p + q + 2 ≤ r + 1 := by omega
  have l1 : p + q + 2 ≤ r + 2 := by omega
  have l2 : p + q + 2 ≤ r + 3 := by omega
  have l3 : p + q + 2 ≤ r + 4 := by omega
  refine ⟨?_, ?_, ?_, ?_⟩
  · have h := hx.2.2.2.fma hy.2.2.2 (hx.2.2.1.fma hy.2.2.1 (hx.2.1.fma hy.2.1
      (hx.1.fma hy.1 hr.1 l0 le_rfl) l1 le_rfl) l2 le_rfl) l3 le_rfl
    refine h.mono le_rfl ?_
    have := cs4 (a := A.re) (b := A.i) (c := A.j) (d := A.k) nA nB (by rw [hA])
        (e := B.re) (f := B.i) (g := B.j) (h := B.k) (by rw [hB])
    simp only [broadcast]; linarith
  · have h := hx.2.2.2.fma hy.2.2.1 (hx.2.2.1.fnma hy.2.2.2 (hx.2.1.fnma hy.1
      (hx.1.fma hy.2.1 hr.2.1 l0 le_rfl) l1 le_rfl) l2 le_rfl) l3 le_rfl
    refine h.mono le_rfl ?_
    have := cs4 (a := A.re) (b := A.i) (c := A.j) (d := A.k) nA nB (by rw [hA])
        (e := B.i) (f := B.re) (g := B.k) (h := B.j) (by rw [hB]; ring)
    simp only [broadcast]; linarith
  · have h := hx.2.2.2.fnma hy.2.1 (hx.2.2.1.fnma hy.1 (hx.2.1.fma hy.2.2.2
      (hx.1.fma hy.2.2.1 hr.2.2.1 l0 le_rfl) l1 le_rfl) l2 le_rfl) l3 le_rfl
    refine h.mono le_rfl ?_
    have := cs4 (a := A.re) (b := A.i) (c := A.j) (d := A.k) nA nB (by rw [hA])
        (e := B.j) (f := B.k) (g := B.re) (h := B.i) (by rw [hB]; ring)
    simp only [broadcast]; linarith
  · have h := hx.2.2.2.fnma hy.1 (hx.2.2.1.fma hy.2.1 (hx.2.1.fnma hy.2.2.1
      (hx.1.fma hy.2.2.2 hr.2.2.2 l0 le_rfl) l1 le_rfl) l2 le_rfl) l3 le_rfl
    refine h.mono le_rfl ?_
    have := cs4 (a := A.re) (b := A.i) (c := A.j) (d := A.k) nA nB (by rw [hA])
        (e := B.k) (f := B.j) (g := B.i) (h := B.re) (by rw [hB]; ring)
    simp only [broadcast]; linarith

/-- lane `l` of the batched accumulation -/
def laneAcc {G : Type} [Arith G] (cj : Bool) (x y : ℕ → Quat G) (l : ℕ) : ℕ → Quat G
  | 0 => setzero
  | b+1 => if cj then qincC (x (4*b+l)) (y (4*b+l)) (laneAcc cj x y l b)
      else qinc (x (4*b+l)) (y (4*b+l)) (laneAcc cj x y l b)

theorem dotBatches_lane {G : Type} [Arith G] (cj : Bool) (x y : ℕ → Quat G) (b : ℕ) :
    transpose4 (dotBatches cj x y b) = ⟨laneAcc cj x y 0 b, laneAcc cj x y 1 b, laneAcc cj x y 2 b,
      laneAcc cj x y 3 b⟩ := by
  have h : dotBatches cj x y b = transpose4 ⟨laneAcc cj x y 0 b, laneAcc cj x y 1 b, laneAcc cj x y 2 b,
      laneAcc cj x y 3 b⟩ := by
    induction b with
    | zero => rfl
    | succ b ih =>
      cases cj
      · simp only [dotBatches, laneAcc, ih]; rfl
      · simp only [dotBatches, laneAcc, ih]; rfl
  rw [h]; rfl

theorem QR.laneAcc (cj : Bool) (x y : ℕ → Quat F) (l b : ℕ) :
    S.QR (4 * b + 1) (laneAcc cj x y l b)
      (StdModel.laneAcc cj (fun k => (x k).map S.val) (fun k => (y k).map S.val) l b)
      (broadcast (∑ k ∈ range b, ‖((x (4*k+l)).map S.val).toH‖ * ‖((y (4*k+l)).map S.val).toH‖)) := by
  induction b with
  | zero => exact ⟨R.zero, R.zero, R.zero, R.zero⟩
  | succ b ih =>
    rw [sum_range_succ]
    cases cj
    · have := QR.qinc (S := S) (p := 0) (q := 0) (QR.exact (x (4*b+l))) (QR.exact (y (4*b+l))) ih (by omega)
      rw [norm_abs, norm_abs] at this
      exact this
    · have := QR.qincC (S := S) (p := 0) (q := 0) (QR.exact (x (4*b+l))) (QR.exact (y (4*b+l))) ih (by omega)
      rw [norm_abs, norm_abs] at this
      exact this

theorem sum_by4 (f : ℕ → ℝ) (b : ℕ) :
    ∑ k ∈ range b, f (4*k+0) + ∑ k ∈ range b, f (4*k+1) + ∑ k ∈ range b, f (4*k+2) +
      ∑ k ∈ range b, f (4*k+3) = ∑ k ∈ range (4*b), f k := by
  induction b with
  | zero => simp
  | succ b ih =>
    rw [show 4 * (b+1) = 4*b+1+1+1+1 by ring]
    simp only [sum_range_succ]
    rw [← ih]
    simp only [add_zero, add_assoc]
    ring_nf

theorem QR.dotVal (cj : Bool) (n : ℕ) (x y : ℕ → Quat F) :
    S.QR (n + 4) (dotVal cj n x y)
      (dotVal cj n (fun k => (x k).map S.val) (fun k => (y k).map S.val))
      (broadcast (∑ k ∈ range n, ‖((x k).map S.val).toH‖ * ‖((y k).map S.val).toH‖)) := by
  unfold Haxx.dotVal
  rw [dotBatches_lane, dotBatches_lane]
  have L := fun l => QR.laneAcc (S := S) cj x y l (n/4)
  have h := (((L 0).vadd (L 1)).vadd ((L 2).le (by omega))).vadd ((L 3).le (by omega))
  rw [sum_by4 (fun k => ‖((x k).map S.val).toH‖ * ‖((y k).map S.val).toH‖)] at h
  have h2 := QR.dotRest cj x y (4*(n/4)) (by omega) h (n % 4)
  refine h2.mono (by omega) (le_of_eq ?_)
  rw [← sum_range_add (fun k => ‖((x k).map S.val).toH‖ * ‖((y k).map S.val).toH‖)]
  congr 2; omega

end StdModel
end Haxx
