import Verif.FGemmBits
import Verif.RoundP

/-!
# Rounding in the Fortran GEMM
-/

set_option linter.unusedSectionVars false

namespace Haxx
open Quaternion Finset

/-! ## The exact value of the pure functions -/

section
variable {R : Type} [CommRing R]

/-- op applied to a stored element. -/
def FTrans.cj : FTrans → ℍ[R] → ℍ[R]
  | .C, q => star q
  | _, q => q

theorem toH_ofC (s j : Cplx R) : (Quat.ofC s j).toH = ⟨s.re, s.im, j.re, j.im⟩ := rfl

theorem toH_fScal (be : Scal R) (c : Quat R) : (fScal be c).toH = be.toH * c.toH := by
  cases be <;> ext <;> simp [fScal, toH_ofC, Scal.toH] <;> ring

theorem toH_fStep (al : Scal R) (t : FTrans) (x y c : Quat R) :
    (fStep al t x y c).toH = c.toH + al.toH * (x.toH * t.cj y.toH) := by
  cases al <;> cases t <;> ext <;> simp [fStep, toH_ofC, Scal.toH, FTrans.cj] <;> ring

theorem toH_fAcc (s t : FTrans) (hs : s ≠ .N) (x y c : Quat R) :
    (fAcc s t x y c).toH = c.toH + s.cj x.toH * t.cj y.toH := by
  cases s <;> cases t <;> first | exact absurd rfl hs | skip
  all_goals ext <;> simp [fAcc, toH_ofC, FTrans.cj] <;> ring

theorem toH_fAlpha (al : Scal R) (s : Quat R) : (fAlpha al s).toH = al.toH * s.toH := toH_fScal al s

theorem toH_fAddBeta (be : Scal R) (t c : Quat R) : (fAddBeta be t c).toH = t.toH + be.toH * c.toH := by
  cases be <;> ext <;> simp [fAddBeta, toH_ofC, Scal.toH] <;> ring

theorem toH_fZero : (fZero : Quat R).toH = 0 := rfl

theorem toH_fSteps (al : Scal R) (t : FTrans) (x y : ℕ → Quat R) (c : Quat R) (K : ℕ) :
    (fSteps al t x y c K).toH = c.toH + al.toH * ∑ k ∈ range K, (x k).toH * t.cj (y k).toH := by
  induction K with
  | zero => simp [fSteps]
  | succ K ih => rw [fSteps, toH_fStep, ih, sum_range_succ, mul_add, add_assoc]

theorem toH_fAccs (s t : FTrans) (hs : s ≠ .N) (x y : ℕ → Quat R) (K : ℕ) :
    (fAccs s t x y K).toH = ∑ k ∈ range K, s.cj (x k).toH * t.cj (y k).toH := by
  induction K with
  | zero => simp [fAccs, toH_fZero]
  | succ K ih => rw [fAccs, toH_fAcc s t hs, ih, sum_range_succ]

end

/-! ## Complex rounding -/

variable {F : Type} [Arith F] {u : ℝ}

/-- magnitude of a complex product -/
def cm (a b : Cplx ℝ) : Cplx ℝ := ⟨a.re * b.re + a.im * b.im, a.re * b.im + a.im * b.re⟩
/-- magnitude of a complex sum or difference -/
def csum (a b : Cplx ℝ) : Cplx ℝ := ⟨a.re + b.re, a.im + b.im⟩

namespace StdModel
variable {S : StdModel F u} {p q r n : ℕ} {x' y' r' c' : Quat F} {x y z c A B T U : Quat ℝ} {s t : ℝ}

/-- Partwise approximation, magnitudes `w`. -/
def CR (S : StdModel F u) (p : ℕ) (z' : Cplx F) (z w : Cplx ℝ) : Prop :=
  S.R p z'.re z.re w.re ∧ S.R p z'.im z.im w.im

variable {a' b' : Cplx F} {a b v w : Cplx ℝ}

theorem CR.mul (h : S.CR p a' a v) (g : S.CR q b' b w) : S.CR (p + q + 2) (a' *ᶜ b') (a *ᶜ b) (cm v w) :=
  ⟨R.subL (h.1.mul g.1) (h.2.mul g.2) (by omega) (by omega), R.addL (h.1.mul g.2) (h.2.mul g.1) (by omega) (by omega)⟩
theorem CR.conj (h : S.CR p a' a v) : S.CR p (Cplx.conj a') (Cplx.conj a) v := ⟨h.1, h.2.neg⟩
theorem CR.neg (h : S.CR p a' a v) : S.CR p (Cplx.neg a') (Cplx.neg a) v := ⟨h.1.neg, h.2.neg⟩
theorem CR.add (h : S.CR p a' a v) (g : S.CR q b' b w) (hp : p + 1 ≤ n) (hq : q + 1 ≤ n) :
    S.CR n (a' +ᶜ b') (a +ᶜ b) (csum v w) := ⟨h.1.addL g.1 hp hq, h.2.addL g.2 hp hq⟩
theorem CR.sub (h : S.CR p a' a v) (g : S.CR q b' b w) (hp : p + 1 ≤ n) (hq : q + 1 ≤ n) :
    S.CR n (a' -ᶜ b') (a -ᶜ b) (csum v w) := ⟨h.1.subL g.1 hp hq, h.2.subL g.2 hp hq⟩
theorem CR.ofReal (a : F) : S.CR 0 (Cplx.ofReal a) (Cplx.ofReal (S.val a)) ⟨|S.val a|, 0⟩ := ⟨R.exact _, R.zero⟩
theorem QR.lo (h : S.QR p x' x A) : S.CR p x'.lo x.lo A.lo := ⟨h.1, h.2.1⟩
theorem QR.hi (h : S.QR p x' x A) : S.CR p x'.hi x.hi A.hi := ⟨h.2.2.1, h.2.2.2⟩
theorem CR.mk (h : S.CR p a' a v) (g : S.CR p b' b w) (hpq : p ≤ q) {t : ℝ} (h1 : v.re ≤ t) (h2 : v.im ≤ t) (h3 : w.re ≤ t)
    (h4 : w.im ≤ t) : S.QR q (.ofC a' b') (.ofC a b) (broadcast t) :=
  ⟨h.1.mono hpq h1, h.2.mono hpq h2, g.1.mono hpq h3, g.2.mono hpq h4⟩

/-- The four cyclic inner products of magnitudes, and the sum of the parts of a scalar. -/
theorem fourD (x y : Quat ℝ) :
    |x.re| * |y.re| + |x.i| * |y.i| + |x.j| * |y.j| + |x.k| * |y.k| ≤ ‖x.toH‖ * ‖y.toH‖ ∧
    |x.re| * |y.i| + |x.i| * |y.re| + |x.j| * |y.k| + |x.k| * |y.j| ≤ ‖x.toH‖ * ‖y.toH‖ ∧
    |x.re| * |y.j| + |x.i| * |y.k| + |x.j| * |y.re| + |x.k| * |y.i| ≤ ‖x.toH‖ * ‖y.toH‖ ∧
    |x.re| * |y.k| + |x.i| * |y.j| + |x.j| * |y.i| + |x.k| * |y.re| ≤ ‖x.toH‖ * ‖y.toH‖ := by
  have hx := norm_sq_toH x
  have hy := norm_sq_toH y
  refine ⟨?_, ?_, ?_, ?_⟩ <;> (apply csP <;> simp only [sq_abs] <;> linarith only [hx, hy])

theorem sum_abs_le (x : Quat ℝ) : |x.re| + |x.i| + |x.j| + |x.k| ≤ 2 * ‖x.toH‖ := by
  have h := csP (T := x) (B := broadcast 1) |x.re| |x.i| |x.j| |x.k| 1 1 1 1 (by rw [norm_sq_toH]; simp [sq_abs])
    (by rw [norm_sq_toH]; simp [broadcast])
  rw [norm_broadcast (s := 1) (by norm_num)] at h
  linarith

/-- Weighted sums of quantities below `b`. -/
theorem weighted (x : Quat ℝ) {d0 d1 d2 d3 b : ℝ} (h0 : d0 ≤ b) (h1 : d1 ≤ b) (h2 : d2 ≤ b) (h3 : d3 ≤ b) (hb : 0 ≤ b) :
    |x.re| * d0 + |x.i| * d1 + |x.j| * d2 + |x.k| * d3 ≤ 2 * ‖x.toH‖ * b := by
  have e := mul_le_mul_of_nonneg_right (sum_abs_le x) hb
  have e0 := mul_le_mul_of_nonneg_left h0 (abs_nonneg x.re)
  have e1 := mul_le_mul_of_nonneg_left h1 (abs_nonneg x.i)
  have e2 := mul_le_mul_of_nonneg_left h2 (abs_nonneg x.j)
  have e3 := mul_le_mul_of_nonneg_left h3 (abs_nonneg x.k)
  linarith

theorem QR.fScal (be : Scal F) (c : Quat F) :
    S.QR 3 (fScal be c) (fScal (be.map S.val) (c.map S.val)) (broadcast (‖(be.map S.val).toH‖ * ‖(c.map S.val).toH‖)) := by
  have hc : S.QR 0 c (c.map S.val) _ := QR.exact c
  obtain ⟨k0, k1, k2, k3⟩ := fourD (be.map S.val).emb (c.map S.val)
  rw [Scal.toH_emb] at k0 k1 k2 k3
  cases be with
  | d b =>
    have h := CR.ofReal (S := S) b
    simp only [Scal.map, Scal.emb, abs_zero, zero_mul, add_zero] at k0 k1 k2 k3
    refine CR.mk (h.mul hc.lo) (h.mul hc.hi) (by omega) ?_ ?_ ?_ ?_ <;>
      simp only [cm, Quat.abs, Quat.lo, Quat.hi, Scal.map] <;> linarith
  | z b =>
    have h : S.CR 0 b ⟨S.val b.re, S.val b.im⟩ ⟨|S.val b.re|, |S.val b.im|⟩ := ⟨R.exact _, R.exact _⟩
    simp only [Scal.map, Scal.emb, abs_zero, zero_mul, add_zero] at k0 k1 k2 k3
    refine CR.mk (h.mul hc.lo) (h.mul hc.hi) (by omega) ?_ ?_ ?_ ?_ <;>
      simp only [cm, Quat.abs, Quat.lo, Quat.hi, Scal.map] <;> linarith
  | h b =>
    have h : S.QR 0 b (b.map S.val) _ := QR.exact b
    simp only [Scal.map, Scal.emb] at k0 k1 k2 k3
    refine CR.mk (CR.sub (n := 3) (h.lo.mul hc.lo) (h.hi.mul hc.hi.conj) (by omega) (by omega))
      (CR.add (n := 3) (h.lo.mul hc.hi) (h.hi.mul hc.lo.conj) (by omega) (by omega)) (by omega) ?_ ?_ ?_ ?_ <;>
      simp only [cm, csum, Quat.abs, Quat.lo, Quat.hi, Scal.map] <;> linarith

theorem QR.fStep (al : Scal F) (tb : FTrans) (x y : Quat F) (hc : S.QR p c' c (broadcast s)) (hp : 4 ≤ p) :
    S.QR (p + 4) (fStep al tb x y c') (fStep (al.map S.val) tb (x.map S.val) (y.map S.val) c)
      (broadcast (s + 2 * ‖(al.map S.val).toH‖ * (‖(x.map S.val).toH‖ * ‖(y.map S.val).toH‖))) := by
  have hx : S.QR 0 x (x.map S.val) _ := QR.exact x
  have hy : S.QR 0 y (y.map S.val) _ := QR.exact y
  obtain ⟨k0, k1, k2, k3⟩ := fourD (x.map S.val) (y.map S.val)
  have hb : 0 ≤ ‖(x.map S.val).toH‖ * ‖(y.map S.val).toH‖ := by positivity
  have w0 := weighted (al.map S.val).emb k0 k1 k2 k3 hb
  have w1 := weighted (al.map S.val).emb k1 k0 k3 k2 hb
  have w2 := weighted (al.map S.val).emb k2 k3 k0 k1 hb
  have w3 := weighted (al.map S.val).emb k3 k2 k1 k0 hb
  rw [Scal.toH_emb] at w0 w1 w2 w3
  cases al with
  | d a =>
    have h := CR.ofReal (S := S) a
    simp only [Scal.map, Scal.emb, abs_zero, zero_mul, add_zero] at w0 w1 w2 w3
    have nC : S.QR (p+4) (Haxx.fStep (.d a) .N x y c') (Haxx.fStep (.d (S.val a)) .N (x.map S.val) (y.map S.val) c)
      (broadcast (s + 2 * ‖(Scal.d (S.val a)).toH‖ * (‖(x.map S.val).toH‖ * ‖(y.map S.val).toH‖))) := by
      have HS := h.mul hy.lo
      have HJ := h.mul hy.hi
      refine CR.mk (CR.sub (n := p+2) (CR.add (n := p+1) hc.lo (hx.lo.mul HS) (by omega) (by omega)) (hx.hi.mul HJ.conj) (by omega) (by omega))
        (CR.add (n := p+2) (CR.add (n := p+1) hc.hi (hx.lo.mul HJ) (by omega) (by omega)) (hx.hi.mul HS.conj) (by omega) (by omega))
        (by omega) ?_ ?_ ?_ ?_ <;>
      simp only [cm, csum, Quat.abs, Quat.lo, Quat.hi, broadcast] <;> linarith
    have cC : S.QR (p+4) (Haxx.fStep (.d a) .C x y c') (Haxx.fStep (.d (S.val a)) .C (x.map S.val) (y.map S.val) c)
      (broadcast (s + 2 * ‖(Scal.d (S.val a)).toH‖ * (‖(x.map S.val).toH‖ * ‖(y.map S.val).toH‖))) := by
      have HS := h.mul hy.lo.conj
      have HJ := (h.mul hy.hi).neg
      refine CR.mk (CR.sub (n := p+2) (CR.add (n := p+1) hc.lo (hx.lo.mul HS) (by omega) (by omega)) (hx.hi.mul HJ.conj) (by omega) (by omega))
        (CR.add (n := p+2) (CR.add (n := p+1) hc.hi (hx.lo.mul HJ) (by omega) (by omega)) (hx.hi.mul HS.conj) (by omega) (by omega))
        (by omega) ?_ ?_ ?_ ?_ <;>
      simp only [cm, csum, Quat.abs, Quat.lo, Quat.hi, broadcast] <;> linarith
    cases tb
    · exact nC
    · exact nC
    · exact cC
  | z a =>
    have h : S.CR 0 a ⟨S.val a.re, S.val a.im⟩ ⟨|S.val a.re|, |S.val a.im|⟩ := ⟨R.exact _, R.exact _⟩
    simp only [Scal.map, Scal.emb, abs_zero, zero_mul, add_zero] at w0 w1 w2 w3
    have nC : S.QR (p+4) (Haxx.fStep (.z a) .N x y c') (Haxx.fStep (.z ⟨S.val a.re, S.val a.im⟩) .N (x.map S.val) (y.map S.val) c)
      (broadcast (s + 2 * ‖(Scal.z ⟨S.val a.re, S.val a.im⟩).toH‖ * (‖(x.map S.val).toH‖ * ‖(y.map S.val).toH‖))) := by
      have H1S := h.mul hy.lo
      have H1J := h.mul hy.hi
      have H2S := h.mul hy.lo.conj
      have H2J := h.mul hy.hi.conj
      refine CR.mk (CR.sub (n := p+2) (CR.add (n := p+1) hc.lo (hx.lo.mul H1S) (by omega) (by omega)) (hx.hi.mul H2J) (by omega) (by omega))
        (CR.add (n := p+2) (CR.add (n := p+1) hc.hi (hx.lo.mul H1J) (by omega) (by omega)) (hx.hi.mul H2S) (by omega) (by omega))
        (by omega) ?_ ?_ ?_ ?_ <;>
      simp only [cm, csum, Quat.abs, Quat.lo, Quat.hi, broadcast] <;> linarith
    have cC : S.QR (p+4) (Haxx.fStep (.z a) .C x y c') (Haxx.fStep (.z ⟨S.val a.re, S.val a.im⟩) .C (x.map S.val) (y.map S.val) c)
      (broadcast (s + 2 * ‖(Scal.z ⟨S.val a.re, S.val a.im⟩).toH‖ * (‖(x.map S.val).toH‖ * ‖(y.map S.val).toH‖))) := by
      have H1S := h.mul hy.lo
      have H1J := (h.mul hy.hi).neg
      have H2S := h.mul hy.lo.conj
      have H2J := (h.mul hy.hi.conj).neg
      refine CR.mk (CR.sub (n := p+2) (CR.add (n := p+1) hc.lo (hx.lo.mul H2S) (by omega) (by omega)) (hx.hi.mul H2J) (by omega) (by omega))
        (CR.add (n := p+2) (CR.add (n := p+1) hc.hi (hx.lo.mul H1J) (by omega) (by omega)) (hx.hi.mul H1S) (by omega) (by omega))
        (by omega) ?_ ?_ ?_ ?_ <;>
      simp only [cm, csum, Quat.abs, Quat.lo, Quat.hi, broadcast] <;> linarith
    cases tb
    · exact nC
    · exact nC
    · exact cC
  | h a =>
    have h : S.QR 0 a (a.map S.val) _ := QR.exact a
    simp only [Scal.map, Scal.emb] at w0 w1 w2 w3
    have nC : S.QR (p+4) (Haxx.fStep (.h a) .N x y c') (Haxx.fStep (.h (a.map S.val)) .N (x.map S.val) (y.map S.val) c)
      (broadcast (s + 2 * ‖(Scal.h (a.map S.val)).toH‖ * (‖(x.map S.val).toH‖ * ‖(y.map S.val).toH‖))) := by
      have H1S := h.lo.mul hy.lo
      have H1J := h.lo.mul hy.hi
      have H2S := h.lo.mul hy.lo.conj
      have H2J := h.lo.mul hy.hi.conj
      have H3S := h.hi.mul hy.lo
      have H3J := h.hi.mul hy.hi
      have H4S := h.hi.mul hy.lo.conj
      have H4J := h.hi.mul hy.hi.conj
      refine CR.mk
        (CR.sub (n := p+4) (CR.sub (n := p+3) (CR.sub (n := p+2) (CR.add (n := p+1) hc.lo (hx.lo.mul H1S) (by omega) (by omega)) (hx.hi.mul H2J) (by omega) (by omega))
          (hx.lo.conj.mul H4J) (by omega) (by omega)) (hx.hi.conj.mul H3S) (by omega) (by omega))
        (CR.sub (n := p+4) (CR.add (n := p+3) (CR.add (n := p+2) (CR.add (n := p+1) hc.hi (hx.lo.mul H1J) (by omega) (by omega)) (hx.hi.mul H2S) (by omega) (by omega))
          (hx.lo.conj.mul H4S) (by omega) (by omega)) (hx.hi.conj.mul H3J) (by omega) (by omega))
        (by omega) ?_ ?_ ?_ ?_ <;>
      simp only [cm, csum, Quat.abs, Quat.lo, Quat.hi, broadcast] <;> linarith
    have cC : S.QR (p+4) (Haxx.fStep (.h a) .C x y c') (Haxx.fStep (.h (a.map S.val)) .C (x.map S.val) (y.map S.val) c)
      (broadcast (s + 2 * ‖(Scal.h (a.map S.val)).toH‖ * (‖(x.map S.val).toH‖ * ‖(y.map S.val).toH‖))) := by
      have H1S := h.lo.mul hy.lo
      have H1J := (h.lo.mul hy.hi).neg
      have H2S := h.lo.mul hy.lo.conj
      have H2J := (h.lo.mul hy.hi.conj).neg
      have H3S := h.hi.mul hy.lo
      have H3J := (h.hi.mul hy.hi).neg
      have H4S := h.hi.mul hy.lo.conj
      have H4J := (h.hi.mul hy.hi.conj).neg
      refine CR.mk
        (CR.sub (n := p+4) (CR.sub (n := p+3) (CR.sub (n := p+2) (CR.add (n := p+1) hc.lo (hx.lo.mul H2S) (by omega) (by omega)) (hx.hi.mul H2J) (by omega) (by omega))
          (hx.lo.conj.mul H4J) (by omega) (by omega)) (hx.hi.conj.mul H4S) (by omega) (by omega))
        (CR.sub (n := p+4) (CR.add (n := p+3) (CR.add (n := p+2) (CR.add (n := p+1) hc.hi (hx.lo.mul H1J) (by omega) (by omega)) (hx.hi.mul H1S) (by omega) (by omega))
          (hx.lo.conj.mul H3S) (by omega) (by omega)) (hx.hi.conj.mul H3J) (by omega) (by omega))
        (by omega) ?_ ?_ ?_ ?_ <;>
      simp only [cm, csum, Quat.abs, Quat.lo, Quat.hi, broadcast] <;> linarith
    cases tb
    · exact nC
    · exact nC
    · exact cC

theorem QR.fAcc (ta tb : FTrans) (x y : Quat F) (hc : S.QR p c' c (broadcast s)) (hp : 2 ≤ p) :
    S.QR (p + 2) (fAcc ta tb x y c') (fAcc ta tb (x.map S.val) (y.map S.val) c)
      (broadcast (s + ‖(x.map S.val).toH‖ * ‖(y.map S.val).toH‖)) := by
  have hx : S.QR 0 x (x.map S.val) _ := QR.exact x
  have hy : S.QR 0 y (y.map S.val) _ := QR.exact y
  obtain ⟨k0, k1, k2, k3⟩ := fourD (x.map S.val) (y.map S.val)
  have tT : S.QR (p + 2) (Haxx.fAcc .T .T x y c') (Haxx.fAcc .T .T (x.map S.val) (y.map S.val) c)
      (broadcast (s + ‖(x.map S.val).toH‖ * ‖(y.map S.val).toH‖)) := by
    refine CR.mk (CR.sub (n := p+2) (CR.add (n := p+1) hc.lo (hx.lo.mul hy.lo) (by omega) (by omega)) (hx.hi.mul hy.hi.conj) (by omega) (by omega))
        (CR.add (n := p+2) (CR.add (n := p+1) hc.hi (hx.lo.mul hy.hi) (by omega) (by omega)) (hx.hi.mul hy.lo.conj) (by omega) (by omega))
        (by omega) ?_ ?_ ?_ ?_ <;>
      simp only [cm, csum, Quat.abs, Quat.lo, Quat.hi, broadcast] <;> linarith
  have cT : S.QR (p + 2) (Haxx.fAcc .C .T x y c') (Haxx.fAcc .C .T (x.map S.val) (y.map S.val) c)
      (broadcast (s + ‖(x.map S.val).toH‖ * ‖(y.map S.val).toH‖)) := by
    refine CR.mk (CR.add (n := p+2) (CR.add (n := p+1) hc.lo (hx.lo.conj.mul hy.lo) (by omega) (by omega)) (hx.hi.mul hy.hi.conj) (by omega) (by omega))
        (CR.sub (n := p+2) (CR.add (n := p+1) hc.hi (hx.lo.conj.mul hy.hi) (by omega) (by omega)) (hx.hi.mul hy.lo.conj) (by omega) (by omega))
        (by omega) ?_ ?_ ?_ ?_ <;>
      simp only [cm, csum, Quat.abs, Quat.lo, Quat.hi, broadcast] <;> linarith
  have tC : S.QR (p + 2) (Haxx.fAcc .T .C x y c') (Haxx.fAcc .T .C (x.map S.val) (y.map S.val) c)
      (broadcast (s + ‖(x.map S.val).toH‖ * ‖(y.map S.val).toH‖)) := by
    refine CR.mk (CR.add (n := p+2) (CR.add (n := p+1) hc.lo (hx.lo.mul hy.lo.conj) (by omega) (by omega)) (hx.hi.mul hy.hi.conj) (by omega) (by omega))
        (CR.add (n := p+2) (CR.sub (n := p+1) hc.hi (hx.lo.mul hy.hi) (by omega) (by omega)) (hx.hi.mul hy.lo) (by omega) (by omega))
        (by omega) ?_ ?_ ?_ ?_ <;>
      simp only [cm, csum, Quat.abs, Quat.lo, Quat.hi, broadcast] <;> linarith
  have cC : S.QR (p + 2) (Haxx.fAcc .C .C x y c') (Haxx.fAcc .C .C (x.map S.val) (y.map S.val) c)
      (broadcast (s + ‖(x.map S.val).toH‖ * ‖(y.map S.val).toH‖)) := by
    refine CR.mk (CR.sub (n := p+2) (CR.add (n := p+1) hc.lo (hx.lo.conj.mul hy.lo.conj) (by omega) (by omega)) (hx.hi.mul hy.hi.conj) (by omega) (by omega))
        (CR.sub (n := p+2) (CR.sub (n := p+1) hc.hi (hx.lo.conj.mul hy.hi) (by omega) (by omega)) (hx.hi.mul hy.lo) (by omega) (by omega))
        (by omega) ?_ ?_ ?_ ?_ <;>
      simp only [cm, csum, Quat.abs, Quat.lo, Quat.hi, broadcast] <;> linarith
  cases ta <;> cases tb
  · exact tT
  · exact tT
  · exact tC
  · exact tT
  · exact tT
  · exact tC
  · exact cT
  · exact cT
  · exact cC

theorem QR.fAlpha (al : Scal F) (hc : S.QR p c' c (broadcast s)) (hs : 0 ≤ s) :
    S.QR (p + 3) (fAlpha al c') (fAlpha (al.map S.val) c) (broadcast (2 * ‖(al.map S.val).toH‖ * s)) := by
  have w := weighted (al.map S.val).emb (le_refl s) (le_refl s) (le_refl s) (le_refl s) hs
  rw [Scal.toH_emb] at w
  cases al with
  | d b =>
    have h := CR.ofReal (S := S) b
    simp only [Scal.map, Scal.emb, abs_zero, zero_mul, add_zero] at w
    refine CR.mk (h.mul hc.lo) (h.mul hc.hi) (by omega) ?_ ?_ ?_ ?_ <;>
      simp only [cm, broadcast, Quat.lo, Quat.hi, Scal.map] <;> linarith
  | z b =>
    have h : S.CR 0 b ⟨S.val b.re, S.val b.im⟩ ⟨|S.val b.re|, |S.val b.im|⟩ := ⟨R.exact _, R.exact _⟩
    simp only [Scal.map, Scal.emb, abs_zero, zero_mul, add_zero] at w
    refine CR.mk (h.mul hc.lo) (h.mul hc.hi) (by omega) ?_ ?_ ?_ ?_ <;>
      simp only [cm, broadcast, Quat.lo, Quat.hi, Scal.map] <;> linarith
  | h b =>
    have h : S.QR 0 b (b.map S.val) _ := QR.exact b
    simp only [Scal.map, Scal.emb] at w
    refine CR.mk (CR.sub (n := p+3) (h.lo.mul hc.lo) (h.hi.mul hc.hi.conj) (by omega) (by omega))
      (CR.add (n := p+3) (h.lo.mul hc.hi) (h.hi.mul hc.lo.conj) (by omega) (by omega)) (by omega) ?_ ?_ ?_ ?_ <;>
      simp only [cm, csum, Quat.abs, broadcast, Quat.lo, Quat.hi, Scal.map] <;> linarith

theorem QR.fAddBeta (be : Scal F) (y : Quat F) (hc : S.QR p c' c (broadcast s)) (hp : 2 ≤ p) :
    S.QR (p + 2) (fAddBeta be c' y) (fAddBeta (be.map S.val) c (y.map S.val))
      (broadcast (s + ‖(be.map S.val).toH‖ * ‖(y.map S.val).toH‖)) := by
  have hy : S.QR 0 y (y.map S.val) _ := QR.exact y
  obtain ⟨k0, k1, k2, k3⟩ := fourD (be.map S.val).emb (y.map S.val)
  rw [Scal.toH_emb] at k0 k1 k2 k3
  cases be with
  | d b =>
    have h := CR.ofReal (S := S) b
    simp only [Scal.map, Scal.emb, abs_zero, zero_mul, add_zero] at k0 k1 k2 k3
    refine CR.mk (CR.add (n := p+1) hc.lo (h.mul hy.lo) (by omega) (by omega))
      (CR.add (n := p+1) hc.hi (h.mul hy.hi) (by omega) (by omega)) (by omega) ?_ ?_ ?_ ?_ <;>
      simp only [cm, csum, Quat.abs, broadcast, Quat.lo, Quat.hi, Scal.map] <;> linarith
  | z b =>
    have h : S.CR 0 b ⟨S.val b.re, S.val b.im⟩ ⟨|S.val b.re|, |S.val b.im|⟩ := ⟨R.exact _, R.exact _⟩
    simp only [Scal.map, Scal.emb, abs_zero, zero_mul, add_zero] at k0 k1 k2 k3
    refine CR.mk (CR.add (n := p+1) hc.lo (h.mul hy.lo) (by omega) (by omega))
      (CR.add (n := p+1) hc.hi (h.mul hy.hi) (by omega) (by omega)) (by omega) ?_ ?_ ?_ ?_ <;>
      simp only [cm, csum, Quat.abs, broadcast, Quat.lo, Quat.hi, Scal.map] <;> linarith
  | h b =>
    have h : S.QR 0 b (b.map S.val) _ := QR.exact b
    simp only [Scal.map, Scal.emb] at k0 k1 k2 k3
    refine CR.mk
      (CR.sub (n := p+2) (CR.add (n := p+1) hc.lo (h.lo.mul hy.lo) (by omega) (by omega)) (h.hi.mul hy.hi.conj) (by omega) (by omega))
      (CR.add (n := p+2) (CR.add (n := p+1) hc.hi (h.lo.mul hy.hi) (by omega) (by omega)) (h.hi.mul hy.lo.conj) (by omega) (by omega))
      (by omega) ?_ ?_ ?_ ?_ <;>
      simp only [cm, csum, Quat.abs, broadcast, Quat.lo, Quat.hi, Scal.map] <;> linarith

theorem QR.fZero : S.QR p Haxx.fZero Haxx.fZero (broadcast 0) := ⟨R.zero, R.zero, R.zero, R.zero⟩

theorem QR.fSteps (al : Scal F) (tb : FTrans) (x y : ℕ → Quat F) (hc : S.QR p c' c (broadcast s)) (hp : 4 ≤ p) (K : ℕ) :
    S.QR (p + 4 * K) (fSteps al tb x y c' K)
      (fSteps (al.map S.val) tb (fun k => (x k).map S.val) (fun k => (y k).map S.val) c K)
      (broadcast (s + 2 * ‖(al.map S.val).toH‖ * ∑ k ∈ range K, ‖((x k).map S.val).toH‖ * ‖((y k).map S.val).toH‖)) := by
  induction K with
  | zero => simpa [Haxx.fSteps] using hc
  | succ K ih =>
    rw [sum_range_succ, mul_add (2 * _), ← add_assoc, show p + 4 * (K + 1) = p + 4 * K + 4 by ring]
    exact QR.fStep al tb (x K) (y K) ih (by omega)

theorem QR.fAccs (ta tb : FTrans) (x y : ℕ → Quat F) (K : ℕ) :
    S.QR (2 + 2 * K) (fAccs ta tb x y K)
      (fAccs ta tb (fun k => (x k).map S.val) (fun k => (y k).map S.val) K)
      (broadcast (∑ k ∈ range K, ‖((x k).map S.val).toH‖ * ‖((y k).map S.val).toH‖)) := by
  induction K with
  | zero => simpa [Haxx.fAccs] using QR.fZero
  | succ K ih =>
    rw [sum_range_succ, show 2 + 2 * (K + 1) = 2 + 2 * K + 2 by ring]
    exact QR.fAcc ta tb (x K) (y K) ih (Nat.le_add_right 2 (2 * K))

variable [ArithEq F]

/-- The tests the Fortran routines make on ALPHA and BETA tell the truth about their values. -/
structure FTruth (S : StdModel F u) (s : Scal F) : Prop where
  zero : s.fIsZero = true → (s.map S.val).toH = 0
  one : s.fIsOne = true → (s.map S.val).toH = 1

/-- one entry of the Fortran GEMM -/
theorem QR.fGemm {ta tb : FTrans} {α β : Scal F} {K : Int} {x y : ℕ → Quat F} {c : Quat F} (ha : FTruth S α) (hb : FTruth S β) :
    ∃ z : Quat ℝ, S.QR (4 * K.toNat + 7) (fGemm ta tb α β K x y c) z
        (broadcast (‖(β.map S.val).toH‖ * ‖(c.map S.val).toH‖ +
          2 * ‖(α.map S.val).toH‖ * ∑ k ∈ range K.toNat, ‖((x k).map S.val).toH‖ * ‖((y k).map S.val).toH‖)) ∧
      z.toH = (α.map S.val).toH * (∑ k ∈ range K.toNat, ta.cj ((x k).map S.val).toH * tb.cj ((y k).map S.val).toH) +
        (β.map S.val).toH * (c.map S.val).toH := by
  have hs1 : 0 ≤ ∑ k ∈ range K.toNat, ‖((x k).map S.val).toH‖ * ‖((y k).map S.val).toH‖ :=
    sum_nonneg (fun k _ => by positivity)
  have hs : 0 ≤ 2 * ‖(α.map S.val).toH‖ * ∑ k ∈ range K.toNat, ‖((x k).map S.val).toH‖ * ‖((y k).map S.val).toH‖ := by
    positivity
  have hs2 : 0 ≤ ‖(β.map S.val).toH‖ * ‖(c.map S.val).toH‖ := by positivity
  unfold Haxx.fGemm
  split
  · rename_i e
    simp only [Bool.and_eq_true, Bool.or_eq_true, decide_eq_true_eq] at e
    have hb1 := hb.one e.2
    refine ⟨c.map S.val, (QR.exact c).toNorm.mono (p := 0) (by omega) ?_, ?_⟩
    · rw [hb1]; simpa using hs
    · rw [hb1, one_mul]
      rcases e.1 with e | e
      · rw [ha.zero e, zero_mul, zero_add]
      · rw [e]; simp
  · split
    · rename_i e
      rw [ha.zero e]
      split
      · rename_i e
        refine ⟨Haxx.fZero, QR.fZero.mono (p := 0) (by omega) (by rw [hb.zero e]; simp), ?_⟩
        rw [hb.zero e, toH_fZero]; simp
      · refine ⟨_, (QR.fScal β c).mono (by omega) (by simp), ?_⟩
        rw [toH_fScal]; simp
    · unfold fMain
      have hT : ∀ s, s ≠ FTrans.N → ∃ z : Quat ℝ, S.QR (4 * K.toNat + 7)
          (if β.fIsZero then Haxx.fAlpha α (Haxx.fAccs s tb x y K.toNat) else
            Haxx.fAddBeta β (Haxx.fAlpha α (Haxx.fAccs s tb x y K.toNat)) c) z
          (broadcast (‖(β.map S.val).toH‖ * ‖(c.map S.val).toH‖ +
            2 * ‖(α.map S.val).toH‖ * ∑ k ∈ range K.toNat, ‖((x k).map S.val).toH‖ * ‖((y k).map S.val).toH‖)) ∧
          z.toH = (α.map S.val).toH * (∑ k ∈ range K.toNat, s.cj ((x k).map S.val).toH * tb.cj ((y k).map S.val).toH) +
            (β.map S.val).toH * (c.map S.val).toH := by
        intro s hsN
        have hD := QR.fAlpha α (QR.fAccs (S := S) s tb x y K.toNat) hs1
        split
        · rename_i e
          refine ⟨_, hD.mono (by omega) (by linarith), ?_⟩
          rw [toH_fAlpha, toH_fAccs s tb hsN, hb.zero e]; simp
        · refine ⟨_, (QR.fAddBeta β c hD (by omega)).mono (by omega) (le_of_eq (add_comm _ _)), ?_⟩
          rw [toH_fAddBeta, toH_fAlpha, toH_fAccs s tb hsN]
      cases ta
      · have hB : ∃ z : Quat ℝ, S.QR 4 (fBeta β.fIsZero β.fIsOne β c) z
            (broadcast (‖(β.map S.val).toH‖ * ‖(c.map S.val).toH‖)) ∧
            z.toH = (β.map S.val).toH * (c.map S.val).toH := by
          unfold fBeta
          split
          · rename_i e
            refine ⟨Haxx.fZero, QR.fZero.mono (p := 0) (by omega) hs2, ?_⟩
            rw [hb.zero e, toH_fZero]; simp
          · split
            · rename_i e
              have hb1 := hb.one e
              refine ⟨c.map S.val, (QR.exact c).toNorm.mono (p := 0) (by omega) ?_, ?_⟩
              · rw [hb1]; simp
              · rw [hb1, one_mul]
            · exact ⟨_, (QR.fScal β c).le (by omega), toH_fScal _ _⟩
        obtain ⟨z, h1, h2⟩ := hB
        refine ⟨_, (QR.fSteps α tb x y h1 le_rfl K.toNat).mono (by omega) le_rfl, ?_⟩
        rw [toH_fSteps, h2, add_comm]
        rfl
      · exact hT _ (by decide)
      · exact hT _ (by decide)

end StdModel
end Haxx
