import Verif.Round

/-! # Rounding-error bounds of the quaternion kernels -/

namespace Haxx
open Quaternion Finset

variable {F : Type} [Arith F] {u : ℝ}

/-- Componentwise approximation, magnitudes `M`. -/
def StdModel.QR (S : StdModel F u) (p : ℕ) (x' : Quat F) (x M : Quat ℝ) : Prop :=
  S.R p x'.re x.re M.re ∧ S.R p x'.i x.i M.i ∧ S.R p x'.j x.j M.j ∧ S.R p x'.k x.k M.k

/-- Componentwise absolute value. -/
noncomputable def Quat.abs (q : Quat ℝ) : Quat ℝ := ⟨|q.re|, |q.i|, |q.j|, |q.k|⟩

theorem norm_sq_toH (q : Quat ℝ) : ‖q.toH‖ ^ 2 = q.re ^ 2 + q.i ^ 2 + q.j ^ 2 + q.k ^ 2 := by
  rw [sq, ← Quaternion.normSq_eq_norm_mul_self, Quaternion.normSq_def']
  rfl

theorem norm_abs (q : Quat ℝ) : ‖(Quat.abs q).toH‖ = ‖q.toH‖ := by
  have h : ‖(Quat.abs q).toH‖ ^ 2 = ‖q.toH‖ ^ 2 := by
    rw [norm_sq_toH, norm_sq_toH]
    simp [Quat.abs]
  exact (pow_left_inj₀ (norm_nonneg _) (norm_nonneg _) (by norm_num)).mp h

theorem norm_broadcast {s : ℝ} (hs : 0 ≤ s) : ‖(broadcast s).toH‖ = 2 * s := by
  have h : ‖(broadcast s).toH‖ ^ 2 = (2 * s) ^ 2 := by
    rw [norm_sq_toH]
    simp [broadcast]; ring
  exact (pow_left_inj₀ (norm_nonneg _) (by positivity) (by norm_num)).mp h

theorem norm_le_of_comp {q : Quat ℝ} {b : ℝ} (h0 : |q.re| ≤ b) (h1 : |q.i| ≤ b) (h2 : |q.j| ≤ b)
    (h3 : |q.k| ≤ b) : ‖q.toH‖ ≤ 2 * b := by
  have hb : 0 ≤ b := (abs_nonneg _).trans h0
  refine le_of_sq_le_sq' ?_ (by positivity)
  rw [norm_sq_toH]
  have e : ∀ x : ℝ, |x| ≤ b → x ^ 2 ≤ b ^ 2 := fun x hx => by
    rw [← sq_abs]; exact pow_le_pow_left₀ (abs_nonneg _) hx 2
  nlinarith [e _ h0, e _ h1, e _ h2, e _ h3]
where
  le_of_sq_le_sq' {a b : ℝ} (h : a ^ 2 ≤ b ^ 2) (hb : 0 ≤ b) : a ≤ b :=
    le_of_sq_le_sq h hb

/-- Cauchy–Schwarz. -/
theorem cs4 {n m a b c d e f g h : ℝ} (hn : 0 ≤ n) (hm : 0 ≤ m)
    (h1 : n ^ 2 = a ^ 2 + b ^ 2 + c ^ 2 + d ^ 2) (h2 : m ^ 2 = e ^ 2 + f ^ 2 + g ^ 2 + h ^ 2) :
    a * e + b * f + c * g + d * h ≤ n * m := by
  refine norm_le_of_comp.le_of_sq_le_sq' ?_ (by positivity)
  rw [mul_pow, h1, h2]
  nlinarith [sq_nonneg (a * f - b * e), sq_nonneg (a * g - c * e), sq_nonneg (a * h - d * e),
    sq_nonneg (b * g - c * f), sq_nonneg (b * h - d * f), sq_nonneg (c * h - d * g)]

theorem comp_le_norm (q : Quat ℝ) :
    |q.re| ≤ ‖q.toH‖ ∧ |q.i| ≤ ‖q.toH‖ ∧ |q.j| ≤ ‖q.toH‖ ∧ |q.k| ≤ ‖q.toH‖ := by
  have h := norm_sq_toH q
  refine ⟨?_, ?_, ?_, ?_⟩ <;>
  · refine norm_le_of_comp.le_of_sq_le_sq' ?_ (norm_nonneg _)
    rw [h, sq_abs]; nlinarith [sq_nonneg q.re, sq_nonneg q.i, sq_nonneg q.j, sq_nonneg q.k]

namespace StdModel
variable {S : StdModel F u} {p q r n : ℕ} {x' y' r' : Quat F} {x y z A B C : Quat ℝ} {s t : ℝ}

theorem QR.exact (x' : Quat F) : S.QR p x' (x'.map S.val) (Quat.abs (x'.map S.val)) :=
  ⟨R.exact _, R.exact _, R.exact _, R.exact _⟩

theorem QR.toNorm (h : S.QR p x' x (Quat.abs z)) : S.QR p x' x (broadcast ‖z.toH‖) := by
  obtain ⟨a, b, c, d⟩ := comp_le_norm z
  exact ⟨h.1.mono le_rfl a, h.2.1.mono le_rfl b, h.2.2.1.mono le_rfl c, h.2.2.2.mono le_rfl d⟩

theorem QR.mono (h : S.QR p x' x (broadcast s)) (hp : p ≤ q) (hs : s ≤ t) :
    S.QR q x' x (broadcast t) :=
  ⟨h.1.mono hp hs, h.2.1.mono hp hs, h.2.2.1.mono hp hs, h.2.2.2.mono hp hs⟩

theorem QR.le (h : S.QR p x' x A) (hp : p ≤ q) : S.QR q x' x A :=
  ⟨h.1.le hp, h.2.1.le hp, h.2.2.1.le hp, h.2.2.2.le hp⟩

/-- From componentwise to norm. -/
theorem QR.norm (h : S.QR p x' x (broadcast s)) (ho : x'.All S.ok) :
    ‖(x'.map S.val).toH - x.toH‖ ≤ 2 * (((1 + u) ^ p - 1) * s) := by
  have e : (x'.map S.val).toH - x.toH =
      (⟨S.val x'.re - x.re, S.val x'.i - x.i, S.val x'.j - x.j, S.val x'.k - x.k⟩ : Quat ℝ).toH := by
    ext <;> simp [Quat.map]
  rw [e]
  exact norm_le_of_comp (h.1.1 ho.1) (h.2.1.1 ho.2.1) (h.2.2.1.1 ho.2.2.1) (h.2.2.2.1 ho.2.2.2)

theorem QR.conj (h : S.QR p x' x A) : S.QR p (qconj256 x') (qconj256 x) A :=
  ⟨h.1, h.2.1.neg, h.2.2.1.neg, h.2.2.2.neg⟩

theorem QR.vadd (h : S.QR p x' x (broadcast s)) (g : S.QR p y' y (broadcast t)) :
    S.QR (p + 1) (vadd x' y') (vadd x y) (broadcast (s + t)) :=
  ⟨h.1.add g.1, h.2.1.add g.2.1, h.2.2.1.add g.2.2.1, h.2.2.2.add g.2.2.2⟩

/-- `MULDQ_NN` -/
theorem QR.mulNN (hx : S.QR p x' x A) (hy : S.QR q y' y B) :
    S.QR (p + q + 3) (MULDQ_NN x' y') (MULDQ_NN x y) (broadcast (‖A.toH‖ * ‖B.toH‖)) := by
  have hA := norm_sq_toH A
  have hB := norm_sq_toH B
  have nA := norm_nonneg A.toH
  have nB := norm_nonneg B.toH
  refine ⟨?_, ?_, ?_, ?_⟩
  · have h := ((hx.1.fms hy.1 (hx.2.2.2.mul hy.2.2.2) le_rfl le_rfl).add
      (hx.2.2.1.fma hy.2.2.1 (hx.2.1.mul hy.2.1) le_rfl le_rfl).neg)
    exact h.mono le_rfl (le_trans (le_of_eq (by ring))
      (cs4 (a := A.re) (b := A.k) (c := A.j) (d := A.i) nA nB (by rw [hA]; ring)
        (e := B.re) (f := B.k) (g := B.j) (h := B.i) (by rw [hB]; ring)))
  · have h := ((hx.1.fms hy.2.1 (hx.2.2.2.mul hy.2.2.1) le_rfl le_rfl).add
      (hx.2.2.1.fma hy.2.2.2 (hx.2.1.mul hy.1) le_rfl le_rfl))
    exact h.mono le_rfl (le_trans (le_of_eq (by ring))
      (cs4 (a := A.re) (b := A.k) (c := A.j) (d := A.i) nA nB (by rw [hA]; ring)
        (e := B.i) (f := B.j) (g := B.k) (h := B.re) (by rw [hB]; ring)))
  · have h := ((hx.1.fms hy.2.2.1 (hx.2.1.mul hy.2.2.2) le_rfl le_rfl).add
      (hx.2.2.2.fma hy.2.1 (hx.2.2.1.mul hy.1) le_rfl le_rfl))
    exact h.mono le_rfl (le_trans (le_of_eq (by ring))
      (cs4 (a := A.re) (b := A.k) (c := A.j) (d := A.i) nA nB (by rw [hA]; ring)
        (e := B.j) (f := B.i) (g := B.re) (h := B.k) (by rw [hB]; ring)))
  · have h := ((hx.1.fms hy.2.2.2 (hx.2.2.1.mul hy.2.1) le_rfl le_rfl).add
      (hx.2.1.fma hy.2.2.1 (hx.2.2.2.mul hy.1) le_rfl le_rfl))
    exact h.mono le_rfl (le_trans (le_of_eq (by ring))
      (cs4 (a := A.re) (b := A.k) (c := A.j) (d := A.i) nA nB (by rw [hA]; ring)
        (e := B.k) (f := B.re) (g := B.i) (h := B.j) (by rw [hB]; ring)))

/-- the kernels' multiply-accumulate -/
theorem QR.qinc (hx : S.QR p x' x A) (hy : S.QR q y' y B) (hr : S.QR r r' z (broadcast s))
    (h1 : p + q + 1 ≤ r) :
    S.QR (r + 4) (qinc x' y' r') (qinc x y z) (broadcast (s + ‖A.toH‖ * ‖B.toH‖)) := by
  have hA := norm_sq_toH A
  have hB := norm_sq_toH B
  have nA := norm_nonneg A.toH
  have nB := norm_nonneg B.toH
  have l0 : p + q + 2 ≤ r + 1 := by omega
  have l1 : p + q + 2 ≤ r + 2 := by omega
  have l2 : p + q + 2 ≤ r + 3 := by omega
  have l3 : p + q + 2 ≤ r + 4 := by omega
  refine ⟨?_, ?_, ?_, ?_⟩
  · have h := hx.2.2.2.fnma hy.2.2.2 (hx.2.2.1.fnma hy.2.2.1 (hx.2.1.fnma hy.2.1
      (hx.1.fma hy.1 hr.1 l0 le_rfl) l1 le_rfl) l2 le_rfl) l3 le_rfl
    refine h.mono le_rfl ?_
    have := cs4 (a := A.re) (b := A.i) (c := A.j) (d := A.k) nA nB (by rw [hA])
        (e := B.re) (f := B.i) (g := B.j) (h := B.k) (by rw [hB])
    simp only [broadcast]; linarith
  · have h := hx.2.2.2.fnma hy.2.2.1 (hx.2.2.1.fma hy.2.2.2 (hx.2.1.fma hy.1
      (hx.1.fma hy.2.1 hr.2.1 l0 le_rfl) l1 le_rfl) l2 le_rfl) l3 le_rfl
    refine h.mono le_rfl ?_
    have := cs4 (a := A.re) (b := A.i) (c := A.j) (d := A.k) nA nB (by rw [hA])
        (e := B.i) (f := B.re) (g := B.k) (h := B.j) (by rw [hB]; ring)
    simp only [broadcast]; linarith
  · have h := hx.2.2.2.fma hy.2.1 (hx.2.2.1.fma hy.1 (hx.2.1.fnma hy.2.2.2
      (hx.1.fma hy.2.2.1 hr.2.2.1 l0 le_rfl) l1 le_rfl) l2 le_rfl) l3 le_rfl
    refine h.mono le_rfl ?_
    have := cs4 (a := A.re) (b := A.i) (c := A.j) (d := A.k) nA nB (by rw [hA])
        (e := B.j) (f := B.k) (g := B.re) (h := B.i) (by rw [hB]; ring)
    simp only [broadcast]; linarith
  · have h := hx.2.2.2.fma hy.1 (hx.2.2.1.fnma hy.2.1 (hx.2.1.fma hy.2.2.1
      (hx.1.fma hy.2.2.2 hr.2.2.2 l0 le_rfl) l1 le_rfl) l2 le_rfl) l3 le_rfl
    refine h.mono le_rfl ?_
    have := cs4 (a := A.re) (b := A.i) (c := A.j) (d := A.k) nA nB (by rw [hA])
        (e := B.k) (f := B.j) (g := B.i) (h := B.re) (by rw [hB]; ring)
    simp only [broadcast]; linarith

theorem QR.accum {x' y' : ℕ → Quat F} {x y A B : ℕ → Quat ℝ} {r' : Quat F} {z : Quat ℝ}
    (hp : p + q + 1 ≤ r) (K : ℕ) (hx : ∀ k, S.QR p (x' k) (x k) (A k))
    (hy : ∀ k, S.QR q (y' k) (y k) (B k)) (hr : S.QR r r' z (broadcast s)) :
    S.QR (r + 4 * K) (accum x' y' K r') (accum x y K z)
      (broadcast (s + ∑ k ∈ range K, ‖(A k).toH‖ * ‖(B k).toH‖)) := by
  induction K with
  | zero => simpa [Haxx.accum] using hr
  | succ K ih =>
    have := QR.qinc (hx K) (hy K) ih (by omega)
    rw [sum_range_succ, ← add_assoc]
    exact this

end StdModel
end Haxx
