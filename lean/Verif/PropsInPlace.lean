import Verif.InPlace
import Verif.PropsHblas1G
import Mathlib.Tactic.Linarith

/-!
# C69 — the in-place operators, wherever the operand lies

Specification: the value-level operators of `Quat.lean` applied to what memory held *before* the
operator, written to the four cells of the left operand and nothing else:
`prog m = .ok ((), writeQ m q (value))`.
-/

set_option linter.unusedSectionVars false

namespace Haxx

open Arith

variable {F : Type} [Arith F]

namespace InPlace

theorem upd_run {f : F → F → F} {x v : Int} {m : Mem F} {a b : F} (hx : m x = some a)
    (hv : m v = some b) :
    upd f x v m = .ok ((), fun c => if c = x then some (f a b) else m c) := by
  unfold upd
  rw [bind_ok (show rd x m = .ok (a, m) by simp [rd, hx]),
    bind_ok (show rd v m = .ok (b, m) by simp [rd, hv])]
  simp [wr, hx]

theorem wp_upd {f : F → F → F} {x v : Int} {m : Mem F} {Q : Unit → Mem F → Prop} {a b : F}
    (hx : m x = some a) (hv : m v = some b) :
    wp (upd f x v) m Q ↔ Q () (fun c => if c = x then some (f a b) else m c) := by
  constructor
  · rintro ⟨u, m', h, hq⟩
    rw [upd_run hx hv] at h
    cases h
    exact hq
  · intro hq
    exact ⟨(), _, upd_run hx hv, hq⟩

theorem ok_of_wp {p : Prog F Unit} {m m1 : Mem F} (h : wp p m (fun _ m' => m' = m1)) :
    p m = .ok ((), m1) := by
  obtain ⟨_, m', h, rfl⟩ := h
  exact h

end InPlace

open InPlace

/-- Read through the cells written so far. -/
macro "cells" : tactic => `(tactic| ((repeat rw [if_neg (by omega)]); assumption))

/-! ## Real operand: `=`, `+=`, `-=` are right wherever the operand lies, also inside `q` -/

/-- C69. `q = t`: right wherever `t` lies, also when it is a component of `q`. -/
theorem C69_assign_real {m : Mem F} {q t : Int} {x : Quat F} {v : F} (hq : readQ m q = some x)
    (ht : m t = some v) :
    InPlace.assignReal q t m = .ok ((), writeQ m q (x.assignReal v)) := by
  obtain ⟨h0, h1, h2, h3⟩ := readQ_eq_some.mp hq
  apply ok_of_wp
  unfold InPlace.assignReal
  rw [wp_bind, wp_rd ht, wp_bind, wp_wr h0, wp_bind, wp_wr (w := x.i) (by cells), wp_bind,
    wp_wr (w := x.j) (by cells), wp_wr (w := x.k) (by cells)]
  funext a
  simp only [writeQ, Quat.assignReal]
  split_ifs <;> first | rfl | omega

/-- C69. `q += t`: right wherever `t` lies. -/
theorem C69_add_real {m : Mem F} {q t : Int} {x : Quat F} {v : F} (hq : readQ m q = some x)
    (ht : m t = some v) :
    InPlace.addAssignReal q t m = .ok ((), writeQ m q (x.addAssignReal v)) := by
  obtain ⟨h0, h1, h2, h3⟩ := readQ_eq_some.mp hq
  apply ok_of_wp
  unfold InPlace.addAssignReal
  rw [wp_upd h0 ht]
  funext a
  simp only [writeQ, Quat.addAssignReal]
  split_ifs <;> first | rfl | (subst_vars; assumption)

/-- C69. `q -= t`: right wherever `t` lies. -/
theorem C69_sub_real {m : Mem F} {q t : Int} {x : Quat F} {v : F} (hq : readQ m q = some x)
    (ht : m t = some v) :
    InPlace.subAssignReal q t m = .ok ((), writeQ m q (x.subAssignReal v)) := by
  obtain ⟨h0, h1, h2, h3⟩ := readQ_eq_some.mp hq
  apply ok_of_wp
  unfold InPlace.subAssignReal
  rw [wp_upd h0 ht]
  funext a
  simp only [writeQ, Quat.subAssignReal]
  split_ifs <;> first | rfl | (subst_vars; assumption)

/-! ## Real operand: `*=`, `/=` -/

/-- The four statements `x_c = f(x_c, t)` where `t` is read again each time: what the components
become when the operand lies at `t` (value `v` before) — after a statement has overwritten the
operand, the later ones see the new value. -/
def fourUpd (f : F → F → F) (q t : Int) (x : Quat F) (v : F) : Quat F :=
  let r := f x.re v
  let v1 := if t = q then r else v
  let i := f x.i v1
  let v2 := if t = q + 1 then i else v1
  let j := f x.j v2
  let v3 := if t = q + 2 then j else v2
  ⟨r, i, j, f x.k v3⟩

theorem InPlace.four_run {f : F → F → F} {m : Mem F} {q t : Int} {x : Quat F} {v : F}
    (hq : readQ m q = some x) (ht : m t = some v) :
    (do upd f q t; upd f (q+1) t; upd f (q+2) t; upd f (q+3) t : Prog F Unit) m
      = .ok ((), writeQ m q (fourUpd f q t x v)) := by
  obtain ⟨h0, h1, h2, h3⟩ := readQ_eq_some.mp hq
  apply ok_of_wp
  by_cases t0 : t = q
  · subst t0
    obtain rfl : x.re = v := Option.some.inj (h0 ▸ ht)
    rw [wp_bind, wp_upd h0 ht, wp_bind, wp_upd (a := x.i) (b := f x.re x.re) (by cells) (by simp),
      wp_bind, wp_upd (a := x.j) (b := f x.re x.re) (by cells) (by simp),
      wp_upd (a := x.k) (b := f x.re x.re) (by cells) (by simp)]
    funext a
    simp only [writeQ, fourUpd]
    split_ifs <;> first | rfl | omega
  · by_cases t1 : t = q + 1
    · subst t1
      obtain rfl : x.i = v := Option.some.inj (h1 ▸ ht)
      rw [wp_bind, wp_upd h0 ht, wp_bind, wp_upd (a := x.i) (b := x.i) (by cells) (by cells),
        wp_bind, wp_upd (a := x.j) (b := f x.i x.i) (by cells) (by simp),
        wp_upd (a := x.k) (b := f x.i x.i) (by cells) (by simp)]
      funext a
      simp only [writeQ, fourUpd]
      split_ifs <;> first | rfl | omega
    · by_cases t2 : t = q + 2
      · subst t2
        obtain rfl : x.j = v := Option.some.inj (h2 ▸ ht)
        rw [wp_bind, wp_upd h0 ht, wp_bind, wp_upd (a := x.i) (b := x.j) (by cells) (by cells),
          wp_bind, wp_upd (a := x.j) (b := x.j) (by cells) (by cells),
          wp_upd (a := x.k) (b := f x.j x.j) (by cells) (by simp)]
        funext a
        simp only [writeQ, fourUpd]
        split_ifs <;> first | rfl | omega
      · rw [wp_bind, wp_upd h0 ht, wp_bind, wp_upd (a := x.i) (b := v) (by cells) (by cells),
          wp_bind, wp_upd (a := x.j) (b := v) (by cells) (by cells),
          wp_upd (a := x.k) (b := v) (by cells) (by cells)]
        funext a
        simp only [writeQ, fourUpd]
        split_ifs <;> first | rfl | omega

/-- C69 (partial: the operand may be anywhere but in the first three components of `q`; see
`C69_mul_real_violated`).  `q *= t` multiplies the four components by the value `t` had. -/
theorem C69_mul_real_partial {m : Mem F} {q t : Int} {x : Quat F} {v : F}
    (hq : readQ m q = some x) (ht : m t = some v) (h0 : t ≠ q) (h1 : t ≠ q + 1) (h2 : t ≠ q + 2) :
    InPlace.mulAssignReal q t m = .ok ((), writeQ m q (x.mulAssignReal v)) := by
  unfold InPlace.mulAssignReal
  rw [four_run hq ht]
  simp [fourUpd, Quat.mulAssignReal, h0, h1, h2]

/-- C69 (partial, as `C69_mul_real_partial`).  `q /= t`. -/
theorem C69_div_real_partial [ArithDiv F] {m : Mem F} {q t : Int} {x : Quat F} {v : F}
    (hq : readQ m q = some x) (ht : m t = some v) (h0 : t ≠ q) (h1 : t ≠ q + 1) (h2 : t ≠ q + 2) :
    InPlace.divAssignReal q t m = .ok ((), writeQ m q (x.divAssignReal v)) := by
  unfold InPlace.divAssignReal
  rw [four_run hq ht]
  simp [fourUpd, Quat.divAssignReal, h0, h1, h2]

/-- C69. What `q *= t` does for any place of `t`, exactly: the operator never faults and never
touches anything but `q`, but once it has overwritten its own operand it goes on with the new
value. -/
theorem C69_mul_real_exact {m : Mem F} {q t : Int} {x : Quat F} {v : F}
    (hq : readQ m q = some x) (ht : m t = some v) :
    InPlace.mulAssignReal q t m = .ok ((), writeQ m q (fourUpd (· *ᶠ ·) q t x v)) :=
  four_run hq ht

/-- C69. What `q /= t` does for any place of `t`, exactly. -/
theorem C69_div_real_exact [ArithDiv F] {m : Mem F} {q t : Int} {x : Quat F} {v : F}
    (hq : readQ m q = some x) (ht : m t = some v) :
    InPlace.divAssignReal q t m = .ok ((), writeQ m q (fourUpd ArithDiv.div q t x v)) :=
  four_run hq ht

/-- C69, violated: in each of the three excluded places there is a quaternion for which `q *= t`
does not multiply by the value `t` had. -/
theorem C69_mul_real_violated : ∀ t : Int, t = 0 ∨ t = 1 ∨ t = 2 →
    ∃ (m : Mem Int) (x : Quat Int) (v : Int), readQ m 0 = some x ∧ m t = some v ∧
      InPlace.mulAssignReal 0 t m ≠ .ok ((), writeQ m 0 (x.mulAssignReal v)) := by
  intro t ht
  let m : Mem Int := fun a => if 0 ≤ a ∧ a < 4 then some 2 else none
  have hv : m t = some 2 := by
    simp only [m]; rw [if_pos (by omega)]
  refine ⟨m, ⟨2, 2, 2, 2⟩, 2, by decide, hv, ?_⟩
  rw [C69_mul_real_exact (x := ⟨2, 2, 2, 2⟩) (by decide) hv]
  intro h
  have h3 : (writeQ m 0 (fourUpd (· *ᶠ ·) 0 t ⟨2, 2, 2, 2⟩ 2)) 3
      = (writeQ m 0 (Quat.mulAssignReal ⟨2, 2, 2, 2⟩ 2)) 3 := by
    injection h with h
    exact congrFun (congrArg Prod.snd h) 3
  revert h3
  rcases ht with rfl | rfl | rfl <;> decide

/-- C69. A factor computed from `q` through the getters (`q *= q.real()`, `q *= norm(q)`, …) is
held in a temporary, so the result is right: every component times that function of the old `q`. -/
theorem C69_mul_own {m : Mem F} {q tmp : Int} {x : Quat F} {w : F} (f : Quat F → F)
    (hq : readQ m q = some x) (ht : m tmp = some w) (hdis : ¬ InQ q tmp) :
    ∃ m', InPlace.mulByOwn f q tmp m = .ok ((), m') ∧ readQ m' q = some (x.mulAssignReal (f x)) ∧
      SameOutside (fun a => InQ q a ∨ a = tmp) m m' := by
  obtain ⟨h0, h1, h2, h3⟩ := readQ_eq_some.mp hq
  have hne : ∀ c : Int, 0 ≤ c → c < 4 → tmp ≠ q + c := by
    intro c hc hc4 e; exact hdis ⟨by omega, by omega⟩
  have e0 := hne 0; have e1 := hne 1 (by omega) (by omega); have e2 := hne 2 (by omega) (by omega)
  have e3 := hne 3 (by omega) (by omega)
  let m1 : Mem F := fun b => if b = tmp then some (f x) else m b
  have hq1 : readQ m1 q = some x := by
    refine readQ_eq_some.mpr ⟨?_, ?_, ?_, ?_⟩ <;> simp only [m1] <;> cells
  refine ⟨writeQ m1 q (x.mulAssignReal (f x)), ?_, readQ_writeQ_same _ _ _, ?_⟩
  · apply ok_of_wp
    unfold InPlace.mulByOwn
    rw [wp_bind, wp_loadQ hq, wp_bind, wp_wr ht]
    exact ⟨_, _, C69_mul_real_partial hq1 (by simp) (by omega) (by omega) (by omega), rfl⟩
  · intro a ha
    simp only [InQ, not_or, not_and] at ha
    simp only [writeQ, m1]
    repeat rw [if_neg (by omega)]

/-- C69. The same for `q /= f(q)` — in particular `q /= norm(q)` normalises. -/
theorem C69_div_own [ArithDiv F] {m : Mem F} {q tmp : Int} {x : Quat F} {w : F} (f : Quat F → F)
    (hq : readQ m q = some x) (ht : m tmp = some w) (hdis : ¬ InQ q tmp) :
    ∃ m', InPlace.divByOwn f q tmp m = .ok ((), m') ∧ readQ m' q = some (x.divAssignReal (f x)) ∧
      SameOutside (fun a => InQ q a ∨ a = tmp) m m' := by
  obtain ⟨h0, h1, h2, h3⟩ := readQ_eq_some.mp hq
  have hne : ∀ c : Int, 0 ≤ c → c < 4 → tmp ≠ q + c := by
    intro c hc hc4 e; exact hdis ⟨by omega, by omega⟩
  have e0 := hne 0; have e1 := hne 1 (by omega) (by omega); have e2 := hne 2 (by omega) (by omega)
  have e3 := hne 3 (by omega) (by omega)
  let m1 : Mem F := fun b => if b = tmp then some (f x) else m b
  have hq1 : readQ m1 q = some x := by
    refine readQ_eq_some.mpr ⟨?_, ?_, ?_, ?_⟩ <;> simp only [m1] <;> cells
  refine ⟨writeQ m1 q (x.divAssignReal (f x)), ?_, readQ_writeQ_same _ _ _, ?_⟩
  · apply ok_of_wp
    unfold InPlace.divByOwn
    rw [wp_bind, wp_loadQ hq, wp_bind, wp_wr ht]
    exact ⟨_, _, C69_div_real_partial hq1 (by simp) (by omega) (by omega) (by omega), rfl⟩
  · intro a ha
    simp only [InQ, not_or, not_and] at ha
    simp only [writeQ, m1]
    repeat rw [if_neg (by omega)]

/-! ## Complex operand -/

/-- C69 (partial: all places but the one where the imaginary part of the operand is the real part
of `q`).  `q = z`. -/
theorem C69_assign_cplx_partial {m : Mem F} {q t : Int} {x : Quat F} {z : Cplx F}
    (hq : readQ m q = some x) (hr : m t = some z.re) (hi : m (t+1) = some z.im) (h : t + 1 ≠ q) :
    InPlace.assignCplx q t m = .ok ((), writeQ m q (x.assignCplx z)) := by
  obtain ⟨h0, h1, h2, h3⟩ := readQ_eq_some.mp hq
  apply ok_of_wp
  unfold InPlace.assignCplx
  rw [wp_bind, wp_rd hr, wp_bind, wp_wr h0, wp_bind, wp_rd (v := z.im) (by cells), wp_bind,
    wp_wr (w := x.i) (by cells), wp_bind, wp_wr (w := x.j) (by cells), wp_wr (w := x.k) (by cells)]
  funext a
  simp only [writeQ, Quat.assignCplx]
  split_ifs <;> first | rfl | omega

/-- C69 (partial, as `C69_assign_cplx_partial`).  `q += z`. -/
theorem C69_add_cplx_partial {m : Mem F} {q t : Int} {x : Quat F} {z : Cplx F}
    (hq : readQ m q = some x) (hr : m t = some z.re) (hi : m (t+1) = some z.im) (h : t + 1 ≠ q) :
    InPlace.addAssignCplx q t m = .ok ((), writeQ m q (x.addAssignCplx z)) := by
  obtain ⟨h0, h1, h2, h3⟩ := readQ_eq_some.mp hq
  apply ok_of_wp
  unfold InPlace.addAssignCplx
  rw [wp_bind, wp_upd h0 hr, wp_upd (a := x.i) (b := z.im) (by cells) (by cells)]
  funext a
  simp only [writeQ, Quat.addAssignCplx]
  split_ifs <;> first | rfl | omega | (subst_vars; assumption)

/-- C69 (partial, as `C69_assign_cplx_partial`).  `q -= z`. -/
theorem C69_sub_cplx_partial {m : Mem F} {q t : Int} {x : Quat F} {z : Cplx F}
    (hq : readQ m q = some x) (hr : m t = some z.re) (hi : m (t+1) = some z.im) (h : t + 1 ≠ q) :
    InPlace.subAssignCplx q t m = .ok ((), writeQ m q (x.subAssignCplx z)) := by
  obtain ⟨h0, h1, h2, h3⟩ := readQ_eq_some.mp hq
  apply ok_of_wp
  unfold InPlace.subAssignCplx
  rw [wp_bind, wp_upd h0 hr, wp_upd (a := x.i) (b := z.im) (by cells) (by cells)]
  funext a
  simp only [writeQ, Quat.subAssignCplx]
  split_ifs <;> first | rfl | omega | (subst_vars; assumption)

/-! ## Quaternion operand -/

/-- C69. `q = p`: right for disjoint operands, for `q = q`, and for an operand that starts after
`q`; only an operand that starts one to three components *before* `q` goes wrong. -/
theorem C69_assign_partial {m : Mem F} {q p : Int} {x y : Quat F} (hq : readQ m q = some x)
    (hp : readQ m p = some y) (h : q ≤ p ∨ p + 4 ≤ q) :
    InPlace.assign q p m = .ok ((), writeQ m q y) := by
  obtain ⟨h0, h1, h2, h3⟩ := readQ_eq_some.mp hq
  obtain ⟨g0, g1, g2, g3⟩ := readQ_eq_some.mp hp
  apply ok_of_wp
  unfold InPlace.assign
  rw [wp_bind, wp_rd g0, wp_bind, wp_wr h0, wp_bind, wp_rd (v := y.i) (by cells), wp_bind,
    wp_wr (w := x.i) (by cells), wp_bind, wp_rd (v := y.j) (by cells), wp_bind,
    wp_wr (w := x.j) (by cells), wp_bind, wp_rd (v := y.k) (by cells), wp_wr (w := x.k) (by cells)]
  funext a
  simp only [writeQ]
  split_ifs <;> first | rfl | omega

theorem InPlace.pair_run {f : F → F → F} {m : Mem F} {q p : Int} {x y : Quat F}
    (hq : readQ m q = some x) (hp : readQ m p = some y) (h : q ≤ p ∨ p + 4 ≤ q) :
    (do upd f q p; upd f (q+1) (p+1); upd f (q+2) (p+2); upd f (q+3) (p+3) : Prog F Unit) m
      = .ok ((), writeQ m q ⟨f x.re y.re, f x.i y.i, f x.j y.j, f x.k y.k⟩) := by
  obtain ⟨h0, h1, h2, h3⟩ := readQ_eq_some.mp hq
  obtain ⟨g0, g1, g2, g3⟩ := readQ_eq_some.mp hp
  apply ok_of_wp
  rw [wp_bind, wp_upd h0 g0, wp_bind, wp_upd (a := x.i) (b := y.i) (by cells) (by cells), wp_bind,
    wp_upd (a := x.j) (b := y.j) (by cells) (by cells), wp_upd (a := x.k) (b := y.k) (by cells)
    (by cells)]
  funext a
  simp only [writeQ]
  split_ifs <;> first | rfl | omega

/-- C69. `q += p`: as `C69_assign_partial`. -/
theorem C69_add_partial {m : Mem F} {q p : Int} {x y : Quat F} (hq : readQ m q = some x)
    (hp : readQ m p = some y) (h : q ≤ p ∨ p + 4 ≤ q) :
    InPlace.addAssign q p m = .ok ((), writeQ m q (x.addAssign y)) :=
  pair_run hq hp h

/-- C69. `q -= p`: as `C69_assign_partial`. -/
theorem C69_sub_partial {m : Mem F} {q p : Int} {x y : Quat F} (hq : readQ m q = some x)
    (hp : readQ m p = some y) (h : q ≤ p ∨ p + 4 ≤ q) :
    InPlace.subAssign q p m = .ok ((), writeQ m q (x.subAssign y)) :=
  pair_run hq hp h

/-- C69. `q = q` changes nothing, `q += q` doubles every component, `q -= q` subtracts every
component from itself. -/
theorem C69_self {m : Mem F} {q : Int} {x : Quat F} (hq : readQ m q = some x) :
    InPlace.assign q q m = .ok ((), m) ∧
      InPlace.addAssign q q m = .ok ((), writeQ m q (x.addAssign x)) ∧
      InPlace.subAssign q q m = .ok ((), writeQ m q (x.subAssign x)) := by
  refine ⟨?_, C69_add_partial hq hq (Or.inl le_rfl), C69_sub_partial hq hq (Or.inl le_rfl)⟩
  rw [C69_assign_partial hq hq (Or.inl le_rfl)]
  obtain ⟨h0, h1, h2, h3⟩ := readQ_eq_some.mp hq
  congr 2
  funext a
  simp only [writeQ]
  split_ifs <;> first | rfl | (subst_vars; symm; assumption)

/-- C69, violated: a complex operand whose imaginary part is the real part of `q`, and a quaternion
operand one component before `q`, both with the memory 1, 2, 3, 4, 5. -/
theorem C69_overlap_violated :
    let m : Mem Int := fun a => if 0 ≤ a ∧ a < 5 then some (a + 1) else none
    (readQ m 0 = some ⟨1, 2, 3, 4⟩ ∧ readQ m 1 = some ⟨2, 3, 4, 5⟩) ∧
      (∃ m', InPlace.addAssignCplx 1 0 m = .ok ((), m') ∧ readQ m' 1 = some ⟨3, 6, 4, 5⟩) ∧
      Quat.addAssignCplx ⟨2, 3, 4, 5⟩ ⟨1, 2⟩ = (⟨3, 5, 4, 5⟩ : Quat Int) ∧
      (∃ m', InPlace.assign 1 0 m = .ok ((), m') ∧ readQ m' 1 = some ⟨1, 1, 1, 1⟩) := by
  refine ⟨by decide, ⟨_, rfl, by decide⟩, by decide, ⟨_, rfl, by decide⟩⟩

/-! ## Scalars of the BLAS-like routines are passed by value -/

variable {R : Type} [CommRing R] [DecidableEq R]

/-- C69. ALPHA of SCALV may be an element of the vector that is scaled: every element — that one
too — is multiplied by the value it had before the call. -/
theorem C69_scalv_own (m : Mem R) (SIDE : Char) (N X INCX : Int) (x : Nat → Quat R) (j : Nat)
    (hj : j < N.toNat) (hX : VecAt m X INCX N.toNat x) (hinc : INCX ≠ 0) :
    ∃ m', (do let a ← loadQ (X + 4 * ((j : Int) * INCX)); scalvAVX SIDE N (.h a) X INCX) m
        = .ok ((), m') ∧
      VecAt m' X INCX N.toNat (fun i => Quat.ofH
        (if SIDE = 'L' then (x j).toH * (x i).toH else (x i).toH * (x j).toH)) ∧
      SameOutside (VecCell X INCX N.toNat) m m' := by
  obtain ⟨m', h, hv, ho⟩ := C13_scalv m SIDE N X INCX (.h (x j)) x hX hinc
  refine ⟨m', ?_, hv, ho⟩
  obtain ⟨a, m1, ha, rfl, rfl⟩ : wp (loadQ (X + 4 * ((j : Int) * INCX))) m
      (fun a m1 => a = x j ∧ m1 = m) := by
    rw [wp_loadQ (hX j hj)]; exact ⟨rfl, rfl⟩
  rw [bind_ok ha]
  exact h

/-- C69. The same for the three builds (positive increment, ALPHA not zero). -/
theorem C69_scalv_own_builds (m : Mem R) (SIDE : Char) (N X INCX : Int) (x : Nat → Quat R) (j : Nat)
    (hj : j < N.toNat) (hS : SIDE = 'L' ∨ SIDE = 'R') (hz : x j ≠ ⟨0, 0, 0, 0⟩) (hx : 0 < INCX)
    (fx : Fits32 (N * INCX)) (hX : VecAt m X INCX N.toNat x) :
    ∃ m', (∀ scalv ∈ [scalvAVX, scalvGen, scalvF],
        (do let a ← loadQ (X + 4 * ((j : Int) * INCX)); scalv SIDE N (.h a) X INCX) m
          = .ok ((), m')) ∧
      VecAt m' X INCX N.toNat (fun i => Quat.ofH
        (if SIDE = 'L' then (x j).toH * (x i).toH else (x i).toH * (x j).toH)) := by
  have hz' : (Scal.h (x j)).toH ≠ 0 := by
    intro h
    apply hz
    have h' : (x j).toH = 0 := h
    have e0 := congrArg QuaternionAlgebra.re h'
    have e1 := congrArg QuaternionAlgebra.imI h'
    have e2 := congrArg QuaternionAlgebra.imJ h'
    have e3 := congrArg QuaternionAlgebra.imK h'
    cases hxj : x j
    rw [hxj] at e0 e1 e2 e3
    simp only [Quat.toH] at e0 e1 e2 e3
    rw [e0, e1, e2, e3]
    rfl
  obtain ⟨m', ha, hg, hf, hv⟩ := C18_scalv m SIDE N X INCX (.h (x j)) x hS hz' hx fx hX
  obtain ⟨a, m1, hl, rfl, rfl⟩ : wp (loadQ (X + 4 * ((j : Int) * INCX))) m
      (fun a m1 => a = x j ∧ m1 = m) := by
    rw [wp_loadQ (hX j hj)]; exact ⟨rfl, rfl⟩
  refine ⟨m', ?_, hv⟩
  intro scalv hs
  rw [bind_ok hl]
  simp only [List.mem_cons, List.not_mem_nil, or_false] at hs
  rcases hs with rfl | rfl | rfl
  · exact ha
  · exact hg
  · exact hf

/-- C69. ALPHA of AXPYV may be an element of the vector that is updated (`y += y_j x`). -/
theorem C69_axpyv_own (m : Mem R) (SIDE : Char) (N X INCX Y INCY : Int) (x y : Nat → Quat R)
    (j : Nat) (hj : j < N.toNat)
    (hX : VecAt m X INCX N.toNat x) (hY : VecAt m Y INCY N.toNat y) (hinc : INCY ≠ 0)
    (hdis : Apart (VecCell X INCX N.toNat) (VecCell Y INCY N.toNat)) :
    ∃ m', (do let a ← loadQ (Y + 4 * ((j : Int) * INCY)); axpyvAVX SIDE N (.h a) X INCX Y INCY) m
        = .ok ((), m') ∧
      VecAt m' Y INCY N.toNat (fun i => Quat.ofH ((y i).toH +
        (if SIDE = 'L' then (y j).toH * (x i).toH else (x i).toH * (y j).toH))) ∧
      VecAt m' X INCX N.toNat x ∧ SameOutside (VecCell Y INCY N.toNat) m m' := by
  obtain ⟨m', h, hv⟩ := C14_axpyv m SIDE N X INCX Y INCY (.h (y j)) x y hX hY hinc hdis
  refine ⟨m', ?_, hv⟩
  obtain ⟨a, m1, ha, rfl, rfl⟩ : wp (loadQ (Y + 4 * ((j : Int) * INCY))) m
      (fun a m1 => a = y j ∧ m1 = m) := by
    rw [wp_loadQ (hY j hj)]; exact ⟨rfl, rfl⟩
  rw [bind_ok ha]
  exact h

/-! ## The hypotheses are met -/

/-- Cells 0 … 9 hold 1 … 10. -/
def tenCells : Mem Int := fun a => if 0 ≤ a ∧ a < 10 then some (a + 1) else none

/-- `q *= t` with `t` the last component of `q`: allowed, right. -/
example : InPlace.mulAssignReal 0 3 tenCells
    = .ok ((), writeQ tenCells 0 (Quat.mulAssignReal ⟨1, 2, 3, 4⟩ 4)) :=
  C69_mul_real_partial (by decide) (by decide) (by decide) (by decide) (by decide)

/-- `q += t` with `t` the first component of `q`. -/
example : InPlace.addAssignReal 0 0 tenCells
    = .ok ((), writeQ tenCells 0 (Quat.addAssignReal ⟨1, 2, 3, 4⟩ 1)) :=
  C69_add_real (by decide) (by decide)

/-- `q += z` with `z` the last two components of `q`. -/
example : InPlace.addAssignCplx 0 2 tenCells
    = .ok ((), writeQ tenCells 0 (Quat.addAssignCplx ⟨1, 2, 3, 4⟩ ⟨3, 4⟩)) :=
  C69_add_cplx_partial (by decide) (by decide) (by decide) (by decide)

/-- `q -= p` with `p` two components after `q`. -/
example : InPlace.subAssign 0 2 tenCells
    = .ok ((), writeQ tenCells 0 (Quat.subAssign ⟨1, 2, 3, 4⟩ ⟨3, 4, 5, 6⟩)) :=
  C69_sub_partial (by decide) (by decide) (by decide)

/-- `q *= q.imag_j()` with the temporary in cell 7. -/
example : ∃ m', InPlace.mulByOwn Quat.getJ 0 7 tenCells = .ok ((), m') ∧
    readQ m' 0 = some ⟨3, 6, 9, 12⟩ := by
  obtain ⟨m', h, hv, _⟩ := C69_mul_own (m := tenCells) (q := 0) (tmp := 7) (x := ⟨1, 2, 3, 4⟩)
    (w := 8) Quat.getJ (by decide) (by decide) (by unfold InQ; decide)
  exact ⟨m', h, hv⟩

/-- Two quaternions, scaled by the second of them. -/
example : ∃ m', (do let a ← loadQ 4; scalvAVX 'L' 2 (.h a) 0 1) tenCells = .ok ((), m') := by
  have hX : VecAt tenCells 0 1 (2 : Int).toNat
      (fun i => if i = 0 then ⟨1, 2, 3, 4⟩ else ⟨5, 6, 7, 8⟩) := by
    intro i hi
    obtain rfl | rfl : i = 0 ∨ i = 1 := by
      have : i < 2 := hi
      omega
    · decide
    · decide
  obtain ⟨m', h, _⟩ := C69_scalv_own tenCells 'L' 2 0 1 _ 1 (by decide) hX (by decide)
  exact ⟨m', h⟩

end Haxx
