import Verif.RoundF
import Verif.PropsRound2
import Verif.FHblas1Bits
import Verif.PropsFBits2
import Verif.PropsFBits3
import Verif.PropsFBits4
import Verif.MixBits

/-!
# Two arithmetics related operation by operation

`Units F F' G`: numbers of `F'` stand for numbers of `F` *in units* taken from a commutative monoid `G` (a sign, a power of
two, or nothing at all when `G` is trivial); sums keep units, products multiply them. The results of the library's routines,
as functions of their operands (the bit-level results of each build), respect the relation: they are built from sums of terms
with the same units.
-/

set_option linter.unusedSectionVars false

namespace Haxx
open Arith

/-- `R g a b`: `b` is `a` expressed in units `g`, as far as results of operations are concerned; `D g a b`: the same for
operands, which moreover compare alike with 0 and (when the unit is 1) with 1. -/
structure Units (F F' G : Type) [Arith F] [ArithEq F] [Arith F'] [ArithEq F'] [CommMonoid G] where
  R : G → F → F' → Prop
  D : G → F → F' → Prop
  zero : ∀ g, D g zero zero
  data : ∀ {g a b}, D g a b → R g a b
  test0 : ∀ {g a b}, D g a b → (a ==ᶠ Arith.zero) = (b ==ᶠ Arith.zero)
  test1 : ∀ {a b}, D 1 a b → (a ==ᶠ Arith.one) = (b ==ᶠ Arith.one)
  dneg : ∀ {g a b}, D g a b → D g (~ᶠ a) (~ᶠ b)
  neg : ∀ {g a b}, R g a b → R g (~ᶠ a) (~ᶠ b)
  add : ∀ {g a b a' b'}, R g a b → R g a' b' → R g (a +ᶠ a') (b +ᶠ b')
  sub : ∀ {g a b a' b'}, R g a b → R g a' b' → R g (a -ᶠ a') (b -ᶠ b')
  mul : ∀ {g h a b a' b'}, R g a b → R h a' b' → R (g * h) (a *ᶠ a') (b *ᶠ b')
  fma : ∀ {g h a b a' b' c d}, R g a b → R h a' b' → R (g * h) c d → R (g * h) (Arith.fma a a' c) (Arith.fma b b' d)
  fms : ∀ {g h a b a' b' c d}, R g a b → R h a' b' → R (g * h) c d → R (g * h) (Arith.fms a a' c) (Arith.fms b b' d)
  fnma : ∀ {g h a b a' b' c d}, R g a b → R h a' b' → R (g * h) c d → R (g * h) (Arith.fnma a a' c) (Arith.fnma b b' d)

variable {F F' G : Type} [Arith F] [ArithEq F] [Arith F'] [ArithEq F'] [CommMonoid G]

namespace Units
variable {U : Units F F' G} {g h r : G}

theorem zr : U.R g Arith.zero Arith.zero := U.data (U.zero g)

theorem mulc {a b a' b'} (H : U.R g a b) (K : U.R h a' b') : U.R (h * g) (a *ᶠ a') (b *ᶠ b') := by
  rw [mul_comm]; exact U.mul H K

theorem fmac {a b a' b' c d} (H : U.R g a b) (K : U.R h a' b') (L : U.R (h * g) c d) :
    U.R (h * g) (Arith.fma a a' c) (Arith.fma b b' d) := by
  rw [mul_comm] at L ⊢; exact U.fma H K L

/-- componentwise -/
def Q (U : Units F F' G) (g : G) (x : Quat F) (y : Quat F') : Prop :=
  U.R g x.re y.re ∧ U.R g x.i y.i ∧ U.R g x.j y.j ∧ U.R g x.k y.k

/-- a scalar of one of the three types -/
def S (U : Units F F' G) (g : G) : Scal F → Scal F' → Prop
  | .d a, .d b => U.R g a b
  | .z a, .z b => U.R g a.re b.re ∧ U.R g a.im b.im
  | .h a, .h b => U.Q g a b
  | _, _ => False

/-- operands: componentwise -/
def QD (U : Units F F' G) (g : G) (x : Quat F) (y : Quat F') : Prop :=
  U.D g x.re y.re ∧ U.D g x.i y.i ∧ U.D g x.j y.j ∧ U.D g x.k y.k

/-- operands: a scalar of one of the three types -/
def SD (U : Units F F' G) (g : G) : Scal F → Scal F' → Prop
  | .d a, .d b => U.D g a b
  | .z a, .z b => U.D g a.re b.re ∧ U.D g a.im b.im
  | .h a, .h b => U.QD g a b
  | _, _ => False

theorem QD.q {x : Quat F} {y : Quat F'} (H : U.QD g x y) : U.Q g x y :=
  ⟨U.data H.1, U.data H.2.1, U.data H.2.2.1, U.data H.2.2.2⟩

theorem SD.s {x : Scal F} {y : Scal F'} (H : U.SD g x y) : U.S g x y := by
  cases x <;> cases y <;> first | exact H.elim | skip
  · exact U.data H
  · exact ⟨U.data H.1, U.data H.2⟩
  · exact QD.q H

theorem Q.cast {x : Quat F} {y : Quat F'} (H : U.Q g x y) (e : g = h) : U.Q h x y := e ▸ H

variable {x y c : Quat F} {x' y' c' : Quat F'} {al be : Scal F} {al' be' : Scal F'}

syntax "urules" : tactic
macro_rules
  | `(tactic| urules) => `(tactic| first
    | assumption
    | exact Units.zr
    | (apply Units.neg; urules)
    | (apply Units.add <;> urules)
    | (apply Units.sub <;> urules)
    | (apply Units.mul <;> urules)
    | (apply Units.mulc <;> urules)
    | (apply Units.fma <;> urules)
    | (apply Units.fms <;> urules)
    | (apply Units.fnma <;> urules)
    | (apply Units.fmac <;> urules))

/-! ### tests -/

theorem SD.eqZero (H : U.SD g al al') : al.eqZero = al'.eqZero := by
  cases al <;> cases al' <;> first | exact H.elim | skip
  · exact U.test0 H
  · simp only [Scal.eqZero, U.test0 H.1, U.test0 H.2]
  · simp only [Scal.eqZero, Quat.eqOp, Quat.mkReal, U.test0 H.1, U.test0 H.2.1, U.test0 H.2.2.1, U.test0 (U.zero 1)]

theorem SD.eqOne (H : U.SD 1 al al') : al.eqOne = al'.eqOne := by
  cases al <;> cases al' <;> first | exact H.elim | skip
  · exact U.test1 H
  · simp only [Scal.eqOne, U.test1 H.1, U.test0 H.2]
  · simp only [Scal.eqOne, Quat.eqOp, Quat.mkReal, U.test1 H.1, U.test0 H.2.1, U.test0 H.2.2.1, U.test0 (U.zero 1)]

theorem QD.eqOp (H : U.QD g x x') : Quat.eqOp x (Quat.mkReal Arith.zero) = Quat.eqOp x' (Quat.mkReal Arith.zero) := by
  simp only [Quat.eqOp, Quat.mkReal, U.test0 H.1, U.test0 H.2.1, U.test0 H.2.2.1, U.test0 (U.zero 1)]

theorem SD.fIsZero (H : U.SD g al al') : al.fIsZero = al'.fIsZero := by
  cases al <;> cases al' <;> first | exact H.elim | skip
  · have H : U.D _ _ _ := H
    simp only [Scal.fIsZero, Cplx.feq, Cplx.ofReal, U.test0 H, U.test0 (U.zero 1)]
  · simp only [Scal.fIsZero, Cplx.feq, U.test0 H.1, U.test0 H.2]
  · simp only [Scal.fIsZero, Cplx.feq, Quat.lo, Quat.hi, U.test0 H.1, U.test0 H.2.1, U.test0 H.2.2.1, U.test0 H.2.2.2]

theorem SD.fIsOne (H : U.SD 1 al al') : al.fIsOne = al'.fIsOne := by
  cases al <;> cases al' <;> first | exact H.elim | skip
  · have H : U.D _ _ _ := H
    simp only [Scal.fIsOne, Cplx.feq, Cplx.ofReal, U.test1 H, U.test0 (U.zero 1)]
  · simp only [Scal.fIsOne, Cplx.feq, U.test1 H.1, U.test0 H.2]
  · simp only [Scal.fIsOne, Cplx.feq, Quat.lo, Quat.hi, U.test1 H.1, U.test0 H.2.1, U.test0 H.2.2.1, U.test0 H.2.2.2]

theorem SD.vIsZero (H : U.SD g al al') : al.vIsZero = al'.vIsZero := by
  cases al <;> cases al' <;> first | exact H.elim | skip
  · exact U.test0 H
  · simp only [Scal.vIsZero, U.test0 H.1, U.test0 H.2]
  · simp only [Scal.vIsZero, U.test0 H.1, U.test0 H.2.1, U.test0 H.2.2.1, U.test0 H.2.2.2]

theorem SD.gIsZero (H : U.SD g al al') : al.gIsZero = al'.gIsZero := by
  cases al <;> cases al' <;> first | exact H.elim | skip
  · exact U.test0 H
  · simp only [Scal.gIsZero, Cplx.feq, U.test0 H.1, U.test0 H.2]
  · simp only [Scal.gIsZero, Cplx.feq, Quat.lo, Quat.hi, U.test0 H.1, U.test0 H.2.1, U.test0 H.2.2.1, U.test0 H.2.2.2]

theorem QD.fIsZero (H : U.QD g x x') : x.fIsZero = x'.fIsZero := by
  simp only [Quat.fIsZero, Cplx.feq, Quat.lo, Quat.hi, U.test0 H.1, U.test0 H.2.1, U.test0 H.2.2.1, U.test0 H.2.2.2]

/-! ### portable operators -/

theorem SD.conj (H : U.SD g al al') : U.SD g al.smartConj al'.smartConj := by
  cases al <;> cases al' <;> first | exact H.elim | skip
  · exact H
  · exact ⟨H.1, U.dneg H.2⟩
  · exact ⟨H.1, U.dneg H.2.1, U.dneg H.2.2.1, U.dneg H.2.2.2⟩

theorem QD.conj (H : U.QD g x x') : U.QD g x.conj x'.conj := ⟨H.1, U.dneg H.2.1, U.dneg H.2.2.1, U.dneg H.2.2.2⟩

theorem Q.conj (H : U.Q g x x') : U.Q g (qconj256 x) (qconj256 x') := ⟨H.1, U.neg H.2.1, U.neg H.2.2.1, U.neg H.2.2.2⟩

theorem Q.zero : U.Q g (Quat.mkReal Arith.zero) (Quat.mkReal Arith.zero) := ⟨zr, zr, zr, zr⟩

theorem Q.fZero : U.Q g Haxx.fZero Haxx.fZero := ⟨zr, zr, zr, zr⟩

theorem Q.vadd (H : U.Q g x x') (K : U.Q g y y') : U.Q g (vadd x y) (vadd x' y') :=
  ⟨U.add H.1 K.1, U.add H.2.1 K.2.1, U.add H.2.2.1 K.2.2.1, U.add H.2.2.2 K.2.2.2⟩

theorem Q.addAssign (H : U.Q g x x') (K : U.Q g y y') : U.Q g (Quat.addAssign x y) (Quat.addAssign x' y') :=
  ⟨U.add H.1 K.1, U.add H.2.1 K.2.1, U.add H.2.2.1 K.2.2.1, U.add H.2.2.2 K.2.2.2⟩

theorem Q.mul (H : U.Q g x x') (K : U.Q h y y') : U.Q (g * h) (Quat.mul x y) (Quat.mul x' y') := by
  obtain ⟨x0, x1, x2, x3⟩ := H
  obtain ⟨y0, y1, y2, y3⟩ := K
  refine ⟨?_, ?_, ?_, ?_⟩ <;> dsimp only [Quat.mul] <;> urules

theorem Q.mulL (H : U.S r al al') (K : U.Q h y y') : U.Q (r * h) (al.mulL y) (al'.mulL y') := by
  cases al <;> cases al' <;> first | exact H.elim | skip
  · have H : U.R _ _ _ := H
    obtain ⟨y0, y1, y2, y3⟩ := K
    refine ⟨?_, ?_, ?_, ?_⟩ <;> dsimp only [Scal.mulL, Quat.realMul, Quat.mulAssignReal] <;> urules
  · obtain ⟨x0, x1⟩ := H
    obtain ⟨y0, y1, y2, y3⟩ := K
    refine ⟨?_, ?_, ?_, ?_⟩ <;> dsimp only [Scal.mulL, Quat.cplxMul] <;> urules
  · exact Q.mul H K

theorem Q.mulR (H : U.S r al al') (K : U.Q h y y') : U.Q (r * h) (Scal.mulR y al) (Scal.mulR y' al') := by
  cases al <;> cases al' <;> first | exact H.elim | skip
  · have H : U.R _ _ _ := H
    obtain ⟨y0, y1, y2, y3⟩ := K
    refine ⟨?_, ?_, ?_, ?_⟩ <;> dsimp only [Scal.mulR, Quat.mulReal, Quat.mulAssignReal] <;> urules
  · obtain ⟨x0, x1⟩ := H
    obtain ⟨y0, y1, y2, y3⟩ := K
    refine ⟨?_, ?_, ?_, ?_⟩ <;> dsimp only [Scal.mulR, Quat.mulCplx] <;> urules
  · rw [mul_comm]
    exact Q.mul K H

theorem S.mul (H : U.S r al al') (K : U.S h be be') : U.S (r * h) (al.mul be) (al'.mul be') := by
  cases be <;> cases be' <;> first | exact K.elim | skip
  · have K : U.R _ _ _ := K
    cases al <;> cases al' <;> first | exact H.elim | skip
    · have H : U.R _ _ _ := H
      dsimp only [Scal.mul, S]
      urules
    · obtain ⟨x0, x1⟩ := H
      refine ⟨?_, ?_⟩ <;> dsimp only [Scal.mul] <;> urules
    · obtain ⟨x0, x1, x2, x3⟩ := H
      refine ⟨?_, ?_, ?_, ?_⟩ <;> dsimp only [Scal.mul, Quat.mulReal, Quat.mulAssignReal] <;> urules
  · obtain ⟨y0, y1⟩ := K
    cases al <;> cases al' <;> first | exact H.elim | skip
    · have H : U.R _ _ _ := H
      refine ⟨?_, ?_⟩ <;> dsimp only [Scal.mul] <;> urules
    · obtain ⟨x0, x1⟩ := H
      refine ⟨?_, ?_⟩ <;> dsimp only [Cplx.mul] <;> urules
    · obtain ⟨x0, x1, x2, x3⟩ := H
      refine ⟨?_, ?_, ?_, ?_⟩ <;> dsimp only [Scal.mul, Quat.mulCplx] <;> urules
  · cases al <;> cases al' <;> first | exact H.elim | skip
    · exact Q.mulL (al := .d _) (al' := .d _) H K
    · exact Q.mulL (al := .z _) (al' := .z _) H K
    · exact Q.mul H K

/-- `ALPHA*a - a*ALPHA` -/
theorem S.comm (H : U.S r al al') (K : U.S h be be') :
    U.S (r * h) ((al.mul be).sub (be.mul al)) ((al'.mul be').sub (be'.mul al')) := by
  have h1 := S.mul H K
  have h2 := S.mul K H
  rw [mul_comm] at h2
  cases al <;> cases al' <;> first | exact H.elim | skip
  all_goals cases be <;> cases be' <;> first | exact K.elim | skip
  all_goals first
    | exact U.sub h1 h2
    | exact ⟨U.sub h1.1 h2.1, U.sub h1.2 h2.2⟩
    | exact ⟨U.sub h1.1 h2.1, U.sub h1.2.1 h2.2.1, U.sub h1.2.2.1 h2.2.2.1, U.sub h1.2.2.2 h2.2.2.2⟩

/-- `q += s` for `s` of any type -/
theorem Q.addTo (H : U.Q g x x') (K : U.S g al al') : U.Q g (Scal.addTo x al) (Scal.addTo x' al') := by
  cases al <;> cases al' <;> first | exact K.elim | skip
  · exact ⟨U.add H.1 K, H.2.1, H.2.2.1, H.2.2.2⟩
  · exact ⟨U.add H.1 K.1, U.add H.2.1 K.2, H.2.2.1, H.2.2.2⟩
  · exact Q.addAssign H K

theorem S.toQuat (K : U.S g al al') : U.Q g al.toQuat al'.toQuat := by
  cases al <;> cases al' <;> first | exact K.elim | skip
  · exact ⟨K, zr, zr, zr⟩
  · exact ⟨K.1, K.2, zr, zr⟩
  · exact K

/-! ### SIMD operators -/

theorem mulNN_eq' {G : Type} [Arith G] (x y : Quat G) : MULDQ_NN x y =
    ⟨Arith.fms x.re y.re (x.k *ᶠ y.k) +ᶠ ~ᶠ (Arith.fma x.j y.j (x.i *ᶠ y.i)),
     Arith.fms x.re y.i (x.k *ᶠ y.j) +ᶠ Arith.fma x.j y.k (x.i *ᶠ y.re),
     Arith.fms x.re y.j (x.i *ᶠ y.k) +ᶠ Arith.fma x.k y.i (x.j *ᶠ y.re),
     Arith.fms x.re y.k (x.j *ᶠ y.i) +ᶠ Arith.fma x.i y.j (x.k *ᶠ y.re)⟩ := rfl

theorem Q.mulNN (H : U.Q g x x') (K : U.Q h y y') : U.Q (g * h) (MULDQ_NN x y) (MULDQ_NN x' y') := by
  obtain ⟨x0, x1, x2, x3⟩ := H
  obtain ⟨y0, y1, y2, y3⟩ := K
  rw [mulNN_eq', mulNN_eq']
  refine ⟨?_, ?_, ?_, ?_⟩ <;> dsimp only <;> urules

theorem scalOp_z' {G : Type} [Arith G] (a : Cplx G) (x : Quat G) :
    scalOp true (.z a) x = ⟨x.re *ᶠ a.re -ᶠ x.i *ᶠ a.im, x.re *ᶠ a.im -ᶠ x.i *ᶠ ~ᶠ a.re,
      x.j *ᶠ a.re -ᶠ x.k *ᶠ a.im, x.j *ᶠ a.im -ᶠ x.k *ᶠ ~ᶠ a.re⟩ ∧
    scalOp false (.z a) x = ⟨x.re *ᶠ a.re -ᶠ x.i *ᶠ a.im, x.re *ᶠ a.im -ᶠ x.i *ᶠ ~ᶠ a.re,
      x.j *ᶠ a.re -ᶠ x.k *ᶠ ~ᶠ a.im, x.j *ᶠ ~ᶠ a.im -ᶠ x.k *ᶠ ~ᶠ a.re⟩ := ⟨rfl, rfl⟩

theorem Q.scalOp (L : Bool) (H : U.S r al al') (K : U.Q h y y') : U.Q (r * h) (scalOp L al y) (scalOp L al' y') := by
  cases al <;> cases al' <;> first | exact H.elim | skip
  · have H : U.R _ _ _ := H
    obtain ⟨y0, y1, y2, y3⟩ := K
    refine ⟨?_, ?_, ?_, ?_⟩ <;> dsimp only [Haxx.scalOp, alphaRegs, broadcast, vmul] <;> urules
  · obtain ⟨y0, y1⟩ := H
    obtain ⟨x0, x1, x2, x3⟩ := K
    cases L
    · rw [(scalOp_z' _ _).2, (scalOp_z' _ _).2]
      refine ⟨?_, ?_, ?_, ?_⟩ <;> dsimp only <;> urules
    · rw [(scalOp_z' _ _).1, (scalOp_z' _ _).1]
      refine ⟨?_, ?_, ?_, ?_⟩ <;> dsimp only <;> urules
  · cases L
    · rw [mul_comm]
      exact Q.mulNN K H
    · exact Q.mulNN H K

theorem Q.axpyOp (L : Bool) (H : U.S r al al') (K : U.Q h x x') (J : U.Q (r * h) y y') :
    U.Q (r * h) (axpyOp L al x y) (axpyOp L al' x' y') := by
  cases al <;> cases al' <;> first | exact H.elim | skip
  · have H : U.R _ _ _ := H
    obtain ⟨x0, x1, x2, x3⟩ := K
    obtain ⟨y0, y1, y2, y3⟩ := J
    refine ⟨?_, ?_, ?_, ?_⟩ <;> dsimp only [Haxx.axpyOp, alphaRegs, broadcast, vfma] <;> urules
  · exact J.vadd (Q.scalOp L (al := .z _) (al' := .z _) H K)
  · cases L
    · exact J.vadd (Q.scalOp false (al := .h _) (al' := .h _) H K)
    · exact J.vadd (Q.scalOp true (al := .h _) (al' := .h _) H K)

theorem Q.qinc (H : U.Q g x x') (K : U.Q h y y') (J : U.Q (g * h) c c') : U.Q (g * h) (qinc x y c) (qinc x' y' c') := by
  obtain ⟨x0, x1, x2, x3⟩ := H
  obtain ⟨y0, y1, y2, y3⟩ := K
  obtain ⟨r0, r1, r2, r3⟩ := J
  refine ⟨?_, ?_, ?_, ?_⟩ <;> dsimp only [Haxx.qinc] <;> urules

theorem Q.qincC (H : U.Q g x x') (K : U.Q h y y') (J : U.Q (g * h) c c') :
    U.Q (g * h) (StdModel.qincC x y c) (StdModel.qincC x' y' c') := by
  obtain ⟨x0, x1, x2, x3⟩ := H
  obtain ⟨y0, y1, y2, y3⟩ := K
  obtain ⟨r0, r1, r2, r3⟩ := J
  refine ⟨?_, ?_, ?_, ?_⟩ <;> dsimp only [StdModel.qincC] <;> urules

/-! ### loops -/

section loops
variable {xs ys : ℕ → Quat F} {xs' ys' : ℕ → Quat F'} {as : ℕ → Scal F} {as' : ℕ → Scal F'}

theorem Q.accum (J : U.Q (g * h) c c') (K : ℕ) (hx : ∀ k, k < K → U.Q g (xs k) (xs' k)) (hy : ∀ k, k < K → U.Q h (ys k) (ys' k)) :
    U.Q (g * h) (accum xs ys K c) (accum xs' ys' K c') := by
  induction K with
  | zero => exact J
  | succ K ih =>
    exact Q.qinc (hx K (by omega)) (hy K (by omega)) (ih (fun k hk => hx k (by omega)) (fun k hk => hy k (by omega)))

theorem Q.laneAcc (cj : Bool) (l b : ℕ) (hx : ∀ k, k < b → U.Q g (xs (4*k+l)) (xs' (4*k+l)))
    (hy : ∀ k, k < b → U.Q h (ys (4*k+l)) (ys' (4*k+l))) :
    U.Q (g * h) (StdModel.laneAcc cj xs ys l b) (StdModel.laneAcc cj xs' ys' l b) := by
  induction b with
  | zero => exact ⟨zr, zr, zr, zr⟩
  | succ b ih =>
    have ih := ih (fun k hk => hx k (by omega)) (fun k hk => hy k (by omega))
    cases cj
    · exact Q.qinc (hx b (by omega)) (hy b (by omega)) ih
    · exact Q.qincC (hx b (by omega)) (hy b (by omega)) ih

theorem Q.dotRest (cj : Bool) (o n : ℕ) (J : U.Q (g * h) c c') (hx : ∀ k, k < n → U.Q g (xs (o+k)) (xs' (o+k)))
    (hy : ∀ k, k < n → U.Q h (ys (o+k)) (ys' (o+k))) :
    U.Q (g * h) (dotRest cj xs ys o c n) (dotRest cj xs' ys' o c' n) := by
  induction n with
  | zero => exact J
  | succ n ih =>
    have ih := ih (fun k hk => hx k (by omega)) (fun k hk => hy k (by omega))
    refine Q.vadd ih ?_
    cases cj
    · exact Q.mulNN (hx n (by omega)) (hy n (by omega))
    · exact Q.mulNN (hx n (by omega)).conj (hy n (by omega))

/-- SIMD DOT -/
theorem Q.dotVal (cj : Bool) (n : ℕ) (hx : ∀ k, k < n → U.Q g (xs k) (xs' k)) (hy : ∀ k, k < n → U.Q h (ys k) (ys' k)) :
    U.Q (g * h) (dotVal cj n xs ys) (dotVal cj n xs' ys') := by
  unfold Haxx.dotVal
  rw [StdModel.dotBatches_lane, StdModel.dotBatches_lane]
  have L : ∀ l, l < 4 → _ := fun l hl => Q.laneAcc (U := U) (xs' := xs') (xs := xs) (ys' := ys') (ys := ys) (g := g) (h := h)
    cj l (n/4) (fun k hk => hx _ (by omega)) (fun k hk => hy _ (by omega))
  exact Q.dotRest cj (4*(n/4)) (n % 4) ((((L 0 (by omega)).vadd (L 1 (by omega))).vadd (L 2 (by omega))).vadd (L 3 (by omega)))
    (fun k hk => hx _ (by omega)) (fun k hk => hy _ (by omega))

/-- one entry of the SIMD GEMM -/
theorem Q.gemmElt (tA tB : Char) (K : ℕ) (hα : U.S r al al') (hβ : U.S 1 be be') (J : U.Q (r * g * h) c c')
    (hx : ∀ k, k < K → U.Q g (xs k) (xs' k)) (hy : ∀ k, k < K → U.Q h (ys k) (ys' k)) :
    U.Q (r * g * h) (gemmElt tA tB al be K xs ys c) (gemmElt tA tB al' be' K xs' ys' c') := by
  unfold Haxx.gemmElt
  refine Q.accum ?_ K (fun k hk => ?_) (fun k hk => ?_)
  · exact (Q.scalOp true hβ J).cast (one_mul _)
  · cases isCj tA
    · simp only [preOP, StdModel.regMulL_eq, Bool.false_eq_true, if_false]
      exact Q.scalOp true hα (hx k hk)
    · simp only [preOP, StdModel.regMulL_eq, if_true]
      exact Q.scalOp true hα (hx k hk).conj
  · cases isCj tB
    · exact hy k hk
    · exact (hy k hk).conj

/-- portable DOT -/
theorem Q.pDotQ (cj : Bool) (n : ℕ) (hx : ∀ k, k < n → U.Q g (xs k) (xs' k)) (hy : ∀ k, k < n → U.Q h (ys k) (ys' k)) :
    U.Q (g * h) (pDotQ cj xs ys n) (pDotQ cj xs' ys' n) := by
  induction n with
  | zero => exact ⟨zr, zr, zr, zr⟩
  | succ n ih =>
    have ih := ih (fun k hk => hx k (by omega)) (fun k hk => hy k (by omega))
    refine Q.addAssign ih ?_
    cases cj
    · exact Q.mul (hx n (by omega)) (hy n (by omega))
    · exact Q.mul (Q.conj (hx n (by omega))) (hy n (by omega))

theorem Q.pDot (n : ℕ) (hx : ∀ k, k < n → U.S g (as k) (as' k)) (hy : ∀ k, k < n → U.Q h (ys k) (ys' k)) :
    U.Q (g * h) (pDot as ys n) (pDot as' ys' n) := by
  induction n with
  | zero => exact ⟨zr, zr, zr, zr⟩
  | succ n ih =>
    exact Q.addAssign (ih (fun k hk => hx k (by omega)) (fun k hk => hy k (by omega)))
      (Q.mulL (hx n (by omega)) (hy n (by omega)))

theorem Q.pAcc (n : ℕ) (hα : U.S r al al') (J : U.Q (r * g * h) c c') (hx : ∀ k, k < n → U.S g (as k) (as' k))
    (hy : ∀ k, k < n → U.Q h (ys k) (ys' k)) : U.Q (r * g * h) (pAcc al as ys c n) (pAcc al' as' ys' c' n) := by
  induction n with
  | zero => exact J
  | succ n ih =>
    exact Q.addAssign (ih (fun k hk => hx k (by omega)) (fun k hk => hy k (by omega)))
      (Q.mulL (S.mul hα (hx n (by omega))) (hy n (by omega)))

theorem Q.pAxpys (n : ℕ) (hα : U.S r al al') (J : U.Q (r * g * h) c c') (hx : ∀ k, k < n → U.S g (as k) (as' k))
    (hy : ∀ k, k < n → U.Q h (ys k) (ys' k)) : U.Q (r * g * h) (pAxpys al as ys c n) (pAxpys al' as' ys' c' n) := by
  induction n with
  | zero => exact J
  | succ n ih =>
    have A := (Q.mulL (hx n (by omega)) (Q.mulL hα (hy n (by omega)))).cast (show g * (r * h) = r * g * h by
      rw [mul_left_comm, mul_assoc])
    have C := Q.mulL (S.comm hα (hx n (by omega))) (hy n (by omega))
    exact ((ih (fun k hk => hx k (by omega)) (fun k hk => hy k (by omega))).addAssign A).addAssign C

end loops

/-! ### Fortran operators -/

section fortran
variable {xs ys : ℕ → Quat F} {xs' ys' : ℕ → Quat F'}

theorem Q.fScal (H : U.S r al al') (K : U.Q h y y') : U.Q (r * h) (fScal al y) (fScal al' y') := by
  obtain ⟨y0, y1, y2, y3⟩ := K
  cases al <;> cases al' <;> first | exact H.elim | skip
  · have H : U.R _ _ _ := H
    refine ⟨?_, ?_, ?_, ?_⟩ <;> dsimp only [Haxx.fScal, Quat.ofC, Cplx.mul, Cplx.ofReal, Quat.lo, Quat.hi] <;> urules
  · obtain ⟨x0, x1⟩ := H
    refine ⟨?_, ?_, ?_, ?_⟩ <;> dsimp only [Haxx.fScal, Quat.ofC, Cplx.mul, Cplx.ofReal, Quat.lo, Quat.hi] <;> urules
  · obtain ⟨x0, x1, x2, x3⟩ := H
    refine ⟨?_, ?_, ?_, ?_⟩ <;> dsimp only [Haxx.fScal, Quat.ofC, Cplx.mul, Cplx.add, Cplx.sub, Cplx.conj, Quat.lo, Quat.hi] <;>
      urules

theorem Q.fAlpha (H : U.S r al al') (K : U.Q h y y') : U.Q (r * h) (fAlpha al y) (fAlpha al' y') := by
  have := Q.fScal H K
  cases al <;> cases al' <;> first | exact H.elim | exact this

theorem Q.fAddBeta (H : U.S r al al') (J : U.Q (r * h) c c') (K : U.Q h y y') :
    U.Q (r * h) (fAddBeta al c y) (fAddBeta al' c' y') := by
  obtain ⟨y0, y1, y2, y3⟩ := K
  obtain ⟨r0, r1, r2, r3⟩ := J
  cases al <;> cases al' <;> first | exact H.elim | skip
  · have H : U.R _ _ _ := H
    refine ⟨?_, ?_, ?_, ?_⟩ <;> dsimp only [Haxx.fAddBeta, Quat.ofC, Cplx.mul, Cplx.add, Cplx.ofReal, Quat.lo, Quat.hi] <;> urules
  · obtain ⟨x0, x1⟩ := H
    refine ⟨?_, ?_, ?_, ?_⟩ <;> dsimp only [Haxx.fAddBeta, Quat.ofC, Cplx.mul, Cplx.add, Cplx.ofReal, Quat.lo, Quat.hi] <;> urules
  · obtain ⟨x0, x1, x2, x3⟩ := H
    refine ⟨?_, ?_, ?_, ?_⟩ <;> dsimp only [Haxx.fAddBeta, Quat.ofC, Cplx.mul, Cplx.add, Cplx.sub, Cplx.conj, Quat.lo, Quat.hi] <;>
      urules

theorem Q.fAcc (ta tb : FTrans) (H : U.Q g x x') (K : U.Q h y y') (J : U.Q (g * h) c c') :
    U.Q (g * h) (fAcc ta tb x y c) (fAcc ta tb x' y' c') := by
  obtain ⟨y0, y1, y2, y3⟩ := K
  obtain ⟨x0, x1, x2, x3⟩ := H
  obtain ⟨r0, r1, r2, r3⟩ := J
  cases ta <;> cases tb <;> refine ⟨?_, ?_, ?_, ?_⟩ <;>
    dsimp only [Haxx.fAcc, Quat.ofC, Cplx.mul, Cplx.add, Cplx.sub, Cplx.conj, Quat.lo, Quat.hi] <;> urules

set_option maxHeartbeats 2000000 in
theorem Q.fStep (tb : FTrans) (H : U.S r al al') (K : U.Q g x x') (L : U.Q h y y') (J : U.Q (g * (r * h)) c c') :
    U.Q (g * (r * h)) (fStep al tb x y c) (fStep al' tb x' y' c') := by
  obtain ⟨y0, y1, y2, y3⟩ := L
  obtain ⟨x0, x1, x2, x3⟩ := K
  obtain ⟨r0, r1, r2, r3⟩ := J
  cases al <;> cases al' <;> first | exact H.elim | skip
  · have H : U.R _ _ _ := H
    cases tb <;> refine ⟨?_, ?_, ?_, ?_⟩ <;>
      dsimp only [Haxx.fStep, Quat.ofC, Cplx.mul, Cplx.add, Cplx.sub, Cplx.conj, Cplx.neg, Cplx.ofReal, Quat.lo, Quat.hi] <;> urules
  · obtain ⟨a0, a1⟩ := H
    cases tb <;> refine ⟨?_, ?_, ?_, ?_⟩ <;>
      dsimp only [Haxx.fStep, Quat.ofC, Cplx.mul, Cplx.add, Cplx.sub, Cplx.conj, Cplx.neg, Cplx.ofReal, Quat.lo, Quat.hi] <;> urules
  · obtain ⟨a0, a1, a2, a3⟩ := H
    cases tb <;> refine ⟨?_, ?_, ?_, ?_⟩ <;>
      dsimp only [Haxx.fStep, Quat.ofC, Cplx.mul, Cplx.add, Cplx.sub, Cplx.conj, Cplx.neg, Cplx.ofReal, Quat.lo, Quat.hi] <;> urules

theorem Q.fSteps (tb : FTrans) (K : ℕ) (H : U.S r al al') (hx : ∀ k, k < K → U.Q g (xs k) (xs' k))
    (hy : ∀ k, k < K → U.Q h (ys k) (ys' k)) (J : U.Q (g * (r * h)) c c') :
    U.Q (g * (r * h)) (fSteps al tb xs ys c K) (fSteps al' tb xs' ys' c' K) := by
  induction K with
  | zero => exact J
  | succ K ih =>
    exact Q.fStep tb H (hx K (by omega)) (hy K (by omega)) (ih (fun k hk => hx k (by omega)) (fun k hk => hy k (by omega)))

theorem Q.fAccs (ta tb : FTrans) (K : ℕ) (hx : ∀ k, k < K → U.Q g (xs k) (xs' k))
    (hy : ∀ k, k < K → U.Q h (ys k) (ys' k)) : U.Q (g * h) (fAccs ta tb xs ys K) (fAccs ta tb xs' ys' K) := by
  induction K with
  | zero => exact Q.fZero
  | succ K ih =>
    exact Q.fAcc ta tb (hx K (by omega)) (hy K (by omega)) (ih (fun k hk => hx k (by omega)) (fun k hk => hy k (by omega)))

theorem Q.fScalV (B : Bool) (H : U.S r al al') (K : U.Q h y y') : U.Q (r * h) (fScalV B al y) (fScalV B al' y') := by
  obtain ⟨y0, y1, y2, y3⟩ := K
  cases al <;> cases al' <;> first | exact H.elim | skip
  · have H : U.R _ _ _ := H
    cases B <;> refine ⟨?_, ?_, ?_, ?_⟩ <;> dsimp only [Haxx.fScalV] <;> urules
  · obtain ⟨x0, x1⟩ := H
    cases B <;> refine ⟨?_, ?_, ?_, ?_⟩ <;> dsimp only [Haxx.fScalV, Quat.ofC, Cplx.mul, Cplx.conj, Quat.lo, Quat.hi] <;> urules
  · obtain ⟨x0, x1, x2, x3⟩ := H
    cases B <;> refine ⟨?_, ?_, ?_, ?_⟩ <;> dsimp only [Haxx.fScalV] <;> urules

theorem Q.fAxpyV (B : Bool) (H : U.S r al al') (K : U.Q h y y') (J : U.Q (r * h) c c') :
    U.Q (r * h) (fAxpyV B al y c) (fAxpyV B al' y' c') := by
  obtain ⟨y0, y1, y2, y3⟩ := K
  obtain ⟨r0, r1, r2, r3⟩ := J
  cases al <;> cases al' <;> first | exact H.elim | skip
  · have H : U.R _ _ _ := H
    cases B <;> refine ⟨?_, ?_, ?_, ?_⟩ <;> dsimp only [Haxx.fAxpyV] <;> urules
  · obtain ⟨x0, x1⟩ := H
    cases B <;> refine ⟨?_, ?_, ?_, ?_⟩ <;> dsimp only [Haxx.fAxpyV] <;> urules
  · obtain ⟨x0, x1, x2, x3⟩ := H
    cases B <;> refine ⟨?_, ?_, ?_, ?_⟩ <;> dsimp only [Haxx.fAxpyV] <;> urules

theorem Q.fDot (cj : Bool) (K : ℕ) (hx : ∀ k, k < K → U.Q g (xs k) (xs' k)) (hy : ∀ k, k < K → U.Q h (ys k) (ys' k)) :
    U.Q (g * h) (fDot cj xs ys K) (fDot cj xs' ys' K) := by
  induction K with
  | zero => exact ⟨zr, zr, zr, zr⟩
  | succ K ih =>
    have ih := ih (fun k hk => hx k (by omega)) (fun k hk => hy k (by omega))
    obtain ⟨x0, x1, x2, x3⟩ := hx K (by omega)
    obtain ⟨y0, y1, y2, y3⟩ := hy K (by omega)
    obtain ⟨r0, r1, r2, r3⟩ := ih
    cases cj <;> refine ⟨?_, ?_, ?_, ?_⟩ <;> dsimp only [Haxx.fDot, Haxx.fDotStep] <;> urules

end fortran

/-! ### the routines that test ALPHA and BETA -/

section tests
variable {xs ys : ℕ → Quat F} {xs' ys' : ℕ → Quat F'} {as : ℕ → Scal F} {as' : ℕ → Scal F'}

theorem Q.pBeta (hβ : U.SD 1 be be') (J : U.Q g c c') : U.Q g (pBeta be c) (pBeta be' c') := by
  unfold Haxx.pBeta
  rw [hβ.eqZero, hβ.eqOne]
  split
  · exact Q.zero
  · split
    · exact (Q.mulL hβ.s J).cast (one_mul _)
    · exact J

theorem Q.pScale (hβ : U.SD 1 be be') (J : U.Q g c c') : U.Q g (pScale be c) (pScale be' c') := by
  unfold Haxx.pScale
  rw [hβ.eqZero, hβ.eqOne]
  split
  · split
    · exact Q.zero
    · exact (Q.mulL hβ.s J).cast (one_mul _)
  · exact J

/-- portable GEMM -/
theorem Q.pGemm (tA : Char) (K : Int) (hα : U.SD r al al') (hβ : U.SD 1 be be') (J : U.Q (r * g * h) c c')
    (hx : ∀ k, k < K.toNat → U.S g (as k) (as' k)) (hy : ∀ k, k < K.toNat → U.Q h (ys k) (ys' k)) :
    U.Q (r * g * h) (pGemm tA al be K as ys c) (pGemm tA al' be' K as' ys' c') := by
  have B := (Q.mulL hβ.s J).cast (one_mul _)
  unfold Haxx.pGemm
  rw [hα.eqZero, hβ.eqOne, hβ.eqZero]
  split
  · exact J
  · split
    · split
      · exact Q.zero
      · exact B
    · split
      · exact Q.pAcc _ hα.s (Q.pBeta hβ J) hx hy
      · have A := (Q.mulL hα.s (Q.pDot _ hx hy)).cast (mul_assoc _ _ _).symm
        unfold pStore
        rw [hβ.eqZero]
        split
        · exact A
        · exact A.addAssign B

/-- portable GEMV -/
theorem Q.pGemv (t : Char) (K : ℕ) (hα : U.SD r al al') (hβ : U.SD 1 be be') (J : U.Q (r * g * h) c c')
    (hx : ∀ k, k < K → U.S g (as k) (as' k)) (hy : ∀ k, k < K → U.Q h (ys k) (ys' k)) :
    U.Q (r * g * h) (pGemv t al be K as ys c) (pGemv t al' be' K as' ys' c') := by
  unfold Haxx.pGemv
  rw [hα.eqZero, hβ.eqOne]
  split
  · exact J
  · split
    · exact Q.pScale hβ J
    · split
      · exact Q.pAxpys _ hα.s (Q.pScale hβ J) hx hy
      · exact (Q.pScale hβ J).addAssign ((Q.mulL hα.s (Q.pDot _ hx hy)).cast (mul_assoc _ _ _).symm)

/-- portable GERU, GERC -/
theorem Q.pGer (conjY : Bool) (hα : U.SD r al al') (H : U.Q g x x') (K : U.QD h y y') (J : U.Q (r * g * h) c c') :
    U.Q (r * g * h) (pGer conjY al x y c) (pGer conjY al' x' y' c') := by
  unfold Haxx.pGer Quat.neOp
  rw [hα.eqZero, K.eqOp]
  split
  · exact J
  · split
    · refine J.addAssign (Q.mul (Q.mulL hα.s H) ?_)
      cases conjY
      · exact K.q
      · exact K.conj.q
    · exact J

theorem Q.fBetaV (hβ : U.SD 1 be be') (J : U.Q g c c') : U.Q g (fBetaV be c) (fBetaV be' c') := by
  unfold Haxx.fBetaV
  rw [hβ.fIsOne, hβ.fIsZero]
  split
  · exact J
  · split
    · exact Q.fZero
    · exact (Q.fScal hβ.s J).cast (one_mul _)

/-- Fortran GEMM -/
theorem Q.fGemm (ta tb : FTrans) (K : Int) (hα : U.SD r al al') (hβ : U.SD 1 be be') (J : U.Q (r * g * h) c c')
    (hx : ∀ k, k < K.toNat → U.Q g (xs k) (xs' k)) (hy : ∀ k, k < K.toNat → U.Q h (ys k) (ys' k)) :
    U.Q (r * g * h) (fGemm ta tb al be K xs ys c) (fGemm ta tb al' be' K xs' ys' c') := by
  have B := (Q.fScal hβ.s J).cast (one_mul _)
  have e : g * (r * h) = r * g * h := by rw [mul_left_comm, mul_assoc]
  unfold Haxx.fGemm fMain
  rw [hα.fIsZero, hβ.fIsOne, hβ.fIsZero]
  split
  · exact J
  · split
    · split
      · exact Q.fZero
      · exact B
    · have T : ∀ t, U.Q (r * g * h)
          (if be'.fIsZero then Haxx.fAlpha al (Haxx.fAccs t tb xs ys K.toNat) else
            Haxx.fAddBeta be (Haxx.fAlpha al (Haxx.fAccs t tb xs ys K.toNat)) c)
          (if be'.fIsZero then Haxx.fAlpha al' (Haxx.fAccs t tb xs' ys' K.toNat) else
            Haxx.fAddBeta be' (Haxx.fAlpha al' (Haxx.fAccs t tb xs' ys' K.toNat)) c') := by
        intro t
        have A := (Q.fAlpha hα.s (Q.fAccs t tb K.toNat hx hy)).cast (mul_assoc _ _ _).symm
        split
        · exact A
        · exact (Q.fAddBeta hβ.s (A.cast (one_mul _).symm) J).cast (one_mul _)
      cases ta
      · refine (Q.fSteps tb K.toNat hα.s hx hy (Q.cast ?_ e.symm)).cast e
        unfold Haxx.fBeta
        split
        · exact Q.fZero
        · split
          · exact J
          · exact B
      · exact T _
      · exact T _

/-- Fortran GEMV -/
theorem Q.fGemv (t : FTrans) (K : ℕ) (hα : U.SD r al al') (hβ : U.SD 1 be be') (J : U.Q (r * g * h) c c')
    (hx : ∀ k, k < K → U.Q g (xs k) (xs' k)) (hy : ∀ k, k < K → U.Q h (ys k) (ys' k)) :
    U.Q (r * g * h) (fGemv t al be K xs ys c) (fGemv t al' be' K xs' ys' c') := by
  have e : g * (r * h) = r * g * h := by rw [mul_left_comm, mul_assoc]
  unfold Haxx.fGemv
  rw [hα.fIsZero]
  split
  · exact Q.fBetaV hβ J
  · have T : ∀ t, U.Q (r * g * h) (Haxx.fAddBeta al (Haxx.fBetaV be c) (Haxx.fAccs t .N xs ys K))
        (Haxx.fAddBeta al' (Haxx.fBetaV be' c') (Haxx.fAccs t .N xs' ys' K)) := fun t =>
      (Q.fAddBeta hα.s ((Q.fBetaV hβ J).cast (mul_assoc _ _ _)) (Q.fAccs t .N K hx hy)).cast (mul_assoc _ _ _).symm
    cases t
    · exact (Q.fSteps .N K hα.s hx hy ((Q.fBetaV hβ J).cast e.symm)).cast e
    · exact T _
    · exact T _

/-- Fortran GERU, GERC -/
theorem Q.fGer (t : FTrans) (hα : U.SD r al al') (H : U.Q g x x') (K : U.QD h y y') (J : U.Q (r * g * h) c c') :
    U.Q (r * g * h) (fGer t al x y c) (fGer t al' x' y' c') := by
  have e : g * (r * h) = r * g * h := by rw [mul_left_comm, mul_assoc]
  unfold Haxx.fGer
  rw [hα.gIsZero, K.fIsZero]
  split
  · exact J
  · exact (Q.fStep t hα.s H K.q (J.cast e.symm)).cast e

end tests

end Units
end Haxx
