import Verif.Fuse

/-!
# Units in code fused by the compiler

If the numbers of `F'` stand for numbers of `F` in units (`Units F F' G`), they do so in the compiled code too: the two runs
fuse the same products, since the compiler sees the expressions but not the numbers.
-/

set_option linter.unusedSectionVars false

namespace Haxx
open Arith

variable {F F' G : Type} [Arith F] [ArithEq F] [Arith F'] [ArithEq F'] [CommMonoid G] {pol : Ex Unit → Fusing}

/-- The factors of two products, in units whose product is `g`. -/
def pendR (U : Units F F' G) (g : G) : Option (Bool × F × F) → Option (Bool × F' × F') → Prop
  | none, none => True
  | some (s, p, q), some (s', p', q') => s = s' ∧ ∃ h k, g = h * k ∧ U.R h p p' ∧ U.R k q q'
  | _, _ => False

/-- Related values. -/
def valR (U : Units F F' G) (g : G) (x : Ex.Val F) (y : Ex.Val F') : Prop := U.R g x.1 y.1 ∧ pendR U g x.2 y.2

variable {U : Units F F' G} {g : G}

theorem addV_units (f : Fusing) {x y : Ex.Val F} {x' y' : Ex.Val F'} (hx : valR U g x x') (hy : valR U g y y') :
    U.R g (Ex.addV f x y) (Ex.addV f x' y') := by
  obtain ⟨x, xs⟩ := x; obtain ⟨y, ys⟩ := y; obtain ⟨x', xs'⟩ := x'; obtain ⟨y', ys'⟩ := y'
  have h0 := U.add hx.1 hy.1
  cases f with
  | none => exact h0
  | left =>
    rcases xs with _ | ⟨s, p, q⟩ <;> rcases xs' with _ | ⟨s', p', q'⟩
    · exact h0
    · exact hx.2.elim
    · exact hx.2.elim
    · obtain ⟨rfl, h, k, rfl, hp, hq⟩ := hx.2
      cases s
      · exact U.fma hp hq hy.1
      · exact U.fnma hp hq hy.1
  | right =>
    rcases ys with _ | ⟨s, p, q⟩ <;> rcases ys' with _ | ⟨s', p', q'⟩
    · exact h0
    · exact hy.2.elim
    · exact hy.2.elim
    · obtain ⟨rfl, h, k, rfl, hp, hq⟩ := hy.2
      cases s
      · exact U.fma hp hq hx.1
      · exact U.fnma hp hq hx.1

theorem subV_units (f : Fusing) {x y : Ex.Val F} {x' y' : Ex.Val F'} (hx : valR U g x x') (hy : valR U g y y') :
    U.R g (Ex.subV f x y) (Ex.subV f x' y') := by
  obtain ⟨x, xs⟩ := x; obtain ⟨y, ys⟩ := y; obtain ⟨x', xs'⟩ := x'; obtain ⟨y', ys'⟩ := y'
  have h0 := U.sub hx.1 hy.1
  cases f with
  | none => exact h0
  | left =>
    rcases xs with _ | ⟨s, p, q⟩ <;> rcases xs' with _ | ⟨s', p', q'⟩
    · exact h0
    · exact hx.2.elim
    · exact hx.2.elim
    · obtain ⟨rfl, h, k, rfl, hp, hq⟩ := hx.2
      cases s
      · exact U.fms hp hq hy.1
      · exact U.neg (U.fma hp hq hy.1)
  | right =>
    rcases ys with _ | ⟨s, p, q⟩ <;> rcases ys' with _ | ⟨s', p', q'⟩
    · exact h0
    · exact hy.2.elim
    · exact hy.2.elim
    · obtain ⟨rfl, h, k, rfl, hp, hq⟩ := hy.2
      cases s
      · exact U.fnma hp hq hx.1
      · exact U.fma hp hq hx.1

theorem pendR_neg {x : Option (Bool × F × F)} {y : Option (Bool × F' × F')} (h : pendR U g x y) :
    pendR U g (x.map fun x => (!x.1, x.2)) (y.map fun x => (!x.1, x.2)) := by
  rcases x with _ | ⟨s, p, q⟩ <;> rcases y with _ | ⟨s', p', q'⟩
  · trivial
  · exact h.elim
  · exact h.elim
  · exact ⟨congrArg _ h.1, h.2⟩

/-- Units in fused code: the same expression, numbers in units. -/
def fusedUnits (U : Units F F' G) (pol : Ex Unit → Fusing) : Units (Fused F pol) (Fused F' pol) G where
  R g a b := Ex.shape a = Ex.shape b ∧ valR U g (Ex.ev pol a) (Ex.ev pol b)
  D g a b := Ex.shape a = Ex.shape b ∧ U.D g a.dbl b.dbl ∧ a.pend = none ∧ b.pend = none
  zero g := ⟨rfl, U.zero g, rfl, rfl⟩
  data {g a b} h := ⟨h.1, U.data h.2.1, by
    have h1 : (Ex.ev pol a).2 = none := h.2.2.1
    have h2 : (Ex.ev pol b).2 = none := h.2.2.2
    rw [h1, h2]; trivial⟩
  test0 h := U.test0 h.2.1
  test1 h := U.test1 h.2.1
  dneg {g a b} h := ⟨congrArg Ex.neg h.1, U.dneg h.2.1, by
    have h1 : (Ex.ev pol a).2 = none := h.2.2.1
    change Option.map _ (Ex.ev pol a).2 = none
    rw [h1]; rfl, by
    have h2 : (Ex.ev pol b).2 = none := h.2.2.2
    change Option.map _ (Ex.ev pol b).2 = none
    rw [h2]; rfl⟩
  neg {g a b} h := ⟨congrArg Ex.neg h.1, U.neg h.2.1, by
    exact pendR_neg h.2.2⟩
  add {g a b a' b'} h k := by
    have e : Ex.shape (Ex.add a a') = Ex.shape (Ex.add b b') := congrArg₂ Ex.add h.1 k.1
    refine ⟨e, ?_, trivial⟩
    change U.R g (Ex.addV (pol (Ex.shape (Ex.add a a'))) _ _) (Ex.addV (pol (Ex.shape (Ex.add b b'))) _ _)
    rw [e]
    exact addV_units _ h.2 k.2
  sub {g a b a' b'} h k := by
    have e : Ex.shape (Ex.sub a a') = Ex.shape (Ex.sub b b') := congrArg₂ Ex.sub h.1 k.1
    refine ⟨e, ?_, trivial⟩
    change U.R g (Ex.subV (pol (Ex.shape (Ex.sub a a'))) _ _) (Ex.subV (pol (Ex.shape (Ex.sub b b'))) _ _)
    rw [e]
    exact subV_units _ h.2 k.2
  mul {g h a b a' b'} H K := ⟨congrArg₂ Ex.mul H.1 K.1, U.mul H.2.1 K.2.1, rfl, g, h, rfl, H.2.1, K.2.1⟩
  fma {g h a b a' b' c d} H K L := ⟨by
    change Ex.fma _ _ _ = Ex.fma _ _ _
    rw [H.1, K.1, L.1], U.fma H.2.1 K.2.1 L.2.1, trivial⟩
  fms {g h a b a' b' c d} H K L := ⟨by
    change Ex.fms _ _ _ = Ex.fms _ _ _
    rw [H.1, K.1, L.1], U.fms H.2.1 K.2.1 L.2.1, trivial⟩
  fnma {g h a b a' b' c d} H K L := ⟨by
    change Ex.fnma _ _ _ = Ex.fnma _ _ _
    rw [H.1, K.1, L.1], U.fnma H.2.1 K.2.1 L.2.1, trivial⟩

/-- With no fusing at all, the compiled code computes what the source says. -/
def unfused : Units (Fused F fun _ => .none) F PUnit where
  R _ a b := a.dbl = b
  D _ a b := a.dbl = b
  zero _ := rfl
  data h := h
  test0 h := by subst h; rfl
  test1 h := by subst h; rfl
  dneg h := by subst h; rfl
  neg h := by subst h; rfl
  add h k := by
    subst h; subst k
    rfl
  sub h k := by subst h; subst k; rfl
  mul h k := by subst h; subst k; rfl
  fma h k l := by subst h; subst k; subst l; rfl
  fms h k l := by subst h; subst k; subst l; rfl
  fnma h k l := by subst h; subst k; subst l; rfl

end Haxx
