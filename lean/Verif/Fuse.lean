import Verif.PropsFin
import Verif.PropsNaN
import Verif.Units
import Verif.ExactInst

/-!
# Code in which the compiler fuses products with additions

GCC contracts `a*b + c` into one multiply-add instruction wherever it likes (`-ffp-contract=fast`, its default for GNU C++
and Fortran). `Ex F` is the arithmetic of unevaluated expressions: a program run over it leaves in each memory cell the
expression that the source prescribes for it. `Ex.ev pol` evaluates an expression the way the compiled code does: `pol` says
for every addition and subtraction (it sees the whole expression, with the identity of the doubles in it but not their
values) whether the product on its left, the one on its right or none is fused with it. Negated products count
(`vfnmadd`, `vfnmsub`). `Fused F pol` is `Ex F` with the comparisons of the compiled code.

If `F` is one of the arithmetics of C42, C53, C59, C60 or C64, so is `Fused F pol`, for every `pol`, with at most four times the
rounding errors.
-/

set_option linter.unusedSectionVars false

namespace Haxx
open Arith

/-- An expression over the doubles; `n` tells doubles of the same value apart. -/
inductive Ex (F : Type) where
  | lit (n : ℤ) (v : F)
  | neg (a : Ex F)
  | add (a b : Ex F)
  | sub (a b : Ex F)
  | mul (a b : Ex F)
  | fma (a b c : Ex F)
  | fms (a b c : Ex F)
  | fnma (a b c : Ex F)

/-- What the compiler does with an addition or subtraction. -/
inductive Fusing where
  | none | left | right

namespace Ex
variable {F F' G : Type}

/-- The expression without the values of the doubles: what the compiler sees. -/
def shape : Ex F → Ex Unit
  | lit n _ => lit n ()
  | neg a => neg a.shape
  | add a b => add a.shape b.shape
  | sub a b => sub a.shape b.shape
  | mul a b => mul a.shape b.shape
  | fma a b c => fma a.shape b.shape c.shape
  | fms a b c => fms a.shape b.shape c.shape
  | fnma a b c => fnma a.shape b.shape c.shape

variable [Arith F]

/-- A double and, if it is `±(p*q)`, the sign (`true`: minus) and the factors. -/
abbrev Val (F : Type) := F × Option (Bool × F × F)

/-- `x + y` -/
def addV : Fusing → Val F → Val F → F
  | .left, (_, some (false, p, q)), y => Arith.fma p q y.1
  | .left, (_, some (true, p, q)), y => Arith.fnma p q y.1
  | .right, x, (_, some (false, p, q)) => Arith.fma p q x.1
  | .right, x, (_, some (true, p, q)) => Arith.fnma p q x.1
  | _, x, y => x.1 +ᶠ y.1

/-- `x - y` -/
def subV : Fusing → Val F → Val F → F
  | .left, (_, some (false, p, q)), y => Arith.fms p q y.1
  | .left, (_, some (true, p, q)), y => ~ᶠ (Arith.fma p q y.1)
  | .right, x, (_, some (false, p, q)) => Arith.fnma p q x.1
  | .right, x, (_, some (true, p, q)) => Arith.fma p q x.1
  | _, x, y => x.1 -ᶠ y.1

/-- The value of an expression in the compiled code. -/
def ev (pol : Ex Unit → Fusing) : Ex F → Val F
  | lit _ v => (v, none)
  | neg a => (~ᶠ (a.ev pol).1, (a.ev pol).2.map fun x => (!x.1, x.2))
  | mul a b => ((a.ev pol).1 *ᶠ (b.ev pol).1, some (false, (a.ev pol).1, (b.ev pol).1))
  | add a b => (addV (pol (add a b).shape) (a.ev pol) (b.ev pol), none)
  | sub a b => (subV (pol (sub a b).shape) (a.ev pol) (b.ev pol), none)
  | fma a b c => (Arith.fma (a.ev pol).1 (b.ev pol).1 (c.ev pol).1, none)
  | fms a b c => (Arith.fms (a.ev pol).1 (b.ev pol).1 (c.ev pol).1, none)
  | fnma a b c => (Arith.fnma (a.ev pol).1 (b.ev pol).1 (c.ev pol).1, none)

end Ex

/-- The arithmetic of the compiled code: expressions, evaluated with the fusings `pol`. -/
def Fused (F : Type) (_pol : Ex Unit → Fusing) : Type := Ex F

variable {F : Type} [Arith F] {pol : Ex Unit → Fusing}

instance : Arith (Fused F pol) where
  zero := Ex.lit 0 Arith.zero
  one := Ex.lit 1 Arith.one
  add := Ex.add
  sub := Ex.sub
  mul := Ex.mul
  neg := Ex.neg
  fma := Ex.fma
  fms := Ex.fms
  fnma := Ex.fnma

/-- The double that an expression evaluates to. -/
def Fused.dbl (a : Fused F pol) : F := (Ex.ev pol a).1

/-- Comparisons compare the doubles. -/
instance [ArithEq F] : ArithEq (Fused F pol) where
  feq a b := ArithEq.feq a.dbl b.dbl

/-- The double with number `n` in memory. -/
def Fused.lit (n : ℤ) (v : F) : Fused F pol := Ex.lit n v

/-- The factors if the expression is plus or minus a product. -/
def Fused.pend (a : Fused F pol) : Option (Bool × F × F) := (Ex.ev pol a).2

namespace Fused

theorem dbl_neg (a : Fused F pol) : (~ᶠ a).dbl = ~ᶠ a.dbl := rfl
theorem dbl_mul (a b : Fused F pol) : (a *ᶠ b).dbl = a.dbl *ᶠ b.dbl := rfl
theorem dbl_fma (a b c : Fused F pol) : (Arith.fma a b c).dbl = Arith.fma a.dbl b.dbl c.dbl := rfl
theorem dbl_fms (a b c : Fused F pol) : (Arith.fms a b c).dbl = Arith.fms a.dbl b.dbl c.dbl := rfl
theorem dbl_fnma (a b c : Fused F pol) : (Arith.fnma a b c).dbl = Arith.fnma a.dbl b.dbl c.dbl := rfl

/-- The six things a compiled addition can be. -/
theorem add_cases (P : F → Prop) (a b : Fused F pol) (h0 : P (a.dbl +ᶠ b.dbl))
    (h1 : ∀ p q, a.pend = some (false, p, q) → P (Arith.fma p q b.dbl))
    (h2 : ∀ p q, a.pend = some (true, p, q) → P (Arith.fnma p q b.dbl))
    (h3 : ∀ p q, b.pend = some (false, p, q) → P (Arith.fma p q a.dbl))
    (h4 : ∀ p q, b.pend = some (true, p, q) → P (Arith.fnma p q a.dbl)) : P (a +ᶠ b).dbl := by
  change P (Ex.addV _ (Ex.ev pol a) (Ex.ev pol b))
  unfold dbl pend at *
  generalize Ex.ev pol a = x at *
  generalize Ex.ev pol b = y at *
  obtain ⟨x, xs⟩ := x
  obtain ⟨y, ys⟩ := y
  cases pol (Ex.add a b).shape with
  | none => exact h0
  | left =>
    rcases xs with _ | ⟨_ | _, p, q⟩
    · exact h0
    · exact h1 p q rfl
    · exact h2 p q rfl
  | right =>
    rcases ys with _ | ⟨_ | _, p, q⟩
    · exact h0
    · exact h3 p q rfl
    · exact h4 p q rfl

/-- The six things a compiled subtraction can be. -/
theorem sub_cases (P : F → Prop) (a b : Fused F pol) (h0 : P (a.dbl -ᶠ b.dbl))
    (h1 : ∀ p q, a.pend = some (false, p, q) → P (Arith.fms p q b.dbl))
    (h2 : ∀ p q, a.pend = some (true, p, q) → P (~ᶠ (Arith.fma p q b.dbl)))
    (h3 : ∀ p q, b.pend = some (false, p, q) → P (Arith.fnma p q a.dbl))
    (h4 : ∀ p q, b.pend = some (true, p, q) → P (Arith.fma p q a.dbl)) : P (a -ᶠ b).dbl := by
  change P (Ex.subV _ (Ex.ev pol a) (Ex.ev pol b))
  unfold dbl pend at *
  generalize Ex.ev pol a = x at *
  generalize Ex.ev pol b = y at *
  obtain ⟨x, xs⟩ := x
  obtain ⟨y, ys⟩ := y
  cases pol (Ex.sub a b).shape with
  | none => exact h0
  | left =>
    rcases xs with _ | ⟨_ | _, p, q⟩
    · exact h0
    · exact h1 p q rfl
    · exact h2 p q rfl
  | right =>
    rcases ys with _ | ⟨_ | _, p, q⟩
    · exact h0
    · exact h3 p q rfl
    · exact h4 p q rfl

theorem pend_neg {a : Fused F pol} {s : Bool} {p q : F} (h : (~ᶠ a).pend = some (s, p, q)) : a.pend = some (!s, p, q) := by
  change (Option.map _ a.pend) = _ at h
  cases e : a.pend with
  | none => rw [e] at h; cases h
  | some x =>
    rw [e] at h
    obtain ⟨b, p', q'⟩ := x
    simp only [Option.map_some, Option.some.injEq, Prod.mk.injEq] at h
    obtain ⟨rfl, rfl, rfl⟩ := h
    rw [Bool.not_not]

theorem pend_mul {a b : Fused F pol} {s : Bool} {p q : F} (h : (a *ᶠ b).pend = some (s, p, q)) :
    s = false ∧ p = a.dbl ∧ q = b.dbl := by
  have h : some (false, a.dbl, b.dbl) = some (s, p, q) := h
  simp only [Option.some.injEq, Prod.mk.injEq] at h
  exact ⟨h.1.symm, h.2.1.symm, h.2.2.symm⟩

end Fused

/-! ## C53: NaNs -/

/-- NaNs in fused code: the value is one, and if it is a product one of the factors is. -/
def Fused.bad (bad : F → Prop) (a : Fused F pol) : Prop :=
  bad a.dbl ∧ ∀ s p q, a.pend = some (s, p, q) → bad p ∨ bad q

/-- Fused code keeps NaNs. -/
theorem fusedNaN {bad : F → Prop} (h : NaNLike bad) : NaNLike (Fused.bad (pol := pol) bad) where
  addL {a b} e := ⟨Fused.add_cases bad a b (h.addL e.1)
    (fun p q k => (e.2 _ p q k).elim h.fma1 h.fma2) (fun p q k => (e.2 _ p q k).elim h.fnma1 h.fnma2)
    (fun p q k => h.fma3 e.1) (fun p q k => h.fnma3 e.1), fun _ _ _ k => nomatch k⟩
  addR {a b} e := ⟨Fused.add_cases bad a b (h.addR e.1) (fun p q k => h.fma3 e.1) (fun p q k => h.fnma3 e.1)
    (fun p q k => (e.2 _ p q k).elim h.fma1 h.fma2) (fun p q k => (e.2 _ p q k).elim h.fnma1 h.fnma2),
    fun _ _ _ k => nomatch k⟩
  subL {a b} e := ⟨Fused.sub_cases bad a b (h.subL e.1)
    (fun p q k => (e.2 _ p q k).elim h.fms1 h.fms2) (fun p q k => h.neg ((e.2 _ p q k).elim h.fma1 h.fma2))
    (fun p q k => h.fnma3 e.1) (fun p q k => h.fma3 e.1), fun _ _ _ k => nomatch k⟩
  subR {a b} e := ⟨Fused.sub_cases bad a b (h.subR e.1) (fun p q k => h.fms3 e.1) (fun p q k => h.neg (h.fma3 e.1))
    (fun p q k => (e.2 _ p q k).elim h.fnma1 h.fnma2) (fun p q k => (e.2 _ p q k).elim h.fma1 h.fma2),
    fun _ _ _ k => nomatch k⟩
  mulL {a b} e := ⟨h.mulL e.1, fun s p q k => by obtain ⟨_, rfl, rfl⟩ := Fused.pend_mul k; exact Or.inl e.1⟩
  mulR {a b} e := ⟨h.mulR e.1, fun s p q k => by obtain ⟨_, rfl, rfl⟩ := Fused.pend_mul k; exact Or.inr e.1⟩
  neg {a} e := ⟨h.neg e.1, fun s p q k => e.2 _ p q (Fused.pend_neg k)⟩
  fma1 e := ⟨h.fma1 e.1, fun _ _ _ k => nomatch k⟩
  fma2 e := ⟨h.fma2 e.1, fun _ _ _ k => nomatch k⟩
  fma3 e := ⟨h.fma3 e.1, fun _ _ _ k => nomatch k⟩
  fms1 e := ⟨h.fms1 e.1, fun _ _ _ k => nomatch k⟩
  fms2 e := ⟨h.fms2 e.1, fun _ _ _ k => nomatch k⟩
  fms3 e := ⟨h.fms3 e.1, fun _ _ _ k => nomatch k⟩
  fnma1 e := ⟨h.fnma1 e.1, fun _ _ _ k => nomatch k⟩
  fnma2 e := ⟨h.fnma2 e.1, fun _ _ _ k => nomatch k⟩
  fnma3 e := ⟨h.fnma3 e.1, fun _ _ _ k => nomatch k⟩

/-! ## C42: rounding errors -/

/-- Every double the compiled code computes for the expression is a number, products satisfying `P` too. -/
def Ex.okE {u : ℝ} (S : StdModel F u) (P : F → F → Prop) (pol : Ex Unit → Fusing) : Ex F → Prop
  | .lit _ v => S.ok v
  | .neg a => a.okE S P pol
  | .add a b => a.okE S P pol ∧ b.okE S P pol ∧ S.ok ((Ex.add a b).ev pol).1
  | .sub a b => a.okE S P pol ∧ b.okE S P pol ∧ S.ok ((Ex.sub a b).ev pol).1
  | .mul a b => a.okE S P pol ∧ b.okE S P pol ∧ S.ok ((Ex.mul a b).ev pol).1 ∧ P (a.ev pol).1 (b.ev pol).1
  | .fma a b c => a.okE S P pol ∧ b.okE S P pol ∧ c.okE S P pol ∧ S.ok ((Ex.fma a b c).ev pol).1
  | .fms a b c => a.okE S P pol ∧ b.okE S P pol ∧ c.okE S P pol ∧ S.ok ((Ex.fms a b c).ev pol).1
  | .fnma a b c => a.okE S P pol ∧ b.okE S P pol ∧ c.okE S P pol ∧ S.ok ((Ex.fnma a b c).ev pol).1

/-- the sign of a fused product -/
def sgB (s : Bool) : ℝ := if s then -1 else 1

/-- What is known about a product that may be fused. -/
theorem Ex.okE.pend {u : ℝ} {S : StdModel F u} {P : F → F → Prop} {a : Fused F pol} (h : Ex.okE S P pol a) :
    ∀ s p q, a.pend = some (s, p, q) → S.ok (p *ᶠ q) ∧ P p q ∧ S.val a.dbl = sgB s * S.val (p *ᶠ q) := by
  induction a with
  | neg a ih =>
    intro s p q k
    obtain ⟨h1, h2, h3⟩ := ih h _ p q (Fused.pend_neg (a := a) k)
    refine ⟨h1, h2, ?_⟩
    change S.val (~ᶠ (Fused.dbl (pol := pol) a)) = _
    rw [S.neg_val, h3]
    cases s <;> simp [sgB]
  | mul a b =>
    intro s p q k
    obtain ⟨rfl, rfl, rfl⟩ := Fused.pend_mul (a := a) (b := b) k
    refine ⟨h.2.2.1, h.2.2.2, ?_⟩
    rw [sgB, if_neg Bool.false_ne_true, one_mul]
    rfl
  | _ => intro s p q k; cases k

/-- The error of a fused product relative to what the source prescribes. -/
theorem fuseErr {u A a b r : ℝ} (h0 : 0 ≤ u) (h1 : u ≤ 1 / 16) (hA : |a - A| ≤ u * |A|)
    (hr : |r - (A + b)| ≤ u * |A + b| + u * (1 + u) * |A|) : |r - (a + b)| ≤ 4 * u * (|a| + |b|) := by
  have e1 := abs_sub_abs_le_abs_sub A a
  rw [abs_sub_comm] at e1
  have e2 : |A| ≤ 16 / 15 * |a| := by nlinarith [abs_nonneg A]
  have e3 := abs_sub_le r (A + b) (a + b)
  rw [show A + b - (a + b) = -(a - A) by ring, abs_neg] at e3
  have e4 := mul_le_mul_of_nonneg_left (abs_add_le A b) h0
  have e5 : u * (1 + u) * |A| ≤ u * (17 / 16) * |A| :=
    mul_le_mul_of_nonneg_right (mul_le_mul_of_nonneg_left (by linarith) h0) (abs_nonneg _)
  have e6 := mul_le_mul_of_nonneg_left e2 h0
  have e7 : 0 ≤ u * |a| := by positivity
  have e8 : 0 ≤ u * |b| := by positivity
  linarith

theorem fuseMono {u A b : ℝ} (h0 : 0 ≤ u) : u * |b| + u * (1 + u) * |A| ≤ 4 * u * |b| + 4 * u * (1 + 4 * u) * |A| := by
  have h1 : u * |b| ≤ 4 * u * |b| := mul_le_mul_of_nonneg_right (by linarith) (abs_nonneg _)
  have h2 : u * (1 + u) * |A| ≤ 4 * u * (1 + 4 * u) * |A| := mul_le_mul_of_nonneg_right (by nlinarith) (abs_nonneg _)
  linarith

/-- The compiled code has rounding errors at most four times those of the arithmetic. -/
def fusedStd {u : ℝ} (S : StdModel F u) (hu : u ≤ 1 / 16) (P : F → F → Prop) (pol : Ex Unit → Fusing) :
    StdModel (Fused F pol) (4 * u) where
  u_nonneg := by linarith [S.u_nonneg]
  val a := S.val a.dbl
  ok a := Ex.okE S P pol a
  zero_ok := S.zero_ok
  zero_val := S.zero_val
  neg_ok _ h := h
  neg_val a := S.neg_val a.dbl
  add_ok _ _ h := ⟨h.1, h.2.1⟩
  add_err a b h := by
    have u0 := S.u_nonneg
    refine Fused.add_cases (fun v => S.ok v → |S.val v - (S.val a.dbl + S.val b.dbl)| ≤
        4 * u * (|S.val a.dbl| + |S.val b.dbl|)) a b ?_ ?_ ?_ ?_ ?_ h.2.2
    · intro o
      refine (S.add_err _ _ o).trans (mul_le_mul_of_nonneg_right (by linarith) (by positivity))
    · intro p q k o
      obtain ⟨k1, _, k2⟩ := h.1.pend _ p q k
      rw [sgB, if_neg Bool.false_ne_true, one_mul] at k2
      refine fuseErr u0 hu (A := S.val p * S.val q) ?_ (S.fma_err _ _ _ o)
      rw [k2]; exact S.mul_err _ _ k1
    · intro p q k o
      obtain ⟨k1, _, k2⟩ := h.1.pend _ p q k
      rw [sgB, if_pos rfl] at k2
      have e := S.fnma_err _ _ _ o
      refine fuseErr u0 hu (A := -(S.val p * S.val q)) ?_ ?_
      · rw [k2, abs_neg, show -1 * S.val (p *ᶠ q) - -(S.val p * S.val q) = -(S.val (p *ᶠ q) - S.val p * S.val q) by ring, abs_neg]
        exact S.mul_err _ _ k1
      · rw [abs_neg, show -(S.val p * S.val q) + S.val b.dbl = S.val b.dbl - S.val p * S.val q by ring]; exact e
    · intro p q k o
      obtain ⟨k1, _, k2⟩ := h.2.1.pend _ p q k
      rw [sgB, if_neg Bool.false_ne_true, one_mul] at k2
      rw [add_comm (S.val a.dbl), add_comm |S.val a.dbl|]
      refine fuseErr u0 hu (A := S.val p * S.val q) ?_ (S.fma_err _ _ _ o)
      rw [k2]; exact S.mul_err _ _ k1
    · intro p q k o
      obtain ⟨k1, _, k2⟩ := h.2.1.pend _ p q k
      rw [sgB, if_pos rfl] at k2
      have e := S.fnma_err _ _ _ o
      rw [add_comm (S.val a.dbl), add_comm |S.val a.dbl|]
      refine fuseErr u0 hu (A := -(S.val p * S.val q)) ?_ ?_
      · rw [k2, abs_neg, show -1 * S.val (p *ᶠ q) - -(S.val p * S.val q) = -(S.val (p *ᶠ q) - S.val p * S.val q) by ring, abs_neg]
        exact S.mul_err _ _ k1
      · rw [abs_neg, show -(S.val p * S.val q) + S.val a.dbl = S.val a.dbl - S.val p * S.val q by ring]; exact e
  sub_ok _ _ h := ⟨h.1, h.2.1⟩
  sub_err a b h := by
    have u0 := S.u_nonneg
    rw [sub_eq_add_neg (S.val a.dbl), ← abs_neg (S.val b.dbl)]
    refine Fused.sub_cases (fun v => S.ok v → |S.val v - (S.val a.dbl + -S.val b.dbl)| ≤
        4 * u * (|S.val a.dbl| + |-S.val b.dbl|)) a b ?_ ?_ ?_ ?_ ?_ h.2.2
    · intro o
      rw [← sub_eq_add_neg, abs_neg]
      refine (S.sub_err _ _ o).trans (mul_le_mul_of_nonneg_right (by linarith) (by positivity))
    · intro p q k o
      obtain ⟨k1, _, k2⟩ := h.1.pend _ p q k
      rw [sgB, if_neg Bool.false_ne_true, one_mul] at k2
      refine fuseErr u0 hu (A := S.val p * S.val q) ?_ (by rw [← sub_eq_add_neg]; exact S.fms_err _ _ _ o)
      rw [k2]; exact S.mul_err _ _ k1
    · intro p q k o
      obtain ⟨k1, _, k2⟩ := h.1.pend _ p q k
      rw [sgB, if_pos rfl] at k2
      have e := S.fma_err _ _ _ (S.neg_ok _ o)
      refine fuseErr u0 hu (A := -(S.val p * S.val q)) ?_ ?_
      · rw [k2, abs_neg, show -1 * S.val (p *ᶠ q) - -(S.val p * S.val q) = -(S.val (p *ᶠ q) - S.val p * S.val q) by ring, abs_neg]
        exact S.mul_err _ _ k1
      · rw [S.neg_val, abs_neg, show -(S.val p * S.val q) + -S.val b.dbl = -(S.val p * S.val q + S.val b.dbl) by ring, abs_neg,
          ← neg_sub', abs_neg]
        exact e
    · intro p q k o
      obtain ⟨k1, _, k2⟩ := h.2.1.pend _ p q k
      rw [sgB, if_neg Bool.false_ne_true, one_mul] at k2
      have e := S.fnma_err _ _ _ o
      rw [add_comm (S.val a.dbl), add_comm |S.val a.dbl|]
      refine fuseErr u0 hu (A := -(S.val p * S.val q)) ?_ ?_
      · rw [k2, abs_neg, show -S.val (p *ᶠ q) - -(S.val p * S.val q) = -(S.val (p *ᶠ q) - S.val p * S.val q) by ring, abs_neg]
        exact S.mul_err _ _ k1
      · rw [abs_neg, show -(S.val p * S.val q) + S.val a.dbl = S.val a.dbl - S.val p * S.val q by ring]; exact e
    · intro p q k o
      obtain ⟨k1, _, k2⟩ := h.2.1.pend _ p q k
      rw [sgB, if_pos rfl] at k2
      rw [add_comm (S.val a.dbl), add_comm |S.val a.dbl|]
      refine fuseErr u0 hu (A := S.val p * S.val q) ?_ (S.fma_err _ _ _ o)
      rw [k2, neg_mul, neg_neg, one_mul]; exact S.mul_err _ _ k1
  mul_ok _ _ h := ⟨h.1, h.2.1⟩
  mul_err a b h := (S.mul_err _ _ h.2.2.1).trans (mul_le_mul_of_nonneg_right (by linarith [S.u_nonneg]) (abs_nonneg _))
  fma_ok _ _ _ h := ⟨h.1, h.2.1, h.2.2.1⟩
  fma_err a b c h := (S.fma_err _ _ _ h.2.2.2).trans (fuseMono S.u_nonneg)
  fms_ok _ _ _ h := ⟨h.1, h.2.1, h.2.2.1⟩
  fms_err a b c h := (S.fms_err _ _ _ h.2.2.2).trans (fuseMono S.u_nonneg)
  fnma_ok _ _ _ h := ⟨h.1, h.2.1, h.2.2.1⟩
  fnma_err a b c h := (S.fnma_err _ _ _ h.2.2.2).trans (fuseMono S.u_nonneg)

/-! ## C59: integers -/

theorem Ex.okE.dbl {u B : ℝ} {I : IntModel F u B} {P : F → F → Prop} {a : Fused F pol} (h : Ex.okE I.toStdModel P pol a) : I.ok a.dbl := by
  induction a with
  | lit n v => exact h
  | neg a ih => exact I.neg_num _ (ih h)
  | add a b => exact h.2.2
  | sub a b => exact h.2.2
  | mul a b => exact h.2.2.1
  | fma a b c => exact h.2.2.2
  | fms a b c => exact h.2.2.2
  | fnma a b c => exact h.2.2.2

/-- the factors of a product that is exact: integers, product at most `B` -/
def IntPair {u B : ℝ} (I : IntModel F u B) (p q : F) : Prop :=
  I.ok p ∧ I.ok q ∧ (∃ m : ℤ, I.val p = m) ∧ (∃ n : ℤ, I.val q = n) ∧ |I.val p * I.val q| ≤ B

/-- The compiled code is exact on the integers on which the arithmetic is. -/
def fusedInt {u B : ℝ} (I : IntModel F u B) (hu : u ≤ 1 / 16) (pol : Ex Unit → Fusing) : IntModel (Fused F pol) (4 * u) B where
  toStdModel := fusedStd I.toStdModel hu (IntPair I) pol
  neg_num _ h := h
  add_int a b m n ha hb hm hn h := by
    have da := ha.dbl
    have db := hb.dbl
    have := Fused.add_cases (fun v => I.ok v ∧ I.val v = I.val a.dbl + I.val b.dbl) a b
      (I.add_int _ _ m n da db hm hn h) ?_ ?_ ?_ ?_
    · exact ⟨⟨ha, hb, this.1⟩, this.2⟩
    · intro p q k
      obtain ⟨k1, ⟨op, oq, ⟨m', hm'⟩, ⟨n', hn'⟩, hl⟩, k2⟩ := ha.pend _ p q k
      rw [sgB, if_neg Bool.false_ne_true, one_mul, (I.mul_int _ _ m' n' op oq hm' hn' hl).2] at k2
      have e := I.fma_int p q b.dbl m' n' n op oq db hm' hn' hn hl (by rw [← k2]; exact h)
      rw [k2]; exact e
    · intro p q k
      obtain ⟨k1, ⟨op, oq, ⟨m', hm'⟩, ⟨n', hn'⟩, hl⟩, k2⟩ := ha.pend _ p q k
      rw [sgB, if_pos rfl, (I.mul_int _ _ m' n' op oq hm' hn' hl).2] at k2
      have e2 : I.val a.dbl + I.val b.dbl = I.val b.dbl - I.val p * I.val q := by rw [k2]; ring
      have e := I.fnma_int p q b.dbl m' n' n op oq db hm' hn' hn hl (by rw [← e2]; exact h)
      rw [e2]; exact e
    · intro p q k
      obtain ⟨k1, ⟨op, oq, ⟨m', hm'⟩, ⟨n', hn'⟩, hl⟩, k2⟩ := hb.pend _ p q k
      rw [sgB, if_neg Bool.false_ne_true, one_mul, (I.mul_int _ _ m' n' op oq hm' hn' hl).2] at k2
      have e2 : I.val a.dbl + I.val b.dbl = I.val p * I.val q + I.val a.dbl := by rw [k2]; ring
      have e := I.fma_int p q a.dbl m' n' m op oq da hm' hn' hm hl (by rw [← e2]; exact h)
      rw [e2]; exact e
    · intro p q k
      obtain ⟨k1, ⟨op, oq, ⟨m', hm'⟩, ⟨n', hn'⟩, hl⟩, k2⟩ := hb.pend _ p q k
      rw [sgB, if_pos rfl, (I.mul_int _ _ m' n' op oq hm' hn' hl).2] at k2
      have e2 : I.val a.dbl + I.val b.dbl = I.val a.dbl - I.val p * I.val q := by rw [k2]; ring
      have e := I.fnma_int p q a.dbl m' n' m op oq da hm' hn' hm hl (by rw [← e2]; exact h)
      rw [e2]; exact e
  sub_int a b m n ha hb hm hn h := by
    have da := ha.dbl
    have db := hb.dbl
    have := Fused.sub_cases (fun v => I.ok v ∧ I.val v = I.val a.dbl - I.val b.dbl) a b
      (I.sub_int _ _ m n da db hm hn h) ?_ ?_ ?_ ?_
    · exact ⟨⟨ha, hb, this.1⟩, this.2⟩
    · intro p q k
      obtain ⟨k1, ⟨op, oq, ⟨m', hm'⟩, ⟨n', hn'⟩, hl⟩, k2⟩ := ha.pend _ p q k
      rw [sgB, if_neg Bool.false_ne_true, one_mul, (I.mul_int _ _ m' n' op oq hm' hn' hl).2] at k2
      have e := I.fms_int p q b.dbl m' n' n op oq db hm' hn' hn hl (by rw [← k2]; exact h)
      rw [k2]; exact e
    · intro p q k
      obtain ⟨k1, ⟨op, oq, ⟨m', hm'⟩, ⟨n', hn'⟩, hl⟩, k2⟩ := ha.pend _ p q k
      rw [sgB, if_pos rfl, (I.mul_int _ _ m' n' op oq hm' hn' hl).2] at k2
      have e2 : I.val a.dbl - I.val b.dbl = -(I.val p * I.val q + I.val b.dbl) := by rw [k2]; ring
      have e := I.fma_int p q b.dbl m' n' n op oq db hm' hn' hn hl (by rw [← abs_neg, ← e2]; exact h)
      rw [e2]; exact ⟨I.neg_num _ e.1, by rw [I.neg_val, e.2]⟩
    · intro p q k
      obtain ⟨k1, ⟨op, oq, ⟨m', hm'⟩, ⟨n', hn'⟩, hl⟩, k2⟩ := hb.pend _ p q k
      rw [sgB, if_neg Bool.false_ne_true, one_mul, (I.mul_int _ _ m' n' op oq hm' hn' hl).2] at k2
      have e2 : I.val a.dbl - I.val b.dbl = I.val a.dbl - I.val p * I.val q := by rw [k2]
      have e := I.fnma_int p q a.dbl m' n' m op oq da hm' hn' hm hl (by rw [← e2]; exact h)
      rw [e2]; exact e
    · intro p q k
      obtain ⟨k1, ⟨op, oq, ⟨m', hm'⟩, ⟨n', hn'⟩, hl⟩, k2⟩ := hb.pend _ p q k
      rw [sgB, if_pos rfl, (I.mul_int _ _ m' n' op oq hm' hn' hl).2] at k2
      have e2 : I.val a.dbl - I.val b.dbl = I.val p * I.val q + I.val a.dbl := by rw [k2]; ring
      have e := I.fma_int p q a.dbl m' n' m op oq da hm' hn' hm hl (by rw [← e2]; exact h)
      rw [e2]; exact e
  mul_int a b m n ha hb hm hn h := by
    have e := I.mul_int _ _ m n ha.dbl hb.dbl hm hn h
    exact ⟨⟨ha, hb, e.1, ha.dbl, hb.dbl, ⟨m, hm⟩, ⟨n, hn⟩, h⟩, e.2⟩
  fma_int a b c m n p ha hb hc hm hn hp h1 h2 := by
    have e := I.fma_int _ _ _ m n p ha.dbl hb.dbl hc.dbl hm hn hp h1 h2
    exact ⟨⟨ha, hb, hc, e.1⟩, e.2⟩
  fms_int a b c m n p ha hb hc hm hn hp h1 h2 := by
    have e := I.fms_int _ _ _ m n p ha.dbl hb.dbl hc.dbl hm hn hp h1 h2
    exact ⟨⟨ha, hb, hc, e.1⟩, e.2⟩
  fnma_int a b c m n p ha hb hc hm hn hp h1 h2 := by
    have e := I.fnma_int _ _ _ m n p ha.dbl hb.dbl hc.dbl hm hn hp h1 h2
    exact ⟨⟨ha, hb, hc, e.1⟩, e.2⟩

/-! ## C60: overflow and underflow -/

/-- The value is finite, and if it is a product it is one of finite numbers within range. -/
def Fused.fin {u η Ω : ℝ} (J : FinModel F u η Ω) (a : Fused F pol) : Prop :=
  J.fin a.dbl ∧ ∀ s p q, a.pend = some (s, p, q) →
    J.fin p ∧ J.fin q ∧ |J.val p * J.val q| ≤ Ω ∧ J.val a.dbl = sgB s * J.val (p *ᶠ q)

/-- a product that is not zero -/
def Fused.prod {u η Ω : ℝ} (J : FinModel F u η Ω) (a : Fused F pol) : Prop :=
  ∃ s p q, a.pend = some (s, p, q) ∧ J.val p * J.val q ≠ 0

/-- The errors of a fused product, with underflow. -/
theorem fuseErr' {u η A a b r : ℝ} (h0 : 0 ≤ u) (h1 : u ≤ 1 / 16) (hη : 0 ≤ η) (hA : |a - A| ≤ u * |A| + η)
    (hr : |r - (A + b)| ≤ u * (|A| + |b|) + η) : |r - (a + b)| ≤ 4 * u * (|a| + |b|) + 4 * η := by
  have e1 := abs_sub_abs_le_abs_sub A a
  rw [abs_sub_comm] at e1
  have e2 : |A| ≤ 16 / 15 * (|a| + η) := by nlinarith [abs_nonneg A]
  have e3 := abs_sub_le r (A + b) (a + b)
  rw [show A + b - (a + b) = -(a - A) by ring, abs_neg] at e3
  have e6 := mul_le_mul_of_nonneg_left e2 h0
  have e7 : 0 ≤ u * |a| := by positivity
  have e8 : 0 ≤ u * |b| := by positivity
  have e9 : u * η ≤ 1 / 16 * η := mul_le_mul_of_nonneg_right h1 hη
  nlinarith

/-- The products that may be fused are within range. -/
theorem fuseRange {u η Ω A a b : ℝ} (h1 : u ≤ 1 / 16) (hη : η ≤ u) (hΩ : 1 ≤ Ω) (hA : |a - A| ≤ u * |A| + η)
    (h : |a| + |b| ≤ Ω / 2) : |A| + |b| ≤ Ω := by
  have e1 := abs_sub_abs_le_abs_sub A a
  rw [abs_sub_comm] at e1
  have e2 : |A| ≤ 16 / 15 * (|a| + 1 / 16) := by nlinarith [abs_nonneg A]
  have := abs_nonneg b
  linarith

/-- What a fused operation does: `t` is what the source prescribes for it, with `av` the rounded product and `c` the other operand. -/
def FuseRes {u η Ω : ℝ} (J : FinModel F u η Ω) (p q r : F) (t av c : ℝ) : Prop :=
  J.fin r ∧ |J.val r - t| ≤ 4 * u * (|av| + |c|) + 4 * η ∧ (J.val p * J.val q = 0 → |J.val r - t| ≤ 4 * u * (|av| + |c|))

section
variable {u η Ω : ℝ} {J : FinModel F u η Ω} (hJ : ∀ a, ¬ J.prod a) (hu : u ≤ 1 / 16) (hΩ : 1 ≤ Ω) {p q c : F}
  (hp : J.fin p) (hq : J.fin q) (hc : J.fin c) (hpq : |J.val p * J.val q| ≤ Ω) (h : |J.val (p *ᶠ q)| + |J.val c| ≤ Ω / 2)
include hJ hu hΩ hp hq hc hpq h

theorem fuse_fma : FuseRes J p q (Arith.fma p q c) (J.val (p *ᶠ q) + J.val c) (J.val (p *ᶠ q)) (J.val c) := by
  have u0 := J.u_nonneg
  have η0 := J.η_nonneg
  obtain ⟨m1, m2, m3⟩ := J.mul_fin p q hp hq hpq
  have hm : u * (|J.val (p *ᶠ q)| + |J.val c|) ≤ 4 * u * (|J.val (p *ᶠ q)| + |J.val c|) :=
    mul_le_mul_of_nonneg_right (by linarith) (by positivity)
  have hΩ2 : |J.val (p *ᶠ q)| + |J.val c| ≤ Ω := by linarith
  rcases J.fma_fin p q c hp hq hc with e | e
  · obtain ⟨r1, _, _, r2⟩ := J.add_fin (p *ᶠ q) c m1 hc hΩ2
    rw [e]
    have r2 := (r2 (hJ _) (hJ _)).trans hm
    exact ⟨r1, by linarith, fun _ => r2⟩
  · obtain ⟨r1, _, r2, r3⟩ := e (fuseRange hu J.η_le hΩ m2 h)
    refine ⟨r1, fuseErr' u0 hu η0 m2 r2, fun h0 => ?_⟩
    rw [(m3 h0).1] at hm ⊢
    rw [h0] at r3
    have r3 := r3 rfl
    rw [abs_zero, zero_add] at hm ⊢
    rw [zero_add] at r3 ⊢
    exact r3.trans hm

theorem fuse_fms : FuseRes J p q (Arith.fms p q c) (J.val (p *ᶠ q) - J.val c) (J.val (p *ᶠ q)) (J.val c) := by
  have u0 := J.u_nonneg
  have η0 := J.η_nonneg
  obtain ⟨m1, m2, m3⟩ := J.mul_fin p q hp hq hpq
  have hm : u * (|J.val (p *ᶠ q)| + |J.val c|) ≤ 4 * u * (|J.val (p *ᶠ q)| + |J.val c|) :=
    mul_le_mul_of_nonneg_right (by linarith) (by positivity)
  have hΩ2 : |J.val (p *ᶠ q)| + |J.val c| ≤ Ω := by linarith
  rcases J.fms_fin p q c hp hq hc with e | e
  · obtain ⟨r1, _, _, r2⟩ := J.sub_fin (p *ᶠ q) c m1 hc hΩ2
    rw [e]
    have r2 := (r2 (hJ _) (hJ _)).trans hm
    exact ⟨r1, by linarith, fun _ => r2⟩
  · obtain ⟨r1, _, r2, r3⟩ := e (fuseRange hu J.η_le hΩ m2 h)
    refine ⟨r1, ?_, fun h0 => ?_⟩
    · rw [sub_eq_add_neg (J.val p * J.val q), ← abs_neg (J.val c)] at r2
      have := fuseErr' u0 hu η0 m2 r2
      rwa [← sub_eq_add_neg, abs_neg] at this
    · rw [(m3 h0).1] at hm ⊢
      rw [h0] at r3
      have r3 := r3 rfl
      rw [abs_zero, zero_add] at hm ⊢
      exact r3.trans hm

theorem fuse_fnma : FuseRes J p q (Arith.fnma p q c) (J.val c - J.val (p *ᶠ q)) (J.val (p *ᶠ q)) (J.val c) := by
  have u0 := J.u_nonneg
  have η0 := J.η_nonneg
  obtain ⟨m1, m2, m3⟩ := J.mul_fin p q hp hq hpq
  have hm : u * (|J.val (p *ᶠ q)| + |J.val c|) ≤ 4 * u * (|J.val (p *ᶠ q)| + |J.val c|) :=
    mul_le_mul_of_nonneg_right (by linarith) (by positivity)
  have hΩ2 : |J.val (p *ᶠ q)| + |J.val c| ≤ Ω := by linarith
  rcases J.fnma_fin p q c hp hq hc with e | e
  · obtain ⟨r1, _, _, r2⟩ := J.sub_fin c (p *ᶠ q) hc m1 (by linarith)
    rw [e]
    have r2 := r2 (hJ _) (hJ _)
    rw [add_comm |J.val c|] at r2
    have r2 := r2.trans hm
    exact ⟨r1, by linarith, fun _ => r2⟩
  · obtain ⟨r1, _, r2, r3⟩ := e (fuseRange hu J.η_le hΩ m2 h)
    refine ⟨r1, ?_, fun h0 => ?_⟩
    · rw [show J.val c - J.val p * J.val q = -(J.val p * J.val q) + J.val c by ring, ← abs_neg (J.val p * J.val q)] at r2
      have m2' : |-J.val (p *ᶠ q) - -(J.val p * J.val q)| ≤ u * |-(J.val p * J.val q)| + η := by
        rw [← neg_sub', abs_neg, abs_neg]; exact m2
      have := fuseErr' u0 hu η0 m2' r2
      rwa [abs_neg, show -J.val (p *ᶠ q) + J.val c = J.val c - J.val (p *ᶠ q) by ring] at this
    · rw [(m3 h0).1] at hm ⊢
      rw [h0] at r3
      have r3 := r3 rfl
      rw [abs_zero, zero_add] at hm ⊢
      exact r3.trans hm

end

section
variable {u η Ω : ℝ} {J : FinModel F u η Ω} (hJ : ∀ a, ¬ J.prod a) (hu : u ≤ 1 / 16) (hΩ : 1 ≤ Ω) {p q c : F}
  (hp : J.fin p) (hq : J.fin q) (hc : J.fin c) (h : |J.val p * J.val q| + |J.val c| ≤ Ω / 2)
include hJ hu hΩ hp hq hc h

/-- the rounded product within range -/
theorem node_mul : J.fin (p *ᶠ q) ∧ |J.val (p *ᶠ q)| + |J.val c| ≤ Ω ∧ |J.val (p *ᶠ q) - J.val p * J.val q| ≤ u * |J.val p * J.val q| + η ∧
    |J.val (p *ᶠ q)| ≤ 17 / 16 * |J.val p * J.val q| + η ∧ (J.val p * J.val q = 0 → J.val (p *ᶠ q) = 0) := by
  have u0 := J.u_nonneg
  have η1 := J.η_le
  have a0 := abs_nonneg (J.val p * J.val q)
  have c0 := abs_nonneg (J.val c)
  obtain ⟨m1, m2, m3⟩ := J.mul_fin p q hp hq (by linarith)
  have e := abs_sub_abs_le_abs_sub (J.val (p *ᶠ q)) (J.val p * J.val q)
  have e2 : u * |J.val p * J.val q| ≤ 1 / 16 * |J.val p * J.val q| := mul_le_mul_of_nonneg_right hu a0
  exact ⟨m1, by linarith, m2, by linarith, fun h0 => (m3 h0).1⟩

theorem node_fma : J.fin (Arith.fma p q c) ∧
    |J.val (Arith.fma p q c) - (J.val p * J.val q + J.val c)| ≤ 4 * u * (|J.val p * J.val q| + |J.val c|) + 4 * η ∧
    (J.val p * J.val q = 0 → |J.val (Arith.fma p q c) - (J.val p * J.val q + J.val c)| ≤ 4 * u * |J.val c|) := by
  have u0 := J.u_nonneg
  have η0 := J.η_nonneg
  have a1 := mul_nonneg u0 (abs_nonneg (J.val p * J.val q))
  have a2 := mul_nonneg u0 (abs_nonneg (J.val c))
  rcases J.fma_fin p q c hp hq hc with e | e
  · obtain ⟨m1, m2, m3, m4, m5⟩ := node_mul hJ hu hΩ hp hq hc h
    obtain ⟨r1, _, _, r2⟩ := J.add_fin (p *ᶠ q) c m1 hc m2
    have r2 := r2 (hJ _) (hJ _)
    rw [e]
    refine ⟨r1, ?_, fun h0 => ?_⟩
    · have t1 := abs_sub_le (J.val ((p *ᶠ q) +ᶠ c)) (J.val (p *ᶠ q) + J.val c) (J.val p * J.val q + J.val c)
      have t2 : |J.val (p *ᶠ q) + J.val c - (J.val p * J.val q + J.val c)| = |J.val (p *ᶠ q) - J.val p * J.val q| := by
        congr 1; ring
      have t3 := mul_le_mul_of_nonneg_left m4 u0
      have t4 : u * η ≤ 1 / 16 * η := mul_le_mul_of_nonneg_right hu η0
      nlinarith
    · rw [m5 h0] at r2
      rw [h0]
      simp only [abs_zero, zero_add] at r2 ⊢
      linarith
  · obtain ⟨r1, _, r2, r3⟩ := e (by linarith [abs_nonneg (J.val p * J.val q), abs_nonneg (J.val c)])
    exact ⟨r1, by linarith, fun h0 => (r3 h0).trans (by linarith)⟩

theorem node_fms : J.fin (Arith.fms p q c) ∧
    |J.val (Arith.fms p q c) - (J.val p * J.val q - J.val c)| ≤ 4 * u * (|J.val p * J.val q| + |J.val c|) + 4 * η ∧
    (J.val p * J.val q = 0 → |J.val (Arith.fms p q c) - (J.val p * J.val q - J.val c)| ≤ 4 * u * |J.val c|) := by
  have u0 := J.u_nonneg
  have η0 := J.η_nonneg
  have a1 := mul_nonneg u0 (abs_nonneg (J.val p * J.val q))
  have a2 := mul_nonneg u0 (abs_nonneg (J.val c))
  rcases J.fms_fin p q c hp hq hc with e | e
  · obtain ⟨m1, m2, m3, m4, m5⟩ := node_mul hJ hu hΩ hp hq hc h
    obtain ⟨r1, _, _, r2⟩ := J.sub_fin (p *ᶠ q) c m1 hc m2
    have r2 := r2 (hJ _) (hJ _)
    rw [e]
    refine ⟨r1, ?_, fun h0 => ?_⟩
    · have t1 := abs_sub_le (J.val ((p *ᶠ q) -ᶠ c)) (J.val (p *ᶠ q) - J.val c) (J.val p * J.val q - J.val c)
      have t2 : |J.val (p *ᶠ q) - J.val c - (J.val p * J.val q - J.val c)| = |J.val (p *ᶠ q) - J.val p * J.val q| := by
        congr 1; ring
      have t3 := mul_le_mul_of_nonneg_left m4 u0
      have t4 : u * η ≤ 1 / 16 * η := mul_le_mul_of_nonneg_right hu η0
      nlinarith
    · rw [m5 h0] at r2
      rw [h0]
      simp only [abs_zero, zero_add] at r2 ⊢
      linarith
  · obtain ⟨r1, _, r2, r3⟩ := e (by linarith [abs_nonneg (J.val p * J.val q), abs_nonneg (J.val c)])
    exact ⟨r1, by linarith, fun h0 => (r3 h0).trans (by linarith)⟩

theorem node_fnma : J.fin (Arith.fnma p q c) ∧
    |J.val (Arith.fnma p q c) - (J.val c - J.val p * J.val q)| ≤ 4 * u * (|J.val p * J.val q| + |J.val c|) + 4 * η ∧
    (J.val p * J.val q = 0 → |J.val (Arith.fnma p q c) - (J.val c - J.val p * J.val q)| ≤ 4 * u * |J.val c|) := by
  have u0 := J.u_nonneg
  have η0 := J.η_nonneg
  have a1 := mul_nonneg u0 (abs_nonneg (J.val p * J.val q))
  have a2 := mul_nonneg u0 (abs_nonneg (J.val c))
  rcases J.fnma_fin p q c hp hq hc with e | e
  · obtain ⟨m1, m2, m3, m4, m5⟩ := node_mul hJ hu hΩ hp hq hc h
    obtain ⟨r1, _, _, r2⟩ := J.sub_fin c (p *ᶠ q) hc m1 (by linarith)
    have r2 := r2 (hJ _) (hJ _)
    rw [e]
    refine ⟨r1, ?_, fun h0 => ?_⟩
    · have t1 := abs_sub_le (J.val (c -ᶠ (p *ᶠ q))) (J.val c - J.val (p *ᶠ q)) (J.val c - J.val p * J.val q)
      have t2 : |J.val c - J.val (p *ᶠ q) - (J.val c - J.val p * J.val q)| = |J.val (p *ᶠ q) - J.val p * J.val q| := by
        rw [← abs_neg]; congr 1; ring
      have t3 := mul_le_mul_of_nonneg_left m4 u0
      have t4 : u * η ≤ 1 / 16 * η := mul_le_mul_of_nonneg_right hu η0
      nlinarith
    · rw [m5 h0] at r2
      rw [h0]
      simp only [abs_zero, add_zero] at r2 ⊢
      linarith
  · obtain ⟨r1, _, r2, r3⟩ := e (by linarith [abs_nonneg (J.val p * J.val q), abs_nonneg (J.val c)])
    exact ⟨r1, by linarith, fun h0 => (r3 h0).trans (by linarith)⟩

end

/-- The compiled code keeps within range, with rounding and underflow errors at most four times those of the arithmetic. -/
def fusedFin {u η Ω : ℝ} (J : FinModel F u η Ω) (hJ : ∀ a, ¬ J.prod a) (hu : u ≤ 1 / 16) (hΩ : 1 ≤ Ω) (pol : Ex Unit → Fusing) :
    FinModel (Fused F pol) (4 * u) (4 * η) (Ω / 2) where
  val a := J.val a.dbl
  fin a := a.fin J
  prod a := a.prod J
  u_nonneg := by linarith [J.u_nonneg]
  η_nonneg := by linarith [J.η_nonneg]
  η_le := by linarith [J.η_le]
  zero_fin := ⟨J.zero_fin, fun _ _ _ k => nomatch k⟩
  zero_val := J.zero_val
  zero_prod := fun ⟨_, _, _, k, _⟩ => nomatch k
  neg_fin a h := ⟨J.neg_fin _ h.1, fun s p q k => by
    obtain ⟨h1, h2, h3, h4⟩ := h.2 _ p q (Fused.pend_neg k)
    refine ⟨h1, h2, h3, ?_⟩
    rw [Fused.dbl_neg, J.neg_val, h4]
    cases s <;> simp [sgB]⟩
  neg_val a := J.neg_val a.dbl
  neg_prod a := fun ⟨s, p, q, k, h⟩ => ⟨_, p, q, Fused.pend_neg k, h⟩
  add_fin a b ha hb h := by
    have u0 := J.u_nonneg
    have η0 := J.η_nonneg
    have key := Fused.add_cases (fun v => J.fin v ∧
      |J.val v - (J.val a.dbl + J.val b.dbl)| ≤ 4 * u * (|J.val a.dbl| + |J.val b.dbl|) + 4 * η ∧
      (¬ a.prod J → ¬ b.prod J → |J.val v - (J.val a.dbl + J.val b.dbl)| ≤ 4 * u * (|J.val a.dbl| + |J.val b.dbl|))) a b ?_ ?_ ?_ ?_ ?_
    · exact ⟨⟨key.1, fun _ _ _ k => nomatch k⟩, (fun ⟨_, _, _, k, _⟩ => nomatch k), key.2.1, key.2.2⟩
    · have hm : u * (|J.val a.dbl| + |J.val b.dbl|) ≤ 4 * u * (|J.val a.dbl| + |J.val b.dbl|) :=
        mul_le_mul_of_nonneg_right (by linarith) (by positivity)
      obtain ⟨r1, _, _, r2⟩ := J.add_fin _ _ ha.1 hb.1 (by linarith)
      have r2 := (r2 (hJ _) (hJ _)).trans hm
      exact ⟨r1, by linarith, fun _ _ => r2⟩
    · intro p q k
      obtain ⟨hp, hq, hl, k2⟩ := ha.2 _ p q k
      rw [sgB, if_neg Bool.false_ne_true, one_mul] at k2
      rw [k2] at h ⊢
      obtain ⟨r1, r2, r3⟩ := fuse_fma hJ hu hΩ hp hq hb.1 hl h
      exact ⟨r1, r2, fun na _ => r3 (not_not.mp fun e => na ⟨_, p, q, k, e⟩)⟩
    · intro p q k
      obtain ⟨hp, hq, hl, k2⟩ := ha.2 _ p q k
      rw [sgB, if_pos rfl, neg_one_mul] at k2
      rw [k2, abs_neg] at h
      rw [k2, abs_neg, show -J.val (p *ᶠ q) + J.val b.dbl = J.val b.dbl - J.val (p *ᶠ q) by ring]
      obtain ⟨r1, r2, r3⟩ := fuse_fnma hJ hu hΩ hp hq hb.1 hl h
      exact ⟨r1, r2, fun na _ => r3 (not_not.mp fun e => na ⟨_, p, q, k, e⟩)⟩
    · intro p q k
      obtain ⟨hp, hq, hl, k2⟩ := hb.2 _ p q k
      rw [sgB, if_neg Bool.false_ne_true, one_mul] at k2
      rw [k2, add_comm] at h
      rw [k2, add_comm (J.val a.dbl), add_comm |J.val a.dbl|]
      obtain ⟨r1, r2, r3⟩ := fuse_fma hJ hu hΩ hp hq ha.1 hl h
      exact ⟨r1, r2, fun _ nb => r3 (not_not.mp fun e => nb ⟨_, p, q, k, e⟩)⟩
    · intro p q k
      obtain ⟨hp, hq, hl, k2⟩ := hb.2 _ p q k
      rw [sgB, if_pos rfl, neg_one_mul] at k2
      rw [k2, abs_neg, add_comm] at h
      rw [k2, abs_neg, ← sub_eq_add_neg, add_comm |J.val a.dbl|]
      obtain ⟨r1, r2, r3⟩ := fuse_fnma hJ hu hΩ hp hq ha.1 hl h
      exact ⟨r1, r2, fun _ nb => r3 (not_not.mp fun e => nb ⟨_, p, q, k, e⟩)⟩
  sub_fin a b ha hb h := by
    have u0 := J.u_nonneg
    have η0 := J.η_nonneg
    have key := Fused.sub_cases (fun v => J.fin v ∧
      |J.val v - (J.val a.dbl - J.val b.dbl)| ≤ 4 * u * (|J.val a.dbl| + |J.val b.dbl|) + 4 * η ∧
      (¬ a.prod J → ¬ b.prod J → |J.val v - (J.val a.dbl - J.val b.dbl)| ≤ 4 * u * (|J.val a.dbl| + |J.val b.dbl|))) a b ?_ ?_ ?_ ?_ ?_
    · exact ⟨⟨key.1, fun _ _ _ k => nomatch k⟩, (fun ⟨_, _, _, k, _⟩ => nomatch k), key.2.1, key.2.2⟩
    · have hm : u * (|J.val a.dbl| + |J.val b.dbl|) ≤ 4 * u * (|J.val a.dbl| + |J.val b.dbl|) :=
        mul_le_mul_of_nonneg_right (by linarith) (by positivity)
      obtain ⟨r1, _, _, r2⟩ := J.sub_fin _ _ ha.1 hb.1 (by linarith)
      have r2 := (r2 (hJ _) (hJ _)).trans hm
      exact ⟨r1, by linarith, fun _ _ => r2⟩
    · intro p q k
      obtain ⟨hp, hq, hl, k2⟩ := ha.2 _ p q k
      rw [sgB, if_neg Bool.false_ne_true, one_mul] at k2
      rw [k2] at h ⊢
      obtain ⟨r1, r2, r3⟩ := fuse_fms hJ hu hΩ hp hq hb.1 hl h
      exact ⟨r1, r2, fun na _ => r3 (not_not.mp fun e => na ⟨_, p, q, k, e⟩)⟩
    · intro p q k
      obtain ⟨hp, hq, hl, k2⟩ := ha.2 _ p q k
      rw [sgB, if_pos rfl, neg_one_mul] at k2
      rw [k2, abs_neg] at h
      rw [k2, abs_neg, J.neg_val, show ∀ x : ℝ, -x - (-J.val (p *ᶠ q) - J.val b.dbl) = -(x - (J.val (p *ᶠ q) + J.val b.dbl)) from
        fun x => by ring, abs_neg]
      obtain ⟨r1, r2, r3⟩ := fuse_fma hJ hu hΩ hp hq hb.1 hl h
      exact ⟨J.neg_fin _ r1, r2, fun na _ => r3 (not_not.mp fun e => na ⟨_, p, q, k, e⟩)⟩
    · intro p q k
      obtain ⟨hp, hq, hl, k2⟩ := hb.2 _ p q k
      rw [sgB, if_neg Bool.false_ne_true, one_mul] at k2
      rw [k2, add_comm] at h
      rw [k2, add_comm |J.val a.dbl|]
      obtain ⟨r1, r2, r3⟩ := fuse_fnma hJ hu hΩ hp hq ha.1 hl h
      exact ⟨r1, r2, fun _ nb => r3 (not_not.mp fun e => nb ⟨_, p, q, k, e⟩)⟩
    · intro p q k
      obtain ⟨hp, hq, hl, k2⟩ := hb.2 _ p q k
      rw [sgB, if_pos rfl, neg_one_mul] at k2
      rw [k2, abs_neg, add_comm] at h
      rw [k2, abs_neg, sub_neg_eq_add, add_comm (J.val a.dbl), add_comm |J.val a.dbl|]
      obtain ⟨r1, r2, r3⟩ := fuse_fma hJ hu hΩ hp hq ha.1 hl h
      exact ⟨r1, r2, fun _ nb => r3 (not_not.mp fun e => nb ⟨_, p, q, k, e⟩)⟩
  mul_fin a b ha hb h := by
    have u0 := J.u_nonneg
    have η0 := J.η_nonneg
    have h' : |J.val a.dbl * J.val b.dbl| ≤ Ω := by linarith
    obtain ⟨r1, r2, r3⟩ := J.mul_fin _ _ ha.1 hb.1 h'
    refine ⟨⟨r1, fun s p q k => ?_⟩, ?_, fun h0 => ⟨(r3 h0).1, fun ⟨s, p, q, k, hne⟩ => ?_⟩⟩
    · obtain ⟨rfl, rfl, rfl⟩ := Fused.pend_mul k
      refine ⟨ha.1, hb.1, h', ?_⟩
      rw [sgB, if_neg Bool.false_ne_true, one_mul]; rfl
    · refine r2.trans ?_
      have := mul_nonneg u0 (abs_nonneg (J.val a.dbl * J.val b.dbl))
      linarith
    · obtain ⟨rfl, rfl, rfl⟩ := Fused.pend_mul k
      exact hne h0
  fma_fin a b c ha hb hc := by
    refine .inr fun h => ?_
    have u0 := J.u_nonneg
    have η0 := J.η_nonneg
    have hp : |J.val a.dbl * J.val b.dbl| ≤ Ω := by linarith [abs_nonneg (J.val c.dbl), abs_nonneg (J.val a.dbl * J.val b.dbl)]
    obtain ⟨r1, r2, r3⟩ := node_fma hJ hu hΩ ha.1 hb.1 hc.1 h
    exact ⟨⟨r1, fun _ _ _ k => nomatch k⟩, (fun ⟨_, _, _, k, _⟩ => nomatch k), r2, r3⟩
  fms_fin a b c ha hb hc := by
    refine .inr fun h => ?_
    have u0 := J.u_nonneg
    have η0 := J.η_nonneg
    have hp : |J.val a.dbl * J.val b.dbl| ≤ Ω := by linarith [abs_nonneg (J.val c.dbl), abs_nonneg (J.val a.dbl * J.val b.dbl)]
    obtain ⟨r1, r2, r3⟩ := node_fms hJ hu hΩ ha.1 hb.1 hc.1 h
    exact ⟨⟨r1, fun _ _ _ k => nomatch k⟩, (fun ⟨_, _, _, k, _⟩ => nomatch k), r2, r3⟩
  fnma_fin a b c ha hb hc := by
    refine .inr fun h => ?_
    have u0 := J.u_nonneg
    have η0 := J.η_nonneg
    have hp : |J.val a.dbl * J.val b.dbl| ≤ Ω := by linarith [abs_nonneg (J.val c.dbl), abs_nonneg (J.val a.dbl * J.val b.dbl)]
    obtain ⟨r1, r2, r3⟩ := node_fnma hJ hu hΩ ha.1 hb.1 hc.1 h
    exact ⟨⟨r1, fun _ _ _ k => nomatch k⟩, (fun ⟨_, _, _, k, _⟩ => nomatch k), r2, r3⟩

end Haxx
