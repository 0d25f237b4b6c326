import Verif.Fortran
import Verif.FortranLemmas
import Verif.Spec

/-!
# 32-bit index arithmetic in the Fortran routines: relating the checked and the unchecked model

The Fortran routines declare their index variables `INTEGER*4`.  `FHblas1`, `FGer`, `FGemv??` and `FUtil` compute
positions in unbounded integers; the generated modules `F32Hblas1`, `F32Ger`, `F32Gemv??`, `F32Util` (`tools/gen_f32.py`)
repeat these routines with every integer addition, subtraction and multiplication going through `i32`, which fails
on overflow.  `Eq32` is the relation used to show that the two agree.
-/

set_option linter.unusedSectionVars false

namespace Haxx

section
variable {F α β σ : Type}

/-- The two programs have the same outcome in every memory, and values returned satisfy `Q`. -/
def Eq32 (p q : Prog F α) (Q : α → Prop) : Prop := ∀ m, p m = q m ∧ ∀ a m', q m = .ok (a, m') → Q a

theorem Eq32.mono {p q : Prog F α} {Q Q' : α → Prop} (h : Eq32 p q Q) (hq : ∀ a, Q a → Q' a) : Eq32 p q Q' :=
  fun m => ⟨(h m).1, fun a m' e => hq a ((h m).2 a m' e)⟩

theorem Eq32.eq {p q : Prog F α} {Q : α → Prop} (h : Eq32 p q Q) : p = q := funext fun m => (h m).1

theorem eq32_refl (p : Prog F α) : Eq32 p p (fun _ => True) := fun _ => ⟨rfl, fun _ _ _ => trivial⟩

theorem eq32_pure {a : α} {Q : α → Prop} (h : Q a) : Eq32 (pure a : Prog F α) (pure a) Q :=
  fun m => ⟨rfl, fun a' m' e => by cases e; exact h⟩

theorem eq32_bind {p q : Prog F α} {f g : α → Prog F β} {P : α → Prop} {Q : β → Prop} (h : Eq32 p q P)
    (hf : ∀ a, P a → Eq32 (f a) (g a) Q) : Eq32 (p >>= f) (q >>= g) Q := by
  intro m
  obtain ⟨h1, h2⟩ := h m
  cases hq : q m with
  | error e => rw [bind_error (h1.trans hq), bind_error hq]; exact ⟨rfl, fun a m' e => by cases e⟩
  | ok r =>
    obtain ⟨a, m1⟩ := r
    rw [bind_ok (h1.trans hq), bind_ok hq]
    exact hf a (h2 a m1 hq) m1

theorem eq32_seq {p q : Prog F α} {f g : α → Prog F β} {Q : β → Prop} (h : Eq32 p q (fun _ => True))
    (hf : ∀ a, Eq32 (f a) (g a) Q) : Eq32 (p >>= f) (q >>= g) Q :=
  eq32_bind h fun a _ => hf a

theorem eq32_same {p : Prog F α} {f g : α → Prog F β} {Q : β → Prop}
    (hf : ∀ a, Eq32 (f a) (g a) Q) : Eq32 (p >>= f) (p >>= g) Q :=
  eq32_bind (eq32_refl p) fun a _ => hf a

theorem eq32_ite {c : Prop} [Decidable c] {p q p' q' : Prog F α} {Q : α → Prop} (h : c → Eq32 p p' Q) (h' : ¬ c → Eq32 q q' Q) :
    Eq32 (if c then p else q) (if c then p' else q') Q := by
  split
  · exact h ‹_›
  · exact h' ‹_›

/-- A checked computation that does not overflow. -/
theorem eq32_i32 {x : Int} {f : Int → Prog F β} {q : Prog F β} {Q : β → Prop} (hx : Fits32 x) (h : Eq32 (f x) q Q) :
    Eq32 (i32 x >>= f) q Q := by
  have : (i32 x >>= f) = f x := by
    unfold i32 Fits32 at *
    rw [if_pos hx]
    rfl
  rw [this]; exact h

/-- The same at the end of a block. -/
theorem eq32_last {x : Int} {Q : Int → Prop} (hx : Fits32 x) (h : Q x) : Eq32 (i32 x : Prog F Int) (pure x) Q := by
  have : (i32 x : Prog F Int) = pure x := by
    unfold i32 Fits32 at *
    rw [if_pos hx]
  rw [this]; exact eq32_pure h

/-- `(IF (c) THEN v = a ELSE v = b)` followed by the rest. -/
theorem eq32_start {c : Prop} [Decidable c] {a b : α} {p p' : Prog F α} {f g : α → Prog F β} {Q : β → Prop}
    (h1 : c → Eq32 p (pure a) (fun r => r = a)) (h2 : ¬ c → Eq32 p' (pure b) (fun r => r = b))
    (h : Eq32 (f (if c then a else b)) (g (if c then a else b)) Q) :
    Eq32 ((if c then p else p') >>= f) ((if c then pure a else pure b : Prog F α) >>= g) Q := by
  split
  · rw [if_pos ‹_›] at h; exact eq32_bind (h1 ‹_›) fun _ e => by rw [e]; exact h
  · rw [if_neg ‹_›] at h; exact eq32_bind (h2 ‹_›) fun _ e => by rw [e]; exact h

/-- The same, one branch at a time. -/
theorem eq32_cases {c : Prop} [Decidable c] {a b : α} {f g : α → Prog F β} {Q : β → Prop}
    (h1 : c → Eq32 (f a) (g a) Q) (h2 : ¬ c → Eq32 (f b) (g b) Q) :
    Eq32 ((if c then pure a else pure b : Prog F α) >>= f) ((if c then pure a else pure b : Prog F α) >>= g) Q := by
  split
  · exact h1 ‹_›
  · exact h2 ‹_›

theorem eq32_foldI {n : Nat} {f g : Nat → σ → Prog F σ} {s : σ} (I : Nat → σ → Prop) (h0 : I 0 s)
    (hs : ∀ i t, i < n → I i t → Eq32 (f i t) (g i t) (I (i+1))) : Eq32 (foldN n f s) (foldN n g s) (I n) := by
  induction n with
  | zero => exact eq32_pure h0
  | succ n ih =>
    exact eq32_bind (ih fun i t hi => hs i t (by omega)) fun a ha => hs n a (by omega) ha

theorem eq32_fold {n : Nat} {f g : Nat → σ → Prog F σ} {s : σ}
    (hs : ∀ i t, i < n → Eq32 (f i t) (g i t) (fun _ => True)) : Eq32 (foldN n f s) (foldN n g s) (fun _ => True) :=
  eq32_foldI (fun _ _ => True) trivial fun i t hi _ => hs i t hi

/-- A loop that carries a position `g s` and advances it by `d`. -/
theorem eq32_foldP {n : Nat} {f f' : Nat → σ → Prog F σ} {s : σ} (g : σ → Int) (d : Int)
    (hs : ∀ i t, i < n → g t = g s + (i:Int) * d → Eq32 (f' i t) (f i t) (fun r => g r = g t + d)) :
    Eq32 (foldN n f' s) (foldN n f s) (fun _ => True) := by
  refine (eq32_foldI (fun i t => g t = g s + (i:Int) * d) (by simp) ?_).mono fun _ _ => trivial
  intro i t hi ht
  refine (hs i t hi ht).mono fun r hr => ?_
  rw [hr, ht]; push_cast; ring

/-- A loop that carries two positions. -/
theorem eq32_foldP2 {n : Nat} {f f' : Nat → σ → Prog F σ} {s : σ} (g g' : σ → Int) (d d' : Int)
    (hs : ∀ i t, i < n → g t = g s + (i:Int) * d → g' t = g' s + (i:Int) * d' →
      Eq32 (f' i t) (f i t) (fun r => g r = g t + d ∧ g' r = g' t + d')) :
    Eq32 (foldN n f' s) (foldN n f s) (fun _ => True) := by
  refine (eq32_foldI (fun i t => g t = g s + (i:Int) * d ∧ g' t = g' s + (i:Int) * d') (by simp) ?_).mono fun _ _ => trivial
  intro i t hi ht
  refine (hs i t hi ht.1 ht.2).mono fun r hr => ?_
  rw [hr.1, hr.2, ht.1, ht.2]; push_cast
  constructor <;> ring

theorem eq32_forN {n : Nat} {f g : Nat → Prog F Unit}
    (hs : ∀ i, i < n → Eq32 (f i) (g i) (fun _ => True)) : Eq32 (forN n f) (forN n g) (fun _ => True) :=
  eq32_fold (fun i _ hi => hs i hi)

end

/-- A vector of (up to) `n` elements with increment `INC` whose last element, and the position after it, have 32-bit
indices. -/
structure VFit (n INC : Int) : Prop where
  n0 : 0 ≤ n
  n1 : n ≤ 2147483647
  inc : |INC| ≤ 2147483647
  ext : n * |INC| + 1 ≤ 2147483647

section
variable {n INC : Int} (h : VFit n INC)
include h

theorem VFit.bound {k : Int} (h0 : -n ≤ k) (h1 : k ≤ n) : -2147483646 ≤ k * INC ∧ k * INC ≤ 2147483646 := by
  have h2 : |k * INC| ≤ n * |INC| := by
    rw [abs_mul]
    exact mul_le_mul_of_nonneg_right (abs_le.2 ⟨by omega, h1⟩) (abs_nonneg _)
  have h3 := abs_le.1 (h2.trans (show n * |INC| ≤ 2147483646 by have := h.ext; omega))
  exact ⟨h3.1, h3.2⟩

theorem VFit.lo {k : Int} (h0 : -1 ≤ k) (h1 : k ≤ n) : -2147483647 ≤ k * INC ∧ k * INC ≤ 2147483647 := by
  by_cases hk : k = -1
  · subst hk
    have := abs_le.1 h.inc
    constructor <;> omega
  · have := h.bound (k := k) (by have := h.n0; omega) h1
    omega

variable {l : Int} (l0 : 0 ≤ l) (l1 : l ≤ n)
include l0 l1

theorem VFit.pred : Fits32 (l - 1) := by have := h.n1; unfold Fits32; omega
theorem VFit.predMul : Fits32 ((l - 1) * INC) := by
  have := h.lo (k := l - 1) (by omega) (by omega); unfold Fits32; omega
theorem VFit.start (hc : ¬ (decide (INC > 0) = true)) : Fits32 (1 - (l - 1) * INC) := by
  rw [decide_eq_true_eq] at hc
  unfold Fits32
  by_cases hl : l = 0
  · subst hl
    have := abs_le.1 h.inc
    omega
  · have := h.bound (k := l - 1) (by omega) (by omega)
    omega
theorem VFit.neg : Fits32 (-l) := by have := h.n1; unfold Fits32; omega
theorem VFit.neg1 : Fits32 ((-l) + 1) := by have := h.n1; unfold Fits32; omega
theorem VFit.negMul (hl : 0 < l) : Fits32 (((-l) + 1) * INC) := by
  have := h.bound (k := (-l) + 1) (by omega) (by omega); unfold Fits32; omega
theorem VFit.start' (hl : 0 < l) : Fits32 (((-l) + 1) * INC + 1) := by
  have := h.bound (k := (-l) + 1) (by omega) (by omega); unfold Fits32; omega

/-- The increment of a position, level-2 routines. -/
theorem VFit.step {p : Int} {i : Nat} {l' : Int} (l2 : l' ≤ n) (hl : 0 < l)
    (hp : p = (if decide (INC > 0) = true then 1 else 1 - (l - 1) * INC) + (i:Int) * INC) (hi : i < l'.toNat) :
    Fits32 (p + INC) := by
  have hb := h.bound (k := (i:Int) + 1) (by omega) (by omega)
  have e : ((i:Int) + 1) * INC = (i:Int) * INC + INC := by ring
  rw [e] at hb
  subst hp
  unfold Fits32
  split
  · rename_i c
    rw [decide_eq_true_eq] at c
    omega
  · rename_i c
    rw [decide_eq_true_eq] at c
    have h3 := h.bound (k := l - 1) (by omega) (by omega)
    have h4 : (l - 1) * INC ≤ 0 := mul_nonpos_of_nonneg_of_nonpos (by omega) (by omega)
    have h5 : (i:Int) * INC ≤ 0 := mul_nonpos_of_nonneg_of_nonpos (by omega) (by omega)
    omega

/-- The increment of a position, level-1 routines. -/
theorem VFit.step' {p : Int} {i : Nat} {l' : Int} (l2 : l' ≤ n) (hl : 0 < l)
    (hp : p = (if decide (INC < 0) = true then ((-l) + 1) * INC + 1 else 1) + (i:Int) * INC) (hi : i < l'.toNat) :
    Fits32 (p + INC) := by
  have hb := h.bound (k := (i:Int) + 1) (by omega) (by omega)
  have e : ((i:Int) + 1) * INC = (i:Int) * INC + INC := by ring
  rw [e] at hb
  subst hp
  unfold Fits32
  split
  · rename_i c
    rw [decide_eq_true_eq] at c
    have h3 := h.bound (k := (-l) + 1) (by omega) (by omega)
    have h4 : 0 ≤ ((-l) + 1) * INC := mul_nonneg_of_nonpos_of_nonpos (by omega) (by omega)
    have h5 : (i:Int) * INC ≤ 0 := mul_nonpos_of_nonneg_of_nonpos (by omega) (by omega)
    omega
  · omega

end

end Haxx
