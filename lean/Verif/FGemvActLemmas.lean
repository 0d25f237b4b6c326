import Verif.FGemvLemmas
import Mathlib.Tactic.Ring

/-!
# What the Fortran GEMVs really do: shared definitions and lemmas
-/

set_option linter.unusedSectionVars false

namespace Haxx
open Arith Quaternion Finset

section
variable {F : Type}

/-- An update of the first `l` of `n` disjoint elements, after one of all of them. -/
theorem Upd.chain {K : Mem F → Prop} {addr : Nat → Int} {n l : Nat} {m0 m1 m2 : Mem F} {c1 c2 : Nat → Quat F} (hl : l ≤ n)
    (hd : ∀ i j, i < n → j < n → i ≠ j → QDisj (addr i) (addr j)) (h1 : Upd K addr n m0 c1 m1) (h2 : Upd K addr l m1 c2 m2) :
    Upd K addr n m0 (fun i => if i < l then c2 i else c1 i) m2 where
  cur := by
    intro i hi
    by_cases hil : i < l
    · rw [if_pos hil]; exact h2.cur i hil
    · rw [if_neg hil, readQ_congr (m' := m1)]
      · exact h1.cur i hi
      · intro a ha
        refine h2.out a fun j hj hin => ?_
        have h := hd i j hi (by omega) (by omega)
        unfold QDisj at h; unfold InQ at ha hin; omega
  k := h2.k
  out := by
    intro a ha
    rw [h2.out a fun i hi => ha i (by omega)]
    exact h1.out a ha

theorem Upd.start {K : Mem F → Prop} {addr : Nat → Int} {n l : Nat} {m0 m : Mem F} {c : Nat → Quat F} (hl : l ≤ n)
    (h : Upd K addr n m0 c m) : Upd K addr l m c m :=
  ⟨fun i hi => h.cur i (by omega), h.k, fun _ _ => rfl⟩

end

section
variable {R : Type} [CommRing R]

/-- Strided y, TRANS = 'N', quaternion ALPHA: what the code adds on top of the right result for one
product. -/
def gemvErr (α a x : Quat R) : ℍ[R] :=
  ⟨0, 0, (a.hi *ᶜ (Cplx.conj α.lo *ᶜ x.lo -ᶜ α.lo *ᶜ Cplx.conj x.lo)).re,
    (a.hi *ᶜ (Cplx.conj α.lo *ᶜ x.lo -ᶜ α.lo *ᶜ Cplx.conj x.lo)).im⟩
theorem gemvErr_re (α a x : Quat R) : (gemvErr α a x).re = 0 := rfl
theorem gemvErr_imI (α a x : Quat R) : (gemvErr α a x).imI = 0 := rfl
theorem gemvErr_imJ (α a x : Quat R) : (gemvErr α a x).imJ =
    (a.hi *ᶜ (Cplx.conj α.lo *ᶜ x.lo -ᶜ α.lo *ᶜ Cplx.conj x.lo)).re := rfl
theorem gemvErr_imK (α a x : Quat R) : (gemvErr α a x).imK =
    (a.hi *ᶜ (Cplx.conj α.lo *ᶜ x.lo -ᶜ α.lo *ᶜ Cplx.conj x.lo)).im := rfl

/-- What the code makes of element `i` of y before anything is added: the first `L` elements are multiplied by BETA; `stuck`:
the first element is, `L` times over. -/
def gemvScaled (stuck : Prop) [Decidable stuck] (L : Nat) (be : ℍ[R]) (i : Nat) (c : ℍ[R]) : ℍ[R] :=
  if stuck then (if i = 0 then be ^ L * c else c) else if i < L then be * c else c

theorem gemvScaled_one {stuck : Prop} [Decidable stuck] {L i : Nat} {c : ℍ[R]} : gemvScaled stuck L 1 i c = c := by
  unfold gemvScaled; simp

end
end Haxx
