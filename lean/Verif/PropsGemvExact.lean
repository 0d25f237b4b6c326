import Verif.FGemvActdz
import Verif.FGemvActdh
import Verif.FGemvActzd
import Verif.FGemvActzz
import Verif.FGemvActzh
import Verif.FGemvActhd
import Verif.FGemvActhz
import Verif.FGemvActhh
import Verif.FGemvBits
import Mathlib.Tactic.LinearCombination

/-!
# Property theorems: what the Fortran GEMV does on every call, and on which calls that is right (C30)
-/

set_option linter.unusedSectionVars false
set_option linter.unusedVariables false

namespace Haxx
open Arith Quaternion Finset

instance (t : Char) : Decidable (IsT t) := by unfold IsT; infer_instance

/-- The number of elements x and y have according to the code, unless both scalars are real: `LENX`, `LENY` —
`src/hblas/fortran/hblas2/hgemvdz.f:30-36` and the same branch of the seven other kernels (not `hgemvdd.f`). -/
def codeLenX (t : Char) (M N : Int) : Int := if IsT t then N else M
@[inherit_doc codeLenX]
def codeLenY (t : Char) (M N : Int) : Int := if IsT t then M else N

section
variable {R : Type} [CommRing R] [DecidableEq R]

/-- What the strided loop of the kernels with a quaternion ALPHA adds to a product `ALPHA * (a * x)` it should not. -/
def gemvErrS (ALPHA : Scal R) (a x : Quat R) : ℍ[R] :=
  match ALPHA with
  | .h q => gemvErr q a x
  | _ => 0

/-- The scaling loop that never moves on: real ALPHA, quaternion BETA (other than 0 and 1), y not contiguous. -/
def GemvStuck (ALPHA BETA : Scal R) (INCY : Int) : Prop :=
  ALPHA.IsReal ∧ BETA.IsQuat ∧ INCY ≠ 1 ∧ BETA.toH ≠ 0

open Classical in
/-- What the code leaves in element i of y (counted from where the code begins). -/
noncomputable def gemvActual (t : Char) (M N : Int) (ALPHA BETA : Scal R) (INCY : Int) (a : Nat → Nat → Quat R)
    (op : Nat → Nat → ℍ[R]) (x y : Nat → Quat R) (i : Nat) : ℍ[R] :=
  (if i < (gemvLenY t M N).toNat then ALPHA.toH * (∑ k ∈ range (gemvLenX t M N).toNat, op i k * (x k).toH) +
    (if IsN t ∧ INCY ≠ 1 then ∑ k ∈ range (gemvLenX t M N).toNat, gemvErrS ALPHA (a i k) (x k) else 0) else 0) +
  gemvScaled (GemvStuck ALPHA BETA INCY) (codeLenY t M N).toNat BETA.toH i (y i).toH

open Classical in
theorem gemvF_act {K : Mem R → Prop} {m : Mem R} {t : Char} {M N : Int} {ALPHA BETA : Scal R}
    {A LDA X INCX Y INCY : Int} {a : Nat → Nat → Quat R} {x c : Nat → Quat R} {op : Nat → Nat → ℍ[R]} {n : Nat}
    (hr : ¬ (ALPHA.IsReal ∧ BETA.IsReal)) (hop : OpIs t a op)
    (hM : 0 < M) (hN : 0 < N) (hLYn : (gemvLenY t M N).toNat ≤ n)
    (hCYn : BETA.toH = 1 ∨ GemvStuck ALPHA BETA INCY ∨ (codeLenY t M N).toNat ≤ n)
    (hst : ∀ m (i : Nat) q, i < n → K m → K (writeQ m (vecStart Y (codeLenY t M N) INCY + 4 * ((i:Int) * INCY)) q))
    (hinc : INCY ≠ 0)
    (env : ALPHA.toH ≠ 0 → GvEnv K A LDA M.toNat N.toNat a (vecStart X (codeLenX t M N) INCX) INCX (gemvLenX t M N).toNat x
      (fun i : Nat => vecStart Y (codeLenY t M N) INCY + 4 * ((i:Int) * INCY)) n)
    (hk : K m) (hY : VecAt m (vecStart Y (codeLenY t M N) INCY) INCY n c) :
    wp (gemvF t M N ALPHA A LDA X INCX BETA Y INCY) m (fun _ m' =>
      Upd K (fun i : Nat => vecStart Y (codeLenY t M N) INCY + 4 * ((i:Int) * INCY)) n m
        (fun i => Quat.ofH (gemvActual t M N ALPHA BETA INCY a op x c i)) m') := by
  have hop' : ∀ i k, (if lsame t 'N' = true then (a i k).toH else if lsame 'T' t = true then (a k i).toH
      else star (a k i).toH) = op i k := by
    intro i k
    rcases hop with ⟨rfl | rfl, e⟩ | ⟨rfl | rfl, e⟩ | ⟨rfl | rfl, e⟩ <;> rw [e] <;> rfl
  have eLX : gemvLenX t M N = (if lsame t 'N' = true then N else M) := by
    unfold gemvLenX; simp only [lsame_IsN]
  have eLY : gemvLenY t M N = (if lsame t 'N' = true then M else N) := by
    unfold gemvLenY; simp only [lsame_IsN]
  have eCX : codeLenX t M N = (if lsame 'T' t = true then N else M) := by
    unfold codeLenX; simp only [lsame_IsT]
  have eCY : codeLenY t M N = (if lsame 'T' t = true then M else N) := by
    unfold codeLenY; simp only [lsame_IsT]
  have hdj : ∀ i j : Nat, i < n → j < n → i ≠ j →
      QDisj (vecStart Y (codeLenY t M N) INCY + 4 * ((i:Int) * INCY)) (vecStart Y (codeLenY t M N) INCY + 4 * ((j:Int) * INCY)) :=
    fun i j _ _ hne => strided_disj hinc hne
  have eact : (fun i => Quat.ofH (gemvActual t M N ALPHA BETA INCY a op x c i)) = fun i => Quat.ofH (
      (if i < (gemvLenY t M N).toNat then ALPHA.toH * (∑ k ∈ range (gemvLenX t M N).toNat, op i k * (x k).toH) +
    (if IsN t ∧ INCY ≠ 1 then ∑ k ∈ range (gemvLenX t M N).toNat, gemvErrS ALPHA (a i k) (x k) else 0) else 0) +
  gemvScaled (GemvStuck ALPHA BETA INCY) (codeLenY t M N).toNat BETA.toH i (c i).toH) := rfl
  rw [eact]
  simp only [eLX, eLY, eCX, eCY, ← lsame_IsN, ← hop', ← vecStart_eq] at *
  clear eact hop' eLX eLY eCX eCY hop
  rcases ALPHA with a' | a' | a' <;> rcases BETA with b' | b' | b'
  · exact absurd ⟨⟨_, rfl⟩, ⟨_, rfl⟩⟩ hr
  · have hs : GemvStuck (.d a') (.z b') INCY ↔ False := iff_of_false (by rintro ⟨_, ⟨_, e⟩, _⟩; cases e) not_false
    simp only [hs, gemvErrS, sum_const_zero, ite_self, add_zero] at hCYn ⊢
    exact hgemvdz_act hM hN hLYn hCYn hst hdj env hk hY
  · have hs : GemvStuck (.d a') (.h b') INCY ↔ (INCY ≠ 1 ∧ (Scal.h b').toH ≠ 0) :=
      ⟨fun h => h.2.2, fun h => ⟨⟨_, rfl⟩, ⟨_, rfl⟩, h⟩⟩
    simp only [hs, gemvErrS, sum_const_zero, ite_self, add_zero] at hCYn ⊢
    exact hgemvdh_act hM hN hLYn hCYn hst hdj env hk hY
  · have hs : GemvStuck (.z a') (.d b') INCY ↔ False := iff_of_false (by rintro ⟨⟨_, e⟩, _, _⟩; cases e) not_false
    simp only [hs, gemvErrS, sum_const_zero, ite_self, add_zero] at hCYn ⊢
    exact hgemvzd_act hM hN hLYn hCYn hst hdj env hk hY
  · have hs : GemvStuck (.z a') (.z b') INCY ↔ False := iff_of_false (by rintro ⟨⟨_, e⟩, _, _⟩; cases e) not_false
    simp only [hs, gemvErrS, sum_const_zero, ite_self, add_zero] at hCYn ⊢
    exact hgemvzz_act hM hN hLYn hCYn hst hdj env hk hY
  · have hs : GemvStuck (.z a') (.h b') INCY ↔ False := iff_of_false (by rintro ⟨⟨_, e⟩, _, _⟩; cases e) not_false
    simp only [hs, gemvErrS, sum_const_zero, ite_self, add_zero] at hCYn ⊢
    exact hgemvzh_act hM hN hLYn hCYn hst hdj env hk hY
  · have hs : GemvStuck (.h a') (.d b') INCY ↔ False := iff_of_false (by rintro ⟨⟨_, e⟩, _, _⟩; cases e) not_false
    simp only [hs, gemvErrS] at hCYn ⊢
    exact hgemvhd_act hM hN hLYn hCYn hst hdj env hk hY
  · have hs : GemvStuck (.h a') (.z b') INCY ↔ False := iff_of_false (by rintro ⟨⟨_, e⟩, _, _⟩; cases e) not_false
    simp only [hs, gemvErrS] at hCYn ⊢
    exact hgemvhz_act hM hN hLYn hCYn hst hdj env hk hY
  · have hs : GemvStuck (.h a') (.h b') INCY ↔ False := iff_of_false (by rintro ⟨⟨_, e⟩, _, _⟩; cases e) not_false
    simp only [hs, gemvErrS] at hCYn ⊢
    exact hgemvhh_act hM hN hLYn hCYn hst hdj env hk hY


/-- C30: what the Fortran GEMV does on every call (of positive sizes, with a valid flag, not both scalars real): it takes
the vectors to have `codeLenX` and `codeLenY` elements, begins where that says, multiplies so many elements of y by
BETA (the first one so many times over when `GemvStuck`), and adds to as many as y has.  `n` elements of y are given, with `n`
at least the true length, and at least the code's if BETA is not one. -/
theorem C30_every_call (m : Mem R) (t : Char) (M N : Int) (ALPHA BETA : Scal R) (A LDA X INCX Y INCY : Int)
    (a : Nat → Nat → Quat R) (x y : Nat → Quat R) (op : Nat → Nat → ℍ[R]) (n : Nat)
    (hr : ¬ (ALPHA.IsReal ∧ BETA.IsReal)) (hop : OpIs t a op) (hM : 0 < M) (hN : 0 < N)
    (hLYn : (gemvLenY t M N).toNat ≤ n) (hCYn : BETA.toH = 1 ∨ (codeLenY t M N).toNat ≤ n) (hinc : INCY ≠ 0)
    (hY : VecAt m (vecStart Y (codeLenY t M N) INCY) INCY n y)
    (hA : MatAt m A LDA M.toNat N.toNat a)
    (hX : VecAt m (vecStart X (codeLenX t M N) INCX) INCX (gemvLenX t M N).toNat x)
    (hAY : Apart (MatCell A LDA M.toNat N.toNat) (VecCell (vecStart Y (codeLenY t M N) INCY) INCY n))
    (hXY : Apart (VecCell (vecStart X (codeLenX t M N) INCX) INCX (gemvLenX t M N).toNat)
      (VecCell (vecStart Y (codeLenY t M N) INCY) INCY n)) :
    ∃ m', gemvF t M N ALPHA A LDA X INCX BETA Y INCY m = .ok ((), m') ∧
      VecAt m' (vecStart Y (codeLenY t M N) INCY) INCY n
        (fun i => Quat.ofH (gemvActual t M N ALPHA BETA INCY a op x y i)) ∧
      SameOutside (VecCell (vecStart Y (codeLenY t M N) INCY) INCY n) m m' := by
  have key := gemvF_act (K := fun m' => ∀ c, ¬ VecCell (vecStart Y (codeLenY t M N) INCY) INCY n c → m' c = m c)
    (m := m) (A := A) (LDA := LDA) (X := X) (INCX := INCX) (Y := Y) (x := x) (c := y) hr hop hM hN hLYn
    (hCYn.imp id .inr) ?_ hinc ?_ (fun _ _ => rfl) hY
  · obtain ⟨_, m', h1, h2⟩ := key
    exact ⟨m', h1, h2.cur, h2.k⟩
  · intro m' i q hi hm c hc
    rw [writeQ_other (fun hin => hc ⟨i, hi, hin⟩)]
    exact hm c hc
  · intro _
    refine ⟨?_, ?_, ?_, fun i j _ _ hne => strided_disj hinc hne⟩
    · intro m' hm i j hi hj
      rw [readQ_congr (m' := m)]
      · exact hA i j hi hj
      · intro c hc; exact hm c (hAY c ⟨i, j, hi, hj, hc⟩)
    · intro m' hm i hi
      rw [readQ_congr (m' := m)]
      · exact hX i hi
      · intro c hc; exact hm c (hXY c ⟨i, hi, hc⟩)
    · intro m' i q hi hm c hc
      rw [writeQ_other (fun hin => hc ⟨i, hi, hin⟩)]
      exact hm c hc

/-- The calls on which the Fortran GEMV is right, when not both scalars are real. -/
structure GemvExact (t : Char) (M N : Int) (ALPHA BETA : Scal R) (INCX INCY : Int) : Prop where
  scale : BETA.toH = 1 ∨
    (GemvStuck ALPHA BETA INCY ∧ gemvLenY t M N = 1 ∧ (0 < INCY ∨ codeLenY t M N = 1) ∧
      BETA.toH ^ (codeLenY t M N).toNat = BETA.toH) ∨
    (¬ GemvStuck ALPHA BETA INCY ∧ (M = N ∨ IsC t))
  startX : ALPHA.toH = 0 ∨ 0 ≤ INCX ∨ M = N ∨ IsC t
  startY : ALPHA.toH = 0 ∨ 0 < INCY ∨ M = N ∨ IsC t
  alpha : IsN t → INCY ≠ 1 → ∀ q, ALPHA = .h q → 2 * q.re = 0 ∧ 2 * q.i = 0

theorem lens_agree {t : Char} {M N : Int} (ht : IsN t ∨ IsT t ∨ IsC t) :
    (codeLenY t M N = gemvLenY t M N ↔ M = N ∨ IsC t) ∧ (codeLenX t M N = gemvLenX t M N ↔ M = N ∨ IsC t) := by
  unfold codeLenY gemvLenY codeLenX gemvLenX
  rcases ht with (rfl | rfl) | (rfl | rfl) | (rfl | rfl) <;> simp [IsN, IsT, IsC, eq_comm]

theorem OpIs.flag {t : Char} {a : Nat → Nat → Quat R} {op : Nat → Nat → ℍ[R]} (h : OpIs t a op) : IsN t ∨ IsT t ∨ IsC t := by
  rcases h with ⟨h, _⟩ | ⟨h, _⟩ | ⟨h, _⟩
  · exact .inl h
  · exact .inr (.inl h)
  · exact .inr (.inr h)

theorem gemvErr_zero {q a x : Quat R} (h : 2 * q.re = 0 ∧ 2 * q.i = 0) : gemvErr q a x = 0 := by
  ext
  · rfl
  · rfl
  · rw [gemvErr_imJ]
    simp [Quat.lo, Quat.hi]
    linear_combination (a.k * x.i) * h.1 - (a.k * x.re) * h.2
  · rw [gemvErr_imK]
    simp [Quat.lo, Quat.hi]
    linear_combination (a.j * x.i) * h.1 - (a.j * x.re) * h.2


theorem gemv_noop {m : Mem R} {t : Char} {M N : Int} {ALPHA BETA : Scal R} {A LDA X INCX Y INCY : Int}
    (h0 : ALPHA.toH = 0) (h1 : BETA.toH = 1) : gemvF t M N ALPHA A LDA X INCX BETA Y INCY m = .ok ((), m) := by
  have : wp (gemvF t M N ALPHA A LDA X INCX BETA Y INCY) m (fun _ m' => m' = m) := by
    rcases ALPHA with a' | a' | a' <;> rcases BETA with b' | b' | b'
    all_goals
      first
      | have ea := scal0_d' _ h0
      | have ea := scal0_z' _ h0
      | have ea := scal0_h' _ h0
      first
      | have eb := scal1_d' _ h1
      | have eb := scal1_z' _ h1
      | have eb := scal1_h' _ h1
    · unfold gemvF hgemvdd; dsimp only; rw [wp_ite, if_pos (by simp only [ea, eb, Bool.and_self, Bool.or_true]), wp_pure]
    · unfold gemvF hgemvdz; dsimp only; rw [wp_ite, if_pos (by simp only [ea, eb, Bool.and_self, Bool.or_true]), wp_pure]
    · unfold gemvF hgemvdh; dsimp only; rw [wp_bind, wp_lens]; dsimp only; rw [wp_ite, if_pos (by simp only [ea, eb, Bool.and_self, Bool.or_true]), wp_pure]
    · unfold gemvF hgemvzd; dsimp only; rw [wp_bind, wp_lens]; dsimp only; rw [wp_ite, if_pos (by simp only [ea, eb, Bool.and_self, Bool.or_true]), wp_pure]
    · unfold gemvF hgemvzz; dsimp only; rw [wp_bind, wp_lens]; dsimp only; rw [wp_ite, if_pos (by simp only [ea, eb, Bool.and_self, Bool.or_true]), wp_pure]
    · unfold gemvF hgemvzh; dsimp only; rw [wp_bind, wp_lens]; dsimp only; rw [wp_ite, if_pos (by simp only [ea, eb, Bool.and_self, Bool.or_true]), wp_pure]
    · unfold gemvF hgemvhd; dsimp only; rw [wp_bind, wp_lens]; dsimp only; rw [wp_ite, if_pos (by simp only [ea, eb, Bool.and_self, Bool.or_true]), wp_pure]
    · unfold gemvF hgemvhz; dsimp only; rw [wp_bind, wp_lens]; dsimp only; rw [wp_ite, if_pos (by simp only [ea, eb, Bool.and_self, Bool.or_true]), wp_pure]
    · unfold gemvF hgemvhh; dsimp only; rw [wp_bind, wp_lens]; dsimp only; rw [wp_ite, if_pos (by simp only [ea, eb, Bool.and_self, Bool.or_true]), wp_pure]
  obtain ⟨_, m', e, rfl⟩ := this
  exact e


theorem gemvActual_right {t : Char} {M N : Int} {ALPHA BETA : Scal R} {INCX INCY : Int} {a : Nat → Nat → Quat R}
    {op : Nat → Nat → ℍ[R]} {x y : Nat → Quat R} {i : Nat} (ht : IsN t ∨ IsT t ∨ IsC t)
    (hg : GemvExact t M N ALPHA BETA INCX INCY) (hi : i < (gemvLenY t M N).toNat) :
    gemvActual t M N ALPHA BETA INCY a op x y i =
      ALPHA.toH * (∑ k ∈ range (gemvLenX t M N).toNat, op i k * (x k).toH) + BETA.toH * (y i).toH := by
  unfold gemvActual
  rw [if_pos hi]
  have he : (if IsN t ∧ INCY ≠ 1 then ∑ k ∈ range (gemvLenX t M N).toNat, gemvErrS ALPHA (a i k) (x k) else 0) = 0 := by
    split
    · rename_i h
      refine sum_eq_zero fun k _ => ?_
      rcases ALPHA with q | q | q
      · rfl
      · rfl
      · exact gemvErr_zero (hg.alpha h.1 h.2 q rfl)
    · rfl
  rw [he, add_zero]
  congr 1
  rcases hg.scale with h | ⟨h1, h2, h3, h4⟩ | ⟨h1, h2⟩
  · simp [gemvScaled, h]
  · unfold gemvScaled
    have h0 : i = 0 := by omega
    simp only [h1, h0, if_true, h4]
  · unfold gemvScaled
    have h0 : i < (codeLenY t M N).toNat := by rw [(lens_agree ht).1.2 h2]; exact hi
    simp only [h1, h0, if_true, if_false]

theorem vecStart_fwd {P n n' INC : Int} (h : 0 ≤ INC) : vecStart P n INC = vecStart P n' INC := by
  unfold vecStart; rw [if_neg (by omega), if_neg (by omega)]

theorem gemvF_right (m : Mem R) (t : Char) (M N : Int) (ALPHA : Scal R) (A LDA X INCX : Int)
    (BETA : Scal R) (Y INCY : Int) (a : Nat → Nat → Quat R) (x y : Nat → Quat R) (op : Nat → Nat → ℍ[R])
    (hM : 0 < M) (hN : 0 < N) (h : GemvArgs m t M N ALPHA A LDA X INCX Y INCY a x y)
    (hop : OpIs t a op) (hr : ¬ (ALPHA.IsReal ∧ BETA.IsReal)) (hg : GemvExact t M N ALPHA BETA INCX INCY) :
    IsGemv (gemvF t M N ALPHA A LDA X INCX BETA Y INCY) m t M N ALPHA BETA Y INCY op x y := by
  have ht := hop.flag
  by_cases h01 : ALPHA.toH = 0 ∧ BETA.toH = 1
  · refine ⟨m, gemv_noop h01.1 h01.2, ?_, fun _ _ => rfl⟩
    intro i hi
    rw [h.hY i hi, h01.1, h01.2]
    refine congrArg some (eq_ofH ?_)
    simp
  have eY : vecStart Y (codeLenY t M N) INCY = vecStart Y (gemvLenY t M N) INCY := by
    have : 0 ≤ INCY ∨ codeLenY t M N = gemvLenY t M N := by
      rcases hg.startY with e | e | e
      · rcases hg.scale with e' | ⟨_, e1, e2 | e2, _⟩ | ⟨_, e'⟩
        · exact absurd ⟨e, e'⟩ h01
        · exact .inl (by omega)
        · exact .inr (by omega)
        · exact .inr ((lens_agree ht).1.2 e')
      · exact .inl (by omega)
      · exact .inr ((lens_agree ht).1.2 e)
    rcases this with e | e
    · exact vecStart_fwd e
    · rw [e]
  have eX : ALPHA.toH ≠ 0 → vecStart X (codeLenX t M N) INCX = vecStart X (gemvLenX t M N) INCX := by
    intro h0
    rcases hg.startX with e | e | e
    · exact absurd e h0
    · exact vecStart_fwd e
    · rw [(lens_agree ht).2.2 e]
  have hpos : 0 < gemvLenY t M N := by unfold gemvLenY; split <;> assumption
  have key := gemvF_act (K := fun m' => ∀ c, ¬ VecCell (vecStart Y (gemvLenY t M N) INCY) INCY (gemvLenY t M N).toNat c → m' c = m c)
    (m := m) (A := A) (LDA := LDA) (X := X) (INCX := INCX) (Y := Y) (x := x) (c := y) (ALPHA := ALPHA) (BETA := BETA)
    (INCY := INCY) (n := (gemvLenY t M N).toNat) hr hop hM hN le_rfl ?_ ?_ h.hinc ?_ (fun _ _ => rfl) (by rw [eY]; exact h.hY)
  · obtain ⟨_, m', h1, h2⟩ := key
    refine ⟨m', h1, ?_, h2.k⟩
    intro i hi
    have := h2.cur i hi
    rw [eY, gemvActual_right ht hg hi] at this
    exact this
  · rcases hg.scale with e | e | e
    · exact .inl e
    · exact .inr (.inl e.1)
    · exact .inr (.inr (by rw [(lens_agree ht).1.2 e.2]))
  · rw [eY]
    intro m' i q hi hm c hc
    rw [writeQ_other (fun hin => hc ⟨i, hi, hin⟩)]
    exact hm c hc
  · intro h0
    rw [eY, eX h0]
    exact h.env h0


/-! ### Calls that go wrong: one memory of quaternions for all of them -/

/-- Component `c mod 4` of quaternion number `c div 4`, in every cell. -/
def memQ (Q : Int → Quat R) : Mem R := fun c => some (
  if c % 4 = 0 then (Q (c / 4)).re else if c % 4 = 1 then (Q (c / 4)).i else if c % 4 = 2 then (Q (c / 4)).j else (Q (c / 4)).k)

theorem readQ_memQ (Q : Int → Quat R) (w : Int) : readQ (memQ Q) (4 * w) = some (Q w) := by
  rw [readQ_eq_some]
  unfold memQ
  rw [show (4 * w) % 4 = 0 by omega, show (4 * w) / 4 = w by omega, show (4 * w + 1) % 4 = 1 by omega,
    show (4 * w + 1) / 4 = w by omega, show (4 * w + 2) % 4 = 2 by omega, show (4 * w + 2) / 4 = w by omega,
    show (4 * w + 3) % 4 = 3 by omega, show (4 * w + 3) / 4 = w by omega]
  simp

/-- First index of a walk of `L` steps, in steps from the address given. -/
def walkOff (L INC : Int) : Int := if INC < 0 then -(L - 1) else 0

theorem vecStart_walk (w L INC : Int) (i : Nat) :
    vecStart (4 * w) L INC + 4 * ((i:Int) * INC) = 4 * (w + (walkOff L INC + i) * INC) := by
  unfold vecStart walkOff
  split <;> ring

theorem mul_bound {z D INC : Int} (h1 : -D ≤ z) (h2 : z ≤ D) : -(D * |INC|) ≤ z * INC ∧ z * INC ≤ D * |INC| := by
  have h : |z * INC| ≤ D * |INC| := by
    rw [abs_mul]; exact mul_le_mul_of_nonneg_right (abs_le.2 ⟨h1, h2⟩) (abs_nonneg _)
  exact abs_le.1 h

/-- Where the vectors of the counterexamples are, counted in quaternions. -/
def witX (M N INCX : Int) : Int := M * N + (M + N) * |INCX|
@[inherit_doc witX]
def witY (M N INCY : Int) : Int := -((M + N) * |INCY| + 1)

open Classical in
/-- If the call is right on every memory, then its effect on each of these is what it should be. -/
theorem gemv_wit {t : Char} {M N : Int} {ALPHA BETA : Scal R} {INCX INCY : Int} (hM : 0 < M) (hN : 0 < N)
    (hinc : INCY ≠ 0) (hr : ¬ (ALPHA.IsReal ∧ BETA.IsReal)) (Q : Int → Quat R) {op : Nat → Nat → ℍ[R]}
    (hop : OpIs t (fun i j => Q ((i:Int) + j * M)) op)
    (H : ∀ (m : Mem R) (A LDA X Y : Int) (a : Nat → Nat → Quat R) (x y : Nat → Quat R) (op : Nat → Nat → ℍ[R]),
      GemvArgs m t M N ALPHA A LDA X INCX Y INCY a x y → OpIs t a op →
      IsGemv (gemvF t M N ALPHA A LDA X INCX BETA Y INCY) m t M N ALPHA BETA Y INCY op x y) (z : Int)
    (hz1 : -(M + N) ≤ z) (hz2 : z ≤ M + N) :
    (if 0 ≤ z - walkOff (codeLenY t M N) INCY ∧ z - walkOff (codeLenY t M N) INCY < max M N then
      gemvActual t M N ALPHA BETA INCY (fun i j => Q ((i:Int) + j * M)) op
        (fun k => Q (witX M N INCX + (walkOff (codeLenX t M N) INCX + k) * INCX))
        (fun i => Q (witY M N INCY + (walkOff (codeLenY t M N) INCY + i) * INCY)) (z - walkOff (codeLenY t M N) INCY).toNat
      else (Q (witY M N INCY + z * INCY)).toH) =
    (if 0 ≤ z - walkOff (gemvLenY t M N) INCY ∧ z - walkOff (gemvLenY t M N) INCY < gemvLenY t M N then
      ALPHA.toH * (∑ k ∈ range (gemvLenX t M N).toNat, op (z - walkOff (gemvLenY t M N) INCY).toNat k *
        (Q (witX M N INCX + (walkOff (gemvLenX t M N) INCX + k) * INCX)).toH) + BETA.toH * (Q (witY M N INCY + z * INCY)).toH
      else (Q (witY M N INCY + z * INCY)).toH) := by
  have bX : ∀ z : Int, -(M + N) ≤ z → z ≤ M + N → M * N ≤ witX M N INCX + z * INCX := by
    intro z h1 h2
    have := (mul_bound (INC := INCX) h1 h2).1
    unfold witX; omega
  have bY : ∀ z : Int, -(M + N) ≤ z → z ≤ M + N → witY M N INCY + z * INCY < 0 := by
    intro z h1 h2
    have := (mul_bound (INC := INCY) h1 h2).2
    unfold witY; omega
  have offb : ∀ L INC : Int, 0 < L → L ≤ max M N → -(max M N - 1) ≤ walkOff L INC ∧ walkOff L INC ≤ 0 := by
    intro L INC h1 h2
    unfold walkOff; split <;> omega
  have lY : 0 < gemvLenY t M N ∧ gemvLenY t M N ≤ max M N := by unfold gemvLenY; split <;> omega
  have lX : 0 < gemvLenX t M N ∧ gemvLenX t M N ≤ max M N := by unfold gemvLenX; split <;> omega
  have cY : 0 < codeLenY t M N ∧ codeLenY t M N ≤ max M N := by unfold codeLenY; split <;> omega
  have cX : 0 < codeLenX t M N ∧ codeLenX t M N ≤ max M N := by unfold codeLenX; split <;> omega
  have olY := offb _ INCY lY.1 lY.2
  have olX := offb _ INCX lX.1 lX.2
  have ocY := offb _ INCY cY.1 cY.2
  have ocX := offb _ INCX cX.1 cX.2
  have aA : ∀ c, MatCell 0 M M.toNat N.toNat c → 0 ≤ c := by
    rintro c ⟨i, j, hi, hj, h, _⟩
    have : 0 ≤ (j:Int) * M := by positivity
    omega
  have aX : ∀ z : Int, -(M + N) ≤ z → z ≤ M + N → ∀ c, InQ (4 * (witX M N INCX + z * INCX)) c → 0 ≤ c := by
    intro z h1 h2 c hc
    have := bX z h1 h2
    have h0 : 0 < M * N := by positivity
    unfold InQ at hc; omega
  have aY : ∀ z : Int, -(M + N) ≤ z → z ≤ M + N → ∀ c, InQ (4 * (witY M N INCY + z * INCY)) c → c < 0 := by
    intro z h1 h2 c hc
    have := bY z h1 h2
    unfold InQ at hc; omega
  have rA : MatAt (memQ Q) 0 M M.toNat N.toNat (fun i j => Q ((i:Int) + j * M)) := by
    intro i j _ _
    rw [zero_add]; exact readQ_memQ Q _
  have hargs : GemvArgs (memQ Q) t M N ALPHA 0 M (4 * witX M N INCX) INCX (4 * witY M N INCY) INCY
      (fun i j => Q ((i:Int) + j * M)) (fun k => Q (witX M N INCX + (walkOff (gemvLenX t M N) INCX + k) * INCX))
      (fun i => Q (witY M N INCY + (walkOff (gemvLenY t M N) INCY + i) * INCY)) := by
    refine ⟨hinc, ?_, fun _ => rA, ?_, ?_, ?_⟩
    · intro i _; rw [vecStart_walk]; exact readQ_memQ Q _
    · intro _ i _; rw [vecStart_walk]; exact readQ_memQ Q _
    · rintro _ c hc ⟨i, hi, hin⟩
      rw [vecStart_walk] at hin
      have := aA c hc
      have := aY _ (by omega) (by omega) c hin
      omega
    · rintro _ c ⟨j, hj, hjn⟩ ⟨i, hi, hin⟩
      rw [vecStart_walk] at hin hjn
      have := aX _ (by omega) (by omega) c hjn
      have := aY _ (by omega) (by omega) c hin
      omega
  obtain ⟨m', h1, h2, h3⟩ := H _ _ _ _ _ _ _ _ op hargs hop
  obtain ⟨m'', h1', h2', h3'⟩ := C30_every_call (memQ Q) t M N ALPHA BETA 0 M (4 * witX M N INCX) INCX (4 * witY M N INCY) INCY
    (fun i j => Q ((i:Int) + j * M)) (fun k => Q (witX M N INCX + (walkOff (codeLenX t M N) INCX + k) * INCX))
    (fun i => Q (witY M N INCY + (walkOff (codeLenY t M N) INCY + i) * INCY)) op (max M N).toNat hr hop hM hN (by omega)
    (.inr (by omega)) hinc (by intro i _; rw [vecStart_walk]; exact readQ_memQ Q _) rA
    (by intro i _; rw [vecStart_walk]; exact readQ_memQ Q _)
    (by
      rintro c hc ⟨i, hi, hin⟩
      rw [vecStart_walk] at hin
      have := aA c hc
      have := aY _ (by omega) (by omega) c hin
      omega)
    (by
      rintro c ⟨j, hj, hjn⟩ ⟨i, hi, hin⟩
      rw [vecStart_walk] at hin hjn
      have := aX _ (by omega) (by omega) c hjn
      have := aY _ (by omega) (by omega) c hin
      omega)
  rw [h1] at h1'
  obtain rfl : m' = m'' := by cases h1'; rfl
  have grid : ∀ (L : Int) (n : Nat), ¬ (0 ≤ z - walkOff L INCY ∧ z - walkOff L INCY < n) →
      SameOutside (VecCell (vecStart (4 * witY M N INCY) L INCY) INCY n) (memQ Q) m' →
      readQ m' (4 * (witY M N INCY + z * INCY)) = some (Q (witY M N INCY + z * INCY)) := by
    intro L n hn hs
    rw [← readQ_memQ, readQ_congr (m' := memQ Q)]
    intro c hc
    refine hs c ?_
    rintro ⟨i, hi, hin⟩
    rw [vecStart_walk] at hin
    have hne : z ≠ walkOff L INCY + i := by rintro rfl; exact hn ⟨by omega, by omega⟩
    have : witY M N INCY + z * INCY = witY M N INCY + (walkOff L INCY + i) * INCY := by
      unfold InQ at hc hin; omega
    exact hne (mul_right_cancel₀ hinc (by linarith))
  have code : readQ m' (4 * (witY M N INCY + z * INCY)) = some (Quat.ofH (if 0 ≤ z - walkOff (codeLenY t M N) INCY ∧ z - walkOff (codeLenY t M N) INCY < max M N then
      gemvActual t M N ALPHA BETA INCY (fun i j => Q ((i:Int) + j * M)) op
        (fun k => Q (witX M N INCX + (walkOff (codeLenX t M N) INCX + k) * INCX))
        (fun i => Q (witY M N INCY + (walkOff (codeLenY t M N) INCY + i) * INCY)) (z - walkOff (codeLenY t M N) INCY).toNat
      else (Q (witY M N INCY + z * INCY)).toH)) := by
    split
    · rename_i h
      have := h2' (z - walkOff (codeLenY t M N) INCY).toNat (by omega)
      rw [vecStart_walk, show walkOff (codeLenY t M N) INCY + ((z - walkOff (codeLenY t M N) INCY).toNat : Int) = z by omega] at this
      exact this
    · rename_i h
      rw [grid _ _ (by omega) h3']
      exact congrArg some (eq_ofH rfl)
  have spec : readQ m' (4 * (witY M N INCY + z * INCY)) = some (Quat.ofH (if 0 ≤ z - walkOff (gemvLenY t M N) INCY ∧ z - walkOff (gemvLenY t M N) INCY < gemvLenY t M N then
      ALPHA.toH * (∑ k ∈ range (gemvLenX t M N).toNat, op (z - walkOff (gemvLenY t M N) INCY).toNat k *
        (Q (witX M N INCX + (walkOff (gemvLenX t M N) INCX + k) * INCX)).toH) + BETA.toH * (Q (witY M N INCY + z * INCY)).toH
      else (Q (witY M N INCY + z * INCY)).toH)) := by
    split
    · rename_i h
      have := h2 (z - walkOff (gemvLenY t M N) INCY).toNat (by omega)
      have e : walkOff (gemvLenY t M N) INCY + ((z - walkOff (gemvLenY t M N) INCY).toNat : Int) = z := by omega
      rw [vecStart_walk, e] at this
      dsimp only at this
      rw [e] at this
      exact this
    · rename_i h
      rw [grid _ _ (by omega) h3]
      exact congrArg some (eq_ofH rfl)
  rw [code] at spec
  have := congrArg Quat.toH (Option.some.inj spec)
  simpa only [toH_ofH] using this


/-- A matrix with one nonzero entry at the top left. -/
theorem opIs_corner {t : Char} {a : Nat → Nat → Quat R} (ht : IsN t ∨ IsT t ∨ IsC t) :
    OpIs t a (fun i k => if IsN t then (a i k).toH else if IsT t then (a k i).toH else star (a k i).toH) := by
  rcases ht with (rfl | rfl) | (rfl | rfl) | (rfl | rfl)
  · exact .inl ⟨.inl rfl, fun _ _ => rfl⟩
  · exact .inl ⟨.inr rfl, fun _ _ => rfl⟩
  · exact .inr (.inl ⟨.inl rfl, fun _ _ => rfl⟩)
  · exact .inr (.inl ⟨.inr rfl, fun _ _ => rfl⟩)
  · exact .inr (.inr ⟨.inl rfl, fun _ _ => rfl⟩)
  · exact .inr (.inr ⟨.inr rfl, fun _ _ => rfl⟩)

theorem gemvErrS_hi0 {ALPHA : Scal R} {a x : Quat R} (h2 : a.j = 0) (h3 : a.k = 0) : gemvErrS ALPHA a x = 0 := by
  unfold gemvErrS
  split
  · ext <;> simp [gemvErr_re, gemvErr_imI, gemvErr_imJ, gemvErr_imK, Quat.hi, h2, h3]
  · rfl

theorem gemvScaled_zero {stuck : Prop} {_ : Decidable stuck} {L i : Nat} {be : ℍ[R]} : gemvScaled stuck L be i 0 = 0 := by
  unfold gemvScaled; simp


theorem walkOff_eq {L L' INC : Int} : walkOff L INC = walkOff L' INC ↔ 0 ≤ INC ∨ L = L' := by
  unfold walkOff; split <;> omega

/-- The call is right on every memory. -/
def GemvRight (t : Char) (M N : Int) (ALPHA BETA : Scal R) (INCX INCY : Int) : Prop :=
  ∀ (m : Mem R) (A LDA X Y : Int) (a : Nat → Nat → Quat R) (x y : Nat → Quat R) (op : Nat → Nat → ℍ[R]),
    GemvArgs m t M N ALPHA A LDA X INCX Y INCY a x y → OpIs t a op →
    IsGemv (gemvF t M N ALPHA A LDA X INCX BETA Y INCY) m t M N ALPHA BETA Y INCY op x y

section
variable {t : Char} {M N : Int} {ALPHA BETA : Scal R} {INCX INCY : Int} (hM : 0 < M) (hN : 0 < N)
  (hinc : INCY ≠ 0) (hr : ¬ (ALPHA.IsReal ∧ BETA.IsReal)) (ht : IsN t ∨ IsT t ∨ IsC t)
  (H : GemvRight t M N ALPHA BETA INCX INCY)
include hM hN hinc hr ht H

open Classical in
theorem gemv_wit_scale (z : Int) (hz1 : -(M + N) ≤ z) (hz2 : z ≤ M + N) :
    (if 0 ≤ z - walkOff (codeLenY t M N) INCY ∧ z - walkOff (codeLenY t M N) INCY < max M N then
      gemvScaled (GemvStuck ALPHA BETA INCY) (codeLenY t M N).toNat BETA.toH (z - walkOff (codeLenY t M N) INCY).toNat 1 else 1) =
    (if 0 ≤ z - walkOff (gemvLenY t M N) INCY ∧ z - walkOff (gemvLenY t M N) INCY < gemvLenY t M N then BETA.toH else 1) := by
  have hw := gemv_wit hM hN hinc hr (fun w => if w < 0 then ⟨1, 0, 0, 0⟩ else ⟨0, 0, 0, 0⟩) (opIs_corner ht) H z hz1 hz2
  have e0 : ∀ i k : Nat, ¬ ((i:Int) + k * M < 0) := by
    intro i k
    have : 0 ≤ (k:Int) * M := by positivity
    omega
  have ez : (⟨0, 0, 0, 0⟩ : Quat R).toH = 0 := rfl
  have e1 : (⟨1, 0, 0, 0⟩ : Quat R).toH = 1 := rfl
  have ey : ∀ w : Int, -(M + N) ≤ w → w ≤ M + N → witY M N INCY + w * INCY < 0 := by
    intro w h1 h2
    have := (mul_bound (INC := INCY) h1 h2).2
    unfold witY; omega
  have lc : 0 < codeLenY t M N ∧ codeLenY t M N ≤ max M N := by unfold codeLenY; split <;> omega
  unfold gemvActual at hw
  simp only [e0, if_false, ez, star_zero, ite_self, zero_mul, sum_const_zero, mul_zero, ey z hz1 hz2, if_true, e1, mul_one,
    gemvErrS_hi0, add_zero, zero_add] at hw
  rw [← hw]
  split
  · rename_i h
    rw [show walkOff (codeLenY t M N) INCY + ((z - walkOff (codeLenY t M N) INCY).toNat : Int) = z by omega]
    simp only [ey z hz1 hz2, if_true, e1]
  · rfl

set_option maxHeartbeats 1000000 in
theorem gemv_wit_corner (a0 : Quat R) (xf : Int → Quat R) :
    (if walkOff (gemvLenY t M N) INCY = walkOff (codeLenY t M N) INCY then
      ALPHA.toH * ((if IsN t then a0.toH else if IsT t then a0.toH else star a0.toH) *
          (xf (witX M N INCX + walkOff (codeLenX t M N) INCX * INCX)).toH) +
        (if IsN t ∧ INCY ≠ 1 then gemvErrS ALPHA a0 (xf (witX M N INCX + walkOff (codeLenX t M N) INCX * INCX)) else 0)
      else 0) =
    ALPHA.toH * ((if IsN t then a0.toH else if IsT t then a0.toH else star a0.toH) *
      (xf (witX M N INCX + walkOff (gemvLenX t M N) INCX * INCX)).toH) := by
  have lY : 0 < gemvLenY t M N ∧ gemvLenY t M N ≤ max M N := by unfold gemvLenY; split <;> omega
  have lX : 0 < gemvLenX t M N ∧ gemvLenX t M N ≤ max M N := by unfold gemvLenX; split <;> omega
  have cY : 0 < codeLenY t M N ∧ codeLenY t M N ≤ max M N := by unfold codeLenY; split <;> omega
  have cX : 0 < codeLenX t M N ∧ codeLenX t M N ≤ max M N := by unfold codeLenX; split <;> omega
  have offb : ∀ L INC : Int, 0 < L → L ≤ max M N → -(max M N - 1) ≤ walkOff L INC ∧ walkOff L INC ≤ 0 := by
    intro L INC h1 h2
    unfold walkOff; split <;> omega
  have olY := offb _ INCY lY.1 lY.2
  have olX := offb _ INCX lX.1 lX.2
  have ocY := offb _ INCY cY.1 cY.2
  have ocX := offb _ INCX cX.1 cX.2
  set Q : Int → Quat R := fun w => if w = 0 then a0 else if w < M * N then ⟨0, 0, 0, 0⟩ else xf w with hQ
  have hw := gemv_wit hM hN hinc hr Q (opIs_corner ht) H (walkOff (gemvLenY t M N) INCY) (by omega) (by omega)
  have hMN : 0 < M * N := by positivity
  have ez : (⟨0, 0, 0, 0⟩ : Quat R).toH = 0 := rfl
  have eA : ∀ i k : Nat, (i:Int) < M → (k:Int) < N → Q ((i:Int) + k * M) = if i = 0 ∧ k = 0 then a0 else ⟨0, 0, 0, 0⟩ := by
    intro i k hi hk
    rw [hQ]
    dsimp only
    by_cases h : i = 0 ∧ k = 0
    · obtain ⟨rfl, rfl⟩ := h; simp
    · have h0 : 0 ≤ (k:Int) * M := by positivity
      have h1 : (k:Int) * M ≤ (N - 1) * M := mul_le_mul_of_nonneg_right (by omega) (by omega)
      rw [if_neg h, if_neg, if_pos]
      · nlinarith
      · intro e
        have hi0 : i = 0 := by omega
        have hk0 : (k:Int) * M = 0 := by omega
        rcases mul_eq_zero.1 hk0 with h' | h'
        · exact h ⟨hi0, by omega⟩
        · omega
  have eXc : ∀ z : Int, -(M + N) ≤ z → z ≤ M + N → Q (witX M N INCX + z * INCX) = xf (witX M N INCX + z * INCX) := by
    intro z h1 h2
    have h3 : M * N ≤ witX M N INCX + z * INCX := by
      have := (mul_bound (INC := INCX) h1 h2).1
      unfold witX; omega
    rw [hQ]
    dsimp only
    rw [if_neg (by omega), if_neg (by omega)]
  have eY : ∀ z : Int, -(M + N) ≤ z → z ≤ M + N → (Q (witY M N INCY + z * INCY)).toH = 0 := by
    intro z h1 h2
    have h3 : witY M N INCY + z * INCY < 0 := by
      have := (mul_bound (INC := INCY) h1 h2).2
      unfold witY; omega
    rw [hQ]
    dsimp only
    rw [if_neg (by omega), if_pos (by omega), ez]
  have esum : ∀ (i : Nat) (off : Int), (i:Int) < gemvLenY t M N → -(max M N - 1) ≤ off → off ≤ 0 →
      ∑ k ∈ range (gemvLenX t M N).toNat, (if IsN t then (Q ((i:Int) + k * M)).toH else if IsT t then (Q ((k:Int) + i * M)).toH
        else star (Q ((k:Int) + i * M)).toH) * (Q (witX M N INCX + (off + k) * INCX)).toH =
      if i = 0 then (if IsN t then a0.toH else if IsT t then a0.toH else star a0.toH) * (xf (witX M N INCX + off * INCX)).toH else 0 := by
    intro i off hi h1 h2
    have term : ∀ k : Nat, (k:Int) < gemvLenX t M N → (if IsN t then (Q ((i:Int) + k * M)).toH else if IsT t then (Q ((k:Int) + i * M)).toH
        else star (Q ((k:Int) + i * M)).toH) = if i = 0 ∧ k = 0 then (if IsN t then a0.toH else if IsT t then a0.toH else star a0.toH) else 0 := by
      intro k hk
      by_cases hn : IsN t
      · unfold gemvLenX at hk; unfold gemvLenY at hi
        rw [if_pos hn] at hk hi
        rw [if_pos hn, if_pos hn, eA i k hi hk]
        split
        · rfl
        · exact ez
      · unfold gemvLenX at hk; unfold gemvLenY at hi
        rw [if_neg hn] at hk hi
        rw [if_neg hn, if_neg hn, eA k i hk hi]
        by_cases h : i = 0 ∧ k = 0
        · rw [if_pos h, if_pos h.symm]
        · have h' : ¬ (k = 0 ∧ i = 0) := fun h' => h h'.symm
          rw [if_neg h, if_neg h', ez, star_zero, ite_self]
    rw [sum_eq_single 0]
    · rw [term 0 (by omega)]
      simp only [and_true, Nat.cast_zero, add_zero]
      rw [eXc _ (by omega) (by omega)]
      by_cases h : i = 0
      · rw [if_pos h, if_pos h]
      · rw [if_neg h, if_neg h, zero_mul]
    · intro k hk hk0
      rw [mem_range] at hk
      rw [term k (by omega), if_neg (by omega), zero_mul]
    · intro h; exact absurd (mem_range.2 (by omega)) h
  have eerr : ∀ (i : Nat) (off : Int), (i:Int) < gemvLenY t M N → -(max M N - 1) ≤ off → off ≤ 0 → IsN t →
      ∑ k ∈ range (gemvLenX t M N).toNat, gemvErrS ALPHA (Q ((i:Int) + k * M)) (Q (witX M N INCX + (off + k) * INCX)) =
      if i = 0 then gemvErrS ALPHA a0 (xf (witX M N INCX + off * INCX)) else 0 := by
    intro i off hi h1 h2 hn
    have hX : gemvLenX t M N = N := by unfold gemvLenX; rw [if_pos hn]
    have hY : gemvLenY t M N = M := by unfold gemvLenY; rw [if_pos hn]
    rw [sum_eq_single 0]
    · rw [eA i 0 (by omega) (by omega), Nat.cast_zero, add_zero, eXc _ (by omega) (by omega)]
      by_cases h : i = 0
      · rw [if_pos ⟨h, rfl⟩, if_pos h]
      · rw [if_neg (by omega), if_neg h]
        exact gemvErrS_hi0 rfl rfl
    · intro k hk hk0
      rw [mem_range] at hk
      rw [eA i k (by omega) (by omega), if_neg (by omega)]
      exact gemvErrS_hi0 rfl rfl
    · intro h; exact absurd (mem_range.2 (by omega)) h
  rw [sub_self, if_pos (c := 0 ≤ 0 ∧ (0:Int) < gemvLenY t M N) ⟨le_rfl, lY.1⟩, eY _ (by omega) (by omega), mul_zero, add_zero,
    Int.toNat_zero, esum 0 _ (by simpa using lY.1) olX.1 olX.2, if_pos rfl] at hw
  rw [← hw]
  have esc : ∀ (i : Nat), (i:Int) < max M N →
      (Q (witY M N INCY + (walkOff (codeLenY t M N) INCY + i) * INCY)).toH = 0 := fun i hi => eY _ (by omega) (by omega)
  have eact : ∀ i : Nat, (i:Int) < max M N →
      gemvActual t M N ALPHA BETA INCY (fun i j => Q ((i:Int) + j * M))
        (fun i k => if IsN t then (Q ((i:Int) + k * M)).toH else if IsT t then (Q ((k:Int) + i * M)).toH else star (Q ((k:Int) + i * M)).toH)
        (fun k => Q (witX M N INCX + (walkOff (codeLenX t M N) INCX + k) * INCX))
        (fun i => Q (witY M N INCY + (walkOff (codeLenY t M N) INCY + i) * INCY)) i =
      if i = 0 then ALPHA.toH * ((if IsN t then a0.toH else if IsT t then a0.toH else star a0.toH) *
          (xf (witX M N INCX + walkOff (codeLenX t M N) INCX * INCX)).toH) +
        (if IsN t ∧ INCY ≠ 1 then gemvErrS ALPHA a0 (xf (witX M N INCX + walkOff (codeLenX t M N) INCX * INCX)) else 0)
      else 0 := by
    intro i hi
    unfold gemvActual
    rw [esc i hi, gemvScaled_zero, add_zero]
    by_cases hil : i < (gemvLenY t M N).toNat
    · have hil' : (i:Int) < gemvLenY t M N := by omega
      rw [if_pos hil, esum i _ hil' ocX.1 ocX.2]
      by_cases hn : IsN t ∧ INCY ≠ 1
      · rw [if_pos hn, if_pos hn, eerr i _ hil' ocX.1 ocX.2 hn.1]
        by_cases h0 : i = 0
        · simp only [if_pos h0]
        · simp only [if_neg h0, mul_zero, add_zero]
      · rw [if_neg hn, if_neg hn, add_zero, add_zero]
        by_cases h0 : i = 0
        · simp only [if_pos h0]
        · simp only [if_neg h0, mul_zero]
    · have h0 : i ≠ 0 := by omega
      rw [if_neg hil, if_neg h0]
  by_cases h0 : walkOff (gemvLenY t M N) INCY = walkOff (codeLenY t M N) INCY
  · have hin : 0 ≤ walkOff (gemvLenY t M N) INCY - walkOff (codeLenY t M N) INCY ∧
        walkOff (gemvLenY t M N) INCY - walkOff (codeLenY t M N) INCY < max M N := by omega
    have hz : (walkOff (gemvLenY t M N) INCY - walkOff (codeLenY t M N) INCY).toNat = 0 := by omega
    rw [if_pos h0, if_pos hin, eact _ (by omega), if_pos hz]
  · rw [if_neg h0]
    symm
    split
    · rename_i hin
      have hz : (walkOff (gemvLenY t M N) INCY - walkOff (codeLenY t M N) INCY).toNat ≠ 0 := by omega
      rw [eact _ (by omega), if_neg hz]
    · rfl


theorem gemv_only : GemvExact t M N ALPHA BETA INCX INCY := by
  have lY : 0 < gemvLenY t M N ∧ gemvLenY t M N ≤ max M N := by unfold gemvLenY; split <;> omega
  have lX : 0 < gemvLenX t M N ∧ gemvLenX t M N ≤ max M N := by unfold gemvLenX; split <;> omega
  have cY : 0 < codeLenY t M N ∧ codeLenY t M N ≤ max M N := by unfold codeLenY; split <;> omega
  have cX : 0 < codeLenX t M N ∧ codeLenX t M N ≤ max M N := by unfold codeLenX; split <;> omega
  have one : (if IsN t then (⟨1, 0, 0, 0⟩ : Quat R).toH else if IsT t then (⟨1, 0, 0, 0⟩ : Quat R).toH
      else star (⟨1, 0, 0, 0⟩ : Quat R).toH) = 1 := by
    have e1 : (⟨1, 0, 0, 0⟩ : Quat R).toH = 1 := rfl
    rw [e1, star_one, ite_self, ite_self]
  have e1 : (⟨1, 0, 0, 0⟩ : Quat R).toH = 1 := rfl
  have ez : (⟨0, 0, 0, 0⟩ : Quat R).toH = 0 := rfl
  -- where y begins
  have sY : ALPHA.toH = 0 ∨ walkOff (gemvLenY t M N) INCY = walkOff (codeLenY t M N) INCY := by
    by_cases h : walkOff (gemvLenY t M N) INCY = walkOff (codeLenY t M N) INCY
    · exact .inr h
    · have := gemv_wit_corner hM hN hinc hr ht H ⟨1, 0, 0, 0⟩ (fun _ => ⟨1, 0, 0, 0⟩)
      rw [if_neg h, one, e1, mul_one, mul_one] at this
      exact .inl this.symm
  have sX : ALPHA.toH = 0 ∨ 0 ≤ INCX ∨ codeLenX t M N = gemvLenX t M N := by
    by_contra hc
    push Not at hc
    obtain ⟨h0, h1, h2⟩ := hc
    have hy := sY.resolve_left h0
    have := gemv_wit_corner hM hN hinc hr ht H ⟨1, 0, 0, 0⟩
      (fun w => if w = witX M N INCX + walkOff (gemvLenX t M N) INCX * INCX then ⟨1, 0, 0, 0⟩ else ⟨0, 0, 0, 0⟩)
    have hne : ¬ (witX M N INCX + walkOff (codeLenX t M N) INCX * INCX = witX M N INCX + walkOff (gemvLenX t M N) INCX * INCX) := by
      intro e
      have e' := mul_right_cancel₀ (by omega : INCX ≠ 0) (add_left_cancel e)
      rcases walkOff_eq.1 e' with h | h
      · omega
      · exact h2 h
    rw [if_pos hy, one, if_neg hne, if_pos rfl, e1, ez, mul_zero, mul_zero, zero_add, gemvErrS_hi0 rfl rfl, ite_self,
      mul_one, mul_one] at this
    exact h0 this.symm
  refine ⟨?_, ?_, ?_, ?_⟩
  · -- what is scaled
    by_cases hb : BETA.toH = 1
    · exact .inl hb
    right
    have hw := gemv_wit_scale hM hN hinc hr ht H
    by_cases hs : GemvStuck ALPHA BETA INCY
    · left
      have key : ∀ z, 0 ≤ z - walkOff (gemvLenY t M N) INCY → z - walkOff (gemvLenY t M N) INCY < gemvLenY t M N →
          z = walkOff (codeLenY t M N) INCY := by
        intro z h1 h2
        by_contra hne
        have hz := hw z (by unfold walkOff at h1; split at h1 <;> omega) (by unfold walkOff at h2; split at h2 <;> omega)
        rw [if_pos (c := 0 ≤ z - walkOff (gemvLenY t M N) INCY ∧ _) ⟨h1, h2⟩] at hz
        apply hb
        rw [← hz]
        split
        · rename_i h
          have hi : (z - walkOff (codeLenY t M N) INCY).toNat ≠ 0 := by omega
          simp only [gemvScaled, hs, hi, if_true, if_false]
        · rfl
      have k0 := key (walkOff (gemvLenY t M N) INCY) (by omega) (by omega)
      have hl : gemvLenY t M N = 1 := by
        by_contra hne
        have := key (walkOff (gemvLenY t M N) INCY + 1) (by omega) (by omega)
        omega
      refine ⟨hs, hl, ?_, ?_⟩
      · rcases walkOff_eq.1 k0 with h | h
        · exact .inl (by omega)
        · exact .inr (by omega)
      · have hz := hw (walkOff (gemvLenY t M N) INCY) (by unfold walkOff; split <;> omega) (by unfold walkOff; split <;> omega)
        rw [if_pos (c := 0 ≤ walkOff (gemvLenY t M N) INCY - walkOff (gemvLenY t M N) INCY ∧ _) (by omega), k0, sub_self,
          if_pos (by omega)] at hz
        simpa [gemvScaled, hs] using hz
    · right
      refine ⟨hs, (lens_agree ht).1.1 ?_⟩
      by_contra hne
      rcases lt_or_gt_of_ne hinc with hn | hp
      · -- the far end
        have oc : walkOff (codeLenY t M N) INCY = -(codeLenY t M N - 1) := by unfold walkOff; rw [if_pos hn]
        have ol : walkOff (gemvLenY t M N) INCY = -(gemvLenY t M N - 1) := by unfold walkOff; rw [if_pos hn]
        rcases lt_or_gt_of_ne hne with h | h
        · have hz := hw (walkOff (gemvLenY t M N) INCY) (by omega) (by omega)
          rw [if_neg (by omega), if_pos (by omega)] at hz
          exact hb hz.symm
        · have hz := hw (walkOff (codeLenY t M N) INCY) (by omega) (by omega)
          rw [if_pos (by omega), if_neg (by omega)] at hz
          have hi : 0 < (codeLenY t M N).toNat := by omega
          simp only [gemvScaled, hs, sub_self, Int.toNat_zero, hi, if_true, if_false, mul_one] at hz
          exact hb hz
      · have oc : walkOff (codeLenY t M N) INCY = 0 := by unfold walkOff; rw [if_neg (by omega)]
        have ol : walkOff (gemvLenY t M N) INCY = 0 := by unfold walkOff; rw [if_neg (by omega)]
        rcases lt_or_gt_of_ne hne with h | h
        · have hz := hw (codeLenY t M N) (by omega) (by omega)
          rw [if_pos (by omega), if_pos (by omega)] at hz
          have hi : ¬ (codeLenY t M N - walkOff (codeLenY t M N) INCY).toNat < (codeLenY t M N).toNat := by omega
          simp only [gemvScaled, hs, hi, if_false] at hz
          exact hb hz.symm
        · have hz := hw (gemvLenY t M N) (by omega) (by omega)
          rw [if_pos (by omega), if_neg (by omega)] at hz
          have hi : (gemvLenY t M N - walkOff (codeLenY t M N) INCY).toNat < (codeLenY t M N).toNat := by omega
          simp only [gemvScaled, hs, hi, if_true, if_false, mul_one] at hz
          exact hb hz
  · rcases sX with h | h | h
    · exact .inl h
    · exact .inr (.inl h)
    · exact .inr (.inr ((lens_agree ht).2.1 h))
  · rcases sY with h | h
    · exact .inl h
    · rcases walkOff_eq.1 h with h | h
      · exact .inr (.inl (by omega))
      · exact .inr (.inr ((lens_agree ht).1.1 h.symm))
  · rintro hn hi q rfl
    by_cases h0 : (Scal.h q).toH = 0
    · have e0 := congrArg QuaternionAlgebra.re h0
      have e1 := congrArg QuaternionAlgebra.imI h0
      simp [Scal.toH] at e0 e1
      simp [e0, e1]
    have hy := sY.resolve_left h0
    have key : ∀ v : Quat R, gemvErr q ⟨0, 0, 1, 0⟩ v = 0 := by
      intro v
      have := gemv_wit_corner hM hN hinc hr ht H ⟨0, 0, 1, 0⟩ (fun _ => v)
      rw [if_pos hy, if_pos (c := IsN t ∧ INCY ≠ 1) ⟨hn, hi⟩] at this
      exact add_eq_left.1 this
    have k1 := congrArg QuaternionAlgebra.imK (key ⟨0, 1, 0, 0⟩)
    have k2 := congrArg QuaternionAlgebra.imK (key ⟨1, 0, 0, 0⟩)
    rw [gemvErr_imK] at k1 k2
    simp [Quat.lo, Quat.hi] at k1 k2
    exact ⟨by linear_combination k1, by linear_combination -k2⟩

end

/-- C30, exact (partial: the property asks for every call): a GEMV of positive sizes with a valid flag and a stride in y does
what it should on every memory iff both scalars are real, or the call is in `GemvExact`. -/
theorem C30_exact_partial (t : Char) (M N : Int) (ALPHA BETA : Scal R) (INCX INCY : Int) (ht : IsN t ∨ IsT t ∨ IsC t)
    (hM : 0 < M) (hN : 0 < N) (hinc : INCY ≠ 0) :
    (∀ (m : Mem R) (A LDA X Y : Int) (a : Nat → Nat → Quat R) (x y : Nat → Quat R) (op : Nat → Nat → ℍ[R]),
      GemvArgs m t M N ALPHA A LDA X INCX Y INCY a x y → OpIs t a op →
      IsGemv (gemvF t M N ALPHA A LDA X INCX BETA Y INCY) m t M N ALPHA BETA Y INCY op x y) ↔
    ((ALPHA.IsReal ∧ BETA.IsReal) ∨ GemvExact t M N ALPHA BETA INCX INCY) := by
  constructor
  · intro H
    by_cases hr : ALPHA.IsReal ∧ BETA.IsReal
    · exact .inl hr
    · exact .inr (gemv_only hM hN hinc hr ht H)
  · intro h m A LDA X Y a x y op hargs hop
    by_cases hr : ALPHA.IsReal ∧ BETA.IsReal
    · refine C30_gemv_partial m t M N ALPHA A LDA X INCX BETA Y INCY a x y op hM.ne' hN.ne' hargs hop ⟨.inl hr, ?_, ?_⟩
      · rintro _ ⟨q, e⟩
        obtain ⟨r, e'⟩ := hr.2
        rw [e] at e'; cases e'
      · rintro ⟨q, e⟩
        obtain ⟨r, e'⟩ := hr.1
        rw [e] at e'; cases e'
    · exact gemvF_right m t M N ALPHA A LDA X INCX BETA Y INCY a x y op hM hN hargs hop hr (h.resolve_left hr)

end

/-! ### Instances -/

/-- A rectangular call with both vectors walked backwards, quaternion scalars and a conjugate transpose is right. -/
example : GemvExact (R := Int) 'C' 2 3 (.h ⟨1, 2, 3, 4⟩) (.z ⟨5, 6⟩) (-2) (-1) :=
  ⟨.inr (.inr ⟨(by rintro ⟨⟨_, h⟩, _⟩; cases h), .inr (.inl rfl)⟩), .inr (.inr (.inr (.inl rfl))), .inr (.inr (.inr (.inl rfl))),
    by rintro (h | h) <;> exact absurd h (by decide)⟩

/-- New over `GemvGood`: a strided y with a quaternion ALPHA orthogonal to 1 and i is right, although the loop is wrong. -/
example : GemvExact (R := Int) 'N' 2 2 (.h ⟨0, 0, 3, 4⟩) (.z ⟨5, 6⟩) (-2) 3 :=
  ⟨.inr (.inr ⟨(by rintro ⟨⟨_, h⟩, _⟩; cases h), .inl rfl⟩), .inr (.inr (.inl rfl)), .inr (.inl (by decide)),
    by rintro _ _ q h; cases h; simp⟩

/-- New over `GemvGood`: BETA = −1 with the scaling loop stuck on the single element of y, three times. -/
example : GemvExact (R := Int) 'T' 3 1 (.d 2) (.h ⟨-1, 0, 0, 0⟩) 1 5 := by
  refine ⟨.inr (.inl ⟨⟨⟨_, rfl⟩, ⟨_, rfl⟩, by decide, ?_⟩, rfl, .inl (by decide), ?_⟩), .inr (.inl (by decide)), .inr (.inl (by decide)),
    by rintro (h | h) <;> exact absurd h (by decide)⟩
  · intro h
    have := congrArg QuaternionAlgebra.re h
    simp [Scal.toH] at this
  · have e : (Scal.h (⟨-1, 0, 0, 0⟩ : Quat Int)).toH = -1 := by ext <;> simp [Scal.toH, Quat.toH]
    rw [e]
    show (-1 : ℍ[Int]) ^ 3 = -1
    rw [Odd.neg_one_pow (by decide)]

/-- A 2×3 transpose with a backwards x, complex ALPHA: not right, whatever BETA. -/
example (BETA : Scal Int) : ¬ GemvExact (R := Int) 'T' 2 3 (.z ⟨1, 2⟩) BETA (-1) 1 := by
  intro h
  rcases h.startX with e | e | e | e
  · have := congrArg QuaternionAlgebra.re e
    simp [Scal.toH] at this
  · omega
  · omega
  · rcases e with e | e <;> exact absurd e (by decide)

/-- So there is a memory on which it is wrong. -/
example (BETA : Scal Int) : ∃ (m : Mem Int) (A LDA X Y : Int) (a : Nat → Nat → Quat Int) (x y : Nat → Quat Int) (op : Nat → Nat → ℍ[Int]),
    GemvArgs m 'T' 2 3 (.z ⟨1, 2⟩) A LDA X (-1) Y 1 a x y ∧ OpIs 'T' a op ∧
    ¬ IsGemv (gemvF 'T' 2 3 (.z ⟨1, 2⟩) A LDA X (-1) BETA Y 1) m 'T' 2 3 (.z ⟨1, 2⟩) BETA Y 1 op x y := by
  by_contra hc
  push Not at hc
  rcases (C30_exact_partial 'T' 2 3 (.z ⟨1, 2⟩) BETA (-1) 1 (.inr (.inl (.inl rfl))) (by decide) (by decide) (by decide)).1 hc with h | h
  · obtain ⟨⟨_, e⟩, _⟩ := h; cases e
  · rcases h.startX with e | e | e | e
    · have := congrArg QuaternionAlgebra.re e
      simp [Scal.toH] at this
    · omega
    · omega
    · rcases e with e | e <;> exact absurd e (by decide)

end Haxx
