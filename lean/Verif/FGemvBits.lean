import Verif.FGemvBitsdd
import Verif.FGemvBitsdz
import Verif.FGemvBitsdh
import Verif.FGemvBitszd
import Verif.FGemvBitszz
import Verif.FGemvBitszh
import Verif.FGemvBitshd
import Verif.FGemvBitshz
import Verif.FGemvBitshh
import Verif.PropsGemv

/-!
# The Fortran GEMV, bit for bit, for every pair of scalar types
-/

set_option linter.unusedSectionVars false

namespace Haxx
open Arith

variable {F : Type} [Arith F] [ArithEq F]

/-- The flag asks for the transpose. -/
def IsT (t : Char) : Prop := t = 'T' ∨ t = 't'

theorem lsame_IsN (t : Char) : lsame t 'N' = true ↔ IsN t := by
  rw [lsame_upper (by decide), decide_eq_true_eq, show 'N'.toNat + 32 = 'n'.toNat from rfl, Char.toNat_inj]
  rfl

theorem lsame_IsT (t : Char) : lsame 'T' t = true ↔ IsT t := by
  rw [lsame_symm, lsame_upper (by decide), decide_eq_true_eq, show 'T'.toNat + 32 = 't'.toNat from rfl, Char.toNat_inj]
  rfl

/-- What a caller of the Fortran GEMV must provide, over any arithmetic. -/
structure FGemvArgs (m : Mem F) (t : Char) (M N : Int) (ALPHA : Scal F) (A LDA X INCX Y INCY : Int)
    (a : Nat → Nat → Quat F) (x y : Nat → Quat F) : Prop where
  hinc : INCY ≠ 0
  hY : VecAt m (vecStart Y (gemvLenY t M N) INCY) INCY (gemvLenY t M N).toNat y
  hA : ALPHA.fIsZero = false → MatAt m A LDA M.toNat N.toNat a
  hX : ALPHA.fIsZero = false → VecAt m (vecStart X (gemvLenX t M N) INCX) INCX (gemvLenX t M N).toNat x
  hAY : ALPHA.fIsZero = false → Apart (MatCell A LDA M.toNat N.toNat)
    (VecCell (vecStart Y (gemvLenY t M N) INCY) INCY (gemvLenY t M N).toNat)
  hXY : ALPHA.fIsZero = false → Apart (VecCell (vecStart X (gemvLenX t M N) INCX) INCX (gemvLenX t M N).toNat)
    (VecCell (vecStart Y (gemvLenY t M N) INCY) INCY (gemvLenY t M N).toNat)

/-- The calls outside the known defects of the Fortran GEMV (`C30_lengths_violated`, `C30_strided_beta_violated`,
`C30_strided_alpha_violated`), over any arithmetic. -/
structure FGemvGood (t : Char) (M N : Int) (ALPHA BETA : Scal F) (INCX INCY : Int) : Prop where
  lens : (ALPHA.IsReal ∧ BETA.IsReal) ∨ M = N ∨ (¬ IsN t ∧ ¬ IsT t) ∨ (0 < INCX ∧ 0 < INCY ∧ BETA.fIsOne = true)
  strideBeta : ALPHA.IsReal → BETA.IsQuat → INCY = 1 ∨ BETA.fIsZero = true ∨ BETA.fIsOne = true
  strideAlpha : ALPHA.IsQuat → IsN t → INCY = 1

theorem FGemvArgs.env {m : Mem F} {t : Char} {M N : Int} {ALPHA : Scal F} {A LDA X INCX Y INCY : Int}
    {a : Nat → Nat → Quat F} {x y : Nat → Quat F}
    (h : FGemvArgs m t M N ALPHA A LDA X INCX Y INCY a x y) (h0 : ALPHA.fIsZero = false) :
    GvEnv (fun m' => ∀ c, ¬ VecCell (vecStart Y (gemvLenY t M N) INCY) INCY (gemvLenY t M N).toNat c → m' c = m c)
      A LDA M.toNat N.toNat a (vecStart X (gemvLenX t M N) INCX) INCX (gemvLenX t M N).toNat x
      (fun i => vecStart Y (gemvLenY t M N) INCY + 4 * ((i:Int) * INCY)) (gemvLenY t M N).toNat where
  rdA := by
    intro m' hm i j hi hj
    rw [readQ_congr (m' := m)]
    · exact h.hA h0 i j hi hj
    · intro c hc; exact hm c (h.hAY h0 c ⟨i, j, hi, hj, hc⟩)
  rdX := by
    intro m' hm i hi
    rw [readQ_congr (m' := m)]
    · exact h.hX h0 i hi
    · intro c hc; exact hm c (h.hXY h0 c ⟨i, hi, hc⟩)
  stable := by
    intro m' i q hi hm c hc
    rw [writeQ_other (fun hin => hc ⟨i, hi, hin⟩)]
    exact hm c hc
  disj := by
    intro i j _ _ hne
    exact strided_disj h.hinc hne

/-- The Fortran GEMV leaves `fGemv` of row i of op(A), x and the old element in `y_i`, and nothing else changes. -/
theorem gemvF_bits (m : Mem F) (t : Char) (M N : Int) (ALPHA : Scal F) (A LDA X INCX : Int)
    (BETA : Scal F) (Y INCY : Int) (a : Nat → Nat → Quat F) (x y : Nat → Quat F)
    (hM : M ≠ 0) (hN : N ≠ 0) (h : FGemvArgs m t M N ALPHA A LDA X INCX Y INCY a x y)
    (hg : FGemvGood t M N ALPHA BETA INCX INCY) :
    ∃ m', gemvF t M N ALPHA A LDA X INCX BETA Y INCY m = .ok ((), m') ∧
      VecAt m' (vecStart Y (gemvLenY t M N) INCY) INCY (gemvLenY t M N).toNat
        (fun i => fGemv (FTrans.gv t) ALPHA BETA (gemvLenX t M N).toNat (fun k => (FTrans.gv t).pick a i k) x (y i)) ∧
      SameOutside (VecCell (vecStart Y (gemvLenY t M N) INCY) INCY (gemvLenY t M N).toNat) m m' := by
  have hn := lsame_IsN t
  have eLX : (if lsame t 'N' = true then N else M) = gemvLenX t M N := by
    unfold gemvLenX; simp only [hn]
  have eLY : (if lsame t 'N' = true then M else N) = gemvLenY t M N := by
    unfold gemvLenY; simp only [hn]
  have hlens : ¬ (ALPHA.IsReal ∧ BETA.IsReal) →
      (0 < INCX ∨ (if lsame 'T' t = true then N else M) = (if lsame t 'N' = true then N else M)) ∧
      ((0 < INCY ∧ BETA.fIsOne = true) ∨ (if lsame 'T' t = true then M else N) = (if lsame t 'N' = true then M else N)) := by
    intro hr
    rcases hg.lens with e | e | ⟨e, e'⟩ | ⟨e1, e2, e3⟩
    · exact absurd e hr
    · subst e; simp
    · rw [← lsame_IsN] at e; rw [← lsame_IsT] at e'
      simp only [if_neg e, if_neg e', or_true, and_self]
    · exact ⟨.inl e1, .inl ⟨e2, e3⟩⟩
  have env := fun h0 => h.env h0
  have hst : ∀ m1 (i : Nat) q, i < (gemvLenY t M N).toNat →
      (∀ c, ¬ VecCell (vecStart Y (gemvLenY t M N) INCY) INCY (gemvLenY t M N).toNat c → m1 c = m c) →
      (∀ c, ¬ VecCell (vecStart Y (gemvLenY t M N) INCY) INCY (gemvLenY t M N).toNat c →
        writeQ m1 (vecStart Y (gemvLenY t M N) INCY + 4 * ((i:Int) * INCY)) q c = m c) := by
    intro m' i q hi hm c hc
    rw [writeQ_other (fun hin => hc ⟨i, hi, hin⟩)]
    exact hm c hc
  have hdj : ∀ i j : Nat, i < (gemvLenY t M N).toNat → j < (gemvLenY t M N).toNat → i ≠ j →
      QDisj (vecStart Y (gemvLenY t M N) INCY + 4 * ((i:Int) * INCY)) (vecStart Y (gemvLenY t M N) INCY + 4 * ((j:Int) * INCY)) :=
    fun i j _ _ hne => strided_disj h.hinc hne
  have hY := h.hY
  have key : wp (gemvF t M N ALPHA A LDA X INCX BETA Y INCY) m (fun _ m' =>
      Upd (fun m' => ∀ c, ¬ VecCell (vecStart Y (gemvLenY t M N) INCY) INCY (gemvLenY t M N).toNat c → m' c = m c)
        (fun i => vecStart Y (gemvLenY t M N) INCY + 4 * ((i:Int) * INCY)) (gemvLenY t M N).toNat m
        (fun i => fGemv (FTrans.gv t) ALPHA BETA (gemvLenX t M N).toNat (fun k => (FTrans.gv t).pick a i k) x (y i)) m') := by
    simp only [← vecStart_eq, ← eLX, ← eLY] at env hst hdj hY ⊢
    rcases ALPHA with a' | a' | a' <;> rcases BETA with b' | b' | b'
    · exact hgemvdd_bits  (hM := hM) (hN := hN) (hst := hst) (hdisj := hdj) (env := env) (hk := fun _ _ => rfl) (hY := hY)
    · exact hgemvdz_bits (hlx := (hlens (by rintro ⟨⟨_, e1⟩, ⟨_, e2⟩⟩; cases e2)).1) (hly := (hlens (by rintro ⟨⟨_, e1⟩, ⟨_, e2⟩⟩; cases e2)).2) (hM := hM) (hN := hN) (hst := hst) (hdisj := hdj) (env := env) (hk := fun _ _ => rfl) (hY := hY)
    · exact hgemvdh_bits (hs1 := hg.strideBeta ⟨_, rfl⟩ ⟨_, rfl⟩) (hlx := (hlens (by rintro ⟨⟨_, e1⟩, ⟨_, e2⟩⟩; cases e2)).1) (hly := (hlens (by rintro ⟨⟨_, e1⟩, ⟨_, e2⟩⟩; cases e2)).2) (hM := hM) (hN := hN) (hst := hst) (hdisj := hdj) (env := env) (hk := fun _ _ => rfl) (hY := hY)
    · exact hgemvzd_bits (hlx := (hlens (by rintro ⟨⟨_, e1⟩, ⟨_, e2⟩⟩; cases e1)).1) (hly := (hlens (by rintro ⟨⟨_, e1⟩, ⟨_, e2⟩⟩; cases e1)).2) (hM := hM) (hN := hN) (hst := hst) (hdisj := hdj) (env := env) (hk := fun _ _ => rfl) (hY := hY)
    · exact hgemvzz_bits (hlx := (hlens (by rintro ⟨⟨_, e1⟩, ⟨_, e2⟩⟩; cases e1)).1) (hly := (hlens (by rintro ⟨⟨_, e1⟩, ⟨_, e2⟩⟩; cases e1)).2) (hM := hM) (hN := hN) (hst := hst) (hdisj := hdj) (env := env) (hk := fun _ _ => rfl) (hY := hY)
    · exact hgemvzh_bits (hlx := (hlens (by rintro ⟨⟨_, e1⟩, ⟨_, e2⟩⟩; cases e1)).1) (hly := (hlens (by rintro ⟨⟨_, e1⟩, ⟨_, e2⟩⟩; cases e1)).2) (hM := hM) (hN := hN) (hst := hst) (hdisj := hdj) (env := env) (hk := fun _ _ => rfl) (hY := hY)
    · exact hgemvhd_bits (hs2 := fun e => hg.strideAlpha ⟨_, rfl⟩ (hn.1 e)) (hlx := (hlens (by rintro ⟨⟨_, e1⟩, ⟨_, e2⟩⟩; cases e1)).1) (hly := (hlens (by rintro ⟨⟨_, e1⟩, ⟨_, e2⟩⟩; cases e1)).2) (hM := hM) (hN := hN) (hst := hst) (hdisj := hdj) (env := env) (hk := fun _ _ => rfl) (hY := hY)
    · exact hgemvhz_bits (hs2 := fun e => hg.strideAlpha ⟨_, rfl⟩ (hn.1 e)) (hlx := (hlens (by rintro ⟨⟨_, e1⟩, ⟨_, e2⟩⟩; cases e1)).1) (hly := (hlens (by rintro ⟨⟨_, e1⟩, ⟨_, e2⟩⟩; cases e1)).2) (hM := hM) (hN := hN) (hst := hst) (hdisj := hdj) (env := env) (hk := fun _ _ => rfl) (hY := hY)
    · exact hgemvhh_bits (hs2 := fun e => hg.strideAlpha ⟨_, rfl⟩ (hn.1 e)) (hlx := (hlens (by rintro ⟨⟨_, e1⟩, ⟨_, e2⟩⟩; cases e1)).1) (hly := (hlens (by rintro ⟨⟨_, e1⟩, ⟨_, e2⟩⟩; cases e1)).2) (hM := hM) (hN := hN) (hst := hst) (hdisj := hdj) (env := env) (hk := fun _ _ => rfl) (hY := hY)
  obtain ⟨_, m', h1, h2, h3, _⟩ := key
  exact ⟨m', h1, h2, h3⟩

theorem gv_pick {α : Type} (t : Char) (X : Nat → Nat → α) (i k : Nat) :
    (FTrans.gv t).pick X i k = if IsN t then X i k else X k i := by
  unfold FTrans.gv
  by_cases h : IsN t
  · rw [if_pos ((lsame_IsN t).2 h), if_pos h]; rfl
  · rw [if_neg (fun e => h ((lsame_IsN t).1 e)), if_neg h]; split <;> rfl

end Haxx
