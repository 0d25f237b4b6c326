import Verif.PropsBeta0
import Verif.Generic2Bits
import Verif.PropsGemm
import Verif.RoundK

/-!
# C53: a NaN in an operand is never lost
-/

set_option linter.unusedSectionVars false

namespace Haxx
open Arith

section
variable {F : Type} [Arith F]

/-- A set of numbers like the IEEE NaNs: every operation with an operand in it has its result in it.  Nothing
is said about other operands (`∞ - ∞` may be in the set or not). -/
structure NaNLike (bad : F → Prop) : Prop where
  addL : ∀ {a b : F}, bad a → bad (a +ᶠ b)
  addR : ∀ {a b : F}, bad b → bad (a +ᶠ b)
  subL : ∀ {a b : F}, bad a → bad (a -ᶠ b)
  subR : ∀ {a b : F}, bad b → bad (a -ᶠ b)
  mulL : ∀ {a b : F}, bad a → bad (a *ᶠ b)
  mulR : ∀ {a b : F}, bad b → bad (a *ᶠ b)
  neg : ∀ {a : F}, bad a → bad (~ᶠ a)
  fma1 : ∀ {a b c : F}, bad a → bad (Arith.fma a b c)
  fma2 : ∀ {a b c : F}, bad b → bad (Arith.fma a b c)
  fma3 : ∀ {a b c : F}, bad c → bad (Arith.fma a b c)
  fms1 : ∀ {a b c : F}, bad a → bad (Arith.fms a b c)
  fms2 : ∀ {a b c : F}, bad b → bad (Arith.fms a b c)
  fms3 : ∀ {a b c : F}, bad c → bad (Arith.fms a b c)
  fnma1 : ∀ {a b c : F}, bad a → bad (Arith.fnma a b c)
  fnma2 : ∀ {a b c : F}, bad b → bad (Arith.fnma a b c)
  fnma3 : ∀ {a b c : F}, bad c → bad (Arith.fnma a b c)

/-- At least one component is a NaN. -/
def Quat.HasNaN (bad : F → Prop) (q : Quat F) : Prop := bad q.re ∨ bad q.i ∨ bad q.j ∨ bad q.k
/-- All four components are NaNs. -/
def Quat.AllNaN (bad : F → Prop) (q : Quat F) : Prop := bad q.re ∧ bad q.i ∧ bad q.j ∧ bad q.k
/-- The scalar (real, complex or quaternion) has a NaN component. -/
def Scal.HasNaN (bad : F → Prop) : Scal F → Prop
  | .d a => bad a
  | .z a => bad a.re ∨ bad a.im
  | .h a => a.HasNaN bad

theorem Quat.AllNaN.has {bad : F → Prop} {q : Quat F} (h : q.AllNaN bad) : q.HasNaN bad := Or.inl h.1

variable {bad : F → Prop} (h : NaNLike bad)

/-- Follow a NaN operand through the operations to the result. -/
local macro "nan" h:ident : tactic => `(tactic| solve_by_elim (maxDepth := 14) only
  [($h).addL, ($h).addR, ($h).subL, ($h).subR, ($h).mulL, ($h).mulR, ($h).neg, ($h).fma1, ($h).fma2, ($h).fma3,
   ($h).fms1, ($h).fms2, ($h).fms3, ($h).fnma1, ($h).fnma2, ($h).fnma3, *])

include h

/-! ## Register operations -/

theorem nan_qincL {x y r : Quat F} (hx : x.HasNaN bad) : (qinc x y r).AllNaN bad := by
  rcases hx with e | e | e | e <;> refine ⟨?_, ?_, ?_, ?_⟩ <;> dsimp only [qinc] <;> nan h

theorem nan_qincR {x y r : Quat F} (hx : y.HasNaN bad) : (qinc x y r).AllNaN bad := by
  rcases hx with e | e | e | e <;> refine ⟨?_, ?_, ?_, ?_⟩ <;> dsimp only [qinc] <;> nan h

theorem nan_qinc_acc {x y r : Quat F} (hx : r.AllNaN bad) : (qinc x y r).AllNaN bad := by
  obtain ⟨e1, e2, e3, e4⟩ := hx
  refine ⟨?_, ?_, ?_, ?_⟩ <;> dsimp only [qinc] <;> nan h

theorem nan_qinc_acc' {x y r : Quat F} (hx : r.HasNaN bad) : (qinc x y r).HasNaN bad := by
  rcases hx with e | e | e | e
  · left; dsimp only [qinc]; nan h
  · right; left; dsimp only [qinc]; nan h
  · right; right; left; dsimp only [qinc]; nan h
  · right; right; right; dsimp only [qinc]; nan h

theorem nan_qincCL {x y r : Quat F} (hx : x.HasNaN bad) : (StdModel.qincC x y r).AllNaN bad := by
  rcases hx with e | e | e | e <;> refine ⟨?_, ?_, ?_, ?_⟩ <;> dsimp only [StdModel.qincC] <;> nan h

theorem nan_qincCR {x y r : Quat F} (hx : y.HasNaN bad) : (StdModel.qincC x y r).AllNaN bad := by
  rcases hx with e | e | e | e <;> refine ⟨?_, ?_, ?_, ?_⟩ <;> dsimp only [StdModel.qincC] <;> nan h

theorem nan_qincC_acc {x y r : Quat F} (hx : r.AllNaN bad) : (StdModel.qincC x y r).AllNaN bad := by
  obtain ⟨e1, e2, e3, e4⟩ := hx
  refine ⟨?_, ?_, ?_, ?_⟩ <;> dsimp only [StdModel.qincC] <;> nan h

omit h in
theorem MULDQ_NN_parts (x y : Quat F) : MULDQ_NN x y =
    ⟨Arith.fms x.re y.re (x.k *ᶠ y.k) +ᶠ ~ᶠ (Arith.fma x.j y.j (x.i *ᶠ y.i)),
     Arith.fms x.re y.i (x.k *ᶠ y.j) +ᶠ Arith.fma x.j y.k (x.i *ᶠ y.re),
     Arith.fms x.re y.j (x.i *ᶠ y.k) +ᶠ Arith.fma x.k y.i (x.j *ᶠ y.re),
     Arith.fms x.re y.k (x.j *ᶠ y.i) +ᶠ Arith.fma x.i y.j (x.k *ᶠ y.re)⟩ := rfl

theorem nan_muldqL {x y : Quat F} (hx : x.HasNaN bad) : (MULDQ_NN x y).AllNaN bad := by
  rw [MULDQ_NN_parts]
  rcases hx with e | e | e | e <;> refine ⟨?_, ?_, ?_, ?_⟩ <;> dsimp only <;> nan h

theorem nan_muldqR {x y : Quat F} (hx : y.HasNaN bad) : (MULDQ_NN x y).AllNaN bad := by
  rw [MULDQ_NN_parts]
  rcases hx with e | e | e | e <;> refine ⟨?_, ?_, ?_, ?_⟩ <;> dsimp only <;> nan h

theorem nan_qconj256 {x : Quat F} (hx : x.HasNaN bad) : (qconj256 x).HasNaN bad := by
  rcases hx with e | e | e | e
  · exact Or.inl e
  · exact Or.inr (Or.inl (h.neg e))
  · exact Or.inr (Or.inr (Or.inl (h.neg e)))
  · exact Or.inr (Or.inr (Or.inr (h.neg e)))

theorem nan_vaddL {x y : Quat F} (hx : x.HasNaN bad) : (vadd x y).HasNaN bad := by
  rcases hx with e | e | e | e
  · exact Or.inl (h.addL e)
  · exact Or.inr (Or.inl (h.addL e))
  · exact Or.inr (Or.inr (Or.inl (h.addL e)))
  · exact Or.inr (Or.inr (Or.inr (h.addL e)))

theorem nan_vaddR {x y : Quat F} (hx : y.HasNaN bad) : (vadd x y).HasNaN bad := by
  rcases hx with e | e | e | e
  · exact Or.inl (h.addR e)
  · exact Or.inr (Or.inl (h.addR e))
  · exact Or.inr (Or.inr (Or.inl (h.addR e)))
  · exact Or.inr (Or.inr (Or.inr (h.addR e)))

theorem nan_vaddL' {x y : Quat F} (hx : x.AllNaN bad) : (vadd x y).AllNaN bad :=
  ⟨h.addL hx.1, h.addL hx.2.1, h.addL hx.2.2.1, h.addL hx.2.2.2⟩

theorem nan_vaddR' {x y : Quat F} (hx : y.AllNaN bad) : (vadd x y).AllNaN bad :=
  ⟨h.addR hx.1, h.addR hx.2.1, h.addR hx.2.2.1, h.addR hx.2.2.2⟩

/-! ## Level 1, SIMD -/

theorem nan_scalOp (L : Bool) {a : Scal F} {x : Quat F} (hx : a.HasNaN bad ∨ x.HasNaN bad) :
    (scalOp L a x).HasNaN bad := by
  cases a with
  | d a =>
    rcases hx with e | e | e | e | e
    · exact Or.inl (h.mulL e)
    · exact Or.inl (h.mulR e)
    · exact Or.inr (Or.inl (h.mulR e))
    · exact Or.inr (Or.inr (Or.inl (h.mulR e)))
    · exact Or.inr (Or.inr (Or.inr (h.mulR e)))
  | z a =>
    rcases hx with (e | e) | e | e | e | e
    · exact Or.inl (h.subL (h.mulR e))
    · exact Or.inl (h.subR (h.mulR e))
    · exact Or.inl (h.subL (h.mulL e))
    · exact Or.inl (h.subR (h.mulL e))
    · exact Or.inr (Or.inr (Or.inl (h.subL (h.mulL e))))
    · exact Or.inr (Or.inr (Or.inl (h.subR (h.mulL e))))
  | h a =>
    cases L
    · rcases hx with e | e
      · exact (nan_muldqR h e).has
      · exact (nan_muldqL h e).has
    · rcases hx with e | e
      · exact (nan_muldqL h e).has
      · exact (nan_muldqR h e).has

theorem nan_axpyOp (L : Bool) {a : Scal F} {x y : Quat F}
    (hx : y.HasNaN bad ∨ a.HasNaN bad ∨ x.HasNaN bad) : (axpyOp L a x y).HasNaN bad := by
  cases a with
  | d a =>
    rcases hx with (e | e | e | e) | e | e | e | e | e
    · exact Or.inl (h.fma3 e)
    · exact Or.inr (Or.inl (h.fma3 e))
    · exact Or.inr (Or.inr (Or.inl (h.fma3 e)))
    · exact Or.inr (Or.inr (Or.inr (h.fma3 e)))
    · exact Or.inl (h.fma1 e)
    · exact Or.inl (h.fma2 e)
    · exact Or.inr (Or.inl (h.fma2 e))
    · exact Or.inr (Or.inr (Or.inl (h.fma2 e)))
    · exact Or.inr (Or.inr (Or.inr (h.fma2 e)))
  | z a =>
    rcases hx with e | e
    · exact nan_vaddL h e
    · exact nan_vaddR h (nan_scalOp h L (a := .z a) e)
  | h a =>
    cases L
    · rcases hx with e | e
      · exact nan_vaddL h e
      · exact nan_vaddR h (nan_scalOp h false (a := .h a) e)
    · rcases hx with e | e
      · exact nan_vaddL h e
      · exact nan_vaddR h (nan_scalOp h true (a := .h a) e)

theorem nan_dotMul (cj : Bool) {x y : Quat F} (hx : x.HasNaN bad ∨ y.HasNaN bad) :
    (if cj then MULDQ_CN x y else MULDQ_NN x y).AllNaN bad := by
  cases cj
  · rcases hx with e | e
    · exact nan_muldqL h e
    · exact nan_muldqR h e
  · rcases hx with e | e
    · exact nan_muldqL h (nan_qconj256 h e)
    · exact nan_muldqR h e

theorem nan_dotRest (cj : Bool) (x y : Nat → Quat F) (o : Nat) (r : Quat F) (n : Nat)
    (hx : r.AllNaN bad ∨ ∃ i, i < n ∧ ((x (o+i)).HasNaN bad ∨ (y (o+i)).HasNaN bad)) :
    (dotRest cj x y o r n).AllNaN bad := by
  induction n with
  | zero =>
    rcases hx with e | ⟨i, hi, _⟩
    · exact e
    · omega
  | succ n ih =>
    rcases hx with e | ⟨i, hi, e⟩
    · exact nan_vaddL' h (ih (Or.inl e))
    · by_cases hin : i = n
      · subst hin; exact nan_vaddR' h (nan_dotMul h cj e)
      · exact nan_vaddL' h (ih (Or.inr ⟨i, by omega, e⟩))

theorem nan_laneAcc (cj : Bool) (x y : Nat → Quat F) (l b i : Nat) (hi : i < b)
    (hx : (x (4*i+l)).HasNaN bad ∨ (y (4*i+l)).HasNaN bad) : (StdModel.laneAcc cj x y l b).AllNaN bad := by
  induction b with
  | zero => omega
  | succ b ih =>
    unfold StdModel.laneAcc
    by_cases hin : i = b
    · subst hin
      cases cj
      · rcases hx with e | e
        · exact nan_qincL h e
        · exact nan_qincR h e
      · rcases hx with e | e
        · exact nan_qincCL h e
        · exact nan_qincCR h e
    · have := ih (by omega)
      cases cj
      · exact nan_qinc_acc h this
      · exact nan_qincC_acc h this

theorem nan_dotVal (cj : Bool) (n : Nat) (x y : Nat → Quat F) (i : Nat) (hi : i < n)
    (hx : (x i).HasNaN bad ∨ (y i).HasNaN bad) : (dotVal cj n x y).AllNaN bad := by
  unfold dotVal
  rw [StdModel.dotBatches_lane]
  dsimp only
  apply nan_dotRest h
  by_cases hb : i < 4 * (n / 4)
  · left
    have e : i = 4 * (i / 4) + i % 4 := by omega
    have hlt : i / 4 < n / 4 := by omega
    rw [e] at hx
    have key := nan_laneAcc h cj x y (i % 4) (n / 4) (i / 4) hlt hx
    have : i % 4 = 0 ∨ i % 4 = 1 ∨ i % 4 = 2 ∨ i % 4 = 3 := by omega
    rcases this with q | q | q | q <;> rw [q] at key
    · exact nan_vaddL' h (nan_vaddL' h (nan_vaddL' h key))
    · exact nan_vaddL' h (nan_vaddL' h (nan_vaddR' h key))
    · exact nan_vaddL' h (nan_vaddR' h key)
    · exact nan_vaddR' h key
  · right
    exact ⟨i - 4 * (n / 4), by omega, by rw [show 4 * (n/4) + (i - 4 * (n/4)) = i by omega]; exact hx⟩

/-- C53, SCALV (SIMD): an element with a NaN component still has one afterwards, and if ALPHA has one then
every element has. -/
theorem C53_scalv_simd (m : Mem F) (SIDE : Char) (N X INCX : Int) (ALPHA : Scal F) (x : Nat → Quat F)
    (hX : VecAt m X INCX N.toNat x) (hinc : INCX ≠ 0) :
    ∃ (m' : Mem F) (x' : Nat → Quat F), scalvAVX SIDE N ALPHA X INCX m = .ok ((), m') ∧ VecAt m' X INCX N.toNat x' ∧
      ∀ i, i < N.toNat → (ALPHA.HasNaN bad ∨ (x i).HasNaN bad) → (x' i).HasNaN bad := by
  obtain ⟨_, m', h1, h2, _⟩ := scalvAVX_wp (SIDE := SIDE) (ALPHA := ALPHA) hX (Or.inl hinc)
  exact ⟨m', _, h1, h2, fun i _ e => nan_scalOp h _ e⟩

/-- C53, AXPYV (SIMD). -/
theorem C53_axpyv_simd (m : Mem F) (SIDE : Char) (N X INCX Y INCY : Int) (ALPHA : Scal F) (x y : Nat → Quat F)
    (hX : VecAt m X INCX N.toNat x) (hY : VecAt m Y INCY N.toNat y) (hinc : INCY ≠ 0)
    (hdis : Apart (VecCell X INCX N.toNat) (VecCell Y INCY N.toNat)) :
    ∃ (m' : Mem F) (y' : Nat → Quat F), axpyvAVX SIDE N ALPHA X INCX Y INCY m = .ok ((), m') ∧
      VecAt m' Y INCY N.toNat y' ∧
      ∀ i, i < N.toNat → ((y i).HasNaN bad ∨ ALPHA.HasNaN bad ∨ (x i).HasNaN bad) → (y' i).HasNaN bad := by
  obtain ⟨_, m', h1, h2, _⟩ := axpyvAVX_wp (SIDE := SIDE) (ALPHA := ALPHA) hX hY (Or.inl hinc) hdis
  exact ⟨m', _, h1, h2, fun i _ e => nan_axpyOp h _ e⟩

/-- C53, DOTUV and DOTCV (SIMD): one NaN component anywhere in `x` or `y` makes all four components of the
result NaNs. -/
theorem C53_dot_simd (m : Mem F) (conj : Bool) (N X INCX Y INCY : Int) (x y : Nat → Quat F)
    (hX : VecAt m X INCX N.toNat x) (hY : VecAt m Y INCY N.toNat y)
    (hx32 : Fits32 (4 * INCX)) (hy32 : Fits32 (4 * INCY)) :
    ∃ r, dotAVX conj N X INCX Y INCY m = .ok (r, m) ∧
      ∀ i, i < N.toNat → ((x i).HasNaN bad ∨ (y i).HasNaN bad) → r.AllNaN bad := by
  obtain ⟨r, m', h1, rfl, rfl⟩ := dotAVX_wp (conj := conj) hX hY (fun _ => hx32) (fun _ => hy32)
  exact ⟨_, h1, fun i hi e => nan_dotVal h conj _ x y i hi e⟩

/-! ## GEMM, SIMD -/

theorem nan_accum {x y : Nat → Quat F} {n k : Nat} (hk : k < n) (r : Quat F)
    (hx : (x k).HasNaN bad ∨ (y k).HasNaN bad) : (accum x y n r).AllNaN bad := by
  induction n with
  | zero => omega
  | succ n ih =>
    unfold accum
    by_cases e : k = n
    · subst e
      rcases hx with e | e
      · exact nan_qincL h e
      · exact nan_qincR h e
    · exact nan_qinc_acc h (ih (by omega))

theorem nan_accum_acc {x y : Nat → Quat F} (n : Nat) {r : Quat F} (hr : r.HasNaN bad) :
    (accum x y n r).HasNaN bad := by
  induction n with
  | zero => exact hr
  | succ n ih => exact nan_qinc_acc' h ih

theorem nan_preOP (cj : Bool) {a : Scal F} {x : Quat F} (hx : a.HasNaN bad ∨ x.HasNaN bad) :
    (preOP cj (loadScalar (some a)) x).HasNaN bad := by
  have key : ∀ y : Quat F, (a.HasNaN bad ∨ y.HasNaN bad) → (regMulL (loadScalar (some a)) y).HasNaN bad := by
    intro y hy
    cases a with
    | d a =>
      rcases hy with e | e | e | e | e
      · exact Or.inl (h.mulL e)
      · exact Or.inl (h.mulR e)
      · exact Or.inr (Or.inl (h.mulR e))
      · exact Or.inr (Or.inr (Or.inl (h.mulR e)))
      · exact Or.inr (Or.inr (Or.inr (h.mulR e)))
    | z a =>
      rcases hy with (e | e) | e | e | e | e
      · exact Or.inl (h.subL (h.mulR e))
      · exact Or.inl (h.subR (h.mulR e))
      · exact Or.inl (h.subL (h.mulL e))
      · exact Or.inl (h.subR (h.mulL e))
      · exact Or.inr (Or.inr (Or.inl (h.subL (h.mulL e))))
      · exact Or.inr (Or.inr (Or.inl (h.subR (h.mulL e))))
    | h a =>
      rcases hy with e | e
      · exact (nan_muldqL h e).has
      · exact (nan_muldqR h e).has
  unfold preOP
  cases cj
  · exact key x hx
  · exact key _ (hx.imp id (nan_qconj256 h))

theorem nan_preOP_none (cj : Bool) {x : Quat F} (hx : x.HasNaN bad) :
    (preOP cj (loadScalar none) x).HasNaN bad := by
  unfold preOP
  cases cj
  · exact hx
  · exact nan_qconj256 h hx

/-- C53, GEMM (SIMD): one NaN component in row `i` of op(A) or in column `j` of op(B), or in ALPHA (if there
is anything to multiply), makes all of `C(i,j)` NaN; one in the old `C(i,j)` or in BETA leaves at least one.
(`a i k`, `b k j` are the stored elements that op(A)(i,k) and op(B)(k,j) refer to.) -/
theorem C53_gemm_simd (m : Mem F) (blk : Blk) (bAddr aAddr : Int) (junk : Int → F)
    (tA tB : Char) (M N K : Int) (ALPHA BETA : Scal F) (A LDA B LDB C LDC : Int) (Av Bv Cv : Nat → Nat → Quat F)
    (hp : GemmPre m blk bAddr aAddr tA tB M.toNat N.toNat K.toNat A LDA Av B LDB Bv C LDC Cv) :
    ∃ (m' : Mem F) (C' : Nat → Nat → Quat F),
      gemmAVX blk bAddr aAddr junk tA tB M N K ALPHA A LDA B LDB BETA C LDC m = .ok ((), m') ∧
      MatAt m' C LDC M.toNat N.toNat C' ∧
      ∀ i j, i < M.toNat → j < N.toNat →
        (∀ k, k < K.toNat → (ALPHA.HasNaN bad ∨ (if tA = 'T' ∨ tA = 'C' then Av k i else Av i k).HasNaN bad ∨
          (if tB = 'T' ∨ tB = 'C' then Bv j k else Bv k j).HasNaN bad) → (C' i j).AllNaN bad) ∧
        (BETA.HasNaN bad ∨ (Cv i j).HasNaN bad → (C' i j).HasNaN bad) := by
  obtain ⟨_, m', h1, h2, _⟩ := gemmAVX_wp (junk := junk) (ALPHA := ALPHA) (BETA := BETA) hp
  rw [← gemmAVX_clamp hp.mc_pos hp.nc_pos hp.kc_pos] at h1
  refine ⟨m', _, h1, h2, ?_⟩
  intro i j hi hj
  constructor
  · intro k hk e
    unfold gemmElt
    refine nan_accum h hk _ ?_
    rcases e with e | e | e
    · exact Or.inl (nan_preOP h _ (Or.inl e))
    · exact Or.inl (nan_preOP h _ (Or.inr e))
    · exact Or.inr (nan_preOP_none h _ e)
  · intro e
    exact nan_accum_acc h _ (nan_scalOp h true e)

/-! ## The portable templates -/

theorem nan_mulL_ {x y : Quat F} (hx : x.HasNaN bad) : (Quat.mul x y).AllNaN bad := by
  rcases hx with e | e | e | e <;> refine ⟨?_, ?_, ?_, ?_⟩ <;> dsimp only [Quat.mul] <;> nan h

theorem nan_mulR_ {x y : Quat F} (hx : y.HasNaN bad) : (Quat.mul x y).AllNaN bad := by
  rcases hx with e | e | e | e <;> refine ⟨?_, ?_, ?_, ?_⟩ <;> dsimp only [Quat.mul] <;> nan h

theorem nan_smulL {a : Scal F} {x : Quat F} (hx : a.HasNaN bad ∨ x.HasNaN bad) : (a.mulL x).HasNaN bad := by
  cases a with
  | d a =>
    rcases hx with e | e | e | e | e
    · exact Or.inl (h.mulR e)
    · exact Or.inl (h.mulL e)
    · exact Or.inr (Or.inl (h.mulL e))
    · exact Or.inr (Or.inr (Or.inl (h.mulL e)))
    · exact Or.inr (Or.inr (Or.inr (h.mulL e)))
  | z a =>
    rcases hx with (e | e) | e | e | e | e
    · exact Or.inl (h.subL (h.mulL e))
    · exact Or.inl (h.subR (h.mulL e))
    · exact Or.inl (h.subL (h.mulR e))
    · exact Or.inl (h.subR (h.mulR e))
    · exact Or.inr (Or.inr (Or.inl (h.subL (h.mulR e))))
    · exact Or.inr (Or.inr (Or.inl (h.subR (h.mulR e))))
  | h a =>
    rcases hx with e | e
    · exact (nan_mulL_ h e).has
    · exact (nan_mulR_ h e).has

theorem nan_smulR {a : Scal F} {x : Quat F} (hx : a.HasNaN bad ∨ x.HasNaN bad) : (Scal.mulR x a).HasNaN bad := by
  cases a with
  | d a =>
    rcases hx with e | e | e | e | e
    · exact Or.inl (h.mulR e)
    · exact Or.inl (h.mulL e)
    · exact Or.inr (Or.inl (h.mulL e))
    · exact Or.inr (Or.inr (Or.inl (h.mulL e)))
    · exact Or.inr (Or.inr (Or.inr (h.mulL e)))
  | z a =>
    rcases hx with (e | e) | e | e | e | e
    · exact Or.inl (h.subL (h.mulR e))
    · exact Or.inl (h.subR (h.mulR e))
    · exact Or.inl (h.subL (h.mulL e))
    · exact Or.inl (h.subR (h.mulL e))
    · exact Or.inr (Or.inr (Or.inl (h.addL (h.mulL e))))
    · exact Or.inr (Or.inr (Or.inl (h.addR (h.mulL e))))
  | h a =>
    rcases hx with e | e
    · exact (nan_mulR_ h e).has
    · exact (nan_mulL_ h e).has

theorem nan_addL {x y : Quat F} (hx : x.HasNaN bad) : (Quat.addAssign x y).HasNaN bad := nan_vaddL h hx
theorem nan_addR {x y : Quat F} (hx : y.HasNaN bad) : (Quat.addAssign x y).HasNaN bad := nan_vaddR h hx
theorem nan_addL' {x y : Quat F} (hx : x.AllNaN bad) : (Quat.addAssign x y).AllNaN bad := nan_vaddL' h hx
theorem nan_addR' {x y : Quat F} (hx : y.AllNaN bad) : (Quat.addAssign x y).AllNaN bad := nan_vaddR' h hx

theorem nan_conj {x : Quat F} (hx : x.HasNaN bad) : (Quat.conj x).HasNaN bad := nan_qconj256 h hx

theorem nan_smartConj {x : Scal F} (hx : x.HasNaN bad) : x.smartConj.HasNaN bad := by
  cases x with
  | d a => exact hx
  | z a => exact hx.imp id h.neg
  | h a => exact nan_conj h hx

theorem nan_pDotQ (cj : Bool) (x y : Nat → Quat F) (n i : Nat) (hi : i < n)
    (hx : (x i).HasNaN bad ∨ (y i).HasNaN bad) : (pDotQ cj x y n).AllNaN bad := by
  induction n with
  | zero => omega
  | succ n ih =>
    unfold pDotQ
    by_cases e : i = n
    · subst e
      apply nan_addR' h
      rcases hx with e | e
      · apply nan_mulL_ h
        cases cj
        · exact e
        · exact nan_conj h e
      · exact nan_mulR_ h e
    · exact nan_addL' h (ih (by omega))

theorem nan_pDot (x : Nat → Scal F) (y : Nat → Quat F) (n i : Nat) (hi : i < n)
    (hx : (x i).HasNaN bad ∨ (y i).HasNaN bad) : (pDot x y n).HasNaN bad := by
  induction n with
  | zero => omega
  | succ n ih =>
    unfold pDot
    by_cases e : i = n
    · subst e
      exact nan_addR h (nan_smulL h hx)
    · exact nan_addL h (ih (by omega))

theorem nan_smul {a b : Scal F} (hx : a.HasNaN bad ∨ b.HasNaN bad) : (a.mul b).HasNaN bad := by
  cases b with
  | h b => cases a <;> exact nan_smulL h hx
  | d b =>
    cases a with
    | d a => exact hx.elim h.mulL h.mulR
    | z a =>
      rcases hx with (e | e) | e
      · exact Or.inl (h.mulL e)
      · exact Or.inr (h.mulL e)
      · exact Or.inl (h.mulR e)
    | h a => exact nan_smulR h (a := .d b) (x := a) hx.symm
  | z b =>
    cases a with
    | d a =>
      rcases hx with e | e | e
      · exact Or.inl (h.mulL e)
      · exact Or.inl (h.mulR e)
      · exact Or.inr (h.mulR e)
    | z a =>
      rcases hx with (e | e) | e | e
      · exact Or.inl (h.subL (h.mulL e))
      · exact Or.inl (h.subR (h.mulL e))
      · exact Or.inl (h.subL (h.mulR e))
      · exact Or.inl (h.subR (h.mulR e))
    | h a => exact nan_smulR h (a := .z b) (x := a) hx.symm

theorem nan_pAcc (ALPHA : Scal F) (x : Nat → Scal F) (y : Nat → Quat F) (c : Quat F) (n : Nat)
    (hx : c.HasNaN bad ∨ ∃ i, i < n ∧ (ALPHA.HasNaN bad ∨ (x i).HasNaN bad ∨ (y i).HasNaN bad)) :
    (pAcc ALPHA x y c n).HasNaN bad := by
  induction n with
  | zero =>
    rcases hx with e | ⟨i, hi, _⟩
    · exact e
    · omega
  | succ n ih =>
    unfold pAcc
    rcases hx with e | ⟨i, hi, e⟩
    · exact nan_addL h (ih (Or.inl e))
    · by_cases q : i = n
      · subst q
        apply nan_addR h
        apply nan_smulL h
        rcases e with e | e | e
        · exact Or.inl (nan_smul h (Or.inl e))
        · exact Or.inl (nan_smul h (Or.inr e))
        · exact Or.inr e
      · exact nan_addL h (ih (Or.inr ⟨i, by omega, e⟩))

/-- C53, SCALV (portable). -/
theorem C53_scalv_portable (m : Mem F) (SIDE : Char) (N X INCX : Int) (ALPHA : Scal F) (x : Nat → Quat F)
    (hX : VecAt m X INCX N.toNat x) (hinc : 0 < INCX) (fx : Fits32 (N * INCX)) :
    ∃ (m' : Mem F) (x' : Nat → Quat F), scalvGen SIDE N ALPHA X INCX m = .ok ((), m') ∧ VecAt m' X INCX N.toNat x' ∧
      ∀ i, i < N.toNat → (ALPHA.HasNaN bad ∨ (x i).HasNaN bad) → (x' i).HasNaN bad := by
  obtain ⟨_, m', h1, h2, _⟩ := scalvGen_wp (SIDE := SIDE) (ALPHA := ALPHA) hinc fx hX
  refine ⟨m', _, h1, h2, fun i _ e => ?_⟩
  try dsimp only
  split
  · exact nan_smulR h e
  · exact nan_smulL h e

/-- C53, DOTUV and DOTCV (portable). -/
theorem C53_dot_portable (m : Mem F) (conj : Bool) (N X INCX Y INCY : Int) (x y : Nat → Quat F)
    (hx : 0 < INCX) (hy : 0 < INCY) (fx : Fits32 (N * INCX)) (fy : Fits32 (N * INCY))
    (hX : VecAt m X INCX N.toNat x) (hY : VecAt m Y INCY N.toNat y) :
    ∃ r, dotGen conj N X INCX Y INCY m = .ok (r, m) ∧
      ∀ i, i < N.toNat → ((x i).HasNaN bad ∨ (y i).HasNaN bad) → r.AllNaN bad := by
  obtain ⟨r, m', h1, rfl, rfl⟩ := dotGen_bits (conj := conj) hx hy fx fy hX hY
  exact ⟨_, h1, fun i hi e => nan_pDotQ h conj x y _ i hi e⟩

variable [ArithEq F]

/-- C53, AXPYV (portable), when the template does not take ALPHA for zero. -/
theorem C53_axpyv_portable (m : Mem F) (SIDE : Char) (N X INCX Y INCY : Int) (ALPHA : Scal F) (x y : Nat → Quat F)
    (hx : 0 < INCX) (hy : 0 < INCY) (fx : Fits32 (N * INCX)) (fy : Fits32 (N * INCY)) (hz : ALPHA.eqZero = false)
    (hX : VecAt m X INCX N.toNat x) (hY : VecAt m Y INCY N.toNat y)
    (hdis : Apart (VecCell X INCX N.toNat) (VecCell Y INCY N.toNat)) :
    ∃ (m' : Mem F) (y' : Nat → Quat F), axpyvGen SIDE N ALPHA X INCX Y INCY m = .ok ((), m') ∧
      VecAt m' Y INCY N.toNat y' ∧
      ∀ i, i < N.toNat → ((y i).HasNaN bad ∨ ALPHA.HasNaN bad ∨ (x i).HasNaN bad) → (y' i).HasNaN bad := by
  obtain ⟨_, m', h1, h2, _⟩ := axpyvGen_wp (SIDE := SIDE) (ALPHA := ALPHA) hx hy fx fy hz hX hY hdis
  refine ⟨m', _, h1, h2, fun i _ e => ?_⟩
  try dsimp only
  rcases e with e | e
  · exact nan_addL h e
  · apply nan_addR h
    split
    · exact nan_smulR h e
    · exact nan_smulL h e

/-- C53, GEMM (portable, any type of A), when the template does not take ALPHA for zero; the old C counts
unless it takes BETA for zero, a NaN in BETA unless it takes BETA for zero or one. -/
theorem C53_gemm_portable (m : Mem F) (k : Kind) (tA tB : Char) (M N K : Int) (ALPHA BETA : Scal F)
    (A LDA B LDB C LDC : Int) (Av : Nat → Nat → Scal F) (Bv Cv : Nat → Nat → Quat F)
    (hp : GemmBArgs m k tA tB M N K ALPHA A LDA B LDB C LDC Av Bv Cv) (ha : ALPHA.eqZero = false) :
    ∃ (m' : Mem F) (C' : Nat → Nat → Quat F),
      gemmGen k tA tB M N K ALPHA A LDA B LDB BETA C LDC m = .ok ((), m') ∧ MatAt m' C LDC M.toNat N.toNat C' ∧
      ∀ i j, i < M.toNat → j < N.toNat →
        (∀ l, l < K.toNat → (ALPHA.HasNaN bad ∨ (if tA = 'N' then Av i l else Av l i).HasNaN bad ∨
          (if tB = 'N' then Bv l j else Bv j l).HasNaN bad) → (C' i j).HasNaN bad) ∧
        (BETA.eqZero = false → (Cv i j).HasNaN bad → (C' i j).HasNaN bad) ∧
        (BETA.eqZero = false → BETA.eqOne = false → BETA.HasNaN bad → (C' i j).HasNaN bad) := by
  obtain ⟨m', h1, h2, _⟩ := gemmGen_bits m k tA tB M N K ALPHA BETA A LDA B LDB C LDC Av Bv Cv hp
  have opA : ∀ i l, (if tA = 'N' then Av i l else Av l i).HasNaN bad → (opKE tA Av i l).HasNaN bad := by
    intro i l e
    unfold opKE
    split at e
    · rename_i q; rw [if_pos q]; exact e
    · rename_i q; rw [if_neg q]; split
      · exact nan_smartConj h e
      · exact e
  have opB : ∀ l j, (if tB = 'N' then Bv l j else Bv j l).HasNaN bad → (opQE tB Bv l j).HasNaN bad := by
    intro l j e
    unfold opQE
    split at e
    · rename_i q; rw [if_pos q]; exact e
    · rename_i q; rw [if_neg q]; split
      · exact nan_conj h e
      · exact e
  refine ⟨m', _, h1, h2, ?_⟩
  intro i j hi hj
  try dsimp only
  unfold pGemm
  rw [ha, Bool.false_or]
  refine ⟨?_, ?_, ?_⟩
  · intro l hl e
    have hK : decide (K = 0) = false := by rw [decide_eq_false_iff_not]; omega
    rw [hK, Bool.false_and, if_neg Bool.false_ne_true, if_neg Bool.false_ne_true]
    split
    · exact nan_pAcc h _ _ _ _ _ (Or.inr ⟨l, hl, e.imp id (Or.imp (opA i l) (opB l j))⟩)
    · have : (ALPHA.mulL (pDot (opKE tA Av i) (fun l => opQE tB Bv l j) K.toNat)).HasNaN bad := by
        apply nan_smulL h
        rcases e with e | e
        · exact Or.inl e
        · exact Or.inr (nan_pDot h _ _ _ l hl (Or.imp (opA i l) (opB l j) e))
      unfold pStore
      split
      · exact this
      · exact nan_addL h this
  · intro hb e
    split
    · exact e
    · rw [if_neg Bool.false_ne_true]
      split
      · apply nan_pAcc h
        left
        unfold pBeta
        rw [hb, if_neg Bool.false_ne_true]
        split
        · exact nan_smulL h (Or.inr e)
        · exact e
      · unfold pStore
        rw [hb, if_neg Bool.false_ne_true]
        exact nan_addR h (nan_smulL h (Or.inr e))
  · intro hb hb1 e
    rw [hb1, Bool.and_false, if_neg Bool.false_ne_true, if_neg Bool.false_ne_true]
    split
    · apply nan_pAcc h
      left
      unfold pBeta
      rw [hb, hb1, if_neg Bool.false_ne_true]
      exact nan_smulL h (Or.inl e)
    · unfold pStore
      rw [hb, if_neg Bool.false_ne_true]
      exact nan_addR h (nan_smulL h (Or.inl e))


theorem nan_pAxpys (ALPHA : Scal F) (a : Nat → Scal F) (x : Nat → Quat F) (y : Quat F) (n : Nat)
    (hx : y.HasNaN bad ∨ ∃ i, i < n ∧ (ALPHA.HasNaN bad ∨ (a i).HasNaN bad ∨ (x i).HasNaN bad)) :
    (pAxpys ALPHA a x y n).HasNaN bad := by
  induction n with
  | zero =>
    rcases hx with e | ⟨i, hi, _⟩
    · exact e
    · omega
  | succ n ih =>
    unfold pAxpys pAxpy
    rcases hx with e | ⟨i, hi, e⟩
    · exact nan_addL h (nan_addL h (ih (Or.inl e)))
    · by_cases q : i = n
      · subst q
        apply nan_addL h
        apply nan_addR h
        apply nan_smulL h
        rcases e with e | e | e
        · exact Or.inr (nan_smulL h (Or.inl e))
        · exact Or.inl e
        · exact Or.inr (nan_smulL h (Or.inr e))
      · exact nan_addL h (nan_addL h (ih (Or.inr ⟨i, by omega, e⟩)))

/-- C53, GEMV (portable, any type of A), when the template does not take ALPHA for zero: every y element of
which the old value, or an entry of the row of op(A) or of x, has a NaN. -/
theorem C53_gemv_portable (m : Mem F) (k : Kind) (t : Char) (M N : Int) (ALPHA : Scal F) (A LDA X INCX : Int)
    (BETA : Scal F) (Y INCY : Int) (a : Nat → Nat → Scal F) (x y : Nat → Quat F)
    (hM : M ≠ 0) (hN : N ≠ 0) (hp : GemvBArgs m k t M N ALPHA A LDA X INCX Y INCY a x y) (ha : ALPHA.eqZero = false) :
    ∃ (m' : Mem F) (y' : Nat → Quat F),
      gemvGen k t M N ALPHA A LDA X INCX BETA Y INCY m = .ok ((), m') ∧
      VecAt m' Y INCY (if t = 'N' then M else N).toNat y' ∧
      ∀ i, i < (if t = 'N' then M else N).toNat →
        (∀ l, l < (if t = 'N' then N else M).toNat → (ALPHA.HasNaN bad ∨
          (if t = 'N' then a i l else a l i).HasNaN bad ∨ (x l).HasNaN bad) → (y' i).HasNaN bad) ∧
        (BETA.eqZero = false → (y i).HasNaN bad → (y' i).HasNaN bad) ∧
        (BETA.eqZero = false → BETA.eqOne = false → BETA.HasNaN bad → (y' i).HasNaN bad) := by
  obtain ⟨m', h1, h2, _⟩ := gemvGen_bits m k t M N ALPHA A LDA X INCX BETA Y INCY a x y hM hN hp
  have opA : ∀ i l, (if t = 'N' then a i l else a l i).HasNaN bad → (opVE t a i l).HasNaN bad := by
    intro i l e
    unfold opVE
    split at e
    · rename_i q; rw [if_pos q]; exact e
    · rename_i q; rw [if_neg q]; split
      · exact e
      · exact nan_smartConj h e
  have hB : ∀ q : Quat F, BETA.eqZero = false → q.HasNaN bad → (pScale BETA q).HasNaN bad := by
    intro q hb e
    unfold pScale
    rw [hb]
    split
    · rw [if_neg Bool.false_ne_true]; exact nan_smulL h (Or.inr e)
    · exact e
  have hB' : ∀ q : Quat F, BETA.eqZero = false → BETA.eqOne = false → BETA.HasNaN bad →
      (pScale BETA q).HasNaN bad := by
    intro q hb hb1 e
    unfold pScale
    rw [hb, hb1, if_neg Bool.false_ne_true]
    exact nan_smulL h (Or.inl e)
  refine ⟨m', _, h1, h2, ?_⟩
  intro i hi
  unfold pGemv
  rw [ha, Bool.false_and, if_neg Bool.false_ne_true, if_neg Bool.false_ne_true]
  refine ⟨?_, ?_, ?_⟩
  · intro l hl e
    have e' := e.imp id (Or.imp (opA i l) id)
    by_cases q : t = 'N'
    · rw [if_pos q]
      exact nan_pAxpys h _ _ _ _ _ (Or.inr ⟨l, hl, e'⟩)
    · rw [if_neg q]
      apply nan_addR h
      apply nan_smulL h
      rcases e' with e' | e'
      · exact Or.inl e'
      · exact Or.inr (nan_pDot h _ _ _ l hl e')
  · intro hb e
    split
    · exact nan_pAxpys h _ _ _ _ _ (Or.inl (hB _ hb e))
    · exact nan_addL h (hB _ hb e)
  · intro hb hb1 e
    split
    · exact nan_pAxpys h _ _ _ _ _ (Or.inl (hB' _ hb hb1 e))
    · exact nan_addL h (hB' _ hb hb1 e)

/-- C53, GERU and GERC (portable), when the template takes neither ALPHA nor `y_j` for zero. -/
theorem C53_ger_portable_partial (conjY : Bool) (m : Mem F) (M N : Int) (ALPHA : Scal F) (X INCX Y INCY A LDA : Int)
    (x y : Nat → Quat F) (a : Nat → Nat → Quat F) (hp : GerBArgs m M N X INCX Y INCY A LDA x y a)
    (ha : ALPHA.eqZero = false) :
    ∃ (m' : Mem F) (a' : Nat → Nat → Quat F),
      gerGen conjY M N ALPHA X INCX Y INCY A LDA m = .ok ((), m') ∧ MatAt m' A LDA M.toNat N.toNat a' ∧
      ∀ i j, i < M.toNat → j < N.toNat →
        ((a i j).HasNaN bad → (a' i j).HasNaN bad) ∧
        (Quat.neOp (y j) (Quat.mkReal zero) = true →
          (ALPHA.HasNaN bad ∨ (x i).HasNaN bad ∨ (y j).HasNaN bad) → (a' i j).HasNaN bad) := by
  obtain ⟨m', h1, h2, _⟩ := gerGen_bits conjY m M N ALPHA X INCX Y INCY A LDA x y a hp
  refine ⟨m', _, h1, h2, fun i j _ _ => ?_⟩
  unfold pGer
  rw [ha, if_neg Bool.false_ne_true]
  refine ⟨?_, ?_⟩
  · intro e
    split
    · exact nan_addL h e
    · exact e
  · intro hy e
    rw [if_pos hy]
    apply nan_addR h
    rcases e with e | e | e
    · exact (nan_mulL_ h (nan_smulL h (Or.inl e))).has
    · exact (nan_mulL_ h (nan_smulL h (Or.inr e))).has
    · apply Quat.AllNaN.has
      apply nan_mulR_ h
      split
      · exact nan_conj h e
      · exact e

end

/-! ## Where the code loses a NaN -/

section
variable {F : Type} [Arith F] [ArithEq F]

/-- C53 fails for the portable GERU and GERC: against a `y_j` the template takes for zero (its test never looks
at the k component, so a pure-k NaN is one), a column of A is left as it was, whatever NaNs x or that `y_j` hold. -/
theorem C53_ger_portable_violated (conjY : Bool) (m : Mem F) (M N : Int) (ALPHA : Scal F) (X INCX Y INCY A LDA : Int)
    (x y : Nat → Quat F) (a : Nat → Nat → Quat F) (hp : GerBArgs m M N X INCX Y INCY A LDA x y a) (j : Nat)
    (hj : j < N.toNat) (h1 : ArithEq.feq (y j).re zero = true) (h2 : ArithEq.feq (y j).i zero = true)
    (h3 : ArithEq.feq (y j).j zero = true) (h0 : ArithEq.feq (zero : F) zero = true) :
    ∃ m' : Mem F, gerGen conjY M N ALPHA X INCX Y INCY A LDA m = .ok ((), m') ∧
      ∀ i : Nat, i < M.toNat → readQ m' (A + 4 * ((i:Int) + j * LDA)) = some (a i j) := by
  obtain ⟨m', e1, e2, _⟩ := gerGen_bits conjY m M N ALPHA X INCX Y INCY A LDA x y a hp
  refine ⟨m', e1, fun i hi => ?_⟩
  rw [e2 i j hi hj]
  have : Quat.neOp (y j) (Quat.mkReal zero) = false := by
    simp [Quat.neOp, Quat.eqOp, Quat.mkReal, h1, h2, h3, h0]
  dsimp only
  unfold pGer
  rw [this]
  split <;> rfl

end

/-! ## Concrete cases -/

/-- The toy NaN is one. -/
theorem toyNaN_like : letI := toyNaN; NaNLike (F := Option Int) (· = none) := by
  let := toyNaN
  refine ⟨?_, ?_, ?_, ?_, ?_, ?_, ?_, ?_, ?_, ?_, ?_, ?_, ?_, ?_, ?_, ?_⟩ <;>
    · intros
      rename_i e
      subst e
      first
        | rfl
        | (rename_i a; cases a <;> rfl)
        | (rename_i a b; cases a <;> cases b <;> rfl)

/-- IEEE equality on the toy numbers: the NaN equals nothing. -/
@[reducible] def toyNaNEq : ArithEq (Option Int) where
  feq a b := match a, b with
    | some x, some y => x == y
    | _, _ => false

/-- A case of `C53_gemm_simd`: B holds one NaN, and the NaN reaches the column of C. -/
example : letI := toyNaN
    ∃ (m' : Mem (Option Int)), gemmAVX ⟨64, 512, 64⟩ 1000 200000 (fun _ => some 7) 'C' 'N' 3 1 2
      (.d (some 1)) 0 2 24 2 (.d (some 0)) 33 4 (memOf 0 64 (fun a => if a = 26 then none else some a)) = .ok ((), m') ∧
      ∀ i : Nat, i < 3 → ∃ q, readQ m' (33 + 4 * (i : Int)) = some q ∧ q.HasNaN (· = none) := by
  let := toyNaN
  obtain ⟨m', C', h1, h2, h3⟩ := C53_gemm_simd toyNaN_like _ ⟨64, 512, 64⟩ 1000 200000 (fun _ => some 7) 'C' 'N' 3 1 2
    (.d (some 1)) (.d (some 0)) 0 2 24 2 33 4 _ _ _ (gemmPre_example' (fun a => if a = 26 then none else some a))
  refine ⟨m', h1, fun i hi => ⟨C' i 0, ?_, ?_⟩⟩
  · have := h2 i 0 hi (by decide)
    simpa using this
  · refine ((h3 i 0 hi (by decide)).1 0 (by decide) (Or.inr (Or.inr ?_))).has
    right; right; left
    rfl

/-- A case of `C53_ger_portable_violated`, and so a NaN lost: x is all NaN, y is a NaN in its k component, and
GERU leaves the entry of A, which has no NaN, unchanged. -/
theorem C53_ger_portable_witness : letI := toyNaN; letI := toyNaNEq
    ∃ (m m' : Mem (Option Int)),
      readQ m 0 = some ⟨none, none, none, none⟩ ∧ readQ m 4 = some ⟨some 0, some 0, some 0, none⟩ ∧
      gerGen false 1 1 (.d (some 1)) 0 1 4 1 8 1 m = .ok ((), m') ∧
      readQ m' 8 = some ⟨some 8, some 9, some 10, some 11⟩ := by
  let := toyNaN
  let := toyNaNEq
  let f : Int → Option Int := fun a => if a < 4 then none else if a = 7 then none else if a < 8 then some 0 else some a
  have hp : GerBArgs (memOf 0 12 f) 1 1 0 1 4 1 8 1 (fun _ => ⟨none, none, none, none⟩)
      (fun _ => ⟨some 0, some 0, some 0, none⟩) (fun _ _ => ⟨some 8, some 9, some 10, some 11⟩) :=
    { incX := by decide
      incY := by decide
      hA := by
        intro i j hi hj
        have h1 : i = 0 := by omega
        have h2 : j = 0 := by omega
        subst h1; subst h2; rfl
      hX := by
        intro i hi
        have h1 : i = 0 := by omega
        subst h1; rfl
      hY := by
        intro i hi
        have h1 : i = 0 := by omega
        subst h1; rfl
      hld := by decide
      hXA := by
        rintro a ⟨i, hi, h⟩ ⟨i', j', hi', hj', h'⟩
        unfold InQ at *; omega
      hYA := by
        rintro a ⟨i, hi, h⟩ ⟨i', j', hi', hj', h'⟩
        unfold InQ at *; omega
      fitA := by intro i j hi hj; unfold Fits32; omega
      fitX := by intro i hi; unfold Fits32; omega
      fitY := by intro i hi; unfold Fits32; omega }
  obtain ⟨m', h1, h2⟩ := C53_ger_portable_violated false _ 1 1 (.d (some 1)) 0 1 4 1 8 1 _ _ _ hp 0 (by decide) rfl rfl rfl rfl
  exact ⟨_, m', rfl, rfl, h1, h2 0 (by decide)⟩

end Haxx
