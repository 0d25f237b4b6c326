import Verif.PropsMix
import Verif.PropsMixUnits
import Verif.PropsNaN

/-!
# C53 for the mixed-type templates

X, Y, A and B of any of the three types (`MixGen`): a NaN in an operand is not lost.
-/

namespace Haxx
open Arith

section
variable {F : Type} [Arith F] {bad : F → Prop} (h : NaNLike bad)
include h

theorem nan_addToL {q : Quat F} {s : Scal F} (e : q.HasNaN bad) : (Scal.addTo q s).HasNaN bad := by
  cases s with
  | d a => rcases e with e | e | e | e
           · exact Or.inl (h.addL e)
           · exact Or.inr (Or.inl e)
           · exact Or.inr (Or.inr (Or.inl e))
           · exact Or.inr (Or.inr (Or.inr e))
  | z a => rcases e with e | e | e | e
           · exact Or.inl (h.addL e)
           · exact Or.inr (Or.inl (h.addL e))
           · exact Or.inr (Or.inr (Or.inl e))
           · exact Or.inr (Or.inr (Or.inr e))
  | h a => exact nan_addL h e

theorem nan_addToR {q : Quat F} {s : Scal F} (e : s.HasNaN bad) : (Scal.addTo q s).HasNaN bad := by
  cases s with
  | d a => exact Or.inl (h.addR e)
  | z a => exact e.elim (fun e => Or.inl (h.addR e)) (fun e => Or.inr (Or.inl (h.addR e)))
  | h a => exact nan_addR h e

omit h in
theorem nan_toQuat {s : Scal F} (e : s.HasNaN bad) : s.toQuat.HasNaN bad := by
  cases s with
  | d a => exact Or.inl e
  | z a => exact e.elim Or.inl (fun e => Or.inr (Or.inl e))
  | h a => exact e

theorem nan_pDotK (x : Nat → Scal F) (y : Nat → Scal F) (n i : Nat) (hi : i < n)
    (hx : (x i).HasNaN bad ∨ (y i).HasNaN bad) : (pDotK x y n).HasNaN bad := by
  induction n with
  | zero => omega
  | succ n ih =>
    unfold pDotK
    by_cases e : i = n
    · subst e
      exact nan_addToR h (nan_smul h hx)
    · exact nan_addToL h (ih (by omega))

theorem nan_pAccK (ALPHA : Scal F) (x : Nat → Scal F) (y : Nat → Scal F) (c : Quat F) (n : Nat)
    (hx : c.HasNaN bad ∨ ∃ i, i < n ∧ (ALPHA.HasNaN bad ∨ (x i).HasNaN bad ∨ (y i).HasNaN bad)) :
    (pAccK ALPHA x y c n).HasNaN bad := by
  induction n with
  | zero =>
    rcases hx with e | ⟨i, hi, _⟩
    · exact e
    · omega
  | succ n ih =>
    unfold pAccK
    rcases hx with e | ⟨i, hi, e⟩
    · exact nan_addToL h (ih (Or.inl e))
    · by_cases q : i = n
      · subst q
        apply nan_addToR h
        apply nan_smul h
        rcases e with e | e | e
        · exact Or.inl (nan_smul h (Or.inl e))
        · exact Or.inl (nan_smul h (Or.inr e))
        · exact Or.inr e
      · exact nan_addToL h (ih (Or.inr ⟨i, by omega, e⟩))

theorem nan_pAxpysK (ALPHA : Scal F) (a : Nat → Scal F) (x : Nat → Scal F) (y : Quat F) (n : Nat)
    (hx : y.HasNaN bad ∨ ∃ i, i < n ∧ (ALPHA.HasNaN bad ∨ (a i).HasNaN bad ∨ (x i).HasNaN bad)) :
    (pAxpysK ALPHA a x y n).HasNaN bad := by
  induction n with
  | zero =>
    rcases hx with e | ⟨i, hi, _⟩
    · exact e
    · omega
  | succ n ih =>
    unfold pAxpysK pAxpyK
    rcases hx with e | ⟨i, hi, e⟩
    · exact nan_addToL h (nan_addL h (ih (Or.inl e)))
    · by_cases q : i = n
      · subst q
        apply nan_addToL h
        apply nan_addR h
        apply nan_smulL h
        rcases e with e | e | e
        · exact Or.inr (nan_toQuat (nan_smul h (Or.inl e)))
        · exact Or.inl e
        · exact Or.inr (nan_toQuat (nan_smul h (Or.inr e)))
      · exact nan_addToL h (nan_addL h (ih (Or.inr ⟨i, by omega, e⟩)))

variable [ArithEq F]

/-- C53, AXPYV (X of any type), when the template does not take ALPHA for zero. -/
theorem C53_axpyv_mixed (m : Mem F) (kX : Kind) (SIDE : Char) (N X INCX Y INCY : Int) (ALPHA : Scal F) (x : Nat → Scal F)
    (y : Nat → Quat F) (hx : 0 < INCX) (hy : 0 < INCY) (fx : Fits32 (N * INCX)) (fy : Fits32 (N * INCY)) (hz : ALPHA.eqZero = false)
    (hX : KVecAt m kX X INCX N.toNat x) (hY : VecAt m Y INCY N.toNat y)
    (hdis : Apart (KVecCell kX X INCX N.toNat) (VecCell Y INCY N.toNat)) :
    ∃ (m' : Mem F) (y' : Nat → Quat F), axpyvGenK kX SIDE N ALPHA X INCX Y INCY m = .ok ((), m') ∧
      VecAt m' Y INCY N.toNat y' ∧
      ∀ i, i < N.toNat → ((y i).HasNaN bad ∨ ALPHA.HasNaN bad ∨ (x i).HasNaN bad) → (y' i).HasNaN bad := by
  obtain ⟨m', h1, h2, _⟩ := axpyvGenK_bits m kX SIDE N X INCX Y INCY ALPHA x y hx hy fx fy hX hY hdis
  refine ⟨m', _, h1, h2, fun i _ e => ?_⟩
  unfold pAxpyvK
  rw [hz, if_neg Bool.false_ne_true]
  rcases e with e | e
  · exact nan_addToL h e
  · apply nan_addToR h
    split
    · exact nan_smul h e.symm
    · exact nan_smul h e

/-- C53, GEMM (A and B of any type), when the template does not take ALPHA for zero; the old C counts
unless it takes BETA for zero, a NaN in BETA unless it takes BETA for zero or one. -/
theorem C53_gemm_mixed (m : Mem F) (k kB : Kind) (tA tB : Char) (M N K : Int) (ALPHA BETA : Scal F)
    (A LDA B LDB C LDC : Int) (Av : Nat → Nat → Scal F) (Bv : Nat → Nat → Scal F) (Cv : Nat → Nat → Quat F)
    (hp : GemmMArgs m k kB tA tB M N K ALPHA A LDA B LDB C LDC Av Bv Cv) (ha : ALPHA.eqZero = false) :
    ∃ (m' : Mem F) (C' : Nat → Nat → Quat F),
      gemmGenK k kB tA tB M N K ALPHA A LDA B LDB BETA C LDC m = .ok ((), m') ∧ MatAt m' C LDC M.toNat N.toNat C' ∧
      ∀ i j, i < M.toNat → j < N.toNat →
        (∀ l, l < K.toNat → (ALPHA.HasNaN bad ∨ (if tA = 'N' then Av i l else Av l i).HasNaN bad ∨
          (if tB = 'N' then Bv l j else Bv j l).HasNaN bad) → (C' i j).HasNaN bad) ∧
        (BETA.eqZero = false → (Cv i j).HasNaN bad → (C' i j).HasNaN bad) ∧
        (BETA.eqZero = false → BETA.eqOne = false → BETA.HasNaN bad → (C' i j).HasNaN bad) := by
  obtain ⟨m', h1, h2, _⟩ := gemmGenK_bits m k kB tA tB M N K ALPHA BETA A LDA B LDB C LDC Av Bv Cv hp
  have opA : ∀ i l, (if tA = 'N' then Av i l else Av l i).HasNaN bad → (opKE tA Av i l).HasNaN bad := by
    intro i l e
    unfold opKE
    split at e
    · rename_i q; rw [if_pos q]; exact e
    · rename_i q; rw [if_neg q]; split
      · exact nan_smartConj h e
      · exact e
  have opB : ∀ l j, (if tB = 'N' then Bv l j else Bv j l).HasNaN bad → (opKE tB Bv l j).HasNaN bad := by
    intro l j e
    unfold opKE
    split at e
    · rename_i q; rw [if_pos q]; exact e
    · rename_i q; rw [if_neg q]; split
      · exact nan_smartConj h e
      · exact e
  refine ⟨m', _, h1, h2, ?_⟩
  intro i j hi hj
  try dsimp only
  unfold pGemmK
  rw [ha, Bool.false_or]
  refine ⟨?_, ?_, ?_⟩
  · intro l hl e
    have hK : decide (K = 0) = false := by rw [decide_eq_false_iff_not]; omega
    rw [hK, Bool.false_and, if_neg Bool.false_ne_true, if_neg Bool.false_ne_true]
    split
    · exact nan_pAccK h _ _ _ _ _ (Or.inr ⟨l, hl, e.imp id (Or.imp (opA i l) (opB l j))⟩)
    · have : (ALPHA.mulL (pDotK (opKE tA Av i) (fun l => opKE tB Bv l j) K.toNat)).HasNaN bad := by
        apply nan_smulL h
        rcases e with e | e
        · exact Or.inl e
        · exact Or.inr (nan_pDotK h _ _ _ l hl (Or.imp (opA i l) (opB l j) e))
      unfold pStore
      split
      · exact this
      · exact nan_addL h this
  · intro hb e
    split
    · exact e
    · rw [if_neg Bool.false_ne_true]
      split
      · apply nan_pAccK h
        left
        unfold pBeta
        rw [hb, if_neg Bool.false_ne_true]
        split
        · exact nan_smulL h (Or.inr e)
        · exact e
      · unfold pStore
        rw [hb, if_neg Bool.false_ne_true]
        exact nan_addR h (nan_smulL h (Or.inr e))
  · intro hb hb1 e
    rw [hb1, Bool.and_false, if_neg Bool.false_ne_true, if_neg Bool.false_ne_true]
    split
    · apply nan_pAccK h
      left
      unfold pBeta
      rw [hb, hb1, if_neg Bool.false_ne_true]
      exact nan_smulL h (Or.inl e)
    · unfold pStore
      rw [hb, if_neg Bool.false_ne_true]
      exact nan_addR h (nan_smulL h (Or.inl e))

/-- C53, GEMV (A and X of any type), when the template does not take ALPHA for zero: every y element of
which the old value, or an entry of the row of op(A) or of x, has a NaN. -/
theorem C53_gemv_mixed (m : Mem F) (k kX : Kind) (t : Char) (M N : Int) (ALPHA : Scal F) (A LDA X INCX : Int)
    (BETA : Scal F) (Y INCY : Int) (a : Nat → Nat → Scal F) (x : Nat → Scal F) (y : Nat → Quat F)
    (hM : M ≠ 0) (hN : N ≠ 0) (hp : GemvMArgs m k kX t M N ALPHA A LDA X INCX Y INCY a x y) (ha : ALPHA.eqZero = false) :
    ∃ (m' : Mem F) (y' : Nat → Quat F),
      gemvGenK k kX t M N ALPHA A LDA X INCX BETA Y INCY m = .ok ((), m') ∧
      VecAt m' Y INCY (if t = 'N' then M else N).toNat y' ∧
      ∀ i, i < (if t = 'N' then M else N).toNat →
        (∀ l, l < (if t = 'N' then N else M).toNat → (ALPHA.HasNaN bad ∨
          (if t = 'N' then a i l else a l i).HasNaN bad ∨ (x l).HasNaN bad) → (y' i).HasNaN bad) ∧
        (BETA.eqZero = false → (y i).HasNaN bad → (y' i).HasNaN bad) ∧
        (BETA.eqZero = false → BETA.eqOne = false → BETA.HasNaN bad → (y' i).HasNaN bad) := by
  obtain ⟨m', h1, h2, _⟩ := gemvGenK_bits m k kX t M N ALPHA A LDA X INCX BETA Y INCY a x y hM hN hp
  have opA : ∀ i l, (if t = 'N' then a i l else a l i).HasNaN bad → (opVE t a i l).HasNaN bad := by
    intro i l e
    unfold opVE
    split at e
    · rename_i q; rw [if_pos q]; exact e
    · rename_i q; rw [if_neg q]; split
      · exact e
      · exact nan_smartConj h e
  have hB : ∀ q : Quat F, BETA.eqZero = false → q.HasNaN bad → (pScale BETA q).HasNaN bad := by
    intro q hb e
    unfold pScale
    rw [hb]
    split
    · rw [if_neg Bool.false_ne_true]; exact nan_smulL h (Or.inr e)
    · exact e
  have hB' : ∀ q : Quat F, BETA.eqZero = false → BETA.eqOne = false → BETA.HasNaN bad →
      (pScale BETA q).HasNaN bad := by
    intro q hb hb1 e
    unfold pScale
    rw [hb, hb1, if_neg Bool.false_ne_true]
    exact nan_smulL h (Or.inl e)
  refine ⟨m', _, h1, h2, ?_⟩
  intro i hi
  unfold pGemvK
  rw [ha, Bool.false_and, if_neg Bool.false_ne_true, if_neg Bool.false_ne_true]
  refine ⟨?_, ?_, ?_⟩
  · intro l hl e
    have e' := e.imp id (Or.imp (opA i l) id)
    by_cases q : t = 'N'
    · rw [if_pos q]
      exact nan_pAxpysK h _ _ _ _ _ (Or.inr ⟨l, hl, e'⟩)
    · rw [if_neg q]
      apply nan_addR h
      apply nan_smulL h
      rcases e' with e' | e'
      · exact Or.inl e'
      · exact Or.inr (nan_pDotK h _ _ _ l hl e')
  · intro hb e
    split
    · exact nan_pAxpysK h _ _ _ _ _ (Or.inl (hB _ hb e))
    · exact nan_addL h (hB _ hb e)
  · intro hb hb1 e
    split
    · exact nan_pAxpysK h _ _ _ _ _ (Or.inl (hB' _ hb hb1 e))
    · exact nan_addL h (hB' _ hb hb1 e)

/-- C53, GERU and GERC (X and Y of any type), when the template takes neither ALPHA nor `y_j` for zero. -/
theorem C53_ger_mixed_partial (kX kY : Kind) (conjY : Bool) (m : Mem F) (M N : Int) (ALPHA : Scal F) (X INCX Y INCY A LDA : Int)
    (x y : Nat → Scal F) (a : Nat → Nat → Quat F) (hp : GerMArgs m kX kY M N X INCX Y INCY A LDA x y a)
    (ha : ALPHA.eqZero = false) :
    ∃ (m' : Mem F) (a' : Nat → Nat → Quat F),
      gerGenK kX kY conjY M N ALPHA X INCX Y INCY A LDA m = .ok ((), m') ∧ MatAt m' A LDA M.toNat N.toNat a' ∧
      ∀ i j, i < M.toNat → j < N.toNat →
        ((a i j).HasNaN bad → (a' i j).HasNaN bad) ∧
        ((y j).eqZero = false →
          (ALPHA.HasNaN bad ∨ (x i).HasNaN bad ∨ (y j).HasNaN bad) → (a' i j).HasNaN bad) := by
  obtain ⟨m', h1, h2, _⟩ := gerGenK_bits kX kY conjY m M N ALPHA X INCX Y INCY A LDA x y a hp
  refine ⟨m', _, h1, h2, fun i j _ _ => ?_⟩
  unfold pGerK
  rw [ha, if_neg Bool.false_ne_true]
  refine ⟨?_, ?_⟩
  · intro e
    split
    · exact nan_addToL h e
    · exact e
  · intro hy e
    rw [hy, Bool.not_false, if_pos rfl]
    apply nan_addToR h
    rcases e with e | e | e
    · exact nan_smul h (Or.inl (nan_smul h (Or.inl e)))
    · exact nan_smul h (Or.inl (nan_smul h (Or.inr e)))
    · apply nan_smul h
      right
      split
      · exact nan_smartConj h e
      · exact e

end

/-! ## Where the code loses a NaN -/

section
variable {F : Type} [Arith F] [ArithEq F]

/-- C53 fails for GERU and GERC with a real or complex `y_j` that is zero: the column of A is left as it was, whatever NaNs
ALPHA or x hold. -/
theorem C53_ger_mixed_violated (kX kY : Kind) (conjY : Bool) (m : Mem F) (M N : Int) (ALPHA : Scal F) (X INCX Y INCY A LDA : Int)
    (x y : Nat → Scal F) (a : Nat → Nat → Quat F) (hp : GerMArgs m kX kY M N X INCX Y INCY A LDA x y a) (j : Nat)
    (hj : j < N.toNat) (hy : y j = .d zero ∨ y j = .z ⟨zero, zero⟩) (h0 : ArithEq.feq (zero : F) zero = true) :
    ∃ m' : Mem F, gerGenK kX kY conjY M N ALPHA X INCX Y INCY A LDA m = .ok ((), m') ∧
      ∀ i : Nat, i < M.toNat → readQ m' (A + 4 * ((i:Int) + j * LDA)) = some (a i j) := by
  obtain ⟨m', e1, e2, _⟩ := gerGenK_bits kX kY conjY m M N ALPHA X INCX Y INCY A LDA x y a hp
  refine ⟨m', e1, fun i hi => ?_⟩
  rw [e2 i j hi hj]
  have : (y j).eqZero = true := by
    rcases hy with e | e <;> rw [e] <;> simp [Scal.eqZero, h0]
  dsimp only
  unfold pGerK
  rw [this]
  split <;> rfl

end

/-! ## Concrete cases: memory holds `a` at cell `a`, and the toy NaN at one cell -/

/-- cell `n` holds the NaN -/
def oneNaN (n a : Int) : Option Int := if a = n then none else some a

/-- GEMM with A real, B complex: a NaN in `B(1,0)` (cell 13) reaches both entries of column 0 of C. -/
example : letI := toyNaN; letI := toyNaNEq
    ∃ (m' : Mem (Option Int)) (C' : Nat → Nat → Quat (Option Int)),
      gemmGenK .d .z 'N' 'N' 2 2 3 (.z ⟨some 1, some 2⟩) 0 2 10 3 (.z ⟨some 3, some 4⟩) 40 3 (memOf 0 200 (oneNaN 13)) = .ok ((), m') ∧
      MatAt m' 40 3 2 2 C' ∧ ∀ i, i < 2 → (C' i 0).HasNaN (· = none) := by
  let := toyNaN
  let := toyNaNEq
  obtain ⟨m', C', h1, h2, h3⟩ := C53_gemm_mixed toyNaN_like _ .d .z 'N' 'N' 2 2 3 (.z ⟨some 1, some 2⟩) (.z ⟨some 3, some 4⟩) _ _ _ _ _ _ _ _ _
    (gemmMArgs_example' (oneNaN 13) _) rfl
  exact ⟨m', C', h1, h2, fun i hi => (h3 i 0 hi (by decide)).1 1 (by decide) (Or.inr (Or.inr (Or.inr rfl)))⟩

/-- GEMV with A complex and X real: a NaN in `x_1` (cell 62) reaches every `y_i`. -/
example : letI := toyNaN; letI := toyNaNEq
    ∃ (m' : Mem (Option Int)) (y' : Nat → Quat (Option Int)),
      gemvGenK .z .d 'C' 2 3 (.z ⟨some 1, some 2⟩) 0 4 60 2 (.z ⟨some 3, some 4⟩) 90 1 (memOf 0 200 (oneNaN 62)) = .ok ((), m') ∧
      VecAt m' 90 1 3 y' ∧ ∀ i, i < 3 → (y' i).HasNaN (· = none) := by
  let := toyNaN
  let := toyNaNEq
  obtain ⟨m', y', h1, h2, h3⟩ := C53_gemv_mixed toyNaN_like _ .z .d 'C' 2 3 (.z ⟨some 1, some 2⟩) 0 4 60 2 (.z ⟨some 3, some 4⟩) 90 1 _ _ _
    (by decide) (by decide) (gemvMArgs_example' (oneNaN 62) _) rfl
  exact ⟨m', y', h1, h2, fun i hi => (h3 i hi).1 1 (by decide) (Or.inr (Or.inr rfl))⟩

/-- GERC with X real and Y complex: a NaN in `x_1` (cell 3) reaches row 1 of A. -/
example : letI := toyNaN; letI := toyNaNEq
    ∃ (m' : Mem (Option Int)) (a' : Nat → Nat → Quat (Option Int)),
      gerGenK .d .z true 2 2 (.z ⟨some 1, some 2⟩) 0 3 20 1 60 2 (memOf 0 200 (oneNaN 3)) = .ok ((), m') ∧
      MatAt m' 60 2 2 2 a' ∧ ∀ j, j < 2 → (a' 1 j).HasNaN (· = none) := by
  let := toyNaN
  let := toyNaNEq
  obtain ⟨m', a', h1, h2, h3⟩ := C53_ger_mixed_partial toyNaN_like .d .z true _ 2 2 (.z ⟨some 1, some 2⟩) 0 3 20 1 60 2 _ _ _
    (gerMArgs_example' (oneNaN 3)) rfl
  refine ⟨m', a', h1, h2, fun j hj => (h3 1 j (by decide) hj).2 ?_ (Or.inr (Or.inl rfl))⟩
  match j, hj with
  | 0, _ => rfl
  | 1, _ => rfl

/-- AXPYV with X real: a NaN in `x_2` (cell 4) reaches `y_2`. -/
example : letI := toyNaN; letI := toyNaNEq
    ∃ (m' : Mem (Option Int)) (y' : Nat → Quat (Option Int)),
      axpyvGenK .d 'R' 3 (.z ⟨some 1, some 2⟩) 0 2 20 1 (memOf 0 200 (oneNaN 4)) = .ok ((), m') ∧
      VecAt m' 20 1 3 y' ∧ (y' 2).HasNaN (· = none) := by
  let := toyNaN
  let := toyNaNEq
  obtain ⟨m', y', h1, h2, h3⟩ := C53_axpyv_mixed toyNaN_like _ .d 'R' 3 0 2 20 1 (.z ⟨some 1, some 2⟩) _ _ (by decide) (by decide)
    (by unfold Fits32; decide) (by unfold Fits32; decide) rfl (axpyvK_example' (oneNaN 4)).1 (axpyvK_example' (oneNaN 4)).2.1
    (axpyvK_example' (oneNaN 4)).2.2
  exact ⟨m', y', h1, h2, h3 2 (by decide) (Or.inr (Or.inr rfl))⟩

/-- C53 is violated by a call of GERC with real X and Y: `x_0` is the NaN (cell 1), ALPHA is 1, `y_0 = 0`, and A is unchanged. -/
theorem C53_ger_mixed_witness : letI := toyNaN; letI := toyNaNEq
    ∃ m' : Mem (Option Int), gerGenK .d .d true 1 1 (.d (some 1)) 1 1 0 1 4 1 (memOf 0 8 (oneNaN 1)) = .ok ((), m') ∧
      readQ m' 4 = some ⟨some 4, some 5, some 6, some 7⟩ ∧ memOf 0 8 (oneNaN 1) 1 = some none := by
  exact ⟨_, rfl, rfl, rfl⟩

end Haxx
