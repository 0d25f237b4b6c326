import Verif.FGemmBits
import Verif.PropsNaN

/-!
# C47 and C53 for the Fortran GEMM
-/

set_option linter.unusedSectionVars false

namespace Haxx
open Arith

section
variable {F : Type} [Arith F] [ArithEq F]

omit [ArithEq F] in
theorem fSteps_congr {α : Scal F} {t : FTrans} {x x' y y' : Nat → Quat F} {c : Quat F} {n : Nat}
    (hx : ∀ k, k < n → x k = x' k) (hy : ∀ k, k < n → y k = y' k) : fSteps α t x y c n = fSteps α t x' y' c n := by
  induction n with
  | zero => rfl
  | succ n ih =>
    unfold fSteps
    rw [ih (fun k hk => hx k (by omega)) (fun k hk => hy k (by omega)), hx n (by omega), hy n (by omega)]

omit [ArithEq F] in
theorem fAccs_congr {s t : FTrans} {x x' y y' : Nat → Quat F} {n : Nat}
    (hx : ∀ k, k < n → x k = x' k) (hy : ∀ k, k < n → y k = y' k) : fAccs s t x y n = fAccs s t x' y' n := by
  induction n with
  | zero => rfl
  | succ n ih =>
    unfold fAccs
    rw [ih (fun k hk => hx k (by omega)) (fun k hk => hy k (by omega)), hx n (by omega), hy n (by omega)]

theorem fGemm_congr {s t : FTrans} {al be : Scal F} {K : Int} {x x' y y' : Nat → Quat F} {c : Quat F}
    (hx : ∀ k, k < K.toNat → x k = x' k) (hy : ∀ k, k < K.toNat → y k = y' k) :
    fGemm s t al be K x y c = fGemm s t al be K x' y' c := by
  have h1 := fun c : Quat F => fSteps_congr (α := al) (t := t) (c := c) hx hy
  have h2 := fAccs_congr (s := s) (t := t) hx hy
  unfold fGemm fMain
  rw [h2]
  simp only [h1]

/-- C47, Fortran GEMM (every pair of scalar types).  Two calls with any sizes, leading dimensions and addresses, in any
two memories: entry `(i,j)` of the first and `(i',j')` of the second get the same bits as soon as the entries of row
`i`/`i'` of op(A), of column `j`/`j'` of op(B), and the old entries of C are the same. -/
theorem C47_gemm_fortran (tA tB : Char) (K : Int) (ALPHA BETA : Scal F)
    (m : Mem F) (M N A LDA B LDB C LDC : Int) (Av Bv Cv : Nat → Nat → Quat F)
    (h : FGemmArgs m tA tB M N K ALPHA A LDA B LDB C LDC Av Bv Cv)
    (n : Mem F) (M' N' A' LDA' B' LDB' C' LDC' : Int) (Av' Bv' Cv' : Nat → Nat → Quat F)
    (h' : FGemmArgs n tA tB M' N' K ALPHA A' LDA' B' LDB' C' LDC' Av' Bv' Cv')
    (i j i' j' : Nat) (hi : i < M.toNat) (hj : j < N.toNat) (hi' : i' < M'.toNat) (hj' : j' < N'.toNat)
    (hrow : ∀ l, l < K.toNat → (if IsN tA then Av i l else Av l i) = (if IsN tA then Av' i' l else Av' l i'))
    (hcol : ∀ l, l < K.toNat → (if IsN tB then Bv l j else Bv j l) = (if IsN tB then Bv' l j' else Bv' j' l))
    (hc : Cv i j = Cv' i' j') :
    ∃ m' n' q, hgemmF tA tB M N K ALPHA A LDA B LDB BETA C LDC m = .ok ((), m') ∧
      hgemmF tA tB M' N' K ALPHA A' LDA' B' LDB' BETA C' LDC' n = .ok ((), n') ∧
      readQ m' (C + 4 * (i + j * LDC)) = some q ∧ readQ n' (C' + 4 * (i' + j' * LDC')) = some q := by
  obtain ⟨m', h1, h2, _⟩ := hgemmF_bits m tA tB M N K ALPHA BETA A LDA B LDB C LDC Av Bv Cv h
  obtain ⟨n', g1, g2, _⟩ := hgemmF_bits n tA tB M' N' K ALPHA BETA A' LDA' B' LDB' C' LDC' Av' Bv' Cv' h'
  refine ⟨m', n', _, h1, g1, h2 i j hi hj, ?_⟩
  rw [g2 i' j' hi' hj']
  dsimp only
  rw [hc]
  refine congrArg some (fGemm_congr ?_ ?_)
  · intro k hk; rw [pick_ofChar, pick_ofChar]; exact (hrow k hk).symm
  · intro k hk; rw [pick_ofChar, pick_ofChar]; exact (hcol k hk).symm

end

/-! ## NaN -/

section
variable {F : Type} [Arith F] {bad : F → Prop} (h : NaNLike bad)

/-- A complex number with a NaN part. -/
def Cplx.HasNaN (bad : F → Prop) (z : Cplx F) : Prop := bad z.re ∨ bad z.im
/-- A complex number with two NaN parts. -/
def Cplx.AllNaN (bad : F → Prop) (z : Cplx F) : Prop := bad z.re ∧ bad z.im

theorem Quat.hasNaN_halves {q : Quat F} : q.HasNaN bad ↔ q.lo.HasNaN bad ∨ q.hi.HasNaN bad := by
  unfold Quat.HasNaN Cplx.HasNaN Quat.lo Quat.hi
  tauto
theorem Quat.allNaN_halves {q : Quat F} : q.AllNaN bad ↔ q.lo.AllNaN bad ∧ q.hi.AllNaN bad := by
  unfold Quat.AllNaN Cplx.AllNaN Quat.lo Quat.hi
  tauto
theorem Cplx.AllNaN.has {z : Cplx F} (h : z.AllNaN bad) : z.HasNaN bad := Or.inl h.1
theorem Cplx.AllNaN.mk {s j : Cplx F} (h1 : s.AllNaN bad) (h2 : j.AllNaN bad) : (Quat.ofC s j).AllNaN bad :=
  ⟨h1.1, h1.2, h2.1, h2.2⟩
theorem Cplx.HasNaN.mkL {s j : Cplx F} (h1 : s.HasNaN bad) : (Quat.ofC s j).HasNaN bad :=
  h1.elim Or.inl (fun e => Or.inr (Or.inl e))
theorem Cplx.HasNaN.mkR {s j : Cplx F} (h1 : j.HasNaN bad) : (Quat.ofC s j).HasNaN bad :=
  h1.elim (fun e => Or.inr (Or.inr (Or.inl e))) (fun e => Or.inr (Or.inr (Or.inr e)))
theorem Cplx.HasNaN.ofReal {a : F} (h : bad a) : (Cplx.ofReal a).HasNaN bad := Or.inl h

include h

theorem nanC_mulL {a b : Cplx F} (e : a.HasNaN bad) : (a *ᶜ b).AllNaN bad := by
  rcases e with e | e
  · exact ⟨h.subL (h.mulL e), h.addL (h.mulL e)⟩
  · exact ⟨h.subR (h.mulL e), h.addR (h.mulL e)⟩
theorem nanC_mulR {a b : Cplx F} (e : b.HasNaN bad) : (a *ᶜ b).AllNaN bad := by
  rcases e with e | e
  · exact ⟨h.subL (h.mulR e), h.addR (h.mulR e)⟩
  · exact ⟨h.subR (h.mulR e), h.addL (h.mulR e)⟩
theorem nanC_mulL' {a b : Cplx F} (e : a.HasNaN bad) : (a *ᶜ b).HasNaN bad := (nanC_mulL h e).has
theorem nanC_mulR' {a b : Cplx F} (e : b.HasNaN bad) : (a *ᶜ b).HasNaN bad := (nanC_mulR h e).has
theorem nanC_conj {a : Cplx F} (e : a.HasNaN bad) : (Cplx.conj a).HasNaN bad := e.imp id h.neg
theorem nanC_neg {a : Cplx F} (e : a.HasNaN bad) : (Cplx.neg a).HasNaN bad := e.imp h.neg h.neg
theorem nanC_addL {a b : Cplx F} (e : a.AllNaN bad) : (a +ᶜ b).AllNaN bad := ⟨h.addL e.1, h.addL e.2⟩
theorem nanC_addR {a b : Cplx F} (e : b.AllNaN bad) : (a +ᶜ b).AllNaN bad := ⟨h.addR e.1, h.addR e.2⟩
theorem nanC_subL {a b : Cplx F} (e : a.AllNaN bad) : (a -ᶜ b).AllNaN bad := ⟨h.subL e.1, h.subL e.2⟩
theorem nanC_subR {a b : Cplx F} (e : b.AllNaN bad) : (a -ᶜ b).AllNaN bad := ⟨h.subR e.1, h.subR e.2⟩
theorem nanC_addL' {a b : Cplx F} (e : a.HasNaN bad) : (a +ᶜ b).HasNaN bad := e.imp h.addL h.addL
theorem nanC_subL' {a b : Cplx F} (e : a.HasNaN bad) : (a -ᶜ b).HasNaN bad := e.imp h.subL h.subL
theorem nanC_addR' {a b : Cplx F} (e : b.HasNaN bad) : (a +ᶜ b).HasNaN bad := e.imp h.addR h.addR
theorem nanC_subR' {a b : Cplx F} (e : b.HasNaN bad) : (a -ᶜ b).HasNaN bad := e.imp h.subR h.subR

/-- Follow a complex NaN operand through the operations to the result. -/
local macro "nanc" h:ident : tactic => `(tactic| solve_by_elim (maxDepth := 14) only
  [nanC_mulL $h, nanC_mulR $h, nanC_mulL' $h, nanC_mulR' $h, nanC_conj $h, nanC_neg $h, nanC_addL $h, nanC_addR $h,
   nanC_subL $h, nanC_subR $h, nanC_addL' $h, nanC_subL' $h, nanC_addR' $h, nanC_subR' $h, Cplx.HasNaN.ofReal, *])

theorem nan_fStep (al : Scal F) (tb : FTrans) (x y c : Quat F)
    (e : al.HasNaN bad ∨ x.HasNaN bad ∨ y.HasNaN bad) : (fStep al tb x y c).AllNaN bad := by
  rw [Quat.hasNaN_halves, Quat.hasNaN_halves] at e
  cases al with
  | d a =>
    change bad a ∨ _ at e
    cases tb <;> rcases e with e | (e | e) | (e | e) <;> (refine Cplx.AllNaN.mk ?_ ?_ <;> nanc h)
  | z a =>
    change a.HasNaN bad ∨ _ at e
    cases tb <;> rcases e with e | (e | e) | (e | e) <;> (refine Cplx.AllNaN.mk ?_ ?_ <;> nanc h)
  | h a =>
    change a.HasNaN bad ∨ _ at e
    rw [Quat.hasNaN_halves] at e
    cases tb <;> rcases e with (e | e) | (e | e) | (e | e) <;> (refine Cplx.AllNaN.mk ?_ ?_ <;> nanc h)

theorem nan_fStep_acc (al : Scal F) (tb : FTrans) (x y c : Quat F) (e : c.AllNaN bad) :
    (fStep al tb x y c).AllNaN bad := by
  rw [Quat.allNaN_halves] at e
  obtain ⟨e1, e2⟩ := e
  cases al <;> cases tb <;> (refine Cplx.AllNaN.mk ?_ ?_ <;> nanc h)

theorem nan_fStep_acc' (al : Scal F) (tb : FTrans) (x y c : Quat F) (e : c.HasNaN bad) :
    (fStep al tb x y c).HasNaN bad := by
  rw [Quat.hasNaN_halves] at e
  rcases e with e | e
  · cases al <;> cases tb <;> (refine Cplx.HasNaN.mkL ?_; nanc h)
  · cases al <;> cases tb <;> (refine Cplx.HasNaN.mkR ?_; nanc h)

theorem nan_fScal {be : Scal F} {c : Quat F} (e : be.HasNaN bad) : (fScal be c).AllNaN bad := by
  cases be with
  | d a => change bad a at e; refine Cplx.AllNaN.mk ?_ ?_ <;> nanc h
  | z a => change a.HasNaN bad at e; refine Cplx.AllNaN.mk ?_ ?_ <;> nanc h
  | h a =>
    change a.HasNaN bad at e
    rw [Quat.hasNaN_halves] at e
    rcases e with e | e <;> (refine Cplx.AllNaN.mk ?_ ?_ <;> nanc h)

theorem nan_fScal' {be : Scal F} {c : Quat F} (e : c.HasNaN bad) : (fScal be c).HasNaN bad := by
  rw [Quat.hasNaN_halves] at e
  rcases e with e | e
  · cases be <;> (refine Cplx.HasNaN.mkL ?_; nanc h)
  · cases be <;> (refine Cplx.HasNaN.mkR ?_; nanc h)

theorem nan_fAcc (ta tb : FTrans) (x y s : Quat F) (e : s.AllNaN bad ∨ x.HasNaN bad ∨ y.HasNaN bad) :
    (fAcc ta tb x y s).AllNaN bad := by
  rw [Quat.hasNaN_halves, Quat.hasNaN_halves, Quat.allNaN_halves] at e
  cases ta <;> cases tb <;> rcases e with ⟨e, e'⟩ | (e | e) | (e | e) <;> (refine Cplx.AllNaN.mk ?_ ?_ <;> nanc h)

theorem nan_fAlpha {al : Scal F} {s : Quat F} (e : al.HasNaN bad) : (fAlpha al s).AllNaN bad := nan_fScal h e

theorem nan_fAlpha' {al : Scal F} {s : Quat F} (e : s.AllNaN bad) : (fAlpha al s).AllNaN bad := by
  rw [Quat.allNaN_halves] at e
  have e1 := e.1.has
  have e2 := e.2.has
  cases al <;> (refine Cplx.AllNaN.mk ?_ ?_ <;> nanc h)

theorem nan_fAddBeta {be : Scal F} {t c : Quat F} (e : be.HasNaN bad ∨ t.AllNaN bad) : (fAddBeta be t c).AllNaN bad := by
  rw [Quat.allNaN_halves] at e
  cases be with
  | d a => change bad a ∨ _ at e; rcases e with e | ⟨e, e'⟩ <;> (refine Cplx.AllNaN.mk ?_ ?_ <;> nanc h)
  | z a => change a.HasNaN bad ∨ _ at e; rcases e with e | ⟨e, e'⟩ <;> (refine Cplx.AllNaN.mk ?_ ?_ <;> nanc h)
  | h a =>
    change a.HasNaN bad ∨ _ at e
    rw [Quat.hasNaN_halves] at e
    rcases e with (e | e) | ⟨e, e'⟩ <;> (refine Cplx.AllNaN.mk ?_ ?_ <;> nanc h)

theorem nan_fAddBeta' {be : Scal F} {t c : Quat F} (e : c.HasNaN bad) : (fAddBeta be t c).HasNaN bad := by
  rw [Quat.hasNaN_halves] at e
  rcases e with e | e
  · cases be <;> (refine Cplx.HasNaN.mkL ?_; nanc h)
  · cases be <;> (refine Cplx.HasNaN.mkR ?_; nanc h)

theorem nan_fSteps {al : Scal F} {tb : FTrans} {x y : Nat → Quat F} {c : Quat F} {n : Nat}
    (e : c.AllNaN bad ∨ ∃ k, k < n ∧ (al.HasNaN bad ∨ (x k).HasNaN bad ∨ (y k).HasNaN bad)) :
    (fSteps al tb x y c n).AllNaN bad := by
  induction n with
  | zero =>
    rcases e with e | ⟨k, hk, _⟩
    · exact e
    · omega
  | succ n ih =>
    rcases e with e | ⟨k, hk, e⟩
    · exact nan_fStep_acc h _ _ _ _ _ (ih (Or.inl e))
    · by_cases q : k = n
      · subst q; exact nan_fStep h _ _ _ _ _ e
      · exact nan_fStep_acc h _ _ _ _ _ (ih (Or.inr ⟨k, by omega, e⟩))

theorem nan_fSteps' {al : Scal F} {tb : FTrans} {x y : Nat → Quat F} {c : Quat F} (n : Nat) (e : c.HasNaN bad) :
    (fSteps al tb x y c n).HasNaN bad := by
  induction n with
  | zero => exact e
  | succ n ih => exact nan_fStep_acc' h _ _ _ _ _ ih

theorem nan_fAccs {ta tb : FTrans} {x y : Nat → Quat F} {n k : Nat} (hk : k < n)
    (e : (x k).HasNaN bad ∨ (y k).HasNaN bad) : (fAccs ta tb x y n).AllNaN bad := by
  induction n with
  | zero => omega
  | succ n ih =>
    by_cases q : k = n
    · subst q; exact nan_fAcc h _ _ _ _ _ (Or.inr e)
    · exact nan_fAcc h _ _ _ _ _ (Or.inl (ih (by omega)))

/-- C53, GEMM (Fortran, every pair of scalar types), when ALPHA does not compare equal to zero: one NaN component in
ALPHA, in row `i` of op(A) or in column `j` of op(B) makes all of `C(i,j)` NaN; one in the old `C(i,j)` leaves at least
one unless BETA compares equal to zero; one in BETA makes all of `C(i,j)` NaN unless BETA compares equal to 0 or 1. -/
theorem C53_gemm_fortran [ArithEq F] (m : Mem F) (tA tB : Char) (M N K : Int) (ALPHA BETA : Scal F)
    (A LDA B LDB C LDC : Int) (Av Bv Cv : Nat → Nat → Quat F)
    (hp : FGemmArgs m tA tB M N K ALPHA A LDA B LDB C LDC Av Bv Cv) (ha : ALPHA.fIsZero = false) :
    ∃ (m' : Mem F) (C' : Nat → Nat → Quat F),
      hgemmF tA tB M N K ALPHA A LDA B LDB BETA C LDC m = .ok ((), m') ∧ MatAt m' C LDC M.toNat N.toNat C' ∧
      ∀ i j, i < M.toNat → j < N.toNat →
        (∀ l, l < K.toNat → (ALPHA.HasNaN bad ∨ (if IsN tA then Av i l else Av l i).HasNaN bad ∨
          (if IsN tB then Bv l j else Bv j l).HasNaN bad) → (C' i j).AllNaN bad) ∧
        (BETA.fIsZero = false → (Cv i j).HasNaN bad → (C' i j).HasNaN bad) ∧
        (BETA.fIsZero = false → BETA.fIsOne = false → BETA.HasNaN bad → (C' i j).AllNaN bad) := by
  obtain ⟨m', h1, h2, _⟩ := hgemmF_bits m tA tB M N K ALPHA BETA A LDA B LDB C LDC Av Bv Cv hp
  refine ⟨m', _, h1, h2, ?_⟩
  intro i j hi hj
  unfold fGemm
  rw [ha, Bool.false_or, if_neg Bool.false_ne_true]
  refine ⟨?_, ?_, ?_⟩
  · intro l hl e
    rw [← pick_ofChar tA, ← pick_ofChar tB] at e
    have hK : decide (K = 0) = false := by rw [decide_eq_false_iff_not]; omega
    rw [hK, Bool.false_and, if_neg Bool.false_ne_true]
    have hT : (fAlpha ALPHA (fAccs (FTrans.ofChar tA) (FTrans.ofChar tB) (fun k => (FTrans.ofChar tA).pick Av i k)
        (fun k => (FTrans.ofChar tB).pick Bv k j) K.toNat)).AllNaN bad := by
      rcases e with e | e
      · exact nan_fAlpha h e
      · exact nan_fAlpha' h (nan_fAccs h hl e)
    unfold fMain
    split
    · exact nan_fSteps h (Or.inr ⟨l, hl, e⟩)
    · split
      · exact hT
      · exact nan_fAddBeta h (Or.inr hT)
  · intro hb e
    split
    · exact e
    · unfold fMain fBeta
      rw [hb, if_neg Bool.false_ne_true, if_neg Bool.false_ne_true]
      split
      · apply nan_fSteps' h
        split
        · exact e
        · exact nan_fScal' h e
      · exact nan_fAddBeta' h e
  · intro hb hb1 e
    rw [hb1, Bool.and_false, if_neg Bool.false_ne_true]
    unfold fMain fBeta
    rw [hb, if_neg Bool.false_ne_true, if_neg Bool.false_ne_true, if_neg Bool.false_ne_true]
    split
    · exact nan_fSteps h (Or.inl (nan_fScal h e))
    · exact nan_fAddBeta h (Or.inl e)

end

/-! ## Concrete cases -/

/-- Arguments that meet `FGemmArgs`: a conjugate-transposed A, padded C, any contents, any scalar. -/
theorem fGemmArgs_example {F : Type} [Arith F] [ArithEq F] (f : Int → F) (s : Scal F) :
    ∃ Av Bv Cv : Nat → Nat → Quat F, FGemmArgs (memOf 0 64 f) 'c' 'N' 3 1 2 s 0 2 24 2 33 4 Av Bv Cv ∧
      Bv 0 0 = ⟨f 24, f 25, f 26, f 27⟩ := by
  have h := gemmPre_example' f
  exact ⟨_, _, _, ⟨fun _ => h.matA, fun _ => h.matB, h.matC, by decide, h.apartA, h.apartB⟩, rfl⟩

/-- A case of `C53_gemm_fortran`: B holds one NaN, and the whole column of C becomes NaN. -/
example : letI := toyNaN; letI := toyNaNEq
    ∃ (m' : Mem (Option Int)), hgemmF 'c' 'N' 3 1 2 (.d (some 1)) 0 2 24 2 (.h ⟨some 0, some 1, some 2, some 3⟩) 33 4
      (memOf 0 64 (fun a => if a = 26 then none else some a)) = .ok ((), m') ∧
      ∀ i : Nat, i < 3 → ∃ q, readQ m' (33 + 4 * (i : Int)) = some q ∧ q.AllNaN (· = none) := by
  let := toyNaN
  let := toyNaNEq
  obtain ⟨Av, Bv, Cv, hp, hB⟩ := fGemmArgs_example (fun a => if a = 26 then none else some a) (.d (some (1:Int)))
  obtain ⟨m', C', h1, h2, h3⟩ := C53_gemm_fortran toyNaN_like _ 'c' 'N' 3 1 2 (.d (some 1))
    (.h ⟨some 0, some 1, some 2, some 3⟩) 0 2 24 2 33 4 Av Bv Cv hp rfl
  refine ⟨m', h1, fun i hi => ⟨C' i 0, ?_, ?_⟩⟩
  · have := h2 i 0 hi (by decide)
    simpa using this
  · refine (h3 i 0 hi (by decide)).1 0 (by decide) (Or.inr (Or.inr ?_))
    rw [if_pos (by decide), hB]
    right; right; left
    rfl

end Haxx
