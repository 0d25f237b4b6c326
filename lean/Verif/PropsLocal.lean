import Verif.PropsRound2
import Verif.PropsGemm

/-!
# C47: an entry of a result depends on nothing but its own row, column and old value

For every arithmetic (any rounding, NaN, Inf), so a NaN outside row i of op(A), column j of op(B) and C(i,j)
never reaches C(i,j).
-/

set_option linter.unusedSectionVars false

namespace Haxx
open Arith

variable {F : Type} [Arith F] [ArithEq F]

omit [ArithEq F] in
theorem pDot_congr {x x' : Nat → Scal F} {y y' : Nat → Quat F} {n : Nat} (hx : ∀ k, k < n → x k = x' k)
    (hy : ∀ k, k < n → y k = y' k) : pDot x y n = pDot x' y' n := by
  induction n with
  | zero => rfl
  | succ n ih =>
    unfold pDot
    rw [ih (fun k hk => hx k (by omega)) (fun k hk => hy k (by omega)), hx n (by omega), hy n (by omega)]

omit [ArithEq F] in
theorem pAcc_congr {α : Scal F} {x x' : Nat → Scal F} {y y' : Nat → Quat F} {c : Quat F} {n : Nat}
    (hx : ∀ k, k < n → x k = x' k) (hy : ∀ k, k < n → y k = y' k) : pAcc α x y c n = pAcc α x' y' c n := by
  induction n with
  | zero => rfl
  | succ n ih =>
    unfold pAcc
    rw [ih (fun k hk => hx k (by omega)) (fun k hk => hy k (by omega)), hx n (by omega), hy n (by omega)]

omit [ArithEq F] in
theorem pAxpys_congr {α : Scal F} {x x' : Nat → Scal F} {y y' : Nat → Quat F} {c : Quat F} {n : Nat}
    (hx : ∀ k, k < n → x k = x' k) (hy : ∀ k, k < n → y k = y' k) : pAxpys α x y c n = pAxpys α x' y' c n := by
  induction n with
  | zero => rfl
  | succ n ih =>
    unfold pAxpys
    rw [ih (fun k hk => hx k (by omega)) (fun k hk => hy k (by omega)), hx n (by omega), hy n (by omega)]

/-- C47, portable GEMM.  Two calls with any sizes, leading dimensions and addresses, in any two memories: entry
`(i,j)` of the first and `(i',j')` of the second get the same bits as soon as the entries of row `i`/`i'` of op(A),
of column `j`/`j'` of op(B), and the old entries of C are the same. -/
theorem C47_gemm_portable (k : Kind) (tA tB : Char) (K : Int) (ALPHA BETA : Scal F)
    (m : Mem F) (M N A LDA B LDB C LDC : Int) (Av : Nat → Nat → Scal F) (Bv Cv : Nat → Nat → Quat F)
    (h : GemmBArgs m k tA tB M N K ALPHA A LDA B LDB C LDC Av Bv Cv)
    (n : Mem F) (M' N' A' LDA' B' LDB' C' LDC' : Int) (Av' : Nat → Nat → Scal F) (Bv' Cv' : Nat → Nat → Quat F)
    (h' : GemmBArgs n k tA tB M' N' K ALPHA A' LDA' B' LDB' C' LDC' Av' Bv' Cv')
    (i j i' j' : Nat) (hi : i < M.toNat) (hj : j < N.toNat) (hi' : i' < M'.toNat) (hj' : j' < N'.toNat)
    (hrow : ∀ l, l < K.toNat → (if tA = 'N' then Av i l else Av l i) = (if tA = 'N' then Av' i' l else Av' l i'))
    (hcol : ∀ l, l < K.toNat → (if tB = 'N' then Bv l j else Bv j l) = (if tB = 'N' then Bv' l j' else Bv' j' l))
    (hc : Cv i j = Cv' i' j') :
    ∃ m' n' q, gemmGen k tA tB M N K ALPHA A LDA B LDB BETA C LDC m = .ok ((), m') ∧
      gemmGen k tA tB M' N' K ALPHA A' LDA' B' LDB' BETA C' LDC' n = .ok ((), n') ∧
      readQ m' (C + 4 * (i + j * LDC)) = some q ∧ readQ n' (C' + 4 * (i' + j' * LDC')) = some q := by
  obtain ⟨m', h1, h2, _⟩ := gemmGen_bits m k tA tB M N K ALPHA BETA A LDA B LDB C LDC Av Bv Cv h
  obtain ⟨n', g1, g2, _⟩ := gemmGen_bits n k tA tB M' N' K ALPHA BETA A' LDA' B' LDB' C' LDC' Av' Bv' Cv' h'
  refine ⟨m', n', _, h1, g1, h2 i j hi hj, ?_⟩
  rw [g2 i' j' hi' hj']
  have hr : ∀ l, l < K.toNat → opKE tA Av i l = opKE tA Av' i' l := by
    intro l hl
    have := hrow l hl
    unfold opKE
    by_cases e : tA = 'N'
    · simpa [e] using this
    · simp only [if_neg e] at this ⊢; rw [this]
  have hq : ∀ l, l < K.toNat → opQE tB Bv l j = opQE tB Bv' l j' := by
    intro l hl
    have := hcol l hl
    unfold opQE
    by_cases e : tB = 'N'
    · simpa [e] using this
    · simp only [if_neg e] at this ⊢; rw [this]
  dsimp only [pGemm]
  rw [hc, pDot_congr hr hq, pAcc_congr hr hq]

/-- C47, portable GEMV: an element of the result depends on its row of op(A), on x and on its old value only. -/
theorem C47_gemv_portable (k : Kind) (t : Char) (K : Int) (ALPHA BETA : Scal F)
    (m : Mem F) (M N A LDA X INCX Y INCY : Int) (a : Nat → Nat → Scal F) (x y : Nat → Quat F)
    (hM : M ≠ 0) (hN : N ≠ 0) (h : GemvBArgs m k t M N ALPHA A LDA X INCX Y INCY a x y)
    (n : Mem F) (M' N' A' LDA' X' INCX' Y' INCY' : Int) (a' : Nat → Nat → Scal F) (x' y' : Nat → Quat F)
    (hM' : M' ≠ 0) (hN' : N' ≠ 0) (h' : GemvBArgs n k t M' N' ALPHA A' LDA' X' INCX' Y' INCY' a' x' y')
    (hK : (if t = 'N' then N else M) = K) (hK' : (if t = 'N' then N' else M') = K)
    (i i' : Nat) (hi : i < (if t = 'N' then M else N).toNat) (hi' : i' < (if t = 'N' then M' else N').toNat)
    (hrow : ∀ l, l < K.toNat → (if t = 'N' then a i l else a l i) = (if t = 'N' then a' i' l else a' l i'))
    (hx : ∀ l, l < K.toNat → x l = x' l) (hy : y i = y' i') :
    ∃ m' n' q, gemvGen k t M N ALPHA A LDA X INCX BETA Y INCY m = .ok ((), m') ∧
      gemvGen k t M' N' ALPHA A' LDA' X' INCX' BETA Y' INCY' n = .ok ((), n') ∧
      readQ m' (Y + 4 * (i * INCY)) = some q ∧ readQ n' (Y' + 4 * (i' * INCY')) = some q := by
  obtain ⟨m', h1, h2, _⟩ := gemvGen_bits m k t M N ALPHA A LDA X INCX BETA Y INCY a x y hM hN h
  obtain ⟨n', g1, g2, _⟩ := gemvGen_bits n k t M' N' ALPHA A' LDA' X' INCX' BETA Y' INCY' a' x' y' hM' hN' h'
  refine ⟨m', n', _, h1, g1, h2 i hi, ?_⟩
  rw [g2 i' hi']
  have hr : ∀ l, l < K.toNat → opVE t a i l = opVE t a' i' l := by
    intro l hl
    have := hrow l hl
    unfold opVE
    by_cases e : t = 'N'
    · simpa [e] using this
    · simp only [if_neg e] at this ⊢; rw [this]
  rw [hK, hK']
  dsimp only [pGemv]
  rw [hy, pDot_congr hr hx, pAxpys_congr hr hx]

/-- C47, portable GERU and GERC: entry `(i,j)` depends on `x_i`, `y_j` and its old value only. -/
theorem C47_ger_portable (conjY : Bool) (ALPHA : Scal F)
    (m : Mem F) (M N X INCX Y INCY A LDA : Int) (x y : Nat → Quat F) (a : Nat → Nat → Quat F)
    (h : GerBArgs m M N X INCX Y INCY A LDA x y a)
    (n : Mem F) (M' N' X' INCX' Y' INCY' A' LDA' : Int) (x' y' : Nat → Quat F) (a' : Nat → Nat → Quat F)
    (h' : GerBArgs n M' N' X' INCX' Y' INCY' A' LDA' x' y' a')
    (i j i' j' : Nat) (hi : i < M.toNat) (hj : j < N.toNat) (hi' : i' < M'.toNat) (hj' : j' < N'.toNat)
    (hx : x i = x' i') (hy : y j = y' j') (ha : a i j = a' i' j') :
    ∃ m' n' q, gerGen conjY M N ALPHA X INCX Y INCY A LDA m = .ok ((), m') ∧
      gerGen conjY M' N' ALPHA X' INCX' Y' INCY' A' LDA' n = .ok ((), n') ∧
      readQ m' (A + 4 * (i + j * LDA)) = some q ∧ readQ n' (A' + 4 * (i' + j' * LDA')) = some q := by
  obtain ⟨m', h1, h2, _⟩ := gerGen_bits conjY m M N ALPHA X INCX Y INCY A LDA x y a h
  obtain ⟨n', g1, g2, _⟩ := gerGen_bits conjY n M' N' ALPHA X' INCX' Y' INCY' A' LDA' x' y' a' h'
  refine ⟨m', n', _, h1, g1, h2 i j hi hj, ?_⟩
  rw [g2 i' j' hi' hj']
  dsimp only
  rw [hx, hy, ha]

omit [ArithEq F] in
/-- C47, SIMD GEMM: changing A outside row `i` of op(A), B outside column `j` of op(B) and C outside `(i,j)` — to
NaN, say — leaves the bits of the result's entry `(i,j)` alone. -/
theorem C47_gemm_simd (TRANSA TRANSB : Char) (M N K : Int) (ALPHA BETA : Scal F)
    (m n : Mem F) (blk : Blk) (bAddr aAddr : Int) (junk junk' : Int → F) (A LDA B LDB C LDC : Int)
    (Av Bv Cv Av' Bv' Cv' : Nat → Nat → Quat F)
    (h : GemmPre m blk bAddr aAddr TRANSA TRANSB M.toNat N.toNat K.toNat A LDA Av B LDB Bv C LDC Cv)
    (h' : GemmPre n blk bAddr aAddr TRANSA TRANSB M.toNat N.toNat K.toNat A LDA Av' B LDB Bv' C LDC Cv')
    (i j : Nat) (hi : i < M.toNat) (hj : j < N.toNat)
    (hrow : ∀ k, k < K.toNat → if TRANSA = 'T' ∨ TRANSA = 'C' then Av k i = Av' k i else Av i k = Av' i k)
    (hcol : ∀ k, k < K.toNat → if TRANSB = 'T' ∨ TRANSB = 'C' then Bv j k = Bv' j k else Bv k j = Bv' k j)
    (hc : Cv i j = Cv' i j) :
    ∃ m' n' q,
      gemmAVX blk bAddr aAddr junk TRANSA TRANSB M N K ALPHA A LDA B LDB BETA C LDC m = .ok ((), m') ∧
      gemmAVX blk bAddr aAddr junk' TRANSA TRANSB M N K ALPHA A LDA B LDB BETA C LDC n = .ok ((), n') ∧
      readQ m' (C + 4 * (i + j * LDC)) = some q ∧ readQ n' (C + 4 * (i + j * LDC)) = some q := by
  refine C24_gemm_blocking TRANSA TRANSB K ALPHA BETA m blk bAddr aAddr junk M N A LDA B LDB C LDC Av Bv Cv h
    n blk bAddr aAddr junk' M N A LDA B LDB C LDC Av' Bv' Cv' h' i j i j hi hj hi hj ?_ ?_ hc
  · intro k hk
    have := hrow k hk
    unfold opE
    by_cases e : TRANSA = 'T' ∨ TRANSA = 'C'
    · rw [if_pos e] at this
      rw [if_pos (show isT TRANSA from e), if_pos (show isT TRANSA from e)]; exact this
    · rw [if_neg e] at this
      rw [if_neg (show ¬ isT TRANSA from e), if_neg (show ¬ isT TRANSA from e)]; exact this
  · intro k hk
    have := hcol k hk
    unfold opE
    by_cases e : TRANSB = 'T' ∨ TRANSB = 'C'
    · rw [if_pos e] at this
      rw [if_pos (show isT TRANSB from e), if_pos (show isT TRANSB from e)]; exact this
    · rw [if_neg e] at this
      rw [if_neg (show ¬ isT TRANSB from e), if_neg (show ¬ isT TRANSB from e)]; exact this

/-! ### Non-vacuity

Two memories that differ everywhere except in what entry (1,2) depends on. -/

/-- GER: entry (1,2) of a 2 × 3 matrix sees x_1 (cells 68–71), y_2 (98–101) and A(1,2) (36–39) only. -/
example (f g : Int → F) (ALPHA : Scal F)
    (h : ∀ a, (68 ≤ a ∧ a < 72) ∨ (98 ≤ a ∧ a < 102) ∨ (36 ≤ a ∧ a < 40) → f a = g a) :
    ∃ m' n' q, gerGen true 2 3 ALPHA 60 2 90 1 0 4 (memOf 0 200 f) = .ok ((), m') ∧
      gerGen true 2 3 ALPHA 60 2 90 1 0 4 (memOf 0 200 g) = .ok ((), n') ∧
      readQ m' 36 = some q ∧ readQ n' 36 = some q := by
  have := C47_ger_portable true ALPHA _ _ _ _ _ _ _ _ _ _ _ _ (gerBArgs_example f) _ _ _ _ _ _ _ _ _ _ _ _ (gerBArgs_example g)
    1 2 1 2 (by decide) (by decide) (by decide) (by decide)
    (by congr 1 <;> exact h _ (by norm_num)) (by congr 1 <;> exact h _ (by norm_num))
    (by congr 1 <;> exact h _ (by norm_num))
  exact this

/-- GEMV with `'C'`: element 2 sees column 2 of A (cells 8–11), all of x and y_2 (48–51). -/
example (f g : Int → F) (ALPHA BETA : Scal F)
    (h : ∀ a, (8 ≤ a ∧ a < 12) ∨ (20 ≤ a ∧ a < 36) ∨ (48 ≤ a ∧ a < 52) → f a = g a) :
    ∃ m' n' q, gemvGen .z 'C' 2 3 ALPHA 0 2 20 2 BETA 40 1 (memOf 0 100 f) = .ok ((), m') ∧
      gemvGen .z 'C' 2 3 ALPHA 0 2 20 2 BETA 40 1 (memOf 0 100 g) = .ok ((), n') ∧
      readQ m' 48 = some q ∧ readQ n' 48 = some q := by
  refine C47_gemv_portable .z 'C' 2 ALPHA BETA _ 2 3 _ _ _ _ _ _ _ _ _ (by decide) (by decide) (gemvBArgs_example f ALPHA)
    _ 2 3 _ _ _ _ _ _ _ _ _ (by decide) (by decide) (gemvBArgs_example g ALPHA) rfl rfl 2 2 (by decide) (by decide) ?_ ?_ ?_
  · intro l hl
    have hl : l < 2 := hl
    simp only [show ('C' : Char) ≠ 'N' by decide, if_false]
    congr 2 <;> exact h _ (by left; constructor <;> push_cast <;> omega)
  · intro l hl
    have hl : l < 2 := hl
    congr 1 <;> exact h _ (by right; left; constructor <;> omega)
  · congr 1 <;> exact h _ (by norm_num)

end Haxx
