import Verif.MixBits
import Verif.PropsGeneric2

/-!
# Property theorems: real and complex operands of the portable templates (C63)

Included from a program, the portable templates accept vectors x and y and a matrix B of real or complex
numbers.  Such an operand means the quaternion operand with the same values.
-/

set_option linter.unusedSectionVars false

namespace Haxx
open Arith Quaternion Finset

/-! ## With quaternion operands these are the definitions of `Generic1` and `Generic3` -/

section tie
variable {F : Type} [Arith F]

theorem mul_h (a : Scal F) (q : Quat F) : a.mul (.h q) = .h (a.mulL q) := by cases a <;> rfl
theorem mul_h' (q : Quat F) (a : Scal F) : (Scal.h q).mul a = .h (Scal.mulR q a) := by cases a <;> rfl

theorem loadK_h {β : Type} (p : Int) (f : Scal F → Prog F β) : (loadK .h p >>= f) = (loadQ p >>= fun q => f (.h q)) := by
  unfold loadK
  rw [prog_bind_assoc]
  rfl

theorem gemmGenK_h [ArithEq F] : gemmGenK (F := F) (kB := .h) = gemmGen := by
  have hc : ∀ (b : Quat F) (c : Bool), (if c then (Scal.h b).smartConj else Scal.h b) = .h (if c then b.conj else b) := by
    intro b c; cases c <;> rfl
  have h1 : ∀ kA, gemmAxpyElK (F := F) kA .h = gemmAxpyEl kA := by
    intro kA; funext cb AL ac bp cc i
    unfold gemmAxpyElK gemmAxpyEl
    simp only [loadK_h, hc, mul_h]; rfl
  have h2 : ∀ kA, gemmDotElK (F := F) kA .h = gemmDotEl kA := by
    intro kA; funext ca cb ac bp l h
    unfold gemmDotElK gemmDotEl
    simp only [loadK_h, hc, mul_h]; rfl
  funext kA tA tB M N K AL A LDA B LDB BE C LDC
  unfold gemmGenK gemmGen gemmColNNK gemmColNN gemmColNTK gemmColNT gemmColTNK gemmColTN gemmColTTK gemmColTT
    gemmElTNK gemmElTN gemmElTTK gemmElTT
  simp only [h1, h2, Kind.width]

theorem gemvGenK_h [ArithEq F] : gemvGenK (F := F) (kX := .h) = gemvGen := by
  have h1 : ∀ kA, gemvAxpyElK (F := F) kA .h = gemvAxpyEl kA := by
    intro kA; funext AL A LDA X Y j jx h i iy
    unfold gemvAxpyElK gemvAxpyEl
    simp only [loadK_h, mul_h, Kind.width]; rfl
  have h2 : ∀ kA, gemvDotElK (F := F) kA .h = gemvDotEl kA := by
    intro kA; funext nc A LDA X j i ix h
    unfold gemvDotElK gemvDotEl
    simp only [loadK_h, mul_h, Kind.width]; rfl
  have h3 : ∀ kA, gemvColNK (F := F) kA .h = gemvColN kA := by
    intro kA; funext M AL A LDA X INCX Y INCY j jx
    unfold gemvColNK gemvColN
    simp only [loadK_h, mul_h, h1, Kind.width]; rfl
  funext kA t M N AL A LDA X INCX BE Y INCY
  unfold gemvGenK gemvGen gemvColTK gemvColT
  simp only [h2, h3]

theorem gerGenK_h [ArithEq F] : gerGenK (F := F) .h .h = gerGen := by
  have hc : ∀ (b : Quat F) (c : Bool), (if c then (Scal.h b).smartConj else Scal.h b) = .h (if c then b.conj else b) := by
    intro b c; cases c <;> rfl
  have h1 : gerElK (F := F) .h .h = gerEl := by
    funext cj AL X Y A LDA j JY i ix
    unfold gerElK gerEl
    simp only [loadK_h, mul_h, hc, Kind.width]; rfl
  have h2 : gerColK (F := F) .h .h = gerCol := by
    funext cj M AL X INCX Y INCY A LDA j JY
    unfold gerColK gerCol
    simp only [loadK_h, h1, Kind.width]; rfl
  funext cj M N AL X INCX Y INCY A LDA
  unfold gerGenK gerGen
  simp only [h2]

theorem axpyvGenK_h [ArithEq F] : axpyvGenK (F := F) .h = axpyvGen := by
  have h1 : axpyElK (F := F) .h = axpyEl := by
    funext isL AL X Y ix iy
    unfold axpyElK axpyEl
    simp only [loadK_h, mul_h, mul_h', Kind.width]
    cases isL <;> rfl
  funext S N AL X INCX Y INCY
  unfold axpyvGenK axpyvGen axpyUnrollK axpyUnroll
  simp only [h1]

end tie

/-! ## Values -/

section
variable {R : Type} [CommRing R]

theorem toH_addTo (q : Quat R) (s : Scal R) : (Scal.addTo q s).toH = q.toH + s.toH := by
  cases s <;> ext <;> simp [Scal.addTo, Scal.toH, Quat.addAssignReal, Quat.addAssignCplx, Quat.addAssign]

theorem toH_toQuat (s : Scal R) : s.toQuat.toH = s.toH := by
  cases s <;> ext <;> simp [Scal.toQuat, Scal.toH]

theorem toH_smartConj' (s : Scal R) : s.smartConj.toH = star s.toH := by
  cases s <;> ext <;> simp [Scal.smartConj, Scal.toH, Cplx.conj, Quat.conj]

theorem toH_pAccK (AL : Scal R) (x y : Nat → Scal R) (c : Quat R) (n : Nat) :
    (pAccK AL x y c n).toH = AL.toH * ∑ l ∈ range n, (x l).toH * (y l).toH + c.toH := by
  induction n with
  | zero => simp [pAccK]
  | succ n ih => rw [pAccK, toH_addTo, ih, toH_scalMul, toH_scalMul, sum_range_succ, mul_add, mul_assoc]; abel

theorem toH_pDotK (x y : Nat → Scal R) (n : Nat) : (pDotK x y n).toH = ∑ l ∈ range n, (x l).toH * (y l).toH := by
  induction n with
  | zero => rw [pDotK, range_zero, sum_empty]; exact toH_zero
  | succ n ih => rw [pDotK, toH_addTo, ih, toH_scalMul, sum_range_succ]

theorem toH_pAxpysK (AL : Scal R) (a x : Nat → Scal R) (y : Quat R) (n : Nat) :
    (pAxpysK AL a x y n).toH = AL.toH * ∑ l ∈ range n, (a l).toH * (x l).toH + y.toH := by
  induction n with
  | zero => simp [pAxpysK]
  | succ n ih =>
    rw [pAxpysK, pAxpyK, toH_addTo, toH_addAssign, ih, toH_smulL, toH_toQuat, toH_scalMul, toH_scalMul, toH_scalComm,
      sum_range_succ, mul_add, sub_mul]
    simp only [mul_assoc]
    abel

variable [DecidableEq R]

theorem toH_pBeta {BE : Scal R} (hb : BE.Plain) (c : Quat R) : (pBeta BE c).toH = BE.toH * c.toH := by
  unfold pBeta
  split
  · rename_i e; rw [hb.zero e, toH_zero, zero_mul]
  · split
    · exact toH_smulL _ _
    · rename_i e
      rw [hb.one (by simpa using e), one_mul]

theorem toH_pScale {BE : Scal R} (hb : BE.Plain) (c : Quat R) : (pScale BE c).toH = BE.toH * c.toH := by
  unfold pScale
  split
  · split
    · rename_i e; rw [hb.zero e, toH_zero, zero_mul]
    · exact toH_smulL _ _
  · rename_i e
    rw [hb.one (by simpa using e), one_mul]

theorem toH_pStore {AL BE : Scal R} (hb : BE.Plain) (h c : Quat R) :
    (pStore AL BE h c).toH = AL.toH * h.toH + BE.toH * c.toH := by
  unfold pStore
  split
  · rename_i e; rw [hb.zero e, toH_smulL, zero_mul, add_zero]
  · rw [show Quat.add _ _ = Quat.addAssign _ _ from rfl, toH_addAssign, toH_smulL, toH_smulL]

theorem toH_pGemmK (tA : Char) {AL BE : Scal R} (ha : AL.Plain) (hb : BE.Plain) (K : Int) (x y : Nat → Scal R) (c : Quat R) :
    (pGemmK tA AL BE K x y c).toH = AL.toH * ∑ l ∈ range K.toNat, (x l).toH * (y l).toH + BE.toH * c.toH := by
  unfold pGemmK
  split
  · rename_i e
    simp only [Bool.or_eq_true, Bool.and_eq_true, decide_eq_true_eq] at e
    rw [hb.one e.2, one_mul]
    rcases e.1 with e | e
    · rw [ha.zero e, zero_mul, zero_add]
    · subst e; simp
  · split
    · rename_i e
      rw [ha.zero e, zero_mul, zero_add]
      split
      · rename_i e; rw [hb.zero e, toH_zero, zero_mul]
      · exact toH_smulL _ _
    · split
      · rw [toH_pAccK, toH_pBeta hb]
      · rw [toH_pStore hb, toH_pDotK]

theorem toH_pGemvK (t : Char) {AL BE : Scal R} (ha : AL.Plain) (hb : BE.Plain) (n : Nat) (a x : Nat → Scal R) (y : Quat R) :
    (pGemvK t AL BE n a x y).toH = AL.toH * ∑ l ∈ range n, (a l).toH * (x l).toH + BE.toH * y.toH := by
  unfold pGemvK
  split
  · rename_i e
    simp only [Bool.and_eq_true] at e
    rw [hb.one e.2, ha.zero e.1]; simp
  · split
    · rename_i e
      rw [ha.zero e, toH_pScale hb]; simp
    · split
      · rw [toH_pAxpysK, toH_pScale hb]
      · rw [toH_addAssign, toH_smulL, toH_pDotK, toH_pScale hb, add_comm]

theorem toH_opKE {t : Char} {X : Nat → Nat → Scal R} {op : Nat → Nat → ℍ[R]} (h : KOpIs t X op) (i l : Nat) :
    (opKE t X i l).toH = op i l := by
  rcases h with ⟨rfl, e⟩ | ⟨rfl, e⟩ | ⟨rfl, e⟩ <;> rw [e] <;> simp [opKE, toH_smartConj']

theorem toH_opVE {t : Char} {X : Nat → Nat → Scal R} {op : Nat → Nat → ℍ[R]} (h : KOpIs t X op) (i l : Nat) :
    (opVE t X i l).toH = op i l := by
  rcases h with ⟨rfl, e⟩ | ⟨rfl, e⟩ | ⟨rfl, e⟩ <;> rw [e] <;> simp [opVE, toH_smartConj']

/-- C63.  AXPYV with X a vector of real, complex or quaternion numbers: `y_i += ALPHA*x_i` (or
`x_i*ALPHA` when SIDE is 'R'), nothing else changes. -/
theorem C63_axpyv_partial (m : Mem R) (kX : Kind) (SIDE : Char) (N X INCX Y INCY : Int) (ALPHA : Scal R)
    (x : Nat → Scal R) (y : Nat → Quat R) (hx : 0 < INCX) (hy : 0 < INCY)
    (fx : Fits32 (N * INCX)) (fy : Fits32 (N * INCY))
    (hX : KVecAt m kX X INCX N.toNat x) (hY : VecAt m Y INCY N.toNat y)
    (hdis : Apart (KVecCell kX X INCX N.toNat) (VecCell Y INCY N.toNat)) (ha : ALPHA.Plain) :
    ∃ m', axpyvGenK kX SIDE N ALPHA X INCX Y INCY m = .ok ((), m') ∧
      VecAt m' Y INCY N.toNat (fun i => Quat.ofH ((y i).toH +
        (if SIDE = 'R' then (x i).toH * ALPHA.toH else ALPHA.toH * (x i).toH))) ∧
      SameOutside (VecCell Y INCY N.toNat) m m' := by
  obtain ⟨m', h1, h2, h3⟩ := axpyvGenK_bits m kX SIDE N X INCX Y INCY ALPHA x y hx hy fx fy hX hY hdis
  refine ⟨m', h1, ?_, h3⟩
  intro i hi
  rw [h2 i hi]
  refine congrArg some (eq_ofH ?_)
  unfold pAxpyvK
  split
  · rename_i e; rw [ha.zero e]; simp
  · rw [toH_addTo]; split <;> rw [toH_scalMul]

/-- C63.  GEMM with A and B matrices of real, complex or quaternion numbers (nine combinations, times the
types of ALPHA and BETA): `C := ALPHA*op(A)*op(B) + BETA*C`, nothing else changes. -/
theorem C63_gemm_partial (m : Mem R) (kA kB : Kind) (tA tB : Char) (M N K : Int) (ALPHA BETA : Scal R)
    (A LDA B LDB C LDC : Int) (Av Bv : Nat → Nat → Scal R) (Cv : Nat → Nat → Quat R) (opA opB : Nat → Nat → ℍ[R])
    (hopA : KOpIs tA Av opA) (hopB : KOpIs tB Bv opB)
    (h : GemmMArgs m kA kB tA tB M N K ALPHA A LDA B LDB C LDC Av Bv Cv) (ha : ALPHA.Plain) (hb : BETA.Plain) :
    ∃ m', gemmGenK kA kB tA tB M N K ALPHA A LDA B LDB BETA C LDC m = .ok ((), m') ∧
      MatAt m' C LDC M.toNat N.toNat (fun i j => Quat.ofH
        (ALPHA.toH * ∑ l ∈ range K.toNat, opA i l * opB l j + BETA.toH * (Cv i j).toH)) ∧
      SameOutside (MatCell C LDC M.toNat N.toNat) m m' := by
  obtain ⟨m', h1, h2, h3⟩ := gemmGenK_bits m kA kB tA tB M N K ALPHA BETA A LDA B LDB C LDC Av Bv Cv h
  refine ⟨m', h1, ?_, h3⟩
  intro i j hi hj
  rw [h2 i j hi hj]
  refine congrArg some (eq_ofH ?_)
  rw [toH_pGemmK tA ha hb]
  simp only [toH_opKE hopA, toH_opKE hopB]

/-- C63.  GEMV with A a matrix and x a vector of real, complex or quaternion numbers:
`y := ALPHA*op(A)*x + BETA*y`, nothing else changes. -/
theorem C63_gemv_partial (m : Mem R) (kA kX : Kind) (t : Char) (M N : Int) (ALPHA : Scal R) (A LDA X INCX : Int)
    (BETA : Scal R) (Y INCY : Int) (a : Nat → Nat → Scal R) (x : Nat → Scal R) (y : Nat → Quat R) (op : Nat → Nat → ℍ[R])
    (hM : M ≠ 0) (hN : N ≠ 0) (h : GemvMArgs m kA kX t M N ALPHA A LDA X INCX Y INCY a x y)
    (hop : KOpIs t a op) (ha : ALPHA.Plain) (hb : BETA.Plain) :
    ∃ m', gemvGenK kA kX t M N ALPHA A LDA X INCX BETA Y INCY m = .ok ((), m') ∧
      VecAt m' Y INCY (if t = 'N' then M else N).toNat (fun i => Quat.ofH
        (ALPHA.toH * ∑ l ∈ range (if t = 'N' then N else M).toNat, op i l * (x l).toH + BETA.toH * (y i).toH)) ∧
      SameOutside (VecCell Y INCY (if t = 'N' then M else N).toNat) m m' := by
  obtain ⟨m', h1, h2, h3⟩ := gemvGenK_bits m kA kX t M N ALPHA A LDA X INCX BETA Y INCY a x y hM hN h
  refine ⟨m', h1, ?_, h3⟩
  intro i hi
  rw [h2 i hi]
  refine congrArg some (eq_ofH ?_)
  rw [toH_pGemvK t ha hb]
  simp only [toH_opVE hop]

/-- C63.  GERU (GERC) with x and y vectors of real, complex or quaternion numbers:
`A_ij += ALPHA*x_i*y_j` (`ALPHA*x_i*conj(y_j)`), nothing else changes.  A quaternion `y_j = ck`, `c ≠ 0`, is
taken for zero by the code (C31) and excluded. -/
theorem C63_ger_partial (kX kY : Kind) (conjY : Bool) (m : Mem R) (M N : Int) (ALPHA : Scal R) (X INCX Y INCY A LDA : Int)
    (x y : Nat → Scal R) (a : Nat → Nat → Quat R) (h : GerMArgs m kX kY M N X INCX Y INCY A LDA x y a)
    (ha : ALPHA.Plain) (hy : ∀ j, j < N.toNat → ∀ q, y j = .h q → ¬ q.PureK) :
    ∃ m', gerGenK kX kY conjY M N ALPHA X INCX Y INCY A LDA m = .ok ((), m') ∧
      MatAt m' A LDA M.toNat N.toNat
        (fun i j => Quat.ofH ((a i j).toH + ALPHA.toH * (x i).toH * (if conjY then star (y j).toH else (y j).toH))) ∧
      SameOutside (MatCell A LDA M.toNat N.toNat) m m' := by
  obtain ⟨m', h1, h2, h3⟩ := gerGenK_bits kX kY conjY m M N ALPHA X INCX Y INCY A LDA x y a h
  refine ⟨m', h1, ?_, h3⟩
  intro i j hi hj
  rw [h2 i j hi hj]
  refine congrArg some (eq_ofH ?_)
  dsimp only [pGerK]
  split
  · rename_i e; rw [ha.zero e]; simp
  · by_cases e1 : (!(y j).eqZero) = true
    · rw [if_pos e1, toH_addTo, toH_scalMul, toH_scalMul]
      cases conjY <;> simp [toH_smartConj']
    · rw [if_neg e1]
      have e0 : (y j).eqZero = true := by simpa using e1
      have hz : (y j).toH = 0 := by
        cases hq : y j with
        | d r => rw [hq] at e0; exact (Scal.plain_d r).zero e0
        | z r => rw [hq] at e0; exact (Scal.plain_z r).zero e0
        | h q =>
          rw [hq] at e0
          have hn := hy j hj q hq
          simp [Scal.eqZero, Quat.eqOp, Quat.mkReal] at e0
          unfold Quat.PureK at hn
          ext <;> simp_all [Scal.toH]
      rw [hz]; cases conjY <;> simp

/-- Why `_partial`: with ALPHA = ck (a quaternion, c ≠ 0) all four routines do nothing (GEMM and GEMV for BETA = 1),
whatever the types of the other operands: `ALPHA == 0` does not look at the k component. -/
theorem C63_pure_k_violated (m : Mem R) (k1 k2 : Kind) (conjY : Bool) (t1 t2 : Char) (c : R) (M N K : Int)
    (A LA B LB C LC : Int) :
    axpyvGenK k1 t1 N (.h ⟨0, 0, 0, c⟩) A LA B LB m = .ok ((), m) ∧
    gemmGenK k1 k2 t1 t2 M N K (.h ⟨0, 0, 0, c⟩) A LA B LB (.d 1) C LC m = .ok ((), m) ∧
    gemvGenK k1 k2 t1 M N (.h ⟨0, 0, 0, c⟩) A LA B LB (.d 1) C LC m = .ok ((), m) ∧
    gerGenK k1 k2 conjY M N (.h ⟨0, 0, 0, c⟩) A LA B LB C LC m = .ok ((), m) := by
  have h1 : (Scal.h (⟨0, 0, 0, c⟩ : Quat R)).eqZero = true := by simp [Scal.eqZero, Quat.eqOp, Quat.mkReal]
  have h2 : (Scal.d (1 : R)).eqOne = true := by simp [Scal.eqOne]
  refine ⟨?_, ?_, ?_, ?_⟩
  · unfold axpyvGenK
    simp only [h1, if_true, ite_self]; rfl
  · unfold gemmGenK
    simp only [h1, h2, Bool.true_or, Bool.and_true, Bool.or_true, if_true]; rfl
  · unfold gemvGenK
    simp only [h1, h2, Bool.and_true, Bool.or_true, if_true]; rfl
  · unfold gerGenK
    simp only [h1, Bool.or_true, if_true]; rfl

/-- C63.  Widening an operand does not change the result: the product with B real (or complex) and the product
with the quaternion matrix B' of the same values, from equal A, C, ALPHA and BETA, leave the same C.  (The two
calls may use different addresses and memories.) -/
theorem C63_gemm_widening (m1 m2 : Mem R) (kA kB : Kind) (tA tB : Char) (hA : tA = 'N' ∨ tA = 'T' ∨ tA = 'C')
    (hB : tB = 'N' ∨ tB = 'T' ∨ tB = 'C') (M N K : Int) (ALPHA BETA : Scal R)
    (A1 LA1 B1 LB1 C1 LC1 A2 LA2 B2 LB2 C2 LC2 : Int) (Av Bv : Nat → Nat → Scal R) (Bv' Cv : Nat → Nat → Quat R)
    (he : ∀ i j, (Bv' i j).toH = (Bv i j).toH)
    (h1 : GemmMArgs m1 kA kB tA tB M N K ALPHA A1 LA1 B1 LB1 C1 LC1 Av Bv Cv)
    (h2 : GemmKArgs m2 kA tA tB M N K ALPHA A2 LA2 B2 LB2 C2 LC2 Av Bv' Cv) (ha : ALPHA.Plain) (hb : BETA.Plain) :
    ∃ m1' m2', gemmGenK kA kB tA tB M N K ALPHA A1 LA1 B1 LB1 BETA C1 LC1 m1 = .ok ((), m1') ∧
      gemmGen kA tA tB M N K ALPHA A2 LA2 B2 LB2 BETA C2 LC2 m2 = .ok ((), m2') ∧
      ∀ i j : Nat, i < M.toNat → j < N.toNat →
        readQ m1' (C1 + 4 * (i + j * LC1)) = readQ m2' (C2 + 4 * (i + j * LC2)) ∧
        (readQ m1' (C1 + 4 * (i + j * LC1))).isSome := by
  have kop : ∀ (t : Char) (X : Nat → Nat → Scal R), t = 'N' ∨ t = 'T' ∨ t = 'C' →
      KOpIs t X (fun i l => (opKE t X i l).toH) := by
    intro t X ht
    rcases ht with rfl | rfl | rfl
    · exact Or.inl ⟨rfl, fun i k => by simp [opKE]⟩
    · exact Or.inr (Or.inl ⟨rfl, fun i k => by simp [opKE]⟩)
    · exact Or.inr (Or.inr ⟨rfl, fun i k => by simp [opKE, toH_smartConj']⟩)
  have qop : QOpIs tB Bv' (fun i l => (opKE tB Bv i l).toH) := by
    rcases hB with rfl | rfl | rfl
    · exact Or.inl ⟨rfl, fun i k => by simp [opKE, he]⟩
    · exact Or.inr (Or.inl ⟨rfl, fun i k => by simp [opKE, he]⟩)
    · exact Or.inr (Or.inr ⟨rfl, fun i k => by simp [opKE, toH_smartConj', he]⟩)
  obtain ⟨m1', r1, v1, _⟩ := C63_gemm_partial m1 kA kB tA tB M N K ALPHA BETA A1 LA1 B1 LB1 C1 LC1 Av Bv Cv _ _
    (kop tA Av hA) (kop tB Bv hB) h1 ha hb
  obtain ⟨m2', r2, v2, _⟩ := C29_gemm_portable m2 kA tA tB M N K ALPHA BETA A2 LA2 B2 LB2 C2 LC2 Av Bv' Cv _ _
    (kop tA Av hA) qop h2 ha hb
  refine ⟨m1', m2', r1, r2, fun i j hi hj => ?_⟩
  rw [v1 i j hi hj, v2 i j hi hj]
  exact ⟨rfl, rfl⟩

end

/-! ## In any arithmetic: components that are not touched -/

section
variable {F : Type} [Arith F] [ArithEq F]

/-- C63, in any (rounded) arithmetic: adding real multiples of a real vector leaves the three imaginary
components of y exactly as they were, whatever they are. -/
theorem C63_axpyv_real_keeps (m : Mem F) (SIDE : Char) (N X INCX Y INCY : Int) (alpha : F)
    (x : Nat → F) (y : Nat → Quat F) (hx : 0 < INCX) (hy : 0 < INCY)
    (fx : Fits32 (N * INCX)) (fy : Fits32 (N * INCY))
    (hX : KVecAt m .d X INCX N.toNat (fun i => .d (x i))) (hY : VecAt m Y INCY N.toNat y)
    (hdis : Apart (KVecCell .d X INCX N.toNat) (VecCell Y INCY N.toNat)) :
    ∃ m' y', axpyvGenK .d SIDE N (.d alpha) X INCX Y INCY m = .ok ((), m') ∧ VecAt m' Y INCY N.toNat y' ∧
      ∀ i, (y' i).i = (y i).i ∧ (y' i).j = (y i).j ∧ (y' i).k = (y i).k := by
  obtain ⟨m', h1, h2, _⟩ := axpyvGenK_bits m .d SIDE N X INCX Y INCY (.d alpha) _ y hx hy fx fy hX hY hdis
  refine ⟨m', _, h1, h2, fun i => ?_⟩
  unfold pAxpyvK
  split
  · exact ⟨rfl, rfl, rfl⟩
  · split <;> exact ⟨rfl, rfl, rfl⟩

/-- C63, in any arithmetic: GERU with ALPHA, x and y real or complex leaves the j and k components of A exactly
as they were. -/
theorem C63_geru_complex_keeps (kX kY : Kind) (m : Mem F) (M N : Int) (ALPHA : Scal F) (X INCX Y INCY A LDA : Int)
    (x y : Nat → Scal F) (a : Nat → Nat → Quat F) (h : GerMArgs m kX kY M N X INCX Y INCY A LDA x y a)
    (ha : ∀ q, ALPHA ≠ .h q) (hx : ∀ i q, x i ≠ .h q) (hy : ∀ i q, y i ≠ .h q) :
    ∃ m' a', gerGenK kX kY false M N ALPHA X INCX Y INCY A LDA m = .ok ((), m') ∧
      MatAt m' A LDA M.toNat N.toNat a' ∧ ∀ i j, (a' i j).j = (a i j).j ∧ (a' i j).k = (a i j).k := by
  obtain ⟨m', h1, h2, _⟩ := gerGenK_bits kX kY false m M N ALPHA X INCX Y INCY A LDA x y a h
  refine ⟨m', _, h1, h2, fun i j => ?_⟩
  have hx' := hx i
  have hy' := hy j
  unfold pGerK
  split
  · exact ⟨rfl, rfl⟩
  · split
    · revert ha hx' hy'
      generalize x i = xi, y j = yj
      intro ha hx' hy'
      cases ALPHA with
      | h q => exact absurd rfl (ha q)
      | d r => cases xi with
        | h q => exact absurd rfl (hx' q)
        | d s => cases yj with
          | h q => exact absurd rfl (hy' q)
          | d t => exact ⟨rfl, rfl⟩
          | z t => exact ⟨rfl, rfl⟩
        | z s => cases yj with
          | h q => exact absurd rfl (hy' q)
          | d t => exact ⟨rfl, rfl⟩
          | z t => exact ⟨rfl, rfl⟩
      | z r => cases xi with
        | h q => exact absurd rfl (hx' q)
        | d s => cases yj with
          | h q => exact absurd rfl (hy' q)
          | d t => exact ⟨rfl, rfl⟩
          | z t => exact ⟨rfl, rfl⟩
        | z s => cases yj with
          | h q => exact absurd rfl (hy' q)
          | d t => exact ⟨rfl, rfl⟩
          | z t => exact ⟨rfl, rfl⟩
    · exact ⟨rfl, rfl⟩

end

/-! ## The hypotheses are met -/

section

private theorem rdK_d {a : Int} (h : 0 ≤ a ∧ a < 200) : readK (memOf 0 200 (fun a => a)) .d a = some (.d a) := by
  have : memOf 0 200 (fun a => a) a = some a := if_pos ⟨by omega, by omega⟩
  simp only [readK, this]

private theorem rdK_z {a : Int} (h : 0 ≤ a ∧ a < 199) : readK (memOf 0 200 (fun a => a)) .z a = some (.z ⟨a, a + 1⟩) := by
  have h1 : memOf 0 200 (fun a => a) a = some a := if_pos ⟨by omega, by omega⟩
  have h2 : memOf 0 200 (fun a => a) (a + 1) = some (a + 1) := if_pos ⟨by omega, by omega⟩
  simp only [readK, h1, h2]

/-- A 2×3 real A, a 3×2 complex B, a 2×2 quaternion C. -/
theorem gemmMArgs_example : GemmMArgs (memOf 0 200 (fun a => a)) .d .z 'N' 'N' 2 2 3 (.d 5) 0 2 10 3 40 3
    (fun i j => .d ((0:Int) + 1 * ((i:Int) + j * 2)))
    (fun i j => let p : Int := 10 + 2 * ((i:Int) + j * 3); .z ⟨p, p+1⟩)
    (fun i j => let p : Int := 40 + 4 * ((i:Int) + j * 3); ⟨p, p+1, p+2, p+3⟩) where
  hA := by
    intro _ i j hi hj
    have h1 : i < 2 := hi
    have h2 : j < 3 := hj
    exact rdK_d (a := 0 + 1 * ((i:Int) + j * 2)) (by omega)
  hB := by
    intro _ i j hi hj
    have h1 : i < 3 := hi
    have h2 : j < 2 := hj
    exact rdK_z (a := 10 + 2 * ((i:Int) + j * 3)) (by omega)
  hC := by
    intro i j hi hj
    have h1 : i < 2 := hi
    have h2 : j < 2 := hj
    exact readQ_memOf (by omega) (by omega)
  hld := by omega
  fitA := by intro l hl; have h1 : l < 3 := hl; unfold Fits32; omega
  fitB := by intro l hl; have h1 : l < 2 := hl; unfold Fits32; omega
  fitC := by intro l hl; have h1 : l < 2 := hl; unfold Fits32; omega
  hAC := by
    rintro c ⟨i, j, hi, hj, h⟩ ⟨i', j', hi', hj', h'⟩
    have h1 : i < 2 := hi
    have h2 : j < 3 := hj
    have h3 : i' < 2 := hi'
    have h4 : j' < 2 := hj'
    simp only [Kind.width] at h
    unfold InQ at *; omega
  hBC := by
    rintro c ⟨i, j, hi, hj, h⟩ ⟨i', j', hi', hj', h'⟩
    have h1 : i < 3 := hi
    have h2 : j < 2 := hj
    have h3 : i' < 2 := hi'
    have h4 : j' < 2 := hj'
    simp only [Kind.width] at h
    unfold InQ at *; omega

example : ∃ m', gemmGenK (F := Int) .d .z 'N' 'N' 2 2 3 (.d 5) 0 2 10 3 (.d 7) 40 3 (memOf 0 200 (fun a => a)) = .ok ((), m') :=
  let ⟨m', h, _⟩ := C63_gemm_partial _ .d .z 'N' 'N' 2 2 3 (.d 5) (.d 7) 0 2 10 3 40 3 _ _ _ _ _ (Or.inl ⟨rfl, fun _ _ => rfl⟩)
    (Or.inl ⟨rfl, fun _ _ => rfl⟩) gemmMArgs_example (Scal.plain_d _) (Scal.plain_d _)
  ⟨m', h⟩

/-- Address `a` holds `a` below 80; from 80 on, the entries of B as quaternions. -/
private def widMem (a : Int) : Option Int :=
  if 0 ≤ a ∧ a < 80 then some a
  else if 80 ≤ a ∧ a < 120 then
    (if (a - 80) % 4 = 0 then some (10 + 2 * ((a - 80) / 4))
     else if (a - 80) % 4 = 1 then some (10 + 2 * ((a - 80) / 4) + 1) else some 0)
  else none

private theorem widMem_lo {a : Int} (h : 0 ≤ a ∧ a < 80) : widMem a = some a := if_pos h

/-- The widening theorem applies to it: B as a quaternion matrix at 80. -/
example : ∃ m2 A2 LA2 B2 LB2 C2 LC2 Bv', (∀ i j : Nat, (Bv' i j).toH = (Scal.z ⟨10 + 2 * ((i:Int) + j * 3), 10 + 2 * ((i:Int) + j * 3) + 1⟩).toH) ∧
    GemmKArgs (R := Int) m2 .d 'N' 'N' 2 2 3 (.d 5) A2 LA2 B2 LB2 C2 LC2 (fun i j => .d ((0:Int) + 1 * ((i:Int) + j * 2))) Bv'
    (fun i j => let p : Int := 40 + 4 * ((i:Int) + j * 3); ⟨p, p+1, p+2, p+3⟩) := by
  refine ⟨widMem, 0, 2, 80, 3, 40, 3,
    fun i j => ⟨10 + 2 * ((i:Int) + j * 3), 10 + 2 * ((i:Int) + j * 3) + 1, 0, 0⟩, ?_, ?_⟩
  · intro i j; rfl
  · constructor
    · intro _ i j hi hj
      have h1 : i < 2 := hi
      have h2 : j < 3 := hj
      have := widMem_lo (a := 0 + 1 * ((i:Int) + j * 2)) (by omega)
      simp only [readK, Kind.width, this]
    · intro _ i j hi hj
      have h1 : i < 3 := hi
      have h2 : j < 2 := hj
      have e : ∀ q : Int, (80 + 4 * ((i:Int) + j * 3) + q - 80) = 4 * ((i:Int) + j * 3) + q := by intro q; ring
      have e0 : (80 + 4 * ((i:Int) + j * 3) - 80) = 4 * ((i:Int) + j * 3) := by ring
      apply readQ_eq_some.2
      unfold widMem
      rw [e0, e, e, e]
      refine ⟨?_, ?_, ?_, ?_⟩
      · rw [if_neg (by omega), if_pos (by omega), if_pos (by omega)]; congr 3; omega
      · rw [if_neg (by omega), if_pos (by omega), if_neg (by omega), if_pos (by omega)]; congr 4; omega
      · rw [if_neg (by omega), if_pos (by omega), if_neg (by omega), if_neg (by omega)]
      · rw [if_neg (by omega), if_pos (by omega), if_neg (by omega), if_neg (by omega)]
    · intro i j hi hj
      have h1 : i < 2 := hi
      have h2 : j < 2 := hj
      exact readQ_eq_some.2 ⟨widMem_lo (by omega), widMem_lo (by omega), widMem_lo (by omega), widMem_lo (by omega)⟩
    · omega
    · intro l hl; have h1 : l < 3 := hl; unfold Fits32; omega
    · intro l hl; have h1 : l < 2 := hl; unfold Fits32; omega
    · intro l hl; have h1 : l < 2 := hl; unfold Fits32; omega
    · rintro c ⟨i, j, hi, hj, h⟩ ⟨i', j', hi', hj', h'⟩
      have h1 : i < 2 := hi
      have h2 : j < 3 := hj
      have h3 : i' < 2 := hi'
      have h4 : j' < 2 := hj'
      simp only [Kind.width] at h
      unfold InQ at *; omega
    · rintro c ⟨i, j, hi, hj, h⟩ ⟨i', j', hi', hj', h'⟩
      have h1 : i < 3 := hi
      have h2 : j < 2 := hj
      have h3 : i' < 2 := hi'
      have h4 : j' < 2 := hj'
      unfold InQ at *; omega

/-- A 2×3 complex A, a real x (increment 2), TRANS = 'C', a quaternion y. -/
theorem gemvMArgs_example : GemvMArgs (memOf 0 200 (fun a => a)) .z .d 'C' 2 3 (.d 5) 0 4 60 2 90 1
    (fun i j => let p : Int := 0 + 2 * ((i:Int) + j * 4); .z ⟨p, p+1⟩)
    (fun i => .d (60 + 1 * ((i:Int) * 2)))
    (fun i => let p : Int := 90 + 4 * ((i:Int) * 1); ⟨p, p+1, p+2, p+3⟩) where
  incX := by omega
  incY := by omega
  hY := by
    intro i hi
    have h1 : i < 3 := hi
    exact readQ_memOf (by omega) (by omega)
  hA := by
    intro _ i j hi hj
    have h1 : i < 2 := hi
    have h2 : j < 3 := hj
    exact rdK_z (a := 0 + 2 * ((i:Int) + j * 4)) (by omega)
  hX := by
    intro _ i hi
    have h1 : i < 2 := hi
    exact rdK_d (a := 60 + 1 * ((i:Int) * 2)) (by omega)
  hAY := by
    rintro c ⟨i, j, hi, hj, h⟩ ⟨i', hi', h'⟩
    have h1 : i < 2 := hi
    have h2 : j < 3 := hj
    have h3 : i' < 3 := hi'
    simp only [Kind.width] at h
    unfold InQ at *; omega
  hXY := by
    rintro c ⟨i, hi, h⟩ ⟨i', hi', h'⟩
    have h1 : i < 2 := hi
    have h3 : i' < 3 := hi'
    simp only [Kind.width] at h
    unfold InQ at *; omega
  fitA := by intro i j hi hj; have h1 : i < 2 := hi; have h2 : j < 3 := hj; unfold Fits32; omega
  fitX := by intro i hi; have h1 : i ≤ 2 := hi; unfold Fits32; omega
  fitY := by intro i hi; have h1 : i ≤ 3 := hi; unfold Fits32; omega

example : ∃ m', gemvGenK (F := Int) .z .d 'C' 2 3 (.d 5) 0 4 60 2 (.d 7) 90 1 (memOf 0 200 (fun a => a)) = .ok ((), m') :=
  let ⟨m', h, _⟩ := C63_gemv_partial _ .z .d 'C' 2 3 (.d 5) 0 4 60 2 (.d 7) 90 1 _ _ _ _ (by omega) (by omega) gemvMArgs_example
    (Or.inr (Or.inr ⟨rfl, fun _ _ => rfl⟩)) (Scal.plain_d _) (Scal.plain_d _)
  ⟨m', h⟩

/-- A real x, a complex y, a 2×2 quaternion A. -/
theorem gerMArgs_example : GerMArgs (memOf 0 200 (fun a => a)) .d .z 2 2 0 3 20 1 60 2
    (fun i => .d (0 + 1 * ((i:Int) * 3)))
    (fun i => let p : Int := 20 + 2 * ((i:Int) * 1); .z ⟨p, p+1⟩)
    (fun i j => let p : Int := 60 + 4 * ((i:Int) + j * 2); ⟨p, p+1, p+2, p+3⟩) where
  incX := by omega
  incY := by omega
  hA := by
    intro i j hi hj
    have h1 : i < 2 := hi
    have h2 : j < 2 := hj
    exact readQ_memOf (by omega) (by omega)
  hX := by
    intro i hi
    have h1 : i < 2 := hi
    exact rdK_d (a := 0 + 1 * ((i:Int) * 3)) (by omega)
  hY := by
    intro i hi
    have h1 : i < 2 := hi
    exact rdK_z (a := 20 + 2 * ((i:Int) * 1)) (by omega)
  hld := by omega
  hXA := by
    rintro c ⟨i, hi, h⟩ ⟨i', j', hi', hj', h'⟩
    have h1 : i < 2 := hi
    have h3 : i' < 2 := hi'
    have h4 : j' < 2 := hj'
    simp only [Kind.width] at h
    unfold InQ at *; omega
  hYA := by
    rintro c ⟨i, hi, h⟩ ⟨i', j', hi', hj', h'⟩
    have h1 : i < 2 := hi
    have h3 : i' < 2 := hi'
    have h4 : j' < 2 := hj'
    simp only [Kind.width] at h
    unfold InQ at *; omega
  fitA := by intro i j hi hj; have h1 : i < 2 := hi; have h2 : j < 2 := hj; unfold Fits32; omega
  fitX := by intro i hi; have h1 : i ≤ 2 := hi; unfold Fits32; omega
  fitY := by intro i hi; have h1 : i ≤ 2 := hi; unfold Fits32; omega

example : ∃ m', gerGenK (F := Int) .d .z true 2 2 (.h ⟨1, 2, 3, 4⟩) 0 3 20 1 60 2 (memOf 0 200 (fun a => a)) = .ok ((), m') :=
  let ⟨m', h, _⟩ := C63_ger_partial .d .z true _ 2 2 (.h ⟨1, 2, 3, 4⟩) 0 3 20 1 60 2 _ _ _ gerMArgs_example
    (Scal.plain_h _ (Or.inr (Or.inl (by decide)))) (fun _ _ _ e => by cases e)
  ⟨m', h⟩

example : ∃ m' a', gerGenK (F := Int) .d .z false 2 2 (.z ⟨1, 2⟩) 0 3 20 1 60 2 (memOf 0 200 (fun a => a)) = .ok ((), m') ∧
    MatAt m' 60 2 2 2 a' :=
  let ⟨m', a', h, h2, _⟩ := C63_geru_complex_keeps .d .z _ 2 2 (.z ⟨1, 2⟩) 0 3 20 1 60 2 _ _ _ gerMArgs_example
    (fun _ e => by cases e) (fun _ _ e => by cases e) (fun _ _ e => by cases e)
  ⟨m', a', h, h2⟩

/-- A real x of length 3 and a quaternion y. -/
theorem axpyvK_example : KVecAt (memOf 0 200 (fun a => a)) .d 0 2 3 (fun i => .d (0 + 1 * ((i:Int) * 2))) ∧
    VecAt (memOf 0 200 (fun a => a)) 20 1 3 (fun i => let p : Int := 20 + 4 * ((i:Int) * 1); ⟨p, p+1, p+2, p+3⟩) ∧
    Apart (KVecCell .d 0 2 3) (VecCell 20 1 3) := by
  refine ⟨?_, ?_, ?_⟩
  · intro i hi; exact rdK_d (a := 0 + 1 * ((i:Int) * 2)) (by omega)
  · intro i hi; exact readQ_memOf (by omega) (by omega)
  · rintro c ⟨i, hi, h⟩ ⟨i', hi', h'⟩
    simp only [Kind.width] at h
    unfold InQ at *; omega

example : ∃ m', axpyvGenK (F := Int) .d 'R' 3 (.h ⟨1, 2, 3, 4⟩) 0 2 20 1 (memOf 0 200 (fun a => a)) = .ok ((), m') :=
  let ⟨m', h, _⟩ := C63_axpyv_partial _ .d 'R' 3 0 2 20 1 (.h ⟨1, 2, 3, 4⟩) _ _ (by omega) (by omega) (by unfold Fits32; omega)
    (by unfold Fits32; omega) axpyvK_example.1 axpyvK_example.2.1 axpyvK_example.2.2
    (Scal.plain_h _ (Or.inr (Or.inl (by decide))))
  ⟨m', h⟩

example : ∃ m' y', axpyvGenK (F := Int) .d 'L' 3 (.d 4) 0 2 20 1 (memOf 0 200 (fun a => a)) = .ok ((), m') ∧ VecAt m' 20 1 3 y' :=
  let ⟨m', y', h, h2, _⟩ := C63_axpyv_real_keeps _ 'L' 3 0 2 20 1 4 _ _ (by omega) (by omega) (by unfold Fits32; omega)
    (by unfold Fits32; omega) axpyvK_example.1 axpyvK_example.2.1 axpyvK_example.2.2
  ⟨m', y', h, h2⟩

end

end Haxx
