import Verif.FGemvActLemmas
import Verif.FGemvPfdd
import Verif.FGemvPfdz
import Verif.FGemvPfdh
import Verif.FGemvPfzd
import Verif.FGemvPfzz
import Verif.FGemvPfzh
import Verif.FGemvPfhd
import Verif.FGemvPfhz
import Verif.FGemvPfhh
import Verif.PropsGer

/-!
# Property theorems: quaternion matrix–vector product (C30)
-/

set_option linter.unusedSectionVars false

namespace Haxx
open Arith Quaternion Finset

/-- `HBLAS_GEMV` with quaternion A and x, by the types of ALPHA and BETA —
`src/hblas/hblas2.cxx.in:27-36,53-72`. -/
def gemvF {F : Type} [Arith F] [ArithEq F] (TRANS : Char) (M N : Int) (ALPHA : Scal F) (A LDA X INCX : Int)
    (BETA : Scal F) (Y INCY : Int) : Prog F Unit :=
  match ALPHA, BETA with
  | .d a, .d b => hgemvdd TRANS M N a A LDA X INCX b Y INCY
  | .d a, .z b => hgemvdz TRANS M N a A LDA X INCX b Y INCY
  | .d a, .h b => hgemvdh TRANS M N a A LDA X INCX b Y INCY
  | .z a, .d b => hgemvzd TRANS M N a A LDA X INCX b Y INCY
  | .z a, .z b => hgemvzz TRANS M N a A LDA X INCX b Y INCY
  | .z a, .h b => hgemvzh TRANS M N a A LDA X INCX b Y INCY
  | .h a, .d b => hgemvhd TRANS M N a A LDA X INCX b Y INCY
  | .h a, .z b => hgemvhz TRANS M N a A LDA X INCX b Y INCY
  | .h a, .h b => hgemvhh TRANS M N a A LDA X INCX b Y INCY

/-- The flag asks for the conjugate transpose. -/
def IsC (t : Char) : Prop := t = 'C' ∨ t = 'c'

/-- The scalar is passed as a real number. -/
def Scal.IsReal {F : Type} (s : Scal F) : Prop := ∃ r, s = .d r
/-- The scalar is passed as a quaternion. -/
def Scal.IsQuat {F : Type} (s : Scal F) : Prop := ∃ q, s = .h q

/-- Number of elements of x and of y in `y := alpha*op(A)*x + beta*y`, for an `M × N` matrix A. -/
def gemvLenX (t : Char) (M N : Int) : Int := if IsN t then N else M
@[inherit_doc gemvLenX]
def gemvLenY (t : Char) (M N : Int) : Int := if IsN t then M else N

/-- Address of the first element (in traversal order) of a vector of `n` elements: the far end when
the increment is negative. -/
def vecStart (P n INC : Int) : Int := if INC < 0 then P - 4 * ((n - 1) * INC) else P

section
variable {R : Type} [CommRing R] [DecidableEq R]

/-- The arguments of a matrix–vector product: y is accessible and its elements are distinct; and,
unless ALPHA is zero, A and x are accessible and y shares no storage with them. -/
structure GemvArgs (m : Mem R) (t : Char) (M N : Int) (ALPHA : Scal R) (A LDA X INCX Y INCY : Int)
    (a : Nat → Nat → Quat R) (x y : Nat → Quat R) : Prop where
  hinc : INCY ≠ 0
  hY : VecAt m (vecStart Y (gemvLenY t M N) INCY) INCY (gemvLenY t M N).toNat y
  hA : ALPHA.toH ≠ 0 → MatAt m A LDA M.toNat N.toNat a
  hX : ALPHA.toH ≠ 0 → VecAt m (vecStart X (gemvLenX t M N) INCX) INCX (gemvLenX t M N).toNat x
  hAY : ALPHA.toH ≠ 0 → Apart (MatCell A LDA M.toNat N.toNat)
    (VecCell (vecStart Y (gemvLenY t M N) INCY) INCY (gemvLenY t M N).toNat)
  hXY : ALPHA.toH ≠ 0 → Apart (VecCell (vecStart X (gemvLenX t M N) INCX) INCX (gemvLenX t M N).toNat)
    (VecCell (vecStart Y (gemvLenY t M N) INCY) INCY (gemvLenY t M N).toNat)

/-- The calls for which the library's GEMV is right.  Outside of them it is not: see
`C30_lengths_violated`, `C30_strided_beta_violated`, `C30_strided_alpha_violated`. -/
structure GemvGood (t : Char) (M N : Int) (ALPHA BETA : Scal R) (INCX INCY : Int) : Prop where
  lens : (ALPHA.IsReal ∧ BETA.IsReal) ∨ M = N ∨ IsC t ∨ (0 < INCX ∧ 0 < INCY ∧ BETA.toH = 1)
  strideBeta : ALPHA.IsReal → BETA.IsQuat → INCY = 1 ∨ BETA.toH = 0 ∨ BETA.toH = 1
  strideAlpha : ALPHA.IsQuat → IsN t → INCY = 1

/-- `GEMV` on `(m, arguments)` does what it should: `y_i := ALPHA * Σ_k op(A)(i,k) * x_k + BETA * y_i`,
nothing else changes. -/
def IsGemv (GEMV : Prog R Unit) (m : Mem R) (t : Char) (M N : Int) (ALPHA BETA : Scal R)
    (Y INCY : Int) (op : Nat → Nat → ℍ[R]) (x y : Nat → Quat R) : Prop :=
  ∃ m', GEMV m = .ok ((), m') ∧
    VecAt m' (vecStart Y (gemvLenY t M N) INCY) INCY (gemvLenY t M N).toNat
      (fun i => Quat.ofH (ALPHA.toH * (∑ k ∈ range (gemvLenX t M N).toNat, op i k * (x k).toH) +
        BETA.toH * (y i).toH)) ∧
    SameOutside (VecCell (vecStart Y (gemvLenY t M N) INCY) INCY (gemvLenY t M N).toNat) m m'

theorem vecStart_eq (P n INC : Int) : fbase P n INC = vecStart P n INC := fbase_eq P n INC

theorem GemvArgs.env {m : Mem R} {t : Char} {M N : Int} {ALPHA : Scal R} {A LDA X INCX Y INCY : Int}
    {a : Nat → Nat → Quat R} {x y : Nat → Quat R}
    (h : GemvArgs m t M N ALPHA A LDA X INCX Y INCY a x y) (h0 : ALPHA.toH ≠ 0) :
    GvEnv (fun m' => ∀ c, ¬ VecCell (vecStart Y (gemvLenY t M N) INCY) INCY (gemvLenY t M N).toNat c → m' c = m c)
      A LDA M.toNat N.toNat a (vecStart X (gemvLenX t M N) INCX) INCX (gemvLenX t M N).toNat x
      (fun i => vecStart Y (gemvLenY t M N) INCY + 4 * ((i:Int) * INCY)) (gemvLenY t M N).toNat where
  rdA := by
    intro m' hm i j hi hj
    rw [readQ_congr (m' := m)]
    · exact h.hA h0 i j hi hj
    · intro c hc; exact hm c (h.hAY h0 c ⟨i, j, hi, hj, hc⟩)
  rdX := by
    intro m' hm i hi
    rw [readQ_congr (m' := m)]
    · exact h.hX h0 i hi
    · intro c hc; exact hm c (h.hXY h0 c ⟨i, hi, hc⟩)
  stable := by
    intro m' i q hi hm c hc
    rw [writeQ_other (fun hin => hc ⟨i, hi, hin⟩)]
    exact hm c hc
  disj := by
    intro i j _ _ hne
    exact strided_disj h.hinc hne

/-- C30 (partial: `GemvGood` excludes the calls on which the code is wrong). -/
theorem C30_gemv_partial (m : Mem R) (t : Char) (M N : Int) (ALPHA : Scal R) (A LDA X INCX : Int)
    (BETA : Scal R) (Y INCY : Int) (a : Nat → Nat → Quat R) (x y : Nat → Quat R) (op : Nat → Nat → ℍ[R])
    (hM : M ≠ 0) (hN : N ≠ 0) (h : GemvArgs m t M N ALPHA A LDA X INCX Y INCY a x y)
    (hop : OpIs t a op) (hg : GemvGood t M N ALPHA BETA INCX INCY) :
    IsGemv (gemvF t M N ALPHA A LDA X INCX BETA Y INCY) m t M N ALPHA BETA Y INCY op x y := by
  have hn : lsame t 'N' = true ↔ IsN t := by
    rcases hop with ⟨rfl | rfl, _⟩ | ⟨rfl | rfl, _⟩ | ⟨rfl | rfl, _⟩ <;> decide
  have hop' : ∀ i k, (if lsame t 'N' = true then (a i k).toH else if lsame 'T' t = true then (a k i).toH
      else star (a k i).toH) = op i k := by
    intro i k
    rcases hop with ⟨rfl | rfl, e⟩ | ⟨rfl | rfl, e⟩ | ⟨rfl | rfl, e⟩ <;> rw [e] <;> rfl
  have eLX : (if lsame t 'N' = true then N else M) = gemvLenX t M N := by
    unfold gemvLenX; simp only [hn]
  have eLY : (if lsame t 'N' = true then M else N) = gemvLenY t M N := by
    unfold gemvLenY; simp only [hn]
  have hlens : ¬ (ALPHA.IsReal ∧ BETA.IsReal) →
      (0 < INCX ∨ (if lsame 'T' t = true then N else M) = (if lsame t 'N' = true then N else M)) ∧
      ((0 < INCY ∧ BETA.toH = 1) ∨ (if lsame 'T' t = true then M else N) = (if lsame t 'N' = true then M else N)) := by
    intro hr
    rcases hg.lens with e | e | e | ⟨e1, e2, e3⟩
    · exact absurd e hr
    · subst e; simp
    · rcases e with rfl | rfl <;> exact ⟨.inr rfl, .inr rfl⟩
    · exact ⟨.inl e1, .inl ⟨e2, e3⟩⟩
  have env := fun h0 => h.env h0
  have hst : ∀ m1 (i : Nat) q, i < (gemvLenY t M N).toNat →
      (∀ c, ¬ VecCell (vecStart Y (gemvLenY t M N) INCY) INCY (gemvLenY t M N).toNat c → m1 c = m c) →
      (∀ c, ¬ VecCell (vecStart Y (gemvLenY t M N) INCY) INCY (gemvLenY t M N).toNat c →
        writeQ m1 (vecStart Y (gemvLenY t M N) INCY + 4 * ((i:Int) * INCY)) q c = m c) := by
    intro m' i q hi hm c hc
    rw [writeQ_other (fun hin => hc ⟨i, hi, hin⟩)]
    exact hm c hc
  have hdj : ∀ i j : Nat, i < (gemvLenY t M N).toNat → j < (gemvLenY t M N).toNat → i ≠ j →
      QDisj (vecStart Y (gemvLenY t M N) INCY + 4 * ((i:Int) * INCY)) (vecStart Y (gemvLenY t M N) INCY + 4 * ((j:Int) * INCY)) :=
    fun i j _ _ hne => strided_disj h.hinc hne
  have hY := h.hY
  have key : wp (gemvF t M N ALPHA A LDA X INCX BETA Y INCY) m (fun _ m' =>
      Upd (fun m' => ∀ c, ¬ VecCell (vecStart Y (gemvLenY t M N) INCY) INCY (gemvLenY t M N).toNat c → m' c = m c)
        (fun i => vecStart Y (gemvLenY t M N) INCY + 4 * ((i:Int) * INCY)) (gemvLenY t M N).toNat m
        (fun i => Quat.ofH (ALPHA.toH * (∑ k ∈ range (gemvLenX t M N).toNat, op i k * (x k).toH) +
        BETA.toH * (y i).toH)) m') := by
    simp only [← vecStart_eq, ← eLX, ← eLY, ← hop'] at env hst hdj hY ⊢
    rcases ALPHA with a' | a' | a' <;> rcases BETA with b' | b' | b'
    · exact hgemvdd_wp  (hM := hM) (hN := hN) (hst := hst) (hdisj := hdj) (env := env) (hk := fun _ _ => rfl) (hY := hY)
    · exact hgemvdz_wp (hlx := (hlens (by rintro ⟨⟨_, e1⟩, ⟨_, e2⟩⟩; cases e2)).1) (hly := (hlens (by rintro ⟨⟨_, e1⟩, ⟨_, e2⟩⟩; cases e2)).2) (hM := hM) (hN := hN) (hst := hst) (hdisj := hdj) (env := env) (hk := fun _ _ => rfl) (hY := hY)
    · exact hgemvdh_wp (hs1 := hg.strideBeta ⟨_, rfl⟩ ⟨_, rfl⟩) (hlx := (hlens (by rintro ⟨⟨_, e1⟩, ⟨_, e2⟩⟩; cases e2)).1) (hly := (hlens (by rintro ⟨⟨_, e1⟩, ⟨_, e2⟩⟩; cases e2)).2) (hM := hM) (hN := hN) (hst := hst) (hdisj := hdj) (env := env) (hk := fun _ _ => rfl) (hY := hY)
    · exact hgemvzd_wp (hlx := (hlens (by rintro ⟨⟨_, e1⟩, ⟨_, e2⟩⟩; cases e1)).1) (hly := (hlens (by rintro ⟨⟨_, e1⟩, ⟨_, e2⟩⟩; cases e1)).2) (hM := hM) (hN := hN) (hst := hst) (hdisj := hdj) (env := env) (hk := fun _ _ => rfl) (hY := hY)
    · exact hgemvzz_wp (hlx := (hlens (by rintro ⟨⟨_, e1⟩, ⟨_, e2⟩⟩; cases e1)).1) (hly := (hlens (by rintro ⟨⟨_, e1⟩, ⟨_, e2⟩⟩; cases e1)).2) (hM := hM) (hN := hN) (hst := hst) (hdisj := hdj) (env := env) (hk := fun _ _ => rfl) (hY := hY)
    · exact hgemvzh_wp (hlx := (hlens (by rintro ⟨⟨_, e1⟩, ⟨_, e2⟩⟩; cases e1)).1) (hly := (hlens (by rintro ⟨⟨_, e1⟩, ⟨_, e2⟩⟩; cases e1)).2) (hM := hM) (hN := hN) (hst := hst) (hdisj := hdj) (env := env) (hk := fun _ _ => rfl) (hY := hY)
    · exact hgemvhd_wp (hs2 := fun e => hg.strideAlpha ⟨_, rfl⟩ (hn.1 e)) (hlx := (hlens (by rintro ⟨⟨_, e1⟩, ⟨_, e2⟩⟩; cases e1)).1) (hly := (hlens (by rintro ⟨⟨_, e1⟩, ⟨_, e2⟩⟩; cases e1)).2) (hM := hM) (hN := hN) (hst := hst) (hdisj := hdj) (env := env) (hk := fun _ _ => rfl) (hY := hY)
    · exact hgemvhz_wp (hs2 := fun e => hg.strideAlpha ⟨_, rfl⟩ (hn.1 e)) (hlx := (hlens (by rintro ⟨⟨_, e1⟩, ⟨_, e2⟩⟩; cases e1)).1) (hly := (hlens (by rintro ⟨⟨_, e1⟩, ⟨_, e2⟩⟩; cases e1)).2) (hM := hM) (hN := hN) (hst := hst) (hdisj := hdj) (env := env) (hk := fun _ _ => rfl) (hY := hY)
    · exact hgemvhh_wp (hs2 := fun e => hg.strideAlpha ⟨_, rfl⟩ (hn.1 e)) (hlx := (hlens (by rintro ⟨⟨_, e1⟩, ⟨_, e2⟩⟩; cases e1)).1) (hly := (hlens (by rintro ⟨⟨_, e1⟩, ⟨_, e2⟩⟩; cases e1)).2) (hM := hM) (hN := hN) (hst := hst) (hdisj := hdj) (env := env) (hk := fun _ _ => rfl) (hY := hY)
  obtain ⟨_, m', h1, h2, h3, _⟩ := key
  exact ⟨m', h1, h2, h3⟩

/-! ### Where GEMV is wrong -/

theorem hgemvhd_one {m : Mem R} {ALPHA : Quat R} {BETA : R} {A LDA X INCX Y INCY : Int} {a x y : Quat R}
    (h0 : ALPHA.toH ≠ 0) (h1 : (Scal.d BETA).toH = 1) (hi : INCY ≠ 1) (ha : readQ m A = some a) (hx : readQ m X = some x)
    (hy : readQ m Y = some y) (hd : QDisj Y A) :
    wp (hgemvhd 'N' 1 1 ALPHA A LDA X INCX BETA Y INCY) m (fun _ m' =>
      m' = writeQ m Y (Quat.ofH (ALPHA.toH * (a.toH * x.toH) + y.toH + gemvErr ALPHA a x))) := by
  have hb := scal1_d' BETA h1
  have hz : (Cplx.feq (Quat.lo ALPHA) (⟨zero, zero⟩ : Cplx R) && Cplx.feq (Quat.hi ALPHA) (⟨zero, zero⟩ : Cplx R)) = false := by
    by_contra e
    exact h0 (scal0_h ALPHA (by simpa using e))
  have t1 : lsame 'T' 'N' = false := rfl
  have t2 : lsame 'N' 'N' = true := rfl
  have ek : ∀ I : Int, (if I > 0 then (1:Int) else 1 - (1 - 1) * I) = 1 := by intro I; split <;> ring
  have eA0 : el3 2 2 LDA A 1 1 1 = A := by unfold el3; ring
  have eA1 : el3 2 2 LDA A 2 1 1 = A + 2 := by unfold el3; ring
  have eX : ∀ P : Int, P + 4 * ((1:Int) - 1) = P := by intro P; ring
  unfold hgemvhd
  simp only [wp_bind, wp_lens, t1, hz, Bool.false_and, decide_false, one_ne_zero, Bool.false_eq_true, if_false, Bool.or_self, wp_fstart]
  simp only [wp_pure, ek]
  unfold hgemvhd_if58
  simp only [hb, Bool.not_true, Bool.false_eq_true, if_false, wp_pure]
  unfold hgemvhd_if91
  simp only [t2, if_true]
  unfold hgemvhd_if93
  simp only [hi, decide_false, Bool.false_eq_true, if_false, wp_bind, Int.toNat_one, foldN, wp_pure]
  unfold hgemvhd_80_J
  simp only [el2c_1, el2c_2, eX, wp_bind, wp_pure, wp_rdC_lo hx, wp_rdC_hi hx, Int.toNat_one, foldN, Nat.cast_zero, zero_add]
  unfold hgemvhd_70_I
  have ha2 : ∀ q, readQ (writeQ m Y q) A = some a := by
    intro q; rw [readQ_writeQ_disj (Or.symm hd)]; exact ha
  simp only [el2c_1, el2c_2, eX, eA0, eA1, wp_bind, wp_pure, wp_rdC_lo hy, wp_rdC_hi hy, wp_rdC_lo ha, wp_rdC_hi ha,
    wp_wrC_lo hy, wp_rdC_hi (readQ_writeQ_same _ _ _), wp_rdC_lo (ha2 _), wp_rdC_hi (ha2 _), wp_wrC_hi (readQ_writeQ_same _ _ _), writeQ_writeQ]
  refine congrArg (writeQ m _) (eq_ofH ?_)
  ext <;> simp [gemvErr_re, gemvErr_imI, gemvErr_imJ, gemvErr_imK, Quat.lo, Quat.hi] <;> ring

theorem hgemvhz_one {m : Mem R} {ALPHA : Quat R} {BETA : Cplx R} {A LDA X INCX Y INCY : Int} {a x y : Quat R}
    (h0 : ALPHA.toH ≠ 0) (h1 : (Scal.z BETA).toH = 1) (hi : INCY ≠ 1) (ha : readQ m A = some a) (hx : readQ m X = some x)
    (hy : readQ m Y = some y) (hd : QDisj Y A) :
    wp (hgemvhz 'N' 1 1 ALPHA A LDA X INCX BETA Y INCY) m (fun _ m' =>
      m' = writeQ m Y (Quat.ofH (ALPHA.toH * (a.toH * x.toH) + y.toH + gemvErr ALPHA a x))) := by
  have hb := scal1_z' BETA h1
  have hz : (Cplx.feq (Quat.lo ALPHA) (⟨zero, zero⟩ : Cplx R) && Cplx.feq (Quat.hi ALPHA) (⟨zero, zero⟩ : Cplx R)) = false := by
    by_contra e
    exact h0 (scal0_h ALPHA (by simpa using e))
  have t1 : lsame 'T' 'N' = false := rfl
  have t2 : lsame 'N' 'N' = true := rfl
  have ek : ∀ I : Int, (if I > 0 then (1:Int) else 1 - (1 - 1) * I) = 1 := by intro I; split <;> ring
  have eA0 : el3 2 2 LDA A 1 1 1 = A := by unfold el3; ring
  have eA1 : el3 2 2 LDA A 2 1 1 = A + 2 := by unfold el3; ring
  have eX : ∀ P : Int, P + 4 * ((1:Int) - 1) = P := by intro P; ring
  unfold hgemvhz
  simp only [wp_bind, wp_lens, t1, hz, Bool.false_and, decide_false, one_ne_zero, Bool.false_eq_true, if_false, Bool.or_self, wp_fstart]
  simp only [wp_pure, ek]
  unfold hgemvhz_if57
  simp only [hb, Bool.not_true, Bool.false_eq_true, if_false, wp_pure]
  unfold hgemvhz_if90
  simp only [t2, if_true]
  unfold hgemvhz_if92
  simp only [hi, decide_false, Bool.false_eq_true, if_false, wp_bind, Int.toNat_one, foldN, wp_pure]
  unfold hgemvhz_80_J
  simp only [el2c_1, el2c_2, eX, wp_bind, wp_pure, wp_rdC_lo hx, wp_rdC_hi hx, Int.toNat_one, foldN, Nat.cast_zero, zero_add]
  unfold hgemvhz_70_I
  have ha2 : ∀ q, readQ (writeQ m Y q) A = some a := by
    intro q; rw [readQ_writeQ_disj (Or.symm hd)]; exact ha
  simp only [el2c_1, el2c_2, eX, eA0, eA1, wp_bind, wp_pure, wp_rdC_lo hy, wp_rdC_hi hy, wp_rdC_lo ha, wp_rdC_hi ha,
    wp_wrC_lo hy, wp_rdC_hi (readQ_writeQ_same _ _ _), wp_rdC_lo (ha2 _), wp_rdC_hi (ha2 _), wp_wrC_hi (readQ_writeQ_same _ _ _), writeQ_writeQ]
  refine congrArg (writeQ m _) (eq_ofH ?_)
  ext <;> simp [gemvErr_re, gemvErr_imI, gemvErr_imJ, gemvErr_imK, Quat.lo, Quat.hi] <;> ring

theorem hgemvhh_one {m : Mem R} {ALPHA : Quat R} {BETA : Quat R} {A LDA X INCX Y INCY : Int} {a x y : Quat R}
    (h0 : ALPHA.toH ≠ 0) (h1 : (Scal.h BETA).toH = 1) (hi : INCY ≠ 1) (ha : readQ m A = some a) (hx : readQ m X = some x)
    (hy : readQ m Y = some y) (hd : QDisj Y A) :
    wp (hgemvhh 'N' 1 1 ALPHA A LDA X INCX BETA Y INCY) m (fun _ m' =>
      m' = writeQ m Y (Quat.ofH (ALPHA.toH * (a.toH * x.toH) + y.toH + gemvErr ALPHA a x))) := by
  have hb := scal1_h' BETA h1
  have hz : (Cplx.feq (Quat.lo ALPHA) (⟨zero, zero⟩ : Cplx R) && Cplx.feq (Quat.hi ALPHA) (⟨zero, zero⟩ : Cplx R)) = false := by
    by_contra e
    exact h0 (scal0_h ALPHA (by simpa using e))
  have t1 : lsame 'T' 'N' = false := rfl
  have t2 : lsame 'N' 'N' = true := rfl
  have ek : ∀ I : Int, (if I > 0 then (1:Int) else 1 - (1 - 1) * I) = 1 := by intro I; split <;> ring
  have eA0 : el3 2 2 LDA A 1 1 1 = A := by unfold el3; ring
  have eA1 : el3 2 2 LDA A 2 1 1 = A + 2 := by unfold el3; ring
  have eX : ∀ P : Int, P + 4 * ((1:Int) - 1) = P := by intro P; ring
  unfold hgemvhh
  simp only [wp_bind, wp_lens, t1, hz, Bool.false_and, decide_false, one_ne_zero, Bool.false_eq_true, if_false, Bool.or_self, wp_fstart]
  simp only [wp_pure, ek]
  unfold hgemvhh_if57
  simp only [hb, Bool.not_true, Bool.false_eq_true, if_false, wp_pure]
  unfold hgemvhh_if92
  simp only [t2, if_true]
  unfold hgemvhh_if94
  simp only [hi, decide_false, Bool.false_eq_true, if_false, wp_bind, Int.toNat_one, foldN, wp_pure]
  unfold hgemvhh_80_J
  simp only [el2c_1, el2c_2, eX, wp_bind, wp_pure, wp_rdC_lo hx, wp_rdC_hi hx, Int.toNat_one, foldN, Nat.cast_zero, zero_add]
  unfold hgemvhh_70_I
  have ha2 : ∀ q, readQ (writeQ m Y q) A = some a := by
    intro q; rw [readQ_writeQ_disj (Or.symm hd)]; exact ha
  simp only [el2c_1, el2c_2, eX, eA0, eA1, wp_bind, wp_pure, wp_rdC_lo hy, wp_rdC_hi hy, wp_rdC_lo ha, wp_rdC_hi ha,
    wp_wrC_lo hy, wp_rdC_hi (readQ_writeQ_same _ _ _), wp_rdC_lo (ha2 _), wp_rdC_hi (ha2 _), wp_wrC_hi (readQ_writeQ_same _ _ _), writeQ_writeQ]
  refine congrArg (writeQ m _) (eq_ofH ?_)
  ext <;> simp [gemvErr_re, gemvErr_imI, gemvErr_imJ, gemvErr_imK, Quat.lo, Quat.hi] <;> ring

/-- C30, violated: TRANS = 'N', quaternion ALPHA, `INCY ≠ 1`.  Already for 1 × 1 operands and BETA
equal to one (of any type), the result is wrong for all values with `gemvErr ALPHA a x ≠ 0`. -/
theorem C30_strided_alpha_violated (m : Mem R) (ALPHA : Quat R) (BETA : Scal R) (A LDA X INCX Y INCY : Int)
    (a : Nat → Nat → Quat R) (x y : Nat → Quat R) (h : GemvArgs m 'N' 1 1 (.h ALPHA) A LDA X INCX Y INCY a x y)
    (hi : INCY ≠ 1) (h1 : BETA.toH = 1) (he : gemvErr ALPHA (a 0 0) (x 0) ≠ 0) :
    ¬ IsGemv (gemvF 'N' 1 1 (.h ALPHA) A LDA X INCX BETA Y INCY) m 'N' 1 1 (.h ALPHA) BETA Y INCY
      (fun i k => (a i k).toH) x y := by
  have h0 : (Scal.h ALPHA).toH ≠ 0 := by
    intro e
    apply he
    have e0 := congrArg QuaternionAlgebra.re e
    have e1 := congrArg QuaternionAlgebra.imI e
    simp [Scal.toH] at e0 e1
    ext <;> simp [gemvErr_re, gemvErr_imI, gemvErr_imJ, gemvErr_imK, Quat.lo, e0, e1]
  have hv : ∀ P I : Int, vecStart P 1 I = P := by intro P I; unfold vecStart; split <;> ring
  have lY : gemvLenY 'N' 1 1 = 1 := by decide
  have lX : gemvLenX 'N' 1 1 = 1 := by decide
  have ha : readQ m A = some (a 0 0) := by simpa using h.hA h0 0 0 (by decide) (by decide)
  have hx : readQ m X = some (x 0) := by simpa [hv, lX] using h.hX h0 0 (by decide)
  have hy : readQ m Y = some (y 0) := by simpa [hv, lY] using h.hY 0 (by decide)
  have hd : QDisj Y A := by
    have hap := h.hAY h0
    rw [lY, hv] at hap
    unfold QDisj
    by_contra hc
    rw [not_or, not_le, not_le] at hc
    rcases le_or_gt A Y with hle | hle
    · refine hap Y ⟨0, 0, by decide, by decide, ?_⟩ ⟨0, by decide, ?_⟩ <;> unfold InQ <;> push_cast <;> omega
    · refine hap A ⟨0, 0, by decide, by decide, ?_⟩ ⟨0, by decide, ?_⟩ <;> unfold InQ <;> push_cast <;> omega
  have key : wp (gemvF 'N' 1 1 (.h ALPHA) A LDA X INCX BETA Y INCY) m (fun _ m' =>
      m' = writeQ m Y (Quat.ofH (ALPHA.toH * ((a 0 0).toH * (x 0).toH) + (y 0).toH + gemvErr ALPHA (a 0 0) (x 0)))) := by
    rcases BETA with b | b | b
    · exact hgemvhd_one h0 h1 hi ha hx hy hd
    · exact hgemvhz_one h0 h1 hi ha hx hy hd
    · exact hgemvhh_one h0 h1 hi ha hx hy hd
  rintro ⟨m', hrun, hres, _⟩
  obtain ⟨_, m'', hrun', rfl⟩ := key
  rw [hrun] at hrun'
  cases hrun'
  have := hres 0 (by decide)
  rw [lY, hv] at this
  simp only [Nat.cast_zero, zero_mul, mul_zero, add_zero, readQ_writeQ_same, Option.some.injEq] at this
  have t2 := congrArg Quat.toH this
  rw [toH_ofH, toH_ofH, lX, Int.toNat_one, sum_range_one, h1, one_mul] at t2
  apply he
  simpa [Scal.toH] using t2

/-! #### Lengths -/

/-- C30, violated: unless ALPHA and BETA are both real, for TRANS = N and TRANS = T the code takes
`len(x)` for `len(y)`.  With ALPHA = 0 and unit increment this shows at once: what GEMV scales is the
first `len(x)` elements from Y on, whatever `len(y)` is. -/
theorem C30_lengths_violated (m : Mem R) (t : Char) (M N : Int) (ALPHA BETA : Scal R) (A LDA X INCX Y : Int)
    (c : Nat → Quat R) (hM : M ≠ 0) (hN : N ≠ 0) (ht : t = 'N' ∨ t = 'n' ∨ t = 'T' ∨ t = 't')
    (hr : ¬ (ALPHA.IsReal ∧ BETA.IsReal)) (h0 : ALPHA.toH = 0) (h1 : BETA.toH ≠ 1)
    (hY : VecAt m Y 1 (gemvLenX t M N).toNat c) :
    ∃ m', gemvF t M N ALPHA A LDA X INCX BETA Y 1 m = .ok ((), m') ∧
      VecAt m' Y 1 (gemvLenX t M N).toNat (fun i => Quat.ofH (BETA.toH * (c i).toH)) ∧
      SameOutside (VecCell Y 1 (gemvLenX t M N).toNat) m m' := by
  have e : (if lsame 'T' t = true then M else N) = gemvLenX t M N := by
    rcases ht with rfl | rfl | rfl | rfl <;> rfl
  have key : wp (gemvF t M N ALPHA A LDA X INCX BETA Y 1) m (fun _ m' =>
      VecAt m' Y 1 (gemvLenX t M N).toNat (fun i => Quat.ofH (BETA.toH * (c i).toH)) ∧
      SameOutside (VecCell Y 1 (gemvLenX t M N).toNat) m m') := by
    rw [← e] at hY ⊢
    rcases ALPHA with a' | a' | a' <;> rcases BETA with b' | b' | b'
    · exact absurd ⟨⟨_, rfl⟩, ⟨_, rfl⟩⟩ hr
    · exact hgemvdz_alpha0 hM hN h0 h1 hY
    · exact hgemvdh_alpha0 hM hN h0 h1 hY
    · exact hgemvzd_alpha0 hM hN h0 h1 hY
    · exact hgemvzz_alpha0 hM hN h0 h1 hY
    · exact hgemvzh_alpha0 hM hN h0 h1 hY
    · exact hgemvhd_alpha0 hM hN h0 h1 hY
    · exact hgemvhz_alpha0 hM hN h0 h1 hY
    · exact hgemvhh_alpha0 hM hN h0 h1 hY
  obtain ⟨_, m', h1, h2, h3⟩ := key
  exact ⟨m', h1, h2, h3⟩

/-- C30, violated (the negation of the property): in the situation of `C30_lengths_violated` with
`len(x) < len(y)`, GEMV does not do what it should as soon as scaling would change one of the
remaining elements. -/
theorem C30_lengths_violated_neg (m : Mem R) (t : Char) (M N : Int) (ALPHA BETA : Scal R) (A LDA X INCX Y : Int)
    (a : Nat → Nat → Quat R) (x y : Nat → Quat R) (op : Nat → Nat → ℍ[R])
    (h : GemvArgs m t M N ALPHA A LDA X INCX Y 1 a x y) (hM : M ≠ 0) (hN : N ≠ 0)
    (ht : t = 'N' ∨ t = 'n' ∨ t = 'T' ∨ t = 't') (hr : ¬ (ALPHA.IsReal ∧ BETA.IsReal))
    (h0 : ALPHA.toH = 0) (h1 : BETA.toH ≠ 1) (i : Nat) (hi1 : (gemvLenX t M N).toNat ≤ i)
    (hi2 : i < (gemvLenY t M N).toNat) (hne : BETA.toH * (y i).toH ≠ (y i).toH) :
    ¬ IsGemv (gemvF t M N ALPHA A LDA X INCX BETA Y 1) m t M N ALPHA BETA Y 1 op x y := by
  have hv : ∀ n : Int, vecStart Y n 1 = Y := by intro n; rfl
  have hY := h.hY
  rw [hv] at hY
  obtain ⟨m', hrun, _, hout⟩ := C30_lengths_violated m t M N ALPHA BETA A LDA X INCX Y y hM hN ht hr h0 h1
    (fun k hk => hY k (by omega))
  rintro ⟨m'', hrun', hres, _⟩
  rw [hrun] at hrun'
  cases hrun'
  have e := hres i hi2
  rw [hv, readQ_congr (m' := m), hY i hi2] at e
  · apply hne
    have := congrArg Quat.toH (Option.some.inj e)
    rw [toH_ofH, h0, zero_mul, zero_add] at this
    exact this.symm
  · intro c hc
    apply hout
    rintro ⟨k, hk, hin⟩
    unfold InQ at hc hin
    omega

/-! #### Strided y, quaternion BETA, real ALPHA -/

theorem hgemvdh_40_wp {m : Mem R} {BETA c : Quat R} {IY Y I : Int} (h : readQ m (Y + 4 * (IY - 1)) = some c) :
    wp (hgemvdh_40_I BETA IY Y I) m (fun _ m' => m' = writeQ m (Y + 4 * (IY - 1)) (Quat.ofH (BETA.toH * c.toH))) := by
  unfold hgemvdh_40_I
  simp only [el2c_1, el2c_2, wp_bind, wp_pure, wp_rdC_lo h, wp_rdC_hi h, wp_wrC_hi h, wp_wrC_lo (readQ_writeQ_same _ _ _), writeQ_writeQ]
  refine congrArg (writeQ m _) (eq_ofH ?_)
  ext <;> simp [Quat.lo, Quat.hi] <;> ring

/-- C30, violated: real ALPHA, quaternion BETA other than 0 and 1, `INCY ≠ 1`.  The loop that should
scale y never advances.  With ALPHA = 0 and an `n × n` matrix, for every flag, the first element of y
is multiplied by BETA `n` times over and no other element changes. -/
theorem C30_strided_beta_violated (m : Mem R) (t : Char) (n : Nat) (r : R) (BETA : Quat R) (A LDA X INCX Y INCY : Int)
    (y : Nat → Quat R) (hn : 0 < n) (hY : VecAt m (vecStart Y n INCY) INCY n y) (hi : INCY ≠ 1)
    (h0 : r = 0) (hb0 : BETA.toH ≠ 0) (hb1 : BETA.toH ≠ 1) :
    ∃ m', gemvF t n n (.d r) A LDA X INCX (.h BETA) Y INCY m = .ok ((), m') ∧
      readQ m' (vecStart Y n INCY) = some (Quat.ofH (BETA.toH ^ n * (y 0).toH)) ∧
      SameOutside (InQ (vecStart Y n INCY)) m m' := by
  have key : wp (gemvF t n n (.d r) A LDA X INCX (.h BETA) Y INCY) m (fun _ m' =>
      readQ m' (vecStart Y n INCY) = some (Quat.ofH (BETA.toH ^ n * (y 0).toH)) ∧
      SameOutside (InQ (vecStart Y n INCY)) m m') := by
    have ha' : (Cplx.feq (Cplx.ofReal r) (⟨zero, zero⟩ : Cplx R)) = true :=
      scal0_d' r (by rw [h0]; ext <;> simp [Scal.toH])
    have hz : (Cplx.feq (Quat.lo BETA) (⟨zero, zero⟩ : Cplx R) && Cplx.feq (Quat.hi BETA) (⟨zero, zero⟩ : Cplx R)) = false := by
      by_contra e
      exact hb0 (scal0_h BETA (by simpa using e))
    have ho : (Cplx.feq (Quat.lo BETA) (⟨one, zero⟩ : Cplx R) && Cplx.feq (Quat.hi BETA) (⟨zero, zero⟩ : Cplx R)) = false := by
      by_contra e
      exact hb1 (scal1_h BETA (by simpa using e))
    have hn0 : (n : Int) ≠ 0 := by omega
    have hle : (if lsame 'T' t = true then (n:Int) else n) = n := by split <;> rfl
    have h00 := hY 0 hn
    simp only [Nat.cast_zero, zero_mul, mul_zero, add_zero] at h00
    unfold gemvF hgemvdh
    dsimp only
    rw [wp_bind, wp_lens]
    dsimp only
    simp only [hle, hn0, ho, Bool.and_false, decide_false, Bool.or_self, Bool.false_eq_true, if_false]
    rw [wp_bind, wp_fstart, wp_bind, wp_fstart]
    rw [wp_bind]
    unfold hgemvdh_if57 hgemvdh_if58 hgemvdh_if73
    simp only [hz, ha', hi, decide_false, Bool.not_false, Bool.false_eq_true, if_false, if_true, wp_bind, wp_pure]
    generalize hKY : (if INCY > 0 then (1:Int) else 1 - ((n:Int) - 1) * INCY) = KY
    have eY : Y + 4 * (KY - 1) = vecStart Y n INCY := by
      have := fstart (X := Y) (N := (n:Int)) (INC := INCY) (i := 0)
      rw [hKY, vecStart_eq] at this
      simpa using this
    apply wp_forN (fun k m' => readQ m' (vecStart Y n INCY) = some (Quat.ofH (BETA.toH ^ k * (y 0).toH)) ∧
      SameOutside (InQ (vecStart Y n INCY)) m m')
    · refine ⟨?_, fun _ _ => rfl⟩
      rw [h00, pow_zero, one_mul]; rfl
    · intro k m1 _ ⟨hr, hs⟩
      rw [← eY] at hr
      refine wp_mono (hgemvdh_40_wp hr) ?_
      rintro _ m2 rfl
      rw [eY]
      refine ⟨?_, ?_⟩
      · rw [readQ_writeQ_same, toH_ofH, pow_succ', mul_assoc]
      · intro c hc
        rw [writeQ_other hc]
        exact hs c hc
    · intro m' hm'
      exact hm'
  obtain ⟨_, m', h1, h2, h3⟩ := key
  exact ⟨m', h1, h2, h3⟩

/-- With an empty matrix GEMV changes nothing (the convention of BLAS; `C30_gemv_partial` is about
`M ≠ 0` and `N ≠ 0`). -/
theorem C30_gemv_empty (m : Mem R) (t : Char) (M N : Int) (ALPHA : Scal R) (A LDA X INCX : Int)
    (BETA : Scal R) (Y INCY : Int) (h : M = 0 ∨ N = 0) :
    gemvF t M N ALPHA A LDA X INCX BETA Y INCY m = .ok ((), m) := by
  have hd : (decide (M = 0) || decide (N = 0)) = true := by simpa using h
  have key : wp (gemvF t M N ALPHA A LDA X INCX BETA Y INCY) m (fun _ m' => m' = m) := by
    rcases ALPHA with a' | a' | a' <;> rcases BETA with b' | b' | b'
    · unfold gemvF hgemvdd
      simp only [hd, Bool.true_or, if_true, wp_pure]
    · unfold gemvF hgemvdz
      dsimp only
      try rw [wp_bind, wp_lens]
      simp only [hd, Bool.true_or, if_true, wp_pure]
    · unfold gemvF hgemvdh
      dsimp only
      try rw [wp_bind, wp_lens]
      simp only [hd, Bool.true_or, if_true, wp_pure]
    · unfold gemvF hgemvzd
      dsimp only
      try rw [wp_bind, wp_lens]
      simp only [hd, Bool.true_or, if_true, wp_pure]
    · unfold gemvF hgemvzz
      dsimp only
      try rw [wp_bind, wp_lens]
      simp only [hd, Bool.true_or, if_true, wp_pure]
    · unfold gemvF hgemvzh
      dsimp only
      try rw [wp_bind, wp_lens]
      simp only [hd, Bool.true_or, if_true, wp_pure]
    · unfold gemvF hgemvhd
      dsimp only
      try rw [wp_bind, wp_lens]
      simp only [hd, Bool.true_or, if_true, wp_pure]
    · unfold gemvF hgemvhz
      dsimp only
      try rw [wp_bind, wp_lens]
      simp only [hd, Bool.true_or, if_true, wp_pure]
    · unfold gemvF hgemvhh
      dsimp only
      try rw [wp_bind, wp_lens]
      simp only [hd, Bool.true_or, if_true, wp_pure]
  obtain ⟨_, m', h1, rfl⟩ := key
  exact h1

end
/-! ### Non-vacuity -/

/-- 2 × 3 matrix at 0 (leading dimension 4), x (2 elements, increment 2) at 60, y (3 elements,
increment −1) at 90, TRANS = 'C'. -/
theorem gemvArgs_example (ALPHA : Scal Int) : GemvArgs (memOf 0 200 (fun a => a)) 'C' 2 3 ALPHA 0 4 60 2 90 (-1)
    (fun i j => let p : Int := 0 + 4 * ((i:Int) + j * 4); ⟨p, p+1, p+2, p+3⟩)
    (fun i => let p : Int := 60 + 4 * ((i:Int) * 2); ⟨p, p+1, p+2, p+3⟩)
    (fun i => let p : Int := 98 + 4 * ((i:Int) * (-1)); ⟨p, p+1, p+2, p+3⟩) where
  hinc := by decide
  hA := by
    intro _ i j hi hj
    have h1 : i < 2 := hi
    have h2 : j < 3 := hj
    exact readQ_memOf (by omega) (by omega)
  hX := by
    intro _ i hi
    have h1 : i < 2 := hi
    rw [show vecStart 60 (gemvLenX 'C' 2 3) 2 = 60 by decide]
    exact readQ_memOf (by omega) (by omega)
  hY := by
    intro i hi
    have h1 : i < 3 := hi
    rw [show vecStart 90 (gemvLenY 'C' 2 3) (-1) = 98 by decide]
    exact readQ_memOf (by omega) (by omega)
  hAY := by
    rintro _ c ⟨i', j', hi', hj', h'⟩ ⟨i, hi, h⟩
    have h1 : i < 3 := hi
    have h2 : i' < 2 := hi'
    have h3 : j' < 3 := hj'
    have e : vecStart 90 (gemvLenY 'C' 2 3) (-1) = 98 := by decide
    rw [e] at h
    unfold InQ at *; omega
  hXY := by
    rintro _ c ⟨i', hi', h'⟩ ⟨i, hi, h⟩
    have h1 : i < 3 := hi
    have h2 : i' < 2 := hi'
    have e : vecStart 90 (gemvLenY 'C' 2 3) (-1) = 98 := by decide
    have e' : vecStart 60 (gemvLenX 'C' 2 3) 2 = 60 := by decide
    rw [e] at h
    rw [e'] at h'
    unfold InQ at *; omega

example : ∃ op x y, IsGemv (gemvF (F := Int) 'C' 2 3 (.h ⟨1, 2, 3, 4⟩) 0 4 60 2 (.z ⟨5, 6⟩) 90 (-1))
    (memOf 0 200 (fun a => a)) 'C' 2 3 (.h ⟨1, 2, 3, 4⟩) (.z ⟨5, 6⟩) 90 (-1) op x y :=
  ⟨_, _, _, C30_gemv_partial _ 'C' 2 3 _ 0 4 60 2 _ 90 (-1) _ _ _ _ (by decide) (by decide) (gemvArgs_example _)
    (.inr (.inr ⟨.inl rfl, fun _ _ => rfl⟩))
    ⟨.inr (.inr (.inl (.inl rfl))), (by rintro ⟨_, h⟩; cases h), by rintro _ (h | h) <;> exact absurd h (by decide)⟩⟩

/-- `GemvGood` also covers rectangular, strided calls with TRANS = 'N'. -/
example : GemvGood (R := Int) 'N' 2 3 (.d 7) (.d 5) (-2) 3 :=
  ⟨.inl ⟨⟨_, rfl⟩, ⟨_, rfl⟩⟩, (by rintro _ ⟨_, h⟩; cases h), by rintro ⟨_, h⟩; cases h⟩
example : GemvGood (R := Int) 'T' 2 3 (.h ⟨1, 2, 3, 4⟩) (.d 1) 2 3 :=
  ⟨.inr (.inr (.inr ⟨by decide, by decide, by ext <;> simp [Scal.toH]⟩)), (by rintro ⟨_, h⟩; cases h),
   by rintro _ (h | h) <;> exact absurd h (by decide)⟩

/-- 3 × 2, TRANS = 'N', ALPHA = 0 and BETA = 2 as a complex number: only two of the three elements of y
are scaled. -/
example : ∃ m', gemvF (F := Int) 'N' 3 2 (.d 0) 0 4 60 1 (.z ⟨2, 0⟩) 90 1 (memOf 0 200 (fun a => a)) = .ok ((), m') ∧
    readQ m' 90 = some ⟨180, 182, 184, 186⟩ ∧ readQ m' 94 = some ⟨188, 190, 192, 194⟩ ∧
    readQ m' 98 = some ⟨98, 99, 100, 101⟩ := by
  obtain ⟨m', h1, h2, h3⟩ := C30_lengths_violated (memOf 0 200 (fun a => a)) 'N' 3 2 (.d (0:Int)) (.z ⟨2, 0⟩) 0 4 60 1 90
    (fun i => let p : Int := 90 + 4 * ((i:Int) * 1); ⟨p, p+1, p+2, p+3⟩) (by decide) (by decide) (by decide)
    (by rintro ⟨_, ⟨_, h⟩⟩; cases h) (by ext <;> simp [Scal.toH])
    (by intro h; have := congrArg QuaternionAlgebra.re h; simp [Scal.toH] at this)
    (by intro i hi; have : i < 2 := hi; exact readQ_memOf (by omega) (by omega))
  refine ⟨m', h1, ?_, ?_, ?_⟩
  · have := h2 0 (by decide)
    simpa [Scal.toH, Quat.ofH] using this
  · have := h2 1 (by decide)
    simpa [Scal.toH, Quat.ofH] using this
  · rw [readQ_congr (m' := memOf 0 200 (fun a => a))]
    · exact readQ_memOf (by omega) (by omega)
    · intro c hc
      apply h3
      rintro ⟨i, hi, hin⟩
      have : i < 2 := hi
      unfold InQ at *; omega

/-- The error of `C30_strided_alpha_violated` is not zero for ALPHA = 1, a = j, x = i. -/
example : gemvErr (R := Int) ⟨1, 0, 0, 0⟩ ⟨0, 0, 1, 0⟩ ⟨0, 1, 0, 0⟩ ≠ 0 := by
  intro h
  have := congrArg QuaternionAlgebra.imK h
  simp [gemvErr_imK, Quat.lo, Quat.hi] at this

end Haxx
