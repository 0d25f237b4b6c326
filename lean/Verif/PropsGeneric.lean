import Verif.Generic3Proofs
import Verif.PropsGemv

/-!
# Property theorems: portable GEMM (C29)
-/

set_option linter.unusedSectionVars false

namespace Haxx
open Arith Quaternion Finset

section
variable {R : Type} [CommRing R]

/-- `op(X)(i,k)` for a flag of the portable routines, which distinguish letter case. -/
def KOpIs (t : Char) (X : Nat → Nat → Scal R) (op : Nat → Nat → ℍ[R]) : Prop :=
  (t = 'N' ∧ ∀ i k, op i k = (X i k).toH) ∨
  (t = 'T' ∧ ∀ i k, op i k = (X k i).toH) ∨
  (t = 'C' ∧ ∀ i k, op i k = star (X k i).toH)

/-- As `KOpIs`, for a quaternion matrix. -/
def QOpIs (t : Char) (X : Nat → Nat → Quat R) (op : Nat → Nat → ℍ[R]) : Prop :=
  (t = 'N' ∧ ∀ i k, op i k = (X i k).toH) ∨
  (t = 'T' ∧ ∀ i k, op i k = (X k i).toH) ∨
  (t = 'C' ∧ ∀ i k, op i k = star (X k i).toH)

variable [DecidableEq R]

/-- The arguments of the portable GEMM: A (elements of type `k`) and B are accessible unless ALPHA is
zero, C is accessible, C shares no storage with A and B, the rows of C fit in its leading dimension,
and every column offset is a 32-bit number. -/
structure GemmKArgs (m : Mem R) (k : Kind) (tA tB : Char) (M N K : Int) (ALPHA : Scal R) (A LDA B LDB C LDC : Int)
    (Av : Nat → Nat → Scal R) (Bv Cv : Nat → Nat → Quat R) : Prop where
  hA : ALPHA.toH ≠ 0 → KMatAt m k A LDA (if tA = 'N' then M.toNat else K.toNat) (if tA = 'N' then K.toNat else M.toNat) Av
  hB : ALPHA.toH ≠ 0 → MatAt m B LDB (if tB = 'N' then K.toNat else N.toNat) (if tB = 'N' then N.toNat else K.toNat) Bv
  hC : MatAt m C LDC M.toNat N.toNat Cv
  hld : M ≤ LDC
  fitA : ∀ l : Nat, l < (if tA = 'N' then K.toNat else M.toNat) → Fits32 (l * LDA)
  fitB : ∀ l : Nat, l < (if tB = 'N' then N.toNat else K.toNat) → Fits32 (l * LDB)
  fitC : ∀ l : Nat, l < N.toNat → Fits32 (l * LDC)
  hAC : Apart (KMatCell k A LDA (if tA = 'N' then M.toNat else K.toNat) (if tA = 'N' then K.toNat else M.toNat))
    (MatCell C LDC M.toNat N.toNat)
  hBC : Apart (MatCell B LDB (if tB = 'N' then K.toNat else N.toNat) (if tB = 'N' then N.toNat else K.toNat))
    (MatCell C LDC M.toNat N.toNat)

/-- The tests `s == 0` and `s == 1` of the code tell the truth: for a quaternion they look at the
real, i and j components only, so they do unless `s` is `ck` or `1 + ck` with `c ≠ 0`. -/
structure Scal.Plain (s : Scal R) : Prop where
  zero : s.eqZero = true → s.toH = 0
  one : s.eqOne = true → s.toH = 1

theorem Scal.plain_d (a : R) : (Scal.d a).Plain where
  zero h := by
    simp only [Scal.eqZero, ar_feq, ar_zero, decide_eq_true_eq] at h
    subst h; simp [Scal.toH]
  one h := by
    simp only [Scal.eqOne, ar_feq, ar_one, decide_eq_true_eq] at h
    subst h; simp [Scal.toH]

theorem Scal.plain_z (a : Cplx R) : (Scal.z a).Plain where
  zero h := by
    simp only [Scal.eqZero, ar_feq, ar_zero, Bool.and_eq_true, decide_eq_true_eq] at h
    ext <;> simp [Scal.toH, h.1, h.2]
  one h := by
    simp only [Scal.eqOne, ar_feq, ar_one, ar_zero, Bool.and_eq_true, decide_eq_true_eq] at h
    ext <;> simp [Scal.toH, h.1, h.2]

theorem Scal.plain_h (q : Quat R) (h : q.k = 0 ∨ q.i ≠ 0 ∨ q.j ≠ 0 ∨ (q.re ≠ 0 ∧ q.re ≠ 1)) : (Scal.h q).Plain where
  zero e := by
    simp [Scal.eqZero, Quat.eqOp, Quat.mkReal] at e
    ext <;> simp_all [Scal.toH]
  one e := by
    simp [Scal.eqOne, Quat.eqOp, Quat.mkReal] at e
    ext <;> simp_all [Scal.toH]

theorem eqZero_of_toH {s : Scal R} (h : s.toH = 0) : s.eqZero = true := by
  have h0 := congrArg QuaternionAlgebra.re h
  have h1 := congrArg QuaternionAlgebra.imI h
  have h2 := congrArg QuaternionAlgebra.imJ h
  cases s <;> simp [Scal.toH] at h0 h1 h2 <;> simp [Scal.eqZero, Quat.eqOp, Quat.mkReal, *]

/-- The portable GEMM template, for A, ALPHA and BETA of any scalar type. -/
theorem gemmGen_spec (m : Mem R) (k : Kind) (tA tB : Char) (M N K : Int) (ALPHA BETA : Scal R)
    (A LDA B LDB C LDC : Int) (Av : Nat → Nat → Scal R) (Bv Cv : Nat → Nat → Quat R) (opA opB : Nat → Nat → ℍ[R])
    (hopA : KOpIs tA Av opA) (hopB : QOpIs tB Bv opB)
    (h : GemmKArgs m k tA tB M N K ALPHA A LDA B LDB C LDC Av Bv Cv) (ha : ALPHA.Plain) (hb : BETA.Plain) :
    ∃ m', gemmGen k tA tB M N K ALPHA A LDA B LDB BETA C LDC m = .ok ((), m') ∧
      MatAt m' C LDC M.toNat N.toNat (fun i j => Quat.ofH
        (ALPHA.toH * ∑ l ∈ range K.toNat, opA i l * opB l j + BETA.toH * (Cv i j).toH)) ∧
      SameOutside (MatCell C LDC M.toNat N.toNat) m m' := by
  have eC : ∀ i j : Nat, C + 4 * ((j:Int) * LDC) + 4 * (i:Int) = C + 4 * ((i:Int) + j * LDC) := by intros; ring
  have key : wp (gemmGen k tA tB M N K ALPHA A LDA B LDB BETA C LDC) m (fun _ m' =>
      (∀ i j : Nat, i < M.toNat → j < N.toNat → readQ m' (C + 4 * (j * LDC) + 4 * i) = some (Quat.ofH
        (ALPHA.toH * ∑ l ∈ range K.toNat, opA i l * opB l j + BETA.toH * (Cv i j).toH))) ∧
      (∀ c, ¬ MatCell C LDC M.toNat N.toNat c → m' c = m c) ∧
      ∀ a, (∀ i j : Nat, i < M.toNat → j < N.toNat → ¬ InQ (C + 4 * (j * LDC) + 4 * i) a) → m' a = m a) := by
    have st : GStK (fun m' => ∀ c, ¬ MatCell C LDC M.toNat N.toNat c → m' c = m c) C LDC M.toNat N.toNat := {
      stable := by
        intro m' i j q hi hj hm c hc
        rw [writeQ_other (fun hin => hc ⟨i, j, hi, hj, by rw [← eC]; exact hin⟩)]
        exact hm c hc
      disj := by
        intro i j i' j' hi hi' hne
        rw [eC, eC]
        exact mat_disj (r := M.toNat) (by have := h.hld; omega) hi hi' hne
      fitC := h.fitC }
    have hC : ∀ i j : Nat, i < M.toNat → j < N.toNat → readQ m (C + 4 * (j * LDC) + 4 * i) = some (Cv i j) := by
      intro i j hi hj; rw [eC]; exact h.hC i j hi hj
    have same : (∀ i j : Nat, i < M.toNat → j < N.toNat → Cv i j = Quat.ofH
        (ALPHA.toH * ∑ l ∈ range K.toNat, opA i l * opB l j + BETA.toH * (Cv i j).toH)) →
        wp (pure () : Prog R Unit) m (fun _ m' =>
      (∀ i j : Nat, i < M.toNat → j < N.toNat → readQ m' (C + 4 * (j * LDC) + 4 * i) = some (Quat.ofH
        (ALPHA.toH * ∑ l ∈ range K.toNat, opA i l * opB l j + BETA.toH * (Cv i j).toH))) ∧
      (∀ c, ¬ MatCell C LDC M.toNat N.toNat c → m' c = m c) ∧
      ∀ a, (∀ i j : Nat, i < M.toNat → j < N.toNat → ¬ InQ (C + 4 * (j * LDC) + 4 * i) a) → m' a = m a) := by
      intro e
      rw [wp_pure]
      refine ⟨fun i j hi hj => ?_, fun _ _ => rfl, fun _ _ => rfl⟩
      rw [hC i j hi hj, ← e i j hi hj]
    unfold gemmGen
    dsimp only
    split
    · rename_i e
      apply same
      intro i j hi hj
      simp only [Bool.or_eq_true, Bool.and_eq_true, decide_eq_true_eq] at e
      rcases e with (e | e) | ⟨e, e1⟩
      · omega
      · omega
      · rw [hb.one e1, one_mul]
        rcases e with e | e
        · rw [ha.zero e, zero_mul, zero_add]; rfl
        · subst e; simp
    · split
      · rename_i e
        refine wp_mono (gemmColA0_wp hb.zero st (fun _ _ => rfl) hC) ?_
        intro _ m' h'
        rw [ha.zero e]
        simpa using h'
      · rename_i hz
        have h0 : ALPHA.toH ≠ 0 := fun e => hz (eqZero_of_toH e)
        have hA := h.hA h0
        have hB := h.hB h0
        have fA := h.fitA
        have fB := h.fitB
        have fC := h.fitC
        have rA : ∀ m' i j, (∀ c, ¬ MatCell C LDC M.toNat N.toNat c → m' c = m c) → i < (if tA = 'N' then M.toNat else K.toNat) → j < (if tA = 'N' then K.toNat else M.toNat) →
            readK m' k (A + k.width * (i + j * LDA)) = some (Av i j) := by
          intro m' i j hm hi hj
          rw [readK_congr (m' := m)]
          · exact hA i j hi hj
          · intro c h1 h2; exact hm c (h.hAC c ⟨i, j, hi, hj, h1, h2⟩)
        have rB : ∀ m' i j, (∀ c, ¬ MatCell C LDC M.toNat N.toNat c → m' c = m c) → i < (if tB = 'N' then K.toNat else N.toNat) → j < (if tB = 'N' then N.toNat else K.toNat) →
            readQ m' (B + 4 * (i + j * LDB)) = some (Bv i j) := by
          intro m' i j hm hi hj
          rw [readQ_congr (m' := m)]
          · exact hB i j hi hj
          · intro c h1; exact hm c (h.hBC c ⟨i, j, hi, hj, h1⟩)
        rcases hopA with ⟨rfl, eA⟩ | ⟨rfl, eA⟩ | ⟨rfl, eA⟩ <;> rcases hopB with ⟨rfl, eB⟩ | ⟨rfl, eB⟩ | ⟨rfl, eB⟩ <;>
          simp only [show ('N' == 'N') = true from rfl, show ('N' == 'C') = false from rfl, show ('T' == 'N') = false from rfl,
            show ('T' == 'C') = false from rfl, show ('C' == 'N') = false from rfl, show ('C' == 'C') = true from rfl,
            if_true, if_false, Bool.false_eq_true, show ('C' = 'N') = False from by decide, show ('T' = 'N') = False from by decide, eA, eB] at rA rB fA fB ⊢
        · -- NN
          refine wp_mono (gemmColsN_wp (conjB := false) (kA := k) (Kk := K) (ALPHA := ALPHA) (x := fun i l => Av i l) (y := fun l j => Bv l j)
            (lpass := fun j l => do
              let la ← i32 (l * LDA)
              forN M.toNat (fun i => gemmAxpyEl k false ALPHA (A + k.width * la) (B + 4 * (j * LDB) + 4 * l) (C + 4 * (j * LDC)) i))
            hb.zero hb.one st (fun _ _ => rfl) ?_ (fun l => A + k.width * (l * LDA)) (fun l j => B + 4 * (j * LDB) + 4 * l) ?_ ?_ ?_ hC) ?_
          · intro j m' Q hj hw
            unfold gemmColNN
            rw [wp_bind, wp_i32 (fC j hj), wp_bind, wp_i32 (fB j hj)]
            exact hw
          · intro j l m' Q hj hl hw
            rw [wp_bind, wp_i32 (fA l hl)]
            exact hw
          · intro m' i l hm hi hl
            rw [← rA m' i l hm hi hl]; congr 1; ring
          · intro m' l j hm hl hj
            rw [← rB m' l j hm hl hj]; congr 1; ring
          · intro _ m' h'; simpa [gemmSpec] using h'
        ·
          refine wp_mono (gemmColsN_wp (conjB := false) (kA := k) (Kk := K) (ALPHA := ALPHA) (x := fun i l => Av i l) (y := fun l j => Bv j l)
            (lpass := fun j l => do
              let la ← i32 (l * LDA)
              let lb ← i32 (l * LDB)
              forN M.toNat (fun i => gemmAxpyEl k false ALPHA (A + k.width * la) (B + 4 * lb + 4 * j) (C + 4 * (j * LDC)) i))
            hb.zero hb.one st (fun _ _ => rfl) ?_ (fun l => A + k.width * (l * LDA)) (fun l j => B + 4 * (l * LDB) + 4 * j) ?_ ?_ ?_ hC) ?_
          · intro j m' Q hj hw
            unfold gemmColNT
            rw [wp_bind, wp_i32 (fC j hj)]
            exact hw
          · intro j l m' Q hj hl hw
            rw [wp_bind, wp_i32 (fA l hl), wp_bind, wp_i32 (fB l hl)]
            exact hw
          · intro m' i l hm hi hl
            rw [← rA m' i l hm hi hl]; congr 1; ring
          · intro m' l j hm hl hj
            rw [← rB m' j l hm hj hl]; congr 1; ring
          · intro _ m' h'; simpa [gemmSpec] using h'
        ·
          refine wp_mono (gemmColsN_wp (conjB := true) (kA := k) (Kk := K) (ALPHA := ALPHA) (x := fun i l => Av i l) (y := fun l j => Bv j l)
            (lpass := fun j l => do
              let la ← i32 (l * LDA)
              let lb ← i32 (l * LDB)
              forN M.toNat (fun i => gemmAxpyEl k true ALPHA (A + k.width * la) (B + 4 * lb + 4 * j) (C + 4 * (j * LDC)) i))
            hb.zero hb.one st (fun _ _ => rfl) ?_ (fun l => A + k.width * (l * LDA)) (fun l j => B + 4 * (l * LDB) + 4 * j) ?_ ?_ ?_ hC) ?_
          · intro j m' Q hj hw
            unfold gemmColNT
            rw [wp_bind, wp_i32 (fC j hj)]
            exact hw
          · intro j l m' Q hj hl hw
            rw [wp_bind, wp_i32 (fA l hl), wp_bind, wp_i32 (fB l hl)]
            exact hw
          · intro m' i l hm hi hl
            rw [← rA m' i l hm hi hl]; congr 1; ring
          · intro m' l j hm hl hj
            rw [← rB m' j l hm hj hl]; congr 1; ring
          · intro _ m' h'; simpa [gemmSpec] using h'
        ·
          refine wp_mono (gemmColsT_wp (conjA := false) (conjB := false) (kA := k) (Kk := K) (ALPHA := ALPHA) (x := fun i l => Av l i) (y := fun l j => Bv l j)
            (el := fun j i => gemmElTN k false K ALPHA A LDA (B + 4 * (j * LDB)) BETA (C + 4 * (j * LDC)) i)
            (dot := fun j i l h => gemmDotEl k false false (A + k.width * (i * LDA)) (B + 4 * (j * LDB) + 4 * l) l h)
            hb.zero st (fun _ _ => rfl) ?_ ?_ (fun i => A + k.width * (i * LDA)) (fun l j => B + 4 * (j * LDB) + 4 * l) ?_ ?_ ?_ hC) ?_
          · intro j m' Q hj hw
            unfold gemmColTN
            rw [wp_bind, wp_i32 (fC j hj), wp_bind, wp_i32 (fB j hj)]
            exact hw
          · intro j i m' Q hj hi hw
            unfold gemmElTN
            rw [wp_bind, wp_i32 (fA i hi)]
            exact hw
          · intro j i l hh m' Q _ _ _ hw; exact hw
          · intro m' i l hm hi hl
            rw [← rA m' l i hm hl hi]; congr 1; ring
          · intro m' l j hm hl hj
            rw [← rB m' l j hm hl hj]; congr 1; ring
          · intro _ m' h'; simpa [gemmSpec] using h'
        ·
          refine wp_mono (gemmColsT_wp (conjA := false) (conjB := false) (kA := k) (Kk := K) (ALPHA := ALPHA) (x := fun i l => Av l i) (y := fun l j => Bv j l)
            (el := fun j i => gemmElTT k false false K ALPHA A LDA (B + 4 * j) LDB BETA (C + 4 * (j * LDC)) i)
            (dot := fun j i l h => do
              let lb ← i32 (l * LDB)
              gemmDotEl k false false (A + k.width * (i * LDA)) (B + 4 * j + 4 * lb) l h)
            hb.zero st (fun _ _ => rfl) ?_ ?_ (fun i => A + k.width * (i * LDA)) (fun l j => B + 4 * j + 4 * (l * LDB)) ?_ ?_ ?_ hC) ?_
          · intro j m' Q hj hw
            unfold gemmColTT
            rw [wp_bind, wp_i32 (fC j hj)]
            exact hw
          · intro j i m' Q hj hi hw
            unfold gemmElTT
            rw [wp_bind, wp_i32 (fA i hi)]
            exact hw
          · intro j i l hh m' Q _ _ hl hw
            rw [wp_bind, wp_i32 (fB l hl)]
            exact hw
          · intro m' i l hm hi hl
            rw [← rA m' l i hm hl hi]; congr 1; ring
          · intro m' l j hm hl hj
            rw [← rB m' j l hm hj hl]; congr 1; ring
          · intro _ m' h'; simpa [gemmSpec] using h'
        ·
          refine wp_mono (gemmColsT_wp (conjA := false) (conjB := true) (kA := k) (Kk := K) (ALPHA := ALPHA) (x := fun i l => Av l i) (y := fun l j => Bv j l)
            (el := fun j i => gemmElTT k false true K ALPHA A LDA (B + 4 * j) LDB BETA (C + 4 * (j * LDC)) i)
            (dot := fun j i l h => do
              let lb ← i32 (l * LDB)
              gemmDotEl k false true (A + k.width * (i * LDA)) (B + 4 * j + 4 * lb) l h)
            hb.zero st (fun _ _ => rfl) ?_ ?_ (fun i => A + k.width * (i * LDA)) (fun l j => B + 4 * j + 4 * (l * LDB)) ?_ ?_ ?_ hC) ?_
          · intro j m' Q hj hw
            unfold gemmColTT
            rw [wp_bind, wp_i32 (fC j hj)]
            exact hw
          · intro j i m' Q hj hi hw
            unfold gemmElTT
            rw [wp_bind, wp_i32 (fA i hi)]
            exact hw
          · intro j i l hh m' Q _ _ hl hw
            rw [wp_bind, wp_i32 (fB l hl)]
            exact hw
          · intro m' i l hm hi hl
            rw [← rA m' l i hm hl hi]; congr 1; ring
          · intro m' l j hm hl hj
            rw [← rB m' j l hm hj hl]; congr 1; ring
          · intro _ m' h'; simpa [gemmSpec] using h'
        ·
          refine wp_mono (gemmColsT_wp (conjA := true) (conjB := false) (kA := k) (Kk := K) (ALPHA := ALPHA) (x := fun i l => Av l i) (y := fun l j => Bv l j)
            (el := fun j i => gemmElTN k true K ALPHA A LDA (B + 4 * (j * LDB)) BETA (C + 4 * (j * LDC)) i)
            (dot := fun j i l h => gemmDotEl k true false (A + k.width * (i * LDA)) (B + 4 * (j * LDB) + 4 * l) l h)
            hb.zero st (fun _ _ => rfl) ?_ ?_ (fun i => A + k.width * (i * LDA)) (fun l j => B + 4 * (j * LDB) + 4 * l) ?_ ?_ ?_ hC) ?_
          · intro j m' Q hj hw
            unfold gemmColTN
            rw [wp_bind, wp_i32 (fC j hj), wp_bind, wp_i32 (fB j hj)]
            exact hw
          · intro j i m' Q hj hi hw
            unfold gemmElTN
            rw [wp_bind, wp_i32 (fA i hi)]
            exact hw
          · intro j i l hh m' Q _ _ _ hw; exact hw
          · intro m' i l hm hi hl
            rw [← rA m' l i hm hl hi]; congr 1; ring
          · intro m' l j hm hl hj
            rw [← rB m' l j hm hl hj]; congr 1; ring
          · intro _ m' h'; simpa [gemmSpec] using h'
        ·
          refine wp_mono (gemmColsT_wp (conjA := true) (conjB := false) (kA := k) (Kk := K) (ALPHA := ALPHA) (x := fun i l => Av l i) (y := fun l j => Bv j l)
            (el := fun j i => gemmElTT k true false K ALPHA A LDA (B + 4 * j) LDB BETA (C + 4 * (j * LDC)) i)
            (dot := fun j i l h => do
              let lb ← i32 (l * LDB)
              gemmDotEl k true false (A + k.width * (i * LDA)) (B + 4 * j + 4 * lb) l h)
            hb.zero st (fun _ _ => rfl) ?_ ?_ (fun i => A + k.width * (i * LDA)) (fun l j => B + 4 * j + 4 * (l * LDB)) ?_ ?_ ?_ hC) ?_
          · intro j m' Q hj hw
            unfold gemmColTT
            rw [wp_bind, wp_i32 (fC j hj)]
            exact hw
          · intro j i m' Q hj hi hw
            unfold gemmElTT
            rw [wp_bind, wp_i32 (fA i hi)]
            exact hw
          · intro j i l hh m' Q _ _ hl hw
            rw [wp_bind, wp_i32 (fB l hl)]
            exact hw
          · intro m' i l hm hi hl
            rw [← rA m' l i hm hl hi]; congr 1; ring
          · intro m' l j hm hl hj
            rw [← rB m' j l hm hj hl]; congr 1; ring
          · intro _ m' h'; simpa [gemmSpec] using h'
        ·
          refine wp_mono (gemmColsT_wp (conjA := true) (conjB := true) (kA := k) (Kk := K) (ALPHA := ALPHA) (x := fun i l => Av l i) (y := fun l j => Bv j l)
            (el := fun j i => gemmElTT k true true K ALPHA A LDA (B + 4 * j) LDB BETA (C + 4 * (j * LDC)) i)
            (dot := fun j i l h => do
              let lb ← i32 (l * LDB)
              gemmDotEl k true true (A + k.width * (i * LDA)) (B + 4 * j + 4 * lb) l h)
            hb.zero st (fun _ _ => rfl) ?_ ?_ (fun i => A + k.width * (i * LDA)) (fun l j => B + 4 * j + 4 * (l * LDB)) ?_ ?_ ?_ hC) ?_
          · intro j m' Q hj hw
            unfold gemmColTT
            rw [wp_bind, wp_i32 (fC j hj)]
            exact hw
          · intro j i m' Q hj hi hw
            unfold gemmElTT
            rw [wp_bind, wp_i32 (fA i hi)]
            exact hw
          · intro j i l hh m' Q _ _ hl hw
            rw [wp_bind, wp_i32 (fB l hl)]
            exact hw
          · intro m' i l hm hi hl
            rw [← rA m' l i hm hl hi]; congr 1; ring
          · intro m' l j hm hl hj
            rw [← rB m' j l hm hj hl]; congr 1; ring
          · intro _ m' h'; simpa [gemmSpec] using h'
  obtain ⟨_, m', h1, h2, h3, _⟩ := key
  exact ⟨m', h1, fun i j hi hj => by rw [← eC]; exact h2 i j hi hj, h3⟩

/-- C29.  The portable GEMM for any types of A, ALPHA and BETA. -/
theorem C29_gemm_portable (m : Mem R) (k : Kind) (tA tB : Char) (M N K : Int) (ALPHA BETA : Scal R)
    (A LDA B LDB C LDC : Int) (Av : Nat → Nat → Scal R) (Bv Cv : Nat → Nat → Quat R) (opA opB : Nat → Nat → ℍ[R])
    (hopA : KOpIs tA Av opA) (hopB : QOpIs tB Bv opB)
    (h : GemmKArgs m k tA tB M N K ALPHA A LDA B LDB C LDC Av Bv Cv) (ha : ALPHA.Plain) (hb : BETA.Plain) :
    ∃ m', gemmGen k tA tB M N K ALPHA A LDA B LDB BETA C LDC m = .ok ((), m') ∧
      MatAt m' C LDC M.toNat N.toNat (fun i j => Quat.ofH
        (ALPHA.toH * ∑ l ∈ range K.toNat, opA i l * opB l j + BETA.toH * (Cv i j).toH)) ∧
      SameOutside (MatCell C LDC M.toNat N.toNat) m m' :=
  gemmGen_spec m k tA tB M N K ALPHA BETA A LDA B LDB C LDC Av Bv Cv opA opB hopA hopB h ha hb

/-- `op(X)(i,k)` for a matrix of real numbers: conjugation does nothing. -/
def ROpIs (t : Char) (X : Nat → Nat → R) (op : Nat → Nat → R) : Prop :=
  (t = 'N' ∧ ∀ i k, op i k = X i k) ∨ ((t = 'T' ∨ t = 'C') ∧ ∀ i k, op i k = X k i)

/-- C29.  The instantiation that is in the library: A is a matrix of real numbers (one cell per
element), ALPHA and BETA are real numbers; no exceptions. -/
theorem C29_gemm_real (m : Mem R) (tA tB : Char) (M N K : Int) (alpha beta : R)
    (A LDA B LDB C LDC : Int) (Av : Nat → Nat → R) (Bv Cv : Nat → Nat → Quat R) (opA : Nat → Nat → R)
    (opB : Nat → Nat → ℍ[R]) (hopA : ROpIs tA Av opA) (hopB : QOpIs tB Bv opB)
    (h : GemmKArgs m .d tA tB M N K (.d alpha) A LDA B LDB C LDC (fun i j => .d (Av i j)) Bv Cv) :
    ∃ m', gemmGen .d tA tB M N K (.d alpha) A LDA B LDB (.d beta) C LDC m = .ok ((), m') ∧
      MatAt m' C LDC M.toNat N.toNat (fun i j => Quat.ofH
        (alpha • ∑ l ∈ range K.toNat, opA i l • opB l j + beta • (Cv i j).toH)) ∧
      SameOutside (MatCell C LDC M.toNat N.toNat) m m' := by
  have e : ∀ (r : R) (q : ℍ[R]), (Scal.d r).toH * q = r • q := by
    intro r q; ext <;> simp [Scal.toH]
  have e' : ∀ (r : R), star (Scal.d r).toH = (Scal.d r).toH := by
    intro r; ext <;> simp [Scal.toH]
  have hop : KOpIs tA (fun i j => Scal.d (Av i j)) (fun i l => (Scal.d (opA i l)).toH) := by
    rcases hopA with ⟨rfl, h0⟩ | ⟨rfl | rfl, h0⟩
    · exact Or.inl ⟨rfl, fun i k => by simp only [h0]⟩
    · exact Or.inr (Or.inl ⟨rfl, fun i k => by simp only [h0]⟩)
    · exact Or.inr (Or.inr ⟨rfl, fun i k => by simp only [h0, e']⟩)
  obtain ⟨m', h1, h2, h3⟩ := gemmGen_spec m .d tA tB M N K (.d alpha) (.d beta) A LDA B LDB C LDC _ Bv Cv _ opB
    hop hopB h (Scal.plain_d alpha) (Scal.plain_d beta)
  refine ⟨m', h1, ?_, h3⟩
  intro i j hi hj
  rw [h2 i j hi hj]
  simp only [e]

/-- Used from the headers with a quaternion ALPHA the template is wrong for ALPHA = ck, c ≠ 0: the test
`ALPHA == 0` ignores the k component, so the product is dropped, whatever A and B hold. -/
theorem C29_header_pure_k (m : Mem R) (k : Kind) (tA tB : Char) (M N K : Int) (c : R) (A LDA B LDB C LDC : Int) :
    gemmGen k tA tB M N K (.h ⟨0, 0, 0, c⟩) A LDA B LDB (.d 1) C LDC m = .ok ((), m) := by
  have h1 : (Scal.h (⟨0, 0, 0, c⟩ : Quat R)).eqZero = true := by simp [Scal.eqZero, Quat.eqOp, Quat.mkReal]
  have h2 : (Scal.d (1 : R)).eqOne = true := by simp [Scal.eqOne]
  unfold gemmGen
  simp only [h1, h2, Bool.true_or, Bool.and_true, Bool.or_true, if_true]
  rfl

/-- The hypotheses are met: a 2×3 real matrix, a 3×2 quaternion matrix, a 2×2 result. -/
theorem gemmKArgs_example : GemmKArgs (memOf 0 200 (fun a => a)) .d 'N' 'N' 2 2 3 (.d 5) 0 2 10 3 40 3
    (fun i j => .d ((0:Int) + 1 * ((i:Int) + j * 2)))
    (fun i j => let p : Int := 10 + 4 * ((i:Int) + j * 3); ⟨p, p+1, p+2, p+3⟩)
    (fun i j => let p : Int := 40 + 4 * ((i:Int) + j * 3); ⟨p, p+1, p+2, p+3⟩) where
  hA := by
    intro _ i j hi hj
    have h1 : i < 2 := hi
    have h2 : j < 3 := hj
    have : memOf 0 200 (fun a => a) (0 + 1 * ((i:Int) + j * 2)) = some (0 + 1 * ((i:Int) + j * 2)) :=
      if_pos ⟨by omega, by omega⟩
    simp only [readK, Kind.width, this]
  hB := by
    intro _ i j hi hj
    have h1 : i < 3 := hi
    have h2 : j < 2 := hj
    exact readQ_memOf (by omega) (by omega)
  hC := by
    intro i j hi hj
    have h1 : i < 2 := hi
    have h2 : j < 2 := hj
    exact readQ_memOf (by omega) (by omega)
  hld := by omega
  fitA := by intro l hl; have h1 : l < 3 := hl; unfold Fits32; omega
  fitB := by intro l hl; have h1 : l < 2 := hl; unfold Fits32; omega
  fitC := by intro l hl; have h1 : l < 2 := hl; unfold Fits32; omega
  hAC := by
    rintro c ⟨i, j, hi, hj, h⟩ ⟨i', j', hi', hj', h'⟩
    have h1 : i < 2 := hi
    have h2 : j < 3 := hj
    have h3 : i' < 2 := hi'
    have h4 : j' < 2 := hj'
    simp only [Kind.width] at h
    unfold InQ at *; omega
  hBC := by
    rintro c ⟨i, j, hi, hj, h⟩ ⟨i', j', hi', hj', h'⟩
    have h1 : i < 3 := hi
    have h2 : j < 2 := hj
    have h3 : i' < 2 := hi'
    have h4 : j' < 2 := hj'
    unfold InQ at *; omega

example : ∃ m', gemmGen (F := Int) .d 'N' 'N' 2 2 3 (.d 5) 0 2 10 3 (.d 7) 40 3 (memOf 0 200 (fun a => a)) = .ok ((), m') :=
  let ⟨m', h, _⟩ := C29_gemm_real _ 'N' 'N' 2 2 3 5 7 0 2 10 3 40 3 _ _ _ _ _ (Or.inl ⟨rfl, fun _ _ => rfl⟩)
    (Or.inl ⟨rfl, fun _ _ => rfl⟩) gemmKArgs_example
  ⟨m', h⟩

end
end Haxx
