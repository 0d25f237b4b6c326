import Verif.Rel
import Verif.PropsGeneric2
import Verif.PropsGemmF
import Verif.PropsGemv
import Verif.FBeta0Gemv
import Verif.FBeta0dd
import Verif.FBeta0dz
import Verif.FBeta0dh
import Verif.FBeta0zd
import Verif.FBeta0zz
import Verif.FBeta0zh
import Verif.FBeta0hd
import Verif.FBeta0hz
import Verif.FBeta0hh

/-!
# Property theorems: BETA = 0 (C41)

With BETA = 0 the old contents of C must not matter, whatever they are (NaN, Inf, garbage): a caller
may pass an uninitialised C.  These theorems are over an arbitrary `Arith F`, so they are about bit
patterns.
-/

set_option linter.unusedSectionVars false
set_option linter.unusedTactic false
set_option linter.unreachableTactic false

namespace Haxx
open Arith

section
variable {F : Type}

/-- `P` does not depend on the contents of the cells `S`: in any two memories that have the same
accessible cells and are equal outside of `S`, the outcome (fault, or final memory) is the same. -/
def Ignores (S : Int → Prop) (P : Prog F Unit) : Prop :=
  ∀ m n : Mem F, (∀ a, (m a).isSome = (n a).isSome) → (∀ a, ¬ S a → m a = n a) → P m = P n

/-! ## The portable GEMM -/

/-- Cells known to agree when the first `c` columns, and the first `r` elements of the next one, are done. -/
def doneCols (S : Int → Prop) (C LDC : Int) (M c r : Nat) (a : Int) : Prop :=
  ¬ S a ∨ (∃ i j : Nat, i < M ∧ j < c ∧ InQ (C + 4 * (j * LDC) + 4 * i) a) ∨
    ∃ i : Nat, i < r ∧ InQ (C + 4 * (c * LDC) + 4 * i) a

theorem doneCols_next {S : Int → Prop} {C LDC : Int} {M c : Nat} (a : Int) (h : doneCols S C LDC M (c+1) 0 a) :
    doneCols S C LDC M c M a := by
  rcases h with h | ⟨i, j, hi, hj, h⟩ | ⟨i, hi, _⟩
  · exact .inl h
  · by_cases e : j = c
    · subst e; exact .inr (.inr ⟨i, hi, h⟩)
    · exact .inr (.inl ⟨i, j, hi, by omega, h⟩)
  · omega

theorem doneCols_succ {S : Int → Prop} {C LDC : Int} {M c r : Nat} (a : Int) (h : doneCols S C LDC M c (r+1) a) :
    doneCols S C LDC M c r a ∨ InQ (C + 4 * (c * LDC) + 4 * r) a := by
  rcases h with h | h | ⟨i, hi, h⟩
  · exact .inl (.inl h)
  · exact .inl (.inr (.inl h))
  · by_cases e : i = r
    · subst e; exact .inr h
    · exact .inl (.inr (.inr ⟨i, by omega, h⟩))

theorem sim_loadK {D : Int → Prop} {k : Kind} {p : Int} (h : ∀ a, p ≤ a → a < p + k.width → D a) :
    Sim (F := F) D (loadK k p) (fun _ => True) D := by
  cases k
  · exact (Sim.rd (h _ (by omega) (by show p < p + 1; omega))).bind fun _ _ => Sim.pure trivial
  · exact (Sim.rd (h _ (by omega) (by show p < p + 2; omega))).bind fun _ _ =>
      (Sim.rd (h _ (by omega) (by show p + 1 < p + 2; omega))).bind fun _ _ => Sim.pure trivial
  · exact (Sim.loadQ (fun a ha => h a ha.1 ha.2)).bind fun _ _ => Sim.pure trivial

/-- A column whose elements are stored without reading them. -/
theorem sim_colStore {S : Int → Prop} {C LDC : Int} {M c : Nat} {el : Nat → Prog F Unit}
    (h : ∀ i, i < M → ∀ D : Int → Prop, (∀ a, ¬ S a → D a) →
      Sim D (el i) (fun _ => True) (fun b => D b ∨ InQ (C + 4 * (c * LDC) + 4 * (i:Int)) b)) :
    Sim (doneCols S C LDC M c 0) (forN M el) (fun _ => True) (doneCols S C LDC M c M) := by
  refine Sim.forN (fun i => doneCols S C LDC M c i) (fun i hi => ?_)
  exact (h i hi _ (fun a ha => .inl ha)).mono (fun _ h => h) doneCols_succ (fun _ h => h)

variable [Arith F] [ArithEq F]

theorem sim_zeroEl {D : Int → Prop} {p i : Int} : Sim (F := F) D (zeroEl p i) (fun _ => True)
    (fun b => D b ∨ InQ (p + 4 * i) b) := Sim.storeQ

theorem sim_axpyCol {S : Int → Prop} {kA : Kind} {conjB : Bool} {ALPHA : Scal F} {ACol bp C LDC : Int} {M c : Nat}
    (hA : ∀ i : Nat, i < M → ∀ a, ACol + kA.width * i ≤ a → a < ACol + kA.width * i + kA.width → ¬ S a)
    (hB : ∀ a, InQ bp a → ¬ S a) :
    Sim (doneCols S C LDC M c M) (forN M (fun i => gemmAxpyEl kA conjB ALPHA ACol bp (C + 4 * (c * LDC)) i))
      (fun _ => True) (doneCols S C LDC M c M) := by
  refine Sim.forN (fun _ => doneCols S C LDC M c M) (fun i hi => ?_)
  unfold gemmAxpyEl
  refine (sim_loadK (fun a h1 h2 => .inl (hA i hi a h1 h2))).bind fun _ _ => ?_
  refine (Sim.loadQ (fun a h1 => .inl (hB a h1))).bind fun _ _ => ?_
  refine (Sim.loadQ (fun a h1 => .inr (.inr ⟨i, hi, h1⟩))).bind fun _ _ => ?_
  exact Sim.storeQ.mono (fun _ h => h) (fun _ h => .inl h) (fun _ h => h)

theorem sim_dot {S : Int → Prop} {kA : Kind} {conjA conjB : Bool} {ACol : Int} {bp : Nat → Prog F Int} {bpv : Nat → Int} {K : Nat}
    {D : Int → Prop} (hD : ∀ a, ¬ S a → D a) {h0 : Quat F}
    (hb : ∀ l, l < K → Sim D (bp l) (fun p => p = bpv l) D)
    (hA : ∀ l : Nat, l < K → ∀ a, ACol + kA.width * l ≤ a → a < ACol + kA.width * l + kA.width → ¬ S a)
    (hB : ∀ l : Nat, l < K → ∀ a, InQ (bpv l) a → ¬ S a) :
    Sim D (foldN K (fun l h => do let p ← bp l; gemmDotEl kA conjA conjB ACol p l h) h0) (fun _ => True) D := by
  refine Sim.foldN (fun _ => D) (fun _ _ => True) trivial (fun l h hl _ => ?_)
  refine (hb l hl).bind fun p e => ?_
  subst e
  unfold gemmDotEl
  refine (sim_loadK (fun a h1 h2 => hD a (hA l hl a h1 h2))).bind fun _ _ => ?_
  refine (Sim.loadQ (fun a h1 => hD a (hB l hl a h1))).bind fun _ _ => ?_
  exact Sim.pure trivial

/-- C41, portable GEMM.  If BETA compares equal to zero (and not to one), the outcome does not depend on
what the `M × N` block of C held, for all sizes, flags, types and addresses — A and B must not overlap
that block, and nothing else is assumed. -/
theorem C41_portable_gemm (kA : Kind) (tA tB : Char) (M N K : Int) (ALPHA BETA : Scal F) (A LDA B LDB C LDC : Int)
    (h0 : BETA.eqZero = true) (h1 : BETA.eqOne = false)
    (hA : Apart (KMatCell kA A LDA (if tA = 'N' then M.toNat else K.toNat) (if tA = 'N' then K.toNat else M.toNat))
      (MatCell C LDC M.toNat N.toNat))
    (hB : Apart (MatCell B LDB (if tB = 'N' then K.toNat else N.toNat) (if tB = 'N' then N.toNat else K.toNat))
      (MatCell C LDC M.toNat N.toNat)) :
    Ignores (MatCell C LDC M.toNat N.toNat) (gemmGen kA tA tB M N K ALPHA A LDA B LDB BETA C LDC) := by
  intro m n hacc heq
  set S := MatCell C LDC M.toNat N.toNat with hS
  have eC : ∀ i j : Nat, C + 4 * ((j:Int) * LDC) + 4 * (i:Int) = C + 4 * ((i:Int) + j * LDC) := by intros; ring
  have fin : ∀ a, doneCols S C LDC M.toNat N.toNat 0 a := by
    intro a
    by_cases ha : S a
    · obtain ⟨i, j, hi, hj, h⟩ := ha
      exact .inr (.inl ⟨i, j, hi, hj, by rw [eC]; exact h⟩)
    · exact .inl ha
  have start : ∀ a, doneCols S C LDC M.toNat 0 0 a → ¬ S a := by
    rintro a (h | ⟨_, _, _, h, _⟩ | ⟨_, h, _⟩)
    · exact h
    · omega
    · omega
  have nb : Sim (F := F) (doneCols S C LDC M.toNat 0 0) (gemmGen kA tA tB M N K ALPHA A LDA B LDB BETA C LDC)
      (fun _ => True) (doneCols S C LDC M.toNat N.toNat 0) := by
    have cols : ∀ col : Nat → Prog F Unit,
        (∀ j, j < N.toNat → Sim (doneCols S C LDC M.toNat j 0) (col j) (fun _ => True) (doneCols S C LDC M.toNat j M.toNat)) →
        Sim (doneCols S C LDC M.toNat 0 0) (forN N.toNat col) (fun _ => True) (doneCols S C LDC M.toNat N.toNat 0) := by
      intro col h
      exact Sim.forN (fun j => doneCols S C LDC M.toNat j 0) (fun j hj => (h j hj).mono (fun _ h => h) doneCols_next (fun _ h => h))
    have beta : ∀ j, Sim (F := F) (doneCols S C LDC M.toNat j 0) (gemmBetaCol BETA M (C + 4 * ((j:Int) * LDC))) (fun _ => True)
        (doneCols S C LDC M.toNat j M.toNat) := by
      intro j
      unfold gemmBetaCol
      rw [if_pos h0]
      exact sim_colStore (fun i _ D _ => sim_zeroEl)
    have store : ∀ (j i : Nat) (D : Int → Prop) (q : Quat F),
        Sim D (gemmStoreEl ALPHA BETA (C + 4 * ((j:Int) * LDC)) i q) (fun _ => True)
          (fun b => D b ∨ InQ (C + 4 * (j * LDC) + 4 * (i:Int)) b) := by
      intro j i D q
      unfold gemmStoreEl
      rw [if_pos h0]
      exact Sim.storeQ
    have aN : tA = 'N' → ∀ l : Nat, l < K.toNat → ∀ i : Nat, i < M.toNat → ∀ a,
        A + kA.width * (l * LDA) + kA.width * i ≤ a → a < A + kA.width * (l * LDA) + kA.width * i + kA.width → ¬ S a := by
      intro e l hl i hi a g1 g2
      rw [if_pos e, if_pos e] at hA
      have e : A + kA.width * (l * LDA) + kA.width * i = A + kA.width * (i + l * LDA) := by ring
      rw [e] at g1 g2
      exact hA a ⟨i, l, hi, hl, g1, g2⟩
    have aT : tA ≠ 'N' → ∀ i : Nat, i < M.toNat → ∀ l : Nat, l < K.toNat → ∀ a,
        A + kA.width * (i * LDA) + kA.width * l ≤ a → a < A + kA.width * (i * LDA) + kA.width * l + kA.width → ¬ S a := by
      intro e i hi l hl a g1 g2
      rw [if_neg e, if_neg e] at hA
      have e : A + kA.width * (i * LDA) + kA.width * l = A + kA.width * (l + i * LDA) := by ring
      rw [e] at g1 g2
      exact hA a ⟨l, i, hl, hi, g1, g2⟩
    have bN : tB = 'N' → ∀ j : Nat, j < N.toNat → ∀ l : Nat, l < K.toNat → ∀ a,
        InQ (B + 4 * (j * LDB) + 4 * l) a → ¬ S a := by
      intro e j hj l hl a g
      rw [if_pos e, if_pos e] at hB
      have e : B + 4 * (j * LDB) + 4 * l = B + 4 * (l + j * LDB) := by ring
      rw [e] at g
      exact hB a ⟨l, j, hl, hj, g⟩
    have bT : tB ≠ 'N' → ∀ j : Nat, j < N.toNat → ∀ l : Nat, l < K.toNat → ∀ a,
        InQ (B + 4 * (l * LDB) + 4 * j) a → ¬ S a := by
      intro e j hj l hl a g
      rw [if_neg e, if_neg e] at hB
      have e : B + 4 * (l * LDB) + 4 * j = B + 4 * (j + l * LDB) := by ring
      rw [e] at g
      exact hB a ⟨j, l, hj, hl, g⟩
    have NN : tA = 'N' → tB = 'N' → ∀ j : Nat, j < N.toNat → Sim (doneCols S C LDC M.toNat j 0)
        (gemmColNN kA M K ALPHA A LDA B LDB BETA C LDC j) (fun _ => True) (doneCols S C LDC M.toNat j M.toNat) := by
      intro ea eb j hj
      unfold gemmColNN
      refine Sim.i32.bind fun jc e => ?_
      subst e
      refine Sim.i32.bind fun jb e => ?_
      subst e
      refine (beta j).bind fun _ _ => ?_
      refine Sim.forN (fun _ => doneCols S C LDC M.toNat j M.toNat) (fun l hl => ?_)
      refine Sim.i32.bind fun la e => ?_
      subst e
      exact sim_axpyCol (aN ea l hl) (bN eb j hj l hl)
    have NT : ∀ cj : Bool, tA = 'N' → tB ≠ 'N' → ∀ j : Nat, j < N.toNat → Sim (doneCols S C LDC M.toNat j 0)
        (gemmColNT kA cj M K ALPHA A LDA B LDB BETA C LDC j) (fun _ => True) (doneCols S C LDC M.toNat j M.toNat) := by
      intro cj ea eb j hj
      unfold gemmColNT
      refine Sim.i32.bind fun jc e => ?_
      subst e
      refine (beta j).bind fun _ _ => ?_
      refine Sim.forN (fun _ => doneCols S C LDC M.toNat j M.toNat) (fun l hl => ?_)
      refine Sim.i32.bind fun la e => ?_
      subst e
      refine Sim.i32.bind fun lb e => ?_
      subst e
      exact sim_axpyCol (aN ea l hl) (bT eb j hj l hl)
    have TN : ∀ ca : Bool, tA ≠ 'N' → tB = 'N' → ∀ j : Nat, j < N.toNat → Sim (doneCols S C LDC M.toNat j 0)
        (gemmColTN kA ca M K ALPHA A LDA B LDB BETA C LDC j) (fun _ => True) (doneCols S C LDC M.toNat j M.toNat) := by
      intro ca ea eb j hj
      unfold gemmColTN
      refine Sim.i32.bind fun jc e => ?_
      subst e
      refine Sim.i32.bind fun jb e => ?_
      subst e
      refine sim_colStore (fun i hi D hD => ?_)
      unfold gemmElTN
      refine Sim.i32.bind fun ia e => ?_
      subst e
      refine (sim_dot (bp := fun l => pure (B + 4 * (j * LDB) + 4 * l)) hD (fun l _ => Sim.pure rfl) (aT ea i hi) (bN eb j hj)).bind fun q _ => ?_
      exact store j i D q
    have TT : ∀ ca cj : Bool, tA ≠ 'N' → tB ≠ 'N' → ∀ j : Nat, j < N.toNat → Sim (doneCols S C LDC M.toNat j 0)
        (gemmColTT kA ca cj M K ALPHA A LDA B LDB BETA C LDC j) (fun _ => True) (doneCols S C LDC M.toNat j M.toNat) := by
      intro ca cj ea eb j hj
      unfold gemmColTT
      refine Sim.i32.bind fun jc e => ?_
      subst e
      refine sim_colStore (fun i hi D hD => ?_)
      unfold gemmElTT
      refine Sim.i32.bind fun ia e => ?_
      subst e
      refine Sim.bind (P := fun _ => True) (E := D) ?_ (fun q _ => store j i D q)
      refine Sim.foldN (fun _ => D) (fun _ _ => True) trivial (fun l h hl _ => ?_)
      refine Sim.i32.bind fun lb e => ?_
      subst e
      unfold gemmDotEl
      refine (sim_loadK (fun a h1 h2 => hD a (aT ea i hi l hl a h1 h2))).bind fun _ _ => ?_
      refine (Sim.loadQ (fun a h1 => hD a (bT eb j hj l hl a (by
        have e : B + 4 * ((l:Int) * LDB) + 4 * j = B + 4 * j + 4 * (l * LDB) := by ring
        rw [e]; exact h1)))).bind fun _ _ => ?_
      exact Sim.pure trivial
    unfold gemmGen
    dsimp only
    rw [h1, Bool.and_false, Bool.or_false]
    split
    · rename_i e
      refine (Sim.pure trivial).mono (fun _ h => h) ?_ (fun _ h => h)
      intro a _
      refine .inl ?_
      rintro ⟨i, j, hi, hj, _⟩
      simp only [Bool.or_eq_true, decide_eq_true_eq] at e
      omega
    · split
      · refine cols _ (fun j _ => ?_)
        unfold gemmColA0
        refine Sim.i32.bind fun jc e => ?_
        subst e
        rw [if_pos h0]
        exact sim_colStore (fun i _ D _ => sim_zeroEl)
      · split
        · rename_i eb
          simp only [beq_iff_eq] at eb
          split
          · rename_i ea
            simp only [beq_iff_eq] at ea
            exact cols _ (NN ea eb)
          · rename_i ea
            simp only [beq_iff_eq] at ea
            split
            · exact cols _ (TN true ea eb)
            · exact cols _ (TN false ea eb)
        · rename_i eb
          simp only [beq_iff_eq] at eb
          split
          · rename_i ea
            simp only [beq_iff_eq] at ea
            split
            · exact cols _ (NT true ea eb)
            · exact cols _ (NT false ea eb)
          · rename_i ea
            simp only [beq_iff_eq] at ea
            split
            · split
              · exact cols _ (TT true true ea eb)
              · exact cols _ (TT true false ea eb)
            · split
              · exact cols _ (TT false true ea eb)
              · exact cols _ (TT false false ea eb)
  exact nb.eq fin ⟨hacc, fun a ha => heq a (start a ha)⟩

/-- C41, portable GEMV: if BETA compares equal to zero (and not to one) the outcome does not depend on
what y held, for all sizes, strides, flags, types and addresses; no disjointness is needed because y is
cleared before anything is read. -/
theorem C41_portable_gemv (kA : Kind) (t : Char) (M N : Int) (ALPHA BETA : Scal F) (A LDA X INCX Y INCY : Int)
    (hM : M ≠ 0) (hN : N ≠ 0) (h0 : BETA.eqZero = true) (h1 : BETA.eqOne = false) :
    Ignores (VecCell Y INCY (if t = 'N' then M else N).toNat) (gemvGen kA t M N ALPHA A LDA X INCX BETA Y INCY) := by
  set L := if t = 'N' then M else N with hL
  have hL' : (if t ≠ 'N' then N else M) = L := by rw [hL]; split <;> simp_all
  have hz : Sim (F := F) (fun a => ¬ VecCell Y INCY L.toNat a) (gemvScale L BETA Y INCY) (fun _ => True) (fun _ => True) := by
    have fin : ∀ a, ¬ VecCell Y INCY L.toNat a ∨ VecCell Y INCY L.toNat a := fun a => (em _).symm
    unfold gemvScale
    simp only [h0, h1, Bool.not_false, if_true]
    split
    · rename_i e
      subst e
      refine (sim_vec1 (Y := Y) fun i D => ?_).mono (fun _ h => h) (fun a _ => fin a) (fun _ h => h)
      rw [add_sub_cancel_right]
      exact sim_zeroEl
    · refine Sim.bind (P := fun _ => True) (E := fun _ => True) ?_ fun _ _ => Sim.all
      refine (Sim.foldN (fun i b => ¬ VecCell Y INCY L.toNat b ∨ VecCell Y INCY i b) (fun i r => r = i * INCY) (by simp)
        fun i s hi hs => ?_).mono ?_ (fun a _ => fin a) (fun _ _ => trivial)
      · subst hs
        refine (sim_zeroEl.bind fun _ _ => Sim.i32).mono (fun _ h => h) ?_ ?_
        · rintro b (h | ⟨k, hk, hb⟩)
          · exact .inl (.inl h)
          · by_cases e : k = i
            · subst e; exact .inr hb
            · exact .inl (.inr ⟨k, by omega, hb⟩)
        · rintro r rfl
          push_cast; ring
      · rintro b (h | ⟨k, hk, _⟩)
        · exact h
        · omega
  have hmn : (decide (M = 0) || decide (N = 0)) = false := by simp [hM, hN]
  have key : Sim (F := F) (fun a => ¬ VecCell Y INCY L.toNat a) (gemvGen kA t M N ALPHA A LDA X INCX BETA Y INCY) (fun _ => True) (fun _ => True) := by
    unfold gemvGen
    rw [h1, hmn, Bool.and_false, Bool.or_false, if_neg (by decide)]
    refine Sim.assertP.bind fun _ _ => Sim.assertP.bind fun _ _ => ?_
    dsimp only
    rw [hL']
    exact hz.bind fun _ _ => Sim.all
  exact fun _ _ hacc heq => key.eq (fun _ => trivial) ⟨hacc, heq⟩

end

/-! ## The SIMD GEMM -/

section
variable {F : Type} [Arith F]

/-- `nan` behaves like an IEEE NaN: every operation with it as an operand gives it again. -/
structure Absorbs (nan : F) : Prop where
  addL : ∀ a : F, nan +ᶠ a = nan
  subL : ∀ a : F, nan -ᶠ a = nan
  mulL : ∀ a : F, nan *ᶠ a = nan
  mulR : ∀ a : F, a *ᶠ nan = nan
  fms2 : ∀ a c : F, Arith.fms a nan c = nan
  fma3 : ∀ a b : F, Arith.fma a b nan = nan
  fnma3 : ∀ a b : F, Arith.fnma a b nan = nan

/-- The quaternion with four NaN components. -/
def qnan (nan : F) : Quat F := ⟨nan, nan, nan, nan⟩

theorem scalOp_nan {nan : F} (h : Absorbs nan) (b : Scal F) : scalOp true b (qnan nan) = qnan nan := by
  obtain ⟨h1, h3, h4, h5, h9, _, _⟩ := h
  cases b with
  | d a => simp [scalOp, qnan, vmul, h5]
  | z a => simp [scalOp, qnan, vmul, vhsub, h3, h4]
  | h a => simp [scalOp, alphaRegs, qnan, MULDQ_NN, vadd, vfms, h9, h1, getLo, getHi, set256]

theorem accum_nan {nan : F} (h : Absorbs nan) (x y : Nat → Quat F) (n : Nat) : accum x y n (qnan nan) = qnan nan := by
  induction n with
  | zero => rfl
  | succ n ih => rw [accum, ih]; simp [qinc, qnan, h.fma3, h.fnma3]

/-- C41 fails for the SIMD GEMM: it multiplies C by BETA even when BETA is zero, so an entry of C that
held NaNs holds NaNs afterwards, for every BETA, ALPHA, size and flag. -/
theorem C41_simd_violated {nan : F} (hn : Absorbs nan) (m : Mem F) (blk : Blk) (bAddr aAddr : Int) (junk : Int → F)
    (TRANSA TRANSB : Char) (M N K : Int) (ALPHA BETA : Scal F) (A LDA B LDB C LDC : Int) (Av Bv Cv : Nat → Nat → Quat F)
    (h : GemmPre m blk bAddr aAddr TRANSA TRANSB M.toNat N.toNat K.toNat A LDA Av B LDB Bv C LDC Cv)
    (i j : Nat) (hi : i < M.toNat) (hj : j < N.toNat) (hC : Cv i j = ⟨nan, nan, nan, nan⟩) :
    ∃ m', gemmAVX blk bAddr aAddr junk TRANSA TRANSB M N K ALPHA A LDA B LDB BETA C LDC m = .ok ((), m') ∧
      readQ m' (C + 4 * (i + j * LDC)) = some ⟨nan, nan, nan, nan⟩ := by
  obtain ⟨_, m', h1, h2, _⟩ := gemmAVX_wp (junk := junk) (ALPHA := ALPHA) (BETA := BETA) h
  rw [gemmAVX_clamp h.mc_pos h.nc_pos h.kc_pos]
  refine ⟨m', h1, ?_⟩
  rw [h2 i j hi hj]
  dsimp only
  rw [hC]
  unfold gemmElt
  exact congrArg some ((congrArg _ (scalOp_nan hn BETA)).trans (accum_nan hn _ _ _))

end

/-- A toy arithmetic with a NaN: integers plus one absorbing element, comparing unequal to everything. -/
@[reducible] def toyNaN : Arith (Option Int) where
  zero := some 0
  one := some 1
  add a b := a.bind fun x => b.map (x + ·)
  sub a b := a.bind fun x => b.map (x - ·)
  mul a b := a.bind fun x => b.map (x * ·)
  neg a := a.map (- ·)
  fma a b c := a.bind fun x => b.bind fun y => c.map (x * y + ·)
  fms a b c := a.bind fun x => b.bind fun y => c.map (x * y - ·)
  fnma a b c := a.bind fun x => b.bind fun y => c.map (· - x * y)

/-- The hypotheses of `C41_simd_violated` hold in a concrete case: C all NaN, BETA = 0. -/
example : letI := toyNaN
    Absorbs (none : Option Int) ∧ ∃ m', gemmAVX ⟨64, 512, 64⟩ 1000 200000 (fun _ => some 7) 'C' 'N' 3 1 2
      (.d (some 1)) 0 2 24 2 (.d (some 0)) 33 4 (memOf 0 64 (fun a => if a < 33 then some a else none)) = .ok ((), m') ∧
      readQ m' 41 = some ⟨none, none, none, none⟩ := by
  let := toyNaN
  have hn : Absorbs (none : Option Int) := by
    exact ⟨fun _ => rfl, fun _ => rfl, fun _ => rfl, fun a => by cases a <;> rfl, fun a _ => by cases a <;> rfl,
      fun a b => by cases a <;> cases b <;> rfl, fun a b => by cases a <;> cases b <;> rfl⟩
  refine ⟨hn, ?_⟩
  have h := C41_simd_violated hn _ ⟨64, 512, 64⟩ 1000 200000 (fun _ => some 7) 'C' 'N' 3 1 2 (.d (some 1)) (.d (some 0)) 0 2 24 2 33 4
    _ _ _ (gemmPre_example' (fun a => if a < 33 then some a else none)) 2 0 (by decide) (by decide) rfl
  exact h

/-- So the SIMD GEMM does depend on the old C when BETA = 0: two memories that differ only in C, one
holding NaNs and the other zeros, give different results. -/
theorem C41_simd_depends : letI := toyNaN
    ¬ Ignores (F := Option Int) (MatCell 33 4 3 1) (gemmAVX ⟨64, 512, 64⟩ 1000 200000 (fun _ => some 7) 'C' 'N' 3 1 2
      (.d (some 1)) 0 2 24 2 (.d (some 0)) 33 4) := by
  let := toyNaN
  intro h
  have hn : Absorbs (none : Option Int) :=
    ⟨fun _ => rfl, fun _ => rfl, fun _ => rfl, fun a => by cases a <;> rfl, fun a _ => by cases a <;> rfl,
      fun a b => by cases a <;> cases b <;> rfl, fun a b => by cases a <;> cases b <;> rfl⟩
  let f : Int → Option Int := fun a => if a < 33 then some a else if 45 ≤ a then some a else none
  let g : Int → Option Int := fun a => if a < 33 then some a else if 45 ≤ a then some a else some 0
  have h1 := C41_simd_violated hn _ ⟨64, 512, 64⟩ 1000 200000 (fun _ => some 7) 'C' 'N' 3 1 2 (.d (some 1)) (.d (some 0)) 0 2 24 2 33 4
    _ _ _ (gemmPre_example' f) 2 0 (by decide) (by decide) rfl
  obtain ⟨m1, h1, hr⟩ := h1
  obtain ⟨_, m2, h2, hv, _⟩ := gemmAVX_wp (junk := fun _ => some 7) (ALPHA := .d (some 1)) (BETA := .d (some 0)) (gemmPre_example' g)
  have e := h (memOf 0 64 f) (memOf 0 64 g) (by
    intro a; unfold memOf; split <;> rfl) (by
    intro a ha
    unfold memOf
    split
    · dsimp only [f, g]
      by_cases h1 : a < 33
      · rw [if_pos h1, if_pos h1]
      · rw [if_neg h1, if_neg h1]
        by_cases h2 : 45 ≤ a
        · rw [if_pos h2, if_pos h2]
        · exfalso
          apply ha
          by_cases h3 : a < 37
          · exact ⟨0, 0, by decide, by decide, by unfold InQ; omega⟩
          · by_cases h4 : a < 41
            · exact ⟨1, 0, by decide, by decide, by unfold InQ; omega⟩
            · exact ⟨2, 0, by decide, by decide, by unfold InQ; omega⟩
    · rfl)
  rw [h1] at e
  replace e := e.trans (show _ = Except.ok ((), m2) from h2)
  injection e with e
  injection e with _ e
  subst e
  have hv := hv 2 0 (by decide) (by decide)
  rw [show readQ m1 (33 + 4 * (((2:Nat):Int) + ((0:Nat):Int) * 4)) = _ from hr] at hv
  revert hv
  decide

/-! ## The Fortran GEMM and GEMV -/

section
variable {F : Type} [Arith F] [ArithEq F]

/-- Zero compares equal to zero, and nothing compares equal to both zero and one (true of IEEE doubles). -/
structure ZeroOne (F : Type) [Arith F] [ArithEq F] : Prop where
  zz : ((zero : F) ==ᶠ zero) = true
  z1 : ∀ a : F, (a ==ᶠ zero) = true → (a ==ᶠ one) = false

/-- Every component of the scalar compares equal to zero. -/
def Scal.AllZero : Scal F → Prop
  | .d a => (a ==ᶠ zero) = true
  | .z a => (a.re ==ᶠ zero) = true ∧ (a.im ==ᶠ zero) = true
  | .h a => (a.re ==ᶠ zero) = true ∧ (a.i ==ᶠ zero) = true ∧ (a.j ==ᶠ zero) = true ∧ (a.k ==ᶠ zero) = true

theorem Sim.ignores {S D E : Int → Prop} {P : Prog F Unit} (h : Sim D P (fun _ => True) E) (hD : ∀ a, D a → ¬ S a)
    (hE : ∀ a, E a) : Ignores S P :=
  fun _ _ hacc heq => h.eq hE ⟨hacc, fun a ha => heq a (hD a ha)⟩

theorem bz_d (hf : ZeroOne F) {b : F} (h : (Scal.d b).AllZero) :
    Cplx.feq (Cplx.ofReal b) (⟨zero, zero⟩ : Cplx F) = true ∧ Cplx.feq (Cplx.ofReal b) (⟨one, zero⟩ : Cplx F) = false := by
  have h : (b ==ᶠ zero) = true := h
  simp [Cplx.feq, Cplx.ofReal, h, hf.zz, hf.z1 b h]

theorem bz_z (hf : ZeroOne F) {b : Cplx F} (h : (Scal.z b).AllZero) :
    Cplx.feq b (⟨zero, zero⟩ : Cplx F) = true ∧ Cplx.feq b (⟨one, zero⟩ : Cplx F) = false := by
  simp [Cplx.feq, h.1, h.2, hf.z1 b.re h.1]

theorem bz_h (hf : ZeroOne F) {b : Quat F} (h : (Scal.h b).AllZero) :
    (Cplx.feq (Quat.lo b) (⟨zero, zero⟩ : Cplx F) && Cplx.feq (Quat.hi b) (⟨zero, zero⟩ : Cplx F)) = true ∧
    (Cplx.feq (Quat.lo b) (⟨one, zero⟩ : Cplx F) && Cplx.feq (Quat.hi b) (⟨zero, zero⟩ : Cplx F)) = false := by
  obtain ⟨h1, h2, h3, h4⟩ := h
  simp [Cplx.feq, Quat.lo, Quat.hi, h1, h2, h3, h4, hf.z1 b.re h1]

/-- C41, Fortran GEMM: if BETA compares equal to zero the outcome does not depend on what the `M × N`
block of C held, for all sizes, flags, addresses and scalar types. -/
theorem C41_fortran_gemm (hf : ZeroOne F) (tA tB : Char) (M N K : Int) (ALPHA BETA : Scal F) (A LDA B LDB C LDC : Int)
    (h0 : BETA.AllZero)
    (hA : Apart (MatCell A LDA (if IsN tA then M.toNat else K.toNat) (if IsN tA then K.toNat else M.toNat))
      (MatCell C LDC M.toNat N.toNat))
    (hB : Apart (MatCell B LDB (if IsN tB then K.toNat else N.toNat) (if IsN tB then N.toNat else K.toNat))
      (MatCell C LDC M.toNat N.toNat)) :
    Ignores (MatCell C LDC M.toNat N.toNat) (hgemmF tA tB M N K ALPHA A LDA B LDB BETA C LDC) := by
  have e : ∀ (t : Char) (r c : Nat), (FTrans.ofChar t).rows r c = if IsN t then r else c := by
    intro t r c
    unfold FTrans.ofChar
    by_cases h : IsN t
    · rw [if_pos h, if_pos (show t = 'N' ∨ t = 'n' from h)]; rfl
    · rw [if_neg h, if_neg (show ¬ (t = 'N' ∨ t = 'n') from h)]
      split <;> rfl
  rw [← e, ← e] at hA hB
  have st : ∀ a, doneM (MatCell C LDC M.toNat N.toNat) C LDC M.toNat 0 0 a → ¬ MatCell C LDC M.toNat N.toNat a :=
    fun a => doneM_start a
  cases ALPHA <;> cases BETA
  · exact (hgemmdd_sim (bz_d hf h0).1 (bz_d hf h0).2 hA hB rfl).ignores st doneM_fin
  · exact (hgemmdz_sim (bz_z hf h0).1 (bz_z hf h0).2 hA hB rfl).ignores st doneM_fin
  · exact (hgemmdh_sim (bz_h hf h0).1 (bz_h hf h0).2 hA hB rfl).ignores st doneM_fin
  · exact (hgemmzd_sim (bz_d hf h0).1 (bz_d hf h0).2 hA hB rfl).ignores st doneM_fin
  · exact (hgemmzz_sim (bz_z hf h0).1 (bz_z hf h0).2 hA hB rfl).ignores st doneM_fin
  · exact (hgemmzh_sim (bz_h hf h0).1 (bz_h hf h0).2 hA hB rfl).ignores st doneM_fin
  · exact (hgemmhd_sim (bz_d hf h0).1 (bz_d hf h0).2 hA hB rfl).ignores st doneM_fin
  · exact (hgemmhz_sim (bz_z hf h0).1 (bz_z hf h0).2 hA hB rfl).ignores st doneM_fin
  · exact (hgemmhh_sim (bz_h hf h0).1 (bz_h hf h0).2 hA hB rfl).ignores st doneM_fin
/-- C41, Fortran GEMV: if BETA compares equal to zero the outcome does not depend on what y held, in the
cases where the routine gets the length of y right (missing: the others, see `C30_lengths_violated`). -/
theorem C41_fortran_gemv_partial (hf : ZeroOne F) (t : Char) (M N : Int) (ALPHA BETA : Scal F) (A LDA X INCX Y INCY : Int)
    (hM : M ≠ 0) (hN : N ≠ 0) (h0 : BETA.AllZero)
    (ht : t = 'N' ∨ t = 'n' ∨ t = 'T' ∨ t = 't' ∨ t = 'C' ∨ t = 'c')
    (hl : (ALPHA.IsReal ∧ BETA.IsReal) ∨ M = N ∨ IsC t) :
    Ignores (VecCell (vecStart Y (gemvLenY t M N) INCY) INCY (gemvLenY t M N).toNat)
      (gemvF t M N ALPHA A LDA X INCX BETA Y INCY) := by
  have hs : vecStart Y (gemvLenY t M N) INCY = if INCY > 0 then Y else Y - 4 * ((gemvLenY t M N - 1) * INCY) := by
    unfold vecStart
    split
    · rw [if_neg (by omega)]
    · split
      · rfl
      · have : INCY = 0 := by omega
        subst this; ring
  rw [hs]
  have hT : M = N ∨ IsC t → gemvLenY t M N = if lsame 'T' t then M else N := by
    unfold gemvLenY
    rintro (rfl | h)
    · simp
    · rcases h with rfl | rfl <;> simp [IsN, lsame] <;> decide
  have hT' : ∀ P : Prop, ¬ P → (P ∨ M = N ∨ IsC t) → gemvLenY t M N = if lsame 'T' t then M else N :=
    fun P hP h => hT (h.resolve_left hP)
  cases ALPHA <;> cases BETA
  · exact (hgemvdd_sim hM hN (by
      unfold gemvLenY IsN
      rcases ht with rfl | rfl | rfl | rfl | rfl | rfl <;> simp [lsame] <;> decide) (bz_d hf h0).1 (bz_d hf h0).2 (fun _ h => h)).ignores (fun _ h => h) (fun _ => trivial)
  · exact (hgemvdz_sim hM hN (hT' _ (by rintro ⟨⟨_, h⟩, _, h'⟩; cases h <;> cases h') hl) (bz_z hf h0).1 (bz_z hf h0).2 (fun _ h => h)).ignores (fun _ h => h) (fun _ => trivial)
  · exact (hgemvdh_sim hM hN (hT' _ (by rintro ⟨⟨_, h⟩, _, h'⟩; cases h <;> cases h') hl) (bz_h hf h0).1 (bz_h hf h0).2 (fun _ h => h)).ignores (fun _ h => h) (fun _ => trivial)
  · exact (hgemvzd_sim hM hN (hT' _ (by rintro ⟨⟨_, h⟩, _, h'⟩; cases h <;> cases h') hl) (bz_d hf h0).1 (bz_d hf h0).2 (fun _ h => h)).ignores (fun _ h => h) (fun _ => trivial)
  · exact (hgemvzz_sim hM hN (hT' _ (by rintro ⟨⟨_, h⟩, _, h'⟩; cases h <;> cases h') hl) (bz_z hf h0).1 (bz_z hf h0).2 (fun _ h => h)).ignores (fun _ h => h) (fun _ => trivial)
  · exact (hgemvzh_sim hM hN (hT' _ (by rintro ⟨⟨_, h⟩, _, h'⟩; cases h <;> cases h') hl) (bz_h hf h0).1 (bz_h hf h0).2 (fun _ h => h)).ignores (fun _ h => h) (fun _ => trivial)
  · exact (hgemvhd_sim hM hN (hT' _ (by rintro ⟨⟨_, h⟩, _, h'⟩; cases h <;> cases h') hl) (bz_d hf h0).1 (bz_d hf h0).2 (fun _ h => h)).ignores (fun _ h => h) (fun _ => trivial)
  · exact (hgemvhz_sim hM hN (hT' _ (by rintro ⟨⟨_, h⟩, _, h'⟩; cases h <;> cases h') hl) (bz_z hf h0).1 (bz_z hf h0).2 (fun _ h => h)).ignores (fun _ h => h) (fun _ => trivial)
  · exact (hgemvhh_sim hM hN (hT' _ (by rintro ⟨⟨_, h⟩, _, h'⟩; cases h <;> cases h') hl) (bz_h hf h0).1 (bz_h hf h0).2 (fun _ h => h)).ignores (fun _ h => h) (fun _ => trivial)
end

/-! ## Concrete instances -/

theorem zeroOne_int : ZeroOne Int where
  zz := by decide
  z1 := by
    intro a h
    have : a = 0 := by simpa using h
    subst this; decide

example : Ignores (MatCell 33 4 3 1) (hgemmF (F := Int) 'C' 'n' 3 1 2 (.d 2) 0 2 24 2 (.z ⟨0, 0⟩) 33 4) := by
  refine C41_fortran_gemm zeroOne_int 'C' 'n' 3 1 2 _ _ 0 2 24 2 33 4 ⟨by decide, by decide⟩ ?_ ?_
  · rintro a ⟨i, j, hi, hj, h⟩ ⟨i', j', hi', hj', h'⟩
    have h1 : i < 2 := hi
    have h2 : j < 3 := hj
    have h3 : i' < 3 := hi'
    have h4 : j' < 1 := hj'
    unfold InQ at *; omega
  · rintro a ⟨i, j, hi, hj, h⟩ ⟨i', j', hi', hj', h'⟩
    have h1 : i < 2 := hi
    have h2 : j < 1 := hj
    have h3 : i' < 3 := hi'
    have h4 : j' < 1 := hj'
    unfold InQ at *; omega

example : Ignores (MatCell 33 4 3 1) (gemmGen (F := Int) .h 'C' 'N' 3 1 2 (.d 2) 0 2 24 2 (.z ⟨0, 0⟩) 33 4) := by
  refine C41_portable_gemm .h 'C' 'N' 3 1 2 _ _ 0 2 24 2 33 4 (by decide) (by decide) ?_ ?_
  · rintro a ⟨i, j, hi, hj, h⟩ ⟨i', j', hi', hj', h'⟩
    have h1 : i < 2 := hi
    have h2 : j < 3 := hj
    have h3 : i' < 3 := hi'
    have h4 : j' < 1 := hj'
    have hw : (Kind.h).width = 4 := rfl
    rw [hw] at h
    unfold InQ at *; omega
  · rintro a ⟨i, j, hi, hj, h⟩ ⟨i', j', hi', hj', h'⟩
    have h1 : i < 2 := hi
    have h2 : j < 1 := hj
    have h3 : i' < 3 := hi'
    have h4 : j' < 1 := hj'
    unfold InQ at *; omega

example : Ignores (VecCell 100 2 3) (gemvGen (F := Int) .h 'T' 5 3 (.d 2) 0 5 200 1 (.z ⟨0, 0⟩) 100 2) :=
  C41_portable_gemv .h 'T' 5 3 _ _ 0 5 200 1 100 2 (by decide) (by decide) (by decide) (by decide)

/-- Negative increment: y starts at its far end, cell 116. -/
example : Ignores (VecCell 116 (-2) 3) (gemvF (F := Int) 'C' 5 3 (.h ⟨1, 2, 3, 4⟩) 0 5 200 1 (.d 0) 100 (-2)) := by
  have h := C41_fortran_gemv_partial zeroOne_int 'C' 5 3 (.h ⟨1, 2, 3, 4⟩) (.d 0) 0 5 200 1 100 (-2) (by decide) (by decide)
    (show ((0:Int) ==ᶠ zero) = true by decide) (by decide) (.inr (.inr (.inl rfl)))
  have e : gemvLenY 'C' 5 3 = 3 := by decide
  rw [e] at h
  exact h

end Haxx
