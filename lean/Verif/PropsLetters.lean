import Verif.PropsCross
import Verif.PropsSafe

/-!
# C51: option letters

What SIDE, TRANSA, TRANSB and TRANS mean in each build for every character, not only the documented
`'L'`, `'R'`, `'N'`, `'T'`, `'C'`.
-/

set_option linter.unusedSectionVars false

namespace Haxx
open Arith Quaternion Finset

/-! ## Specification: the letter a build takes another letter for -/

/-- SIMD SCALV/AXPYV: anything but `'L'` is `'R'`. -/
def simdSide (s : Char) : Char := if s = 'L' then 'L' else 'R'
/-- Portable SCALV/AXPYV: anything but `'R'` is `'L'`. -/
def portSide (s : Char) : Char := if s = 'R' then 'R' else 'L'
/-- Fortran SCALV/AXPYV: anything but `'R'`, `'r'` is `'L'`. -/
def fortSide (s : Char) : Char := if s = 'R' ∨ s = 'r' then 'R' else 'L'

/-- SIMD GEMM: `'T'`, `'C'`, `'R'` (conjugate), anything else is `'N'`. -/
def simdOp (t : Char) : Char := if t = 'T' ∨ t = 'C' ∨ t = 'R' then t else 'N'
/-- Portable GEMM: `'N'`, `'C'`, anything else is `'T'`. -/
def portOp (t : Char) : Char := if t = 'N' ∨ t = 'C' then t else 'T'
/-- Fortran GEMM: `'N'`/`'n'`, `'C'`/`'c'`, anything else is `'T'`. -/
def fortOp (t : Char) : Char := if t = 'N' ∨ t = 'n' then 'N' else if t = 'C' ∨ t = 'c' then 'C' else 'T'
/-- Portable GEMV: `'N'`, `'T'`, anything else is `'C'`. -/
def portOpV (t : Char) : Char := if t = 'N' ∨ t = 'T' then t else 'C'
/-- Fortran GEMV: `'N'`/`'n'`, `'T'`/`'t'`, anything else is `'C'`. -/
def fortOpV (t : Char) : Char := if t = 'N' ∨ t = 'n' then 'N' else if t = 'T' ∨ t = 't' then 'T' else 'C'

section letters
variable {F : Type} [Arith F] [ArithEq F]

theorem lsame_letter {x c d : Char} (hc : 65 ≤ c.toNat ∧ c.toNat ≤ 90) (hd : d.toNat = c.toNat + 32) :
    lsame x c = decide (x = c ∨ x = d) := by
  rw [lsame_upper hc, ← hd]
  simp only [Char.toNat_inj]

theorem lsame_isR (x : Char) : lsame 'R' x = decide (x = 'R' ∨ x = 'r') := by
  rw [lsame_symm]; exact lsame_letter (by decide) (by decide)
theorem lsame_isT (x : Char) : lsame 'T' x = decide (x = 'T' ∨ x = 't') := by
  rw [lsame_symm]; exact lsame_letter (by decide) (by decide)
theorem lsame_isN' (x : Char) : lsame x 'N' = decide (x = 'N' ∨ x = 'n') :=
  lsame_letter (by decide) (by decide)
theorem lsame_isC' (x : Char) : lsame x 'C' = decide (x = 'C' ∨ x = 'c') :=
  lsame_letter (by decide) (by decide)

/-- C51.  SIDE in the three SCALV, every letter, every argument, bit for bit. -/
theorem C51_scalv (s : Char) (N : Int) (ALPHA : Scal F) (X INCX : Int) :
    scalvAVX s N ALPHA X INCX = scalvAVX (simdSide s) N ALPHA X INCX ∧
    scalvGen s N ALPHA X INCX = scalvGen (portSide s) N ALPHA X INCX ∧
    scalvF s N ALPHA X INCX = scalvF (fortSide s) N ALPHA X INCX := by
  refine ⟨?_, ?_, ?_⟩
  · have : (s == 'L') = (simdSide s == 'L') := by
      unfold simdSide; split <;> simp_all
    unfold scalvAVX; rw [this]
  · have : (s == 'R') = (portSide s == 'R') := by
      unfold portSide; split <;> simp_all
    unfold scalvGen; rw [this]
  · have : lsame 'R' s = lsame 'R' (fortSide s) := by
      rw [lsame_isR, lsame_isR]; unfold fortSide; split <;> simp_all
    cases ALPHA <;> simp only [scalvF, hscald, hscalc, hscalh, this]

/-- C51.  SIDE in the three AXPYV. -/
theorem C51_axpyv (s : Char) (N : Int) (ALPHA : Scal F) (X INCX Y INCY : Int) :
    axpyvAVX s N ALPHA X INCX Y INCY = axpyvAVX (simdSide s) N ALPHA X INCX Y INCY ∧
    axpyvGen s N ALPHA X INCX Y INCY = axpyvGen (portSide s) N ALPHA X INCX Y INCY ∧
    axpyvF s N ALPHA X INCX Y INCY = axpyvF (fortSide s) N ALPHA X INCX Y INCY := by
  refine ⟨?_, ?_, ?_⟩
  · have : (s == 'L') = (simdSide s == 'L') := by
      unfold simdSide; split <;> simp_all
    unfold axpyvAVX; rw [this]
  · have : (s == 'R') = (portSide s == 'R') := by
      unfold portSide; split <;> simp_all
    unfold axpyvGen; rw [this]
  · have : lsame 'R' s = lsame 'R' (fortSide s) := by
      rw [lsame_isR, lsame_isR]; unfold fortSide; split <;> simp_all
    cases ALPHA <;> simp only [axpyvF, haxpydh, haxpych, haxpyhh, this]

theorem aPackSel_letter (t : Char) : aPackSel (F := F) t = aPackSel (simdOp t) := by
  funext _ _ _ _ _ _
  by_cases h1 : t = 'T'
  · subst h1; rfl
  by_cases h2 : t = 'C'
  · subst h2; rfl
  by_cases h3 : t = 'R'
  · subst h3; rfl
  have : simdOp t = 'N' := by unfold simdOp; rw [if_neg]; tauto
  rw [this]
  simp only [aPackSel, if_neg h1, if_neg h2, if_neg h3]
  rfl

theorem bPackSel_letter (t : Char) : bPackSel (F := F) t = bPackSel (simdOp t) := by
  funext _ _ _ _ _
  by_cases h1 : t = 'T'
  · subst h1; rfl
  by_cases h2 : t = 'C'
  · subst h2; rfl
  by_cases h3 : t = 'R'
  · subst h3; rfl
  have : simdOp t = 'N' := by unfold simdOp; rw [if_neg]; tauto
  rw [this]
  simp only [bPackSel, if_neg h1, if_neg h2, if_neg h3]
  rfl

theorem isT_letter (t : Char) : (t = 'T' ∨ t = 'C') ↔ (simdOp t = 'T' ∨ simdOp t = 'C') := by
  unfold simdOp; split
  · rfl
  · constructor
    · intro h; exfalso; tauto
    · intro h; exact absurd h (by decide)

/-- C51.  TRANSA and TRANSB in the SIMD GEMM. -/
theorem C51_gemm_simd (blk : Blk) (bAddr aAddr : Int) (junk : Int → F) (tA tB : Char) (M N K : Int)
    (ALPHA : Scal F) (A LDA B LDB : Int) (BETA : Scal F) (C LDC : Int) :
    gemmAVX blk bAddr aAddr junk tA tB M N K ALPHA A LDA B LDB BETA C LDC =
      gemmAVX blk bAddr aAddr junk (simdOp tA) (simdOp tB) M N K ALPHA A LDA B LDB BETA C LDC := by
  have a := aPackSel_letter (F := F) tA
  have b := bPackSel_letter (F := F) tB
  have eA := isT_letter tA
  have eB := isT_letter tB
  have ad : ∀ (c d : Prop) [Decidable c] [Decidable d], (c ↔ d) → ∀ p n LD : Int,
      advance (F := F) c p n LD = advance d p n LD := by
    intro c d _ _ h p n LD; unfold advance; simp only [h]
  unfold gemmAVX gemmJ gemmJStep gemmK gemmKStep gemmI gemmIStep
  simp only [a, b, ad _ _ eA, ad _ _ eB, ad _ _ (not_congr eA), ad _ _ (not_congr eB)]

/-- C51.  TRANSA and TRANSB in the portable and the Fortran GEMM. -/
theorem C51_gemm (k : Kind) (tA tB : Char) (M N K : Int)
    (ALPHA : Scal F) (A LDA B LDB : Int) (BETA : Scal F) (C LDC : Int) :
    gemmGen k tA tB M N K ALPHA A LDA B LDB BETA C LDC =
      gemmGen k (portOp tA) (portOp tB) M N K ALPHA A LDA B LDB BETA C LDC ∧
    hgemmF tA tB M N K ALPHA A LDA B LDB BETA C LDC =
      hgemmF (fortOp tA) (fortOp tB) M N K ALPHA A LDA B LDB BETA C LDC := by
  constructor
  · have n : ∀ t : Char, (t == 'N') = (portOp t == 'N') := by
      intro t; unfold portOp; split
      · rfl
      · rename_i h; rw [beq_eq_false_iff_ne.mpr (fun e => h (Or.inl e))]; decide
    have c : ∀ t : Char, (t == 'C') = (portOp t == 'C') := by
      intro t; unfold portOp; split
      · rfl
      · rename_i h; rw [beq_eq_false_iff_ne.mpr (fun e => h (Or.inr e))]; decide
    unfold gemmGen
    rw [n tA, n tB, c tA, c tB]
  · have n : ∀ t : Char, lsame t 'N' = lsame (fortOp t) 'N' := by
      intro t; rw [lsame_isN', lsame_isN']; unfold fortOp
      split
      · simp_all
      · split <;> simp_all
    have c : ∀ t : Char, lsame t 'C' = lsame (fortOp t) 'C' := by
      intro t; rw [lsame_isC', lsame_isC']; unfold fortOp
      split
      · rename_i h; rcases h with rfl | rfl <;> decide
      · split <;> simp_all
    cases ALPHA <;> cases BETA <;>
      simp only [hgemmF, hgemmdd, hgemmdz, hgemmdh, hgemmzd, hgemmzz, hgemmzh, hgemmhd, hgemmhz, hgemmhh,
        n tA, n tB, c tA, c tB]

/-- C51.  TRANS in the portable and the Fortran GEMV.  (An undocumented letter means `'C'` here and
`'T'` in GEMM.) -/
theorem C51_gemv (k : Kind) (t : Char) (M N : Int) (ALPHA : Scal F) (A LDA X INCX : Int) (BETA : Scal F)
    (Y INCY : Int) :
    gemvGen k t M N ALPHA A LDA X INCX BETA Y INCY =
      gemvGen k (portOpV t) M N ALPHA A LDA X INCX BETA Y INCY ∧
    gemvF t M N ALPHA A LDA X INCX BETA Y INCY = gemvF (fortOpV t) M N ALPHA A LDA X INCX BETA Y INCY := by
  constructor
  · have n : t = 'N' ↔ portOpV t = 'N' := by
      unfold portOpV; split
      · rfl
      · rename_i h; exact ⟨fun e => absurd (Or.inl e) h, fun e => absurd e (by decide)⟩
    have c : (t == 'T') = (portOpV t == 'T') := by
      unfold portOpV; split
      · rfl
      · rename_i h; rw [beq_eq_false_iff_ne.mpr (fun e => h (Or.inr e))]; decide
    unfold gemvGen
    simp only [ne_eq, n, c]
  · have n : lsame t 'N' = lsame (fortOpV t) 'N' := by
      rw [lsame_isN', lsame_isN']; unfold fortOpV
      split
      · simp_all
      · split <;> simp_all
    have c : lsame 'T' t = lsame 'T' (fortOpV t) := by
      rw [lsame_isT, lsame_isT]; unfold fortOpV
      split
      · rename_i h; rcases h with rfl | rfl <;> decide
      · split <;> simp_all
    have n' : lsame 'N' t = lsame 'N' (fortOpV t) := by
      rw [lsame_symm, n, lsame_symm]
    cases ALPHA <;> cases BETA <;>
      simp only [gemvF, hgemvdd, hgemvdd_if89, hgemvdz, hgemvdz_if89, hgemvdh, hgemvdh_if91, hgemvzd, hgemvzd_if90,
        hgemvzz, hgemvzz_if89, hgemvzh, hgemvzh_if91, hgemvhd, hgemvhd_if91, hgemvhz, hgemvhz_if90, hgemvhh,
        hgemvhh_if92, n, c, n']

/-- SCALM and AXPYM take SIDE as their column routine does; TRANSA other than `'N'` is rejected by an
assertion, unless there is nothing to do. -/
theorem C51_scalm (s t : Char) (M N : Int) (ALPHA : Scal F) (A LDA INCA : Int) :
    scalm scalvAVX s t M N ALPHA A LDA INCA = scalm scalvAVX (simdSide s) t M N ALPHA A LDA INCA ∧
    scalm scalvGen s t M N ALPHA A LDA INCA = scalm scalvGen (portSide s) t M N ALPHA A LDA INCA ∧
    scalm scalvF s t M N ALPHA A LDA INCA = scalm scalvF (fortSide s) t M N ALPHA A LDA INCA := by
  unfold scalm
  refine ⟨?_, ?_, ?_⟩
  · simp only [(C51_scalv s _ _ _ _).1]
  · simp only [(C51_scalv s _ _ _ _).2.1]
  · simp only [(C51_scalv s _ _ _ _).2.2]

theorem C51_axpym (s t : Char) (M N : Int) (ALPHA : Scal F) (A LDA INCA B LDB INCB : Int) :
    axpym axpyvAVX s t M N ALPHA A LDA INCA B LDB INCB = axpym axpyvAVX (simdSide s) t M N ALPHA A LDA INCA B LDB INCB ∧
    axpym axpyvGen s t M N ALPHA A LDA INCA B LDB INCB = axpym axpyvGen (portSide s) t M N ALPHA A LDA INCA B LDB INCB ∧
    axpym axpyvF s t M N ALPHA A LDA INCA B LDB INCB = axpym axpyvF (fortSide s) t M N ALPHA A LDA INCA B LDB INCB := by
  unfold axpym
  refine ⟨?_, ?_, ?_⟩
  · simp only [(C51_axpyv s _ _ _ _ _ _).1]
  · simp only [(C51_axpyv s _ _ _ _ _ _).2.1]
  · simp only [(C51_axpyv s _ _ _ _ _ _).2.2]

/-- C51.  SCALM and AXPYM with a TRANSA other than `'N'` and something to do: the assertion fails, for
every column routine, and memory is not touched. -/
theorem C51_transa (SCALV : Char → Int → Scal F → Int → Int → Prog F Unit)
    (AXPYV : Char → Int → Scal F → Int → Int → Int → Int → Prog F Unit) (s t : Char) (ht : t ≠ 'N')
    (M N : Int) (ALPHA : Scal F) (A LDA INCA B LDB INCB : Int) (hM : 0 < M) (hN : 0 < N) (m : Mem F) :
    (0 < INCA → scalm SCALV s t M N ALPHA A LDA INCA m = .error .assertFail) ∧
    (ALPHA.eqZero = false → axpym AXPYV s t M N ALPHA A LDA INCA B LDB INCB m = .error .assertFail) := by
  have e : (t == 'N') = false := beq_eq_false_iff_ne.mpr ht
  constructor
  · intro h
    unfold scalm
    rw [if_neg (by omega), e]
    rfl
  · intro h
    unfold axpym
    rw [if_neg (by omega), h, e]
    rfl

end letters

/-! ## The builds agree exactly on the documented letters -/

/-- On every call of SCALV with SIDE = `s` the three builds do the same. -/
def SideAgree (s : Char) : Prop :=
  ∀ (m : Mem Int) (N X INCX : Int) (ALPHA : Scal Int) (x : Nat → Quat Int), ALPHA.toH ≠ 0 → 0 < INCX →
    Fits32 (N * INCX) → VecAt m X INCX N.toNat x →
    ∃ m', scalvAVX s N ALPHA X INCX m = .ok ((), m') ∧ scalvGen s N ALPHA X INCX m = .ok ((), m') ∧
      scalvF s N ALPHA X INCX m = .ok ((), m')

/-- C51.  The builds agree on SIDE exactly for the documented letters. -/
theorem C51_side_iff (s : Char) : SideAgree s ↔ s = 'L' ∨ s = 'R' := by
  constructor
  · intro h
    by_contra hs
    have hs : s ≠ 'L' ∧ s ≠ 'R' := by tauto
    have hX : VecAt (memOf 0 4 (fun a => a + 1)) 0 1 (1:Int).toNat (fun i => ⟨4 * (i * 1) + 1, 4 * (i * 1) + 1 + 1, 4 * (i * 1) + 2 + 1, 4 * (i * 1) + 3 + 1⟩) := by
      intro i hi; have : i < 1 := hi
      rw [readQ_memOf (by omega) (by omega)]; simp
    obtain ⟨m', h1, h2, _⟩ := h (memOf 0 4 (fun a => a + 1)) 1 0 1 (.h ⟨0, 1, 0, 0⟩) _ (by
      intro e; have := congrArg (fun q => q.imI) e; simp [Scal.toH] at this) (by omega) (by unfold Fits32; omega) hX
    have e1 : simdSide s = 'R' := by unfold simdSide; rw [if_neg hs.1]
    have e2 : portSide s = 'L' := by unfold portSide; rw [if_neg hs.2]
    rw [(C51_scalv _ _ _ _ _).1, e1] at h1
    rw [(C51_scalv _ _ _ _ _).2.1, e2] at h2
    have : (scalvAVX 'R' 1 (.h ⟨0, 1, 0, 0⟩) 0 1 (memOf 0 4 (fun a => a + 1))).map (fun r => readQ r.2 0)
        = (scalvGen 'L' 1 (.h ⟨0, 1, 0, 0⟩) 0 1 (memOf 0 4 (fun a => a + 1))).map (fun r => readQ r.2 0) := by
      rw [h1, h2]
    exact absurd this (by decide)
  · intro hs m N X INCX ALPHA x hz hx fx hX
    obtain ⟨m', h1, h2, h3, _⟩ := C18_scalv m s N X INCX ALPHA x hs hz hx fx hX
    exact ⟨m', h1, h2, h3⟩

/-- On every call of GEMM with flags `tA`, `tB` and square matrices the three builds do the same.
(Square, so that the storage the matrices need does not depend on what the flags mean.) -/
def OpAgree (tA tB : Char) : Prop :=
  ∀ (m : Mem Int) (blk : Blk) (bAddr aAddr : Int) (junk : Int → Int) (n : Nat) (ALPHA BETA : Scal Int)
    (A LDA B LDB C LDC : Int) (Av Bv Cv : Nat → Nat → Quat Int),
    GemmPre m blk bAddr aAddr tA tB n n n A LDA Av B LDB Bv C LDC Cv →
    (∀ l : Nat, l < n → Fits32 (l * LDA) ∧ Fits32 (l * LDB) ∧ Fits32 (l * LDC)) → ALPHA.Plain → BETA.Plain →
    ∃ m', gemmAVX blk bAddr aAddr junk tA tB n n n ALPHA A LDA B LDB BETA C LDC m = .ok ((), m') ∧
      hgemmF tA tB n n n ALPHA A LDA B LDB BETA C LDC m = .ok ((), m') ∧
      gemmGen .h tA tB n n n ALPHA A LDA B LDB BETA C LDC m = .ok ((), m')

/-- Three 2×2 matrices, one after the other, with contents `f`: a call for any flags. -/
theorem squarePre (f : Int → Int) (tA tB : Char) :
    GemmPre (memOf 0 48 f) ⟨64, 512, 64⟩ 1000 200000 tA tB 2 2 2
      0 2 (fun i j => let p : Int := 0 + 4 * (i + j * 2); ⟨f p, f (p+1), f (p+2), f (p+3)⟩)
      16 2 (fun i j => let p : Int := 16 + 4 * (i + j * 2); ⟨f p, f (p+1), f (p+2), f (p+3)⟩)
      32 2 (fun i j => let p : Int := 32 + 4 * (i + j * 2); ⟨f p, f (p+1), f (p+2), f (p+3)⟩) where
  mc_pos := by decide
  nc_pos := by decide
  kc_pos := by decide
  mc_even := by decide
  nc_even := by decide
  matA := by
    rw [ite_self]
    intro i j hi hj
    exact readQ_memOf (by omega) (by omega)
  matB := by
    rw [ite_self]
    intro i j hi hj
    exact readQ_memOf (by omega) (by omega)
  matC := by
    intro i j hi hj
    exact readQ_memOf (by omega) (by omega)
  lda := by decide
  ldb := by decide
  ldc := by decide
  apartA := by
    rw [ite_self]
    rintro a ⟨i, j, hi, hj, h⟩ ⟨i', j', hi', hj', h'⟩
    unfold InQ at *; omega
  apartB := by
    rw [ite_self]
    rintro a ⟨i, j, hi, hj, h⟩ ⟨i', j', hi', hj', h'⟩
    unfold InQ at *; omega
  alignB := by decide
  alignA := by decide
  freshB := by
    intro a ha
    unfold InBuf at ha; unfold memOf
    rw [if_neg (by omega)]
  freshA := by
    intro a ha
    unfold InBuf at ha; unfold memOf
    rw [if_neg (by omega)]
  freshAB := by
    intro a ha hb
    have e : fixMod (64 * 512) 32 = 32768 := by decide
    unfold InBuf at *
    dsimp only at *
    rw [e] at ha
    omega
  kc32 := by unfold Fits32; decide
  m32 := by unfold Fits32; decide
  n32 := by unfold Fits32; decide
  k32 := by unfold Fits32; decide
  ldc32 := by unfold Fits32; decide
  ldcN32 := by unfold Fits32; decide
  ldbN32 := by unfold Fits32; decide
  ldbK32 := by unfold Fits32; decide
  ldaM32 := by unfold Fits32; decide
  ldaK32 := by unfold Fits32; decide

/-- If the builds agree on the flags `tA`, `tB`, then the letters the SIMD build takes them for and those the
portable build takes them for give the same product of any two 2×2 matrices. -/
theorem OpAgree.apart {tA tB : Char} (h : OpAgree tA tB) (f : Int → Int) :
    let a : Nat → Nat → Quat Int := fun i j => let p : Int := 0 + 4 * (i + j * 2); ⟨f p, f (p+1), f (p+2), f (p+3)⟩
    let b : Nat → Nat → Quat Int := fun i j => let p : Int := 16 + 4 * (i + j * 2); ⟨f p, f (p+1), f (p+2), f (p+3)⟩
    ∑ k ∈ range 2, opSpec (simdOp tA) a 0 k * opSpec (simdOp tB) b k 1 =
      ∑ k ∈ range 2, opSpec (portOp tA) a 0 k * opSpec (portOp tB) b k 1 := by
  intro a b
  have fits : ∀ l : Nat, l < 2 → Fits32 (l * 2) := fun l hl => by unfold Fits32; omega
  obtain ⟨m', h1, _, h3⟩ := h (memOf 0 48 f) ⟨64, 512, 64⟩ 1000 200000 (fun _ => 0) 2 (.d 1) (.d 0) _ _ _ _ _ _ _ _ _
    (squarePre f tA tB) (fun l hl => ⟨fits l hl, fits l hl, fits l hl⟩) (Scal.plain_d _) (Scal.plain_d _)
  rw [C51_gemm_simd] at h1
  rw [(C51_gemm _ _ _ _ _ _ _ _ _ _ _ _ _ _).1] at h3
  obtain ⟨m1, e1, v1⟩ := C22_gemm (memOf 0 48 f) ⟨64, 512, 64⟩ 1000 200000 (fun _ => 0) (simdOp tA) (simdOp tB) (2:Nat) (2:Nat) (2:Nat)
    (.d 1) (.d 0) _ _ _ _ _ _ _ _ _ (squarePre f (simdOp tA) (simdOp tB))
  have q := squarePre f (portOp tA) (portOp tB)
  have qA := q.matA
  have qB := q.matB
  have aA := q.apartA
  have aB := q.apartB
  rw [ite_self] at qA qB aA aB
  have kop : ∀ (t : Char) (X : Nat → Nat → Quat Int), KOpIs (portOp t) (fun i j => .h (X i j)) (opSpec (portOp t) X) ∧
      QOpIs (portOp t) X (opSpec (portOp t) X) := by
    intro t X
    have : portOp t = 'N' ∨ portOp t = 'T' ∨ portOp t = 'C' := by
      unfold portOp; split
      · tauto
      · exact Or.inr (Or.inl rfl)
    rcases this with e | e | e <;> rw [e]
    · exact ⟨Or.inl ⟨rfl, fun _ _ => rfl⟩, Or.inl ⟨rfl, fun _ _ => rfl⟩⟩
    · exact ⟨Or.inr (Or.inl ⟨rfl, fun _ _ => rfl⟩), Or.inr (Or.inl ⟨rfl, fun _ _ => rfl⟩)⟩
    · exact ⟨Or.inr (Or.inr ⟨rfl, fun _ _ => rfl⟩), Or.inr (Or.inr ⟨rfl, fun _ _ => rfl⟩)⟩
  obtain ⟨m2, e2, v2, _⟩ := C29_gemm_portable (memOf 0 48 f) .h (portOp tA) (portOp tB) (2:Nat) (2:Nat) (2:Nat) (.d 1) (.d 0)
    0 2 16 2 32 2 (fun i j => .h (a i j)) b _ _ _ (kop tA a).1 (kop tB b).2
    { hA := fun _ => by
        intro i j hi hj
        simp only [Int.toNat_natCast, ite_self] at hi hj
        have := qA i j hi hj
        simp only [readK, Kind.width]
        rw [this]
      hB := fun _ => by simp only [Int.toNat_natCast, ite_self]; exact qB
      hC := q.matC
      hld := by decide
      fitA := fun l hl => fits l (by simpa using hl)
      fitB := fun l hl => fits l (by simpa using hl)
      fitC := fun l hl => fits l hl
      hAC := by
        simp only [Int.toNat_natCast, ite_self]
        rintro c ⟨i, j, hi, hj, q1, q2⟩
        exact aA c ⟨i, j, hi, hj, q1, q2⟩
      hBC := by simp only [Int.toNat_natCast, ite_self]; exact aB } (Scal.plain_d _) (Scal.plain_d _)
  have := e1.symm.trans h1
  cases this
  have := e2.symm.trans h3
  cases this
  have := (v1 0 1 (by decide) (by decide)).symm.trans (v2 0 1 (by decide) (by decide))
  simp only [Option.some.injEq] at this
  have : (Scal.d (1:Int)).toH * ∑ k ∈ range 2, opSpec (simdOp tA) a 0 k * opSpec (simdOp tB) b k 1 + (Scal.d (0:Int)).toH * _ =
      (Scal.d (1:Int)).toH * ∑ k ∈ range 2, opSpec (portOp tA) a 0 k * opSpec (portOp tB) b k 1 + (Scal.d (0:Int)).toH * _ :=
    congrArg Quat.toH this
  have e0 : (Scal.d (0:Int)).toH = 0 := by simp [Scal.toH]
  have e1 : (Scal.d (1:Int)).toH = 1 := by simp [Scal.toH]
  simp only [e0, e1, zero_mul, one_mul, add_zero] at this
  exact this

theorem opSpec_sym {t : Char} {X : Nat → Nat → Quat Int} {i k : Nat} {c : ℍ[ℤ]} (h1 : (X i k).toH = c)
    (h2 : (X k i).toH = c) (hs : star c = c) : opSpec t X i k = c := by
  unfold opSpec
  split
  · exact h2
  · split
    · rw [h2, hs]
    · split
      · rw [h1, hs]
      · exact h1

/-- C51.  The builds agree on TRANSA and TRANSB exactly for the documented letters. -/
theorem C51_op_iff (tA tB : Char) :
    OpAgree tA tB ↔ (tA = 'N' ∨ tA = 'T' ∨ tA = 'C') ∧ (tB = 'N' ∨ tB = 'T' ∨ tB = 'C') := by
  constructor
  · intro h
    have kinds : ∀ t : Char, (t = 'N' ∨ t = 'T' ∨ t = 'C') ∨
        ((simdOp t = 'N' ∨ simdOp t = 'R') ∧ portOp t = 'T') := by
      intro t
      by_cases e : t = 'N' ∨ t = 'T' ∨ t = 'C'
      · exact Or.inl e
      · refine Or.inr ⟨?_, ?_⟩
        · unfold simdOp; split
          · right; tauto
          · exact Or.inl rfl
        · unfold portOp; rw [if_neg (by tauto)]
    have h1 : (⟨1, 0, 0, 0⟩ : Quat Int).toH = 1 := by ext <;> simp
    have h0 : (⟨0, 0, 0, 0⟩ : Quat Int).toH = 0 := by ext <;> simp
    have d10 : (1 : ℍ[ℤ]) ≠ 0 := fun e => by
      have := congrArg QuaternionAlgebra.re e
      simp at this
    constructor
    · refine (kinds tA).resolve_right ?_
      rintro ⟨e1, e2⟩
      have q := h.apart (fun p => if p = 8 ∨ p = 16 ∨ p = 28 then 1 else 0)
      dsimp only at q
      rw [Finset.sum_range_succ, Finset.sum_range_succ, Finset.sum_range_succ, Finset.sum_range_succ,
        opSpec_sym (t := simdOp tB) (i := 0) (k := 1) h0 h0 (star_zero _),
        opSpec_sym (t := simdOp tB) (i := 1) (k := 1) h1 h1 (star_one _),
        opSpec_sym (t := portOp tB) (i := 0) (k := 1) h0 h0 (star_zero _),
        opSpec_sym (t := portOp tB) (i := 1) (k := 1) h1 h1 (star_one _), e2] at q
      simp only [Finset.range_zero, Finset.sum_empty, mul_zero, mul_one, zero_add] at q
      refine d10 (Eq.trans (Eq.symm ?_) (Eq.trans q ?_))
      rotate_left
      · exact h0
      rcases e1 with e | e <;> rw [e]
      · exact h1
      · exact (congrArg star h1).trans (star_one _)
    · refine (kinds tB).resolve_right ?_
      rintro ⟨e1, e2⟩
      have q := h.apart (fun p => if p = 0 ∨ p = 12 ∨ p = 24 then 1 else 0)
      dsimp only at q
      rw [Finset.sum_range_succ, Finset.sum_range_succ, Finset.sum_range_succ, Finset.sum_range_succ,
        opSpec_sym (t := simdOp tA) (i := 0) (k := 0) h1 h1 (star_one _),
        opSpec_sym (t := simdOp tA) (i := 0) (k := 1) h0 h0 (star_zero _),
        opSpec_sym (t := portOp tA) (i := 0) (k := 0) h1 h1 (star_one _),
        opSpec_sym (t := portOp tA) (i := 0) (k := 1) h0 h0 (star_zero _), e2] at q
      simp only [Finset.range_zero, Finset.sum_empty, zero_mul, one_mul, zero_add, add_zero] at q
      refine d10 (Eq.trans (Eq.symm ?_) (Eq.trans q ?_))
      rotate_left
      · exact h0
      rcases e1 with e | e <;> rw [e]
      · exact h1
      · exact (congrArg star h1).trans (star_one _)
  · rintro ⟨hA, hB⟩ m blk bAddr aAddr junk n ALPHA BETA A LDA B LDB C LDC Av Bv Cv hp hf ha hb
    exact C43_gemm m blk bAddr aAddr junk tA tB hA hB n n n ALPHA BETA A LDA B LDB C LDC Av Bv Cv
      (by simpa using hp) (fun l hl => (hf l (by simpa using hl)).1) (fun l hl => (hf l (by simpa using hl)).2.1)
      (fun l hl => (hf l (by simpa using hl)).2.2) ha hb

/-- C51.  Case: the Fortran routines ignore it. -/
theorem C51_case_fortran {F : Type} [Arith F] [ArithEq F] (N : Int) (ALPHA BETA : Scal F) (X INCX Y INCY : Int)
    (M K A LDA B LDB C LDC : Int) (u t : Char) (hu : (u, t) ∈ [('L', 'l'), ('R', 'r')]) (a a' b b' : Char)
    (ha : (a, a') ∈ [('N', 'n'), ('T', 't'), ('C', 'c')]) (hb : (b, b') ∈ [('N', 'n'), ('T', 't'), ('C', 'c')]) :
    scalvF t N ALPHA X INCX = scalvF u N ALPHA X INCX ∧
    axpyvF t N ALPHA X INCX Y INCY = axpyvF u N ALPHA X INCX Y INCY ∧
    gemvF a' M N ALPHA A LDA X INCX BETA Y INCY = gemvF a M N ALPHA A LDA X INCX BETA Y INCY ∧
    hgemmF a' b' M N K ALPHA A LDA B LDB BETA C LDC = hgemmF a b M N K ALPHA A LDA B LDB BETA C LDC := by
  have su : fortSide t = fortSide u := by
    simp only [List.mem_cons, Prod.mk.injEq, List.not_mem_nil, or_false] at hu
    rcases hu with ⟨rfl, rfl⟩ | ⟨rfl, rfl⟩ <;> decide
  have op : ∀ x y : Char, (x, y) ∈ [('N', 'n'), ('T', 't'), ('C', 'c')] → fortOp y = fortOp x ∧ fortOpV y = fortOpV x := by
    intro x y h
    simp only [List.mem_cons, Prod.mk.injEq, List.not_mem_nil, or_false] at h
    rcases h with ⟨rfl, rfl⟩ | ⟨rfl, rfl⟩ | ⟨rfl, rfl⟩ <;> decide
  refine ⟨?_, ?_, ?_, ?_⟩
  · rw [(C51_scalv t _ _ _ _).2.2, (C51_scalv u _ _ _ _).2.2, su]
  · rw [(C51_axpyv t _ _ _ _ _ _).2.2, (C51_axpyv u _ _ _ _ _ _).2.2, su]
  · rw [(C51_gemv .h a' _ _ _ _ _ _ _ _ _ _).2, (C51_gemv .h a _ _ _ _ _ _ _ _ _ _).2, (op a a' ha).2]
  · rw [(C51_gemm .h a' b' _ _ _ _ _ _ _ _ _ _ _).2, (C51_gemm .h a b _ _ _ _ _ _ _ _ _ _ _).2, (op a a' ha).1, (op b b' hb).1]

/-- C51.  Case: a lower-case letter does not mean the same in all builds, and the SIMD letter `'R'`
(conjugate) means transpose elsewhere. -/
theorem C51_case_matters : ¬ SideAgree 'l' ∧ ¬ SideAgree 'r' ∧ ¬ OpAgree 'n' 'N' ∧ ¬ OpAgree 't' 'N' ∧
    ¬ OpAgree 'N' 'c' ∧ ¬ OpAgree 'R' 'N' := by
  simp only [C51_side_iff, C51_op_iff]
  decide

/-- Non-vacuity: the calls `OpAgree` ranges over exist for all flags. -/
example (tA tB : Char) : ∃ (m : Mem Int) (blk : Blk) (bAddr aAddr : Int) (A B C : Int) (Av Bv Cv : Nat → Nat → Quat Int),
    GemmPre m blk bAddr aAddr tA tB 2 2 2 A 2 Av B 2 Bv C 2 Cv ∧ (∀ l : Nat, l < 2 → Fits32 (l * 2)) :=
  ⟨_, _, _, _, _, _, _, _, _, _, squarePre id tA tB, fun l hl => by unfold Fits32; omega⟩

end Haxx
