import Verif.Hblas1Proofs

/-!
# HBLAS level-1 matrix templates `HBLAS_SCALM`, `HBLAS_AXPYM`

Both are header templates that call the vector routine selected by overload resolution, which is a
parameter here (`scalvAVX`/`axpyvAVX` in the AVX build).
-/

namespace Haxx
open Arith

variable {F : Type} [Arith F]

/-- `ALPHA == _AlphaF(0.)` for the three scalar types (the quaternion case is `operator==` of
`haxx_quaternion_op.hpp:157-162`). -/
def Scal.eqZero [ArithEq F] : Scal F → Bool
  | .d a => a ==ᶠ zero
  | .z a => (a.re ==ᶠ zero) && (a.im ==ᶠ zero)
  | .h a => Quat.eqOp a (Quat.mkReal zero)

/-- `HBLAS_SCALM` — `include/hblas/generic/hblas1/hblas_scalm_impl.hpp:25-43`. -/
def scalm (SCALV : Char → Int → Scal F → Int → Int → Prog F Unit)
    (SIDE TRANSA : Char) (M N : Int) (ALPHA : Scal F) (A LDA INCA : Int) : Prog F Unit :=
  if N ≤ 0 ∨ M ≤ 0 ∨ INCA ≤ 0 then pure ()
  else do
    assertP (TRANSA == 'N')
    let _ ← foldN N.toNat (fun _ locA => do
      SCALV SIDE M ALPHA locA INCA
      pure (locA + 4 * LDA)) A

/-- `HBLAS_AXPYM` — `include/hblas/generic/hblas1/hblas_axpym_impl.hpp:20-45`. -/
def axpym [ArithEq F] (AXPYV : Char → Int → Scal F → Int → Int → Int → Int → Prog F Unit)
    (SIDE TRANSA : Char) (M N : Int) (ALPHA : Scal F) (A LDA INCA B LDB INCB : Int) : Prog F Unit :=
  if N ≤ 0 ∨ M ≤ 0 then pure ()
  else if ALPHA.eqZero then pure ()
  else do
    assertP (TRANSA == 'N')
    let _ ← foldN N.toNat (fun _ (loc : Int × Int) => do
      AXPYV SIDE M ALPHA loc.1 INCA loc.2 INCB
      pure (loc.1 + 4 * LDA, loc.2 + 4 * LDB)) (A, B)

/-- `A i j` is stored at `p + i*inc + j*ld`. -/
def SMatAt (m : Mem F) (p inc ld : Int) (r c : Nat) (A : Nat → Nat → Quat F) : Prop :=
  ∀ i j, i < r → j < c → readQ m (p + 4 * (i * inc + j * ld)) = some (A i j)

/-- Cell of the strided block. -/
def SMatCell (p inc ld : Int) (r c : Nat) (a : Int) : Prop :=
  ∃ i j, i < r ∧ j < c ∧ InQ (p + 4 * (i * inc + j * ld)) a

/-- The `r` elements of a column (stride `inc`) fit in `ld`. -/
def ColFits (inc ld : Int) (r : Nat) : Prop := 0 < inc ∧ ((r:Int) - 1) * inc + 1 ≤ ld

section
omit [Arith F]

theorem smat_one {m : Mem F} {p ld : Int} {r c : Nat} {A : Nat → Nat → Quat F} :
    SMatAt m p 1 ld r c A ↔ MatAt m p ld r c A := by
  simp [SMatAt, MatAt]

theorem smatCell_one {p ld : Int} {r c : Nat} {a : Int} :
    SMatCell p 1 ld r c a ↔ MatCell p ld r c a := by
  simp [SMatCell, MatCell]

theorem smat_col {m : Mem F} {p inc ld : Int} {r c : Nat} {A : Nat → Nat → Quat F} :
    SMatAt m p inc ld r c A ↔
      ∀ j, j < c → VecAt m (p + 4 * ((j:Int) * ld)) inc r (fun i => A i j) := by
  constructor
  · intro h j hj i hi
    have := h i j hi hj
    rw [← this]; congr 1; ring
  · intro h i j hi hj
    have := h j hj i hi
    simp only at this
    rw [← this]; congr 1; ring

theorem smatCell_col {p inc ld : Int} {r c : Nat} {a : Int} :
    SMatCell p inc ld r c a ↔ ∃ j, j < c ∧ VecCell (p + 4 * ((j:Int) * ld)) inc r a := by
  constructor
  · rintro ⟨i, j, hi, hj, h⟩
    refine ⟨j, hj, i, hi, ?_⟩
    convert h using 1; ring
  · rintro ⟨j, hj, i, hi, h⟩
    refine ⟨i, j, hi, hj, ?_⟩
    convert h using 1; ring

theorem col_disj {p inc ld : Int} {r : Nat} (hf : ColFits inc ld r) {j j' : Nat}
    (hj : j ≠ j') {a : Int} (h : VecCell (p + 4 * ((j:Int) * ld)) inc r a) :
    ¬ VecCell (p + 4 * ((j':Int) * ld)) inc r a := by
  obtain ⟨h1, h2⟩ := hf
  rintro ⟨i', hi', h'⟩
  obtain ⟨i, hi, h⟩ := h
  unfold InQ at h h'
  have e1 : (i:Int) * inc ≤ ((r:Int) - 1) * inc := mul_le_mul_of_nonneg_right (by omega) (by omega)
  have e2 : (i':Int) * inc ≤ ((r:Int) - 1) * inc := mul_le_mul_of_nonneg_right (by omega) (by omega)
  have e3 : 0 ≤ (i:Int) * inc := mul_nonneg (by omega) (by omega)
  have e4 : 0 ≤ (i':Int) * inc := mul_nonneg (by omega) (by omega)
  have hr : (0:Int) ≤ ((r:Int) - 1) * inc := mul_nonneg (by omega) (by omega)
  have hld : (0:Int) ≤ ld := by omega
  rcases Nat.lt_or_gt_of_ne hj with h3 | h3
  · have : ((j:Int) + 1) * ld ≤ j' * ld := mul_le_mul_of_nonneg_right (by omega) hld
    have e5 : ((j:Int) + 1) * ld = j * ld + ld := by ring
    omega
  · have : ((j':Int) + 1) * ld ≤ j * ld := mul_le_mul_of_nonneg_right (by omega) hld
    have e5 : ((j':Int) + 1) * ld = j' * ld + ld := by ring
    omega

theorem vecAt_congr {m m' : Mem F} {p inc : Int} {n : Nat} {v : Nat → Quat F}
    (h : ∀ a, VecCell p inc n a → m a = m' a) (hv : VecAt m p inc n v) : VecAt m' p inc n v := by
  intro i hi
  rw [← hv i hi]
  exact (readQ_congr (fun a ha => h a ⟨i, hi, ha⟩)).symm

end

theorem scalm_wp {SCALV : Char → Int → Scal F → Int → Int → Prog F Unit}
    {SIDE : Char} {M N : Int} {ALPHA : Scal F} {A LDA INCA : Int} {m0 : Mem F}
    {Av : Nat → Nat → Quat F} {f : Quat F → Quat F}
    (hS : ∀ (m : Mem F) (X : Int) (x : Nat → Quat F), VecAt m X INCA M.toNat x →
      wp (SCALV SIDE M ALPHA X INCA) m (fun _ m' => VecAt m' X INCA M.toNat (fun i => f (x i)) ∧
        SameOutside (VecCell X INCA M.toNat) m m'))
    (hA : SMatAt m0 A INCA LDA M.toNat N.toNat Av) (hinc : 0 < INCA)
    (hfit : ColFits INCA LDA M.toNat) :
    wp (scalm SCALV SIDE 'N' M N ALPHA A LDA INCA) m0 (fun _ m =>
      SMatAt m A INCA LDA M.toNat N.toNat (fun i j => f (Av i j)) ∧
      SameOutside (SMatCell A INCA LDA M.toNat N.toNat) m0 m) := by
  unfold scalm
  by_cases hg : N ≤ 0 ∨ M ≤ 0 ∨ INCA ≤ 0
  · rw [if_pos hg, wp_pure]
    refine ⟨?_, fun a _ => rfl⟩
    intro i j hi hj; omega
  · rw [if_neg hg, wp_bind, wp_assert (by decide), wp_bind]
    simp only [wp_pure]
    rw [smat_col] at hA
    have key := wp_region (n := N.toNat) (m0 := m0)
      (f := fun (_ : Nat) locA => (do
        SCALV SIDE M ALPHA locA INCA
        pure (locA + 4 * LDA) : Prog F Int))
      (fun j => A + 4 * ((j:Int) * LDA))
      (fun j a => VecCell (A + 4 * ((j:Int) * LDA)) INCA M.toNat a)
      (fun j m => VecAt m (A + 4 * ((j:Int) * LDA)) INCA M.toNat (fun i => f (Av i j)))
      (Q := fun _ m => SMatAt m A INCA LDA M.toNat N.toNat (fun i j => f (Av i j)) ∧
        SameOutside (SMatCell A INCA LDA M.toNat N.toNat) m0 m) ?_ ?_ ?_ ?_
    · simp only [← vec_zero] at key; exact key
    · intro i j a _ _ hij h; exact col_disj hfit hij h
    · intro i m m' _ h hv; exact vecAt_congr h hv
    · intro j m hj hF
      rw [wp_bind]
      have hcol : VecAt m (A + 4 * ((j:Int) * LDA)) INCA M.toNat (fun i => Av i j) := by
        refine vecAt_congr ?_ (hA j hj)
        intro a ha
        exact (hF a (fun k hk => col_disj hfit (by omega) ha)).symm
      refine wp_mono (hS m _ _ hcol) ?_
      rintro _ m' ⟨h1, h2⟩
      rw [wp_pure]
      exact ⟨vec_step _ _ _, h1, h2⟩
    · intro m h1 h2
      refine ⟨smat_col.mpr h1, ?_⟩
      intro a ha
      exact h2 a (fun k hk hc => ha (smatCell_col.mpr ⟨k, hk, hc⟩))

theorem axpym_wp [ArithEq F] {AXPYV : Char → Int → Scal F → Int → Int → Int → Int → Prog F Unit}
    {SIDE : Char} {M N : Int} {ALPHA : Scal F} {A LDA INCA B LDB INCB : Int} {m0 : Mem F}
    {Av Bv : Nat → Nat → Quat F} {g : Quat F → Quat F → Quat F}
    (hS : ∀ (m : Mem F) (X Y : Int) (x y : Nat → Quat F), VecAt m X INCA M.toNat x →
      VecAt m Y INCB M.toNat y → Apart (VecCell X INCA M.toNat) (VecCell Y INCB M.toNat) →
      wp (AXPYV SIDE M ALPHA X INCA Y INCB) m (fun _ m' =>
        VecAt m' Y INCB M.toNat (fun i => g (x i) (y i)) ∧
        SameOutside (VecCell Y INCB M.toNat) m m'))
    (hz : ALPHA.eqZero = false)
    (hA : SMatAt m0 A INCA LDA M.toNat N.toNat Av) (hB : SMatAt m0 B INCB LDB M.toNat N.toNat Bv)
    (hfit : ColFits INCB LDB M.toNat)
    (hdis : Apart (SMatCell A INCA LDA M.toNat N.toNat) (SMatCell B INCB LDB M.toNat N.toNat)) :
    wp (axpym AXPYV SIDE 'N' M N ALPHA A LDA INCA B LDB INCB) m0 (fun _ m =>
      SMatAt m B INCB LDB M.toNat N.toNat (fun i j => g (Av i j) (Bv i j)) ∧
      SameOutside (SMatCell B INCB LDB M.toNat N.toNat) m0 m) := by
  unfold axpym
  by_cases hg : N ≤ 0 ∨ M ≤ 0
  · rw [if_pos hg, wp_pure]
    refine ⟨?_, fun a _ => rfl⟩
    intro i j hi hj; omega
  · rw [if_neg hg, if_neg (by simp [hz]), wp_bind, wp_assert (by decide), wp_bind]
    simp only [wp_pure]
    rw [smat_col] at hA hB
    have key := wp_region (n := N.toNat) (m0 := m0)
      (f := fun (_ : Nat) (loc : Int × Int) => (do
        AXPYV SIDE M ALPHA loc.1 INCA loc.2 INCB
        pure (loc.1 + 4 * LDA, loc.2 + 4 * LDB) : Prog F (Int × Int)))
      (fun j => (A + 4 * ((j:Int) * LDA), B + 4 * ((j:Int) * LDB)))
      (fun j a => VecCell (B + 4 * ((j:Int) * LDB)) INCB M.toNat a)
      (fun j m => VecAt m (B + 4 * ((j:Int) * LDB)) INCB M.toNat (fun i => g (Av i j) (Bv i j)))
      (Q := fun _ m => SMatAt m B INCB LDB M.toNat N.toNat (fun i j => g (Av i j) (Bv i j)) ∧
        SameOutside (SMatCell B INCB LDB M.toNat N.toNat) m0 m) ?_ ?_ ?_ ?_
    · simp only [← vec_zero] at key; exact key
    · intro i j a _ _ hij h; exact col_disj hfit hij h
    · intro i m m' _ h hv; exact vecAt_congr h hv
    · intro j m hj hF
      rw [wp_bind]
      have hcolB : VecAt m (B + 4 * ((j:Int) * LDB)) INCB M.toNat (fun i => Bv i j) := by
        refine vecAt_congr ?_ (hB j hj)
        intro a ha
        exact (hF a (fun k hk => col_disj hfit (by omega) ha)).symm
      have hcolA : VecAt m (A + 4 * ((j:Int) * LDA)) INCA M.toNat (fun i => Av i j) := by
        refine vecAt_congr ?_ (hA j hj)
        intro a ha
        exact (hF a (fun k hk hc => hdis a (smatCell_col.mpr ⟨j, hj, ha⟩)
          (smatCell_col.mpr ⟨k, by omega, hc⟩))).symm
      refine wp_mono (hS m _ _ _ _ hcolA hcolB ?_) ?_
      · intro a ha hc
        exact hdis a (smatCell_col.mpr ⟨j, hj, ha⟩) (smatCell_col.mpr ⟨j, hj, hc⟩)
      rintro _ m' ⟨h1, h2⟩
      rw [wp_pure]
      exact ⟨by simp only [vec_step], h1, h2⟩
    · intro m h1 h2
      refine ⟨smat_col.mpr h1, ?_⟩
      intro a ha
      exact h2 a (fun k hk hc => ha (smatCell_col.mpr ⟨k, hk, hc⟩))

end Haxx
