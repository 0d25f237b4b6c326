import Verif.PropsGemm
import Verif.PropsGemmF
import Verif.PropsGeneric
import Verif.PropsGeneric2
import Verif.PropsHblas1
import Verif.PropsHblas1G
import Verif.PropsGemv
import Verif.PropsGer

/-!
# C43, C44: the builds agree with each other, the routines agree with each other
-/

set_option linter.unusedSectionVars false

namespace Haxx
open Arith Quaternion Finset

theorem mem_ext_mat {F : Type} {m m1 m2 : Mem F} {C LDC : Int} {r c : Nat} {V : Nat → Nat → Quat F}
    (h1 : MatAt m1 C LDC r c V) (h2 : MatAt m2 C LDC r c V) (s1 : SameOutside (MatCell C LDC r c) m m1)
    (s2 : SameOutside (MatCell C LDC r c) m m2) : m1 = m2 := by
  funext a
  by_cases hc : MatCell C LDC r c a
  · obtain ⟨i, j, hi, hj, ha⟩ := hc
    exact mem_eq_of_readQ (h1 i j hi hj) (h2 i j hi hj) ha
  · rw [s1 a hc, s2 a hc]

section exact
variable {R : Type} [CommRing R] [DecidableEq R]

/-- C43, GEMM.  For the documented flags `'N'`, `'T'`, `'C'`, the SIMD, the Fortran and the portable
GEMM leave the same memory. -/
theorem C43_gemm (m : Mem R) (blk : Blk) (bAddr aAddr : Int) (junk : Int → R) (tA tB : Char)
    (htA : tA = 'N' ∨ tA = 'T' ∨ tA = 'C') (htB : tB = 'N' ∨ tB = 'T' ∨ tB = 'C')
    (M N K : Int) (ALPHA BETA : Scal R) (A LDA B LDB C LDC : Int) (Av Bv Cv : Nat → Nat → Quat R)
    (h : GemmPre m blk bAddr aAddr tA tB M.toNat N.toNat K.toNat A LDA Av B LDB Bv C LDC Cv)
    (hA32 : ∀ l : Nat, l < (if tA = 'N' then K.toNat else M.toNat) → Fits32 (l * LDA))
    (hB32 : ∀ l : Nat, l < (if tB = 'N' then N.toNat else K.toNat) → Fits32 (l * LDB))
    (hC32 : ∀ l : Nat, l < N.toNat → Fits32 (l * LDC))
    (ha : ALPHA.Plain) (hb : BETA.Plain) :
    ∃ m', gemmAVX blk bAddr aAddr junk tA tB M N K ALPHA A LDA B LDB BETA C LDC m = .ok ((), m') ∧
      hgemmF tA tB M N K ALPHA A LDA B LDB BETA C LDC m = .ok ((), m') ∧
      gemmGen .h tA tB M N K ALPHA A LDA B LDB BETA C LDC m = .ok ((), m') := by
  have tN : ∀ t : Char, (t = 'N' ∨ t = 'T' ∨ t = 'C') → (isT t ↔ ¬ t = 'N') ∧ (IsN t ↔ t = 'N') := by
    rintro t (rfl | rfl | rfl) <;> decide
  have sw : ∀ (t : Char), (t = 'N' ∨ t = 'T' ∨ t = 'C') → ∀ a b : Nat, (if isT t then a else b) = (if t = 'N' then b else a) := by
    intro t ht a b
    by_cases e : t = 'N'
    · rw [if_neg ((tN t ht).1.not.mpr (not_not.mpr e)), if_pos e]
    · rw [if_pos ((tN t ht).1.mpr e), if_neg e]
  have sn : ∀ (t : Char), (t = 'N' ∨ t = 'T' ∨ t = 'C') → ∀ a b : Nat, (if IsN t then a else b) = (if t = 'N' then a else b) := by
    intro t ht a b
    simp only [(tN t ht).2]
  have oA : OpIs tA Av (opSpec tA Av) := by
    rcases htA with rfl | rfl | rfl
    · exact Or.inl ⟨Or.inl rfl, fun _ _ => rfl⟩
    · exact Or.inr (Or.inl ⟨Or.inl rfl, fun _ _ => rfl⟩)
    · exact Or.inr (Or.inr ⟨Or.inl rfl, fun _ _ => rfl⟩)
  have oB : OpIs tB Bv (opSpec tB Bv) := by
    rcases htB with rfl | rfl | rfl
    · exact Or.inl ⟨Or.inl rfl, fun _ _ => rfl⟩
    · exact Or.inr (Or.inl ⟨Or.inl rfl, fun _ _ => rfl⟩)
    · exact Or.inr (Or.inr ⟨Or.inl rfl, fun _ _ => rfl⟩)
  have kA : KOpIs tA (fun i j => .h (Av i j)) (opSpec tA Av) := by
    rcases htA with rfl | rfl | rfl
    · exact Or.inl ⟨rfl, fun _ _ => rfl⟩
    · exact Or.inr (Or.inl ⟨rfl, fun _ _ => rfl⟩)
    · exact Or.inr (Or.inr ⟨rfl, fun _ _ => rfl⟩)
  have qB : QOpIs tB Bv (opSpec tB Bv) := by
    rcases htB with rfl | rfl | rfl
    · exact Or.inl ⟨rfl, fun _ _ => rfl⟩
    · exact Or.inr (Or.inl ⟨rfl, fun _ _ => rfl⟩)
    · exact Or.inr (Or.inr ⟨rfl, fun _ _ => rfl⟩)
  have hld : M ≤ LDC := by have := h.ldc; omega
  have mA := h.matA
  have mB := h.matB
  have aA := h.apartA
  have aB := h.apartB
  rw [sw tA htA, sw tA htA] at mA aA
  rw [sw tB htB, sw tB htB] at mB aB
  obtain ⟨m1, h1, v1⟩ := C22_gemm m blk bAddr aAddr junk tA tB M N K ALPHA BETA A LDA B LDB C LDC Av Bv Cv h
  obtain ⟨m1', h1', s1, _⟩ := C23_gemm_frame m blk bAddr aAddr junk tA tB M N K ALPHA BETA A LDA B LDB C LDC Av Bv Cv h
  have e1 : m1 = m1' := by
    rw [h1] at h1'; cases h1'; rfl
  subst e1
  obtain ⟨m2, h2, v2, s2⟩ := C28_gemm_fortran m tA tB M N K ALPHA BETA A LDA B LDB C LDC Av Bv Cv _ _ oA oB
    (fun _ => by rw [sn tA htA, sn tA htA]; exact mA) (fun _ => by rw [sn tB htB, sn tB htB]; exact mB) h.matC hld
    (by rw [sn tA htA, sn tA htA]; exact aA) (by rw [sn tB htB, sn tB htB]; exact aB)
  obtain ⟨m3, h3, v3, s3⟩ := C29_gemm_portable m .h tA tB M N K ALPHA BETA A LDA B LDB C LDC
    (fun i j => .h (Av i j)) Bv Cv _ _ kA qB
    { hA := fun _ i j hi hj => by
        have := mA i j hi hj
        simp only [readK, Kind.width]
        rw [this]
      hB := fun _ => mB
      hC := h.matC
      hld := hld
      fitA := hA32
      fitB := hB32
      fitC := hC32
      hAC := by
        rintro a ⟨i, j, hi, hj, q1, q2⟩
        exact aA a ⟨i, j, hi, hj, q1, q2⟩
      hBC := aB } ha hb
  have e2 : m2 = m1 := mem_ext_mat v2 v1 s2 s1
  have e3 : m3 = m1 := mem_ext_mat v3 v1 s3 s1
  subst e2 e3
  exact ⟨_, h1, h2, h3⟩

/-- Two routines that both do what GEMV should leave the same memory. -/
theorem IsGemv.agree {P Q : Prog R Unit} {m : Mem R} {t : Char} {M N : Int} {ALPHA BETA : Scal R}
    {Y INCY : Int} {op : Nat → Nat → ℍ[R]} {x y : Nat → Quat R}
    (h1 : IsGemv P m t M N ALPHA BETA Y INCY op x y) (h2 : IsGemv Q m t M N ALPHA BETA Y INCY op x y) :
    ∃ m', P m = .ok ((), m') ∧ Q m = .ok ((), m') := by
  obtain ⟨m1, e1, v1, s1⟩ := h1
  obtain ⟨m2, e2, v2, s2⟩ := h2
  have := mem_ext_vec v1 v2 s1 s2
  subst this
  exact ⟨_, e1, e2⟩

theorem vecStart_pos {P n INC : Int} (h : 0 < INC) : vecStart P n INC = P := by
  unfold vecStart; rw [if_neg (by omega)]

/-- The portable GEMV's argument conditions for a quaternion matrix imply the Fortran GEMV's. -/
theorem GemvKArgs.fortran {m : Mem R} {t : Char} {M N : Int} {ALPHA : Scal R} {A LDA X INCX Y INCY : Int}
    {a : Nat → Nat → Quat R} {x y : Nat → Quat R}
    (h : GemvKArgs m .h t M N ALPHA A LDA X INCX Y INCY (fun i j => .h (a i j)) x y) :
    GemvArgs m t M N ALPHA A LDA X INCX Y INCY a x y where
  hinc := by have := h.incY; omega
  hY := by rw [vecStart_pos h.incY]; exact h.hY
  hA := fun h0 i j hi hj => by
    have := h.hA h0 i j hi hj
    simp only [readK, Kind.width] at this
    revert this
    cases readQ m (A + 4 * (↑i + ↑j * LDA)) <;> simp
  hX := fun h0 => by rw [vecStart_pos h.incX]; exact h.hX h0
  hAY := fun _ => by
    rw [vecStart_pos h.incY]
    rintro c ⟨i, j, hi, hj, q1, q2⟩
    exact h.hAY c ⟨i, j, hi, hj, q1, q2⟩
  hXY := fun _ => by
    rw [vecStart_pos h.incY, vecStart_pos h.incX]
    exact h.hXY

/-- C43, GEMV (partial, because `GemvGood` excludes the calls on which the Fortran kernels are wrong,
and `Plain` those on which the portable template is): the Fortran and the portable GEMV leave the same
memory for flags `'N'`, `'T'`, `'C'` and positive increments. -/
theorem C43_gemv_partial (m : Mem R) (t : Char) (ht : t = 'N' ∨ t = 'T' ∨ t = 'C') (M N : Int)
    (ALPHA : Scal R) (A LDA X INCX : Int) (BETA : Scal R) (Y INCY : Int) (a : Nat → Nat → Quat R)
    (x y : Nat → Quat R) (hM : M ≠ 0) (hN : N ≠ 0)
    (h : GemvKArgs m .h t M N ALPHA A LDA X INCX Y INCY (fun i j => .h (a i j)) x y)
    (hg : GemvGood t M N ALPHA BETA INCX INCY) (ha : ALPHA.Plain) (hb : BETA.Plain) :
    ∃ m', gemvF t M N ALPHA A LDA X INCX BETA Y INCY m = .ok ((), m') ∧
      gemvGen .h t M N ALPHA A LDA X INCX BETA Y INCY m = .ok ((), m') := by
  have oA : OpIs t a (opSpec t a) := by
    rcases ht with rfl | rfl | rfl
    · exact Or.inl ⟨Or.inl rfl, fun _ _ => rfl⟩
    · exact Or.inr (Or.inl ⟨Or.inl rfl, fun _ _ => rfl⟩)
    · exact Or.inr (Or.inr ⟨Or.inl rfl, fun _ _ => rfl⟩)
  have kA : KOpIs t (fun i j => .h (a i j)) (opSpec t a) := by
    rcases ht with rfl | rfl | rfl
    · exact Or.inl ⟨rfl, fun _ _ => rfl⟩
    · exact Or.inr (Or.inl ⟨rfl, fun _ _ => rfl⟩)
    · exact Or.inr (Or.inr ⟨rfl, fun _ _ => rfl⟩)
  exact (C30_gemv_partial m t M N ALPHA A LDA X INCX BETA Y INCY a x y _ hM hN h.fortran oA hg).agree
    (C30_gemv_portable m .h t M N ALPHA A LDA X INCX BETA Y INCY _ x y _ hM hN h kA ha hb)

/-- The portable GER's argument conditions imply the Fortran GER's. -/
theorem GerKArgs.fortran {m : Mem R} {M N X INCX Y INCY A LDA : Int} {x y : Nat → Quat R}
    {a : Nat → Nat → Quat R} (h : GerKArgs m M N X INCX Y INCY A LDA x y a) :
    GerArgs m M N X INCX Y INCY A LDA x y a := by
  have hx : ¬ INCX < 0 := by have := h.incX; omega
  have hy : ¬ INCY < 0 := by have := h.incY; omega
  constructor
  · exact h.hA
  · rw [if_neg hx]; exact h.hX
  · rw [if_neg hy]; exact h.hY
  · exact h.hld
  · rw [if_neg hx]; exact h.hXA
  · rw [if_neg hy]; exact h.hYA

/-- C43, GERU and GERC (partial: a real ALPHA needs `INCX = 1`, and no y_j may be `ck`). -/
theorem C43_ger_partial (m : Mem R) (M N : Int) (ALPHA : Scal R) (X INCX Y INCY A LDA : Int)
    (x y : Nat → Quat R) (a : Nat → Nat → Quat R) (h : GerKArgs m M N X INCX Y INCY A LDA x y a)
    (ha : ALPHA.Plain) (hd : ∀ r, ALPHA = .d r → INCX = 1) (hy : ∀ j, j < N.toNat → ¬ (y j).PureK) :
    (∃ m', geruF M N ALPHA X INCX Y INCY A LDA m = .ok ((), m') ∧
      gerGen false M N ALPHA X INCX Y INCY A LDA m = .ok ((), m')) ∧
    (∃ m', gercF M N ALPHA X INCX Y INCY A LDA m = .ok ((), m') ∧
      gerGen true M N ALPHA X INCX Y INCY A LDA m = .ok ((), m')) := by
  constructor
  · obtain ⟨m1, e1, v1, s1⟩ := C31_geru_partial m M N ALPHA X INCX Y INCY A LDA x y a h.fortran hd
    obtain ⟨m2, e2, v2, s2⟩ := C31_geru_portable_partial m M N ALPHA X INCX Y INCY A LDA x y a h ha hy
    have := mem_ext_mat v1 v2 s1 s2
    subst this
    exact ⟨_, e1, e2⟩
  · obtain ⟨m1, e1, v1, s1⟩ := C31_gerc_partial m M N ALPHA X INCX Y INCY A LDA x y a h.fortran hd
    obtain ⟨m2, e2, v2, s2⟩ := C31_gerc_portable_partial m M N ALPHA X INCX Y INCY A LDA x y a h ha hy
    have := mem_ext_mat v1 v2 s1 s2
    subst this
    exact ⟨_, e1, e2⟩

/-! ### C44: the routines agree with each other -/

/-- The number of rows and columns of the stored matrix A in `op(A)`, `op(A)` being `r × c`. -/
def stored (t : Char) (r c : Int) : Int × Int := if t = 'N' then (r, c) else (c, r)

/-- C44, GEMM and GEMV.  With one column, GEMM (SIMD build) computes `C := ALPHA*op(A)*B + BETA*C` and
leaves exactly the memory that GEMV leaves for the vectors B and C (the calls that GEMV gets wrong
excluded, `GemvGood`). -/
theorem C44_gemm_gemv_partial (m : Mem R) (blk : Blk) (bAddr aAddr : Int) (junk : Int → R) (t : Char)
    (ht : t = 'N' ∨ t = 'T' ∨ t = 'C') (M K : Int) (hM : 0 < M) (hK : 0 < K) (ALPHA BETA : Scal R)
    (A LDA X LDX Y LDY : Int) (Av Xv Yv : Nat → Nat → Quat R)
    (h : GemmPre m blk bAddr aAddr t 'N' M.toNat 1 K.toNat A LDA Av X LDX Xv Y LDY Yv)
    (hg : GemvGood t (stored t M K).1 (stored t M K).2 ALPHA BETA 1 1) :
    ∃ m', gemmAVX blk bAddr aAddr junk t 'N' M 1 K ALPHA A LDA X LDX BETA Y LDY m = .ok ((), m') ∧
      gemvF t (stored t M K).1 (stored t M K).2 ALPHA A LDA X 1 BETA Y 1 m = .ok ((), m') := by
  obtain ⟨m1, h1, v1⟩ := C22_gemm m blk bAddr aAddr junk t 'N' M 1 K ALPHA BETA A LDA X LDX Y LDY Av Xv Yv h
  obtain ⟨m1', h1', s1, _⟩ := C23_gemm_frame m blk bAddr aAddr junk t 'N' M 1 K ALPHA BETA A LDA X LDX Y LDY Av Xv Yv h
  have e1 : m1 = m1' := by
    rw [h1] at h1'; cases h1'; rfl
  subst e1
  have hLX : gemvLenX t (stored t M K).1 (stored t M K).2 = K := by
    rcases ht with rfl | rfl | rfl <;> rfl
  have hLY : gemvLenY t (stored t M K).1 (stored t M K).2 = M := by
    rcases ht with rfl | rfl | rfl <;> rfl
  have oA : OpIs t Av (opSpec t Av) := by
    rcases ht with rfl | rfl | rfl
    · exact Or.inl ⟨Or.inl rfl, fun _ _ => rfl⟩
    · exact Or.inr (Or.inl ⟨Or.inl rfl, fun _ _ => rfl⟩)
    · exact Or.inr (Or.inr ⟨Or.inl rfl, fun _ _ => rfl⟩)
  have hMr : (if isT t then K.toNat else M.toNat) = (stored t M K).1.toNat := by
    rcases ht with rfl | rfl | rfl <;> rfl
  have hMc : (if isT t then M.toNat else K.toNat) = (stored t M K).2.toNat := by
    rcases ht with rfl | rfl | rfl <;> rfl
  have mA := h.matA
  have aA := h.apartA
  rw [hMr, hMc] at mA aA
  have nB : ∀ a b : Nat, (if isT 'N' then a else b) = b := fun _ _ => rfl
  have mB := h.matB
  have aB := h.apartB
  rw [nB, nB] at mB aB
  have cellY : ∀ c, VecCell Y 1 M.toNat c → MatCell Y LDY M.toNat 1 c := by
    rintro c ⟨i, hi, hc⟩
    exact ⟨i, 0, hi, by omega, by simpa using hc⟩
  have cellY' : ∀ c, MatCell Y LDY M.toNat 1 c → VecCell Y 1 M.toNat c := by
    rintro c ⟨i, j, hi, hj, hc⟩
    obtain rfl : j = 0 := by omega
    exact ⟨i, hi, by simpa using hc⟩
  have cellX : ∀ c, VecCell X 1 K.toNat c → MatCell X LDX K.toNat 1 c := by
    rintro c ⟨i, hi, hc⟩
    exact ⟨i, 0, hi, by omega, by simpa using hc⟩
  have args : GemvArgs m t (stored t M K).1 (stored t M K).2 ALPHA A LDA X 1 Y 1 Av (fun k => Xv k 0) (fun i => Yv i 0) := {
    hinc := by decide
    hY := by
      rw [vecStart_pos (by decide), hLY]
      intro i hi
      have := h.matC i 0 hi (by omega)
      simpa using this
    hA := fun _ => mA
    hX := by
      intro _
      rw [vecStart_pos (by decide), hLX]
      intro i hi
      have := mB i 0 hi (by omega)
      simpa using this
    hAY := by
      intro _
      rw [vecStart_pos (by decide), hLY]
      intro c hc hc'
      exact aA c hc (cellY c hc')
    hXY := by
      intro _
      rw [vecStart_pos (by decide), vecStart_pos (by decide), hLX, hLY]
      intro c hc hc'
      exact aB c (cellX c hc) (cellY c hc') }
  have hs : (stored t M K).1 ≠ 0 ∧ (stored t M K).2 ≠ 0 := by
    rcases ht with rfl | rfl | rfl
    · exact ⟨hM.ne', hK.ne'⟩
    · exact ⟨hK.ne', hM.ne'⟩
    · exact ⟨hK.ne', hM.ne'⟩
  obtain ⟨m2, h2, v2, s2⟩ := C30_gemv_partial m t _ _ ALPHA A LDA X 1 BETA Y 1 Av _ _ _ hs.1 hs.2 args oA hg
  rw [vecStart_pos (by decide), hLY] at v2 s2
  rw [hLX] at v2
  have v1' : VecAt m1 Y 1 M.toNat (fun i => Quat.ofH (ALPHA.toH * (∑ k ∈ range K.toNat, opSpec t Av i k * (Xv k 0).toH) +
        BETA.toH * (Yv i 0).toH)) := by
    intro i hi
    have := v1 i 0 hi (by decide)
    simpa [opSpec] using this
  have := mem_ext_vec v1' v2 (fun c hc => s1 c (fun hc' => hc (cellY' c hc'))) s2
  subst this
  exact ⟨_, h1, h2⟩

/-- C44, GEMM and the rank-one updates.  With `K = 1`, TRANSA = 'N' and BETA = 1, GEMM (SIMD build) with
TRANSB = 'T' leaves exactly the memory that GERU leaves, and with TRANSB = 'C' the memory that GERC leaves. -/
theorem C44_gemm_ger (m : Mem R) (blk : Blk) (bAddr aAddr : Int) (junk : Int → R) (cj : Bool)
    (M N : Int) (ALPHA : Scal R) (A LDA X LDX Y LDY : Int) (Av Xv Yv : Nat → Nat → Quat R)
    (h : GemmPre m blk bAddr aAddr 'N' (if cj then 'C' else 'T') M.toNat N.toNat 1 X LDX Xv Y LDY Yv A LDA Av) :
    ∃ m', gemmAVX blk bAddr aAddr junk 'N' (if cj then 'C' else 'T') M N 1 ALPHA X LDX Y LDY (.d 1) A LDA m = .ok ((), m') ∧
      (if cj then gercF M N ALPHA X 1 Y 1 A LDA else geruF M N ALPHA X 1 Y 1 A LDA) m = .ok ((), m') := by
  obtain ⟨m1, h1, v1⟩ := C22_gemm m blk bAddr aAddr junk 'N' (if cj then 'C' else 'T') M N 1 ALPHA (.d 1) X LDX Y LDY A LDA Xv Yv Av h
  obtain ⟨m1', h1', s1, _⟩ := C23_gemm_frame m blk bAddr aAddr junk 'N' (if cj then 'C' else 'T') M N 1 ALPHA (.d 1) X LDX Y LDY A LDA Xv Yv Av h
  have e1 : m1 = m1' := by
    rw [h1] at h1'; cases h1'; rfl
  subst e1
  have nN : ∀ a b : Nat, (if isT 'N' then a else b) = b := fun _ _ => rfl
  have nT : ∀ a b : Nat, (if isT (if cj then 'C' else 'T') then a else b) = a := by
    intro a b; cases cj <;> rfl
  have mX := h.matA
  have aX := h.apartA
  have mY := h.matB
  have aY := h.apartB
  rw [nN, nN] at mX aX
  rw [nT, nT] at mY aY
  have args : GerArgs m M N X 1 Y 1 A LDA (fun i => Xv i 0) (fun j => Yv j 0) Av := {
    hA := h.matC
    hX := by
      rw [if_neg (by decide)]
      intro i hi
      have := mX i 0 hi (by omega)
      simpa using this
    hY := by
      rw [if_neg (by decide)]
      intro i hi
      have := mY i 0 hi (by omega)
      simpa using this
    hld := by have := h.ldc; omega
    hXA := by
      rw [if_neg (by decide)]
      rintro c ⟨i, hi, hc⟩
      exact aX c ⟨i, 0, hi, by omega, by simpa using hc⟩
    hYA := by
      rw [if_neg (by decide)]
      rintro c ⟨i, hi, hc⟩
      exact aY c ⟨i, 0, hi, by omega, by simpa using hc⟩ }
  have one : (Scal.d (1:R)).toH = 1 := by ext <;> simp [Scal.toH]
  cases cj
  · obtain ⟨m2, e2, v2, s2⟩ := C31_geru_partial m M N ALPHA X 1 Y 1 A LDA _ _ _ args (fun _ _ => rfl)
    have v1' : MatAt m1 A LDA M.toNat N.toNat
      (fun i j => Quat.ofH ((Av i j).toH + ALPHA.toH * (Xv i 0).toH * (Yv j 0).toH)) := by
      intro i j hi hj
      have := v1 i j hi hj
      rw [this, one]
      simp [opSpec, mul_assoc, add_comm]
    have := mem_ext_mat v1' v2 s1 s2
    subst this
    exact ⟨_, h1, e2⟩
  · obtain ⟨m2, e2, v2, s2⟩ := C31_gerc_partial m M N ALPHA X 1 Y 1 A LDA _ _ _ args (fun _ _ => rfl)
    have v1' : MatAt m1 A LDA M.toNat N.toNat
      (fun i j => Quat.ofH ((Av i j).toH + ALPHA.toH * (Xv i 0).toH * star (Yv j 0).toH)) := by
      intro i j hi hj
      have := v1 i j hi hj
      rw [this, one]
      simp [opSpec, mul_assoc, add_comm]
    have := mem_ext_mat v1' v2 s1 s2
    subst this
    exact ⟨_, h1, e2⟩

/-- C44, GEMM and the inner products.  With `M = N = 1`, ALPHA = 1, BETA = 0, GEMM (SIMD build) stores at
C the value that DOTU (TRANSA = 'T') or DOTC (TRANSA = 'C') returns, and changes nothing else. -/
theorem C44_gemm_dot (m : Mem R) (blk : Blk) (bAddr aAddr : Int) (junk : Int → R) (cj : Bool)
    (K : Int) (X LDX Y LDY C LDC : Int) (Xv Yv Cv : Nat → Nat → Quat R)
    (h : GemmPre m blk bAddr aAddr (if cj then 'C' else 'T') 'N' 1 1 K.toNat X LDX Xv Y LDY Yv C LDC Cv) :
    ∃ m' r, dotAVX cj K X 1 Y 1 m = .ok (r, m) ∧
      gemmAVX blk bAddr aAddr junk (if cj then 'C' else 'T') 'N' 1 1 K (.d 1) X LDX Y LDY (.d 0) C LDC m = .ok ((), m') ∧
      readQ m' C = some r ∧ SameOutside (InQ C) m m' := by
  obtain ⟨m1, h1, v1⟩ := C22_gemm m blk bAddr aAddr junk (if cj then 'C' else 'T') 'N' 1 1 K (.d 1) (.d 0) X LDX Y LDY C LDC Xv Yv Cv h
  obtain ⟨m1', h1', s1, _⟩ := C23_gemm_frame m blk bAddr aAddr junk (if cj then 'C' else 'T') 'N' 1 1 K (.d 1) (.d 0) X LDX Y LDY C LDC Xv Yv Cv h
  have e1 : m1 = m1' := by
    rw [h1] at h1'; cases h1'; rfl
  subst e1
  have nN : ∀ a b : Nat, (if isT 'N' then a else b) = b := fun _ _ => rfl
  have nT : ∀ a b : Nat, (if isT (if cj then 'C' else 'T') then a else b) = a := by
    intro a b; cases cj <;> rfl
  have mX := h.matA
  have mY := h.matB
  rw [nT, nT] at mX
  rw [nN, nN] at mY
  have hX : VecAt m X 1 K.toNat (fun i => Xv i 0) := by
    intro i hi
    have := mX i 0 hi (by omega)
    simpa using this
  have hY : VecAt m Y 1 K.toNat (fun i => Yv i 0) := by
    intro i hi
    have := mY i 0 hi (by omega)
    simpa using this
  obtain ⟨r, m2, h2, rfl, e2⟩ := dotAVX_wp (conj := cj) hX hY (fun _ => by unfold Fits32; omega) (fun _ => by unfold Fits32; omega)
  rw [e2] at h2
  refine ⟨m1, _, h2, h1, ?_, ?_⟩
  · have := v1 0 0 (by decide) (by decide)
    have e : C + 4 * (((0:Nat):Int) + ((0:Nat):Int) * LDC) = C := by simp
    rw [e] at this
    rw [this, eq_ofH (dotVal_sum _ _ _ _)]
    have one : (Scal.d (1:R)).toH = 1 := by ext <;> simp [Scal.toH]
    have z : (Scal.d (0:R)).toH = 0 := by ext <;> simp [Scal.toH]
    rw [one, z]
    cases cj <;> simp [opSpec, Haxx.cj]
  · intro c hc
    refine s1 c ?_
    rintro ⟨i, j, hi, hj, hc'⟩
    have h1 : i < 1 := hi
    have h2 : j < 1 := hj
    obtain rfl : i = 0 := by omega
    obtain rfl : j = 0 := by omega
    exact hc (by simpa using hc')

end exact

/-! ### Non-vacuity -/

/-- A 2 × 3 rank-one update. -/
theorem gemmPre_ger_example {F : Type} [Arith F] (f : Int → F) :
    GemmPre (memOf 0 100 f) ⟨64, 512, 64⟩ 1000 200000 'N' 'C' 2 3 1
      0 5 (fun i j => let p : Int := 0 + 4 * (i + j * 5); ⟨f p, f (p+1), f (p+2), f (p+3)⟩)
      8 3 (fun i j => let p : Int := 8 + 4 * (i + j * 3); ⟨f p, f (p+1), f (p+2), f (p+3)⟩)
      20 4 (fun i j => let p : Int := 20 + 4 * (i + j * 4); ⟨f p, f (p+1), f (p+2), f (p+3)⟩) where
  mc_pos := by decide
  nc_pos := by decide
  kc_pos := by decide
  mc_even := by decide
  nc_even := by decide
  matA := by
    intro i j hi hj
    have h1 : i < 2 := hi
    have h2 : j < 1 := hj
    exact readQ_memOf (by omega) (by omega)
  matB := by
    intro i j hi hj
    have h1 : i < 3 := hi
    have h2 : j < 1 := hj
    exact readQ_memOf (by omega) (by omega)
  matC := by
    intro i j hi hj
    exact readQ_memOf (by omega) (by omega)
  lda := by decide
  ldb := by decide
  ldc := by decide
  apartA := by
    rintro a ⟨i, j, hi, hj, h⟩ ⟨i', j', hi', hj', h'⟩
    have h1 : i < 2 := hi
    have h2 : j < 1 := hj
    unfold InQ at *; omega
  apartB := by
    rintro a ⟨i, j, hi, hj, h⟩ ⟨i', j', hi', hj', h'⟩
    have h1 : i < 3 := hi
    have h2 : j < 1 := hj
    unfold InQ at *; omega
  alignB := by decide
  alignA := by decide
  freshB := by
    intro a ha
    unfold InBuf at ha; unfold memOf
    rw [if_neg (by omega)]
  freshA := by
    intro a ha
    unfold InBuf at ha; unfold memOf
    rw [if_neg (by omega)]
  freshAB := by
    intro a h1 h2
    have e1 : fixMod ((64:Int) * 64) 32 = 4096 := by decide
    have e2 : fixMod ((64:Int) * 512) 32 = 32768 := by decide
    simp only [InBuf] at h1 h2
    omega
  kc32 := by unfold Fits32; decide
  m32 := by unfold Fits32; decide
  n32 := by unfold Fits32; decide
  k32 := by unfold Fits32; decide
  ldc32 := by unfold Fits32; decide
  ldcN32 := by unfold Fits32; decide
  ldbN32 := by unfold Fits32; decide
  ldbK32 := by unfold Fits32; decide
  ldaM32 := by unfold Fits32; decide
  ldaK32 := by unfold Fits32; decide

/-- An inner product of length 3. -/
theorem gemmPre_dot_example {F : Type} [Arith F] (f : Int → F) :
    GemmPre (memOf 0 100 f) ⟨64, 512, 64⟩ 1000 200000 'T' 'N' 1 1 3
      0 5 (fun i j => let p : Int := 0 + 4 * (i + j * 5); ⟨f p, f (p+1), f (p+2), f (p+3)⟩)
      12 3 (fun i j => let p : Int := 12 + 4 * (i + j * 3); ⟨f p, f (p+1), f (p+2), f (p+3)⟩)
      24 4 (fun i j => let p : Int := 24 + 4 * (i + j * 4); ⟨f p, f (p+1), f (p+2), f (p+3)⟩) where
  mc_pos := by decide
  nc_pos := by decide
  kc_pos := by decide
  mc_even := by decide
  nc_even := by decide
  matA := by
    intro i j hi hj
    have h1 : i < 3 := hi
    have h2 : j < 1 := hj
    exact readQ_memOf (by omega) (by omega)
  matB := by
    intro i j hi hj
    have h1 : i < 3 := hi
    have h2 : j < 1 := hj
    exact readQ_memOf (by omega) (by omega)
  matC := by
    intro i j hi hj
    exact readQ_memOf (by omega) (by omega)
  lda := by decide
  ldb := by decide
  ldc := by decide
  apartA := by
    rintro a ⟨i, j, hi, hj, h⟩ ⟨i', j', hi', hj', h'⟩
    have h1 : i < 3 := hi
    have h2 : j < 1 := hj
    unfold InQ at *; omega
  apartB := by
    rintro a ⟨i, j, hi, hj, h⟩ ⟨i', j', hi', hj', h'⟩
    have h1 : i < 3 := hi
    have h2 : j < 1 := hj
    unfold InQ at *; omega
  alignB := by decide
  alignA := by decide
  freshB := by
    intro a ha
    unfold InBuf at ha; unfold memOf
    rw [if_neg (by omega)]
  freshA := by
    intro a ha
    unfold InBuf at ha; unfold memOf
    rw [if_neg (by omega)]
  freshAB := by
    intro a h1 h2
    have e1 : fixMod ((64:Int) * 64) 32 = 4096 := by decide
    have e2 : fixMod ((64:Int) * 512) 32 = 32768 := by decide
    simp only [InBuf] at h1 h2
    omega
  kc32 := by unfold Fits32; decide
  m32 := by unfold Fits32; decide
  n32 := by unfold Fits32; decide
  k32 := by unfold Fits32; decide
  ldc32 := by unfold Fits32; decide
  ldcN32 := by unfold Fits32; decide
  ldbN32 := by unfold Fits32; decide
  ldbK32 := by unfold Fits32; decide
  ldaM32 := by unfold Fits32; decide
  ldaK32 := by unfold Fits32; decide

example : ∃ m', gemmAVX (F := Int) ⟨64, 512, 64⟩ 1000 200000 (fun _ => 0) 'C' 'N' 3 1 2 (.h ⟨2, 3, 0, 5⟩) 0 2 24 2 (.z ⟨1, 7⟩) 33 4
    (memOf 0 64 (fun a => a)) = .ok ((), m') ∧ hgemmF 'C' 'N' 3 1 2 (.h ⟨2, 3, 0, 5⟩) 0 2 24 2 (.z ⟨1, 7⟩) 33 4
    (memOf 0 64 (fun a => a)) = .ok ((), m') ∧ gemmGen .h 'C' 'N' 3 1 2 (.h ⟨2, 3, 0, 5⟩) 0 2 24 2 (.z ⟨1, 7⟩) 33 4
    (memOf 0 64 (fun a => a)) = .ok ((), m') :=
  C43_gemm _ _ _ _ _ 'C' 'N' (by decide) (by decide) 3 1 2 _ _ 0 2 24 2 33 4 _ _ _ (gemmPre_example' _)
    (by intro l hl; have h : l < 3 := hl; unfold Fits32; omega)
    (by intro l hl; have h : l < 1 := hl; unfold Fits32; omega)
    (by intro l hl; have h : l < 1 := hl; unfold Fits32; omega)
    (Scal.plain_h _ (by decide)) (Scal.plain_z _)

example : ∃ m', gemmAVX (F := Int) ⟨64, 512, 64⟩ 1000 200000 (fun _ => 0) 'C' 'N' 3 1 2 (.h ⟨2, 3, 0, 5⟩) 0 2 24 2 (.z ⟨1, 7⟩) 33 4
    (memOf 0 64 (fun a => a)) = .ok ((), m') ∧ gemvF 'C' 2 3 (.h ⟨2, 3, 0, 5⟩) 0 2 24 1 (.z ⟨1, 7⟩) 33 1
    (memOf 0 64 (fun a => a)) = .ok ((), m') :=
  C44_gemm_gemv_partial _ _ _ _ _ 'C' (by decide) 3 2 (by decide) (by decide) _ _ 0 2 24 2 33 4 _ _ _ (gemmPre_example' _)
    ⟨.inr (.inr (.inl (.inl rfl))), (by rintro ⟨_, h⟩; cases h), by rintro _ (h | h) <;> exact absurd h (by decide)⟩

example : ∃ m', gemmAVX (F := Int) ⟨64, 512, 64⟩ 1000 200000 (fun _ => 0) 'N' 'C' 2 3 1 (.h ⟨2, 3, 0, 5⟩) 0 5 8 3 (.d 1) 20 4
    (memOf 0 100 (fun a => a)) = .ok ((), m') ∧ gercF 2 3 (.h ⟨2, 3, 0, 5⟩) 0 1 8 1 20 4 (memOf 0 100 (fun a => a)) = .ok ((), m') :=
  C44_gemm_ger (memOf 0 100 (fun a => a)) _ _ _ (fun _ => 0) true 2 3 (.h ⟨2, 3, 0, 5⟩) 20 4 0 5 8 3 _ _ _ (gemmPre_ger_example (fun a => a))

example : ∃ m' r, dotAVX (F := Int) false 3 0 1 12 1 (memOf 0 100 (fun a => a)) = .ok (r, memOf 0 100 (fun a => a)) ∧
    gemmAVX ⟨64, 512, 64⟩ 1000 200000 (fun _ => 0) 'T' 'N' 1 1 3 (.d 1) 0 5 12 3 (.d 0) 24 4 (memOf 0 100 (fun a => a)) = .ok ((), m') ∧
    readQ m' 24 = some r ∧ SameOutside (InQ 24) (memOf 0 100 (fun a => a)) m' :=
  C44_gemm_dot (memOf 0 100 (fun a => a)) _ _ _ (fun _ => 0) false 3 0 5 12 3 24 4 _ _ _ (gemmPre_dot_example (fun a => a))

example : ∃ m', geruF (F := Int) 2 3 (.z ⟨4, 5⟩) 60 2 90 1 0 4 (memOf 0 200 (fun a => a)) = .ok ((), m') ∧
    gerGen false 2 3 (.z ⟨4, 5⟩) 60 2 90 1 0 4 (memOf 0 200 (fun a => a)) = .ok ((), m') :=
  (C43_ger_partial _ 2 3 _ 60 2 90 1 0 4 _ _ _ gerKArgs_example (Scal.plain_z _) (by intro r h; cases h)
    (by
      intro j hj h
      have h1 : j < 3 := hj
      have h2 := h.1
      dsimp only at h2
      omega)).1


end Haxx
