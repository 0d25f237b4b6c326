import Verif.GemmCfgProofs
import Verif.PropsCross

/-!
# C71: GEMM under the compile-time switches of `config/hblas3/gemm.hpp`

Whoever compiles the library chooses the block sizes (C24), the packing ALPHA is folded into, and whether the packing or the
micro-kernel does the permutations.  A user expects each choice to give the same routine.  The theorems say what every
choice computes, and for which ALPHA it is right.
-/

namespace Haxx
open Arith Quaternion Finset
open Cfg (AlphaAt)

set_option linter.unusedSectionVars false

section clamp
variable {F : Type} [Arith F]

namespace Cfg

theorem gemmJ_clampK {blk : Blk} {w : AlphaAt} {tA tB : Char} {M N K : Int} {ALPHA : Scal F} {A LDA B LDB C LDC aPack bPack : Int}
    (hb : 0 < blk.KC) (hK : K ≤ 0) :
    gemmJ blk tA tB M N K w ALPHA A LDA B LDB C LDC aPack bPack =
      gemmJ blk tA tB M N 0 w ALPHA A LDA B LDB C LDC aPack bPack := by
  unfold gemmJ gemmJStep gemmK
  rw [nIter_nonpos hb hK, nIter_nonpos hb (le_refl (0:Int))]
  rfl

theorem gemmJ_clampM {blk : Blk} {w : AlphaAt} {tA tB : Char} {M N K : Int} {ALPHA : Scal F} {A LDA B LDB C LDC aPack bPack : Int}
    (hb : 0 < blk.MC) (hM : M ≤ 0) :
    gemmJ blk tA tB M N K w ALPHA A LDA B LDB C LDC aPack bPack =
      gemmJ blk tA tB 0 N K w ALPHA A LDA B LDB C LDC aPack bPack := by
  unfold gemmJ gemmJStep gemmK gemmKStep gemmI
  rw [nIter_nonpos hb hM, nIter_nonpos hb (le_refl (0:Int))]
  rfl

theorem gemmJ_clampN {blk : Blk} {w : AlphaAt} {tA tB : Char} {M N K : Int} {ALPHA : Scal F} {A LDA B LDB C LDC aPack bPack : Int}
    (hb : 0 < blk.NC) (hN : N ≤ 0) :
    gemmJ blk tA tB M N K w ALPHA A LDA B LDB C LDC aPack bPack =
      gemmJ blk tA tB M 0 K w ALPHA A LDA B LDB C LDC aPack bPack := by
  unfold gemmJ
  rw [nIter_nonpos hb hN, nIter_nonpos hb (le_refl (0:Int))]
  rfl

/-- A non-positive size behaves as zero. -/
theorem gemmAVX_clamp {blk : Blk} (h1 : 0 < blk.MC) (h2 : 0 < blk.NC) (h3 : 0 < blk.KC)
    {bAddr aAddr : Int} {junk : Int → F} {w : AlphaAt} {tA tB : Char} {M N K : Int}
    {ALPHA BETA : Scal F} {A LDA B LDB C LDC : Int} :
    gemmAVX blk bAddr aAddr junk tA tB M N K w ALPHA A LDA B LDB BETA C LDC =
      gemmAVX blk bAddr aAddr junk tA tB M.toNat N.toNat K.toNat w ALPHA A LDA B LDB BETA C LDC := by
  have hN : gemmAVX blk bAddr aAddr junk tA tB M N K w ALPHA A LDA B LDB BETA C LDC =
      gemmAVX blk bAddr aAddr junk tA tB M N.toNat K w ALPHA A LDA B LDB BETA C LDC := by
    rcases toNat_cases N with ⟨hx, h0⟩ | h0 <;> rw [h0]
    unfold gemmAVX
    rw [gemmJ_clampN h2 hx, scalm_clamp (Or.inr hx), scalm_clamp (Or.inr (le_refl 0))]
  have hM : ∀ N, gemmAVX blk bAddr aAddr junk tA tB M N K w ALPHA A LDA B LDB BETA C LDC =
      gemmAVX blk bAddr aAddr junk tA tB M.toNat N K w ALPHA A LDA B LDB BETA C LDC := by
    intro N
    rcases toNat_cases M with ⟨hx, h0⟩ | h0 <;> rw [h0]
    unfold gemmAVX
    rw [gemmJ_clampM h1 hx, scalm_clamp (Or.inl hx), scalm_clamp (Or.inl (le_refl 0))]
  have hK : ∀ M N, gemmAVX blk bAddr aAddr junk tA tB M N K w ALPHA A LDA B LDB BETA C LDC =
      gemmAVX blk bAddr aAddr junk tA tB M N K.toNat w ALPHA A LDA B LDB BETA C LDC := by
    intro M N
    rcases toNat_cases K with ⟨hx, h0⟩ | h0 <;> rw [h0]
    unfold gemmAVX
    rw [gemmJ_clampK h3 hx]
  rw [hN, hM, hK]

end Cfg
end clamp

/-! ## ALPHA -/

section exact
variable {R : Type} [CommRing R]

theorem toH_preOP_opt (c : Bool) (s : Option (Scal R)) (x : Quat R) :
    (preOP c (loadScalar s) x).toH = (match s with | some a => a.toH | none => 1) * (if c then star x.toH else x.toH) := by
  cases s with
  | none => rw [toH_preOP_none, one_mul]
  | some a => exact toH_preOP c a x

/-- What a build computes at `C(i,j)`: row `x` of op(A), column `y` of op(B), old entry `c`.  ALPHA stands where the switch
puts it. -/
noncomputable def cfgSpec (w : AlphaAt) (α β : ℍ[R]) (K : Nat) (x y : Nat → ℍ[R]) (c : ℍ[R]) : ℍ[R] :=
  match w with
  | .aPack => α * ∑ k ∈ range K, x k * y k + β * c
  | .bPack => ∑ k ∈ range K, x k * α * y k + β * c
  | .neither => ∑ k ∈ range K, x k * y k + β * c

theorem toH_cfgElt (w : AlphaAt) (tA tB : Char) (ALPHA BETA : Scal R) (K : Nat) (X Y : Nat → Nat → Quat R)
    (i j : Nat) (c : Quat R) :
    (Cfg.gemmElt w tA tB ALPHA BETA K (fun k => opE tA X i k) (fun k => opE tB Y k j) c).toH =
      cfgSpec w ALPHA.toH BETA.toH K (fun k => opSpec tA X i k) (fun k => opSpec tB Y k j) c.toH := by
  unfold Cfg.gemmElt
  rw [toH_accum, toH_scalOp, if_pos rfl, add_comm]
  cases w <;> unfold cfgSpec <;> dsimp only <;> congr 1
  · rw [mul_sum]
    refine sum_congr rfl fun k _ => ?_
    rw [toH_preOP_opt, toH_preOP_opt, opSpec_eq, opSpec_eq]
    simp [AlphaAt.forA, AlphaAt.forB, mul_assoc]
  · refine sum_congr rfl fun k _ => ?_
    rw [toH_preOP_opt, toH_preOP_opt, opSpec_eq, opSpec_eq]
    simp [AlphaAt.forA, AlphaAt.forB, mul_assoc]
  · refine sum_congr rfl fun k _ => ?_
    rw [toH_preOP_opt, toH_preOP_opt, opSpec_eq, opSpec_eq]
    simp [AlphaAt.forA, AlphaAt.forB]

/-- C71: what each choice computes, in exact arithmetic.  Every choice runs without fault and changes nothing but C; ALPHA
ends up to the left of op(A), between op(A) and op(B), or nowhere. -/
theorem C71_gemm_computes (w : AlphaAt) (m : Mem R) (blk : Blk) (bAddr aAddr : Int) (junk : Int → R) (TRANSA TRANSB : Char)
    (M N K : Int) (ALPHA BETA : Scal R) (A LDA B LDB C LDC : Int) (Av Bv Cv : Nat → Nat → Quat R)
    (h : GemmPre m blk bAddr aAddr TRANSA TRANSB M.toNat N.toNat K.toNat A LDA Av B LDB Bv C LDC Cv) :
    ∃ m', Cfg.gemmAVX blk bAddr aAddr junk TRANSA TRANSB M N K w ALPHA A LDA B LDB BETA C LDC m = .ok ((), m') ∧
      MatAt m' C LDC M.toNat N.toNat (fun i j => Quat.ofH (cfgSpec w ALPHA.toH BETA.toH K.toNat
        (fun k => opSpec TRANSA Av i k) (fun k => opSpec TRANSB Bv k j) (Cv i j).toH)) ∧
      SameOutside (MatCell C LDC M.toNat N.toNat) m m' := by
  obtain ⟨_, m', h1, h2, h3⟩ := Cfg.gemmAVX_wp (w := w) (junk := junk) (ALPHA := ALPHA) (BETA := BETA) h
  rw [Cfg.gemmAVX_clamp h.mc_pos h.nc_pos h.kc_pos]
  refine ⟨m', h1, matAt_ext ?_ h2, h3⟩
  intro i j _ _
  exact eq_ofH (toH_cfgElt _ _ _ _ _ _ _ _ _ _ _)

/-- C71 (partial: the English claim is false of two of the three choices, see below).  The result is
`ALPHA op(A) op(B) + BETA C` if ALPHA goes into the packing of A; if it goes into the packing of B and commutes with the
entries of op(A), as every real ALPHA does; and without either if ALPHA is 1. -/
theorem C71_gemm_partial (w : AlphaAt) (m : Mem R) (blk : Blk) (bAddr aAddr : Int) (junk : Int → R) (TRANSA TRANSB : Char)
    (M N K : Int) (ALPHA BETA : Scal R) (A LDA B LDB C LDC : Int) (Av Bv Cv : Nat → Nat → Quat R)
    (h : GemmPre m blk bAddr aAddr TRANSA TRANSB M.toNat N.toNat K.toNat A LDA Av B LDB Bv C LDC Cv)
    (hB : w = .bPack → ∀ i k, i < M.toNat → k < K.toNat → Commute ALPHA.toH (opSpec TRANSA Av i k))
    (h0 : w = .neither → ALPHA.toH = 1) :
    ∃ m', Cfg.gemmAVX blk bAddr aAddr junk TRANSA TRANSB M N K w ALPHA A LDA B LDB BETA C LDC m = .ok ((), m') ∧
      MatAt m' C LDC M.toNat N.toNat (fun i j => Quat.ofH
        (ALPHA.toH * ∑ k ∈ range K.toNat, opSpec TRANSA Av i k * opSpec TRANSB Bv k j + BETA.toH * (Cv i j).toH)) ∧
      SameOutside (MatCell C LDC M.toNat N.toNat) m m' := by
  obtain ⟨m', h1, h2, h3⟩ := C71_gemm_computes w m blk bAddr aAddr junk TRANSA TRANSB M N K ALPHA BETA A LDA B LDB C LDC Av Bv Cv h
  refine ⟨m', h1, matAt_ext ?_ h2, h3⟩
  intro i j hi _
  congr 1
  cases w <;> unfold cfgSpec <;> dsimp only
  · rw [mul_sum]
    congr 1
    refine sum_congr rfl fun k hk => ?_
    rw [← mul_assoc, (hB rfl i k hi (mem_range.mp hk)).eq]
  · rw [h0 rfl, one_mul]

/-- A real ALPHA always commutes. -/
theorem C71_real_commutes (r : R) (q : ℍ[R]) : Commute (Scal.d r).toH q := by
  have : (Scal.d r).toH = (r : ℍ[R]) := by ext <;> simp [Scal.toH]
  rw [this]
  exact Quaternion.coe_commutes r q

/-- C71: with a real ALPHA both packings give the very same memory. -/
theorem C71_real_either (m : Mem R) (blk : Blk) (bAddr aAddr : Int) (junk : Int → R) (TRANSA TRANSB : Char)
    (M N K : Int) (r : R) (BETA : Scal R) (A LDA B LDB C LDC : Int) (Av Bv Cv : Nat → Nat → Quat R)
    (h : GemmPre m blk bAddr aAddr TRANSA TRANSB M.toNat N.toNat K.toNat A LDA Av B LDB Bv C LDC Cv) :
    ∃ m', Cfg.gemmAVX blk bAddr aAddr junk TRANSA TRANSB M N K .bPack (.d r) A LDA B LDB BETA C LDC m = .ok ((), m') ∧
      gemmAVX blk bAddr aAddr junk TRANSA TRANSB M N K (.d r) A LDA B LDB BETA C LDC m = .ok ((), m') := by
  obtain ⟨m1, e1, a1, s1⟩ := C71_gemm_partial .bPack m blk bAddr aAddr junk TRANSA TRANSB M N K (.d r) BETA A LDA B LDB C LDC
    Av Bv Cv h (fun _ i k _ _ => C71_real_commutes r _) (by intro hc; cases hc)
  obtain ⟨m2, e2, a2⟩ := C22_gemm m blk bAddr aAddr junk TRANSA TRANSB M N K (.d r) BETA A LDA B LDB C LDC Av Bv Cv h
  obtain ⟨m3, e3, s3, -⟩ := C23_gemm_frame m blk bAddr aAddr junk TRANSA TRANSB M N K (.d r) BETA A LDA B LDB C LDC Av Bv Cv h
  rw [e2] at e3
  cases e3
  refine ⟨m1, e1, ?_⟩
  rw [e2]
  congr 2
  funext a
  by_cases ha : MatCell C LDC M.toNat N.toNat a
  · obtain ⟨i, j, hi, hj, hq⟩ := ha
    have q1 := readQ_eq_some.mp (a1 i j hi hj)
    have q2 := readQ_eq_some.mp (a2 i j hi hj)
    unfold InQ at hq
    generalize C + 4 * ((i:Int) + j * LDC) = p at *
    rcases (by omega : a = p ∨ a = p + 1 ∨ a = p + 2 ∨ a = p + 3) with rfl | rfl | rfl | rfl
    · rw [q1.1, q2.1]
    · rw [q1.2.1, q2.2.1]
    · rw [q1.2.2.1, q2.2.2.1]
    · rw [q1.2.2.2, q2.2.2.2]
  · rw [s1 a ha, s3 a ha]

/-- C71, violated: with ALPHA in the packing of B the routine is right at `(i,j)` exactly when `Σ (α a_k - a_k α) b_k = 0`. -/
theorem C71_bpack_iff (α β : ℍ[R]) (K : Nat) (x y : Nat → ℍ[R]) (c : ℍ[R]) :
    cfgSpec .bPack α β K x y c = α * ∑ k ∈ range K, x k * y k + β * c ↔ ∑ k ∈ range K, (α * x k - x k * α) * y k = 0 := by
  unfold cfgSpec
  dsimp only
  rw [add_left_inj, mul_sum, ← sub_eq_zero, ← sum_sub_distrib, ← neg_eq_zero, ← sum_neg_distrib]
  have : ∀ k, -(x k * α * y k - α * (x k * y k)) = (α * x k - x k * α) * y k := by
    intro k; rw [sub_mul]; simp [mul_assoc]
  simp only [this]

end exact

/-- The shipped choice is the routine of `Gemm.lean`. -/
theorem C71_shipped {F : Type} [Arith F] (blk : Blk) (bAddr aAddr : Int) (junk : Int → F) (TRANSA TRANSB : Char) (M N K : Int)
    (ALPHA BETA : Scal F) (A LDA B LDB C LDC : Int) :
    Cfg.gemmAVX blk bAddr aAddr junk TRANSA TRANSB M N K .aPack ALPHA A LDA B LDB BETA C LDC =
      gemmAVX blk bAddr aAddr junk TRANSA TRANSB M N K ALPHA A LDA B LDB BETA C LDC := rfl

/-- A 1×1 call: A, B, C one after the other. -/
theorem gemmPre_one {F : Type} [Arith F] (f : Int → F) :
    GemmPre (memOf 0 12 f) ⟨64, 512, 64⟩ 1000 200000 'N' 'N' 1 1 1 0 1 (fun _ _ => ⟨f 0, f 1, f 2, f 3⟩)
      4 1 (fun _ _ => ⟨f 4, f 5, f 6, f 7⟩) 8 1 (fun _ _ => ⟨f 8, f 9, f 10, f 11⟩) where
  mc_pos := by decide
  nc_pos := by decide
  kc_pos := by decide
  mc_even := by decide
  nc_even := by decide
  matA := by
    intro i j hi hj
    have h1 : i = 0 := Nat.lt_one_iff.mp hi
    have h2 : j = 0 := Nat.lt_one_iff.mp hj
    subst h1 h2
    exact readQ_memOf (by omega) (by omega)
  matB := by
    intro i j hi hj
    have h1 : i = 0 := Nat.lt_one_iff.mp hi
    have h2 : j = 0 := Nat.lt_one_iff.mp hj
    subst h1 h2
    exact readQ_memOf (by omega) (by omega)
  matC := by
    intro i j hi hj
    have h1 : i = 0 := Nat.lt_one_iff.mp hi
    have h2 : j = 0 := Nat.lt_one_iff.mp hj
    subst h1 h2
    exact readQ_memOf (by omega) (by omega)
  lda := by decide
  ldb := by decide
  ldc := by decide
  apartA := by
    rintro a ⟨i, j, hi, hj, h⟩ ⟨i', j', hi', hj', h'⟩
    have h1 : i < 1 := hi
    have h2 : j < 1 := hj
    unfold InQ at *; omega
  apartB := by
    rintro a ⟨i, j, hi, hj, h⟩ ⟨i', j', hi', hj', h'⟩
    have h1 : i < 1 := hi
    have h2 : j < 1 := hj
    unfold InQ at *; omega
  alignB := by decide
  alignA := by decide
  freshB := by
    intro a ha
    unfold InBuf at ha; unfold memOf
    rw [if_neg (by omega)]
  freshA := by
    intro a ha
    unfold InBuf at ha; unfold memOf
    rw [if_neg (by omega)]
  freshAB := by
    intro a h1 h2
    have e1 : fixMod ((64:Int) * 64) 32 = 4096 := by decide
    have e2 : fixMod ((64:Int) * 512) 32 = 32768 := by decide
    simp only [InBuf] at h1 h2
    omega
  kc32 := by unfold Fits32; decide
  m32 := by unfold Fits32; decide
  n32 := by unfold Fits32; decide
  k32 := by unfold Fits32; decide
  ldc32 := by unfold Fits32; decide
  ldcN32 := by unfold Fits32; decide
  ldbN32 := by unfold Fits32; decide
  ldbK32 := by unfold Fits32; decide
  ldaM32 := by unfold Fits32; decide
  ldaK32 := by unfold Fits32; decide

/-- `A = j`, `B = 1`, `C = 0`. -/
def cfgCells (a : Int) : Int := if a = 2 ∨ a = 4 then 1 else 0

/-- C71, violated: with A = j, B = 1, C = 0 and BETA = 0 the result should be ALPHA * j; if ALPHA = i the build that folds
ALPHA into the packing of B leaves j * i = -k, and the build without either switch leaves j, instead of k. -/
theorem C71_bpack_neither_violated :
    GemmPre (memOf 0 12 cfgCells) ⟨64, 512, 64⟩ 1000 200000 'N' 'N' 1 1 1 0 1 (fun _ _ => ⟨0, 0, 1, 0⟩)
        4 1 (fun _ _ => ⟨1, 0, 0, 0⟩) 8 1 (fun _ _ => ⟨0, 0, 0, 0⟩) ∧
      (∃ m', Cfg.gemmAVX ⟨64, 512, 64⟩ 1000 200000 (fun _ => 0) 'N' 'N' 1 1 1 .aPack (.z ⟨0, 1⟩) 0 1 4 1 (.d 0) 8 1
          (memOf 0 12 cfgCells) = .ok ((), m') ∧ readQ m' 8 = some ⟨0, 0, 0, 1⟩) ∧
      (∃ m', Cfg.gemmAVX ⟨64, 512, 64⟩ 1000 200000 (fun _ => 0) 'N' 'N' 1 1 1 .bPack (.z ⟨0, 1⟩) 0 1 4 1 (.d 0) 8 1
          (memOf 0 12 cfgCells) = .ok ((), m') ∧ readQ m' 8 = some ⟨0, 0, 0, -1⟩) ∧
      (∃ m', Cfg.gemmAVX ⟨64, 512, 64⟩ 1000 200000 (fun _ => 0) 'N' 'N' 1 1 1 .neither (.z ⟨0, 1⟩) 0 1 4 1 (.d 0) 8 1
          (memOf 0 12 cfgCells) = .ok ((), m') ∧ readQ m' 8 = some ⟨0, 0, 1, 0⟩) := by
  have h := gemmPre_one cfgCells
  have run : ∀ (w : AlphaAt) (q : Quat Int),
      cfgSpec w (Scal.z (⟨0, 1⟩ : Cplx Int)).toH (Scal.d (0 : Int)).toH 1 (fun _ => (⟨0, 0, 1, 0⟩ : Quat Int).toH)
        (fun _ => (⟨1, 0, 0, 0⟩ : Quat Int).toH) (⟨0, 0, 0, 0⟩ : Quat Int).toH = q.toH →
      ∃ m', Cfg.gemmAVX ⟨64, 512, 64⟩ 1000 200000 (fun _ => 0) 'N' 'N' 1 1 1 w (.z ⟨0, 1⟩) 0 1 4 1 (.d 0) 8 1
          (memOf 0 12 cfgCells) = .ok ((), m') ∧ readQ m' 8 = some q := by
    intro w q hq
    obtain ⟨m', e, a, -⟩ := C71_gemm_computes w (memOf 0 12 cfgCells) ⟨64, 512, 64⟩ 1000 200000 (fun _ => 0) 'N' 'N' 1 1 1
      (.z ⟨0, 1⟩) (.d 0) 0 1 4 1 8 1 _ _ _ h
    refine ⟨m', e, ?_⟩
    have := a 0 0 (by decide) (by decide)
    simp only [Nat.cast_zero, zero_mul, add_zero, mul_zero] at this
    rw [this]
    congr 1
    exact (eq_ofH hq.symm).symm
  refine ⟨h, run _ _ ?_, run _ _ ?_, run _ _ ?_⟩ <;>
    (unfold cfgSpec; ext <;> simp [Scal.toH])

/-! ## Bits -/

section bits
variable {F : Type} [Arith F]

/-- C71, bit for bit, in any arithmetic: under every choice the value left at `C(i,j)` is one function of ALPHA, BETA, row
`i` of op(A), column `j` of op(B) and the old entry — not of the block sizes, sizes, addresses or leading dimensions. -/
theorem C71_gemm_bits (w : AlphaAt) (TRANSA TRANSB : Char) (K : Int) (ALPHA BETA : Scal F) :
    ∃ f : (Nat → Quat F) → (Nat → Quat F) → Quat F → Quat F,
      ∀ (m : Mem F) (blk : Blk) (bAddr aAddr : Int) (junk : Int → F) (M N : Int) (A LDA B LDB C LDC : Int)
        (Av Bv Cv : Nat → Nat → Quat F),
        GemmPre m blk bAddr aAddr TRANSA TRANSB M.toNat N.toNat K.toNat A LDA Av B LDB Bv C LDC Cv →
        ∃ m', Cfg.gemmAVX blk bAddr aAddr junk TRANSA TRANSB M N K w ALPHA A LDA B LDB BETA C LDC m = .ok ((), m') ∧
          MatAt m' C LDC M.toNat N.toNat (fun i j =>
            f (fun k => if TRANSA = 'T' ∨ TRANSA = 'C' then Av k i else Av i k)
              (fun k => if TRANSB = 'T' ∨ TRANSB = 'C' then Bv j k else Bv k j) (Cv i j)) ∧
          SameOutside (MatCell C LDC M.toNat N.toNat) m m' := by
  refine ⟨fun x y c => Cfg.gemmElt w TRANSA TRANSB ALPHA BETA K.toNat x y c, ?_⟩
  intro m blk bAddr aAddr junk M N A LDA B LDB C LDC Av Bv Cv h
  obtain ⟨_, m', h1, h2, h3⟩ := Cfg.gemmAVX_wp (w := w) (junk := junk) (ALPHA := ALPHA) (BETA := BETA) h
  rw [Cfg.gemmAVX_clamp h.mc_pos h.nc_pos h.kc_pos]
  exact ⟨m', h1, h2, h3⟩

/-- C71, the micro-kernel, bit for bit: whichever side does the permutations, A's or B's packing or the kernel itself, the
kernel run on the panels packed to match does the same to C as the shipped one on the shipped panels, and faults no more. -/
theorem C71_kernel (fa fb : Bool) (mm nn K : Nat) (A B A' B' C LDC : Int) (xa xb c : Nat → Nat → Quat F) (m m0 : Mem F)
    (hmm : mm = 1 ∨ mm = 2) (hnn : nn = 1 ∨ nn = 2) (hld : (mm:Int) ≤ LDC)
    (hA : ∀ k, k < K → PairAt m (A + 8 * k) (Cfg.opA fa (xa 0 k, xa 1 k)))
    (hB : ∀ k, k < K → PairAt m (B + 8 * k) (Cfg.opB fb (xb 0 k, xb 1 k)))
    (hA' : ∀ k, k < K → PairAt m0 (A' + 8 * k) (opT1 (xa 0 k, xa 1 k)))
    (hB' : ∀ k, k < K → PairAt m0 (B' + 8 * k) (opT2 (xb 0 k, xb 1 k)))
    (haA : aligned32 A = true) (haB : aligned32 B = true) (haA' : aligned32 A' = true) (haB' : aligned32 B' = true)
    (hC : MatAt m C LDC mm nn c) (hC' : MatAt m0 C LDC mm nn c) :
    ∃ m1 m2 V, Cfg.Kern fa fb mm nn K A B C LDC m = .ok ((), m1) ∧ Kern mm nn K A' B' C LDC m0 = .ok ((), m2) ∧
      MatAt m1 C LDC mm nn V ∧ MatAt m2 C LDC mm nn V ∧
      SameOutside (MatCell C LDC mm nn) m m1 ∧ SameOutside (MatCell C LDC mm nn) m0 m2 := by
  obtain ⟨_, m1, e1, a1, s1⟩ := Cfg.Kern_wp (fa := fa) (fb := fb) hmm hnn hld hA hB haA haB hC
  obtain ⟨_, m2, e2, a2, s2⟩ := Kern_wp hmm hnn hld hA' hB' haA' haB' hC'
  exact ⟨m1, m2, _, e1, e2, a1, a2, s1, s2⟩

/-- C71, the micro-kernel in exact arithmetic: `c_ij + Σ_k a_ik b_kj`, under every choice. -/
theorem C71_kernel_exact {R : Type} [CommRing R] (fa fb : Bool) (mm nn K : Nat) (A B C LDC : Int)
    (xa xb c : Nat → Nat → Quat R) (m : Mem R)
    (hmm : mm = 1 ∨ mm = 2) (hnn : nn = 1 ∨ nn = 2) (hld : (mm:Int) ≤ LDC)
    (hA : ∀ k, k < K → PairAt m (A + 8 * k) (Cfg.opA fa (xa 0 k, xa 1 k)))
    (hB : ∀ k, k < K → PairAt m (B + 8 * k) (Cfg.opB fb (xb 0 k, xb 1 k)))
    (haA : aligned32 A = true) (haB : aligned32 B = true) (hC : MatAt m C LDC mm nn c) :
    ∃ m1, Cfg.Kern fa fb mm nn K A B C LDC m = .ok ((), m1) ∧
      MatAt m1 C LDC mm nn (fun i j => Quat.ofH ((c i j).toH + ∑ k ∈ range K, (xa i k).toH * (xb j k).toH)) ∧
      SameOutside (MatCell C LDC mm nn) m m1 := by
  obtain ⟨_, m1, e1, a1, s1⟩ := Cfg.Kern_wp (fa := fa) (fb := fb) hmm hnn hld hA hB haA haB hC
  exact ⟨m1, e1, matAt_ext (fun i j _ _ => eq_ofH (toH_accum _ _ _ _)) a1, s1⟩

theorem kernBody_shipped (s : KernSt F) : Cfg.kernBody true true s = kernBody s := by
  simp only [Cfg.kernBody, kernBody, Cfg.spreadB, Cfg.spreadA, if_true, prog_bind_assoc]
  rfl

/-- The shipped micro-kernel is the variant with both switches on. -/
theorem C71_kernel_shipped (M N K A B C LDC : Int) : (Cfg.Kern true true M N K A B C LDC : Prog F Unit) = Kern M N K A B C LDC := by
  unfold Cfg.Kern Kern
  simp only [kernBody_shipped]

end bits

/-! ## The hypotheses can be met -/

example (f : Int → Int) : ∃ m', Cfg.gemmAVX ⟨64, 512, 64⟩ 1000 200000 (fun _ => 0) 'C' 'N' 3 1 2 .bPack (.h ⟨2, 3, 0, 5⟩) 0 2 24 2
    (.z ⟨1, 7⟩) 33 4 (memOf 0 64 f) = .ok ((), m') :=
  let ⟨m', h, _⟩ := C71_gemm_computes .bPack _ _ _ _ _ 'C' 'N' 3 1 2 _ _ 0 2 24 2 33 4 _ _ _ (gemmPre_example' _)
  ⟨m', h⟩

example (f : Int → Int) : ∃ m', Cfg.gemmAVX ⟨64, 512, 64⟩ 1000 200000 (fun _ => 0) 'C' 'N' 3 1 2 .bPack (.d 7) 0 2 24 2
    (.z ⟨1, 7⟩) 33 4 (memOf 0 64 f) = .ok ((), m') ∧
    gemmAVX ⟨64, 512, 64⟩ 1000 200000 (fun _ => 0) 'C' 'N' 3 1 2 (.d 7) 0 2 24 2 (.z ⟨1, 7⟩) 33 4 (memOf 0 64 f) = .ok ((), m') :=
  C71_real_either _ _ _ _ _ 'C' 'N' 3 1 2 _ _ 0 2 24 2 33 4 _ _ _ (gemmPre_example' _)

/-- The kernel on unpermuted panels of two pairs at 0 and 16, C at 32. -/
example : ∃ m1, Cfg.Kern (F := Int) false false 2 2 2 0 16 32 2 (memOf 0 48 (fun a => a)) = .ok ((), m1) :=
  let ⟨m', h, _⟩ := C71_kernel_exact false false 2 2 2 0 16 32 2
    (fun i k => let p : Int := 0 + 8 * k + 4 * i; ⟨p, p+1, p+2, p+3⟩)
    (fun i k => let p : Int := 16 + 8 * k + 4 * i; ⟨p, p+1, p+2, p+3⟩)
    (fun i j => let p : Int := 32 + 4 * (i + j * 2); ⟨p, p+1, p+2, p+3⟩) _ (.inr rfl) (.inr rfl) (by decide)
    (fun k hk => ⟨by
      have e : (0:Int) + 8 * k = 0 + 8 * k + 4 * (0:Nat) := by push_cast; ring
      rw [e]; exact readQ_memOf (by push_cast; omega) (by push_cast; omega), by
      have e : (0:Int) + 8 * k + 4 = 0 + 8 * k + 4 * (1:Nat) := by push_cast; ring
      rw [e]; exact readQ_memOf (by push_cast; omega) (by push_cast; omega)⟩)
    (fun k hk => ⟨by
      have e : (16:Int) + 8 * k = 16 + 8 * k + 4 * (0:Nat) := by push_cast; ring
      rw [e]; exact readQ_memOf (by push_cast; omega) (by push_cast; omega), by
      have e : (16:Int) + 8 * k + 4 = 16 + 8 * k + 4 * (1:Nat) := by push_cast; ring
      rw [e]; exact readQ_memOf (by push_cast; omega) (by push_cast; omega)⟩)
    (by decide) (by decide)
    (fun i j hi hj => readQ_memOf (by omega) (by omega))
  ⟨m', h⟩

end Haxx
