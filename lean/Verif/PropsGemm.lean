import Verif.GemmTop
import Verif.PropsHblas1

/-!
# Property theorems: matrix level-1 (C20, C21), SIMD GEMM (C22–C27), 32-bit indices (C38)
-/

namespace Haxx
open Quaternion Finset

/-! ## Non-positive sizes -/

section clamp
variable {F : Type} [Arith F]

theorem gemmI_neg {blk : Blk} (hb : 0 < blk.MC) {t : Char} {M nJ nK : Int} {ALPHA : Scal F}
    {Ap LDA Cj LDC aPack bPack : Int} (hM : M ≤ 0) :
    gemmI blk t M nJ nK ALPHA Ap LDA Cj LDC aPack bPack = pure () := by
  unfold gemmI
  rw [nIter_nonpos hb hM]
  rfl

theorem gemmJ_clampM {blk : Blk} (hb : 0 < blk.MC) {tA tB : Char} {M N K : Int} {ALPHA : Scal F}
    {A LDA B LDB C LDC aPack bPack : Int} (hM : M ≤ 0) :
    gemmJ blk tA tB M N K ALPHA A LDA B LDB C LDC aPack bPack =
      gemmJ blk tA tB 0 N K ALPHA A LDA B LDB C LDC aPack bPack := by
  unfold gemmJ gemmJStep gemmK gemmKStep
  simp only [gemmI_neg hb hM, gemmI_neg hb (le_refl (0:Int))]

theorem gemmJ_clampK {blk : Blk} (hb : 0 < blk.KC) {tA tB : Char} {M N K : Int} {ALPHA : Scal F}
    {A LDA B LDB C LDC aPack bPack : Int} (hK : K ≤ 0) :
    gemmJ blk tA tB M N K ALPHA A LDA B LDB C LDC aPack bPack =
      gemmJ blk tA tB M N 0 ALPHA A LDA B LDB C LDC aPack bPack := by
  unfold gemmJ gemmJStep gemmK
  rw [nIter_nonpos hb hK, nIter_nonpos hb (le_refl (0:Int))]
  rfl

theorem gemmJ_clampN {blk : Blk} (hb : 0 < blk.NC) {tA tB : Char} {M N K : Int} {ALPHA : Scal F}
    {A LDA B LDB C LDC aPack bPack : Int} (hN : N ≤ 0) :
    gemmJ blk tA tB M N K ALPHA A LDA B LDB C LDC aPack bPack =
      gemmJ blk tA tB M 0 K ALPHA A LDA B LDB C LDC aPack bPack := by
  unfold gemmJ
  rw [nIter_nonpos hb hN, nIter_nonpos hb (le_refl (0:Int))]
  rfl

theorem scalm_clamp {SCALV : Char → Int → Scal F → Int → Int → Prog F Unit}
    {SIDE T : Char} {M N : Int} {ALPHA : Scal F} {A LDA INCA : Int} (h : M ≤ 0 ∨ N ≤ 0) :
    scalm SCALV SIDE T M N ALPHA A LDA INCA = pure () := by
  unfold scalm
  rw [if_pos (by omega)]

theorem toNat_cases (x : Int) : x ≤ 0 ∧ ((x.toNat : Nat) : Int) = 0 ∨ ((x.toNat : Nat) : Int) = x := by
  omega

/-- A non-positive size behaves as zero. -/
theorem gemmAVX_clamp {blk : Blk} (h1 : 0 < blk.MC) (h2 : 0 < blk.NC) (h3 : 0 < blk.KC)
    {bAddr aAddr : Int} {junk : Int → F} {tA tB : Char} {M N K : Int}
    {ALPHA BETA : Scal F} {A LDA B LDB C LDC : Int} :
    gemmAVX blk bAddr aAddr junk tA tB M N K ALPHA A LDA B LDB BETA C LDC =
      gemmAVX blk bAddr aAddr junk tA tB M.toNat N.toNat K.toNat ALPHA A LDA B LDB BETA C LDC := by
  have hN : gemmAVX blk bAddr aAddr junk tA tB M N K ALPHA A LDA B LDB BETA C LDC =
      gemmAVX blk bAddr aAddr junk tA tB M N.toNat K ALPHA A LDA B LDB BETA C LDC := by
    rcases toNat_cases N with ⟨hx, h0⟩ | h0 <;> rw [h0]
    unfold gemmAVX
    rw [gemmJ_clampN h2 hx, scalm_clamp (Or.inr hx), scalm_clamp (Or.inr (le_refl 0))]
  have hM : ∀ N, gemmAVX blk bAddr aAddr junk tA tB M N K ALPHA A LDA B LDB BETA C LDC =
      gemmAVX blk bAddr aAddr junk tA tB M.toNat N K ALPHA A LDA B LDB BETA C LDC := by
    intro N
    rcases toNat_cases M with ⟨hx, h0⟩ | h0 <;> rw [h0]
    unfold gemmAVX
    rw [gemmJ_clampM h1 hx, scalm_clamp (Or.inl hx), scalm_clamp (Or.inl (le_refl 0))]
  have hK : ∀ M N, gemmAVX blk bAddr aAddr junk tA tB M N K ALPHA A LDA B LDB BETA C LDC =
      gemmAVX blk bAddr aAddr junk tA tB M N K.toNat ALPHA A LDA B LDB BETA C LDC := by
    intro M N
    rcases toNat_cases K with ⟨hx, h0⟩ | h0 <;> rw [h0]
    unfold gemmAVX
    rw [gemmJ_clampK h3 hx]
  rw [hN, hM, hK]

end clamp

/-! ## The specification of GEMM -/

/-- `op(X)` for a BLAS flag: `'T'` transpose, `'C'` conjugate transpose, `'R'` conjugate, anything
else the matrix itself. -/
noncomputable def opSpec {R : Type} [CommRing R] (t : Char) (X : Nat → Nat → Quat R) (i k : Nat) : ℍ[R] :=
  if t = 'T' then (X k i).toH
  else if t = 'C' then star (X k i).toH
  else if t = 'R' then star (X i k).toH
  else (X i k).toH

section exact
variable {R : Type} [CommRing R]

theorem toH_qinc (x y r : Quat R) : (qinc x y r).toH = r.toH + x.toH * y.toH := by
  ext <;> simp [qinc] <;> ring

theorem toH_accum (x y : Nat → Quat R) (n : Nat) (r : Quat R) :
    (accum x y n r).toH = r.toH + ∑ k ∈ range n, (x k).toH * (y k).toH := by
  induction n with
  | zero => simp [accum]
  | succ n ih => rw [accum, toH_qinc, ih, sum_range_succ, add_assoc]

theorem toH_preOP (c : Bool) (s : Scal R) (x : Quat R) :
    (preOP c (loadScalar (some s)) x).toH = s.toH * (if c then star x.toH else x.toH) := by
  unfold preOP
  cases c
  · simp [toH_regMulL]
  · simp [toH_regMulL, toH_qconj256]

theorem toH_preOP_none (c : Bool) (x : Quat R) :
    (preOP c (loadScalar none) x).toH = if c then star x.toH else x.toH := by
  unfold preOP loadScalar regMulL
  cases c
  · simp
  · simp [toH_qconj256]

theorem opSpec_eq (t : Char) (X : Nat → Nat → Quat R) (i k : Nat) :
    (if isCj t then star (opE t X i k).toH else (opE t X i k).toH) = opSpec t X i k := by
  unfold isCj opE opSpec isT
  by_cases h1 : t = 'T'
  · subst h1; simp
  by_cases h2 : t = 'C'
  · subst h2; simp
  by_cases h3 : t = 'R'
  · subst h3; simp
  simp [h1, h2, h3]

theorem toH_gemmElt (tA tB : Char) (ALPHA BETA : Scal R) (K : Nat) (X Y : Nat → Nat → Quat R)
    (i j : Nat) (c : Quat R) :
    (gemmElt tA tB ALPHA BETA K (fun k => opE tA X i k) (fun k => opE tB Y k j) c).toH =
      ALPHA.toH * ∑ k ∈ range K, opSpec tA X i k * opSpec tB Y k j + BETA.toH * c.toH := by
  unfold gemmElt
  rw [toH_accum, toH_scalOp, if_pos rfl, add_comm, mul_sum]
  congr 1
  refine sum_congr rfl ?_
  intro k _
  rw [toH_preOP, toH_preOP_none, opSpec_eq, opSpec_eq, mul_assoc]

end exact

/-! ## C22: the result, exactly -/

section exact
variable {R : Type} [CommRing R]

/-- C22. After the SIMD GEMM every `C(i,j)` is `ALPHA * Σ_k op(A)(i,k) op(B)(k,j) + BETA * C(i,j)`,
for all sizes, leading dimensions, flags, scalars and block sizes. -/
theorem C22_gemm (m : Mem R) (blk : Blk) (bAddr aAddr : Int) (junk : Int → R) (TRANSA TRANSB : Char)
    (M N K : Int) (ALPHA BETA : Scal R) (A LDA B LDB C LDC : Int) (Av Bv Cv : Nat → Nat → Quat R)
    (h : GemmPre m blk bAddr aAddr TRANSA TRANSB M.toNat N.toNat K.toNat A LDA Av B LDB Bv C LDC Cv) :
    ∃ m', gemmAVX blk bAddr aAddr junk TRANSA TRANSB M N K ALPHA A LDA B LDB BETA C LDC m = .ok ((), m') ∧
      MatAt m' C LDC M.toNat N.toNat (fun i j => Quat.ofH
        (ALPHA.toH * ∑ k ∈ range K.toNat, opSpec TRANSA Av i k * opSpec TRANSB Bv k j +
          BETA.toH * (Cv i j).toH)) := by
  obtain ⟨_, m', h1, h2, _⟩ := gemmAVX_wp (junk := junk) (ALPHA := ALPHA) (BETA := BETA) h
  rw [gemmAVX_clamp h.mc_pos h.nc_pos h.kc_pos]
  refine ⟨m', h1, matAt_ext ?_ h2⟩
  intro i j _ _
  exact eq_ofH (toH_gemmElt _ _ _ _ _ _ _ _ _ _)

end exact

section bits
variable {F : Type} [Arith F]

/-! ## C23: safety and frame -/

/-- C23. The SIMD GEMM never faults — the hypotheses give it access to nothing but the referenced
entries of A, B, C, so in particular it reads nothing else — and the only memory that differs
afterwards is the `M × N` block of C; A, B and all padding are as before, the buffers are
released (inaccessible again). -/
theorem C23_gemm_frame (m : Mem F) (blk : Blk) (bAddr aAddr : Int) (junk : Int → F) (TRANSA TRANSB : Char)
    (M N K : Int) (ALPHA BETA : Scal F) (A LDA B LDB C LDC : Int) (Av Bv Cv : Nat → Nat → Quat F)
    (h : GemmPre m blk bAddr aAddr TRANSA TRANSB M.toNat N.toNat K.toNat A LDA Av B LDB Bv C LDC Cv) :
    ∃ m', gemmAVX blk bAddr aAddr junk TRANSA TRANSB M N K ALPHA A LDA B LDB BETA C LDC m = .ok ((), m') ∧
      SameOutside (MatCell C LDC M.toNat N.toNat) m m' ∧
      MatAt m' A LDA (if isT TRANSA then K.toNat else M.toNat) (if isT TRANSA then M.toNat else K.toNat) Av ∧
      MatAt m' B LDB (if isT TRANSB then N.toNat else K.toNat) (if isT TRANSB then K.toNat else N.toNat) Bv ∧
      (∀ a, InBuf bAddr (4 * fixMod (blk.KC * blk.NC) 32) a ∨ InBuf aAddr (4 * fixMod (blk.KC * blk.MC) 32) a →
        m' a = none) := by
  obtain ⟨_, m', h1, h2, h3⟩ := gemmAVX_wp (junk := junk) (ALPHA := ALPHA) (BETA := BETA) h
  rw [gemmAVX_clamp h.mc_pos h.nc_pos h.kc_pos]
  refine ⟨m', h1, h3, matAt_congr (fun a ha => (h3 a (h.apartA a ha)).symm) h.matA,
    matAt_congr (fun a ha => (h3 a (h.apartB a ha)).symm) h.matB, ?_⟩
  intro a ha
  have hn : m a = none := ha.elim (h.freshB a) (h.freshA a)
  rw [h3 a, hn]
  intro hc
  have := matCell_isSome h.matC hc
  rw [hn] at this; cases this

/-! ## C24: blocking independence -/

/-- C24. Two calls with any block sizes, sizes, leading dimensions and addresses: entry `(i,j)` of
the first and `(i',j')` of the second get the same bits as soon as row `i`/`i'` of op(A), column
`j`/`j'` of op(B) and the old entries of C are the same (whatever the arithmetic). -/
theorem C24_gemm_blocking (TRANSA TRANSB : Char) (K : Int) (ALPHA BETA : Scal F)
    (m : Mem F) (blk : Blk) (bAddr aAddr : Int) (junk : Int → F) (M N : Int) (A LDA B LDB C LDC : Int)
    (Av Bv Cv : Nat → Nat → Quat F)
    (h : GemmPre m blk bAddr aAddr TRANSA TRANSB M.toNat N.toNat K.toNat A LDA Av B LDB Bv C LDC Cv)
    (n : Mem F) (blk' : Blk) (bAddr' aAddr' : Int) (junk' : Int → F) (M' N' : Int)
    (A' LDA' B' LDB' C' LDC' : Int) (Av' Bv' Cv' : Nat → Nat → Quat F)
    (h' : GemmPre n blk' bAddr' aAddr' TRANSA TRANSB M'.toNat N'.toNat K.toNat A' LDA' Av' B' LDB' Bv'
      C' LDC' Cv')
    (i j i' j' : Nat) (hi : i < M.toNat) (hj : j < N.toNat) (hi' : i' < M'.toNat) (hj' : j' < N'.toNat)
    (hrow : ∀ k, k < K.toNat → opE TRANSA Av i k = opE TRANSA Av' i' k)
    (hcol : ∀ k, k < K.toNat → opE TRANSB Bv k j = opE TRANSB Bv' k j')
    (hc : Cv i j = Cv' i' j') :
    ∃ m' n' q,
      gemmAVX blk bAddr aAddr junk TRANSA TRANSB M N K ALPHA A LDA B LDB BETA C LDC m = .ok ((), m') ∧
      gemmAVX blk' bAddr' aAddr' junk' TRANSA TRANSB M' N' K ALPHA A' LDA' B' LDB' BETA C' LDC' n =
        .ok ((), n') ∧
      readQ m' (C + 4 * (i + j * LDC)) = some q ∧ readQ n' (C' + 4 * (i' + j' * LDC')) = some q := by
  obtain ⟨_, m', h1, h2, _⟩ := gemmAVX_wp (junk := junk) (ALPHA := ALPHA) (BETA := BETA) h
  obtain ⟨_, n', g1, g2, _⟩ := gemmAVX_wp (junk := junk') (ALPHA := ALPHA) (BETA := BETA) h'
  rw [gemmAVX_clamp h.mc_pos h.nc_pos h.kc_pos, gemmAVX_clamp h'.mc_pos h'.nc_pos h'.kc_pos]
  refine ⟨m', n', _, h1, g1, h2 i j hi hj, ?_⟩
  rw [g2 i' j' hi' hj']
  dsimp only [gemmElt]
  rw [hc]
  refine congrArg some (Eq.symm ?_)
  exact accum_congr (fun k hk => by rw [hrow k hk]) (fun k hk => by rw [hcol k hk])

/-! ## C26: degenerate shapes -/

/-- C26. With `M ≤ 0` or `N ≤ 0` nothing changes. -/
theorem C26_gemm_empty (m : Mem F) (blk : Blk) (bAddr aAddr : Int) (junk : Int → F) (TRANSA TRANSB : Char)
    (M N K : Int) (ALPHA BETA : Scal F) (A LDA B LDB C LDC : Int) (Av Bv Cv : Nat → Nat → Quat F)
    (h : GemmPre m blk bAddr aAddr TRANSA TRANSB M.toNat N.toNat K.toNat A LDA Av B LDB Bv C LDC Cv)
    (hz : M ≤ 0 ∨ N ≤ 0) :
    gemmAVX blk bAddr aAddr junk TRANSA TRANSB M N K ALPHA A LDA B LDB BETA C LDC m = .ok ((), m) := by
  obtain ⟨m', h1, h2, _⟩ := C23_gemm_frame m blk bAddr aAddr junk TRANSA TRANSB M N K ALPHA BETA
    A LDA B LDB C LDC Av Bv Cv h
  have : m' = m := by
    funext a
    apply h2
    rintro ⟨i, j, hi, hj, _⟩
    omega
  rw [h1, this]

/-- C26. With `K ≤ 0` the result is exactly what SCALM with BETA leaves (bit for bit). -/
theorem C26_gemm_K0 (m : Mem F) (blk : Blk) (bAddr aAddr : Int) (junk : Int → F) (TRANSA TRANSB : Char)
    (M N K : Int) (ALPHA BETA : Scal F) (A LDA B LDB C LDC : Int) (Av Bv Cv : Nat → Nat → Quat F)
    (h : GemmPre m blk bAddr aAddr TRANSA TRANSB M.toNat N.toNat K.toNat A LDA Av B LDB Bv C LDC Cv)
    (hz : K ≤ 0) :
    ∃ m', gemmAVX blk bAddr aAddr junk TRANSA TRANSB M N K ALPHA A LDA B LDB BETA C LDC m = .ok ((), m') ∧
      scalm scalvAVX 'L' 'N' M N BETA C LDC 1 m = .ok ((), m') := by
  obtain ⟨_, m', h1, h2, h3⟩ := gemmAVX_wp (junk := junk) (ALPHA := ALPHA) (BETA := BETA) h
  rw [gemmAVX_clamp h.mc_pos h.nc_pos h.kc_pos]
  refine ⟨m', h1, ?_⟩
  have hld := h.ldc
  obtain ⟨_, m'', g1, g2, g3⟩ := scalm_wp (SCALV := scalvAVX) (SIDE := 'L') (M := M) (N := N) (ALPHA := BETA)
    (Av := Cv) (A := C) (LDA := LDC) (m0 := m) (INCA := 1) (f := scalOp true BETA)
    (fun m X x hx => scalvAVX_wp hx (Or.inl (by decide))) (smat_one.mpr h.matC) (by omega)
    (by unfold ColFits; omega)
  have : m'' = m' := by
    funext a
    by_cases ha : MatCell C LDC M.toNat N.toNat a
    · obtain ⟨i, j, hi, hj, hq⟩ := ha
      have e1 := h2 i j hi hj
      have hK : K.toNat = 0 := by omega
      rw [hK] at e1
      exact mem_eq_of_readQ (smat_one.mp g2 i j hi hj) e1 hq
    · rw [g3 a (fun hc => ha (smatCell_one.mp hc)), h3 a ha]
  rw [g1, this]

end bits

section exact
variable {R : Type} [CommRing R]

/-- C26. With ALPHA = 0 (of any of the three types) the result is `BETA * C`. -/
theorem C26_gemm_alpha0 (m : Mem R) (blk : Blk) (bAddr aAddr : Int) (junk : Int → R) (TRANSA TRANSB : Char)
    (M N K : Int) (ALPHA BETA : Scal R) (A LDA B LDB C LDC : Int) (Av Bv Cv : Nat → Nat → Quat R)
    (h : GemmPre m blk bAddr aAddr TRANSA TRANSB M.toNat N.toNat K.toNat A LDA Av B LDB Bv C LDC Cv)
    (hz : ALPHA.toH = 0) :
    ∃ m', gemmAVX blk bAddr aAddr junk TRANSA TRANSB M N K ALPHA A LDA B LDB BETA C LDC m = .ok ((), m') ∧
      MatAt m' C LDC M.toNat N.toNat (fun i j => Quat.ofH (BETA.toH * (Cv i j).toH)) := by
  obtain ⟨m', h1, h2⟩ := C22_gemm m blk bAddr aAddr junk TRANSA TRANSB M N K ALPHA BETA
    A LDA B LDB C LDC Av Bv Cv h
  refine ⟨m', h1, matAt_ext ?_ h2⟩
  intro i j _ _
  rw [hz, zero_mul, zero_add]

end exact


/-! ## C20, C21: SCALM and AXPYM (AVX build) -/

section exact
variable {R : Type} [CommRing R]

/-- C20. SCALM multiplies exactly the elements `A(i*INCA, j)` of the block by ALPHA. -/
theorem C20_scalm (m : Mem R) (SIDE : Char) (M N : Int) (ALPHA : Scal R) (A LDA INCA : Int)
    (Av : Nat → Nat → Quat R)
    (hA : SMatAt m A INCA LDA M.toNat N.toNat Av) (hinc : 0 < INCA)
    (hfit : ((M.toNat:Int) - 1) * INCA + 1 ≤ LDA) :
    ∃ m', scalm scalvAVX SIDE 'N' M N ALPHA A LDA INCA m = .ok ((), m') ∧
      SMatAt m' A INCA LDA M.toNat N.toNat (fun i j => Quat.ofH
        (if SIDE = 'L' then ALPHA.toH * (Av i j).toH else (Av i j).toH * ALPHA.toH)) ∧
      SameOutside (SMatCell A INCA LDA M.toNat N.toNat) m m' := by
  obtain ⟨_, m', h, h1, h2⟩ := scalm_wp (SCALV := scalvAVX) (SIDE := SIDE) (ALPHA := ALPHA)
    (f := scalOp (SIDE == 'L') ALPHA)
    (fun m X x hx => scalvAVX_wp hx (Or.inl (by omega))) hA hinc ⟨hinc, hfit⟩
  refine ⟨m', h, ?_, h2⟩
  intro i j hi hj
  rw [h1 i j hi hj]
  congr 1
  apply eq_ofH
  rw [toH_scalOp]
  by_cases hs : SIDE = 'L' <;> simp [hs]

/-- C20. A non-positive size or increment leaves memory alone. -/
theorem C20_scalm_empty {F : Type} [Arith F] (m : Mem F) (SIDE TRANSA : Char) (M N : Int) (ALPHA : Scal F)
    (A LDA INCA : Int) (h : M ≤ 0 ∨ N ≤ 0 ∨ INCA ≤ 0) :
    scalm scalvAVX SIDE TRANSA M N ALPHA A LDA INCA m = .ok ((), m) := by
  unfold scalm
  rw [if_pos (by omega)]
  rfl

/-- C20. A flag other than `'N'` is rejected by the assertion before memory is touched. -/
theorem C20_scalm_trans {F : Type} [Arith F] (m : Mem F) (SIDE TRANSA : Char) (M N : Int) (ALPHA : Scal F)
    (A LDA INCA : Int) (h : 0 < M ∧ 0 < N ∧ 0 < INCA) (ht : TRANSA ≠ 'N') :
    scalm scalvAVX SIDE TRANSA M N ALPHA A LDA INCA m = .error .assertFail := by
  unfold scalm
  rw [if_neg (by omega)]
  apply bind_error
  unfold assertP
  rw [if_neg (by simpa using ht)]
  rfl

/-- C20: the hypotheses hold for a strided 2 × 2 block. -/
example : ∃ Av, SMatAt (memOf (F := Int) 0 64 id) 1 2 5 2 2 Av ∧ (((2:Nat):Int) - 1) * 2 + 1 ≤ 5 := by
  refine ⟨fun i j => let p : Int := 1 + 4 * (i * 2 + j * 5); ⟨p, p+1, p+2, p+3⟩, ?_, by decide⟩
  intro i j hi hj
  exact readQ_memOf (by omega) (by omega)

variable [DecidableEq R]

/-- ALPHA is a quaternion `0 + 0i + 0j + ck` with `c ≠ 0`. -/
def Scal.pureK : Scal R → Prop
  | .h q => q.re = 0 ∧ q.i = 0 ∧ q.j = 0 ∧ q.k ≠ 0
  | _ => False

theorem eqZero_cases {ALPHA : Scal R} (h : ALPHA.eqZero = true) : ALPHA.toH = 0 ∨ ALPHA.pureK := by
  cases ALPHA with
  | d a =>
    left
    simp only [Scal.eqZero, ar_feq, ar_zero, decide_eq_true_eq] at h
    subst h; simp [Scal.toH]
  | z a =>
    left
    simp only [Scal.eqZero, ar_feq, ar_zero, Bool.and_eq_true, decide_eq_true_eq] at h
    obtain ⟨h1, h2⟩ := h
    ext <;> simp [Scal.toH, h1, h2]
  | h a =>
    simp only [Scal.eqZero, Quat.eqOp, Quat.mkReal, ar_feq, ar_zero, Bool.and_eq_true,
      decide_eq_true_eq] at h
    by_cases hk : a.k = 0
    · left; ext <;> simp_all [Scal.toH]
    · right; simp_all [Scal.pureK]

/-- C21 (partial: ALPHA not a non-zero pure `k` quaternion, TRANSA = 'N'; see
`C21_axpym_pureK_ignored` for the excluded case, where the claim is false). -/
theorem C21_axpym_partial (m : Mem R) (SIDE : Char) (M N : Int) (ALPHA : Scal R)
    (A LDA INCA B LDB INCB : Int) (Av Bv : Nat → Nat → Quat R)
    (hA : SMatAt m A INCA LDA M.toNat N.toNat Av) (hB : SMatAt m B INCB LDB M.toNat N.toNat Bv)
    (hinc : 0 < INCB) (hfit : ((M.toNat:Int) - 1) * INCB + 1 ≤ LDB)
    (hdis : Apart (SMatCell A INCA LDA M.toNat N.toNat) (SMatCell B INCB LDB M.toNat N.toNat))
    (hk : ¬ ALPHA.pureK) :
    ∃ m', axpym axpyvAVX SIDE 'N' M N ALPHA A LDA INCA B LDB INCB m = .ok ((), m') ∧
      SMatAt m' B INCB LDB M.toNat N.toNat (fun i j => Quat.ofH ((Bv i j).toH +
        (if SIDE = 'L' then ALPHA.toH * (Av i j).toH else (Av i j).toH * ALPHA.toH))) ∧
      SameOutside (SMatCell B INCB LDB M.toNat N.toNat) m m' := by
  cases hz : ALPHA.eqZero with
  | true =>
    have h0 : ALPHA.toH = 0 := (eqZero_cases hz).resolve_right hk
    refine ⟨m, ?_, ?_, fun _ _ => rfl⟩
    · unfold axpym
      rw [hz]
      by_cases hg : N ≤ 0 ∨ M ≤ 0
      · rw [if_pos hg]; rfl
      · rw [if_neg hg, if_pos rfl]; rfl
    · intro i j hi hj
      rw [hB i j hi hj, h0]
      simp
  | false =>
    obtain ⟨_, m', h, h1, h2⟩ := axpym_wp (AXPYV := axpyvAVX) (SIDE := SIDE) (ALPHA := ALPHA)
      (g := fun x y => axpyOp (SIDE == 'L') ALPHA x y)
      (fun m X Y x y hx hy hd => axpyvAVX_wp hx hy (Or.inl (by omega)) hd) hz hA hB ⟨hinc, hfit⟩ hdis
    refine ⟨m', h, ?_, h2⟩
    intro i j hi hj
    rw [h1 i j hi hj]
    congr 1
    apply eq_ofH
    rw [toH_axpyOp]
    by_cases hs : SIDE = 'L' <;> simp [hs]

/-- C21, violated: for every non-zero pure-`k` quaternion ALPHA the routine adds nothing. -/
theorem C21_axpym_pureK_ignored (m : Mem R) (SIDE TRANSA : Char) (M N : Int) (ALPHA : Scal R)
    (A LDA INCA B LDB INCB : Int) (hk : ALPHA.pureK) :
    axpym axpyvAVX SIDE TRANSA M N ALPHA A LDA INCA B LDB INCB m = .ok ((), m) := by
  have hz : ALPHA.eqZero = true := by
    cases ALPHA with
    | d a => exact hk.elim
    | z a => exact hk.elim
    | h a =>
      obtain ⟨h1, h2, h3, _⟩ := hk
      simp [Scal.eqZero, Quat.eqOp, Quat.mkReal, h1, h2, h3]
  unfold axpym
  rw [hz]
  by_cases hg : N ≤ 0 ∨ M ≤ 0
  · rw [if_pos hg]; rfl
  · rw [if_neg hg, if_pos rfl]; rfl

/-- C21, violated: a 1 × 1 instance where `B + k*A ≠ B` and the routine leaves `B`. -/
theorem C21_axpym_violated :
    ∃ (m : Mem Int) (Av Bv : Nat → Nat → Quat Int),
      SMatAt m 0 1 1 1 1 Av ∧ SMatAt m 4 1 1 1 1 Bv ∧
      axpym axpyvAVX 'L' 'N' 1 1 (.h ⟨0, 0, 0, 1⟩) 0 1 1 4 1 1 m = .ok ((), m) ∧
      (Bv 0 0).toH + (⟨0, 0, 0, 1⟩ : Quat Int).toH * (Av 0 0).toH ≠ (Bv 0 0).toH := by
  refine ⟨memOf 0 8 (fun _ => 1), fun _ _ => ⟨1, 1, 1, 1⟩, fun _ _ => ⟨1, 1, 1, 1⟩, ?_, ?_, ?_, ?_⟩
  · intro i j hi hj; exact readQ_memOf (by omega) (by omega)
  · intro i j hi hj; exact readQ_memOf (by omega) (by omega)
  · exact C21_axpym_pureK_ignored _ _ _ _ _ _ _ _ _ _ _ _ ⟨rfl, rfl, rfl, by decide⟩
  · intro h
    have := congrArg QuaternionAlgebra.re h
    simp at this

end exact

/-! ## C25, C27: packing -/

section bits
variable {F : Type} [Arith F]

/-- The four cells at `p`. -/
def Cells4 (m : Mem F) (p : Int) (a b c d : F) : Prop :=
  m p = some a ∧ m (p+1) = some b ∧ m (p+2) = some c ∧ m (p+3) = some d

/-- Layout of a packed A panel: for each pair of rows `2p, 2p+1` and each `k`, eight consecutive
doubles `re re' …`: scalar/i parts of both rows, then j/k parts of both rows. -/
def LayoutA (m : Mem F) (Xp : Int) (rows n : Nat) (e : Nat → Nat → Quat F) : Prop :=
  ∀ p k, 2 * p < rows → k < n →
    Cells4 m (Xp + 8 * (p * n + k)) (e (2*p) k).re (e (2*p) k).i (e (2*p+1) k).re (e (2*p+1) k).i ∧
    Cells4 m (Xp + 8 * (p * n + k) + 4) (e (2*p) k).j (e (2*p) k).k (e (2*p+1) k).j (e (2*p+1) k).k

/-- Layout of a packed B panel: scalar and j parts of both columns, then i and k parts. -/
def LayoutB (m : Mem F) (Xp : Int) (cols n : Nat) (e : Nat → Nat → Quat F) : Prop :=
  ∀ p k, 2 * p < cols → k < n →
    Cells4 m (Xp + 8 * (p * n + k)) (e (2*p) k).re (e (2*p+1) k).re (e (2*p) k).j (e (2*p+1) k).j ∧
    Cells4 m (Xp + 8 * (p * n + k) + 4) (e (2*p) k).i (e (2*p+1) k).i (e (2*p) k).k (e (2*p+1) k).k

theorem layoutA_of {m : Mem F} {Xp : Int} {P n : Nat} {e : Nat → Nat → Quat F}
    (h : PackAt m Xp opT1 ((P+1)/2) n e) : LayoutA m Xp P n e := by
  intro p k hp hk
  obtain ⟨h1, h2⟩ := h p k (by omega) hk
  rw [readQ_eq_some] at h1 h2
  push_cast at h1 h2
  exact ⟨h1, h2⟩

theorem layoutB_of {m : Mem F} {Xp : Int} {P n : Nat} {e : Nat → Nat → Quat F}
    (h : PackAt m Xp opT2 ((P+1)/2) n e) : LayoutB m Xp P n e := by
  intro p k hp hk
  obtain ⟨h1, h2⟩ := h p k (by omega) hk
  rw [readQ_eq_some] at h1 h2
  push_cast at h1 h2
  exact ⟨h1, h2⟩

/-- C27. Packing `nI` rows × `nK` columns of op(A): the panel holds, for every row `i < nI`, the
(conjugated) elements scaled by ALPHA, rows beyond the last are the packed zero, and only the panel
(`8*⌈nI/2⌉*nK` doubles) changes. -/
theorem C27_pack_A (m : Mem F) (TRANSA : Char) (ALPHA : Scal F) (nI nK : Nat) (A LDA aPack : Int)
    (Av : Nat → Nat → Quat F)
    (hA : MatAt m A LDA (if isT TRANSA then nK else nI) (if isT TRANSA then nI else nK) Av)
    (hbuf : ∀ a, InBuf aPack (8 * (((nI+1)/2 * nK : Nat) : Int)) a → (m a).isSome)
    (hsep : Apart (MatCell A LDA (if isT TRANSA then nK else nI) (if isT TRANSA then nI else nK))
      (InBuf aPack (8 * (((nI+1)/2 * nK : Nat) : Int)))) :
    ∃ m', aPackSel TRANSA ALPHA nI nK A LDA aPack m = .ok ((), m') ∧
      LayoutA m' aPack nI nK (fun i k =>
        if i < nI then
          regMulL (loadScalar (some ALPHA))
            (if TRANSA = 'T' then Av k i else if TRANSA = 'C' then qconj256 (Av k i)
             else if TRANSA = 'R' then qconj256 (Av i k) else Av i k)
        else preOP (isCj TRANSA) (loadScalar (some ALPHA)) setzero) ∧
      SameOutside (InBuf aPack (8 * (((nI+1)/2 * nK : Nat) : Int))) m m' := by
  rw [aPackSel_eq]
  obtain ⟨_, m', h, h1, h2⟩ := packGen_wp (pre := preOP (isCj TRANSA) (loadScalar (some ALPHA)))
    (op := opT1) (smat_opA hA) hbuf (fun a ha => hsep a (smat_opA_cell ha))
  refine ⟨m', h, ?_, h2⟩
  have e : (fun i k => if i < nI then
          regMulL (loadScalar (some ALPHA))
            (if TRANSA = 'T' then Av k i else if TRANSA = 'C' then qconj256 (Av k i)
             else if TRANSA = 'R' then qconj256 (Av i k) else Av i k)
        else preOP (isCj TRANSA) (loadScalar (some ALPHA)) setzero) =
      packElt (preOP (isCj TRANSA) (loadScalar (some ALPHA))) nI (opE TRANSA Av) := by
    funext i k
    unfold packElt
    by_cases hi : i < nI
    · rw [if_pos hi, if_pos hi]
      unfold preOP isCj opE isT
      by_cases h1 : TRANSA = 'T'
      · subst h1; simp
      by_cases h2 : TRANSA = 'C'
      · subst h2; simp
      by_cases h3 : TRANSA = 'R'
      · subst h3; simp
      simp [h1, h2, h3]
    · rw [if_neg hi, if_neg hi]
  rw [e]
  exact layoutA_of h1

/-- C27. Packing `nJ` columns × `nK` rows of op(B), without scaling. -/
theorem C27_pack_B (m : Mem F) (TRANSB : Char) (nJ nK : Nat) (B LDB bPack : Int)
    (Bv : Nat → Nat → Quat F)
    (hB : MatAt m B LDB (if isT TRANSB then nJ else nK) (if isT TRANSB then nK else nJ) Bv)
    (hbuf : ∀ a, InBuf bPack (8 * (((nJ+1)/2 * nK : Nat) : Int)) a → (m a).isSome)
    (hsep : Apart (MatCell B LDB (if isT TRANSB then nJ else nK) (if isT TRANSB then nK else nJ))
      (InBuf bPack (8 * (((nJ+1)/2 * nK : Nat) : Int)))) :
    ∃ m', bPackSel TRANSB nJ nK B LDB bPack m = .ok ((), m') ∧
      LayoutB m' bPack nJ nK (fun j k =>
        if j < nJ then
          (if TRANSB = 'T' then Bv j k else if TRANSB = 'C' then qconj256 (Bv j k)
             else if TRANSB = 'R' then qconj256 (Bv k j) else Bv k j)
        else preOP (isCj TRANSB) (loadScalar none) setzero) ∧
      SameOutside (InBuf bPack (8 * (((nJ+1)/2 * nK : Nat) : Int))) m m' := by
  rw [bPackSel_eq]
  obtain ⟨_, m', h, h1, h2⟩ := packGen_wp (pre := preOP (isCj TRANSB) (loadScalar none))
    (op := opT2) (smat_opB hB) hbuf (fun a ha => hsep a (smat_opB_cell ha))
  refine ⟨m', h, ?_, h2⟩
  have e : (fun j k => if j < nJ then
          (if TRANSB = 'T' then Bv j k else if TRANSB = 'C' then qconj256 (Bv j k)
             else if TRANSB = 'R' then qconj256 (Bv k j) else Bv k j)
        else preOP (isCj TRANSB) (loadScalar none) setzero) =
      packElt (preOP (isCj TRANSB) (loadScalar none)) nJ (fun j k => opE TRANSB Bv k j) := by
    funext i k
    unfold packElt
    by_cases hi : i < nJ
    · rw [if_pos hi, if_pos hi]
      unfold preOP isCj opE isT loadScalar regMulL
      by_cases h1 : TRANSB = 'T'
      · subst h1; simp
      by_cases h2 : TRANSB = 'C'
      · subst h2; simp
      by_cases h3 : TRANSB = 'R'
      · subst h3; simp
      simp [h1, h2, h3]
    · rw [if_neg hi, if_neg hi]
  rw [e]
  exact layoutB_of h1

/-- C25. A panel of at most `MC` rows and `KC` columns, `MC` even, fits in the allocated block of
`FixMod(KC*MC,32)` quaternions: packing succeeds when only that block is writable. -/
theorem C25_pack_fits_A (m : Mem F) (MC KC : Nat) (heven : MC % 2 = 0)
    (TRANSA : Char) (ALPHA : Scal F) (nI nK : Nat) (hI : nI ≤ MC) (hK : nK ≤ KC)
    (A LDA aPack : Int) (Av : Nat → Nat → Quat F)
    (hA : MatAt m A LDA (if isT TRANSA then nK else nI) (if isT TRANSA then nI else nK) Av)
    (hbuf : ∀ a, InBuf aPack (4 * fixMod (KC * MC) 32) a → (m a).isSome)
    (hsep : Apart (MatCell A LDA (if isT TRANSA then nK else nI) (if isT TRANSA then nI else nK))
      (InBuf aPack (4 * fixMod (KC * MC) 32))) :
    ∃ m', aPackSel TRANSA ALPHA nI nK A LDA aPack m = .ok ((), m') ∧
      SameOutside (InBuf aPack (4 * fixMod (KC * MC) 32)) m m' := by
  have hsub : ∀ a, InBuf aPack (8 * (((nI+1)/2 * nK : Nat) : Int)) a →
      InBuf aPack (4 * fixMod (KC * MC) 32) a := by
    intro a ha
    have h1 := fixMod_ge (X := (KC:Int) * MC) (by positivity)
    have h2 : 2 * ((nI+1)/2) ≤ MC := by omega
    have h3 : 2 * ((nI+1)/2) * nK ≤ MC * KC := Nat.mul_le_mul h2 hK
    have h4 : 2 * ((((nI+1)/2 * nK : Nat)) : Int) ≤ (KC:Int) * MC := by
      have : ((2 * ((nI+1)/2) * nK : Nat) : Int) ≤ ((MC * KC : Nat) : Int) := by exact_mod_cast h3
      push_cast at this ⊢
      linarith
    unfold InBuf at *; omega
  obtain ⟨m', h1, _, h3⟩ := C27_pack_A m TRANSA ALPHA nI nK A LDA aPack Av hA
    (fun a ha => hbuf a (hsub a ha)) (fun a ha hc => hsep a ha (hsub a hc))
  exact ⟨m', h1, fun a ha => h3 a (fun hc => ha (hsub a hc))⟩

/-- C25. The same for the B block. -/
theorem C25_pack_fits_B (m : Mem F) (NC KC : Nat) (heven : NC % 2 = 0)
    (TRANSB : Char) (nJ nK : Nat) (hJ : nJ ≤ NC) (hK : nK ≤ KC)
    (B LDB bPack : Int) (Bv : Nat → Nat → Quat F)
    (hB : MatAt m B LDB (if isT TRANSB then nJ else nK) (if isT TRANSB then nK else nJ) Bv)
    (hbuf : ∀ a, InBuf bPack (4 * fixMod (KC * NC) 32) a → (m a).isSome)
    (hsep : Apart (MatCell B LDB (if isT TRANSB then nJ else nK) (if isT TRANSB then nK else nJ))
      (InBuf bPack (4 * fixMod (KC * NC) 32))) :
    ∃ m', bPackSel TRANSB nJ nK B LDB bPack m = .ok ((), m') ∧
      SameOutside (InBuf bPack (4 * fixMod (KC * NC) 32)) m m' := by
  have hsub : ∀ a, InBuf bPack (8 * (((nJ+1)/2 * nK : Nat) : Int)) a →
      InBuf bPack (4 * fixMod (KC * NC) 32) a := by
    intro a ha
    have h1 := fixMod_ge (X := (KC:Int) * NC) (by positivity)
    have h2 : 2 * ((nJ+1)/2) ≤ NC := by omega
    have h3 : 2 * ((nJ+1)/2) * nK ≤ NC * KC := Nat.mul_le_mul h2 hK
    have h4 : 2 * ((((nJ+1)/2 * nK : Nat)) : Int) ≤ (KC:Int) * NC := by
      have : ((2 * ((nJ+1)/2) * nK : Nat) : Int) ≤ ((NC * KC : Nat) : Int) := by exact_mod_cast h3
      push_cast at this ⊢
      linarith
    unfold InBuf at *; omega
  obtain ⟨m', h1, _, h3⟩ := C27_pack_B m TRANSB nJ nK B LDB bPack Bv hB
    (fun a ha => hbuf a (hsub a ha)) (fun a ha hc => hsep a ha (hsub a hc))
  exact ⟨m', h1, fun a ha => h3 a (fun hc => ha (hsub a hc))⟩

end bits

/-- C25: evenness is needed.  With `MC = 1`, `KC = 32` the block holds 32 quaternions, but packing a
1 × 32 panel writes 64: the 33rd store is outside (`FixMod(32*1,32) = 32`). -/
theorem C25_odd_block_overflows :
    fixMod (32 * 1) 32 = 32 ∧
    aPackSel (F := Int) 'N' (.d 1) 1 32 0 1 200 (fun a =>
      if 0 ≤ a ∧ a < 128 then some a else if 200 ≤ a ∧ a < 200 + 4 * 32 then some 0 else none) =
      .error (.oob 328) := by
  refine ⟨by decide, ?_⟩
  rfl

/-! ## C38: 32-bit index arithmetic -/

/-- C38. Within the bounds of `GemmPre`, GEMM never performs an overflowing 32-bit computation. -/
theorem C38_gemm_no_overflow {F : Type} [Arith F] (m : Mem F) (blk : Blk) (bAddr aAddr : Int) (junk : Int → F)
    (TRANSA TRANSB : Char)
    (M N K : Int) (ALPHA BETA : Scal F) (A LDA B LDB C LDC : Int) (Av Bv Cv : Nat → Nat → Quat F)
    (h : GemmPre m blk bAddr aAddr TRANSA TRANSB M.toNat N.toNat K.toNat A LDA Av B LDB Bv C LDC Cv) :
    gemmAVX blk bAddr aAddr junk TRANSA TRANSB M N K ALPHA A LDA B LDB BETA C LDC m ≠ .error .overflow := by
  obtain ⟨m', h1, _⟩ := C23_gemm_frame m blk bAddr aAddr junk TRANSA TRANSB M N K ALPHA BETA
    A LDA B LDB C LDC Av Bv Cv h
  rw [h1]; intro hc; cases hc

/-- Non-vacuity for C22–C24, C26, for any contents `f`: the shipped block sizes, a misaligned C with
padding (LDC = 4 > 3), odd M, a conjugate-transposed A. -/
theorem gemmPre_example' {F : Type} [Arith F] (f : Int → F) :
    GemmPre (memOf 0 64 f) ⟨64, 512, 64⟩ 1000 200000 'C' 'N' 3 1 2
      0 2 (fun i j => let p : Int := 0 + 4 * (i + j * 2); ⟨f p, f (p+1), f (p+2), f (p+3)⟩)
      24 2 (fun i j => let p : Int := 24 + 4 * (i + j * 2); ⟨f p, f (p+1), f (p+2), f (p+3)⟩)
      33 4 (fun i j => let p : Int := 33 + 4 * (i + j * 4); ⟨f p, f (p+1), f (p+2), f (p+3)⟩) where
  mc_pos := by decide
  nc_pos := by decide
  kc_pos := by decide
  mc_even := by decide
  nc_even := by decide
  matA := by
    intro i j hi hj
    have h1 : i < 2 := hi
    have h2 : j < 3 := hj
    exact readQ_memOf (by omega) (by omega)
  matB := by
    intro i j hi hj
    have h1 : i < 2 := hi
    have h2 : j < 1 := hj
    exact readQ_memOf (by omega) (by omega)
  matC := by
    intro i j hi hj
    exact readQ_memOf (by omega) (by omega)
  lda := by decide
  ldb := by decide
  ldc := by decide
  apartA := by
    rintro a ⟨i, j, hi, hj, h⟩ ⟨i', j', hi', hj', h'⟩
    have h1 : i < 2 := hi
    have h2 : j < 3 := hj
    unfold InQ at *; omega
  apartB := by
    rintro a ⟨i, j, hi, hj, h⟩ ⟨i', j', hi', hj', h'⟩
    have h1 : i < 2 := hi
    have h2 : j < 1 := hj
    unfold InQ at *; omega
  alignB := by decide
  alignA := by decide
  freshB := by
    intro a ha
    unfold InBuf at ha; unfold memOf
    rw [if_neg (by omega)]
  freshA := by
    intro a ha
    unfold InBuf at ha; unfold memOf
    rw [if_neg (by omega)]
  freshAB := by
    intro a ha hb
    have e : fixMod (64 * 512) 32 = 32768 := by decide
    unfold InBuf at *
    dsimp only at *
    rw [e] at ha
    omega
  kc32 := by unfold Fits32; decide
  m32 := by unfold Fits32; decide
  n32 := by unfold Fits32; decide
  k32 := by unfold Fits32; decide
  ldc32 := by unfold Fits32; decide
  ldcN32 := by unfold Fits32; decide
  ldbN32 := by unfold Fits32; decide
  ldbK32 := by unfold Fits32; decide
  ldaM32 := by unfold Fits32; decide
  ldaK32 := by unfold Fits32; decide

/-- The same with `f a = a²` over the integers. -/
theorem gemmPre_example :
    GemmPre (F := Int) (memOf 0 64 (fun a => a * a)) ⟨64, 512, 64⟩ 1000 200000 'C' 'N' 3 1 2
      0 2 (fun i j => let p : Int := 0 + 4 * (i + j * 2); ⟨p*p, (p+1)*(p+1), (p+2)*(p+2), (p+3)*(p+3)⟩)
      24 2 (fun i j => let p : Int := 24 + 4 * (i + j * 2); ⟨p*p, (p+1)*(p+1), (p+2)*(p+2), (p+3)*(p+3)⟩)
      33 4 (fun i j => let p : Int := 33 + 4 * (i + j * 4); ⟨p*p, (p+1)*(p+1), (p+2)*(p+2), (p+3)*(p+3)⟩) :=
  gemmPre_example' _

/-- Non-vacuity for C25 and C27 (A): a conjugate-transposed 3 × 2 panel (odd number of rows) stored
as 2 × 3 with leading dimension 4, packed at 100 into a block for `MC = 4`, `KC = 8`. -/
example (f : Int → Int) :
    (∃ m', aPackSel 'C' (.z ⟨2, 3⟩) (3:Nat) (2:Nat) 0 4 100 (memOf 0 300 f) = .ok ((), m') ∧
      SameOutside (InBuf 100 (4 * fixMod (8 * 4) 32)) (memOf 0 300 f) m') ∧
    (∃ m', aPackSel 'C' (.z ⟨2, 3⟩) (3:Nat) (2:Nat) 0 4 100 (memOf 0 300 f) = .ok ((), m') ∧
      SameOutside (InBuf 100 (8 * ((2 * 2 : Nat) : Int))) (memOf 0 300 f) m') := by
  have hA : MatAt (memOf 0 300 f) 0 4 (if isT 'C' then 2 else 3) (if isT 'C' then 3 else 2)
      (fun i j => let p : Int := 0 + 4 * (i + j * 4); ⟨f p, f (p+1), f (p+2), f (p+3)⟩) := by
    intro i j hi hj
    have h1 : i < 2 := hi
    have h2 : j < 3 := hj
    exact readQ_memOf (by omega) (by omega)
  have e : fixMod (8 * 4) 32 = 32 := by decide
  have hb : ∀ n : Int, n ≤ 128 → ∀ a, InBuf 100 n a → (memOf 0 300 f a).isSome := by
    intro n hn a ha
    unfold InBuf at ha
    unfold memOf
    rw [if_pos (by omega)]; rfl
  have hs : ∀ n : Int, Apart (MatCell 0 4 (if isT 'C' then 2 else 3) (if isT 'C' then 3 else 2)) (InBuf 100 n) := by
    rintro n a ⟨i, j, hi, hj, h⟩ ha
    have h1 : i < 2 := hi
    have h2 : j < 3 := hj
    unfold InQ at h; unfold InBuf at ha; omega
  constructor
  · exact C25_pack_fits_A _ 4 8 (by decide) 'C' _ 3 2 (by decide) (by decide) 0 4 100 _ hA
      (hb _ (by decide)) (hs _)
  · obtain ⟨m', h1, _, h3⟩ := C27_pack_A _ 'C' (.z ⟨2, 3⟩) 3 2 0 4 100 _ hA (hb _ (by decide)) (hs _)
    exact ⟨m', h1, h3⟩

/-- Non-vacuity for C25 and C27 (B): a 2 × 3 panel (odd number of columns), leading dimension 4. -/
example (f : Int → Int) :
    (∃ m', bPackSel 'N' (3:Nat) (2:Nat) 0 4 100 (memOf 0 300 f) = .ok ((), m') ∧
      SameOutside (InBuf 100 (4 * fixMod (8 * 4) 32)) (memOf 0 300 f) m') ∧
    (∃ m', bPackSel 'N' (3:Nat) (2:Nat) 0 4 100 (memOf 0 300 f) = .ok ((), m') ∧
      SameOutside (InBuf 100 (8 * ((2 * 2 : Nat) : Int))) (memOf 0 300 f) m') := by
  have hB : MatAt (memOf 0 300 f) 0 4 (if isT 'N' then 3 else 2) (if isT 'N' then 2 else 3)
      (fun i j => let p : Int := 0 + 4 * (i + j * 4); ⟨f p, f (p+1), f (p+2), f (p+3)⟩) := by
    intro i j hi hj
    have h1 : i < 2 := hi
    have h2 : j < 3 := hj
    exact readQ_memOf (by omega) (by omega)
  have e : fixMod (8 * 4) 32 = 32 := by decide
  have hb : ∀ n : Int, n ≤ 128 → ∀ a, InBuf 100 n a → (memOf 0 300 f a).isSome := by
    intro n hn a ha
    unfold InBuf at ha
    unfold memOf
    rw [if_pos (by omega)]; rfl
  have hs : ∀ n : Int, Apart (MatCell 0 4 (if isT 'N' then 3 else 2) (if isT 'N' then 2 else 3)) (InBuf 100 n) := by
    rintro n a ⟨i, j, hi, hj, h⟩ ha
    have h1 : i < 2 := hi
    have h2 : j < 3 := hj
    unfold InQ at h; unfold InBuf at ha; omega
  constructor
  · exact C25_pack_fits_B _ 4 8 (by decide) 'N' 3 2 (by decide) (by decide) 0 4 100 _ hB
      (hb _ (by decide)) (hs _)
  · obtain ⟨m', h1, _, h3⟩ := C27_pack_B _ 'N' 3 2 0 4 100 _ hB (hb _ (by decide)) (hs _)
    exact ⟨m', h1, h3⟩

end Haxx
