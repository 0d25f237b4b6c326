import Verif.Generic3Proofs

/-!
# The portable DOT and GEMM templates, bit for bit

Over an uninterpreted arithmetic: which operations, in which order, produce each result.
-/

set_option linter.unusedSectionVars false

namespace Haxx
open Arith

variable {F : Type} [Arith F]

/-! ## DOT -/

/-- `Σ` in the order of the code. -/
def pDotQ (conj : Bool) (x y : Nat → Quat F) : Nat → Quat F
  | 0 => ⟨zero, zero, zero, zero⟩
  | n+1 => Quat.addAssign (pDotQ conj x y n) (Quat.mul (if conj then (x n).conj else x n) (y n))

theorem dotGen_bits {m0 : Mem F} {conj : Bool} {N X INCX Y INCY : Int}
    {xv yv : Nat → Quat F} (hx : 0 < INCX) (hy : 0 < INCY)
    (fx : Fits32 (N * INCX)) (fy : Fits32 (N * INCY))
    (hX : VecAt m0 X INCX N.toNat xv) (hY : VecAt m0 Y INCY N.toNat yv) :
    wp (dotGen conj N X INCX Y INCY) m0 (fun r m => m = m0 ∧ r = pDotQ conj xv yv N.toNat) := by
  have hel : ∀ i (h : Quat F), i < N.toNat →
      wp (dotEl conj X Y (i * INCX) (i * INCY) h) m0 (fun r m => m = m0 ∧
        r = Quat.addAssign h (Quat.mul (if conj then (xv i).conj else xv i) (yv i))) := by
    intro i h hi
    unfold dotEl
    rw [wp_bind, wp_loadQ (hX i hi), wp_bind, wp_loadQ (hY i hi), wp_pure]
    exact ⟨rfl, rfl⟩
  unfold dotGen
  by_cases hN : N ≤ 0
  · rw [if_pos hN, wp_pure, show N.toNat = 0 by omega]
    exact ⟨rfl, rfl⟩
  · rw [if_neg hN, assertP_ok (by simpa using hx), assertP_ok (by simpa using hy), prog_pure_bind,
      prog_pure_bind]
    have hNc : ((N.toNat : Nat) : Int) = N := by omega
    by_cases h1 : INCX = 1 ∧ INCY = 1
    · rw [if_pos h1]
      obtain ⟨rfl, rfl⟩ := h1
      apply wp_foldN (fun i (r : Quat F) m => m = m0 ∧ r = pDotQ conj xv yv i)
      · exact ⟨rfl, rfl⟩
      · rintro i s m hi ⟨rfl, hs⟩
        have := hel i s hi
        rw [mul_one] at this
        refine wp_mono this ?_
        rintro r m' ⟨rfl, h⟩
        exact ⟨rfl, by rw [h, hs, pDotQ]⟩
      · rintro s m h; exact h
    · rw [if_neg h1, wp_bind]
      apply wp_foldN (fun i (r : Int × Int × Quat F) m => m = m0 ∧ r.1 = i * INCX ∧
        r.2.1 = i * INCY ∧ r.2.2 = pDotQ conj xv yv i)
      · exact ⟨rfl, by simp, by simp, rfl⟩
      · rintro i s m hi ⟨rfl, h1, h2, hs⟩
        unfold dotStep
        rw [wp_bind, h1, h2]
        refine wp_mono (hel i s.2.2 hi) ?_
        rintro r m' ⟨rfl, h⟩
        have e1 : (i:Int) * INCX + INCX = ((i+1 : Nat):Int) * INCX := by push_cast; ring
        have e2 : (i:Int) * INCY + INCY = ((i+1 : Nat):Int) * INCY := by push_cast; ring
        have b1 : ((i+1 : Nat):Int) * INCX ≤ N * INCX := mul_le_mul_of_nonneg_right (by omega) (by omega)
        have b2 : ((i+1 : Nat):Int) * INCY ≤ N * INCY := mul_le_mul_of_nonneg_right (by omega) (by omega)
        have c1 : 0 ≤ ((i+1 : Nat):Int) * INCX := mul_nonneg (by omega) (by omega)
        have c2 : 0 ≤ ((i+1 : Nat):Int) * INCY := mul_nonneg (by omega) (by omega)
        unfold Fits32 at *
        rw [wp_bind, e1, wp_i32 (by omega), wp_bind, e2, wp_i32 (by omega), wp_pure]
        exact ⟨rfl, rfl, rfl, by rw [h, hs, pDotQ]⟩
      · rintro s m ⟨rfl, _, _, h⟩
        rw [wp_pure]
        exact ⟨rfl, h⟩

/-! ## GEMM -/

/-- Row `i` of op(A) as the template reads it: any flag other than `'N'` and `'C'` transposes. -/
def opKE (t : Char) (X : Nat → Nat → Scal F) (i l : Nat) : Scal F :=
  if t = 'N' then X i l else if t = 'C' then (X l i).smartConj else X l i
/-- Column `j` of op(B). -/
def opQE (t : Char) (X : Nat → Nat → Quat F) (l j : Nat) : Quat F :=
  if t = 'N' then X l j else if t = 'C' then (X j l).conj else X j l

/-- `c += (ALPHA*x_l)*y_l` for `l = 0, …` -/
def pAcc (ALPHA : Scal F) (x : Nat → Scal F) (y : Nat → Quat F) (c : Quat F) : Nat → Quat F
  | 0 => c
  | l+1 => Quat.addAssign (pAcc ALPHA x y c l) ((ALPHA.mul (x l)).mulL (y l))

/-- `htemp += x_l*y_l` for `l = 0, …` -/
def pDot (x : Nat → Scal F) (y : Nat → Quat F) : Nat → Quat F
  | 0 => Quat.mkReal zero
  | l+1 => Quat.addAssign (pDot x y l) ((x l).mulL (y l))

variable [ArithEq F]

/-- the first scaling by BETA -/
def pBeta (BETA : Scal F) (c : Quat F) : Quat F :=
  if BETA.eqZero then Quat.mkReal zero else if !BETA.eqOne then BETA.mulL c else c

/-- the final store -/
def pStore (ALPHA BETA : Scal F) (h c : Quat F) : Quat F :=
  if BETA.eqZero then ALPHA.mulL h else Quat.add (ALPHA.mulL h) (BETA.mulL c)

/-- The value the template leaves in an entry of C, as a function of the row of op(A), the column of
op(B) and the old entry. -/
def pGemm (tA : Char) (ALPHA BETA : Scal F) (K : Int) (x : Nat → Scal F) (y : Nat → Quat F) (c : Quat F) : Quat F :=
  if (ALPHA.eqZero || decide (K = 0)) && BETA.eqOne then c
  else if ALPHA.eqZero then (if BETA.eqZero then Quat.mkReal zero else BETA.mulL c)
  else if tA = 'N' then pAcc ALPHA x y (pBeta BETA c) K.toNat
  else pStore ALPHA BETA (pDot x y K.toNat) c

/-- As `GemmKArgs`, for any arithmetic. -/
structure GemmBArgs (m : Mem F) (k : Kind) (tA tB : Char) (M N K : Int) (ALPHA : Scal F) (A LDA B LDB C LDC : Int)
    (Av : Nat → Nat → Scal F) (Bv Cv : Nat → Nat → Quat F) : Prop where
  hA : ALPHA.eqZero = false → KMatAt m k A LDA (if tA = 'N' then M.toNat else K.toNat) (if tA = 'N' then K.toNat else M.toNat) Av
  hB : ALPHA.eqZero = false → MatAt m B LDB (if tB = 'N' then K.toNat else N.toNat) (if tB = 'N' then N.toNat else K.toNat) Bv
  hC : MatAt m C LDC M.toNat N.toNat Cv
  hld : M ≤ LDC
  fitA : ∀ l : Nat, l < (if tA = 'N' then K.toNat else M.toNat) → Fits32 (l * LDA)
  fitB : ∀ l : Nat, l < (if tB = 'N' then N.toNat else K.toNat) → Fits32 (l * LDB)
  fitC : ∀ l : Nat, l < N.toNat → Fits32 (l * LDC)
  hAC : Apart (KMatCell k A LDA (if tA = 'N' then M.toNat else K.toNat) (if tA = 'N' then K.toNat else M.toNat))
    (MatCell C LDC M.toNat N.toNat)
  hBC : Apart (MatCell B LDB (if tB = 'N' then K.toNat else N.toNat) (if tB = 'N' then N.toNat else K.toNat))
    (MatCell C LDC M.toNat N.toNat)

variable {K : Mem F → Prop} {kA : Kind} {ALPHA BETA : Scal F}

omit [ArithEq F] in
theorem zeroEl_bits {m : Mem F} {CCol i : Int} {c : Quat F} (h : readQ m (CCol + 4 * i) = some c) :
    wp (zeroEl CCol i) m (fun _ m' => m' = writeQ m (CCol + 4 * i) (Quat.mkReal zero)) := by
  unfold zeroEl
  rw [wp_storeQ h]

omit [ArithEq F] in
theorem betaEl_bits {m : Mem F} {CCol i : Int} {c : Quat F} (h : readQ m (CCol + 4 * i) = some c) :
    wp (betaEl BETA CCol i) m (fun _ m' => m' = writeQ m (CCol + 4 * i) (BETA.mulL c)) := by
  unfold betaEl
  simp only [wp_bind, wp_loadQ h, wp_storeQ h]

theorem gemmBetaCol_bits {M CCol : Int} {m0 m : Mem F} {c : Nat → Quat F}
    (hdisj : ∀ i j : Nat, i < M.toNat → j < M.toNat → i ≠ j → QDisj (CCol + 4 * (i:Int)) (CCol + 4 * (j:Int)))
    (hK : ∀ m (i : Nat) q, i < M.toNat → K m → K (writeQ m (CCol + 4 * (i:Int)) q))
    (hU : Upd K (fun i => CCol + 4 * (i:Int)) M.toNat m0 c m) :
    wp (gemmBetaCol BETA M CCol) m (fun _ m' =>
      Upd K (fun i => CCol + 4 * (i:Int)) M.toNat m0 (fun i => pBeta BETA (c i)) m') := by
  unfold gemmBetaCol pBeta
  split
  · exact wp_passU hdisj hK hU (fun i m _ _ h => zeroEl_bits h)
  · split
    · exact wp_passU hdisj hK hU (fun i m _ _ h => betaEl_bits h)
    · rw [wp_pure]; exact hU

theorem gemmColA0_bits {M N C LDC : Int} {m0 : Mem F} {c : Nat → Nat → Quat F}
    (st : GStK K C LDC M.toNat N.toNat) (hk : K m0)
    (hC : ∀ i j : Nat, i < M.toNat → j < N.toNat → readQ m0 (C + 4 * (j * LDC) + 4 * i) = some (c i j)) :
    wp (forN N.toNat (fun j => gemmColA0 M BETA C LDC j)) m0 (fun _ m' =>
      (∀ i j : Nat, i < M.toNat → j < N.toNat → readQ m' (C + 4 * (j * LDC) + 4 * i) =
        some (if BETA.eqZero then Quat.mkReal zero else BETA.mulL (c i j))) ∧
      K m' ∧ ∀ a, (∀ i j : Nat, i < M.toNat → j < N.toNat → ¬ InQ (C + 4 * (j * LDC) + 4 * i) a) → m' a = m0 a) := by
  apply wp_colsU (addr := fun i j => C + 4 * ((j:Int) * LDC) + 4 * (i:Int)) st.disj hk hC
  intro j m hj hU
  unfold gemmColA0
  have hd : ∀ i i' : Nat, i < M.toNat → i' < M.toNat → i ≠ i' → QDisj (C + 4 * ((j:Int) * LDC) + 4 * (i:Int)) (C + 4 * ((j:Int) * LDC) + 4 * (i':Int)) :=
    fun i i' hi hi' hne => st.disj i j i' j hi hi' (fun e => hne e.1)
  have hs : ∀ m (i : Nat) q, i < M.toNat → K m → K (writeQ m (C + 4 * ((j:Int) * LDC) + 4 * (i:Int)) q) :=
    fun m i q hi h => st.stable m i j q hi hj h
  rw [wp_bind, wp_i32 (st.fitC j hj)]
  split
  · exact wp_passU hd hs hU (fun i m _ _ h => zeroEl_bits h)
  · exact wp_passU hd hs hU (fun i m _ _ h => betaEl_bits h)

omit [ArithEq F] in
theorem gemmAxpyEl_bits {conjB : Bool} {m : Mem F} {ACol bp CCol i : Int} {a : Scal F} {b c : Quat F}
    (ha : readK m kA (ACol + kA.width * i) = some a) (hb : readQ m bp = some b)
    (hc : readQ m (CCol + 4 * i) = some c) :
    wp (gemmAxpyEl kA conjB ALPHA ACol bp CCol i) m (fun _ m' =>
      m' = writeQ m (CCol + 4 * i) (Quat.addAssign c ((ALPHA.mul a).mulL (if conjB then b.conj else b)))) := by
  unfold gemmAxpyEl
  simp only [wp_bind, wp_loadK ha, wp_loadQ hb, wp_loadQ hc, wp_storeQ hc]

/-- op(A) = A. -/
theorem gemmColsN_bits {conjB : Bool} {col : Nat → Prog F Unit} {lpass : Nat → Nat → Prog F Unit}
    {M N Kk : Int} {C LDC : Int} {m0 : Mem F} {c : Nat → Nat → Quat F} {x : Nat → Nat → Scal F} {y : Nat → Nat → Quat F}
    (st : GStK K C LDC M.toNat N.toNat) (hk : K m0)
    (hcol : ∀ j m Q, j < N.toNat → (wp (do gemmBetaCol BETA M (C + 4 * ((j:Int) * LDC)); forN Kk.toNat (lpass j)) m Q → wp (col j) m Q))
    (ACol : Nat → Int) (bp : Nat → Nat → Int)
    (hl : ∀ j l m Q, j < N.toNat → l < Kk.toNat →
      (wp (forN M.toNat (fun i => gemmAxpyEl kA conjB ALPHA (ACol l) (bp l j) (C + 4 * ((j:Int) * LDC)) i)) m Q → wp (lpass j l) m Q))
    (hA : ∀ m i l, K m → i < M.toNat → l < Kk.toNat → readK m kA (ACol l + kA.width * i) = some (x i l))
    (hB : ∀ m l j, K m → l < Kk.toNat → j < N.toNat → readQ m (bp l j) = some (y l j))
    (hC : ∀ i j : Nat, i < M.toNat → j < N.toNat → readQ m0 (C + 4 * (j * LDC) + 4 * i) = some (c i j)) :
    wp (forN N.toNat col) m0 (fun _ m' =>
      (∀ i j : Nat, i < M.toNat → j < N.toNat → readQ m' (C + 4 * (j * LDC) + 4 * i) =
        some (pAcc ALPHA (x i) (fun l => if conjB then (y l j).conj else y l j) (pBeta BETA (c i j)) Kk.toNat)) ∧
      K m' ∧ ∀ a, (∀ i j : Nat, i < M.toNat → j < N.toNat → ¬ InQ (C + 4 * (j * LDC) + 4 * i) a) → m' a = m0 a) := by
  apply wp_colsU (addr := fun i j => C + 4 * ((j:Int) * LDC) + 4 * (i:Int)) st.disj hk hC
  intro j m hj hU
  have hd : ∀ i i' : Nat, i < M.toNat → i' < M.toNat → i ≠ i' → QDisj (C + 4 * ((j:Int) * LDC) + 4 * (i:Int)) (C + 4 * ((j:Int) * LDC) + 4 * (i':Int)) :=
    fun i i' hi hi' hne => st.disj i j i' j hi hi' (fun e => hne e.1)
  have hs : ∀ m (i : Nat) q, i < M.toNat → K m → K (writeQ m (C + 4 * ((j:Int) * LDC) + 4 * (i:Int)) q) :=
    fun m i q hi h => st.stable m i j q hi hj h
  apply hcol j m _ hj
  rw [wp_bind]
  refine wp_mono (gemmBetaCol_bits hd hs hU) ?_
  intro _ m1 hU1
  apply wp_forN (fun l m2 => Upd K (fun i => C + 4 * ((j:Int) * LDC) + 4 * (i:Int)) M.toNat m
    (fun i => pAcc ALPHA (x i) (fun l => if conjB then (y l j).conj else y l j) (pBeta BETA (c i j)) l) m2)
  · exact hU1
  · intro l m2 hl2 hU2
    apply hl j l m2 _ hj hl2
    exact wp_passU hd hs hU2 (fun i m3 hi hk3 hc3 => gemmAxpyEl_bits (hA m3 i l hk3 hi hl2) (hB m3 l j hk3 hl2 hj) hc3)
  · intro m2 hU2; exact hU2

omit [ArithEq F] in
theorem gemmDotEl_bits {conjA conjB : Bool} {m : Mem F} {ACol bp l : Int} {a : Scal F} {b h : Quat F}
    (ha : readK m kA (ACol + kA.width * l) = some a) (hb : readQ m bp = some b) {Q : Quat F → Mem F → Prop} :
    wp (gemmDotEl kA conjA conjB ACol bp l h) m Q ↔
      Q (Quat.addAssign h ((if conjA then a.smartConj else a).mulL (if conjB then b.conj else b))) m := by
  unfold gemmDotEl
  simp only [wp_bind, wp_loadK ha, wp_loadQ hb, wp_pure]

theorem gemmStoreEl_bits {m : Mem F} {CCol i : Int} {h c : Quat F}
    (hc : readQ m (CCol + 4 * i) = some c) :
    wp (gemmStoreEl ALPHA BETA CCol i h) m (fun _ m' =>
      m' = writeQ m (CCol + 4 * i) (pStore ALPHA BETA h c)) := by
  unfold gemmStoreEl pStore
  split
  · rw [wp_storeQ hc]
  · simp only [wp_bind, wp_loadQ hc, wp_storeQ hc]

/-- op(A) ≠ A. -/
theorem gemmColsT_bits {conjA conjB : Bool} {col : Nat → Prog F Unit} {el : Nat → Nat → Prog F Unit}
    {dot : Nat → Nat → Nat → Quat F → Prog F (Quat F)}
    {M N Kk : Int} {C LDC : Int} {m0 : Mem F} {c : Nat → Nat → Quat F} {x : Nat → Nat → Scal F} {y : Nat → Nat → Quat F}
    (st : GStK K C LDC M.toNat N.toNat) (hk : K m0)
    (hcol : ∀ j m Q, j < N.toNat → (wp (forN M.toNat (el j)) m Q → wp (col j) m Q))
    (hel : ∀ j i m Q, j < N.toNat → i < M.toNat →
      (wp (do let h ← foldN Kk.toNat (dot j i) (Quat.mkReal zero); gemmStoreEl ALPHA BETA (C + 4 * ((j:Int) * LDC)) i h) m Q → wp (el j i) m Q))
    (ACol : Nat → Int) (bp : Nat → Nat → Int)
    (hdot : ∀ j i l h m Q, j < N.toNat → i < M.toNat → l < Kk.toNat →
      (wp (gemmDotEl kA conjA conjB (ACol i) (bp l j) l h) m Q → wp (dot j i l h) m Q))
    (hA : ∀ m i l, K m → i < M.toNat → l < Kk.toNat → readK m kA (ACol i + kA.width * l) = some (x i l))
    (hB : ∀ m l j, K m → l < Kk.toNat → j < N.toNat → readQ m (bp l j) = some (y l j))
    (hC : ∀ i j : Nat, i < M.toNat → j < N.toNat → readQ m0 (C + 4 * (j * LDC) + 4 * i) = some (c i j)) :
    wp (forN N.toNat col) m0 (fun _ m' =>
      (∀ i j : Nat, i < M.toNat → j < N.toNat → readQ m' (C + 4 * (j * LDC) + 4 * i) =
        some (pStore ALPHA BETA (pDot (fun l => if conjA then (x i l).smartConj else x i l)
          (fun l => if conjB then (y l j).conj else y l j) Kk.toNat) (c i j))) ∧
      K m' ∧ ∀ a, (∀ i j : Nat, i < M.toNat → j < N.toNat → ¬ InQ (C + 4 * (j * LDC) + 4 * i) a) → m' a = m0 a) := by
  apply wp_colsU (addr := fun i j => C + 4 * ((j:Int) * LDC) + 4 * (i:Int)) st.disj hk hC
  intro j m hj hU
  have hd : ∀ i i' : Nat, i < M.toNat → i' < M.toNat → i ≠ i' → QDisj (C + 4 * ((j:Int) * LDC) + 4 * (i:Int)) (C + 4 * ((j:Int) * LDC) + 4 * (i':Int)) :=
    fun i i' hi hi' hne => st.disj i j i' j hi hi' (fun e => hne e.1)
  have hs : ∀ m (i : Nat) q, i < M.toNat → K m → K (writeQ m (C + 4 * ((j:Int) * LDC) + 4 * (i:Int)) q) :=
    fun m i q hi h => st.stable m i j q hi hj h
  apply hcol j m _ hj
  refine wp_passU hd hs hU ?_
  intro i m1 hi hk1 hc1
  apply hel j i m1 _ hj hi
  rw [wp_bind]
  apply wp_acc (fun k (h : Quat F) => h = pDot (fun l => if conjA then (x i l).smartConj else x i l)
          (fun l => if conjB then (y l j).conj else y l j) k)
  · rfl
  · intro l h hl ih
    apply hdot j i l h m1 _ hj hi hl
    rw [gemmDotEl_bits (hA m1 i l hk1 hi hl) (hB m1 l j hk1 hl hj)]
    refine ⟨rfl, ?_⟩
    rw [ih, pDot]
  · intro h hh
    refine wp_mono (gemmStoreEl_bits hc1) ?_
    rintro _ m' rfl
    rw [hh]

/-- The portable GEMM template, bit for bit, for every flag character. -/
theorem gemmGen_bits (m : Mem F) (k : Kind) (tA tB : Char) (M N K : Int) (ALPHA BETA : Scal F)
    (A LDA B LDB C LDC : Int) (Av : Nat → Nat → Scal F) (Bv Cv : Nat → Nat → Quat F)
    (h : GemmBArgs m k tA tB M N K ALPHA A LDA B LDB C LDC Av Bv Cv) :
    ∃ m', gemmGen k tA tB M N K ALPHA A LDA B LDB BETA C LDC m = .ok ((), m') ∧
      MatAt m' C LDC M.toNat N.toNat (fun i j =>
        pGemm tA ALPHA BETA K (opKE tA Av i) (fun l => opQE tB Bv l j) (Cv i j)) ∧
      SameOutside (MatCell C LDC M.toNat N.toNat) m m' := by
  have eC : ∀ i j : Nat, C + 4 * ((j:Int) * LDC) + 4 * (i:Int) = C + 4 * ((i:Int) + j * LDC) := by intros; ring
  have key : wp (gemmGen k tA tB M N K ALPHA A LDA B LDB BETA C LDC) m (fun _ m' =>
      (∀ i j : Nat, i < M.toNat → j < N.toNat → readQ m' (C + 4 * (j * LDC) + 4 * i) = some
        (pGemm tA ALPHA BETA K (opKE tA Av i) (fun l => opQE tB Bv l j) (Cv i j))) ∧
      (∀ c, ¬ MatCell C LDC M.toNat N.toNat c → m' c = m c) ∧
      ∀ a, (∀ i j : Nat, i < M.toNat → j < N.toNat → ¬ InQ (C + 4 * (j * LDC) + 4 * i) a) → m' a = m a) := by
    have st : GStK (fun m' => ∀ c, ¬ MatCell C LDC M.toNat N.toNat c → m' c = m c) C LDC M.toNat N.toNat := {
      stable := by
        intro m' i j q hi hj hm c hc
        rw [writeQ_other (fun hin => hc ⟨i, j, hi, hj, by rw [← eC]; exact hin⟩)]
        exact hm c hc
      disj := by
        intro i j i' j' hi hi' hne
        rw [eC, eC]
        exact mat_disj (r := M.toNat) (by have := h.hld; omega) hi hi' hne
      fitC := h.fitC }
    have hC : ∀ i j : Nat, i < M.toNat → j < N.toNat → readQ m (C + 4 * (j * LDC) + 4 * i) = some (Cv i j) := by
      intro i j hi hj; rw [eC]; exact h.hC i j hi hj
    unfold gemmGen pGemm
    dsimp only
    split
    · rename_i e
      rw [wp_pure]
      refine ⟨fun i j hi hj => ?_, fun _ _ => rfl, fun _ _ => rfl⟩
      rw [hC i j hi hj]
      simp only [Bool.or_eq_true, Bool.and_eq_true, decide_eq_true_eq] at e
      rcases e with (e | e) | e
      · omega
      · omega
      · rw [if_pos (by simpa using e)]
    · rename_i e
      simp only [Bool.or_eq_true, not_or] at e
      simp only [if_neg e.2]
      split
      · rename_i e
        exact gemmColA0_bits st (fun _ _ => rfl) hC
      · rename_i hz
        have h0 : ALPHA.eqZero = false := by simpa using hz
        have hA := h.hA h0
        have hB := h.hB h0
        have fA := h.fitA
        have fB := h.fitB
        have fC := h.fitC
        have rA : ∀ m' i j, (∀ c, ¬ MatCell C LDC M.toNat N.toNat c → m' c = m c) → i < (if tA = 'N' then M.toNat else K.toNat) → j < (if tA = 'N' then K.toNat else M.toNat) →
            readK m' k (A + k.width * (i + j * LDA)) = some (Av i j) := by
          intro m' i j hm hi hj
          rw [readK_congr (m' := m)]
          · exact hA i j hi hj
          · intro c h1 h2; exact hm c (h.hAC c ⟨i, j, hi, hj, h1, h2⟩)
        have rB : ∀ m' i j, (∀ c, ¬ MatCell C LDC M.toNat N.toNat c → m' c = m c) → i < (if tB = 'N' then K.toNat else N.toNat) → j < (if tB = 'N' then N.toNat else K.toNat) →
            readQ m' (B + 4 * (i + j * LDB)) = some (Bv i j) := by
          intro m' i j hm hi hj
          rw [readQ_congr (m' := m)]
          · exact hB i j hi hj
          · intro c h1; exact hm c (h.hBC c ⟨i, j, hi, hj, h1⟩)
        have caseN : ∀ cB : Bool, tA = 'N' → tB ≠ 'N' → (cB = true ↔ tB = 'C') →
            wp (forN N.toNat (fun j => gemmColNT k cB M K ALPHA A LDA B LDB BETA C LDC j)) m (fun _ m' =>
              (∀ i j : Nat, i < M.toNat → j < N.toNat → readQ m' (C + 4 * (j * LDC) + 4 * i) = some
                (pAcc ALPHA (opKE tA Av i) (fun l => opQE tB Bv l j) (pBeta BETA (Cv i j)) K.toNat)) ∧
              (∀ c, ¬ MatCell C LDC M.toNat N.toNat c → m' c = m c) ∧
              ∀ a, (∀ i j : Nat, i < M.toNat → j < N.toNat → ¬ InQ (C + 4 * (j * LDC) + 4 * i) a) → m' a = m a) := by
          intro cB hA' hB' hcB
          simp only [hA', hB', if_true, if_false] at rA rB fA fB
          refine wp_mono (gemmColsN_bits (conjB := cB) (kA := k) (Kk := K) (ALPHA := ALPHA) (BETA := BETA)
            (x := fun i l => Av i l) (y := fun l j => Bv j l)
            (lpass := fun j l => do
              let la ← i32 (l * LDA)
              let lb ← i32 (l * LDB)
              forN M.toNat (fun i => gemmAxpyEl k cB ALPHA (A + k.width * la) (B + 4 * lb + 4 * j) (C + 4 * (j * LDC)) i))
            st (fun _ _ => rfl) ?_ (fun l => A + k.width * (l * LDA)) (fun l j => B + 4 * (l * LDB) + 4 * j) ?_ ?_ ?_ hC) ?_
          · intro j m' Q hj hw
            unfold gemmColNT
            rw [wp_bind, wp_i32 (fC j hj)]
            exact hw
          · intro j l m' Q hj hl hw
            rw [wp_bind, wp_i32 (fA l hl), wp_bind, wp_i32 (fB l hl)]
            exact hw
          · intro m' i l hm hi hl
            rw [← rA m' i l hm hi hl]; congr 1; ring
          · intro m' l j hm hl hj
            rw [← rB m' j l hm hj hl]; congr 1; ring
          · intro _ m' h'
            refine ⟨fun i j hi hj => ?_, h'.2⟩
            rw [h'.1 i j hi hj]
            have e1 : opKE tA Av i = fun l => Av i l := by
              funext l; simp only [opKE, if_pos hA']
            have e2 : (fun l => opQE tB Bv l j) = fun l => if cB = true then (Bv j l).conj else Bv j l := by
              funext l; simp only [opQE, if_neg hB', hcB]
            rw [e1, e2]
        have caseTN : ∀ cA : Bool, tA ≠ 'N' → tB = 'N' → (cA = true ↔ tA = 'C') →
            wp (forN N.toNat (fun j => gemmColTN k cA M K ALPHA A LDA B LDB BETA C LDC j)) m (fun _ m' =>
              (∀ i j : Nat, i < M.toNat → j < N.toNat → readQ m' (C + 4 * (j * LDC) + 4 * i) = some
                (pStore ALPHA BETA (pDot (opKE tA Av i) (fun l => opQE tB Bv l j) K.toNat) (Cv i j))) ∧
              (∀ c, ¬ MatCell C LDC M.toNat N.toNat c → m' c = m c) ∧
              ∀ a, (∀ i j : Nat, i < M.toNat → j < N.toNat → ¬ InQ (C + 4 * (j * LDC) + 4 * i) a) → m' a = m a) := by
          intro cA hA' hB' hcA
          simp only [hA', hB', if_true, if_false] at rA rB fA fB
          refine wp_mono (gemmColsT_bits (conjA := cA) (conjB := false) (kA := k) (Kk := K) (ALPHA := ALPHA) (BETA := BETA)
            (x := fun i l => Av l i) (y := fun l j => Bv l j)
            (el := fun j i => gemmElTN k cA K ALPHA A LDA (B + 4 * (j * LDB)) BETA (C + 4 * (j * LDC)) i)
            (dot := fun j i l h => gemmDotEl k cA false (A + k.width * (i * LDA)) (B + 4 * (j * LDB) + 4 * l) l h)
            st (fun _ _ => rfl) ?_ ?_ (fun i => A + k.width * (i * LDA)) (fun l j => B + 4 * (j * LDB) + 4 * l) ?_ ?_ ?_ hC) ?_
          · intro j m' Q hj hw
            unfold gemmColTN
            rw [wp_bind, wp_i32 (fC j hj), wp_bind, wp_i32 (fB j hj)]
            exact hw
          · intro j i m' Q hj hi hw
            unfold gemmElTN
            rw [wp_bind, wp_i32 (fA i hi)]
            exact hw
          · intro j i l hh m' Q _ _ _ hw; exact hw
          · intro m' i l hm hi hl
            rw [← rA m' l i hm hl hi]; congr 1; ring
          · intro m' l j hm hl hj
            rw [← rB m' l j hm hl hj]; congr 1; ring
          · intro _ m' h'
            refine ⟨fun i j hi hj => ?_, h'.2⟩
            rw [h'.1 i j hi hj]
            have e1 : opKE tA Av i = fun l => if cA = true then (Av l i).smartConj else Av l i := by
              funext l; simp only [opKE, if_neg hA', hcA]
            have e2 : (fun l => opQE tB Bv l j) = fun l => if false = true then (Bv l j).conj else Bv l j := by
              funext l; simp only [opQE, hB', if_true, Bool.false_eq_true, if_false]
            rw [e1, e2]
        have caseTT : ∀ cA cB : Bool, tA ≠ 'N' → tB ≠ 'N' → (cA = true ↔ tA = 'C') → (cB = true ↔ tB = 'C') →
            wp (forN N.toNat (fun j => gemmColTT k cA cB M K ALPHA A LDA B LDB BETA C LDC j)) m (fun _ m' =>
              (∀ i j : Nat, i < M.toNat → j < N.toNat → readQ m' (C + 4 * (j * LDC) + 4 * i) = some
                (pStore ALPHA BETA (pDot (opKE tA Av i) (fun l => opQE tB Bv l j) K.toNat) (Cv i j))) ∧
              (∀ c, ¬ MatCell C LDC M.toNat N.toNat c → m' c = m c) ∧
              ∀ a, (∀ i j : Nat, i < M.toNat → j < N.toNat → ¬ InQ (C + 4 * (j * LDC) + 4 * i) a) → m' a = m a) := by
          intro cA cB hA' hB' hcA hcB
          simp only [hA', hB', if_false] at rA rB fA fB
          refine wp_mono (gemmColsT_bits (conjA := cA) (conjB := cB) (kA := k) (Kk := K) (ALPHA := ALPHA) (BETA := BETA)
            (x := fun i l => Av l i) (y := fun l j => Bv j l)
            (el := fun j i => gemmElTT k cA cB K ALPHA A LDA (B + 4 * j) LDB BETA (C + 4 * (j * LDC)) i)
            (dot := fun j i l h => do
              let lb ← i32 (l * LDB)
              gemmDotEl k cA cB (A + k.width * (i * LDA)) (B + 4 * j + 4 * lb) l h)
            st (fun _ _ => rfl) ?_ ?_ (fun i => A + k.width * (i * LDA)) (fun l j => B + 4 * j + 4 * (l * LDB)) ?_ ?_ ?_ hC) ?_
          · intro j m' Q hj hw
            unfold gemmColTT
            rw [wp_bind, wp_i32 (fC j hj)]
            exact hw
          · intro j i m' Q hj hi hw
            unfold gemmElTT
            rw [wp_bind, wp_i32 (fA i hi)]
            exact hw
          · intro j i l hh m' Q _ _ hl hw
            rw [wp_bind, wp_i32 (fB l hl)]
            exact hw
          · intro m' i l hm hi hl
            rw [← rA m' l i hm hl hi]; congr 1; ring
          · intro m' l j hm hl hj
            rw [← rB m' j l hm hj hl]; congr 1; ring
          · intro _ m' h'
            refine ⟨fun i j hi hj => ?_, h'.2⟩
            rw [h'.1 i j hi hj]
            have e1 : opKE tA Av i = fun l => if cA = true then (Av l i).smartConj else Av l i := by
              funext l; simp only [opKE, if_neg hA', hcA]
            have e2 : (fun l => opQE tB Bv l j) = fun l => if cB = true then (Bv j l).conj else Bv j l := by
              funext l; simp only [opQE, if_neg hB', hcB]
            rw [e1, e2]
        simp only [beq_iff_eq]
        by_cases hA' : tA = 'N'
        · simp only [if_pos hA']
          by_cases hB' : tB = 'N'
          · simp only [if_pos hB']
            simp only [hA', hB', if_true] at rA rB fA fB
            refine wp_mono (gemmColsN_bits (conjB := false) (kA := k) (Kk := K) (ALPHA := ALPHA) (BETA := BETA)
              (x := fun i l => Av i l) (y := fun l j => Bv l j)
              (lpass := fun j l => do
                let la ← i32 (l * LDA)
                forN M.toNat (fun i => gemmAxpyEl k false ALPHA (A + k.width * la) (B + 4 * (j * LDB) + 4 * l) (C + 4 * (j * LDC)) i))
              st (fun _ _ => rfl) ?_ (fun l => A + k.width * (l * LDA)) (fun l j => B + 4 * (j * LDB) + 4 * l) ?_ ?_ ?_ hC) ?_
            · intro j m' Q hj hw
              unfold gemmColNN
              rw [wp_bind, wp_i32 (fC j hj), wp_bind, wp_i32 (fB j hj)]
              exact hw
            · intro j l m' Q hj hl hw
              rw [wp_bind, wp_i32 (fA l hl)]
              exact hw
            · intro m' i l hm hi hl
              rw [← rA m' i l hm hi hl]; congr 1; ring
            · intro m' l j hm hl hj
              rw [← rB m' l j hm hl hj]; congr 1; ring
            · intro _ m' h'
              refine ⟨fun i j hi hj => ?_, h'.2⟩
              rw [h'.1 i j hi hj]
              have e1 : opKE tA Av i = fun l => Av i l := by
                funext l; simp only [opKE, if_pos hA']
              have e2 : (fun l => opQE tB Bv l j) = fun l => if false = true then (Bv l j).conj else Bv l j := by
                funext l; simp only [opQE, if_pos hB', Bool.false_eq_true, if_false]
              rw [e1, e2]
          · simp only [if_neg hB']
            by_cases hc : tB = 'C'
            · simp only [if_pos hc]; exact caseN true hA' hB' (by simp [hc])
            · simp only [if_neg hc]; exact caseN false hA' hB' (by simp [hc])
        · simp only [if_neg hA']
          by_cases hB' : tB = 'N'
          · simp only [if_pos hB']
            by_cases hc : tA = 'C'
            · simp only [if_pos hc]; exact caseTN true hA' hB' (by simp [hc])
            · simp only [if_neg hc]; exact caseTN false hA' hB' (by simp [hc])
          · simp only [if_neg hB']
            by_cases ha : tA = 'C' <;> by_cases hc : tB = 'C' <;> simp only [ha, hc, if_true, if_false]
            · have := caseTT true true hA' hB' (by simp [ha]) (by simp [hc])
              simpa only [ha, hc] using this
            · have := caseTT true false hA' hB' (by simp [ha]) (by simp [hc])
              simpa only [ha, hc] using this
            · have := caseTT false true hA' hB' (by simp [ha]) (by simp [hc])
              simpa only [ha, hc] using this
            · exact caseTT false false hA' hB' (by simp [ha]) (by simp [hc])
  obtain ⟨_, m', h1, h2, h3, _⟩ := key
  exact ⟨m', h1, fun i j hi hj => by rw [← eC]; exact h2 i j hi hj, h3⟩

end Haxx
