import Verif.MixGen
import Verif.Generic2Bits

/-!
# The portable AXPYV, GEMM, GEMV, GERU and GERC templates for operands of any type, bit for bit

Over an uninterpreted arithmetic: which operations, in which order, produce each result.
-/

set_option linter.unusedSectionVars false

namespace Haxx
open Arith

variable {F : Type} [Arith F]

section gemm

/-- `c += (ALPHA*x_l)*y_l` for `l = 0, …` -/
def pAccK (ALPHA : Scal F) (x : Nat → Scal F) (y : Nat → Scal F) (c : Quat F) : Nat → Quat F
  | 0 => c
  | l+1 => Scal.addTo (pAccK ALPHA x y c l) ((ALPHA.mul (x l)).mul (y l))

/-- `htemp += x_l*y_l` for `l = 0, …` -/
def pDotK (x : Nat → Scal F) (y : Nat → Scal F) : Nat → Quat F
  | 0 => Quat.mkReal zero
  | l+1 => Scal.addTo (pDotK x y l) ((x l).mul (y l))

variable [ArithEq F]

/-- The value the template leaves in an entry of C, as a function of the row of op(A), the column of
op(B) and the old entry. -/
def pGemmK (tA : Char) (ALPHA BETA : Scal F) (K : Int) (x : Nat → Scal F) (y : Nat → Scal F) (c : Quat F) : Quat F :=
  if (ALPHA.eqZero || decide (K = 0)) && BETA.eqOne then c
  else if ALPHA.eqZero then (if BETA.eqZero then Quat.mkReal zero else BETA.mulL c)
  else if tA = 'N' then pAccK ALPHA x y (pBeta BETA c) K.toNat
  else pStore ALPHA BETA (pDotK x y K.toNat) c

/-- As `GemmKArgs`, for any arithmetic. -/
structure GemmMArgs (m : Mem F) (k kB : Kind) (tA tB : Char) (M N K : Int) (ALPHA : Scal F) (A LDA B LDB C LDC : Int)
    (Av : Nat → Nat → Scal F) (Bv : Nat → Nat → Scal F) (Cv : Nat → Nat → Quat F) : Prop where
  hA : ALPHA.eqZero = false → KMatAt m k A LDA (if tA = 'N' then M.toNat else K.toNat) (if tA = 'N' then K.toNat else M.toNat) Av
  hB : ALPHA.eqZero = false → KMatAt m kB B LDB (if tB = 'N' then K.toNat else N.toNat) (if tB = 'N' then N.toNat else K.toNat) Bv
  hC : MatAt m C LDC M.toNat N.toNat Cv
  hld : M ≤ LDC
  fitA : ∀ l : Nat, l < (if tA = 'N' then K.toNat else M.toNat) → Fits32 (l * LDA)
  fitB : ∀ l : Nat, l < (if tB = 'N' then N.toNat else K.toNat) → Fits32 (l * LDB)
  fitC : ∀ l : Nat, l < N.toNat → Fits32 (l * LDC)
  hAC : Apart (KMatCell k A LDA (if tA = 'N' then M.toNat else K.toNat) (if tA = 'N' then K.toNat else M.toNat))
    (MatCell C LDC M.toNat N.toNat)
  hBC : Apart (KMatCell kB B LDB (if tB = 'N' then K.toNat else N.toNat) (if tB = 'N' then N.toNat else K.toNat))
    (MatCell C LDC M.toNat N.toNat)

variable {K : Mem F → Prop} {kA kB : Kind} {ALPHA BETA : Scal F}

omit [ArithEq F] in
theorem gemmAxpyElK_bits {conjB : Bool} {m : Mem F} {ACol bp CCol i : Int} {a b : Scal F} {c : Quat F}
    (ha : readK m kA (ACol + kA.width * i) = some a) (hb : readK m kB bp = some b)
    (hc : readQ m (CCol + 4 * i) = some c) :
    wp (gemmAxpyElK kA kB conjB ALPHA ACol bp CCol i) m (fun _ m' =>
      m' = writeQ m (CCol + 4 * i) (Scal.addTo c ((ALPHA.mul a).mul (if conjB then b.smartConj else b)))) := by
  unfold gemmAxpyElK
  simp only [wp_bind, wp_loadK ha, wp_loadK hb, wp_loadQ hc, wp_storeQ hc]

/-- op(A) = A. -/
theorem gemmColsNK_bits {conjB : Bool} {col : Nat → Prog F Unit} {lpass : Nat → Nat → Prog F Unit}
    {M N Kk : Int} {C LDC : Int} {m0 : Mem F} {c : Nat → Nat → Quat F} {x : Nat → Nat → Scal F} {y : Nat → Nat → Scal F}
    (st : GStK K C LDC M.toNat N.toNat) (hk : K m0)
    (hcol : ∀ j m Q, j < N.toNat → (wp (do gemmBetaCol BETA M (C + 4 * ((j:Int) * LDC)); forN Kk.toNat (lpass j)) m Q → wp (col j) m Q))
    (ACol : Nat → Int) (bp : Nat → Nat → Int)
    (hl : ∀ j l m Q, j < N.toNat → l < Kk.toNat →
      (wp (forN M.toNat (fun i => gemmAxpyElK kA kB conjB ALPHA (ACol l) (bp l j) (C + 4 * ((j:Int) * LDC)) i)) m Q → wp (lpass j l) m Q))
    (hA : ∀ m i l, K m → i < M.toNat → l < Kk.toNat → readK m kA (ACol l + kA.width * i) = some (x i l))
    (hB : ∀ m l j, K m → l < Kk.toNat → j < N.toNat → readK m kB (bp l j) = some (y l j))
    (hC : ∀ i j : Nat, i < M.toNat → j < N.toNat → readQ m0 (C + 4 * (j * LDC) + 4 * i) = some (c i j)) :
    wp (forN N.toNat col) m0 (fun _ m' =>
      (∀ i j : Nat, i < M.toNat → j < N.toNat → readQ m' (C + 4 * (j * LDC) + 4 * i) =
        some (pAccK ALPHA (x i) (fun l => if conjB then (y l j).smartConj else y l j) (pBeta BETA (c i j)) Kk.toNat)) ∧
      K m' ∧ ∀ a, (∀ i j : Nat, i < M.toNat → j < N.toNat → ¬ InQ (C + 4 * (j * LDC) + 4 * i) a) → m' a = m0 a) := by
  apply wp_colsU (addr := fun i j => C + 4 * ((j:Int) * LDC) + 4 * (i:Int)) st.disj hk hC
  intro j m hj hU
  have hd : ∀ i i' : Nat, i < M.toNat → i' < M.toNat → i ≠ i' → QDisj (C + 4 * ((j:Int) * LDC) + 4 * (i:Int)) (C + 4 * ((j:Int) * LDC) + 4 * (i':Int)) :=
    fun i i' hi hi' hne => st.disj i j i' j hi hi' (fun e => hne e.1)
  have hs : ∀ m (i : Nat) q, i < M.toNat → K m → K (writeQ m (C + 4 * ((j:Int) * LDC) + 4 * (i:Int)) q) :=
    fun m i q hi h => st.stable m i j q hi hj h
  apply hcol j m _ hj
  rw [wp_bind]
  refine wp_mono (gemmBetaCol_bits hd hs hU) ?_
  intro _ m1 hU1
  apply wp_forN (fun l m2 => Upd K (fun i => C + 4 * ((j:Int) * LDC) + 4 * (i:Int)) M.toNat m
    (fun i => pAccK ALPHA (x i) (fun l => if conjB then (y l j).smartConj else y l j) (pBeta BETA (c i j)) l) m2)
  · exact hU1
  · intro l m2 hl2 hU2
    apply hl j l m2 _ hj hl2
    exact wp_passU hd hs hU2 (fun i m3 hi hk3 hc3 => gemmAxpyElK_bits (hA m3 i l hk3 hi hl2) (hB m3 l j hk3 hl2 hj) hc3)
  · intro m2 hU2; exact hU2

omit [ArithEq F] in
theorem gemmDotElK_bits {conjA conjB : Bool} {m : Mem F} {ACol bp l : Int} {a b : Scal F} {h : Quat F}
    (ha : readK m kA (ACol + kA.width * l) = some a) (hb : readK m kB bp = some b) {Q : Quat F → Mem F → Prop} :
    wp (gemmDotElK kA kB conjA conjB ACol bp l h) m Q ↔
      Q (Scal.addTo h ((if conjA then a.smartConj else a).mul (if conjB then b.smartConj else b))) m := by
  unfold gemmDotElK
  simp only [wp_bind, wp_loadK ha, wp_loadK hb, wp_pure]

/-- op(A) ≠ A. -/
theorem gemmColsTK_bits {conjA conjB : Bool} {col : Nat → Prog F Unit} {el : Nat → Nat → Prog F Unit}
    {dot : Nat → Nat → Nat → Quat F → Prog F (Quat F)}
    {M N Kk : Int} {C LDC : Int} {m0 : Mem F} {c : Nat → Nat → Quat F} {x : Nat → Nat → Scal F} {y : Nat → Nat → Scal F}
    (st : GStK K C LDC M.toNat N.toNat) (hk : K m0)
    (hcol : ∀ j m Q, j < N.toNat → (wp (forN M.toNat (el j)) m Q → wp (col j) m Q))
    (hel : ∀ j i m Q, j < N.toNat → i < M.toNat →
      (wp (do let h ← foldN Kk.toNat (dot j i) (Quat.mkReal zero); gemmStoreEl ALPHA BETA (C + 4 * ((j:Int) * LDC)) i h) m Q → wp (el j i) m Q))
    (ACol : Nat → Int) (bp : Nat → Nat → Int)
    (hdot : ∀ j i l h m Q, j < N.toNat → i < M.toNat → l < Kk.toNat →
      (wp (gemmDotElK kA kB conjA conjB (ACol i) (bp l j) l h) m Q → wp (dot j i l h) m Q))
    (hA : ∀ m i l, K m → i < M.toNat → l < Kk.toNat → readK m kA (ACol i + kA.width * l) = some (x i l))
    (hB : ∀ m l j, K m → l < Kk.toNat → j < N.toNat → readK m kB (bp l j) = some (y l j))
    (hC : ∀ i j : Nat, i < M.toNat → j < N.toNat → readQ m0 (C + 4 * (j * LDC) + 4 * i) = some (c i j)) :
    wp (forN N.toNat col) m0 (fun _ m' =>
      (∀ i j : Nat, i < M.toNat → j < N.toNat → readQ m' (C + 4 * (j * LDC) + 4 * i) =
        some (pStore ALPHA BETA (pDotK (fun l => if conjA then (x i l).smartConj else x i l)
          (fun l => if conjB then (y l j).smartConj else y l j) Kk.toNat) (c i j))) ∧
      K m' ∧ ∀ a, (∀ i j : Nat, i < M.toNat → j < N.toNat → ¬ InQ (C + 4 * (j * LDC) + 4 * i) a) → m' a = m0 a) := by
  apply wp_colsU (addr := fun i j => C + 4 * ((j:Int) * LDC) + 4 * (i:Int)) st.disj hk hC
  intro j m hj hU
  have hd : ∀ i i' : Nat, i < M.toNat → i' < M.toNat → i ≠ i' → QDisj (C + 4 * ((j:Int) * LDC) + 4 * (i:Int)) (C + 4 * ((j:Int) * LDC) + 4 * (i':Int)) :=
    fun i i' hi hi' hne => st.disj i j i' j hi hi' (fun e => hne e.1)
  have hs : ∀ m (i : Nat) q, i < M.toNat → K m → K (writeQ m (C + 4 * ((j:Int) * LDC) + 4 * (i:Int)) q) :=
    fun m i q hi h => st.stable m i j q hi hj h
  apply hcol j m _ hj
  refine wp_passU hd hs hU ?_
  intro i m1 hi hk1 hc1
  apply hel j i m1 _ hj hi
  rw [wp_bind]
  apply wp_acc (fun k (h : Quat F) => h = pDotK (fun l => if conjA then (x i l).smartConj else x i l)
          (fun l => if conjB then (y l j).smartConj else y l j) k)
  · rfl
  · intro l h hl ih
    apply hdot j i l h m1 _ hj hi hl
    rw [gemmDotElK_bits (hA m1 i l hk1 hi hl) (hB m1 l j hk1 hl hj)]
    refine ⟨rfl, ?_⟩
    rw [ih, pDotK]
  · intro h hh
    refine wp_mono (gemmStoreEl_bits hc1) ?_
    rintro _ m' rfl
    rw [hh]

/-- The portable GEMM template, bit for bit, for every flag character. -/
theorem gemmGenK_bits (m : Mem F) (k kB : Kind) (tA tB : Char) (M N K : Int) (ALPHA BETA : Scal F)
    (A LDA B LDB C LDC : Int) (Av : Nat → Nat → Scal F) (Bv : Nat → Nat → Scal F) (Cv : Nat → Nat → Quat F)
    (h : GemmMArgs m k kB tA tB M N K ALPHA A LDA B LDB C LDC Av Bv Cv) :
    ∃ m', gemmGenK k kB tA tB M N K ALPHA A LDA B LDB BETA C LDC m = .ok ((), m') ∧
      MatAt m' C LDC M.toNat N.toNat (fun i j =>
        pGemmK tA ALPHA BETA K (opKE tA Av i) (fun l => opKE tB Bv l j) (Cv i j)) ∧
      SameOutside (MatCell C LDC M.toNat N.toNat) m m' := by
  have eC : ∀ i j : Nat, C + 4 * ((j:Int) * LDC) + 4 * (i:Int) = C + 4 * ((i:Int) + j * LDC) := by intros; ring
  have key : wp (gemmGenK k kB tA tB M N K ALPHA A LDA B LDB BETA C LDC) m (fun _ m' =>
      (∀ i j : Nat, i < M.toNat → j < N.toNat → readQ m' (C + 4 * (j * LDC) + 4 * i) = some
        (pGemmK tA ALPHA BETA K (opKE tA Av i) (fun l => opKE tB Bv l j) (Cv i j))) ∧
      (∀ c, ¬ MatCell C LDC M.toNat N.toNat c → m' c = m c) ∧
      ∀ a, (∀ i j : Nat, i < M.toNat → j < N.toNat → ¬ InQ (C + 4 * (j * LDC) + 4 * i) a) → m' a = m a) := by
    have st : GStK (fun m' => ∀ c, ¬ MatCell C LDC M.toNat N.toNat c → m' c = m c) C LDC M.toNat N.toNat := {
      stable := by
        intro m' i j q hi hj hm c hc
        rw [writeQ_other (fun hin => hc ⟨i, j, hi, hj, by rw [← eC]; exact hin⟩)]
        exact hm c hc
      disj := by
        intro i j i' j' hi hi' hne
        rw [eC, eC]
        exact mat_disj (r := M.toNat) (by have := h.hld; omega) hi hi' hne
      fitC := h.fitC }
    have hC : ∀ i j : Nat, i < M.toNat → j < N.toNat → readQ m (C + 4 * (j * LDC) + 4 * i) = some (Cv i j) := by
      intro i j hi hj; rw [eC]; exact h.hC i j hi hj
    unfold gemmGenK pGemmK
    dsimp only
    split
    · rename_i e
      rw [wp_pure]
      refine ⟨fun i j hi hj => ?_, fun _ _ => rfl, fun _ _ => rfl⟩
      rw [hC i j hi hj]
      simp only [Bool.or_eq_true, Bool.and_eq_true, decide_eq_true_eq] at e
      rcases e with (e | e) | e
      · omega
      · omega
      · rw [if_pos (by simpa using e)]
    · rename_i e
      simp only [Bool.or_eq_true, not_or] at e
      simp only [if_neg e.2]
      split
      · rename_i e
        exact gemmColA0_bits st (fun _ _ => rfl) hC
      · rename_i hz
        have h0 : ALPHA.eqZero = false := by simpa using hz
        have hA := h.hA h0
        have hB := h.hB h0
        have fA := h.fitA
        have fB := h.fitB
        have fC := h.fitC
        have rA : ∀ m' i j, (∀ c, ¬ MatCell C LDC M.toNat N.toNat c → m' c = m c) → i < (if tA = 'N' then M.toNat else K.toNat) → j < (if tA = 'N' then K.toNat else M.toNat) →
            readK m' k (A + k.width * (i + j * LDA)) = some (Av i j) := by
          intro m' i j hm hi hj
          rw [readK_congr (m' := m)]
          · exact hA i j hi hj
          · intro c h1 h2; exact hm c (h.hAC c ⟨i, j, hi, hj, h1, h2⟩)
        have rB : ∀ m' i j, (∀ c, ¬ MatCell C LDC M.toNat N.toNat c → m' c = m c) → i < (if tB = 'N' then K.toNat else N.toNat) → j < (if tB = 'N' then N.toNat else K.toNat) →
            readK m' kB (B + kB.width * (i + j * LDB)) = some (Bv i j) := by
          intro m' i j hm hi hj
          rw [readK_congr (m' := m)]
          · exact hB i j hi hj
          · intro c h1 h2; exact hm c (h.hBC c ⟨i, j, hi, hj, h1, h2⟩)
        have caseN : ∀ cB : Bool, tA = 'N' → tB ≠ 'N' → (cB = true ↔ tB = 'C') →
            wp (forN N.toNat (fun j => gemmColNTK k kB cB M K ALPHA A LDA B LDB BETA C LDC j)) m (fun _ m' =>
              (∀ i j : Nat, i < M.toNat → j < N.toNat → readQ m' (C + 4 * (j * LDC) + 4 * i) = some
                (pAccK ALPHA (opKE tA Av i) (fun l => opKE tB Bv l j) (pBeta BETA (Cv i j)) K.toNat)) ∧
              (∀ c, ¬ MatCell C LDC M.toNat N.toNat c → m' c = m c) ∧
              ∀ a, (∀ i j : Nat, i < M.toNat → j < N.toNat → ¬ InQ (C + 4 * (j * LDC) + 4 * i) a) → m' a = m a) := by
          intro cB hA' hB' hcB
          simp only [hA', hB', if_true, if_false] at rA rB fA fB
          refine wp_mono (gemmColsNK_bits (conjB := cB) (kA := k) (kB := kB) (Kk := K) (ALPHA := ALPHA) (BETA := BETA)
            (x := fun i l => Av i l) (y := fun l j => Bv j l)
            (lpass := fun j l => do
              let la ← i32 (l * LDA)
              let lb ← i32 (l * LDB)
              forN M.toNat (fun i => gemmAxpyElK k kB cB ALPHA (A + k.width * la) (B + kB.width * lb + kB.width * j) (C + 4 * (j * LDC)) i))
            st (fun _ _ => rfl) ?_ (fun l => A + k.width * (l * LDA)) (fun l j => B + kB.width * (l * LDB) + kB.width * j) ?_ ?_ ?_ hC) ?_
          · intro j m' Q hj hw
            unfold gemmColNTK
            rw [wp_bind, wp_i32 (fC j hj)]
            exact hw
          · intro j l m' Q hj hl hw
            rw [wp_bind, wp_i32 (fA l hl), wp_bind, wp_i32 (fB l hl)]
            exact hw
          · intro m' i l hm hi hl
            rw [← rA m' i l hm hi hl]; congr 1; ring
          · intro m' l j hm hl hj
            rw [← rB m' j l hm hj hl]; congr 1; ring
          · intro _ m' h'
            refine ⟨fun i j hi hj => ?_, h'.2⟩
            rw [h'.1 i j hi hj]
            have e1 : opKE tA Av i = fun l => Av i l := by
              funext l; simp only [opKE, if_pos hA']
            have e2 : (fun l => opKE tB Bv l j) = fun l => if cB = true then (Bv j l).smartConj else Bv j l := by
              funext l; simp only [opKE, if_neg hB', hcB]
            rw [e1, e2]
        have caseTN : ∀ cA : Bool, tA ≠ 'N' → tB = 'N' → (cA = true ↔ tA = 'C') →
            wp (forN N.toNat (fun j => gemmColTNK k kB cA M K ALPHA A LDA B LDB BETA C LDC j)) m (fun _ m' =>
              (∀ i j : Nat, i < M.toNat → j < N.toNat → readQ m' (C + 4 * (j * LDC) + 4 * i) = some
                (pStore ALPHA BETA (pDotK (opKE tA Av i) (fun l => opKE tB Bv l j) K.toNat) (Cv i j))) ∧
              (∀ c, ¬ MatCell C LDC M.toNat N.toNat c → m' c = m c) ∧
              ∀ a, (∀ i j : Nat, i < M.toNat → j < N.toNat → ¬ InQ (C + 4 * (j * LDC) + 4 * i) a) → m' a = m a) := by
          intro cA hA' hB' hcA
          simp only [hA', hB', if_true, if_false] at rA rB fA fB
          refine wp_mono (gemmColsTK_bits (conjA := cA) (conjB := false) (kA := k) (kB := kB) (Kk := K) (ALPHA := ALPHA) (BETA := BETA)
            (x := fun i l => Av l i) (y := fun l j => Bv l j)
            (el := fun j i => gemmElTNK k kB cA K ALPHA A LDA (B + kB.width * (j * LDB)) BETA (C + 4 * (j * LDC)) i)
            (dot := fun j i l h => gemmDotElK k kB cA false (A + k.width * (i * LDA)) (B + kB.width * (j * LDB) + kB.width * l) l h)
            st (fun _ _ => rfl) ?_ ?_ (fun i => A + k.width * (i * LDA)) (fun l j => B + kB.width * (j * LDB) + kB.width * l) ?_ ?_ ?_ hC) ?_
          · intro j m' Q hj hw
            unfold gemmColTNK
            rw [wp_bind, wp_i32 (fC j hj), wp_bind, wp_i32 (fB j hj)]
            exact hw
          · intro j i m' Q hj hi hw
            unfold gemmElTNK
            rw [wp_bind, wp_i32 (fA i hi)]
            exact hw
          · intro j i l hh m' Q _ _ _ hw; exact hw
          · intro m' i l hm hi hl
            rw [← rA m' l i hm hl hi]; congr 1; ring
          · intro m' l j hm hl hj
            rw [← rB m' l j hm hl hj]; congr 1; ring
          · intro _ m' h'
            refine ⟨fun i j hi hj => ?_, h'.2⟩
            rw [h'.1 i j hi hj]
            have e1 : opKE tA Av i = fun l => if cA = true then (Av l i).smartConj else Av l i := by
              funext l; simp only [opKE, if_neg hA', hcA]
            have e2 : (fun l => opKE tB Bv l j) = fun l => if false = true then (Bv l j).smartConj else Bv l j := by
              funext l; simp only [opKE, hB', if_true, Bool.false_eq_true, if_false]
            rw [e1, e2]
        have caseTT : ∀ cA cB : Bool, tA ≠ 'N' → tB ≠ 'N' → (cA = true ↔ tA = 'C') → (cB = true ↔ tB = 'C') →
            wp (forN N.toNat (fun j => gemmColTTK k kB cA cB M K ALPHA A LDA B LDB BETA C LDC j)) m (fun _ m' =>
              (∀ i j : Nat, i < M.toNat → j < N.toNat → readQ m' (C + 4 * (j * LDC) + 4 * i) = some
                (pStore ALPHA BETA (pDotK (opKE tA Av i) (fun l => opKE tB Bv l j) K.toNat) (Cv i j))) ∧
              (∀ c, ¬ MatCell C LDC M.toNat N.toNat c → m' c = m c) ∧
              ∀ a, (∀ i j : Nat, i < M.toNat → j < N.toNat → ¬ InQ (C + 4 * (j * LDC) + 4 * i) a) → m' a = m a) := by
          intro cA cB hA' hB' hcA hcB
          simp only [hA', hB', if_false] at rA rB fA fB
          refine wp_mono (gemmColsTK_bits (conjA := cA) (conjB := cB) (kA := k) (kB := kB) (Kk := K) (ALPHA := ALPHA) (BETA := BETA)
            (x := fun i l => Av l i) (y := fun l j => Bv j l)
            (el := fun j i => gemmElTTK k kB cA cB K ALPHA A LDA (B + kB.width * j) LDB BETA (C + 4 * (j * LDC)) i)
            (dot := fun j i l h => do
              let lb ← i32 (l * LDB)
              gemmDotElK k kB cA cB (A + k.width * (i * LDA)) (B + kB.width * j + kB.width * lb) l h)
            st (fun _ _ => rfl) ?_ ?_ (fun i => A + k.width * (i * LDA)) (fun l j => B + kB.width * j + kB.width * (l * LDB)) ?_ ?_ ?_ hC) ?_
          · intro j m' Q hj hw
            unfold gemmColTTK
            rw [wp_bind, wp_i32 (fC j hj)]
            exact hw
          · intro j i m' Q hj hi hw
            unfold gemmElTTK
            rw [wp_bind, wp_i32 (fA i hi)]
            exact hw
          · intro j i l hh m' Q _ _ hl hw
            rw [wp_bind, wp_i32 (fB l hl)]
            exact hw
          · intro m' i l hm hi hl
            rw [← rA m' l i hm hl hi]; congr 1; ring
          · intro m' l j hm hl hj
            rw [← rB m' j l hm hj hl]; congr 1; ring
          · intro _ m' h'
            refine ⟨fun i j hi hj => ?_, h'.2⟩
            rw [h'.1 i j hi hj]
            have e1 : opKE tA Av i = fun l => if cA = true then (Av l i).smartConj else Av l i := by
              funext l; simp only [opKE, if_neg hA', hcA]
            have e2 : (fun l => opKE tB Bv l j) = fun l => if cB = true then (Bv j l).smartConj else Bv j l := by
              funext l; simp only [opKE, if_neg hB', hcB]
            rw [e1, e2]
        simp only [beq_iff_eq]
        by_cases hA' : tA = 'N'
        · simp only [if_pos hA']
          by_cases hB' : tB = 'N'
          · simp only [if_pos hB']
            simp only [hA', hB', if_true] at rA rB fA fB
            refine wp_mono (gemmColsNK_bits (conjB := false) (kA := k) (kB := kB) (Kk := K) (ALPHA := ALPHA) (BETA := BETA)
              (x := fun i l => Av i l) (y := fun l j => Bv l j)
              (lpass := fun j l => do
                let la ← i32 (l * LDA)
                forN M.toNat (fun i => gemmAxpyElK k kB false ALPHA (A + k.width * la) (B + kB.width * (j * LDB) + kB.width * l) (C + 4 * (j * LDC)) i))
              st (fun _ _ => rfl) ?_ (fun l => A + k.width * (l * LDA)) (fun l j => B + kB.width * (j * LDB) + kB.width * l) ?_ ?_ ?_ hC) ?_
            · intro j m' Q hj hw
              unfold gemmColNNK
              rw [wp_bind, wp_i32 (fC j hj), wp_bind, wp_i32 (fB j hj)]
              exact hw
            · intro j l m' Q hj hl hw
              rw [wp_bind, wp_i32 (fA l hl)]
              exact hw
            · intro m' i l hm hi hl
              rw [← rA m' i l hm hi hl]; congr 1; ring
            · intro m' l j hm hl hj
              rw [← rB m' l j hm hl hj]; congr 1; ring
            · intro _ m' h'
              refine ⟨fun i j hi hj => ?_, h'.2⟩
              rw [h'.1 i j hi hj]
              have e1 : opKE tA Av i = fun l => Av i l := by
                funext l; simp only [opKE, if_pos hA']
              have e2 : (fun l => opKE tB Bv l j) = fun l => if false = true then (Bv l j).smartConj else Bv l j := by
                funext l; simp only [opKE, if_pos hB', Bool.false_eq_true, if_false]
              rw [e1, e2]
          · simp only [if_neg hB']
            by_cases hc : tB = 'C'
            · simp only [if_pos hc]; exact caseN true hA' hB' (by simp [hc])
            · simp only [if_neg hc]; exact caseN false hA' hB' (by simp [hc])
        · simp only [if_neg hA']
          by_cases hB' : tB = 'N'
          · simp only [if_pos hB']
            by_cases hc : tA = 'C'
            · simp only [if_pos hc]; exact caseTN true hA' hB' (by simp [hc])
            · simp only [if_neg hc]; exact caseTN false hA' hB' (by simp [hc])
          · simp only [if_neg hB']
            by_cases ha : tA = 'C' <;> by_cases hc : tB = 'C' <;> simp only [ha, hc, if_true, if_false]
            · have := caseTT true true hA' hB' (by simp [ha]) (by simp [hc])
              simpa only [ha, hc] using this
            · have := caseTT true false hA' hB' (by simp [ha]) (by simp [hc])
              simpa only [ha, hc] using this
            · have := caseTT false true hA' hB' (by simp [ha]) (by simp [hc])
              simpa only [ha, hc] using this
            · exact caseTT false false hA' hB' (by simp [ha]) (by simp [hc])
  obtain ⟨_, m', h1, h2, h3, _⟩ := key
  exact ⟨m', h1, fun i j hi hj => by rw [← eC]; exact h2 i j hi hj, h3⟩

end gemm

/-! ## Vectors of real, complex or quaternion numbers -/

section vectors

/-- `x i` (`i < n`) is the vector of elements of type `k` at `p`, increment `inc`. -/
def KVecAt (m : Mem F) (k : Kind) (p inc : Int) (n : Nat) (x : Nat → Scal F) : Prop :=
  ∀ i : Nat, i < n → readK m k (p + k.width * ((i:Int) * inc)) = some (x i)

/-- Cell `a` belongs to that vector. -/
def KVecCell (k : Kind) (p inc : Int) (n : Nat) (a : Int) : Prop :=
  ∃ i : Nat, i < n ∧ p + k.width * ((i:Int) * inc) ≤ a ∧ a < p + k.width * ((i:Int) * inc) + k.width

theorem kvecAt_apart {m m0 : Mem F} {S : Int → Prop} {k : Kind} {X INCX : Int} {n : Nat} {xv : Nat → Scal F}
    (hX : KVecAt m0 k X INCX n xv) (hd : Apart (KVecCell k X INCX n) S) (hs : SameOutside S m0 m) :
    KVecAt m k X INCX n xv := by
  intro i hi
  rw [← hX i hi]
  apply readK_congr
  intro c h1 h2
  exact hs c (hd c ⟨i, hi, h1, h2⟩)

/-! ## AXPYV -/

theorem axpyvGenK_eq [ArithEq F] {kX : Kind} {SIDE : Char} {ALPHA : Scal F} {N X INCX Y INCY : Int}
    (hx : 0 < INCX) (hy : 0 < INCY)
    (fx : Fits32 (N * INCX)) (fy : Fits32 (N * INCY)) (hz : ALPHA.eqZero = false) :
    (axpyvGenK kX SIDE N ALPHA X INCX Y INCY : Prog F Unit) =
      forN N.toNat (fun i => axpyElK kX (!(SIDE == 'R')) ALPHA X Y (i * INCX) (i * INCY)) := by
  rw [← gen_shape (axpyElK kX (!(SIDE == 'R')) ALPHA X Y) 4 (by omega)
    (axpyUnrollK kX (!(SIDE == 'R')) ALPHA X Y) ?_ hx hy fx fy]
  · unfold axpyvGenK
    rw [hz]
    rfl
  · intro i
    simp only [forN_succ, forN_zero, prog_pure_bind, prog_bind_assoc, axpyUnrollK, Nat.cast_ofNat,
      Nat.cast_zero, Nat.cast_one, add_zero]

/-- The value AXPYV leaves in an element of Y. -/
def pAxpyvK [ArithEq F] (SIDE : Char) (ALPHA x : Scal F) (y : Quat F) : Quat F :=
  if ALPHA.eqZero then y
  else Scal.addTo y (if SIDE = 'R' then Scal.mul x ALPHA else Scal.mul ALPHA x)

theorem axpyvGenK_bits [ArithEq F] (m : Mem F) (kX : Kind) (SIDE : Char) (N X INCX Y INCY : Int) (ALPHA : Scal F)
    (xv : Nat → Scal F) (yv : Nat → Quat F) (hx : 0 < INCX) (hy : 0 < INCY)
    (fx : Fits32 (N * INCX)) (fy : Fits32 (N * INCY))
    (hX : KVecAt m kX X INCX N.toNat xv) (hY : VecAt m Y INCY N.toNat yv)
    (hdis : Apart (KVecCell kX X INCX N.toNat) (VecCell Y INCY N.toNat)) :
    ∃ m', axpyvGenK kX SIDE N ALPHA X INCX Y INCY m = .ok ((), m') ∧
      VecAt m' Y INCY N.toNat (fun i => pAxpyvK SIDE ALPHA (xv i) (yv i)) ∧
      SameOutside (VecCell Y INCY N.toNat) m m' := by
  by_cases hz : ALPHA.eqZero = true
  · refine ⟨m, ?_, ?_, fun _ _ => rfl⟩
    · unfold axpyvGenK
      rw [if_pos hz]
      split <;> rfl
    · intro i hi
      simp only [pAxpyvK, hz, if_true]
      exact hY i hi
  · have hz' : ALPHA.eqZero = false := by simpa using hz
    have key : wp (axpyvGenK kX SIDE N ALPHA X INCX Y INCY) m (fun _ m' =>
        VecAt m' Y INCY N.toNat (fun i => pAxpyvK SIDE ALPHA (xv i) (yv i)) ∧
        SameOutside (VecCell Y INCY N.toNat) m m') := by
      rw [axpyvGenK_eq hx hy fx fy hz']
      unfold forN
      refine wp_mono (wp_vecmap (fun _ => ()) (fun i => pAxpyvK SIDE ALPHA (xv i) (yv i)) hY
        (Or.inl (by omega)) ?_) (fun _ _ h => h.2)
      intro i m' hi hyi hs
      have hxi := kvecAt_apart hX hdis hs i hi
      unfold axpyElK pAxpyvK
      rw [wp_bind, wp_loadK hxi, wp_bind, wp_loadQ hyi, wp_storeQ hyi]
      refine ⟨rfl, ?_⟩
      by_cases h : SIDE = 'R' <;> simp [h, hz']
    obtain ⟨_, m', h1, h2⟩ := key
    exact ⟨m', h1, h2⟩

/-! ## GEMV, GERU and GERC -/

/-- What the code reads, in every state that can be met. -/
structure GkEnvK (K : Mem F → Prop) (kA kX : Kind) (A LDA : Int) (M N : Nat) (a : Nat → Nat → Scal F)
    (X INCX : Int) (lx : Nat) (x : Nat → Scal F) : Prop where
  rdA : ∀ m, K m → KMatAt m kA A LDA M N a
  rdX : ∀ m, K m → ∀ i : Nat, i < lx → readK m kX (X + kX.width * ((i:Int) * INCX)) = some (x i)
  fitA : ∀ i j : Nat, i < M → j < N → Fits32 (j * LDA) ∧ Fits32 (i + j * LDA)
  fitX : ∀ i : Nat, i ≤ lx → Fits32 (i * INCX)

/-- The same for GERU and GERC. -/
structure GerKK {F : Type} (K : Mem F → Prop) (kX kY : Kind) (X INCX : Int) (M : Nat) (x : Nat → Scal F) (Y INCY : Int) (N : Nat)
    (y : Nat → Scal F) (A LDA : Int) : Prop where
  rdX : ∀ m, K m → ∀ i : Nat, i < M → readK m kX (X + kX.width * ((i:Int) * INCX)) = some (x i)
  rdY : ∀ m, K m → ∀ j : Nat, j < N → readK m kY (Y + kY.width * ((j:Int) * INCY)) = some (y j)
  stable : ∀ m (i j : Nat) q, i < M → j < N → K m → K (writeQ m (A + 4 * (i + j * LDA)) q)
  disj : ∀ i j i' j' : Nat, i < M → i' < M → ¬ (i = i' ∧ j = j') →
    QDisj (A + 4 * (i + j * LDA)) (A + 4 * (i' + j' * LDA))
  fitA : ∀ i j : Nat, i < M → j < N → Fits32 (j * LDA) ∧ Fits32 (i + j * LDA)
  fitX : ∀ i : Nat, i ≤ M → Fits32 (i * INCX)
  fitY : ∀ j : Nat, j ≤ N → Fits32 (j * INCY)

variable [ArithEq F]

/-- `y += a*(ALPHA*x); y += (ALPHA*a - a*ALPHA)*x` -/
def pAxpyK (ALPHA : Scal F) (a x : Scal F) (y : Quat F) : Quat F :=
  Scal.addTo (Quat.addAssign y (a.mulL (ALPHA.mul x).toQuat)) (((ALPHA.mul a).sub (a.mul ALPHA)).mul x)

/-- the same for `l = 0, …` -/
def pAxpysK (ALPHA : Scal F) (a : Nat → Scal F) (x : Nat → Scal F) (y : Quat F) : Nat → Quat F
  | 0 => y
  | l+1 => pAxpyK ALPHA (a l) (x l) (pAxpysK ALPHA a x y l)


/-- The value GEMV leaves in an element of y, from a row `a` of op(A), all of `x` and the old value. -/
def pGemvK (t : Char) (ALPHA BETA : Scal F) (K : Nat) (a : Nat → Scal F) (x : Nat → Scal F) (y : Quat F) : Quat F :=
  if ALPHA.eqZero && BETA.eqOne then y
  else if ALPHA.eqZero then pScale BETA y
  else if t = 'N' then pAxpysK ALPHA a x (pScale BETA y) K
  else Quat.addAssign (pScale BETA y) (ALPHA.mulL (pDotK a x K))

/-- The value GERU (GERC) leaves in an entry of A, from `x_i`, `y_j` and the old value. -/
def pGerK (conjY : Bool) (ALPHA x y : Scal F) (a : Quat F) : Quat F :=
  if ALPHA.eqZero then a
  else if !y.eqZero then
    Scal.addTo a ((ALPHA.mul x).mul (if conjY then y.smartConj else y))
  else a

/-- As `GemvKArgs`, for any arithmetic. -/
structure GemvMArgs (m : Mem F) (k kX : Kind) (t : Char) (M N : Int) (ALPHA : Scal F) (A LDA X INCX Y INCY : Int)
    (a : Nat → Nat → Scal F) (x : Nat → Scal F) (y : Nat → Quat F) : Prop where
  incX : 0 < INCX
  incY : 0 < INCY
  hY : VecAt m Y INCY (if t = 'N' then M else N).toNat y
  hA : ALPHA.eqZero = false → KMatAt m k A LDA M.toNat N.toNat a
  hX : ALPHA.eqZero = false → KVecAt m kX X INCX (if t = 'N' then N else M).toNat x
  hAY : Apart (KMatCell k A LDA M.toNat N.toNat) (VecCell Y INCY (if t = 'N' then M else N).toNat)
  hXY : Apart (KVecCell kX X INCX (if t = 'N' then N else M).toNat) (VecCell Y INCY (if t = 'N' then M else N).toNat)
  fitA : ∀ i j : Nat, i < M.toNat → j < N.toNat → Fits32 (j * LDA) ∧ Fits32 (i + j * LDA)
  fitX : ∀ i : Nat, i ≤ (if t = 'N' then N else M).toNat → Fits32 (i * INCX)
  fitY : ∀ i : Nat, i ≤ (if t = 'N' then M else N).toNat → Fits32 (i * INCY)

/-- As `GerKArgs`, for any arithmetic. -/
structure GerMArgs (m : Mem F) (kX kY : Kind) (M N X INCX Y INCY A LDA : Int) (x y : Nat → Scal F) (a : Nat → Nat → Quat F) : Prop where
  incX : 0 < INCX
  incY : 0 < INCY
  hA : MatAt m A LDA M.toNat N.toNat a
  hX : KVecAt m kX X INCX M.toNat x
  hY : KVecAt m kY Y INCY N.toNat y
  hld : M ≤ LDA
  hXA : Apart (KVecCell kX X INCX M.toNat) (MatCell A LDA M.toNat N.toNat)
  hYA : Apart (KVecCell kY Y INCY N.toNat) (MatCell A LDA M.toNat N.toNat)
  fitA : ∀ i j : Nat, i < M.toNat → j < N.toNat → Fits32 (j * LDA) ∧ Fits32 (i + j * LDA)
  fitX : ∀ i : Nat, i ≤ M.toNat → Fits32 (i * INCX)
  fitY : ∀ j : Nat, j ≤ N.toNat → Fits32 (j * INCY)

variable {K : Mem F → Prop} {kA kX kY : Kind} {ALPHA BETA : Scal F}

omit [ArithEq F] in
theorem gemvAxpyElK_bits {m : Mem F} {A LDA X Y j jx i iy : Int} {a x : Scal F} {y : Quat F}
    (f1 : Fits32 (j * LDA)) (f2 : Fits32 (i + j * LDA))
    (ha : ∀ q, readK (writeQ m (Y + 4 * iy) q) kA (A + kA.width * (i + j * LDA)) = some a)
    (ha0 : readK m kA (A + kA.width * (i + j * LDA)) = some a)
    (hx : ∀ q, readK (writeQ m (Y + 4 * iy) q) kX (X + kX.width * jx) = some x)
    (hy : readQ m (Y + 4 * iy) = some y) :
    wp (gemvAxpyElK kA kX ALPHA A LDA X Y j jx ((ALPHA.mul x).toQuat) i iy) m (fun _ m' =>
      m' = writeQ m (Y + 4 * iy) (pAxpyK ALPHA a x y)) := by
  unfold gemvAxpyElK
  simp only [wp_bind, wp_rank2 f1 f2, wp_loadK ha0, wp_loadK (ha _), wp_loadQ hy, wp_storeQ hy, wp_loadK (hx _),
    wp_loadQ (readQ_writeQ_same _ _ _), wp_storeQ (readQ_writeQ_same _ _ _), writeQ_writeQ]
  rfl

variable {A LDA X INCX Y INCY M N : Int} {a : Nat → Nat → Scal F} {x : Nat → Scal F} {m0 : Mem F}

omit [ArithEq F] in
theorem gemvColNK_bits (en : GkEnvK K kA kX A LDA M.toNat N.toNat a X INCX N.toNat x) (st : VStK K Y INCY M.toNat)
    {j : Nat} (hj : j < N.toNat) {m : Mem F} {c : Nat → Quat F}
    (hU : Upd K (fun i => Y + 4 * ((i:Int) * INCY)) M.toNat m0 c m) :
    wp (gemvColNK kA kX M ALPHA A LDA X INCX Y INCY j (j * INCX)) m (fun s m' => s = ((j+1 : Nat) : Int) * INCX ∧
      Upd K (fun i => Y + 4 * ((i:Int) * INCY)) M.toNat m0 (fun i => pAxpyK ALPHA (a i j) (x j) (c i)) m') := by
  have el : ∀ (i : Nat) m, i < M.toNat → K m → readQ m (Y + 4 * ((i:Int) * INCY)) = some (c i) →
      wp (gemvAxpyElK kA kX ALPHA A LDA X Y j (j * INCX) ((ALPHA.mul (x j)).toQuat) i (i * INCY)) m (fun _ m' =>
      m' = writeQ m (Y + 4 * ((i:Int) * INCY)) (pAxpyK ALPHA (a i j) (x j) (c i))) := by
    intro i m hi hk hc
    exact gemvAxpyElK_bits (en.fitA i j hi hj).1 (en.fitA i j hi hj).2
      (fun q => en.rdA _ (st.stable m i q hi hk) i j hi hj) (en.rdA _ hk i j hi hj)
      (fun q => en.rdX _ (st.stable m i q hi hk) j hj) hc
  have fin : Fits32 ((j:Int) * INCX + INCX) := by rw [← cast_succ_mul]; exact en.fitX (j+1) hj
  unfold gemvColNK
  rw [wp_bind, wp_loadK (en.rdX m hU.k j hj)]
  dsimp only
  split
  · rename_i e; subst e
    rw [wp_bind]
    refine wp_mono (wp_passU st.disj st.stable hU (fun i m hi hk hc => by simpa using el i m hi hk hc)) ?_
    intro _ m' h
    rw [wp_i32 fin]
    exact ⟨(cast_succ_mul j INCX).symm, h⟩
  · rw [wp_bind]
    refine wp_mono (wp_pass (c' := fun i => pAxpyK ALPHA (a i j) (x j) (c i))
      (fun i => (i:Int) * INCY) (by simp) st.disj st.stable hU ?_) ?_
    · intro i m hi hk hc
      rw [wp_bind]
      refine wp_mono (el i m hi hk hc) ?_
      rintro _ m' rfl
      rw [wp_i32 (by rw [← cast_succ_mul]; exact st.fitY (i+1) hi)]
      exact ⟨(cast_succ_mul i INCY).symm, rfl⟩
    · intro _ m' h
      rw [wp_i32 fin]
      exact ⟨(cast_succ_mul j INCX).symm, h.2⟩

omit [ArithEq F] in
theorem gemvDotElK_bits {NOCONJ : Bool} {m : Mem F} {A LDA X j i ix : Int} {a x : Scal F} {h : Quat F}
    (f1 : Fits32 (j * LDA)) (f2 : Fits32 (i + j * LDA))
    (ha : readK m kA (A + kA.width * (i + j * LDA)) = some a) (hx : readK m kX (X + kX.width * ix) = some x)
    {Q : Quat F → Mem F → Prop} :
    wp (gemvDotElK kA kX NOCONJ A LDA X j i ix h) m Q ↔
      Q (Scal.addTo h ((if NOCONJ then a else a.smartConj).mul x)) m := by
  unfold gemvDotElK
  simp only [wp_bind, wp_rank2 f1 f2, wp_loadK ha, wp_loadK hx, wp_pure]

omit [ArithEq F] in
theorem gemvColTK_bits {NOCONJ : Bool} (en : GkEnvK K kA kX A LDA M.toNat N.toNat a X INCX M.toNat x) (st : VStK K Y INCY N.toNat)
    {j : Nat} (hj : j < N.toNat) {m : Mem F} {y : Quat F} (hk : K m)
    (hy : readQ m (Y + 4 * ((j:Int) * INCY)) = some y) :
    wp (gemvColTK kA kX NOCONJ M ALPHA A LDA X INCX Y INCY j (j * INCY)) m (fun s m' => s = ((j+1 : Nat) : Int) * INCY ∧
      m' = writeQ m (Y + 4 * ((j:Int) * INCY)) (Quat.addAssign y (ALPHA.mulL
        (pDotK (fun i => if NOCONJ then a i j else (a i j).smartConj) x M.toNat)))) := by
  have fin : Fits32 ((j:Int) * INCY + INCY) := by rw [← cast_succ_mul]; exact st.fitY (j+1) hj
  unfold gemvColTK
  split
  · rename_i e; subst e
    rw [wp_bind]
    apply wp_acc (fun k (h : Quat F) => h = pDotK (fun i => if NOCONJ then a i j else (a i j).smartConj) x k)
    · rfl
    · rintro i h hi rfl
      have hx := en.rdX m hk i hi
      rw [mul_one] at hx
      rw [gemvDotElK_bits (en.fitA i j hi hj).1 (en.fitA i j hi hj).2 (en.rdA m hk i j hi hj) hx]
      exact ⟨rfl, rfl⟩
    · rintro h rfl
      simp only [wp_bind, wp_loadQ hy, wp_storeQ hy, wp_i32 fin]
      exact ⟨(cast_succ_mul j INCY).symm, trivial⟩
  · rw [wp_bind, wp_bind]
    apply wp_acc (fun k (s : Int × Quat F) => s.1 = k * INCX ∧
      s.2 = pDotK (fun i => if NOCONJ then a i j else (a i j).smartConj) x k)
    · exact ⟨by simp, rfl⟩
    · rintro i ⟨ix, h⟩ hi ⟨e, ih⟩
      dsimp only at e ih
      subst e ih
      rw [wp_bind, gemvDotElK_bits (en.fitA i j hi hj).1 (en.fitA i j hi hj).2 (en.rdA m hk i j hi hj) (en.rdX m hk i hi),
        wp_bind, wp_i32 (by rw [← cast_succ_mul]; exact en.fitX (i+1) hi), wp_pure]
      exact ⟨rfl, (cast_succ_mul i INCX).symm, rfl⟩
    · rintro ⟨ix, h⟩ ⟨_, hh⟩
      dsimp only at hh
      subst hh
      rw [wp_pure]
      simp only [wp_bind, wp_loadQ hy, wp_storeQ hy, wp_i32 fin]
      exact ⟨(cast_succ_mul j INCY).symm, trivial⟩

/-- The portable GEMV, in full. -/
theorem gemvGenK_bits (m : Mem F) (k kX : Kind) (t : Char) (M N : Int) (ALPHA : Scal F) (A LDA X INCX : Int)
    (BETA : Scal F) (Y INCY : Int) (a : Nat → Nat → Scal F) (x : Nat → Scal F) (y : Nat → Quat F)
    (hM : M ≠ 0) (hN : N ≠ 0) (h : GemvMArgs m k kX t M N ALPHA A LDA X INCX Y INCY a x y) :
    ∃ m', gemvGenK k kX t M N ALPHA A LDA X INCX BETA Y INCY m = .ok ((), m') ∧
      VecAt m' Y INCY (if t = 'N' then M else N).toNat
        (fun i => pGemvK t ALPHA BETA (if t = 'N' then N else M).toNat (opVE t a i) x (y i)) ∧
      SameOutside (VecCell Y INCY (if t = 'N' then M else N).toNat) m m' := by
  set L := (if t = 'N' then M else N) with hL
  set L' := (if t = 'N' then N else M) with hL'
  set Kp : Mem F → Prop := fun m' => ∀ c, ¬ VecCell Y INCY L.toNat c → m' c = m c with hKp
  have st : VStK Kp Y INCY L.toNat := {
    stable := by
      intro m' i q hi hm c hc
      rw [writeQ_other (fun hin => hc ⟨i, hi, hin⟩)]
      exact hm c hc
    disj := fun i j _ _ hne => strided_disj (by have := h.incY; omega) hne
    fitY := h.fitY }
  have hU : Upd Kp (fun i => Y + 4 * ((i:Int) * INCY)) L.toNat m y m :=
    ⟨h.hY, fun _ _ => rfl, fun _ _ => rfl⟩
  have key : wp (gemvGenK k kX t M N ALPHA A LDA X INCX BETA Y INCY) m (fun _ m' =>
      Upd Kp (fun i => Y + 4 * ((i:Int) * INCY)) L.toNat m
        (fun i => pGemvK t ALPHA BETA L'.toNat (opVE t a i) x (y i)) m') := by
    unfold gemvGenK
    by_cases e0 : (ALPHA.eqZero && BETA.eqOne) = true
    · have ev : (fun i => pGemvK t ALPHA BETA L'.toNat (opVE t a i) x (y i)) = fun i => y i := by
        funext i; unfold pGemvK; rw [if_pos e0]
      rw [if_pos (by simp [e0]), wp_pure, ev]
      exact hU
    · rw [if_neg (by simpa [hM, hN] using e0)]
      have i1 : decide (INCX > 0) = true := by simpa using h.incX
      have i2 : decide (INCY > 0) = true := by simpa using h.incY
      have eL : (if t ≠ 'N' then N else M) = L := by
        rw [hL]; by_cases e : t = 'N' <;> simp [e]
      rw [wp_bind, wp_assert i1, wp_bind, wp_assert i2]
      dsimp only
      rw [eL, wp_bind]
      refine wp_mono (gemvScale_bits st hU) ?_
      intro _ m1 hU1
      by_cases e1 : ALPHA.eqZero = true
      · have ev : (fun i => pGemvK t ALPHA BETA L'.toNat (opVE t a i) x (y i)) = fun i => pScale BETA (y i) := by
          funext i; unfold pGemvK; rw [if_neg e0, if_pos e1]
        rw [if_pos e1, wp_pure, ev]
        exact hU1
      · rw [if_neg e1]
        have h0 : ALPHA.eqZero = false := by simpa using e1
        have en : GkEnvK Kp k kX A LDA M.toNat N.toNat a X INCX L'.toNat x := {
          rdA := by
            intro m' hm i j hi hj
            rw [readK_congr (m' := m)]
            · exact h.hA h0 i j hi hj
            · intro c h1 h2; exact hm c (h.hAY c ⟨i, j, hi, hj, h1, h2⟩)
          rdX := by
            intro m' hm i hi
            rw [readK_congr (m' := m)]
            · exact h.hX h0 i hi
            · intro c h1 h2; exact hm c (h.hXY c ⟨i, hi, h1, h2⟩)
          fitA := h.fitA
          fitX := h.fitX }
        by_cases et : t = 'N'
        · have ev : (fun i => pGemvK t ALPHA BETA L'.toNat (opVE t a i) x (y i)) = fun i => pAxpysK ALPHA (opVE t a i) x (pScale BETA (y i)) L'.toNat := by
            funext i; unfold pGemvK; rw [if_neg e0, if_neg e1, if_pos et]
          rw [ev, if_pos et, wp_bind]
          have e1 : L = M := by rw [hL, if_pos et]
          have e2 : L' = N := by rw [hL', if_pos et]
          rw [e2] at en
          rw [e1] at st hU1
          rw [e1, e2]
          apply wp_foldN (fun j (s : Int) m' => s = j * INCX ∧
            Upd Kp (fun i => Y + 4 * ((i:Int) * INCY)) M.toNat m
              (fun i => pAxpysK ALPHA (opVE t a i) x (pScale BETA (y i)) j) m')
          · exact ⟨by simp, hU1⟩
          · rintro j s m2 hj ⟨rfl, hU2⟩
            refine wp_mono (gemvColNK_bits (ALPHA := ALPHA) en st hj hU2) ?_
            rintro s' m3 ⟨hs, hU3⟩
            refine ⟨hs, ?_⟩
            have : ∀ i, opVE t a i j = a i j := fun i => by unfold opVE; rw [if_pos et]
            simp only [pAxpysK, this]
            exact hU3
          · rintro s m2 ⟨_, h2⟩
            rw [wp_pure]
            exact h2
        · have ev : (fun i => pGemvK t ALPHA BETA L'.toNat (opVE t a i) x (y i)) = fun i => Quat.addAssign (pScale BETA (y i)) (ALPHA.mulL (pDotK (opVE t a i) x L'.toNat)) := by
            funext i; unfold pGemvK; rw [if_neg e0, if_neg e1, if_neg et]
          rw [ev, if_neg et, wp_bind]
          have e1 : L = N := by rw [hL, if_neg et]
          have e2 : L' = M := by rw [hL', if_neg et]
          rw [e2] at en
          rw [e1] at st hU1
          rw [e1, e2]
          have eo : ∀ i, opVE t a i = fun l => if (t == 'T') = true then a l i else (a l i).smartConj := by
            intro i; funext l; unfold opVE; rw [if_neg et]
            by_cases e : t = 'T' <;> simp [e]
          simp only [eo]
          refine wp_mono (wp_pass (c' := fun i => Quat.addAssign (pScale BETA (y i)) (ALPHA.mulL
                (pDotK (fun l => if (t == 'T') = true then a l i else (a l i).smartConj) x M.toNat)))
                (fun j => (j:Int) * INCY) (by simp) st.disj st.stable hU1 ?_) ?_
          · intro j m2 hj hk hy
            exact gemvColTK_bits en st hj hk hy
          · intro _ m2 h2; rw [wp_pure]; exact h2.2
  obtain ⟨_, m', h1, h2⟩ := key
  exact ⟨m', h1, h2.cur, h2.k⟩

omit [ArithEq F] in
theorem gerElK_bits {conjY : Bool} {m : Mem F} {X Y A LDA j JY i ix : Int} {x y : Scal F} {a : Quat F}
    (f1 : Fits32 (j * LDA)) (f2 : Fits32 (i + j * LDA)) (hx : readK m kX (X + kX.width * ix) = some x)
    (hy : readK m kY (Y + kY.width * JY) = some y) (ha : readQ m (A + 4 * (i + j * LDA)) = some a) :
    wp (gerElK kX kY conjY ALPHA X Y A LDA j JY i ix) m (fun _ m' =>
      m' = writeQ m (A + 4 * (i + j * LDA)) (Scal.addTo a ((ALPHA.mul x).mul (if conjY then y.smartConj else y)))) := by
  unfold gerElK
  simp only [wp_bind, wp_rank2 f1 f2, wp_loadK hx, wp_loadK hy, wp_loadQ ha, wp_storeQ ha]

theorem gerColK_bits {conjY : Bool} {y : Nat → Scal F} (en : GerKK K kX kY X INCX M.toNat x Y INCY N.toNat y A LDA)
    (hz : ALPHA.eqZero = false) {j : Nat} (hj : j < N.toNat) {m : Mem F} {c : Nat → Quat F}
    (hU : Upd K (fun i => A + 4 * ((i:Int) + j * LDA)) M.toNat m0 c m) :
    wp (gerColK kX kY conjY M ALPHA X INCX Y INCY A LDA j (j * INCY)) m (fun s m' => s = ((j+1 : Nat) : Int) * INCY ∧
      Upd K (fun i => A + 4 * ((i:Int) + j * LDA)) M.toNat m0
        (fun i => pGerK conjY ALPHA (x i) (y j) (c i)) m') := by
  have fin : Fits32 ((j:Int) * INCY + INCY) := by rw [← cast_succ_mul]; exact en.fitY (j+1) hj
  have hd : ∀ i i' : Nat, i < M.toNat → i' < M.toNat → i ≠ i' →
      QDisj (A + 4 * ((i:Int) + j * LDA)) (A + 4 * ((i':Int) + j * LDA)) :=
    fun i i' hi hi' hne => en.disj i j i' j hi hi' (fun e => hne e.1)
  have hs : ∀ m (i : Nat) q, i < M.toNat → K m → K (writeQ m (A + 4 * ((i:Int) + j * LDA)) q) :=
    fun m i q hi hk => en.stable m i j q hi hj hk
  have el : ∀ (i : Nat) m, i < M.toNat → K m → readQ m (A + 4 * ((i:Int) + j * LDA)) = some (c i) →
      wp (gerElK kX kY conjY ALPHA X Y A LDA j (j * INCY) i (i * INCX)) m (fun _ m' =>
      m' = writeQ m (A + 4 * ((i:Int) + j * LDA)) (Scal.addTo (c i) ((ALPHA.mul (x i)).mul (if conjY then (y j).smartConj else y j)))) := by
    intro i m hi hk hc
    exact gerElK_bits (en.fitA i j hi hj).1 (en.fitA i j hi hj).2 (en.rdX m hk i hi) (en.rdY m hk j hj) hc
  unfold gerColK pGerK
  simp only [hz, Bool.false_eq_true, if_false]
  rw [wp_bind, wp_loadK (en.rdY m hU.k j hj)]
  split
  · split
    · rename_i e; subst e
      rw [wp_bind]
      refine wp_mono (wp_passU hd hs hU (fun i m hi hk hc => by
        have := el i m hi hk hc
        simp only [mul_one] at this
        exact this)) ?_
      intro _ m' h
      rw [wp_i32 fin]
      exact ⟨(cast_succ_mul j INCY).symm, h⟩
    · rw [wp_bind]
      refine wp_mono (wp_pass (c' := fun i => Scal.addTo (c i) ((ALPHA.mul (x i)).mul (if conjY then (y j).smartConj else y j)))
        (fun i => (i:Int) * INCX) (by simp) hd hs hU ?_) ?_
      · intro i m hi hk hc
        rw [wp_bind]
        refine wp_mono (el i m hi hk hc) ?_
        rintro _ m' rfl
        rw [wp_i32 (by rw [← cast_succ_mul]; exact en.fitX (i+1) hi)]
        exact ⟨(cast_succ_mul i INCX).symm, rfl⟩
      · intro _ m' h
        rw [wp_i32 fin]
        exact ⟨(cast_succ_mul j INCY).symm, h.2⟩
  · rw [wp_i32 fin]
    exact ⟨(cast_succ_mul j INCY).symm, hU⟩

/-- The portable GERU and GERC, in full. -/
theorem gerGenK_bits (kX kY : Kind) (conjY : Bool) (m : Mem F) (M N : Int) (ALPHA : Scal F) (X INCX Y INCY A LDA : Int)
    (x y : Nat → Scal F) (a : Nat → Nat → Quat F) (h : GerMArgs m kX kY M N X INCX Y INCY A LDA x y a) :
    ∃ m', gerGenK kX kY conjY M N ALPHA X INCX Y INCY A LDA m = .ok ((), m') ∧
      MatAt m' A LDA M.toNat N.toNat (fun i j => pGerK conjY ALPHA (x i) (y j) (a i j)) ∧
      SameOutside (MatCell A LDA M.toNat N.toNat) m m' := by
  have key : wp (gerGenK kX kY conjY M N ALPHA X INCX Y INCY A LDA) m (fun _ m' =>
      (∀ i j : Nat, i < M.toNat → j < N.toNat → readQ m' (A + 4 * ((i:Int) + j * LDA)) =
        some (pGerK conjY ALPHA (x i) (y j) (a i j))) ∧
      ∀ c, ¬ MatCell A LDA M.toNat N.toNat c → m' c = m c) := by
    unfold gerGenK
    split
    · rename_i e
      rw [wp_pure]
      refine ⟨?_, fun _ _ => rfl⟩
      intro i j hi hj
      simp only [Bool.or_eq_true, decide_eq_true_eq] at e
      rcases e with (e | e) | e
      · omega
      · omega
      · rw [h.hA i j hi hj]; unfold pGerK; rw [if_pos e]
    · rename_i e
      have hz : ALPHA.eqZero = false := by
        simp only [Bool.or_eq_true, decide_eq_true_eq, not_or] at e
        simpa using e.2
      have i1 : decide (INCX > 0) = true := by simpa using h.incX
      have i2 : decide (INCY > 0) = true := by simpa using h.incY
      rw [wp_bind, wp_assert i1, wp_bind, wp_assert i2, wp_bind]
      have en : GerKK (fun m' => ∀ c, ¬ MatCell A LDA M.toNat N.toNat c → m' c = m c) kX kY X INCX M.toNat x Y INCY N.toNat y A LDA := {
        rdX := by
          intro m' hm i hi
          rw [readK_congr (m' := m)]
          · exact h.hX i hi
          · intro c h1 h2; exact hm c (h.hXA c ⟨i, hi, h1, h2⟩)
        rdY := by
          intro m' hm i hi
          rw [readK_congr (m' := m)]
          · exact h.hY i hi
          · intro c h1 h2; exact hm c (h.hYA c ⟨i, hi, h1, h2⟩)
        stable := by
          intro m' i j q hi hj hm c hc
          rw [writeQ_other (fun hin => hc ⟨i, j, hi, hj, hin⟩)]
          exact hm c hc
        disj := by
          intro i j i' j' hi hi' hne
          exact mat_disj (r := M.toNat) (by have := h.hld; omega) hi hi' hne
        fitA := h.fitA
        fitX := h.fitX
        fitY := h.fitY }
      refine wp_mono (wp_cols (K := fun m' => ∀ c, ¬ MatCell A LDA M.toNat N.toNat c → m' c = m c)
        (c' := fun i j => pGerK conjY ALPHA (x i) (y j) (a i j))
        (fun j => (j:Int) * INCY) (by simp) en.disj (fun _ _ => rfl) h.hA ?_) ?_
      · intro j m1 hj hU
        exact gerColK_bits en hz hj hU
      · rintro _ m1 ⟨h1, h2, _⟩
        rw [wp_pure]
        exact ⟨h1, h2⟩
  obtain ⟨_, m', h1, h2, h3⟩ := key
  exact ⟨m', h1, h2, h3⟩

end vectors

end Haxx
