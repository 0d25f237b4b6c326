import Verif.Generic3
import Verif.Generic1Proofs
import Verif.FGemmLemmas
import Verif.PropsScalar

/-! # Proofs about the portable level-2 and level-3 templates -/

set_option linter.unusedSectionVars false

namespace Haxx
open Arith Quaternion Finset

section
variable {F : Type}

/-- The element of type `k` stored at `p`. -/
def readK (m : Mem F) (k : Kind) (p : Int) : Option (Scal F) :=
  match k with
  | .d => match m p with
    | some a => some (.d a)
    | none => none
  | .z => match m p, m (p+1) with
    | some a, some b => some (.z ⟨a, b⟩)
    | _, _ => none
  | .h => match readQ m p with
    | some q => some (.h q)
    | none => none

/-- `A i j` (`i < r`, `j < c`) is the column-major matrix of elements of type `k` at `p`, leading
dimension `ld`. -/
def KMatAt (m : Mem F) (k : Kind) (p ld : Int) (r c : Nat) (A : Nat → Nat → Scal F) : Prop :=
  ∀ i j, i < r → j < c → readK m k (p + k.width * (i + j * ld)) = some (A i j)

/-- Cell `a` belongs to the `r × c` block of elements of type `k`. -/
def KMatCell (k : Kind) (p ld : Int) (r c : Nat) (a : Int) : Prop :=
  ∃ i j : Nat, i < r ∧ j < c ∧ p + k.width * (i + j * ld) ≤ a ∧ a < p + k.width * (i + j * ld) + k.width

theorem wp_loadK {k : Kind} {p : Int} {m : Mem F} {Q : Scal F → Mem F → Prop} {a : Scal F}
    (h : readK m k p = some a) : wp (loadK k p) m Q ↔ Q a m := by
  cases k with
  | d =>
    unfold readK at h
    dsimp only at h
    split at h
    · rename_i v hv
      cases h
      unfold loadK
      simp only [wp_bind, wp_rd hv, wp_pure]
    · cases h
  | z =>
    unfold readK at h
    dsimp only at h
    split at h
    · rename_i v w hv hw
      cases h
      unfold loadK
      simp only [wp_bind, wp_rd hv, wp_rd hw, wp_pure]
    · cases h
  | h =>
    unfold readK at h
    dsimp only at h
    split at h
    · rename_i v hv
      cases h
      unfold loadK
      simp only [wp_bind, wp_loadQ hv, wp_pure]
    · cases h

theorem readK_congr {m m' : Mem F} {k : Kind} {p : Int}
    (h : ∀ c, p ≤ c → c < p + k.width → m c = m' c) : readK m k p = readK m' k p := by
  cases k with
  | d => unfold readK; dsimp only; rw [h p (by omega) (by show p < p + 1; omega)]
  | z =>
    unfold readK; dsimp only
    rw [h p (by omega) (by show p < p + 2; omega), h (p+1) (by omega) (by show p + 1 < p + 2; omega)]
  | h =>
    unfold readK; dsimp only
    rw [readQ_congr (m' := m')]
    intro c hc
    exact h c hc.1 hc.2

/-- The reads of a matrix update of `C`. -/
structure GEnvK (K : Mem F → Prop) (kA : Kind) (A LDA : Int) (rA cA : Nat) (X : Nat → Nat → Scal F)
    (B LDB : Int) (rB cB : Nat) (Y : Nat → Nat → Quat F) : Prop where
  rdA : ∀ m, K m → KMatAt m kA A LDA rA cA X
  rdB : ∀ m, K m → MatAt m B LDB rB cB Y
  fitA : ∀ l : Nat, l < cA → Fits32 (l * LDA)
  fitB : ∀ l : Nat, l < cB → Fits32 (l * LDB)

/-- The stores of a matrix update. -/
structure GStK (K : Mem F → Prop) (C LDC : Int) (M N : Nat) : Prop where
  stable : ∀ m (i j : Nat) q, i < M → j < N → K m → K (writeQ m (C + 4 * (j * LDC) + 4 * i) q)
  disj : ∀ i j i' j' : Nat, i < M → i' < M → ¬ (i = i' ∧ j = j') →
    QDisj (C + 4 * (j * LDC) + 4 * i) (C + 4 * (j' * LDC) + 4 * i')
  fitC : ∀ l : Nat, l < N → Fits32 (l * LDC)

end

section
variable {R : Type} [CommRing R]

theorem toH_scalMul (a b : Scal R) : (a.mul b).toH = a.toH * b.toH := by
  cases a <;> cases b <;> ext <;>
    simp [Scal.mul, Scal.toH, Quat.realMul, Quat.mulReal, Quat.mulAssignReal, Quat.cplxMul, Quat.mulCplx, Quat.mul] <;>
    first | rfl | ring

theorem toH_zero : (Quat.mkReal (zero : R)).toH = 0 := by
  ext <;> simp [Quat.mkReal]

theorem ofH_zero : Quat.ofH (0 : ℍ[R]) = Quat.mkReal (zero : R) := rfl

variable [DecidableEq R]

theorem zeroEl_wp {m : Mem R} {CCol i : Int} {c : Quat R} {be : ℍ[R]} (hb : be = 0) (h : readQ m (CCol + 4 * i) = some c) :
    wp (zeroEl CCol i) m (fun _ m' => m' = writeQ m (CCol + 4 * i) (Quat.ofH (be * c.toH))) := by
  unfold zeroEl
  rw [wp_storeQ h, hb, zero_mul]; rfl

theorem betaEl_wp {m : Mem R} {BETA : Scal R} {CCol i : Int} {c : Quat R} (h : readQ m (CCol + 4 * i) = some c) :
    wp (betaEl BETA CCol i) m (fun _ m' => m' = writeQ m (CCol + 4 * i) (Quat.ofH (BETA.toH * c.toH))) := by
  unfold betaEl
  simp only [wp_bind, wp_loadQ h, wp_storeQ h]
  exact congrArg (writeQ m _) (eq_ofH (toH_smulL _ _))

variable {K : Mem R → Prop} {kA : Kind} {ALPHA BETA : Scal R}

theorem gemmBetaCol_wp {M CCol : Int} {m0 m : Mem R} {c : Nat → Quat R}
    (h0 : BETA.eqZero = true → BETA.toH = 0) (h1 : BETA.eqOne = true → BETA.toH = 1)
    (hdisj : ∀ i j : Nat, i < M.toNat → j < M.toNat → i ≠ j → QDisj (CCol + 4 * (i:Int)) (CCol + 4 * (j:Int)))
    (hK : ∀ m (i : Nat) q, i < M.toNat → K m → K (writeQ m (CCol + 4 * (i:Int)) q))
    (hU : Upd K (fun i => CCol + 4 * (i:Int)) M.toNat m0 c m) :
    wp (gemmBetaCol BETA M CCol) m (fun _ m' =>
      Upd K (fun i => CCol + 4 * (i:Int)) M.toNat m0 (fun i => Quat.ofH (BETA.toH * (c i).toH)) m') := by
  unfold gemmBetaCol
  split
  · rename_i e
    exact wp_passU hdisj hK hU (fun i m _ _ h => zeroEl_wp (h0 e) h)
  · split
    · exact wp_passU hdisj hK hU (fun i m _ _ h => betaEl_wp h)
    · rename_i e
      rw [wp_pure, h1 (by simpa using e)]
      simpa using hU

theorem gemmColA0_wp {M N C LDC : Int} {m0 : Mem R} {c : Nat → Nat → Quat R}
    (h0 : BETA.eqZero = true → BETA.toH = 0) (st : GStK K C LDC M.toNat N.toNat) (hk : K m0)
    (hC : ∀ i j : Nat, i < M.toNat → j < N.toNat → readQ m0 (C + 4 * (j * LDC) + 4 * i) = some (c i j)) :
    wp (forN N.toNat (fun j => gemmColA0 M BETA C LDC j)) m0 (fun _ m' =>
      (∀ i j : Nat, i < M.toNat → j < N.toNat → readQ m' (C + 4 * (j * LDC) + 4 * i) = some (Quat.ofH (BETA.toH * (c i j).toH))) ∧
      K m' ∧ ∀ a, (∀ i j : Nat, i < M.toNat → j < N.toNat → ¬ InQ (C + 4 * (j * LDC) + 4 * i) a) → m' a = m0 a) := by
  apply wp_colsU (addr := fun i j => C + 4 * ((j:Int) * LDC) + 4 * (i:Int)) st.disj hk hC
  intro j m hj hU
  unfold gemmColA0
  have hd : ∀ i i' : Nat, i < M.toNat → i' < M.toNat → i ≠ i' → QDisj (C + 4 * ((j:Int) * LDC) + 4 * (i:Int)) (C + 4 * ((j:Int) * LDC) + 4 * (i':Int)) :=
    fun i i' hi hi' hne => st.disj i j i' j hi hi' (fun e => hne e.1)
  have hs : ∀ m (i : Nat) q, i < M.toNat → K m → K (writeQ m (C + 4 * ((j:Int) * LDC) + 4 * (i:Int)) q) :=
    fun m i q hi h => st.stable m i j q hi hj h
  rw [wp_bind, wp_i32 (st.fitC j hj)]
  split
  · rename_i e
    exact wp_passU hd hs hU (fun i m _ _ h => zeroEl_wp (h0 e) h)
  · exact wp_passU hd hs hU (fun i m _ _ h => betaEl_wp h)

theorem gemmAxpyEl_wp {conjB : Bool} {m : Mem R} {ACol bp CCol i : Int} {a : Scal R} {b c : Quat R}
    (ha : readK m kA (ACol + kA.width * i) = some a) (hb : readQ m bp = some b)
    (hc : readQ m (CCol + 4 * i) = some c) :
    wp (gemmAxpyEl kA conjB ALPHA ACol bp CCol i) m (fun _ m' =>
      m' = writeQ m (CCol + 4 * i) (Quat.ofH (c.toH + ALPHA.toH * (a.toH * (if conjB then star b.toH else b.toH))))) := by
  unfold gemmAxpyEl
  simp only [wp_bind, wp_loadK ha, wp_loadQ hb, wp_loadQ hc, wp_storeQ hc]
  refine congrArg (writeQ m _) (eq_ofH ?_)
  rw [toH_addAssign, toH_smulL, toH_scalMul, mul_assoc]
  cases conjB
  · rfl
  · simp only [if_true, toH_conj]

/-- op(A) = A. -/
theorem gemmColsN_wp {conjB : Bool} {col : Nat → Prog R Unit} {lpass : Nat → Nat → Prog R Unit}
    {M N Kk : Int} {C LDC : Int} {m0 : Mem R} {c : Nat → Nat → Quat R} {x : Nat → Nat → Scal R} {y : Nat → Nat → Quat R}
    (h0 : BETA.eqZero = true → BETA.toH = 0) (h1 : BETA.eqOne = true → BETA.toH = 1)
    (st : GStK K C LDC M.toNat N.toNat) (hk : K m0)
    (hcol : ∀ j m Q, j < N.toNat → (wp (do gemmBetaCol BETA M (C + 4 * ((j:Int) * LDC)); forN Kk.toNat (lpass j)) m Q → wp (col j) m Q))
    (ACol : Nat → Int) (bp : Nat → Nat → Int)
    (hl : ∀ j l m Q, j < N.toNat → l < Kk.toNat →
      (wp (forN M.toNat (fun i => gemmAxpyEl kA conjB ALPHA (ACol l) (bp l j) (C + 4 * ((j:Int) * LDC)) i)) m Q → wp (lpass j l) m Q))
    (hA : ∀ m i l, K m → i < M.toNat → l < Kk.toNat → readK m kA (ACol l + kA.width * i) = some (x i l))
    (hB : ∀ m l j, K m → l < Kk.toNat → j < N.toNat → readQ m (bp l j) = some (y l j))
    (hC : ∀ i j : Nat, i < M.toNat → j < N.toNat → readQ m0 (C + 4 * (j * LDC) + 4 * i) = some (c i j)) :
    wp (forN N.toNat col) m0 (fun _ m' =>
      (∀ i j : Nat, i < M.toNat → j < N.toNat → readQ m' (C + 4 * (j * LDC) + 4 * i) =
        some (Quat.ofH (gemmSpec ALPHA.toH BETA.toH Kk.toNat (fun l => (x i l).toH)
          (fun l => if conjB then star (y l j).toH else (y l j).toH) (c i j).toH))) ∧
      K m' ∧ ∀ a, (∀ i j : Nat, i < M.toNat → j < N.toNat → ¬ InQ (C + 4 * (j * LDC) + 4 * i) a) → m' a = m0 a) := by
  apply wp_colsU (addr := fun i j => C + 4 * ((j:Int) * LDC) + 4 * (i:Int)) st.disj hk hC
  intro j m hj hU
  have hd : ∀ i i' : Nat, i < M.toNat → i' < M.toNat → i ≠ i' → QDisj (C + 4 * ((j:Int) * LDC) + 4 * (i:Int)) (C + 4 * ((j:Int) * LDC) + 4 * (i':Int)) :=
    fun i i' hi hi' hne => st.disj i j i' j hi hi' (fun e => hne e.1)
  have hs : ∀ m (i : Nat) q, i < M.toNat → K m → K (writeQ m (C + 4 * ((j:Int) * LDC) + 4 * (i:Int)) q) :=
    fun m i q hi h => st.stable m i j q hi hj h
  apply hcol j m _ hj
  rw [wp_bind]
  refine wp_mono (gemmBetaCol_wp h0 h1 hd hs hU) ?_
  intro _ m1 hU1
  refine wp_mono (wp_accPass (fun l i => ALPHA.toH * ((x i l).toH * (if conjB then star (y l j).toH else (y l j).toH))) hU1 ?_) ?_
  · intro l m2 c2 hl2 hU2
    apply hl j l m2 _ hj hl2
    exact wp_passU hd hs hU2 (fun i m3 hi hk3 hc3 => gemmAxpyEl_wp (hA m3 i l hk3 hi hl2) (hB m3 l j hk3 hl2 hj) hc3)
  · intro _ m2 hU2
    have e : ∀ i, Quat.ofH ((Quat.ofH (BETA.toH * (c i j).toH)).toH +
        ∑ l ∈ range Kk.toNat, ALPHA.toH * ((x i l).toH * (if conjB then star (y l j).toH else (y l j).toH))) =
        Quat.ofH (gemmSpec ALPHA.toH BETA.toH Kk.toNat (fun l => (x i l).toH)
          (fun l => if conjB then star (y l j).toH else (y l j).toH) (c i j).toH) := by
      intro i
      rw [toH_ofH, ← mul_sum, add_comm]; rfl
    simp only [e] at hU2
    exact hU2

theorem gemmDotEl_wp {conjA conjB : Bool} {m : Mem R} {ACol bp l : Int} {a : Scal R} {b h : Quat R}
    (ha : readK m kA (ACol + kA.width * l) = some a) (hb : readQ m bp = some b) {Q : Quat R → Mem R → Prop} :
    wp (gemmDotEl kA conjA conjB ACol bp l h) m Q ↔
      Q (Quat.ofH (h.toH + (if conjA then star a.toH else a.toH) * (if conjB then star b.toH else b.toH))) m := by
  unfold gemmDotEl
  simp only [wp_bind, wp_loadK ha, wp_loadQ hb, wp_pure]
  have e : Quat.addAssign h ((if conjA = true then a.smartConj else a).mulL (if conjB = true then b.conj else b)) =
      Quat.ofH (h.toH + (if conjA then star a.toH else a.toH) * (if conjB then star b.toH else b.toH)) := by
    refine eq_ofH ?_
    rw [toH_addAssign, toH_smulL]
    cases conjA <;> cases conjB <;> simp [C04_smartConj, toH_conj]
  rw [e]

theorem gemmStoreEl_wp {m : Mem R} {CCol i : Int} {h c : Quat R} (h0 : BETA.eqZero = true → BETA.toH = 0)
    (hc : readQ m (CCol + 4 * i) = some c) :
    wp (gemmStoreEl ALPHA BETA CCol i h) m (fun _ m' =>
      m' = writeQ m (CCol + 4 * i) (Quat.ofH (ALPHA.toH * h.toH + BETA.toH * c.toH))) := by
  unfold gemmStoreEl
  split
  · rename_i e
    rw [wp_storeQ hc, h0 e, zero_mul, add_zero]
    exact congrArg (writeQ m _) (eq_ofH (toH_smulL _ _))
  · simp only [wp_bind, wp_loadQ hc, wp_storeQ hc]
    refine congrArg (writeQ m _) (eq_ofH ?_)
    rw [toH_add, toH_smulL, toH_smulL]

/-- op(A) ≠ A. -/
theorem gemmColsT_wp {conjA conjB : Bool} {col : Nat → Prog R Unit} {el : Nat → Nat → Prog R Unit}
    {dot : Nat → Nat → Nat → Quat R → Prog R (Quat R)}
    {M N Kk : Int} {C LDC : Int} {m0 : Mem R} {c : Nat → Nat → Quat R} {x : Nat → Nat → Scal R} {y : Nat → Nat → Quat R}
    (h0 : BETA.eqZero = true → BETA.toH = 0)
    (st : GStK K C LDC M.toNat N.toNat) (hk : K m0)
    (hcol : ∀ j m Q, j < N.toNat → (wp (forN M.toNat (el j)) m Q → wp (col j) m Q))
    (hel : ∀ j i m Q, j < N.toNat → i < M.toNat →
      (wp (do let h ← foldN Kk.toNat (dot j i) (Quat.mkReal zero); gemmStoreEl ALPHA BETA (C + 4 * ((j:Int) * LDC)) i h) m Q → wp (el j i) m Q))
    (ACol : Nat → Int) (bp : Nat → Nat → Int)
    (hdot : ∀ j i l h m Q, j < N.toNat → i < M.toNat → l < Kk.toNat →
      (wp (gemmDotEl kA conjA conjB (ACol i) (bp l j) l h) m Q → wp (dot j i l h) m Q))
    (hA : ∀ m i l, K m → i < M.toNat → l < Kk.toNat → readK m kA (ACol i + kA.width * l) = some (x i l))
    (hB : ∀ m l j, K m → l < Kk.toNat → j < N.toNat → readQ m (bp l j) = some (y l j))
    (hC : ∀ i j : Nat, i < M.toNat → j < N.toNat → readQ m0 (C + 4 * (j * LDC) + 4 * i) = some (c i j)) :
    wp (forN N.toNat col) m0 (fun _ m' =>
      (∀ i j : Nat, i < M.toNat → j < N.toNat → readQ m' (C + 4 * (j * LDC) + 4 * i) =
        some (Quat.ofH (gemmSpec ALPHA.toH BETA.toH Kk.toNat (fun l => if conjA then star (x i l).toH else (x i l).toH)
          (fun l => if conjB then star (y l j).toH else (y l j).toH) (c i j).toH))) ∧
      K m' ∧ ∀ a, (∀ i j : Nat, i < M.toNat → j < N.toNat → ¬ InQ (C + 4 * (j * LDC) + 4 * i) a) → m' a = m0 a) := by
  apply wp_colsU (addr := fun i j => C + 4 * ((j:Int) * LDC) + 4 * (i:Int)) st.disj hk hC
  intro j m hj hU
  have hd : ∀ i i' : Nat, i < M.toNat → i' < M.toNat → i ≠ i' → QDisj (C + 4 * ((j:Int) * LDC) + 4 * (i:Int)) (C + 4 * ((j:Int) * LDC) + 4 * (i':Int)) :=
    fun i i' hi hi' hne => st.disj i j i' j hi hi' (fun e => hne e.1)
  have hs : ∀ m (i : Nat) q, i < M.toNat → K m → K (writeQ m (C + 4 * ((j:Int) * LDC) + 4 * (i:Int)) q) :=
    fun m i q hi h => st.stable m i j q hi hj h
  apply hcol j m _ hj
  refine wp_passU hd hs hU ?_
  intro i m1 hi hk1 hc1
  apply hel j i m1 _ hj hi
  rw [wp_bind]
  apply wp_acc (fun k (h : Quat R) => h.toH = ∑ l ∈ range k, (if conjA then star (x i l).toH else (x i l).toH) *
    (if conjB then star (y l j).toH else (y l j).toH))
  · simpa using toH_zero
  · intro l h hl ih
    apply hdot j i l h m1 _ hj hi hl
    rw [gemmDotEl_wp (hA m1 i l hk1 hi hl) (hB m1 l j hk1 hl hj)]
    refine ⟨rfl, ?_⟩
    rw [toH_ofH, ih, sum_range_succ]
  · intro h hh
    refine wp_mono (gemmStoreEl_wp h0 hc1) ?_
    rintro _ m' rfl
    rw [hh]; rfl

end
end Haxx
