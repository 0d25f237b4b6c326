import Verif.Generic3Proofs
import Verif.FGemvLemmas

/-! # Proofs about the portable level-2 templates -/

set_option linter.unusedSectionVars false

namespace Haxx
open Arith Quaternion Finset

section
variable {F : Type}

theorem wp_rank2 {i j LD : Int} {m : Mem F} {Q : Int → Mem F → Prop} (h1 : Fits32 (j * LD))
    (h2 : Fits32 (i + j * LD)) : wp (rank2 i j LD) m Q ↔ Q (i + j * LD) m := by
  unfold rank2; rw [wp_bind, wp_i32 h1, wp_i32 h2]

/-- What a matrix–vector product reads and writes. -/
structure GkEnv (K : Mem F → Prop) (kA : Kind) (A LDA : Int) (M N : Nat) (a : Nat → Nat → Scal F)
    (X INCX : Int) (lx : Nat) (x : Nat → Quat F) : Prop where
  rdA : ∀ m, K m → KMatAt m kA A LDA M N a
  rdX : ∀ m, K m → ∀ i : Nat, i < lx → readQ m (X + 4 * ((i:Int) * INCX)) = some (x i)
  fitA : ∀ i j : Nat, i < M → j < N → Fits32 (j * LDA) ∧ Fits32 (i + j * LDA)
  fitX : ∀ i : Nat, i ≤ lx → Fits32 (i * INCX)

/-- The stores of a vector update. -/
structure VStK (K : Mem F → Prop) (Y INCY : Int) (ly : Nat) : Prop where
  stable : ∀ m (i : Nat) q, i < ly → K m → K (writeQ m (Y + 4 * ((i:Int) * INCY)) q)
  disj : ∀ i j : Nat, i < ly → j < ly → i ≠ j → QDisj (Y + 4 * ((i:Int) * INCY)) (Y + 4 * ((j:Int) * INCY))
  fitY : ∀ i : Nat, i ≤ ly → Fits32 (i * INCY)

theorem cast_succ_mul (i : Nat) (INC : Int) : ((i + 1 : Nat) : Int) * INC = i * INC + INC := by
  push_cast; ring

end

section
variable {R : Type} [CommRing R]

theorem toH_scalComm (a b : Scal R) : ((a.mul b).sub (b.mul a)).toH = a.toH * b.toH - b.toH * a.toH := by
  have hd : ∀ a b : R, (Scal.sub (.d a) (.d b)).toH = (Scal.d a).toH - (Scal.d b).toH := by
    intro a b; ext <;> simp [Scal.sub, Scal.toH]
  have hz : ∀ a b : Cplx R, (Scal.sub (.z a) (.z b)).toH = (Scal.z a).toH - (Scal.z b).toH := by
    intro a b; ext <;> simp [Scal.sub, Scal.toH]
  have hh : ∀ a b : Quat R, (Scal.sub (.h a) (.h b)).toH = (Scal.h a).toH - (Scal.h b).toH := by
    intro a b; exact toH_sub a b
  rw [← toH_scalMul, ← toH_scalMul]
  cases a <;> cases b <;> first | exact hd _ _ | exact hz _ _ | exact hh _ _

variable [DecidableEq R] {K : Mem R → Prop} {kA : Kind} {ALPHA BETA : Scal R}

theorem gemvScale_wp {L Y INCY : Int} {m0 m : Mem R} {c : Nat → Quat R}
    (h0 : BETA.eqZero = true → BETA.toH = 0) (h1 : BETA.eqOne = true → BETA.toH = 1)
    (st : VStK K Y INCY L.toNat)
    (hU : Upd K (fun i => Y + 4 * ((i:Int) * INCY)) L.toNat m0 c m) :
    wp (gemvScale L BETA Y INCY) m (fun _ m' =>
      Upd K (fun i => Y + 4 * ((i:Int) * INCY)) L.toNat m0 (fun i => Quat.ofH (BETA.toH * (c i).toH)) m') := by
  unfold gemvScale
  split
  · split
    · rename_i e1
      subst e1
      split
      · rename_i e
        refine wp_passU st.disj st.stable hU (fun i m _ _ h => ?_)
        have := zeroEl_wp (CCol := Y) (i := (i:Int) * 1) (h0 e) h
        simpa using this
      · refine wp_passU st.disj st.stable hU (fun i m _ _ h => ?_)
        have := betaEl_wp (BETA := BETA) (CCol := Y) (i := (i:Int) * 1) h
        simpa using this
    · split
      · rename_i e
        rw [wp_bind]
        refine wp_mono (wp_pass (c' := fun i => Quat.ofH (BETA.toH * (c i).toH)) (fun i => (i:Int) * INCY) (by simp) st.disj st.stable hU ?_) ?_
        · intro i m hi _ h
          rw [wp_bind]
          refine wp_mono (zeroEl_wp (h0 e) h) ?_
          rintro _ m' rfl
          rw [wp_i32 (by rw [← cast_succ_mul]; exact st.fitY (i+1) hi)]
          exact ⟨(cast_succ_mul i INCY).symm, rfl⟩
        · intro _ m' h; rw [wp_pure]; exact h.2
      · rw [wp_bind]
        refine wp_mono (wp_pass (c' := fun i => Quat.ofH (BETA.toH * (c i).toH)) (fun i => (i:Int) * INCY) (by simp) st.disj st.stable hU ?_) ?_
        · intro i m hi _ h
          rw [wp_bind]
          refine wp_mono (betaEl_wp h) ?_
          rintro _ m' rfl
          rw [wp_i32 (by rw [← cast_succ_mul]; exact st.fitY (i+1) hi)]
          exact ⟨(cast_succ_mul i INCY).symm, rfl⟩
        · intro _ m' h; rw [wp_pure]; exact h.2
  · rename_i e
    rw [wp_pure, h1 (by simpa using e)]
    simpa using hU

theorem gemvAxpyEl_wp {m : Mem R} {A LDA X Y j jx i iy : Int} {a : Scal R} {x y : Quat R}
    (f1 : Fits32 (j * LDA)) (f2 : Fits32 (i + j * LDA))
    (ha : ∀ q, readK (writeQ m (Y + 4 * iy) q) kA (A + kA.width * (i + j * LDA)) = some a)
    (ha0 : readK m kA (A + kA.width * (i + j * LDA)) = some a)
    (hx : ∀ q, readQ (writeQ m (Y + 4 * iy) q) (X + 4 * jx) = some x)
    (hy : readQ m (Y + 4 * iy) = some y) :
    wp (gemvAxpyEl kA ALPHA A LDA X Y j jx (ALPHA.mulL x) i iy) m (fun _ m' =>
      m' = writeQ m (Y + 4 * iy) (Quat.ofH (y.toH + ALPHA.toH * (a.toH * x.toH)))) := by
  unfold gemvAxpyEl
  simp only [wp_bind, wp_rank2 f1 f2, wp_loadK ha0, wp_loadK (ha _), wp_loadQ hy, wp_storeQ hy, wp_loadQ (hx _),
    wp_loadQ (readQ_writeQ_same _ _ _), wp_storeQ (readQ_writeQ_same _ _ _), writeQ_writeQ]
  refine congrArg (writeQ m _) (eq_ofH ?_)
  rw [toH_addAssign, toH_addAssign, toH_smulL, toH_smulL, toH_smulL, toH_scalComm]
  rw [sub_mul, mul_assoc, mul_assoc]; abel

variable {A LDA X INCX Y INCY M N : Int} {a : Nat → Nat → Scal R} {x : Nat → Quat R} {m0 : Mem R}

theorem gemvColN_wp (en : GkEnv K kA A LDA M.toNat N.toNat a X INCX N.toNat x) (st : VStK K Y INCY M.toNat)
    {j : Nat} (hj : j < N.toNat) {m : Mem R} {c : Nat → Quat R}
    (hU : Upd K (fun i => Y + 4 * ((i:Int) * INCY)) M.toNat m0 c m) :
    wp (gemvColN kA M ALPHA A LDA X INCX Y INCY j (j * INCX)) m (fun s m' => s = ((j+1 : Nat) : Int) * INCX ∧
      Upd K (fun i => Y + 4 * ((i:Int) * INCY)) M.toNat m0
        (fun i => Quat.ofH ((c i).toH + ALPHA.toH * ((a i j).toH * (x j).toH))) m') := by
  have el : ∀ (i : Nat) m, i < M.toNat → K m → readQ m (Y + 4 * ((i:Int) * INCY)) = some (c i) →
      wp (gemvAxpyEl kA ALPHA A LDA X Y j (j * INCX) (ALPHA.mulL (x j)) i (i * INCY)) m (fun _ m' =>
      m' = writeQ m (Y + 4 * ((i:Int) * INCY)) (Quat.ofH ((c i).toH + ALPHA.toH * ((a i j).toH * (x j).toH)))) := by
    intro i m hi hk hc
    exact gemvAxpyEl_wp (en.fitA i j hi hj).1 (en.fitA i j hi hj).2
      (fun q => en.rdA _ (st.stable m i q hi hk) i j hi hj) (en.rdA _ hk i j hi hj)
      (fun q => en.rdX _ (st.stable m i q hi hk) j hj) hc
  have fin : Fits32 ((j:Int) * INCX + INCX) := by rw [← cast_succ_mul]; exact en.fitX (j+1) hj
  unfold gemvColN
  rw [wp_bind, wp_loadQ (en.rdX m hU.k j hj)]
  dsimp only
  split
  · rename_i e; subst e
    rw [wp_bind]
    refine wp_mono (wp_passU st.disj st.stable hU (fun i m hi hk hc => by simpa using el i m hi hk hc)) ?_
    intro _ m' h
    rw [wp_i32 fin]
    exact ⟨(cast_succ_mul j INCX).symm, h⟩
  · rw [wp_bind]
    refine wp_mono (wp_pass (c' := fun i => Quat.ofH ((c i).toH + ALPHA.toH * ((a i j).toH * (x j).toH)))
      (fun i => (i:Int) * INCY) (by simp) st.disj st.stable hU ?_) ?_
    · intro i m hi hk hc
      rw [wp_bind]
      refine wp_mono (el i m hi hk hc) ?_
      rintro _ m' rfl
      rw [wp_i32 (by rw [← cast_succ_mul]; exact st.fitY (i+1) hi)]
      exact ⟨(cast_succ_mul i INCY).symm, rfl⟩
    · intro _ m' h
      rw [wp_i32 fin]
      exact ⟨(cast_succ_mul j INCX).symm, h.2⟩

theorem gemvDotEl_wp {NOCONJ : Bool} {m : Mem R} {A LDA X j i ix : Int} {a : Scal R} {x h : Quat R}
    (f1 : Fits32 (j * LDA)) (f2 : Fits32 (i + j * LDA))
    (ha : readK m kA (A + kA.width * (i + j * LDA)) = some a) (hx : readQ m (X + 4 * ix) = some x)
    {Q : Quat R → Mem R → Prop} :
    wp (gemvDotEl kA NOCONJ A LDA X j i ix h) m Q ↔
      Q (Quat.ofH (h.toH + (if NOCONJ then a.toH else star a.toH) * x.toH)) m := by
  unfold gemvDotEl
  simp only [wp_bind, wp_rank2 f1 f2, wp_loadK ha, wp_loadQ hx, wp_pure]
  have e : Quat.addAssign h ((if NOCONJ = true then a else a.smartConj).mulL x) =
      Quat.ofH (h.toH + (if NOCONJ then a.toH else star a.toH) * x.toH) := by
    refine eq_ofH ?_
    rw [toH_addAssign, toH_smulL]
    cases NOCONJ <;> simp [C04_smartConj]
  rw [e]

theorem gemvColT_wp {NOCONJ : Bool} (en : GkEnv K kA A LDA M.toNat N.toNat a X INCX M.toNat x) (st : VStK K Y INCY N.toNat)
    {j : Nat} (hj : j < N.toNat) {m : Mem R} {y : Quat R} (hk : K m)
    (hy : readQ m (Y + 4 * ((j:Int) * INCY)) = some y) :
    wp (gemvColT kA NOCONJ M ALPHA A LDA X INCX Y INCY j (j * INCY)) m (fun s m' => s = ((j+1 : Nat) : Int) * INCY ∧
      m' = writeQ m (Y + 4 * ((j:Int) * INCY)) (Quat.ofH (y.toH + ALPHA.toH *
        ∑ i ∈ range M.toNat, (if NOCONJ then (a i j).toH else star (a i j).toH) * (x i).toH))) := by
  have fin : Fits32 ((j:Int) * INCY + INCY) := by rw [← cast_succ_mul]; exact st.fitY (j+1) hj
  unfold gemvColT
  split
  · rename_i e; subst e
    rw [wp_bind]
    apply wp_acc (fun k (h : Quat R) => h.toH = ∑ i ∈ range k, (if NOCONJ then (a i j).toH else star (a i j).toH) * (x i).toH)
    · simpa using toH_zero
    · intro i h hi ih
      have hx := en.rdX m hk i hi
      rw [mul_one] at hx
      rw [gemvDotEl_wp (en.fitA i j hi hj).1 (en.fitA i j hi hj).2 (en.rdA m hk i j hi hj) hx]
      refine ⟨rfl, ?_⟩
      rw [toH_ofH, ih, sum_range_succ]
    · intro h hh
      simp only [wp_bind, wp_loadQ hy, wp_storeQ hy, wp_i32 fin]
      refine ⟨(cast_succ_mul j INCY).symm, congrArg (writeQ m _) (eq_ofH ?_)⟩
      rw [toH_addAssign, toH_smulL, hh]
  · rw [wp_bind, wp_bind]
    apply wp_acc (fun k (s : Int × Quat R) => s.1 = k * INCX ∧
      s.2.toH = ∑ i ∈ range k, (if NOCONJ then (a i j).toH else star (a i j).toH) * (x i).toH)
    · exact ⟨by simp, by simpa using toH_zero⟩
    · rintro i ⟨ix, h⟩ hi ⟨e, ih⟩
      dsimp only at e ih
      subst e
      rw [wp_bind, gemvDotEl_wp (en.fitA i j hi hj).1 (en.fitA i j hi hj).2 (en.rdA m hk i j hi hj) (en.rdX m hk i hi),
        wp_bind, wp_i32 (by rw [← cast_succ_mul]; exact en.fitX (i+1) hi), wp_pure]
      refine ⟨rfl, (cast_succ_mul i INCX).symm, ?_⟩
      dsimp only
      rw [toH_ofH, ih, sum_range_succ]
    · rintro ⟨ix, h⟩ ⟨_, hh⟩
      dsimp only at hh
      rw [wp_pure]
      simp only [wp_bind, wp_loadQ hy, wp_storeQ hy, wp_i32 fin]
      refine ⟨(cast_succ_mul j INCY).symm, congrArg (writeQ m _) (eq_ofH ?_)⟩
      rw [toH_addAssign, toH_smulL, hh]

theorem gerEl_wp {conjY : Bool} {m : Mem R} {X Y A LDA j JY i ix : Int} {x y a : Quat R}
    (f1 : Fits32 (j * LDA)) (f2 : Fits32 (i + j * LDA)) (hx : readQ m (X + 4 * ix) = some x)
    (hy : readQ m (Y + 4 * JY) = some y) (ha : readQ m (A + 4 * (i + j * LDA)) = some a) :
    wp (gerEl conjY ALPHA X Y A LDA j JY i ix) m (fun _ m' =>
      m' = writeQ m (A + 4 * (i + j * LDA)) (Quat.ofH (a.toH + ALPHA.toH * x.toH * (if conjY then star y.toH else y.toH)))) := by
  unfold gerEl
  simp only [wp_bind, wp_rank2 f1 f2, wp_loadQ hx, wp_loadQ hy, wp_loadQ ha, wp_storeQ ha]
  refine congrArg (writeQ m _) (eq_ofH ?_)
  rw [toH_addAssign, toH_mul, toH_smulL]
  cases conjY
  · rfl
  · simp only [if_true, toH_conj]

/-- What a rank-one update reads and writes. -/
structure GerK {F : Type} (K : Mem F → Prop) (X INCX : Int) (M : Nat) (x : Nat → Quat F) (Y INCY : Int) (N : Nat)
    (y : Nat → Quat F) (A LDA : Int) : Prop where
  rdX : ∀ m, K m → ∀ i : Nat, i < M → readQ m (X + 4 * ((i:Int) * INCX)) = some (x i)
  rdY : ∀ m, K m → ∀ j : Nat, j < N → readQ m (Y + 4 * ((j:Int) * INCY)) = some (y j)
  stable : ∀ m (i j : Nat) q, i < M → j < N → K m → K (writeQ m (A + 4 * (i + j * LDA)) q)
  disj : ∀ i j i' j' : Nat, i < M → i' < M → ¬ (i = i' ∧ j = j') →
    QDisj (A + 4 * (i + j * LDA)) (A + 4 * (i' + j' * LDA))
  fitA : ∀ i j : Nat, i < M → j < N → Fits32 (j * LDA) ∧ Fits32 (i + j * LDA)
  fitX : ∀ i : Nat, i ≤ M → Fits32 (i * INCX)
  fitY : ∀ j : Nat, j ≤ N → Fits32 (j * INCY)

theorem gerCol_wp {conjY : Bool} {y : Nat → Quat R} (en : GerK K X INCX M.toNat x Y INCY N.toNat y A LDA)
    {j : Nat} (hj : j < N.toNat) {m : Mem R} {c : Nat → Quat R}
    (h0 : Quat.neOp (y j) (Quat.mkReal zero) = false → (y j).toH = 0)
    (hU : Upd K (fun i => A + 4 * ((i:Int) + j * LDA)) M.toNat m0 c m) :
    wp (gerCol conjY M ALPHA X INCX Y INCY A LDA j (j * INCY)) m (fun s m' => s = ((j+1 : Nat) : Int) * INCY ∧
      Upd K (fun i => A + 4 * ((i:Int) + j * LDA)) M.toNat m0
        (fun i => Quat.ofH ((c i).toH + ALPHA.toH * (x i).toH * (if conjY then star (y j).toH else (y j).toH))) m') := by
  have fin : Fits32 ((j:Int) * INCY + INCY) := by rw [← cast_succ_mul]; exact en.fitY (j+1) hj
  have hd : ∀ i i' : Nat, i < M.toNat → i' < M.toNat → i ≠ i' →
      QDisj (A + 4 * ((i:Int) + j * LDA)) (A + 4 * ((i':Int) + j * LDA)) :=
    fun i i' hi hi' hne => en.disj i j i' j hi hi' (fun e => hne e.1)
  have hs : ∀ m (i : Nat) q, i < M.toNat → K m → K (writeQ m (A + 4 * ((i:Int) + j * LDA)) q) :=
    fun m i q hi hk => en.stable m i j q hi hj hk
  have el : ∀ (i : Nat) m, i < M.toNat → K m → readQ m (A + 4 * ((i:Int) + j * LDA)) = some (c i) →
      wp (gerEl conjY ALPHA X Y A LDA j (j * INCY) i (i * INCX)) m (fun _ m' =>
      m' = writeQ m (A + 4 * ((i:Int) + j * LDA)) (Quat.ofH ((c i).toH + ALPHA.toH * (x i).toH * (if conjY then star (y j).toH else (y j).toH)))) := by
    intro i m hi hk hc
    exact gerEl_wp (en.fitA i j hi hj).1 (en.fitA i j hi hj).2 (en.rdX m hk i hi) (en.rdY m hk j hj) hc
  unfold gerCol
  rw [wp_bind, wp_loadQ (en.rdY m hU.k j hj)]
  dsimp only
  split
  · split
    · rename_i e; subst e
      rw [wp_bind]
      refine wp_mono (wp_passU hd hs hU (fun i m hi hk hc => by
        have := el i m hi hk hc
        simp only [mul_one] at this
        exact this)) ?_
      intro _ m' h
      rw [wp_i32 fin]
      exact ⟨(cast_succ_mul j INCY).symm, h⟩
    · rw [wp_bind]
      refine wp_mono (wp_pass (c' := fun i => Quat.ofH ((c i).toH + ALPHA.toH * (x i).toH * (if conjY then star (y j).toH else (y j).toH)))
        (fun i => (i:Int) * INCX) (by simp) hd hs hU ?_) ?_
      · intro i m hi hk hc
        rw [wp_bind]
        refine wp_mono (el i m hi hk hc) ?_
        rintro _ m' rfl
        rw [wp_i32 (by rw [← cast_succ_mul]; exact en.fitX (i+1) hi)]
        exact ⟨(cast_succ_mul i INCX).symm, rfl⟩
      · intro _ m' h
        rw [wp_i32 fin]
        exact ⟨(cast_succ_mul j INCY).symm, h.2⟩
  · rename_i e
    rw [wp_i32 fin]
    refine ⟨(cast_succ_mul j INCY).symm, ?_⟩
    have : ∀ i, Quat.ofH ((c i).toH + ALPHA.toH * (x i).toH * (if conjY then star (y j).toH else (y j).toH)) = c i := by
      intro i
      rw [h0 (by simpa using e)]
      simp
    simp only [this]
    exact hU

end
end Haxx
