import Verif.ThrSafePort
import Verif.ThrMix
import Verif.MixBits

/-! # What the templates with real, complex or quaternion operands access -/

namespace Haxx.Thr
open Arith
set_option linter.unusedSectionVars false
section
variable {F : Type} [Arith F] {S W : Int → Prop}

theorem vec_k4 {P : Int → Prop} {k : Kind} {X INC : Int} {n i : Nat} (h : ∀ a, KVecCell k X INC n a → P a) (hi : i < n) :
    K4 k P (X + k.width * ((i:Int) * INC)) := fun a h1 h2 => h a ⟨i, hi, h1, h2⟩

theorem vec_k4' {P : Int → Prop} {k : Kind} {X N i : Int} (h : ∀ a, KVecCell k X 1 N.toNat a → P a) (h0 : 0 ≤ i) (hi : i < N) :
    K4 k P (X + k.width * i) := by
  have := vec_k4 (i := i.toNat) h (by omega)
  rwa [show ((i.toNat : Nat):Int) * 1 = i by omega] at this

theorem axpyElK_safe {kX : Kind} {isL : Bool} {ALPHA : Scal F} {X Y ix iy : Int} (hx : K4 kX S (X + kX.width * ix)) (hy : Q4 S (Y + 4 * iy)) (hw : Q4 W (Y + 4 * iy)) :
    Safe S W (axpyElK kX isL ALPHA X Y ix iy) (fun _ => True) :=
  safe_seq (safe_loadK hx) fun _ => safe_seq (safe_loadQ hy) fun _ => safe_storeQ hy hw

theorem axpyvGenK_safe [ArithEq F] {kX : Kind} {SIDE : Char} {ALPHA : Scal F} {N X INCX Y INCY : Int} (ix : 0 < INCX) (iy : 0 < INCY)
    (fx : Fits32 (N * INCX)) (fy : Fits32 (N * INCY))
    (hx : ∀ a, KVecCell kX X INCX N.toNat a → S a) (hy : ∀ a, VecCell Y INCY N.toNat a → S a) (hw : ∀ a, VecCell Y INCY N.toNat a → W a) :
    Safe S W (axpyvGenK kX SIDE N ALPHA X INCX Y INCY) (fun _ => True) := by
  unfold axpyvGenK
  refine safe_ite (fun _ => trivial) fun hN => safe_ite (fun _ => trivial) fun _ =>
    safe_assert (by simpa using ix) (safe_assert (by simpa using iy) (safe_ite (fun h1 => ?_) fun _ => ?_))
  · obtain ⟨rfl, rfl⟩ := h1
    have hel : ∀ i, 0 ≤ i → i < N → Safe S W (axpyElK kX (!(SIDE == 'R')) ALPHA X Y i i) (fun _ => True) := fun i h0 hi =>
      axpyElK_safe (vec_k4' hx h0 hi) (vec_q4' hy h0 hi) (vec_q4' hw h0 hi)
    refine safe_unroll (el := fun i => axpyElK kX (!(SIDE == 'R')) ALPHA X Y i i) (by omega) (by omega) rfl hel ?_
    intro i h0 hi
    unfold axpyUnrollK
    repeat' first | refine safe_seq (hel _ (by omega) (by omega)) fun _ => ?_ | exact hel _ (by omega) (by omega)
  · exact safe_seq (safe_strided ix iy fx fy fun i hi => axpyElK_safe (vec_k4 hx hi) (vec_q4 hy hi) (vec_q4 hw hi)) fun _ => trivial

variable [ArithEq F]

/-- What the mixed GEMM may access, and the index computations that must not overflow. -/
structure PGemmK (S W : Int → Prop) (k kB : Kind) (nA nB : Bool) (M N K A LDA B LDB C LDC : Int) : Prop where
  AN : nA = true → ∀ i l : Nat, i < M.toNat → l < K.toNat → K4 k S (A + k.width * (l * LDA) + k.width * i)
  AT : nA = false → ∀ i l : Nat, i < M.toNat → l < K.toNat → K4 k S (A + k.width * (i * LDA) + k.width * l)
  BN : nB = true → ∀ l j : Nat, l < K.toNat → j < N.toNat → K4 kB S (B + kB.width * (j * LDB) + kB.width * l)
  BT : nB = false → ∀ l j : Nat, l < K.toNat → j < N.toNat → K4 kB S (B + kB.width * (l * LDB) + kB.width * j)
  BT' : nB = false → ∀ l j : Nat, l < K.toNat → j < N.toNat → K4 kB S (B + kB.width * j + kB.width * (l * LDB))
  c : ∀ i j : Nat, i < M.toNat → j < N.toNat → Q4 S (C + 4 * (j * LDC) + 4 * i)
  w : ∀ i j : Nat, i < M.toNat → j < N.toNat → Q4 W (C + 4 * (j * LDC) + 4 * i)
  fAN : nA = true → ∀ l : Nat, l < K.toNat → Fits32 (l * LDA)
  fAT : nA = false → ∀ i : Nat, i < M.toNat → Fits32 (i * LDA)
  fBN : nB = true → ∀ j : Nat, j < N.toNat → Fits32 (j * LDB)
  fBT : nB = false → ∀ l : Nat, l < K.toNat → Fits32 (l * LDB)
  fC : ∀ j : Nat, j < N.toNat → Fits32 (j * LDC)

theorem gemmGenK_safe {k kB : Kind} {tA tB : Char} {M N K A LDA B LDB C LDC : Int} {ALPHA BETA : Scal F}
    (h : PGemmK S W k kB (tA == 'N') (tB == 'N') M N K A LDA B LDB C LDC) :
    Safe S W (gemmGenK k kB tA tB M N K ALPHA A LDA B LDB BETA C LDC) (fun _ => True) := by
  have hax : ∀ (cj : Bool) (i j l : Nat) (bp : Int), (tA == 'N') = true → i < M.toNat → j < N.toNat → l < K.toNat → K4 kB S bp →
      Safe S W (gemmAxpyElK k kB cj ALPHA (A + k.width * (l * LDA)) bp (C + 4 * (j * LDC)) i) (fun _ => True) := by
    intro cj i j l bp ht hi hj hl hb
    exact safe_seq (safe_loadK (h.AN ht i l hi hl)) fun _ => safe_seq (safe_loadK hb) fun _ =>
      safe_seq (safe_loadQ (h.c i j hi hj)) fun _ => safe_storeQ (h.c i j hi hj) (h.w i j hi hj)
  have hbeta : ∀ j : Nat, j < N.toNat → Safe S W (gemmBetaCol BETA M (C + 4 * (j * LDC))) (fun _ => True) := by
    intro j hj
    unfold gemmBetaCol
    exact safe_ite (fun _ => safe_forN fun i hi => zeroEl_safe (h.c i j hi hj) (h.w i j hi hj)) fun _ =>
      safe_ite (fun _ => safe_forN fun i hi => betaEl_safe (h.c i j hi hj) (h.w i j hi hj)) fun _ => trivial
  have hst : ∀ (i j : Nat) (t : Quat F), i < M.toNat → j < N.toNat →
      Safe S W (gemmStoreEl ALPHA BETA (C + 4 * (j * LDC)) i t) (fun _ => True) := by
    intro i j t hi hj
    unfold gemmStoreEl
    exact safe_ite (fun _ => safe_storeQ (h.c i j hi hj) (h.w i j hi hj)) fun _ =>
      safe_seq (safe_loadQ (h.c i j hi hj)) fun _ => safe_storeQ (h.c i j hi hj) (h.w i j hi hj)
  have hdot : ∀ (ca cb : Bool) (i l : Nat) (bp : Int) (t : Quat F), (tA == 'N') = false → i < M.toNat → l < K.toNat → K4 kB S bp →
      Safe S W (gemmDotElK k kB ca cb (A + k.width * (i * LDA)) bp l t) (fun _ => True) := by
    intro ca cb i l bp t ht hi hl hb
    exact safe_seq (safe_loadK (h.AT ht i l hi hl)) fun _ => safe_seq (safe_loadK hb) fun _ => safe_pure trivial
  have hNN : (tA == 'N') = true → (tB == 'N') = true → ∀ j : Nat, j < N.toNat →
      Safe S W (gemmColNNK k kB M K ALPHA A LDA B LDB BETA C LDC j) (fun _ => True) := by
    intro ta tb j hj
    unfold gemmColNNK
    exact safe_i32_bind (h.fC j hj) (safe_i32_bind (h.fBN tb j hj) (safe_seq (hbeta j hj) fun _ => safe_forN fun l hl =>
      safe_i32_bind (h.fAN ta l hl) (safe_forN fun i hi => hax _ i j l _ ta hi hj hl (h.BN tb l j hl hj))))
  have hNT : ∀ cj, (tA == 'N') = true → (tB == 'N') = false → ∀ j : Nat, j < N.toNat →
      Safe S W (gemmColNTK k kB cj M K ALPHA A LDA B LDB BETA C LDC j) (fun _ => True) := by
    intro cj ta tb j hj
    unfold gemmColNTK
    exact safe_i32_bind (h.fC j hj) (safe_seq (hbeta j hj) fun _ => safe_forN fun l hl =>
      safe_i32_bind (h.fAN ta l hl) (safe_i32_bind (h.fBT tb l hl) (safe_forN fun i hi => hax _ i j l _ ta hi hj hl (h.BT tb l j hl hj))))
  have hTN : ∀ ca, (tA == 'N') = false → (tB == 'N') = true → ∀ j : Nat, j < N.toNat →
      Safe S W (gemmColTNK k kB ca M K ALPHA A LDA B LDB BETA C LDC j) (fun _ => True) := by
    intro ca ta tb j hj
    unfold gemmColTNK
    refine safe_i32_bind (h.fC j hj) (safe_i32_bind (h.fBN tb j hj) (safe_forN fun i hi => ?_))
    unfold gemmElTNK
    exact safe_i32_bind (h.fAT ta i hi) (safe_seq (safe_fold fun l t hl => hdot _ _ i l _ t ta hi hl (h.BN tb l j hl hj)) fun t => hst i j t hi hj)
  have hTT : ∀ ca cb, (tA == 'N') = false → (tB == 'N') = false → ∀ j : Nat, j < N.toNat →
      Safe S W (gemmColTTK k kB ca cb M K ALPHA A LDA B LDB BETA C LDC j) (fun _ => True) := by
    intro ca cb ta tb j hj
    unfold gemmColTTK
    refine safe_i32_bind (h.fC j hj) (safe_forN fun i hi => ?_)
    unfold gemmElTTK
    exact safe_i32_bind (h.fAT ta i hi) (safe_seq (safe_fold fun l t hl => safe_i32_bind (h.fBT tb l hl)
      (hdot _ _ i l _ t ta hi hl (h.BT' tb l j hl hj))) fun t => hst i j t hi hj)
  unfold gemmGenK
  dsimp only
  refine safe_ite (fun _ => trivial) fun _ => safe_ite (fun _ => safe_forN fun j hj => ?_) fun _ => safe_ite (fun tb => ?_) fun tb => ?_
  · unfold gemmColA0
    exact safe_i32_bind (h.fC j hj) (safe_ite (fun _ => safe_forN fun i hi => zeroEl_safe (h.c i j hi hj) (h.w i j hi hj)) fun _ =>
      safe_forN fun i hi => betaEl_safe (h.c i j hi hj) (h.w i j hi hj))
  · refine safe_ite (fun ta => safe_forN fun j hj => hNN ta tb j hj) fun ta => ?_
    have ta := Bool.eq_false_iff.2 ta
    exact safe_ite (fun _ => safe_forN fun j hj => hTN _ ta tb j hj) fun _ => safe_forN fun j hj => hTN _ ta tb j hj
  · have tb := Bool.eq_false_iff.2 tb
    refine safe_ite (fun ta => ?_) fun ta => ?_
    · exact safe_ite (fun _ => safe_forN fun j hj => hNT _ ta tb j hj) fun _ => safe_forN fun j hj => hNT _ ta tb j hj
    · have ta := Bool.eq_false_iff.2 ta
      exact safe_ite
        (fun _ => safe_ite (fun _ => safe_forN fun j hj => hTT _ _ ta tb j hj) fun _ => safe_forN fun j hj => hTT _ _ ta tb j hj)
        fun _ => safe_ite (fun _ => safe_forN fun j hj => hTT _ _ ta tb j hj) fun _ => safe_forN fun j hj => hTT _ _ ta tb j hj

theorem PGemmK.of {k kB : Kind} {nA nB : Bool} {M N K A LDA B LDB C LDC : Int}
    (hA : ∀ a, KMatCell k A LDA (if nA then M.toNat else K.toNat) (if nA then K.toNat else M.toNat) a → S a)
    (hB : ∀ a, KMatCell kB B LDB (if nB then K.toNat else N.toNat) (if nB then N.toNat else K.toNat) a → S a)
    (hC : ∀ a, MatCell C LDC M.toNat N.toNat a → S a) (hW : ∀ a, MatCell C LDC M.toNat N.toNat a → W a)
    (fitA : ∀ l : Nat, l < (if nA then K.toNat else M.toNat) → Fits32 (l * LDA))
    (fitB : ∀ l : Nat, l < (if nB then N.toNat else K.toNat) → Fits32 (l * LDB))
    (fitC : ∀ l : Nat, l < N.toNat → Fits32 (l * LDC)) : PGemmK S W k kB nA nB M N K A LDA B LDB C LDC where
  AN e i l hi hl := by subst e; exact mat_k4 hA hi hl
  AT e i l hi hl := by subst e; exact mat_k4 hA hl hi
  BN e l j hl hj := by subst e; exact mat_k4 hB hl hj
  BT e l j hl hj := by subst e; exact mat_k4 hB hj hl
  BT' e l j hl hj := by
    subst e
    have := mat_k4 hB hj hl
    rwa [show B + kB.width * (l * LDB) + kB.width * (j:Int) = B + kB.width * j + kB.width * (l * LDB) by ring] at this
  c i j hi hj := mat_q4 hC hi hj
  w i j hi hj := mat_q4 hW hi hj
  fAN e l hl := by subst e; exact fitA l hl
  fAT e i hi := by subst e; exact fitA i hi
  fBN e j hj := by subst e; exact fitB j hj
  fBT e l hl := by subst e; exact fitB l hl
  fC := fitC

/-- What the mixed GEMV may access. -/
structure PGemvK (S W : Int → Prop) (k kX : Kind) (isN : Prop) [Decidable isN] (M N A LDA X INCX Y INCY : Int) : Prop where
  incX : 0 < INCX
  incY : 0 < INCY
  hA : ∀ a, KMatCell k A LDA M.toNat N.toNat a → S a
  hX : ∀ a, KVecCell kX X INCX (if isN then N else M).toNat a → S a
  hY : ∀ a, VecCell Y INCY (if isN then M else N).toNat a → S a
  hW : ∀ a, VecCell Y INCY (if isN then M else N).toNat a → W a
  fitA : ∀ i j : Nat, i < M.toNat → j < N.toNat → Fits32 (j * LDA) ∧ Fits32 (i + j * LDA)
  fitX : ∀ i : Nat, i ≤ (if isN then N else M).toNat → Fits32 (i * INCX)
  fitY : ∀ i : Nat, i ≤ (if isN then M else N).toNat → Fits32 (i * INCY)

theorem gemvGenK_safe {k kX : Kind} {t : Char} {M N A LDA X INCX Y INCY : Int} {ALPHA BETA : Scal F}
    (h : PGemvK S W k kX (t = 'N') M N A LDA X INCX Y INCY) :
    Safe S W (gemvGenK k kX t M N ALPHA A LDA X INCX BETA Y INCY) (fun _ => True) := by
  have kA : ∀ i j : Nat, i < M.toNat → j < N.toNat → K4 k S (A + k.width * ((i:Int) + j * LDA)) := fun i j hi hj a h1 h2 =>
    h.hA a ⟨i, j, hi, hj, h1, h2⟩
  unfold gemvGenK
  refine safe_ite (fun _ => trivial) fun _ => safe_assert (by simpa using h.incX) (safe_assert (by simpa using h.incY) ?_)
  have eL : (if t ≠ 'N' then N else M) = if t = 'N' then M else N := by split <;> simp_all
  rw [eL]
  refine safe_seq (gemvScale_safe h.hY h.hW h.fitY) fun _ => safe_ite (fun _ => trivial) fun _ => safe_ite (fun tN => ?_) fun tN => ?_
  · have hX := h.hX; have hY := h.hY; have hW := h.hW; have fX := h.fitX; have fY := h.fitY
    rw [if_pos tN] at hX hY hW fX fY
    have hel : ∀ (i j : Nat) (iy : Int) (ht : Quat F), i < M.toNat → j < N.toNat → iy = i * INCY →
        Safe S W (gemvAxpyElK k kX ALPHA A LDA X Y j (j * INCX) ht i iy) (fun _ => True) := by
      intro i j iy ht hi hj e
      subst e
      unfold gemvAxpyElK
      exact safe_rank2_bind (h.fitA i j hi hj).1 (h.fitA i j hi hj).2 (safe_seq (safe_loadK (kA i j hi hj)) fun _ =>
        safe_seq (safe_loadQ (vec_q4 hY hi)) fun _ => safe_seq (safe_storeQ (vec_q4 hY hi) (vec_q4 hW hi)) fun _ =>
        safe_seq (safe_loadK (kA i j hi hj)) fun _ => safe_seq (safe_loadK (vec_k4 hX hj)) fun _ =>
        safe_seq (safe_loadQ (vec_q4 hY hi)) fun _ => safe_storeQ (vec_q4 hY hi) (vec_q4 hW hi))
    refine safe_seq (safe_vloop INCX (fun t => t) rfl fun j jx hj e => ?_) fun _ => trivial
    try dsimp only at e
    subst e
    unfold gemvColNK
    refine safe_seq (safe_loadK (vec_k4 hX hj)) fun x => ?_
    split
    · rename_i h1
      subst h1
      exact safe_seq (safe_forN fun i hi => hel i j _ _ hi hj (by ring)) fun _ => safe_next hj fX
    · refine safe_seq (safe_vloop INCY (fun t => t) rfl fun i iy hi e => ?_) fun _ => safe_next hj fX
      try dsimp only at e
      subst e
      exact safe_seq (hel i j _ _ hi hj rfl) fun _ => safe_next hi fY
  · have hX := h.hX; have hY := h.hY; have hW := h.hW; have fX := h.fitX; have fY := h.fitY
    rw [if_neg tN] at hX hY hW fX fY
    have hel : ∀ (i j : Nat) (ix : Int) (ht : Quat F) (nc : Bool), i < M.toNat → j < N.toNat → ix = i * INCX →
        Safe S W (gemvDotElK k kX nc A LDA X j i ix ht) (fun _ => True) := by
      intro i j ix ht nc hi hj e
      subst e
      unfold gemvDotElK
      exact safe_rank2_bind (h.fitA i j hi hj).1 (h.fitA i j hi hj).2 (safe_seq (safe_loadK (kA i j hi hj)) fun _ =>
        safe_seq (safe_loadK (vec_k4 hX hi)) fun _ => safe_pure trivial)
    refine safe_seq (safe_vloop INCY (fun t => t) rfl fun j jy hj e => ?_) fun _ => trivial
    try dsimp only at e
    subst e
    unfold gemvColTK
    have fin : ∀ ht : Quat F, Safe S W (do
        let y ← loadQ (Y + 4 * (j * INCY))
        storeQ (Y + 4 * (j * INCY)) (Quat.addAssign y (ALPHA.mulL ht))
        i32 (j * INCY + INCY) : Prog F Int) (fun r => r = ((j+1 : Nat):Int) * INCY) := fun ht =>
      safe_seq (safe_loadQ (vec_q4 hY hj)) fun _ => safe_seq (safe_storeQ (vec_q4 hY hj) (vec_q4 hW hj)) fun _ => safe_next hj fY
    refine safe_ite (fun h1 => ?_) fun _ => ?_
    · subst h1
      exact safe_seq (safe_fold fun i t hi => hel i j _ _ _ hi hj (by ring)) fun ht => fin ht
    · refine safe_seq (safe_seq (safe_vloop (σ := Int × Quat F) INCX (fun t => t.1) rfl fun i t hi e => ?_) fun _ => safe_pure trivial) fun r => fin r
      try dsimp only at e
      rw [e]
      exact safe_seq (hel i j _ _ _ hi hj rfl) fun _ => safe_bind ((safe_next hi fX).mono fun r er => safe_pure er)

/-- What the mixed GERU/GERC may access. -/
structure PGerK (S W : Int → Prop) (kX kY : Kind) (M N X INCX Y INCY A LDA : Int) : Prop where
  incX : 0 < INCX
  incY : 0 < INCY
  hX : ∀ a, KVecCell kX X INCX M.toNat a → S a
  hY : ∀ a, KVecCell kY Y INCY N.toNat a → S a
  hA : ∀ a, MatCell A LDA M.toNat N.toNat a → S a
  hW : ∀ a, MatCell A LDA M.toNat N.toNat a → W a
  fitA : ∀ i j : Nat, i < M.toNat → j < N.toNat → Fits32 (j * LDA) ∧ Fits32 (i + j * LDA)
  fitX : ∀ i : Nat, i ≤ M.toNat → Fits32 (i * INCX)
  fitY : ∀ j : Nat, j ≤ N.toNat → Fits32 (j * INCY)

theorem gerGenK_safe {kX kY : Kind} {cj : Bool} {M N X INCX Y INCY A LDA : Int} {ALPHA : Scal F} (h : PGerK S W kX kY M N X INCX Y INCY A LDA) :
    Safe S W (gerGenK kX kY cj M N ALPHA X INCX Y INCY A LDA) (fun _ => True) := by
  have hel : ∀ (i j : Nat) (ix : Int), i < M.toNat → j < N.toNat → ix = i * INCX →
      Safe S W (gerElK kX kY cj ALPHA X Y A LDA j (j * INCY) i ix) (fun _ => True) := by
    intro i j ix hi hj e
    subst e
    unfold gerElK
    have q : ∀ {P : Int → Prop}, (∀ a, MatCell A LDA M.toNat N.toNat a → P a) → Q4 P (A + 4 * ((i:Int) + j * LDA)) := fun hP a ha =>
      hP a ⟨i, j, hi, hj, ha⟩
    exact safe_seq (safe_loadK (vec_k4 h.hX hi)) fun _ => safe_seq (safe_loadK (vec_k4 h.hY hj)) fun _ =>
      safe_rank2_bind (h.fitA i j hi hj).1 (h.fitA i j hi hj).2 (safe_seq (safe_loadQ (q h.hA)) fun _ => safe_storeQ (q h.hA) (q h.hW))
  unfold gerGenK
  refine safe_ite (fun _ => trivial) fun _ => safe_assert (by simpa using h.incX) (safe_assert (by simpa using h.incY) ?_)
  refine safe_seq (safe_vloop INCY (fun t => t) rfl fun j jy hj e => ?_) fun _ => trivial
  try dsimp only at e
  subst e
  unfold gerColK
  refine safe_seq (safe_loadK (vec_k4 h.hY hj)) fun y => ?_
  split
  · split
    · rename_i h1
      subst h1
      exact safe_seq (safe_forN fun i hi => hel i j _ hi hj (by ring)) fun _ => safe_next hj h.fitY
    · refine safe_seq (safe_vloop INCX (fun t => t) rfl fun i ix hi e => ?_) fun _ => safe_next hj h.fitY
      try dsimp only at e
      subst e
      exact safe_seq (hel i j _ hi hj rfl) fun _ => safe_next hi h.fitX
  · exact safe_next hj h.fitY


end
end Haxx.Thr
