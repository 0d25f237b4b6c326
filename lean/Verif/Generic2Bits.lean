import Verif.GenericBits
import Verif.Generic2Proofs

/-!
# The portable GEMV, GERU and GERC templates, bit for bit

Over an uninterpreted arithmetic: which operations, in which order, produce each result.
-/

set_option linter.unusedSectionVars false

namespace Haxx
open Arith

variable {F : Type} [Arith F]

/-- `op(A)` as the GEMV template reads it: any flag other than `'N'` and `'T'` conjugate-transposes. -/
def opVE (t : Char) (X : Nat → Nat → Scal F) (i l : Nat) : Scal F :=
  if t = 'N' then X i l else if t = 'T' then X l i else (X l i).smartConj

/-- `y += a*(ALPHA*x); y += (ALPHA*a - a*ALPHA)*x` -/
def pAxpy (ALPHA : Scal F) (a : Scal F) (x y : Quat F) : Quat F :=
  Quat.addAssign (Quat.addAssign y (a.mulL (ALPHA.mulL x))) (((ALPHA.mul a).sub (a.mul ALPHA)).mulL x)

/-- the same for `l = 0, …` -/
def pAxpys (ALPHA : Scal F) (a : Nat → Scal F) (x : Nat → Quat F) (y : Quat F) : Nat → Quat F
  | 0 => y
  | l+1 => pAxpy ALPHA (a l) (x l) (pAxpys ALPHA a x y l)

variable [ArithEq F]

/-- the scaling of y by BETA -/
def pScale (BETA : Scal F) (y : Quat F) : Quat F :=
  if !BETA.eqOne then (if BETA.eqZero then Quat.mkReal zero else BETA.mulL y) else y

/-- The value GEMV leaves in an element of y, from a row `a` of op(A), all of `x` and the old value. -/
def pGemv (t : Char) (ALPHA BETA : Scal F) (K : Nat) (a : Nat → Scal F) (x : Nat → Quat F) (y : Quat F) : Quat F :=
  if ALPHA.eqZero && BETA.eqOne then y
  else if ALPHA.eqZero then pScale BETA y
  else if t = 'N' then pAxpys ALPHA a x (pScale BETA y) K
  else Quat.addAssign (pScale BETA y) (ALPHA.mulL (pDot a x K))

/-- The value GERU (GERC) leaves in an entry of A, from `x_i`, `y_j` and the old value. -/
def pGer (conjY : Bool) (ALPHA : Scal F) (x y a : Quat F) : Quat F :=
  if ALPHA.eqZero then a
  else if Quat.neOp y (Quat.mkReal zero) then
    Quat.addAssign a (Quat.mul (ALPHA.mulL x) (if conjY then y.conj else y))
  else a

/-- As `GemvKArgs`, for any arithmetic. -/
structure GemvBArgs (m : Mem F) (k : Kind) (t : Char) (M N : Int) (ALPHA : Scal F) (A LDA X INCX Y INCY : Int)
    (a : Nat → Nat → Scal F) (x y : Nat → Quat F) : Prop where
  incX : 0 < INCX
  incY : 0 < INCY
  hY : VecAt m Y INCY (if t = 'N' then M else N).toNat y
  hA : ALPHA.eqZero = false → KMatAt m k A LDA M.toNat N.toNat a
  hX : ALPHA.eqZero = false → VecAt m X INCX (if t = 'N' then N else M).toNat x
  hAY : Apart (KMatCell k A LDA M.toNat N.toNat) (VecCell Y INCY (if t = 'N' then M else N).toNat)
  hXY : Apart (VecCell X INCX (if t = 'N' then N else M).toNat) (VecCell Y INCY (if t = 'N' then M else N).toNat)
  fitA : ∀ i j : Nat, i < M.toNat → j < N.toNat → Fits32 (j * LDA) ∧ Fits32 (i + j * LDA)
  fitX : ∀ i : Nat, i ≤ (if t = 'N' then N else M).toNat → Fits32 (i * INCX)
  fitY : ∀ i : Nat, i ≤ (if t = 'N' then M else N).toNat → Fits32 (i * INCY)

/-- As `GerKArgs`, for any arithmetic. -/
structure GerBArgs (m : Mem F) (M N X INCX Y INCY A LDA : Int) (x y : Nat → Quat F) (a : Nat → Nat → Quat F) : Prop where
  incX : 0 < INCX
  incY : 0 < INCY
  hA : MatAt m A LDA M.toNat N.toNat a
  hX : VecAt m X INCX M.toNat x
  hY : VecAt m Y INCY N.toNat y
  hld : M ≤ LDA
  hXA : Apart (VecCell X INCX M.toNat) (MatCell A LDA M.toNat N.toNat)
  hYA : Apart (VecCell Y INCY N.toNat) (MatCell A LDA M.toNat N.toNat)
  fitA : ∀ i j : Nat, i < M.toNat → j < N.toNat → Fits32 (j * LDA) ∧ Fits32 (i + j * LDA)
  fitX : ∀ i : Nat, i ≤ M.toNat → Fits32 (i * INCX)
  fitY : ∀ j : Nat, j ≤ N.toNat → Fits32 (j * INCY)

variable {K : Mem F → Prop} {kA : Kind} {ALPHA BETA : Scal F}

theorem gemvScale_bits {L Y INCY : Int} {m0 m : Mem F} {c : Nat → Quat F}
    (st : VStK K Y INCY L.toNat)
    (hU : Upd K (fun i => Y + 4 * ((i:Int) * INCY)) L.toNat m0 c m) :
    wp (gemvScale L BETA Y INCY) m (fun _ m' =>
      Upd K (fun i => Y + 4 * ((i:Int) * INCY)) L.toNat m0 (fun i => pScale BETA (c i)) m') := by
  unfold gemvScale pScale
  split
  · split
    · rename_i e1
      subst e1
      split
      · refine wp_passU st.disj st.stable hU (fun i m _ _ h => ?_)
        have := zeroEl_bits (CCol := Y) (i := (i:Int) * 1) h
        simpa using this
      · refine wp_passU st.disj st.stable hU (fun i m _ _ h => ?_)
        have := betaEl_bits (BETA := BETA) (CCol := Y) (i := (i:Int) * 1) h
        simpa using this
    · split
      · rw [wp_bind]
        refine wp_mono (wp_pass (c' := fun i => Quat.mkReal zero) (fun i => (i:Int) * INCY) (by simp) st.disj st.stable hU ?_) ?_
        · intro i m hi _ h
          rw [wp_bind]
          refine wp_mono (zeroEl_bits h) ?_
          rintro _ m' rfl
          rw [wp_i32 (by rw [← cast_succ_mul]; exact st.fitY (i+1) hi)]
          exact ⟨(cast_succ_mul i INCY).symm, rfl⟩
        · intro _ m' h; rw [wp_pure]; exact h.2
      · rw [wp_bind]
        refine wp_mono (wp_pass (c' := fun i => BETA.mulL (c i)) (fun i => (i:Int) * INCY) (by simp) st.disj st.stable hU ?_) ?_
        · intro i m hi _ h
          rw [wp_bind]
          refine wp_mono (betaEl_bits h) ?_
          rintro _ m' rfl
          rw [wp_i32 (by rw [← cast_succ_mul]; exact st.fitY (i+1) hi)]
          exact ⟨(cast_succ_mul i INCY).symm, rfl⟩
        · intro _ m' h; rw [wp_pure]; exact h.2
  · rw [wp_pure]
    exact hU

omit [ArithEq F] in
theorem gemvAxpyEl_bits {m : Mem F} {A LDA X Y j jx i iy : Int} {a : Scal F} {x y : Quat F}
    (f1 : Fits32 (j * LDA)) (f2 : Fits32 (i + j * LDA))
    (ha : ∀ q, readK (writeQ m (Y + 4 * iy) q) kA (A + kA.width * (i + j * LDA)) = some a)
    (ha0 : readK m kA (A + kA.width * (i + j * LDA)) = some a)
    (hx : ∀ q, readQ (writeQ m (Y + 4 * iy) q) (X + 4 * jx) = some x)
    (hy : readQ m (Y + 4 * iy) = some y) :
    wp (gemvAxpyEl kA ALPHA A LDA X Y j jx (ALPHA.mulL x) i iy) m (fun _ m' =>
      m' = writeQ m (Y + 4 * iy) (pAxpy ALPHA a x y)) := by
  unfold gemvAxpyEl
  simp only [wp_bind, wp_rank2 f1 f2, wp_loadK ha0, wp_loadK (ha _), wp_loadQ hy, wp_storeQ hy, wp_loadQ (hx _),
    wp_loadQ (readQ_writeQ_same _ _ _), wp_storeQ (readQ_writeQ_same _ _ _), writeQ_writeQ]
  rfl

variable {A LDA X INCX Y INCY M N : Int} {a : Nat → Nat → Scal F} {x : Nat → Quat F} {m0 : Mem F}

omit [ArithEq F] in
theorem gemvColN_bits (en : GkEnv K kA A LDA M.toNat N.toNat a X INCX N.toNat x) (st : VStK K Y INCY M.toNat)
    {j : Nat} (hj : j < N.toNat) {m : Mem F} {c : Nat → Quat F}
    (hU : Upd K (fun i => Y + 4 * ((i:Int) * INCY)) M.toNat m0 c m) :
    wp (gemvColN kA M ALPHA A LDA X INCX Y INCY j (j * INCX)) m (fun s m' => s = ((j+1 : Nat) : Int) * INCX ∧
      Upd K (fun i => Y + 4 * ((i:Int) * INCY)) M.toNat m0 (fun i => pAxpy ALPHA (a i j) (x j) (c i)) m') := by
  have el : ∀ (i : Nat) m, i < M.toNat → K m → readQ m (Y + 4 * ((i:Int) * INCY)) = some (c i) →
      wp (gemvAxpyEl kA ALPHA A LDA X Y j (j * INCX) (ALPHA.mulL (x j)) i (i * INCY)) m (fun _ m' =>
      m' = writeQ m (Y + 4 * ((i:Int) * INCY)) (pAxpy ALPHA (a i j) (x j) (c i))) := by
    intro i m hi hk hc
    exact gemvAxpyEl_bits (en.fitA i j hi hj).1 (en.fitA i j hi hj).2
      (fun q => en.rdA _ (st.stable m i q hi hk) i j hi hj) (en.rdA _ hk i j hi hj)
      (fun q => en.rdX _ (st.stable m i q hi hk) j hj) hc
  have fin : Fits32 ((j:Int) * INCX + INCX) := by rw [← cast_succ_mul]; exact en.fitX (j+1) hj
  unfold gemvColN
  rw [wp_bind, wp_loadQ (en.rdX m hU.k j hj)]
  dsimp only
  split
  · rename_i e; subst e
    rw [wp_bind]
    refine wp_mono (wp_passU st.disj st.stable hU (fun i m hi hk hc => by simpa using el i m hi hk hc)) ?_
    intro _ m' h
    rw [wp_i32 fin]
    exact ⟨(cast_succ_mul j INCX).symm, h⟩
  · rw [wp_bind]
    refine wp_mono (wp_pass (c' := fun i => pAxpy ALPHA (a i j) (x j) (c i))
      (fun i => (i:Int) * INCY) (by simp) st.disj st.stable hU ?_) ?_
    · intro i m hi hk hc
      rw [wp_bind]
      refine wp_mono (el i m hi hk hc) ?_
      rintro _ m' rfl
      rw [wp_i32 (by rw [← cast_succ_mul]; exact st.fitY (i+1) hi)]
      exact ⟨(cast_succ_mul i INCY).symm, rfl⟩
    · intro _ m' h
      rw [wp_i32 fin]
      exact ⟨(cast_succ_mul j INCX).symm, h.2⟩

omit [ArithEq F] in
theorem gemvDotEl_bits {NOCONJ : Bool} {m : Mem F} {A LDA X j i ix : Int} {a : Scal F} {x h : Quat F}
    (f1 : Fits32 (j * LDA)) (f2 : Fits32 (i + j * LDA))
    (ha : readK m kA (A + kA.width * (i + j * LDA)) = some a) (hx : readQ m (X + 4 * ix) = some x)
    {Q : Quat F → Mem F → Prop} :
    wp (gemvDotEl kA NOCONJ A LDA X j i ix h) m Q ↔
      Q (Quat.addAssign h ((if NOCONJ then a else a.smartConj).mulL x)) m := by
  unfold gemvDotEl
  simp only [wp_bind, wp_rank2 f1 f2, wp_loadK ha, wp_loadQ hx, wp_pure]

omit [ArithEq F] in
theorem gemvColT_bits {NOCONJ : Bool} (en : GkEnv K kA A LDA M.toNat N.toNat a X INCX M.toNat x) (st : VStK K Y INCY N.toNat)
    {j : Nat} (hj : j < N.toNat) {m : Mem F} {y : Quat F} (hk : K m)
    (hy : readQ m (Y + 4 * ((j:Int) * INCY)) = some y) :
    wp (gemvColT kA NOCONJ M ALPHA A LDA X INCX Y INCY j (j * INCY)) m (fun s m' => s = ((j+1 : Nat) : Int) * INCY ∧
      m' = writeQ m (Y + 4 * ((j:Int) * INCY)) (Quat.addAssign y (ALPHA.mulL
        (pDot (fun i => if NOCONJ then a i j else (a i j).smartConj) x M.toNat)))) := by
  have fin : Fits32 ((j:Int) * INCY + INCY) := by rw [← cast_succ_mul]; exact st.fitY (j+1) hj
  unfold gemvColT
  split
  · rename_i e; subst e
    rw [wp_bind]
    apply wp_acc (fun k (h : Quat F) => h = pDot (fun i => if NOCONJ then a i j else (a i j).smartConj) x k)
    · rfl
    · rintro i h hi rfl
      have hx := en.rdX m hk i hi
      rw [mul_one] at hx
      rw [gemvDotEl_bits (en.fitA i j hi hj).1 (en.fitA i j hi hj).2 (en.rdA m hk i j hi hj) hx]
      exact ⟨rfl, rfl⟩
    · rintro h rfl
      simp only [wp_bind, wp_loadQ hy, wp_storeQ hy, wp_i32 fin]
      exact ⟨(cast_succ_mul j INCY).symm, trivial⟩
  · rw [wp_bind, wp_bind]
    apply wp_acc (fun k (s : Int × Quat F) => s.1 = k * INCX ∧
      s.2 = pDot (fun i => if NOCONJ then a i j else (a i j).smartConj) x k)
    · exact ⟨by simp, rfl⟩
    · rintro i ⟨ix, h⟩ hi ⟨e, ih⟩
      dsimp only at e ih
      subst e ih
      rw [wp_bind, gemvDotEl_bits (en.fitA i j hi hj).1 (en.fitA i j hi hj).2 (en.rdA m hk i j hi hj) (en.rdX m hk i hi),
        wp_bind, wp_i32 (by rw [← cast_succ_mul]; exact en.fitX (i+1) hi), wp_pure]
      exact ⟨rfl, (cast_succ_mul i INCX).symm, rfl⟩
    · rintro ⟨ix, h⟩ ⟨_, hh⟩
      dsimp only at hh
      subst hh
      rw [wp_pure]
      simp only [wp_bind, wp_loadQ hy, wp_storeQ hy, wp_i32 fin]
      exact ⟨(cast_succ_mul j INCY).symm, trivial⟩

/-- The portable GEMV, in full. -/
theorem gemvGen_bits (m : Mem F) (k : Kind) (t : Char) (M N : Int) (ALPHA : Scal F) (A LDA X INCX : Int)
    (BETA : Scal F) (Y INCY : Int) (a : Nat → Nat → Scal F) (x y : Nat → Quat F)
    (hM : M ≠ 0) (hN : N ≠ 0) (h : GemvBArgs m k t M N ALPHA A LDA X INCX Y INCY a x y) :
    ∃ m', gemvGen k t M N ALPHA A LDA X INCX BETA Y INCY m = .ok ((), m') ∧
      VecAt m' Y INCY (if t = 'N' then M else N).toNat
        (fun i => pGemv t ALPHA BETA (if t = 'N' then N else M).toNat (opVE t a i) x (y i)) ∧
      SameOutside (VecCell Y INCY (if t = 'N' then M else N).toNat) m m' := by
  set L := (if t = 'N' then M else N) with hL
  set L' := (if t = 'N' then N else M) with hL'
  set Kp : Mem F → Prop := fun m' => ∀ c, ¬ VecCell Y INCY L.toNat c → m' c = m c with hKp
  have st : VStK Kp Y INCY L.toNat := {
    stable := by
      intro m' i q hi hm c hc
      rw [writeQ_other (fun hin => hc ⟨i, hi, hin⟩)]
      exact hm c hc
    disj := fun i j _ _ hne => strided_disj (by have := h.incY; omega) hne
    fitY := h.fitY }
  have hU : Upd Kp (fun i => Y + 4 * ((i:Int) * INCY)) L.toNat m y m :=
    ⟨h.hY, fun _ _ => rfl, fun _ _ => rfl⟩
  have key : wp (gemvGen k t M N ALPHA A LDA X INCX BETA Y INCY) m (fun _ m' =>
      Upd Kp (fun i => Y + 4 * ((i:Int) * INCY)) L.toNat m
        (fun i => pGemv t ALPHA BETA L'.toNat (opVE t a i) x (y i)) m') := by
    unfold gemvGen
    by_cases e0 : (ALPHA.eqZero && BETA.eqOne) = true
    · have ev : (fun i => pGemv t ALPHA BETA L'.toNat (opVE t a i) x (y i)) = fun i => y i := by
        funext i; unfold pGemv; rw [if_pos e0]
      rw [if_pos (by simp [e0]), wp_pure, ev]
      exact hU
    · rw [if_neg (by simpa [hM, hN] using e0)]
      have i1 : decide (INCX > 0) = true := by simpa using h.incX
      have i2 : decide (INCY > 0) = true := by simpa using h.incY
      have eL : (if t ≠ 'N' then N else M) = L := by
        rw [hL]; by_cases e : t = 'N' <;> simp [e]
      rw [wp_bind, wp_assert i1, wp_bind, wp_assert i2]
      dsimp only
      rw [eL, wp_bind]
      refine wp_mono (gemvScale_bits st hU) ?_
      intro _ m1 hU1
      by_cases e1 : ALPHA.eqZero = true
      · have ev : (fun i => pGemv t ALPHA BETA L'.toNat (opVE t a i) x (y i)) = fun i => pScale BETA (y i) := by
          funext i; unfold pGemv; rw [if_neg e0, if_pos e1]
        rw [if_pos e1, wp_pure, ev]
        exact hU1
      · rw [if_neg e1]
        have h0 : ALPHA.eqZero = false := by simpa using e1
        have en : GkEnv Kp k A LDA M.toNat N.toNat a X INCX L'.toNat x := {
          rdA := by
            intro m' hm i j hi hj
            rw [readK_congr (m' := m)]
            · exact h.hA h0 i j hi hj
            · intro c h1 h2; exact hm c (h.hAY c ⟨i, j, hi, hj, h1, h2⟩)
          rdX := by
            intro m' hm i hi
            rw [readQ_congr (m' := m)]
            · exact h.hX h0 i hi
            · intro c hc; exact hm c (h.hXY c ⟨i, hi, hc⟩)
          fitA := h.fitA
          fitX := h.fitX }
        by_cases et : t = 'N'
        · have ev : (fun i => pGemv t ALPHA BETA L'.toNat (opVE t a i) x (y i)) = fun i => pAxpys ALPHA (opVE t a i) x (pScale BETA (y i)) L'.toNat := by
            funext i; unfold pGemv; rw [if_neg e0, if_neg e1, if_pos et]
          rw [ev, if_pos et, wp_bind]
          have e1 : L = M := by rw [hL, if_pos et]
          have e2 : L' = N := by rw [hL', if_pos et]
          rw [e2] at en
          rw [e1] at st hU1
          rw [e1, e2]
          apply wp_foldN (fun j (s : Int) m' => s = j * INCX ∧
            Upd Kp (fun i => Y + 4 * ((i:Int) * INCY)) M.toNat m
              (fun i => pAxpys ALPHA (opVE t a i) x (pScale BETA (y i)) j) m')
          · exact ⟨by simp, hU1⟩
          · rintro j s m2 hj ⟨rfl, hU2⟩
            refine wp_mono (gemvColN_bits (ALPHA := ALPHA) en st hj hU2) ?_
            rintro s' m3 ⟨hs, hU3⟩
            refine ⟨hs, ?_⟩
            have : ∀ i, opVE t a i j = a i j := fun i => by unfold opVE; rw [if_pos et]
            simp only [pAxpys, this]
            exact hU3
          · rintro s m2 ⟨_, h2⟩
            rw [wp_pure]
            exact h2
        · have ev : (fun i => pGemv t ALPHA BETA L'.toNat (opVE t a i) x (y i)) = fun i => Quat.addAssign (pScale BETA (y i)) (ALPHA.mulL (pDot (opVE t a i) x L'.toNat)) := by
            funext i; unfold pGemv; rw [if_neg e0, if_neg e1, if_neg et]
          rw [ev, if_neg et, wp_bind]
          have e1 : L = N := by rw [hL, if_neg et]
          have e2 : L' = M := by rw [hL', if_neg et]
          rw [e2] at en
          rw [e1] at st hU1
          rw [e1, e2]
          have eo : ∀ i, opVE t a i = fun l => if (t == 'T') = true then a l i else (a l i).smartConj := by
            intro i; funext l; unfold opVE; rw [if_neg et]
            by_cases e : t = 'T' <;> simp [e]
          simp only [eo]
          refine wp_mono (wp_pass (c' := fun i => Quat.addAssign (pScale BETA (y i)) (ALPHA.mulL
                (pDot (fun l => if (t == 'T') = true then a l i else (a l i).smartConj) x M.toNat)))
                (fun j => (j:Int) * INCY) (by simp) st.disj st.stable hU1 ?_) ?_
          · intro j m2 hj hk hy
            exact gemvColT_bits en st hj hk hy
          · intro _ m2 h2; rw [wp_pure]; exact h2.2
  obtain ⟨_, m', h1, h2⟩ := key
  exact ⟨m', h1, h2.cur, h2.k⟩

omit [ArithEq F] in
theorem gerEl_bits {conjY : Bool} {m : Mem F} {X Y A LDA j JY i ix : Int} {x y a : Quat F}
    (f1 : Fits32 (j * LDA)) (f2 : Fits32 (i + j * LDA)) (hx : readQ m (X + 4 * ix) = some x)
    (hy : readQ m (Y + 4 * JY) = some y) (ha : readQ m (A + 4 * (i + j * LDA)) = some a) :
    wp (gerEl conjY ALPHA X Y A LDA j JY i ix) m (fun _ m' =>
      m' = writeQ m (A + 4 * (i + j * LDA)) (Quat.addAssign a (Quat.mul (ALPHA.mulL x) (if conjY then y.conj else y)))) := by
  unfold gerEl
  simp only [wp_bind, wp_rank2 f1 f2, wp_loadQ hx, wp_loadQ hy, wp_loadQ ha, wp_storeQ ha]

theorem gerCol_bits {conjY : Bool} {y : Nat → Quat F} (en : GerK K X INCX M.toNat x Y INCY N.toNat y A LDA)
    (hz : ALPHA.eqZero = false) {j : Nat} (hj : j < N.toNat) {m : Mem F} {c : Nat → Quat F}
    (hU : Upd K (fun i => A + 4 * ((i:Int) + j * LDA)) M.toNat m0 c m) :
    wp (gerCol conjY M ALPHA X INCX Y INCY A LDA j (j * INCY)) m (fun s m' => s = ((j+1 : Nat) : Int) * INCY ∧
      Upd K (fun i => A + 4 * ((i:Int) + j * LDA)) M.toNat m0
        (fun i => pGer conjY ALPHA (x i) (y j) (c i)) m') := by
  have fin : Fits32 ((j:Int) * INCY + INCY) := by rw [← cast_succ_mul]; exact en.fitY (j+1) hj
  have hd : ∀ i i' : Nat, i < M.toNat → i' < M.toNat → i ≠ i' →
      QDisj (A + 4 * ((i:Int) + j * LDA)) (A + 4 * ((i':Int) + j * LDA)) :=
    fun i i' hi hi' hne => en.disj i j i' j hi hi' (fun e => hne e.1)
  have hs : ∀ m (i : Nat) q, i < M.toNat → K m → K (writeQ m (A + 4 * ((i:Int) + j * LDA)) q) :=
    fun m i q hi hk => en.stable m i j q hi hj hk
  have el : ∀ (i : Nat) m, i < M.toNat → K m → readQ m (A + 4 * ((i:Int) + j * LDA)) = some (c i) →
      wp (gerEl conjY ALPHA X Y A LDA j (j * INCY) i (i * INCX)) m (fun _ m' =>
      m' = writeQ m (A + 4 * ((i:Int) + j * LDA)) (Quat.addAssign (c i) (Quat.mul (ALPHA.mulL (x i)) (if conjY then (y j).conj else y j)))) := by
    intro i m hi hk hc
    exact gerEl_bits (en.fitA i j hi hj).1 (en.fitA i j hi hj).2 (en.rdX m hk i hi) (en.rdY m hk j hj) hc
  unfold gerCol pGer
  simp only [hz, Bool.false_eq_true, if_false]
  rw [wp_bind, wp_loadQ (en.rdY m hU.k j hj)]
  split
  · split
    · rename_i e; subst e
      rw [wp_bind]
      refine wp_mono (wp_passU hd hs hU (fun i m hi hk hc => by
        have := el i m hi hk hc
        simp only [mul_one] at this
        exact this)) ?_
      intro _ m' h
      rw [wp_i32 fin]
      exact ⟨(cast_succ_mul j INCY).symm, h⟩
    · rw [wp_bind]
      refine wp_mono (wp_pass (c' := fun i => Quat.addAssign (c i) (Quat.mul (ALPHA.mulL (x i)) (if conjY then (y j).conj else y j)))
        (fun i => (i:Int) * INCX) (by simp) hd hs hU ?_) ?_
      · intro i m hi hk hc
        rw [wp_bind]
        refine wp_mono (el i m hi hk hc) ?_
        rintro _ m' rfl
        rw [wp_i32 (by rw [← cast_succ_mul]; exact en.fitX (i+1) hi)]
        exact ⟨(cast_succ_mul i INCX).symm, rfl⟩
      · intro _ m' h
        rw [wp_i32 fin]
        exact ⟨(cast_succ_mul j INCY).symm, h.2⟩
  · rw [wp_i32 fin]
    exact ⟨(cast_succ_mul j INCY).symm, hU⟩

/-- The portable GERU and GERC, in full. -/
theorem gerGen_bits (conjY : Bool) (m : Mem F) (M N : Int) (ALPHA : Scal F) (X INCX Y INCY A LDA : Int)
    (x y : Nat → Quat F) (a : Nat → Nat → Quat F) (h : GerBArgs m M N X INCX Y INCY A LDA x y a) :
    ∃ m', gerGen conjY M N ALPHA X INCX Y INCY A LDA m = .ok ((), m') ∧
      MatAt m' A LDA M.toNat N.toNat (fun i j => pGer conjY ALPHA (x i) (y j) (a i j)) ∧
      SameOutside (MatCell A LDA M.toNat N.toNat) m m' := by
  have key : wp (gerGen conjY M N ALPHA X INCX Y INCY A LDA) m (fun _ m' =>
      (∀ i j : Nat, i < M.toNat → j < N.toNat → readQ m' (A + 4 * ((i:Int) + j * LDA)) =
        some (pGer conjY ALPHA (x i) (y j) (a i j))) ∧
      ∀ c, ¬ MatCell A LDA M.toNat N.toNat c → m' c = m c) := by
    unfold gerGen
    split
    · rename_i e
      rw [wp_pure]
      refine ⟨?_, fun _ _ => rfl⟩
      intro i j hi hj
      simp only [Bool.or_eq_true, decide_eq_true_eq] at e
      rcases e with (e | e) | e
      · omega
      · omega
      · rw [h.hA i j hi hj]; unfold pGer; rw [if_pos e]
    · rename_i e
      have hz : ALPHA.eqZero = false := by
        simp only [Bool.or_eq_true, decide_eq_true_eq, not_or] at e
        simpa using e.2
      have i1 : decide (INCX > 0) = true := by simpa using h.incX
      have i2 : decide (INCY > 0) = true := by simpa using h.incY
      rw [wp_bind, wp_assert i1, wp_bind, wp_assert i2, wp_bind]
      have en : GerK (fun m' => ∀ c, ¬ MatCell A LDA M.toNat N.toNat c → m' c = m c) X INCX M.toNat x Y INCY N.toNat y A LDA := {
        rdX := by
          intro m' hm i hi
          rw [readQ_congr (m' := m)]
          · exact h.hX i hi
          · intro c hc; exact hm c (h.hXA c ⟨i, hi, hc⟩)
        rdY := by
          intro m' hm i hi
          rw [readQ_congr (m' := m)]
          · exact h.hY i hi
          · intro c hc; exact hm c (h.hYA c ⟨i, hi, hc⟩)
        stable := by
          intro m' i j q hi hj hm c hc
          rw [writeQ_other (fun hin => hc ⟨i, j, hi, hj, hin⟩)]
          exact hm c hc
        disj := by
          intro i j i' j' hi hi' hne
          exact mat_disj (r := M.toNat) (by have := h.hld; omega) hi hi' hne
        fitA := h.fitA
        fitX := h.fitX
        fitY := h.fitY }
      refine wp_mono (wp_cols (K := fun m' => ∀ c, ¬ MatCell A LDA M.toNat N.toNat c → m' c = m c)
        (c' := fun i j => pGer conjY ALPHA (x i) (y j) (a i j))
        (fun j => (j:Int) * INCY) (by simp) en.disj (fun _ _ => rfl) h.hA ?_) ?_
      · intro j m1 hj hU
        exact gerCol_bits en hz hj hU
      · rintro _ m1 ⟨h1, h2, _⟩
        rw [wp_pure]
        exact ⟨h1, h2⟩
  obtain ⟨_, m', h1, h2, h3⟩ := key
  exact ⟨m', h1, h2, h3⟩

end Haxx
