import Verif.Generic2Proofs
import Verif.PropsGeneric

/-!
# Property theorems: portable GEMV, GERU, GERC (C30, C31)
-/

set_option linter.unusedSectionVars false

namespace Haxx
open Arith Quaternion Finset

section
variable {R : Type} [CommRing R] [DecidableEq R]

/-- The arguments of the portable GEMV.  Both increments are positive (the code asserts it); every
index, including those one step past the last element of a vector, is a 32-bit number. -/
structure GemvKArgs (m : Mem R) (k : Kind) (t : Char) (M N : Int) (ALPHA : Scal R) (A LDA X INCX Y INCY : Int)
    (a : Nat → Nat → Scal R) (x y : Nat → Quat R) : Prop where
  incX : 0 < INCX
  incY : 0 < INCY
  hY : VecAt m Y INCY (gemvLenY t M N).toNat y
  hA : ALPHA.toH ≠ 0 → KMatAt m k A LDA M.toNat N.toNat a
  hX : ALPHA.toH ≠ 0 → VecAt m X INCX (gemvLenX t M N).toNat x
  hAY : Apart (KMatCell k A LDA M.toNat N.toNat) (VecCell Y INCY (gemvLenY t M N).toNat)
  hXY : Apart (VecCell X INCX (gemvLenX t M N).toNat) (VecCell Y INCY (gemvLenY t M N).toNat)
  fitA : ∀ i j : Nat, i < M.toNat → j < N.toNat → Fits32 (j * LDA) ∧ Fits32 (i + j * LDA)
  fitX : ∀ i : Nat, i ≤ (gemvLenX t M N).toNat → Fits32 (i * INCX)
  fitY : ∀ i : Nat, i ≤ (gemvLenY t M N).toNat → Fits32 (i * INCY)

/-- C30 for the portable template: `y := ALPHA*op(A)*x + BETA*y`, nothing else changes, for A (of real,
complex or quaternion elements), ALPHA and BETA of every type — none of the exceptions of
`C30_gemv_partial`, but the tests `ALPHA == 0`, `BETA == 0` and `BETA == 1` must be accurate (`Plain`). -/
theorem C30_gemv_portable (m : Mem R) (k : Kind) (t : Char) (M N : Int) (ALPHA : Scal R) (A LDA X INCX : Int)
    (BETA : Scal R) (Y INCY : Int) (a : Nat → Nat → Scal R) (x y : Nat → Quat R) (op : Nat → Nat → ℍ[R])
    (hM : M ≠ 0) (hN : N ≠ 0) (h : GemvKArgs m k t M N ALPHA A LDA X INCX Y INCY a x y)
    (hop : KOpIs t a op) (ha : ALPHA.Plain) (hb : BETA.Plain) :
    IsGemv (gemvGen k t M N ALPHA A LDA X INCX BETA Y INCY) m t M N ALPHA BETA Y INCY op x y := by
  have hv : vecStart Y (gemvLenY t M N) INCY = Y := by
    have := h.incY
    unfold vecStart; rw [if_neg (by omega)]
  unfold IsGemv
  rw [hv]
  set Kp : Mem R → Prop := fun m' => ∀ c, ¬ VecCell Y INCY (gemvLenY t M N).toNat c → m' c = m c with hKp
  have st : VStK Kp Y INCY (gemvLenY t M N).toNat := {
    stable := by
      intro m' i q hi hm c hc
      rw [writeQ_other (fun hin => hc ⟨i, hi, hin⟩)]
      exact hm c hc
    disj := fun i j _ _ hne => strided_disj (by have := h.incY; omega) hne
    fitY := h.fitY }
  have hU : Upd Kp (fun i => Y + 4 * ((i:Int) * INCY)) (gemvLenY t M N).toNat m y m :=
    ⟨h.hY, fun _ _ => rfl, fun _ _ => rfl⟩
  have key : wp (gemvGen k t M N ALPHA A LDA X INCX BETA Y INCY) m (fun _ m' =>
      Upd Kp (fun i => Y + 4 * ((i:Int) * INCY)) (gemvLenY t M N).toNat m (fun i => Quat.ofH
        (ALPHA.toH * (∑ k ∈ range (gemvLenX t M N).toNat, op i k * (x k).toH) + BETA.toH * (y i).toH)) m') := by
    unfold gemvGen
    split
    · rename_i e
      simp only [Bool.or_eq_true, Bool.and_eq_true, decide_eq_true_eq] at e
      rcases e with (e | e) | ⟨e, e1⟩
      · omega
      · omega
      · rw [wp_pure, hb.one e1, ha.zero e]
        simpa using hU
    · have i1 : decide (INCX > 0) = true := by simpa using h.incX
      have i2 : decide (INCY > 0) = true := by simpa using h.incY
      have eL : (if t ≠ 'N' then N else M) = gemvLenY t M N := by
        unfold gemvLenY IsN
        rcases hop with ⟨rfl, _⟩ | ⟨rfl, _⟩ | ⟨rfl, _⟩ <;> simp
      rw [wp_bind, wp_assert i1, wp_bind, wp_assert i2]
      dsimp only
      rw [eL, wp_bind]
      refine wp_mono (gemvScale_wp hb.zero hb.one st hU) ?_
      intro _ m1 hU1
      split
      · rename_i e
        rw [wp_pure, ha.zero e]
        simpa using hU1
      · rename_i e
        have h0 : ALPHA.toH ≠ 0 := fun e' => e (eqZero_of_toH e')
        have en : GkEnv Kp k A LDA M.toNat N.toNat a X INCX (gemvLenX t M N).toNat x := {
          rdA := by
            intro m' hm i j hi hj
            rw [readK_congr (m' := m)]
            · exact h.hA h0 i j hi hj
            · intro c h1 h2; exact hm c (h.hAY c ⟨i, j, hi, hj, h1, h2⟩)
          rdX := by
            intro m' hm i hi
            rw [readQ_congr (m' := m)]
            · exact h.hX h0 i hi
            · intro c hc; exact hm c (h.hXY c ⟨i, hi, hc⟩)
          fitA := h.fitA
          fitX := h.fitX }
        have tr : ∀ {noconj : Bool}, (t = 'T' ∨ t = 'C') → (∀ i j, op j i = if noconj then (a i j).toH else star (a i j).toH) →
            wp (do let _ ← foldN N.toNat (fun j jy => gemvColT k noconj M ALPHA A LDA X INCX Y INCY j jy) 0; pure ()) m1 (fun _ m' =>
              Upd Kp (fun i => Y + 4 * ((i:Int) * INCY)) (gemvLenY t M N).toNat m (fun i => Quat.ofH
                (ALPHA.toH * (∑ k ∈ range (gemvLenX t M N).toNat, op i k * (x k).toH) + BETA.toH * (y i).toH)) m') := by
          intro noconj ht eo
          have e1 : gemvLenX t M N = M := by unfold gemvLenX IsN; rcases ht with rfl | rfl <;> simp
          have e2 : gemvLenY t M N = N := by unfold gemvLenY IsN; rcases ht with rfl | rfl <;> simp
          rw [e1] at en
          rw [e2] at st hU1
          rw [e1, e2, wp_bind]
          refine wp_mono (wp_pass (c' := fun i => Quat.ofH
                (ALPHA.toH * (∑ k ∈ range M.toNat, op i k * (x k).toH) + BETA.toH * (y i).toH))
                (fun j => (j:Int) * INCY) (by simp) st.disj st.stable hU1 ?_) ?_
          · intro j m2 hj hk hy
            refine wp_mono (gemvColT_wp en st hj hk hy) ?_
            rintro s m3 ⟨hs, rfl⟩
            refine ⟨hs, ?_⟩
            rw [toH_ofH, add_comm (BETA.toH * _)]
            simp only [eo]
          · intro _ m2 h2; rw [wp_pure]; exact h2.2
        rcases hop with ⟨rfl, eo⟩ | ⟨rfl, eo⟩ | ⟨rfl, eo⟩
        · rw [if_pos rfl, wp_bind]
          have e1 : gemvLenX 'N' M N = N := by unfold gemvLenX IsN; simp
          have e2 : gemvLenY 'N' M N = M := by unfold gemvLenY IsN; simp
          rw [e1] at en
          rw [e2] at st hU1
          rw [e1, e2]
          refine wp_mono (wp_accPassS (fun j => (j:Int) * INCX) (by simp)
            (fun j i => ALPHA.toH * ((a i j).toH * (x j).toH)) hU1 ?_) ?_
          · intro j m2 c hj hU2
            exact gemvColN_wp en st hj hU2
          · intro _ m2 h2
            rw [wp_pure]
            have e : ∀ i, Quat.ofH ((Quat.ofH (BETA.toH * (y i).toH)).toH + ∑ l ∈ range N.toNat, ALPHA.toH * ((a i l).toH * (x l).toH)) =
                Quat.ofH (ALPHA.toH * (∑ k ∈ range N.toNat, op i k * (x k).toH) + BETA.toH * (y i).toH) := by
              intro i
              rw [toH_ofH, ← mul_sum, add_comm]
              simp only [eo]
            simp only [e] at h2
            exact h2
        · rw [if_neg (by decide)]
          exact tr (noconj := true) (.inl rfl) (fun i j => by simp [eo])
        · rw [if_neg (by decide)]
          exact tr (noconj := false) (.inr rfl) (fun i j => by simp [eo])
  obtain ⟨_, m', h1, h2⟩ := key
  exact ⟨m', h1, h2.cur, h2.k⟩

/-- C30.  The portable instantiation that is in the library (real A, ALPHA and BETA): no exceptions. -/
theorem C30_gemv_real (m : Mem R) (t : Char) (M N : Int) (alpha : R) (A LDA X INCX : Int)
    (beta : R) (Y INCY : Int) (a : Nat → Nat → R) (x y : Nat → Quat R) (op : Nat → Nat → R)
    (hM : M ≠ 0) (hN : N ≠ 0) (h : GemvKArgs m .d t M N (.d alpha) A LDA X INCX Y INCY (fun i j => .d (a i j)) x y)
    (hop : ROpIs t a op) :
    IsGemv (gemvGen .d t M N (.d alpha) A LDA X INCX (.d beta) Y INCY) m t M N (.d alpha) (.d beta) Y INCY
      (fun i j => (Scal.d (op i j)).toH) x y := by
  have e' : ∀ (r : R), star (Scal.d r).toH = (Scal.d r).toH := by
    intro r; ext <;> simp [Scal.toH]
  refine C30_gemv_portable m .d t M N _ A LDA X INCX _ Y INCY _ x y _ hM hN h ?_ (Scal.plain_d _) (Scal.plain_d _)
  rcases hop with ⟨rfl, h0⟩ | ⟨rfl | rfl, h0⟩
  · exact Or.inl ⟨rfl, fun i k => by simp only [h0]⟩
  · exact Or.inr (Or.inl ⟨rfl, fun i k => by simp only [h0]⟩)
  · exact Or.inr (Or.inr ⟨rfl, fun i k => by simp only [h0, e']⟩)

/-- The portable GEMV stops the program at a failed assertion for an increment that is not positive
(the Fortran routines accept negative increments). -/
theorem C30_portable_increment (m : Mem R) (k : Kind) (t : Char) (M N : Int) (ALPHA : Scal R) (A LDA X INCX : Int)
    (BETA : Scal R) (Y INCY : Int) (hM : M ≠ 0) (hN : N ≠ 0) (ha : ALPHA.eqZero = false) (h : INCX ≤ 0 ∨ INCY ≤ 0) :
    gemvGen k t M N ALPHA A LDA X INCX BETA Y INCY m = .error .assertFail := by
  unfold gemvGen
  rw [if_neg (by simp [hM, hN, ha])]
  by_cases hx : INCX ≤ 0
  · have : decide (INCX > 0) = false := by simpa using hx
    rw [this]; rfl
  · have h1 : decide (INCX > 0) = true := by simp; omega
    have h2 : decide (INCY > 0) = false := by simp; omega
    rw [h1, h2]; rfl

/-- The arguments of the portable GERU and GERC. -/
structure GerKArgs (m : Mem R) (M N X INCX Y INCY A LDA : Int) (x y : Nat → Quat R) (a : Nat → Nat → Quat R) : Prop where
  incX : 0 < INCX
  incY : 0 < INCY
  hA : MatAt m A LDA M.toNat N.toNat a
  hX : VecAt m X INCX M.toNat x
  hY : VecAt m Y INCY N.toNat y
  hld : M ≤ LDA
  hXA : Apart (VecCell X INCX M.toNat) (MatCell A LDA M.toNat N.toNat)
  hYA : Apart (VecCell Y INCY N.toNat) (MatCell A LDA M.toNat N.toNat)
  fitA : ∀ i j : Nat, i < M.toNat → j < N.toNat → Fits32 (j * LDA) ∧ Fits32 (i + j * LDA)
  fitX : ∀ i : Nat, i ≤ M.toNat → Fits32 (i * INCX)
  fitY : ∀ j : Nat, j ≤ N.toNat → Fits32 (j * INCY)

/-- `q` is `ck` with `c ≠ 0`. -/
def Quat.PureK (q : Quat R) : Prop := q.re = 0 ∧ q.i = 0 ∧ q.j = 0 ∧ q.k ≠ 0

theorem gerGen_spec (conjY : Bool) (m : Mem R) (M N : Int) (ALPHA : Scal R) (X INCX Y INCY A LDA : Int)
    (x y : Nat → Quat R) (a : Nat → Nat → Quat R) (h : GerKArgs m M N X INCX Y INCY A LDA x y a)
    (ha : ALPHA.Plain) (hy : ∀ j, j < N.toNat → ¬ (y j).PureK) :
    ∃ m', gerGen conjY M N ALPHA X INCX Y INCY A LDA m = .ok ((), m') ∧
      MatAt m' A LDA M.toNat N.toNat
        (fun i j => Quat.ofH ((a i j).toH + ALPHA.toH * (x i).toH * (if conjY then star (y j).toH else (y j).toH))) ∧
      SameOutside (MatCell A LDA M.toNat N.toNat) m m' := by
  have key : wp (gerGen conjY M N ALPHA X INCX Y INCY A LDA) m (fun _ m' =>
      (∀ i j : Nat, i < M.toNat → j < N.toNat → readQ m' (A + 4 * ((i:Int) + j * LDA)) =
        some (Quat.ofH ((a i j).toH + ALPHA.toH * (x i).toH * (if conjY then star (y j).toH else (y j).toH)))) ∧
      ∀ c, ¬ MatCell A LDA M.toNat N.toNat c → m' c = m c) := by
    unfold gerGen
    split
    · rename_i e
      rw [wp_pure]
      refine ⟨?_, fun _ _ => rfl⟩
      intro i j hi hj
      simp only [Bool.or_eq_true, decide_eq_true_eq] at e
      rcases e with (e | e) | e
      · omega
      · omega
      · rw [ha.zero e, h.hA i j hi hj]; simp
    · have i1 : decide (INCX > 0) = true := by simpa using h.incX
      have i2 : decide (INCY > 0) = true := by simpa using h.incY
      rw [wp_bind, wp_assert i1, wp_bind, wp_assert i2, wp_bind]
      have en : GerK (fun m' => ∀ c, ¬ MatCell A LDA M.toNat N.toNat c → m' c = m c) X INCX M.toNat x Y INCY N.toNat y A LDA := {
        rdX := by
          intro m' hm i hi
          rw [readQ_congr (m' := m)]
          · exact h.hX i hi
          · intro c hc; exact hm c (h.hXA c ⟨i, hi, hc⟩)
        rdY := by
          intro m' hm i hi
          rw [readQ_congr (m' := m)]
          · exact h.hY i hi
          · intro c hc; exact hm c (h.hYA c ⟨i, hi, hc⟩)
        stable := by
          intro m' i j q hi hj hm c hc
          rw [writeQ_other (fun hin => hc ⟨i, j, hi, hj, hin⟩)]
          exact hm c hc
        disj := by
          intro i j i' j' hi hi' hne
          exact mat_disj (r := M.toNat) (by have := h.hld; omega) hi hi' hne
        fitA := h.fitA
        fitX := h.fitX
        fitY := h.fitY }
      refine wp_mono (wp_cols (K := fun m' => ∀ c, ¬ MatCell A LDA M.toNat N.toNat c → m' c = m c)
        (c' := fun i j => Quat.ofH ((a i j).toH + ALPHA.toH * (x i).toH * (if conjY then star (y j).toH else (y j).toH)))
        (fun j => (j:Int) * INCY) (by simp) en.disj (fun _ _ => rfl) h.hA ?_) ?_
      · intro j m1 hj hU
        refine gerCol_wp en hj ?_ hU
        intro e
        have := hy j hj
        simp only [Quat.neOp, Quat.eqOp, Quat.mkReal, ar_feq, ar_zero, Bool.not_eq_false', Bool.and_eq_true, decide_eq_true_eq] at e
        unfold Quat.PureK at this
        ext <;> simp_all
      · rintro _ m1 ⟨h1, h2, _⟩
        rw [wp_pure]
        exact ⟨h1, h2⟩
  obtain ⟨_, m', h1, h2, h3⟩ := key
  exact ⟨m', h1, h2, h3⟩

/-- C31 for the portable template (partial: no y_j may be `ck`, c ≠ 0 — see
`C31_portable_pure_k_violated` — and the test `ALPHA == 0` must be accurate). -/
theorem C31_geru_portable_partial (m : Mem R) (M N : Int) (ALPHA : Scal R) (X INCX Y INCY A LDA : Int)
    (x y : Nat → Quat R) (a : Nat → Nat → Quat R) (h : GerKArgs m M N X INCX Y INCY A LDA x y a)
    (ha : ALPHA.Plain) (hy : ∀ j, j < N.toNat → ¬ (y j).PureK) :
    IsGeru (gerGen false M N ALPHA X INCX Y INCY A LDA) m M N ALPHA A LDA x y a :=
  gerGen_spec false m M N ALPHA X INCX Y INCY A LDA x y a h ha hy

@[inherit_doc C31_geru_portable_partial]
theorem C31_gerc_portable_partial (m : Mem R) (M N : Int) (ALPHA : Scal R) (X INCX Y INCY A LDA : Int)
    (x y : Nat → Quat R) (a : Nat → Nat → Quat R) (h : GerKArgs m M N X INCX Y INCY A LDA x y a)
    (ha : ALPHA.Plain) (hy : ∀ j, j < N.toNat → ¬ (y j).PureK) :
    IsGerc (gerGen true M N ALPHA X INCX Y INCY A LDA) m M N ALPHA A LDA x y a :=
  gerGen_spec true m M N ALPHA X INCX Y INCY A LDA x y a h ha hy

/-- The portable GERU and GERC ignore every y_j of the form `ck`: the test `Y[JY] != 0` does not look at
the k component.  If all of y is of that form, nothing is added to A, whatever x and ALPHA are. -/
theorem C31_portable_pure_k_unchanged (conjY : Bool) (m : Mem R) (M N : Int) (ALPHA : Scal R) (X INCX Y INCY A LDA : Int)
    (x y : Nat → Quat R) (a : Nat → Nat → Quat R) (h : GerKArgs m M N X INCX Y INCY A LDA x y a)
    (hy : ∀ j, j < N.toNat → (y j).PureK) :
    gerGen conjY M N ALPHA X INCX Y INCY A LDA m = .ok ((), m) := by
  have key : wp (gerGen conjY M N ALPHA X INCX Y INCY A LDA) m (fun _ m' => m' = m) := by
    unfold gerGen
    split
    · rw [wp_pure]
    · have i1 : decide (INCX > 0) = true := by simpa using h.incX
      have i2 : decide (INCY > 0) = true := by simpa using h.incY
      rw [wp_bind, wp_assert i1, wp_bind, wp_assert i2, wp_bind]
      apply wp_acc (fun j (s : Int) => s = j * INCY) (by simp)
      · rintro j s hj rfl
        have e : Quat.neOp (y j) (Quat.mkReal zero) = false := by
          obtain ⟨h1, h2, h3, _⟩ := hy j hj
          simp [Quat.neOp, Quat.eqOp, Quat.mkReal, h1, h2, h3]
        unfold gerCol
        rw [wp_bind, wp_loadQ (h.hY j hj), e]
        simp only [Bool.false_eq_true, if_false]
        rw [wp_i32 (by rw [← cast_succ_mul]; exact h.fitY (j+1) hj)]
        exact ⟨rfl, (cast_succ_mul j INCY).symm⟩
      · intro s _; rw [wp_pure]
  obtain ⟨_, m', h1, rfl⟩ := key
  exact h1

/-- Hence the full statement of C31 is false of the portable GERU: as soon as some `ALPHA*x_i*y_j ≠ 0`. -/
theorem C31_portable_pure_k_violated (m : Mem R) (M N : Int) (ALPHA : Scal R) (X INCX Y INCY A LDA : Int)
    (x y : Nat → Quat R) (a : Nat → Nat → Quat R) (h : GerKArgs m M N X INCX Y INCY A LDA x y a)
    (hy : ∀ j, j < N.toNat → (y j).PureK) (i j : Nat) (hi : i < M.toNat) (hj : j < N.toNat)
    (hne : ALPHA.toH * (x i).toH * (y j).toH ≠ 0) :
    ¬ IsGeru (gerGen false M N ALPHA X INCX Y INCY A LDA) m M N ALPHA A LDA x y a := by
  rintro ⟨m', h1, h2, _⟩
  rw [C31_portable_pure_k_unchanged false m M N ALPHA X INCX Y INCY A LDA x y a h hy] at h1
  cases h1
  have e := h2 i j hi hj
  rw [h.hA i j hi hj] at e
  have e' := congrArg Quat.toH (Option.some.inj e)
  rw [toH_ofH] at e'
  exact hne (by simpa using e'.symm)

/-- A 2 × 3 example with strides. -/
theorem gerKArgs_example : GerKArgs (memOf 0 200 (fun a => a)) 2 3 60 2 90 1 0 4
    (fun i => let p : Int := 60 + 4 * ((i:Int) * 2); ⟨p, p+1, p+2, p+3⟩)
    (fun i => let p : Int := 90 + 4 * ((i:Int) * 1); ⟨p, p+1, p+2, p+3⟩)
    (fun i j => let p : Int := 0 + 4 * ((i:Int) + j * 4); ⟨p, p+1, p+2, p+3⟩) where
  incX := by decide
  incY := by decide
  hA := by
    intro i j hi hj
    have h1 : i < 2 := hi
    have h2 : j < 3 := hj
    exact readQ_memOf (by omega) (by omega)
  hX := by
    intro i hi
    have h1 : i < 2 := hi
    exact readQ_memOf (by omega) (by omega)
  hY := by
    intro i hi
    have h1 : i < 3 := hi
    exact readQ_memOf (by omega) (by omega)
  hld := by omega
  hXA := by
    rintro c ⟨i, hi, h⟩ ⟨i', j', hi', hj', h'⟩
    have h1 : i < 2 := hi
    have h2 : i' < 2 := hi'
    have h3 : j' < 3 := hj'
    unfold InQ at *; omega
  hYA := by
    rintro c ⟨i, hi, h⟩ ⟨i', j', hi', hj', h'⟩
    have h1 : i < 3 := hi
    have h2 : i' < 2 := hi'
    have h3 : j' < 3 := hj'
    unfold InQ at *; omega
  fitA := by intro i j hi hj; have h1 : i < 2 := hi; have h2 : j < 3 := hj; unfold Fits32; omega
  fitX := by intro i hi; have h1 : i ≤ 2 := hi; unfold Fits32; omega
  fitY := by intro i hi; have h1 : i ≤ 3 := hi; unfold Fits32; omega

example : ∃ x y a, IsGerc (gerGen (F := Int) true 2 3 (.h ⟨1, 2, 3, 4⟩) 60 2 90 1 0 4) (memOf 0 200 (fun a => a)) 2 3
    (.h ⟨1, 2, 3, 4⟩) 0 4 x y a :=
  ⟨_, _, _, C31_gerc_portable_partial _ 2 3 _ 60 2 90 1 0 4 _ _ _ gerKArgs_example
    (Scal.plain_h _ (.inr (.inl (by decide)))) (fun j _ h => by have := h.1; simp at this; omega)⟩

/-- A memory of pure-k quaternions: the violation is met. -/
example : GerKArgs (memOf 0 100 (fun a => if a % 4 = 3 then (1:Int) else 0)) 1 1 0 1 4 1 8 1
    (fun _ => ⟨0, 0, 0, 1⟩) (fun _ => ⟨0, 0, 0, 1⟩) (fun _ _ => ⟨0, 0, 0, 1⟩) where
  incX := by decide
  incY := by decide
  hA := by
    intro i j hi hj
    have h1 : i < 1 := hi
    have h2 : j < 1 := hj
    obtain rfl : i = 0 := by omega
    obtain rfl : j = 0 := by omega
    rfl
  hX := by intro i hi; have h1 : i < 1 := hi; obtain rfl : i = 0 := by omega
           rfl
  hY := by intro i hi; have h1 : i < 1 := hi; obtain rfl : i = 0 := by omega
           rfl
  hld := by omega
  hXA := by
    rintro c ⟨i, hi, h⟩ ⟨i', j', hi', hj', h'⟩
    have h1 : i < 1 := hi
    have h2 : i' < 1 := hi'
    have h3 : j' < 1 := hj'
    unfold InQ at *; omega
  hYA := by
    rintro c ⟨i, hi, h⟩ ⟨i', j', hi', hj', h'⟩
    have h1 : i < 1 := hi
    have h2 : i' < 1 := hi'
    have h3 : j' < 1 := hj'
    unfold InQ at *; omega
  fitA := by intro i j hi hj; have h1 : i < 1 := hi; have h2 : j < 1 := hj; unfold Fits32; omega
  fitX := by intro i hi; have h1 : i ≤ 1 := hi; unfold Fits32; omega
  fitY := by intro i hi; have h1 : i ≤ 1 := hi; unfold Fits32; omega

/-- A 2 × 3 real matrix, TRANS = 'T', strides 2 and 1. -/
theorem gemvKArgs_example : GemvKArgs (memOf 0 200 (fun a => a)) .d 'T' 2 3 (.d 5) 0 4 60 2 90 1
    (fun i j => .d ((0:Int) + 1 * ((i:Int) + j * 4)))
    (fun i => let p : Int := 60 + 4 * ((i:Int) * 2); ⟨p, p+1, p+2, p+3⟩)
    (fun i => let p : Int := 90 + 4 * ((i:Int) * 1); ⟨p, p+1, p+2, p+3⟩) where
  incX := by decide
  incY := by decide
  hA := by
    intro _ i j hi hj
    have h1 : i < 2 := hi
    have h2 : j < 3 := hj
    have : memOf 0 200 (fun a => a) (0 + 1 * ((i:Int) + j * 4)) = some (0 + 1 * ((i:Int) + j * 4)) :=
      if_pos ⟨by omega, by omega⟩
    simp only [readK, Kind.width, this]
  hX := by
    intro _ i hi
    have h1 : i < 2 := by simpa [gemvLenX, IsN] using hi
    exact readQ_memOf (by omega) (by omega)
  hY := by
    intro i hi
    have h1 : i < 3 := by simpa [gemvLenY, IsN] using hi
    exact readQ_memOf (by omega) (by omega)
  hAY := by
    rintro c ⟨i, j, hi, hj, h⟩ ⟨i', hi', h'⟩
    have h1 : i < 2 := hi
    have h2 : j < 3 := hj
    have h3 : i' < 3 := by simpa [gemvLenY, IsN] using hi'
    simp only [Kind.width] at h
    unfold InQ at *; omega
  hXY := by
    rintro c ⟨i, hi, h⟩ ⟨i', hi', h'⟩
    have h1 : i < 2 := by simpa [gemvLenX, IsN] using hi
    have h3 : i' < 3 := by simpa [gemvLenY, IsN] using hi'
    unfold InQ at *; omega
  fitA := by intro i j hi hj; have h1 : i < 2 := hi; have h2 : j < 3 := hj; unfold Fits32; omega
  fitX := by intro i hi; have h1 : i ≤ 2 := by simpa [gemvLenX, IsN] using hi
             unfold Fits32; omega
  fitY := by intro i hi; have h1 : i ≤ 3 := by simpa [gemvLenY, IsN] using hi
             unfold Fits32; omega

example : ∃ op x y, IsGemv (gemvGen (F := Int) .d 'T' 2 3 (.d 5) 0 4 60 2 (.d 7) 90 1) (memOf 0 200 (fun a => a)) 'T' 2 3
    (.d 5) (.d 7) 90 1 op x y :=
  ⟨_, _, _, C30_gemv_real _ 'T' 2 3 5 0 4 60 2 7 90 1 _ _ _ _ (by decide) (by decide) gemvKArgs_example
    (.inr ⟨.inl rfl, fun _ _ => rfl⟩)⟩

end
end Haxx
