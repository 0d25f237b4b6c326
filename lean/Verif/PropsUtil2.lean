import Verif.PropsUtil
import Verif.FGemmLemmas

/-!
# Property theorems: real expansion, contraction, ORDER, character options, rounding (C33-C37)
-/

namespace Haxx
open Quaternion Matrix

/-! ## C33: real expansion -/

section
variable {R : Type} [CommRing R] [DecidableEq R]

theorem rblk_eq (q : ℍ[R]) (a b : Fin 4) : rblkN (Quat.ofH q) a b = rRep q a b := by
  fin_cases a <;> fin_cases b <;> simp [rblkN, rRep, Quat.ofH]

omit [CommRing R] [DecidableEq R] in
theorem dT_block {B LDB : Int} {M N : Nat} {i j k : Nat} (hi : i < M) (hj : j < N) (hk : k < 16) :
    BlockCell 1 B LDB (4 * M) (4 * N) (dT B LDB (row4 i) (row4 j) k) := by
  refine ⟨4 * i + k/4, 4 * j + k%4, by omega, by omega, ?_, ?_⟩ <;> unfold dT row4 <;> push_cast <;> omega

/-- C33. Expanding a quaternion matrix `X` stores `rExpand X` (each entry as the 4×4 matrix of right multiplication by it on
row vectors of components), changes nothing outside the `4M × 4N` block, and leaves `A` alone. -/
theorem C33_real_expand (m : Mem R) (M N A LDA B LDB : Int) (X : Matrix (Fin M.toNat) (Fin N.toNat) ℍ[R]) (hA : HMatAt m A LDA X)
    (hp : ExpandPre m 4 1 M N A LDA B LDB) :
    ∃ m', HBLAS_REAL_EXPAND M N A LDA B LDB m = .ok ((), m') ∧ RExpAt m' B LDB (rExpand X) ∧
      SameOutside (BlockCell 1 B LDB (4 * M.toNat) (4 * N.toNat)) m m' := by
  have hpre : DPre m A LDA B LDB M.toNat N.toNat (ofMat X) := {
    ld := hp.ld
    src := matAt_of_hmat hA
    acc := fun i j k hi hj hk => hp.acc _ (dT_block hi hj hk)
    apart := fun i j i' j' k hi hj hi' hj' hk hin => hp.apart _ ⟨i', j', hi', hj', hin⟩ (dT_block hi hj hk) }
  obtain ⟨_, m', h1, h2⟩ := hdexp_wp hpre
  refine ⟨m', h1, ?_, ?_⟩
  · rintro ⟨i, a⟩ ⟨j, b⟩
    have h := h2.put (j, i, 4 * a + b) ⟨j.2, i.2, by dsimp only; omega⟩
    simp only [dT, row4, dV, show (4 * (a:Nat) + b) / 4 = a by omega, show (4 * (a:Nat) + b) % 4 = b by omega] at h
    rw [ofMat_fin, rblk_eq] at h
    exact h
  · intro a ha
    apply h2.out
    rintro ⟨j, i, k⟩ ⟨hj, hi, hk⟩ rfl
    exact ha (dT_block hi hj hk)

omit [DecidableEq R] in
/-- C33. Expansion turns matrix products into matrix products. -/
theorem C33_expand_mul {M K N : Nat} (X : Matrix (Fin M) (Fin K) ℍ[R]) (Y : Matrix (Fin K) (Fin N) ℍ[R]) :
    rExpand (X * Y) = rExpand X * rExpand Y := by
  ext ⟨i, a⟩ ⟨j, b⟩
  rw [Matrix.mul_apply, Fintype.sum_prod_type]
  have : ∀ (s : Finset (Fin K)) (f : Fin K → ℍ[R]), rRep (∑ k ∈ s, f k) = ∑ k ∈ s, rRep (f k) := by
    intro s f
    induction s using Finset.cons_induction with
    | empty => simpa using rRep_zero
    | cons k s hk ih => rw [Finset.sum_cons, Finset.sum_cons, rRep_add, ih]
  change rRep ((X * Y) i j) a b = _
  rw [Matrix.mul_apply, this, Matrix.sum_apply]
  refine Finset.sum_congr rfl (fun k _ => ?_)
  rw [rRep_mul, Matrix.mul_apply]
  rfl

omit [DecidableEq R] in
/-- C33. Sums to sums, conjugate transposes to transposes, the identity to the identity. -/
theorem C33_expand_algebra {M N : Nat} (X Y : Matrix (Fin M) (Fin N) ℍ[R]) :
    rExpand (X + Y) = rExpand X + rExpand Y ∧ rExpand Xᴴ = (rExpand X)ᵀ ∧
      rExpand (1 : Matrix (Fin M) (Fin M) ℍ[R]) = 1 := by
  refine ⟨?_, ?_, ?_⟩
  · ext ⟨i, a⟩ ⟨j, b⟩
    change rRep (X i j + Y i j) a b = _
    rw [rRep_add]; rfl
  · ext ⟨i, a⟩ ⟨j, b⟩
    change rRep (star (X j i)) a b = _
    rw [rRep_star]; rfl
  · ext ⟨i, a⟩ ⟨j, b⟩
    change rRep ((1 : Matrix (Fin M) (Fin M) ℍ[R]) i j) a b = _
    by_cases h : i = j
    · subst h
      rw [Matrix.one_apply_eq, rRep_one]
      by_cases hab : a = b
      · subst hab; simp
      · rw [Matrix.one_apply_ne hab, Matrix.one_apply_ne (fun e => hab (Prod.ext_iff.mp e).2)]
    · rw [Matrix.one_apply_ne h, rRep_zero, Matrix.one_apply_ne (fun e => h (Prod.ext_iff.mp e).1)]; rfl

omit [DecidableEq R] in
/-- C33. Expansion is injective. -/
theorem C33_expand_injective {M N : Nat} (X Y : Matrix (Fin M) (Fin N) ℍ[R]) (h : rExpand X = rExpand Y) : X = Y := by
  ext1 i j
  apply rRep_inj
  ext a b
  exact congrFun (congrFun h (i, a)) (j, b)

omit [CommRing R] [DecidableEq R] in
theorem rExpAt_unique {m : Mem R} {B ld : Int} {M N : Nat} {E E' : Matrix (Fin M × Fin 4) (Fin N × Fin 4) R}
    (h : RExpAt m B ld E) (h' : RExpAt m B ld E') : E = E' := by
  ext p q
  have h1 := h p q
  rw [h' p q] at h1
  exact (Option.some.inj h1).symm

/-- C33, observed through the API: whatever real matrices three successful expansions of `X`, `Y` and `X Y` leave in memory, the
third is the product of the first two. -/
theorem C33_expand_runs_mul (M K N : Int) (X : Matrix (Fin M.toNat) (Fin K.toNat) ℍ[R]) (Y : Matrix (Fin K.toNat) (Fin N.toNat) ℍ[R])
    (m1 m2 m3 m1' m2' m3' : Mem R) (A1 L1 B1 D1 A2 L2 B2 D2 A3 L3 B3 D3 : Int)
    (hA1 : HMatAt m1 A1 L1 X) (hA2 : HMatAt m2 A2 L2 Y) (hA3 : HMatAt m3 A3 L3 (X * Y))
    (p1 : ExpandPre m1 4 1 M K A1 L1 B1 D1) (p2 : ExpandPre m2 4 1 K N A2 L2 B2 D2) (p3 : ExpandPre m3 4 1 M N A3 L3 B3 D3)
    (r1 : HBLAS_REAL_EXPAND M K A1 L1 B1 D1 m1 = .ok ((), m1'))
    (r2 : HBLAS_REAL_EXPAND K N A2 L2 B2 D2 m2 = .ok ((), m2'))
    (r3 : HBLAS_REAL_EXPAND M N A3 L3 B3 D3 m3 = .ok ((), m3'))
    (E1 : Matrix (Fin M.toNat × Fin 4) (Fin K.toNat × Fin 4) R) (E2 : Matrix (Fin K.toNat × Fin 4) (Fin N.toNat × Fin 4) R)
    (E3 : Matrix (Fin M.toNat × Fin 4) (Fin N.toNat × Fin 4) R)
    (h1 : RExpAt m1' B1 D1 E1) (h2 : RExpAt m2' B2 D2 E2) (h3 : RExpAt m3' B3 D3 E3) : E3 = E1 * E2 := by
  obtain ⟨x1, e1, c1, _⟩ := C33_real_expand m1 M K A1 L1 B1 D1 X hA1 p1
  obtain ⟨x2, e2, c2, _⟩ := C33_real_expand m2 K N A2 L2 B2 D2 Y hA2 p2
  obtain ⟨x3, e3, c3, _⟩ := C33_real_expand m3 M N A3 L3 B3 D3 (X * Y) hA3 p3
  rw [r1] at e1; cases e1
  rw [r2] at e2; cases e2
  rw [r3] at e3; cases e3
  rw [rExpAt_unique h1 c1, rExpAt_unique h2 c2, rExpAt_unique h3 c3, C33_expand_mul]

end

/-! ## C34: contraction inverts expansion -/

section
variable {F : Type} [Arith F] [ArithEq F]

theorem contract_wp {m : Mem F} {ORDER UPLO : Char} (ho : ORDER = 'F' ∨ ORDER = 'S') {M N A LDA B LDB : Int}
    {z : Nat → Nat → Nat → Nat → Cplx F}
    (hp : CPre m (lsame UPLO 'U') A LDA B LDB (rowOf ORDER M.toNat) (rowOf ORDER N.toNat) M.toNat N.toNat z) :
    wp (HBLAS_COMPLEX_CONTRACT ORDER UPLO M N A LDA B LDB) m (fun _ m' =>
      MatAt m' A LDA M.toNat N.toNat (fun i j => conQ (lsame UPLO 'U') (z i j 0 0) (z i j 0 1) (z i j 1 0)) ∧
      SameOutside (MatCell A LDA M.toNat N.toNat) m m') := by
  unfold HBLAS_COMPLEX_CONTRACT
  rcases ho with rfl | rfl
  · rw [wp_bind, wp_assert (by decide), if_pos (by decide)]; exact hzcon1_wp hp
  · rw [wp_bind, wp_assert (by decide), if_neg (by decide)]; exact hzcon2_wp hp

theorem lsame_U {c : Char} (h : c = 'U' ∨ c = 'u') : lsame c 'U' = true := by
  rcases h with rfl | rfl <;> decide

/-- C34. What contraction computes: each entry of `A` is `B(row 0, col 0) + B(row 0, col 1) j` of its block for UPLO = 'U' (or 'u'), and
`B(row 0, col 0) - conj B(row 1, col 0) j` otherwise. Only those entries of `B` need be accessible; nothing but `A` changes. -/
theorem C34_contract_entries (m : Mem F) (ORDER UPLO : Char) (ho : ORDER = 'F' ∨ ORDER = 'S') (M N A LDA B LDB : Int)
    (z : Nat → Nat → Nat → Nat → Cplx F) (hA : ∃ q, MatAt m A LDA M.toNat N.toNat q) (hld : (M.toNat:Int) ≤ LDA)
    (hz : ∀ (i : Fin M.toNat) (j : Fin N.toNat) (a b : Fin 2), (a = 0 ∧ b = 0) ∨ (a = 0 ∧ b = 1 ∧ (UPLO = 'U' ∨ UPLO = 'u')) ∨
        (a = 1 ∧ b = 0 ∧ ¬ (UPLO = 'U' ∨ UPLO = 'u')) →
      let p := B + 2 * (expIdx ORDER M.toNat (i, a) + LDB * expIdx ORDER N.toNat (j, b))
      m p = some (z i j a b).re ∧ m (p+1) = some (z i j a b).im ∧
        ¬ MatCell A LDA M.toNat N.toNat p ∧ ¬ MatCell A LDA M.toNat N.toNat (p+1)) :
    ∃ m', HBLAS_COMPLEX_CONTRACT ORDER UPLO M N A LDA B LDB m = .ok ((), m') ∧
      (∀ i j, i < M.toNat → j < N.toNat → readQ m' (A + 4 * (i + j * LDA)) = some
        (if UPLO = 'U' ∨ UPLO = 'u' then ⟨(z i j 0 0).re, (z i j 0 0).im, (z i j 0 1).re, (z i j 0 1).im⟩
         else ⟨(z i j 0 0).re, (z i j 0 0).im, Arith.neg (z i j 1 0).re, Arith.neg (Arith.neg (z i j 1 0).im)⟩)) ∧
      SameOutside (MatCell A LDA M.toNat N.toNat) m m' := by
  have hU : lsame UPLO 'U' = decide (UPLO = 'U' ∨ UPLO = 'u') := by
    rw [lsame_upper (by decide)]
    have : (UPLO.toNat = 'U'.toNat + 32) ↔ UPLO = 'u' := by
      rw [show 'U'.toNat + 32 = 'u'.toNat from rfl]; exact Char.toNat_inj
    simp only [this]
  obtain ⟨_, m', h1, h2, h3⟩ := contract_wp (m := m) (ORDER := ORDER) (UPLO := UPLO) (M := M) (N := N) (A := A) (LDA := LDA) (B := B) (LDB := LDB) (z := z) ho
    { ld := hld
      dst := hA
      src := by
        intro i j a b hi hj hab
        have := hz ⟨i, hi⟩ ⟨j, hj⟩ ⟨a, by omega⟩ ⟨b, by omega⟩ (by
          rw [hU] at hab
          rcases hab with ⟨rfl, rfl⟩ | ⟨rfl, rfl, h⟩ | ⟨rfl, rfl, h⟩
          · exact Or.inl ⟨rfl, rfl⟩
          · exact Or.inr (Or.inl ⟨rfl, rfl, by simpa using h⟩)
          · exact Or.inr (Or.inr ⟨rfl, rfl, by simpa using h⟩))
        dsimp only at this
        rw [← rowOf_exp ORDER M.toNat (⟨i, hi⟩, ⟨a, by omega⟩), ← rowOf_exp ORDER N.toNat (⟨j, hj⟩, ⟨b, by omega⟩)] at this
        refine ⟨⟨this.1, this.2.1⟩, fun i' j' hi' hj' => ⟨fun h => this.2.2.1 ⟨i', j', hi', hj', h⟩, fun h => this.2.2.2 ⟨i', j', hi', hj', h⟩⟩⟩ }
  refine ⟨m', h1, ?_, h3⟩
  intro i j hi hj
  rw [h2 i j hi hj, hU]
  unfold conQ
  by_cases h : UPLO = 'U' ∨ UPLO = 'u'
  · simp [h]
  · simp [h, Cplx.neg, Cplx.conj]

/-- C34. Contracting an expansion gives back the matrix that was expanded, into the same or another array, for both orders and every
UPLO. With UPLO = 'U' this holds for the bits of any payload; otherwise it only needs a double sign flip to be harmless. -/
theorem C34_contract_expand (m : Mem F) (ORDER UPLO : Char) (ho : ORDER = 'F' ∨ ORDER = 'S') (M N A LDA B LDB A2 LDA2 : Int)
    (Av : Nat → Nat → Quat F) (hA : MatAt m A LDA M.toNat N.toNat Av) (hp : ExpandPre m 2 2 M N A LDA B LDB)
    (hld2 : (M.toNat : Int) ≤ LDA2) (hA2 : Accessible (MatCell A2 LDA2 M.toNat N.toNat) m)
    (hapart2 : Apart (MatCell A2 LDA2 M.toNat N.toNat) (BlockCell 2 B LDB (2 * M.toNat) (2 * N.toNat)))
    (hneg : (UPLO = 'U' ∨ UPLO = 'u') ∨ ∀ x : F, Arith.neg (Arith.neg x) = x) :
    ∃ m1 m2, HBLAS_COMPLEX_EXPAND ORDER M N A LDA B LDB m = .ok ((), m1) ∧
      HBLAS_COMPLEX_CONTRACT ORDER UPLO M N A2 LDA2 B LDB m1 = .ok ((), m2) ∧
      MatAt m2 A2 LDA2 M.toNat N.toNat Av ∧ SameOutside (MatCell A2 LDA2 M.toNat N.toNat) m1 m2 := by
  obtain ⟨m1, h1, h2, h3, _⟩ := C32_complex_expand_entries m ORDER ho M N A LDA B LDB Av hA hp
  have hblk : ∀ (i : Fin M.toNat) (j : Fin N.toNat) (a b : Fin 2),
      BlockCell 2 B LDB (2 * M.toNat) (2 * N.toNat) (B + 2 * (expIdx ORDER M.toNat (i, a) + LDB * expIdx ORDER N.toNat (j, b))) ∧
      BlockCell 2 B LDB (2 * M.toNat) (2 * N.toNat) (B + 2 * (expIdx ORDER M.toNat (i, a) + LDB * expIdx ORDER N.toNat (j, b)) + 1) := by
    intro i j a b
    rw [← rowOf_exp ORDER M.toNat (i, a), ← rowOf_exp ORDER N.toNat (j, b)]
    have hr := rowOf_lay ORDER M.toNat
    have hc := rowOf_lay ORDER N.toNat
    have q1 := hr.lo i a i.2 a.2
    have q2 := hr.hi i a i.2 a.2
    have q3 := hc.lo j b j.2 b.2
    have q4 := hc.hi j b j.2 b.2
    dsimp only
    constructor <;> refine ⟨(rowOf ORDER M.toNat i a).toNat, (rowOf ORDER N.toNat j b).toNat, by omega, by omega, ?_⟩ <;>
      rw [Int.toNat_of_nonneg q1, Int.toNat_of_nonneg q3] <;> constructor <;> omega
  have hacc : ∃ q, MatAt m1 A2 LDA2 M.toNat N.toNat q := by
    have : ∀ i j, ∃ q, i < M.toNat → j < N.toNat → readQ m1 (A2 + 4 * (i + j * LDA2)) = some q := by
      intro i j
      by_cases h : i < M.toNat ∧ j < N.toNat
      · obtain ⟨q, hq⟩ := readQ_of_isSome (m := m1) (p := A2 + 4 * (i + j * LDA2)) (by
          intro a ha
          have hc : MatCell A2 LDA2 M.toNat N.toNat a := ⟨i, j, h.1, h.2, ha⟩
          rw [h3 a (hapart2 a hc)]
          exact hA2 a hc)
        exact ⟨q, fun _ _ => hq⟩
      · exact ⟨⟨Arith.zero, Arith.zero, Arith.zero, Arith.zero⟩, fun h' h'' => absurd ⟨h', h''⟩ h⟩
    choose q hq using this
    exact ⟨q, fun i j hi hj => hq i j hi hj⟩
  obtain ⟨m2, g1, g2, g3⟩ := C34_contract_entries m1 ORDER UPLO ho M N A2 LDA2 B LDB
    (fun i j a b => cblkN (Av i j) a b) hacc hld2 (by
      intro i j a b _ p
      have e := h2 i j a b
      dsimp only at e
      refine ⟨?_, ?_, fun h => hapart2 _ h (hblk i j a b).1, fun h => hapart2 _ h (hblk i j a b).2⟩
      · rw [show m1 p = _ from e.1]
        fin_cases a <;> fin_cases b <;> rfl
      · rw [show m1 (p+1) = _ from e.2]
        fin_cases a <;> fin_cases b <;> rfl)
  refine ⟨m1, m2, h1, g1, ?_, g3⟩
  intro i j hi hj
  rw [g2 i j hi hj]
  by_cases h : UPLO = 'U' ∨ UPLO = 'u'
  · rw [if_pos h]; rfl
  · rw [if_neg h]
    have hn := hneg.resolve_left h
    simp [cblkN, Cplx.neg, Cplx.conj, Quat.lo, Quat.hi, hn]

/-! ## C35 -/

/-- C35. With ORDER other than 'F' and 'S', expansion and contraction fail their assertion on every memory. -/
theorem C35_bad_order (m : Mem F) (ORDER UPLO : Char) (ho : ¬ (ORDER = 'F' ∨ ORDER = 'S')) (M N A LDA B LDB : Int) :
    HBLAS_COMPLEX_EXPAND ORDER M N A LDA B LDB m = .error .assertFail ∧
    HBLAS_COMPLEX_CONTRACT ORDER UPLO M N A LDA B LDB m = .error .assertFail := by
  have h : (ORDER == 'F' || ORDER == 'S') = false := by
    simp only [not_or] at ho
    simp [ho]
  unfold HBLAS_COMPLEX_EXPAND HBLAS_COMPLEX_CONTRACT
  rw [h]
  exact ⟨rfl, rfl⟩

/-- The only way `p` can fail is an access to an inaccessible cell. -/
def OnlyOob {F α : Type} (p : Prog F α) : Prop := ∀ m e, p m = .error e → ∃ a, e = .oob a

omit [Arith F] [ArithEq F] in
theorem OnlyOob.pure {α : Type} (a : α) : OnlyOob (Pure.pure a : Prog F α) := by
  intro m e h; cases h

omit [Arith F] [ArithEq F] in
theorem OnlyOob.bind {α β : Type} {p : Prog F α} {f : α → Prog F β} (hp : OnlyOob p) (hf : ∀ a, OnlyOob (f a)) : OnlyOob (p >>= f) := by
  intro m e h
  cases hpm : p m with
  | error e' =>
    rw [bind_error hpm] at h
    cases h
    exact hp m e hpm
  | ok r =>
    obtain ⟨a, m'⟩ := r
    rw [bind_ok hpm] at h
    exact hf a m' e h

omit [Arith F] [ArithEq F] in
theorem OnlyOob.foldN {σ : Type} {n : Nat} {f : Nat → σ → Prog F σ} {s : σ} (hf : ∀ i s, OnlyOob (f i s)) : OnlyOob (foldN n f s) := by
  induction n with
  | zero => exact OnlyOob.pure s
  | succ n ih => exact ih.bind (fun a => hf n a)

omit [Arith F] [ArithEq F] in
theorem OnlyOob.rd (a : Int) : OnlyOob (Haxx.rd a : Prog F F) := by
  intro m e h
  unfold Haxx.rd at h
  split at h
  · cases h
  · cases h; exact ⟨a, rfl⟩

omit [Arith F] [ArithEq F] in
theorem OnlyOob.wr (a : Int) (v : F) : OnlyOob (Haxx.wr a v) := by
  intro m e h
  unfold Haxx.wr at h
  split at h
  · cases h
  · cases h; exact ⟨a, rfl⟩

omit [Arith F] [ArithEq F] in
theorem OnlyOob.rdC (a : Int) : OnlyOob (Haxx.rdC a : Prog F (Cplx F)) :=
  (OnlyOob.rd a).bind (fun _ => (OnlyOob.rd _).bind (fun _ => OnlyOob.pure _))

omit [Arith F] [ArithEq F] in
theorem OnlyOob.wrC (a : Int) (z : Cplx F) : OnlyOob (Haxx.wrC a z) :=
  (OnlyOob.wr a _).bind (fun _ => OnlyOob.wr _ _)

theorem onlyOob_exp (M N A LDA B LDB : Int) :
    OnlyOob (hzexp1 M N A LDA B LDB : Prog F Unit) ∧ OnlyOob (hzexp2 M N A LDA B LDB : Prog F Unit) := by
  constructor
  · refine OnlyOob.bind (OnlyOob.foldN (fun i s => ?_)) (fun _ => OnlyOob.pure _)
    refine OnlyOob.bind (OnlyOob.foldN (fun i s => ?_)) (fun _ => OnlyOob.pure _)
    unfold hzexp1_10_I
    repeat' first | exact OnlyOob.pure _ | exact OnlyOob.rdC _ | exact OnlyOob.wrC _ _ | refine OnlyOob.bind ?_ (fun _ => ?_)
  · refine OnlyOob.bind (OnlyOob.foldN (fun i s => ?_)) (fun _ => OnlyOob.pure _)
    refine OnlyOob.bind (OnlyOob.foldN (fun i s => ?_)) (fun _ => OnlyOob.pure _)
    unfold hzexp2_10_I
    repeat' first | exact OnlyOob.pure _ | exact OnlyOob.rdC _ | exact OnlyOob.wrC _ _ | refine OnlyOob.bind ?_ (fun _ => ?_)

theorem onlyOob_con (U : Char) (M N A LDA B LDB : Int) :
    OnlyOob (hzcon1 U M N A LDA B LDB : Prog F Unit) ∧ OnlyOob (hzcon2 U M N A LDA B LDB : Prog F Unit) := by
  constructor
  · refine OnlyOob.bind (OnlyOob.foldN (fun i s => ?_)) (fun _ => OnlyOob.pure _)
    refine OnlyOob.bind (OnlyOob.foldN (fun i s => ?_)) (fun _ => OnlyOob.pure _)
    unfold hzcon1_10_I
    cases lsame U 'U' <;> simp only [Bool.false_eq_true, if_false, if_true] <;>
    repeat' first | exact OnlyOob.pure _ | exact OnlyOob.rdC _ | exact OnlyOob.wrC _ _ | refine OnlyOob.bind ?_ (fun _ => ?_)
  · refine OnlyOob.bind (OnlyOob.foldN (fun i s => ?_)) (fun _ => OnlyOob.pure _)
    refine OnlyOob.bind (OnlyOob.foldN (fun i s => ?_)) (fun _ => OnlyOob.pure _)
    unfold hzcon2_10_I
    cases lsame U 'U' <;> simp only [Bool.false_eq_true, if_false, if_true] <;>
    repeat' first | exact OnlyOob.pure _ | exact OnlyOob.rdC _ | exact OnlyOob.wrC _ _ | refine OnlyOob.bind ?_ (fun _ => ?_)

/-- C35. With ORDER 'F' or 'S' the only possible failure is an inaccessible cell: the assertion never fires. -/
theorem C35_good_order (m : Mem F) (ORDER UPLO : Char) (ho : ORDER = 'F' ∨ ORDER = 'S') (M N A LDA B LDB : Int) (e : Fault) :
    (HBLAS_COMPLEX_EXPAND ORDER M N A LDA B LDB m = .error e → ∃ a, e = .oob a) ∧
    (HBLAS_COMPLEX_CONTRACT ORDER UPLO M N A LDA B LDB m = .error e → ∃ a, e = .oob a) := by
  rcases ho with rfl | rfl
  · exact ⟨(onlyOob_exp M N A LDA B LDB).1 m e, (onlyOob_con UPLO M N A LDA B LDB).1 m e⟩
  · exact ⟨(onlyOob_exp M N A LDA B LDB).2 m e, (onlyOob_con UPLO M N A LDA B LDB).2 m e⟩

end

/-! ## C36 -/

/-- C36. `LSAME(a,b)` holds exactly when the characters are equal or are the upper- and lower-case forms (codes `65+k` and `97+k`) of the
same one of the 26 letters. -/
theorem C36_lsame (a b : Char) : lsame a b = true ↔ a = b ∨
    ∃ k, k < 26 ∧ (a.toNat = 65 + k ∨ a.toNat = 97 + k) ∧ (b.toNat = 65 + k ∨ b.toNat = 97 + k) := by
  unfold lsame
  by_cases h : a = b
  · simp [h]
  · have hne : a.toNat ≠ b.toNat := fun e => h (Char.toNat_inj.mp e)
    rw [if_neg h]
    simp only [h, false_or, decide_eq_true_eq]
    constructor
    · intro e
      by_cases ha : 97 ≤ a.toNat ∧ a.toNat ≤ 122
      · exact ⟨a.toNat - 97, by split at e <;> split at e <;> omega⟩
      · exact ⟨a.toNat - 65, by split at e <;> split at e <;> omega⟩
    · rintro ⟨k, hk, h1, h2⟩
      split <;> split <;> omega

/-- C36. Consequences: comparison is reflexive, symmetric and transitive. -/
theorem C36_lsame_equiv (a b c : Char) : lsame a a = true ∧ lsame a b = lsame b a ∧
    (lsame a b = true → lsame b c = true → lsame a c = true) := by
  refine ⟨(C36_lsame a a).mpr (Or.inl rfl), ?_, ?_⟩
  · rw [Bool.eq_iff_iff, C36_lsame, C36_lsame]
    constructor
    · rintro (h | ⟨k, h1, h2, h3⟩)
      exacts [Or.inl h.symm, Or.inr ⟨k, h1, h3, h2⟩]
    · rintro (h | ⟨k, h1, h2, h3⟩)
      exacts [Or.inl h.symm, Or.inr ⟨k, h1, h3, h2⟩]
  · rw [C36_lsame, C36_lsame, C36_lsame]
    rintro (rfl | ⟨k, h1, h2, h3⟩) (rfl | ⟨k', h1', h2', h3'⟩)
    · exact Or.inl rfl
    · exact Or.inr ⟨k', h1', h2', h3'⟩
    · exact Or.inr ⟨k, h1, h2, h3⟩
    · exact Or.inr ⟨k, h1, h2, by omega⟩

example : lsame 'n' 'N' = true ∧ lsame '@' '`' = false ∧ lsame '[' '{' = false := by decide

/-! ## C37 -/

/-- C37. `FixMod(X,N)` is the least multiple of `N` that is at least `X`. -/
theorem C37_fixMod (X N : Int) (hX : 0 ≤ X) (hN : 0 < N) :
    N ∣ fixMod X N ∧ X ≤ fixMod X N ∧ ∀ Y, N ∣ Y → X ≤ Y → fixMod X N ≤ Y := by
  unfold fixMod
  rw [Int.tmod_eq_emod_of_nonneg hX]
  have h1 := Int.emod_nonneg X (show N ≠ 0 by omega)
  have h2 := Int.emod_lt_of_pos X hN
  have h3 := Int.emod_add_mul_ediv X N
  split
  · refine ⟨⟨X / N + 1, by linarith⟩, by omega, ?_⟩
    rintro Y ⟨k, rfl⟩ hY
    have : X / N < k := by
      by_contra hc
      have : N * k ≤ N * (X / N) := mul_le_mul_of_nonneg_left (by omega) (by omega)
      omega
    have : N * (X / N + 1) ≤ N * k := mul_le_mul_of_nonneg_left (by omega) (by omega)
    linarith
  · refine ⟨⟨X / N, by omega⟩, le_refl _, fun Y _ h => h⟩

/-- C37. `IS_ALIGNED(p,B)` for a power of two `B` (below `2^63`, as `B-1` is converted to 64 bits) says that the address is a multiple
of `B`. -/
theorem C37_isAligned (p : BitVec 64) (k : Nat) (hk : k < 63) : isAligned p (2 ^ k) = true ↔ 2 ^ k ∣ p.toNat := by
  unfold isAligned
  have hlt : 2 ^ k < 2 ^ 63 := Nat.pow_lt_pow_right (by omega) hk
  have e : BitVec.ofInt 64 ((2:Int) ^ k - 1) = BitVec.ofNat 64 (2 ^ k - 1) := by
    have h1 : 1 ≤ 2 ^ k := Nat.one_le_two_pow
    rw [show ((2:Int) ^ k - 1) = ((2 ^ k - 1 : Nat) : Int) by push_cast [h1]; ring, BitVec.ofInt_natCast]
  rw [e, beq_iff_eq, ← BitVec.toNat_inj, BitVec.toNat_and, BitVec.toNat_ofNat, Nat.mod_eq_of_lt (by omega), Nat.and_two_pow_sub_one_eq_mod]
  simp [Nat.dvd_iff_mod_eq_zero]

/-- C37. The alignment test used throughout the model on cell addresses (8-byte cells) is `IS_ALIGNED(X,32)` on the byte address. -/
theorem C37_isAligned_cells (p : Int) (h : 0 ≤ p ∧ 8 * p < 2 ^ 64) : isAligned (BitVec.ofInt 64 (8 * p)) 32 = aligned32 p := by
  obtain ⟨n, rfl⟩ := Int.eq_ofNat_of_zero_le h.1
  have hn : 8 * n < 2 ^ 64 := by have := h.2; push_cast at this; omega
  rw [Bool.eq_iff_iff, show (32:Int) = 2 ^ 5 by norm_num, C37_isAligned _ 5 (by omega), show (8 * (n:Int)) = ((8 * n : Nat) : Int) by push_cast; rfl, BitVec.ofInt_natCast,
    BitVec.toNat_ofNat, Nat.mod_eq_of_lt hn]
  unfold aligned32
  simp only [beq_iff_eq]
  constructor
  · rintro ⟨k, hk⟩; omega
  · intro hk; exact ⟨n / 4, by omega⟩

example : isAligned 96#64 32 = true ∧ isAligned 104#64 32 = false ∧ fixMod 33 32 = 64 ∧ fixMod 64 32 = 64 ∧ fixMod 0 32 = 0 := by decide

/-! ## Non-vacuity -/

theorem blockCell_memOf {F : Type} {w p ld lo hi : Int} {r c : Nat} {f : Int → F} (h : ∀ a, BlockCell w p ld r c a → lo ≤ a ∧ a < hi) :
    Accessible (BlockCell w p ld r c) (memOf lo hi f) := by
  intro a ha
  unfold memOf
  rw [if_pos (h a ha)]; rfl

/-- A 2×1 matrix expanded into a padded 4×2 block and contracted elsewhere: the preconditions of C32 and C34 hold. -/
example (ORDER UPLO : Char) (ho : ORDER = 'F' ∨ ORDER = 'S') :
    ∃ m1 m2, HBLAS_COMPLEX_EXPAND (F := Int) ORDER 2 1 0 2 9 5 (memOf 0 64 (fun a => a * a)) = .ok ((), m1) ∧
      HBLAS_COMPLEX_CONTRACT ORDER UPLO 2 1 33 3 9 5 m1 = .ok ((), m2) ∧
      MatAt m2 33 3 2 1 (fun i j => let p : Int := 0 + 4 * ((i:Int) + j * 2); ⟨p*p, (p+1)*(p+1), (p+2)*(p+2), (p+3)*(p+3)⟩) := by
  obtain ⟨m1, m2, h1, h2, h3, _⟩ := C34_contract_expand (F := Int) (memOf 0 64 (fun a => a * a)) ORDER UPLO ho 2 1 0 2 9 5 33 3
    (fun i j => let p : Int := 0 + 4 * ((i:Int) + j * 2); ⟨p*p, (p+1)*(p+1), (p+2)*(p+2), (p+3)*(p+3)⟩)
    (by intro i j hi hj; exact readQ_memOf (by omega) (by omega))
    ⟨by decide, blockCell_memOf (by
      rintro a ⟨i, j, hi, hj, h1, h2⟩
      omega), by
      rintro a ⟨i, j, hi, hj, h1, h2⟩ ⟨i', j', hi', hj', h3, h4⟩
      omega⟩ (by decide)
    (by rintro a ⟨i, j, hi, hj, h1, h2⟩; unfold memOf; rw [if_pos (by omega)]; rfl)
    (by
      rintro a ⟨i, j, hi, hj, h1, h2⟩ ⟨i', j', hi', hj', h3, h4⟩
      omega)
    (Or.inr (fun x => by simp))
  exact ⟨m1, m2, h1, h2, h3⟩

/-- The preconditions of C33 hold for a 1×2 matrix and a padded 4×8 block. -/
example : ∃ m', HBLAS_REAL_EXPAND (F := Int) 1 2 0 1 9 5 (memOf 0 64 (fun a => a * a)) = .ok ((), m') ∧
    RExpAt m' 9 5 (rExpand (R := Int) (M := (1:Int).toNat) (N := (2:Int).toNat)
      (fun i j => let p : Int := 0 + 4 * ((i:Nat) + (j:Nat) * 1); ⟨p*p, (p+1)*(p+1), (p+2)*(p+2), (p+3)*(p+3)⟩)) := by
  obtain ⟨m', h1, h2, _⟩ := C33_real_expand (R := Int) (memOf 0 64 (fun a => a * a)) 1 2 0 1 9 5
    (fun i j => let p : Int := 0 + 4 * ((i:Nat) + (j:Nat) * 1); ⟨p*p, (p+1)*(p+1), (p+2)*(p+2), (p+3)*(p+3)⟩)
    (by
      intro i j
      have hi := i.2
      have hj := j.2
      exact readQ_memOf (by omega) (by omega))
    ⟨by decide, blockCell_memOf (by
      rintro a ⟨i, j, hi, hj, h1, h2⟩
      omega), by
      rintro a ⟨i, j, hi, hj, h1, h2⟩ ⟨i', j', hi', hj', h3, h4⟩
      omega⟩
  exact ⟨m', h1, h2⟩

/-- The preconditions of C32 hold over ℝ. -/
example (ORDER : Char) (ho : ORDER = 'F' ∨ ORDER = 'S') :
    ∃ m', HBLAS_COMPLEX_EXPAND (F := ℝ) ORDER 2 1 0 2 9 5 (memOf 0 64 (fun a => (a:ℝ))) = .ok ((), m') ∧
      CExpAt m' 9 5 ORDER (cExpand (M := (2:Int).toNat) (N := (1:Int).toNat)
      (fun i j => let p : Int := 0 + 4 * ((i:Nat) + (j:Nat) * 2); ⟨p, (p+1 : Int), (p+2 : Int), (p+3 : Int)⟩)) := by
  obtain ⟨m', h1, h2, _⟩ := C32_complex_expand (memOf 0 64 (fun a => (a:ℝ))) ORDER ho 2 1 0 2 9 5
    (fun i j => let p : Int := 0 + 4 * ((i:Nat) + (j:Nat) * 2); ⟨p, (p+1 : Int), (p+2 : Int), (p+3 : Int)⟩)
    (by
      intro i j
      have hi := i.2
      have hj := j.2
      exact readQ_memOf (by omega) (by omega))
    ⟨by decide, blockCell_memOf (by
      rintro a ⟨i, j, hi, hj, h1, h2⟩
      omega), by
      rintro a ⟨i, j, hi, hj, h1, h2⟩ ⟨i', j', hi', hj', h3, h4⟩
      omega⟩
  exact ⟨m', h1, h2⟩

end Haxx
