import Verif.UtilProofs
import Verif.SpecUtil
import Verif.PropsGemm
import Mathlib.Tactic.FinCases
import Mathlib.Data.Nat.Bitwise

/-!
# Property theorems: expansion, contraction, character options, rounding (C32-C37)
-/

namespace Haxx
open Quaternion Matrix

/-! ## Algebra of the representations -/

theorem cRep_mul (p q : ℍ[ℝ]) : cRep (p * q) = cRep p * cRep q := by
  ext a b
  fin_cases a <;> fin_cases b <;> apply Complex.ext <;>
    simp [cRep, Matrix.mul_apply, Fin.sum_univ_two] <;> ring
theorem cRep_add (p q : ℍ[ℝ]) : cRep (p + q) = cRep p + cRep q := by
  ext a b
  fin_cases a <;> fin_cases b <;> apply Complex.ext <;> simp [cRep] <;> ring
theorem cRep_star (q : ℍ[ℝ]) : cRep (star q) = (cRep q)ᴴ := by
  ext a b
  fin_cases a <;> fin_cases b <;> apply Complex.ext <;> simp [cRep]
theorem cRep_one : cRep 1 = 1 := by
  ext a b
  fin_cases a <;> fin_cases b <;> apply Complex.ext <;> simp [cRep]
theorem cRep_zero : cRep 0 = 0 := by
  ext a b
  fin_cases a <;> fin_cases b <;> apply Complex.ext <;> simp [cRep]
theorem cRep_inj {p q : ℍ[ℝ]} (h : cRep p = cRep q) : p = q := by
  have h0 := congrFun (congrFun h 0) 0
  have h1 := congrFun (congrFun h 0) 1
  simp [cRep] at h0 h1
  ext <;> simp [h0, h1]

section
variable {R : Type} [CommRing R]
@[simp] theorem hUnit_re (a : Fin 4) : (hUnit a : ℍ[R]).re = if a = 0 then 1 else 0 := rfl
@[simp] theorem hUnit_imI (a : Fin 4) : (hUnit a : ℍ[R]).imI = if a = 1 then 1 else 0 := rfl
@[simp] theorem hUnit_imJ (a : Fin 4) : (hUnit a : ℍ[R]).imJ = if a = 2 then 1 else 0 := rfl
@[simp] theorem hUnit_imK (a : Fin 4) : (hUnit a : ℍ[R]).imK = if a = 3 then 1 else 0 := rfl
theorem rRep_mul (p q : ℍ[R]) : rRep (p * q) = rRep p * rRep q := by
  ext a b
  fin_cases a <;> fin_cases b <;> simp [rRep, Matrix.mul_apply, Fin.sum_univ_four] <;> ring
theorem rRep_add (p q : ℍ[R]) : rRep (p + q) = rRep p + rRep q := by
  ext a b
  fin_cases a <;> fin_cases b <;> simp [rRep] <;> ring
theorem rRep_star (q : ℍ[R]) : rRep (star q) = (rRep q)ᵀ := by
  ext a b
  fin_cases a <;> fin_cases b <;> simp [rRep]
theorem rRep_one : rRep (1 : ℍ[R]) = 1 := by
  ext a b
  fin_cases a <;> fin_cases b <;> simp [rRep]
theorem rRep_zero : rRep (0 : ℍ[R]) = 0 := by
  ext a b
  fin_cases a <;> fin_cases b <;> simp [rRep]
theorem rRep_inj {p q : ℍ[R]} (h : rRep p = rRep q) : p = q := by
  have h0 := congrFun (congrFun h 0) 0
  have h1 := congrFun (congrFun h 0) 1
  have h2 := congrFun (congrFun h 0) 2
  have h3 := congrFun (congrFun h 0) 3
  simp [rRep] at h0 h1 h2 h3
  exact Quaternion.ext _ _ h0 h1 h2 h3
end


/-! ## C32: complex expansion -/

section expand
variable {F : Type} [Arith F] [ArithEq F]

/-- The number of row `a` of block `i`. -/
def rowOf (ORDER : Char) (n : Nat) (i a : Nat) : Int :=
  if ORDER = 'F' then ((2:Nat):Int) * i + a else (i:Int) + n * a

theorem rowOf_lay (ORDER : Char) (n : Nat) : Lay n 2 (2 * n) (rowOf ORDER n) := by
  unfold rowOf
  by_cases h : ORDER = 'F'
  · simp only [if_pos h]; exact layF n 2
  · simp only [if_neg h]; exact layS n 2

theorem rowOf_exp (ORDER : Char) (n : Nat) (p : Fin n × Fin 2) : rowOf ORDER n p.1 p.2 = expIdx ORDER n p := by
  unfold rowOf expIdx; push_cast; rfl

theorem expand_wp {m : Mem F} {ORDER : Char} (ho : ORDER = 'F' ∨ ORDER = 'S') {M N A LDA B LDB : Int} {Av : Nat → Nat → Quat F}
    (hp : ZPre m A LDA B LDB (rowOf ORDER M.toNat) (rowOf ORDER N.toNat) M.toNat N.toNat Av) :
    wp (HBLAS_COMPLEX_EXPAND ORDER M N A LDA B LDB) m (fun _ m' =>
      ZPost B LDB (rowOf ORDER M.toNat) (rowOf ORDER N.toNat) M.toNat N.toNat Av m m') := by
  unfold HBLAS_COMPLEX_EXPAND
  rcases ho with rfl | rfl
  · rw [wp_bind, wp_assert (by decide), if_pos (by decide)]; exact hzexp1_wp hp
  · rw [wp_bind, wp_assert (by decide), if_neg (by decide)]; exact hzexp2_wp hp

/-- Preconditions of an expansion into an `r·M × r·N` block of entries of `w` cells. -/
structure ExpandPre (m : Mem F) (r : Nat) (w : Int) (M N A LDA B LDB : Int) : Prop where
  ld : (r:Int) * M.toNat ≤ LDB
  acc : Accessible (BlockCell w B LDB (r * M.toNat) (r * N.toNat)) m
  apart : Apart (MatCell A LDA M.toNat N.toNat) (BlockCell w B LDB (r * M.toNat) (r * N.toNat))

omit [Arith F] [ArithEq F] in
theorem zT_block {B LDB : Int} {row col : Nat → Nat → Int} {M N : Nat} (hr : Lay M 2 (2 * M) row) (hc : Lay N 2 (2 * N) col)
    {i j k : Nat} (hi : i < M) (hj : j < N) (hk : k < 8) :
    BlockCell 2 B LDB (2 * M) (2 * N) (zT B LDB (row i) (col j) k) := by
  have h1 := hr.lo i _ hi (zA_lt (k/2))
  have h2 := hr.hi i _ hi (zA_lt (k/2))
  have h3 := hc.lo j _ hj (zB_lt (k/2))
  have h4 := hc.hi j _ hj (zB_lt (k/2))
  refine ⟨(row i (zA (k/2))).toNat, (col j (zB (k/2))).toNat, by omega, by omega, ?_, ?_⟩
  all_goals
    rw [Int.toNat_of_nonneg h1, Int.toNat_of_nonneg h3]
    unfold zT
    omega

omit [ArithEq F] in
theorem zpre_of {m : Mem F} {ORDER : Char} {M N A LDA B LDB : Int} {Av : Nat → Nat → Quat F} (h : ExpandPre m 2 2 M N A LDA B LDB)
    (hA : MatAt m A LDA M.toNat N.toNat Av) :
    ZPre m A LDA B LDB (rowOf ORDER M.toNat) (rowOf ORDER N.toNat) M.toNat N.toNat Av where
  layr := rowOf_lay _ _
  layc := rowOf_lay _ _
  ld := h.ld
  src := hA
  acc i j k hi hj hk := h.acc _ (zT_block (rowOf_lay _ _) (rowOf_lay _ _) hi hj hk)
  apart i j i' j' k hi hj hi' hj' hk hin := h.apart _ ⟨i', j', hi', hj', hin⟩ (zT_block (rowOf_lay _ _) (rowOf_lay _ _) hi hj hk)


/-- C32, for any rounded arithmetic: expanding `A` succeeds, stores `z, w, -w̄, z̄` for each entry `z + w j` of `A` at the four
positions of its block in layout ORDER, changes nothing outside the `2M × 2N` block of `B` and leaves `A` as it was. -/
theorem C32_complex_expand_entries (m : Mem F) (ORDER : Char) (ho : ORDER = 'F' ∨ ORDER = 'S') (M N A LDA B LDB : Int)
    (Av : Nat → Nat → Quat F) (hA : MatAt m A LDA M.toNat N.toNat Av) (hp : ExpandPre m 2 2 M N A LDA B LDB) :
    ∃ m', HBLAS_COMPLEX_EXPAND ORDER M N A LDA B LDB m = .ok ((), m') ∧
      (∀ (i : Fin M.toNat) (j : Fin N.toNat) (a b : Fin 2),
        let p := B + 2 * (expIdx ORDER M.toNat (i, a) + LDB * expIdx ORDER N.toNat (j, b))
        let q := Av i j
        let z : Fin 2 → Fin 2 → F × F := ![![(q.re, q.i), (q.j, q.k)],
          ![(Arith.neg q.j, Arith.neg (Arith.neg q.k)), (q.re, Arith.neg q.i)]]
        m' p = some (z a b).1 ∧ m' (p+1) = some (z a b).2) ∧
      SameOutside (BlockCell 2 B LDB (2 * M.toNat) (2 * N.toNat)) m m' ∧ MatAt m' A LDA M.toNat N.toNat Av := by
  obtain ⟨_, m', h1, h2⟩ := expand_wp (A := A) (LDA := LDA) (Av := Av) ho (zpre_of (ORDER := ORDER) hp hA)
  have hout : SameOutside (BlockCell 2 B LDB (2 * M.toNat) (2 * N.toNat)) m m' := by
    intro a ha
    apply h2.out
    rintro ⟨j, i, k⟩ ⟨hj, hi, hk⟩ rfl
    exact ha (zT_block (rowOf_lay _ _) (rowOf_lay _ _) hi hj hk)
  refine ⟨m', h1, ?_, hout, matAt_congr (fun a ha => (hout a (hp.apart a ha)).symm) hA⟩
  intro i j a b p q z
  have key : ∀ k, k < 8 → ∀ a b : Nat, zA (k/2) = a → zB (k/2) = b →
      m' (B + 2 * (rowOf ORDER M.toNat i a + LDB * rowOf ORDER N.toNat j b) + (k % 2 : Nat)) = some (zV q k) := by
    rintro k hk _ _ rfl rfl
    exact h2.put (j, i, k) ⟨j.2, i.2, hk⟩
  have e : p = B + 2 * (rowOf ORDER M.toNat i a + LDB * rowOf ORDER N.toNat j b) := by
    rw [rowOf_exp ORDER M.toNat (i, a), rowOf_exp ORDER N.toNat (j, b)]
  rw [e]
  have k0 : ∀ x : Int, x + ((0:Nat):Int) = x := fun x => by omega
  fin_cases a <;> fin_cases b
  · exact ⟨by have := key 0 (by omega) 0 0 rfl rfl; rwa [k0] at this, key 1 (by omega) 0 0 rfl rfl⟩
  · exact ⟨by have := key 4 (by omega) 0 1 rfl rfl; rwa [k0] at this, key 5 (by omega) 0 1 rfl rfl⟩
  · exact ⟨by have := key 6 (by omega) 1 0 rfl rfl; rwa [k0] at this, key 7 (by omega) 1 0 rfl rfl⟩
  · exact ⟨by have := key 2 (by omega) 1 1 rfl rfl; rwa [k0] at this, key 3 (by omega) 1 1 rfl rfl⟩

end expand

/-- Entries outside the matrix are irrelevant. -/
def ofMat {R : Type} [CommRing R] {M N : Nat} (X : Matrix (Fin M) (Fin N) ℍ[R]) (i j : Nat) : Quat R :=
  if h : i < M ∧ j < N then Quat.ofH (X ⟨i, h.1⟩ ⟨j, h.2⟩) else Quat.ofH 0

theorem ofMat_fin {R : Type} [CommRing R] {M N : Nat} (X : Matrix (Fin M) (Fin N) ℍ[R]) (i : Fin M) (j : Fin N) :
    ofMat X i j = Quat.ofH (X i j) := by
  unfold ofMat; rw [dif_pos ⟨i.2, j.2⟩]

theorem matAt_of_hmat {R : Type} [CommRing R] {m : Mem R} {A LDA : Int} {M N : Nat} {X : Matrix (Fin M) (Fin N) ℍ[R]}
    (h : HMatAt m A LDA X) : MatAt m A LDA M N (ofMat X) := by
  intro i j hi hj
  have := h ⟨i, hi⟩ ⟨j, hj⟩
  rwa [← ofMat_fin] at this

noncomputable section

/-- C32. Expanding a quaternion matrix `X` stores `cExpand X` (the matrix of 2×2 complex blocks `[[z,w],[-w̄,z̄]]`) in layout
ORDER, and changes nothing outside the `2M × 2N` block. -/
theorem C32_complex_expand (m : Mem ℝ) (ORDER : Char) (ho : ORDER = 'F' ∨ ORDER = 'S') (M N A LDA B LDB : Int)
    (X : Matrix (Fin M.toNat) (Fin N.toNat) ℍ[ℝ]) (hA : HMatAt m A LDA X) (hp : ExpandPre m 2 2 M N A LDA B LDB) :
    ∃ m', HBLAS_COMPLEX_EXPAND ORDER M N A LDA B LDB m = .ok ((), m') ∧ CExpAt m' B LDB ORDER (cExpand X) ∧
      SameOutside (BlockCell 2 B LDB (2 * M.toNat) (2 * N.toNat)) m m' := by
  obtain ⟨m', h1, h2, h3, _⟩ := C32_complex_expand_entries m ORDER ho M N A LDA B LDB _ (matAt_of_hmat hA) hp
  refine ⟨m', h1, ?_, h3⟩
  rintro ⟨i, a⟩ ⟨j, b⟩
  have := h2 i j a b
  dsimp only at this
  rw [ofMat_fin] at this
  unfold CplxAt
  rw [this.1, this.2]
  fin_cases a <;> fin_cases b <;> simp [cExpand, cRep, Quat.ofH]

/-- C32. Expansion turns matrix products into matrix products. -/
theorem C32_expand_mul {M K N : Nat} (X : Matrix (Fin M) (Fin K) ℍ[ℝ]) (Y : Matrix (Fin K) (Fin N) ℍ[ℝ]) :
    cExpand (X * Y) = cExpand X * cExpand Y := by
  ext ⟨i, a⟩ ⟨j, b⟩
  rw [Matrix.mul_apply, Fintype.sum_prod_type]
  have : ∀ (s : Finset (Fin K)) (f : Fin K → ℍ[ℝ]), cRep (∑ k ∈ s, f k) = ∑ k ∈ s, cRep (f k) := by
    intro s f
    induction s using Finset.cons_induction with
    | empty => simpa using cRep_zero
    | cons k s hk ih => rw [Finset.sum_cons, Finset.sum_cons, cRep_add, ih]
  change cRep ((X * Y) i j) a b = _
  rw [Matrix.mul_apply, this, Matrix.sum_apply]
  refine Finset.sum_congr rfl (fun k _ => ?_)
  rw [cRep_mul, Matrix.mul_apply]
  rfl

/-- C32. Sums to sums, conjugate transposes to conjugate transposes, the identity to the identity. -/
theorem C32_expand_star_algebra {M N : Nat} (X Y : Matrix (Fin M) (Fin N) ℍ[ℝ]) :
    cExpand (X + Y) = cExpand X + cExpand Y ∧ cExpand Xᴴ = (cExpand X)ᴴ ∧
      cExpand (1 : Matrix (Fin M) (Fin M) ℍ[ℝ]) = 1 := by
  refine ⟨?_, ?_, ?_⟩
  · ext ⟨i, a⟩ ⟨j, b⟩
    change cRep (X i j + Y i j) a b = _
    rw [cRep_add]; rfl
  · ext ⟨i, a⟩ ⟨j, b⟩
    change cRep (star (X j i)) a b = _
    rw [cRep_star]; rfl
  · ext ⟨i, a⟩ ⟨j, b⟩
    change cRep ((1 : Matrix (Fin M) (Fin M) ℍ[ℝ]) i j) a b = _
    by_cases h : i = j
    · subst h
      rw [Matrix.one_apply_eq, cRep_one]
      by_cases hab : a = b
      · subst hab; simp
      · rw [Matrix.one_apply_ne hab, Matrix.one_apply_ne (fun e => hab (Prod.ext_iff.mp e).2)]
    · rw [Matrix.one_apply_ne h, cRep_zero, Matrix.one_apply_ne (fun e => h (Prod.ext_iff.mp e).1)]; rfl

/-- C32. Expansion is injective. -/
theorem C32_expand_injective {M N : Nat} (X Y : Matrix (Fin M) (Fin N) ℍ[ℝ]) (h : cExpand X = cExpand Y) : X = Y := by
  ext1 i j
  apply cRep_inj
  ext a b
  exact congrFun (congrFun h (i, a)) (j, b)

theorem cExpAt_unique {m : Mem ℝ} {B ld : Int} {ORDER : Char} {M N : Nat} {E E' : Matrix (Fin M × Fin 2) (Fin N × Fin 2) ℂ}
    (h : CExpAt m B ld ORDER E) (h' : CExpAt m B ld ORDER E') : E = E' := by
  ext p q
  have h1 := h p q
  have h2 := h' p q
  unfold CplxAt at h1 h2
  rw [h1.1, h1.2] at h2
  exact Complex.ext (Option.some.inj h2.1) (Option.some.inj h2.2)

/-- C32, observed through the API: whatever complex matrices three successful expansions of `X`, `Y` and `X Y` leave in
memory (at any addresses, in the same or different orders), the third is the product of the first two. -/
theorem C32_expand_runs_mul (M K N : Int) (X : Matrix (Fin M.toNat) (Fin K.toNat) ℍ[ℝ]) (Y : Matrix (Fin K.toNat) (Fin N.toNat) ℍ[ℝ])
    (m1 m2 m3 m1' m2' m3' : Mem ℝ) (o1 o2 o3 : Char) (ho1 : o1 = 'F' ∨ o1 = 'S') (ho2 : o2 = 'F' ∨ o2 = 'S') (ho3 : o3 = 'F' ∨ o3 = 'S')
    (A1 L1 B1 D1 A2 L2 B2 D2 A3 L3 B3 D3 : Int)
    (hA1 : HMatAt m1 A1 L1 X) (hA2 : HMatAt m2 A2 L2 Y) (hA3 : HMatAt m3 A3 L3 (X * Y))
    (p1 : ExpandPre m1 2 2 M K A1 L1 B1 D1) (p2 : ExpandPre m2 2 2 K N A2 L2 B2 D2) (p3 : ExpandPre m3 2 2 M N A3 L3 B3 D3)
    (r1 : HBLAS_COMPLEX_EXPAND o1 M K A1 L1 B1 D1 m1 = .ok ((), m1'))
    (r2 : HBLAS_COMPLEX_EXPAND o2 K N A2 L2 B2 D2 m2 = .ok ((), m2'))
    (r3 : HBLAS_COMPLEX_EXPAND o3 M N A3 L3 B3 D3 m3 = .ok ((), m3'))
    (E1 : Matrix (Fin M.toNat × Fin 2) (Fin K.toNat × Fin 2) ℂ) (E2 : Matrix (Fin K.toNat × Fin 2) (Fin N.toNat × Fin 2) ℂ)
    (E3 : Matrix (Fin M.toNat × Fin 2) (Fin N.toNat × Fin 2) ℂ)
    (h1 : CExpAt m1' B1 D1 o1 E1) (h2 : CExpAt m2' B2 D2 o2 E2) (h3 : CExpAt m3' B3 D3 o3 E3) : E3 = E1 * E2 := by
  obtain ⟨x1, e1, c1, _⟩ := C32_complex_expand m1 o1 ho1 M K A1 L1 B1 D1 X hA1 p1
  obtain ⟨x2, e2, c2, _⟩ := C32_complex_expand m2 o2 ho2 K N A2 L2 B2 D2 Y hA2 p2
  obtain ⟨x3, e3, c3, _⟩ := C32_complex_expand m3 o3 ho3 M N A3 L3 B3 D3 (X * Y) hA3 p3
  rw [r1] at e1; cases e1
  rw [r2] at e2; cases e2
  rw [r3] at e3; cases e3
  rw [cExpAt_unique h1 c1, cExpAt_unique h2 c2, cExpAt_unique h3 c3, C32_expand_mul]

end

end Haxx
