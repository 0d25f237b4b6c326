import Verif.Exact2
import Verif.PropsTile

/-!
# C59: integer data are computed exactly

Doubles represent every integer up to 2^53, and a sum or product whose exact value is such an integer is
computed without error. So if the inputs of a routine have integer components small enough for no
intermediate result to leave that range, the routine leaves in memory exactly the mathematical result,
whatever the order of its operations, with and without fused multiply-add, in the SIMD, the portable and
the Fortran build alike: on such data the builds agree to the last bit.

The specification is here: what "integer data of magnitude at most s" and "exactly the quaternion z" mean.
The arithmetic is any with `IntModel` (`rneModel` below: IEEE double precision, round to nearest even).
-/

set_option linter.unusedSectionVars false

namespace Haxx
open Arith Quaternion Finset

variable {F : Type} [Arith F] {u B : ℝ}

namespace IntModel

/-- a machine number that stands for an integer of magnitude at most `s` -/
def Int1 (I : IntModel F u B) (s : ℝ) (a : F) : Prop := I.ok a ∧ ∃ n : ℤ, I.val a = n ∧ |(n:ℝ)| ≤ s
/-- a quaternion with integer components of magnitude at most `s` -/
def IntQ (I : IntModel F u B) (s : ℝ) (q : Quat F) : Prop := q.All (I.Int1 s)
/-- a scalar (real, complex or quaternion) with integer components of magnitude at most `s` -/
def IntS (I : IntModel F u B) (s : ℝ) : Scal F → Prop
  | .d a => I.Int1 s a
  | .z a => I.Int1 s a.re ∧ I.Int1 s a.im
  | .h a => I.IntQ s a
/-- the first `n` elements of a vector are integer quaternions -/
def IntVec (I : IntModel F u B) (s : ℝ) (n : ℕ) (x : ℕ → Quat F) : Prop := ∀ i, i < n → I.IntQ s (x i)
/-- the first `r` × `c` entries of a matrix are integer quaternions -/
def IntMat (I : IntModel F u B) (s : ℝ) (r c : ℕ) (X : ℕ → ℕ → Quat F) : Prop :=
  ∀ i j, i < r → j < c → I.IntQ s (X i j)
/-- the same for a matrix of scalars of any type -/
def IntKMat (I : IntModel F u B) (s : ℝ) (r c : ℕ) (X : ℕ → ℕ → Scal F) : Prop :=
  ∀ i j, i < r → j < c → I.IntS s (X i j)
/-- the machine quaternion `q` is exactly `z`: no component overflowed and none is off -/
def Is (I : IntModel F u B) (q : Quat F) (z : ℍ[ℝ]) : Prop := q.All I.ok ∧ (q.map I.val).toH = z

variable {I : IntModel F u B} {s t : ℝ}

theorem Int1.e {a : F} (h : I.Int1 s a) : I.E a (I.val a) s := by
  obtain ⟨h1, n, h2, h3⟩ := h
  exact ⟨h1, rfl, ⟨n, h2⟩, by rw [h2]; exact h3⟩

theorem IntQ.e {q : Quat F} (h : I.IntQ s q) : I.EQ q (q.map I.val) s :=
  ⟨h.1.e, h.2.1.e, h.2.2.1.e, h.2.2.2.e⟩

theorem IntS.e {a : Scal F} (h : I.IntS s a) : I.ES a (a.map I.val) s := by
  cases a with
  | d a => exact Int1.e h
  | z a => exact ⟨h.1.e, h.2.e⟩
  | h a => exact IntQ.e h

theorem EQ.is {q : Quat F} {z : Quat ℝ} (h : I.EQ q z s) : I.Is q z.toH :=
  ⟨⟨h.1.1, h.2.1.1, h.2.2.1.1, h.2.2.2.1⟩, by ext <;> simp [Quat.map, h.1.2.1, h.2.1.2.1, h.2.2.1.2.1, h.2.2.2.2.1]⟩

end IntModel

open IntModel

/-! ## SIMD build -/

/-- C59, SCALV. -/
theorem C59_scalv (I : IntModel F u B) (m : Mem F) (SIDE : Char) (N X INCX : Int) (ALPHA : Scal F)
    (x : Nat → Quat F) (hX : VecAt m X INCX N.toNat x) (hinc : INCX ≠ 0) (s t : ℝ)
    (hα : I.IntS s ALPHA) (hx : I.IntVec t N.toNat x) (hB : 4 * (s * t) ≤ B) :
    ∃ m' v, scalvAVX SIDE N ALPHA X INCX m = .ok ((), m') ∧ VecAt m' X INCX N.toNat v ∧
      ∀ i, i < N.toNat → I.Is (v i)
        (if SIDE = 'L' then (ALPHA.map I.val).toH * ((x i).map I.val).toH
         else ((x i).map I.val).toH * (ALPHA.map I.val).toH) := by
  obtain ⟨_, m', h, h1, _⟩ := scalvAVX_wp (SIDE := SIDE) (ALPHA := ALPHA) hX (Or.inl hinc)
  refine ⟨m', _, h, h1, fun i hi => ?_⟩
  have := (EQ.scalOp (SIDE == 'L') hα.e (hx i hi).e hB).is
  rw [toH_scalOp] at this
  by_cases hs : SIDE = 'L' <;> simpa [hs] using this

/-- C59, AXPYV. -/
theorem C59_axpyv (I : IntModel F u B) (m : Mem F) (SIDE : Char) (N X INCX Y INCY : Int) (ALPHA : Scal F)
    (x y : Nat → Quat F) (hX : VecAt m X INCX N.toNat x) (hY : VecAt m Y INCY N.toNat y)
    (hinc : INCY ≠ 0) (hdis : Apart (VecCell X INCX N.toNat) (VecCell Y INCY N.toNat)) (s t w : ℝ)
    (hα : I.IntS s ALPHA) (hx : I.IntVec t N.toNat x) (hy : I.IntVec w N.toNat y) (hB : w + 4 * (s * t) ≤ B) :
    ∃ m' v, axpyvAVX SIDE N ALPHA X INCX Y INCY m = .ok ((), m') ∧ VecAt m' Y INCY N.toNat v ∧
      ∀ i, i < N.toNat → I.Is (v i) (((y i).map I.val).toH +
        (if SIDE = 'L' then (ALPHA.map I.val).toH * ((x i).map I.val).toH
         else ((x i).map I.val).toH * (ALPHA.map I.val).toH)) := by
  obtain ⟨_, m', h, h1, _⟩ := axpyvAVX_wp (SIDE := SIDE) (ALPHA := ALPHA) hX hY (Or.inl hinc) hdis
  refine ⟨m', _, h, h1, fun i hi => ?_⟩
  have := (EQ.axpyOp (SIDE == 'L') hα.e (hx i hi).e (hy i hi).e hB).is
  rw [toH_axpyOp] at this
  by_cases hs : SIDE = 'L' <;> simpa [hs] using this

/-- C59, DOTU and DOTC. -/
theorem C59_dot (I : IntModel F u B) (m : Mem F) (N X INCX Y INCY : Int) (x y : Nat → Quat F)
    (hX : VecAt m X INCX N.toNat x) (hY : VecAt m Y INCY N.toNat y)
    (hx32 : Fits32 (4 * INCX)) (hy32 : Fits32 (4 * INCY)) (s t : ℝ) (hs : 0 ≤ s) (ht : 0 ≤ t)
    (hx : I.IntVec s N.toNat x) (hy : I.IntVec t N.toNat y) (hB : N.toNat * (4 * (s * t)) ≤ B) :
    ∃ ru rc, dotAVX false N X INCX Y INCY m = .ok (ru, m) ∧ dotAVX true N X INCX Y INCY m = .ok (rc, m) ∧
      I.Is ru (∑ i ∈ range N.toNat, ((x i).map I.val).toH * ((y i).map I.val).toH) ∧
      I.Is rc (∑ i ∈ range N.toNat, star ((x i).map I.val).toH * ((y i).map I.val).toH) := by
  obtain ⟨_, _, h, rfl, rfl⟩ := dotAVX_wp (conj := false) hX hY (fun _ => hx32) (fun _ => hy32)
  obtain ⟨_, _, h', rfl, rfl⟩ := dotAVX_wp (conj := true) hX hY (fun _ => hx32) (fun _ => hy32)
  have e := fun c => (EQ.dotVal c N.toNat (fun k hk => (hx k hk).e) (fun k hk => (hy k hk).e) (mul_nonneg hs ht) hB).is
  refine ⟨_, _, h, h', ?_, ?_⟩
  · have := e false
    rw [dotVal_sum] at this
    simpa [cj] using this
  · have := e true
    rw [dotVal_sum] at this
    simpa [cj] using this

/-- C59, GEMM: integer A, B, C, ALPHA, BETA with components of magnitude at most a, b, c, sα, sβ. -/
theorem C59_gemm (I : IntModel F u B) (m : Mem F) (blk : Blk) (bAddr aAddr : Int) (junk : Int → F)
    (TRANSA TRANSB : Char) (M N K : Int) (ALPHA BETA : Scal F) (A LDA Bp LDB C LDC : Int)
    (Av Bv Cv : Nat → Nat → Quat F)
    (h : GemmPre m blk bAddr aAddr TRANSA TRANSB M.toNat N.toNat K.toNat A LDA Av Bp LDB Bv C LDC Cv)
    (sα sβ a b c : ℝ) (hα : I.IntS sα ALPHA) (hβ : I.IntS sβ BETA)
    (hA : I.IntMat a (if isT TRANSA then K else M).toNat (if isT TRANSA then M else K).toNat Av)
    (hBm : I.IntMat b (if isT TRANSB then N else K).toNat (if isT TRANSB then K else N).toNat Bv)
    (hC : I.IntMat c M.toNat N.toNat Cv) (ha : 0 ≤ a) (hb : 1 ≤ b)
    (hB : 4 * (sβ * c) + K.toNat * (16 * (sα * a * b)) ≤ B) :
    ∃ m' V, gemmAVX blk bAddr aAddr junk TRANSA TRANSB M N K ALPHA A LDA Bp LDB BETA C LDC m = .ok ((), m') ∧
      MatAt m' C LDC M.toNat N.toNat V ∧
      ∀ i j, i < M.toNat → j < N.toNat → I.Is (V i j)
        ((ALPHA.map I.val).toH * ∑ k ∈ range K.toNat, opSpec TRANSA (fun i k => (Av i k).map I.val) i k *
            opSpec TRANSB (fun k j => (Bv k j).map I.val) k j +
          (BETA.map I.val).toH * ((Cv i j).map I.val).toH) := by
  obtain ⟨_, m', h1, h2, _⟩ := gemmAVX_wp (junk := junk) (ALPHA := ALPHA) (BETA := BETA) h
  rw [gemmAVX_clamp h.mc_pos h.nc_pos h.kc_pos]
  refine ⟨m', _, h1, h2, fun i j hi hj => ?_⟩
  have e : ∀ (t : Char) (X : Nat → Nat → Quat F) (i k : Nat),
      (opE t X i k).map I.val = opE t (fun i k => (X i k).map I.val) i k := by
    intro t X i k; unfold opE; split <;> rfl
  have eA : ∀ k, k < K.toNat → I.EQ (opE TRANSA Av i k) (opE TRANSA (fun i k => (Av i k).map I.val) i k) a := by
    intro k hk
    rw [← e]
    unfold opE
    split
    · rename_i ht; exact (hA k i (by rw [if_pos ht]; exact hk) (by rw [if_pos ht]; exact hi)).e
    · rename_i ht; exact (hA i k (by rw [if_neg ht]; exact hi) (by rw [if_neg ht]; exact hk)).e
  have eB : ∀ k, k < K.toNat → I.EQ (opE TRANSB Bv k j) (opE TRANSB (fun i k => (Bv i k).map I.val) k j) b := by
    intro k hk
    rw [← e]
    unfold opE
    split
    · rename_i ht; exact (hBm j k (by rw [if_pos ht]; exact hj) (by rw [if_pos ht]; exact hk)).e
    · rename_i ht; exact (hBm k j (by rw [if_neg ht]; exact hk) (by rw [if_neg ht]; exact hj)).e
  have := (EQ.gemmElt TRANSA TRANSB K.toNat hα.e hβ.e (hC i j hi hj).e eA eB ha hb hB).is
  rw [toH_gemmElt] at this
  exact this

/-! ## Portable build -/

/-- C59, portable SCALV. -/
theorem C59_scalv_portable (I : IntModel F u B) (m : Mem F) (SIDE : Char) (N X INCX : Int) (ALPHA : Scal F)
    (x : Nat → Quat F) (hX : VecAt m X INCX N.toNat x) (hinc : 0 < INCX) (fx : Fits32 (N * INCX)) (s t : ℝ)
    (hα : I.IntS s ALPHA) (hx : I.IntVec t N.toNat x) (hB : 4 * (s * t) ≤ B) :
    ∃ m' v, scalvGen SIDE N ALPHA X INCX m = .ok ((), m') ∧ VecAt m' X INCX N.toNat v ∧
      ∀ i, i < N.toNat → I.Is (v i)
        (if SIDE = 'R' then ((x i).map I.val).toH * (ALPHA.map I.val).toH
         else (ALPHA.map I.val).toH * ((x i).map I.val).toH) := by
  obtain ⟨_, m', h, h1, _⟩ := scalvGen_wp (SIDE := SIDE) (ALPHA := ALPHA) hinc fx hX
  refine ⟨m', _, h, h1, fun i hi => ?_⟩
  have l := (EQ.mulL hα.e (hx i hi).e hB).is
  have r := (EQ.mulR hα.e (hx i hi).e hB).is
  rw [StdModel.toH_mulL] at l
  rw [StdModel.toH_mulR] at r
  by_cases hs : SIDE = 'R' <;> simpa [hs]

section eq
variable [ArithEq F]

/-- C59, portable AXPYV (the test of ALPHA for zero being right, as it is unless only its k component is non-zero). -/
theorem C59_axpyv_portable (I : IntModel F u B) (m : Mem F) (SIDE : Char) (N X INCX Y INCY : Int) (ALPHA : Scal F)
    (x y : Nat → Quat F) (hX : VecAt m X INCX N.toNat x) (hY : VecAt m Y INCY N.toNat y)
    (hix : 0 < INCX) (hiy : 0 < INCY) (fx : Fits32 (N * INCX)) (fy : Fits32 (N * INCY))
    (hdis : Apart (VecCell X INCX N.toNat) (VecCell Y INCY N.toNat))
    (hA : ALPHA.eqZero = true → (ALPHA.map I.val).toH = 0) (s t w : ℝ)
    (hα : I.IntS s ALPHA) (hx : I.IntVec t N.toNat x) (hy : I.IntVec w N.toNat y) (hB : w + 4 * (s * t) ≤ B) :
    ∃ m' v, axpyvGen SIDE N ALPHA X INCX Y INCY m = .ok ((), m') ∧ VecAt m' Y INCY N.toNat v ∧
      ∀ i, i < N.toNat → I.Is (v i) (((y i).map I.val).toH +
        (if SIDE = 'R' then ((x i).map I.val).toH * (ALPHA.map I.val).toH
         else (ALPHA.map I.val).toH * ((x i).map I.val).toH)) := by
  by_cases hz : ALPHA.eqZero = true
  · refine ⟨m, y, ?_, hY, fun i hi => ?_⟩
    · unfold axpyvGen; rw [if_pos hz]; split <;> rfl
    · rw [hA hz]
      simpa using (hy i hi).e.is
  · obtain ⟨_, m', h, h1, _⟩ := axpyvGen_wp (SIDE := SIDE) (ALPHA := ALPHA) hix hiy fx fy
      (by simpa using hz) hX hY hdis
    refine ⟨m', _, h, h1, fun i hi => ?_⟩
    have w0 := (hy i hi).e.nonneg
    have l := (EQ.addAssign (hy i hi).e (EQ.mulL hα.e (hx i hi).e (by linarith)) hB).is
    have r := (EQ.addAssign (hy i hi).e (EQ.mulR hα.e (hx i hi).e (by linarith)) hB).is
    rw [StdModel.toH_addAssign, StdModel.toH_mulL] at l
    rw [StdModel.toH_addAssign, StdModel.toH_mulR] at r
    by_cases hs : SIDE = 'R' <;> simpa [hs]

omit [ArithEq F] in
/-- C59, portable DOTU and DOTC. -/
theorem C59_dot_portable (I : IntModel F u B) (m : Mem F) (N X INCX Y INCY : Int) (x y : Nat → Quat F)
    (hX : VecAt m X INCX N.toNat x) (hY : VecAt m Y INCY N.toNat y)
    (hix : 0 < INCX) (hiy : 0 < INCY) (fx : Fits32 (N * INCX)) (fy : Fits32 (N * INCY)) (s t : ℝ) (hs : 0 ≤ s) (ht : 0 ≤ t)
    (hx : I.IntVec s N.toNat x) (hy : I.IntVec t N.toNat y) (hB : N.toNat * (4 * (s * t)) ≤ B) :
    ∃ ru rc, dotGen false N X INCX Y INCY m = .ok (ru, m) ∧ dotGen true N X INCX Y INCY m = .ok (rc, m) ∧
      I.Is ru (∑ i ∈ range N.toNat, ((x i).map I.val).toH * ((y i).map I.val).toH) ∧
      I.Is rc (∑ i ∈ range N.toNat, star ((x i).map I.val).toH * ((y i).map I.val).toH) := by
  obtain ⟨_, _, h, rfl, rfl⟩ := dotGen_bits (conj := false) hix hiy fx fy hX hY
  obtain ⟨_, _, h', rfl, rfl⟩ := dotGen_bits (conj := true) hix hiy fx fy hX hY
  have e := fun c => (EQ.pDotQ c N.toNat (fun k hk => (hx k hk).e) (fun k hk => (hy k hk).e) (mul_nonneg hs ht)
    (by linarith)).is
  refine ⟨_, _, h, h', ?_, ?_⟩
  · have := e false
    rw [StdModel.toH_pDotQ] at this
    simpa using this
  · have := e true
    rw [StdModel.toH_pDotQ] at this
    simpa using this

/-- C59, portable GEMM (A, ALPHA and BETA of any scalar type). -/
theorem C59_gemm_portable (I : IntModel F u B) (m : Mem F) (k : Kind) (tA tB : Char) (M N K : Int) (ALPHA BETA : Scal F)
    (A LDA Bp LDB C LDC : Int) (Av : Nat → Nat → Scal F) (Bv Cv : Nat → Nat → Quat F)
    (opA opB : Nat → Nat → ℍ[ℝ])
    (hA : KOpIs tA (fun i k => (Av i k).map I.val) opA) (hBo : QOpIs tB (fun i k => (Bv i k).map I.val) opB)
    (ta : StdModel.Truth I.toStdModel ALPHA) (tb : StdModel.Truth I.toStdModel BETA)
    (h : GemmBArgs m k tA tB M N K ALPHA A LDA Bp LDB C LDC Av Bv Cv)
    (sα sβ a b c : ℝ) (hα : I.IntS sα ALPHA) (hβ : I.IntS sβ BETA)
    (iA : I.IntKMat a (if tA = 'N' then M else K).toNat (if tA = 'N' then K else M).toNat Av)
    (iB : I.IntMat b (if tB = 'N' then K else N).toNat (if tB = 'N' then N else K).toNat Bv)
    (iC : I.IntMat c M.toNat N.toNat Cv) (h1α : 1 ≤ sα) (h1β : 1 ≤ sβ) (ha : 0 ≤ a) (hb : 1 ≤ b)
    (hB : 4 * (sβ * c) + K.toNat * (16 * (sα * a * b)) ≤ B) :
    ∃ m' V, gemmGen k tA tB M N K ALPHA A LDA Bp LDB BETA C LDC m = .ok ((), m') ∧
      MatAt m' C LDC M.toNat N.toNat V ∧
      ∀ i j, i < M.toNat → j < N.toNat → I.Is (V i j)
        ((ALPHA.map I.val).toH * ∑ k ∈ range K.toNat, opA i k * opB k j +
            (BETA.map I.val).toH * ((Cv i j).map I.val).toH) := by
  obtain ⟨m', h1, h2, _⟩ := gemmGen_bits m k tA tB M N K ALPHA BETA A LDA Bp LDB C LDC Av Bv Cv h
  refine ⟨m', _, h1, h2, fun i j hi hj => ?_⟩
  have eA : ∀ l, ∃ x : Scal ℝ, x.toH = opA i l ∧ (l < K.toNat → I.ES (opKE tA Av i l) x a) := by
    intro l
    rcases hA with ⟨rfl, e⟩ | ⟨rfl, e⟩ | ⟨rfl, e⟩
    · exact ⟨_, (e i l).symm, fun hl => (iA i l hi hl).e⟩
    · exact ⟨_, (e i l).symm, fun hl => (iA l i hl hi).e⟩
    · exact ⟨((Av l i).map I.val).smartConj, by rw [e, C04_smartConj], fun hl => (iA l i hl hi).e.conj⟩
  have eB : ∀ l, ∃ y : Quat ℝ, y.toH = opB l j ∧ (l < K.toNat → I.EQ (opQE tB Bv l j) y b) := by
    intro l
    rcases hBo with ⟨rfl, e⟩ | ⟨rfl, e⟩ | ⟨rfl, e⟩
    · exact ⟨_, (e l j).symm, fun hl => (iB l j hl hj).e⟩
    · exact ⟨_, (e l j).symm, fun hl => (iB j l hj hl).e⟩
    · exact ⟨qconj256 ((Bv j l).map I.val), by rw [e, toH_qconj256], fun hl => (iB j l hj hl).e.conj⟩
  choose x ex hx using eA
  choose y ey hy using eB
  obtain ⟨z, hz, ez⟩ := EQ.pGemm (tA := tA) ta tb hα.e hβ.e (iC i j hi hj).e hx hy h1α h1β ha hb hB
  have := hz.is
  rw [ez] at this
  simpa only [ex, ey] using this

/-- C59, portable GEMV (A, ALPHA and BETA of any scalar type). -/
theorem C59_gemv_portable (I : IntModel F u B) (m : Mem F) (k : Kind) (t : Char) (M N : Int) (ALPHA : Scal F)
    (A LDA X INCX : Int) (BETA : Scal F) (Y INCY : Int) (a : Nat → Nat → Scal F) (x y : Nat → Quat F)
    (op : Nat → Nat → ℍ[ℝ]) (hop : KOpIs t (fun i k => (a i k).map I.val) op)
    (ta : StdModel.Truth I.toStdModel ALPHA) (tb : StdModel.Truth I.toStdModel BETA) (hM : M ≠ 0) (hN : N ≠ 0)
    (h : GemvBArgs m k t M N ALPHA A LDA X INCX Y INCY a x y)
    (sα sβ sa sx sy : ℝ) (hα : I.IntS sα ALPHA) (hβ : I.IntS sβ BETA) (iA : I.IntKMat sa M.toNat N.toNat a)
    (ix : I.IntVec sx (if t = 'N' then N else M).toNat x) (iy : I.IntVec sy (if t = 'N' then M else N).toNat y)
    (h1α : 1 ≤ sα) (h1β : 1 ≤ sβ) (h1a : 1 ≤ sa) (h1x : 1 ≤ sx)
    (hB : 4 * (sβ * sy) + (if t = 'N' then N else M).toNat * (48 * (sα * sa * sx)) ≤ B) :
    ∃ m' v, gemvGen k t M N ALPHA A LDA X INCX BETA Y INCY m = .ok ((), m') ∧
      VecAt m' Y INCY (if t = 'N' then M else N).toNat v ∧
      ∀ i, i < (if t = 'N' then M else N).toNat → I.Is (v i)
        ((ALPHA.map I.val).toH * ∑ k ∈ range (if t = 'N' then N else M).toNat, op i k * ((x k).map I.val).toH +
            (BETA.map I.val).toH * ((y i).map I.val).toH) := by
  obtain ⟨m', h1, h2, _⟩ := gemvGen_bits m k t M N ALPHA A LDA X INCX BETA Y INCY a x y hM hN h
  refine ⟨m', _, h1, h2, fun i hi => ?_⟩
  have eA : ∀ l, ∃ x : Scal ℝ, x.toH = op i l ∧ (l < (if t = 'N' then N else M).toNat → I.ES (opVE t a i l) x sa) := by
    intro l
    rcases hop with ⟨rfl, e⟩ | ⟨rfl, e⟩ | ⟨rfl, e⟩
    · exact ⟨_, (e i l).symm, fun hl => (iA i l hi hl).e⟩
    · exact ⟨_, (e i l).symm, fun hl => (iA l i hl hi).e⟩
    · exact ⟨((a l i).map I.val).smartConj, by rw [e, C04_smartConj], fun hl => (iA l i hl hi).e.conj⟩
  choose z ez hz using eA
  obtain ⟨w, hw, ew⟩ := EQ.pGemv (tA := t) ta tb hα.e hβ.e (iy i hi).e hz (fun k hk => (ix k hk).e) h1α h1β h1a h1x hB
  have := hw.is
  rw [ew] at this
  simpa only [ez] using this

/-- C59, portable GERU (`conjY = false`) and GERC, for the y_j whose comparison with zero is right. -/
theorem C59_ger_portable (I : IntModel F u B) (conjY : Bool) (m : Mem F) (M N : Int) (ALPHA : Scal F)
    (X INCX Y INCY A LDA : Int) (x y : Nat → Quat F) (a : Nat → Nat → Quat F)
    (ta : StdModel.Truth I.toStdModel ALPHA) (h : GerBArgs m M N X INCX Y INCY A LDA x y a)
    (sα sx sy sa : ℝ) (hα : I.IntS sα ALPHA) (ix : I.IntVec sx M.toNat x) (iy : I.IntVec sy N.toNat y)
    (iA : I.IntMat sa M.toNat N.toNat a) (h1y : 1 ≤ sy) (hB : sa + 16 * (sα * sx * sy) ≤ B) :
    ∃ m' v, gerGen conjY M N ALPHA X INCX Y INCY A LDA m = .ok ((), m') ∧
      MatAt m' A LDA M.toNat N.toNat v ∧
      ∀ i j, i < M.toNat → j < N.toNat →
        (Quat.neOp (y j) (Quat.mkReal Arith.zero) = false → ((y j).map I.val).toH = 0) →
        I.Is (v i j) (((a i j).map I.val).toH + (ALPHA.map I.val).toH * ((x i).map I.val).toH *
            (if conjY then star ((y j).map I.val).toH else ((y j).map I.val).toH)) := by
  obtain ⟨m', h1, h2, _⟩ := gerGen_bits conjY m M N ALPHA X INCX Y INCY A LDA x y a h
  refine ⟨m', _, h1, h2, fun i j hi hj h0 => ?_⟩
  obtain ⟨z, hz, ez⟩ := EQ.pGer conjY ta h0 hα.e (ix i hi).e (iy j hj).e (iA i j hi hj).e h1y hB
  have := hz.is
  rwa [ez] at this

/-! ## Fortran build -/

/-- C59, Fortran SCALV, ALPHA not comparing equal to zero. -/
theorem C59_scalv_fortran (I : IntModel F u B) (m : Mem F) (SIDE : Char) (N X INCX : Int) (ALPHA : Scal F)
    (x : Nat → Quat F) (hX : VecAt m (fbase X N INCX) INCX N.toNat x) (hinc : INCX ≠ 0) (hz : ALPHA.vIsZero = false) (s t : ℝ)
    (hα : I.IntS s ALPHA) (hx : I.IntVec t N.toNat x) (hB : 4 * (s * t) ≤ B) :
    ∃ m' v, scalvF SIDE N ALPHA X INCX m = .ok ((), m') ∧ VecAt m' (fbase X N INCX) INCX N.toNat v ∧
      ∀ i, i < N.toNat → I.Is (v i)
        (if SIDE = 'R' ∨ SIDE = 'r' then ((x i).map I.val).toH * (ALPHA.map I.val).toH
         else (ALPHA.map I.val).toH * ((x i).map I.val).toH) := by
  obtain ⟨_, m', h, h1, _⟩ := scalvF_bits (SIDE := SIDE) (ALPHA := ALPHA) hinc hX
  refine ⟨m', _, h, h1, fun i hi => ?_⟩
  rw [hz, if_neg Bool.false_ne_true]
  have := (EQ.fScalV (lsame 'R' SIDE) hα.e (hx i hi).e hB).is
  rw [toH_fScalV] at this
  simpa only [lsame_R_iff] using this

/-- C59, Fortran AXPYV, if `==` is true only of machine numbers of the same value. -/
theorem C59_axpyv_fortran (I : IntModel F u B) (m : Mem F) (SIDE : Char) (N X INCX Y INCY : Int) (ALPHA : Scal F)
    (x y : Nat → Quat F) (hX : VecAt m (fbase X N INCX) INCX N.toNat x) (hY : VecAt m (fbase Y N INCY) INCY N.toNat y)
    (hinc : INCY ≠ 0) (hdis : Apart (VecCell (fbase X N INCX) INCX N.toNat) (VecCell (fbase Y N INCY) INCY N.toNat))
    (heq : ∀ a b : F, (a ==ᶠ b) = true → I.val a = I.val b) (s t w : ℝ)
    (hα : I.IntS s ALPHA) (hx : I.IntVec t N.toNat x) (hy : I.IntVec w N.toNat y) (hB : w + 4 * (s * t) ≤ B) :
    ∃ m' v, axpyvF SIDE N ALPHA X INCX Y INCY m = .ok ((), m') ∧ VecAt m' (fbase Y N INCY) INCY N.toNat v ∧
      ∀ i, i < N.toNat → I.Is (v i) (((y i).map I.val).toH +
        (if SIDE = 'R' ∨ SIDE = 'r' then ((x i).map I.val).toH * (ALPHA.map I.val).toH
         else (ALPHA.map I.val).toH * ((x i).map I.val).toH)) := by
  obtain ⟨_, m', h, h1, _⟩ := axpyvF_bits (SIDE := SIDE) (ALPHA := ALPHA) hinc hX hY hdis
  refine ⟨m', _, h, h1, fun i hi => ?_⟩
  cases hz : ALPHA.vIsZero with
  | true =>
    rw [if_pos rfl, vIsZero_toH I.toStdModel heq hz]
    simpa using (hy i hi).e.is
  | false =>
    rw [if_neg Bool.false_ne_true]
    have := (EQ.fAxpyV (lsame 'R' SIDE) hα.e (hx i hi).e (hy i hi).e hB).is
    rw [toH_fAxpyV] at this
    simpa only [lsame_R_iff] using this

/-- C59, Fortran DOTU and DOTC. -/
theorem C59_dot_fortran (I : IntModel F u B) (m : Mem F) (N X INCX Y INCY : Int) (x y : Nat → Quat F)
    (hX : VecAt m (fbase X N INCX) INCX N.toNat x) (hY : VecAt m (fbase Y N INCY) INCY N.toNat y)
    (s t : ℝ) (hs : 0 ≤ s) (ht : 0 ≤ t)
    (hx : I.IntVec s N.toNat x) (hy : I.IntVec t N.toNat y) (hB : N.toNat * (4 * (s * t)) ≤ B) :
    ∃ ru rc, dotF false N X INCX Y INCY m = .ok (ru, m) ∧ dotF true N X INCX Y INCY m = .ok (rc, m) ∧
      I.Is ru (∑ i ∈ range N.toNat, ((x i).map I.val).toH * ((y i).map I.val).toH) ∧
      I.Is rc (∑ i ∈ range N.toNat, star ((x i).map I.val).toH * ((y i).map I.val).toH) := by
  obtain ⟨_, _, h, rfl, rfl⟩ := dotF_bits (conj := false) hX hY
  obtain ⟨_, _, h', rfl, rfl⟩ := dotF_bits (conj := true) hX hY
  have e := fun c => (EQ.fDot c N.toNat (fun k hk => (hx k hk).e) (fun k hk => (hy k hk).e) (mul_nonneg hs ht)
    (by linarith)).is
  refine ⟨_, _, h, h', ?_, ?_⟩
  · have := e false
    rw [toH_fDot] at this
    simpa using this
  · have := e true
    rw [toH_fDot] at this
    simpa using this

theorem IntMat.pick {I : IntModel F u B} {a : ℝ} {t : FTrans} {p q : ℕ} {X : Nat → Nat → Quat F} {i l : ℕ}
    (h : I.IntMat a (if t = .N then p else q) (if t = .N then q else p) X) (hi : i < p) (hl : l < q) :
    I.EQ (t.pick X i l) ((t.pick (fun i k => (X i k).map I.val) i l)) a := by
  cases t
  · exact (h i l hi hl).e
  · exact (h l i hl hi).e
  · exact (h l i hl hi).e

/-- C59, Fortran GEMM (every pair of scalar types, any flags), if 1 is exact and `==` is true only of machine
numbers of the same value. -/
theorem C59_gemm_fortran (I : IntModel F u B) (m : Mem F) (tA tB : Char) (M N K : Int) (ALPHA BETA : Scal F)
    (A LDA Bp LDB C LDC : Int) (Av Bv Cv : Nat → Nat → Quat F) (opA opB : Nat → Nat → ℍ[ℝ])
    (hA : OpIs tA (fun i k => (Av i k).map I.val) opA) (hBo : OpIs tB (fun i k => (Bv i k).map I.val) opB)
    (h1 : I.val Arith.one = 1) (he : ∀ a b : F, ArithEq.feq a b = true → I.val a = I.val b)
    (h : FGemmArgs m tA tB M N K ALPHA A LDA Bp LDB C LDC Av Bv Cv)
    (sα sβ a b c : ℝ) (hα : I.IntS sα ALPHA) (hβ : I.IntS sβ BETA)
    (iA : I.IntMat a (if IsN tA then M else K).toNat (if IsN tA then K else M).toNat Av)
    (iB : I.IntMat b (if IsN tB then K else N).toNat (if IsN tB then N else K).toNat Bv)
    (iC : I.IntMat c M.toNat N.toNat Cv) (h1α : 1 ≤ sα) (h1β : 1 ≤ sβ) (ha : 1 ≤ a) (hb : 1 ≤ b)
    (hB : 4 * (sβ * c) + K.toNat * (16 * (sα * a * b)) ≤ B) :
    ∃ m' V, hgemmF tA tB M N K ALPHA A LDA Bp LDB BETA C LDC m = .ok ((), m') ∧
      MatAt m' C LDC M.toNat N.toNat V ∧
      ∀ i j, i < M.toNat → j < N.toNat → I.Is (V i j)
        ((ALPHA.map I.val).toH * ∑ k ∈ range K.toNat, opA i k * opB k j +
            (BETA.map I.val).toH * ((Cv i j).map I.val).toH) := by
  have ta := fTruth_of h1 he ALPHA
  have tb := fTruth_of h1 he BETA
  obtain ⟨m', h1, h2, _⟩ := hgemmF_bits m tA tB M N K ALPHA BETA A LDA Bp LDB C LDC Av Bv Cv h
  refine ⟨m', _, h1, h2, fun i j hi hj => ?_⟩
  have nt : ∀ {t : Char} {X : Nat → Nat → Quat ℝ} {op : Nat → Nat → ℍ[ℝ]}, OpIs t X op → (FTrans.ofChar t = .N ↔ IsN t) := by
    rintro t X op (⟨rfl | rfl, _⟩ | ⟨rfl | rfl, _⟩ | ⟨rfl | rfl, _⟩) <;> simp [FTrans.ofChar, IsN]
  obtain ⟨z, hz, ez⟩ := EQ.fGemm (K := K) (ta := FTrans.ofChar tA) (tb := FTrans.ofChar tB) ta tb hα.e hβ.e (iC i j hi hj).e
    (qs' := fun k => (FTrans.ofChar tA).pick Av i k) (ys' := fun k => (FTrans.ofChar tB).pick Bv k j)
    (fun k hk => IntMat.pick (p := M.toNat) (q := K.toNat)
      (by simp only [nt hA]; split at iA <;> (rename_i g; simp only [g, if_true, if_false]; exact iA)) hi hk)
    (fun k hk => IntMat.pick (p := K.toNat) (q := N.toNat)
      (by simp only [nt hBo]; split at iB <;> (rename_i g; simp only [g, if_true, if_false]; exact iB)) hk hj)
    h1α h1β ha hb hB
  have := hz.is
  rw [ez] at this
  simpa only [cj_pick hA, cj_pick hBo] using this

/-- C59, Fortran GEMV (every pair of scalar types; partial: calls outside its known defects). -/
theorem C59_gemv_fortran_partial (I : IntModel F u B) (m : Mem F) (t : Char) (M N : Int) (ALPHA : Scal F)
    (A LDA X INCX : Int) (BETA : Scal F) (Y INCY : Int) (a : Nat → Nat → Quat F) (x y : Nat → Quat F)
    (op : Nat → Nat → ℍ[ℝ]) (hop : OpIs t (fun i k => (a i k).map I.val) op)
    (h1 : I.val Arith.one = 1) (he : ∀ a b : F, ArithEq.feq a b = true → I.val a = I.val b) (hM : M ≠ 0) (hN : N ≠ 0)
    (h : FGemvArgs m t M N ALPHA A LDA X INCX Y INCY a x y) (hg : FGemvGood t M N ALPHA BETA INCX INCY)
    (sα sβ sa sx sy : ℝ) (hα : I.IntS sα ALPHA) (hβ : I.IntS sβ BETA) (iA : I.IntMat sa M.toNat N.toNat a)
    (ix : I.IntVec sx (gemvLenX t M N).toNat x) (iy : I.IntVec sy (gemvLenY t M N).toNat y)
    (h1α : 1 ≤ sα) (h1β : 1 ≤ sβ) (h1a : 1 ≤ sa) (h1x : 1 ≤ sx)
    (hB : 4 * (sβ * sy) + (gemvLenX t M N).toNat * (16 * (sα * sa * sx)) ≤ B) :
    ∃ m' v, gemvF t M N ALPHA A LDA X INCX BETA Y INCY m = .ok ((), m') ∧
      VecAt m' (vecStart Y (gemvLenY t M N) INCY) INCY (gemvLenY t M N).toNat v ∧
      ∀ i, i < (gemvLenY t M N).toNat → I.Is (v i)
        ((ALPHA.map I.val).toH * ∑ k ∈ range (gemvLenX t M N).toNat, op i k * ((x k).map I.val).toH +
            (BETA.map I.val).toH * ((y i).map I.val).toH) := by
  have ta := fTruth_of h1 he ALPHA
  have tb := fTruth_of h1 he BETA
  obtain ⟨m', h1, h2, _⟩ := gemvF_bits m t M N ALPHA A LDA X INCX BETA Y INCY a x y hM hN h hg
  refine ⟨m', _, h1, h2, fun i hi => ?_⟩
  have eA : ∀ k, k < (gemvLenX t M N).toNat → I.EQ ((FTrans.gv t).pick a i k)
      ((FTrans.gv t).pick (fun i k => (a i k).map I.val) i k) sa := by
    intro k hk
    rcases hop with ⟨rfl | rfl, _⟩ | ⟨rfl | rfl, _⟩ | ⟨rfl | rfl, _⟩ <;>
      simp only [gemvLenX, gemvLenY, IsN] at hi hk <;> simp at hi hk <;>
      first | exact (iA i k (by omega) (by omega)).e | exact (iA k i (by omega) (by omega)).e
  obtain ⟨z, hz, ez⟩ := EQ.fGemv (tt := FTrans.gv t) ta tb hα.e hβ.e (iy i hi).e eA (fun k hk => (ix k hk).e)
    h1α h1β h1a h1x hB
  have := hz.is
  rw [ez] at this
  simpa only [cj_gv_pick hop] using this

/-- C59, Fortran GERU (`conjY = false`) and GERC, if `==` is true only of machine numbers of the same value. -/
theorem C59_ger_fortran (I : IntModel F u B) (conjY : Bool) (m : Mem F) (M N : Int) (ALPHA : Scal F)
    (X INCX Y INCY A LDA : Int) (x y : Nat → Quat F) (a : Nat → Nat → Quat F)
    (he : ∀ a b : F, ArithEq.feq a b = true → I.val a = I.val b)
    (h : GerArgs m M N X INCX Y INCY A LDA x y a) (hd : ∀ r, ALPHA = .d r → INCX = 1)
    (sα sx sy sa : ℝ) (hα : I.IntS sα ALPHA) (ix : I.IntVec sx M.toNat x) (iy : I.IntVec sy N.toNat y)
    (iA : I.IntMat sa M.toNat N.toNat a) (h1x : 1 ≤ sx) (hB : sa + 16 * (sα * sx * sy) ≤ B) :
    ∃ m' v, gerF conjY M N ALPHA X INCX Y INCY A LDA m = .ok ((), m') ∧
      MatAt m' A LDA M.toNat N.toNat v ∧
      ∀ i j, i < M.toNat → j < N.toNat →
        I.Is (v i j) (((a i j).map I.val).toH + (ALPHA.map I.val).toH * ((x i).map I.val).toH *
            (if conjY then star ((y j).map I.val).toH else ((y j).map I.val).toH)) := by
  obtain ⟨m', h1, h2, _⟩ := gerF_bits conjY m M N ALPHA X INCX Y INCY A LDA x y a h hd
  refine ⟨m', _, h1, h2, fun i j hi hj => ?_⟩
  obtain ⟨z, hz, ez⟩ := EQ.fGer conjY he hα.e (ix i hi).e (iy j hj).e (iA i j hi hj).e h1x hB
  have := hz.is
  rwa [ez] at this

end eq
end Haxx
