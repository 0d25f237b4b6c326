import Verif.Fin2
import Verif.PropsTile

/-!
# C60: results of moderate data are finite and accurate

The error bounds of C40 to C42 speak of the results that did not overflow or underflow on the way. Here
nothing is assumed of the results: the arithmetic has infinities, NaNs and gradual underflow, and the inputs
have finite components of magnitude at most some bounds (each at least 1) for which the largest number that
can occur, `S`, leaves room for the roundings: `(1 + 2u)^D · S ≤ Ω`, where `Ω` is the largest machine number
and `D` the number of roundings in a chain. Then no operation overflows, every component of the result is
finite, and differs from the mathematical one by at most `((1 + 2u)^D - 1) · S`.

The specification is here: what "finite and at most s" and "within e of z" mean. The arithmetic is any with
`FinModel` (`ieeeModel` below: IEEE double precision, round to nearest even, gradual underflow, overflow).
-/

set_option linter.unusedSectionVars false

namespace Haxx
open Arith Quaternion Finset

variable {F : Type} [Arith F] {u η Ω : ℝ}

namespace FinModel

/-- a finite machine number of magnitude at most `s` (in memory: not a product still to be fused) -/
def Bdd1 (J : FinModel F u η Ω) (s : ℝ) (a : F) : Prop := (J.fin a ∧ ¬ J.prod a) ∧ |J.val a| ≤ s
/-- a quaternion with finite components of magnitude at most `s` -/
def BddQ (J : FinModel F u η Ω) (s : ℝ) (q : Quat F) : Prop := q.All (J.Bdd1 s)
/-- a scalar (real, complex or quaternion) with finite components of magnitude at most `s` -/
def BddS (J : FinModel F u η Ω) (s : ℝ) : Scal F → Prop
  | .d a => J.Bdd1 s a
  | .z a => J.Bdd1 s a.re ∧ J.Bdd1 s a.im
  | .h a => J.BddQ s a
/-- the first `n` elements of a vector are such quaternions -/
def BddVec (J : FinModel F u η Ω) (s : ℝ) (n : ℕ) (x : ℕ → Quat F) : Prop := ∀ i, i < n → J.BddQ s (x i)
/-- the first `r` × `c` entries of a matrix are such quaternions -/
def BddMat (J : FinModel F u η Ω) (s : ℝ) (r c : ℕ) (X : ℕ → ℕ → Quat F) : Prop :=
  ∀ i j, i < r → j < c → J.BddQ s (X i j)
/-- the same for a matrix of scalars of any type -/
def BddKMat (J : FinModel F u η Ω) (s : ℝ) (r c : ℕ) (X : ℕ → ℕ → Scal F) : Prop :=
  ∀ i j, i < r → j < c → J.BddS s (X i j)
/-- every component of the machine quaternion `q` is finite and within `e` of that of `z` -/
def Near (J : FinModel F u η Ω) (e : ℝ) (q : Quat F) (z : ℍ[ℝ]) : Prop :=
  q.All J.fin ∧ |J.val q.re - z.re| ≤ e ∧ |J.val q.i - z.imI| ≤ e ∧ |J.val q.j - z.imJ| ≤ e ∧ |J.val q.k - z.imK| ≤ e
/-- error of a chain of `D` roundings of numbers of magnitude at most `S` -/
noncomputable def Err (_ : FinModel F u η Ω) (D : ℕ) (S : ℝ) : ℝ := ((1 + 2 * u) ^ D - 1) * S
/-- numbers of magnitude at most `S` cannot overflow within `D` roundings -/
def Fits (_ : FinModel F u η Ω) (D : ℕ) (S : ℝ) : Prop := (1 + 2 * u) ^ D * S ≤ Ω

/-- the bundle the calculus works with -/
@[reducible] def rm (J : FinModel F u η Ω) (D : ℕ) (S : ℝ) (h : J.Fits D S) : Room F := ⟨u, η, Ω, J, D, S, h⟩

variable {J : FinModel F u η Ω} {s t S : ℝ} {D : ℕ} {h : J.Fits D S}

theorem Bdd1.w {a : F} (h1 : J.Bdd1 s a) : (J.rm D S h).W 0 a (J.val a) s :=
  ⟨h1.1.1, by change |J.val a - J.val a| ≤ _; simp, h1.2, fun e => (h1.1.2 e).elim⟩

theorem BddQ.w {q : Quat F} (h1 : J.BddQ s q) : (J.rm D S h).WQ 0 q (q.map J.val) s :=
  ⟨h1.1.w, h1.2.1.w, h1.2.2.1.w, h1.2.2.2.w⟩

theorem BddS.w {a : Scal F} (h1 : J.BddS s a) : (J.rm D S h).WS 0 a (a.map J.val) s := by
  cases a with
  | d a => exact Bdd1.w h1
  | z a => exact ⟨h1.1.w, h1.2.w⟩
  | h a => exact BddQ.w h1

theorem near {q : Quat F} {z : Quat ℝ} {p : ℕ} (h1 : (J.rm D S h).WQ p q z S) (hp : p ≤ D) : J.Near (J.Err D S) q z.toH := by
  have h2 := h1.mono hp le_rfl
  exact ⟨⟨h2.1.1, h2.2.1.1, h2.2.2.1.1, h2.2.2.2.1⟩, h2.1.2.1, h2.2.1.2.1, h2.2.2.1.2.1, h2.2.2.2.2.1⟩

end FinModel

open FinModel Room

theorem FinModel.rm_n {J : FinModel F u η Ω} {S : ℝ} {D : ℕ} {h : J.Fits D S} : (J.rm D S h).n = D := rfl

/-- the depth of a chain is at most that of the bundle -/
macro "rmn" : tactic => `(tactic| first | (rw [rm_n]; done) | (rw [rm_n]; omega))

/-- bounds at least one multiply to at least one -/
theorem one_le_mul' {a b : ℝ} (ha : 1 ≤ a) (hb : 1 ≤ b) : 1 ≤ a * b := by nlinarith

/-! ## SIMD build -/

/-- C60, SCALV. -/
theorem C60_scalv (J : FinModel F u η Ω) (m : Mem F) (SIDE : Char) (N X INCX : Int) (ALPHA : Scal F)
    (x : Nat → Quat F) (hX : VecAt m X INCX N.toNat x) (hinc : INCX ≠ 0) (s t : ℝ)
    (hs1 : 1 ≤ s) (ht1 : 1 ≤ t)
    (hα : J.BddS s ALPHA) (hx : J.BddVec t N.toNat x) (hB : J.Fits 4 (4 * (s * t))) :
    ∃ m' v, scalvAVX SIDE N ALPHA X INCX m = .ok ((), m') ∧ VecAt m' X INCX N.toNat v ∧
      ∀ i, i < N.toNat → J.Near (J.Err 4 (4 * (s * t))) (v i)
        (if SIDE = 'L' then (ALPHA.map J.val).toH * ((x i).map J.val).toH
         else ((x i).map J.val).toH * (ALPHA.map J.val).toH) := by
  obtain ⟨_, m', h, h1, _⟩ := scalvAVX_wp (SIDE := SIDE) (ALPHA := ALPHA) hX (Or.inl hinc)
  refine ⟨m', _, h, h1, fun i hi => ?_⟩
  have := near (h := hB) (WQ.scalOp (SIDE == 'L') hα.w (hx i hi).w (one_le_mul' hs1 ht1) le_rfl (by rmn)) (by omega)
  rw [toH_scalOp] at this
  by_cases hs : SIDE = 'L' <;> simpa [hs] using this

/-- C60, AXPYV. -/
theorem C60_axpyv (J : FinModel F u η Ω) (m : Mem F) (SIDE : Char) (N X INCX Y INCY : Int) (ALPHA : Scal F)
    (x y : Nat → Quat F) (hX : VecAt m X INCX N.toNat x) (hY : VecAt m Y INCY N.toNat y)
    (hinc : INCY ≠ 0) (hdis : Apart (VecCell X INCX N.toNat) (VecCell Y INCY N.toNat)) (s t w : ℝ)
    (hs1 : 1 ≤ s) (ht1 : 1 ≤ t)
    (hα : J.BddS s ALPHA) (hx : J.BddVec t N.toNat x) (hy : J.BddVec w N.toNat y) (hB : J.Fits 5 (w + 4 * (s * t))) :
    ∃ m' v, axpyvAVX SIDE N ALPHA X INCX Y INCY m = .ok ((), m') ∧ VecAt m' Y INCY N.toNat v ∧
      ∀ i, i < N.toNat → J.Near (J.Err 5 (w + 4 * (s * t))) (v i) (((y i).map J.val).toH +
        (if SIDE = 'L' then (ALPHA.map J.val).toH * ((x i).map J.val).toH
         else ((x i).map J.val).toH * (ALPHA.map J.val).toH)) := by
  obtain ⟨_, m', h, h1, _⟩ := axpyvAVX_wp (SIDE := SIDE) (ALPHA := ALPHA) hX hY (Or.inl hinc) hdis
  refine ⟨m', _, h, h1, fun i hi => ?_⟩
  have := near (h := hB) (WQ.axpyOp (SIDE == 'L') hα.w (hx i hi).w (hy i hi).w (one_le_mul' hs1 ht1) le_rfl (by rmn)) (by omega)
  rw [toH_axpyOp] at this
  by_cases hs : SIDE = 'L' <;> simpa [hs] using this

/-- C60, DOTU and DOTC. -/
theorem C60_dot (J : FinModel F u η Ω) (m : Mem F) (N X INCX Y INCY : Int) (x y : Nat → Quat F)
    (hX : VecAt m X INCX N.toNat x) (hY : VecAt m Y INCY N.toNat y)
    (hx32 : Fits32 (4 * INCX)) (hy32 : Fits32 (4 * INCY)) (s t : ℝ) (hs : 1 ≤ s) (ht : 1 ≤ t)
    (hx : J.BddVec s N.toNat x) (hy : J.BddVec t N.toNat y) (hB : J.Fits (4 * N.toNat + 4) (N.toNat * (4 * (s * t)))) :
    ∃ ru rc, dotAVX false N X INCX Y INCY m = .ok (ru, m) ∧ dotAVX true N X INCX Y INCY m = .ok (rc, m) ∧
      J.Near (J.Err (4 * N.toNat + 4) (N.toNat * (4 * (s * t)))) ru (∑ i ∈ range N.toNat, ((x i).map J.val).toH * ((y i).map J.val).toH) ∧
      J.Near (J.Err (4 * N.toNat + 4) (N.toNat * (4 * (s * t)))) rc (∑ i ∈ range N.toNat, star ((x i).map J.val).toH * ((y i).map J.val).toH) := by
  obtain ⟨_, _, h, rfl, rfl⟩ := dotAVX_wp (conj := false) hX hY (fun _ => hx32) (fun _ => hy32)
  obtain ⟨_, _, h', rfl, rfl⟩ := dotAVX_wp (conj := true) hX hY (fun _ => hx32) (fun _ => hy32)
  have e := fun c => near (h := hB) (WQ.dotVal c N.toNat (fun k hk => (hx k hk).w) (fun k hk => (hy k hk).w) (one_le_mul' hs ht) le_rfl
    (by rmn)) (by omega)
  refine ⟨_, _, h, h', ?_, ?_⟩
  · have := e false
    rw [dotVal_sum] at this
    simpa [cj] using this
  · have := e true
    rw [dotVal_sum] at this
    simpa [cj] using this

/-- C60, GEMM: A, B, C, ALPHA, BETA with finite components of magnitude at most a, b, c, sα, sβ. -/
theorem C60_gemm (J : FinModel F u η Ω) (m : Mem F) (blk : Blk) (bAddr aAddr : Int) (junk : Int → F)
    (TRANSA TRANSB : Char) (M N K : Int) (ALPHA BETA : Scal F) (A LDA Bp LDB C LDC : Int)
    (Av Bv Cv : Nat → Nat → Quat F)
    (h : GemmPre m blk bAddr aAddr TRANSA TRANSB M.toNat N.toNat K.toNat A LDA Av Bp LDB Bv C LDC Cv)
    (sα sβ a b c : ℝ) (hα : J.BddS sα ALPHA) (hβ : J.BddS sβ BETA)
    (hA : J.BddMat a (if isT TRANSA then K else M).toNat (if isT TRANSA then M else K).toNat Av)
    (hBm : J.BddMat b (if isT TRANSB then N else K).toNat (if isT TRANSB then K else N).toNat Bv)
    (hC : J.BddMat c M.toNat N.toNat Cv) (h1α : 1 ≤ sα) (h1β : 1 ≤ sβ) (ha : 1 ≤ a) (hb : 1 ≤ b) (hc : 1 ≤ c)
    (hB : J.Fits (4 * K.toNat + 5) (4 * (sβ * c) + K.toNat * (16 * (sα * a * b)))) :
    ∃ m' V, gemmAVX blk bAddr aAddr junk TRANSA TRANSB M N K ALPHA A LDA Bp LDB BETA C LDC m = .ok ((), m') ∧
      MatAt m' C LDC M.toNat N.toNat V ∧
      ∀ i j, i < M.toNat → j < N.toNat → J.Near (J.Err (4 * K.toNat + 5) (4 * (sβ * c) + K.toNat * (16 * (sα * a * b)))) (V i j)
        ((ALPHA.map J.val).toH * ∑ k ∈ range K.toNat, opSpec TRANSA (fun i k => (Av i k).map J.val) i k *
            opSpec TRANSB (fun k j => (Bv k j).map J.val) k j +
          (BETA.map J.val).toH * ((Cv i j).map J.val).toH) := by
  obtain ⟨_, m', h1, h2, _⟩ := gemmAVX_wp (junk := junk) (ALPHA := ALPHA) (BETA := BETA) h
  rw [gemmAVX_clamp h.mc_pos h.nc_pos h.kc_pos]
  refine ⟨m', _, h1, h2, fun i j hi hj => ?_⟩
  have e : ∀ (t : Char) (X : Nat → Nat → Quat F) (i k : Nat),
      (opE t X i k).map J.val = opE t (fun i k => (X i k).map J.val) i k := by
    intro t X i k; unfold opE; split <;> rfl
  have eA : ∀ k, k < K.toNat → (J.rm _ _ hB).WQ 0 (opE TRANSA Av i k) (opE TRANSA (fun i k => (Av i k).map J.val) i k) a := by
    intro k hk
    rw [← e]
    unfold opE
    split
    · rename_i ht; exact (hA k i (by rw [if_pos ht]; exact hk) (by rw [if_pos ht]; exact hi)).w
    · rename_i ht; exact (hA i k (by rw [if_neg ht]; exact hi) (by rw [if_neg ht]; exact hk)).w
  have eB : ∀ k, k < K.toNat → (J.rm _ _ hB).WQ 0 (opE TRANSB Bv k j) (opE TRANSB (fun i k => (Bv i k).map J.val) k j) b := by
    intro k hk
    rw [← e]
    unfold opE
    split
    · rename_i ht; exact (hBm j k (by rw [if_pos ht]; exact hj) (by rw [if_pos ht]; exact hk)).w
    · rename_i ht; exact (hBm k j (by rw [if_neg ht]; exact hk) (by rw [if_neg ht]; exact hj)).w
  have := near (h := hB) (WQ.gemmElt TRANSA TRANSB K.toNat hα.w hβ.w (hC i j hi hj).w eA eB h1α h1β hc ha hb le_rfl (by rmn)) (by omega)
  rw [toH_gemmElt] at this
  exact this

/-! ## Portable build -/

/-- C60, portable SCALV. -/
theorem C60_scalv_portable (J : FinModel F u η Ω) (m : Mem F) (SIDE : Char) (N X INCX : Int) (ALPHA : Scal F)
    (x : Nat → Quat F) (hX : VecAt m X INCX N.toNat x) (hinc : 0 < INCX) (fx : Fits32 (N * INCX)) (s t : ℝ)
    (hs1 : 1 ≤ s) (ht1 : 1 ≤ t)
    (hα : J.BddS s ALPHA) (hx : J.BddVec t N.toNat x) (hB : J.Fits 4 (4 * (s * t))) :
    ∃ m' v, scalvGen SIDE N ALPHA X INCX m = .ok ((), m') ∧ VecAt m' X INCX N.toNat v ∧
      ∀ i, i < N.toNat → J.Near (J.Err 4 (4 * (s * t))) (v i)
        (if SIDE = 'R' then ((x i).map J.val).toH * (ALPHA.map J.val).toH
         else (ALPHA.map J.val).toH * ((x i).map J.val).toH) := by
  obtain ⟨_, m', h, h1, _⟩ := scalvGen_wp (SIDE := SIDE) (ALPHA := ALPHA) hinc fx hX
  refine ⟨m', _, h, h1, fun i hi => ?_⟩
  have l := near (h := hB) (WQ.mulL hα.w (hx i hi).w (.inr (one_le_mul' hs1 ht1)) le_rfl (by rmn)) (by omega)
  have r := near (h := hB) (WQ.mulR hα.w (hx i hi).w (one_le_mul' hs1 ht1) le_rfl (by rmn)) (by omega)
  rw [StdModel.toH_mulL] at l
  rw [StdModel.toH_mulR] at r
  by_cases hs : SIDE = 'R' <;> simpa [hs]

section eq
variable [ArithEq F]

/-- C60, portable AXPYV (the test of ALPHA for zero being right, as it is unless only its k component is non-zero). -/
theorem C60_axpyv_portable (J : FinModel F u η Ω) (m : Mem F) (SIDE : Char) (N X INCX Y INCY : Int) (ALPHA : Scal F)
    (x y : Nat → Quat F) (hX : VecAt m X INCX N.toNat x) (hY : VecAt m Y INCY N.toNat y)
    (hix : 0 < INCX) (hiy : 0 < INCY) (fx : Fits32 (N * INCX)) (fy : Fits32 (N * INCY))
    (hdis : Apart (VecCell X INCX N.toNat) (VecCell Y INCY N.toNat))
    (hA : ALPHA.eqZero = true → (ALPHA.map J.val).toH = 0) (s t w : ℝ)
    (hs1 : 1 ≤ s) (ht1 : 1 ≤ t)
    (hα : J.BddS s ALPHA) (hx : J.BddVec t N.toNat x) (hy : J.BddVec w N.toNat y) (hB : J.Fits 5 (w + 4 * (s * t))) :
    ∃ m' v, axpyvGen SIDE N ALPHA X INCX Y INCY m = .ok ((), m') ∧ VecAt m' Y INCY N.toNat v ∧
      ∀ i, i < N.toNat → J.Near (J.Err 5 (w + 4 * (s * t))) (v i) (((y i).map J.val).toH +
        (if SIDE = 'R' then ((x i).map J.val).toH * (ALPHA.map J.val).toH
         else (ALPHA.map J.val).toH * ((x i).map J.val).toH)) := by
  by_cases hz : ALPHA.eqZero = true
  · refine ⟨m, y, ?_, hY, fun i hi => ?_⟩
    · unfold axpyvGen; rw [if_pos hz]; split <;> rfl
    · rw [hA hz]
      have w1 : w ≤ w + 4 * (s * t) := by nlinarith
      simpa using near (h := hB) ((hy i hi).w.mono (q := 0) le_rfl w1) (by omega)
  · obtain ⟨_, m', h, h1, _⟩ := axpyvGen_wp (SIDE := SIDE) (ALPHA := ALPHA) hix hiy fx fy
      (by simpa using hz) hX hY hdis
    refine ⟨m', _, h, h1, fun i hi => ?_⟩
    have w0 := (abs_nonneg _).trans (hy i hi).1.2
    have l := near (h := hB) (WQ.addAssign (hy i hi).w (WQ.mulL hα.w (hx i hi).w (.inr (one_le_mul' hs1 ht1))
      (by change 4 * (s * t) ≤ w + 4 * (s * t); linarith) (by rmn)) le_rfl (by rmn)) (by omega)
    have r := near (h := hB) (WQ.addAssign (hy i hi).w (WQ.mulR hα.w (hx i hi).w (one_le_mul' hs1 ht1)
      (by change 4 * (s * t) ≤ w + 4 * (s * t); linarith) (by rmn)) le_rfl (by rmn)) (by omega)
    rw [StdModel.toH_addAssign, StdModel.toH_mulL] at l
    rw [StdModel.toH_addAssign, StdModel.toH_mulR] at r
    by_cases hs : SIDE = 'R' <;> simpa [hs]

omit [ArithEq F] in
/-- C60, portable DOTU and DOTC. -/
theorem C60_dot_portable (J : FinModel F u η Ω) (m : Mem F) (N X INCX Y INCY : Int) (x y : Nat → Quat F)
    (hX : VecAt m X INCX N.toNat x) (hY : VecAt m Y INCY N.toNat y)
    (hix : 0 < INCX) (hiy : 0 < INCY) (fx : Fits32 (N * INCX)) (fy : Fits32 (N * INCY)) (s t : ℝ) (hs : 1 ≤ s) (ht : 1 ≤ t)
    (hx : J.BddVec s N.toNat x) (hy : J.BddVec t N.toNat y) (hB : J.Fits (4 * N.toNat + 1) (N.toNat * (4 * (s * t)))) :
    ∃ ru rc, dotGen false N X INCX Y INCY m = .ok (ru, m) ∧ dotGen true N X INCX Y INCY m = .ok (rc, m) ∧
      J.Near (J.Err (4 * N.toNat + 1) (N.toNat * (4 * (s * t)))) ru (∑ i ∈ range N.toNat, ((x i).map J.val).toH * ((y i).map J.val).toH) ∧
      J.Near (J.Err (4 * N.toNat + 1) (N.toNat * (4 * (s * t)))) rc (∑ i ∈ range N.toNat, star ((x i).map J.val).toH * ((y i).map J.val).toH) := by
  obtain ⟨_, _, h, rfl, rfl⟩ := dotGen_bits (conj := false) hix hiy fx fy hX hY
  obtain ⟨_, _, h', rfl, rfl⟩ := dotGen_bits (conj := true) hix hiy fx fy hX hY
  have e := fun c => near (h := hB) ((WQ.pDotQ c N.toNat (fun k hk => (hx k hk).w) (fun k hk => (hy k hk).w) (one_le_mul' hs ht)
    (by rw [zero_add]) (by rmn)).mono (q := 4 * N.toNat + 1) (by omega) (by rw [zero_add])) (by omega)
  refine ⟨_, _, h, h', ?_, ?_⟩
  · have := e false
    rw [StdModel.toH_pDotQ] at this
    simpa using this
  · have := e true
    rw [StdModel.toH_pDotQ] at this
    simpa using this

/-- C60, portable GEMM (A, ALPHA and BETA of any scalar type). -/
theorem C60_gemm_portable (J : FinModel F u η Ω) (m : Mem F) (k : Kind) (tA tB : Char) (M N K : Int) (ALPHA BETA : Scal F)
    (A LDA Bp LDB C LDC : Int) (Av : Nat → Nat → Scal F) (Bv Cv : Nat → Nat → Quat F)
    (opA opB : Nat → Nat → ℍ[ℝ])
    (hA : KOpIs tA (fun i k => (Av i k).map J.val) opA) (hBo : QOpIs tB (fun i k => (Bv i k).map J.val) opB)
    (ta : J.Truth ALPHA) (tb : J.Truth BETA)
    (h : GemmBArgs m k tA tB M N K ALPHA A LDA Bp LDB C LDC Av Bv Cv)
    (sα sβ a b c : ℝ) (hα : J.BddS sα ALPHA) (hβ : J.BddS sβ BETA)
    (iA : J.BddKMat a (if tA = 'N' then M else K).toNat (if tA = 'N' then K else M).toNat Av)
    (iB : J.BddMat b (if tB = 'N' then K else N).toNat (if tB = 'N' then N else K).toNat Bv)
    (iC : J.BddMat c M.toNat N.toNat Cv) (h1α : 1 ≤ sα) (h1β : 1 ≤ sβ) (ha : 1 ≤ a) (hb : 1 ≤ b) (hc : 1 ≤ c)
    (hB : J.Fits (4 * K.toNat + 8) (4 * (sβ * c) + K.toNat * (16 * (sα * a * b)))) :
    ∃ m' V, gemmGen k tA tB M N K ALPHA A LDA Bp LDB BETA C LDC m = .ok ((), m') ∧
      MatAt m' C LDC M.toNat N.toNat V ∧
      ∀ i j, i < M.toNat → j < N.toNat → J.Near (J.Err (4 * K.toNat + 8) (4 * (sβ * c) + K.toNat * (16 * (sα * a * b)))) (V i j)
        ((ALPHA.map J.val).toH * ∑ k ∈ range K.toNat, opA i k * opB k j +
            (BETA.map J.val).toH * ((Cv i j).map J.val).toH) := by
  obtain ⟨m', h1, h2, _⟩ := gemmGen_bits m k tA tB M N K ALPHA BETA A LDA Bp LDB C LDC Av Bv Cv h
  refine ⟨m', _, h1, h2, fun i j hi hj => ?_⟩
  have eA : ∀ l, ∃ x : Scal ℝ, x.toH = opA i l ∧ (l < K.toNat → (J.rm _ _ hB).WS 0 (opKE tA Av i l) x a) := by
    intro l
    rcases hA with ⟨rfl, e⟩ | ⟨rfl, e⟩ | ⟨rfl, e⟩
    · exact ⟨_, (e i l).symm, fun hl => (iA i l hi hl).w⟩
    · exact ⟨_, (e i l).symm, fun hl => (iA l i hl hi).w⟩
    · exact ⟨((Av l i).map J.val).smartConj, by rw [e, C04_smartConj], fun hl => (iA l i hl hi).w.conj⟩
  have eB : ∀ l, ∃ y : Quat ℝ, y.toH = opB l j ∧ (l < K.toNat → (J.rm _ _ hB).WQ 0 (opQE tB Bv l j) y b) := by
    intro l
    rcases hBo with ⟨rfl, e⟩ | ⟨rfl, e⟩ | ⟨rfl, e⟩
    · exact ⟨_, (e l j).symm, fun hl => (iB l j hl hj).w⟩
    · exact ⟨_, (e l j).symm, fun hl => (iB j l hj hl).w⟩
    · exact ⟨qconj256 ((Bv j l).map J.val), by rw [e, toH_qconj256], fun hl => (iB j l hj hl).w.conj⟩
  choose x ex hx using eA
  choose y ey hy using eB
  obtain ⟨z, hz, ez⟩ := WQ.pGemm (tA := tA) ta tb hα.w hβ.w (iC i j hi hj).w hx hy h1α h1β hc ha hb le_rfl (by rmn)
  have := near (h := hB) hz (by omega)
  rw [ez] at this
  simpa only [ex, ey] using this

/-- C60, portable GEMV (A, ALPHA and BETA of any scalar type). -/
theorem C60_gemv_portable (J : FinModel F u η Ω) (m : Mem F) (k : Kind) (t : Char) (M N : Int) (ALPHA : Scal F)
    (A LDA X INCX : Int) (BETA : Scal F) (Y INCY : Int) (a : Nat → Nat → Scal F) (x y : Nat → Quat F)
    (op : Nat → Nat → ℍ[ℝ]) (hop : KOpIs t (fun i k => (a i k).map J.val) op)
    (ta : J.Truth ALPHA) (tb : J.Truth BETA) (hM : M ≠ 0) (hN : N ≠ 0)
    (h : GemvBArgs m k t M N ALPHA A LDA X INCX Y INCY a x y)
    (sα sβ sa sx sy : ℝ) (hα : J.BddS sα ALPHA) (hβ : J.BddS sβ BETA) (iA : J.BddKMat sa M.toNat N.toNat a)
    (ix : J.BddVec sx (if t = 'N' then N else M).toNat x) (iy : J.BddVec sy (if t = 'N' then M else N).toNat y)
    (h1α : 1 ≤ sα) (h1β : 1 ≤ sβ) (h1a : 1 ≤ sa) (h1x : 1 ≤ sx) (h1y : 1 ≤ sy)
    (hB : J.Fits (4 * (if t = 'N' then N else M).toNat + 9) (4 * (sβ * sy) + (if t = 'N' then N else M).toNat * (48 * (sα * sa * sx)))) :
    ∃ m' v, gemvGen k t M N ALPHA A LDA X INCX BETA Y INCY m = .ok ((), m') ∧
      VecAt m' Y INCY (if t = 'N' then M else N).toNat v ∧
      ∀ i, i < (if t = 'N' then M else N).toNat → J.Near (J.Err (4 * (if t = 'N' then N else M).toNat + 9) (4 * (sβ * sy) + (if t = 'N' then N else M).toNat * (48 * (sα * sa * sx)))) (v i)
        ((ALPHA.map J.val).toH * ∑ k ∈ range (if t = 'N' then N else M).toNat, op i k * ((x k).map J.val).toH +
            (BETA.map J.val).toH * ((y i).map J.val).toH) := by
  obtain ⟨m', h1, h2, _⟩ := gemvGen_bits m k t M N ALPHA A LDA X INCX BETA Y INCY a x y hM hN h
  refine ⟨m', _, h1, h2, fun i hi => ?_⟩
  have eA : ∀ l, ∃ x : Scal ℝ, x.toH = op i l ∧ (l < (if t = 'N' then N else M).toNat → (J.rm _ _ hB).WS 0 (opVE t a i l) x sa) := by
    intro l
    rcases hop with ⟨rfl, e⟩ | ⟨rfl, e⟩ | ⟨rfl, e⟩
    · exact ⟨_, (e i l).symm, fun hl => (iA i l hi hl).w⟩
    · exact ⟨_, (e i l).symm, fun hl => (iA l i hl hi).w⟩
    · exact ⟨((a l i).map J.val).smartConj, by rw [e, C04_smartConj], fun hl => (iA l i hl hi).w.conj⟩
  choose z ez hz using eA
  obtain ⟨w, hw, ew⟩ := WQ.pGemv (tA := t) ta tb hα.w hβ.w (iy i hi).w hz (fun k hk => (ix k hk).w)
    h1α h1β h1y h1a h1x le_rfl (by rmn)
  have := near (h := hB) hw (by omega)
  rw [ew] at this
  simpa only [ez] using this

/-- C60, portable GERU (`conjY = false`) and GERC, for the y_j whose comparison with zero is right. -/
theorem C60_ger_portable (J : FinModel F u η Ω) (conjY : Bool) (m : Mem F) (M N : Int) (ALPHA : Scal F)
    (X INCX Y INCY A LDA : Int) (x y : Nat → Quat F) (a : Nat → Nat → Quat F)
    (ta : J.Truth ALPHA) (h : GerBArgs m M N X INCX Y INCY A LDA x y a)
    (sα sx sy sa : ℝ) (hα : J.BddS sα ALPHA) (ix : J.BddVec sx M.toNat x) (iy : J.BddVec sy N.toNat y)
    (iA : J.BddMat sa M.toNat N.toNat a) (h1α : 1 ≤ sα) (h1x : 1 ≤ sx) (h1y : 1 ≤ sy)
    (hB : J.Fits 9 (sa + 16 * (sα * sx * sy))) :
    ∃ m' v, gerGen conjY M N ALPHA X INCX Y INCY A LDA m = .ok ((), m') ∧
      MatAt m' A LDA M.toNat N.toNat v ∧
      ∀ i j, i < M.toNat → j < N.toNat →
        (Quat.neOp (y j) (Quat.mkReal Arith.zero) = false → ((y j).map J.val).toH = 0) →
        J.Near (J.Err 9 (sa + 16 * (sα * sx * sy))) (v i j) (((a i j).map J.val).toH + (ALPHA.map J.val).toH * ((x i).map J.val).toH *
            (if conjY then star ((y j).map J.val).toH else ((y j).map J.val).toH)) := by
  obtain ⟨m', h1, h2, _⟩ := gerGen_bits conjY m M N ALPHA X INCX Y INCY A LDA x y a h
  refine ⟨m', _, h1, h2, fun i j hi hj h0 => ?_⟩
  obtain ⟨z, hz, ez⟩ := WQ.pGer conjY ta h0 hα.w (ix i hi).w (iy j hj).w (iA i j hi hj).w h1α h1x h1y le_rfl (by rmn)
  have := near (h := hB) hz (by omega)
  rwa [ez] at this

/-! ## Fortran build -/

theorem FinModel.vIsZero_toH (S : FinModel F u η Ω) (he : ∀ a b : F, (a ==ᶠ b) = true → S.val a = S.val b) {s : Scal F}
    (h : s.vIsZero = true) : (s.map S.val).toH = 0 := by
  have h0 := S.zero_val
  cases s with
  | d a =>
    simp only [Scal.vIsZero] at h
    ext <;> simp [Scal.map, Scal.toH, he _ _ h, h0]
  | z a =>
    simp only [Scal.vIsZero, Bool.and_eq_true] at h
    ext <;> simp [Scal.map, Scal.toH, he _ _ h.1, he _ _ h.2, h0]
  | h a =>
    simp only [Scal.vIsZero, Bool.and_eq_true] at h
    ext <;> simp [Scal.map, Quat.map, Scal.toH, he _ _ h.1.1.1, he _ _ h.1.1.2, he _ _ h.1.2, he _ _ h.2, h0]

/-- C60, Fortran SCALV, ALPHA not comparing equal to zero. -/
theorem C60_scalv_fortran (J : FinModel F u η Ω) (m : Mem F) (SIDE : Char) (N X INCX : Int) (ALPHA : Scal F)
    (x : Nat → Quat F) (hX : VecAt m (fbase X N INCX) INCX N.toNat x) (hinc : INCX ≠ 0) (hz : ALPHA.vIsZero = false) (s t : ℝ)
    (hs1 : 1 ≤ s) (ht1 : 1 ≤ t)
    (hα : J.BddS s ALPHA) (hx : J.BddVec t N.toNat x) (hB : J.Fits 4 (4 * (s * t))) :
    ∃ m' v, scalvF SIDE N ALPHA X INCX m = .ok ((), m') ∧ VecAt m' (fbase X N INCX) INCX N.toNat v ∧
      ∀ i, i < N.toNat → J.Near (J.Err 4 (4 * (s * t))) (v i)
        (if SIDE = 'R' ∨ SIDE = 'r' then ((x i).map J.val).toH * (ALPHA.map J.val).toH
         else (ALPHA.map J.val).toH * ((x i).map J.val).toH) := by
  obtain ⟨_, m', h, h1, _⟩ := scalvF_bits (SIDE := SIDE) (ALPHA := ALPHA) hinc hX
  refine ⟨m', _, h, h1, fun i hi => ?_⟩
  rw [hz, if_neg Bool.false_ne_true]
  have := near (h := hB) (WQ.fScalV (lsame 'R' SIDE) hα.w (hx i hi).w (one_le_mul' hs1 ht1) le_rfl (by rmn)) (by omega)
  rw [toH_fScalV] at this
  simpa only [lsame_R_iff] using this

/-- C60, Fortran AXPYV, if `==` is true only of machine numbers of the same value. -/
theorem C60_axpyv_fortran (J : FinModel F u η Ω) (m : Mem F) (SIDE : Char) (N X INCX Y INCY : Int) (ALPHA : Scal F)
    (x y : Nat → Quat F) (hX : VecAt m (fbase X N INCX) INCX N.toNat x) (hY : VecAt m (fbase Y N INCY) INCY N.toNat y)
    (hinc : INCY ≠ 0) (hdis : Apart (VecCell (fbase X N INCX) INCX N.toNat) (VecCell (fbase Y N INCY) INCY N.toNat))
    (heq : ∀ a b : F, (a ==ᶠ b) = true → J.val a = J.val b) (s t w : ℝ)
    (hs1 : 1 ≤ s) (ht1 : 1 ≤ t)
    (hα : J.BddS s ALPHA) (hx : J.BddVec t N.toNat x) (hy : J.BddVec w N.toNat y) (hB : J.Fits 5 (w + 4 * (s * t))) :
    ∃ m' v, axpyvF SIDE N ALPHA X INCX Y INCY m = .ok ((), m') ∧ VecAt m' (fbase Y N INCY) INCY N.toNat v ∧
      ∀ i, i < N.toNat → J.Near (J.Err 5 (w + 4 * (s * t))) (v i) (((y i).map J.val).toH +
        (if SIDE = 'R' ∨ SIDE = 'r' then ((x i).map J.val).toH * (ALPHA.map J.val).toH
         else (ALPHA.map J.val).toH * ((x i).map J.val).toH)) := by
  obtain ⟨_, m', h, h1, _⟩ := axpyvF_bits (SIDE := SIDE) (ALPHA := ALPHA) hinc hX hY hdis
  refine ⟨m', _, h, h1, fun i hi => ?_⟩
  cases hz : ALPHA.vIsZero with
  | true =>
    rw [if_pos rfl, FinModel.vIsZero_toH J heq hz]
    have w1 : w ≤ w + 4 * (s * t) := by nlinarith
    simpa using near (h := hB) ((hy i hi).w.mono (q := 0) le_rfl w1) (by omega)
  | false =>
    rw [if_neg Bool.false_ne_true]
    have := near (h := hB) (WQ.fAxpyV (lsame 'R' SIDE) hα.w (hx i hi).w (hy i hi).w (one_le_mul' hs1 ht1) le_rfl (by rmn)) (by omega)
    rw [toH_fAxpyV] at this
    simpa only [lsame_R_iff] using this

/-- C60, Fortran DOTU and DOTC. -/
theorem C60_dot_fortran (J : FinModel F u η Ω) (m : Mem F) (N X INCX Y INCY : Int) (x y : Nat → Quat F)
    (hX : VecAt m (fbase X N INCX) INCX N.toNat x) (hY : VecAt m (fbase Y N INCY) INCY N.toNat y)
    (s t : ℝ) (hs : 1 ≤ s) (ht : 1 ≤ t)
    (hx : J.BddVec s N.toNat x) (hy : J.BddVec t N.toNat y) (hB : J.Fits (4 * N.toNat + 1) (N.toNat * (4 * (s * t)))) :
    ∃ ru rc, dotF false N X INCX Y INCY m = .ok (ru, m) ∧ dotF true N X INCX Y INCY m = .ok (rc, m) ∧
      J.Near (J.Err (4 * N.toNat + 1) (N.toNat * (4 * (s * t)))) ru (∑ i ∈ range N.toNat, ((x i).map J.val).toH * ((y i).map J.val).toH) ∧
      J.Near (J.Err (4 * N.toNat + 1) (N.toNat * (4 * (s * t)))) rc (∑ i ∈ range N.toNat, star ((x i).map J.val).toH * ((y i).map J.val).toH) := by
  obtain ⟨_, _, h, rfl, rfl⟩ := dotF_bits (conj := false) hX hY
  obtain ⟨_, _, h', rfl, rfl⟩ := dotF_bits (conj := true) hX hY
  have e := fun c => near (h := hB) ((WQ.fDot c N.toNat (fun k hk => (hx k hk).w) (fun k hk => (hy k hk).w) (one_le_mul' hs ht)
    (by rw [zero_add]) (by rmn)).mono (q := 4 * N.toNat + 1) (by omega) (by rw [zero_add])) (by omega)
  refine ⟨_, _, h, h', ?_, ?_⟩
  · have := e false
    rw [toH_fDot] at this
    simpa using this
  · have := e true
    rw [toH_fDot] at this
    simpa using this

theorem BddMat.pick {J : FinModel F u η Ω} {a : ℝ} {t : FTrans} {p q : ℕ} {X : Nat → Nat → Quat F} {i l : ℕ}
    {D : ℕ} {S : ℝ} {hB : J.Fits D S} (h : J.BddMat a (if t = .N then p else q) (if t = .N then q else p) X) (hi : i < p) (hl : l < q) :
    (J.rm _ _ hB).WQ 0 (t.pick X i l) ((t.pick (fun i k => (X i k).map J.val) i l)) a := by
  cases t
  · exact (h i l hi hl).w
  · exact (h l i hl hi).w
  · exact (h l i hl hi).w

/-- C60, Fortran GEMM (every pair of scalar types, any flags), if 1 is exact and `==` is true only of machine
numbers of the same value. -/
theorem C60_gemm_fortran (J : FinModel F u η Ω) (m : Mem F) (tA tB : Char) (M N K : Int) (ALPHA BETA : Scal F)
    (A LDA Bp LDB C LDC : Int) (Av Bv Cv : Nat → Nat → Quat F) (opA opB : Nat → Nat → ℍ[ℝ])
    (hA : OpIs tA (fun i k => (Av i k).map J.val) opA) (hBo : OpIs tB (fun i k => (Bv i k).map J.val) opB)
    (h1 : J.val Arith.one = 1) (he : ∀ a b : F, ArithEq.feq a b = true → J.val a = J.val b)
    (h : FGemmArgs m tA tB M N K ALPHA A LDA Bp LDB C LDC Av Bv Cv)
    (sα sβ a b c : ℝ) (hα : J.BddS sα ALPHA) (hβ : J.BddS sβ BETA)
    (iA : J.BddMat a (if IsN tA then M else K).toNat (if IsN tA then K else M).toNat Av)
    (iB : J.BddMat b (if IsN tB then K else N).toNat (if IsN tB then N else K).toNat Bv)
    (iC : J.BddMat c M.toNat N.toNat Cv) (h1α : 1 ≤ sα) (h1β : 1 ≤ sβ) (ha : 1 ≤ a) (hb : 1 ≤ b) (hc : 1 ≤ c)
    (hB : J.Fits (4 * K.toNat + 9) (4 * (sβ * c) + K.toNat * (16 * (sα * a * b)))) :
    ∃ m' V, hgemmF tA tB M N K ALPHA A LDA Bp LDB BETA C LDC m = .ok ((), m') ∧
      MatAt m' C LDC M.toNat N.toNat V ∧
      ∀ i j, i < M.toNat → j < N.toNat → J.Near (J.Err (4 * K.toNat + 9) (4 * (sβ * c) + K.toNat * (16 * (sα * a * b)))) (V i j)
        ((ALPHA.map J.val).toH * ∑ k ∈ range K.toNat, opA i k * opB k j +
            (BETA.map J.val).toH * ((Cv i j).map J.val).toH) := by
  have ta := FinModel.fTruth_of (M := J) h1 he ALPHA
  have tb := FinModel.fTruth_of (M := J) h1 he BETA
  obtain ⟨m', h1, h2, _⟩ := hgemmF_bits m tA tB M N K ALPHA BETA A LDA Bp LDB C LDC Av Bv Cv h
  refine ⟨m', _, h1, h2, fun i j hi hj => ?_⟩
  have nt : ∀ {t : Char} {X : Nat → Nat → Quat ℝ} {op : Nat → Nat → ℍ[ℝ]}, OpIs t X op → (FTrans.ofChar t = .N ↔ IsN t) := by
    rintro t X op (⟨rfl | rfl, _⟩ | ⟨rfl | rfl, _⟩ | ⟨rfl | rfl, _⟩) <;> simp [FTrans.ofChar, IsN]
  obtain ⟨z, hz, ez⟩ := WQ.fGemm (K := K) (ta := FTrans.ofChar tA) (tb := FTrans.ofChar tB) ta tb hα.w hβ.w (iC i j hi hj).w
    (qs' := fun k => (FTrans.ofChar tA).pick Av i k) (ys' := fun k => (FTrans.ofChar tB).pick Bv k j)
    (fun k hk => BddMat.pick (p := M.toNat) (q := K.toNat)
      (by simp only [nt hA]; split at iA <;> (rename_i g; simp only [g, if_true, if_false]; exact iA)) hi hk)
    (fun k hk => BddMat.pick (p := K.toNat) (q := N.toNat)
      (by simp only [nt hBo]; split at iB <;> (rename_i g; simp only [g, if_true, if_false]; exact iB)) hk hj)
    h1α h1β hc ha hb le_rfl (by rmn)
  have := near (h := hB) hz (by omega)
  rw [ez] at this
  simpa only [cj_pick hA, cj_pick hBo] using this

/-- C60, Fortran GEMV (every pair of scalar types; partial: calls outside its known defects). -/
theorem C60_gemv_fortran_partial (J : FinModel F u η Ω) (m : Mem F) (t : Char) (M N : Int) (ALPHA : Scal F)
    (A LDA X INCX : Int) (BETA : Scal F) (Y INCY : Int) (a : Nat → Nat → Quat F) (x y : Nat → Quat F)
    (op : Nat → Nat → ℍ[ℝ]) (hop : OpIs t (fun i k => (a i k).map J.val) op)
    (h1 : J.val Arith.one = 1) (he : ∀ a b : F, ArithEq.feq a b = true → J.val a = J.val b) (hM : M ≠ 0) (hN : N ≠ 0)
    (h : FGemvArgs m t M N ALPHA A LDA X INCX Y INCY a x y) (hg : FGemvGood t M N ALPHA BETA INCX INCY)
    (sα sβ sa sx sy : ℝ) (hα : J.BddS sα ALPHA) (hβ : J.BddS sβ BETA) (iA : J.BddMat sa M.toNat N.toNat a)
    (ix : J.BddVec sx (gemvLenX t M N).toNat x) (iy : J.BddVec sy (gemvLenY t M N).toNat y)
    (h1α : 1 ≤ sα) (h1β : 1 ≤ sβ) (h1a : 1 ≤ sa) (h1x : 1 ≤ sx) (h1y : 1 ≤ sy)
    (hB : J.Fits (4 * (gemvLenX t M N).toNat + 8) (4 * (sβ * sy) + (gemvLenX t M N).toNat * (16 * (sα * sa * sx)))) :
    ∃ m' v, gemvF t M N ALPHA A LDA X INCX BETA Y INCY m = .ok ((), m') ∧
      VecAt m' (vecStart Y (gemvLenY t M N) INCY) INCY (gemvLenY t M N).toNat v ∧
      ∀ i, i < (gemvLenY t M N).toNat → J.Near (J.Err (4 * (gemvLenX t M N).toNat + 8) (4 * (sβ * sy) + (gemvLenX t M N).toNat * (16 * (sα * sa * sx)))) (v i)
        ((ALPHA.map J.val).toH * ∑ k ∈ range (gemvLenX t M N).toNat, op i k * ((x k).map J.val).toH +
            (BETA.map J.val).toH * ((y i).map J.val).toH) := by
  have ta := FinModel.fTruth_of (M := J) h1 he ALPHA
  have tb := FinModel.fTruth_of (M := J) h1 he BETA
  obtain ⟨m', h1, h2, _⟩ := gemvF_bits m t M N ALPHA A LDA X INCX BETA Y INCY a x y hM hN h hg
  refine ⟨m', _, h1, h2, fun i hi => ?_⟩
  have eA : ∀ k, k < (gemvLenX t M N).toNat → (J.rm _ _ hB).WQ 0 ((FTrans.gv t).pick a i k)
      ((FTrans.gv t).pick (fun i k => (a i k).map J.val) i k) sa := by
    intro k hk
    rcases hop with ⟨rfl | rfl, _⟩ | ⟨rfl | rfl, _⟩ | ⟨rfl | rfl, _⟩ <;>
      simp only [gemvLenX, gemvLenY, IsN] at hi hk <;> simp at hi hk <;>
      first | exact (iA i k (by omega) (by omega)).w | exact (iA k i (by omega) (by omega)).w
  obtain ⟨z, hz, ez⟩ := WQ.fGemv (tt := FTrans.gv t) ta tb hα.w hβ.w (iy i hi).w eA (fun k hk => (ix k hk).w)
    h1α h1β h1y h1a h1x le_rfl (by rmn)
  have := near (h := hB) hz (by omega)
  rw [ez] at this
  simpa only [cj_gv_pick hop] using this

/-- C60, Fortran GERU (`conjY = false`) and GERC, if `==` is true only of machine numbers of the same value. -/
theorem C60_ger_fortran (J : FinModel F u η Ω) (conjY : Bool) (m : Mem F) (M N : Int) (ALPHA : Scal F)
    (X INCX Y INCY A LDA : Int) (x y : Nat → Quat F) (a : Nat → Nat → Quat F)
    (he : ∀ a b : F, ArithEq.feq a b = true → J.val a = J.val b)
    (h : GerArgs m M N X INCX Y INCY A LDA x y a) (hd : ∀ r, ALPHA = .d r → INCX = 1)
    (sα sx sy sa : ℝ) (hα : J.BddS sα ALPHA) (ix : J.BddVec sx M.toNat x) (iy : J.BddVec sy N.toNat y)
    (iA : J.BddMat sa M.toNat N.toNat a) (h1α : 1 ≤ sα) (h1x : 1 ≤ sx) (h1y : 1 ≤ sy)
    (hB : J.Fits 12 (sa + 16 * (sα * sx * sy))) :
    ∃ m' v, gerF conjY M N ALPHA X INCX Y INCY A LDA m = .ok ((), m') ∧
      MatAt m' A LDA M.toNat N.toNat v ∧
      ∀ i j, i < M.toNat → j < N.toNat →
        J.Near (J.Err 12 (sa + 16 * (sα * sx * sy))) (v i j) (((a i j).map J.val).toH + (ALPHA.map J.val).toH * ((x i).map J.val).toH *
            (if conjY then star ((y j).map J.val).toH else ((y j).map J.val).toH)) := by
  obtain ⟨m', h1, h2, _⟩ := gerF_bits conjY m M N ALPHA X INCX Y INCY A LDA x y a h hd
  refine ⟨m', _, h1, h2, fun i j hi hj => ?_⟩
  obtain ⟨z, hz, ez⟩ := WQ.fGer conjY he hα.w (ix i hi).w (iy j hj).w (iA i j hi hj).w h1α h1x h1y le_rfl (by rmn)
  have := near (h := hB) hz (by omega)
  rwa [ez] at this

end eq
end Haxx
