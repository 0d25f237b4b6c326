import Verif.FuseUnits
import Verif.PropsMixFin
import Verif.PropsMixNaN
import Verif.PropsMatF

/-!
# C66: the compiler may fuse products with additions

(Generated by tools/gen_fuse.py.) The accuracy theorems of C60, the exactness theorems of C59 and the NaN theorems of C53, for
code in which the compiler has fused any of the products with the additions and subtractions that use them. The memory holds
expressions (Fuse.lean): before the call single doubles, afterwards the expressions that the source prescribes; `Fused.dbl` is the
double that the compiled code stores for one, for a compiler that makes the choices `pol`.
-/

set_option linter.unusedSectionVars false

namespace Haxx
open Arith Finset Quaternion

variable {F : Type} [Arith F] [ArithEq F] {pol : Ex Unit → Fusing} {u η Ω B Bd : ℝ}

/-- The real number that the compiled code computes for an expression. -/
noncomputable def cval (J : FinModel F u η Ω) (a : Fused F pol) : ℝ := J.val a.dbl

/-- A single double, finite and of magnitude at most `s`. -/
def Lit1 (J : FinModel F u η Ω) (s : ℝ) (a : Fused F pol) : Prop := ∃ n v, a = Fused.lit n v ∧ J.fin v ∧ |J.val v| ≤ s
/-- A quaternion of such doubles. -/
def LitQ (J : FinModel F u η Ω) (s : ℝ) (q : Quat (Fused F pol)) : Prop := q.All (Lit1 J s)
/-- A real, complex or quaternion scalar of such doubles. -/
def LitS (J : FinModel F u η Ω) (s : ℝ) : Scal (Fused F pol) → Prop
  | .d a => Lit1 J s a
  | .z a => Lit1 J s a.re ∧ Lit1 J s a.im
  | .h a => LitQ J s a
/-- A vector of quaternions of such doubles. -/
def LitVec (J : FinModel F u η Ω) (s : ℝ) (n : ℕ) (x : ℕ → Quat (Fused F pol)) : Prop := ∀ i, i < n → LitQ J s (x i)
/-- A vector of scalars of such doubles. -/
def LitKVec (J : FinModel F u η Ω) (s : ℝ) (n : ℕ) (x : ℕ → Scal (Fused F pol)) : Prop := ∀ i, i < n → LitS J s (x i)
/-- A matrix of quaternions of such doubles. -/
def LitMat (J : FinModel F u η Ω) (s : ℝ) (r c : ℕ) (X : ℕ → ℕ → Quat (Fused F pol)) : Prop :=
  ∀ i j, i < r → j < c → LitQ J s (X i j)
/-- A matrix of scalars of such doubles. -/
def LitKMat (J : FinModel F u η Ω) (s : ℝ) (r c : ℕ) (X : ℕ → ℕ → Scal (Fused F pol)) : Prop :=
  ∀ i j, i < r → j < c → LitS J s (X i j)
/-- The comparisons of a scalar with 0 and 1 tell the truth. -/
def CTruth (J : FinModel F u η Ω) (s : Scal (Fused F pol)) : Prop :=
  (s.eqZero = true → (s.map (cval J)).toH = 0) ∧ (s.eqOne = true → (s.map (cval J)).toH = 1)
/-- The compiled code computes finite components within `e` of those of `z`. -/
def CNear (J : FinModel F u η Ω) (e : ℝ) (q : Quat (Fused F pol)) (z : ℍ[ℝ]) : Prop := J.Near e (q.map Fused.dbl) z
/-- Error of `D` roundings with relative error `4u`, of numbers of magnitude at most `S`. -/
noncomputable def Err8 (u : ℝ) (D : ℕ) (S : ℝ) : ℝ := ((1 + 2 * (4 * u)) ^ D - 1) * S
/-- Numbers of magnitude at most `S` cannot overflow within `D` such roundings. -/
def Fits8 (u Ω : ℝ) (D : ℕ) (S : ℝ) : Prop := (1 + 2 * (4 * u)) ^ D * S ≤ Ω / 2

section
variable {J : FinModel F u η Ω} {hJ : ∀ a, ¬ J.prod a} {hu : u ≤ 1 / 16} {hΩ : 1 ≤ Ω} {s e : ℝ}

theorem lit1_bdd {a : Fused F pol} (h : Lit1 J s a) : (fusedFin J hJ hu hΩ pol).Bdd1 s a := by
  obtain ⟨n, v, rfl, h1, h2⟩ := h
  exact ⟨⟨⟨h1, fun _ _ _ k => nomatch k⟩, fun ⟨_, _, _, k, _⟩ => nomatch k⟩, h2⟩
theorem litQ_bdd {q : Quat (Fused F pol)} (h : LitQ J s q) : (fusedFin J hJ hu hΩ pol).BddQ s q :=
  ⟨lit1_bdd h.1, lit1_bdd h.2.1, lit1_bdd h.2.2.1, lit1_bdd h.2.2.2⟩
theorem litS_bdd {q : Scal (Fused F pol)} (h : LitS J s q) : (fusedFin J hJ hu hΩ pol).BddS s q := by
  cases q with
  | d a => exact lit1_bdd h
  | z a => exact ⟨lit1_bdd h.1, lit1_bdd h.2⟩
  | h a => exact litQ_bdd h
theorem near_c {q : Quat (Fused F pol)} {z : ℍ[ℝ]} (h : (fusedFin J hJ hu hΩ pol).Near e q z) : CNear J e q z :=
  ⟨⟨h.1.1.1, h.1.2.1.1, h.1.2.2.1.1, h.1.2.2.2.1⟩, h.2⟩
end

/-- The real number that the compiled code computes for an expression (arithmetic exact on integers). -/
noncomputable def ival (I : IntModel F u B) (a : Fused F pol) : ℝ := I.val a.dbl
/-- A single double, an integer of magnitude at most `s`. -/
def IntLit1 (I : IntModel F u B) (s : ℝ) (a : Fused F pol) : Prop := ∃ n v, a = Fused.lit n v ∧ I.Int1 s v
/-- A quaternion of such doubles. -/
def IntLitQ (I : IntModel F u B) (s : ℝ) (q : Quat (Fused F pol)) : Prop := q.All (IntLit1 I s)
/-- A real, complex or quaternion scalar of such doubles. -/
def IntLitS (I : IntModel F u B) (s : ℝ) : Scal (Fused F pol) → Prop
  | .d a => IntLit1 I s a
  | .z a => IntLit1 I s a.re ∧ IntLit1 I s a.im
  | .h a => IntLitQ I s a
/-- A vector of quaternions of such doubles. -/
def IntLitVec (I : IntModel F u B) (s : ℝ) (n : ℕ) (x : ℕ → Quat (Fused F pol)) : Prop := ∀ i, i < n → IntLitQ I s (x i)
/-- A vector of scalars of such doubles. -/
def IntLitKVec (I : IntModel F u B) (s : ℝ) (n : ℕ) (x : ℕ → Scal (Fused F pol)) : Prop := ∀ i, i < n → IntLitS I s (x i)
/-- A matrix of quaternions of such doubles. -/
def IntLitMat (I : IntModel F u B) (s : ℝ) (r c : ℕ) (X : ℕ → ℕ → Quat (Fused F pol)) : Prop :=
  ∀ i j, i < r → j < c → IntLitQ I s (X i j)
/-- A matrix of scalars of such doubles. -/
def IntLitKMat (I : IntModel F u B) (s : ℝ) (r c : ℕ) (X : ℕ → ℕ → Scal (Fused F pol)) : Prop :=
  ∀ i j, i < r → j < c → IntLitS I s (X i j)
/-- The comparisons of a scalar with 0 and 1 tell the truth. -/
def ITruth (I : IntModel F u B) (s : Scal (Fused F pol)) : Prop :=
  (s.eqZero = true → (s.map (ival I)).toH = 0) ∧ (s.eqOne = true → (s.map (ival I)).toH = 1)
/-- The compiled code computes the quaternion `z` exactly. -/
def CIs (I : IntModel F u B) (q : Quat (Fused F pol)) (z : ℍ[ℝ]) : Prop := I.Is (q.map Fused.dbl) z

section
variable {I : IntModel F u B} {hu : u ≤ 1 / 16} {s : ℝ}

theorem lit1_int {a : Fused F pol} (h : IntLit1 I s a) : (fusedInt I hu pol).Int1 s a := by
  obtain ⟨n, v, rfl, h1, h2⟩ := h
  exact ⟨h1, h2⟩
theorem litQ_int {q : Quat (Fused F pol)} (h : IntLitQ I s q) : (fusedInt I hu pol).IntQ s q :=
  ⟨lit1_int h.1, lit1_int h.2.1, lit1_int h.2.2.1, lit1_int h.2.2.2⟩
theorem litS_int {q : Scal (Fused F pol)} (h : IntLitS I s q) : (fusedInt I hu pol).IntS s q := by
  cases q with
  | d a => exact lit1_int h
  | z a => exact ⟨lit1_int h.1, lit1_int h.2⟩
  | h a => exact litQ_int h
theorem is_c {q : Quat (Fused F pol)} {z : ℍ[ℝ]} (h : (fusedInt I hu pol).Is q z) : CIs I q z :=
  ⟨⟨Ex.okE.dbl h.1.1, Ex.okE.dbl h.1.2.1, Ex.okE.dbl h.1.2.2.1, Ex.okE.dbl h.1.2.2.2⟩, h.2⟩
end

/-- A double is a NaN of the compiled code iff it is one. -/
theorem bad_lit {bad : F → Prop} {n : ℤ} {v : F} : Fused.bad bad (Fused.lit n v : Fused F pol) ↔ bad v :=
  ⟨fun h => h.1, fun h => ⟨h, fun _ _ _ k => nomatch k⟩⟩

/-! ## Finite data -/

/-- C66: SCALV. -/
theorem C66_acc_scalv (J : FinModel F u η Ω) (hJ : ∀ a, ¬ J.prod a) (hu : u ≤ 1 / 16) (hΩ : 1 ≤ Ω) (pol : Ex Unit → Fusing)
    (m : Mem (Fused F pol)) (SIDE : Char) (N X INCX : Int) (ALPHA : Scal (Fused F pol)) (x : Nat → Quat (Fused F pol))
    (hX : VecAt m X INCX N.toNat x) (hinc : INCX ≠ 0) (s t : ℝ) (hs1 : 1 ≤ s) (ht1 : 1 ≤ t) (hα : LitS J s ALPHA)
    (hx : LitVec J t N.toNat x) (hB : Fits8 u Ω 4 (4 * (s * t))) :
    ∃ m' v, scalvAVX SIDE N ALPHA X INCX m = .ok ((), m') ∧ VecAt m' X INCX N.toNat v ∧
      ∀ i, i < N.toNat → CNear J (Err8 u 4 (4 * (s * t))) (v i)
        (if SIDE = 'L' then (ALPHA.map (cval J)).toH * ((x i).map (cval J)).toH
         else ((x i).map (cval J)).toH * (ALPHA.map (cval J)).toH) := by
  obtain ⟨m', V, e, hV, hN⟩ := C60_scalv (fusedFin J hJ hu hΩ pol) m SIDE N X INCX ALPHA x hX hinc s t hs1 ht1 (litS_bdd hα)
      (fun i hi => litQ_bdd (hx i hi)) hB
  exact ⟨m', V, e, hV, fun i hi => near_c (hN i hi)⟩

/-- C66: AXPYV. -/
theorem C66_acc_axpyv (J : FinModel F u η Ω) (hJ : ∀ a, ¬ J.prod a) (hu : u ≤ 1 / 16) (hΩ : 1 ≤ Ω) (pol : Ex Unit → Fusing)
    (m : Mem (Fused F pol)) (SIDE : Char) (N X INCX Y INCY : Int) (ALPHA : Scal (Fused F pol)) (x y : Nat → Quat (Fused F pol))
    (hX : VecAt m X INCX N.toNat x) (hY : VecAt m Y INCY N.toNat y) (hinc : INCY ≠ 0)
    (hdis : Apart (VecCell X INCX N.toNat) (VecCell Y INCY N.toNat)) (s t w : ℝ) (hs1 : 1 ≤ s) (ht1 : 1 ≤ t)
    (hα : LitS J s ALPHA) (hx : LitVec J t N.toNat x) (hy : LitVec J w N.toNat y) (hB : Fits8 u Ω 5 (w + 4 * (s * t))) :
    ∃ m' v, axpyvAVX SIDE N ALPHA X INCX Y INCY m = .ok ((), m') ∧ VecAt m' Y INCY N.toNat v ∧
      ∀ i, i < N.toNat → CNear J (Err8 u 5 (w + 4 * (s * t))) (v i) (((y i).map (cval J)).toH +
        (if SIDE = 'L' then (ALPHA.map (cval J)).toH * ((x i).map (cval J)).toH
         else ((x i).map (cval J)).toH * (ALPHA.map (cval J)).toH)) := by
  obtain ⟨m', V, e, hV, hN⟩ := C60_axpyv (fusedFin J hJ hu hΩ pol) m SIDE N X INCX Y INCY ALPHA x y hX hY hinc hdis s t w hs1
      ht1 (litS_bdd hα) (fun i hi => litQ_bdd (hx i hi)) (fun i hi => litQ_bdd (hy i hi)) hB
  exact ⟨m', V, e, hV, fun i hi => near_c (hN i hi)⟩

/-- C66: DOTU and DOTC. -/
theorem C66_acc_dot (J : FinModel F u η Ω) (hJ : ∀ a, ¬ J.prod a) (hu : u ≤ 1 / 16) (hΩ : 1 ≤ Ω) (pol : Ex Unit → Fusing)
    (m : Mem (Fused F pol)) (N X INCX Y INCY : Int) (x y : Nat → Quat (Fused F pol)) (hX : VecAt m X INCX N.toNat x)
    (hY : VecAt m Y INCY N.toNat y) (hx32 : Fits32 (4 * INCX)) (hy32 : Fits32 (4 * INCY)) (s t : ℝ) (hs : 1 ≤ s) (ht : 1 ≤ t)
    (hx : LitVec J s N.toNat x) (hy : LitVec J t N.toNat y) (hB : Fits8 u Ω (4 * N.toNat + 4) (N.toNat * (4 * (s * t)))) :
    ∃ ru rc, dotAVX false N X INCX Y INCY m = .ok (ru, m) ∧ dotAVX true N X INCX Y INCY m = .ok (rc, m) ∧
      CNear J (Err8 u (4 * N.toNat + 4) (N.toNat * (4 * (s * t)))) ru (∑ i ∈ range N.toNat, ((x i).map (cval J)).toH * ((y
          i).map (cval J)).toH) ∧
      CNear J (Err8 u (4 * N.toNat + 4) (N.toNat * (4 * (s * t)))) rc (∑ i ∈ range N.toNat, star ((x i).map (cval J)).toH * ((y
          i).map (cval J)).toH) := by
  obtain ⟨ru, rc, e1, e2, n1, n2⟩ := C60_dot (fusedFin J hJ hu hΩ pol) m N X INCX Y INCY x y hX hY hx32 hy32 s t hs ht (fun i
      hi => litQ_bdd (hx i hi)) (fun i hi => litQ_bdd (hy i hi)) hB
  exact ⟨ru, rc, e1, e2, near_c n1, near_c n2⟩

/-- C66: GEMM: A, B, C, ALPHA, BETA with finite components of magnitude at most a, b, c, sα, sβ. -/
theorem C66_acc_gemm (J : FinModel F u η Ω) (hJ : ∀ a, ¬ J.prod a) (hu : u ≤ 1 / 16) (hΩ : 1 ≤ Ω) (pol : Ex Unit → Fusing)
    (m : Mem (Fused F pol)) (blk : Blk) (bAddr aAddr : Int) (junk : Int → Fused F pol) (TRANSA TRANSB : Char) (M N K : Int)
    (ALPHA BETA : Scal (Fused F pol)) (A LDA Bp LDB C LDC : Int) (Av Bv Cv : Nat → Nat → Quat (Fused F pol))
    (h : GemmPre m blk bAddr aAddr TRANSA TRANSB M.toNat N.toNat K.toNat A LDA Av Bp LDB Bv C LDC Cv) (sα sβ a b c : ℝ)
    (hα : LitS J sα ALPHA) (hβ : LitS J sβ BETA)
    (hA : LitMat J a (if isT TRANSA then K else M).toNat (if isT TRANSA then M else K).toNat Av)
    (hBm : LitMat J b (if isT TRANSB then N else K).toNat (if isT TRANSB then K else N).toNat Bv)
    (hC : LitMat J c M.toNat N.toNat Cv) (h1α : 1 ≤ sα) (h1β : 1 ≤ sβ) (ha : 1 ≤ a) (hb : 1 ≤ b) (hc : 1 ≤ c)
    (hB : Fits8 u Ω (4 * K.toNat + 5) (4 * (sβ * c) + K.toNat * (16 * (sα * a * b)))) :
    ∃ m' V, gemmAVX blk bAddr aAddr junk TRANSA TRANSB M N K ALPHA A LDA Bp LDB BETA C LDC m = .ok ((), m') ∧
      MatAt m' C LDC M.toNat N.toNat V ∧
      ∀ i j, i < M.toNat → j < N.toNat → CNear J (Err8 u (4 * K.toNat + 5) (4 * (sβ * c) + K.toNat * (16 * (sα * a * b)))) (V i
          j)
        ((ALPHA.map (cval J)).toH * ∑ k ∈ range K.toNat, opSpec TRANSA (fun i k => (Av i k).map (cval J)) i k *
            opSpec TRANSB (fun k j => (Bv k j).map (cval J)) k j +
          (BETA.map (cval J)).toH * ((Cv i j).map (cval J)).toH) := by
  obtain ⟨m', V, e, hV, hN⟩ := C60_gemm (fusedFin J hJ hu hΩ pol) m blk bAddr aAddr junk TRANSA TRANSB M N K ALPHA BETA A LDA
      Bp LDB C LDC Av Bv Cv h sα sβ a b c (litS_bdd hα) (litS_bdd hβ) (fun i j hi hj => litQ_bdd (hA i j hi hj)) (fun i j hi hj
      => litQ_bdd (hBm i j hi hj)) (fun i j hi hj => litQ_bdd (hC i j hi hj)) h1α h1β ha hb hc hB
  exact ⟨m', V, e, hV, fun i j hi hj => near_c (hN i j hi hj)⟩

/-- C66: portable SCALV. -/
theorem C66_acc_scalv_portable (J : FinModel F u η Ω) (hJ : ∀ a, ¬ J.prod a) (hu : u ≤ 1 / 16) (hΩ : 1 ≤ Ω)
    (pol : Ex Unit → Fusing) (m : Mem (Fused F pol)) (SIDE : Char) (N X INCX : Int) (ALPHA : Scal (Fused F pol))
    (x : Nat → Quat (Fused F pol)) (hX : VecAt m X INCX N.toNat x) (hinc : 0 < INCX) (fx : Fits32 (N * INCX)) (s t : ℝ)
    (hs1 : 1 ≤ s) (ht1 : 1 ≤ t) (hα : LitS J s ALPHA) (hx : LitVec J t N.toNat x) (hB : Fits8 u Ω 4 (4 * (s * t))) :
    ∃ m' v, scalvGen SIDE N ALPHA X INCX m = .ok ((), m') ∧ VecAt m' X INCX N.toNat v ∧
      ∀ i, i < N.toNat → CNear J (Err8 u 4 (4 * (s * t))) (v i)
        (if SIDE = 'R' then ((x i).map (cval J)).toH * (ALPHA.map (cval J)).toH
         else (ALPHA.map (cval J)).toH * ((x i).map (cval J)).toH) := by
  obtain ⟨m', V, e, hV, hN⟩ := C60_scalv_portable (fusedFin J hJ hu hΩ pol) m SIDE N X INCX ALPHA x hX hinc fx s t hs1 ht1
      (litS_bdd hα) (fun i hi => litQ_bdd (hx i hi)) hB
  exact ⟨m', V, e, hV, fun i hi => near_c (hN i hi)⟩

/-- C66: portable AXPYV (the test of ALPHA for zero being right, as it is unless only its k component is non-zero). -/
theorem C66_acc_axpyv_portable (J : FinModel F u η Ω) (hJ : ∀ a, ¬ J.prod a) (hu : u ≤ 1 / 16) (hΩ : 1 ≤ Ω)
    (pol : Ex Unit → Fusing) (m : Mem (Fused F pol)) (SIDE : Char) (N X INCX Y INCY : Int) (ALPHA : Scal (Fused F pol))
    (x y : Nat → Quat (Fused F pol)) (hX : VecAt m X INCX N.toNat x) (hY : VecAt m Y INCY N.toNat y) (hix : 0 < INCX)
    (hiy : 0 < INCY) (fx : Fits32 (N * INCX)) (fy : Fits32 (N * INCY))
    (hdis : Apart (VecCell X INCX N.toNat) (VecCell Y INCY N.toNat)) (hA : ALPHA.eqZero = true → (ALPHA.map (cval J)).toH = 0)
    (s t w : ℝ) (hs1 : 1 ≤ s) (ht1 : 1 ≤ t) (hα : LitS J s ALPHA) (hx : LitVec J t N.toNat x) (hy : LitVec J w N.toNat y)
    (hB : Fits8 u Ω 5 (w + 4 * (s * t))) :
    ∃ m' v, axpyvGen SIDE N ALPHA X INCX Y INCY m = .ok ((), m') ∧ VecAt m' Y INCY N.toNat v ∧
      ∀ i, i < N.toNat → CNear J (Err8 u 5 (w + 4 * (s * t))) (v i) (((y i).map (cval J)).toH +
        (if SIDE = 'R' then ((x i).map (cval J)).toH * (ALPHA.map (cval J)).toH
         else (ALPHA.map (cval J)).toH * ((x i).map (cval J)).toH)) := by
  obtain ⟨m', V, e, hV, hN⟩ := C60_axpyv_portable (fusedFin J hJ hu hΩ pol) m SIDE N X INCX Y INCY ALPHA x y hX hY hix hiy fx
      fy hdis hA s t w hs1 ht1 (litS_bdd hα) (fun i hi => litQ_bdd (hx i hi)) (fun i hi => litQ_bdd (hy i hi)) hB
  exact ⟨m', V, e, hV, fun i hi => near_c (hN i hi)⟩

/-- C66: portable DOTU and DOTC. -/
theorem C66_acc_dot_portable (J : FinModel F u η Ω) (hJ : ∀ a, ¬ J.prod a) (hu : u ≤ 1 / 16) (hΩ : 1 ≤ Ω)
    (pol : Ex Unit → Fusing) (m : Mem (Fused F pol)) (N X INCX Y INCY : Int) (x y : Nat → Quat (Fused F pol))
    (hX : VecAt m X INCX N.toNat x) (hY : VecAt m Y INCY N.toNat y) (hix : 0 < INCX) (hiy : 0 < INCY) (fx : Fits32 (N * INCX))
    (fy : Fits32 (N * INCY)) (s t : ℝ) (hs : 1 ≤ s) (ht : 1 ≤ t) (hx : LitVec J s N.toNat x) (hy : LitVec J t N.toNat y)
    (hB : Fits8 u Ω (4 * N.toNat + 1) (N.toNat * (4 * (s * t)))) :
    ∃ ru rc, dotGen false N X INCX Y INCY m = .ok (ru, m) ∧ dotGen true N X INCX Y INCY m = .ok (rc, m) ∧
      CNear J (Err8 u (4 * N.toNat + 1) (N.toNat * (4 * (s * t)))) ru (∑ i ∈ range N.toNat, ((x i).map (cval J)).toH * ((y
          i).map (cval J)).toH) ∧
      CNear J (Err8 u (4 * N.toNat + 1) (N.toNat * (4 * (s * t)))) rc (∑ i ∈ range N.toNat, star ((x i).map (cval J)).toH * ((y
          i).map (cval J)).toH) := by
  obtain ⟨ru, rc, e1, e2, n1, n2⟩ := C60_dot_portable (fusedFin J hJ hu hΩ pol) m N X INCX Y INCY x y hX hY hix hiy fx fy s t
      hs ht (fun i hi => litQ_bdd (hx i hi)) (fun i hi => litQ_bdd (hy i hi)) hB
  exact ⟨ru, rc, e1, e2, near_c n1, near_c n2⟩

/-- C66: portable GEMM (A, ALPHA and BETA of any scalar type). -/
theorem C66_acc_gemm_portable (J : FinModel F u η Ω) (hJ : ∀ a, ¬ J.prod a) (hu : u ≤ 1 / 16) (hΩ : 1 ≤ Ω)
    (pol : Ex Unit → Fusing) (m : Mem (Fused F pol)) (k : Kind) (tA tB : Char) (M N K : Int) (ALPHA BETA : Scal (Fused F pol))
    (A LDA Bp LDB C LDC : Int) (Av : Nat → Nat → Scal (Fused F pol)) (Bv Cv : Nat → Nat → Quat (Fused F pol))
    (opA opB : Nat → Nat → ℍ[ℝ]) (hA : KOpIs tA (fun i k => (Av i k).map (cval J)) opA)
    (hBo : QOpIs tB (fun i k => (Bv i k).map (cval J)) opB) (ta : CTruth J ALPHA) (tb : CTruth J BETA)
    (h : GemmBArgs m k tA tB M N K ALPHA A LDA Bp LDB C LDC Av Bv Cv) (sα sβ a b c : ℝ) (hα : LitS J sα ALPHA)
    (hβ : LitS J sβ BETA) (iA : LitKMat J a (if tA = 'N' then M else K).toNat (if tA = 'N' then K else M).toNat Av)
    (iB : LitMat J b (if tB = 'N' then K else N).toNat (if tB = 'N' then N else K).toNat Bv)
    (iC : LitMat J c M.toNat N.toNat Cv) (h1α : 1 ≤ sα) (h1β : 1 ≤ sβ) (ha : 1 ≤ a) (hb : 1 ≤ b) (hc : 1 ≤ c)
    (hB : Fits8 u Ω (4 * K.toNat + 8) (4 * (sβ * c) + K.toNat * (16 * (sα * a * b)))) :
    ∃ m' V, gemmGen k tA tB M N K ALPHA A LDA Bp LDB BETA C LDC m = .ok ((), m') ∧
      MatAt m' C LDC M.toNat N.toNat V ∧
      ∀ i j, i < M.toNat → j < N.toNat → CNear J (Err8 u (4 * K.toNat + 8) (4 * (sβ * c) + K.toNat * (16 * (sα * a * b)))) (V i
          j)
        ((ALPHA.map (cval J)).toH * ∑ k ∈ range K.toNat, opA i k * opB k j +
            (BETA.map (cval J)).toH * ((Cv i j).map (cval J)).toH) := by
  obtain ⟨m', V, e, hV, hN⟩ := C60_gemm_portable (fusedFin J hJ hu hΩ pol) m k tA tB M N K ALPHA BETA A LDA Bp LDB C LDC Av Bv
      Cv opA opB hA hBo ⟨ta.1, ta.2⟩ ⟨tb.1, tb.2⟩ h sα sβ a b c (litS_bdd hα) (litS_bdd hβ) (fun i j hi hj => litS_bdd (iA i j
      hi hj)) (fun i j hi hj => litQ_bdd (iB i j hi hj)) (fun i j hi hj => litQ_bdd (iC i j hi hj)) h1α h1β ha hb hc hB
  exact ⟨m', V, e, hV, fun i j hi hj => near_c (hN i j hi hj)⟩

/-- C66: portable GEMV (A, ALPHA and BETA of any scalar type). -/
theorem C66_acc_gemv_portable (J : FinModel F u η Ω) (hJ : ∀ a, ¬ J.prod a) (hu : u ≤ 1 / 16) (hΩ : 1 ≤ Ω)
    (pol : Ex Unit → Fusing) (m : Mem (Fused F pol)) (k : Kind) (t : Char) (M N : Int) (ALPHA : Scal (Fused F pol))
    (A LDA X INCX : Int) (BETA : Scal (Fused F pol)) (Y INCY : Int) (a : Nat → Nat → Scal (Fused F pol))
    (x y : Nat → Quat (Fused F pol)) (op : Nat → Nat → ℍ[ℝ]) (hop : KOpIs t (fun i k => (a i k).map (cval J)) op)
    (ta : CTruth J ALPHA) (tb : CTruth J BETA) (hM : M ≠ 0) (hN : N ≠ 0)
    (h : GemvBArgs m k t M N ALPHA A LDA X INCX Y INCY a x y) (sα sβ sa sx sy : ℝ) (hα : LitS J sα ALPHA) (hβ : LitS J sβ BETA)
    (iA : LitKMat J sa M.toNat N.toNat a) (ix : LitVec J sx (if t = 'N' then N else M).toNat x)
    (iy : LitVec J sy (if t = 'N' then M else N).toNat y) (h1α : 1 ≤ sα) (h1β : 1 ≤ sβ) (h1a : 1 ≤ sa) (h1x : 1 ≤ sx)
    (h1y : 1 ≤ sy)
    (hB : Fits8 u Ω (4 * (if t = 'N' then N else M).toNat + 9) (4 * (sβ * sy) + (if t = 'N' then N else M).toNat * (48 * (sα * sa * sx))))
    :
    ∃ m' v, gemvGen k t M N ALPHA A LDA X INCX BETA Y INCY m = .ok ((), m') ∧
      VecAt m' Y INCY (if t = 'N' then M else N).toNat v ∧
      ∀ i, i < (if t = 'N' then M else N).toNat → CNear J (Err8 u (4 * (if t = 'N' then N else M).toNat + 9) (4 * (sβ * sy) +
          (if t = 'N' then N else M).toNat * (48 * (sα * sa * sx)))) (v i)
        ((ALPHA.map (cval J)).toH * ∑ k ∈ range (if t = 'N' then N else M).toNat, op i k * ((x k).map (cval J)).toH +
            (BETA.map (cval J)).toH * ((y i).map (cval J)).toH) := by
  obtain ⟨m', V, e, hV, hN⟩ := C60_gemv_portable (fusedFin J hJ hu hΩ pol) m k t M N ALPHA A LDA X INCX BETA Y INCY a x y op
      hop ⟨ta.1, ta.2⟩ ⟨tb.1, tb.2⟩ hM hN h sα sβ sa sx sy (litS_bdd hα) (litS_bdd hβ) (fun i j hi hj => litS_bdd (iA i j hi
      hj)) (fun i hi => litQ_bdd (ix i hi)) (fun i hi => litQ_bdd (iy i hi)) h1α h1β h1a h1x h1y hB
  exact ⟨m', V, e, hV, fun i hi => near_c (hN i hi)⟩

/-- C66: portable GERU (`conjY = false`) and GERC, for the y_j whose comparison with zero is right. -/
theorem C66_acc_ger_portable (J : FinModel F u η Ω) (hJ : ∀ a, ¬ J.prod a) (hu : u ≤ 1 / 16) (hΩ : 1 ≤ Ω)
    (pol : Ex Unit → Fusing) (conjY : Bool) (m : Mem (Fused F pol)) (M N : Int) (ALPHA : Scal (Fused F pol))
    (X INCX Y INCY A LDA : Int) (x y : Nat → Quat (Fused F pol)) (a : Nat → Nat → Quat (Fused F pol)) (ta : CTruth J ALPHA)
    (h : GerBArgs m M N X INCX Y INCY A LDA x y a) (sα sx sy sa : ℝ) (hα : LitS J sα ALPHA) (ix : LitVec J sx M.toNat x)
    (iy : LitVec J sy N.toNat y) (iA : LitMat J sa M.toNat N.toNat a) (h1α : 1 ≤ sα) (h1x : 1 ≤ sx) (h1y : 1 ≤ sy)
    (hB : Fits8 u Ω 9 (sa + 16 * (sα * sx * sy))) :
    ∃ m' v, gerGen conjY M N ALPHA X INCX Y INCY A LDA m = .ok ((), m') ∧
      MatAt m' A LDA M.toNat N.toNat v ∧
      ∀ i j, i < M.toNat → j < N.toNat →
        (Quat.neOp (y j) (Quat.mkReal Arith.zero) = false → ((y j).map (cval J)).toH = 0) →
        CNear J (Err8 u 9 (sa + 16 * (sα * sx * sy))) (v i j) (((a i j).map (cval J)).toH + (ALPHA.map (cval J)).toH * ((x
            i).map (cval J)).toH *
            (if conjY then star ((y j).map (cval J)).toH else ((y j).map (cval J)).toH)) := by
  obtain ⟨m', V, e, hV, hN⟩ := C60_ger_portable (fusedFin J hJ hu hΩ pol) conjY m M N ALPHA X INCX Y INCY A LDA x y a ⟨ta.1,
      ta.2⟩ h sα sx sy sa (litS_bdd hα) (fun i hi => litQ_bdd (ix i hi)) (fun i hi => litQ_bdd (iy i hi)) (fun i j hi hj =>
      litQ_bdd (iA i j hi hj)) h1α h1x h1y hB
  exact ⟨m', V, e, hV, fun i j hi hj hz => near_c (hN i j hi hj hz)⟩

/-- C66: Fortran SCALV, ALPHA not comparing equal to zero. -/
theorem C66_acc_scalv_fortran (J : FinModel F u η Ω) (hJ : ∀ a, ¬ J.prod a) (hu : u ≤ 1 / 16) (hΩ : 1 ≤ Ω)
    (pol : Ex Unit → Fusing) (m : Mem (Fused F pol)) (SIDE : Char) (N X INCX : Int) (ALPHA : Scal (Fused F pol))
    (x : Nat → Quat (Fused F pol)) (hX : VecAt m (fbase X N INCX) INCX N.toNat x) (hinc : INCX ≠ 0) (hz : ALPHA.vIsZero = false)
    (s t : ℝ) (hs1 : 1 ≤ s) (ht1 : 1 ≤ t) (hα : LitS J s ALPHA) (hx : LitVec J t N.toNat x) (hB : Fits8 u Ω 4 (4 * (s * t))) :
    ∃ m' v, scalvF SIDE N ALPHA X INCX m = .ok ((), m') ∧ VecAt m' (fbase X N INCX) INCX N.toNat v ∧
      ∀ i, i < N.toNat → CNear J (Err8 u 4 (4 * (s * t))) (v i)
        (if SIDE = 'R' ∨ SIDE = 'r' then ((x i).map (cval J)).toH * (ALPHA.map (cval J)).toH
         else (ALPHA.map (cval J)).toH * ((x i).map (cval J)).toH) := by
  obtain ⟨m', V, e, hV, hN⟩ := C60_scalv_fortran (fusedFin J hJ hu hΩ pol) m SIDE N X INCX ALPHA x hX hinc hz s t hs1 ht1
      (litS_bdd hα) (fun i hi => litQ_bdd (hx i hi)) hB
  exact ⟨m', V, e, hV, fun i hi => near_c (hN i hi)⟩

/-- C66: Fortran AXPYV, if `==` is true only of machine numbers of the same value. -/
theorem C66_acc_axpyv_fortran (J : FinModel F u η Ω) (hJ : ∀ a, ¬ J.prod a) (hu : u ≤ 1 / 16) (hΩ : 1 ≤ Ω)
    (pol : Ex Unit → Fusing) (m : Mem (Fused F pol)) (SIDE : Char) (N X INCX Y INCY : Int) (ALPHA : Scal (Fused F pol))
    (x y : Nat → Quat (Fused F pol)) (hX : VecAt m (fbase X N INCX) INCX N.toNat x)
    (hY : VecAt m (fbase Y N INCY) INCY N.toNat y) (hinc : INCY ≠ 0)
    (hdis : Apart (VecCell (fbase X N INCX) INCX N.toNat) (VecCell (fbase Y N INCY) INCY N.toNat))
    (heq : ∀ a b : F, (a ==ᶠ b) = true → J.val a = J.val b) (s t w : ℝ) (hs1 : 1 ≤ s) (ht1 : 1 ≤ t) (hα : LitS J s ALPHA)
    (hx : LitVec J t N.toNat x) (hy : LitVec J w N.toNat y) (hB : Fits8 u Ω 5 (w + 4 * (s * t))) :
    ∃ m' v, axpyvF SIDE N ALPHA X INCX Y INCY m = .ok ((), m') ∧ VecAt m' (fbase Y N INCY) INCY N.toNat v ∧
      ∀ i, i < N.toNat → CNear J (Err8 u 5 (w + 4 * (s * t))) (v i) (((y i).map (cval J)).toH +
        (if SIDE = 'R' ∨ SIDE = 'r' then ((x i).map (cval J)).toH * (ALPHA.map (cval J)).toH
         else (ALPHA.map (cval J)).toH * ((x i).map (cval J)).toH)) := by
  obtain ⟨m', V, e, hV, hN⟩ := C60_axpyv_fortran (fusedFin J hJ hu hΩ pol) m SIDE N X INCX Y INCY ALPHA x y hX hY hinc hdis
      (fun a b k => heq _ _ k) s t w hs1 ht1 (litS_bdd hα) (fun i hi => litQ_bdd (hx i hi)) (fun i hi => litQ_bdd (hy i hi)) hB
  exact ⟨m', V, e, hV, fun i hi => near_c (hN i hi)⟩

/-- C66: Fortran DOTU and DOTC. -/
theorem C66_acc_dot_fortran (J : FinModel F u η Ω) (hJ : ∀ a, ¬ J.prod a) (hu : u ≤ 1 / 16) (hΩ : 1 ≤ Ω)
    (pol : Ex Unit → Fusing) (m : Mem (Fused F pol)) (N X INCX Y INCY : Int) (x y : Nat → Quat (Fused F pol))
    (hX : VecAt m (fbase X N INCX) INCX N.toNat x) (hY : VecAt m (fbase Y N INCY) INCY N.toNat y) (s t : ℝ) (hs : 1 ≤ s)
    (ht : 1 ≤ t) (hx : LitVec J s N.toNat x) (hy : LitVec J t N.toNat y)
    (hB : Fits8 u Ω (4 * N.toNat + 1) (N.toNat * (4 * (s * t)))) :
    ∃ ru rc, dotF false N X INCX Y INCY m = .ok (ru, m) ∧ dotF true N X INCX Y INCY m = .ok (rc, m) ∧
      CNear J (Err8 u (4 * N.toNat + 1) (N.toNat * (4 * (s * t)))) ru (∑ i ∈ range N.toNat, ((x i).map (cval J)).toH * ((y
          i).map (cval J)).toH) ∧
      CNear J (Err8 u (4 * N.toNat + 1) (N.toNat * (4 * (s * t)))) rc (∑ i ∈ range N.toNat, star ((x i).map (cval J)).toH * ((y
          i).map (cval J)).toH) := by
  obtain ⟨ru, rc, e1, e2, n1, n2⟩ := C60_dot_fortran (fusedFin J hJ hu hΩ pol) m N X INCX Y INCY x y hX hY s t hs ht (fun i hi
      => litQ_bdd (hx i hi)) (fun i hi => litQ_bdd (hy i hi)) hB
  exact ⟨ru, rc, e1, e2, near_c n1, near_c n2⟩

/-- C66: Fortran GEMM (every pair of scalar types, any flags), if 1 is exact and `==` is true only of machine numbers of the
same value. -/
theorem C66_acc_gemm_fortran (J : FinModel F u η Ω) (hJ : ∀ a, ¬ J.prod a) (hu : u ≤ 1 / 16) (hΩ : 1 ≤ Ω)
    (pol : Ex Unit → Fusing) (m : Mem (Fused F pol)) (tA tB : Char) (M N K : Int) (ALPHA BETA : Scal (Fused F pol))
    (A LDA Bp LDB C LDC : Int) (Av Bv Cv : Nat → Nat → Quat (Fused F pol)) (opA opB : Nat → Nat → ℍ[ℝ])
    (hA : OpIs tA (fun i k => (Av i k).map (cval J)) opA) (hBo : OpIs tB (fun i k => (Bv i k).map (cval J)) opB)
    (h1 : J.val Arith.one = 1) (he : ∀ a b : F, ArithEq.feq a b = true → J.val a = J.val b)
    (h : FGemmArgs m tA tB M N K ALPHA A LDA Bp LDB C LDC Av Bv Cv) (sα sβ a b c : ℝ) (hα : LitS J sα ALPHA)
    (hβ : LitS J sβ BETA) (iA : LitMat J a (if IsN tA then M else K).toNat (if IsN tA then K else M).toNat Av)
    (iB : LitMat J b (if IsN tB then K else N).toNat (if IsN tB then N else K).toNat Bv) (iC : LitMat J c M.toNat N.toNat Cv)
    (h1α : 1 ≤ sα) (h1β : 1 ≤ sβ) (ha : 1 ≤ a) (hb : 1 ≤ b) (hc : 1 ≤ c)
    (hB : Fits8 u Ω (4 * K.toNat + 9) (4 * (sβ * c) + K.toNat * (16 * (sα * a * b)))) :
    ∃ m' V, hgemmF tA tB M N K ALPHA A LDA Bp LDB BETA C LDC m = .ok ((), m') ∧
      MatAt m' C LDC M.toNat N.toNat V ∧
      ∀ i j, i < M.toNat → j < N.toNat → CNear J (Err8 u (4 * K.toNat + 9) (4 * (sβ * c) + K.toNat * (16 * (sα * a * b)))) (V i
          j)
        ((ALPHA.map (cval J)).toH * ∑ k ∈ range K.toNat, opA i k * opB k j +
            (BETA.map (cval J)).toH * ((Cv i j).map (cval J)).toH) := by
  obtain ⟨m', V, e, hV, hN⟩ := C60_gemm_fortran (fusedFin J hJ hu hΩ pol) m tA tB M N K ALPHA BETA A LDA Bp LDB C LDC Av Bv Cv
      opA opB hA hBo h1 (fun a b k => he _ _ k) h sα sβ a b c (litS_bdd hα) (litS_bdd hβ) (fun i j hi hj => litQ_bdd (iA i j hi
      hj)) (fun i j hi hj => litQ_bdd (iB i j hi hj)) (fun i j hi hj => litQ_bdd (iC i j hi hj)) h1α h1β ha hb hc hB
  exact ⟨m', V, e, hV, fun i j hi hj => near_c (hN i j hi hj)⟩

/-- C66: Fortran GEMV (every pair of scalar types; partial: calls outside its known defects). -/
theorem C66_acc_gemv_fortran_partial (J : FinModel F u η Ω) (hJ : ∀ a, ¬ J.prod a) (hu : u ≤ 1 / 16) (hΩ : 1 ≤ Ω)
    (pol : Ex Unit → Fusing) (m : Mem (Fused F pol)) (t : Char) (M N : Int) (ALPHA : Scal (Fused F pol)) (A LDA X INCX : Int)
    (BETA : Scal (Fused F pol)) (Y INCY : Int) (a : Nat → Nat → Quat (Fused F pol)) (x y : Nat → Quat (Fused F pol))
    (op : Nat → Nat → ℍ[ℝ]) (hop : OpIs t (fun i k => (a i k).map (cval J)) op) (h1 : J.val Arith.one = 1)
    (he : ∀ a b : F, ArithEq.feq a b = true → J.val a = J.val b) (hM : M ≠ 0) (hN : N ≠ 0)
    (h : FGemvArgs m t M N ALPHA A LDA X INCX Y INCY a x y) (hg : FGemvGood t M N ALPHA BETA INCX INCY) (sα sβ sa sx sy : ℝ)
    (hα : LitS J sα ALPHA) (hβ : LitS J sβ BETA) (iA : LitMat J sa M.toNat N.toNat a)
    (ix : LitVec J sx (gemvLenX t M N).toNat x) (iy : LitVec J sy (gemvLenY t M N).toNat y) (h1α : 1 ≤ sα) (h1β : 1 ≤ sβ)
    (h1a : 1 ≤ sa) (h1x : 1 ≤ sx) (h1y : 1 ≤ sy)
    (hB : Fits8 u Ω (4 * (gemvLenX t M N).toNat + 8) (4 * (sβ * sy) + (gemvLenX t M N).toNat * (16 * (sα * sa * sx)))) :
    ∃ m' v, gemvF t M N ALPHA A LDA X INCX BETA Y INCY m = .ok ((), m') ∧
      VecAt m' (vecStart Y (gemvLenY t M N) INCY) INCY (gemvLenY t M N).toNat v ∧
      ∀ i, i < (gemvLenY t M N).toNat → CNear J (Err8 u (4 * (gemvLenX t M N).toNat + 8) (4 * (sβ * sy) + (gemvLenX t M
          N).toNat * (16 * (sα * sa * sx)))) (v i)
        ((ALPHA.map (cval J)).toH * ∑ k ∈ range (gemvLenX t M N).toNat, op i k * ((x k).map (cval J)).toH +
            (BETA.map (cval J)).toH * ((y i).map (cval J)).toH) := by
  obtain ⟨m', V, e, hV, hN⟩ := C60_gemv_fortran_partial (fusedFin J hJ hu hΩ pol) m t M N ALPHA A LDA X INCX BETA Y INCY a x y
      op hop h1 (fun a b k => he _ _ k) hM hN h hg sα sβ sa sx sy (litS_bdd hα) (litS_bdd hβ) (fun i j hi hj => litQ_bdd (iA i
      j hi hj)) (fun i hi => litQ_bdd (ix i hi)) (fun i hi => litQ_bdd (iy i hi)) h1α h1β h1a h1x h1y hB
  exact ⟨m', V, e, hV, fun i hi => near_c (hN i hi)⟩

/-- C66: Fortran GERU (`conjY = false`) and GERC, if `==` is true only of machine numbers of the same value. -/
theorem C66_acc_ger_fortran (J : FinModel F u η Ω) (hJ : ∀ a, ¬ J.prod a) (hu : u ≤ 1 / 16) (hΩ : 1 ≤ Ω)
    (pol : Ex Unit → Fusing) (conjY : Bool) (m : Mem (Fused F pol)) (M N : Int) (ALPHA : Scal (Fused F pol))
    (X INCX Y INCY A LDA : Int) (x y : Nat → Quat (Fused F pol)) (a : Nat → Nat → Quat (Fused F pol))
    (he : ∀ a b : F, ArithEq.feq a b = true → J.val a = J.val b) (h : GerArgs m M N X INCX Y INCY A LDA x y a)
    (hd : ∀ r, ALPHA = .d r → INCX = 1) (sα sx sy sa : ℝ) (hα : LitS J sα ALPHA) (ix : LitVec J sx M.toNat x)
    (iy : LitVec J sy N.toNat y) (iA : LitMat J sa M.toNat N.toNat a) (h1α : 1 ≤ sα) (h1x : 1 ≤ sx) (h1y : 1 ≤ sy)
    (hB : Fits8 u Ω 12 (sa + 16 * (sα * sx * sy))) :
    ∃ m' v, gerF conjY M N ALPHA X INCX Y INCY A LDA m = .ok ((), m') ∧
      MatAt m' A LDA M.toNat N.toNat v ∧
      ∀ i j, i < M.toNat → j < N.toNat →
        CNear J (Err8 u 12 (sa + 16 * (sα * sx * sy))) (v i j) (((a i j).map (cval J)).toH + (ALPHA.map (cval J)).toH * ((x
            i).map (cval J)).toH *
            (if conjY then star ((y j).map (cval J)).toH else ((y j).map (cval J)).toH)) := by
  obtain ⟨m', V, e, hV, hN⟩ := C60_ger_fortran (fusedFin J hJ hu hΩ pol) conjY m M N ALPHA X INCX Y INCY A LDA x y a (fun a b k
      => he _ _ k) h hd sα sx sy sa (litS_bdd hα) (fun i hi => litQ_bdd (ix i hi)) (fun i hi => litQ_bdd (iy i hi)) (fun i j hi
      hj => litQ_bdd (iA i j hi hj)) h1α h1x h1y hB
  exact ⟨m', V, e, hV, fun i j hi hj => near_c (hN i j hi hj)⟩

/-- C66: SCALM on the SIMD SCALV. -/
theorem C66_acc_scalm (J : FinModel F u η Ω) (hJ : ∀ a, ¬ J.prod a) (hu : u ≤ 1 / 16) (hΩ : 1 ≤ Ω) (pol : Ex Unit → Fusing)
    (m : Mem (Fused F pol)) (SIDE : Char) (M N : Int) (ALPHA : Scal (Fused F pol)) (A LDA INCA : Int)
    (Av : Nat → Nat → Quat (Fused F pol)) (hA : SMatAt m A INCA LDA M.toNat N.toNat Av) (hinc : 0 < INCA)
    (hfit : ((M.toNat:Int) - 1) * INCA + 1 ≤ LDA) (s t : ℝ) (hs1 : 1 ≤ s) (ht1 : 1 ≤ t) (hα : LitS J s ALPHA)
    (hx : LitMat J t M.toNat N.toNat Av) (hB : Fits8 u Ω 4 (4 * (s * t))) :
    ∃ m' V, scalm scalvAVX SIDE 'N' M N ALPHA A LDA INCA m = .ok ((), m') ∧ SMatAt m' A INCA LDA M.toNat N.toNat V ∧
      ∀ i j, i < M.toNat → j < N.toNat → CNear J (Err8 u 4 (4 * (s * t))) (V i j)
        (if SIDE = 'L' then (ALPHA.map (cval J)).toH * ((Av i j).map (cval J)).toH
         else ((Av i j).map (cval J)).toH * (ALPHA.map (cval J)).toH) := by
  obtain ⟨m', V, e, hV, hN⟩ := C60_scalm (fusedFin J hJ hu hΩ pol) m SIDE M N ALPHA A LDA INCA Av hA hinc hfit s t hs1 ht1
      (litS_bdd hα) (fun i j hi hj => litQ_bdd (hx i j hi hj)) hB
  exact ⟨m', V, e, hV, fun i j hi hj => near_c (hN i j hi hj)⟩

/-- C66: AXPYM on the SIMD AXPYV (the test of ALPHA for zero being right, as it is unless only its k component is non-zero). -/
theorem C66_acc_axpym (J : FinModel F u η Ω) (hJ : ∀ a, ¬ J.prod a) (hu : u ≤ 1 / 16) (hΩ : 1 ≤ Ω) (pol : Ex Unit → Fusing)
    (m : Mem (Fused F pol)) (SIDE : Char) (M N : Int) (ALPHA : Scal (Fused F pol)) (A LDA INCA B LDB INCB : Int)
    (Av Bv : Nat → Nat → Quat (Fused F pol)) (hA : SMatAt m A INCA LDA M.toNat N.toNat Av)
    (hB : SMatAt m B INCB LDB M.toNat N.toNat Bv) (hinc : 0 < INCB) (hfit : ((M.toNat:Int) - 1) * INCB + 1 ≤ LDB)
    (hdis : Apart (SMatCell A INCA LDA M.toNat N.toNat) (SMatCell B INCB LDB M.toNat N.toNat))
    (hZ : ALPHA.eqZero = true → (ALPHA.map (cval J)).toH = 0) (s t w : ℝ) (hs1 : 1 ≤ s) (ht1 : 1 ≤ t) (hα : LitS J s ALPHA)
    (hx : LitMat J t M.toNat N.toNat Av) (hy : LitMat J w M.toNat N.toNat Bv) (hF : Fits8 u Ω 5 (w + 4 * (s * t))) :
    ∃ m' V, axpym axpyvAVX SIDE 'N' M N ALPHA A LDA INCA B LDB INCB m = .ok ((), m') ∧ SMatAt m' B INCB LDB M.toNat N.toNat V ∧
      ∀ i j, i < M.toNat → j < N.toNat → CNear J (Err8 u 5 (w + 4 * (s * t))) (V i j) (((Bv i j).map (cval J)).toH +
        (if SIDE = 'L' then (ALPHA.map (cval J)).toH * ((Av i j).map (cval J)).toH
         else ((Av i j).map (cval J)).toH * (ALPHA.map (cval J)).toH)) := by
  obtain ⟨m', V, e, hV, hN⟩ := C60_axpym (fusedFin J hJ hu hΩ pol) m SIDE M N ALPHA A LDA INCA B LDB INCB Av Bv hA hB hinc hfit
      hdis hZ s t w hs1 ht1 (litS_bdd hα) (fun i j hi hj => litQ_bdd (hx i j hi hj)) (fun i j hi hj => litQ_bdd (hy i j hi hj))
      hF
  exact ⟨m', V, e, hV, fun i j hi hj => near_c (hN i j hi hj)⟩

/-- C66: SCALM on the portable SCALV. -/
theorem C66_acc_scalm_portable (J : FinModel F u η Ω) (hJ : ∀ a, ¬ J.prod a) (hu : u ≤ 1 / 16) (hΩ : 1 ≤ Ω)
    (pol : Ex Unit → Fusing) (m : Mem (Fused F pol)) (SIDE : Char) (M N : Int) (ALPHA : Scal (Fused F pol)) (A LDA INCA : Int)
    (Av : Nat → Nat → Quat (Fused F pol)) (hA : SMatAt m A INCA LDA M.toNat N.toNat Av) (hinc : 0 < INCA)
    (hfit : ((M.toNat:Int) - 1) * INCA + 1 ≤ LDA) (f32 : Fits32 (M * INCA)) (s t : ℝ) (hs1 : 1 ≤ s) (ht1 : 1 ≤ t)
    (hα : LitS J s ALPHA) (hx : LitMat J t M.toNat N.toNat Av) (hB : Fits8 u Ω 4 (4 * (s * t))) :
    ∃ m' V, scalm scalvGen SIDE 'N' M N ALPHA A LDA INCA m = .ok ((), m') ∧ SMatAt m' A INCA LDA M.toNat N.toNat V ∧
      ∀ i j, i < M.toNat → j < N.toNat → CNear J (Err8 u 4 (4 * (s * t))) (V i j)
        (if SIDE = 'R' then ((Av i j).map (cval J)).toH * (ALPHA.map (cval J)).toH
         else (ALPHA.map (cval J)).toH * ((Av i j).map (cval J)).toH) := by
  obtain ⟨m', V, e, hV, hN⟩ := C60_scalm_portable (fusedFin J hJ hu hΩ pol) m SIDE M N ALPHA A LDA INCA Av hA hinc hfit f32 s t
      hs1 ht1 (litS_bdd hα) (fun i j hi hj => litQ_bdd (hx i j hi hj)) hB
  exact ⟨m', V, e, hV, fun i j hi hj => near_c (hN i j hi hj)⟩

/-- C66: AXPYM on the portable AXPYV (the test of ALPHA for zero being right, as it is unless only its k component is
non-zero). -/
theorem C66_acc_axpym_portable (J : FinModel F u η Ω) (hJ : ∀ a, ¬ J.prod a) (hu : u ≤ 1 / 16) (hΩ : 1 ≤ Ω)
    (pol : Ex Unit → Fusing) (m : Mem (Fused F pol)) (SIDE : Char) (M N : Int) (ALPHA : Scal (Fused F pol))
    (A LDA INCA B LDB INCB : Int) (Av Bv : Nat → Nat → Quat (Fused F pol)) (hA : SMatAt m A INCA LDA M.toNat N.toNat Av)
    (hB : SMatAt m B INCB LDB M.toNat N.toNat Bv) (hinc : 0 < INCB) (hfit : ((M.toNat:Int) - 1) * INCB + 1 ≤ LDB)
    (hdis : Apart (SMatCell A INCA LDA M.toNat N.toNat) (SMatCell B INCB LDB M.toNat N.toNat)) (hia : 0 < INCA)
    (fa : Fits32 (M * INCA)) (fb : Fits32 (M * INCB)) (hZ : ALPHA.eqZero = true → (ALPHA.map (cval J)).toH = 0) (s t w : ℝ)
    (hs1 : 1 ≤ s) (ht1 : 1 ≤ t) (hα : LitS J s ALPHA) (hx : LitMat J t M.toNat N.toNat Av) (hy : LitMat J w M.toNat N.toNat Bv)
    (hF : Fits8 u Ω 5 (w + 4 * (s * t))) :
    ∃ m' V, axpym axpyvGen SIDE 'N' M N ALPHA A LDA INCA B LDB INCB m = .ok ((), m') ∧ SMatAt m' B INCB LDB M.toNat N.toNat V ∧
      ∀ i j, i < M.toNat → j < N.toNat → CNear J (Err8 u 5 (w + 4 * (s * t))) (V i j) (((Bv i j).map (cval J)).toH +
        (if SIDE = 'R' then ((Av i j).map (cval J)).toH * (ALPHA.map (cval J)).toH
         else (ALPHA.map (cval J)).toH * ((Av i j).map (cval J)).toH)) := by
  obtain ⟨m', V, e, hV, hN⟩ := C60_axpym_portable (fusedFin J hJ hu hΩ pol) m SIDE M N ALPHA A LDA INCA B LDB INCB Av Bv hA hB
      hinc hfit hdis hia fa fb hZ s t w hs1 ht1 (litS_bdd hα) (fun i j hi hj => litQ_bdd (hx i j hi hj)) (fun i j hi hj =>
      litQ_bdd (hy i j hi hj)) hF
  exact ⟨m', V, e, hV, fun i j hi hj => near_c (hN i j hi hj)⟩

/-- C66: SCALM on the Fortran SCALV, ALPHA not comparing equal to zero. -/
theorem C66_acc_scalm_fortran (J : FinModel F u η Ω) (hJ : ∀ a, ¬ J.prod a) (hu : u ≤ 1 / 16) (hΩ : 1 ≤ Ω)
    (pol : Ex Unit → Fusing) (m : Mem (Fused F pol)) (SIDE : Char) (M N : Int) (ALPHA : Scal (Fused F pol)) (A LDA INCA : Int)
    (Av : Nat → Nat → Quat (Fused F pol)) (hA : SMatAt m A INCA LDA M.toNat N.toNat Av) (hinc : 0 < INCA)
    (hfit : ((M.toNat:Int) - 1) * INCA + 1 ≤ LDA) (hz : ALPHA.vIsZero = false) (s t : ℝ) (hs1 : 1 ≤ s) (ht1 : 1 ≤ t)
    (hα : LitS J s ALPHA) (hx : LitMat J t M.toNat N.toNat Av) (hB : Fits8 u Ω 4 (4 * (s * t))) :
    ∃ m' V, scalm scalvF SIDE 'N' M N ALPHA A LDA INCA m = .ok ((), m') ∧ SMatAt m' A INCA LDA M.toNat N.toNat V ∧
      ∀ i j, i < M.toNat → j < N.toNat → CNear J (Err8 u 4 (4 * (s * t))) (V i j)
        (if SIDE = 'R' ∨ SIDE = 'r' then ((Av i j).map (cval J)).toH * (ALPHA.map (cval J)).toH
         else (ALPHA.map (cval J)).toH * ((Av i j).map (cval J)).toH) := by
  obtain ⟨m', V, e, hV, hN⟩ := C60_scalm_fortran (fusedFin J hJ hu hΩ pol) m SIDE M N ALPHA A LDA INCA Av hA hinc hfit hz s t
      hs1 ht1 (litS_bdd hα) (fun i j hi hj => litQ_bdd (hx i j hi hj)) hB
  exact ⟨m', V, e, hV, fun i j hi hj => near_c (hN i j hi hj)⟩

/-- C66: AXPYM on the Fortran AXPYV (the test of ALPHA for zero being right, as it is unless only its k component is non-zero).
-/
theorem C66_acc_axpym_fortran (J : FinModel F u η Ω) (hJ : ∀ a, ¬ J.prod a) (hu : u ≤ 1 / 16) (hΩ : 1 ≤ Ω)
    (pol : Ex Unit → Fusing) (m : Mem (Fused F pol)) (SIDE : Char) (M N : Int) (ALPHA : Scal (Fused F pol))
    (A LDA INCA B LDB INCB : Int) (Av Bv : Nat → Nat → Quat (Fused F pol)) (hA : SMatAt m A INCA LDA M.toNat N.toNat Av)
    (hB : SMatAt m B INCB LDB M.toNat N.toNat Bv) (hinc : 0 < INCB) (hfit : ((M.toNat:Int) - 1) * INCB + 1 ≤ LDB)
    (hdis : Apart (SMatCell A INCA LDA M.toNat N.toNat) (SMatCell B INCB LDB M.toNat N.toNat)) (hia : 0 < INCA)
    (heq : ∀ a b : F, (a ==ᶠ b) = true → J.val a = J.val b) (hZ : ALPHA.eqZero = true → (ALPHA.map (cval J)).toH = 0)
    (s t w : ℝ) (hs1 : 1 ≤ s) (ht1 : 1 ≤ t) (hα : LitS J s ALPHA) (hx : LitMat J t M.toNat N.toNat Av)
    (hy : LitMat J w M.toNat N.toNat Bv) (hF : Fits8 u Ω 5 (w + 4 * (s * t))) :
    ∃ m' V, axpym axpyvF SIDE 'N' M N ALPHA A LDA INCA B LDB INCB m = .ok ((), m') ∧ SMatAt m' B INCB LDB M.toNat N.toNat V ∧
      ∀ i j, i < M.toNat → j < N.toNat → CNear J (Err8 u 5 (w + 4 * (s * t))) (V i j) (((Bv i j).map (cval J)).toH +
        (if SIDE = 'R' ∨ SIDE = 'r' then ((Av i j).map (cval J)).toH * (ALPHA.map (cval J)).toH
         else (ALPHA.map (cval J)).toH * ((Av i j).map (cval J)).toH)) := by
  obtain ⟨m', V, e, hV, hN⟩ := C60_axpym_fortran (fusedFin J hJ hu hΩ pol) m SIDE M N ALPHA A LDA INCA B LDB INCB Av Bv hA hB
      hinc hfit hdis hia (fun a b k => heq _ _ k) hZ s t w hs1 ht1 (litS_bdd hα) (fun i j hi hj => litQ_bdd (hx i j hi hj))
      (fun i j hi hj => litQ_bdd (hy i j hi hj)) hF
  exact ⟨m', V, e, hV, fun i j hi hj => near_c (hN i j hi hj)⟩

/-- C66: AXPYV with x, ALPHA of any scalar type (the test of ALPHA for zero being right, as it is unless only its k component
is non-zero). -/
theorem C66_acc_axpyv_mixed (J : FinModel F u η Ω) (hJ : ∀ a, ¬ J.prod a) (hu : u ≤ 1 / 16) (hΩ : 1 ≤ Ω)
    (pol : Ex Unit → Fusing) (m : Mem (Fused F pol)) (kX : Kind) (SIDE : Char) (N X INCX Y INCY : Int)
    (ALPHA : Scal (Fused F pol)) (x : Nat → Scal (Fused F pol)) (y : Nat → Quat (Fused F pol))
    (hX : KVecAt m kX X INCX N.toNat x) (hY : VecAt m Y INCY N.toNat y) (hix : 0 < INCX) (hiy : 0 < INCY)
    (fx : Fits32 (N * INCX)) (fy : Fits32 (N * INCY)) (hdis : Apart (KVecCell kX X INCX N.toNat) (VecCell Y INCY N.toNat))
    (hA : ALPHA.eqZero = true → (ALPHA.map (cval J)).toH = 0) (s t w : ℝ) (hs1 : 1 ≤ s) (ht1 : 1 ≤ t) (hα : LitS J s ALPHA)
    (hx : LitKVec J t N.toNat x) (hy : LitVec J w N.toNat y) (hB : Fits8 u Ω 5 (w + 4 * (s * t))) :
    ∃ m' v, axpyvGenK kX SIDE N ALPHA X INCX Y INCY m = .ok ((), m') ∧ VecAt m' Y INCY N.toNat v ∧
      ∀ i, i < N.toNat → CNear J (Err8 u 5 (w + 4 * (s * t))) (v i) (((y i).map (cval J)).toH +
        (if SIDE = 'R' then ((x i).map (cval J)).toH * (ALPHA.map (cval J)).toH
         else (ALPHA.map (cval J)).toH * ((x i).map (cval J)).toH)) := by
  obtain ⟨m', V, e, hV, hN⟩ := C60_axpyv_mixed (fusedFin J hJ hu hΩ pol) m kX SIDE N X INCX Y INCY ALPHA x y hX hY hix hiy fx
      fy hdis hA s t w hs1 ht1 (litS_bdd hα) (fun i hi => litS_bdd (hx i hi)) (fun i hi => litQ_bdd (hy i hi)) hB
  exact ⟨m', V, e, hV, fun i hi => near_c (hN i hi)⟩

/-- C66: GEMM (A, B, ALPHA and BETA of any scalar type). -/
theorem C66_acc_gemm_mixed (J : FinModel F u η Ω) (hJ : ∀ a, ¬ J.prod a) (hu : u ≤ 1 / 16) (hΩ : 1 ≤ Ω) (pol : Ex Unit → Fusing)
    (m : Mem (Fused F pol)) (k kB : Kind) (tA tB : Char) (M N K : Int) (ALPHA BETA : Scal (Fused F pol))
    (A LDA Bp LDB C LDC : Int) (Av Bv : Nat → Nat → Scal (Fused F pol)) (Cv : Nat → Nat → Quat (Fused F pol))
    (opA opB : Nat → Nat → ℍ[ℝ]) (hA : KOpIs tA (fun i k => (Av i k).map (cval J)) opA)
    (hBo : KOpIs tB (fun i k => (Bv i k).map (cval J)) opB) (ta : CTruth J ALPHA) (tb : CTruth J BETA)
    (h : GemmMArgs m k kB tA tB M N K ALPHA A LDA Bp LDB C LDC Av Bv Cv) (sα sβ a b c : ℝ) (hα : LitS J sα ALPHA)
    (hβ : LitS J sβ BETA) (iA : LitKMat J a (if tA = 'N' then M else K).toNat (if tA = 'N' then K else M).toNat Av)
    (iB : LitKMat J b (if tB = 'N' then K else N).toNat (if tB = 'N' then N else K).toNat Bv)
    (iC : LitMat J c M.toNat N.toNat Cv) (h1α : 1 ≤ sα) (h1β : 1 ≤ sβ) (ha : 1 ≤ a) (hb : 1 ≤ b) (hc : 1 ≤ c)
    (hB : Fits8 u Ω (4 * K.toNat + 8) (4 * (sβ * c) + K.toNat * (16 * (sα * a * b)))) :
    ∃ m' V, gemmGenK k kB tA tB M N K ALPHA A LDA Bp LDB BETA C LDC m = .ok ((), m') ∧
      MatAt m' C LDC M.toNat N.toNat V ∧
      ∀ i j, i < M.toNat → j < N.toNat → CNear J (Err8 u (4 * K.toNat + 8) (4 * (sβ * c) + K.toNat * (16 * (sα * a * b)))) (V i
          j)
        ((ALPHA.map (cval J)).toH * ∑ k ∈ range K.toNat, opA i k * opB k j +
            (BETA.map (cval J)).toH * ((Cv i j).map (cval J)).toH) := by
  obtain ⟨m', V, e, hV, hN⟩ := C60_gemm_mixed (fusedFin J hJ hu hΩ pol) m k kB tA tB M N K ALPHA BETA A LDA Bp LDB C LDC Av Bv
      Cv opA opB hA hBo ⟨ta.1, ta.2⟩ ⟨tb.1, tb.2⟩ h sα sβ a b c (litS_bdd hα) (litS_bdd hβ) (fun i j hi hj => litS_bdd (iA i j
      hi hj)) (fun i j hi hj => litS_bdd (iB i j hi hj)) (fun i j hi hj => litQ_bdd (iC i j hi hj)) h1α h1β ha hb hc hB
  exact ⟨m', V, e, hV, fun i j hi hj => near_c (hN i j hi hj)⟩

/-- C66: GEMV (A, x, ALPHA and BETA of any scalar type). -/
theorem C66_acc_gemv_mixed (J : FinModel F u η Ω) (hJ : ∀ a, ¬ J.prod a) (hu : u ≤ 1 / 16) (hΩ : 1 ≤ Ω) (pol : Ex Unit → Fusing)
    (m : Mem (Fused F pol)) (k kX : Kind) (t : Char) (M N : Int) (ALPHA : Scal (Fused F pol)) (A LDA X INCX : Int)
    (BETA : Scal (Fused F pol)) (Y INCY : Int) (a : Nat → Nat → Scal (Fused F pol)) (x : Nat → Scal (Fused F pol))
    (y : Nat → Quat (Fused F pol)) (op : Nat → Nat → ℍ[ℝ]) (hop : KOpIs t (fun i k => (a i k).map (cval J)) op)
    (ta : CTruth J ALPHA) (tb : CTruth J BETA) (hM : M ≠ 0) (hN : N ≠ 0)
    (h : GemvMArgs m k kX t M N ALPHA A LDA X INCX Y INCY a x y) (sα sβ sa sx sy : ℝ) (hα : LitS J sα ALPHA)
    (hβ : LitS J sβ BETA) (iA : LitKMat J sa M.toNat N.toNat a) (ix : LitKVec J sx (if t = 'N' then N else M).toNat x)
    (iy : LitVec J sy (if t = 'N' then M else N).toNat y) (h1α : 1 ≤ sα) (h1β : 1 ≤ sβ) (h1a : 1 ≤ sa) (h1x : 1 ≤ sx)
    (h1y : 1 ≤ sy)
    (hB : Fits8 u Ω (4 * (if t = 'N' then N else M).toNat + 9) (4 * (sβ * sy) + (if t = 'N' then N else M).toNat * (48 * (sα * sa * sx))))
    :
    ∃ m' v, gemvGenK k kX t M N ALPHA A LDA X INCX BETA Y INCY m = .ok ((), m') ∧
      VecAt m' Y INCY (if t = 'N' then M else N).toNat v ∧
      ∀ i, i < (if t = 'N' then M else N).toNat → CNear J (Err8 u (4 * (if t = 'N' then N else M).toNat + 9) (4 * (sβ * sy) +
          (if t = 'N' then N else M).toNat * (48 * (sα * sa * sx)))) (v i)
        ((ALPHA.map (cval J)).toH * ∑ k ∈ range (if t = 'N' then N else M).toNat, op i k * ((x k).map (cval J)).toH +
            (BETA.map (cval J)).toH * ((y i).map (cval J)).toH) := by
  obtain ⟨m', V, e, hV, hN⟩ := C60_gemv_mixed (fusedFin J hJ hu hΩ pol) m k kX t M N ALPHA A LDA X INCX BETA Y INCY a x y op
      hop ⟨ta.1, ta.2⟩ ⟨tb.1, tb.2⟩ hM hN h sα sβ sa sx sy (litS_bdd hα) (litS_bdd hβ) (fun i j hi hj => litS_bdd (iA i j hi
      hj)) (fun i hi => litS_bdd (ix i hi)) (fun i hi => litQ_bdd (iy i hi)) h1α h1β h1a h1x h1y hB
  exact ⟨m', V, e, hV, fun i hi => near_c (hN i hi)⟩

/-- C66: GERU (`conjY = false`) and GERC, for the y_j whose comparison with zero is right. -/
theorem C66_acc_ger_mixed (J : FinModel F u η Ω) (hJ : ∀ a, ¬ J.prod a) (hu : u ≤ 1 / 16) (hΩ : 1 ≤ Ω) (pol : Ex Unit → Fusing)
    (kX kY : Kind) (conjY : Bool) (m : Mem (Fused F pol)) (M N : Int) (ALPHA : Scal (Fused F pol)) (X INCX Y INCY A LDA : Int)
    (x y : Nat → Scal (Fused F pol)) (a : Nat → Nat → Quat (Fused F pol)) (ta : CTruth J ALPHA)
    (h : GerMArgs m kX kY M N X INCX Y INCY A LDA x y a) (sα sx sy sa : ℝ) (hα : LitS J sα ALPHA) (ix : LitKVec J sx M.toNat x)
    (iy : LitKVec J sy N.toNat y) (iA : LitMat J sa M.toNat N.toNat a) (h1α : 1 ≤ sα) (h1x : 1 ≤ sx) (h1y : 1 ≤ sy)
    (hB : Fits8 u Ω 9 (sa + 16 * (sα * sx * sy))) :
    ∃ m' v, gerGenK kX kY conjY M N ALPHA X INCX Y INCY A LDA m = .ok ((), m') ∧
      MatAt m' A LDA M.toNat N.toNat v ∧
      ∀ i j, i < M.toNat → j < N.toNat →
        ((y j).eqZero = true → ((y j).map (cval J)).toH = 0) →
        CNear J (Err8 u 9 (sa + 16 * (sα * sx * sy))) (v i j) (((a i j).map (cval J)).toH + (ALPHA.map (cval J)).toH * ((x
            i).map (cval J)).toH *
            (if conjY then star ((y j).map (cval J)).toH else ((y j).map (cval J)).toH)) := by
  obtain ⟨m', V, e, hV, hN⟩ := C60_ger_mixed (fusedFin J hJ hu hΩ pol) kX kY conjY m M N ALPHA X INCX Y INCY A LDA x y a ⟨ta.1,
      ta.2⟩ h sα sx sy sa (litS_bdd hα) (fun i hi => litS_bdd (ix i hi)) (fun i hi => litS_bdd (iy i hi)) (fun i j hi hj =>
      litQ_bdd (iA i j hi hj)) h1α h1x h1y hB
  exact ⟨m', V, e, hV, fun i j hi hj hz => near_c (hN i j hi hj hz)⟩

/-! ## Integers -/

/-- C66: SCALV. -/
theorem C66_exact_scalv (I : IntModel F u B) (hu : u ≤ 1 / 16) (pol : Ex Unit → Fusing) (m : Mem (Fused F pol)) (SIDE : Char)
    (N X INCX : Int) (ALPHA : Scal (Fused F pol)) (x : Nat → Quat (Fused F pol)) (hX : VecAt m X INCX N.toNat x)
    (hinc : INCX ≠ 0) (s t : ℝ) (hα : IntLitS I s ALPHA) (hx : IntLitVec I t N.toNat x) (hB : 4 * (s * t) ≤ B) :
    ∃ m' v, scalvAVX SIDE N ALPHA X INCX m = .ok ((), m') ∧ VecAt m' X INCX N.toNat v ∧
      ∀ i, i < N.toNat → CIs I (v i)
        (if SIDE = 'L' then (ALPHA.map (ival I)).toH * ((x i).map (ival I)).toH
         else ((x i).map (ival I)).toH * (ALPHA.map (ival I)).toH) := by
  obtain ⟨m', V, e, hV, hN⟩ := C59_scalv (fusedInt I hu pol) m SIDE N X INCX ALPHA x hX hinc s t (litS_int hα) (fun i hi =>
      litQ_int (hx i hi)) hB
  exact ⟨m', V, e, hV, fun i hi => is_c (hN i hi)⟩

/-- C66: AXPYV. -/
theorem C66_exact_axpyv (I : IntModel F u B) (hu : u ≤ 1 / 16) (pol : Ex Unit → Fusing) (m : Mem (Fused F pol)) (SIDE : Char)
    (N X INCX Y INCY : Int) (ALPHA : Scal (Fused F pol)) (x y : Nat → Quat (Fused F pol)) (hX : VecAt m X INCX N.toNat x)
    (hY : VecAt m Y INCY N.toNat y) (hinc : INCY ≠ 0) (hdis : Apart (VecCell X INCX N.toNat) (VecCell Y INCY N.toNat))
    (s t w : ℝ) (hα : IntLitS I s ALPHA) (hx : IntLitVec I t N.toNat x) (hy : IntLitVec I w N.toNat y)
    (hB : w + 4 * (s * t) ≤ B) :
    ∃ m' v, axpyvAVX SIDE N ALPHA X INCX Y INCY m = .ok ((), m') ∧ VecAt m' Y INCY N.toNat v ∧
      ∀ i, i < N.toNat → CIs I (v i) (((y i).map (ival I)).toH +
        (if SIDE = 'L' then (ALPHA.map (ival I)).toH * ((x i).map (ival I)).toH
         else ((x i).map (ival I)).toH * (ALPHA.map (ival I)).toH)) := by
  obtain ⟨m', V, e, hV, hN⟩ := C59_axpyv (fusedInt I hu pol) m SIDE N X INCX Y INCY ALPHA x y hX hY hinc hdis s t w (litS_int
      hα) (fun i hi => litQ_int (hx i hi)) (fun i hi => litQ_int (hy i hi)) hB
  exact ⟨m', V, e, hV, fun i hi => is_c (hN i hi)⟩

/-- C66: DOTU and DOTC. -/
theorem C66_exact_dot (I : IntModel F u B) (hu : u ≤ 1 / 16) (pol : Ex Unit → Fusing) (m : Mem (Fused F pol))
    (N X INCX Y INCY : Int) (x y : Nat → Quat (Fused F pol)) (hX : VecAt m X INCX N.toNat x) (hY : VecAt m Y INCY N.toNat y)
    (hx32 : Fits32 (4 * INCX)) (hy32 : Fits32 (4 * INCY)) (s t : ℝ) (hs : 0 ≤ s) (ht : 0 ≤ t) (hx : IntLitVec I s N.toNat x)
    (hy : IntLitVec I t N.toNat y) (hB : N.toNat * (4 * (s * t)) ≤ B) :
    ∃ ru rc, dotAVX false N X INCX Y INCY m = .ok (ru, m) ∧ dotAVX true N X INCX Y INCY m = .ok (rc, m) ∧
      CIs I ru (∑ i ∈ range N.toNat, ((x i).map (ival I)).toH * ((y i).map (ival I)).toH) ∧
      CIs I rc (∑ i ∈ range N.toNat, star ((x i).map (ival I)).toH * ((y i).map (ival I)).toH) := by
  obtain ⟨ru, rc, e1, e2, n1, n2⟩ := C59_dot (fusedInt I hu pol) m N X INCX Y INCY x y hX hY hx32 hy32 s t hs ht (fun i hi =>
      litQ_int (hx i hi)) (fun i hi => litQ_int (hy i hi)) hB
  exact ⟨ru, rc, e1, e2, is_c n1, is_c n2⟩

/-- C66: GEMM: integer A, B, C, ALPHA, BETA with components of magnitude at most a, b, c, sα, sβ. -/
theorem C66_exact_gemm (I : IntModel F u B) (hu : u ≤ 1 / 16) (pol : Ex Unit → Fusing) (m : Mem (Fused F pol)) (blk : Blk)
    (bAddr aAddr : Int) (junk : Int → Fused F pol) (TRANSA TRANSB : Char) (M N K : Int) (ALPHA BETA : Scal (Fused F pol))
    (A LDA Bp LDB C LDC : Int) (Av Bv Cv : Nat → Nat → Quat (Fused F pol))
    (h : GemmPre m blk bAddr aAddr TRANSA TRANSB M.toNat N.toNat K.toNat A LDA Av Bp LDB Bv C LDC Cv) (sα sβ a b c : ℝ)
    (hα : IntLitS I sα ALPHA) (hβ : IntLitS I sβ BETA)
    (hA : IntLitMat I a (if isT TRANSA then K else M).toNat (if isT TRANSA then M else K).toNat Av)
    (hBm : IntLitMat I b (if isT TRANSB then N else K).toNat (if isT TRANSB then K else N).toNat Bv)
    (hC : IntLitMat I c M.toNat N.toNat Cv) (ha : 0 ≤ a) (hb : 1 ≤ b) (hB : 4 * (sβ * c) + K.toNat * (16 * (sα * a * b)) ≤ B) :
    ∃ m' V, gemmAVX blk bAddr aAddr junk TRANSA TRANSB M N K ALPHA A LDA Bp LDB BETA C LDC m = .ok ((), m') ∧
      MatAt m' C LDC M.toNat N.toNat V ∧
      ∀ i j, i < M.toNat → j < N.toNat → CIs I (V i j)
        ((ALPHA.map (ival I)).toH * ∑ k ∈ range K.toNat, opSpec TRANSA (fun i k => (Av i k).map (ival I)) i k *
            opSpec TRANSB (fun k j => (Bv k j).map (ival I)) k j +
          (BETA.map (ival I)).toH * ((Cv i j).map (ival I)).toH) := by
  obtain ⟨m', V, e, hV, hN⟩ := C59_gemm (fusedInt I hu pol) m blk bAddr aAddr junk TRANSA TRANSB M N K ALPHA BETA A LDA Bp LDB
      C LDC Av Bv Cv h sα sβ a b c (litS_int hα) (litS_int hβ) (fun i j hi hj => litQ_int (hA i j hi hj)) (fun i j hi hj =>
      litQ_int (hBm i j hi hj)) (fun i j hi hj => litQ_int (hC i j hi hj)) ha hb hB
  exact ⟨m', V, e, hV, fun i j hi hj => is_c (hN i j hi hj)⟩

/-- C66: portable SCALV. -/
theorem C66_exact_scalv_portable (I : IntModel F u B) (hu : u ≤ 1 / 16) (pol : Ex Unit → Fusing) (m : Mem (Fused F pol))
    (SIDE : Char) (N X INCX : Int) (ALPHA : Scal (Fused F pol)) (x : Nat → Quat (Fused F pol)) (hX : VecAt m X INCX N.toNat x)
    (hinc : 0 < INCX) (fx : Fits32 (N * INCX)) (s t : ℝ) (hα : IntLitS I s ALPHA) (hx : IntLitVec I t N.toNat x)
    (hB : 4 * (s * t) ≤ B) :
    ∃ m' v, scalvGen SIDE N ALPHA X INCX m = .ok ((), m') ∧ VecAt m' X INCX N.toNat v ∧
      ∀ i, i < N.toNat → CIs I (v i)
        (if SIDE = 'R' then ((x i).map (ival I)).toH * (ALPHA.map (ival I)).toH
         else (ALPHA.map (ival I)).toH * ((x i).map (ival I)).toH) := by
  obtain ⟨m', V, e, hV, hN⟩ := C59_scalv_portable (fusedInt I hu pol) m SIDE N X INCX ALPHA x hX hinc fx s t (litS_int hα) (fun
      i hi => litQ_int (hx i hi)) hB
  exact ⟨m', V, e, hV, fun i hi => is_c (hN i hi)⟩

/-- C66: portable AXPYV (the test of ALPHA for zero being right, as it is unless only its k component is non-zero). -/
theorem C66_exact_axpyv_portable (I : IntModel F u B) (hu : u ≤ 1 / 16) (pol : Ex Unit → Fusing) (m : Mem (Fused F pol))
    (SIDE : Char) (N X INCX Y INCY : Int) (ALPHA : Scal (Fused F pol)) (x y : Nat → Quat (Fused F pol))
    (hX : VecAt m X INCX N.toNat x) (hY : VecAt m Y INCY N.toNat y) (hix : 0 < INCX) (hiy : 0 < INCY) (fx : Fits32 (N * INCX))
    (fy : Fits32 (N * INCY)) (hdis : Apart (VecCell X INCX N.toNat) (VecCell Y INCY N.toNat))
    (hA : ALPHA.eqZero = true → (ALPHA.map (ival I)).toH = 0) (s t w : ℝ) (hα : IntLitS I s ALPHA)
    (hx : IntLitVec I t N.toNat x) (hy : IntLitVec I w N.toNat y) (hB : w + 4 * (s * t) ≤ B) :
    ∃ m' v, axpyvGen SIDE N ALPHA X INCX Y INCY m = .ok ((), m') ∧ VecAt m' Y INCY N.toNat v ∧
      ∀ i, i < N.toNat → CIs I (v i) (((y i).map (ival I)).toH +
        (if SIDE = 'R' then ((x i).map (ival I)).toH * (ALPHA.map (ival I)).toH
         else (ALPHA.map (ival I)).toH * ((x i).map (ival I)).toH)) := by
  obtain ⟨m', V, e, hV, hN⟩ := C59_axpyv_portable (fusedInt I hu pol) m SIDE N X INCX Y INCY ALPHA x y hX hY hix hiy fx fy hdis
      hA s t w (litS_int hα) (fun i hi => litQ_int (hx i hi)) (fun i hi => litQ_int (hy i hi)) hB
  exact ⟨m', V, e, hV, fun i hi => is_c (hN i hi)⟩

/-- C66: portable DOTU and DOTC. -/
theorem C66_exact_dot_portable (I : IntModel F u B) (hu : u ≤ 1 / 16) (pol : Ex Unit → Fusing) (m : Mem (Fused F pol))
    (N X INCX Y INCY : Int) (x y : Nat → Quat (Fused F pol)) (hX : VecAt m X INCX N.toNat x) (hY : VecAt m Y INCY N.toNat y)
    (hix : 0 < INCX) (hiy : 0 < INCY) (fx : Fits32 (N * INCX)) (fy : Fits32 (N * INCY)) (s t : ℝ) (hs : 0 ≤ s) (ht : 0 ≤ t)
    (hx : IntLitVec I s N.toNat x) (hy : IntLitVec I t N.toNat y) (hB : N.toNat * (4 * (s * t)) ≤ B) :
    ∃ ru rc, dotGen false N X INCX Y INCY m = .ok (ru, m) ∧ dotGen true N X INCX Y INCY m = .ok (rc, m) ∧
      CIs I ru (∑ i ∈ range N.toNat, ((x i).map (ival I)).toH * ((y i).map (ival I)).toH) ∧
      CIs I rc (∑ i ∈ range N.toNat, star ((x i).map (ival I)).toH * ((y i).map (ival I)).toH) := by
  obtain ⟨ru, rc, e1, e2, n1, n2⟩ := C59_dot_portable (fusedInt I hu pol) m N X INCX Y INCY x y hX hY hix hiy fx fy s t hs ht
      (fun i hi => litQ_int (hx i hi)) (fun i hi => litQ_int (hy i hi)) hB
  exact ⟨ru, rc, e1, e2, is_c n1, is_c n2⟩

/-- C66: portable GEMM (A, ALPHA and BETA of any scalar type). -/
theorem C66_exact_gemm_portable (I : IntModel F u B) (hu : u ≤ 1 / 16) (pol : Ex Unit → Fusing) (m : Mem (Fused F pol))
    (k : Kind) (tA tB : Char) (M N K : Int) (ALPHA BETA : Scal (Fused F pol)) (A LDA Bp LDB C LDC : Int)
    (Av : Nat → Nat → Scal (Fused F pol)) (Bv Cv : Nat → Nat → Quat (Fused F pol)) (opA opB : Nat → Nat → ℍ[ℝ])
    (hA : KOpIs tA (fun i k => (Av i k).map (ival I)) opA) (hBo : QOpIs tB (fun i k => (Bv i k).map (ival I)) opB)
    (ta : ITruth I ALPHA) (tb : ITruth I BETA) (h : GemmBArgs m k tA tB M N K ALPHA A LDA Bp LDB C LDC Av Bv Cv)
    (sα sβ a b c : ℝ) (hα : IntLitS I sα ALPHA) (hβ : IntLitS I sβ BETA)
    (iA : IntLitKMat I a (if tA = 'N' then M else K).toNat (if tA = 'N' then K else M).toNat Av)
    (iB : IntLitMat I b (if tB = 'N' then K else N).toNat (if tB = 'N' then N else K).toNat Bv)
    (iC : IntLitMat I c M.toNat N.toNat Cv) (h1α : 1 ≤ sα) (h1β : 1 ≤ sβ) (ha : 0 ≤ a) (hb : 1 ≤ b)
    (hB : 4 * (sβ * c) + K.toNat * (16 * (sα * a * b)) ≤ B) :
    ∃ m' V, gemmGen k tA tB M N K ALPHA A LDA Bp LDB BETA C LDC m = .ok ((), m') ∧
      MatAt m' C LDC M.toNat N.toNat V ∧
      ∀ i j, i < M.toNat → j < N.toNat → CIs I (V i j)
        ((ALPHA.map (ival I)).toH * ∑ k ∈ range K.toNat, opA i k * opB k j +
            (BETA.map (ival I)).toH * ((Cv i j).map (ival I)).toH) := by
  obtain ⟨m', V, e, hV, hN⟩ := C59_gemm_portable (fusedInt I hu pol) m k tA tB M N K ALPHA BETA A LDA Bp LDB C LDC Av Bv Cv opA
      opB hA hBo ⟨ta.1, ta.2⟩ ⟨tb.1, tb.2⟩ h sα sβ a b c (litS_int hα) (litS_int hβ) (fun i j hi hj => litS_int (iA i j hi hj))
      (fun i j hi hj => litQ_int (iB i j hi hj)) (fun i j hi hj => litQ_int (iC i j hi hj)) h1α h1β ha hb hB
  exact ⟨m', V, e, hV, fun i j hi hj => is_c (hN i j hi hj)⟩

/-- C66: portable GEMV (A, ALPHA and BETA of any scalar type). -/
theorem C66_exact_gemv_portable (I : IntModel F u B) (hu : u ≤ 1 / 16) (pol : Ex Unit → Fusing) (m : Mem (Fused F pol))
    (k : Kind) (t : Char) (M N : Int) (ALPHA : Scal (Fused F pol)) (A LDA X INCX : Int) (BETA : Scal (Fused F pol))
    (Y INCY : Int) (a : Nat → Nat → Scal (Fused F pol)) (x y : Nat → Quat (Fused F pol)) (op : Nat → Nat → ℍ[ℝ])
    (hop : KOpIs t (fun i k => (a i k).map (ival I)) op) (ta : ITruth I ALPHA) (tb : ITruth I BETA) (hM : M ≠ 0) (hN : N ≠ 0)
    (h : GemvBArgs m k t M N ALPHA A LDA X INCX Y INCY a x y) (sα sβ sa sx sy : ℝ) (hα : IntLitS I sα ALPHA)
    (hβ : IntLitS I sβ BETA) (iA : IntLitKMat I sa M.toNat N.toNat a) (ix : IntLitVec I sx (if t = 'N' then N else M).toNat x)
    (iy : IntLitVec I sy (if t = 'N' then M else N).toNat y) (h1α : 1 ≤ sα) (h1β : 1 ≤ sβ) (h1a : 1 ≤ sa) (h1x : 1 ≤ sx)
    (hB : 4 * (sβ * sy) + (if t = 'N' then N else M).toNat * (48 * (sα * sa * sx)) ≤ B) :
    ∃ m' v, gemvGen k t M N ALPHA A LDA X INCX BETA Y INCY m = .ok ((), m') ∧
      VecAt m' Y INCY (if t = 'N' then M else N).toNat v ∧
      ∀ i, i < (if t = 'N' then M else N).toNat → CIs I (v i)
        ((ALPHA.map (ival I)).toH * ∑ k ∈ range (if t = 'N' then N else M).toNat, op i k * ((x k).map (ival I)).toH +
            (BETA.map (ival I)).toH * ((y i).map (ival I)).toH) := by
  obtain ⟨m', V, e, hV, hN⟩ := C59_gemv_portable (fusedInt I hu pol) m k t M N ALPHA A LDA X INCX BETA Y INCY a x y op hop
      ⟨ta.1, ta.2⟩ ⟨tb.1, tb.2⟩ hM hN h sα sβ sa sx sy (litS_int hα) (litS_int hβ) (fun i j hi hj => litS_int (iA i j hi hj))
      (fun i hi => litQ_int (ix i hi)) (fun i hi => litQ_int (iy i hi)) h1α h1β h1a h1x hB
  exact ⟨m', V, e, hV, fun i hi => is_c (hN i hi)⟩

/-- C66: portable GERU (`conjY = false`) and GERC, for the y_j whose comparison with zero is right. -/
theorem C66_exact_ger_portable (I : IntModel F u B) (hu : u ≤ 1 / 16) (pol : Ex Unit → Fusing) (conjY : Bool)
    (m : Mem (Fused F pol)) (M N : Int) (ALPHA : Scal (Fused F pol)) (X INCX Y INCY A LDA : Int)
    (x y : Nat → Quat (Fused F pol)) (a : Nat → Nat → Quat (Fused F pol)) (ta : ITruth I ALPHA)
    (h : GerBArgs m M N X INCX Y INCY A LDA x y a) (sα sx sy sa : ℝ) (hα : IntLitS I sα ALPHA) (ix : IntLitVec I sx M.toNat x)
    (iy : IntLitVec I sy N.toNat y) (iA : IntLitMat I sa M.toNat N.toNat a) (h1y : 1 ≤ sy) (hB : sa + 16 * (sα * sx * sy) ≤ B) :
    ∃ m' v, gerGen conjY M N ALPHA X INCX Y INCY A LDA m = .ok ((), m') ∧
      MatAt m' A LDA M.toNat N.toNat v ∧
      ∀ i j, i < M.toNat → j < N.toNat →
        (Quat.neOp (y j) (Quat.mkReal Arith.zero) = false → ((y j).map (ival I)).toH = 0) →
        CIs I (v i j) (((a i j).map (ival I)).toH + (ALPHA.map (ival I)).toH * ((x i).map (ival I)).toH *
            (if conjY then star ((y j).map (ival I)).toH else ((y j).map (ival I)).toH)) := by
  obtain ⟨m', V, e, hV, hN⟩ := C59_ger_portable (fusedInt I hu pol) conjY m M N ALPHA X INCX Y INCY A LDA x y a ⟨ta.1, ta.2⟩ h
      sα sx sy sa (litS_int hα) (fun i hi => litQ_int (ix i hi)) (fun i hi => litQ_int (iy i hi)) (fun i j hi hj => litQ_int
      (iA i j hi hj)) h1y hB
  exact ⟨m', V, e, hV, fun i j hi hj hz => is_c (hN i j hi hj hz)⟩

/-- C66: Fortran SCALV, ALPHA not comparing equal to zero. -/
theorem C66_exact_scalv_fortran (I : IntModel F u B) (hu : u ≤ 1 / 16) (pol : Ex Unit → Fusing) (m : Mem (Fused F pol))
    (SIDE : Char) (N X INCX : Int) (ALPHA : Scal (Fused F pol)) (x : Nat → Quat (Fused F pol))
    (hX : VecAt m (fbase X N INCX) INCX N.toNat x) (hinc : INCX ≠ 0) (hz : ALPHA.vIsZero = false) (s t : ℝ)
    (hα : IntLitS I s ALPHA) (hx : IntLitVec I t N.toNat x) (hB : 4 * (s * t) ≤ B) :
    ∃ m' v, scalvF SIDE N ALPHA X INCX m = .ok ((), m') ∧ VecAt m' (fbase X N INCX) INCX N.toNat v ∧
      ∀ i, i < N.toNat → CIs I (v i)
        (if SIDE = 'R' ∨ SIDE = 'r' then ((x i).map (ival I)).toH * (ALPHA.map (ival I)).toH
         else (ALPHA.map (ival I)).toH * ((x i).map (ival I)).toH) := by
  obtain ⟨m', V, e, hV, hN⟩ := C59_scalv_fortran (fusedInt I hu pol) m SIDE N X INCX ALPHA x hX hinc hz s t (litS_int hα) (fun
      i hi => litQ_int (hx i hi)) hB
  exact ⟨m', V, e, hV, fun i hi => is_c (hN i hi)⟩

/-- C66: Fortran AXPYV, if `==` is true only of machine numbers of the same value. -/
theorem C66_exact_axpyv_fortran (I : IntModel F u B) (hu : u ≤ 1 / 16) (pol : Ex Unit → Fusing) (m : Mem (Fused F pol))
    (SIDE : Char) (N X INCX Y INCY : Int) (ALPHA : Scal (Fused F pol)) (x y : Nat → Quat (Fused F pol))
    (hX : VecAt m (fbase X N INCX) INCX N.toNat x) (hY : VecAt m (fbase Y N INCY) INCY N.toNat y) (hinc : INCY ≠ 0)
    (hdis : Apart (VecCell (fbase X N INCX) INCX N.toNat) (VecCell (fbase Y N INCY) INCY N.toNat))
    (heq : ∀ a b : F, (a ==ᶠ b) = true → I.val a = I.val b) (s t w : ℝ) (hα : IntLitS I s ALPHA) (hx : IntLitVec I t N.toNat x)
    (hy : IntLitVec I w N.toNat y) (hB : w + 4 * (s * t) ≤ B) :
    ∃ m' v, axpyvF SIDE N ALPHA X INCX Y INCY m = .ok ((), m') ∧ VecAt m' (fbase Y N INCY) INCY N.toNat v ∧
      ∀ i, i < N.toNat → CIs I (v i) (((y i).map (ival I)).toH +
        (if SIDE = 'R' ∨ SIDE = 'r' then ((x i).map (ival I)).toH * (ALPHA.map (ival I)).toH
         else (ALPHA.map (ival I)).toH * ((x i).map (ival I)).toH)) := by
  obtain ⟨m', V, e, hV, hN⟩ := C59_axpyv_fortran (fusedInt I hu pol) m SIDE N X INCX Y INCY ALPHA x y hX hY hinc hdis (fun a b
      k => heq _ _ k) s t w (litS_int hα) (fun i hi => litQ_int (hx i hi)) (fun i hi => litQ_int (hy i hi)) hB
  exact ⟨m', V, e, hV, fun i hi => is_c (hN i hi)⟩

/-- C66: Fortran DOTU and DOTC. -/
theorem C66_exact_dot_fortran (I : IntModel F u B) (hu : u ≤ 1 / 16) (pol : Ex Unit → Fusing) (m : Mem (Fused F pol))
    (N X INCX Y INCY : Int) (x y : Nat → Quat (Fused F pol)) (hX : VecAt m (fbase X N INCX) INCX N.toNat x)
    (hY : VecAt m (fbase Y N INCY) INCY N.toNat y) (s t : ℝ) (hs : 0 ≤ s) (ht : 0 ≤ t) (hx : IntLitVec I s N.toNat x)
    (hy : IntLitVec I t N.toNat y) (hB : N.toNat * (4 * (s * t)) ≤ B) :
    ∃ ru rc, dotF false N X INCX Y INCY m = .ok (ru, m) ∧ dotF true N X INCX Y INCY m = .ok (rc, m) ∧
      CIs I ru (∑ i ∈ range N.toNat, ((x i).map (ival I)).toH * ((y i).map (ival I)).toH) ∧
      CIs I rc (∑ i ∈ range N.toNat, star ((x i).map (ival I)).toH * ((y i).map (ival I)).toH) := by
  obtain ⟨ru, rc, e1, e2, n1, n2⟩ := C59_dot_fortran (fusedInt I hu pol) m N X INCX Y INCY x y hX hY s t hs ht (fun i hi =>
      litQ_int (hx i hi)) (fun i hi => litQ_int (hy i hi)) hB
  exact ⟨ru, rc, e1, e2, is_c n1, is_c n2⟩

/-- C66: Fortran GEMM (every pair of scalar types, any flags), if 1 is exact and `==` is true only of machine numbers of the
same value. -/
theorem C66_exact_gemm_fortran (I : IntModel F u B) (hu : u ≤ 1 / 16) (pol : Ex Unit → Fusing) (m : Mem (Fused F pol))
    (tA tB : Char) (M N K : Int) (ALPHA BETA : Scal (Fused F pol)) (A LDA Bp LDB C LDC : Int)
    (Av Bv Cv : Nat → Nat → Quat (Fused F pol)) (opA opB : Nat → Nat → ℍ[ℝ])
    (hA : OpIs tA (fun i k => (Av i k).map (ival I)) opA) (hBo : OpIs tB (fun i k => (Bv i k).map (ival I)) opB)
    (h1 : I.val Arith.one = 1) (he : ∀ a b : F, ArithEq.feq a b = true → I.val a = I.val b)
    (h : FGemmArgs m tA tB M N K ALPHA A LDA Bp LDB C LDC Av Bv Cv) (sα sβ a b c : ℝ) (hα : IntLitS I sα ALPHA)
    (hβ : IntLitS I sβ BETA) (iA : IntLitMat I a (if IsN tA then M else K).toNat (if IsN tA then K else M).toNat Av)
    (iB : IntLitMat I b (if IsN tB then K else N).toNat (if IsN tB then N else K).toNat Bv)
    (iC : IntLitMat I c M.toNat N.toNat Cv) (h1α : 1 ≤ sα) (h1β : 1 ≤ sβ) (ha : 1 ≤ a) (hb : 1 ≤ b)
    (hB : 4 * (sβ * c) + K.toNat * (16 * (sα * a * b)) ≤ B) :
    ∃ m' V, hgemmF tA tB M N K ALPHA A LDA Bp LDB BETA C LDC m = .ok ((), m') ∧
      MatAt m' C LDC M.toNat N.toNat V ∧
      ∀ i j, i < M.toNat → j < N.toNat → CIs I (V i j)
        ((ALPHA.map (ival I)).toH * ∑ k ∈ range K.toNat, opA i k * opB k j +
            (BETA.map (ival I)).toH * ((Cv i j).map (ival I)).toH) := by
  obtain ⟨m', V, e, hV, hN⟩ := C59_gemm_fortran (fusedInt I hu pol) m tA tB M N K ALPHA BETA A LDA Bp LDB C LDC Av Bv Cv opA
      opB hA hBo h1 (fun a b k => he _ _ k) h sα sβ a b c (litS_int hα) (litS_int hβ) (fun i j hi hj => litQ_int (iA i j hi
      hj)) (fun i j hi hj => litQ_int (iB i j hi hj)) (fun i j hi hj => litQ_int (iC i j hi hj)) h1α h1β ha hb hB
  exact ⟨m', V, e, hV, fun i j hi hj => is_c (hN i j hi hj)⟩

/-- C66: Fortran GEMV (every pair of scalar types; partial: calls outside its known defects). -/
theorem C66_exact_gemv_fortran_partial (I : IntModel F u B) (hu : u ≤ 1 / 16) (pol : Ex Unit → Fusing) (m : Mem (Fused F pol))
    (t : Char) (M N : Int) (ALPHA : Scal (Fused F pol)) (A LDA X INCX : Int) (BETA : Scal (Fused F pol)) (Y INCY : Int)
    (a : Nat → Nat → Quat (Fused F pol)) (x y : Nat → Quat (Fused F pol)) (op : Nat → Nat → ℍ[ℝ])
    (hop : OpIs t (fun i k => (a i k).map (ival I)) op) (h1 : I.val Arith.one = 1)
    (he : ∀ a b : F, ArithEq.feq a b = true → I.val a = I.val b) (hM : M ≠ 0) (hN : N ≠ 0)
    (h : FGemvArgs m t M N ALPHA A LDA X INCX Y INCY a x y) (hg : FGemvGood t M N ALPHA BETA INCX INCY) (sα sβ sa sx sy : ℝ)
    (hα : IntLitS I sα ALPHA) (hβ : IntLitS I sβ BETA) (iA : IntLitMat I sa M.toNat N.toNat a)
    (ix : IntLitVec I sx (gemvLenX t M N).toNat x) (iy : IntLitVec I sy (gemvLenY t M N).toNat y) (h1α : 1 ≤ sα) (h1β : 1 ≤ sβ)
    (h1a : 1 ≤ sa) (h1x : 1 ≤ sx) (hB : 4 * (sβ * sy) + (gemvLenX t M N).toNat * (16 * (sα * sa * sx)) ≤ B) :
    ∃ m' v, gemvF t M N ALPHA A LDA X INCX BETA Y INCY m = .ok ((), m') ∧
      VecAt m' (vecStart Y (gemvLenY t M N) INCY) INCY (gemvLenY t M N).toNat v ∧
      ∀ i, i < (gemvLenY t M N).toNat → CIs I (v i)
        ((ALPHA.map (ival I)).toH * ∑ k ∈ range (gemvLenX t M N).toNat, op i k * ((x k).map (ival I)).toH +
            (BETA.map (ival I)).toH * ((y i).map (ival I)).toH) := by
  obtain ⟨m', V, e, hV, hN⟩ := C59_gemv_fortran_partial (fusedInt I hu pol) m t M N ALPHA A LDA X INCX BETA Y INCY a x y op hop
      h1 (fun a b k => he _ _ k) hM hN h hg sα sβ sa sx sy (litS_int hα) (litS_int hβ) (fun i j hi hj => litQ_int (iA i j hi
      hj)) (fun i hi => litQ_int (ix i hi)) (fun i hi => litQ_int (iy i hi)) h1α h1β h1a h1x hB
  exact ⟨m', V, e, hV, fun i hi => is_c (hN i hi)⟩

/-- C66: Fortran GERU (`conjY = false`) and GERC, if `==` is true only of machine numbers of the same value. -/
theorem C66_exact_ger_fortran (I : IntModel F u B) (hu : u ≤ 1 / 16) (pol : Ex Unit → Fusing) (conjY : Bool)
    (m : Mem (Fused F pol)) (M N : Int) (ALPHA : Scal (Fused F pol)) (X INCX Y INCY A LDA : Int)
    (x y : Nat → Quat (Fused F pol)) (a : Nat → Nat → Quat (Fused F pol))
    (he : ∀ a b : F, ArithEq.feq a b = true → I.val a = I.val b) (h : GerArgs m M N X INCX Y INCY A LDA x y a)
    (hd : ∀ r, ALPHA = .d r → INCX = 1) (sα sx sy sa : ℝ) (hα : IntLitS I sα ALPHA) (ix : IntLitVec I sx M.toNat x)
    (iy : IntLitVec I sy N.toNat y) (iA : IntLitMat I sa M.toNat N.toNat a) (h1x : 1 ≤ sx) (hB : sa + 16 * (sα * sx * sy) ≤ B) :
    ∃ m' v, gerF conjY M N ALPHA X INCX Y INCY A LDA m = .ok ((), m') ∧
      MatAt m' A LDA M.toNat N.toNat v ∧
      ∀ i j, i < M.toNat → j < N.toNat →
        CIs I (v i j) (((a i j).map (ival I)).toH + (ALPHA.map (ival I)).toH * ((x i).map (ival I)).toH *
            (if conjY then star ((y j).map (ival I)).toH else ((y j).map (ival I)).toH)) := by
  obtain ⟨m', V, e, hV, hN⟩ := C59_ger_fortran (fusedInt I hu pol) conjY m M N ALPHA X INCX Y INCY A LDA x y a (fun a b k => he
      _ _ k) h hd sα sx sy sa (litS_int hα) (fun i hi => litQ_int (ix i hi)) (fun i hi => litQ_int (iy i hi)) (fun i j hi hj =>
      litQ_int (iA i j hi hj)) h1x hB
  exact ⟨m', V, e, hV, fun i j hi hj => is_c (hN i j hi hj)⟩

/-- C66: SCALM on the SIMD SCALV. -/
theorem C66_exact_scalm (I : IntModel F u Bd) (hu : u ≤ 1 / 16) (pol : Ex Unit → Fusing) (m : Mem (Fused F pol)) (SIDE : Char)
    (M N : Int) (ALPHA : Scal (Fused F pol)) (A LDA INCA : Int) (Av : Nat → Nat → Quat (Fused F pol))
    (hA : SMatAt m A INCA LDA M.toNat N.toNat Av) (hinc : 0 < INCA) (hfit : ((M.toNat:Int) - 1) * INCA + 1 ≤ LDA) (s t : ℝ)
    (hα : IntLitS I s ALPHA) (hx : IntLitMat I t M.toNat N.toNat Av) (hBd : 4 * (s * t) ≤ Bd) :
    ∃ m' V, scalm scalvAVX SIDE 'N' M N ALPHA A LDA INCA m = .ok ((), m') ∧ SMatAt m' A INCA LDA M.toNat N.toNat V ∧
      ∀ i j, i < M.toNat → j < N.toNat → CIs I (V i j)
        (if SIDE = 'L' then (ALPHA.map (ival I)).toH * ((Av i j).map (ival I)).toH
         else ((Av i j).map (ival I)).toH * (ALPHA.map (ival I)).toH) := by
  obtain ⟨m', V, e, hV, hN⟩ := C59_scalm (fusedInt I hu pol) m SIDE M N ALPHA A LDA INCA Av hA hinc hfit s t (litS_int hα) (fun
      i j hi hj => litQ_int (hx i j hi hj)) hBd
  exact ⟨m', V, e, hV, fun i j hi hj => is_c (hN i j hi hj)⟩

/-- C66: AXPYM on the SIMD AXPYV (the test of ALPHA for zero being right, as it is unless only its k component is non-zero). -/
theorem C66_exact_axpym (I : IntModel F u Bd) (hu : u ≤ 1 / 16) (pol : Ex Unit → Fusing) (m : Mem (Fused F pol)) (SIDE : Char)
    (M N : Int) (ALPHA : Scal (Fused F pol)) (A LDA INCA B LDB INCB : Int) (Av Bv : Nat → Nat → Quat (Fused F pol))
    (hA : SMatAt m A INCA LDA M.toNat N.toNat Av) (hB : SMatAt m B INCB LDB M.toNat N.toNat Bv) (hinc : 0 < INCB)
    (hfit : ((M.toNat:Int) - 1) * INCB + 1 ≤ LDB)
    (hdis : Apart (SMatCell A INCA LDA M.toNat N.toNat) (SMatCell B INCB LDB M.toNat N.toNat))
    (hZ : ALPHA.eqZero = true → (ALPHA.map (ival I)).toH = 0) (s t w : ℝ) (hα : IntLitS I s ALPHA)
    (hx : IntLitMat I t M.toNat N.toNat Av) (hy : IntLitMat I w M.toNat N.toNat Bv) (hBd : w + 4 * (s * t) ≤ Bd) :
    ∃ m' V, axpym axpyvAVX SIDE 'N' M N ALPHA A LDA INCA B LDB INCB m = .ok ((), m') ∧ SMatAt m' B INCB LDB M.toNat N.toNat V ∧
      ∀ i j, i < M.toNat → j < N.toNat → CIs I (V i j) (((Bv i j).map (ival I)).toH +
        (if SIDE = 'L' then (ALPHA.map (ival I)).toH * ((Av i j).map (ival I)).toH
         else ((Av i j).map (ival I)).toH * (ALPHA.map (ival I)).toH)) := by
  obtain ⟨m', V, e, hV, hN⟩ := C59_axpym (fusedInt I hu pol) m SIDE M N ALPHA A LDA INCA B LDB INCB Av Bv hA hB hinc hfit hdis
      hZ s t w (litS_int hα) (fun i j hi hj => litQ_int (hx i j hi hj)) (fun i j hi hj => litQ_int (hy i j hi hj)) hBd
  exact ⟨m', V, e, hV, fun i j hi hj => is_c (hN i j hi hj)⟩

/-- C66: SCALM on the portable SCALV. -/
theorem C66_exact_scalm_portable (I : IntModel F u Bd) (hu : u ≤ 1 / 16) (pol : Ex Unit → Fusing) (m : Mem (Fused F pol))
    (SIDE : Char) (M N : Int) (ALPHA : Scal (Fused F pol)) (A LDA INCA : Int) (Av : Nat → Nat → Quat (Fused F pol))
    (hA : SMatAt m A INCA LDA M.toNat N.toNat Av) (hinc : 0 < INCA) (hfit : ((M.toNat:Int) - 1) * INCA + 1 ≤ LDA)
    (f32 : Fits32 (M * INCA)) (s t : ℝ) (hα : IntLitS I s ALPHA) (hx : IntLitMat I t M.toNat N.toNat Av)
    (hBd : 4 * (s * t) ≤ Bd) :
    ∃ m' V, scalm scalvGen SIDE 'N' M N ALPHA A LDA INCA m = .ok ((), m') ∧ SMatAt m' A INCA LDA M.toNat N.toNat V ∧
      ∀ i j, i < M.toNat → j < N.toNat → CIs I (V i j)
        (if SIDE = 'R' then ((Av i j).map (ival I)).toH * (ALPHA.map (ival I)).toH
         else (ALPHA.map (ival I)).toH * ((Av i j).map (ival I)).toH) := by
  obtain ⟨m', V, e, hV, hN⟩ := C59_scalm_portable (fusedInt I hu pol) m SIDE M N ALPHA A LDA INCA Av hA hinc hfit f32 s t
      (litS_int hα) (fun i j hi hj => litQ_int (hx i j hi hj)) hBd
  exact ⟨m', V, e, hV, fun i j hi hj => is_c (hN i j hi hj)⟩

/-- C66: AXPYM on the portable AXPYV (the test of ALPHA for zero being right, as it is unless only its k component is
non-zero). -/
theorem C66_exact_axpym_portable (I : IntModel F u Bd) (hu : u ≤ 1 / 16) (pol : Ex Unit → Fusing) (m : Mem (Fused F pol))
    (SIDE : Char) (M N : Int) (ALPHA : Scal (Fused F pol)) (A LDA INCA B LDB INCB : Int)
    (Av Bv : Nat → Nat → Quat (Fused F pol)) (hA : SMatAt m A INCA LDA M.toNat N.toNat Av)
    (hB : SMatAt m B INCB LDB M.toNat N.toNat Bv) (hinc : 0 < INCB) (hfit : ((M.toNat:Int) - 1) * INCB + 1 ≤ LDB)
    (hdis : Apart (SMatCell A INCA LDA M.toNat N.toNat) (SMatCell B INCB LDB M.toNat N.toNat)) (hia : 0 < INCA)
    (fa : Fits32 (M * INCA)) (fb : Fits32 (M * INCB)) (hZ : ALPHA.eqZero = true → (ALPHA.map (ival I)).toH = 0) (s t w : ℝ)
    (hα : IntLitS I s ALPHA) (hx : IntLitMat I t M.toNat N.toNat Av) (hy : IntLitMat I w M.toNat N.toNat Bv)
    (hBd : w + 4 * (s * t) ≤ Bd) :
    ∃ m' V, axpym axpyvGen SIDE 'N' M N ALPHA A LDA INCA B LDB INCB m = .ok ((), m') ∧ SMatAt m' B INCB LDB M.toNat N.toNat V ∧
      ∀ i j, i < M.toNat → j < N.toNat → CIs I (V i j) (((Bv i j).map (ival I)).toH +
        (if SIDE = 'R' then ((Av i j).map (ival I)).toH * (ALPHA.map (ival I)).toH
         else (ALPHA.map (ival I)).toH * ((Av i j).map (ival I)).toH)) := by
  obtain ⟨m', V, e, hV, hN⟩ := C59_axpym_portable (fusedInt I hu pol) m SIDE M N ALPHA A LDA INCA B LDB INCB Av Bv hA hB hinc
      hfit hdis hia fa fb hZ s t w (litS_int hα) (fun i j hi hj => litQ_int (hx i j hi hj)) (fun i j hi hj => litQ_int (hy i j
      hi hj)) hBd
  exact ⟨m', V, e, hV, fun i j hi hj => is_c (hN i j hi hj)⟩

/-- C66: SCALM on the Fortran SCALV, ALPHA not comparing equal to zero. -/
theorem C66_exact_scalm_fortran (I : IntModel F u Bd) (hu : u ≤ 1 / 16) (pol : Ex Unit → Fusing) (m : Mem (Fused F pol))
    (SIDE : Char) (M N : Int) (ALPHA : Scal (Fused F pol)) (A LDA INCA : Int) (Av : Nat → Nat → Quat (Fused F pol))
    (hA : SMatAt m A INCA LDA M.toNat N.toNat Av) (hinc : 0 < INCA) (hfit : ((M.toNat:Int) - 1) * INCA + 1 ≤ LDA)
    (hz : ALPHA.vIsZero = false) (s t : ℝ) (hα : IntLitS I s ALPHA) (hx : IntLitMat I t M.toNat N.toNat Av)
    (hBd : 4 * (s * t) ≤ Bd) :
    ∃ m' V, scalm scalvF SIDE 'N' M N ALPHA A LDA INCA m = .ok ((), m') ∧ SMatAt m' A INCA LDA M.toNat N.toNat V ∧
      ∀ i j, i < M.toNat → j < N.toNat → CIs I (V i j)
        (if SIDE = 'R' ∨ SIDE = 'r' then ((Av i j).map (ival I)).toH * (ALPHA.map (ival I)).toH
         else (ALPHA.map (ival I)).toH * ((Av i j).map (ival I)).toH) := by
  obtain ⟨m', V, e, hV, hN⟩ := C59_scalm_fortran (fusedInt I hu pol) m SIDE M N ALPHA A LDA INCA Av hA hinc hfit hz s t
      (litS_int hα) (fun i j hi hj => litQ_int (hx i j hi hj)) hBd
  exact ⟨m', V, e, hV, fun i j hi hj => is_c (hN i j hi hj)⟩

/-- C66: AXPYM on the Fortran AXPYV (the test of ALPHA for zero being right, as it is unless only its k component is non-zero).
-/
theorem C66_exact_axpym_fortran (I : IntModel F u Bd) (hu : u ≤ 1 / 16) (pol : Ex Unit → Fusing) (m : Mem (Fused F pol))
    (SIDE : Char) (M N : Int) (ALPHA : Scal (Fused F pol)) (A LDA INCA B LDB INCB : Int)
    (Av Bv : Nat → Nat → Quat (Fused F pol)) (hA : SMatAt m A INCA LDA M.toNat N.toNat Av)
    (hB : SMatAt m B INCB LDB M.toNat N.toNat Bv) (hinc : 0 < INCB) (hfit : ((M.toNat:Int) - 1) * INCB + 1 ≤ LDB)
    (hdis : Apart (SMatCell A INCA LDA M.toNat N.toNat) (SMatCell B INCB LDB M.toNat N.toNat)) (hia : 0 < INCA)
    (heq : ∀ a b : F, (a ==ᶠ b) = true → I.val a = I.val b) (hZ : ALPHA.eqZero = true → (ALPHA.map (ival I)).toH = 0)
    (s t w : ℝ) (hα : IntLitS I s ALPHA) (hx : IntLitMat I t M.toNat N.toNat Av) (hy : IntLitMat I w M.toNat N.toNat Bv)
    (hBd : w + 4 * (s * t) ≤ Bd) :
    ∃ m' V, axpym axpyvF SIDE 'N' M N ALPHA A LDA INCA B LDB INCB m = .ok ((), m') ∧ SMatAt m' B INCB LDB M.toNat N.toNat V ∧
      ∀ i j, i < M.toNat → j < N.toNat → CIs I (V i j) (((Bv i j).map (ival I)).toH +
        (if SIDE = 'R' ∨ SIDE = 'r' then ((Av i j).map (ival I)).toH * (ALPHA.map (ival I)).toH
         else (ALPHA.map (ival I)).toH * ((Av i j).map (ival I)).toH)) := by
  obtain ⟨m', V, e, hV, hN⟩ := C59_axpym_fortran (fusedInt I hu pol) m SIDE M N ALPHA A LDA INCA B LDB INCB Av Bv hA hB hinc
      hfit hdis hia (fun a b k => heq _ _ k) hZ s t w (litS_int hα) (fun i j hi hj => litQ_int (hx i j hi hj)) (fun i j hi hj
      => litQ_int (hy i j hi hj)) hBd
  exact ⟨m', V, e, hV, fun i j hi hj => is_c (hN i j hi hj)⟩

/-- C66: AXPYV with x, ALPHA of any scalar type (the test of ALPHA for zero being right, as it is unless only its k component
is non-zero). -/
theorem C66_exact_axpyv_mixed (I : IntModel F u B) (hu : u ≤ 1 / 16) (pol : Ex Unit → Fusing) (m : Mem (Fused F pol))
    (kX : Kind) (SIDE : Char) (N X INCX Y INCY : Int) (ALPHA : Scal (Fused F pol)) (x : Nat → Scal (Fused F pol))
    (y : Nat → Quat (Fused F pol)) (hX : KVecAt m kX X INCX N.toNat x) (hY : VecAt m Y INCY N.toNat y) (hix : 0 < INCX)
    (hiy : 0 < INCY) (fx : Fits32 (N * INCX)) (fy : Fits32 (N * INCY))
    (hdis : Apart (KVecCell kX X INCX N.toNat) (VecCell Y INCY N.toNat))
    (hA : ALPHA.eqZero = true → (ALPHA.map (ival I)).toH = 0) (s t w : ℝ) (hα : IntLitS I s ALPHA)
    (hx : IntLitKVec I t N.toNat x) (hy : IntLitVec I w N.toNat y) (hB : w + 4 * (s * t) ≤ B) :
    ∃ m' v, axpyvGenK kX SIDE N ALPHA X INCX Y INCY m = .ok ((), m') ∧ VecAt m' Y INCY N.toNat v ∧
      ∀ i, i < N.toNat → CIs I (v i) (((y i).map (ival I)).toH +
        (if SIDE = 'R' then ((x i).map (ival I)).toH * (ALPHA.map (ival I)).toH
         else (ALPHA.map (ival I)).toH * ((x i).map (ival I)).toH)) := by
  obtain ⟨m', V, e, hV, hN⟩ := C59_axpyv_mixed (fusedInt I hu pol) m kX SIDE N X INCX Y INCY ALPHA x y hX hY hix hiy fx fy hdis
      hA s t w (litS_int hα) (fun i hi => litS_int (hx i hi)) (fun i hi => litQ_int (hy i hi)) hB
  exact ⟨m', V, e, hV, fun i hi => is_c (hN i hi)⟩

/-- C66: GEMM (A, B, ALPHA and BETA of any scalar type). -/
theorem C66_exact_gemm_mixed (I : IntModel F u B) (hu : u ≤ 1 / 16) (pol : Ex Unit → Fusing) (m : Mem (Fused F pol))
    (k kB : Kind) (tA tB : Char) (M N K : Int) (ALPHA BETA : Scal (Fused F pol)) (A LDA Bp LDB C LDC : Int)
    (Av Bv : Nat → Nat → Scal (Fused F pol)) (Cv : Nat → Nat → Quat (Fused F pol)) (opA opB : Nat → Nat → ℍ[ℝ])
    (hA : KOpIs tA (fun i k => (Av i k).map (ival I)) opA) (hBo : KOpIs tB (fun i k => (Bv i k).map (ival I)) opB)
    (ta : ITruth I ALPHA) (tb : ITruth I BETA) (h : GemmMArgs m k kB tA tB M N K ALPHA A LDA Bp LDB C LDC Av Bv Cv)
    (sα sβ a b c : ℝ) (hα : IntLitS I sα ALPHA) (hβ : IntLitS I sβ BETA)
    (iA : IntLitKMat I a (if tA = 'N' then M else K).toNat (if tA = 'N' then K else M).toNat Av)
    (iB : IntLitKMat I b (if tB = 'N' then K else N).toNat (if tB = 'N' then N else K).toNat Bv)
    (iC : IntLitMat I c M.toNat N.toNat Cv) (h1α : 1 ≤ sα) (h1β : 1 ≤ sβ) (ha : 0 ≤ a) (hb : 1 ≤ b)
    (hB : 4 * (sβ * c) + K.toNat * (16 * (sα * a * b)) ≤ B) :
    ∃ m' V, gemmGenK k kB tA tB M N K ALPHA A LDA Bp LDB BETA C LDC m = .ok ((), m') ∧
      MatAt m' C LDC M.toNat N.toNat V ∧
      ∀ i j, i < M.toNat → j < N.toNat → CIs I (V i j)
        ((ALPHA.map (ival I)).toH * ∑ k ∈ range K.toNat, opA i k * opB k j +
            (BETA.map (ival I)).toH * ((Cv i j).map (ival I)).toH) := by
  obtain ⟨m', V, e, hV, hN⟩ := C59_gemm_mixed (fusedInt I hu pol) m k kB tA tB M N K ALPHA BETA A LDA Bp LDB C LDC Av Bv Cv opA
      opB hA hBo ⟨ta.1, ta.2⟩ ⟨tb.1, tb.2⟩ h sα sβ a b c (litS_int hα) (litS_int hβ) (fun i j hi hj => litS_int (iA i j hi hj))
      (fun i j hi hj => litS_int (iB i j hi hj)) (fun i j hi hj => litQ_int (iC i j hi hj)) h1α h1β ha hb hB
  exact ⟨m', V, e, hV, fun i j hi hj => is_c (hN i j hi hj)⟩

/-- C66: GEMV (A, x, ALPHA and BETA of any scalar type). -/
theorem C66_exact_gemv_mixed (I : IntModel F u B) (hu : u ≤ 1 / 16) (pol : Ex Unit → Fusing) (m : Mem (Fused F pol))
    (k kX : Kind) (t : Char) (M N : Int) (ALPHA : Scal (Fused F pol)) (A LDA X INCX : Int) (BETA : Scal (Fused F pol))
    (Y INCY : Int) (a : Nat → Nat → Scal (Fused F pol)) (x : Nat → Scal (Fused F pol)) (y : Nat → Quat (Fused F pol))
    (op : Nat → Nat → ℍ[ℝ]) (hop : KOpIs t (fun i k => (a i k).map (ival I)) op) (ta : ITruth I ALPHA) (tb : ITruth I BETA)
    (hM : M ≠ 0) (hN : N ≠ 0) (h : GemvMArgs m k kX t M N ALPHA A LDA X INCX Y INCY a x y) (sα sβ sa sx sy : ℝ)
    (hα : IntLitS I sα ALPHA) (hβ : IntLitS I sβ BETA) (iA : IntLitKMat I sa M.toNat N.toNat a)
    (ix : IntLitKVec I sx (if t = 'N' then N else M).toNat x) (iy : IntLitVec I sy (if t = 'N' then M else N).toNat y)
    (h1α : 1 ≤ sα) (h1β : 1 ≤ sβ) (h1a : 1 ≤ sa) (h1x : 1 ≤ sx)
    (hB : 4 * (sβ * sy) + (if t = 'N' then N else M).toNat * (48 * (sα * sa * sx)) ≤ B) :
    ∃ m' v, gemvGenK k kX t M N ALPHA A LDA X INCX BETA Y INCY m = .ok ((), m') ∧
      VecAt m' Y INCY (if t = 'N' then M else N).toNat v ∧
      ∀ i, i < (if t = 'N' then M else N).toNat → CIs I (v i)
        ((ALPHA.map (ival I)).toH * ∑ k ∈ range (if t = 'N' then N else M).toNat, op i k * ((x k).map (ival I)).toH +
            (BETA.map (ival I)).toH * ((y i).map (ival I)).toH) := by
  obtain ⟨m', V, e, hV, hN⟩ := C59_gemv_mixed (fusedInt I hu pol) m k kX t M N ALPHA A LDA X INCX BETA Y INCY a x y op hop
      ⟨ta.1, ta.2⟩ ⟨tb.1, tb.2⟩ hM hN h sα sβ sa sx sy (litS_int hα) (litS_int hβ) (fun i j hi hj => litS_int (iA i j hi hj))
      (fun i hi => litS_int (ix i hi)) (fun i hi => litQ_int (iy i hi)) h1α h1β h1a h1x hB
  exact ⟨m', V, e, hV, fun i hi => is_c (hN i hi)⟩

/-- C66: GERU (`conjY = false`) and GERC, for the y_j whose comparison with zero is right. -/
theorem C66_exact_ger_mixed (I : IntModel F u B) (hu : u ≤ 1 / 16) (pol : Ex Unit → Fusing) (kX kY : Kind) (conjY : Bool)
    (m : Mem (Fused F pol)) (M N : Int) (ALPHA : Scal (Fused F pol)) (X INCX Y INCY A LDA : Int)
    (x y : Nat → Scal (Fused F pol)) (a : Nat → Nat → Quat (Fused F pol)) (ta : ITruth I ALPHA)
    (h : GerMArgs m kX kY M N X INCX Y INCY A LDA x y a) (sα sx sy sa : ℝ) (hα : IntLitS I sα ALPHA)
    (ix : IntLitKVec I sx M.toNat x) (iy : IntLitKVec I sy N.toNat y) (iA : IntLitMat I sa M.toNat N.toNat a) (h1y : 1 ≤ sy)
    (hB : sa + 16 * (sα * sx * sy) ≤ B) :
    ∃ m' v, gerGenK kX kY conjY M N ALPHA X INCX Y INCY A LDA m = .ok ((), m') ∧
      MatAt m' A LDA M.toNat N.toNat v ∧
      ∀ i j, i < M.toNat → j < N.toNat →
        ((y j).eqZero = true → ((y j).map (ival I)).toH = 0) →
        CIs I (v i j) (((a i j).map (ival I)).toH + (ALPHA.map (ival I)).toH * ((x i).map (ival I)).toH *
            (if conjY then star ((y j).map (ival I)).toH else ((y j).map (ival I)).toH)) := by
  obtain ⟨m', V, e, hV, hN⟩ := C59_ger_mixed (fusedInt I hu pol) kX kY conjY m M N ALPHA X INCX Y INCY A LDA x y a ⟨ta.1, ta.2⟩
      h sα sx sy sa (litS_int hα) (fun i hi => litS_int (ix i hi)) (fun i hi => litS_int (iy i hi)) (fun i j hi hj => litQ_int
      (iA i j hi hj)) h1y hB
  exact ⟨m', V, e, hV, fun i j hi hj hz => is_c (hN i j hi hj hz)⟩

/-! ## NaNs -/

/-- C66: GEMM (Fortran, every pair of scalar types), when ALPHA does not compare equal to zero: one NaN component in ALPHA, in
row `i` of op(A) or in column `j` of op(B) makes all of `C(i,j)` NaN; one in the old `C(i,j)` leaves at least one unless BETA
compares equal to zero; one in BETA makes all of `C(i,j)` NaN unless BETA compares equal to 0 or 1. -/
theorem C66_nan_gemm_fortran {bad : F → Prop} (hn : NaNLike bad) (pol : Ex Unit → Fusing) (m : Mem (Fused F pol)) (tA tB : Char)
    (M N K : Int) (ALPHA BETA : Scal (Fused F pol)) (A LDA B LDB C LDC : Int) (Av Bv Cv : Nat → Nat → Quat (Fused F pol))
    (hp : FGemmArgs m tA tB M N K ALPHA A LDA B LDB C LDC Av Bv Cv) (ha : ALPHA.fIsZero = false) :
    ∃ (m' : Mem (Fused F pol)) (C' : Nat → Nat → Quat (Fused F pol)),
      hgemmF tA tB M N K ALPHA A LDA B LDB BETA C LDC m = .ok ((), m') ∧ MatAt m' C LDC M.toNat N.toNat C' ∧
      ∀ i j, i < M.toNat → j < N.toNat →
        (∀ l, l < K.toNat → (ALPHA.HasNaN (Fused.bad bad) ∨ (if IsN tA then Av i l else Av l i).HasNaN (Fused.bad bad) ∨
          (if IsN tB then Bv l j else Bv j l).HasNaN (Fused.bad bad)) → (C' i j).AllNaN (Fused.bad bad)) ∧
        (BETA.fIsZero = false → (Cv i j).HasNaN (Fused.bad bad) → (C' i j).HasNaN (Fused.bad bad)) ∧
        (BETA.fIsZero = false → BETA.fIsOne = false → BETA.HasNaN (Fused.bad bad) → (C' i j).AllNaN (Fused.bad bad)) :=
  C53_gemm_fortran (fusedNaN hn) m tA tB M N K ALPHA BETA A LDA B LDB C LDC Av Bv Cv hp ha

/-- C66: GERU and GERC (Fortran), when neither ALPHA nor `y_j` compares equal to zero: a NaN component in ALPHA, `x_i` or `y_j`
makes all of `A(i,j)` NaN; one in the old entry always leaves at least one. -/
theorem C66_nan_ger_fortran_partial {bad : F → Prop} (hn : NaNLike bad) (pol : Ex Unit → Fusing) (conjY : Bool)
    (m : Mem (Fused F pol)) (M N : Int) (ALPHA : Scal (Fused F pol)) (X INCX Y INCY A LDA : Int)
    (x y : Nat → Quat (Fused F pol)) (a : Nat → Nat → Quat (Fused F pol)) (hp : GerArgs m M N X INCX Y INCY A LDA x y a)
    (hd : ∀ r, ALPHA = .d r → INCX = 1) :
    ∃ (m' : Mem (Fused F pol)) (a' : Nat → Nat → Quat (Fused F pol)),
      gerF conjY M N ALPHA X INCX Y INCY A LDA m = .ok ((), m') ∧ MatAt m' A LDA M.toNat N.toNat a' ∧
      ∀ i j, i < M.toNat → j < N.toNat →
        ((a i j).HasNaN (Fused.bad bad) → (a' i j).HasNaN (Fused.bad bad)) ∧
        (ALPHA.gIsZero = false → (y j).fIsZero = false →
          (ALPHA.HasNaN (Fused.bad bad) ∨ (x i).HasNaN (Fused.bad bad) ∨ (y j).HasNaN (Fused.bad bad)) → (a' i j).AllNaN
              (Fused.bad bad)) :=
  C53_ger_fortran_partial (fusedNaN hn) conjY m M N ALPHA X INCX Y INCY A LDA x y a hp hd

/-- C66: GEMV (Fortran, partial: calls outside its known defects), when ALPHA does not compare equal to zero: one NaN component
in ALPHA, in row `i` of op(A) or in x makes all of `y_i` NaN; one in the old `y_i` leaves at least one unless BETA compares
equal to zero; one in BETA makes all of `y_i` NaN unless BETA compares equal to 0 or 1. -/
theorem C66_nan_gemv_fortran_partial {bad : F → Prop} (hn : NaNLike bad) (pol : Ex Unit → Fusing) (m : Mem (Fused F pol))
    (t : Char) (M N : Int) (ALPHA : Scal (Fused F pol)) (A LDA X INCX : Int) (BETA : Scal (Fused F pol)) (Y INCY : Int)
    (a : Nat → Nat → Quat (Fused F pol)) (x y : Nat → Quat (Fused F pol)) (hM : M ≠ 0) (hN : N ≠ 0)
    (hp : FGemvArgs m t M N ALPHA A LDA X INCX Y INCY a x y) (hg : FGemvGood t M N ALPHA BETA INCX INCY)
    (ha : ALPHA.fIsZero = false) :
    ∃ (m' : Mem (Fused F pol)) (y' : Nat → Quat (Fused F pol)),
      gemvF t M N ALPHA A LDA X INCX BETA Y INCY m = .ok ((), m') ∧
      VecAt m' (vecStart Y (gemvLenY t M N) INCY) INCY (gemvLenY t M N).toNat y' ∧
      ∀ i, i < (gemvLenY t M N).toNat →
        (∀ l, l < (gemvLenX t M N).toNat → (ALPHA.HasNaN (Fused.bad bad) ∨
          (if IsN t then a i l else a l i).HasNaN (Fused.bad bad) ∨ (x l).HasNaN (Fused.bad bad)) → (y' i).AllNaN (Fused.bad
              bad)) ∧
        (BETA.fIsZero = false ∨ BETA.fIsOne = true → (y i).HasNaN (Fused.bad bad) → (y' i).HasNaN (Fused.bad bad)) ∧
        (BETA.fIsZero = false → BETA.fIsOne = false → BETA.HasNaN (Fused.bad bad) → (y' i).AllNaN (Fused.bad bad)) :=
  C53_gemv_fortran_partial (fusedNaN hn) m t M N ALPHA A LDA X INCX BETA Y INCY a x y hM hN hp hg ha

/-- C66: SCALV (Fortran): a NaN component of `x_i` leaves one in the new `x_i`; one in ALPHA makes all of it NaN, unless ALPHA
compares equal to zero. -/
theorem C66_nan_scalv_fortran {bad : F → Prop} (hn : NaNLike bad) (pol : Ex Unit → Fusing) (m : Mem (Fused F pol)) (SIDE : Char)
    (N X INCX : Int) (ALPHA : Scal (Fused F pol)) (x : Nat → Quat (Fused F pol)) (hX : VecAt m (fbase X N INCX) INCX N.toNat x)
    (hinc : INCX ≠ 0) :
    ∃ (m' : Mem (Fused F pol)) (x' : Nat → Quat (Fused F pol)), scalvF SIDE N ALPHA X INCX m = .ok ((), m') ∧
      VecAt m' (fbase X N INCX) INCX N.toNat x' ∧
      ∀ i, i < N.toNat → ((x i).HasNaN (Fused.bad bad) → (x' i).HasNaN (Fused.bad bad)) ∧
        (ALPHA.vIsZero = false → ALPHA.HasNaN (Fused.bad bad) → (x' i).AllNaN (Fused.bad bad)) :=
  C53_scalv_fortran (fusedNaN hn) m SIDE N X INCX ALPHA x hX hinc

/-- C66: AXPYV (Fortran): a NaN component of the old `y_i` leaves one in the new; so does one in `x_i`, and one in ALPHA makes
all of `y_i` NaN, unless ALPHA compares equal to zero. -/
theorem C66_nan_axpyv_fortran {bad : F → Prop} (hn : NaNLike bad) (pol : Ex Unit → Fusing) (m : Mem (Fused F pol)) (SIDE : Char)
    (N X INCX Y INCY : Int) (ALPHA : Scal (Fused F pol)) (x y : Nat → Quat (Fused F pol))
    (hX : VecAt m (fbase X N INCX) INCX N.toNat x) (hY : VecAt m (fbase Y N INCY) INCY N.toNat y) (hinc : INCY ≠ 0)
    (hdis : Apart (VecCell (fbase X N INCX) INCX N.toNat) (VecCell (fbase Y N INCY) INCY N.toNat)) :
    ∃ (m' : Mem (Fused F pol)) (y' : Nat → Quat (Fused F pol)), axpyvF SIDE N ALPHA X INCX Y INCY m = .ok ((), m') ∧
      VecAt m' (fbase Y N INCY) INCY N.toNat y' ∧
      ∀ i, i < N.toNat → ((y i).HasNaN (Fused.bad bad) → (y' i).HasNaN (Fused.bad bad)) ∧
        (ALPHA.vIsZero = false → (x i).HasNaN (Fused.bad bad) → (y' i).HasNaN (Fused.bad bad)) ∧
        (ALPHA.vIsZero = false → ALPHA.HasNaN (Fused.bad bad) → (y' i).AllNaN (Fused.bad bad)) :=
  C53_axpyv_fortran (fusedNaN hn) m SIDE N X INCX Y INCY ALPHA x y hX hY hinc hdis

/-- C66: DOTU and DOTC (Fortran). -/
theorem C66_nan_dot_fortran {bad : F → Prop} (hn : NaNLike bad) (pol : Ex Unit → Fusing) (m : Mem (Fused F pol)) (conj : Bool)
    (N X INCX Y INCY : Int) (x y : Nat → Quat (Fused F pol)) (hX : VecAt m (fbase X N INCX) INCX N.toNat x)
    (hY : VecAt m (fbase Y N INCY) INCY N.toNat y) :
    ∃ r, dotF conj N X INCX Y INCY m = .ok (r, m) ∧
      ∀ i, i < N.toNat → ((x i).HasNaN (Fused.bad bad) ∨ (y i).HasNaN (Fused.bad bad)) → r.AllNaN (Fused.bad bad) :=
  C53_dot_fortran (fusedNaN hn) m conj N X INCX Y INCY x y hX hY

/-- C66: SCALM on the SIMD SCALV. -/
theorem C66_nan_scalm_simd {bad : F → Prop} (hn : NaNLike bad) (pol : Ex Unit → Fusing) (m : Mem (Fused F pol)) (SIDE : Char)
    (M N : Int) (ALPHA : Scal (Fused F pol)) (A LDA INCA : Int) (Av : Nat → Nat → Quat (Fused F pol))
    (hA : SMatAt m A INCA LDA M.toNat N.toNat Av) (hinc : 0 < INCA) (hfit : ((M.toNat:Int) - 1) * INCA + 1 ≤ LDA) :
    ∃ m' V, scalm scalvAVX SIDE 'N' M N ALPHA A LDA INCA m = .ok ((), m') ∧ SMatAt m' A INCA LDA M.toNat N.toNat V ∧
      ∀ i j, i < M.toNat → j < N.toNat → (ALPHA.HasNaN (Fused.bad bad) ∨ (Av i j).HasNaN (Fused.bad bad)) → (V i j).HasNaN
          (Fused.bad bad) :=
  C53_scalm_simd (fusedNaN hn) m SIDE M N ALPHA A LDA INCA Av hA hinc hfit

/-- C66: AXPYM on the SIMD AXPYV: what B holds always counts, ALPHA and A unless ALPHA compares equal to zero. -/
theorem C66_nan_axpym_simd {bad : F → Prop} (hn : NaNLike bad) (pol : Ex Unit → Fusing) (m : Mem (Fused F pol)) (SIDE : Char)
    (M N : Int) (ALPHA : Scal (Fused F pol)) (A LDA INCA B LDB INCB : Int) (Av Bv : Nat → Nat → Quat (Fused F pol))
    (hA : SMatAt m A INCA LDA M.toNat N.toNat Av) (hB : SMatAt m B INCB LDB M.toNat N.toNat Bv) (hinc : 0 < INCB)
    (hfit : ((M.toNat:Int) - 1) * INCB + 1 ≤ LDB)
    (hdis : Apart (SMatCell A INCA LDA M.toNat N.toNat) (SMatCell B INCB LDB M.toNat N.toNat)) :
    ∃ m' V, axpym axpyvAVX SIDE 'N' M N ALPHA A LDA INCA B LDB INCB m = .ok ((), m') ∧ SMatAt m' B INCB LDB M.toNat N.toNat V ∧
      ∀ i j, i < M.toNat → j < N.toNat → ((Bv i j).HasNaN (Fused.bad bad) → (V i j).HasNaN (Fused.bad bad)) ∧
        (ALPHA.eqZero = false → (ALPHA.HasNaN (Fused.bad bad) ∨ (Av i j).HasNaN (Fused.bad bad)) → (V i j).HasNaN (Fused.bad
            bad)) :=
  C53_axpym_simd (fusedNaN hn) m SIDE M N ALPHA A LDA INCA B LDB INCB Av Bv hA hB hinc hfit hdis

/-- C66: SCALM on the portable SCALV. -/
theorem C66_nan_scalm_portable {bad : F → Prop} (hn : NaNLike bad) (pol : Ex Unit → Fusing) (m : Mem (Fused F pol))
    (SIDE : Char) (M N : Int) (ALPHA : Scal (Fused F pol)) (A LDA INCA : Int) (Av : Nat → Nat → Quat (Fused F pol))
    (hA : SMatAt m A INCA LDA M.toNat N.toNat Av) (hinc : 0 < INCA) (hfit : ((M.toNat:Int) - 1) * INCA + 1 ≤ LDA)
    (f32 : Fits32 (M * INCA)) :
    ∃ m' V, scalm scalvGen SIDE 'N' M N ALPHA A LDA INCA m = .ok ((), m') ∧ SMatAt m' A INCA LDA M.toNat N.toNat V ∧
      ∀ i j, i < M.toNat → j < N.toNat → (ALPHA.HasNaN (Fused.bad bad) ∨ (Av i j).HasNaN (Fused.bad bad)) → (V i j).HasNaN
          (Fused.bad bad) :=
  C53_scalm_portable (fusedNaN hn) m SIDE M N ALPHA A LDA INCA Av hA hinc hfit f32

/-- C66: AXPYM on the portable AXPYV: what B holds always counts, ALPHA and A unless ALPHA compares equal to zero. -/
theorem C66_nan_axpym_portable {bad : F → Prop} (hn : NaNLike bad) (pol : Ex Unit → Fusing) (m : Mem (Fused F pol))
    (SIDE : Char) (M N : Int) (ALPHA : Scal (Fused F pol)) (A LDA INCA B LDB INCB : Int)
    (Av Bv : Nat → Nat → Quat (Fused F pol)) (hA : SMatAt m A INCA LDA M.toNat N.toNat Av)
    (hB : SMatAt m B INCB LDB M.toNat N.toNat Bv) (hinc : 0 < INCB) (hfit : ((M.toNat:Int) - 1) * INCB + 1 ≤ LDB)
    (hdis : Apart (SMatCell A INCA LDA M.toNat N.toNat) (SMatCell B INCB LDB M.toNat N.toNat)) (hia : 0 < INCA)
    (fa : Fits32 (M * INCA)) (fb : Fits32 (M * INCB)) :
    ∃ m' V, axpym axpyvGen SIDE 'N' M N ALPHA A LDA INCA B LDB INCB m = .ok ((), m') ∧ SMatAt m' B INCB LDB M.toNat N.toNat V ∧
      ∀ i j, i < M.toNat → j < N.toNat → ((Bv i j).HasNaN (Fused.bad bad) → (V i j).HasNaN (Fused.bad bad)) ∧
        (ALPHA.eqZero = false → (ALPHA.HasNaN (Fused.bad bad) ∨ (Av i j).HasNaN (Fused.bad bad)) → (V i j).HasNaN (Fused.bad
            bad)) :=
  C53_axpym_portable (fusedNaN hn) m SIDE M N ALPHA A LDA INCA B LDB INCB Av Bv hA hB hinc hfit hdis hia fa fb

/-- C66: SCALM on the Fortran SCALV. -/
theorem C66_nan_scalm_fortran {bad : F → Prop} (hn : NaNLike bad) (pol : Ex Unit → Fusing) (m : Mem (Fused F pol)) (SIDE : Char)
    (M N : Int) (ALPHA : Scal (Fused F pol)) (A LDA INCA : Int) (Av : Nat → Nat → Quat (Fused F pol))
    (hA : SMatAt m A INCA LDA M.toNat N.toNat Av) (hinc : 0 < INCA) (hfit : ((M.toNat:Int) - 1) * INCA + 1 ≤ LDA) :
    ∃ m' V, scalm scalvF SIDE 'N' M N ALPHA A LDA INCA m = .ok ((), m') ∧ SMatAt m' A INCA LDA M.toNat N.toNat V ∧
      ∀ i j, i < M.toNat → j < N.toNat → ((Av i j).HasNaN (Fused.bad bad) → (V i j).HasNaN (Fused.bad bad)) ∧
        (ALPHA.vIsZero = false → ALPHA.HasNaN (Fused.bad bad) → (V i j).AllNaN (Fused.bad bad)) :=
  C53_scalm_fortran (fusedNaN hn) m SIDE M N ALPHA A LDA INCA Av hA hinc hfit

/-- C66: AXPYM on the Fortran AXPYV: what B holds always counts, ALPHA and A unless ALPHA compares equal to zero. -/
theorem C66_nan_axpym_fortran {bad : F → Prop} (hn : NaNLike bad) (pol : Ex Unit → Fusing) (m : Mem (Fused F pol)) (SIDE : Char)
    (M N : Int) (ALPHA : Scal (Fused F pol)) (A LDA INCA B LDB INCB : Int) (Av Bv : Nat → Nat → Quat (Fused F pol))
    (hA : SMatAt m A INCA LDA M.toNat N.toNat Av) (hB : SMatAt m B INCB LDB M.toNat N.toNat Bv) (hinc : 0 < INCB)
    (hfit : ((M.toNat:Int) - 1) * INCB + 1 ≤ LDB)
    (hdis : Apart (SMatCell A INCA LDA M.toNat N.toNat) (SMatCell B INCB LDB M.toNat N.toNat)) (hia : 0 < INCA) :
    ∃ m' V, axpym axpyvF SIDE 'N' M N ALPHA A LDA INCA B LDB INCB m = .ok ((), m') ∧ SMatAt m' B INCB LDB M.toNat N.toNat V ∧
      ∀ i j, i < M.toNat → j < N.toNat → ((Bv i j).HasNaN (Fused.bad bad) → (V i j).HasNaN (Fused.bad bad)) ∧
        (ALPHA.eqZero = false → ALPHA.vIsZero = false → (Av i j).HasNaN (Fused.bad bad) → (V i j).HasNaN (Fused.bad bad)) ∧
        (ALPHA.eqZero = false → ALPHA.vIsZero = false → ALPHA.HasNaN (Fused.bad bad) → (V i j).AllNaN (Fused.bad bad)) :=
  C53_axpym_fortran (fusedNaN hn) m SIDE M N ALPHA A LDA INCA B LDB INCB Av Bv hA hB hinc hfit hdis hia

/-- C66: AXPYV (X of any type), when the template does not take ALPHA for zero. -/
theorem C66_nan_axpyv_mixed {bad : F → Prop} (hn : NaNLike bad) (pol : Ex Unit → Fusing) (m : Mem (Fused F pol)) (kX : Kind)
    (SIDE : Char) (N X INCX Y INCY : Int) (ALPHA : Scal (Fused F pol)) (x : Nat → Scal (Fused F pol))
    (y : Nat → Quat (Fused F pol)) (hx : 0 < INCX) (hy : 0 < INCY) (fx : Fits32 (N * INCX)) (fy : Fits32 (N * INCY))
    (hz : ALPHA.eqZero = false) (hX : KVecAt m kX X INCX N.toNat x) (hY : VecAt m Y INCY N.toNat y)
    (hdis : Apart (KVecCell kX X INCX N.toNat) (VecCell Y INCY N.toNat)) :
    ∃ (m' : Mem (Fused F pol)) (y' : Nat → Quat (Fused F pol)), axpyvGenK kX SIDE N ALPHA X INCX Y INCY m = .ok ((), m') ∧
      VecAt m' Y INCY N.toNat y' ∧
      ∀ i, i < N.toNat → ((y i).HasNaN (Fused.bad bad) ∨ ALPHA.HasNaN (Fused.bad bad) ∨ (x i).HasNaN (Fused.bad bad)) → (y'
          i).HasNaN (Fused.bad bad) :=
  C53_axpyv_mixed (fusedNaN hn) m kX SIDE N X INCX Y INCY ALPHA x y hx hy fx fy hz hX hY hdis

/-- C66: GEMM (A and B of any type), when the template does not take ALPHA for zero; the old C counts unless it takes BETA for
zero, a NaN in BETA unless it takes BETA for zero or one. -/
theorem C66_nan_gemm_mixed {bad : F → Prop} (hn : NaNLike bad) (pol : Ex Unit → Fusing) (m : Mem (Fused F pol)) (k kB : Kind)
    (tA tB : Char) (M N K : Int) (ALPHA BETA : Scal (Fused F pol)) (A LDA B LDB C LDC : Int)
    (Av : Nat → Nat → Scal (Fused F pol)) (Bv : Nat → Nat → Scal (Fused F pol)) (Cv : Nat → Nat → Quat (Fused F pol))
    (hp : GemmMArgs m k kB tA tB M N K ALPHA A LDA B LDB C LDC Av Bv Cv) (ha : ALPHA.eqZero = false) :
    ∃ (m' : Mem (Fused F pol)) (C' : Nat → Nat → Quat (Fused F pol)),
      gemmGenK k kB tA tB M N K ALPHA A LDA B LDB BETA C LDC m = .ok ((), m') ∧ MatAt m' C LDC M.toNat N.toNat C' ∧
      ∀ i j, i < M.toNat → j < N.toNat →
        (∀ l, l < K.toNat → (ALPHA.HasNaN (Fused.bad bad) ∨ (if tA = 'N' then Av i l else Av l i).HasNaN (Fused.bad bad) ∨
          (if tB = 'N' then Bv l j else Bv j l).HasNaN (Fused.bad bad)) → (C' i j).HasNaN (Fused.bad bad)) ∧
        (BETA.eqZero = false → (Cv i j).HasNaN (Fused.bad bad) → (C' i j).HasNaN (Fused.bad bad)) ∧
        (BETA.eqZero = false → BETA.eqOne = false → BETA.HasNaN (Fused.bad bad) → (C' i j).HasNaN (Fused.bad bad)) :=
  C53_gemm_mixed (fusedNaN hn) m k kB tA tB M N K ALPHA BETA A LDA B LDB C LDC Av Bv Cv hp ha

/-- C66: GEMV (A and X of any type), when the template does not take ALPHA for zero: every y element of which the old value, or
an entry of the row of op(A) or of x, has a NaN. -/
theorem C66_nan_gemv_mixed {bad : F → Prop} (hn : NaNLike bad) (pol : Ex Unit → Fusing) (m : Mem (Fused F pol)) (k kX : Kind)
    (t : Char) (M N : Int) (ALPHA : Scal (Fused F pol)) (A LDA X INCX : Int) (BETA : Scal (Fused F pol)) (Y INCY : Int)
    (a : Nat → Nat → Scal (Fused F pol)) (x : Nat → Scal (Fused F pol)) (y : Nat → Quat (Fused F pol)) (hM : M ≠ 0) (hN : N ≠ 0)
    (hp : GemvMArgs m k kX t M N ALPHA A LDA X INCX Y INCY a x y) (ha : ALPHA.eqZero = false) :
    ∃ (m' : Mem (Fused F pol)) (y' : Nat → Quat (Fused F pol)),
      gemvGenK k kX t M N ALPHA A LDA X INCX BETA Y INCY m = .ok ((), m') ∧
      VecAt m' Y INCY (if t = 'N' then M else N).toNat y' ∧
      ∀ i, i < (if t = 'N' then M else N).toNat →
        (∀ l, l < (if t = 'N' then N else M).toNat → (ALPHA.HasNaN (Fused.bad bad) ∨
          (if t = 'N' then a i l else a l i).HasNaN (Fused.bad bad) ∨ (x l).HasNaN (Fused.bad bad)) → (y' i).HasNaN (Fused.bad
              bad)) ∧
        (BETA.eqZero = false → (y i).HasNaN (Fused.bad bad) → (y' i).HasNaN (Fused.bad bad)) ∧
        (BETA.eqZero = false → BETA.eqOne = false → BETA.HasNaN (Fused.bad bad) → (y' i).HasNaN (Fused.bad bad)) :=
  C53_gemv_mixed (fusedNaN hn) m k kX t M N ALPHA A LDA X INCX BETA Y INCY a x y hM hN hp ha

/-- C66: GERU and GERC (X and Y of any type), when the template takes neither ALPHA nor `y_j` for zero. -/
theorem C66_nan_ger_mixed_partial {bad : F → Prop} (hn : NaNLike bad) (pol : Ex Unit → Fusing) (kX kY : Kind) (conjY : Bool)
    (m : Mem (Fused F pol)) (M N : Int) (ALPHA : Scal (Fused F pol)) (X INCX Y INCY A LDA : Int)
    (x y : Nat → Scal (Fused F pol)) (a : Nat → Nat → Quat (Fused F pol)) (hp : GerMArgs m kX kY M N X INCX Y INCY A LDA x y a)
    (ha : ALPHA.eqZero = false) :
    ∃ (m' : Mem (Fused F pol)) (a' : Nat → Nat → Quat (Fused F pol)),
      gerGenK kX kY conjY M N ALPHA X INCX Y INCY A LDA m = .ok ((), m') ∧ MatAt m' A LDA M.toNat N.toNat a' ∧
      ∀ i j, i < M.toNat → j < N.toNat →
        ((a i j).HasNaN (Fused.bad bad) → (a' i j).HasNaN (Fused.bad bad)) ∧
        ((y j).eqZero = false →
          (ALPHA.HasNaN (Fused.bad bad) ∨ (x i).HasNaN (Fused.bad bad) ∨ (y j).HasNaN (Fused.bad bad)) → (a' i j).HasNaN
              (Fused.bad bad)) :=
  C53_ger_mixed_partial (fusedNaN hn) kX kY conjY m M N ALPHA X INCX Y INCY A LDA x y a hp ha

/-- C66: SCALV (SIMD): an element with a NaN component still has one afterwards, and if ALPHA has one then every element has. -/
theorem C66_nan_scalv_simd {bad : F → Prop} (hn : NaNLike bad) (pol : Ex Unit → Fusing) (m : Mem (Fused F pol)) (SIDE : Char)
    (N X INCX : Int) (ALPHA : Scal (Fused F pol)) (x : Nat → Quat (Fused F pol)) (hX : VecAt m X INCX N.toNat x)
    (hinc : INCX ≠ 0) :
    ∃ (m' : Mem (Fused F pol)) (x' : Nat → Quat (Fused F pol)), scalvAVX SIDE N ALPHA X INCX m = .ok ((), m') ∧ VecAt m' X INCX
        N.toNat x' ∧
      ∀ i, i < N.toNat → (ALPHA.HasNaN (Fused.bad bad) ∨ (x i).HasNaN (Fused.bad bad)) → (x' i).HasNaN (Fused.bad bad) :=
  C53_scalv_simd (fusedNaN hn) m SIDE N X INCX ALPHA x hX hinc

/-- C66: AXPYV (SIMD). -/
theorem C66_nan_axpyv_simd {bad : F → Prop} (hn : NaNLike bad) (pol : Ex Unit → Fusing) (m : Mem (Fused F pol)) (SIDE : Char)
    (N X INCX Y INCY : Int) (ALPHA : Scal (Fused F pol)) (x y : Nat → Quat (Fused F pol)) (hX : VecAt m X INCX N.toNat x)
    (hY : VecAt m Y INCY N.toNat y) (hinc : INCY ≠ 0) (hdis : Apart (VecCell X INCX N.toNat) (VecCell Y INCY N.toNat)) :
    ∃ (m' : Mem (Fused F pol)) (y' : Nat → Quat (Fused F pol)), axpyvAVX SIDE N ALPHA X INCX Y INCY m = .ok ((), m') ∧
      VecAt m' Y INCY N.toNat y' ∧
      ∀ i, i < N.toNat → ((y i).HasNaN (Fused.bad bad) ∨ ALPHA.HasNaN (Fused.bad bad) ∨ (x i).HasNaN (Fused.bad bad)) → (y'
          i).HasNaN (Fused.bad bad) :=
  C53_axpyv_simd (fusedNaN hn) m SIDE N X INCX Y INCY ALPHA x y hX hY hinc hdis

/-- C66: DOTUV and DOTCV (SIMD): one NaN component anywhere in `x` or `y` makes all four components of the result NaNs. -/
theorem C66_nan_dot_simd {bad : F → Prop} (hn : NaNLike bad) (pol : Ex Unit → Fusing) (m : Mem (Fused F pol)) (conj : Bool)
    (N X INCX Y INCY : Int) (x y : Nat → Quat (Fused F pol)) (hX : VecAt m X INCX N.toNat x) (hY : VecAt m Y INCY N.toNat y)
    (hx32 : Fits32 (4 * INCX)) (hy32 : Fits32 (4 * INCY)) :
    ∃ r, dotAVX conj N X INCX Y INCY m = .ok (r, m) ∧
      ∀ i, i < N.toNat → ((x i).HasNaN (Fused.bad bad) ∨ (y i).HasNaN (Fused.bad bad)) → r.AllNaN (Fused.bad bad) :=
  C53_dot_simd (fusedNaN hn) m conj N X INCX Y INCY x y hX hY hx32 hy32

/-- C66: GEMM (SIMD): one NaN component in row `i` of op(A) or in column `j` of op(B), or in ALPHA (if there is anything to
multiply), makes all of `C(i,j)` NaN; one in the old `C(i,j)` or in BETA leaves at least one. (`a i k`, `b k j` are the stored
elements that op(A)(i,k) and op(B)(k,j) refer to.) -/
theorem C66_nan_gemm_simd {bad : F → Prop} (hn : NaNLike bad) (pol : Ex Unit → Fusing) (m : Mem (Fused F pol)) (blk : Blk)
    (bAddr aAddr : Int) (junk : Int → Fused F pol) (tA tB : Char) (M N K : Int) (ALPHA BETA : Scal (Fused F pol))
    (A LDA B LDB C LDC : Int) (Av Bv Cv : Nat → Nat → Quat (Fused F pol))
    (hp : GemmPre m blk bAddr aAddr tA tB M.toNat N.toNat K.toNat A LDA Av B LDB Bv C LDC Cv) :
    ∃ (m' : Mem (Fused F pol)) (C' : Nat → Nat → Quat (Fused F pol)),
      gemmAVX blk bAddr aAddr junk tA tB M N K ALPHA A LDA B LDB BETA C LDC m = .ok ((), m') ∧
      MatAt m' C LDC M.toNat N.toNat C' ∧
      ∀ i j, i < M.toNat → j < N.toNat →
        (∀ k, k < K.toNat → (ALPHA.HasNaN (Fused.bad bad) ∨ (if tA = 'T' ∨ tA = 'C' then Av k i else Av i k).HasNaN (Fused.bad
            bad) ∨
          (if tB = 'T' ∨ tB = 'C' then Bv j k else Bv k j).HasNaN (Fused.bad bad)) → (C' i j).AllNaN (Fused.bad bad)) ∧
        (BETA.HasNaN (Fused.bad bad) ∨ (Cv i j).HasNaN (Fused.bad bad) → (C' i j).HasNaN (Fused.bad bad)) :=
  C53_gemm_simd (fusedNaN hn) m blk bAddr aAddr junk tA tB M N K ALPHA BETA A LDA B LDB C LDC Av Bv Cv hp

/-- C66: SCALV (portable). -/
theorem C66_nan_scalv_portable {bad : F → Prop} (hn : NaNLike bad) (pol : Ex Unit → Fusing) (m : Mem (Fused F pol))
    (SIDE : Char) (N X INCX : Int) (ALPHA : Scal (Fused F pol)) (x : Nat → Quat (Fused F pol)) (hX : VecAt m X INCX N.toNat x)
    (hinc : 0 < INCX) (fx : Fits32 (N * INCX)) :
    ∃ (m' : Mem (Fused F pol)) (x' : Nat → Quat (Fused F pol)), scalvGen SIDE N ALPHA X INCX m = .ok ((), m') ∧ VecAt m' X INCX
        N.toNat x' ∧
      ∀ i, i < N.toNat → (ALPHA.HasNaN (Fused.bad bad) ∨ (x i).HasNaN (Fused.bad bad)) → (x' i).HasNaN (Fused.bad bad) :=
  C53_scalv_portable (fusedNaN hn) m SIDE N X INCX ALPHA x hX hinc fx

/-- C66: DOTUV and DOTCV (portable). -/
theorem C66_nan_dot_portable {bad : F → Prop} (hn : NaNLike bad) (pol : Ex Unit → Fusing) (m : Mem (Fused F pol)) (conj : Bool)
    (N X INCX Y INCY : Int) (x y : Nat → Quat (Fused F pol)) (hx : 0 < INCX) (hy : 0 < INCY) (fx : Fits32 (N * INCX))
    (fy : Fits32 (N * INCY)) (hX : VecAt m X INCX N.toNat x) (hY : VecAt m Y INCY N.toNat y) :
    ∃ r, dotGen conj N X INCX Y INCY m = .ok (r, m) ∧
      ∀ i, i < N.toNat → ((x i).HasNaN (Fused.bad bad) ∨ (y i).HasNaN (Fused.bad bad)) → r.AllNaN (Fused.bad bad) :=
  C53_dot_portable (fusedNaN hn) m conj N X INCX Y INCY x y hx hy fx fy hX hY

/-- C66: AXPYV (portable), when the template does not take ALPHA for zero. -/
theorem C66_nan_axpyv_portable {bad : F → Prop} (hn : NaNLike bad) (pol : Ex Unit → Fusing) (m : Mem (Fused F pol))
    (SIDE : Char) (N X INCX Y INCY : Int) (ALPHA : Scal (Fused F pol)) (x y : Nat → Quat (Fused F pol)) (hx : 0 < INCX)
    (hy : 0 < INCY) (fx : Fits32 (N * INCX)) (fy : Fits32 (N * INCY)) (hz : ALPHA.eqZero = false)
    (hX : VecAt m X INCX N.toNat x) (hY : VecAt m Y INCY N.toNat y)
    (hdis : Apart (VecCell X INCX N.toNat) (VecCell Y INCY N.toNat)) :
    ∃ (m' : Mem (Fused F pol)) (y' : Nat → Quat (Fused F pol)), axpyvGen SIDE N ALPHA X INCX Y INCY m = .ok ((), m') ∧
      VecAt m' Y INCY N.toNat y' ∧
      ∀ i, i < N.toNat → ((y i).HasNaN (Fused.bad bad) ∨ ALPHA.HasNaN (Fused.bad bad) ∨ (x i).HasNaN (Fused.bad bad)) → (y'
          i).HasNaN (Fused.bad bad) :=
  C53_axpyv_portable (fusedNaN hn) m SIDE N X INCX Y INCY ALPHA x y hx hy fx fy hz hX hY hdis

/-- C66: GEMM (portable, any type of A), when the template does not take ALPHA for zero; the old C counts unless it takes BETA
for zero, a NaN in BETA unless it takes BETA for zero or one. -/
theorem C66_nan_gemm_portable {bad : F → Prop} (hn : NaNLike bad) (pol : Ex Unit → Fusing) (m : Mem (Fused F pol)) (k : Kind)
    (tA tB : Char) (M N K : Int) (ALPHA BETA : Scal (Fused F pol)) (A LDA B LDB C LDC : Int)
    (Av : Nat → Nat → Scal (Fused F pol)) (Bv Cv : Nat → Nat → Quat (Fused F pol))
    (hp : GemmBArgs m k tA tB M N K ALPHA A LDA B LDB C LDC Av Bv Cv) (ha : ALPHA.eqZero = false) :
    ∃ (m' : Mem (Fused F pol)) (C' : Nat → Nat → Quat (Fused F pol)),
      gemmGen k tA tB M N K ALPHA A LDA B LDB BETA C LDC m = .ok ((), m') ∧ MatAt m' C LDC M.toNat N.toNat C' ∧
      ∀ i j, i < M.toNat → j < N.toNat →
        (∀ l, l < K.toNat → (ALPHA.HasNaN (Fused.bad bad) ∨ (if tA = 'N' then Av i l else Av l i).HasNaN (Fused.bad bad) ∨
          (if tB = 'N' then Bv l j else Bv j l).HasNaN (Fused.bad bad)) → (C' i j).HasNaN (Fused.bad bad)) ∧
        (BETA.eqZero = false → (Cv i j).HasNaN (Fused.bad bad) → (C' i j).HasNaN (Fused.bad bad)) ∧
        (BETA.eqZero = false → BETA.eqOne = false → BETA.HasNaN (Fused.bad bad) → (C' i j).HasNaN (Fused.bad bad)) :=
  C53_gemm_portable (fusedNaN hn) m k tA tB M N K ALPHA BETA A LDA B LDB C LDC Av Bv Cv hp ha

/-- C66: GEMV (portable, any type of A), when the template does not take ALPHA for zero: every y element of which the old
value, or an entry of the row of op(A) or of x, has a NaN. -/
theorem C66_nan_gemv_portable {bad : F → Prop} (hn : NaNLike bad) (pol : Ex Unit → Fusing) (m : Mem (Fused F pol)) (k : Kind)
    (t : Char) (M N : Int) (ALPHA : Scal (Fused F pol)) (A LDA X INCX : Int) (BETA : Scal (Fused F pol)) (Y INCY : Int)
    (a : Nat → Nat → Scal (Fused F pol)) (x y : Nat → Quat (Fused F pol)) (hM : M ≠ 0) (hN : N ≠ 0)
    (hp : GemvBArgs m k t M N ALPHA A LDA X INCX Y INCY a x y) (ha : ALPHA.eqZero = false) :
    ∃ (m' : Mem (Fused F pol)) (y' : Nat → Quat (Fused F pol)),
      gemvGen k t M N ALPHA A LDA X INCX BETA Y INCY m = .ok ((), m') ∧
      VecAt m' Y INCY (if t = 'N' then M else N).toNat y' ∧
      ∀ i, i < (if t = 'N' then M else N).toNat →
        (∀ l, l < (if t = 'N' then N else M).toNat → (ALPHA.HasNaN (Fused.bad bad) ∨
          (if t = 'N' then a i l else a l i).HasNaN (Fused.bad bad) ∨ (x l).HasNaN (Fused.bad bad)) → (y' i).HasNaN (Fused.bad
              bad)) ∧
        (BETA.eqZero = false → (y i).HasNaN (Fused.bad bad) → (y' i).HasNaN (Fused.bad bad)) ∧
        (BETA.eqZero = false → BETA.eqOne = false → BETA.HasNaN (Fused.bad bad) → (y' i).HasNaN (Fused.bad bad)) :=
  C53_gemv_portable (fusedNaN hn) m k t M N ALPHA A LDA X INCX BETA Y INCY a x y hM hN hp ha

/-- C66: GERU and GERC (portable), when the template takes neither ALPHA nor `y_j` for zero. -/
theorem C66_nan_ger_portable_partial {bad : F → Prop} (hn : NaNLike bad) (pol : Ex Unit → Fusing) (conjY : Bool)
    (m : Mem (Fused F pol)) (M N : Int) (ALPHA : Scal (Fused F pol)) (X INCX Y INCY A LDA : Int)
    (x y : Nat → Quat (Fused F pol)) (a : Nat → Nat → Quat (Fused F pol)) (hp : GerBArgs m M N X INCX Y INCY A LDA x y a)
    (ha : ALPHA.eqZero = false) :
    ∃ (m' : Mem (Fused F pol)) (a' : Nat → Nat → Quat (Fused F pol)),
      gerGen conjY M N ALPHA X INCX Y INCY A LDA m = .ok ((), m') ∧ MatAt m' A LDA M.toNat N.toNat a' ∧
      ∀ i j, i < M.toNat → j < N.toNat →
        ((a i j).HasNaN (Fused.bad bad) → (a' i j).HasNaN (Fused.bad bad)) ∧
        (Quat.neOp (y j) (Quat.mkReal zero) = true →
          (ALPHA.HasNaN (Fused.bad bad) ∨ (x i).HasNaN (Fused.bad bad) ∨ (y j).HasNaN (Fused.bad bad)) → (a' i j).HasNaN
              (Fused.bad bad)) :=
  C53_ger_portable_partial (fusedNaN hn) conjY m M N ALPHA X INCX Y INCY A LDA x y a hp ha

end Haxx
