import Verif.UnitsInst
import Verif.ExactEx
import Verif.FinEx

/-!
# C64 for IEEE double precision: signs and powers of two

The theorems of PropsUnits.lean spelled out for the two instances of UnitsInst.lean: what the second call is given, and what it
returns, as functions of what the first one is given and returns.
-/

namespace Haxx
open Arith F64

variable {fused : Bool}

theorem signs_QD (s : ℤˣ) (q : Quat (F64 fused)) : (ieeeSigns fused).QD s q (q.map (sgn s)) := ⟨rfl, rfl, rfl, rfl⟩

theorem signs_SD (s : ℤˣ) (a : Scal (F64 fused)) : (ieeeSigns fused).SD s a (a.map (sgn s)) := by
  cases a
  · exact rfl
  · exact ⟨rfl, rfl⟩
  · exact ⟨rfl, rfl, rfl, rfl⟩

theorem signs_one (a : Scal (F64 fused)) : (ieeeSigns fused).SD 1 a a := by
  have := signs_SD 1 a
  rwa [show a.map (sgn 1) = a by cases a <;> simp [Scal.map, Quat.map, sgn_one]] at this

theorem signs_Q {s : ℤˣ} {p q : Quat (F64 fused)} (h : (ieeeSigns fused).Q s p q) : q = p.map (sgn s) :=
  Quat.ext h.1 h.2.1 h.2.2.1 h.2.2.2

/-- C64: change the sign of x and of y in DOTU or DOTC (each may be kept, `s = 1`, or changed, `s = -1`): the result changes sign
accordingly and in nothing else, whatever x and y contain, infinities and NaNs included. -/
theorem C64_dot_sign (s t : ℤˣ) (conj : Bool) (m n : Mem (F64 fused)) (N X INCX Y INCY : Int) (x y : Nat → Quat (F64 fused))
    (hX : VecAt m X INCX N.toNat x) (hY : VecAt m Y INCY N.toNat y)
    (hX' : VecAt n X INCX N.toNat (fun i => (x i).map (sgn s))) (hY' : VecAt n Y INCY N.toNat (fun i => (y i).map (sgn t)))
    (fx : Fits32 (4 * INCX)) (fy : Fits32 (4 * INCY)) :
    ∃ v, dotAVX conj N X INCX Y INCY m = .ok (v, m) ∧ dotAVX conj N X INCX Y INCY n = .ok (v.map (sgn (s * t)), n) := by
  obtain ⟨v, v', h1, h2, h3⟩ := C64_dot (ieeeSigns fused) s t conj m n N X INCX Y INCY X INCX Y INCY x y _ _ hX hX' hY hY'
    fx fy fx fy (fun i _ => signs_QD s _) (fun i _ => signs_QD t _)
  rw [signs_Q h3] at h2
  exact ⟨v, h1, h2⟩

/-- C64: the same for GEMM: ALPHA, A and B in signs `r`, `s` and `t`, C in sign `r*s*t`, BETA unchanged. -/
theorem C64_gemm_sign (r s t : ℤˣ) (m n : Mem (F64 fused)) (blk : Blk) (bAddr aAddr : Int) (junk : Int → F64 fused)
    (TRANSA TRANSB : Char) (M N K : Int) (ALPHA BETA : Scal (F64 fused)) (A LDA B LDB C LDC : Int) (Av Bv Cv : Nat → Nat → Quat (F64 fused))
    (p : GemmPre m blk bAddr aAddr TRANSA TRANSB M.toNat N.toNat K.toNat A LDA Av B LDB Bv C LDC Cv)
    (p' : GemmPre n blk bAddr aAddr TRANSA TRANSB M.toNat N.toNat K.toNat A LDA (fun i j => (Av i j).map (sgn s))
      B LDB (fun i j => (Bv i j).map (sgn t)) C LDC (fun i j => (Cv i j).map (sgn (r * s * t)))) :
    ∃ m' n' V, gemmAVX blk bAddr aAddr junk TRANSA TRANSB M N K ALPHA A LDA B LDB BETA C LDC m = .ok ((), m') ∧
      gemmAVX blk bAddr aAddr junk TRANSA TRANSB M N K (ALPHA.map (sgn r)) A LDA B LDB BETA C LDC n = .ok ((), n') ∧
      MatAt m' C LDC M.toNat N.toNat V ∧ MatAt n' C LDC M.toNat N.toNat (fun i j => (V i j).map (sgn (r * s * t))) := by
  obtain ⟨m', n', V, V', h1, h2, h3, h4, h5⟩ := C64_gemm (ieeeSigns fused) r s t m n blk blk bAddr aAddr bAddr aAddr junk junk
    TRANSA TRANSB M N K ALPHA BETA (ALPHA.map (sgn r)) BETA A LDA B LDB C LDC A LDA B LDB C LDC Av Bv Cv _ _ _ p p'
    (signs_SD r _) (signs_one _) (fun _ _ _ _ => signs_QD s _) (fun _ _ _ _ => signs_QD t _) (fun _ _ _ _ => signs_QD _ _)
  exact ⟨m', n', V, h1, h2, h3, fun i j hi hj => by rw [h4 i j hi hj, signs_Q (h5 i j hi hj)]⟩

/-- C64: the same for portable GEMV (A of any scalar type), y in sign `r*s*t`. -/
theorem C64_gemv_portable_sign (r s t : ℤˣ) (m n : Mem (F64 fused)) (k : Kind) (tr : Char) (M N : Int) (ALPHA BETA : Scal (F64 fused))
    (A LDA X INCX Y INCY : Int) (a : Nat → Nat → Scal (F64 fused)) (x y : Nat → Quat (F64 fused)) (hM : M ≠ 0) (hN : N ≠ 0)
    (p : GemvBArgs m k tr M N ALPHA A LDA X INCX Y INCY a x y)
    (p' : GemvBArgs n k tr M N (ALPHA.map (sgn r)) A LDA X INCX Y INCY (fun i j => (a i j).map (sgn s)) (fun i => (x i).map (sgn t))
      (fun i => (y i).map (sgn (r * s * t)))) :
    ∃ m' n' v, gemvGen k tr M N ALPHA A LDA X INCX BETA Y INCY m = .ok ((), m') ∧
      gemvGen k tr M N (ALPHA.map (sgn r)) A LDA X INCX BETA Y INCY n = .ok ((), n') ∧
      VecAt m' Y INCY (if tr = 'N' then M else N).toNat v ∧
      VecAt n' Y INCY (if tr = 'N' then M else N).toNat (fun i => (v i).map (sgn (r * s * t))) := by
  obtain ⟨m', n', v, v', h1, h2, h3, h4, h5⟩ := C64_gemv_portable (ieeeSigns fused) r s t m n k tr M N ALPHA BETA (ALPHA.map (sgn r)) BETA
    A LDA X INCX Y INCY A LDA X INCX Y INCY a x y _ _ _ hM hN p p'
    (signs_SD r _) (signs_one _) (fun _ _ _ _ => signs_SD s _) (fun _ _ => signs_QD t _) (fun _ _ => signs_QD _ _)
  exact ⟨m', n', v, h1, h2, h3, fun i hi => by rw [h4 i hi, signs_Q (h5 i hi)]⟩

/-- C64: the same for portable GERU and GERC, A in sign `r*s*t`. -/
theorem C64_ger_portable_sign (r s t : ℤˣ) (conjY : Bool) (m n : Mem (F64 fused)) (M N : Int) (ALPHA : Scal (F64 fused))
    (X INCX Y INCY A LDA : Int) (x y : Nat → Quat (F64 fused)) (a : Nat → Nat → Quat (F64 fused))
    (p : GerBArgs m M N X INCX Y INCY A LDA x y a)
    (p' : GerBArgs n M N X INCX Y INCY A LDA (fun i => (x i).map (sgn s)) (fun i => (y i).map (sgn t))
      (fun i j => (a i j).map (sgn (r * s * t)))) :
    ∃ m' n' v, gerGen conjY M N ALPHA X INCX Y INCY A LDA m = .ok ((), m') ∧
      gerGen conjY M N (ALPHA.map (sgn r)) X INCX Y INCY A LDA n = .ok ((), n') ∧
      MatAt m' A LDA M.toNat N.toNat v ∧ MatAt n' A LDA M.toNat N.toNat (fun i j => (v i j).map (sgn (r * s * t))) := by
  obtain ⟨m', n', v, v', h1, h2, h3, h4, h5⟩ := C64_ger_portable (ieeeSigns fused) r s t conjY m n M N ALPHA (ALPHA.map (sgn r))
    X INCX Y INCY A LDA X INCX Y INCY A LDA x y a _ _ _ p p'
    (signs_SD r _) (fun _ _ => signs_QD s _) (fun _ _ => signs_QD t _) (fun _ _ _ _ => signs_QD _ _)
  exact ⟨m', n', v, h1, h2, h3, fun i j hi hj => by rw [h4 i j hi hj, signs_Q (h5 i j hi hj)]⟩

/-! ### powers of two -/

/-- the double precision numbers with these values -/
def dblQ (q : Quat ℝ) : Quat (Dbl fused) := q.map (fun x => (some x : Option ℝ))
/-- the same for a scalar -/
def dblS (a : Scal ℝ) : Scal (Dbl fused) := a.map (fun x => (some x : Option ℝ))

theorem pow2_QD (c : pow2) (q : Quat ℝ) : (pow2Units fused).QD c (dblQ q) (dblQ (q.map (c * ·))) :=
  ⟨⟨_, rfl, rfl⟩, ⟨_, rfl, rfl⟩, ⟨_, rfl, rfl⟩, ⟨_, rfl, rfl⟩⟩

theorem pow2_SD (c : pow2) (a : Scal ℝ) : (pow2Units fused).SD c (dblS a) (dblS (a.map (c * ·))) := by
  cases a
  · exact ⟨_, rfl, rfl⟩
  · exact ⟨⟨_, rfl, rfl⟩, ⟨_, rfl, rfl⟩⟩
  · exact ⟨⟨_, rfl, rfl⟩, ⟨_, rfl, rfl⟩, ⟨_, rfl, rfl⟩, ⟨_, rfl, rfl⟩⟩

theorem pow2_one (a : Scal ℝ) : (pow2Units fused).SD 1 (dblS a) (dblS a) := by
  have := pow2_SD (fused := fused) 1 a
  rwa [show a.map (((1 : pow2) : ℝ) * ·) = a by cases a <;> simp [Scal.map, Quat.map]] at this

theorem pow2_Q {c : pow2} {p q : Quat (Dbl fused)} {u v : Quat ℝ} (h : (pow2Units fused).Q c p q) (hp : p = dblQ u) (hq : q = dblQ v) :
    v = u.map ((c:ℝ) * ·) := by
  subst hp hq
  exact Quat.ext (h.1 _ _ rfl rfl) (h.2.1 _ _ rfl rfl) (h.2.2.1 _ _ rfl rfl) (h.2.2.2 _ _ rfl rfl)

/-- C64: multiply x by `c` and y by `d`, both ± a power of two, in DOTU or DOTC: if neither call leaves the normal range (both
return numbers), the result of the second is exactly `c*d` times that of the first. -/
theorem C64_dot_pow2 (c d : pow2) (conj : Bool) (m n : Mem (Dbl fused)) (N X INCX Y INCY : Int) (x y : Nat → Quat ℝ)
    (hX : VecAt m X INCX N.toNat (fun i => dblQ (x i))) (hY : VecAt m Y INCY N.toNat (fun i => dblQ (y i)))
    (hX' : VecAt n X INCX N.toNat (fun i => dblQ ((x i).map (c * ·)))) (hY' : VecAt n Y INCY N.toNat (fun i => dblQ ((y i).map (d * ·))))
    (fx : Fits32 (4 * INCX)) (fy : Fits32 (4 * INCY)) :
    ∃ v v', dotAVX conj N X INCX Y INCY m = .ok (v, m) ∧ dotAVX conj N X INCX Y INCY n = .ok (v', n) ∧
      ∀ z z', v = dblQ z → v' = dblQ z' → z' = z.map ((c * d : ℝ) * ·) := by
  obtain ⟨v, v', h1, h2, h3⟩ := C64_dot (pow2Units fused) c d conj m n N X INCX Y INCY X INCX Y INCY _ _ _ _ hX hX' hY hY'
    fx fy fx fy (fun i _ => pow2_QD c _) (fun i _ => pow2_QD d _)
  exact ⟨v, v', h1, h2, fun z z' e e' => pow2_Q h3 e e'⟩

/-- C64: the same for GEMM: ALPHA, A and B multiplied by `b`, `c` and `d`, C by `b*c*d`, BETA unchanged. -/
theorem C64_gemm_pow2 (b c d : pow2) (m n : Mem (Dbl fused)) (blk : Blk) (bAddr aAddr : Int) (junk : Int → Dbl fused)
    (TRANSA TRANSB : Char) (M N K : Int) (ALPHA BETA : Scal ℝ) (A LDA B LDB C LDC : Int) (Av Bv Cv : Nat → Nat → Quat ℝ)
    (p : GemmPre m blk bAddr aAddr TRANSA TRANSB M.toNat N.toNat K.toNat A LDA (fun i j => dblQ (Av i j)) B LDB
      (fun i j => dblQ (Bv i j)) C LDC (fun i j => dblQ (Cv i j)))
    (p' : GemmPre n blk bAddr aAddr TRANSA TRANSB M.toNat N.toNat K.toNat A LDA (fun i j => dblQ ((Av i j).map (c * ·)))
      B LDB (fun i j => dblQ ((Bv i j).map (d * ·))) C LDC (fun i j => dblQ ((Cv i j).map ((b * c * d : ℝ) * ·)))) :
    ∃ m' n' V V', gemmAVX blk bAddr aAddr junk TRANSA TRANSB M N K (dblS ALPHA) A LDA B LDB (dblS BETA) C LDC m = .ok ((), m') ∧
      gemmAVX blk bAddr aAddr junk TRANSA TRANSB M N K (dblS (ALPHA.map (b * ·))) A LDA B LDB (dblS BETA) C LDC n = .ok ((), n') ∧
      MatAt m' C LDC M.toNat N.toNat V ∧ MatAt n' C LDC M.toNat N.toNat V' ∧
      ∀ i j, i < M.toNat → j < N.toNat →
        ∀ z z', V i j = dblQ z → V' i j = dblQ z' → z' = z.map ((b * c * d : ℝ) * ·) := by
  obtain ⟨m', n', V, V', h1, h2, h3, h4, h5⟩ := C64_gemm (pow2Units fused) b c d m n blk blk bAddr aAddr bAddr aAddr junk junk
    TRANSA TRANSB M N K _ _ _ _ A LDA B LDB C LDC A LDA B LDB C LDC _ _ _ _ _ _ p p'
    (pow2_SD b ALPHA) (pow2_one BETA) (fun _ _ _ _ => pow2_QD c _) (fun _ _ _ _ => pow2_QD d _) (fun _ _ _ _ => pow2_QD (b * c * d) _)
  exact ⟨m', n', V, V', h1, h2, h3, h4, fun i j hi hj z z' e e' => pow2_Q (h5 i j hi hj) e e'⟩

/-! ## Concrete calls

Memory of the second call: every number of the first one changed in sign (or, `Dbl`, doubled); ALPHA changed in sign (halved)
where that is needed to give C the sign (the factor) of the rest. -/

section examples
variable (f : Int → F64 fused) (al : Quat (F64 fused)) (az : Cplx (F64 fused))

local notation "f'" => fun a => sgn (-1) (f a)

/-- GEMM: A conjugate-transposed, M N K = 3 1 2. -/
example (junk : Int → F64 fused) := C64_gemm_sign (-1) (-1) (-1) _ _ _ _ _ junk 'C' 'N' 3 1 2 (.z az) (.d (f 3)) _ _ _ _ _ _ _ _ _
  (gemmPre_example' f) (gemmPre_example' f')

example := C64_dot_sign (fused := fused) (-1) (-1) true _ _ 5 0 2 60 3 _ _ (lv1_example f).1 (lv1_example f).2.1 (lv1_example f').1
  (lv1_example f').2.1 (by unfold Fits32; decide) (by unfold Fits32; decide)

example := C64_gemv_portable_sign (-1) (-1) (-1) _ _ .z 'C' 2 3 (.z az) (.z az) 0 2 20 2 40 1 _ _ _ (by decide) (by decide)
  (gemvBArgs_example f (.z az)) (gemvBArgs_example f' _)

example := C64_ger_portable_sign (-1) (-1) (-1) true _ _ 2 3 (.z az) 60 2 90 1 0 4 _ _ _ (gerBArgs_example f) (gerBArgs_example f')

example := C64_scalv (ieeeSigns fused) 1 (-1) _ _ 'L' 5 0 2 0 2 (.h al) (.h al) _ _ (lv1_example f).1 (lv1_example f').1 (by decide) (by decide)
  (signs_one (.h al)) (fun _ _ => signs_QD (-1) _)

example := C64_axpyv (ieeeSigns fused) 1 (-1) _ _ 'R' 5 0 2 60 3 0 2 60 3 (.h al) (.h al) _ _ _ _ (lv1_example f).1 (lv1_example f').1
  (lv1_example f).2.1 (lv1_example f').2.1 (by decide) (by decide) (lv1_example f).2.2 (lv1_example f').2.2
  (signs_one (.h al)) (fun _ _ => signs_QD (-1) _) (fun _ _ => signs_QD (1 * -1) _)

example := C64_scalv_portable (ieeeSigns fused) (-1) (-1) _ _ 'L' 5 0 2 0 2 (.h al) _ _ _ (lv1_example f).1 (lv1_example f').1 (by decide) (by decide)
  (by unfold Fits32; decide) (by unfold Fits32; decide) (signs_SD (-1) (.h al)) (fun _ _ => signs_QD (-1) _)

example := C64_axpyv_portable (ieeeSigns fused) 1 (-1) _ _ 'R' 5 0 2 60 3 0 2 60 3 (.h al) (.h al) _ _ _ _ (lv1_example f).1 (lv1_example f').1
  (lv1_example f).2.1 (lv1_example f').2.1 (by decide) (by decide) (by decide) (by decide) (by unfold Fits32; decide)
  (by unfold Fits32; decide) (by unfold Fits32; decide) (by unfold Fits32; decide) (lv1_example f).2.2 (lv1_example f').2.2
  (signs_one (.h al)) (fun _ _ => signs_QD (-1) _) (fun _ _ => signs_QD (1 * -1) _)

example := C64_dot_portable (ieeeSigns fused) (-1) (-1) true _ _ 5 0 2 60 3 0 2 60 3 _ _ _ _ (lv1_example f).1 (lv1_example f').1
  (lv1_example f).2.1 (lv1_example f').2.1 (by decide) (by decide) (by decide) (by decide) (by unfold Fits32; decide)
  (by unfold Fits32; decide) (by unfold Fits32; decide) (by unfold Fits32; decide) (fun _ _ => signs_QD (-1) _) (fun _ _ => signs_QD (-1) _)

example := C64_gemm_portable (ieeeSigns fused) (-1) (-1) (-1) _ _ .h 'C' 'N' 3 1 2 (.z az) (.d (f 3)) _ (.d (f 3)) 0 2 24 2 33 4 0 2 24 2 33 4 _ _ _ _ _ _
  (gemmBArgs_hexample f _) (gemmBArgs_hexample f' _) (signs_SD (-1) (.z az)) (signs_one (.d (f 3))) (fun _ _ _ _ => signs_SD (-1) _)
  (fun _ _ _ _ => signs_QD (-1) _) (fun _ _ _ _ => signs_QD (-1 * -1 * -1) _)

example (hz : Scal.vIsZero (.d (f 3)) = false) := C64_scalv_fortran_partial (ieeeSigns fused) (-1) (-1) _ _ 'r' 5 90 3 90 3 (.d (f 3)) _ _ _ (lv1F_example f).2.1
  (lv1F_example f').2.1 (by decide) (by decide) (signs_SD (-1) (.d (f 3))) (fun _ _ => signs_QD (-1) _) hz

/-- Fortran, with a negative increment. -/
example := C64_axpyv_fortran (ieeeSigns fused) 1 (-1) _ _ 'r' 5 0 (-2) 90 3 0 (-2) 90 3 (.h al) (.h al) _ _ _ _ (lv1F_example f).1 (lv1F_example f').1
  (lv1F_example f).2.1 (lv1F_example f').2.1 (by decide) (by decide) (lv1F_example f).2.2 (lv1F_example f').2.2
  (signs_one (.h al)) (fun _ _ => signs_QD (-1) _) (fun _ _ => signs_QD (1 * -1) _)

example := C64_dot_fortran (ieeeSigns fused) (-1) (-1) true _ _ 5 0 (-2) 90 3 0 (-2) 90 3 _ _ _ _ (lv1F_example f).1 (lv1F_example f').1
  (lv1F_example f).2.1 (lv1F_example f').2.1 (fun _ _ => signs_QD (-1) _) (fun _ _ => signs_QD (-1) _)

example := C64_gemm_fortran (ieeeSigns fused) (-1) (-1) (-1) _ _ 'C' 'N' 3 1 2 (.z az) (.d (f 3)) _ (.d (f 3)) 0 2 24 2 33 4 0 2 24 2 33 4 _ _ _ _ _ _
  (by decide) (by decide) (fGemmArgs_cexample f _) (fGemmArgs_cexample f' _) (signs_SD (-1) (.z az)) (signs_one (.d (f 3)))
  (fun _ _ _ _ => signs_QD (-1) _) (fun _ _ _ _ => signs_QD (-1) _) (fun _ _ _ _ => signs_QD (-1 * -1 * -1) _)

example := C64_gemv_fortran_partial (ieeeSigns fused) (-1) (-1) (-1) _ _ 'C' 2 3 (.h al) (.z az) (.h (al.map (sgn (-1)))) (.z az)
  0 4 60 2 90 (-1) 0 4 60 2 90 (-1) _ _ _ _ _ _ (by decide) (by decide) (by decide)
  (fGemvArgs_example f _) (fGemvArgs_example f' _) (fGemvGood_example _ _) (fGemvGood_example _ _)
  (signs_SD (-1) (.h al)) (signs_one (.z az)) (fun _ _ _ _ => signs_QD (-1) _) (fun _ _ => signs_QD (-1) _) (fun _ _ => signs_QD (-1 * -1 * -1) _)

example := C64_ger_fortran_partial (ieeeSigns fused) (-1) (-1) (-1) true _ _ 2 3 (.h al) (.h (al.map (sgn (-1)))) 60 2 90 (-1) 0 4 60 2 90 (-1) 0 4 _ _ _ _ _ _
  (gerArgs_example' f) (gerArgs_example' f') (by intro r h; cases h) (by intro r h; cases h)
  (signs_SD (-1) (.h al)) (fun _ _ => signs_QD (-1) _) (fun _ _ => signs_QD (-1) _) (fun _ _ _ _ => signs_QD (-1 * -1 * -1) _)

end examples

section examples2

/-- two -/
def two : pow2 := ⟨2, 1, by norm_num⟩
/-- a half -/
noncomputable def half : pow2 := ⟨2⁻¹, -1, by norm_num⟩

theorem half_two : half * two * two = two := by
  apply Subtype.ext
  change (2⁻¹ * 2 * 2 : ℝ) = 2
  norm_num

/-- the integers of ExactEx.lean, doubled -/
noncomputable def twice7 (a : Int) : Dbl fused := some ((two : ℝ) * ((a % 7 : ℤ) : ℝ))

theorem twice7_D (a : Int) : (pow2Units fused).D two (num7 a) (twice7 a) := ⟨_, rfl, rfl⟩

theorem twice7_q (a b c d : Int) : (pow2Units fused).QD two ⟨num7 a, num7 b, num7 c, num7 d⟩ ⟨twice7 a, twice7 b, twice7 c, twice7 d⟩ :=
  ⟨twice7_D a, twice7_D b, twice7_D c, twice7_D d⟩

/-- GEMM on the integer matrices of ExactEx.lean, A, B and C doubled and ALPHA halved. -/
example (junk : Int → Dbl fused) :=
  C64_gemm (pow2Units fused) half two two _ _ _ _ _ _ _ _ junk junk 'C' 'N' 3 1 2 (dblS (.z ⟨1, 2⟩)) (dblS (.d 3))
    (dblS (.z ⟨half * 1, half * 2⟩)) (dblS (.d 3)) _ _ _ _ _ _ _ _ _ _ _ _ _ _ _ _ _ _
    (gemmPre_example' num7) (gemmPre_example' twice7)
    (pow2_SD half (.z ⟨1, 2⟩)) (pow2_one (.d 3)) (fun _ _ _ _ => twice7_q ..) (fun _ _ _ _ => twice7_q ..)
    (fun _ _ _ _ => by rw [half_two]; exact twice7_q ..)

theorem twice7_int (a : Int) : (rneModel fused).Int1 14 (twice7 a) := by
  have h : (0:ℤ) ≤ a % 7 ∧ a % 7 < 7 := ⟨by omega, by omega⟩
  refine ⟨rfl, 2 * (a % 7), ?_, ?_⟩
  · change (two : ℝ) * _ = _
    push_cast; rfl
  · rw [abs_le]
    have h1 : (0:ℝ) ≤ ((a % 7 : ℤ) : ℝ) := by exact_mod_cast h.1
    have h2 : ((a % 7 : ℤ) : ℝ) ≤ 7 := by exact_mod_cast h.2.le
    push_cast
    constructor <;> linarith

/-- DOTC of two vectors of five such quaternions and of the doubled ones: both are numbers, and the second is four times the
first. -/
example : ∃ z : Quat ℝ, dotAVX true 5 0 2 60 3 (memOf 0 200 (num7 (fused := fused))) = .ok (dblQ z, memOf 0 200 num7) ∧
    dotAVX true 5 0 2 60 3 (memOf 0 200 (twice7 (fused := fused))) = .ok (dblQ (z.map (4 * ·)), memOf 0 200 twice7) := by
  have q7 := lv1_example (num7 (fused := fused))
  have t7 := lv1_example (twice7 (fused := fused))
  have f1 : Fits32 (4 * 2) := by unfold Fits32; decide
  have f2 : Fits32 (4 * 3) := by unfold Fits32; decide
  obtain ⟨v, v', h1, h2, h3⟩ := C64_dot (pow2Units fused) two two true _ _ 5 0 2 60 3 0 2 60 3 _ _ _ _ q7.1 t7.1 q7.2.1 t7.2.1 f1 f2 f1 f2
    (fun _ _ => twice7_q ..) (fun _ _ => twice7_q ..)
  obtain ⟨_, w, _, g2, _, ⟨o, _⟩⟩ := C59_dot (rneModel fused) _ 5 0 2 60 3 _ _ q7.1 q7.2.1 f1 f2 7 7 (by norm_num) (by norm_num)
    (fun _ _ => num7_q ..) (fun _ _ => num7_q ..) (by rw [show (5:Int).toNat = 5 from rfl]; norm_num)
  obtain ⟨_, w', _, g2', _, ⟨o', _⟩⟩ := C59_dot (rneModel fused) _ 5 0 2 60 3 _ _ t7.1 t7.2.1 f1 f2 14 14 (by norm_num) (by norm_num)
    (fun _ _ => ⟨twice7_int _, twice7_int _, twice7_int _, twice7_int _⟩) (fun _ _ => ⟨twice7_int _, twice7_int _, twice7_int _, twice7_int _⟩)
    (by rw [show (5:Int).toNat = 5 from rfl]; norm_num)
  have e : w = v := by rw [h1] at g2; injection g2 with g2; injection g2 with g2 _; exact g2.symm
  have e' : w' = v' := by rw [h2] at g2'; injection g2' with g2'; injection g2' with g2' _; exact g2'.symm
  subst e e'
  have num : ∀ q : Quat (Dbl fused), q.All (rneModel fused).ok → ∃ z : Quat ℝ, q = dblQ z := by
    rintro ⟨a, b, c, d⟩ ⟨ha, hb, hc, hd⟩
    obtain ⟨a, rfl⟩ := Option.isSome_iff_exists.mp ha
    obtain ⟨b, rfl⟩ := Option.isSome_iff_exists.mp hb
    obtain ⟨c, rfl⟩ := Option.isSome_iff_exists.mp hc
    obtain ⟨d, rfl⟩ := Option.isSome_iff_exists.mp hd
    exact ⟨⟨a, b, c, d⟩, rfl⟩
  obtain ⟨z, rfl⟩ := num _ o
  obtain ⟨z', rfl⟩ := num _ o'
  refine ⟨z, h1, ?_⟩
  have := pow2_Q h3 rfl rfl
  rw [h2, this]
  have e4 : ((two * two : pow2) : ℝ) = 4 := by change (2 * 2 : ℝ) = 4; norm_num
  rw [e4]

end examples2

end Haxx
