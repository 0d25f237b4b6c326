import Verif.RoundK
import Mathlib.Data.Real.Sqrt
import Mathlib.Data.Int.Log

/-!
# C42: rounding-error bounds

Every theorem is about an arbitrary machine arithmetic that satisfies the standard model
(`StdModel`): it compares what the routine leaves in memory with the *exact* result of the exact
mathematical operation on the exact values of the inputs, in the norm of Mathlib's real quaternions.
-/

namespace Haxx
open Quaternion Finset

variable {F : Type} [Arith F] {u : ℝ}

/-- C42, SCALV: `‖computed - exact‖ ≤ 2((1+u)³-1) ‖ALPHA‖ ‖x_i‖` for every element. -/
theorem C42_scalv (S : StdModel F u) (m : Mem F) (SIDE : Char) (N X INCX : Int) (ALPHA : Scal F)
    (x : Nat → Quat F) (hX : VecAt m X INCX N.toNat x) (hinc : INCX ≠ 0) :
    ∃ m' v, scalvAVX SIDE N ALPHA X INCX m = .ok ((), m') ∧ VecAt m' X INCX N.toNat v ∧
      ∀ i, i < N.toNat → (v i).All S.ok →
        ‖((v i).map S.val).toH -
          (if SIDE = 'L' then (ALPHA.map S.val).toH * ((x i).map S.val).toH
           else ((x i).map S.val).toH * (ALPHA.map S.val).toH)‖ ≤
          2 * (((1 + u) ^ 3 - 1) * (‖(ALPHA.map S.val).toH‖ * ‖((x i).map S.val).toH‖)) := by
  obtain ⟨_, m', h, h1, _⟩ := scalvAVX_wp (SIDE := SIDE) (ALPHA := ALPHA) hX (Or.inl hinc)
  refine ⟨m', _, h, h1, fun i _ ho => ?_⟩
  have := (StdModel.QR.scalOp (S := S) (SIDE == 'L') ALPHA (x i)).norm ho
  rw [toH_scalOp] at this
  by_cases hs : SIDE = 'L' <;> simpa [hs] using this

/-- C42, AXPYV: `‖computed - exact‖ ≤ 2((1+u)⁴-1) (‖y_i‖ + ‖ALPHA‖ ‖x_i‖)` for every element. -/
theorem C42_axpyv (S : StdModel F u) (m : Mem F) (SIDE : Char) (N X INCX Y INCY : Int) (ALPHA : Scal F)
    (x y : Nat → Quat F) (hX : VecAt m X INCX N.toNat x) (hY : VecAt m Y INCY N.toNat y)
    (hinc : INCY ≠ 0) (hdis : Apart (VecCell X INCX N.toNat) (VecCell Y INCY N.toNat)) :
    ∃ m' v, axpyvAVX SIDE N ALPHA X INCX Y INCY m = .ok ((), m') ∧ VecAt m' Y INCY N.toNat v ∧
      ∀ i, i < N.toNat → (v i).All S.ok →
        ‖((v i).map S.val).toH - (((y i).map S.val).toH +
          (if SIDE = 'L' then (ALPHA.map S.val).toH * ((x i).map S.val).toH
           else ((x i).map S.val).toH * (ALPHA.map S.val).toH))‖ ≤
          2 * (((1 + u) ^ 4 - 1) * (‖((y i).map S.val).toH‖ +
            ‖(ALPHA.map S.val).toH‖ * ‖((x i).map S.val).toH‖)) := by
  obtain ⟨_, m', h, h1, _⟩ := axpyvAVX_wp (SIDE := SIDE) (ALPHA := ALPHA) hX hY (Or.inl hinc) hdis
  refine ⟨m', _, h, h1, fun i _ ho => ?_⟩
  have := (StdModel.QR.axpyOp (S := S) (SIDE == 'L') ALPHA (x i) (y i)).norm ho
  rw [toH_axpyOp] at this
  by_cases hs : SIDE = 'L' <;> simpa [hs] using this

/-- C42, DOTU and DOTC: `‖computed - exact‖ ≤ 2((1+u)^(N+4)-1) Σ ‖x_i‖ ‖y_i‖`. -/
theorem C42_dot (S : StdModel F u) (m : Mem F) (N X INCX Y INCY : Int) (x y : Nat → Quat F)
    (hX : VecAt m X INCX N.toNat x) (hY : VecAt m Y INCY N.toNat y)
    (hx32 : Fits32 (4 * INCX)) (hy32 : Fits32 (4 * INCY)) :
    ∃ ru rc, dotAVX false N X INCX Y INCY m = .ok (ru, m) ∧ dotAVX true N X INCX Y INCY m = .ok (rc, m) ∧
      (ru.All S.ok →
        ‖(ru.map S.val).toH - ∑ i ∈ range N.toNat, ((x i).map S.val).toH * ((y i).map S.val).toH‖ ≤
          2 * (((1 + u) ^ (N.toNat + 4) - 1) *
            ∑ i ∈ range N.toNat, ‖((x i).map S.val).toH‖ * ‖((y i).map S.val).toH‖)) ∧
      (rc.All S.ok →
        ‖(rc.map S.val).toH - ∑ i ∈ range N.toNat, star ((x i).map S.val).toH * ((y i).map S.val).toH‖ ≤
          2 * (((1 + u) ^ (N.toNat + 4) - 1) *
            ∑ i ∈ range N.toNat, ‖((x i).map S.val).toH‖ * ‖((y i).map S.val).toH‖)) := by
  obtain ⟨_, _, h, rfl, rfl⟩ := dotAVX_wp (conj := false) hX hY (fun _ => hx32) (fun _ => hy32)
  obtain ⟨_, _, h', rfl, rfl⟩ := dotAVX_wp (conj := true) hX hY (fun _ => hx32) (fun _ => hy32)
  refine ⟨_, _, h, h', fun ho => ?_, fun ho => ?_⟩
  · have := (StdModel.QR.dotVal (S := S) false N.toNat x y).norm ho
    rw [dotVal_sum] at this
    simpa [cj] using this
  · have := (StdModel.QR.dotVal (S := S) true N.toNat x y).norm ho
    rw [dotVal_sum] at this
    simpa [cj] using this

/-- C42, GEMM: every entry of the result satisfies
`‖computed - exact‖ ≤ 2((1+u)^(4K+4)-1) (‖BETA‖ ‖C_ij‖ + 2 ‖ALPHA‖ Σ_k ‖op(A)_ik‖ ‖op(B)_kj‖)`. -/
theorem C42_gemm (S : StdModel F u) (m : Mem F) (blk : Blk) (bAddr aAddr : Int) (junk : Int → F)
    (TRANSA TRANSB : Char) (M N K : Int) (ALPHA BETA : Scal F) (A LDA B LDB C LDC : Int)
    (Av Bv Cv : Nat → Nat → Quat F)
    (h : GemmPre m blk bAddr aAddr TRANSA TRANSB M.toNat N.toNat K.toNat A LDA Av B LDB Bv C LDC Cv) :
    ∃ m' V, gemmAVX blk bAddr aAddr junk TRANSA TRANSB M N K ALPHA A LDA B LDB BETA C LDC m = .ok ((), m') ∧
      MatAt m' C LDC M.toNat N.toNat V ∧
      ∀ i j, i < M.toNat → j < N.toNat → (V i j).All S.ok →
        let a := opSpec TRANSA (fun i k => (Av i k).map S.val)
        let b := opSpec TRANSB (fun k j => (Bv k j).map S.val)
        ‖((V i j).map S.val).toH - ((ALPHA.map S.val).toH * ∑ k ∈ range K.toNat, a i k * b k j +
            (BETA.map S.val).toH * ((Cv i j).map S.val).toH)‖ ≤
          2 * (((1 + u) ^ (4 + 4 * K.toNat) - 1) *
            (‖(BETA.map S.val).toH‖ * ‖((Cv i j).map S.val).toH‖ +
              2 * ‖(ALPHA.map S.val).toH‖ * ∑ k ∈ range K.toNat, ‖a i k‖ * ‖b k j‖)) := by
  obtain ⟨_, m', h1, h2, _⟩ := gemmAVX_wp (junk := junk) (ALPHA := ALPHA) (BETA := BETA) h
  rw [gemmAVX_clamp h.mc_pos h.nc_pos h.kc_pos]
  refine ⟨m', _, h1, h2, fun i j _ _ ho => ?_⟩
  intro a b
  have e : ∀ (t : Char) (X : Nat → Nat → Quat F) (i k : Nat),
      (opE t X i k).map S.val = opE t (fun i k => (X i k).map S.val) i k := by
    intro t X i k; unfold opE; split <;> rfl
  have ne : ∀ (t : Char) (X : Nat → Nat → Quat F) (i k : Nat),
      ‖((opE t X i k).map S.val).toH‖ = ‖opSpec t (fun i k => (X i k).map S.val) i k‖ := by
    intro t X i k
    rw [e, ← opSpec_eq]
    split
    · rw [norm_star]
    · rfl
  have := (StdModel.QR.gemmElt (S := S) TRANSA TRANSB ALPHA BETA K.toNat (fun k => opE TRANSA Av i k)
    (fun k => opE TRANSB Bv k j) (Cv i j)).norm ho
  simp only [ne] at this
  simp only [e] at this
  rw [toH_gemmElt] at this
  exact this

/-! ## The model is inhabited -/

/-- Machine numbers for a rounding function `rnd`, a representable range `rng` and a choice between
fused and unfused multiply-add; `none` is the result of an operation that left the range. -/
def Fl (_rnd : ℝ → ℝ) (_rng : ℝ → Prop) (_fused : Bool) : Type := Option ℝ

/-- Round, and check the range. -/
noncomputable def flRes (rnd : ℝ → ℝ) (rng : ℝ → Prop) (x : ℝ) : Option ℝ :=
  open Classical in if rng (rnd x) then some (rnd x) else none

theorem flRes_some {rnd : ℝ → ℝ} {rng : ℝ → Prop} {x y : ℝ} (h : flRes rnd rng x = some y) :
    y = rnd x := by
  unfold flRes at h; split at h <;> cases h; rfl

noncomputable instance (rnd : ℝ → ℝ) (rng : ℝ → Prop) (fused : Bool) : Arith (Fl rnd rng fused) where
  zero := some 0
  one := some 1
  add a b := Option.bind a fun x => Option.bind b fun y => flRes rnd rng (x + y)
  sub a b := Option.bind a fun x => Option.bind b fun y => flRes rnd rng (x - y)
  mul a b := Option.bind a fun x => Option.bind b fun y => flRes rnd rng (x * y)
  neg a := Option.map (- ·) a
  fma a b c := Option.bind a fun x => Option.bind b fun y => Option.bind c fun z =>
    if fused then flRes rnd rng (x * y + z)
    else (flRes rnd rng (x * y)).bind fun p => flRes rnd rng (p + z)
  fms a b c := Option.bind a fun x => Option.bind b fun y => Option.bind c fun z =>
    if fused then flRes rnd rng (x * y - z)
    else (flRes rnd rng (x * y)).bind fun p => flRes rnd rng (p - z)
  fnma a b c := Option.bind a fun x => Option.bind b fun y => Option.bind c fun z =>
    if fused then flRes rnd rng (z - x * y)
    else (flRes rnd rng (x * y)).bind fun p => flRes rnd rng (z - p)

theorem fl_unfused {u p P e E v : ℝ} (hu : 0 ≤ u) (h1 : |p - P| ≤ u * |P|)
    (h2 : |e - E| ≤ |p - P|) (h3 : |v - e| ≤ u * |e|) : |v - E| ≤ u * |E| + u * (1 + u) * |P| := by
  have h4 : |v - E| ≤ |v - e| + |e - E| := abs_sub_le _ _ _
  have h5 := abs_split (h2.trans h1)
  nlinarith

theorem flErr {rnd : ℝ → ℝ} {rng : ℝ → Prop} {fused : Bool} {u : ℝ} (g : ℝ → ℝ → ℝ) (hu : 0 ≤ u)
    (hr : ∀ x, |rnd x - x| ≤ u * |x|) (hg : ∀ p P z, |g p z - g P z| ≤ |p - P|) (a b c : Option ℝ)
    (h : Option.isSome (a.bind fun x => b.bind fun y => c.bind fun z =>
      if fused then flRes rnd rng (g (x * y) z)
      else (flRes rnd rng (x * y)).bind fun p => flRes rnd rng (g p z)) = true) :
    |Option.getD (a.bind fun x => b.bind fun y => c.bind fun z =>
      if fused then flRes rnd rng (g (x * y) z)
      else (flRes rnd rng (x * y)).bind fun p => flRes rnd rng (g p z)) 0 -
        g (a.getD 0 * b.getD 0) (c.getD 0)| ≤
      u * |g (a.getD 0 * b.getD 0) (c.getD 0)| + u * (1 + u) * |a.getD 0 * b.getD 0| := by
  cases a with
  | none => cases h
  | some x => cases b with
    | none => cases h
    | some y => cases c with
      | none => cases h
      | some z =>
        simp only [Option.bind_some, Option.getD_some] at h ⊢
        cases fused
        · simp only [Bool.false_eq_true, if_false] at h ⊢
          obtain ⟨v, hv⟩ := Option.isSome_iff_exists.mp h
          rw [hv]
          obtain ⟨p, hp, hv2⟩ := Option.bind_eq_some_iff.mp hv
          rw [Option.getD_some, flRes_some hv2]
          have := flRes_some hp
          subst this
          exact fl_unfused hu (hr _) (hg _ _ _) (hr _)
        · simp only [if_true] at h ⊢
          obtain ⟨v, hv⟩ := Option.isSome_iff_exists.mp h
          rw [hv, Option.getD_some, flRes_some hv]
          have := hr (g (x * y) z)
          have : 0 ≤ u * (1 + u) * |x * y| := by positivity
          linarith

theorem flStrict {rnd : ℝ → ℝ} {rng : ℝ → Prop} {fused : Bool} {u : ℝ} (hr : ∀ x, |rnd x - x| ≤ u * |x|) :
    (∀ a b : Fl rnd rng fused, Option.isSome (Arith.add (F := Fl rnd rng fused) a b) = true →
      |Option.getD (Arith.add (F := Fl rnd rng fused) a b) 0 - (Option.getD a 0 + Option.getD b 0)| ≤
        u * |Option.getD a 0 + Option.getD b 0|) ∧
    (∀ a b : Fl rnd rng fused, Option.isSome (Arith.sub (F := Fl rnd rng fused) a b) = true →
      |Option.getD (Arith.sub (F := Fl rnd rng fused) a b) 0 - (Option.getD a 0 - Option.getD b 0)| ≤
        u * |Option.getD a 0 - Option.getD b 0|) := by
  constructor
  · intro a b h
    cases a <;> cases b <;> simp_all [Arith.add, flRes]
  · intro a b h
    cases a <;> cases b <;> simp_all [Arith.sub, flRes]

/-- Every rounding function with relative error at most `u` is an instance of the standard model,
with overflow to `none`, with fused and with unfused multiply-add. -/
noncomputable def flModel (rnd : ℝ → ℝ) (rng : ℝ → Prop) (fused : Bool) (u : ℝ) (hu : 0 ≤ u)
    (hr : ∀ x, |rnd x - x| ≤ u * |x|) : StdModel (Fl rnd rng fused) u where
  u_nonneg := hu
  val a := Option.getD a 0
  ok a := Option.isSome a = true
  zero_ok := rfl
  zero_val := rfl
  neg_ok a h := by cases a <;> simp_all [Arith.neg]
  neg_val a := by cases a <;> simp [Arith.neg]
  add_ok a b h := by cases a <;> cases b <;> simp_all [Arith.add]
  add_err a b h := ((flStrict hr).1 a b h).trans (mul_le_mul_of_nonneg_left (abs_add_le _ _) hu)
  sub_ok a b h := by cases a <;> cases b <;> simp_all [Arith.sub]
  sub_err a b h := ((flStrict hr).2 a b h).trans (mul_le_mul_of_nonneg_left (abs_sub _ _) hu)
  mul_ok a b h := by cases a <;> cases b <;> simp_all [Arith.mul]
  mul_err a b h := by
    cases a with
    | none => cases h
    | some x => cases b with
      | none => cases h
      | some y =>
        change |Option.getD (flRes rnd rng (x * y)) 0 - x * y| ≤ u * |x * y|
        change (flRes rnd rng (x * y)).isSome = true at h
        obtain ⟨v, hv⟩ := Option.isSome_iff_exists.mp h
        rw [hv, flRes_some hv]
        exact hr _
  fma_ok a b c h := by cases a <;> cases b <;> cases c <;> simp_all [Arith.fma]
  fma_err a b c h := flErr (fun p z => p + z) hu hr (fun _ _ _ => le_of_eq (by simp)) a b c h
  fms_ok a b c h := by cases a <;> cases b <;> cases c <;> simp_all [Arith.fms]
  fms_err a b c h := flErr (fun p z => p - z) hu hr (fun _ _ _ => le_of_eq (by simp)) a b c h
  fnma_ok a b c h := by cases a <;> cases b <;> cases c <;> simp_all [Arith.fnma]
  fnma_err a b c h := flErr (fun p z => z - p) hu hr
    (fun p P z => le_of_eq (by rw [← abs_neg]; congr 1; ring)) a b c h

theorem flModel_strict (rnd : ℝ → ℝ) (rng : ℝ → Prop) (fused : Bool) (u : ℝ) (hu : 0 ≤ u) (hr : ∀ x, |rnd x - x| ≤ u * |x|) :
    (flModel rnd rng fused u hu hr).Strict := flStrict hr

/-- Round to `t+1` significant bits by truncation (unbounded exponent). -/
noncomputable def chop (t : ℕ) (x : ℝ) : ℝ :=
  ⌊x / (2:ℝ) ^ (Int.log 2 |x| - t)⌋ * (2:ℝ) ^ (Int.log 2 |x| - t)

theorem chop_err (t : ℕ) (x : ℝ) : |chop t x - x| ≤ (2:ℝ)⁻¹ ^ t * |x| := by
  by_cases hx : x = 0
  · subst hx; simp [chop]
  have hp : 0 < |x| := abs_pos.mpr hx
  have h1 : (2:ℝ) ^ (Int.log 2 |x|) ≤ |x| := by
    exact_mod_cast Int.zpow_log_le_self (b := 2) (by norm_num) hp
  set d : ℝ := (2:ℝ) ^ (Int.log 2 |x| - t) with hd
  have dp : 0 < d := by positivity
  have h2 : d ≤ (2:ℝ)⁻¹ ^ t * |x| := by
    rw [hd, zpow_sub₀ (by norm_num), zpow_natCast, div_eq_mul_inv, ← inv_pow, mul_comm]
    exact mul_le_mul_of_nonneg_left h1 (by positivity)
  refine le_trans ?_ h2
  have e : chop t x = ⌊x / d⌋ * d := rfl
  rw [e]
  have f1 := Int.floor_le (x / d)
  have f2 := Int.lt_floor_add_one (x / d)
  rw [le_div_iff₀ dp] at f1
  rw [div_lt_iff₀ dp] at f2
  rw [abs_le]
  constructor <;> nlinarith

/-- 53-bit truncating arithmetic with overflow beyond `2^1024` and fused multiply-add satisfies the
standard model with `u = 2⁻⁵²`. -/
noncomputable def chop53 (fused : Bool) :
    StdModel (Fl (chop 52) (fun x => |x| < (2:ℝ) ^ 1024) fused) ((2:ℝ)⁻¹ ^ 52) :=
  flModel _ _ _ _ (by positivity) (chop_err 52)

/-- Exact real arithmetic is the model with `u = 0`; C42 then gives equality. -/
def exactModel : StdModel ℝ 0 where
  u_nonneg := le_rfl
  val := id
  ok _ := True
  zero_ok := trivial
  zero_val := rfl
  neg_ok _ _ := trivial
  neg_val _ := rfl
  add_ok _ _ _ := ⟨trivial, trivial⟩
  add_err a b _ := by simp
  sub_ok _ _ _ := ⟨trivial, trivial⟩
  sub_err a b _ := by simp
  mul_ok _ _ _ := ⟨trivial, trivial⟩
  mul_err a b _ := by simp
  fma_ok _ _ _ _ := ⟨trivial, trivial, trivial⟩
  fma_err a b c _ := by simp
  fms_ok _ _ _ _ := ⟨trivial, trivial, trivial⟩
  fms_err a b c _ := by simp
  fnma_ok _ _ _ _ := ⟨trivial, trivial, trivial⟩
  fnma_err a b c _ := by simp

/-! ## The hypotheses are satisfiable -/

/-- A rounding arithmetic without overflow. -/
abbrev Chop : Type := Fl (chop 52) (fun _ => True) true

noncomputable def chopModel : StdModel Chop ((2:ℝ)⁻¹ ^ 52) :=
  flModel _ _ _ _ (by positivity) (chop_err 52)

/-- Non-vacuity of C42_dot: two vectors of two quaternions with increments 1 and -1… the result is
a number (`ok`), so the error bound applies to it. -/
example : ∃ (m : Mem Chop) (x y : Nat → Quat Chop), VecAt m 0 1 2 x ∧ VecAt m 12 (-1) 2 y ∧
    Fits32 (4 * 1) ∧ Fits32 (4 * (-1)) ∧ (x 1).re ≠ (x 0).re ∧
    (dotVal true 2 x y).All chopModel.ok := by
  refine ⟨memOf 0 16 (fun p => some (p : ℝ)), fun i => ⟨some ((0 + 4 * (i * 1) : Int) : ℝ),
      some ((0 + 4 * (i * 1) + 1 : Int) : ℝ), some ((0 + 4 * (i * 1) + 2 : Int) : ℝ),
      some ((0 + 4 * (i * 1) + 3 : Int) : ℝ)⟩,
    fun i => ⟨some ((12 + 4 * (i * (-1)) : Int) : ℝ),
      some ((12 + 4 * (i * (-1)) + 1 : Int) : ℝ), some ((12 + 4 * (i * (-1)) + 2 : Int) : ℝ),
      some ((12 + 4 * (i * (-1)) + 3 : Int) : ℝ)⟩, ?_, ?_, ?_, ?_, ?_, ?_⟩
  · intro i hi
    exact readQ_memOf (by omega) (by omega)
  · intro i hi
    exact readQ_memOf (by omega) (by omega)
  · unfold Fits32; norm_num
  · unfold Fits32; norm_num
  · intro h
    have := Option.some.inj h
    norm_num at this
  · refine ⟨?_, ?_, ?_, ?_⟩ <;>
    simp [dotVal, dotRest, dotBatches, transpose4, permute2f128, sel128, set256, getLo, getHi,
      shuffle4, vadd, MULDQ_CN, MULDQ_NN, qconj256, xorSign, setzero, permute4, shuffle2, vmul, vfma,
      vfms, Arith.add, Arith.mul, Arith.fma, Arith.fms, Arith.neg, flRes, chopModel, flModel,
      Arith.zero, Nat.testBit]

/-- Non-vacuity of C42_gemm: the hypotheses are those of C22 (`gemmPre_example'`), for rounded
arithmetic. -/
example (f : Int → Chop) := C42_gemm chopModel (memOf 0 64 f) ⟨64, 512, 64⟩ 1000 200000 f 'C' 'N' 3 1 2
  (.z ⟨f 1, f 2⟩) (.h ⟨f 0, f 1, f 2, f 3⟩) 0 2 24 2 33 4 _ _ _ (gemmPre_example' f)

/-- With exact arithmetic the bound is zero, i.e. C42 contains C15. -/
example (m : Mem ℝ) (N X INCX Y INCY : Int) (x y : Nat → Quat ℝ)
    (hX : VecAt m X INCX N.toNat x) (hY : VecAt m Y INCY N.toNat y)
    (hx32 : Fits32 (4 * INCX)) (hy32 : Fits32 (4 * INCY)) :
    ∃ r, dotAVX false N X INCX Y INCY m = .ok (r, m) ∧
      r.toH = ∑ i ∈ range N.toNat, (x i).toH * (y i).toH := by
  obtain ⟨r, _, h, _, h1, _⟩ := C42_dot exactModel m N X INCX Y INCY x y hX hY hx32 hy32
  refine ⟨r, h, ?_⟩
  have := h1 ⟨trivial, trivial, trivial, trivial⟩
  simpa [sub_eq_zero, exactModel, Quat.map] using this

end Haxx
