import Verif.PropsExact
import Verif.PropsAgree
import Verif.PropsFBits

/-!
# IEEE double precision computes with integers exactly

`rne` is IEEE rounding to nearest, ties to even, to 53 significant bits; a result that leaves the normal
range (underflow or overflow) is not a number of the model (`none`). It is an instance of `StdModel` with
`u = 2⁻⁵³` and of `IntModel` with `B = 2^53`, with fused and with unfused multiply-add; so is truncation
(with `u = 2⁻⁵²`).
-/

namespace Haxx
open Arith

/-- Every rounding function that leaves the integers of magnitude at most `B` alone. -/
noncomputable def intFl (rnd : ℝ → ℝ) (rng : ℝ → Prop) (fused : Bool) (u B : ℝ) (hu : 0 ≤ u)
    (hr : ∀ x, |rnd x - x| ≤ u * |x|) (hi : ∀ n : ℤ, |(n:ℝ)| ≤ B → rnd n = n ∧ rng n) :
    IntModel (Fl rnd rng fused) u B where
  toStdModel := flModel rnd rng fused u hu hr
  neg_num a h := by cases a with
    | none => cases h
    | some x => rfl
  add_int a b m n ha hb h1 h2 hB := by
    cases a with
    | none => cases ha
    | some x => cases b with
      | none => cases hb
      | some y =>
        change x = m at h1
        change y = n at h2
        change |x + y| ≤ B at hB
        have := hi (m + n) (by push_cast; rw [← h1, ← h2]; exact hB)
        push_cast at this
        rw [← h1, ← h2] at this
        have e : Arith.add (F := Fl rnd rng fused) (some x) (some y) = some (x + y) := by
          change flRes rnd rng (x + y) = _
          rw [flRes, this.1, if_pos this.2]
        rw [e]; exact ⟨rfl, rfl⟩
  sub_int a b m n ha hb h1 h2 hB := by
    cases a with
    | none => cases ha
    | some x => cases b with
      | none => cases hb
      | some y =>
        change x = m at h1
        change y = n at h2
        change |x - y| ≤ B at hB
        have := hi (m - n) (by push_cast; rw [← h1, ← h2]; exact hB)
        push_cast at this
        rw [← h1, ← h2] at this
        have e : Arith.sub (F := Fl rnd rng fused) (some x) (some y) = some (x - y) := by
          change flRes rnd rng (x - y) = _
          rw [flRes, this.1, if_pos this.2]
        rw [e]; exact ⟨rfl, rfl⟩
  mul_int a b m n ha hb h1 h2 hB := by
    cases a with
    | none => cases ha
    | some x => cases b with
      | none => cases hb
      | some y =>
        change x = m at h1
        change y = n at h2
        change |x * y| ≤ B at hB
        have := hi (m * n) (by push_cast; rw [← h1, ← h2]; exact hB)
        push_cast at this
        rw [← h1, ← h2] at this
        have e : Arith.mul (F := Fl rnd rng fused) (some x) (some y) = some (x * y) := by
          change flRes rnd rng (x * y) = _
          rw [flRes, this.1, if_pos this.2]
        rw [e]; exact ⟨rfl, rfl⟩
  fma_int a b c m n p ha hb hc h1 h2 h3 hB hB2 := by
    cases a with
    | none => cases ha
    | some x => cases b with
      | none => cases hb
      | some y => cases c with
        | none => cases hc
        | some z =>
          change x = m at h1
          change y = n at h2
          change z = p at h3
          change |x * y| ≤ B at hB
          change |x * y + z| ≤ B at hB2
          have t1 := hi (m * n) (by push_cast; rw [← h1, ← h2]; exact hB)
          have t2 := hi (m * n + p) (by push_cast; rw [← h1, ← h2, ← h3]; exact hB2)
          push_cast at t1 t2
          rw [← h1, ← h2] at t1 t2
          rw [← h3] at t2
          have e : Arith.fma (F := Fl rnd rng fused) (some x) (some y) (some z) = some (x * y + z) := by
            change (if fused then flRes rnd rng (x * y + z) else (flRes rnd rng (x * y)).bind fun p => flRes rnd rng (p + z)) = _
            cases fused <;> simp [flRes, t1, t2]
          rw [e]; exact ⟨rfl, rfl⟩
  fms_int a b c m n p ha hb hc h1 h2 h3 hB hB2 := by
    cases a with
    | none => cases ha
    | some x => cases b with
      | none => cases hb
      | some y => cases c with
        | none => cases hc
        | some z =>
          change x = m at h1
          change y = n at h2
          change z = p at h3
          change |x * y| ≤ B at hB
          change |x * y - z| ≤ B at hB2
          have t1 := hi (m * n) (by push_cast; rw [← h1, ← h2]; exact hB)
          have t2 := hi (m * n - p) (by push_cast; rw [← h1, ← h2, ← h3]; exact hB2)
          push_cast at t1 t2
          rw [← h1, ← h2] at t1 t2
          rw [← h3] at t2
          have e : Arith.fms (F := Fl rnd rng fused) (some x) (some y) (some z) = some (x * y - z) := by
            change (if fused then flRes rnd rng (x * y - z) else (flRes rnd rng (x * y)).bind fun p => flRes rnd rng (p - z)) = _
            cases fused <;> simp [flRes, t1, t2]
          rw [e]; exact ⟨rfl, rfl⟩
  fnma_int a b c m n p ha hb hc h1 h2 h3 hB hB2 := by
    cases a with
    | none => cases ha
    | some x => cases b with
      | none => cases hb
      | some y => cases c with
        | none => cases hc
        | some z =>
          change x = m at h1
          change y = n at h2
          change z = p at h3
          change |x * y| ≤ B at hB
          change |z - x * y| ≤ B at hB2
          have t1 := hi (m * n) (by push_cast; rw [← h1, ← h2]; exact hB)
          have t2 := hi (p - m * n) (by push_cast; rw [← h1, ← h2, ← h3]; exact hB2)
          push_cast at t1 t2
          rw [← h1, ← h2] at t1 t2
          rw [← h3] at t2
          have e : Arith.fnma (F := Fl rnd rng fused) (some x) (some y) (some z) = some (z - x * y) := by
            change (if fused then flRes rnd rng (z - x * y) else (flRes rnd rng (x * y)).bind fun p => flRes rnd rng (z - p)) = _
            cases fused <;> simp [flRes, t1, t2]
          rw [e]; exact ⟨rfl, rfl⟩

/-- The nearest integer, ties to the even one. -/
noncomputable def nearEven (y : ℝ) : ℤ :=
  if Int.fract y < 1 / 2 then ⌊y⌋ else if 1 / 2 < Int.fract y then ⌊y⌋ + 1 else if Even ⌊y⌋ then ⌊y⌋ else ⌊y⌋ + 1

theorem nearEven_err (y : ℝ) : |(nearEven y : ℝ) - y| ≤ 1 / 2 := by
  have h0 := Int.fract_nonneg y
  have h1 := Int.fract_lt_one y
  have e : y = ⌊y⌋ + Int.fract y := (Int.floor_add_fract y).symm
  unfold nearEven
  split
  · rw [abs_le]; constructor <;> linarith
  · split
    · push_cast; rw [abs_le]; constructor <;> linarith
    · split
      · rw [abs_le]; constructor <;> linarith
      · push_cast; rw [abs_le]; constructor <;> linarith

theorem nearEven_int (n : ℤ) : nearEven (n:ℝ) = n := by
  unfold nearEven
  rw [if_pos (by simp)]
  simp

/-- IEEE rounding to nearest, ties to even, to `t+1` significant bits (before the range check). -/
noncomputable def rne (t : ℕ) (x : ℝ) : ℝ :=
  nearEven (x / (2:ℝ) ^ (Int.log 2 |x| - t)) * (2:ℝ) ^ (Int.log 2 |x| - t)

theorem ulp_le (t : ℕ) {x : ℝ} (hx : x ≠ 0) : (2:ℝ) ^ (Int.log 2 |x| - t) ≤ (2:ℝ)⁻¹ ^ t * |x| := by
  have hp : 0 < |x| := abs_pos.mpr hx
  have h1 : (2:ℝ) ^ (Int.log 2 |x|) ≤ |x| := by
    exact_mod_cast Int.zpow_log_le_self (b := 2) (by norm_num) hp
  rw [zpow_sub₀ (by norm_num), zpow_natCast, div_eq_mul_inv, ← inv_pow, mul_comm]
  exact mul_le_mul_of_nonneg_left h1 (by positivity)

theorem rne_err (t : ℕ) (x : ℝ) : |rne t x - x| ≤ (2:ℝ)⁻¹ ^ (t + 1) * |x| := by
  by_cases hx : x = 0
  · subst hx
    have : nearEven (0:ℝ) = 0 := by exact_mod_cast nearEven_int 0
    simp [rne, this]
  have h2 := ulp_le t hx
  set d : ℝ := (2:ℝ) ^ (Int.log 2 |x| - t) with hd
  have dp : 0 < d := by positivity
  have e : rne t x - x = (nearEven (x / d) - x / d) * d := by
    have : rne t x = nearEven (x / d) * d := rfl
    rw [this]; field_simp
  rw [e, abs_mul, abs_of_pos dp]
  have := nearEven_err (x / d)
  have := mul_le_mul_of_nonneg_right this dp.le
  refine this.trans ?_
  rw [pow_succ]
  linarith

/-- An integer of at most `t+1` bits is a multiple of the unit in its last place. -/
theorem int_div_ulp (t : ℕ) (n : ℤ) (h : |(n:ℝ)| ≤ (2:ℝ) ^ (t + 1)) :
    ∃ k : ℤ, (n:ℝ) / (2:ℝ) ^ (Int.log 2 |(n:ℝ)| - t) = k := by
  by_cases h0 : n = 0
  · exact ⟨0, by simp [h0]⟩
  have hp : 0 < |(n:ℝ)| := abs_pos.mpr (by exact_mod_cast h0)
  rcases h.lt_or_eq with h | h
  · have hl : Int.log 2 |(n:ℝ)| < (t:ℤ) + 1 := by
      refine (Int.lt_zpow_iff_log_lt (b := 2) (by norm_num) hp).mp ?_
      have : ((2:ℕ):ℝ) ^ ((t:ℤ) + 1) = (2:ℝ) ^ (t + 1) := by push_cast; norm_cast
      rw [this]; exact h
    obtain ⟨e, he⟩ : ∃ e : ℕ, Int.log 2 |(n:ℝ)| - t = -(e:ℤ) := ⟨(t - Int.log 2 |(n:ℝ)|).toNat, by omega⟩
    refine ⟨n * 2 ^ e, ?_⟩
    rw [he, zpow_neg, zpow_natCast, div_inv_eq_mul]
    push_cast; rfl
  · have hl : Int.log 2 |(n:ℝ)| = (t:ℤ) + 1 := by
      rw [h]
      have : (2:ℝ) ^ (t + 1) = ((2:ℕ):ℝ) ^ ((t:ℤ) + 1) := by push_cast; norm_cast
      rw [this]
      exact Int.log_zpow (by norm_num) _
    have e1 : (2:ℝ) ^ (Int.log 2 |(n:ℝ)| - t) = 2 := by rw [hl]; norm_num
    rw [e1]
    rcases abs_choice (n:ℝ) with e | e
    · refine ⟨2 ^ t, ?_⟩
      rw [e] at h
      rw [h, pow_succ]; push_cast; ring
    · refine ⟨-2 ^ t, ?_⟩
      rw [e] at h
      have : (n:ℝ) = -(2:ℝ) ^ (t + 1) := by linarith
      rw [this, pow_succ]; push_cast; ring

theorem rne_int (t : ℕ) (n : ℤ) (h : |(n:ℝ)| ≤ (2:ℝ) ^ (t + 1)) : rne t n = n := by
  obtain ⟨k, hk⟩ := int_div_ulp t n h
  have : (0:ℝ) < (2:ℝ) ^ (Int.log 2 |(n:ℝ)| - t) := by positivity
  unfold rne
  rw [hk, nearEven_int, ← hk]
  field_simp

theorem chop_int (t : ℕ) (n : ℤ) (h : |(n:ℝ)| ≤ (2:ℝ) ^ (t + 1)) : chop t n = n := by
  obtain ⟨k, hk⟩ := int_div_ulp t n h
  have : (0:ℝ) < (2:ℝ) ^ (Int.log 2 |(n:ℝ)| - t) := by positivity
  unfold chop
  rw [hk, Int.floor_intCast, ← hk]
  field_simp

/-- Zero and the normal range of IEEE double precision. -/
def normal64 (x : ℝ) : Prop := x = 0 ∨ ((2:ℝ)⁻¹ ^ 1022 ≤ |x| ∧ |x| < (2:ℝ) ^ 1024)

theorem normal64_int (n : ℤ) (h : |(n:ℝ)| ≤ (2:ℝ) ^ 53) : normal64 n := by
  by_cases h0 : n = 0
  · exact .inl (by simp [h0])
  · refine .inr ⟨?_, h.trans_lt (pow_lt_pow_right₀ (by norm_num) (by norm_num))⟩
    have h1 : (1:ℝ) ≤ |(n:ℝ)| := by exact_mod_cast Int.one_le_abs h0
    exact (pow_le_one₀ (by norm_num) (by norm_num)).trans h1

/-- IEEE double precision, round to nearest even, in the normal range. -/
abbrev Dbl (fused : Bool) := Fl (rne 52) normal64 fused

noncomputable def rneModel (fused : Bool) : IntModel (Dbl fused) ((2:ℝ)⁻¹ ^ 53) ((2:ℝ) ^ 53) :=
  intFl _ _ _ _ _ (by positivity) (rne_err 52) (fun n h => ⟨rne_int 52 n h, normal64_int n h⟩)

/-- The same for truncating arithmetic. -/
noncomputable def chopInt (fused : Bool) : IntModel (Fl (chop 52) normal64 fused) ((2:ℝ)⁻¹ ^ 52) ((2:ℝ) ^ 53) :=
  intFl _ _ _ _ _ (by positivity) (chop_err 52) (fun n h => ⟨chop_int 52 n h, normal64_int n h⟩)

theorem rne_truth (fused : Bool) : (rneModel fused).val Arith.one = 1 ∧
    ∀ a b : Dbl fused, ArithEq.feq a b = true → (rneModel fused).val a = (rneModel fused).val b := by
  refine ⟨rfl, fun a b h => ?_⟩
  have h' : ∃ x : ℝ, a = some x ∧ b = some x := by
    classical exact of_decide_eq_true h
  obtain ⟨x, h1, h2⟩ := h'
  rw [h1, h2]

/-! ## The builds agree -/

open Quaternion Finset IntModel
variable {F : Type} [Arith F] [ArithEq F] {u B : ℝ}

theorem IntModel.Is.val_eq {F : Type} [Arith F] {u B : ℝ} {I : IntModel F u B} {p q : Quat F} {z : ℍ[ℝ]}
    (h : I.Is p z) (g : I.Is q z) : p.map I.val = q.map I.val := by
  have e := h.2.trans g.2.symm
  have e0 := congrArg QuaternionAlgebra.re e
  have e1 := congrArg QuaternionAlgebra.imI e
  have e2 := congrArg QuaternionAlgebra.imJ e
  have e3 := congrArg QuaternionAlgebra.imK e
  simp only [Quat.toH] at e0 e1 e2 e3
  exact Quat.ext e0 e1 e2 e3

/-- C59: on integer data the SIMD, the portable and the Fortran DOTU and DOTC return the same numbers. -/
theorem C59_dot_builds_agree (I : IntModel F u B) (m : Mem F) (N X INCX Y INCY : Int) (x y : Nat → Quat F)
    (hX : VecAt m X INCX N.toNat x) (hY : VecAt m Y INCY N.toNat y) (hix : 0 < INCX) (hiy : 0 < INCY)
    (hx32 : Fits32 (4 * INCX)) (hy32 : Fits32 (4 * INCY)) (fx : Fits32 (N * INCX)) (fy : Fits32 (N * INCY))
    (s t : ℝ) (hs : 0 ≤ s) (ht : 0 ≤ t)
    (hx : I.IntVec s N.toNat x) (hy : I.IntVec t N.toNat y) (hB : N.toNat * (4 * (s * t)) ≤ B) (conj : Bool) :
    ∃ r₁ r₂ r₃, dotAVX conj N X INCX Y INCY m = .ok (r₁, m) ∧ dotGen conj N X INCX Y INCY m = .ok (r₂, m) ∧
      dotF conj N X INCX Y INCY m = .ok (r₃, m) ∧
      r₁.map I.val = r₂.map I.val ∧ r₁.map I.val = r₃.map I.val := by
  obtain ⟨u1, c1, a1, b1, d1, e1⟩ := C59_dot I m N X INCX Y INCY x y hX hY hx32 hy32 s t hs ht hx hy hB
  obtain ⟨u2, c2, a2, b2, d2, e2⟩ := C59_dot_portable I m N X INCX Y INCY x y hX hY hix hiy fx fy s t hs ht hx hy hB
  obtain ⟨u3, c3, a3, b3, d3, e3⟩ := C59_dot_fortran I m N X INCX Y INCY x y (by rwa [fbase_pos hix])
    (by rwa [fbase_pos hiy]) s t hs ht hx hy hB
  cases conj
  · exact ⟨u1, u2, u3, a1, a2, a3, d1.val_eq d2, d1.val_eq d3⟩
  · exact ⟨c1, c2, c3, b1, b2, b3, e1.val_eq e2, e1.val_eq e3⟩

/-- C59: on integer data the SIMD, the portable and the Fortran GEMM leave the same numbers in C. -/
theorem C59_gemm_builds_agree (I : IntModel F u B) (m : Mem F) (blk : Blk) (bAddr aAddr : Int) (junk : Int → F)
    (tA tB : Char) (M N K : Int) (ALPHA BETA : Scal F) (A LDA Bp LDB C LDC : Int) (Av Bv Cv : Nat → Nat → Quat F)
    (hA : tA = 'N' ∨ tA = 'T' ∨ tA = 'C') (hBt : tB = 'N' ∨ tB = 'T' ∨ tB = 'C')
    (h1 : I.val Arith.one = 1) (he : ∀ a b : F, ArithEq.feq a b = true → I.val a = I.val b)
    (ta : StdModel.Truth I.toStdModel ALPHA) (tb : StdModel.Truth I.toStdModel BETA)
    (h₁ : GemmPre m blk bAddr aAddr tA tB M.toNat N.toNat K.toNat A LDA Av Bp LDB Bv C LDC Cv)
    (h₂ : GemmBArgs m .h tA tB M N K ALPHA A LDA Bp LDB C LDC (fun i j => .h (Av i j)) Bv Cv)
    (h₃ : FGemmArgs m tA tB M N K ALPHA A LDA Bp LDB C LDC Av Bv Cv)
    (sα sβ a b c : ℝ) (hα : I.IntS sα ALPHA) (hβ : I.IntS sβ BETA)
    (iA : I.IntMat a (if tA = 'N' then M else K).toNat (if tA = 'N' then K else M).toNat Av)
    (iB : I.IntMat b (if tB = 'N' then K else N).toNat (if tB = 'N' then N else K).toNat Bv)
    (iC : I.IntMat c M.toNat N.toNat Cv) (h1α : 1 ≤ sα) (h1β : 1 ≤ sβ) (ha : 1 ≤ a) (hb : 1 ≤ b)
    (hB : 4 * (sβ * c) + K.toNat * (16 * (sα * a * b)) ≤ B) :
    ∃ m₁ m₂ m₃ V₁ V₂ V₃,
      gemmAVX blk bAddr aAddr junk tA tB M N K ALPHA A LDA Bp LDB BETA C LDC m = .ok ((), m₁) ∧
      gemmGen .h tA tB M N K ALPHA A LDA Bp LDB BETA C LDC m = .ok ((), m₂) ∧
      hgemmF tA tB M N K ALPHA A LDA Bp LDB BETA C LDC m = .ok ((), m₃) ∧
      MatAt m₁ C LDC M.toNat N.toNat V₁ ∧ MatAt m₂ C LDC M.toNat N.toNat V₂ ∧ MatAt m₃ C LDC M.toNat N.toNat V₃ ∧
      ∀ i j, i < M.toNat → j < N.toNat →
        (V₁ i j).map I.val = (V₂ i j).map I.val ∧ (V₁ i j).map I.val = (V₃ i j).map I.val := by
  have k1 : ∀ {t : Char} (X : Nat → Nat → Quat F), (t = 'N' ∨ t = 'T' ∨ t = 'C') →
      KOpIs t (fun i k => (Scal.h (X i k)).map I.val) (opSpec t (fun i k => (X i k).map I.val)) ∧
      QOpIs t (fun i k => (X i k).map I.val) (opSpec t (fun i k => (X i k).map I.val)) ∧
      OpIs t (fun i k => (X i k).map I.val) (opSpec t (fun i k => (X i k).map I.val)) := by
    rintro t X (rfl | rfl | rfl)
    · exact ⟨.inl ⟨rfl, fun _ _ => rfl⟩, .inl ⟨rfl, fun _ _ => rfl⟩, .inl ⟨.inl rfl, fun _ _ => rfl⟩⟩
    · exact ⟨.inr (.inl ⟨rfl, fun _ _ => rfl⟩), .inr (.inl ⟨rfl, fun _ _ => rfl⟩), .inr (.inl ⟨.inl rfl, fun _ _ => rfl⟩)⟩
    · exact ⟨.inr (.inr ⟨rfl, fun _ _ => rfl⟩), .inr (.inr ⟨rfl, fun _ _ => rfl⟩), .inr (.inr ⟨.inl rfl, fun _ _ => rfl⟩)⟩
  have nT : ∀ {t : Char} (p q : Int), (t = 'N' ∨ t = 'T' ∨ t = 'C') →
      (if isT t then q else p) = (if t = 'N' then p else q) ∧ (if IsN t then p else q) = (if t = 'N' then p else q) := by
    rintro t p q (rfl | rfl | rfl) <;> simp [isT, IsN]
  obtain ⟨m₁, V₁, a1, b1, c1⟩ := C59_gemm I m blk bAddr aAddr junk tA tB M N K ALPHA BETA A LDA Bp LDB C LDC Av Bv Cv h₁
    sα sβ a b c hα hβ (by rw [(nT M K hA).1, (nT K M hA).1]; exact iA) (by rw [(nT K N hBt).1, (nT N K hBt).1]; exact iB)
    iC (by linarith) hb hB
  obtain ⟨m₂, V₂, a2, b2, c2⟩ := C59_gemm_portable I m .h tA tB M N K ALPHA BETA A LDA Bp LDB C LDC _ Bv Cv _ _
    (k1 Av hA).1 (k1 Bv hBt).2.1 ta tb h₂ sα sβ a b c hα hβ iA iB iC h1α h1β (by linarith) hb hB
  obtain ⟨m₃, V₃, a3, b3, c3⟩ := C59_gemm_fortran I m tA tB M N K ALPHA BETA A LDA Bp LDB C LDC Av Bv Cv _ _
    (k1 Av hA).2.2 (k1 Bv hBt).2.2 h1 he h₃ sα sβ a b c hα hβ
    (by rw [(nT M K hA).2, (nT K M hA).2]; exact iA) (by rw [(nT K N hBt).2, (nT N K hBt).2]; exact iB)
    iC h1α h1β ha hb hB
  exact ⟨m₁, m₂, m₃, V₁, V₂, V₃, a1, a2, a3, b1, b2, b3,
    fun i j hi hj => ⟨(c1 i j hi hj).val_eq (c2 i j hi hj), (c1 i j hi hj).val_eq (c3 i j hi hj)⟩⟩

end Haxx
