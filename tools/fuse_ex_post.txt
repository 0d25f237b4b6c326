
end examples

/-! ## NaNs: a concrete case -/

/-- The portable DOTU of two vectors of length 2, cell 1 (the i component of `x_0`) a NaN, over integers with a NaN: whatever
the compiler fuses, the result is NaN in all components. -/
example : letI := toyNaN; letI := toyNaNEq
    ∃ r, dotGen false 2 0 1 8 1 (memOf 0 16 fun a => (Fused.lit a (if a = 1 then none else some a) : Fused (Option Int) pol)) =
      .ok (r, memOf 0 16 fun a => Fused.lit a (if a = 1 then none else some a)) ∧ (r.map Fused.dbl).AllNaN (· = none) := by
  let := toyNaN
  let := toyNaNEq
  obtain ⟨r, h1, h2⟩ := C66_nan_dot_portable toyNaN_like pol
    (memOf 0 16 fun a => (Fused.lit a (if a = 1 then none else some a) : Fused (Option Int) pol)) false 2 0 1 8 1
    (fun i => let p : Int := 0 + 4 * (i * 1); let f := fun a : Int => (Fused.lit a (if a = 1 then none else some a) : Fused (Option Int) pol)
      ⟨f p, f (p+1), f (p+2), f (p+3)⟩)
    (fun i => let p : Int := 8 + 4 * (i * 1); let f := fun a : Int => (Fused.lit a (if a = 1 then none else some a) : Fused (Option Int) pol)
      ⟨f p, f (p+1), f (p+2), f (p+3)⟩)
    (by decide) (by decide) (by unfold Fits32; decide) (by unfold Fits32; decide)
    (by intro i hi; have hi : i < 2 := hi; exact readQ_memOf (by omega) (by omega))
    (by intro i hi; have hi : i < 2 := hi; exact readQ_memOf (by omega) (by omega))
  have h3 := h2 0 (by decide) (Or.inl (Or.inr (Or.inl (bad_lit.mpr rfl))))
  exact ⟨r, h1, h3.1.1, h3.2.1.1, h3.2.2.1.1, h3.2.2.2.1⟩

/-! ## Signs -/

section signs

/-- The same double with the sign `s`. -/
def SignLit (s : ℤˣ) (a b : Fused (F64 fused) pol) : Prop := ∃ n v, a = Fused.lit n v ∧ b = Fused.lit n (sgn s v)
/-- componentwise -/
def SignLitQ (s : ℤˣ) (p q : Quat (Fused (F64 fused) pol)) : Prop :=
  SignLit s p.re q.re ∧ SignLit s p.i q.i ∧ SignLit s p.j q.j ∧ SignLit s p.k q.k
/-- for scalars of the three types -/
def SignLitS (s : ℤˣ) : Scal (Fused (F64 fused) pol) → Scal (Fused (F64 fused) pol) → Prop
  | .d a, .d b => SignLit s a b
  | .z a, .z b => SignLit s a.re b.re ∧ SignLit s a.im b.im
  | .h a, .h b => SignLitQ s a b
  | _, _ => False

theorem SignLit.d {s : ℤˣ} {a b : Fused (F64 fused) pol} (h : SignLit s a b) : (fusedUnits (ieeeSigns fused) pol).D s a b := by
  obtain ⟨n, v, rfl, rfl⟩ := h
  exact ⟨rfl, rfl, rfl, rfl⟩
theorem SignLitQ.d {s : ℤˣ} {p q : Quat (Fused (F64 fused) pol)} (h : SignLitQ s p q) : (fusedUnits (ieeeSigns fused) pol).QD s p q :=
  ⟨h.1.d, h.2.1.d, h.2.2.1.d, h.2.2.2.d⟩
theorem SignLitS.d {s : ℤˣ} {p q : Scal (Fused (F64 fused) pol)} (h : SignLitS s p q) : (fusedUnits (ieeeSigns fused) pol).SD s p q := by
  cases p <;> cases q <;> first | exact h.elim | skip
  · exact SignLit.d h
  · exact ⟨SignLit.d h.1, SignLit.d h.2⟩
  · exact SignLitQ.d h
theorem signLit_Q {s : ℤˣ} {p q : Quat (Fused (F64 fused) pol)} (h : (fusedUnits (ieeeSigns fused) pol).Q s p q) :
    q.map Fused.dbl = (p.map Fused.dbl).map (sgn s) :=
  Quat.ext h.1.2.1 h.2.1.2.1 h.2.2.1.2.1 h.2.2.2.2.1

/-- C66, signs: change the sign of x and of y in DOTU or DOTC: the compiled code computes the same quaternion with the sign changed
accordingly. -/
theorem C66_sign_dot (s t : ℤˣ) (conj : Bool) (m n : Mem (Fused (F64 fused) pol)) (N X INCX Y INCY : Int)
    (x y x' y' : Nat → Quat (Fused (F64 fused) pol)) (hX : VecAt m X INCX N.toNat x) (hY : VecAt m Y INCY N.toNat y)
    (hX' : VecAt n X INCX N.toNat x') (hY' : VecAt n Y INCY N.toNat y') (fx : Fits32 (4 * INCX)) (fy : Fits32 (4 * INCY))
    (hx : ∀ i, i < N.toNat → SignLitQ s (x i) (x' i)) (hy : ∀ i, i < N.toNat → SignLitQ t (y i) (y' i)) :
    ∃ v v', dotAVX conj N X INCX Y INCY m = .ok (v, m) ∧ dotAVX conj N X INCX Y INCY n = .ok (v', n) ∧
      v'.map Fused.dbl = (v.map Fused.dbl).map (sgn (s * t)) := by
  obtain ⟨v, v', h1, h2, h3⟩ := C64_dot (fusedUnits (ieeeSigns fused) pol) s t conj m n N X INCX Y INCY X INCX Y INCY x y _ _ hX hX' hY hY'
    fx fy fx fy (fun i hi => (hx i hi).d) (fun i hi => (hy i hi).d)
  exact ⟨v, v', h1, h2, signLit_Q h3⟩

/-- C66, signs, portable DOTU and DOTC. -/
theorem C66_sign_dot_portable (s t : ℤˣ) (conj : Bool) (m n : Mem (Fused (F64 fused) pol)) (N X INCX Y INCY : Int)
    (x y x' y' : Nat → Quat (Fused (F64 fused) pol)) (hX : VecAt m X INCX N.toNat x) (hY : VecAt m Y INCY N.toNat y)
    (hX' : VecAt n X INCX N.toNat x') (hY' : VecAt n Y INCY N.toNat y') (ix : 0 < INCX) (iy : 0 < INCY)
    (fx : Fits32 (N * INCX)) (fy : Fits32 (N * INCY))
    (hx : ∀ i, i < N.toNat → SignLitQ s (x i) (x' i)) (hy : ∀ i, i < N.toNat → SignLitQ t (y i) (y' i)) :
    ∃ v v', dotGen conj N X INCX Y INCY m = .ok (v, m) ∧ dotGen conj N X INCX Y INCY n = .ok (v', n) ∧
      v'.map Fused.dbl = (v.map Fused.dbl).map (sgn (s * t)) := by
  obtain ⟨v, v', h1, h2, h3⟩ := C64_dot_portable (fusedUnits (ieeeSigns fused) pol) s t conj m n N X INCX Y INCY X INCX Y INCY x y _ _
    hX hX' hY hY' ix iy ix iy fx fy fx fy (fun i hi => (hx i hi).d) (fun i hi => (hy i hi).d)
  exact ⟨v, v', h1, h2, signLit_Q h3⟩

/-- C66, signs: the same for GEMM: ALPHA, A and B in signs `r`, `s` and `t`, C in sign `r*s*t`, BETA unchanged. -/
theorem C66_sign_gemm (r s t : ℤˣ) (m n : Mem (Fused (F64 fused) pol)) (blk : Blk) (bAddr aAddr : Int)
    (junk : Int → Fused (F64 fused) pol) (TRANSA TRANSB : Char) (M N K : Int) (ALPHA BETA ALPHA' BETA' : Scal (Fused (F64 fused) pol))
    (A LDA B LDB C LDC : Int) (Av Bv Cv Av' Bv' Cv' : Nat → Nat → Quat (Fused (F64 fused) pol))
    (p : GemmPre m blk bAddr aAddr TRANSA TRANSB M.toNat N.toNat K.toNat A LDA Av B LDB Bv C LDC Cv)
    (p' : GemmPre n blk bAddr aAddr TRANSA TRANSB M.toNat N.toNat K.toNat A LDA Av' B LDB Bv' C LDC Cv')
    (hα : SignLitS r ALPHA ALPHA') (hβ : SignLitS 1 BETA BETA') (hA : ∀ i j, SignLitQ s (Av i j) (Av' i j))
    (hB : ∀ i j, SignLitQ t (Bv i j) (Bv' i j)) (hC : ∀ i j, SignLitQ (r * s * t) (Cv i j) (Cv' i j)) :
    ∃ m' n' V V', gemmAVX blk bAddr aAddr junk TRANSA TRANSB M N K ALPHA A LDA B LDB BETA C LDC m = .ok ((), m') ∧
      gemmAVX blk bAddr aAddr junk TRANSA TRANSB M N K ALPHA' A LDA B LDB BETA' C LDC n = .ok ((), n') ∧
      MatAt m' C LDC M.toNat N.toNat V ∧ MatAt n' C LDC M.toNat N.toNat V' ∧
      ∀ i j, i < M.toNat → j < N.toNat → (V' i j).map Fused.dbl = ((V i j).map Fused.dbl).map (sgn (r * s * t)) := by
  obtain ⟨m', n', V, V', h1, h2, h3, h4, h5⟩ := C64_gemm (fusedUnits (ieeeSigns fused) pol) r s t m n blk blk bAddr aAddr bAddr aAddr
    junk junk TRANSA TRANSB M N K ALPHA BETA ALPHA' BETA' A LDA B LDB C LDC A LDA B LDB C LDC Av Bv Cv _ _ _ p p'
    hα.d hβ.d (fun i j _ _ => (hA i j).d) (fun i j _ _ => (hB i j).d) (fun i j _ _ => (hC i j).d)
  exact ⟨m', n', V, V', h1, h2, h3, h4, fun i j hi hj => signLit_Q (h5 i j hi hj)⟩

/-- C66, signs, portable GEMM (A, ALPHA and BETA of any scalar type). -/
theorem C66_sign_gemm_portable (r s t : ℤˣ) (m n : Mem (Fused (F64 fused) pol)) (k : Kind) (tA tB : Char) (M N K : Int)
    (ALPHA BETA ALPHA' BETA' : Scal (Fused (F64 fused) pol)) (A LDA B LDB C LDC : Int)
    (Av Av' : Nat → Nat → Scal (Fused (F64 fused) pol)) (Bv Cv Bv' Cv' : Nat → Nat → Quat (Fused (F64 fused) pol))
    (p : GemmBArgs m k tA tB M N K ALPHA A LDA B LDB C LDC Av Bv Cv) (p' : GemmBArgs n k tA tB M N K ALPHA' A LDA B LDB C LDC Av' Bv' Cv')
    (hα : SignLitS r ALPHA ALPHA') (hβ : SignLitS 1 BETA BETA') (hA : ∀ i j, SignLitS s (Av i j) (Av' i j))
    (hB : ∀ i j, SignLitQ t (Bv i j) (Bv' i j)) (hC : ∀ i j, SignLitQ (r * s * t) (Cv i j) (Cv' i j)) :
    ∃ m' n' V V', gemmGen k tA tB M N K ALPHA A LDA B LDB BETA C LDC m = .ok ((), m') ∧
      gemmGen k tA tB M N K ALPHA' A LDA B LDB BETA' C LDC n = .ok ((), n') ∧
      MatAt m' C LDC M.toNat N.toNat V ∧ MatAt n' C LDC M.toNat N.toNat V' ∧
      ∀ i j, i < M.toNat → j < N.toNat → (V' i j).map Fused.dbl = ((V i j).map Fused.dbl).map (sgn (r * s * t)) := by
  obtain ⟨m', n', V, V', h1, h2, h3, h4, h5⟩ := C64_gemm_portable (fusedUnits (ieeeSigns fused) pol) r s t m n k tA tB M N K
    ALPHA BETA ALPHA' BETA' A LDA B LDB C LDC A LDA B LDB C LDC Av Bv Cv _ _ _ p p'
    hα.d hβ.d (fun i j _ _ => (hA i j).d) (fun i j _ _ => (hB i j).d) (fun i j _ _ => (hC i j).d)
  exact ⟨m', n', V, V', h1, h2, h3, h4, fun i j hi hj => signLit_Q (h5 i j hi hj)⟩

theorem signLit_f (s : ℤˣ) (f : Int → F64 fused) (a : Int) :
    SignLit s (Fused.lit a (f a) : Fused (F64 fused) pol) (Fused.lit a (sgn s (f a))) := ⟨a, _, rfl, rfl⟩

example (f : Int → F64 fused) := C66_sign_dot (pol := pol) (-1) (-1) true _ _ 5 0 2 60 3 _ _ _ _
  (lv1_example fun a => Fused.lit a (f a)).1 (lv1_example fun a => Fused.lit a (f a)).2.1
  (lv1_example fun a => Fused.lit a (sgn (-1) (f a))).1 (lv1_example fun a => Fused.lit a (sgn (-1) (f a))).2.1
  (by unfold Fits32; decide) (by unfold Fits32; decide)
  (fun _ _ => ⟨signLit_f _ _ _, signLit_f _ _ _, signLit_f _ _ _, signLit_f _ _ _⟩)
  (fun _ _ => ⟨signLit_f _ _ _, signLit_f _ _ _, signLit_f _ _ _, signLit_f _ _ _⟩)

example (f : Int → F64 fused) := C66_sign_gemm_portable (pol := pol) (-1) (-1) (-1) _ _ .h 'C' 'N' 3 1 2
  (.z ⟨Fused.lit 1 (f 1), Fused.lit 2 (f 2)⟩) (.d (Fused.lit 3 (f 3))) (.z ⟨Fused.lit 1 (sgn (-1) (f 1)), Fused.lit 2 (sgn (-1) (f 2))⟩)
  (.d (Fused.lit 3 (sgn 1 (f 3)))) _ _ _ _ _ _ _ _ _ _ _ _
  (gemmBArgs_hexample (fun a => Fused.lit a (f a)) _) (gemmBArgs_hexample (fun a => Fused.lit a (sgn (-1) (f a))) _)
  ⟨⟨1, _, rfl, rfl⟩, ⟨2, _, rfl, rfl⟩⟩ ⟨3, _, rfl, rfl⟩
  (fun _ _ => ⟨signLit_f _ _ _, signLit_f _ _ _, signLit_f _ _ _, signLit_f _ _ _⟩)
  (fun _ _ => ⟨signLit_f _ _ _, signLit_f _ _ _, signLit_f _ _ _, signLit_f _ _ _⟩)
  (fun _ _ => ⟨signLit_f _ _ _, signLit_f _ _ _, signLit_f _ _ _, signLit_f _ _ _⟩)

end signs

/-! ## No fusing -/

section none
variable {F : Type} [Arith F] [ArithEq F]

/-- C66: a compiler that fuses nothing computes what the other theorems say, here for the portable GEMM: the doubles it stores are those
of the run over plain doubles. -/
theorem C66_none_gemm_portable (m : Mem F) (n : Mem (Fused F fun _ => .none)) (k : Kind) (tA tB : Char) (M N K : Int)
    (ALPHA BETA : Scal F) (ALPHA' BETA' : Scal (Fused F fun _ => .none)) (A LDA B LDB C LDC : Int)
    (Av : Nat → Nat → Scal F) (Bv Cv : Nat → Nat → Quat F) (Av' : Nat → Nat → Scal (Fused F fun _ => .none))
    (Bv' Cv' : Nat → Nat → Quat (Fused F fun _ => .none))
    (p : GemmBArgs m k tA tB M N K ALPHA A LDA B LDB C LDC Av Bv Cv) (p' : GemmBArgs n k tA tB M N K ALPHA' A LDA B LDB C LDC Av' Bv' Cv')
    (hα : ALPHA'.map Fused.dbl = ALPHA) (hβ : BETA'.map Fused.dbl = BETA) (hA : ∀ i j, (Av' i j).map Fused.dbl = Av i j)
    (hB : ∀ i j, (Bv' i j).map Fused.dbl = Bv i j) (hC : ∀ i j, (Cv' i j).map Fused.dbl = Cv i j) :
    ∃ m' n' V V', gemmGen k tA tB M N K ALPHA A LDA B LDB BETA C LDC m = .ok ((), m') ∧
      gemmGen k tA tB M N K ALPHA' A LDA B LDB BETA' C LDC n = .ok ((), n') ∧
      MatAt m' C LDC M.toNat N.toNat V ∧ MatAt n' C LDC M.toNat N.toNat V' ∧
      ∀ i j, i < M.toNat → j < N.toNat → (V' i j).map Fused.dbl = V i j := by
  have hq : ∀ q' : Quat (Fused F fun _ => .none), ∀ q, q'.map Fused.dbl = q → unfused.QD PUnit.unit q' q := by
    rintro q' _ rfl
    exact ⟨rfl, rfl, rfl, rfl⟩
  have hs : ∀ q' : Scal (Fused F fun _ => .none), ∀ q, q'.map Fused.dbl = q → unfused.SD PUnit.unit q' q := by
    rintro q' _ rfl
    cases q'
    · exact rfl
    · exact ⟨rfl, rfl⟩
    · exact ⟨rfl, rfl, rfl, rfl⟩
  obtain ⟨n', m', V', V, h1, h2, h3, h4, h5⟩ := C64_gemm_portable unfused PUnit.unit PUnit.unit PUnit.unit n m k tA tB M N K
    ALPHA' BETA' ALPHA BETA A LDA B LDB C LDC A LDA B LDB C LDC Av' Bv' Cv' Av Bv Cv p' p
    (hs _ _ hα) (hs _ _ hβ) (fun i j _ _ => hs _ _ (hA i j)) (fun i j _ _ => hq _ _ (hB i j)) (fun i j _ _ => hq _ _ (hC i j))
  exact ⟨m', n', V, V', h2, h1, h4, h3, fun i j hi hj =>
    have h := h5 i j hi hj
    Quat.ext h.1 h.2.1 h.2.2.1 h.2.2.2⟩

/-- Fusing makes a difference: with the left product fused, `a*b - c*d` is computed as one multiplication and one multiply-subtract. -/
example (a b c d : F) : ((Fused.lit 0 a *ᶠ Fused.lit 1 b -ᶠ Fused.lit 2 c *ᶠ Fused.lit 3 d : Fused F fun _ => .left)).dbl =
    Arith.fms a b (c *ᶠ d) := rfl
example (a b c d : F) : ((Fused.lit 0 a *ᶠ Fused.lit 1 b -ᶠ Fused.lit 2 c *ᶠ Fused.lit 3 d : Fused F fun _ => .right)).dbl =
    Arith.fnma c d (a *ᶠ b) := rfl

end none

end Haxx
