import Verif.PropsProgram

/-!
# C54 for the builds of the library

The three ways the sources are compiled: the SIMD level-1 and GEMM kernels with the Fortran GEMV and GER (what the
shipped makefiles link), the Fortran reference, and the portable templates.
-/

set_option linter.unusedSectionVars false

namespace Haxx
open Quaternion Finset

section
variable {R : Type} [CommRing R] [DecidableEq R]

theorem Side.mul_char (s : Side) (a q : ℍ[R]) : (if s.char = 'L' then a * q else q * a) = s.mul a q := by
  cases s <;> simp [Side.char, Side.mul]

theorem Side.sideMul_char (s : Side) (a : ℍ[R]) (q : Quat R) : sideMul (lsame 'R' s.char) a q = s.mul a q.toH := by
  cases s
  · exact (by rw [show Side.left.char = 'L' from rfl, lsame_RL]; simp [sideMul, Side.mul])
  · exact (by rw [show Side.right.char = 'R' from rfl, lsame_RR]; simp [sideMul, Side.mul])

theorem Side.scal_char (s : Side) (a : Scal R) (q : Quat R) :
    (if s.char = 'R' then Scal.mulR q a else Scal.mulL a q) = Quat.ofH (s.mul a.toH q.toH) := by
  apply eq_ofH
  cases s
  · simp [Side.char, Side.mul, toH_smulL]
  · simp [Side.char, Side.mul, toH_smulR]

/-! ## Level 1 -/

theorem scalvAVX_side {m : Mem R} (s : Side) (N : Int) (a : Scal R) (X INCX : Int) (x : Nat → Quat R) (h : 0 < INCX)
    (hX : VecAt m X INCX N.toNat x) : wp (scalvAVX s.char N a X INCX) m (fun _ m' =>
      VecAt m' X INCX N.toNat (fun i => Quat.ofH (s.mul a.toH (x i).toH)) ∧ SameOutside (VecCell X INCX N.toNat) m m') := by
  obtain ⟨m', h1, h2, h3⟩ := C13_scalv m s.char N X INCX a x hX (by omega)
  simp only [Side.mul_char] at h2
  exact ⟨_, m', h1, h2, h3⟩

theorem scalvGen_side {m : Mem R} (s : Side) (N : Int) (a : Scal R) (X INCX : Int) (x : Nat → Quat R) (h : 0 < INCX)
    (hf : Fits32 (N * INCX))
    (hX : VecAt m X INCX N.toNat x) : wp (scalvGen s.char N a X INCX) m (fun _ m' =>
      VecAt m' X INCX N.toNat (fun i => Quat.ofH (s.mul a.toH (x i).toH)) ∧ SameOutside (VecCell X INCX N.toNat) m m') := by
  have := scalvGen_wp (SIDE := s.char) (ALPHA := a) h hf hX
  simpa only [Side.scal_char] using this

theorem scalvF_side {m : Mem R} (s : Side) (N : Int) (a : Scal R) (X INCX : Int) (x : Nat → Quat R) (h : 0 < INCX)
    (ha : a.toH ≠ 0)
    (hX : VecAt m X INCX N.toNat x) : wp (scalvF s.char N a X INCX) m (fun _ m' =>
      VecAt m' X INCX N.toNat (fun i => Quat.ofH (s.mul a.toH (x i).toH)) ∧ SameOutside (VecCell X INCX N.toNat) m m') := by
  have hz : a.allZero = false := by rw [Bool.eq_false_iff]; intro h; exact ha ((allZero_iff _).mp h)
  have hb : fbase X N INCX = X := fbase_pos h
  have := scalvF_wp (SIDE := s.char) (INCX := INCX) (X := X) (N := N) (m0 := m) (x := x) hz (by omega) (by rw [hb]; exact hX)
  rw [hb] at this
  simpa only [Side.sideMul_char] using this

theorem axpyvAVX_side {m : Mem R} (s : Side) (N : Int) (a : Scal R) (X INCX Y INCY : Int) (x y : Nat → Quat R)
    (h : 0 < INCY) (hX : VecAt m X INCX N.toNat x) (hY : VecAt m Y INCY N.toNat y)
    (hd : Apart (VecCell X INCX N.toNat) (VecCell Y INCY N.toNat)) :
    wp (axpyvAVX s.char N a X INCX Y INCY) m (fun _ m' =>
      VecAt m' Y INCY N.toNat (fun i => Quat.ofH ((y i).toH + s.mul a.toH (x i).toH)) ∧
      SameOutside (VecCell Y INCY N.toNat) m m') := by
  obtain ⟨m', h1, h2, _, h3⟩ := C14_axpyv m s.char N X INCX Y INCY a x y hX hY (by omega) hd
  simp only [Side.mul_char] at h2
  exact ⟨_, m', h1, h2, h3⟩

theorem axpyvF_side {m : Mem R} (s : Side) (N : Int) (a : Scal R) (X INCX Y INCY : Int) (x y : Nat → Quat R)
    (hx : 0 < INCX) (hy : 0 < INCY) (hX : VecAt m X INCX N.toNat x) (hY : VecAt m Y INCY N.toNat y)
    (hd : Apart (VecCell X INCX N.toNat) (VecCell Y INCY N.toNat)) :
    wp (axpyvF s.char N a X INCX Y INCY) m (fun _ m' =>
      VecAt m' Y INCY N.toNat (fun i => Quat.ofH ((y i).toH + s.mul a.toH (x i).toH)) ∧
      SameOutside (VecCell Y INCY N.toNat) m m') := by
  have hbx : fbase X N INCX = X := fbase_pos hx
  have hby : fbase Y N INCY = Y := fbase_pos hy
  have := axpyvF_wp (SIDE := s.char) (ALPHA := a) (INCX := INCX) (X := X)
    (N := N) (Y := Y) (INCY := INCY) (m0 := m) (x := x) (y := y) (by omega)
    (by rw [hbx]; exact hX) (by rw [hby]; exact hY) (by rw [hbx, hby]; exact hd)
  rw [hby] at this
  simpa only [Side.sideMul_char] using this

theorem axpyvGen_side {m : Mem R} (s : Side) (N : Int) (a : Scal R) (X INCX Y INCY : Int) (x y : Nat → Quat R)
    (hx : 0 < INCX) (hy : 0 < INCY) (fx : Fits32 (N * INCX)) (fy : Fits32 (N * INCY)) (ha : ¬ a.pureK)
    (hX : VecAt m X INCX N.toNat x) (hY : VecAt m Y INCY N.toNat y)
    (hd : Apart (VecCell X INCX N.toNat) (VecCell Y INCY N.toNat)) :
    wp (axpyvGen s.char N a X INCX Y INCY) m (fun _ m' =>
      VecAt m' Y INCY N.toNat (fun i => Quat.ofH ((y i).toH + s.mul a.toH (x i).toH)) ∧
      SameOutside (VecCell Y INCY N.toNat) m m') := by
  obtain ⟨m', _, h1, _, h2⟩ := C18_axpyv_partial m s.char N X INCX Y INCY a x y (by cases s <;> simp [Side.char]) ha
    hx hy fx fy hX hY hd
  obtain ⟨_, m'', g1, _, g3⟩ := axpyvAVX_side s N a X INCX Y INCY x y hy hX hY hd
  obtain ⟨m3, k1, k2, _, _⟩ := C18_axpyv_partial m s.char N X INCX Y INCY a x y (by cases s <;> simp [Side.char]) ha
    hx hy fx fy hX hY hd
  have e1 : m3 = m'' := by rw [k1] at g1; injection g1 with g1; injection g1
  have e2 : m3 = m' := by rw [k2] at h1; injection h1 with h1; injection h1
  subst e1; subst e2
  simp only [Side.mul_char] at h2
  exact ⟨_, m3, h1, h2, g3⟩

/-! ## SCALM, AXPYM over any right level-1 kernel -/

theorem scalm_side {SCALV : Char → Int → Scal R → Int → Int → Prog R Unit} (s : Side) (M N : Nat) (a : Scal R)
    (A LDA : Int) (m : Mem R) (Av : Nat → Nat → Quat R) (hld : (M:Int) ≤ LDA)
    (hS : ∀ (m : Mem R) (X : Int) (x : Nat → Quat R), VecAt m X 1 M x →
      wp (SCALV s.char M a X 1) m (fun _ m' => VecAt m' X 1 M (fun i => Quat.ofH (s.mul a.toH (x i).toH)) ∧
        SameOutside (VecCell X 1 M) m m'))
    (hA : MatAt m A LDA M N Av) :
    ∃ m', scalm SCALV s.char 'N' M N a A LDA 1 m = .ok ((), m') ∧
      MatAt m' A LDA M N (fun i j => Quat.ofH (s.mul a.toH (Av i j).toH)) ∧ SameOutside (MatCell A LDA M N) m m' := by
  obtain ⟨_, m', h1, h2, h3⟩ := scalm_wp (SCALV := SCALV) (SIDE := s.char) (M := M) (N := N) (ALPHA := a) (A := A)
    (LDA := LDA) (INCA := 1) (m0 := m) (Av := Av) (f := fun q => Quat.ofH (s.mul a.toH q.toH))
    (by simpa using hS) (by simpa using smat_one.mpr hA) (by omega) ⟨by omega, by simp; omega⟩
  refine ⟨m', h1, smat_one.mp (by simpa using h2), fun c hc => h3 c (fun hk => hc ?_)⟩
  exact smatCell_one.mp (by simpa using hk)

theorem axpym_side {AXPYV : Char → Int → Scal R → Int → Int → Int → Int → Prog R Unit} (s : Side) (M N : Nat)
    (a : Scal R) (A LDA B LDB : Int) (m : Mem R) (Av Bv : Nat → Nat → Quat R) (hld : (M:Int) ≤ LDB) (hk : ¬ a.pureK)
    (hS : ∀ (m : Mem R) (X Y : Int) (x y : Nat → Quat R), VecAt m X 1 M x → VecAt m Y 1 M y →
      Apart (VecCell X 1 M) (VecCell Y 1 M) →
      wp (AXPYV s.char M a X 1 Y 1) m (fun _ m' =>
        VecAt m' Y 1 M (fun i => Quat.ofH ((y i).toH + s.mul a.toH (x i).toH)) ∧ SameOutside (VecCell Y 1 M) m m'))
    (hA : MatAt m A LDA M N Av) (hB : MatAt m B LDB M N Bv) (hd : Apart (MatCell A LDA M N) (MatCell B LDB M N)) :
    ∃ m', axpym AXPYV s.char 'N' M N a A LDA 1 B LDB 1 m = .ok ((), m') ∧
      MatAt m' B LDB M N (fun i j => Quat.ofH ((Bv i j).toH + s.mul a.toH (Av i j).toH)) ∧
      SameOutside (MatCell B LDB M N) m m' := by
  cases hz : a.eqZero with
  | true =>
    have h0 : a.toH = 0 := (eqZero_cases hz).resolve_right hk
    refine ⟨m, ?_, ?_, fun _ _ => rfl⟩
    · unfold axpym
      rw [hz]
      by_cases hg : (N:Int) ≤ 0 ∨ (M:Int) ≤ 0
      · rw [if_pos hg]; rfl
      · rw [if_neg hg, if_pos rfl]; rfl
    · intro i j hi hj
      rw [hB i j hi hj, h0]
      cases s <;> simp [Side.mul]
  | false =>
    obtain ⟨_, m', h1, h2, h3⟩ := axpym_wp (AXPYV := AXPYV) (SIDE := s.char) (M := M) (N := N) (ALPHA := a) (A := A)
      (LDA := LDA) (INCA := 1) (B := B) (LDB := LDB) (INCB := 1) (m0 := m) (Av := Av) (Bv := Bv)
      (g := fun p q => Quat.ofH (q.toH + s.mul a.toH p.toH))
      (by simpa using hS) hz (by simpa using smat_one.mpr hA) (by simpa using smat_one.mpr hB)
      ⟨by omega, by simp; omega⟩
      (fun c h1 h2 => hd c (smatCell_one.mp (by simpa using h1)) (smatCell_one.mp (by simpa using h2)))
    refine ⟨m', h1, smat_one.mp (by simpa using h2), fun c hc => h3 c (fun hk => hc ?_)⟩
    exact smatCell_one.mp (by simpa using hk)

/-! ## Operand letters -/

theorem Op.opIs (t : Op) (X : Nat → Nat → Quat R) : OpIs t.char X (t.app (fun i j => (X i j).toH)) := by
  cases t
  · exact .inl ⟨.inl rfl, fun _ _ => rfl⟩
  · exact .inr (.inl ⟨.inl rfl, fun _ _ => rfl⟩)
  · exact .inr (.inr ⟨.inl rfl, fun _ _ => rfl⟩)

theorem Op.qOpIs (t : Op) (X : Nat → Nat → Quat R) : QOpIs t.char X (t.app (fun i j => (X i j).toH)) := by
  cases t
  · exact .inl ⟨rfl, fun _ _ => rfl⟩
  · exact .inr (.inl ⟨rfl, fun _ _ => rfl⟩)
  · exact .inr (.inr ⟨rfl, fun _ _ => rfl⟩)

theorem Op.kOpIs (t : Op) (X : Nat → Nat → Quat R) :
    KOpIs t.char (fun i j => .h (X i j)) (t.app (fun i j => (X i j).toH)) := by
  cases t
  · exact .inl ⟨rfl, fun _ _ => rfl⟩
  · exact .inr (.inl ⟨rfl, fun _ _ => rfl⟩)
  · exact .inr (.inr ⟨rfl, fun _ _ => rfl⟩)

theorem Op.opSpec_eq (t : Op) (X : Nat → Nat → Quat R) (i k : Nat) :
    opSpec t.char X i k = t.app (fun i j => (X i j).toH) i k := by
  cases t <;> simp [opSpec, Op.char, Op.app]

theorem Op.ifN {α : Type} (t : Op) (x y : α) : (if t.char = 'N' then x else y) = if t = .none then x else y := by
  cases t <;> simp [Op.char]

theorem Op.ifIsN {α : Type} (t : Op) (x y : α) : (if IsN t.char then x else y) = if t = .none then x else y := by
  cases t <;> simp [Op.char, IsN]

theorem Op.ifIsT {α : Type} (t : Op) (x y : α) : (if isT t.char then x else y) = if t = .none then y else x := by
  cases t <;> simp [Op.char, isT]

theorem kMatAt_h {m : Mem R} {p ld : Int} {r c : Nat} {A : Nat → Nat → Quat R} (h : MatAt m p ld r c A) :
    KMatAt m .h p ld r c (fun i j => .h (A i j)) := by
  intro i j hi hj
  have := h i j hi hj
  unfold readK
  have e : p + Kind.h.width * ((i:Int) + j * ld) = p + 4 * (i + j * ld) := rfl
  rw [e, this]

theorem kMatCell_h {p ld : Int} {r c : Nat} {a : Int} (h : KMatCell .h p ld r c a) : MatCell p ld r c a := by
  obtain ⟨i, j, hi, hj, h1, h2⟩ := h
  exact ⟨i, j, hi, hj, h1, h2⟩

/-! ## The builds -/

/-- Block sizes and buffers GEMM can work with (include/hblas/config: MC, NC, KC; the two aligned buffers
gemm.cxx:57,59 allocates). -/
structure BufOk (blk : Blk) (bAddr aAddr : Int) : Prop where
  mc : 0 < blk.MC ∧ blk.MC ≤ 1000000000 ∧ blk.MC % 2 = 0
  nc : 0 < blk.NC ∧ blk.NC ≤ 1000000000 ∧ blk.NC % 2 = 0
  kc : 0 < blk.KC ∧ blk.KC ≤ 1000000000
  alignB : aligned32 bAddr = true
  alignA : aligned32 aAddr = true
  apart : Apart (InBuf bAddr (4 * fixMod (blk.KC * blk.NC) 32)) (InBuf aAddr (4 * fixMod (blk.KC * blk.MC) 32))

/-- The buffers are free memory. -/
def BufFree (blk : Blk) (bAddr aAddr : Int) (m : Mem R) : Prop :=
  ∀ a, InBuf bAddr (4 * fixMod (blk.KC * blk.NC) 32) a ∨ InBuf aAddr (4 * fixMod (blk.KC * blk.MC) 32) a → m a = none

/-- The shipped library. -/
def simdLib (blk : Blk) (bAddr aAddr : Int) (junk : Int → R) : Lib R where
  copyv := copyvAVX
  swapv := swapvAVX
  scalv := scalvAVX
  axpyv := axpyvAVX
  dot := dotAVX
  scalm := scalm scalvAVX
  axpym := axpym axpyvAVX
  gemv := gemvF
  ger := fun cj => if cj then gercF else geruF
  gemm := gemmAVX blk bAddr aAddr junk

/-- The calls the shipped library does not get right (C21, C30, C31), and the sizes for which GEMM's 32-bit
index arithmetic overflows (C38). -/
def simdQuirks (blk : Blk) : Quirks R where
  scal _ := True
  axpy _ := True
  axpym a := ¬ a.pureK
  gemv t M N a b INCX INCY := GemvGood t.char M N a b INCX INCY
  ger a INCX _ _ := ∀ r, a = .d r → INCX = 1
  gemm _ _ M N K _ _ LDA LDB _ := Fits32 (min (N:Int) blk.NC * LDB) ∧ Fits32 (min (K:Int) blk.KC * LDB) ∧
    Fits32 (min (M:Int) blk.MC * LDA) ∧ Fits32 (min (K:Int) blk.KC * LDA)

/-- The Fortran reference (COPYV and SWAPV exist as templates only). -/
def fortranLib : Lib R where
  copyv := copyvGen
  swapv := swapvGen
  scalv := scalvF
  axpyv := axpyvF
  dot := dotF
  scalm := scalm scalvF
  axpym := axpym axpyvF
  gemv := gemvF
  ger := fun cj => if cj then gercF else geruF
  gemm := hgemmF

/-- The calls the Fortran reference does not get right (C19, C21, C30, C31). -/
def fortranQuirks : Quirks R where
  scal a := a.toH ≠ 0
  axpy _ := True
  axpym a := ¬ a.pureK
  gemv t M N a b INCX INCY := GemvGood t.char M N a b INCX INCY
  ger a INCX _ _ := ∀ r, a = .d r → INCX = 1
  gemm _ _ _ _ _ _ _ _ _ _ := True

/-- The portable templates. -/
def portableLib : Lib R where
  copyv := copyvGen
  swapv := swapvGen
  scalv := scalvGen
  axpyv := axpyvGen
  dot := dotGen
  scalm := scalm scalvGen
  axpym := axpym axpyvGen
  gemv := gemvGen .h
  ger := gerGen
  gemm := gemmGen .h

/-- The calls the portable templates do not get right (C18, C21, C29–C31: `==` ignores the `k` component). -/
def portableQuirks : Quirks R where
  scal _ := True
  axpy a := ¬ a.pureK
  axpym a := ¬ a.pureK
  gemv _ _ _ a b _ _ := a.Plain ∧ b.Plain
  ger a _ N y := a.Plain ∧ ∀ j, j < N → ¬ (Quat.ofH (y j)).PureK
  gemm _ _ _ _ _ a b _ _ _ := a.Plain ∧ b.Plain

theorem wp_unit {P : Prog R Unit} {m : Mem R} {Q : Mem R → Prop} (h : wp P m (fun _ m' => Q m')) :
    ∃ m', P m = .ok ((), m') ∧ Q m' := by
  obtain ⟨_, m', h1, h2⟩ := h
  exact ⟨m', h1, h2⟩

theorem fits_col {n : Nat} {L : Int} (hL : 0 ≤ L) (h : Fits32 (n * L)) {j : Nat} (hj : j ≤ n) : Fits32 (j * L) := by
  refine h.mono (by positivity) (mul_le_mul_of_nonneg_right ?_ hL)
  omega

/-! ### GEMV and GER of the Fortran reference -/

theorem gemvF_law (m : Mem R) (t : Op) (M N nx ny : Nat) (a b : Scal R) (A LDA X INCX Y INCY : Int)
    (Av : Nat → Nat → Quat R) (x y : Nat → Quat R) (hM : 0 < M) (hN : 0 < N)
    (enx : nx = (if t = .none then N else M)) (eny : ny = (if t = .none then M else N)) (fx : Fit nx INCX) (fy : Fit ny INCY)
    (hg : GemvGood t.char M N a b INCX INCY)
    (hA : MatAt m A LDA M N Av) (hX : VecAt m X INCX nx x) (hY : VecAt m Y INCY ny y)
    (hAY : Apart (MatCell A LDA M N) (VecCell Y INCY ny)) (hXY : Apart (VecCell X INCX nx) (VecCell Y INCY ny)) :
    ∃ m', gemvF t.char M N a A LDA X INCX b Y INCY m = .ok ((), m') ∧
      VecAt m' Y INCY ny (fun i => Quat.ofH (a.toH * (∑ k ∈ range nx, t.app (fun i j => (Av i j).toH) i k * (x k).toH) +
        b.toH * (y i).toH)) ∧ SameOutside (VecCell Y INCY ny) m m' := by
  have ex : (gemvLenX t.char M N).toNat = nx := by
    unfold gemvLenX; rw [Op.ifIsN, enx]; split <;> simp
  have ey : (gemvLenY t.char M N).toNat = ny := by
    unfold gemvLenY; rw [Op.ifIsN, eny]; split <;> simp
  have sx : ∀ n, vecStart X n INCX = X := fun n => by unfold vecStart; rw [if_neg (by have := fx.1; omega)]
  have sy : ∀ n, vecStart Y n INCY = Y := fun n => by unfold vecStart; rw [if_neg (by have := fy.1; omega)]
  have := C30_gemv_partial m t.char M N a A LDA X INCX b Y INCY Av x y _ (by omega) (by omega)
    { hinc := by have := fy.1; omega
      hY := by rw [sy, ey]; exact hY
      hA := fun _ => hA
      hX := fun _ => by rw [sx, ex]; exact hX
      hAY := fun _ => by rw [sy, ey]; exact hAY
      hXY := fun _ => by rw [sy, sx, ey, ex]; exact hXY } (t.opIs Av) hg
  unfold IsGemv at this
  rw [sy, ey, ex] at this
  exact this

theorem gerF_law (m : Mem R) (cj : Bool) (M N : Nat) (a : Scal R) (X INCX Y INCY A LDA : Int) (x y : Nat → Quat R)
    (Av : Nat → Nat → Quat R) (fx : 0 < INCX) (fy : 0 < INCY) (hld : (M:Int) ≤ LDA) (hq : ∀ r, a = .d r → INCX = 1)
    (hA : MatAt m A LDA M N Av) (hX : VecAt m X INCX M x) (hY : VecAt m Y INCY N y)
    (hXA : Apart (VecCell X INCX M) (MatCell A LDA M N)) (hYA : Apart (VecCell Y INCY N) (MatCell A LDA M N)) :
    ∃ m', (if cj then gercF else geruF) M N a X INCX Y INCY A LDA m = .ok ((), m') ∧
      MatAt m' A LDA M N (fun i j => Quat.ofH ((Av i j).toH +
        a.toH * (x i).toH * (if cj then star (y j).toH else (y j).toH))) ∧ SameOutside (MatCell A LDA M N) m m' := by
  have hargs : GerArgs m M N X INCX Y INCY A LDA x y Av :=
    { hA := hA
      hX := by rw [if_neg (by omega)]; exact hX
      hY := by rw [if_neg (by omega)]; exact hY
      hld := hld
      hXA := by rw [if_neg (by omega)]; exact hXA
      hYA := by rw [if_neg (by omega)]; exact hYA }
  cases cj
  · exact C31_geru_partial m M N a X INCX Y INCY A LDA x y Av hargs hq
  · exact C31_gerc_partial m M N a X INCX Y INCY A LDA x y Av hargs hq

/-! ### The shipped build -/

theorem simd_lawful {blk : Blk} {bAddr aAddr : Int} (hb : BufOk blk bAddr aAddr) (junk : Int → R) :
    Lawful (simdQuirks blk) (BufFree blk bAddr aAddr) (simdLib blk bAddr aAddr junk) where
  inv m m' h he a ha := by
    have := he a
    rw [h a ha] at this
    simpa using this
  copyv m n X INCX Y INCY x y fx fy hX hY hd := by
    obtain ⟨m', h1, h2, _, h3⟩ := C11_copyv m n X INCX Y INCY x y hX hY (by have := fy.1; omega) hd
    exact ⟨m', h1, h2, h3⟩
  swapv m n X INCX Y INCY x y fx fy hX hY hd :=
    C12_swapv m n X INCX Y INCY x y hX hY (by have := fx.1; omega) (by have := fy.1; omega) hd
  scalv m s n a X INCX x fx _ hX := wp_unit (scalvAVX_side s n a X INCX x fx.1 hX)
  axpyv m s n a X INCX Y INCY x y fx fy _ hX hY hd := wp_unit (axpyvAVX_side s n a X INCX Y INCY x y fy.1 hX hY hd)
  dot m cj n X INCX Y INCY x y fx fy hX hY := by
    have := C15_dot m n X INCX Y INCY x y hX hY fx.2.2 fy.2.2
    cases cj
    · exact this.1
    · exact this.2
  scalm m s M N a A LDA Av hld _ _ hA := scalm_side s M N a A LDA m Av hld
    (fun m X x hx => scalvAVX_side s M a X 1 x (by omega) hx) hA
  axpym m s M N a A LDA B LDB Av Bv _ hld _ _ hk hA hB hd := axpym_side s M N a A LDA B LDB m Av Bv hld hk
    (fun m X Y x y hx hy hd => axpyvAVX_side s M a X 1 Y 1 x y (by omega) hx hy hd) hA hB hd
  gemv m t M N nx ny a b A LDA X INCX Y INCY Av x y hM hN ex ey _ _ _ fx fy hg hA hX hY h1 h2 :=
    gemvF_law m t M N nx ny a b A LDA X INCX Y INCY Av x y hM hN ex ey fx fy hg hA hX hY h1 h2
  ger m cj M N a X INCX Y INCY A LDA x y Av fx fy hld _ hq hA hX hY h1 h2 :=
    gerF_law m cj M N a X INCX Y INCY A LDA x y Av fx.1 fy.1 hld hq hA hX hY h1 h2
  gemm m tA tB M N K rA cA rB cB a b A LDA B LDB C LDC Av Bv Cv erA ecA erB ecB hldA hldB hldC fA fB fC f4 m4 n4 k4
      hq hi hA hB hC dA dB := by
    obtain ⟨q1, q2, q3, q4⟩ := hq
    have pre : GemmPre m blk bAddr aAddr tA.char tB.char M N K A LDA Av B LDB Bv C LDC Cv :=
      { mc_pos := hb.mc.1, nc_pos := hb.nc.1, kc_pos := hb.kc.1, mc_even := hb.mc.2.2, nc_even := hb.nc.2.2
        matA := by rw [Op.ifIsT, Op.ifIsT, ← erA, ← ecA]; exact hA
        matB := by rw [Op.ifIsT, Op.ifIsT, ← erB, ← ecB]; exact hB
        matC := hC
        lda := by omega
        ldb := by omega
        ldc := hldC
        apartA := by rw [Op.ifIsT, Op.ifIsT, ← erA, ← ecA]; exact dA
        apartB := by rw [Op.ifIsT, Op.ifIsT, ← erB, ← ecB]; exact dB
        alignB := hb.alignB, alignA := hb.alignA
        freshB := fun a ha => hi a (.inl ha)
        freshA := fun a ha => hi a (.inr ha)
        freshAB := hb.apart
        kc32 := by have := hb.kc; unfold Fits32; omega
        m32 := by have := hb.mc; unfold Fits32; omega
        n32 := by have := hb.nc; unfold Fits32; omega
        k32 := by have := hb.kc; unfold Fits32; omega
        ldc32 := by unfold Fits32 at *; omega
        ldcN32 := by
          have h0 : 0 ≤ LDC := by omega
          have := hb.nc.1
          refine fC.mono (mul_nonneg (by omega) h0) (mul_le_mul_of_nonneg_right (by omega) h0)
        ldbN32 := q1, ldbK32 := q2, ldaM32 := q3, ldaK32 := q4 }
    obtain ⟨m', h1, h2⟩ := C22_gemm m blk bAddr aAddr junk tA.char tB.char M N K a b A LDA B LDB C LDC Av Bv Cv pre
    obtain ⟨m'', g1, g2, _⟩ := C23_gemm_frame m blk bAddr aAddr junk tA.char tB.char M N K a b A LDA B LDB C LDC Av Bv Cv pre
    have e : m'' = m' := by rw [g1] at h1; injection h1 with h1; injection h1
    subst e
    refine ⟨m'', h1, ?_, g2⟩
    simpa only [Op.opSpec_eq, Int.toNat_natCast] using h2

/-! ### The Fortran reference -/

theorem fortran_lawful : Lawful (R := R) fortranQuirks (fun _ => True) fortranLib where
  inv _ _ _ _ := trivial
  copyv m n X INCX Y INCY x y fx fy hX hY hd := wp_unit (copyvGen_wp fx.1 fy.1 fx.2.1 fy.2.1 hX hY hd)
  swapv m n X INCX Y INCY x y fx fy hX hY hd := wp_unit (swapvGen_wp fx.1 fy.1 fx.2.1 fy.2.1 hX hY hd)
  scalv m s n a X INCX x fx ha hX := wp_unit (scalvF_side s n a X INCX x fx.1 ha hX)
  axpyv m s n a X INCX Y INCY x y fx fy _ hX hY hd := wp_unit (axpyvF_side s n a X INCX Y INCY x y fx.1 fy.1 hX hY hd)
  dot m cj n X INCX Y INCY x y fx fy hX hY := by
    obtain ⟨v, _, _, h, e⟩ := C18_dot m cj n X INCX Y INCY x y fx.1 fy.1 fx.2.1 fy.2.1 fx.2.2 fy.2.2 hX hY
    rw [e] at h
    exact h
  scalm m s M N a A LDA Av hld _ ha hA := scalm_side s M N a A LDA m Av hld
    (fun m X x hx => scalvF_side s M a X 1 x (by omega) ha hx) hA
  axpym m s M N a A LDA B LDB Av Bv _ hld _ _ hk hA hB hd := axpym_side s M N a A LDA B LDB m Av Bv hld hk
    (fun m X Y x y hx hy hd => axpyvF_side s M a X 1 Y 1 x y (by omega) (by omega) hx hy hd) hA hB hd
  gemv m t M N nx ny a b A LDA X INCX Y INCY Av x y hM hN ex ey _ _ _ fx fy hg hA hX hY h1 h2 :=
    gemvF_law m t M N nx ny a b A LDA X INCX Y INCY Av x y hM hN ex ey fx fy hg hA hX hY h1 h2
  ger m cj M N a X INCX Y INCY A LDA x y Av fx fy hld _ hq hA hX hY h1 h2 :=
    gerF_law m cj M N a X INCX Y INCY A LDA x y Av fx.1 fy.1 hld hq hA hX hY h1 h2
  gemm m tA tB M N K rA cA rB cB a b A LDA B LDB C LDC Av Bv Cv erA ecA erB ecB hldA hldB hldC fA fB fC f4 m4 n4 k4
      hq hi hA hB hC dA dB :=
    C28_gemm_fortran m tA.char tB.char M N K a b A LDA B LDB C LDC Av Bv Cv _ _ (tA.opIs Av) (tB.opIs Bv)
      (fun _ => by simp only [Op.ifIsN, Int.toNat_natCast]; rw [← erA, ← ecA]; exact hA)
      (fun _ => by simp only [Op.ifIsN, Int.toNat_natCast]; rw [← erB, ← ecB]; exact hB)
      hC hldC
      (by simp only [Op.ifIsN, Int.toNat_natCast]; rw [← erA, ← ecA]; exact dA)
      (by simp only [Op.ifIsN, Int.toNat_natCast]; rw [← erB, ← ecB]; exact dB)

/-! ### The portable templates -/

theorem portable_lawful : Lawful (R := R) portableQuirks (fun _ => True) portableLib where
  inv _ _ _ _ := trivial
  copyv m n X INCX Y INCY x y fx fy hX hY hd := wp_unit (copyvGen_wp fx.1 fy.1 fx.2.1 fy.2.1 hX hY hd)
  swapv m n X INCX Y INCY x y fx fy hX hY hd := wp_unit (swapvGen_wp fx.1 fy.1 fx.2.1 fy.2.1 hX hY hd)
  scalv m s n a X INCX x fx _ hX := wp_unit (scalvGen_side s n a X INCX x fx.1 fx.2.1 hX)
  axpyv m s n a X INCX Y INCY x y fx fy ha hX hY hd :=
    wp_unit (axpyvGen_side s n a X INCX Y INCY x y fx.1 fy.1 fx.2.1 fy.2.1 ha hX hY hd)
  dot m cj n X INCX Y INCY x y fx fy hX hY := by
    obtain ⟨v, _, h, _, e⟩ := C18_dot m cj n X INCX Y INCY x y fx.1 fy.1 fx.2.1 fy.2.1 fx.2.2 fy.2.2 hX hY
    rw [e] at h
    exact h
  scalm m s M N a A LDA Av hld h4 ha hA := scalm_side s M N a A LDA m Av hld
    (fun m X x hx => scalvGen_side s M a X 1 x (by omega) (by unfold Fits32 at *; omega) hx) hA
  axpym m s M N a A LDA B LDB Av Bv _ hld _ h4 hk hA hB hd := axpym_side s M N a A LDA B LDB m Av Bv hld hk
    (fun m X Y x y hx hy hd => axpyvGen_side s M a X 1 Y 1 x y (by omega) (by omega) (by unfold Fits32 at *; omega)
      (by unfold Fits32 at *; omega) hk hx hy hd) hA hB hd
  gemv m t M N nx ny a b A LDA X INCX Y INCY Av x y hM hN enx eny fcol hld f4 fx fy hg hA hX hY hAY hXY := by
    have ex : (gemvLenX t.char M N).toNat = nx := by
      unfold gemvLenX; rw [Op.ifIsN, enx]; split <;> simp
    have ey : (gemvLenY t.char M N).toNat = ny := by
      unfold gemvLenY; rw [Op.ifIsN, eny]; split <;> simp
    have sy : ∀ n, vecStart Y n INCY = Y := fun n => by unfold vecStart; rw [if_neg (by have := fy.1; omega)]
    have := C30_gemv_portable m .h t.char M N a A LDA X INCX b Y INCY (fun i j => .h (Av i j)) x y _ (by omega) (by omega)
      { incX := fx.1
        incY := fy.1
        hY := by rw [ey]; exact hY
        hA := fun _ => kMatAt_h hA
        hX := fun _ => by rw [ex]; exact hX
        hAY := by rw [ey]; exact fun c hc hd => hAY c (kMatCell_h hc) hd
        hXY := by rw [ey, ex]; exact hXY
        fitA := fun i j hi hj => ⟨fcol j (by simp at hj; omega), by
          have h1 := fcol (j+1) (by simp at hj; omega)
          have h2 := fcol j (by simp at hj; omega)
          have : (((j+1:Nat):Int)) * LDA = j * LDA + LDA := by push_cast; ring
          simp at hi
          unfold Fits32 at *; omega⟩
        fitX := fun i hi => fits_col (by have := fx.1; omega) fx.2.1 (by omega)
        fitY := fun i hi => fits_col (by have := fy.1; omega) fy.2.1 (by omega) } (t.kOpIs Av) hg.1 hg.2
    unfold IsGemv at this
    rw [sy, ey, ex] at this
    exact this
  ger m cj M N a X INCX Y INCY A LDA x y Av fx fy hld f4 hq hA hX hY hXA hYA := by
    have hargs : GerKArgs m M N X INCX Y INCY A LDA x y Av :=
      { incX := fx.1, incY := fy.1, hA := hA, hX := hX, hY := hY, hld := hld, hXA := hXA, hYA := hYA
        fitA := fun i j hi hj => by
          simp at hi hj
          have h1 := fits_col (by omega) f4 (show j+1 ≤ N by omega)
          have h2 := fits_col (by omega) f4 (show j ≤ N by omega)
          have : (((j+1:Nat):Int)) * LDA = j * LDA + LDA := by push_cast; ring
          refine ⟨h2, ?_⟩
          unfold Fits32 at *; omega
        fitX := fun i hi => fits_col (by have := fx.1; omega) fx.2.1 (by simpa using hi)
        fitY := fun i hi => fits_col (by have := fy.1; omega) fy.2.1 (by simpa using hi) }
    cases cj
    · exact C31_geru_portable_partial m M N a X INCX Y INCY A LDA x y Av hargs hq.1 (by simpa using hq.2)
    · exact C31_gerc_portable_partial m M N a X INCX Y INCY A LDA x y Av hargs hq.1 (by simpa using hq.2)
  gemm m tA tB M N K rA cA rB cB a b A LDA B LDB C LDC Av Bv Cv erA ecA erB ecB hldA hldB hldC fA fB fC f4 m4 n4 k4
      hq hi hA hB hC dA dB :=
    C29_gemm_portable m .h tA.char tB.char M N K a b A LDA B LDB C LDC (fun i j => .h (Av i j)) Bv Cv _ _
      (tA.kOpIs Av) (tB.qOpIs Bv)
      { hA := fun _ => by simp only [Op.ifN, Int.toNat_natCast]; rw [← erA, ← ecA]; exact kMatAt_h hA
        hB := fun _ => by simp only [Op.ifN, Int.toNat_natCast]; rw [← erB, ← ecB]; exact hB
        hC := hC
        hld := hldC
        fitA := by
          simp only [Op.ifN, Int.toNat_natCast]; rw [← ecA]
          exact fun l hl => fits_col (by omega) fA (by omega)
        fitB := by
          simp only [Op.ifN, Int.toNat_natCast]; rw [← ecB]
          exact fun l hl => fits_col (by omega) fB (by omega)
        fitC := fun l hl => fits_col (by omega) fC (by simp at hl; omega)
        hAC := by
          simp only [Op.ifN, Int.toNat_natCast]; rw [← erA, ← ecA]
          exact fun c hc hd => dA c (kMatCell_h hc) hd
        hBC := by simp only [Op.ifN, Int.toNat_natCast]; rw [← erB, ← ecB]; exact dB } hq.1 hq.2

/-! ## C54 -/

section
variable {ι : Type} [DecidableEq ι]

/-- C54 for the shipped build: any list of calls leaves the matrices with the values the mathematics gives, returns
the mathematical values, changes nothing else in memory (so leaks and keeps no buffer), and does not fault. -/
theorem C54_simd {blk : Blk} {bAddr aAddr : Int} (hb : BufOk blk bAddr aAddr) (junk : Int → R) (L : Layout ι) (hL : L.Ok)
    (cs : List (Cmd ι R)) (m : Mem R) (s : State ι R) (hm : L.Holds m s) (hfree : BufFree blk bAddr aAddr m)
    (hp : Program (simdQuirks blk) L cs s) :
    ∃ m', execAll L (simdLib blk bAddr aAddr junk) cs m = .ok ((runSpec cs s).2.map Quat.ofH, m') ∧
      L.Holds m' (runSpec cs s).1 ∧ SameOutside L.All m m' :=
  (simd_lawful hb junk).run hL cs hm hfree hp

/-- C54 for the Fortran reference. -/
theorem C54_fortran (L : Layout ι) (hL : L.Ok) (cs : List (Cmd ι R)) (m : Mem R) (s : State ι R) (hm : L.Holds m s)
    (hp : Program fortranQuirks L cs s) :
    ∃ m', execAll L fortranLib cs m = .ok ((runSpec cs s).2.map Quat.ofH, m') ∧
      L.Holds m' (runSpec cs s).1 ∧ SameOutside L.All m m' :=
  fortran_lawful.run hL cs hm trivial hp

/-- C54 for the portable templates. -/
theorem C54_portable (L : Layout ι) (hL : L.Ok) (cs : List (Cmd ι R)) (m : Mem R) (s : State ι R) (hm : L.Holds m s)
    (hp : Program portableQuirks L cs s) :
    ∃ m', execAll L portableLib cs m = .ok ((runSpec cs s).2.map Quat.ofH, m') ∧
      L.Holds m' (runSpec cs s).1 ∧ SameOutside L.All m m' :=
  portable_lawful.run hL cs hm trivial hp

theorem Layout.mem_ext {L : Layout ι} {m m1 m2 : Mem R} {s : State ι R} (h1 : L.Holds m1 s) (h2 : L.Holds m2 s)
    (o1 : SameOutside L.All m m1) (o2 : SameOutside L.All m m2) : m1 = m2 := by
  funext a
  by_cases ha : L.All a
  · obtain ⟨v, i, j, hi, hj, hq⟩ := ha
    exact mem_eq_of_readQ (h1 v i j hi hj) (h2 v i j hi hj) hq
  · rw [o1 a ha, o2 a ha]

/-- C54: the three builds, and every choice of block sizes and buffers, leave the same memory and return the same
values. -/
theorem C54_builds_agree {blk : Blk} {bAddr aAddr : Int} (hb : BufOk blk bAddr aAddr) (junk : Int → R) (L : Layout ι)
    (hL : L.Ok) (cs : List (Cmd ι R)) (m : Mem R) (s : State ι R) (hm : L.Holds m s) (hfree : BufFree blk bAddr aAddr m)
    (h1 : Program (simdQuirks blk) L cs s) (h2 : Program fortranQuirks L cs s) (h3 : Program portableQuirks L cs s) :
    ∃ r, execAll L (simdLib blk bAddr aAddr junk) cs m = .ok r ∧ execAll L fortranLib cs m = .ok r ∧
      execAll L portableLib cs m = .ok r := by
  obtain ⟨m1, a1, b1, c1⟩ := C54_simd hb junk L hL cs m s hm hfree h1
  obtain ⟨m2, a2, b2, c2⟩ := C54_fortran L hL cs m s hm h2
  obtain ⟨m3, a3, b3, c3⟩ := C54_portable L hL cs m s hm h3
  rw [Layout.mem_ext b2 b1 c2 c1] at a2
  rw [Layout.mem_ext b3 b1 c3 c1] at a3
  exact ⟨_, a1, a2, a3⟩

/-- C54: where the matrices are stored, with which leading dimensions, and what memory holds elsewhere, makes no
difference to the values computed and returned. -/
theorem C54_layout_independent {blk blk' : Blk} {bAddr aAddr bAddr' aAddr' : Int} (hb : BufOk blk bAddr aAddr)
    (hb' : BufOk blk' bAddr' aAddr') (junk junk' : Int → R) (L L' : Layout ι) (hL : L.Ok) (hL' : L'.Ok)
    (cs : List (Cmd ι R)) (m m' : Mem R) (s : State ι R) (hm : L.Holds m s) (hm' : L'.Holds m' s)
    (hf : BufFree blk bAddr aAddr m) (hf' : BufFree blk' bAddr' aAddr' m')
    (hp : Program (simdQuirks blk) L cs s) (hp' : Program (simdQuirks blk') L' cs s) :
    ∃ rs m1 m1', execAll L (simdLib blk bAddr aAddr junk) cs m = .ok (rs, m1) ∧
      execAll L' (simdLib blk' bAddr' aAddr' junk') cs m' = .ok (rs, m1') ∧
      ∃ s', L.Holds m1 s' ∧ L'.Holds m1' s' := by
  obtain ⟨m1, a1, b1, _⟩ := C54_simd hb junk L hL cs m s hm hf hp
  obtain ⟨m2, a2, b2, _⟩ := C54_simd hb' junk' L' hL' cs m' s hm' hf' hp'
  exact ⟨_, _, _, a1, a2, _, b1, b2⟩
end

end

/-! ## Non-vacuity -/

/-- Three 2 × 2 matrices at addresses 0, 100, 200, leading dimension 3. -/
def exLayout : Layout (Fin 3) := ⟨fun v => 100 * v.val, fun _ => 3, fun _ => 2, fun _ => 2⟩

theorem exLayout_ok : exLayout.Ok where
  ld v := by simp [exLayout]
  apart v w h a := by
    rintro ⟨i, j, hi, hj, ha⟩ ⟨i', j', hi', hj', ha'⟩
    have h1 : i < 2 := hi
    have h2 : j < 2 := hj
    have h3 : i' < 2 := hi'
    have h4 : j' < 2 := hj'
    have e : v.val ≠ w.val := fun e => h (Fin.ext e)
    unfold InQ exLayout at *
    dsimp only at *
    omega
  small v := by simp [exLayout]

theorem exBuf : BufOk ⟨64, 512, 64⟩ 1000 200000 where
  mc := by decide
  nc := by decide
  kc := by decide
  alignB := by decide
  alignA := by decide
  apart := by
    intro a h1 h2
    have e1 : fixMod ((64:Int) * 64) 32 = 4096 := by decide
    have e2 : fixMod ((64:Int) * 512) 32 = 32768 := by decide
    simp only [InBuf] at h1 h2
    omega

/-- Row 1 of matrix 0 += (2 + 3k) * row 0; matrix 2 := (1+i) * matrix 0 ^H * matrix 1 + 5 * matrix 2; swap the first columns of
matrices 1 and 2; return the inner product of the second row of matrix 2 and the diagonal of matrix 0. -/
def exProg : List (Cmd (Fin 3) Int) :=
  [.axpy .left (.h ⟨2, 0, 0, 3⟩) ⟨0, 0, 0, 0, 1, 2⟩ ⟨0, 1, 0, 0, 1, 2⟩,
   .gemm .conjTrans .none (.z ⟨1, 1⟩) ⟨0, 0, 0, 2, 2⟩ ⟨1, 0, 0, 2, 2⟩ (.d 5) ⟨2, 0, 0, 2, 2⟩,
   .swap ⟨1, 0, 0, 1, 0, 2⟩ ⟨2, 0, 0, 1, 0, 2⟩,
   .dot true ⟨2, 1, 0, 0, 1, 2⟩ ⟨0, 0, 0, 1, 1, 2⟩]

theorem exLine (v : Fin 3) (r c dr dc : Nat) (h : 0 < dr + dc) (hdr : dr ≤ 2) (hdc : dc ≤ 2) (h1 : r + dr < 2)
    (h2 : c + dc < 2) : exLayout.LineIn ⟨v, r, c, dr, dc, 2⟩ where
  step := h
  dr := hdr
  dc := hdc
  mem k hk := by
    have hk' : k < 2 := hk
    dsimp only [exLayout]
    obtain rfl | rfl : k = 0 ∨ k = 1 := by omega
    · constructor <;> omega
    · constructor <;> omega

theorem exProg_typed (q : Quirks Int) (s : State (Fin 3) Int) (h1 : q.axpy (.h ⟨2, 0, 0, 3⟩))
    (h2 : q.gemm .conjTrans .none 2 2 2 (.z ⟨1, 1⟩) (.d 5) 3 3 3) : Program q exLayout exProg s := by
  have blk : ∀ v, exLayout.BlockIn ⟨v, 0, 0, 2, 2⟩ := fun v => ⟨by simp [exLayout], by simp [exLayout]⟩
  refine ⟨⟨exLine _ _ _ _ _ (by omega) (by omega) (by omega) (by omega) (by omega),
      exLine _ _ _ _ _ (by omega) (by omega) (by omega) (by omega) (by omega), rfl, ?_⟩, h1,
    ⟨blk _, blk _, blk _, rfl, rfl, rfl, ?_, ?_⟩, h2,
    ⟨exLine _ _ _ _ _ (by omega) (by omega) (by omega) (by omega) (by omega),
      exLine _ _ _ _ _ (by omega) (by omega) (by omega) (by omega) (by omega), rfl, ?_⟩, trivial,
    ⟨exLine _ _ _ _ _ (by omega) (by omega) (by omega) (by omega) (by omega),
      exLine _ _ _ _ _ (by omega) (by omega) (by omega) (by omega) (by omega), rfl⟩, trivial, trivial⟩
  · rintro v i j ⟨k, _, _, e, _⟩ ⟨k', _, _, e', _⟩
    dsimp only at e e'; omega
  · rintro v i j ⟨e, _⟩ ⟨e', _⟩
    rw [e] at e'; exact absurd e' (by decide)
  · rintro v i j ⟨e, _⟩ ⟨e', _⟩
    rw [e] at e'; exact absurd e' (by decide)
  · rintro v i j ⟨k, _, e, _⟩ ⟨k', _, e', _⟩
    rw [e] at e'; exact absurd e' (by decide)

/-- The matrices found in the memory whose cell `a` holds `a`. -/
def exState : State (Fin 3) Int := fun v i j =>
  let p : Int := 100 * v.val + 4 * (i + j * 3)
  ⟨p, p+1, p+2, p+3⟩

theorem exHolds : exLayout.Holds (memOf 0 400 (fun a => a)) exState := by
  intro v i j hi hj
  have h1 : i < 2 := hi
  have h2 : j < 2 := hj
  have := v.isLt
  exact readQ_memOf (p := 100 * v.val + 4 * (i + j * 3)) (by omega) (by omega)

example : ∃ r, execAll exLayout (simdLib ⟨64, 512, 64⟩ 1000 200000 (fun _ => 0)) exProg (memOf 0 400 (fun a => a)) = .ok r ∧
    execAll exLayout fortranLib exProg (memOf 0 400 (fun a => a)) = .ok r ∧
    execAll exLayout portableLib exProg (memOf 0 400 (fun a => a)) = .ok r :=
  C54_builds_agree exBuf _ exLayout exLayout_ok exProg _ exState exHolds
    (by
      intro a ha
      have e1 : fixMod ((64:Int) * 64) 32 = 4096 := by decide
      have e2 : fixMod ((64:Int) * 512) 32 = 32768 := by decide
      simp only [InBuf] at ha
      unfold memOf
      rw [if_neg (by omega)])
    (exProg_typed _ _ trivial (by simp [simdQuirks, Fits32])) (exProg_typed _ _ trivial trivial)
    (exProg_typed _ _ (by simp [portableQuirks, Scal.pureK]) ⟨Scal.plain_z _, Scal.plain_d _⟩)

end Haxx
