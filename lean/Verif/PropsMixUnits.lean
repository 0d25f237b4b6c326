import Verif.PropsMix
import Verif.PropsUnits2

/-!
# C64 for the header templates with real and complex operands

The four templates of C63 in two systems of units, and concrete operands (with any numbers in them).
-/

set_option linter.unusedSectionVars false

namespace Haxx
open Arith

section examples
variable {F : Type} [Arith F] [ArithEq F] (f : Int → F)

theorem rdK_df {a : Int} (h : 0 ≤ a ∧ a < 200) : readK (memOf 0 200 f) .d a = some (.d (f a)) := by
  simp only [readK, memOf, if_pos h]

theorem rdK_zf {a : Int} (h : 0 ≤ a ∧ a + 1 < 200) : readK (memOf 0 200 f) .z a = some (.z ⟨f a, f (a + 1)⟩) := by
  simp only [readK, memOf, if_pos (show 0 ≤ a ∧ a < 200 by omega), if_pos (show 0 ≤ a + 1 ∧ a + 1 < 200 by omega)]

/-- A 2×3 real A, a 3×2 complex B, a 2×2 quaternion C. -/
theorem gemmMArgs_example' (al : Scal F)  : GemmMArgs (memOf 0 200 f) .d .z 'N' 'N' 2 2 3 al 0 2 10 3 40 3
    (fun i j => .d (f ((0:Int) + 1 * ((i:Int) + j * 2))))
    (fun i j => let p : Int := 10 + 2 * ((i:Int) + j * 3); .z ⟨f p, f (p+1)⟩)
    (fun i j => let p : Int := 40 + 4 * ((i:Int) + j * 3); ⟨f p, f (p+1), f (p+2), f (p+3)⟩) where
  hA := by
    intro _ i j hi hj
    have h1 : i < 2 := hi
    have h2 : j < 3 := hj
    exact rdK_df f (a := 0 + 1 * ((i:Int) + j * 2)) (by omega)
  hB := by
    intro _ i j hi hj
    have h1 : i < 3 := hi
    have h2 : j < 2 := hj
    exact rdK_zf f (a := 10 + 2 * ((i:Int) + j * 3)) (by omega)
  hC := by
    intro i j hi hj
    have h1 : i < 2 := hi
    have h2 : j < 2 := hj
    exact readQ_memOf (by omega) (by omega)
  hld := by omega
  fitA := by intro l hl; have h1 : l < 3 := hl; unfold Fits32; omega
  fitB := by intro l hl; have h1 : l < 2 := hl; unfold Fits32; omega
  fitC := by intro l hl; have h1 : l < 2 := hl; unfold Fits32; omega
  hAC := by
    rintro c ⟨i, j, hi, hj, h⟩ ⟨i', j', hi', hj', h'⟩
    have h1 : i < 2 := hi
    have h2 : j < 3 := hj
    have h3 : i' < 2 := hi'
    have h4 : j' < 2 := hj'
    simp only [Kind.width] at h
    unfold InQ at *; omega
  hBC := by
    rintro c ⟨i, j, hi, hj, h⟩ ⟨i', j', hi', hj', h'⟩
    have h1 : i < 3 := hi
    have h2 : j < 2 := hj
    have h3 : i' < 2 := hi'
    have h4 : j' < 2 := hj'
    simp only [Kind.width] at h
    unfold InQ at *; omega

/-- A 2×3 complex A, a real x (increment 2), TRANS = 'C', a quaternion y. -/
theorem gemvMArgs_example' (al : Scal F)  : GemvMArgs (memOf 0 200 f) .z .d 'C' 2 3 al 0 4 60 2 90 1
    (fun i j => let p : Int := 0 + 2 * ((i:Int) + j * 4); .z ⟨f p, f (p+1)⟩)
    (fun i => .d (f (60 + 1 * ((i:Int) * 2))))
    (fun i => let p : Int := 90 + 4 * ((i:Int) * 1); ⟨f p, f (p+1), f (p+2), f (p+3)⟩) where
  incX := by omega
  incY := by omega
  hY := by
    intro i hi
    have h1 : i < 3 := hi
    exact readQ_memOf (by omega) (by omega)
  hA := by
    intro _ i j hi hj
    have h1 : i < 2 := hi
    have h2 : j < 3 := hj
    exact rdK_zf f (a := 0 + 2 * ((i:Int) + j * 4)) (by omega)
  hX := by
    intro _ i hi
    have h1 : i < 2 := hi
    exact rdK_df f (a := 60 + 1 * ((i:Int) * 2)) (by omega)
  hAY := by
    rintro c ⟨i, j, hi, hj, h⟩ ⟨i', hi', h'⟩
    have h1 : i < 2 := hi
    have h2 : j < 3 := hj
    have h3 : i' < 3 := hi'
    simp only [Kind.width] at h
    unfold InQ at *; omega
  hXY := by
    rintro c ⟨i, hi, h⟩ ⟨i', hi', h'⟩
    have h1 : i < 2 := hi
    have h3 : i' < 3 := hi'
    simp only [Kind.width] at h
    unfold InQ at *; omega
  fitA := by intro i j hi hj; have h1 : i < 2 := hi; have h2 : j < 3 := hj; unfold Fits32; omega
  fitX := by intro i hi; have h1 : i ≤ 2 := hi; unfold Fits32; omega
  fitY := by intro i hi; have h1 : i ≤ 3 := hi; unfold Fits32; omega

/-- A real x, a complex y, a 2×2 quaternion A. -/
theorem gerMArgs_example'  : GerMArgs (memOf 0 200 f) .d .z 2 2 0 3 20 1 60 2
    (fun i => .d (f (0 + 1 * ((i:Int) * 3))))
    (fun i => let p : Int := 20 + 2 * ((i:Int) * 1); .z ⟨f p, f (p+1)⟩)
    (fun i j => let p : Int := 60 + 4 * ((i:Int) + j * 2); ⟨f p, f (p+1), f (p+2), f (p+3)⟩) where
  incX := by omega
  incY := by omega
  hA := by
    intro i j hi hj
    have h1 : i < 2 := hi
    have h2 : j < 2 := hj
    exact readQ_memOf (by omega) (by omega)
  hX := by
    intro i hi
    have h1 : i < 2 := hi
    exact rdK_df f (a := 0 + 1 * ((i:Int) * 3)) (by omega)
  hY := by
    intro i hi
    have h1 : i < 2 := hi
    exact rdK_zf f (a := 20 + 2 * ((i:Int) * 1)) (by omega)
  hld := by omega
  hXA := by
    rintro c ⟨i, hi, h⟩ ⟨i', j', hi', hj', h'⟩
    have h1 : i < 2 := hi
    have h3 : i' < 2 := hi'
    have h4 : j' < 2 := hj'
    simp only [Kind.width] at h
    unfold InQ at *; omega
  hYA := by
    rintro c ⟨i, hi, h⟩ ⟨i', j', hi', hj', h'⟩
    have h1 : i < 2 := hi
    have h3 : i' < 2 := hi'
    have h4 : j' < 2 := hj'
    simp only [Kind.width] at h
    unfold InQ at *; omega
  fitA := by intro i j hi hj; have h1 : i < 2 := hi; have h2 : j < 2 := hj; unfold Fits32; omega
  fitX := by intro i hi; have h1 : i ≤ 2 := hi; unfold Fits32; omega
  fitY := by intro i hi; have h1 : i ≤ 2 := hi; unfold Fits32; omega

/-- A real x of length 3 and a quaternion y. -/
theorem axpyvK_example'  : KVecAt (memOf 0 200 f) .d 0 2 3 (fun i => .d (f (0 + 1 * ((i:Int) * 2)))) ∧
    VecAt (memOf 0 200 f) 20 1 3 (fun i => let p : Int := 20 + 4 * ((i:Int) * 1); ⟨f p, f (p+1), f (p+2), f (p+3)⟩) ∧
    Apart (KVecCell .d 0 2 3) (VecCell 20 1 3) := by
  refine ⟨?_, ?_, ?_⟩
  · intro i hi; exact rdK_df f (a := 0 + 1 * ((i:Int) * 2)) (by omega)
  · intro i hi; exact readQ_memOf (by omega) (by omega)
  · rintro c ⟨i, hi, h⟩ ⟨i', hi', h'⟩
    simp only [Kind.width] at h
    unfold InQ at *; omega

end examples

namespace Units
variable {F F' G : Type} [Arith F] [ArithEq F] [Arith F'] [ArithEq F'] [CommMonoid G]

/-- vectors of scalars of any type: the first `n` elements of the second are those of the first in units `g` -/
def KVec (U : Units F F' G) (g : G) (n : ℕ) (x : ℕ → Scal F) (x' : ℕ → Scal F') : Prop := ∀ i, i < n → U.SD g (x i) (x' i)

variable {U : Units F F' G} {g h r : G} {c : Quat F} {c' : Quat F'} {al be : Scal F} {al' be' : Scal F'}
  {as ys : ℕ → Scal F} {as' ys' : ℕ → Scal F'}

theorem Q.pDotK (n : ℕ) (hx : ∀ k, k < n → U.S g (as k) (as' k)) (hy : ∀ k, k < n → U.S h (ys k) (ys' k)) :
    U.Q (g * h) (pDotK as ys n) (pDotK as' ys' n) := by
  induction n with
  | zero => exact ⟨zr, zr, zr, zr⟩
  | succ n ih =>
    exact Q.addTo (ih (fun k hk => hx k (by omega)) (fun k hk => hy k (by omega))) (S.mul (hx n (by omega)) (hy n (by omega)))

theorem Q.pAccK (n : ℕ) (hα : U.S r al al') (J : U.Q (r * g * h) c c') (hx : ∀ k, k < n → U.S g (as k) (as' k))
    (hy : ∀ k, k < n → U.S h (ys k) (ys' k)) : U.Q (r * g * h) (pAccK al as ys c n) (pAccK al' as' ys' c' n) := by
  induction n with
  | zero => exact J
  | succ n ih =>
    exact Q.addTo (ih (fun k hk => hx k (by omega)) (fun k hk => hy k (by omega)))
      (S.mul (S.mul hα (hx n (by omega))) (hy n (by omega)))

theorem Q.pAxpysK (n : ℕ) (hα : U.S r al al') (J : U.Q (r * g * h) c c') (hx : ∀ k, k < n → U.S g (as k) (as' k))
    (hy : ∀ k, k < n → U.S h (ys k) (ys' k)) : U.Q (r * g * h) (pAxpysK al as ys c n) (pAxpysK al' as' ys' c' n) := by
  induction n with
  | zero => exact J
  | succ n ih =>
    have A := (Q.mulL (hx n (by omega)) (S.toQuat (S.mul hα (hy n (by omega))))).cast (show g * (r * h) = r * g * h by
      rw [mul_left_comm, mul_assoc])
    have C := S.mul (S.comm hα (hx n (by omega))) (hy n (by omega))
    exact ((ih (fun k hk => hx k (by omega)) (fun k hk => hy k (by omega))).addAssign A).addTo C

theorem Q.pGemmK (tA : Char) (K : Int) (hα : U.SD r al al') (hβ : U.SD 1 be be') (J : U.Q (r * g * h) c c')
    (hx : ∀ k, k < K.toNat → U.S g (as k) (as' k)) (hy : ∀ k, k < K.toNat → U.S h (ys k) (ys' k)) :
    U.Q (r * g * h) (pGemmK tA al be K as ys c) (pGemmK tA al' be' K as' ys' c') := by
  have B := (Q.mulL hβ.s J).cast (one_mul _)
  unfold Haxx.pGemmK
  rw [hα.eqZero, hβ.eqOne, hβ.eqZero]
  split
  · exact J
  · split
    · split
      · exact Q.zero
      · exact B
    · split
      · exact Q.pAccK _ hα.s (Q.pBeta hβ J) hx hy
      · have A := (Q.mulL hα.s (Q.pDotK _ hx hy)).cast (mul_assoc _ _ _).symm
        unfold pStore
        rw [hβ.eqZero]
        split
        · exact A
        · exact A.addAssign B

theorem Q.pGemvK (t : Char) (K : ℕ) (hα : U.SD r al al') (hβ : U.SD 1 be be') (J : U.Q (r * g * h) c c')
    (hx : ∀ k, k < K → U.S g (as k) (as' k)) (hy : ∀ k, k < K → U.S h (ys k) (ys' k)) :
    U.Q (r * g * h) (pGemvK t al be K as ys c) (pGemvK t al' be' K as' ys' c') := by
  unfold Haxx.pGemvK
  rw [hα.eqZero, hβ.eqOne]
  split
  · exact J
  · split
    · exact Q.pScale hβ J
    · split
      · exact Q.pAxpysK _ hα.s (Q.pScale hβ J) hx hy
      · exact (Q.pScale hβ J).addAssign ((Q.mulL hα.s (Q.pDotK _ hx hy)).cast (mul_assoc _ _ _).symm)

theorem Q.pGerK {x y : Scal F} {x' y' : Scal F'} (conjY : Bool) (hα : U.SD r al al') (H : U.S g x x') (K : U.SD h y y')
    (J : U.Q (r * g * h) c c') : U.Q (r * g * h) (pGerK conjY al x y c) (pGerK conjY al' x' y' c') := by
  unfold Haxx.pGerK
  rw [hα.eqZero, K.eqZero]
  split
  · exact J
  · split
    · refine J.addTo (S.mul (S.mul hα.s H) ?_)
      cases conjY
      · exact K.s
      · exact K.conj.s
    · exact J

end Units

open Haxx.Units
variable {F F' G : Type} [Arith F] [ArithEq F] [Arith F'] [ArithEq F'] [CommMonoid G]
variable (U : Units F F' G) (r g h : G)

/-- C64, the AXPYV template with x real, complex or quaternion. -/
theorem C64_axpyv_mixed (m : Mem F) (n : Mem F') (k : Kind) (SIDE : Char) (N X INCX Y INCY X' INCX' Y' INCY' : Int)
    (ALPHA : Scal F) (ALPHA' : Scal F') (x : Nat → Scal F) (y : Nat → Quat F) (x' : Nat → Scal F') (y' : Nat → Quat F')
    (hX : KVecAt m k X INCX N.toNat x) (hX' : KVecAt n k X' INCX' N.toNat x')
    (hY : VecAt m Y INCY N.toNat y) (hY' : VecAt n Y' INCY' N.toNat y')
    (ix : 0 < INCX) (iy : 0 < INCY) (ix' : 0 < INCX') (iy' : 0 < INCY')
    (fx : Fits32 (N * INCX)) (fy : Fits32 (N * INCY)) (fx' : Fits32 (N * INCX')) (fy' : Fits32 (N * INCY'))
    (hd : Apart (KVecCell k X INCX N.toNat) (VecCell Y INCY N.toNat))
    (hd' : Apart (KVecCell k X' INCX' N.toNat) (VecCell Y' INCY' N.toNat))
    (hα : U.SD r ALPHA ALPHA') (hx : U.KVec g N.toNat x x') (hy : U.Vec (r * g) N.toNat y y') :
    ∃ m' n' v v', axpyvGenK k SIDE N ALPHA X INCX Y INCY m = .ok ((), m') ∧
      axpyvGenK k SIDE N ALPHA' X' INCX' Y' INCY' n = .ok ((), n') ∧
      VecAt m' Y INCY N.toNat v ∧ VecAt n' Y' INCY' N.toNat v' ∧ U.VecR (r * g) N.toNat v v' := by
  obtain ⟨m', a1, a2, _⟩ := axpyvGenK_bits m k SIDE N X INCX Y INCY ALPHA x y ix iy fx fy hX hY hd
  obtain ⟨n', b1, b2, _⟩ := axpyvGenK_bits n k SIDE N X' INCX' Y' INCY' ALPHA' x' y' ix' iy' fx' fy' hX' hY' hd'
  refine ⟨m', n', _, _, a1, b1, a2, b2, fun i hi => ?_⟩
  unfold pAxpyvK
  rw [hα.eqZero]
  split
  · exact (hy i hi).q
  · split
    · exact (hy i hi).q.addTo ((mul_comm g r) ▸ S.mul (hx i hi).s hα.s)
    · exact (hy i hi).q.addTo (S.mul hα.s (hx i hi).s)

/-- C64, the GEMM template with A and B real, complex or quaternion. -/
theorem C64_gemm_mixed (m : Mem F) (n : Mem F') (k kB : Kind) (tA tB : Char) (M N K : Int)
    (ALPHA BETA : Scal F) (ALPHA' BETA' : Scal F') (A LDA B LDB C LDC A' LDA' B' LDB' C' LDC' : Int)
    (Av Bv : Nat → Nat → Scal F) (Cv : Nat → Nat → Quat F) (Av' Bv' : Nat → Nat → Scal F') (Cv' : Nat → Nat → Quat F')
    (p : GemmMArgs m k kB tA tB M N K ALPHA A LDA B LDB C LDC Av Bv Cv)
    (p' : GemmMArgs n k kB tA tB M N K ALPHA' A' LDA' B' LDB' C' LDC' Av' Bv' Cv')
    (hα : U.SD r ALPHA ALPHA') (hβ : U.SD 1 BETA BETA')
    (hA : U.KMat g (if tA = 'N' then M else K).toNat (if tA = 'N' then K else M).toNat Av Av')
    (hB : U.KMat h (if tB = 'N' then K else N).toNat (if tB = 'N' then N else K).toNat Bv Bv')
    (hC : U.Mat (r * g * h) M.toNat N.toNat Cv Cv') :
    ∃ m' n' V V', gemmGenK k kB tA tB M N K ALPHA A LDA B LDB BETA C LDC m = .ok ((), m') ∧
      gemmGenK k kB tA tB M N K ALPHA' A' LDA' B' LDB' BETA' C' LDC' n = .ok ((), n') ∧
      MatAt m' C LDC M.toNat N.toNat V ∧ MatAt n' C' LDC' M.toNat N.toNat V' ∧ U.MatR (r * g * h) M.toNat N.toNat V V' := by
  obtain ⟨m', a1, a2, _⟩ := gemmGenK_bits m k kB tA tB M N K ALPHA BETA A LDA B LDB C LDC Av Bv Cv p
  obtain ⟨n', b1, b2, _⟩ := gemmGenK_bits n k kB tA tB M N K ALPHA' BETA' A' LDA' B' LDB' C' LDC' Av' Bv' Cv' p'
  refine ⟨m', n', _, _, a1, b1, a2, b2, fun i j hi hj => Q.pGemmK _ _ hα hβ (hC i j hi hj).q (fun l hl => ?_) (fun l hl => ?_)⟩
  · unfold opKE
    split
    · rename_i ht; exact (hA i l (by rw [if_pos ht]; exact hi) (by rw [if_pos ht]; exact hl)).s
    · rename_i ht
      have := hA l i (by rw [if_neg ht]; exact hl) (by rw [if_neg ht]; exact hi)
      split
      · exact this.conj.s
      · exact this.s
  · unfold opKE
    split
    · rename_i ht; exact (hB l j (by rw [if_pos ht]; exact hl) (by rw [if_pos ht]; exact hj)).s
    · rename_i ht
      have := hB j l (by rw [if_neg ht]; exact hj) (by rw [if_neg ht]; exact hl)
      split
      · exact this.conj.s
      · exact this.s

/-- C64, the GEMV template with A and x real, complex or quaternion. -/
theorem C64_gemv_mixed (m : Mem F) (n : Mem F') (k kX : Kind) (t : Char) (M N : Int) (ALPHA BETA : Scal F) (ALPHA' BETA' : Scal F')
    (A LDA X INCX Y INCY A' LDA' X' INCX' Y' INCY' : Int) (a : Nat → Nat → Scal F) (x : Nat → Scal F) (y : Nat → Quat F)
    (a' : Nat → Nat → Scal F') (x' : Nat → Scal F') (y' : Nat → Quat F') (hM : M ≠ 0) (hN : N ≠ 0)
    (p : GemvMArgs m k kX t M N ALPHA A LDA X INCX Y INCY a x y) (p' : GemvMArgs n k kX t M N ALPHA' A' LDA' X' INCX' Y' INCY' a' x' y')
    (hα : U.SD r ALPHA ALPHA') (hβ : U.SD 1 BETA BETA') (hA : U.KMat g M.toNat N.toNat a a')
    (hx : U.KVec h (if t = 'N' then N else M).toNat x x') (hy : U.Vec (r * g * h) (if t = 'N' then M else N).toNat y y') :
    ∃ m' n' v v', gemvGenK k kX t M N ALPHA A LDA X INCX BETA Y INCY m = .ok ((), m') ∧
      gemvGenK k kX t M N ALPHA' A' LDA' X' INCX' BETA' Y' INCY' n = .ok ((), n') ∧
      VecAt m' Y INCY (if t = 'N' then M else N).toNat v ∧ VecAt n' Y' INCY' (if t = 'N' then M else N).toNat v' ∧
      U.VecR (r * g * h) (if t = 'N' then M else N).toNat v v' := by
  obtain ⟨m', a1, a2, _⟩ := gemvGenK_bits m k kX t M N ALPHA A LDA X INCX BETA Y INCY a x y hM hN p
  obtain ⟨n', b1, b2, _⟩ := gemvGenK_bits n k kX t M N ALPHA' A' LDA' X' INCX' BETA' Y' INCY' a' x' y' hM hN p'
  refine ⟨m', n', _, _, a1, b1, a2, b2, fun i hi => Q.pGemvK _ _ hα hβ (hy i hi).q (fun l hl => ?_) (fun l hl => (hx l hl).s)⟩
  unfold opVE
  split
  · rename_i ht; rw [if_pos ht] at hi hl; exact (hA i l hi hl).s
  · rename_i ht
    rw [if_neg ht] at hi hl
    split
    · exact (hA l i hl hi).s
    · exact (hA l i hl hi).conj.s

/-- C64, the GERU (`conjY = false`) and GERC templates with x and y real, complex or quaternion. -/
theorem C64_ger_mixed (kX kY : Kind) (conjY : Bool) (m : Mem F) (n : Mem F') (M N : Int) (ALPHA : Scal F) (ALPHA' : Scal F')
    (X INCX Y INCY A LDA X' INCX' Y' INCY' A' LDA' : Int) (x y : Nat → Scal F) (a : Nat → Nat → Quat F)
    (x' y' : Nat → Scal F') (a' : Nat → Nat → Quat F')
    (p : GerMArgs m kX kY M N X INCX Y INCY A LDA x y a) (p' : GerMArgs n kX kY M N X' INCX' Y' INCY' A' LDA' x' y' a')
    (hα : U.SD r ALPHA ALPHA') (hx : U.KVec g M.toNat x x') (hy : U.KVec h N.toNat y y')
    (hA : U.Mat (r * g * h) M.toNat N.toNat a a') :
    ∃ m' n' v v', gerGenK kX kY conjY M N ALPHA X INCX Y INCY A LDA m = .ok ((), m') ∧
      gerGenK kX kY conjY M N ALPHA' X' INCX' Y' INCY' A' LDA' n = .ok ((), n') ∧
      MatAt m' A LDA M.toNat N.toNat v ∧ MatAt n' A' LDA' M.toNat N.toNat v' ∧ U.MatR (r * g * h) M.toNat N.toNat v v' := by
  obtain ⟨m', a1, a2, _⟩ := gerGenK_bits kX kY conjY m M N ALPHA X INCX Y INCY A LDA x y a p
  obtain ⟨n', b1, b2, _⟩ := gerGenK_bits kX kY conjY n M N ALPHA' X' INCX' Y' INCY' A' LDA' x' y' a' p'
  exact ⟨m', n', _, _, a1, b1, a2, b2, fun i j hi hj => Q.pGerK _ hα (hx i hi).s (hy j hj) (hA i j hi hj).q⟩

section calls
open F64
variable {fused : Bool} (f : Int → F64 fused) (al : Quat (F64 fused)) (az : Cplx (F64 fused))

local notation "f'" => fun a => sgn (-1) (f a)

/-- Every number in memory changed in sign. -/
example := C64_axpyv_mixed (ieeeSigns fused) 1 (-1) _ _ .d 'R' 3 0 2 20 1 0 2 20 1 (.h al) (.h al) _ _ _ _ (axpyvK_example' f).1
  (axpyvK_example' f').1 (axpyvK_example' f).2.1 (axpyvK_example' f').2.1 (by decide) (by decide) (by decide) (by decide)
  (by unfold Fits32; decide) (by unfold Fits32; decide) (by unfold Fits32; decide) (by unfold Fits32; decide)
  (axpyvK_example' f).2.2 (axpyvK_example' f').2.2 (signs_one (.h al)) (fun _ _ => signs_SD (-1) _) (fun _ _ => signs_QD (1 * -1) _)

example := C64_gemm_mixed (ieeeSigns fused) (-1) (-1) (-1) _ _ .d .z 'N' 'N' 2 2 3 (.z az) (.d (f 3)) _ (.d (f 3)) 0 2 10 3 40 3 0 2 10 3 40 3 _ _ _ _ _ _
  (gemmMArgs_example' f _) (gemmMArgs_example' f' _) (signs_SD (-1) (.z az)) (signs_one (.d (f 3))) (fun _ _ _ _ => signs_SD (-1) _)
  (fun _ _ _ _ => signs_SD (-1) _) (fun _ _ _ _ => signs_QD (-1 * -1 * -1) _)

example := C64_gemv_mixed (ieeeSigns fused) (-1) (-1) (-1) _ _ .z .d 'C' 2 3 (.h al) (.z az) _ (.z az) 0 4 60 2 90 1 0 4 60 2 90 1 _ _ _ _ _ _
  (by decide) (by decide) (gemvMArgs_example' f _) (gemvMArgs_example' f' _) (signs_SD (-1) (.h al)) (signs_one (.z az)) (fun _ _ _ _ => signs_SD (-1) _)
  (fun _ _ => signs_SD (-1) _) (fun _ _ => signs_QD (-1 * -1 * -1) _)

example := C64_ger_mixed (ieeeSigns fused) (-1) (-1) (-1) .d .z true _ _ 2 2 (.h al) _ 0 3 20 1 60 2 0 3 20 1 60 2 _ _ _ _ _ _
  (gerMArgs_example' f) (gerMArgs_example' f') (signs_SD (-1) (.h al)) (fun _ _ => signs_SD (-1) _) (fun _ _ => signs_SD (-1) _)
  (fun _ _ _ _ => signs_QD (-1 * -1 * -1) _)
end calls

end Haxx
