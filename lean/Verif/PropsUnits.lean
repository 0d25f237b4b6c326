import Verif.Units
import Verif.PropsExact

/-!
# C64: a change of units changes the results by exactly that unit

Run a routine twice, the second time with every operand expressed in another unit: ALPHA multiplied by `r`, A (or x) by `g`,
B (or y) by `h`, C by `r*g*h`, BETA as it was. Both calls finish, and every result of the second is the one of the first
multiplied by `r*g*h`, with no rounding difference at all. The unit may be a sign (`ieeeSigns`: full IEEE double precision,
whatever the data) or a power of two (`pow2Units`: as long as neither run leaves the normal range); see UnitsInst.lean.
The two calls may use different addresses, strides, leading dimensions, GEMM block sizes and scratch memory.
-/

set_option linter.unusedSectionVars false

namespace Haxx
open Arith

namespace Units
variable {F F' G : Type} [Arith F] [ArithEq F] [Arith F'] [ArithEq F'] [CommMonoid G]

/-- the first `n` elements of the second vector are those of the first in units `g` -/
def Vec (U : Units F F' G) (g : G) (n : ℕ) (x : ℕ → Quat F) (x' : ℕ → Quat F') : Prop := ∀ i, i < n → U.QD g (x i) (x' i)
/-- the same for matrices -/
def Mat (U : Units F F' G) (g : G) (r c : ℕ) (X : ℕ → ℕ → Quat F) (X' : ℕ → ℕ → Quat F') : Prop :=
  ∀ i j, i < r → j < c → U.QD g (X i j) (X' i j)
/-- the same for matrices of scalars of any type -/
def KMat (U : Units F F' G) (g : G) (r c : ℕ) (X : ℕ → ℕ → Scal F) (X' : ℕ → ℕ → Scal F') : Prop :=
  ∀ i j, i < r → j < c → U.SD g (X i j) (X' i j)
/-- results: the first `n` elements -/
def VecR (U : Units F F' G) (g : G) (n : ℕ) (x : ℕ → Quat F) (x' : ℕ → Quat F') : Prop := ∀ i, i < n → U.Q g (x i) (x' i)
/-- results: a matrix -/
def MatR (U : Units F F' G) (g : G) (r c : ℕ) (X : ℕ → ℕ → Quat F) (X' : ℕ → ℕ → Quat F') : Prop :=
  ∀ i j, i < r → j < c → U.Q g (X i j) (X' i j)

end Units

open Haxx.Units
variable {F F' G : Type} [Arith F] [ArithEq F] [Arith F'] [ArithEq F'] [CommMonoid G]
variable (U : Units F F' G) (r g h : G)

/-! ## SIMD build -/

/-- C64, SCALV. -/
theorem C64_scalv (m : Mem F) (n : Mem F') (SIDE : Char) (N X INCX X' INCX' : Int) (ALPHA : Scal F) (ALPHA' : Scal F')
    (x : Nat → Quat F) (x' : Nat → Quat F') (hX : VecAt m X INCX N.toNat x) (hX' : VecAt n X' INCX' N.toNat x')
    (hinc : INCX ≠ 0) (hinc' : INCX' ≠ 0) (hα : U.SD r ALPHA ALPHA') (hx : U.Vec g N.toNat x x') :
    ∃ m' n' v v', scalvAVX SIDE N ALPHA X INCX m = .ok ((), m') ∧ scalvAVX SIDE N ALPHA' X' INCX' n = .ok ((), n') ∧
      VecAt m' X INCX N.toNat v ∧ VecAt n' X' INCX' N.toNat v' ∧ U.VecR (r * g) N.toNat v v' := by
  obtain ⟨_, m', a1, a2, _⟩ := scalvAVX_wp (SIDE := SIDE) (ALPHA := ALPHA) hX (Or.inl hinc)
  obtain ⟨_, n', b1, b2, _⟩ := scalvAVX_wp (SIDE := SIDE) (ALPHA := ALPHA') hX' (Or.inl hinc')
  exact ⟨m', n', _, _, a1, b1, a2, b2, fun i hi => Q.scalOp _ hα.s (hx i hi).q⟩

/-- C64, AXPYV. -/
theorem C64_axpyv (m : Mem F) (n : Mem F') (SIDE : Char) (N X INCX Y INCY X' INCX' Y' INCY' : Int) (ALPHA : Scal F) (ALPHA' : Scal F')
    (x y : Nat → Quat F) (x' y' : Nat → Quat F') (hX : VecAt m X INCX N.toNat x) (hX' : VecAt n X' INCX' N.toNat x')
    (hY : VecAt m Y INCY N.toNat y) (hY' : VecAt n Y' INCY' N.toNat y') (hinc : INCY ≠ 0) (hinc' : INCY' ≠ 0)
    (hd : Apart (VecCell X INCX N.toNat) (VecCell Y INCY N.toNat))
    (hd' : Apart (VecCell X' INCX' N.toNat) (VecCell Y' INCY' N.toNat))
    (hα : U.SD r ALPHA ALPHA') (hx : U.Vec g N.toNat x x') (hy : U.Vec (r * g) N.toNat y y') :
    ∃ m' n' v v', axpyvAVX SIDE N ALPHA X INCX Y INCY m = .ok ((), m') ∧
      axpyvAVX SIDE N ALPHA' X' INCX' Y' INCY' n = .ok ((), n') ∧
      VecAt m' Y INCY N.toNat v ∧ VecAt n' Y' INCY' N.toNat v' ∧ U.VecR (r * g) N.toNat v v' := by
  obtain ⟨_, m', a1, a2, _⟩ := axpyvAVX_wp (SIDE := SIDE) (ALPHA := ALPHA) hX hY (Or.inl hinc) hd
  obtain ⟨_, n', b1, b2, _⟩ := axpyvAVX_wp (SIDE := SIDE) (ALPHA := ALPHA') hX' hY' (Or.inl hinc') hd'
  exact ⟨m', n', _, _, a1, b1, a2, b2, fun i hi => Q.axpyOp _ hα.s (hx i hi).q (hy i hi).q⟩

/-- C64, DOTU (`conj = false`) and DOTC. -/
theorem C64_dot (conj : Bool) (m : Mem F) (n : Mem F') (N X INCX Y INCY X' INCX' Y' INCY' : Int)
    (x y : Nat → Quat F) (x' y' : Nat → Quat F') (hX : VecAt m X INCX N.toNat x) (hX' : VecAt n X' INCX' N.toNat x')
    (hY : VecAt m Y INCY N.toNat y) (hY' : VecAt n Y' INCY' N.toNat y')
    (fx : Fits32 (4 * INCX)) (fy : Fits32 (4 * INCY)) (fx' : Fits32 (4 * INCX')) (fy' : Fits32 (4 * INCY'))
    (hx : U.Vec g N.toNat x x') (hy : U.Vec h N.toNat y y') :
    ∃ v v', dotAVX conj N X INCX Y INCY m = .ok (v, m) ∧ dotAVX conj N X' INCX' Y' INCY' n = .ok (v', n) ∧
      U.Q (g * h) v v' := by
  obtain ⟨_, _, a, rfl, rfl⟩ := dotAVX_wp (conj := conj) hX hY (fun _ => fx) (fun _ => fy)
  obtain ⟨_, _, b, rfl, rfl⟩ := dotAVX_wp (conj := conj) hX' hY' (fun _ => fx') (fun _ => fy')
  exact ⟨_, _, a, b, Q.dotVal conj _ (fun k hk => (hx k hk).q) (fun k hk => (hy k hk).q)⟩

/-- C64, GEMM. -/
theorem C64_gemm (m : Mem F) (n : Mem F') (blk blk' : Blk) (bAddr aAddr bAddr' aAddr' : Int) (junk : Int → F) (junk' : Int → F')
    (TRANSA TRANSB : Char) (M N K : Int) (ALPHA BETA : Scal F) (ALPHA' BETA' : Scal F')
    (A LDA B LDB C LDC A' LDA' B' LDB' C' LDC' : Int) (Av Bv Cv : Nat → Nat → Quat F) (Av' Bv' Cv' : Nat → Nat → Quat F')
    (p : GemmPre m blk bAddr aAddr TRANSA TRANSB M.toNat N.toNat K.toNat A LDA Av B LDB Bv C LDC Cv)
    (p' : GemmPre n blk' bAddr' aAddr' TRANSA TRANSB M.toNat N.toNat K.toNat A' LDA' Av' B' LDB' Bv' C' LDC' Cv')
    (hα : U.SD r ALPHA ALPHA') (hβ : U.SD 1 BETA BETA')
    (hA : U.Mat g (if isT TRANSA then K else M).toNat (if isT TRANSA then M else K).toNat Av Av')
    (hB : U.Mat h (if isT TRANSB then N else K).toNat (if isT TRANSB then K else N).toNat Bv Bv')
    (hC : U.Mat (r * g * h) M.toNat N.toNat Cv Cv') :
    ∃ m' n' V V', gemmAVX blk bAddr aAddr junk TRANSA TRANSB M N K ALPHA A LDA B LDB BETA C LDC m = .ok ((), m') ∧
      gemmAVX blk' bAddr' aAddr' junk' TRANSA TRANSB M N K ALPHA' A' LDA' B' LDB' BETA' C' LDC' n = .ok ((), n') ∧
      MatAt m' C LDC M.toNat N.toNat V ∧ MatAt n' C' LDC' M.toNat N.toNat V' ∧ U.MatR (r * g * h) M.toNat N.toNat V V' := by
  obtain ⟨_, m', a1, a2, _⟩ := gemmAVX_wp (junk := junk) (ALPHA := ALPHA) (BETA := BETA) p
  obtain ⟨_, n', b1, b2, _⟩ := gemmAVX_wp (junk := junk') (ALPHA := ALPHA') (BETA := BETA') p'
  rw [gemmAVX_clamp p.mc_pos p.nc_pos p.kc_pos, gemmAVX_clamp p'.mc_pos p'.nc_pos p'.kc_pos]
  refine ⟨m', n', _, _, a1, b1, a2, b2, fun i j hi hj => Q.gemmElt _ _ _ hα.s hβ.s (hC i j hi hj).q (fun k hk => ?_) (fun k hk => ?_)⟩
  · unfold opE
    split
    · rename_i ht; exact (hA k i (by rw [if_pos ht]; exact hk) (by rw [if_pos ht]; exact hi)).q
    · rename_i ht; exact (hA i k (by rw [if_neg ht]; exact hi) (by rw [if_neg ht]; exact hk)).q
  · unfold opE
    split
    · rename_i ht; exact (hB j k (by rw [if_pos ht]; exact hj) (by rw [if_pos ht]; exact hk)).q
    · rename_i ht; exact (hB k j (by rw [if_neg ht]; exact hk) (by rw [if_neg ht]; exact hj)).q

/-! ## Portable build -/

/-- C64, portable SCALV. -/
theorem C64_scalv_portable (m : Mem F) (n : Mem F') (SIDE : Char) (N X INCX X' INCX' : Int) (ALPHA : Scal F) (ALPHA' : Scal F')
    (x : Nat → Quat F) (x' : Nat → Quat F') (hX : VecAt m X INCX N.toNat x) (hX' : VecAt n X' INCX' N.toNat x')
    (hinc : 0 < INCX) (hinc' : 0 < INCX') (fx : Fits32 (N * INCX)) (fx' : Fits32 (N * INCX'))
    (hα : U.SD r ALPHA ALPHA') (hx : U.Vec g N.toNat x x') :
    ∃ m' n' v v', scalvGen SIDE N ALPHA X INCX m = .ok ((), m') ∧ scalvGen SIDE N ALPHA' X' INCX' n = .ok ((), n') ∧
      VecAt m' X INCX N.toNat v ∧ VecAt n' X' INCX' N.toNat v' ∧ U.VecR (r * g) N.toNat v v' := by
  obtain ⟨_, m', a1, a2, _⟩ := scalvGen_wp (SIDE := SIDE) (ALPHA := ALPHA) hinc fx hX
  obtain ⟨_, n', b1, b2, _⟩ := scalvGen_wp (SIDE := SIDE) (ALPHA := ALPHA') hinc' fx' hX'
  refine ⟨m', n', _, _, a1, b1, a2, b2, fun i hi => ?_⟩
  dsimp only
  split
  · exact Q.mulR hα.s (hx i hi).q
  · exact Q.mulL hα.s (hx i hi).q

/-- C64, portable AXPYV. -/
theorem C64_axpyv_portable (m : Mem F) (n : Mem F') (SIDE : Char) (N X INCX Y INCY X' INCX' Y' INCY' : Int)
    (ALPHA : Scal F) (ALPHA' : Scal F')
    (x y : Nat → Quat F) (x' y' : Nat → Quat F') (hX : VecAt m X INCX N.toNat x) (hX' : VecAt n X' INCX' N.toNat x')
    (hY : VecAt m Y INCY N.toNat y) (hY' : VecAt n Y' INCY' N.toNat y')
    (ix : 0 < INCX) (iy : 0 < INCY) (ix' : 0 < INCX') (iy' : 0 < INCY')
    (fx : Fits32 (N * INCX)) (fy : Fits32 (N * INCY)) (fx' : Fits32 (N * INCX')) (fy' : Fits32 (N * INCY'))
    (hd : Apart (VecCell X INCX N.toNat) (VecCell Y INCY N.toNat))
    (hd' : Apart (VecCell X' INCX' N.toNat) (VecCell Y' INCY' N.toNat))
    (hα : U.SD r ALPHA ALPHA') (hx : U.Vec g N.toNat x x') (hy : U.Vec (r * g) N.toNat y y') :
    ∃ m' n' v v', axpyvGen SIDE N ALPHA X INCX Y INCY m = .ok ((), m') ∧
      axpyvGen SIDE N ALPHA' X' INCX' Y' INCY' n = .ok ((), n') ∧
      VecAt m' Y INCY N.toNat v ∧ VecAt n' Y' INCY' N.toNat v' ∧ U.VecR (r * g) N.toNat v v' := by
  by_cases hz : ALPHA.eqZero = true
  · refine ⟨m, n, y, y', ?_, ?_, hY, hY', fun i hi => (hy i hi).q⟩
    · unfold axpyvGen; rw [if_pos hz]; split <;> rfl
    · unfold axpyvGen; rw [if_pos (hα.eqZero.symm.trans hz)]; split <;> rfl
  · have hz' : ¬ ALPHA'.eqZero = true := fun e => hz (hα.eqZero.trans e)
    obtain ⟨_, m', a1, a2, _⟩ := axpyvGen_wp (SIDE := SIDE) (ALPHA := ALPHA) ix iy fx fy (by simpa using hz) hX hY hd
    obtain ⟨_, n', b1, b2, _⟩ := axpyvGen_wp (SIDE := SIDE) (ALPHA := ALPHA') ix' iy' fx' fy' (by simpa using hz') hX' hY' hd'
    refine ⟨m', n', _, _, a1, b1, a2, b2, fun i hi => ?_⟩
    dsimp only
    split
    · exact Q.addAssign (hy i hi).q (Q.mulR hα.s (hx i hi).q)
    · exact Q.addAssign (hy i hi).q (Q.mulL hα.s (hx i hi).q)

/-- C64, portable DOTU and DOTC. -/
theorem C64_dot_portable (conj : Bool) (m : Mem F) (n : Mem F') (N X INCX Y INCY X' INCX' Y' INCY' : Int)
    (x y : Nat → Quat F) (x' y' : Nat → Quat F') (hX : VecAt m X INCX N.toNat x) (hX' : VecAt n X' INCX' N.toNat x')
    (hY : VecAt m Y INCY N.toNat y) (hY' : VecAt n Y' INCY' N.toNat y')
    (ix : 0 < INCX) (iy : 0 < INCY) (ix' : 0 < INCX') (iy' : 0 < INCY')
    (fx : Fits32 (N * INCX)) (fy : Fits32 (N * INCY)) (fx' : Fits32 (N * INCX')) (fy' : Fits32 (N * INCY'))
    (hx : U.Vec g N.toNat x x') (hy : U.Vec h N.toNat y y') :
    ∃ v v', dotGen conj N X INCX Y INCY m = .ok (v, m) ∧ dotGen conj N X' INCX' Y' INCY' n = .ok (v', n) ∧
      U.Q (g * h) v v' := by
  obtain ⟨_, _, a, rfl, rfl⟩ := dotGen_bits (conj := conj) ix iy fx fy hX hY
  obtain ⟨_, _, b, rfl, rfl⟩ := dotGen_bits (conj := conj) ix' iy' fx' fy' hX' hY'
  exact ⟨_, _, a, b, Q.pDotQ conj _ (fun k hk => (hx k hk).q) (fun k hk => (hy k hk).q)⟩

/-- C64, portable GEMM (A, ALPHA and BETA of any scalar type). -/
theorem C64_gemm_portable (m : Mem F) (n : Mem F') (k : Kind) (tA tB : Char) (M N K : Int)
    (ALPHA BETA : Scal F) (ALPHA' BETA' : Scal F') (A LDA B LDB C LDC A' LDA' B' LDB' C' LDC' : Int)
    (Av : Nat → Nat → Scal F) (Bv Cv : Nat → Nat → Quat F) (Av' : Nat → Nat → Scal F') (Bv' Cv' : Nat → Nat → Quat F')
    (p : GemmBArgs m k tA tB M N K ALPHA A LDA B LDB C LDC Av Bv Cv)
    (p' : GemmBArgs n k tA tB M N K ALPHA' A' LDA' B' LDB' C' LDC' Av' Bv' Cv')
    (hα : U.SD r ALPHA ALPHA') (hβ : U.SD 1 BETA BETA')
    (hA : U.KMat g (if tA = 'N' then M else K).toNat (if tA = 'N' then K else M).toNat Av Av')
    (hB : U.Mat h (if tB = 'N' then K else N).toNat (if tB = 'N' then N else K).toNat Bv Bv')
    (hC : U.Mat (r * g * h) M.toNat N.toNat Cv Cv') :
    ∃ m' n' V V', gemmGen k tA tB M N K ALPHA A LDA B LDB BETA C LDC m = .ok ((), m') ∧
      gemmGen k tA tB M N K ALPHA' A' LDA' B' LDB' BETA' C' LDC' n = .ok ((), n') ∧
      MatAt m' C LDC M.toNat N.toNat V ∧ MatAt n' C' LDC' M.toNat N.toNat V' ∧ U.MatR (r * g * h) M.toNat N.toNat V V' := by
  obtain ⟨m', a1, a2, _⟩ := gemmGen_bits m k tA tB M N K ALPHA BETA A LDA B LDB C LDC Av Bv Cv p
  obtain ⟨n', b1, b2, _⟩ := gemmGen_bits n k tA tB M N K ALPHA' BETA' A' LDA' B' LDB' C' LDC' Av' Bv' Cv' p'
  refine ⟨m', n', _, _, a1, b1, a2, b2, fun i j hi hj => Q.pGemm _ _ hα hβ (hC i j hi hj).q (fun l hl => ?_) (fun l hl => ?_)⟩
  · unfold opKE
    split
    · rename_i ht; exact (hA i l (by rw [if_pos ht]; exact hi) (by rw [if_pos ht]; exact hl)).s
    · rename_i ht
      have := hA l i (by rw [if_neg ht]; exact hl) (by rw [if_neg ht]; exact hi)
      split
      · exact this.conj.s
      · exact this.s
  · unfold opQE
    split
    · rename_i ht; exact (hB l j (by rw [if_pos ht]; exact hl) (by rw [if_pos ht]; exact hj)).q
    · rename_i ht
      have := hB j l (by rw [if_neg ht]; exact hj) (by rw [if_neg ht]; exact hl)
      split
      · exact this.conj.q
      · exact this.q

/-- C64, portable GEMV (A, ALPHA and BETA of any scalar type). -/
theorem C64_gemv_portable (m : Mem F) (n : Mem F') (k : Kind) (t : Char) (M N : Int) (ALPHA BETA : Scal F) (ALPHA' BETA' : Scal F')
    (A LDA X INCX Y INCY A' LDA' X' INCX' Y' INCY' : Int) (a : Nat → Nat → Scal F) (x y : Nat → Quat F)
    (a' : Nat → Nat → Scal F') (x' y' : Nat → Quat F') (hM : M ≠ 0) (hN : N ≠ 0)
    (p : GemvBArgs m k t M N ALPHA A LDA X INCX Y INCY a x y) (p' : GemvBArgs n k t M N ALPHA' A' LDA' X' INCX' Y' INCY' a' x' y')
    (hα : U.SD r ALPHA ALPHA') (hβ : U.SD 1 BETA BETA') (hA : U.KMat g M.toNat N.toNat a a')
    (hx : U.Vec h (if t = 'N' then N else M).toNat x x') (hy : U.Vec (r * g * h) (if t = 'N' then M else N).toNat y y') :
    ∃ m' n' v v', gemvGen k t M N ALPHA A LDA X INCX BETA Y INCY m = .ok ((), m') ∧
      gemvGen k t M N ALPHA' A' LDA' X' INCX' BETA' Y' INCY' n = .ok ((), n') ∧
      VecAt m' Y INCY (if t = 'N' then M else N).toNat v ∧ VecAt n' Y' INCY' (if t = 'N' then M else N).toNat v' ∧
      U.VecR (r * g * h) (if t = 'N' then M else N).toNat v v' := by
  obtain ⟨m', a1, a2, _⟩ := gemvGen_bits m k t M N ALPHA A LDA X INCX BETA Y INCY a x y hM hN p
  obtain ⟨n', b1, b2, _⟩ := gemvGen_bits n k t M N ALPHA' A' LDA' X' INCX' BETA' Y' INCY' a' x' y' hM hN p'
  refine ⟨m', n', _, _, a1, b1, a2, b2, fun i hi => Q.pGemv _ _ hα hβ (hy i hi).q (fun l hl => ?_) (fun l hl => (hx l hl).q)⟩
  unfold opVE
  split
  · rename_i ht; rw [if_pos ht] at hi hl; exact (hA i l hi hl).s
  · rename_i ht
    rw [if_neg ht] at hi hl
    split
    · exact (hA l i hl hi).s
    · exact (hA l i hl hi).conj.s

/-- C64, portable GERU (`conjY = false`) and GERC. -/
theorem C64_ger_portable (conjY : Bool) (m : Mem F) (n : Mem F') (M N : Int) (ALPHA : Scal F) (ALPHA' : Scal F')
    (X INCX Y INCY A LDA X' INCX' Y' INCY' A' LDA' : Int) (x y : Nat → Quat F) (a : Nat → Nat → Quat F)
    (x' y' : Nat → Quat F') (a' : Nat → Nat → Quat F')
    (p : GerBArgs m M N X INCX Y INCY A LDA x y a) (p' : GerBArgs n M N X' INCX' Y' INCY' A' LDA' x' y' a')
    (hα : U.SD r ALPHA ALPHA') (hx : U.Vec g M.toNat x x') (hy : U.Vec h N.toNat y y')
    (hA : U.Mat (r * g * h) M.toNat N.toNat a a') :
    ∃ m' n' v v', gerGen conjY M N ALPHA X INCX Y INCY A LDA m = .ok ((), m') ∧
      gerGen conjY M N ALPHA' X' INCX' Y' INCY' A' LDA' n = .ok ((), n') ∧
      MatAt m' A LDA M.toNat N.toNat v ∧ MatAt n' A' LDA' M.toNat N.toNat v' ∧ U.MatR (r * g * h) M.toNat N.toNat v v' := by
  obtain ⟨m', a1, a2, _⟩ := gerGen_bits conjY m M N ALPHA X INCX Y INCY A LDA x y a p
  obtain ⟨n', b1, b2, _⟩ := gerGen_bits conjY n M N ALPHA' X' INCX' Y' INCY' A' LDA' x' y' a' p'
  exact ⟨m', n', _, _, a1, b1, a2, b2, fun i j hi hj => Q.pGer _ hα (hx i hi).q (hy j hj) (hA i j hi hj).q⟩

/-! ## Fortran build -/

/-- C64, Fortran SCALV (partial: ALPHA not comparing equal to zero, as it leaves x alone when ALPHA is zero, C07). -/
theorem C64_scalv_fortran_partial (m : Mem F) (n : Mem F') (SIDE : Char) (N X INCX X' INCX' : Int) (ALPHA : Scal F) (ALPHA' : Scal F')
    (x : Nat → Quat F) (x' : Nat → Quat F') (hX : VecAt m (fbase X N INCX) INCX N.toNat x)
    (hX' : VecAt n (fbase X' N INCX') INCX' N.toNat x')
    (hinc : INCX ≠ 0) (hinc' : INCX' ≠ 0) (hα : U.SD r ALPHA ALPHA') (hx : U.Vec g N.toNat x x') (hz : ALPHA.vIsZero = false) :
    ∃ m' n' v v', scalvF SIDE N ALPHA X INCX m = .ok ((), m') ∧ scalvF SIDE N ALPHA' X' INCX' n = .ok ((), n') ∧
      VecAt m' (fbase X N INCX) INCX N.toNat v ∧ VecAt n' (fbase X' N INCX') INCX' N.toNat v' ∧
      U.VecR (r * g) N.toNat v v' := by
  obtain ⟨_, m', a1, a2, _⟩ := scalvF_bits (SIDE := SIDE) (ALPHA := ALPHA) hinc hX
  obtain ⟨_, n', b1, b2, _⟩ := scalvF_bits (SIDE := SIDE) (ALPHA := ALPHA') hinc' hX'
  rw [← hα.vIsZero] at b2
  rw [hz] at a2 b2
  exact ⟨m', n', _, _, a1, b1, a2, b2, fun i hi => Q.fScalV _ hα.s (hx i hi).q⟩

/-- C64, Fortran AXPYV. -/
theorem C64_axpyv_fortran (m : Mem F) (n : Mem F') (SIDE : Char) (N X INCX Y INCY X' INCX' Y' INCY' : Int)
    (ALPHA : Scal F) (ALPHA' : Scal F') (x y : Nat → Quat F) (x' y' : Nat → Quat F')
    (hX : VecAt m (fbase X N INCX) INCX N.toNat x) (hX' : VecAt n (fbase X' N INCX') INCX' N.toNat x')
    (hY : VecAt m (fbase Y N INCY) INCY N.toNat y) (hY' : VecAt n (fbase Y' N INCY') INCY' N.toNat y')
    (hinc : INCY ≠ 0) (hinc' : INCY' ≠ 0)
    (hd : Apart (VecCell (fbase X N INCX) INCX N.toNat) (VecCell (fbase Y N INCY) INCY N.toNat))
    (hd' : Apart (VecCell (fbase X' N INCX') INCX' N.toNat) (VecCell (fbase Y' N INCY') INCY' N.toNat))
    (hα : U.SD r ALPHA ALPHA') (hx : U.Vec g N.toNat x x') (hy : U.Vec (r * g) N.toNat y y') :
    ∃ m' n' v v', axpyvF SIDE N ALPHA X INCX Y INCY m = .ok ((), m') ∧
      axpyvF SIDE N ALPHA' X' INCX' Y' INCY' n = .ok ((), n') ∧
      VecAt m' (fbase Y N INCY) INCY N.toNat v ∧ VecAt n' (fbase Y' N INCY') INCY' N.toNat v' ∧
      U.VecR (r * g) N.toNat v v' := by
  obtain ⟨_, m', a1, a2, _⟩ := axpyvF_bits (SIDE := SIDE) (ALPHA := ALPHA) hinc hX hY hd
  obtain ⟨_, n', b1, b2, _⟩ := axpyvF_bits (SIDE := SIDE) (ALPHA := ALPHA') hinc' hX' hY' hd'
  rw [← hα.vIsZero] at b2
  refine ⟨m', n', _, _, a1, b1, a2, b2, fun i hi => ?_⟩
  dsimp only
  split
  · exact (hy i hi).q
  · exact Q.fAxpyV _ hα.s (hx i hi).q (hy i hi).q

/-- C64, Fortran DOTU and DOTC. -/
theorem C64_dot_fortran (conj : Bool) (m : Mem F) (n : Mem F') (N X INCX Y INCY X' INCX' Y' INCY' : Int)
    (x y : Nat → Quat F) (x' y' : Nat → Quat F')
    (hX : VecAt m (fbase X N INCX) INCX N.toNat x) (hX' : VecAt n (fbase X' N INCX') INCX' N.toNat x')
    (hY : VecAt m (fbase Y N INCY) INCY N.toNat y) (hY' : VecAt n (fbase Y' N INCY') INCY' N.toNat y')
    (hx : U.Vec g N.toNat x x') (hy : U.Vec h N.toNat y y') :
    ∃ v v', dotF conj N X INCX Y INCY m = .ok (v, m) ∧ dotF conj N X' INCX' Y' INCY' n = .ok (v', n) ∧
      U.Q (g * h) v v' := by
  obtain ⟨_, _, a, rfl, rfl⟩ := dotF_bits (conj := conj) hX hY
  obtain ⟨_, _, b, rfl, rfl⟩ := dotF_bits (conj := conj) hX' hY'
  exact ⟨_, _, a, b, Q.fDot conj _ (fun k hk => (hx k hk).q) (fun k hk => (hy k hk).q)⟩

theorem Units.Mat.pick {U : Units F F' G} {g : G} {t : FTrans} {p q : ℕ} {X : Nat → Nat → Quat F} {X' : Nat → Nat → Quat F'} {i l : ℕ}
    (h : U.Mat g (if t = .N then p else q) (if t = .N then q else p) X X') (hi : i < p) (hl : l < q) :
    U.Q g (t.pick X i l) (t.pick X' i l) := by
  cases t
  · exact (h i l hi hl).q
  · exact (h l i hl hi).q
  · exact (h l i hl hi).q

/-- C64, Fortran GEMM (every pair of scalar types; the flags N, T and C in either case). -/
theorem C64_gemm_fortran (m : Mem F) (n : Mem F') (tA tB : Char) (M N K : Int)
    (ALPHA BETA : Scal F) (ALPHA' BETA' : Scal F') (A LDA B LDB C LDC A' LDA' B' LDB' C' LDC' : Int)
    (Av Bv Cv : Nat → Nat → Quat F) (Av' Bv' Cv' : Nat → Nat → Quat F')
    (fA : tA ∈ ['N', 'n', 'T', 't', 'C', 'c']) (fB : tB ∈ ['N', 'n', 'T', 't', 'C', 'c'])
    (p : FGemmArgs m tA tB M N K ALPHA A LDA B LDB C LDC Av Bv Cv)
    (p' : FGemmArgs n tA tB M N K ALPHA' A' LDA' B' LDB' C' LDC' Av' Bv' Cv')
    (hα : U.SD r ALPHA ALPHA') (hβ : U.SD 1 BETA BETA')
    (hA : U.Mat g (if IsN tA then M else K).toNat (if IsN tA then K else M).toNat Av Av')
    (hB : U.Mat h (if IsN tB then K else N).toNat (if IsN tB then N else K).toNat Bv Bv')
    (hC : U.Mat (r * g * h) M.toNat N.toNat Cv Cv') :
    ∃ m' n' V V', hgemmF tA tB M N K ALPHA A LDA B LDB BETA C LDC m = .ok ((), m') ∧
      hgemmF tA tB M N K ALPHA' A' LDA' B' LDB' BETA' C' LDC' n = .ok ((), n') ∧
      MatAt m' C LDC M.toNat N.toNat V ∧ MatAt n' C' LDC' M.toNat N.toNat V' ∧ U.MatR (r * g * h) M.toNat N.toNat V V' := by
  obtain ⟨m', a1, a2, _⟩ := hgemmF_bits m tA tB M N K ALPHA BETA A LDA B LDB C LDC Av Bv Cv p
  obtain ⟨n', b1, b2, _⟩ := hgemmF_bits n tA tB M N K ALPHA' BETA' A' LDA' B' LDB' C' LDC' Av' Bv' Cv' p'
  have nt : ∀ {t : Char}, t ∈ ['N', 'n', 'T', 't', 'C', 'c'] → (FTrans.ofChar t = .N ↔ IsN t) := by
    intro t ht
    simp only [List.mem_cons, List.not_mem_nil, or_false] at ht
    rcases ht with rfl | rfl | rfl | rfl | rfl | rfl <;> simp [FTrans.ofChar, IsN]
  refine ⟨m', n', _, _, a1, b1, a2, b2, fun i j hi hj => Q.fGemm _ _ _ hα hβ (hC i j hi hj).q
    (fun l hl => Mat.pick (p := M.toNat) (q := K.toNat) ?_ hi hl) (fun l hl => Mat.pick (p := K.toNat) (q := N.toNat) ?_ hl hj)⟩
  · simp only [nt fA]; split at hA <;> (rename_i e; simp only [e, if_true, if_false]; exact hA)
  · simp only [nt fB]; split at hB <;> (rename_i e; simp only [e, if_true, if_false]; exact hB)

/-- C64, Fortran GEMV (every pair of scalar types; partial: calls outside its known defects). -/
theorem C64_gemv_fortran_partial (m : Mem F) (n : Mem F') (t : Char) (M N : Int) (ALPHA BETA : Scal F) (ALPHA' BETA' : Scal F')
    (A LDA X INCX Y INCY A' LDA' X' INCX' Y' INCY' : Int) (a : Nat → Nat → Quat F) (x y : Nat → Quat F)
    (a' : Nat → Nat → Quat F') (x' y' : Nat → Quat F') (ft : t ∈ ['N', 'n', 'T', 't', 'C', 'c']) (hM : M ≠ 0) (hN : N ≠ 0)
    (p : FGemvArgs m t M N ALPHA A LDA X INCX Y INCY a x y) (p' : FGemvArgs n t M N ALPHA' A' LDA' X' INCX' Y' INCY' a' x' y')
    (hg : FGemvGood t M N ALPHA BETA INCX INCY) (hg' : FGemvGood t M N ALPHA' BETA' INCX' INCY')
    (hα : U.SD r ALPHA ALPHA') (hβ : U.SD 1 BETA BETA') (hA : U.Mat g M.toNat N.toNat a a')
    (hx : U.Vec h (gemvLenX t M N).toNat x x') (hy : U.Vec (r * g * h) (gemvLenY t M N).toNat y y') :
    ∃ m' n' v v', gemvF t M N ALPHA A LDA X INCX BETA Y INCY m = .ok ((), m') ∧
      gemvF t M N ALPHA' A' LDA' X' INCX' BETA' Y' INCY' n = .ok ((), n') ∧
      VecAt m' (vecStart Y (gemvLenY t M N) INCY) INCY (gemvLenY t M N).toNat v ∧
      VecAt n' (vecStart Y' (gemvLenY t M N) INCY') INCY' (gemvLenY t M N).toNat v' ∧
      U.VecR (r * g * h) (gemvLenY t M N).toNat v v' := by
  obtain ⟨m', a1, a2, _⟩ := gemvF_bits m t M N ALPHA A LDA X INCX BETA Y INCY a x y hM hN p hg
  obtain ⟨n', b1, b2, _⟩ := gemvF_bits n t M N ALPHA' A' LDA' X' INCX' BETA' Y' INCY' a' x' y' hM hN p' hg'
  refine ⟨m', n', _, _, a1, b1, a2, b2, fun i hi => Q.fGemv _ _ hα hβ (hy i hi).q (fun l hl => ?_) (fun l hl => (hx l hl).q)⟩
  simp only [List.mem_cons, List.not_mem_nil, or_false] at ft
  rcases ft with rfl | rfl | rfl | rfl | rfl | rfl <;>
    simp only [gemvLenX, gemvLenY, IsN] at hi hl <;> simp at hi hl <;>
    first | exact (hA i l (by omega) (by omega)).q | exact (hA l i (by omega) (by omega)).q

/-- C64, Fortran GERU and GERC (partial: with a real ALPHA, unit stride in x, as the strided case is a known defect). -/
theorem C64_ger_fortran_partial (conjY : Bool) (m : Mem F) (n : Mem F') (M N : Int) (ALPHA : Scal F) (ALPHA' : Scal F')
    (X INCX Y INCY A LDA X' INCX' Y' INCY' A' LDA' : Int) (x y : Nat → Quat F) (a : Nat → Nat → Quat F)
    (x' y' : Nat → Quat F') (a' : Nat → Nat → Quat F')
    (p : GerArgs m M N X INCX Y INCY A LDA x y a) (p' : GerArgs n M N X' INCX' Y' INCY' A' LDA' x' y' a')
    (hd : ∀ s, ALPHA = .d s → INCX = 1) (hd' : ∀ s, ALPHA' = .d s → INCX' = 1)
    (hα : U.SD r ALPHA ALPHA') (hx : U.Vec g M.toNat x x') (hy : U.Vec h N.toNat y y')
    (hA : U.Mat (r * g * h) M.toNat N.toNat a a') :
    ∃ m' n' v v', gerF conjY M N ALPHA X INCX Y INCY A LDA m = .ok ((), m') ∧
      gerF conjY M N ALPHA' X' INCX' Y' INCY' A' LDA' n = .ok ((), n') ∧
      MatAt m' A LDA M.toNat N.toNat v ∧ MatAt n' A' LDA' M.toNat N.toNat v' ∧ U.MatR (r * g * h) M.toNat N.toNat v v' := by
  obtain ⟨m', a1, a2, _⟩ := gerF_bits conjY m M N ALPHA X INCX Y INCY A LDA x y a p hd
  obtain ⟨n', b1, b2, _⟩ := gerF_bits conjY n M N ALPHA' X' INCX' Y' INCY' A' LDA' x' y' a' p' hd'
  exact ⟨m', n', _, _, a1, b1, a2, b2, fun i j hi hj => Q.fGer _ hα (hx i hi).q (hy j hj) (hA i j hi hj).q⟩

end Haxx
