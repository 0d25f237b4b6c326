import Verif.ThrSafe
import Verif.ThrPort
import Verif.Generic3Proofs

/-!
# Threads: safety of the portable C++ routines, whatever the numbers
-/

namespace Haxx.Thr
open Arith

set_option linter.unusedSectionVars false

section
variable {F : Type} {S W : Int → Prop}

/-- All four cells of the quaternion at `p`. -/
def Q4 (P : Int → Prop) (p : Int) : Prop := ∀ a, InQ p a → P a

theorem safe_loadQ {p : Int} (h : Q4 S p) : Safe S W (loadQ p : Prog F (Quat F)) (fun _ => True) := by
  have h0 := h p (by unfold InQ; omega)
  have h1 := h (p+1) (by unfold InQ; omega)
  have h2 := h (p+2) (by unfold InQ; omega)
  have h3 := h (p+3) (by unfold InQ; omega)
  exact ⟨h0, fun _ => ⟨h1, fun _ => ⟨h2, fun _ => ⟨h3, fun _ => trivial⟩⟩⟩⟩

theorem safe_storeQ {p : Int} {q : Quat F} (h : Q4 S p) (hw : Q4 W p) : Safe S W (storeQ p q) (fun _ => True) := by
  have h0 := h p (by unfold InQ; omega)
  have h1 := h (p+1) (by unfold InQ; omega)
  have h2 := h (p+2) (by unfold InQ; omega)
  have h3 := h (p+3) (by unfold InQ; omega)
  have w0 := hw p (by unfold InQ; omega)
  have w1 := hw (p+1) (by unfold InQ; omega)
  have w2 := hw (p+2) (by unfold InQ; omega)
  have w3 := hw (p+3) (by unfold InQ; omega)
  exact ⟨⟨h0, w0⟩, ⟨h1, w1⟩, ⟨h2, w2⟩, ⟨h3, w3⟩, trivial⟩

theorem safe_i32 {x : Int} (h : Fits32 x) : Safe S W (i32 x : Prog F Int) (fun r => r = x) := by
  unfold i32
  rw [if_pos (show -2147483648 ≤ x ∧ x ≤ 2147483647 from h)]
  exact safe_pure rfl

theorem safe_i32_bind {α : Type} {x : Int} {f : Int → Prog F α} {Q : α → Prop} (h : Fits32 x) (hf : Safe S W (f x) Q) :
    Safe S W (i32 x >>= f) Q :=
  safe_bind ((safe_i32 h).mono fun r e => by subst e; exact hf)

theorem safe_assert {α : Type} {b : Bool} {f : Unit → Prog F α} {Q : α → Prop} (h : b = true) (hf : Safe S W (f ()) Q) :
    Safe S W (assertP b >>= f) Q := by
  subst h
  exact hf

theorem safe_forStep {lo hi s : Int} {body : Int → Prog F Unit}
    (h : ∀ k : Nat, k < ((hi - lo + s - 1) / s).toNat → Safe S W (body (lo + s * k)) (fun _ => True)) :
    Safe S W (forStep lo hi s body) (fun _ => True) :=
  safe_forN h

/-- The remainder loop and the unrolled loop. -/
theorem safe_unroll {N s m : Int} {el unr : Int → Prog F Unit} (hN : 0 < N) (hs : 0 < s) (hm : m = N.tmod s)
    (hel : ∀ i, 0 ≤ i → i < N → Safe S W (el i) (fun _ => True))
    (hun : ∀ i, 0 ≤ i → i + s ≤ N → Safe S W (unr i) (fun _ => True)) :
    Safe S W (if m ≠ 0 then do
        forN m.toNat (fun i => el i)
        if N < s then pure () else forStep m N s unr
      else forStep m N s unr) (fun _ => True) := by
  have e : m = N % s := by rw [hm, Int.tmod_eq_emod_of_nonneg hN.le]
  have m0 : 0 ≤ m := by rw [e]; exact Int.emod_nonneg _ (by omega)
  have ms : m < s := by rw [e]; exact Int.emod_lt_of_pos _ hs
  have mN : m ≤ N := by
    have := Int.mul_ediv_add_emod N s
    have h0 : 0 ≤ s * (N / s) := Int.mul_nonneg hs.le (Int.ediv_nonneg hN.le hs.le)
    omega
  have hfs : Safe S W (forStep m N s unr) (fun _ => True) := by
    refine safe_forStep fun k hk => ?_
    have hq : N - m = s * (N / s) := by
      have := Int.emod_add_mul_ediv N s
      rw [e]; omega
    have hq' : (N - m + s - 1) / s = N / s := by
      rw [hq, show s * (N / s) + s - 1 = (s - 1) + s * (N / s) by ring, Int.add_mul_ediv_left _ _ (by omega),
        Int.ediv_eq_zero_of_lt (by omega) (by omega)]
      omega
    rw [hq'] at hk
    have hk : (k:Int) + 1 ≤ N / s := by omega
    have h1 : s * ((k:Int) + 1) ≤ s * (N / s) := Int.mul_le_mul_of_nonneg_left hk hs.le
    have h2 : 0 ≤ s * (k:Int) := by positivity
    refine hun _ (by omega) ?_
    rw [← hq] at h1
    have : s * ((k:Int) + 1) = s * k + s := by ring
    omega
  refine safe_ite (fun _ => safe_seq (safe_forN fun i hi => hel _ (by omega) (by omega)) fun _ => safe_ite (fun _ => trivial) fun _ => hfs) fun _ => hfs

/-- The element of a strided vector at loop step `i`. -/
theorem vec_q4 {P : Int → Prop} {X INC : Int} {n i : Nat} (h : ∀ a, VecCell X INC n a → P a) (hi : i < n) : Q4 P (X + 4 * ((i:Int) * INC)) :=
  fun a ha => h a ⟨i, hi, ha⟩

theorem vec_q4' {P : Int → Prop} {X N i : Int} (h : ∀ a, VecCell X 1 N.toNat a → P a) (h0 : 0 ≤ i) (hi : i < N) : Q4 P (X + 4 * i) := by
  have := vec_q4 (i := i.toNat) h (by omega)
  rwa [show ((i.toNat : Nat):Int) * 1 = i by omega] at this

/-- 32-bit positions along a vector. -/
theorem fits_vec {INC : Int} {n i : Nat} (hinc : 0 ≤ INC) (h : Fits32 (n * INC)) (hi : i ≤ n) : Fits32 (i * INC) := by
  unfold Fits32 at *
  have h1 : (i:Int) * INC ≤ n * INC := Int.mul_le_mul_of_nonneg_right (by exact_mod_cast hi) hinc
  have h2 : 0 ≤ (i:Int) * INC := by positivity
  omega

theorem safe_strided {N INCX INCY : Int} {el : Int → Int → Prog F Unit} (hx : 0 < INCX) (hy : 0 < INCY)
    (fx : Fits32 (N * INCX)) (fy : Fits32 (N * INCY))
    (h : ∀ i : Nat, i < N.toNat → Safe S W (el ((i:Int) * INCX) ((i:Int) * INCY)) (fun _ => True)) :
    Safe S W (foldN N.toNat (fun _ s => stridedStep el INCX INCY s) (0, 0)) (fun _ => True) := by
  refine (safe_foldI (fun i s => s.1 = (i:Int) * INCX ∧ s.2 = (i:Int) * INCY) (by simp) ?_).mono fun _ _ => trivial
  rintro i ⟨s1, s2⟩ hi ⟨e1, e2⟩
  dsimp only at e1 e2
  subst e1; subst e2
  unfold stridedStep
  have e : ((N.toNat : Nat):Int) = N := by omega
  have a1 : (i:Int) * INCX + INCX = ((i+1 : Nat):Int) * INCX := by push_cast; ring
  have a2 : (i:Int) * INCY + INCY = ((i+1 : Nat):Int) * INCY := by push_cast; ring
  refine safe_seq (h i hi) fun _ => safe_i32_bind ?_ (safe_i32_bind ?_ (safe_pure ⟨a1, a2⟩))
  · rw [a1]; exact fits_vec hx.le (n := N.toNat) (by rwa [e]) (by omega)
  · rw [a2]; exact fits_vec hy.le (n := N.toNat) (by rwa [e]) (by omega)

theorem copyEl_safe {X Y ix iy : Int} (hx : Q4 S (X + 4 * ix)) (hy : Q4 S (Y + 4 * iy)) (hw : Q4 W (Y + 4 * iy)) :
    Safe S W (copyEl X Y ix iy : Prog F Unit) (fun _ => True) :=
  safe_seq (safe_loadQ hx) fun _ => safe_storeQ hy hw

theorem copyvGen_safe {N X INCX Y INCY : Int} (ix : 0 < INCX) (iy : 0 < INCY) (fx : Fits32 (N * INCX)) (fy : Fits32 (N * INCY))
    (hx : ∀ a, VecCell X INCX N.toNat a → S a) (hy : ∀ a, VecCell Y INCY N.toNat a → S a) (hw : ∀ a, VecCell Y INCY N.toNat a → W a) :
    Safe S W (copyvGen N X INCX Y INCY : Prog F Unit) (fun _ => True) := by
  unfold copyvGen
  refine safe_ite (fun _ => trivial) fun hN => safe_assert (by simpa using ix) (safe_assert (by simpa using iy) (safe_ite (fun h1 => ?_) fun _ => ?_))
  · obtain ⟨rfl, rfl⟩ := h1
    have hel : ∀ i, 0 ≤ i → i < N → Safe S W (copyEl X Y i i : Prog F Unit) (fun _ => True) := fun i h0 hi =>
      copyEl_safe (vec_q4' hx h0 hi) (vec_q4' hy h0 hi) (vec_q4' hw h0 hi)
    refine safe_unroll (el := fun i => copyEl X Y i i) (by omega) (by omega) rfl hel ?_
    intro i h0 hi
    unfold copyUnroll
    repeat' first | refine safe_seq (hel _ (by omega) (by omega)) fun _ => ?_ | exact hel _ (by omega) (by omega)
  · exact safe_seq (safe_strided ix iy fx fy fun i hi => copyEl_safe (vec_q4 hx hi) (vec_q4 hy hi) (vec_q4 hw hi)) fun _ => trivial

theorem swapEl_safe {X Y ix iy : Int} (hx : Q4 S (X + 4 * ix)) (hy : Q4 S (Y + 4 * iy)) (hwx : Q4 W (X + 4 * ix)) (hw : Q4 W (Y + 4 * iy)) :
    Safe S W (swapEl X Y ix iy : Prog F Unit) (fun _ => True) :=
  safe_seq (safe_loadQ hx) fun _ => safe_seq (safe_loadQ hy) fun _ => safe_seq (safe_storeQ hx hwx) fun _ => safe_storeQ hy hw

theorem swapvGen_safe {N X INCX Y INCY : Int} (ix : 0 < INCX) (iy : 0 < INCY) (fx : Fits32 (N * INCX)) (fy : Fits32 (N * INCY))
    (hx : ∀ a, VecCell X INCX N.toNat a → S a) (hy : ∀ a, VecCell Y INCY N.toNat a → S a)
    (hwx : ∀ a, VecCell X INCX N.toNat a → W a) (hw : ∀ a, VecCell Y INCY N.toNat a → W a) :
    Safe S W (swapvGen N X INCX Y INCY : Prog F Unit) (fun _ => True) := by
  unfold swapvGen
  refine safe_ite (fun _ => trivial) fun hN => safe_assert (by simpa using ix) (safe_assert (by simpa using iy) (safe_ite (fun h1 => ?_) fun _ => ?_))
  · obtain ⟨rfl, rfl⟩ := h1
    have hel : ∀ i, 0 ≤ i → i < N → Safe S W (swapEl X Y i i : Prog F Unit) (fun _ => True) := fun i h0 hi =>
      swapEl_safe (vec_q4' hx h0 hi) (vec_q4' hy h0 hi) (vec_q4' hwx h0 hi) (vec_q4' hw h0 hi)
    refine safe_unroll (el := fun i => swapEl X Y i i) (by omega) (by omega) rfl hel ?_
    intro i h0 hi
    unfold swapUnroll
    repeat' first | refine safe_seq (hel _ (by omega) (by omega)) fun _ => ?_ | exact hel _ (by omega) (by omega)
  · exact safe_seq (safe_strided ix iy fx fy fun i hi => swapEl_safe (vec_q4 hx hi) (vec_q4 hy hi) (vec_q4 hwx hi) (vec_q4 hw hi)) fun _ => trivial

end

section
variable {F : Type} [Arith F] {S W : Int → Prop}

theorem scalEl_safe {isL : Bool} {ALPHA : Scal F} {X i : Int} (hx : Q4 S (X + 4 * i)) (hw : Q4 W (X + 4 * i)) :
    Safe S W (scalEl isL ALPHA X i) (fun _ => True) :=
  safe_seq (safe_loadQ hx) fun _ => safe_storeQ hx hw

theorem scalvGen_safe {SIDE : Char} {ALPHA : Scal F} {N X INCX : Int} (fx : Fits32 (N * INCX))
    (hx : ∀ a, VecCell X INCX N.toNat a → S a) (hw : ∀ a, VecCell X INCX N.toNat a → W a) :
    Safe S W (scalvGen SIDE N ALPHA X INCX) (fun _ => True) := by
  unfold scalvGen
  refine safe_ite (fun _ => trivial) fun hN => safe_ite (fun h1 => ?_) fun _ => ?_
  · subst h1
    have hel : ∀ i, 0 ≤ i → i < N → Safe S W (scalEl (!(SIDE == 'R')) ALPHA X i) (fun _ => True) := fun i h0 hi =>
      scalEl_safe (vec_q4' hx h0 hi) (vec_q4' hw h0 hi)
    refine safe_unroll (el := fun i => scalEl (!(SIDE == 'R')) ALPHA X i) (by omega) (by omega) rfl hel ?_
    intro i h0 hi
    unfold scalUnroll
    repeat' first | refine safe_seq (hel _ (by omega) (by omega)) fun _ => ?_ | exact hel _ (by omega) (by omega)
  · refine safe_i32_bind fx (safe_forStep fun k hk => ?_)
    have hi : 0 < INCX := by omega
    have : (N * INCX - 0 + INCX - 1) / INCX = N := by
      rw [show N * INCX - 0 + INCX - 1 = (INCX - 1) + INCX * N by ring, Int.add_mul_ediv_left _ _ (by omega),
        Int.ediv_eq_zero_of_lt (by omega) (by omega)]
      omega
    rw [this] at hk
    have e : (0:Int) + INCX * k = k * INCX := by ring
    rw [e]
    exact scalEl_safe (vec_q4 hx hk) (vec_q4 hw hk)

theorem axpyEl_safe {isL : Bool} {ALPHA : Scal F} {X Y ix iy : Int} (hx : Q4 S (X + 4 * ix)) (hy : Q4 S (Y + 4 * iy)) (hw : Q4 W (Y + 4 * iy)) :
    Safe S W (axpyEl isL ALPHA X Y ix iy) (fun _ => True) :=
  safe_seq (safe_loadQ hx) fun _ => safe_seq (safe_loadQ hy) fun _ => safe_storeQ hy hw

theorem axpyvGen_safe [ArithEq F] {SIDE : Char} {ALPHA : Scal F} {N X INCX Y INCY : Int} (ix : 0 < INCX) (iy : 0 < INCY)
    (fx : Fits32 (N * INCX)) (fy : Fits32 (N * INCY))
    (hx : ∀ a, VecCell X INCX N.toNat a → S a) (hy : ∀ a, VecCell Y INCY N.toNat a → S a) (hw : ∀ a, VecCell Y INCY N.toNat a → W a) :
    Safe S W (axpyvGen SIDE N ALPHA X INCX Y INCY) (fun _ => True) := by
  unfold axpyvGen
  refine safe_ite (fun _ => trivial) fun hN => safe_ite (fun _ => trivial) fun _ =>
    safe_assert (by simpa using ix) (safe_assert (by simpa using iy) (safe_ite (fun h1 => ?_) fun _ => ?_))
  · obtain ⟨rfl, rfl⟩ := h1
    have hel : ∀ i, 0 ≤ i → i < N → Safe S W (axpyEl (!(SIDE == 'R')) ALPHA X Y i i) (fun _ => True) := fun i h0 hi =>
      axpyEl_safe (vec_q4' hx h0 hi) (vec_q4' hy h0 hi) (vec_q4' hw h0 hi)
    refine safe_unroll (el := fun i => axpyEl (!(SIDE == 'R')) ALPHA X Y i i) (by omega) (by omega) rfl hel ?_
    intro i h0 hi
    unfold axpyUnroll
    repeat' first | refine safe_seq (hel _ (by omega) (by omega)) fun _ => ?_ | exact hel _ (by omega) (by omega)
  · exact safe_seq (safe_strided ix iy fx fy fun i hi => axpyEl_safe (vec_q4 hx hi) (vec_q4 hy hi) (vec_q4 hw hi)) fun _ => trivial

theorem dotEl_safe {conj : Bool} {X Y ix iy : Int} {h : Quat F} (hx : Q4 S (X + 4 * ix)) (hy : Q4 S (Y + 4 * iy)) :
    Safe S W (dotEl conj X Y ix iy h) (fun _ => True) :=
  safe_seq (safe_loadQ hx) fun _ => safe_seq (safe_loadQ hy) fun _ => safe_pure trivial

theorem dotGen_safe {conj : Bool} {N X INCX Y INCY : Int} (ix : 0 < INCX) (iy : 0 < INCY) (fx : Fits32 (N * INCX)) (fy : Fits32 (N * INCY))
    (hx : ∀ a, VecCell X INCX N.toNat a → S a) (hy : ∀ a, VecCell Y INCY N.toNat a → S a) :
    Safe S W (dotGen conj N X INCX Y INCY : Prog F (Quat F)) (fun _ => True) := by
  unfold dotGen
  refine safe_ite (fun _ => trivial) fun hN => safe_assert (by simpa using ix) (safe_assert (by simpa using iy) (safe_ite (fun h1 => ?_) fun _ => ?_))
  · obtain ⟨rfl, rfl⟩ := h1
    exact safe_fold fun i _ hi => dotEl_safe (vec_q4' hx (by omega) (by omega)) (vec_q4' hy (by omega) (by omega))
  · refine safe_seq ?_ fun _ => safe_pure trivial
    refine (safe_foldI (fun i s => s.1 = (i:Int) * INCX ∧ s.2.1 = (i:Int) * INCY) (by simp) ?_).mono fun _ _ => trivial
    rintro i ⟨s1, s2, s3⟩ hi ⟨e1, e2⟩
    dsimp only at e1 e2
    subst e1; subst e2
    unfold dotStep
    have e : ((N.toNat : Nat):Int) = N := by omega
    have a1 : (i:Int) * INCX + INCX = ((i+1 : Nat):Int) * INCX := by push_cast; ring
    have a2 : (i:Int) * INCY + INCY = ((i+1 : Nat):Int) * INCY := by push_cast; ring
    refine safe_seq (dotEl_safe (vec_q4 hx hi) (vec_q4 hy hi)) fun _ => safe_i32_bind ?_ (safe_i32_bind ?_ (safe_pure ⟨a1, a2⟩))
    · rw [a1]; exact fits_vec ix.le (n := N.toNat) (by rwa [e]) (by omega)
    · rw [a2]; exact fits_vec iy.le (n := N.toNat) (by rwa [e]) (by omega)

/-- All cells of the entry at `p` of an array of kind `k`. -/
def K4 (k : Kind) (P : Int → Prop) (p : Int) : Prop := ∀ a, p ≤ a → a < p + k.width → P a

theorem safe_loadK {k : Kind} {p : Int} (h : K4 k S p) : Safe S W (loadK k p : Prog F (Scal F)) (fun _ => True) := by
  cases k with
  | d =>
    exact safe_seq (safe_rd (h _ (by omega) (by show p < p + 1; omega))) fun _ => safe_pure trivial
  | z =>
    exact safe_seq (safe_rd (h _ (by omega) (by show p < p + 2; omega))) fun _ =>
      safe_seq (safe_rd (h _ (by omega) (by show p + 1 < p + 2; omega))) fun _ => safe_pure trivial
  | h =>
    refine safe_seq (safe_loadQ fun a ha => h a ?_ ?_) fun _ => safe_pure trivial
    · unfold InQ at ha; omega
    · show a < p + 4
      unfold InQ at ha; omega

variable [ArithEq F]

theorem zeroEl_safe {CCol i : Int} (h : Q4 S (CCol + 4 * i)) (hw : Q4 W (CCol + 4 * i)) : Safe S W (zeroEl CCol i : Prog F Unit) (fun _ => True) :=
  safe_storeQ h hw
theorem betaEl_safe {BETA : Scal F} {CCol i : Int} (h : Q4 S (CCol + 4 * i)) (hw : Q4 W (CCol + 4 * i)) :
    Safe S W (betaEl BETA CCol i) (fun _ => True) :=
  safe_seq (safe_loadQ h) fun _ => safe_storeQ h hw

/-- What the portable GEMM may access, and the index computations that must not overflow. -/
structure PGemm (S W : Int → Prop) (k : Kind) (nA nB : Bool) (M N K A LDA B LDB C LDC : Int) : Prop where
  AN : nA = true → ∀ i l : Nat, i < M.toNat → l < K.toNat → K4 k S (A + k.width * (l * LDA) + k.width * i)
  AT : nA = false → ∀ i l : Nat, i < M.toNat → l < K.toNat → K4 k S (A + k.width * (i * LDA) + k.width * l)
  BN : nB = true → ∀ l j : Nat, l < K.toNat → j < N.toNat → Q4 S (B + 4 * (j * LDB) + 4 * l)
  BT : nB = false → ∀ l j : Nat, l < K.toNat → j < N.toNat → Q4 S (B + 4 * (l * LDB) + 4 * j)
  BT' : nB = false → ∀ l j : Nat, l < K.toNat → j < N.toNat → Q4 S (B + 4 * j + 4 * (l * LDB))
  c : ∀ i j : Nat, i < M.toNat → j < N.toNat → Q4 S (C + 4 * (j * LDC) + 4 * i)
  w : ∀ i j : Nat, i < M.toNat → j < N.toNat → Q4 W (C + 4 * (j * LDC) + 4 * i)
  fAN : nA = true → ∀ l : Nat, l < K.toNat → Fits32 (l * LDA)
  fAT : nA = false → ∀ i : Nat, i < M.toNat → Fits32 (i * LDA)
  fBN : nB = true → ∀ j : Nat, j < N.toNat → Fits32 (j * LDB)
  fBT : nB = false → ∀ l : Nat, l < K.toNat → Fits32 (l * LDB)
  fC : ∀ j : Nat, j < N.toNat → Fits32 (j * LDC)

theorem gemmGen_safe {k : Kind} {tA tB : Char} {M N K A LDA B LDB C LDC : Int} {ALPHA BETA : Scal F}
    (h : PGemm S W k (tA == 'N') (tB == 'N') M N K A LDA B LDB C LDC) :
    Safe S W (gemmGen k tA tB M N K ALPHA A LDA B LDB BETA C LDC) (fun _ => True) := by
  have hax : ∀ (cj : Bool) (i j l : Nat) (bp : Int), (tA == 'N') = true → i < M.toNat → j < N.toNat → l < K.toNat → Q4 S bp →
      Safe S W (gemmAxpyEl k cj ALPHA (A + k.width * (l * LDA)) bp (C + 4 * (j * LDC)) i) (fun _ => True) := by
    intro cj i j l bp ht hi hj hl hb
    exact safe_seq (safe_loadK (h.AN ht i l hi hl)) fun _ => safe_seq (safe_loadQ hb) fun _ =>
      safe_seq (safe_loadQ (h.c i j hi hj)) fun _ => safe_storeQ (h.c i j hi hj) (h.w i j hi hj)
  have hbeta : ∀ j : Nat, j < N.toNat → Safe S W (gemmBetaCol BETA M (C + 4 * (j * LDC))) (fun _ => True) := by
    intro j hj
    unfold gemmBetaCol
    exact safe_ite (fun _ => safe_forN fun i hi => zeroEl_safe (h.c i j hi hj) (h.w i j hi hj)) fun _ =>
      safe_ite (fun _ => safe_forN fun i hi => betaEl_safe (h.c i j hi hj) (h.w i j hi hj)) fun _ => trivial
  have hst : ∀ (i j : Nat) (t : Quat F), i < M.toNat → j < N.toNat →
      Safe S W (gemmStoreEl ALPHA BETA (C + 4 * (j * LDC)) i t) (fun _ => True) := by
    intro i j t hi hj
    unfold gemmStoreEl
    exact safe_ite (fun _ => safe_storeQ (h.c i j hi hj) (h.w i j hi hj)) fun _ =>
      safe_seq (safe_loadQ (h.c i j hi hj)) fun _ => safe_storeQ (h.c i j hi hj) (h.w i j hi hj)
  have hdot : ∀ (ca cb : Bool) (i l : Nat) (bp : Int) (t : Quat F), (tA == 'N') = false → i < M.toNat → l < K.toNat → Q4 S bp →
      Safe S W (gemmDotEl k ca cb (A + k.width * (i * LDA)) bp l t) (fun _ => True) := by
    intro ca cb i l bp t ht hi hl hb
    exact safe_seq (safe_loadK (h.AT ht i l hi hl)) fun _ => safe_seq (safe_loadQ hb) fun _ => safe_pure trivial
  have hNN : (tA == 'N') = true → (tB == 'N') = true → ∀ j : Nat, j < N.toNat →
      Safe S W (gemmColNN k M K ALPHA A LDA B LDB BETA C LDC j) (fun _ => True) := by
    intro ta tb j hj
    unfold gemmColNN
    exact safe_i32_bind (h.fC j hj) (safe_i32_bind (h.fBN tb j hj) (safe_seq (hbeta j hj) fun _ => safe_forN fun l hl =>
      safe_i32_bind (h.fAN ta l hl) (safe_forN fun i hi => hax _ i j l _ ta hi hj hl (h.BN tb l j hl hj))))
  have hNT : ∀ cj, (tA == 'N') = true → (tB == 'N') = false → ∀ j : Nat, j < N.toNat →
      Safe S W (gemmColNT k cj M K ALPHA A LDA B LDB BETA C LDC j) (fun _ => True) := by
    intro cj ta tb j hj
    unfold gemmColNT
    exact safe_i32_bind (h.fC j hj) (safe_seq (hbeta j hj) fun _ => safe_forN fun l hl =>
      safe_i32_bind (h.fAN ta l hl) (safe_i32_bind (h.fBT tb l hl) (safe_forN fun i hi => hax _ i j l _ ta hi hj hl (h.BT tb l j hl hj))))
  have hTN : ∀ ca, (tA == 'N') = false → (tB == 'N') = true → ∀ j : Nat, j < N.toNat →
      Safe S W (gemmColTN k ca M K ALPHA A LDA B LDB BETA C LDC j) (fun _ => True) := by
    intro ca ta tb j hj
    unfold gemmColTN
    refine safe_i32_bind (h.fC j hj) (safe_i32_bind (h.fBN tb j hj) (safe_forN fun i hi => ?_))
    unfold gemmElTN
    exact safe_i32_bind (h.fAT ta i hi) (safe_seq (safe_fold fun l t hl => hdot _ _ i l _ t ta hi hl (h.BN tb l j hl hj)) fun t => hst i j t hi hj)
  have hTT : ∀ ca cb, (tA == 'N') = false → (tB == 'N') = false → ∀ j : Nat, j < N.toNat →
      Safe S W (gemmColTT k ca cb M K ALPHA A LDA B LDB BETA C LDC j) (fun _ => True) := by
    intro ca cb ta tb j hj
    unfold gemmColTT
    refine safe_i32_bind (h.fC j hj) (safe_forN fun i hi => ?_)
    unfold gemmElTT
    exact safe_i32_bind (h.fAT ta i hi) (safe_seq (safe_fold fun l t hl => safe_i32_bind (h.fBT tb l hl)
      (hdot _ _ i l _ t ta hi hl (h.BT' tb l j hl hj))) fun t => hst i j t hi hj)
  unfold gemmGen
  dsimp only
  refine safe_ite (fun _ => trivial) fun _ => safe_ite (fun _ => safe_forN fun j hj => ?_) fun _ => safe_ite (fun tb => ?_) fun tb => ?_
  · unfold gemmColA0
    exact safe_i32_bind (h.fC j hj) (safe_ite (fun _ => safe_forN fun i hi => zeroEl_safe (h.c i j hi hj) (h.w i j hi hj)) fun _ =>
      safe_forN fun i hi => betaEl_safe (h.c i j hi hj) (h.w i j hi hj))
  · refine safe_ite (fun ta => safe_forN fun j hj => hNN ta tb j hj) fun ta => ?_
    have ta := Bool.eq_false_iff.2 ta
    exact safe_ite (fun _ => safe_forN fun j hj => hTN _ ta tb j hj) fun _ => safe_forN fun j hj => hTN _ ta tb j hj
  · have tb := Bool.eq_false_iff.2 tb
    refine safe_ite (fun ta => ?_) fun ta => ?_
    · exact safe_ite (fun _ => safe_forN fun j hj => hNT _ ta tb j hj) fun _ => safe_forN fun j hj => hNT _ ta tb j hj
    · have ta := Bool.eq_false_iff.2 ta
      exact safe_ite
        (fun _ => safe_ite (fun _ => safe_forN fun j hj => hTT _ _ ta tb j hj) fun _ => safe_forN fun j hj => hTT _ _ ta tb j hj)
        fun _ => safe_ite (fun _ => safe_forN fun j hj => hTT _ _ ta tb j hj) fun _ => safe_forN fun j hj => hTT _ _ ta tb j hj

theorem mat_k4 {P : Int → Prop} {k : Kind} {A LD : Int} {r c i j : Nat} (h : ∀ a, KMatCell k A LD r c a → P a) (hi : i < r) (hj : j < c) :
    K4 k P (A + k.width * (j * LD) + k.width * i) := by
  intro a h1 h2
  have e : A + k.width * (j * LD) + k.width * i = A + k.width * (i + j * LD) := by ring
  rw [e] at h1 h2
  exact h a ⟨i, j, hi, hj, h1, h2⟩

theorem mat_q4 {P : Int → Prop} {A LD : Int} {r c i j : Nat} (h : ∀ a, MatCell A LD r c a → P a) (hi : i < r) (hj : j < c) :
    Q4 P (A + 4 * (j * LD) + 4 * i) := by
  intro a h1
  have e : A + 4 * (j * LD) + 4 * (i:Int) = A + 4 * (i + j * LD) := by ring
  rw [e] at h1
  exact h a ⟨i, j, hi, hj, h1⟩

theorem PGemm.of {k : Kind} {nA nB : Bool} {M N K A LDA B LDB C LDC : Int}
    (hA : ∀ a, KMatCell k A LDA (if nA then M.toNat else K.toNat) (if nA then K.toNat else M.toNat) a → S a)
    (hB : ∀ a, MatCell B LDB (if nB then K.toNat else N.toNat) (if nB then N.toNat else K.toNat) a → S a)
    (hC : ∀ a, MatCell C LDC M.toNat N.toNat a → S a) (hW : ∀ a, MatCell C LDC M.toNat N.toNat a → W a)
    (fitA : ∀ l : Nat, l < (if nA then K.toNat else M.toNat) → Fits32 (l * LDA))
    (fitB : ∀ l : Nat, l < (if nB then N.toNat else K.toNat) → Fits32 (l * LDB))
    (fitC : ∀ l : Nat, l < N.toNat → Fits32 (l * LDC)) : PGemm S W k nA nB M N K A LDA B LDB C LDC where
  AN e i l hi hl := by subst e; exact mat_k4 hA hi hl
  AT e i l hi hl := by subst e; exact mat_k4 hA hl hi
  BN e l j hl hj := by subst e; exact mat_q4 hB hl hj
  BT e l j hl hj := by subst e; exact mat_q4 hB hj hl
  BT' e l j hl hj := by
    subst e
    have := mat_q4 hB hj hl
    rwa [show B + 4 * (l * LDB) + 4 * (j:Int) = B + 4 * j + 4 * (l * LDB) by ring] at this
  c i j hi hj := mat_q4 hC hi hj
  w i j hi hj := mat_q4 hW hi hj
  fAN e l hl := by subst e; exact fitA l hl
  fAT e i hi := by subst e; exact fitA i hi
  fBN e j hj := by subst e; exact fitB j hj
  fBT e l hl := by subst e; exact fitB l hl
  fC := fitC

theorem safe_rank2_bind {α : Type} {i j LD : Int} {f : Int → Prog F α} {Q : α → Prop} (h1 : Fits32 (j * LD)) (h2 : Fits32 (i + j * LD))
    (hf : Safe S W (f (i + j * LD)) Q) : Safe S W (rank2 i j LD >>= f) Q := by
  refine safe_bind ?_
  unfold rank2
  exact safe_i32_bind h1 ((safe_i32 h2).mono fun r e => by subst e; exact hf)

/-- What the portable GEMV may access. -/
structure PGemv (S W : Int → Prop) (k : Kind) (isN : Prop) [Decidable isN] (M N A LDA X INCX Y INCY : Int) : Prop where
  incX : 0 < INCX
  incY : 0 < INCY
  hA : ∀ a, KMatCell k A LDA M.toNat N.toNat a → S a
  hX : ∀ a, VecCell X INCX (if isN then N else M).toNat a → S a
  hY : ∀ a, VecCell Y INCY (if isN then M else N).toNat a → S a
  hW : ∀ a, VecCell Y INCY (if isN then M else N).toNat a → W a
  fitA : ∀ i j : Nat, i < M.toNat → j < N.toNat → Fits32 (j * LDA) ∧ Fits32 (i + j * LDA)
  fitX : ∀ i : Nat, i ≤ (if isN then N else M).toNat → Fits32 (i * INCX)
  fitY : ∀ i : Nat, i ≤ (if isN then M else N).toNat → Fits32 (i * INCY)

theorem safe_vloop {σ : Type} {n : Nat} {f : Nat → σ → Prog F σ} {s : σ} (INC : Int) (g : σ → Int) (h0 : g s = 0)
    (h : ∀ i t, i < n → g t = (i:Int) * INC → Safe S W (f i t) (fun r => g r = ((i+1 : Nat):Int) * INC)) :
    Safe S W (foldN n f s) (fun _ => True) :=
  (safe_foldI (fun i t => g t = (i:Int) * INC) (by rw [h0]; simp) h).mono fun _ _ => trivial

theorem safe_next {INC : Int} {i n : Nat} (hi : i < n) (h : ∀ i : Nat, i ≤ n → Fits32 (i * INC)) :
    Safe S W (i32 ((i:Int) * INC + INC) : Prog F Int) (fun r => r = ((i+1 : Nat):Int) * INC) := by
  have e : (i:Int) * INC + INC = ((i+1 : Nat):Int) * INC := by push_cast; ring
  rw [e]
  exact safe_i32 (h _ hi)

theorem gemvScale_safe {L Y INCY : Int} {BETA : Scal F} (hY : ∀ a, VecCell Y INCY L.toNat a → S a) (hW : ∀ a, VecCell Y INCY L.toNat a → W a)
    (fit : ∀ i : Nat, i ≤ L.toNat → Fits32 (i * INCY)) : Safe S W (gemvScale L BETA Y INCY) (fun _ => True) := by
  unfold gemvScale
  refine safe_ite (fun _ => safe_ite (fun h1 => ?_) fun _ => ?_) fun _ => trivial
  · subst h1
    exact safe_ite (fun _ => safe_forN fun i hi => zeroEl_safe (vec_q4' hY (by omega) (by omega)) (vec_q4' hW (by omega) (by omega))) fun _ =>
      safe_forN fun i hi => betaEl_safe (vec_q4' hY (by omega) (by omega)) (vec_q4' hW (by omega) (by omega))
  · refine safe_ite (fun _ => safe_seq ?_ fun _ => trivial) fun _ => safe_seq ?_ fun _ => trivial
    · refine safe_vloop INCY (fun t => t) rfl fun i t hi e => ?_
      try dsimp only at e
      subst e
      exact safe_seq (zeroEl_safe (vec_q4 hY hi) (vec_q4 hW hi)) fun _ => safe_next hi fit
    · refine safe_vloop INCY (fun t => t) rfl fun i t hi e => ?_
      try dsimp only at e
      subst e
      exact safe_seq (betaEl_safe (vec_q4 hY hi) (vec_q4 hW hi)) fun _ => safe_next hi fit

theorem gemvGen_safe {k : Kind} {t : Char} {M N A LDA X INCX Y INCY : Int} {ALPHA BETA : Scal F}
    (h : PGemv S W k (t = 'N') M N A LDA X INCX Y INCY) :
    Safe S W (gemvGen k t M N ALPHA A LDA X INCX BETA Y INCY) (fun _ => True) := by
  have kA : ∀ i j : Nat, i < M.toNat → j < N.toNat → K4 k S (A + k.width * ((i:Int) + j * LDA)) := fun i j hi hj a h1 h2 =>
    h.hA a ⟨i, j, hi, hj, h1, h2⟩
  unfold gemvGen
  refine safe_ite (fun _ => trivial) fun _ => safe_assert (by simpa using h.incX) (safe_assert (by simpa using h.incY) ?_)
  have eL : (if t ≠ 'N' then N else M) = if t = 'N' then M else N := by split <;> simp_all
  rw [eL]
  refine safe_seq (gemvScale_safe h.hY h.hW h.fitY) fun _ => safe_ite (fun _ => trivial) fun _ => safe_ite (fun tN => ?_) fun tN => ?_
  · have hX := h.hX; have hY := h.hY; have hW := h.hW; have fX := h.fitX; have fY := h.fitY
    rw [if_pos tN] at hX hY hW fX fY
    have hel : ∀ (i j : Nat) (iy : Int) (ht : Quat F), i < M.toNat → j < N.toNat → iy = i * INCY →
        Safe S W (gemvAxpyEl k ALPHA A LDA X Y j (j * INCX) ht i iy) (fun _ => True) := by
      intro i j iy ht hi hj e
      subst e
      unfold gemvAxpyEl
      exact safe_rank2_bind (h.fitA i j hi hj).1 (h.fitA i j hi hj).2 (safe_seq (safe_loadK (kA i j hi hj)) fun _ =>
        safe_seq (safe_loadQ (vec_q4 hY hi)) fun _ => safe_seq (safe_storeQ (vec_q4 hY hi) (vec_q4 hW hi)) fun _ =>
        safe_seq (safe_loadK (kA i j hi hj)) fun _ => safe_seq (safe_loadQ (vec_q4 hX hj)) fun _ =>
        safe_seq (safe_loadQ (vec_q4 hY hi)) fun _ => safe_storeQ (vec_q4 hY hi) (vec_q4 hW hi))
    refine safe_seq (safe_vloop INCX (fun t => t) rfl fun j jx hj e => ?_) fun _ => trivial
    try dsimp only at e
    subst e
    unfold gemvColN
    refine safe_seq (safe_loadQ (vec_q4 hX hj)) fun x => ?_
    split
    · rename_i h1
      subst h1
      exact safe_seq (safe_forN fun i hi => hel i j _ _ hi hj (by ring)) fun _ => safe_next hj fX
    · refine safe_seq (safe_vloop INCY (fun t => t) rfl fun i iy hi e => ?_) fun _ => safe_next hj fX
      try dsimp only at e
      subst e
      exact safe_seq (hel i j _ _ hi hj rfl) fun _ => safe_next hi fY
  · have hX := h.hX; have hY := h.hY; have hW := h.hW; have fX := h.fitX; have fY := h.fitY
    rw [if_neg tN] at hX hY hW fX fY
    have hel : ∀ (i j : Nat) (ix : Int) (ht : Quat F) (nc : Bool), i < M.toNat → j < N.toNat → ix = i * INCX →
        Safe S W (gemvDotEl k nc A LDA X j i ix ht) (fun _ => True) := by
      intro i j ix ht nc hi hj e
      subst e
      unfold gemvDotEl
      exact safe_rank2_bind (h.fitA i j hi hj).1 (h.fitA i j hi hj).2 (safe_seq (safe_loadK (kA i j hi hj)) fun _ =>
        safe_seq (safe_loadQ (vec_q4 hX hi)) fun _ => safe_pure trivial)
    refine safe_seq (safe_vloop INCY (fun t => t) rfl fun j jy hj e => ?_) fun _ => trivial
    try dsimp only at e
    subst e
    unfold gemvColT
    have fin : ∀ ht : Quat F, Safe S W (do
        let y ← loadQ (Y + 4 * (j * INCY))
        storeQ (Y + 4 * (j * INCY)) (Quat.addAssign y (ALPHA.mulL ht))
        i32 (j * INCY + INCY) : Prog F Int) (fun r => r = ((j+1 : Nat):Int) * INCY) := fun ht =>
      safe_seq (safe_loadQ (vec_q4 hY hj)) fun _ => safe_seq (safe_storeQ (vec_q4 hY hj) (vec_q4 hW hj)) fun _ => safe_next hj fY
    refine safe_ite (fun h1 => ?_) fun _ => ?_
    · subst h1
      exact safe_seq (safe_fold fun i t hi => hel i j _ _ _ hi hj (by ring)) fun ht => fin ht
    · refine safe_seq (safe_seq (safe_vloop (σ := Int × Quat F) INCX (fun t => t.1) rfl fun i t hi e => ?_) fun _ => safe_pure trivial) fun r => fin r
      try dsimp only at e
      rw [e]
      exact safe_seq (hel i j _ _ _ hi hj rfl) fun _ => safe_bind ((safe_next hi fX).mono fun r er => safe_pure er)

/-- What the portable GERU/GERC may access. -/
structure PGer (S W : Int → Prop) (M N X INCX Y INCY A LDA : Int) : Prop where
  incX : 0 < INCX
  incY : 0 < INCY
  hX : ∀ a, VecCell X INCX M.toNat a → S a
  hY : ∀ a, VecCell Y INCY N.toNat a → S a
  hA : ∀ a, MatCell A LDA M.toNat N.toNat a → S a
  hW : ∀ a, MatCell A LDA M.toNat N.toNat a → W a
  fitA : ∀ i j : Nat, i < M.toNat → j < N.toNat → Fits32 (j * LDA) ∧ Fits32 (i + j * LDA)
  fitX : ∀ i : Nat, i ≤ M.toNat → Fits32 (i * INCX)
  fitY : ∀ j : Nat, j ≤ N.toNat → Fits32 (j * INCY)

theorem gerGen_safe {cj : Bool} {M N X INCX Y INCY A LDA : Int} {ALPHA : Scal F} (h : PGer S W M N X INCX Y INCY A LDA) :
    Safe S W (gerGen cj M N ALPHA X INCX Y INCY A LDA) (fun _ => True) := by
  have hel : ∀ (i j : Nat) (ix : Int), i < M.toNat → j < N.toNat → ix = i * INCX →
      Safe S W (gerEl cj ALPHA X Y A LDA j (j * INCY) i ix) (fun _ => True) := by
    intro i j ix hi hj e
    subst e
    unfold gerEl
    have q : ∀ {P : Int → Prop}, (∀ a, MatCell A LDA M.toNat N.toNat a → P a) → Q4 P (A + 4 * ((i:Int) + j * LDA)) := fun hP a ha =>
      hP a ⟨i, j, hi, hj, ha⟩
    exact safe_seq (safe_loadQ (vec_q4 h.hX hi)) fun _ => safe_seq (safe_loadQ (vec_q4 h.hY hj)) fun _ =>
      safe_rank2_bind (h.fitA i j hi hj).1 (h.fitA i j hi hj).2 (safe_seq (safe_loadQ (q h.hA)) fun _ => safe_storeQ (q h.hA) (q h.hW))
  unfold gerGen
  refine safe_ite (fun _ => trivial) fun _ => safe_assert (by simpa using h.incX) (safe_assert (by simpa using h.incY) ?_)
  refine safe_seq (safe_vloop INCY (fun t => t) rfl fun j jy hj e => ?_) fun _ => trivial
  try dsimp only at e
  subst e
  unfold gerCol
  refine safe_seq (safe_loadQ (vec_q4 h.hY hj)) fun y => ?_
  split
  · split
    · rename_i h1
      subst h1
      exact safe_seq (safe_forN fun i hi => hel i j _ hi hj (by ring)) fun _ => safe_next hj h.fitY
    · refine safe_seq (safe_vloop INCX (fun t => t) rfl fun i ix hi e => ?_) fun _ => safe_next hj h.fitY
      try dsimp only at e
      subst e
      exact safe_seq (hel i j _ hi hj rfl) fun _ => safe_next hi h.fitX
  · exact safe_next hj h.fitY

end
end Haxx.Thr
