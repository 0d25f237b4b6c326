import Verif.GemmPack
import Verif.Spec

/-! Correctness of the micro-kernel. -/

namespace Haxx
open Arith

variable {F : Type}

/-- One multiply-accumulate `r := r + x*y` as the kernel rounds it (which operations, in which
order); over a commutative ring it is `r + x*y` (`toH_qinc`). -/
def qinc [Arith F] (x y r : Quat F) : Quat F :=
  ⟨fnma x.k y.k (fnma x.j y.j (fnma x.i y.i (fma x.re y.re r.re))),
   fnma x.k y.j (fma x.j y.k (fma x.i y.re (fma x.re y.i r.i))),
   fma x.k y.i (fma x.j y.re (fnma x.i y.k (fma x.re y.j r.j))),
   fma x.k y.re (fnma x.j y.i (fma x.i y.j (fma x.re y.k r.k)))⟩

/-- `r := r + x_k*y_k` for `k = 0, …, n-1` in this order. -/
def accum [Arith F] (x y : Nat → Quat F) : Nat → Quat F → Quat F
  | 0, r => r
  | n+1, r => qinc (x n) (y n) (accum x y n r)

theorem accum_add [Arith F] (x y : Nat → Quat F) (a b : Nat) (r : Quat F) :
    accum x y (a + b) r = accum (fun k => x (a + k)) (fun k => y (a + k)) b (accum x y a r) := by
  induction b with
  | zero => rfl
  | succ b ih => rw [← Nat.add_assoc, accum, ih, accum]

theorem accum_congr [Arith F] {x y x' y' : Nat → Quat F} {n : Nat} {r : Quat F}
    (hx : ∀ k, k < n → x k = x' k) (hy : ∀ k, k < n → y k = y' k) :
    accum x y n r = accum x' y' n r := by
  induction n with
  | zero => rfl
  | succ n ih =>
    rw [accum, accum, hx n (by omega), hy n (by omega),
      ih (fun k hk => hx k (by omega)) (fun k hk => hy k (by omega))]

theorem wp_load2A {p : Int} {m : Mem F} {Q : V2 F → Mem F → Prop} {a b : F} (hp : p % 2 = 0)
    (h0 : m p = some a) (h1 : m (p+1) = some b) : wp (load2A p) m Q ↔ Q ⟨a, b⟩ m := by
  unfold load2A
  rw [if_pos hp, wp_bind, wp_rd h0, wp_bind, wp_rd h1, wp_pure]

/-- Kernel registers holding four accumulators. -/
def kreg [Arith F] (c : Nat → Nat → Quat F) : R4 F := transpose4 ⟨c 0 0, c 0 1, c 1 0, c 1 1⟩

theorem kreg_step [Arith F] (xa xb : Nat → Quat F) (c : Nat → Nat → Quat F) :
    INC_MULD4Q_NN
      ⟨permute4 (opT1 (xa 0, xa 1)).1 0x0, permute4 (opT1 (xa 0, xa 1)).1 0xF,
       permute4 (opT1 (xa 0, xa 1)).2 0x0, permute4 (opT1 (xa 0, xa 1)).2 0xF⟩
      ⟨set256 (getLo (opT2 (xb 0, xb 1)).1) (getLo (opT2 (xb 0, xb 1)).1),
       set256 (getLo (opT2 (xb 0, xb 1)).2) (getLo (opT2 (xb 0, xb 1)).2),
       set256 (getHi (opT2 (xb 0, xb 1)).1) (getHi (opT2 (xb 0, xb 1)).1),
       set256 (getHi (opT2 (xb 0, xb 1)).2) (getHi (opT2 (xb 0, xb 1)).2)⟩
      (kreg c) = kreg (fun i j => qinc (xa i) (xb j) (c i j)) := rfl

theorem kern_loop [Arith F] {K : Nat} {A B : Int} {xa xb : Nat → Nat → Quat F}
    {c : Nat → Nat → Quat F} {m : Mem F}
    (hA : ∀ k, k < K → PairAt m (A + 8 * k) (opT1 (xa 0 k, xa 1 k)))
    (hB : ∀ k, k < K → PairAt m (B + 8 * k) (opT2 (xb 0 k, xb 1 k)))
    (haA : aligned32 A = true) (haB : aligned32 B = true) :
    wp (foldN K (fun _ s => kernBody s) ⟨A, B, kreg c⟩) m (fun s m' => m' = m ∧
      s.c = kreg (fun i j => accum (xa i) (xb j) K (c i j))) := by
  apply wp_foldN (fun k (s : KernSt F) m' => m' = m ∧ s = ⟨A + 8 * (k:Int), B + 8 * (k:Int),
    kreg (fun i j => accum (xa i) (xb j) k (c i j))⟩)
  · exact ⟨rfl, by simp [accum]⟩
  · rintro k s m' hk ⟨rfl, rfl⟩
    obtain ⟨a0, a1⟩ := hA k hk
    obtain ⟨b0, b1⟩ := hB k hk
    rw [aligned32_iff] at haA haB
    have b0' := readQ_eq_some.mp b0
    have b1' := readQ_eq_some.mp b1
    have e2 : B + 8 * (k:Int) + 2 + 1 = B + 8 * (k:Int) + 3 := by ring
    have e4 : B + 8 * (k:Int) + 6 = B + 8 * (k:Int) + 4 + 2 := by ring
    have e5 : B + 8 * (k:Int) + 6 + 1 = B + 8 * (k:Int) + 4 + 3 := by ring
    unfold kernBody
    dsimp only
    rw [wp_bind, wp_loadA (by rw [aligned32_iff]; omega) a0, wp_bind,
      wp_loadA (p := A + 8 * (k:Int) + 4 * 1) (by rw [aligned32_iff]; omega) a1, wp_bind,
      wp_load2A (by omega) b0'.1 b0'.2.1, wp_bind,
      wp_load2A (by omega) b0'.2.2.1 (by rw [e2]; exact b0'.2.2.2), wp_bind,
      wp_load2A (by omega) b1'.1 b1'.2.1, wp_bind,
      wp_load2A (by omega) (by rw [e4]; exact b1'.2.2.1) (by rw [e5]; exact b1'.2.2.2), wp_pure]
    refine ⟨rfl, ?_⟩
    rw [KernSt.mk.injEq]
    refine ⟨by push_cast; ring, by push_cast; ring, ?_⟩
    exact kreg_step (fun i => xa i k) (fun j => xb j k) _
  · rintro s m' ⟨rfl, rfl⟩
    exact ⟨rfl, rfl⟩

theorem mat_unique {p ld : Int} {r i j i' j' : Nat} {a : Int} (hld : (r:Int) ≤ ld) (hi : i < r)
    (hi' : i' < r) (h : InQ (p + 4 * ((i:Int) + j * ld)) a)
    (h' : InQ (p + 4 * ((i':Int) + j' * ld)) a) : i = i' ∧ j = j' := by
  by_contra hc
  have := mat_disj (x := p) hld (j := j) (j' := j') hi hi' hc
  unfold QDisj InQ at *
  omega

/-- Storing a small block entry by entry. -/
theorem Kern_wp [Arith F] {mm nn K : Nat} {A B C LDC : Int} {xa xb c : Nat → Nat → Quat F}
    {m0 : Mem F} (hmm : mm = 1 ∨ mm = 2) (hnn : nn = 1 ∨ nn = 2) (hld : (mm:Int) ≤ LDC)
    (hA : ∀ k, k < K → PairAt m0 (A + 8 * k) (opT1 (xa 0 k, xa 1 k)))
    (hB : ∀ k, k < K → PairAt m0 (B + 8 * k) (opT2 (xb 0 k, xb 1 k)))
    (haA : aligned32 A = true) (haB : aligned32 B = true)
    (hC : MatAt m0 C LDC mm nn c) :
    wp (Kern mm nn K A B C LDC) m0 (fun _ m =>
      MatAt m C LDC mm nn (fun i j => accum (xa i) (xb j) K (c i j)) ∧
      SameOutside (MatCell C LDC mm nn) m0 m) := by
  have d01 : QDisj C (C + 4 * 1) := by unfold QDisj; omega
  have dl1 : LDC ≥ 1 := by omega
  have dl : QDisj C (C + 4 * LDC) := by unfold QDisj; omega
  have c00 : readQ m0 C = some (c 0 0) := by
    have := hC 0 0 (by omega) (by omega); simpa using this
  unfold Kern
  simp only [Int.toNat_natCast]
  rw [wp_bind, wp_loadQ c00]
  rcases hmm with rfl | rfl <;> rcases hnn with rfl | rfl
  · -- 1 x 1
    simp only [show (((1:Nat):Int) == 2) = false by decide, Bool.false_eq_true, if_false, Bool.and_self, wp_bind,
      wp_pure]
    refine wp_mono (kern_loop (xa := xa) (xb := xb)
      (c := fun i j => if i = 0 ∧ j = 0 then c 0 0 else setzero) hA hB haA haB) ?_
    rintro s m ⟨rfl, hs⟩
    rw [hs, wp_storeQ c00]
    refine ⟨?_, ?_⟩
    · intro i j hi hj
      have hi0 : i = 0 := by omega
      have hj0 : j = 0 := by omega
      subst hi0; subst hj0
      simp only [Nat.cast_zero, zero_mul, add_zero, mul_zero]
      exact readQ_writeQ_same _ _ _
    · intro a ha
      exact writeQ_other (fun h => ha ⟨0, 0, by omega, by omega, by simpa using h⟩)
  · -- 1 x 2
    have c01 : readQ m0 (C + 4 * LDC) = some (c 0 1) := by
      have := hC 0 1 (by omega) (by omega); simpa using this
    simp only [show (((1:Nat):Int) == 2) = false by decide,
      show (((2:Nat):Int) == 2) = true by decide, Bool.false_eq_true, if_false, if_true,
      Bool.and_true, Bool.false_and, wp_bind, wp_pure, wp_loadQ c01]
    refine wp_mono (kern_loop (xa := xa) (xb := xb)
      (c := fun i j => if i = 0 then c 0 j else setzero) hA hB haA haB) ?_
    rintro s m ⟨rfl, hs⟩
    rw [hs, wp_storeQ c00, wp_storeQ (q0 := c 0 1)
      (by rw [readQ_writeQ_disj (by unfold QDisj at *; omega)]; exact c01)]
    refine ⟨?_, ?_⟩
    · intro i j hi hj
      have hi0 : i = 0 := by omega
      have hj0 : j = 0 ∨ j = 1 := by omega
      subst hi0
      rcases hj0 with rfl | rfl
      · simp only [Nat.cast_zero, zero_mul, add_zero, mul_zero]
        rw [readQ_writeQ_disj dl, readQ_writeQ_same]
        rfl
      · simp only [Nat.cast_zero, Nat.cast_one, one_mul, zero_add]
        exact readQ_writeQ_same _ _ _
    · intro a ha
      rw [writeQ_other (fun h => ha ⟨0, 1, by omega, by omega, by simpa using h⟩),
        writeQ_other (fun h => ha ⟨0, 0, by omega, by omega, by simpa using h⟩)]
  · -- 2 x 1
    have c10 : readQ m0 (C + 4 * 1) = some (c 1 0) := by
      have := hC 1 0 (by omega) (by omega); simpa using this
    simp only [show (((1:Nat):Int) == 2) = false by decide,
      show (((2:Nat):Int) == 2) = true by decide, Bool.false_eq_true, if_false, if_true,
      Bool.and_false, wp_bind, wp_pure, wp_loadQ c10]
    refine wp_mono (kern_loop (xa := xa) (xb := xb)
      (c := fun i j => if j = 0 then c i 0 else setzero) hA hB haA haB) ?_
    rintro s m ⟨rfl, hs⟩
    rw [hs, wp_storeQ c00, wp_storeQ (q0 := c 1 0)
      (by rw [readQ_writeQ_disj (by unfold QDisj at *; omega)]; exact c10)]
    refine ⟨?_, ?_⟩
    · intro i j hi hj
      have hj0 : j = 0 := by omega
      have hi0 : i = 0 ∨ i = 1 := by omega
      subst hj0
      rcases hi0 with rfl | rfl
      · simp only [Nat.cast_zero, zero_mul, add_zero, mul_zero]
        rw [readQ_writeQ_disj d01, readQ_writeQ_same]
        rfl
      · simp only [Nat.cast_zero, Nat.cast_one, zero_mul, add_zero]
        exact readQ_writeQ_same _ _ _
    · intro a ha
      rw [writeQ_other (fun h => ha ⟨1, 0, by omega, by omega, by simpa using h⟩),
        writeQ_other (fun h => ha ⟨0, 0, by omega, by omega, by simpa using h⟩)]
  · -- 2 x 2
    have c01 : readQ m0 (C + 4 * LDC) = some (c 0 1) := by
      have := hC 0 1 (by omega) (by omega); simpa using this
    have c10 : readQ m0 (C + 4 * 1) = some (c 1 0) := by
      have := hC 1 0 (by omega) (by omega); simpa using this
    have c11 : readQ m0 (C + 4 * (LDC + 1)) = some (c 1 1) := by
      have := hC 1 1 (by omega) (by omega)
      rw [← this]; congr 1; push_cast; ring
    simp only [show (((2:Nat):Int) == 2) = true by decide, if_true, 
      Bool.and_self, wp_bind, wp_pure, wp_loadQ c10, wp_loadQ c01, wp_loadQ c11]
    refine wp_mono (kern_loop (xa := xa) (xb := xb) (c := c) hA hB haA haB) ?_
    rintro s m ⟨rfl, hs⟩
    have d : ∀ x y : Int, QDisj x y → QDisj y x := by intro x y h; unfold QDisj at *; omega
    have e1 : QDisj (C + 4 * 1) (C + 4 * LDC) := by unfold QDisj at *; push_cast at *; omega
    have e2 : QDisj C (C + 4 * (LDC + 1)) := by unfold QDisj at *; push_cast at *; omega
    have e3 : QDisj (C + 4 * 1) (C + 4 * (LDC + 1)) := by unfold QDisj at *; push_cast at *; omega
    have e4 : QDisj (C + 4 * LDC) (C + 4 * (LDC + 1)) := by unfold QDisj at *; push_cast at *; omega
    rw [hs, wp_storeQ c00, wp_storeQ (q0 := c 1 0)
      (by rw [readQ_writeQ_disj (d _ _ d01)]; exact c10), wp_storeQ (q0 := c 0 1)
      (by rw [readQ_writeQ_disj (d _ _ e1), readQ_writeQ_disj (d _ _ dl)]; exact c01),
      wp_storeQ (q0 := c 1 1) (by rw [readQ_writeQ_disj (d _ _ e4), readQ_writeQ_disj (d _ _ e3),
        readQ_writeQ_disj (d _ _ e2)]; exact c11)]
    refine ⟨?_, ?_⟩
    · intro i j hi hj
      have hj0 : j = 0 ∨ j = 1 := by omega
      have hi0 : i = 0 ∨ i = 1 := by omega
      rcases hi0 with rfl | rfl <;> rcases hj0 with rfl | rfl
      · simp only [Nat.cast_zero, zero_mul, add_zero, mul_zero]
        rw [readQ_writeQ_disj e2, readQ_writeQ_disj dl, readQ_writeQ_disj d01, readQ_writeQ_same]
        rfl
      · simp only [Nat.cast_zero, Nat.cast_one, one_mul, zero_add]
        rw [readQ_writeQ_disj e4, readQ_writeQ_same]
        rfl
      · simp only [Nat.cast_zero, Nat.cast_one, zero_mul, add_zero]
        rw [readQ_writeQ_disj e3, readQ_writeQ_disj e1, readQ_writeQ_same]
        rfl
      · simp only [Nat.cast_one, one_mul]
        rw [show C + 4 * (1 + LDC) = C + 4 * (LDC + 1) by ring, readQ_writeQ_same]
        rfl
    · intro a ha
      rw [writeQ_other (fun h => ha ⟨1, 1, by omega, by omega, by
            convert h using 1; push_cast; ring⟩),
        writeQ_other (fun h => ha ⟨0, 1, by omega, by omega, by simpa using h⟩),
        writeQ_other (fun h => ha ⟨1, 0, by omega, by omega, by simpa using h⟩),
        writeQ_other (fun h => ha ⟨0, 0, by omega, by omega, by simpa using h⟩)]

end Haxx
