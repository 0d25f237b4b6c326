import Verif.FGemvLemmas
import Verif.FBits
import Verif.FGemvdd
import Mathlib.Tactic.Ring

/-!
# `hgemvdd`, bit for bit (written by `tools/gen_gemv_bits.py`)
-/

set_option linter.unusedSimpArgs false
set_option linter.unusedSectionVars false
set_option linter.unusedVariables false
set_option linter.unusedTactic false
set_option linter.unreachableTactic false

namespace Haxx
open Arith

variable {F : Type} [Arith F] [ArithEq F]

theorem hgemvdd_if56_bits {K : Mem F → Prop} {m : Mem F} {BETA : F} {BONE BZERO : Bool} {INCY KY LENY Y : Int}
    {ly : Nat} {c : Nat → Quat F} 
    (hz : BZERO = (Scal.d BETA).fIsZero) (ho : BONE = (Scal.d BETA).fIsOne) (hl : BONE = false → LENY.toNat = ly)
    (hky : INCY = 1 → KY = 1)
    (hdisj : ∀ i j : Nat, i < ly → j < ly → i ≠ j → QDisj (Y + 4 * (KY + (i:Int) * INCY - 1)) (Y + 4 * (KY + (j:Int) * INCY - 1)))
    (hst : ∀ m (i : Nat) q, i < ly → K m → K (writeQ m (Y + 4 * (KY + (i:Int) * INCY - 1)) q))
    (hU : Upd K (fun i => Y + 4 * (KY + (i:Int) * INCY - 1)) ly m c m) :
    wp (hgemvdd_if56 BETA BONE BZERO INCY KY LENY Y) m (fun _ m' =>
      Upd K (fun i => Y + 4 * (KY + (i:Int) * INCY - 1)) ly m (fun i => fBetaV (Scal.d BETA) (c i)) m') := by
  unfold hgemvdd_if56
  unfold fBetaV
  rw [← hz, ← ho]
  rw [wp_ite]
  split
  · rename_i hb
    have hb' : BONE = false := by simpa using hb
    rw [hb']
    simp only [Bool.false_eq_true, if_false]
    have hly := hl hb'
    subst hly
    rw [wp_bind]
    unfold hgemvdd_if57
    rw [wp_ite]
    split
    · rename_i h1
      rw [decide_eq_true_eq] at h1
      obtain rfl := hky h1
      subst h1
      have e : (fun i : Nat => Y + 4 * ((1:Int) + (i:Int) * 1 - 1)) = (fun i : Nat => Y + 4 * ((i:Int) + 1 - 1)) := by
        funext i; ring
      have e1 : ∀ i : Nat, Y + 4 * ((1:Int) + (i:Int) * 1 - 1) = Y + 4 * ((i:Int) + 1 - 1) := by intro i; ring
      rw [e] at hU ⊢
      simp only [e1] at hdisj hst
      rw [wp_bind]
      unfold hgemvdd_if58
      rw [wp_ite]
      split
      · simp only [wp_bind, wp_pure]
        refine wp_passU hdisj hst hU ?_
        intro i m _ _ hC
        unfold hgemvdd_10_I
        simp only [el3c_1, el3c_2, el2c_1, el2c_2, wp_bind, wp_pure, wp_rdC_lo hC, wp_rdC_hi hC, wp_wrC_lo hC, wp_wrC_hi hC, wp_wrC_lo (readQ_writeQ_same _ _ _), wp_wrC_hi (readQ_writeQ_same _ _ _), wp_rdC_lo (readQ_writeQ_same _ _ _), wp_rdC_hi (readQ_writeQ_same _ _ _), writeQ_writeQ]
        rfl
      · simp only [wp_bind, wp_pure]
        refine wp_passU hdisj hst hU ?_
        intro i m _ _ hC
        unfold hgemvdd_20_I
        simp only [el3c_1, el3c_2, el2c_1, el2c_2, wp_bind, wp_pure, wp_rdC_lo hC, wp_rdC_hi hC, wp_wrC_lo hC, wp_wrC_hi hC, wp_wrC_lo (readQ_writeQ_same _ _ _), wp_wrC_hi (readQ_writeQ_same _ _ _), wp_rdC_lo (readQ_writeQ_same _ _ _), wp_rdC_hi (readQ_writeQ_same _ _ _), writeQ_writeQ]
        rfl
    · rw [wp_bind]
      unfold hgemvdd_if71
      rw [wp_ite]
      split
      · simp only [wp_bind, wp_pure]
        refine wp_mono (wp_pass (fun i => KY + (i:Int) * INCY) (by simp) hdisj hst hU
          (c' := fun i => fZero) ?_) (fun _ _ h => h.2)
        intro i m _ _ hC
        unfold hgemvdd_30_I
        simp only [el3c_1, el3c_2, el2c_1, el2c_2, wp_bind, wp_pure, wp_rdC_lo hC, wp_rdC_hi hC, wp_wrC_lo hC, wp_wrC_hi hC, wp_wrC_lo (readQ_writeQ_same _ _ _), wp_wrC_hi (readQ_writeQ_same _ _ _), wp_rdC_lo (readQ_writeQ_same _ _ _), wp_rdC_hi (readQ_writeQ_same _ _ _), writeQ_writeQ]
        exact ⟨by push_cast; ring, rfl⟩
      · simp only [wp_bind, wp_pure]
        refine wp_mono (wp_pass (fun i => KY + (i:Int) * INCY) (by simp) hdisj hst hU
          (c' := fun i => fScal (Scal.d BETA) (c i)) ?_) (fun _ _ h => h.2)
        intro i m _ _ hC
        unfold hgemvdd_40_I
        simp only [el3c_1, el3c_2, el2c_1, el2c_2, wp_bind, wp_pure, wp_rdC_lo hC, wp_rdC_hi hC, wp_wrC_lo hC, wp_wrC_hi hC, wp_wrC_lo (readQ_writeQ_same _ _ _), wp_wrC_hi (readQ_writeQ_same _ _ _), wp_rdC_lo (readQ_writeQ_same _ _ _), wp_rdC_hi (readQ_writeQ_same _ _ _), writeQ_writeQ]
        exact ⟨by push_cast; ring, rfl⟩
  · rename_i h
    have h' : BONE = true := by simpa using h
    rw [h', wp_pure]
    simp only [if_true]
    exact hU

theorem hgemvdd_60_bits {K : Mem F → Prop} {m0 m : Mem F} {ALPHA : F} {A LDA M N X INCX Y JX : Int}
    {a : Nat → Nat → Quat F} {x c : Nat → Quat F}
    (env : GvEnv K A LDA M.toNat N.toNat a (X + 4 * (JX - 1)) INCX N.toNat x (fun i => Y + 4 * ((i:Int) + 1 - 1)) M.toNat)
    (hU : Upd K (fun i => Y + 4 * ((i:Int) + 1 - 1)) M.toNat m0 c m) :
    wp (foldN N.toNat (fun i (s : Int) => hgemvdd_60_J A ALPHA INCX LDA M X Y ((i:Int) + 1) s) JX) m (fun _ m' =>
      Upd K (fun i => Y + 4 * ((i:Int) + 1 - 1)) M.toNat m0
        (fun i => fSteps (Scal.d ALPHA) .N (fun k => a i k) x (c i) N.toNat) m') := by
  have hdisj := env.disj
  have hst := env.stable
  refine wp_stepsS (fun j => JX + (j:Int) * INCX) (by simp) (fun k i => fSteps (Scal.d ALPHA) .N (fun k => a i k) x (c i) k) hU ?_
  intro j m hj hU'
  have hX : readQ m (X + 4 * (JX + (j:Int) * INCX - 1)) = some (x j) := by
    rw [← env.rdX m hU'.k j hj]; congr 1; ring
  unfold hgemvdd_60_J
  simp only [el3c_1, el3c_2, el2c_1, el2c_2, wp_bind, wp_pure, wp_rdC_lo hX, wp_rdC_hi hX]
  · 
    refine wp_mono (wp_passU hdisj hst hU'
      (c' := fun i => fSteps (Scal.d ALPHA) .N (fun k => a i k) x (c i) (j+1)) ?_) ?_
    · intro i m hi hk hC
      have hA := env.rdA m hk i j hi hj
      have hA' := matAt_write env.rdA (fun q => hst m i q hi hk) hi hj
      unfold hgemvdd_50_I
      simp only [el3c_1, el3c_2, el2c_1, el2c_2, wp_bind, wp_pure, wp_rdC_lo hA, wp_rdC_hi hA, wp_rdC_lo (hA' _), wp_rdC_hi (hA' _), wp_rdC_lo hC, wp_rdC_hi hC, wp_wrC_lo hC, wp_wrC_hi hC, wp_wrC_lo (readQ_writeQ_same _ _ _), wp_wrC_hi (readQ_writeQ_same _ _ _), wp_rdC_lo (readQ_writeQ_same _ _ _), wp_rdC_hi (readQ_writeQ_same _ _ _), writeQ_writeQ]
      rfl
    · intro _ m' h
      exact ⟨by push_cast; ring, h⟩

theorem hgemvdd_80_bits {K : Mem F → Prop} {m0 m : Mem F} {ALPHA : F} {A LDA M N X INCX Y INCY KY JX : Int}
    {a : Nat → Nat → Quat F} {x c : Nat → Quat F}
    (env : GvEnv K A LDA M.toNat N.toNat a (X + 4 * (JX - 1)) INCX N.toNat x (fun i => Y + 4 * (KY + (i:Int) * INCY - 1)) M.toNat)
    (hU : Upd K (fun i => Y + 4 * (KY + (i:Int) * INCY - 1)) M.toNat m0 c m) :
    wp (foldN N.toNat (fun i (s : Int) => hgemvdd_80_J A ALPHA INCX INCY KY LDA M X Y ((i:Int) + 1) s) JX) m (fun _ m' =>
      Upd K (fun i => Y + 4 * (KY + (i:Int) * INCY - 1)) M.toNat m0
        (fun i => fSteps (Scal.d ALPHA) .N (fun k => a i k) x (c i) N.toNat) m') := by
  have hdisj := env.disj
  have hst := env.stable
  refine wp_stepsS (fun j => JX + (j:Int) * INCX) (by simp) (fun k i => fSteps (Scal.d ALPHA) .N (fun k => a i k) x (c i) k) hU ?_
  intro j m hj hU'
  have hX : readQ m (X + 4 * (JX + (j:Int) * INCX - 1)) = some (x j) := by
    rw [← env.rdX m hU'.k j hj]; congr 1; ring
  unfold hgemvdd_80_J
  simp only [el3c_1, el3c_2, el2c_1, el2c_2, wp_bind, wp_pure, wp_rdC_lo hX, wp_rdC_hi hX]
  · 
    refine wp_mono (wp_pass (fun i => KY + (i:Int) * INCY) (by simp) hdisj hst hU'
      (c' := fun i => fSteps (Scal.d ALPHA) .N (fun k => a i k) x (c i) (j+1)) ?_) ?_
    · intro i m hi hk hC
      have hA := env.rdA m hk i j hi hj
      have hA' := matAt_write env.rdA (fun q => hst m i q hi hk) hi hj
      unfold hgemvdd_70_I
      simp only [el3c_1, el3c_2, el2c_1, el2c_2, wp_bind, wp_pure, wp_rdC_lo hA, wp_rdC_hi hA, wp_rdC_lo (hA' _), wp_rdC_hi (hA' _), wp_rdC_lo hC, wp_rdC_hi hC, wp_wrC_lo hC, wp_wrC_hi hC, wp_wrC_lo (readQ_writeQ_same _ _ _), wp_wrC_hi (readQ_writeQ_same _ _ _), wp_rdC_lo (readQ_writeQ_same _ _ _), wp_rdC_hi (readQ_writeQ_same _ _ _), writeQ_writeQ]
      exact ⟨by push_cast; ring, rfl⟩
    · rintro _ m' ⟨_, h⟩
      exact ⟨by push_cast; ring, h⟩

theorem hgemvdd_if91_bits {K : Mem F → Prop} {m0 m : Mem F} {ALPHA : F} {A LDA M N X INCX Y INCY JX KY : Int}
    {a : Nat → Nat → Quat F} {x c : Nat → Quat F}  (hky : INCY = 1 → KY = 1)
    (env : GvEnv K A LDA M.toNat N.toNat a (X + 4 * (JX - 1)) INCX N.toNat x (fun i => Y + 4 * (KY + (i:Int) * INCY - 1)) M.toNat)
    (hU : Upd K (fun i => Y + 4 * (KY + (i:Int) * INCY - 1)) M.toNat m0 c m) :
    wp (hgemvdd_if91 A ALPHA INCX INCY JX KY LDA M N X Y) m (fun _ m' =>
      Upd K (fun i => Y + 4 * (KY + (i:Int) * INCY - 1)) M.toNat m0
        (fun i => fSteps (Scal.d ALPHA) .N (fun k => a i k) x (c i) N.toNat) m') := by
  unfold hgemvdd_if91
  rw [wp_ite]
  split
  · rename_i h1
    rw [decide_eq_true_eq] at h1
    obtain rfl := hky h1
    subst h1
    have e : (fun i : Nat => Y + 4 * ((1:Int) + (i:Int) * 1 - 1)) = (fun i : Nat => Y + 4 * ((i:Int) + 1 - 1)) := by
      funext i; ring
    rw [e] at hU env ⊢
    rw [wp_bind]
    refine wp_mono (hgemvdd_60_bits env hU) ?_
    intro _ m' h
    rw [wp_pure]; exact h
  · rw [wp_bind]
    refine wp_mono (hgemvdd_80_bits env hU) ?_
    intro _ m' h
    rw [wp_pure]; exact h

theorem hgemvdd_if126_bits {m : Mem F} {A LDA M X : Int} {j : Nat} {NOCONJ : Bool}
    {a : Nat → Nat → Quat F} {x : Nat → Quat F}
    (hA : ∀ i : Nat, i < M.toNat → readQ m (A + 4 * ((i:Int) + j * LDA)) = some (a i j))
    (hx : ∀ i : Nat, i < M.toNat → readQ m (X + 4 * ((i:Int) + 1 - 1)) = some (x i)) :
    wp (hgemvdd_if126 A ⟨zero, zero⟩ ⟨zero, zero⟩ ((j:Int)+1) LDA M NOCONJ X) m (fun r m' => m' = m ∧
      r = ((fAccs (if NOCONJ = true then .T else .C) .N (fun i => a i j) x M.toNat).hi,
        (fAccs (if NOCONJ = true then .T else .C) .N (fun i => a i j) x M.toNat).lo)) := by
  unfold hgemvdd_if126
  cases NOCONJ
  · simp only [Bool.false_eq_true, if_false]
    rw [wp_bind]
    refine wp_acc (fun k s => s = ((fAccs .C .N (fun i => a i j) x k).hi, (fAccs .C .N (fun i => a i j) x k).lo)) ?_ ?_ ?_
    · simp [fAccs, fZero, Quat.hi, Quat.lo, Quat.ofC]
    · rintro i s hi rfl
      have hA := hA i hi
      have hX := hx i hi
      unfold hgemvdd_100_I
      simp only [el3c_1, el3c_2, el2c_1, el2c_2, wp_bind, wp_pure, wp_rdC_lo hA, wp_rdC_hi hA, wp_rdC_lo hX, wp_rdC_hi hX, Prod.mk.injEq, true_and]
      exact ⟨rfl, rfl⟩
    · rintro s rfl
      simp only [wp_pure]
      simp
  · simp only [if_true]
    rw [wp_bind]
    refine wp_acc (fun k s => s = ((fAccs .T .N (fun i => a i j) x k).hi, (fAccs .T .N (fun i => a i j) x k).lo)) ?_ ?_ ?_
    · simp [fAccs, fZero, Quat.hi, Quat.lo, Quat.ofC]
    · rintro i s hi rfl
      have hA := hA i hi
      have hX := hx i hi
      unfold hgemvdd_90_I
      simp only [el3c_1, el3c_2, el2c_1, el2c_2, wp_bind, wp_pure, wp_rdC_lo hA, wp_rdC_hi hA, wp_rdC_lo hX, wp_rdC_hi hX, Prod.mk.injEq, true_and]
      exact ⟨rfl, rfl⟩
    · rintro s rfl
      simp only [wp_pure]
      simp

theorem hgemvdd_if150_bits {m : Mem F} {A LDA M X INCX IX : Int} {j : Nat} {NOCONJ : Bool}
    {a : Nat → Nat → Quat F} {x : Nat → Quat F}
    (hA : ∀ i : Nat, i < M.toNat → readQ m (A + 4 * ((i:Int) + j * LDA)) = some (a i j))
    (hx : ∀ i : Nat, i < M.toNat → readQ m (X + 4 * (IX + (i:Int) * INCX - 1)) = some (x i)) :
    wp (hgemvdd_if150 A ⟨zero, zero⟩ ⟨zero, zero⟩ INCX IX ((j:Int)+1) LDA M NOCONJ X) m (fun r m' => m' = m ∧
      r = ((fAccs (if NOCONJ = true then .T else .C) .N (fun i => a i j) x M.toNat).hi,
        (fAccs (if NOCONJ = true then .T else .C) .N (fun i => a i j) x M.toNat).lo)) := by
  unfold hgemvdd_if150
  cases NOCONJ
  · simp only [Bool.false_eq_true, if_false]
    rw [wp_bind]
    refine wp_acc (fun k s => s = ((fAccs .C .N (fun i => a i j) x k).hi, (fAccs .C .N (fun i => a i j) x k).lo, IX + (k:Int) * INCX)) ?_ ?_ ?_
    · simp [fAccs, fZero, Quat.hi, Quat.lo, Quat.ofC]
    · rintro i s hi rfl
      have hA := hA i hi
      have hX := hx i hi
      unfold hgemvdd_130_I
      simp only [el3c_1, el3c_2, el2c_1, el2c_2, wp_bind, wp_pure, wp_rdC_lo hA, wp_rdC_hi hA, wp_rdC_lo hX, wp_rdC_hi hX, Prod.mk.injEq, true_and]
      exact ⟨rfl, rfl, by push_cast; ring⟩
    · rintro s rfl
      simp only [wp_pure]
      simp
  · simp only [if_true]
    rw [wp_bind]
    refine wp_acc (fun k s => s = ((fAccs .T .N (fun i => a i j) x k).hi, (fAccs .T .N (fun i => a i j) x k).lo, IX + (k:Int) * INCX)) ?_ ?_ ?_
    · simp [fAccs, fZero, Quat.hi, Quat.lo, Quat.ofC]
    · rintro i s hi rfl
      have hA := hA i hi
      have hX := hx i hi
      unfold hgemvdd_120_I
      simp only [el3c_1, el3c_2, el2c_1, el2c_2, wp_bind, wp_pure, wp_rdC_lo hA, wp_rdC_hi hA, wp_rdC_lo hX, wp_rdC_hi hX, Prod.mk.injEq, true_and]
      exact ⟨rfl, rfl, by push_cast; ring⟩
    · rintro s rfl
      simp only [wp_pure]
      simp

theorem hgemvdd_110_bits {K : Mem F → Prop} {m0 m : Mem F} {ALPHA : F} {A LDA M N X Y INCY KY : Int} {NOCONJ : Bool}
    {a : Nat → Nat → Quat F} {x c : Nat → Quat F}
    (env : GvEnv K A LDA M.toNat N.toNat a (X) 1 M.toNat x (fun i => Y + 4 * (KY + (i:Int) * INCY - 1)) N.toNat)
    (hU : Upd K (fun i => Y + 4 * (KY + (i:Int) * INCY - 1)) N.toNat m0 c m) :
    wp (foldN N.toNat (fun i (s : Int) => hgemvdd_110_J A ALPHA INCY LDA M NOCONJ X Y ((i:Int) + 1) s) KY) m (fun _ m' =>
      Upd K (fun i => Y + 4 * (KY + (i:Int) * INCY - 1)) N.toNat m0
        (fun j => fAddBeta (Scal.d ALPHA) (c j) (fAccs (if NOCONJ = true then .T else .C) .N (fun i => a i j) x M.toNat)) m') := by
  refine wp_mono (wp_pass (fun i => KY + (i:Int) * INCY) (by simp) env.disj env.stable hU
    (c' := fun j => fAddBeta (Scal.d ALPHA) (c j) (fAccs (if NOCONJ = true then .T else .C) .N (fun i => a i j) x M.toNat)) ?_) (fun _ _ h => h.2)
  intro j m hj hk hC
  unfold hgemvdd_110_J
  rw [wp_bind]
  refine wp_mono (hgemvdd_if126_bits (a := a) (x := x) (j := j) ?_ ?_) ?_
  · intro i hi; exact env.rdA m hk i j hi hj
  · intro i hi; rw [← env.rdX m hk i hi]; congr 1; ring
  · rintro r m' ⟨rfl, rfl⟩
    simp only [el3c_1, el3c_2, el2c_1, el2c_2, wp_bind, wp_pure, wp_rdC_lo hC, wp_rdC_hi hC, wp_wrC_lo hC, wp_wrC_hi hC, wp_wrC_lo (readQ_writeQ_same _ _ _), wp_wrC_hi (readQ_writeQ_same _ _ _), wp_rdC_lo (readQ_writeQ_same _ _ _), wp_rdC_hi (readQ_writeQ_same _ _ _), writeQ_writeQ]
    exact ⟨by push_cast; ring, rfl⟩

theorem hgemvdd_140_bits {K : Mem F → Prop} {m0 m : Mem F} {ALPHA : F} {A LDA M N X Y INCY KY INCX KX : Int} {NOCONJ : Bool}
    {a : Nat → Nat → Quat F} {x c : Nat → Quat F}
    (env : GvEnv K A LDA M.toNat N.toNat a (X + 4 * (KX - 1)) INCX M.toNat x (fun i => Y + 4 * (KY + (i:Int) * INCY - 1)) N.toNat)
    (hU : Upd K (fun i => Y + 4 * (KY + (i:Int) * INCY - 1)) N.toNat m0 c m) :
    wp (foldN N.toNat (fun i (s : Int) => hgemvdd_140_J A ALPHA INCX INCY KX LDA M NOCONJ X Y ((i:Int) + 1) s) KY) m (fun _ m' =>
      Upd K (fun i => Y + 4 * (KY + (i:Int) * INCY - 1)) N.toNat m0
        (fun j => fAddBeta (Scal.d ALPHA) (c j) (fAccs (if NOCONJ = true then .T else .C) .N (fun i => a i j) x M.toNat)) m') := by
  refine wp_mono (wp_pass (fun i => KY + (i:Int) * INCY) (by simp) env.disj env.stable hU
    (c' := fun j => fAddBeta (Scal.d ALPHA) (c j) (fAccs (if NOCONJ = true then .T else .C) .N (fun i => a i j) x M.toNat)) ?_) (fun _ _ h => h.2)
  intro j m hj hk hC
  unfold hgemvdd_140_J
  rw [wp_bind]
  refine wp_mono (hgemvdd_if150_bits (a := a) (x := x) (j := j) ?_ ?_) ?_
  · intro i hi; exact env.rdA m hk i j hi hj
  · intro i hi; rw [← env.rdX m hk i hi]; congr 1; ring
  · rintro r m' ⟨rfl, rfl⟩
    simp only [el3c_1, el3c_2, el2c_1, el2c_2, wp_bind, wp_pure, wp_rdC_lo hC, wp_rdC_hi hC, wp_wrC_lo hC, wp_wrC_hi hC, wp_wrC_lo (readQ_writeQ_same _ _ _), wp_wrC_hi (readQ_writeQ_same _ _ _), wp_rdC_lo (readQ_writeQ_same _ _ _), wp_rdC_hi (readQ_writeQ_same _ _ _), writeQ_writeQ]
    exact ⟨by push_cast; ring, rfl⟩

theorem hgemvdd_if122_bits {K : Mem F → Prop} {m0 m : Mem F} {ALPHA : F} {A LDA M N X Y INCX INCY KX KY : Int} {NOCONJ : Bool}
    {a : Nat → Nat → Quat F} {x c : Nat → Quat F} (hkx : INCX = 1 → KX = 1)
    (env : GvEnv K A LDA M.toNat N.toNat a (X + 4 * (KX - 1)) INCX M.toNat x (fun i => Y + 4 * (KY + (i:Int) * INCY - 1)) N.toNat)
    (hU : Upd K (fun i => Y + 4 * (KY + (i:Int) * INCY - 1)) N.toNat m0 c m) :
    wp (hgemvdd_if122 A ALPHA INCX INCY KY KX LDA M N NOCONJ X Y) m (fun _ m' =>
      Upd K (fun i => Y + 4 * (KY + (i:Int) * INCY - 1)) N.toNat m0
        (fun j => fAddBeta (Scal.d ALPHA) (c j) (fAccs (if NOCONJ = true then .T else .C) .N (fun i => a i j) x M.toNat)) m') := by
  unfold hgemvdd_if122
  rw [wp_ite]
  split
  · rename_i h1
    rw [decide_eq_true_eq] at h1
    obtain rfl := hkx h1
    subst h1
    rw [show X + 4 * ((1:Int) - 1) = X by ring] at env
    rw [wp_bind]
    refine wp_mono (hgemvdd_110_bits env hU) ?_
    intro _ m' h
    rw [wp_pure]; exact h
  · rw [wp_bind]
    refine wp_mono (hgemvdd_140_bits env hU) ?_
    intro _ m' h
    rw [wp_pure]; exact h

theorem hgemvdd_bits {K : Mem F → Prop} {m : Mem F} {TRANS : Char} {M N : Int} {ALPHA : F} {BETA : F}
    {A LDA X INCX Y INCY : Int} {a : Nat → Nat → Quat F} {x c : Nat → Quat F}  
    
    (hM : M ≠ 0) (hN : N ≠ 0)
    (hst : ∀ m (i : Nat) q, i < (if lsame TRANS 'N' = true then M else N).toNat → K m → K (writeQ m (fbase Y (if lsame TRANS 'N' = true then M else N) INCY + 4 * ((i:Int) * INCY)) q))
    (hdisj : ∀ i j : Nat, i < (if lsame TRANS 'N' = true then M else N).toNat → j < (if lsame TRANS 'N' = true then M else N).toNat → i ≠ j →
      QDisj (fbase Y (if lsame TRANS 'N' = true then M else N) INCY + 4 * ((i:Int) * INCY)) (fbase Y (if lsame TRANS 'N' = true then M else N) INCY + 4 * ((j:Int) * INCY)))
    (env : (Scal.d ALPHA).fIsZero = false → GvEnv K A LDA M.toNat N.toNat a (fbase X (if lsame TRANS 'N' = true then N else M) INCX) INCX (if lsame TRANS 'N' = true then N else M).toNat x
      (fun i => fbase Y (if lsame TRANS 'N' = true then M else N) INCY + 4 * ((i:Int) * INCY)) (if lsame TRANS 'N' = true then M else N).toNat)
    (hk : K m) (hY : VecAt m (fbase Y (if lsame TRANS 'N' = true then M else N) INCY) INCY (if lsame TRANS 'N' = true then M else N).toNat c) :
    wp (hgemvdd TRANS M N ALPHA A LDA X INCX BETA Y INCY) m (fun _ m' =>
      Upd K (fun i => fbase Y (if lsame TRANS 'N' = true then M else N) INCY + 4 * ((i:Int) * INCY)) (if lsame TRANS 'N' = true then M else N).toNat m
        (fun i => fGemv (FTrans.gv TRANS) (Scal.d ALPHA) (Scal.d BETA) (if lsame TRANS 'N' = true then N else M).toNat (fun k => (FTrans.gv TRANS).pick a i k) x (c i)) m') := by
  have hUi : Upd K (fun i => fbase Y (if lsame TRANS 'N' = true then M else N) INCY + 4 * ((i:Int) * INCY)) (if lsame TRANS 'N' = true then M else N).toNat m c m := ⟨hY, hk, fun _ _ => rfl⟩
  have hz : (Cplx.feq (Cplx.ofReal BETA) (⟨zero, zero⟩ : Cplx F)) = (Scal.d BETA).fIsZero := rfl
  have ho : (Cplx.feq (Cplx.ofReal BETA) (⟨one, zero⟩ : Cplx F)) = (Scal.d BETA).fIsOne := rfl
  have ha : (Cplx.feq (Cplx.ofReal ALPHA) (⟨zero, zero⟩ : Cplx F)) = (Scal.d ALPHA).fIsZero := rfl
  unfold hgemvdd
  dsimp only
  rw [wp_ite]
  split
  · rename_i h
    rw [wp_pure]
    simp only [Bool.or_eq_true, decide_eq_true_eq, hM, hN, false_or, or_self] at h
    rw [Bool.and_eq_true] at h
    rw [ho, ha] at h
    simp only [fGemv, fBetaV, h.1, h.2, if_true]
    exact hUi
  · rw [wp_bind, wp_lens]
    dsimp only
    rw [lsame_symm 'N' TRANS]
    have hlx : 0 < INCX ∨ (if lsame TRANS 'N' = true then N else M) = (if lsame TRANS 'N' = true then N else M) := Or.inr rfl
    have hly : (0 < INCY ∧ (Scal.d BETA).fIsOne = true) ∨ (if lsame TRANS 'N' = true then M else N) = (if lsame TRANS 'N' = true then M else N) := Or.inr rfl
    rw [wp_bind, wp_fstart, wp_bind, wp_fstart, wp_bind]
    have hKX : (if INCX > 0 then 1 else 1 - ((if lsame TRANS 'N' = true then N else M) - 1) * INCX) = (if INCX > 0 then 1 else 1 - ((if lsame TRANS 'N' = true then N else M) - 1) * INCX) := by
      rcases hlx with h | h
      · simp only [gt_iff_lt, h, if_true]
      · rw [h]
    have hKY : (if INCY > 0 then 1 else 1 - ((if lsame TRANS 'N' = true then M else N) - 1) * INCY) = (if INCY > 0 then 1 else 1 - ((if lsame TRANS 'N' = true then M else N) - 1) * INCY) := by
      rcases hly with h | h
      · simp only [gt_iff_lt, h.1, if_true]
      · rw [h]
    rw [hKX, hKY]
    have hLY : (Cplx.feq (Cplx.ofReal BETA) (⟨one, zero⟩ : Cplx F)) = false → (if lsame TRANS 'N' = true then M else N).toNat = (if lsame TRANS 'N' = true then M else N).toNat := by
      intro hf
      rcases hly with h | h
      · exact absurd ((ho.symm.trans hf).symm.trans h.2) (by decide)
      · rw [h]
    have hky : INCY = 1 → (if INCY > 0 then 1 else 1 - ((if lsame TRANS 'N' = true then M else N) - 1) * INCY) = 1 := by rintro rfl; rfl
    have hkx : INCX = 1 → (if INCX > 0 then 1 else 1 - ((if lsame TRANS 'N' = true then N else M) - 1) * INCX) = 1 := by rintro rfl; rfl
    have eY : ∀ i : Nat, Y + 4 * ((if INCY > 0 then 1 else 1 - ((if lsame TRANS 'N' = true then M else N) - 1) * INCY) + (i:Int) * INCY - 1) =
      fbase Y (if lsame TRANS 'N' = true then M else N) INCY + 4 * ((i:Int) * INCY) := fun i => fstart Y (if lsame TRANS 'N' = true then M else N) INCY i
    have eX : X + 4 * ((if INCX > 0 then 1 else 1 - ((if lsame TRANS 'N' = true then N else M) - 1) * INCX) - 1) = fbase X (if lsame TRANS 'N' = true then N else M) INCX := by
      have := fstart X (if lsame TRANS 'N' = true then N else M) INCX 0
      simpa using this
    generalize hgKX : (if INCX > 0 then 1 else 1 - ((if lsame TRANS 'N' = true then N else M) - 1) * INCX) = KX at *
    generalize hgKY : (if INCY > 0 then 1 else 1 - ((if lsame TRANS 'N' = true then M else N) - 1) * INCY) = KY at *
    simp only [← eY] at hst hdisj env hUi ⊢
    refine wp_mono (hgemvdd_if56_bits hz ho hLY hky hdisj hst hUi) ?_
    intro _ m1 hU1
    rw [wp_ite]
    split
    · rename_i h
      rw [wp_pure]
      rw [ha] at h
      simp only [fGemv, h, if_true]
      exact hU1
    · rename_i h
      rw [ha, Bool.not_eq_true] at h
      have env := env h
      simp only [fGemv, h, Bool.false_eq_true, if_false]
      rw [wp_bind]
      unfold hgemvdd_if89
      rw [wp_ite]
      split
      · rename_i hNN
        simp only [FTrans.gv, hNN, if_true] at *
        rw [wp_bind]
        rw [← eX] at env
        refine wp_mono (hgemvdd_if91_bits hky env hU1) ?_
        intro _ m' h
        simp only [wp_pure]
        exact h
      · rename_i hNN
        have hgv : FTrans.gv TRANS = if lsame 'T' TRANS = true then .T else .C := by
          unfold FTrans.gv; rw [if_neg hNN]
        rw [hgv]
        simp only [hNN, if_false, Bool.false_eq_true] at *
        rw [wp_bind]
        rw [← eX] at env
        refine wp_mono (hgemvdd_if122_bits (NOCONJ := lsame 'T' TRANS) hkx env hU1) ?_
        intro _ m' h
        simp only [wp_pure]
        cases hT : lsame 'T' TRANS <;> rw [hT] at h <;> exact h

end Haxx
