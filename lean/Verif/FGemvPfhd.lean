import Verif.FGemvLemmas
import Verif.FGemvhd
import Mathlib.Tactic.Ring

/-!
# Correctness of `hgemvhd` (written by `tools/gen_gemv_proofs.py`)
-/

set_option linter.unusedSimpArgs false
set_option linter.unusedSectionVars false
set_option linter.unusedVariables false
set_option linter.unusedTactic false
set_option linter.unreachableTactic false

namespace Haxx
open Arith Quaternion Finset

variable {R : Type} [CommRing R] [DecidableEq R]

theorem hgemvhd_if58_wp {K : Mem R → Prop} {m : Mem R} {BETA : R} {BONE BZERO : Bool} {INCY KY LENY Y : Int}
    {ly : Nat} {c : Nat → Quat R} 
    (hz : BZERO = true → (Scal.d BETA).toH = 0) (ho : BONE = true → (Scal.d BETA).toH = 1) (hl : BONE = false → LENY.toNat = ly)
    (hky : INCY = 1 → KY = 1)
    (hdisj : ∀ i j : Nat, i < ly → j < ly → i ≠ j → QDisj (Y + 4 * (KY + (i:Int) * INCY - 1)) (Y + 4 * (KY + (j:Int) * INCY - 1)))
    (hst : ∀ m (i : Nat) q, i < ly → K m → K (writeQ m (Y + 4 * (KY + (i:Int) * INCY - 1)) q))
    (hU : Upd K (fun i => Y + 4 * (KY + (i:Int) * INCY - 1)) ly m c m) :
    wp (hgemvhd_if58 BETA BONE BZERO INCY KY LENY Y) m (fun _ m' =>
      Upd K (fun i => Y + 4 * (KY + (i:Int) * INCY - 1)) ly m (fun i => Quat.ofH ((Scal.d BETA).toH * (c i).toH)) m') := by
  unfold hgemvhd_if58
  rw [wp_ite]
  split
  · rename_i hb
    have hly := hl (by simpa using hb)
    subst hly
    rw [wp_bind]
    unfold hgemvhd_if59
    rw [wp_ite]
    split
    · rename_i h1
      rw [decide_eq_true_eq] at h1
      obtain rfl := hky h1
      subst h1
      have e : (fun i : Nat => Y + 4 * ((1:Int) + (i:Int) * 1 - 1)) = (fun i : Nat => Y + 4 * ((i:Int) + 1 - 1)) := by
        funext i; ring
      have e1 : ∀ i : Nat, Y + 4 * ((1:Int) + (i:Int) * 1 - 1) = Y + 4 * ((i:Int) + 1 - 1) := by intro i; ring
      rw [e] at hU ⊢
      simp only [e1] at hdisj hst
      rw [wp_bind]
      unfold hgemvhd_if60
      rw [wp_ite]
      split
      · rename_i h
        rw [hz h]
        simp only [wp_bind, wp_pure, zero_mul]
        refine wp_passU hdisj hst hU ?_
        intro i m _ _ hC
        unfold hgemvhd_10_I
        simp only [el3c_1, el3c_2, el2c_1, el2c_2, wp_bind, wp_pure, wp_rdC_lo hC, wp_rdC_hi hC, wp_wrC_lo hC, wp_wrC_hi hC, wp_wrC_lo (readQ_writeQ_same _ _ _), wp_wrC_hi (readQ_writeQ_same _ _ _), wp_rdC_lo (readQ_writeQ_same _ _ _), wp_rdC_hi (readQ_writeQ_same _ _ _), writeQ_writeQ]
        rfl
      · simp only [wp_bind, wp_pure]
        refine wp_passU hdisj hst hU ?_
        intro i m _ _ hC
        unfold hgemvhd_20_I
        simp only [el3c_1, el3c_2, el2c_1, el2c_2, wp_bind, wp_pure, wp_rdC_lo hC, wp_rdC_hi hC, wp_wrC_lo hC, wp_wrC_hi hC, wp_wrC_lo (readQ_writeQ_same _ _ _), wp_wrC_hi (readQ_writeQ_same _ _ _), wp_rdC_lo (readQ_writeQ_same _ _ _), wp_rdC_hi (readQ_writeQ_same _ _ _), writeQ_writeQ]
        refine congrArg (writeQ m _) (eq_ofH ?_)
        ext <;> simp [Scal.toH] <;> ring
    · rw [wp_bind]
      unfold hgemvhd_if73
      rw [wp_ite]
      split
      · rename_i h
        rw [hz h]
        simp only [wp_bind, wp_pure, zero_mul]
        refine wp_mono (wp_pass (fun i => KY + (i:Int) * INCY) (by simp) hdisj hst hU
          (c' := fun i => Quat.ofH 0) ?_) (fun _ _ h => h.2)
        intro i m _ _ hC
        unfold hgemvhd_30_I
        simp only [el3c_1, el3c_2, el2c_1, el2c_2, wp_bind, wp_pure, wp_rdC_lo hC, wp_rdC_hi hC, wp_wrC_lo hC, wp_wrC_hi hC, wp_wrC_lo (readQ_writeQ_same _ _ _), wp_wrC_hi (readQ_writeQ_same _ _ _), wp_rdC_lo (readQ_writeQ_same _ _ _), wp_rdC_hi (readQ_writeQ_same _ _ _), writeQ_writeQ]
        exact ⟨by push_cast; ring, rfl⟩
      · simp only [wp_bind, wp_pure]
        refine wp_mono (wp_pass (fun i => KY + (i:Int) * INCY) (by simp) hdisj hst hU
          (c' := fun i => Quat.ofH ((Scal.d BETA).toH * (c i).toH)) ?_) (fun _ _ h => h.2)
        intro i m _ _ hC
        unfold hgemvhd_40_I
        simp only [el3c_1, el3c_2, el2c_1, el2c_2, wp_bind, wp_pure, wp_rdC_lo hC, wp_rdC_hi hC, wp_wrC_lo hC, wp_wrC_hi hC, wp_wrC_lo (readQ_writeQ_same _ _ _), wp_wrC_hi (readQ_writeQ_same _ _ _), wp_rdC_lo (readQ_writeQ_same _ _ _), wp_rdC_hi (readQ_writeQ_same _ _ _), writeQ_writeQ]
        refine ⟨by push_cast; ring, congrArg (writeQ m _) (eq_ofH ?_)⟩
        ext <;> simp [Scal.toH] <;> ring
  · rename_i h
    rw [ho (by simpa using h), wp_pure]
    simpa using hU

theorem hgemvhd_60_wp {K : Mem R → Prop} {m0 m : Mem R} {ALPHA : Quat R} {A LDA M N X INCX Y JX : Int}
    {a : Nat → Nat → Quat R} {x c : Nat → Quat R}
    (env : GvEnv K A LDA M.toNat N.toNat a (X + 4 * (JX - 1)) INCX N.toNat x (fun i => Y + 4 * ((i:Int) + 1 - 1)) M.toNat)
    (hU : Upd K (fun i => Y + 4 * ((i:Int) + 1 - 1)) M.toNat m0 c m) :
    wp (foldN N.toNat (fun i (s : Int) => hgemvhd_60_J A ALPHA INCX LDA M X Y ((i:Int) + 1) s) JX) m (fun _ m' =>
      Upd K (fun i => Y + 4 * ((i:Int) + 1 - 1)) M.toNat m0
        (fun i => Quat.ofH ((c i).toH + ∑ j ∈ range N.toNat, (Scal.h ALPHA).toH * ((a i j).toH * (x j).toH))) m') := by
  have hdisj := env.disj
  have hst := env.stable
  refine wp_accPassS (fun j => JX + (j:Int) * INCX) (by simp) (fun j i => (Scal.h ALPHA).toH * ((a i j).toH * (x j).toH)) hU ?_
  intro j m c hj hU'
  have hX : readQ m (X + 4 * (JX + (j:Int) * INCX - 1)) = some (x j) := by
    rw [← env.rdX m hU'.k j hj]; congr 1; ring
  unfold hgemvhd_60_J
  simp only [el3c_1, el3c_2, el2c_1, el2c_2, wp_bind, wp_pure, wp_rdC_lo hX, wp_rdC_hi hX]
  · 
    refine wp_mono (wp_passU hdisj hst hU'
      (c' := fun i => Quat.ofH ((c i).toH + (Scal.h ALPHA).toH * ((a i j).toH * (x j).toH))) ?_) ?_
    · intro i m hi hk hC
      have hA := env.rdA m hk i j hi hj
      have hA' := matAt_write env.rdA (fun q => hst m i q hi hk) hi hj
      unfold hgemvhd_50_I
      simp only [el3c_1, el3c_2, el2c_1, el2c_2, wp_bind, wp_pure, wp_rdC_lo hA, wp_rdC_hi hA, wp_rdC_lo (hA' _), wp_rdC_hi (hA' _), wp_rdC_lo hC, wp_rdC_hi hC, wp_wrC_lo hC, wp_wrC_hi hC, wp_wrC_lo (readQ_writeQ_same _ _ _), wp_wrC_hi (readQ_writeQ_same _ _ _), wp_rdC_lo (readQ_writeQ_same _ _ _), wp_rdC_hi (readQ_writeQ_same _ _ _), writeQ_writeQ]
      refine congrArg (writeQ m _) (eq_ofH ?_)
      ext <;> simp [Scal.toH] <;> ring
    · intro _ m' h
      exact ⟨by push_cast; ring, h⟩

theorem hgemvhd_if93_wp {K : Mem R → Prop} {m0 m : Mem R} {ALPHA : Quat R} {A LDA M N X INCX Y INCY JX KY : Int}
    {a : Nat → Nat → Quat R} {x c : Nat → Quat R} (hs : INCY = 1) (hky : INCY = 1 → KY = 1)
    (env : GvEnv K A LDA M.toNat N.toNat a (X + 4 * (JX - 1)) INCX N.toNat x (fun i => Y + 4 * (KY + (i:Int) * INCY - 1)) M.toNat)
    (hU : Upd K (fun i => Y + 4 * (KY + (i:Int) * INCY - 1)) M.toNat m0 c m) :
    wp (hgemvhd_if93 A ALPHA INCX INCY JX KY LDA M N X Y) m (fun _ m' =>
      Upd K (fun i => Y + 4 * (KY + (i:Int) * INCY - 1)) M.toNat m0
        (fun i => Quat.ofH ((c i).toH + ∑ j ∈ range N.toNat, (Scal.h ALPHA).toH * ((a i j).toH * (x j).toH))) m') := by
  unfold hgemvhd_if93
  rw [wp_ite]
  split
  · rename_i h1
    rw [decide_eq_true_eq] at h1
    obtain rfl := hky h1
    subst h1
    have e : (fun i : Nat => Y + 4 * ((1:Int) + (i:Int) * 1 - 1)) = (fun i : Nat => Y + 4 * ((i:Int) + 1 - 1)) := by
      funext i; ring
    rw [e] at hU env ⊢
    rw [wp_bind]
    refine wp_mono (hgemvhd_60_wp env hU) ?_
    intro _ m' h
    rw [wp_pure]; exact h
  · rename_i h1
    exact absurd hs (by simpa using h1)

theorem hgemvhd_if144_wp {m : Mem R} {A LDA M X : Int} {j : Nat} {NOCONJ : Bool}
    {a : Nat → Nat → Quat R} {x : Nat → Quat R}
    (hA : ∀ i : Nat, i < M.toNat → readQ m (A + 4 * ((i:Int) + j * LDA)) = some (a i j))
    (hx : ∀ i : Nat, i < M.toNat → readQ m (X + 4 * ((i:Int) + 1 - 1)) = some (x i)) :
    wp (hgemvhd_if144 A ⟨zero, zero⟩ ⟨zero, zero⟩ ((j:Int)+1) LDA M NOCONJ X) m (fun r m' => m' = m ∧
      r = ((Quat.ofH (∑ i ∈ range M.toNat, (if NOCONJ = true then (a i j).toH else star (a i j).toH) * (x i).toH)).hi,
        (Quat.ofH (∑ i ∈ range M.toNat, (if NOCONJ = true then (a i j).toH else star (a i j).toH) * (x i).toH)).lo)) := by
  unfold hgemvhd_if144
  cases NOCONJ
  · simp only [Bool.false_eq_true, if_false]
    rw [wp_bind]
    refine wp_acc (fun k s => s = ((Quat.ofH (∑ i ∈ range k, star (a i j).toH * (x i).toH)).hi, (Quat.ofH (∑ i ∈ range k, star (a i j).toH * (x i).toH)).lo)) ?_ ?_ ?_
    · simp [Quat.hi, Quat.lo, Quat.ofH]
    · rintro i s hi rfl
      have hA := hA i hi
      have hX := hx i hi
      unfold hgemvhd_100_I
      simp only [el3c_1, el3c_2, el2c_1, el2c_2, wp_bind, wp_pure, wp_rdC_lo hA, wp_rdC_hi hA, wp_rdC_lo hX, wp_rdC_hi hX, Prod.mk.injEq, true_and, sum_range_succ]
      generalize (∑ i ∈ range i, star (a i j).toH * (x i).toH) = S
      refine ⟨?_, ?_⟩ <;> ext <;> simp [Quat.ofH, Quat.lo, Quat.hi] <;> ring
    · rintro s rfl
      simp only [wp_pure]
      simp
  · simp only [if_true]
    rw [wp_bind]
    refine wp_acc (fun k s => s = ((Quat.ofH (∑ i ∈ range k, (a i j).toH * (x i).toH)).hi, (Quat.ofH (∑ i ∈ range k, (a i j).toH * (x i).toH)).lo)) ?_ ?_ ?_
    · simp [Quat.hi, Quat.lo, Quat.ofH]
    · rintro i s hi rfl
      have hA := hA i hi
      have hX := hx i hi
      unfold hgemvhd_90_I
      simp only [el3c_1, el3c_2, el2c_1, el2c_2, wp_bind, wp_pure, wp_rdC_lo hA, wp_rdC_hi hA, wp_rdC_lo hX, wp_rdC_hi hX, Prod.mk.injEq, true_and, sum_range_succ]
      generalize (∑ i ∈ range i, (a i j).toH * (x i).toH) = S
      refine ⟨?_, ?_⟩ <;> ext <;> simp [Quat.ofH, Quat.lo, Quat.hi] <;> ring
    · rintro s rfl
      simp only [wp_pure]
      simp

theorem hgemvhd_if170_wp {m : Mem R} {A LDA M X INCX IX : Int} {j : Nat} {NOCONJ : Bool}
    {a : Nat → Nat → Quat R} {x : Nat → Quat R}
    (hA : ∀ i : Nat, i < M.toNat → readQ m (A + 4 * ((i:Int) + j * LDA)) = some (a i j))
    (hx : ∀ i : Nat, i < M.toNat → readQ m (X + 4 * (IX + (i:Int) * INCX - 1)) = some (x i)) :
    wp (hgemvhd_if170 A ⟨zero, zero⟩ ⟨zero, zero⟩ INCX IX ((j:Int)+1) LDA M NOCONJ X) m (fun r m' => m' = m ∧
      r = ((Quat.ofH (∑ i ∈ range M.toNat, (if NOCONJ = true then (a i j).toH else star (a i j).toH) * (x i).toH)).hi,
        (Quat.ofH (∑ i ∈ range M.toNat, (if NOCONJ = true then (a i j).toH else star (a i j).toH) * (x i).toH)).lo)) := by
  unfold hgemvhd_if170
  cases NOCONJ
  · simp only [Bool.false_eq_true, if_false]
    rw [wp_bind]
    refine wp_acc (fun k s => s = ((Quat.ofH (∑ i ∈ range k, star (a i j).toH * (x i).toH)).hi, (Quat.ofH (∑ i ∈ range k, star (a i j).toH * (x i).toH)).lo, IX + (k:Int) * INCX)) ?_ ?_ ?_
    · simp [Quat.hi, Quat.lo, Quat.ofH]
    · rintro i s hi rfl
      have hA := hA i hi
      have hX := hx i hi
      unfold hgemvhd_130_I
      simp only [el3c_1, el3c_2, el2c_1, el2c_2, wp_bind, wp_pure, wp_rdC_lo hA, wp_rdC_hi hA, wp_rdC_lo hX, wp_rdC_hi hX, Prod.mk.injEq, true_and, sum_range_succ]
      generalize (∑ i ∈ range i, star (a i j).toH * (x i).toH) = S
      refine ⟨?_, ?_, by push_cast; ring⟩ <;> ext <;> simp [Quat.ofH, Quat.lo, Quat.hi] <;> ring
    · rintro s rfl
      simp only [wp_pure]
      simp
  · simp only [if_true]
    rw [wp_bind]
    refine wp_acc (fun k s => s = ((Quat.ofH (∑ i ∈ range k, (a i j).toH * (x i).toH)).hi, (Quat.ofH (∑ i ∈ range k, (a i j).toH * (x i).toH)).lo, IX + (k:Int) * INCX)) ?_ ?_ ?_
    · simp [Quat.hi, Quat.lo, Quat.ofH]
    · rintro i s hi rfl
      have hA := hA i hi
      have hX := hx i hi
      unfold hgemvhd_120_I
      simp only [el3c_1, el3c_2, el2c_1, el2c_2, wp_bind, wp_pure, wp_rdC_lo hA, wp_rdC_hi hA, wp_rdC_lo hX, wp_rdC_hi hX, Prod.mk.injEq, true_and, sum_range_succ]
      generalize (∑ i ∈ range i, (a i j).toH * (x i).toH) = S
      refine ⟨?_, ?_, by push_cast; ring⟩ <;> ext <;> simp [Quat.ofH, Quat.lo, Quat.hi] <;> ring
    · rintro s rfl
      simp only [wp_pure]
      simp

theorem hgemvhd_110_wp {K : Mem R → Prop} {m0 m : Mem R} {ALPHA : Quat R} {A LDA M N X Y INCY KY : Int} {NOCONJ : Bool}
    {a : Nat → Nat → Quat R} {x c : Nat → Quat R}
    (env : GvEnv K A LDA M.toNat N.toNat a (X) 1 M.toNat x (fun i => Y + 4 * (KY + (i:Int) * INCY - 1)) N.toNat)
    (hU : Upd K (fun i => Y + 4 * (KY + (i:Int) * INCY - 1)) N.toNat m0 c m) :
    wp (foldN N.toNat (fun i (s : Int) => hgemvhd_110_J A ALPHA INCY LDA M NOCONJ X Y ((i:Int) + 1) s) KY) m (fun _ m' =>
      Upd K (fun i => Y + 4 * (KY + (i:Int) * INCY - 1)) N.toNat m0
        (fun j => Quat.ofH ((c j).toH + (Scal.h ALPHA).toH * ∑ i ∈ range M.toNat, (if NOCONJ = true then (a i j).toH else star (a i j).toH) * (x i).toH)) m') := by
  refine wp_mono (wp_pass (fun i => KY + (i:Int) * INCY) (by simp) env.disj env.stable hU
    (c' := fun j => Quat.ofH ((c j).toH + (Scal.h ALPHA).toH * ∑ i ∈ range M.toNat, (if NOCONJ = true then (a i j).toH else star (a i j).toH) * (x i).toH)) ?_) (fun _ _ h => h.2)
  intro j m hj hk hC
  unfold hgemvhd_110_J
  rw [wp_bind]
  refine wp_mono (hgemvhd_if144_wp (a := a) (x := x) (j := j) ?_ ?_) ?_
  · intro i hi; exact env.rdA m hk i j hi hj
  · intro i hi; rw [← env.rdX m hk i hi]; congr 1; ring
  · rintro r m' ⟨rfl, rfl⟩
    simp only [el3c_1, el3c_2, el2c_1, el2c_2, wp_bind, wp_pure, wp_rdC_lo hC, wp_rdC_hi hC, wp_wrC_lo hC, wp_wrC_hi hC, wp_wrC_lo (readQ_writeQ_same _ _ _), wp_wrC_hi (readQ_writeQ_same _ _ _), wp_rdC_lo (readQ_writeQ_same _ _ _), wp_rdC_hi (readQ_writeQ_same _ _ _), writeQ_writeQ]
    generalize (∑ i ∈ range M.toNat, (if NOCONJ = true then (a i j).toH else star (a i j).toH) * (x i).toH) = S
    refine ⟨by push_cast; ring, congrArg (writeQ m' _) (eq_ofH ?_)⟩
    ext <;> simp [Scal.toH, Quat.ofH, Quat.lo, Quat.hi] <;> ring

theorem hgemvhd_140_wp {K : Mem R → Prop} {m0 m : Mem R} {ALPHA : Quat R} {A LDA M N X Y INCY KY INCX KX : Int} {NOCONJ : Bool}
    {a : Nat → Nat → Quat R} {x c : Nat → Quat R}
    (env : GvEnv K A LDA M.toNat N.toNat a (X + 4 * (KX - 1)) INCX M.toNat x (fun i => Y + 4 * (KY + (i:Int) * INCY - 1)) N.toNat)
    (hU : Upd K (fun i => Y + 4 * (KY + (i:Int) * INCY - 1)) N.toNat m0 c m) :
    wp (foldN N.toNat (fun i (s : Int) => hgemvhd_140_J A ALPHA INCX INCY KX LDA M NOCONJ X Y ((i:Int) + 1) s) KY) m (fun _ m' =>
      Upd K (fun i => Y + 4 * (KY + (i:Int) * INCY - 1)) N.toNat m0
        (fun j => Quat.ofH ((c j).toH + (Scal.h ALPHA).toH * ∑ i ∈ range M.toNat, (if NOCONJ = true then (a i j).toH else star (a i j).toH) * (x i).toH)) m') := by
  refine wp_mono (wp_pass (fun i => KY + (i:Int) * INCY) (by simp) env.disj env.stable hU
    (c' := fun j => Quat.ofH ((c j).toH + (Scal.h ALPHA).toH * ∑ i ∈ range M.toNat, (if NOCONJ = true then (a i j).toH else star (a i j).toH) * (x i).toH)) ?_) (fun _ _ h => h.2)
  intro j m hj hk hC
  unfold hgemvhd_140_J
  rw [wp_bind]
  refine wp_mono (hgemvhd_if170_wp (a := a) (x := x) (j := j) ?_ ?_) ?_
  · intro i hi; exact env.rdA m hk i j hi hj
  · intro i hi; rw [← env.rdX m hk i hi]; congr 1; ring
  · rintro r m' ⟨rfl, rfl⟩
    simp only [el3c_1, el3c_2, el2c_1, el2c_2, wp_bind, wp_pure, wp_rdC_lo hC, wp_rdC_hi hC, wp_wrC_lo hC, wp_wrC_hi hC, wp_wrC_lo (readQ_writeQ_same _ _ _), wp_wrC_hi (readQ_writeQ_same _ _ _), wp_rdC_lo (readQ_writeQ_same _ _ _), wp_rdC_hi (readQ_writeQ_same _ _ _), writeQ_writeQ]
    generalize (∑ i ∈ range M.toNat, (if NOCONJ = true then (a i j).toH else star (a i j).toH) * (x i).toH) = S
    refine ⟨by push_cast; ring, congrArg (writeQ m' _) (eq_ofH ?_)⟩
    ext <;> simp [Scal.toH, Quat.ofH, Quat.lo, Quat.hi] <;> ring

theorem hgemvhd_if140_wp {K : Mem R → Prop} {m0 m : Mem R} {ALPHA : Quat R} {A LDA M N X Y INCX INCY KX KY : Int} {NOCONJ : Bool}
    {a : Nat → Nat → Quat R} {x c : Nat → Quat R} (hkx : INCX = 1 → KX = 1)
    (env : GvEnv K A LDA M.toNat N.toNat a (X + 4 * (KX - 1)) INCX M.toNat x (fun i => Y + 4 * (KY + (i:Int) * INCY - 1)) N.toNat)
    (hU : Upd K (fun i => Y + 4 * (KY + (i:Int) * INCY - 1)) N.toNat m0 c m) :
    wp (hgemvhd_if140 A ALPHA INCX INCY KY KX LDA M N NOCONJ X Y) m (fun _ m' =>
      Upd K (fun i => Y + 4 * (KY + (i:Int) * INCY - 1)) N.toNat m0
        (fun j => Quat.ofH ((c j).toH + (Scal.h ALPHA).toH * ∑ i ∈ range M.toNat, (if NOCONJ = true then (a i j).toH else star (a i j).toH) * (x i).toH)) m') := by
  unfold hgemvhd_if140
  rw [wp_ite]
  split
  · rename_i h1
    rw [decide_eq_true_eq] at h1
    obtain rfl := hkx h1
    subst h1
    rw [show X + 4 * ((1:Int) - 1) = X by ring] at env
    rw [wp_bind]
    refine wp_mono (hgemvhd_110_wp env hU) ?_
    intro _ m' h
    rw [wp_pure]; exact h
  · rw [wp_bind]
    refine wp_mono (hgemvhd_140_wp env hU) ?_
    intro _ m' h
    rw [wp_pure]; exact h

theorem hgemvhd_wp {K : Mem R → Prop} {m : Mem R} {TRANS : Char} {M N : Int} {ALPHA : Quat R} {BETA : R}
    {A LDA X INCX Y INCY : Int} {a : Nat → Nat → Quat R} {x c : Nat → Quat R}  (hs2 : lsame TRANS 'N' = true → INCY = 1)
    (hlx : 0 < INCX ∨ (if lsame 'T' TRANS = true then N else M) = (if lsame TRANS 'N' = true then N else M)) (hly : (0 < INCY ∧ (Scal.d BETA).toH = 1) ∨ (if lsame 'T' TRANS = true then M else N) = (if lsame TRANS 'N' = true then M else N))
    (hM : M ≠ 0) (hN : N ≠ 0)
    (hst : ∀ m (i : Nat) q, i < (if lsame TRANS 'N' = true then M else N).toNat → K m → K (writeQ m (fbase Y (if lsame TRANS 'N' = true then M else N) INCY + 4 * ((i:Int) * INCY)) q))
    (hdisj : ∀ i j : Nat, i < (if lsame TRANS 'N' = true then M else N).toNat → j < (if lsame TRANS 'N' = true then M else N).toNat → i ≠ j →
      QDisj (fbase Y (if lsame TRANS 'N' = true then M else N) INCY + 4 * ((i:Int) * INCY)) (fbase Y (if lsame TRANS 'N' = true then M else N) INCY + 4 * ((j:Int) * INCY)))
    (env : (Scal.h ALPHA).toH ≠ 0 → GvEnv K A LDA M.toNat N.toNat a (fbase X (if lsame TRANS 'N' = true then N else M) INCX) INCX (if lsame TRANS 'N' = true then N else M).toNat x
      (fun i => fbase Y (if lsame TRANS 'N' = true then M else N) INCY + 4 * ((i:Int) * INCY)) (if lsame TRANS 'N' = true then M else N).toNat)
    (hk : K m) (hY : VecAt m (fbase Y (if lsame TRANS 'N' = true then M else N) INCY) INCY (if lsame TRANS 'N' = true then M else N).toNat c) :
    wp (hgemvhd TRANS M N ALPHA A LDA X INCX BETA Y INCY) m (fun _ m' =>
      Upd K (fun i => fbase Y (if lsame TRANS 'N' = true then M else N) INCY + 4 * ((i:Int) * INCY)) (if lsame TRANS 'N' = true then M else N).toNat m
        (fun i => Quat.ofH ((Scal.h ALPHA).toH * (∑ k ∈ range (if lsame TRANS 'N' = true then N else M).toNat,
          (if lsame TRANS 'N' = true then (a i k).toH else if lsame 'T' TRANS = true then (a k i).toH
            else star (a k i).toH) * (x k).toH) + (Scal.d BETA).toH * (c i).toH)) m') := by
  have hUi : Upd K (fun i => fbase Y (if lsame TRANS 'N' = true then M else N) INCY + 4 * ((i:Int) * INCY)) (if lsame TRANS 'N' = true then M else N).toNat m c m := ⟨hY, hk, fun _ _ => rfl⟩
  have hz : (Cplx.feq (Cplx.ofReal BETA) (⟨zero, zero⟩ : Cplx R)) = true → (Scal.d BETA).toH = 0 := scal0_d _
  have ho : (Cplx.feq (Cplx.ofReal BETA) (⟨one, zero⟩ : Cplx R)) = true → (Scal.d BETA).toH = 1 := scal1_d _
  have ha : (Cplx.feq (Quat.lo ALPHA) (⟨zero, zero⟩ : Cplx R) && Cplx.feq (Quat.hi ALPHA) (⟨zero, zero⟩ : Cplx R)) = true → (Scal.h ALPHA).toH = 0 := scal0_h _
  have ha' : (Scal.h ALPHA).toH = 0 → (Cplx.feq (Quat.lo ALPHA) (⟨zero, zero⟩ : Cplx R) && Cplx.feq (Quat.hi ALPHA) (⟨zero, zero⟩ : Cplx R)) = true := scal0_h' _
  unfold hgemvhd
  dsimp only
  rw [wp_bind, wp_lens]
  dsimp only
  rw [wp_ite]
  split
  · rename_i h
    rw [wp_pure]
    simp only [Bool.or_eq_true, decide_eq_true_eq, hM, hN, false_or, or_self] at h
    rw [Bool.and_eq_true] at h
    rw [ha h.1, ho h.2]
    simpa using hUi
  · skip
    rw [wp_bind, wp_fstart, wp_bind, wp_fstart, wp_bind]
    have hKX : (if INCX > 0 then 1 else 1 - ((if lsame 'T' TRANS = true then N else M) - 1) * INCX) = (if INCX > 0 then 1 else 1 - ((if lsame TRANS 'N' = true then N else M) - 1) * INCX) := by
      rcases hlx with h | h
      · simp only [gt_iff_lt, h, if_true]
      · rw [h]
    have hKY : (if INCY > 0 then 1 else 1 - ((if lsame 'T' TRANS = true then M else N) - 1) * INCY) = (if INCY > 0 then 1 else 1 - ((if lsame TRANS 'N' = true then M else N) - 1) * INCY) := by
      rcases hly with h | h
      · simp only [gt_iff_lt, h.1, if_true]
      · rw [h]
    rw [hKX, hKY]
    have hLY : (Cplx.feq (Cplx.ofReal BETA) (⟨one, zero⟩ : Cplx R)) = false → (if lsame 'T' TRANS = true then M else N).toNat = (if lsame TRANS 'N' = true then M else N).toNat := by
      intro hf
      rcases hly with h | h
      · exact absurd (hf.symm.trans (scal1_d' _ h.2)) (by decide)
      · rw [h]
    have hky : INCY = 1 → (if INCY > 0 then 1 else 1 - ((if lsame TRANS 'N' = true then M else N) - 1) * INCY) = 1 := by rintro rfl; rfl
    have hkx : INCX = 1 → (if INCX > 0 then 1 else 1 - ((if lsame TRANS 'N' = true then N else M) - 1) * INCX) = 1 := by rintro rfl; rfl
    have eY : ∀ i : Nat, Y + 4 * ((if INCY > 0 then 1 else 1 - ((if lsame TRANS 'N' = true then M else N) - 1) * INCY) + (i:Int) * INCY - 1) =
      fbase Y (if lsame TRANS 'N' = true then M else N) INCY + 4 * ((i:Int) * INCY) := fun i => fstart Y (if lsame TRANS 'N' = true then M else N) INCY i
    have eX : X + 4 * ((if INCX > 0 then 1 else 1 - ((if lsame TRANS 'N' = true then N else M) - 1) * INCX) - 1) = fbase X (if lsame TRANS 'N' = true then N else M) INCX := by
      have := fstart X (if lsame TRANS 'N' = true then N else M) INCX 0
      simpa using this
    generalize hgKX : (if INCX > 0 then 1 else 1 - ((if lsame TRANS 'N' = true then N else M) - 1) * INCX) = KX at *
    generalize hgKY : (if INCY > 0 then 1 else 1 - ((if lsame TRANS 'N' = true then M else N) - 1) * INCY) = KY at *
    simp only [← eY] at hst hdisj env hUi ⊢
    refine wp_mono (hgemvhd_if58_wp hz ho hLY hky hdisj hst hUi) ?_
    intro _ m1 hU1
    rw [wp_ite]
    split
    · rename_i h
      rw [wp_pure, ha h]
      simpa using hU1
    · rename_i h
      have env := env (fun h0 => h (ha' h0))
      rw [wp_bind]
      unfold hgemvhd_if91
      rw [wp_ite]
      split
      · rename_i hNN
        simp only [hNN, if_true] at *
        rw [wp_bind]
        rw [← eX] at env
        refine wp_mono (hgemvhd_if93_wp (hs2 trivial) hky env hU1) ?_
        intro _ m' h
        simp only [wp_pure]
        have e : ∀ i, (Quat.ofH ((Scal.d BETA).toH * (c i).toH)).toH + ∑ j ∈ range N.toNat, (Scal.h ALPHA).toH * ((a i j).toH * (x j).toH) =
            (Scal.h ALPHA).toH * (∑ k ∈ range N.toNat, (a i k).toH * (x k).toH) + (Scal.d BETA).toH * (c i).toH := by
          intro i; rw [toH_ofH, mul_sum, add_comm]
        simp only [e] at h
        exact h
      · rename_i hNN
        simp only [hNN, if_false] at *
        rw [wp_bind]
        rw [← eX] at env
        refine wp_mono (hgemvhd_if140_wp (NOCONJ := lsame 'T' TRANS) hkx env hU1) ?_
        intro _ m' h
        simp only [wp_pure]
        simp only [toH_ofH] at h
        have e : ∀ j, (Scal.d BETA).toH * (c j).toH + (Scal.h ALPHA).toH * ∑ i ∈ range M.toNat, (if lsame 'T' TRANS = true then (a i j).toH else star (a i j).toH) * (x i).toH =
            (Scal.h ALPHA).toH * ∑ i ∈ range M.toNat, (if lsame 'T' TRANS = true then (a i j).toH else star (a i j).toH) * (x i).toH + (Scal.d BETA).toH * (c j).toH := by
          intro j; rw [add_comm]
        simp only [e] at h
        exact h

/-- With `ALPHA = 0` and unit stride, what is scaled is the first `LENY` elements for the `LENY` of the code. -/
theorem hgemvhd_alpha0 {m : Mem R} {TRANS : Char} {M N : Int} {ALPHA : Quat R} {BETA : R}
    {A LDA X INCX Y : Int} {c : Nat → Quat R} (hM : M ≠ 0) (hN : N ≠ 0) (h0 : (Scal.h ALPHA).toH = 0) (h1 : (Scal.d BETA).toH ≠ 1)
    (hY : VecAt m Y 1 (if lsame 'T' TRANS = true then M else N).toNat c) :
    wp (hgemvhd TRANS M N ALPHA A LDA X INCX BETA Y 1) m (fun _ m' =>
      VecAt m' Y 1 (if lsame 'T' TRANS = true then M else N).toNat (fun i => Quat.ofH ((Scal.d BETA).toH * (c i).toH)) ∧
      SameOutside (VecCell Y 1 (if lsame 'T' TRANS = true then M else N).toNat) m m') := by
  have hz : (Cplx.feq (Cplx.ofReal BETA) (⟨zero, zero⟩ : Cplx R)) = true → (Scal.d BETA).toH = 0 := scal0_d _
  have ho : (Cplx.feq (Cplx.ofReal BETA) (⟨one, zero⟩ : Cplx R)) = true → (Scal.d BETA).toH = 1 := scal1_d _
  have ha' : (Cplx.feq (Quat.lo ALPHA) (⟨zero, zero⟩ : Cplx R) && Cplx.feq (Quat.hi ALPHA) (⟨zero, zero⟩ : Cplx R)) = true := scal0_h' _ h0
  unfold hgemvhd
  dsimp only
  rw [wp_bind, wp_lens]
  dsimp only
  rw [wp_ite]
  split
  · rename_i h
    simp only [Bool.or_eq_true, decide_eq_true_eq, hM, hN, false_or, or_self] at h
    rw [Bool.and_eq_true] at h
    exact absurd (ho h.2) h1
  · skip
    rw [wp_bind, wp_fstart, wp_bind]
    simp only [gt_iff_lt, Int.zero_lt_one, decide_true, if_true, wp_pure]
    rw [wp_bind]
    have e : ∀ i : Nat, Y + 4 * ((1:Int) + (i:Int) * 1 - 1) = Y + 4 * ((i:Int) * 1) := by intro i; ring
    refine wp_mono (hgemvhd_if58_wp (K := fun _ => True) (KY := 1) (ly := (if lsame 'T' TRANS = true then M else N).toNat) (c := c) hz ho
      (fun _ => rfl) (fun _ => rfl) ?_ (fun _ _ _ _ _ => trivial) ⟨?_, trivial, fun _ _ => rfl⟩) ?_
    · intro i j _ _ hij
      unfold QDisj; omega
    · intro i hi
      rw [e]; exact hY i hi
    · intro _ m1 hU1
      simp only [ha', if_true, wp_pure]
      refine ⟨?_, ?_⟩
      · intro i hi
        rw [← e]; exact hU1.cur i hi
      · intro cc hcc
        refine hU1.out cc ?_
        intro i hi hin
        exact hcc ⟨i, hi, by rw [← e]; exact hin⟩

end Haxx
