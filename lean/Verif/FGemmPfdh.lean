import Verif.FGemmLemmas
import Verif.FGemmdh
import Mathlib.Tactic.Ring

/-!
# Correctness of `hgemmdh` (written by `tools/gen_gemm_proofs.py`)
-/

set_option linter.unusedSimpArgs false
set_option linter.unusedSectionVars false
set_option linter.unusedVariables false
set_option linter.unusedTactic false
set_option linter.unreachableTactic false

namespace Haxx
open Arith Quaternion Finset

variable {R : Type} [CommRing R] [DecidableEq R]

theorem hgemmdh_10_I_wp {m : Mem R} {C LDC : Int} {i j : Nat} {c : Quat R}
    (hC : readQ m (C + 4 * ((i:Int) + j * LDC)) = some c) :
    wp (hgemmdh_10_I C (j+1) LDC (i+1)) m (fun _ m' =>
      m' = writeQ m (C + 4 * (i + j * LDC)) (Quat.ofH 0)) := by
  unfold hgemmdh_10_I
  simp only [el3c_1, el3c_2, wp_bind, wp_pure, wp_rdC_lo hC, wp_rdC_hi hC, wp_wrC_lo hC, wp_wrC_hi hC, wp_wrC_lo (readQ_writeQ_same _ _ _), wp_wrC_hi (readQ_writeQ_same _ _ _), wp_rdC_lo (readQ_writeQ_same _ _ _), wp_rdC_hi (readQ_writeQ_same _ _ _), writeQ_writeQ]
  rfl

theorem hgemmdh_40_I_wp {m : Mem R} {C LDC : Int} {i j : Nat} {c : Quat R}
    (hC : readQ m (C + 4 * ((i:Int) + j * LDC)) = some c) :
    wp (hgemmdh_40_I C (j+1) LDC (i+1)) m (fun _ m' =>
      m' = writeQ m (C + 4 * (i + j * LDC)) (Quat.ofH 0)) := by
  unfold hgemmdh_40_I
  simp only [el3c_1, el3c_2, wp_bind, wp_pure, wp_rdC_lo hC, wp_rdC_hi hC, wp_wrC_lo hC, wp_wrC_hi hC, wp_wrC_lo (readQ_writeQ_same _ _ _), wp_wrC_hi (readQ_writeQ_same _ _ _), wp_rdC_lo (readQ_writeQ_same _ _ _), wp_rdC_hi (readQ_writeQ_same _ _ _), writeQ_writeQ]
  rfl

theorem hgemmdh_130_I_wp {m : Mem R} {C LDC : Int} {i j : Nat} {c : Quat R}
    (hC : readQ m (C + 4 * ((i:Int) + j * LDC)) = some c) :
    wp (hgemmdh_130_I C (j+1) LDC (i+1)) m (fun _ m' =>
      m' = writeQ m (C + 4 * (i + j * LDC)) (Quat.ofH 0)) := by
  unfold hgemmdh_130_I
  simp only [el3c_1, el3c_2, wp_bind, wp_pure, wp_rdC_lo hC, wp_rdC_hi hC, wp_wrC_lo hC, wp_wrC_hi hC, wp_wrC_lo (readQ_writeQ_same _ _ _), wp_wrC_hi (readQ_writeQ_same _ _ _), wp_rdC_lo (readQ_writeQ_same _ _ _), wp_rdC_hi (readQ_writeQ_same _ _ _), writeQ_writeQ]
  rfl

theorem hgemmdh_180_I_wp {m : Mem R} {C LDC : Int} {i j : Nat} {c : Quat R}
    (hC : readQ m (C + 4 * ((i:Int) + j * LDC)) = some c) :
    wp (hgemmdh_180_I C (j+1) LDC (i+1)) m (fun _ m' =>
      m' = writeQ m (C + 4 * (i + j * LDC)) (Quat.ofH 0)) := by
  unfold hgemmdh_180_I
  simp only [el3c_1, el3c_2, wp_bind, wp_pure, wp_rdC_lo hC, wp_rdC_hi hC, wp_wrC_lo hC, wp_wrC_hi hC, wp_wrC_lo (readQ_writeQ_same _ _ _), wp_wrC_hi (readQ_writeQ_same _ _ _), wp_rdC_lo (readQ_writeQ_same _ _ _), wp_rdC_hi (readQ_writeQ_same _ _ _), writeQ_writeQ]
  rfl

theorem hgemmdh_20_I_wp {m : Mem R} {C LDC : Int} {i j : Nat} {c : Quat R} {BETA : Quat R}
    (hC : readQ m (C + 4 * ((i:Int) + j * LDC)) = some c) :
    wp (hgemmdh_20_I BETA C (j+1) LDC (i+1)) m (fun _ m' =>
      m' = writeQ m (C + 4 * (i + j * LDC)) (Quat.ofH ((Scal.h BETA).toH * c.toH))) := by
  unfold hgemmdh_20_I
  simp only [el3c_1, el3c_2, wp_bind, wp_pure, wp_rdC_lo hC, wp_rdC_hi hC, wp_wrC_lo hC, wp_wrC_hi hC, wp_wrC_lo (readQ_writeQ_same _ _ _), wp_wrC_hi (readQ_writeQ_same _ _ _), wp_rdC_lo (readQ_writeQ_same _ _ _), wp_rdC_hi (readQ_writeQ_same _ _ _), writeQ_writeQ]
  refine congrArg (writeQ m _) (eq_ofH ?_)
  ext <;> simp [Scal.toH] <;> ring

theorem hgemmdh_50_I_wp {m : Mem R} {C LDC : Int} {i j : Nat} {c : Quat R} {BETA : Quat R}
    (hC : readQ m (C + 4 * ((i:Int) + j * LDC)) = some c) :
    wp (hgemmdh_50_I BETA C (j+1) LDC (i+1)) m (fun _ m' =>
      m' = writeQ m (C + 4 * (i + j * LDC)) (Quat.ofH ((Scal.h BETA).toH * c.toH))) := by
  unfold hgemmdh_50_I
  simp only [el3c_1, el3c_2, wp_bind, wp_pure, wp_rdC_lo hC, wp_rdC_hi hC, wp_wrC_lo hC, wp_wrC_hi hC, wp_wrC_lo (readQ_writeQ_same _ _ _), wp_wrC_hi (readQ_writeQ_same _ _ _), wp_rdC_lo (readQ_writeQ_same _ _ _), wp_rdC_hi (readQ_writeQ_same _ _ _), writeQ_writeQ]
  refine congrArg (writeQ m _) (eq_ofH ?_)
  ext <;> simp [Scal.toH] <;> ring

theorem hgemmdh_140_I_wp {m : Mem R} {C LDC : Int} {i j : Nat} {c : Quat R} {BETA : Quat R}
    (hC : readQ m (C + 4 * ((i:Int) + j * LDC)) = some c) :
    wp (hgemmdh_140_I BETA C (j+1) LDC (i+1)) m (fun _ m' =>
      m' = writeQ m (C + 4 * (i + j * LDC)) (Quat.ofH ((Scal.h BETA).toH * c.toH))) := by
  unfold hgemmdh_140_I
  simp only [el3c_1, el3c_2, wp_bind, wp_pure, wp_rdC_lo hC, wp_rdC_hi hC, wp_wrC_lo hC, wp_wrC_hi hC, wp_wrC_lo (readQ_writeQ_same _ _ _), wp_wrC_hi (readQ_writeQ_same _ _ _), wp_rdC_lo (readQ_writeQ_same _ _ _), wp_rdC_hi (readQ_writeQ_same _ _ _), writeQ_writeQ]
  refine congrArg (writeQ m _) (eq_ofH ?_)
  ext <;> simp [Scal.toH] <;> ring

theorem hgemmdh_190_I_wp {m : Mem R} {C LDC : Int} {i j : Nat} {c : Quat R} {BETA : Quat R}
    (hC : readQ m (C + 4 * ((i:Int) + j * LDC)) = some c) :
    wp (hgemmdh_190_I BETA C (j+1) LDC (i+1)) m (fun _ m' =>
      m' = writeQ m (C + 4 * (i + j * LDC)) (Quat.ofH ((Scal.h BETA).toH * c.toH))) := by
  unfold hgemmdh_190_I
  simp only [el3c_1, el3c_2, wp_bind, wp_pure, wp_rdC_lo hC, wp_rdC_hi hC, wp_wrC_lo hC, wp_wrC_hi hC, wp_wrC_lo (readQ_writeQ_same _ _ _), wp_wrC_hi (readQ_writeQ_same _ _ _), wp_rdC_lo (readQ_writeQ_same _ _ _), wp_rdC_hi (readQ_writeQ_same _ _ _), writeQ_writeQ]
  refine congrArg (writeQ m _) (eq_ofH ?_)
  ext <;> simp [Scal.toH] <;> ring

theorem hgemmdh_if113_wp {K : Mem R → Prop} {m0 m : Mem R} {M : Int} {C LDC : Int} {j : Nat}
    {c : Nat → Quat R} {BETA : Quat R} {BONE BZERO : Bool}
    (hz : BZERO = true → (Scal.h BETA).toH = 0) (ho : BONE = true → (Scal.h BETA).toH = 1)
    (hdisj : ∀ i i', i < M.toNat → i' < M.toNat → i ≠ i' →
      QDisj (C + 4 * ((i:Int) + j * LDC)) (C + 4 * ((i':Int) + j * LDC)))
    (hst : ∀ m i q, i < M.toNat → K m → K (writeQ m (C + 4 * ((i:Int) + j * LDC)) q))
    (hU : Upd K (fun i => C + 4 * ((i:Int) + j * LDC)) M.toNat m0 c m) :
    wp (hgemmdh_if113 BETA BONE BZERO C (j+1) LDC M) m (fun _ m' =>
      Upd K (fun i => C + 4 * ((i:Int) + j * LDC)) M.toNat m0
        (fun i => Quat.ofH ((Scal.h BETA).toH * (c i).toH)) m') := by
  unfold hgemmdh_if113
  rw [wp_ite]
  split
  · rename_i h
    rw [hz h]
    simp only [wp_bind, wp_pure, zero_mul]
    refine wp_passU hdisj hst hU ?_
    intro i m _ _ hc
    exact hgemmdh_40_I_wp hc
  · rw [wp_ite]
    split
    · simp only [wp_bind, wp_pure]
      refine wp_passU hdisj hst hU ?_
      intro i m _ _ hc
      exact hgemmdh_50_I_wp hc
    · rename_i h
      rw [ho (by simpa using h), wp_pure]
      simpa using hU

theorem hgemmdh_if342_wp {K : Mem R → Prop} {m0 m : Mem R} {M : Int} {C LDC : Int} {j : Nat}
    {c : Nat → Quat R} {BETA : Quat R} {BONE BZERO : Bool}
    (hz : BZERO = true → (Scal.h BETA).toH = 0) (ho : BONE = true → (Scal.h BETA).toH = 1)
    (hdisj : ∀ i i', i < M.toNat → i' < M.toNat → i ≠ i' →
      QDisj (C + 4 * ((i:Int) + j * LDC)) (C + 4 * ((i':Int) + j * LDC)))
    (hst : ∀ m i q, i < M.toNat → K m → K (writeQ m (C + 4 * ((i:Int) + j * LDC)) q))
    (hU : Upd K (fun i => C + 4 * ((i:Int) + j * LDC)) M.toNat m0 c m) :
    wp (hgemmdh_if342 BETA BONE BZERO C (j+1) LDC M) m (fun _ m' =>
      Upd K (fun i => C + 4 * ((i:Int) + j * LDC)) M.toNat m0
        (fun i => Quat.ofH ((Scal.h BETA).toH * (c i).toH)) m') := by
  unfold hgemmdh_if342
  rw [wp_ite]
  split
  · rename_i h
    rw [hz h]
    simp only [wp_bind, wp_pure, zero_mul]
    refine wp_passU hdisj hst hU ?_
    intro i m _ _ hc
    exact hgemmdh_130_I_wp hc
  · rw [wp_ite]
    split
    · simp only [wp_bind, wp_pure]
      refine wp_passU hdisj hst hU ?_
      intro i m _ _ hc
      exact hgemmdh_140_I_wp hc
    · rename_i h
      rw [ho (by simpa using h), wp_pure]
      simpa using hU

theorem hgemmdh_if424_wp {K : Mem R → Prop} {m0 m : Mem R} {M : Int} {C LDC : Int} {j : Nat}
    {c : Nat → Quat R} {BETA : Quat R} {BONE BZERO : Bool}
    (hz : BZERO = true → (Scal.h BETA).toH = 0) (ho : BONE = true → (Scal.h BETA).toH = 1)
    (hdisj : ∀ i i', i < M.toNat → i' < M.toNat → i ≠ i' →
      QDisj (C + 4 * ((i:Int) + j * LDC)) (C + 4 * ((i':Int) + j * LDC)))
    (hst : ∀ m i q, i < M.toNat → K m → K (writeQ m (C + 4 * ((i:Int) + j * LDC)) q))
    (hU : Upd K (fun i => C + 4 * ((i:Int) + j * LDC)) M.toNat m0 c m) :
    wp (hgemmdh_if424 BETA BONE BZERO C (j+1) LDC M) m (fun _ m' =>
      Upd K (fun i => C + 4 * ((i:Int) + j * LDC)) M.toNat m0
        (fun i => Quat.ofH ((Scal.h BETA).toH * (c i).toH)) m') := by
  unfold hgemmdh_if424
  rw [wp_ite]
  split
  · rename_i h
    rw [hz h]
    simp only [wp_bind, wp_pure, zero_mul]
    refine wp_passU hdisj hst hU ?_
    intro i m _ _ hc
    exact hgemmdh_180_I_wp hc
  · rw [wp_ite]
    split
    · simp only [wp_bind, wp_pure]
      refine wp_passU hdisj hst hU ?_
      intro i m _ _ hc
      exact hgemmdh_190_I_wp hc
    · rename_i h
      rw [ho (by simpa using h), wp_pure]
      simpa using hU

theorem hgemmdh_30_J_wp {Kp : Mem R → Prop} {m : Mem R} {M N K : Int} {A LDA B LDB C LDC : Int}
    {X Y : Nat → Nat → Quat R} {c : Nat → Quat R} {ALPHA : R} {BETA : Quat R} {BONE BZERO : Bool} {j : Nat}
    (env : GEnv Kp A LDA M.toNat K.toNat X B LDB K.toNat N.toNat Y C LDC M.toNat N.toNat)
    (hz : BZERO = true → (Scal.h BETA).toH = 0) (ho : BONE = true → (Scal.h BETA).toH = 1) (hj : j < N.toNat)
    (hU : Upd Kp (fun i => C + 4 * ((i:Int) + j * LDC)) M.toNat m c m) :
    wp (hgemmdh_30_J A ALPHA B BETA BONE BZERO C K LDA LDB LDC M (j+1)) m (fun _ m' =>
      Upd Kp (fun i => C + 4 * ((i:Int) + j * LDC)) M.toNat m
        (fun i => Quat.ofH (gemmSpec (Scal.d ALPHA).toH (Scal.h BETA).toH K.toNat (fun k => ((X i k).toH))
          (fun k => ((Y k j).toH)) (c i).toH)) m') := by
  have hd : ∀ i i', i < M.toNat → i' < M.toNat → i ≠ i' →
      QDisj (C + 4 * ((i:Int) + j * LDC)) (C + 4 * ((i':Int) + j * LDC)) :=
    fun i i' hi hi' hne => env.disj i j i' j hi hi' (fun e => hne e.1)
  have hs : ∀ m i q, i < M.toNat → Kp m → Kp (writeQ m (C + 4 * ((i:Int) + j * LDC)) q) :=
    fun m i q hi hk => env.stable m i j q hi hj hk
  unfold hgemmdh_30_J
  rw [wp_bind]
  refine wp_mono (hgemmdh_if113_wp hz ho hd hs hU) ?_
  intro _ m1 hU1
  rw [wp_bind]
  refine wp_mono (wp_accPass (fun l i => (Scal.d ALPHA).toH * (((X i l).toH) * ((Y l j).toH))) hU1 ?_) ?_
  · intro l m c hl hU
    have hB := env.rdB m hU.k l j hl hj
    unfold hgemmdh_60_L
    simp only [el3c_1, el3c_2, wp_bind, wp_pure, wp_rdC_lo hB, wp_rdC_hi hB]
    refine wp_passU hd hs hU ?_
    intro i m hi hk hC
    have hA := env.rdA m hk i l hi hl
    have hA' := matAt_write env.rdA (fun q => hs m i q hi hk) hi hl
    unfold hgemmdh_70_I
    simp only [el3c_1, el3c_2, wp_bind, wp_pure, wp_rdC_lo hA, wp_rdC_hi hA, wp_rdC_lo (hA' _), wp_rdC_hi (hA' _), wp_rdC_lo hC, wp_rdC_hi hC, wp_wrC_lo hC, wp_wrC_hi hC, wp_wrC_lo (readQ_writeQ_same _ _ _), wp_wrC_hi (readQ_writeQ_same _ _ _), wp_rdC_lo (readQ_writeQ_same _ _ _), wp_rdC_hi (readQ_writeQ_same _ _ _), writeQ_writeQ]
    refine congrArg (writeQ m _) (eq_ofH ?_)
    ext <;> simp [Scal.toH] <;> ring
  · intro _ m' h
    rw [wp_pure]
    have e : (fun i => Quat.ofH ((Quat.ofH ((Scal.h BETA).toH * (c i).toH)).toH + ∑ l ∈ range K.toNat,
        (Scal.d ALPHA).toH * (((X i l).toH) * ((Y l j).toH)))) =
      (fun i => Quat.ofH (gemmSpec (Scal.d ALPHA).toH (Scal.h BETA).toH K.toNat (fun k => ((X i k).toH))
          (fun k => ((Y k j).toH)) (c i).toH)) := by
      funext i
      rw [toH_ofH, gemmSpec, mul_sum, add_comm]
    rw [e] at h
    exact h

theorem hgemmdh_120_J_wp {Kp : Mem R → Prop} {m : Mem R} {M N K : Int} {A LDA B LDB C LDC : Int}
    {X Y : Nat → Nat → Quat R} {c : Nat → Quat R} {ALPHA : R} {BETA : Quat R} {BONE BZERO : Bool} {j : Nat}
    (env : GEnv Kp A LDA M.toNat K.toNat X B LDB N.toNat K.toNat Y C LDC M.toNat N.toNat)
    (hz : BZERO = true → (Scal.h BETA).toH = 0) (ho : BONE = true → (Scal.h BETA).toH = 1) (hj : j < N.toNat)
    (hU : Upd Kp (fun i => C + 4 * ((i:Int) + j * LDC)) M.toNat m c m) :
    wp (hgemmdh_120_J A ALPHA B BETA BONE BZERO C K LDA LDB LDC M (j+1)) m (fun _ m' =>
      Upd Kp (fun i => C + 4 * ((i:Int) + j * LDC)) M.toNat m
        (fun i => Quat.ofH (gemmSpec (Scal.d ALPHA).toH (Scal.h BETA).toH K.toNat (fun k => ((X i k).toH))
          (fun k => (star (Y j k).toH)) (c i).toH)) m') := by
  have hd : ∀ i i', i < M.toNat → i' < M.toNat → i ≠ i' →
      QDisj (C + 4 * ((i:Int) + j * LDC)) (C + 4 * ((i':Int) + j * LDC)) :=
    fun i i' hi hi' hne => env.disj i j i' j hi hi' (fun e => hne e.1)
  have hs : ∀ m i q, i < M.toNat → Kp m → Kp (writeQ m (C + 4 * ((i:Int) + j * LDC)) q) :=
    fun m i q hi hk => env.stable m i j q hi hj hk
  unfold hgemmdh_120_J
  rw [wp_bind]
  refine wp_mono (hgemmdh_if342_wp hz ho hd hs hU) ?_
  intro _ m1 hU1
  rw [wp_bind]
  refine wp_mono (wp_accPass (fun l i => (Scal.d ALPHA).toH * (((X i l).toH) * (star (Y j l).toH))) hU1 ?_) ?_
  · intro l m c hl hU
    have hB := env.rdB m hU.k j l hj hl
    unfold hgemmdh_150_L
    simp only [el3c_1, el3c_2, wp_bind, wp_pure, wp_rdC_lo hB, wp_rdC_hi hB]
    refine wp_passU hd hs hU ?_
    intro i m hi hk hC
    have hA := env.rdA m hk i l hi hl
    have hA' := matAt_write env.rdA (fun q => hs m i q hi hk) hi hl
    unfold hgemmdh_160_I
    simp only [el3c_1, el3c_2, wp_bind, wp_pure, wp_rdC_lo hA, wp_rdC_hi hA, wp_rdC_lo (hA' _), wp_rdC_hi (hA' _), wp_rdC_lo hC, wp_rdC_hi hC, wp_wrC_lo hC, wp_wrC_hi hC, wp_wrC_lo (readQ_writeQ_same _ _ _), wp_wrC_hi (readQ_writeQ_same _ _ _), wp_rdC_lo (readQ_writeQ_same _ _ _), wp_rdC_hi (readQ_writeQ_same _ _ _), writeQ_writeQ]
    refine congrArg (writeQ m _) (eq_ofH ?_)
    ext <;> simp [Scal.toH] <;> ring
  · intro _ m' h
    rw [wp_pure]
    have e : (fun i => Quat.ofH ((Quat.ofH ((Scal.h BETA).toH * (c i).toH)).toH + ∑ l ∈ range K.toNat,
        (Scal.d ALPHA).toH * (((X i l).toH) * (star (Y j l).toH)))) =
      (fun i => Quat.ofH (gemmSpec (Scal.d ALPHA).toH (Scal.h BETA).toH K.toNat (fun k => ((X i k).toH))
          (fun k => (star (Y j k).toH)) (c i).toH)) := by
      funext i
      rw [toH_ofH, gemmSpec, mul_sum, add_comm]
    rw [e] at h
    exact h

theorem hgemmdh_170_J_wp {Kp : Mem R → Prop} {m : Mem R} {M N K : Int} {A LDA B LDB C LDC : Int}
    {X Y : Nat → Nat → Quat R} {c : Nat → Quat R} {ALPHA : R} {BETA : Quat R} {BONE BZERO : Bool} {j : Nat}
    (env : GEnv Kp A LDA M.toNat K.toNat X B LDB N.toNat K.toNat Y C LDC M.toNat N.toNat)
    (hz : BZERO = true → (Scal.h BETA).toH = 0) (ho : BONE = true → (Scal.h BETA).toH = 1) (hj : j < N.toNat)
    (hU : Upd Kp (fun i => C + 4 * ((i:Int) + j * LDC)) M.toNat m c m) :
    wp (hgemmdh_170_J A ALPHA B BETA BONE BZERO C K LDA LDB LDC M (j+1)) m (fun _ m' =>
      Upd Kp (fun i => C + 4 * ((i:Int) + j * LDC)) M.toNat m
        (fun i => Quat.ofH (gemmSpec (Scal.d ALPHA).toH (Scal.h BETA).toH K.toNat (fun k => ((X i k).toH))
          (fun k => ((Y j k).toH)) (c i).toH)) m') := by
  have hd : ∀ i i', i < M.toNat → i' < M.toNat → i ≠ i' →
      QDisj (C + 4 * ((i:Int) + j * LDC)) (C + 4 * ((i':Int) + j * LDC)) :=
    fun i i' hi hi' hne => env.disj i j i' j hi hi' (fun e => hne e.1)
  have hs : ∀ m i q, i < M.toNat → Kp m → Kp (writeQ m (C + 4 * ((i:Int) + j * LDC)) q) :=
    fun m i q hi hk => env.stable m i j q hi hj hk
  unfold hgemmdh_170_J
  rw [wp_bind]
  refine wp_mono (hgemmdh_if424_wp hz ho hd hs hU) ?_
  intro _ m1 hU1
  rw [wp_bind]
  refine wp_mono (wp_accPass (fun l i => (Scal.d ALPHA).toH * (((X i l).toH) * ((Y j l).toH))) hU1 ?_) ?_
  · intro l m c hl hU
    have hB := env.rdB m hU.k j l hj hl
    unfold hgemmdh_200_L
    simp only [el3c_1, el3c_2, wp_bind, wp_pure, wp_rdC_lo hB, wp_rdC_hi hB]
    refine wp_passU hd hs hU ?_
    intro i m hi hk hC
    have hA := env.rdA m hk i l hi hl
    have hA' := matAt_write env.rdA (fun q => hs m i q hi hk) hi hl
    unfold hgemmdh_210_I
    simp only [el3c_1, el3c_2, wp_bind, wp_pure, wp_rdC_lo hA, wp_rdC_hi hA, wp_rdC_lo (hA' _), wp_rdC_hi (hA' _), wp_rdC_lo hC, wp_rdC_hi hC, wp_wrC_lo hC, wp_wrC_hi hC, wp_wrC_lo (readQ_writeQ_same _ _ _), wp_wrC_hi (readQ_writeQ_same _ _ _), wp_rdC_lo (readQ_writeQ_same _ _ _), wp_rdC_hi (readQ_writeQ_same _ _ _), writeQ_writeQ]
    refine congrArg (writeQ m _) (eq_ofH ?_)
    ext <;> simp [Scal.toH] <;> ring
  · intro _ m' h
    rw [wp_pure]
    have e : (fun i => Quat.ofH ((Quat.ofH ((Scal.h BETA).toH * (c i).toH)).toH + ∑ l ∈ range K.toNat,
        (Scal.d ALPHA).toH * (((X i l).toH) * ((Y j l).toH)))) =
      (fun i => Quat.ofH (gemmSpec (Scal.d ALPHA).toH (Scal.h BETA).toH K.toNat (fun k => ((X i k).toH))
          (fun k => ((Y j k).toH)) (c i).toH)) := by
      funext i
      rw [toH_ofH, gemmSpec, mul_sum, add_comm]
    rw [e] at h
    exact h

theorem hgemmdh_80_I_wp {Kp : Mem R → Prop} {m : Mem R} {M N K : Int} {A LDA B LDB C LDC : Int}
    {X Y : Nat → Nat → Quat R} {c : Quat R} {ALPHA : R} {BETA : Quat R} {BZERO : Bool} {i j : Nat}
    (env : GEnv Kp A LDA K.toNat M.toNat X B LDB K.toNat N.toNat Y C LDC M.toNat N.toNat)
    (hz : BZERO = true → (Scal.h BETA).toH = 0) (hi : i < M.toNat) (hj : j < N.toNat) (hk : Kp m)
    (hC : readQ m (C + 4 * ((i:Int) + j * LDC)) = some c) :
    wp (hgemmdh_80_I A ALPHA B BETA BZERO C (j+1) K LDA LDB LDC (i+1)) m (fun _ m' =>
      m' = writeQ m (C + 4 * (i + j * LDC)) (Quat.ofH (gemmSpec (Scal.d ALPHA).toH (Scal.h BETA).toH K.toNat
          (fun k => (star (X k i).toH)) (fun k => ((Y k j).toH)) c.toH))) := by
  unfold hgemmdh_80_I
  simp only [wp_bind]
  refine wp_acc (fun l s => (⟨s.2.re, s.2.im, s.1.re, s.1.im⟩ : Quat R).toH =
    ∑ k ∈ range l, (star (X k i).toH) * ((Y k j).toH)) ?_ ?_ ?_
  · simp only [range_zero, sum_empty]; rfl
  · intro l s hl hs
    have hA := env.rdA m hk l i hl hi
    have hB := env.rdB m hk l j hl hj
    unfold hgemmdh_90_L
    simp only [el3c_1, el3c_2, wp_bind, wp_pure, wp_rdC_lo hA, wp_rdC_hi hA, wp_rdC_lo hB, wp_rdC_hi hB]
    refine ⟨trivial, ?_⟩
    rw [sum_range_succ, ← hs]
    ext <;> simp [Scal.toH] <;> ring
  · intro s hs
    unfold gemmSpec
    rw [← hs]
    cases BZERO
    · simp only [Bool.false_eq_true, if_false, el3c_1, el3c_2, wp_bind, wp_pure, wp_rdC_lo hC, wp_rdC_hi hC, wp_wrC_lo hC, wp_wrC_hi hC, wp_wrC_lo (readQ_writeQ_same _ _ _), wp_wrC_hi (readQ_writeQ_same _ _ _), wp_rdC_lo (readQ_writeQ_same _ _ _), wp_rdC_hi (readQ_writeQ_same _ _ _), writeQ_writeQ]
      refine congrArg (writeQ m _) (eq_ofH ?_)
      ext <;> simp [Scal.toH] <;> ring
    · rw [hz rfl]
      simp only [if_true, el3c_1, el3c_2, wp_bind, wp_pure, wp_rdC_lo hC, wp_rdC_hi hC, wp_wrC_lo hC, wp_wrC_hi hC, wp_wrC_lo (readQ_writeQ_same _ _ _), wp_wrC_hi (readQ_writeQ_same _ _ _), wp_rdC_lo (readQ_writeQ_same _ _ _), wp_rdC_hi (readQ_writeQ_same _ _ _), writeQ_writeQ]
      refine congrArg (writeQ m _) (eq_ofH ?_)
      ext <;> simp [Scal.toH] <;> ring

theorem hgemmdh_100_I_wp {Kp : Mem R → Prop} {m : Mem R} {M N K : Int} {A LDA B LDB C LDC : Int}
    {X Y : Nat → Nat → Quat R} {c : Quat R} {ALPHA : R} {BETA : Quat R} {BZERO : Bool} {i j : Nat}
    (env : GEnv Kp A LDA K.toNat M.toNat X B LDB K.toNat N.toNat Y C LDC M.toNat N.toNat)
    (hz : BZERO = true → (Scal.h BETA).toH = 0) (hi : i < M.toNat) (hj : j < N.toNat) (hk : Kp m)
    (hC : readQ m (C + 4 * ((i:Int) + j * LDC)) = some c) :
    wp (hgemmdh_100_I A ALPHA B BETA BZERO C (j+1) K LDA LDB LDC (i+1)) m (fun _ m' =>
      m' = writeQ m (C + 4 * (i + j * LDC)) (Quat.ofH (gemmSpec (Scal.d ALPHA).toH (Scal.h BETA).toH K.toNat
          (fun k => ((X k i).toH)) (fun k => ((Y k j).toH)) c.toH))) := by
  unfold hgemmdh_100_I
  simp only [wp_bind]
  refine wp_acc (fun l s => (⟨s.2.re, s.2.im, s.1.re, s.1.im⟩ : Quat R).toH =
    ∑ k ∈ range l, ((X k i).toH) * ((Y k j).toH)) ?_ ?_ ?_
  · simp only [range_zero, sum_empty]; rfl
  · intro l s hl hs
    have hA := env.rdA m hk l i hl hi
    have hB := env.rdB m hk l j hl hj
    unfold hgemmdh_110_L
    simp only [el3c_1, el3c_2, wp_bind, wp_pure, wp_rdC_lo hA, wp_rdC_hi hA, wp_rdC_lo hB, wp_rdC_hi hB]
    refine ⟨trivial, ?_⟩
    rw [sum_range_succ, ← hs]
    ext <;> simp [Scal.toH] <;> ring
  · intro s hs
    unfold gemmSpec
    rw [← hs]
    cases BZERO
    · simp only [Bool.false_eq_true, if_false, el3c_1, el3c_2, wp_bind, wp_pure, wp_rdC_lo hC, wp_rdC_hi hC, wp_wrC_lo hC, wp_wrC_hi hC, wp_wrC_lo (readQ_writeQ_same _ _ _), wp_wrC_hi (readQ_writeQ_same _ _ _), wp_rdC_lo (readQ_writeQ_same _ _ _), wp_rdC_hi (readQ_writeQ_same _ _ _), writeQ_writeQ]
      refine congrArg (writeQ m _) (eq_ofH ?_)
      ext <;> simp [Scal.toH] <;> ring
    · rw [hz rfl]
      simp only [if_true, el3c_1, el3c_2, wp_bind, wp_pure, wp_rdC_lo hC, wp_rdC_hi hC, wp_wrC_lo hC, wp_wrC_hi hC, wp_wrC_lo (readQ_writeQ_same _ _ _), wp_wrC_hi (readQ_writeQ_same _ _ _), wp_rdC_lo (readQ_writeQ_same _ _ _), wp_rdC_hi (readQ_writeQ_same _ _ _), writeQ_writeQ]
      refine congrArg (writeQ m _) (eq_ofH ?_)
      ext <;> simp [Scal.toH] <;> ring

theorem hgemmdh_220_I_wp {Kp : Mem R → Prop} {m : Mem R} {M N K : Int} {A LDA B LDB C LDC : Int}
    {X Y : Nat → Nat → Quat R} {c : Quat R} {ALPHA : R} {BETA : Quat R} {BZERO : Bool} {i j : Nat}
    (env : GEnv Kp A LDA K.toNat M.toNat X B LDB N.toNat K.toNat Y C LDC M.toNat N.toNat)
    (hz : BZERO = true → (Scal.h BETA).toH = 0) (hi : i < M.toNat) (hj : j < N.toNat) (hk : Kp m)
    (hC : readQ m (C + 4 * ((i:Int) + j * LDC)) = some c) :
    wp (hgemmdh_220_I A ALPHA B BETA BZERO C (j+1) K LDA LDB LDC (i+1)) m (fun _ m' =>
      m' = writeQ m (C + 4 * (i + j * LDC)) (Quat.ofH (gemmSpec (Scal.d ALPHA).toH (Scal.h BETA).toH K.toNat
          (fun k => (star (X k i).toH)) (fun k => (star (Y j k).toH)) c.toH))) := by
  unfold hgemmdh_220_I
  simp only [wp_bind]
  refine wp_acc (fun l s => (⟨s.2.re, s.2.im, s.1.re, s.1.im⟩ : Quat R).toH =
    ∑ k ∈ range l, (star (X k i).toH) * (star (Y j k).toH)) ?_ ?_ ?_
  · simp only [range_zero, sum_empty]; rfl
  · intro l s hl hs
    have hA := env.rdA m hk l i hl hi
    have hB := env.rdB m hk j l hj hl
    unfold hgemmdh_230_L
    simp only [el3c_1, el3c_2, wp_bind, wp_pure, wp_rdC_lo hA, wp_rdC_hi hA, wp_rdC_lo hB, wp_rdC_hi hB]
    refine ⟨trivial, ?_⟩
    rw [sum_range_succ, ← hs]
    ext <;> simp [Scal.toH] <;> ring
  · intro s hs
    unfold gemmSpec
    rw [← hs]
    cases BZERO
    · simp only [Bool.false_eq_true, if_false, el3c_1, el3c_2, wp_bind, wp_pure, wp_rdC_lo hC, wp_rdC_hi hC, wp_wrC_lo hC, wp_wrC_hi hC, wp_wrC_lo (readQ_writeQ_same _ _ _), wp_wrC_hi (readQ_writeQ_same _ _ _), wp_rdC_lo (readQ_writeQ_same _ _ _), wp_rdC_hi (readQ_writeQ_same _ _ _), writeQ_writeQ]
      refine congrArg (writeQ m _) (eq_ofH ?_)
      ext <;> simp [Scal.toH] <;> ring
    · rw [hz rfl]
      simp only [if_true, el3c_1, el3c_2, wp_bind, wp_pure, wp_rdC_lo hC, wp_rdC_hi hC, wp_wrC_lo hC, wp_wrC_hi hC, wp_wrC_lo (readQ_writeQ_same _ _ _), wp_wrC_hi (readQ_writeQ_same _ _ _), wp_rdC_lo (readQ_writeQ_same _ _ _), wp_rdC_hi (readQ_writeQ_same _ _ _), writeQ_writeQ]
      refine congrArg (writeQ m _) (eq_ofH ?_)
      ext <;> simp [Scal.toH] <;> ring

theorem hgemmdh_240_I_wp {Kp : Mem R → Prop} {m : Mem R} {M N K : Int} {A LDA B LDB C LDC : Int}
    {X Y : Nat → Nat → Quat R} {c : Quat R} {ALPHA : R} {BETA : Quat R} {BZERO : Bool} {i j : Nat}
    (env : GEnv Kp A LDA K.toNat M.toNat X B LDB N.toNat K.toNat Y C LDC M.toNat N.toNat)
    (hz : BZERO = true → (Scal.h BETA).toH = 0) (hi : i < M.toNat) (hj : j < N.toNat) (hk : Kp m)
    (hC : readQ m (C + 4 * ((i:Int) + j * LDC)) = some c) :
    wp (hgemmdh_240_I A ALPHA B BETA BZERO C (j+1) K LDA LDB LDC (i+1)) m (fun _ m' =>
      m' = writeQ m (C + 4 * (i + j * LDC)) (Quat.ofH (gemmSpec (Scal.d ALPHA).toH (Scal.h BETA).toH K.toNat
          (fun k => (star (X k i).toH)) (fun k => ((Y j k).toH)) c.toH))) := by
  unfold hgemmdh_240_I
  simp only [wp_bind]
  refine wp_acc (fun l s => (⟨s.2.re, s.2.im, s.1.re, s.1.im⟩ : Quat R).toH =
    ∑ k ∈ range l, (star (X k i).toH) * ((Y j k).toH)) ?_ ?_ ?_
  · simp only [range_zero, sum_empty]; rfl
  · intro l s hl hs
    have hA := env.rdA m hk l i hl hi
    have hB := env.rdB m hk j l hj hl
    unfold hgemmdh_250_L
    simp only [el3c_1, el3c_2, wp_bind, wp_pure, wp_rdC_lo hA, wp_rdC_hi hA, wp_rdC_lo hB, wp_rdC_hi hB]
    refine ⟨trivial, ?_⟩
    rw [sum_range_succ, ← hs]
    ext <;> simp [Scal.toH] <;> ring
  · intro s hs
    unfold gemmSpec
    rw [← hs]
    cases BZERO
    · simp only [Bool.false_eq_true, if_false, el3c_1, el3c_2, wp_bind, wp_pure, wp_rdC_lo hC, wp_rdC_hi hC, wp_wrC_lo hC, wp_wrC_hi hC, wp_wrC_lo (readQ_writeQ_same _ _ _), wp_wrC_hi (readQ_writeQ_same _ _ _), wp_rdC_lo (readQ_writeQ_same _ _ _), wp_rdC_hi (readQ_writeQ_same _ _ _), writeQ_writeQ]
      refine congrArg (writeQ m _) (eq_ofH ?_)
      ext <;> simp [Scal.toH] <;> ring
    · rw [hz rfl]
      simp only [if_true, el3c_1, el3c_2, wp_bind, wp_pure, wp_rdC_lo hC, wp_rdC_hi hC, wp_wrC_lo hC, wp_wrC_hi hC, wp_wrC_lo (readQ_writeQ_same _ _ _), wp_wrC_hi (readQ_writeQ_same _ _ _), wp_rdC_lo (readQ_writeQ_same _ _ _), wp_rdC_hi (readQ_writeQ_same _ _ _), writeQ_writeQ]
      refine congrArg (writeQ m _) (eq_ofH ?_)
      ext <;> simp [Scal.toH] <;> ring

theorem hgemmdh_260_I_wp {Kp : Mem R → Prop} {m : Mem R} {M N K : Int} {A LDA B LDB C LDC : Int}
    {X Y : Nat → Nat → Quat R} {c : Quat R} {ALPHA : R} {BETA : Quat R} {BZERO : Bool} {i j : Nat}
    (env : GEnv Kp A LDA K.toNat M.toNat X B LDB N.toNat K.toNat Y C LDC M.toNat N.toNat)
    (hz : BZERO = true → (Scal.h BETA).toH = 0) (hi : i < M.toNat) (hj : j < N.toNat) (hk : Kp m)
    (hC : readQ m (C + 4 * ((i:Int) + j * LDC)) = some c) :
    wp (hgemmdh_260_I A ALPHA B BETA BZERO C (j+1) K LDA LDB LDC (i+1)) m (fun _ m' =>
      m' = writeQ m (C + 4 * (i + j * LDC)) (Quat.ofH (gemmSpec (Scal.d ALPHA).toH (Scal.h BETA).toH K.toNat
          (fun k => ((X k i).toH)) (fun k => (star (Y j k).toH)) c.toH))) := by
  unfold hgemmdh_260_I
  simp only [wp_bind]
  refine wp_acc (fun l s => (⟨s.2.re, s.2.im, s.1.re, s.1.im⟩ : Quat R).toH =
    ∑ k ∈ range l, ((X k i).toH) * (star (Y j k).toH)) ?_ ?_ ?_
  · simp only [range_zero, sum_empty]; rfl
  · intro l s hl hs
    have hA := env.rdA m hk l i hl hi
    have hB := env.rdB m hk j l hj hl
    unfold hgemmdh_270_L
    simp only [el3c_1, el3c_2, wp_bind, wp_pure, wp_rdC_lo hA, wp_rdC_hi hA, wp_rdC_lo hB, wp_rdC_hi hB]
    refine ⟨trivial, ?_⟩
    rw [sum_range_succ, ← hs]
    ext <;> simp [Scal.toH] <;> ring
  · intro s hs
    unfold gemmSpec
    rw [← hs]
    cases BZERO
    · simp only [Bool.false_eq_true, if_false, el3c_1, el3c_2, wp_bind, wp_pure, wp_rdC_lo hC, wp_rdC_hi hC, wp_wrC_lo hC, wp_wrC_hi hC, wp_wrC_lo (readQ_writeQ_same _ _ _), wp_wrC_hi (readQ_writeQ_same _ _ _), wp_rdC_lo (readQ_writeQ_same _ _ _), wp_rdC_hi (readQ_writeQ_same _ _ _), writeQ_writeQ]
      refine congrArg (writeQ m _) (eq_ofH ?_)
      ext <;> simp [Scal.toH] <;> ring
    · rw [hz rfl]
      simp only [if_true, el3c_1, el3c_2, wp_bind, wp_pure, wp_rdC_lo hC, wp_rdC_hi hC, wp_wrC_lo hC, wp_wrC_hi hC, wp_wrC_lo (readQ_writeQ_same _ _ _), wp_wrC_hi (readQ_writeQ_same _ _ _), wp_rdC_lo (readQ_writeQ_same _ _ _), wp_rdC_hi (readQ_writeQ_same _ _ _), writeQ_writeQ]
      refine congrArg (writeQ m _) (eq_ofH ?_)
      ext <;> simp [Scal.toH] <;> ring

theorem hgemmdh_280_I_wp {Kp : Mem R → Prop} {m : Mem R} {M N K : Int} {A LDA B LDB C LDC : Int}
    {X Y : Nat → Nat → Quat R} {c : Quat R} {ALPHA : R} {BETA : Quat R} {BZERO : Bool} {i j : Nat}
    (env : GEnv Kp A LDA K.toNat M.toNat X B LDB N.toNat K.toNat Y C LDC M.toNat N.toNat)
    (hz : BZERO = true → (Scal.h BETA).toH = 0) (hi : i < M.toNat) (hj : j < N.toNat) (hk : Kp m)
    (hC : readQ m (C + 4 * ((i:Int) + j * LDC)) = some c) :
    wp (hgemmdh_280_I A ALPHA B BETA BZERO C (j+1) K LDA LDB LDC (i+1)) m (fun _ m' =>
      m' = writeQ m (C + 4 * (i + j * LDC)) (Quat.ofH (gemmSpec (Scal.d ALPHA).toH (Scal.h BETA).toH K.toNat
          (fun k => ((X k i).toH)) (fun k => ((Y j k).toH)) c.toH))) := by
  unfold hgemmdh_280_I
  simp only [wp_bind]
  refine wp_acc (fun l s => (⟨s.2.re, s.2.im, s.1.re, s.1.im⟩ : Quat R).toH =
    ∑ k ∈ range l, ((X k i).toH) * ((Y j k).toH)) ?_ ?_ ?_
  · simp only [range_zero, sum_empty]; rfl
  · intro l s hl hs
    have hA := env.rdA m hk l i hl hi
    have hB := env.rdB m hk j l hj hl
    unfold hgemmdh_290_L
    simp only [el3c_1, el3c_2, wp_bind, wp_pure, wp_rdC_lo hA, wp_rdC_hi hA, wp_rdC_lo hB, wp_rdC_hi hB]
    refine ⟨trivial, ?_⟩
    rw [sum_range_succ, ← hs]
    ext <;> simp [Scal.toH] <;> ring
  · intro s hs
    unfold gemmSpec
    rw [← hs]
    cases BZERO
    · simp only [Bool.false_eq_true, if_false, el3c_1, el3c_2, wp_bind, wp_pure, wp_rdC_lo hC, wp_rdC_hi hC, wp_wrC_lo hC, wp_wrC_hi hC, wp_wrC_lo (readQ_writeQ_same _ _ _), wp_wrC_hi (readQ_writeQ_same _ _ _), wp_rdC_lo (readQ_writeQ_same _ _ _), wp_rdC_hi (readQ_writeQ_same _ _ _), writeQ_writeQ]
      refine congrArg (writeQ m _) (eq_ofH ?_)
      ext <;> simp [Scal.toH] <;> ring
    · rw [hz rfl]
      simp only [if_true, el3c_1, el3c_2, wp_bind, wp_pure, wp_rdC_lo hC, wp_rdC_hi hC, wp_wrC_lo hC, wp_wrC_hi hC, wp_wrC_lo (readQ_writeQ_same _ _ _), wp_wrC_hi (readQ_writeQ_same _ _ _), wp_rdC_lo (readQ_writeQ_same _ _ _), wp_rdC_hi (readQ_writeQ_same _ _ _), writeQ_writeQ]
      refine congrArg (writeQ m _) (eq_ofH ?_)
      ext <;> simp [Scal.toH] <;> ring

theorem hgemmdh_30_wp {Kp : Mem R → Prop} {m : Mem R} {M N K : Int} {A LDA B LDB C LDC : Int}
    {X Y c : Nat → Nat → Quat R} {ALPHA : R} {BETA : Quat R} {BONE BZERO : Bool}
    (env : GEnv Kp A LDA M.toNat K.toNat X B LDB K.toNat N.toNat Y C LDC M.toNat N.toNat)
    (hz : BZERO = true → (Scal.h BETA).toH = 0) (ho : BONE = true → (Scal.h BETA).toH = 1) (hk : Kp m)
    (hc : MatAt m C LDC M.toNat N.toNat c) :
    wp (forN N.toNat (fun i => hgemmdh_30_J A ALPHA B BETA BONE BZERO C K LDA LDB LDC M ((i : Int) + 1))) m
      (fun _ m' => GPost Kp m C LDC M.toNat N.toNat (fun i j => Quat.ofH (gemmSpec (Scal.d ALPHA).toH (Scal.h BETA).toH
        K.toNat (fun k => ((X i k).toH)) (fun k => ((Y k j).toH)) (c i j).toH)) m') := by
  refine wp_colsU env.disj hk hc ?_
  intro j m hj hU
  exact hgemmdh_30_J_wp env hz ho hj hU

theorem hgemmdh_120_wp {Kp : Mem R → Prop} {m : Mem R} {M N K : Int} {A LDA B LDB C LDC : Int}
    {X Y c : Nat → Nat → Quat R} {ALPHA : R} {BETA : Quat R} {BONE BZERO : Bool}
    (env : GEnv Kp A LDA M.toNat K.toNat X B LDB N.toNat K.toNat Y C LDC M.toNat N.toNat)
    (hz : BZERO = true → (Scal.h BETA).toH = 0) (ho : BONE = true → (Scal.h BETA).toH = 1) (hk : Kp m)
    (hc : MatAt m C LDC M.toNat N.toNat c) :
    wp (forN N.toNat (fun i => hgemmdh_120_J A ALPHA B BETA BONE BZERO C K LDA LDB LDC M ((i : Int) + 1))) m
      (fun _ m' => GPost Kp m C LDC M.toNat N.toNat (fun i j => Quat.ofH (gemmSpec (Scal.d ALPHA).toH (Scal.h BETA).toH
        K.toNat (fun k => ((X i k).toH)) (fun k => (star (Y j k).toH)) (c i j).toH)) m') := by
  refine wp_colsU env.disj hk hc ?_
  intro j m hj hU
  exact hgemmdh_120_J_wp env hz ho hj hU

theorem hgemmdh_170_wp {Kp : Mem R → Prop} {m : Mem R} {M N K : Int} {A LDA B LDB C LDC : Int}
    {X Y c : Nat → Nat → Quat R} {ALPHA : R} {BETA : Quat R} {BONE BZERO : Bool}
    (env : GEnv Kp A LDA M.toNat K.toNat X B LDB N.toNat K.toNat Y C LDC M.toNat N.toNat)
    (hz : BZERO = true → (Scal.h BETA).toH = 0) (ho : BONE = true → (Scal.h BETA).toH = 1) (hk : Kp m)
    (hc : MatAt m C LDC M.toNat N.toNat c) :
    wp (forN N.toNat (fun i => hgemmdh_170_J A ALPHA B BETA BONE BZERO C K LDA LDB LDC M ((i : Int) + 1))) m
      (fun _ m' => GPost Kp m C LDC M.toNat N.toNat (fun i j => Quat.ofH (gemmSpec (Scal.d ALPHA).toH (Scal.h BETA).toH
        K.toNat (fun k => ((X i k).toH)) (fun k => ((Y j k).toH)) (c i j).toH)) m') := by
  refine wp_colsU env.disj hk hc ?_
  intro j m hj hU
  exact hgemmdh_170_J_wp env hz ho hj hU

theorem hgemmdh_80_wp {Kp : Mem R → Prop} {m : Mem R} {M N K : Int} {A LDA B LDB C LDC : Int}
    {X Y c : Nat → Nat → Quat R} {ALPHA : R} {BETA : Quat R} {BZERO : Bool}
    (env : GEnv Kp A LDA K.toNat M.toNat X B LDB K.toNat N.toNat Y C LDC M.toNat N.toNat)
    (hz : BZERO = true → (Scal.h BETA).toH = 0) (hk : Kp m)
    (hc : MatAt m C LDC M.toNat N.toNat c) :
    wp (forN N.toNat (fun i => hgemmdh_80_J A ALPHA B BETA BZERO C K LDA LDB LDC M ((i : Int) + 1))) m
      (fun _ m' => GPost Kp m C LDC M.toNat N.toNat (fun i j => Quat.ofH (gemmSpec (Scal.d ALPHA).toH (Scal.h BETA).toH
        K.toNat (fun k => (star (X k i).toH)) (fun k => ((Y k j).toH)) (c i j).toH)) m') := by
  refine wp_nestU (f := fun j i => hgemmdh_80_I A ALPHA B BETA BZERO C ((j:Int)+1) K LDA LDB LDC ((i:Int)+1))
    (fun j => rfl) env.disj env.stable hk hc ?_
  intro i j m hi hj hk hC
  exact hgemmdh_80_I_wp env hz hi hj hk hC

theorem hgemmdh_100_wp {Kp : Mem R → Prop} {m : Mem R} {M N K : Int} {A LDA B LDB C LDC : Int}
    {X Y c : Nat → Nat → Quat R} {ALPHA : R} {BETA : Quat R} {BZERO : Bool}
    (env : GEnv Kp A LDA K.toNat M.toNat X B LDB K.toNat N.toNat Y C LDC M.toNat N.toNat)
    (hz : BZERO = true → (Scal.h BETA).toH = 0) (hk : Kp m)
    (hc : MatAt m C LDC M.toNat N.toNat c) :
    wp (forN N.toNat (fun i => hgemmdh_100_J A ALPHA B BETA BZERO C K LDA LDB LDC M ((i : Int) + 1))) m
      (fun _ m' => GPost Kp m C LDC M.toNat N.toNat (fun i j => Quat.ofH (gemmSpec (Scal.d ALPHA).toH (Scal.h BETA).toH
        K.toNat (fun k => ((X k i).toH)) (fun k => ((Y k j).toH)) (c i j).toH)) m') := by
  refine wp_nestU (f := fun j i => hgemmdh_100_I A ALPHA B BETA BZERO C ((j:Int)+1) K LDA LDB LDC ((i:Int)+1))
    (fun j => rfl) env.disj env.stable hk hc ?_
  intro i j m hi hj hk hC
  exact hgemmdh_100_I_wp env hz hi hj hk hC

theorem hgemmdh_220_wp {Kp : Mem R → Prop} {m : Mem R} {M N K : Int} {A LDA B LDB C LDC : Int}
    {X Y c : Nat → Nat → Quat R} {ALPHA : R} {BETA : Quat R} {BZERO : Bool}
    (env : GEnv Kp A LDA K.toNat M.toNat X B LDB N.toNat K.toNat Y C LDC M.toNat N.toNat)
    (hz : BZERO = true → (Scal.h BETA).toH = 0) (hk : Kp m)
    (hc : MatAt m C LDC M.toNat N.toNat c) :
    wp (forN N.toNat (fun i => hgemmdh_220_J A ALPHA B BETA BZERO C K LDA LDB LDC M ((i : Int) + 1))) m
      (fun _ m' => GPost Kp m C LDC M.toNat N.toNat (fun i j => Quat.ofH (gemmSpec (Scal.d ALPHA).toH (Scal.h BETA).toH
        K.toNat (fun k => (star (X k i).toH)) (fun k => (star (Y j k).toH)) (c i j).toH)) m') := by
  refine wp_nestU (f := fun j i => hgemmdh_220_I A ALPHA B BETA BZERO C ((j:Int)+1) K LDA LDB LDC ((i:Int)+1))
    (fun j => rfl) env.disj env.stable hk hc ?_
  intro i j m hi hj hk hC
  exact hgemmdh_220_I_wp env hz hi hj hk hC

theorem hgemmdh_240_wp {Kp : Mem R → Prop} {m : Mem R} {M N K : Int} {A LDA B LDB C LDC : Int}
    {X Y c : Nat → Nat → Quat R} {ALPHA : R} {BETA : Quat R} {BZERO : Bool}
    (env : GEnv Kp A LDA K.toNat M.toNat X B LDB N.toNat K.toNat Y C LDC M.toNat N.toNat)
    (hz : BZERO = true → (Scal.h BETA).toH = 0) (hk : Kp m)
    (hc : MatAt m C LDC M.toNat N.toNat c) :
    wp (forN N.toNat (fun i => hgemmdh_240_J A ALPHA B BETA BZERO C K LDA LDB LDC M ((i : Int) + 1))) m
      (fun _ m' => GPost Kp m C LDC M.toNat N.toNat (fun i j => Quat.ofH (gemmSpec (Scal.d ALPHA).toH (Scal.h BETA).toH
        K.toNat (fun k => (star (X k i).toH)) (fun k => ((Y j k).toH)) (c i j).toH)) m') := by
  refine wp_nestU (f := fun j i => hgemmdh_240_I A ALPHA B BETA BZERO C ((j:Int)+1) K LDA LDB LDC ((i:Int)+1))
    (fun j => rfl) env.disj env.stable hk hc ?_
  intro i j m hi hj hk hC
  exact hgemmdh_240_I_wp env hz hi hj hk hC

theorem hgemmdh_260_wp {Kp : Mem R → Prop} {m : Mem R} {M N K : Int} {A LDA B LDB C LDC : Int}
    {X Y c : Nat → Nat → Quat R} {ALPHA : R} {BETA : Quat R} {BZERO : Bool}
    (env : GEnv Kp A LDA K.toNat M.toNat X B LDB N.toNat K.toNat Y C LDC M.toNat N.toNat)
    (hz : BZERO = true → (Scal.h BETA).toH = 0) (hk : Kp m)
    (hc : MatAt m C LDC M.toNat N.toNat c) :
    wp (forN N.toNat (fun i => hgemmdh_260_J A ALPHA B BETA BZERO C K LDA LDB LDC M ((i : Int) + 1))) m
      (fun _ m' => GPost Kp m C LDC M.toNat N.toNat (fun i j => Quat.ofH (gemmSpec (Scal.d ALPHA).toH (Scal.h BETA).toH
        K.toNat (fun k => ((X k i).toH)) (fun k => (star (Y j k).toH)) (c i j).toH)) m') := by
  refine wp_nestU (f := fun j i => hgemmdh_260_I A ALPHA B BETA BZERO C ((j:Int)+1) K LDA LDB LDC ((i:Int)+1))
    (fun j => rfl) env.disj env.stable hk hc ?_
  intro i j m hi hj hk hC
  exact hgemmdh_260_I_wp env hz hi hj hk hC

theorem hgemmdh_280_wp {Kp : Mem R → Prop} {m : Mem R} {M N K : Int} {A LDA B LDB C LDC : Int}
    {X Y c : Nat → Nat → Quat R} {ALPHA : R} {BETA : Quat R} {BZERO : Bool}
    (env : GEnv Kp A LDA K.toNat M.toNat X B LDB N.toNat K.toNat Y C LDC M.toNat N.toNat)
    (hz : BZERO = true → (Scal.h BETA).toH = 0) (hk : Kp m)
    (hc : MatAt m C LDC M.toNat N.toNat c) :
    wp (forN N.toNat (fun i => hgemmdh_280_J A ALPHA B BETA BZERO C K LDA LDB LDC M ((i : Int) + 1))) m
      (fun _ m' => GPost Kp m C LDC M.toNat N.toNat (fun i j => Quat.ofH (gemmSpec (Scal.d ALPHA).toH (Scal.h BETA).toH
        K.toNat (fun k => ((X k i).toH)) (fun k => ((Y j k).toH)) (c i j).toH)) m') := by
  refine wp_nestU (f := fun j i => hgemmdh_280_I A ALPHA B BETA BZERO C ((j:Int)+1) K LDA LDB LDC ((i:Int)+1))
    (fun j => rfl) env.disj env.stable hk hc ?_
  intro i j m hi hj hk hC
  exact hgemmdh_280_I_wp env hz hi hj hk hC

theorem hgemmdh_if64_wp {Kp : Mem R → Prop} {m : Mem R} {M N : Int} {C LDC : Int}
    {c : Nat → Nat → Quat R} {BETA : Quat R} {BZERO : Bool}
    (hdisj : ∀ i j i' j' : Nat, i < M.toNat → i' < M.toNat → ¬ (i = i' ∧ j = j') →
      QDisj (C + 4 * (i + j * LDC)) (C + 4 * (i' + j' * LDC)))
    (hst : ∀ m (i j : Nat) q, i < M.toNat → j < N.toNat → Kp m → Kp (writeQ m (C + 4 * (i + j * LDC)) q))
    (hz : BZERO = true → (Scal.h BETA).toH = 0) (hk : Kp m) (hc : MatAt m C LDC M.toNat N.toNat c) :
    wp (hgemmdh_if64 BETA BZERO C LDC M N) m
      (fun _ m' => GPost Kp m C LDC M.toNat N.toNat (fun i j => Quat.ofH ((Scal.h BETA).toH * (c i j).toH)) m') := by
  unfold hgemmdh_if64
  rw [wp_ite]
  split
  · rename_i h
    rw [hz h]
    simp only [wp_bind, wp_pure, zero_mul]
    refine wp_nestU (f := fun j i => hgemmdh_10_I C ((j:Int)+1) LDC ((i:Int)+1)) (fun j => rfl) hdisj hst hk hc ?_
    intro i j m _ _ _ hC
    exact hgemmdh_10_I_wp hC
  · simp only [wp_bind, wp_pure]
    refine wp_nestU (f := fun j i => hgemmdh_20_I BETA C ((j:Int)+1) LDC ((i:Int)+1)) (fun j => rfl) hdisj hst hk hc ?_
    intro i j m _ _ _ hC
    exact hgemmdh_20_I_wp hC


theorem hgemmdh_if107_wp {Kp : Mem R → Prop} {m : Mem R} {M N K : Int} {A LDA B LDB C LDC : Int}
    {X Y c : Nat → Nat → Quat R} {ALPHA : R} {BETA : Quat R} {BONE BZERO : Bool} {tA tB : FTrans}
    (env : GEnv Kp A LDA (tA.rows M.toNat K.toNat) (tA.rows K.toNat M.toNat) X
      B LDB (tB.rows K.toNat N.toNat) (tB.rows N.toNat K.toNat) Y C LDC M.toNat N.toNat)
    (hz : BZERO = true → (Scal.h BETA).toH = 0) (ho : BONE = true → (Scal.h BETA).toH = 1) (hk : Kp m)
    (hc : MatAt m C LDC M.toNat N.toNat c) :
    wp (hgemmdh_if107 A ALPHA B BETA BONE BZERO C (tA == .C) (tB == .C) K LDA LDB LDC M N (tA == .N) (tB == .N)) m
      (fun _ m' => GPost Kp m C LDC M.toNat N.toNat (fun i j => Quat.ofH (gemmSpec (Scal.d ALPHA).toH (Scal.h BETA).toH
        K.toNat (fun k => tA.op X i k) (fun k => tB.op Y k j) (c i j).toH)) m') := by
  cases tA <;> cases tB
  · unfold hgemmdh_if107 hgemmdh_if108
    simp only [ft_NN, ft_TN, ft_CN, ft_NC, ft_TC, ft_CC, if_true, if_false, Bool.false_eq_true, wp_bind, wp_pure]
    exact hgemmdh_30_wp env hz ho hk hc
  · unfold hgemmdh_if107 hgemmdh_if337
    simp only [ft_NN, ft_TN, ft_CN, ft_NC, ft_TC, ft_CC, if_true, if_false, Bool.false_eq_true, wp_bind, wp_pure]
    exact hgemmdh_170_wp env hz ho hk hc
  · unfold hgemmdh_if107 hgemmdh_if337
    simp only [ft_NN, ft_TN, ft_CN, ft_NC, ft_TC, ft_CC, if_true, if_false, Bool.false_eq_true, wp_bind, wp_pure]
    exact hgemmdh_120_wp env hz ho hk hc
  · unfold hgemmdh_if107 hgemmdh_if108
    simp only [ft_NN, ft_TN, ft_CN, ft_NC, ft_TC, ft_CC, if_true, if_false, Bool.false_eq_true, wp_bind, wp_pure]
    exact hgemmdh_100_wp env hz hk hc
  · unfold hgemmdh_if107 hgemmdh_if652
    simp only [ft_NN, ft_TN, ft_CN, ft_NC, ft_TC, ft_CC, if_true, if_false, Bool.false_eq_true, wp_bind, wp_pure]
    exact hgemmdh_280_wp env hz hk hc
  · unfold hgemmdh_if107 hgemmdh_if652
    simp only [ft_NN, ft_TN, ft_CN, ft_NC, ft_TC, ft_CC, if_true, if_false, Bool.false_eq_true, wp_bind, wp_pure]
    exact hgemmdh_260_wp env hz hk hc
  · unfold hgemmdh_if107 hgemmdh_if108
    simp only [ft_NN, ft_TN, ft_CN, ft_NC, ft_TC, ft_CC, if_true, if_false, Bool.false_eq_true, wp_bind, wp_pure]
    exact hgemmdh_80_wp env hz hk hc
  · unfold hgemmdh_if107 hgemmdh_if501
    simp only [ft_NN, ft_TN, ft_CN, ft_NC, ft_TC, ft_CC, if_true, if_false, Bool.false_eq_true, wp_bind, wp_pure]
    exact hgemmdh_240_wp env hz hk hc
  · unfold hgemmdh_if107 hgemmdh_if501
    simp only [ft_NN, ft_TN, ft_CN, ft_NC, ft_TC, ft_CC, if_true, if_false, Bool.false_eq_true, wp_bind, wp_pure]
    exact hgemmdh_220_wp env hz hk hc

/-- `hgemmdh` computes `ALPHA*op(A)*op(B) + BETA*C`. -/
theorem hgemmdh_wp {Kp : Mem R → Prop} {m : Mem R} {TRANSA TRANSB : Char} {M N K : Int} {A LDA B LDB C LDC : Int}
    {X Y c : Nat → Nat → Quat R} {ALPHA : R} {BETA : Quat R}
    (hdisj : ∀ i j i' j' : Nat, i < M.toNat → i' < M.toNat → ¬ (i = i' ∧ j = j') →
      QDisj (C + 4 * (i + j * LDC)) (C + 4 * (i' + j' * LDC)))
    (hst : ∀ m (i j : Nat) q, i < M.toNat → j < N.toNat → Kp m → Kp (writeQ m (C + 4 * (i + j * LDC)) q))
    (env : (Scal.d ALPHA).toH ≠ 0 → GEnv Kp A LDA ((FTrans.ofChar TRANSA).rows M.toNat K.toNat) ((FTrans.ofChar TRANSA).rows K.toNat M.toNat) X
      B LDB ((FTrans.ofChar TRANSB).rows K.toNat N.toNat) ((FTrans.ofChar TRANSB).rows N.toNat K.toNat) Y
      C LDC M.toNat N.toNat)
    (hk : Kp m) (hc : MatAt m C LDC M.toNat N.toNat c) :
    wp (hgemmdh TRANSA TRANSB M N K ALPHA A LDA B LDB BETA C LDC) m
      (fun _ m' => GPost Kp m C LDC M.toNat N.toNat (fun i j => Quat.ofH (gemmSpec (Scal.d ALPHA).toH (Scal.h BETA).toH
        K.toNat (fun k => (FTrans.ofChar TRANSA).op X i k) (fun k => (FTrans.ofChar TRANSB).op Y k j) (c i j).toH)) m') := by
  unfold hgemmdh
  simp only [lsame_N, lsame_C]
  split
  · rename_i h
    rw [wp_pure]
    refine ⟨fun i j hi hj => ?_, hk, fun _ _ => rfl⟩
    simp only [Bool.or_eq_true, decide_eq_true_eq] at h
    omega
  · split
    · rename_i h
      rw [wp_pure]
      refine ⟨fun i j hi hj => ?_, hk, fun _ _ => rfl⟩
      rw [hc i j hi hj]
      rw [Bool.and_eq_true, Bool.or_eq_true] at h
      have h2 := scal1_h BETA h.2
      refine congrArg some ?_
      unfold gemmSpec
      beta_reduce
      rcases h.1 with h1 | h1
      · rw [scal0_d ALPHA h1, h2, zero_mul, zero_add, one_mul, ofH_toH]
      · have : K = 0 := by simpa using h1
        subst this
        rw [h2]; simp
    · split
      · rename_i h
        rw [wp_bind]
        refine wp_mono (hgemmdh_if64_wp hdisj hst (scal0_h BETA) hk hc) ?_
        intro _ m' h'
        rw [wp_pure]
        refine h'.congr (fun i j _ _ => ?_)
        rw [gemmSpec, scal0_d ALPHA h, zero_mul, zero_add]
      · rename_i h
        simp only [wp_bind, wp_pure]
        exact hgemmdh_if107_wp (env (fun e => h (scal0_d' ALPHA e))) (scal0_h BETA) (scal1_h BETA) hk hc

end Haxx
