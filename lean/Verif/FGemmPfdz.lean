import Verif.FGemmLemmas
import Verif.FGemmdz
import Mathlib.Tactic.Ring

/-!
# Correctness of `hgemmdz` (written by `tools/gen_gemm_proofs.py`)
-/

set_option linter.unusedSimpArgs false
set_option linter.unusedSectionVars false
set_option linter.unusedVariables false
set_option linter.unusedTactic false
set_option linter.unreachableTactic false

namespace Haxx
open Arith Quaternion Finset

variable {R : Type} [CommRing R] [DecidableEq R]

theorem hgemmdz_10_I_wp {m : Mem R} {C LDC : Int} {i j : Nat} {c : Quat R}
    (hC : readQ m (C + 4 * ((i:Int) + j * LDC)) = some c) :
    wp (hgemmdz_10_I C (j+1) LDC (i+1)) m (fun _ m' =>
      m' = writeQ m (C + 4 * (i + j * LDC)) (Quat.ofH 0)) := by
  unfold hgemmdz_10_I
  simp only [el3c_1, el3c_2, wp_bind, wp_pure, wp_rdC_lo hC, wp_rdC_hi hC, wp_wrC_lo hC, wp_wrC_hi hC, wp_wrC_lo (readQ_writeQ_same _ _ _), wp_wrC_hi (readQ_writeQ_same _ _ _), wp_rdC_lo (readQ_writeQ_same _ _ _), wp_rdC_hi (readQ_writeQ_same _ _ _), writeQ_writeQ]
  rfl

theorem hgemmdz_40_I_wp {m : Mem R} {C LDC : Int} {i j : Nat} {c : Quat R}
    (hC : readQ m (C + 4 * ((i:Int) + j * LDC)) = some c) :
    wp (hgemmdz_40_I C (j+1) LDC (i+1)) m (fun _ m' =>
      m' = writeQ m (C + 4 * (i + j * LDC)) (Quat.ofH 0)) := by
  unfold hgemmdz_40_I
  simp only [el3c_1, el3c_2, wp_bind, wp_pure, wp_rdC_lo hC, wp_rdC_hi hC, wp_wrC_lo hC, wp_wrC_hi hC, wp_wrC_lo (readQ_writeQ_same _ _ _), wp_wrC_hi (readQ_writeQ_same _ _ _), wp_rdC_lo (readQ_writeQ_same _ _ _), wp_rdC_hi (readQ_writeQ_same _ _ _), writeQ_writeQ]
  rfl

theorem hgemmdz_130_I_wp {m : Mem R} {C LDC : Int} {i j : Nat} {c : Quat R}
    (hC : readQ m (C + 4 * ((i:Int) + j * LDC)) = some c) :
    wp (hgemmdz_130_I C (j+1) LDC (i+1)) m (fun _ m' =>
      m' = writeQ m (C + 4 * (i + j * LDC)) (Quat.ofH 0)) := by
  unfold hgemmdz_130_I
  simp only [el3c_1, el3c_2, wp_bind, wp_pure, wp_rdC_lo hC, wp_rdC_hi hC, wp_wrC_lo hC, wp_wrC_hi hC, wp_wrC_lo (readQ_writeQ_same _ _ _), wp_wrC_hi (readQ_writeQ_same _ _ _), wp_rdC_lo (readQ_writeQ_same _ _ _), wp_rdC_hi (readQ_writeQ_same _ _ _), writeQ_writeQ]
  rfl

theorem hgemmdz_180_I_wp {m : Mem R} {C LDC : Int} {i j : Nat} {c : Quat R}
    (hC : readQ m (C + 4 * ((i:Int) + j * LDC)) = some c) :
    wp (hgemmdz_180_I C (j+1) LDC (i+1)) m (fun _ m' =>
      m' = writeQ m (C + 4 * (i + j * LDC)) (Quat.ofH 0)) := by
  unfold hgemmdz_180_I
  simp only [el3c_1, el3c_2, wp_bind, wp_pure, wp_rdC_lo hC, wp_rdC_hi hC, wp_wrC_lo hC, wp_wrC_hi hC, wp_wrC_lo (readQ_writeQ_same _ _ _), wp_wrC_hi (readQ_writeQ_same _ _ _), wp_rdC_lo (readQ_writeQ_same _ _ _), wp_rdC_hi (readQ_writeQ_same _ _ _), writeQ_writeQ]
  rfl

theorem hgemmdz_20_I_wp {m : Mem R} {C LDC : Int} {i j : Nat} {c : Quat R} {BETA : Cplx R}
    (hC : readQ m (C + 4 * ((i:Int) + j * LDC)) = some c) :
    wp (hgemmdz_20_I BETA C (j+1) LDC (i+1)) m (fun _ m' =>
      m' = writeQ m (C + 4 * (i + j * LDC)) (Quat.ofH ((Scal.z BETA).toH * c.toH))) := by
  unfold hgemmdz_20_I
  simp only [el3c_1, el3c_2, wp_bind, wp_pure, wp_rdC_lo hC, wp_rdC_hi hC, wp_wrC_lo hC, wp_wrC_hi hC, wp_wrC_lo (readQ_writeQ_same _ _ _), wp_wrC_hi (readQ_writeQ_same _ _ _), wp_rdC_lo (readQ_writeQ_same _ _ _), wp_rdC_hi (readQ_writeQ_same _ _ _), writeQ_writeQ]
  refine congrArg (writeQ m _) (eq_ofH ?_)
  ext <;> simp [Scal.toH] <;> ring

theorem hgemmdz_50_I_wp {m : Mem R} {C LDC : Int} {i j : Nat} {c : Quat R} {BETA : Cplx R}
    (hC : readQ m (C + 4 * ((i:Int) + j * LDC)) = some c) :
    wp (hgemmdz_50_I BETA C (j+1) LDC (i+1)) m (fun _ m' =>
      m' = writeQ m (C + 4 * (i + j * LDC)) (Quat.ofH ((Scal.z BETA).toH * c.toH))) := by
  unfold hgemmdz_50_I
  simp only [el3c_1, el3c_2, wp_bind, wp_pure, wp_rdC_lo hC, wp_rdC_hi hC, wp_wrC_lo hC, wp_wrC_hi hC, wp_wrC_lo (readQ_writeQ_same _ _ _), wp_wrC_hi (readQ_writeQ_same _ _ _), wp_rdC_lo (readQ_writeQ_same _ _ _), wp_rdC_hi (readQ_writeQ_same _ _ _), writeQ_writeQ]
  refine congrArg (writeQ m _) (eq_ofH ?_)
  ext <;> simp [Scal.toH] <;> ring

theorem hgemmdz_140_I_wp {m : Mem R} {C LDC : Int} {i j : Nat} {c : Quat R} {BETA : Cplx R}
    (hC : readQ m (C + 4 * ((i:Int) + j * LDC)) = some c) :
    wp (hgemmdz_140_I BETA C (j+1) LDC (i+1)) m (fun _ m' =>
      m' = writeQ m (C + 4 * (i + j * LDC)) (Quat.ofH ((Scal.z BETA).toH * c.toH))) := by
  unfold hgemmdz_140_I
  simp only [el3c_1, el3c_2, wp_bind, wp_pure, wp_rdC_lo hC, wp_rdC_hi hC, wp_wrC_lo hC, wp_wrC_hi hC, wp_wrC_lo (readQ_writeQ_same _ _ _), wp_wrC_hi (readQ_writeQ_same _ _ _), wp_rdC_lo (readQ_writeQ_same _ _ _), wp_rdC_hi (readQ_writeQ_same _ _ _), writeQ_writeQ]
  refine congrArg (writeQ m _) (eq_ofH ?_)
  ext <;> simp [Scal.toH] <;> ring

theorem hgemmdz_190_I_wp {m : Mem R} {C LDC : Int} {i j : Nat} {c : Quat R} {BETA : Cplx R}
    (hC : readQ m (C + 4 * ((i:Int) + j * LDC)) = some c) :
    wp (hgemmdz_190_I BETA C (j+1) LDC (i+1)) m (fun _ m' =>
      m' = writeQ m (C + 4 * (i + j * LDC)) (Quat.ofH ((Scal.z BETA).toH * c.toH))) := by
  unfold hgemmdz_190_I
  simp only [el3c_1, el3c_2, wp_bind, wp_pure, wp_rdC_lo hC, wp_rdC_hi hC, wp_wrC_lo hC, wp_wrC_hi hC, wp_wrC_lo (readQ_writeQ_same _ _ _), wp_wrC_hi (readQ_writeQ_same _ _ _), wp_rdC_lo (readQ_writeQ_same _ _ _), wp_rdC_hi (readQ_writeQ_same _ _ _), writeQ_writeQ]
  refine congrArg (writeQ m _) (eq_ofH ?_)
  ext <;> simp [Scal.toH] <;> ring

theorem hgemmdz_if106_wp {K : Mem R → Prop} {m0 m : Mem R} {M : Int} {C LDC : Int} {j : Nat}
    {c : Nat → Quat R} {BETA : Cplx R} {BONE BZERO : Bool}
    (hz : BZERO = true → (Scal.z BETA).toH = 0) (ho : BONE = true → (Scal.z BETA).toH = 1)
    (hdisj : ∀ i i', i < M.toNat → i' < M.toNat → i ≠ i' →
      QDisj (C + 4 * ((i:Int) + j * LDC)) (C + 4 * ((i':Int) + j * LDC)))
    (hst : ∀ m i q, i < M.toNat → K m → K (writeQ m (C + 4 * ((i:Int) + j * LDC)) q))
    (hU : Upd K (fun i => C + 4 * ((i:Int) + j * LDC)) M.toNat m0 c m) :
    wp (hgemmdz_if106 BETA BONE BZERO C (j+1) LDC M) m (fun _ m' =>
      Upd K (fun i => C + 4 * ((i:Int) + j * LDC)) M.toNat m0
        (fun i => Quat.ofH ((Scal.z BETA).toH * (c i).toH)) m') := by
  unfold hgemmdz_if106
  rw [wp_ite]
  split
  · rename_i h
    rw [hz h]
    simp only [wp_bind, wp_pure, zero_mul]
    refine wp_passU hdisj hst hU ?_
    intro i m _ _ hc
    exact hgemmdz_40_I_wp hc
  · rw [wp_ite]
    split
    · simp only [wp_bind, wp_pure]
      refine wp_passU hdisj hst hU ?_
      intro i m _ _ hc
      exact hgemmdz_50_I_wp hc
    · rename_i h
      rw [ho (by simpa using h), wp_pure]
      simpa using hU

theorem hgemmdz_if316_wp {K : Mem R → Prop} {m0 m : Mem R} {M : Int} {C LDC : Int} {j : Nat}
    {c : Nat → Quat R} {BETA : Cplx R} {BONE BZERO : Bool}
    (hz : BZERO = true → (Scal.z BETA).toH = 0) (ho : BONE = true → (Scal.z BETA).toH = 1)
    (hdisj : ∀ i i', i < M.toNat → i' < M.toNat → i ≠ i' →
      QDisj (C + 4 * ((i:Int) + j * LDC)) (C + 4 * ((i':Int) + j * LDC)))
    (hst : ∀ m i q, i < M.toNat → K m → K (writeQ m (C + 4 * ((i:Int) + j * LDC)) q))
    (hU : Upd K (fun i => C + 4 * ((i:Int) + j * LDC)) M.toNat m0 c m) :
    wp (hgemmdz_if316 BETA BONE BZERO C (j+1) LDC M) m (fun _ m' =>
      Upd K (fun i => C + 4 * ((i:Int) + j * LDC)) M.toNat m0
        (fun i => Quat.ofH ((Scal.z BETA).toH * (c i).toH)) m') := by
  unfold hgemmdz_if316
  rw [wp_ite]
  split
  · rename_i h
    rw [hz h]
    simp only [wp_bind, wp_pure, zero_mul]
    refine wp_passU hdisj hst hU ?_
    intro i m _ _ hc
    exact hgemmdz_130_I_wp hc
  · rw [wp_ite]
    split
    · simp only [wp_bind, wp_pure]
      refine wp_passU hdisj hst hU ?_
      intro i m _ _ hc
      exact hgemmdz_140_I_wp hc
    · rename_i h
      rw [ho (by simpa using h), wp_pure]
      simpa using hU

theorem hgemmdz_if393_wp {K : Mem R → Prop} {m0 m : Mem R} {M : Int} {C LDC : Int} {j : Nat}
    {c : Nat → Quat R} {BETA : Cplx R} {BONE BZERO : Bool}
    (hz : BZERO = true → (Scal.z BETA).toH = 0) (ho : BONE = true → (Scal.z BETA).toH = 1)
    (hdisj : ∀ i i', i < M.toNat → i' < M.toNat → i ≠ i' →
      QDisj (C + 4 * ((i:Int) + j * LDC)) (C + 4 * ((i':Int) + j * LDC)))
    (hst : ∀ m i q, i < M.toNat → K m → K (writeQ m (C + 4 * ((i:Int) + j * LDC)) q))
    (hU : Upd K (fun i => C + 4 * ((i:Int) + j * LDC)) M.toNat m0 c m) :
    wp (hgemmdz_if393 BETA BONE BZERO C (j+1) LDC M) m (fun _ m' =>
      Upd K (fun i => C + 4 * ((i:Int) + j * LDC)) M.toNat m0
        (fun i => Quat.ofH ((Scal.z BETA).toH * (c i).toH)) m') := by
  unfold hgemmdz_if393
  rw [wp_ite]
  split
  · rename_i h
    rw [hz h]
    simp only [wp_bind, wp_pure, zero_mul]
    refine wp_passU hdisj hst hU ?_
    intro i m _ _ hc
    exact hgemmdz_180_I_wp hc
  · rw [wp_ite]
    split
    · simp only [wp_bind, wp_pure]
      refine wp_passU hdisj hst hU ?_
      intro i m _ _ hc
      exact hgemmdz_190_I_wp hc
    · rename_i h
      rw [ho (by simpa using h), wp_pure]
      simpa using hU

theorem hgemmdz_30_J_wp {Kp : Mem R → Prop} {m : Mem R} {M N K : Int} {A LDA B LDB C LDC : Int}
    {X Y : Nat → Nat → Quat R} {c : Nat → Quat R} {ALPHA : R} {BETA : Cplx R} {BONE BZERO : Bool} {j : Nat}
    (env : GEnv Kp A LDA M.toNat K.toNat X B LDB K.toNat N.toNat Y C LDC M.toNat N.toNat)
    (hz : BZERO = true → (Scal.z BETA).toH = 0) (ho : BONE = true → (Scal.z BETA).toH = 1) (hj : j < N.toNat)
    (hU : Upd Kp (fun i => C + 4 * ((i:Int) + j * LDC)) M.toNat m c m) :
    wp (hgemmdz_30_J A ALPHA B BETA BONE BZERO C K LDA LDB LDC M (j+1)) m (fun _ m' =>
      Upd Kp (fun i => C + 4 * ((i:Int) + j * LDC)) M.toNat m
        (fun i => Quat.ofH (gemmSpec (Scal.d ALPHA).toH (Scal.z BETA).toH K.toNat (fun k => ((X i k).toH))
          (fun k => ((Y k j).toH)) (c i).toH)) m') := by
  have hd : ∀ i i', i < M.toNat → i' < M.toNat → i ≠ i' →
      QDisj (C + 4 * ((i:Int) + j * LDC)) (C + 4 * ((i':Int) + j * LDC)) :=
    fun i i' hi hi' hne => env.disj i j i' j hi hi' (fun e => hne e.1)
  have hs : ∀ m i q, i < M.toNat → Kp m → Kp (writeQ m (C + 4 * ((i:Int) + j * LDC)) q) :=
    fun m i q hi hk => env.stable m i j q hi hj hk
  unfold hgemmdz_30_J
  rw [wp_bind]
  refine wp_mono (hgemmdz_if106_wp hz ho hd hs hU) ?_
  intro _ m1 hU1
  rw [wp_bind]
  refine wp_mono (wp_accPass (fun l i => (Scal.d ALPHA).toH * (((X i l).toH) * ((Y l j).toH))) hU1 ?_) ?_
  · intro l m c hl hU
    have hB := env.rdB m hU.k l j hl hj
    unfold hgemmdz_60_L
    simp only [el3c_1, el3c_2, wp_bind, wp_pure, wp_rdC_lo hB, wp_rdC_hi hB]
    refine wp_passU hd hs hU ?_
    intro i m hi hk hC
    have hA := env.rdA m hk i l hi hl
    have hA' := matAt_write env.rdA (fun q => hs m i q hi hk) hi hl
    unfold hgemmdz_70_I
    simp only [el3c_1, el3c_2, wp_bind, wp_pure, wp_rdC_lo hA, wp_rdC_hi hA, wp_rdC_lo (hA' _), wp_rdC_hi (hA' _), wp_rdC_lo hC, wp_rdC_hi hC, wp_wrC_lo hC, wp_wrC_hi hC, wp_wrC_lo (readQ_writeQ_same _ _ _), wp_wrC_hi (readQ_writeQ_same _ _ _), wp_rdC_lo (readQ_writeQ_same _ _ _), wp_rdC_hi (readQ_writeQ_same _ _ _), writeQ_writeQ]
    refine congrArg (writeQ m _) (eq_ofH ?_)
    ext <;> simp [Scal.toH] <;> ring
  · intro _ m' h
    rw [wp_pure]
    have e : (fun i => Quat.ofH ((Quat.ofH ((Scal.z BETA).toH * (c i).toH)).toH + ∑ l ∈ range K.toNat,
        (Scal.d ALPHA).toH * (((X i l).toH) * ((Y l j).toH)))) =
      (fun i => Quat.ofH (gemmSpec (Scal.d ALPHA).toH (Scal.z BETA).toH K.toNat (fun k => ((X i k).toH))
          (fun k => ((Y k j).toH)) (c i).toH)) := by
      funext i
      rw [toH_ofH, gemmSpec, mul_sum, add_comm]
    rw [e] at h
    exact h

theorem hgemmdz_120_J_wp {Kp : Mem R → Prop} {m : Mem R} {M N K : Int} {A LDA B LDB C LDC : Int}
    {X Y : Nat → Nat → Quat R} {c : Nat → Quat R} {ALPHA : R} {BETA : Cplx R} {BONE BZERO : Bool} {j : Nat}
    (env : GEnv Kp A LDA M.toNat K.toNat X B LDB N.toNat K.toNat Y C LDC M.toNat N.toNat)
    (hz : BZERO = true → (Scal.z BETA).toH = 0) (ho : BONE = true → (Scal.z BETA).toH = 1) (hj : j < N.toNat)
    (hU : Upd Kp (fun i => C + 4 * ((i:Int) + j * LDC)) M.toNat m c m) :
    wp (hgemmdz_120_J A ALPHA B BETA BONE BZERO C K LDA LDB LDC M (j+1)) m (fun _ m' =>
      Upd Kp (fun i => C + 4 * ((i:Int) + j * LDC)) M.toNat m
        (fun i => Quat.ofH (gemmSpec (Scal.d ALPHA).toH (Scal.z BETA).toH K.toNat (fun k => ((X i k).toH))
          (fun k => (star (Y j k).toH)) (c i).toH)) m') := by
  have hd : ∀ i i', i < M.toNat → i' < M.toNat → i ≠ i' →
      QDisj (C + 4 * ((i:Int) + j * LDC)) (C + 4 * ((i':Int) + j * LDC)) :=
    fun i i' hi hi' hne => env.disj i j i' j hi hi' (fun e => hne e.1)
  have hs : ∀ m i q, i < M.toNat → Kp m → Kp (writeQ m (C + 4 * ((i:Int) + j * LDC)) q) :=
    fun m i q hi hk => env.stable m i j q hi hj hk
  unfold hgemmdz_120_J
  rw [wp_bind]
  refine wp_mono (hgemmdz_if316_wp hz ho hd hs hU) ?_
  intro _ m1 hU1
  rw [wp_bind]
  refine wp_mono (wp_accPass (fun l i => (Scal.d ALPHA).toH * (((X i l).toH) * (star (Y j l).toH))) hU1 ?_) ?_
  · intro l m c hl hU
    have hB := env.rdB m hU.k j l hj hl
    unfold hgemmdz_150_L
    simp only [el3c_1, el3c_2, wp_bind, wp_pure, wp_rdC_lo hB, wp_rdC_hi hB]
    refine wp_passU hd hs hU ?_
    intro i m hi hk hC
    have hA := env.rdA m hk i l hi hl
    have hA' := matAt_write env.rdA (fun q => hs m i q hi hk) hi hl
    unfold hgemmdz_160_I
    simp only [el3c_1, el3c_2, wp_bind, wp_pure, wp_rdC_lo hA, wp_rdC_hi hA, wp_rdC_lo (hA' _), wp_rdC_hi (hA' _), wp_rdC_lo hC, wp_rdC_hi hC, wp_wrC_lo hC, wp_wrC_hi hC, wp_wrC_lo (readQ_writeQ_same _ _ _), wp_wrC_hi (readQ_writeQ_same _ _ _), wp_rdC_lo (readQ_writeQ_same _ _ _), wp_rdC_hi (readQ_writeQ_same _ _ _), writeQ_writeQ]
    refine congrArg (writeQ m _) (eq_ofH ?_)
    ext <;> simp [Scal.toH] <;> ring
  · intro _ m' h
    rw [wp_pure]
    have e : (fun i => Quat.ofH ((Quat.ofH ((Scal.z BETA).toH * (c i).toH)).toH + ∑ l ∈ range K.toNat,
        (Scal.d ALPHA).toH * (((X i l).toH) * (star (Y j l).toH)))) =
      (fun i => Quat.ofH (gemmSpec (Scal.d ALPHA).toH (Scal.z BETA).toH K.toNat (fun k => ((X i k).toH))
          (fun k => (star (Y j k).toH)) (c i).toH)) := by
      funext i
      rw [toH_ofH, gemmSpec, mul_sum, add_comm]
    rw [e] at h
    exact h

theorem hgemmdz_170_J_wp {Kp : Mem R → Prop} {m : Mem R} {M N K : Int} {A LDA B LDB C LDC : Int}
    {X Y : Nat → Nat → Quat R} {c : Nat → Quat R} {ALPHA : R} {BETA : Cplx R} {BONE BZERO : Bool} {j : Nat}
    (env : GEnv Kp A LDA M.toNat K.toNat X B LDB N.toNat K.toNat Y C LDC M.toNat N.toNat)
    (hz : BZERO = true → (Scal.z BETA).toH = 0) (ho : BONE = true → (Scal.z BETA).toH = 1) (hj : j < N.toNat)
    (hU : Upd Kp (fun i => C + 4 * ((i:Int) + j * LDC)) M.toNat m c m) :
    wp (hgemmdz_170_J A ALPHA B BETA BONE BZERO C K LDA LDB LDC M (j+1)) m (fun _ m' =>
      Upd Kp (fun i => C + 4 * ((i:Int) + j * LDC)) M.toNat m
        (fun i => Quat.ofH (gemmSpec (Scal.d ALPHA).toH (Scal.z BETA).toH K.toNat (fun k => ((X i k).toH))
          (fun k => ((Y j k).toH)) (c i).toH)) m') := by
  have hd : ∀ i i', i < M.toNat → i' < M.toNat → i ≠ i' →
      QDisj (C + 4 * ((i:Int) + j * LDC)) (C + 4 * ((i':Int) + j * LDC)) :=
    fun i i' hi hi' hne => env.disj i j i' j hi hi' (fun e => hne e.1)
  have hs : ∀ m i q, i < M.toNat → Kp m → Kp (writeQ m (C + 4 * ((i:Int) + j * LDC)) q) :=
    fun m i q hi hk => env.stable m i j q hi hj hk
  unfold hgemmdz_170_J
  rw [wp_bind]
  refine wp_mono (hgemmdz_if393_wp hz ho hd hs hU) ?_
  intro _ m1 hU1
  rw [wp_bind]
  refine wp_mono (wp_accPass (fun l i => (Scal.d ALPHA).toH * (((X i l).toH) * ((Y j l).toH))) hU1 ?_) ?_
  · intro l m c hl hU
    have hB := env.rdB m hU.k j l hj hl
    unfold hgemmdz_200_L
    simp only [el3c_1, el3c_2, wp_bind, wp_pure, wp_rdC_lo hB, wp_rdC_hi hB]
    refine wp_passU hd hs hU ?_
    intro i m hi hk hC
    have hA := env.rdA m hk i l hi hl
    have hA' := matAt_write env.rdA (fun q => hs m i q hi hk) hi hl
    unfold hgemmdz_210_I
    simp only [el3c_1, el3c_2, wp_bind, wp_pure, wp_rdC_lo hA, wp_rdC_hi hA, wp_rdC_lo (hA' _), wp_rdC_hi (hA' _), wp_rdC_lo hC, wp_rdC_hi hC, wp_wrC_lo hC, wp_wrC_hi hC, wp_wrC_lo (readQ_writeQ_same _ _ _), wp_wrC_hi (readQ_writeQ_same _ _ _), wp_rdC_lo (readQ_writeQ_same _ _ _), wp_rdC_hi (readQ_writeQ_same _ _ _), writeQ_writeQ]
    refine congrArg (writeQ m _) (eq_ofH ?_)
    ext <;> simp [Scal.toH] <;> ring
  · intro _ m' h
    rw [wp_pure]
    have e : (fun i => Quat.ofH ((Quat.ofH ((Scal.z BETA).toH * (c i).toH)).toH + ∑ l ∈ range K.toNat,
        (Scal.d ALPHA).toH * (((X i l).toH) * ((Y j l).toH)))) =
      (fun i => Quat.ofH (gemmSpec (Scal.d ALPHA).toH (Scal.z BETA).toH K.toNat (fun k => ((X i k).toH))
          (fun k => ((Y j k).toH)) (c i).toH)) := by
      funext i
      rw [toH_ofH, gemmSpec, mul_sum, add_comm]
    rw [e] at h
    exact h

theorem hgemmdz_80_I_wp {Kp : Mem R → Prop} {m : Mem R} {M N K : Int} {A LDA B LDB C LDC : Int}
    {X Y : Nat → Nat → Quat R} {c : Quat R} {ALPHA : R} {BETA : Cplx R} {BZERO : Bool} {i j : Nat}
    (env : GEnv Kp A LDA K.toNat M.toNat X B LDB K.toNat N.toNat Y C LDC M.toNat N.toNat)
    (hz : BZERO = true → (Scal.z BETA).toH = 0) (hi : i < M.toNat) (hj : j < N.toNat) (hk : Kp m)
    (hC : readQ m (C + 4 * ((i:Int) + j * LDC)) = some c) :
    wp (hgemmdz_80_I A ALPHA B BETA BZERO C (j+1) K LDA LDB LDC (i+1)) m (fun _ m' =>
      m' = writeQ m (C + 4 * (i + j * LDC)) (Quat.ofH (gemmSpec (Scal.d ALPHA).toH (Scal.z BETA).toH K.toNat
          (fun k => (star (X k i).toH)) (fun k => ((Y k j).toH)) c.toH))) := by
  unfold hgemmdz_80_I
  simp only [wp_bind]
  refine wp_acc (fun l s => (⟨s.2.re, s.2.im, s.1.re, s.1.im⟩ : Quat R).toH =
    ∑ k ∈ range l, (star (X k i).toH) * ((Y k j).toH)) ?_ ?_ ?_
  · simp only [range_zero, sum_empty]; rfl
  · intro l s hl hs
    have hA := env.rdA m hk l i hl hi
    have hB := env.rdB m hk l j hl hj
    unfold hgemmdz_90_L
    simp only [el3c_1, el3c_2, wp_bind, wp_pure, wp_rdC_lo hA, wp_rdC_hi hA, wp_rdC_lo hB, wp_rdC_hi hB]
    refine ⟨trivial, ?_⟩
    rw [sum_range_succ, ← hs]
    ext <;> simp [Scal.toH] <;> ring
  · intro s hs
    unfold gemmSpec
    rw [← hs]
    cases BZERO
    · simp only [Bool.false_eq_true, if_false, el3c_1, el3c_2, wp_bind, wp_pure, wp_rdC_lo hC, wp_rdC_hi hC, wp_wrC_lo hC, wp_wrC_hi hC, wp_wrC_lo (readQ_writeQ_same _ _ _), wp_wrC_hi (readQ_writeQ_same _ _ _), wp_rdC_lo (readQ_writeQ_same _ _ _), wp_rdC_hi (readQ_writeQ_same _ _ _), writeQ_writeQ]
      refine congrArg (writeQ m _) (eq_ofH ?_)
      ext <;> simp [Scal.toH] <;> ring
    · rw [hz rfl]
      simp only [if_true, el3c_1, el3c_2, wp_bind, wp_pure, wp_rdC_lo hC, wp_rdC_hi hC, wp_wrC_lo hC, wp_wrC_hi hC, wp_wrC_lo (readQ_writeQ_same _ _ _), wp_wrC_hi (readQ_writeQ_same _ _ _), wp_rdC_lo (readQ_writeQ_same _ _ _), wp_rdC_hi (readQ_writeQ_same _ _ _), writeQ_writeQ]
      refine congrArg (writeQ m _) (eq_ofH ?_)
      ext <;> simp [Scal.toH] <;> ring

theorem hgemmdz_100_I_wp {Kp : Mem R → Prop} {m : Mem R} {M N K : Int} {A LDA B LDB C LDC : Int}
    {X Y : Nat → Nat → Quat R} {c : Quat R} {ALPHA : R} {BETA : Cplx R} {BZERO : Bool} {i j : Nat}
    (env : GEnv Kp A LDA K.toNat M.toNat X B LDB K.toNat N.toNat Y C LDC M.toNat N.toNat)
    (hz : BZERO = true → (Scal.z BETA).toH = 0) (hi : i < M.toNat) (hj : j < N.toNat) (hk : Kp m)
    (hC : readQ m (C + 4 * ((i:Int) + j * LDC)) = some c) :
    wp (hgemmdz_100_I A ALPHA B BETA BZERO C (j+1) K LDA LDB LDC (i+1)) m (fun _ m' =>
      m' = writeQ m (C + 4 * (i + j * LDC)) (Quat.ofH (gemmSpec (Scal.d ALPHA).toH (Scal.z BETA).toH K.toNat
          (fun k => ((X k i).toH)) (fun k => ((Y k j).toH)) c.toH))) := by
  unfold hgemmdz_100_I
  simp only [wp_bind]
  refine wp_acc (fun l s => (⟨s.2.re, s.2.im, s.1.re, s.1.im⟩ : Quat R).toH =
    ∑ k ∈ range l, ((X k i).toH) * ((Y k j).toH)) ?_ ?_ ?_
  · simp only [range_zero, sum_empty]; rfl
  · intro l s hl hs
    have hA := env.rdA m hk l i hl hi
    have hB := env.rdB m hk l j hl hj
    unfold hgemmdz_110_L
    simp only [el3c_1, el3c_2, wp_bind, wp_pure, wp_rdC_lo hA, wp_rdC_hi hA, wp_rdC_lo hB, wp_rdC_hi hB]
    refine ⟨trivial, ?_⟩
    rw [sum_range_succ, ← hs]
    ext <;> simp [Scal.toH] <;> ring
  · intro s hs
    unfold gemmSpec
    rw [← hs]
    cases BZERO
    · simp only [Bool.false_eq_true, if_false, el3c_1, el3c_2, wp_bind, wp_pure, wp_rdC_lo hC, wp_rdC_hi hC, wp_wrC_lo hC, wp_wrC_hi hC, wp_wrC_lo (readQ_writeQ_same _ _ _), wp_wrC_hi (readQ_writeQ_same _ _ _), wp_rdC_lo (readQ_writeQ_same _ _ _), wp_rdC_hi (readQ_writeQ_same _ _ _), writeQ_writeQ]
      refine congrArg (writeQ m _) (eq_ofH ?_)
      ext <;> simp [Scal.toH] <;> ring
    · rw [hz rfl]
      simp only [if_true, el3c_1, el3c_2, wp_bind, wp_pure, wp_rdC_lo hC, wp_rdC_hi hC, wp_wrC_lo hC, wp_wrC_hi hC, wp_wrC_lo (readQ_writeQ_same _ _ _), wp_wrC_hi (readQ_writeQ_same _ _ _), wp_rdC_lo (readQ_writeQ_same _ _ _), wp_rdC_hi (readQ_writeQ_same _ _ _), writeQ_writeQ]
      refine congrArg (writeQ m _) (eq_ofH ?_)
      ext <;> simp [Scal.toH] <;> ring

theorem hgemmdz_220_I_wp {Kp : Mem R → Prop} {m : Mem R} {M N K : Int} {A LDA B LDB C LDC : Int}
    {X Y : Nat → Nat → Quat R} {c : Quat R} {ALPHA : R} {BETA : Cplx R} {BZERO : Bool} {i j : Nat}
    (env : GEnv Kp A LDA K.toNat M.toNat X B LDB N.toNat K.toNat Y C LDC M.toNat N.toNat)
    (hz : BZERO = true → (Scal.z BETA).toH = 0) (hi : i < M.toNat) (hj : j < N.toNat) (hk : Kp m)
    (hC : readQ m (C + 4 * ((i:Int) + j * LDC)) = some c) :
    wp (hgemmdz_220_I A ALPHA B BETA BZERO C (j+1) K LDA LDB LDC (i+1)) m (fun _ m' =>
      m' = writeQ m (C + 4 * (i + j * LDC)) (Quat.ofH (gemmSpec (Scal.d ALPHA).toH (Scal.z BETA).toH K.toNat
          (fun k => (star (X k i).toH)) (fun k => (star (Y j k).toH)) c.toH))) := by
  unfold hgemmdz_220_I
  simp only [wp_bind]
  refine wp_acc (fun l s => (⟨s.2.re, s.2.im, s.1.re, s.1.im⟩ : Quat R).toH =
    ∑ k ∈ range l, (star (X k i).toH) * (star (Y j k).toH)) ?_ ?_ ?_
  · simp only [range_zero, sum_empty]; rfl
  · intro l s hl hs
    have hA := env.rdA m hk l i hl hi
    have hB := env.rdB m hk j l hj hl
    unfold hgemmdz_230_L
    simp only [el3c_1, el3c_2, wp_bind, wp_pure, wp_rdC_lo hA, wp_rdC_hi hA, wp_rdC_lo hB, wp_rdC_hi hB]
    refine ⟨trivial, ?_⟩
    rw [sum_range_succ, ← hs]
    ext <;> simp [Scal.toH] <;> ring
  · intro s hs
    unfold gemmSpec
    rw [← hs]
    cases BZERO
    · simp only [Bool.false_eq_true, if_false, el3c_1, el3c_2, wp_bind, wp_pure, wp_rdC_lo hC, wp_rdC_hi hC, wp_wrC_lo hC, wp_wrC_hi hC, wp_wrC_lo (readQ_writeQ_same _ _ _), wp_wrC_hi (readQ_writeQ_same _ _ _), wp_rdC_lo (readQ_writeQ_same _ _ _), wp_rdC_hi (readQ_writeQ_same _ _ _), writeQ_writeQ]
      refine congrArg (writeQ m _) (eq_ofH ?_)
      ext <;> simp [Scal.toH] <;> ring
    · rw [hz rfl]
      simp only [if_true, el3c_1, el3c_2, wp_bind, wp_pure, wp_rdC_lo hC, wp_rdC_hi hC, wp_wrC_lo hC, wp_wrC_hi hC, wp_wrC_lo (readQ_writeQ_same _ _ _), wp_wrC_hi (readQ_writeQ_same _ _ _), wp_rdC_lo (readQ_writeQ_same _ _ _), wp_rdC_hi (readQ_writeQ_same _ _ _), writeQ_writeQ]
      refine congrArg (writeQ m _) (eq_ofH ?_)
      ext <;> simp [Scal.toH] <;> ring

theorem hgemmdz_240_I_wp {Kp : Mem R → Prop} {m : Mem R} {M N K : Int} {A LDA B LDB C LDC : Int}
    {X Y : Nat → Nat → Quat R} {c : Quat R} {ALPHA : R} {BETA : Cplx R} {BZERO : Bool} {i j : Nat}
    (env : GEnv Kp A LDA K.toNat M.toNat X B LDB N.toNat K.toNat Y C LDC M.toNat N.toNat)
    (hz : BZERO = true → (Scal.z BETA).toH = 0) (hi : i < M.toNat) (hj : j < N.toNat) (hk : Kp m)
    (hC : readQ m (C + 4 * ((i:Int) + j * LDC)) = some c) :
    wp (hgemmdz_240_I A ALPHA B BETA BZERO C (j+1) K LDA LDB LDC (i+1)) m (fun _ m' =>
      m' = writeQ m (C + 4 * (i + j * LDC)) (Quat.ofH (gemmSpec (Scal.d ALPHA).toH (Scal.z BETA).toH K.toNat
          (fun k => (star (X k i).toH)) (fun k => ((Y j k).toH)) c.toH))) := by
  unfold hgemmdz_240_I
  simp only [wp_bind]
  refine wp_acc (fun l s => (⟨s.2.re, s.2.im, s.1.re, s.1.im⟩ : Quat R).toH =
    ∑ k ∈ range l, (star (X k i).toH) * ((Y j k).toH)) ?_ ?_ ?_
  · simp only [range_zero, sum_empty]; rfl
  · intro l s hl hs
    have hA := env.rdA m hk l i hl hi
    have hB := env.rdB m hk j l hj hl
    unfold hgemmdz_250_L
    simp only [el3c_1, el3c_2, wp_bind, wp_pure, wp_rdC_lo hA, wp_rdC_hi hA, wp_rdC_lo hB, wp_rdC_hi hB]
    refine ⟨trivial, ?_⟩
    rw [sum_range_succ, ← hs]
    ext <;> simp [Scal.toH] <;> ring
  · intro s hs
    unfold gemmSpec
    rw [← hs]
    cases BZERO
    · simp only [Bool.false_eq_true, if_false, el3c_1, el3c_2, wp_bind, wp_pure, wp_rdC_lo hC, wp_rdC_hi hC, wp_wrC_lo hC, wp_wrC_hi hC, wp_wrC_lo (readQ_writeQ_same _ _ _), wp_wrC_hi (readQ_writeQ_same _ _ _), wp_rdC_lo (readQ_writeQ_same _ _ _), wp_rdC_hi (readQ_writeQ_same _ _ _), writeQ_writeQ]
      refine congrArg (writeQ m _) (eq_ofH ?_)
      ext <;> simp [Scal.toH] <;> ring
    · rw [hz rfl]
      simp only [if_true, el3c_1, el3c_2, wp_bind, wp_pure, wp_rdC_lo hC, wp_rdC_hi hC, wp_wrC_lo hC, wp_wrC_hi hC, wp_wrC_lo (readQ_writeQ_same _ _ _), wp_wrC_hi (readQ_writeQ_same _ _ _), wp_rdC_lo (readQ_writeQ_same _ _ _), wp_rdC_hi (readQ_writeQ_same _ _ _), writeQ_writeQ]
      refine congrArg (writeQ m _) (eq_ofH ?_)
      ext <;> simp [Scal.toH] <;> ring

theorem hgemmdz_260_I_wp {Kp : Mem R → Prop} {m : Mem R} {M N K : Int} {A LDA B LDB C LDC : Int}
    {X Y : Nat → Nat → Quat R} {c : Quat R} {ALPHA : R} {BETA : Cplx R} {BZERO : Bool} {i j : Nat}
    (env : GEnv Kp A LDA K.toNat M.toNat X B LDB N.toNat K.toNat Y C LDC M.toNat N.toNat)
    (hz : BZERO = true → (Scal.z BETA).toH = 0) (hi : i < M.toNat) (hj : j < N.toNat) (hk : Kp m)
    (hC : readQ m (C + 4 * ((i:Int) + j * LDC)) = some c) :
    wp (hgemmdz_260_I A ALPHA B BETA BZERO C (j+1) K LDA LDB LDC (i+1)) m (fun _ m' =>
      m' = writeQ m (C + 4 * (i + j * LDC)) (Quat.ofH (gemmSpec (Scal.d ALPHA).toH (Scal.z BETA).toH K.toNat
          (fun k => ((X k i).toH)) (fun k => (star (Y j k).toH)) c.toH))) := by
  unfold hgemmdz_260_I
  simp only [wp_bind]
  refine wp_acc (fun l s => (⟨s.2.re, s.2.im, s.1.re, s.1.im⟩ : Quat R).toH =
    ∑ k ∈ range l, ((X k i).toH) * (star (Y j k).toH)) ?_ ?_ ?_
  · simp only [range_zero, sum_empty]; rfl
  · intro l s hl hs
    have hA := env.rdA m hk l i hl hi
    have hB := env.rdB m hk j l hj hl
    unfold hgemmdz_270_L
    simp only [el3c_1, el3c_2, wp_bind, wp_pure, wp_rdC_lo hA, wp_rdC_hi hA, wp_rdC_lo hB, wp_rdC_hi hB]
    refine ⟨trivial, ?_⟩
    rw [sum_range_succ, ← hs]
    ext <;> simp [Scal.toH] <;> ring
  · intro s hs
    unfold gemmSpec
    rw [← hs]
    cases BZERO
    · simp only [Bool.false_eq_true, if_false, el3c_1, el3c_2, wp_bind, wp_pure, wp_rdC_lo hC, wp_rdC_hi hC, wp_wrC_lo hC, wp_wrC_hi hC, wp_wrC_lo (readQ_writeQ_same _ _ _), wp_wrC_hi (readQ_writeQ_same _ _ _), wp_rdC_lo (readQ_writeQ_same _ _ _), wp_rdC_hi (readQ_writeQ_same _ _ _), writeQ_writeQ]
      refine congrArg (writeQ m _) (eq_ofH ?_)
      ext <;> simp [Scal.toH] <;> ring
    · rw [hz rfl]
      simp only [if_true, el3c_1, el3c_2, wp_bind, wp_pure, wp_rdC_lo hC, wp_rdC_hi hC, wp_wrC_lo hC, wp_wrC_hi hC, wp_wrC_lo (readQ_writeQ_same _ _ _), wp_wrC_hi (readQ_writeQ_same _ _ _), wp_rdC_lo (readQ_writeQ_same _ _ _), wp_rdC_hi (readQ_writeQ_same _ _ _), writeQ_writeQ]
      refine congrArg (writeQ m _) (eq_ofH ?_)
      ext <;> simp [Scal.toH] <;> ring

theorem hgemmdz_280_I_wp {Kp : Mem R → Prop} {m : Mem R} {M N K : Int} {A LDA B LDB C LDC : Int}
    {X Y : Nat → Nat → Quat R} {c : Quat R} {ALPHA : R} {BETA : Cplx R} {BZERO : Bool} {i j : Nat}
    (env : GEnv Kp A LDA K.toNat M.toNat X B LDB N.toNat K.toNat Y C LDC M.toNat N.toNat)
    (hz : BZERO = true → (Scal.z BETA).toH = 0) (hi : i < M.toNat) (hj : j < N.toNat) (hk : Kp m)
    (hC : readQ m (C + 4 * ((i:Int) + j * LDC)) = some c) :
    wp (hgemmdz_280_I A ALPHA B BETA BZERO C (j+1) K LDA LDB LDC (i+1)) m (fun _ m' =>
      m' = writeQ m (C + 4 * (i + j * LDC)) (Quat.ofH (gemmSpec (Scal.d ALPHA).toH (Scal.z BETA).toH K.toNat
          (fun k => ((X k i).toH)) (fun k => ((Y j k).toH)) c.toH))) := by
  unfold hgemmdz_280_I
  simp only [wp_bind]
  refine wp_acc (fun l s => (⟨s.2.re, s.2.im, s.1.re, s.1.im⟩ : Quat R).toH =
    ∑ k ∈ range l, ((X k i).toH) * ((Y j k).toH)) ?_ ?_ ?_
  · simp only [range_zero, sum_empty]; rfl
  · intro l s hl hs
    have hA := env.rdA m hk l i hl hi
    have hB := env.rdB m hk j l hj hl
    unfold hgemmdz_290_L
    simp only [el3c_1, el3c_2, wp_bind, wp_pure, wp_rdC_lo hA, wp_rdC_hi hA, wp_rdC_lo hB, wp_rdC_hi hB]
    refine ⟨trivial, ?_⟩
    rw [sum_range_succ, ← hs]
    ext <;> simp [Scal.toH] <;> ring
  · intro s hs
    unfold gemmSpec
    rw [← hs]
    cases BZERO
    · simp only [Bool.false_eq_true, if_false, el3c_1, el3c_2, wp_bind, wp_pure, wp_rdC_lo hC, wp_rdC_hi hC, wp_wrC_lo hC, wp_wrC_hi hC, wp_wrC_lo (readQ_writeQ_same _ _ _), wp_wrC_hi (readQ_writeQ_same _ _ _), wp_rdC_lo (readQ_writeQ_same _ _ _), wp_rdC_hi (readQ_writeQ_same _ _ _), writeQ_writeQ]
      refine congrArg (writeQ m _) (eq_ofH ?_)
      ext <;> simp [Scal.toH] <;> ring
    · rw [hz rfl]
      simp only [if_true, el3c_1, el3c_2, wp_bind, wp_pure, wp_rdC_lo hC, wp_rdC_hi hC, wp_wrC_lo hC, wp_wrC_hi hC, wp_wrC_lo (readQ_writeQ_same _ _ _), wp_wrC_hi (readQ_writeQ_same _ _ _), wp_rdC_lo (readQ_writeQ_same _ _ _), wp_rdC_hi (readQ_writeQ_same _ _ _), writeQ_writeQ]
      refine congrArg (writeQ m _) (eq_ofH ?_)
      ext <;> simp [Scal.toH] <;> ring

theorem hgemmdz_30_wp {Kp : Mem R → Prop} {m : Mem R} {M N K : Int} {A LDA B LDB C LDC : Int}
    {X Y c : Nat → Nat → Quat R} {ALPHA : R} {BETA : Cplx R} {BONE BZERO : Bool}
    (env : GEnv Kp A LDA M.toNat K.toNat X B LDB K.toNat N.toNat Y C LDC M.toNat N.toNat)
    (hz : BZERO = true → (Scal.z BETA).toH = 0) (ho : BONE = true → (Scal.z BETA).toH = 1) (hk : Kp m)
    (hc : MatAt m C LDC M.toNat N.toNat c) :
    wp (forN N.toNat (fun i => hgemmdz_30_J A ALPHA B BETA BONE BZERO C K LDA LDB LDC M ((i : Int) + 1))) m
      (fun _ m' => GPost Kp m C LDC M.toNat N.toNat (fun i j => Quat.ofH (gemmSpec (Scal.d ALPHA).toH (Scal.z BETA).toH
        K.toNat (fun k => ((X i k).toH)) (fun k => ((Y k j).toH)) (c i j).toH)) m') := by
  refine wp_colsU env.disj hk hc ?_
  intro j m hj hU
  exact hgemmdz_30_J_wp env hz ho hj hU

theorem hgemmdz_120_wp {Kp : Mem R → Prop} {m : Mem R} {M N K : Int} {A LDA B LDB C LDC : Int}
    {X Y c : Nat → Nat → Quat R} {ALPHA : R} {BETA : Cplx R} {BONE BZERO : Bool}
    (env : GEnv Kp A LDA M.toNat K.toNat X B LDB N.toNat K.toNat Y C LDC M.toNat N.toNat)
    (hz : BZERO = true → (Scal.z BETA).toH = 0) (ho : BONE = true → (Scal.z BETA).toH = 1) (hk : Kp m)
    (hc : MatAt m C LDC M.toNat N.toNat c) :
    wp (forN N.toNat (fun i => hgemmdz_120_J A ALPHA B BETA BONE BZERO C K LDA LDB LDC M ((i : Int) + 1))) m
      (fun _ m' => GPost Kp m C LDC M.toNat N.toNat (fun i j => Quat.ofH (gemmSpec (Scal.d ALPHA).toH (Scal.z BETA).toH
        K.toNat (fun k => ((X i k).toH)) (fun k => (star (Y j k).toH)) (c i j).toH)) m') := by
  refine wp_colsU env.disj hk hc ?_
  intro j m hj hU
  exact hgemmdz_120_J_wp env hz ho hj hU

theorem hgemmdz_170_wp {Kp : Mem R → Prop} {m : Mem R} {M N K : Int} {A LDA B LDB C LDC : Int}
    {X Y c : Nat → Nat → Quat R} {ALPHA : R} {BETA : Cplx R} {BONE BZERO : Bool}
    (env : GEnv Kp A LDA M.toNat K.toNat X B LDB N.toNat K.toNat Y C LDC M.toNat N.toNat)
    (hz : BZERO = true → (Scal.z BETA).toH = 0) (ho : BONE = true → (Scal.z BETA).toH = 1) (hk : Kp m)
    (hc : MatAt m C LDC M.toNat N.toNat c) :
    wp (forN N.toNat (fun i => hgemmdz_170_J A ALPHA B BETA BONE BZERO C K LDA LDB LDC M ((i : Int) + 1))) m
      (fun _ m' => GPost Kp m C LDC M.toNat N.toNat (fun i j => Quat.ofH (gemmSpec (Scal.d ALPHA).toH (Scal.z BETA).toH
        K.toNat (fun k => ((X i k).toH)) (fun k => ((Y j k).toH)) (c i j).toH)) m') := by
  refine wp_colsU env.disj hk hc ?_
  intro j m hj hU
  exact hgemmdz_170_J_wp env hz ho hj hU

theorem hgemmdz_80_wp {Kp : Mem R → Prop} {m : Mem R} {M N K : Int} {A LDA B LDB C LDC : Int}
    {X Y c : Nat → Nat → Quat R} {ALPHA : R} {BETA : Cplx R} {BZERO : Bool}
    (env : GEnv Kp A LDA K.toNat M.toNat X B LDB K.toNat N.toNat Y C LDC M.toNat N.toNat)
    (hz : BZERO = true → (Scal.z BETA).toH = 0) (hk : Kp m)
    (hc : MatAt m C LDC M.toNat N.toNat c) :
    wp (forN N.toNat (fun i => hgemmdz_80_J A ALPHA B BETA BZERO C K LDA LDB LDC M ((i : Int) + 1))) m
      (fun _ m' => GPost Kp m C LDC M.toNat N.toNat (fun i j => Quat.ofH (gemmSpec (Scal.d ALPHA).toH (Scal.z BETA).toH
        K.toNat (fun k => (star (X k i).toH)) (fun k => ((Y k j).toH)) (c i j).toH)) m') := by
  refine wp_nestU (f := fun j i => hgemmdz_80_I A ALPHA B BETA BZERO C ((j:Int)+1) K LDA LDB LDC ((i:Int)+1))
    (fun j => rfl) env.disj env.stable hk hc ?_
  intro i j m hi hj hk hC
  exact hgemmdz_80_I_wp env hz hi hj hk hC

theorem hgemmdz_100_wp {Kp : Mem R → Prop} {m : Mem R} {M N K : Int} {A LDA B LDB C LDC : Int}
    {X Y c : Nat → Nat → Quat R} {ALPHA : R} {BETA : Cplx R} {BZERO : Bool}
    (env : GEnv Kp A LDA K.toNat M.toNat X B LDB K.toNat N.toNat Y C LDC M.toNat N.toNat)
    (hz : BZERO = true → (Scal.z BETA).toH = 0) (hk : Kp m)
    (hc : MatAt m C LDC M.toNat N.toNat c) :
    wp (forN N.toNat (fun i => hgemmdz_100_J A ALPHA B BETA BZERO C K LDA LDB LDC M ((i : Int) + 1))) m
      (fun _ m' => GPost Kp m C LDC M.toNat N.toNat (fun i j => Quat.ofH (gemmSpec (Scal.d ALPHA).toH (Scal.z BETA).toH
        K.toNat (fun k => ((X k i).toH)) (fun k => ((Y k j).toH)) (c i j).toH)) m') := by
  refine wp_nestU (f := fun j i => hgemmdz_100_I A ALPHA B BETA BZERO C ((j:Int)+1) K LDA LDB LDC ((i:Int)+1))
    (fun j => rfl) env.disj env.stable hk hc ?_
  intro i j m hi hj hk hC
  exact hgemmdz_100_I_wp env hz hi hj hk hC

theorem hgemmdz_220_wp {Kp : Mem R → Prop} {m : Mem R} {M N K : Int} {A LDA B LDB C LDC : Int}
    {X Y c : Nat → Nat → Quat R} {ALPHA : R} {BETA : Cplx R} {BZERO : Bool}
    (env : GEnv Kp A LDA K.toNat M.toNat X B LDB N.toNat K.toNat Y C LDC M.toNat N.toNat)
    (hz : BZERO = true → (Scal.z BETA).toH = 0) (hk : Kp m)
    (hc : MatAt m C LDC M.toNat N.toNat c) :
    wp (forN N.toNat (fun i => hgemmdz_220_J A ALPHA B BETA BZERO C K LDA LDB LDC M ((i : Int) + 1))) m
      (fun _ m' => GPost Kp m C LDC M.toNat N.toNat (fun i j => Quat.ofH (gemmSpec (Scal.d ALPHA).toH (Scal.z BETA).toH
        K.toNat (fun k => (star (X k i).toH)) (fun k => (star (Y j k).toH)) (c i j).toH)) m') := by
  refine wp_nestU (f := fun j i => hgemmdz_220_I A ALPHA B BETA BZERO C ((j:Int)+1) K LDA LDB LDC ((i:Int)+1))
    (fun j => rfl) env.disj env.stable hk hc ?_
  intro i j m hi hj hk hC
  exact hgemmdz_220_I_wp env hz hi hj hk hC

theorem hgemmdz_240_wp {Kp : Mem R → Prop} {m : Mem R} {M N K : Int} {A LDA B LDB C LDC : Int}
    {X Y c : Nat → Nat → Quat R} {ALPHA : R} {BETA : Cplx R} {BZERO : Bool}
    (env : GEnv Kp A LDA K.toNat M.toNat X B LDB N.toNat K.toNat Y C LDC M.toNat N.toNat)
    (hz : BZERO = true → (Scal.z BETA).toH = 0) (hk : Kp m)
    (hc : MatAt m C LDC M.toNat N.toNat c) :
    wp (forN N.toNat (fun i => hgemmdz_240_J A ALPHA B BETA BZERO C K LDA LDB LDC M ((i : Int) + 1))) m
      (fun _ m' => GPost Kp m C LDC M.toNat N.toNat (fun i j => Quat.ofH (gemmSpec (Scal.d ALPHA).toH (Scal.z BETA).toH
        K.toNat (fun k => (star (X k i).toH)) (fun k => ((Y j k).toH)) (c i j).toH)) m') := by
  refine wp_nestU (f := fun j i => hgemmdz_240_I A ALPHA B BETA BZERO C ((j:Int)+1) K LDA LDB LDC ((i:Int)+1))
    (fun j => rfl) env.disj env.stable hk hc ?_
  intro i j m hi hj hk hC
  exact hgemmdz_240_I_wp env hz hi hj hk hC

theorem hgemmdz_260_wp {Kp : Mem R → Prop} {m : Mem R} {M N K : Int} {A LDA B LDB C LDC : Int}
    {X Y c : Nat → Nat → Quat R} {ALPHA : R} {BETA : Cplx R} {BZERO : Bool}
    (env : GEnv Kp A LDA K.toNat M.toNat X B LDB N.toNat K.toNat Y C LDC M.toNat N.toNat)
    (hz : BZERO = true → (Scal.z BETA).toH = 0) (hk : Kp m)
    (hc : MatAt m C LDC M.toNat N.toNat c) :
    wp (forN N.toNat (fun i => hgemmdz_260_J A ALPHA B BETA BZERO C K LDA LDB LDC M ((i : Int) + 1))) m
      (fun _ m' => GPost Kp m C LDC M.toNat N.toNat (fun i j => Quat.ofH (gemmSpec (Scal.d ALPHA).toH (Scal.z BETA).toH
        K.toNat (fun k => ((X k i).toH)) (fun k => (star (Y j k).toH)) (c i j).toH)) m') := by
  refine wp_nestU (f := fun j i => hgemmdz_260_I A ALPHA B BETA BZERO C ((j:Int)+1) K LDA LDB LDC ((i:Int)+1))
    (fun j => rfl) env.disj env.stable hk hc ?_
  intro i j m hi hj hk hC
  exact hgemmdz_260_I_wp env hz hi hj hk hC

theorem hgemmdz_280_wp {Kp : Mem R → Prop} {m : Mem R} {M N K : Int} {A LDA B LDB C LDC : Int}
    {X Y c : Nat → Nat → Quat R} {ALPHA : R} {BETA : Cplx R} {BZERO : Bool}
    (env : GEnv Kp A LDA K.toNat M.toNat X B LDB N.toNat K.toNat Y C LDC M.toNat N.toNat)
    (hz : BZERO = true → (Scal.z BETA).toH = 0) (hk : Kp m)
    (hc : MatAt m C LDC M.toNat N.toNat c) :
    wp (forN N.toNat (fun i => hgemmdz_280_J A ALPHA B BETA BZERO C K LDA LDB LDC M ((i : Int) + 1))) m
      (fun _ m' => GPost Kp m C LDC M.toNat N.toNat (fun i j => Quat.ofH (gemmSpec (Scal.d ALPHA).toH (Scal.z BETA).toH
        K.toNat (fun k => ((X k i).toH)) (fun k => ((Y j k).toH)) (c i j).toH)) m') := by
  refine wp_nestU (f := fun j i => hgemmdz_280_I A ALPHA B BETA BZERO C ((j:Int)+1) K LDA LDB LDC ((i:Int)+1))
    (fun j => rfl) env.disj env.stable hk hc ?_
  intro i j m hi hj hk hC
  exact hgemmdz_280_I_wp env hz hi hj hk hC

theorem hgemmdz_if62_wp {Kp : Mem R → Prop} {m : Mem R} {M N : Int} {C LDC : Int}
    {c : Nat → Nat → Quat R} {BETA : Cplx R} {BZERO : Bool}
    (hdisj : ∀ i j i' j' : Nat, i < M.toNat → i' < M.toNat → ¬ (i = i' ∧ j = j') →
      QDisj (C + 4 * (i + j * LDC)) (C + 4 * (i' + j' * LDC)))
    (hst : ∀ m (i j : Nat) q, i < M.toNat → j < N.toNat → Kp m → Kp (writeQ m (C + 4 * (i + j * LDC)) q))
    (hz : BZERO = true → (Scal.z BETA).toH = 0) (hk : Kp m) (hc : MatAt m C LDC M.toNat N.toNat c) :
    wp (hgemmdz_if62 BETA BZERO C LDC M N) m
      (fun _ m' => GPost Kp m C LDC M.toNat N.toNat (fun i j => Quat.ofH ((Scal.z BETA).toH * (c i j).toH)) m') := by
  unfold hgemmdz_if62
  rw [wp_ite]
  split
  · rename_i h
    rw [hz h]
    simp only [wp_bind, wp_pure, zero_mul]
    refine wp_nestU (f := fun j i => hgemmdz_10_I C ((j:Int)+1) LDC ((i:Int)+1)) (fun j => rfl) hdisj hst hk hc ?_
    intro i j m _ _ _ hC
    exact hgemmdz_10_I_wp hC
  · simp only [wp_bind, wp_pure]
    refine wp_nestU (f := fun j i => hgemmdz_20_I BETA C ((j:Int)+1) LDC ((i:Int)+1)) (fun j => rfl) hdisj hst hk hc ?_
    intro i j m _ _ _ hC
    exact hgemmdz_20_I_wp hC


theorem hgemmdz_if100_wp {Kp : Mem R → Prop} {m : Mem R} {M N K : Int} {A LDA B LDB C LDC : Int}
    {X Y c : Nat → Nat → Quat R} {ALPHA : R} {BETA : Cplx R} {BONE BZERO : Bool} {tA tB : FTrans}
    (env : GEnv Kp A LDA (tA.rows M.toNat K.toNat) (tA.rows K.toNat M.toNat) X
      B LDB (tB.rows K.toNat N.toNat) (tB.rows N.toNat K.toNat) Y C LDC M.toNat N.toNat)
    (hz : BZERO = true → (Scal.z BETA).toH = 0) (ho : BONE = true → (Scal.z BETA).toH = 1) (hk : Kp m)
    (hc : MatAt m C LDC M.toNat N.toNat c) :
    wp (hgemmdz_if100 A ALPHA B BETA BONE BZERO C (tA == .C) (tB == .C) K LDA LDB LDC M N (tA == .N) (tB == .N)) m
      (fun _ m' => GPost Kp m C LDC M.toNat N.toNat (fun i j => Quat.ofH (gemmSpec (Scal.d ALPHA).toH (Scal.z BETA).toH
        K.toNat (fun k => tA.op X i k) (fun k => tB.op Y k j) (c i j).toH)) m') := by
  cases tA <;> cases tB
  · unfold hgemmdz_if100 hgemmdz_if101
    simp only [ft_NN, ft_TN, ft_CN, ft_NC, ft_TC, ft_CC, if_true, if_false, Bool.false_eq_true, wp_bind, wp_pure]
    exact hgemmdz_30_wp env hz ho hk hc
  · unfold hgemmdz_if100 hgemmdz_if311
    simp only [ft_NN, ft_TN, ft_CN, ft_NC, ft_TC, ft_CC, if_true, if_false, Bool.false_eq_true, wp_bind, wp_pure]
    exact hgemmdz_170_wp env hz ho hk hc
  · unfold hgemmdz_if100 hgemmdz_if311
    simp only [ft_NN, ft_TN, ft_CN, ft_NC, ft_TC, ft_CC, if_true, if_false, Bool.false_eq_true, wp_bind, wp_pure]
    exact hgemmdz_120_wp env hz ho hk hc
  · unfold hgemmdz_if100 hgemmdz_if101
    simp only [ft_NN, ft_TN, ft_CN, ft_NC, ft_TC, ft_CC, if_true, if_false, Bool.false_eq_true, wp_bind, wp_pure]
    exact hgemmdz_100_wp env hz hk hc
  · unfold hgemmdz_if100 hgemmdz_if602
    simp only [ft_NN, ft_TN, ft_CN, ft_NC, ft_TC, ft_CC, if_true, if_false, Bool.false_eq_true, wp_bind, wp_pure]
    exact hgemmdz_280_wp env hz hk hc
  · unfold hgemmdz_if100 hgemmdz_if602
    simp only [ft_NN, ft_TN, ft_CN, ft_NC, ft_TC, ft_CC, if_true, if_false, Bool.false_eq_true, wp_bind, wp_pure]
    exact hgemmdz_260_wp env hz hk hc
  · unfold hgemmdz_if100 hgemmdz_if101
    simp only [ft_NN, ft_TN, ft_CN, ft_NC, ft_TC, ft_CC, if_true, if_false, Bool.false_eq_true, wp_bind, wp_pure]
    exact hgemmdz_80_wp env hz hk hc
  · unfold hgemmdz_if100 hgemmdz_if465
    simp only [ft_NN, ft_TN, ft_CN, ft_NC, ft_TC, ft_CC, if_true, if_false, Bool.false_eq_true, wp_bind, wp_pure]
    exact hgemmdz_240_wp env hz hk hc
  · unfold hgemmdz_if100 hgemmdz_if465
    simp only [ft_NN, ft_TN, ft_CN, ft_NC, ft_TC, ft_CC, if_true, if_false, Bool.false_eq_true, wp_bind, wp_pure]
    exact hgemmdz_220_wp env hz hk hc

/-- `hgemmdz` computes `ALPHA*op(A)*op(B) + BETA*C`. -/
theorem hgemmdz_wp {Kp : Mem R → Prop} {m : Mem R} {TRANSA TRANSB : Char} {M N K : Int} {A LDA B LDB C LDC : Int}
    {X Y c : Nat → Nat → Quat R} {ALPHA : R} {BETA : Cplx R}
    (hdisj : ∀ i j i' j' : Nat, i < M.toNat → i' < M.toNat → ¬ (i = i' ∧ j = j') →
      QDisj (C + 4 * (i + j * LDC)) (C + 4 * (i' + j' * LDC)))
    (hst : ∀ m (i j : Nat) q, i < M.toNat → j < N.toNat → Kp m → Kp (writeQ m (C + 4 * (i + j * LDC)) q))
    (env : (Scal.d ALPHA).toH ≠ 0 → GEnv Kp A LDA ((FTrans.ofChar TRANSA).rows M.toNat K.toNat) ((FTrans.ofChar TRANSA).rows K.toNat M.toNat) X
      B LDB ((FTrans.ofChar TRANSB).rows K.toNat N.toNat) ((FTrans.ofChar TRANSB).rows N.toNat K.toNat) Y
      C LDC M.toNat N.toNat)
    (hk : Kp m) (hc : MatAt m C LDC M.toNat N.toNat c) :
    wp (hgemmdz TRANSA TRANSB M N K ALPHA A LDA B LDB BETA C LDC) m
      (fun _ m' => GPost Kp m C LDC M.toNat N.toNat (fun i j => Quat.ofH (gemmSpec (Scal.d ALPHA).toH (Scal.z BETA).toH
        K.toNat (fun k => (FTrans.ofChar TRANSA).op X i k) (fun k => (FTrans.ofChar TRANSB).op Y k j) (c i j).toH)) m') := by
  unfold hgemmdz
  simp only [lsame_N, lsame_C]
  split
  · rename_i h
    rw [wp_pure]
    refine ⟨fun i j hi hj => ?_, hk, fun _ _ => rfl⟩
    simp only [Bool.or_eq_true, decide_eq_true_eq] at h
    omega
  · split
    · rename_i h
      rw [wp_pure]
      refine ⟨fun i j hi hj => ?_, hk, fun _ _ => rfl⟩
      rw [hc i j hi hj]
      rw [Bool.and_eq_true, Bool.or_eq_true] at h
      have h2 := scal1_z BETA h.2
      refine congrArg some ?_
      unfold gemmSpec
      beta_reduce
      rcases h.1 with h1 | h1
      · rw [scal0_d ALPHA h1, h2, zero_mul, zero_add, one_mul, ofH_toH]
      · have : K = 0 := by simpa using h1
        subst this
        rw [h2]; simp
    · split
      · rename_i h
        rw [wp_bind]
        refine wp_mono (hgemmdz_if62_wp hdisj hst (scal0_z BETA) hk hc) ?_
        intro _ m' h'
        rw [wp_pure]
        refine h'.congr (fun i j _ _ => ?_)
        rw [gemmSpec, scal0_d ALPHA h, zero_mul, zero_add]
      · rename_i h
        simp only [wp_bind, wp_pure]
        exact hgemmdz_if100_wp (env (fun e => h (scal0_d' ALPHA e))) (scal0_z BETA) (scal1_z BETA) hk hc

end Haxx
