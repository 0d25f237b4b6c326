import Verif.FBits
import Verif.FGemmhh

/-!
# `hgemmhh`, bit for bit (written by `tools/gen_gemm_bits.py`)
-/

set_option linter.unusedSimpArgs false
set_option linter.unusedSectionVars false
set_option linter.unusedVariables false

namespace Haxx
open Arith

variable {F : Type} [Arith F] [ArithEq F]

theorem hgemmhh_10_I_bits {m : Mem F} {C LDC : Int} {i j : Nat} {c : Quat F}
    (hC : readQ m (C + 4 * ((i:Int) + j * LDC)) = some c) :
    wp (hgemmhh_10_I C (j+1) LDC (i+1)) m (fun _ m' => m' = writeQ m (C + 4 * (i + j * LDC)) fZero) := by
  unfold hgemmhh_10_I
  simp only [el3c_1, el3c_2, wp_bind, wp_pure, wp_rdC_lo hC, wp_rdC_hi hC, wp_wrC_lo hC, wp_wrC_hi hC, wp_wrC_lo (readQ_writeQ_same _ _ _), wp_wrC_hi (readQ_writeQ_same _ _ _), wp_rdC_lo (readQ_writeQ_same _ _ _), wp_rdC_hi (readQ_writeQ_same _ _ _), writeQ_writeQ]
  rfl

theorem hgemmhh_40_I_bits {m : Mem F} {C LDC : Int} {i j : Nat} {c : Quat F}
    (hC : readQ m (C + 4 * ((i:Int) + j * LDC)) = some c) :
    wp (hgemmhh_40_I C (j+1) LDC (i+1)) m (fun _ m' => m' = writeQ m (C + 4 * (i + j * LDC)) fZero) := by
  unfold hgemmhh_40_I
  simp only [el3c_1, el3c_2, wp_bind, wp_pure, wp_rdC_lo hC, wp_rdC_hi hC, wp_wrC_lo hC, wp_wrC_hi hC, wp_wrC_lo (readQ_writeQ_same _ _ _), wp_wrC_hi (readQ_writeQ_same _ _ _), wp_rdC_lo (readQ_writeQ_same _ _ _), wp_rdC_hi (readQ_writeQ_same _ _ _), writeQ_writeQ]
  rfl

theorem hgemmhh_130_I_bits {m : Mem F} {C LDC : Int} {i j : Nat} {c : Quat F}
    (hC : readQ m (C + 4 * ((i:Int) + j * LDC)) = some c) :
    wp (hgemmhh_130_I C (j+1) LDC (i+1)) m (fun _ m' => m' = writeQ m (C + 4 * (i + j * LDC)) fZero) := by
  unfold hgemmhh_130_I
  simp only [el3c_1, el3c_2, wp_bind, wp_pure, wp_rdC_lo hC, wp_rdC_hi hC, wp_wrC_lo hC, wp_wrC_hi hC, wp_wrC_lo (readQ_writeQ_same _ _ _), wp_wrC_hi (readQ_writeQ_same _ _ _), wp_rdC_lo (readQ_writeQ_same _ _ _), wp_rdC_hi (readQ_writeQ_same _ _ _), writeQ_writeQ]
  rfl

theorem hgemmhh_180_I_bits {m : Mem F} {C LDC : Int} {i j : Nat} {c : Quat F}
    (hC : readQ m (C + 4 * ((i:Int) + j * LDC)) = some c) :
    wp (hgemmhh_180_I C (j+1) LDC (i+1)) m (fun _ m' => m' = writeQ m (C + 4 * (i + j * LDC)) fZero) := by
  unfold hgemmhh_180_I
  simp only [el3c_1, el3c_2, wp_bind, wp_pure, wp_rdC_lo hC, wp_rdC_hi hC, wp_wrC_lo hC, wp_wrC_hi hC, wp_wrC_lo (readQ_writeQ_same _ _ _), wp_wrC_hi (readQ_writeQ_same _ _ _), wp_rdC_lo (readQ_writeQ_same _ _ _), wp_rdC_hi (readQ_writeQ_same _ _ _), writeQ_writeQ]
  rfl

theorem hgemmhh_20_I_bits {m : Mem F} {C LDC : Int} {i j : Nat} {c : Quat F} {BETA : Quat F}
    (hC : readQ m (C + 4 * ((i:Int) + j * LDC)) = some c) :
    wp (hgemmhh_20_I BETA C (j+1) LDC (i+1)) m (fun _ m' => m' = writeQ m (C + 4 * (i + j * LDC)) (fScal (.h BETA) c)) := by
  unfold hgemmhh_20_I
  simp only [el3c_1, el3c_2, wp_bind, wp_pure, wp_rdC_lo hC, wp_rdC_hi hC, wp_wrC_lo hC, wp_wrC_hi hC, wp_wrC_lo (readQ_writeQ_same _ _ _), wp_wrC_hi (readQ_writeQ_same _ _ _), wp_rdC_lo (readQ_writeQ_same _ _ _), wp_rdC_hi (readQ_writeQ_same _ _ _), writeQ_writeQ]
  rfl

theorem hgemmhh_50_I_bits {m : Mem F} {C LDC : Int} {i j : Nat} {c : Quat F} {BETA : Quat F}
    (hC : readQ m (C + 4 * ((i:Int) + j * LDC)) = some c) :
    wp (hgemmhh_50_I BETA C (j+1) LDC (i+1)) m (fun _ m' => m' = writeQ m (C + 4 * (i + j * LDC)) (fScal (.h BETA) c)) := by
  unfold hgemmhh_50_I
  simp only [el3c_1, el3c_2, wp_bind, wp_pure, wp_rdC_lo hC, wp_rdC_hi hC, wp_wrC_lo hC, wp_wrC_hi hC, wp_wrC_lo (readQ_writeQ_same _ _ _), wp_wrC_hi (readQ_writeQ_same _ _ _), wp_rdC_lo (readQ_writeQ_same _ _ _), wp_rdC_hi (readQ_writeQ_same _ _ _), writeQ_writeQ]
  rfl

theorem hgemmhh_140_I_bits {m : Mem F} {C LDC : Int} {i j : Nat} {c : Quat F} {BETA : Quat F}
    (hC : readQ m (C + 4 * ((i:Int) + j * LDC)) = some c) :
    wp (hgemmhh_140_I BETA C (j+1) LDC (i+1)) m (fun _ m' => m' = writeQ m (C + 4 * (i + j * LDC)) (fScal (.h BETA) c)) := by
  unfold hgemmhh_140_I
  simp only [el3c_1, el3c_2, wp_bind, wp_pure, wp_rdC_lo hC, wp_rdC_hi hC, wp_wrC_lo hC, wp_wrC_hi hC, wp_wrC_lo (readQ_writeQ_same _ _ _), wp_wrC_hi (readQ_writeQ_same _ _ _), wp_rdC_lo (readQ_writeQ_same _ _ _), wp_rdC_hi (readQ_writeQ_same _ _ _), writeQ_writeQ]
  rfl

theorem hgemmhh_190_I_bits {m : Mem F} {C LDC : Int} {i j : Nat} {c : Quat F} {BETA : Quat F}
    (hC : readQ m (C + 4 * ((i:Int) + j * LDC)) = some c) :
    wp (hgemmhh_190_I BETA C (j+1) LDC (i+1)) m (fun _ m' => m' = writeQ m (C + 4 * (i + j * LDC)) (fScal (.h BETA) c)) := by
  unfold hgemmhh_190_I
  simp only [el3c_1, el3c_2, wp_bind, wp_pure, wp_rdC_lo hC, wp_rdC_hi hC, wp_wrC_lo hC, wp_wrC_hi hC, wp_wrC_lo (readQ_writeQ_same _ _ _), wp_wrC_hi (readQ_writeQ_same _ _ _), wp_rdC_lo (readQ_writeQ_same _ _ _), wp_rdC_hi (readQ_writeQ_same _ _ _), writeQ_writeQ]
  rfl

theorem hgemmhh_if72_bits {K : Mem F → Prop} {m0 m : Mem F} {M : Int} {C LDC : Int} {j : Nat}
    {c : Nat → Quat F} {BETA : Quat F} {BONE BZERO : Bool}
    (hdisj : ∀ i i', i < M.toNat → i' < M.toNat → i ≠ i' →
      QDisj (C + 4 * ((i:Int) + j * LDC)) (C + 4 * ((i':Int) + j * LDC)))
    (hst : ∀ m i q, i < M.toNat → K m → K (writeQ m (C + 4 * ((i:Int) + j * LDC)) q))
    (hU : Upd K (fun i => C + 4 * ((i:Int) + j * LDC)) M.toNat m0 c m) :
    wp (hgemmhh_if72 BETA BONE BZERO C (j+1) LDC M) m (fun _ m' =>
      Upd K (fun i => C + 4 * ((i:Int) + j * LDC)) M.toNat m0 (fun i => fBeta BZERO BONE (.h BETA) (c i)) m') := by
  unfold hgemmhh_if72
  cases BZERO
  · cases BONE
    · simp only [Bool.false_eq_true, if_false, Bool.not_false, if_true, wp_bind, wp_pure]
      refine wp_passU hdisj hst hU ?_
      intro i m _ _ hc
      exact hgemmhh_50_I_bits hc
    · simp only [Bool.false_eq_true, if_false, Bool.not_true, wp_pure]
      exact hU
  · simp only [if_true, wp_bind, wp_pure]
    refine wp_passU hdisj hst hU ?_
    intro i m _ _ hc
    exact hgemmhh_40_I_bits hc

theorem hgemmhh_if171_bits {K : Mem F → Prop} {m0 m : Mem F} {M : Int} {C LDC : Int} {j : Nat}
    {c : Nat → Quat F} {BETA : Quat F} {BONE BZERO : Bool}
    (hdisj : ∀ i i', i < M.toNat → i' < M.toNat → i ≠ i' →
      QDisj (C + 4 * ((i:Int) + j * LDC)) (C + 4 * ((i':Int) + j * LDC)))
    (hst : ∀ m i q, i < M.toNat → K m → K (writeQ m (C + 4 * ((i:Int) + j * LDC)) q))
    (hU : Upd K (fun i => C + 4 * ((i:Int) + j * LDC)) M.toNat m0 c m) :
    wp (hgemmhh_if171 BETA BONE BZERO C (j+1) LDC M) m (fun _ m' =>
      Upd K (fun i => C + 4 * ((i:Int) + j * LDC)) M.toNat m0 (fun i => fBeta BZERO BONE (.h BETA) (c i)) m') := by
  unfold hgemmhh_if171
  cases BZERO
  · cases BONE
    · simp only [Bool.false_eq_true, if_false, Bool.not_false, if_true, wp_bind, wp_pure]
      refine wp_passU hdisj hst hU ?_
      intro i m _ _ hc
      exact hgemmhh_140_I_bits hc
    · simp only [Bool.false_eq_true, if_false, Bool.not_true, wp_pure]
      exact hU
  · simp only [if_true, wp_bind, wp_pure]
    refine wp_passU hdisj hst hU ?_
    intro i m _ _ hc
    exact hgemmhh_130_I_bits hc

theorem hgemmhh_if210_bits {K : Mem F → Prop} {m0 m : Mem F} {M : Int} {C LDC : Int} {j : Nat}
    {c : Nat → Quat F} {BETA : Quat F} {BONE BZERO : Bool}
    (hdisj : ∀ i i', i < M.toNat → i' < M.toNat → i ≠ i' →
      QDisj (C + 4 * ((i:Int) + j * LDC)) (C + 4 * ((i':Int) + j * LDC)))
    (hst : ∀ m i q, i < M.toNat → K m → K (writeQ m (C + 4 * ((i:Int) + j * LDC)) q))
    (hU : Upd K (fun i => C + 4 * ((i:Int) + j * LDC)) M.toNat m0 c m) :
    wp (hgemmhh_if210 BETA BONE BZERO C (j+1) LDC M) m (fun _ m' =>
      Upd K (fun i => C + 4 * ((i:Int) + j * LDC)) M.toNat m0 (fun i => fBeta BZERO BONE (.h BETA) (c i)) m') := by
  unfold hgemmhh_if210
  cases BZERO
  · cases BONE
    · simp only [Bool.false_eq_true, if_false, Bool.not_false, if_true, wp_bind, wp_pure]
      refine wp_passU hdisj hst hU ?_
      intro i m _ _ hc
      exact hgemmhh_190_I_bits hc
    · simp only [Bool.false_eq_true, if_false, Bool.not_true, wp_pure]
      exact hU
  · simp only [if_true, wp_bind, wp_pure]
    refine wp_passU hdisj hst hU ?_
    intro i m _ _ hc
    exact hgemmhh_180_I_bits hc

theorem hgemmhh_30_J_bits {Kp : Mem F → Prop} {m : Mem F} {M N K : Int} {A LDA B LDB C LDC : Int}
    {X Y : Nat → Nat → Quat F} {c : Nat → Quat F} {ALPHA : Quat F} {BETA : Quat F} {BONE BZERO : Bool} {j : Nat}
    (env : GEnv Kp A LDA M.toNat K.toNat X B LDB K.toNat N.toNat Y C LDC M.toNat N.toNat) (hj : j < N.toNat)
    (hU : Upd Kp (fun i => C + 4 * ((i:Int) + j * LDC)) M.toNat m c m) :
    wp (hgemmhh_30_J A ALPHA B BETA BONE BZERO C K LDA LDB LDC M (j+1)) m (fun _ m' =>
      Upd Kp (fun i => C + 4 * ((i:Int) + j * LDC)) M.toNat m
        (fun i => fMain .N .N (.h ALPHA) BZERO BONE (.h BETA) K.toNat (fun k => FTrans.pick .N X i k) (fun k => FTrans.pick .N Y k j) (c i)) m') := by
  have hd : ∀ i i', i < M.toNat → i' < M.toNat → i ≠ i' →
      QDisj (C + 4 * ((i:Int) + j * LDC)) (C + 4 * ((i':Int) + j * LDC)) :=
    fun i i' hi hi' hne => env.disj i j i' j hi hi' (fun e => hne e.1)
  have hs : ∀ m i q, i < M.toNat → Kp m → Kp (writeQ m (C + 4 * ((i:Int) + j * LDC)) q) :=
    fun m i q hi hk => env.stable m i j q hi hj hk
  unfold hgemmhh_30_J
  rw [wp_bind]
  refine wp_mono (hgemmhh_if72_bits hd hs hU) ?_
  intro _ m1 hU1
  rw [wp_bind]
  refine wp_forN (fun l m' => Upd Kp (fun i => C + 4 * ((i:Int) + j * LDC)) M.toNat m
    (fun i => fSteps (.h ALPHA) .N (fun k => FTrans.pick .N X i k) (fun k => FTrans.pick .N Y k j) (fBeta BZERO BONE (.h BETA) (c i)) l) m') hU1 ?_ ?_
  · intro l m hl hU
    have hB := env.rdB m hU.k l j hl hj
    unfold hgemmhh_60_L
    simp only [el3c_1, el3c_2, wp_bind, wp_pure, wp_rdC_lo hB, wp_rdC_hi hB]
    refine wp_passU hd hs hU ?_
    intro i m hi hk hC
    have hA := env.rdA m hk i l hi hl
    have hA' := matAt_write env.rdA (fun q => hs m i q hi hk) hi hl
    unfold hgemmhh_70_I
    simp only [el3c_1, el3c_2, wp_bind, wp_pure, wp_rdC_lo hA, wp_rdC_hi hA, wp_rdC_lo (hA' _), wp_rdC_hi (hA' _), wp_rdC_lo hC, wp_rdC_hi hC, wp_wrC_lo hC, wp_wrC_hi hC, wp_wrC_lo (readQ_writeQ_same _ _ _), wp_wrC_hi (readQ_writeQ_same _ _ _), wp_rdC_lo (readQ_writeQ_same _ _ _), wp_rdC_hi (readQ_writeQ_same _ _ _), writeQ_writeQ]
    rfl
  · intro m' h
    rw [wp_pure]
    exact h

theorem hgemmhh_120_J_bits {Kp : Mem F → Prop} {m : Mem F} {M N K : Int} {A LDA B LDB C LDC : Int}
    {X Y : Nat → Nat → Quat F} {c : Nat → Quat F} {ALPHA : Quat F} {BETA : Quat F} {BONE BZERO : Bool} {j : Nat}
    (env : GEnv Kp A LDA M.toNat K.toNat X B LDB N.toNat K.toNat Y C LDC M.toNat N.toNat) (hj : j < N.toNat)
    (hU : Upd Kp (fun i => C + 4 * ((i:Int) + j * LDC)) M.toNat m c m) :
    wp (hgemmhh_120_J A ALPHA B BETA BONE BZERO C K LDA LDB LDC M (j+1)) m (fun _ m' =>
      Upd Kp (fun i => C + 4 * ((i:Int) + j * LDC)) M.toNat m
        (fun i => fMain .N .C (.h ALPHA) BZERO BONE (.h BETA) K.toNat (fun k => FTrans.pick .N X i k) (fun k => FTrans.pick .C Y k j) (c i)) m') := by
  have hd : ∀ i i', i < M.toNat → i' < M.toNat → i ≠ i' →
      QDisj (C + 4 * ((i:Int) + j * LDC)) (C + 4 * ((i':Int) + j * LDC)) :=
    fun i i' hi hi' hne => env.disj i j i' j hi hi' (fun e => hne e.1)
  have hs : ∀ m i q, i < M.toNat → Kp m → Kp (writeQ m (C + 4 * ((i:Int) + j * LDC)) q) :=
    fun m i q hi hk => env.stable m i j q hi hj hk
  unfold hgemmhh_120_J
  rw [wp_bind]
  refine wp_mono (hgemmhh_if171_bits hd hs hU) ?_
  intro _ m1 hU1
  rw [wp_bind]
  refine wp_forN (fun l m' => Upd Kp (fun i => C + 4 * ((i:Int) + j * LDC)) M.toNat m
    (fun i => fSteps (.h ALPHA) .C (fun k => FTrans.pick .N X i k) (fun k => FTrans.pick .C Y k j) (fBeta BZERO BONE (.h BETA) (c i)) l) m') hU1 ?_ ?_
  · intro l m hl hU
    have hB := env.rdB m hU.k j l hj hl
    unfold hgemmhh_150_L
    simp only [el3c_1, el3c_2, wp_bind, wp_pure, wp_rdC_lo hB, wp_rdC_hi hB]
    refine wp_passU hd hs hU ?_
    intro i m hi hk hC
    have hA := env.rdA m hk i l hi hl
    have hA' := matAt_write env.rdA (fun q => hs m i q hi hk) hi hl
    unfold hgemmhh_160_I
    simp only [el3c_1, el3c_2, wp_bind, wp_pure, wp_rdC_lo hA, wp_rdC_hi hA, wp_rdC_lo (hA' _), wp_rdC_hi (hA' _), wp_rdC_lo hC, wp_rdC_hi hC, wp_wrC_lo hC, wp_wrC_hi hC, wp_wrC_lo (readQ_writeQ_same _ _ _), wp_wrC_hi (readQ_writeQ_same _ _ _), wp_rdC_lo (readQ_writeQ_same _ _ _), wp_rdC_hi (readQ_writeQ_same _ _ _), writeQ_writeQ]
    rfl
  · intro m' h
    rw [wp_pure]
    exact h

theorem hgemmhh_170_J_bits {Kp : Mem F → Prop} {m : Mem F} {M N K : Int} {A LDA B LDB C LDC : Int}
    {X Y : Nat → Nat → Quat F} {c : Nat → Quat F} {ALPHA : Quat F} {BETA : Quat F} {BONE BZERO : Bool} {j : Nat}
    (env : GEnv Kp A LDA M.toNat K.toNat X B LDB N.toNat K.toNat Y C LDC M.toNat N.toNat) (hj : j < N.toNat)
    (hU : Upd Kp (fun i => C + 4 * ((i:Int) + j * LDC)) M.toNat m c m) :
    wp (hgemmhh_170_J A ALPHA B BETA BONE BZERO C K LDA LDB LDC M (j+1)) m (fun _ m' =>
      Upd Kp (fun i => C + 4 * ((i:Int) + j * LDC)) M.toNat m
        (fun i => fMain .N .T (.h ALPHA) BZERO BONE (.h BETA) K.toNat (fun k => FTrans.pick .N X i k) (fun k => FTrans.pick .T Y k j) (c i)) m') := by
  have hd : ∀ i i', i < M.toNat → i' < M.toNat → i ≠ i' →
      QDisj (C + 4 * ((i:Int) + j * LDC)) (C + 4 * ((i':Int) + j * LDC)) :=
    fun i i' hi hi' hne => env.disj i j i' j hi hi' (fun e => hne e.1)
  have hs : ∀ m i q, i < M.toNat → Kp m → Kp (writeQ m (C + 4 * ((i:Int) + j * LDC)) q) :=
    fun m i q hi hk => env.stable m i j q hi hj hk
  unfold hgemmhh_170_J
  rw [wp_bind]
  refine wp_mono (hgemmhh_if210_bits hd hs hU) ?_
  intro _ m1 hU1
  rw [wp_bind]
  refine wp_forN (fun l m' => Upd Kp (fun i => C + 4 * ((i:Int) + j * LDC)) M.toNat m
    (fun i => fSteps (.h ALPHA) .T (fun k => FTrans.pick .N X i k) (fun k => FTrans.pick .T Y k j) (fBeta BZERO BONE (.h BETA) (c i)) l) m') hU1 ?_ ?_
  · intro l m hl hU
    have hB := env.rdB m hU.k j l hj hl
    unfold hgemmhh_200_L
    simp only [el3c_1, el3c_2, wp_bind, wp_pure, wp_rdC_lo hB, wp_rdC_hi hB]
    refine wp_passU hd hs hU ?_
    intro i m hi hk hC
    have hA := env.rdA m hk i l hi hl
    have hA' := matAt_write env.rdA (fun q => hs m i q hi hk) hi hl
    unfold hgemmhh_210_I
    simp only [el3c_1, el3c_2, wp_bind, wp_pure, wp_rdC_lo hA, wp_rdC_hi hA, wp_rdC_lo (hA' _), wp_rdC_hi (hA' _), wp_rdC_lo hC, wp_rdC_hi hC, wp_wrC_lo hC, wp_wrC_hi hC, wp_wrC_lo (readQ_writeQ_same _ _ _), wp_wrC_hi (readQ_writeQ_same _ _ _), wp_rdC_lo (readQ_writeQ_same _ _ _), wp_rdC_hi (readQ_writeQ_same _ _ _), writeQ_writeQ]
    rfl
  · intro m' h
    rw [wp_pure]
    exact h

theorem hgemmhh_80_I_bits {Kp : Mem F → Prop} {m : Mem F} {M N K : Int} {A LDA B LDB C LDC : Int}
    {X Y : Nat → Nat → Quat F} {c : Quat F} {ALPHA : Quat F} {BETA : Quat F} {BONE BZERO : Bool} {i j : Nat}
    (env : GEnv Kp A LDA K.toNat M.toNat X B LDB K.toNat N.toNat Y C LDC M.toNat N.toNat)
    (hi : i < M.toNat) (hj : j < N.toNat) (hk : Kp m)
    (hC : readQ m (C + 4 * ((i:Int) + j * LDC)) = some c) :
    wp (hgemmhh_80_I A ALPHA B BETA BZERO C (j+1) K LDA LDB LDC (i+1)) m (fun _ m' =>
      m' = writeQ m (C + 4 * (i + j * LDC))
        (fMain .C .N (.h ALPHA) BZERO BONE (.h BETA) K.toNat (fun k => FTrans.pick .C X i k) (fun k => FTrans.pick .N Y k j) c)) := by
  unfold hgemmhh_80_I
  simp only [wp_bind]
  refine wp_acc (fun l s => s = ((fAccs .C .N (fun k => FTrans.pick .C X i k) (fun k => FTrans.pick .N Y k j) l).hi, (fAccs .C .N (fun k => FTrans.pick .C X i k) (fun k => FTrans.pick .N Y k j) l).lo)) rfl ?_ ?_
  · rintro l s hl rfl
    have hA := env.rdA m hk l i hl hi
    have hB := env.rdB m hk l j hl hj
    unfold hgemmhh_90_L
    simp only [el3c_1, el3c_2, wp_bind, wp_pure, wp_rdC_lo hA, wp_rdC_hi hA, wp_rdC_lo hB, wp_rdC_hi hB]
    exact ⟨trivial, rfl⟩
  · rintro s rfl
    cases BZERO
    · simp only [Bool.false_eq_true, if_false, el3c_1, el3c_2, wp_bind, wp_pure, wp_rdC_lo hC, wp_rdC_hi hC, wp_wrC_lo hC, wp_wrC_hi hC, wp_wrC_lo (readQ_writeQ_same _ _ _), wp_wrC_hi (readQ_writeQ_same _ _ _), wp_rdC_lo (readQ_writeQ_same _ _ _), wp_rdC_hi (readQ_writeQ_same _ _ _), writeQ_writeQ]
      rfl
    · simp only [if_true, el3c_1, el3c_2, wp_bind, wp_pure, wp_rdC_lo hC, wp_rdC_hi hC, wp_wrC_lo hC, wp_wrC_hi hC, wp_wrC_lo (readQ_writeQ_same _ _ _), wp_wrC_hi (readQ_writeQ_same _ _ _), wp_rdC_lo (readQ_writeQ_same _ _ _), wp_rdC_hi (readQ_writeQ_same _ _ _), writeQ_writeQ]
      rfl

theorem hgemmhh_100_I_bits {Kp : Mem F → Prop} {m : Mem F} {M N K : Int} {A LDA B LDB C LDC : Int}
    {X Y : Nat → Nat → Quat F} {c : Quat F} {ALPHA : Quat F} {BETA : Quat F} {BONE BZERO : Bool} {i j : Nat}
    (env : GEnv Kp A LDA K.toNat M.toNat X B LDB K.toNat N.toNat Y C LDC M.toNat N.toNat)
    (hi : i < M.toNat) (hj : j < N.toNat) (hk : Kp m)
    (hC : readQ m (C + 4 * ((i:Int) + j * LDC)) = some c) :
    wp (hgemmhh_100_I A ALPHA B BETA BZERO C (j+1) K LDA LDB LDC (i+1)) m (fun _ m' =>
      m' = writeQ m (C + 4 * (i + j * LDC))
        (fMain .T .N (.h ALPHA) BZERO BONE (.h BETA) K.toNat (fun k => FTrans.pick .T X i k) (fun k => FTrans.pick .N Y k j) c)) := by
  unfold hgemmhh_100_I
  simp only [wp_bind]
  refine wp_acc (fun l s => s = ((fAccs .T .N (fun k => FTrans.pick .T X i k) (fun k => FTrans.pick .N Y k j) l).hi, (fAccs .T .N (fun k => FTrans.pick .T X i k) (fun k => FTrans.pick .N Y k j) l).lo)) rfl ?_ ?_
  · rintro l s hl rfl
    have hA := env.rdA m hk l i hl hi
    have hB := env.rdB m hk l j hl hj
    unfold hgemmhh_110_L
    simp only [el3c_1, el3c_2, wp_bind, wp_pure, wp_rdC_lo hA, wp_rdC_hi hA, wp_rdC_lo hB, wp_rdC_hi hB]
    exact ⟨trivial, rfl⟩
  · rintro s rfl
    cases BZERO
    · simp only [Bool.false_eq_true, if_false, el3c_1, el3c_2, wp_bind, wp_pure, wp_rdC_lo hC, wp_rdC_hi hC, wp_wrC_lo hC, wp_wrC_hi hC, wp_wrC_lo (readQ_writeQ_same _ _ _), wp_wrC_hi (readQ_writeQ_same _ _ _), wp_rdC_lo (readQ_writeQ_same _ _ _), wp_rdC_hi (readQ_writeQ_same _ _ _), writeQ_writeQ]
      rfl
    · simp only [if_true, el3c_1, el3c_2, wp_bind, wp_pure, wp_rdC_lo hC, wp_rdC_hi hC, wp_wrC_lo hC, wp_wrC_hi hC, wp_wrC_lo (readQ_writeQ_same _ _ _), wp_wrC_hi (readQ_writeQ_same _ _ _), wp_rdC_lo (readQ_writeQ_same _ _ _), wp_rdC_hi (readQ_writeQ_same _ _ _), writeQ_writeQ]
      rfl

theorem hgemmhh_220_I_bits {Kp : Mem F → Prop} {m : Mem F} {M N K : Int} {A LDA B LDB C LDC : Int}
    {X Y : Nat → Nat → Quat F} {c : Quat F} {ALPHA : Quat F} {BETA : Quat F} {BONE BZERO : Bool} {i j : Nat}
    (env : GEnv Kp A LDA K.toNat M.toNat X B LDB N.toNat K.toNat Y C LDC M.toNat N.toNat)
    (hi : i < M.toNat) (hj : j < N.toNat) (hk : Kp m)
    (hC : readQ m (C + 4 * ((i:Int) + j * LDC)) = some c) :
    wp (hgemmhh_220_I A ALPHA B BETA BZERO C (j+1) K LDA LDB LDC (i+1)) m (fun _ m' =>
      m' = writeQ m (C + 4 * (i + j * LDC))
        (fMain .C .C (.h ALPHA) BZERO BONE (.h BETA) K.toNat (fun k => FTrans.pick .C X i k) (fun k => FTrans.pick .C Y k j) c)) := by
  unfold hgemmhh_220_I
  simp only [wp_bind]
  refine wp_acc (fun l s => s = ((fAccs .C .C (fun k => FTrans.pick .C X i k) (fun k => FTrans.pick .C Y k j) l).hi, (fAccs .C .C (fun k => FTrans.pick .C X i k) (fun k => FTrans.pick .C Y k j) l).lo)) rfl ?_ ?_
  · rintro l s hl rfl
    have hA := env.rdA m hk l i hl hi
    have hB := env.rdB m hk j l hj hl
    unfold hgemmhh_230_L
    simp only [el3c_1, el3c_2, wp_bind, wp_pure, wp_rdC_lo hA, wp_rdC_hi hA, wp_rdC_lo hB, wp_rdC_hi hB]
    exact ⟨trivial, rfl⟩
  · rintro s rfl
    cases BZERO
    · simp only [Bool.false_eq_true, if_false, el3c_1, el3c_2, wp_bind, wp_pure, wp_rdC_lo hC, wp_rdC_hi hC, wp_wrC_lo hC, wp_wrC_hi hC, wp_wrC_lo (readQ_writeQ_same _ _ _), wp_wrC_hi (readQ_writeQ_same _ _ _), wp_rdC_lo (readQ_writeQ_same _ _ _), wp_rdC_hi (readQ_writeQ_same _ _ _), writeQ_writeQ]
      rfl
    · simp only [if_true, el3c_1, el3c_2, wp_bind, wp_pure, wp_rdC_lo hC, wp_rdC_hi hC, wp_wrC_lo hC, wp_wrC_hi hC, wp_wrC_lo (readQ_writeQ_same _ _ _), wp_wrC_hi (readQ_writeQ_same _ _ _), wp_rdC_lo (readQ_writeQ_same _ _ _), wp_rdC_hi (readQ_writeQ_same _ _ _), writeQ_writeQ]
      rfl

theorem hgemmhh_240_I_bits {Kp : Mem F → Prop} {m : Mem F} {M N K : Int} {A LDA B LDB C LDC : Int}
    {X Y : Nat → Nat → Quat F} {c : Quat F} {ALPHA : Quat F} {BETA : Quat F} {BONE BZERO : Bool} {i j : Nat}
    (env : GEnv Kp A LDA K.toNat M.toNat X B LDB N.toNat K.toNat Y C LDC M.toNat N.toNat)
    (hi : i < M.toNat) (hj : j < N.toNat) (hk : Kp m)
    (hC : readQ m (C + 4 * ((i:Int) + j * LDC)) = some c) :
    wp (hgemmhh_240_I A ALPHA B BETA BZERO C (j+1) K LDA LDB LDC (i+1)) m (fun _ m' =>
      m' = writeQ m (C + 4 * (i + j * LDC))
        (fMain .C .T (.h ALPHA) BZERO BONE (.h BETA) K.toNat (fun k => FTrans.pick .C X i k) (fun k => FTrans.pick .T Y k j) c)) := by
  unfold hgemmhh_240_I
  simp only [wp_bind]
  refine wp_acc (fun l s => s = ((fAccs .C .T (fun k => FTrans.pick .C X i k) (fun k => FTrans.pick .T Y k j) l).hi, (fAccs .C .T (fun k => FTrans.pick .C X i k) (fun k => FTrans.pick .T Y k j) l).lo)) rfl ?_ ?_
  · rintro l s hl rfl
    have hA := env.rdA m hk l i hl hi
    have hB := env.rdB m hk j l hj hl
    unfold hgemmhh_250_L
    simp only [el3c_1, el3c_2, wp_bind, wp_pure, wp_rdC_lo hA, wp_rdC_hi hA, wp_rdC_lo hB, wp_rdC_hi hB]
    exact ⟨trivial, rfl⟩
  · rintro s rfl
    cases BZERO
    · simp only [Bool.false_eq_true, if_false, el3c_1, el3c_2, wp_bind, wp_pure, wp_rdC_lo hC, wp_rdC_hi hC, wp_wrC_lo hC, wp_wrC_hi hC, wp_wrC_lo (readQ_writeQ_same _ _ _), wp_wrC_hi (readQ_writeQ_same _ _ _), wp_rdC_lo (readQ_writeQ_same _ _ _), wp_rdC_hi (readQ_writeQ_same _ _ _), writeQ_writeQ]
      rfl
    · simp only [if_true, el3c_1, el3c_2, wp_bind, wp_pure, wp_rdC_lo hC, wp_rdC_hi hC, wp_wrC_lo hC, wp_wrC_hi hC, wp_wrC_lo (readQ_writeQ_same _ _ _), wp_wrC_hi (readQ_writeQ_same _ _ _), wp_rdC_lo (readQ_writeQ_same _ _ _), wp_rdC_hi (readQ_writeQ_same _ _ _), writeQ_writeQ]
      rfl

theorem hgemmhh_260_I_bits {Kp : Mem F → Prop} {m : Mem F} {M N K : Int} {A LDA B LDB C LDC : Int}
    {X Y : Nat → Nat → Quat F} {c : Quat F} {ALPHA : Quat F} {BETA : Quat F} {BONE BZERO : Bool} {i j : Nat}
    (env : GEnv Kp A LDA K.toNat M.toNat X B LDB N.toNat K.toNat Y C LDC M.toNat N.toNat)
    (hi : i < M.toNat) (hj : j < N.toNat) (hk : Kp m)
    (hC : readQ m (C + 4 * ((i:Int) + j * LDC)) = some c) :
    wp (hgemmhh_260_I A ALPHA B BETA BZERO C (j+1) K LDA LDB LDC (i+1)) m (fun _ m' =>
      m' = writeQ m (C + 4 * (i + j * LDC))
        (fMain .T .C (.h ALPHA) BZERO BONE (.h BETA) K.toNat (fun k => FTrans.pick .T X i k) (fun k => FTrans.pick .C Y k j) c)) := by
  unfold hgemmhh_260_I
  simp only [wp_bind]
  refine wp_acc (fun l s => s = ((fAccs .T .C (fun k => FTrans.pick .T X i k) (fun k => FTrans.pick .C Y k j) l).hi, (fAccs .T .C (fun k => FTrans.pick .T X i k) (fun k => FTrans.pick .C Y k j) l).lo)) rfl ?_ ?_
  · rintro l s hl rfl
    have hA := env.rdA m hk l i hl hi
    have hB := env.rdB m hk j l hj hl
    unfold hgemmhh_270_L
    simp only [el3c_1, el3c_2, wp_bind, wp_pure, wp_rdC_lo hA, wp_rdC_hi hA, wp_rdC_lo hB, wp_rdC_hi hB]
    exact ⟨trivial, rfl⟩
  · rintro s rfl
    cases BZERO
    · simp only [Bool.false_eq_true, if_false, el3c_1, el3c_2, wp_bind, wp_pure, wp_rdC_lo hC, wp_rdC_hi hC, wp_wrC_lo hC, wp_wrC_hi hC, wp_wrC_lo (readQ_writeQ_same _ _ _), wp_wrC_hi (readQ_writeQ_same _ _ _), wp_rdC_lo (readQ_writeQ_same _ _ _), wp_rdC_hi (readQ_writeQ_same _ _ _), writeQ_writeQ]
      rfl
    · simp only [if_true, el3c_1, el3c_2, wp_bind, wp_pure, wp_rdC_lo hC, wp_rdC_hi hC, wp_wrC_lo hC, wp_wrC_hi hC, wp_wrC_lo (readQ_writeQ_same _ _ _), wp_wrC_hi (readQ_writeQ_same _ _ _), wp_rdC_lo (readQ_writeQ_same _ _ _), wp_rdC_hi (readQ_writeQ_same _ _ _), writeQ_writeQ]
      rfl

theorem hgemmhh_280_I_bits {Kp : Mem F → Prop} {m : Mem F} {M N K : Int} {A LDA B LDB C LDC : Int}
    {X Y : Nat → Nat → Quat F} {c : Quat F} {ALPHA : Quat F} {BETA : Quat F} {BONE BZERO : Bool} {i j : Nat}
    (env : GEnv Kp A LDA K.toNat M.toNat X B LDB N.toNat K.toNat Y C LDC M.toNat N.toNat)
    (hi : i < M.toNat) (hj : j < N.toNat) (hk : Kp m)
    (hC : readQ m (C + 4 * ((i:Int) + j * LDC)) = some c) :
    wp (hgemmhh_280_I A ALPHA B BETA BZERO C (j+1) K LDA LDB LDC (i+1)) m (fun _ m' =>
      m' = writeQ m (C + 4 * (i + j * LDC))
        (fMain .T .T (.h ALPHA) BZERO BONE (.h BETA) K.toNat (fun k => FTrans.pick .T X i k) (fun k => FTrans.pick .T Y k j) c)) := by
  unfold hgemmhh_280_I
  simp only [wp_bind]
  refine wp_acc (fun l s => s = ((fAccs .T .T (fun k => FTrans.pick .T X i k) (fun k => FTrans.pick .T Y k j) l).hi, (fAccs .T .T (fun k => FTrans.pick .T X i k) (fun k => FTrans.pick .T Y k j) l).lo)) rfl ?_ ?_
  · rintro l s hl rfl
    have hA := env.rdA m hk l i hl hi
    have hB := env.rdB m hk j l hj hl
    unfold hgemmhh_290_L
    simp only [el3c_1, el3c_2, wp_bind, wp_pure, wp_rdC_lo hA, wp_rdC_hi hA, wp_rdC_lo hB, wp_rdC_hi hB]
    exact ⟨trivial, rfl⟩
  · rintro s rfl
    cases BZERO
    · simp only [Bool.false_eq_true, if_false, el3c_1, el3c_2, wp_bind, wp_pure, wp_rdC_lo hC, wp_rdC_hi hC, wp_wrC_lo hC, wp_wrC_hi hC, wp_wrC_lo (readQ_writeQ_same _ _ _), wp_wrC_hi (readQ_writeQ_same _ _ _), wp_rdC_lo (readQ_writeQ_same _ _ _), wp_rdC_hi (readQ_writeQ_same _ _ _), writeQ_writeQ]
      rfl
    · simp only [if_true, el3c_1, el3c_2, wp_bind, wp_pure, wp_rdC_lo hC, wp_rdC_hi hC, wp_wrC_lo hC, wp_wrC_hi hC, wp_wrC_lo (readQ_writeQ_same _ _ _), wp_wrC_hi (readQ_writeQ_same _ _ _), wp_rdC_lo (readQ_writeQ_same _ _ _), wp_rdC_hi (readQ_writeQ_same _ _ _), writeQ_writeQ]
      rfl

theorem hgemmhh_30_bits {Kp : Mem F → Prop} {m : Mem F} {M N K : Int} {A LDA B LDB C LDC : Int}
    {X Y c : Nat → Nat → Quat F} {ALPHA : Quat F} {BETA : Quat F} {BONE BZERO : Bool}
    (env : GEnv Kp A LDA M.toNat K.toNat X B LDB K.toNat N.toNat Y C LDC M.toNat N.toNat) (hk : Kp m)
    (hc : MatAt m C LDC M.toNat N.toNat c) :
    wp (forN N.toNat (fun i => hgemmhh_30_J A ALPHA B BETA BONE BZERO C K LDA LDB LDC M ((i : Int) + 1))) m
      (fun _ m' => GPost Kp m C LDC M.toNat N.toNat
        (fun i j => fMain .N .N (.h ALPHA) BZERO BONE (.h BETA) K.toNat (fun k => FTrans.pick .N X i k) (fun k => FTrans.pick .N Y k j) (c i j)) m') := by
  refine wp_colsU env.disj hk hc ?_
  intro j m hj hU
  exact hgemmhh_30_J_bits env hj hU

theorem hgemmhh_120_bits {Kp : Mem F → Prop} {m : Mem F} {M N K : Int} {A LDA B LDB C LDC : Int}
    {X Y c : Nat → Nat → Quat F} {ALPHA : Quat F} {BETA : Quat F} {BONE BZERO : Bool}
    (env : GEnv Kp A LDA M.toNat K.toNat X B LDB N.toNat K.toNat Y C LDC M.toNat N.toNat) (hk : Kp m)
    (hc : MatAt m C LDC M.toNat N.toNat c) :
    wp (forN N.toNat (fun i => hgemmhh_120_J A ALPHA B BETA BONE BZERO C K LDA LDB LDC M ((i : Int) + 1))) m
      (fun _ m' => GPost Kp m C LDC M.toNat N.toNat
        (fun i j => fMain .N .C (.h ALPHA) BZERO BONE (.h BETA) K.toNat (fun k => FTrans.pick .N X i k) (fun k => FTrans.pick .C Y k j) (c i j)) m') := by
  refine wp_colsU env.disj hk hc ?_
  intro j m hj hU
  exact hgemmhh_120_J_bits env hj hU

theorem hgemmhh_170_bits {Kp : Mem F → Prop} {m : Mem F} {M N K : Int} {A LDA B LDB C LDC : Int}
    {X Y c : Nat → Nat → Quat F} {ALPHA : Quat F} {BETA : Quat F} {BONE BZERO : Bool}
    (env : GEnv Kp A LDA M.toNat K.toNat X B LDB N.toNat K.toNat Y C LDC M.toNat N.toNat) (hk : Kp m)
    (hc : MatAt m C LDC M.toNat N.toNat c) :
    wp (forN N.toNat (fun i => hgemmhh_170_J A ALPHA B BETA BONE BZERO C K LDA LDB LDC M ((i : Int) + 1))) m
      (fun _ m' => GPost Kp m C LDC M.toNat N.toNat
        (fun i j => fMain .N .T (.h ALPHA) BZERO BONE (.h BETA) K.toNat (fun k => FTrans.pick .N X i k) (fun k => FTrans.pick .T Y k j) (c i j)) m') := by
  refine wp_colsU env.disj hk hc ?_
  intro j m hj hU
  exact hgemmhh_170_J_bits env hj hU

theorem hgemmhh_80_bits {Kp : Mem F → Prop} {m : Mem F} {M N K : Int} {A LDA B LDB C LDC : Int}
    {X Y c : Nat → Nat → Quat F} {ALPHA : Quat F} {BETA : Quat F} {BONE BZERO : Bool}
    (env : GEnv Kp A LDA K.toNat M.toNat X B LDB K.toNat N.toNat Y C LDC M.toNat N.toNat) (hk : Kp m)
    (hc : MatAt m C LDC M.toNat N.toNat c) :
    wp (forN N.toNat (fun i => hgemmhh_80_J A ALPHA B BETA BZERO C K LDA LDB LDC M ((i : Int) + 1))) m
      (fun _ m' => GPost Kp m C LDC M.toNat N.toNat
        (fun i j => fMain .C .N (.h ALPHA) BZERO BONE (.h BETA) K.toNat (fun k => FTrans.pick .C X i k) (fun k => FTrans.pick .N Y k j) (c i j)) m') := by
  refine wp_nestU (f := fun j i => hgemmhh_80_I A ALPHA B BETA BZERO C ((j:Int)+1) K LDA LDB LDC ((i:Int)+1))
    (fun j => rfl) env.disj env.stable hk hc ?_
  intro i j m hi hj hk hC
  exact hgemmhh_80_I_bits env hi hj hk hC

theorem hgemmhh_100_bits {Kp : Mem F → Prop} {m : Mem F} {M N K : Int} {A LDA B LDB C LDC : Int}
    {X Y c : Nat → Nat → Quat F} {ALPHA : Quat F} {BETA : Quat F} {BONE BZERO : Bool}
    (env : GEnv Kp A LDA K.toNat M.toNat X B LDB K.toNat N.toNat Y C LDC M.toNat N.toNat) (hk : Kp m)
    (hc : MatAt m C LDC M.toNat N.toNat c) :
    wp (forN N.toNat (fun i => hgemmhh_100_J A ALPHA B BETA BZERO C K LDA LDB LDC M ((i : Int) + 1))) m
      (fun _ m' => GPost Kp m C LDC M.toNat N.toNat
        (fun i j => fMain .T .N (.h ALPHA) BZERO BONE (.h BETA) K.toNat (fun k => FTrans.pick .T X i k) (fun k => FTrans.pick .N Y k j) (c i j)) m') := by
  refine wp_nestU (f := fun j i => hgemmhh_100_I A ALPHA B BETA BZERO C ((j:Int)+1) K LDA LDB LDC ((i:Int)+1))
    (fun j => rfl) env.disj env.stable hk hc ?_
  intro i j m hi hj hk hC
  exact hgemmhh_100_I_bits env hi hj hk hC

theorem hgemmhh_220_bits {Kp : Mem F → Prop} {m : Mem F} {M N K : Int} {A LDA B LDB C LDC : Int}
    {X Y c : Nat → Nat → Quat F} {ALPHA : Quat F} {BETA : Quat F} {BONE BZERO : Bool}
    (env : GEnv Kp A LDA K.toNat M.toNat X B LDB N.toNat K.toNat Y C LDC M.toNat N.toNat) (hk : Kp m)
    (hc : MatAt m C LDC M.toNat N.toNat c) :
    wp (forN N.toNat (fun i => hgemmhh_220_J A ALPHA B BETA BZERO C K LDA LDB LDC M ((i : Int) + 1))) m
      (fun _ m' => GPost Kp m C LDC M.toNat N.toNat
        (fun i j => fMain .C .C (.h ALPHA) BZERO BONE (.h BETA) K.toNat (fun k => FTrans.pick .C X i k) (fun k => FTrans.pick .C Y k j) (c i j)) m') := by
  refine wp_nestU (f := fun j i => hgemmhh_220_I A ALPHA B BETA BZERO C ((j:Int)+1) K LDA LDB LDC ((i:Int)+1))
    (fun j => rfl) env.disj env.stable hk hc ?_
  intro i j m hi hj hk hC
  exact hgemmhh_220_I_bits env hi hj hk hC

theorem hgemmhh_240_bits {Kp : Mem F → Prop} {m : Mem F} {M N K : Int} {A LDA B LDB C LDC : Int}
    {X Y c : Nat → Nat → Quat F} {ALPHA : Quat F} {BETA : Quat F} {BONE BZERO : Bool}
    (env : GEnv Kp A LDA K.toNat M.toNat X B LDB N.toNat K.toNat Y C LDC M.toNat N.toNat) (hk : Kp m)
    (hc : MatAt m C LDC M.toNat N.toNat c) :
    wp (forN N.toNat (fun i => hgemmhh_240_J A ALPHA B BETA BZERO C K LDA LDB LDC M ((i : Int) + 1))) m
      (fun _ m' => GPost Kp m C LDC M.toNat N.toNat
        (fun i j => fMain .C .T (.h ALPHA) BZERO BONE (.h BETA) K.toNat (fun k => FTrans.pick .C X i k) (fun k => FTrans.pick .T Y k j) (c i j)) m') := by
  refine wp_nestU (f := fun j i => hgemmhh_240_I A ALPHA B BETA BZERO C ((j:Int)+1) K LDA LDB LDC ((i:Int)+1))
    (fun j => rfl) env.disj env.stable hk hc ?_
  intro i j m hi hj hk hC
  exact hgemmhh_240_I_bits env hi hj hk hC

theorem hgemmhh_260_bits {Kp : Mem F → Prop} {m : Mem F} {M N K : Int} {A LDA B LDB C LDC : Int}
    {X Y c : Nat → Nat → Quat F} {ALPHA : Quat F} {BETA : Quat F} {BONE BZERO : Bool}
    (env : GEnv Kp A LDA K.toNat M.toNat X B LDB N.toNat K.toNat Y C LDC M.toNat N.toNat) (hk : Kp m)
    (hc : MatAt m C LDC M.toNat N.toNat c) :
    wp (forN N.toNat (fun i => hgemmhh_260_J A ALPHA B BETA BZERO C K LDA LDB LDC M ((i : Int) + 1))) m
      (fun _ m' => GPost Kp m C LDC M.toNat N.toNat
        (fun i j => fMain .T .C (.h ALPHA) BZERO BONE (.h BETA) K.toNat (fun k => FTrans.pick .T X i k) (fun k => FTrans.pick .C Y k j) (c i j)) m') := by
  refine wp_nestU (f := fun j i => hgemmhh_260_I A ALPHA B BETA BZERO C ((j:Int)+1) K LDA LDB LDC ((i:Int)+1))
    (fun j => rfl) env.disj env.stable hk hc ?_
  intro i j m hi hj hk hC
  exact hgemmhh_260_I_bits env hi hj hk hC

theorem hgemmhh_280_bits {Kp : Mem F → Prop} {m : Mem F} {M N K : Int} {A LDA B LDB C LDC : Int}
    {X Y c : Nat → Nat → Quat F} {ALPHA : Quat F} {BETA : Quat F} {BONE BZERO : Bool}
    (env : GEnv Kp A LDA K.toNat M.toNat X B LDB N.toNat K.toNat Y C LDC M.toNat N.toNat) (hk : Kp m)
    (hc : MatAt m C LDC M.toNat N.toNat c) :
    wp (forN N.toNat (fun i => hgemmhh_280_J A ALPHA B BETA BZERO C K LDA LDB LDC M ((i : Int) + 1))) m
      (fun _ m' => GPost Kp m C LDC M.toNat N.toNat
        (fun i j => fMain .T .T (.h ALPHA) BZERO BONE (.h BETA) K.toNat (fun k => FTrans.pick .T X i k) (fun k => FTrans.pick .T Y k j) (c i j)) m') := by
  refine wp_nestU (f := fun j i => hgemmhh_280_I A ALPHA B BETA BZERO C ((j:Int)+1) K LDA LDB LDC ((i:Int)+1))
    (fun j => rfl) env.disj env.stable hk hc ?_
  intro i j m hi hj hk hC
  exact hgemmhh_280_I_bits env hi hj hk hC

theorem hgemmhh_if49_bits {Kp : Mem F → Prop} {m : Mem F} {M N : Int} {C LDC : Int}
    {c : Nat → Nat → Quat F} {BETA : Quat F} {BZERO : Bool}
    (hdisj : ∀ i j i' j' : Nat, i < M.toNat → i' < M.toNat → ¬ (i = i' ∧ j = j') →
      QDisj (C + 4 * (i + j * LDC)) (C + 4 * (i' + j' * LDC)))
    (hst : ∀ m (i j : Nat) q, i < M.toNat → j < N.toNat → Kp m → Kp (writeQ m (C + 4 * (i + j * LDC)) q))
    (hk : Kp m) (hc : MatAt m C LDC M.toNat N.toNat c) :
    wp (hgemmhh_if49 BETA BZERO C LDC M N) m
      (fun _ m' => GPost Kp m C LDC M.toNat N.toNat (fun i j => if BZERO then fZero else fScal (.h BETA) (c i j)) m') := by
  unfold hgemmhh_if49
  cases BZERO
  · simp only [Bool.false_eq_true, if_false, wp_bind, wp_pure]
    refine wp_nestU (f := fun j i => hgemmhh_20_I BETA C ((j:Int)+1) LDC ((i:Int)+1)) (fun j => rfl) hdisj hst hk hc ?_
    intro i j m _ _ _ hC
    exact hgemmhh_20_I_bits hC
  · simp only [if_true, wp_bind, wp_pure]
    refine wp_nestU (f := fun j i => hgemmhh_10_I C ((j:Int)+1) LDC ((i:Int)+1)) (fun j => rfl) hdisj hst hk hc ?_
    intro i j m _ _ _ hC
    exact hgemmhh_10_I_bits hC


theorem hgemmhh_if66_bits {Kp : Mem F → Prop} {m : Mem F} {M N K : Int} {A LDA B LDB C LDC : Int}
    {X Y c : Nat → Nat → Quat F} {ALPHA : Quat F} {BETA : Quat F} {BONE BZERO : Bool} {tA tB : FTrans}
    (env : GEnv Kp A LDA (tA.rows M.toNat K.toNat) (tA.rows K.toNat M.toNat) X
      B LDB (tB.rows K.toNat N.toNat) (tB.rows N.toNat K.toNat) Y C LDC M.toNat N.toNat)
    (hk : Kp m) (hc : MatAt m C LDC M.toNat N.toNat c) :
    wp (hgemmhh_if66 A ALPHA B BETA BONE BZERO C (tA == .C) (tB == .C) K LDA LDB LDC M N (tA == .N) (tB == .N)) m
      (fun _ m' => GPost Kp m C LDC M.toNat N.toNat (fun i j => fMain tA tB (.h ALPHA) BZERO BONE (.h BETA) K.toNat
        (fun k => tA.pick X i k) (fun k => tB.pick Y k j) (c i j)) m') := by
  cases tA <;> cases tB
  · unfold hgemmhh_if66 hgemmhh_if67
    simp only [ft_NN, ft_TN, ft_CN, ft_NC, ft_TC, ft_CC, if_true, if_false, Bool.false_eq_true, wp_bind, wp_pure]
    exact hgemmhh_30_bits env hk hc
  · unfold hgemmhh_if66 hgemmhh_if166
    simp only [ft_NN, ft_TN, ft_CN, ft_NC, ft_TC, ft_CC, if_true, if_false, Bool.false_eq_true, wp_bind, wp_pure]
    exact hgemmhh_170_bits env hk hc
  · unfold hgemmhh_if66 hgemmhh_if166
    simp only [ft_NN, ft_TN, ft_CN, ft_NC, ft_TC, ft_CC, if_true, if_false, Bool.false_eq_true, wp_bind, wp_pure]
    exact hgemmhh_120_bits env hk hc
  · unfold hgemmhh_if66 hgemmhh_if67
    simp only [ft_NN, ft_TN, ft_CN, ft_NC, ft_TC, ft_CC, if_true, if_false, Bool.false_eq_true, wp_bind, wp_pure]
    exact hgemmhh_100_bits env hk hc
  · unfold hgemmhh_if66 hgemmhh_if308
    simp only [ft_NN, ft_TN, ft_CN, ft_NC, ft_TC, ft_CC, if_true, if_false, Bool.false_eq_true, wp_bind, wp_pure]
    exact hgemmhh_280_bits env hk hc
  · unfold hgemmhh_if66 hgemmhh_if308
    simp only [ft_NN, ft_TN, ft_CN, ft_NC, ft_TC, ft_CC, if_true, if_false, Bool.false_eq_true, wp_bind, wp_pure]
    exact hgemmhh_260_bits env hk hc
  · unfold hgemmhh_if66 hgemmhh_if67
    simp only [ft_NN, ft_TN, ft_CN, ft_NC, ft_TC, ft_CC, if_true, if_false, Bool.false_eq_true, wp_bind, wp_pure]
    exact hgemmhh_80_bits env hk hc
  · unfold hgemmhh_if66 hgemmhh_if245
    simp only [ft_NN, ft_TN, ft_CN, ft_NC, ft_TC, ft_CC, if_true, if_false, Bool.false_eq_true, wp_bind, wp_pure]
    exact hgemmhh_240_bits env hk hc
  · unfold hgemmhh_if66 hgemmhh_if245
    simp only [ft_NN, ft_TN, ft_CN, ft_NC, ft_TC, ft_CC, if_true, if_false, Bool.false_eq_true, wp_bind, wp_pure]
    exact hgemmhh_220_bits env hk hc

/-- Every entry of C after `hgemmhh` is `fGemm` of the elements it depends on. -/
theorem hgemmhh_bits {Kp : Mem F → Prop} {m : Mem F} {TRANSA TRANSB : Char} {M N K : Int} {A LDA B LDB C LDC : Int}
    {X Y c : Nat → Nat → Quat F} {ALPHA : Quat F} {BETA : Quat F}
    (hdisj : ∀ i j i' j' : Nat, i < M.toNat → i' < M.toNat → ¬ (i = i' ∧ j = j') →
      QDisj (C + 4 * (i + j * LDC)) (C + 4 * (i' + j' * LDC)))
    (hst : ∀ m (i j : Nat) q, i < M.toNat → j < N.toNat → Kp m → Kp (writeQ m (C + 4 * (i + j * LDC)) q))
    (env : Scal.fIsZero (F := F) (.h ALPHA) = false → GEnv Kp A LDA ((FTrans.ofChar TRANSA).rows M.toNat K.toNat)
      ((FTrans.ofChar TRANSA).rows K.toNat M.toNat) X
      B LDB ((FTrans.ofChar TRANSB).rows K.toNat N.toNat) ((FTrans.ofChar TRANSB).rows N.toNat K.toNat) Y
      C LDC M.toNat N.toNat)
    (hk : Kp m) (hc : MatAt m C LDC M.toNat N.toNat c) :
    wp (hgemmhh TRANSA TRANSB M N K ALPHA A LDA B LDB BETA C LDC) m
      (fun _ m' => GPost Kp m C LDC M.toNat N.toNat (fun i j => fGemm (FTrans.ofChar TRANSA) (FTrans.ofChar TRANSB)
        (.h ALPHA) (.h BETA) K (fun k => (FTrans.ofChar TRANSA).pick X i k) (fun k => (FTrans.ofChar TRANSB).pick Y k j)
        (c i j)) m') := by
  unfold hgemmhh
  simp only [lsame_N, lsame_C]
  split
  · rename_i h
    rw [wp_pure]
    refine ⟨fun i j hi hj => ?_, hk, fun _ _ => rfl⟩
    simp only [Bool.or_eq_true, decide_eq_true_eq] at h
    omega
  · split
    · rename_i h
      rw [wp_pure]
      refine ⟨fun i j hi hj => ?_, hk, fun _ _ => rfl⟩
      rw [hc i j hi hj]
      exact congrArg some (if_pos h).symm
    · rename_i h0
      split
      · rename_i h
        rw [wp_bind]
        refine wp_mono (hgemmhh_if49_bits hdisj hst hk hc) ?_
        intro _ m' h'
        rw [wp_pure]
        refine h'.congr (fun i j _ _ => ?_)
        exact ((if_neg h0).trans (if_pos h)).symm
      · rename_i h
        simp only [wp_bind, wp_pure]
        refine wp_mono (hgemmhh_if66_bits (env (Bool.eq_false_iff.mpr h)) hk hc) ?_
        intro _ m' h'
        refine h'.congr (fun i j _ _ => ?_)
        exact ((if_neg h0).trans (if_neg h)).symm

end Haxx
