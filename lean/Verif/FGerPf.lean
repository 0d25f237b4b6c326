import Verif.FGerLemmas
import Mathlib.Tactic.Ring

/-!
# Correctness of the Fortran rank-one updates (written by `tools/gen_ger_proofs.py`)
-/

set_option linter.unusedSimpArgs false
set_option linter.unusedSectionVars false
set_option linter.unusedVariables false
set_option linter.unusedTactic false
set_option linter.unreachableTactic false

namespace Haxx
open Arith Quaternion Finset

variable {R : Type} [CommRing R] [DecidableEq R]

theorem hgerud_if36_wp {K : Mem R → Prop} {m : Mem R} {M A LDA X Y JY : Int} {j : Nat} {ALPHA : R}
    {x c : Nat → Quat R} {yq : Quat R} (hy : readQ m (Y + 4 * (JY - 1)) = some yq)
    (hx : ∀ m (i : Nat), K m → i < M.toNat → readQ m (X + 4 * ((i:Int) + 1 - 1)) = some (x i))
    (hdisj : ∀ i i', i < M.toNat → i' < M.toNat → i ≠ i' →
      QDisj (A + 4 * ((i:Int) + j * LDA)) (A + 4 * ((i':Int) + j * LDA)))
    (hst : ∀ m i q, i < M.toNat → K m → K (writeQ m (A + 4 * ((i:Int) + j * LDA)) q))
    (hU : Upd K (fun i => A + 4 * ((i:Int) + j * LDA)) M.toNat m c m) :
    wp (hgerud_if36 A ALPHA (j+1) JY LDA M X Y) m (fun _ m' =>
      Upd K (fun i => A + 4 * ((i:Int) + j * LDA)) M.toNat m
        (fun i => Quat.ofH ((c i).toH + (Scal.d ALPHA).toH * (x i).toH * yq.toH)) m') := by
  unfold hgerud_if36
  simp only [el3c_1, el3c_2, el2c_1, el2c_2, wp_bind, wp_pure, wp_rdC_lo hy, wp_rdC_hi hy, wp_ite]
  split
  · refine wp_passU hdisj hst hU ?_
    intro i m hi hk hC
    have hX := hx m i hk hi
    have hX' : ∀ q, readQ (writeQ m (A + 4 * ((i:Int) + j * LDA)) q) (X + 4 * ((i:Int) + 1 - 1)) = some (x i) :=
      fun q => hx _ i (hst m i q hi hk) hi
    unfold hgerud_10_I
    simp only [el3c_1, el3c_2, el2c_1, el2c_2, wp_bind, wp_pure, wp_rdC_lo hX, wp_rdC_hi hX, wp_rdC_lo (hX' _), wp_rdC_hi (hX' _), wp_rdC_lo hC, wp_rdC_hi hC, wp_wrC_lo hC, wp_wrC_hi hC, wp_wrC_lo (readQ_writeQ_same _ _ _), wp_wrC_hi (readQ_writeQ_same _ _ _), wp_rdC_lo (readQ_writeQ_same _ _ _), wp_rdC_hi (readQ_writeQ_same _ _ _), writeQ_writeQ]
    refine congrArg (writeQ m _) (eq_ofH ?_)
    ext <;> simp [Scal.toH] <;> ring
  · rename_i h
    rw [feq_zero_toH h]
    simpa using hU

theorem hgerud_wp {K : Mem R → Prop} {m : Mem R} {M N A LDA X INCX Y INCY : Int} {ALPHA : R}
    {x y : Nat → Quat R} {c : Nat → Nat → Quat R} (h1 : INCX = 1) 
    (env : GerEnv K (fbase X M INCX) INCX M.toNat x (fbase Y N INCY) INCY N.toNat y A LDA)
    (hk : K m) (hA : MatAt m A LDA M.toNat N.toNat c) :
    wp (hgerud M N ALPHA X INCX Y INCY A LDA) m (fun _ m' => GPost K m A LDA M.toNat N.toNat
      (fun i j => Quat.ofH ((c i j).toH + (Scal.d ALPHA).toH * (x i).toH * (y j).toH)) m') := by
  unfold hgerud
  dsimp only
  rw [wp_ite]
  split
  · rename_i h
    rw [wp_pure]
    simp only [Bool.or_eq_true, decide_eq_true_eq] at h
    refine ⟨?_, hk, fun _ _ => rfl⟩
    intro i j hi hj
    rcases h with (rfl | rfl) | h
    · simp at hi
    · simp at hj
    · have hz : (Scal.d ALPHA).toH = 0 := by
        rw [← allZero_iff]
        simp [Cplx.feq, Quat.lo, Quat.hi] at h
        simp [Scal.allZero, h]
      rw [hA i j hi hj, hz]
      simp
  · rw [wp_bind, wp_fstart, wp_bind]
    unfold hgerud_if34
    rw [wp_ite]
    split
    · rename_i h
      rw [decide_eq_true_eq] at h
      subst h
      rw [wp_bind]
      have key := wp_cols (K := K) (m0 := m) (addr := fun i j => A + 4 * ((i:Int) + j * LDA)) (M := M.toNat)
        (N := N.toNat) (c := c) (c' := fun i j => Quat.ofH ((c i j).toH + (Scal.d ALPHA).toH * (x i).toH * (y j).toH))
        (f := fun i s => hgerud_20_J A ALPHA INCY LDA M X Y ((i : Int) + 1) s)
        (s0 := if INCY > 0 then 1 else 1 - (N - 1) * INCY)
        (fun j => (if INCY > 0 then 1 else 1 - (N - 1) * INCY) + (j:Int) * INCY) (by simp) env.disj hk hA ?_
      · refine wp_mono key ?_
        intro _ m' h
        simp only [wp_pure]
        exact h
      · intro j m hj hU
        unfold hgerud_20_J
        rw [wp_bind]
        refine wp_mono (hgerud_if36_wp (x := x) (yq := y j) ?_ ?_ ?_ ?_ hU) ?_
        · rw [fstart]; exact env.rdY m hU.k j hj
        · intro m i hk hi
          have := env.rdX m hk i hi
          rw [fbase_one] at this
          rw [← this]
          congr 1
          ring
        · exact fun i i' hi hi' hne => env.disj i j i' j hi hi' (fun e => hne e.1)
        · exact fun m i q hi hk => env.stable m i j q hi hj hk
        · intro _ m' h
          simp only [wp_pure]
          exact ⟨by push_cast; ring, h⟩
    · rename_i h
      exact absurd h1 (by simpa using h)

theorem hgeruz_if35_wp {K : Mem R → Prop} {m : Mem R} {M A LDA X Y JY : Int} {j : Nat} {ALPHA : Cplx R}
    {x c : Nat → Quat R} {yq : Quat R} (hy : readQ m (Y + 4 * (JY - 1)) = some yq)
    (hx : ∀ m (i : Nat), K m → i < M.toNat → readQ m (X + 4 * ((i:Int) + 1 - 1)) = some (x i))
    (hdisj : ∀ i i', i < M.toNat → i' < M.toNat → i ≠ i' →
      QDisj (A + 4 * ((i:Int) + j * LDA)) (A + 4 * ((i':Int) + j * LDA)))
    (hst : ∀ m i q, i < M.toNat → K m → K (writeQ m (A + 4 * ((i:Int) + j * LDA)) q))
    (hU : Upd K (fun i => A + 4 * ((i:Int) + j * LDA)) M.toNat m c m) :
    wp (hgeruz_if35 A ALPHA (j+1) JY LDA M X Y) m (fun _ m' =>
      Upd K (fun i => A + 4 * ((i:Int) + j * LDA)) M.toNat m
        (fun i => Quat.ofH ((c i).toH + (Scal.z ALPHA).toH * (x i).toH * yq.toH)) m') := by
  unfold hgeruz_if35
  simp only [el3c_1, el3c_2, el2c_1, el2c_2, wp_bind, wp_pure, wp_rdC_lo hy, wp_rdC_hi hy, wp_ite]
  split
  · refine wp_passU hdisj hst hU ?_
    intro i m hi hk hC
    have hX := hx m i hk hi
    have hX' : ∀ q, readQ (writeQ m (A + 4 * ((i:Int) + j * LDA)) q) (X + 4 * ((i:Int) + 1 - 1)) = some (x i) :=
      fun q => hx _ i (hst m i q hi hk) hi
    unfold hgeruz_10_I
    simp only [el3c_1, el3c_2, el2c_1, el2c_2, wp_bind, wp_pure, wp_rdC_lo hX, wp_rdC_hi hX, wp_rdC_lo (hX' _), wp_rdC_hi (hX' _), wp_rdC_lo hC, wp_rdC_hi hC, wp_wrC_lo hC, wp_wrC_hi hC, wp_wrC_lo (readQ_writeQ_same _ _ _), wp_wrC_hi (readQ_writeQ_same _ _ _), wp_rdC_lo (readQ_writeQ_same _ _ _), wp_rdC_hi (readQ_writeQ_same _ _ _), writeQ_writeQ]
    refine congrArg (writeQ m _) (eq_ofH ?_)
    ext <;> simp [Scal.toH] <;> ring
  · rename_i h
    rw [feq_zero_toH h]
    simpa using hU

theorem hgeruz_if54_wp {K : Mem R → Prop} {m : Mem R} {M A LDA X Y JY INCX KX : Int} {j : Nat} {ALPHA : Cplx R}
    {x c : Nat → Quat R} {yq : Quat R} (hy : readQ m (Y + 4 * (JY - 1)) = some yq)
    (hx : ∀ m (i : Nat), K m → i < M.toNat → readQ m (X + 4 * (KX + (i:Int) * INCX - 1)) = some (x i))
    (hdisj : ∀ i i', i < M.toNat → i' < M.toNat → i ≠ i' →
      QDisj (A + 4 * ((i:Int) + j * LDA)) (A + 4 * ((i':Int) + j * LDA)))
    (hst : ∀ m i q, i < M.toNat → K m → K (writeQ m (A + 4 * ((i:Int) + j * LDA)) q))
    (hU : Upd K (fun i => A + 4 * ((i:Int) + j * LDA)) M.toNat m c m) :
    wp (hgeruz_if54 A ALPHA INCX (j+1) JY KX LDA M X Y) m (fun _ m' =>
      Upd K (fun i => A + 4 * ((i:Int) + j * LDA)) M.toNat m
        (fun i => Quat.ofH ((c i).toH + (Scal.z ALPHA).toH * (x i).toH * yq.toH)) m') := by
  unfold hgeruz_if54
  simp only [el3c_1, el3c_2, el2c_1, el2c_2, wp_bind, wp_pure, wp_rdC_lo hy, wp_rdC_hi hy, wp_ite]
  split
  · refine wp_mono (wp_pass (fun i => KX + (i:Int) * INCX) (by simp) hdisj hst hU
      (c' := fun i => Quat.ofH ((c i).toH + (Scal.z ALPHA).toH * (x i).toH * yq.toH)) ?_) (fun _ _ h => h.2)
    intro i m hi hk hC
    have hX := hx m i hk hi
    have hX' : ∀ q, readQ (writeQ m (A + 4 * ((i:Int) + j * LDA)) q) (X + 4 * (KX + (i:Int) * INCX - 1)) = some (x i) :=
      fun q => hx _ i (hst m i q hi hk) hi
    unfold hgeruz_30_I
    simp only [el3c_1, el3c_2, el2c_1, el2c_2, wp_bind, wp_pure, wp_rdC_lo hX, wp_rdC_hi hX, wp_rdC_lo (hX' _), wp_rdC_hi (hX' _), wp_rdC_lo hC, wp_rdC_hi hC, wp_wrC_lo hC, wp_wrC_hi hC, wp_wrC_lo (readQ_writeQ_same _ _ _), wp_wrC_hi (readQ_writeQ_same _ _ _), wp_rdC_lo (readQ_writeQ_same _ _ _), wp_rdC_hi (readQ_writeQ_same _ _ _), writeQ_writeQ]
    refine ⟨by push_cast; ring, congrArg (writeQ m _) (eq_ofH ?_)⟩
    ext <;> simp [Scal.toH] <;> ring
  · rename_i h
    rw [feq_zero_toH h]
    simpa using hU

theorem hgeruz_wp {K : Mem R → Prop} {m : Mem R} {M N A LDA X INCX Y INCY : Int} {ALPHA : Cplx R}
    {x y : Nat → Quat R} {c : Nat → Nat → Quat R} 
    (env : GerEnv K (fbase X M INCX) INCX M.toNat x (fbase Y N INCY) INCY N.toNat y A LDA)
    (hk : K m) (hA : MatAt m A LDA M.toNat N.toNat c) :
    wp (hgeruz M N ALPHA X INCX Y INCY A LDA) m (fun _ m' => GPost K m A LDA M.toNat N.toNat
      (fun i j => Quat.ofH ((c i j).toH + (Scal.z ALPHA).toH * (x i).toH * (y j).toH)) m') := by
  unfold hgeruz
  dsimp only
  rw [wp_ite]
  split
  · rename_i h
    rw [wp_pure]
    simp only [Bool.or_eq_true, decide_eq_true_eq] at h
    refine ⟨?_, hk, fun _ _ => rfl⟩
    intro i j hi hj
    rcases h with (rfl | rfl) | h
    · simp at hi
    · simp at hj
    · have hz : (Scal.z ALPHA).toH = 0 := by
        rw [← allZero_iff]
        simp [Cplx.feq, Quat.lo, Quat.hi] at h
        simp [Scal.allZero, h]
      rw [hA i j hi hj, hz]
      simp
  · rw [wp_bind, wp_fstart, wp_bind]
    unfold hgeruz_if33
    rw [wp_ite]
    split
    · rename_i h
      rw [decide_eq_true_eq] at h
      subst h
      rw [wp_bind]
      have key := wp_cols (K := K) (m0 := m) (addr := fun i j => A + 4 * ((i:Int) + j * LDA)) (M := M.toNat)
        (N := N.toNat) (c := c) (c' := fun i j => Quat.ofH ((c i j).toH + (Scal.z ALPHA).toH * (x i).toH * (y j).toH))
        (f := fun i s => hgeruz_20_J A ALPHA INCY LDA M X Y ((i : Int) + 1) s)
        (s0 := if INCY > 0 then 1 else 1 - (N - 1) * INCY)
        (fun j => (if INCY > 0 then 1 else 1 - (N - 1) * INCY) + (j:Int) * INCY) (by simp) env.disj hk hA ?_
      · refine wp_mono key ?_
        intro _ m' h
        simp only [wp_pure]
        exact h
      · intro j m hj hU
        unfold hgeruz_20_J
        rw [wp_bind]
        refine wp_mono (hgeruz_if35_wp (x := x) (yq := y j) ?_ ?_ ?_ ?_ hU) ?_
        · rw [fstart]; exact env.rdY m hU.k j hj
        · intro m i hk hi
          have := env.rdX m hk i hi
          rw [fbase_one] at this
          rw [← this]
          congr 1
          ring
        · exact fun i i' hi hi' hne => env.disj i j i' j hi hi' (fun e => hne e.1)
        · exact fun m i q hi hk => env.stable m i j q hi hj hk
        · intro _ m' h
          simp only [wp_pure]
          exact ⟨by push_cast; ring, h⟩
    · rw [wp_bind, wp_fstart, wp_bind]
      have key := wp_cols (K := K) (m0 := m) (addr := fun i j => A + 4 * ((i:Int) + j * LDA)) (M := M.toNat)
        (N := N.toNat) (c := c) (c' := fun i j => Quat.ofH ((c i j).toH + (Scal.z ALPHA).toH * (x i).toH * (y j).toH))
        (f := fun i s => hgeruz_40_J A ALPHA INCX INCY (if INCX > 0 then 1 else 1 - (M - 1) * INCX) LDA M X Y ((i : Int) + 1) s)
        (s0 := if INCY > 0 then 1 else 1 - (N - 1) * INCY)
        (fun j => (if INCY > 0 then 1 else 1 - (N - 1) * INCY) + (j:Int) * INCY) (by simp) env.disj hk hA ?_
      · refine wp_mono key ?_
        intro _ m' h
        simp only [wp_pure]
        exact h
      · intro j m hj hU
        unfold hgeruz_40_J
        rw [wp_bind]
        refine wp_mono (hgeruz_if54_wp (x := x) (yq := y j) ?_ ?_ ?_ ?_ hU) ?_
        · rw [fstart]; exact env.rdY m hU.k j hj
        · intro m i hk hi
          rw [fstart]; exact env.rdX m hk i hi
        · exact fun i i' hi hi' hne => env.disj i j i' j hi hi' (fun e => hne e.1)
        · exact fun m i q hi hk => env.stable m i j q hi hj hk
        · intro _ m' h
          simp only [wp_pure]
          exact ⟨by push_cast; ring, h⟩

theorem hgeruh_if36_wp {K : Mem R → Prop} {m : Mem R} {M A LDA X Y JY : Int} {j : Nat} {ALPHA : Quat R}
    {x c : Nat → Quat R} {yq : Quat R} (hy : readQ m (Y + 4 * (JY - 1)) = some yq)
    (hx : ∀ m (i : Nat), K m → i < M.toNat → readQ m (X + 4 * ((i:Int) + 1 - 1)) = some (x i))
    (hdisj : ∀ i i', i < M.toNat → i' < M.toNat → i ≠ i' →
      QDisj (A + 4 * ((i:Int) + j * LDA)) (A + 4 * ((i':Int) + j * LDA)))
    (hst : ∀ m i q, i < M.toNat → K m → K (writeQ m (A + 4 * ((i:Int) + j * LDA)) q))
    (hU : Upd K (fun i => A + 4 * ((i:Int) + j * LDA)) M.toNat m c m) :
    wp (hgeruh_if36 A ALPHA (j+1) JY LDA M X Y) m (fun _ m' =>
      Upd K (fun i => A + 4 * ((i:Int) + j * LDA)) M.toNat m
        (fun i => Quat.ofH ((c i).toH + (Scal.h ALPHA).toH * (x i).toH * yq.toH)) m') := by
  unfold hgeruh_if36
  simp only [el3c_1, el3c_2, el2c_1, el2c_2, wp_bind, wp_pure, wp_rdC_lo hy, wp_rdC_hi hy, wp_ite]
  split
  · refine wp_passU hdisj hst hU ?_
    intro i m hi hk hC
    have hX := hx m i hk hi
    have hX' : ∀ q, readQ (writeQ m (A + 4 * ((i:Int) + j * LDA)) q) (X + 4 * ((i:Int) + 1 - 1)) = some (x i) :=
      fun q => hx _ i (hst m i q hi hk) hi
    unfold hgeruh_10_I
    simp only [el3c_1, el3c_2, el2c_1, el2c_2, wp_bind, wp_pure, wp_rdC_lo hX, wp_rdC_hi hX, wp_rdC_lo (hX' _), wp_rdC_hi (hX' _), wp_rdC_lo hC, wp_rdC_hi hC, wp_wrC_lo hC, wp_wrC_hi hC, wp_wrC_lo (readQ_writeQ_same _ _ _), wp_wrC_hi (readQ_writeQ_same _ _ _), wp_rdC_lo (readQ_writeQ_same _ _ _), wp_rdC_hi (readQ_writeQ_same _ _ _), writeQ_writeQ]
    refine congrArg (writeQ m _) (eq_ofH ?_)
    ext <;> simp [Scal.toH] <;> ring
  · rename_i h
    rw [feq_zero_toH h]
    simpa using hU

theorem hgeruh_if63_wp {K : Mem R → Prop} {m : Mem R} {M A LDA X Y JY INCX KX : Int} {j : Nat} {ALPHA : Quat R}
    {x c : Nat → Quat R} {yq : Quat R} (hy : readQ m (Y + 4 * (JY - 1)) = some yq)
    (hx : ∀ m (i : Nat), K m → i < M.toNat → readQ m (X + 4 * (KX + (i:Int) * INCX - 1)) = some (x i))
    (hdisj : ∀ i i', i < M.toNat → i' < M.toNat → i ≠ i' →
      QDisj (A + 4 * ((i:Int) + j * LDA)) (A + 4 * ((i':Int) + j * LDA)))
    (hst : ∀ m i q, i < M.toNat → K m → K (writeQ m (A + 4 * ((i:Int) + j * LDA)) q))
    (hU : Upd K (fun i => A + 4 * ((i:Int) + j * LDA)) M.toNat m c m) :
    wp (hgeruh_if63 A ALPHA INCX (j+1) JY KX LDA M X Y) m (fun _ m' =>
      Upd K (fun i => A + 4 * ((i:Int) + j * LDA)) M.toNat m
        (fun i => Quat.ofH ((c i).toH + (Scal.h ALPHA).toH * (x i).toH * yq.toH)) m') := by
  unfold hgeruh_if63
  simp only [el3c_1, el3c_2, el2c_1, el2c_2, wp_bind, wp_pure, wp_rdC_lo hy, wp_rdC_hi hy, wp_ite]
  split
  · refine wp_mono (wp_pass (fun i => KX + (i:Int) * INCX) (by simp) hdisj hst hU
      (c' := fun i => Quat.ofH ((c i).toH + (Scal.h ALPHA).toH * (x i).toH * yq.toH)) ?_) (fun _ _ h => h.2)
    intro i m hi hk hC
    have hX := hx m i hk hi
    have hX' : ∀ q, readQ (writeQ m (A + 4 * ((i:Int) + j * LDA)) q) (X + 4 * (KX + (i:Int) * INCX - 1)) = some (x i) :=
      fun q => hx _ i (hst m i q hi hk) hi
    unfold hgeruh_30_I
    simp only [el3c_1, el3c_2, el2c_1, el2c_2, wp_bind, wp_pure, wp_rdC_lo hX, wp_rdC_hi hX, wp_rdC_lo (hX' _), wp_rdC_hi (hX' _), wp_rdC_lo hC, wp_rdC_hi hC, wp_wrC_lo hC, wp_wrC_hi hC, wp_wrC_lo (readQ_writeQ_same _ _ _), wp_wrC_hi (readQ_writeQ_same _ _ _), wp_rdC_lo (readQ_writeQ_same _ _ _), wp_rdC_hi (readQ_writeQ_same _ _ _), writeQ_writeQ]
    refine ⟨by push_cast; ring, congrArg (writeQ m _) (eq_ofH ?_)⟩
    ext <;> simp [Scal.toH] <;> ring
  · rename_i h
    rw [feq_zero_toH h]
    simpa using hU

theorem hgeruh_wp {K : Mem R → Prop} {m : Mem R} {M N A LDA X INCX Y INCY : Int} {ALPHA : Quat R}
    {x y : Nat → Quat R} {c : Nat → Nat → Quat R} 
    (env : GerEnv K (fbase X M INCX) INCX M.toNat x (fbase Y N INCY) INCY N.toNat y A LDA)
    (hk : K m) (hA : MatAt m A LDA M.toNat N.toNat c) :
    wp (hgeruh M N ALPHA X INCX Y INCY A LDA) m (fun _ m' => GPost K m A LDA M.toNat N.toNat
      (fun i j => Quat.ofH ((c i j).toH + (Scal.h ALPHA).toH * (x i).toH * (y j).toH)) m') := by
  unfold hgeruh
  dsimp only
  rw [wp_ite]
  split
  · rename_i h
    rw [wp_pure]
    simp only [Bool.or_eq_true, decide_eq_true_eq] at h
    refine ⟨?_, hk, fun _ _ => rfl⟩
    intro i j hi hj
    rcases h with (rfl | rfl) | h
    · simp at hi
    · simp at hj
    · have hz : (Scal.h ALPHA).toH = 0 := by
        rw [← allZero_iff]
        simp [Cplx.feq, Quat.lo, Quat.hi] at h
        simp [Scal.allZero, h]
      rw [hA i j hi hj, hz]
      simp
  · rw [wp_bind, wp_fstart, wp_bind]
    unfold hgeruh_if34
    rw [wp_ite]
    split
    · rename_i h
      rw [decide_eq_true_eq] at h
      subst h
      rw [wp_bind]
      have key := wp_cols (K := K) (m0 := m) (addr := fun i j => A + 4 * ((i:Int) + j * LDA)) (M := M.toNat)
        (N := N.toNat) (c := c) (c' := fun i j => Quat.ofH ((c i j).toH + (Scal.h ALPHA).toH * (x i).toH * (y j).toH))
        (f := fun i s => hgeruh_20_J A ALPHA INCY LDA M X Y ((i : Int) + 1) s)
        (s0 := if INCY > 0 then 1 else 1 - (N - 1) * INCY)
        (fun j => (if INCY > 0 then 1 else 1 - (N - 1) * INCY) + (j:Int) * INCY) (by simp) env.disj hk hA ?_
      · refine wp_mono key ?_
        intro _ m' h
        simp only [wp_pure]
        exact h
      · intro j m hj hU
        unfold hgeruh_20_J
        rw [wp_bind]
        refine wp_mono (hgeruh_if36_wp (x := x) (yq := y j) ?_ ?_ ?_ ?_ hU) ?_
        · rw [fstart]; exact env.rdY m hU.k j hj
        · intro m i hk hi
          have := env.rdX m hk i hi
          rw [fbase_one] at this
          rw [← this]
          congr 1
          ring
        · exact fun i i' hi hi' hne => env.disj i j i' j hi hi' (fun e => hne e.1)
        · exact fun m i q hi hk => env.stable m i j q hi hj hk
        · intro _ m' h
          simp only [wp_pure]
          exact ⟨by push_cast; ring, h⟩
    · rw [wp_bind, wp_fstart, wp_bind]
      have key := wp_cols (K := K) (m0 := m) (addr := fun i j => A + 4 * ((i:Int) + j * LDA)) (M := M.toNat)
        (N := N.toNat) (c := c) (c' := fun i j => Quat.ofH ((c i j).toH + (Scal.h ALPHA).toH * (x i).toH * (y j).toH))
        (f := fun i s => hgeruh_40_J A ALPHA INCX INCY (if INCX > 0 then 1 else 1 - (M - 1) * INCX) LDA M X Y ((i : Int) + 1) s)
        (s0 := if INCY > 0 then 1 else 1 - (N - 1) * INCY)
        (fun j => (if INCY > 0 then 1 else 1 - (N - 1) * INCY) + (j:Int) * INCY) (by simp) env.disj hk hA ?_
      · refine wp_mono key ?_
        intro _ m' h
        simp only [wp_pure]
        exact h
      · intro j m hj hU
        unfold hgeruh_40_J
        rw [wp_bind]
        refine wp_mono (hgeruh_if63_wp (x := x) (yq := y j) ?_ ?_ ?_ ?_ hU) ?_
        · rw [fstart]; exact env.rdY m hU.k j hj
        · intro m i hk hi
          rw [fstart]; exact env.rdX m hk i hi
        · exact fun i i' hi hi' hne => env.disj i j i' j hi hi' (fun e => hne e.1)
        · exact fun m i q hi hk => env.stable m i j q hi hj hk
        · intro _ m' h
          simp only [wp_pure]
          exact ⟨by push_cast; ring, h⟩

theorem hgercd_if36_wp {K : Mem R → Prop} {m : Mem R} {M A LDA X Y JY : Int} {j : Nat} {ALPHA : R}
    {x c : Nat → Quat R} {yq : Quat R} (hy : readQ m (Y + 4 * (JY - 1)) = some yq)
    (hx : ∀ m (i : Nat), K m → i < M.toNat → readQ m (X + 4 * ((i:Int) + 1 - 1)) = some (x i))
    (hdisj : ∀ i i', i < M.toNat → i' < M.toNat → i ≠ i' →
      QDisj (A + 4 * ((i:Int) + j * LDA)) (A + 4 * ((i':Int) + j * LDA)))
    (hst : ∀ m i q, i < M.toNat → K m → K (writeQ m (A + 4 * ((i:Int) + j * LDA)) q))
    (hU : Upd K (fun i => A + 4 * ((i:Int) + j * LDA)) M.toNat m c m) :
    wp (hgercd_if36 A ALPHA (j+1) JY LDA M X Y) m (fun _ m' =>
      Upd K (fun i => A + 4 * ((i:Int) + j * LDA)) M.toNat m
        (fun i => Quat.ofH ((c i).toH + (Scal.d ALPHA).toH * (x i).toH * star yq.toH)) m') := by
  unfold hgercd_if36
  simp only [el3c_1, el3c_2, el2c_1, el2c_2, wp_bind, wp_pure, wp_rdC_lo hy, wp_rdC_hi hy, wp_ite]
  split
  · refine wp_passU hdisj hst hU ?_
    intro i m hi hk hC
    have hX := hx m i hk hi
    have hX' : ∀ q, readQ (writeQ m (A + 4 * ((i:Int) + j * LDA)) q) (X + 4 * ((i:Int) + 1 - 1)) = some (x i) :=
      fun q => hx _ i (hst m i q hi hk) hi
    unfold hgercd_10_I
    simp only [el3c_1, el3c_2, el2c_1, el2c_2, wp_bind, wp_pure, wp_rdC_lo hX, wp_rdC_hi hX, wp_rdC_lo (hX' _), wp_rdC_hi (hX' _), wp_rdC_lo hC, wp_rdC_hi hC, wp_wrC_lo hC, wp_wrC_hi hC, wp_wrC_lo (readQ_writeQ_same _ _ _), wp_wrC_hi (readQ_writeQ_same _ _ _), wp_rdC_lo (readQ_writeQ_same _ _ _), wp_rdC_hi (readQ_writeQ_same _ _ _), writeQ_writeQ]
    refine congrArg (writeQ m _) (eq_ofH ?_)
    ext <;> simp [Scal.toH] <;> ring
  · rename_i h
    rw [feq_zero_toH h]
    simpa using hU

theorem hgercd_wp {K : Mem R → Prop} {m : Mem R} {M N A LDA X INCX Y INCY : Int} {ALPHA : R}
    {x y : Nat → Quat R} {c : Nat → Nat → Quat R} (h1 : INCX = 1) 
    (env : GerEnv K (fbase X M INCX) INCX M.toNat x (fbase Y N INCY) INCY N.toNat y A LDA)
    (hk : K m) (hA : MatAt m A LDA M.toNat N.toNat c) :
    wp (hgercd M N ALPHA X INCX Y INCY A LDA) m (fun _ m' => GPost K m A LDA M.toNat N.toNat
      (fun i j => Quat.ofH ((c i j).toH + (Scal.d ALPHA).toH * (x i).toH * star (y j).toH)) m') := by
  unfold hgercd
  dsimp only
  rw [wp_ite]
  split
  · rename_i h
    rw [wp_pure]
    simp only [Bool.or_eq_true, decide_eq_true_eq] at h
    refine ⟨?_, hk, fun _ _ => rfl⟩
    intro i j hi hj
    rcases h with (rfl | rfl) | h
    · simp at hi
    · simp at hj
    · have hz : (Scal.d ALPHA).toH = 0 := by
        rw [← allZero_iff]
        simp [Cplx.feq, Quat.lo, Quat.hi] at h
        simp [Scal.allZero, h]
      rw [hA i j hi hj, hz]
      simp
  · rw [wp_bind, wp_fstart, wp_bind]
    unfold hgercd_if34
    rw [wp_ite]
    split
    · rename_i h
      rw [decide_eq_true_eq] at h
      subst h
      rw [wp_bind]
      have key := wp_cols (K := K) (m0 := m) (addr := fun i j => A + 4 * ((i:Int) + j * LDA)) (M := M.toNat)
        (N := N.toNat) (c := c) (c' := fun i j => Quat.ofH ((c i j).toH + (Scal.d ALPHA).toH * (x i).toH * star (y j).toH))
        (f := fun i s => hgercd_20_J A ALPHA INCY LDA M X Y ((i : Int) + 1) s)
        (s0 := if INCY > 0 then 1 else 1 - (N - 1) * INCY)
        (fun j => (if INCY > 0 then 1 else 1 - (N - 1) * INCY) + (j:Int) * INCY) (by simp) env.disj hk hA ?_
      · refine wp_mono key ?_
        intro _ m' h
        simp only [wp_pure]
        exact h
      · intro j m hj hU
        unfold hgercd_20_J
        rw [wp_bind]
        refine wp_mono (hgercd_if36_wp (x := x) (yq := y j) ?_ ?_ ?_ ?_ hU) ?_
        · rw [fstart]; exact env.rdY m hU.k j hj
        · intro m i hk hi
          have := env.rdX m hk i hi
          rw [fbase_one] at this
          rw [← this]
          congr 1
          ring
        · exact fun i i' hi hi' hne => env.disj i j i' j hi hi' (fun e => hne e.1)
        · exact fun m i q hi hk => env.stable m i j q hi hj hk
        · intro _ m' h
          simp only [wp_pure]
          exact ⟨by push_cast; ring, h⟩
    · rename_i h
      exact absurd h1 (by simpa using h)

theorem hgercz_if35_wp {K : Mem R → Prop} {m : Mem R} {M A LDA X Y JY : Int} {j : Nat} {ALPHA : Cplx R}
    {x c : Nat → Quat R} {yq : Quat R} (hy : readQ m (Y + 4 * (JY - 1)) = some yq)
    (hx : ∀ m (i : Nat), K m → i < M.toNat → readQ m (X + 4 * ((i:Int) + 1 - 1)) = some (x i))
    (hdisj : ∀ i i', i < M.toNat → i' < M.toNat → i ≠ i' →
      QDisj (A + 4 * ((i:Int) + j * LDA)) (A + 4 * ((i':Int) + j * LDA)))
    (hst : ∀ m i q, i < M.toNat → K m → K (writeQ m (A + 4 * ((i:Int) + j * LDA)) q))
    (hU : Upd K (fun i => A + 4 * ((i:Int) + j * LDA)) M.toNat m c m) :
    wp (hgercz_if35 A ALPHA (j+1) JY LDA M X Y) m (fun _ m' =>
      Upd K (fun i => A + 4 * ((i:Int) + j * LDA)) M.toNat m
        (fun i => Quat.ofH ((c i).toH + (Scal.z ALPHA).toH * (x i).toH * star yq.toH)) m') := by
  unfold hgercz_if35
  simp only [el3c_1, el3c_2, el2c_1, el2c_2, wp_bind, wp_pure, wp_rdC_lo hy, wp_rdC_hi hy, wp_ite]
  split
  · refine wp_passU hdisj hst hU ?_
    intro i m hi hk hC
    have hX := hx m i hk hi
    have hX' : ∀ q, readQ (writeQ m (A + 4 * ((i:Int) + j * LDA)) q) (X + 4 * ((i:Int) + 1 - 1)) = some (x i) :=
      fun q => hx _ i (hst m i q hi hk) hi
    unfold hgercz_10_I
    simp only [el3c_1, el3c_2, el2c_1, el2c_2, wp_bind, wp_pure, wp_rdC_lo hX, wp_rdC_hi hX, wp_rdC_lo (hX' _), wp_rdC_hi (hX' _), wp_rdC_lo hC, wp_rdC_hi hC, wp_wrC_lo hC, wp_wrC_hi hC, wp_wrC_lo (readQ_writeQ_same _ _ _), wp_wrC_hi (readQ_writeQ_same _ _ _), wp_rdC_lo (readQ_writeQ_same _ _ _), wp_rdC_hi (readQ_writeQ_same _ _ _), writeQ_writeQ]
    refine congrArg (writeQ m _) (eq_ofH ?_)
    ext <;> simp [Scal.toH] <;> ring
  · rename_i h
    rw [feq_zero_toH h]
    simpa using hU

theorem hgercz_if54_wp {K : Mem R → Prop} {m : Mem R} {M A LDA X Y JY INCX KX : Int} {j : Nat} {ALPHA : Cplx R}
    {x c : Nat → Quat R} {yq : Quat R} (hy : readQ m (Y + 4 * (JY - 1)) = some yq)
    (hx : ∀ m (i : Nat), K m → i < M.toNat → readQ m (X + 4 * (KX + (i:Int) * INCX - 1)) = some (x i))
    (hdisj : ∀ i i', i < M.toNat → i' < M.toNat → i ≠ i' →
      QDisj (A + 4 * ((i:Int) + j * LDA)) (A + 4 * ((i':Int) + j * LDA)))
    (hst : ∀ m i q, i < M.toNat → K m → K (writeQ m (A + 4 * ((i:Int) + j * LDA)) q))
    (hU : Upd K (fun i => A + 4 * ((i:Int) + j * LDA)) M.toNat m c m) :
    wp (hgercz_if54 A ALPHA INCX (j+1) JY KX LDA M X Y) m (fun _ m' =>
      Upd K (fun i => A + 4 * ((i:Int) + j * LDA)) M.toNat m
        (fun i => Quat.ofH ((c i).toH + (Scal.z ALPHA).toH * (x i).toH * star yq.toH)) m') := by
  unfold hgercz_if54
  simp only [el3c_1, el3c_2, el2c_1, el2c_2, wp_bind, wp_pure, wp_rdC_lo hy, wp_rdC_hi hy, wp_ite]
  split
  · refine wp_mono (wp_pass (fun i => KX + (i:Int) * INCX) (by simp) hdisj hst hU
      (c' := fun i => Quat.ofH ((c i).toH + (Scal.z ALPHA).toH * (x i).toH * star yq.toH)) ?_) (fun _ _ h => h.2)
    intro i m hi hk hC
    have hX := hx m i hk hi
    have hX' : ∀ q, readQ (writeQ m (A + 4 * ((i:Int) + j * LDA)) q) (X + 4 * (KX + (i:Int) * INCX - 1)) = some (x i) :=
      fun q => hx _ i (hst m i q hi hk) hi
    unfold hgercz_30_I
    simp only [el3c_1, el3c_2, el2c_1, el2c_2, wp_bind, wp_pure, wp_rdC_lo hX, wp_rdC_hi hX, wp_rdC_lo (hX' _), wp_rdC_hi (hX' _), wp_rdC_lo hC, wp_rdC_hi hC, wp_wrC_lo hC, wp_wrC_hi hC, wp_wrC_lo (readQ_writeQ_same _ _ _), wp_wrC_hi (readQ_writeQ_same _ _ _), wp_rdC_lo (readQ_writeQ_same _ _ _), wp_rdC_hi (readQ_writeQ_same _ _ _), writeQ_writeQ]
    refine ⟨by push_cast; ring, congrArg (writeQ m _) (eq_ofH ?_)⟩
    ext <;> simp [Scal.toH] <;> ring
  · rename_i h
    rw [feq_zero_toH h]
    simpa using hU

theorem hgercz_wp {K : Mem R → Prop} {m : Mem R} {M N A LDA X INCX Y INCY : Int} {ALPHA : Cplx R}
    {x y : Nat → Quat R} {c : Nat → Nat → Quat R} 
    (env : GerEnv K (fbase X M INCX) INCX M.toNat x (fbase Y N INCY) INCY N.toNat y A LDA)
    (hk : K m) (hA : MatAt m A LDA M.toNat N.toNat c) :
    wp (hgercz M N ALPHA X INCX Y INCY A LDA) m (fun _ m' => GPost K m A LDA M.toNat N.toNat
      (fun i j => Quat.ofH ((c i j).toH + (Scal.z ALPHA).toH * (x i).toH * star (y j).toH)) m') := by
  unfold hgercz
  dsimp only
  rw [wp_ite]
  split
  · rename_i h
    rw [wp_pure]
    simp only [Bool.or_eq_true, decide_eq_true_eq] at h
    refine ⟨?_, hk, fun _ _ => rfl⟩
    intro i j hi hj
    rcases h with (rfl | rfl) | h
    · simp at hi
    · simp at hj
    · have hz : (Scal.z ALPHA).toH = 0 := by
        rw [← allZero_iff]
        simp [Cplx.feq, Quat.lo, Quat.hi] at h
        simp [Scal.allZero, h]
      rw [hA i j hi hj, hz]
      simp
  · rw [wp_bind, wp_fstart, wp_bind]
    unfold hgercz_if33
    rw [wp_ite]
    split
    · rename_i h
      rw [decide_eq_true_eq] at h
      subst h
      rw [wp_bind]
      have key := wp_cols (K := K) (m0 := m) (addr := fun i j => A + 4 * ((i:Int) + j * LDA)) (M := M.toNat)
        (N := N.toNat) (c := c) (c' := fun i j => Quat.ofH ((c i j).toH + (Scal.z ALPHA).toH * (x i).toH * star (y j).toH))
        (f := fun i s => hgercz_20_J A ALPHA INCY LDA M X Y ((i : Int) + 1) s)
        (s0 := if INCY > 0 then 1 else 1 - (N - 1) * INCY)
        (fun j => (if INCY > 0 then 1 else 1 - (N - 1) * INCY) + (j:Int) * INCY) (by simp) env.disj hk hA ?_
      · refine wp_mono key ?_
        intro _ m' h
        simp only [wp_pure]
        exact h
      · intro j m hj hU
        unfold hgercz_20_J
        rw [wp_bind]
        refine wp_mono (hgercz_if35_wp (x := x) (yq := y j) ?_ ?_ ?_ ?_ hU) ?_
        · rw [fstart]; exact env.rdY m hU.k j hj
        · intro m i hk hi
          have := env.rdX m hk i hi
          rw [fbase_one] at this
          rw [← this]
          congr 1
          ring
        · exact fun i i' hi hi' hne => env.disj i j i' j hi hi' (fun e => hne e.1)
        · exact fun m i q hi hk => env.stable m i j q hi hj hk
        · intro _ m' h
          simp only [wp_pure]
          exact ⟨by push_cast; ring, h⟩
    · rw [wp_bind, wp_fstart, wp_bind]
      have key := wp_cols (K := K) (m0 := m) (addr := fun i j => A + 4 * ((i:Int) + j * LDA)) (M := M.toNat)
        (N := N.toNat) (c := c) (c' := fun i j => Quat.ofH ((c i j).toH + (Scal.z ALPHA).toH * (x i).toH * star (y j).toH))
        (f := fun i s => hgercz_40_J A ALPHA INCX INCY (if INCX > 0 then 1 else 1 - (M - 1) * INCX) LDA M X Y ((i : Int) + 1) s)
        (s0 := if INCY > 0 then 1 else 1 - (N - 1) * INCY)
        (fun j => (if INCY > 0 then 1 else 1 - (N - 1) * INCY) + (j:Int) * INCY) (by simp) env.disj hk hA ?_
      · refine wp_mono key ?_
        intro _ m' h
        simp only [wp_pure]
        exact h
      · intro j m hj hU
        unfold hgercz_40_J
        rw [wp_bind]
        refine wp_mono (hgercz_if54_wp (x := x) (yq := y j) ?_ ?_ ?_ ?_ hU) ?_
        · rw [fstart]; exact env.rdY m hU.k j hj
        · intro m i hk hi
          rw [fstart]; exact env.rdX m hk i hi
        · exact fun i i' hi hi' hne => env.disj i j i' j hi hi' (fun e => hne e.1)
        · exact fun m i q hi hk => env.stable m i j q hi hj hk
        · intro _ m' h
          simp only [wp_pure]
          exact ⟨by push_cast; ring, h⟩

theorem hgerch_if36_wp {K : Mem R → Prop} {m : Mem R} {M A LDA X Y JY : Int} {j : Nat} {ALPHA : Quat R}
    {x c : Nat → Quat R} {yq : Quat R} (hy : readQ m (Y + 4 * (JY - 1)) = some yq)
    (hx : ∀ m (i : Nat), K m → i < M.toNat → readQ m (X + 4 * ((i:Int) + 1 - 1)) = some (x i))
    (hdisj : ∀ i i', i < M.toNat → i' < M.toNat → i ≠ i' →
      QDisj (A + 4 * ((i:Int) + j * LDA)) (A + 4 * ((i':Int) + j * LDA)))
    (hst : ∀ m i q, i < M.toNat → K m → K (writeQ m (A + 4 * ((i:Int) + j * LDA)) q))
    (hU : Upd K (fun i => A + 4 * ((i:Int) + j * LDA)) M.toNat m c m) :
    wp (hgerch_if36 A ALPHA (j+1) JY LDA M X Y) m (fun _ m' =>
      Upd K (fun i => A + 4 * ((i:Int) + j * LDA)) M.toNat m
        (fun i => Quat.ofH ((c i).toH + (Scal.h ALPHA).toH * (x i).toH * star yq.toH)) m') := by
  unfold hgerch_if36
  simp only [el3c_1, el3c_2, el2c_1, el2c_2, wp_bind, wp_pure, wp_rdC_lo hy, wp_rdC_hi hy, wp_ite]
  split
  · refine wp_passU hdisj hst hU ?_
    intro i m hi hk hC
    have hX := hx m i hk hi
    have hX' : ∀ q, readQ (writeQ m (A + 4 * ((i:Int) + j * LDA)) q) (X + 4 * ((i:Int) + 1 - 1)) = some (x i) :=
      fun q => hx _ i (hst m i q hi hk) hi
    unfold hgerch_10_I
    simp only [el3c_1, el3c_2, el2c_1, el2c_2, wp_bind, wp_pure, wp_rdC_lo hX, wp_rdC_hi hX, wp_rdC_lo (hX' _), wp_rdC_hi (hX' _), wp_rdC_lo hC, wp_rdC_hi hC, wp_wrC_lo hC, wp_wrC_hi hC, wp_wrC_lo (readQ_writeQ_same _ _ _), wp_wrC_hi (readQ_writeQ_same _ _ _), wp_rdC_lo (readQ_writeQ_same _ _ _), wp_rdC_hi (readQ_writeQ_same _ _ _), writeQ_writeQ]
    refine congrArg (writeQ m _) (eq_ofH ?_)
    ext <;> simp [Scal.toH] <;> ring
  · rename_i h
    rw [feq_zero_toH h]
    simpa using hU

theorem hgerch_if63_wp {K : Mem R → Prop} {m : Mem R} {M A LDA X Y JY INCX KX : Int} {j : Nat} {ALPHA : Quat R}
    {x c : Nat → Quat R} {yq : Quat R} (hy : readQ m (Y + 4 * (JY - 1)) = some yq)
    (hx : ∀ m (i : Nat), K m → i < M.toNat → readQ m (X + 4 * (KX + (i:Int) * INCX - 1)) = some (x i))
    (hdisj : ∀ i i', i < M.toNat → i' < M.toNat → i ≠ i' →
      QDisj (A + 4 * ((i:Int) + j * LDA)) (A + 4 * ((i':Int) + j * LDA)))
    (hst : ∀ m i q, i < M.toNat → K m → K (writeQ m (A + 4 * ((i:Int) + j * LDA)) q))
    (hU : Upd K (fun i => A + 4 * ((i:Int) + j * LDA)) M.toNat m c m) :
    wp (hgerch_if63 A ALPHA INCX (j+1) JY KX LDA M X Y) m (fun _ m' =>
      Upd K (fun i => A + 4 * ((i:Int) + j * LDA)) M.toNat m
        (fun i => Quat.ofH ((c i).toH + (Scal.h ALPHA).toH * (x i).toH * star yq.toH)) m') := by
  unfold hgerch_if63
  simp only [el3c_1, el3c_2, el2c_1, el2c_2, wp_bind, wp_pure, wp_rdC_lo hy, wp_rdC_hi hy, wp_ite]
  split
  · refine wp_mono (wp_pass (fun i => KX + (i:Int) * INCX) (by simp) hdisj hst hU
      (c' := fun i => Quat.ofH ((c i).toH + (Scal.h ALPHA).toH * (x i).toH * star yq.toH)) ?_) (fun _ _ h => h.2)
    intro i m hi hk hC
    have hX := hx m i hk hi
    have hX' : ∀ q, readQ (writeQ m (A + 4 * ((i:Int) + j * LDA)) q) (X + 4 * (KX + (i:Int) * INCX - 1)) = some (x i) :=
      fun q => hx _ i (hst m i q hi hk) hi
    unfold hgerch_30_I
    simp only [el3c_1, el3c_2, el2c_1, el2c_2, wp_bind, wp_pure, wp_rdC_lo hX, wp_rdC_hi hX, wp_rdC_lo (hX' _), wp_rdC_hi (hX' _), wp_rdC_lo hC, wp_rdC_hi hC, wp_wrC_lo hC, wp_wrC_hi hC, wp_wrC_lo (readQ_writeQ_same _ _ _), wp_wrC_hi (readQ_writeQ_same _ _ _), wp_rdC_lo (readQ_writeQ_same _ _ _), wp_rdC_hi (readQ_writeQ_same _ _ _), writeQ_writeQ]
    refine ⟨by push_cast; ring, congrArg (writeQ m _) (eq_ofH ?_)⟩
    ext <;> simp [Scal.toH] <;> ring
  · rename_i h
    rw [feq_zero_toH h]
    simpa using hU

theorem hgerch_wp {K : Mem R → Prop} {m : Mem R} {M N A LDA X INCX Y INCY : Int} {ALPHA : Quat R}
    {x y : Nat → Quat R} {c : Nat → Nat → Quat R} 
    (env : GerEnv K (fbase X M INCX) INCX M.toNat x (fbase Y N INCY) INCY N.toNat y A LDA)
    (hk : K m) (hA : MatAt m A LDA M.toNat N.toNat c) :
    wp (hgerch M N ALPHA X INCX Y INCY A LDA) m (fun _ m' => GPost K m A LDA M.toNat N.toNat
      (fun i j => Quat.ofH ((c i j).toH + (Scal.h ALPHA).toH * (x i).toH * star (y j).toH)) m') := by
  unfold hgerch
  dsimp only
  rw [wp_ite]
  split
  · rename_i h
    rw [wp_pure]
    simp only [Bool.or_eq_true, decide_eq_true_eq] at h
    refine ⟨?_, hk, fun _ _ => rfl⟩
    intro i j hi hj
    rcases h with (rfl | rfl) | h
    · simp at hi
    · simp at hj
    · have hz : (Scal.h ALPHA).toH = 0 := by
        rw [← allZero_iff]
        simp [Cplx.feq, Quat.lo, Quat.hi] at h
        simp [Scal.allZero, h]
      rw [hA i j hi hj, hz]
      simp
  · rw [wp_bind, wp_fstart, wp_bind]
    unfold hgerch_if34
    rw [wp_ite]
    split
    · rename_i h
      rw [decide_eq_true_eq] at h
      subst h
      rw [wp_bind]
      have key := wp_cols (K := K) (m0 := m) (addr := fun i j => A + 4 * ((i:Int) + j * LDA)) (M := M.toNat)
        (N := N.toNat) (c := c) (c' := fun i j => Quat.ofH ((c i j).toH + (Scal.h ALPHA).toH * (x i).toH * star (y j).toH))
        (f := fun i s => hgerch_20_J A ALPHA INCY LDA M X Y ((i : Int) + 1) s)
        (s0 := if INCY > 0 then 1 else 1 - (N - 1) * INCY)
        (fun j => (if INCY > 0 then 1 else 1 - (N - 1) * INCY) + (j:Int) * INCY) (by simp) env.disj hk hA ?_
      · refine wp_mono key ?_
        intro _ m' h
        simp only [wp_pure]
        exact h
      · intro j m hj hU
        unfold hgerch_20_J
        rw [wp_bind]
        refine wp_mono (hgerch_if36_wp (x := x) (yq := y j) ?_ ?_ ?_ ?_ hU) ?_
        · rw [fstart]; exact env.rdY m hU.k j hj
        · intro m i hk hi
          have := env.rdX m hk i hi
          rw [fbase_one] at this
          rw [← this]
          congr 1
          ring
        · exact fun i i' hi hi' hne => env.disj i j i' j hi hi' (fun e => hne e.1)
        · exact fun m i q hi hk => env.stable m i j q hi hj hk
        · intro _ m' h
          simp only [wp_pure]
          exact ⟨by push_cast; ring, h⟩
    · rw [wp_bind, wp_fstart, wp_bind]
      have key := wp_cols (K := K) (m0 := m) (addr := fun i j => A + 4 * ((i:Int) + j * LDA)) (M := M.toNat)
        (N := N.toNat) (c := c) (c' := fun i j => Quat.ofH ((c i j).toH + (Scal.h ALPHA).toH * (x i).toH * star (y j).toH))
        (f := fun i s => hgerch_40_J A ALPHA INCX INCY (if INCX > 0 then 1 else 1 - (M - 1) * INCX) LDA M X Y ((i : Int) + 1) s)
        (s0 := if INCY > 0 then 1 else 1 - (N - 1) * INCY)
        (fun j => (if INCY > 0 then 1 else 1 - (N - 1) * INCY) + (j:Int) * INCY) (by simp) env.disj hk hA ?_
      · refine wp_mono key ?_
        intro _ m' h
        simp only [wp_pure]
        exact h
      · intro j m hj hU
        unfold hgerch_40_J
        rw [wp_bind]
        refine wp_mono (hgerch_if63_wp (x := x) (yq := y j) ?_ ?_ ?_ ?_ hU) ?_
        · rw [fstart]; exact env.rdY m hU.k j hj
        · intro m i hk hi
          rw [fstart]; exact env.rdX m hk i hi
        · exact fun i i' hi hi' hne => env.disj i j i' j hi hi' (fun e => hne e.1)
        · exact fun m i q hi hk => env.stable m i j q hi hj hk
        · intro _ m' h
          simp only [wp_pure]
          exact ⟨by push_cast; ring, h⟩

end Haxx
