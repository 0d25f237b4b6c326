import Verif.FGemvActLemmas
import Verif.FGemvPfdh

/-!
# What `hgemvdh` does on every call (written by `tools/gen_gemv_act.py`)
-/

set_option linter.unusedSimpArgs false
set_option linter.unusedSectionVars false
set_option linter.unusedVariables false
set_option linter.unusedTactic false
set_option linter.unreachableTactic false

namespace Haxx
open Arith Quaternion Finset

variable {R : Type} [CommRing R] [DecidableEq R]

theorem hgemvdh_40_act {m : Mem R} {BETA c : Quat R} {IY Y I : Int} (h : readQ m (Y + 4 * (IY - 1)) = some c) :
    wp (hgemvdh_40_I BETA IY Y I) m (fun _ m' => m' = writeQ m (Y + 4 * (IY - 1)) (Quat.ofH (BETA.toH * c.toH))) := by
  unfold hgemvdh_40_I
  simp only [el2c_1, el2c_2, wp_bind, wp_pure, wp_rdC_lo h, wp_rdC_hi h, wp_wrC_hi h, wp_wrC_lo (readQ_writeQ_same _ _ _), writeQ_writeQ]
  refine congrArg (writeQ m _) (eq_ofH ?_)
  ext <;> simp [Quat.lo, Quat.hi] <;> ring

open Classical in
theorem hgemvdh_if57_act {K : Mem R → Prop} {m : Mem R} {BETA : Quat R} {BONE BZERO : Bool} {INCY KY LENY Y : Int}
    {n : Nat} {c : Nat → Quat R}
    (hz : BZERO = true ↔ (Scal.h BETA).toH = 0) (ho : BONE = true ↔ (Scal.h BETA).toH = 1) (hl : (Scal.h BETA).toH = 1 ∨ (INCY ≠ 1 ∧ (Scal.h BETA).toH ≠ 0) ∨ LENY.toNat ≤ n) (hlp : 0 < n)
    (hky : INCY = 1 → KY = 1)
    (hdisj : ∀ i j : Nat, i < n → j < n → i ≠ j → QDisj (Y + 4 * (KY + (i:Int) * INCY - 1)) (Y + 4 * (KY + (j:Int) * INCY - 1)))
    (hst : ∀ m (i : Nat) q, i < n → K m → K (writeQ m (Y + 4 * (KY + (i:Int) * INCY - 1)) q))
    (hU : Upd K (fun i => Y + 4 * (KY + (i:Int) * INCY - 1)) n m c m) :
    wp (hgemvdh_if57 BETA BONE BZERO INCY KY LENY Y) m (fun _ m' =>
      Upd K (fun i => Y + 4 * (KY + (i:Int) * INCY - 1)) n m (fun i => Quat.ofH (gemvScaled (INCY ≠ 1 ∧ (Scal.h BETA).toH ≠ 0) LENY.toNat (Scal.h BETA).toH i (c i).toH)) m') := by
  by_cases h1 : (Scal.h BETA).toH = 1
  · have hb := ho.2 h1
    unfold hgemvdh_if57
    rw [hb, h1]
    simp only [gemvScaled_one, Bool.not_true, Bool.false_eq_true, if_false, wp_pure]
    simpa using hU
  by_cases hs : INCY ≠ 1 ∧ (Scal.h BETA).toH ≠ 0
  swap
  · have hl := (hl.resolve_left h1).resolve_left hs
    have hs' : INCY = 1 ∨ BZERO = true ∨ BONE = true := by
      by_contra hc
      push Not at hc
      exact hs ⟨hc.1, fun e => hc.2.1 (hz.2 e)⟩
    refine wp_mono (hgemvdh_if57_wp hs' hz.1 ho.1 (ly := LENY.toNat) (fun _ => rfl) hky (fun i j hi hj => hdisj i j (by omega) (by omega))
      (fun m i q hi => hst m i q (by omega)) (hU.start hl)) ?_
    intro _ m' h
    have h2 := hU.chain hl hdisj h
    have e : (fun i => if i < LENY.toNat then Quat.ofH ((Scal.h BETA).toH * (c i).toH) else c i) =
        fun i => Quat.ofH (gemvScaled (INCY ≠ 1 ∧ (Scal.h BETA).toH ≠ 0) LENY.toNat (Scal.h BETA).toH i (c i).toH) := by
      funext i
      unfold gemvScaled
      rw [if_neg hs]
      split_ifs
      · rfl
      · exact eq_ofH rfl
    rw [e] at h2
    exact h2
  · have hb : BONE = false := by
      by_contra hc
      exact h1 (ho.1 (by simpa using hc))
    have hb0 : BZERO = false := by
      by_contra hc
      exact hs.2 (hz.1 (by simpa using hc))
    unfold hgemvdh_if57 hgemvdh_if58 hgemvdh_if73
    simp only [hb, hb0, hs.1, decide_false, Bool.not_false, Bool.false_eq_true, if_false, if_true, wp_bind, wp_pure]
    apply wp_forN (fun k m' => Upd K (fun i => Y + 4 * (KY + (i:Int) * INCY - 1)) n m (fun i => Quat.ofH (if i = 0 then (Scal.h BETA).toH ^ k * (c i).toH else (c i).toH)) m')
    · refine ⟨fun i hi => ?_, hU.k, fun _ _ => rfl⟩
      rw [hU.cur i hi]
      refine congrArg some (eq_ofH ?_)
      simp
    · intro k m1 _ hk
      have h0 := hk.cur 0 (by omega)
      simp only [Nat.cast_zero, zero_mul, add_zero, if_true] at h0
      refine wp_mono (hgemvdh_40_act h0) ?_
      rintro _ m2 rfl
      have e0 : (Y + 4 * (KY - 1)) = Y + 4 * (KY + ((0:Nat):Int) * INCY - 1) := by simp
      refine ⟨fun i hi => ?_, ?_, ?_⟩
      · by_cases hi0 : i = 0
        · subst hi0
          rw [← e0, readQ_writeQ_same]
          simp only [if_true, toH_ofH, pow_succ', mul_assoc]
          rfl
        · have hd := hdisj i 0 hi (by omega) hi0
          rw [← e0] at hd
          rw [readQ_writeQ_disj hd, hk.cur i hi]
          simp only [hi0, if_false]
      · rw [e0]; exact hst _ 0 _ (by omega) hk.k
      · intro cc hcc
        rw [writeQ_other (by have := hcc 0 (by omega); simpa using this)]
        exact hk.out cc hcc
    · intro m' h
      have e : (fun i => Quat.ofH (if i = 0 then (Scal.h BETA).toH ^ LENY.toNat * (c i).toH else (c i).toH)) =
          fun i => Quat.ofH (gemvScaled (INCY ≠ 1 ∧ (Scal.h BETA).toH ≠ 0) LENY.toNat (Scal.h BETA).toH i (c i).toH) := by
        funext i
        unfold gemvScaled
        rw [if_pos hs]
      rw [← e]
      exact h

open Classical in
/-- `hgemvdh`, whatever the lengths, flags and increments: it scales as many elements as `LENY` of the code says, adds to as many as
y has, and starts both walks where `LENX` and `LENY` of the code say. -/
theorem hgemvdh_act {K : Mem R → Prop} {m : Mem R} {TRANS : Char} {M N : Int} {ALPHA : R} {BETA : Quat R}
    {A LDA X INCX Y INCY : Int} {a : Nat → Nat → Quat R} {x c : Nat → Quat R} {n : Nat}
    (hM : 0 < M) (hN : 0 < N) (hLYn : (if lsame TRANS 'N' = true then M else N).toNat ≤ n) (hCYn : (Scal.h BETA).toH = 1 ∨ (INCY ≠ 1 ∧ (Scal.h BETA).toH ≠ 0) ∨ (if lsame 'T' TRANS = true then M else N).toNat ≤ n)
    (hst : ∀ m (i : Nat) q, i < n → K m → K (writeQ m (fbase Y (if lsame 'T' TRANS = true then M else N) INCY + 4 * ((i:Int) * INCY)) q))
    (hdisj : ∀ i j : Nat, i < n → j < n → i ≠ j →
      QDisj (fbase Y (if lsame 'T' TRANS = true then M else N) INCY + 4 * ((i:Int) * INCY)) (fbase Y (if lsame 'T' TRANS = true then M else N) INCY + 4 * ((j:Int) * INCY)))
    (env : (Scal.d ALPHA).toH ≠ 0 → GvEnv K A LDA M.toNat N.toNat a (fbase X (if lsame 'T' TRANS = true then N else M) INCX) INCX (if lsame TRANS 'N' = true then N else M).toNat x (fun i : Nat => fbase Y (if lsame 'T' TRANS = true then M else N) INCY + 4 * ((i:Int) * INCY)) n)
    (hk : K m) (hY : VecAt m (fbase Y (if lsame 'T' TRANS = true then M else N) INCY) INCY n c) :
    wp (hgemvdh TRANS M N ALPHA A LDA X INCX BETA Y INCY) m (fun _ m' => Upd K (fun i : Nat => fbase Y (if lsame 'T' TRANS = true then M else N) INCY + 4 * ((i:Int) * INCY)) n m
        (fun i => Quat.ofH ((if i < (if lsame TRANS 'N' = true then M else N).toNat then (Scal.d ALPHA).toH * (∑ k ∈ range (if lsame TRANS 'N' = true then N else M).toNat, (if lsame TRANS 'N' = true then (a i k).toH else if lsame 'T' TRANS = true then (a k i).toH
            else star (a k i).toH) * (x k).toH) else 0) +
          gemvScaled (INCY ≠ 1 ∧ (Scal.h BETA).toH ≠ 0) (if lsame 'T' TRANS = true then M else N).toNat (Scal.h BETA).toH i (c i).toH)) m') := by
  have hUi : Upd K (fun i : Nat => fbase Y (if lsame 'T' TRANS = true then M else N) INCY + 4 * ((i:Int) * INCY)) n m c m := ⟨hY, hk, fun _ _ => rfl⟩
  have hz : (Cplx.feq (Quat.lo BETA) (⟨zero, zero⟩ : Cplx R) && Cplx.feq (Quat.hi BETA) (⟨zero, zero⟩ : Cplx R)) = true ↔ (Scal.h BETA).toH = 0 := ⟨scal0_h _, scal0_h' _⟩
  have ho : (Cplx.feq (Quat.lo BETA) (⟨one, zero⟩ : Cplx R) && Cplx.feq (Quat.hi BETA) (⟨zero, zero⟩ : Cplx R)) = true ↔ (Scal.h BETA).toH = 1 := ⟨scal1_h _, scal1_h' _⟩
  have ha : (Cplx.feq (Cplx.ofReal ALPHA) (⟨zero, zero⟩ : Cplx R)) = true → (Scal.d ALPHA).toH = 0 := scal0_d _
  have ha' : (Scal.d ALPHA).toH = 0 → (Cplx.feq (Cplx.ofReal ALPHA) (⟨zero, zero⟩ : Cplx R)) = true := scal0_d' _
  have hnp : 0 < n := by
    refine lt_of_lt_of_le ?_ hLYn
    split <;> omega
  have err0 : ∀ p q : Quat R, (Scal.d ALPHA).toH = 0 → True := by
    intro p q e
    trivial
  have nothing : (Scal.d ALPHA).toH = 0 → (fun i => Quat.ofH ((if i < (if lsame TRANS 'N' = true then M else N).toNat then (Scal.d ALPHA).toH * (∑ k ∈ range (if lsame TRANS 'N' = true then N else M).toNat, (if lsame TRANS 'N' = true then (a i k).toH else if lsame 'T' TRANS = true then (a k i).toH
            else star (a k i).toH) * (x k).toH) else 0) +
          gemvScaled (INCY ≠ 1 ∧ (Scal.h BETA).toH ≠ 0) (if lsame 'T' TRANS = true then M else N).toNat (Scal.h BETA).toH i (c i).toH)) =
      fun i => Quat.ofH (gemvScaled (INCY ≠ 1 ∧ (Scal.h BETA).toH ≠ 0) (if lsame 'T' TRANS = true then M else N).toNat (Scal.h BETA).toH i (c i).toH) := by
    intro e
    funext i
    simp only [e, zero_mul, ite_self, zero_add]
  unfold hgemvdh
  dsimp only
  rw [wp_bind, wp_lens]
  dsimp only
  rw [wp_ite]
  split
  · rename_i h
    rw [wp_pure]
    simp only [Bool.or_eq_true, decide_eq_true_eq, hM.ne', hN.ne', false_or, or_self] at h
    rw [Bool.and_eq_true] at h
    rw [nothing (ha h.1), ho.1 h.2]
    simp only [gemvScaled_one]
    exact hUi
  · skip
    rw [wp_bind, wp_fstart, wp_bind, wp_fstart, wp_bind]
    have hky : INCY = 1 → (if INCY > 0 then 1 else 1 - ((if lsame 'T' TRANS = true then M else N) - 1) * INCY) = 1 := by rintro rfl; rfl
    have hkx : INCX = 1 → (if INCX > 0 then 1 else 1 - ((if lsame 'T' TRANS = true then N else M) - 1) * INCX) = 1 := by rintro rfl; rfl
    have eY : ∀ i : Nat, Y + 4 * ((if INCY > 0 then 1 else 1 - ((if lsame 'T' TRANS = true then M else N) - 1) * INCY) + (i:Int) * INCY - 1) =
      fbase Y (if lsame 'T' TRANS = true then M else N) INCY + 4 * ((i:Int) * INCY) := fun i => fstart Y (if lsame 'T' TRANS = true then M else N) INCY i
    have eX : X + 4 * ((if INCX > 0 then 1 else 1 - ((if lsame 'T' TRANS = true then N else M) - 1) * INCX) - 1) = fbase X (if lsame 'T' TRANS = true then N else M) INCX := by
      have := fstart X (if lsame 'T' TRANS = true then N else M) INCX 0
      simpa using this
    generalize hgKX : (if INCX > 0 then 1 else 1 - ((if lsame 'T' TRANS = true then N else M) - 1) * INCX) = KX at *
    generalize hgKY : (if INCY > 0 then 1 else 1 - ((if lsame 'T' TRANS = true then M else N) - 1) * INCY) = KY at *
    simp only [← eY, ← eX] at hst hdisj env hUi ⊢
    refine wp_mono (hgemvdh_if57_act hz ho hCYn hnp hky hdisj hst hUi) ?_
    intro _ m1 hU1
    rw [wp_ite]
    split
    · rename_i h
      rw [wp_pure, nothing (ha h)]
      exact hU1
    · rename_i h
      have env := env (fun h0 => h (ha' h0))
      clear nothing err0
      rw [wp_bind]
      unfold hgemvdh_if91
      rw [wp_ite]
      split
      · rename_i hNN
        simp only [hNN, if_true, true_and] at env hLYn ⊢
        rw [wp_bind]
        refine wp_mono (hgemvdh_if93_wp hky ⟨env.rdA, env.rdX, fun m i q hi => env.stable m i q (by omega), fun i j hi hj => env.disj i j (by omega) (by omega)⟩
          (hU1.start hLYn)) ?_
        intro _ m' h
        simp only [wp_pure]
        have h2 := hU1.chain hLYn hdisj h
        refine ⟨fun i hi => (h2.cur i hi).trans (congrArg some (eq_ofH ?_)), h2.k, h2.out⟩
        by_cases hil : i < M.toNat
        · simp only [hil, if_true, toH_ofH, mul_sum]
          rw [add_comm]
        · simp only [hil, if_false, toH_ofH, zero_add]
      · rename_i hNN
        simp only [hNN, if_false, false_and, Bool.false_eq_true] at env hLYn ⊢
        rw [wp_bind]
        refine wp_mono (hgemvdh_if124_wp (NOCONJ := lsame 'T' TRANS) hkx ⟨env.rdA, env.rdX, fun m i q hi => env.stable m i q (by omega), fun i j hi hj => env.disj i j (by omega) (by omega)⟩
          (hU1.start hLYn)) ?_
        intro _ m' h
        simp only [wp_pure]
        have h2 := hU1.chain hLYn hdisj h
        refine ⟨fun i hi => (h2.cur i hi).trans (congrArg some (eq_ofH ?_)), h2.k, h2.out⟩
        by_cases hil : i < N.toNat
        · simp only [hil, if_true, toH_ofH, add_zero]
          rw [add_comm]
        · simp only [hil, if_false, toH_ofH, zero_add]

end Haxx
