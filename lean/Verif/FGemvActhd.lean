import Verif.FGemvActLemmas
import Verif.FGemvPfhd

/-!
# What `hgemvhd` does on every call (written by `tools/gen_gemv_act.py`)
-/

set_option linter.unusedSimpArgs false
set_option linter.unusedSectionVars false
set_option linter.unusedVariables false
set_option linter.unusedTactic false
set_option linter.unreachableTactic false

namespace Haxx
open Arith Quaternion Finset

variable {R : Type} [CommRing R] [DecidableEq R]

open Classical in
theorem hgemvhd_if58_act {K : Mem R → Prop} {m : Mem R} {BETA : R} {BONE BZERO : Bool} {INCY KY LENY Y : Int}
    {n : Nat} {c : Nat → Quat R}
    (hz : BZERO = true ↔ (Scal.d BETA).toH = 0) (ho : BONE = true ↔ (Scal.d BETA).toH = 1) (hl : (Scal.d BETA).toH = 1 ∨ False ∨ LENY.toNat ≤ n) (hlp : 0 < n)
    (hky : INCY = 1 → KY = 1)
    (hdisj : ∀ i j : Nat, i < n → j < n → i ≠ j → QDisj (Y + 4 * (KY + (i:Int) * INCY - 1)) (Y + 4 * (KY + (j:Int) * INCY - 1)))
    (hst : ∀ m (i : Nat) q, i < n → K m → K (writeQ m (Y + 4 * (KY + (i:Int) * INCY - 1)) q))
    (hU : Upd K (fun i => Y + 4 * (KY + (i:Int) * INCY - 1)) n m c m) :
    wp (hgemvhd_if58 BETA BONE BZERO INCY KY LENY Y) m (fun _ m' =>
      Upd K (fun i => Y + 4 * (KY + (i:Int) * INCY - 1)) n m (fun i => Quat.ofH (gemvScaled False LENY.toNat (Scal.d BETA).toH i (c i).toH)) m') := by
  by_cases h1 : (Scal.d BETA).toH = 1
  · have hb := ho.2 h1
    unfold hgemvhd_if58
    rw [hb, h1]
    simp only [gemvScaled_one, Bool.not_true, Bool.false_eq_true, if_false, wp_pure]
    simpa using hU
  have hl := (hl.resolve_left h1).resolve_left not_false
  refine wp_mono (hgemvhd_if58_wp hz.1 ho.1 (ly := LENY.toNat) (fun _ => rfl) hky (fun i j hi hj => hdisj i j (by omega) (by omega))
    (fun m i q hi => hst m i q (by omega)) (hU.start hl)) ?_
  intro _ m' h
  have h2 := hU.chain hl hdisj h
  have e : (fun i => if i < LENY.toNat then Quat.ofH ((Scal.d BETA).toH * (c i).toH) else c i) =
      fun i => Quat.ofH (gemvScaled False LENY.toNat (Scal.d BETA).toH i (c i).toH) := by
    funext i
    unfold gemvScaled
    rw [if_neg not_false]
    split_ifs
    · rfl
    · exact eq_ofH rfl
  rw [e] at h2
  exact h2

theorem hgemvhd_80_act {K : Mem R → Prop} {m0 m : Mem R} {ALPHA : Quat R} {A LDA M N X INCX Y INCY KY JX : Int}
    {a : Nat → Nat → Quat R} {x c : Nat → Quat R}
    (env : GvEnv K A LDA M.toNat N.toNat a (X + 4 * (JX - 1)) INCX N.toNat x (fun i => Y + 4 * (KY + (i:Int) * INCY - 1)) M.toNat)
    (hU : Upd K (fun i => Y + 4 * (KY + (i:Int) * INCY - 1)) M.toNat m0 c m) :
    wp (foldN N.toNat (fun i (s : Int) => hgemvhd_80_J A ALPHA INCX INCY KY LDA M X Y ((i:Int) + 1) s) JX) m (fun _ m' =>
      Upd K (fun i => Y + 4 * (KY + (i:Int) * INCY - 1)) M.toNat m0
        (fun i => Quat.ofH ((c i).toH + ∑ j ∈ range N.toNat, ((Scal.h ALPHA).toH * ((a i j).toH * (x j).toH) + gemvErr ALPHA (a i j) (x j)))) m') := by
  have hdisj := env.disj
  have hst := env.stable
  refine wp_accPassS (fun j => JX + (j:Int) * INCX) (by simp) (fun j i => ((Scal.h ALPHA).toH * ((a i j).toH * (x j).toH) + gemvErr ALPHA (a i j) (x j))) hU ?_
  intro j m c hj hU'
  have hX : readQ m (X + 4 * (JX + (j:Int) * INCX - 1)) = some (x j) := by
    rw [← env.rdX m hU'.k j hj]; congr 1; ring
  unfold hgemvhd_80_J
  simp only [el3c_1, el3c_2, el2c_1, el2c_2, wp_bind, wp_pure, wp_rdC_lo hX, wp_rdC_hi hX]
  refine wp_mono (wp_pass (fun i => KY + (i:Int) * INCY) (by simp) hdisj hst hU'
      (c' := fun i => Quat.ofH ((c i).toH + ((Scal.h ALPHA).toH * ((a i j).toH * (x j).toH) + gemvErr ALPHA (a i j) (x j)))) ?_) ?_
  · intro i m hi hk hC
    have hA := env.rdA m hk i j hi hj
    have hA' := matAt_write env.rdA (fun q => hst m i q hi hk) hi hj
    unfold hgemvhd_70_I
    simp only [el3c_1, el3c_2, el2c_1, el2c_2, wp_bind, wp_pure, wp_rdC_lo hA, wp_rdC_hi hA, wp_rdC_lo (hA' _), wp_rdC_hi (hA' _), wp_rdC_lo hC, wp_rdC_hi hC, wp_wrC_lo hC, wp_wrC_hi hC, wp_wrC_lo (readQ_writeQ_same _ _ _), wp_wrC_hi (readQ_writeQ_same _ _ _), wp_rdC_lo (readQ_writeQ_same _ _ _), wp_rdC_hi (readQ_writeQ_same _ _ _), writeQ_writeQ]
    refine ⟨by push_cast; ring, congrArg (writeQ m _) (eq_ofH ?_)⟩
    ext <;> simp [Scal.toH, gemvErr_re, gemvErr_imI, gemvErr_imJ, gemvErr_imK, Quat.lo, Quat.hi] <;> ring
  · rintro _ m' ⟨_, h⟩
    exact ⟨by push_cast; ring, h⟩

theorem hgemvhd_if93_act {K : Mem R → Prop} {m0 m : Mem R} {ALPHA : Quat R} {A LDA M N X INCX Y INCY JX KY : Int}
    {a : Nat → Nat → Quat R} {x c : Nat → Quat R} (hky : INCY = 1 → KY = 1)
    (env : GvEnv K A LDA M.toNat N.toNat a (X + 4 * (JX - 1)) INCX N.toNat x (fun i => Y + 4 * (KY + (i:Int) * INCY - 1)) M.toNat)
    (hU : Upd K (fun i => Y + 4 * (KY + (i:Int) * INCY - 1)) M.toNat m0 c m) :
    wp (hgemvhd_if93 A ALPHA INCX INCY JX KY LDA M N X Y) m (fun _ m' =>
      Upd K (fun i => Y + 4 * (KY + (i:Int) * INCY - 1)) M.toNat m0
        (fun i => Quat.ofH ((c i).toH + ((Scal.h ALPHA).toH * (∑ j ∈ range N.toNat, (a i j).toH * (x j).toH) +
          if INCY = 1 then 0 else ∑ j ∈ range N.toNat, gemvErr ALPHA (a i j) (x j)))) m') := by
  by_cases h1 : INCY = 1
  · refine wp_mono (hgemvhd_if93_wp h1 hky env hU) ?_
    intro _ m' h
    simp only [h1, if_true, add_zero, mul_sum] at h ⊢
    exact h
  · unfold hgemvhd_if93
    simp only [h1, decide_false, Bool.false_eq_true, if_false]
    rw [wp_bind]
    refine wp_mono (hgemvhd_80_act env hU) ?_
    intro _ m' h
    rw [wp_pure]
    simp only [sum_add_distrib, ← mul_sum] at h
    exact h

open Classical in
/-- `hgemvhd`, whatever the lengths, flags and increments: it scales as many elements as `LENY` of the code says, adds to as many as
y has, and starts both walks where `LENX` and `LENY` of the code say. -/
theorem hgemvhd_act {K : Mem R → Prop} {m : Mem R} {TRANS : Char} {M N : Int} {ALPHA : Quat R} {BETA : R}
    {A LDA X INCX Y INCY : Int} {a : Nat → Nat → Quat R} {x c : Nat → Quat R} {n : Nat}
    (hM : 0 < M) (hN : 0 < N) (hLYn : (if lsame TRANS 'N' = true then M else N).toNat ≤ n) (hCYn : (Scal.d BETA).toH = 1 ∨ False ∨ (if lsame 'T' TRANS = true then M else N).toNat ≤ n)
    (hst : ∀ m (i : Nat) q, i < n → K m → K (writeQ m (fbase Y (if lsame 'T' TRANS = true then M else N) INCY + 4 * ((i:Int) * INCY)) q))
    (hdisj : ∀ i j : Nat, i < n → j < n → i ≠ j →
      QDisj (fbase Y (if lsame 'T' TRANS = true then M else N) INCY + 4 * ((i:Int) * INCY)) (fbase Y (if lsame 'T' TRANS = true then M else N) INCY + 4 * ((j:Int) * INCY)))
    (env : (Scal.h ALPHA).toH ≠ 0 → GvEnv K A LDA M.toNat N.toNat a (fbase X (if lsame 'T' TRANS = true then N else M) INCX) INCX (if lsame TRANS 'N' = true then N else M).toNat x (fun i : Nat => fbase Y (if lsame 'T' TRANS = true then M else N) INCY + 4 * ((i:Int) * INCY)) n)
    (hk : K m) (hY : VecAt m (fbase Y (if lsame 'T' TRANS = true then M else N) INCY) INCY n c) :
    wp (hgemvhd TRANS M N ALPHA A LDA X INCX BETA Y INCY) m (fun _ m' => Upd K (fun i : Nat => fbase Y (if lsame 'T' TRANS = true then M else N) INCY + 4 * ((i:Int) * INCY)) n m
        (fun i => Quat.ofH ((if i < (if lsame TRANS 'N' = true then M else N).toNat then (Scal.h ALPHA).toH * (∑ k ∈ range (if lsame TRANS 'N' = true then N else M).toNat, (if lsame TRANS 'N' = true then (a i k).toH else if lsame 'T' TRANS = true then (a k i).toH
            else star (a k i).toH) * (x k).toH) + (if lsame TRANS 'N' = true ∧ INCY ≠ 1 then ∑ k ∈ range (if lsame TRANS 'N' = true then N else M).toNat, gemvErr ALPHA (a i k) (x k) else 0) else 0) +
          gemvScaled False (if lsame 'T' TRANS = true then M else N).toNat (Scal.d BETA).toH i (c i).toH)) m') := by
  have hUi : Upd K (fun i : Nat => fbase Y (if lsame 'T' TRANS = true then M else N) INCY + 4 * ((i:Int) * INCY)) n m c m := ⟨hY, hk, fun _ _ => rfl⟩
  have hz : (Cplx.feq (Cplx.ofReal BETA) (⟨zero, zero⟩ : Cplx R)) = true ↔ (Scal.d BETA).toH = 0 := ⟨scal0_d _, scal0_d' _⟩
  have ho : (Cplx.feq (Cplx.ofReal BETA) (⟨one, zero⟩ : Cplx R)) = true ↔ (Scal.d BETA).toH = 1 := ⟨scal1_d _, scal1_d' _⟩
  have ha : (Cplx.feq (Quat.lo ALPHA) (⟨zero, zero⟩ : Cplx R) && Cplx.feq (Quat.hi ALPHA) (⟨zero, zero⟩ : Cplx R)) = true → (Scal.h ALPHA).toH = 0 := scal0_h _
  have ha' : (Scal.h ALPHA).toH = 0 → (Cplx.feq (Quat.lo ALPHA) (⟨zero, zero⟩ : Cplx R) && Cplx.feq (Quat.hi ALPHA) (⟨zero, zero⟩ : Cplx R)) = true := scal0_h' _
  have hnp : 0 < n := by
    refine lt_of_lt_of_le ?_ hLYn
    split <;> omega
  have err0 : ∀ p q : Quat R, (Scal.h ALPHA).toH = 0 → gemvErr ALPHA p q = 0 := by
    intro p q e
    have e0 := congrArg QuaternionAlgebra.re e
    have e1 := congrArg QuaternionAlgebra.imI e
    simp [Scal.toH] at e0 e1
    ext <;> simp [gemvErr_re, gemvErr_imI, gemvErr_imJ, gemvErr_imK, Quat.lo, e0, e1]
  have nothing : (Scal.h ALPHA).toH = 0 → (fun i => Quat.ofH ((if i < (if lsame TRANS 'N' = true then M else N).toNat then (Scal.h ALPHA).toH * (∑ k ∈ range (if lsame TRANS 'N' = true then N else M).toNat, (if lsame TRANS 'N' = true then (a i k).toH else if lsame 'T' TRANS = true then (a k i).toH
            else star (a k i).toH) * (x k).toH) + (if lsame TRANS 'N' = true ∧ INCY ≠ 1 then ∑ k ∈ range (if lsame TRANS 'N' = true then N else M).toNat, gemvErr ALPHA (a i k) (x k) else 0) else 0) +
          gemvScaled False (if lsame 'T' TRANS = true then M else N).toNat (Scal.d BETA).toH i (c i).toH)) =
      fun i => Quat.ofH (gemvScaled False (if lsame 'T' TRANS = true then M else N).toNat (Scal.d BETA).toH i (c i).toH) := by
    intro e
    funext i
    simp only [err0 _ _ e, sum_const_zero, e, zero_mul, ite_self, add_zero, ite_self, zero_add]
  unfold hgemvhd
  dsimp only
  rw [wp_bind, wp_lens]
  dsimp only
  rw [wp_ite]
  split
  · rename_i h
    rw [wp_pure]
    simp only [Bool.or_eq_true, decide_eq_true_eq, hM.ne', hN.ne', false_or, or_self] at h
    rw [Bool.and_eq_true] at h
    rw [nothing (ha h.1), ho.1 h.2]
    simp only [gemvScaled_one]
    exact hUi
  · skip
    rw [wp_bind, wp_fstart, wp_bind, wp_fstart, wp_bind]
    have hky : INCY = 1 → (if INCY > 0 then 1 else 1 - ((if lsame 'T' TRANS = true then M else N) - 1) * INCY) = 1 := by rintro rfl; rfl
    have hkx : INCX = 1 → (if INCX > 0 then 1 else 1 - ((if lsame 'T' TRANS = true then N else M) - 1) * INCX) = 1 := by rintro rfl; rfl
    have eY : ∀ i : Nat, Y + 4 * ((if INCY > 0 then 1 else 1 - ((if lsame 'T' TRANS = true then M else N) - 1) * INCY) + (i:Int) * INCY - 1) =
      fbase Y (if lsame 'T' TRANS = true then M else N) INCY + 4 * ((i:Int) * INCY) := fun i => fstart Y (if lsame 'T' TRANS = true then M else N) INCY i
    have eX : X + 4 * ((if INCX > 0 then 1 else 1 - ((if lsame 'T' TRANS = true then N else M) - 1) * INCX) - 1) = fbase X (if lsame 'T' TRANS = true then N else M) INCX := by
      have := fstart X (if lsame 'T' TRANS = true then N else M) INCX 0
      simpa using this
    generalize hgKX : (if INCX > 0 then 1 else 1 - ((if lsame 'T' TRANS = true then N else M) - 1) * INCX) = KX at *
    generalize hgKY : (if INCY > 0 then 1 else 1 - ((if lsame 'T' TRANS = true then M else N) - 1) * INCY) = KY at *
    simp only [← eY, ← eX] at hst hdisj env hUi ⊢
    refine wp_mono (hgemvhd_if58_act hz ho hCYn hnp hky hdisj hst hUi) ?_
    intro _ m1 hU1
    rw [wp_ite]
    split
    · rename_i h
      rw [wp_pure, nothing (ha h)]
      exact hU1
    · rename_i h
      have env := env (fun h0 => h (ha' h0))
      clear nothing err0
      rw [wp_bind]
      unfold hgemvhd_if91
      rw [wp_ite]
      split
      · rename_i hNN
        simp only [hNN, if_true, true_and] at env hLYn ⊢
        rw [wp_bind]
        refine wp_mono (hgemvhd_if93_act hky ⟨env.rdA, env.rdX, fun m i q hi => env.stable m i q (by omega), fun i j hi hj => env.disj i j (by omega) (by omega)⟩
          (hU1.start hLYn)) ?_
        intro _ m' h
        simp only [wp_pure]
        have h2 := hU1.chain hLYn hdisj h
        refine ⟨fun i hi => (h2.cur i hi).trans (congrArg some (eq_ofH ?_)), h2.k, h2.out⟩
        by_cases hil : i < M.toNat
        · simp only [hil, if_true, toH_ofH, ite_not, ne_eq]
          rw [add_comm]
        · simp only [hil, if_false, toH_ofH, zero_add]
      · rename_i hNN
        simp only [hNN, if_false, false_and, Bool.false_eq_true] at env hLYn ⊢
        rw [wp_bind]
        refine wp_mono (hgemvhd_if140_wp (NOCONJ := lsame 'T' TRANS) hkx ⟨env.rdA, env.rdX, fun m i q hi => env.stable m i q (by omega), fun i j hi hj => env.disj i j (by omega) (by omega)⟩
          (hU1.start hLYn)) ?_
        intro _ m' h
        simp only [wp_pure]
        have h2 := hU1.chain hLYn hdisj h
        refine ⟨fun i hi => (h2.cur i hi).trans (congrArg some (eq_ofH ?_)), h2.k, h2.out⟩
        by_cases hil : i < N.toNat
        · simp only [hil, if_true, toH_ofH, add_zero]
          rw [add_comm]
        · simp only [hil, if_false, toH_ofH, zero_add]

end Haxx
