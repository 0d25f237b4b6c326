import Verif.FGemvActLemmas
import Verif.FGemvPfdz

/-!
# What `hgemvdz` does on every call (written by `tools/gen_gemv_act.py`)
-/

set_option linter.unusedSimpArgs false
set_option linter.unusedSectionVars false
set_option linter.unusedVariables false
set_option linter.unusedTactic false
set_option linter.unreachableTactic false

namespace Haxx
open Arith Quaternion Finset

variable {R : Type} [CommRing R] [DecidableEq R]

open Classical in
theorem hgemvdz_if56_act {K : Mem R → Prop} {m : Mem R} {BETA : Cplx R} {BONE BZERO : Bool} {INCY KY LENY Y : Int}
    {n : Nat} {c : Nat → Quat R}
    (hz : BZERO = true ↔ (Scal.z BETA).toH = 0) (ho : BONE = true ↔ (Scal.z BETA).toH = 1) (hl : (Scal.z BETA).toH = 1 ∨ False ∨ LENY.toNat ≤ n) (hlp : 0 < n)
    (hky : INCY = 1 → KY = 1)
    (hdisj : ∀ i j : Nat, i < n → j < n → i ≠ j → QDisj (Y + 4 * (KY + (i:Int) * INCY - 1)) (Y + 4 * (KY + (j:Int) * INCY - 1)))
    (hst : ∀ m (i : Nat) q, i < n → K m → K (writeQ m (Y + 4 * (KY + (i:Int) * INCY - 1)) q))
    (hU : Upd K (fun i => Y + 4 * (KY + (i:Int) * INCY - 1)) n m c m) :
    wp (hgemvdz_if56 BETA BONE BZERO INCY KY LENY Y) m (fun _ m' =>
      Upd K (fun i => Y + 4 * (KY + (i:Int) * INCY - 1)) n m (fun i => Quat.ofH (gemvScaled False LENY.toNat (Scal.z BETA).toH i (c i).toH)) m') := by
  by_cases h1 : (Scal.z BETA).toH = 1
  · have hb := ho.2 h1
    unfold hgemvdz_if56
    rw [hb, h1]
    simp only [gemvScaled_one, Bool.not_true, Bool.false_eq_true, if_false, wp_pure]
    simpa using hU
  have hl := (hl.resolve_left h1).resolve_left not_false
  refine wp_mono (hgemvdz_if56_wp hz.1 ho.1 (ly := LENY.toNat) (fun _ => rfl) hky (fun i j hi hj => hdisj i j (by omega) (by omega))
    (fun m i q hi => hst m i q (by omega)) (hU.start hl)) ?_
  intro _ m' h
  have h2 := hU.chain hl hdisj h
  have e : (fun i => if i < LENY.toNat then Quat.ofH ((Scal.z BETA).toH * (c i).toH) else c i) =
      fun i => Quat.ofH (gemvScaled False LENY.toNat (Scal.z BETA).toH i (c i).toH) := by
    funext i
    unfold gemvScaled
    rw [if_neg not_false]
    split_ifs
    · rfl
    · exact eq_ofH rfl
  rw [e] at h2
  exact h2

open Classical in
/-- `hgemvdz`, whatever the lengths, flags and increments: it scales as many elements as `LENY` of the code says, adds to as many as
y has, and starts both walks where `LENX` and `LENY` of the code say. -/
theorem hgemvdz_act {K : Mem R → Prop} {m : Mem R} {TRANS : Char} {M N : Int} {ALPHA : R} {BETA : Cplx R}
    {A LDA X INCX Y INCY : Int} {a : Nat → Nat → Quat R} {x c : Nat → Quat R} {n : Nat}
    (hM : 0 < M) (hN : 0 < N) (hLYn : (if lsame TRANS 'N' = true then M else N).toNat ≤ n) (hCYn : (Scal.z BETA).toH = 1 ∨ False ∨ (if lsame 'T' TRANS = true then M else N).toNat ≤ n)
    (hst : ∀ m (i : Nat) q, i < n → K m → K (writeQ m (fbase Y (if lsame 'T' TRANS = true then M else N) INCY + 4 * ((i:Int) * INCY)) q))
    (hdisj : ∀ i j : Nat, i < n → j < n → i ≠ j →
      QDisj (fbase Y (if lsame 'T' TRANS = true then M else N) INCY + 4 * ((i:Int) * INCY)) (fbase Y (if lsame 'T' TRANS = true then M else N) INCY + 4 * ((j:Int) * INCY)))
    (env : (Scal.d ALPHA).toH ≠ 0 → GvEnv K A LDA M.toNat N.toNat a (fbase X (if lsame 'T' TRANS = true then N else M) INCX) INCX (if lsame TRANS 'N' = true then N else M).toNat x (fun i : Nat => fbase Y (if lsame 'T' TRANS = true then M else N) INCY + 4 * ((i:Int) * INCY)) n)
    (hk : K m) (hY : VecAt m (fbase Y (if lsame 'T' TRANS = true then M else N) INCY) INCY n c) :
    wp (hgemvdz TRANS M N ALPHA A LDA X INCX BETA Y INCY) m (fun _ m' => Upd K (fun i : Nat => fbase Y (if lsame 'T' TRANS = true then M else N) INCY + 4 * ((i:Int) * INCY)) n m
        (fun i => Quat.ofH ((if i < (if lsame TRANS 'N' = true then M else N).toNat then (Scal.d ALPHA).toH * (∑ k ∈ range (if lsame TRANS 'N' = true then N else M).toNat, (if lsame TRANS 'N' = true then (a i k).toH else if lsame 'T' TRANS = true then (a k i).toH
            else star (a k i).toH) * (x k).toH) else 0) +
          gemvScaled False (if lsame 'T' TRANS = true then M else N).toNat (Scal.z BETA).toH i (c i).toH)) m') := by
  have hUi : Upd K (fun i : Nat => fbase Y (if lsame 'T' TRANS = true then M else N) INCY + 4 * ((i:Int) * INCY)) n m c m := ⟨hY, hk, fun _ _ => rfl⟩
  have hz : (Cplx.feq BETA (⟨zero, zero⟩ : Cplx R)) = true ↔ (Scal.z BETA).toH = 0 := ⟨scal0_z _, scal0_z' _⟩
  have ho : (Cplx.feq BETA (⟨one, zero⟩ : Cplx R)) = true ↔ (Scal.z BETA).toH = 1 := ⟨scal1_z _, scal1_z' _⟩
  have ha : (Cplx.feq (Cplx.ofReal ALPHA) (⟨zero, zero⟩ : Cplx R)) = true → (Scal.d ALPHA).toH = 0 := scal0_d _
  have ha' : (Scal.d ALPHA).toH = 0 → (Cplx.feq (Cplx.ofReal ALPHA) (⟨zero, zero⟩ : Cplx R)) = true := scal0_d' _
  have hnp : 0 < n := by
    refine lt_of_lt_of_le ?_ hLYn
    split <;> omega
  have err0 : ∀ p q : Quat R, (Scal.d ALPHA).toH = 0 → True := by
    intro p q e
    trivial
  have nothing : (Scal.d ALPHA).toH = 0 → (fun i => Quat.ofH ((if i < (if lsame TRANS 'N' = true then M else N).toNat then (Scal.d ALPHA).toH * (∑ k ∈ range (if lsame TRANS 'N' = true then N else M).toNat, (if lsame TRANS 'N' = true then (a i k).toH else if lsame 'T' TRANS = true then (a k i).toH
            else star (a k i).toH) * (x k).toH) else 0) +
          gemvScaled False (if lsame 'T' TRANS = true then M else N).toNat (Scal.z BETA).toH i (c i).toH)) =
      fun i => Quat.ofH (gemvScaled False (if lsame 'T' TRANS = true then M else N).toNat (Scal.z BETA).toH i (c i).toH) := by
    intro e
    funext i
    simp only [e, zero_mul, ite_self, zero_add]
  unfold hgemvdz
  dsimp only
  rw [wp_ite]
  split
  · rename_i h
    rw [wp_pure]
    simp only [Bool.or_eq_true, decide_eq_true_eq, hM.ne', hN.ne', false_or, or_self] at h
    rw [Bool.and_eq_true] at h
    rw [nothing (ha h.1), ho.1 h.2]
    simp only [gemvScaled_one]
    exact hUi
  · rw [wp_bind, wp_lens]
    dsimp only
    rw [wp_bind, wp_fstart, wp_bind, wp_fstart, wp_bind]
    have hky : INCY = 1 → (if INCY > 0 then 1 else 1 - ((if lsame 'T' TRANS = true then M else N) - 1) * INCY) = 1 := by rintro rfl; rfl
    have hkx : INCX = 1 → (if INCX > 0 then 1 else 1 - ((if lsame 'T' TRANS = true then N else M) - 1) * INCX) = 1 := by rintro rfl; rfl
    have eY : ∀ i : Nat, Y + 4 * ((if INCY > 0 then 1 else 1 - ((if lsame 'T' TRANS = true then M else N) - 1) * INCY) + (i:Int) * INCY - 1) =
      fbase Y (if lsame 'T' TRANS = true then M else N) INCY + 4 * ((i:Int) * INCY) := fun i => fstart Y (if lsame 'T' TRANS = true then M else N) INCY i
    have eX : X + 4 * ((if INCX > 0 then 1 else 1 - ((if lsame 'T' TRANS = true then N else M) - 1) * INCX) - 1) = fbase X (if lsame 'T' TRANS = true then N else M) INCX := by
      have := fstart X (if lsame 'T' TRANS = true then N else M) INCX 0
      simpa using this
    generalize hgKX : (if INCX > 0 then 1 else 1 - ((if lsame 'T' TRANS = true then N else M) - 1) * INCX) = KX at *
    generalize hgKY : (if INCY > 0 then 1 else 1 - ((if lsame 'T' TRANS = true then M else N) - 1) * INCY) = KY at *
    simp only [← eY, ← eX] at hst hdisj env hUi ⊢
    refine wp_mono (hgemvdz_if56_act hz ho hCYn hnp hky hdisj hst hUi) ?_
    intro _ m1 hU1
    rw [wp_ite]
    split
    · rename_i h
      rw [wp_pure, nothing (ha h)]
      exact hU1
    · rename_i h
      have env := env (fun h0 => h (ha' h0))
      clear nothing err0
      rw [wp_bind]
      unfold hgemvdz_if89
      rw [wp_ite]
      split
      · rename_i hNN
        simp only [hNN, if_true, true_and] at env hLYn ⊢
        rw [wp_bind]
        refine wp_mono (hgemvdz_if91_wp hky ⟨env.rdA, env.rdX, fun m i q hi => env.stable m i q (by omega), fun i j hi hj => env.disj i j (by omega) (by omega)⟩
          (hU1.start hLYn)) ?_
        intro _ m' h
        simp only [wp_pure]
        have h2 := hU1.chain hLYn hdisj h
        refine ⟨fun i hi => (h2.cur i hi).trans (congrArg some (eq_ofH ?_)), h2.k, h2.out⟩
        by_cases hil : i < M.toNat
        · simp only [hil, if_true, toH_ofH, mul_sum]
          rw [add_comm]
        · simp only [hil, if_false, toH_ofH, zero_add]
      · rename_i hNN
        simp only [hNN, if_false, false_and, Bool.false_eq_true] at env hLYn ⊢
        rw [wp_bind]
        refine wp_mono (hgemvdz_if122_wp (NOCONJ := lsame 'T' TRANS) hkx ⟨env.rdA, env.rdX, fun m i q hi => env.stable m i q (by omega), fun i j hi hj => env.disj i j (by omega) (by omega)⟩
          (hU1.start hLYn)) ?_
        intro _ m' h
        simp only [wp_pure]
        have h2 := hU1.chain hLYn hdisj h
        refine ⟨fun i hi => (h2.cur i hi).trans (congrArg some (eq_ofH ?_)), h2.k, h2.out⟩
        by_cases hil : i < N.toNat
        · simp only [hil, if_true, toH_ofH, add_zero]
          rw [add_comm]
        · simp only [hil, if_false, toH_ofH, zero_add]

end Haxx
