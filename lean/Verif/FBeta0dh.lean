import Verif.RelF
import Verif.FGemmdh

/-!
# `hgemmdh` with BETA = 0 (written by `tools/gen_beta0_proofs.py`)
-/

set_option linter.unusedSectionVars false
set_option linter.unusedVariables false
set_option linter.unusedSimpArgs false

namespace Haxx
open Arith

variable {F : Type} [Arith F] [ArithEq F] {S : Int → Prop} {M N K : Int} {A LDA B LDB C LDC : Int}
  {ALPHA : F} {BETA : Quat F} {BONE : Bool}

theorem hgemmdh_30_sim {j : Nat}
    (hA : ∀ i l : Nat, i < M.toNat → l < K.toNat → ∀ a, InQ (A + 4 * (i + l * LDA)) a → ¬ S a)
    (hB : ∀ l : Nat, l < K.toNat → ∀ a, InQ (B + 4 * (l + j * LDB)) a → ¬ S a) :
    Sim (doneM S C LDC M.toNat j 0) (hgemmdh_30_J A ALPHA B BETA BONE true C K LDA LDB LDC M (j+1)) (fun _ => True)
      (doneM S C LDC M.toNat j M.toNat) := by
  unfold hgemmdh_30_J hgemmdh_if113
  refine Sim.bind (E := doneM S C LDC M.toNat j M.toNat) (P := fun _ => True) ?_ fun _ _ => ?_
  · rw [if_pos rfl]
    refine Sim.bind (sim_colF fun i hi D hD => ?_) fun _ _ => Sim.pure trivial
    unfold hgemmdh_40_I
    simp only [el3c_1, el3c_2]
    exact Sim.wrQ
  · refine Sim.bind (Sim.forN (fun _ => doneM S C LDC M.toNat j M.toNat) fun l hl => ?_) fun _ _ => Sim.pure trivial
    unfold hgemmdh_60_L
    simp only [el3c_1, el3c_2]
    have hb : ∀ a, InQ (B + 4 * (l + j * LDB)) a → doneM S C LDC M.toNat j M.toNat a := fun a ha => .inl (hB l hl a ha)
    sim_go
    refine Sim.bind (Sim.forN (fun _ => doneM S C LDC M.toNat j M.toNat) fun i hi => ?_) fun _ _ => Sim.pure trivial
    have ha : ∀ a, InQ (A + 4 * (i + l * LDA)) a → doneM S C LDC M.toNat j M.toNat a := fun a ha => .inl (hA i l hi hl a ha)
    have hc : ∀ a, InQ (C + 4 * (i + j * LDC)) a → doneM S C LDC M.toNat j M.toNat a := fun a ha => .inr (.inr ⟨i, hi, ha⟩)
    unfold hgemmdh_70_I
    simp only [el3c_1, el3c_2]
    sim_go

theorem hgemmdh_120_sim {j : Nat}
    (hA : ∀ i l : Nat, i < M.toNat → l < K.toNat → ∀ a, InQ (A + 4 * (i + l * LDA)) a → ¬ S a)
    (hB : ∀ l : Nat, l < K.toNat → ∀ a, InQ (B + 4 * (j + l * LDB)) a → ¬ S a) :
    Sim (doneM S C LDC M.toNat j 0) (hgemmdh_120_J A ALPHA B BETA BONE true C K LDA LDB LDC M (j+1)) (fun _ => True)
      (doneM S C LDC M.toNat j M.toNat) := by
  unfold hgemmdh_120_J hgemmdh_if342
  refine Sim.bind (E := doneM S C LDC M.toNat j M.toNat) (P := fun _ => True) ?_ fun _ _ => ?_
  · rw [if_pos rfl]
    refine Sim.bind (sim_colF fun i hi D hD => ?_) fun _ _ => Sim.pure trivial
    unfold hgemmdh_130_I
    simp only [el3c_1, el3c_2]
    exact Sim.wrQ
  · refine Sim.bind (Sim.forN (fun _ => doneM S C LDC M.toNat j M.toNat) fun l hl => ?_) fun _ _ => Sim.pure trivial
    unfold hgemmdh_150_L
    simp only [el3c_1, el3c_2]
    have hb : ∀ a, InQ (B + 4 * (j + l * LDB)) a → doneM S C LDC M.toNat j M.toNat a := fun a ha => .inl (hB l hl a ha)
    sim_go
    refine Sim.bind (Sim.forN (fun _ => doneM S C LDC M.toNat j M.toNat) fun i hi => ?_) fun _ _ => Sim.pure trivial
    have ha : ∀ a, InQ (A + 4 * (i + l * LDA)) a → doneM S C LDC M.toNat j M.toNat a := fun a ha => .inl (hA i l hi hl a ha)
    have hc : ∀ a, InQ (C + 4 * (i + j * LDC)) a → doneM S C LDC M.toNat j M.toNat a := fun a ha => .inr (.inr ⟨i, hi, ha⟩)
    unfold hgemmdh_160_I
    simp only [el3c_1, el3c_2]
    sim_go

theorem hgemmdh_170_sim {j : Nat}
    (hA : ∀ i l : Nat, i < M.toNat → l < K.toNat → ∀ a, InQ (A + 4 * (i + l * LDA)) a → ¬ S a)
    (hB : ∀ l : Nat, l < K.toNat → ∀ a, InQ (B + 4 * (j + l * LDB)) a → ¬ S a) :
    Sim (doneM S C LDC M.toNat j 0) (hgemmdh_170_J A ALPHA B BETA BONE true C K LDA LDB LDC M (j+1)) (fun _ => True)
      (doneM S C LDC M.toNat j M.toNat) := by
  unfold hgemmdh_170_J hgemmdh_if424
  refine Sim.bind (E := doneM S C LDC M.toNat j M.toNat) (P := fun _ => True) ?_ fun _ _ => ?_
  · rw [if_pos rfl]
    refine Sim.bind (sim_colF fun i hi D hD => ?_) fun _ _ => Sim.pure trivial
    unfold hgemmdh_180_I
    simp only [el3c_1, el3c_2]
    exact Sim.wrQ
  · refine Sim.bind (Sim.forN (fun _ => doneM S C LDC M.toNat j M.toNat) fun l hl => ?_) fun _ _ => Sim.pure trivial
    unfold hgemmdh_200_L
    simp only [el3c_1, el3c_2]
    have hb : ∀ a, InQ (B + 4 * (j + l * LDB)) a → doneM S C LDC M.toNat j M.toNat a := fun a ha => .inl (hB l hl a ha)
    sim_go
    refine Sim.bind (Sim.forN (fun _ => doneM S C LDC M.toNat j M.toNat) fun i hi => ?_) fun _ _ => Sim.pure trivial
    have ha : ∀ a, InQ (A + 4 * (i + l * LDA)) a → doneM S C LDC M.toNat j M.toNat a := fun a ha => .inl (hA i l hi hl a ha)
    have hc : ∀ a, InQ (C + 4 * (i + j * LDC)) a → doneM S C LDC M.toNat j M.toNat a := fun a ha => .inr (.inr ⟨i, hi, ha⟩)
    unfold hgemmdh_210_I
    simp only [el3c_1, el3c_2]
    sim_go

theorem hgemmdh_80_sim {j : Nat}
    (hA : ∀ l i : Nat, l < K.toNat → i < M.toNat → ∀ a, InQ (A + 4 * (l + i * LDA)) a → ¬ S a)
    (hB : ∀ l : Nat, l < K.toNat → ∀ a, InQ (B + 4 * (l + j * LDB)) a → ¬ S a) :
    Sim (doneM S C LDC M.toNat j 0) (hgemmdh_80_J A ALPHA B BETA true C K LDA LDB LDC M (j+1)) (fun _ => True)
      (doneM S C LDC M.toNat j M.toNat) := by
  unfold hgemmdh_80_J
  refine Sim.bind (sim_colF fun i hi D hD => ?_) fun _ _ => Sim.pure trivial
  unfold hgemmdh_80_I
  refine Sim.bind (Sim.foldN (fun _ => D) (fun _ _ => True) trivial fun l s hl _ => ?_) fun _ _ => ?_
  · unfold hgemmdh_90_L
    simp only [el3c_1, el3c_2]
    have ha : ∀ a, InQ (A + 4 * (l + i * LDA)) a → D a := fun a ha => hD a (hA l i hl hi a ha)
    have hb : ∀ a, InQ (B + 4 * (l + j * LDB)) a → D a := fun a ha => hD a (hB l hl a ha)
    sim_go
  · simp only [if_true, el3c_1, el3c_2]
    exact Sim.bind Sim.wrQ fun _ _ => Sim.pure trivial

theorem hgemmdh_100_sim {j : Nat}
    (hA : ∀ l i : Nat, l < K.toNat → i < M.toNat → ∀ a, InQ (A + 4 * (l + i * LDA)) a → ¬ S a)
    (hB : ∀ l : Nat, l < K.toNat → ∀ a, InQ (B + 4 * (l + j * LDB)) a → ¬ S a) :
    Sim (doneM S C LDC M.toNat j 0) (hgemmdh_100_J A ALPHA B BETA true C K LDA LDB LDC M (j+1)) (fun _ => True)
      (doneM S C LDC M.toNat j M.toNat) := by
  unfold hgemmdh_100_J
  refine Sim.bind (sim_colF fun i hi D hD => ?_) fun _ _ => Sim.pure trivial
  unfold hgemmdh_100_I
  refine Sim.bind (Sim.foldN (fun _ => D) (fun _ _ => True) trivial fun l s hl _ => ?_) fun _ _ => ?_
  · unfold hgemmdh_110_L
    simp only [el3c_1, el3c_2]
    have ha : ∀ a, InQ (A + 4 * (l + i * LDA)) a → D a := fun a ha => hD a (hA l i hl hi a ha)
    have hb : ∀ a, InQ (B + 4 * (l + j * LDB)) a → D a := fun a ha => hD a (hB l hl a ha)
    sim_go
  · simp only [if_true, el3c_1, el3c_2]
    exact Sim.bind Sim.wrQ fun _ _ => Sim.pure trivial

theorem hgemmdh_220_sim {j : Nat}
    (hA : ∀ l i : Nat, l < K.toNat → i < M.toNat → ∀ a, InQ (A + 4 * (l + i * LDA)) a → ¬ S a)
    (hB : ∀ l : Nat, l < K.toNat → ∀ a, InQ (B + 4 * (j + l * LDB)) a → ¬ S a) :
    Sim (doneM S C LDC M.toNat j 0) (hgemmdh_220_J A ALPHA B BETA true C K LDA LDB LDC M (j+1)) (fun _ => True)
      (doneM S C LDC M.toNat j M.toNat) := by
  unfold hgemmdh_220_J
  refine Sim.bind (sim_colF fun i hi D hD => ?_) fun _ _ => Sim.pure trivial
  unfold hgemmdh_220_I
  refine Sim.bind (Sim.foldN (fun _ => D) (fun _ _ => True) trivial fun l s hl _ => ?_) fun _ _ => ?_
  · unfold hgemmdh_230_L
    simp only [el3c_1, el3c_2]
    have ha : ∀ a, InQ (A + 4 * (l + i * LDA)) a → D a := fun a ha => hD a (hA l i hl hi a ha)
    have hb : ∀ a, InQ (B + 4 * (j + l * LDB)) a → D a := fun a ha => hD a (hB l hl a ha)
    sim_go
  · simp only [if_true, el3c_1, el3c_2]
    exact Sim.bind Sim.wrQ fun _ _ => Sim.pure trivial

theorem hgemmdh_240_sim {j : Nat}
    (hA : ∀ l i : Nat, l < K.toNat → i < M.toNat → ∀ a, InQ (A + 4 * (l + i * LDA)) a → ¬ S a)
    (hB : ∀ l : Nat, l < K.toNat → ∀ a, InQ (B + 4 * (j + l * LDB)) a → ¬ S a) :
    Sim (doneM S C LDC M.toNat j 0) (hgemmdh_240_J A ALPHA B BETA true C K LDA LDB LDC M (j+1)) (fun _ => True)
      (doneM S C LDC M.toNat j M.toNat) := by
  unfold hgemmdh_240_J
  refine Sim.bind (sim_colF fun i hi D hD => ?_) fun _ _ => Sim.pure trivial
  unfold hgemmdh_240_I
  refine Sim.bind (Sim.foldN (fun _ => D) (fun _ _ => True) trivial fun l s hl _ => ?_) fun _ _ => ?_
  · unfold hgemmdh_250_L
    simp only [el3c_1, el3c_2]
    have ha : ∀ a, InQ (A + 4 * (l + i * LDA)) a → D a := fun a ha => hD a (hA l i hl hi a ha)
    have hb : ∀ a, InQ (B + 4 * (j + l * LDB)) a → D a := fun a ha => hD a (hB l hl a ha)
    sim_go
  · simp only [if_true, el3c_1, el3c_2]
    exact Sim.bind Sim.wrQ fun _ _ => Sim.pure trivial

theorem hgemmdh_260_sim {j : Nat}
    (hA : ∀ l i : Nat, l < K.toNat → i < M.toNat → ∀ a, InQ (A + 4 * (l + i * LDA)) a → ¬ S a)
    (hB : ∀ l : Nat, l < K.toNat → ∀ a, InQ (B + 4 * (j + l * LDB)) a → ¬ S a) :
    Sim (doneM S C LDC M.toNat j 0) (hgemmdh_260_J A ALPHA B BETA true C K LDA LDB LDC M (j+1)) (fun _ => True)
      (doneM S C LDC M.toNat j M.toNat) := by
  unfold hgemmdh_260_J
  refine Sim.bind (sim_colF fun i hi D hD => ?_) fun _ _ => Sim.pure trivial
  unfold hgemmdh_260_I
  refine Sim.bind (Sim.foldN (fun _ => D) (fun _ _ => True) trivial fun l s hl _ => ?_) fun _ _ => ?_
  · unfold hgemmdh_270_L
    simp only [el3c_1, el3c_2]
    have ha : ∀ a, InQ (A + 4 * (l + i * LDA)) a → D a := fun a ha => hD a (hA l i hl hi a ha)
    have hb : ∀ a, InQ (B + 4 * (j + l * LDB)) a → D a := fun a ha => hD a (hB l hl a ha)
    sim_go
  · simp only [if_true, el3c_1, el3c_2]
    exact Sim.bind Sim.wrQ fun _ _ => Sim.pure trivial

theorem hgemmdh_280_sim {j : Nat}
    (hA : ∀ l i : Nat, l < K.toNat → i < M.toNat → ∀ a, InQ (A + 4 * (l + i * LDA)) a → ¬ S a)
    (hB : ∀ l : Nat, l < K.toNat → ∀ a, InQ (B + 4 * (j + l * LDB)) a → ¬ S a) :
    Sim (doneM S C LDC M.toNat j 0) (hgemmdh_280_J A ALPHA B BETA true C K LDA LDB LDC M (j+1)) (fun _ => True)
      (doneM S C LDC M.toNat j M.toNat) := by
  unfold hgemmdh_280_J
  refine Sim.bind (sim_colF fun i hi D hD => ?_) fun _ _ => Sim.pure trivial
  unfold hgemmdh_280_I
  refine Sim.bind (Sim.foldN (fun _ => D) (fun _ _ => True) trivial fun l s hl _ => ?_) fun _ _ => ?_
  · unfold hgemmdh_290_L
    simp only [el3c_1, el3c_2]
    have ha : ∀ a, InQ (A + 4 * (l + i * LDA)) a → D a := fun a ha => hD a (hA l i hl hi a ha)
    have hb : ∀ a, InQ (B + 4 * (j + l * LDB)) a → D a := fun a ha => hD a (hB l hl a ha)
    sim_go
  · simp only [if_true, el3c_1, el3c_2]
    exact Sim.bind Sim.wrQ fun _ _ => Sim.pure trivial

/-- With BETA = 0, `hgemmdh` does not depend on the contents of C. -/
theorem hgemmdh_sim {TRANSA TRANSB : Char}
    (hz : ((Cplx.feq (Quat.lo BETA) (⟨zero, zero⟩ : Cplx F)) && (Cplx.feq (Quat.hi BETA) (⟨zero, zero⟩ : Cplx F))) = true)
    (ho : ((Cplx.feq (Quat.lo BETA) (⟨one, zero⟩ : Cplx F)) && (Cplx.feq (Quat.hi BETA) (⟨zero, zero⟩ : Cplx F))) = false)
    (hA : Apart (MatCell A LDA ((FTrans.ofChar TRANSA).rows M.toNat K.toNat) ((FTrans.ofChar TRANSA).rows K.toNat M.toNat)) S)
    (hB : Apart (MatCell B LDB ((FTrans.ofChar TRANSB).rows K.toNat N.toNat) ((FTrans.ofChar TRANSB).rows N.toNat K.toNat)) S)
    (hS : S = MatCell C LDC M.toNat N.toNat) :
    Sim (doneM S C LDC M.toNat 0 0) (hgemmdh TRANSA TRANSB M N K ALPHA A LDA B LDB BETA C LDC) (fun _ => True)
      (doneM S C LDC M.toNat N.toNat 0) := by
  unfold hgemmdh
  simp only [lsame_N, lsame_C, hz, ho, Bool.and_false, Bool.false_eq_true, if_false]
  split
  · rename_i h
    refine (Sim.pure trivial).mono (fun _ h => h) (fun a _ => .inl ?_) (fun _ h => h)
    rw [hS]
    rintro ⟨i, j, hi, hj, _⟩
    simp only [Bool.or_eq_true, decide_eq_true_eq] at h
    omega
  · split
    · refine Sim.bind (P := fun _ => True) ?_ fun _ _ => Sim.pure trivial
      unfold hgemmdh_if64
      rw [if_pos rfl]
      refine Sim.bind (sim_colsF fun j hj => ?_) fun _ _ => Sim.pure trivial
      unfold hgemmdh_10_J
      refine Sim.bind (sim_colF fun i hi D hD => ?_) fun _ _ => Sim.pure trivial
      unfold hgemmdh_10_I
      simp only [el3c_1, el3c_2]
      exact Sim.wrQ
    · refine Sim.bind (P := fun _ => True) ?_ fun _ _ => Sim.pure trivial
      generalize FTrans.ofChar TRANSA = tA at *
      generalize FTrans.ofChar TRANSB = tB at *
      cases tA <;> cases tB
      · unfold hgemmdh_if107 hgemmdh_if108
        simp only [ft_NN, ft_TN, ft_CN, ft_NC, ft_TC, ft_CC, if_true, if_false, Bool.false_eq_true]
        refine Sim.bind (P := fun _ => True) ?_ fun _ _ => Sim.pure trivial
        refine Sim.bind (sim_colsF fun j hj => ?_) fun _ _ => Sim.pure trivial
        exact hgemmdh_30_sim (fun i l hi hl a ha => hA a ⟨i, l, hi, hl, ha⟩) (fun l hl a ha => hB a ⟨l, j, hl, hj, ha⟩)
      · unfold hgemmdh_if107 hgemmdh_if337
        simp only [ft_NN, ft_TN, ft_CN, ft_NC, ft_TC, ft_CC, if_true, if_false, Bool.false_eq_true]
        refine Sim.bind (P := fun _ => True) ?_ fun _ _ => Sim.pure trivial
        refine Sim.bind (sim_colsF fun j hj => ?_) fun _ _ => Sim.pure trivial
        exact hgemmdh_170_sim (fun i l hi hl a ha => hA a ⟨i, l, hi, hl, ha⟩) (fun l hl a ha => hB a ⟨j, l, hj, hl, ha⟩)
      · unfold hgemmdh_if107 hgemmdh_if337
        simp only [ft_NN, ft_TN, ft_CN, ft_NC, ft_TC, ft_CC, if_true, if_false, Bool.false_eq_true]
        refine Sim.bind (P := fun _ => True) ?_ fun _ _ => Sim.pure trivial
        refine Sim.bind (sim_colsF fun j hj => ?_) fun _ _ => Sim.pure trivial
        exact hgemmdh_120_sim (fun i l hi hl a ha => hA a ⟨i, l, hi, hl, ha⟩) (fun l hl a ha => hB a ⟨j, l, hj, hl, ha⟩)
      · unfold hgemmdh_if107 hgemmdh_if108
        simp only [ft_NN, ft_TN, ft_CN, ft_NC, ft_TC, ft_CC, if_true, if_false, Bool.false_eq_true]
        refine Sim.bind (P := fun _ => True) ?_ fun _ _ => Sim.pure trivial
        refine Sim.bind (sim_colsF fun j hj => ?_) fun _ _ => Sim.pure trivial
        exact hgemmdh_100_sim (fun i l hi hl a ha => hA a ⟨i, l, hi, hl, ha⟩) (fun l hl a ha => hB a ⟨l, j, hl, hj, ha⟩)
      · unfold hgemmdh_if107 hgemmdh_if652
        simp only [ft_NN, ft_TN, ft_CN, ft_NC, ft_TC, ft_CC, if_true, if_false, Bool.false_eq_true]
        refine Sim.bind (P := fun _ => True) ?_ fun _ _ => Sim.pure trivial
        refine Sim.bind (sim_colsF fun j hj => ?_) fun _ _ => Sim.pure trivial
        exact hgemmdh_280_sim (fun i l hi hl a ha => hA a ⟨i, l, hi, hl, ha⟩) (fun l hl a ha => hB a ⟨j, l, hj, hl, ha⟩)
      · unfold hgemmdh_if107 hgemmdh_if652
        simp only [ft_NN, ft_TN, ft_CN, ft_NC, ft_TC, ft_CC, if_true, if_false, Bool.false_eq_true]
        refine Sim.bind (P := fun _ => True) ?_ fun _ _ => Sim.pure trivial
        refine Sim.bind (sim_colsF fun j hj => ?_) fun _ _ => Sim.pure trivial
        exact hgemmdh_260_sim (fun i l hi hl a ha => hA a ⟨i, l, hi, hl, ha⟩) (fun l hl a ha => hB a ⟨j, l, hj, hl, ha⟩)
      · unfold hgemmdh_if107 hgemmdh_if108
        simp only [ft_NN, ft_TN, ft_CN, ft_NC, ft_TC, ft_CC, if_true, if_false, Bool.false_eq_true]
        refine Sim.bind (P := fun _ => True) ?_ fun _ _ => Sim.pure trivial
        refine Sim.bind (sim_colsF fun j hj => ?_) fun _ _ => Sim.pure trivial
        exact hgemmdh_80_sim (fun i l hi hl a ha => hA a ⟨i, l, hi, hl, ha⟩) (fun l hl a ha => hB a ⟨l, j, hl, hj, ha⟩)
      · unfold hgemmdh_if107 hgemmdh_if501
        simp only [ft_NN, ft_TN, ft_CN, ft_NC, ft_TC, ft_CC, if_true, if_false, Bool.false_eq_true]
        refine Sim.bind (P := fun _ => True) ?_ fun _ _ => Sim.pure trivial
        refine Sim.bind (sim_colsF fun j hj => ?_) fun _ _ => Sim.pure trivial
        exact hgemmdh_240_sim (fun i l hi hl a ha => hA a ⟨i, l, hi, hl, ha⟩) (fun l hl a ha => hB a ⟨j, l, hj, hl, ha⟩)
      · unfold hgemmdh_if107 hgemmdh_if501
        simp only [ft_NN, ft_TN, ft_CN, ft_NC, ft_TC, ft_CC, if_true, if_false, Bool.false_eq_true]
        refine Sim.bind (P := fun _ => True) ?_ fun _ _ => Sim.pure trivial
        refine Sim.bind (sim_colsF fun j hj => ?_) fun _ _ => Sim.pure trivial
        exact hgemmdh_220_sim (fun i l hi hl a ha => hA a ⟨i, l, hi, hl, ha⟩) (fun l hl a ha => hB a ⟨j, l, hj, hl, ha⟩)

end Haxx
