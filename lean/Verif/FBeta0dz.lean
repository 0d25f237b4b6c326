import Verif.RelF
import Verif.FGemmdz

/-!
# `hgemmdz` with BETA = 0 (written by `tools/gen_beta0_proofs.py`)
-/

set_option linter.unusedSectionVars false
set_option linter.unusedVariables false
set_option linter.unusedSimpArgs false

namespace Haxx
open Arith

variable {F : Type} [Arith F] [ArithEq F] {S : Int → Prop} {M N K : Int} {A LDA B LDB C LDC : Int}
  {ALPHA : F} {BETA : Cplx F} {BONE : Bool}

theorem hgemmdz_30_sim {j : Nat}
    (hA : ∀ i l : Nat, i < M.toNat → l < K.toNat → ∀ a, InQ (A + 4 * (i + l * LDA)) a → ¬ S a)
    (hB : ∀ l : Nat, l < K.toNat → ∀ a, InQ (B + 4 * (l + j * LDB)) a → ¬ S a) :
    Sim (doneM S C LDC M.toNat j 0) (hgemmdz_30_J A ALPHA B BETA BONE true C K LDA LDB LDC M (j+1)) (fun _ => True)
      (doneM S C LDC M.toNat j M.toNat) := by
  unfold hgemmdz_30_J hgemmdz_if106
  refine Sim.bind (E := doneM S C LDC M.toNat j M.toNat) (P := fun _ => True) ?_ fun _ _ => ?_
  · rw [if_pos rfl]
    refine Sim.bind (sim_colF fun i hi D hD => ?_) fun _ _ => Sim.pure trivial
    unfold hgemmdz_40_I
    simp only [el3c_1, el3c_2]
    exact Sim.wrQ
  · refine Sim.bind (Sim.forN (fun _ => doneM S C LDC M.toNat j M.toNat) fun l hl => ?_) fun _ _ => Sim.pure trivial
    unfold hgemmdz_60_L
    simp only [el3c_1, el3c_2]
    have hb : ∀ a, InQ (B + 4 * (l + j * LDB)) a → doneM S C LDC M.toNat j M.toNat a := fun a ha => .inl (hB l hl a ha)
    sim_go
    refine Sim.bind (Sim.forN (fun _ => doneM S C LDC M.toNat j M.toNat) fun i hi => ?_) fun _ _ => Sim.pure trivial
    have ha : ∀ a, InQ (A + 4 * (i + l * LDA)) a → doneM S C LDC M.toNat j M.toNat a := fun a ha => .inl (hA i l hi hl a ha)
    have hc : ∀ a, InQ (C + 4 * (i + j * LDC)) a → doneM S C LDC M.toNat j M.toNat a := fun a ha => .inr (.inr ⟨i, hi, ha⟩)
    unfold hgemmdz_70_I
    simp only [el3c_1, el3c_2]
    sim_go

theorem hgemmdz_120_sim {j : Nat}
    (hA : ∀ i l : Nat, i < M.toNat → l < K.toNat → ∀ a, InQ (A + 4 * (i + l * LDA)) a → ¬ S a)
    (hB : ∀ l : Nat, l < K.toNat → ∀ a, InQ (B + 4 * (j + l * LDB)) a → ¬ S a) :
    Sim (doneM S C LDC M.toNat j 0) (hgemmdz_120_J A ALPHA B BETA BONE true C K LDA LDB LDC M (j+1)) (fun _ => True)
      (doneM S C LDC M.toNat j M.toNat) := by
  unfold hgemmdz_120_J hgemmdz_if316
  refine Sim.bind (E := doneM S C LDC M.toNat j M.toNat) (P := fun _ => True) ?_ fun _ _ => ?_
  · rw [if_pos rfl]
    refine Sim.bind (sim_colF fun i hi D hD => ?_) fun _ _ => Sim.pure trivial
    unfold hgemmdz_130_I
    simp only [el3c_1, el3c_2]
    exact Sim.wrQ
  · refine Sim.bind (Sim.forN (fun _ => doneM S C LDC M.toNat j M.toNat) fun l hl => ?_) fun _ _ => Sim.pure trivial
    unfold hgemmdz_150_L
    simp only [el3c_1, el3c_2]
    have hb : ∀ a, InQ (B + 4 * (j + l * LDB)) a → doneM S C LDC M.toNat j M.toNat a := fun a ha => .inl (hB l hl a ha)
    sim_go
    refine Sim.bind (Sim.forN (fun _ => doneM S C LDC M.toNat j M.toNat) fun i hi => ?_) fun _ _ => Sim.pure trivial
    have ha : ∀ a, InQ (A + 4 * (i + l * LDA)) a → doneM S C LDC M.toNat j M.toNat a := fun a ha => .inl (hA i l hi hl a ha)
    have hc : ∀ a, InQ (C + 4 * (i + j * LDC)) a → doneM S C LDC M.toNat j M.toNat a := fun a ha => .inr (.inr ⟨i, hi, ha⟩)
    unfold hgemmdz_160_I
    simp only [el3c_1, el3c_2]
    sim_go

theorem hgemmdz_170_sim {j : Nat}
    (hA : ∀ i l : Nat, i < M.toNat → l < K.toNat → ∀ a, InQ (A + 4 * (i + l * LDA)) a → ¬ S a)
    (hB : ∀ l : Nat, l < K.toNat → ∀ a, InQ (B + 4 * (j + l * LDB)) a → ¬ S a) :
    Sim (doneM S C LDC M.toNat j 0) (hgemmdz_170_J A ALPHA B BETA BONE true C K LDA LDB LDC M (j+1)) (fun _ => True)
      (doneM S C LDC M.toNat j M.toNat) := by
  unfold hgemmdz_170_J hgemmdz_if393
  refine Sim.bind (E := doneM S C LDC M.toNat j M.toNat) (P := fun _ => True) ?_ fun _ _ => ?_
  · rw [if_pos rfl]
    refine Sim.bind (sim_colF fun i hi D hD => ?_) fun _ _ => Sim.pure trivial
    unfold hgemmdz_180_I
    simp only [el3c_1, el3c_2]
    exact Sim.wrQ
  · refine Sim.bind (Sim.forN (fun _ => doneM S C LDC M.toNat j M.toNat) fun l hl => ?_) fun _ _ => Sim.pure trivial
    unfold hgemmdz_200_L
    simp only [el3c_1, el3c_2]
    have hb : ∀ a, InQ (B + 4 * (j + l * LDB)) a → doneM S C LDC M.toNat j M.toNat a := fun a ha => .inl (hB l hl a ha)
    sim_go
    refine Sim.bind (Sim.forN (fun _ => doneM S C LDC M.toNat j M.toNat) fun i hi => ?_) fun _ _ => Sim.pure trivial
    have ha : ∀ a, InQ (A + 4 * (i + l * LDA)) a → doneM S C LDC M.toNat j M.toNat a := fun a ha => .inl (hA i l hi hl a ha)
    have hc : ∀ a, InQ (C + 4 * (i + j * LDC)) a → doneM S C LDC M.toNat j M.toNat a := fun a ha => .inr (.inr ⟨i, hi, ha⟩)
    unfold hgemmdz_210_I
    simp only [el3c_1, el3c_2]
    sim_go

theorem hgemmdz_80_sim {j : Nat}
    (hA : ∀ l i : Nat, l < K.toNat → i < M.toNat → ∀ a, InQ (A + 4 * (l + i * LDA)) a → ¬ S a)
    (hB : ∀ l : Nat, l < K.toNat → ∀ a, InQ (B + 4 * (l + j * LDB)) a → ¬ S a) :
    Sim (doneM S C LDC M.toNat j 0) (hgemmdz_80_J A ALPHA B BETA true C K LDA LDB LDC M (j+1)) (fun _ => True)
      (doneM S C LDC M.toNat j M.toNat) := by
  unfold hgemmdz_80_J
  refine Sim.bind (sim_colF fun i hi D hD => ?_) fun _ _ => Sim.pure trivial
  unfold hgemmdz_80_I
  refine Sim.bind (Sim.foldN (fun _ => D) (fun _ _ => True) trivial fun l s hl _ => ?_) fun _ _ => ?_
  · unfold hgemmdz_90_L
    simp only [el3c_1, el3c_2]
    have ha : ∀ a, InQ (A + 4 * (l + i * LDA)) a → D a := fun a ha => hD a (hA l i hl hi a ha)
    have hb : ∀ a, InQ (B + 4 * (l + j * LDB)) a → D a := fun a ha => hD a (hB l hl a ha)
    sim_go
  · simp only [if_true, el3c_1, el3c_2]
    exact Sim.bind Sim.wrQ fun _ _ => Sim.pure trivial

theorem hgemmdz_100_sim {j : Nat}
    (hA : ∀ l i : Nat, l < K.toNat → i < M.toNat → ∀ a, InQ (A + 4 * (l + i * LDA)) a → ¬ S a)
    (hB : ∀ l : Nat, l < K.toNat → ∀ a, InQ (B + 4 * (l + j * LDB)) a → ¬ S a) :
    Sim (doneM S C LDC M.toNat j 0) (hgemmdz_100_J A ALPHA B BETA true C K LDA LDB LDC M (j+1)) (fun _ => True)
      (doneM S C LDC M.toNat j M.toNat) := by
  unfold hgemmdz_100_J
  refine Sim.bind (sim_colF fun i hi D hD => ?_) fun _ _ => Sim.pure trivial
  unfold hgemmdz_100_I
  refine Sim.bind (Sim.foldN (fun _ => D) (fun _ _ => True) trivial fun l s hl _ => ?_) fun _ _ => ?_
  · unfold hgemmdz_110_L
    simp only [el3c_1, el3c_2]
    have ha : ∀ a, InQ (A + 4 * (l + i * LDA)) a → D a := fun a ha => hD a (hA l i hl hi a ha)
    have hb : ∀ a, InQ (B + 4 * (l + j * LDB)) a → D a := fun a ha => hD a (hB l hl a ha)
    sim_go
  · simp only [if_true, el3c_1, el3c_2]
    exact Sim.bind Sim.wrQ fun _ _ => Sim.pure trivial

theorem hgemmdz_220_sim {j : Nat}
    (hA : ∀ l i : Nat, l < K.toNat → i < M.toNat → ∀ a, InQ (A + 4 * (l + i * LDA)) a → ¬ S a)
    (hB : ∀ l : Nat, l < K.toNat → ∀ a, InQ (B + 4 * (j + l * LDB)) a → ¬ S a) :
    Sim (doneM S C LDC M.toNat j 0) (hgemmdz_220_J A ALPHA B BETA true C K LDA LDB LDC M (j+1)) (fun _ => True)
      (doneM S C LDC M.toNat j M.toNat) := by
  unfold hgemmdz_220_J
  refine Sim.bind (sim_colF fun i hi D hD => ?_) fun _ _ => Sim.pure trivial
  unfold hgemmdz_220_I
  refine Sim.bind (Sim.foldN (fun _ => D) (fun _ _ => True) trivial fun l s hl _ => ?_) fun _ _ => ?_
  · unfold hgemmdz_230_L
    simp only [el3c_1, el3c_2]
    have ha : ∀ a, InQ (A + 4 * (l + i * LDA)) a → D a := fun a ha => hD a (hA l i hl hi a ha)
    have hb : ∀ a, InQ (B + 4 * (j + l * LDB)) a → D a := fun a ha => hD a (hB l hl a ha)
    sim_go
  · simp only [if_true, el3c_1, el3c_2]
    exact Sim.bind Sim.wrQ fun _ _ => Sim.pure trivial

theorem hgemmdz_240_sim {j : Nat}
    (hA : ∀ l i : Nat, l < K.toNat → i < M.toNat → ∀ a, InQ (A + 4 * (l + i * LDA)) a → ¬ S a)
    (hB : ∀ l : Nat, l < K.toNat → ∀ a, InQ (B + 4 * (j + l * LDB)) a → ¬ S a) :
    Sim (doneM S C LDC M.toNat j 0) (hgemmdz_240_J A ALPHA B BETA true C K LDA LDB LDC M (j+1)) (fun _ => True)
      (doneM S C LDC M.toNat j M.toNat) := by
  unfold hgemmdz_240_J
  refine Sim.bind (sim_colF fun i hi D hD => ?_) fun _ _ => Sim.pure trivial
  unfold hgemmdz_240_I
  refine Sim.bind (Sim.foldN (fun _ => D) (fun _ _ => True) trivial fun l s hl _ => ?_) fun _ _ => ?_
  · unfold hgemmdz_250_L
    simp only [el3c_1, el3c_2]
    have ha : ∀ a, InQ (A + 4 * (l + i * LDA)) a → D a := fun a ha => hD a (hA l i hl hi a ha)
    have hb : ∀ a, InQ (B + 4 * (j + l * LDB)) a → D a := fun a ha => hD a (hB l hl a ha)
    sim_go
  · simp only [if_true, el3c_1, el3c_2]
    exact Sim.bind Sim.wrQ fun _ _ => Sim.pure trivial

theorem hgemmdz_260_sim {j : Nat}
    (hA : ∀ l i : Nat, l < K.toNat → i < M.toNat → ∀ a, InQ (A + 4 * (l + i * LDA)) a → ¬ S a)
    (hB : ∀ l : Nat, l < K.toNat → ∀ a, InQ (B + 4 * (j + l * LDB)) a → ¬ S a) :
    Sim (doneM S C LDC M.toNat j 0) (hgemmdz_260_J A ALPHA B BETA true C K LDA LDB LDC M (j+1)) (fun _ => True)
      (doneM S C LDC M.toNat j M.toNat) := by
  unfold hgemmdz_260_J
  refine Sim.bind (sim_colF fun i hi D hD => ?_) fun _ _ => Sim.pure trivial
  unfold hgemmdz_260_I
  refine Sim.bind (Sim.foldN (fun _ => D) (fun _ _ => True) trivial fun l s hl _ => ?_) fun _ _ => ?_
  · unfold hgemmdz_270_L
    simp only [el3c_1, el3c_2]
    have ha : ∀ a, InQ (A + 4 * (l + i * LDA)) a → D a := fun a ha => hD a (hA l i hl hi a ha)
    have hb : ∀ a, InQ (B + 4 * (j + l * LDB)) a → D a := fun a ha => hD a (hB l hl a ha)
    sim_go
  · simp only [if_true, el3c_1, el3c_2]
    exact Sim.bind Sim.wrQ fun _ _ => Sim.pure trivial

theorem hgemmdz_280_sim {j : Nat}
    (hA : ∀ l i : Nat, l < K.toNat → i < M.toNat → ∀ a, InQ (A + 4 * (l + i * LDA)) a → ¬ S a)
    (hB : ∀ l : Nat, l < K.toNat → ∀ a, InQ (B + 4 * (j + l * LDB)) a → ¬ S a) :
    Sim (doneM S C LDC M.toNat j 0) (hgemmdz_280_J A ALPHA B BETA true C K LDA LDB LDC M (j+1)) (fun _ => True)
      (doneM S C LDC M.toNat j M.toNat) := by
  unfold hgemmdz_280_J
  refine Sim.bind (sim_colF fun i hi D hD => ?_) fun _ _ => Sim.pure trivial
  unfold hgemmdz_280_I
  refine Sim.bind (Sim.foldN (fun _ => D) (fun _ _ => True) trivial fun l s hl _ => ?_) fun _ _ => ?_
  · unfold hgemmdz_290_L
    simp only [el3c_1, el3c_2]
    have ha : ∀ a, InQ (A + 4 * (l + i * LDA)) a → D a := fun a ha => hD a (hA l i hl hi a ha)
    have hb : ∀ a, InQ (B + 4 * (j + l * LDB)) a → D a := fun a ha => hD a (hB l hl a ha)
    sim_go
  · simp only [if_true, el3c_1, el3c_2]
    exact Sim.bind Sim.wrQ fun _ _ => Sim.pure trivial

/-- With BETA = 0, `hgemmdz` does not depend on the contents of C. -/
theorem hgemmdz_sim {TRANSA TRANSB : Char}
    (hz : (Cplx.feq BETA (⟨zero, zero⟩ : Cplx F)) = true)
    (ho : (Cplx.feq BETA (⟨one, zero⟩ : Cplx F)) = false)
    (hA : Apart (MatCell A LDA ((FTrans.ofChar TRANSA).rows M.toNat K.toNat) ((FTrans.ofChar TRANSA).rows K.toNat M.toNat)) S)
    (hB : Apart (MatCell B LDB ((FTrans.ofChar TRANSB).rows K.toNat N.toNat) ((FTrans.ofChar TRANSB).rows N.toNat K.toNat)) S)
    (hS : S = MatCell C LDC M.toNat N.toNat) :
    Sim (doneM S C LDC M.toNat 0 0) (hgemmdz TRANSA TRANSB M N K ALPHA A LDA B LDB BETA C LDC) (fun _ => True)
      (doneM S C LDC M.toNat N.toNat 0) := by
  unfold hgemmdz
  simp only [lsame_N, lsame_C, hz, ho, Bool.and_false, Bool.false_eq_true, if_false]
  split
  · rename_i h
    refine (Sim.pure trivial).mono (fun _ h => h) (fun a _ => .inl ?_) (fun _ h => h)
    rw [hS]
    rintro ⟨i, j, hi, hj, _⟩
    simp only [Bool.or_eq_true, decide_eq_true_eq] at h
    omega
  · split
    · refine Sim.bind (P := fun _ => True) ?_ fun _ _ => Sim.pure trivial
      unfold hgemmdz_if62
      rw [if_pos rfl]
      refine Sim.bind (sim_colsF fun j hj => ?_) fun _ _ => Sim.pure trivial
      unfold hgemmdz_10_J
      refine Sim.bind (sim_colF fun i hi D hD => ?_) fun _ _ => Sim.pure trivial
      unfold hgemmdz_10_I
      simp only [el3c_1, el3c_2]
      exact Sim.wrQ
    · refine Sim.bind (P := fun _ => True) ?_ fun _ _ => Sim.pure trivial
      generalize FTrans.ofChar TRANSA = tA at *
      generalize FTrans.ofChar TRANSB = tB at *
      cases tA <;> cases tB
      · unfold hgemmdz_if100 hgemmdz_if101
        simp only [ft_NN, ft_TN, ft_CN, ft_NC, ft_TC, ft_CC, if_true, if_false, Bool.false_eq_true]
        refine Sim.bind (P := fun _ => True) ?_ fun _ _ => Sim.pure trivial
        refine Sim.bind (sim_colsF fun j hj => ?_) fun _ _ => Sim.pure trivial
        exact hgemmdz_30_sim (fun i l hi hl a ha => hA a ⟨i, l, hi, hl, ha⟩) (fun l hl a ha => hB a ⟨l, j, hl, hj, ha⟩)
      · unfold hgemmdz_if100 hgemmdz_if311
        simp only [ft_NN, ft_TN, ft_CN, ft_NC, ft_TC, ft_CC, if_true, if_false, Bool.false_eq_true]
        refine Sim.bind (P := fun _ => True) ?_ fun _ _ => Sim.pure trivial
        refine Sim.bind (sim_colsF fun j hj => ?_) fun _ _ => Sim.pure trivial
        exact hgemmdz_170_sim (fun i l hi hl a ha => hA a ⟨i, l, hi, hl, ha⟩) (fun l hl a ha => hB a ⟨j, l, hj, hl, ha⟩)
      · unfold hgemmdz_if100 hgemmdz_if311
        simp only [ft_NN, ft_TN, ft_CN, ft_NC, ft_TC, ft_CC, if_true, if_false, Bool.false_eq_true]
        refine Sim.bind (P := fun _ => True) ?_ fun _ _ => Sim.pure trivial
        refine Sim.bind (sim_colsF fun j hj => ?_) fun _ _ => Sim.pure trivial
        exact hgemmdz_120_sim (fun i l hi hl a ha => hA a ⟨i, l, hi, hl, ha⟩) (fun l hl a ha => hB a ⟨j, l, hj, hl, ha⟩)
      · unfold hgemmdz_if100 hgemmdz_if101
        simp only [ft_NN, ft_TN, ft_CN, ft_NC, ft_TC, ft_CC, if_true, if_false, Bool.false_eq_true]
        refine Sim.bind (P := fun _ => True) ?_ fun _ _ => Sim.pure trivial
        refine Sim.bind (sim_colsF fun j hj => ?_) fun _ _ => Sim.pure trivial
        exact hgemmdz_100_sim (fun i l hi hl a ha => hA a ⟨i, l, hi, hl, ha⟩) (fun l hl a ha => hB a ⟨l, j, hl, hj, ha⟩)
      · unfold hgemmdz_if100 hgemmdz_if602
        simp only [ft_NN, ft_TN, ft_CN, ft_NC, ft_TC, ft_CC, if_true, if_false, Bool.false_eq_true]
        refine Sim.bind (P := fun _ => True) ?_ fun _ _ => Sim.pure trivial
        refine Sim.bind (sim_colsF fun j hj => ?_) fun _ _ => Sim.pure trivial
        exact hgemmdz_280_sim (fun i l hi hl a ha => hA a ⟨i, l, hi, hl, ha⟩) (fun l hl a ha => hB a ⟨j, l, hj, hl, ha⟩)
      · unfold hgemmdz_if100 hgemmdz_if602
        simp only [ft_NN, ft_TN, ft_CN, ft_NC, ft_TC, ft_CC, if_true, if_false, Bool.false_eq_true]
        refine Sim.bind (P := fun _ => True) ?_ fun _ _ => Sim.pure trivial
        refine Sim.bind (sim_colsF fun j hj => ?_) fun _ _ => Sim.pure trivial
        exact hgemmdz_260_sim (fun i l hi hl a ha => hA a ⟨i, l, hi, hl, ha⟩) (fun l hl a ha => hB a ⟨j, l, hj, hl, ha⟩)
      · unfold hgemmdz_if100 hgemmdz_if101
        simp only [ft_NN, ft_TN, ft_CN, ft_NC, ft_TC, ft_CC, if_true, if_false, Bool.false_eq_true]
        refine Sim.bind (P := fun _ => True) ?_ fun _ _ => Sim.pure trivial
        refine Sim.bind (sim_colsF fun j hj => ?_) fun _ _ => Sim.pure trivial
        exact hgemmdz_80_sim (fun i l hi hl a ha => hA a ⟨i, l, hi, hl, ha⟩) (fun l hl a ha => hB a ⟨l, j, hl, hj, ha⟩)
      · unfold hgemmdz_if100 hgemmdz_if465
        simp only [ft_NN, ft_TN, ft_CN, ft_NC, ft_TC, ft_CC, if_true, if_false, Bool.false_eq_true]
        refine Sim.bind (P := fun _ => True) ?_ fun _ _ => Sim.pure trivial
        refine Sim.bind (sim_colsF fun j hj => ?_) fun _ _ => Sim.pure trivial
        exact hgemmdz_240_sim (fun i l hi hl a ha => hA a ⟨i, l, hi, hl, ha⟩) (fun l hl a ha => hB a ⟨j, l, hj, hl, ha⟩)
      · unfold hgemmdz_if100 hgemmdz_if465
        simp only [ft_NN, ft_TN, ft_CN, ft_NC, ft_TC, ft_CC, if_true, if_false, Bool.false_eq_true]
        refine Sim.bind (P := fun _ => True) ?_ fun _ _ => Sim.pure trivial
        refine Sim.bind (sim_colsF fun j hj => ?_) fun _ _ => Sim.pure trivial
        exact hgemmdz_220_sim (fun i l hi hl a ha => hA a ⟨i, l, hi, hl, ha⟩) (fun l hl a ha => hB a ⟨j, l, hj, hl, ha⟩)

end Haxx
