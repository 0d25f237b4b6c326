import Verif.RelF
import Verif.FGemvdd
import Verif.FGemvdz
import Verif.FGemvdh
import Verif.FGemvzd
import Verif.FGemvzz
import Verif.FGemvzh
import Verif.FGemvhd
import Verif.FGemvhz
import Verif.FGemvhh

/-!
# The Fortran GEMV with BETA = 0 (written by `tools/gen_beta0_proofs.py`)
-/

set_option linter.unusedVariables false
set_option linter.unusedSimpArgs false

namespace Haxx
open Arith

/-- With BETA = 0, `hgemvdd` does not depend on the contents of the vector it takes y to be. -/
theorem hgemvdd_sim {F : Type} [Arith F] [ArithEq F] {M N : Int} {A LDA X INCX Y INCY : Int} {ALPHA : F} {BETA : F} {TRANS : Char}
    {LEN : Int} {S : Int → Prop} (hM : M ≠ 0) (hN : N ≠ 0)
    (hL : LEN = if lsame 'N' TRANS then M else N)
    (hz : (Cplx.feq (Cplx.ofReal BETA) (⟨zero, zero⟩ : Cplx F)) = true)
    (ho : (Cplx.feq (Cplx.ofReal BETA) (⟨one, zero⟩ : Cplx F)) = false)
    (hS : ∀ a, S a → VecCell (if INCY > 0 then Y else Y - 4 * ((LEN - 1) * INCY)) INCY LEN.toNat a) :
    Sim (fun a => ¬ S a) (hgemvdd TRANS M N ALPHA A LDA X INCX BETA Y INCY) (fun _ => True) (fun _ => True) := by
  have hmn : (decide (M = 0) || decide (N = 0)) = false := by simp [hM, hN]
  unfold hgemvdd
  simp only [hz, ho, hmn, Bool.and_false, Bool.or_false, Bool.false_eq_true, if_false]
  refine Sim.bind (P := fun r => r.2 = LEN) (E := fun a => ¬ S a) ?_ fun r hr => ?_
  · rw [hL]
    split
    · exact Sim.pure rfl
    · exact Sim.pure rfl
  refine Sim.bind (P := fun _ => True) (E := fun a => ¬ S a) ?_ fun KX _ => ?_
  · split
    · exact Sim.pure trivial
    · exact Sim.pure trivial
  refine Sim.bind (P := fun KY => Y + 4 * (KY - 1) = if INCY > 0 then Y else Y - 4 * ((LEN - 1) * INCY)) (E := fun a => ¬ S a) ?_ fun KY hKY => ?_
  · simp only [decide_eq_true_eq]
    split
    · exact Sim.pure (by ring)
    · exact Sim.pure (by rw [hr]; ring)
  refine Sim.bind (P := fun _ => True) (E := fun _ => True) ?_ fun _ _ => Sim.all
  unfold hgemvdd_if56 hgemvdd_if57 hgemvdd_if58 hgemvdd_if71
  simp only [Bool.not_false, if_true, decide_eq_true_eq]
  refine Sim.bind (P := fun _ => True) (E := fun _ => True) ?_ fun _ _ => Sim.all
  rw [hr]
  split
  · rename_i e
    subst e
    refine Sim.bind (P := fun _ => True) (E := fun _ => True) ?_ fun _ _ => Sim.all
    refine Sim.bind (P := fun _ => True) (E := fun _ => True) ?_ fun _ _ => Sim.all
    refine (sim_vec1 (Y := Y) fun i D => ?_).mono (fun _ h => h) (fun a _ => ?_) (fun _ h => h)
    · unfold hgemvdd_10_I
      simp only [el2c_1, el2c_2]
      exact Sim.wrQ
    · by_cases ha : S a
      · have := hS a ha
        rw [if_pos (by decide)] at this
        exact .inr this
      · exact .inl ha
  · refine Sim.bind (P := fun _ => True) (E := fun _ => True) ?_ fun _ _ => Sim.all
    refine Sim.bind (P := fun _ => True) (E := fun _ => True) ?_ fun _ _ => Sim.all
    refine (sim_vecI (INC := INCY) (Y := Y) fun i iy D => ?_).mono (fun _ h => h) (fun a _ => ?_) (fun _ h => h)
    · unfold hgemvdd_30_I
      simp only [el2c_1, el2c_2]
      exact Sim.wrQP rfl
    · by_cases ha : S a
      · have := hS a ha
        rw [← hKY] at this
        exact .inr this
      · exact .inl ha

/-- With BETA = 0, `hgemvdz` does not depend on the contents of the vector it takes y to be. -/
theorem hgemvdz_sim {F : Type} [Arith F] [ArithEq F] {M N : Int} {A LDA X INCX Y INCY : Int} {ALPHA : F} {BETA : Cplx F} {TRANS : Char}
    {LEN : Int} {S : Int → Prop} (hM : M ≠ 0) (hN : N ≠ 0)
    (hL : LEN = if lsame 'T' TRANS then M else N)
    (hz : (Cplx.feq BETA (⟨zero, zero⟩ : Cplx F)) = true)
    (ho : (Cplx.feq BETA (⟨one, zero⟩ : Cplx F)) = false)
    (hS : ∀ a, S a → VecCell (if INCY > 0 then Y else Y - 4 * ((LEN - 1) * INCY)) INCY LEN.toNat a) :
    Sim (fun a => ¬ S a) (hgemvdz TRANS M N ALPHA A LDA X INCX BETA Y INCY) (fun _ => True) (fun _ => True) := by
  have hmn : (decide (M = 0) || decide (N = 0)) = false := by simp [hM, hN]
  unfold hgemvdz
  simp only [hz, ho, hmn, Bool.and_false, Bool.or_false, Bool.false_eq_true, if_false]
  refine Sim.bind (P := fun r => r.2 = LEN) (E := fun a => ¬ S a) ?_ fun r hr => ?_
  · rw [hL]
    split
    · exact Sim.pure rfl
    · exact Sim.pure rfl
  refine Sim.bind (P := fun _ => True) (E := fun a => ¬ S a) ?_ fun KX _ => ?_
  · split
    · exact Sim.pure trivial
    · exact Sim.pure trivial
  refine Sim.bind (P := fun KY => Y + 4 * (KY - 1) = if INCY > 0 then Y else Y - 4 * ((LEN - 1) * INCY)) (E := fun a => ¬ S a) ?_ fun KY hKY => ?_
  · simp only [decide_eq_true_eq]
    split
    · exact Sim.pure (by ring)
    · exact Sim.pure (by rw [hr]; ring)
  refine Sim.bind (P := fun _ => True) (E := fun _ => True) ?_ fun _ _ => Sim.all
  unfold hgemvdz_if56 hgemvdz_if57 hgemvdz_if58 hgemvdz_if71
  simp only [Bool.not_false, if_true, decide_eq_true_eq]
  refine Sim.bind (P := fun _ => True) (E := fun _ => True) ?_ fun _ _ => Sim.all
  rw [hr]
  split
  · rename_i e
    subst e
    refine Sim.bind (P := fun _ => True) (E := fun _ => True) ?_ fun _ _ => Sim.all
    refine Sim.bind (P := fun _ => True) (E := fun _ => True) ?_ fun _ _ => Sim.all
    refine (sim_vec1 (Y := Y) fun i D => ?_).mono (fun _ h => h) (fun a _ => ?_) (fun _ h => h)
    · unfold hgemvdz_10_I
      simp only [el2c_1, el2c_2]
      exact Sim.wrQ
    · by_cases ha : S a
      · have := hS a ha
        rw [if_pos (by decide)] at this
        exact .inr this
      · exact .inl ha
  · refine Sim.bind (P := fun _ => True) (E := fun _ => True) ?_ fun _ _ => Sim.all
    refine Sim.bind (P := fun _ => True) (E := fun _ => True) ?_ fun _ _ => Sim.all
    refine (sim_vecI (INC := INCY) (Y := Y) fun i iy D => ?_).mono (fun _ h => h) (fun a _ => ?_) (fun _ h => h)
    · unfold hgemvdz_30_I
      simp only [el2c_1, el2c_2]
      exact Sim.wrQP rfl
    · by_cases ha : S a
      · have := hS a ha
        rw [← hKY] at this
        exact .inr this
      · exact .inl ha

/-- With BETA = 0, `hgemvdh` does not depend on the contents of the vector it takes y to be. -/
theorem hgemvdh_sim {F : Type} [Arith F] [ArithEq F] {M N : Int} {A LDA X INCX Y INCY : Int} {ALPHA : F} {BETA : Quat F} {TRANS : Char}
    {LEN : Int} {S : Int → Prop} (hM : M ≠ 0) (hN : N ≠ 0)
    (hL : LEN = if lsame 'T' TRANS then M else N)
    (hz : ((Cplx.feq (Quat.lo BETA) (⟨zero, zero⟩ : Cplx F)) && (Cplx.feq (Quat.hi BETA) (⟨zero, zero⟩ : Cplx F))) = true)
    (ho : ((Cplx.feq (Quat.lo BETA) (⟨one, zero⟩ : Cplx F)) && (Cplx.feq (Quat.hi BETA) (⟨zero, zero⟩ : Cplx F))) = false)
    (hS : ∀ a, S a → VecCell (if INCY > 0 then Y else Y - 4 * ((LEN - 1) * INCY)) INCY LEN.toNat a) :
    Sim (fun a => ¬ S a) (hgemvdh TRANS M N ALPHA A LDA X INCX BETA Y INCY) (fun _ => True) (fun _ => True) := by
  have hmn : (decide (M = 0) || decide (N = 0)) = false := by simp [hM, hN]
  unfold hgemvdh
  simp only [hz, ho, hmn, Bool.and_false, Bool.or_false, Bool.false_eq_true, if_false]
  refine Sim.bind (P := fun r => r.2 = LEN) (E := fun a => ¬ S a) ?_ fun r hr => ?_
  · rw [hL]
    split
    · exact Sim.pure rfl
    · exact Sim.pure rfl
  refine Sim.bind (P := fun _ => True) (E := fun a => ¬ S a) ?_ fun KX _ => ?_
  · split
    · exact Sim.pure trivial
    · exact Sim.pure trivial
  refine Sim.bind (P := fun KY => Y + 4 * (KY - 1) = if INCY > 0 then Y else Y - 4 * ((LEN - 1) * INCY)) (E := fun a => ¬ S a) ?_ fun KY hKY => ?_
  · simp only [decide_eq_true_eq]
    split
    · exact Sim.pure (by ring)
    · exact Sim.pure (by rw [hr]; ring)
  refine Sim.bind (P := fun _ => True) (E := fun _ => True) ?_ fun _ _ => Sim.all
  unfold hgemvdh_if57 hgemvdh_if58 hgemvdh_if59 hgemvdh_if73
  simp only [Bool.not_false, if_true, decide_eq_true_eq]
  refine Sim.bind (P := fun _ => True) (E := fun _ => True) ?_ fun _ _ => Sim.all
  rw [hr]
  split
  · rename_i e
    subst e
    refine Sim.bind (P := fun _ => True) (E := fun _ => True) ?_ fun _ _ => Sim.all
    refine Sim.bind (P := fun _ => True) (E := fun _ => True) ?_ fun _ _ => Sim.all
    refine (sim_vec1 (Y := Y) fun i D => ?_).mono (fun _ h => h) (fun a _ => ?_) (fun _ h => h)
    · unfold hgemvdh_10_I
      simp only [el2c_1, el2c_2]
      exact Sim.wrQ
    · by_cases ha : S a
      · have := hS a ha
        rw [if_pos (by decide)] at this
        exact .inr this
      · exact .inl ha
  · refine Sim.bind (P := fun _ => True) (E := fun _ => True) ?_ fun _ _ => Sim.all
    refine Sim.bind (P := fun _ => True) (E := fun _ => True) ?_ fun _ _ => Sim.all
    refine (sim_vecI (INC := INCY) (Y := Y) fun i iy D => ?_).mono (fun _ h => h) (fun a _ => ?_) (fun _ h => h)
    · unfold hgemvdh_30_I
      simp only [el2c_1, el2c_2]
      exact Sim.wrQP rfl
    · by_cases ha : S a
      · have := hS a ha
        rw [← hKY] at this
        exact .inr this
      · exact .inl ha

/-- With BETA = 0, `hgemvzd` does not depend on the contents of the vector it takes y to be. -/
theorem hgemvzd_sim {F : Type} [Arith F] [ArithEq F] {M N : Int} {A LDA X INCX Y INCY : Int} {ALPHA : Cplx F} {BETA : F} {TRANS : Char}
    {LEN : Int} {S : Int → Prop} (hM : M ≠ 0) (hN : N ≠ 0)
    (hL : LEN = if lsame 'T' TRANS then M else N)
    (hz : (Cplx.feq (Cplx.ofReal BETA) (⟨zero, zero⟩ : Cplx F)) = true)
    (ho : (Cplx.feq (Cplx.ofReal BETA) (⟨one, zero⟩ : Cplx F)) = false)
    (hS : ∀ a, S a → VecCell (if INCY > 0 then Y else Y - 4 * ((LEN - 1) * INCY)) INCY LEN.toNat a) :
    Sim (fun a => ¬ S a) (hgemvzd TRANS M N ALPHA A LDA X INCX BETA Y INCY) (fun _ => True) (fun _ => True) := by
  have hmn : (decide (M = 0) || decide (N = 0)) = false := by simp [hM, hN]
  unfold hgemvzd
  simp only [hz, ho, hmn, Bool.and_false, Bool.or_false, Bool.false_eq_true, if_false]
  refine Sim.bind (P := fun r => r.2 = LEN) (E := fun a => ¬ S a) ?_ fun r hr => ?_
  · rw [hL]
    split
    · exact Sim.pure rfl
    · exact Sim.pure rfl
  refine Sim.bind (P := fun _ => True) (E := fun a => ¬ S a) ?_ fun KX _ => ?_
  · split
    · exact Sim.pure trivial
    · exact Sim.pure trivial
  refine Sim.bind (P := fun KY => Y + 4 * (KY - 1) = if INCY > 0 then Y else Y - 4 * ((LEN - 1) * INCY)) (E := fun a => ¬ S a) ?_ fun KY hKY => ?_
  · simp only [decide_eq_true_eq]
    split
    · exact Sim.pure (by ring)
    · exact Sim.pure (by rw [hr]; ring)
  refine Sim.bind (P := fun _ => True) (E := fun _ => True) ?_ fun _ _ => Sim.all
  unfold hgemvzd_if57 hgemvzd_if58 hgemvzd_if59 hgemvzd_if72
  simp only [Bool.not_false, if_true, decide_eq_true_eq]
  refine Sim.bind (P := fun _ => True) (E := fun _ => True) ?_ fun _ _ => Sim.all
  rw [hr]
  split
  · rename_i e
    subst e
    refine Sim.bind (P := fun _ => True) (E := fun _ => True) ?_ fun _ _ => Sim.all
    refine Sim.bind (P := fun _ => True) (E := fun _ => True) ?_ fun _ _ => Sim.all
    refine (sim_vec1 (Y := Y) fun i D => ?_).mono (fun _ h => h) (fun a _ => ?_) (fun _ h => h)
    · unfold hgemvzd_10_I
      simp only [el2c_1, el2c_2]
      exact Sim.wrQ
    · by_cases ha : S a
      · have := hS a ha
        rw [if_pos (by decide)] at this
        exact .inr this
      · exact .inl ha
  · refine Sim.bind (P := fun _ => True) (E := fun _ => True) ?_ fun _ _ => Sim.all
    refine Sim.bind (P := fun _ => True) (E := fun _ => True) ?_ fun _ _ => Sim.all
    refine (sim_vecI (INC := INCY) (Y := Y) fun i iy D => ?_).mono (fun _ h => h) (fun a _ => ?_) (fun _ h => h)
    · unfold hgemvzd_30_I
      simp only [el2c_1, el2c_2]
      exact Sim.wrQP rfl
    · by_cases ha : S a
      · have := hS a ha
        rw [← hKY] at this
        exact .inr this
      · exact .inl ha

/-- With BETA = 0, `hgemvzz` does not depend on the contents of the vector it takes y to be. -/
theorem hgemvzz_sim {F : Type} [Arith F] [ArithEq F] {M N : Int} {A LDA X INCX Y INCY : Int} {ALPHA : Cplx F} {BETA : Cplx F} {TRANS : Char}
    {LEN : Int} {S : Int → Prop} (hM : M ≠ 0) (hN : N ≠ 0)
    (hL : LEN = if lsame 'T' TRANS then M else N)
    (hz : (Cplx.feq BETA (⟨zero, zero⟩ : Cplx F)) = true)
    (ho : (Cplx.feq BETA (⟨one, zero⟩ : Cplx F)) = false)
    (hS : ∀ a, S a → VecCell (if INCY > 0 then Y else Y - 4 * ((LEN - 1) * INCY)) INCY LEN.toNat a) :
    Sim (fun a => ¬ S a) (hgemvzz TRANS M N ALPHA A LDA X INCX BETA Y INCY) (fun _ => True) (fun _ => True) := by
  have hmn : (decide (M = 0) || decide (N = 0)) = false := by simp [hM, hN]
  unfold hgemvzz
  simp only [hz, ho, hmn, Bool.and_false, Bool.or_false, Bool.false_eq_true, if_false]
  refine Sim.bind (P := fun r => r.2 = LEN) (E := fun a => ¬ S a) ?_ fun r hr => ?_
  · rw [hL]
    split
    · exact Sim.pure rfl
    · exact Sim.pure rfl
  refine Sim.bind (P := fun _ => True) (E := fun a => ¬ S a) ?_ fun KX _ => ?_
  · split
    · exact Sim.pure trivial
    · exact Sim.pure trivial
  refine Sim.bind (P := fun KY => Y + 4 * (KY - 1) = if INCY > 0 then Y else Y - 4 * ((LEN - 1) * INCY)) (E := fun a => ¬ S a) ?_ fun KY hKY => ?_
  · simp only [decide_eq_true_eq]
    split
    · exact Sim.pure (by ring)
    · exact Sim.pure (by rw [hr]; ring)
  refine Sim.bind (P := fun _ => True) (E := fun _ => True) ?_ fun _ _ => Sim.all
  unfold hgemvzz_if56 hgemvzz_if57 hgemvzz_if58 hgemvzz_if71
  simp only [Bool.not_false, if_true, decide_eq_true_eq]
  refine Sim.bind (P := fun _ => True) (E := fun _ => True) ?_ fun _ _ => Sim.all
  rw [hr]
  split
  · rename_i e
    subst e
    refine Sim.bind (P := fun _ => True) (E := fun _ => True) ?_ fun _ _ => Sim.all
    refine Sim.bind (P := fun _ => True) (E := fun _ => True) ?_ fun _ _ => Sim.all
    refine (sim_vec1 (Y := Y) fun i D => ?_).mono (fun _ h => h) (fun a _ => ?_) (fun _ h => h)
    · unfold hgemvzz_10_I
      simp only [el2c_1, el2c_2]
      exact Sim.wrQ
    · by_cases ha : S a
      · have := hS a ha
        rw [if_pos (by decide)] at this
        exact .inr this
      · exact .inl ha
  · refine Sim.bind (P := fun _ => True) (E := fun _ => True) ?_ fun _ _ => Sim.all
    refine Sim.bind (P := fun _ => True) (E := fun _ => True) ?_ fun _ _ => Sim.all
    refine (sim_vecI (INC := INCY) (Y := Y) fun i iy D => ?_).mono (fun _ h => h) (fun a _ => ?_) (fun _ h => h)
    · unfold hgemvzz_30_I
      simp only [el2c_1, el2c_2]
      exact Sim.wrQP rfl
    · by_cases ha : S a
      · have := hS a ha
        rw [← hKY] at this
        exact .inr this
      · exact .inl ha

/-- With BETA = 0, `hgemvzh` does not depend on the contents of the vector it takes y to be. -/
theorem hgemvzh_sim {F : Type} [Arith F] [ArithEq F] {M N : Int} {A LDA X INCX Y INCY : Int} {ALPHA : Cplx F} {BETA : Quat F} {TRANS : Char}
    {LEN : Int} {S : Int → Prop} (hM : M ≠ 0) (hN : N ≠ 0)
    (hL : LEN = if lsame 'T' TRANS then M else N)
    (hz : ((Cplx.feq (Quat.lo BETA) (⟨zero, zero⟩ : Cplx F)) && (Cplx.feq (Quat.hi BETA) (⟨zero, zero⟩ : Cplx F))) = true)
    (ho : ((Cplx.feq (Quat.lo BETA) (⟨one, zero⟩ : Cplx F)) && (Cplx.feq (Quat.hi BETA) (⟨zero, zero⟩ : Cplx F))) = false)
    (hS : ∀ a, S a → VecCell (if INCY > 0 then Y else Y - 4 * ((LEN - 1) * INCY)) INCY LEN.toNat a) :
    Sim (fun a => ¬ S a) (hgemvzh TRANS M N ALPHA A LDA X INCX BETA Y INCY) (fun _ => True) (fun _ => True) := by
  have hmn : (decide (M = 0) || decide (N = 0)) = false := by simp [hM, hN]
  unfold hgemvzh
  simp only [hz, ho, hmn, Bool.and_false, Bool.or_false, Bool.false_eq_true, if_false]
  refine Sim.bind (P := fun r => r.2 = LEN) (E := fun a => ¬ S a) ?_ fun r hr => ?_
  · rw [hL]
    split
    · exact Sim.pure rfl
    · exact Sim.pure rfl
  refine Sim.bind (P := fun _ => True) (E := fun a => ¬ S a) ?_ fun KX _ => ?_
  · split
    · exact Sim.pure trivial
    · exact Sim.pure trivial
  refine Sim.bind (P := fun KY => Y + 4 * (KY - 1) = if INCY > 0 then Y else Y - 4 * ((LEN - 1) * INCY)) (E := fun a => ¬ S a) ?_ fun KY hKY => ?_
  · simp only [decide_eq_true_eq]
    split
    · exact Sim.pure (by ring)
    · exact Sim.pure (by rw [hr]; ring)
  refine Sim.bind (P := fun _ => True) (E := fun _ => True) ?_ fun _ _ => Sim.all
  unfold hgemvzh_if56 hgemvzh_if57 hgemvzh_if58 hgemvzh_if72
  simp only [Bool.not_false, if_true, decide_eq_true_eq]
  refine Sim.bind (P := fun _ => True) (E := fun _ => True) ?_ fun _ _ => Sim.all
  rw [hr]
  split
  · rename_i e
    subst e
    refine Sim.bind (P := fun _ => True) (E := fun _ => True) ?_ fun _ _ => Sim.all
    refine Sim.bind (P := fun _ => True) (E := fun _ => True) ?_ fun _ _ => Sim.all
    refine (sim_vec1 (Y := Y) fun i D => ?_).mono (fun _ h => h) (fun a _ => ?_) (fun _ h => h)
    · unfold hgemvzh_10_I
      simp only [el2c_1, el2c_2]
      exact Sim.wrQ
    · by_cases ha : S a
      · have := hS a ha
        rw [if_pos (by decide)] at this
        exact .inr this
      · exact .inl ha
  · refine Sim.bind (P := fun _ => True) (E := fun _ => True) ?_ fun _ _ => Sim.all
    refine Sim.bind (P := fun _ => True) (E := fun _ => True) ?_ fun _ _ => Sim.all
    refine (sim_vecI (INC := INCY) (Y := Y) fun i iy D => ?_).mono (fun _ h => h) (fun a _ => ?_) (fun _ h => h)
    · unfold hgemvzh_30_I
      simp only [el2c_1, el2c_2]
      exact Sim.wrQP rfl
    · by_cases ha : S a
      · have := hS a ha
        rw [← hKY] at this
        exact .inr this
      · exact .inl ha

/-- With BETA = 0, `hgemvhd` does not depend on the contents of the vector it takes y to be. -/
theorem hgemvhd_sim {F : Type} [Arith F] [ArithEq F] {M N : Int} {A LDA X INCX Y INCY : Int} {ALPHA : Quat F} {BETA : F} {TRANS : Char}
    {LEN : Int} {S : Int → Prop} (hM : M ≠ 0) (hN : N ≠ 0)
    (hL : LEN = if lsame 'T' TRANS then M else N)
    (hz : (Cplx.feq (Cplx.ofReal BETA) (⟨zero, zero⟩ : Cplx F)) = true)
    (ho : (Cplx.feq (Cplx.ofReal BETA) (⟨one, zero⟩ : Cplx F)) = false)
    (hS : ∀ a, S a → VecCell (if INCY > 0 then Y else Y - 4 * ((LEN - 1) * INCY)) INCY LEN.toNat a) :
    Sim (fun a => ¬ S a) (hgemvhd TRANS M N ALPHA A LDA X INCX BETA Y INCY) (fun _ => True) (fun _ => True) := by
  have hmn : (decide (M = 0) || decide (N = 0)) = false := by simp [hM, hN]
  unfold hgemvhd
  simp only [hz, ho, hmn, Bool.and_false, Bool.or_false, Bool.false_eq_true, if_false]
  refine Sim.bind (P := fun r => r.2 = LEN) (E := fun a => ¬ S a) ?_ fun r hr => ?_
  · rw [hL]
    split
    · exact Sim.pure rfl
    · exact Sim.pure rfl
  refine Sim.bind (P := fun _ => True) (E := fun a => ¬ S a) ?_ fun KX _ => ?_
  · split
    · exact Sim.pure trivial
    · exact Sim.pure trivial
  refine Sim.bind (P := fun KY => Y + 4 * (KY - 1) = if INCY > 0 then Y else Y - 4 * ((LEN - 1) * INCY)) (E := fun a => ¬ S a) ?_ fun KY hKY => ?_
  · simp only [decide_eq_true_eq]
    split
    · exact Sim.pure (by ring)
    · exact Sim.pure (by rw [hr]; ring)
  refine Sim.bind (P := fun _ => True) (E := fun _ => True) ?_ fun _ _ => Sim.all
  unfold hgemvhd_if58 hgemvhd_if59 hgemvhd_if60 hgemvhd_if73
  simp only [Bool.not_false, if_true, decide_eq_true_eq]
  refine Sim.bind (P := fun _ => True) (E := fun _ => True) ?_ fun _ _ => Sim.all
  rw [hr]
  split
  · rename_i e
    subst e
    refine Sim.bind (P := fun _ => True) (E := fun _ => True) ?_ fun _ _ => Sim.all
    refine Sim.bind (P := fun _ => True) (E := fun _ => True) ?_ fun _ _ => Sim.all
    refine (sim_vec1 (Y := Y) fun i D => ?_).mono (fun _ h => h) (fun a _ => ?_) (fun _ h => h)
    · unfold hgemvhd_10_I
      simp only [el2c_1, el2c_2]
      exact Sim.wrQ
    · by_cases ha : S a
      · have := hS a ha
        rw [if_pos (by decide)] at this
        exact .inr this
      · exact .inl ha
  · refine Sim.bind (P := fun _ => True) (E := fun _ => True) ?_ fun _ _ => Sim.all
    refine Sim.bind (P := fun _ => True) (E := fun _ => True) ?_ fun _ _ => Sim.all
    refine (sim_vecI (INC := INCY) (Y := Y) fun i iy D => ?_).mono (fun _ h => h) (fun a _ => ?_) (fun _ h => h)
    · unfold hgemvhd_30_I
      simp only [el2c_1, el2c_2]
      exact Sim.wrQP rfl
    · by_cases ha : S a
      · have := hS a ha
        rw [← hKY] at this
        exact .inr this
      · exact .inl ha

/-- With BETA = 0, `hgemvhz` does not depend on the contents of the vector it takes y to be. -/
theorem hgemvhz_sim {F : Type} [Arith F] [ArithEq F] {M N : Int} {A LDA X INCX Y INCY : Int} {ALPHA : Quat F} {BETA : Cplx F} {TRANS : Char}
    {LEN : Int} {S : Int → Prop} (hM : M ≠ 0) (hN : N ≠ 0)
    (hL : LEN = if lsame 'T' TRANS then M else N)
    (hz : (Cplx.feq BETA (⟨zero, zero⟩ : Cplx F)) = true)
    (ho : (Cplx.feq BETA (⟨one, zero⟩ : Cplx F)) = false)
    (hS : ∀ a, S a → VecCell (if INCY > 0 then Y else Y - 4 * ((LEN - 1) * INCY)) INCY LEN.toNat a) :
    Sim (fun a => ¬ S a) (hgemvhz TRANS M N ALPHA A LDA X INCX BETA Y INCY) (fun _ => True) (fun _ => True) := by
  have hmn : (decide (M = 0) || decide (N = 0)) = false := by simp [hM, hN]
  unfold hgemvhz
  simp only [hz, ho, hmn, Bool.and_false, Bool.or_false, Bool.false_eq_true, if_false]
  refine Sim.bind (P := fun r => r.2 = LEN) (E := fun a => ¬ S a) ?_ fun r hr => ?_
  · rw [hL]
    split
    · exact Sim.pure rfl
    · exact Sim.pure rfl
  refine Sim.bind (P := fun _ => True) (E := fun a => ¬ S a) ?_ fun KX _ => ?_
  · split
    · exact Sim.pure trivial
    · exact Sim.pure trivial
  refine Sim.bind (P := fun KY => Y + 4 * (KY - 1) = if INCY > 0 then Y else Y - 4 * ((LEN - 1) * INCY)) (E := fun a => ¬ S a) ?_ fun KY hKY => ?_
  · simp only [decide_eq_true_eq]
    split
    · exact Sim.pure (by ring)
    · exact Sim.pure (by rw [hr]; ring)
  refine Sim.bind (P := fun _ => True) (E := fun _ => True) ?_ fun _ _ => Sim.all
  unfold hgemvhz_if57 hgemvhz_if58 hgemvhz_if59 hgemvhz_if72
  simp only [Bool.not_false, if_true, decide_eq_true_eq]
  refine Sim.bind (P := fun _ => True) (E := fun _ => True) ?_ fun _ _ => Sim.all
  rw [hr]
  split
  · rename_i e
    subst e
    refine Sim.bind (P := fun _ => True) (E := fun _ => True) ?_ fun _ _ => Sim.all
    refine Sim.bind (P := fun _ => True) (E := fun _ => True) ?_ fun _ _ => Sim.all
    refine (sim_vec1 (Y := Y) fun i D => ?_).mono (fun _ h => h) (fun a _ => ?_) (fun _ h => h)
    · unfold hgemvhz_10_I
      simp only [el2c_1, el2c_2]
      exact Sim.wrQ
    · by_cases ha : S a
      · have := hS a ha
        rw [if_pos (by decide)] at this
        exact .inr this
      · exact .inl ha
  · refine Sim.bind (P := fun _ => True) (E := fun _ => True) ?_ fun _ _ => Sim.all
    refine Sim.bind (P := fun _ => True) (E := fun _ => True) ?_ fun _ _ => Sim.all
    refine (sim_vecI (INC := INCY) (Y := Y) fun i iy D => ?_).mono (fun _ h => h) (fun a _ => ?_) (fun _ h => h)
    · unfold hgemvhz_30_I
      simp only [el2c_1, el2c_2]
      exact Sim.wrQP rfl
    · by_cases ha : S a
      · have := hS a ha
        rw [← hKY] at this
        exact .inr this
      · exact .inl ha

/-- With BETA = 0, `hgemvhh` does not depend on the contents of the vector it takes y to be. -/
theorem hgemvhh_sim {F : Type} [Arith F] [ArithEq F] {M N : Int} {A LDA X INCX Y INCY : Int} {ALPHA : Quat F} {BETA : Quat F} {TRANS : Char}
    {LEN : Int} {S : Int → Prop} (hM : M ≠ 0) (hN : N ≠ 0)
    (hL : LEN = if lsame 'T' TRANS then M else N)
    (hz : ((Cplx.feq (Quat.lo BETA) (⟨zero, zero⟩ : Cplx F)) && (Cplx.feq (Quat.hi BETA) (⟨zero, zero⟩ : Cplx F))) = true)
    (ho : ((Cplx.feq (Quat.lo BETA) (⟨one, zero⟩ : Cplx F)) && (Cplx.feq (Quat.hi BETA) (⟨zero, zero⟩ : Cplx F))) = false)
    (hS : ∀ a, S a → VecCell (if INCY > 0 then Y else Y - 4 * ((LEN - 1) * INCY)) INCY LEN.toNat a) :
    Sim (fun a => ¬ S a) (hgemvhh TRANS M N ALPHA A LDA X INCX BETA Y INCY) (fun _ => True) (fun _ => True) := by
  have hmn : (decide (M = 0) || decide (N = 0)) = false := by simp [hM, hN]
  unfold hgemvhh
  simp only [hz, ho, hmn, Bool.and_false, Bool.or_false, Bool.false_eq_true, if_false]
  refine Sim.bind (P := fun r => r.2 = LEN) (E := fun a => ¬ S a) ?_ fun r hr => ?_
  · rw [hL]
    split
    · exact Sim.pure rfl
    · exact Sim.pure rfl
  refine Sim.bind (P := fun _ => True) (E := fun a => ¬ S a) ?_ fun KX _ => ?_
  · split
    · exact Sim.pure trivial
    · exact Sim.pure trivial
  refine Sim.bind (P := fun KY => Y + 4 * (KY - 1) = if INCY > 0 then Y else Y - 4 * ((LEN - 1) * INCY)) (E := fun a => ¬ S a) ?_ fun KY hKY => ?_
  · simp only [decide_eq_true_eq]
    split
    · exact Sim.pure (by ring)
    · exact Sim.pure (by rw [hr]; ring)
  refine Sim.bind (P := fun _ => True) (E := fun _ => True) ?_ fun _ _ => Sim.all
  unfold hgemvhh_if57 hgemvhh_if58 hgemvhh_if59 hgemvhh_if73
  simp only [Bool.not_false, if_true, decide_eq_true_eq]
  refine Sim.bind (P := fun _ => True) (E := fun _ => True) ?_ fun _ _ => Sim.all
  rw [hr]
  split
  · rename_i e
    subst e
    refine Sim.bind (P := fun _ => True) (E := fun _ => True) ?_ fun _ _ => Sim.all
    refine Sim.bind (P := fun _ => True) (E := fun _ => True) ?_ fun _ _ => Sim.all
    refine (sim_vec1 (Y := Y) fun i D => ?_).mono (fun _ h => h) (fun a _ => ?_) (fun _ h => h)
    · unfold hgemvhh_10_I
      simp only [el2c_1, el2c_2]
      exact Sim.wrQ
    · by_cases ha : S a
      · have := hS a ha
        rw [if_pos (by decide)] at this
        exact .inr this
      · exact .inl ha
  · refine Sim.bind (P := fun _ => True) (E := fun _ => True) ?_ fun _ _ => Sim.all
    refine Sim.bind (P := fun _ => True) (E := fun _ => True) ?_ fun _ _ => Sim.all
    refine (sim_vecI (INC := INCY) (Y := Y) fun i iy D => ?_).mono (fun _ h => h) (fun a _ => ?_) (fun _ h => h)
    · unfold hgemvhh_30_I
      simp only [el2c_1, el2c_2]
      exact Sim.wrQP rfl
    · by_cases ha : S a
      · have := hS a ha
        rw [← hKY] at this
        exact .inr this
      · exact .inl ha

end Haxx
