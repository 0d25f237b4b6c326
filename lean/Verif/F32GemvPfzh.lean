import Verif.F32Gemvzh
import Verif.FGemvzh

/-! Generated by `tools/gen_f32.py`. -/

namespace Haxx.F32
open Arith
variable {F : Type} [Arith F] [ArithEq F]
set_option maxHeartbeats 4000000
set_option linter.unusedSectionVars false
set_option linter.unusedVariables false

theorem hgemvzh_eq32 (TRANS : Char) (M : Int) (N : Int) (ALPHA : Cplx F) (A : Int) (LDA : Int) (X : Int) (INCX : Int) (BETA : Quat F) (Y : Int) (INCY : Int) {L : Int} (hM : 0 < M) (hN : 0 < N) (hML : M ≤ L) (hNL : N ≤ L) (hx : VFit L INCX) (hy : VFit L INCY) :
    Eq32 (Haxx.F32.hgemvzh TRANS M N ALPHA A LDA X INCX BETA Y INCY (F := F)) (Haxx.hgemvzh TRANS M N ALPHA A LDA X INCX BETA Y INCY) (fun _ => True) := by
  repeat' first
    | exact eq32_pure trivial
    | exact eq32_pure rfl
    | exact eq32_pure ⟨rfl, rfl⟩
    | with_reducible refine eq32_i32 ?_ ?_
    | with_reducible refine eq32_last ?_ rfl
    | with_reducible refine eq32_ite (fun _ => ?_) (fun _ => ?_)
    | with_reducible refine eq32_cases (α := Int × Int) (fun _ => ?_) (fun _ => ?_)
    | with_reducible refine eq32_start (α := Int) (fun _ => ?_) (fun _ => ?_) ?_
    | with_reducible refine eq32_same (fun _ => ?_)
    | with_reducible refine eq32_seq ?_ (fun _ => ?_)
    | with_reducible exact eq32_refl _
    | with_reducible refine eq32_forN (fun _ _ => ?_)
    | with_reducible refine eq32_foldP (f := fun i (s : Int) => Haxx.hgemvzh_30_I _ _ ((i : Int) + 1) s) (fun s => s) INCY (fun _ _ _ _ => ?_)
    | with_reducible refine eq32_foldP (f := fun i (s : Int) => Haxx.hgemvzh_40_I _ _ _ ((i : Int) + 1) s) (fun s => s) INCY (fun _ _ _ _ => ?_)
    | with_reducible refine eq32_foldP (f := fun i (s : Int) => Haxx.hgemvzh_70_I _ _ _ _ _ _ _ _ _ ((i : Int) + 1) s) (fun s => s) INCY (fun _ _ _ _ => ?_)
    | with_reducible refine eq32_foldP (f := fun i (s : Int) => Haxx.hgemvzh_60_J _ _ _ _ _ _ _ ((i : Int) + 1) s) (fun s => s) INCX (fun _ _ _ _ => ?_)
    | with_reducible refine eq32_foldP (f := fun i (s : Int) => Haxx.hgemvzh_80_J _ _ _ _ _ _ _ _ _ ((i : Int) + 1) s) (fun s => s) INCX (fun _ _ _ _ => ?_)
    | with_reducible refine eq32_foldP (f := fun i (s : Cplx F × Cplx F × Int) => Haxx.hgemvzh_120_I _ _ _ _ _ ((i : Int) + 1) s.1 s.2.1 s.2.2) (fun s => s.2.2) INCX (fun _ _ _ _ => ?_)
    | with_reducible refine eq32_foldP (f := fun i (s : Cplx F × Cplx F × Int) => Haxx.hgemvzh_130_I _ _ _ _ _ ((i : Int) + 1) s.1 s.2.1 s.2.2) (fun s => s.2.2) INCX (fun _ _ _ _ => ?_)
    | with_reducible refine eq32_foldP (f := fun i (s : Int) => Haxx.hgemvzh_110_J _ _ _ _ _ _ _ _ ((i : Int) + 1) s) (fun s => s) INCY (fun _ _ _ _ => ?_)
    | with_reducible refine eq32_foldP (f := fun i (s : Int) => Haxx.hgemvzh_140_J _ _ _ _ _ _ _ _ _ _ ((i : Int) + 1) s) (fun s => s) INCY (fun _ _ _ _ => ?_)
    | with_reducible refine eq32_fold (fun _ _ _ => ?_)
    | (refine hx.step ?_ ?_ ?_ ?_ (by assumption) (by assumption) <;> omega)
    | (refine hx.pred ?_ ?_ <;> omega)
    | (refine hx.predMul ?_ ?_ <;> omega)
    | (refine hx.start ?_ ?_ (by assumption) <;> omega)
    | (refine hy.step ?_ ?_ ?_ ?_ (by assumption) (by assumption) <;> omega)
    | (refine hy.pred ?_ ?_ <;> omega)
    | (refine hy.predMul ?_ ?_ <;> omega)
    | (refine hy.start ?_ ?_ (by assumption) <;> omega)
    | unfold Haxx.F32.hgemvzh Haxx.hgemvzh
    | unfold Haxx.F32.hgemvzh_10_I Haxx.hgemvzh_10_I
    | unfold Haxx.F32.hgemvzh_20_I Haxx.hgemvzh_20_I
    | unfold Haxx.F32.hgemvzh_if58 Haxx.hgemvzh_if58
    | unfold Haxx.F32.hgemvzh_30_I Haxx.hgemvzh_30_I
    | unfold Haxx.F32.hgemvzh_40_I Haxx.hgemvzh_40_I
    | unfold Haxx.F32.hgemvzh_if72 Haxx.hgemvzh_if72
    | unfold Haxx.F32.hgemvzh_if57 Haxx.hgemvzh_if57
    | unfold Haxx.F32.hgemvzh_if56 Haxx.hgemvzh_if56
    | unfold Haxx.F32.hgemvzh_50_I Haxx.hgemvzh_50_I
    | unfold Haxx.F32.hgemvzh_60_J Haxx.hgemvzh_60_J
    | unfold Haxx.F32.hgemvzh_70_I Haxx.hgemvzh_70_I
    | unfold Haxx.F32.hgemvzh_80_J Haxx.hgemvzh_80_J
    | unfold Haxx.F32.hgemvzh_if93 Haxx.hgemvzh_if93
    | unfold Haxx.F32.hgemvzh_90_I Haxx.hgemvzh_90_I
    | unfold Haxx.F32.hgemvzh_100_I Haxx.hgemvzh_100_I
    | unfold Haxx.F32.hgemvzh_if128 Haxx.hgemvzh_if128
    | unfold Haxx.F32.hgemvzh_110_J Haxx.hgemvzh_110_J
    | unfold Haxx.F32.hgemvzh_120_I Haxx.hgemvzh_120_I
    | unfold Haxx.F32.hgemvzh_130_I Haxx.hgemvzh_130_I
    | unfold Haxx.F32.hgemvzh_if154 Haxx.hgemvzh_if154
    | unfold Haxx.F32.hgemvzh_140_J Haxx.hgemvzh_140_J
    | unfold Haxx.F32.hgemvzh_if124 Haxx.hgemvzh_if124
    | unfold Haxx.F32.hgemvzh_if91 Haxx.hgemvzh_if91

end Haxx.F32
