import Verif.F32Gemvhh
import Verif.FGemvhh

/-! Generated by `tools/gen_f32.py`. -/

namespace Haxx.F32
open Arith
variable {F : Type} [Arith F] [ArithEq F]
set_option maxHeartbeats 4000000
set_option linter.unusedSectionVars false
set_option linter.unusedVariables false

theorem hgemvhh_eq32 (TRANS : Char) (M : Int) (N : Int) (ALPHA : Quat F) (A : Int) (LDA : Int) (X : Int) (INCX : Int) (BETA : Quat F) (Y : Int) (INCY : Int) {L : Int} (hM : 0 < M) (hN : 0 < N) (hML : M ≤ L) (hNL : N ≤ L) (hx : VFit L INCX) (hy : VFit L INCY) :
    Eq32 (Haxx.F32.hgemvhh TRANS M N ALPHA A LDA X INCX BETA Y INCY (F := F)) (Haxx.hgemvhh TRANS M N ALPHA A LDA X INCX BETA Y INCY) (fun _ => True) := by
  repeat' first
    | exact eq32_pure trivial
    | exact eq32_pure rfl
    | exact eq32_pure ⟨rfl, rfl⟩
    | with_reducible refine eq32_i32 ?_ ?_
    | with_reducible refine eq32_last ?_ rfl
    | with_reducible refine eq32_ite (fun _ => ?_) (fun _ => ?_)
    | with_reducible refine eq32_cases (α := Int × Int) (fun _ => ?_) (fun _ => ?_)
    | with_reducible refine eq32_start (α := Int) (fun _ => ?_) (fun _ => ?_) ?_
    | with_reducible refine eq32_same (fun _ => ?_)
    | with_reducible refine eq32_seq ?_ (fun _ => ?_)
    | with_reducible exact eq32_refl _
    | with_reducible refine eq32_forN (fun _ _ => ?_)
    | with_reducible refine eq32_foldP (f := fun i (s : Int) => Haxx.hgemvhh_30_I _ _ ((i : Int) + 1) s) (fun s => s) INCY (fun _ _ _ _ => ?_)
    | with_reducible refine eq32_foldP (f := fun i (s : Int) => Haxx.hgemvhh_40_I _ _ _ ((i : Int) + 1) s) (fun s => s) INCY (fun _ _ _ _ => ?_)
    | with_reducible refine eq32_foldP (f := fun i (s : Int) => Haxx.hgemvhh_70_I _ _ _ _ _ _ _ _ _ _ _ _ _ ((i : Int) + 1) s) (fun s => s) INCY (fun _ _ _ _ => ?_)
    | with_reducible refine eq32_foldP (f := fun i (s : Int) => Haxx.hgemvhh_60_J _ _ _ _ _ _ _ ((i : Int) + 1) s) (fun s => s) INCX (fun _ _ _ _ => ?_)
    | with_reducible refine eq32_foldP (f := fun i (s : Int) => Haxx.hgemvhh_80_J _ _ _ _ _ _ _ _ _ ((i : Int) + 1) s) (fun s => s) INCX (fun _ _ _ _ => ?_)
    | with_reducible refine eq32_foldP (f := fun i (s : Cplx F × Cplx F × Int) => Haxx.hgemvhh_120_I _ _ _ _ _ ((i : Int) + 1) s.1 s.2.1 s.2.2) (fun s => s.2.2) INCX (fun _ _ _ _ => ?_)
    | with_reducible refine eq32_foldP (f := fun i (s : Cplx F × Cplx F × Int) => Haxx.hgemvhh_130_I _ _ _ _ _ ((i : Int) + 1) s.1 s.2.1 s.2.2) (fun s => s.2.2) INCX (fun _ _ _ _ => ?_)
    | with_reducible refine eq32_foldP (f := fun i (s : Int) => Haxx.hgemvhh_110_J _ _ _ _ _ _ _ _ ((i : Int) + 1) s) (fun s => s) INCY (fun _ _ _ _ => ?_)
    | with_reducible refine eq32_foldP (f := fun i (s : Int) => Haxx.hgemvhh_140_J _ _ _ _ _ _ _ _ _ _ ((i : Int) + 1) s) (fun s => s) INCY (fun _ _ _ _ => ?_)
    | with_reducible refine eq32_fold (fun _ _ _ => ?_)
    | (refine hx.step ?_ ?_ ?_ ?_ (by assumption) (by assumption) <;> omega)
    | (refine hx.pred ?_ ?_ <;> omega)
    | (refine hx.predMul ?_ ?_ <;> omega)
    | (refine hx.start ?_ ?_ (by assumption) <;> omega)
    | (refine hy.step ?_ ?_ ?_ ?_ (by assumption) (by assumption) <;> omega)
    | (refine hy.pred ?_ ?_ <;> omega)
    | (refine hy.predMul ?_ ?_ <;> omega)
    | (refine hy.start ?_ ?_ (by assumption) <;> omega)
    | unfold Haxx.F32.hgemvhh Haxx.hgemvhh
    | unfold Haxx.F32.hgemvhh_10_I Haxx.hgemvhh_10_I
    | unfold Haxx.F32.hgemvhh_20_I Haxx.hgemvhh_20_I
    | unfold Haxx.F32.hgemvhh_if59 Haxx.hgemvhh_if59
    | unfold Haxx.F32.hgemvhh_30_I Haxx.hgemvhh_30_I
    | unfold Haxx.F32.hgemvhh_40_I Haxx.hgemvhh_40_I
    | unfold Haxx.F32.hgemvhh_if73 Haxx.hgemvhh_if73
    | unfold Haxx.F32.hgemvhh_if58 Haxx.hgemvhh_if58
    | unfold Haxx.F32.hgemvhh_if57 Haxx.hgemvhh_if57
    | unfold Haxx.F32.hgemvhh_50_I Haxx.hgemvhh_50_I
    | unfold Haxx.F32.hgemvhh_60_J Haxx.hgemvhh_60_J
    | unfold Haxx.F32.hgemvhh_70_I Haxx.hgemvhh_70_I
    | unfold Haxx.F32.hgemvhh_80_J Haxx.hgemvhh_80_J
    | unfold Haxx.F32.hgemvhh_if94 Haxx.hgemvhh_if94
    | unfold Haxx.F32.hgemvhh_90_I Haxx.hgemvhh_90_I
    | unfold Haxx.F32.hgemvhh_100_I Haxx.hgemvhh_100_I
    | unfold Haxx.F32.hgemvhh_if145 Haxx.hgemvhh_if145
    | unfold Haxx.F32.hgemvhh_110_J Haxx.hgemvhh_110_J
    | unfold Haxx.F32.hgemvhh_120_I Haxx.hgemvhh_120_I
    | unfold Haxx.F32.hgemvhh_130_I Haxx.hgemvhh_130_I
    | unfold Haxx.F32.hgemvhh_if171 Haxx.hgemvhh_if171
    | unfold Haxx.F32.hgemvhh_140_J Haxx.hgemvhh_140_J
    | unfold Haxx.F32.hgemvhh_if141 Haxx.hgemvhh_if141
    | unfold Haxx.F32.hgemvhh_if92 Haxx.hgemvhh_if92

end Haxx.F32
