import Verif.F32Gemvhd
import Verif.FGemvhd

/-! Generated by `tools/gen_f32.py`. -/

namespace Haxx.F32
open Arith
variable {F : Type} [Arith F] [ArithEq F]
set_option maxHeartbeats 4000000
set_option linter.unusedSectionVars false
set_option linter.unusedVariables false

theorem hgemvhd_eq32 (TRANS : Char) (M : Int) (N : Int) (ALPHA : Quat F) (A : Int) (LDA : Int) (X : Int) (INCX : Int) (BETA : F) (Y : Int) (INCY : Int) {L : Int} (hM : 0 < M) (hN : 0 < N) (hML : M ≤ L) (hNL : N ≤ L) (hx : VFit L INCX) (hy : VFit L INCY) :
    Eq32 (Haxx.F32.hgemvhd TRANS M N ALPHA A LDA X INCX BETA Y INCY (F := F)) (Haxx.hgemvhd TRANS M N ALPHA A LDA X INCX BETA Y INCY) (fun _ => True) := by
  repeat' first
    | exact eq32_pure trivial
    | exact eq32_pure rfl
    | exact eq32_pure ⟨rfl, rfl⟩
    | with_reducible refine eq32_i32 ?_ ?_
    | with_reducible refine eq32_last ?_ rfl
    | with_reducible refine eq32_ite (fun _ => ?_) (fun _ => ?_)
    | with_reducible refine eq32_cases (α := Int × Int) (fun _ => ?_) (fun _ => ?_)
    | with_reducible refine eq32_start (α := Int) (fun _ => ?_) (fun _ => ?_) ?_
    | with_reducible refine eq32_same (fun _ => ?_)
    | with_reducible refine eq32_seq ?_ (fun _ => ?_)
    | with_reducible exact eq32_refl _
    | with_reducible refine eq32_forN (fun _ _ => ?_)
    | with_reducible refine eq32_foldP (f := fun i (s : Int) => Haxx.hgemvhd_30_I _ _ ((i : Int) + 1) s) (fun s => s) INCY (fun _ _ _ _ => ?_)
    | with_reducible refine eq32_foldP (f := fun i (s : Int) => Haxx.hgemvhd_40_I _ _ _ ((i : Int) + 1) s) (fun s => s) INCY (fun _ _ _ _ => ?_)
    | with_reducible refine eq32_foldP (f := fun i (s : Int) => Haxx.hgemvhd_70_I _ _ _ _ _ _ _ _ _ _ _ _ _ ((i : Int) + 1) s) (fun s => s) INCY (fun _ _ _ _ => ?_)
    | with_reducible refine eq32_foldP (f := fun i (s : Int) => Haxx.hgemvhd_60_J _ _ _ _ _ _ _ ((i : Int) + 1) s) (fun s => s) INCX (fun _ _ _ _ => ?_)
    | with_reducible refine eq32_foldP (f := fun i (s : Int) => Haxx.hgemvhd_80_J _ _ _ _ _ _ _ _ _ ((i : Int) + 1) s) (fun s => s) INCX (fun _ _ _ _ => ?_)
    | with_reducible refine eq32_foldP (f := fun i (s : Cplx F × Cplx F × Int) => Haxx.hgemvhd_120_I _ _ _ _ _ ((i : Int) + 1) s.1 s.2.1 s.2.2) (fun s => s.2.2) INCX (fun _ _ _ _ => ?_)
    | with_reducible refine eq32_foldP (f := fun i (s : Cplx F × Cplx F × Int) => Haxx.hgemvhd_130_I _ _ _ _ _ ((i : Int) + 1) s.1 s.2.1 s.2.2) (fun s => s.2.2) INCX (fun _ _ _ _ => ?_)
    | with_reducible refine eq32_foldP (f := fun i (s : Int) => Haxx.hgemvhd_110_J _ _ _ _ _ _ _ _ ((i : Int) + 1) s) (fun s => s) INCY (fun _ _ _ _ => ?_)
    | with_reducible refine eq32_foldP (f := fun i (s : Int) => Haxx.hgemvhd_140_J _ _ _ _ _ _ _ _ _ _ ((i : Int) + 1) s) (fun s => s) INCY (fun _ _ _ _ => ?_)
    | with_reducible refine eq32_fold (fun _ _ _ => ?_)
    | (refine hx.step ?_ ?_ ?_ ?_ (by assumption) (by assumption) <;> omega)
    | (refine hx.pred ?_ ?_ <;> omega)
    | (refine hx.predMul ?_ ?_ <;> omega)
    | (refine hx.start ?_ ?_ (by assumption) <;> omega)
    | (refine hy.step ?_ ?_ ?_ ?_ (by assumption) (by assumption) <;> omega)
    | (refine hy.pred ?_ ?_ <;> omega)
    | (refine hy.predMul ?_ ?_ <;> omega)
    | (refine hy.start ?_ ?_ (by assumption) <;> omega)
    | unfold Haxx.F32.hgemvhd Haxx.hgemvhd
    | unfold Haxx.F32.hgemvhd_10_I Haxx.hgemvhd_10_I
    | unfold Haxx.F32.hgemvhd_20_I Haxx.hgemvhd_20_I
    | unfold Haxx.F32.hgemvhd_if60 Haxx.hgemvhd_if60
    | unfold Haxx.F32.hgemvhd_30_I Haxx.hgemvhd_30_I
    | unfold Haxx.F32.hgemvhd_40_I Haxx.hgemvhd_40_I
    | unfold Haxx.F32.hgemvhd_if73 Haxx.hgemvhd_if73
    | unfold Haxx.F32.hgemvhd_if59 Haxx.hgemvhd_if59
    | unfold Haxx.F32.hgemvhd_if58 Haxx.hgemvhd_if58
    | unfold Haxx.F32.hgemvhd_50_I Haxx.hgemvhd_50_I
    | unfold Haxx.F32.hgemvhd_60_J Haxx.hgemvhd_60_J
    | unfold Haxx.F32.hgemvhd_70_I Haxx.hgemvhd_70_I
    | unfold Haxx.F32.hgemvhd_80_J Haxx.hgemvhd_80_J
    | unfold Haxx.F32.hgemvhd_if93 Haxx.hgemvhd_if93
    | unfold Haxx.F32.hgemvhd_90_I Haxx.hgemvhd_90_I
    | unfold Haxx.F32.hgemvhd_100_I Haxx.hgemvhd_100_I
    | unfold Haxx.F32.hgemvhd_if144 Haxx.hgemvhd_if144
    | unfold Haxx.F32.hgemvhd_110_J Haxx.hgemvhd_110_J
    | unfold Haxx.F32.hgemvhd_120_I Haxx.hgemvhd_120_I
    | unfold Haxx.F32.hgemvhd_130_I Haxx.hgemvhd_130_I
    | unfold Haxx.F32.hgemvhd_if170 Haxx.hgemvhd_if170
    | unfold Haxx.F32.hgemvhd_140_J Haxx.hgemvhd_140_J
    | unfold Haxx.F32.hgemvhd_if140 Haxx.hgemvhd_if140
    | unfold Haxx.F32.hgemvhd_if91 Haxx.hgemvhd_if91

end Haxx.F32
