import Verif.F32Gemvdh
import Verif.FGemvdh

/-! Generated by `tools/gen_f32.py`. -/

namespace Haxx.F32
open Arith
variable {F : Type} [Arith F] [ArithEq F]
set_option maxHeartbeats 4000000
set_option linter.unusedSectionVars false
set_option linter.unusedVariables false

theorem hgemvdh_eq32 (TRANS : Char) (M : Int) (N : Int) (ALPHA : F) (A : Int) (LDA : Int) (X : Int) (INCX : Int) (BETA : Quat F) (Y : Int) (INCY : Int) {L : Int} (hM : 0 < M) (hN : 0 < N) (hML : M ≤ L) (hNL : N ≤ L) (hx : VFit L INCX) (hy : VFit L INCY) :
    Eq32 (Haxx.F32.hgemvdh TRANS M N ALPHA A LDA X INCX BETA Y INCY (F := F)) (Haxx.hgemvdh TRANS M N ALPHA A LDA X INCX BETA Y INCY) (fun _ => True) := by
  repeat' first
    | exact eq32_pure trivial
    | exact eq32_pure rfl
    | exact eq32_pure ⟨rfl, rfl⟩
    | with_reducible refine eq32_i32 ?_ ?_
    | with_reducible refine eq32_last ?_ rfl
    | with_reducible refine eq32_ite (fun _ => ?_) (fun _ => ?_)
    | with_reducible refine eq32_cases (α := Int × Int) (fun _ => ?_) (fun _ => ?_)
    | with_reducible refine eq32_start (α := Int) (fun _ => ?_) (fun _ => ?_) ?_
    | with_reducible refine eq32_same (fun _ => ?_)
    | with_reducible refine eq32_seq ?_ (fun _ => ?_)
    | with_reducible exact eq32_refl _
    | with_reducible refine eq32_forN (fun _ _ => ?_)
    | with_reducible refine eq32_foldP (f := fun i (s : Int) => Haxx.hgemvdh_30_I _ _ ((i : Int) + 1) s) (fun s => s) INCY (fun _ _ _ _ => ?_)
    | with_reducible refine eq32_foldP (f := fun i (s : Int) => Haxx.hgemvdh_70_I _ _ _ _ _ _ _ ((i : Int) + 1) s) (fun s => s) INCY (fun _ _ _ _ => ?_)
    | with_reducible refine eq32_foldP (f := fun i (s : Int) => Haxx.hgemvdh_60_J _ _ _ _ _ _ _ ((i : Int) + 1) s) (fun s => s) INCX (fun _ _ _ _ => ?_)
    | with_reducible refine eq32_foldP (f := fun i (s : Int) => Haxx.hgemvdh_80_J _ _ _ _ _ _ _ _ _ ((i : Int) + 1) s) (fun s => s) INCX (fun _ _ _ _ => ?_)
    | with_reducible refine eq32_foldP (f := fun i (s : Cplx F × Cplx F × Int) => Haxx.hgemvdh_120_I _ _ _ _ _ ((i : Int) + 1) s.1 s.2.1 s.2.2) (fun s => s.2.2) INCX (fun _ _ _ _ => ?_)
    | with_reducible refine eq32_foldP (f := fun i (s : Cplx F × Cplx F × Int) => Haxx.hgemvdh_130_I _ _ _ _ _ ((i : Int) + 1) s.1 s.2.1 s.2.2) (fun s => s.2.2) INCX (fun _ _ _ _ => ?_)
    | with_reducible refine eq32_foldP (f := fun i (s : Int) => Haxx.hgemvdh_110_J _ _ _ _ _ _ _ _ ((i : Int) + 1) s) (fun s => s) INCY (fun _ _ _ _ => ?_)
    | with_reducible refine eq32_foldP (f := fun i (s : Int) => Haxx.hgemvdh_140_J _ _ _ _ _ _ _ _ _ _ ((i : Int) + 1) s) (fun s => s) INCY (fun _ _ _ _ => ?_)
    | with_reducible refine eq32_fold (fun _ _ _ => ?_)
    | (refine hx.step ?_ ?_ ?_ ?_ (by assumption) (by assumption) <;> omega)
    | (refine hx.pred ?_ ?_ <;> omega)
    | (refine hx.predMul ?_ ?_ <;> omega)
    | (refine hx.start ?_ ?_ (by assumption) <;> omega)
    | (refine hy.step ?_ ?_ ?_ ?_ (by assumption) (by assumption) <;> omega)
    | (refine hy.pred ?_ ?_ <;> omega)
    | (refine hy.predMul ?_ ?_ <;> omega)
    | (refine hy.start ?_ ?_ (by assumption) <;> omega)
    | unfold Haxx.F32.hgemvdh Haxx.hgemvdh
    | unfold Haxx.F32.hgemvdh_10_I Haxx.hgemvdh_10_I
    | unfold Haxx.F32.hgemvdh_20_I Haxx.hgemvdh_20_I
    | unfold Haxx.F32.hgemvdh_if59 Haxx.hgemvdh_if59
    | unfold Haxx.F32.hgemvdh_30_I Haxx.hgemvdh_30_I
    | unfold Haxx.F32.hgemvdh_40_I Haxx.hgemvdh_40_I
    | unfold Haxx.F32.hgemvdh_if73 Haxx.hgemvdh_if73
    | unfold Haxx.F32.hgemvdh_if58 Haxx.hgemvdh_if58
    | unfold Haxx.F32.hgemvdh_if57 Haxx.hgemvdh_if57
    | unfold Haxx.F32.hgemvdh_50_I Haxx.hgemvdh_50_I
    | unfold Haxx.F32.hgemvdh_60_J Haxx.hgemvdh_60_J
    | unfold Haxx.F32.hgemvdh_70_I Haxx.hgemvdh_70_I
    | unfold Haxx.F32.hgemvdh_80_J Haxx.hgemvdh_80_J
    | unfold Haxx.F32.hgemvdh_if93 Haxx.hgemvdh_if93
    | unfold Haxx.F32.hgemvdh_90_I Haxx.hgemvdh_90_I
    | unfold Haxx.F32.hgemvdh_100_I Haxx.hgemvdh_100_I
    | unfold Haxx.F32.hgemvdh_if128 Haxx.hgemvdh_if128
    | unfold Haxx.F32.hgemvdh_110_J Haxx.hgemvdh_110_J
    | unfold Haxx.F32.hgemvdh_120_I Haxx.hgemvdh_120_I
    | unfold Haxx.F32.hgemvdh_130_I Haxx.hgemvdh_130_I
    | unfold Haxx.F32.hgemvdh_if152 Haxx.hgemvdh_if152
    | unfold Haxx.F32.hgemvdh_140_J Haxx.hgemvdh_140_J
    | unfold Haxx.F32.hgemvdh_if124 Haxx.hgemvdh_if124
    | unfold Haxx.F32.hgemvdh_if91 Haxx.hgemvdh_if91

end Haxx.F32
