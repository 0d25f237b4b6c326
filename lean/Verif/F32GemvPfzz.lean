import Verif.F32Gemvzz
import Verif.FGemvzz

/-! Generated by `tools/gen_f32.py`. -/

namespace Haxx.F32
open Arith
variable {F : Type} [Arith F] [ArithEq F]
set_option maxHeartbeats 4000000
set_option linter.unusedSectionVars false
set_option linter.unusedVariables false

theorem hgemvzz_eq32 (TRANS : Char) (M : Int) (N : Int) (ALPHA : Cplx F) (A : Int) (LDA : Int) (X : Int) (INCX : Int) (BETA : Cplx F) (Y : Int) (INCY : Int) {L : Int} (hM : 0 < M) (hN : 0 < N) (hML : M ≤ L) (hNL : N ≤ L) (hx : VFit L INCX) (hy : VFit L INCY) :
    Eq32 (Haxx.F32.hgemvzz TRANS M N ALPHA A LDA X INCX BETA Y INCY (F := F)) (Haxx.hgemvzz TRANS M N ALPHA A LDA X INCX BETA Y INCY) (fun _ => True) := by
  repeat' first
    | exact eq32_pure trivial
    | exact eq32_pure rfl
    | exact eq32_pure ⟨rfl, rfl⟩
    | with_reducible refine eq32_i32 ?_ ?_
    | with_reducible refine eq32_last ?_ rfl
    | with_reducible refine eq32_ite (fun _ => ?_) (fun _ => ?_)
    | with_reducible refine eq32_cases (α := Int × Int) (fun _ => ?_) (fun _ => ?_)
    | with_reducible refine eq32_start (α := Int) (fun _ => ?_) (fun _ => ?_) ?_
    | with_reducible refine eq32_same (fun _ => ?_)
    | with_reducible refine eq32_seq ?_ (fun _ => ?_)
    | with_reducible exact eq32_refl _
    | with_reducible refine eq32_forN (fun _ _ => ?_)
    | with_reducible refine eq32_foldP (f := fun i (s : Int) => Haxx.hgemvzz_30_I _ _ ((i : Int) + 1) s) (fun s => s) INCY (fun _ _ _ _ => ?_)
    | with_reducible refine eq32_foldP (f := fun i (s : Int) => Haxx.hgemvzz_40_I _ _ _ ((i : Int) + 1) s) (fun s => s) INCY (fun _ _ _ _ => ?_)
    | with_reducible refine eq32_foldP (f := fun i (s : Int) => Haxx.hgemvzz_70_I _ _ _ _ _ _ _ _ _ ((i : Int) + 1) s) (fun s => s) INCY (fun _ _ _ _ => ?_)
    | with_reducible refine eq32_foldP (f := fun i (s : Int) => Haxx.hgemvzz_60_J _ _ _ _ _ _ _ ((i : Int) + 1) s) (fun s => s) INCX (fun _ _ _ _ => ?_)
    | with_reducible refine eq32_foldP (f := fun i (s : Int) => Haxx.hgemvzz_80_J _ _ _ _ _ _ _ _ _ ((i : Int) + 1) s) (fun s => s) INCX (fun _ _ _ _ => ?_)
    | with_reducible refine eq32_foldP (f := fun i (s : Cplx F × Cplx F × Int) => Haxx.hgemvzz_120_I _ _ _ _ _ ((i : Int) + 1) s.1 s.2.1 s.2.2) (fun s => s.2.2) INCX (fun _ _ _ _ => ?_)
    | with_reducible refine eq32_foldP (f := fun i (s : Cplx F × Cplx F × Int) => Haxx.hgemvzz_130_I _ _ _ _ _ ((i : Int) + 1) s.1 s.2.1 s.2.2) (fun s => s.2.2) INCX (fun _ _ _ _ => ?_)
    | with_reducible refine eq32_foldP (f := fun i (s : Int) => Haxx.hgemvzz_110_J _ _ _ _ _ _ _ _ ((i : Int) + 1) s) (fun s => s) INCY (fun _ _ _ _ => ?_)
    | with_reducible refine eq32_foldP (f := fun i (s : Int) => Haxx.hgemvzz_140_J _ _ _ _ _ _ _ _ _ _ ((i : Int) + 1) s) (fun s => s) INCY (fun _ _ _ _ => ?_)
    | with_reducible refine eq32_fold (fun _ _ _ => ?_)
    | (refine hx.step ?_ ?_ ?_ ?_ (by assumption) (by assumption) <;> omega)
    | (refine hx.pred ?_ ?_ <;> omega)
    | (refine hx.predMul ?_ ?_ <;> omega)
    | (refine hx.start ?_ ?_ (by assumption) <;> omega)
    | (refine hy.step ?_ ?_ ?_ ?_ (by assumption) (by assumption) <;> omega)
    | (refine hy.pred ?_ ?_ <;> omega)
    | (refine hy.predMul ?_ ?_ <;> omega)
    | (refine hy.start ?_ ?_ (by assumption) <;> omega)
    | unfold Haxx.F32.hgemvzz Haxx.hgemvzz
    | unfold Haxx.F32.hgemvzz_10_I Haxx.hgemvzz_10_I
    | unfold Haxx.F32.hgemvzz_20_I Haxx.hgemvzz_20_I
    | unfold Haxx.F32.hgemvzz_if58 Haxx.hgemvzz_if58
    | unfold Haxx.F32.hgemvzz_30_I Haxx.hgemvzz_30_I
    | unfold Haxx.F32.hgemvzz_40_I Haxx.hgemvzz_40_I
    | unfold Haxx.F32.hgemvzz_if71 Haxx.hgemvzz_if71
    | unfold Haxx.F32.hgemvzz_if57 Haxx.hgemvzz_if57
    | unfold Haxx.F32.hgemvzz_if56 Haxx.hgemvzz_if56
    | unfold Haxx.F32.hgemvzz_50_I Haxx.hgemvzz_50_I
    | unfold Haxx.F32.hgemvzz_60_J Haxx.hgemvzz_60_J
    | unfold Haxx.F32.hgemvzz_70_I Haxx.hgemvzz_70_I
    | unfold Haxx.F32.hgemvzz_80_J Haxx.hgemvzz_80_J
    | unfold Haxx.F32.hgemvzz_if91 Haxx.hgemvzz_if91
    | unfold Haxx.F32.hgemvzz_90_I Haxx.hgemvzz_90_I
    | unfold Haxx.F32.hgemvzz_100_I Haxx.hgemvzz_100_I
    | unfold Haxx.F32.hgemvzz_if126 Haxx.hgemvzz_if126
    | unfold Haxx.F32.hgemvzz_110_J Haxx.hgemvzz_110_J
    | unfold Haxx.F32.hgemvzz_120_I Haxx.hgemvzz_120_I
    | unfold Haxx.F32.hgemvzz_130_I Haxx.hgemvzz_130_I
    | unfold Haxx.F32.hgemvzz_if152 Haxx.hgemvzz_if152
    | unfold Haxx.F32.hgemvzz_140_J Haxx.hgemvzz_140_J
    | unfold Haxx.F32.hgemvzz_if122 Haxx.hgemvzz_if122
    | unfold Haxx.F32.hgemvzz_if89 Haxx.hgemvzz_if89

end Haxx.F32
