import Verif.F32Gemvdz
import Verif.FGemvdz

/-! Generated by `tools/gen_f32.py`. -/

namespace Haxx.F32
open Arith
variable {F : Type} [Arith F] [ArithEq F]
set_option maxHeartbeats 4000000
set_option linter.unusedSectionVars false
set_option linter.unusedVariables false

theorem hgemvdz_eq32 (TRANS : Char) (M : Int) (N : Int) (ALPHA : F) (A : Int) (LDA : Int) (X : Int) (INCX : Int) (BETA : Cplx F) (Y : Int) (INCY : Int) {L : Int} (hM : 0 < M) (hN : 0 < N) (hML : M ≤ L) (hNL : N ≤ L) (hx : VFit L INCX) (hy : VFit L INCY) :
    Eq32 (Haxx.F32.hgemvdz TRANS M N ALPHA A LDA X INCX BETA Y INCY (F := F)) (Haxx.hgemvdz TRANS M N ALPHA A LDA X INCX BETA Y INCY) (fun _ => True) := by
  repeat' first
    | exact eq32_pure trivial
    | exact eq32_pure rfl
    | exact eq32_pure ⟨rfl, rfl⟩
    | with_reducible refine eq32_i32 ?_ ?_
    | with_reducible refine eq32_last ?_ rfl
    | with_reducible refine eq32_ite (fun _ => ?_) (fun _ => ?_)
    | with_reducible refine eq32_cases (α := Int × Int) (fun _ => ?_) (fun _ => ?_)
    | with_reducible refine eq32_start (α := Int) (fun _ => ?_) (fun _ => ?_) ?_
    | with_reducible refine eq32_same (fun _ => ?_)
    | with_reducible refine eq32_seq ?_ (fun _ => ?_)
    | with_reducible exact eq32_refl _
    | with_reducible refine eq32_forN (fun _ _ => ?_)
    | with_reducible refine eq32_foldP (f := fun i (s : Int) => Haxx.hgemvdz_30_I _ _ ((i : Int) + 1) s) (fun s => s) INCY (fun _ _ _ _ => ?_)
    | with_reducible refine eq32_foldP (f := fun i (s : Int) => Haxx.hgemvdz_40_I _ _ _ ((i : Int) + 1) s) (fun s => s) INCY (fun _ _ _ _ => ?_)
    | with_reducible refine eq32_foldP (f := fun i (s : Int) => Haxx.hgemvdz_70_I _ _ _ _ _ _ _ ((i : Int) + 1) s) (fun s => s) INCY (fun _ _ _ _ => ?_)
    | with_reducible refine eq32_foldP (f := fun i (s : Int) => Haxx.hgemvdz_60_J _ _ _ _ _ _ _ ((i : Int) + 1) s) (fun s => s) INCX (fun _ _ _ _ => ?_)
    | with_reducible refine eq32_foldP (f := fun i (s : Int) => Haxx.hgemvdz_80_J _ _ _ _ _ _ _ _ _ ((i : Int) + 1) s) (fun s => s) INCX (fun _ _ _ _ => ?_)
    | with_reducible refine eq32_foldP (f := fun i (s : Cplx F × Cplx F × Int) => Haxx.hgemvdz_120_I _ _ _ _ _ ((i : Int) + 1) s.1 s.2.1 s.2.2) (fun s => s.2.2) INCX (fun _ _ _ _ => ?_)
    | with_reducible refine eq32_foldP (f := fun i (s : Cplx F × Cplx F × Int) => Haxx.hgemvdz_130_I _ _ _ _ _ ((i : Int) + 1) s.1 s.2.1 s.2.2) (fun s => s.2.2) INCX (fun _ _ _ _ => ?_)
    | with_reducible refine eq32_foldP (f := fun i (s : Int) => Haxx.hgemvdz_110_J _ _ _ _ _ _ _ _ ((i : Int) + 1) s) (fun s => s) INCY (fun _ _ _ _ => ?_)
    | with_reducible refine eq32_foldP (f := fun i (s : Int) => Haxx.hgemvdz_140_J _ _ _ _ _ _ _ _ _ _ ((i : Int) + 1) s) (fun s => s) INCY (fun _ _ _ _ => ?_)
    | with_reducible refine eq32_fold (fun _ _ _ => ?_)
    | (refine hx.step ?_ ?_ ?_ ?_ (by assumption) (by assumption) <;> omega)
    | (refine hx.pred ?_ ?_ <;> omega)
    | (refine hx.predMul ?_ ?_ <;> omega)
    | (refine hx.start ?_ ?_ (by assumption) <;> omega)
    | (refine hy.step ?_ ?_ ?_ ?_ (by assumption) (by assumption) <;> omega)
    | (refine hy.pred ?_ ?_ <;> omega)
    | (refine hy.predMul ?_ ?_ <;> omega)
    | (refine hy.start ?_ ?_ (by assumption) <;> omega)
    | unfold Haxx.F32.hgemvdz Haxx.hgemvdz
    | unfold Haxx.F32.hgemvdz_10_I Haxx.hgemvdz_10_I
    | unfold Haxx.F32.hgemvdz_20_I Haxx.hgemvdz_20_I
    | unfold Haxx.F32.hgemvdz_if58 Haxx.hgemvdz_if58
    | unfold Haxx.F32.hgemvdz_30_I Haxx.hgemvdz_30_I
    | unfold Haxx.F32.hgemvdz_40_I Haxx.hgemvdz_40_I
    | unfold Haxx.F32.hgemvdz_if71 Haxx.hgemvdz_if71
    | unfold Haxx.F32.hgemvdz_if57 Haxx.hgemvdz_if57
    | unfold Haxx.F32.hgemvdz_if56 Haxx.hgemvdz_if56
    | unfold Haxx.F32.hgemvdz_50_I Haxx.hgemvdz_50_I
    | unfold Haxx.F32.hgemvdz_60_J Haxx.hgemvdz_60_J
    | unfold Haxx.F32.hgemvdz_70_I Haxx.hgemvdz_70_I
    | unfold Haxx.F32.hgemvdz_80_J Haxx.hgemvdz_80_J
    | unfold Haxx.F32.hgemvdz_if91 Haxx.hgemvdz_if91
    | unfold Haxx.F32.hgemvdz_90_I Haxx.hgemvdz_90_I
    | unfold Haxx.F32.hgemvdz_100_I Haxx.hgemvdz_100_I
    | unfold Haxx.F32.hgemvdz_if126 Haxx.hgemvdz_if126
    | unfold Haxx.F32.hgemvdz_110_J Haxx.hgemvdz_110_J
    | unfold Haxx.F32.hgemvdz_120_I Haxx.hgemvdz_120_I
    | unfold Haxx.F32.hgemvdz_130_I Haxx.hgemvdz_130_I
    | unfold Haxx.F32.hgemvdz_if150 Haxx.hgemvdz_if150
    | unfold Haxx.F32.hgemvdz_140_J Haxx.hgemvdz_140_J
    | unfold Haxx.F32.hgemvdz_if122 Haxx.hgemvdz_if122
    | unfold Haxx.F32.hgemvdz_if89 Haxx.hgemvdz_if89

end Haxx.F32
