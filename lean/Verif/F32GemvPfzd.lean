import Verif.F32Gemvzd
import Verif.FGemvzd

/-! Generated by `tools/gen_f32.py`. -/

namespace Haxx.F32
open Arith
variable {F : Type} [Arith F] [ArithEq F]
set_option maxHeartbeats 4000000
set_option linter.unusedSectionVars false
set_option linter.unusedVariables false

theorem hgemvzd_eq32 (TRANS : Char) (M : Int) (N : Int) (ALPHA : Cplx F) (A : Int) (LDA : Int) (X : Int) (INCX : Int) (BETA : F) (Y : Int) (INCY : Int) {L : Int} (hM : 0 < M) (hN : 0 < N) (hML : M ≤ L) (hNL : N ≤ L) (hx : VFit L INCX) (hy : VFit L INCY) :
    Eq32 (Haxx.F32.hgemvzd TRANS M N ALPHA A LDA X INCX BETA Y INCY (F := F)) (Haxx.hgemvzd TRANS M N ALPHA A LDA X INCX BETA Y INCY) (fun _ => True) := by
  repeat' first
    | exact eq32_pure trivial
    | exact eq32_pure rfl
    | exact eq32_pure ⟨rfl, rfl⟩
    | with_reducible refine eq32_i32 ?_ ?_
    | with_reducible refine eq32_last ?_ rfl
    | with_reducible refine eq32_ite (fun _ => ?_) (fun _ => ?_)
    | with_reducible refine eq32_cases (α := Int × Int) (fun _ => ?_) (fun _ => ?_)
    | with_reducible refine eq32_start (α := Int) (fun _ => ?_) (fun _ => ?_) ?_
    | with_reducible refine eq32_same (fun _ => ?_)
    | with_reducible refine eq32_seq ?_ (fun _ => ?_)
    | with_reducible exact eq32_refl _
    | with_reducible refine eq32_forN (fun _ _ => ?_)
    | with_reducible refine eq32_foldP (f := fun i (s : Int) => Haxx.hgemvzd_30_I _ _ ((i : Int) + 1) s) (fun s => s) INCY (fun _ _ _ _ => ?_)
    | with_reducible refine eq32_foldP (f := fun i (s : Int) => Haxx.hgemvzd_40_I _ _ _ ((i : Int) + 1) s) (fun s => s) INCY (fun _ _ _ _ => ?_)
    | with_reducible refine eq32_foldP (f := fun i (s : Int) => Haxx.hgemvzd_70_I _ _ _ _ _ _ _ _ _ ((i : Int) + 1) s) (fun s => s) INCY (fun _ _ _ _ => ?_)
    | with_reducible refine eq32_foldP (f := fun i (s : Int) => Haxx.hgemvzd_60_J _ _ _ _ _ _ _ ((i : Int) + 1) s) (fun s => s) INCX (fun _ _ _ _ => ?_)
    | with_reducible refine eq32_foldP (f := fun i (s : Int) => Haxx.hgemvzd_80_J _ _ _ _ _ _ _ _ _ ((i : Int) + 1) s) (fun s => s) INCX (fun _ _ _ _ => ?_)
    | with_reducible refine eq32_foldP (f := fun i (s : Cplx F × Cplx F × Int) => Haxx.hgemvzd_120_I _ _ _ _ _ ((i : Int) + 1) s.1 s.2.1 s.2.2) (fun s => s.2.2) INCX (fun _ _ _ _ => ?_)
    | with_reducible refine eq32_foldP (f := fun i (s : Cplx F × Cplx F × Int) => Haxx.hgemvzd_130_I _ _ _ _ _ ((i : Int) + 1) s.1 s.2.1 s.2.2) (fun s => s.2.2) INCX (fun _ _ _ _ => ?_)
    | with_reducible refine eq32_foldP (f := fun i (s : Int) => Haxx.hgemvzd_110_J _ _ _ _ _ _ _ _ ((i : Int) + 1) s) (fun s => s) INCY (fun _ _ _ _ => ?_)
    | with_reducible refine eq32_foldP (f := fun i (s : Int) => Haxx.hgemvzd_140_J _ _ _ _ _ _ _ _ _ _ ((i : Int) + 1) s) (fun s => s) INCY (fun _ _ _ _ => ?_)
    | with_reducible refine eq32_fold (fun _ _ _ => ?_)
    | (refine hx.step ?_ ?_ ?_ ?_ (by assumption) (by assumption) <;> omega)
    | (refine hx.pred ?_ ?_ <;> omega)
    | (refine hx.predMul ?_ ?_ <;> omega)
    | (refine hx.start ?_ ?_ (by assumption) <;> omega)
    | (refine hy.step ?_ ?_ ?_ ?_ (by assumption) (by assumption) <;> omega)
    | (refine hy.pred ?_ ?_ <;> omega)
    | (refine hy.predMul ?_ ?_ <;> omega)
    | (refine hy.start ?_ ?_ (by assumption) <;> omega)
    | unfold Haxx.F32.hgemvzd Haxx.hgemvzd
    | unfold Haxx.F32.hgemvzd_10_I Haxx.hgemvzd_10_I
    | unfold Haxx.F32.hgemvzd_20_I Haxx.hgemvzd_20_I
    | unfold Haxx.F32.hgemvzd_if59 Haxx.hgemvzd_if59
    | unfold Haxx.F32.hgemvzd_30_I Haxx.hgemvzd_30_I
    | unfold Haxx.F32.hgemvzd_40_I Haxx.hgemvzd_40_I
    | unfold Haxx.F32.hgemvzd_if72 Haxx.hgemvzd_if72
    | unfold Haxx.F32.hgemvzd_if58 Haxx.hgemvzd_if58
    | unfold Haxx.F32.hgemvzd_if57 Haxx.hgemvzd_if57
    | unfold Haxx.F32.hgemvzd_50_I Haxx.hgemvzd_50_I
    | unfold Haxx.F32.hgemvzd_60_J Haxx.hgemvzd_60_J
    | unfold Haxx.F32.hgemvzd_70_I Haxx.hgemvzd_70_I
    | unfold Haxx.F32.hgemvzd_80_J Haxx.hgemvzd_80_J
    | unfold Haxx.F32.hgemvzd_if92 Haxx.hgemvzd_if92
    | unfold Haxx.F32.hgemvzd_90_I Haxx.hgemvzd_90_I
    | unfold Haxx.F32.hgemvzd_100_I Haxx.hgemvzd_100_I
    | unfold Haxx.F32.hgemvzd_if127 Haxx.hgemvzd_if127
    | unfold Haxx.F32.hgemvzd_110_J Haxx.hgemvzd_110_J
    | unfold Haxx.F32.hgemvzd_120_I Haxx.hgemvzd_120_I
    | unfold Haxx.F32.hgemvzd_130_I Haxx.hgemvzd_130_I
    | unfold Haxx.F32.hgemvzd_if153 Haxx.hgemvzd_if153
    | unfold Haxx.F32.hgemvzd_140_J Haxx.hgemvzd_140_J
    | unfold Haxx.F32.hgemvzd_if123 Haxx.hgemvzd_if123
    | unfold Haxx.F32.hgemvzd_if90 Haxx.hgemvzd_if90

end Haxx.F32
