import Verif.F32Gemvhz
import Verif.FGemvhz

/-! Generated by `tools/gen_f32.py`. -/

namespace Haxx.F32
open Arith
variable {F : Type} [Arith F] [ArithEq F]
set_option maxHeartbeats 4000000
set_option linter.unusedSectionVars false
set_option linter.unusedVariables false

theorem hgemvhz_eq32 (TRANS : Char) (M : Int) (N : Int) (ALPHA : Quat F) (A : Int) (LDA : Int) (X : Int) (INCX : Int) (BETA : Cplx F) (Y : Int) (INCY : Int) {L : Int} (hM : 0 < M) (hN : 0 < N) (hML : M ≤ L) (hNL : N ≤ L) (hx : VFit L INCX) (hy : VFit L INCY) :
    Eq32 (Haxx.F32.hgemvhz TRANS M N ALPHA A LDA X INCX BETA Y INCY (F := F)) (Haxx.hgemvhz TRANS M N ALPHA A LDA X INCX BETA Y INCY) (fun _ => True) := by
  repeat' first
    | exact eq32_pure trivial
    | exact eq32_pure rfl
    | exact eq32_pure ⟨rfl, rfl⟩
    | with_reducible refine eq32_i32 ?_ ?_
    | with_reducible refine eq32_last ?_ rfl
    | with_reducible refine eq32_ite (fun _ => ?_) (fun _ => ?_)
    | with_reducible refine eq32_cases (α := Int × Int) (fun _ => ?_) (fun _ => ?_)
    | with_reducible refine eq32_start (α := Int) (fun _ => ?_) (fun _ => ?_) ?_
    | with_reducible refine eq32_same (fun _ => ?_)
    | with_reducible refine eq32_seq ?_ (fun _ => ?_)
    | with_reducible exact eq32_refl _
    | with_reducible refine eq32_forN (fun _ _ => ?_)
    | with_reducible refine eq32_foldP (f := fun i (s : Int) => Haxx.hgemvhz_30_I _ _ ((i : Int) + 1) s) (fun s => s) INCY (fun _ _ _ _ => ?_)
    | with_reducible refine eq32_foldP (f := fun i (s : Int) => Haxx.hgemvhz_40_I _ _ _ ((i : Int) + 1) s) (fun s => s) INCY (fun _ _ _ _ => ?_)
    | with_reducible refine eq32_foldP (f := fun i (s : Int) => Haxx.hgemvhz_70_I _ _ _ _ _ _ _ _ _ _ _ _ _ ((i : Int) + 1) s) (fun s => s) INCY (fun _ _ _ _ => ?_)
    | with_reducible refine eq32_foldP (f := fun i (s : Int) => Haxx.hgemvhz_60_J _ _ _ _ _ _ _ ((i : Int) + 1) s) (fun s => s) INCX (fun _ _ _ _ => ?_)
    | with_reducible refine eq32_foldP (f := fun i (s : Int) => Haxx.hgemvhz_80_J _ _ _ _ _ _ _ _ _ ((i : Int) + 1) s) (fun s => s) INCX (fun _ _ _ _ => ?_)
    | with_reducible refine eq32_foldP (f := fun i (s : Cplx F × Cplx F × Int) => Haxx.hgemvhz_120_I _ _ _ _ _ ((i : Int) + 1) s.1 s.2.1 s.2.2) (fun s => s.2.2) INCX (fun _ _ _ _ => ?_)
    | with_reducible refine eq32_foldP (f := fun i (s : Cplx F × Cplx F × Int) => Haxx.hgemvhz_130_I _ _ _ _ _ ((i : Int) + 1) s.1 s.2.1 s.2.2) (fun s => s.2.2) INCX (fun _ _ _ _ => ?_)
    | with_reducible refine eq32_foldP (f := fun i (s : Int) => Haxx.hgemvhz_110_J _ _ _ _ _ _ _ _ ((i : Int) + 1) s) (fun s => s) INCY (fun _ _ _ _ => ?_)
    | with_reducible refine eq32_foldP (f := fun i (s : Int) => Haxx.hgemvhz_140_J _ _ _ _ _ _ _ _ _ _ ((i : Int) + 1) s) (fun s => s) INCY (fun _ _ _ _ => ?_)
    | with_reducible refine eq32_fold (fun _ _ _ => ?_)
    | (refine hx.step ?_ ?_ ?_ ?_ (by assumption) (by assumption) <;> omega)
    | (refine hx.pred ?_ ?_ <;> omega)
    | (refine hx.predMul ?_ ?_ <;> omega)
    | (refine hx.start ?_ ?_ (by assumption) <;> omega)
    | (refine hy.step ?_ ?_ ?_ ?_ (by assumption) (by assumption) <;> omega)
    | (refine hy.pred ?_ ?_ <;> omega)
    | (refine hy.predMul ?_ ?_ <;> omega)
    | (refine hy.start ?_ ?_ (by assumption) <;> omega)
    | unfold Haxx.F32.hgemvhz Haxx.hgemvhz
    | unfold Haxx.F32.hgemvhz_10_I Haxx.hgemvhz_10_I
    | unfold Haxx.F32.hgemvhz_20_I Haxx.hgemvhz_20_I
    | unfold Haxx.F32.hgemvhz_if59 Haxx.hgemvhz_if59
    | unfold Haxx.F32.hgemvhz_30_I Haxx.hgemvhz_30_I
    | unfold Haxx.F32.hgemvhz_40_I Haxx.hgemvhz_40_I
    | unfold Haxx.F32.hgemvhz_if72 Haxx.hgemvhz_if72
    | unfold Haxx.F32.hgemvhz_if58 Haxx.hgemvhz_if58
    | unfold Haxx.F32.hgemvhz_if57 Haxx.hgemvhz_if57
    | unfold Haxx.F32.hgemvhz_50_I Haxx.hgemvhz_50_I
    | unfold Haxx.F32.hgemvhz_60_J Haxx.hgemvhz_60_J
    | unfold Haxx.F32.hgemvhz_70_I Haxx.hgemvhz_70_I
    | unfold Haxx.F32.hgemvhz_80_J Haxx.hgemvhz_80_J
    | unfold Haxx.F32.hgemvhz_if92 Haxx.hgemvhz_if92
    | unfold Haxx.F32.hgemvhz_90_I Haxx.hgemvhz_90_I
    | unfold Haxx.F32.hgemvhz_100_I Haxx.hgemvhz_100_I
    | unfold Haxx.F32.hgemvhz_if143 Haxx.hgemvhz_if143
    | unfold Haxx.F32.hgemvhz_110_J Haxx.hgemvhz_110_J
    | unfold Haxx.F32.hgemvhz_120_I Haxx.hgemvhz_120_I
    | unfold Haxx.F32.hgemvhz_130_I Haxx.hgemvhz_130_I
    | unfold Haxx.F32.hgemvhz_if169 Haxx.hgemvhz_if169
    | unfold Haxx.F32.hgemvhz_140_J Haxx.hgemvhz_140_J
    | unfold Haxx.F32.hgemvhz_if139 Haxx.hgemvhz_if139
    | unfold Haxx.F32.hgemvhz_if90 Haxx.hgemvhz_if90

end Haxx.F32
