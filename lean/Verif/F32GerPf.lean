import Verif.F32Ger
import Verif.FGer

/-! Generated by `tools/gen_f32.py`. -/

namespace Haxx.F32
open Arith
variable {F : Type} [Arith F] [ArithEq F]
set_option maxHeartbeats 4000000
set_option linter.unusedSectionVars false
set_option linter.unusedVariables false

theorem hgerud_eq32 (M : Int) (N : Int) (ALPHA : F) (X : Int) (INCX : Int) (Y : Int) (INCY : Int) (A : Int) (LDA : Int) (hM : 0 < M) (hN : 0 < N) (hx : VFit M INCX) (hy : VFit N INCY) :
    Eq32 (Haxx.F32.hgerud M N ALPHA X INCX Y INCY A LDA (F := F)) (Haxx.hgerud M N ALPHA X INCX Y INCY A LDA) (fun _ => True) := by
  repeat' first
    | exact eq32_pure trivial
    | exact eq32_pure rfl
    | exact eq32_pure ⟨rfl, rfl⟩
    | with_reducible refine eq32_i32 ?_ ?_
    | with_reducible refine eq32_last ?_ rfl
    | with_reducible refine eq32_ite (fun _ => ?_) (fun _ => ?_)
    | with_reducible refine eq32_cases (α := Int × Int) (fun _ => ?_) (fun _ => ?_)
    | with_reducible refine eq32_start (α := Int) (fun _ => ?_) (fun _ => ?_) ?_
    | with_reducible refine eq32_same (fun _ => ?_)
    | with_reducible refine eq32_seq ?_ (fun _ => ?_)
    | with_reducible exact eq32_refl _
    | with_reducible refine eq32_forN (fun _ _ => ?_)
    | with_reducible refine eq32_foldP (f := fun i (s : Int) => Haxx.hgerud_30_I _ _ _ _ _ _ ((i : Int) + 1) s) (fun s => s) INCX (fun _ _ _ _ => ?_)
    | with_reducible refine eq32_foldP (f := fun i (s : Int) => Haxx.hgerud_20_J _ _ _ _ _ _ _ ((i : Int) + 1) s) (fun s => s) INCY (fun _ _ _ _ => ?_)
    | with_reducible refine eq32_foldP (f := fun i (s : Int) => Haxx.hgerud_40_J _ _ _ _ _ _ _ _ _ ((i : Int) + 1) s) (fun s => s) INCY (fun _ _ _ _ => ?_)
    | with_reducible refine eq32_fold (fun _ _ _ => ?_)
    | (refine hx.step ?_ ?_ ?_ ?_ (by assumption) (by assumption) <;> omega)
    | (refine hx.pred ?_ ?_ <;> omega)
    | (refine hx.predMul ?_ ?_ <;> omega)
    | (refine hx.start ?_ ?_ (by assumption) <;> omega)
    | (refine hy.step ?_ ?_ ?_ ?_ (by assumption) (by assumption) <;> omega)
    | (refine hy.pred ?_ ?_ <;> omega)
    | (refine hy.predMul ?_ ?_ <;> omega)
    | (refine hy.start ?_ ?_ (by assumption) <;> omega)
    | unfold Haxx.F32.hgerud Haxx.hgerud
    | unfold Haxx.F32.hgerud_10_I Haxx.hgerud_10_I
    | unfold Haxx.F32.hgerud_if36 Haxx.hgerud_if36
    | unfold Haxx.F32.hgerud_20_J Haxx.hgerud_20_J
    | unfold Haxx.F32.hgerud_30_I Haxx.hgerud_30_I
    | unfold Haxx.F32.hgerud_if53 Haxx.hgerud_if53
    | unfold Haxx.F32.hgerud_40_J Haxx.hgerud_40_J
    | unfold Haxx.F32.hgerud_if34 Haxx.hgerud_if34

theorem hgeruz_eq32 (M : Int) (N : Int) (ALPHA : Cplx F) (X : Int) (INCX : Int) (Y : Int) (INCY : Int) (A : Int) (LDA : Int) (hM : 0 < M) (hN : 0 < N) (hx : VFit M INCX) (hy : VFit N INCY) :
    Eq32 (Haxx.F32.hgeruz M N ALPHA X INCX Y INCY A LDA (F := F)) (Haxx.hgeruz M N ALPHA X INCX Y INCY A LDA) (fun _ => True) := by
  repeat' first
    | exact eq32_pure trivial
    | exact eq32_pure rfl
    | exact eq32_pure ⟨rfl, rfl⟩
    | with_reducible refine eq32_i32 ?_ ?_
    | with_reducible refine eq32_last ?_ rfl
    | with_reducible refine eq32_ite (fun _ => ?_) (fun _ => ?_)
    | with_reducible refine eq32_cases (α := Int × Int) (fun _ => ?_) (fun _ => ?_)
    | with_reducible refine eq32_start (α := Int) (fun _ => ?_) (fun _ => ?_) ?_
    | with_reducible refine eq32_same (fun _ => ?_)
    | with_reducible refine eq32_seq ?_ (fun _ => ?_)
    | with_reducible exact eq32_refl _
    | with_reducible refine eq32_forN (fun _ _ => ?_)
    | with_reducible refine eq32_foldP (f := fun i (s : Int) => Haxx.hgeruz_30_I _ _ _ _ _ _ _ _ _ ((i : Int) + 1) s) (fun s => s) INCX (fun _ _ _ _ => ?_)
    | with_reducible refine eq32_foldP (f := fun i (s : Int) => Haxx.hgeruz_20_J _ _ _ _ _ _ _ ((i : Int) + 1) s) (fun s => s) INCY (fun _ _ _ _ => ?_)
    | with_reducible refine eq32_foldP (f := fun i (s : Int) => Haxx.hgeruz_40_J _ _ _ _ _ _ _ _ _ ((i : Int) + 1) s) (fun s => s) INCY (fun _ _ _ _ => ?_)
    | with_reducible refine eq32_fold (fun _ _ _ => ?_)
    | (refine hx.step ?_ ?_ ?_ ?_ (by assumption) (by assumption) <;> omega)
    | (refine hx.pred ?_ ?_ <;> omega)
    | (refine hx.predMul ?_ ?_ <;> omega)
    | (refine hx.start ?_ ?_ (by assumption) <;> omega)
    | (refine hy.step ?_ ?_ ?_ ?_ (by assumption) (by assumption) <;> omega)
    | (refine hy.pred ?_ ?_ <;> omega)
    | (refine hy.predMul ?_ ?_ <;> omega)
    | (refine hy.start ?_ ?_ (by assumption) <;> omega)
    | unfold Haxx.F32.hgeruz Haxx.hgeruz
    | unfold Haxx.F32.hgeruz_10_I Haxx.hgeruz_10_I
    | unfold Haxx.F32.hgeruz_if35 Haxx.hgeruz_if35
    | unfold Haxx.F32.hgeruz_20_J Haxx.hgeruz_20_J
    | unfold Haxx.F32.hgeruz_30_I Haxx.hgeruz_30_I
    | unfold Haxx.F32.hgeruz_if54 Haxx.hgeruz_if54
    | unfold Haxx.F32.hgeruz_40_J Haxx.hgeruz_40_J
    | unfold Haxx.F32.hgeruz_if33 Haxx.hgeruz_if33

theorem hgeruh_eq32 (M : Int) (N : Int) (ALPHA : Quat F) (X : Int) (INCX : Int) (Y : Int) (INCY : Int) (A : Int) (LDA : Int) (hM : 0 < M) (hN : 0 < N) (hx : VFit M INCX) (hy : VFit N INCY) :
    Eq32 (Haxx.F32.hgeruh M N ALPHA X INCX Y INCY A LDA (F := F)) (Haxx.hgeruh M N ALPHA X INCX Y INCY A LDA) (fun _ => True) := by
  repeat' first
    | exact eq32_pure trivial
    | exact eq32_pure rfl
    | exact eq32_pure ⟨rfl, rfl⟩
    | with_reducible refine eq32_i32 ?_ ?_
    | with_reducible refine eq32_last ?_ rfl
    | with_reducible refine eq32_ite (fun _ => ?_) (fun _ => ?_)
    | with_reducible refine eq32_cases (α := Int × Int) (fun _ => ?_) (fun _ => ?_)
    | with_reducible refine eq32_start (α := Int) (fun _ => ?_) (fun _ => ?_) ?_
    | with_reducible refine eq32_same (fun _ => ?_)
    | with_reducible refine eq32_seq ?_ (fun _ => ?_)
    | with_reducible exact eq32_refl _
    | with_reducible refine eq32_forN (fun _ _ => ?_)
    | with_reducible refine eq32_foldP (f := fun i (s : Int) => Haxx.hgeruh_30_I _ _ _ _ _ _ _ _ _ _ _ _ _ ((i : Int) + 1) s) (fun s => s) INCX (fun _ _ _ _ => ?_)
    | with_reducible refine eq32_foldP (f := fun i (s : Int) => Haxx.hgeruh_20_J _ _ _ _ _ _ _ ((i : Int) + 1) s) (fun s => s) INCY (fun _ _ _ _ => ?_)
    | with_reducible refine eq32_foldP (f := fun i (s : Int) => Haxx.hgeruh_40_J _ _ _ _ _ _ _ _ _ ((i : Int) + 1) s) (fun s => s) INCY (fun _ _ _ _ => ?_)
    | with_reducible refine eq32_fold (fun _ _ _ => ?_)
    | (refine hx.step ?_ ?_ ?_ ?_ (by assumption) (by assumption) <;> omega)
    | (refine hx.pred ?_ ?_ <;> omega)
    | (refine hx.predMul ?_ ?_ <;> omega)
    | (refine hx.start ?_ ?_ (by assumption) <;> omega)
    | (refine hy.step ?_ ?_ ?_ ?_ (by assumption) (by assumption) <;> omega)
    | (refine hy.pred ?_ ?_ <;> omega)
    | (refine hy.predMul ?_ ?_ <;> omega)
    | (refine hy.start ?_ ?_ (by assumption) <;> omega)
    | unfold Haxx.F32.hgeruh Haxx.hgeruh
    | unfold Haxx.F32.hgeruh_10_I Haxx.hgeruh_10_I
    | unfold Haxx.F32.hgeruh_if36 Haxx.hgeruh_if36
    | unfold Haxx.F32.hgeruh_20_J Haxx.hgeruh_20_J
    | unfold Haxx.F32.hgeruh_30_I Haxx.hgeruh_30_I
    | unfold Haxx.F32.hgeruh_if63 Haxx.hgeruh_if63
    | unfold Haxx.F32.hgeruh_40_J Haxx.hgeruh_40_J
    | unfold Haxx.F32.hgeruh_if34 Haxx.hgeruh_if34

theorem hgercd_eq32 (M : Int) (N : Int) (ALPHA : F) (X : Int) (INCX : Int) (Y : Int) (INCY : Int) (A : Int) (LDA : Int) (hM : 0 < M) (hN : 0 < N) (hx : VFit M INCX) (hy : VFit N INCY) :
    Eq32 (Haxx.F32.hgercd M N ALPHA X INCX Y INCY A LDA (F := F)) (Haxx.hgercd M N ALPHA X INCX Y INCY A LDA) (fun _ => True) := by
  repeat' first
    | exact eq32_pure trivial
    | exact eq32_pure rfl
    | exact eq32_pure ⟨rfl, rfl⟩
    | with_reducible refine eq32_i32 ?_ ?_
    | with_reducible refine eq32_last ?_ rfl
    | with_reducible refine eq32_ite (fun _ => ?_) (fun _ => ?_)
    | with_reducible refine eq32_cases (α := Int × Int) (fun _ => ?_) (fun _ => ?_)
    | with_reducible refine eq32_start (α := Int) (fun _ => ?_) (fun _ => ?_) ?_
    | with_reducible refine eq32_same (fun _ => ?_)
    | with_reducible refine eq32_seq ?_ (fun _ => ?_)
    | with_reducible exact eq32_refl _
    | with_reducible refine eq32_forN (fun _ _ => ?_)
    | with_reducible refine eq32_foldP (f := fun i (s : Int) => Haxx.hgercd_30_I _ _ _ _ _ _ ((i : Int) + 1) s) (fun s => s) INCX (fun _ _ _ _ => ?_)
    | with_reducible refine eq32_foldP (f := fun i (s : Int) => Haxx.hgercd_20_J _ _ _ _ _ _ _ ((i : Int) + 1) s) (fun s => s) INCY (fun _ _ _ _ => ?_)
    | with_reducible refine eq32_foldP (f := fun i (s : Int) => Haxx.hgercd_40_J _ _ _ _ _ _ _ _ _ ((i : Int) + 1) s) (fun s => s) INCY (fun _ _ _ _ => ?_)
    | with_reducible refine eq32_fold (fun _ _ _ => ?_)
    | (refine hx.step ?_ ?_ ?_ ?_ (by assumption) (by assumption) <;> omega)
    | (refine hx.pred ?_ ?_ <;> omega)
    | (refine hx.predMul ?_ ?_ <;> omega)
    | (refine hx.start ?_ ?_ (by assumption) <;> omega)
    | (refine hy.step ?_ ?_ ?_ ?_ (by assumption) (by assumption) <;> omega)
    | (refine hy.pred ?_ ?_ <;> omega)
    | (refine hy.predMul ?_ ?_ <;> omega)
    | (refine hy.start ?_ ?_ (by assumption) <;> omega)
    | unfold Haxx.F32.hgercd Haxx.hgercd
    | unfold Haxx.F32.hgercd_10_I Haxx.hgercd_10_I
    | unfold Haxx.F32.hgercd_if36 Haxx.hgercd_if36
    | unfold Haxx.F32.hgercd_20_J Haxx.hgercd_20_J
    | unfold Haxx.F32.hgercd_30_I Haxx.hgercd_30_I
    | unfold Haxx.F32.hgercd_if53 Haxx.hgercd_if53
    | unfold Haxx.F32.hgercd_40_J Haxx.hgercd_40_J
    | unfold Haxx.F32.hgercd_if34 Haxx.hgercd_if34

theorem hgercz_eq32 (M : Int) (N : Int) (ALPHA : Cplx F) (X : Int) (INCX : Int) (Y : Int) (INCY : Int) (A : Int) (LDA : Int) (hM : 0 < M) (hN : 0 < N) (hx : VFit M INCX) (hy : VFit N INCY) :
    Eq32 (Haxx.F32.hgercz M N ALPHA X INCX Y INCY A LDA (F := F)) (Haxx.hgercz M N ALPHA X INCX Y INCY A LDA) (fun _ => True) := by
  repeat' first
    | exact eq32_pure trivial
    | exact eq32_pure rfl
    | exact eq32_pure ⟨rfl, rfl⟩
    | with_reducible refine eq32_i32 ?_ ?_
    | with_reducible refine eq32_last ?_ rfl
    | with_reducible refine eq32_ite (fun _ => ?_) (fun _ => ?_)
    | with_reducible refine eq32_cases (α := Int × Int) (fun _ => ?_) (fun _ => ?_)
    | with_reducible refine eq32_start (α := Int) (fun _ => ?_) (fun _ => ?_) ?_
    | with_reducible refine eq32_same (fun _ => ?_)
    | with_reducible refine eq32_seq ?_ (fun _ => ?_)
    | with_reducible exact eq32_refl _
    | with_reducible refine eq32_forN (fun _ _ => ?_)
    | with_reducible refine eq32_foldP (f := fun i (s : Int) => Haxx.hgercz_30_I _ _ _ _ _ _ _ _ _ ((i : Int) + 1) s) (fun s => s) INCX (fun _ _ _ _ => ?_)
    | with_reducible refine eq32_foldP (f := fun i (s : Int) => Haxx.hgercz_20_J _ _ _ _ _ _ _ ((i : Int) + 1) s) (fun s => s) INCY (fun _ _ _ _ => ?_)
    | with_reducible refine eq32_foldP (f := fun i (s : Int) => Haxx.hgercz_40_J _ _ _ _ _ _ _ _ _ ((i : Int) + 1) s) (fun s => s) INCY (fun _ _ _ _ => ?_)
    | with_reducible refine eq32_fold (fun _ _ _ => ?_)
    | (refine hx.step ?_ ?_ ?_ ?_ (by assumption) (by assumption) <;> omega)
    | (refine hx.pred ?_ ?_ <;> omega)
    | (refine hx.predMul ?_ ?_ <;> omega)
    | (refine hx.start ?_ ?_ (by assumption) <;> omega)
    | (refine hy.step ?_ ?_ ?_ ?_ (by assumption) (by assumption) <;> omega)
    | (refine hy.pred ?_ ?_ <;> omega)
    | (refine hy.predMul ?_ ?_ <;> omega)
    | (refine hy.start ?_ ?_ (by assumption) <;> omega)
    | unfold Haxx.F32.hgercz Haxx.hgercz
    | unfold Haxx.F32.hgercz_10_I Haxx.hgercz_10_I
    | unfold Haxx.F32.hgercz_if35 Haxx.hgercz_if35
    | unfold Haxx.F32.hgercz_20_J Haxx.hgercz_20_J
    | unfold Haxx.F32.hgercz_30_I Haxx.hgercz_30_I
    | unfold Haxx.F32.hgercz_if54 Haxx.hgercz_if54
    | unfold Haxx.F32.hgercz_40_J Haxx.hgercz_40_J
    | unfold Haxx.F32.hgercz_if33 Haxx.hgercz_if33

theorem hgerch_eq32 (M : Int) (N : Int) (ALPHA : Quat F) (X : Int) (INCX : Int) (Y : Int) (INCY : Int) (A : Int) (LDA : Int) (hM : 0 < M) (hN : 0 < N) (hx : VFit M INCX) (hy : VFit N INCY) :
    Eq32 (Haxx.F32.hgerch M N ALPHA X INCX Y INCY A LDA (F := F)) (Haxx.hgerch M N ALPHA X INCX Y INCY A LDA) (fun _ => True) := by
  repeat' first
    | exact eq32_pure trivial
    | exact eq32_pure rfl
    | exact eq32_pure ⟨rfl, rfl⟩
    | with_reducible refine eq32_i32 ?_ ?_
    | with_reducible refine eq32_last ?_ rfl
    | with_reducible refine eq32_ite (fun _ => ?_) (fun _ => ?_)
    | with_reducible refine eq32_cases (α := Int × Int) (fun _ => ?_) (fun _ => ?_)
    | with_reducible refine eq32_start (α := Int) (fun _ => ?_) (fun _ => ?_) ?_
    | with_reducible refine eq32_same (fun _ => ?_)
    | with_reducible refine eq32_seq ?_ (fun _ => ?_)
    | with_reducible exact eq32_refl _
    | with_reducible refine eq32_forN (fun _ _ => ?_)
    | with_reducible refine eq32_foldP (f := fun i (s : Int) => Haxx.hgerch_30_I _ _ _ _ _ _ _ _ _ _ _ _ _ ((i : Int) + 1) s) (fun s => s) INCX (fun _ _ _ _ => ?_)
    | with_reducible refine eq32_foldP (f := fun i (s : Int) => Haxx.hgerch_20_J _ _ _ _ _ _ _ ((i : Int) + 1) s) (fun s => s) INCY (fun _ _ _ _ => ?_)
    | with_reducible refine eq32_foldP (f := fun i (s : Int) => Haxx.hgerch_40_J _ _ _ _ _ _ _ _ _ ((i : Int) + 1) s) (fun s => s) INCY (fun _ _ _ _ => ?_)
    | with_reducible refine eq32_fold (fun _ _ _ => ?_)
    | (refine hx.step ?_ ?_ ?_ ?_ (by assumption) (by assumption) <;> omega)
    | (refine hx.pred ?_ ?_ <;> omega)
    | (refine hx.predMul ?_ ?_ <;> omega)
    | (refine hx.start ?_ ?_ (by assumption) <;> omega)
    | (refine hy.step ?_ ?_ ?_ ?_ (by assumption) (by assumption) <;> omega)
    | (refine hy.pred ?_ ?_ <;> omega)
    | (refine hy.predMul ?_ ?_ <;> omega)
    | (refine hy.start ?_ ?_ (by assumption) <;> omega)
    | unfold Haxx.F32.hgerch Haxx.hgerch
    | unfold Haxx.F32.hgerch_10_I Haxx.hgerch_10_I
    | unfold Haxx.F32.hgerch_if36 Haxx.hgerch_if36
    | unfold Haxx.F32.hgerch_20_J Haxx.hgerch_20_J
    | unfold Haxx.F32.hgerch_30_I Haxx.hgerch_30_I
    | unfold Haxx.F32.hgerch_if63 Haxx.hgerch_if63
    | unfold Haxx.F32.hgerch_40_J Haxx.hgerch_40_J
    | unfold Haxx.F32.hgerch_if34 Haxx.hgerch_if34

end Haxx.F32
