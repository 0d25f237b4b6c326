import Verif.F32Hblas1
import Verif.FHblas1

/-! Generated by `tools/gen_f32.py`. -/

namespace Haxx.F32
open Arith
variable {F : Type} [Arith F] [ArithEq F]
set_option maxHeartbeats 4000000
set_option linter.unusedSectionVars false
set_option linter.unusedVariables false

theorem hscald_eq32 (SIDE : Char) (N : Int) (ALPHA : F) (X : Int) (INCX : Int) (hN : 0 < N) (hx : VFit N INCX) :
    Eq32 (Haxx.F32.hscald SIDE N ALPHA X INCX (F := F)) (Haxx.hscald SIDE N ALPHA X INCX) (fun _ => True) := by
  repeat' first
    | exact eq32_pure trivial
    | exact eq32_pure rfl
    | exact eq32_pure ⟨rfl, rfl⟩
    | with_reducible refine eq32_i32 ?_ ?_
    | with_reducible refine eq32_last ?_ rfl
    | with_reducible refine eq32_ite (fun _ => ?_) (fun _ => ?_)
    | with_reducible refine eq32_cases (α := Int × Int) (fun _ => ?_) (fun _ => ?_)
    | with_reducible refine eq32_start (α := Int) (fun _ => ?_) (fun _ => ?_) ?_
    | with_reducible refine eq32_same (fun _ => ?_)
    | with_reducible refine eq32_seq ?_ (fun _ => ?_)
    | with_reducible exact eq32_refl _
    | with_reducible refine eq32_forN (fun _ _ => ?_)
    | with_reducible refine eq32_foldP (f := fun i (s : Int) => Haxx.hscald_20_I _ _ _ ((i : Int) + 1) s) (fun s => s) INCX (fun _ _ _ _ => ?_)
    | with_reducible refine eq32_fold (fun _ _ _ => ?_)
    | (refine hx.step' ?_ ?_ ?_ ?_ (by assumption) (by assumption) <;> omega)
    | (refine hx.neg ?_ ?_ <;> omega)
    | (refine hx.neg1 ?_ ?_ <;> omega)
    | (refine hx.negMul ?_ ?_ ?_ <;> omega)
    | (refine hx.start' ?_ ?_ ?_ <;> omega)
    | unfold Haxx.F32.hscald Haxx.hscald
    | unfold Haxx.F32.hscald_10_I Haxx.hscald_10_I
    | unfold Haxx.F32.hscald_20_I Haxx.hscald_20_I
    | unfold Haxx.F32.hscald_if21 Haxx.hscald_if21

theorem hscalc_eq32 (SIDE : Char) (N : Int) (ALPHA : Cplx F) (X : Int) (INCX : Int) (hN : 0 < N) (hx : VFit N INCX) :
    Eq32 (Haxx.F32.hscalc SIDE N ALPHA X INCX (F := F)) (Haxx.hscalc SIDE N ALPHA X INCX) (fun _ => True) := by
  repeat' first
    | exact eq32_pure trivial
    | exact eq32_pure rfl
    | exact eq32_pure ⟨rfl, rfl⟩
    | with_reducible refine eq32_i32 ?_ ?_
    | with_reducible refine eq32_last ?_ rfl
    | with_reducible refine eq32_ite (fun _ => ?_) (fun _ => ?_)
    | with_reducible refine eq32_cases (α := Int × Int) (fun _ => ?_) (fun _ => ?_)
    | with_reducible refine eq32_start (α := Int) (fun _ => ?_) (fun _ => ?_) ?_
    | with_reducible refine eq32_same (fun _ => ?_)
    | with_reducible refine eq32_seq ?_ (fun _ => ?_)
    | with_reducible exact eq32_refl _
    | with_reducible refine eq32_forN (fun _ _ => ?_)
    | with_reducible refine eq32_foldP (f := fun i (s : Int) => Haxx.hscalc_30_I _ _ _ ((i : Int) + 1) s) (fun s => s) INCX (fun _ _ _ _ => ?_)
    | with_reducible refine eq32_foldP (f := fun i (s : Int) => Haxx.hscalc_40_I _ _ _ ((i : Int) + 1) s) (fun s => s) INCX (fun _ _ _ _ => ?_)
    | with_reducible refine eq32_fold (fun _ _ _ => ?_)
    | (refine hx.step' ?_ ?_ ?_ ?_ (by assumption) (by assumption) <;> omega)
    | (refine hx.neg ?_ ?_ <;> omega)
    | (refine hx.neg1 ?_ ?_ <;> omega)
    | (refine hx.negMul ?_ ?_ ?_ <;> omega)
    | (refine hx.start' ?_ ?_ ?_ <;> omega)
    | unfold Haxx.F32.hscalc Haxx.hscalc
    | unfold Haxx.F32.hscalc_10_I Haxx.hscalc_10_I
    | unfold Haxx.F32.hscalc_20_I Haxx.hscalc_20_I
    | unfold Haxx.F32.hscalc_if27 Haxx.hscalc_if27
    | unfold Haxx.F32.hscalc_30_I Haxx.hscalc_30_I
    | unfold Haxx.F32.hscalc_40_I Haxx.hscalc_40_I
    | unfold Haxx.F32.hscalc_if45 Haxx.hscalc_if45
    | unfold Haxx.F32.hscalc_if26 Haxx.hscalc_if26

theorem hscalh_eq32 (SIDE : Char) (N : Int) (ALPHA : Quat F) (X : Int) (INCX : Int) (hN : 0 < N) (hx : VFit N INCX) :
    Eq32 (Haxx.F32.hscalh SIDE N ALPHA X INCX (F := F)) (Haxx.hscalh SIDE N ALPHA X INCX) (fun _ => True) := by
  repeat' first
    | exact eq32_pure trivial
    | exact eq32_pure rfl
    | exact eq32_pure ⟨rfl, rfl⟩
    | with_reducible refine eq32_i32 ?_ ?_
    | with_reducible refine eq32_last ?_ rfl
    | with_reducible refine eq32_ite (fun _ => ?_) (fun _ => ?_)
    | with_reducible refine eq32_cases (α := Int × Int) (fun _ => ?_) (fun _ => ?_)
    | with_reducible refine eq32_start (α := Int) (fun _ => ?_) (fun _ => ?_) ?_
    | with_reducible refine eq32_same (fun _ => ?_)
    | with_reducible refine eq32_seq ?_ (fun _ => ?_)
    | with_reducible exact eq32_refl _
    | with_reducible refine eq32_forN (fun _ _ => ?_)
    | with_reducible refine eq32_foldP (f := fun i (s : Int) => Haxx.hscalh_30_I _ _ _ ((i : Int) + 1) s) (fun s => s) INCX (fun _ _ _ _ => ?_)
    | with_reducible refine eq32_foldP (f := fun i (s : Int) => Haxx.hscalh_40_I _ _ _ ((i : Int) + 1) s) (fun s => s) INCX (fun _ _ _ _ => ?_)
    | with_reducible refine eq32_fold (fun _ _ _ => ?_)
    | (refine hx.step' ?_ ?_ ?_ ?_ (by assumption) (by assumption) <;> omega)
    | (refine hx.neg ?_ ?_ <;> omega)
    | (refine hx.neg1 ?_ ?_ <;> omega)
    | (refine hx.negMul ?_ ?_ ?_ <;> omega)
    | (refine hx.start' ?_ ?_ ?_ <;> omega)
    | unfold Haxx.F32.hscalh Haxx.hscalh
    | unfold Haxx.F32.hscalh_10_I Haxx.hscalh_10_I
    | unfold Haxx.F32.hscalh_20_I Haxx.hscalh_20_I
    | unfold Haxx.F32.hscalh_if28 Haxx.hscalh_if28
    | unfold Haxx.F32.hscalh_30_I Haxx.hscalh_30_I
    | unfold Haxx.F32.hscalh_40_I Haxx.hscalh_40_I
    | unfold Haxx.F32.hscalh_if70 Haxx.hscalh_if70
    | unfold Haxx.F32.hscalh_if27 Haxx.hscalh_if27

theorem haxpydh_eq32 (SIDE : Char) (N : Int) (ALPHA : F) (X : Int) (INCX : Int) (Y : Int) (INCY : Int) (hN : 0 < N) (hx : VFit N INCX) (hy : VFit N INCY) :
    Eq32 (Haxx.F32.haxpydh SIDE N ALPHA X INCX Y INCY (F := F)) (Haxx.haxpydh SIDE N ALPHA X INCX Y INCY) (fun _ => True) := by
  repeat' first
    | exact eq32_pure trivial
    | exact eq32_pure rfl
    | exact eq32_pure ⟨rfl, rfl⟩
    | with_reducible refine eq32_i32 ?_ ?_
    | with_reducible refine eq32_last ?_ rfl
    | with_reducible refine eq32_ite (fun _ => ?_) (fun _ => ?_)
    | with_reducible refine eq32_cases (α := Int × Int) (fun _ => ?_) (fun _ => ?_)
    | with_reducible refine eq32_start (α := Int) (fun _ => ?_) (fun _ => ?_) ?_
    | with_reducible refine eq32_same (fun _ => ?_)
    | with_reducible refine eq32_seq ?_ (fun _ => ?_)
    | with_reducible exact eq32_refl _
    | with_reducible refine eq32_forN (fun _ _ => ?_)
    | with_reducible refine eq32_foldP2 (f := fun i (s : Int × Int) => Haxx.haxpydh_20_I _ _ _ _ _ ((i : Int) + 1) s.1 s.2) (fun s => s.1) (fun s => s.2) INCX INCY (fun _ _ _ _ _ => ?_)
    | with_reducible refine eq32_fold (fun _ _ _ => ?_)
    | (refine hx.step' ?_ ?_ ?_ ?_ (by assumption) (by assumption) <;> omega)
    | (refine hx.neg ?_ ?_ <;> omega)
    | (refine hx.neg1 ?_ ?_ <;> omega)
    | (refine hx.negMul ?_ ?_ ?_ <;> omega)
    | (refine hx.start' ?_ ?_ ?_ <;> omega)
    | (refine hy.step' ?_ ?_ ?_ ?_ (by assumption) (by assumption) <;> omega)
    | (refine hy.neg ?_ ?_ <;> omega)
    | (refine hy.neg1 ?_ ?_ <;> omega)
    | (refine hy.negMul ?_ ?_ ?_ <;> omega)
    | (refine hy.start' ?_ ?_ ?_ <;> omega)
    | unfold Haxx.F32.haxpydh Haxx.haxpydh
    | unfold Haxx.F32.haxpydh_10_I Haxx.haxpydh_10_I
    | unfold Haxx.F32.haxpydh_20_I Haxx.haxpydh_20_I
    | unfold Haxx.F32.haxpydh_if21 Haxx.haxpydh_if21

theorem haxpych_eq32 (SIDE : Char) (N : Int) (ALPHA : Cplx F) (X : Int) (INCX : Int) (Y : Int) (INCY : Int) (hN : 0 < N) (hx : VFit N INCX) (hy : VFit N INCY) :
    Eq32 (Haxx.F32.haxpych SIDE N ALPHA X INCX Y INCY (F := F)) (Haxx.haxpych SIDE N ALPHA X INCX Y INCY) (fun _ => True) := by
  repeat' first
    | exact eq32_pure trivial
    | exact eq32_pure rfl
    | exact eq32_pure ⟨rfl, rfl⟩
    | with_reducible refine eq32_i32 ?_ ?_
    | with_reducible refine eq32_last ?_ rfl
    | with_reducible refine eq32_ite (fun _ => ?_) (fun _ => ?_)
    | with_reducible refine eq32_cases (α := Int × Int) (fun _ => ?_) (fun _ => ?_)
    | with_reducible refine eq32_start (α := Int) (fun _ => ?_) (fun _ => ?_) ?_
    | with_reducible refine eq32_same (fun _ => ?_)
    | with_reducible refine eq32_seq ?_ (fun _ => ?_)
    | with_reducible exact eq32_refl _
    | with_reducible refine eq32_forN (fun _ _ => ?_)
    | with_reducible refine eq32_foldP2 (f := fun i (s : Int × Int) => Haxx.haxpych_30_I _ _ _ _ _ ((i : Int) + 1) s.1 s.2) (fun s => s.1) (fun s => s.2) INCX INCY (fun _ _ _ _ _ => ?_)
    | with_reducible refine eq32_foldP2 (f := fun i (s : Int × Int) => Haxx.haxpych_40_I _ _ _ _ _ ((i : Int) + 1) s.1 s.2) (fun s => s.1) (fun s => s.2) INCX INCY (fun _ _ _ _ _ => ?_)
    | with_reducible refine eq32_fold (fun _ _ _ => ?_)
    | (refine hx.step' ?_ ?_ ?_ ?_ (by assumption) (by assumption) <;> omega)
    | (refine hx.neg ?_ ?_ <;> omega)
    | (refine hx.neg1 ?_ ?_ <;> omega)
    | (refine hx.negMul ?_ ?_ ?_ <;> omega)
    | (refine hx.start' ?_ ?_ ?_ <;> omega)
    | (refine hy.step' ?_ ?_ ?_ ?_ (by assumption) (by assumption) <;> omega)
    | (refine hy.neg ?_ ?_ <;> omega)
    | (refine hy.neg1 ?_ ?_ <;> omega)
    | (refine hy.negMul ?_ ?_ ?_ <;> omega)
    | (refine hy.start' ?_ ?_ ?_ <;> omega)
    | unfold Haxx.F32.haxpych Haxx.haxpych
    | unfold Haxx.F32.haxpych_10_I Haxx.haxpych_10_I
    | unfold Haxx.F32.haxpych_20_I Haxx.haxpych_20_I
    | unfold Haxx.F32.haxpych_if25 Haxx.haxpych_if25
    | unfold Haxx.F32.haxpych_30_I Haxx.haxpych_30_I
    | unfold Haxx.F32.haxpych_40_I Haxx.haxpych_40_I
    | unfold Haxx.F32.haxpych_if49 Haxx.haxpych_if49
    | unfold Haxx.F32.haxpych_if24 Haxx.haxpych_if24

theorem haxpyhh_eq32 (SIDE : Char) (N : Int) (ALPHA : Quat F) (X : Int) (INCX : Int) (Y : Int) (INCY : Int) (hN : 0 < N) (hx : VFit N INCX) (hy : VFit N INCY) :
    Eq32 (Haxx.F32.haxpyhh SIDE N ALPHA X INCX Y INCY (F := F)) (Haxx.haxpyhh SIDE N ALPHA X INCX Y INCY) (fun _ => True) := by
  repeat' first
    | exact eq32_pure trivial
    | exact eq32_pure rfl
    | exact eq32_pure ⟨rfl, rfl⟩
    | with_reducible refine eq32_i32 ?_ ?_
    | with_reducible refine eq32_last ?_ rfl
    | with_reducible refine eq32_ite (fun _ => ?_) (fun _ => ?_)
    | with_reducible refine eq32_cases (α := Int × Int) (fun _ => ?_) (fun _ => ?_)
    | with_reducible refine eq32_start (α := Int) (fun _ => ?_) (fun _ => ?_) ?_
    | with_reducible refine eq32_same (fun _ => ?_)
    | with_reducible refine eq32_seq ?_ (fun _ => ?_)
    | with_reducible exact eq32_refl _
    | with_reducible refine eq32_forN (fun _ _ => ?_)
    | with_reducible refine eq32_foldP2 (f := fun i (s : Int × Int) => Haxx.haxpyhh_30_I _ _ _ _ _ ((i : Int) + 1) s.1 s.2) (fun s => s.1) (fun s => s.2) INCX INCY (fun _ _ _ _ _ => ?_)
    | with_reducible refine eq32_foldP2 (f := fun i (s : Int × Int) => Haxx.haxpyhh_40_I _ _ _ _ _ ((i : Int) + 1) s.1 s.2) (fun s => s.1) (fun s => s.2) INCX INCY (fun _ _ _ _ _ => ?_)
    | with_reducible refine eq32_fold (fun _ _ _ => ?_)
    | (refine hx.step' ?_ ?_ ?_ ?_ (by assumption) (by assumption) <;> omega)
    | (refine hx.neg ?_ ?_ <;> omega)
    | (refine hx.neg1 ?_ ?_ <;> omega)
    | (refine hx.negMul ?_ ?_ ?_ <;> omega)
    | (refine hx.start' ?_ ?_ ?_ <;> omega)
    | (refine hy.step' ?_ ?_ ?_ ?_ (by assumption) (by assumption) <;> omega)
    | (refine hy.neg ?_ ?_ <;> omega)
    | (refine hy.neg1 ?_ ?_ <;> omega)
    | (refine hy.negMul ?_ ?_ ?_ <;> omega)
    | (refine hy.start' ?_ ?_ ?_ <;> omega)
    | unfold Haxx.F32.haxpyhh Haxx.haxpyhh
    | unfold Haxx.F32.haxpyhh_10_I Haxx.haxpyhh_10_I
    | unfold Haxx.F32.haxpyhh_20_I Haxx.haxpyhh_20_I
    | unfold Haxx.F32.haxpyhh_if26 Haxx.haxpyhh_if26
    | unfold Haxx.F32.haxpyhh_30_I Haxx.haxpyhh_30_I
    | unfold Haxx.F32.haxpyhh_40_I Haxx.haxpyhh_40_I
    | unfold Haxx.F32.haxpyhh_if64 Haxx.haxpyhh_if64
    | unfold Haxx.F32.haxpyhh_if25 Haxx.haxpyhh_if25

theorem hdotu_eq32 (N : Int) (X : Int) (INCX : Int) (Y : Int) (INCY : Int) (hN : 0 < N) (hx : VFit N INCX) (hy : VFit N INCY) :
    Eq32 (Haxx.F32.hdotu N X INCX Y INCY (F := F)) (Haxx.hdotu N X INCX Y INCY) (fun _ => True) := by
  repeat' first
    | exact eq32_pure trivial
    | exact eq32_pure rfl
    | exact eq32_pure ⟨rfl, rfl⟩
    | with_reducible refine eq32_i32 ?_ ?_
    | with_reducible refine eq32_last ?_ rfl
    | with_reducible refine eq32_ite (fun _ => ?_) (fun _ => ?_)
    | with_reducible refine eq32_cases (α := Int × Int) (fun _ => ?_) (fun _ => ?_)
    | with_reducible refine eq32_start (α := Int) (fun _ => ?_) (fun _ => ?_) ?_
    | with_reducible refine eq32_same (fun _ => ?_)
    | with_reducible refine eq32_seq ?_ (fun _ => ?_)
    | with_reducible exact eq32_refl _
    | with_reducible refine eq32_forN (fun _ _ => ?_)
    | with_reducible refine eq32_foldP2 (f := fun i (s : Int × Int × F × F × F × F) => Haxx.hdotu_20_I _ _ _ _ ((i : Int) + 1) s.1 s.2.1 s.2.2.1 s.2.2.2.1 s.2.2.2.2.1 s.2.2.2.2.2) (fun s => s.1) (fun s => s.2.1) INCX INCY (fun _ _ _ _ _ => ?_)
    | with_reducible refine eq32_fold (fun _ _ _ => ?_)
    | (refine hx.step' ?_ ?_ ?_ ?_ (by assumption) (by assumption) <;> omega)
    | (refine hx.neg ?_ ?_ <;> omega)
    | (refine hx.neg1 ?_ ?_ <;> omega)
    | (refine hx.negMul ?_ ?_ ?_ <;> omega)
    | (refine hx.start' ?_ ?_ ?_ <;> omega)
    | (refine hy.step' ?_ ?_ ?_ ?_ (by assumption) (by assumption) <;> omega)
    | (refine hy.neg ?_ ?_ <;> omega)
    | (refine hy.neg1 ?_ ?_ <;> omega)
    | (refine hy.negMul ?_ ?_ ?_ <;> omega)
    | (refine hy.start' ?_ ?_ ?_ <;> omega)
    | unfold Haxx.F32.hdotu Haxx.hdotu
    | unfold Haxx.F32.hdotu_10_I Haxx.hdotu_10_I
    | unfold Haxx.F32.hdotu_20_I Haxx.hdotu_20_I
    | unfold Haxx.F32.hdotu_if20 Haxx.hdotu_if20

theorem hdotc_eq32 (N : Int) (X : Int) (INCX : Int) (Y : Int) (INCY : Int) (hN : 0 < N) (hx : VFit N INCX) (hy : VFit N INCY) :
    Eq32 (Haxx.F32.hdotc N X INCX Y INCY (F := F)) (Haxx.hdotc N X INCX Y INCY) (fun _ => True) := by
  repeat' first
    | exact eq32_pure trivial
    | exact eq32_pure rfl
    | exact eq32_pure ⟨rfl, rfl⟩
    | with_reducible refine eq32_i32 ?_ ?_
    | with_reducible refine eq32_last ?_ rfl
    | with_reducible refine eq32_ite (fun _ => ?_) (fun _ => ?_)
    | with_reducible refine eq32_cases (α := Int × Int) (fun _ => ?_) (fun _ => ?_)
    | with_reducible refine eq32_start (α := Int) (fun _ => ?_) (fun _ => ?_) ?_
    | with_reducible refine eq32_same (fun _ => ?_)
    | with_reducible refine eq32_seq ?_ (fun _ => ?_)
    | with_reducible exact eq32_refl _
    | with_reducible refine eq32_forN (fun _ _ => ?_)
    | with_reducible refine eq32_foldP2 (f := fun i (s : Int × Int × F × F × F × F) => Haxx.hdotc_20_I _ _ _ _ ((i : Int) + 1) s.1 s.2.1 s.2.2.1 s.2.2.2.1 s.2.2.2.2.1 s.2.2.2.2.2) (fun s => s.1) (fun s => s.2.1) INCX INCY (fun _ _ _ _ _ => ?_)
    | with_reducible refine eq32_fold (fun _ _ _ => ?_)
    | (refine hx.step' ?_ ?_ ?_ ?_ (by assumption) (by assumption) <;> omega)
    | (refine hx.neg ?_ ?_ <;> omega)
    | (refine hx.neg1 ?_ ?_ <;> omega)
    | (refine hx.negMul ?_ ?_ ?_ <;> omega)
    | (refine hx.start' ?_ ?_ ?_ <;> omega)
    | (refine hy.step' ?_ ?_ ?_ ?_ (by assumption) (by assumption) <;> omega)
    | (refine hy.neg ?_ ?_ <;> omega)
    | (refine hy.neg1 ?_ ?_ <;> omega)
    | (refine hy.negMul ?_ ?_ ?_ <;> omega)
    | (refine hy.start' ?_ ?_ ?_ <;> omega)
    | unfold Haxx.F32.hdotc Haxx.hdotc
    | unfold Haxx.F32.hdotc_10_I Haxx.hdotc_10_I
    | unfold Haxx.F32.hdotc_20_I Haxx.hdotc_20_I
    | unfold Haxx.F32.hdotc_if20 Haxx.hdotc_if20

end Haxx.F32
