import Verif.ThrSafeVec
import Verif.ThrFort

/-! Generated by `tools/gen_safe.py l1`. -/

namespace Haxx.Thr
open Arith
variable {F : Type} [Arith F] [ArithEq F]
set_option maxHeartbeats 4000000
set_option linter.unusedSectionVars false

theorem hscald_safe (SIDE : Char) (N : Int) (ALPHA : F) (X : Int) (INCX : Int) {S W : Int → Prop}
    (hx : VEnv S X (if decide (INCX < 0) = true then ((-N) + 1) * INCX + 1 else 1) INCX N.toNat (decide (INCX = 1) = true))
    (hw : VEnv W X (if decide (INCX < 0) = true then ((-N) + 1) * INCX + 1 else 1) INCX N.toNat (decide (INCX = 1) = true)) :
    Safe S W (hscald SIDE N ALPHA X INCX (F := F)) (fun _ => True) := by
  repeat' first
    | exact safe_pure trivial
    | exact safe_pure rfl
    | exact safe_pure ⟨rfl, rfl⟩
    | with_reducible refine safe_ite (fun _ => ?_) (fun _ => ?_)
    | with_reducible refine safe_bind_ite (α := Int) ?_
    | with_reducible refine safe_bind_cases (α := Int × Int) (fun _ => ?_) (fun _ => ?_)
    | with_reducible refine safe_seq ?_ (fun _ => ?_)
    | with_reducible refine safe_rdC ?_
    | with_reducible refine safe_wrC ?_ ?_
    | with_reducible refine safe_forN (fun _ _ => ?_)
    | with_reducible refine safe_rd ?_
    | with_reducible refine safe_wr ?_ ?_
    | with_reducible refine safe_foldP (f := fun i (s : Int) => hscald_20_I _ _ _ ((i : Int) + 1) s) (fun s => s) INCX (fun _ _ _ _ => ?_)
    | with_reducible refine safe_fold (fun _ _ _ => ?_)
    | with_reducible exact (hx.pos _ _ (by assumption) (by assumption)).r1
    | with_reducible exact (hx.pos _ _ (by assumption) (by assumption)).r2
    | with_reducible exact (hx.pos _ _ (by assumption) (by assumption)).r3
    | with_reducible exact (hx.pos _ _ (by assumption) (by assumption)).r4
    | with_reducible exact (hx.pos _ _ (by assumption) (by assumption)).c1
    | with_reducible exact (hx.pos _ _ (by assumption) (by assumption)).c2
    | with_reducible exact (hx.one (by assumption) _ (by assumption)).r1
    | with_reducible exact (hx.one (by assumption) _ (by assumption)).r2
    | with_reducible exact (hx.one (by assumption) _ (by assumption)).r3
    | with_reducible exact (hx.one (by assumption) _ (by assumption)).r4
    | with_reducible exact (hx.one (by assumption) _ (by assumption)).c1
    | with_reducible exact (hx.one (by assumption) _ (by assumption)).c2
    | with_reducible exact (hw.pos _ _ (by assumption) (by assumption)).r1
    | with_reducible exact (hw.pos _ _ (by assumption) (by assumption)).r2
    | with_reducible exact (hw.pos _ _ (by assumption) (by assumption)).r3
    | with_reducible exact (hw.pos _ _ (by assumption) (by assumption)).r4
    | with_reducible exact (hw.pos _ _ (by assumption) (by assumption)).c1
    | with_reducible exact (hw.pos _ _ (by assumption) (by assumption)).c2
    | with_reducible exact (hw.one (by assumption) _ (by assumption)).r1
    | with_reducible exact (hw.one (by assumption) _ (by assumption)).r2
    | with_reducible exact (hw.one (by assumption) _ (by assumption)).r3
    | with_reducible exact (hw.one (by assumption) _ (by assumption)).r4
    | with_reducible exact (hw.one (by assumption) _ (by assumption)).c1
    | with_reducible exact (hw.one (by assumption) _ (by assumption)).c2
    | unfold hscald
    | unfold hscald_10_I
    | unfold hscald_20_I
    | unfold hscald_if21

theorem hscalc_safe (SIDE : Char) (N : Int) (ALPHA : Cplx F) (X : Int) (INCX : Int) {S W : Int → Prop}
    (hx : VEnv S X (if decide (INCX < 0) = true then ((-N) + 1) * INCX + 1 else 1) INCX N.toNat (decide (INCX = 1) = true))
    (hw : VEnv W X (if decide (INCX < 0) = true then ((-N) + 1) * INCX + 1 else 1) INCX N.toNat (decide (INCX = 1) = true)) :
    Safe S W (hscalc SIDE N ALPHA X INCX (F := F)) (fun _ => True) := by
  repeat' first
    | exact safe_pure trivial
    | exact safe_pure rfl
    | exact safe_pure ⟨rfl, rfl⟩
    | with_reducible refine safe_ite (fun _ => ?_) (fun _ => ?_)
    | with_reducible refine safe_bind_ite (α := Int) ?_
    | with_reducible refine safe_bind_cases (α := Int × Int) (fun _ => ?_) (fun _ => ?_)
    | with_reducible refine safe_seq ?_ (fun _ => ?_)
    | with_reducible refine safe_rdC ?_
    | with_reducible refine safe_wrC ?_ ?_
    | with_reducible refine safe_forN (fun _ _ => ?_)
    | with_reducible refine safe_rd ?_
    | with_reducible refine safe_wr ?_ ?_
    | with_reducible refine safe_foldP (f := fun i (s : Int) => hscalc_30_I _ _ _ ((i : Int) + 1) s) (fun s => s) INCX (fun _ _ _ _ => ?_)
    | with_reducible refine safe_foldP (f := fun i (s : Int) => hscalc_40_I _ _ _ ((i : Int) + 1) s) (fun s => s) INCX (fun _ _ _ _ => ?_)
    | with_reducible refine safe_fold (fun _ _ _ => ?_)
    | with_reducible exact (hx.pos _ _ (by assumption) (by assumption)).r1
    | with_reducible exact (hx.pos _ _ (by assumption) (by assumption)).r2
    | with_reducible exact (hx.pos _ _ (by assumption) (by assumption)).r3
    | with_reducible exact (hx.pos _ _ (by assumption) (by assumption)).r4
    | with_reducible exact (hx.pos _ _ (by assumption) (by assumption)).c1
    | with_reducible exact (hx.pos _ _ (by assumption) (by assumption)).c2
    | with_reducible exact (hx.one (by assumption) _ (by assumption)).r1
    | with_reducible exact (hx.one (by assumption) _ (by assumption)).r2
    | with_reducible exact (hx.one (by assumption) _ (by assumption)).r3
    | with_reducible exact (hx.one (by assumption) _ (by assumption)).r4
    | with_reducible exact (hx.one (by assumption) _ (by assumption)).c1
    | with_reducible exact (hx.one (by assumption) _ (by assumption)).c2
    | with_reducible exact (hw.pos _ _ (by assumption) (by assumption)).r1
    | with_reducible exact (hw.pos _ _ (by assumption) (by assumption)).r2
    | with_reducible exact (hw.pos _ _ (by assumption) (by assumption)).r3
    | with_reducible exact (hw.pos _ _ (by assumption) (by assumption)).r4
    | with_reducible exact (hw.pos _ _ (by assumption) (by assumption)).c1
    | with_reducible exact (hw.pos _ _ (by assumption) (by assumption)).c2
    | with_reducible exact (hw.one (by assumption) _ (by assumption)).r1
    | with_reducible exact (hw.one (by assumption) _ (by assumption)).r2
    | with_reducible exact (hw.one (by assumption) _ (by assumption)).r3
    | with_reducible exact (hw.one (by assumption) _ (by assumption)).r4
    | with_reducible exact (hw.one (by assumption) _ (by assumption)).c1
    | with_reducible exact (hw.one (by assumption) _ (by assumption)).c2
    | unfold hscalc
    | unfold hscalc_10_I
    | unfold hscalc_20_I
    | unfold hscalc_if27
    | unfold hscalc_30_I
    | unfold hscalc_40_I
    | unfold hscalc_if45
    | unfold hscalc_if26

theorem hscalh_safe (SIDE : Char) (N : Int) (ALPHA : Quat F) (X : Int) (INCX : Int) {S W : Int → Prop}
    (hx : VEnv S X (if decide (INCX < 0) = true then ((-N) + 1) * INCX + 1 else 1) INCX N.toNat (decide (INCX = 1) = true))
    (hw : VEnv W X (if decide (INCX < 0) = true then ((-N) + 1) * INCX + 1 else 1) INCX N.toNat (decide (INCX = 1) = true)) :
    Safe S W (hscalh SIDE N ALPHA X INCX (F := F)) (fun _ => True) := by
  repeat' first
    | exact safe_pure trivial
    | exact safe_pure rfl
    | exact safe_pure ⟨rfl, rfl⟩
    | with_reducible refine safe_ite (fun _ => ?_) (fun _ => ?_)
    | with_reducible refine safe_bind_ite (α := Int) ?_
    | with_reducible refine safe_bind_cases (α := Int × Int) (fun _ => ?_) (fun _ => ?_)
    | with_reducible refine safe_seq ?_ (fun _ => ?_)
    | with_reducible refine safe_rdC ?_
    | with_reducible refine safe_wrC ?_ ?_
    | with_reducible refine safe_forN (fun _ _ => ?_)
    | with_reducible refine safe_rd ?_
    | with_reducible refine safe_wr ?_ ?_
    | with_reducible refine safe_foldP (f := fun i (s : Int) => hscalh_30_I _ _ _ ((i : Int) + 1) s) (fun s => s) INCX (fun _ _ _ _ => ?_)
    | with_reducible refine safe_foldP (f := fun i (s : Int) => hscalh_40_I _ _ _ ((i : Int) + 1) s) (fun s => s) INCX (fun _ _ _ _ => ?_)
    | with_reducible refine safe_fold (fun _ _ _ => ?_)
    | with_reducible exact (hx.pos _ _ (by assumption) (by assumption)).r1
    | with_reducible exact (hx.pos _ _ (by assumption) (by assumption)).r2
    | with_reducible exact (hx.pos _ _ (by assumption) (by assumption)).r3
    | with_reducible exact (hx.pos _ _ (by assumption) (by assumption)).r4
    | with_reducible exact (hx.pos _ _ (by assumption) (by assumption)).c1
    | with_reducible exact (hx.pos _ _ (by assumption) (by assumption)).c2
    | with_reducible exact (hx.one (by assumption) _ (by assumption)).r1
    | with_reducible exact (hx.one (by assumption) _ (by assumption)).r2
    | with_reducible exact (hx.one (by assumption) _ (by assumption)).r3
    | with_reducible exact (hx.one (by assumption) _ (by assumption)).r4
    | with_reducible exact (hx.one (by assumption) _ (by assumption)).c1
    | with_reducible exact (hx.one (by assumption) _ (by assumption)).c2
    | with_reducible exact (hw.pos _ _ (by assumption) (by assumption)).r1
    | with_reducible exact (hw.pos _ _ (by assumption) (by assumption)).r2
    | with_reducible exact (hw.pos _ _ (by assumption) (by assumption)).r3
    | with_reducible exact (hw.pos _ _ (by assumption) (by assumption)).r4
    | with_reducible exact (hw.pos _ _ (by assumption) (by assumption)).c1
    | with_reducible exact (hw.pos _ _ (by assumption) (by assumption)).c2
    | with_reducible exact (hw.one (by assumption) _ (by assumption)).r1
    | with_reducible exact (hw.one (by assumption) _ (by assumption)).r2
    | with_reducible exact (hw.one (by assumption) _ (by assumption)).r3
    | with_reducible exact (hw.one (by assumption) _ (by assumption)).r4
    | with_reducible exact (hw.one (by assumption) _ (by assumption)).c1
    | with_reducible exact (hw.one (by assumption) _ (by assumption)).c2
    | unfold hscalh
    | unfold hscalh_10_I
    | unfold hscalh_20_I
    | unfold hscalh_if28
    | unfold hscalh_30_I
    | unfold hscalh_40_I
    | unfold hscalh_if70
    | unfold hscalh_if27

theorem haxpydh_safe (SIDE : Char) (N : Int) (ALPHA : F) (X : Int) (INCX : Int) (Y : Int) (INCY : Int) {S W : Int → Prop}
    (hx : VEnv S X (if decide (INCX < 0) = true then ((-N) + 1) * INCX + 1 else 1) INCX N.toNat ((decide (INCX = 1) && decide (INCY = 1)) = true))
    (hy : VEnv S Y (if decide (INCY < 0) = true then ((-N) + 1) * INCY + 1 else 1) INCY N.toNat ((decide (INCX = 1) && decide (INCY = 1)) = true))
    (hw : VEnv W Y (if decide (INCY < 0) = true then ((-N) + 1) * INCY + 1 else 1) INCY N.toNat ((decide (INCX = 1) && decide (INCY = 1)) = true)) :
    Safe S W (haxpydh SIDE N ALPHA X INCX Y INCY (F := F)) (fun _ => True) := by
  repeat' first
    | exact safe_pure trivial
    | exact safe_pure rfl
    | exact safe_pure ⟨rfl, rfl⟩
    | with_reducible refine safe_ite (fun _ => ?_) (fun _ => ?_)
    | with_reducible refine safe_bind_ite (α := Int) ?_
    | with_reducible refine safe_bind_cases (α := Int × Int) (fun _ => ?_) (fun _ => ?_)
    | with_reducible refine safe_seq ?_ (fun _ => ?_)
    | with_reducible refine safe_rdC ?_
    | with_reducible refine safe_wrC ?_ ?_
    | with_reducible refine safe_forN (fun _ _ => ?_)
    | with_reducible refine safe_rd ?_
    | with_reducible refine safe_wr ?_ ?_
    | with_reducible refine safe_foldP2 (f := fun i (s : Int × Int) => haxpydh_20_I _ _ _ _ _ ((i : Int) + 1) s.1 s.2) (fun s => s.1) (fun s => s.2) INCX INCY (fun _ _ _ _ _ => ?_)
    | with_reducible refine safe_fold (fun _ _ _ => ?_)
    | with_reducible exact (hx.pos _ _ (by assumption) (by assumption)).r1
    | with_reducible exact (hx.pos _ _ (by assumption) (by assumption)).r2
    | with_reducible exact (hx.pos _ _ (by assumption) (by assumption)).r3
    | with_reducible exact (hx.pos _ _ (by assumption) (by assumption)).r4
    | with_reducible exact (hx.pos _ _ (by assumption) (by assumption)).c1
    | with_reducible exact (hx.pos _ _ (by assumption) (by assumption)).c2
    | with_reducible exact (hx.one (by assumption) _ (by assumption)).r1
    | with_reducible exact (hx.one (by assumption) _ (by assumption)).r2
    | with_reducible exact (hx.one (by assumption) _ (by assumption)).r3
    | with_reducible exact (hx.one (by assumption) _ (by assumption)).r4
    | with_reducible exact (hx.one (by assumption) _ (by assumption)).c1
    | with_reducible exact (hx.one (by assumption) _ (by assumption)).c2
    | with_reducible exact (hy.pos _ _ (by assumption) (by assumption)).r1
    | with_reducible exact (hy.pos _ _ (by assumption) (by assumption)).r2
    | with_reducible exact (hy.pos _ _ (by assumption) (by assumption)).r3
    | with_reducible exact (hy.pos _ _ (by assumption) (by assumption)).r4
    | with_reducible exact (hy.pos _ _ (by assumption) (by assumption)).c1
    | with_reducible exact (hy.pos _ _ (by assumption) (by assumption)).c2
    | with_reducible exact (hy.one (by assumption) _ (by assumption)).r1
    | with_reducible exact (hy.one (by assumption) _ (by assumption)).r2
    | with_reducible exact (hy.one (by assumption) _ (by assumption)).r3
    | with_reducible exact (hy.one (by assumption) _ (by assumption)).r4
    | with_reducible exact (hy.one (by assumption) _ (by assumption)).c1
    | with_reducible exact (hy.one (by assumption) _ (by assumption)).c2
    | with_reducible exact (hw.pos _ _ (by assumption) (by assumption)).r1
    | with_reducible exact (hw.pos _ _ (by assumption) (by assumption)).r2
    | with_reducible exact (hw.pos _ _ (by assumption) (by assumption)).r3
    | with_reducible exact (hw.pos _ _ (by assumption) (by assumption)).r4
    | with_reducible exact (hw.pos _ _ (by assumption) (by assumption)).c1
    | with_reducible exact (hw.pos _ _ (by assumption) (by assumption)).c2
    | with_reducible exact (hw.one (by assumption) _ (by assumption)).r1
    | with_reducible exact (hw.one (by assumption) _ (by assumption)).r2
    | with_reducible exact (hw.one (by assumption) _ (by assumption)).r3
    | with_reducible exact (hw.one (by assumption) _ (by assumption)).r4
    | with_reducible exact (hw.one (by assumption) _ (by assumption)).c1
    | with_reducible exact (hw.one (by assumption) _ (by assumption)).c2
    | unfold haxpydh
    | unfold haxpydh_10_I
    | unfold haxpydh_20_I
    | unfold haxpydh_if21

theorem haxpych_safe (SIDE : Char) (N : Int) (ALPHA : Cplx F) (X : Int) (INCX : Int) (Y : Int) (INCY : Int) {S W : Int → Prop}
    (hx : VEnv S X (if decide (INCX < 0) = true then ((-N) + 1) * INCX + 1 else 1) INCX N.toNat ((decide (INCX = 1) && decide (INCY = 1)) = true))
    (hy : VEnv S Y (if decide (INCY < 0) = true then ((-N) + 1) * INCY + 1 else 1) INCY N.toNat ((decide (INCX = 1) && decide (INCY = 1)) = true))
    (hw : VEnv W Y (if decide (INCY < 0) = true then ((-N) + 1) * INCY + 1 else 1) INCY N.toNat ((decide (INCX = 1) && decide (INCY = 1)) = true)) :
    Safe S W (haxpych SIDE N ALPHA X INCX Y INCY (F := F)) (fun _ => True) := by
  repeat' first
    | exact safe_pure trivial
    | exact safe_pure rfl
    | exact safe_pure ⟨rfl, rfl⟩
    | with_reducible refine safe_ite (fun _ => ?_) (fun _ => ?_)
    | with_reducible refine safe_bind_ite (α := Int) ?_
    | with_reducible refine safe_bind_cases (α := Int × Int) (fun _ => ?_) (fun _ => ?_)
    | with_reducible refine safe_seq ?_ (fun _ => ?_)
    | with_reducible refine safe_rdC ?_
    | with_reducible refine safe_wrC ?_ ?_
    | with_reducible refine safe_forN (fun _ _ => ?_)
    | with_reducible refine safe_rd ?_
    | with_reducible refine safe_wr ?_ ?_
    | with_reducible refine safe_foldP2 (f := fun i (s : Int × Int) => haxpych_30_I _ _ _ _ _ ((i : Int) + 1) s.1 s.2) (fun s => s.1) (fun s => s.2) INCX INCY (fun _ _ _ _ _ => ?_)
    | with_reducible refine safe_foldP2 (f := fun i (s : Int × Int) => haxpych_40_I _ _ _ _ _ ((i : Int) + 1) s.1 s.2) (fun s => s.1) (fun s => s.2) INCX INCY (fun _ _ _ _ _ => ?_)
    | with_reducible refine safe_fold (fun _ _ _ => ?_)
    | with_reducible exact (hx.pos _ _ (by assumption) (by assumption)).r1
    | with_reducible exact (hx.pos _ _ (by assumption) (by assumption)).r2
    | with_reducible exact (hx.pos _ _ (by assumption) (by assumption)).r3
    | with_reducible exact (hx.pos _ _ (by assumption) (by assumption)).r4
    | with_reducible exact (hx.pos _ _ (by assumption) (by assumption)).c1
    | with_reducible exact (hx.pos _ _ (by assumption) (by assumption)).c2
    | with_reducible exact (hx.one (by assumption) _ (by assumption)).r1
    | with_reducible exact (hx.one (by assumption) _ (by assumption)).r2
    | with_reducible exact (hx.one (by assumption) _ (by assumption)).r3
    | with_reducible exact (hx.one (by assumption) _ (by assumption)).r4
    | with_reducible exact (hx.one (by assumption) _ (by assumption)).c1
    | with_reducible exact (hx.one (by assumption) _ (by assumption)).c2
    | with_reducible exact (hy.pos _ _ (by assumption) (by assumption)).r1
    | with_reducible exact (hy.pos _ _ (by assumption) (by assumption)).r2
    | with_reducible exact (hy.pos _ _ (by assumption) (by assumption)).r3
    | with_reducible exact (hy.pos _ _ (by assumption) (by assumption)).r4
    | with_reducible exact (hy.pos _ _ (by assumption) (by assumption)).c1
    | with_reducible exact (hy.pos _ _ (by assumption) (by assumption)).c2
    | with_reducible exact (hy.one (by assumption) _ (by assumption)).r1
    | with_reducible exact (hy.one (by assumption) _ (by assumption)).r2
    | with_reducible exact (hy.one (by assumption) _ (by assumption)).r3
    | with_reducible exact (hy.one (by assumption) _ (by assumption)).r4
    | with_reducible exact (hy.one (by assumption) _ (by assumption)).c1
    | with_reducible exact (hy.one (by assumption) _ (by assumption)).c2
    | with_reducible exact (hw.pos _ _ (by assumption) (by assumption)).r1
    | with_reducible exact (hw.pos _ _ (by assumption) (by assumption)).r2
    | with_reducible exact (hw.pos _ _ (by assumption) (by assumption)).r3
    | with_reducible exact (hw.pos _ _ (by assumption) (by assumption)).r4
    | with_reducible exact (hw.pos _ _ (by assumption) (by assumption)).c1
    | with_reducible exact (hw.pos _ _ (by assumption) (by assumption)).c2
    | with_reducible exact (hw.one (by assumption) _ (by assumption)).r1
    | with_reducible exact (hw.one (by assumption) _ (by assumption)).r2
    | with_reducible exact (hw.one (by assumption) _ (by assumption)).r3
    | with_reducible exact (hw.one (by assumption) _ (by assumption)).r4
    | with_reducible exact (hw.one (by assumption) _ (by assumption)).c1
    | with_reducible exact (hw.one (by assumption) _ (by assumption)).c2
    | unfold haxpych
    | unfold haxpych_10_I
    | unfold haxpych_20_I
    | unfold haxpych_if25
    | unfold haxpych_30_I
    | unfold haxpych_40_I
    | unfold haxpych_if49
    | unfold haxpych_if24

theorem haxpyhh_safe (SIDE : Char) (N : Int) (ALPHA : Quat F) (X : Int) (INCX : Int) (Y : Int) (INCY : Int) {S W : Int → Prop}
    (hx : VEnv S X (if decide (INCX < 0) = true then ((-N) + 1) * INCX + 1 else 1) INCX N.toNat ((decide (INCX = 1) && decide (INCY = 1)) = true))
    (hy : VEnv S Y (if decide (INCY < 0) = true then ((-N) + 1) * INCY + 1 else 1) INCY N.toNat ((decide (INCX = 1) && decide (INCY = 1)) = true))
    (hw : VEnv W Y (if decide (INCY < 0) = true then ((-N) + 1) * INCY + 1 else 1) INCY N.toNat ((decide (INCX = 1) && decide (INCY = 1)) = true)) :
    Safe S W (haxpyhh SIDE N ALPHA X INCX Y INCY (F := F)) (fun _ => True) := by
  repeat' first
    | exact safe_pure trivial
    | exact safe_pure rfl
    | exact safe_pure ⟨rfl, rfl⟩
    | with_reducible refine safe_ite (fun _ => ?_) (fun _ => ?_)
    | with_reducible refine safe_bind_ite (α := Int) ?_
    | with_reducible refine safe_bind_cases (α := Int × Int) (fun _ => ?_) (fun _ => ?_)
    | with_reducible refine safe_seq ?_ (fun _ => ?_)
    | with_reducible refine safe_rdC ?_
    | with_reducible refine safe_wrC ?_ ?_
    | with_reducible refine safe_forN (fun _ _ => ?_)
    | with_reducible refine safe_rd ?_
    | with_reducible refine safe_wr ?_ ?_
    | with_reducible refine safe_foldP2 (f := fun i (s : Int × Int) => haxpyhh_30_I _ _ _ _ _ ((i : Int) + 1) s.1 s.2) (fun s => s.1) (fun s => s.2) INCX INCY (fun _ _ _ _ _ => ?_)
    | with_reducible refine safe_foldP2 (f := fun i (s : Int × Int) => haxpyhh_40_I _ _ _ _ _ ((i : Int) + 1) s.1 s.2) (fun s => s.1) (fun s => s.2) INCX INCY (fun _ _ _ _ _ => ?_)
    | with_reducible refine safe_fold (fun _ _ _ => ?_)
    | with_reducible exact (hx.pos _ _ (by assumption) (by assumption)).r1
    | with_reducible exact (hx.pos _ _ (by assumption) (by assumption)).r2
    | with_reducible exact (hx.pos _ _ (by assumption) (by assumption)).r3
    | with_reducible exact (hx.pos _ _ (by assumption) (by assumption)).r4
    | with_reducible exact (hx.pos _ _ (by assumption) (by assumption)).c1
    | with_reducible exact (hx.pos _ _ (by assumption) (by assumption)).c2
    | with_reducible exact (hx.one (by assumption) _ (by assumption)).r1
    | with_reducible exact (hx.one (by assumption) _ (by assumption)).r2
    | with_reducible exact (hx.one (by assumption) _ (by assumption)).r3
    | with_reducible exact (hx.one (by assumption) _ (by assumption)).r4
    | with_reducible exact (hx.one (by assumption) _ (by assumption)).c1
    | with_reducible exact (hx.one (by assumption) _ (by assumption)).c2
    | with_reducible exact (hy.pos _ _ (by assumption) (by assumption)).r1
    | with_reducible exact (hy.pos _ _ (by assumption) (by assumption)).r2
    | with_reducible exact (hy.pos _ _ (by assumption) (by assumption)).r3
    | with_reducible exact (hy.pos _ _ (by assumption) (by assumption)).r4
    | with_reducible exact (hy.pos _ _ (by assumption) (by assumption)).c1
    | with_reducible exact (hy.pos _ _ (by assumption) (by assumption)).c2
    | with_reducible exact (hy.one (by assumption) _ (by assumption)).r1
    | with_reducible exact (hy.one (by assumption) _ (by assumption)).r2
    | with_reducible exact (hy.one (by assumption) _ (by assumption)).r3
    | with_reducible exact (hy.one (by assumption) _ (by assumption)).r4
    | with_reducible exact (hy.one (by assumption) _ (by assumption)).c1
    | with_reducible exact (hy.one (by assumption) _ (by assumption)).c2
    | with_reducible exact (hw.pos _ _ (by assumption) (by assumption)).r1
    | with_reducible exact (hw.pos _ _ (by assumption) (by assumption)).r2
    | with_reducible exact (hw.pos _ _ (by assumption) (by assumption)).r3
    | with_reducible exact (hw.pos _ _ (by assumption) (by assumption)).r4
    | with_reducible exact (hw.pos _ _ (by assumption) (by assumption)).c1
    | with_reducible exact (hw.pos _ _ (by assumption) (by assumption)).c2
    | with_reducible exact (hw.one (by assumption) _ (by assumption)).r1
    | with_reducible exact (hw.one (by assumption) _ (by assumption)).r2
    | with_reducible exact (hw.one (by assumption) _ (by assumption)).r3
    | with_reducible exact (hw.one (by assumption) _ (by assumption)).r4
    | with_reducible exact (hw.one (by assumption) _ (by assumption)).c1
    | with_reducible exact (hw.one (by assumption) _ (by assumption)).c2
    | unfold haxpyhh
    | unfold haxpyhh_10_I
    | unfold haxpyhh_20_I
    | unfold haxpyhh_if26
    | unfold haxpyhh_30_I
    | unfold haxpyhh_40_I
    | unfold haxpyhh_if64
    | unfold haxpyhh_if25

theorem hdotu_safe (N : Int) (X : Int) (INCX : Int) (Y : Int) (INCY : Int) {S W : Int → Prop}
    (hx : VEnv S X (if decide (INCX < 0) = true then ((-N) + 1) * INCX + 1 else 1) INCX N.toNat ((decide (INCX = 1) && decide (INCY = 1)) = true))
    (hy : VEnv S Y (if decide (INCY < 0) = true then ((-N) + 1) * INCY + 1 else 1) INCY N.toNat ((decide (INCX = 1) && decide (INCY = 1)) = true)) :
    Safe S W (hdotu N X INCX Y INCY (F := F)) (fun _ => True) := by
  repeat' first
    | exact safe_pure trivial
    | exact safe_pure rfl
    | exact safe_pure ⟨rfl, rfl⟩
    | with_reducible refine safe_ite (fun _ => ?_) (fun _ => ?_)
    | with_reducible refine safe_bind_ite (α := Int) ?_
    | with_reducible refine safe_bind_cases (α := Int × Int) (fun _ => ?_) (fun _ => ?_)
    | with_reducible refine safe_seq ?_ (fun _ => ?_)
    | with_reducible refine safe_rdC ?_
    | with_reducible refine safe_wrC ?_ ?_
    | with_reducible refine safe_forN (fun _ _ => ?_)
    | with_reducible refine safe_rd ?_
    | with_reducible refine safe_wr ?_ ?_
    | with_reducible refine safe_foldP2 (f := fun i (s : Int × Int × F × F × F × F) => hdotu_20_I _ _ _ _ ((i : Int) + 1) s.1 s.2.1 s.2.2.1 s.2.2.2.1 s.2.2.2.2.1 s.2.2.2.2.2) (fun s => s.1) (fun s => s.2.1) INCX INCY (fun _ _ _ _ _ => ?_)
    | with_reducible refine safe_fold (fun _ _ _ => ?_)
    | with_reducible exact (hx.pos _ _ (by assumption) (by assumption)).r1
    | with_reducible exact (hx.pos _ _ (by assumption) (by assumption)).r2
    | with_reducible exact (hx.pos _ _ (by assumption) (by assumption)).r3
    | with_reducible exact (hx.pos _ _ (by assumption) (by assumption)).r4
    | with_reducible exact (hx.pos _ _ (by assumption) (by assumption)).c1
    | with_reducible exact (hx.pos _ _ (by assumption) (by assumption)).c2
    | with_reducible exact (hx.one (by assumption) _ (by assumption)).r1
    | with_reducible exact (hx.one (by assumption) _ (by assumption)).r2
    | with_reducible exact (hx.one (by assumption) _ (by assumption)).r3
    | with_reducible exact (hx.one (by assumption) _ (by assumption)).r4
    | with_reducible exact (hx.one (by assumption) _ (by assumption)).c1
    | with_reducible exact (hx.one (by assumption) _ (by assumption)).c2
    | with_reducible exact (hy.pos _ _ (by assumption) (by assumption)).r1
    | with_reducible exact (hy.pos _ _ (by assumption) (by assumption)).r2
    | with_reducible exact (hy.pos _ _ (by assumption) (by assumption)).r3
    | with_reducible exact (hy.pos _ _ (by assumption) (by assumption)).r4
    | with_reducible exact (hy.pos _ _ (by assumption) (by assumption)).c1
    | with_reducible exact (hy.pos _ _ (by assumption) (by assumption)).c2
    | with_reducible exact (hy.one (by assumption) _ (by assumption)).r1
    | with_reducible exact (hy.one (by assumption) _ (by assumption)).r2
    | with_reducible exact (hy.one (by assumption) _ (by assumption)).r3
    | with_reducible exact (hy.one (by assumption) _ (by assumption)).r4
    | with_reducible exact (hy.one (by assumption) _ (by assumption)).c1
    | with_reducible exact (hy.one (by assumption) _ (by assumption)).c2
    | unfold hdotu
    | unfold hdotu_10_I
    | unfold hdotu_20_I
    | unfold hdotu_if20

theorem hdotc_safe (N : Int) (X : Int) (INCX : Int) (Y : Int) (INCY : Int) {S W : Int → Prop}
    (hx : VEnv S X (if decide (INCX < 0) = true then ((-N) + 1) * INCX + 1 else 1) INCX N.toNat ((decide (INCX = 1) && decide (INCY = 1)) = true))
    (hy : VEnv S Y (if decide (INCY < 0) = true then ((-N) + 1) * INCY + 1 else 1) INCY N.toNat ((decide (INCX = 1) && decide (INCY = 1)) = true)) :
    Safe S W (hdotc N X INCX Y INCY (F := F)) (fun _ => True) := by
  repeat' first
    | exact safe_pure trivial
    | exact safe_pure rfl
    | exact safe_pure ⟨rfl, rfl⟩
    | with_reducible refine safe_ite (fun _ => ?_) (fun _ => ?_)
    | with_reducible refine safe_bind_ite (α := Int) ?_
    | with_reducible refine safe_bind_cases (α := Int × Int) (fun _ => ?_) (fun _ => ?_)
    | with_reducible refine safe_seq ?_ (fun _ => ?_)
    | with_reducible refine safe_rdC ?_
    | with_reducible refine safe_wrC ?_ ?_
    | with_reducible refine safe_forN (fun _ _ => ?_)
    | with_reducible refine safe_rd ?_
    | with_reducible refine safe_wr ?_ ?_
    | with_reducible refine safe_foldP2 (f := fun i (s : Int × Int × F × F × F × F) => hdotc_20_I _ _ _ _ ((i : Int) + 1) s.1 s.2.1 s.2.2.1 s.2.2.2.1 s.2.2.2.2.1 s.2.2.2.2.2) (fun s => s.1) (fun s => s.2.1) INCX INCY (fun _ _ _ _ _ => ?_)
    | with_reducible refine safe_fold (fun _ _ _ => ?_)
    | with_reducible exact (hx.pos _ _ (by assumption) (by assumption)).r1
    | with_reducible exact (hx.pos _ _ (by assumption) (by assumption)).r2
    | with_reducible exact (hx.pos _ _ (by assumption) (by assumption)).r3
    | with_reducible exact (hx.pos _ _ (by assumption) (by assumption)).r4
    | with_reducible exact (hx.pos _ _ (by assumption) (by assumption)).c1
    | with_reducible exact (hx.pos _ _ (by assumption) (by assumption)).c2
    | with_reducible exact (hx.one (by assumption) _ (by assumption)).r1
    | with_reducible exact (hx.one (by assumption) _ (by assumption)).r2
    | with_reducible exact (hx.one (by assumption) _ (by assumption)).r3
    | with_reducible exact (hx.one (by assumption) _ (by assumption)).r4
    | with_reducible exact (hx.one (by assumption) _ (by assumption)).c1
    | with_reducible exact (hx.one (by assumption) _ (by assumption)).c2
    | with_reducible exact (hy.pos _ _ (by assumption) (by assumption)).r1
    | with_reducible exact (hy.pos _ _ (by assumption) (by assumption)).r2
    | with_reducible exact (hy.pos _ _ (by assumption) (by assumption)).r3
    | with_reducible exact (hy.pos _ _ (by assumption) (by assumption)).r4
    | with_reducible exact (hy.pos _ _ (by assumption) (by assumption)).c1
    | with_reducible exact (hy.pos _ _ (by assumption) (by assumption)).c2
    | with_reducible exact (hy.one (by assumption) _ (by assumption)).r1
    | with_reducible exact (hy.one (by assumption) _ (by assumption)).r2
    | with_reducible exact (hy.one (by assumption) _ (by assumption)).r3
    | with_reducible exact (hy.one (by assumption) _ (by assumption)).r4
    | with_reducible exact (hy.one (by assumption) _ (by assumption)).c1
    | with_reducible exact (hy.one (by assumption) _ (by assumption)).c2
    | unfold hdotc
    | unfold hdotc_10_I
    | unfold hdotc_20_I
    | unfold hdotc_if20

end Haxx.Thr
