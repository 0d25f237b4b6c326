import Verif.ThrSafeVec
import Verif.ThrFort

/-! Generated by `tools/gen_safe.py ger`. -/

namespace Haxx.Thr
open Arith
variable {F : Type} [Arith F] [ArithEq F]
set_option maxHeartbeats 4000000
set_option linter.unusedSectionVars false

theorem hgerud_safe (M : Int) (N : Int) (ALPHA : F) (X : Int) (INCX : Int) (Y : Int) (INCY : Int) (A : Int) (LDA : Int) {S W : Int → Prop}
    (h1 : decide (INCX = 1) = true)
    (hx : VEnv S X (if decide (INCX > 0) = true then 1 else 1 - (M - 1) * INCX) INCX M.toNat (decide (INCX = 1) = true))
    (hy : VEnv S Y (if decide (INCY > 0) = true then 1 else 1 - (N - 1) * INCY) INCY N.toNat False)
    (ha : ∀ i j : Nat, i < M.toNat → j < N.toNat → MOk S LDA A ((i:Int) + 1) ((j:Int) + 1))
    (hw : ∀ i j : Nat, i < M.toNat → j < N.toNat → MOk W LDA A ((i:Int) + 1) ((j:Int) + 1)) :
    Safe S W (hgerud M N ALPHA X INCX Y INCY A LDA (F := F)) (fun _ => True) := by
  repeat' first
    | with_reducible exact absurd h1 (by assumption)
    | exact safe_pure trivial
    | exact safe_pure rfl
    | exact safe_pure ⟨rfl, rfl⟩
    | with_reducible refine safe_ite (fun _ => ?_) (fun _ => ?_)
    | with_reducible refine safe_bind_ite (α := Int) ?_
    | with_reducible refine safe_bind_cases (α := Int × Int) (fun _ => ?_) (fun _ => ?_)
    | with_reducible refine safe_seq ?_ (fun _ => ?_)
    | with_reducible refine safe_rdC ?_
    | with_reducible refine safe_wrC ?_ ?_
    | with_reducible refine safe_forN (fun _ _ => ?_)
    | with_reducible refine safe_rd ?_
    | with_reducible refine safe_wr ?_ ?_
    | with_reducible refine safe_foldP (f := fun i (s : Int) => hgerud_30_I _ _ _ _ _ _ ((i : Int) + 1) s) (fun s => s) INCX (fun _ _ _ _ => ?_)
    | with_reducible refine safe_foldP (f := fun i (s : Int) => hgerud_20_J _ _ _ _ _ _ _ ((i : Int) + 1) s) (fun s => s) INCY (fun _ _ _ _ => ?_)
    | with_reducible refine safe_foldP (f := fun i (s : Int) => hgerud_40_J _ _ _ _ _ _ _ _ _ ((i : Int) + 1) s) (fun s => s) INCY (fun _ _ _ _ => ?_)
    | with_reducible refine safe_fold (fun _ _ _ => ?_)
    | with_reducible exact (hx.pos _ _ (by assumption) (by assumption)).r1
    | with_reducible exact (hx.pos _ _ (by assumption) (by assumption)).r2
    | with_reducible exact (hx.pos _ _ (by assumption) (by assumption)).r3
    | with_reducible exact (hx.pos _ _ (by assumption) (by assumption)).r4
    | with_reducible exact (hx.pos _ _ (by assumption) (by assumption)).c1
    | with_reducible exact (hx.pos _ _ (by assumption) (by assumption)).c2
    | with_reducible exact (hx.one (by assumption) _ (by assumption)).r1
    | with_reducible exact (hx.one (by assumption) _ (by assumption)).r2
    | with_reducible exact (hx.one (by assumption) _ (by assumption)).r3
    | with_reducible exact (hx.one (by assumption) _ (by assumption)).r4
    | with_reducible exact (hx.one (by assumption) _ (by assumption)).c1
    | with_reducible exact (hx.one (by assumption) _ (by assumption)).c2
    | with_reducible exact (hy.pos _ _ (by assumption) (by assumption)).r1
    | with_reducible exact (hy.pos _ _ (by assumption) (by assumption)).r2
    | with_reducible exact (hy.pos _ _ (by assumption) (by assumption)).r3
    | with_reducible exact (hy.pos _ _ (by assumption) (by assumption)).r4
    | with_reducible exact (hy.pos _ _ (by assumption) (by assumption)).c1
    | with_reducible exact (hy.pos _ _ (by assumption) (by assumption)).c2
    | with_reducible exact (hy.one (by assumption) _ (by assumption)).r1
    | with_reducible exact (hy.one (by assumption) _ (by assumption)).r2
    | with_reducible exact (hy.one (by assumption) _ (by assumption)).r3
    | with_reducible exact (hy.one (by assumption) _ (by assumption)).r4
    | with_reducible exact (hy.one (by assumption) _ (by assumption)).c1
    | with_reducible exact (hy.one (by assumption) _ (by assumption)).c2
    | with_reducible exact (ha _ _ (by assumption) (by assumption)).c1
    | with_reducible exact (ha _ _ (by assumption) (by assumption)).c2
    | with_reducible exact (hw _ _ (by assumption) (by assumption)).c1
    | with_reducible exact (hw _ _ (by assumption) (by assumption)).c2
    | unfold hgerud
    | unfold hgerud_10_I
    | unfold hgerud_if36
    | unfold hgerud_20_J
    | unfold hgerud_30_I
    | unfold hgerud_if53
    | unfold hgerud_40_J
    | unfold hgerud_if34

theorem hgeruz_safe (M : Int) (N : Int) (ALPHA : Cplx F) (X : Int) (INCX : Int) (Y : Int) (INCY : Int) (A : Int) (LDA : Int) {S W : Int → Prop}
    (hx : VEnv S X (if decide (INCX > 0) = true then 1 else 1 - (M - 1) * INCX) INCX M.toNat (decide (INCX = 1) = true))
    (hy : VEnv S Y (if decide (INCY > 0) = true then 1 else 1 - (N - 1) * INCY) INCY N.toNat False)
    (ha : ∀ i j : Nat, i < M.toNat → j < N.toNat → MOk S LDA A ((i:Int) + 1) ((j:Int) + 1))
    (hw : ∀ i j : Nat, i < M.toNat → j < N.toNat → MOk W LDA A ((i:Int) + 1) ((j:Int) + 1)) :
    Safe S W (hgeruz M N ALPHA X INCX Y INCY A LDA (F := F)) (fun _ => True) := by
  repeat' first
    | exact safe_pure trivial
    | exact safe_pure rfl
    | exact safe_pure ⟨rfl, rfl⟩
    | with_reducible refine safe_ite (fun _ => ?_) (fun _ => ?_)
    | with_reducible refine safe_bind_ite (α := Int) ?_
    | with_reducible refine safe_bind_cases (α := Int × Int) (fun _ => ?_) (fun _ => ?_)
    | with_reducible refine safe_seq ?_ (fun _ => ?_)
    | with_reducible refine safe_rdC ?_
    | with_reducible refine safe_wrC ?_ ?_
    | with_reducible refine safe_forN (fun _ _ => ?_)
    | with_reducible refine safe_rd ?_
    | with_reducible refine safe_wr ?_ ?_
    | with_reducible refine safe_foldP (f := fun i (s : Int) => hgeruz_30_I _ _ _ _ _ _ _ _ _ ((i : Int) + 1) s) (fun s => s) INCX (fun _ _ _ _ => ?_)
    | with_reducible refine safe_foldP (f := fun i (s : Int) => hgeruz_20_J _ _ _ _ _ _ _ ((i : Int) + 1) s) (fun s => s) INCY (fun _ _ _ _ => ?_)
    | with_reducible refine safe_foldP (f := fun i (s : Int) => hgeruz_40_J _ _ _ _ _ _ _ _ _ ((i : Int) + 1) s) (fun s => s) INCY (fun _ _ _ _ => ?_)
    | with_reducible refine safe_fold (fun _ _ _ => ?_)
    | with_reducible exact (hx.pos _ _ (by assumption) (by assumption)).r1
    | with_reducible exact (hx.pos _ _ (by assumption) (by assumption)).r2
    | with_reducible exact (hx.pos _ _ (by assumption) (by assumption)).r3
    | with_reducible exact (hx.pos _ _ (by assumption) (by assumption)).r4
    | with_reducible exact (hx.pos _ _ (by assumption) (by assumption)).c1
    | with_reducible exact (hx.pos _ _ (by assumption) (by assumption)).c2
    | with_reducible exact (hx.one (by assumption) _ (by assumption)).r1
    | with_reducible exact (hx.one (by assumption) _ (by assumption)).r2
    | with_reducible exact (hx.one (by assumption) _ (by assumption)).r3
    | with_reducible exact (hx.one (by assumption) _ (by assumption)).r4
    | with_reducible exact (hx.one (by assumption) _ (by assumption)).c1
    | with_reducible exact (hx.one (by assumption) _ (by assumption)).c2
    | with_reducible exact (hy.pos _ _ (by assumption) (by assumption)).r1
    | with_reducible exact (hy.pos _ _ (by assumption) (by assumption)).r2
    | with_reducible exact (hy.pos _ _ (by assumption) (by assumption)).r3
    | with_reducible exact (hy.pos _ _ (by assumption) (by assumption)).r4
    | with_reducible exact (hy.pos _ _ (by assumption) (by assumption)).c1
    | with_reducible exact (hy.pos _ _ (by assumption) (by assumption)).c2
    | with_reducible exact (hy.one (by assumption) _ (by assumption)).r1
    | with_reducible exact (hy.one (by assumption) _ (by assumption)).r2
    | with_reducible exact (hy.one (by assumption) _ (by assumption)).r3
    | with_reducible exact (hy.one (by assumption) _ (by assumption)).r4
    | with_reducible exact (hy.one (by assumption) _ (by assumption)).c1
    | with_reducible exact (hy.one (by assumption) _ (by assumption)).c2
    | with_reducible exact (ha _ _ (by assumption) (by assumption)).c1
    | with_reducible exact (ha _ _ (by assumption) (by assumption)).c2
    | with_reducible exact (hw _ _ (by assumption) (by assumption)).c1
    | with_reducible exact (hw _ _ (by assumption) (by assumption)).c2
    | unfold hgeruz
    | unfold hgeruz_10_I
    | unfold hgeruz_if35
    | unfold hgeruz_20_J
    | unfold hgeruz_30_I
    | unfold hgeruz_if54
    | unfold hgeruz_40_J
    | unfold hgeruz_if33

theorem hgeruh_safe (M : Int) (N : Int) (ALPHA : Quat F) (X : Int) (INCX : Int) (Y : Int) (INCY : Int) (A : Int) (LDA : Int) {S W : Int → Prop}
    (hx : VEnv S X (if decide (INCX > 0) = true then 1 else 1 - (M - 1) * INCX) INCX M.toNat (decide (INCX = 1) = true))
    (hy : VEnv S Y (if decide (INCY > 0) = true then 1 else 1 - (N - 1) * INCY) INCY N.toNat False)
    (ha : ∀ i j : Nat, i < M.toNat → j < N.toNat → MOk S LDA A ((i:Int) + 1) ((j:Int) + 1))
    (hw : ∀ i j : Nat, i < M.toNat → j < N.toNat → MOk W LDA A ((i:Int) + 1) ((j:Int) + 1)) :
    Safe S W (hgeruh M N ALPHA X INCX Y INCY A LDA (F := F)) (fun _ => True) := by
  repeat' first
    | exact safe_pure trivial
    | exact safe_pure rfl
    | exact safe_pure ⟨rfl, rfl⟩
    | with_reducible refine safe_ite (fun _ => ?_) (fun _ => ?_)
    | with_reducible refine safe_bind_ite (α := Int) ?_
    | with_reducible refine safe_bind_cases (α := Int × Int) (fun _ => ?_) (fun _ => ?_)
    | with_reducible refine safe_seq ?_ (fun _ => ?_)
    | with_reducible refine safe_rdC ?_
    | with_reducible refine safe_wrC ?_ ?_
    | with_reducible refine safe_forN (fun _ _ => ?_)
    | with_reducible refine safe_rd ?_
    | with_reducible refine safe_wr ?_ ?_
    | with_reducible refine safe_foldP (f := fun i (s : Int) => hgeruh_30_I _ _ _ _ _ _ _ _ _ _ _ _ _ ((i : Int) + 1) s) (fun s => s) INCX (fun _ _ _ _ => ?_)
    | with_reducible refine safe_foldP (f := fun i (s : Int) => hgeruh_20_J _ _ _ _ _ _ _ ((i : Int) + 1) s) (fun s => s) INCY (fun _ _ _ _ => ?_)
    | with_reducible refine safe_foldP (f := fun i (s : Int) => hgeruh_40_J _ _ _ _ _ _ _ _ _ ((i : Int) + 1) s) (fun s => s) INCY (fun _ _ _ _ => ?_)
    | with_reducible refine safe_fold (fun _ _ _ => ?_)
    | with_reducible exact (hx.pos _ _ (by assumption) (by assumption)).r1
    | with_reducible exact (hx.pos _ _ (by assumption) (by assumption)).r2
    | with_reducible exact (hx.pos _ _ (by assumption) (by assumption)).r3
    | with_reducible exact (hx.pos _ _ (by assumption) (by assumption)).r4
    | with_reducible exact (hx.pos _ _ (by assumption) (by assumption)).c1
    | with_reducible exact (hx.pos _ _ (by assumption) (by assumption)).c2
    | with_reducible exact (hx.one (by assumption) _ (by assumption)).r1
    | with_reducible exact (hx.one (by assumption) _ (by assumption)).r2
    | with_reducible exact (hx.one (by assumption) _ (by assumption)).r3
    | with_reducible exact (hx.one (by assumption) _ (by assumption)).r4
    | with_reducible exact (hx.one (by assumption) _ (by assumption)).c1
    | with_reducible exact (hx.one (by assumption) _ (by assumption)).c2
    | with_reducible exact (hy.pos _ _ (by assumption) (by assumption)).r1
    | with_reducible exact (hy.pos _ _ (by assumption) (by assumption)).r2
    | with_reducible exact (hy.pos _ _ (by assumption) (by assumption)).r3
    | with_reducible exact (hy.pos _ _ (by assumption) (by assumption)).r4
    | with_reducible exact (hy.pos _ _ (by assumption) (by assumption)).c1
    | with_reducible exact (hy.pos _ _ (by assumption) (by assumption)).c2
    | with_reducible exact (hy.one (by assumption) _ (by assumption)).r1
    | with_reducible exact (hy.one (by assumption) _ (by assumption)).r2
    | with_reducible exact (hy.one (by assumption) _ (by assumption)).r3
    | with_reducible exact (hy.one (by assumption) _ (by assumption)).r4
    | with_reducible exact (hy.one (by assumption) _ (by assumption)).c1
    | with_reducible exact (hy.one (by assumption) _ (by assumption)).c2
    | with_reducible exact (ha _ _ (by assumption) (by assumption)).c1
    | with_reducible exact (ha _ _ (by assumption) (by assumption)).c2
    | with_reducible exact (hw _ _ (by assumption) (by assumption)).c1
    | with_reducible exact (hw _ _ (by assumption) (by assumption)).c2
    | unfold hgeruh
    | unfold hgeruh_10_I
    | unfold hgeruh_if36
    | unfold hgeruh_20_J
    | unfold hgeruh_30_I
    | unfold hgeruh_if63
    | unfold hgeruh_40_J
    | unfold hgeruh_if34

theorem hgercd_safe (M : Int) (N : Int) (ALPHA : F) (X : Int) (INCX : Int) (Y : Int) (INCY : Int) (A : Int) (LDA : Int) {S W : Int → Prop}
    (h1 : decide (INCX = 1) = true)
    (hx : VEnv S X (if decide (INCX > 0) = true then 1 else 1 - (M - 1) * INCX) INCX M.toNat (decide (INCX = 1) = true))
    (hy : VEnv S Y (if decide (INCY > 0) = true then 1 else 1 - (N - 1) * INCY) INCY N.toNat False)
    (ha : ∀ i j : Nat, i < M.toNat → j < N.toNat → MOk S LDA A ((i:Int) + 1) ((j:Int) + 1))
    (hw : ∀ i j : Nat, i < M.toNat → j < N.toNat → MOk W LDA A ((i:Int) + 1) ((j:Int) + 1)) :
    Safe S W (hgercd M N ALPHA X INCX Y INCY A LDA (F := F)) (fun _ => True) := by
  repeat' first
    | with_reducible exact absurd h1 (by assumption)
    | exact safe_pure trivial
    | exact safe_pure rfl
    | exact safe_pure ⟨rfl, rfl⟩
    | with_reducible refine safe_ite (fun _ => ?_) (fun _ => ?_)
    | with_reducible refine safe_bind_ite (α := Int) ?_
    | with_reducible refine safe_bind_cases (α := Int × Int) (fun _ => ?_) (fun _ => ?_)
    | with_reducible refine safe_seq ?_ (fun _ => ?_)
    | with_reducible refine safe_rdC ?_
    | with_reducible refine safe_wrC ?_ ?_
    | with_reducible refine safe_forN (fun _ _ => ?_)
    | with_reducible refine safe_rd ?_
    | with_reducible refine safe_wr ?_ ?_
    | with_reducible refine safe_foldP (f := fun i (s : Int) => hgercd_30_I _ _ _ _ _ _ ((i : Int) + 1) s) (fun s => s) INCX (fun _ _ _ _ => ?_)
    | with_reducible refine safe_foldP (f := fun i (s : Int) => hgercd_20_J _ _ _ _ _ _ _ ((i : Int) + 1) s) (fun s => s) INCY (fun _ _ _ _ => ?_)
    | with_reducible refine safe_foldP (f := fun i (s : Int) => hgercd_40_J _ _ _ _ _ _ _ _ _ ((i : Int) + 1) s) (fun s => s) INCY (fun _ _ _ _ => ?_)
    | with_reducible refine safe_fold (fun _ _ _ => ?_)
    | with_reducible exact (hx.pos _ _ (by assumption) (by assumption)).r1
    | with_reducible exact (hx.pos _ _ (by assumption) (by assumption)).r2
    | with_reducible exact (hx.pos _ _ (by assumption) (by assumption)).r3
    | with_reducible exact (hx.pos _ _ (by assumption) (by assumption)).r4
    | with_reducible exact (hx.pos _ _ (by assumption) (by assumption)).c1
    | with_reducible exact (hx.pos _ _ (by assumption) (by assumption)).c2
    | with_reducible exact (hx.one (by assumption) _ (by assumption)).r1
    | with_reducible exact (hx.one (by assumption) _ (by assumption)).r2
    | with_reducible exact (hx.one (by assumption) _ (by assumption)).r3
    | with_reducible exact (hx.one (by assumption) _ (by assumption)).r4
    | with_reducible exact (hx.one (by assumption) _ (by assumption)).c1
    | with_reducible exact (hx.one (by assumption) _ (by assumption)).c2
    | with_reducible exact (hy.pos _ _ (by assumption) (by assumption)).r1
    | with_reducible exact (hy.pos _ _ (by assumption) (by assumption)).r2
    | with_reducible exact (hy.pos _ _ (by assumption) (by assumption)).r3
    | with_reducible exact (hy.pos _ _ (by assumption) (by assumption)).r4
    | with_reducible exact (hy.pos _ _ (by assumption) (by assumption)).c1
    | with_reducible exact (hy.pos _ _ (by assumption) (by assumption)).c2
    | with_reducible exact (hy.one (by assumption) _ (by assumption)).r1
    | with_reducible exact (hy.one (by assumption) _ (by assumption)).r2
    | with_reducible exact (hy.one (by assumption) _ (by assumption)).r3
    | with_reducible exact (hy.one (by assumption) _ (by assumption)).r4
    | with_reducible exact (hy.one (by assumption) _ (by assumption)).c1
    | with_reducible exact (hy.one (by assumption) _ (by assumption)).c2
    | with_reducible exact (ha _ _ (by assumption) (by assumption)).c1
    | with_reducible exact (ha _ _ (by assumption) (by assumption)).c2
    | with_reducible exact (hw _ _ (by assumption) (by assumption)).c1
    | with_reducible exact (hw _ _ (by assumption) (by assumption)).c2
    | unfold hgercd
    | unfold hgercd_10_I
    | unfold hgercd_if36
    | unfold hgercd_20_J
    | unfold hgercd_30_I
    | unfold hgercd_if53
    | unfold hgercd_40_J
    | unfold hgercd_if34

theorem hgercz_safe (M : Int) (N : Int) (ALPHA : Cplx F) (X : Int) (INCX : Int) (Y : Int) (INCY : Int) (A : Int) (LDA : Int) {S W : Int → Prop}
    (hx : VEnv S X (if decide (INCX > 0) = true then 1 else 1 - (M - 1) * INCX) INCX M.toNat (decide (INCX = 1) = true))
    (hy : VEnv S Y (if decide (INCY > 0) = true then 1 else 1 - (N - 1) * INCY) INCY N.toNat False)
    (ha : ∀ i j : Nat, i < M.toNat → j < N.toNat → MOk S LDA A ((i:Int) + 1) ((j:Int) + 1))
    (hw : ∀ i j : Nat, i < M.toNat → j < N.toNat → MOk W LDA A ((i:Int) + 1) ((j:Int) + 1)) :
    Safe S W (hgercz M N ALPHA X INCX Y INCY A LDA (F := F)) (fun _ => True) := by
  repeat' first
    | exact safe_pure trivial
    | exact safe_pure rfl
    | exact safe_pure ⟨rfl, rfl⟩
    | with_reducible refine safe_ite (fun _ => ?_) (fun _ => ?_)
    | with_reducible refine safe_bind_ite (α := Int) ?_
    | with_reducible refine safe_bind_cases (α := Int × Int) (fun _ => ?_) (fun _ => ?_)
    | with_reducible refine safe_seq ?_ (fun _ => ?_)
    | with_reducible refine safe_rdC ?_
    | with_reducible refine safe_wrC ?_ ?_
    | with_reducible refine safe_forN (fun _ _ => ?_)
    | with_reducible refine safe_rd ?_
    | with_reducible refine safe_wr ?_ ?_
    | with_reducible refine safe_foldP (f := fun i (s : Int) => hgercz_30_I _ _ _ _ _ _ _ _ _ ((i : Int) + 1) s) (fun s => s) INCX (fun _ _ _ _ => ?_)
    | with_reducible refine safe_foldP (f := fun i (s : Int) => hgercz_20_J _ _ _ _ _ _ _ ((i : Int) + 1) s) (fun s => s) INCY (fun _ _ _ _ => ?_)
    | with_reducible refine safe_foldP (f := fun i (s : Int) => hgercz_40_J _ _ _ _ _ _ _ _ _ ((i : Int) + 1) s) (fun s => s) INCY (fun _ _ _ _ => ?_)
    | with_reducible refine safe_fold (fun _ _ _ => ?_)
    | with_reducible exact (hx.pos _ _ (by assumption) (by assumption)).r1
    | with_reducible exact (hx.pos _ _ (by assumption) (by assumption)).r2
    | with_reducible exact (hx.pos _ _ (by assumption) (by assumption)).r3
    | with_reducible exact (hx.pos _ _ (by assumption) (by assumption)).r4
    | with_reducible exact (hx.pos _ _ (by assumption) (by assumption)).c1
    | with_reducible exact (hx.pos _ _ (by assumption) (by assumption)).c2
    | with_reducible exact (hx.one (by assumption) _ (by assumption)).r1
    | with_reducible exact (hx.one (by assumption) _ (by assumption)).r2
    | with_reducible exact (hx.one (by assumption) _ (by assumption)).r3
    | with_reducible exact (hx.one (by assumption) _ (by assumption)).r4
    | with_reducible exact (hx.one (by assumption) _ (by assumption)).c1
    | with_reducible exact (hx.one (by assumption) _ (by assumption)).c2
    | with_reducible exact (hy.pos _ _ (by assumption) (by assumption)).r1
    | with_reducible exact (hy.pos _ _ (by assumption) (by assumption)).r2
    | with_reducible exact (hy.pos _ _ (by assumption) (by assumption)).r3
    | with_reducible exact (hy.pos _ _ (by assumption) (by assumption)).r4
    | with_reducible exact (hy.pos _ _ (by assumption) (by assumption)).c1
    | with_reducible exact (hy.pos _ _ (by assumption) (by assumption)).c2
    | with_reducible exact (hy.one (by assumption) _ (by assumption)).r1
    | with_reducible exact (hy.one (by assumption) _ (by assumption)).r2
    | with_reducible exact (hy.one (by assumption) _ (by assumption)).r3
    | with_reducible exact (hy.one (by assumption) _ (by assumption)).r4
    | with_reducible exact (hy.one (by assumption) _ (by assumption)).c1
    | with_reducible exact (hy.one (by assumption) _ (by assumption)).c2
    | with_reducible exact (ha _ _ (by assumption) (by assumption)).c1
    | with_reducible exact (ha _ _ (by assumption) (by assumption)).c2
    | with_reducible exact (hw _ _ (by assumption) (by assumption)).c1
    | with_reducible exact (hw _ _ (by assumption) (by assumption)).c2
    | unfold hgercz
    | unfold hgercz_10_I
    | unfold hgercz_if35
    | unfold hgercz_20_J
    | unfold hgercz_30_I
    | unfold hgercz_if54
    | unfold hgercz_40_J
    | unfold hgercz_if33

theorem hgerch_safe (M : Int) (N : Int) (ALPHA : Quat F) (X : Int) (INCX : Int) (Y : Int) (INCY : Int) (A : Int) (LDA : Int) {S W : Int → Prop}
    (hx : VEnv S X (if decide (INCX > 0) = true then 1 else 1 - (M - 1) * INCX) INCX M.toNat (decide (INCX = 1) = true))
    (hy : VEnv S Y (if decide (INCY > 0) = true then 1 else 1 - (N - 1) * INCY) INCY N.toNat False)
    (ha : ∀ i j : Nat, i < M.toNat → j < N.toNat → MOk S LDA A ((i:Int) + 1) ((j:Int) + 1))
    (hw : ∀ i j : Nat, i < M.toNat → j < N.toNat → MOk W LDA A ((i:Int) + 1) ((j:Int) + 1)) :
    Safe S W (hgerch M N ALPHA X INCX Y INCY A LDA (F := F)) (fun _ => True) := by
  repeat' first
    | exact safe_pure trivial
    | exact safe_pure rfl
    | exact safe_pure ⟨rfl, rfl⟩
    | with_reducible refine safe_ite (fun _ => ?_) (fun _ => ?_)
    | with_reducible refine safe_bind_ite (α := Int) ?_
    | with_reducible refine safe_bind_cases (α := Int × Int) (fun _ => ?_) (fun _ => ?_)
    | with_reducible refine safe_seq ?_ (fun _ => ?_)
    | with_reducible refine safe_rdC ?_
    | with_reducible refine safe_wrC ?_ ?_
    | with_reducible refine safe_forN (fun _ _ => ?_)
    | with_reducible refine safe_rd ?_
    | with_reducible refine safe_wr ?_ ?_
    | with_reducible refine safe_foldP (f := fun i (s : Int) => hgerch_30_I _ _ _ _ _ _ _ _ _ _ _ _ _ ((i : Int) + 1) s) (fun s => s) INCX (fun _ _ _ _ => ?_)
    | with_reducible refine safe_foldP (f := fun i (s : Int) => hgerch_20_J _ _ _ _ _ _ _ ((i : Int) + 1) s) (fun s => s) INCY (fun _ _ _ _ => ?_)
    | with_reducible refine safe_foldP (f := fun i (s : Int) => hgerch_40_J _ _ _ _ _ _ _ _ _ ((i : Int) + 1) s) (fun s => s) INCY (fun _ _ _ _ => ?_)
    | with_reducible refine safe_fold (fun _ _ _ => ?_)
    | with_reducible exact (hx.pos _ _ (by assumption) (by assumption)).r1
    | with_reducible exact (hx.pos _ _ (by assumption) (by assumption)).r2
    | with_reducible exact (hx.pos _ _ (by assumption) (by assumption)).r3
    | with_reducible exact (hx.pos _ _ (by assumption) (by assumption)).r4
    | with_reducible exact (hx.pos _ _ (by assumption) (by assumption)).c1
    | with_reducible exact (hx.pos _ _ (by assumption) (by assumption)).c2
    | with_reducible exact (hx.one (by assumption) _ (by assumption)).r1
    | with_reducible exact (hx.one (by assumption) _ (by assumption)).r2
    | with_reducible exact (hx.one (by assumption) _ (by assumption)).r3
    | with_reducible exact (hx.one (by assumption) _ (by assumption)).r4
    | with_reducible exact (hx.one (by assumption) _ (by assumption)).c1
    | with_reducible exact (hx.one (by assumption) _ (by assumption)).c2
    | with_reducible exact (hy.pos _ _ (by assumption) (by assumption)).r1
    | with_reducible exact (hy.pos _ _ (by assumption) (by assumption)).r2
    | with_reducible exact (hy.pos _ _ (by assumption) (by assumption)).r3
    | with_reducible exact (hy.pos _ _ (by assumption) (by assumption)).r4
    | with_reducible exact (hy.pos _ _ (by assumption) (by assumption)).c1
    | with_reducible exact (hy.pos _ _ (by assumption) (by assumption)).c2
    | with_reducible exact (hy.one (by assumption) _ (by assumption)).r1
    | with_reducible exact (hy.one (by assumption) _ (by assumption)).r2
    | with_reducible exact (hy.one (by assumption) _ (by assumption)).r3
    | with_reducible exact (hy.one (by assumption) _ (by assumption)).r4
    | with_reducible exact (hy.one (by assumption) _ (by assumption)).c1
    | with_reducible exact (hy.one (by assumption) _ (by assumption)).c2
    | with_reducible exact (ha _ _ (by assumption) (by assumption)).c1
    | with_reducible exact (ha _ _ (by assumption) (by assumption)).c2
    | with_reducible exact (hw _ _ (by assumption) (by assumption)).c1
    | with_reducible exact (hw _ _ (by assumption) (by assumption)).c2
    | unfold hgerch
    | unfold hgerch_10_I
    | unfold hgerch_if36
    | unfold hgerch_20_J
    | unfold hgerch_30_I
    | unfold hgerch_if63
    | unfold hgerch_40_J
    | unfold hgerch_if34

end Haxx.Thr
