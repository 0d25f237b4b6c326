import Verif.ThrSafeGemvhz
import Verif.ThrFort

/-! Generated by `tools/gen_safe.py gemv hh`. -/

namespace Haxx.Thr
open Arith
variable {F : Type} [Arith F] [ArithEq F]
set_option maxHeartbeats 4000000
set_option linter.unusedSectionVars false

theorem hgemvhh_safe (TRANS : Char) (M : Int) (N : Int) (ALPHA : Quat F) (A : Int) (LDA : Int) (X : Int) (INCX : Int) (BETA : Quat F) (Y : Int) (INCY : Int) {S W : Int → Prop}
    (ht : lsame 'T' TRANS = true → GemvEnv S W (lsame TRANS 'N' = true) M N A LDA X INCX Y INCY N M)
    (hf : ¬ lsame 'T' TRANS = true → GemvEnv S W (lsame TRANS 'N' = true) M N A LDA X INCX Y INCY M N) :
    Safe S W (hgemvhh TRANS M N ALPHA A LDA X INCX BETA Y INCY (F := F)) (fun _ => True) := by
  repeat' first
    | (with_reducible guard_target = Two S _; first
      | with_reducible exact ((ht (by assumption)).y.pos _ _ (by assumption) (by assumption)).c1
      | with_reducible exact ((ht (by assumption)).y.pos _ _ (by assumption) (by assumption)).c2
      | with_reducible exact ((ht (by assumption)).y.one (by assumption) _ (by assumption)).c1
      | with_reducible exact ((ht (by assumption)).y.one (by assumption) _ (by assumption)).c2
      | with_reducible exact (((ht (by assumption)).xN (by assumption)).pos _ _ (by assumption) (by assumption)).c1
      | with_reducible exact (((ht (by assumption)).xN (by assumption)).pos _ _ (by assumption) (by assumption)).c2
      | with_reducible exact (((ht (by assumption)).xN (by assumption)).one (by assumption) _ (by assumption)).c1
      | with_reducible exact (((ht (by assumption)).xN (by assumption)).one (by assumption) _ (by assumption)).c2
      | with_reducible exact (((ht (by assumption)).xT (by assumption)).pos _ _ (by assumption) (by assumption)).c1
      | with_reducible exact (((ht (by assumption)).xT (by assumption)).pos _ _ (by assumption) (by assumption)).c2
      | with_reducible exact (((ht (by assumption)).xT (by assumption)).one (by assumption) _ (by assumption)).c1
      | with_reducible exact (((ht (by assumption)).xT (by assumption)).one (by assumption) _ (by assumption)).c2
      | with_reducible exact (((ht (by assumption)).yN (by assumption)).pos _ _ (by assumption) (by assumption)).c1
      | with_reducible exact (((ht (by assumption)).yN (by assumption)).pos _ _ (by assumption) (by assumption)).c2
      | with_reducible exact (((ht (by assumption)).yN (by assumption)).one (by assumption) _ (by assumption)).c1
      | with_reducible exact (((ht (by assumption)).yN (by assumption)).one (by assumption) _ (by assumption)).c2
      | with_reducible exact (((ht (by assumption)).yT (by assumption)).pos _ _ (by assumption) (by assumption)).c1
      | with_reducible exact (((ht (by assumption)).yT (by assumption)).pos _ _ (by assumption) (by assumption)).c2
      | with_reducible exact (((ht (by assumption)).yT (by assumption)).one (by assumption) _ (by assumption)).c1
      | with_reducible exact (((ht (by assumption)).yT (by assumption)).one (by assumption) _ (by assumption)).c2
      | with_reducible exact ((ht (by assumption)).a _ _ (by assumption) (by assumption)).c1
      | with_reducible exact ((ht (by assumption)).a _ _ (by assumption) (by assumption)).c2
      | with_reducible exact ((hf (by assumption)).y.pos _ _ (by assumption) (by assumption)).c1
      | with_reducible exact ((hf (by assumption)).y.pos _ _ (by assumption) (by assumption)).c2
      | with_reducible exact ((hf (by assumption)).y.one (by assumption) _ (by assumption)).c1
      | with_reducible exact ((hf (by assumption)).y.one (by assumption) _ (by assumption)).c2
      | with_reducible exact (((hf (by assumption)).xN (by assumption)).pos _ _ (by assumption) (by assumption)).c1
      | with_reducible exact (((hf (by assumption)).xN (by assumption)).pos _ _ (by assumption) (by assumption)).c2
      | with_reducible exact (((hf (by assumption)).xN (by assumption)).one (by assumption) _ (by assumption)).c1
      | with_reducible exact (((hf (by assumption)).xN (by assumption)).one (by assumption) _ (by assumption)).c2
      | with_reducible exact (((hf (by assumption)).xT (by assumption)).pos _ _ (by assumption) (by assumption)).c1
      | with_reducible exact (((hf (by assumption)).xT (by assumption)).pos _ _ (by assumption) (by assumption)).c2
      | with_reducible exact (((hf (by assumption)).xT (by assumption)).one (by assumption) _ (by assumption)).c1
      | with_reducible exact (((hf (by assumption)).xT (by assumption)).one (by assumption) _ (by assumption)).c2
      | with_reducible exact (((hf (by assumption)).yN (by assumption)).pos _ _ (by assumption) (by assumption)).c1
      | with_reducible exact (((hf (by assumption)).yN (by assumption)).pos _ _ (by assumption) (by assumption)).c2
      | with_reducible exact (((hf (by assumption)).yN (by assumption)).one (by assumption) _ (by assumption)).c1
      | with_reducible exact (((hf (by assumption)).yN (by assumption)).one (by assumption) _ (by assumption)).c2
      | with_reducible exact (((hf (by assumption)).yT (by assumption)).pos _ _ (by assumption) (by assumption)).c1
      | with_reducible exact (((hf (by assumption)).yT (by assumption)).pos _ _ (by assumption) (by assumption)).c2
      | with_reducible exact (((hf (by assumption)).yT (by assumption)).one (by assumption) _ (by assumption)).c1
      | with_reducible exact (((hf (by assumption)).yT (by assumption)).one (by assumption) _ (by assumption)).c2
      | with_reducible exact ((hf (by assumption)).a _ _ (by assumption) (by assumption)).c1
      | with_reducible exact ((hf (by assumption)).a _ _ (by assumption) (by assumption)).c2)
    | (with_reducible guard_target = Two W _; first
      | with_reducible exact ((ht (by assumption)).w.pos _ _ (by assumption) (by assumption)).c1
      | with_reducible exact ((ht (by assumption)).w.pos _ _ (by assumption) (by assumption)).c2
      | with_reducible exact ((ht (by assumption)).w.one (by assumption) _ (by assumption)).c1
      | with_reducible exact ((ht (by assumption)).w.one (by assumption) _ (by assumption)).c2
      | with_reducible exact (((ht (by assumption)).wN (by assumption)).pos _ _ (by assumption) (by assumption)).c1
      | with_reducible exact (((ht (by assumption)).wN (by assumption)).pos _ _ (by assumption) (by assumption)).c2
      | with_reducible exact (((ht (by assumption)).wN (by assumption)).one (by assumption) _ (by assumption)).c1
      | with_reducible exact (((ht (by assumption)).wN (by assumption)).one (by assumption) _ (by assumption)).c2
      | with_reducible exact (((ht (by assumption)).wT (by assumption)).pos _ _ (by assumption) (by assumption)).c1
      | with_reducible exact (((ht (by assumption)).wT (by assumption)).pos _ _ (by assumption) (by assumption)).c2
      | with_reducible exact (((ht (by assumption)).wT (by assumption)).one (by assumption) _ (by assumption)).c1
      | with_reducible exact (((ht (by assumption)).wT (by assumption)).one (by assumption) _ (by assumption)).c2
      | with_reducible exact ((hf (by assumption)).w.pos _ _ (by assumption) (by assumption)).c1
      | with_reducible exact ((hf (by assumption)).w.pos _ _ (by assumption) (by assumption)).c2
      | with_reducible exact ((hf (by assumption)).w.one (by assumption) _ (by assumption)).c1
      | with_reducible exact ((hf (by assumption)).w.one (by assumption) _ (by assumption)).c2
      | with_reducible exact (((hf (by assumption)).wN (by assumption)).pos _ _ (by assumption) (by assumption)).c1
      | with_reducible exact (((hf (by assumption)).wN (by assumption)).pos _ _ (by assumption) (by assumption)).c2
      | with_reducible exact (((hf (by assumption)).wN (by assumption)).one (by assumption) _ (by assumption)).c1
      | with_reducible exact (((hf (by assumption)).wN (by assumption)).one (by assumption) _ (by assumption)).c2
      | with_reducible exact (((hf (by assumption)).wT (by assumption)).pos _ _ (by assumption) (by assumption)).c1
      | with_reducible exact (((hf (by assumption)).wT (by assumption)).pos _ _ (by assumption) (by assumption)).c2
      | with_reducible exact (((hf (by assumption)).wT (by assumption)).one (by assumption) _ (by assumption)).c1
      | with_reducible exact (((hf (by assumption)).wT (by assumption)).one (by assumption) _ (by assumption)).c2)
    | with_reducible refine safe_ite (fun _ => ?_) (fun _ => ?_)
    | with_reducible refine safe_bind_ite (α := Int) ?_
    | with_reducible refine safe_bind_cases (α := Int × Int) (fun _ => ?_) (fun _ => ?_)
    | with_reducible refine safe_seq ?_ (fun _ => ?_)
    | with_reducible refine safe_rdC ?_
    | with_reducible refine safe_wrC ?_ ?_
    | with_reducible refine safe_forN (fun _ _ => ?_)
    | with_reducible refine safe_rd ?_
    | with_reducible refine safe_wr ?_ ?_
    | with_reducible refine safe_foldP (f := fun i (s : Int) => hgemvhh_30_I _ _ ((i : Int) + 1) s) (fun s => s) INCY (fun _ _ _ _ => ?_)
    | with_reducible refine safe_foldP (f := fun i (s : Int) => hgemvhh_40_I _ _ _ ((i : Int) + 1) s) (fun s => s) INCY (fun _ _ _ _ => ?_)
    | with_reducible refine safe_foldP (f := fun i (s : Int) => hgemvhh_70_I _ _ _ _ _ _ _ _ _ _ _ _ _ ((i : Int) + 1) s) (fun s => s) INCY (fun _ _ _ _ => ?_)
    | with_reducible refine safe_foldP (f := fun i (s : Int) => hgemvhh_60_J _ _ _ _ _ _ _ ((i : Int) + 1) s) (fun s => s) INCX (fun _ _ _ _ => ?_)
    | with_reducible refine safe_foldP (f := fun i (s : Int) => hgemvhh_80_J _ _ _ _ _ _ _ _ _ ((i : Int) + 1) s) (fun s => s) INCX (fun _ _ _ _ => ?_)
    | with_reducible refine safe_foldP (f := fun i (s : Cplx F × Cplx F × Int) => hgemvhh_120_I _ _ _ _ _ ((i : Int) + 1) s.1 s.2.1 s.2.2) (fun s => s.2.2) INCX (fun _ _ _ _ => ?_)
    | with_reducible refine safe_foldP (f := fun i (s : Cplx F × Cplx F × Int) => hgemvhh_130_I _ _ _ _ _ ((i : Int) + 1) s.1 s.2.1 s.2.2) (fun s => s.2.2) INCX (fun _ _ _ _ => ?_)
    | with_reducible refine safe_foldP (f := fun i (s : Int) => hgemvhh_110_J _ _ _ _ _ _ _ _ ((i : Int) + 1) s) (fun s => s) INCY (fun _ _ _ _ => ?_)
    | with_reducible refine safe_foldP (f := fun i (s : Int) => hgemvhh_140_J _ _ _ _ _ _ _ _ _ _ ((i : Int) + 1) s) (fun s => s) INCY (fun _ _ _ _ => ?_)
    | with_reducible refine safe_fold (fun _ _ _ => ?_)
    | unfold hgemvhh
    | unfold hgemvhh_10_I
    | unfold hgemvhh_20_I
    | unfold hgemvhh_if59
    | unfold hgemvhh_30_I
    | unfold hgemvhh_40_I
    | unfold hgemvhh_if73
    | unfold hgemvhh_if58
    | unfold hgemvhh_if57
    | unfold hgemvhh_50_I
    | unfold hgemvhh_60_J
    | unfold hgemvhh_70_I
    | unfold hgemvhh_80_J
    | unfold hgemvhh_if94
    | unfold hgemvhh_90_I
    | unfold hgemvhh_100_I
    | unfold hgemvhh_if145
    | unfold hgemvhh_110_J
    | unfold hgemvhh_120_I
    | unfold hgemvhh_130_I
    | unfold hgemvhh_if171
    | unfold hgemvhh_140_J
    | unfold hgemvhh_if141
    | unfold hgemvhh_if92
    | exact safe_pure trivial
    | exact safe_pure rfl
    | exact safe_pure ⟨rfl, rfl⟩

end Haxx.Thr
