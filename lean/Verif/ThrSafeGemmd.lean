import Verif.ThrSafe
import Verif.ThrFortGemm

/-! Generated by `tools/gen_safe.py gemm dd dz dh`. -/

namespace Haxx.Thr
open Arith
variable {F : Type} [Arith F] [ArithEq F]
set_option maxHeartbeats 4000000
set_option linter.unusedSectionVars false

theorem hgemmdd_safe (TRANSA : Char) (TRANSB : Char) (M : Int) (N : Int) (K : Int) (ALPHA : F) (A : Int) (LDA : Int) (B : Int) (LDB : Int) (BETA : F) (C : Int) (LDC : Int) {S W : Int → Prop}
    (h : FGemmEnv S W (lsame TRANSA 'N') (lsame TRANSB 'N') M N K A LDA B LDB C LDC) :
    Safe S W (hgemmdd TRANSA TRANSB M N K ALPHA A LDA B LDB BETA C LDC (F := F)) (fun _ => True) := by
  repeat' first
    | exact safe_pure trivial
    | with_reducible refine safe_ite (fun _ => ?_) (fun _ => ?_)
    | with_reducible refine safe_seq ?_ (fun _ => ?_)
    | with_reducible refine safe_rdC ?_
    | with_reducible refine safe_wrC ?_ ?_
    | with_reducible refine safe_forN (fun _ _ => ?_)
    | with_reducible refine safe_fold (fun _ _ _ => ?_)
    | with_reducible exact (h.c _ _ (by assumption) (by assumption)).1
    | with_reducible exact (h.c _ _ (by assumption) (by assumption)).2
    | with_reducible exact (h.w _ _ (by assumption) (by assumption)).1
    | with_reducible exact (h.w _ _ (by assumption) (by assumption)).2
    | with_reducible exact (h.AN (by assumption) _ _ (by assumption) (by assumption)).1
    | with_reducible exact (h.AN (by assumption) _ _ (by assumption) (by assumption)).2
    | with_reducible exact (h.AT (by assumption) _ _ (by assumption) (by assumption)).1
    | with_reducible exact (h.AT (by assumption) _ _ (by assumption) (by assumption)).2
    | with_reducible exact (h.BN (by assumption) _ _ (by assumption) (by assumption)).1
    | with_reducible exact (h.BN (by assumption) _ _ (by assumption) (by assumption)).2
    | with_reducible exact (h.BT (by assumption) _ _ (by assumption) (by assumption)).1
    | with_reducible exact (h.BT (by assumption) _ _ (by assumption) (by assumption)).2
    | unfold hgemmdd
    | unfold hgemmdd_10_I
    | unfold hgemmdd_10_J
    | unfold hgemmdd_20_I
    | unfold hgemmdd_20_J
    | unfold hgemmdd_if57
    | unfold hgemmdd_40_I
    | unfold hgemmdd_50_I
    | unfold hgemmdd_if87
    | unfold hgemmdd_70_I
    | unfold hgemmdd_60_L
    | unfold hgemmdd_30_J
    | unfold hgemmdd_90_L
    | unfold hgemmdd_80_I
    | unfold hgemmdd_80_J
    | unfold hgemmdd_110_L
    | unfold hgemmdd_100_I
    | unfold hgemmdd_100_J
    | unfold hgemmdd_if82
    | unfold hgemmdd_130_I
    | unfold hgemmdd_140_I
    | unfold hgemmdd_if259
    | unfold hgemmdd_160_I
    | unfold hgemmdd_150_L
    | unfold hgemmdd_120_J
    | unfold hgemmdd_180_I
    | unfold hgemmdd_190_I
    | unfold hgemmdd_if322
    | unfold hgemmdd_210_I
    | unfold hgemmdd_200_L
    | unfold hgemmdd_170_J
    | unfold hgemmdd_if254
    | unfold hgemmdd_230_L
    | unfold hgemmdd_220_I
    | unfold hgemmdd_220_J
    | unfold hgemmdd_250_L
    | unfold hgemmdd_240_I
    | unfold hgemmdd_240_J
    | unfold hgemmdd_if380
    | unfold hgemmdd_270_L
    | unfold hgemmdd_260_I
    | unfold hgemmdd_260_J
    | unfold hgemmdd_290_L
    | unfold hgemmdd_280_I
    | unfold hgemmdd_280_J
    | unfold hgemmdd_if493
    | unfold hgemmdd_if81

theorem hgemmdz_safe (TRANSA : Char) (TRANSB : Char) (M : Int) (N : Int) (K : Int) (ALPHA : F) (A : Int) (LDA : Int) (B : Int) (LDB : Int) (BETA : Cplx F) (C : Int) (LDC : Int) {S W : Int → Prop}
    (h : FGemmEnv S W (lsame TRANSA 'N') (lsame TRANSB 'N') M N K A LDA B LDB C LDC) :
    Safe S W (hgemmdz TRANSA TRANSB M N K ALPHA A LDA B LDB BETA C LDC (F := F)) (fun _ => True) := by
  repeat' first
    | exact safe_pure trivial
    | with_reducible refine safe_ite (fun _ => ?_) (fun _ => ?_)
    | with_reducible refine safe_seq ?_ (fun _ => ?_)
    | with_reducible refine safe_rdC ?_
    | with_reducible refine safe_wrC ?_ ?_
    | with_reducible refine safe_forN (fun _ _ => ?_)
    | with_reducible refine safe_fold (fun _ _ _ => ?_)
    | with_reducible exact (h.c _ _ (by assumption) (by assumption)).1
    | with_reducible exact (h.c _ _ (by assumption) (by assumption)).2
    | with_reducible exact (h.w _ _ (by assumption) (by assumption)).1
    | with_reducible exact (h.w _ _ (by assumption) (by assumption)).2
    | with_reducible exact (h.AN (by assumption) _ _ (by assumption) (by assumption)).1
    | with_reducible exact (h.AN (by assumption) _ _ (by assumption) (by assumption)).2
    | with_reducible exact (h.AT (by assumption) _ _ (by assumption) (by assumption)).1
    | with_reducible exact (h.AT (by assumption) _ _ (by assumption) (by assumption)).2
    | with_reducible exact (h.BN (by assumption) _ _ (by assumption) (by assumption)).1
    | with_reducible exact (h.BN (by assumption) _ _ (by assumption) (by assumption)).2
    | with_reducible exact (h.BT (by assumption) _ _ (by assumption) (by assumption)).1
    | with_reducible exact (h.BT (by assumption) _ _ (by assumption) (by assumption)).2
    | unfold hgemmdz
    | unfold hgemmdz_10_I
    | unfold hgemmdz_10_J
    | unfold hgemmdz_20_I
    | unfold hgemmdz_20_J
    | unfold hgemmdz_if62
    | unfold hgemmdz_40_I
    | unfold hgemmdz_50_I
    | unfold hgemmdz_if106
    | unfold hgemmdz_70_I
    | unfold hgemmdz_60_L
    | unfold hgemmdz_30_J
    | unfold hgemmdz_90_L
    | unfold hgemmdz_80_I
    | unfold hgemmdz_80_J
    | unfold hgemmdz_110_L
    | unfold hgemmdz_100_I
    | unfold hgemmdz_100_J
    | unfold hgemmdz_if101
    | unfold hgemmdz_130_I
    | unfold hgemmdz_140_I
    | unfold hgemmdz_if316
    | unfold hgemmdz_160_I
    | unfold hgemmdz_150_L
    | unfold hgemmdz_120_J
    | unfold hgemmdz_180_I
    | unfold hgemmdz_190_I
    | unfold hgemmdz_if393
    | unfold hgemmdz_210_I
    | unfold hgemmdz_200_L
    | unfold hgemmdz_170_J
    | unfold hgemmdz_if311
    | unfold hgemmdz_230_L
    | unfold hgemmdz_220_I
    | unfold hgemmdz_220_J
    | unfold hgemmdz_250_L
    | unfold hgemmdz_240_I
    | unfold hgemmdz_240_J
    | unfold hgemmdz_if465
    | unfold hgemmdz_270_L
    | unfold hgemmdz_260_I
    | unfold hgemmdz_260_J
    | unfold hgemmdz_290_L
    | unfold hgemmdz_280_I
    | unfold hgemmdz_280_J
    | unfold hgemmdz_if602
    | unfold hgemmdz_if100

theorem hgemmdh_safe (TRANSA : Char) (TRANSB : Char) (M : Int) (N : Int) (K : Int) (ALPHA : F) (A : Int) (LDA : Int) (B : Int) (LDB : Int) (BETA : Quat F) (C : Int) (LDC : Int) {S W : Int → Prop}
    (h : FGemmEnv S W (lsame TRANSA 'N') (lsame TRANSB 'N') M N K A LDA B LDB C LDC) :
    Safe S W (hgemmdh TRANSA TRANSB M N K ALPHA A LDA B LDB BETA C LDC (F := F)) (fun _ => True) := by
  repeat' first
    | exact safe_pure trivial
    | with_reducible refine safe_ite (fun _ => ?_) (fun _ => ?_)
    | with_reducible refine safe_seq ?_ (fun _ => ?_)
    | with_reducible refine safe_rdC ?_
    | with_reducible refine safe_wrC ?_ ?_
    | with_reducible refine safe_forN (fun _ _ => ?_)
    | with_reducible refine safe_fold (fun _ _ _ => ?_)
    | with_reducible exact (h.c _ _ (by assumption) (by assumption)).1
    | with_reducible exact (h.c _ _ (by assumption) (by assumption)).2
    | with_reducible exact (h.w _ _ (by assumption) (by assumption)).1
    | with_reducible exact (h.w _ _ (by assumption) (by assumption)).2
    | with_reducible exact (h.AN (by assumption) _ _ (by assumption) (by assumption)).1
    | with_reducible exact (h.AN (by assumption) _ _ (by assumption) (by assumption)).2
    | with_reducible exact (h.AT (by assumption) _ _ (by assumption) (by assumption)).1
    | with_reducible exact (h.AT (by assumption) _ _ (by assumption) (by assumption)).2
    | with_reducible exact (h.BN (by assumption) _ _ (by assumption) (by assumption)).1
    | with_reducible exact (h.BN (by assumption) _ _ (by assumption) (by assumption)).2
    | with_reducible exact (h.BT (by assumption) _ _ (by assumption) (by assumption)).1
    | with_reducible exact (h.BT (by assumption) _ _ (by assumption) (by assumption)).2
    | unfold hgemmdh
    | unfold hgemmdh_10_I
    | unfold hgemmdh_10_J
    | unfold hgemmdh_20_I
    | unfold hgemmdh_20_J
    | unfold hgemmdh_if64
    | unfold hgemmdh_40_I
    | unfold hgemmdh_50_I
    | unfold hgemmdh_if113
    | unfold hgemmdh_70_I
    | unfold hgemmdh_60_L
    | unfold hgemmdh_30_J
    | unfold hgemmdh_90_L
    | unfold hgemmdh_80_I
    | unfold hgemmdh_80_J
    | unfold hgemmdh_110_L
    | unfold hgemmdh_100_I
    | unfold hgemmdh_100_J
    | unfold hgemmdh_if108
    | unfold hgemmdh_130_I
    | unfold hgemmdh_140_I
    | unfold hgemmdh_if342
    | unfold hgemmdh_160_I
    | unfold hgemmdh_150_L
    | unfold hgemmdh_120_J
    | unfold hgemmdh_180_I
    | unfold hgemmdh_190_I
    | unfold hgemmdh_if424
    | unfold hgemmdh_210_I
    | unfold hgemmdh_200_L
    | unfold hgemmdh_170_J
    | unfold hgemmdh_if337
    | unfold hgemmdh_230_L
    | unfold hgemmdh_220_I
    | unfold hgemmdh_220_J
    | unfold hgemmdh_250_L
    | unfold hgemmdh_240_I
    | unfold hgemmdh_240_J
    | unfold hgemmdh_if501
    | unfold hgemmdh_270_L
    | unfold hgemmdh_260_I
    | unfold hgemmdh_260_J
    | unfold hgemmdh_290_L
    | unfold hgemmdh_280_I
    | unfold hgemmdh_280_J
    | unfold hgemmdh_if652
    | unfold hgemmdh_if107

end Haxx.Thr
