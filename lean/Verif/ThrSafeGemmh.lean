import Verif.ThrSafe
import Verif.ThrFortGemm

/-! Generated by `tools/gen_safe.py gemm hd hz hh`. -/

namespace Haxx.Thr
open Arith
variable {F : Type} [Arith F] [ArithEq F]
set_option maxHeartbeats 4000000
set_option linter.unusedSectionVars false

theorem hgemmhd_safe (TRANSA : Char) (TRANSB : Char) (M : Int) (N : Int) (K : Int) (ALPHA : Quat F) (A : Int) (LDA : Int) (B : Int) (LDB : Int) (BETA : F) (C : Int) (LDC : Int) {S W : Int → Prop}
    (h : FGemmEnv S W (lsame TRANSA 'N') (lsame TRANSB 'N') M N K A LDA B LDB C LDC) :
    Safe S W (hgemmhd TRANSA TRANSB M N K ALPHA A LDA B LDB BETA C LDC (F := F)) (fun _ => True) := by
  repeat' first
    | exact safe_pure trivial
    | with_reducible refine safe_ite (fun _ => ?_) (fun _ => ?_)
    | with_reducible refine safe_seq ?_ (fun _ => ?_)
    | with_reducible refine safe_rdC ?_
    | with_reducible refine safe_wrC ?_ ?_
    | with_reducible refine safe_forN (fun _ _ => ?_)
    | with_reducible refine safe_fold (fun _ _ _ => ?_)
    | with_reducible exact (h.c _ _ (by assumption) (by assumption)).1
    | with_reducible exact (h.c _ _ (by assumption) (by assumption)).2
    | with_reducible exact (h.w _ _ (by assumption) (by assumption)).1
    | with_reducible exact (h.w _ _ (by assumption) (by assumption)).2
    | with_reducible exact (h.AN (by assumption) _ _ (by assumption) (by assumption)).1
    | with_reducible exact (h.AN (by assumption) _ _ (by assumption) (by assumption)).2
    | with_reducible exact (h.AT (by assumption) _ _ (by assumption) (by assumption)).1
    | with_reducible exact (h.AT (by assumption) _ _ (by assumption) (by assumption)).2
    | with_reducible exact (h.BN (by assumption) _ _ (by assumption) (by assumption)).1
    | with_reducible exact (h.BN (by assumption) _ _ (by assumption) (by assumption)).2
    | with_reducible exact (h.BT (by assumption) _ _ (by assumption) (by assumption)).1
    | with_reducible exact (h.BT (by assumption) _ _ (by assumption) (by assumption)).2
    | unfold hgemmhd
    | unfold hgemmhd_10_I
    | unfold hgemmhd_10_J
    | unfold hgemmhd_20_I
    | unfold hgemmhd_20_J
    | unfold hgemmhd_if49
    | unfold hgemmhd_40_I
    | unfold hgemmhd_50_I
    | unfold hgemmhd_if71
    | unfold hgemmhd_70_I
    | unfold hgemmhd_60_L
    | unfold hgemmhd_30_J
    | unfold hgemmhd_90_L
    | unfold hgemmhd_80_I
    | unfold hgemmhd_80_J
    | unfold hgemmhd_110_L
    | unfold hgemmhd_100_I
    | unfold hgemmhd_100_J
    | unfold hgemmhd_if66
    | unfold hgemmhd_130_I
    | unfold hgemmhd_140_I
    | unfold hgemmhd_if163
    | unfold hgemmhd_160_I
    | unfold hgemmhd_150_L
    | unfold hgemmhd_120_J
    | unfold hgemmhd_180_I
    | unfold hgemmhd_190_I
    | unfold hgemmhd_if201
    | unfold hgemmhd_210_I
    | unfold hgemmhd_200_L
    | unfold hgemmhd_170_J
    | unfold hgemmhd_if158
    | unfold hgemmhd_230_L
    | unfold hgemmhd_220_I
    | unfold hgemmhd_220_J
    | unfold hgemmhd_250_L
    | unfold hgemmhd_240_I
    | unfold hgemmhd_240_J
    | unfold hgemmhd_if235
    | unfold hgemmhd_270_L
    | unfold hgemmhd_260_I
    | unfold hgemmhd_260_J
    | unfold hgemmhd_290_L
    | unfold hgemmhd_280_I
    | unfold hgemmhd_280_J
    | unfold hgemmhd_if292
    | unfold hgemmhd_if65

theorem hgemmhz_safe (TRANSA : Char) (TRANSB : Char) (M : Int) (N : Int) (K : Int) (ALPHA : Quat F) (A : Int) (LDA : Int) (B : Int) (LDB : Int) (BETA : Cplx F) (C : Int) (LDC : Int) {S W : Int → Prop}
    (h : FGemmEnv S W (lsame TRANSA 'N') (lsame TRANSB 'N') M N K A LDA B LDB C LDC) :
    Safe S W (hgemmhz TRANSA TRANSB M N K ALPHA A LDA B LDB BETA C LDC (F := F)) (fun _ => True) := by
  repeat' first
    | exact safe_pure trivial
    | with_reducible refine safe_ite (fun _ => ?_) (fun _ => ?_)
    | with_reducible refine safe_seq ?_ (fun _ => ?_)
    | with_reducible refine safe_rdC ?_
    | with_reducible refine safe_wrC ?_ ?_
    | with_reducible refine safe_forN (fun _ _ => ?_)
    | with_reducible refine safe_fold (fun _ _ _ => ?_)
    | with_reducible exact (h.c _ _ (by assumption) (by assumption)).1
    | with_reducible exact (h.c _ _ (by assumption) (by assumption)).2
    | with_reducible exact (h.w _ _ (by assumption) (by assumption)).1
    | with_reducible exact (h.w _ _ (by assumption) (by assumption)).2
    | with_reducible exact (h.AN (by assumption) _ _ (by assumption) (by assumption)).1
    | with_reducible exact (h.AN (by assumption) _ _ (by assumption) (by assumption)).2
    | with_reducible exact (h.AT (by assumption) _ _ (by assumption) (by assumption)).1
    | with_reducible exact (h.AT (by assumption) _ _ (by assumption) (by assumption)).2
    | with_reducible exact (h.BN (by assumption) _ _ (by assumption) (by assumption)).1
    | with_reducible exact (h.BN (by assumption) _ _ (by assumption) (by assumption)).2
    | with_reducible exact (h.BT (by assumption) _ _ (by assumption) (by assumption)).1
    | with_reducible exact (h.BT (by assumption) _ _ (by assumption) (by assumption)).2
    | unfold hgemmhz
    | unfold hgemmhz_10_I
    | unfold hgemmhz_10_J
    | unfold hgemmhz_20_I
    | unfold hgemmhz_20_J
    | unfold hgemmhz_if48
    | unfold hgemmhz_40_I
    | unfold hgemmhz_50_I
    | unfold hgemmhz_if70
    | unfold hgemmhz_70_I
    | unfold hgemmhz_60_L
    | unfold hgemmhz_30_J
    | unfold hgemmhz_90_L
    | unfold hgemmhz_80_I
    | unfold hgemmhz_80_J
    | unfold hgemmhz_110_L
    | unfold hgemmhz_100_I
    | unfold hgemmhz_100_J
    | unfold hgemmhz_if65
    | unfold hgemmhz_130_I
    | unfold hgemmhz_140_I
    | unfold hgemmhz_if162
    | unfold hgemmhz_160_I
    | unfold hgemmhz_150_L
    | unfold hgemmhz_120_J
    | unfold hgemmhz_180_I
    | unfold hgemmhz_190_I
    | unfold hgemmhz_if200
    | unfold hgemmhz_210_I
    | unfold hgemmhz_200_L
    | unfold hgemmhz_170_J
    | unfold hgemmhz_if157
    | unfold hgemmhz_230_L
    | unfold hgemmhz_220_I
    | unfold hgemmhz_220_J
    | unfold hgemmhz_250_L
    | unfold hgemmhz_240_I
    | unfold hgemmhz_240_J
    | unfold hgemmhz_if234
    | unfold hgemmhz_270_L
    | unfold hgemmhz_260_I
    | unfold hgemmhz_260_J
    | unfold hgemmhz_290_L
    | unfold hgemmhz_280_I
    | unfold hgemmhz_280_J
    | unfold hgemmhz_if291
    | unfold hgemmhz_if64

theorem hgemmhh_safe (TRANSA : Char) (TRANSB : Char) (M : Int) (N : Int) (K : Int) (ALPHA : Quat F) (A : Int) (LDA : Int) (B : Int) (LDB : Int) (BETA : Quat F) (C : Int) (LDC : Int) {S W : Int → Prop}
    (h : FGemmEnv S W (lsame TRANSA 'N') (lsame TRANSB 'N') M N K A LDA B LDB C LDC) :
    Safe S W (hgemmhh TRANSA TRANSB M N K ALPHA A LDA B LDB BETA C LDC (F := F)) (fun _ => True) := by
  repeat' first
    | exact safe_pure trivial
    | with_reducible refine safe_ite (fun _ => ?_) (fun _ => ?_)
    | with_reducible refine safe_seq ?_ (fun _ => ?_)
    | with_reducible refine safe_rdC ?_
    | with_reducible refine safe_wrC ?_ ?_
    | with_reducible refine safe_forN (fun _ _ => ?_)
    | with_reducible refine safe_fold (fun _ _ _ => ?_)
    | with_reducible exact (h.c _ _ (by assumption) (by assumption)).1
    | with_reducible exact (h.c _ _ (by assumption) (by assumption)).2
    | with_reducible exact (h.w _ _ (by assumption) (by assumption)).1
    | with_reducible exact (h.w _ _ (by assumption) (by assumption)).2
    | with_reducible exact (h.AN (by assumption) _ _ (by assumption) (by assumption)).1
    | with_reducible exact (h.AN (by assumption) _ _ (by assumption) (by assumption)).2
    | with_reducible exact (h.AT (by assumption) _ _ (by assumption) (by assumption)).1
    | with_reducible exact (h.AT (by assumption) _ _ (by assumption) (by assumption)).2
    | with_reducible exact (h.BN (by assumption) _ _ (by assumption) (by assumption)).1
    | with_reducible exact (h.BN (by assumption) _ _ (by assumption) (by assumption)).2
    | with_reducible exact (h.BT (by assumption) _ _ (by assumption) (by assumption)).1
    | with_reducible exact (h.BT (by assumption) _ _ (by assumption) (by assumption)).2
    | unfold hgemmhh
    | unfold hgemmhh_10_I
    | unfold hgemmhh_10_J
    | unfold hgemmhh_20_I
    | unfold hgemmhh_20_J
    | unfold hgemmhh_if49
    | unfold hgemmhh_40_I
    | unfold hgemmhh_50_I
    | unfold hgemmhh_if72
    | unfold hgemmhh_70_I
    | unfold hgemmhh_60_L
    | unfold hgemmhh_30_J
    | unfold hgemmhh_90_L
    | unfold hgemmhh_80_I
    | unfold hgemmhh_80_J
    | unfold hgemmhh_110_L
    | unfold hgemmhh_100_I
    | unfold hgemmhh_100_J
    | unfold hgemmhh_if67
    | unfold hgemmhh_130_I
    | unfold hgemmhh_140_I
    | unfold hgemmhh_if171
    | unfold hgemmhh_160_I
    | unfold hgemmhh_150_L
    | unfold hgemmhh_120_J
    | unfold hgemmhh_180_I
    | unfold hgemmhh_190_I
    | unfold hgemmhh_if210
    | unfold hgemmhh_210_I
    | unfold hgemmhh_200_L
    | unfold hgemmhh_170_J
    | unfold hgemmhh_if166
    | unfold hgemmhh_230_L
    | unfold hgemmhh_220_I
    | unfold hgemmhh_220_J
    | unfold hgemmhh_250_L
    | unfold hgemmhh_240_I
    | unfold hgemmhh_240_J
    | unfold hgemmhh_if245
    | unfold hgemmhh_270_L
    | unfold hgemmhh_260_I
    | unfold hgemmhh_260_J
    | unfold hgemmhh_290_L
    | unfold hgemmhh_280_I
    | unfold hgemmhh_280_J
    | unfold hgemmhh_if308
    | unfold hgemmhh_if66

end Haxx.Thr
