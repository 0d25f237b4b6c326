import Verif.ThrSafe
import Verif.ThrFortGemm

/-! Generated by `tools/gen_safe.py gemm zd zz zh`. -/

namespace Haxx.Thr
open Arith
variable {F : Type} [Arith F] [ArithEq F]
set_option maxHeartbeats 4000000
set_option linter.unusedSectionVars false

theorem hgemmzd_safe (TRANSA : Char) (TRANSB : Char) (M : Int) (N : Int) (K : Int) (ALPHA : Cplx F) (A : Int) (LDA : Int) (B : Int) (LDB : Int) (BETA : F) (C : Int) (LDC : Int) {S W : Int → Prop}
    (h : FGemmEnv S W (lsame TRANSA 'N') (lsame TRANSB 'N') M N K A LDA B LDB C LDC) :
    Safe S W (hgemmzd TRANSA TRANSB M N K ALPHA A LDA B LDB BETA C LDC (F := F)) (fun _ => True) := by
  repeat' first
    | exact safe_pure trivial
    | with_reducible refine safe_ite (fun _ => ?_) (fun _ => ?_)
    | with_reducible refine safe_seq ?_ (fun _ => ?_)
    | with_reducible refine safe_rdC ?_
    | with_reducible refine safe_wrC ?_ ?_
    | with_reducible refine safe_forN (fun _ _ => ?_)
    | with_reducible refine safe_fold (fun _ _ _ => ?_)
    | with_reducible exact (h.c _ _ (by assumption) (by assumption)).1
    | with_reducible exact (h.c _ _ (by assumption) (by assumption)).2
    | with_reducible exact (h.w _ _ (by assumption) (by assumption)).1
    | with_reducible exact (h.w _ _ (by assumption) (by assumption)).2
    | with_reducible exact (h.AN (by assumption) _ _ (by assumption) (by assumption)).1
    | with_reducible exact (h.AN (by assumption) _ _ (by assumption) (by assumption)).2
    | with_reducible exact (h.AT (by assumption) _ _ (by assumption) (by assumption)).1
    | with_reducible exact (h.AT (by assumption) _ _ (by assumption) (by assumption)).2
    | with_reducible exact (h.BN (by assumption) _ _ (by assumption) (by assumption)).1
    | with_reducible exact (h.BN (by assumption) _ _ (by assumption) (by assumption)).2
    | with_reducible exact (h.BT (by assumption) _ _ (by assumption) (by assumption)).1
    | with_reducible exact (h.BT (by assumption) _ _ (by assumption) (by assumption)).2
    | unfold hgemmzd
    | unfold hgemmzd_10_I
    | unfold hgemmzd_10_J
    | unfold hgemmzd_20_I
    | unfold hgemmzd_20_J
    | unfold hgemmzd_if48
    | unfold hgemmzd_40_I
    | unfold hgemmzd_50_I
    | unfold hgemmzd_if70
    | unfold hgemmzd_70_I
    | unfold hgemmzd_60_L
    | unfold hgemmzd_30_J
    | unfold hgemmzd_90_L
    | unfold hgemmzd_80_I
    | unfold hgemmzd_80_J
    | unfold hgemmzd_110_L
    | unfold hgemmzd_100_I
    | unfold hgemmzd_100_J
    | unfold hgemmzd_if65
    | unfold hgemmzd_130_I
    | unfold hgemmzd_140_I
    | unfold hgemmzd_if152
    | unfold hgemmzd_160_I
    | unfold hgemmzd_150_L
    | unfold hgemmzd_120_J
    | unfold hgemmzd_180_I
    | unfold hgemmzd_190_I
    | unfold hgemmzd_if184
    | unfold hgemmzd_210_I
    | unfold hgemmzd_200_L
    | unfold hgemmzd_170_J
    | unfold hgemmzd_if147
    | unfold hgemmzd_230_L
    | unfold hgemmzd_220_I
    | unfold hgemmzd_220_J
    | unfold hgemmzd_250_L
    | unfold hgemmzd_240_I
    | unfold hgemmzd_240_J
    | unfold hgemmzd_if212
    | unfold hgemmzd_270_L
    | unfold hgemmzd_260_I
    | unfold hgemmzd_260_J
    | unfold hgemmzd_290_L
    | unfold hgemmzd_280_I
    | unfold hgemmzd_280_J
    | unfold hgemmzd_if265
    | unfold hgemmzd_if64

theorem hgemmzz_safe (TRANSA : Char) (TRANSB : Char) (M : Int) (N : Int) (K : Int) (ALPHA : Cplx F) (A : Int) (LDA : Int) (B : Int) (LDB : Int) (BETA : Cplx F) (C : Int) (LDC : Int) {S W : Int → Prop}
    (h : FGemmEnv S W (lsame TRANSA 'N') (lsame TRANSB 'N') M N K A LDA B LDB C LDC) :
    Safe S W (hgemmzz TRANSA TRANSB M N K ALPHA A LDA B LDB BETA C LDC (F := F)) (fun _ => True) := by
  repeat' first
    | exact safe_pure trivial
    | with_reducible refine safe_ite (fun _ => ?_) (fun _ => ?_)
    | with_reducible refine safe_seq ?_ (fun _ => ?_)
    | with_reducible refine safe_rdC ?_
    | with_reducible refine safe_wrC ?_ ?_
    | with_reducible refine safe_forN (fun _ _ => ?_)
    | with_reducible refine safe_fold (fun _ _ _ => ?_)
    | with_reducible exact (h.c _ _ (by assumption) (by assumption)).1
    | with_reducible exact (h.c _ _ (by assumption) (by assumption)).2
    | with_reducible exact (h.w _ _ (by assumption) (by assumption)).1
    | with_reducible exact (h.w _ _ (by assumption) (by assumption)).2
    | with_reducible exact (h.AN (by assumption) _ _ (by assumption) (by assumption)).1
    | with_reducible exact (h.AN (by assumption) _ _ (by assumption) (by assumption)).2
    | with_reducible exact (h.AT (by assumption) _ _ (by assumption) (by assumption)).1
    | with_reducible exact (h.AT (by assumption) _ _ (by assumption) (by assumption)).2
    | with_reducible exact (h.BN (by assumption) _ _ (by assumption) (by assumption)).1
    | with_reducible exact (h.BN (by assumption) _ _ (by assumption) (by assumption)).2
    | with_reducible exact (h.BT (by assumption) _ _ (by assumption) (by assumption)).1
    | with_reducible exact (h.BT (by assumption) _ _ (by assumption) (by assumption)).2
    | unfold hgemmzz
    | unfold hgemmzz_10_I
    | unfold hgemmzz_10_J
    | unfold hgemmzz_20_I
    | unfold hgemmzz_20_J
    | unfold hgemmzz_if47
    | unfold hgemmzz_40_I
    | unfold hgemmzz_50_I
    | unfold hgemmzz_if69
    | unfold hgemmzz_70_I
    | unfold hgemmzz_60_L
    | unfold hgemmzz_30_J
    | unfold hgemmzz_90_L
    | unfold hgemmzz_80_I
    | unfold hgemmzz_80_J
    | unfold hgemmzz_110_L
    | unfold hgemmzz_100_I
    | unfold hgemmzz_100_J
    | unfold hgemmzz_if64
    | unfold hgemmzz_130_I
    | unfold hgemmzz_140_I
    | unfold hgemmzz_if151
    | unfold hgemmzz_160_I
    | unfold hgemmzz_150_L
    | unfold hgemmzz_120_J
    | unfold hgemmzz_180_I
    | unfold hgemmzz_190_I
    | unfold hgemmzz_if183
    | unfold hgemmzz_210_I
    | unfold hgemmzz_200_L
    | unfold hgemmzz_170_J
    | unfold hgemmzz_if146
    | unfold hgemmzz_230_L
    | unfold hgemmzz_220_I
    | unfold hgemmzz_220_J
    | unfold hgemmzz_250_L
    | unfold hgemmzz_240_I
    | unfold hgemmzz_240_J
    | unfold hgemmzz_if211
    | unfold hgemmzz_270_L
    | unfold hgemmzz_260_I
    | unfold hgemmzz_260_J
    | unfold hgemmzz_290_L
    | unfold hgemmzz_280_I
    | unfold hgemmzz_280_J
    | unfold hgemmzz_if264
    | unfold hgemmzz_if63

theorem hgemmzh_safe (TRANSA : Char) (TRANSB : Char) (M : Int) (N : Int) (K : Int) (ALPHA : Cplx F) (A : Int) (LDA : Int) (B : Int) (LDB : Int) (BETA : Quat F) (C : Int) (LDC : Int) {S W : Int → Prop}
    (h : FGemmEnv S W (lsame TRANSA 'N') (lsame TRANSB 'N') M N K A LDA B LDB C LDC) :
    Safe S W (hgemmzh TRANSA TRANSB M N K ALPHA A LDA B LDB BETA C LDC (F := F)) (fun _ => True) := by
  repeat' first
    | exact safe_pure trivial
    | with_reducible refine safe_ite (fun _ => ?_) (fun _ => ?_)
    | with_reducible refine safe_seq ?_ (fun _ => ?_)
    | with_reducible refine safe_rdC ?_
    | with_reducible refine safe_wrC ?_ ?_
    | with_reducible refine safe_forN (fun _ _ => ?_)
    | with_reducible refine safe_fold (fun _ _ _ => ?_)
    | with_reducible exact (h.c _ _ (by assumption) (by assumption)).1
    | with_reducible exact (h.c _ _ (by assumption) (by assumption)).2
    | with_reducible exact (h.w _ _ (by assumption) (by assumption)).1
    | with_reducible exact (h.w _ _ (by assumption) (by assumption)).2
    | with_reducible exact (h.AN (by assumption) _ _ (by assumption) (by assumption)).1
    | with_reducible exact (h.AN (by assumption) _ _ (by assumption) (by assumption)).2
    | with_reducible exact (h.AT (by assumption) _ _ (by assumption) (by assumption)).1
    | with_reducible exact (h.AT (by assumption) _ _ (by assumption) (by assumption)).2
    | with_reducible exact (h.BN (by assumption) _ _ (by assumption) (by assumption)).1
    | with_reducible exact (h.BN (by assumption) _ _ (by assumption) (by assumption)).2
    | with_reducible exact (h.BT (by assumption) _ _ (by assumption) (by assumption)).1
    | with_reducible exact (h.BT (by assumption) _ _ (by assumption) (by assumption)).2
    | unfold hgemmzh
    | unfold hgemmzh_10_I
    | unfold hgemmzh_10_J
    | unfold hgemmzh_20_I
    | unfold hgemmzh_20_J
    | unfold hgemmzh_if47
    | unfold hgemmzh_40_I
    | unfold hgemmzh_50_I
    | unfold hgemmzh_if70
    | unfold hgemmzh_70_I
    | unfold hgemmzh_60_L
    | unfold hgemmzh_30_J
    | unfold hgemmzh_90_L
    | unfold hgemmzh_80_I
    | unfold hgemmzh_80_J
    | unfold hgemmzh_110_L
    | unfold hgemmzh_100_I
    | unfold hgemmzh_100_J
    | unfold hgemmzh_if65
    | unfold hgemmzh_130_I
    | unfold hgemmzh_140_I
    | unfold hgemmzh_if159
    | unfold hgemmzh_160_I
    | unfold hgemmzh_150_L
    | unfold hgemmzh_120_J
    | unfold hgemmzh_180_I
    | unfold hgemmzh_190_I
    | unfold hgemmzh_if192
    | unfold hgemmzh_210_I
    | unfold hgemmzh_200_L
    | unfold hgemmzh_170_J
    | unfold hgemmzh_if154
    | unfold hgemmzh_230_L
    | unfold hgemmzh_220_I
    | unfold hgemmzh_220_J
    | unfold hgemmzh_250_L
    | unfold hgemmzh_240_I
    | unfold hgemmzh_240_J
    | unfold hgemmzh_if221
    | unfold hgemmzh_270_L
    | unfold hgemmzh_260_I
    | unfold hgemmzh_260_J
    | unfold hgemmzh_290_L
    | unfold hgemmzh_280_I
    | unfold hgemmzh_280_J
    | unfold hgemmzh_if280
    | unfold hgemmzh_if64

end Haxx.Thr
