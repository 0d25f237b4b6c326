import Verif.ThrLock
import Verif.ThrFortGemm

/-! # The Fortran routines in lock step

Generated by `tools/gen_lock.py gemm`. -/

namespace Haxx.Thr
open Arith
variable {F : Type} [Arith F] [ArithEq F]
set_option maxHeartbeats 4000000
set_option linter.unusedSectionVars false
set_option linter.unusedTactic false
set_option linter.unreachableTactic false

theorem hgemmdd_lock (TRANSA : Char) (TRANSB : Char) (M : Int) (N : Int) (K : Int) (ALPHA : F) (A : Int) (LDA : Int) (B : Int) (LDB : Int) (BETA : F) (C : Int) (LDC : Int) :
    Lock (hgemmdd TRANSA TRANSB M N K ALPHA A LDA B LDB BETA C LDC (F := F)) (hgemmdd TRANSA TRANSB M N K ALPHA A LDA B LDB BETA C LDC (F := F)) := by
  repeat' first
    | lock_step
    | unfold hgemmdd
    | unfold hgemmdd_10_I
    | unfold hgemmdd_10_J
    | unfold hgemmdd_20_I
    | unfold hgemmdd_20_J
    | unfold hgemmdd_if57
    | unfold hgemmdd_40_I
    | unfold hgemmdd_50_I
    | unfold hgemmdd_if87
    | unfold hgemmdd_70_I
    | unfold hgemmdd_60_L
    | unfold hgemmdd_30_J
    | unfold hgemmdd_90_L
    | unfold hgemmdd_80_I
    | unfold hgemmdd_80_J
    | unfold hgemmdd_110_L
    | unfold hgemmdd_100_I
    | unfold hgemmdd_100_J
    | unfold hgemmdd_if82
    | unfold hgemmdd_130_I
    | unfold hgemmdd_140_I
    | unfold hgemmdd_if259
    | unfold hgemmdd_160_I
    | unfold hgemmdd_150_L
    | unfold hgemmdd_120_J
    | unfold hgemmdd_180_I
    | unfold hgemmdd_190_I
    | unfold hgemmdd_if322
    | unfold hgemmdd_210_I
    | unfold hgemmdd_200_L
    | unfold hgemmdd_170_J
    | unfold hgemmdd_if254
    | unfold hgemmdd_230_L
    | unfold hgemmdd_220_I
    | unfold hgemmdd_220_J
    | unfold hgemmdd_250_L
    | unfold hgemmdd_240_I
    | unfold hgemmdd_240_J
    | unfold hgemmdd_if380
    | unfold hgemmdd_270_L
    | unfold hgemmdd_260_I
    | unfold hgemmdd_260_J
    | unfold hgemmdd_290_L
    | unfold hgemmdd_280_I
    | unfold hgemmdd_280_J
    | unfold hgemmdd_if493
    | unfold hgemmdd_if81

theorem hgemmdz_lock (TRANSA : Char) (TRANSB : Char) (M : Int) (N : Int) (K : Int) (ALPHA : F) (A : Int) (LDA : Int) (B : Int) (LDB : Int) (BETA : Cplx F) (C : Int) (LDC : Int) :
    Lock (hgemmdz TRANSA TRANSB M N K ALPHA A LDA B LDB BETA C LDC (F := F)) (hgemmdz TRANSA TRANSB M N K ALPHA A LDA B LDB BETA C LDC (F := F)) := by
  repeat' first
    | lock_step
    | unfold hgemmdz
    | unfold hgemmdz_10_I
    | unfold hgemmdz_10_J
    | unfold hgemmdz_20_I
    | unfold hgemmdz_20_J
    | unfold hgemmdz_if62
    | unfold hgemmdz_40_I
    | unfold hgemmdz_50_I
    | unfold hgemmdz_if106
    | unfold hgemmdz_70_I
    | unfold hgemmdz_60_L
    | unfold hgemmdz_30_J
    | unfold hgemmdz_90_L
    | unfold hgemmdz_80_I
    | unfold hgemmdz_80_J
    | unfold hgemmdz_110_L
    | unfold hgemmdz_100_I
    | unfold hgemmdz_100_J
    | unfold hgemmdz_if101
    | unfold hgemmdz_130_I
    | unfold hgemmdz_140_I
    | unfold hgemmdz_if316
    | unfold hgemmdz_160_I
    | unfold hgemmdz_150_L
    | unfold hgemmdz_120_J
    | unfold hgemmdz_180_I
    | unfold hgemmdz_190_I
    | unfold hgemmdz_if393
    | unfold hgemmdz_210_I
    | unfold hgemmdz_200_L
    | unfold hgemmdz_170_J
    | unfold hgemmdz_if311
    | unfold hgemmdz_230_L
    | unfold hgemmdz_220_I
    | unfold hgemmdz_220_J
    | unfold hgemmdz_250_L
    | unfold hgemmdz_240_I
    | unfold hgemmdz_240_J
    | unfold hgemmdz_if465
    | unfold hgemmdz_270_L
    | unfold hgemmdz_260_I
    | unfold hgemmdz_260_J
    | unfold hgemmdz_290_L
    | unfold hgemmdz_280_I
    | unfold hgemmdz_280_J
    | unfold hgemmdz_if602
    | unfold hgemmdz_if100

theorem hgemmdh_lock (TRANSA : Char) (TRANSB : Char) (M : Int) (N : Int) (K : Int) (ALPHA : F) (A : Int) (LDA : Int) (B : Int) (LDB : Int) (BETA : Quat F) (C : Int) (LDC : Int) :
    Lock (hgemmdh TRANSA TRANSB M N K ALPHA A LDA B LDB BETA C LDC (F := F)) (hgemmdh TRANSA TRANSB M N K ALPHA A LDA B LDB BETA C LDC (F := F)) := by
  repeat' first
    | lock_step
    | unfold hgemmdh
    | unfold hgemmdh_10_I
    | unfold hgemmdh_10_J
    | unfold hgemmdh_20_I
    | unfold hgemmdh_20_J
    | unfold hgemmdh_if64
    | unfold hgemmdh_40_I
    | unfold hgemmdh_50_I
    | unfold hgemmdh_if113
    | unfold hgemmdh_70_I
    | unfold hgemmdh_60_L
    | unfold hgemmdh_30_J
    | unfold hgemmdh_90_L
    | unfold hgemmdh_80_I
    | unfold hgemmdh_80_J
    | unfold hgemmdh_110_L
    | unfold hgemmdh_100_I
    | unfold hgemmdh_100_J
    | unfold hgemmdh_if108
    | unfold hgemmdh_130_I
    | unfold hgemmdh_140_I
    | unfold hgemmdh_if342
    | unfold hgemmdh_160_I
    | unfold hgemmdh_150_L
    | unfold hgemmdh_120_J
    | unfold hgemmdh_180_I
    | unfold hgemmdh_190_I
    | unfold hgemmdh_if424
    | unfold hgemmdh_210_I
    | unfold hgemmdh_200_L
    | unfold hgemmdh_170_J
    | unfold hgemmdh_if337
    | unfold hgemmdh_230_L
    | unfold hgemmdh_220_I
    | unfold hgemmdh_220_J
    | unfold hgemmdh_250_L
    | unfold hgemmdh_240_I
    | unfold hgemmdh_240_J
    | unfold hgemmdh_if501
    | unfold hgemmdh_270_L
    | unfold hgemmdh_260_I
    | unfold hgemmdh_260_J
    | unfold hgemmdh_290_L
    | unfold hgemmdh_280_I
    | unfold hgemmdh_280_J
    | unfold hgemmdh_if652
    | unfold hgemmdh_if107

theorem hgemmzd_lock (TRANSA : Char) (TRANSB : Char) (M : Int) (N : Int) (K : Int) (ALPHA : Cplx F) (A : Int) (LDA : Int) (B : Int) (LDB : Int) (BETA : F) (C : Int) (LDC : Int) :
    Lock (hgemmzd TRANSA TRANSB M N K ALPHA A LDA B LDB BETA C LDC (F := F)) (hgemmzd TRANSA TRANSB M N K ALPHA A LDA B LDB BETA C LDC (F := F)) := by
  repeat' first
    | lock_step
    | unfold hgemmzd
    | unfold hgemmzd_10_I
    | unfold hgemmzd_10_J
    | unfold hgemmzd_20_I
    | unfold hgemmzd_20_J
    | unfold hgemmzd_if48
    | unfold hgemmzd_40_I
    | unfold hgemmzd_50_I
    | unfold hgemmzd_if70
    | unfold hgemmzd_70_I
    | unfold hgemmzd_60_L
    | unfold hgemmzd_30_J
    | unfold hgemmzd_90_L
    | unfold hgemmzd_80_I
    | unfold hgemmzd_80_J
    | unfold hgemmzd_110_L
    | unfold hgemmzd_100_I
    | unfold hgemmzd_100_J
    | unfold hgemmzd_if65
    | unfold hgemmzd_130_I
    | unfold hgemmzd_140_I
    | unfold hgemmzd_if152
    | unfold hgemmzd_160_I
    | unfold hgemmzd_150_L
    | unfold hgemmzd_120_J
    | unfold hgemmzd_180_I
    | unfold hgemmzd_190_I
    | unfold hgemmzd_if184
    | unfold hgemmzd_210_I
    | unfold hgemmzd_200_L
    | unfold hgemmzd_170_J
    | unfold hgemmzd_if147
    | unfold hgemmzd_230_L
    | unfold hgemmzd_220_I
    | unfold hgemmzd_220_J
    | unfold hgemmzd_250_L
    | unfold hgemmzd_240_I
    | unfold hgemmzd_240_J
    | unfold hgemmzd_if212
    | unfold hgemmzd_270_L
    | unfold hgemmzd_260_I
    | unfold hgemmzd_260_J
    | unfold hgemmzd_290_L
    | unfold hgemmzd_280_I
    | unfold hgemmzd_280_J
    | unfold hgemmzd_if265
    | unfold hgemmzd_if64

theorem hgemmzz_lock (TRANSA : Char) (TRANSB : Char) (M : Int) (N : Int) (K : Int) (ALPHA : Cplx F) (A : Int) (LDA : Int) (B : Int) (LDB : Int) (BETA : Cplx F) (C : Int) (LDC : Int) :
    Lock (hgemmzz TRANSA TRANSB M N K ALPHA A LDA B LDB BETA C LDC (F := F)) (hgemmzz TRANSA TRANSB M N K ALPHA A LDA B LDB BETA C LDC (F := F)) := by
  repeat' first
    | lock_step
    | unfold hgemmzz
    | unfold hgemmzz_10_I
    | unfold hgemmzz_10_J
    | unfold hgemmzz_20_I
    | unfold hgemmzz_20_J
    | unfold hgemmzz_if47
    | unfold hgemmzz_40_I
    | unfold hgemmzz_50_I
    | unfold hgemmzz_if69
    | unfold hgemmzz_70_I
    | unfold hgemmzz_60_L
    | unfold hgemmzz_30_J
    | unfold hgemmzz_90_L
    | unfold hgemmzz_80_I
    | unfold hgemmzz_80_J
    | unfold hgemmzz_110_L
    | unfold hgemmzz_100_I
    | unfold hgemmzz_100_J
    | unfold hgemmzz_if64
    | unfold hgemmzz_130_I
    | unfold hgemmzz_140_I
    | unfold hgemmzz_if151
    | unfold hgemmzz_160_I
    | unfold hgemmzz_150_L
    | unfold hgemmzz_120_J
    | unfold hgemmzz_180_I
    | unfold hgemmzz_190_I
    | unfold hgemmzz_if183
    | unfold hgemmzz_210_I
    | unfold hgemmzz_200_L
    | unfold hgemmzz_170_J
    | unfold hgemmzz_if146
    | unfold hgemmzz_230_L
    | unfold hgemmzz_220_I
    | unfold hgemmzz_220_J
    | unfold hgemmzz_250_L
    | unfold hgemmzz_240_I
    | unfold hgemmzz_240_J
    | unfold hgemmzz_if211
    | unfold hgemmzz_270_L
    | unfold hgemmzz_260_I
    | unfold hgemmzz_260_J
    | unfold hgemmzz_290_L
    | unfold hgemmzz_280_I
    | unfold hgemmzz_280_J
    | unfold hgemmzz_if264
    | unfold hgemmzz_if63

theorem hgemmzh_lock (TRANSA : Char) (TRANSB : Char) (M : Int) (N : Int) (K : Int) (ALPHA : Cplx F) (A : Int) (LDA : Int) (B : Int) (LDB : Int) (BETA : Quat F) (C : Int) (LDC : Int) :
    Lock (hgemmzh TRANSA TRANSB M N K ALPHA A LDA B LDB BETA C LDC (F := F)) (hgemmzh TRANSA TRANSB M N K ALPHA A LDA B LDB BETA C LDC (F := F)) := by
  repeat' first
    | lock_step
    | unfold hgemmzh
    | unfold hgemmzh_10_I
    | unfold hgemmzh_10_J
    | unfold hgemmzh_20_I
    | unfold hgemmzh_20_J
    | unfold hgemmzh_if47
    | unfold hgemmzh_40_I
    | unfold hgemmzh_50_I
    | unfold hgemmzh_if70
    | unfold hgemmzh_70_I
    | unfold hgemmzh_60_L
    | unfold hgemmzh_30_J
    | unfold hgemmzh_90_L
    | unfold hgemmzh_80_I
    | unfold hgemmzh_80_J
    | unfold hgemmzh_110_L
    | unfold hgemmzh_100_I
    | unfold hgemmzh_100_J
    | unfold hgemmzh_if65
    | unfold hgemmzh_130_I
    | unfold hgemmzh_140_I
    | unfold hgemmzh_if159
    | unfold hgemmzh_160_I
    | unfold hgemmzh_150_L
    | unfold hgemmzh_120_J
    | unfold hgemmzh_180_I
    | unfold hgemmzh_190_I
    | unfold hgemmzh_if192
    | unfold hgemmzh_210_I
    | unfold hgemmzh_200_L
    | unfold hgemmzh_170_J
    | unfold hgemmzh_if154
    | unfold hgemmzh_230_L
    | unfold hgemmzh_220_I
    | unfold hgemmzh_220_J
    | unfold hgemmzh_250_L
    | unfold hgemmzh_240_I
    | unfold hgemmzh_240_J
    | unfold hgemmzh_if221
    | unfold hgemmzh_270_L
    | unfold hgemmzh_260_I
    | unfold hgemmzh_260_J
    | unfold hgemmzh_290_L
    | unfold hgemmzh_280_I
    | unfold hgemmzh_280_J
    | unfold hgemmzh_if280
    | unfold hgemmzh_if64

theorem hgemmhd_lock (TRANSA : Char) (TRANSB : Char) (M : Int) (N : Int) (K : Int) (ALPHA : Quat F) (A : Int) (LDA : Int) (B : Int) (LDB : Int) (BETA : F) (C : Int) (LDC : Int) :
    Lock (hgemmhd TRANSA TRANSB M N K ALPHA A LDA B LDB BETA C LDC (F := F)) (hgemmhd TRANSA TRANSB M N K ALPHA A LDA B LDB BETA C LDC (F := F)) := by
  repeat' first
    | lock_step
    | unfold hgemmhd
    | unfold hgemmhd_10_I
    | unfold hgemmhd_10_J
    | unfold hgemmhd_20_I
    | unfold hgemmhd_20_J
    | unfold hgemmhd_if49
    | unfold hgemmhd_40_I
    | unfold hgemmhd_50_I
    | unfold hgemmhd_if71
    | unfold hgemmhd_70_I
    | unfold hgemmhd_60_L
    | unfold hgemmhd_30_J
    | unfold hgemmhd_90_L
    | unfold hgemmhd_80_I
    | unfold hgemmhd_80_J
    | unfold hgemmhd_110_L
    | unfold hgemmhd_100_I
    | unfold hgemmhd_100_J
    | unfold hgemmhd_if66
    | unfold hgemmhd_130_I
    | unfold hgemmhd_140_I
    | unfold hgemmhd_if163
    | unfold hgemmhd_160_I
    | unfold hgemmhd_150_L
    | unfold hgemmhd_120_J
    | unfold hgemmhd_180_I
    | unfold hgemmhd_190_I
    | unfold hgemmhd_if201
    | unfold hgemmhd_210_I
    | unfold hgemmhd_200_L
    | unfold hgemmhd_170_J
    | unfold hgemmhd_if158
    | unfold hgemmhd_230_L
    | unfold hgemmhd_220_I
    | unfold hgemmhd_220_J
    | unfold hgemmhd_250_L
    | unfold hgemmhd_240_I
    | unfold hgemmhd_240_J
    | unfold hgemmhd_if235
    | unfold hgemmhd_270_L
    | unfold hgemmhd_260_I
    | unfold hgemmhd_260_J
    | unfold hgemmhd_290_L
    | unfold hgemmhd_280_I
    | unfold hgemmhd_280_J
    | unfold hgemmhd_if292
    | unfold hgemmhd_if65

theorem hgemmhz_lock (TRANSA : Char) (TRANSB : Char) (M : Int) (N : Int) (K : Int) (ALPHA : Quat F) (A : Int) (LDA : Int) (B : Int) (LDB : Int) (BETA : Cplx F) (C : Int) (LDC : Int) :
    Lock (hgemmhz TRANSA TRANSB M N K ALPHA A LDA B LDB BETA C LDC (F := F)) (hgemmhz TRANSA TRANSB M N K ALPHA A LDA B LDB BETA C LDC (F := F)) := by
  repeat' first
    | lock_step
    | unfold hgemmhz
    | unfold hgemmhz_10_I
    | unfold hgemmhz_10_J
    | unfold hgemmhz_20_I
    | unfold hgemmhz_20_J
    | unfold hgemmhz_if48
    | unfold hgemmhz_40_I
    | unfold hgemmhz_50_I
    | unfold hgemmhz_if70
    | unfold hgemmhz_70_I
    | unfold hgemmhz_60_L
    | unfold hgemmhz_30_J
    | unfold hgemmhz_90_L
    | unfold hgemmhz_80_I
    | unfold hgemmhz_80_J
    | unfold hgemmhz_110_L
    | unfold hgemmhz_100_I
    | unfold hgemmhz_100_J
    | unfold hgemmhz_if65
    | unfold hgemmhz_130_I
    | unfold hgemmhz_140_I
    | unfold hgemmhz_if162
    | unfold hgemmhz_160_I
    | unfold hgemmhz_150_L
    | unfold hgemmhz_120_J
    | unfold hgemmhz_180_I
    | unfold hgemmhz_190_I
    | unfold hgemmhz_if200
    | unfold hgemmhz_210_I
    | unfold hgemmhz_200_L
    | unfold hgemmhz_170_J
    | unfold hgemmhz_if157
    | unfold hgemmhz_230_L
    | unfold hgemmhz_220_I
    | unfold hgemmhz_220_J
    | unfold hgemmhz_250_L
    | unfold hgemmhz_240_I
    | unfold hgemmhz_240_J
    | unfold hgemmhz_if234
    | unfold hgemmhz_270_L
    | unfold hgemmhz_260_I
    | unfold hgemmhz_260_J
    | unfold hgemmhz_290_L
    | unfold hgemmhz_280_I
    | unfold hgemmhz_280_J
    | unfold hgemmhz_if291
    | unfold hgemmhz_if64

theorem hgemmhh_lock (TRANSA : Char) (TRANSB : Char) (M : Int) (N : Int) (K : Int) (ALPHA : Quat F) (A : Int) (LDA : Int) (B : Int) (LDB : Int) (BETA : Quat F) (C : Int) (LDC : Int) :
    Lock (hgemmhh TRANSA TRANSB M N K ALPHA A LDA B LDB BETA C LDC (F := F)) (hgemmhh TRANSA TRANSB M N K ALPHA A LDA B LDB BETA C LDC (F := F)) := by
  repeat' first
    | lock_step
    | unfold hgemmhh
    | unfold hgemmhh_10_I
    | unfold hgemmhh_10_J
    | unfold hgemmhh_20_I
    | unfold hgemmhh_20_J
    | unfold hgemmhh_if49
    | unfold hgemmhh_40_I
    | unfold hgemmhh_50_I
    | unfold hgemmhh_if72
    | unfold hgemmhh_70_I
    | unfold hgemmhh_60_L
    | unfold hgemmhh_30_J
    | unfold hgemmhh_90_L
    | unfold hgemmhh_80_I
    | unfold hgemmhh_80_J
    | unfold hgemmhh_110_L
    | unfold hgemmhh_100_I
    | unfold hgemmhh_100_J
    | unfold hgemmhh_if67
    | unfold hgemmhh_130_I
    | unfold hgemmhh_140_I
    | unfold hgemmhh_if171
    | unfold hgemmhh_160_I
    | unfold hgemmhh_150_L
    | unfold hgemmhh_120_J
    | unfold hgemmhh_180_I
    | unfold hgemmhh_190_I
    | unfold hgemmhh_if210
    | unfold hgemmhh_210_I
    | unfold hgemmhh_200_L
    | unfold hgemmhh_170_J
    | unfold hgemmhh_if166
    | unfold hgemmhh_230_L
    | unfold hgemmhh_220_I
    | unfold hgemmhh_220_J
    | unfold hgemmhh_250_L
    | unfold hgemmhh_240_I
    | unfold hgemmhh_240_J
    | unfold hgemmhh_if245
    | unfold hgemmhh_270_L
    | unfold hgemmhh_260_I
    | unfold hgemmhh_260_J
    | unfold hgemmhh_290_L
    | unfold hgemmhh_280_I
    | unfold hgemmhh_280_J
    | unfold hgemmhh_if308
    | unfold hgemmhh_if66

end Haxx.Thr
