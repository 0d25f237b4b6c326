import Verif.ThrLock
import Verif.ThrFort

/-! # The Fortran routines in lock step

Generated by `tools/gen_lock.py fort`. -/

namespace Haxx.Thr
open Arith
variable {F : Type} [Arith F] [ArithEq F]
set_option maxHeartbeats 4000000
set_option linter.unusedSectionVars false
set_option linter.unusedTactic false
set_option linter.unreachableTactic false

theorem hscald_lock (SIDE : Char) (N : Int) (ALPHA : F) (X : Int) (INCX : Int) :
    Lock (hscald SIDE N ALPHA X INCX (F := F)) (hscald SIDE N ALPHA X INCX (F := F)) := by
  repeat' first
    | lock_step
    | unfold hscald
    | unfold hscald_10_I
    | unfold hscald_20_I
    | unfold hscald_if21

theorem hscalc_lock (SIDE : Char) (N : Int) (ALPHA : Cplx F) (X : Int) (INCX : Int) :
    Lock (hscalc SIDE N ALPHA X INCX (F := F)) (hscalc SIDE N ALPHA X INCX (F := F)) := by
  repeat' first
    | lock_step
    | unfold hscalc
    | unfold hscalc_10_I
    | unfold hscalc_20_I
    | unfold hscalc_if27
    | unfold hscalc_30_I
    | unfold hscalc_40_I
    | unfold hscalc_if45
    | unfold hscalc_if26

theorem hscalh_lock (SIDE : Char) (N : Int) (ALPHA : Quat F) (X : Int) (INCX : Int) :
    Lock (hscalh SIDE N ALPHA X INCX (F := F)) (hscalh SIDE N ALPHA X INCX (F := F)) := by
  repeat' first
    | lock_step
    | unfold hscalh
    | unfold hscalh_10_I
    | unfold hscalh_20_I
    | unfold hscalh_if28
    | unfold hscalh_30_I
    | unfold hscalh_40_I
    | unfold hscalh_if70
    | unfold hscalh_if27

theorem haxpydh_lock (SIDE : Char) (N : Int) (ALPHA : F) (X : Int) (INCX : Int) (Y : Int) (INCY : Int) :
    Lock (haxpydh SIDE N ALPHA X INCX Y INCY (F := F)) (haxpydh SIDE N ALPHA X INCX Y INCY (F := F)) := by
  repeat' first
    | lock_step
    | unfold haxpydh
    | unfold haxpydh_10_I
    | unfold haxpydh_20_I
    | unfold haxpydh_if21

theorem haxpych_lock (SIDE : Char) (N : Int) (ALPHA : Cplx F) (X : Int) (INCX : Int) (Y : Int) (INCY : Int) :
    Lock (haxpych SIDE N ALPHA X INCX Y INCY (F := F)) (haxpych SIDE N ALPHA X INCX Y INCY (F := F)) := by
  repeat' first
    | lock_step
    | unfold haxpych
    | unfold haxpych_10_I
    | unfold haxpych_20_I
    | unfold haxpych_if25
    | unfold haxpych_30_I
    | unfold haxpych_40_I
    | unfold haxpych_if49
    | unfold haxpych_if24

theorem haxpyhh_lock (SIDE : Char) (N : Int) (ALPHA : Quat F) (X : Int) (INCX : Int) (Y : Int) (INCY : Int) :
    Lock (haxpyhh SIDE N ALPHA X INCX Y INCY (F := F)) (haxpyhh SIDE N ALPHA X INCX Y INCY (F := F)) := by
  repeat' first
    | lock_step
    | unfold haxpyhh
    | unfold haxpyhh_10_I
    | unfold haxpyhh_20_I
    | unfold haxpyhh_if26
    | unfold haxpyhh_30_I
    | unfold haxpyhh_40_I
    | unfold haxpyhh_if64
    | unfold haxpyhh_if25

theorem hdotu_lock (N : Int) (X : Int) (INCX : Int) (Y : Int) (INCY : Int) :
    Lock (hdotu N X INCX Y INCY (F := F)) (hdotu N X INCX Y INCY (F := F)) := by
  repeat' first
    | lock_step
    | unfold hdotu
    | unfold hdotu_10_I
    | unfold hdotu_20_I
    | unfold hdotu_if20

theorem hdotc_lock (N : Int) (X : Int) (INCX : Int) (Y : Int) (INCY : Int) :
    Lock (hdotc N X INCX Y INCY (F := F)) (hdotc N X INCX Y INCY (F := F)) := by
  repeat' first
    | lock_step
    | unfold hdotc
    | unfold hdotc_10_I
    | unfold hdotc_20_I
    | unfold hdotc_if20

theorem hdexp_lock (M : Int) (N : Int) (A : Int) (LDA : Int) (B : Int) (LDB : Int) :
    Lock (hdexp M N A LDA B LDB (F := F)) (hdexp M N A LDA B LDB (F := F)) := by
  repeat' first
    | lock_step
    | unfold hdexp
    | unfold hdexp_10_I
    | unfold hdexp_20_J

theorem hzexp1_lock (M : Int) (N : Int) (A : Int) (LDA : Int) (B : Int) (LDB : Int) :
    Lock (hzexp1 M N A LDA B LDB (F := F)) (hzexp1 M N A LDA B LDB (F := F)) := by
  repeat' first
    | lock_step
    | unfold hzexp1
    | unfold hzexp1_10_I
    | unfold hzexp1_20_J

theorem hzexp2_lock (M : Int) (N : Int) (A : Int) (LDA : Int) (B : Int) (LDB : Int) :
    Lock (hzexp2 M N A LDA B LDB (F := F)) (hzexp2 M N A LDA B LDB (F := F)) := by
  repeat' first
    | lock_step
    | unfold hzexp2
    | unfold hzexp2_10_I
    | unfold hzexp2_10_J

theorem hzcon1_lock (UPLO : Char) (M : Int) (N : Int) (A : Int) (LDA : Int) (B : Int) (LDB : Int) :
    Lock (hzcon1 UPLO M N A LDA B LDB (F := F)) (hzcon1 UPLO M N A LDA B LDB (F := F)) := by
  repeat' first
    | lock_step
    | unfold hzcon1
    | unfold hzcon1_10_I
    | unfold hzcon1_20_J

theorem hzcon2_lock (UPLO : Char) (M : Int) (N : Int) (A : Int) (LDA : Int) (B : Int) (LDB : Int) :
    Lock (hzcon2 UPLO M N A LDA B LDB (F := F)) (hzcon2 UPLO M N A LDA B LDB (F := F)) := by
  repeat' first
    | lock_step
    | unfold hzcon2
    | unfold hzcon2_10_I
    | unfold hzcon2_10_J

theorem hgemvdd_lock (TRANS : Char) (M : Int) (N : Int) (ALPHA : F) (A : Int) (LDA : Int) (X : Int) (INCX : Int) (BETA : F) (Y : Int) (INCY : Int) :
    Lock (hgemvdd TRANS M N ALPHA A LDA X INCX BETA Y INCY (F := F)) (hgemvdd TRANS M N ALPHA A LDA X INCX BETA Y INCY (F := F)) := by
  repeat' first
    | lock_step
    | unfold hgemvdd
    | unfold hgemvdd_10_I
    | unfold hgemvdd_20_I
    | unfold hgemvdd_if58
    | unfold hgemvdd_30_I
    | unfold hgemvdd_40_I
    | unfold hgemvdd_if71
    | unfold hgemvdd_if57
    | unfold hgemvdd_if56
    | unfold hgemvdd_50_I
    | unfold hgemvdd_60_J
    | unfold hgemvdd_70_I
    | unfold hgemvdd_80_J
    | unfold hgemvdd_if91
    | unfold hgemvdd_90_I
    | unfold hgemvdd_100_I
    | unfold hgemvdd_if126
    | unfold hgemvdd_110_J
    | unfold hgemvdd_120_I
    | unfold hgemvdd_130_I
    | unfold hgemvdd_if150
    | unfold hgemvdd_140_J
    | unfold hgemvdd_if122
    | unfold hgemvdd_if89

theorem hgemvdz_lock (TRANS : Char) (M : Int) (N : Int) (ALPHA : F) (A : Int) (LDA : Int) (X : Int) (INCX : Int) (BETA : Cplx F) (Y : Int) (INCY : Int) :
    Lock (hgemvdz TRANS M N ALPHA A LDA X INCX BETA Y INCY (F := F)) (hgemvdz TRANS M N ALPHA A LDA X INCX BETA Y INCY (F := F)) := by
  repeat' first
    | lock_step
    | unfold hgemvdz
    | unfold hgemvdz_10_I
    | unfold hgemvdz_20_I
    | unfold hgemvdz_if58
    | unfold hgemvdz_30_I
    | unfold hgemvdz_40_I
    | unfold hgemvdz_if71
    | unfold hgemvdz_if57
    | unfold hgemvdz_if56
    | unfold hgemvdz_50_I
    | unfold hgemvdz_60_J
    | unfold hgemvdz_70_I
    | unfold hgemvdz_80_J
    | unfold hgemvdz_if91
    | unfold hgemvdz_90_I
    | unfold hgemvdz_100_I
    | unfold hgemvdz_if126
    | unfold hgemvdz_110_J
    | unfold hgemvdz_120_I
    | unfold hgemvdz_130_I
    | unfold hgemvdz_if150
    | unfold hgemvdz_140_J
    | unfold hgemvdz_if122
    | unfold hgemvdz_if89

theorem hgemvdh_lock (TRANS : Char) (M : Int) (N : Int) (ALPHA : F) (A : Int) (LDA : Int) (X : Int) (INCX : Int) (BETA : Quat F) (Y : Int) (INCY : Int) :
    Lock (hgemvdh TRANS M N ALPHA A LDA X INCX BETA Y INCY (F := F)) (hgemvdh TRANS M N ALPHA A LDA X INCX BETA Y INCY (F := F)) := by
  repeat' first
    | lock_step
    | unfold hgemvdh
    | unfold hgemvdh_10_I
    | unfold hgemvdh_20_I
    | unfold hgemvdh_if59
    | unfold hgemvdh_30_I
    | unfold hgemvdh_40_I
    | unfold hgemvdh_if73
    | unfold hgemvdh_if58
    | unfold hgemvdh_if57
    | unfold hgemvdh_50_I
    | unfold hgemvdh_60_J
    | unfold hgemvdh_70_I
    | unfold hgemvdh_80_J
    | unfold hgemvdh_if93
    | unfold hgemvdh_90_I
    | unfold hgemvdh_100_I
    | unfold hgemvdh_if128
    | unfold hgemvdh_110_J
    | unfold hgemvdh_120_I
    | unfold hgemvdh_130_I
    | unfold hgemvdh_if152
    | unfold hgemvdh_140_J
    | unfold hgemvdh_if124
    | unfold hgemvdh_if91

theorem hgemvzd_lock (TRANS : Char) (M : Int) (N : Int) (ALPHA : Cplx F) (A : Int) (LDA : Int) (X : Int) (INCX : Int) (BETA : F) (Y : Int) (INCY : Int) :
    Lock (hgemvzd TRANS M N ALPHA A LDA X INCX BETA Y INCY (F := F)) (hgemvzd TRANS M N ALPHA A LDA X INCX BETA Y INCY (F := F)) := by
  repeat' first
    | lock_step
    | unfold hgemvzd
    | unfold hgemvzd_10_I
    | unfold hgemvzd_20_I
    | unfold hgemvzd_if59
    | unfold hgemvzd_30_I
    | unfold hgemvzd_40_I
    | unfold hgemvzd_if72
    | unfold hgemvzd_if58
    | unfold hgemvzd_if57
    | unfold hgemvzd_50_I
    | unfold hgemvzd_60_J
    | unfold hgemvzd_70_I
    | unfold hgemvzd_80_J
    | unfold hgemvzd_if92
    | unfold hgemvzd_90_I
    | unfold hgemvzd_100_I
    | unfold hgemvzd_if127
    | unfold hgemvzd_110_J
    | unfold hgemvzd_120_I
    | unfold hgemvzd_130_I
    | unfold hgemvzd_if153
    | unfold hgemvzd_140_J
    | unfold hgemvzd_if123
    | unfold hgemvzd_if90

theorem hgemvzz_lock (TRANS : Char) (M : Int) (N : Int) (ALPHA : Cplx F) (A : Int) (LDA : Int) (X : Int) (INCX : Int) (BETA : Cplx F) (Y : Int) (INCY : Int) :
    Lock (hgemvzz TRANS M N ALPHA A LDA X INCX BETA Y INCY (F := F)) (hgemvzz TRANS M N ALPHA A LDA X INCX BETA Y INCY (F := F)) := by
  repeat' first
    | lock_step
    | unfold hgemvzz
    | unfold hgemvzz_10_I
    | unfold hgemvzz_20_I
    | unfold hgemvzz_if58
    | unfold hgemvzz_30_I
    | unfold hgemvzz_40_I
    | unfold hgemvzz_if71
    | unfold hgemvzz_if57
    | unfold hgemvzz_if56
    | unfold hgemvzz_50_I
    | unfold hgemvzz_60_J
    | unfold hgemvzz_70_I
    | unfold hgemvzz_80_J
    | unfold hgemvzz_if91
    | unfold hgemvzz_90_I
    | unfold hgemvzz_100_I
    | unfold hgemvzz_if126
    | unfold hgemvzz_110_J
    | unfold hgemvzz_120_I
    | unfold hgemvzz_130_I
    | unfold hgemvzz_if152
    | unfold hgemvzz_140_J
    | unfold hgemvzz_if122
    | unfold hgemvzz_if89

theorem hgemvzh_lock (TRANS : Char) (M : Int) (N : Int) (ALPHA : Cplx F) (A : Int) (LDA : Int) (X : Int) (INCX : Int) (BETA : Quat F) (Y : Int) (INCY : Int) :
    Lock (hgemvzh TRANS M N ALPHA A LDA X INCX BETA Y INCY (F := F)) (hgemvzh TRANS M N ALPHA A LDA X INCX BETA Y INCY (F := F)) := by
  repeat' first
    | lock_step
    | unfold hgemvzh
    | unfold hgemvzh_10_I
    | unfold hgemvzh_20_I
    | unfold hgemvzh_if58
    | unfold hgemvzh_30_I
    | unfold hgemvzh_40_I
    | unfold hgemvzh_if72
    | unfold hgemvzh_if57
    | unfold hgemvzh_if56
    | unfold hgemvzh_50_I
    | unfold hgemvzh_60_J
    | unfold hgemvzh_70_I
    | unfold hgemvzh_80_J
    | unfold hgemvzh_if93
    | unfold hgemvzh_90_I
    | unfold hgemvzh_100_I
    | unfold hgemvzh_if128
    | unfold hgemvzh_110_J
    | unfold hgemvzh_120_I
    | unfold hgemvzh_130_I
    | unfold hgemvzh_if154
    | unfold hgemvzh_140_J
    | unfold hgemvzh_if124
    | unfold hgemvzh_if91

theorem hgemvhd_lock (TRANS : Char) (M : Int) (N : Int) (ALPHA : Quat F) (A : Int) (LDA : Int) (X : Int) (INCX : Int) (BETA : F) (Y : Int) (INCY : Int) :
    Lock (hgemvhd TRANS M N ALPHA A LDA X INCX BETA Y INCY (F := F)) (hgemvhd TRANS M N ALPHA A LDA X INCX BETA Y INCY (F := F)) := by
  repeat' first
    | lock_step
    | unfold hgemvhd
    | unfold hgemvhd_10_I
    | unfold hgemvhd_20_I
    | unfold hgemvhd_if60
    | unfold hgemvhd_30_I
    | unfold hgemvhd_40_I
    | unfold hgemvhd_if73
    | unfold hgemvhd_if59
    | unfold hgemvhd_if58
    | unfold hgemvhd_50_I
    | unfold hgemvhd_60_J
    | unfold hgemvhd_70_I
    | unfold hgemvhd_80_J
    | unfold hgemvhd_if93
    | unfold hgemvhd_90_I
    | unfold hgemvhd_100_I
    | unfold hgemvhd_if144
    | unfold hgemvhd_110_J
    | unfold hgemvhd_120_I
    | unfold hgemvhd_130_I
    | unfold hgemvhd_if170
    | unfold hgemvhd_140_J
    | unfold hgemvhd_if140
    | unfold hgemvhd_if91

theorem hgemvhz_lock (TRANS : Char) (M : Int) (N : Int) (ALPHA : Quat F) (A : Int) (LDA : Int) (X : Int) (INCX : Int) (BETA : Cplx F) (Y : Int) (INCY : Int) :
    Lock (hgemvhz TRANS M N ALPHA A LDA X INCX BETA Y INCY (F := F)) (hgemvhz TRANS M N ALPHA A LDA X INCX BETA Y INCY (F := F)) := by
  repeat' first
    | lock_step
    | unfold hgemvhz
    | unfold hgemvhz_10_I
    | unfold hgemvhz_20_I
    | unfold hgemvhz_if59
    | unfold hgemvhz_30_I
    | unfold hgemvhz_40_I
    | unfold hgemvhz_if72
    | unfold hgemvhz_if58
    | unfold hgemvhz_if57
    | unfold hgemvhz_50_I
    | unfold hgemvhz_60_J
    | unfold hgemvhz_70_I
    | unfold hgemvhz_80_J
    | unfold hgemvhz_if92
    | unfold hgemvhz_90_I
    | unfold hgemvhz_100_I
    | unfold hgemvhz_if143
    | unfold hgemvhz_110_J
    | unfold hgemvhz_120_I
    | unfold hgemvhz_130_I
    | unfold hgemvhz_if169
    | unfold hgemvhz_140_J
    | unfold hgemvhz_if139
    | unfold hgemvhz_if90

theorem hgemvhh_lock (TRANS : Char) (M : Int) (N : Int) (ALPHA : Quat F) (A : Int) (LDA : Int) (X : Int) (INCX : Int) (BETA : Quat F) (Y : Int) (INCY : Int) :
    Lock (hgemvhh TRANS M N ALPHA A LDA X INCX BETA Y INCY (F := F)) (hgemvhh TRANS M N ALPHA A LDA X INCX BETA Y INCY (F := F)) := by
  repeat' first
    | lock_step
    | unfold hgemvhh
    | unfold hgemvhh_10_I
    | unfold hgemvhh_20_I
    | unfold hgemvhh_if59
    | unfold hgemvhh_30_I
    | unfold hgemvhh_40_I
    | unfold hgemvhh_if73
    | unfold hgemvhh_if58
    | unfold hgemvhh_if57
    | unfold hgemvhh_50_I
    | unfold hgemvhh_60_J
    | unfold hgemvhh_70_I
    | unfold hgemvhh_80_J
    | unfold hgemvhh_if94
    | unfold hgemvhh_90_I
    | unfold hgemvhh_100_I
    | unfold hgemvhh_if145
    | unfold hgemvhh_110_J
    | unfold hgemvhh_120_I
    | unfold hgemvhh_130_I
    | unfold hgemvhh_if171
    | unfold hgemvhh_140_J
    | unfold hgemvhh_if141
    | unfold hgemvhh_if92

end Haxx.Thr
