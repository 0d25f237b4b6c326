#!/bin/sh
# Regenerates the Lean modules of the Fortran sources.
cd "$(dirname "$0")/.." && F=/repo/src/hblas/fortran && O=lean/Verif
g() { out=$1; doc=$2; shift 2; python3 tools/f2lean.py "$doc" $O/$out.lean "$@"; }
g FHblas1 "Fortran level-1 routines" $F/hblas1/hscald.f $F/hblas1/hscalc.f $F/hblas1/hscalh.f $F/hblas1/haxpydh.f \
  $F/hblas1/haxpych.f $F/hblas1/haxpyhh.f $F/hblas1/hdotu.f $F/hblas1/hdotc.f
g FUtil "Fortran utility routines" $F/util/hdexp.f $F/util/hzexp.f $F/util/hzcon.f
for v in dd dz dh zd zz zh hd hz hh; do
  g FGemm$v "Fortran GEMM, $v" $F/hblas3/hgemm$v.f
  g FGemv$v "Fortran GEMV, $v" $F/hblas2/hgemv$v.f
done
g FGer "Fortran rank-one updates" $F/hblas2/hgerud.f $F/hblas2/hgeruz.f $F/hblas2/hgeruh.f $F/hblas2/hgercd.f $F/hblas2/hgercz.f $F/hblas2/hgerch.f
