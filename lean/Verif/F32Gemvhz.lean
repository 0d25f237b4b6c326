import Verif.F32

/-!
# Fortran GEMV, hz, with INTEGER*4 index arithmetic

Generated by `tools/gen_f32.py` from `FGemvhz.lean`; do not edit.
-/

set_option linter.unusedVariables false

namespace Haxx.F32
open Arith

variable {F : Type} [Arith F] [ArithEq F]

/-- With 32-bit index arithmetic: `src/hblas/fortran/hblas2/hgemvhz.f:60-63`, body of `DO 10 I`. -/
def hgemvhz_10_I (Y : Int) (I : Int)  : Prog F (Unit) := do
  wrC (el2 2 2 Y 1 I) (⟨zero, zero⟩ : Cplx F)
  wrC (el2 2 2 Y 2 I) (⟨zero, zero⟩ : Cplx F)
  pure ()

/-- With 32-bit index arithmetic: `src/hblas/fortran/hblas2/hgemvhz.f:65-68`, body of `DO 20 I`. -/
def hgemvhz_20_I (BETA : Cplx F) (Y : Int) (I : Int)  : Prog F (Unit) := do
  let t1 ← rdC (el2 2 2 Y 1 I)
  wrC (el2 2 2 Y 1 I) (BETA *ᶜ t1)
  let t2 ← rdC (el2 2 2 Y 2 I)
  wrC (el2 2 2 Y 2 I) (BETA *ᶜ t2)
  pure ()

/-- With 32-bit index arithmetic: `src/hblas/fortran/hblas2/hgemvhz.f:59-69`. -/
def hgemvhz_if59 (BETA : Cplx F) (BZERO : Bool) (LENY : Int) (Y : Int) : Prog F (Unit) := do
  if BZERO then
    forN (LENY).toNat (fun i => hgemvhz_10_I Y ((i : Int) + 1))
    pure ()
  else
    forN (LENY).toNat (fun i => hgemvhz_20_I BETA Y ((i : Int) + 1))
    pure ()

/-- With 32-bit index arithmetic: `src/hblas/fortran/hblas2/hgemvhz.f:73-77`, body of `DO 30 I`. -/
def hgemvhz_30_I (INCY : Int) (Y : Int) (I : Int) (IY : Int) : Prog F (Int) := do
  wrC (el2 2 2 Y 1 IY) (⟨zero, zero⟩ : Cplx F)
  wrC (el2 2 2 Y 2 IY) (⟨zero, zero⟩ : Cplx F)
  let IY ← i32 (IY + INCY)
  pure IY

/-- With 32-bit index arithmetic: `src/hblas/fortran/hblas2/hgemvhz.f:79-83`, body of `DO 40 I`. -/
def hgemvhz_40_I (BETA : Cplx F) (INCY : Int) (Y : Int) (I : Int) (IY : Int) : Prog F (Int) := do
  let t1 ← rdC (el2 2 2 Y 1 IY)
  wrC (el2 2 2 Y 1 IY) (BETA *ᶜ t1)
  let t2 ← rdC (el2 2 2 Y 2 IY)
  wrC (el2 2 2 Y 2 IY) (BETA *ᶜ t2)
  let IY ← i32 (IY + INCY)
  pure IY

/-- With 32-bit index arithmetic: `src/hblas/fortran/hblas2/hgemvhz.f:72-84`. -/
def hgemvhz_if72 (BETA : Cplx F) (BZERO : Bool) (INCY : Int) (IY : Int) (LENY : Int) (Y : Int) : Prog F (Unit) := do
  if BZERO then
    let r ← foldN (LENY).toNat (fun i (s : Int) => hgemvhz_30_I INCY Y ((i : Int) + 1) s) IY
    pure ()
  else
    let r ← foldN (LENY).toNat (fun i (s : Int) => hgemvhz_40_I BETA INCY Y ((i : Int) + 1) s) IY
    pure ()

/-- With 32-bit index arithmetic: `src/hblas/fortran/hblas2/hgemvhz.f:58-85`. -/
def hgemvhz_if58 (BETA : Cplx F) (BZERO : Bool) (INCY : Int) (KY : Int) (LENY : Int) (Y : Int) : Prog F (Unit) := do
  if decide (INCY = 1) then
    hgemvhz_if59 BETA BZERO LENY Y
    pure ()
  else
    let IY : Int := KY
    hgemvhz_if72 BETA BZERO INCY IY LENY Y
    pure ()

/-- With 32-bit index arithmetic: `src/hblas/fortran/hblas2/hgemvhz.f:57-86`. -/
def hgemvhz_if57 (BETA : Cplx F) (BONE : Bool) (BZERO : Bool) (INCY : Int) (KY : Int) (LENY : Int) (Y : Int) : Prog F (Unit) := do
  if !BONE then
    hgemvhz_if58 BETA BZERO INCY KY LENY Y
    pure ()
  else
    pure ()

/-- With 32-bit index arithmetic: `src/hblas/fortran/hblas2/hgemvhz.f:102-110`, body of `DO 50 I`. -/
def hgemvhz_50_I (A : Int) (HTMP1J : Cplx F) (HTMP1S : Cplx F) (HTMP2J : Cplx F) (HTMP2S : Cplx F) (HTMP3J : Cplx F) (HTMP3S : Cplx F) (HTMP4J : Cplx F) (HTMP4S : Cplx F) (J : Int) (LDA : Int) (Y : Int) (I : Int)  : Prog F (Unit) := do
  let t1 ← rdC (el2 2 2 Y 1 I)
  let t2 ← rdC (el3 2 2 LDA A 1 I J)
  let t3 ← rdC (el3 2 2 LDA A 2 I J)
  let t4 ← rdC (el3 2 2 LDA A 1 I J)
  let t5 ← rdC (el3 2 2 LDA A 2 I J)
  wrC (el2 2 2 Y 1 I) (t1 +ᶜ t2 *ᶜ HTMP1S -ᶜ t3 *ᶜ HTMP2J -ᶜ Cplx.conj t4 *ᶜ HTMP4J -ᶜ Cplx.conj t5 *ᶜ HTMP3S)
  let t6 ← rdC (el2 2 2 Y 2 I)
  let t7 ← rdC (el3 2 2 LDA A 1 I J)
  let t8 ← rdC (el3 2 2 LDA A 2 I J)
  let t9 ← rdC (el3 2 2 LDA A 1 I J)
  let t10 ← rdC (el3 2 2 LDA A 2 I J)
  wrC (el2 2 2 Y 2 I) (t6 +ᶜ t7 *ᶜ HTMP1J +ᶜ t8 *ᶜ HTMP2S +ᶜ Cplx.conj t9 *ᶜ HTMP4S -ᶜ Cplx.conj t10 *ᶜ HTMP3J)
  pure ()

/-- With 32-bit index arithmetic: `src/hblas/fortran/hblas2/hgemvhz.f:93-112`, body of `DO 60 J`. -/
def hgemvhz_60_J (A : Int) (ALPHA : Quat F) (INCX : Int) (LDA : Int) (M : Int) (X : Int) (Y : Int) (J : Int) (JX : Int) : Prog F (Int) := do
  let t1 ← rdC (el2 2 2 X 1 JX)
  let HTMP1S : Cplx F := Quat.lo ALPHA *ᶜ t1
  let t2 ← rdC (el2 2 2 X 2 JX)
  let HTMP1J : Cplx F := Quat.lo ALPHA *ᶜ t2
  let t3 ← rdC (el2 2 2 X 1 JX)
  let HTMP2S : Cplx F := Quat.lo ALPHA *ᶜ Cplx.conj t3
  let t4 ← rdC (el2 2 2 X 2 JX)
  let HTMP2J : Cplx F := Quat.lo ALPHA *ᶜ Cplx.conj t4
  let t5 ← rdC (el2 2 2 X 1 JX)
  let HTMP3S : Cplx F := Quat.hi ALPHA *ᶜ t5
  let t6 ← rdC (el2 2 2 X 2 JX)
  let HTMP3J : Cplx F := Quat.hi ALPHA *ᶜ t6
  let t7 ← rdC (el2 2 2 X 1 JX)
  let HTMP4S : Cplx F := Quat.hi ALPHA *ᶜ Cplx.conj t7
  let t8 ← rdC (el2 2 2 X 2 JX)
  let HTMP4J : Cplx F := Quat.hi ALPHA *ᶜ Cplx.conj t8
  forN (M).toNat (fun i => hgemvhz_50_I A HTMP1J HTMP1S HTMP2J HTMP2S HTMP3J HTMP3S HTMP4J HTMP4S J LDA Y ((i : Int) + 1))
  let JX ← i32 (JX + INCX)
  pure JX

/-- With 32-bit index arithmetic: `src/hblas/fortran/hblas2/hgemvhz.f:124-133`, body of `DO 70 I`. -/
def hgemvhz_70_I (A : Int) (HTMP1J : Cplx F) (HTMP1S : Cplx F) (HTMP2J : Cplx F) (HTMP2S : Cplx F) (HTMP3J : Cplx F) (HTMP3S : Cplx F) (HTMP4J : Cplx F) (HTMP4S : Cplx F) (INCY : Int) (J : Int) (LDA : Int) (Y : Int) (I : Int) (IY : Int) : Prog F (Int) := do
  let t1 ← rdC (el2 2 2 Y 1 IY)
  let t2 ← rdC (el3 2 2 LDA A 1 I J)
  let t3 ← rdC (el3 2 2 LDA A 2 I J)
  let t4 ← rdC (el3 2 2 LDA A 1 I J)
  let t5 ← rdC (el3 2 2 LDA A 2 I J)
  wrC (el2 2 2 Y 1 IY) (t1 +ᶜ t2 *ᶜ HTMP1S -ᶜ t3 *ᶜ HTMP2J -ᶜ Cplx.conj t4 *ᶜ HTMP4J -ᶜ Cplx.conj t5 *ᶜ HTMP3S)
  let t6 ← rdC (el2 2 2 Y 2 IY)
  let t7 ← rdC (el3 2 2 LDA A 1 I J)
  let t8 ← rdC (el3 2 2 LDA A 2 I J)
  let t9 ← rdC (el3 2 2 LDA A 1 I J)
  let t10 ← rdC (el3 2 2 LDA A 2 I J)
  wrC (el2 2 2 Y 2 IY) (t6 +ᶜ t7 *ᶜ HTMP1J +ᶜ t8 *ᶜ Cplx.conj HTMP2S +ᶜ Cplx.conj t9 *ᶜ HTMP4S -ᶜ Cplx.conj t10 *ᶜ HTMP3J)
  let IY ← i32 (IY + INCY)
  pure IY

/-- With 32-bit index arithmetic: `src/hblas/fortran/hblas2/hgemvhz.f:114-135`, body of `DO 80 J`. -/
def hgemvhz_80_J (A : Int) (ALPHA : Quat F) (INCX : Int) (INCY : Int) (KY : Int) (LDA : Int) (M : Int) (X : Int) (Y : Int) (J : Int) (JX : Int) : Prog F (Int) := do
  let t1 ← rdC (el2 2 2 X 1 JX)
  let HTMP1S : Cplx F := Quat.lo ALPHA *ᶜ t1
  let t2 ← rdC (el2 2 2 X 2 JX)
  let HTMP1J : Cplx F := Quat.lo ALPHA *ᶜ t2
  let t3 ← rdC (el2 2 2 X 1 JX)
  let HTMP2S : Cplx F := Quat.lo ALPHA *ᶜ Cplx.conj t3
  let t4 ← rdC (el2 2 2 X 2 JX)
  let HTMP2J : Cplx F := Quat.lo ALPHA *ᶜ Cplx.conj t4
  let t5 ← rdC (el2 2 2 X 1 JX)
  let HTMP3S : Cplx F := Quat.hi ALPHA *ᶜ t5
  let t6 ← rdC (el2 2 2 X 2 JX)
  let HTMP3J : Cplx F := Quat.hi ALPHA *ᶜ t6
  let t7 ← rdC (el2 2 2 X 1 JX)
  let HTMP4S : Cplx F := Quat.hi ALPHA *ᶜ Cplx.conj t7
  let t8 ← rdC (el2 2 2 X 2 JX)
  let HTMP4J : Cplx F := Quat.hi ALPHA *ᶜ Cplx.conj t8
  let IY : Int := KY
  let r ← foldN (M).toNat (fun i (s : Int) => hgemvhz_70_I A HTMP1J HTMP1S HTMP2J HTMP2S HTMP3J HTMP3S HTMP4J HTMP4S INCY J LDA Y ((i : Int) + 1) s) IY
  let JX ← i32 (JX + INCX)
  pure JX

/-- With 32-bit index arithmetic: `src/hblas/fortran/hblas2/hgemvhz.f:92-136`. -/
def hgemvhz_if92 (A : Int) (ALPHA : Quat F) (INCX : Int) (INCY : Int) (JX : Int) (KY : Int) (LDA : Int) (M : Int) (N : Int) (X : Int) (Y : Int) : Prog F (Unit) := do
  if decide (INCY = 1) then
    let r ← foldN (N).toNat (fun i (s : Int) => hgemvhz_60_J A ALPHA INCX LDA M X Y ((i : Int) + 1) s) JX
    pure ()
  else
    let r ← foldN (N).toNat (fun i (s : Int) => hgemvhz_80_J A ALPHA INCX INCY KY LDA M X Y ((i : Int) + 1) s) JX
    pure ()

/-- With 32-bit index arithmetic: `src/hblas/fortran/hblas2/hgemvhz.f:144-150`, body of `DO 90 I`. -/
def hgemvhz_90_I (A : Int) (J : Int) (LDA : Int) (X : Int) (I : Int) (HTMP1J : Cplx F) (HTMP1S : Cplx F) : Prog F (Cplx F × Cplx F) := do
  let t1 ← rdC (el3 2 2 LDA A 1 I J)
  let t2 ← rdC (el2 2 2 X 1 I)
  let t3 ← rdC (el3 2 2 LDA A 2 I J)
  let t4 ← rdC (el2 2 2 X 2 I)
  let HTMP1S : Cplx F := HTMP1S +ᶜ t1 *ᶜ t2 -ᶜ t3 *ᶜ Cplx.conj t4
  let t5 ← rdC (el3 2 2 LDA A 1 I J)
  let t6 ← rdC (el2 2 2 X 2 I)
  let t7 ← rdC (el3 2 2 LDA A 2 I J)
  let t8 ← rdC (el2 2 2 X 1 I)
  let HTMP1J : Cplx F := HTMP1J +ᶜ t5 *ᶜ t6 +ᶜ t7 *ᶜ Cplx.conj t8
  pure (HTMP1J, HTMP1S)

/-- With 32-bit index arithmetic: `src/hblas/fortran/hblas2/hgemvhz.f:152-158`, body of `DO 100 I`. -/
def hgemvhz_100_I (A : Int) (J : Int) (LDA : Int) (X : Int) (I : Int) (HTMP1J : Cplx F) (HTMP1S : Cplx F) : Prog F (Cplx F × Cplx F) := do
  let t1 ← rdC (el3 2 2 LDA A 1 I J)
  let t2 ← rdC (el2 2 2 X 1 I)
  let t3 ← rdC (el3 2 2 LDA A 2 I J)
  let t4 ← rdC (el2 2 2 X 2 I)
  let HTMP1S : Cplx F := HTMP1S +ᶜ Cplx.conj t1 *ᶜ t2 +ᶜ t3 *ᶜ Cplx.conj t4
  let t5 ← rdC (el3 2 2 LDA A 1 I J)
  let t6 ← rdC (el2 2 2 X 2 I)
  let t7 ← rdC (el3 2 2 LDA A 2 I J)
  let t8 ← rdC (el2 2 2 X 1 I)
  let HTMP1J : Cplx F := HTMP1J +ᶜ Cplx.conj t5 *ᶜ t6 -ᶜ t7 *ᶜ Cplx.conj t8
  pure (HTMP1J, HTMP1S)

/-- With 32-bit index arithmetic: `src/hblas/fortran/hblas2/hgemvhz.f:143-159`. -/
def hgemvhz_if143 (A : Int) (HTMP1J : Cplx F) (HTMP1S : Cplx F) (J : Int) (LDA : Int) (M : Int) (NOCONJ : Bool) (X : Int) : Prog F (Cplx F × Cplx F) := do
  if NOCONJ then
    let r ← foldN (M).toNat (fun i (s : Cplx F × Cplx F) => hgemvhz_90_I A J LDA X ((i : Int) + 1) s.1 s.2) (HTMP1J, HTMP1S)
    let HTMP1J : Cplx F := r.1
    let HTMP1S : Cplx F := r.2
    pure (HTMP1J, HTMP1S)
  else
    let r ← foldN (M).toNat (fun i (s : Cplx F × Cplx F) => hgemvhz_100_I A J LDA X ((i : Int) + 1) s.1 s.2) (HTMP1J, HTMP1S)
    let HTMP1J : Cplx F := r.1
    let HTMP1S : Cplx F := r.2
    pure (HTMP1J, HTMP1S)

/-- With 32-bit index arithmetic: `src/hblas/fortran/hblas2/hgemvhz.f:140-163`, body of `DO 110 J`. -/
def hgemvhz_110_J (A : Int) (ALPHA : Quat F) (INCY : Int) (LDA : Int) (M : Int) (NOCONJ : Bool) (X : Int) (Y : Int) (J : Int) (JY : Int) : Prog F (Int) := do
  let HTMP1S : Cplx F := (⟨zero, zero⟩ : Cplx F)
  let HTMP1J : Cplx F := (⟨zero, zero⟩ : Cplx F)
  let r ← hgemvhz_if143 A HTMP1J HTMP1S J LDA M NOCONJ X
  let HTMP1J : Cplx F := r.1
  let HTMP1S : Cplx F := r.2
  let t1 ← rdC (el2 2 2 Y 1 JY)
  wrC (el2 2 2 Y 1 JY) (t1 +ᶜ Quat.lo ALPHA *ᶜ HTMP1S -ᶜ Quat.hi ALPHA *ᶜ Cplx.conj HTMP1J)
  let t2 ← rdC (el2 2 2 Y 2 JY)
  wrC (el2 2 2 Y 2 JY) (t2 +ᶜ Quat.lo ALPHA *ᶜ HTMP1J +ᶜ Quat.hi ALPHA *ᶜ Cplx.conj HTMP1S)
  let JY ← i32 (JY + INCY)
  pure JY

/-- With 32-bit index arithmetic: `src/hblas/fortran/hblas2/hgemvhz.f:170-177`, body of `DO 120 I`. -/
def hgemvhz_120_I (A : Int) (INCX : Int) (J : Int) (LDA : Int) (X : Int) (I : Int) (HTMP1J : Cplx F) (HTMP1S : Cplx F) (IX : Int) : Prog F (Cplx F × Cplx F × Int) := do
  let t1 ← rdC (el3 2 2 LDA A 1 I J)
  let t2 ← rdC (el2 2 2 X 1 IX)
  let t3 ← rdC (el3 2 2 LDA A 2 I J)
  let t4 ← rdC (el2 2 2 X 2 IX)
  let HTMP1S : Cplx F := HTMP1S +ᶜ t1 *ᶜ t2 -ᶜ t3 *ᶜ Cplx.conj t4
  let t5 ← rdC (el3 2 2 LDA A 1 I J)
  let t6 ← rdC (el2 2 2 X 2 IX)
  let t7 ← rdC (el3 2 2 LDA A 2 I J)
  let t8 ← rdC (el2 2 2 X 1 IX)
  let HTMP1J : Cplx F := HTMP1J +ᶜ t5 *ᶜ t6 +ᶜ t7 *ᶜ Cplx.conj t8
  let IX ← i32 (IX + INCX)
  pure (HTMP1J, HTMP1S, IX)

/-- With 32-bit index arithmetic: `src/hblas/fortran/hblas2/hgemvhz.f:179-186`, body of `DO 130 I`. -/
def hgemvhz_130_I (A : Int) (INCX : Int) (J : Int) (LDA : Int) (X : Int) (I : Int) (HTMP1J : Cplx F) (HTMP1S : Cplx F) (IX : Int) : Prog F (Cplx F × Cplx F × Int) := do
  let t1 ← rdC (el3 2 2 LDA A 1 I J)
  let t2 ← rdC (el2 2 2 X 1 IX)
  let t3 ← rdC (el3 2 2 LDA A 2 I J)
  let t4 ← rdC (el2 2 2 X 2 IX)
  let HTMP1S : Cplx F := HTMP1S +ᶜ Cplx.conj t1 *ᶜ t2 +ᶜ t3 *ᶜ Cplx.conj t4
  let t5 ← rdC (el3 2 2 LDA A 1 I J)
  let t6 ← rdC (el2 2 2 X 2 IX)
  let t7 ← rdC (el3 2 2 LDA A 2 I J)
  let t8 ← rdC (el2 2 2 X 1 IX)
  let HTMP1J : Cplx F := HTMP1J +ᶜ Cplx.conj t5 *ᶜ t6 -ᶜ t7 *ᶜ Cplx.conj t8
  let IX ← i32 (IX + INCX)
  pure (HTMP1J, HTMP1S, IX)

/-- With 32-bit index arithmetic: `src/hblas/fortran/hblas2/hgemvhz.f:169-187`. -/
def hgemvhz_if169 (A : Int) (HTMP1J : Cplx F) (HTMP1S : Cplx F) (INCX : Int) (IX : Int) (J : Int) (LDA : Int) (M : Int) (NOCONJ : Bool) (X : Int) : Prog F (Cplx F × Cplx F) := do
  if NOCONJ then
    let r ← foldN (M).toNat (fun i (s : Cplx F × Cplx F × Int) => hgemvhz_120_I A INCX J LDA X ((i : Int) + 1) s.1 s.2.1 s.2.2) (HTMP1J, HTMP1S, IX)
    let HTMP1J : Cplx F := r.1
    let HTMP1S : Cplx F := r.2.1
    pure (HTMP1J, HTMP1S)
  else
    let r ← foldN (M).toNat (fun i (s : Cplx F × Cplx F × Int) => hgemvhz_130_I A INCX J LDA X ((i : Int) + 1) s.1 s.2.1 s.2.2) (HTMP1J, HTMP1S, IX)
    let HTMP1J : Cplx F := r.1
    let HTMP1S : Cplx F := r.2.1
    pure (HTMP1J, HTMP1S)

/-- With 32-bit index arithmetic: `src/hblas/fortran/hblas2/hgemvhz.f:165-191`, body of `DO 140 J`. -/
def hgemvhz_140_J (A : Int) (ALPHA : Quat F) (INCX : Int) (INCY : Int) (KX : Int) (LDA : Int) (M : Int) (NOCONJ : Bool) (X : Int) (Y : Int) (J : Int) (JY : Int) : Prog F (Int) := do
  let HTMP1S : Cplx F := (⟨zero, zero⟩ : Cplx F)
  let HTMP1J : Cplx F := (⟨zero, zero⟩ : Cplx F)
  let IX : Int := KX
  let r ← hgemvhz_if169 A HTMP1J HTMP1S INCX IX J LDA M NOCONJ X
  let HTMP1J : Cplx F := r.1
  let HTMP1S : Cplx F := r.2
  let t1 ← rdC (el2 2 2 Y 1 JY)
  wrC (el2 2 2 Y 1 JY) (t1 +ᶜ Quat.lo ALPHA *ᶜ HTMP1S -ᶜ Quat.hi ALPHA *ᶜ Cplx.conj HTMP1J)
  let t2 ← rdC (el2 2 2 Y 2 JY)
  wrC (el2 2 2 Y 2 JY) (t2 +ᶜ Quat.lo ALPHA *ᶜ HTMP1J +ᶜ Quat.hi ALPHA *ᶜ Cplx.conj HTMP1S)
  let JY ← i32 (JY + INCY)
  pure JY

/-- With 32-bit index arithmetic: `src/hblas/fortran/hblas2/hgemvhz.f:139-192`. -/
def hgemvhz_if139 (A : Int) (ALPHA : Quat F) (INCX : Int) (INCY : Int) (JY : Int) (KX : Int) (LDA : Int) (M : Int) (N : Int) (NOCONJ : Bool) (X : Int) (Y : Int) : Prog F (Unit) := do
  if decide (INCX = 1) then
    let r ← foldN (N).toNat (fun i (s : Int) => hgemvhz_110_J A ALPHA INCY LDA M NOCONJ X Y ((i : Int) + 1) s) JY
    pure ()
  else
    let r ← foldN (N).toNat (fun i (s : Int) => hgemvhz_140_J A ALPHA INCX INCY KX LDA M NOCONJ X Y ((i : Int) + 1) s) JY
    pure ()

/-- With 32-bit index arithmetic: `src/hblas/fortran/hblas2/hgemvhz.f:90-193`. -/
def hgemvhz_if90 (A : Int) (ALPHA : Quat F) (INCX : Int) (INCY : Int) (KX : Int) (KY : Int) (LDA : Int) (M : Int) (N : Int) (NOCONJ : Bool) (TRANS : Char) (X : Int) (Y : Int) : Prog F (Unit) := do
  if lsame TRANS 'N' then
    let JX : Int := KX
    hgemvhz_if92 A ALPHA INCX INCY JX KY LDA M N X Y
    pure ()
  else
    let JY : Int := KY
    hgemvhz_if139 A ALPHA INCX INCY JY KX LDA M N NOCONJ X Y
    pure ()

/-- With 32-bit index arithmetic: `src/hblas/fortran/hblas2/hgemvhz.f:9-195`. -/
def hgemvhz (TRANS : Char) (M : Int) (N : Int) (ALPHA : Quat F) (A : Int) (LDA : Int) (X : Int) (INCX : Int) (BETA : Cplx F) (Y : Int) (INCY : Int) : Prog F (Unit) := do
  let NOCONJ : Bool := lsame 'T' TRANS
  let r ← (do
    if lsame 'T' TRANS then
      let LENX : Int := N
      let LENY : Int := M
      pure (LENX, LENY)
    else
      let LENX : Int := M
      let LENY : Int := N
      pure (LENX, LENY) : Prog F (Int × Int))
  let LENX : Int := r.1
  let LENY : Int := r.2
  let AZERO : Bool := (Cplx.feq (Quat.lo ALPHA) (⟨zero, zero⟩ : Cplx F)) && (Cplx.feq (Quat.hi ALPHA) (⟨zero, zero⟩ : Cplx F))
  -- AONE (line 36) is never read
  let BZERO : Bool := Cplx.feq BETA (⟨zero, zero⟩ : Cplx F)
  let BONE : Bool := Cplx.feq BETA (⟨one, zero⟩ : Cplx F)
  if ((decide (M = 0)) || (decide (N = 0))) || (AZERO && BONE) then
    pure ()
  else
    let r ← (do
      if decide (INCX > 0) then
        let KX : Int := 1
        pure KX
      else
        let c1 ← i32 (LENX - 1)
        let c2 ← i32 (c1 * INCX)
        let KX ← i32 (1 - c2)
        pure KX : Prog F (Int))
    let KX : Int := r
    let r ← (do
      if decide (INCY > 0) then
        let KY : Int := 1
        pure KY
      else
        let c1 ← i32 (LENY - 1)
        let c2 ← i32 (c1 * INCY)
        let KY ← i32 (1 - c2)
        pure KY : Prog F (Int))
    let KY : Int := r
    hgemvhz_if57 BETA BONE BZERO INCY KY LENY Y
    if AZERO then
      pure ()
    else
      hgemvhz_if90 A ALPHA INCX INCY KX KY LDA M N NOCONJ TRANS X Y
      pure ()

end Haxx.F32
