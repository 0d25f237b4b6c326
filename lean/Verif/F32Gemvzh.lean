import Verif.F32

/-!
# Fortran GEMV, zh, with INTEGER*4 index arithmetic

Generated by `tools/gen_f32.py` from `FGemvzh.lean`; do not edit.
-/

set_option linter.unusedVariables false

namespace Haxx.F32
open Arith

variable {F : Type} [Arith F] [ArithEq F]

/-- With 32-bit index arithmetic: `src/hblas/fortran/hblas2/hgemvzh.f:59-62`, body of `DO 10 I`. -/
def hgemvzh_10_I (Y : Int) (I : Int)  : Prog F (Unit) := do
  wrC (el2 2 2 Y 1 I) (⟨zero, zero⟩ : Cplx F)
  wrC (el2 2 2 Y 2 I) (⟨zero, zero⟩ : Cplx F)
  pure ()

/-- With 32-bit index arithmetic: `src/hblas/fortran/hblas2/hgemvzh.f:64-68`, body of `DO 20 I`. -/
def hgemvzh_20_I (BETA : Quat F) (Y : Int) (I : Int)  : Prog F (Unit) := do
  let t1 ← rdC (el2 2 2 Y 1 I)
  let t2 ← rdC (el2 2 2 Y 2 I)
  let HTMP1S : Cplx F := Quat.lo BETA *ᶜ t1 -ᶜ Quat.hi BETA *ᶜ Cplx.conj t2
  let t3 ← rdC (el2 2 2 Y 2 I)
  let t4 ← rdC (el2 2 2 Y 1 I)
  wrC (el2 2 2 Y 2 I) (Quat.lo BETA *ᶜ t3 +ᶜ Quat.hi BETA *ᶜ Cplx.conj t4)
  wrC (el2 2 2 Y 1 I) HTMP1S
  pure ()

/-- With 32-bit index arithmetic: `src/hblas/fortran/hblas2/hgemvzh.f:58-69`. -/
def hgemvzh_if58 (BETA : Quat F) (BZERO : Bool) (LENY : Int) (Y : Int) : Prog F (Unit) := do
  if BZERO then
    forN (LENY).toNat (fun i => hgemvzh_10_I Y ((i : Int) + 1))
    pure ()
  else
    forN (LENY).toNat (fun i => hgemvzh_20_I BETA Y ((i : Int) + 1))
    pure ()

/-- With 32-bit index arithmetic: `src/hblas/fortran/hblas2/hgemvzh.f:73-77`, body of `DO 30 I`. -/
def hgemvzh_30_I (INCY : Int) (Y : Int) (I : Int) (IY : Int) : Prog F (Int) := do
  wrC (el2 2 2 Y 1 IY) (⟨zero, zero⟩ : Cplx F)
  wrC (el2 2 2 Y 2 IY) (⟨zero, zero⟩ : Cplx F)
  let IY ← i32 (IY + INCY)
  pure IY

/-- With 32-bit index arithmetic: `src/hblas/fortran/hblas2/hgemvzh.f:79-84`, body of `DO 40 I`. -/
def hgemvzh_40_I (BETA : Quat F) (INCY : Int) (Y : Int) (I : Int) (IY : Int) : Prog F (Int) := do
  let t1 ← rdC (el2 2 2 Y 1 IY)
  let t2 ← rdC (el2 2 2 Y 2 IY)
  let HTMP1S : Cplx F := Quat.lo BETA *ᶜ t1 -ᶜ Quat.hi BETA *ᶜ Cplx.conj t2
  let t3 ← rdC (el2 2 2 Y 2 IY)
  let t4 ← rdC (el2 2 2 Y 1 IY)
  wrC (el2 2 2 Y 2 IY) (Quat.lo BETA *ᶜ t3 +ᶜ Quat.hi BETA *ᶜ Cplx.conj t4)
  wrC (el2 2 2 Y 1 IY) HTMP1S
  let IY ← i32 (IY + INCY)
  pure IY

/-- With 32-bit index arithmetic: `src/hblas/fortran/hblas2/hgemvzh.f:72-85`. -/
def hgemvzh_if72 (BETA : Quat F) (BZERO : Bool) (INCY : Int) (IY : Int) (LENY : Int) (Y : Int) : Prog F (Unit) := do
  if BZERO then
    let r ← foldN (LENY).toNat (fun i (s : Int) => hgemvzh_30_I INCY Y ((i : Int) + 1) s) IY
    pure ()
  else
    let r ← foldN (LENY).toNat (fun i (s : Int) => hgemvzh_40_I BETA INCY Y ((i : Int) + 1) s) IY
    pure ()

/-- With 32-bit index arithmetic: `src/hblas/fortran/hblas2/hgemvzh.f:57-86`. -/
def hgemvzh_if57 (BETA : Quat F) (BZERO : Bool) (INCY : Int) (KY : Int) (LENY : Int) (Y : Int) : Prog F (Unit) := do
  if decide (INCY = 1) then
    hgemvzh_if58 BETA BZERO LENY Y
    pure ()
  else
    let IY : Int := KY
    hgemvzh_if72 BETA BZERO INCY IY LENY Y
    pure ()

/-- With 32-bit index arithmetic: `src/hblas/fortran/hblas2/hgemvzh.f:56-87`. -/
def hgemvzh_if56 (BETA : Quat F) (BONE : Bool) (BZERO : Bool) (INCY : Int) (KY : Int) (LENY : Int) (Y : Int) : Prog F (Unit) := do
  if !BONE then
    hgemvzh_if57 BETA BZERO INCY KY LENY Y
    pure ()
  else
    pure ()

/-- With 32-bit index arithmetic: `src/hblas/fortran/hblas2/hgemvzh.f:99-103`, body of `DO 50 I`. -/
def hgemvzh_50_I (A : Int) (HTMP1J : Cplx F) (HTMP1S : Cplx F) (HTMP2J : Cplx F) (HTMP2S : Cplx F) (J : Int) (LDA : Int) (Y : Int) (I : Int)  : Prog F (Unit) := do
  let t1 ← rdC (el2 2 2 Y 1 I)
  let t2 ← rdC (el3 2 2 LDA A 1 I J)
  let t3 ← rdC (el3 2 2 LDA A 2 I J)
  wrC (el2 2 2 Y 1 I) (t1 +ᶜ t2 *ᶜ HTMP1S -ᶜ t3 *ᶜ HTMP2J)
  let t4 ← rdC (el2 2 2 Y 2 I)
  let t5 ← rdC (el3 2 2 LDA A 1 I J)
  let t6 ← rdC (el3 2 2 LDA A 2 I J)
  wrC (el2 2 2 Y 2 I) (t4 +ᶜ t5 *ᶜ HTMP1J +ᶜ t6 *ᶜ HTMP2S)
  pure ()

/-- With 32-bit index arithmetic: `src/hblas/fortran/hblas2/hgemvzh.f:94-105`, body of `DO 60 J`. -/
def hgemvzh_60_J (A : Int) (ALPHA : Cplx F) (INCX : Int) (LDA : Int) (M : Int) (X : Int) (Y : Int) (J : Int) (JX : Int) : Prog F (Int) := do
  let t1 ← rdC (el2 2 2 X 1 JX)
  let HTMP1S : Cplx F := ALPHA *ᶜ t1
  let t2 ← rdC (el2 2 2 X 2 JX)
  let HTMP1J : Cplx F := ALPHA *ᶜ t2
  let t3 ← rdC (el2 2 2 X 1 JX)
  let HTMP2S : Cplx F := ALPHA *ᶜ Cplx.conj t3
  let t4 ← rdC (el2 2 2 X 2 JX)
  let HTMP2J : Cplx F := ALPHA *ᶜ Cplx.conj t4
  forN (M).toNat (fun i => hgemvzh_50_I A HTMP1J HTMP1S HTMP2J HTMP2S J LDA Y ((i : Int) + 1))
  let JX ← i32 (JX + INCX)
  pure JX

/-- With 32-bit index arithmetic: `src/hblas/fortran/hblas2/hgemvzh.f:113-118`, body of `DO 70 I`. -/
def hgemvzh_70_I (A : Int) (HTMP1J : Cplx F) (HTMP1S : Cplx F) (HTMP2J : Cplx F) (HTMP2S : Cplx F) (INCY : Int) (J : Int) (LDA : Int) (Y : Int) (I : Int) (IY : Int) : Prog F (Int) := do
  let t1 ← rdC (el2 2 2 Y 1 IY)
  let t2 ← rdC (el3 2 2 LDA A 1 I J)
  let t3 ← rdC (el3 2 2 LDA A 2 I J)
  wrC (el2 2 2 Y 1 IY) (t1 +ᶜ t2 *ᶜ HTMP1S -ᶜ t3 *ᶜ HTMP2J)
  let t4 ← rdC (el2 2 2 Y 2 IY)
  let t5 ← rdC (el3 2 2 LDA A 1 I J)
  let t6 ← rdC (el3 2 2 LDA A 2 I J)
  wrC (el2 2 2 Y 2 IY) (t4 +ᶜ t5 *ᶜ HTMP1J +ᶜ t6 *ᶜ HTMP2S)
  let IY ← i32 (IY + INCY)
  pure IY

/-- With 32-bit index arithmetic: `src/hblas/fortran/hblas2/hgemvzh.f:107-120`, body of `DO 80 J`. -/
def hgemvzh_80_J (A : Int) (ALPHA : Cplx F) (INCX : Int) (INCY : Int) (KY : Int) (LDA : Int) (M : Int) (X : Int) (Y : Int) (J : Int) (JX : Int) : Prog F (Int) := do
  let t1 ← rdC (el2 2 2 X 1 JX)
  let HTMP1S : Cplx F := ALPHA *ᶜ t1
  let t2 ← rdC (el2 2 2 X 2 JX)
  let HTMP1J : Cplx F := ALPHA *ᶜ t2
  let t3 ← rdC (el2 2 2 X 1 JX)
  let HTMP2S : Cplx F := ALPHA *ᶜ Cplx.conj t3
  let t4 ← rdC (el2 2 2 X 2 JX)
  let HTMP2J : Cplx F := ALPHA *ᶜ Cplx.conj t4
  let IY : Int := KY
  let r ← foldN (M).toNat (fun i (s : Int) => hgemvzh_70_I A HTMP1J HTMP1S HTMP2J HTMP2S INCY J LDA Y ((i : Int) + 1) s) IY
  let JX ← i32 (JX + INCX)
  pure JX

/-- With 32-bit index arithmetic: `src/hblas/fortran/hblas2/hgemvzh.f:93-121`. -/
def hgemvzh_if93 (A : Int) (ALPHA : Cplx F) (INCX : Int) (INCY : Int) (JX : Int) (KY : Int) (LDA : Int) (M : Int) (N : Int) (X : Int) (Y : Int) : Prog F (Unit) := do
  if decide (INCY = 1) then
    let r ← foldN (N).toNat (fun i (s : Int) => hgemvzh_60_J A ALPHA INCX LDA M X Y ((i : Int) + 1) s) JX
    pure ()
  else
    let r ← foldN (N).toNat (fun i (s : Int) => hgemvzh_80_J A ALPHA INCX INCY KY LDA M X Y ((i : Int) + 1) s) JX
    pure ()

/-- With 32-bit index arithmetic: `src/hblas/fortran/hblas2/hgemvzh.f:129-135`, body of `DO 90 I`. -/
def hgemvzh_90_I (A : Int) (J : Int) (LDA : Int) (X : Int) (I : Int) (HTMP1J : Cplx F) (HTMP1S : Cplx F) : Prog F (Cplx F × Cplx F) := do
  let t1 ← rdC (el3 2 2 LDA A 1 I J)
  let t2 ← rdC (el2 2 2 X 1 I)
  let t3 ← rdC (el3 2 2 LDA A 2 I J)
  let t4 ← rdC (el2 2 2 X 2 I)
  let HTMP1S : Cplx F := HTMP1S +ᶜ t1 *ᶜ t2 -ᶜ t3 *ᶜ Cplx.conj t4
  let t5 ← rdC (el3 2 2 LDA A 1 I J)
  let t6 ← rdC (el2 2 2 X 2 I)
  let t7 ← rdC (el3 2 2 LDA A 2 I J)
  let t8 ← rdC (el2 2 2 X 1 I)
  let HTMP1J : Cplx F := HTMP1J +ᶜ t5 *ᶜ t6 +ᶜ t7 *ᶜ Cplx.conj t8
  pure (HTMP1J, HTMP1S)

/-- With 32-bit index arithmetic: `src/hblas/fortran/hblas2/hgemvzh.f:137-143`, body of `DO 100 I`. -/
def hgemvzh_100_I (A : Int) (J : Int) (LDA : Int) (X : Int) (I : Int) (HTMP1J : Cplx F) (HTMP1S : Cplx F) : Prog F (Cplx F × Cplx F) := do
  let t1 ← rdC (el3 2 2 LDA A 1 I J)
  let t2 ← rdC (el2 2 2 X 1 I)
  let t3 ← rdC (el3 2 2 LDA A 2 I J)
  let t4 ← rdC (el2 2 2 X 2 I)
  let HTMP1S : Cplx F := HTMP1S +ᶜ Cplx.conj t1 *ᶜ t2 +ᶜ t3 *ᶜ Cplx.conj t4
  let t5 ← rdC (el3 2 2 LDA A 1 I J)
  let t6 ← rdC (el2 2 2 X 2 I)
  let t7 ← rdC (el3 2 2 LDA A 2 I J)
  let t8 ← rdC (el2 2 2 X 1 I)
  let HTMP1J : Cplx F := HTMP1J +ᶜ Cplx.conj t5 *ᶜ t6 -ᶜ t7 *ᶜ Cplx.conj t8
  pure (HTMP1J, HTMP1S)

/-- With 32-bit index arithmetic: `src/hblas/fortran/hblas2/hgemvzh.f:128-144`. -/
def hgemvzh_if128 (A : Int) (HTMP1J : Cplx F) (HTMP1S : Cplx F) (J : Int) (LDA : Int) (M : Int) (NOCONJ : Bool) (X : Int) : Prog F (Cplx F × Cplx F) := do
  if NOCONJ then
    let r ← foldN (M).toNat (fun i (s : Cplx F × Cplx F) => hgemvzh_90_I A J LDA X ((i : Int) + 1) s.1 s.2) (HTMP1J, HTMP1S)
    let HTMP1J : Cplx F := r.1
    let HTMP1S : Cplx F := r.2
    pure (HTMP1J, HTMP1S)
  else
    let r ← foldN (M).toNat (fun i (s : Cplx F × Cplx F) => hgemvzh_100_I A J LDA X ((i : Int) + 1) s.1 s.2) (HTMP1J, HTMP1S)
    let HTMP1J : Cplx F := r.1
    let HTMP1S : Cplx F := r.2
    pure (HTMP1J, HTMP1S)

/-- With 32-bit index arithmetic: `src/hblas/fortran/hblas2/hgemvzh.f:125-148`, body of `DO 110 J`. -/
def hgemvzh_110_J (A : Int) (ALPHA : Cplx F) (INCY : Int) (LDA : Int) (M : Int) (NOCONJ : Bool) (X : Int) (Y : Int) (J : Int) (JY : Int) : Prog F (Int) := do
  let HTMP1S : Cplx F := (⟨zero, zero⟩ : Cplx F)
  let HTMP1J : Cplx F := (⟨zero, zero⟩ : Cplx F)
  let r ← hgemvzh_if128 A HTMP1J HTMP1S J LDA M NOCONJ X
  let HTMP1J : Cplx F := r.1
  let HTMP1S : Cplx F := r.2
  let t1 ← rdC (el2 2 2 Y 1 JY)
  wrC (el2 2 2 Y 1 JY) (t1 +ᶜ ALPHA *ᶜ HTMP1S)
  let t2 ← rdC (el2 2 2 Y 2 JY)
  wrC (el2 2 2 Y 2 JY) (t2 +ᶜ ALPHA *ᶜ HTMP1J)
  let JY ← i32 (JY + INCY)
  pure JY

/-- With 32-bit index arithmetic: `src/hblas/fortran/hblas2/hgemvzh.f:155-162`, body of `DO 120 I`. -/
def hgemvzh_120_I (A : Int) (INCX : Int) (J : Int) (LDA : Int) (X : Int) (I : Int) (HTMP1J : Cplx F) (HTMP1S : Cplx F) (IX : Int) : Prog F (Cplx F × Cplx F × Int) := do
  let t1 ← rdC (el3 2 2 LDA A 1 I J)
  let t2 ← rdC (el2 2 2 X 1 IX)
  let t3 ← rdC (el3 2 2 LDA A 2 I J)
  let t4 ← rdC (el2 2 2 X 2 IX)
  let HTMP1S : Cplx F := HTMP1S +ᶜ t1 *ᶜ t2 -ᶜ t3 *ᶜ Cplx.conj t4
  let t5 ← rdC (el3 2 2 LDA A 1 I J)
  let t6 ← rdC (el2 2 2 X 2 IX)
  let t7 ← rdC (el3 2 2 LDA A 2 I J)
  let t8 ← rdC (el2 2 2 X 1 IX)
  let HTMP1J : Cplx F := HTMP1J +ᶜ t5 *ᶜ t6 +ᶜ t7 *ᶜ Cplx.conj t8
  let IX ← i32 (IX + INCX)
  pure (HTMP1J, HTMP1S, IX)

/-- With 32-bit index arithmetic: `src/hblas/fortran/hblas2/hgemvzh.f:164-171`, body of `DO 130 I`. -/
def hgemvzh_130_I (A : Int) (INCX : Int) (J : Int) (LDA : Int) (X : Int) (I : Int) (HTMP1J : Cplx F) (HTMP1S : Cplx F) (IX : Int) : Prog F (Cplx F × Cplx F × Int) := do
  let t1 ← rdC (el3 2 2 LDA A 1 I J)
  let t2 ← rdC (el2 2 2 X 1 IX)
  let t3 ← rdC (el3 2 2 LDA A 2 I J)
  let t4 ← rdC (el2 2 2 X 2 IX)
  let HTMP1S : Cplx F := HTMP1S +ᶜ Cplx.conj t1 *ᶜ t2 +ᶜ t3 *ᶜ Cplx.conj t4
  let t5 ← rdC (el3 2 2 LDA A 1 I J)
  let t6 ← rdC (el2 2 2 X 2 IX)
  let t7 ← rdC (el3 2 2 LDA A 2 I J)
  let t8 ← rdC (el2 2 2 X 1 IX)
  let HTMP1J : Cplx F := HTMP1J +ᶜ Cplx.conj t5 *ᶜ t6 -ᶜ t7 *ᶜ Cplx.conj t8
  let IX ← i32 (IX + INCX)
  pure (HTMP1J, HTMP1S, IX)

/-- With 32-bit index arithmetic: `src/hblas/fortran/hblas2/hgemvzh.f:154-172`. -/
def hgemvzh_if154 (A : Int) (HTMP1J : Cplx F) (HTMP1S : Cplx F) (INCX : Int) (IX : Int) (J : Int) (LDA : Int) (M : Int) (NOCONJ : Bool) (X : Int) : Prog F (Cplx F × Cplx F) := do
  if NOCONJ then
    let r ← foldN (M).toNat (fun i (s : Cplx F × Cplx F × Int) => hgemvzh_120_I A INCX J LDA X ((i : Int) + 1) s.1 s.2.1 s.2.2) (HTMP1J, HTMP1S, IX)
    let HTMP1J : Cplx F := r.1
    let HTMP1S : Cplx F := r.2.1
    pure (HTMP1J, HTMP1S)
  else
    let r ← foldN (M).toNat (fun i (s : Cplx F × Cplx F × Int) => hgemvzh_130_I A INCX J LDA X ((i : Int) + 1) s.1 s.2.1 s.2.2) (HTMP1J, HTMP1S, IX)
    let HTMP1J : Cplx F := r.1
    let HTMP1S : Cplx F := r.2.1
    pure (HTMP1J, HTMP1S)

/-- With 32-bit index arithmetic: `src/hblas/fortran/hblas2/hgemvzh.f:150-176`, body of `DO 140 J`. -/
def hgemvzh_140_J (A : Int) (ALPHA : Cplx F) (INCX : Int) (INCY : Int) (KX : Int) (LDA : Int) (M : Int) (NOCONJ : Bool) (X : Int) (Y : Int) (J : Int) (JY : Int) : Prog F (Int) := do
  let HTMP1S : Cplx F := (⟨zero, zero⟩ : Cplx F)
  let HTMP1J : Cplx F := (⟨zero, zero⟩ : Cplx F)
  let IX : Int := KX
  let r ← hgemvzh_if154 A HTMP1J HTMP1S INCX IX J LDA M NOCONJ X
  let HTMP1J : Cplx F := r.1
  let HTMP1S : Cplx F := r.2
  let t1 ← rdC (el2 2 2 Y 1 JY)
  wrC (el2 2 2 Y 1 JY) (t1 +ᶜ ALPHA *ᶜ HTMP1S)
  let t2 ← rdC (el2 2 2 Y 2 JY)
  wrC (el2 2 2 Y 2 JY) (t2 +ᶜ ALPHA *ᶜ HTMP1J)
  let JY ← i32 (JY + INCY)
  pure JY

/-- With 32-bit index arithmetic: `src/hblas/fortran/hblas2/hgemvzh.f:124-177`. -/
def hgemvzh_if124 (A : Int) (ALPHA : Cplx F) (INCX : Int) (INCY : Int) (JY : Int) (KX : Int) (LDA : Int) (M : Int) (N : Int) (NOCONJ : Bool) (X : Int) (Y : Int) : Prog F (Unit) := do
  if decide (INCX = 1) then
    let r ← foldN (N).toNat (fun i (s : Int) => hgemvzh_110_J A ALPHA INCY LDA M NOCONJ X Y ((i : Int) + 1) s) JY
    pure ()
  else
    let r ← foldN (N).toNat (fun i (s : Int) => hgemvzh_140_J A ALPHA INCX INCY KX LDA M NOCONJ X Y ((i : Int) + 1) s) JY
    pure ()

/-- With 32-bit index arithmetic: `src/hblas/fortran/hblas2/hgemvzh.f:91-178`. -/
def hgemvzh_if91 (A : Int) (ALPHA : Cplx F) (INCX : Int) (INCY : Int) (KX : Int) (KY : Int) (LDA : Int) (M : Int) (N : Int) (NOCONJ : Bool) (TRANS : Char) (X : Int) (Y : Int) : Prog F (Unit) := do
  if lsame TRANS 'N' then
    let JX : Int := KX
    hgemvzh_if93 A ALPHA INCX INCY JX KY LDA M N X Y
    pure ()
  else
    let JY : Int := KY
    hgemvzh_if124 A ALPHA INCX INCY JY KX LDA M N NOCONJ X Y
    pure ()

/-- With 32-bit index arithmetic: `src/hblas/fortran/hblas2/hgemvzh.f:9-180`. -/
def hgemvzh (TRANS : Char) (M : Int) (N : Int) (ALPHA : Cplx F) (A : Int) (LDA : Int) (X : Int) (INCX : Int) (BETA : Quat F) (Y : Int) (INCY : Int) : Prog F (Unit) := do
  let NOCONJ : Bool := lsame 'T' TRANS
  let r ← (do
    if lsame 'T' TRANS then
      let LENX : Int := N
      let LENY : Int := M
      pure (LENX, LENY)
    else
      let LENX : Int := M
      let LENY : Int := N
      pure (LENX, LENY) : Prog F (Int × Int))
  let LENX : Int := r.1
  let LENY : Int := r.2
  let AZERO : Bool := Cplx.feq ALPHA (⟨zero, zero⟩ : Cplx F)
  -- AONE (line 35) is never read
  let BZERO : Bool := (Cplx.feq (Quat.lo BETA) (⟨zero, zero⟩ : Cplx F)) && (Cplx.feq (Quat.hi BETA) (⟨zero, zero⟩ : Cplx F))
  let BONE : Bool := (Cplx.feq (Quat.lo BETA) (⟨one, zero⟩ : Cplx F)) && (Cplx.feq (Quat.hi BETA) (⟨zero, zero⟩ : Cplx F))
  if ((decide (M = 0)) || (decide (N = 0))) || (AZERO && BONE) then
    pure ()
  else
    let r ← (do
      if decide (INCX > 0) then
        let KX : Int := 1
        pure KX
      else
        let c1 ← i32 (LENX - 1)
        let c2 ← i32 (c1 * INCX)
        let KX ← i32 (1 - c2)
        pure KX : Prog F (Int))
    let KX : Int := r
    let r ← (do
      if decide (INCY > 0) then
        let KY : Int := 1
        pure KY
      else
        let c1 ← i32 (LENY - 1)
        let c2 ← i32 (c1 * INCY)
        let KY ← i32 (1 - c2)
        pure KY : Prog F (Int))
    let KY : Int := r
    hgemvzh_if56 BETA BONE BZERO INCY KY LENY Y
    if AZERO then
      pure ()
    else
      hgemvzh_if91 A ALPHA INCX INCY KX KY LDA M N NOCONJ TRANS X Y
      pure ()

end Haxx.F32
