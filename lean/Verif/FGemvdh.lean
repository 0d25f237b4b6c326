import Verif.Fortran

/-!
# Fortran GEMV, dh

Generated by `tools/f2lean.py` from the Fortran sources cited on each definition; do not edit.
-/

set_option linter.unusedVariables false

namespace Haxx
open Arith

variable {F : Type} [Arith F] [ArithEq F]

/-- `src/hblas/fortran/hblas2/hgemvdh.f:60-63`, body of `DO 10 I`. -/
def hgemvdh_10_I (Y : Int) (I : Int)  : Prog F (Unit) := do
  wrC (el2 2 2 Y 1 I) (⟨zero, zero⟩ : Cplx F)
  wrC (el2 2 2 Y 2 I) (⟨zero, zero⟩ : Cplx F)
  pure ()

/-- `src/hblas/fortran/hblas2/hgemvdh.f:65-69`, body of `DO 20 I`. -/
def hgemvdh_20_I (BETA : Quat F) (Y : Int) (I : Int)  : Prog F (Unit) := do
  let t1 ← rdC (el2 2 2 Y 1 I)
  let t2 ← rdC (el2 2 2 Y 2 I)
  let HTMPS : Cplx F := Quat.lo BETA *ᶜ t1 -ᶜ Quat.hi BETA *ᶜ Cplx.conj t2
  let t3 ← rdC (el2 2 2 Y 2 I)
  let t4 ← rdC (el2 2 2 Y 1 I)
  wrC (el2 2 2 Y 2 I) (Quat.lo BETA *ᶜ t3 +ᶜ Quat.hi BETA *ᶜ Cplx.conj t4)
  wrC (el2 2 2 Y 1 I) HTMPS
  pure ()

/-- `src/hblas/fortran/hblas2/hgemvdh.f:59-70`. -/
def hgemvdh_if59 (BETA : Quat F) (BZERO : Bool) (LENY : Int) (Y : Int) : Prog F (Unit) := do
  if BZERO then
    forN (LENY).toNat (fun i => hgemvdh_10_I Y ((i : Int) + 1))
    pure ()
  else
    forN (LENY).toNat (fun i => hgemvdh_20_I BETA Y ((i : Int) + 1))
    pure ()

/-- `src/hblas/fortran/hblas2/hgemvdh.f:74-78`, body of `DO 30 I`. -/
def hgemvdh_30_I (INCY : Int) (Y : Int) (I : Int) (IY : Int) : Prog F (Int) := do
  wrC (el2 2 2 Y 1 IY) (⟨zero, zero⟩ : Cplx F)
  wrC (el2 2 2 Y 2 IY) (⟨zero, zero⟩ : Cplx F)
  let IY : Int := IY + INCY
  pure IY

/-- `src/hblas/fortran/hblas2/hgemvdh.f:80-84`, body of `DO 40 I`. -/
def hgemvdh_40_I (BETA : Quat F) (IY : Int) (Y : Int) (I : Int)  : Prog F (Unit) := do
  let t1 ← rdC (el2 2 2 Y 1 IY)
  let t2 ← rdC (el2 2 2 Y 2 IY)
  let HTMPS : Cplx F := Quat.lo BETA *ᶜ t1 -ᶜ Quat.hi BETA *ᶜ Cplx.conj t2
  let t3 ← rdC (el2 2 2 Y 2 IY)
  let t4 ← rdC (el2 2 2 Y 1 IY)
  wrC (el2 2 2 Y 2 IY) (Quat.lo BETA *ᶜ t3 +ᶜ Quat.hi BETA *ᶜ Cplx.conj t4)
  wrC (el2 2 2 Y 1 IY) HTMPS
  pure ()

/-- `src/hblas/fortran/hblas2/hgemvdh.f:73-85`. -/
def hgemvdh_if73 (BETA : Quat F) (BZERO : Bool) (INCY : Int) (IY : Int) (LENY : Int) (Y : Int) : Prog F (Unit) := do
  if BZERO then
    let r ← foldN (LENY).toNat (fun i (s : Int) => hgemvdh_30_I INCY Y ((i : Int) + 1) s) IY
    pure ()
  else
    forN (LENY).toNat (fun i => hgemvdh_40_I BETA IY Y ((i : Int) + 1))
    pure ()

/-- `src/hblas/fortran/hblas2/hgemvdh.f:58-86`. -/
def hgemvdh_if58 (BETA : Quat F) (BZERO : Bool) (INCY : Int) (KY : Int) (LENY : Int) (Y : Int) : Prog F (Unit) := do
  if decide (INCY = 1) then
    hgemvdh_if59 BETA BZERO LENY Y
    pure ()
  else
    let IY : Int := KY
    hgemvdh_if73 BETA BZERO INCY IY LENY Y
    pure ()

/-- `src/hblas/fortran/hblas2/hgemvdh.f:57-87`. -/
def hgemvdh_if57 (BETA : Quat F) (BONE : Bool) (BZERO : Bool) (INCY : Int) (KY : Int) (LENY : Int) (Y : Int) : Prog F (Unit) := do
  if !BONE then
    hgemvdh_if58 BETA BZERO INCY KY LENY Y
    pure ()
  else
    pure ()

/-- `src/hblas/fortran/hblas2/hgemvdh.f:97-103`, body of `DO 50 I`. -/
def hgemvdh_50_I (A : Int) (HTMPJ : Cplx F) (HTMPS : Cplx F) (J : Int) (LDA : Int) (Y : Int) (I : Int)  : Prog F (Unit) := do
  let t1 ← rdC (el2 2 2 Y 1 I)
  let t2 ← rdC (el3 2 2 LDA A 1 I J)
  let t3 ← rdC (el3 2 2 LDA A 2 I J)
  wrC (el2 2 2 Y 1 I) (t1 +ᶜ t2 *ᶜ HTMPS -ᶜ t3 *ᶜ Cplx.conj HTMPJ)
  let t4 ← rdC (el2 2 2 Y 2 I)
  let t5 ← rdC (el3 2 2 LDA A 1 I J)
  let t6 ← rdC (el3 2 2 LDA A 2 I J)
  wrC (el2 2 2 Y 2 I) (t4 +ᶜ t5 *ᶜ HTMPJ +ᶜ t6 *ᶜ Cplx.conj HTMPS)
  pure ()

/-- `src/hblas/fortran/hblas2/hgemvdh.f:94-105`, body of `DO 60 J`. -/
def hgemvdh_60_J (A : Int) (ALPHA : F) (INCX : Int) (LDA : Int) (M : Int) (X : Int) (Y : Int) (J : Int) (JX : Int) : Prog F (Int) := do
  let t1 ← rdC (el2 2 2 X 1 JX)
  let HTMPS : Cplx F := Cplx.ofReal ALPHA *ᶜ t1
  let t2 ← rdC (el2 2 2 X 2 JX)
  let HTMPJ : Cplx F := Cplx.ofReal ALPHA *ᶜ t2
  forN (M).toNat (fun i => hgemvdh_50_I A HTMPJ HTMPS J LDA Y ((i : Int) + 1))
  let JX : Int := JX + INCX
  pure JX

/-- `src/hblas/fortran/hblas2/hgemvdh.f:111-118`, body of `DO 70 I`. -/
def hgemvdh_70_I (A : Int) (HTMPJ : Cplx F) (HTMPS : Cplx F) (INCY : Int) (J : Int) (LDA : Int) (Y : Int) (I : Int) (IY : Int) : Prog F (Int) := do
  let t1 ← rdC (el2 2 2 Y 1 IY)
  let t2 ← rdC (el3 2 2 LDA A 1 I J)
  let t3 ← rdC (el3 2 2 LDA A 2 I J)
  wrC (el2 2 2 Y 1 IY) (t1 +ᶜ t2 *ᶜ HTMPS -ᶜ t3 *ᶜ Cplx.conj HTMPJ)
  let t4 ← rdC (el2 2 2 Y 2 IY)
  let t5 ← rdC (el3 2 2 LDA A 1 I J)
  let t6 ← rdC (el3 2 2 LDA A 2 I J)
  wrC (el2 2 2 Y 2 IY) (t4 +ᶜ t5 *ᶜ HTMPJ +ᶜ t6 *ᶜ Cplx.conj HTMPS)
  let IY : Int := IY + INCY
  pure IY

/-- `src/hblas/fortran/hblas2/hgemvdh.f:107-120`, body of `DO 80 J`. -/
def hgemvdh_80_J (A : Int) (ALPHA : F) (INCX : Int) (INCY : Int) (KY : Int) (LDA : Int) (M : Int) (X : Int) (Y : Int) (J : Int) (JX : Int) : Prog F (Int) := do
  let t1 ← rdC (el2 2 2 X 1 JX)
  let HTMPS : Cplx F := Cplx.ofReal ALPHA *ᶜ t1
  let t2 ← rdC (el2 2 2 X 2 JX)
  let HTMPJ : Cplx F := Cplx.ofReal ALPHA *ᶜ t2
  let IY : Int := KY
  let r ← foldN (M).toNat (fun i (s : Int) => hgemvdh_70_I A HTMPJ HTMPS INCY J LDA Y ((i : Int) + 1) s) IY
  let JX : Int := JX + INCX
  pure JX

/-- `src/hblas/fortran/hblas2/hgemvdh.f:93-121`. -/
def hgemvdh_if93 (A : Int) (ALPHA : F) (INCX : Int) (INCY : Int) (JX : Int) (KY : Int) (LDA : Int) (M : Int) (N : Int) (X : Int) (Y : Int) : Prog F (Unit) := do
  if decide (INCY = 1) then
    let r ← foldN (N).toNat (fun i (s : Int) => hgemvdh_60_J A ALPHA INCX LDA M X Y ((i : Int) + 1) s) JX
    pure ()
  else
    let r ← foldN (N).toNat (fun i (s : Int) => hgemvdh_80_J A ALPHA INCX INCY KY LDA M X Y ((i : Int) + 1) s) JX
    pure ()

/-- `src/hblas/fortran/hblas2/hgemvdh.f:129-133`, body of `DO 90 I`. -/
def hgemvdh_90_I (A : Int) (J : Int) (LDA : Int) (X : Int) (I : Int) (HTMPJ : Cplx F) (HTMPS : Cplx F) : Prog F (Cplx F × Cplx F) := do
  let t1 ← rdC (el3 2 2 LDA A 1 I J)
  let t2 ← rdC (el2 2 2 X 1 I)
  let t3 ← rdC (el3 2 2 LDA A 2 I J)
  let t4 ← rdC (el2 2 2 X 2 I)
  let HTMPS : Cplx F := HTMPS +ᶜ t1 *ᶜ t2 -ᶜ t3 *ᶜ Cplx.conj t4
  let t5 ← rdC (el3 2 2 LDA A 1 I J)
  let t6 ← rdC (el2 2 2 X 2 I)
  let t7 ← rdC (el3 2 2 LDA A 2 I J)
  let t8 ← rdC (el2 2 2 X 1 I)
  let HTMPJ : Cplx F := HTMPJ +ᶜ t5 *ᶜ t6 +ᶜ t7 *ᶜ Cplx.conj t8
  pure (HTMPJ, HTMPS)

/-- `src/hblas/fortran/hblas2/hgemvdh.f:135-141`, body of `DO 100 I`. -/
def hgemvdh_100_I (A : Int) (J : Int) (LDA : Int) (X : Int) (I : Int) (HTMPJ : Cplx F) (HTMPS : Cplx F) : Prog F (Cplx F × Cplx F) := do
  let t1 ← rdC (el3 2 2 LDA A 1 I J)
  let t2 ← rdC (el2 2 2 X 1 I)
  let t3 ← rdC (el3 2 2 LDA A 2 I J)
  let t4 ← rdC (el2 2 2 X 2 I)
  let HTMPS : Cplx F := HTMPS +ᶜ Cplx.conj t1 *ᶜ t2 +ᶜ t3 *ᶜ Cplx.conj t4
  let t5 ← rdC (el3 2 2 LDA A 1 I J)
  let t6 ← rdC (el2 2 2 X 2 I)
  let t7 ← rdC (el3 2 2 LDA A 2 I J)
  let t8 ← rdC (el2 2 2 X 1 I)
  let HTMPJ : Cplx F := HTMPJ +ᶜ Cplx.conj t5 *ᶜ t6 -ᶜ t7 *ᶜ Cplx.conj t8
  pure (HTMPJ, HTMPS)

/-- `src/hblas/fortran/hblas2/hgemvdh.f:128-142`. -/
def hgemvdh_if128 (A : Int) (HTMPJ : Cplx F) (HTMPS : Cplx F) (J : Int) (LDA : Int) (M : Int) (NOCONJ : Bool) (X : Int) : Prog F (Cplx F × Cplx F) := do
  if NOCONJ then
    let r ← foldN (M).toNat (fun i (s : Cplx F × Cplx F) => hgemvdh_90_I A J LDA X ((i : Int) + 1) s.1 s.2) (HTMPJ, HTMPS)
    let HTMPJ : Cplx F := r.1
    let HTMPS : Cplx F := r.2
    pure (HTMPJ, HTMPS)
  else
    let r ← foldN (M).toNat (fun i (s : Cplx F × Cplx F) => hgemvdh_100_I A J LDA X ((i : Int) + 1) s.1 s.2) (HTMPJ, HTMPS)
    let HTMPJ : Cplx F := r.1
    let HTMPS : Cplx F := r.2
    pure (HTMPJ, HTMPS)

/-- `src/hblas/fortran/hblas2/hgemvdh.f:125-146`, body of `DO 110 J`. -/
def hgemvdh_110_J (A : Int) (ALPHA : F) (INCY : Int) (LDA : Int) (M : Int) (NOCONJ : Bool) (X : Int) (Y : Int) (J : Int) (JY : Int) : Prog F (Int) := do
  let HTMPS : Cplx F := (⟨zero, zero⟩ : Cplx F)
  let HTMPJ : Cplx F := (⟨zero, zero⟩ : Cplx F)
  let r ← hgemvdh_if128 A HTMPJ HTMPS J LDA M NOCONJ X
  let HTMPJ : Cplx F := r.1
  let HTMPS : Cplx F := r.2
  let t1 ← rdC (el2 2 2 Y 1 JY)
  wrC (el2 2 2 Y 1 JY) (t1 +ᶜ Cplx.ofReal ALPHA *ᶜ HTMPS)
  let t2 ← rdC (el2 2 2 Y 2 JY)
  wrC (el2 2 2 Y 2 JY) (t2 +ᶜ Cplx.ofReal ALPHA *ᶜ HTMPJ)
  let JY : Int := JY + INCY
  pure JY

/-- `src/hblas/fortran/hblas2/hgemvdh.f:153-160`, body of `DO 120 I`. -/
def hgemvdh_120_I (A : Int) (INCX : Int) (J : Int) (LDA : Int) (X : Int) (I : Int) (HTMPJ : Cplx F) (HTMPS : Cplx F) (IX : Int) : Prog F (Cplx F × Cplx F × Int) := do
  let t1 ← rdC (el3 2 2 LDA A 1 I J)
  let t2 ← rdC (el2 2 2 X 1 IX)
  let t3 ← rdC (el3 2 2 LDA A 2 I J)
  let t4 ← rdC (el2 2 2 X 2 IX)
  let HTMPS : Cplx F := HTMPS +ᶜ t1 *ᶜ t2 -ᶜ t3 *ᶜ Cplx.conj t4
  let t5 ← rdC (el3 2 2 LDA A 1 I J)
  let t6 ← rdC (el2 2 2 X 2 IX)
  let t7 ← rdC (el3 2 2 LDA A 2 I J)
  let t8 ← rdC (el2 2 2 X 1 IX)
  let HTMPJ : Cplx F := HTMPJ +ᶜ t5 *ᶜ t6 +ᶜ t7 *ᶜ Cplx.conj t8
  let IX : Int := IX + INCX
  pure (HTMPJ, HTMPS, IX)

/-- `src/hblas/fortran/hblas2/hgemvdh.f:162-169`, body of `DO 130 I`. -/
def hgemvdh_130_I (A : Int) (INCX : Int) (J : Int) (LDA : Int) (X : Int) (I : Int) (HTMPJ : Cplx F) (HTMPS : Cplx F) (IX : Int) : Prog F (Cplx F × Cplx F × Int) := do
  let t1 ← rdC (el3 2 2 LDA A 1 I J)
  let t2 ← rdC (el2 2 2 X 1 IX)
  let t3 ← rdC (el3 2 2 LDA A 2 I J)
  let t4 ← rdC (el2 2 2 X 2 IX)
  let HTMPS : Cplx F := HTMPS +ᶜ Cplx.conj t1 *ᶜ t2 +ᶜ t3 *ᶜ Cplx.conj t4
  let t5 ← rdC (el3 2 2 LDA A 1 I J)
  let t6 ← rdC (el2 2 2 X 2 IX)
  let t7 ← rdC (el3 2 2 LDA A 2 I J)
  let t8 ← rdC (el2 2 2 X 1 IX)
  let HTMPJ : Cplx F := HTMPJ +ᶜ Cplx.conj t5 *ᶜ t6 -ᶜ t7 *ᶜ Cplx.conj t8
  let IX : Int := IX + INCX
  pure (HTMPJ, HTMPS, IX)

/-- `src/hblas/fortran/hblas2/hgemvdh.f:152-170`. -/
def hgemvdh_if152 (A : Int) (HTMPJ : Cplx F) (HTMPS : Cplx F) (INCX : Int) (IX : Int) (J : Int) (LDA : Int) (M : Int) (NOCONJ : Bool) (X : Int) : Prog F (Cplx F × Cplx F) := do
  if NOCONJ then
    let r ← foldN (M).toNat (fun i (s : Cplx F × Cplx F × Int) => hgemvdh_120_I A INCX J LDA X ((i : Int) + 1) s.1 s.2.1 s.2.2) (HTMPJ, HTMPS, IX)
    let HTMPJ : Cplx F := r.1
    let HTMPS : Cplx F := r.2.1
    pure (HTMPJ, HTMPS)
  else
    let r ← foldN (M).toNat (fun i (s : Cplx F × Cplx F × Int) => hgemvdh_130_I A INCX J LDA X ((i : Int) + 1) s.1 s.2.1 s.2.2) (HTMPJ, HTMPS, IX)
    let HTMPJ : Cplx F := r.1
    let HTMPS : Cplx F := r.2.1
    pure (HTMPJ, HTMPS)

/-- `src/hblas/fortran/hblas2/hgemvdh.f:148-174`, body of `DO 140 J`. -/
def hgemvdh_140_J (A : Int) (ALPHA : F) (INCX : Int) (INCY : Int) (KX : Int) (LDA : Int) (M : Int) (NOCONJ : Bool) (X : Int) (Y : Int) (J : Int) (JY : Int) : Prog F (Int) := do
  let HTMPS : Cplx F := (⟨zero, zero⟩ : Cplx F)
  let HTMPJ : Cplx F := (⟨zero, zero⟩ : Cplx F)
  let IX : Int := KX
  let r ← hgemvdh_if152 A HTMPJ HTMPS INCX IX J LDA M NOCONJ X
  let HTMPJ : Cplx F := r.1
  let HTMPS : Cplx F := r.2
  let t1 ← rdC (el2 2 2 Y 1 JY)
  wrC (el2 2 2 Y 1 JY) (t1 +ᶜ Cplx.ofReal ALPHA *ᶜ HTMPS)
  let t2 ← rdC (el2 2 2 Y 2 JY)
  wrC (el2 2 2 Y 2 JY) (t2 +ᶜ Cplx.ofReal ALPHA *ᶜ HTMPJ)
  let JY : Int := JY + INCY
  pure JY

/-- `src/hblas/fortran/hblas2/hgemvdh.f:124-175`. -/
def hgemvdh_if124 (A : Int) (ALPHA : F) (INCX : Int) (INCY : Int) (JY : Int) (KX : Int) (LDA : Int) (M : Int) (N : Int) (NOCONJ : Bool) (X : Int) (Y : Int) : Prog F (Unit) := do
  if decide (INCX = 1) then
    let r ← foldN (N).toNat (fun i (s : Int) => hgemvdh_110_J A ALPHA INCY LDA M NOCONJ X Y ((i : Int) + 1) s) JY
    pure ()
  else
    let r ← foldN (N).toNat (fun i (s : Int) => hgemvdh_140_J A ALPHA INCX INCY KX LDA M NOCONJ X Y ((i : Int) + 1) s) JY
    pure ()

/-- `src/hblas/fortran/hblas2/hgemvdh.f:91-176`. -/
def hgemvdh_if91 (A : Int) (ALPHA : F) (INCX : Int) (INCY : Int) (KX : Int) (KY : Int) (LDA : Int) (M : Int) (N : Int) (NOCONJ : Bool) (TRANS : Char) (X : Int) (Y : Int) : Prog F (Unit) := do
  if lsame TRANS 'N' then
    let JX : Int := KX
    hgemvdh_if93 A ALPHA INCX INCY JX KY LDA M N X Y
    pure ()
  else
    let JY : Int := KY
    hgemvdh_if124 A ALPHA INCX INCY JY KX LDA M N NOCONJ X Y
    pure ()

/-- `src/hblas/fortran/hblas2/hgemvdh.f:9-178`. -/
def hgemvdh (TRANS : Char) (M : Int) (N : Int) (ALPHA : F) (A : Int) (LDA : Int) (X : Int) (INCX : Int) (BETA : Quat F) (Y : Int) (INCY : Int) : Prog F (Unit) := do
  let NOCONJ : Bool := lsame 'T' TRANS
  let r ← (do
    if lsame 'T' TRANS then
      let LENX : Int := N
      let LENY : Int := M
      pure (LENX, LENY)
    else
      let LENX : Int := M
      let LENY : Int := N
      pure (LENX, LENY) : Prog F (Int × Int))
  let LENX : Int := r.1
  let LENY : Int := r.2
  let AZERO : Bool := Cplx.feq (Cplx.ofReal ALPHA) (⟨zero, zero⟩ : Cplx F)
  -- AONE (line 37) is never read
  let BZERO : Bool := (Cplx.feq (Quat.lo BETA) (⟨zero, zero⟩ : Cplx F)) && (Cplx.feq (Quat.hi BETA) (⟨zero, zero⟩ : Cplx F))
  let BONE : Bool := (Cplx.feq (Quat.lo BETA) (⟨one, zero⟩ : Cplx F)) && (Cplx.feq (Quat.hi BETA) (⟨zero, zero⟩ : Cplx F))
  if ((decide (M = 0)) || (decide (N = 0))) || (AZERO && BONE) then
    pure ()
  else
    let r ← (do
      if decide (INCX > 0) then
        let KX : Int := 1
        pure KX
      else
        let KX : Int := 1 - (LENX - 1) * INCX
        pure KX : Prog F (Int))
    let KX : Int := r
    let r ← (do
      if decide (INCY > 0) then
        let KY : Int := 1
        pure KY
      else
        let KY : Int := 1 - (LENY - 1) * INCY
        pure KY : Prog F (Int))
    let KY : Int := r
    hgemvdh_if57 BETA BONE BZERO INCY KY LENY Y
    if AZERO then
      pure ()
    else
      hgemvdh_if91 A ALPHA INCX INCY KX KY LDA M N NOCONJ TRANS X Y
      pure ()

end Haxx
