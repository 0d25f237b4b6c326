import Verif.F32

/-!
# Fortran rank-one updates, with INTEGER*4 index arithmetic

Generated by `tools/gen_f32.py` from `FGer.lean`; do not edit.
-/

set_option linter.unusedVariables false

namespace Haxx.F32
open Arith

variable {F : Type} [Arith F] [ArithEq F]

/-- With 32-bit index arithmetic: `src/hblas/fortran/hblas2/hgerud.f:39-42`, body of `DO 10 I`. -/
def hgerud_10_I (A : Int) (HTMPJ : Cplx F) (HTMPS : Cplx F) (J : Int) (LDA : Int) (X : Int) (I : Int)  : Prog F (Unit) := do
  let t1 ← rdC (el3 2 2 LDA A 1 I J)
  let t2 ← rdC (el2 2 2 X 1 I)
  let t3 ← rdC (el2 2 2 X 2 I)
  wrC (el3 2 2 LDA A 1 I J) (t1 +ᶜ t2 *ᶜ HTMPS -ᶜ t3 *ᶜ Cplx.conj HTMPJ)
  let t4 ← rdC (el3 2 2 LDA A 2 I J)
  let t5 ← rdC (el2 2 2 X 1 I)
  let t6 ← rdC (el2 2 2 X 2 I)
  wrC (el3 2 2 LDA A 2 I J) (t4 +ᶜ t5 *ᶜ HTMPJ +ᶜ t6 *ᶜ Cplx.conj HTMPS)
  pure ()

/-- With 32-bit index arithmetic: `src/hblas/fortran/hblas2/hgerud.f:36-43`. -/
def hgerud_if36 (A : Int) (ALPHA : F) (J : Int) (JY : Int) (LDA : Int) (M : Int) (X : Int) (Y : Int) : Prog F (Unit) := do
  let t1 ← rdC (el2 2 2 Y 1 JY)
  let t2 ← rdC (el2 2 2 Y 2 JY)
  if (!(Cplx.feq t1 (⟨zero, zero⟩ : Cplx F))) || (!(Cplx.feq t2 (⟨zero, zero⟩ : Cplx F))) then
    let t3 ← rdC (el2 2 2 Y 1 JY)
    let HTMPS : Cplx F := Cplx.ofReal ALPHA *ᶜ t3
    let t4 ← rdC (el2 2 2 Y 2 JY)
    let HTMPJ : Cplx F := Cplx.ofReal ALPHA *ᶜ t4
    forN (M).toNat (fun i => hgerud_10_I A HTMPJ HTMPS J LDA X ((i : Int) + 1))
    pure ()
  else
    pure ()

/-- With 32-bit index arithmetic: `src/hblas/fortran/hblas2/hgerud.f:35-45`, body of `DO 20 J`. -/
def hgerud_20_J (A : Int) (ALPHA : F) (INCY : Int) (LDA : Int) (M : Int) (X : Int) (Y : Int) (J : Int) (JY : Int) : Prog F (Int) := do
  hgerud_if36 A ALPHA J JY LDA M X Y
  let JY ← i32 (JY + INCY)
  pure JY

/-- With 32-bit index arithmetic: `src/hblas/fortran/hblas2/hgerud.f:57-61`, body of `DO 30 I`. -/
def hgerud_30_I (A : Int) (HTMPJ : Cplx F) (INCX : Int) (J : Int) (LDA : Int) (X : Int) (I : Int) (IX : Int) : Prog F (Int) := do
  let t1 ← rdC (el3 2 2 LDA A 1 I J)
  let t2 ← rdC (el2 2 2 X 1 IX)
  let HTMPS ← (uninit : Prog F (Cplx F))
  let t3 ← rdC (el2 2 2 X 2 IX)
  wrC (el3 2 2 LDA A 1 I J) (t1 +ᶜ t2 *ᶜ HTMPS -ᶜ t3 *ᶜ Cplx.conj HTMPJ)
  let t4 ← rdC (el3 2 2 LDA A 2 I J)
  let t5 ← rdC (el2 2 2 X 1 IX)
  let t6 ← rdC (el2 2 2 X 2 IX)
  wrC (el3 2 2 LDA A 2 I J) (t4 +ᶜ t5 *ᶜ HTMPJ +ᶜ t6 *ᶜ Cplx.conj HTMPS)
  let IX ← i32 (IX + INCX)
  pure IX

/-- With 32-bit index arithmetic: `src/hblas/fortran/hblas2/hgerud.f:53-62`. -/
def hgerud_if53 (A : Int) (ALPHA : F) (INCX : Int) (J : Int) (JY : Int) (KX : Int) (LDA : Int) (M : Int) (X : Int) (Y : Int) : Prog F (Unit) := do
  let t1 ← rdC (el2 2 2 Y 1 JY)
  let t2 ← rdC (el2 2 2 Y 2 JY)
  if (!(Cplx.feq t1 (⟨zero, zero⟩ : Cplx F))) || (!(Cplx.feq t2 (⟨zero, zero⟩ : Cplx F))) then
    -- HTMPI (line 54) is never read
    let t3 ← rdC (el2 2 2 Y 2 JY)
    let HTMPJ : Cplx F := Cplx.ofReal ALPHA *ᶜ t3
    let IX : Int := KX
    let r ← foldN (M).toNat (fun i (s : Int) => hgerud_30_I A HTMPJ INCX J LDA X ((i : Int) + 1) s) IX
    pure ()
  else
    pure ()

/-- With 32-bit index arithmetic: `src/hblas/fortran/hblas2/hgerud.f:52-64`, body of `DO 40 J`. -/
def hgerud_40_J (A : Int) (ALPHA : F) (INCX : Int) (INCY : Int) (KX : Int) (LDA : Int) (M : Int) (X : Int) (Y : Int) (J : Int) (JY : Int) : Prog F (Int) := do
  hgerud_if53 A ALPHA INCX J JY KX LDA M X Y
  let JY ← i32 (JY + INCY)
  pure JY

/-- With 32-bit index arithmetic: `src/hblas/fortran/hblas2/hgerud.f:34-65`. -/
def hgerud_if34 (A : Int) (ALPHA : F) (INCX : Int) (INCY : Int) (JY : Int) (LDA : Int) (M : Int) (N : Int) (X : Int) (Y : Int) : Prog F (Unit) := do
  if decide (INCX = 1) then
    let r ← foldN (N).toNat (fun i (s : Int) => hgerud_20_J A ALPHA INCY LDA M X Y ((i : Int) + 1) s) JY
    pure ()
  else
    let r ← (do
      if decide (INCX > 0) then
        let KX : Int := 1
        pure KX
      else
        let c1 ← i32 (M - 1)
        let c2 ← i32 (c1 * INCX)
        let KX ← i32 (1 - c2)
        pure KX : Prog F (Int))
    let KX : Int := r
    let r ← foldN (N).toNat (fun i (s : Int) => hgerud_40_J A ALPHA INCX INCY KX LDA M X Y ((i : Int) + 1) s) JY
    pure ()

/-- With 32-bit index arithmetic: `src/hblas/fortran/hblas2/hgerud.f:9-67`. -/
def hgerud (M : Int) (N : Int) (ALPHA : F) (X : Int) (INCX : Int) (Y : Int) (INCY : Int) (A : Int) (LDA : Int) : Prog F (Unit) := do
  let AZERO : Bool := ALPHA ==ᶠ (zero : F)
  -- AONE (line 24) is never read
  if ((decide (M = 0)) || (decide (N = 0))) || AZERO then
    pure ()
  else
    let r ← (do
      if decide (INCY > 0) then
        let JY : Int := 1
        pure JY
      else
        let c1 ← i32 (N - 1)
        let c2 ← i32 (c1 * INCY)
        let JY ← i32 (1 - c2)
        pure JY : Prog F (Int))
    let JY : Int := r
    hgerud_if34 A ALPHA INCX INCY JY LDA M N X Y
    pure ()

/-- With 32-bit index arithmetic: `src/hblas/fortran/hblas2/hgeruz.f:40-43`, body of `DO 10 I`. -/
def hgeruz_10_I (A : Int) (HTMP1J : Cplx F) (HTMP1S : Cplx F) (HTMP2J : Cplx F) (HTMP2S : Cplx F) (J : Int) (LDA : Int) (X : Int) (I : Int)  : Prog F (Unit) := do
  let t1 ← rdC (el3 2 2 LDA A 1 I J)
  let t2 ← rdC (el2 2 2 X 1 I)
  let t3 ← rdC (el2 2 2 X 2 I)
  wrC (el3 2 2 LDA A 1 I J) (t1 +ᶜ t2 *ᶜ HTMP1S -ᶜ t3 *ᶜ HTMP2J)
  let t4 ← rdC (el3 2 2 LDA A 2 I J)
  let t5 ← rdC (el2 2 2 X 1 I)
  let t6 ← rdC (el2 2 2 X 2 I)
  wrC (el3 2 2 LDA A 2 I J) (t4 +ᶜ t5 *ᶜ HTMP1J +ᶜ t6 *ᶜ HTMP2S)
  pure ()

/-- With 32-bit index arithmetic: `src/hblas/fortran/hblas2/hgeruz.f:35-44`. -/
def hgeruz_if35 (A : Int) (ALPHA : Cplx F) (J : Int) (JY : Int) (LDA : Int) (M : Int) (X : Int) (Y : Int) : Prog F (Unit) := do
  let t1 ← rdC (el2 2 2 Y 1 JY)
  let t2 ← rdC (el2 2 2 Y 2 JY)
  if (!(Cplx.feq t1 (⟨zero, zero⟩ : Cplx F))) || (!(Cplx.feq t2 (⟨zero, zero⟩ : Cplx F))) then
    let t3 ← rdC (el2 2 2 Y 1 JY)
    let HTMP1S : Cplx F := ALPHA *ᶜ t3
    let t4 ← rdC (el2 2 2 Y 2 JY)
    let HTMP1J : Cplx F := ALPHA *ᶜ t4
    let t5 ← rdC (el2 2 2 Y 1 JY)
    let HTMP2S : Cplx F := ALPHA *ᶜ Cplx.conj t5
    let t6 ← rdC (el2 2 2 Y 2 JY)
    let HTMP2J : Cplx F := ALPHA *ᶜ Cplx.conj t6
    forN (M).toNat (fun i => hgeruz_10_I A HTMP1J HTMP1S HTMP2J HTMP2S J LDA X ((i : Int) + 1))
    pure ()
  else
    pure ()

/-- With 32-bit index arithmetic: `src/hblas/fortran/hblas2/hgeruz.f:34-46`, body of `DO 20 J`. -/
def hgeruz_20_J (A : Int) (ALPHA : Cplx F) (INCY : Int) (LDA : Int) (M : Int) (X : Int) (Y : Int) (J : Int) (JY : Int) : Prog F (Int) := do
  hgeruz_if35 A ALPHA J JY LDA M X Y
  let JY ← i32 (JY + INCY)
  pure JY

/-- With 32-bit index arithmetic: `src/hblas/fortran/hblas2/hgeruz.f:60-64`, body of `DO 30 I`. -/
def hgeruz_30_I (A : Int) (HTMP1J : Cplx F) (HTMP1S : Cplx F) (HTMP2J : Cplx F) (HTMP2S : Cplx F) (INCX : Int) (J : Int) (LDA : Int) (X : Int) (I : Int) (IX : Int) : Prog F (Int) := do
  let t1 ← rdC (el3 2 2 LDA A 1 I J)
  let t2 ← rdC (el2 2 2 X 1 IX)
  let t3 ← rdC (el2 2 2 X 2 IX)
  wrC (el3 2 2 LDA A 1 I J) (t1 +ᶜ t2 *ᶜ HTMP1S -ᶜ t3 *ᶜ HTMP2J)
  let t4 ← rdC (el3 2 2 LDA A 2 I J)
  let t5 ← rdC (el2 2 2 X 1 IX)
  let t6 ← rdC (el2 2 2 X 2 IX)
  wrC (el3 2 2 LDA A 2 I J) (t4 +ᶜ t5 *ᶜ HTMP1J +ᶜ t6 *ᶜ HTMP2S)
  let IX ← i32 (IX + INCX)
  pure IX

/-- With 32-bit index arithmetic: `src/hblas/fortran/hblas2/hgeruz.f:54-65`. -/
def hgeruz_if54 (A : Int) (ALPHA : Cplx F) (INCX : Int) (J : Int) (JY : Int) (KX : Int) (LDA : Int) (M : Int) (X : Int) (Y : Int) : Prog F (Unit) := do
  let t1 ← rdC (el2 2 2 Y 1 JY)
  let t2 ← rdC (el2 2 2 Y 2 JY)
  if (!(Cplx.feq t1 (⟨zero, zero⟩ : Cplx F))) || (!(Cplx.feq t2 (⟨zero, zero⟩ : Cplx F))) then
    let t3 ← rdC (el2 2 2 Y 1 JY)
    let HTMP1S : Cplx F := ALPHA *ᶜ t3
    let t4 ← rdC (el2 2 2 Y 2 JY)
    let HTMP1J : Cplx F := ALPHA *ᶜ t4
    let t5 ← rdC (el2 2 2 Y 1 JY)
    let HTMP2S : Cplx F := ALPHA *ᶜ Cplx.conj t5
    let t6 ← rdC (el2 2 2 Y 2 JY)
    let HTMP2J : Cplx F := ALPHA *ᶜ Cplx.conj t6
    let IX : Int := KX
    let r ← foldN (M).toNat (fun i (s : Int) => hgeruz_30_I A HTMP1J HTMP1S HTMP2J HTMP2S INCX J LDA X ((i : Int) + 1) s) IX
    pure ()
  else
    pure ()

/-- With 32-bit index arithmetic: `src/hblas/fortran/hblas2/hgeruz.f:53-67`, body of `DO 40 J`. -/
def hgeruz_40_J (A : Int) (ALPHA : Cplx F) (INCX : Int) (INCY : Int) (KX : Int) (LDA : Int) (M : Int) (X : Int) (Y : Int) (J : Int) (JY : Int) : Prog F (Int) := do
  hgeruz_if54 A ALPHA INCX J JY KX LDA M X Y
  let JY ← i32 (JY + INCY)
  pure JY

/-- With 32-bit index arithmetic: `src/hblas/fortran/hblas2/hgeruz.f:33-68`. -/
def hgeruz_if33 (A : Int) (ALPHA : Cplx F) (INCX : Int) (INCY : Int) (JY : Int) (LDA : Int) (M : Int) (N : Int) (X : Int) (Y : Int) : Prog F (Unit) := do
  if decide (INCX = 1) then
    let r ← foldN (N).toNat (fun i (s : Int) => hgeruz_20_J A ALPHA INCY LDA M X Y ((i : Int) + 1) s) JY
    pure ()
  else
    let r ← (do
      if decide (INCX > 0) then
        let KX : Int := 1
        pure KX
      else
        let c1 ← i32 (M - 1)
        let c2 ← i32 (c1 * INCX)
        let KX ← i32 (1 - c2)
        pure KX : Prog F (Int))
    let KX : Int := r
    let r ← foldN (N).toNat (fun i (s : Int) => hgeruz_40_J A ALPHA INCX INCY KX LDA M X Y ((i : Int) + 1) s) JY
    pure ()

/-- With 32-bit index arithmetic: `src/hblas/fortran/hblas2/hgeruz.f:9-70`. -/
def hgeruz (M : Int) (N : Int) (ALPHA : Cplx F) (X : Int) (INCX : Int) (Y : Int) (INCY : Int) (A : Int) (LDA : Int) : Prog F (Unit) := do
  let AZERO : Bool := Cplx.feq ALPHA (⟨zero, zero⟩ : Cplx F)
  -- AONE (line 23) is never read
  if ((decide (M = 0)) || (decide (N = 0))) || AZERO then
    pure ()
  else
    let r ← (do
      if decide (INCY > 0) then
        let JY : Int := 1
        pure JY
      else
        let c1 ← i32 (N - 1)
        let c2 ← i32 (c1 * INCY)
        let JY ← i32 (1 - c2)
        pure JY : Prog F (Int))
    let JY : Int := r
    hgeruz_if33 A ALPHA INCX INCY JY LDA M N X Y
    pure ()

/-- With 32-bit index arithmetic: `src/hblas/fortran/hblas2/hgeruh.f:45-52`, body of `DO 10 I`. -/
def hgeruh_10_I (A : Int) (HTMP1J : Cplx F) (HTMP1S : Cplx F) (HTMP2J : Cplx F) (HTMP2S : Cplx F) (HTMP3J : Cplx F) (HTMP3S : Cplx F) (HTMP4J : Cplx F) (HTMP4S : Cplx F) (J : Int) (LDA : Int) (X : Int) (I : Int)  : Prog F (Unit) := do
  let t1 ← rdC (el3 2 2 LDA A 1 I J)
  let t2 ← rdC (el2 2 2 X 1 I)
  let t3 ← rdC (el2 2 2 X 2 I)
  let t4 ← rdC (el2 2 2 X 1 I)
  let t5 ← rdC (el2 2 2 X 2 I)
  wrC (el3 2 2 LDA A 1 I J) (t1 +ᶜ t2 *ᶜ HTMP1S -ᶜ t3 *ᶜ HTMP2J -ᶜ Cplx.conj t4 *ᶜ HTMP4J -ᶜ Cplx.conj t5 *ᶜ HTMP3S)
  let t6 ← rdC (el3 2 2 LDA A 2 I J)
  let t7 ← rdC (el2 2 2 X 1 I)
  let t8 ← rdC (el2 2 2 X 2 I)
  let t9 ← rdC (el2 2 2 X 1 I)
  let t10 ← rdC (el2 2 2 X 2 I)
  wrC (el3 2 2 LDA A 2 I J) (t6 +ᶜ t7 *ᶜ HTMP1J +ᶜ t8 *ᶜ HTMP2S +ᶜ Cplx.conj t9 *ᶜ HTMP4S -ᶜ Cplx.conj t10 *ᶜ HTMP3J)
  pure ()

/-- With 32-bit index arithmetic: `src/hblas/fortran/hblas2/hgeruh.f:36-53`. -/
def hgeruh_if36 (A : Int) (ALPHA : Quat F) (J : Int) (JY : Int) (LDA : Int) (M : Int) (X : Int) (Y : Int) : Prog F (Unit) := do
  let t1 ← rdC (el2 2 2 Y 1 JY)
  let t2 ← rdC (el2 2 2 Y 2 JY)
  if (!(Cplx.feq t1 (⟨zero, zero⟩ : Cplx F))) || (!(Cplx.feq t2 (⟨zero, zero⟩ : Cplx F))) then
    let t3 ← rdC (el2 2 2 Y 1 JY)
    let HTMP1S : Cplx F := Quat.lo ALPHA *ᶜ t3
    let t4 ← rdC (el2 2 2 Y 2 JY)
    let HTMP1J : Cplx F := Quat.lo ALPHA *ᶜ t4
    let t5 ← rdC (el2 2 2 Y 1 JY)
    let HTMP2S : Cplx F := Quat.lo ALPHA *ᶜ Cplx.conj t5
    let t6 ← rdC (el2 2 2 Y 2 JY)
    let HTMP2J : Cplx F := Quat.lo ALPHA *ᶜ Cplx.conj t6
    let t7 ← rdC (el2 2 2 Y 1 JY)
    let HTMP3S : Cplx F := Quat.hi ALPHA *ᶜ t7
    let t8 ← rdC (el2 2 2 Y 2 JY)
    let HTMP3J : Cplx F := Quat.hi ALPHA *ᶜ t8
    let t9 ← rdC (el2 2 2 Y 1 JY)
    let HTMP4S : Cplx F := Quat.hi ALPHA *ᶜ Cplx.conj t9
    let t10 ← rdC (el2 2 2 Y 2 JY)
    let HTMP4J : Cplx F := Quat.hi ALPHA *ᶜ Cplx.conj t10
    forN (M).toNat (fun i => hgeruh_10_I A HTMP1J HTMP1S HTMP2J HTMP2S HTMP3J HTMP3S HTMP4J HTMP4S J LDA X ((i : Int) + 1))
    pure ()
  else
    pure ()

/-- With 32-bit index arithmetic: `src/hblas/fortran/hblas2/hgeruh.f:35-55`, body of `DO 20 J`. -/
def hgeruh_20_J (A : Int) (ALPHA : Quat F) (INCY : Int) (LDA : Int) (M : Int) (X : Int) (Y : Int) (J : Int) (JY : Int) : Prog F (Int) := do
  hgeruh_if36 A ALPHA J JY LDA M X Y
  let JY ← i32 (JY + INCY)
  pure JY

/-- With 32-bit index arithmetic: `src/hblas/fortran/hblas2/hgeruh.f:73-81`, body of `DO 30 I`. -/
def hgeruh_30_I (A : Int) (HTMP1J : Cplx F) (HTMP1S : Cplx F) (HTMP2J : Cplx F) (HTMP2S : Cplx F) (HTMP3J : Cplx F) (HTMP3S : Cplx F) (HTMP4J : Cplx F) (HTMP4S : Cplx F) (INCX : Int) (J : Int) (LDA : Int) (X : Int) (I : Int) (IX : Int) : Prog F (Int) := do
  let t1 ← rdC (el3 2 2 LDA A 1 I J)
  let t2 ← rdC (el2 2 2 X 1 IX)
  let t3 ← rdC (el2 2 2 X 2 IX)
  let t4 ← rdC (el2 2 2 X 1 IX)
  let t5 ← rdC (el2 2 2 X 2 IX)
  wrC (el3 2 2 LDA A 1 I J) (t1 +ᶜ t2 *ᶜ HTMP1S -ᶜ t3 *ᶜ HTMP2J -ᶜ Cplx.conj t4 *ᶜ HTMP4J -ᶜ Cplx.conj t5 *ᶜ HTMP3S)
  let t6 ← rdC (el3 2 2 LDA A 2 I J)
  let t7 ← rdC (el2 2 2 X 1 IX)
  let t8 ← rdC (el2 2 2 X 2 IX)
  let t9 ← rdC (el2 2 2 X 1 IX)
  let t10 ← rdC (el2 2 2 X 2 IX)
  wrC (el3 2 2 LDA A 2 I J) (t6 +ᶜ t7 *ᶜ HTMP1J +ᶜ t8 *ᶜ HTMP2S +ᶜ Cplx.conj t9 *ᶜ HTMP4S -ᶜ Cplx.conj t10 *ᶜ HTMP3J)
  let IX ← i32 (IX + INCX)
  pure IX

/-- With 32-bit index arithmetic: `src/hblas/fortran/hblas2/hgeruh.f:63-82`. -/
def hgeruh_if63 (A : Int) (ALPHA : Quat F) (INCX : Int) (J : Int) (JY : Int) (KX : Int) (LDA : Int) (M : Int) (X : Int) (Y : Int) : Prog F (Unit) := do
  let t1 ← rdC (el2 2 2 Y 1 JY)
  let t2 ← rdC (el2 2 2 Y 2 JY)
  if (!(Cplx.feq t1 (⟨zero, zero⟩ : Cplx F))) || (!(Cplx.feq t2 (⟨zero, zero⟩ : Cplx F))) then
    let t3 ← rdC (el2 2 2 Y 1 JY)
    let HTMP1S : Cplx F := Quat.lo ALPHA *ᶜ t3
    let t4 ← rdC (el2 2 2 Y 2 JY)
    let HTMP1J : Cplx F := Quat.lo ALPHA *ᶜ t4
    let t5 ← rdC (el2 2 2 Y 1 JY)
    let HTMP2S : Cplx F := Quat.lo ALPHA *ᶜ Cplx.conj t5
    let t6 ← rdC (el2 2 2 Y 2 JY)
    let HTMP2J : Cplx F := Quat.lo ALPHA *ᶜ Cplx.conj t6
    let t7 ← rdC (el2 2 2 Y 1 JY)
    let HTMP3S : Cplx F := Quat.hi ALPHA *ᶜ t7
    let t8 ← rdC (el2 2 2 Y 2 JY)
    let HTMP3J : Cplx F := Quat.hi ALPHA *ᶜ t8
    let t9 ← rdC (el2 2 2 Y 1 JY)
    let HTMP4S : Cplx F := Quat.hi ALPHA *ᶜ Cplx.conj t9
    let t10 ← rdC (el2 2 2 Y 2 JY)
    let HTMP4J : Cplx F := Quat.hi ALPHA *ᶜ Cplx.conj t10
    let IX : Int := KX
    let r ← foldN (M).toNat (fun i (s : Int) => hgeruh_30_I A HTMP1J HTMP1S HTMP2J HTMP2S HTMP3J HTMP3S HTMP4J HTMP4S INCX J LDA X ((i : Int) + 1) s) IX
    pure ()
  else
    pure ()

/-- With 32-bit index arithmetic: `src/hblas/fortran/hblas2/hgeruh.f:62-84`, body of `DO 40 J`. -/
def hgeruh_40_J (A : Int) (ALPHA : Quat F) (INCX : Int) (INCY : Int) (KX : Int) (LDA : Int) (M : Int) (X : Int) (Y : Int) (J : Int) (JY : Int) : Prog F (Int) := do
  hgeruh_if63 A ALPHA INCX J JY KX LDA M X Y
  let JY ← i32 (JY + INCY)
  pure JY

/-- With 32-bit index arithmetic: `src/hblas/fortran/hblas2/hgeruh.f:34-85`. -/
def hgeruh_if34 (A : Int) (ALPHA : Quat F) (INCX : Int) (INCY : Int) (JY : Int) (LDA : Int) (M : Int) (N : Int) (X : Int) (Y : Int) : Prog F (Unit) := do
  if decide (INCX = 1) then
    let r ← foldN (N).toNat (fun i (s : Int) => hgeruh_20_J A ALPHA INCY LDA M X Y ((i : Int) + 1) s) JY
    pure ()
  else
    let r ← (do
      if decide (INCX > 0) then
        let KX : Int := 1
        pure KX
      else
        let c1 ← i32 (M - 1)
        let c2 ← i32 (c1 * INCX)
        let KX ← i32 (1 - c2)
        pure KX : Prog F (Int))
    let KX : Int := r
    let r ← foldN (N).toNat (fun i (s : Int) => hgeruh_40_J A ALPHA INCX INCY KX LDA M X Y ((i : Int) + 1) s) JY
    pure ()

/-- With 32-bit index arithmetic: `src/hblas/fortran/hblas2/hgeruh.f:9-87`. -/
def hgeruh (M : Int) (N : Int) (ALPHA : Quat F) (X : Int) (INCX : Int) (Y : Int) (INCY : Int) (A : Int) (LDA : Int) : Prog F (Unit) := do
  let AZERO : Bool := (Cplx.feq (Quat.lo ALPHA) (⟨zero, zero⟩ : Cplx F)) && (Cplx.feq (Quat.hi ALPHA) (⟨zero, zero⟩ : Cplx F))
  -- AONE (line 24) is never read
  if ((decide (M = 0)) || (decide (N = 0))) || AZERO then
    pure ()
  else
    let r ← (do
      if decide (INCY > 0) then
        let JY : Int := 1
        pure JY
      else
        let c1 ← i32 (N - 1)
        let c2 ← i32 (c1 * INCY)
        let JY ← i32 (1 - c2)
        pure JY : Prog F (Int))
    let JY : Int := r
    hgeruh_if34 A ALPHA INCX INCY JY LDA M N X Y
    pure ()

/-- With 32-bit index arithmetic: `src/hblas/fortran/hblas2/hgercd.f:39-42`, body of `DO 10 I`. -/
def hgercd_10_I (A : Int) (HTMPJ : Cplx F) (HTMPS : Cplx F) (J : Int) (LDA : Int) (X : Int) (I : Int)  : Prog F (Unit) := do
  let t1 ← rdC (el3 2 2 LDA A 1 I J)
  let t2 ← rdC (el2 2 2 X 1 I)
  let t3 ← rdC (el2 2 2 X 2 I)
  wrC (el3 2 2 LDA A 1 I J) (t1 +ᶜ t2 *ᶜ HTMPS -ᶜ t3 *ᶜ Cplx.conj HTMPJ)
  let t4 ← rdC (el3 2 2 LDA A 2 I J)
  let t5 ← rdC (el2 2 2 X 1 I)
  let t6 ← rdC (el2 2 2 X 2 I)
  wrC (el3 2 2 LDA A 2 I J) (t4 +ᶜ t5 *ᶜ HTMPJ +ᶜ t6 *ᶜ Cplx.conj HTMPS)
  pure ()

/-- With 32-bit index arithmetic: `src/hblas/fortran/hblas2/hgercd.f:36-43`. -/
def hgercd_if36 (A : Int) (ALPHA : F) (J : Int) (JY : Int) (LDA : Int) (M : Int) (X : Int) (Y : Int) : Prog F (Unit) := do
  let t1 ← rdC (el2 2 2 Y 1 JY)
  let t2 ← rdC (el2 2 2 Y 2 JY)
  if (!(Cplx.feq t1 (⟨zero, zero⟩ : Cplx F))) || (!(Cplx.feq t2 (⟨zero, zero⟩ : Cplx F))) then
    let t3 ← rdC (el2 2 2 Y 1 JY)
    let HTMPS : Cplx F := Cplx.ofReal ALPHA *ᶜ Cplx.conj t3
    let t4 ← rdC (el2 2 2 Y 2 JY)
    let HTMPJ : Cplx F := Cplx.neg (Cplx.ofReal ALPHA *ᶜ t4)
    forN (M).toNat (fun i => hgercd_10_I A HTMPJ HTMPS J LDA X ((i : Int) + 1))
    pure ()
  else
    pure ()

/-- With 32-bit index arithmetic: `src/hblas/fortran/hblas2/hgercd.f:35-45`, body of `DO 20 J`. -/
def hgercd_20_J (A : Int) (ALPHA : F) (INCY : Int) (LDA : Int) (M : Int) (X : Int) (Y : Int) (J : Int) (JY : Int) : Prog F (Int) := do
  hgercd_if36 A ALPHA J JY LDA M X Y
  let JY ← i32 (JY + INCY)
  pure JY

/-- With 32-bit index arithmetic: `src/hblas/fortran/hblas2/hgercd.f:57-61`, body of `DO 30 I`. -/
def hgercd_30_I (A : Int) (HTMPJ : Cplx F) (INCX : Int) (J : Int) (LDA : Int) (X : Int) (I : Int) (IX : Int) : Prog F (Int) := do
  let t1 ← rdC (el3 2 2 LDA A 1 I J)
  let t2 ← rdC (el2 2 2 X 1 IX)
  let HTMPS ← (uninit : Prog F (Cplx F))
  let t3 ← rdC (el2 2 2 X 2 IX)
  wrC (el3 2 2 LDA A 1 I J) (t1 +ᶜ t2 *ᶜ HTMPS -ᶜ t3 *ᶜ Cplx.conj HTMPJ)
  let t4 ← rdC (el3 2 2 LDA A 2 I J)
  let t5 ← rdC (el2 2 2 X 1 IX)
  let t6 ← rdC (el2 2 2 X 2 IX)
  wrC (el3 2 2 LDA A 2 I J) (t4 +ᶜ t5 *ᶜ HTMPJ +ᶜ t6 *ᶜ Cplx.conj HTMPS)
  let IX ← i32 (IX + INCX)
  pure IX

/-- With 32-bit index arithmetic: `src/hblas/fortran/hblas2/hgercd.f:53-62`. -/
def hgercd_if53 (A : Int) (ALPHA : F) (INCX : Int) (J : Int) (JY : Int) (KX : Int) (LDA : Int) (M : Int) (X : Int) (Y : Int) : Prog F (Unit) := do
  let t1 ← rdC (el2 2 2 Y 1 JY)
  let t2 ← rdC (el2 2 2 Y 2 JY)
  if (!(Cplx.feq t1 (⟨zero, zero⟩ : Cplx F))) || (!(Cplx.feq t2 (⟨zero, zero⟩ : Cplx F))) then
    -- HTMPI (line 54) is never read
    let t3 ← rdC (el2 2 2 Y 2 JY)
    let HTMPJ : Cplx F := Cplx.neg (Cplx.ofReal ALPHA *ᶜ t3)
    let IX : Int := KX
    let r ← foldN (M).toNat (fun i (s : Int) => hgercd_30_I A HTMPJ INCX J LDA X ((i : Int) + 1) s) IX
    pure ()
  else
    pure ()

/-- With 32-bit index arithmetic: `src/hblas/fortran/hblas2/hgercd.f:52-64`, body of `DO 40 J`. -/
def hgercd_40_J (A : Int) (ALPHA : F) (INCX : Int) (INCY : Int) (KX : Int) (LDA : Int) (M : Int) (X : Int) (Y : Int) (J : Int) (JY : Int) : Prog F (Int) := do
  hgercd_if53 A ALPHA INCX J JY KX LDA M X Y
  let JY ← i32 (JY + INCY)
  pure JY

/-- With 32-bit index arithmetic: `src/hblas/fortran/hblas2/hgercd.f:34-65`. -/
def hgercd_if34 (A : Int) (ALPHA : F) (INCX : Int) (INCY : Int) (JY : Int) (LDA : Int) (M : Int) (N : Int) (X : Int) (Y : Int) : Prog F (Unit) := do
  if decide (INCX = 1) then
    let r ← foldN (N).toNat (fun i (s : Int) => hgercd_20_J A ALPHA INCY LDA M X Y ((i : Int) + 1) s) JY
    pure ()
  else
    let r ← (do
      if decide (INCX > 0) then
        let KX : Int := 1
        pure KX
      else
        let c1 ← i32 (M - 1)
        let c2 ← i32 (c1 * INCX)
        let KX ← i32 (1 - c2)
        pure KX : Prog F (Int))
    let KX : Int := r
    let r ← foldN (N).toNat (fun i (s : Int) => hgercd_40_J A ALPHA INCX INCY KX LDA M X Y ((i : Int) + 1) s) JY
    pure ()

/-- With 32-bit index arithmetic: `src/hblas/fortran/hblas2/hgercd.f:9-67`. -/
def hgercd (M : Int) (N : Int) (ALPHA : F) (X : Int) (INCX : Int) (Y : Int) (INCY : Int) (A : Int) (LDA : Int) : Prog F (Unit) := do
  let AZERO : Bool := ALPHA ==ᶠ (zero : F)
  -- AONE (line 24) is never read
  if ((decide (M = 0)) || (decide (N = 0))) || AZERO then
    pure ()
  else
    let r ← (do
      if decide (INCY > 0) then
        let JY : Int := 1
        pure JY
      else
        let c1 ← i32 (N - 1)
        let c2 ← i32 (c1 * INCY)
        let JY ← i32 (1 - c2)
        pure JY : Prog F (Int))
    let JY : Int := r
    hgercd_if34 A ALPHA INCX INCY JY LDA M N X Y
    pure ()

/-- With 32-bit index arithmetic: `src/hblas/fortran/hblas2/hgercz.f:40-43`, body of `DO 10 I`. -/
def hgercz_10_I (A : Int) (HTMP1J : Cplx F) (HTMP1S : Cplx F) (HTMP2J : Cplx F) (HTMP2S : Cplx F) (J : Int) (LDA : Int) (X : Int) (I : Int)  : Prog F (Unit) := do
  let t1 ← rdC (el3 2 2 LDA A 1 I J)
  let t2 ← rdC (el2 2 2 X 1 I)
  let t3 ← rdC (el2 2 2 X 2 I)
  wrC (el3 2 2 LDA A 1 I J) (t1 +ᶜ t2 *ᶜ HTMP1S -ᶜ t3 *ᶜ HTMP2J)
  let t4 ← rdC (el3 2 2 LDA A 2 I J)
  let t5 ← rdC (el2 2 2 X 1 I)
  let t6 ← rdC (el2 2 2 X 2 I)
  wrC (el3 2 2 LDA A 2 I J) (t4 +ᶜ t5 *ᶜ HTMP1J +ᶜ t6 *ᶜ HTMP2S)
  pure ()

/-- With 32-bit index arithmetic: `src/hblas/fortran/hblas2/hgercz.f:35-44`. -/
def hgercz_if35 (A : Int) (ALPHA : Cplx F) (J : Int) (JY : Int) (LDA : Int) (M : Int) (X : Int) (Y : Int) : Prog F (Unit) := do
  let t1 ← rdC (el2 2 2 Y 1 JY)
  let t2 ← rdC (el2 2 2 Y 2 JY)
  if (!(Cplx.feq t1 (⟨zero, zero⟩ : Cplx F))) || (!(Cplx.feq t2 (⟨zero, zero⟩ : Cplx F))) then
    let t3 ← rdC (el2 2 2 Y 1 JY)
    let HTMP1S : Cplx F := ALPHA *ᶜ Cplx.conj t3
    let t4 ← rdC (el2 2 2 Y 2 JY)
    let HTMP1J : Cplx F := Cplx.neg (ALPHA *ᶜ t4)
    let t5 ← rdC (el2 2 2 Y 1 JY)
    let HTMP2S : Cplx F := ALPHA *ᶜ t5
    let t6 ← rdC (el2 2 2 Y 2 JY)
    let HTMP2J : Cplx F := Cplx.neg (ALPHA *ᶜ Cplx.conj t6)
    forN (M).toNat (fun i => hgercz_10_I A HTMP1J HTMP1S HTMP2J HTMP2S J LDA X ((i : Int) + 1))
    pure ()
  else
    pure ()

/-- With 32-bit index arithmetic: `src/hblas/fortran/hblas2/hgercz.f:34-46`, body of `DO 20 J`. -/
def hgercz_20_J (A : Int) (ALPHA : Cplx F) (INCY : Int) (LDA : Int) (M : Int) (X : Int) (Y : Int) (J : Int) (JY : Int) : Prog F (Int) := do
  hgercz_if35 A ALPHA J JY LDA M X Y
  let JY ← i32 (JY + INCY)
  pure JY

/-- With 32-bit index arithmetic: `src/hblas/fortran/hblas2/hgercz.f:60-64`, body of `DO 30 I`. -/
def hgercz_30_I (A : Int) (HTMP1J : Cplx F) (HTMP1S : Cplx F) (HTMP2J : Cplx F) (HTMP2S : Cplx F) (INCX : Int) (J : Int) (LDA : Int) (X : Int) (I : Int) (IX : Int) : Prog F (Int) := do
  let t1 ← rdC (el3 2 2 LDA A 1 I J)
  let t2 ← rdC (el2 2 2 X 1 IX)
  let t3 ← rdC (el2 2 2 X 2 IX)
  wrC (el3 2 2 LDA A 1 I J) (t1 +ᶜ t2 *ᶜ HTMP1S -ᶜ t3 *ᶜ HTMP2J)
  let t4 ← rdC (el3 2 2 LDA A 2 I J)
  let t5 ← rdC (el2 2 2 X 1 IX)
  let t6 ← rdC (el2 2 2 X 2 IX)
  wrC (el3 2 2 LDA A 2 I J) (t4 +ᶜ t5 *ᶜ HTMP1J +ᶜ t6 *ᶜ HTMP2S)
  let IX ← i32 (IX + INCX)
  pure IX

/-- With 32-bit index arithmetic: `src/hblas/fortran/hblas2/hgercz.f:54-65`. -/
def hgercz_if54 (A : Int) (ALPHA : Cplx F) (INCX : Int) (J : Int) (JY : Int) (KX : Int) (LDA : Int) (M : Int) (X : Int) (Y : Int) : Prog F (Unit) := do
  let t1 ← rdC (el2 2 2 Y 1 JY)
  let t2 ← rdC (el2 2 2 Y 2 JY)
  if (!(Cplx.feq t1 (⟨zero, zero⟩ : Cplx F))) || (!(Cplx.feq t2 (⟨zero, zero⟩ : Cplx F))) then
    let t3 ← rdC (el2 2 2 Y 1 JY)
    let HTMP1S : Cplx F := ALPHA *ᶜ Cplx.conj t3
    let t4 ← rdC (el2 2 2 Y 2 JY)
    let HTMP1J : Cplx F := Cplx.neg (ALPHA *ᶜ t4)
    let t5 ← rdC (el2 2 2 Y 1 JY)
    let HTMP2S : Cplx F := ALPHA *ᶜ t5
    let t6 ← rdC (el2 2 2 Y 2 JY)
    let HTMP2J : Cplx F := Cplx.neg (ALPHA *ᶜ Cplx.conj t6)
    let IX : Int := KX
    let r ← foldN (M).toNat (fun i (s : Int) => hgercz_30_I A HTMP1J HTMP1S HTMP2J HTMP2S INCX J LDA X ((i : Int) + 1) s) IX
    pure ()
  else
    pure ()

/-- With 32-bit index arithmetic: `src/hblas/fortran/hblas2/hgercz.f:53-67`, body of `DO 40 J`. -/
def hgercz_40_J (A : Int) (ALPHA : Cplx F) (INCX : Int) (INCY : Int) (KX : Int) (LDA : Int) (M : Int) (X : Int) (Y : Int) (J : Int) (JY : Int) : Prog F (Int) := do
  hgercz_if54 A ALPHA INCX J JY KX LDA M X Y
  let JY ← i32 (JY + INCY)
  pure JY

/-- With 32-bit index arithmetic: `src/hblas/fortran/hblas2/hgercz.f:33-68`. -/
def hgercz_if33 (A : Int) (ALPHA : Cplx F) (INCX : Int) (INCY : Int) (JY : Int) (LDA : Int) (M : Int) (N : Int) (X : Int) (Y : Int) : Prog F (Unit) := do
  if decide (INCX = 1) then
    let r ← foldN (N).toNat (fun i (s : Int) => hgercz_20_J A ALPHA INCY LDA M X Y ((i : Int) + 1) s) JY
    pure ()
  else
    let r ← (do
      if decide (INCX > 0) then
        let KX : Int := 1
        pure KX
      else
        let c1 ← i32 (M - 1)
        let c2 ← i32 (c1 * INCX)
        let KX ← i32 (1 - c2)
        pure KX : Prog F (Int))
    let KX : Int := r
    let r ← foldN (N).toNat (fun i (s : Int) => hgercz_40_J A ALPHA INCX INCY KX LDA M X Y ((i : Int) + 1) s) JY
    pure ()

/-- With 32-bit index arithmetic: `src/hblas/fortran/hblas2/hgercz.f:9-70`. -/
def hgercz (M : Int) (N : Int) (ALPHA : Cplx F) (X : Int) (INCX : Int) (Y : Int) (INCY : Int) (A : Int) (LDA : Int) : Prog F (Unit) := do
  let AZERO : Bool := Cplx.feq ALPHA (⟨zero, zero⟩ : Cplx F)
  -- AONE (line 23) is never read
  if ((decide (M = 0)) || (decide (N = 0))) || AZERO then
    pure ()
  else
    let r ← (do
      if decide (INCY > 0) then
        let JY : Int := 1
        pure JY
      else
        let c1 ← i32 (N - 1)
        let c2 ← i32 (c1 * INCY)
        let JY ← i32 (1 - c2)
        pure JY : Prog F (Int))
    let JY : Int := r
    hgercz_if33 A ALPHA INCX INCY JY LDA M N X Y
    pure ()

/-- With 32-bit index arithmetic: `src/hblas/fortran/hblas2/hgerch.f:45-52`, body of `DO 10 I`. -/
def hgerch_10_I (A : Int) (HTMP1J : Cplx F) (HTMP1S : Cplx F) (HTMP2J : Cplx F) (HTMP2S : Cplx F) (HTMP3J : Cplx F) (HTMP3S : Cplx F) (HTMP4J : Cplx F) (HTMP4S : Cplx F) (J : Int) (LDA : Int) (X : Int) (I : Int)  : Prog F (Unit) := do
  let t1 ← rdC (el3 2 2 LDA A 1 I J)
  let t2 ← rdC (el2 2 2 X 1 I)
  let t3 ← rdC (el2 2 2 X 2 I)
  let t4 ← rdC (el2 2 2 X 1 I)
  let t5 ← rdC (el2 2 2 X 2 I)
  wrC (el3 2 2 LDA A 1 I J) (t1 +ᶜ t2 *ᶜ HTMP1S -ᶜ t3 *ᶜ HTMP2J -ᶜ Cplx.conj t4 *ᶜ HTMP4J -ᶜ Cplx.conj t5 *ᶜ HTMP3S)
  let t6 ← rdC (el3 2 2 LDA A 2 I J)
  let t7 ← rdC (el2 2 2 X 1 I)
  let t8 ← rdC (el2 2 2 X 2 I)
  let t9 ← rdC (el2 2 2 X 1 I)
  let t10 ← rdC (el2 2 2 X 2 I)
  wrC (el3 2 2 LDA A 2 I J) (t6 +ᶜ t7 *ᶜ HTMP1J +ᶜ t8 *ᶜ HTMP2S +ᶜ Cplx.conj t9 *ᶜ HTMP4S -ᶜ Cplx.conj t10 *ᶜ HTMP3J)
  pure ()

/-- With 32-bit index arithmetic: `src/hblas/fortran/hblas2/hgerch.f:36-53`. -/
def hgerch_if36 (A : Int) (ALPHA : Quat F) (J : Int) (JY : Int) (LDA : Int) (M : Int) (X : Int) (Y : Int) : Prog F (Unit) := do
  let t1 ← rdC (el2 2 2 Y 1 JY)
  let t2 ← rdC (el2 2 2 Y 2 JY)
  if (!(Cplx.feq t1 (⟨zero, zero⟩ : Cplx F))) || (!(Cplx.feq t2 (⟨zero, zero⟩ : Cplx F))) then
    let t3 ← rdC (el2 2 2 Y 1 JY)
    let HTMP1S : Cplx F := Quat.lo ALPHA *ᶜ Cplx.conj t3
    let t4 ← rdC (el2 2 2 Y 2 JY)
    let HTMP1J : Cplx F := Cplx.neg (Quat.lo ALPHA *ᶜ t4)
    let t5 ← rdC (el2 2 2 Y 1 JY)
    let HTMP2S : Cplx F := Quat.lo ALPHA *ᶜ t5
    let t6 ← rdC (el2 2 2 Y 2 JY)
    let HTMP2J : Cplx F := Cplx.neg (Quat.lo ALPHA *ᶜ Cplx.conj t6)
    let t7 ← rdC (el2 2 2 Y 1 JY)
    let HTMP3S : Cplx F := Quat.hi ALPHA *ᶜ Cplx.conj t7
    let t8 ← rdC (el2 2 2 Y 2 JY)
    let HTMP3J : Cplx F := Cplx.neg (Quat.hi ALPHA *ᶜ t8)
    let t9 ← rdC (el2 2 2 Y 1 JY)
    let HTMP4S : Cplx F := Quat.hi ALPHA *ᶜ t9
    let t10 ← rdC (el2 2 2 Y 2 JY)
    let HTMP4J : Cplx F := Cplx.neg (Quat.hi ALPHA *ᶜ Cplx.conj t10)
    forN (M).toNat (fun i => hgerch_10_I A HTMP1J HTMP1S HTMP2J HTMP2S HTMP3J HTMP3S HTMP4J HTMP4S J LDA X ((i : Int) + 1))
    pure ()
  else
    pure ()

/-- With 32-bit index arithmetic: `src/hblas/fortran/hblas2/hgerch.f:35-55`, body of `DO 20 J`. -/
def hgerch_20_J (A : Int) (ALPHA : Quat F) (INCY : Int) (LDA : Int) (M : Int) (X : Int) (Y : Int) (J : Int) (JY : Int) : Prog F (Int) := do
  hgerch_if36 A ALPHA J JY LDA M X Y
  let JY ← i32 (JY + INCY)
  pure JY

/-- With 32-bit index arithmetic: `src/hblas/fortran/hblas2/hgerch.f:73-81`, body of `DO 30 I`. -/
def hgerch_30_I (A : Int) (HTMP1J : Cplx F) (HTMP1S : Cplx F) (HTMP2J : Cplx F) (HTMP2S : Cplx F) (HTMP3J : Cplx F) (HTMP3S : Cplx F) (HTMP4J : Cplx F) (HTMP4S : Cplx F) (INCX : Int) (J : Int) (LDA : Int) (X : Int) (I : Int) (IX : Int) : Prog F (Int) := do
  let t1 ← rdC (el3 2 2 LDA A 1 I J)
  let t2 ← rdC (el2 2 2 X 1 IX)
  let t3 ← rdC (el2 2 2 X 2 IX)
  let t4 ← rdC (el2 2 2 X 1 IX)
  let t5 ← rdC (el2 2 2 X 2 IX)
  wrC (el3 2 2 LDA A 1 I J) (t1 +ᶜ t2 *ᶜ HTMP1S -ᶜ t3 *ᶜ HTMP2J -ᶜ Cplx.conj t4 *ᶜ HTMP4J -ᶜ Cplx.conj t5 *ᶜ HTMP3S)
  let t6 ← rdC (el3 2 2 LDA A 2 I J)
  let t7 ← rdC (el2 2 2 X 1 IX)
  let t8 ← rdC (el2 2 2 X 2 IX)
  let t9 ← rdC (el2 2 2 X 1 IX)
  let t10 ← rdC (el2 2 2 X 2 IX)
  wrC (el3 2 2 LDA A 2 I J) (t6 +ᶜ t7 *ᶜ HTMP1J +ᶜ t8 *ᶜ HTMP2S +ᶜ Cplx.conj t9 *ᶜ HTMP4S -ᶜ Cplx.conj t10 *ᶜ HTMP3J)
  let IX ← i32 (IX + INCX)
  pure IX

/-- With 32-bit index arithmetic: `src/hblas/fortran/hblas2/hgerch.f:63-82`. -/
def hgerch_if63 (A : Int) (ALPHA : Quat F) (INCX : Int) (J : Int) (JY : Int) (KX : Int) (LDA : Int) (M : Int) (X : Int) (Y : Int) : Prog F (Unit) := do
  let t1 ← rdC (el2 2 2 Y 1 JY)
  let t2 ← rdC (el2 2 2 Y 2 JY)
  if (!(Cplx.feq t1 (⟨zero, zero⟩ : Cplx F))) || (!(Cplx.feq t2 (⟨zero, zero⟩ : Cplx F))) then
    let t3 ← rdC (el2 2 2 Y 1 JY)
    let HTMP1S : Cplx F := Quat.lo ALPHA *ᶜ Cplx.conj t3
    let t4 ← rdC (el2 2 2 Y 2 JY)
    let HTMP1J : Cplx F := Cplx.neg (Quat.lo ALPHA *ᶜ t4)
    let t5 ← rdC (el2 2 2 Y 1 JY)
    let HTMP2S : Cplx F := Quat.lo ALPHA *ᶜ t5
    let t6 ← rdC (el2 2 2 Y 2 JY)
    let HTMP2J : Cplx F := Cplx.neg (Quat.lo ALPHA *ᶜ Cplx.conj t6)
    let t7 ← rdC (el2 2 2 Y 1 JY)
    let HTMP3S : Cplx F := Quat.hi ALPHA *ᶜ Cplx.conj t7
    let t8 ← rdC (el2 2 2 Y 2 JY)
    let HTMP3J : Cplx F := Cplx.neg (Quat.hi ALPHA *ᶜ t8)
    let t9 ← rdC (el2 2 2 Y 1 JY)
    let HTMP4S : Cplx F := Quat.hi ALPHA *ᶜ t9
    let t10 ← rdC (el2 2 2 Y 2 JY)
    let HTMP4J : Cplx F := Cplx.neg (Quat.hi ALPHA *ᶜ Cplx.conj t10)
    let IX : Int := KX
    let r ← foldN (M).toNat (fun i (s : Int) => hgerch_30_I A HTMP1J HTMP1S HTMP2J HTMP2S HTMP3J HTMP3S HTMP4J HTMP4S INCX J LDA X ((i : Int) + 1) s) IX
    pure ()
  else
    pure ()

/-- With 32-bit index arithmetic: `src/hblas/fortran/hblas2/hgerch.f:62-84`, body of `DO 40 J`. -/
def hgerch_40_J (A : Int) (ALPHA : Quat F) (INCX : Int) (INCY : Int) (KX : Int) (LDA : Int) (M : Int) (X : Int) (Y : Int) (J : Int) (JY : Int) : Prog F (Int) := do
  hgerch_if63 A ALPHA INCX J JY KX LDA M X Y
  let JY ← i32 (JY + INCY)
  pure JY

/-- With 32-bit index arithmetic: `src/hblas/fortran/hblas2/hgerch.f:34-85`. -/
def hgerch_if34 (A : Int) (ALPHA : Quat F) (INCX : Int) (INCY : Int) (JY : Int) (LDA : Int) (M : Int) (N : Int) (X : Int) (Y : Int) : Prog F (Unit) := do
  if decide (INCX = 1) then
    let r ← foldN (N).toNat (fun i (s : Int) => hgerch_20_J A ALPHA INCY LDA M X Y ((i : Int) + 1) s) JY
    pure ()
  else
    let r ← (do
      if decide (INCX > 0) then
        let KX : Int := 1
        pure KX
      else
        let c1 ← i32 (M - 1)
        let c2 ← i32 (c1 * INCX)
        let KX ← i32 (1 - c2)
        pure KX : Prog F (Int))
    let KX : Int := r
    let r ← foldN (N).toNat (fun i (s : Int) => hgerch_40_J A ALPHA INCX INCY KX LDA M X Y ((i : Int) + 1) s) JY
    pure ()

/-- With 32-bit index arithmetic: `src/hblas/fortran/hblas2/hgerch.f:9-87`. -/
def hgerch (M : Int) (N : Int) (ALPHA : Quat F) (X : Int) (INCX : Int) (Y : Int) (INCY : Int) (A : Int) (LDA : Int) : Prog F (Unit) := do
  let AZERO : Bool := (Cplx.feq (Quat.lo ALPHA) (⟨zero, zero⟩ : Cplx F)) && (Cplx.feq (Quat.hi ALPHA) (⟨zero, zero⟩ : Cplx F))
  -- AONE (line 24) is never read
  if ((decide (M = 0)) || (decide (N = 0))) || AZERO then
    pure ()
  else
    let r ← (do
      if decide (INCY > 0) then
        let JY : Int := 1
        pure JY
      else
        let c1 ← i32 (N - 1)
        let c2 ← i32 (c1 * INCY)
        let JY ← i32 (1 - c2)
        pure JY : Prog F (Int))
    let JY : Int := r
    hgerch_if34 A ALPHA INCX INCY JY LDA M N X Y
    pure ()

end Haxx.F32
