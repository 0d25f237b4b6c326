import Verif.Fortran

/-!
# Fortran GEMM, dh

Generated by `tools/f2lean.py` from the Fortran sources cited on each definition; do not edit.
-/

set_option linter.unusedVariables false

namespace Haxx
open Arith

variable {F : Type} [Arith F] [ArithEq F]

/-- `src/hblas/fortran/hblas3/hgemmdh.f:66-73`, body of `DO 10 I`. -/
def hgemmdh_10_I (C : Int) (J : Int) (LDC : Int) (I : Int)  : Prog F (Unit) := do
  wrC (el3 2 2 LDC C 1 I J) (⟨zero, zero⟩ : Cplx F)
  wrC (el3 2 2 LDC C 2 I J) (⟨zero, zero⟩ : Cplx F)
  pure ()

/-- `src/hblas/fortran/hblas3/hgemmdh.f:65-73`, body of `DO 10 J`. -/
def hgemmdh_10_J (C : Int) (LDC : Int) (M : Int) (J : Int)  : Prog F (Unit) := do
  forN (M).toNat (fun i => hgemmdh_10_I C J LDC ((i : Int) + 1))
  pure ()

/-- `src/hblas/fortran/hblas3/hgemmdh.f:76-102`, body of `DO 20 I`. -/
def hgemmdh_20_I (BETA : Quat F) (C : Int) (J : Int) (LDC : Int) (I : Int)  : Prog F (Unit) := do
  let t1 ← rdC (el3 2 2 LDC C 1 I J)
  let t2 ← rdC (el3 2 2 LDC C 2 I J)
  let HTMPS : Cplx F := Quat.lo BETA *ᶜ t1 -ᶜ Quat.hi BETA *ᶜ Cplx.conj t2
  let t3 ← rdC (el3 2 2 LDC C 2 I J)
  let t4 ← rdC (el3 2 2 LDC C 1 I J)
  wrC (el3 2 2 LDC C 2 I J) (Quat.lo BETA *ᶜ t3 +ᶜ Quat.hi BETA *ᶜ Cplx.conj t4)
  wrC (el3 2 2 LDC C 1 I J) HTMPS
  pure ()

/-- `src/hblas/fortran/hblas3/hgemmdh.f:75-102`, body of `DO 20 J`. -/
def hgemmdh_20_J (BETA : Quat F) (C : Int) (LDC : Int) (M : Int) (J : Int)  : Prog F (Unit) := do
  forN (M).toNat (fun i => hgemmdh_20_I BETA C J LDC ((i : Int) + 1))
  pure ()

/-- `src/hblas/fortran/hblas3/hgemmdh.f:64-103`. -/
def hgemmdh_if64 (BETA : Quat F) (BZERO : Bool) (C : Int) (LDC : Int) (M : Int) (N : Int) : Prog F (Unit) := do
  if BZERO then
    forN (N).toNat (fun i => hgemmdh_10_J C LDC M ((i : Int) + 1))
    pure ()
  else
    forN (N).toNat (fun i => hgemmdh_20_J BETA C LDC M ((i : Int) + 1))
    pure ()

/-- `src/hblas/fortran/hblas3/hgemmdh.f:114-121`, body of `DO 40 I`. -/
def hgemmdh_40_I (C : Int) (J : Int) (LDC : Int) (I : Int)  : Prog F (Unit) := do
  wrC (el3 2 2 LDC C 1 I J) (⟨zero, zero⟩ : Cplx F)
  wrC (el3 2 2 LDC C 2 I J) (⟨zero, zero⟩ : Cplx F)
  pure ()

/-- `src/hblas/fortran/hblas3/hgemmdh.f:123-149`, body of `DO 50 I`. -/
def hgemmdh_50_I (BETA : Quat F) (C : Int) (J : Int) (LDC : Int) (I : Int)  : Prog F (Unit) := do
  let t1 ← rdC (el3 2 2 LDC C 1 I J)
  let t2 ← rdC (el3 2 2 LDC C 2 I J)
  let HTMPS : Cplx F := Quat.lo BETA *ᶜ t1 -ᶜ Quat.hi BETA *ᶜ Cplx.conj t2
  let t3 ← rdC (el3 2 2 LDC C 2 I J)
  let t4 ← rdC (el3 2 2 LDC C 1 I J)
  wrC (el3 2 2 LDC C 2 I J) (Quat.lo BETA *ᶜ t3 +ᶜ Quat.hi BETA *ᶜ Cplx.conj t4)
  wrC (el3 2 2 LDC C 1 I J) HTMPS
  pure ()

/-- `src/hblas/fortran/hblas3/hgemmdh.f:113-150`. -/
def hgemmdh_if113 (BETA : Quat F) (BONE : Bool) (BZERO : Bool) (C : Int) (J : Int) (LDC : Int) (M : Int) : Prog F (Unit) := do
  if BZERO then
    forN (M).toNat (fun i => hgemmdh_40_I C J LDC ((i : Int) + 1))
    pure ()
  else if !BONE then
    forN (M).toNat (fun i => hgemmdh_50_I BETA C J LDC ((i : Int) + 1))
    pure ()
  else
    pure ()

/-- `src/hblas/fortran/hblas3/hgemmdh.f:161-185`, body of `DO 70 I`. -/
def hgemmdh_70_I (A : Int) (C : Int) (HTMPJ : Cplx F) (HTMPS : Cplx F) (J : Int) (L : Int) (LDA : Int) (LDC : Int) (I : Int)  : Prog F (Unit) := do
  let t1 ← rdC (el3 2 2 LDC C 1 I J)
  let t2 ← rdC (el3 2 2 LDA A 1 I L)
  let t3 ← rdC (el3 2 2 LDA A 2 I L)
  wrC (el3 2 2 LDC C 1 I J) (t1 +ᶜ t2 *ᶜ HTMPS -ᶜ t3 *ᶜ Cplx.conj HTMPJ)
  let t4 ← rdC (el3 2 2 LDC C 2 I J)
  let t5 ← rdC (el3 2 2 LDA A 1 I L)
  let t6 ← rdC (el3 2 2 LDA A 2 I L)
  wrC (el3 2 2 LDC C 2 I J) (t4 +ᶜ t5 *ᶜ HTMPJ +ᶜ t6 *ᶜ Cplx.conj HTMPS)
  pure ()

/-- `src/hblas/fortran/hblas3/hgemmdh.f:152-186`, body of `DO 60 L`. -/
def hgemmdh_60_L (A : Int) (ALPHA : F) (B : Int) (C : Int) (J : Int) (LDA : Int) (LDB : Int) (LDC : Int) (M : Int) (L : Int)  : Prog F (Unit) := do
  let t1 ← rdC (el3 2 2 LDB B 1 L J)
  let HTMPS : Cplx F := Cplx.ofReal ALPHA *ᶜ t1
  let t2 ← rdC (el3 2 2 LDB B 2 L J)
  let HTMPJ : Cplx F := Cplx.ofReal ALPHA *ᶜ t2
  forN (M).toNat (fun i => hgemmdh_70_I A C HTMPJ HTMPS J L LDA LDC ((i : Int) + 1))
  pure ()

/-- `src/hblas/fortran/hblas3/hgemmdh.f:112-187`, body of `DO 30 J`. -/
def hgemmdh_30_J (A : Int) (ALPHA : F) (B : Int) (BETA : Quat F) (BONE : Bool) (BZERO : Bool) (C : Int) (K : Int) (LDA : Int) (LDB : Int) (LDC : Int) (M : Int) (J : Int)  : Prog F (Unit) := do
  hgemmdh_if113 BETA BONE BZERO C J LDC M
  forN (K).toNat (fun i => hgemmdh_60_L A ALPHA B C J LDA LDB LDC M ((i : Int) + 1))
  pure ()

/-- `src/hblas/fortran/hblas3/hgemmdh.f:200-220`, body of `DO 90 L`. -/
def hgemmdh_90_L (A : Int) (B : Int) (I : Int) (J : Int) (LDA : Int) (LDB : Int) (L : Int) (HTMPJ : Cplx F) (HTMPS : Cplx F) : Prog F (Cplx F × Cplx F) := do
  let t1 ← rdC (el3 2 2 LDA A 1 L I)
  let t2 ← rdC (el3 2 2 LDB B 1 L J)
  let t3 ← rdC (el3 2 2 LDA A 2 L I)
  let t4 ← rdC (el3 2 2 LDB B 2 L J)
  let HTMPS : Cplx F := HTMPS +ᶜ Cplx.conj t1 *ᶜ t2 +ᶜ t3 *ᶜ Cplx.conj t4
  let t5 ← rdC (el3 2 2 LDA A 1 L I)
  let t6 ← rdC (el3 2 2 LDB B 2 L J)
  let t7 ← rdC (el3 2 2 LDA A 2 L I)
  let t8 ← rdC (el3 2 2 LDB B 1 L J)
  let HTMPJ : Cplx F := HTMPJ +ᶜ Cplx.conj t5 *ᶜ t6 -ᶜ t7 *ᶜ Cplx.conj t8
  pure (HTMPJ, HTMPS)

/-- `src/hblas/fortran/hblas3/hgemmdh.f:193-260`, body of `DO 80 I`. -/
def hgemmdh_80_I (A : Int) (ALPHA : F) (B : Int) (BETA : Quat F) (BZERO : Bool) (C : Int) (J : Int) (K : Int) (LDA : Int) (LDB : Int) (LDC : Int) (I : Int)  : Prog F (Unit) := do
  let HTMPS : Cplx F := (⟨zero, zero⟩ : Cplx F)
  let HTMPJ : Cplx F := (⟨zero, zero⟩ : Cplx F)
  let r ← foldN (K).toNat (fun i (s : Cplx F × Cplx F) => hgemmdh_90_L A B I J LDA LDB ((i : Int) + 1) s.1 s.2) (HTMPJ, HTMPS)
  let HTMPJ : Cplx F := r.1
  let HTMPS : Cplx F := r.2
  let _ ← (do
    if BZERO then
      wrC (el3 2 2 LDC C 1 I J) (Cplx.ofReal ALPHA *ᶜ HTMPS)
      wrC (el3 2 2 LDC C 2 I J) (Cplx.ofReal ALPHA *ᶜ HTMPJ)
      pure ()
    else
      let t1 ← rdC (el3 2 2 LDC C 1 I J)
      let t2 ← rdC (el3 2 2 LDC C 2 I J)
      let HTMPS : Cplx F := Cplx.ofReal ALPHA *ᶜ HTMPS +ᶜ Quat.lo BETA *ᶜ t1 -ᶜ Quat.hi BETA *ᶜ Cplx.conj t2
      let t3 ← rdC (el3 2 2 LDC C 2 I J)
      let t4 ← rdC (el3 2 2 LDC C 1 I J)
      wrC (el3 2 2 LDC C 2 I J) (Cplx.ofReal ALPHA *ᶜ HTMPJ +ᶜ Quat.lo BETA *ᶜ t3 +ᶜ Quat.hi BETA *ᶜ Cplx.conj t4)
      wrC (el3 2 2 LDC C 1 I J) HTMPS
      pure () : Prog F Unit)
  pure ()

/-- `src/hblas/fortran/hblas3/hgemmdh.f:192-260`, body of `DO 80 J`. -/
def hgemmdh_80_J (A : Int) (ALPHA : F) (B : Int) (BETA : Quat F) (BZERO : Bool) (C : Int) (K : Int) (LDA : Int) (LDB : Int) (LDC : Int) (M : Int) (J : Int)  : Prog F (Unit) := do
  forN (M).toNat (fun i => hgemmdh_80_I A ALPHA B BETA BZERO C J K LDA LDB LDC ((i : Int) + 1))
  pure ()

/-- `src/hblas/fortran/hblas3/hgemmdh.f:274-294`, body of `DO 110 L`. -/
def hgemmdh_110_L (A : Int) (B : Int) (I : Int) (J : Int) (LDA : Int) (LDB : Int) (L : Int) (HTMPJ : Cplx F) (HTMPS : Cplx F) : Prog F (Cplx F × Cplx F) := do
  let t1 ← rdC (el3 2 2 LDA A 1 L I)
  let t2 ← rdC (el3 2 2 LDB B 1 L J)
  let t3 ← rdC (el3 2 2 LDA A 2 L I)
  let t4 ← rdC (el3 2 2 LDB B 2 L J)
  let HTMPS : Cplx F := HTMPS +ᶜ t1 *ᶜ t2 -ᶜ t3 *ᶜ Cplx.conj t4
  let t5 ← rdC (el3 2 2 LDA A 1 L I)
  let t6 ← rdC (el3 2 2 LDB B 2 L J)
  let t7 ← rdC (el3 2 2 LDA A 2 L I)
  let t8 ← rdC (el3 2 2 LDB B 1 L J)
  let HTMPJ : Cplx F := HTMPJ +ᶜ t5 *ᶜ t6 +ᶜ t7 *ᶜ Cplx.conj t8
  pure (HTMPJ, HTMPS)

/-- `src/hblas/fortran/hblas3/hgemmdh.f:267-334`, body of `DO 100 I`. -/
def hgemmdh_100_I (A : Int) (ALPHA : F) (B : Int) (BETA : Quat F) (BZERO : Bool) (C : Int) (J : Int) (K : Int) (LDA : Int) (LDB : Int) (LDC : Int) (I : Int)  : Prog F (Unit) := do
  let HTMPS : Cplx F := (⟨zero, zero⟩ : Cplx F)
  let HTMPJ : Cplx F := (⟨zero, zero⟩ : Cplx F)
  let r ← foldN (K).toNat (fun i (s : Cplx F × Cplx F) => hgemmdh_110_L A B I J LDA LDB ((i : Int) + 1) s.1 s.2) (HTMPJ, HTMPS)
  let HTMPJ : Cplx F := r.1
  let HTMPS : Cplx F := r.2
  let _ ← (do
    if BZERO then
      wrC (el3 2 2 LDC C 1 I J) (Cplx.ofReal ALPHA *ᶜ HTMPS)
      wrC (el3 2 2 LDC C 2 I J) (Cplx.ofReal ALPHA *ᶜ HTMPJ)
      pure ()
    else
      let t1 ← rdC (el3 2 2 LDC C 1 I J)
      let t2 ← rdC (el3 2 2 LDC C 2 I J)
      let HTMPS : Cplx F := Cplx.ofReal ALPHA *ᶜ HTMPS +ᶜ Quat.lo BETA *ᶜ t1 -ᶜ Quat.hi BETA *ᶜ Cplx.conj t2
      let t3 ← rdC (el3 2 2 LDC C 2 I J)
      let t4 ← rdC (el3 2 2 LDC C 1 I J)
      wrC (el3 2 2 LDC C 2 I J) (Cplx.ofReal ALPHA *ᶜ HTMPJ +ᶜ Quat.lo BETA *ᶜ t3 +ᶜ Quat.hi BETA *ᶜ Cplx.conj t4)
      wrC (el3 2 2 LDC C 1 I J) HTMPS
      pure () : Prog F Unit)
  pure ()

/-- `src/hblas/fortran/hblas3/hgemmdh.f:266-334`, body of `DO 100 J`. -/
def hgemmdh_100_J (A : Int) (ALPHA : F) (B : Int) (BETA : Quat F) (BZERO : Bool) (C : Int) (K : Int) (LDA : Int) (LDB : Int) (LDC : Int) (M : Int) (J : Int)  : Prog F (Unit) := do
  forN (M).toNat (fun i => hgemmdh_100_I A ALPHA B BETA BZERO C J K LDA LDB LDC ((i : Int) + 1))
  pure ()

/-- `src/hblas/fortran/hblas3/hgemmdh.f:108-335`. -/
def hgemmdh_if108 (A : Int) (ALPHA : F) (B : Int) (BETA : Quat F) (BONE : Bool) (BZERO : Bool) (C : Int) (CONJA : Bool) (K : Int) (LDA : Int) (LDB : Int) (LDC : Int) (M : Int) (N : Int) (NOTA : Bool) : Prog F (Unit) := do
  if NOTA then
    forN (N).toNat (fun i => hgemmdh_30_J A ALPHA B BETA BONE BZERO C K LDA LDB LDC M ((i : Int) + 1))
    pure ()
  else if CONJA then
    forN (N).toNat (fun i => hgemmdh_80_J A ALPHA B BETA BZERO C K LDA LDB LDC M ((i : Int) + 1))
    pure ()
  else
    forN (N).toNat (fun i => hgemmdh_100_J A ALPHA B BETA BZERO C K LDA LDB LDC M ((i : Int) + 1))
    pure ()

/-- `src/hblas/fortran/hblas3/hgemmdh.f:343-350`, body of `DO 130 I`. -/
def hgemmdh_130_I (C : Int) (J : Int) (LDC : Int) (I : Int)  : Prog F (Unit) := do
  wrC (el3 2 2 LDC C 1 I J) (⟨zero, zero⟩ : Cplx F)
  wrC (el3 2 2 LDC C 2 I J) (⟨zero, zero⟩ : Cplx F)
  pure ()

/-- `src/hblas/fortran/hblas3/hgemmdh.f:352-378`, body of `DO 140 I`. -/
def hgemmdh_140_I (BETA : Quat F) (C : Int) (J : Int) (LDC : Int) (I : Int)  : Prog F (Unit) := do
  let t1 ← rdC (el3 2 2 LDC C 1 I J)
  let t2 ← rdC (el3 2 2 LDC C 2 I J)
  let HTMPS : Cplx F := Quat.lo BETA *ᶜ t1 -ᶜ Quat.hi BETA *ᶜ Cplx.conj t2
  let t3 ← rdC (el3 2 2 LDC C 2 I J)
  let t4 ← rdC (el3 2 2 LDC C 1 I J)
  wrC (el3 2 2 LDC C 2 I J) (Quat.lo BETA *ᶜ t3 +ᶜ Quat.hi BETA *ᶜ Cplx.conj t4)
  wrC (el3 2 2 LDC C 1 I J) HTMPS
  pure ()

/-- `src/hblas/fortran/hblas3/hgemmdh.f:342-379`. -/
def hgemmdh_if342 (BETA : Quat F) (BONE : Bool) (BZERO : Bool) (C : Int) (J : Int) (LDC : Int) (M : Int) : Prog F (Unit) := do
  if BZERO then
    forN (M).toNat (fun i => hgemmdh_130_I C J LDC ((i : Int) + 1))
    pure ()
  else if !BONE then
    forN (M).toNat (fun i => hgemmdh_140_I BETA C J LDC ((i : Int) + 1))
    pure ()
  else
    pure ()

/-- `src/hblas/fortran/hblas3/hgemmdh.f:391-415`, body of `DO 160 I`. -/
def hgemmdh_160_I (A : Int) (C : Int) (HTMPJ : Cplx F) (HTMPS : Cplx F) (J : Int) (L : Int) (LDA : Int) (LDC : Int) (I : Int)  : Prog F (Unit) := do
  let t1 ← rdC (el3 2 2 LDC C 1 I J)
  let t2 ← rdC (el3 2 2 LDA A 1 I L)
  let t3 ← rdC (el3 2 2 LDA A 2 I L)
  wrC (el3 2 2 LDC C 1 I J) (t1 +ᶜ t2 *ᶜ HTMPS -ᶜ t3 *ᶜ Cplx.conj HTMPJ)
  let t4 ← rdC (el3 2 2 LDC C 2 I J)
  let t5 ← rdC (el3 2 2 LDA A 1 I L)
  let t6 ← rdC (el3 2 2 LDA A 2 I L)
  wrC (el3 2 2 LDC C 2 I J) (t4 +ᶜ t5 *ᶜ HTMPJ +ᶜ t6 *ᶜ Cplx.conj HTMPS)
  pure ()

/-- `src/hblas/fortran/hblas3/hgemmdh.f:381-416`, body of `DO 150 L`. -/
def hgemmdh_150_L (A : Int) (ALPHA : F) (B : Int) (C : Int) (J : Int) (LDA : Int) (LDB : Int) (LDC : Int) (M : Int) (L : Int)  : Prog F (Unit) := do
  let t1 ← rdC (el3 2 2 LDB B 1 J L)
  let HTMPS : Cplx F := Cplx.ofReal ALPHA *ᶜ Cplx.conj t1
  let t2 ← rdC (el3 2 2 LDB B 2 J L)
  let HTMPJ : Cplx F := Cplx.neg (Cplx.ofReal ALPHA *ᶜ t2)
  forN (M).toNat (fun i => hgemmdh_160_I A C HTMPJ HTMPS J L LDA LDC ((i : Int) + 1))
  pure ()

/-- `src/hblas/fortran/hblas3/hgemmdh.f:341-417`, body of `DO 120 J`. -/
def hgemmdh_120_J (A : Int) (ALPHA : F) (B : Int) (BETA : Quat F) (BONE : Bool) (BZERO : Bool) (C : Int) (K : Int) (LDA : Int) (LDB : Int) (LDC : Int) (M : Int) (J : Int)  : Prog F (Unit) := do
  hgemmdh_if342 BETA BONE BZERO C J LDC M
  forN (K).toNat (fun i => hgemmdh_150_L A ALPHA B C J LDA LDB LDC M ((i : Int) + 1))
  pure ()

/-- `src/hblas/fortran/hblas3/hgemmdh.f:425-432`, body of `DO 180 I`. -/
def hgemmdh_180_I (C : Int) (J : Int) (LDC : Int) (I : Int)  : Prog F (Unit) := do
  wrC (el3 2 2 LDC C 1 I J) (⟨zero, zero⟩ : Cplx F)
  wrC (el3 2 2 LDC C 2 I J) (⟨zero, zero⟩ : Cplx F)
  pure ()

/-- `src/hblas/fortran/hblas3/hgemmdh.f:434-460`, body of `DO 190 I`. -/
def hgemmdh_190_I (BETA : Quat F) (C : Int) (J : Int) (LDC : Int) (I : Int)  : Prog F (Unit) := do
  let t1 ← rdC (el3 2 2 LDC C 1 I J)
  let t2 ← rdC (el3 2 2 LDC C 2 I J)
  let HTMPS : Cplx F := Quat.lo BETA *ᶜ t1 -ᶜ Quat.hi BETA *ᶜ Cplx.conj t2
  let t3 ← rdC (el3 2 2 LDC C 2 I J)
  let t4 ← rdC (el3 2 2 LDC C 1 I J)
  wrC (el3 2 2 LDC C 2 I J) (Quat.lo BETA *ᶜ t3 +ᶜ Quat.hi BETA *ᶜ Cplx.conj t4)
  wrC (el3 2 2 LDC C 1 I J) HTMPS
  pure ()

/-- `src/hblas/fortran/hblas3/hgemmdh.f:424-461`. -/
def hgemmdh_if424 (BETA : Quat F) (BONE : Bool) (BZERO : Bool) (C : Int) (J : Int) (LDC : Int) (M : Int) : Prog F (Unit) := do
  if BZERO then
    forN (M).toNat (fun i => hgemmdh_180_I C J LDC ((i : Int) + 1))
    pure ()
  else if !BONE then
    forN (M).toNat (fun i => hgemmdh_190_I BETA C J LDC ((i : Int) + 1))
    pure ()
  else
    pure ()

/-- `src/hblas/fortran/hblas3/hgemmdh.f:472-496`, body of `DO 210 I`. -/
def hgemmdh_210_I (A : Int) (C : Int) (HTMPJ : Cplx F) (HTMPS : Cplx F) (J : Int) (L : Int) (LDA : Int) (LDC : Int) (I : Int)  : Prog F (Unit) := do
  let t1 ← rdC (el3 2 2 LDC C 1 I J)
  let t2 ← rdC (el3 2 2 LDA A 1 I L)
  let t3 ← rdC (el3 2 2 LDA A 2 I L)
  wrC (el3 2 2 LDC C 1 I J) (t1 +ᶜ t2 *ᶜ HTMPS -ᶜ t3 *ᶜ Cplx.conj HTMPJ)
  let t4 ← rdC (el3 2 2 LDC C 2 I J)
  let t5 ← rdC (el3 2 2 LDA A 1 I L)
  let t6 ← rdC (el3 2 2 LDA A 2 I L)
  wrC (el3 2 2 LDC C 2 I J) (t4 +ᶜ t5 *ᶜ HTMPJ +ᶜ t6 *ᶜ Cplx.conj HTMPS)
  pure ()

/-- `src/hblas/fortran/hblas3/hgemmdh.f:463-497`, body of `DO 200 L`. -/
def hgemmdh_200_L (A : Int) (ALPHA : F) (B : Int) (C : Int) (J : Int) (LDA : Int) (LDB : Int) (LDC : Int) (M : Int) (L : Int)  : Prog F (Unit) := do
  let t1 ← rdC (el3 2 2 LDB B 1 J L)
  let HTMPS : Cplx F := Cplx.ofReal ALPHA *ᶜ t1
  let t2 ← rdC (el3 2 2 LDB B 2 J L)
  let HTMPJ : Cplx F := Cplx.ofReal ALPHA *ᶜ t2
  forN (M).toNat (fun i => hgemmdh_210_I A C HTMPJ HTMPS J L LDA LDC ((i : Int) + 1))
  pure ()

/-- `src/hblas/fortran/hblas3/hgemmdh.f:423-498`, body of `DO 170 J`. -/
def hgemmdh_170_J (A : Int) (ALPHA : F) (B : Int) (BETA : Quat F) (BONE : Bool) (BZERO : Bool) (C : Int) (K : Int) (LDA : Int) (LDB : Int) (LDC : Int) (M : Int) (J : Int)  : Prog F (Unit) := do
  hgemmdh_if424 BETA BONE BZERO C J LDC M
  forN (K).toNat (fun i => hgemmdh_200_L A ALPHA B C J LDA LDB LDC M ((i : Int) + 1))
  pure ()

/-- `src/hblas/fortran/hblas3/hgemmdh.f:337-499`. -/
def hgemmdh_if337 (A : Int) (ALPHA : F) (B : Int) (BETA : Quat F) (BONE : Bool) (BZERO : Bool) (C : Int) (CONJB : Bool) (K : Int) (LDA : Int) (LDB : Int) (LDC : Int) (M : Int) (N : Int) : Prog F (Unit) := do
  if CONJB then
    forN (N).toNat (fun i => hgemmdh_120_J A ALPHA B BETA BONE BZERO C K LDA LDB LDC M ((i : Int) + 1))
    pure ()
  else
    forN (N).toNat (fun i => hgemmdh_170_J A ALPHA B BETA BONE BZERO C K LDA LDB LDC M ((i : Int) + 1))
    pure ()

/-- `src/hblas/fortran/hblas3/hgemmdh.f:513-534`, body of `DO 230 L`. -/
def hgemmdh_230_L (A : Int) (B : Int) (I : Int) (J : Int) (LDA : Int) (LDB : Int) (L : Int) (HTMPJ : Cplx F) (HTMPS : Cplx F) : Prog F (Cplx F × Cplx F) := do
  let t1 ← rdC (el3 2 2 LDA A 1 L I)
  let t2 ← rdC (el3 2 2 LDB B 1 J L)
  let t3 ← rdC (el3 2 2 LDA A 2 L I)
  let t4 ← rdC (el3 2 2 LDB B 2 J L)
  let HTMPS : Cplx F := HTMPS +ᶜ Cplx.conj t1 *ᶜ Cplx.conj t2 -ᶜ t3 *ᶜ Cplx.conj t4
  let t5 ← rdC (el3 2 2 LDA A 1 L I)
  let t6 ← rdC (el3 2 2 LDB B 2 J L)
  let t7 ← rdC (el3 2 2 LDA A 2 L I)
  let t8 ← rdC (el3 2 2 LDB B 1 J L)
  let HTMPJ : Cplx F := HTMPJ -ᶜ Cplx.conj t5 *ᶜ t6 -ᶜ t7 *ᶜ t8
  pure (HTMPJ, HTMPS)

/-- `src/hblas/fortran/hblas3/hgemmdh.f:506-574`, body of `DO 220 I`. -/
def hgemmdh_220_I (A : Int) (ALPHA : F) (B : Int) (BETA : Quat F) (BZERO : Bool) (C : Int) (J : Int) (K : Int) (LDA : Int) (LDB : Int) (LDC : Int) (I : Int)  : Prog F (Unit) := do
  let HTMPS : Cplx F := (⟨zero, zero⟩ : Cplx F)
  let HTMPJ : Cplx F := (⟨zero, zero⟩ : Cplx F)
  let r ← foldN (K).toNat (fun i (s : Cplx F × Cplx F) => hgemmdh_230_L A B I J LDA LDB ((i : Int) + 1) s.1 s.2) (HTMPJ, HTMPS)
  let HTMPJ : Cplx F := r.1
  let HTMPS : Cplx F := r.2
  let _ ← (do
    if BZERO then
      wrC (el3 2 2 LDC C 1 I J) (Cplx.ofReal ALPHA *ᶜ HTMPS)
      wrC (el3 2 2 LDC C 2 I J) (Cplx.ofReal ALPHA *ᶜ HTMPJ)
      pure ()
    else
      let t1 ← rdC (el3 2 2 LDC C 1 I J)
      let t2 ← rdC (el3 2 2 LDC C 2 I J)
      let HTMPS : Cplx F := Cplx.ofReal ALPHA *ᶜ HTMPS +ᶜ Quat.lo BETA *ᶜ t1 -ᶜ Quat.hi BETA *ᶜ Cplx.conj t2
      let t3 ← rdC (el3 2 2 LDC C 2 I J)
      let t4 ← rdC (el3 2 2 LDC C 1 I J)
      wrC (el3 2 2 LDC C 2 I J) (Cplx.ofReal ALPHA *ᶜ HTMPJ +ᶜ Quat.lo BETA *ᶜ t3 +ᶜ Quat.hi BETA *ᶜ Cplx.conj t4)
      wrC (el3 2 2 LDC C 1 I J) HTMPS
      pure () : Prog F Unit)
  pure ()

/-- `src/hblas/fortran/hblas3/hgemmdh.f:505-574`, body of `DO 220 J`. -/
def hgemmdh_220_J (A : Int) (ALPHA : F) (B : Int) (BETA : Quat F) (BZERO : Bool) (C : Int) (K : Int) (LDA : Int) (LDB : Int) (LDC : Int) (M : Int) (J : Int)  : Prog F (Unit) := do
  forN (M).toNat (fun i => hgemmdh_220_I A ALPHA B BETA BZERO C J K LDA LDB LDC ((i : Int) + 1))
  pure ()

/-- `src/hblas/fortran/hblas3/hgemmdh.f:588-608`, body of `DO 250 L`. -/
def hgemmdh_250_L (A : Int) (B : Int) (I : Int) (J : Int) (LDA : Int) (LDB : Int) (L : Int) (HTMPJ : Cplx F) (HTMPS : Cplx F) : Prog F (Cplx F × Cplx F) := do
  let t1 ← rdC (el3 2 2 LDA A 1 L I)
  let t2 ← rdC (el3 2 2 LDB B 1 J L)
  let t3 ← rdC (el3 2 2 LDA A 2 L I)
  let t4 ← rdC (el3 2 2 LDB B 2 J L)
  let HTMPS : Cplx F := HTMPS +ᶜ Cplx.conj t1 *ᶜ t2 +ᶜ t3 *ᶜ Cplx.conj t4
  let t5 ← rdC (el3 2 2 LDA A 1 L I)
  let t6 ← rdC (el3 2 2 LDB B 2 J L)
  let t7 ← rdC (el3 2 2 LDA A 2 L I)
  let t8 ← rdC (el3 2 2 LDB B 1 J L)
  let HTMPJ : Cplx F := HTMPJ +ᶜ Cplx.conj t5 *ᶜ t6 -ᶜ t7 *ᶜ Cplx.conj t8
  pure (HTMPJ, HTMPS)

/-- `src/hblas/fortran/hblas3/hgemmdh.f:581-648`, body of `DO 240 I`. -/
def hgemmdh_240_I (A : Int) (ALPHA : F) (B : Int) (BETA : Quat F) (BZERO : Bool) (C : Int) (J : Int) (K : Int) (LDA : Int) (LDB : Int) (LDC : Int) (I : Int)  : Prog F (Unit) := do
  let HTMPS : Cplx F := (⟨zero, zero⟩ : Cplx F)
  let HTMPJ : Cplx F := (⟨zero, zero⟩ : Cplx F)
  let r ← foldN (K).toNat (fun i (s : Cplx F × Cplx F) => hgemmdh_250_L A B I J LDA LDB ((i : Int) + 1) s.1 s.2) (HTMPJ, HTMPS)
  let HTMPJ : Cplx F := r.1
  let HTMPS : Cplx F := r.2
  let _ ← (do
    if BZERO then
      wrC (el3 2 2 LDC C 1 I J) (Cplx.ofReal ALPHA *ᶜ HTMPS)
      wrC (el3 2 2 LDC C 2 I J) (Cplx.ofReal ALPHA *ᶜ HTMPJ)
      pure ()
    else
      let t1 ← rdC (el3 2 2 LDC C 1 I J)
      let t2 ← rdC (el3 2 2 LDC C 2 I J)
      let HTMPS : Cplx F := Cplx.ofReal ALPHA *ᶜ HTMPS +ᶜ Quat.lo BETA *ᶜ t1 -ᶜ Quat.hi BETA *ᶜ Cplx.conj t2
      let t3 ← rdC (el3 2 2 LDC C 2 I J)
      let t4 ← rdC (el3 2 2 LDC C 1 I J)
      wrC (el3 2 2 LDC C 2 I J) (Cplx.ofReal ALPHA *ᶜ HTMPJ +ᶜ Quat.lo BETA *ᶜ t3 +ᶜ Quat.hi BETA *ᶜ Cplx.conj t4)
      wrC (el3 2 2 LDC C 1 I J) HTMPS
      pure () : Prog F Unit)
  pure ()

/-- `src/hblas/fortran/hblas3/hgemmdh.f:580-648`, body of `DO 240 J`. -/
def hgemmdh_240_J (A : Int) (ALPHA : F) (B : Int) (BETA : Quat F) (BZERO : Bool) (C : Int) (K : Int) (LDA : Int) (LDB : Int) (LDC : Int) (M : Int) (J : Int)  : Prog F (Unit) := do
  forN (M).toNat (fun i => hgemmdh_240_I A ALPHA B BETA BZERO C J K LDA LDB LDC ((i : Int) + 1))
  pure ()

/-- `src/hblas/fortran/hblas3/hgemmdh.f:501-649`. -/
def hgemmdh_if501 (A : Int) (ALPHA : F) (B : Int) (BETA : Quat F) (BZERO : Bool) (C : Int) (CONJB : Bool) (K : Int) (LDA : Int) (LDB : Int) (LDC : Int) (M : Int) (N : Int) : Prog F (Unit) := do
  if CONJB then
    forN (N).toNat (fun i => hgemmdh_220_J A ALPHA B BETA BZERO C K LDA LDB LDC M ((i : Int) + 1))
    pure ()
  else
    forN (N).toNat (fun i => hgemmdh_240_J A ALPHA B BETA BZERO C K LDA LDB LDC M ((i : Int) + 1))
    pure ()

/-- `src/hblas/fortran/hblas3/hgemmdh.f:662-682`, body of `DO 270 L`. -/
def hgemmdh_270_L (A : Int) (B : Int) (I : Int) (J : Int) (LDA : Int) (LDB : Int) (L : Int) (HTMPJ : Cplx F) (HTMPS : Cplx F) : Prog F (Cplx F × Cplx F) := do
  let t1 ← rdC (el3 2 2 LDA A 1 L I)
  let t2 ← rdC (el3 2 2 LDB B 1 J L)
  let t3 ← rdC (el3 2 2 LDA A 2 L I)
  let t4 ← rdC (el3 2 2 LDB B 2 J L)
  let HTMPS : Cplx F := HTMPS +ᶜ t1 *ᶜ Cplx.conj t2 +ᶜ t3 *ᶜ Cplx.conj t4
  let t5 ← rdC (el3 2 2 LDA A 1 L I)
  let t6 ← rdC (el3 2 2 LDB B 2 J L)
  let t7 ← rdC (el3 2 2 LDA A 2 L I)
  let t8 ← rdC (el3 2 2 LDB B 1 J L)
  let HTMPJ : Cplx F := HTMPJ -ᶜ t5 *ᶜ t6 +ᶜ t7 *ᶜ t8
  pure (HTMPJ, HTMPS)

/-- `src/hblas/fortran/hblas3/hgemmdh.f:657-722`, body of `DO 260 I`. -/
def hgemmdh_260_I (A : Int) (ALPHA : F) (B : Int) (BETA : Quat F) (BZERO : Bool) (C : Int) (J : Int) (K : Int) (LDA : Int) (LDB : Int) (LDC : Int) (I : Int)  : Prog F (Unit) := do
  let HTMPS : Cplx F := (⟨zero, zero⟩ : Cplx F)
  -- HTMPI (line 659) is never read
  let HTMPJ : Cplx F := (⟨zero, zero⟩ : Cplx F)
  -- HTMPK (line 661) is never read
  let r ← foldN (K).toNat (fun i (s : Cplx F × Cplx F) => hgemmdh_270_L A B I J LDA LDB ((i : Int) + 1) s.1 s.2) (HTMPJ, HTMPS)
  let HTMPJ : Cplx F := r.1
  let HTMPS : Cplx F := r.2
  let _ ← (do
    if BZERO then
      wrC (el3 2 2 LDC C 1 I J) (Cplx.ofReal ALPHA *ᶜ HTMPS)
      wrC (el3 2 2 LDC C 2 I J) (Cplx.ofReal ALPHA *ᶜ HTMPJ)
      pure ()
    else
      let t1 ← rdC (el3 2 2 LDC C 1 I J)
      let t2 ← rdC (el3 2 2 LDC C 2 I J)
      let HTMPS : Cplx F := Cplx.ofReal ALPHA *ᶜ HTMPS +ᶜ Quat.lo BETA *ᶜ t1 -ᶜ Quat.hi BETA *ᶜ Cplx.conj t2
      let t3 ← rdC (el3 2 2 LDC C 2 I J)
      let t4 ← rdC (el3 2 2 LDC C 1 I J)
      wrC (el3 2 2 LDC C 2 I J) (Cplx.ofReal ALPHA *ᶜ HTMPJ +ᶜ Quat.lo BETA *ᶜ t3 +ᶜ Quat.hi BETA *ᶜ Cplx.conj t4)
      wrC (el3 2 2 LDC C 1 I J) HTMPS
      pure () : Prog F Unit)
  pure ()

/-- `src/hblas/fortran/hblas3/hgemmdh.f:656-722`, body of `DO 260 J`. -/
def hgemmdh_260_J (A : Int) (ALPHA : F) (B : Int) (BETA : Quat F) (BZERO : Bool) (C : Int) (K : Int) (LDA : Int) (LDB : Int) (LDC : Int) (M : Int) (J : Int)  : Prog F (Unit) := do
  forN (M).toNat (fun i => hgemmdh_260_I A ALPHA B BETA BZERO C J K LDA LDB LDC ((i : Int) + 1))
  pure ()

/-- `src/hblas/fortran/hblas3/hgemmdh.f:735-755`, body of `DO 290 L`. -/
def hgemmdh_290_L (A : Int) (B : Int) (I : Int) (J : Int) (LDA : Int) (LDB : Int) (L : Int) (HTMPJ : Cplx F) (HTMPS : Cplx F) : Prog F (Cplx F × Cplx F) := do
  let t1 ← rdC (el3 2 2 LDA A 1 L I)
  let t2 ← rdC (el3 2 2 LDB B 1 J L)
  let t3 ← rdC (el3 2 2 LDA A 2 L I)
  let t4 ← rdC (el3 2 2 LDB B 2 J L)
  let HTMPS : Cplx F := HTMPS +ᶜ t1 *ᶜ t2 -ᶜ t3 *ᶜ Cplx.conj t4
  let t5 ← rdC (el3 2 2 LDA A 1 L I)
  let t6 ← rdC (el3 2 2 LDB B 2 J L)
  let t7 ← rdC (el3 2 2 LDA A 2 L I)
  let t8 ← rdC (el3 2 2 LDB B 1 J L)
  let HTMPJ : Cplx F := HTMPJ +ᶜ t5 *ᶜ t6 +ᶜ t7 *ᶜ Cplx.conj t8
  pure (HTMPJ, HTMPS)

/-- `src/hblas/fortran/hblas3/hgemmdh.f:728-795`, body of `DO 280 I`. -/
def hgemmdh_280_I (A : Int) (ALPHA : F) (B : Int) (BETA : Quat F) (BZERO : Bool) (C : Int) (J : Int) (K : Int) (LDA : Int) (LDB : Int) (LDC : Int) (I : Int)  : Prog F (Unit) := do
  let HTMPS : Cplx F := (⟨zero, zero⟩ : Cplx F)
  let HTMPJ : Cplx F := (⟨zero, zero⟩ : Cplx F)
  let r ← foldN (K).toNat (fun i (s : Cplx F × Cplx F) => hgemmdh_290_L A B I J LDA LDB ((i : Int) + 1) s.1 s.2) (HTMPJ, HTMPS)
  let HTMPJ : Cplx F := r.1
  let HTMPS : Cplx F := r.2
  let _ ← (do
    if BZERO then
      wrC (el3 2 2 LDC C 1 I J) (Cplx.ofReal ALPHA *ᶜ HTMPS)
      wrC (el3 2 2 LDC C 2 I J) (Cplx.ofReal ALPHA *ᶜ HTMPJ)
      pure ()
    else
      let t1 ← rdC (el3 2 2 LDC C 1 I J)
      let t2 ← rdC (el3 2 2 LDC C 2 I J)
      let HTMPS : Cplx F := Cplx.ofReal ALPHA *ᶜ HTMPS +ᶜ Quat.lo BETA *ᶜ t1 -ᶜ Quat.hi BETA *ᶜ Cplx.conj t2
      let t3 ← rdC (el3 2 2 LDC C 2 I J)
      let t4 ← rdC (el3 2 2 LDC C 1 I J)
      wrC (el3 2 2 LDC C 2 I J) (Cplx.ofReal ALPHA *ᶜ HTMPJ +ᶜ Quat.lo BETA *ᶜ t3 +ᶜ Quat.hi BETA *ᶜ Cplx.conj t4)
      wrC (el3 2 2 LDC C 1 I J) HTMPS
      pure () : Prog F Unit)
  pure ()

/-- `src/hblas/fortran/hblas3/hgemmdh.f:727-795`, body of `DO 280 J`. -/
def hgemmdh_280_J (A : Int) (ALPHA : F) (B : Int) (BETA : Quat F) (BZERO : Bool) (C : Int) (K : Int) (LDA : Int) (LDB : Int) (LDC : Int) (M : Int) (J : Int)  : Prog F (Unit) := do
  forN (M).toNat (fun i => hgemmdh_280_I A ALPHA B BETA BZERO C J K LDA LDB LDC ((i : Int) + 1))
  pure ()

/-- `src/hblas/fortran/hblas3/hgemmdh.f:652-796`. -/
def hgemmdh_if652 (A : Int) (ALPHA : F) (B : Int) (BETA : Quat F) (BZERO : Bool) (C : Int) (CONJB : Bool) (K : Int) (LDA : Int) (LDB : Int) (LDC : Int) (M : Int) (N : Int) : Prog F (Unit) := do
  if CONJB then
    forN (N).toNat (fun i => hgemmdh_260_J A ALPHA B BETA BZERO C K LDA LDB LDC M ((i : Int) + 1))
    pure ()
  else
    forN (N).toNat (fun i => hgemmdh_280_J A ALPHA B BETA BZERO C K LDA LDB LDC M ((i : Int) + 1))
    pure ()

/-- `src/hblas/fortran/hblas3/hgemmdh.f:107-797`. -/
def hgemmdh_if107 (A : Int) (ALPHA : F) (B : Int) (BETA : Quat F) (BONE : Bool) (BZERO : Bool) (C : Int) (CONJA : Bool) (CONJB : Bool) (K : Int) (LDA : Int) (LDB : Int) (LDC : Int) (M : Int) (N : Int) (NOTA : Bool) (NOTB : Bool) : Prog F (Unit) := do
  if NOTB then
    hgemmdh_if108 A ALPHA B BETA BONE BZERO C CONJA K LDA LDB LDC M N NOTA
    pure ()
  else if NOTA then
    hgemmdh_if337 A ALPHA B BETA BONE BZERO C CONJB K LDA LDB LDC M N
    pure ()
  else if CONJA then
    hgemmdh_if501 A ALPHA B BETA BZERO C CONJB K LDA LDB LDC M N
    pure ()
  else
    hgemmdh_if652 A ALPHA B BETA BZERO C CONJB K LDA LDB LDC M N
    pure ()

/-- `src/hblas/fortran/hblas3/hgemmdh.f:10-798`. -/
def hgemmdh (TRANSA : Char) (TRANSB : Char) (M : Int) (N : Int) (K : Int) (ALPHA : F) (A : Int) (LDA : Int) (B : Int) (LDB : Int) (BETA : Quat F) (C : Int) (LDC : Int) : Prog F (Unit) := do
  let NOTA : Bool := lsame TRANSA 'N'
  let NOTB : Bool := lsame TRANSB 'N'
  let CONJA : Bool := lsame TRANSA 'C'
  let CONJB : Bool := lsame TRANSB 'C'
  let AZERO : Bool := Cplx.feq (Cplx.ofReal ALPHA) (⟨zero, zero⟩ : Cplx F)
  -- AONE (line 43) is never read
  let BZERO : Bool := (Cplx.feq (Quat.lo BETA) (⟨zero, zero⟩ : Cplx F)) && (Cplx.feq (Quat.hi BETA) (⟨zero, zero⟩ : Cplx F))
  let BONE : Bool := (Cplx.feq (Quat.lo BETA) (⟨one, zero⟩ : Cplx F)) && (Cplx.feq (Quat.hi BETA) (⟨zero, zero⟩ : Cplx F))
  if (decide (M = 0)) || (decide (N = 0)) then
    pure ()
  else
    if (AZERO || (decide (K = 0))) && BONE then
      pure ()
    else
      if AZERO then
        hgemmdh_if64 BETA BZERO C LDC M N
        pure ()
      else
        hgemmdh_if107 A ALPHA B BETA BONE BZERO C CONJA CONJB K LDA LDB LDC M N NOTA NOTB
        pure ()

end Haxx
