import Verif.Fortran

/-!
# Fortran GEMM, dz

Generated by `tools/f2lean.py` from the Fortran sources cited on each definition; do not edit.
-/

set_option linter.unusedVariables false

namespace Haxx
open Arith

variable {F : Type} [Arith F] [ArithEq F]

/-- `src/hblas/fortran/hblas3/hgemmdz.f:64-71`, body of `DO 10 I`. -/
def hgemmdz_10_I (C : Int) (J : Int) (LDC : Int) (I : Int)  : Prog F (Unit) := do
  wrC (el3 2 2 LDC C 1 I J) (⟨zero, zero⟩ : Cplx F)
  wrC (el3 2 2 LDC C 2 I J) (⟨zero, zero⟩ : Cplx F)
  pure ()

/-- `src/hblas/fortran/hblas3/hgemmdz.f:63-71`, body of `DO 10 J`. -/
def hgemmdz_10_J (C : Int) (LDC : Int) (M : Int) (J : Int)  : Prog F (Unit) := do
  forN (M).toNat (fun i => hgemmdz_10_I C J LDC ((i : Int) + 1))
  pure ()

/-- `src/hblas/fortran/hblas3/hgemmdz.f:74-95`, body of `DO 20 I`. -/
def hgemmdz_20_I (BETA : Cplx F) (C : Int) (J : Int) (LDC : Int) (I : Int)  : Prog F (Unit) := do
  let t1 ← rdC (el3 2 2 LDC C 1 I J)
  wrC (el3 2 2 LDC C 1 I J) (BETA *ᶜ t1)
  let t2 ← rdC (el3 2 2 LDC C 2 I J)
  wrC (el3 2 2 LDC C 2 I J) (BETA *ᶜ t2)
  pure ()

/-- `src/hblas/fortran/hblas3/hgemmdz.f:73-95`, body of `DO 20 J`. -/
def hgemmdz_20_J (BETA : Cplx F) (C : Int) (LDC : Int) (M : Int) (J : Int)  : Prog F (Unit) := do
  forN (M).toNat (fun i => hgemmdz_20_I BETA C J LDC ((i : Int) + 1))
  pure ()

/-- `src/hblas/fortran/hblas3/hgemmdz.f:62-96`. -/
def hgemmdz_if62 (BETA : Cplx F) (BZERO : Bool) (C : Int) (LDC : Int) (M : Int) (N : Int) : Prog F (Unit) := do
  if BZERO then
    forN (N).toNat (fun i => hgemmdz_10_J C LDC M ((i : Int) + 1))
    pure ()
  else
    forN (N).toNat (fun i => hgemmdz_20_J BETA C LDC M ((i : Int) + 1))
    pure ()

/-- `src/hblas/fortran/hblas3/hgemmdz.f:107-114`, body of `DO 40 I`. -/
def hgemmdz_40_I (C : Int) (J : Int) (LDC : Int) (I : Int)  : Prog F (Unit) := do
  wrC (el3 2 2 LDC C 1 I J) (⟨zero, zero⟩ : Cplx F)
  wrC (el3 2 2 LDC C 2 I J) (⟨zero, zero⟩ : Cplx F)
  pure ()

/-- `src/hblas/fortran/hblas3/hgemmdz.f:116-137`, body of `DO 50 I`. -/
def hgemmdz_50_I (BETA : Cplx F) (C : Int) (J : Int) (LDC : Int) (I : Int)  : Prog F (Unit) := do
  let t1 ← rdC (el3 2 2 LDC C 1 I J)
  wrC (el3 2 2 LDC C 1 I J) (BETA *ᶜ t1)
  let t2 ← rdC (el3 2 2 LDC C 2 I J)
  wrC (el3 2 2 LDC C 2 I J) (BETA *ᶜ t2)
  pure ()

/-- `src/hblas/fortran/hblas3/hgemmdz.f:106-138`. -/
def hgemmdz_if106 (BETA : Cplx F) (BONE : Bool) (BZERO : Bool) (C : Int) (J : Int) (LDC : Int) (M : Int) : Prog F (Unit) := do
  if BZERO then
    forN (M).toNat (fun i => hgemmdz_40_I C J LDC ((i : Int) + 1))
    pure ()
  else if !BONE then
    forN (M).toNat (fun i => hgemmdz_50_I BETA C J LDC ((i : Int) + 1))
    pure ()
  else
    pure ()

/-- `src/hblas/fortran/hblas3/hgemmdz.f:149-173`, body of `DO 70 I`. -/
def hgemmdz_70_I (A : Int) (C : Int) (HTMPJ : Cplx F) (HTMPS : Cplx F) (J : Int) (L : Int) (LDA : Int) (LDC : Int) (I : Int)  : Prog F (Unit) := do
  let t1 ← rdC (el3 2 2 LDC C 1 I J)
  let t2 ← rdC (el3 2 2 LDA A 1 I L)
  let t3 ← rdC (el3 2 2 LDA A 2 I L)
  wrC (el3 2 2 LDC C 1 I J) (t1 +ᶜ t2 *ᶜ HTMPS -ᶜ t3 *ᶜ Cplx.conj HTMPJ)
  let t4 ← rdC (el3 2 2 LDC C 2 I J)
  let t5 ← rdC (el3 2 2 LDA A 1 I L)
  let t6 ← rdC (el3 2 2 LDA A 2 I L)
  wrC (el3 2 2 LDC C 2 I J) (t4 +ᶜ t5 *ᶜ HTMPJ +ᶜ t6 *ᶜ Cplx.conj HTMPS)
  pure ()

/-- `src/hblas/fortran/hblas3/hgemmdz.f:140-174`, body of `DO 60 L`. -/
def hgemmdz_60_L (A : Int) (ALPHA : F) (B : Int) (C : Int) (J : Int) (LDA : Int) (LDB : Int) (LDC : Int) (M : Int) (L : Int)  : Prog F (Unit) := do
  let t1 ← rdC (el3 2 2 LDB B 1 L J)
  let HTMPS : Cplx F := Cplx.ofReal ALPHA *ᶜ t1
  let t2 ← rdC (el3 2 2 LDB B 2 L J)
  let HTMPJ : Cplx F := Cplx.ofReal ALPHA *ᶜ t2
  forN (M).toNat (fun i => hgemmdz_70_I A C HTMPJ HTMPS J L LDA LDC ((i : Int) + 1))
  pure ()

/-- `src/hblas/fortran/hblas3/hgemmdz.f:105-175`, body of `DO 30 J`. -/
def hgemmdz_30_J (A : Int) (ALPHA : F) (B : Int) (BETA : Cplx F) (BONE : Bool) (BZERO : Bool) (C : Int) (K : Int) (LDA : Int) (LDB : Int) (LDC : Int) (M : Int) (J : Int)  : Prog F (Unit) := do
  hgemmdz_if106 BETA BONE BZERO C J LDC M
  forN (K).toNat (fun i => hgemmdz_60_L A ALPHA B C J LDA LDB LDC M ((i : Int) + 1))
  pure ()

/-- `src/hblas/fortran/hblas3/hgemmdz.f:188-208`, body of `DO 90 L`. -/
def hgemmdz_90_L (A : Int) (B : Int) (I : Int) (J : Int) (LDA : Int) (LDB : Int) (L : Int) (HTMPJ : Cplx F) (HTMPS : Cplx F) : Prog F (Cplx F × Cplx F) := do
  let t1 ← rdC (el3 2 2 LDA A 1 L I)
  let t2 ← rdC (el3 2 2 LDB B 1 L J)
  let t3 ← rdC (el3 2 2 LDA A 2 L I)
  let t4 ← rdC (el3 2 2 LDB B 2 L J)
  let HTMPS : Cplx F := HTMPS +ᶜ Cplx.conj t1 *ᶜ t2 +ᶜ t3 *ᶜ Cplx.conj t4
  let t5 ← rdC (el3 2 2 LDA A 1 L I)
  let t6 ← rdC (el3 2 2 LDB B 2 L J)
  let t7 ← rdC (el3 2 2 LDA A 2 L I)
  let t8 ← rdC (el3 2 2 LDB B 1 L J)
  let HTMPJ : Cplx F := HTMPJ +ᶜ Cplx.conj t5 *ᶜ t6 -ᶜ t7 *ᶜ Cplx.conj t8
  pure (HTMPJ, HTMPS)

/-- `src/hblas/fortran/hblas3/hgemmdz.f:181-241`, body of `DO 80 I`. -/
def hgemmdz_80_I (A : Int) (ALPHA : F) (B : Int) (BETA : Cplx F) (BZERO : Bool) (C : Int) (J : Int) (K : Int) (LDA : Int) (LDB : Int) (LDC : Int) (I : Int)  : Prog F (Unit) := do
  let HTMPS : Cplx F := (⟨zero, zero⟩ : Cplx F)
  let HTMPJ : Cplx F := (⟨zero, zero⟩ : Cplx F)
  let r ← foldN (K).toNat (fun i (s : Cplx F × Cplx F) => hgemmdz_90_L A B I J LDA LDB ((i : Int) + 1) s.1 s.2) (HTMPJ, HTMPS)
  let HTMPJ : Cplx F := r.1
  let HTMPS : Cplx F := r.2
  let _ ← (do
    if BZERO then
      wrC (el3 2 2 LDC C 1 I J) (Cplx.ofReal ALPHA *ᶜ HTMPS)
      wrC (el3 2 2 LDC C 2 I J) (Cplx.ofReal ALPHA *ᶜ HTMPJ)
      pure ()
    else
      let t1 ← rdC (el3 2 2 LDC C 1 I J)
      wrC (el3 2 2 LDC C 1 I J) (Cplx.ofReal ALPHA *ᶜ HTMPS +ᶜ BETA *ᶜ t1)
      let t2 ← rdC (el3 2 2 LDC C 2 I J)
      wrC (el3 2 2 LDC C 2 I J) (Cplx.ofReal ALPHA *ᶜ HTMPJ +ᶜ BETA *ᶜ t2)
      pure () : Prog F Unit)
  pure ()

/-- `src/hblas/fortran/hblas3/hgemmdz.f:180-241`, body of `DO 80 J`. -/
def hgemmdz_80_J (A : Int) (ALPHA : F) (B : Int) (BETA : Cplx F) (BZERO : Bool) (C : Int) (K : Int) (LDA : Int) (LDB : Int) (LDC : Int) (M : Int) (J : Int)  : Prog F (Unit) := do
  forN (M).toNat (fun i => hgemmdz_80_I A ALPHA B BETA BZERO C J K LDA LDB LDC ((i : Int) + 1))
  pure ()

/-- `src/hblas/fortran/hblas3/hgemmdz.f:255-275`, body of `DO 110 L`. -/
def hgemmdz_110_L (A : Int) (B : Int) (I : Int) (J : Int) (LDA : Int) (LDB : Int) (L : Int) (HTMPJ : Cplx F) (HTMPS : Cplx F) : Prog F (Cplx F × Cplx F) := do
  let t1 ← rdC (el3 2 2 LDA A 1 L I)
  let t2 ← rdC (el3 2 2 LDB B 1 L J)
  let t3 ← rdC (el3 2 2 LDA A 2 L I)
  let t4 ← rdC (el3 2 2 LDB B 2 L J)
  let HTMPS : Cplx F := HTMPS +ᶜ t1 *ᶜ t2 -ᶜ t3 *ᶜ Cplx.conj t4
  let t5 ← rdC (el3 2 2 LDA A 1 L I)
  let t6 ← rdC (el3 2 2 LDB B 2 L J)
  let t7 ← rdC (el3 2 2 LDA A 2 L I)
  let t8 ← rdC (el3 2 2 LDB B 1 L J)
  let HTMPJ : Cplx F := HTMPJ +ᶜ t5 *ᶜ t6 +ᶜ t7 *ᶜ Cplx.conj t8
  pure (HTMPJ, HTMPS)

/-- `src/hblas/fortran/hblas3/hgemmdz.f:248-308`, body of `DO 100 I`. -/
def hgemmdz_100_I (A : Int) (ALPHA : F) (B : Int) (BETA : Cplx F) (BZERO : Bool) (C : Int) (J : Int) (K : Int) (LDA : Int) (LDB : Int) (LDC : Int) (I : Int)  : Prog F (Unit) := do
  let HTMPS : Cplx F := (⟨zero, zero⟩ : Cplx F)
  let HTMPJ : Cplx F := (⟨zero, zero⟩ : Cplx F)
  let r ← foldN (K).toNat (fun i (s : Cplx F × Cplx F) => hgemmdz_110_L A B I J LDA LDB ((i : Int) + 1) s.1 s.2) (HTMPJ, HTMPS)
  let HTMPJ : Cplx F := r.1
  let HTMPS : Cplx F := r.2
  let _ ← (do
    if BZERO then
      wrC (el3 2 2 LDC C 1 I J) (Cplx.ofReal ALPHA *ᶜ HTMPS)
      wrC (el3 2 2 LDC C 2 I J) (Cplx.ofReal ALPHA *ᶜ HTMPJ)
      pure ()
    else
      let t1 ← rdC (el3 2 2 LDC C 1 I J)
      wrC (el3 2 2 LDC C 1 I J) (Cplx.ofReal ALPHA *ᶜ HTMPS +ᶜ BETA *ᶜ t1)
      let t2 ← rdC (el3 2 2 LDC C 2 I J)
      wrC (el3 2 2 LDC C 2 I J) (Cplx.ofReal ALPHA *ᶜ HTMPJ +ᶜ BETA *ᶜ t2)
      pure () : Prog F Unit)
  pure ()

/-- `src/hblas/fortran/hblas3/hgemmdz.f:247-308`, body of `DO 100 J`. -/
def hgemmdz_100_J (A : Int) (ALPHA : F) (B : Int) (BETA : Cplx F) (BZERO : Bool) (C : Int) (K : Int) (LDA : Int) (LDB : Int) (LDC : Int) (M : Int) (J : Int)  : Prog F (Unit) := do
  forN (M).toNat (fun i => hgemmdz_100_I A ALPHA B BETA BZERO C J K LDA LDB LDC ((i : Int) + 1))
  pure ()

/-- `src/hblas/fortran/hblas3/hgemmdz.f:101-309`. -/
def hgemmdz_if101 (A : Int) (ALPHA : F) (B : Int) (BETA : Cplx F) (BONE : Bool) (BZERO : Bool) (C : Int) (CONJA : Bool) (K : Int) (LDA : Int) (LDB : Int) (LDC : Int) (M : Int) (N : Int) (NOTA : Bool) : Prog F (Unit) := do
  if NOTA then
    forN (N).toNat (fun i => hgemmdz_30_J A ALPHA B BETA BONE BZERO C K LDA LDB LDC M ((i : Int) + 1))
    pure ()
  else if CONJA then
    forN (N).toNat (fun i => hgemmdz_80_J A ALPHA B BETA BZERO C K LDA LDB LDC M ((i : Int) + 1))
    pure ()
  else
    forN (N).toNat (fun i => hgemmdz_100_J A ALPHA B BETA BZERO C K LDA LDB LDC M ((i : Int) + 1))
    pure ()

/-- `src/hblas/fortran/hblas3/hgemmdz.f:317-324`, body of `DO 130 I`. -/
def hgemmdz_130_I (C : Int) (J : Int) (LDC : Int) (I : Int)  : Prog F (Unit) := do
  wrC (el3 2 2 LDC C 1 I J) (⟨zero, zero⟩ : Cplx F)
  wrC (el3 2 2 LDC C 2 I J) (⟨zero, zero⟩ : Cplx F)
  pure ()

/-- `src/hblas/fortran/hblas3/hgemmdz.f:326-347`, body of `DO 140 I`. -/
def hgemmdz_140_I (BETA : Cplx F) (C : Int) (J : Int) (LDC : Int) (I : Int)  : Prog F (Unit) := do
  let t1 ← rdC (el3 2 2 LDC C 1 I J)
  wrC (el3 2 2 LDC C 1 I J) (BETA *ᶜ t1)
  let t2 ← rdC (el3 2 2 LDC C 2 I J)
  wrC (el3 2 2 LDC C 2 I J) (BETA *ᶜ t2)
  pure ()

/-- `src/hblas/fortran/hblas3/hgemmdz.f:316-348`. -/
def hgemmdz_if316 (BETA : Cplx F) (BONE : Bool) (BZERO : Bool) (C : Int) (J : Int) (LDC : Int) (M : Int) : Prog F (Unit) := do
  if BZERO then
    forN (M).toNat (fun i => hgemmdz_130_I C J LDC ((i : Int) + 1))
    pure ()
  else if !BONE then
    forN (M).toNat (fun i => hgemmdz_140_I BETA C J LDC ((i : Int) + 1))
    pure ()
  else
    pure ()

/-- `src/hblas/fortran/hblas3/hgemmdz.f:360-384`, body of `DO 160 I`. -/
def hgemmdz_160_I (A : Int) (C : Int) (HTMPJ : Cplx F) (HTMPS : Cplx F) (J : Int) (L : Int) (LDA : Int) (LDC : Int) (I : Int)  : Prog F (Unit) := do
  let t1 ← rdC (el3 2 2 LDC C 1 I J)
  let t2 ← rdC (el3 2 2 LDA A 1 I L)
  let t3 ← rdC (el3 2 2 LDA A 2 I L)
  wrC (el3 2 2 LDC C 1 I J) (t1 +ᶜ t2 *ᶜ HTMPS -ᶜ t3 *ᶜ Cplx.conj HTMPJ)
  let t4 ← rdC (el3 2 2 LDC C 2 I J)
  let t5 ← rdC (el3 2 2 LDA A 1 I L)
  let t6 ← rdC (el3 2 2 LDA A 2 I L)
  wrC (el3 2 2 LDC C 2 I J) (t4 +ᶜ t5 *ᶜ HTMPJ +ᶜ t6 *ᶜ Cplx.conj HTMPS)
  pure ()

/-- `src/hblas/fortran/hblas3/hgemmdz.f:350-385`, body of `DO 150 L`. -/
def hgemmdz_150_L (A : Int) (ALPHA : F) (B : Int) (C : Int) (J : Int) (LDA : Int) (LDB : Int) (LDC : Int) (M : Int) (L : Int)  : Prog F (Unit) := do
  let t1 ← rdC (el3 2 2 LDB B 1 J L)
  let HTMPS : Cplx F := Cplx.ofReal ALPHA *ᶜ Cplx.conj t1
  let t2 ← rdC (el3 2 2 LDB B 2 J L)
  let HTMPJ : Cplx F := Cplx.neg (Cplx.ofReal ALPHA *ᶜ t2)
  forN (M).toNat (fun i => hgemmdz_160_I A C HTMPJ HTMPS J L LDA LDC ((i : Int) + 1))
  pure ()

/-- `src/hblas/fortran/hblas3/hgemmdz.f:315-386`, body of `DO 120 J`. -/
def hgemmdz_120_J (A : Int) (ALPHA : F) (B : Int) (BETA : Cplx F) (BONE : Bool) (BZERO : Bool) (C : Int) (K : Int) (LDA : Int) (LDB : Int) (LDC : Int) (M : Int) (J : Int)  : Prog F (Unit) := do
  hgemmdz_if316 BETA BONE BZERO C J LDC M
  forN (K).toNat (fun i => hgemmdz_150_L A ALPHA B C J LDA LDB LDC M ((i : Int) + 1))
  pure ()

/-- `src/hblas/fortran/hblas3/hgemmdz.f:394-401`, body of `DO 180 I`. -/
def hgemmdz_180_I (C : Int) (J : Int) (LDC : Int) (I : Int)  : Prog F (Unit) := do
  wrC (el3 2 2 LDC C 1 I J) (⟨zero, zero⟩ : Cplx F)
  wrC (el3 2 2 LDC C 2 I J) (⟨zero, zero⟩ : Cplx F)
  pure ()

/-- `src/hblas/fortran/hblas3/hgemmdz.f:403-424`, body of `DO 190 I`. -/
def hgemmdz_190_I (BETA : Cplx F) (C : Int) (J : Int) (LDC : Int) (I : Int)  : Prog F (Unit) := do
  let t1 ← rdC (el3 2 2 LDC C 1 I J)
  wrC (el3 2 2 LDC C 1 I J) (BETA *ᶜ t1)
  let t2 ← rdC (el3 2 2 LDC C 2 I J)
  wrC (el3 2 2 LDC C 2 I J) (BETA *ᶜ t2)
  pure ()

/-- `src/hblas/fortran/hblas3/hgemmdz.f:393-425`. -/
def hgemmdz_if393 (BETA : Cplx F) (BONE : Bool) (BZERO : Bool) (C : Int) (J : Int) (LDC : Int) (M : Int) : Prog F (Unit) := do
  if BZERO then
    forN (M).toNat (fun i => hgemmdz_180_I C J LDC ((i : Int) + 1))
    pure ()
  else if !BONE then
    forN (M).toNat (fun i => hgemmdz_190_I BETA C J LDC ((i : Int) + 1))
    pure ()
  else
    pure ()

/-- `src/hblas/fortran/hblas3/hgemmdz.f:436-460`, body of `DO 210 I`. -/
def hgemmdz_210_I (A : Int) (C : Int) (HTMPJ : Cplx F) (HTMPS : Cplx F) (J : Int) (L : Int) (LDA : Int) (LDC : Int) (I : Int)  : Prog F (Unit) := do
  let t1 ← rdC (el3 2 2 LDC C 1 I J)
  let t2 ← rdC (el3 2 2 LDA A 1 I L)
  let t3 ← rdC (el3 2 2 LDA A 2 I L)
  wrC (el3 2 2 LDC C 1 I J) (t1 +ᶜ t2 *ᶜ HTMPS -ᶜ t3 *ᶜ Cplx.conj HTMPJ)
  let t4 ← rdC (el3 2 2 LDC C 2 I J)
  let t5 ← rdC (el3 2 2 LDA A 1 I L)
  let t6 ← rdC (el3 2 2 LDA A 2 I L)
  wrC (el3 2 2 LDC C 2 I J) (t4 +ᶜ t5 *ᶜ HTMPJ +ᶜ t6 *ᶜ Cplx.conj HTMPS)
  pure ()

/-- `src/hblas/fortran/hblas3/hgemmdz.f:427-461`, body of `DO 200 L`. -/
def hgemmdz_200_L (A : Int) (ALPHA : F) (B : Int) (C : Int) (J : Int) (LDA : Int) (LDB : Int) (LDC : Int) (M : Int) (L : Int)  : Prog F (Unit) := do
  let t1 ← rdC (el3 2 2 LDB B 1 J L)
  let HTMPS : Cplx F := Cplx.ofReal ALPHA *ᶜ t1
  let t2 ← rdC (el3 2 2 LDB B 2 J L)
  let HTMPJ : Cplx F := Cplx.ofReal ALPHA *ᶜ t2
  forN (M).toNat (fun i => hgemmdz_210_I A C HTMPJ HTMPS J L LDA LDC ((i : Int) + 1))
  pure ()

/-- `src/hblas/fortran/hblas3/hgemmdz.f:392-462`, body of `DO 170 J`. -/
def hgemmdz_170_J (A : Int) (ALPHA : F) (B : Int) (BETA : Cplx F) (BONE : Bool) (BZERO : Bool) (C : Int) (K : Int) (LDA : Int) (LDB : Int) (LDC : Int) (M : Int) (J : Int)  : Prog F (Unit) := do
  hgemmdz_if393 BETA BONE BZERO C J LDC M
  forN (K).toNat (fun i => hgemmdz_200_L A ALPHA B C J LDA LDB LDC M ((i : Int) + 1))
  pure ()

/-- `src/hblas/fortran/hblas3/hgemmdz.f:311-463`. -/
def hgemmdz_if311 (A : Int) (ALPHA : F) (B : Int) (BETA : Cplx F) (BONE : Bool) (BZERO : Bool) (C : Int) (CONJB : Bool) (K : Int) (LDA : Int) (LDB : Int) (LDC : Int) (M : Int) (N : Int) : Prog F (Unit) := do
  if CONJB then
    forN (N).toNat (fun i => hgemmdz_120_J A ALPHA B BETA BONE BZERO C K LDA LDB LDC M ((i : Int) + 1))
    pure ()
  else
    forN (N).toNat (fun i => hgemmdz_170_J A ALPHA B BETA BONE BZERO C K LDA LDB LDC M ((i : Int) + 1))
    pure ()

/-- `src/hblas/fortran/hblas3/hgemmdz.f:477-498`, body of `DO 230 L`. -/
def hgemmdz_230_L (A : Int) (B : Int) (I : Int) (J : Int) (LDA : Int) (LDB : Int) (L : Int) (HTMPJ : Cplx F) (HTMPS : Cplx F) : Prog F (Cplx F × Cplx F) := do
  let t1 ← rdC (el3 2 2 LDA A 1 L I)
  let t2 ← rdC (el3 2 2 LDB B 1 J L)
  let t3 ← rdC (el3 2 2 LDA A 2 L I)
  let t4 ← rdC (el3 2 2 LDB B 2 J L)
  let HTMPS : Cplx F := HTMPS +ᶜ Cplx.conj t1 *ᶜ Cplx.conj t2 -ᶜ t3 *ᶜ Cplx.conj t4
  let t5 ← rdC (el3 2 2 LDA A 1 L I)
  let t6 ← rdC (el3 2 2 LDB B 2 J L)
  let t7 ← rdC (el3 2 2 LDA A 2 L I)
  let t8 ← rdC (el3 2 2 LDB B 1 J L)
  let HTMPJ : Cplx F := HTMPJ -ᶜ Cplx.conj t5 *ᶜ t6 -ᶜ t7 *ᶜ t8
  pure (HTMPJ, HTMPS)

/-- `src/hblas/fortran/hblas3/hgemmdz.f:470-531`, body of `DO 220 I`. -/
def hgemmdz_220_I (A : Int) (ALPHA : F) (B : Int) (BETA : Cplx F) (BZERO : Bool) (C : Int) (J : Int) (K : Int) (LDA : Int) (LDB : Int) (LDC : Int) (I : Int)  : Prog F (Unit) := do
  let HTMPS : Cplx F := (⟨zero, zero⟩ : Cplx F)
  let HTMPJ : Cplx F := (⟨zero, zero⟩ : Cplx F)
  let r ← foldN (K).toNat (fun i (s : Cplx F × Cplx F) => hgemmdz_230_L A B I J LDA LDB ((i : Int) + 1) s.1 s.2) (HTMPJ, HTMPS)
  let HTMPJ : Cplx F := r.1
  let HTMPS : Cplx F := r.2
  let _ ← (do
    if BZERO then
      wrC (el3 2 2 LDC C 1 I J) (Cplx.ofReal ALPHA *ᶜ HTMPS)
      wrC (el3 2 2 LDC C 2 I J) (Cplx.ofReal ALPHA *ᶜ HTMPJ)
      pure ()
    else
      let t1 ← rdC (el3 2 2 LDC C 1 I J)
      wrC (el3 2 2 LDC C 1 I J) (Cplx.ofReal ALPHA *ᶜ HTMPS +ᶜ BETA *ᶜ t1)
      let t2 ← rdC (el3 2 2 LDC C 2 I J)
      wrC (el3 2 2 LDC C 2 I J) (Cplx.ofReal ALPHA *ᶜ HTMPJ +ᶜ BETA *ᶜ t2)
      pure () : Prog F Unit)
  pure ()

/-- `src/hblas/fortran/hblas3/hgemmdz.f:469-531`, body of `DO 220 J`. -/
def hgemmdz_220_J (A : Int) (ALPHA : F) (B : Int) (BETA : Cplx F) (BZERO : Bool) (C : Int) (K : Int) (LDA : Int) (LDB : Int) (LDC : Int) (M : Int) (J : Int)  : Prog F (Unit) := do
  forN (M).toNat (fun i => hgemmdz_220_I A ALPHA B BETA BZERO C J K LDA LDB LDC ((i : Int) + 1))
  pure ()

/-- `src/hblas/fortran/hblas3/hgemmdz.f:545-565`, body of `DO 250 L`. -/
def hgemmdz_250_L (A : Int) (B : Int) (I : Int) (J : Int) (LDA : Int) (LDB : Int) (L : Int) (HTMPJ : Cplx F) (HTMPS : Cplx F) : Prog F (Cplx F × Cplx F) := do
  let t1 ← rdC (el3 2 2 LDA A 1 L I)
  let t2 ← rdC (el3 2 2 LDB B 1 J L)
  let t3 ← rdC (el3 2 2 LDA A 2 L I)
  let t4 ← rdC (el3 2 2 LDB B 2 J L)
  let HTMPS : Cplx F := HTMPS +ᶜ Cplx.conj t1 *ᶜ t2 +ᶜ t3 *ᶜ Cplx.conj t4
  let t5 ← rdC (el3 2 2 LDA A 1 L I)
  let t6 ← rdC (el3 2 2 LDB B 2 J L)
  let t7 ← rdC (el3 2 2 LDA A 2 L I)
  let t8 ← rdC (el3 2 2 LDB B 1 J L)
  let HTMPJ : Cplx F := HTMPJ +ᶜ Cplx.conj t5 *ᶜ t6 -ᶜ t7 *ᶜ Cplx.conj t8
  pure (HTMPJ, HTMPS)

/-- `src/hblas/fortran/hblas3/hgemmdz.f:538-598`, body of `DO 240 I`. -/
def hgemmdz_240_I (A : Int) (ALPHA : F) (B : Int) (BETA : Cplx F) (BZERO : Bool) (C : Int) (J : Int) (K : Int) (LDA : Int) (LDB : Int) (LDC : Int) (I : Int)  : Prog F (Unit) := do
  let HTMPS : Cplx F := (⟨zero, zero⟩ : Cplx F)
  let HTMPJ : Cplx F := (⟨zero, zero⟩ : Cplx F)
  let r ← foldN (K).toNat (fun i (s : Cplx F × Cplx F) => hgemmdz_250_L A B I J LDA LDB ((i : Int) + 1) s.1 s.2) (HTMPJ, HTMPS)
  let HTMPJ : Cplx F := r.1
  let HTMPS : Cplx F := r.2
  let _ ← (do
    if BZERO then
      wrC (el3 2 2 LDC C 1 I J) (Cplx.ofReal ALPHA *ᶜ HTMPS)
      wrC (el3 2 2 LDC C 2 I J) (Cplx.ofReal ALPHA *ᶜ HTMPJ)
      pure ()
    else
      let t1 ← rdC (el3 2 2 LDC C 1 I J)
      wrC (el3 2 2 LDC C 1 I J) (Cplx.ofReal ALPHA *ᶜ HTMPS +ᶜ BETA *ᶜ t1)
      let t2 ← rdC (el3 2 2 LDC C 2 I J)
      wrC (el3 2 2 LDC C 2 I J) (Cplx.ofReal ALPHA *ᶜ HTMPJ +ᶜ BETA *ᶜ t2)
      pure () : Prog F Unit)
  pure ()

/-- `src/hblas/fortran/hblas3/hgemmdz.f:537-598`, body of `DO 240 J`. -/
def hgemmdz_240_J (A : Int) (ALPHA : F) (B : Int) (BETA : Cplx F) (BZERO : Bool) (C : Int) (K : Int) (LDA : Int) (LDB : Int) (LDC : Int) (M : Int) (J : Int)  : Prog F (Unit) := do
  forN (M).toNat (fun i => hgemmdz_240_I A ALPHA B BETA BZERO C J K LDA LDB LDC ((i : Int) + 1))
  pure ()

/-- `src/hblas/fortran/hblas3/hgemmdz.f:465-599`. -/
def hgemmdz_if465 (A : Int) (ALPHA : F) (B : Int) (BETA : Cplx F) (BZERO : Bool) (C : Int) (CONJB : Bool) (K : Int) (LDA : Int) (LDB : Int) (LDC : Int) (M : Int) (N : Int) : Prog F (Unit) := do
  if CONJB then
    forN (N).toNat (fun i => hgemmdz_220_J A ALPHA B BETA BZERO C K LDA LDB LDC M ((i : Int) + 1))
    pure ()
  else
    forN (N).toNat (fun i => hgemmdz_240_J A ALPHA B BETA BZERO C K LDA LDB LDC M ((i : Int) + 1))
    pure ()

/-- `src/hblas/fortran/hblas3/hgemmdz.f:612-632`, body of `DO 270 L`. -/
def hgemmdz_270_L (A : Int) (B : Int) (I : Int) (J : Int) (LDA : Int) (LDB : Int) (L : Int) (HTMPJ : Cplx F) (HTMPS : Cplx F) : Prog F (Cplx F × Cplx F) := do
  let t1 ← rdC (el3 2 2 LDA A 1 L I)
  let t2 ← rdC (el3 2 2 LDB B 1 J L)
  let t3 ← rdC (el3 2 2 LDA A 2 L I)
  let t4 ← rdC (el3 2 2 LDB B 2 J L)
  let HTMPS : Cplx F := HTMPS +ᶜ t1 *ᶜ Cplx.conj t2 +ᶜ t3 *ᶜ Cplx.conj t4
  let t5 ← rdC (el3 2 2 LDA A 1 L I)
  let t6 ← rdC (el3 2 2 LDB B 2 J L)
  let t7 ← rdC (el3 2 2 LDA A 2 L I)
  let t8 ← rdC (el3 2 2 LDB B 1 J L)
  let HTMPJ : Cplx F := HTMPJ -ᶜ t5 *ᶜ t6 +ᶜ t7 *ᶜ t8
  pure (HTMPJ, HTMPS)

/-- `src/hblas/fortran/hblas3/hgemmdz.f:607-665`, body of `DO 260 I`. -/
def hgemmdz_260_I (A : Int) (ALPHA : F) (B : Int) (BETA : Cplx F) (BZERO : Bool) (C : Int) (J : Int) (K : Int) (LDA : Int) (LDB : Int) (LDC : Int) (I : Int)  : Prog F (Unit) := do
  let HTMPS : Cplx F := (⟨zero, zero⟩ : Cplx F)
  -- HTMPI (line 609) is never read
  let HTMPJ : Cplx F := (⟨zero, zero⟩ : Cplx F)
  -- HTMPK (line 611) is never read
  let r ← foldN (K).toNat (fun i (s : Cplx F × Cplx F) => hgemmdz_270_L A B I J LDA LDB ((i : Int) + 1) s.1 s.2) (HTMPJ, HTMPS)
  let HTMPJ : Cplx F := r.1
  let HTMPS : Cplx F := r.2
  let _ ← (do
    if BZERO then
      wrC (el3 2 2 LDC C 1 I J) (Cplx.ofReal ALPHA *ᶜ HTMPS)
      wrC (el3 2 2 LDC C 2 I J) (Cplx.ofReal ALPHA *ᶜ HTMPJ)
      pure ()
    else
      let t1 ← rdC (el3 2 2 LDC C 1 I J)
      wrC (el3 2 2 LDC C 1 I J) (Cplx.ofReal ALPHA *ᶜ HTMPS +ᶜ BETA *ᶜ t1)
      let t2 ← rdC (el3 2 2 LDC C 2 I J)
      wrC (el3 2 2 LDC C 2 I J) (Cplx.ofReal ALPHA *ᶜ HTMPJ +ᶜ BETA *ᶜ t2)
      pure () : Prog F Unit)
  pure ()

/-- `src/hblas/fortran/hblas3/hgemmdz.f:606-665`, body of `DO 260 J`. -/
def hgemmdz_260_J (A : Int) (ALPHA : F) (B : Int) (BETA : Cplx F) (BZERO : Bool) (C : Int) (K : Int) (LDA : Int) (LDB : Int) (LDC : Int) (M : Int) (J : Int)  : Prog F (Unit) := do
  forN (M).toNat (fun i => hgemmdz_260_I A ALPHA B BETA BZERO C J K LDA LDB LDC ((i : Int) + 1))
  pure ()

/-- `src/hblas/fortran/hblas3/hgemmdz.f:678-698`, body of `DO 290 L`. -/
def hgemmdz_290_L (A : Int) (B : Int) (I : Int) (J : Int) (LDA : Int) (LDB : Int) (L : Int) (HTMPJ : Cplx F) (HTMPS : Cplx F) : Prog F (Cplx F × Cplx F) := do
  let t1 ← rdC (el3 2 2 LDA A 1 L I)
  let t2 ← rdC (el3 2 2 LDB B 1 J L)
  let t3 ← rdC (el3 2 2 LDA A 2 L I)
  let t4 ← rdC (el3 2 2 LDB B 2 J L)
  let HTMPS : Cplx F := HTMPS +ᶜ t1 *ᶜ t2 -ᶜ t3 *ᶜ Cplx.conj t4
  let t5 ← rdC (el3 2 2 LDA A 1 L I)
  let t6 ← rdC (el3 2 2 LDB B 2 J L)
  let t7 ← rdC (el3 2 2 LDA A 2 L I)
  let t8 ← rdC (el3 2 2 LDB B 1 J L)
  let HTMPJ : Cplx F := HTMPJ +ᶜ t5 *ᶜ t6 +ᶜ t7 *ᶜ Cplx.conj t8
  pure (HTMPJ, HTMPS)

/-- `src/hblas/fortran/hblas3/hgemmdz.f:671-731`, body of `DO 280 I`. -/
def hgemmdz_280_I (A : Int) (ALPHA : F) (B : Int) (BETA : Cplx F) (BZERO : Bool) (C : Int) (J : Int) (K : Int) (LDA : Int) (LDB : Int) (LDC : Int) (I : Int)  : Prog F (Unit) := do
  let HTMPS : Cplx F := (⟨zero, zero⟩ : Cplx F)
  let HTMPJ : Cplx F := (⟨zero, zero⟩ : Cplx F)
  let r ← foldN (K).toNat (fun i (s : Cplx F × Cplx F) => hgemmdz_290_L A B I J LDA LDB ((i : Int) + 1) s.1 s.2) (HTMPJ, HTMPS)
  let HTMPJ : Cplx F := r.1
  let HTMPS : Cplx F := r.2
  let _ ← (do
    if BZERO then
      wrC (el3 2 2 LDC C 1 I J) (Cplx.ofReal ALPHA *ᶜ HTMPS)
      wrC (el3 2 2 LDC C 2 I J) (Cplx.ofReal ALPHA *ᶜ HTMPJ)
      pure ()
    else
      let t1 ← rdC (el3 2 2 LDC C 1 I J)
      wrC (el3 2 2 LDC C 1 I J) (Cplx.ofReal ALPHA *ᶜ HTMPS +ᶜ BETA *ᶜ t1)
      let t2 ← rdC (el3 2 2 LDC C 2 I J)
      wrC (el3 2 2 LDC C 2 I J) (Cplx.ofReal ALPHA *ᶜ HTMPJ +ᶜ BETA *ᶜ t2)
      pure () : Prog F Unit)
  pure ()

/-- `src/hblas/fortran/hblas3/hgemmdz.f:670-731`, body of `DO 280 J`. -/
def hgemmdz_280_J (A : Int) (ALPHA : F) (B : Int) (BETA : Cplx F) (BZERO : Bool) (C : Int) (K : Int) (LDA : Int) (LDB : Int) (LDC : Int) (M : Int) (J : Int)  : Prog F (Unit) := do
  forN (M).toNat (fun i => hgemmdz_280_I A ALPHA B BETA BZERO C J K LDA LDB LDC ((i : Int) + 1))
  pure ()

/-- `src/hblas/fortran/hblas3/hgemmdz.f:602-732`. -/
def hgemmdz_if602 (A : Int) (ALPHA : F) (B : Int) (BETA : Cplx F) (BZERO : Bool) (C : Int) (CONJB : Bool) (K : Int) (LDA : Int) (LDB : Int) (LDC : Int) (M : Int) (N : Int) : Prog F (Unit) := do
  if CONJB then
    forN (N).toNat (fun i => hgemmdz_260_J A ALPHA B BETA BZERO C K LDA LDB LDC M ((i : Int) + 1))
    pure ()
  else
    forN (N).toNat (fun i => hgemmdz_280_J A ALPHA B BETA BZERO C K LDA LDB LDC M ((i : Int) + 1))
    pure ()

/-- `src/hblas/fortran/hblas3/hgemmdz.f:100-733`. -/
def hgemmdz_if100 (A : Int) (ALPHA : F) (B : Int) (BETA : Cplx F) (BONE : Bool) (BZERO : Bool) (C : Int) (CONJA : Bool) (CONJB : Bool) (K : Int) (LDA : Int) (LDB : Int) (LDC : Int) (M : Int) (N : Int) (NOTA : Bool) (NOTB : Bool) : Prog F (Unit) := do
  if NOTB then
    hgemmdz_if101 A ALPHA B BETA BONE BZERO C CONJA K LDA LDB LDC M N NOTA
    pure ()
  else if NOTA then
    hgemmdz_if311 A ALPHA B BETA BONE BZERO C CONJB K LDA LDB LDC M N
    pure ()
  else if CONJA then
    hgemmdz_if465 A ALPHA B BETA BZERO C CONJB K LDA LDB LDC M N
    pure ()
  else
    hgemmdz_if602 A ALPHA B BETA BZERO C CONJB K LDA LDB LDC M N
    pure ()

/-- `src/hblas/fortran/hblas3/hgemmdz.f:10-734`. -/
def hgemmdz (TRANSA : Char) (TRANSB : Char) (M : Int) (N : Int) (K : Int) (ALPHA : F) (A : Int) (LDA : Int) (B : Int) (LDB : Int) (BETA : Cplx F) (C : Int) (LDC : Int) : Prog F (Unit) := do
  let NOTA : Bool := lsame TRANSA 'N'
  let NOTB : Bool := lsame TRANSB 'N'
  let CONJA : Bool := lsame TRANSA 'C'
  let CONJB : Bool := lsame TRANSB 'C'
  let AZERO : Bool := Cplx.feq (Cplx.ofReal ALPHA) (⟨zero, zero⟩ : Cplx F)
  -- AONE (line 43) is never read
  let BZERO : Bool := Cplx.feq BETA (⟨zero, zero⟩ : Cplx F)
  let BONE : Bool := Cplx.feq BETA (⟨one, zero⟩ : Cplx F)
  if (decide (M = 0)) || (decide (N = 0)) then
    pure ()
  else
    if (AZERO || (decide (K = 0))) && BONE then
      pure ()
    else
      if AZERO then
        hgemmdz_if62 BETA BZERO C LDC M N
        pure ()
      else
        hgemmdz_if100 A ALPHA B BETA BONE BZERO C CONJA CONJB K LDA LDB LDC M N NOTA NOTB
        pure ()

end Haxx
