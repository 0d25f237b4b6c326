import Verif.Fortran

/-!
# Fortran GEMM, dd

Generated by `tools/f2lean.py` from the Fortran sources cited on each definition; do not edit.
-/

set_option linter.unusedVariables false

namespace Haxx
open Arith

variable {F : Type} [Arith F] [ArithEq F]

/-- `src/hblas/fortran/hblas3/hgemmdd.f:59-66`, body of `DO 10 I`. -/
def hgemmdd_10_I (C : Int) (J : Int) (LDC : Int) (I : Int)  : Prog F (Unit) := do
  wrC (el3 2 2 LDC C 1 I J) (⟨zero, zero⟩ : Cplx F)
  wrC (el3 2 2 LDC C 2 I J) (⟨zero, zero⟩ : Cplx F)
  pure ()

/-- `src/hblas/fortran/hblas3/hgemmdd.f:58-66`, body of `DO 10 J`. -/
def hgemmdd_10_J (C : Int) (LDC : Int) (M : Int) (J : Int)  : Prog F (Unit) := do
  forN (M).toNat (fun i => hgemmdd_10_I C J LDC ((i : Int) + 1))
  pure ()

/-- `src/hblas/fortran/hblas3/hgemmdd.f:69-76`, body of `DO 20 I`. -/
def hgemmdd_20_I (BETA : F) (C : Int) (J : Int) (LDC : Int) (I : Int)  : Prog F (Unit) := do
  let t1 ← rdC (el3 2 2 LDC C 1 I J)
  wrC (el3 2 2 LDC C 1 I J) (Cplx.ofReal BETA *ᶜ t1)
  let t2 ← rdC (el3 2 2 LDC C 2 I J)
  wrC (el3 2 2 LDC C 2 I J) (Cplx.ofReal BETA *ᶜ t2)
  pure ()

/-- `src/hblas/fortran/hblas3/hgemmdd.f:68-76`, body of `DO 20 J`. -/
def hgemmdd_20_J (BETA : F) (C : Int) (LDC : Int) (M : Int) (J : Int)  : Prog F (Unit) := do
  forN (M).toNat (fun i => hgemmdd_20_I BETA C J LDC ((i : Int) + 1))
  pure ()

/-- `src/hblas/fortran/hblas3/hgemmdd.f:57-77`. -/
def hgemmdd_if57 (BETA : F) (BZERO : Bool) (C : Int) (LDC : Int) (M : Int) (N : Int) : Prog F (Unit) := do
  if BZERO then
    forN (N).toNat (fun i => hgemmdd_10_J C LDC M ((i : Int) + 1))
    pure ()
  else
    forN (N).toNat (fun i => hgemmdd_20_J BETA C LDC M ((i : Int) + 1))
    pure ()

/-- `src/hblas/fortran/hblas3/hgemmdd.f:88-95`, body of `DO 40 I`. -/
def hgemmdd_40_I (C : Int) (J : Int) (LDC : Int) (I : Int)  : Prog F (Unit) := do
  wrC (el3 2 2 LDC C 1 I J) (⟨zero, zero⟩ : Cplx F)
  wrC (el3 2 2 LDC C 2 I J) (⟨zero, zero⟩ : Cplx F)
  pure ()

/-- `src/hblas/fortran/hblas3/hgemmdd.f:97-104`, body of `DO 50 I`. -/
def hgemmdd_50_I (BETA : F) (C : Int) (J : Int) (LDC : Int) (I : Int)  : Prog F (Unit) := do
  let t1 ← rdC (el3 2 2 LDC C 1 I J)
  wrC (el3 2 2 LDC C 1 I J) (Cplx.ofReal BETA *ᶜ t1)
  let t2 ← rdC (el3 2 2 LDC C 2 I J)
  wrC (el3 2 2 LDC C 2 I J) (Cplx.ofReal BETA *ᶜ t2)
  pure ()

/-- `src/hblas/fortran/hblas3/hgemmdd.f:87-105`. -/
def hgemmdd_if87 (BETA : F) (BONE : Bool) (BZERO : Bool) (C : Int) (J : Int) (LDC : Int) (M : Int) : Prog F (Unit) := do
  if BZERO then
    forN (M).toNat (fun i => hgemmdd_40_I C J LDC ((i : Int) + 1))
    pure ()
  else if !BONE then
    forN (M).toNat (fun i => hgemmdd_50_I BETA C J LDC ((i : Int) + 1))
    pure ()
  else
    pure ()

/-- `src/hblas/fortran/hblas3/hgemmdd.f:116-140`, body of `DO 70 I`. -/
def hgemmdd_70_I (A : Int) (C : Int) (HTMPJ : Cplx F) (HTMPS : Cplx F) (J : Int) (L : Int) (LDA : Int) (LDC : Int) (I : Int)  : Prog F (Unit) := do
  let t1 ← rdC (el3 2 2 LDC C 1 I J)
  let t2 ← rdC (el3 2 2 LDA A 1 I L)
  let t3 ← rdC (el3 2 2 LDA A 2 I L)
  wrC (el3 2 2 LDC C 1 I J) (t1 +ᶜ t2 *ᶜ HTMPS -ᶜ t3 *ᶜ Cplx.conj HTMPJ)
  let t4 ← rdC (el3 2 2 LDC C 2 I J)
  let t5 ← rdC (el3 2 2 LDA A 1 I L)
  let t6 ← rdC (el3 2 2 LDA A 2 I L)
  wrC (el3 2 2 LDC C 2 I J) (t4 +ᶜ t5 *ᶜ HTMPJ +ᶜ t6 *ᶜ Cplx.conj HTMPS)
  pure ()

/-- `src/hblas/fortran/hblas3/hgemmdd.f:107-141`, body of `DO 60 L`. -/
def hgemmdd_60_L (A : Int) (ALPHA : F) (B : Int) (C : Int) (J : Int) (LDA : Int) (LDB : Int) (LDC : Int) (M : Int) (L : Int)  : Prog F (Unit) := do
  let t1 ← rdC (el3 2 2 LDB B 1 L J)
  let HTMPS : Cplx F := Cplx.ofReal ALPHA *ᶜ t1
  let t2 ← rdC (el3 2 2 LDB B 2 L J)
  let HTMPJ : Cplx F := Cplx.ofReal ALPHA *ᶜ t2
  forN (M).toNat (fun i => hgemmdd_70_I A C HTMPJ HTMPS J L LDA LDC ((i : Int) + 1))
  pure ()

/-- `src/hblas/fortran/hblas3/hgemmdd.f:86-142`, body of `DO 30 J`. -/
def hgemmdd_30_J (A : Int) (ALPHA : F) (B : Int) (BETA : F) (BONE : Bool) (BZERO : Bool) (C : Int) (K : Int) (LDA : Int) (LDB : Int) (LDC : Int) (M : Int) (J : Int)  : Prog F (Unit) := do
  hgemmdd_if87 BETA BONE BZERO C J LDC M
  forN (K).toNat (fun i => hgemmdd_60_L A ALPHA B C J LDA LDB LDC M ((i : Int) + 1))
  pure ()

/-- `src/hblas/fortran/hblas3/hgemmdd.f:155-175`, body of `DO 90 L`. -/
def hgemmdd_90_L (A : Int) (B : Int) (I : Int) (J : Int) (LDA : Int) (LDB : Int) (L : Int) (HTMPJ : Cplx F) (HTMPS : Cplx F) : Prog F (Cplx F × Cplx F) := do
  let t1 ← rdC (el3 2 2 LDA A 1 L I)
  let t2 ← rdC (el3 2 2 LDB B 1 L J)
  let t3 ← rdC (el3 2 2 LDA A 2 L I)
  let t4 ← rdC (el3 2 2 LDB B 2 L J)
  let HTMPS : Cplx F := HTMPS +ᶜ Cplx.conj t1 *ᶜ t2 +ᶜ t3 *ᶜ Cplx.conj t4
  let t5 ← rdC (el3 2 2 LDA A 1 L I)
  let t6 ← rdC (el3 2 2 LDB B 2 L J)
  let t7 ← rdC (el3 2 2 LDA A 2 L I)
  let t8 ← rdC (el3 2 2 LDB B 1 L J)
  let HTMPJ : Cplx F := HTMPJ +ᶜ Cplx.conj t5 *ᶜ t6 -ᶜ t7 *ᶜ Cplx.conj t8
  pure (HTMPJ, HTMPS)

/-- `src/hblas/fortran/hblas3/hgemmdd.f:148-196`, body of `DO 80 I`. -/
def hgemmdd_80_I (A : Int) (ALPHA : F) (B : Int) (BETA : F) (BZERO : Bool) (C : Int) (J : Int) (K : Int) (LDA : Int) (LDB : Int) (LDC : Int) (I : Int)  : Prog F (Unit) := do
  let HTMPS : Cplx F := (⟨zero, zero⟩ : Cplx F)
  let HTMPJ : Cplx F := (⟨zero, zero⟩ : Cplx F)
  let r ← foldN (K).toNat (fun i (s : Cplx F × Cplx F) => hgemmdd_90_L A B I J LDA LDB ((i : Int) + 1) s.1 s.2) (HTMPJ, HTMPS)
  let HTMPJ : Cplx F := r.1
  let HTMPS : Cplx F := r.2
  let _ ← (do
    if BZERO then
      wrC (el3 2 2 LDC C 1 I J) (Cplx.ofReal ALPHA *ᶜ HTMPS)
      wrC (el3 2 2 LDC C 2 I J) (Cplx.ofReal ALPHA *ᶜ HTMPJ)
      pure ()
    else
      let t1 ← rdC (el3 2 2 LDC C 1 I J)
      wrC (el3 2 2 LDC C 1 I J) (Cplx.ofReal ALPHA *ᶜ HTMPS +ᶜ Cplx.ofReal BETA *ᶜ t1)
      let t2 ← rdC (el3 2 2 LDC C 2 I J)
      wrC (el3 2 2 LDC C 2 I J) (Cplx.ofReal ALPHA *ᶜ HTMPJ +ᶜ Cplx.ofReal BETA *ᶜ t2)
      pure () : Prog F Unit)
  pure ()

/-- `src/hblas/fortran/hblas3/hgemmdd.f:147-196`, body of `DO 80 J`. -/
def hgemmdd_80_J (A : Int) (ALPHA : F) (B : Int) (BETA : F) (BZERO : Bool) (C : Int) (K : Int) (LDA : Int) (LDB : Int) (LDC : Int) (M : Int) (J : Int)  : Prog F (Unit) := do
  forN (M).toNat (fun i => hgemmdd_80_I A ALPHA B BETA BZERO C J K LDA LDB LDC ((i : Int) + 1))
  pure ()

/-- `src/hblas/fortran/hblas3/hgemmdd.f:210-230`, body of `DO 110 L`. -/
def hgemmdd_110_L (A : Int) (B : Int) (I : Int) (J : Int) (LDA : Int) (LDB : Int) (L : Int) (HTMPJ : Cplx F) (HTMPS : Cplx F) : Prog F (Cplx F × Cplx F) := do
  let t1 ← rdC (el3 2 2 LDA A 1 L I)
  let t2 ← rdC (el3 2 2 LDB B 1 L J)
  let t3 ← rdC (el3 2 2 LDA A 2 L I)
  let t4 ← rdC (el3 2 2 LDB B 2 L J)
  let HTMPS : Cplx F := HTMPS +ᶜ t1 *ᶜ t2 -ᶜ t3 *ᶜ Cplx.conj t4
  let t5 ← rdC (el3 2 2 LDA A 1 L I)
  let t6 ← rdC (el3 2 2 LDB B 2 L J)
  let t7 ← rdC (el3 2 2 LDA A 2 L I)
  let t8 ← rdC (el3 2 2 LDB B 1 L J)
  let HTMPJ : Cplx F := HTMPJ +ᶜ t5 *ᶜ t6 +ᶜ t7 *ᶜ Cplx.conj t8
  pure (HTMPJ, HTMPS)

/-- `src/hblas/fortran/hblas3/hgemmdd.f:203-251`, body of `DO 100 I`. -/
def hgemmdd_100_I (A : Int) (ALPHA : F) (B : Int) (BETA : F) (BZERO : Bool) (C : Int) (J : Int) (K : Int) (LDA : Int) (LDB : Int) (LDC : Int) (I : Int)  : Prog F (Unit) := do
  let HTMPS : Cplx F := (⟨zero, zero⟩ : Cplx F)
  let HTMPJ : Cplx F := (⟨zero, zero⟩ : Cplx F)
  let r ← foldN (K).toNat (fun i (s : Cplx F × Cplx F) => hgemmdd_110_L A B I J LDA LDB ((i : Int) + 1) s.1 s.2) (HTMPJ, HTMPS)
  let HTMPJ : Cplx F := r.1
  let HTMPS : Cplx F := r.2
  let _ ← (do
    if BZERO then
      wrC (el3 2 2 LDC C 1 I J) (Cplx.ofReal ALPHA *ᶜ HTMPS)
      wrC (el3 2 2 LDC C 2 I J) (Cplx.ofReal ALPHA *ᶜ HTMPJ)
      pure ()
    else
      let t1 ← rdC (el3 2 2 LDC C 1 I J)
      wrC (el3 2 2 LDC C 1 I J) (Cplx.ofReal ALPHA *ᶜ HTMPS +ᶜ Cplx.ofReal BETA *ᶜ t1)
      let t2 ← rdC (el3 2 2 LDC C 2 I J)
      wrC (el3 2 2 LDC C 2 I J) (Cplx.ofReal ALPHA *ᶜ HTMPJ +ᶜ Cplx.ofReal BETA *ᶜ t2)
      pure () : Prog F Unit)
  pure ()

/-- `src/hblas/fortran/hblas3/hgemmdd.f:202-251`, body of `DO 100 J`. -/
def hgemmdd_100_J (A : Int) (ALPHA : F) (B : Int) (BETA : F) (BZERO : Bool) (C : Int) (K : Int) (LDA : Int) (LDB : Int) (LDC : Int) (M : Int) (J : Int)  : Prog F (Unit) := do
  forN (M).toNat (fun i => hgemmdd_100_I A ALPHA B BETA BZERO C J K LDA LDB LDC ((i : Int) + 1))
  pure ()

/-- `src/hblas/fortran/hblas3/hgemmdd.f:82-252`. -/
def hgemmdd_if82 (A : Int) (ALPHA : F) (B : Int) (BETA : F) (BONE : Bool) (BZERO : Bool) (C : Int) (CONJA : Bool) (K : Int) (LDA : Int) (LDB : Int) (LDC : Int) (M : Int) (N : Int) (NOTA : Bool) : Prog F (Unit) := do
  if NOTA then
    forN (N).toNat (fun i => hgemmdd_30_J A ALPHA B BETA BONE BZERO C K LDA LDB LDC M ((i : Int) + 1))
    pure ()
  else if CONJA then
    forN (N).toNat (fun i => hgemmdd_80_J A ALPHA B BETA BZERO C K LDA LDB LDC M ((i : Int) + 1))
    pure ()
  else
    forN (N).toNat (fun i => hgemmdd_100_J A ALPHA B BETA BZERO C K LDA LDB LDC M ((i : Int) + 1))
    pure ()

/-- `src/hblas/fortran/hblas3/hgemmdd.f:260-267`, body of `DO 130 I`. -/
def hgemmdd_130_I (C : Int) (J : Int) (LDC : Int) (I : Int)  : Prog F (Unit) := do
  wrC (el3 2 2 LDC C 1 I J) (⟨zero, zero⟩ : Cplx F)
  wrC (el3 2 2 LDC C 2 I J) (⟨zero, zero⟩ : Cplx F)
  pure ()

/-- `src/hblas/fortran/hblas3/hgemmdd.f:269-276`, body of `DO 140 I`. -/
def hgemmdd_140_I (BETA : F) (C : Int) (J : Int) (LDC : Int) (I : Int)  : Prog F (Unit) := do
  let t1 ← rdC (el3 2 2 LDC C 1 I J)
  wrC (el3 2 2 LDC C 1 I J) (Cplx.ofReal BETA *ᶜ t1)
  let t2 ← rdC (el3 2 2 LDC C 2 I J)
  wrC (el3 2 2 LDC C 2 I J) (Cplx.ofReal BETA *ᶜ t2)
  pure ()

/-- `src/hblas/fortran/hblas3/hgemmdd.f:259-277`. -/
def hgemmdd_if259 (BETA : F) (BONE : Bool) (BZERO : Bool) (C : Int) (J : Int) (LDC : Int) (M : Int) : Prog F (Unit) := do
  if BZERO then
    forN (M).toNat (fun i => hgemmdd_130_I C J LDC ((i : Int) + 1))
    pure ()
  else if !BONE then
    forN (M).toNat (fun i => hgemmdd_140_I BETA C J LDC ((i : Int) + 1))
    pure ()
  else
    pure ()

/-- `src/hblas/fortran/hblas3/hgemmdd.f:289-313`, body of `DO 160 I`. -/
def hgemmdd_160_I (A : Int) (C : Int) (HTMPJ : Cplx F) (HTMPS : Cplx F) (J : Int) (L : Int) (LDA : Int) (LDC : Int) (I : Int)  : Prog F (Unit) := do
  let t1 ← rdC (el3 2 2 LDC C 1 I J)
  let t2 ← rdC (el3 2 2 LDA A 1 I L)
  let t3 ← rdC (el3 2 2 LDA A 2 I L)
  wrC (el3 2 2 LDC C 1 I J) (t1 +ᶜ t2 *ᶜ HTMPS -ᶜ t3 *ᶜ Cplx.conj HTMPJ)
  let t4 ← rdC (el3 2 2 LDC C 2 I J)
  let t5 ← rdC (el3 2 2 LDA A 1 I L)
  let t6 ← rdC (el3 2 2 LDA A 2 I L)
  wrC (el3 2 2 LDC C 2 I J) (t4 +ᶜ t5 *ᶜ HTMPJ +ᶜ t6 *ᶜ Cplx.conj HTMPS)
  pure ()

/-- `src/hblas/fortran/hblas3/hgemmdd.f:279-314`, body of `DO 150 L`. -/
def hgemmdd_150_L (A : Int) (ALPHA : F) (B : Int) (C : Int) (J : Int) (LDA : Int) (LDB : Int) (LDC : Int) (M : Int) (L : Int)  : Prog F (Unit) := do
  let t1 ← rdC (el3 2 2 LDB B 1 J L)
  let HTMPS : Cplx F := Cplx.ofReal ALPHA *ᶜ Cplx.conj t1
  let t2 ← rdC (el3 2 2 LDB B 2 J L)
  let HTMPJ : Cplx F := Cplx.neg (Cplx.ofReal ALPHA *ᶜ t2)
  forN (M).toNat (fun i => hgemmdd_160_I A C HTMPJ HTMPS J L LDA LDC ((i : Int) + 1))
  pure ()

/-- `src/hblas/fortran/hblas3/hgemmdd.f:258-315`, body of `DO 120 J`. -/
def hgemmdd_120_J (A : Int) (ALPHA : F) (B : Int) (BETA : F) (BONE : Bool) (BZERO : Bool) (C : Int) (K : Int) (LDA : Int) (LDB : Int) (LDC : Int) (M : Int) (J : Int)  : Prog F (Unit) := do
  hgemmdd_if259 BETA BONE BZERO C J LDC M
  forN (K).toNat (fun i => hgemmdd_150_L A ALPHA B C J LDA LDB LDC M ((i : Int) + 1))
  pure ()

/-- `src/hblas/fortran/hblas3/hgemmdd.f:323-330`, body of `DO 180 I`. -/
def hgemmdd_180_I (C : Int) (J : Int) (LDC : Int) (I : Int)  : Prog F (Unit) := do
  wrC (el3 2 2 LDC C 1 I J) (⟨zero, zero⟩ : Cplx F)
  wrC (el3 2 2 LDC C 2 I J) (⟨zero, zero⟩ : Cplx F)
  pure ()

/-- `src/hblas/fortran/hblas3/hgemmdd.f:332-339`, body of `DO 190 I`. -/
def hgemmdd_190_I (BETA : F) (C : Int) (J : Int) (LDC : Int) (I : Int)  : Prog F (Unit) := do
  let t1 ← rdC (el3 2 2 LDC C 1 I J)
  wrC (el3 2 2 LDC C 1 I J) (Cplx.ofReal BETA *ᶜ t1)
  let t2 ← rdC (el3 2 2 LDC C 2 I J)
  wrC (el3 2 2 LDC C 2 I J) (Cplx.ofReal BETA *ᶜ t2)
  pure ()

/-- `src/hblas/fortran/hblas3/hgemmdd.f:322-340`. -/
def hgemmdd_if322 (BETA : F) (BONE : Bool) (BZERO : Bool) (C : Int) (J : Int) (LDC : Int) (M : Int) : Prog F (Unit) := do
  if BZERO then
    forN (M).toNat (fun i => hgemmdd_180_I C J LDC ((i : Int) + 1))
    pure ()
  else if !BONE then
    forN (M).toNat (fun i => hgemmdd_190_I BETA C J LDC ((i : Int) + 1))
    pure ()
  else
    pure ()

/-- `src/hblas/fortran/hblas3/hgemmdd.f:351-375`, body of `DO 210 I`. -/
def hgemmdd_210_I (A : Int) (C : Int) (HTMPJ : Cplx F) (HTMPS : Cplx F) (J : Int) (L : Int) (LDA : Int) (LDC : Int) (I : Int)  : Prog F (Unit) := do
  let t1 ← rdC (el3 2 2 LDC C 1 I J)
  let t2 ← rdC (el3 2 2 LDA A 1 I L)
  let t3 ← rdC (el3 2 2 LDA A 2 I L)
  wrC (el3 2 2 LDC C 1 I J) (t1 +ᶜ t2 *ᶜ HTMPS -ᶜ t3 *ᶜ Cplx.conj HTMPJ)
  let t4 ← rdC (el3 2 2 LDC C 2 I J)
  let t5 ← rdC (el3 2 2 LDA A 1 I L)
  let t6 ← rdC (el3 2 2 LDA A 2 I L)
  wrC (el3 2 2 LDC C 2 I J) (t4 +ᶜ t5 *ᶜ HTMPJ +ᶜ t6 *ᶜ Cplx.conj HTMPS)
  pure ()

/-- `src/hblas/fortran/hblas3/hgemmdd.f:342-376`, body of `DO 200 L`. -/
def hgemmdd_200_L (A : Int) (ALPHA : F) (B : Int) (C : Int) (J : Int) (LDA : Int) (LDB : Int) (LDC : Int) (M : Int) (L : Int)  : Prog F (Unit) := do
  let t1 ← rdC (el3 2 2 LDB B 1 J L)
  let HTMPS : Cplx F := Cplx.ofReal ALPHA *ᶜ t1
  let t2 ← rdC (el3 2 2 LDB B 2 J L)
  let HTMPJ : Cplx F := Cplx.ofReal ALPHA *ᶜ t2
  forN (M).toNat (fun i => hgemmdd_210_I A C HTMPJ HTMPS J L LDA LDC ((i : Int) + 1))
  pure ()

/-- `src/hblas/fortran/hblas3/hgemmdd.f:321-377`, body of `DO 170 J`. -/
def hgemmdd_170_J (A : Int) (ALPHA : F) (B : Int) (BETA : F) (BONE : Bool) (BZERO : Bool) (C : Int) (K : Int) (LDA : Int) (LDB : Int) (LDC : Int) (M : Int) (J : Int)  : Prog F (Unit) := do
  hgemmdd_if322 BETA BONE BZERO C J LDC M
  forN (K).toNat (fun i => hgemmdd_200_L A ALPHA B C J LDA LDB LDC M ((i : Int) + 1))
  pure ()

/-- `src/hblas/fortran/hblas3/hgemmdd.f:254-378`. -/
def hgemmdd_if254 (A : Int) (ALPHA : F) (B : Int) (BETA : F) (BONE : Bool) (BZERO : Bool) (C : Int) (CONJB : Bool) (K : Int) (LDA : Int) (LDB : Int) (LDC : Int) (M : Int) (N : Int) : Prog F (Unit) := do
  if CONJB then
    forN (N).toNat (fun i => hgemmdd_120_J A ALPHA B BETA BONE BZERO C K LDA LDB LDC M ((i : Int) + 1))
    pure ()
  else
    forN (N).toNat (fun i => hgemmdd_170_J A ALPHA B BETA BONE BZERO C K LDA LDB LDC M ((i : Int) + 1))
    pure ()

/-- `src/hblas/fortran/hblas3/hgemmdd.f:392-413`, body of `DO 230 L`. -/
def hgemmdd_230_L (A : Int) (B : Int) (I : Int) (J : Int) (LDA : Int) (LDB : Int) (L : Int) (HTMPJ : Cplx F) (HTMPS : Cplx F) : Prog F (Cplx F × Cplx F) := do
  let t1 ← rdC (el3 2 2 LDA A 1 L I)
  let t2 ← rdC (el3 2 2 LDB B 1 J L)
  let t3 ← rdC (el3 2 2 LDA A 2 L I)
  let t4 ← rdC (el3 2 2 LDB B 2 J L)
  let HTMPS : Cplx F := HTMPS +ᶜ Cplx.conj t1 *ᶜ Cplx.conj t2 -ᶜ t3 *ᶜ Cplx.conj t4
  let t5 ← rdC (el3 2 2 LDA A 1 L I)
  let t6 ← rdC (el3 2 2 LDB B 2 J L)
  let t7 ← rdC (el3 2 2 LDA A 2 L I)
  let t8 ← rdC (el3 2 2 LDB B 1 J L)
  let HTMPJ : Cplx F := HTMPJ -ᶜ Cplx.conj t5 *ᶜ t6 -ᶜ t7 *ᶜ t8
  pure (HTMPJ, HTMPS)

/-- `src/hblas/fortran/hblas3/hgemmdd.f:385-434`, body of `DO 220 I`. -/
def hgemmdd_220_I (A : Int) (ALPHA : F) (B : Int) (BETA : F) (BZERO : Bool) (C : Int) (J : Int) (K : Int) (LDA : Int) (LDB : Int) (LDC : Int) (I : Int)  : Prog F (Unit) := do
  let HTMPS : Cplx F := (⟨zero, zero⟩ : Cplx F)
  let HTMPJ : Cplx F := (⟨zero, zero⟩ : Cplx F)
  let r ← foldN (K).toNat (fun i (s : Cplx F × Cplx F) => hgemmdd_230_L A B I J LDA LDB ((i : Int) + 1) s.1 s.2) (HTMPJ, HTMPS)
  let HTMPJ : Cplx F := r.1
  let HTMPS : Cplx F := r.2
  let _ ← (do
    if BZERO then
      wrC (el3 2 2 LDC C 1 I J) (Cplx.ofReal ALPHA *ᶜ HTMPS)
      wrC (el3 2 2 LDC C 2 I J) (Cplx.ofReal ALPHA *ᶜ HTMPJ)
      pure ()
    else
      let t1 ← rdC (el3 2 2 LDC C 1 I J)
      wrC (el3 2 2 LDC C 1 I J) (Cplx.ofReal ALPHA *ᶜ HTMPS +ᶜ Cplx.ofReal BETA *ᶜ t1)
      let t2 ← rdC (el3 2 2 LDC C 2 I J)
      wrC (el3 2 2 LDC C 2 I J) (Cplx.ofReal ALPHA *ᶜ HTMPJ +ᶜ Cplx.ofReal BETA *ᶜ t2)
      pure () : Prog F Unit)
  pure ()

/-- `src/hblas/fortran/hblas3/hgemmdd.f:384-434`, body of `DO 220 J`. -/
def hgemmdd_220_J (A : Int) (ALPHA : F) (B : Int) (BETA : F) (BZERO : Bool) (C : Int) (K : Int) (LDA : Int) (LDB : Int) (LDC : Int) (M : Int) (J : Int)  : Prog F (Unit) := do
  forN (M).toNat (fun i => hgemmdd_220_I A ALPHA B BETA BZERO C J K LDA LDB LDC ((i : Int) + 1))
  pure ()

/-- `src/hblas/fortran/hblas3/hgemmdd.f:448-468`, body of `DO 250 L`. -/
def hgemmdd_250_L (A : Int) (B : Int) (I : Int) (J : Int) (LDA : Int) (LDB : Int) (L : Int) (HTMPJ : Cplx F) (HTMPS : Cplx F) : Prog F (Cplx F × Cplx F) := do
  let t1 ← rdC (el3 2 2 LDA A 1 L I)
  let t2 ← rdC (el3 2 2 LDB B 1 J L)
  let t3 ← rdC (el3 2 2 LDA A 2 L I)
  let t4 ← rdC (el3 2 2 LDB B 2 J L)
  let HTMPS : Cplx F := HTMPS +ᶜ Cplx.conj t1 *ᶜ t2 +ᶜ t3 *ᶜ Cplx.conj t4
  let t5 ← rdC (el3 2 2 LDA A 1 L I)
  let t6 ← rdC (el3 2 2 LDB B 2 J L)
  let t7 ← rdC (el3 2 2 LDA A 2 L I)
  let t8 ← rdC (el3 2 2 LDB B 1 J L)
  let HTMPJ : Cplx F := HTMPJ +ᶜ Cplx.conj t5 *ᶜ t6 -ᶜ t7 *ᶜ Cplx.conj t8
  pure (HTMPJ, HTMPS)

/-- `src/hblas/fortran/hblas3/hgemmdd.f:441-489`, body of `DO 240 I`. -/
def hgemmdd_240_I (A : Int) (ALPHA : F) (B : Int) (BETA : F) (BZERO : Bool) (C : Int) (J : Int) (K : Int) (LDA : Int) (LDB : Int) (LDC : Int) (I : Int)  : Prog F (Unit) := do
  let HTMPS : Cplx F := (⟨zero, zero⟩ : Cplx F)
  let HTMPJ : Cplx F := (⟨zero, zero⟩ : Cplx F)
  let r ← foldN (K).toNat (fun i (s : Cplx F × Cplx F) => hgemmdd_250_L A B I J LDA LDB ((i : Int) + 1) s.1 s.2) (HTMPJ, HTMPS)
  let HTMPJ : Cplx F := r.1
  let HTMPS : Cplx F := r.2
  let _ ← (do
    if BZERO then
      wrC (el3 2 2 LDC C 1 I J) (Cplx.ofReal ALPHA *ᶜ HTMPS)
      wrC (el3 2 2 LDC C 2 I J) (Cplx.ofReal ALPHA *ᶜ HTMPJ)
      pure ()
    else
      let t1 ← rdC (el3 2 2 LDC C 1 I J)
      wrC (el3 2 2 LDC C 1 I J) (Cplx.ofReal ALPHA *ᶜ HTMPS +ᶜ Cplx.ofReal BETA *ᶜ t1)
      let t2 ← rdC (el3 2 2 LDC C 2 I J)
      wrC (el3 2 2 LDC C 2 I J) (Cplx.ofReal ALPHA *ᶜ HTMPJ +ᶜ Cplx.ofReal BETA *ᶜ t2)
      pure () : Prog F Unit)
  pure ()

/-- `src/hblas/fortran/hblas3/hgemmdd.f:440-489`, body of `DO 240 J`. -/
def hgemmdd_240_J (A : Int) (ALPHA : F) (B : Int) (BETA : F) (BZERO : Bool) (C : Int) (K : Int) (LDA : Int) (LDB : Int) (LDC : Int) (M : Int) (J : Int)  : Prog F (Unit) := do
  forN (M).toNat (fun i => hgemmdd_240_I A ALPHA B BETA BZERO C J K LDA LDB LDC ((i : Int) + 1))
  pure ()

/-- `src/hblas/fortran/hblas3/hgemmdd.f:380-490`. -/
def hgemmdd_if380 (A : Int) (ALPHA : F) (B : Int) (BETA : F) (BZERO : Bool) (C : Int) (CONJB : Bool) (K : Int) (LDA : Int) (LDB : Int) (LDC : Int) (M : Int) (N : Int) : Prog F (Unit) := do
  if CONJB then
    forN (N).toNat (fun i => hgemmdd_220_J A ALPHA B BETA BZERO C K LDA LDB LDC M ((i : Int) + 1))
    pure ()
  else
    forN (N).toNat (fun i => hgemmdd_240_J A ALPHA B BETA BZERO C K LDA LDB LDC M ((i : Int) + 1))
    pure ()

/-- `src/hblas/fortran/hblas3/hgemmdd.f:503-523`, body of `DO 270 L`. -/
def hgemmdd_270_L (A : Int) (B : Int) (I : Int) (J : Int) (LDA : Int) (LDB : Int) (L : Int) (HTMPJ : Cplx F) (HTMPS : Cplx F) : Prog F (Cplx F × Cplx F) := do
  let t1 ← rdC (el3 2 2 LDA A 1 L I)
  let t2 ← rdC (el3 2 2 LDB B 1 J L)
  let t3 ← rdC (el3 2 2 LDA A 2 L I)
  let t4 ← rdC (el3 2 2 LDB B 2 J L)
  let HTMPS : Cplx F := HTMPS +ᶜ t1 *ᶜ Cplx.conj t2 +ᶜ t3 *ᶜ Cplx.conj t4
  let t5 ← rdC (el3 2 2 LDA A 1 L I)
  let t6 ← rdC (el3 2 2 LDB B 2 J L)
  let t7 ← rdC (el3 2 2 LDA A 2 L I)
  let t8 ← rdC (el3 2 2 LDB B 1 J L)
  let HTMPJ : Cplx F := HTMPJ -ᶜ t5 *ᶜ t6 +ᶜ t7 *ᶜ t8
  pure (HTMPJ, HTMPS)

/-- `src/hblas/fortran/hblas3/hgemmdd.f:498-544`, body of `DO 260 I`. -/
def hgemmdd_260_I (A : Int) (ALPHA : F) (B : Int) (BETA : F) (BZERO : Bool) (C : Int) (J : Int) (K : Int) (LDA : Int) (LDB : Int) (LDC : Int) (I : Int)  : Prog F (Unit) := do
  let HTMPS : Cplx F := (⟨zero, zero⟩ : Cplx F)
  -- HTMPI (line 500) is never read
  let HTMPJ : Cplx F := (⟨zero, zero⟩ : Cplx F)
  -- HTMPK (line 502) is never read
  let r ← foldN (K).toNat (fun i (s : Cplx F × Cplx F) => hgemmdd_270_L A B I J LDA LDB ((i : Int) + 1) s.1 s.2) (HTMPJ, HTMPS)
  let HTMPJ : Cplx F := r.1
  let HTMPS : Cplx F := r.2
  let _ ← (do
    if BZERO then
      wrC (el3 2 2 LDC C 1 I J) (Cplx.ofReal ALPHA *ᶜ HTMPS)
      wrC (el3 2 2 LDC C 2 I J) (Cplx.ofReal ALPHA *ᶜ HTMPJ)
      pure ()
    else
      let t1 ← rdC (el3 2 2 LDC C 1 I J)
      wrC (el3 2 2 LDC C 1 I J) (Cplx.ofReal ALPHA *ᶜ HTMPS +ᶜ Cplx.ofReal BETA *ᶜ t1)
      let t2 ← rdC (el3 2 2 LDC C 2 I J)
      wrC (el3 2 2 LDC C 2 I J) (Cplx.ofReal ALPHA *ᶜ HTMPJ +ᶜ Cplx.ofReal BETA *ᶜ t2)
      pure () : Prog F Unit)
  pure ()

/-- `src/hblas/fortran/hblas3/hgemmdd.f:497-544`, body of `DO 260 J`. -/
def hgemmdd_260_J (A : Int) (ALPHA : F) (B : Int) (BETA : F) (BZERO : Bool) (C : Int) (K : Int) (LDA : Int) (LDB : Int) (LDC : Int) (M : Int) (J : Int)  : Prog F (Unit) := do
  forN (M).toNat (fun i => hgemmdd_260_I A ALPHA B BETA BZERO C J K LDA LDB LDC ((i : Int) + 1))
  pure ()

/-- `src/hblas/fortran/hblas3/hgemmdd.f:557-577`, body of `DO 290 L`. -/
def hgemmdd_290_L (A : Int) (B : Int) (I : Int) (J : Int) (LDA : Int) (LDB : Int) (L : Int) (HTMPJ : Cplx F) (HTMPS : Cplx F) : Prog F (Cplx F × Cplx F) := do
  let t1 ← rdC (el3 2 2 LDA A 1 L I)
  let t2 ← rdC (el3 2 2 LDB B 1 J L)
  let t3 ← rdC (el3 2 2 LDA A 2 L I)
  let t4 ← rdC (el3 2 2 LDB B 2 J L)
  let HTMPS : Cplx F := HTMPS +ᶜ t1 *ᶜ t2 -ᶜ t3 *ᶜ Cplx.conj t4
  let t5 ← rdC (el3 2 2 LDA A 1 L I)
  let t6 ← rdC (el3 2 2 LDB B 2 J L)
  let t7 ← rdC (el3 2 2 LDA A 2 L I)
  let t8 ← rdC (el3 2 2 LDB B 1 J L)
  let HTMPJ : Cplx F := HTMPJ +ᶜ t5 *ᶜ t6 +ᶜ t7 *ᶜ Cplx.conj t8
  pure (HTMPJ, HTMPS)

/-- `src/hblas/fortran/hblas3/hgemmdd.f:550-598`, body of `DO 280 I`. -/
def hgemmdd_280_I (A : Int) (ALPHA : F) (B : Int) (BETA : F) (BZERO : Bool) (C : Int) (J : Int) (K : Int) (LDA : Int) (LDB : Int) (LDC : Int) (I : Int)  : Prog F (Unit) := do
  let HTMPS : Cplx F := (⟨zero, zero⟩ : Cplx F)
  let HTMPJ : Cplx F := (⟨zero, zero⟩ : Cplx F)
  let r ← foldN (K).toNat (fun i (s : Cplx F × Cplx F) => hgemmdd_290_L A B I J LDA LDB ((i : Int) + 1) s.1 s.2) (HTMPJ, HTMPS)
  let HTMPJ : Cplx F := r.1
  let HTMPS : Cplx F := r.2
  let _ ← (do
    if BZERO then
      wrC (el3 2 2 LDC C 1 I J) (Cplx.ofReal ALPHA *ᶜ HTMPS)
      wrC (el3 2 2 LDC C 2 I J) (Cplx.ofReal ALPHA *ᶜ HTMPJ)
      pure ()
    else
      let t1 ← rdC (el3 2 2 LDC C 1 I J)
      wrC (el3 2 2 LDC C 1 I J) (Cplx.ofReal ALPHA *ᶜ HTMPS +ᶜ Cplx.ofReal BETA *ᶜ t1)
      let t2 ← rdC (el3 2 2 LDC C 2 I J)
      wrC (el3 2 2 LDC C 2 I J) (Cplx.ofReal ALPHA *ᶜ HTMPJ +ᶜ Cplx.ofReal BETA *ᶜ t2)
      pure () : Prog F Unit)
  pure ()

/-- `src/hblas/fortran/hblas3/hgemmdd.f:549-598`, body of `DO 280 J`. -/
def hgemmdd_280_J (A : Int) (ALPHA : F) (B : Int) (BETA : F) (BZERO : Bool) (C : Int) (K : Int) (LDA : Int) (LDB : Int) (LDC : Int) (M : Int) (J : Int)  : Prog F (Unit) := do
  forN (M).toNat (fun i => hgemmdd_280_I A ALPHA B BETA BZERO C J K LDA LDB LDC ((i : Int) + 1))
  pure ()

/-- `src/hblas/fortran/hblas3/hgemmdd.f:493-599`. -/
def hgemmdd_if493 (A : Int) (ALPHA : F) (B : Int) (BETA : F) (BZERO : Bool) (C : Int) (CONJB : Bool) (K : Int) (LDA : Int) (LDB : Int) (LDC : Int) (M : Int) (N : Int) : Prog F (Unit) := do
  if CONJB then
    forN (N).toNat (fun i => hgemmdd_260_J A ALPHA B BETA BZERO C K LDA LDB LDC M ((i : Int) + 1))
    pure ()
  else
    forN (N).toNat (fun i => hgemmdd_280_J A ALPHA B BETA BZERO C K LDA LDB LDC M ((i : Int) + 1))
    pure ()

/-- `src/hblas/fortran/hblas3/hgemmdd.f:81-600`. -/
def hgemmdd_if81 (A : Int) (ALPHA : F) (B : Int) (BETA : F) (BONE : Bool) (BZERO : Bool) (C : Int) (CONJA : Bool) (CONJB : Bool) (K : Int) (LDA : Int) (LDB : Int) (LDC : Int) (M : Int) (N : Int) (NOTA : Bool) (NOTB : Bool) : Prog F (Unit) := do
  if NOTB then
    hgemmdd_if82 A ALPHA B BETA BONE BZERO C CONJA K LDA LDB LDC M N NOTA
    pure ()
  else if NOTA then
    hgemmdd_if254 A ALPHA B BETA BONE BZERO C CONJB K LDA LDB LDC M N
    pure ()
  else if CONJA then
    hgemmdd_if380 A ALPHA B BETA BZERO C CONJB K LDA LDB LDC M N
    pure ()
  else
    hgemmdd_if493 A ALPHA B BETA BZERO C CONJB K LDA LDB LDC M N
    pure ()

/-- `src/hblas/fortran/hblas3/hgemmdd.f:10-601`. -/
def hgemmdd (TRANSA : Char) (TRANSB : Char) (M : Int) (N : Int) (K : Int) (ALPHA : F) (A : Int) (LDA : Int) (B : Int) (LDB : Int) (BETA : F) (C : Int) (LDC : Int) : Prog F (Unit) := do
  let NOTA : Bool := lsame TRANSA 'N'
  let NOTB : Bool := lsame TRANSB 'N'
  let CONJA : Bool := lsame TRANSA 'C'
  let CONJB : Bool := lsame TRANSB 'C'
  let AZERO : Bool := Cplx.feq (Cplx.ofReal ALPHA) (⟨zero, zero⟩ : Cplx F)
  -- AONE (line 43) is never read
  let BZERO : Bool := Cplx.feq (Cplx.ofReal BETA) (⟨zero, zero⟩ : Cplx F)
  let BONE : Bool := Cplx.feq (Cplx.ofReal BETA) (⟨one, zero⟩ : Cplx F)
  if (decide (M = 0)) || (decide (N = 0)) then
    pure ()
  else
    if (AZERO || (decide (K = 0))) && BONE then
      pure ()
    else
      if AZERO then
        hgemmdd_if57 BETA BZERO C LDC M N
        pure ()
      else
        hgemmdd_if81 A ALPHA B BETA BONE BZERO C CONJA CONJB K LDA LDB LDC M N NOTA NOTB
        pure ()

end Haxx
