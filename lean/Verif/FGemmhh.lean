import Verif.Fortran

/-!
# Fortran GEMM, hh

Generated by `tools/f2lean.py` from the Fortran sources cited on each definition; do not edit.
-/

set_option linter.unusedVariables false

namespace Haxx
open Arith

variable {F : Type} [Arith F] [ArithEq F]

/-- `src/hblas/fortran/hblas3/hgemmhh.f:51-54`, body of `DO 10 I`. -/
def hgemmhh_10_I (C : Int) (J : Int) (LDC : Int) (I : Int)  : Prog F (Unit) := do
  wrC (el3 2 2 LDC C 1 I J) (⟨zero, zero⟩ : Cplx F)
  wrC (el3 2 2 LDC C 2 I J) (⟨zero, zero⟩ : Cplx F)
  pure ()

/-- `src/hblas/fortran/hblas3/hgemmhh.f:50-54`, body of `DO 10 J`. -/
def hgemmhh_10_J (C : Int) (LDC : Int) (M : Int) (J : Int)  : Prog F (Unit) := do
  forN (M).toNat (fun i => hgemmhh_10_I C J LDC ((i : Int) + 1))
  pure ()

/-- `src/hblas/fortran/hblas3/hgemmhh.f:57-61`, body of `DO 20 I`. -/
def hgemmhh_20_I (BETA : Quat F) (C : Int) (J : Int) (LDC : Int) (I : Int)  : Prog F (Unit) := do
  let t1 ← rdC (el3 2 2 LDC C 1 I J)
  let t2 ← rdC (el3 2 2 LDC C 2 I J)
  let HTMP1S : Cplx F := Quat.lo BETA *ᶜ t1 -ᶜ Quat.hi BETA *ᶜ Cplx.conj t2
  let t3 ← rdC (el3 2 2 LDC C 2 I J)
  let t4 ← rdC (el3 2 2 LDC C 1 I J)
  wrC (el3 2 2 LDC C 2 I J) (Quat.lo BETA *ᶜ t3 +ᶜ Quat.hi BETA *ᶜ Cplx.conj t4)
  wrC (el3 2 2 LDC C 1 I J) HTMP1S
  pure ()

/-- `src/hblas/fortran/hblas3/hgemmhh.f:56-61`, body of `DO 20 J`. -/
def hgemmhh_20_J (BETA : Quat F) (C : Int) (LDC : Int) (M : Int) (J : Int)  : Prog F (Unit) := do
  forN (M).toNat (fun i => hgemmhh_20_I BETA C J LDC ((i : Int) + 1))
  pure ()

/-- `src/hblas/fortran/hblas3/hgemmhh.f:49-62`. -/
def hgemmhh_if49 (BETA : Quat F) (BZERO : Bool) (C : Int) (LDC : Int) (M : Int) (N : Int) : Prog F (Unit) := do
  if BZERO then
    forN (N).toNat (fun i => hgemmhh_10_J C LDC M ((i : Int) + 1))
    pure ()
  else
    forN (N).toNat (fun i => hgemmhh_20_J BETA C LDC M ((i : Int) + 1))
    pure ()

/-- `src/hblas/fortran/hblas3/hgemmhh.f:73-76`, body of `DO 40 I`. -/
def hgemmhh_40_I (C : Int) (J : Int) (LDC : Int) (I : Int)  : Prog F (Unit) := do
  wrC (el3 2 2 LDC C 1 I J) (⟨zero, zero⟩ : Cplx F)
  wrC (el3 2 2 LDC C 2 I J) (⟨zero, zero⟩ : Cplx F)
  pure ()

/-- `src/hblas/fortran/hblas3/hgemmhh.f:78-82`, body of `DO 50 I`. -/
def hgemmhh_50_I (BETA : Quat F) (C : Int) (J : Int) (LDC : Int) (I : Int)  : Prog F (Unit) := do
  let t1 ← rdC (el3 2 2 LDC C 1 I J)
  let t2 ← rdC (el3 2 2 LDC C 2 I J)
  let HTMP1S : Cplx F := Quat.lo BETA *ᶜ t1 -ᶜ Quat.hi BETA *ᶜ Cplx.conj t2
  let t3 ← rdC (el3 2 2 LDC C 2 I J)
  let t4 ← rdC (el3 2 2 LDC C 1 I J)
  wrC (el3 2 2 LDC C 2 I J) (Quat.lo BETA *ᶜ t3 +ᶜ Quat.hi BETA *ᶜ Cplx.conj t4)
  wrC (el3 2 2 LDC C 1 I J) HTMP1S
  pure ()

/-- `src/hblas/fortran/hblas3/hgemmhh.f:72-83`. -/
def hgemmhh_if72 (BETA : Quat F) (BONE : Bool) (BZERO : Bool) (C : Int) (J : Int) (LDC : Int) (M : Int) : Prog F (Unit) := do
  if BZERO then
    forN (M).toNat (fun i => hgemmhh_40_I C J LDC ((i : Int) + 1))
    pure ()
  else if !BONE then
    forN (M).toNat (fun i => hgemmhh_50_I BETA C J LDC ((i : Int) + 1))
    pure ()
  else
    pure ()

/-- `src/hblas/fortran/hblas3/hgemmhh.f:94-102`, body of `DO 70 I`. -/
def hgemmhh_70_I (A : Int) (C : Int) (HTMP1J : Cplx F) (HTMP1S : Cplx F) (HTMP2J : Cplx F) (HTMP2S : Cplx F) (HTMP3J : Cplx F) (HTMP3S : Cplx F) (HTMP4J : Cplx F) (HTMP4S : Cplx F) (J : Int) (L : Int) (LDA : Int) (LDC : Int) (I : Int)  : Prog F (Unit) := do
  let t1 ← rdC (el3 2 2 LDC C 1 I J)
  let t2 ← rdC (el3 2 2 LDA A 1 I L)
  let t3 ← rdC (el3 2 2 LDA A 2 I L)
  let t4 ← rdC (el3 2 2 LDA A 1 I L)
  let t5 ← rdC (el3 2 2 LDA A 2 I L)
  wrC (el3 2 2 LDC C 1 I J) (t1 +ᶜ t2 *ᶜ HTMP1S -ᶜ t3 *ᶜ HTMP2J -ᶜ Cplx.conj t4 *ᶜ HTMP4J -ᶜ Cplx.conj t5 *ᶜ HTMP3S)
  let t6 ← rdC (el3 2 2 LDC C 2 I J)
  let t7 ← rdC (el3 2 2 LDA A 1 I L)
  let t8 ← rdC (el3 2 2 LDA A 2 I L)
  let t9 ← rdC (el3 2 2 LDA A 1 I L)
  let t10 ← rdC (el3 2 2 LDA A 2 I L)
  wrC (el3 2 2 LDC C 2 I J) (t6 +ᶜ t7 *ᶜ HTMP1J +ᶜ t8 *ᶜ HTMP2S +ᶜ Cplx.conj t9 *ᶜ HTMP4S -ᶜ Cplx.conj t10 *ᶜ HTMP3J)
  pure ()

/-- `src/hblas/fortran/hblas3/hgemmhh.f:85-103`, body of `DO 60 L`. -/
def hgemmhh_60_L (A : Int) (ALPHA : Quat F) (B : Int) (C : Int) (J : Int) (LDA : Int) (LDB : Int) (LDC : Int) (M : Int) (L : Int)  : Prog F (Unit) := do
  let t1 ← rdC (el3 2 2 LDB B 1 L J)
  let HTMP1S : Cplx F := Quat.lo ALPHA *ᶜ t1
  let t2 ← rdC (el3 2 2 LDB B 2 L J)
  let HTMP1J : Cplx F := Quat.lo ALPHA *ᶜ t2
  let t3 ← rdC (el3 2 2 LDB B 1 L J)
  let HTMP2S : Cplx F := Quat.lo ALPHA *ᶜ Cplx.conj t3
  let t4 ← rdC (el3 2 2 LDB B 2 L J)
  let HTMP2J : Cplx F := Quat.lo ALPHA *ᶜ Cplx.conj t4
  let t5 ← rdC (el3 2 2 LDB B 1 L J)
  let HTMP3S : Cplx F := Quat.hi ALPHA *ᶜ t5
  let t6 ← rdC (el3 2 2 LDB B 2 L J)
  let HTMP3J : Cplx F := Quat.hi ALPHA *ᶜ t6
  let t7 ← rdC (el3 2 2 LDB B 1 L J)
  let HTMP4S : Cplx F := Quat.hi ALPHA *ᶜ Cplx.conj t7
  let t8 ← rdC (el3 2 2 LDB B 2 L J)
  let HTMP4J : Cplx F := Quat.hi ALPHA *ᶜ Cplx.conj t8
  forN (M).toNat (fun i => hgemmhh_70_I A C HTMP1J HTMP1S HTMP2J HTMP2S HTMP3J HTMP3S HTMP4J HTMP4S J L LDA LDC ((i : Int) + 1))
  pure ()

/-- `src/hblas/fortran/hblas3/hgemmhh.f:71-104`, body of `DO 30 J`. -/
def hgemmhh_30_J (A : Int) (ALPHA : Quat F) (B : Int) (BETA : Quat F) (BONE : Bool) (BZERO : Bool) (C : Int) (K : Int) (LDA : Int) (LDB : Int) (LDC : Int) (M : Int) (J : Int)  : Prog F (Unit) := do
  hgemmhh_if72 BETA BONE BZERO C J LDC M
  forN (K).toNat (fun i => hgemmhh_60_L A ALPHA B C J LDA LDB LDC M ((i : Int) + 1))
  pure ()

/-- `src/hblas/fortran/hblas3/hgemmhh.f:113-119`, body of `DO 90 L`. -/
def hgemmhh_90_L (A : Int) (B : Int) (I : Int) (J : Int) (LDA : Int) (LDB : Int) (L : Int) (HTMP1J : Cplx F) (HTMP1S : Cplx F) : Prog F (Cplx F × Cplx F) := do
  let t1 ← rdC (el3 2 2 LDA A 1 L I)
  let t2 ← rdC (el3 2 2 LDB B 1 L J)
  let t3 ← rdC (el3 2 2 LDA A 2 L I)
  let t4 ← rdC (el3 2 2 LDB B 2 L J)
  let HTMP1S : Cplx F := HTMP1S +ᶜ Cplx.conj t1 *ᶜ t2 +ᶜ t3 *ᶜ Cplx.conj t4
  let t5 ← rdC (el3 2 2 LDA A 1 L I)
  let t6 ← rdC (el3 2 2 LDB B 2 L J)
  let t7 ← rdC (el3 2 2 LDA A 2 L I)
  let t8 ← rdC (el3 2 2 LDB B 1 L J)
  let HTMP1J : Cplx F := HTMP1J +ᶜ Cplx.conj t5 *ᶜ t6 -ᶜ t7 *ᶜ Cplx.conj t8
  pure (HTMP1J, HTMP1S)

/-- `src/hblas/fortran/hblas3/hgemmhh.f:110-133`, body of `DO 80 I`. -/
def hgemmhh_80_I (A : Int) (ALPHA : Quat F) (B : Int) (BETA : Quat F) (BZERO : Bool) (C : Int) (J : Int) (K : Int) (LDA : Int) (LDB : Int) (LDC : Int) (I : Int)  : Prog F (Unit) := do
  let HTMP1S : Cplx F := (⟨zero, zero⟩ : Cplx F)
  let HTMP1J : Cplx F := (⟨zero, zero⟩ : Cplx F)
  let r ← foldN (K).toNat (fun i (s : Cplx F × Cplx F) => hgemmhh_90_L A B I J LDA LDB ((i : Int) + 1) s.1 s.2) (HTMP1J, HTMP1S)
  let HTMP1J : Cplx F := r.1
  let HTMP1S : Cplx F := r.2
  let _ ← (do
    if BZERO then
      wrC (el3 2 2 LDC C 1 I J) (Quat.lo ALPHA *ᶜ HTMP1S -ᶜ Quat.hi ALPHA *ᶜ Cplx.conj HTMP1J)
      wrC (el3 2 2 LDC C 2 I J) (Quat.lo ALPHA *ᶜ HTMP1J +ᶜ Quat.hi ALPHA *ᶜ Cplx.conj HTMP1S)
      pure ()
    else
      let t1 ← rdC (el3 2 2 LDC C 1 I J)
      let t2 ← rdC (el3 2 2 LDC C 2 I J)
      let HTMP2S : Cplx F := Quat.lo ALPHA *ᶜ HTMP1S -ᶜ Quat.hi ALPHA *ᶜ Cplx.conj HTMP1J +ᶜ Quat.lo BETA *ᶜ t1 -ᶜ Quat.hi BETA *ᶜ Cplx.conj t2
      let t3 ← rdC (el3 2 2 LDC C 2 I J)
      let t4 ← rdC (el3 2 2 LDC C 1 I J)
      wrC (el3 2 2 LDC C 2 I J) (Quat.lo ALPHA *ᶜ HTMP1J +ᶜ Quat.hi ALPHA *ᶜ Cplx.conj HTMP1S +ᶜ Quat.lo BETA *ᶜ t3 +ᶜ Quat.hi BETA *ᶜ Cplx.conj t4)
      wrC (el3 2 2 LDC C 1 I J) HTMP2S
      pure () : Prog F Unit)
  pure ()

/-- `src/hblas/fortran/hblas3/hgemmhh.f:109-133`, body of `DO 80 J`. -/
def hgemmhh_80_J (A : Int) (ALPHA : Quat F) (B : Int) (BETA : Quat F) (BZERO : Bool) (C : Int) (K : Int) (LDA : Int) (LDB : Int) (LDC : Int) (M : Int) (J : Int)  : Prog F (Unit) := do
  forN (M).toNat (fun i => hgemmhh_80_I A ALPHA B BETA BZERO C J K LDA LDB LDC ((i : Int) + 1))
  pure ()

/-- `src/hblas/fortran/hblas3/hgemmhh.f:143-149`, body of `DO 110 L`. -/
def hgemmhh_110_L (A : Int) (B : Int) (I : Int) (J : Int) (LDA : Int) (LDB : Int) (L : Int) (HTMP1J : Cplx F) (HTMP1S : Cplx F) : Prog F (Cplx F × Cplx F) := do
  let t1 ← rdC (el3 2 2 LDA A 1 L I)
  let t2 ← rdC (el3 2 2 LDB B 1 L J)
  let t3 ← rdC (el3 2 2 LDA A 2 L I)
  let t4 ← rdC (el3 2 2 LDB B 2 L J)
  let HTMP1S : Cplx F := HTMP1S +ᶜ t1 *ᶜ t2 -ᶜ t3 *ᶜ Cplx.conj t4
  let t5 ← rdC (el3 2 2 LDA A 1 L I)
  let t6 ← rdC (el3 2 2 LDB B 2 L J)
  let t7 ← rdC (el3 2 2 LDA A 2 L I)
  let t8 ← rdC (el3 2 2 LDB B 1 L J)
  let HTMP1J : Cplx F := HTMP1J +ᶜ t5 *ᶜ t6 +ᶜ t7 *ᶜ Cplx.conj t8
  pure (HTMP1J, HTMP1S)

/-- `src/hblas/fortran/hblas3/hgemmhh.f:140-163`, body of `DO 100 I`. -/
def hgemmhh_100_I (A : Int) (ALPHA : Quat F) (B : Int) (BETA : Quat F) (BZERO : Bool) (C : Int) (J : Int) (K : Int) (LDA : Int) (LDB : Int) (LDC : Int) (I : Int)  : Prog F (Unit) := do
  let HTMP1S : Cplx F := (⟨zero, zero⟩ : Cplx F)
  let HTMP1J : Cplx F := (⟨zero, zero⟩ : Cplx F)
  let r ← foldN (K).toNat (fun i (s : Cplx F × Cplx F) => hgemmhh_110_L A B I J LDA LDB ((i : Int) + 1) s.1 s.2) (HTMP1J, HTMP1S)
  let HTMP1J : Cplx F := r.1
  let HTMP1S : Cplx F := r.2
  let _ ← (do
    if BZERO then
      wrC (el3 2 2 LDC C 1 I J) (Quat.lo ALPHA *ᶜ HTMP1S -ᶜ Quat.hi ALPHA *ᶜ Cplx.conj HTMP1J)
      wrC (el3 2 2 LDC C 2 I J) (Quat.lo ALPHA *ᶜ HTMP1J +ᶜ Quat.hi ALPHA *ᶜ Cplx.conj HTMP1S)
      pure ()
    else
      let t1 ← rdC (el3 2 2 LDC C 1 I J)
      let t2 ← rdC (el3 2 2 LDC C 2 I J)
      let HTMP2S : Cplx F := Quat.lo ALPHA *ᶜ HTMP1S -ᶜ Quat.hi ALPHA *ᶜ Cplx.conj HTMP1J +ᶜ Quat.lo BETA *ᶜ t1 -ᶜ Quat.hi BETA *ᶜ Cplx.conj t2
      let t3 ← rdC (el3 2 2 LDC C 2 I J)
      let t4 ← rdC (el3 2 2 LDC C 1 I J)
      wrC (el3 2 2 LDC C 2 I J) (Quat.lo ALPHA *ᶜ HTMP1J +ᶜ Quat.hi ALPHA *ᶜ Cplx.conj HTMP1S +ᶜ Quat.lo BETA *ᶜ t3 +ᶜ Quat.hi BETA *ᶜ Cplx.conj t4)
      wrC (el3 2 2 LDC C 1 I J) HTMP2S
      pure () : Prog F Unit)
  pure ()

/-- `src/hblas/fortran/hblas3/hgemmhh.f:139-163`, body of `DO 100 J`. -/
def hgemmhh_100_J (A : Int) (ALPHA : Quat F) (B : Int) (BETA : Quat F) (BZERO : Bool) (C : Int) (K : Int) (LDA : Int) (LDB : Int) (LDC : Int) (M : Int) (J : Int)  : Prog F (Unit) := do
  forN (M).toNat (fun i => hgemmhh_100_I A ALPHA B BETA BZERO C J K LDA LDB LDC ((i : Int) + 1))
  pure ()

/-- `src/hblas/fortran/hblas3/hgemmhh.f:67-164`. -/
def hgemmhh_if67 (A : Int) (ALPHA : Quat F) (B : Int) (BETA : Quat F) (BONE : Bool) (BZERO : Bool) (C : Int) (CONJA : Bool) (K : Int) (LDA : Int) (LDB : Int) (LDC : Int) (M : Int) (N : Int) (NOTA : Bool) : Prog F (Unit) := do
  if NOTA then
    forN (N).toNat (fun i => hgemmhh_30_J A ALPHA B BETA BONE BZERO C K LDA LDB LDC M ((i : Int) + 1))
    pure ()
  else if CONJA then
    forN (N).toNat (fun i => hgemmhh_80_J A ALPHA B BETA BZERO C K LDA LDB LDC M ((i : Int) + 1))
    pure ()
  else
    forN (N).toNat (fun i => hgemmhh_100_J A ALPHA B BETA BZERO C K LDA LDB LDC M ((i : Int) + 1))
    pure ()

/-- `src/hblas/fortran/hblas3/hgemmhh.f:172-175`, body of `DO 130 I`. -/
def hgemmhh_130_I (C : Int) (J : Int) (LDC : Int) (I : Int)  : Prog F (Unit) := do
  wrC (el3 2 2 LDC C 1 I J) (⟨zero, zero⟩ : Cplx F)
  wrC (el3 2 2 LDC C 2 I J) (⟨zero, zero⟩ : Cplx F)
  pure ()

/-- `src/hblas/fortran/hblas3/hgemmhh.f:177-181`, body of `DO 140 I`. -/
def hgemmhh_140_I (BETA : Quat F) (C : Int) (J : Int) (LDC : Int) (I : Int)  : Prog F (Unit) := do
  let t1 ← rdC (el3 2 2 LDC C 1 I J)
  let t2 ← rdC (el3 2 2 LDC C 2 I J)
  let HTMP1S : Cplx F := Quat.lo BETA *ᶜ t1 -ᶜ Quat.hi BETA *ᶜ Cplx.conj t2
  let t3 ← rdC (el3 2 2 LDC C 2 I J)
  let t4 ← rdC (el3 2 2 LDC C 1 I J)
  wrC (el3 2 2 LDC C 2 I J) (Quat.lo BETA *ᶜ t3 +ᶜ Quat.hi BETA *ᶜ Cplx.conj t4)
  wrC (el3 2 2 LDC C 1 I J) HTMP1S
  pure ()

/-- `src/hblas/fortran/hblas3/hgemmhh.f:171-182`. -/
def hgemmhh_if171 (BETA : Quat F) (BONE : Bool) (BZERO : Bool) (C : Int) (J : Int) (LDC : Int) (M : Int) : Prog F (Unit) := do
  if BZERO then
    forN (M).toNat (fun i => hgemmhh_130_I C J LDC ((i : Int) + 1))
    pure ()
  else if !BONE then
    forN (M).toNat (fun i => hgemmhh_140_I BETA C J LDC ((i : Int) + 1))
    pure ()
  else
    pure ()

/-- `src/hblas/fortran/hblas3/hgemmhh.f:193-201`, body of `DO 160 I`. -/
def hgemmhh_160_I (A : Int) (C : Int) (HTMP1J : Cplx F) (HTMP1S : Cplx F) (HTMP2J : Cplx F) (HTMP2S : Cplx F) (HTMP3J : Cplx F) (HTMP3S : Cplx F) (HTMP4J : Cplx F) (HTMP4S : Cplx F) (J : Int) (L : Int) (LDA : Int) (LDC : Int) (I : Int)  : Prog F (Unit) := do
  let t1 ← rdC (el3 2 2 LDC C 1 I J)
  let t2 ← rdC (el3 2 2 LDA A 1 I L)
  let t3 ← rdC (el3 2 2 LDA A 2 I L)
  let t4 ← rdC (el3 2 2 LDA A 1 I L)
  let t5 ← rdC (el3 2 2 LDA A 2 I L)
  wrC (el3 2 2 LDC C 1 I J) (t1 +ᶜ t2 *ᶜ HTMP2S -ᶜ t3 *ᶜ HTMP2J -ᶜ Cplx.conj t4 *ᶜ HTMP4J -ᶜ Cplx.conj t5 *ᶜ HTMP4S)
  let t6 ← rdC (el3 2 2 LDC C 2 I J)
  let t7 ← rdC (el3 2 2 LDA A 1 I L)
  let t8 ← rdC (el3 2 2 LDA A 2 I L)
  let t9 ← rdC (el3 2 2 LDA A 1 I L)
  let t10 ← rdC (el3 2 2 LDA A 2 I L)
  wrC (el3 2 2 LDC C 2 I J) (t6 +ᶜ t7 *ᶜ HTMP1J +ᶜ t8 *ᶜ HTMP1S +ᶜ Cplx.conj t9 *ᶜ HTMP3S -ᶜ Cplx.conj t10 *ᶜ HTMP3J)
  pure ()

/-- `src/hblas/fortran/hblas3/hgemmhh.f:184-202`, body of `DO 150 L`. -/
def hgemmhh_150_L (A : Int) (ALPHA : Quat F) (B : Int) (C : Int) (J : Int) (LDA : Int) (LDB : Int) (LDC : Int) (M : Int) (L : Int)  : Prog F (Unit) := do
  let t1 ← rdC (el3 2 2 LDB B 1 J L)
  let HTMP1S : Cplx F := Quat.lo ALPHA *ᶜ t1
  let t2 ← rdC (el3 2 2 LDB B 2 J L)
  let HTMP1J : Cplx F := Cplx.neg (Quat.lo ALPHA *ᶜ t2)
  let t3 ← rdC (el3 2 2 LDB B 1 J L)
  let HTMP2S : Cplx F := Quat.lo ALPHA *ᶜ Cplx.conj t3
  let t4 ← rdC (el3 2 2 LDB B 2 J L)
  let HTMP2J : Cplx F := Cplx.neg (Quat.lo ALPHA *ᶜ Cplx.conj t4)
  let t5 ← rdC (el3 2 2 LDB B 1 J L)
  let HTMP3S : Cplx F := Quat.hi ALPHA *ᶜ t5
  let t6 ← rdC (el3 2 2 LDB B 2 J L)
  let HTMP3J : Cplx F := Cplx.neg (Quat.hi ALPHA *ᶜ t6)
  let t7 ← rdC (el3 2 2 LDB B 1 J L)
  let HTMP4S : Cplx F := Quat.hi ALPHA *ᶜ Cplx.conj t7
  let t8 ← rdC (el3 2 2 LDB B 2 J L)
  let HTMP4J : Cplx F := Cplx.neg (Quat.hi ALPHA *ᶜ Cplx.conj t8)
  forN (M).toNat (fun i => hgemmhh_160_I A C HTMP1J HTMP1S HTMP2J HTMP2S HTMP3J HTMP3S HTMP4J HTMP4S J L LDA LDC ((i : Int) + 1))
  pure ()

/-- `src/hblas/fortran/hblas3/hgemmhh.f:170-203`, body of `DO 120 J`. -/
def hgemmhh_120_J (A : Int) (ALPHA : Quat F) (B : Int) (BETA : Quat F) (BONE : Bool) (BZERO : Bool) (C : Int) (K : Int) (LDA : Int) (LDB : Int) (LDC : Int) (M : Int) (J : Int)  : Prog F (Unit) := do
  hgemmhh_if171 BETA BONE BZERO C J LDC M
  forN (K).toNat (fun i => hgemmhh_150_L A ALPHA B C J LDA LDB LDC M ((i : Int) + 1))
  pure ()

/-- `src/hblas/fortran/hblas3/hgemmhh.f:211-214`, body of `DO 180 I`. -/
def hgemmhh_180_I (C : Int) (J : Int) (LDC : Int) (I : Int)  : Prog F (Unit) := do
  wrC (el3 2 2 LDC C 1 I J) (⟨zero, zero⟩ : Cplx F)
  wrC (el3 2 2 LDC C 2 I J) (⟨zero, zero⟩ : Cplx F)
  pure ()

/-- `src/hblas/fortran/hblas3/hgemmhh.f:216-220`, body of `DO 190 I`. -/
def hgemmhh_190_I (BETA : Quat F) (C : Int) (J : Int) (LDC : Int) (I : Int)  : Prog F (Unit) := do
  let t1 ← rdC (el3 2 2 LDC C 1 I J)
  let t2 ← rdC (el3 2 2 LDC C 2 I J)
  let HTMP1S : Cplx F := Quat.lo BETA *ᶜ t1 -ᶜ Quat.hi BETA *ᶜ Cplx.conj t2
  let t3 ← rdC (el3 2 2 LDC C 2 I J)
  let t4 ← rdC (el3 2 2 LDC C 1 I J)
  wrC (el3 2 2 LDC C 2 I J) (Quat.lo BETA *ᶜ t3 +ᶜ Quat.hi BETA *ᶜ Cplx.conj t4)
  wrC (el3 2 2 LDC C 1 I J) HTMP1S
  pure ()

/-- `src/hblas/fortran/hblas3/hgemmhh.f:210-221`. -/
def hgemmhh_if210 (BETA : Quat F) (BONE : Bool) (BZERO : Bool) (C : Int) (J : Int) (LDC : Int) (M : Int) : Prog F (Unit) := do
  if BZERO then
    forN (M).toNat (fun i => hgemmhh_180_I C J LDC ((i : Int) + 1))
    pure ()
  else if !BONE then
    forN (M).toNat (fun i => hgemmhh_190_I BETA C J LDC ((i : Int) + 1))
    pure ()
  else
    pure ()

/-- `src/hblas/fortran/hblas3/hgemmhh.f:232-240`, body of `DO 210 I`. -/
def hgemmhh_210_I (A : Int) (C : Int) (HTMP1J : Cplx F) (HTMP1S : Cplx F) (HTMP2J : Cplx F) (HTMP2S : Cplx F) (HTMP3J : Cplx F) (HTMP3S : Cplx F) (HTMP4J : Cplx F) (HTMP4S : Cplx F) (J : Int) (L : Int) (LDA : Int) (LDC : Int) (I : Int)  : Prog F (Unit) := do
  let t1 ← rdC (el3 2 2 LDC C 1 I J)
  let t2 ← rdC (el3 2 2 LDA A 1 I L)
  let t3 ← rdC (el3 2 2 LDA A 2 I L)
  let t4 ← rdC (el3 2 2 LDA A 1 I L)
  let t5 ← rdC (el3 2 2 LDA A 2 I L)
  wrC (el3 2 2 LDC C 1 I J) (t1 +ᶜ t2 *ᶜ HTMP1S -ᶜ t3 *ᶜ HTMP2J -ᶜ Cplx.conj t4 *ᶜ HTMP4J -ᶜ Cplx.conj t5 *ᶜ HTMP3S)
  let t6 ← rdC (el3 2 2 LDC C 2 I J)
  let t7 ← rdC (el3 2 2 LDA A 1 I L)
  let t8 ← rdC (el3 2 2 LDA A 2 I L)
  let t9 ← rdC (el3 2 2 LDA A 1 I L)
  let t10 ← rdC (el3 2 2 LDA A 2 I L)
  wrC (el3 2 2 LDC C 2 I J) (t6 +ᶜ t7 *ᶜ HTMP1J +ᶜ t8 *ᶜ HTMP2S +ᶜ Cplx.conj t9 *ᶜ HTMP4S -ᶜ Cplx.conj t10 *ᶜ HTMP3J)
  pure ()

/-- `src/hblas/fortran/hblas3/hgemmhh.f:223-241`, body of `DO 200 L`. -/
def hgemmhh_200_L (A : Int) (ALPHA : Quat F) (B : Int) (C : Int) (J : Int) (LDA : Int) (LDB : Int) (LDC : Int) (M : Int) (L : Int)  : Prog F (Unit) := do
  let t1 ← rdC (el3 2 2 LDB B 1 J L)
  let HTMP1S : Cplx F := Quat.lo ALPHA *ᶜ t1
  let t2 ← rdC (el3 2 2 LDB B 2 J L)
  let HTMP1J : Cplx F := Quat.lo ALPHA *ᶜ t2
  let t3 ← rdC (el3 2 2 LDB B 1 J L)
  let HTMP2S : Cplx F := Quat.lo ALPHA *ᶜ Cplx.conj t3
  let t4 ← rdC (el3 2 2 LDB B 2 J L)
  let HTMP2J : Cplx F := Quat.lo ALPHA *ᶜ Cplx.conj t4
  let t5 ← rdC (el3 2 2 LDB B 1 J L)
  let HTMP3S : Cplx F := Quat.hi ALPHA *ᶜ t5
  let t6 ← rdC (el3 2 2 LDB B 2 J L)
  let HTMP3J : Cplx F := Quat.hi ALPHA *ᶜ t6
  let t7 ← rdC (el3 2 2 LDB B 1 J L)
  let HTMP4S : Cplx F := Quat.hi ALPHA *ᶜ Cplx.conj t7
  let t8 ← rdC (el3 2 2 LDB B 2 J L)
  let HTMP4J : Cplx F := Quat.hi ALPHA *ᶜ Cplx.conj t8
  forN (M).toNat (fun i => hgemmhh_210_I A C HTMP1J HTMP1S HTMP2J HTMP2S HTMP3J HTMP3S HTMP4J HTMP4S J L LDA LDC ((i : Int) + 1))
  pure ()

/-- `src/hblas/fortran/hblas3/hgemmhh.f:209-242`, body of `DO 170 J`. -/
def hgemmhh_170_J (A : Int) (ALPHA : Quat F) (B : Int) (BETA : Quat F) (BONE : Bool) (BZERO : Bool) (C : Int) (K : Int) (LDA : Int) (LDB : Int) (LDC : Int) (M : Int) (J : Int)  : Prog F (Unit) := do
  hgemmhh_if210 BETA BONE BZERO C J LDC M
  forN (K).toNat (fun i => hgemmhh_200_L A ALPHA B C J LDA LDB LDC M ((i : Int) + 1))
  pure ()

/-- `src/hblas/fortran/hblas3/hgemmhh.f:166-243`. -/
def hgemmhh_if166 (A : Int) (ALPHA : Quat F) (B : Int) (BETA : Quat F) (BONE : Bool) (BZERO : Bool) (C : Int) (CONJB : Bool) (K : Int) (LDA : Int) (LDB : Int) (LDC : Int) (M : Int) (N : Int) : Prog F (Unit) := do
  if CONJB then
    forN (N).toNat (fun i => hgemmhh_120_J A ALPHA B BETA BONE BZERO C K LDA LDB LDC M ((i : Int) + 1))
    pure ()
  else
    forN (N).toNat (fun i => hgemmhh_170_J A ALPHA B BETA BONE BZERO C K LDA LDB LDC M ((i : Int) + 1))
    pure ()

/-- `src/hblas/fortran/hblas3/hgemmhh.f:253-260`, body of `DO 230 L`. -/
def hgemmhh_230_L (A : Int) (B : Int) (I : Int) (J : Int) (LDA : Int) (LDB : Int) (L : Int) (HTMP1J : Cplx F) (HTMP1S : Cplx F) : Prog F (Cplx F × Cplx F) := do
  let t1 ← rdC (el3 2 2 LDA A 1 L I)
  let t2 ← rdC (el3 2 2 LDB B 1 J L)
  let t3 ← rdC (el3 2 2 LDA A 2 L I)
  let t4 ← rdC (el3 2 2 LDB B 2 J L)
  let HTMP1S : Cplx F := HTMP1S +ᶜ Cplx.conj t1 *ᶜ Cplx.conj t2 -ᶜ t3 *ᶜ Cplx.conj t4
  let t5 ← rdC (el3 2 2 LDA A 1 L I)
  let t6 ← rdC (el3 2 2 LDB B 2 J L)
  let t7 ← rdC (el3 2 2 LDA A 2 L I)
  let t8 ← rdC (el3 2 2 LDB B 1 J L)
  let HTMP1J : Cplx F := HTMP1J -ᶜ Cplx.conj t5 *ᶜ t6 -ᶜ t7 *ᶜ t8
  pure (HTMP1J, HTMP1S)

/-- `src/hblas/fortran/hblas3/hgemmhh.f:250-274`, body of `DO 220 I`. -/
def hgemmhh_220_I (A : Int) (ALPHA : Quat F) (B : Int) (BETA : Quat F) (BZERO : Bool) (C : Int) (J : Int) (K : Int) (LDA : Int) (LDB : Int) (LDC : Int) (I : Int)  : Prog F (Unit) := do
  let HTMP1S : Cplx F := (⟨zero, zero⟩ : Cplx F)
  let HTMP1J : Cplx F := (⟨zero, zero⟩ : Cplx F)
  let r ← foldN (K).toNat (fun i (s : Cplx F × Cplx F) => hgemmhh_230_L A B I J LDA LDB ((i : Int) + 1) s.1 s.2) (HTMP1J, HTMP1S)
  let HTMP1J : Cplx F := r.1
  let HTMP1S : Cplx F := r.2
  let _ ← (do
    if BZERO then
      wrC (el3 2 2 LDC C 1 I J) (Quat.lo ALPHA *ᶜ HTMP1S -ᶜ Quat.hi ALPHA *ᶜ Cplx.conj HTMP1J)
      wrC (el3 2 2 LDC C 2 I J) (Quat.lo ALPHA *ᶜ HTMP1J +ᶜ Quat.hi ALPHA *ᶜ Cplx.conj HTMP1S)
      pure ()
    else
      let t1 ← rdC (el3 2 2 LDC C 1 I J)
      let t2 ← rdC (el3 2 2 LDC C 2 I J)
      let HTMP2S : Cplx F := Quat.lo ALPHA *ᶜ HTMP1S -ᶜ Quat.hi ALPHA *ᶜ Cplx.conj HTMP1J +ᶜ Quat.lo BETA *ᶜ t1 -ᶜ Quat.hi BETA *ᶜ Cplx.conj t2
      let t3 ← rdC (el3 2 2 LDC C 2 I J)
      let t4 ← rdC (el3 2 2 LDC C 1 I J)
      wrC (el3 2 2 LDC C 2 I J) (Quat.lo ALPHA *ᶜ HTMP1J +ᶜ Quat.hi ALPHA *ᶜ Cplx.conj HTMP1S +ᶜ Quat.lo BETA *ᶜ t3 +ᶜ Quat.hi BETA *ᶜ Cplx.conj t4)
      wrC (el3 2 2 LDC C 1 I J) HTMP2S
      pure () : Prog F Unit)
  pure ()

/-- `src/hblas/fortran/hblas3/hgemmhh.f:249-274`, body of `DO 220 J`. -/
def hgemmhh_220_J (A : Int) (ALPHA : Quat F) (B : Int) (BETA : Quat F) (BZERO : Bool) (C : Int) (K : Int) (LDA : Int) (LDB : Int) (LDC : Int) (M : Int) (J : Int)  : Prog F (Unit) := do
  forN (M).toNat (fun i => hgemmhh_220_I A ALPHA B BETA BZERO C J K LDA LDB LDC ((i : Int) + 1))
  pure ()

/-- `src/hblas/fortran/hblas3/hgemmhh.f:284-290`, body of `DO 250 L`. -/
def hgemmhh_250_L (A : Int) (B : Int) (I : Int) (J : Int) (LDA : Int) (LDB : Int) (L : Int) (HTMP1J : Cplx F) (HTMP1S : Cplx F) : Prog F (Cplx F × Cplx F) := do
  let t1 ← rdC (el3 2 2 LDA A 1 L I)
  let t2 ← rdC (el3 2 2 LDB B 1 J L)
  let t3 ← rdC (el3 2 2 LDA A 2 L I)
  let t4 ← rdC (el3 2 2 LDB B 2 J L)
  let HTMP1S : Cplx F := HTMP1S +ᶜ Cplx.conj t1 *ᶜ t2 +ᶜ t3 *ᶜ Cplx.conj t4
  let t5 ← rdC (el3 2 2 LDA A 1 L I)
  let t6 ← rdC (el3 2 2 LDB B 2 J L)
  let t7 ← rdC (el3 2 2 LDA A 2 L I)
  let t8 ← rdC (el3 2 2 LDB B 1 J L)
  let HTMP1J : Cplx F := HTMP1J +ᶜ Cplx.conj t5 *ᶜ t6 -ᶜ t7 *ᶜ Cplx.conj t8
  pure (HTMP1J, HTMP1S)

/-- `src/hblas/fortran/hblas3/hgemmhh.f:281-304`, body of `DO 240 I`. -/
def hgemmhh_240_I (A : Int) (ALPHA : Quat F) (B : Int) (BETA : Quat F) (BZERO : Bool) (C : Int) (J : Int) (K : Int) (LDA : Int) (LDB : Int) (LDC : Int) (I : Int)  : Prog F (Unit) := do
  let HTMP1S : Cplx F := (⟨zero, zero⟩ : Cplx F)
  let HTMP1J : Cplx F := (⟨zero, zero⟩ : Cplx F)
  let r ← foldN (K).toNat (fun i (s : Cplx F × Cplx F) => hgemmhh_250_L A B I J LDA LDB ((i : Int) + 1) s.1 s.2) (HTMP1J, HTMP1S)
  let HTMP1J : Cplx F := r.1
  let HTMP1S : Cplx F := r.2
  let _ ← (do
    if BZERO then
      wrC (el3 2 2 LDC C 1 I J) (Quat.lo ALPHA *ᶜ HTMP1S -ᶜ Quat.hi ALPHA *ᶜ Cplx.conj HTMP1J)
      wrC (el3 2 2 LDC C 2 I J) (Quat.lo ALPHA *ᶜ HTMP1J +ᶜ Quat.hi ALPHA *ᶜ Cplx.conj HTMP1S)
      pure ()
    else
      let t1 ← rdC (el3 2 2 LDC C 1 I J)
      let t2 ← rdC (el3 2 2 LDC C 2 I J)
      let HTMP2S : Cplx F := Quat.lo ALPHA *ᶜ HTMP1S -ᶜ Quat.hi ALPHA *ᶜ Cplx.conj HTMP1J +ᶜ Quat.lo BETA *ᶜ t1 -ᶜ Quat.hi BETA *ᶜ Cplx.conj t2
      let t3 ← rdC (el3 2 2 LDC C 2 I J)
      let t4 ← rdC (el3 2 2 LDC C 1 I J)
      wrC (el3 2 2 LDC C 2 I J) (Quat.lo ALPHA *ᶜ HTMP1J +ᶜ Quat.hi ALPHA *ᶜ Cplx.conj HTMP1S +ᶜ Quat.lo BETA *ᶜ t3 +ᶜ Quat.hi BETA *ᶜ Cplx.conj t4)
      wrC (el3 2 2 LDC C 1 I J) HTMP2S
      pure () : Prog F Unit)
  pure ()

/-- `src/hblas/fortran/hblas3/hgemmhh.f:280-304`, body of `DO 240 J`. -/
def hgemmhh_240_J (A : Int) (ALPHA : Quat F) (B : Int) (BETA : Quat F) (BZERO : Bool) (C : Int) (K : Int) (LDA : Int) (LDB : Int) (LDC : Int) (M : Int) (J : Int)  : Prog F (Unit) := do
  forN (M).toNat (fun i => hgemmhh_240_I A ALPHA B BETA BZERO C J K LDA LDB LDC ((i : Int) + 1))
  pure ()

/-- `src/hblas/fortran/hblas3/hgemmhh.f:245-305`. -/
def hgemmhh_if245 (A : Int) (ALPHA : Quat F) (B : Int) (BETA : Quat F) (BZERO : Bool) (C : Int) (CONJB : Bool) (K : Int) (LDA : Int) (LDB : Int) (LDC : Int) (M : Int) (N : Int) : Prog F (Unit) := do
  if CONJB then
    forN (N).toNat (fun i => hgemmhh_220_J A ALPHA B BETA BZERO C K LDA LDB LDC M ((i : Int) + 1))
    pure ()
  else
    forN (N).toNat (fun i => hgemmhh_240_J A ALPHA B BETA BZERO C K LDA LDB LDC M ((i : Int) + 1))
    pure ()

/-- `src/hblas/fortran/hblas3/hgemmhh.f:316-322`, body of `DO 270 L`. -/
def hgemmhh_270_L (A : Int) (B : Int) (I : Int) (J : Int) (LDA : Int) (LDB : Int) (L : Int) (HTMP1J : Cplx F) (HTMP1S : Cplx F) : Prog F (Cplx F × Cplx F) := do
  let t1 ← rdC (el3 2 2 LDA A 1 L I)
  let t2 ← rdC (el3 2 2 LDB B 1 J L)
  let t3 ← rdC (el3 2 2 LDA A 2 L I)
  let t4 ← rdC (el3 2 2 LDB B 2 J L)
  let HTMP1S : Cplx F := HTMP1S +ᶜ t1 *ᶜ Cplx.conj t2 +ᶜ t3 *ᶜ Cplx.conj t4
  let t5 ← rdC (el3 2 2 LDA A 1 L I)
  let t6 ← rdC (el3 2 2 LDB B 2 J L)
  let t7 ← rdC (el3 2 2 LDA A 2 L I)
  let t8 ← rdC (el3 2 2 LDB B 1 J L)
  let HTMP1J : Cplx F := HTMP1J -ᶜ t5 *ᶜ t6 +ᶜ t7 *ᶜ t8
  pure (HTMP1J, HTMP1S)

/-- `src/hblas/fortran/hblas3/hgemmhh.f:313-336`, body of `DO 260 I`. -/
def hgemmhh_260_I (A : Int) (ALPHA : Quat F) (B : Int) (BETA : Quat F) (BZERO : Bool) (C : Int) (J : Int) (K : Int) (LDA : Int) (LDB : Int) (LDC : Int) (I : Int)  : Prog F (Unit) := do
  let HTMP1S : Cplx F := (⟨zero, zero⟩ : Cplx F)
  let HTMP1J : Cplx F := (⟨zero, zero⟩ : Cplx F)
  let r ← foldN (K).toNat (fun i (s : Cplx F × Cplx F) => hgemmhh_270_L A B I J LDA LDB ((i : Int) + 1) s.1 s.2) (HTMP1J, HTMP1S)
  let HTMP1J : Cplx F := r.1
  let HTMP1S : Cplx F := r.2
  let _ ← (do
    if BZERO then
      wrC (el3 2 2 LDC C 1 I J) (Quat.lo ALPHA *ᶜ HTMP1S -ᶜ Quat.hi ALPHA *ᶜ Cplx.conj HTMP1J)
      wrC (el3 2 2 LDC C 2 I J) (Quat.lo ALPHA *ᶜ HTMP1J +ᶜ Quat.hi ALPHA *ᶜ Cplx.conj HTMP1S)
      pure ()
    else
      let t1 ← rdC (el3 2 2 LDC C 1 I J)
      let t2 ← rdC (el3 2 2 LDC C 2 I J)
      let HTMP2S : Cplx F := Quat.lo ALPHA *ᶜ HTMP1S -ᶜ Quat.hi ALPHA *ᶜ Cplx.conj HTMP1J +ᶜ Quat.lo BETA *ᶜ t1 -ᶜ Quat.hi BETA *ᶜ Cplx.conj t2
      let t3 ← rdC (el3 2 2 LDC C 2 I J)
      let t4 ← rdC (el3 2 2 LDC C 1 I J)
      wrC (el3 2 2 LDC C 2 I J) (Quat.lo ALPHA *ᶜ HTMP1J +ᶜ Quat.hi ALPHA *ᶜ Cplx.conj HTMP1S +ᶜ Quat.lo BETA *ᶜ t3 +ᶜ Quat.hi BETA *ᶜ Cplx.conj t4)
      wrC (el3 2 2 LDC C 1 I J) HTMP2S
      pure () : Prog F Unit)
  pure ()

/-- `src/hblas/fortran/hblas3/hgemmhh.f:312-336`, body of `DO 260 J`. -/
def hgemmhh_260_J (A : Int) (ALPHA : Quat F) (B : Int) (BETA : Quat F) (BZERO : Bool) (C : Int) (K : Int) (LDA : Int) (LDB : Int) (LDC : Int) (M : Int) (J : Int)  : Prog F (Unit) := do
  forN (M).toNat (fun i => hgemmhh_260_I A ALPHA B BETA BZERO C J K LDA LDB LDC ((i : Int) + 1))
  pure ()

/-- `src/hblas/fortran/hblas3/hgemmhh.f:345-351`, body of `DO 290 L`. -/
def hgemmhh_290_L (A : Int) (B : Int) (I : Int) (J : Int) (LDA : Int) (LDB : Int) (L : Int) (HTMP1J : Cplx F) (HTMP1S : Cplx F) : Prog F (Cplx F × Cplx F) := do
  let t1 ← rdC (el3 2 2 LDA A 1 L I)
  let t2 ← rdC (el3 2 2 LDB B 1 J L)
  let t3 ← rdC (el3 2 2 LDA A 2 L I)
  let t4 ← rdC (el3 2 2 LDB B 2 J L)
  let HTMP1S : Cplx F := HTMP1S +ᶜ t1 *ᶜ t2 -ᶜ t3 *ᶜ Cplx.conj t4
  let t5 ← rdC (el3 2 2 LDA A 1 L I)
  let t6 ← rdC (el3 2 2 LDB B 2 J L)
  let t7 ← rdC (el3 2 2 LDA A 2 L I)
  let t8 ← rdC (el3 2 2 LDB B 1 J L)
  let HTMP1J : Cplx F := HTMP1J +ᶜ t5 *ᶜ t6 +ᶜ t7 *ᶜ Cplx.conj t8
  pure (HTMP1J, HTMP1S)

/-- `src/hblas/fortran/hblas3/hgemmhh.f:342-365`, body of `DO 280 I`. -/
def hgemmhh_280_I (A : Int) (ALPHA : Quat F) (B : Int) (BETA : Quat F) (BZERO : Bool) (C : Int) (J : Int) (K : Int) (LDA : Int) (LDB : Int) (LDC : Int) (I : Int)  : Prog F (Unit) := do
  let HTMP1S : Cplx F := (⟨zero, zero⟩ : Cplx F)
  let HTMP1J : Cplx F := (⟨zero, zero⟩ : Cplx F)
  let r ← foldN (K).toNat (fun i (s : Cplx F × Cplx F) => hgemmhh_290_L A B I J LDA LDB ((i : Int) + 1) s.1 s.2) (HTMP1J, HTMP1S)
  let HTMP1J : Cplx F := r.1
  let HTMP1S : Cplx F := r.2
  let _ ← (do
    if BZERO then
      wrC (el3 2 2 LDC C 1 I J) (Quat.lo ALPHA *ᶜ HTMP1S -ᶜ Quat.hi ALPHA *ᶜ Cplx.conj HTMP1J)
      wrC (el3 2 2 LDC C 2 I J) (Quat.lo ALPHA *ᶜ HTMP1J +ᶜ Quat.hi ALPHA *ᶜ Cplx.conj HTMP1S)
      pure ()
    else
      let t1 ← rdC (el3 2 2 LDC C 1 I J)
      let t2 ← rdC (el3 2 2 LDC C 2 I J)
      let HTMP2S : Cplx F := Quat.lo ALPHA *ᶜ HTMP1S -ᶜ Quat.hi ALPHA *ᶜ Cplx.conj HTMP1J +ᶜ Quat.lo BETA *ᶜ t1 -ᶜ Quat.hi BETA *ᶜ Cplx.conj t2
      let t3 ← rdC (el3 2 2 LDC C 2 I J)
      let t4 ← rdC (el3 2 2 LDC C 1 I J)
      wrC (el3 2 2 LDC C 2 I J) (Quat.lo ALPHA *ᶜ HTMP1J +ᶜ Quat.hi ALPHA *ᶜ Cplx.conj HTMP1S +ᶜ Quat.lo BETA *ᶜ t3 +ᶜ Quat.hi BETA *ᶜ Cplx.conj t4)
      wrC (el3 2 2 LDC C 1 I J) HTMP2S
      pure () : Prog F Unit)
  pure ()

/-- `src/hblas/fortran/hblas3/hgemmhh.f:341-365`, body of `DO 280 J`. -/
def hgemmhh_280_J (A : Int) (ALPHA : Quat F) (B : Int) (BETA : Quat F) (BZERO : Bool) (C : Int) (K : Int) (LDA : Int) (LDB : Int) (LDC : Int) (M : Int) (J : Int)  : Prog F (Unit) := do
  forN (M).toNat (fun i => hgemmhh_280_I A ALPHA B BETA BZERO C J K LDA LDB LDC ((i : Int) + 1))
  pure ()

/-- `src/hblas/fortran/hblas3/hgemmhh.f:308-366`. -/
def hgemmhh_if308 (A : Int) (ALPHA : Quat F) (B : Int) (BETA : Quat F) (BZERO : Bool) (C : Int) (CONJB : Bool) (K : Int) (LDA : Int) (LDB : Int) (LDC : Int) (M : Int) (N : Int) : Prog F (Unit) := do
  if CONJB then
    forN (N).toNat (fun i => hgemmhh_260_J A ALPHA B BETA BZERO C K LDA LDB LDC M ((i : Int) + 1))
    pure ()
  else
    forN (N).toNat (fun i => hgemmhh_280_J A ALPHA B BETA BZERO C K LDA LDB LDC M ((i : Int) + 1))
    pure ()

/-- `src/hblas/fortran/hblas3/hgemmhh.f:66-367`. -/
def hgemmhh_if66 (A : Int) (ALPHA : Quat F) (B : Int) (BETA : Quat F) (BONE : Bool) (BZERO : Bool) (C : Int) (CONJA : Bool) (CONJB : Bool) (K : Int) (LDA : Int) (LDB : Int) (LDC : Int) (M : Int) (N : Int) (NOTA : Bool) (NOTB : Bool) : Prog F (Unit) := do
  if NOTB then
    hgemmhh_if67 A ALPHA B BETA BONE BZERO C CONJA K LDA LDB LDC M N NOTA
    pure ()
  else if NOTA then
    hgemmhh_if166 A ALPHA B BETA BONE BZERO C CONJB K LDA LDB LDC M N
    pure ()
  else if CONJA then
    hgemmhh_if245 A ALPHA B BETA BZERO C CONJB K LDA LDB LDC M N
    pure ()
  else
    hgemmhh_if308 A ALPHA B BETA BZERO C CONJB K LDA LDB LDC M N
    pure ()

/-- `src/hblas/fortran/hblas3/hgemmhh.f:9-368`. -/
def hgemmhh (TRANSA : Char) (TRANSB : Char) (M : Int) (N : Int) (K : Int) (ALPHA : Quat F) (A : Int) (LDA : Int) (B : Int) (LDB : Int) (BETA : Quat F) (C : Int) (LDC : Int) : Prog F (Unit) := do
  let NOTA : Bool := lsame TRANSA 'N'
  let NOTB : Bool := lsame TRANSB 'N'
  let CONJA : Bool := lsame TRANSA 'C'
  let CONJB : Bool := lsame TRANSB 'C'
  let AZERO : Bool := (Cplx.feq (Quat.lo ALPHA) (⟨zero, zero⟩ : Cplx F)) && (Cplx.feq (Quat.hi ALPHA) (⟨zero, zero⟩ : Cplx F))
  -- AONE (line 35) is never read
  let BZERO : Bool := (Cplx.feq (Quat.lo BETA) (⟨zero, zero⟩ : Cplx F)) && (Cplx.feq (Quat.hi BETA) (⟨zero, zero⟩ : Cplx F))
  let BONE : Bool := (Cplx.feq (Quat.lo BETA) (⟨one, zero⟩ : Cplx F)) && (Cplx.feq (Quat.hi BETA) (⟨zero, zero⟩ : Cplx F))
  if (decide (M = 0)) || (decide (N = 0)) then
    pure ()
  else
    if (AZERO || (decide (K = 0))) && BONE then
      pure ()
    else
      if AZERO then
        hgemmhh_if49 BETA BZERO C LDC M N
        pure ()
      else
        hgemmhh_if66 A ALPHA B BETA BONE BZERO C CONJA CONJB K LDA LDB LDC M N NOTA NOTB
        pure ()

end Haxx
