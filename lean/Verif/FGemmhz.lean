import Verif.Fortran

/-!
# Fortran GEMM, hz

Generated by `tools/f2lean.py` from the Fortran sources cited on each definition; do not edit.
-/

set_option linter.unusedVariables false

namespace Haxx
open Arith

variable {F : Type} [Arith F] [ArithEq F]

/-- `src/hblas/fortran/hblas3/hgemmhz.f:50-53`, body of `DO 10 I`. -/
def hgemmhz_10_I (C : Int) (J : Int) (LDC : Int) (I : Int)  : Prog F (Unit) := do
  wrC (el3 2 2 LDC C 1 I J) (⟨zero, zero⟩ : Cplx F)
  wrC (el3 2 2 LDC C 2 I J) (⟨zero, zero⟩ : Cplx F)
  pure ()

/-- `src/hblas/fortran/hblas3/hgemmhz.f:49-53`, body of `DO 10 J`. -/
def hgemmhz_10_J (C : Int) (LDC : Int) (M : Int) (J : Int)  : Prog F (Unit) := do
  forN (M).toNat (fun i => hgemmhz_10_I C J LDC ((i : Int) + 1))
  pure ()

/-- `src/hblas/fortran/hblas3/hgemmhz.f:56-59`, body of `DO 20 I`. -/
def hgemmhz_20_I (BETA : Cplx F) (C : Int) (J : Int) (LDC : Int) (I : Int)  : Prog F (Unit) := do
  let t1 ← rdC (el3 2 2 LDC C 1 I J)
  wrC (el3 2 2 LDC C 1 I J) (BETA *ᶜ t1)
  let t2 ← rdC (el3 2 2 LDC C 2 I J)
  wrC (el3 2 2 LDC C 2 I J) (BETA *ᶜ t2)
  pure ()

/-- `src/hblas/fortran/hblas3/hgemmhz.f:55-59`, body of `DO 20 J`. -/
def hgemmhz_20_J (BETA : Cplx F) (C : Int) (LDC : Int) (M : Int) (J : Int)  : Prog F (Unit) := do
  forN (M).toNat (fun i => hgemmhz_20_I BETA C J LDC ((i : Int) + 1))
  pure ()

/-- `src/hblas/fortran/hblas3/hgemmhz.f:48-60`. -/
def hgemmhz_if48 (BETA : Cplx F) (BZERO : Bool) (C : Int) (LDC : Int) (M : Int) (N : Int) : Prog F (Unit) := do
  if BZERO then
    forN (N).toNat (fun i => hgemmhz_10_J C LDC M ((i : Int) + 1))
    pure ()
  else
    forN (N).toNat (fun i => hgemmhz_20_J BETA C LDC M ((i : Int) + 1))
    pure ()

/-- `src/hblas/fortran/hblas3/hgemmhz.f:71-74`, body of `DO 40 I`. -/
def hgemmhz_40_I (C : Int) (J : Int) (LDC : Int) (I : Int)  : Prog F (Unit) := do
  wrC (el3 2 2 LDC C 1 I J) (⟨zero, zero⟩ : Cplx F)
  wrC (el3 2 2 LDC C 2 I J) (⟨zero, zero⟩ : Cplx F)
  pure ()

/-- `src/hblas/fortran/hblas3/hgemmhz.f:76-79`, body of `DO 50 I`. -/
def hgemmhz_50_I (BETA : Cplx F) (C : Int) (J : Int) (LDC : Int) (I : Int)  : Prog F (Unit) := do
  let t1 ← rdC (el3 2 2 LDC C 1 I J)
  wrC (el3 2 2 LDC C 1 I J) (BETA *ᶜ t1)
  let t2 ← rdC (el3 2 2 LDC C 2 I J)
  wrC (el3 2 2 LDC C 2 I J) (BETA *ᶜ t2)
  pure ()

/-- `src/hblas/fortran/hblas3/hgemmhz.f:70-80`. -/
def hgemmhz_if70 (BETA : Cplx F) (BONE : Bool) (BZERO : Bool) (C : Int) (J : Int) (LDC : Int) (M : Int) : Prog F (Unit) := do
  if BZERO then
    forN (M).toNat (fun i => hgemmhz_40_I C J LDC ((i : Int) + 1))
    pure ()
  else if !BONE then
    forN (M).toNat (fun i => hgemmhz_50_I BETA C J LDC ((i : Int) + 1))
    pure ()
  else
    pure ()

/-- `src/hblas/fortran/hblas3/hgemmhz.f:91-99`, body of `DO 70 I`. -/
def hgemmhz_70_I (A : Int) (C : Int) (HTMP1J : Cplx F) (HTMP1S : Cplx F) (HTMP2J : Cplx F) (HTMP2S : Cplx F) (HTMP3J : Cplx F) (HTMP3S : Cplx F) (HTMP4J : Cplx F) (HTMP4S : Cplx F) (J : Int) (L : Int) (LDA : Int) (LDC : Int) (I : Int)  : Prog F (Unit) := do
  let t1 ← rdC (el3 2 2 LDC C 1 I J)
  let t2 ← rdC (el3 2 2 LDA A 1 I L)
  let t3 ← rdC (el3 2 2 LDA A 2 I L)
  let t4 ← rdC (el3 2 2 LDA A 1 I L)
  let t5 ← rdC (el3 2 2 LDA A 2 I L)
  wrC (el3 2 2 LDC C 1 I J) (t1 +ᶜ t2 *ᶜ HTMP1S -ᶜ t3 *ᶜ HTMP2J -ᶜ Cplx.conj t4 *ᶜ HTMP4J -ᶜ Cplx.conj t5 *ᶜ HTMP3S)
  let t6 ← rdC (el3 2 2 LDC C 2 I J)
  let t7 ← rdC (el3 2 2 LDA A 1 I L)
  let t8 ← rdC (el3 2 2 LDA A 2 I L)
  let t9 ← rdC (el3 2 2 LDA A 1 I L)
  let t10 ← rdC (el3 2 2 LDA A 2 I L)
  wrC (el3 2 2 LDC C 2 I J) (t6 +ᶜ t7 *ᶜ HTMP1J +ᶜ t8 *ᶜ HTMP2S +ᶜ Cplx.conj t9 *ᶜ HTMP4S -ᶜ Cplx.conj t10 *ᶜ HTMP3J)
  pure ()

/-- `src/hblas/fortran/hblas3/hgemmhz.f:82-100`, body of `DO 60 L`. -/
def hgemmhz_60_L (A : Int) (ALPHA : Quat F) (B : Int) (C : Int) (J : Int) (LDA : Int) (LDB : Int) (LDC : Int) (M : Int) (L : Int)  : Prog F (Unit) := do
  let t1 ← rdC (el3 2 2 LDB B 1 L J)
  let HTMP1S : Cplx F := Quat.lo ALPHA *ᶜ t1
  let t2 ← rdC (el3 2 2 LDB B 2 L J)
  let HTMP1J : Cplx F := Quat.lo ALPHA *ᶜ t2
  let t3 ← rdC (el3 2 2 LDB B 1 L J)
  let HTMP2S : Cplx F := Quat.lo ALPHA *ᶜ Cplx.conj t3
  let t4 ← rdC (el3 2 2 LDB B 2 L J)
  let HTMP2J : Cplx F := Quat.lo ALPHA *ᶜ Cplx.conj t4
  let t5 ← rdC (el3 2 2 LDB B 1 L J)
  let HTMP3S : Cplx F := Quat.hi ALPHA *ᶜ t5
  let t6 ← rdC (el3 2 2 LDB B 2 L J)
  let HTMP3J : Cplx F := Quat.hi ALPHA *ᶜ t6
  let t7 ← rdC (el3 2 2 LDB B 1 L J)
  let HTMP4S : Cplx F := Quat.hi ALPHA *ᶜ Cplx.conj t7
  let t8 ← rdC (el3 2 2 LDB B 2 L J)
  let HTMP4J : Cplx F := Quat.hi ALPHA *ᶜ Cplx.conj t8
  forN (M).toNat (fun i => hgemmhz_70_I A C HTMP1J HTMP1S HTMP2J HTMP2S HTMP3J HTMP3S HTMP4J HTMP4S J L LDA LDC ((i : Int) + 1))
  pure ()

/-- `src/hblas/fortran/hblas3/hgemmhz.f:69-101`, body of `DO 30 J`. -/
def hgemmhz_30_J (A : Int) (ALPHA : Quat F) (B : Int) (BETA : Cplx F) (BONE : Bool) (BZERO : Bool) (C : Int) (K : Int) (LDA : Int) (LDB : Int) (LDC : Int) (M : Int) (J : Int)  : Prog F (Unit) := do
  hgemmhz_if70 BETA BONE BZERO C J LDC M
  forN (K).toNat (fun i => hgemmhz_60_L A ALPHA B C J LDA LDB LDC M ((i : Int) + 1))
  pure ()

/-- `src/hblas/fortran/hblas3/hgemmhz.f:110-116`, body of `DO 90 L`. -/
def hgemmhz_90_L (A : Int) (B : Int) (I : Int) (J : Int) (LDA : Int) (LDB : Int) (L : Int) (HTMP1J : Cplx F) (HTMP1S : Cplx F) : Prog F (Cplx F × Cplx F) := do
  let t1 ← rdC (el3 2 2 LDA A 1 L I)
  let t2 ← rdC (el3 2 2 LDB B 1 L J)
  let t3 ← rdC (el3 2 2 LDA A 2 L I)
  let t4 ← rdC (el3 2 2 LDB B 2 L J)
  let HTMP1S : Cplx F := HTMP1S +ᶜ Cplx.conj t1 *ᶜ t2 +ᶜ t3 *ᶜ Cplx.conj t4
  let t5 ← rdC (el3 2 2 LDA A 1 L I)
  let t6 ← rdC (el3 2 2 LDB B 2 L J)
  let t7 ← rdC (el3 2 2 LDA A 2 L I)
  let t8 ← rdC (el3 2 2 LDB B 1 L J)
  let HTMP1J : Cplx F := HTMP1J +ᶜ Cplx.conj t5 *ᶜ t6 -ᶜ t7 *ᶜ Cplx.conj t8
  pure (HTMP1J, HTMP1S)

/-- `src/hblas/fortran/hblas3/hgemmhz.f:107-127`, body of `DO 80 I`. -/
def hgemmhz_80_I (A : Int) (ALPHA : Quat F) (B : Int) (BETA : Cplx F) (BZERO : Bool) (C : Int) (J : Int) (K : Int) (LDA : Int) (LDB : Int) (LDC : Int) (I : Int)  : Prog F (Unit) := do
  let HTMP1S : Cplx F := (⟨zero, zero⟩ : Cplx F)
  let HTMP1J : Cplx F := (⟨zero, zero⟩ : Cplx F)
  let r ← foldN (K).toNat (fun i (s : Cplx F × Cplx F) => hgemmhz_90_L A B I J LDA LDB ((i : Int) + 1) s.1 s.2) (HTMP1J, HTMP1S)
  let HTMP1J : Cplx F := r.1
  let HTMP1S : Cplx F := r.2
  let _ ← (do
    if BZERO then
      wrC (el3 2 2 LDC C 1 I J) (Quat.lo ALPHA *ᶜ HTMP1S -ᶜ Quat.hi ALPHA *ᶜ Cplx.conj HTMP1J)
      wrC (el3 2 2 LDC C 2 I J) (Quat.lo ALPHA *ᶜ HTMP1J +ᶜ Quat.hi ALPHA *ᶜ Cplx.conj HTMP1S)
      pure ()
    else
      let t1 ← rdC (el3 2 2 LDC C 1 I J)
      wrC (el3 2 2 LDC C 1 I J) (Quat.lo ALPHA *ᶜ HTMP1S -ᶜ Quat.hi ALPHA *ᶜ Cplx.conj HTMP1J +ᶜ BETA *ᶜ t1)
      let t2 ← rdC (el3 2 2 LDC C 2 I J)
      wrC (el3 2 2 LDC C 2 I J) (Quat.lo ALPHA *ᶜ HTMP1J +ᶜ Quat.hi ALPHA *ᶜ Cplx.conj HTMP1S +ᶜ BETA *ᶜ t2)
      pure () : Prog F Unit)
  pure ()

/-- `src/hblas/fortran/hblas3/hgemmhz.f:106-127`, body of `DO 80 J`. -/
def hgemmhz_80_J (A : Int) (ALPHA : Quat F) (B : Int) (BETA : Cplx F) (BZERO : Bool) (C : Int) (K : Int) (LDA : Int) (LDB : Int) (LDC : Int) (M : Int) (J : Int)  : Prog F (Unit) := do
  forN (M).toNat (fun i => hgemmhz_80_I A ALPHA B BETA BZERO C J K LDA LDB LDC ((i : Int) + 1))
  pure ()

/-- `src/hblas/fortran/hblas3/hgemmhz.f:137-143`, body of `DO 110 L`. -/
def hgemmhz_110_L (A : Int) (B : Int) (I : Int) (J : Int) (LDA : Int) (LDB : Int) (L : Int) (HTMP1J : Cplx F) (HTMP1S : Cplx F) : Prog F (Cplx F × Cplx F) := do
  let t1 ← rdC (el3 2 2 LDA A 1 L I)
  let t2 ← rdC (el3 2 2 LDB B 1 L J)
  let t3 ← rdC (el3 2 2 LDA A 2 L I)
  let t4 ← rdC (el3 2 2 LDB B 2 L J)
  let HTMP1S : Cplx F := HTMP1S +ᶜ t1 *ᶜ t2 -ᶜ t3 *ᶜ Cplx.conj t4
  let t5 ← rdC (el3 2 2 LDA A 1 L I)
  let t6 ← rdC (el3 2 2 LDB B 2 L J)
  let t7 ← rdC (el3 2 2 LDA A 2 L I)
  let t8 ← rdC (el3 2 2 LDB B 1 L J)
  let HTMP1J : Cplx F := HTMP1J +ᶜ t5 *ᶜ t6 +ᶜ t7 *ᶜ Cplx.conj t8
  pure (HTMP1J, HTMP1S)

/-- `src/hblas/fortran/hblas3/hgemmhz.f:134-154`, body of `DO 100 I`. -/
def hgemmhz_100_I (A : Int) (ALPHA : Quat F) (B : Int) (BETA : Cplx F) (BZERO : Bool) (C : Int) (J : Int) (K : Int) (LDA : Int) (LDB : Int) (LDC : Int) (I : Int)  : Prog F (Unit) := do
  let HTMP1S : Cplx F := (⟨zero, zero⟩ : Cplx F)
  let HTMP1J : Cplx F := (⟨zero, zero⟩ : Cplx F)
  let r ← foldN (K).toNat (fun i (s : Cplx F × Cplx F) => hgemmhz_110_L A B I J LDA LDB ((i : Int) + 1) s.1 s.2) (HTMP1J, HTMP1S)
  let HTMP1J : Cplx F := r.1
  let HTMP1S : Cplx F := r.2
  let _ ← (do
    if BZERO then
      wrC (el3 2 2 LDC C 1 I J) (Quat.lo ALPHA *ᶜ HTMP1S -ᶜ Quat.hi ALPHA *ᶜ Cplx.conj HTMP1J)
      wrC (el3 2 2 LDC C 2 I J) (Quat.lo ALPHA *ᶜ HTMP1J +ᶜ Quat.hi ALPHA *ᶜ Cplx.conj HTMP1S)
      pure ()
    else
      let t1 ← rdC (el3 2 2 LDC C 1 I J)
      wrC (el3 2 2 LDC C 1 I J) (Quat.lo ALPHA *ᶜ HTMP1S -ᶜ Quat.hi ALPHA *ᶜ Cplx.conj HTMP1J +ᶜ BETA *ᶜ t1)
      let t2 ← rdC (el3 2 2 LDC C 2 I J)
      wrC (el3 2 2 LDC C 2 I J) (Quat.lo ALPHA *ᶜ HTMP1J +ᶜ Quat.hi ALPHA *ᶜ Cplx.conj HTMP1S +ᶜ BETA *ᶜ t2)
      pure () : Prog F Unit)
  pure ()

/-- `src/hblas/fortran/hblas3/hgemmhz.f:133-154`, body of `DO 100 J`. -/
def hgemmhz_100_J (A : Int) (ALPHA : Quat F) (B : Int) (BETA : Cplx F) (BZERO : Bool) (C : Int) (K : Int) (LDA : Int) (LDB : Int) (LDC : Int) (M : Int) (J : Int)  : Prog F (Unit) := do
  forN (M).toNat (fun i => hgemmhz_100_I A ALPHA B BETA BZERO C J K LDA LDB LDC ((i : Int) + 1))
  pure ()

/-- `src/hblas/fortran/hblas3/hgemmhz.f:65-155`. -/
def hgemmhz_if65 (A : Int) (ALPHA : Quat F) (B : Int) (BETA : Cplx F) (BONE : Bool) (BZERO : Bool) (C : Int) (CONJA : Bool) (K : Int) (LDA : Int) (LDB : Int) (LDC : Int) (M : Int) (N : Int) (NOTA : Bool) : Prog F (Unit) := do
  if NOTA then
    forN (N).toNat (fun i => hgemmhz_30_J A ALPHA B BETA BONE BZERO C K LDA LDB LDC M ((i : Int) + 1))
    pure ()
  else if CONJA then
    forN (N).toNat (fun i => hgemmhz_80_J A ALPHA B BETA BZERO C K LDA LDB LDC M ((i : Int) + 1))
    pure ()
  else
    forN (N).toNat (fun i => hgemmhz_100_J A ALPHA B BETA BZERO C K LDA LDB LDC M ((i : Int) + 1))
    pure ()

/-- `src/hblas/fortran/hblas3/hgemmhz.f:163-166`, body of `DO 130 I`. -/
def hgemmhz_130_I (C : Int) (J : Int) (LDC : Int) (I : Int)  : Prog F (Unit) := do
  wrC (el3 2 2 LDC C 1 I J) (⟨zero, zero⟩ : Cplx F)
  wrC (el3 2 2 LDC C 2 I J) (⟨zero, zero⟩ : Cplx F)
  pure ()

/-- `src/hblas/fortran/hblas3/hgemmhz.f:168-171`, body of `DO 140 I`. -/
def hgemmhz_140_I (BETA : Cplx F) (C : Int) (J : Int) (LDC : Int) (I : Int)  : Prog F (Unit) := do
  let t1 ← rdC (el3 2 2 LDC C 1 I J)
  wrC (el3 2 2 LDC C 1 I J) (BETA *ᶜ t1)
  let t2 ← rdC (el3 2 2 LDC C 2 I J)
  wrC (el3 2 2 LDC C 2 I J) (BETA *ᶜ t2)
  pure ()

/-- `src/hblas/fortran/hblas3/hgemmhz.f:162-172`. -/
def hgemmhz_if162 (BETA : Cplx F) (BONE : Bool) (BZERO : Bool) (C : Int) (J : Int) (LDC : Int) (M : Int) : Prog F (Unit) := do
  if BZERO then
    forN (M).toNat (fun i => hgemmhz_130_I C J LDC ((i : Int) + 1))
    pure ()
  else if !BONE then
    forN (M).toNat (fun i => hgemmhz_140_I BETA C J LDC ((i : Int) + 1))
    pure ()
  else
    pure ()

/-- `src/hblas/fortran/hblas3/hgemmhz.f:183-191`, body of `DO 160 I`. -/
def hgemmhz_160_I (A : Int) (C : Int) (HTMP1J : Cplx F) (HTMP1S : Cplx F) (HTMP2J : Cplx F) (HTMP2S : Cplx F) (HTMP3J : Cplx F) (HTMP3S : Cplx F) (HTMP4J : Cplx F) (HTMP4S : Cplx F) (J : Int) (L : Int) (LDA : Int) (LDC : Int) (I : Int)  : Prog F (Unit) := do
  let t1 ← rdC (el3 2 2 LDC C 1 I J)
  let t2 ← rdC (el3 2 2 LDA A 1 I L)
  let t3 ← rdC (el3 2 2 LDA A 2 I L)
  let t4 ← rdC (el3 2 2 LDA A 1 I L)
  let t5 ← rdC (el3 2 2 LDA A 2 I L)
  wrC (el3 2 2 LDC C 1 I J) (t1 +ᶜ t2 *ᶜ HTMP2S -ᶜ t3 *ᶜ HTMP2J -ᶜ Cplx.conj t4 *ᶜ HTMP4J -ᶜ Cplx.conj t5 *ᶜ HTMP4S)
  let t6 ← rdC (el3 2 2 LDC C 2 I J)
  let t7 ← rdC (el3 2 2 LDA A 1 I L)
  let t8 ← rdC (el3 2 2 LDA A 2 I L)
  let t9 ← rdC (el3 2 2 LDA A 1 I L)
  let t10 ← rdC (el3 2 2 LDA A 2 I L)
  wrC (el3 2 2 LDC C 2 I J) (t6 +ᶜ t7 *ᶜ HTMP1J +ᶜ t8 *ᶜ HTMP1S +ᶜ Cplx.conj t9 *ᶜ HTMP3S -ᶜ Cplx.conj t10 *ᶜ HTMP3J)
  pure ()

/-- `src/hblas/fortran/hblas3/hgemmhz.f:174-192`, body of `DO 150 L`. -/
def hgemmhz_150_L (A : Int) (ALPHA : Quat F) (B : Int) (C : Int) (J : Int) (LDA : Int) (LDB : Int) (LDC : Int) (M : Int) (L : Int)  : Prog F (Unit) := do
  let t1 ← rdC (el3 2 2 LDB B 1 J L)
  let HTMP1S : Cplx F := Quat.lo ALPHA *ᶜ t1
  let t2 ← rdC (el3 2 2 LDB B 2 J L)
  let HTMP1J : Cplx F := Cplx.neg (Quat.lo ALPHA *ᶜ t2)
  let t3 ← rdC (el3 2 2 LDB B 1 J L)
  let HTMP2S : Cplx F := Quat.lo ALPHA *ᶜ Cplx.conj t3
  let t4 ← rdC (el3 2 2 LDB B 2 J L)
  let HTMP2J : Cplx F := Cplx.neg (Quat.lo ALPHA *ᶜ Cplx.conj t4)
  let t5 ← rdC (el3 2 2 LDB B 1 J L)
  let HTMP3S : Cplx F := Quat.hi ALPHA *ᶜ t5
  let t6 ← rdC (el3 2 2 LDB B 2 J L)
  let HTMP3J : Cplx F := Cplx.neg (Quat.hi ALPHA *ᶜ t6)
  let t7 ← rdC (el3 2 2 LDB B 1 J L)
  let HTMP4S : Cplx F := Quat.hi ALPHA *ᶜ Cplx.conj t7
  let t8 ← rdC (el3 2 2 LDB B 2 J L)
  let HTMP4J : Cplx F := Cplx.neg (Quat.hi ALPHA *ᶜ Cplx.conj t8)
  forN (M).toNat (fun i => hgemmhz_160_I A C HTMP1J HTMP1S HTMP2J HTMP2S HTMP3J HTMP3S HTMP4J HTMP4S J L LDA LDC ((i : Int) + 1))
  pure ()

/-- `src/hblas/fortran/hblas3/hgemmhz.f:161-193`, body of `DO 120 J`. -/
def hgemmhz_120_J (A : Int) (ALPHA : Quat F) (B : Int) (BETA : Cplx F) (BONE : Bool) (BZERO : Bool) (C : Int) (K : Int) (LDA : Int) (LDB : Int) (LDC : Int) (M : Int) (J : Int)  : Prog F (Unit) := do
  hgemmhz_if162 BETA BONE BZERO C J LDC M
  forN (K).toNat (fun i => hgemmhz_150_L A ALPHA B C J LDA LDB LDC M ((i : Int) + 1))
  pure ()

/-- `src/hblas/fortran/hblas3/hgemmhz.f:201-204`, body of `DO 180 I`. -/
def hgemmhz_180_I (C : Int) (J : Int) (LDC : Int) (I : Int)  : Prog F (Unit) := do
  wrC (el3 2 2 LDC C 1 I J) (⟨zero, zero⟩ : Cplx F)
  wrC (el3 2 2 LDC C 2 I J) (⟨zero, zero⟩ : Cplx F)
  pure ()

/-- `src/hblas/fortran/hblas3/hgemmhz.f:206-209`, body of `DO 190 I`. -/
def hgemmhz_190_I (BETA : Cplx F) (C : Int) (J : Int) (LDC : Int) (I : Int)  : Prog F (Unit) := do
  let t1 ← rdC (el3 2 2 LDC C 1 I J)
  wrC (el3 2 2 LDC C 1 I J) (BETA *ᶜ t1)
  let t2 ← rdC (el3 2 2 LDC C 2 I J)
  wrC (el3 2 2 LDC C 2 I J) (BETA *ᶜ t2)
  pure ()

/-- `src/hblas/fortran/hblas3/hgemmhz.f:200-210`. -/
def hgemmhz_if200 (BETA : Cplx F) (BONE : Bool) (BZERO : Bool) (C : Int) (J : Int) (LDC : Int) (M : Int) : Prog F (Unit) := do
  if BZERO then
    forN (M).toNat (fun i => hgemmhz_180_I C J LDC ((i : Int) + 1))
    pure ()
  else if !BONE then
    forN (M).toNat (fun i => hgemmhz_190_I BETA C J LDC ((i : Int) + 1))
    pure ()
  else
    pure ()

/-- `src/hblas/fortran/hblas3/hgemmhz.f:221-229`, body of `DO 210 I`. -/
def hgemmhz_210_I (A : Int) (C : Int) (HTMP1J : Cplx F) (HTMP1S : Cplx F) (HTMP2J : Cplx F) (HTMP2S : Cplx F) (HTMP3J : Cplx F) (HTMP3S : Cplx F) (HTMP4J : Cplx F) (HTMP4S : Cplx F) (J : Int) (L : Int) (LDA : Int) (LDC : Int) (I : Int)  : Prog F (Unit) := do
  let t1 ← rdC (el3 2 2 LDC C 1 I J)
  let t2 ← rdC (el3 2 2 LDA A 1 I L)
  let t3 ← rdC (el3 2 2 LDA A 2 I L)
  let t4 ← rdC (el3 2 2 LDA A 1 I L)
  let t5 ← rdC (el3 2 2 LDA A 2 I L)
  wrC (el3 2 2 LDC C 1 I J) (t1 +ᶜ t2 *ᶜ HTMP1S -ᶜ t3 *ᶜ HTMP2J -ᶜ Cplx.conj t4 *ᶜ HTMP4J -ᶜ Cplx.conj t5 *ᶜ HTMP3S)
  let t6 ← rdC (el3 2 2 LDC C 2 I J)
  let t7 ← rdC (el3 2 2 LDA A 1 I L)
  let t8 ← rdC (el3 2 2 LDA A 2 I L)
  let t9 ← rdC (el3 2 2 LDA A 1 I L)
  let t10 ← rdC (el3 2 2 LDA A 2 I L)
  wrC (el3 2 2 LDC C 2 I J) (t6 +ᶜ t7 *ᶜ HTMP1J +ᶜ t8 *ᶜ HTMP2S +ᶜ Cplx.conj t9 *ᶜ HTMP4S -ᶜ Cplx.conj t10 *ᶜ HTMP3J)
  pure ()

/-- `src/hblas/fortran/hblas3/hgemmhz.f:212-230`, body of `DO 200 L`. -/
def hgemmhz_200_L (A : Int) (ALPHA : Quat F) (B : Int) (C : Int) (J : Int) (LDA : Int) (LDB : Int) (LDC : Int) (M : Int) (L : Int)  : Prog F (Unit) := do
  let t1 ← rdC (el3 2 2 LDB B 1 J L)
  let HTMP1S : Cplx F := Quat.lo ALPHA *ᶜ t1
  let t2 ← rdC (el3 2 2 LDB B 2 J L)
  let HTMP1J : Cplx F := Quat.lo ALPHA *ᶜ t2
  let t3 ← rdC (el3 2 2 LDB B 1 J L)
  let HTMP2S : Cplx F := Quat.lo ALPHA *ᶜ Cplx.conj t3
  let t4 ← rdC (el3 2 2 LDB B 2 J L)
  let HTMP2J : Cplx F := Quat.lo ALPHA *ᶜ Cplx.conj t4
  let t5 ← rdC (el3 2 2 LDB B 1 J L)
  let HTMP3S : Cplx F := Quat.hi ALPHA *ᶜ t5
  let t6 ← rdC (el3 2 2 LDB B 2 J L)
  let HTMP3J : Cplx F := Quat.hi ALPHA *ᶜ t6
  let t7 ← rdC (el3 2 2 LDB B 1 J L)
  let HTMP4S : Cplx F := Quat.hi ALPHA *ᶜ Cplx.conj t7
  let t8 ← rdC (el3 2 2 LDB B 2 J L)
  let HTMP4J : Cplx F := Quat.hi ALPHA *ᶜ Cplx.conj t8
  forN (M).toNat (fun i => hgemmhz_210_I A C HTMP1J HTMP1S HTMP2J HTMP2S HTMP3J HTMP3S HTMP4J HTMP4S J L LDA LDC ((i : Int) + 1))
  pure ()

/-- `src/hblas/fortran/hblas3/hgemmhz.f:199-231`, body of `DO 170 J`. -/
def hgemmhz_170_J (A : Int) (ALPHA : Quat F) (B : Int) (BETA : Cplx F) (BONE : Bool) (BZERO : Bool) (C : Int) (K : Int) (LDA : Int) (LDB : Int) (LDC : Int) (M : Int) (J : Int)  : Prog F (Unit) := do
  hgemmhz_if200 BETA BONE BZERO C J LDC M
  forN (K).toNat (fun i => hgemmhz_200_L A ALPHA B C J LDA LDB LDC M ((i : Int) + 1))
  pure ()

/-- `src/hblas/fortran/hblas3/hgemmhz.f:157-232`. -/
def hgemmhz_if157 (A : Int) (ALPHA : Quat F) (B : Int) (BETA : Cplx F) (BONE : Bool) (BZERO : Bool) (C : Int) (CONJB : Bool) (K : Int) (LDA : Int) (LDB : Int) (LDC : Int) (M : Int) (N : Int) : Prog F (Unit) := do
  if CONJB then
    forN (N).toNat (fun i => hgemmhz_120_J A ALPHA B BETA BONE BZERO C K LDA LDB LDC M ((i : Int) + 1))
    pure ()
  else
    forN (N).toNat (fun i => hgemmhz_170_J A ALPHA B BETA BONE BZERO C K LDA LDB LDC M ((i : Int) + 1))
    pure ()

/-- `src/hblas/fortran/hblas3/hgemmhz.f:242-249`, body of `DO 230 L`. -/
def hgemmhz_230_L (A : Int) (B : Int) (I : Int) (J : Int) (LDA : Int) (LDB : Int) (L : Int) (HTMP1J : Cplx F) (HTMP1S : Cplx F) : Prog F (Cplx F × Cplx F) := do
  let t1 ← rdC (el3 2 2 LDA A 1 L I)
  let t2 ← rdC (el3 2 2 LDB B 1 J L)
  let t3 ← rdC (el3 2 2 LDA A 2 L I)
  let t4 ← rdC (el3 2 2 LDB B 2 J L)
  let HTMP1S : Cplx F := HTMP1S +ᶜ Cplx.conj t1 *ᶜ Cplx.conj t2 -ᶜ t3 *ᶜ Cplx.conj t4
  let t5 ← rdC (el3 2 2 LDA A 1 L I)
  let t6 ← rdC (el3 2 2 LDB B 2 J L)
  let t7 ← rdC (el3 2 2 LDA A 2 L I)
  let t8 ← rdC (el3 2 2 LDB B 1 J L)
  let HTMP1J : Cplx F := HTMP1J -ᶜ Cplx.conj t5 *ᶜ t6 -ᶜ t7 *ᶜ t8
  pure (HTMP1J, HTMP1S)

/-- `src/hblas/fortran/hblas3/hgemmhz.f:239-260`, body of `DO 220 I`. -/
def hgemmhz_220_I (A : Int) (ALPHA : Quat F) (B : Int) (BETA : Cplx F) (BZERO : Bool) (C : Int) (J : Int) (K : Int) (LDA : Int) (LDB : Int) (LDC : Int) (I : Int)  : Prog F (Unit) := do
  let HTMP1S : Cplx F := (⟨zero, zero⟩ : Cplx F)
  let HTMP1J : Cplx F := (⟨zero, zero⟩ : Cplx F)
  let r ← foldN (K).toNat (fun i (s : Cplx F × Cplx F) => hgemmhz_230_L A B I J LDA LDB ((i : Int) + 1) s.1 s.2) (HTMP1J, HTMP1S)
  let HTMP1J : Cplx F := r.1
  let HTMP1S : Cplx F := r.2
  let _ ← (do
    if BZERO then
      wrC (el3 2 2 LDC C 1 I J) (Quat.lo ALPHA *ᶜ HTMP1S -ᶜ Quat.hi ALPHA *ᶜ Cplx.conj HTMP1J)
      wrC (el3 2 2 LDC C 2 I J) (Quat.lo ALPHA *ᶜ HTMP1J +ᶜ Quat.hi ALPHA *ᶜ Cplx.conj HTMP1S)
      pure ()
    else
      let t1 ← rdC (el3 2 2 LDC C 1 I J)
      wrC (el3 2 2 LDC C 1 I J) (Quat.lo ALPHA *ᶜ HTMP1S -ᶜ Quat.hi ALPHA *ᶜ Cplx.conj HTMP1J +ᶜ BETA *ᶜ t1)
      let t2 ← rdC (el3 2 2 LDC C 2 I J)
      wrC (el3 2 2 LDC C 2 I J) (Quat.lo ALPHA *ᶜ HTMP1J +ᶜ Quat.hi ALPHA *ᶜ Cplx.conj HTMP1S +ᶜ BETA *ᶜ t2)
      pure () : Prog F Unit)
  pure ()

/-- `src/hblas/fortran/hblas3/hgemmhz.f:238-260`, body of `DO 220 J`. -/
def hgemmhz_220_J (A : Int) (ALPHA : Quat F) (B : Int) (BETA : Cplx F) (BZERO : Bool) (C : Int) (K : Int) (LDA : Int) (LDB : Int) (LDC : Int) (M : Int) (J : Int)  : Prog F (Unit) := do
  forN (M).toNat (fun i => hgemmhz_220_I A ALPHA B BETA BZERO C J K LDA LDB LDC ((i : Int) + 1))
  pure ()

/-- `src/hblas/fortran/hblas3/hgemmhz.f:270-276`, body of `DO 250 L`. -/
def hgemmhz_250_L (A : Int) (B : Int) (I : Int) (J : Int) (LDA : Int) (LDB : Int) (L : Int) (HTMP1J : Cplx F) (HTMP1S : Cplx F) : Prog F (Cplx F × Cplx F) := do
  let t1 ← rdC (el3 2 2 LDA A 1 L I)
  let t2 ← rdC (el3 2 2 LDB B 1 J L)
  let t3 ← rdC (el3 2 2 LDA A 2 L I)
  let t4 ← rdC (el3 2 2 LDB B 2 J L)
  let HTMP1S : Cplx F := HTMP1S +ᶜ Cplx.conj t1 *ᶜ t2 +ᶜ t3 *ᶜ Cplx.conj t4
  let t5 ← rdC (el3 2 2 LDA A 1 L I)
  let t6 ← rdC (el3 2 2 LDB B 2 J L)
  let t7 ← rdC (el3 2 2 LDA A 2 L I)
  let t8 ← rdC (el3 2 2 LDB B 1 J L)
  let HTMP1J : Cplx F := HTMP1J +ᶜ Cplx.conj t5 *ᶜ t6 -ᶜ t7 *ᶜ Cplx.conj t8
  pure (HTMP1J, HTMP1S)

/-- `src/hblas/fortran/hblas3/hgemmhz.f:267-287`, body of `DO 240 I`. -/
def hgemmhz_240_I (A : Int) (ALPHA : Quat F) (B : Int) (BETA : Cplx F) (BZERO : Bool) (C : Int) (J : Int) (K : Int) (LDA : Int) (LDB : Int) (LDC : Int) (I : Int)  : Prog F (Unit) := do
  let HTMP1S : Cplx F := (⟨zero, zero⟩ : Cplx F)
  let HTMP1J : Cplx F := (⟨zero, zero⟩ : Cplx F)
  let r ← foldN (K).toNat (fun i (s : Cplx F × Cplx F) => hgemmhz_250_L A B I J LDA LDB ((i : Int) + 1) s.1 s.2) (HTMP1J, HTMP1S)
  let HTMP1J : Cplx F := r.1
  let HTMP1S : Cplx F := r.2
  let _ ← (do
    if BZERO then
      wrC (el3 2 2 LDC C 1 I J) (Quat.lo ALPHA *ᶜ HTMP1S -ᶜ Quat.hi ALPHA *ᶜ Cplx.conj HTMP1J)
      wrC (el3 2 2 LDC C 2 I J) (Quat.lo ALPHA *ᶜ HTMP1J +ᶜ Quat.hi ALPHA *ᶜ Cplx.conj HTMP1S)
      pure ()
    else
      let t1 ← rdC (el3 2 2 LDC C 1 I J)
      wrC (el3 2 2 LDC C 1 I J) (Quat.lo ALPHA *ᶜ HTMP1S -ᶜ Quat.hi ALPHA *ᶜ Cplx.conj HTMP1J +ᶜ BETA *ᶜ t1)
      let t2 ← rdC (el3 2 2 LDC C 2 I J)
      wrC (el3 2 2 LDC C 2 I J) (Quat.lo ALPHA *ᶜ HTMP1J +ᶜ Quat.hi ALPHA *ᶜ Cplx.conj HTMP1S +ᶜ BETA *ᶜ t2)
      pure () : Prog F Unit)
  pure ()

/-- `src/hblas/fortran/hblas3/hgemmhz.f:266-287`, body of `DO 240 J`. -/
def hgemmhz_240_J (A : Int) (ALPHA : Quat F) (B : Int) (BETA : Cplx F) (BZERO : Bool) (C : Int) (K : Int) (LDA : Int) (LDB : Int) (LDC : Int) (M : Int) (J : Int)  : Prog F (Unit) := do
  forN (M).toNat (fun i => hgemmhz_240_I A ALPHA B BETA BZERO C J K LDA LDB LDC ((i : Int) + 1))
  pure ()

/-- `src/hblas/fortran/hblas3/hgemmhz.f:234-288`. -/
def hgemmhz_if234 (A : Int) (ALPHA : Quat F) (B : Int) (BETA : Cplx F) (BZERO : Bool) (C : Int) (CONJB : Bool) (K : Int) (LDA : Int) (LDB : Int) (LDC : Int) (M : Int) (N : Int) : Prog F (Unit) := do
  if CONJB then
    forN (N).toNat (fun i => hgemmhz_220_J A ALPHA B BETA BZERO C K LDA LDB LDC M ((i : Int) + 1))
    pure ()
  else
    forN (N).toNat (fun i => hgemmhz_240_J A ALPHA B BETA BZERO C K LDA LDB LDC M ((i : Int) + 1))
    pure ()

/-- `src/hblas/fortran/hblas3/hgemmhz.f:299-305`, body of `DO 270 L`. -/
def hgemmhz_270_L (A : Int) (B : Int) (I : Int) (J : Int) (LDA : Int) (LDB : Int) (L : Int) (HTMP1J : Cplx F) (HTMP1S : Cplx F) : Prog F (Cplx F × Cplx F) := do
  let t1 ← rdC (el3 2 2 LDA A 1 L I)
  let t2 ← rdC (el3 2 2 LDB B 1 J L)
  let t3 ← rdC (el3 2 2 LDA A 2 L I)
  let t4 ← rdC (el3 2 2 LDB B 2 J L)
  let HTMP1S : Cplx F := HTMP1S +ᶜ t1 *ᶜ Cplx.conj t2 +ᶜ t3 *ᶜ Cplx.conj t4
  let t5 ← rdC (el3 2 2 LDA A 1 L I)
  let t6 ← rdC (el3 2 2 LDB B 2 J L)
  let t7 ← rdC (el3 2 2 LDA A 2 L I)
  let t8 ← rdC (el3 2 2 LDB B 1 J L)
  let HTMP1J : Cplx F := HTMP1J -ᶜ t5 *ᶜ t6 +ᶜ t7 *ᶜ t8
  pure (HTMP1J, HTMP1S)

/-- `src/hblas/fortran/hblas3/hgemmhz.f:296-316`, body of `DO 260 I`. -/
def hgemmhz_260_I (A : Int) (ALPHA : Quat F) (B : Int) (BETA : Cplx F) (BZERO : Bool) (C : Int) (J : Int) (K : Int) (LDA : Int) (LDB : Int) (LDC : Int) (I : Int)  : Prog F (Unit) := do
  let HTMP1S : Cplx F := (⟨zero, zero⟩ : Cplx F)
  let HTMP1J : Cplx F := (⟨zero, zero⟩ : Cplx F)
  let r ← foldN (K).toNat (fun i (s : Cplx F × Cplx F) => hgemmhz_270_L A B I J LDA LDB ((i : Int) + 1) s.1 s.2) (HTMP1J, HTMP1S)
  let HTMP1J : Cplx F := r.1
  let HTMP1S : Cplx F := r.2
  let _ ← (do
    if BZERO then
      wrC (el3 2 2 LDC C 1 I J) (Quat.lo ALPHA *ᶜ HTMP1S -ᶜ Quat.hi ALPHA *ᶜ Cplx.conj HTMP1J)
      wrC (el3 2 2 LDC C 2 I J) (Quat.lo ALPHA *ᶜ HTMP1J +ᶜ Quat.hi ALPHA *ᶜ Cplx.conj HTMP1S)
      pure ()
    else
      let t1 ← rdC (el3 2 2 LDC C 1 I J)
      wrC (el3 2 2 LDC C 1 I J) (Quat.lo ALPHA *ᶜ HTMP1S -ᶜ Quat.hi ALPHA *ᶜ Cplx.conj HTMP1J +ᶜ BETA *ᶜ t1)
      let t2 ← rdC (el3 2 2 LDC C 2 I J)
      wrC (el3 2 2 LDC C 2 I J) (Quat.lo ALPHA *ᶜ HTMP1J +ᶜ Quat.hi ALPHA *ᶜ Cplx.conj HTMP1S +ᶜ BETA *ᶜ t2)
      pure () : Prog F Unit)
  pure ()

/-- `src/hblas/fortran/hblas3/hgemmhz.f:295-316`, body of `DO 260 J`. -/
def hgemmhz_260_J (A : Int) (ALPHA : Quat F) (B : Int) (BETA : Cplx F) (BZERO : Bool) (C : Int) (K : Int) (LDA : Int) (LDB : Int) (LDC : Int) (M : Int) (J : Int)  : Prog F (Unit) := do
  forN (M).toNat (fun i => hgemmhz_260_I A ALPHA B BETA BZERO C J K LDA LDB LDC ((i : Int) + 1))
  pure ()

/-- `src/hblas/fortran/hblas3/hgemmhz.f:325-331`, body of `DO 290 L`. -/
def hgemmhz_290_L (A : Int) (B : Int) (I : Int) (J : Int) (LDA : Int) (LDB : Int) (L : Int) (HTMP1J : Cplx F) (HTMP1S : Cplx F) : Prog F (Cplx F × Cplx F) := do
  let t1 ← rdC (el3 2 2 LDA A 1 L I)
  let t2 ← rdC (el3 2 2 LDB B 1 J L)
  let t3 ← rdC (el3 2 2 LDA A 2 L I)
  let t4 ← rdC (el3 2 2 LDB B 2 J L)
  let HTMP1S : Cplx F := HTMP1S +ᶜ t1 *ᶜ t2 -ᶜ t3 *ᶜ Cplx.conj t4
  let t5 ← rdC (el3 2 2 LDA A 1 L I)
  let t6 ← rdC (el3 2 2 LDB B 2 J L)
  let t7 ← rdC (el3 2 2 LDA A 2 L I)
  let t8 ← rdC (el3 2 2 LDB B 1 J L)
  let HTMP1J : Cplx F := HTMP1J +ᶜ t5 *ᶜ t6 +ᶜ t7 *ᶜ Cplx.conj t8
  pure (HTMP1J, HTMP1S)

/-- `src/hblas/fortran/hblas3/hgemmhz.f:322-342`, body of `DO 280 I`. -/
def hgemmhz_280_I (A : Int) (ALPHA : Quat F) (B : Int) (BETA : Cplx F) (BZERO : Bool) (C : Int) (J : Int) (K : Int) (LDA : Int) (LDB : Int) (LDC : Int) (I : Int)  : Prog F (Unit) := do
  let HTMP1S : Cplx F := (⟨zero, zero⟩ : Cplx F)
  let HTMP1J : Cplx F := (⟨zero, zero⟩ : Cplx F)
  let r ← foldN (K).toNat (fun i (s : Cplx F × Cplx F) => hgemmhz_290_L A B I J LDA LDB ((i : Int) + 1) s.1 s.2) (HTMP1J, HTMP1S)
  let HTMP1J : Cplx F := r.1
  let HTMP1S : Cplx F := r.2
  let _ ← (do
    if BZERO then
      wrC (el3 2 2 LDC C 1 I J) (Quat.lo ALPHA *ᶜ HTMP1S -ᶜ Quat.hi ALPHA *ᶜ Cplx.conj HTMP1J)
      wrC (el3 2 2 LDC C 2 I J) (Quat.lo ALPHA *ᶜ HTMP1J +ᶜ Quat.hi ALPHA *ᶜ Cplx.conj HTMP1S)
      pure ()
    else
      let t1 ← rdC (el3 2 2 LDC C 1 I J)
      wrC (el3 2 2 LDC C 1 I J) (Quat.lo ALPHA *ᶜ HTMP1S -ᶜ Quat.hi ALPHA *ᶜ Cplx.conj HTMP1J +ᶜ BETA *ᶜ t1)
      let t2 ← rdC (el3 2 2 LDC C 2 I J)
      wrC (el3 2 2 LDC C 2 I J) (Quat.lo ALPHA *ᶜ HTMP1J +ᶜ Quat.hi ALPHA *ᶜ Cplx.conj HTMP1S +ᶜ BETA *ᶜ t2)
      pure () : Prog F Unit)
  pure ()

/-- `src/hblas/fortran/hblas3/hgemmhz.f:321-342`, body of `DO 280 J`. -/
def hgemmhz_280_J (A : Int) (ALPHA : Quat F) (B : Int) (BETA : Cplx F) (BZERO : Bool) (C : Int) (K : Int) (LDA : Int) (LDB : Int) (LDC : Int) (M : Int) (J : Int)  : Prog F (Unit) := do
  forN (M).toNat (fun i => hgemmhz_280_I A ALPHA B BETA BZERO C J K LDA LDB LDC ((i : Int) + 1))
  pure ()

/-- `src/hblas/fortran/hblas3/hgemmhz.f:291-343`. -/
def hgemmhz_if291 (A : Int) (ALPHA : Quat F) (B : Int) (BETA : Cplx F) (BZERO : Bool) (C : Int) (CONJB : Bool) (K : Int) (LDA : Int) (LDB : Int) (LDC : Int) (M : Int) (N : Int) : Prog F (Unit) := do
  if CONJB then
    forN (N).toNat (fun i => hgemmhz_260_J A ALPHA B BETA BZERO C K LDA LDB LDC M ((i : Int) + 1))
    pure ()
  else
    forN (N).toNat (fun i => hgemmhz_280_J A ALPHA B BETA BZERO C K LDA LDB LDC M ((i : Int) + 1))
    pure ()

/-- `src/hblas/fortran/hblas3/hgemmhz.f:64-344`. -/
def hgemmhz_if64 (A : Int) (ALPHA : Quat F) (B : Int) (BETA : Cplx F) (BONE : Bool) (BZERO : Bool) (C : Int) (CONJA : Bool) (CONJB : Bool) (K : Int) (LDA : Int) (LDB : Int) (LDC : Int) (M : Int) (N : Int) (NOTA : Bool) (NOTB : Bool) : Prog F (Unit) := do
  if NOTB then
    hgemmhz_if65 A ALPHA B BETA BONE BZERO C CONJA K LDA LDB LDC M N NOTA
    pure ()
  else if NOTA then
    hgemmhz_if157 A ALPHA B BETA BONE BZERO C CONJB K LDA LDB LDC M N
    pure ()
  else if CONJA then
    hgemmhz_if234 A ALPHA B BETA BZERO C CONJB K LDA LDB LDC M N
    pure ()
  else
    hgemmhz_if291 A ALPHA B BETA BZERO C CONJB K LDA LDB LDC M N
    pure ()

/-- `src/hblas/fortran/hblas3/hgemmhz.f:9-345`. -/
def hgemmhz (TRANSA : Char) (TRANSB : Char) (M : Int) (N : Int) (K : Int) (ALPHA : Quat F) (A : Int) (LDA : Int) (B : Int) (LDB : Int) (BETA : Cplx F) (C : Int) (LDC : Int) : Prog F (Unit) := do
  let NOTA : Bool := lsame TRANSA 'N'
  let NOTB : Bool := lsame TRANSB 'N'
  let CONJA : Bool := lsame TRANSA 'C'
  let CONJB : Bool := lsame TRANSB 'C'
  let AZERO : Bool := (Cplx.feq (Quat.lo ALPHA) (⟨zero, zero⟩ : Cplx F)) && (Cplx.feq (Quat.hi ALPHA) (⟨zero, zero⟩ : Cplx F))
  -- AONE (line 34) is never read
  let BZERO : Bool := Cplx.feq BETA (⟨zero, zero⟩ : Cplx F)
  let BONE : Bool := Cplx.feq BETA (⟨one, zero⟩ : Cplx F)
  if (decide (M = 0)) || (decide (N = 0)) then
    pure ()
  else
    if (AZERO || (decide (K = 0))) && BONE then
      pure ()
    else
      if AZERO then
        hgemmhz_if48 BETA BZERO C LDC M N
        pure ()
      else
        hgemmhz_if64 A ALPHA B BETA BONE BZERO C CONJA CONJB K LDA LDB LDC M N NOTA NOTB
        pure ()

end Haxx
