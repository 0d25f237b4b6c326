import Verif.Fortran

/-!
# Fortran GEMM, hd

Generated by `tools/f2lean.py` from the Fortran sources cited on each definition; do not edit.
-/

set_option linter.unusedVariables false

namespace Haxx
open Arith

variable {F : Type} [Arith F] [ArithEq F]

/-- `src/hblas/fortran/hblas3/hgemmhd.f:51-54`, body of `DO 10 I`. -/
def hgemmhd_10_I (C : Int) (J : Int) (LDC : Int) (I : Int)  : Prog F (Unit) := do
  wrC (el3 2 2 LDC C 1 I J) (⟨zero, zero⟩ : Cplx F)
  wrC (el3 2 2 LDC C 2 I J) (⟨zero, zero⟩ : Cplx F)
  pure ()

/-- `src/hblas/fortran/hblas3/hgemmhd.f:50-54`, body of `DO 10 J`. -/
def hgemmhd_10_J (C : Int) (LDC : Int) (M : Int) (J : Int)  : Prog F (Unit) := do
  forN (M).toNat (fun i => hgemmhd_10_I C J LDC ((i : Int) + 1))
  pure ()

/-- `src/hblas/fortran/hblas3/hgemmhd.f:57-60`, body of `DO 20 I`. -/
def hgemmhd_20_I (BETA : F) (C : Int) (J : Int) (LDC : Int) (I : Int)  : Prog F (Unit) := do
  let t1 ← rdC (el3 2 2 LDC C 1 I J)
  wrC (el3 2 2 LDC C 1 I J) (Cplx.ofReal BETA *ᶜ t1)
  let t2 ← rdC (el3 2 2 LDC C 2 I J)
  wrC (el3 2 2 LDC C 2 I J) (Cplx.ofReal BETA *ᶜ t2)
  pure ()

/-- `src/hblas/fortran/hblas3/hgemmhd.f:56-60`, body of `DO 20 J`. -/
def hgemmhd_20_J (BETA : F) (C : Int) (LDC : Int) (M : Int) (J : Int)  : Prog F (Unit) := do
  forN (M).toNat (fun i => hgemmhd_20_I BETA C J LDC ((i : Int) + 1))
  pure ()

/-- `src/hblas/fortran/hblas3/hgemmhd.f:49-61`. -/
def hgemmhd_if49 (BETA : F) (BZERO : Bool) (C : Int) (LDC : Int) (M : Int) (N : Int) : Prog F (Unit) := do
  if BZERO then
    forN (N).toNat (fun i => hgemmhd_10_J C LDC M ((i : Int) + 1))
    pure ()
  else
    forN (N).toNat (fun i => hgemmhd_20_J BETA C LDC M ((i : Int) + 1))
    pure ()

/-- `src/hblas/fortran/hblas3/hgemmhd.f:72-75`, body of `DO 40 I`. -/
def hgemmhd_40_I (C : Int) (J : Int) (LDC : Int) (I : Int)  : Prog F (Unit) := do
  wrC (el3 2 2 LDC C 1 I J) (⟨zero, zero⟩ : Cplx F)
  wrC (el3 2 2 LDC C 2 I J) (⟨zero, zero⟩ : Cplx F)
  pure ()

/-- `src/hblas/fortran/hblas3/hgemmhd.f:77-80`, body of `DO 50 I`. -/
def hgemmhd_50_I (BETA : F) (C : Int) (J : Int) (LDC : Int) (I : Int)  : Prog F (Unit) := do
  let t1 ← rdC (el3 2 2 LDC C 1 I J)
  wrC (el3 2 2 LDC C 1 I J) (Cplx.ofReal BETA *ᶜ t1)
  let t2 ← rdC (el3 2 2 LDC C 2 I J)
  wrC (el3 2 2 LDC C 2 I J) (Cplx.ofReal BETA *ᶜ t2)
  pure ()

/-- `src/hblas/fortran/hblas3/hgemmhd.f:71-81`. -/
def hgemmhd_if71 (BETA : F) (BONE : Bool) (BZERO : Bool) (C : Int) (J : Int) (LDC : Int) (M : Int) : Prog F (Unit) := do
  if BZERO then
    forN (M).toNat (fun i => hgemmhd_40_I C J LDC ((i : Int) + 1))
    pure ()
  else if !BONE then
    forN (M).toNat (fun i => hgemmhd_50_I BETA C J LDC ((i : Int) + 1))
    pure ()
  else
    pure ()

/-- `src/hblas/fortran/hblas3/hgemmhd.f:92-100`, body of `DO 70 I`. -/
def hgemmhd_70_I (A : Int) (C : Int) (HTMP1J : Cplx F) (HTMP1S : Cplx F) (HTMP2J : Cplx F) (HTMP2S : Cplx F) (HTMP3J : Cplx F) (HTMP3S : Cplx F) (HTMP4J : Cplx F) (HTMP4S : Cplx F) (J : Int) (L : Int) (LDA : Int) (LDC : Int) (I : Int)  : Prog F (Unit) := do
  let t1 ← rdC (el3 2 2 LDC C 1 I J)
  let t2 ← rdC (el3 2 2 LDA A 1 I L)
  let t3 ← rdC (el3 2 2 LDA A 2 I L)
  let t4 ← rdC (el3 2 2 LDA A 1 I L)
  let t5 ← rdC (el3 2 2 LDA A 2 I L)
  wrC (el3 2 2 LDC C 1 I J) (t1 +ᶜ t2 *ᶜ HTMP1S -ᶜ t3 *ᶜ HTMP2J -ᶜ Cplx.conj t4 *ᶜ HTMP4J -ᶜ Cplx.conj t5 *ᶜ HTMP3S)
  let t6 ← rdC (el3 2 2 LDC C 2 I J)
  let t7 ← rdC (el3 2 2 LDA A 1 I L)
  let t8 ← rdC (el3 2 2 LDA A 2 I L)
  let t9 ← rdC (el3 2 2 LDA A 1 I L)
  let t10 ← rdC (el3 2 2 LDA A 2 I L)
  wrC (el3 2 2 LDC C 2 I J) (t6 +ᶜ t7 *ᶜ HTMP1J +ᶜ t8 *ᶜ HTMP2S +ᶜ Cplx.conj t9 *ᶜ HTMP4S -ᶜ Cplx.conj t10 *ᶜ HTMP3J)
  pure ()

/-- `src/hblas/fortran/hblas3/hgemmhd.f:83-101`, body of `DO 60 L`. -/
def hgemmhd_60_L (A : Int) (ALPHA : Quat F) (B : Int) (C : Int) (J : Int) (LDA : Int) (LDB : Int) (LDC : Int) (M : Int) (L : Int)  : Prog F (Unit) := do
  let t1 ← rdC (el3 2 2 LDB B 1 L J)
  let HTMP1S : Cplx F := Quat.lo ALPHA *ᶜ t1
  let t2 ← rdC (el3 2 2 LDB B 2 L J)
  let HTMP1J : Cplx F := Quat.lo ALPHA *ᶜ t2
  let t3 ← rdC (el3 2 2 LDB B 1 L J)
  let HTMP2S : Cplx F := Quat.lo ALPHA *ᶜ Cplx.conj t3
  let t4 ← rdC (el3 2 2 LDB B 2 L J)
  let HTMP2J : Cplx F := Quat.lo ALPHA *ᶜ Cplx.conj t4
  let t5 ← rdC (el3 2 2 LDB B 1 L J)
  let HTMP3S : Cplx F := Quat.hi ALPHA *ᶜ t5
  let t6 ← rdC (el3 2 2 LDB B 2 L J)
  let HTMP3J : Cplx F := Quat.hi ALPHA *ᶜ t6
  let t7 ← rdC (el3 2 2 LDB B 1 L J)
  let HTMP4S : Cplx F := Quat.hi ALPHA *ᶜ Cplx.conj t7
  let t8 ← rdC (el3 2 2 LDB B 2 L J)
  let HTMP4J : Cplx F := Quat.hi ALPHA *ᶜ Cplx.conj t8
  forN (M).toNat (fun i => hgemmhd_70_I A C HTMP1J HTMP1S HTMP2J HTMP2S HTMP3J HTMP3S HTMP4J HTMP4S J L LDA LDC ((i : Int) + 1))
  pure ()

/-- `src/hblas/fortran/hblas3/hgemmhd.f:70-102`, body of `DO 30 J`. -/
def hgemmhd_30_J (A : Int) (ALPHA : Quat F) (B : Int) (BETA : F) (BONE : Bool) (BZERO : Bool) (C : Int) (K : Int) (LDA : Int) (LDB : Int) (LDC : Int) (M : Int) (J : Int)  : Prog F (Unit) := do
  hgemmhd_if71 BETA BONE BZERO C J LDC M
  forN (K).toNat (fun i => hgemmhd_60_L A ALPHA B C J LDA LDB LDC M ((i : Int) + 1))
  pure ()

/-- `src/hblas/fortran/hblas3/hgemmhd.f:111-117`, body of `DO 90 L`. -/
def hgemmhd_90_L (A : Int) (B : Int) (I : Int) (J : Int) (LDA : Int) (LDB : Int) (L : Int) (HTMP1J : Cplx F) (HTMP1S : Cplx F) : Prog F (Cplx F × Cplx F) := do
  let t1 ← rdC (el3 2 2 LDA A 1 L I)
  let t2 ← rdC (el3 2 2 LDB B 1 L J)
  let t3 ← rdC (el3 2 2 LDA A 2 L I)
  let t4 ← rdC (el3 2 2 LDB B 2 L J)
  let HTMP1S : Cplx F := HTMP1S +ᶜ Cplx.conj t1 *ᶜ t2 +ᶜ t3 *ᶜ Cplx.conj t4
  let t5 ← rdC (el3 2 2 LDA A 1 L I)
  let t6 ← rdC (el3 2 2 LDB B 2 L J)
  let t7 ← rdC (el3 2 2 LDA A 2 L I)
  let t8 ← rdC (el3 2 2 LDB B 1 L J)
  let HTMP1J : Cplx F := HTMP1J +ᶜ Cplx.conj t5 *ᶜ t6 -ᶜ t7 *ᶜ Cplx.conj t8
  pure (HTMP1J, HTMP1S)

/-- `src/hblas/fortran/hblas3/hgemmhd.f:108-128`, body of `DO 80 I`. -/
def hgemmhd_80_I (A : Int) (ALPHA : Quat F) (B : Int) (BETA : F) (BZERO : Bool) (C : Int) (J : Int) (K : Int) (LDA : Int) (LDB : Int) (LDC : Int) (I : Int)  : Prog F (Unit) := do
  let HTMP1S : Cplx F := (⟨zero, zero⟩ : Cplx F)
  let HTMP1J : Cplx F := (⟨zero, zero⟩ : Cplx F)
  let r ← foldN (K).toNat (fun i (s : Cplx F × Cplx F) => hgemmhd_90_L A B I J LDA LDB ((i : Int) + 1) s.1 s.2) (HTMP1J, HTMP1S)
  let HTMP1J : Cplx F := r.1
  let HTMP1S : Cplx F := r.2
  let _ ← (do
    if BZERO then
      wrC (el3 2 2 LDC C 1 I J) (Quat.lo ALPHA *ᶜ HTMP1S -ᶜ Quat.hi ALPHA *ᶜ Cplx.conj HTMP1J)
      wrC (el3 2 2 LDC C 2 I J) (Quat.lo ALPHA *ᶜ HTMP1J +ᶜ Quat.hi ALPHA *ᶜ Cplx.conj HTMP1S)
      pure ()
    else
      let t1 ← rdC (el3 2 2 LDC C 1 I J)
      wrC (el3 2 2 LDC C 1 I J) (Quat.lo ALPHA *ᶜ HTMP1S -ᶜ Quat.hi ALPHA *ᶜ Cplx.conj HTMP1J +ᶜ Cplx.ofReal BETA *ᶜ t1)
      let t2 ← rdC (el3 2 2 LDC C 2 I J)
      wrC (el3 2 2 LDC C 2 I J) (Quat.lo ALPHA *ᶜ HTMP1J +ᶜ Quat.hi ALPHA *ᶜ Cplx.conj HTMP1S +ᶜ Cplx.ofReal BETA *ᶜ t2)
      pure () : Prog F Unit)
  pure ()

/-- `src/hblas/fortran/hblas3/hgemmhd.f:107-128`, body of `DO 80 J`. -/
def hgemmhd_80_J (A : Int) (ALPHA : Quat F) (B : Int) (BETA : F) (BZERO : Bool) (C : Int) (K : Int) (LDA : Int) (LDB : Int) (LDC : Int) (M : Int) (J : Int)  : Prog F (Unit) := do
  forN (M).toNat (fun i => hgemmhd_80_I A ALPHA B BETA BZERO C J K LDA LDB LDC ((i : Int) + 1))
  pure ()

/-- `src/hblas/fortran/hblas3/hgemmhd.f:138-144`, body of `DO 110 L`. -/
def hgemmhd_110_L (A : Int) (B : Int) (I : Int) (J : Int) (LDA : Int) (LDB : Int) (L : Int) (HTMP1J : Cplx F) (HTMP1S : Cplx F) : Prog F (Cplx F × Cplx F) := do
  let t1 ← rdC (el3 2 2 LDA A 1 L I)
  let t2 ← rdC (el3 2 2 LDB B 1 L J)
  let t3 ← rdC (el3 2 2 LDA A 2 L I)
  let t4 ← rdC (el3 2 2 LDB B 2 L J)
  let HTMP1S : Cplx F := HTMP1S +ᶜ t1 *ᶜ t2 -ᶜ t3 *ᶜ Cplx.conj t4
  let t5 ← rdC (el3 2 2 LDA A 1 L I)
  let t6 ← rdC (el3 2 2 LDB B 2 L J)
  let t7 ← rdC (el3 2 2 LDA A 2 L I)
  let t8 ← rdC (el3 2 2 LDB B 1 L J)
  let HTMP1J : Cplx F := HTMP1J +ᶜ t5 *ᶜ t6 +ᶜ t7 *ᶜ Cplx.conj t8
  pure (HTMP1J, HTMP1S)

/-- `src/hblas/fortran/hblas3/hgemmhd.f:135-155`, body of `DO 100 I`. -/
def hgemmhd_100_I (A : Int) (ALPHA : Quat F) (B : Int) (BETA : F) (BZERO : Bool) (C : Int) (J : Int) (K : Int) (LDA : Int) (LDB : Int) (LDC : Int) (I : Int)  : Prog F (Unit) := do
  let HTMP1S : Cplx F := (⟨zero, zero⟩ : Cplx F)
  let HTMP1J : Cplx F := (⟨zero, zero⟩ : Cplx F)
  let r ← foldN (K).toNat (fun i (s : Cplx F × Cplx F) => hgemmhd_110_L A B I J LDA LDB ((i : Int) + 1) s.1 s.2) (HTMP1J, HTMP1S)
  let HTMP1J : Cplx F := r.1
  let HTMP1S : Cplx F := r.2
  let _ ← (do
    if BZERO then
      wrC (el3 2 2 LDC C 1 I J) (Quat.lo ALPHA *ᶜ HTMP1S -ᶜ Quat.hi ALPHA *ᶜ Cplx.conj HTMP1J)
      wrC (el3 2 2 LDC C 2 I J) (Quat.lo ALPHA *ᶜ HTMP1J +ᶜ Quat.hi ALPHA *ᶜ Cplx.conj HTMP1S)
      pure ()
    else
      let t1 ← rdC (el3 2 2 LDC C 1 I J)
      wrC (el3 2 2 LDC C 1 I J) (Quat.lo ALPHA *ᶜ HTMP1S -ᶜ Quat.hi ALPHA *ᶜ Cplx.conj HTMP1J +ᶜ Cplx.ofReal BETA *ᶜ t1)
      let t2 ← rdC (el3 2 2 LDC C 2 I J)
      wrC (el3 2 2 LDC C 2 I J) (Quat.lo ALPHA *ᶜ HTMP1J +ᶜ Quat.hi ALPHA *ᶜ Cplx.conj HTMP1S +ᶜ Cplx.ofReal BETA *ᶜ t2)
      pure () : Prog F Unit)
  pure ()

/-- `src/hblas/fortran/hblas3/hgemmhd.f:134-155`, body of `DO 100 J`. -/
def hgemmhd_100_J (A : Int) (ALPHA : Quat F) (B : Int) (BETA : F) (BZERO : Bool) (C : Int) (K : Int) (LDA : Int) (LDB : Int) (LDC : Int) (M : Int) (J : Int)  : Prog F (Unit) := do
  forN (M).toNat (fun i => hgemmhd_100_I A ALPHA B BETA BZERO C J K LDA LDB LDC ((i : Int) + 1))
  pure ()

/-- `src/hblas/fortran/hblas3/hgemmhd.f:66-156`. -/
def hgemmhd_if66 (A : Int) (ALPHA : Quat F) (B : Int) (BETA : F) (BONE : Bool) (BZERO : Bool) (C : Int) (CONJA : Bool) (K : Int) (LDA : Int) (LDB : Int) (LDC : Int) (M : Int) (N : Int) (NOTA : Bool) : Prog F (Unit) := do
  if NOTA then
    forN (N).toNat (fun i => hgemmhd_30_J A ALPHA B BETA BONE BZERO C K LDA LDB LDC M ((i : Int) + 1))
    pure ()
  else if CONJA then
    forN (N).toNat (fun i => hgemmhd_80_J A ALPHA B BETA BZERO C K LDA LDB LDC M ((i : Int) + 1))
    pure ()
  else
    forN (N).toNat (fun i => hgemmhd_100_J A ALPHA B BETA BZERO C K LDA LDB LDC M ((i : Int) + 1))
    pure ()

/-- `src/hblas/fortran/hblas3/hgemmhd.f:164-167`, body of `DO 130 I`. -/
def hgemmhd_130_I (C : Int) (J : Int) (LDC : Int) (I : Int)  : Prog F (Unit) := do
  wrC (el3 2 2 LDC C 1 I J) (⟨zero, zero⟩ : Cplx F)
  wrC (el3 2 2 LDC C 2 I J) (⟨zero, zero⟩ : Cplx F)
  pure ()

/-- `src/hblas/fortran/hblas3/hgemmhd.f:169-172`, body of `DO 140 I`. -/
def hgemmhd_140_I (BETA : F) (C : Int) (J : Int) (LDC : Int) (I : Int)  : Prog F (Unit) := do
  let t1 ← rdC (el3 2 2 LDC C 1 I J)
  wrC (el3 2 2 LDC C 1 I J) (Cplx.ofReal BETA *ᶜ t1)
  let t2 ← rdC (el3 2 2 LDC C 2 I J)
  wrC (el3 2 2 LDC C 2 I J) (Cplx.ofReal BETA *ᶜ t2)
  pure ()

/-- `src/hblas/fortran/hblas3/hgemmhd.f:163-173`. -/
def hgemmhd_if163 (BETA : F) (BONE : Bool) (BZERO : Bool) (C : Int) (J : Int) (LDC : Int) (M : Int) : Prog F (Unit) := do
  if BZERO then
    forN (M).toNat (fun i => hgemmhd_130_I C J LDC ((i : Int) + 1))
    pure ()
  else if !BONE then
    forN (M).toNat (fun i => hgemmhd_140_I BETA C J LDC ((i : Int) + 1))
    pure ()
  else
    pure ()

/-- `src/hblas/fortran/hblas3/hgemmhd.f:184-192`, body of `DO 160 I`. -/
def hgemmhd_160_I (A : Int) (C : Int) (HTMP1J : Cplx F) (HTMP1S : Cplx F) (HTMP2J : Cplx F) (HTMP2S : Cplx F) (HTMP3J : Cplx F) (HTMP3S : Cplx F) (HTMP4J : Cplx F) (HTMP4S : Cplx F) (J : Int) (L : Int) (LDA : Int) (LDC : Int) (I : Int)  : Prog F (Unit) := do
  let t1 ← rdC (el3 2 2 LDC C 1 I J)
  let t2 ← rdC (el3 2 2 LDA A 1 I L)
  let t3 ← rdC (el3 2 2 LDA A 2 I L)
  let t4 ← rdC (el3 2 2 LDA A 1 I L)
  let t5 ← rdC (el3 2 2 LDA A 2 I L)
  wrC (el3 2 2 LDC C 1 I J) (t1 +ᶜ t2 *ᶜ HTMP2S -ᶜ t3 *ᶜ HTMP2J -ᶜ Cplx.conj t4 *ᶜ HTMP4J -ᶜ Cplx.conj t5 *ᶜ HTMP4S)
  let t6 ← rdC (el3 2 2 LDC C 2 I J)
  let t7 ← rdC (el3 2 2 LDA A 1 I L)
  let t8 ← rdC (el3 2 2 LDA A 2 I L)
  let t9 ← rdC (el3 2 2 LDA A 1 I L)
  let t10 ← rdC (el3 2 2 LDA A 2 I L)
  wrC (el3 2 2 LDC C 2 I J) (t6 +ᶜ t7 *ᶜ HTMP1J +ᶜ t8 *ᶜ HTMP1S +ᶜ Cplx.conj t9 *ᶜ HTMP3S -ᶜ Cplx.conj t10 *ᶜ HTMP3J)
  pure ()

/-- `src/hblas/fortran/hblas3/hgemmhd.f:175-193`, body of `DO 150 L`. -/
def hgemmhd_150_L (A : Int) (ALPHA : Quat F) (B : Int) (C : Int) (J : Int) (LDA : Int) (LDB : Int) (LDC : Int) (M : Int) (L : Int)  : Prog F (Unit) := do
  let t1 ← rdC (el3 2 2 LDB B 1 J L)
  let HTMP1S : Cplx F := Quat.lo ALPHA *ᶜ t1
  let t2 ← rdC (el3 2 2 LDB B 2 J L)
  let HTMP1J : Cplx F := Cplx.neg (Quat.lo ALPHA *ᶜ t2)
  let t3 ← rdC (el3 2 2 LDB B 1 J L)
  let HTMP2S : Cplx F := Quat.lo ALPHA *ᶜ Cplx.conj t3
  let t4 ← rdC (el3 2 2 LDB B 2 J L)
  let HTMP2J : Cplx F := Cplx.neg (Quat.lo ALPHA *ᶜ Cplx.conj t4)
  let t5 ← rdC (el3 2 2 LDB B 1 J L)
  let HTMP3S : Cplx F := Quat.hi ALPHA *ᶜ t5
  let t6 ← rdC (el3 2 2 LDB B 2 J L)
  let HTMP3J : Cplx F := Cplx.neg (Quat.hi ALPHA *ᶜ t6)
  let t7 ← rdC (el3 2 2 LDB B 1 J L)
  let HTMP4S : Cplx F := Quat.hi ALPHA *ᶜ Cplx.conj t7
  let t8 ← rdC (el3 2 2 LDB B 2 J L)
  let HTMP4J : Cplx F := Cplx.neg (Quat.hi ALPHA *ᶜ Cplx.conj t8)
  forN (M).toNat (fun i => hgemmhd_160_I A C HTMP1J HTMP1S HTMP2J HTMP2S HTMP3J HTMP3S HTMP4J HTMP4S J L LDA LDC ((i : Int) + 1))
  pure ()

/-- `src/hblas/fortran/hblas3/hgemmhd.f:162-194`, body of `DO 120 J`. -/
def hgemmhd_120_J (A : Int) (ALPHA : Quat F) (B : Int) (BETA : F) (BONE : Bool) (BZERO : Bool) (C : Int) (K : Int) (LDA : Int) (LDB : Int) (LDC : Int) (M : Int) (J : Int)  : Prog F (Unit) := do
  hgemmhd_if163 BETA BONE BZERO C J LDC M
  forN (K).toNat (fun i => hgemmhd_150_L A ALPHA B C J LDA LDB LDC M ((i : Int) + 1))
  pure ()

/-- `src/hblas/fortran/hblas3/hgemmhd.f:202-205`, body of `DO 180 I`. -/
def hgemmhd_180_I (C : Int) (J : Int) (LDC : Int) (I : Int)  : Prog F (Unit) := do
  wrC (el3 2 2 LDC C 1 I J) (⟨zero, zero⟩ : Cplx F)
  wrC (el3 2 2 LDC C 2 I J) (⟨zero, zero⟩ : Cplx F)
  pure ()

/-- `src/hblas/fortran/hblas3/hgemmhd.f:207-210`, body of `DO 190 I`. -/
def hgemmhd_190_I (BETA : F) (C : Int) (J : Int) (LDC : Int) (I : Int)  : Prog F (Unit) := do
  let t1 ← rdC (el3 2 2 LDC C 1 I J)
  wrC (el3 2 2 LDC C 1 I J) (Cplx.ofReal BETA *ᶜ t1)
  let t2 ← rdC (el3 2 2 LDC C 2 I J)
  wrC (el3 2 2 LDC C 2 I J) (Cplx.ofReal BETA *ᶜ t2)
  pure ()

/-- `src/hblas/fortran/hblas3/hgemmhd.f:201-211`. -/
def hgemmhd_if201 (BETA : F) (BONE : Bool) (BZERO : Bool) (C : Int) (J : Int) (LDC : Int) (M : Int) : Prog F (Unit) := do
  if BZERO then
    forN (M).toNat (fun i => hgemmhd_180_I C J LDC ((i : Int) + 1))
    pure ()
  else if !BONE then
    forN (M).toNat (fun i => hgemmhd_190_I BETA C J LDC ((i : Int) + 1))
    pure ()
  else
    pure ()

/-- `src/hblas/fortran/hblas3/hgemmhd.f:222-230`, body of `DO 210 I`. -/
def hgemmhd_210_I (A : Int) (C : Int) (HTMP1J : Cplx F) (HTMP1S : Cplx F) (HTMP2J : Cplx F) (HTMP2S : Cplx F) (HTMP3J : Cplx F) (HTMP3S : Cplx F) (HTMP4J : Cplx F) (HTMP4S : Cplx F) (J : Int) (L : Int) (LDA : Int) (LDC : Int) (I : Int)  : Prog F (Unit) := do
  let t1 ← rdC (el3 2 2 LDC C 1 I J)
  let t2 ← rdC (el3 2 2 LDA A 1 I L)
  let t3 ← rdC (el3 2 2 LDA A 2 I L)
  let t4 ← rdC (el3 2 2 LDA A 1 I L)
  let t5 ← rdC (el3 2 2 LDA A 2 I L)
  wrC (el3 2 2 LDC C 1 I J) (t1 +ᶜ t2 *ᶜ HTMP1S -ᶜ t3 *ᶜ HTMP2J -ᶜ Cplx.conj t4 *ᶜ HTMP4J -ᶜ Cplx.conj t5 *ᶜ HTMP3S)
  let t6 ← rdC (el3 2 2 LDC C 2 I J)
  let t7 ← rdC (el3 2 2 LDA A 1 I L)
  let t8 ← rdC (el3 2 2 LDA A 2 I L)
  let t9 ← rdC (el3 2 2 LDA A 1 I L)
  let t10 ← rdC (el3 2 2 LDA A 2 I L)
  wrC (el3 2 2 LDC C 2 I J) (t6 +ᶜ t7 *ᶜ HTMP1J +ᶜ t8 *ᶜ HTMP2S +ᶜ Cplx.conj t9 *ᶜ HTMP4S -ᶜ Cplx.conj t10 *ᶜ HTMP3J)
  pure ()

/-- `src/hblas/fortran/hblas3/hgemmhd.f:213-231`, body of `DO 200 L`. -/
def hgemmhd_200_L (A : Int) (ALPHA : Quat F) (B : Int) (C : Int) (J : Int) (LDA : Int) (LDB : Int) (LDC : Int) (M : Int) (L : Int)  : Prog F (Unit) := do
  let t1 ← rdC (el3 2 2 LDB B 1 J L)
  let HTMP1S : Cplx F := Quat.lo ALPHA *ᶜ t1
  let t2 ← rdC (el3 2 2 LDB B 2 J L)
  let HTMP1J : Cplx F := Quat.lo ALPHA *ᶜ t2
  let t3 ← rdC (el3 2 2 LDB B 1 J L)
  let HTMP2S : Cplx F := Quat.lo ALPHA *ᶜ Cplx.conj t3
  let t4 ← rdC (el3 2 2 LDB B 2 J L)
  let HTMP2J : Cplx F := Quat.lo ALPHA *ᶜ Cplx.conj t4
  let t5 ← rdC (el3 2 2 LDB B 1 J L)
  let HTMP3S : Cplx F := Quat.hi ALPHA *ᶜ t5
  let t6 ← rdC (el3 2 2 LDB B 2 J L)
  let HTMP3J : Cplx F := Quat.hi ALPHA *ᶜ t6
  let t7 ← rdC (el3 2 2 LDB B 1 J L)
  let HTMP4S : Cplx F := Quat.hi ALPHA *ᶜ Cplx.conj t7
  let t8 ← rdC (el3 2 2 LDB B 2 J L)
  let HTMP4J : Cplx F := Quat.hi ALPHA *ᶜ Cplx.conj t8
  forN (M).toNat (fun i => hgemmhd_210_I A C HTMP1J HTMP1S HTMP2J HTMP2S HTMP3J HTMP3S HTMP4J HTMP4S J L LDA LDC ((i : Int) + 1))
  pure ()

/-- `src/hblas/fortran/hblas3/hgemmhd.f:200-232`, body of `DO 170 J`. -/
def hgemmhd_170_J (A : Int) (ALPHA : Quat F) (B : Int) (BETA : F) (BONE : Bool) (BZERO : Bool) (C : Int) (K : Int) (LDA : Int) (LDB : Int) (LDC : Int) (M : Int) (J : Int)  : Prog F (Unit) := do
  hgemmhd_if201 BETA BONE BZERO C J LDC M
  forN (K).toNat (fun i => hgemmhd_200_L A ALPHA B C J LDA LDB LDC M ((i : Int) + 1))
  pure ()

/-- `src/hblas/fortran/hblas3/hgemmhd.f:158-233`. -/
def hgemmhd_if158 (A : Int) (ALPHA : Quat F) (B : Int) (BETA : F) (BONE : Bool) (BZERO : Bool) (C : Int) (CONJB : Bool) (K : Int) (LDA : Int) (LDB : Int) (LDC : Int) (M : Int) (N : Int) : Prog F (Unit) := do
  if CONJB then
    forN (N).toNat (fun i => hgemmhd_120_J A ALPHA B BETA BONE BZERO C K LDA LDB LDC M ((i : Int) + 1))
    pure ()
  else
    forN (N).toNat (fun i => hgemmhd_170_J A ALPHA B BETA BONE BZERO C K LDA LDB LDC M ((i : Int) + 1))
    pure ()

/-- `src/hblas/fortran/hblas3/hgemmhd.f:243-250`, body of `DO 230 L`. -/
def hgemmhd_230_L (A : Int) (B : Int) (I : Int) (J : Int) (LDA : Int) (LDB : Int) (L : Int) (HTMP1J : Cplx F) (HTMP1S : Cplx F) : Prog F (Cplx F × Cplx F) := do
  let t1 ← rdC (el3 2 2 LDA A 1 L I)
  let t2 ← rdC (el3 2 2 LDB B 1 J L)
  let t3 ← rdC (el3 2 2 LDA A 2 L I)
  let t4 ← rdC (el3 2 2 LDB B 2 J L)
  let HTMP1S : Cplx F := HTMP1S +ᶜ Cplx.conj t1 *ᶜ Cplx.conj t2 -ᶜ t3 *ᶜ Cplx.conj t4
  let t5 ← rdC (el3 2 2 LDA A 1 L I)
  let t6 ← rdC (el3 2 2 LDB B 2 J L)
  let t7 ← rdC (el3 2 2 LDA A 2 L I)
  let t8 ← rdC (el3 2 2 LDB B 1 J L)
  let HTMP1J : Cplx F := HTMP1J -ᶜ Cplx.conj t5 *ᶜ t6 -ᶜ t7 *ᶜ t8
  pure (HTMP1J, HTMP1S)

/-- `src/hblas/fortran/hblas3/hgemmhd.f:240-261`, body of `DO 220 I`. -/
def hgemmhd_220_I (A : Int) (ALPHA : Quat F) (B : Int) (BETA : F) (BZERO : Bool) (C : Int) (J : Int) (K : Int) (LDA : Int) (LDB : Int) (LDC : Int) (I : Int)  : Prog F (Unit) := do
  let HTMP1S : Cplx F := (⟨zero, zero⟩ : Cplx F)
  let HTMP1J : Cplx F := (⟨zero, zero⟩ : Cplx F)
  let r ← foldN (K).toNat (fun i (s : Cplx F × Cplx F) => hgemmhd_230_L A B I J LDA LDB ((i : Int) + 1) s.1 s.2) (HTMP1J, HTMP1S)
  let HTMP1J : Cplx F := r.1
  let HTMP1S : Cplx F := r.2
  let _ ← (do
    if BZERO then
      wrC (el3 2 2 LDC C 1 I J) (Quat.lo ALPHA *ᶜ HTMP1S -ᶜ Quat.hi ALPHA *ᶜ Cplx.conj HTMP1J)
      wrC (el3 2 2 LDC C 2 I J) (Quat.lo ALPHA *ᶜ HTMP1J +ᶜ Quat.hi ALPHA *ᶜ Cplx.conj HTMP1S)
      pure ()
    else
      let t1 ← rdC (el3 2 2 LDC C 1 I J)
      wrC (el3 2 2 LDC C 1 I J) (Quat.lo ALPHA *ᶜ HTMP1S -ᶜ Quat.hi ALPHA *ᶜ Cplx.conj HTMP1J +ᶜ Cplx.ofReal BETA *ᶜ t1)
      let t2 ← rdC (el3 2 2 LDC C 2 I J)
      wrC (el3 2 2 LDC C 2 I J) (Quat.lo ALPHA *ᶜ HTMP1J +ᶜ Quat.hi ALPHA *ᶜ Cplx.conj HTMP1S +ᶜ Cplx.ofReal BETA *ᶜ t2)
      pure () : Prog F Unit)
  pure ()

/-- `src/hblas/fortran/hblas3/hgemmhd.f:239-261`, body of `DO 220 J`. -/
def hgemmhd_220_J (A : Int) (ALPHA : Quat F) (B : Int) (BETA : F) (BZERO : Bool) (C : Int) (K : Int) (LDA : Int) (LDB : Int) (LDC : Int) (M : Int) (J : Int)  : Prog F (Unit) := do
  forN (M).toNat (fun i => hgemmhd_220_I A ALPHA B BETA BZERO C J K LDA LDB LDC ((i : Int) + 1))
  pure ()

/-- `src/hblas/fortran/hblas3/hgemmhd.f:271-277`, body of `DO 250 L`. -/
def hgemmhd_250_L (A : Int) (B : Int) (I : Int) (J : Int) (LDA : Int) (LDB : Int) (L : Int) (HTMP1J : Cplx F) (HTMP1S : Cplx F) : Prog F (Cplx F × Cplx F) := do
  let t1 ← rdC (el3 2 2 LDA A 1 L I)
  let t2 ← rdC (el3 2 2 LDB B 1 J L)
  let t3 ← rdC (el3 2 2 LDA A 2 L I)
  let t4 ← rdC (el3 2 2 LDB B 2 J L)
  let HTMP1S : Cplx F := HTMP1S +ᶜ Cplx.conj t1 *ᶜ t2 +ᶜ t3 *ᶜ Cplx.conj t4
  let t5 ← rdC (el3 2 2 LDA A 1 L I)
  let t6 ← rdC (el3 2 2 LDB B 2 J L)
  let t7 ← rdC (el3 2 2 LDA A 2 L I)
  let t8 ← rdC (el3 2 2 LDB B 1 J L)
  let HTMP1J : Cplx F := HTMP1J +ᶜ Cplx.conj t5 *ᶜ t6 -ᶜ t7 *ᶜ Cplx.conj t8
  pure (HTMP1J, HTMP1S)

/-- `src/hblas/fortran/hblas3/hgemmhd.f:268-288`, body of `DO 240 I`. -/
def hgemmhd_240_I (A : Int) (ALPHA : Quat F) (B : Int) (BETA : F) (BZERO : Bool) (C : Int) (J : Int) (K : Int) (LDA : Int) (LDB : Int) (LDC : Int) (I : Int)  : Prog F (Unit) := do
  let HTMP1S : Cplx F := (⟨zero, zero⟩ : Cplx F)
  let HTMP1J : Cplx F := (⟨zero, zero⟩ : Cplx F)
  let r ← foldN (K).toNat (fun i (s : Cplx F × Cplx F) => hgemmhd_250_L A B I J LDA LDB ((i : Int) + 1) s.1 s.2) (HTMP1J, HTMP1S)
  let HTMP1J : Cplx F := r.1
  let HTMP1S : Cplx F := r.2
  let _ ← (do
    if BZERO then
      wrC (el3 2 2 LDC C 1 I J) (Quat.lo ALPHA *ᶜ HTMP1S -ᶜ Quat.hi ALPHA *ᶜ Cplx.conj HTMP1J)
      wrC (el3 2 2 LDC C 2 I J) (Quat.lo ALPHA *ᶜ HTMP1J +ᶜ Quat.hi ALPHA *ᶜ Cplx.conj HTMP1S)
      pure ()
    else
      let t1 ← rdC (el3 2 2 LDC C 1 I J)
      wrC (el3 2 2 LDC C 1 I J) (Quat.lo ALPHA *ᶜ HTMP1S -ᶜ Quat.hi ALPHA *ᶜ Cplx.conj HTMP1J +ᶜ Cplx.ofReal BETA *ᶜ t1)
      let t2 ← rdC (el3 2 2 LDC C 2 I J)
      wrC (el3 2 2 LDC C 2 I J) (Quat.lo ALPHA *ᶜ HTMP1J +ᶜ Quat.hi ALPHA *ᶜ Cplx.conj HTMP1S +ᶜ Cplx.ofReal BETA *ᶜ t2)
      pure () : Prog F Unit)
  pure ()

/-- `src/hblas/fortran/hblas3/hgemmhd.f:267-288`, body of `DO 240 J`. -/
def hgemmhd_240_J (A : Int) (ALPHA : Quat F) (B : Int) (BETA : F) (BZERO : Bool) (C : Int) (K : Int) (LDA : Int) (LDB : Int) (LDC : Int) (M : Int) (J : Int)  : Prog F (Unit) := do
  forN (M).toNat (fun i => hgemmhd_240_I A ALPHA B BETA BZERO C J K LDA LDB LDC ((i : Int) + 1))
  pure ()

/-- `src/hblas/fortran/hblas3/hgemmhd.f:235-289`. -/
def hgemmhd_if235 (A : Int) (ALPHA : Quat F) (B : Int) (BETA : F) (BZERO : Bool) (C : Int) (CONJB : Bool) (K : Int) (LDA : Int) (LDB : Int) (LDC : Int) (M : Int) (N : Int) : Prog F (Unit) := do
  if CONJB then
    forN (N).toNat (fun i => hgemmhd_220_J A ALPHA B BETA BZERO C K LDA LDB LDC M ((i : Int) + 1))
    pure ()
  else
    forN (N).toNat (fun i => hgemmhd_240_J A ALPHA B BETA BZERO C K LDA LDB LDC M ((i : Int) + 1))
    pure ()

/-- `src/hblas/fortran/hblas3/hgemmhd.f:300-306`, body of `DO 270 L`. -/
def hgemmhd_270_L (A : Int) (B : Int) (I : Int) (J : Int) (LDA : Int) (LDB : Int) (L : Int) (HTMP1J : Cplx F) (HTMP1S : Cplx F) : Prog F (Cplx F × Cplx F) := do
  let t1 ← rdC (el3 2 2 LDA A 1 L I)
  let t2 ← rdC (el3 2 2 LDB B 1 J L)
  let t3 ← rdC (el3 2 2 LDA A 2 L I)
  let t4 ← rdC (el3 2 2 LDB B 2 J L)
  let HTMP1S : Cplx F := HTMP1S +ᶜ t1 *ᶜ Cplx.conj t2 +ᶜ t3 *ᶜ Cplx.conj t4
  let t5 ← rdC (el3 2 2 LDA A 1 L I)
  let t6 ← rdC (el3 2 2 LDB B 2 J L)
  let t7 ← rdC (el3 2 2 LDA A 2 L I)
  let t8 ← rdC (el3 2 2 LDB B 1 J L)
  let HTMP1J : Cplx F := HTMP1J -ᶜ t5 *ᶜ t6 +ᶜ t7 *ᶜ t8
  pure (HTMP1J, HTMP1S)

/-- `src/hblas/fortran/hblas3/hgemmhd.f:297-317`, body of `DO 260 I`. -/
def hgemmhd_260_I (A : Int) (ALPHA : Quat F) (B : Int) (BETA : F) (BZERO : Bool) (C : Int) (J : Int) (K : Int) (LDA : Int) (LDB : Int) (LDC : Int) (I : Int)  : Prog F (Unit) := do
  let HTMP1S : Cplx F := (⟨zero, zero⟩ : Cplx F)
  let HTMP1J : Cplx F := (⟨zero, zero⟩ : Cplx F)
  let r ← foldN (K).toNat (fun i (s : Cplx F × Cplx F) => hgemmhd_270_L A B I J LDA LDB ((i : Int) + 1) s.1 s.2) (HTMP1J, HTMP1S)
  let HTMP1J : Cplx F := r.1
  let HTMP1S : Cplx F := r.2
  let _ ← (do
    if BZERO then
      wrC (el3 2 2 LDC C 1 I J) (Quat.lo ALPHA *ᶜ HTMP1S -ᶜ Quat.hi ALPHA *ᶜ Cplx.conj HTMP1J)
      wrC (el3 2 2 LDC C 2 I J) (Quat.lo ALPHA *ᶜ HTMP1J +ᶜ Quat.hi ALPHA *ᶜ Cplx.conj HTMP1S)
      pure ()
    else
      let t1 ← rdC (el3 2 2 LDC C 1 I J)
      wrC (el3 2 2 LDC C 1 I J) (Quat.lo ALPHA *ᶜ HTMP1S -ᶜ Quat.hi ALPHA *ᶜ Cplx.conj HTMP1J +ᶜ Cplx.ofReal BETA *ᶜ t1)
      let t2 ← rdC (el3 2 2 LDC C 2 I J)
      wrC (el3 2 2 LDC C 2 I J) (Quat.lo ALPHA *ᶜ HTMP1J +ᶜ Quat.hi ALPHA *ᶜ Cplx.conj HTMP1S +ᶜ Cplx.ofReal BETA *ᶜ t2)
      pure () : Prog F Unit)
  pure ()

/-- `src/hblas/fortran/hblas3/hgemmhd.f:296-317`, body of `DO 260 J`. -/
def hgemmhd_260_J (A : Int) (ALPHA : Quat F) (B : Int) (BETA : F) (BZERO : Bool) (C : Int) (K : Int) (LDA : Int) (LDB : Int) (LDC : Int) (M : Int) (J : Int)  : Prog F (Unit) := do
  forN (M).toNat (fun i => hgemmhd_260_I A ALPHA B BETA BZERO C J K LDA LDB LDC ((i : Int) + 1))
  pure ()

/-- `src/hblas/fortran/hblas3/hgemmhd.f:326-332`, body of `DO 290 L`. -/
def hgemmhd_290_L (A : Int) (B : Int) (I : Int) (J : Int) (LDA : Int) (LDB : Int) (L : Int) (HTMP1J : Cplx F) (HTMP1S : Cplx F) : Prog F (Cplx F × Cplx F) := do
  let t1 ← rdC (el3 2 2 LDA A 1 L I)
  let t2 ← rdC (el3 2 2 LDB B 1 J L)
  let t3 ← rdC (el3 2 2 LDA A 2 L I)
  let t4 ← rdC (el3 2 2 LDB B 2 J L)
  let HTMP1S : Cplx F := HTMP1S +ᶜ t1 *ᶜ t2 -ᶜ t3 *ᶜ Cplx.conj t4
  let t5 ← rdC (el3 2 2 LDA A 1 L I)
  let t6 ← rdC (el3 2 2 LDB B 2 J L)
  let t7 ← rdC (el3 2 2 LDA A 2 L I)
  let t8 ← rdC (el3 2 2 LDB B 1 J L)
  let HTMP1J : Cplx F := HTMP1J +ᶜ t5 *ᶜ t6 +ᶜ t7 *ᶜ Cplx.conj t8
  pure (HTMP1J, HTMP1S)

/-- `src/hblas/fortran/hblas3/hgemmhd.f:323-343`, body of `DO 280 I`. -/
def hgemmhd_280_I (A : Int) (ALPHA : Quat F) (B : Int) (BETA : F) (BZERO : Bool) (C : Int) (J : Int) (K : Int) (LDA : Int) (LDB : Int) (LDC : Int) (I : Int)  : Prog F (Unit) := do
  let HTMP1S : Cplx F := (⟨zero, zero⟩ : Cplx F)
  let HTMP1J : Cplx F := (⟨zero, zero⟩ : Cplx F)
  let r ← foldN (K).toNat (fun i (s : Cplx F × Cplx F) => hgemmhd_290_L A B I J LDA LDB ((i : Int) + 1) s.1 s.2) (HTMP1J, HTMP1S)
  let HTMP1J : Cplx F := r.1
  let HTMP1S : Cplx F := r.2
  let _ ← (do
    if BZERO then
      wrC (el3 2 2 LDC C 1 I J) (Quat.lo ALPHA *ᶜ HTMP1S -ᶜ Quat.hi ALPHA *ᶜ Cplx.conj HTMP1J)
      wrC (el3 2 2 LDC C 2 I J) (Quat.lo ALPHA *ᶜ HTMP1J +ᶜ Quat.hi ALPHA *ᶜ Cplx.conj HTMP1S)
      pure ()
    else
      let t1 ← rdC (el3 2 2 LDC C 1 I J)
      wrC (el3 2 2 LDC C 1 I J) (Quat.lo ALPHA *ᶜ HTMP1S -ᶜ Quat.hi ALPHA *ᶜ Cplx.conj HTMP1J +ᶜ Cplx.ofReal BETA *ᶜ t1)
      let t2 ← rdC (el3 2 2 LDC C 2 I J)
      wrC (el3 2 2 LDC C 2 I J) (Quat.lo ALPHA *ᶜ HTMP1J +ᶜ Quat.hi ALPHA *ᶜ Cplx.conj HTMP1S +ᶜ Cplx.ofReal BETA *ᶜ t2)
      pure () : Prog F Unit)
  pure ()

/-- `src/hblas/fortran/hblas3/hgemmhd.f:322-343`, body of `DO 280 J`. -/
def hgemmhd_280_J (A : Int) (ALPHA : Quat F) (B : Int) (BETA : F) (BZERO : Bool) (C : Int) (K : Int) (LDA : Int) (LDB : Int) (LDC : Int) (M : Int) (J : Int)  : Prog F (Unit) := do
  forN (M).toNat (fun i => hgemmhd_280_I A ALPHA B BETA BZERO C J K LDA LDB LDC ((i : Int) + 1))
  pure ()

/-- `src/hblas/fortran/hblas3/hgemmhd.f:292-344`. -/
def hgemmhd_if292 (A : Int) (ALPHA : Quat F) (B : Int) (BETA : F) (BZERO : Bool) (C : Int) (CONJB : Bool) (K : Int) (LDA : Int) (LDB : Int) (LDC : Int) (M : Int) (N : Int) : Prog F (Unit) := do
  if CONJB then
    forN (N).toNat (fun i => hgemmhd_260_J A ALPHA B BETA BZERO C K LDA LDB LDC M ((i : Int) + 1))
    pure ()
  else
    forN (N).toNat (fun i => hgemmhd_280_J A ALPHA B BETA BZERO C K LDA LDB LDC M ((i : Int) + 1))
    pure ()

/-- `src/hblas/fortran/hblas3/hgemmhd.f:65-345`. -/
def hgemmhd_if65 (A : Int) (ALPHA : Quat F) (B : Int) (BETA : F) (BONE : Bool) (BZERO : Bool) (C : Int) (CONJA : Bool) (CONJB : Bool) (K : Int) (LDA : Int) (LDB : Int) (LDC : Int) (M : Int) (N : Int) (NOTA : Bool) (NOTB : Bool) : Prog F (Unit) := do
  if NOTB then
    hgemmhd_if66 A ALPHA B BETA BONE BZERO C CONJA K LDA LDB LDC M N NOTA
    pure ()
  else if NOTA then
    hgemmhd_if158 A ALPHA B BETA BONE BZERO C CONJB K LDA LDB LDC M N
    pure ()
  else if CONJA then
    hgemmhd_if235 A ALPHA B BETA BZERO C CONJB K LDA LDB LDC M N
    pure ()
  else
    hgemmhd_if292 A ALPHA B BETA BZERO C CONJB K LDA LDB LDC M N
    pure ()

/-- `src/hblas/fortran/hblas3/hgemmhd.f:9-346`. -/
def hgemmhd (TRANSA : Char) (TRANSB : Char) (M : Int) (N : Int) (K : Int) (ALPHA : Quat F) (A : Int) (LDA : Int) (B : Int) (LDB : Int) (BETA : F) (C : Int) (LDC : Int) : Prog F (Unit) := do
  let NOTA : Bool := lsame TRANSA 'N'
  let NOTB : Bool := lsame TRANSB 'N'
  let CONJA : Bool := lsame TRANSA 'C'
  let CONJB : Bool := lsame TRANSB 'C'
  let AZERO : Bool := (Cplx.feq (Quat.lo ALPHA) (⟨zero, zero⟩ : Cplx F)) && (Cplx.feq (Quat.hi ALPHA) (⟨zero, zero⟩ : Cplx F))
  -- AONE (line 35) is never read
  let BZERO : Bool := Cplx.feq (Cplx.ofReal BETA) (⟨zero, zero⟩ : Cplx F)
  let BONE : Bool := Cplx.feq (Cplx.ofReal BETA) (⟨one, zero⟩ : Cplx F)
  if (decide (M = 0)) || (decide (N = 0)) then
    pure ()
  else
    if (AZERO || (decide (K = 0))) && BONE then
      pure ()
    else
      if AZERO then
        hgemmhd_if49 BETA BZERO C LDC M N
        pure ()
      else
        hgemmhd_if65 A ALPHA B BETA BONE BZERO C CONJA CONJB K LDA LDB LDC M N NOTA NOTB
        pure ()

end Haxx
