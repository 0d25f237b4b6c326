import Verif.Fortran

/-!
# Fortran GEMM, zh

Generated by `tools/f2lean.py` from the Fortran sources cited on each definition; do not edit.
-/

set_option linter.unusedVariables false

namespace Haxx
open Arith

variable {F : Type} [Arith F] [ArithEq F]

/-- `src/hblas/fortran/hblas3/hgemmzh.f:49-52`, body of `DO 10 I`. -/
def hgemmzh_10_I (C : Int) (J : Int) (LDC : Int) (I : Int)  : Prog F (Unit) := do
  wrC (el3 2 2 LDC C 1 I J) (⟨zero, zero⟩ : Cplx F)
  wrC (el3 2 2 LDC C 2 I J) (⟨zero, zero⟩ : Cplx F)
  pure ()

/-- `src/hblas/fortran/hblas3/hgemmzh.f:48-52`, body of `DO 10 J`. -/
def hgemmzh_10_J (C : Int) (LDC : Int) (M : Int) (J : Int)  : Prog F (Unit) := do
  forN (M).toNat (fun i => hgemmzh_10_I C J LDC ((i : Int) + 1))
  pure ()

/-- `src/hblas/fortran/hblas3/hgemmzh.f:55-59`, body of `DO 20 I`. -/
def hgemmzh_20_I (BETA : Quat F) (C : Int) (J : Int) (LDC : Int) (I : Int)  : Prog F (Unit) := do
  let t1 ← rdC (el3 2 2 LDC C 1 I J)
  let t2 ← rdC (el3 2 2 LDC C 2 I J)
  let HTMP1S : Cplx F := Quat.lo BETA *ᶜ t1 -ᶜ Quat.hi BETA *ᶜ Cplx.conj t2
  let t3 ← rdC (el3 2 2 LDC C 2 I J)
  let t4 ← rdC (el3 2 2 LDC C 1 I J)
  wrC (el3 2 2 LDC C 2 I J) (Quat.lo BETA *ᶜ t3 +ᶜ Quat.hi BETA *ᶜ Cplx.conj t4)
  wrC (el3 2 2 LDC C 1 I J) HTMP1S
  pure ()

/-- `src/hblas/fortran/hblas3/hgemmzh.f:54-59`, body of `DO 20 J`. -/
def hgemmzh_20_J (BETA : Quat F) (C : Int) (LDC : Int) (M : Int) (J : Int)  : Prog F (Unit) := do
  forN (M).toNat (fun i => hgemmzh_20_I BETA C J LDC ((i : Int) + 1))
  pure ()

/-- `src/hblas/fortran/hblas3/hgemmzh.f:47-60`. -/
def hgemmzh_if47 (BETA : Quat F) (BZERO : Bool) (C : Int) (LDC : Int) (M : Int) (N : Int) : Prog F (Unit) := do
  if BZERO then
    forN (N).toNat (fun i => hgemmzh_10_J C LDC M ((i : Int) + 1))
    pure ()
  else
    forN (N).toNat (fun i => hgemmzh_20_J BETA C LDC M ((i : Int) + 1))
    pure ()

/-- `src/hblas/fortran/hblas3/hgemmzh.f:71-74`, body of `DO 40 I`. -/
def hgemmzh_40_I (C : Int) (J : Int) (LDC : Int) (I : Int)  : Prog F (Unit) := do
  wrC (el3 2 2 LDC C 1 I J) (⟨zero, zero⟩ : Cplx F)
  wrC (el3 2 2 LDC C 2 I J) (⟨zero, zero⟩ : Cplx F)
  pure ()

/-- `src/hblas/fortran/hblas3/hgemmzh.f:76-80`, body of `DO 50 I`. -/
def hgemmzh_50_I (BETA : Quat F) (C : Int) (J : Int) (LDC : Int) (I : Int)  : Prog F (Unit) := do
  let t1 ← rdC (el3 2 2 LDC C 1 I J)
  let t2 ← rdC (el3 2 2 LDC C 2 I J)
  let HTMP1S : Cplx F := Quat.lo BETA *ᶜ t1 -ᶜ Quat.hi BETA *ᶜ Cplx.conj t2
  let t3 ← rdC (el3 2 2 LDC C 2 I J)
  let t4 ← rdC (el3 2 2 LDC C 1 I J)
  wrC (el3 2 2 LDC C 2 I J) (Quat.lo BETA *ᶜ t3 +ᶜ Quat.hi BETA *ᶜ Cplx.conj t4)
  wrC (el3 2 2 LDC C 1 I J) HTMP1S
  pure ()

/-- `src/hblas/fortran/hblas3/hgemmzh.f:70-81`. -/
def hgemmzh_if70 (BETA : Quat F) (BONE : Bool) (BZERO : Bool) (C : Int) (J : Int) (LDC : Int) (M : Int) : Prog F (Unit) := do
  if BZERO then
    forN (M).toNat (fun i => hgemmzh_40_I C J LDC ((i : Int) + 1))
    pure ()
  else if !BONE then
    forN (M).toNat (fun i => hgemmzh_50_I BETA C J LDC ((i : Int) + 1))
    pure ()
  else
    pure ()

/-- `src/hblas/fortran/hblas3/hgemmzh.f:88-94`, body of `DO 70 I`. -/
def hgemmzh_70_I (A : Int) (C : Int) (HTMP1J : Cplx F) (HTMP1S : Cplx F) (HTMP2J : Cplx F) (HTMP2S : Cplx F) (J : Int) (L : Int) (LDA : Int) (LDC : Int) (I : Int)  : Prog F (Unit) := do
  let t1 ← rdC (el3 2 2 LDC C 1 I J)
  let t2 ← rdC (el3 2 2 LDA A 1 I L)
  let t3 ← rdC (el3 2 2 LDA A 2 I L)
  wrC (el3 2 2 LDC C 1 I J) (t1 +ᶜ t2 *ᶜ HTMP1S -ᶜ t3 *ᶜ HTMP2J)
  let t4 ← rdC (el3 2 2 LDC C 2 I J)
  let t5 ← rdC (el3 2 2 LDA A 1 I L)
  let t6 ← rdC (el3 2 2 LDA A 2 I L)
  wrC (el3 2 2 LDC C 2 I J) (t4 +ᶜ t5 *ᶜ HTMP1J +ᶜ t6 *ᶜ HTMP2S)
  pure ()

/-- `src/hblas/fortran/hblas3/hgemmzh.f:83-95`, body of `DO 60 L`. -/
def hgemmzh_60_L (A : Int) (ALPHA : Cplx F) (B : Int) (C : Int) (J : Int) (LDA : Int) (LDB : Int) (LDC : Int) (M : Int) (L : Int)  : Prog F (Unit) := do
  let t1 ← rdC (el3 2 2 LDB B 1 L J)
  let HTMP1S : Cplx F := ALPHA *ᶜ t1
  let t2 ← rdC (el3 2 2 LDB B 2 L J)
  let HTMP1J : Cplx F := ALPHA *ᶜ t2
  let t3 ← rdC (el3 2 2 LDB B 1 L J)
  let HTMP2S : Cplx F := ALPHA *ᶜ Cplx.conj t3
  let t4 ← rdC (el3 2 2 LDB B 2 L J)
  let HTMP2J : Cplx F := ALPHA *ᶜ Cplx.conj t4
  forN (M).toNat (fun i => hgemmzh_70_I A C HTMP1J HTMP1S HTMP2J HTMP2S J L LDA LDC ((i : Int) + 1))
  pure ()

/-- `src/hblas/fortran/hblas3/hgemmzh.f:69-96`, body of `DO 30 J`. -/
def hgemmzh_30_J (A : Int) (ALPHA : Cplx F) (B : Int) (BETA : Quat F) (BONE : Bool) (BZERO : Bool) (C : Int) (K : Int) (LDA : Int) (LDB : Int) (LDC : Int) (M : Int) (J : Int)  : Prog F (Unit) := do
  hgemmzh_if70 BETA BONE BZERO C J LDC M
  forN (K).toNat (fun i => hgemmzh_60_L A ALPHA B C J LDA LDB LDC M ((i : Int) + 1))
  pure ()

/-- `src/hblas/fortran/hblas3/hgemmzh.f:105-111`, body of `DO 90 L`. -/
def hgemmzh_90_L (A : Int) (B : Int) (I : Int) (J : Int) (LDA : Int) (LDB : Int) (L : Int) (HTMP1J : Cplx F) (HTMP1S : Cplx F) : Prog F (Cplx F × Cplx F) := do
  let t1 ← rdC (el3 2 2 LDA A 1 L I)
  let t2 ← rdC (el3 2 2 LDB B 1 L J)
  let t3 ← rdC (el3 2 2 LDA A 2 L I)
  let t4 ← rdC (el3 2 2 LDB B 2 L J)
  let HTMP1S : Cplx F := HTMP1S +ᶜ Cplx.conj t1 *ᶜ t2 +ᶜ t3 *ᶜ Cplx.conj t4
  let t5 ← rdC (el3 2 2 LDA A 1 L I)
  let t6 ← rdC (el3 2 2 LDB B 2 L J)
  let t7 ← rdC (el3 2 2 LDA A 2 L I)
  let t8 ← rdC (el3 2 2 LDB B 1 L J)
  let HTMP1J : Cplx F := HTMP1J +ᶜ Cplx.conj t5 *ᶜ t6 -ᶜ t7 *ᶜ Cplx.conj t8
  pure (HTMP1J, HTMP1S)

/-- `src/hblas/fortran/hblas3/hgemmzh.f:102-123`, body of `DO 80 I`. -/
def hgemmzh_80_I (A : Int) (ALPHA : Cplx F) (B : Int) (BETA : Quat F) (BZERO : Bool) (C : Int) (J : Int) (K : Int) (LDA : Int) (LDB : Int) (LDC : Int) (I : Int)  : Prog F (Unit) := do
  let HTMP1S : Cplx F := (⟨zero, zero⟩ : Cplx F)
  let HTMP1J : Cplx F := (⟨zero, zero⟩ : Cplx F)
  let r ← foldN (K).toNat (fun i (s : Cplx F × Cplx F) => hgemmzh_90_L A B I J LDA LDB ((i : Int) + 1) s.1 s.2) (HTMP1J, HTMP1S)
  let HTMP1J : Cplx F := r.1
  let HTMP1S : Cplx F := r.2
  let _ ← (do
    if BZERO then
      wrC (el3 2 2 LDC C 1 I J) (ALPHA *ᶜ HTMP1S)
      wrC (el3 2 2 LDC C 2 I J) (ALPHA *ᶜ HTMP1J)
      pure ()
    else
      let t1 ← rdC (el3 2 2 LDC C 1 I J)
      let t2 ← rdC (el3 2 2 LDC C 2 I J)
      let HTMP1S : Cplx F := ALPHA *ᶜ HTMP1S +ᶜ Quat.lo BETA *ᶜ t1 -ᶜ Quat.hi BETA *ᶜ Cplx.conj t2
      let t3 ← rdC (el3 2 2 LDC C 2 I J)
      let t4 ← rdC (el3 2 2 LDC C 1 I J)
      wrC (el3 2 2 LDC C 2 I J) (ALPHA *ᶜ HTMP1J +ᶜ Quat.lo BETA *ᶜ t3 +ᶜ Quat.hi BETA *ᶜ Cplx.conj t4)
      wrC (el3 2 2 LDC C 1 I J) HTMP1S
      pure () : Prog F Unit)
  pure ()

/-- `src/hblas/fortran/hblas3/hgemmzh.f:101-123`, body of `DO 80 J`. -/
def hgemmzh_80_J (A : Int) (ALPHA : Cplx F) (B : Int) (BETA : Quat F) (BZERO : Bool) (C : Int) (K : Int) (LDA : Int) (LDB : Int) (LDC : Int) (M : Int) (J : Int)  : Prog F (Unit) := do
  forN (M).toNat (fun i => hgemmzh_80_I A ALPHA B BETA BZERO C J K LDA LDB LDC ((i : Int) + 1))
  pure ()

/-- `src/hblas/fortran/hblas3/hgemmzh.f:133-139`, body of `DO 110 L`. -/
def hgemmzh_110_L (A : Int) (B : Int) (I : Int) (J : Int) (LDA : Int) (LDB : Int) (L : Int) (HTMP1J : Cplx F) (HTMP1S : Cplx F) : Prog F (Cplx F × Cplx F) := do
  let t1 ← rdC (el3 2 2 LDA A 1 L I)
  let t2 ← rdC (el3 2 2 LDB B 1 L J)
  let t3 ← rdC (el3 2 2 LDA A 2 L I)
  let t4 ← rdC (el3 2 2 LDB B 2 L J)
  let HTMP1S : Cplx F := HTMP1S +ᶜ t1 *ᶜ t2 -ᶜ t3 *ᶜ Cplx.conj t4
  let t5 ← rdC (el3 2 2 LDA A 1 L I)
  let t6 ← rdC (el3 2 2 LDB B 2 L J)
  let t7 ← rdC (el3 2 2 LDA A 2 L I)
  let t8 ← rdC (el3 2 2 LDB B 1 L J)
  let HTMP1J : Cplx F := HTMP1J +ᶜ t5 *ᶜ t6 +ᶜ t7 *ᶜ Cplx.conj t8
  pure (HTMP1J, HTMP1S)

/-- `src/hblas/fortran/hblas3/hgemmzh.f:130-151`, body of `DO 100 I`. -/
def hgemmzh_100_I (A : Int) (ALPHA : Cplx F) (B : Int) (BETA : Quat F) (BZERO : Bool) (C : Int) (J : Int) (K : Int) (LDA : Int) (LDB : Int) (LDC : Int) (I : Int)  : Prog F (Unit) := do
  let HTMP1S : Cplx F := (⟨zero, zero⟩ : Cplx F)
  let HTMP1J : Cplx F := (⟨zero, zero⟩ : Cplx F)
  let r ← foldN (K).toNat (fun i (s : Cplx F × Cplx F) => hgemmzh_110_L A B I J LDA LDB ((i : Int) + 1) s.1 s.2) (HTMP1J, HTMP1S)
  let HTMP1J : Cplx F := r.1
  let HTMP1S : Cplx F := r.2
  let _ ← (do
    if BZERO then
      wrC (el3 2 2 LDC C 1 I J) (ALPHA *ᶜ HTMP1S)
      wrC (el3 2 2 LDC C 2 I J) (ALPHA *ᶜ HTMP1J)
      pure ()
    else
      let t1 ← rdC (el3 2 2 LDC C 1 I J)
      let t2 ← rdC (el3 2 2 LDC C 2 I J)
      let HTMP1S : Cplx F := ALPHA *ᶜ HTMP1S +ᶜ Quat.lo BETA *ᶜ t1 -ᶜ Quat.hi BETA *ᶜ Cplx.conj t2
      let t3 ← rdC (el3 2 2 LDC C 2 I J)
      let t4 ← rdC (el3 2 2 LDC C 1 I J)
      wrC (el3 2 2 LDC C 2 I J) (ALPHA *ᶜ HTMP1J +ᶜ Quat.lo BETA *ᶜ t3 +ᶜ Quat.hi BETA *ᶜ Cplx.conj t4)
      wrC (el3 2 2 LDC C 1 I J) HTMP1S
      pure () : Prog F Unit)
  pure ()

/-- `src/hblas/fortran/hblas3/hgemmzh.f:129-151`, body of `DO 100 J`. -/
def hgemmzh_100_J (A : Int) (ALPHA : Cplx F) (B : Int) (BETA : Quat F) (BZERO : Bool) (C : Int) (K : Int) (LDA : Int) (LDB : Int) (LDC : Int) (M : Int) (J : Int)  : Prog F (Unit) := do
  forN (M).toNat (fun i => hgemmzh_100_I A ALPHA B BETA BZERO C J K LDA LDB LDC ((i : Int) + 1))
  pure ()

/-- `src/hblas/fortran/hblas3/hgemmzh.f:65-152`. -/
def hgemmzh_if65 (A : Int) (ALPHA : Cplx F) (B : Int) (BETA : Quat F) (BONE : Bool) (BZERO : Bool) (C : Int) (CONJA : Bool) (K : Int) (LDA : Int) (LDB : Int) (LDC : Int) (M : Int) (N : Int) (NOTA : Bool) : Prog F (Unit) := do
  if NOTA then
    forN (N).toNat (fun i => hgemmzh_30_J A ALPHA B BETA BONE BZERO C K LDA LDB LDC M ((i : Int) + 1))
    pure ()
  else if CONJA then
    forN (N).toNat (fun i => hgemmzh_80_J A ALPHA B BETA BZERO C K LDA LDB LDC M ((i : Int) + 1))
    pure ()
  else
    forN (N).toNat (fun i => hgemmzh_100_J A ALPHA B BETA BZERO C K LDA LDB LDC M ((i : Int) + 1))
    pure ()

/-- `src/hblas/fortran/hblas3/hgemmzh.f:160-163`, body of `DO 130 I`. -/
def hgemmzh_130_I (C : Int) (J : Int) (LDC : Int) (I : Int)  : Prog F (Unit) := do
  wrC (el3 2 2 LDC C 1 I J) (⟨zero, zero⟩ : Cplx F)
  wrC (el3 2 2 LDC C 2 I J) (⟨zero, zero⟩ : Cplx F)
  pure ()

/-- `src/hblas/fortran/hblas3/hgemmzh.f:165-169`, body of `DO 140 I`. -/
def hgemmzh_140_I (BETA : Quat F) (C : Int) (J : Int) (LDC : Int) (I : Int)  : Prog F (Unit) := do
  let t1 ← rdC (el3 2 2 LDC C 1 I J)
  let t2 ← rdC (el3 2 2 LDC C 2 I J)
  let HTMP1S : Cplx F := Quat.lo BETA *ᶜ t1 -ᶜ Quat.hi BETA *ᶜ Cplx.conj t2
  let t3 ← rdC (el3 2 2 LDC C 2 I J)
  let t4 ← rdC (el3 2 2 LDC C 1 I J)
  wrC (el3 2 2 LDC C 2 I J) (Quat.lo BETA *ᶜ t3 +ᶜ Quat.hi BETA *ᶜ Cplx.conj t4)
  wrC (el3 2 2 LDC C 1 I J) HTMP1S
  pure ()

/-- `src/hblas/fortran/hblas3/hgemmzh.f:159-170`. -/
def hgemmzh_if159 (BETA : Quat F) (BONE : Bool) (BZERO : Bool) (C : Int) (J : Int) (LDC : Int) (M : Int) : Prog F (Unit) := do
  if BZERO then
    forN (M).toNat (fun i => hgemmzh_130_I C J LDC ((i : Int) + 1))
    pure ()
  else if !BONE then
    forN (M).toNat (fun i => hgemmzh_140_I BETA C J LDC ((i : Int) + 1))
    pure ()
  else
    pure ()

/-- `src/hblas/fortran/hblas3/hgemmzh.f:177-183`, body of `DO 160 I`. -/
def hgemmzh_160_I (A : Int) (C : Int) (HTMP1J : Cplx F) (HTMP1S : Cplx F) (HTMP2J : Cplx F) (HTMP2S : Cplx F) (J : Int) (L : Int) (LDA : Int) (LDC : Int) (I : Int)  : Prog F (Unit) := do
  let t1 ← rdC (el3 2 2 LDC C 1 I J)
  let t2 ← rdC (el3 2 2 LDA A 1 I L)
  let t3 ← rdC (el3 2 2 LDA A 2 I L)
  wrC (el3 2 2 LDC C 1 I J) (t1 +ᶜ t2 *ᶜ HTMP2S -ᶜ t3 *ᶜ HTMP2J)
  let t4 ← rdC (el3 2 2 LDC C 2 I J)
  let t5 ← rdC (el3 2 2 LDA A 1 I L)
  let t6 ← rdC (el3 2 2 LDA A 2 I L)
  wrC (el3 2 2 LDC C 2 I J) (t4 +ᶜ t5 *ᶜ HTMP1J +ᶜ t6 *ᶜ HTMP1S)
  pure ()

/-- `src/hblas/fortran/hblas3/hgemmzh.f:172-184`, body of `DO 150 L`. -/
def hgemmzh_150_L (A : Int) (ALPHA : Cplx F) (B : Int) (C : Int) (J : Int) (LDA : Int) (LDB : Int) (LDC : Int) (M : Int) (L : Int)  : Prog F (Unit) := do
  let t1 ← rdC (el3 2 2 LDB B 1 J L)
  let HTMP1S : Cplx F := ALPHA *ᶜ t1
  let t2 ← rdC (el3 2 2 LDB B 2 J L)
  let HTMP1J : Cplx F := Cplx.neg (ALPHA *ᶜ t2)
  let t3 ← rdC (el3 2 2 LDB B 1 J L)
  let HTMP2S : Cplx F := ALPHA *ᶜ Cplx.conj t3
  let t4 ← rdC (el3 2 2 LDB B 2 J L)
  let HTMP2J : Cplx F := Cplx.neg (ALPHA *ᶜ Cplx.conj t4)
  forN (M).toNat (fun i => hgemmzh_160_I A C HTMP1J HTMP1S HTMP2J HTMP2S J L LDA LDC ((i : Int) + 1))
  pure ()

/-- `src/hblas/fortran/hblas3/hgemmzh.f:158-185`, body of `DO 120 J`. -/
def hgemmzh_120_J (A : Int) (ALPHA : Cplx F) (B : Int) (BETA : Quat F) (BONE : Bool) (BZERO : Bool) (C : Int) (K : Int) (LDA : Int) (LDB : Int) (LDC : Int) (M : Int) (J : Int)  : Prog F (Unit) := do
  hgemmzh_if159 BETA BONE BZERO C J LDC M
  forN (K).toNat (fun i => hgemmzh_150_L A ALPHA B C J LDA LDB LDC M ((i : Int) + 1))
  pure ()

/-- `src/hblas/fortran/hblas3/hgemmzh.f:193-196`, body of `DO 180 I`. -/
def hgemmzh_180_I (C : Int) (J : Int) (LDC : Int) (I : Int)  : Prog F (Unit) := do
  wrC (el3 2 2 LDC C 1 I J) (⟨zero, zero⟩ : Cplx F)
  wrC (el3 2 2 LDC C 2 I J) (⟨zero, zero⟩ : Cplx F)
  pure ()

/-- `src/hblas/fortran/hblas3/hgemmzh.f:198-202`, body of `DO 190 I`. -/
def hgemmzh_190_I (BETA : Quat F) (C : Int) (J : Int) (LDC : Int) (I : Int)  : Prog F (Unit) := do
  let t1 ← rdC (el3 2 2 LDC C 1 I J)
  let t2 ← rdC (el3 2 2 LDC C 2 I J)
  let HTMP1S : Cplx F := Quat.lo BETA *ᶜ t1 -ᶜ Quat.hi BETA *ᶜ Cplx.conj t2
  let t3 ← rdC (el3 2 2 LDC C 2 I J)
  let t4 ← rdC (el3 2 2 LDC C 1 I J)
  wrC (el3 2 2 LDC C 2 I J) (Quat.lo BETA *ᶜ t3 +ᶜ Quat.hi BETA *ᶜ Cplx.conj t4)
  wrC (el3 2 2 LDC C 1 I J) HTMP1S
  pure ()

/-- `src/hblas/fortran/hblas3/hgemmzh.f:192-203`. -/
def hgemmzh_if192 (BETA : Quat F) (BONE : Bool) (BZERO : Bool) (C : Int) (J : Int) (LDC : Int) (M : Int) : Prog F (Unit) := do
  if BZERO then
    forN (M).toNat (fun i => hgemmzh_180_I C J LDC ((i : Int) + 1))
    pure ()
  else if !BONE then
    forN (M).toNat (fun i => hgemmzh_190_I BETA C J LDC ((i : Int) + 1))
    pure ()
  else
    pure ()

/-- `src/hblas/fortran/hblas3/hgemmzh.f:210-216`, body of `DO 210 I`. -/
def hgemmzh_210_I (A : Int) (C : Int) (HTMP1J : Cplx F) (HTMP1S : Cplx F) (HTMP2J : Cplx F) (HTMP2S : Cplx F) (J : Int) (L : Int) (LDA : Int) (LDC : Int) (I : Int)  : Prog F (Unit) := do
  let t1 ← rdC (el3 2 2 LDC C 1 I J)
  let t2 ← rdC (el3 2 2 LDA A 1 I L)
  let t3 ← rdC (el3 2 2 LDA A 2 I L)
  wrC (el3 2 2 LDC C 1 I J) (t1 +ᶜ t2 *ᶜ HTMP1S -ᶜ t3 *ᶜ HTMP2J)
  let t4 ← rdC (el3 2 2 LDC C 2 I J)
  let t5 ← rdC (el3 2 2 LDA A 1 I L)
  let t6 ← rdC (el3 2 2 LDA A 2 I L)
  wrC (el3 2 2 LDC C 2 I J) (t4 +ᶜ t5 *ᶜ HTMP1J +ᶜ t6 *ᶜ HTMP2S)
  pure ()

/-- `src/hblas/fortran/hblas3/hgemmzh.f:205-217`, body of `DO 200 L`. -/
def hgemmzh_200_L (A : Int) (ALPHA : Cplx F) (B : Int) (C : Int) (J : Int) (LDA : Int) (LDB : Int) (LDC : Int) (M : Int) (L : Int)  : Prog F (Unit) := do
  let t1 ← rdC (el3 2 2 LDB B 1 J L)
  let HTMP1S : Cplx F := ALPHA *ᶜ t1
  let t2 ← rdC (el3 2 2 LDB B 2 J L)
  let HTMP1J : Cplx F := ALPHA *ᶜ t2
  let t3 ← rdC (el3 2 2 LDB B 1 J L)
  let HTMP2S : Cplx F := ALPHA *ᶜ Cplx.conj t3
  let t4 ← rdC (el3 2 2 LDB B 2 J L)
  let HTMP2J : Cplx F := ALPHA *ᶜ Cplx.conj t4
  forN (M).toNat (fun i => hgemmzh_210_I A C HTMP1J HTMP1S HTMP2J HTMP2S J L LDA LDC ((i : Int) + 1))
  pure ()

/-- `src/hblas/fortran/hblas3/hgemmzh.f:191-218`, body of `DO 170 J`. -/
def hgemmzh_170_J (A : Int) (ALPHA : Cplx F) (B : Int) (BETA : Quat F) (BONE : Bool) (BZERO : Bool) (C : Int) (K : Int) (LDA : Int) (LDB : Int) (LDC : Int) (M : Int) (J : Int)  : Prog F (Unit) := do
  hgemmzh_if192 BETA BONE BZERO C J LDC M
  forN (K).toNat (fun i => hgemmzh_200_L A ALPHA B C J LDA LDB LDC M ((i : Int) + 1))
  pure ()

/-- `src/hblas/fortran/hblas3/hgemmzh.f:154-219`. -/
def hgemmzh_if154 (A : Int) (ALPHA : Cplx F) (B : Int) (BETA : Quat F) (BONE : Bool) (BZERO : Bool) (C : Int) (CONJB : Bool) (K : Int) (LDA : Int) (LDB : Int) (LDC : Int) (M : Int) (N : Int) : Prog F (Unit) := do
  if CONJB then
    forN (N).toNat (fun i => hgemmzh_120_J A ALPHA B BETA BONE BZERO C K LDA LDB LDC M ((i : Int) + 1))
    pure ()
  else
    forN (N).toNat (fun i => hgemmzh_170_J A ALPHA B BETA BONE BZERO C K LDA LDB LDC M ((i : Int) + 1))
    pure ()

/-- `src/hblas/fortran/hblas3/hgemmzh.f:229-236`, body of `DO 230 L`. -/
def hgemmzh_230_L (A : Int) (B : Int) (I : Int) (J : Int) (LDA : Int) (LDB : Int) (L : Int) (HTMP1J : Cplx F) (HTMP1S : Cplx F) : Prog F (Cplx F × Cplx F) := do
  let t1 ← rdC (el3 2 2 LDA A 1 L I)
  let t2 ← rdC (el3 2 2 LDB B 1 J L)
  let t3 ← rdC (el3 2 2 LDA A 2 L I)
  let t4 ← rdC (el3 2 2 LDB B 2 J L)
  let HTMP1S : Cplx F := HTMP1S +ᶜ Cplx.conj t1 *ᶜ Cplx.conj t2 -ᶜ t3 *ᶜ Cplx.conj t4
  let t5 ← rdC (el3 2 2 LDA A 1 L I)
  let t6 ← rdC (el3 2 2 LDB B 2 J L)
  let t7 ← rdC (el3 2 2 LDA A 2 L I)
  let t8 ← rdC (el3 2 2 LDB B 1 J L)
  let HTMP1J : Cplx F := HTMP1J -ᶜ Cplx.conj t5 *ᶜ t6 -ᶜ t7 *ᶜ t8
  pure (HTMP1J, HTMP1S)

/-- `src/hblas/fortran/hblas3/hgemmzh.f:226-248`, body of `DO 220 I`. -/
def hgemmzh_220_I (A : Int) (ALPHA : Cplx F) (B : Int) (BETA : Quat F) (BZERO : Bool) (C : Int) (J : Int) (K : Int) (LDA : Int) (LDB : Int) (LDC : Int) (I : Int)  : Prog F (Unit) := do
  let HTMP1S : Cplx F := (⟨zero, zero⟩ : Cplx F)
  let HTMP1J : Cplx F := (⟨zero, zero⟩ : Cplx F)
  let r ← foldN (K).toNat (fun i (s : Cplx F × Cplx F) => hgemmzh_230_L A B I J LDA LDB ((i : Int) + 1) s.1 s.2) (HTMP1J, HTMP1S)
  let HTMP1J : Cplx F := r.1
  let HTMP1S : Cplx F := r.2
  let _ ← (do
    if BZERO then
      wrC (el3 2 2 LDC C 1 I J) (ALPHA *ᶜ HTMP1S)
      wrC (el3 2 2 LDC C 2 I J) (ALPHA *ᶜ HTMP1J)
      pure ()
    else
      let t1 ← rdC (el3 2 2 LDC C 1 I J)
      let t2 ← rdC (el3 2 2 LDC C 2 I J)
      let HTMP1S : Cplx F := ALPHA *ᶜ HTMP1S +ᶜ Quat.lo BETA *ᶜ t1 -ᶜ Quat.hi BETA *ᶜ Cplx.conj t2
      let t3 ← rdC (el3 2 2 LDC C 2 I J)
      let t4 ← rdC (el3 2 2 LDC C 1 I J)
      wrC (el3 2 2 LDC C 2 I J) (ALPHA *ᶜ HTMP1J +ᶜ Quat.lo BETA *ᶜ t3 +ᶜ Quat.hi BETA *ᶜ Cplx.conj t4)
      wrC (el3 2 2 LDC C 1 I J) HTMP1S
      pure () : Prog F Unit)
  pure ()

/-- `src/hblas/fortran/hblas3/hgemmzh.f:225-248`, body of `DO 220 J`. -/
def hgemmzh_220_J (A : Int) (ALPHA : Cplx F) (B : Int) (BETA : Quat F) (BZERO : Bool) (C : Int) (K : Int) (LDA : Int) (LDB : Int) (LDC : Int) (M : Int) (J : Int)  : Prog F (Unit) := do
  forN (M).toNat (fun i => hgemmzh_220_I A ALPHA B BETA BZERO C J K LDA LDB LDC ((i : Int) + 1))
  pure ()

/-- `src/hblas/fortran/hblas3/hgemmzh.f:258-264`, body of `DO 250 L`. -/
def hgemmzh_250_L (A : Int) (B : Int) (I : Int) (J : Int) (LDA : Int) (LDB : Int) (L : Int) (HTMP1J : Cplx F) (HTMP1S : Cplx F) : Prog F (Cplx F × Cplx F) := do
  let t1 ← rdC (el3 2 2 LDA A 1 L I)
  let t2 ← rdC (el3 2 2 LDB B 1 J L)
  let t3 ← rdC (el3 2 2 LDA A 2 L I)
  let t4 ← rdC (el3 2 2 LDB B 2 J L)
  let HTMP1S : Cplx F := HTMP1S +ᶜ Cplx.conj t1 *ᶜ t2 +ᶜ t3 *ᶜ Cplx.conj t4
  let t5 ← rdC (el3 2 2 LDA A 1 L I)
  let t6 ← rdC (el3 2 2 LDB B 2 J L)
  let t7 ← rdC (el3 2 2 LDA A 2 L I)
  let t8 ← rdC (el3 2 2 LDB B 1 J L)
  let HTMP1J : Cplx F := HTMP1J +ᶜ Cplx.conj t5 *ᶜ t6 -ᶜ t7 *ᶜ Cplx.conj t8
  pure (HTMP1J, HTMP1S)

/-- `src/hblas/fortran/hblas3/hgemmzh.f:255-276`, body of `DO 240 I`. -/
def hgemmzh_240_I (A : Int) (ALPHA : Cplx F) (B : Int) (BETA : Quat F) (BZERO : Bool) (C : Int) (J : Int) (K : Int) (LDA : Int) (LDB : Int) (LDC : Int) (I : Int)  : Prog F (Unit) := do
  let HTMP1S : Cplx F := (⟨zero, zero⟩ : Cplx F)
  let HTMP1J : Cplx F := (⟨zero, zero⟩ : Cplx F)
  let r ← foldN (K).toNat (fun i (s : Cplx F × Cplx F) => hgemmzh_250_L A B I J LDA LDB ((i : Int) + 1) s.1 s.2) (HTMP1J, HTMP1S)
  let HTMP1J : Cplx F := r.1
  let HTMP1S : Cplx F := r.2
  let _ ← (do
    if BZERO then
      wrC (el3 2 2 LDC C 1 I J) (ALPHA *ᶜ HTMP1S)
      wrC (el3 2 2 LDC C 2 I J) (ALPHA *ᶜ HTMP1J)
      pure ()
    else
      let t1 ← rdC (el3 2 2 LDC C 1 I J)
      let t2 ← rdC (el3 2 2 LDC C 2 I J)
      let HTMP1S : Cplx F := ALPHA *ᶜ HTMP1S +ᶜ Quat.lo BETA *ᶜ t1 -ᶜ Quat.hi BETA *ᶜ Cplx.conj t2
      let t3 ← rdC (el3 2 2 LDC C 2 I J)
      let t4 ← rdC (el3 2 2 LDC C 1 I J)
      wrC (el3 2 2 LDC C 2 I J) (ALPHA *ᶜ HTMP1J +ᶜ Quat.lo BETA *ᶜ t3 +ᶜ Quat.hi BETA *ᶜ Cplx.conj t4)
      wrC (el3 2 2 LDC C 1 I J) HTMP1S
      pure () : Prog F Unit)
  pure ()

/-- `src/hblas/fortran/hblas3/hgemmzh.f:254-276`, body of `DO 240 J`. -/
def hgemmzh_240_J (A : Int) (ALPHA : Cplx F) (B : Int) (BETA : Quat F) (BZERO : Bool) (C : Int) (K : Int) (LDA : Int) (LDB : Int) (LDC : Int) (M : Int) (J : Int)  : Prog F (Unit) := do
  forN (M).toNat (fun i => hgemmzh_240_I A ALPHA B BETA BZERO C J K LDA LDB LDC ((i : Int) + 1))
  pure ()

/-- `src/hblas/fortran/hblas3/hgemmzh.f:221-277`. -/
def hgemmzh_if221 (A : Int) (ALPHA : Cplx F) (B : Int) (BETA : Quat F) (BZERO : Bool) (C : Int) (CONJB : Bool) (K : Int) (LDA : Int) (LDB : Int) (LDC : Int) (M : Int) (N : Int) : Prog F (Unit) := do
  if CONJB then
    forN (N).toNat (fun i => hgemmzh_220_J A ALPHA B BETA BZERO C K LDA LDB LDC M ((i : Int) + 1))
    pure ()
  else
    forN (N).toNat (fun i => hgemmzh_240_J A ALPHA B BETA BZERO C K LDA LDB LDC M ((i : Int) + 1))
    pure ()

/-- `src/hblas/fortran/hblas3/hgemmzh.f:288-294`, body of `DO 270 L`. -/
def hgemmzh_270_L (A : Int) (B : Int) (I : Int) (J : Int) (LDA : Int) (LDB : Int) (L : Int) (HTMP1J : Cplx F) (HTMP1S : Cplx F) : Prog F (Cplx F × Cplx F) := do
  let t1 ← rdC (el3 2 2 LDA A 1 L I)
  let t2 ← rdC (el3 2 2 LDB B 1 J L)
  let t3 ← rdC (el3 2 2 LDA A 2 L I)
  let t4 ← rdC (el3 2 2 LDB B 2 J L)
  let HTMP1S : Cplx F := HTMP1S +ᶜ t1 *ᶜ Cplx.conj t2 +ᶜ t3 *ᶜ Cplx.conj t4
  let t5 ← rdC (el3 2 2 LDA A 1 L I)
  let t6 ← rdC (el3 2 2 LDB B 2 J L)
  let t7 ← rdC (el3 2 2 LDA A 2 L I)
  let t8 ← rdC (el3 2 2 LDB B 1 J L)
  let HTMP1J : Cplx F := HTMP1J -ᶜ t5 *ᶜ t6 +ᶜ t7 *ᶜ t8
  pure (HTMP1J, HTMP1S)

/-- `src/hblas/fortran/hblas3/hgemmzh.f:285-306`, body of `DO 260 I`. -/
def hgemmzh_260_I (A : Int) (ALPHA : Cplx F) (B : Int) (BETA : Quat F) (BZERO : Bool) (C : Int) (J : Int) (K : Int) (LDA : Int) (LDB : Int) (LDC : Int) (I : Int)  : Prog F (Unit) := do
  let HTMP1S : Cplx F := (⟨zero, zero⟩ : Cplx F)
  let HTMP1J : Cplx F := (⟨zero, zero⟩ : Cplx F)
  let r ← foldN (K).toNat (fun i (s : Cplx F × Cplx F) => hgemmzh_270_L A B I J LDA LDB ((i : Int) + 1) s.1 s.2) (HTMP1J, HTMP1S)
  let HTMP1J : Cplx F := r.1
  let HTMP1S : Cplx F := r.2
  let _ ← (do
    if BZERO then
      wrC (el3 2 2 LDC C 1 I J) (ALPHA *ᶜ HTMP1S)
      wrC (el3 2 2 LDC C 2 I J) (ALPHA *ᶜ HTMP1J)
      pure ()
    else
      let t1 ← rdC (el3 2 2 LDC C 1 I J)
      let t2 ← rdC (el3 2 2 LDC C 2 I J)
      let HTMP1S : Cplx F := ALPHA *ᶜ HTMP1S +ᶜ Quat.lo BETA *ᶜ t1 -ᶜ Quat.hi BETA *ᶜ Cplx.conj t2
      let t3 ← rdC (el3 2 2 LDC C 2 I J)
      let t4 ← rdC (el3 2 2 LDC C 1 I J)
      wrC (el3 2 2 LDC C 2 I J) (ALPHA *ᶜ HTMP1J +ᶜ Quat.lo BETA *ᶜ t3 +ᶜ Quat.hi BETA *ᶜ Cplx.conj t4)
      wrC (el3 2 2 LDC C 1 I J) HTMP1S
      pure () : Prog F Unit)
  pure ()

/-- `src/hblas/fortran/hblas3/hgemmzh.f:284-306`, body of `DO 260 J`. -/
def hgemmzh_260_J (A : Int) (ALPHA : Cplx F) (B : Int) (BETA : Quat F) (BZERO : Bool) (C : Int) (K : Int) (LDA : Int) (LDB : Int) (LDC : Int) (M : Int) (J : Int)  : Prog F (Unit) := do
  forN (M).toNat (fun i => hgemmzh_260_I A ALPHA B BETA BZERO C J K LDA LDB LDC ((i : Int) + 1))
  pure ()

/-- `src/hblas/fortran/hblas3/hgemmzh.f:315-321`, body of `DO 290 L`. -/
def hgemmzh_290_L (A : Int) (B : Int) (I : Int) (J : Int) (LDA : Int) (LDB : Int) (L : Int) (HTMP1J : Cplx F) (HTMP1S : Cplx F) : Prog F (Cplx F × Cplx F) := do
  let t1 ← rdC (el3 2 2 LDA A 1 L I)
  let t2 ← rdC (el3 2 2 LDB B 1 J L)
  let t3 ← rdC (el3 2 2 LDA A 2 L I)
  let t4 ← rdC (el3 2 2 LDB B 2 J L)
  let HTMP1S : Cplx F := HTMP1S +ᶜ t1 *ᶜ t2 -ᶜ t3 *ᶜ Cplx.conj t4
  let t5 ← rdC (el3 2 2 LDA A 1 L I)
  let t6 ← rdC (el3 2 2 LDB B 2 J L)
  let t7 ← rdC (el3 2 2 LDA A 2 L I)
  let t8 ← rdC (el3 2 2 LDB B 1 J L)
  let HTMP1J : Cplx F := HTMP1J +ᶜ t5 *ᶜ t6 +ᶜ t7 *ᶜ Cplx.conj t8
  pure (HTMP1J, HTMP1S)

/-- `src/hblas/fortran/hblas3/hgemmzh.f:312-333`, body of `DO 280 I`. -/
def hgemmzh_280_I (A : Int) (ALPHA : Cplx F) (B : Int) (BETA : Quat F) (BZERO : Bool) (C : Int) (J : Int) (K : Int) (LDA : Int) (LDB : Int) (LDC : Int) (I : Int)  : Prog F (Unit) := do
  let HTMP1S : Cplx F := (⟨zero, zero⟩ : Cplx F)
  let HTMP1J : Cplx F := (⟨zero, zero⟩ : Cplx F)
  let r ← foldN (K).toNat (fun i (s : Cplx F × Cplx F) => hgemmzh_290_L A B I J LDA LDB ((i : Int) + 1) s.1 s.2) (HTMP1J, HTMP1S)
  let HTMP1J : Cplx F := r.1
  let HTMP1S : Cplx F := r.2
  let _ ← (do
    if BZERO then
      wrC (el3 2 2 LDC C 1 I J) (ALPHA *ᶜ HTMP1S)
      wrC (el3 2 2 LDC C 2 I J) (ALPHA *ᶜ HTMP1J)
      pure ()
    else
      let t1 ← rdC (el3 2 2 LDC C 1 I J)
      let t2 ← rdC (el3 2 2 LDC C 2 I J)
      let HTMP1S : Cplx F := ALPHA *ᶜ HTMP1S +ᶜ Quat.lo BETA *ᶜ t1 -ᶜ Quat.hi BETA *ᶜ Cplx.conj t2
      let t3 ← rdC (el3 2 2 LDC C 2 I J)
      let t4 ← rdC (el3 2 2 LDC C 1 I J)
      wrC (el3 2 2 LDC C 2 I J) (ALPHA *ᶜ HTMP1J +ᶜ Quat.lo BETA *ᶜ t3 +ᶜ Quat.hi BETA *ᶜ Cplx.conj t4)
      wrC (el3 2 2 LDC C 1 I J) HTMP1S
      pure () : Prog F Unit)
  pure ()

/-- `src/hblas/fortran/hblas3/hgemmzh.f:311-333`, body of `DO 280 J`. -/
def hgemmzh_280_J (A : Int) (ALPHA : Cplx F) (B : Int) (BETA : Quat F) (BZERO : Bool) (C : Int) (K : Int) (LDA : Int) (LDB : Int) (LDC : Int) (M : Int) (J : Int)  : Prog F (Unit) := do
  forN (M).toNat (fun i => hgemmzh_280_I A ALPHA B BETA BZERO C J K LDA LDB LDC ((i : Int) + 1))
  pure ()

/-- `src/hblas/fortran/hblas3/hgemmzh.f:280-334`. -/
def hgemmzh_if280 (A : Int) (ALPHA : Cplx F) (B : Int) (BETA : Quat F) (BZERO : Bool) (C : Int) (CONJB : Bool) (K : Int) (LDA : Int) (LDB : Int) (LDC : Int) (M : Int) (N : Int) : Prog F (Unit) := do
  if CONJB then
    forN (N).toNat (fun i => hgemmzh_260_J A ALPHA B BETA BZERO C K LDA LDB LDC M ((i : Int) + 1))
    pure ()
  else
    forN (N).toNat (fun i => hgemmzh_280_J A ALPHA B BETA BZERO C K LDA LDB LDC M ((i : Int) + 1))
    pure ()

/-- `src/hblas/fortran/hblas3/hgemmzh.f:64-335`. -/
def hgemmzh_if64 (A : Int) (ALPHA : Cplx F) (B : Int) (BETA : Quat F) (BONE : Bool) (BZERO : Bool) (C : Int) (CONJA : Bool) (CONJB : Bool) (K : Int) (LDA : Int) (LDB : Int) (LDC : Int) (M : Int) (N : Int) (NOTA : Bool) (NOTB : Bool) : Prog F (Unit) := do
  if NOTB then
    hgemmzh_if65 A ALPHA B BETA BONE BZERO C CONJA K LDA LDB LDC M N NOTA
    pure ()
  else if NOTA then
    hgemmzh_if154 A ALPHA B BETA BONE BZERO C CONJB K LDA LDB LDC M N
    pure ()
  else if CONJA then
    hgemmzh_if221 A ALPHA B BETA BZERO C CONJB K LDA LDB LDC M N
    pure ()
  else
    hgemmzh_if280 A ALPHA B BETA BZERO C CONJB K LDA LDB LDC M N
    pure ()

/-- `src/hblas/fortran/hblas3/hgemmzh.f:9-336`. -/
def hgemmzh (TRANSA : Char) (TRANSB : Char) (M : Int) (N : Int) (K : Int) (ALPHA : Cplx F) (A : Int) (LDA : Int) (B : Int) (LDB : Int) (BETA : Quat F) (C : Int) (LDC : Int) : Prog F (Unit) := do
  let NOTA : Bool := lsame TRANSA 'N'
  let NOTB : Bool := lsame TRANSB 'N'
  let CONJA : Bool := lsame TRANSA 'C'
  let CONJB : Bool := lsame TRANSB 'C'
  let AZERO : Bool := Cplx.feq ALPHA (⟨zero, zero⟩ : Cplx F)
  -- AONE (line 33) is never read
  let BZERO : Bool := (Cplx.feq (Quat.lo BETA) (⟨zero, zero⟩ : Cplx F)) && (Cplx.feq (Quat.hi BETA) (⟨zero, zero⟩ : Cplx F))
  let BONE : Bool := (Cplx.feq (Quat.lo BETA) (⟨one, zero⟩ : Cplx F)) && (Cplx.feq (Quat.hi BETA) (⟨zero, zero⟩ : Cplx F))
  if (decide (M = 0)) || (decide (N = 0)) then
    pure ()
  else
    if (AZERO || (decide (K = 0))) && BONE then
      pure ()
    else
      if AZERO then
        hgemmzh_if47 BETA BZERO C LDC M N
        pure ()
      else
        hgemmzh_if64 A ALPHA B BETA BONE BZERO C CONJA CONJB K LDA LDB LDC M N NOTA NOTB
        pure ()

end Haxx
