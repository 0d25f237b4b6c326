import Verif.Fortran

/-!
# Fortran GEMM, zd

Generated by `tools/f2lean.py` from the Fortran sources cited on each definition; do not edit.
-/

set_option linter.unusedVariables false

namespace Haxx
open Arith

variable {F : Type} [Arith F] [ArithEq F]

/-- `src/hblas/fortran/hblas3/hgemmzd.f:50-53`, body of `DO 10 I`. -/
def hgemmzd_10_I (C : Int) (J : Int) (LDC : Int) (I : Int)  : Prog F (Unit) := do
  wrC (el3 2 2 LDC C 1 I J) (⟨zero, zero⟩ : Cplx F)
  wrC (el3 2 2 LDC C 2 I J) (⟨zero, zero⟩ : Cplx F)
  pure ()

/-- `src/hblas/fortran/hblas3/hgemmzd.f:49-53`, body of `DO 10 J`. -/
def hgemmzd_10_J (C : Int) (LDC : Int) (M : Int) (J : Int)  : Prog F (Unit) := do
  forN (M).toNat (fun i => hgemmzd_10_I C J LDC ((i : Int) + 1))
  pure ()

/-- `src/hblas/fortran/hblas3/hgemmzd.f:56-59`, body of `DO 20 I`. -/
def hgemmzd_20_I (BETA : F) (C : Int) (J : Int) (LDC : Int) (I : Int)  : Prog F (Unit) := do
  let t1 ← rdC (el3 2 2 LDC C 1 I J)
  wrC (el3 2 2 LDC C 1 I J) (Cplx.ofReal BETA *ᶜ t1)
  let t2 ← rdC (el3 2 2 LDC C 2 I J)
  wrC (el3 2 2 LDC C 2 I J) (Cplx.ofReal BETA *ᶜ t2)
  pure ()

/-- `src/hblas/fortran/hblas3/hgemmzd.f:55-59`, body of `DO 20 J`. -/
def hgemmzd_20_J (BETA : F) (C : Int) (LDC : Int) (M : Int) (J : Int)  : Prog F (Unit) := do
  forN (M).toNat (fun i => hgemmzd_20_I BETA C J LDC ((i : Int) + 1))
  pure ()

/-- `src/hblas/fortran/hblas3/hgemmzd.f:48-60`. -/
def hgemmzd_if48 (BETA : F) (BZERO : Bool) (C : Int) (LDC : Int) (M : Int) (N : Int) : Prog F (Unit) := do
  if BZERO then
    forN (N).toNat (fun i => hgemmzd_10_J C LDC M ((i : Int) + 1))
    pure ()
  else
    forN (N).toNat (fun i => hgemmzd_20_J BETA C LDC M ((i : Int) + 1))
    pure ()

/-- `src/hblas/fortran/hblas3/hgemmzd.f:71-74`, body of `DO 40 I`. -/
def hgemmzd_40_I (C : Int) (J : Int) (LDC : Int) (I : Int)  : Prog F (Unit) := do
  wrC (el3 2 2 LDC C 1 I J) (⟨zero, zero⟩ : Cplx F)
  wrC (el3 2 2 LDC C 2 I J) (⟨zero, zero⟩ : Cplx F)
  pure ()

/-- `src/hblas/fortran/hblas3/hgemmzd.f:76-79`, body of `DO 50 I`. -/
def hgemmzd_50_I (BETA : F) (C : Int) (J : Int) (LDC : Int) (I : Int)  : Prog F (Unit) := do
  let t1 ← rdC (el3 2 2 LDC C 1 I J)
  wrC (el3 2 2 LDC C 1 I J) (Cplx.ofReal BETA *ᶜ t1)
  let t2 ← rdC (el3 2 2 LDC C 2 I J)
  wrC (el3 2 2 LDC C 2 I J) (Cplx.ofReal BETA *ᶜ t2)
  pure ()

/-- `src/hblas/fortran/hblas3/hgemmzd.f:70-80`. -/
def hgemmzd_if70 (BETA : F) (BONE : Bool) (BZERO : Bool) (C : Int) (J : Int) (LDC : Int) (M : Int) : Prog F (Unit) := do
  if BZERO then
    forN (M).toNat (fun i => hgemmzd_40_I C J LDC ((i : Int) + 1))
    pure ()
  else if !BONE then
    forN (M).toNat (fun i => hgemmzd_50_I BETA C J LDC ((i : Int) + 1))
    pure ()
  else
    pure ()

/-- `src/hblas/fortran/hblas3/hgemmzd.f:87-93`, body of `DO 70 I`. -/
def hgemmzd_70_I (A : Int) (C : Int) (HTMP1J : Cplx F) (HTMP1S : Cplx F) (HTMP2J : Cplx F) (HTMP2S : Cplx F) (J : Int) (L : Int) (LDA : Int) (LDC : Int) (I : Int)  : Prog F (Unit) := do
  let t1 ← rdC (el3 2 2 LDC C 1 I J)
  let t2 ← rdC (el3 2 2 LDA A 1 I L)
  let t3 ← rdC (el3 2 2 LDA A 2 I L)
  wrC (el3 2 2 LDC C 1 I J) (t1 +ᶜ t2 *ᶜ HTMP1S -ᶜ t3 *ᶜ HTMP2J)
  let t4 ← rdC (el3 2 2 LDC C 2 I J)
  let t5 ← rdC (el3 2 2 LDA A 1 I L)
  let t6 ← rdC (el3 2 2 LDA A 2 I L)
  wrC (el3 2 2 LDC C 2 I J) (t4 +ᶜ t5 *ᶜ HTMP1J +ᶜ t6 *ᶜ HTMP2S)
  pure ()

/-- `src/hblas/fortran/hblas3/hgemmzd.f:82-94`, body of `DO 60 L`. -/
def hgemmzd_60_L (A : Int) (ALPHA : Cplx F) (B : Int) (C : Int) (J : Int) (LDA : Int) (LDB : Int) (LDC : Int) (M : Int) (L : Int)  : Prog F (Unit) := do
  let t1 ← rdC (el3 2 2 LDB B 1 L J)
  let HTMP1S : Cplx F := ALPHA *ᶜ t1
  let t2 ← rdC (el3 2 2 LDB B 2 L J)
  let HTMP1J : Cplx F := ALPHA *ᶜ t2
  let t3 ← rdC (el3 2 2 LDB B 1 L J)
  let HTMP2S : Cplx F := ALPHA *ᶜ Cplx.conj t3
  let t4 ← rdC (el3 2 2 LDB B 2 L J)
  let HTMP2J : Cplx F := ALPHA *ᶜ Cplx.conj t4
  forN (M).toNat (fun i => hgemmzd_70_I A C HTMP1J HTMP1S HTMP2J HTMP2S J L LDA LDC ((i : Int) + 1))
  pure ()

/-- `src/hblas/fortran/hblas3/hgemmzd.f:69-95`, body of `DO 30 J`. -/
def hgemmzd_30_J (A : Int) (ALPHA : Cplx F) (B : Int) (BETA : F) (BONE : Bool) (BZERO : Bool) (C : Int) (K : Int) (LDA : Int) (LDB : Int) (LDC : Int) (M : Int) (J : Int)  : Prog F (Unit) := do
  hgemmzd_if70 BETA BONE BZERO C J LDC M
  forN (K).toNat (fun i => hgemmzd_60_L A ALPHA B C J LDA LDB LDC M ((i : Int) + 1))
  pure ()

/-- `src/hblas/fortran/hblas3/hgemmzd.f:104-110`, body of `DO 90 L`. -/
def hgemmzd_90_L (A : Int) (B : Int) (I : Int) (J : Int) (LDA : Int) (LDB : Int) (L : Int) (HTMP1J : Cplx F) (HTMP1S : Cplx F) : Prog F (Cplx F × Cplx F) := do
  let t1 ← rdC (el3 2 2 LDA A 1 L I)
  let t2 ← rdC (el3 2 2 LDB B 1 L J)
  let t3 ← rdC (el3 2 2 LDA A 2 L I)
  let t4 ← rdC (el3 2 2 LDB B 2 L J)
  let HTMP1S : Cplx F := HTMP1S +ᶜ Cplx.conj t1 *ᶜ t2 +ᶜ t3 *ᶜ Cplx.conj t4
  let t5 ← rdC (el3 2 2 LDA A 1 L I)
  let t6 ← rdC (el3 2 2 LDB B 2 L J)
  let t7 ← rdC (el3 2 2 LDA A 2 L I)
  let t8 ← rdC (el3 2 2 LDB B 1 L J)
  let HTMP1J : Cplx F := HTMP1J +ᶜ Cplx.conj t5 *ᶜ t6 -ᶜ t7 *ᶜ Cplx.conj t8
  pure (HTMP1J, HTMP1S)

/-- `src/hblas/fortran/hblas3/hgemmzd.f:101-119`, body of `DO 80 I`. -/
def hgemmzd_80_I (A : Int) (ALPHA : Cplx F) (B : Int) (BETA : F) (BZERO : Bool) (C : Int) (J : Int) (K : Int) (LDA : Int) (LDB : Int) (LDC : Int) (I : Int)  : Prog F (Unit) := do
  let HTMP1S : Cplx F := (⟨zero, zero⟩ : Cplx F)
  let HTMP1J : Cplx F := (⟨zero, zero⟩ : Cplx F)
  let r ← foldN (K).toNat (fun i (s : Cplx F × Cplx F) => hgemmzd_90_L A B I J LDA LDB ((i : Int) + 1) s.1 s.2) (HTMP1J, HTMP1S)
  let HTMP1J : Cplx F := r.1
  let HTMP1S : Cplx F := r.2
  let _ ← (do
    if BZERO then
      wrC (el3 2 2 LDC C 1 I J) (ALPHA *ᶜ HTMP1S)
      wrC (el3 2 2 LDC C 2 I J) (ALPHA *ᶜ HTMP1J)
      pure ()
    else
      let t1 ← rdC (el3 2 2 LDC C 1 I J)
      wrC (el3 2 2 LDC C 1 I J) (ALPHA *ᶜ HTMP1S +ᶜ Cplx.ofReal BETA *ᶜ t1)
      let t2 ← rdC (el3 2 2 LDC C 2 I J)
      wrC (el3 2 2 LDC C 2 I J) (ALPHA *ᶜ HTMP1J +ᶜ Cplx.ofReal BETA *ᶜ t2)
      pure () : Prog F Unit)
  pure ()

/-- `src/hblas/fortran/hblas3/hgemmzd.f:100-119`, body of `DO 80 J`. -/
def hgemmzd_80_J (A : Int) (ALPHA : Cplx F) (B : Int) (BETA : F) (BZERO : Bool) (C : Int) (K : Int) (LDA : Int) (LDB : Int) (LDC : Int) (M : Int) (J : Int)  : Prog F (Unit) := do
  forN (M).toNat (fun i => hgemmzd_80_I A ALPHA B BETA BZERO C J K LDA LDB LDC ((i : Int) + 1))
  pure ()

/-- `src/hblas/fortran/hblas3/hgemmzd.f:129-135`, body of `DO 110 L`. -/
def hgemmzd_110_L (A : Int) (B : Int) (I : Int) (J : Int) (LDA : Int) (LDB : Int) (L : Int) (HTMP1J : Cplx F) (HTMP1S : Cplx F) : Prog F (Cplx F × Cplx F) := do
  let t1 ← rdC (el3 2 2 LDA A 1 L I)
  let t2 ← rdC (el3 2 2 LDB B 1 L J)
  let t3 ← rdC (el3 2 2 LDA A 2 L I)
  let t4 ← rdC (el3 2 2 LDB B 2 L J)
  let HTMP1S : Cplx F := HTMP1S +ᶜ t1 *ᶜ t2 -ᶜ t3 *ᶜ Cplx.conj t4
  let t5 ← rdC (el3 2 2 LDA A 1 L I)
  let t6 ← rdC (el3 2 2 LDB B 2 L J)
  let t7 ← rdC (el3 2 2 LDA A 2 L I)
  let t8 ← rdC (el3 2 2 LDB B 1 L J)
  let HTMP1J : Cplx F := HTMP1J +ᶜ t5 *ᶜ t6 +ᶜ t7 *ᶜ Cplx.conj t8
  pure (HTMP1J, HTMP1S)

/-- `src/hblas/fortran/hblas3/hgemmzd.f:126-144`, body of `DO 100 I`. -/
def hgemmzd_100_I (A : Int) (ALPHA : Cplx F) (B : Int) (BETA : F) (BZERO : Bool) (C : Int) (J : Int) (K : Int) (LDA : Int) (LDB : Int) (LDC : Int) (I : Int)  : Prog F (Unit) := do
  let HTMP1S : Cplx F := (⟨zero, zero⟩ : Cplx F)
  let HTMP1J : Cplx F := (⟨zero, zero⟩ : Cplx F)
  let r ← foldN (K).toNat (fun i (s : Cplx F × Cplx F) => hgemmzd_110_L A B I J LDA LDB ((i : Int) + 1) s.1 s.2) (HTMP1J, HTMP1S)
  let HTMP1J : Cplx F := r.1
  let HTMP1S : Cplx F := r.2
  let _ ← (do
    if BZERO then
      wrC (el3 2 2 LDC C 1 I J) (ALPHA *ᶜ HTMP1S)
      wrC (el3 2 2 LDC C 2 I J) (ALPHA *ᶜ HTMP1J)
      pure ()
    else
      let t1 ← rdC (el3 2 2 LDC C 1 I J)
      wrC (el3 2 2 LDC C 1 I J) (ALPHA *ᶜ HTMP1S +ᶜ Cplx.ofReal BETA *ᶜ t1)
      let t2 ← rdC (el3 2 2 LDC C 2 I J)
      wrC (el3 2 2 LDC C 2 I J) (ALPHA *ᶜ HTMP1J +ᶜ Cplx.ofReal BETA *ᶜ t2)
      pure () : Prog F Unit)
  pure ()

/-- `src/hblas/fortran/hblas3/hgemmzd.f:125-144`, body of `DO 100 J`. -/
def hgemmzd_100_J (A : Int) (ALPHA : Cplx F) (B : Int) (BETA : F) (BZERO : Bool) (C : Int) (K : Int) (LDA : Int) (LDB : Int) (LDC : Int) (M : Int) (J : Int)  : Prog F (Unit) := do
  forN (M).toNat (fun i => hgemmzd_100_I A ALPHA B BETA BZERO C J K LDA LDB LDC ((i : Int) + 1))
  pure ()

/-- `src/hblas/fortran/hblas3/hgemmzd.f:65-145`. -/
def hgemmzd_if65 (A : Int) (ALPHA : Cplx F) (B : Int) (BETA : F) (BONE : Bool) (BZERO : Bool) (C : Int) (CONJA : Bool) (K : Int) (LDA : Int) (LDB : Int) (LDC : Int) (M : Int) (N : Int) (NOTA : Bool) : Prog F (Unit) := do
  if NOTA then
    forN (N).toNat (fun i => hgemmzd_30_J A ALPHA B BETA BONE BZERO C K LDA LDB LDC M ((i : Int) + 1))
    pure ()
  else if CONJA then
    forN (N).toNat (fun i => hgemmzd_80_J A ALPHA B BETA BZERO C K LDA LDB LDC M ((i : Int) + 1))
    pure ()
  else
    forN (N).toNat (fun i => hgemmzd_100_J A ALPHA B BETA BZERO C K LDA LDB LDC M ((i : Int) + 1))
    pure ()

/-- `src/hblas/fortran/hblas3/hgemmzd.f:153-156`, body of `DO 130 I`. -/
def hgemmzd_130_I (C : Int) (J : Int) (LDC : Int) (I : Int)  : Prog F (Unit) := do
  wrC (el3 2 2 LDC C 1 I J) (⟨zero, zero⟩ : Cplx F)
  wrC (el3 2 2 LDC C 2 I J) (⟨zero, zero⟩ : Cplx F)
  pure ()

/-- `src/hblas/fortran/hblas3/hgemmzd.f:158-161`, body of `DO 140 I`. -/
def hgemmzd_140_I (BETA : F) (C : Int) (J : Int) (LDC : Int) (I : Int)  : Prog F (Unit) := do
  let t1 ← rdC (el3 2 2 LDC C 1 I J)
  wrC (el3 2 2 LDC C 1 I J) (Cplx.ofReal BETA *ᶜ t1)
  let t2 ← rdC (el3 2 2 LDC C 2 I J)
  wrC (el3 2 2 LDC C 2 I J) (Cplx.ofReal BETA *ᶜ t2)
  pure ()

/-- `src/hblas/fortran/hblas3/hgemmzd.f:152-162`. -/
def hgemmzd_if152 (BETA : F) (BONE : Bool) (BZERO : Bool) (C : Int) (J : Int) (LDC : Int) (M : Int) : Prog F (Unit) := do
  if BZERO then
    forN (M).toNat (fun i => hgemmzd_130_I C J LDC ((i : Int) + 1))
    pure ()
  else if !BONE then
    forN (M).toNat (fun i => hgemmzd_140_I BETA C J LDC ((i : Int) + 1))
    pure ()
  else
    pure ()

/-- `src/hblas/fortran/hblas3/hgemmzd.f:169-175`, body of `DO 160 I`. -/
def hgemmzd_160_I (A : Int) (C : Int) (HTMP1J : Cplx F) (HTMP1S : Cplx F) (HTMP2J : Cplx F) (HTMP2S : Cplx F) (J : Int) (L : Int) (LDA : Int) (LDC : Int) (I : Int)  : Prog F (Unit) := do
  let t1 ← rdC (el3 2 2 LDC C 1 I J)
  let t2 ← rdC (el3 2 2 LDA A 1 I L)
  let t3 ← rdC (el3 2 2 LDA A 2 I L)
  wrC (el3 2 2 LDC C 1 I J) (t1 +ᶜ t2 *ᶜ HTMP2S -ᶜ t3 *ᶜ HTMP2J)
  let t4 ← rdC (el3 2 2 LDC C 2 I J)
  let t5 ← rdC (el3 2 2 LDA A 1 I L)
  let t6 ← rdC (el3 2 2 LDA A 2 I L)
  wrC (el3 2 2 LDC C 2 I J) (t4 +ᶜ t5 *ᶜ HTMP1J +ᶜ t6 *ᶜ HTMP1S)
  pure ()

/-- `src/hblas/fortran/hblas3/hgemmzd.f:164-176`, body of `DO 150 L`. -/
def hgemmzd_150_L (A : Int) (ALPHA : Cplx F) (B : Int) (C : Int) (J : Int) (LDA : Int) (LDB : Int) (LDC : Int) (M : Int) (L : Int)  : Prog F (Unit) := do
  let t1 ← rdC (el3 2 2 LDB B 1 J L)
  let HTMP1S : Cplx F := ALPHA *ᶜ t1
  let t2 ← rdC (el3 2 2 LDB B 2 J L)
  let HTMP1J : Cplx F := Cplx.neg (ALPHA *ᶜ t2)
  let t3 ← rdC (el3 2 2 LDB B 1 J L)
  let HTMP2S : Cplx F := ALPHA *ᶜ Cplx.conj t3
  let t4 ← rdC (el3 2 2 LDB B 2 J L)
  let HTMP2J : Cplx F := Cplx.neg (ALPHA *ᶜ Cplx.conj t4)
  forN (M).toNat (fun i => hgemmzd_160_I A C HTMP1J HTMP1S HTMP2J HTMP2S J L LDA LDC ((i : Int) + 1))
  pure ()

/-- `src/hblas/fortran/hblas3/hgemmzd.f:151-177`, body of `DO 120 J`. -/
def hgemmzd_120_J (A : Int) (ALPHA : Cplx F) (B : Int) (BETA : F) (BONE : Bool) (BZERO : Bool) (C : Int) (K : Int) (LDA : Int) (LDB : Int) (LDC : Int) (M : Int) (J : Int)  : Prog F (Unit) := do
  hgemmzd_if152 BETA BONE BZERO C J LDC M
  forN (K).toNat (fun i => hgemmzd_150_L A ALPHA B C J LDA LDB LDC M ((i : Int) + 1))
  pure ()

/-- `src/hblas/fortran/hblas3/hgemmzd.f:185-188`, body of `DO 180 I`. -/
def hgemmzd_180_I (C : Int) (J : Int) (LDC : Int) (I : Int)  : Prog F (Unit) := do
  wrC (el3 2 2 LDC C 1 I J) (⟨zero, zero⟩ : Cplx F)
  wrC (el3 2 2 LDC C 2 I J) (⟨zero, zero⟩ : Cplx F)
  pure ()

/-- `src/hblas/fortran/hblas3/hgemmzd.f:190-193`, body of `DO 190 I`. -/
def hgemmzd_190_I (BETA : F) (C : Int) (J : Int) (LDC : Int) (I : Int)  : Prog F (Unit) := do
  let t1 ← rdC (el3 2 2 LDC C 1 I J)
  wrC (el3 2 2 LDC C 1 I J) (Cplx.ofReal BETA *ᶜ t1)
  let t2 ← rdC (el3 2 2 LDC C 2 I J)
  wrC (el3 2 2 LDC C 2 I J) (Cplx.ofReal BETA *ᶜ t2)
  pure ()

/-- `src/hblas/fortran/hblas3/hgemmzd.f:184-194`. -/
def hgemmzd_if184 (BETA : F) (BONE : Bool) (BZERO : Bool) (C : Int) (J : Int) (LDC : Int) (M : Int) : Prog F (Unit) := do
  if BZERO then
    forN (M).toNat (fun i => hgemmzd_180_I C J LDC ((i : Int) + 1))
    pure ()
  else if !BONE then
    forN (M).toNat (fun i => hgemmzd_190_I BETA C J LDC ((i : Int) + 1))
    pure ()
  else
    pure ()

/-- `src/hblas/fortran/hblas3/hgemmzd.f:201-207`, body of `DO 210 I`. -/
def hgemmzd_210_I (A : Int) (C : Int) (HTMP1J : Cplx F) (HTMP1S : Cplx F) (HTMP2J : Cplx F) (HTMP2S : Cplx F) (J : Int) (L : Int) (LDA : Int) (LDC : Int) (I : Int)  : Prog F (Unit) := do
  let t1 ← rdC (el3 2 2 LDC C 1 I J)
  let t2 ← rdC (el3 2 2 LDA A 1 I L)
  let t3 ← rdC (el3 2 2 LDA A 2 I L)
  wrC (el3 2 2 LDC C 1 I J) (t1 +ᶜ t2 *ᶜ HTMP1S -ᶜ t3 *ᶜ HTMP2J)
  let t4 ← rdC (el3 2 2 LDC C 2 I J)
  let t5 ← rdC (el3 2 2 LDA A 1 I L)
  let t6 ← rdC (el3 2 2 LDA A 2 I L)
  wrC (el3 2 2 LDC C 2 I J) (t4 +ᶜ t5 *ᶜ HTMP1J +ᶜ t6 *ᶜ HTMP2S)
  pure ()

/-- `src/hblas/fortran/hblas3/hgemmzd.f:196-208`, body of `DO 200 L`. -/
def hgemmzd_200_L (A : Int) (ALPHA : Cplx F) (B : Int) (C : Int) (J : Int) (LDA : Int) (LDB : Int) (LDC : Int) (M : Int) (L : Int)  : Prog F (Unit) := do
  let t1 ← rdC (el3 2 2 LDB B 1 J L)
  let HTMP1S : Cplx F := ALPHA *ᶜ t1
  let t2 ← rdC (el3 2 2 LDB B 2 J L)
  let HTMP1J : Cplx F := ALPHA *ᶜ t2
  let t3 ← rdC (el3 2 2 LDB B 1 J L)
  let HTMP2S : Cplx F := ALPHA *ᶜ Cplx.conj t3
  let t4 ← rdC (el3 2 2 LDB B 2 J L)
  let HTMP2J : Cplx F := ALPHA *ᶜ Cplx.conj t4
  forN (M).toNat (fun i => hgemmzd_210_I A C HTMP1J HTMP1S HTMP2J HTMP2S J L LDA LDC ((i : Int) + 1))
  pure ()

/-- `src/hblas/fortran/hblas3/hgemmzd.f:183-209`, body of `DO 170 J`. -/
def hgemmzd_170_J (A : Int) (ALPHA : Cplx F) (B : Int) (BETA : F) (BONE : Bool) (BZERO : Bool) (C : Int) (K : Int) (LDA : Int) (LDB : Int) (LDC : Int) (M : Int) (J : Int)  : Prog F (Unit) := do
  hgemmzd_if184 BETA BONE BZERO C J LDC M
  forN (K).toNat (fun i => hgemmzd_200_L A ALPHA B C J LDA LDB LDC M ((i : Int) + 1))
  pure ()

/-- `src/hblas/fortran/hblas3/hgemmzd.f:147-210`. -/
def hgemmzd_if147 (A : Int) (ALPHA : Cplx F) (B : Int) (BETA : F) (BONE : Bool) (BZERO : Bool) (C : Int) (CONJB : Bool) (K : Int) (LDA : Int) (LDB : Int) (LDC : Int) (M : Int) (N : Int) : Prog F (Unit) := do
  if CONJB then
    forN (N).toNat (fun i => hgemmzd_120_J A ALPHA B BETA BONE BZERO C K LDA LDB LDC M ((i : Int) + 1))
    pure ()
  else
    forN (N).toNat (fun i => hgemmzd_170_J A ALPHA B BETA BONE BZERO C K LDA LDB LDC M ((i : Int) + 1))
    pure ()

/-- `src/hblas/fortran/hblas3/hgemmzd.f:220-227`, body of `DO 230 L`. -/
def hgemmzd_230_L (A : Int) (B : Int) (I : Int) (J : Int) (LDA : Int) (LDB : Int) (L : Int) (HTMP1J : Cplx F) (HTMP1S : Cplx F) : Prog F (Cplx F × Cplx F) := do
  let t1 ← rdC (el3 2 2 LDA A 1 L I)
  let t2 ← rdC (el3 2 2 LDB B 1 J L)
  let t3 ← rdC (el3 2 2 LDA A 2 L I)
  let t4 ← rdC (el3 2 2 LDB B 2 J L)
  let HTMP1S : Cplx F := HTMP1S +ᶜ Cplx.conj t1 *ᶜ Cplx.conj t2 -ᶜ t3 *ᶜ Cplx.conj t4
  let t5 ← rdC (el3 2 2 LDA A 1 L I)
  let t6 ← rdC (el3 2 2 LDB B 2 J L)
  let t7 ← rdC (el3 2 2 LDA A 2 L I)
  let t8 ← rdC (el3 2 2 LDB B 1 J L)
  let HTMP1J : Cplx F := HTMP1J -ᶜ Cplx.conj t5 *ᶜ t6 -ᶜ t7 *ᶜ t8
  pure (HTMP1J, HTMP1S)

/-- `src/hblas/fortran/hblas3/hgemmzd.f:217-236`, body of `DO 220 I`. -/
def hgemmzd_220_I (A : Int) (ALPHA : Cplx F) (B : Int) (BETA : F) (BZERO : Bool) (C : Int) (J : Int) (K : Int) (LDA : Int) (LDB : Int) (LDC : Int) (I : Int)  : Prog F (Unit) := do
  let HTMP1S : Cplx F := (⟨zero, zero⟩ : Cplx F)
  let HTMP1J : Cplx F := (⟨zero, zero⟩ : Cplx F)
  let r ← foldN (K).toNat (fun i (s : Cplx F × Cplx F) => hgemmzd_230_L A B I J LDA LDB ((i : Int) + 1) s.1 s.2) (HTMP1J, HTMP1S)
  let HTMP1J : Cplx F := r.1
  let HTMP1S : Cplx F := r.2
  let _ ← (do
    if BZERO then
      wrC (el3 2 2 LDC C 1 I J) (ALPHA *ᶜ HTMP1S)
      wrC (el3 2 2 LDC C 2 I J) (ALPHA *ᶜ HTMP1J)
      pure ()
    else
      let t1 ← rdC (el3 2 2 LDC C 1 I J)
      wrC (el3 2 2 LDC C 1 I J) (ALPHA *ᶜ HTMP1S +ᶜ Cplx.ofReal BETA *ᶜ t1)
      let t2 ← rdC (el3 2 2 LDC C 2 I J)
      wrC (el3 2 2 LDC C 2 I J) (ALPHA *ᶜ HTMP1J +ᶜ Cplx.ofReal BETA *ᶜ t2)
      pure () : Prog F Unit)
  pure ()

/-- `src/hblas/fortran/hblas3/hgemmzd.f:216-236`, body of `DO 220 J`. -/
def hgemmzd_220_J (A : Int) (ALPHA : Cplx F) (B : Int) (BETA : F) (BZERO : Bool) (C : Int) (K : Int) (LDA : Int) (LDB : Int) (LDC : Int) (M : Int) (J : Int)  : Prog F (Unit) := do
  forN (M).toNat (fun i => hgemmzd_220_I A ALPHA B BETA BZERO C J K LDA LDB LDC ((i : Int) + 1))
  pure ()

/-- `src/hblas/fortran/hblas3/hgemmzd.f:246-252`, body of `DO 250 L`. -/
def hgemmzd_250_L (A : Int) (B : Int) (I : Int) (J : Int) (LDA : Int) (LDB : Int) (L : Int) (HTMP1J : Cplx F) (HTMP1S : Cplx F) : Prog F (Cplx F × Cplx F) := do
  let t1 ← rdC (el3 2 2 LDA A 1 L I)
  let t2 ← rdC (el3 2 2 LDB B 1 J L)
  let t3 ← rdC (el3 2 2 LDA A 2 L I)
  let t4 ← rdC (el3 2 2 LDB B 2 J L)
  let HTMP1S : Cplx F := HTMP1S +ᶜ Cplx.conj t1 *ᶜ t2 +ᶜ t3 *ᶜ Cplx.conj t4
  let t5 ← rdC (el3 2 2 LDA A 1 L I)
  let t6 ← rdC (el3 2 2 LDB B 2 J L)
  let t7 ← rdC (el3 2 2 LDA A 2 L I)
  let t8 ← rdC (el3 2 2 LDB B 1 J L)
  let HTMP1J : Cplx F := HTMP1J +ᶜ Cplx.conj t5 *ᶜ t6 -ᶜ t7 *ᶜ Cplx.conj t8
  pure (HTMP1J, HTMP1S)

/-- `src/hblas/fortran/hblas3/hgemmzd.f:243-261`, body of `DO 240 I`. -/
def hgemmzd_240_I (A : Int) (ALPHA : Cplx F) (B : Int) (BETA : F) (BZERO : Bool) (C : Int) (J : Int) (K : Int) (LDA : Int) (LDB : Int) (LDC : Int) (I : Int)  : Prog F (Unit) := do
  let HTMP1S : Cplx F := (⟨zero, zero⟩ : Cplx F)
  let HTMP1J : Cplx F := (⟨zero, zero⟩ : Cplx F)
  let r ← foldN (K).toNat (fun i (s : Cplx F × Cplx F) => hgemmzd_250_L A B I J LDA LDB ((i : Int) + 1) s.1 s.2) (HTMP1J, HTMP1S)
  let HTMP1J : Cplx F := r.1
  let HTMP1S : Cplx F := r.2
  let _ ← (do
    if BZERO then
      wrC (el3 2 2 LDC C 1 I J) (ALPHA *ᶜ HTMP1S)
      wrC (el3 2 2 LDC C 2 I J) (ALPHA *ᶜ HTMP1J)
      pure ()
    else
      let t1 ← rdC (el3 2 2 LDC C 1 I J)
      wrC (el3 2 2 LDC C 1 I J) (ALPHA *ᶜ HTMP1S +ᶜ Cplx.ofReal BETA *ᶜ t1)
      let t2 ← rdC (el3 2 2 LDC C 2 I J)
      wrC (el3 2 2 LDC C 2 I J) (ALPHA *ᶜ HTMP1J +ᶜ Cplx.ofReal BETA *ᶜ t2)
      pure () : Prog F Unit)
  pure ()

/-- `src/hblas/fortran/hblas3/hgemmzd.f:242-261`, body of `DO 240 J`. -/
def hgemmzd_240_J (A : Int) (ALPHA : Cplx F) (B : Int) (BETA : F) (BZERO : Bool) (C : Int) (K : Int) (LDA : Int) (LDB : Int) (LDC : Int) (M : Int) (J : Int)  : Prog F (Unit) := do
  forN (M).toNat (fun i => hgemmzd_240_I A ALPHA B BETA BZERO C J K LDA LDB LDC ((i : Int) + 1))
  pure ()

/-- `src/hblas/fortran/hblas3/hgemmzd.f:212-262`. -/
def hgemmzd_if212 (A : Int) (ALPHA : Cplx F) (B : Int) (BETA : F) (BZERO : Bool) (C : Int) (CONJB : Bool) (K : Int) (LDA : Int) (LDB : Int) (LDC : Int) (M : Int) (N : Int) : Prog F (Unit) := do
  if CONJB then
    forN (N).toNat (fun i => hgemmzd_220_J A ALPHA B BETA BZERO C K LDA LDB LDC M ((i : Int) + 1))
    pure ()
  else
    forN (N).toNat (fun i => hgemmzd_240_J A ALPHA B BETA BZERO C K LDA LDB LDC M ((i : Int) + 1))
    pure ()

/-- `src/hblas/fortran/hblas3/hgemmzd.f:273-279`, body of `DO 270 L`. -/
def hgemmzd_270_L (A : Int) (B : Int) (I : Int) (J : Int) (LDA : Int) (LDB : Int) (L : Int) (HTMP1J : Cplx F) (HTMP1S : Cplx F) : Prog F (Cplx F × Cplx F) := do
  let t1 ← rdC (el3 2 2 LDA A 1 L I)
  let t2 ← rdC (el3 2 2 LDB B 1 J L)
  let t3 ← rdC (el3 2 2 LDA A 2 L I)
  let t4 ← rdC (el3 2 2 LDB B 2 J L)
  let HTMP1S : Cplx F := HTMP1S +ᶜ t1 *ᶜ Cplx.conj t2 +ᶜ t3 *ᶜ Cplx.conj t4
  let t5 ← rdC (el3 2 2 LDA A 1 L I)
  let t6 ← rdC (el3 2 2 LDB B 2 J L)
  let t7 ← rdC (el3 2 2 LDA A 2 L I)
  let t8 ← rdC (el3 2 2 LDB B 1 J L)
  let HTMP1J : Cplx F := HTMP1J -ᶜ t5 *ᶜ t6 +ᶜ t7 *ᶜ t8
  pure (HTMP1J, HTMP1S)

/-- `src/hblas/fortran/hblas3/hgemmzd.f:270-288`, body of `DO 260 I`. -/
def hgemmzd_260_I (A : Int) (ALPHA : Cplx F) (B : Int) (BETA : F) (BZERO : Bool) (C : Int) (J : Int) (K : Int) (LDA : Int) (LDB : Int) (LDC : Int) (I : Int)  : Prog F (Unit) := do
  let HTMP1S : Cplx F := (⟨zero, zero⟩ : Cplx F)
  let HTMP1J : Cplx F := (⟨zero, zero⟩ : Cplx F)
  let r ← foldN (K).toNat (fun i (s : Cplx F × Cplx F) => hgemmzd_270_L A B I J LDA LDB ((i : Int) + 1) s.1 s.2) (HTMP1J, HTMP1S)
  let HTMP1J : Cplx F := r.1
  let HTMP1S : Cplx F := r.2
  let _ ← (do
    if BZERO then
      wrC (el3 2 2 LDC C 1 I J) (ALPHA *ᶜ HTMP1S)
      wrC (el3 2 2 LDC C 2 I J) (ALPHA *ᶜ HTMP1J)
      pure ()
    else
      let t1 ← rdC (el3 2 2 LDC C 1 I J)
      wrC (el3 2 2 LDC C 1 I J) (ALPHA *ᶜ HTMP1S +ᶜ Cplx.ofReal BETA *ᶜ t1)
      let t2 ← rdC (el3 2 2 LDC C 2 I J)
      wrC (el3 2 2 LDC C 2 I J) (ALPHA *ᶜ HTMP1J +ᶜ Cplx.ofReal BETA *ᶜ t2)
      pure () : Prog F Unit)
  pure ()

/-- `src/hblas/fortran/hblas3/hgemmzd.f:269-288`, body of `DO 260 J`. -/
def hgemmzd_260_J (A : Int) (ALPHA : Cplx F) (B : Int) (BETA : F) (BZERO : Bool) (C : Int) (K : Int) (LDA : Int) (LDB : Int) (LDC : Int) (M : Int) (J : Int)  : Prog F (Unit) := do
  forN (M).toNat (fun i => hgemmzd_260_I A ALPHA B BETA BZERO C J K LDA LDB LDC ((i : Int) + 1))
  pure ()

/-- `src/hblas/fortran/hblas3/hgemmzd.f:297-303`, body of `DO 290 L`. -/
def hgemmzd_290_L (A : Int) (B : Int) (I : Int) (J : Int) (LDA : Int) (LDB : Int) (L : Int) (HTMP1J : Cplx F) (HTMP1S : Cplx F) : Prog F (Cplx F × Cplx F) := do
  let t1 ← rdC (el3 2 2 LDA A 1 L I)
  let t2 ← rdC (el3 2 2 LDB B 1 J L)
  let t3 ← rdC (el3 2 2 LDA A 2 L I)
  let t4 ← rdC (el3 2 2 LDB B 2 J L)
  let HTMP1S : Cplx F := HTMP1S +ᶜ t1 *ᶜ t2 -ᶜ t3 *ᶜ Cplx.conj t4
  let t5 ← rdC (el3 2 2 LDA A 1 L I)
  let t6 ← rdC (el3 2 2 LDB B 2 J L)
  let t7 ← rdC (el3 2 2 LDA A 2 L I)
  let t8 ← rdC (el3 2 2 LDB B 1 J L)
  let HTMP1J : Cplx F := HTMP1J +ᶜ t5 *ᶜ t6 +ᶜ t7 *ᶜ Cplx.conj t8
  pure (HTMP1J, HTMP1S)

/-- `src/hblas/fortran/hblas3/hgemmzd.f:294-312`, body of `DO 280 I`. -/
def hgemmzd_280_I (A : Int) (ALPHA : Cplx F) (B : Int) (BETA : F) (BZERO : Bool) (C : Int) (J : Int) (K : Int) (LDA : Int) (LDB : Int) (LDC : Int) (I : Int)  : Prog F (Unit) := do
  let HTMP1S : Cplx F := (⟨zero, zero⟩ : Cplx F)
  let HTMP1J : Cplx F := (⟨zero, zero⟩ : Cplx F)
  let r ← foldN (K).toNat (fun i (s : Cplx F × Cplx F) => hgemmzd_290_L A B I J LDA LDB ((i : Int) + 1) s.1 s.2) (HTMP1J, HTMP1S)
  let HTMP1J : Cplx F := r.1
  let HTMP1S : Cplx F := r.2
  let _ ← (do
    if BZERO then
      wrC (el3 2 2 LDC C 1 I J) (ALPHA *ᶜ HTMP1S)
      wrC (el3 2 2 LDC C 2 I J) (ALPHA *ᶜ HTMP1J)
      pure ()
    else
      let t1 ← rdC (el3 2 2 LDC C 1 I J)
      wrC (el3 2 2 LDC C 1 I J) (ALPHA *ᶜ HTMP1S +ᶜ Cplx.ofReal BETA *ᶜ t1)
      let t2 ← rdC (el3 2 2 LDC C 2 I J)
      wrC (el3 2 2 LDC C 2 I J) (ALPHA *ᶜ HTMP1J +ᶜ Cplx.ofReal BETA *ᶜ t2)
      pure () : Prog F Unit)
  pure ()

/-- `src/hblas/fortran/hblas3/hgemmzd.f:293-312`, body of `DO 280 J`. -/
def hgemmzd_280_J (A : Int) (ALPHA : Cplx F) (B : Int) (BETA : F) (BZERO : Bool) (C : Int) (K : Int) (LDA : Int) (LDB : Int) (LDC : Int) (M : Int) (J : Int)  : Prog F (Unit) := do
  forN (M).toNat (fun i => hgemmzd_280_I A ALPHA B BETA BZERO C J K LDA LDB LDC ((i : Int) + 1))
  pure ()

/-- `src/hblas/fortran/hblas3/hgemmzd.f:265-313`. -/
def hgemmzd_if265 (A : Int) (ALPHA : Cplx F) (B : Int) (BETA : F) (BZERO : Bool) (C : Int) (CONJB : Bool) (K : Int) (LDA : Int) (LDB : Int) (LDC : Int) (M : Int) (N : Int) : Prog F (Unit) := do
  if CONJB then
    forN (N).toNat (fun i => hgemmzd_260_J A ALPHA B BETA BZERO C K LDA LDB LDC M ((i : Int) + 1))
    pure ()
  else
    forN (N).toNat (fun i => hgemmzd_280_J A ALPHA B BETA BZERO C K LDA LDB LDC M ((i : Int) + 1))
    pure ()

/-- `src/hblas/fortran/hblas3/hgemmzd.f:64-314`. -/
def hgemmzd_if64 (A : Int) (ALPHA : Cplx F) (B : Int) (BETA : F) (BONE : Bool) (BZERO : Bool) (C : Int) (CONJA : Bool) (CONJB : Bool) (K : Int) (LDA : Int) (LDB : Int) (LDC : Int) (M : Int) (N : Int) (NOTA : Bool) (NOTB : Bool) : Prog F (Unit) := do
  if NOTB then
    hgemmzd_if65 A ALPHA B BETA BONE BZERO C CONJA K LDA LDB LDC M N NOTA
    pure ()
  else if NOTA then
    hgemmzd_if147 A ALPHA B BETA BONE BZERO C CONJB K LDA LDB LDC M N
    pure ()
  else if CONJA then
    hgemmzd_if212 A ALPHA B BETA BZERO C CONJB K LDA LDB LDC M N
    pure ()
  else
    hgemmzd_if265 A ALPHA B BETA BZERO C CONJB K LDA LDB LDC M N
    pure ()

/-- `src/hblas/fortran/hblas3/hgemmzd.f:9-315`. -/
def hgemmzd (TRANSA : Char) (TRANSB : Char) (M : Int) (N : Int) (K : Int) (ALPHA : Cplx F) (A : Int) (LDA : Int) (B : Int) (LDB : Int) (BETA : F) (C : Int) (LDC : Int) : Prog F (Unit) := do
  let NOTA : Bool := lsame TRANSA 'N'
  let NOTB : Bool := lsame TRANSB 'N'
  let CONJA : Bool := lsame TRANSA 'C'
  let CONJB : Bool := lsame TRANSB 'C'
  let AZERO : Bool := Cplx.feq ALPHA (⟨zero, zero⟩ : Cplx F)
  -- AONE (line 34) is never read
  let BZERO : Bool := Cplx.feq (Cplx.ofReal BETA) (⟨zero, zero⟩ : Cplx F)
  let BONE : Bool := Cplx.feq (Cplx.ofReal BETA) (⟨one, zero⟩ : Cplx F)
  if (decide (M = 0)) || (decide (N = 0)) then
    pure ()
  else
    if (AZERO || (decide (K = 0))) && BONE then
      pure ()
    else
      if AZERO then
        hgemmzd_if48 BETA BZERO C LDC M N
        pure ()
      else
        hgemmzd_if64 A ALPHA B BETA BONE BZERO C CONJA CONJB K LDA LDB LDC M N NOTA NOTB
        pure ()

end Haxx
