import Verif.ThrFort
import Verif.FGemmdd
import Verif.FGemmdz
import Verif.FGemmdh
import Verif.FGemmzd
import Verif.FGemmzz
import Verif.FGemmzh
import Verif.FGemmhd
import Verif.FGemmhz
import Verif.FGemmhh

/-!
# Threads: FGemmdd, FGemmdz, FGemmdh, FGemmzd, FGemmzz, FGemmzh, FGemmhd, FGemmhz, FGemmhh

Generated by `tools/gen_thr.py` from the definitions of the main model: every definition has the text of its
namesake, read with single memory accesses (`Haxx.Thr.Prog`); `run_…` says that its sequential meaning is the namesake.
-/

set_option linter.unusedVariables false
set_option linter.unusedSectionVars false
set_option linter.unusedSimpArgs false

namespace Haxx.Thr
open Arith

variable {F : Type} [Arith F] [ArithEq F]
/-- As `Haxx.hgemmdd_10_I`, `src/hblas/fortran/hblas3/hgemmdd.f:59-66`, body of `DO 10 I`. -/
def hgemmdd_10_I (C : Int) (J : Int) (LDC : Int) (I : Int)  : Prog F (Unit) := do
  wrC (el3 2 2 LDC C 1 I J) (⟨zero, zero⟩ : Cplx F)
  wrC (el3 2 2 LDC C 2 I J) (⟨zero, zero⟩ : Cplx F)
  pure ()

@[thr] theorem run_hgemmdd_10_I (C : Int) (J : Int) (LDC : Int) (I : Int) :
    (Thr.hgemmdd_10_I C J LDC I (F := F)).run = Haxx.hgemmdd_10_I C J LDC I (F := F) := by
  simp only [Thr.hgemmdd_10_I, Haxx.hgemmdd_10_I, thr]

/-- As `Haxx.hgemmdd_10_J`, `src/hblas/fortran/hblas3/hgemmdd.f:58-66`, body of `DO 10 J`. -/
def hgemmdd_10_J (C : Int) (LDC : Int) (M : Int) (J : Int)  : Prog F (Unit) := do
  forN (M).toNat (fun i => hgemmdd_10_I C J LDC ((i : Int) + 1))
  pure ()

@[thr] theorem run_hgemmdd_10_J (C : Int) (LDC : Int) (M : Int) (J : Int) :
    (Thr.hgemmdd_10_J C LDC M J (F := F)).run = Haxx.hgemmdd_10_J C LDC M J (F := F) := by
  simp only [Thr.hgemmdd_10_J, Haxx.hgemmdd_10_J, thr]

/-- As `Haxx.hgemmdd_20_I`, `src/hblas/fortran/hblas3/hgemmdd.f:69-76`, body of `DO 20 I`. -/
def hgemmdd_20_I (BETA : F) (C : Int) (J : Int) (LDC : Int) (I : Int)  : Prog F (Unit) := do
  let t1 ← rdC (el3 2 2 LDC C 1 I J)
  wrC (el3 2 2 LDC C 1 I J) (Cplx.ofReal BETA *ᶜ t1)
  let t2 ← rdC (el3 2 2 LDC C 2 I J)
  wrC (el3 2 2 LDC C 2 I J) (Cplx.ofReal BETA *ᶜ t2)
  pure ()

@[thr] theorem run_hgemmdd_20_I (BETA : F) (C : Int) (J : Int) (LDC : Int) (I : Int) :
    (Thr.hgemmdd_20_I BETA C J LDC I (F := F)).run = Haxx.hgemmdd_20_I BETA C J LDC I (F := F) := by
  simp only [Thr.hgemmdd_20_I, Haxx.hgemmdd_20_I, thr]

/-- As `Haxx.hgemmdd_20_J`, `src/hblas/fortran/hblas3/hgemmdd.f:68-76`, body of `DO 20 J`. -/
def hgemmdd_20_J (BETA : F) (C : Int) (LDC : Int) (M : Int) (J : Int)  : Prog F (Unit) := do
  forN (M).toNat (fun i => hgemmdd_20_I BETA C J LDC ((i : Int) + 1))
  pure ()

@[thr] theorem run_hgemmdd_20_J (BETA : F) (C : Int) (LDC : Int) (M : Int) (J : Int) :
    (Thr.hgemmdd_20_J BETA C LDC M J (F := F)).run = Haxx.hgemmdd_20_J BETA C LDC M J (F := F) := by
  simp only [Thr.hgemmdd_20_J, Haxx.hgemmdd_20_J, thr]

/-- As `Haxx.hgemmdd_if57`, `src/hblas/fortran/hblas3/hgemmdd.f:57-77`. -/
def hgemmdd_if57 (BETA : F) (BZERO : Bool) (C : Int) (LDC : Int) (M : Int) (N : Int) : Prog F (Unit) := do
  if BZERO then
    forN (N).toNat (fun i => hgemmdd_10_J C LDC M ((i : Int) + 1))
    pure ()
  else
    forN (N).toNat (fun i => hgemmdd_20_J BETA C LDC M ((i : Int) + 1))
    pure ()

@[thr] theorem run_hgemmdd_if57 (BETA : F) (BZERO : Bool) (C : Int) (LDC : Int) (M : Int) (N : Int) :
    (Thr.hgemmdd_if57 BETA BZERO C LDC M N (F := F)).run = Haxx.hgemmdd_if57 BETA BZERO C LDC M N (F := F) := by
  simp only [Thr.hgemmdd_if57, Haxx.hgemmdd_if57, thr]

/-- As `Haxx.hgemmdd_40_I`, `src/hblas/fortran/hblas3/hgemmdd.f:88-95`, body of `DO 40 I`. -/
def hgemmdd_40_I (C : Int) (J : Int) (LDC : Int) (I : Int)  : Prog F (Unit) := do
  wrC (el3 2 2 LDC C 1 I J) (⟨zero, zero⟩ : Cplx F)
  wrC (el3 2 2 LDC C 2 I J) (⟨zero, zero⟩ : Cplx F)
  pure ()

@[thr] theorem run_hgemmdd_40_I (C : Int) (J : Int) (LDC : Int) (I : Int) :
    (Thr.hgemmdd_40_I C J LDC I (F := F)).run = Haxx.hgemmdd_40_I C J LDC I (F := F) := by
  simp only [Thr.hgemmdd_40_I, Haxx.hgemmdd_40_I, thr]

/-- As `Haxx.hgemmdd_50_I`, `src/hblas/fortran/hblas3/hgemmdd.f:97-104`, body of `DO 50 I`. -/
def hgemmdd_50_I (BETA : F) (C : Int) (J : Int) (LDC : Int) (I : Int)  : Prog F (Unit) := do
  let t1 ← rdC (el3 2 2 LDC C 1 I J)
  wrC (el3 2 2 LDC C 1 I J) (Cplx.ofReal BETA *ᶜ t1)
  let t2 ← rdC (el3 2 2 LDC C 2 I J)
  wrC (el3 2 2 LDC C 2 I J) (Cplx.ofReal BETA *ᶜ t2)
  pure ()

@[thr] theorem run_hgemmdd_50_I (BETA : F) (C : Int) (J : Int) (LDC : Int) (I : Int) :
    (Thr.hgemmdd_50_I BETA C J LDC I (F := F)).run = Haxx.hgemmdd_50_I BETA C J LDC I (F := F) := by
  simp only [Thr.hgemmdd_50_I, Haxx.hgemmdd_50_I, thr]

/-- As `Haxx.hgemmdd_if87`, `src/hblas/fortran/hblas3/hgemmdd.f:87-105`. -/
def hgemmdd_if87 (BETA : F) (BONE : Bool) (BZERO : Bool) (C : Int) (J : Int) (LDC : Int) (M : Int) : Prog F (Unit) := do
  if BZERO then
    forN (M).toNat (fun i => hgemmdd_40_I C J LDC ((i : Int) + 1))
    pure ()
  else if !BONE then
    forN (M).toNat (fun i => hgemmdd_50_I BETA C J LDC ((i : Int) + 1))
    pure ()
  else
    pure ()

@[thr] theorem run_hgemmdd_if87 (BETA : F) (BONE : Bool) (BZERO : Bool) (C : Int) (J : Int) (LDC : Int) (M : Int) :
    (Thr.hgemmdd_if87 BETA BONE BZERO C J LDC M (F := F)).run = Haxx.hgemmdd_if87 BETA BONE BZERO C J LDC M (F := F) := by
  simp only [Thr.hgemmdd_if87, Haxx.hgemmdd_if87, thr]

/-- As `Haxx.hgemmdd_70_I`, `src/hblas/fortran/hblas3/hgemmdd.f:116-140`, body of `DO 70 I`. -/
def hgemmdd_70_I (A : Int) (C : Int) (HTMPJ : Cplx F) (HTMPS : Cplx F) (J : Int) (L : Int) (LDA : Int) (LDC : Int) (I : Int)  : Prog F (Unit) := do
  let t1 ← rdC (el3 2 2 LDC C 1 I J)
  let t2 ← rdC (el3 2 2 LDA A 1 I L)
  let t3 ← rdC (el3 2 2 LDA A 2 I L)
  wrC (el3 2 2 LDC C 1 I J) (t1 +ᶜ t2 *ᶜ HTMPS -ᶜ t3 *ᶜ Cplx.conj HTMPJ)
  let t4 ← rdC (el3 2 2 LDC C 2 I J)
  let t5 ← rdC (el3 2 2 LDA A 1 I L)
  let t6 ← rdC (el3 2 2 LDA A 2 I L)
  wrC (el3 2 2 LDC C 2 I J) (t4 +ᶜ t5 *ᶜ HTMPJ +ᶜ t6 *ᶜ Cplx.conj HTMPS)
  pure ()

@[thr] theorem run_hgemmdd_70_I (A : Int) (C : Int) (HTMPJ : Cplx F) (HTMPS : Cplx F) (J : Int) (L : Int) (LDA : Int) (LDC : Int) (I : Int) :
    (Thr.hgemmdd_70_I A C HTMPJ HTMPS J L LDA LDC I (F := F)).run = Haxx.hgemmdd_70_I A C HTMPJ HTMPS J L LDA LDC I (F := F) := by
  simp only [Thr.hgemmdd_70_I, Haxx.hgemmdd_70_I, thr]

/-- As `Haxx.hgemmdd_60_L`, `src/hblas/fortran/hblas3/hgemmdd.f:107-141`, body of `DO 60 L`. -/
def hgemmdd_60_L (A : Int) (ALPHA : F) (B : Int) (C : Int) (J : Int) (LDA : Int) (LDB : Int) (LDC : Int) (M : Int) (L : Int)  : Prog F (Unit) := do
  let t1 ← rdC (el3 2 2 LDB B 1 L J)
  let HTMPS : Cplx F := Cplx.ofReal ALPHA *ᶜ t1
  let t2 ← rdC (el3 2 2 LDB B 2 L J)
  let HTMPJ : Cplx F := Cplx.ofReal ALPHA *ᶜ t2
  forN (M).toNat (fun i => hgemmdd_70_I A C HTMPJ HTMPS J L LDA LDC ((i : Int) + 1))
  pure ()

@[thr] theorem run_hgemmdd_60_L (A : Int) (ALPHA : F) (B : Int) (C : Int) (J : Int) (LDA : Int) (LDB : Int) (LDC : Int) (M : Int) (L : Int) :
    (Thr.hgemmdd_60_L A ALPHA B C J LDA LDB LDC M L (F := F)).run = Haxx.hgemmdd_60_L A ALPHA B C J LDA LDB LDC M L (F := F) := by
  simp only [Thr.hgemmdd_60_L, Haxx.hgemmdd_60_L, thr]

/-- As `Haxx.hgemmdd_30_J`, `src/hblas/fortran/hblas3/hgemmdd.f:86-142`, body of `DO 30 J`. -/
def hgemmdd_30_J (A : Int) (ALPHA : F) (B : Int) (BETA : F) (BONE : Bool) (BZERO : Bool) (C : Int) (K : Int) (LDA : Int) (LDB : Int) (LDC : Int) (M : Int) (J : Int)  : Prog F (Unit) := do
  hgemmdd_if87 BETA BONE BZERO C J LDC M
  forN (K).toNat (fun i => hgemmdd_60_L A ALPHA B C J LDA LDB LDC M ((i : Int) + 1))
  pure ()

@[thr] theorem run_hgemmdd_30_J (A : Int) (ALPHA : F) (B : Int) (BETA : F) (BONE : Bool) (BZERO : Bool) (C : Int) (K : Int) (LDA : Int) (LDB : Int) (LDC : Int) (M : Int) (J : Int) :
    (Thr.hgemmdd_30_J A ALPHA B BETA BONE BZERO C K LDA LDB LDC M J (F := F)).run = Haxx.hgemmdd_30_J A ALPHA B BETA BONE BZERO C K LDA LDB LDC M J (F := F) := by
  simp only [Thr.hgemmdd_30_J, Haxx.hgemmdd_30_J, thr]

/-- As `Haxx.hgemmdd_90_L`, `src/hblas/fortran/hblas3/hgemmdd.f:155-175`, body of `DO 90 L`. -/
def hgemmdd_90_L (A : Int) (B : Int) (I : Int) (J : Int) (LDA : Int) (LDB : Int) (L : Int) (HTMPJ : Cplx F) (HTMPS : Cplx F) : Prog F (Cplx F × Cplx F) := do
  let t1 ← rdC (el3 2 2 LDA A 1 L I)
  let t2 ← rdC (el3 2 2 LDB B 1 L J)
  let t3 ← rdC (el3 2 2 LDA A 2 L I)
  let t4 ← rdC (el3 2 2 LDB B 2 L J)
  let HTMPS : Cplx F := HTMPS +ᶜ Cplx.conj t1 *ᶜ t2 +ᶜ t3 *ᶜ Cplx.conj t4
  let t5 ← rdC (el3 2 2 LDA A 1 L I)
  let t6 ← rdC (el3 2 2 LDB B 2 L J)
  let t7 ← rdC (el3 2 2 LDA A 2 L I)
  let t8 ← rdC (el3 2 2 LDB B 1 L J)
  let HTMPJ : Cplx F := HTMPJ +ᶜ Cplx.conj t5 *ᶜ t6 -ᶜ t7 *ᶜ Cplx.conj t8
  pure (HTMPJ, HTMPS)

@[thr] theorem run_hgemmdd_90_L (A : Int) (B : Int) (I : Int) (J : Int) (LDA : Int) (LDB : Int) (L : Int) (HTMPJ : Cplx F) (HTMPS : Cplx F) :
    (Thr.hgemmdd_90_L A B I J LDA LDB L HTMPJ HTMPS (F := F)).run = Haxx.hgemmdd_90_L A B I J LDA LDB L HTMPJ HTMPS (F := F) := by
  simp only [Thr.hgemmdd_90_L, Haxx.hgemmdd_90_L, thr]

/-- As `Haxx.hgemmdd_80_I`, `src/hblas/fortran/hblas3/hgemmdd.f:148-196`, body of `DO 80 I`. -/
def hgemmdd_80_I (A : Int) (ALPHA : F) (B : Int) (BETA : F) (BZERO : Bool) (C : Int) (J : Int) (K : Int) (LDA : Int) (LDB : Int) (LDC : Int) (I : Int)  : Prog F (Unit) := do
  let HTMPS : Cplx F := (⟨zero, zero⟩ : Cplx F)
  let HTMPJ : Cplx F := (⟨zero, zero⟩ : Cplx F)
  let r ← foldN (K).toNat (fun i (s : Cplx F × Cplx F) => hgemmdd_90_L A B I J LDA LDB ((i : Int) + 1) s.1 s.2) (HTMPJ, HTMPS)
  let HTMPJ : Cplx F := r.1
  let HTMPS : Cplx F := r.2
  let _ ← (do
    if BZERO then
      wrC (el3 2 2 LDC C 1 I J) (Cplx.ofReal ALPHA *ᶜ HTMPS)
      wrC (el3 2 2 LDC C 2 I J) (Cplx.ofReal ALPHA *ᶜ HTMPJ)
      pure ()
    else
      let t1 ← rdC (el3 2 2 LDC C 1 I J)
      wrC (el3 2 2 LDC C 1 I J) (Cplx.ofReal ALPHA *ᶜ HTMPS +ᶜ Cplx.ofReal BETA *ᶜ t1)
      let t2 ← rdC (el3 2 2 LDC C 2 I J)
      wrC (el3 2 2 LDC C 2 I J) (Cplx.ofReal ALPHA *ᶜ HTMPJ +ᶜ Cplx.ofReal BETA *ᶜ t2)
      pure () : Prog F Unit)
  pure ()

@[thr] theorem run_hgemmdd_80_I (A : Int) (ALPHA : F) (B : Int) (BETA : F) (BZERO : Bool) (C : Int) (J : Int) (K : Int) (LDA : Int) (LDB : Int) (LDC : Int) (I : Int) :
    (Thr.hgemmdd_80_I A ALPHA B BETA BZERO C J K LDA LDB LDC I (F := F)).run = Haxx.hgemmdd_80_I A ALPHA B BETA BZERO C J K LDA LDB LDC I (F := F) := by
  simp only [Thr.hgemmdd_80_I, Haxx.hgemmdd_80_I, thr]

/-- As `Haxx.hgemmdd_80_J`, `src/hblas/fortran/hblas3/hgemmdd.f:147-196`, body of `DO 80 J`. -/
def hgemmdd_80_J (A : Int) (ALPHA : F) (B : Int) (BETA : F) (BZERO : Bool) (C : Int) (K : Int) (LDA : Int) (LDB : Int) (LDC : Int) (M : Int) (J : Int)  : Prog F (Unit) := do
  forN (M).toNat (fun i => hgemmdd_80_I A ALPHA B BETA BZERO C J K LDA LDB LDC ((i : Int) + 1))
  pure ()

@[thr] theorem run_hgemmdd_80_J (A : Int) (ALPHA : F) (B : Int) (BETA : F) (BZERO : Bool) (C : Int) (K : Int) (LDA : Int) (LDB : Int) (LDC : Int) (M : Int) (J : Int) :
    (Thr.hgemmdd_80_J A ALPHA B BETA BZERO C K LDA LDB LDC M J (F := F)).run = Haxx.hgemmdd_80_J A ALPHA B BETA BZERO C K LDA LDB LDC M J (F := F) := by
  simp only [Thr.hgemmdd_80_J, Haxx.hgemmdd_80_J, thr]

/-- As `Haxx.hgemmdd_110_L`, `src/hblas/fortran/hblas3/hgemmdd.f:210-230`, body of `DO 110 L`. -/
def hgemmdd_110_L (A : Int) (B : Int) (I : Int) (J : Int) (LDA : Int) (LDB : Int) (L : Int) (HTMPJ : Cplx F) (HTMPS : Cplx F) : Prog F (Cplx F × Cplx F) := do
  let t1 ← rdC (el3 2 2 LDA A 1 L I)
  let t2 ← rdC (el3 2 2 LDB B 1 L J)
  let t3 ← rdC (el3 2 2 LDA A 2 L I)
  let t4 ← rdC (el3 2 2 LDB B 2 L J)
  let HTMPS : Cplx F := HTMPS +ᶜ t1 *ᶜ t2 -ᶜ t3 *ᶜ Cplx.conj t4
  let t5 ← rdC (el3 2 2 LDA A 1 L I)
  let t6 ← rdC (el3 2 2 LDB B 2 L J)
  let t7 ← rdC (el3 2 2 LDA A 2 L I)
  let t8 ← rdC (el3 2 2 LDB B 1 L J)
  let HTMPJ : Cplx F := HTMPJ +ᶜ t5 *ᶜ t6 +ᶜ t7 *ᶜ Cplx.conj t8
  pure (HTMPJ, HTMPS)

@[thr] theorem run_hgemmdd_110_L (A : Int) (B : Int) (I : Int) (J : Int) (LDA : Int) (LDB : Int) (L : Int) (HTMPJ : Cplx F) (HTMPS : Cplx F) :
    (Thr.hgemmdd_110_L A B I J LDA LDB L HTMPJ HTMPS (F := F)).run = Haxx.hgemmdd_110_L A B I J LDA LDB L HTMPJ HTMPS (F := F) := by
  simp only [Thr.hgemmdd_110_L, Haxx.hgemmdd_110_L, thr]

/-- As `Haxx.hgemmdd_100_I`, `src/hblas/fortran/hblas3/hgemmdd.f:203-251`, body of `DO 100 I`. -/
def hgemmdd_100_I (A : Int) (ALPHA : F) (B : Int) (BETA : F) (BZERO : Bool) (C : Int) (J : Int) (K : Int) (LDA : Int) (LDB : Int) (LDC : Int) (I : Int)  : Prog F (Unit) := do
  let HTMPS : Cplx F := (⟨zero, zero⟩ : Cplx F)
  let HTMPJ : Cplx F := (⟨zero, zero⟩ : Cplx F)
  let r ← foldN (K).toNat (fun i (s : Cplx F × Cplx F) => hgemmdd_110_L A B I J LDA LDB ((i : Int) + 1) s.1 s.2) (HTMPJ, HTMPS)
  let HTMPJ : Cplx F := r.1
  let HTMPS : Cplx F := r.2
  let _ ← (do
    if BZERO then
      wrC (el3 2 2 LDC C 1 I J) (Cplx.ofReal ALPHA *ᶜ HTMPS)
      wrC (el3 2 2 LDC C 2 I J) (Cplx.ofReal ALPHA *ᶜ HTMPJ)
      pure ()
    else
      let t1 ← rdC (el3 2 2 LDC C 1 I J)
      wrC (el3 2 2 LDC C 1 I J) (Cplx.ofReal ALPHA *ᶜ HTMPS +ᶜ Cplx.ofReal BETA *ᶜ t1)
      let t2 ← rdC (el3 2 2 LDC C 2 I J)
      wrC (el3 2 2 LDC C 2 I J) (Cplx.ofReal ALPHA *ᶜ HTMPJ +ᶜ Cplx.ofReal BETA *ᶜ t2)
      pure () : Prog F Unit)
  pure ()

@[thr] theorem run_hgemmdd_100_I (A : Int) (ALPHA : F) (B : Int) (BETA : F) (BZERO : Bool) (C : Int) (J : Int) (K : Int) (LDA : Int) (LDB : Int) (LDC : Int) (I : Int) :
    (Thr.hgemmdd_100_I A ALPHA B BETA BZERO C J K LDA LDB LDC I (F := F)).run = Haxx.hgemmdd_100_I A ALPHA B BETA BZERO C J K LDA LDB LDC I (F := F) := by
  simp only [Thr.hgemmdd_100_I, Haxx.hgemmdd_100_I, thr]

/-- As `Haxx.hgemmdd_100_J`, `src/hblas/fortran/hblas3/hgemmdd.f:202-251`, body of `DO 100 J`. -/
def hgemmdd_100_J (A : Int) (ALPHA : F) (B : Int) (BETA : F) (BZERO : Bool) (C : Int) (K : Int) (LDA : Int) (LDB : Int) (LDC : Int) (M : Int) (J : Int)  : Prog F (Unit) := do
  forN (M).toNat (fun i => hgemmdd_100_I A ALPHA B BETA BZERO C J K LDA LDB LDC ((i : Int) + 1))
  pure ()

@[thr] theorem run_hgemmdd_100_J (A : Int) (ALPHA : F) (B : Int) (BETA : F) (BZERO : Bool) (C : Int) (K : Int) (LDA : Int) (LDB : Int) (LDC : Int) (M : Int) (J : Int) :
    (Thr.hgemmdd_100_J A ALPHA B BETA BZERO C K LDA LDB LDC M J (F := F)).run = Haxx.hgemmdd_100_J A ALPHA B BETA BZERO C K LDA LDB LDC M J (F := F) := by
  simp only [Thr.hgemmdd_100_J, Haxx.hgemmdd_100_J, thr]

/-- As `Haxx.hgemmdd_if82`, `src/hblas/fortran/hblas3/hgemmdd.f:82-252`. -/
def hgemmdd_if82 (A : Int) (ALPHA : F) (B : Int) (BETA : F) (BONE : Bool) (BZERO : Bool) (C : Int) (CONJA : Bool) (K : Int) (LDA : Int) (LDB : Int) (LDC : Int) (M : Int) (N : Int) (NOTA : Bool) : Prog F (Unit) := do
  if NOTA then
    forN (N).toNat (fun i => hgemmdd_30_J A ALPHA B BETA BONE BZERO C K LDA LDB LDC M ((i : Int) + 1))
    pure ()
  else if CONJA then
    forN (N).toNat (fun i => hgemmdd_80_J A ALPHA B BETA BZERO C K LDA LDB LDC M ((i : Int) + 1))
    pure ()
  else
    forN (N).toNat (fun i => hgemmdd_100_J A ALPHA B BETA BZERO C K LDA LDB LDC M ((i : Int) + 1))
    pure ()

@[thr] theorem run_hgemmdd_if82 (A : Int) (ALPHA : F) (B : Int) (BETA : F) (BONE : Bool) (BZERO : Bool) (C : Int) (CONJA : Bool) (K : Int) (LDA : Int) (LDB : Int) (LDC : Int) (M : Int) (N : Int) (NOTA : Bool) :
    (Thr.hgemmdd_if82 A ALPHA B BETA BONE BZERO C CONJA K LDA LDB LDC M N NOTA (F := F)).run = Haxx.hgemmdd_if82 A ALPHA B BETA BONE BZERO C CONJA K LDA LDB LDC M N NOTA (F := F) := by
  simp only [Thr.hgemmdd_if82, Haxx.hgemmdd_if82, thr]

/-- As `Haxx.hgemmdd_130_I`, `src/hblas/fortran/hblas3/hgemmdd.f:260-267`, body of `DO 130 I`. -/
def hgemmdd_130_I (C : Int) (J : Int) (LDC : Int) (I : Int)  : Prog F (Unit) := do
  wrC (el3 2 2 LDC C 1 I J) (⟨zero, zero⟩ : Cplx F)
  wrC (el3 2 2 LDC C 2 I J) (⟨zero, zero⟩ : Cplx F)
  pure ()

@[thr] theorem run_hgemmdd_130_I (C : Int) (J : Int) (LDC : Int) (I : Int) :
    (Thr.hgemmdd_130_I C J LDC I (F := F)).run = Haxx.hgemmdd_130_I C J LDC I (F := F) := by
  simp only [Thr.hgemmdd_130_I, Haxx.hgemmdd_130_I, thr]

/-- As `Haxx.hgemmdd_140_I`, `src/hblas/fortran/hblas3/hgemmdd.f:269-276`, body of `DO 140 I`. -/
def hgemmdd_140_I (BETA : F) (C : Int) (J : Int) (LDC : Int) (I : Int)  : Prog F (Unit) := do
  let t1 ← rdC (el3 2 2 LDC C 1 I J)
  wrC (el3 2 2 LDC C 1 I J) (Cplx.ofReal BETA *ᶜ t1)
  let t2 ← rdC (el3 2 2 LDC C 2 I J)
  wrC (el3 2 2 LDC C 2 I J) (Cplx.ofReal BETA *ᶜ t2)
  pure ()

@[thr] theorem run_hgemmdd_140_I (BETA : F) (C : Int) (J : Int) (LDC : Int) (I : Int) :
    (Thr.hgemmdd_140_I BETA C J LDC I (F := F)).run = Haxx.hgemmdd_140_I BETA C J LDC I (F := F) := by
  simp only [Thr.hgemmdd_140_I, Haxx.hgemmdd_140_I, thr]

/-- As `Haxx.hgemmdd_if259`, `src/hblas/fortran/hblas3/hgemmdd.f:259-277`. -/
def hgemmdd_if259 (BETA : F) (BONE : Bool) (BZERO : Bool) (C : Int) (J : Int) (LDC : Int) (M : Int) : Prog F (Unit) := do
  if BZERO then
    forN (M).toNat (fun i => hgemmdd_130_I C J LDC ((i : Int) + 1))
    pure ()
  else if !BONE then
    forN (M).toNat (fun i => hgemmdd_140_I BETA C J LDC ((i : Int) + 1))
    pure ()
  else
    pure ()

@[thr] theorem run_hgemmdd_if259 (BETA : F) (BONE : Bool) (BZERO : Bool) (C : Int) (J : Int) (LDC : Int) (M : Int) :
    (Thr.hgemmdd_if259 BETA BONE BZERO C J LDC M (F := F)).run = Haxx.hgemmdd_if259 BETA BONE BZERO C J LDC M (F := F) := by
  simp only [Thr.hgemmdd_if259, Haxx.hgemmdd_if259, thr]

/-- As `Haxx.hgemmdd_160_I`, `src/hblas/fortran/hblas3/hgemmdd.f:289-313`, body of `DO 160 I`. -/
def hgemmdd_160_I (A : Int) (C : Int) (HTMPJ : Cplx F) (HTMPS : Cplx F) (J : Int) (L : Int) (LDA : Int) (LDC : Int) (I : Int)  : Prog F (Unit) := do
  let t1 ← rdC (el3 2 2 LDC C 1 I J)
  let t2 ← rdC (el3 2 2 LDA A 1 I L)
  let t3 ← rdC (el3 2 2 LDA A 2 I L)
  wrC (el3 2 2 LDC C 1 I J) (t1 +ᶜ t2 *ᶜ HTMPS -ᶜ t3 *ᶜ Cplx.conj HTMPJ)
  let t4 ← rdC (el3 2 2 LDC C 2 I J)
  let t5 ← rdC (el3 2 2 LDA A 1 I L)
  let t6 ← rdC (el3 2 2 LDA A 2 I L)
  wrC (el3 2 2 LDC C 2 I J) (t4 +ᶜ t5 *ᶜ HTMPJ +ᶜ t6 *ᶜ Cplx.conj HTMPS)
  pure ()

@[thr] theorem run_hgemmdd_160_I (A : Int) (C : Int) (HTMPJ : Cplx F) (HTMPS : Cplx F) (J : Int) (L : Int) (LDA : Int) (LDC : Int) (I : Int) :
    (Thr.hgemmdd_160_I A C HTMPJ HTMPS J L LDA LDC I (F := F)).run = Haxx.hgemmdd_160_I A C HTMPJ HTMPS J L LDA LDC I (F := F) := by
  simp only [Thr.hgemmdd_160_I, Haxx.hgemmdd_160_I, thr]

/-- As `Haxx.hgemmdd_150_L`, `src/hblas/fortran/hblas3/hgemmdd.f:279-314`, body of `DO 150 L`. -/
def hgemmdd_150_L (A : Int) (ALPHA : F) (B : Int) (C : Int) (J : Int) (LDA : Int) (LDB : Int) (LDC : Int) (M : Int) (L : Int)  : Prog F (Unit) := do
  let t1 ← rdC (el3 2 2 LDB B 1 J L)
  let HTMPS : Cplx F := Cplx.ofReal ALPHA *ᶜ Cplx.conj t1
  let t2 ← rdC (el3 2 2 LDB B 2 J L)
  let HTMPJ : Cplx F := Cplx.neg (Cplx.ofReal ALPHA *ᶜ t2)
  forN (M).toNat (fun i => hgemmdd_160_I A C HTMPJ HTMPS J L LDA LDC ((i : Int) + 1))
  pure ()

@[thr] theorem run_hgemmdd_150_L (A : Int) (ALPHA : F) (B : Int) (C : Int) (J : Int) (LDA : Int) (LDB : Int) (LDC : Int) (M : Int) (L : Int) :
    (Thr.hgemmdd_150_L A ALPHA B C J LDA LDB LDC M L (F := F)).run = Haxx.hgemmdd_150_L A ALPHA B C J LDA LDB LDC M L (F := F) := by
  simp only [Thr.hgemmdd_150_L, Haxx.hgemmdd_150_L, thr]

/-- As `Haxx.hgemmdd_120_J`, `src/hblas/fortran/hblas3/hgemmdd.f:258-315`, body of `DO 120 J`. -/
def hgemmdd_120_J (A : Int) (ALPHA : F) (B : Int) (BETA : F) (BONE : Bool) (BZERO : Bool) (C : Int) (K : Int) (LDA : Int) (LDB : Int) (LDC : Int) (M : Int) (J : Int)  : Prog F (Unit) := do
  hgemmdd_if259 BETA BONE BZERO C J LDC M
  forN (K).toNat (fun i => hgemmdd_150_L A ALPHA B C J LDA LDB LDC M ((i : Int) + 1))
  pure ()

@[thr] theorem run_hgemmdd_120_J (A : Int) (ALPHA : F) (B : Int) (BETA : F) (BONE : Bool) (BZERO : Bool) (C : Int) (K : Int) (LDA : Int) (LDB : Int) (LDC : Int) (M : Int) (J : Int) :
    (Thr.hgemmdd_120_J A ALPHA B BETA BONE BZERO C K LDA LDB LDC M J (F := F)).run = Haxx.hgemmdd_120_J A ALPHA B BETA BONE BZERO C K LDA LDB LDC M J (F := F) := by
  simp only [Thr.hgemmdd_120_J, Haxx.hgemmdd_120_J, thr]

/-- As `Haxx.hgemmdd_180_I`, `src/hblas/fortran/hblas3/hgemmdd.f:323-330`, body of `DO 180 I`. -/
def hgemmdd_180_I (C : Int) (J : Int) (LDC : Int) (I : Int)  : Prog F (Unit) := do
  wrC (el3 2 2 LDC C 1 I J) (⟨zero, zero⟩ : Cplx F)
  wrC (el3 2 2 LDC C 2 I J) (⟨zero, zero⟩ : Cplx F)
  pure ()

@[thr] theorem run_hgemmdd_180_I (C : Int) (J : Int) (LDC : Int) (I : Int) :
    (Thr.hgemmdd_180_I C J LDC I (F := F)).run = Haxx.hgemmdd_180_I C J LDC I (F := F) := by
  simp only [Thr.hgemmdd_180_I, Haxx.hgemmdd_180_I, thr]

/-- As `Haxx.hgemmdd_190_I`, `src/hblas/fortran/hblas3/hgemmdd.f:332-339`, body of `DO 190 I`. -/
def hgemmdd_190_I (BETA : F) (C : Int) (J : Int) (LDC : Int) (I : Int)  : Prog F (Unit) := do
  let t1 ← rdC (el3 2 2 LDC C 1 I J)
  wrC (el3 2 2 LDC C 1 I J) (Cplx.ofReal BETA *ᶜ t1)
  let t2 ← rdC (el3 2 2 LDC C 2 I J)
  wrC (el3 2 2 LDC C 2 I J) (Cplx.ofReal BETA *ᶜ t2)
  pure ()

@[thr] theorem run_hgemmdd_190_I (BETA : F) (C : Int) (J : Int) (LDC : Int) (I : Int) :
    (Thr.hgemmdd_190_I BETA C J LDC I (F := F)).run = Haxx.hgemmdd_190_I BETA C J LDC I (F := F) := by
  simp only [Thr.hgemmdd_190_I, Haxx.hgemmdd_190_I, thr]

/-- As `Haxx.hgemmdd_if322`, `src/hblas/fortran/hblas3/hgemmdd.f:322-340`. -/
def hgemmdd_if322 (BETA : F) (BONE : Bool) (BZERO : Bool) (C : Int) (J : Int) (LDC : Int) (M : Int) : Prog F (Unit) := do
  if BZERO then
    forN (M).toNat (fun i => hgemmdd_180_I C J LDC ((i : Int) + 1))
    pure ()
  else if !BONE then
    forN (M).toNat (fun i => hgemmdd_190_I BETA C J LDC ((i : Int) + 1))
    pure ()
  else
    pure ()

@[thr] theorem run_hgemmdd_if322 (BETA : F) (BONE : Bool) (BZERO : Bool) (C : Int) (J : Int) (LDC : Int) (M : Int) :
    (Thr.hgemmdd_if322 BETA BONE BZERO C J LDC M (F := F)).run = Haxx.hgemmdd_if322 BETA BONE BZERO C J LDC M (F := F) := by
  simp only [Thr.hgemmdd_if322, Haxx.hgemmdd_if322, thr]

/-- As `Haxx.hgemmdd_210_I`, `src/hblas/fortran/hblas3/hgemmdd.f:351-375`, body of `DO 210 I`. -/
def hgemmdd_210_I (A : Int) (C : Int) (HTMPJ : Cplx F) (HTMPS : Cplx F) (J : Int) (L : Int) (LDA : Int) (LDC : Int) (I : Int)  : Prog F (Unit) := do
  let t1 ← rdC (el3 2 2 LDC C 1 I J)
  let t2 ← rdC (el3 2 2 LDA A 1 I L)
  let t3 ← rdC (el3 2 2 LDA A 2 I L)
  wrC (el3 2 2 LDC C 1 I J) (t1 +ᶜ t2 *ᶜ HTMPS -ᶜ t3 *ᶜ Cplx.conj HTMPJ)
  let t4 ← rdC (el3 2 2 LDC C 2 I J)
  let t5 ← rdC (el3 2 2 LDA A 1 I L)
  let t6 ← rdC (el3 2 2 LDA A 2 I L)
  wrC (el3 2 2 LDC C 2 I J) (t4 +ᶜ t5 *ᶜ HTMPJ +ᶜ t6 *ᶜ Cplx.conj HTMPS)
  pure ()

@[thr] theorem run_hgemmdd_210_I (A : Int) (C : Int) (HTMPJ : Cplx F) (HTMPS : Cplx F) (J : Int) (L : Int) (LDA : Int) (LDC : Int) (I : Int) :
    (Thr.hgemmdd_210_I A C HTMPJ HTMPS J L LDA LDC I (F := F)).run = Haxx.hgemmdd_210_I A C HTMPJ HTMPS J L LDA LDC I (F := F) := by
  simp only [Thr.hgemmdd_210_I, Haxx.hgemmdd_210_I, thr]

/-- As `Haxx.hgemmdd_200_L`, `src/hblas/fortran/hblas3/hgemmdd.f:342-376`, body of `DO 200 L`. -/
def hgemmdd_200_L (A : Int) (ALPHA : F) (B : Int) (C : Int) (J : Int) (LDA : Int) (LDB : Int) (LDC : Int) (M : Int) (L : Int)  : Prog F (Unit) := do
  let t1 ← rdC (el3 2 2 LDB B 1 J L)
  let HTMPS : Cplx F := Cplx.ofReal ALPHA *ᶜ t1
  let t2 ← rdC (el3 2 2 LDB B 2 J L)
  let HTMPJ : Cplx F := Cplx.ofReal ALPHA *ᶜ t2
  forN (M).toNat (fun i => hgemmdd_210_I A C HTMPJ HTMPS J L LDA LDC ((i : Int) + 1))
  pure ()

@[thr] theorem run_hgemmdd_200_L (A : Int) (ALPHA : F) (B : Int) (C : Int) (J : Int) (LDA : Int) (LDB : Int) (LDC : Int) (M : Int) (L : Int) :
    (Thr.hgemmdd_200_L A ALPHA B C J LDA LDB LDC M L (F := F)).run = Haxx.hgemmdd_200_L A ALPHA B C J LDA LDB LDC M L (F := F) := by
  simp only [Thr.hgemmdd_200_L, Haxx.hgemmdd_200_L, thr]

/-- As `Haxx.hgemmdd_170_J`, `src/hblas/fortran/hblas3/hgemmdd.f:321-377`, body of `DO 170 J`. -/
def hgemmdd_170_J (A : Int) (ALPHA : F) (B : Int) (BETA : F) (BONE : Bool) (BZERO : Bool) (C : Int) (K : Int) (LDA : Int) (LDB : Int) (LDC : Int) (M : Int) (J : Int)  : Prog F (Unit) := do
  hgemmdd_if322 BETA BONE BZERO C J LDC M
  forN (K).toNat (fun i => hgemmdd_200_L A ALPHA B C J LDA LDB LDC M ((i : Int) + 1))
  pure ()

@[thr] theorem run_hgemmdd_170_J (A : Int) (ALPHA : F) (B : Int) (BETA : F) (BONE : Bool) (BZERO : Bool) (C : Int) (K : Int) (LDA : Int) (LDB : Int) (LDC : Int) (M : Int) (J : Int) :
    (Thr.hgemmdd_170_J A ALPHA B BETA BONE BZERO C K LDA LDB LDC M J (F := F)).run = Haxx.hgemmdd_170_J A ALPHA B BETA BONE BZERO C K LDA LDB LDC M J (F := F) := by
  simp only [Thr.hgemmdd_170_J, Haxx.hgemmdd_170_J, thr]

/-- As `Haxx.hgemmdd_if254`, `src/hblas/fortran/hblas3/hgemmdd.f:254-378`. -/
def hgemmdd_if254 (A : Int) (ALPHA : F) (B : Int) (BETA : F) (BONE : Bool) (BZERO : Bool) (C : Int) (CONJB : Bool) (K : Int) (LDA : Int) (LDB : Int) (LDC : Int) (M : Int) (N : Int) : Prog F (Unit) := do
  if CONJB then
    forN (N).toNat (fun i => hgemmdd_120_J A ALPHA B BETA BONE BZERO C K LDA LDB LDC M ((i : Int) + 1))
    pure ()
  else
    forN (N).toNat (fun i => hgemmdd_170_J A ALPHA B BETA BONE BZERO C K LDA LDB LDC M ((i : Int) + 1))
    pure ()

@[thr] theorem run_hgemmdd_if254 (A : Int) (ALPHA : F) (B : Int) (BETA : F) (BONE : Bool) (BZERO : Bool) (C : Int) (CONJB : Bool) (K : Int) (LDA : Int) (LDB : Int) (LDC : Int) (M : Int) (N : Int) :
    (Thr.hgemmdd_if254 A ALPHA B BETA BONE BZERO C CONJB K LDA LDB LDC M N (F := F)).run = Haxx.hgemmdd_if254 A ALPHA B BETA BONE BZERO C CONJB K LDA LDB LDC M N (F := F) := by
  simp only [Thr.hgemmdd_if254, Haxx.hgemmdd_if254, thr]

/-- As `Haxx.hgemmdd_230_L`, `src/hblas/fortran/hblas3/hgemmdd.f:392-413`, body of `DO 230 L`. -/
def hgemmdd_230_L (A : Int) (B : Int) (I : Int) (J : Int) (LDA : Int) (LDB : Int) (L : Int) (HTMPJ : Cplx F) (HTMPS : Cplx F) : Prog F (Cplx F × Cplx F) := do
  let t1 ← rdC (el3 2 2 LDA A 1 L I)
  let t2 ← rdC (el3 2 2 LDB B 1 J L)
  let t3 ← rdC (el3 2 2 LDA A 2 L I)
  let t4 ← rdC (el3 2 2 LDB B 2 J L)
  let HTMPS : Cplx F := HTMPS +ᶜ Cplx.conj t1 *ᶜ Cplx.conj t2 -ᶜ t3 *ᶜ Cplx.conj t4
  let t5 ← rdC (el3 2 2 LDA A 1 L I)
  let t6 ← rdC (el3 2 2 LDB B 2 J L)
  let t7 ← rdC (el3 2 2 LDA A 2 L I)
  let t8 ← rdC (el3 2 2 LDB B 1 J L)
  let HTMPJ : Cplx F := HTMPJ -ᶜ Cplx.conj t5 *ᶜ t6 -ᶜ t7 *ᶜ t8
  pure (HTMPJ, HTMPS)

@[thr] theorem run_hgemmdd_230_L (A : Int) (B : Int) (I : Int) (J : Int) (LDA : Int) (LDB : Int) (L : Int) (HTMPJ : Cplx F) (HTMPS : Cplx F) :
    (Thr.hgemmdd_230_L A B I J LDA LDB L HTMPJ HTMPS (F := F)).run = Haxx.hgemmdd_230_L A B I J LDA LDB L HTMPJ HTMPS (F := F) := by
  simp only [Thr.hgemmdd_230_L, Haxx.hgemmdd_230_L, thr]

/-- As `Haxx.hgemmdd_220_I`, `src/hblas/fortran/hblas3/hgemmdd.f:385-434`, body of `DO 220 I`. -/
def hgemmdd_220_I (A : Int) (ALPHA : F) (B : Int) (BETA : F) (BZERO : Bool) (C : Int) (J : Int) (K : Int) (LDA : Int) (LDB : Int) (LDC : Int) (I : Int)  : Prog F (Unit) := do
  let HTMPS : Cplx F := (⟨zero, zero⟩ : Cplx F)
  let HTMPJ : Cplx F := (⟨zero, zero⟩ : Cplx F)
  let r ← foldN (K).toNat (fun i (s : Cplx F × Cplx F) => hgemmdd_230_L A B I J LDA LDB ((i : Int) + 1) s.1 s.2) (HTMPJ, HTMPS)
  let HTMPJ : Cplx F := r.1
  let HTMPS : Cplx F := r.2
  let _ ← (do
    if BZERO then
      wrC (el3 2 2 LDC C 1 I J) (Cplx.ofReal ALPHA *ᶜ HTMPS)
      wrC (el3 2 2 LDC C 2 I J) (Cplx.ofReal ALPHA *ᶜ HTMPJ)
      pure ()
    else
      let t1 ← rdC (el3 2 2 LDC C 1 I J)
      wrC (el3 2 2 LDC C 1 I J) (Cplx.ofReal ALPHA *ᶜ HTMPS +ᶜ Cplx.ofReal BETA *ᶜ t1)
      let t2 ← rdC (el3 2 2 LDC C 2 I J)
      wrC (el3 2 2 LDC C 2 I J) (Cplx.ofReal ALPHA *ᶜ HTMPJ +ᶜ Cplx.ofReal BETA *ᶜ t2)
      pure () : Prog F Unit)
  pure ()

@[thr] theorem run_hgemmdd_220_I (A : Int) (ALPHA : F) (B : Int) (BETA : F) (BZERO : Bool) (C : Int) (J : Int) (K : Int) (LDA : Int) (LDB : Int) (LDC : Int) (I : Int) :
    (Thr.hgemmdd_220_I A ALPHA B BETA BZERO C J K LDA LDB LDC I (F := F)).run = Haxx.hgemmdd_220_I A ALPHA B BETA BZERO C J K LDA LDB LDC I (F := F) := by
  simp only [Thr.hgemmdd_220_I, Haxx.hgemmdd_220_I, thr]

/-- As `Haxx.hgemmdd_220_J`, `src/hblas/fortran/hblas3/hgemmdd.f:384-434`, body of `DO 220 J`. -/
def hgemmdd_220_J (A : Int) (ALPHA : F) (B : Int) (BETA : F) (BZERO : Bool) (C : Int) (K : Int) (LDA : Int) (LDB : Int) (LDC : Int) (M : Int) (J : Int)  : Prog F (Unit) := do
  forN (M).toNat (fun i => hgemmdd_220_I A ALPHA B BETA BZERO C J K LDA LDB LDC ((i : Int) + 1))
  pure ()

@[thr] theorem run_hgemmdd_220_J (A : Int) (ALPHA : F) (B : Int) (BETA : F) (BZERO : Bool) (C : Int) (K : Int) (LDA : Int) (LDB : Int) (LDC : Int) (M : Int) (J : Int) :
    (Thr.hgemmdd_220_J A ALPHA B BETA BZERO C K LDA LDB LDC M J (F := F)).run = Haxx.hgemmdd_220_J A ALPHA B BETA BZERO C K LDA LDB LDC M J (F := F) := by
  simp only [Thr.hgemmdd_220_J, Haxx.hgemmdd_220_J, thr]

/-- As `Haxx.hgemmdd_250_L`, `src/hblas/fortran/hblas3/hgemmdd.f:448-468`, body of `DO 250 L`. -/
def hgemmdd_250_L (A : Int) (B : Int) (I : Int) (J : Int) (LDA : Int) (LDB : Int) (L : Int) (HTMPJ : Cplx F) (HTMPS : Cplx F) : Prog F (Cplx F × Cplx F) := do
  let t1 ← rdC (el3 2 2 LDA A 1 L I)
  let t2 ← rdC (el3 2 2 LDB B 1 J L)
  let t3 ← rdC (el3 2 2 LDA A 2 L I)
  let t4 ← rdC (el3 2 2 LDB B 2 J L)
  let HTMPS : Cplx F := HTMPS +ᶜ Cplx.conj t1 *ᶜ t2 +ᶜ t3 *ᶜ Cplx.conj t4
  let t5 ← rdC (el3 2 2 LDA A 1 L I)
  let t6 ← rdC (el3 2 2 LDB B 2 J L)
  let t7 ← rdC (el3 2 2 LDA A 2 L I)
  let t8 ← rdC (el3 2 2 LDB B 1 J L)
  let HTMPJ : Cplx F := HTMPJ +ᶜ Cplx.conj t5 *ᶜ t6 -ᶜ t7 *ᶜ Cplx.conj t8
  pure (HTMPJ, HTMPS)

@[thr] theorem run_hgemmdd_250_L (A : Int) (B : Int) (I : Int) (J : Int) (LDA : Int) (LDB : Int) (L : Int) (HTMPJ : Cplx F) (HTMPS : Cplx F) :
    (Thr.hgemmdd_250_L A B I J LDA LDB L HTMPJ HTMPS (F := F)).run = Haxx.hgemmdd_250_L A B I J LDA LDB L HTMPJ HTMPS (F := F) := by
  simp only [Thr.hgemmdd_250_L, Haxx.hgemmdd_250_L, thr]

/-- As `Haxx.hgemmdd_240_I`, `src/hblas/fortran/hblas3/hgemmdd.f:441-489`, body of `DO 240 I`. -/
def hgemmdd_240_I (A : Int) (ALPHA : F) (B : Int) (BETA : F) (BZERO : Bool) (C : Int) (J : Int) (K : Int) (LDA : Int) (LDB : Int) (LDC : Int) (I : Int)  : Prog F (Unit) := do
  let HTMPS : Cplx F := (⟨zero, zero⟩ : Cplx F)
  let HTMPJ : Cplx F := (⟨zero, zero⟩ : Cplx F)
  let r ← foldN (K).toNat (fun i (s : Cplx F × Cplx F) => hgemmdd_250_L A B I J LDA LDB ((i : Int) + 1) s.1 s.2) (HTMPJ, HTMPS)
  let HTMPJ : Cplx F := r.1
  let HTMPS : Cplx F := r.2
  let _ ← (do
    if BZERO then
      wrC (el3 2 2 LDC C 1 I J) (Cplx.ofReal ALPHA *ᶜ HTMPS)
      wrC (el3 2 2 LDC C 2 I J) (Cplx.ofReal ALPHA *ᶜ HTMPJ)
      pure ()
    else
      let t1 ← rdC (el3 2 2 LDC C 1 I J)
      wrC (el3 2 2 LDC C 1 I J) (Cplx.ofReal ALPHA *ᶜ HTMPS +ᶜ Cplx.ofReal BETA *ᶜ t1)
      let t2 ← rdC (el3 2 2 LDC C 2 I J)
      wrC (el3 2 2 LDC C 2 I J) (Cplx.ofReal ALPHA *ᶜ HTMPJ +ᶜ Cplx.ofReal BETA *ᶜ t2)
      pure () : Prog F Unit)
  pure ()

@[thr] theorem run_hgemmdd_240_I (A : Int) (ALPHA : F) (B : Int) (BETA : F) (BZERO : Bool) (C : Int) (J : Int) (K : Int) (LDA : Int) (LDB : Int) (LDC : Int) (I : Int) :
    (Thr.hgemmdd_240_I A ALPHA B BETA BZERO C J K LDA LDB LDC I (F := F)).run = Haxx.hgemmdd_240_I A ALPHA B BETA BZERO C J K LDA LDB LDC I (F := F) := by
  simp only [Thr.hgemmdd_240_I, Haxx.hgemmdd_240_I, thr]

/-- As `Haxx.hgemmdd_240_J`, `src/hblas/fortran/hblas3/hgemmdd.f:440-489`, body of `DO 240 J`. -/
def hgemmdd_240_J (A : Int) (ALPHA : F) (B : Int) (BETA : F) (BZERO : Bool) (C : Int) (K : Int) (LDA : Int) (LDB : Int) (LDC : Int) (M : Int) (J : Int)  : Prog F (Unit) := do
  forN (M).toNat (fun i => hgemmdd_240_I A ALPHA B BETA BZERO C J K LDA LDB LDC ((i : Int) + 1))
  pure ()

@[thr] theorem run_hgemmdd_240_J (A : Int) (ALPHA : F) (B : Int) (BETA : F) (BZERO : Bool) (C : Int) (K : Int) (LDA : Int) (LDB : Int) (LDC : Int) (M : Int) (J : Int) :
    (Thr.hgemmdd_240_J A ALPHA B BETA BZERO C K LDA LDB LDC M J (F := F)).run = Haxx.hgemmdd_240_J A ALPHA B BETA BZERO C K LDA LDB LDC M J (F := F) := by
  simp only [Thr.hgemmdd_240_J, Haxx.hgemmdd_240_J, thr]

/-- As `Haxx.hgemmdd_if380`, `src/hblas/fortran/hblas3/hgemmdd.f:380-490`. -/
def hgemmdd_if380 (A : Int) (ALPHA : F) (B : Int) (BETA : F) (BZERO : Bool) (C : Int) (CONJB : Bool) (K : Int) (LDA : Int) (LDB : Int) (LDC : Int) (M : Int) (N : Int) : Prog F (Unit) := do
  if CONJB then
    forN (N).toNat (fun i => hgemmdd_220_J A ALPHA B BETA BZERO C K LDA LDB LDC M ((i : Int) + 1))
    pure ()
  else
    forN (N).toNat (fun i => hgemmdd_240_J A ALPHA B BETA BZERO C K LDA LDB LDC M ((i : Int) + 1))
    pure ()

@[thr] theorem run_hgemmdd_if380 (A : Int) (ALPHA : F) (B : Int) (BETA : F) (BZERO : Bool) (C : Int) (CONJB : Bool) (K : Int) (LDA : Int) (LDB : Int) (LDC : Int) (M : Int) (N : Int) :
    (Thr.hgemmdd_if380 A ALPHA B BETA BZERO C CONJB K LDA LDB LDC M N (F := F)).run = Haxx.hgemmdd_if380 A ALPHA B BETA BZERO C CONJB K LDA LDB LDC M N (F := F) := by
  simp only [Thr.hgemmdd_if380, Haxx.hgemmdd_if380, thr]

/-- As `Haxx.hgemmdd_270_L`, `src/hblas/fortran/hblas3/hgemmdd.f:503-523`, body of `DO 270 L`. -/
def hgemmdd_270_L (A : Int) (B : Int) (I : Int) (J : Int) (LDA : Int) (LDB : Int) (L : Int) (HTMPJ : Cplx F) (HTMPS : Cplx F) : Prog F (Cplx F × Cplx F) := do
  let t1 ← rdC (el3 2 2 LDA A 1 L I)
  let t2 ← rdC (el3 2 2 LDB B 1 J L)
  let t3 ← rdC (el3 2 2 LDA A 2 L I)
  let t4 ← rdC (el3 2 2 LDB B 2 J L)
  let HTMPS : Cplx F := HTMPS +ᶜ t1 *ᶜ Cplx.conj t2 +ᶜ t3 *ᶜ Cplx.conj t4
  let t5 ← rdC (el3 2 2 LDA A 1 L I)
  let t6 ← rdC (el3 2 2 LDB B 2 J L)
  let t7 ← rdC (el3 2 2 LDA A 2 L I)
  let t8 ← rdC (el3 2 2 LDB B 1 J L)
  let HTMPJ : Cplx F := HTMPJ -ᶜ t5 *ᶜ t6 +ᶜ t7 *ᶜ t8
  pure (HTMPJ, HTMPS)

@[thr] theorem run_hgemmdd_270_L (A : Int) (B : Int) (I : Int) (J : Int) (LDA : Int) (LDB : Int) (L : Int) (HTMPJ : Cplx F) (HTMPS : Cplx F) :
    (Thr.hgemmdd_270_L A B I J LDA LDB L HTMPJ HTMPS (F := F)).run = Haxx.hgemmdd_270_L A B I J LDA LDB L HTMPJ HTMPS (F := F) := by
  simp only [Thr.hgemmdd_270_L, Haxx.hgemmdd_270_L, thr]

/-- As `Haxx.hgemmdd_260_I`, `src/hblas/fortran/hblas3/hgemmdd.f:498-544`, body of `DO 260 I`. -/
def hgemmdd_260_I (A : Int) (ALPHA : F) (B : Int) (BETA : F) (BZERO : Bool) (C : Int) (J : Int) (K : Int) (LDA : Int) (LDB : Int) (LDC : Int) (I : Int)  : Prog F (Unit) := do
  let HTMPS : Cplx F := (⟨zero, zero⟩ : Cplx F)
  -- HTMPI (line 500) is never read
  let HTMPJ : Cplx F := (⟨zero, zero⟩ : Cplx F)
  -- HTMPK (line 502) is never read
  let r ← foldN (K).toNat (fun i (s : Cplx F × Cplx F) => hgemmdd_270_L A B I J LDA LDB ((i : Int) + 1) s.1 s.2) (HTMPJ, HTMPS)
  let HTMPJ : Cplx F := r.1
  let HTMPS : Cplx F := r.2
  let _ ← (do
    if BZERO then
      wrC (el3 2 2 LDC C 1 I J) (Cplx.ofReal ALPHA *ᶜ HTMPS)
      wrC (el3 2 2 LDC C 2 I J) (Cplx.ofReal ALPHA *ᶜ HTMPJ)
      pure ()
    else
      let t1 ← rdC (el3 2 2 LDC C 1 I J)
      wrC (el3 2 2 LDC C 1 I J) (Cplx.ofReal ALPHA *ᶜ HTMPS +ᶜ Cplx.ofReal BETA *ᶜ t1)
      let t2 ← rdC (el3 2 2 LDC C 2 I J)
      wrC (el3 2 2 LDC C 2 I J) (Cplx.ofReal ALPHA *ᶜ HTMPJ +ᶜ Cplx.ofReal BETA *ᶜ t2)
      pure () : Prog F Unit)
  pure ()

@[thr] theorem run_hgemmdd_260_I (A : Int) (ALPHA : F) (B : Int) (BETA : F) (BZERO : Bool) (C : Int) (J : Int) (K : Int) (LDA : Int) (LDB : Int) (LDC : Int) (I : Int) :
    (Thr.hgemmdd_260_I A ALPHA B BETA BZERO C J K LDA LDB LDC I (F := F)).run = Haxx.hgemmdd_260_I A ALPHA B BETA BZERO C J K LDA LDB LDC I (F := F) := by
  simp only [Thr.hgemmdd_260_I, Haxx.hgemmdd_260_I, thr]

/-- As `Haxx.hgemmdd_260_J`, `src/hblas/fortran/hblas3/hgemmdd.f:497-544`, body of `DO 260 J`. -/
def hgemmdd_260_J (A : Int) (ALPHA : F) (B : Int) (BETA : F) (BZERO : Bool) (C : Int) (K : Int) (LDA : Int) (LDB : Int) (LDC : Int) (M : Int) (J : Int)  : Prog F (Unit) := do
  forN (M).toNat (fun i => hgemmdd_260_I A ALPHA B BETA BZERO C J K LDA LDB LDC ((i : Int) + 1))
  pure ()

@[thr] theorem run_hgemmdd_260_J (A : Int) (ALPHA : F) (B : Int) (BETA : F) (BZERO : Bool) (C : Int) (K : Int) (LDA : Int) (LDB : Int) (LDC : Int) (M : Int) (J : Int) :
    (Thr.hgemmdd_260_J A ALPHA B BETA BZERO C K LDA LDB LDC M J (F := F)).run = Haxx.hgemmdd_260_J A ALPHA B BETA BZERO C K LDA LDB LDC M J (F := F) := by
  simp only [Thr.hgemmdd_260_J, Haxx.hgemmdd_260_J, thr]

/-- As `Haxx.hgemmdd_290_L`, `src/hblas/fortran/hblas3/hgemmdd.f:557-577`, body of `DO 290 L`. -/
def hgemmdd_290_L (A : Int) (B : Int) (I : Int) (J : Int) (LDA : Int) (LDB : Int) (L : Int) (HTMPJ : Cplx F) (HTMPS : Cplx F) : Prog F (Cplx F × Cplx F) := do
  let t1 ← rdC (el3 2 2 LDA A 1 L I)
  let t2 ← rdC (el3 2 2 LDB B 1 J L)
  let t3 ← rdC (el3 2 2 LDA A 2 L I)
  let t4 ← rdC (el3 2 2 LDB B 2 J L)
  let HTMPS : Cplx F := HTMPS +ᶜ t1 *ᶜ t2 -ᶜ t3 *ᶜ Cplx.conj t4
  let t5 ← rdC (el3 2 2 LDA A 1 L I)
  let t6 ← rdC (el3 2 2 LDB B 2 J L)
  let t7 ← rdC (el3 2 2 LDA A 2 L I)
  let t8 ← rdC (el3 2 2 LDB B 1 J L)
  let HTMPJ : Cplx F := HTMPJ +ᶜ t5 *ᶜ t6 +ᶜ t7 *ᶜ Cplx.conj t8
  pure (HTMPJ, HTMPS)

@[thr] theorem run_hgemmdd_290_L (A : Int) (B : Int) (I : Int) (J : Int) (LDA : Int) (LDB : Int) (L : Int) (HTMPJ : Cplx F) (HTMPS : Cplx F) :
    (Thr.hgemmdd_290_L A B I J LDA LDB L HTMPJ HTMPS (F := F)).run = Haxx.hgemmdd_290_L A B I J LDA LDB L HTMPJ HTMPS (F := F) := by
  simp only [Thr.hgemmdd_290_L, Haxx.hgemmdd_290_L, thr]

/-- As `Haxx.hgemmdd_280_I`, `src/hblas/fortran/hblas3/hgemmdd.f:550-598`, body of `DO 280 I`. -/
def hgemmdd_280_I (A : Int) (ALPHA : F) (B : Int) (BETA : F) (BZERO : Bool) (C : Int) (J : Int) (K : Int) (LDA : Int) (LDB : Int) (LDC : Int) (I : Int)  : Prog F (Unit) := do
  let HTMPS : Cplx F := (⟨zero, zero⟩ : Cplx F)
  let HTMPJ : Cplx F := (⟨zero, zero⟩ : Cplx F)
  let r ← foldN (K).toNat (fun i (s : Cplx F × Cplx F) => hgemmdd_290_L A B I J LDA LDB ((i : Int) + 1) s.1 s.2) (HTMPJ, HTMPS)
  let HTMPJ : Cplx F := r.1
  let HTMPS : Cplx F := r.2
  let _ ← (do
    if BZERO then
      wrC (el3 2 2 LDC C 1 I J) (Cplx.ofReal ALPHA *ᶜ HTMPS)
      wrC (el3 2 2 LDC C 2 I J) (Cplx.ofReal ALPHA *ᶜ HTMPJ)
      pure ()
    else
      let t1 ← rdC (el3 2 2 LDC C 1 I J)
      wrC (el3 2 2 LDC C 1 I J) (Cplx.ofReal ALPHA *ᶜ HTMPS +ᶜ Cplx.ofReal BETA *ᶜ t1)
      let t2 ← rdC (el3 2 2 LDC C 2 I J)
      wrC (el3 2 2 LDC C 2 I J) (Cplx.ofReal ALPHA *ᶜ HTMPJ +ᶜ Cplx.ofReal BETA *ᶜ t2)
      pure () : Prog F Unit)
  pure ()

@[thr] theorem run_hgemmdd_280_I (A : Int) (ALPHA : F) (B : Int) (BETA : F) (BZERO : Bool) (C : Int) (J : Int) (K : Int) (LDA : Int) (LDB : Int) (LDC : Int) (I : Int) :
    (Thr.hgemmdd_280_I A ALPHA B BETA BZERO C J K LDA LDB LDC I (F := F)).run = Haxx.hgemmdd_280_I A ALPHA B BETA BZERO C J K LDA LDB LDC I (F := F) := by
  simp only [Thr.hgemmdd_280_I, Haxx.hgemmdd_280_I, thr]

/-- As `Haxx.hgemmdd_280_J`, `src/hblas/fortran/hblas3/hgemmdd.f:549-598`, body of `DO 280 J`. -/
def hgemmdd_280_J (A : Int) (ALPHA : F) (B : Int) (BETA : F) (BZERO : Bool) (C : Int) (K : Int) (LDA : Int) (LDB : Int) (LDC : Int) (M : Int) (J : Int)  : Prog F (Unit) := do
  forN (M).toNat (fun i => hgemmdd_280_I A ALPHA B BETA BZERO C J K LDA LDB LDC ((i : Int) + 1))
  pure ()

@[thr] theorem run_hgemmdd_280_J (A : Int) (ALPHA : F) (B : Int) (BETA : F) (BZERO : Bool) (C : Int) (K : Int) (LDA : Int) (LDB : Int) (LDC : Int) (M : Int) (J : Int) :
    (Thr.hgemmdd_280_J A ALPHA B BETA BZERO C K LDA LDB LDC M J (F := F)).run = Haxx.hgemmdd_280_J A ALPHA B BETA BZERO C K LDA LDB LDC M J (F := F) := by
  simp only [Thr.hgemmdd_280_J, Haxx.hgemmdd_280_J, thr]

/-- As `Haxx.hgemmdd_if493`, `src/hblas/fortran/hblas3/hgemmdd.f:493-599`. -/
def hgemmdd_if493 (A : Int) (ALPHA : F) (B : Int) (BETA : F) (BZERO : Bool) (C : Int) (CONJB : Bool) (K : Int) (LDA : Int) (LDB : Int) (LDC : Int) (M : Int) (N : Int) : Prog F (Unit) := do
  if CONJB then
    forN (N).toNat (fun i => hgemmdd_260_J A ALPHA B BETA BZERO C K LDA LDB LDC M ((i : Int) + 1))
    pure ()
  else
    forN (N).toNat (fun i => hgemmdd_280_J A ALPHA B BETA BZERO C K LDA LDB LDC M ((i : Int) + 1))
    pure ()

@[thr] theorem run_hgemmdd_if493 (A : Int) (ALPHA : F) (B : Int) (BETA : F) (BZERO : Bool) (C : Int) (CONJB : Bool) (K : Int) (LDA : Int) (LDB : Int) (LDC : Int) (M : Int) (N : Int) :
    (Thr.hgemmdd_if493 A ALPHA B BETA BZERO C CONJB K LDA LDB LDC M N (F := F)).run = Haxx.hgemmdd_if493 A ALPHA B BETA BZERO C CONJB K LDA LDB LDC M N (F := F) := by
  simp only [Thr.hgemmdd_if493, Haxx.hgemmdd_if493, thr]

/-- As `Haxx.hgemmdd_if81`, `src/hblas/fortran/hblas3/hgemmdd.f:81-600`. -/
def hgemmdd_if81 (A : Int) (ALPHA : F) (B : Int) (BETA : F) (BONE : Bool) (BZERO : Bool) (C : Int) (CONJA : Bool) (CONJB : Bool) (K : Int) (LDA : Int) (LDB : Int) (LDC : Int) (M : Int) (N : Int) (NOTA : Bool) (NOTB : Bool) : Prog F (Unit) := do
  if NOTB then
    hgemmdd_if82 A ALPHA B BETA BONE BZERO C CONJA K LDA LDB LDC M N NOTA
    pure ()
  else if NOTA then
    hgemmdd_if254 A ALPHA B BETA BONE BZERO C CONJB K LDA LDB LDC M N
    pure ()
  else if CONJA then
    hgemmdd_if380 A ALPHA B BETA BZERO C CONJB K LDA LDB LDC M N
    pure ()
  else
    hgemmdd_if493 A ALPHA B BETA BZERO C CONJB K LDA LDB LDC M N
    pure ()

@[thr] theorem run_hgemmdd_if81 (A : Int) (ALPHA : F) (B : Int) (BETA : F) (BONE : Bool) (BZERO : Bool) (C : Int) (CONJA : Bool) (CONJB : Bool) (K : Int) (LDA : Int) (LDB : Int) (LDC : Int) (M : Int) (N : Int) (NOTA : Bool) (NOTB : Bool) :
    (Thr.hgemmdd_if81 A ALPHA B BETA BONE BZERO C CONJA CONJB K LDA LDB LDC M N NOTA NOTB (F := F)).run = Haxx.hgemmdd_if81 A ALPHA B BETA BONE BZERO C CONJA CONJB K LDA LDB LDC M N NOTA NOTB (F := F) := by
  simp only [Thr.hgemmdd_if81, Haxx.hgemmdd_if81, thr]

/-- As `Haxx.hgemmdd`, `src/hblas/fortran/hblas3/hgemmdd.f:10-601`. -/
def hgemmdd (TRANSA : Char) (TRANSB : Char) (M : Int) (N : Int) (K : Int) (ALPHA : F) (A : Int) (LDA : Int) (B : Int) (LDB : Int) (BETA : F) (C : Int) (LDC : Int) : Prog F (Unit) := do
  let NOTA : Bool := lsame TRANSA 'N'
  let NOTB : Bool := lsame TRANSB 'N'
  let CONJA : Bool := lsame TRANSA 'C'
  let CONJB : Bool := lsame TRANSB 'C'
  let AZERO : Bool := Cplx.feq (Cplx.ofReal ALPHA) (⟨zero, zero⟩ : Cplx F)
  -- AONE (line 43) is never read
  let BZERO : Bool := Cplx.feq (Cplx.ofReal BETA) (⟨zero, zero⟩ : Cplx F)
  let BONE : Bool := Cplx.feq (Cplx.ofReal BETA) (⟨one, zero⟩ : Cplx F)
  if (decide (M = 0)) || (decide (N = 0)) then
    pure ()
  else
    if (AZERO || (decide (K = 0))) && BONE then
      pure ()
    else
      if AZERO then
        hgemmdd_if57 BETA BZERO C LDC M N
        pure ()
      else
        hgemmdd_if81 A ALPHA B BETA BONE BZERO C CONJA CONJB K LDA LDB LDC M N NOTA NOTB
        pure ()

@[thr] theorem run_hgemmdd (TRANSA : Char) (TRANSB : Char) (M : Int) (N : Int) (K : Int) (ALPHA : F) (A : Int) (LDA : Int) (B : Int) (LDB : Int) (BETA : F) (C : Int) (LDC : Int) :
    (Thr.hgemmdd TRANSA TRANSB M N K ALPHA A LDA B LDB BETA C LDC (F := F)).run = Haxx.hgemmdd TRANSA TRANSB M N K ALPHA A LDA B LDB BETA C LDC (F := F) := by
  simp only [Thr.hgemmdd, Haxx.hgemmdd, thr]

-- end of FGemmdd

variable {F : Type} [Arith F] [ArithEq F]
/-- As `Haxx.hgemmdz_10_I`, `src/hblas/fortran/hblas3/hgemmdz.f:64-71`, body of `DO 10 I`. -/
def hgemmdz_10_I (C : Int) (J : Int) (LDC : Int) (I : Int)  : Prog F (Unit) := do
  wrC (el3 2 2 LDC C 1 I J) (⟨zero, zero⟩ : Cplx F)
  wrC (el3 2 2 LDC C 2 I J) (⟨zero, zero⟩ : Cplx F)
  pure ()

@[thr] theorem run_hgemmdz_10_I (C : Int) (J : Int) (LDC : Int) (I : Int) :
    (Thr.hgemmdz_10_I C J LDC I (F := F)).run = Haxx.hgemmdz_10_I C J LDC I (F := F) := by
  simp only [Thr.hgemmdz_10_I, Haxx.hgemmdz_10_I, thr]

/-- As `Haxx.hgemmdz_10_J`, `src/hblas/fortran/hblas3/hgemmdz.f:63-71`, body of `DO 10 J`. -/
def hgemmdz_10_J (C : Int) (LDC : Int) (M : Int) (J : Int)  : Prog F (Unit) := do
  forN (M).toNat (fun i => hgemmdz_10_I C J LDC ((i : Int) + 1))
  pure ()

@[thr] theorem run_hgemmdz_10_J (C : Int) (LDC : Int) (M : Int) (J : Int) :
    (Thr.hgemmdz_10_J C LDC M J (F := F)).run = Haxx.hgemmdz_10_J C LDC M J (F := F) := by
  simp only [Thr.hgemmdz_10_J, Haxx.hgemmdz_10_J, thr]

/-- As `Haxx.hgemmdz_20_I`, `src/hblas/fortran/hblas3/hgemmdz.f:74-95`, body of `DO 20 I`. -/
def hgemmdz_20_I (BETA : Cplx F) (C : Int) (J : Int) (LDC : Int) (I : Int)  : Prog F (Unit) := do
  let t1 ← rdC (el3 2 2 LDC C 1 I J)
  wrC (el3 2 2 LDC C 1 I J) (BETA *ᶜ t1)
  let t2 ← rdC (el3 2 2 LDC C 2 I J)
  wrC (el3 2 2 LDC C 2 I J) (BETA *ᶜ t2)
  pure ()

@[thr] theorem run_hgemmdz_20_I (BETA : Cplx F) (C : Int) (J : Int) (LDC : Int) (I : Int) :
    (Thr.hgemmdz_20_I BETA C J LDC I (F := F)).run = Haxx.hgemmdz_20_I BETA C J LDC I (F := F) := by
  simp only [Thr.hgemmdz_20_I, Haxx.hgemmdz_20_I, thr]

/-- As `Haxx.hgemmdz_20_J`, `src/hblas/fortran/hblas3/hgemmdz.f:73-95`, body of `DO 20 J`. -/
def hgemmdz_20_J (BETA : Cplx F) (C : Int) (LDC : Int) (M : Int) (J : Int)  : Prog F (Unit) := do
  forN (M).toNat (fun i => hgemmdz_20_I BETA C J LDC ((i : Int) + 1))
  pure ()

@[thr] theorem run_hgemmdz_20_J (BETA : Cplx F) (C : Int) (LDC : Int) (M : Int) (J : Int) :
    (Thr.hgemmdz_20_J BETA C LDC M J (F := F)).run = Haxx.hgemmdz_20_J BETA C LDC M J (F := F) := by
  simp only [Thr.hgemmdz_20_J, Haxx.hgemmdz_20_J, thr]

/-- As `Haxx.hgemmdz_if62`, `src/hblas/fortran/hblas3/hgemmdz.f:62-96`. -/
def hgemmdz_if62 (BETA : Cplx F) (BZERO : Bool) (C : Int) (LDC : Int) (M : Int) (N : Int) : Prog F (Unit) := do
  if BZERO then
    forN (N).toNat (fun i => hgemmdz_10_J C LDC M ((i : Int) + 1))
    pure ()
  else
    forN (N).toNat (fun i => hgemmdz_20_J BETA C LDC M ((i : Int) + 1))
    pure ()

@[thr] theorem run_hgemmdz_if62 (BETA : Cplx F) (BZERO : Bool) (C : Int) (LDC : Int) (M : Int) (N : Int) :
    (Thr.hgemmdz_if62 BETA BZERO C LDC M N (F := F)).run = Haxx.hgemmdz_if62 BETA BZERO C LDC M N (F := F) := by
  simp only [Thr.hgemmdz_if62, Haxx.hgemmdz_if62, thr]

/-- As `Haxx.hgemmdz_40_I`, `src/hblas/fortran/hblas3/hgemmdz.f:107-114`, body of `DO 40 I`. -/
def hgemmdz_40_I (C : Int) (J : Int) (LDC : Int) (I : Int)  : Prog F (Unit) := do
  wrC (el3 2 2 LDC C 1 I J) (⟨zero, zero⟩ : Cplx F)
  wrC (el3 2 2 LDC C 2 I J) (⟨zero, zero⟩ : Cplx F)
  pure ()

@[thr] theorem run_hgemmdz_40_I (C : Int) (J : Int) (LDC : Int) (I : Int) :
    (Thr.hgemmdz_40_I C J LDC I (F := F)).run = Haxx.hgemmdz_40_I C J LDC I (F := F) := by
  simp only [Thr.hgemmdz_40_I, Haxx.hgemmdz_40_I, thr]

/-- As `Haxx.hgemmdz_50_I`, `src/hblas/fortran/hblas3/hgemmdz.f:116-137`, body of `DO 50 I`. -/
def hgemmdz_50_I (BETA : Cplx F) (C : Int) (J : Int) (LDC : Int) (I : Int)  : Prog F (Unit) := do
  let t1 ← rdC (el3 2 2 LDC C 1 I J)
  wrC (el3 2 2 LDC C 1 I J) (BETA *ᶜ t1)
  let t2 ← rdC (el3 2 2 LDC C 2 I J)
  wrC (el3 2 2 LDC C 2 I J) (BETA *ᶜ t2)
  pure ()

@[thr] theorem run_hgemmdz_50_I (BETA : Cplx F) (C : Int) (J : Int) (LDC : Int) (I : Int) :
    (Thr.hgemmdz_50_I BETA C J LDC I (F := F)).run = Haxx.hgemmdz_50_I BETA C J LDC I (F := F) := by
  simp only [Thr.hgemmdz_50_I, Haxx.hgemmdz_50_I, thr]

/-- As `Haxx.hgemmdz_if106`, `src/hblas/fortran/hblas3/hgemmdz.f:106-138`. -/
def hgemmdz_if106 (BETA : Cplx F) (BONE : Bool) (BZERO : Bool) (C : Int) (J : Int) (LDC : Int) (M : Int) : Prog F (Unit) := do
  if BZERO then
    forN (M).toNat (fun i => hgemmdz_40_I C J LDC ((i : Int) + 1))
    pure ()
  else if !BONE then
    forN (M).toNat (fun i => hgemmdz_50_I BETA C J LDC ((i : Int) + 1))
    pure ()
  else
    pure ()

@[thr] theorem run_hgemmdz_if106 (BETA : Cplx F) (BONE : Bool) (BZERO : Bool) (C : Int) (J : Int) (LDC : Int) (M : Int) :
    (Thr.hgemmdz_if106 BETA BONE BZERO C J LDC M (F := F)).run = Haxx.hgemmdz_if106 BETA BONE BZERO C J LDC M (F := F) := by
  simp only [Thr.hgemmdz_if106, Haxx.hgemmdz_if106, thr]

/-- As `Haxx.hgemmdz_70_I`, `src/hblas/fortran/hblas3/hgemmdz.f:149-173`, body of `DO 70 I`. -/
def hgemmdz_70_I (A : Int) (C : Int) (HTMPJ : Cplx F) (HTMPS : Cplx F) (J : Int) (L : Int) (LDA : Int) (LDC : Int) (I : Int)  : Prog F (Unit) := do
  let t1 ← rdC (el3 2 2 LDC C 1 I J)
  let t2 ← rdC (el3 2 2 LDA A 1 I L)
  let t3 ← rdC (el3 2 2 LDA A 2 I L)
  wrC (el3 2 2 LDC C 1 I J) (t1 +ᶜ t2 *ᶜ HTMPS -ᶜ t3 *ᶜ Cplx.conj HTMPJ)
  let t4 ← rdC (el3 2 2 LDC C 2 I J)
  let t5 ← rdC (el3 2 2 LDA A 1 I L)
  let t6 ← rdC (el3 2 2 LDA A 2 I L)
  wrC (el3 2 2 LDC C 2 I J) (t4 +ᶜ t5 *ᶜ HTMPJ +ᶜ t6 *ᶜ Cplx.conj HTMPS)
  pure ()

@[thr] theorem run_hgemmdz_70_I (A : Int) (C : Int) (HTMPJ : Cplx F) (HTMPS : Cplx F) (J : Int) (L : Int) (LDA : Int) (LDC : Int) (I : Int) :
    (Thr.hgemmdz_70_I A C HTMPJ HTMPS J L LDA LDC I (F := F)).run = Haxx.hgemmdz_70_I A C HTMPJ HTMPS J L LDA LDC I (F := F) := by
  simp only [Thr.hgemmdz_70_I, Haxx.hgemmdz_70_I, thr]

/-- As `Haxx.hgemmdz_60_L`, `src/hblas/fortran/hblas3/hgemmdz.f:140-174`, body of `DO 60 L`. -/
def hgemmdz_60_L (A : Int) (ALPHA : F) (B : Int) (C : Int) (J : Int) (LDA : Int) (LDB : Int) (LDC : Int) (M : Int) (L : Int)  : Prog F (Unit) := do
  let t1 ← rdC (el3 2 2 LDB B 1 L J)
  let HTMPS : Cplx F := Cplx.ofReal ALPHA *ᶜ t1
  let t2 ← rdC (el3 2 2 LDB B 2 L J)
  let HTMPJ : Cplx F := Cplx.ofReal ALPHA *ᶜ t2
  forN (M).toNat (fun i => hgemmdz_70_I A C HTMPJ HTMPS J L LDA LDC ((i : Int) + 1))
  pure ()

@[thr] theorem run_hgemmdz_60_L (A : Int) (ALPHA : F) (B : Int) (C : Int) (J : Int) (LDA : Int) (LDB : Int) (LDC : Int) (M : Int) (L : Int) :
    (Thr.hgemmdz_60_L A ALPHA B C J LDA LDB LDC M L (F := F)).run = Haxx.hgemmdz_60_L A ALPHA B C J LDA LDB LDC M L (F := F) := by
  simp only [Thr.hgemmdz_60_L, Haxx.hgemmdz_60_L, thr]

/-- As `Haxx.hgemmdz_30_J`, `src/hblas/fortran/hblas3/hgemmdz.f:105-175`, body of `DO 30 J`. -/
def hgemmdz_30_J (A : Int) (ALPHA : F) (B : Int) (BETA : Cplx F) (BONE : Bool) (BZERO : Bool) (C : Int) (K : Int) (LDA : Int) (LDB : Int) (LDC : Int) (M : Int) (J : Int)  : Prog F (Unit) := do
  hgemmdz_if106 BETA BONE BZERO C J LDC M
  forN (K).toNat (fun i => hgemmdz_60_L A ALPHA B C J LDA LDB LDC M ((i : Int) + 1))
  pure ()

@[thr] theorem run_hgemmdz_30_J (A : Int) (ALPHA : F) (B : Int) (BETA : Cplx F) (BONE : Bool) (BZERO : Bool) (C : Int) (K : Int) (LDA : Int) (LDB : Int) (LDC : Int) (M : Int) (J : Int) :
    (Thr.hgemmdz_30_J A ALPHA B BETA BONE BZERO C K LDA LDB LDC M J (F := F)).run = Haxx.hgemmdz_30_J A ALPHA B BETA BONE BZERO C K LDA LDB LDC M J (F := F) := by
  simp only [Thr.hgemmdz_30_J, Haxx.hgemmdz_30_J, thr]

/-- As `Haxx.hgemmdz_90_L`, `src/hblas/fortran/hblas3/hgemmdz.f:188-208`, body of `DO 90 L`. -/
def hgemmdz_90_L (A : Int) (B : Int) (I : Int) (J : Int) (LDA : Int) (LDB : Int) (L : Int) (HTMPJ : Cplx F) (HTMPS : Cplx F) : Prog F (Cplx F × Cplx F) := do
  let t1 ← rdC (el3 2 2 LDA A 1 L I)
  let t2 ← rdC (el3 2 2 LDB B 1 L J)
  let t3 ← rdC (el3 2 2 LDA A 2 L I)
  let t4 ← rdC (el3 2 2 LDB B 2 L J)
  let HTMPS : Cplx F := HTMPS +ᶜ Cplx.conj t1 *ᶜ t2 +ᶜ t3 *ᶜ Cplx.conj t4
  let t5 ← rdC (el3 2 2 LDA A 1 L I)
  let t6 ← rdC (el3 2 2 LDB B 2 L J)
  let t7 ← rdC (el3 2 2 LDA A 2 L I)
  let t8 ← rdC (el3 2 2 LDB B 1 L J)
  let HTMPJ : Cplx F := HTMPJ +ᶜ Cplx.conj t5 *ᶜ t6 -ᶜ t7 *ᶜ Cplx.conj t8
  pure (HTMPJ, HTMPS)

@[thr] theorem run_hgemmdz_90_L (A : Int) (B : Int) (I : Int) (J : Int) (LDA : Int) (LDB : Int) (L : Int) (HTMPJ : Cplx F) (HTMPS : Cplx F) :
    (Thr.hgemmdz_90_L A B I J LDA LDB L HTMPJ HTMPS (F := F)).run = Haxx.hgemmdz_90_L A B I J LDA LDB L HTMPJ HTMPS (F := F) := by
  simp only [Thr.hgemmdz_90_L, Haxx.hgemmdz_90_L, thr]

/-- As `Haxx.hgemmdz_80_I`, `src/hblas/fortran/hblas3/hgemmdz.f:181-241`, body of `DO 80 I`. -/
def hgemmdz_80_I (A : Int) (ALPHA : F) (B : Int) (BETA : Cplx F) (BZERO : Bool) (C : Int) (J : Int) (K : Int) (LDA : Int) (LDB : Int) (LDC : Int) (I : Int)  : Prog F (Unit) := do
  let HTMPS : Cplx F := (⟨zero, zero⟩ : Cplx F)
  let HTMPJ : Cplx F := (⟨zero, zero⟩ : Cplx F)
  let r ← foldN (K).toNat (fun i (s : Cplx F × Cplx F) => hgemmdz_90_L A B I J LDA LDB ((i : Int) + 1) s.1 s.2) (HTMPJ, HTMPS)
  let HTMPJ : Cplx F := r.1
  let HTMPS : Cplx F := r.2
  let _ ← (do
    if BZERO then
      wrC (el3 2 2 LDC C 1 I J) (Cplx.ofReal ALPHA *ᶜ HTMPS)
      wrC (el3 2 2 LDC C 2 I J) (Cplx.ofReal ALPHA *ᶜ HTMPJ)
      pure ()
    else
      let t1 ← rdC (el3 2 2 LDC C 1 I J)
      wrC (el3 2 2 LDC C 1 I J) (Cplx.ofReal ALPHA *ᶜ HTMPS +ᶜ BETA *ᶜ t1)
      let t2 ← rdC (el3 2 2 LDC C 2 I J)
      wrC (el3 2 2 LDC C 2 I J) (Cplx.ofReal ALPHA *ᶜ HTMPJ +ᶜ BETA *ᶜ t2)
      pure () : Prog F Unit)
  pure ()

@[thr] theorem run_hgemmdz_80_I (A : Int) (ALPHA : F) (B : Int) (BETA : Cplx F) (BZERO : Bool) (C : Int) (J : Int) (K : Int) (LDA : Int) (LDB : Int) (LDC : Int) (I : Int) :
    (Thr.hgemmdz_80_I A ALPHA B BETA BZERO C J K LDA LDB LDC I (F := F)).run = Haxx.hgemmdz_80_I A ALPHA B BETA BZERO C J K LDA LDB LDC I (F := F) := by
  simp only [Thr.hgemmdz_80_I, Haxx.hgemmdz_80_I, thr]

/-- As `Haxx.hgemmdz_80_J`, `src/hblas/fortran/hblas3/hgemmdz.f:180-241`, body of `DO 80 J`. -/
def hgemmdz_80_J (A : Int) (ALPHA : F) (B : Int) (BETA : Cplx F) (BZERO : Bool) (C : Int) (K : Int) (LDA : Int) (LDB : Int) (LDC : Int) (M : Int) (J : Int)  : Prog F (Unit) := do
  forN (M).toNat (fun i => hgemmdz_80_I A ALPHA B BETA BZERO C J K LDA LDB LDC ((i : Int) + 1))
  pure ()

@[thr] theorem run_hgemmdz_80_J (A : Int) (ALPHA : F) (B : Int) (BETA : Cplx F) (BZERO : Bool) (C : Int) (K : Int) (LDA : Int) (LDB : Int) (LDC : Int) (M : Int) (J : Int) :
    (Thr.hgemmdz_80_J A ALPHA B BETA BZERO C K LDA LDB LDC M J (F := F)).run = Haxx.hgemmdz_80_J A ALPHA B BETA BZERO C K LDA LDB LDC M J (F := F) := by
  simp only [Thr.hgemmdz_80_J, Haxx.hgemmdz_80_J, thr]

/-- As `Haxx.hgemmdz_110_L`, `src/hblas/fortran/hblas3/hgemmdz.f:255-275`, body of `DO 110 L`. -/
def hgemmdz_110_L (A : Int) (B : Int) (I : Int) (J : Int) (LDA : Int) (LDB : Int) (L : Int) (HTMPJ : Cplx F) (HTMPS : Cplx F) : Prog F (Cplx F × Cplx F) := do
  let t1 ← rdC (el3 2 2 LDA A 1 L I)
  let t2 ← rdC (el3 2 2 LDB B 1 L J)
  let t3 ← rdC (el3 2 2 LDA A 2 L I)
  let t4 ← rdC (el3 2 2 LDB B 2 L J)
  let HTMPS : Cplx F := HTMPS +ᶜ t1 *ᶜ t2 -ᶜ t3 *ᶜ Cplx.conj t4
  let t5 ← rdC (el3 2 2 LDA A 1 L I)
  let t6 ← rdC (el3 2 2 LDB B 2 L J)
  let t7 ← rdC (el3 2 2 LDA A 2 L I)
  let t8 ← rdC (el3 2 2 LDB B 1 L J)
  let HTMPJ : Cplx F := HTMPJ +ᶜ t5 *ᶜ t6 +ᶜ t7 *ᶜ Cplx.conj t8
  pure (HTMPJ, HTMPS)

@[thr] theorem run_hgemmdz_110_L (A : Int) (B : Int) (I : Int) (J : Int) (LDA : Int) (LDB : Int) (L : Int) (HTMPJ : Cplx F) (HTMPS : Cplx F) :
    (Thr.hgemmdz_110_L A B I J LDA LDB L HTMPJ HTMPS (F := F)).run = Haxx.hgemmdz_110_L A B I J LDA LDB L HTMPJ HTMPS (F := F) := by
  simp only [Thr.hgemmdz_110_L, Haxx.hgemmdz_110_L, thr]

/-- As `Haxx.hgemmdz_100_I`, `src/hblas/fortran/hblas3/hgemmdz.f:248-308`, body of `DO 100 I`. -/
def hgemmdz_100_I (A : Int) (ALPHA : F) (B : Int) (BETA : Cplx F) (BZERO : Bool) (C : Int) (J : Int) (K : Int) (LDA : Int) (LDB : Int) (LDC : Int) (I : Int)  : Prog F (Unit) := do
  let HTMPS : Cplx F := (⟨zero, zero⟩ : Cplx F)
  let HTMPJ : Cplx F := (⟨zero, zero⟩ : Cplx F)
  let r ← foldN (K).toNat (fun i (s : Cplx F × Cplx F) => hgemmdz_110_L A B I J LDA LDB ((i : Int) + 1) s.1 s.2) (HTMPJ, HTMPS)
  let HTMPJ : Cplx F := r.1
  let HTMPS : Cplx F := r.2
  let _ ← (do
    if BZERO then
      wrC (el3 2 2 LDC C 1 I J) (Cplx.ofReal ALPHA *ᶜ HTMPS)
      wrC (el3 2 2 LDC C 2 I J) (Cplx.ofReal ALPHA *ᶜ HTMPJ)
      pure ()
    else
      let t1 ← rdC (el3 2 2 LDC C 1 I J)
      wrC (el3 2 2 LDC C 1 I J) (Cplx.ofReal ALPHA *ᶜ HTMPS +ᶜ BETA *ᶜ t1)
      let t2 ← rdC (el3 2 2 LDC C 2 I J)
      wrC (el3 2 2 LDC C 2 I J) (Cplx.ofReal ALPHA *ᶜ HTMPJ +ᶜ BETA *ᶜ t2)
      pure () : Prog F Unit)
  pure ()

@[thr] theorem run_hgemmdz_100_I (A : Int) (ALPHA : F) (B : Int) (BETA : Cplx F) (BZERO : Bool) (C : Int) (J : Int) (K : Int) (LDA : Int) (LDB : Int) (LDC : Int) (I : Int) :
    (Thr.hgemmdz_100_I A ALPHA B BETA BZERO C J K LDA LDB LDC I (F := F)).run = Haxx.hgemmdz_100_I A ALPHA B BETA BZERO C J K LDA LDB LDC I (F := F) := by
  simp only [Thr.hgemmdz_100_I, Haxx.hgemmdz_100_I, thr]

/-- As `Haxx.hgemmdz_100_J`, `src/hblas/fortran/hblas3/hgemmdz.f:247-308`, body of `DO 100 J`. -/
def hgemmdz_100_J (A : Int) (ALPHA : F) (B : Int) (BETA : Cplx F) (BZERO : Bool) (C : Int) (K : Int) (LDA : Int) (LDB : Int) (LDC : Int) (M : Int) (J : Int)  : Prog F (Unit) := do
  forN (M).toNat (fun i => hgemmdz_100_I A ALPHA B BETA BZERO C J K LDA LDB LDC ((i : Int) + 1))
  pure ()

@[thr] theorem run_hgemmdz_100_J (A : Int) (ALPHA : F) (B : Int) (BETA : Cplx F) (BZERO : Bool) (C : Int) (K : Int) (LDA : Int) (LDB : Int) (LDC : Int) (M : Int) (J : Int) :
    (Thr.hgemmdz_100_J A ALPHA B BETA BZERO C K LDA LDB LDC M J (F := F)).run = Haxx.hgemmdz_100_J A ALPHA B BETA BZERO C K LDA LDB LDC M J (F := F) := by
  simp only [Thr.hgemmdz_100_J, Haxx.hgemmdz_100_J, thr]

/-- As `Haxx.hgemmdz_if101`, `src/hblas/fortran/hblas3/hgemmdz.f:101-309`. -/
def hgemmdz_if101 (A : Int) (ALPHA : F) (B : Int) (BETA : Cplx F) (BONE : Bool) (BZERO : Bool) (C : Int) (CONJA : Bool) (K : Int) (LDA : Int) (LDB : Int) (LDC : Int) (M : Int) (N : Int) (NOTA : Bool) : Prog F (Unit) := do
  if NOTA then
    forN (N).toNat (fun i => hgemmdz_30_J A ALPHA B BETA BONE BZERO C K LDA LDB LDC M ((i : Int) + 1))
    pure ()
  else if CONJA then
    forN (N).toNat (fun i => hgemmdz_80_J A ALPHA B BETA BZERO C K LDA LDB LDC M ((i : Int) + 1))
    pure ()
  else
    forN (N).toNat (fun i => hgemmdz_100_J A ALPHA B BETA BZERO C K LDA LDB LDC M ((i : Int) + 1))
    pure ()

@[thr] theorem run_hgemmdz_if101 (A : Int) (ALPHA : F) (B : Int) (BETA : Cplx F) (BONE : Bool) (BZERO : Bool) (C : Int) (CONJA : Bool) (K : Int) (LDA : Int) (LDB : Int) (LDC : Int) (M : Int) (N : Int) (NOTA : Bool) :
    (Thr.hgemmdz_if101 A ALPHA B BETA BONE BZERO C CONJA K LDA LDB LDC M N NOTA (F := F)).run = Haxx.hgemmdz_if101 A ALPHA B BETA BONE BZERO C CONJA K LDA LDB LDC M N NOTA (F := F) := by
  simp only [Thr.hgemmdz_if101, Haxx.hgemmdz_if101, thr]

/-- As `Haxx.hgemmdz_130_I`, `src/hblas/fortran/hblas3/hgemmdz.f:317-324`, body of `DO 130 I`. -/
def hgemmdz_130_I (C : Int) (J : Int) (LDC : Int) (I : Int)  : Prog F (Unit) := do
  wrC (el3 2 2 LDC C 1 I J) (⟨zero, zero⟩ : Cplx F)
  wrC (el3 2 2 LDC C 2 I J) (⟨zero, zero⟩ : Cplx F)
  pure ()

@[thr] theorem run_hgemmdz_130_I (C : Int) (J : Int) (LDC : Int) (I : Int) :
    (Thr.hgemmdz_130_I C J LDC I (F := F)).run = Haxx.hgemmdz_130_I C J LDC I (F := F) := by
  simp only [Thr.hgemmdz_130_I, Haxx.hgemmdz_130_I, thr]

/-- As `Haxx.hgemmdz_140_I`, `src/hblas/fortran/hblas3/hgemmdz.f:326-347`, body of `DO 140 I`. -/
def hgemmdz_140_I (BETA : Cplx F) (C : Int) (J : Int) (LDC : Int) (I : Int)  : Prog F (Unit) := do
  let t1 ← rdC (el3 2 2 LDC C 1 I J)
  wrC (el3 2 2 LDC C 1 I J) (BETA *ᶜ t1)
  let t2 ← rdC (el3 2 2 LDC C 2 I J)
  wrC (el3 2 2 LDC C 2 I J) (BETA *ᶜ t2)
  pure ()

@[thr] theorem run_hgemmdz_140_I (BETA : Cplx F) (C : Int) (J : Int) (LDC : Int) (I : Int) :
    (Thr.hgemmdz_140_I BETA C J LDC I (F := F)).run = Haxx.hgemmdz_140_I BETA C J LDC I (F := F) := by
  simp only [Thr.hgemmdz_140_I, Haxx.hgemmdz_140_I, thr]

/-- As `Haxx.hgemmdz_if316`, `src/hblas/fortran/hblas3/hgemmdz.f:316-348`. -/
def hgemmdz_if316 (BETA : Cplx F) (BONE : Bool) (BZERO : Bool) (C : Int) (J : Int) (LDC : Int) (M : Int) : Prog F (Unit) := do
  if BZERO then
    forN (M).toNat (fun i => hgemmdz_130_I C J LDC ((i : Int) + 1))
    pure ()
  else if !BONE then
    forN (M).toNat (fun i => hgemmdz_140_I BETA C J LDC ((i : Int) + 1))
    pure ()
  else
    pure ()

@[thr] theorem run_hgemmdz_if316 (BETA : Cplx F) (BONE : Bool) (BZERO : Bool) (C : Int) (J : Int) (LDC : Int) (M : Int) :
    (Thr.hgemmdz_if316 BETA BONE BZERO C J LDC M (F := F)).run = Haxx.hgemmdz_if316 BETA BONE BZERO C J LDC M (F := F) := by
  simp only [Thr.hgemmdz_if316, Haxx.hgemmdz_if316, thr]

/-- As `Haxx.hgemmdz_160_I`, `src/hblas/fortran/hblas3/hgemmdz.f:360-384`, body of `DO 160 I`. -/
def hgemmdz_160_I (A : Int) (C : Int) (HTMPJ : Cplx F) (HTMPS : Cplx F) (J : Int) (L : Int) (LDA : Int) (LDC : Int) (I : Int)  : Prog F (Unit) := do
  let t1 ← rdC (el3 2 2 LDC C 1 I J)
  let t2 ← rdC (el3 2 2 LDA A 1 I L)
  let t3 ← rdC (el3 2 2 LDA A 2 I L)
  wrC (el3 2 2 LDC C 1 I J) (t1 +ᶜ t2 *ᶜ HTMPS -ᶜ t3 *ᶜ Cplx.conj HTMPJ)
  let t4 ← rdC (el3 2 2 LDC C 2 I J)
  let t5 ← rdC (el3 2 2 LDA A 1 I L)
  let t6 ← rdC (el3 2 2 LDA A 2 I L)
  wrC (el3 2 2 LDC C 2 I J) (t4 +ᶜ t5 *ᶜ HTMPJ +ᶜ t6 *ᶜ Cplx.conj HTMPS)
  pure ()

@[thr] theorem run_hgemmdz_160_I (A : Int) (C : Int) (HTMPJ : Cplx F) (HTMPS : Cplx F) (J : Int) (L : Int) (LDA : Int) (LDC : Int) (I : Int) :
    (Thr.hgemmdz_160_I A C HTMPJ HTMPS J L LDA LDC I (F := F)).run = Haxx.hgemmdz_160_I A C HTMPJ HTMPS J L LDA LDC I (F := F) := by
  simp only [Thr.hgemmdz_160_I, Haxx.hgemmdz_160_I, thr]

/-- As `Haxx.hgemmdz_150_L`, `src/hblas/fortran/hblas3/hgemmdz.f:350-385`, body of `DO 150 L`. -/
def hgemmdz_150_L (A : Int) (ALPHA : F) (B : Int) (C : Int) (J : Int) (LDA : Int) (LDB : Int) (LDC : Int) (M : Int) (L : Int)  : Prog F (Unit) := do
  let t1 ← rdC (el3 2 2 LDB B 1 J L)
  let HTMPS : Cplx F := Cplx.ofReal ALPHA *ᶜ Cplx.conj t1
  let t2 ← rdC (el3 2 2 LDB B 2 J L)
  let HTMPJ : Cplx F := Cplx.neg (Cplx.ofReal ALPHA *ᶜ t2)
  forN (M).toNat (fun i => hgemmdz_160_I A C HTMPJ HTMPS J L LDA LDC ((i : Int) + 1))
  pure ()

@[thr] theorem run_hgemmdz_150_L (A : Int) (ALPHA : F) (B : Int) (C : Int) (J : Int) (LDA : Int) (LDB : Int) (LDC : Int) (M : Int) (L : Int) :
    (Thr.hgemmdz_150_L A ALPHA B C J LDA LDB LDC M L (F := F)).run = Haxx.hgemmdz_150_L A ALPHA B C J LDA LDB LDC M L (F := F) := by
  simp only [Thr.hgemmdz_150_L, Haxx.hgemmdz_150_L, thr]

/-- As `Haxx.hgemmdz_120_J`, `src/hblas/fortran/hblas3/hgemmdz.f:315-386`, body of `DO 120 J`. -/
def hgemmdz_120_J (A : Int) (ALPHA : F) (B : Int) (BETA : Cplx F) (BONE : Bool) (BZERO : Bool) (C : Int) (K : Int) (LDA : Int) (LDB : Int) (LDC : Int) (M : Int) (J : Int)  : Prog F (Unit) := do
  hgemmdz_if316 BETA BONE BZERO C J LDC M
  forN (K).toNat (fun i => hgemmdz_150_L A ALPHA B C J LDA LDB LDC M ((i : Int) + 1))
  pure ()

@[thr] theorem run_hgemmdz_120_J (A : Int) (ALPHA : F) (B : Int) (BETA : Cplx F) (BONE : Bool) (BZERO : Bool) (C : Int) (K : Int) (LDA : Int) (LDB : Int) (LDC : Int) (M : Int) (J : Int) :
    (Thr.hgemmdz_120_J A ALPHA B BETA BONE BZERO C K LDA LDB LDC M J (F := F)).run = Haxx.hgemmdz_120_J A ALPHA B BETA BONE BZERO C K LDA LDB LDC M J (F := F) := by
  simp only [Thr.hgemmdz_120_J, Haxx.hgemmdz_120_J, thr]

/-- As `Haxx.hgemmdz_180_I`, `src/hblas/fortran/hblas3/hgemmdz.f:394-401`, body of `DO 180 I`. -/
def hgemmdz_180_I (C : Int) (J : Int) (LDC : Int) (I : Int)  : Prog F (Unit) := do
  wrC (el3 2 2 LDC C 1 I J) (⟨zero, zero⟩ : Cplx F)
  wrC (el3 2 2 LDC C 2 I J) (⟨zero, zero⟩ : Cplx F)
  pure ()

@[thr] theorem run_hgemmdz_180_I (C : Int) (J : Int) (LDC : Int) (I : Int) :
    (Thr.hgemmdz_180_I C J LDC I (F := F)).run = Haxx.hgemmdz_180_I C J LDC I (F := F) := by
  simp only [Thr.hgemmdz_180_I, Haxx.hgemmdz_180_I, thr]

/-- As `Haxx.hgemmdz_190_I`, `src/hblas/fortran/hblas3/hgemmdz.f:403-424`, body of `DO 190 I`. -/
def hgemmdz_190_I (BETA : Cplx F) (C : Int) (J : Int) (LDC : Int) (I : Int)  : Prog F (Unit) := do
  let t1 ← rdC (el3 2 2 LDC C 1 I J)
  wrC (el3 2 2 LDC C 1 I J) (BETA *ᶜ t1)
  let t2 ← rdC (el3 2 2 LDC C 2 I J)
  wrC (el3 2 2 LDC C 2 I J) (BETA *ᶜ t2)
  pure ()

@[thr] theorem run_hgemmdz_190_I (BETA : Cplx F) (C : Int) (J : Int) (LDC : Int) (I : Int) :
    (Thr.hgemmdz_190_I BETA C J LDC I (F := F)).run = Haxx.hgemmdz_190_I BETA C J LDC I (F := F) := by
  simp only [Thr.hgemmdz_190_I, Haxx.hgemmdz_190_I, thr]

/-- As `Haxx.hgemmdz_if393`, `src/hblas/fortran/hblas3/hgemmdz.f:393-425`. -/
def hgemmdz_if393 (BETA : Cplx F) (BONE : Bool) (BZERO : Bool) (C : Int) (J : Int) (LDC : Int) (M : Int) : Prog F (Unit) := do
  if BZERO then
    forN (M).toNat (fun i => hgemmdz_180_I C J LDC ((i : Int) + 1))
    pure ()
  else if !BONE then
    forN (M).toNat (fun i => hgemmdz_190_I BETA C J LDC ((i : Int) + 1))
    pure ()
  else
    pure ()

@[thr] theorem run_hgemmdz_if393 (BETA : Cplx F) (BONE : Bool) (BZERO : Bool) (C : Int) (J : Int) (LDC : Int) (M : Int) :
    (Thr.hgemmdz_if393 BETA BONE BZERO C J LDC M (F := F)).run = Haxx.hgemmdz_if393 BETA BONE BZERO C J LDC M (F := F) := by
  simp only [Thr.hgemmdz_if393, Haxx.hgemmdz_if393, thr]

/-- As `Haxx.hgemmdz_210_I`, `src/hblas/fortran/hblas3/hgemmdz.f:436-460`, body of `DO 210 I`. -/
def hgemmdz_210_I (A : Int) (C : Int) (HTMPJ : Cplx F) (HTMPS : Cplx F) (J : Int) (L : Int) (LDA : Int) (LDC : Int) (I : Int)  : Prog F (Unit) := do
  let t1 ← rdC (el3 2 2 LDC C 1 I J)
  let t2 ← rdC (el3 2 2 LDA A 1 I L)
  let t3 ← rdC (el3 2 2 LDA A 2 I L)
  wrC (el3 2 2 LDC C 1 I J) (t1 +ᶜ t2 *ᶜ HTMPS -ᶜ t3 *ᶜ Cplx.conj HTMPJ)
  let t4 ← rdC (el3 2 2 LDC C 2 I J)
  let t5 ← rdC (el3 2 2 LDA A 1 I L)
  let t6 ← rdC (el3 2 2 LDA A 2 I L)
  wrC (el3 2 2 LDC C 2 I J) (t4 +ᶜ t5 *ᶜ HTMPJ +ᶜ t6 *ᶜ Cplx.conj HTMPS)
  pure ()

@[thr] theorem run_hgemmdz_210_I (A : Int) (C : Int) (HTMPJ : Cplx F) (HTMPS : Cplx F) (J : Int) (L : Int) (LDA : Int) (LDC : Int) (I : Int) :
    (Thr.hgemmdz_210_I A C HTMPJ HTMPS J L LDA LDC I (F := F)).run = Haxx.hgemmdz_210_I A C HTMPJ HTMPS J L LDA LDC I (F := F) := by
  simp only [Thr.hgemmdz_210_I, Haxx.hgemmdz_210_I, thr]

/-- As `Haxx.hgemmdz_200_L`, `src/hblas/fortran/hblas3/hgemmdz.f:427-461`, body of `DO 200 L`. -/
def hgemmdz_200_L (A : Int) (ALPHA : F) (B : Int) (C : Int) (J : Int) (LDA : Int) (LDB : Int) (LDC : Int) (M : Int) (L : Int)  : Prog F (Unit) := do
  let t1 ← rdC (el3 2 2 LDB B 1 J L)
  let HTMPS : Cplx F := Cplx.ofReal ALPHA *ᶜ t1
  let t2 ← rdC (el3 2 2 LDB B 2 J L)
  let HTMPJ : Cplx F := Cplx.ofReal ALPHA *ᶜ t2
  forN (M).toNat (fun i => hgemmdz_210_I A C HTMPJ HTMPS J L LDA LDC ((i : Int) + 1))
  pure ()

@[thr] theorem run_hgemmdz_200_L (A : Int) (ALPHA : F) (B : Int) (C : Int) (J : Int) (LDA : Int) (LDB : Int) (LDC : Int) (M : Int) (L : Int) :
    (Thr.hgemmdz_200_L A ALPHA B C J LDA LDB LDC M L (F := F)).run = Haxx.hgemmdz_200_L A ALPHA B C J LDA LDB LDC M L (F := F) := by
  simp only [Thr.hgemmdz_200_L, Haxx.hgemmdz_200_L, thr]

/-- As `Haxx.hgemmdz_170_J`, `src/hblas/fortran/hblas3/hgemmdz.f:392-462`, body of `DO 170 J`. -/
def hgemmdz_170_J (A : Int) (ALPHA : F) (B : Int) (BETA : Cplx F) (BONE : Bool) (BZERO : Bool) (C : Int) (K : Int) (LDA : Int) (LDB : Int) (LDC : Int) (M : Int) (J : Int)  : Prog F (Unit) := do
  hgemmdz_if393 BETA BONE BZERO C J LDC M
  forN (K).toNat (fun i => hgemmdz_200_L A ALPHA B C J LDA LDB LDC M ((i : Int) + 1))
  pure ()

@[thr] theorem run_hgemmdz_170_J (A : Int) (ALPHA : F) (B : Int) (BETA : Cplx F) (BONE : Bool) (BZERO : Bool) (C : Int) (K : Int) (LDA : Int) (LDB : Int) (LDC : Int) (M : Int) (J : Int) :
    (Thr.hgemmdz_170_J A ALPHA B BETA BONE BZERO C K LDA LDB LDC M J (F := F)).run = Haxx.hgemmdz_170_J A ALPHA B BETA BONE BZERO C K LDA LDB LDC M J (F := F) := by
  simp only [Thr.hgemmdz_170_J, Haxx.hgemmdz_170_J, thr]

/-- As `Haxx.hgemmdz_if311`, `src/hblas/fortran/hblas3/hgemmdz.f:311-463`. -/
def hgemmdz_if311 (A : Int) (ALPHA : F) (B : Int) (BETA : Cplx F) (BONE : Bool) (BZERO : Bool) (C : Int) (CONJB : Bool) (K : Int) (LDA : Int) (LDB : Int) (LDC : Int) (M : Int) (N : Int) : Prog F (Unit) := do
  if CONJB then
    forN (N).toNat (fun i => hgemmdz_120_J A ALPHA B BETA BONE BZERO C K LDA LDB LDC M ((i : Int) + 1))
    pure ()
  else
    forN (N).toNat (fun i => hgemmdz_170_J A ALPHA B BETA BONE BZERO C K LDA LDB LDC M ((i : Int) + 1))
    pure ()

@[thr] theorem run_hgemmdz_if311 (A : Int) (ALPHA : F) (B : Int) (BETA : Cplx F) (BONE : Bool) (BZERO : Bool) (C : Int) (CONJB : Bool) (K : Int) (LDA : Int) (LDB : Int) (LDC : Int) (M : Int) (N : Int) :
    (Thr.hgemmdz_if311 A ALPHA B BETA BONE BZERO C CONJB K LDA LDB LDC M N (F := F)).run = Haxx.hgemmdz_if311 A ALPHA B BETA BONE BZERO C CONJB K LDA LDB LDC M N (F := F) := by
  simp only [Thr.hgemmdz_if311, Haxx.hgemmdz_if311, thr]

/-- As `Haxx.hgemmdz_230_L`, `src/hblas/fortran/hblas3/hgemmdz.f:477-498`, body of `DO 230 L`. -/
def hgemmdz_230_L (A : Int) (B : Int) (I : Int) (J : Int) (LDA : Int) (LDB : Int) (L : Int) (HTMPJ : Cplx F) (HTMPS : Cplx F) : Prog F (Cplx F × Cplx F) := do
  let t1 ← rdC (el3 2 2 LDA A 1 L I)
  let t2 ← rdC (el3 2 2 LDB B 1 J L)
  let t3 ← rdC (el3 2 2 LDA A 2 L I)
  let t4 ← rdC (el3 2 2 LDB B 2 J L)
  let HTMPS : Cplx F := HTMPS +ᶜ Cplx.conj t1 *ᶜ Cplx.conj t2 -ᶜ t3 *ᶜ Cplx.conj t4
  let t5 ← rdC (el3 2 2 LDA A 1 L I)
  let t6 ← rdC (el3 2 2 LDB B 2 J L)
  let t7 ← rdC (el3 2 2 LDA A 2 L I)
  let t8 ← rdC (el3 2 2 LDB B 1 J L)
  let HTMPJ : Cplx F := HTMPJ -ᶜ Cplx.conj t5 *ᶜ t6 -ᶜ t7 *ᶜ t8
  pure (HTMPJ, HTMPS)

@[thr] theorem run_hgemmdz_230_L (A : Int) (B : Int) (I : Int) (J : Int) (LDA : Int) (LDB : Int) (L : Int) (HTMPJ : Cplx F) (HTMPS : Cplx F) :
    (Thr.hgemmdz_230_L A B I J LDA LDB L HTMPJ HTMPS (F := F)).run = Haxx.hgemmdz_230_L A B I J LDA LDB L HTMPJ HTMPS (F := F) := by
  simp only [Thr.hgemmdz_230_L, Haxx.hgemmdz_230_L, thr]

/-- As `Haxx.hgemmdz_220_I`, `src/hblas/fortran/hblas3/hgemmdz.f:470-531`, body of `DO 220 I`. -/
def hgemmdz_220_I (A : Int) (ALPHA : F) (B : Int) (BETA : Cplx F) (BZERO : Bool) (C : Int) (J : Int) (K : Int) (LDA : Int) (LDB : Int) (LDC : Int) (I : Int)  : Prog F (Unit) := do
  let HTMPS : Cplx F := (⟨zero, zero⟩ : Cplx F)
  let HTMPJ : Cplx F := (⟨zero, zero⟩ : Cplx F)
  let r ← foldN (K).toNat (fun i (s : Cplx F × Cplx F) => hgemmdz_230_L A B I J LDA LDB ((i : Int) + 1) s.1 s.2) (HTMPJ, HTMPS)
  let HTMPJ : Cplx F := r.1
  let HTMPS : Cplx F := r.2
  let _ ← (do
    if BZERO then
      wrC (el3 2 2 LDC C 1 I J) (Cplx.ofReal ALPHA *ᶜ HTMPS)
      wrC (el3 2 2 LDC C 2 I J) (Cplx.ofReal ALPHA *ᶜ HTMPJ)
      pure ()
    else
      let t1 ← rdC (el3 2 2 LDC C 1 I J)
      wrC (el3 2 2 LDC C 1 I J) (Cplx.ofReal ALPHA *ᶜ HTMPS +ᶜ BETA *ᶜ t1)
      let t2 ← rdC (el3 2 2 LDC C 2 I J)
      wrC (el3 2 2 LDC C 2 I J) (Cplx.ofReal ALPHA *ᶜ HTMPJ +ᶜ BETA *ᶜ t2)
      pure () : Prog F Unit)
  pure ()

@[thr] theorem run_hgemmdz_220_I (A : Int) (ALPHA : F) (B : Int) (BETA : Cplx F) (BZERO : Bool) (C : Int) (J : Int) (K : Int) (LDA : Int) (LDB : Int) (LDC : Int) (I : Int) :
    (Thr.hgemmdz_220_I A ALPHA B BETA BZERO C J K LDA LDB LDC I (F := F)).run = Haxx.hgemmdz_220_I A ALPHA B BETA BZERO C J K LDA LDB LDC I (F := F) := by
  simp only [Thr.hgemmdz_220_I, Haxx.hgemmdz_220_I, thr]

/-- As `Haxx.hgemmdz_220_J`, `src/hblas/fortran/hblas3/hgemmdz.f:469-531`, body of `DO 220 J`. -/
def hgemmdz_220_J (A : Int) (ALPHA : F) (B : Int) (BETA : Cplx F) (BZERO : Bool) (C : Int) (K : Int) (LDA : Int) (LDB : Int) (LDC : Int) (M : Int) (J : Int)  : Prog F (Unit) := do
  forN (M).toNat (fun i => hgemmdz_220_I A ALPHA B BETA BZERO C J K LDA LDB LDC ((i : Int) + 1))
  pure ()

@[thr] theorem run_hgemmdz_220_J (A : Int) (ALPHA : F) (B : Int) (BETA : Cplx F) (BZERO : Bool) (C : Int) (K : Int) (LDA : Int) (LDB : Int) (LDC : Int) (M : Int) (J : Int) :
    (Thr.hgemmdz_220_J A ALPHA B BETA BZERO C K LDA LDB LDC M J (F := F)).run = Haxx.hgemmdz_220_J A ALPHA B BETA BZERO C K LDA LDB LDC M J (F := F) := by
  simp only [Thr.hgemmdz_220_J, Haxx.hgemmdz_220_J, thr]

/-- As `Haxx.hgemmdz_250_L`, `src/hblas/fortran/hblas3/hgemmdz.f:545-565`, body of `DO 250 L`. -/
def hgemmdz_250_L (A : Int) (B : Int) (I : Int) (J : Int) (LDA : Int) (LDB : Int) (L : Int) (HTMPJ : Cplx F) (HTMPS : Cplx F) : Prog F (Cplx F × Cplx F) := do
  let t1 ← rdC (el3 2 2 LDA A 1 L I)
  let t2 ← rdC (el3 2 2 LDB B 1 J L)
  let t3 ← rdC (el3 2 2 LDA A 2 L I)
  let t4 ← rdC (el3 2 2 LDB B 2 J L)
  let HTMPS : Cplx F := HTMPS +ᶜ Cplx.conj t1 *ᶜ t2 +ᶜ t3 *ᶜ Cplx.conj t4
  let t5 ← rdC (el3 2 2 LDA A 1 L I)
  let t6 ← rdC (el3 2 2 LDB B 2 J L)
  let t7 ← rdC (el3 2 2 LDA A 2 L I)
  let t8 ← rdC (el3 2 2 LDB B 1 J L)
  let HTMPJ : Cplx F := HTMPJ +ᶜ Cplx.conj t5 *ᶜ t6 -ᶜ t7 *ᶜ Cplx.conj t8
  pure (HTMPJ, HTMPS)

@[thr] theorem run_hgemmdz_250_L (A : Int) (B : Int) (I : Int) (J : Int) (LDA : Int) (LDB : Int) (L : Int) (HTMPJ : Cplx F) (HTMPS : Cplx F) :
    (Thr.hgemmdz_250_L A B I J LDA LDB L HTMPJ HTMPS (F := F)).run = Haxx.hgemmdz_250_L A B I J LDA LDB L HTMPJ HTMPS (F := F) := by
  simp only [Thr.hgemmdz_250_L, Haxx.hgemmdz_250_L, thr]

/-- As `Haxx.hgemmdz_240_I`, `src/hblas/fortran/hblas3/hgemmdz.f:538-598`, body of `DO 240 I`. -/
def hgemmdz_240_I (A : Int) (ALPHA : F) (B : Int) (BETA : Cplx F) (BZERO : Bool) (C : Int) (J : Int) (K : Int) (LDA : Int) (LDB : Int) (LDC : Int) (I : Int)  : Prog F (Unit) := do
  let HTMPS : Cplx F := (⟨zero, zero⟩ : Cplx F)
  let HTMPJ : Cplx F := (⟨zero, zero⟩ : Cplx F)
  let r ← foldN (K).toNat (fun i (s : Cplx F × Cplx F) => hgemmdz_250_L A B I J LDA LDB ((i : Int) + 1) s.1 s.2) (HTMPJ, HTMPS)
  let HTMPJ : Cplx F := r.1
  let HTMPS : Cplx F := r.2
  let _ ← (do
    if BZERO then
      wrC (el3 2 2 LDC C 1 I J) (Cplx.ofReal ALPHA *ᶜ HTMPS)
      wrC (el3 2 2 LDC C 2 I J) (Cplx.ofReal ALPHA *ᶜ HTMPJ)
      pure ()
    else
      let t1 ← rdC (el3 2 2 LDC C 1 I J)
      wrC (el3 2 2 LDC C 1 I J) (Cplx.ofReal ALPHA *ᶜ HTMPS +ᶜ BETA *ᶜ t1)
      let t2 ← rdC (el3 2 2 LDC C 2 I J)
      wrC (el3 2 2 LDC C 2 I J) (Cplx.ofReal ALPHA *ᶜ HTMPJ +ᶜ BETA *ᶜ t2)
      pure () : Prog F Unit)
  pure ()

@[thr] theorem run_hgemmdz_240_I (A : Int) (ALPHA : F) (B : Int) (BETA : Cplx F) (BZERO : Bool) (C : Int) (J : Int) (K : Int) (LDA : Int) (LDB : Int) (LDC : Int) (I : Int) :
    (Thr.hgemmdz_240_I A ALPHA B BETA BZERO C J K LDA LDB LDC I (F := F)).run = Haxx.hgemmdz_240_I A ALPHA B BETA BZERO C J K LDA LDB LDC I (F := F) := by
  simp only [Thr.hgemmdz_240_I, Haxx.hgemmdz_240_I, thr]

/-- As `Haxx.hgemmdz_240_J`, `src/hblas/fortran/hblas3/hgemmdz.f:537-598`, body of `DO 240 J`. -/
def hgemmdz_240_J (A : Int) (ALPHA : F) (B : Int) (BETA : Cplx F) (BZERO : Bool) (C : Int) (K : Int) (LDA : Int) (LDB : Int) (LDC : Int) (M : Int) (J : Int)  : Prog F (Unit) := do
  forN (M).toNat (fun i => hgemmdz_240_I A ALPHA B BETA BZERO C J K LDA LDB LDC ((i : Int) + 1))
  pure ()

@[thr] theorem run_hgemmdz_240_J (A : Int) (ALPHA : F) (B : Int) (BETA : Cplx F) (BZERO : Bool) (C : Int) (K : Int) (LDA : Int) (LDB : Int) (LDC : Int) (M : Int) (J : Int) :
    (Thr.hgemmdz_240_J A ALPHA B BETA BZERO C K LDA LDB LDC M J (F := F)).run = Haxx.hgemmdz_240_J A ALPHA B BETA BZERO C K LDA LDB LDC M J (F := F) := by
  simp only [Thr.hgemmdz_240_J, Haxx.hgemmdz_240_J, thr]

/-- As `Haxx.hgemmdz_if465`, `src/hblas/fortran/hblas3/hgemmdz.f:465-599`. -/
def hgemmdz_if465 (A : Int) (ALPHA : F) (B : Int) (BETA : Cplx F) (BZERO : Bool) (C : Int) (CONJB : Bool) (K : Int) (LDA : Int) (LDB : Int) (LDC : Int) (M : Int) (N : Int) : Prog F (Unit) := do
  if CONJB then
    forN (N).toNat (fun i => hgemmdz_220_J A ALPHA B BETA BZERO C K LDA LDB LDC M ((i : Int) + 1))
    pure ()
  else
    forN (N).toNat (fun i => hgemmdz_240_J A ALPHA B BETA BZERO C K LDA LDB LDC M ((i : Int) + 1))
    pure ()

@[thr] theorem run_hgemmdz_if465 (A : Int) (ALPHA : F) (B : Int) (BETA : Cplx F) (BZERO : Bool) (C : Int) (CONJB : Bool) (K : Int) (LDA : Int) (LDB : Int) (LDC : Int) (M : Int) (N : Int) :
    (Thr.hgemmdz_if465 A ALPHA B BETA BZERO C CONJB K LDA LDB LDC M N (F := F)).run = Haxx.hgemmdz_if465 A ALPHA B BETA BZERO C CONJB K LDA LDB LDC M N (F := F) := by
  simp only [Thr.hgemmdz_if465, Haxx.hgemmdz_if465, thr]

/-- As `Haxx.hgemmdz_270_L`, `src/hblas/fortran/hblas3/hgemmdz.f:612-632`, body of `DO 270 L`. -/
def hgemmdz_270_L (A : Int) (B : Int) (I : Int) (J : Int) (LDA : Int) (LDB : Int) (L : Int) (HTMPJ : Cplx F) (HTMPS : Cplx F) : Prog F (Cplx F × Cplx F) := do
  let t1 ← rdC (el3 2 2 LDA A 1 L I)
  let t2 ← rdC (el3 2 2 LDB B 1 J L)
  let t3 ← rdC (el3 2 2 LDA A 2 L I)
  let t4 ← rdC (el3 2 2 LDB B 2 J L)
  let HTMPS : Cplx F := HTMPS +ᶜ t1 *ᶜ Cplx.conj t2 +ᶜ t3 *ᶜ Cplx.conj t4
  let t5 ← rdC (el3 2 2 LDA A 1 L I)
  let t6 ← rdC (el3 2 2 LDB B 2 J L)
  let t7 ← rdC (el3 2 2 LDA A 2 L I)
  let t8 ← rdC (el3 2 2 LDB B 1 J L)
  let HTMPJ : Cplx F := HTMPJ -ᶜ t5 *ᶜ t6 +ᶜ t7 *ᶜ t8
  pure (HTMPJ, HTMPS)

@[thr] theorem run_hgemmdz_270_L (A : Int) (B : Int) (I : Int) (J : Int) (LDA : Int) (LDB : Int) (L : Int) (HTMPJ : Cplx F) (HTMPS : Cplx F) :
    (Thr.hgemmdz_270_L A B I J LDA LDB L HTMPJ HTMPS (F := F)).run = Haxx.hgemmdz_270_L A B I J LDA LDB L HTMPJ HTMPS (F := F) := by
  simp only [Thr.hgemmdz_270_L, Haxx.hgemmdz_270_L, thr]

/-- As `Haxx.hgemmdz_260_I`, `src/hblas/fortran/hblas3/hgemmdz.f:607-665`, body of `DO 260 I`. -/
def hgemmdz_260_I (A : Int) (ALPHA : F) (B : Int) (BETA : Cplx F) (BZERO : Bool) (C : Int) (J : Int) (K : Int) (LDA : Int) (LDB : Int) (LDC : Int) (I : Int)  : Prog F (Unit) := do
  let HTMPS : Cplx F := (⟨zero, zero⟩ : Cplx F)
  -- HTMPI (line 609) is never read
  let HTMPJ : Cplx F := (⟨zero, zero⟩ : Cplx F)
  -- HTMPK (line 611) is never read
  let r ← foldN (K).toNat (fun i (s : Cplx F × Cplx F) => hgemmdz_270_L A B I J LDA LDB ((i : Int) + 1) s.1 s.2) (HTMPJ, HTMPS)
  let HTMPJ : Cplx F := r.1
  let HTMPS : Cplx F := r.2
  let _ ← (do
    if BZERO then
      wrC (el3 2 2 LDC C 1 I J) (Cplx.ofReal ALPHA *ᶜ HTMPS)
      wrC (el3 2 2 LDC C 2 I J) (Cplx.ofReal ALPHA *ᶜ HTMPJ)
      pure ()
    else
      let t1 ← rdC (el3 2 2 LDC C 1 I J)
      wrC (el3 2 2 LDC C 1 I J) (Cplx.ofReal ALPHA *ᶜ HTMPS +ᶜ BETA *ᶜ t1)
      let t2 ← rdC (el3 2 2 LDC C 2 I J)
      wrC (el3 2 2 LDC C 2 I J) (Cplx.ofReal ALPHA *ᶜ HTMPJ +ᶜ BETA *ᶜ t2)
      pure () : Prog F Unit)
  pure ()

@[thr] theorem run_hgemmdz_260_I (A : Int) (ALPHA : F) (B : Int) (BETA : Cplx F) (BZERO : Bool) (C : Int) (J : Int) (K : Int) (LDA : Int) (LDB : Int) (LDC : Int) (I : Int) :
    (Thr.hgemmdz_260_I A ALPHA B BETA BZERO C J K LDA LDB LDC I (F := F)).run = Haxx.hgemmdz_260_I A ALPHA B BETA BZERO C J K LDA LDB LDC I (F := F) := by
  simp only [Thr.hgemmdz_260_I, Haxx.hgemmdz_260_I, thr]

/-- As `Haxx.hgemmdz_260_J`, `src/hblas/fortran/hblas3/hgemmdz.f:606-665`, body of `DO 260 J`. -/
def hgemmdz_260_J (A : Int) (ALPHA : F) (B : Int) (BETA : Cplx F) (BZERO : Bool) (C : Int) (K : Int) (LDA : Int) (LDB : Int) (LDC : Int) (M : Int) (J : Int)  : Prog F (Unit) := do
  forN (M).toNat (fun i => hgemmdz_260_I A ALPHA B BETA BZERO C J K LDA LDB LDC ((i : Int) + 1))
  pure ()

@[thr] theorem run_hgemmdz_260_J (A : Int) (ALPHA : F) (B : Int) (BETA : Cplx F) (BZERO : Bool) (C : Int) (K : Int) (LDA : Int) (LDB : Int) (LDC : Int) (M : Int) (J : Int) :
    (Thr.hgemmdz_260_J A ALPHA B BETA BZERO C K LDA LDB LDC M J (F := F)).run = Haxx.hgemmdz_260_J A ALPHA B BETA BZERO C K LDA LDB LDC M J (F := F) := by
  simp only [Thr.hgemmdz_260_J, Haxx.hgemmdz_260_J, thr]

/-- As `Haxx.hgemmdz_290_L`, `src/hblas/fortran/hblas3/hgemmdz.f:678-698`, body of `DO 290 L`. -/
def hgemmdz_290_L (A : Int) (B : Int) (I : Int) (J : Int) (LDA : Int) (LDB : Int) (L : Int) (HTMPJ : Cplx F) (HTMPS : Cplx F) : Prog F (Cplx F × Cplx F) := do
  let t1 ← rdC (el3 2 2 LDA A 1 L I)
  let t2 ← rdC (el3 2 2 LDB B 1 J L)
  let t3 ← rdC (el3 2 2 LDA A 2 L I)
  let t4 ← rdC (el3 2 2 LDB B 2 J L)
  let HTMPS : Cplx F := HTMPS +ᶜ t1 *ᶜ t2 -ᶜ t3 *ᶜ Cplx.conj t4
  let t5 ← rdC (el3 2 2 LDA A 1 L I)
  let t6 ← rdC (el3 2 2 LDB B 2 J L)
  let t7 ← rdC (el3 2 2 LDA A 2 L I)
  let t8 ← rdC (el3 2 2 LDB B 1 J L)
  let HTMPJ : Cplx F := HTMPJ +ᶜ t5 *ᶜ t6 +ᶜ t7 *ᶜ Cplx.conj t8
  pure (HTMPJ, HTMPS)

@[thr] theorem run_hgemmdz_290_L (A : Int) (B : Int) (I : Int) (J : Int) (LDA : Int) (LDB : Int) (L : Int) (HTMPJ : Cplx F) (HTMPS : Cplx F) :
    (Thr.hgemmdz_290_L A B I J LDA LDB L HTMPJ HTMPS (F := F)).run = Haxx.hgemmdz_290_L A B I J LDA LDB L HTMPJ HTMPS (F := F) := by
  simp only [Thr.hgemmdz_290_L, Haxx.hgemmdz_290_L, thr]

/-- As `Haxx.hgemmdz_280_I`, `src/hblas/fortran/hblas3/hgemmdz.f:671-731`, body of `DO 280 I`. -/
def hgemmdz_280_I (A : Int) (ALPHA : F) (B : Int) (BETA : Cplx F) (BZERO : Bool) (C : Int) (J : Int) (K : Int) (LDA : Int) (LDB : Int) (LDC : Int) (I : Int)  : Prog F (Unit) := do
  let HTMPS : Cplx F := (⟨zero, zero⟩ : Cplx F)
  let HTMPJ : Cplx F := (⟨zero, zero⟩ : Cplx F)
  let r ← foldN (K).toNat (fun i (s : Cplx F × Cplx F) => hgemmdz_290_L A B I J LDA LDB ((i : Int) + 1) s.1 s.2) (HTMPJ, HTMPS)
  let HTMPJ : Cplx F := r.1
  let HTMPS : Cplx F := r.2
  let _ ← (do
    if BZERO then
      wrC (el3 2 2 LDC C 1 I J) (Cplx.ofReal ALPHA *ᶜ HTMPS)
      wrC (el3 2 2 LDC C 2 I J) (Cplx.ofReal ALPHA *ᶜ HTMPJ)
      pure ()
    else
      let t1 ← rdC (el3 2 2 LDC C 1 I J)
      wrC (el3 2 2 LDC C 1 I J) (Cplx.ofReal ALPHA *ᶜ HTMPS +ᶜ BETA *ᶜ t1)
      let t2 ← rdC (el3 2 2 LDC C 2 I J)
      wrC (el3 2 2 LDC C 2 I J) (Cplx.ofReal ALPHA *ᶜ HTMPJ +ᶜ BETA *ᶜ t2)
      pure () : Prog F Unit)
  pure ()

@[thr] theorem run_hgemmdz_280_I (A : Int) (ALPHA : F) (B : Int) (BETA : Cplx F) (BZERO : Bool) (C : Int) (J : Int) (K : Int) (LDA : Int) (LDB : Int) (LDC : Int) (I : Int) :
    (Thr.hgemmdz_280_I A ALPHA B BETA BZERO C J K LDA LDB LDC I (F := F)).run = Haxx.hgemmdz_280_I A ALPHA B BETA BZERO C J K LDA LDB LDC I (F := F) := by
  simp only [Thr.hgemmdz_280_I, Haxx.hgemmdz_280_I, thr]

/-- As `Haxx.hgemmdz_280_J`, `src/hblas/fortran/hblas3/hgemmdz.f:670-731`, body of `DO 280 J`. -/
def hgemmdz_280_J (A : Int) (ALPHA : F) (B : Int) (BETA : Cplx F) (BZERO : Bool) (C : Int) (K : Int) (LDA : Int) (LDB : Int) (LDC : Int) (M : Int) (J : Int)  : Prog F (Unit) := do
  forN (M).toNat (fun i => hgemmdz_280_I A ALPHA B BETA BZERO C J K LDA LDB LDC ((i : Int) + 1))
  pure ()

@[thr] theorem run_hgemmdz_280_J (A : Int) (ALPHA : F) (B : Int) (BETA : Cplx F) (BZERO : Bool) (C : Int) (K : Int) (LDA : Int) (LDB : Int) (LDC : Int) (M : Int) (J : Int) :
    (Thr.hgemmdz_280_J A ALPHA B BETA BZERO C K LDA LDB LDC M J (F := F)).run = Haxx.hgemmdz_280_J A ALPHA B BETA BZERO C K LDA LDB LDC M J (F := F) := by
  simp only [Thr.hgemmdz_280_J, Haxx.hgemmdz_280_J, thr]

/-- As `Haxx.hgemmdz_if602`, `src/hblas/fortran/hblas3/hgemmdz.f:602-732`. -/
def hgemmdz_if602 (A : Int) (ALPHA : F) (B : Int) (BETA : Cplx F) (BZERO : Bool) (C : Int) (CONJB : Bool) (K : Int) (LDA : Int) (LDB : Int) (LDC : Int) (M : Int) (N : Int) : Prog F (Unit) := do
  if CONJB then
    forN (N).toNat (fun i => hgemmdz_260_J A ALPHA B BETA BZERO C K LDA LDB LDC M ((i : Int) + 1))
    pure ()
  else
    forN (N).toNat (fun i => hgemmdz_280_J A ALPHA B BETA BZERO C K LDA LDB LDC M ((i : Int) + 1))
    pure ()

@[thr] theorem run_hgemmdz_if602 (A : Int) (ALPHA : F) (B : Int) (BETA : Cplx F) (BZERO : Bool) (C : Int) (CONJB : Bool) (K : Int) (LDA : Int) (LDB : Int) (LDC : Int) (M : Int) (N : Int) :
    (Thr.hgemmdz_if602 A ALPHA B BETA BZERO C CONJB K LDA LDB LDC M N (F := F)).run = Haxx.hgemmdz_if602 A ALPHA B BETA BZERO C CONJB K LDA LDB LDC M N (F := F) := by
  simp only [Thr.hgemmdz_if602, Haxx.hgemmdz_if602, thr]

/-- As `Haxx.hgemmdz_if100`, `src/hblas/fortran/hblas3/hgemmdz.f:100-733`. -/
def hgemmdz_if100 (A : Int) (ALPHA : F) (B : Int) (BETA : Cplx F) (BONE : Bool) (BZERO : Bool) (C : Int) (CONJA : Bool) (CONJB : Bool) (K : Int) (LDA : Int) (LDB : Int) (LDC : Int) (M : Int) (N : Int) (NOTA : Bool) (NOTB : Bool) : Prog F (Unit) := do
  if NOTB then
    hgemmdz_if101 A ALPHA B BETA BONE BZERO C CONJA K LDA LDB LDC M N NOTA
    pure ()
  else if NOTA then
    hgemmdz_if311 A ALPHA B BETA BONE BZERO C CONJB K LDA LDB LDC M N
    pure ()
  else if CONJA then
    hgemmdz_if465 A ALPHA B BETA BZERO C CONJB K LDA LDB LDC M N
    pure ()
  else
    hgemmdz_if602 A ALPHA B BETA BZERO C CONJB K LDA LDB LDC M N
    pure ()

@[thr] theorem run_hgemmdz_if100 (A : Int) (ALPHA : F) (B : Int) (BETA : Cplx F) (BONE : Bool) (BZERO : Bool) (C : Int) (CONJA : Bool) (CONJB : Bool) (K : Int) (LDA : Int) (LDB : Int) (LDC : Int) (M : Int) (N : Int) (NOTA : Bool) (NOTB : Bool) :
    (Thr.hgemmdz_if100 A ALPHA B BETA BONE BZERO C CONJA CONJB K LDA LDB LDC M N NOTA NOTB (F := F)).run = Haxx.hgemmdz_if100 A ALPHA B BETA BONE BZERO C CONJA CONJB K LDA LDB LDC M N NOTA NOTB (F := F) := by
  simp only [Thr.hgemmdz_if100, Haxx.hgemmdz_if100, thr]

/-- As `Haxx.hgemmdz`, `src/hblas/fortran/hblas3/hgemmdz.f:10-734`. -/
def hgemmdz (TRANSA : Char) (TRANSB : Char) (M : Int) (N : Int) (K : Int) (ALPHA : F) (A : Int) (LDA : Int) (B : Int) (LDB : Int) (BETA : Cplx F) (C : Int) (LDC : Int) : Prog F (Unit) := do
  let NOTA : Bool := lsame TRANSA 'N'
  let NOTB : Bool := lsame TRANSB 'N'
  let CONJA : Bool := lsame TRANSA 'C'
  let CONJB : Bool := lsame TRANSB 'C'
  let AZERO : Bool := Cplx.feq (Cplx.ofReal ALPHA) (⟨zero, zero⟩ : Cplx F)
  -- AONE (line 43) is never read
  let BZERO : Bool := Cplx.feq BETA (⟨zero, zero⟩ : Cplx F)
  let BONE : Bool := Cplx.feq BETA (⟨one, zero⟩ : Cplx F)
  if (decide (M = 0)) || (decide (N = 0)) then
    pure ()
  else
    if (AZERO || (decide (K = 0))) && BONE then
      pure ()
    else
      if AZERO then
        hgemmdz_if62 BETA BZERO C LDC M N
        pure ()
      else
        hgemmdz_if100 A ALPHA B BETA BONE BZERO C CONJA CONJB K LDA LDB LDC M N NOTA NOTB
        pure ()

@[thr] theorem run_hgemmdz (TRANSA : Char) (TRANSB : Char) (M : Int) (N : Int) (K : Int) (ALPHA : F) (A : Int) (LDA : Int) (B : Int) (LDB : Int) (BETA : Cplx F) (C : Int) (LDC : Int) :
    (Thr.hgemmdz TRANSA TRANSB M N K ALPHA A LDA B LDB BETA C LDC (F := F)).run = Haxx.hgemmdz TRANSA TRANSB M N K ALPHA A LDA B LDB BETA C LDC (F := F) := by
  simp only [Thr.hgemmdz, Haxx.hgemmdz, thr]

-- end of FGemmdz

variable {F : Type} [Arith F] [ArithEq F]
/-- As `Haxx.hgemmdh_10_I`, `src/hblas/fortran/hblas3/hgemmdh.f:66-73`, body of `DO 10 I`. -/
def hgemmdh_10_I (C : Int) (J : Int) (LDC : Int) (I : Int)  : Prog F (Unit) := do
  wrC (el3 2 2 LDC C 1 I J) (⟨zero, zero⟩ : Cplx F)
  wrC (el3 2 2 LDC C 2 I J) (⟨zero, zero⟩ : Cplx F)
  pure ()

@[thr] theorem run_hgemmdh_10_I (C : Int) (J : Int) (LDC : Int) (I : Int) :
    (Thr.hgemmdh_10_I C J LDC I (F := F)).run = Haxx.hgemmdh_10_I C J LDC I (F := F) := by
  simp only [Thr.hgemmdh_10_I, Haxx.hgemmdh_10_I, thr]

/-- As `Haxx.hgemmdh_10_J`, `src/hblas/fortran/hblas3/hgemmdh.f:65-73`, body of `DO 10 J`. -/
def hgemmdh_10_J (C : Int) (LDC : Int) (M : Int) (J : Int)  : Prog F (Unit) := do
  forN (M).toNat (fun i => hgemmdh_10_I C J LDC ((i : Int) + 1))
  pure ()

@[thr] theorem run_hgemmdh_10_J (C : Int) (LDC : Int) (M : Int) (J : Int) :
    (Thr.hgemmdh_10_J C LDC M J (F := F)).run = Haxx.hgemmdh_10_J C LDC M J (F := F) := by
  simp only [Thr.hgemmdh_10_J, Haxx.hgemmdh_10_J, thr]

/-- As `Haxx.hgemmdh_20_I`, `src/hblas/fortran/hblas3/hgemmdh.f:76-102`, body of `DO 20 I`. -/
def hgemmdh_20_I (BETA : Quat F) (C : Int) (J : Int) (LDC : Int) (I : Int)  : Prog F (Unit) := do
  let t1 ← rdC (el3 2 2 LDC C 1 I J)
  let t2 ← rdC (el3 2 2 LDC C 2 I J)
  let HTMPS : Cplx F := Quat.lo BETA *ᶜ t1 -ᶜ Quat.hi BETA *ᶜ Cplx.conj t2
  let t3 ← rdC (el3 2 2 LDC C 2 I J)
  let t4 ← rdC (el3 2 2 LDC C 1 I J)
  wrC (el3 2 2 LDC C 2 I J) (Quat.lo BETA *ᶜ t3 +ᶜ Quat.hi BETA *ᶜ Cplx.conj t4)
  wrC (el3 2 2 LDC C 1 I J) HTMPS
  pure ()

@[thr] theorem run_hgemmdh_20_I (BETA : Quat F) (C : Int) (J : Int) (LDC : Int) (I : Int) :
    (Thr.hgemmdh_20_I BETA C J LDC I (F := F)).run = Haxx.hgemmdh_20_I BETA C J LDC I (F := F) := by
  simp only [Thr.hgemmdh_20_I, Haxx.hgemmdh_20_I, thr]

/-- As `Haxx.hgemmdh_20_J`, `src/hblas/fortran/hblas3/hgemmdh.f:75-102`, body of `DO 20 J`. -/
def hgemmdh_20_J (BETA : Quat F) (C : Int) (LDC : Int) (M : Int) (J : Int)  : Prog F (Unit) := do
  forN (M).toNat (fun i => hgemmdh_20_I BETA C J LDC ((i : Int) + 1))
  pure ()

@[thr] theorem run_hgemmdh_20_J (BETA : Quat F) (C : Int) (LDC : Int) (M : Int) (J : Int) :
    (Thr.hgemmdh_20_J BETA C LDC M J (F := F)).run = Haxx.hgemmdh_20_J BETA C LDC M J (F := F) := by
  simp only [Thr.hgemmdh_20_J, Haxx.hgemmdh_20_J, thr]

/-- As `Haxx.hgemmdh_if64`, `src/hblas/fortran/hblas3/hgemmdh.f:64-103`. -/
def hgemmdh_if64 (BETA : Quat F) (BZERO : Bool) (C : Int) (LDC : Int) (M : Int) (N : Int) : Prog F (Unit) := do
  if BZERO then
    forN (N).toNat (fun i => hgemmdh_10_J C LDC M ((i : Int) + 1))
    pure ()
  else
    forN (N).toNat (fun i => hgemmdh_20_J BETA C LDC M ((i : Int) + 1))
    pure ()

@[thr] theorem run_hgemmdh_if64 (BETA : Quat F) (BZERO : Bool) (C : Int) (LDC : Int) (M : Int) (N : Int) :
    (Thr.hgemmdh_if64 BETA BZERO C LDC M N (F := F)).run = Haxx.hgemmdh_if64 BETA BZERO C LDC M N (F := F) := by
  simp only [Thr.hgemmdh_if64, Haxx.hgemmdh_if64, thr]

/-- As `Haxx.hgemmdh_40_I`, `src/hblas/fortran/hblas3/hgemmdh.f:114-121`, body of `DO 40 I`. -/
def hgemmdh_40_I (C : Int) (J : Int) (LDC : Int) (I : Int)  : Prog F (Unit) := do
  wrC (el3 2 2 LDC C 1 I J) (⟨zero, zero⟩ : Cplx F)
  wrC (el3 2 2 LDC C 2 I J) (⟨zero, zero⟩ : Cplx F)
  pure ()

@[thr] theorem run_hgemmdh_40_I (C : Int) (J : Int) (LDC : Int) (I : Int) :
    (Thr.hgemmdh_40_I C J LDC I (F := F)).run = Haxx.hgemmdh_40_I C J LDC I (F := F) := by
  simp only [Thr.hgemmdh_40_I, Haxx.hgemmdh_40_I, thr]

/-- As `Haxx.hgemmdh_50_I`, `src/hblas/fortran/hblas3/hgemmdh.f:123-149`, body of `DO 50 I`. -/
def hgemmdh_50_I (BETA : Quat F) (C : Int) (J : Int) (LDC : Int) (I : Int)  : Prog F (Unit) := do
  let t1 ← rdC (el3 2 2 LDC C 1 I J)
  let t2 ← rdC (el3 2 2 LDC C 2 I J)
  let HTMPS : Cplx F := Quat.lo BETA *ᶜ t1 -ᶜ Quat.hi BETA *ᶜ Cplx.conj t2
  let t3 ← rdC (el3 2 2 LDC C 2 I J)
  let t4 ← rdC (el3 2 2 LDC C 1 I J)
  wrC (el3 2 2 LDC C 2 I J) (Quat.lo BETA *ᶜ t3 +ᶜ Quat.hi BETA *ᶜ Cplx.conj t4)
  wrC (el3 2 2 LDC C 1 I J) HTMPS
  pure ()

@[thr] theorem run_hgemmdh_50_I (BETA : Quat F) (C : Int) (J : Int) (LDC : Int) (I : Int) :
    (Thr.hgemmdh_50_I BETA C J LDC I (F := F)).run = Haxx.hgemmdh_50_I BETA C J LDC I (F := F) := by
  simp only [Thr.hgemmdh_50_I, Haxx.hgemmdh_50_I, thr]

/-- As `Haxx.hgemmdh_if113`, `src/hblas/fortran/hblas3/hgemmdh.f:113-150`. -/
def hgemmdh_if113 (BETA : Quat F) (BONE : Bool) (BZERO : Bool) (C : Int) (J : Int) (LDC : Int) (M : Int) : Prog F (Unit) := do
  if BZERO then
    forN (M).toNat (fun i => hgemmdh_40_I C J LDC ((i : Int) + 1))
    pure ()
  else if !BONE then
    forN (M).toNat (fun i => hgemmdh_50_I BETA C J LDC ((i : Int) + 1))
    pure ()
  else
    pure ()

@[thr] theorem run_hgemmdh_if113 (BETA : Quat F) (BONE : Bool) (BZERO : Bool) (C : Int) (J : Int) (LDC : Int) (M : Int) :
    (Thr.hgemmdh_if113 BETA BONE BZERO C J LDC M (F := F)).run = Haxx.hgemmdh_if113 BETA BONE BZERO C J LDC M (F := F) := by
  simp only [Thr.hgemmdh_if113, Haxx.hgemmdh_if113, thr]

/-- As `Haxx.hgemmdh_70_I`, `src/hblas/fortran/hblas3/hgemmdh.f:161-185`, body of `DO 70 I`. -/
def hgemmdh_70_I (A : Int) (C : Int) (HTMPJ : Cplx F) (HTMPS : Cplx F) (J : Int) (L : Int) (LDA : Int) (LDC : Int) (I : Int)  : Prog F (Unit) := do
  let t1 ← rdC (el3 2 2 LDC C 1 I J)
  let t2 ← rdC (el3 2 2 LDA A 1 I L)
  let t3 ← rdC (el3 2 2 LDA A 2 I L)
  wrC (el3 2 2 LDC C 1 I J) (t1 +ᶜ t2 *ᶜ HTMPS -ᶜ t3 *ᶜ Cplx.conj HTMPJ)
  let t4 ← rdC (el3 2 2 LDC C 2 I J)
  let t5 ← rdC (el3 2 2 LDA A 1 I L)
  let t6 ← rdC (el3 2 2 LDA A 2 I L)
  wrC (el3 2 2 LDC C 2 I J) (t4 +ᶜ t5 *ᶜ HTMPJ +ᶜ t6 *ᶜ Cplx.conj HTMPS)
  pure ()

@[thr] theorem run_hgemmdh_70_I (A : Int) (C : Int) (HTMPJ : Cplx F) (HTMPS : Cplx F) (J : Int) (L : Int) (LDA : Int) (LDC : Int) (I : Int) :
    (Thr.hgemmdh_70_I A C HTMPJ HTMPS J L LDA LDC I (F := F)).run = Haxx.hgemmdh_70_I A C HTMPJ HTMPS J L LDA LDC I (F := F) := by
  simp only [Thr.hgemmdh_70_I, Haxx.hgemmdh_70_I, thr]

/-- As `Haxx.hgemmdh_60_L`, `src/hblas/fortran/hblas3/hgemmdh.f:152-186`, body of `DO 60 L`. -/
def hgemmdh_60_L (A : Int) (ALPHA : F) (B : Int) (C : Int) (J : Int) (LDA : Int) (LDB : Int) (LDC : Int) (M : Int) (L : Int)  : Prog F (Unit) := do
  let t1 ← rdC (el3 2 2 LDB B 1 L J)
  let HTMPS : Cplx F := Cplx.ofReal ALPHA *ᶜ t1
  let t2 ← rdC (el3 2 2 LDB B 2 L J)
  let HTMPJ : Cplx F := Cplx.ofReal ALPHA *ᶜ t2
  forN (M).toNat (fun i => hgemmdh_70_I A C HTMPJ HTMPS J L LDA LDC ((i : Int) + 1))
  pure ()

@[thr] theorem run_hgemmdh_60_L (A : Int) (ALPHA : F) (B : Int) (C : Int) (J : Int) (LDA : Int) (LDB : Int) (LDC : Int) (M : Int) (L : Int) :
    (Thr.hgemmdh_60_L A ALPHA B C J LDA LDB LDC M L (F := F)).run = Haxx.hgemmdh_60_L A ALPHA B C J LDA LDB LDC M L (F := F) := by
  simp only [Thr.hgemmdh_60_L, Haxx.hgemmdh_60_L, thr]

/-- As `Haxx.hgemmdh_30_J`, `src/hblas/fortran/hblas3/hgemmdh.f:112-187`, body of `DO 30 J`. -/
def hgemmdh_30_J (A : Int) (ALPHA : F) (B : Int) (BETA : Quat F) (BONE : Bool) (BZERO : Bool) (C : Int) (K : Int) (LDA : Int) (LDB : Int) (LDC : Int) (M : Int) (J : Int)  : Prog F (Unit) := do
  hgemmdh_if113 BETA BONE BZERO C J LDC M
  forN (K).toNat (fun i => hgemmdh_60_L A ALPHA B C J LDA LDB LDC M ((i : Int) + 1))
  pure ()

@[thr] theorem run_hgemmdh_30_J (A : Int) (ALPHA : F) (B : Int) (BETA : Quat F) (BONE : Bool) (BZERO : Bool) (C : Int) (K : Int) (LDA : Int) (LDB : Int) (LDC : Int) (M : Int) (J : Int) :
    (Thr.hgemmdh_30_J A ALPHA B BETA BONE BZERO C K LDA LDB LDC M J (F := F)).run = Haxx.hgemmdh_30_J A ALPHA B BETA BONE BZERO C K LDA LDB LDC M J (F := F) := by
  simp only [Thr.hgemmdh_30_J, Haxx.hgemmdh_30_J, thr]

/-- As `Haxx.hgemmdh_90_L`, `src/hblas/fortran/hblas3/hgemmdh.f:200-220`, body of `DO 90 L`. -/
def hgemmdh_90_L (A : Int) (B : Int) (I : Int) (J : Int) (LDA : Int) (LDB : Int) (L : Int) (HTMPJ : Cplx F) (HTMPS : Cplx F) : Prog F (Cplx F × Cplx F) := do
  let t1 ← rdC (el3 2 2 LDA A 1 L I)
  let t2 ← rdC (el3 2 2 LDB B 1 L J)
  let t3 ← rdC (el3 2 2 LDA A 2 L I)
  let t4 ← rdC (el3 2 2 LDB B 2 L J)
  let HTMPS : Cplx F := HTMPS +ᶜ Cplx.conj t1 *ᶜ t2 +ᶜ t3 *ᶜ Cplx.conj t4
  let t5 ← rdC (el3 2 2 LDA A 1 L I)
  let t6 ← rdC (el3 2 2 LDB B 2 L J)
  let t7 ← rdC (el3 2 2 LDA A 2 L I)
  let t8 ← rdC (el3 2 2 LDB B 1 L J)
  let HTMPJ : Cplx F := HTMPJ +ᶜ Cplx.conj t5 *ᶜ t6 -ᶜ t7 *ᶜ Cplx.conj t8
  pure (HTMPJ, HTMPS)

@[thr] theorem run_hgemmdh_90_L (A : Int) (B : Int) (I : Int) (J : Int) (LDA : Int) (LDB : Int) (L : Int) (HTMPJ : Cplx F) (HTMPS : Cplx F) :
    (Thr.hgemmdh_90_L A B I J LDA LDB L HTMPJ HTMPS (F := F)).run = Haxx.hgemmdh_90_L A B I J LDA LDB L HTMPJ HTMPS (F := F) := by
  simp only [Thr.hgemmdh_90_L, Haxx.hgemmdh_90_L, thr]

/-- As `Haxx.hgemmdh_80_I`, `src/hblas/fortran/hblas3/hgemmdh.f:193-260`, body of `DO 80 I`. -/
def hgemmdh_80_I (A : Int) (ALPHA : F) (B : Int) (BETA : Quat F) (BZERO : Bool) (C : Int) (J : Int) (K : Int) (LDA : Int) (LDB : Int) (LDC : Int) (I : Int)  : Prog F (Unit) := do
  let HTMPS : Cplx F := (⟨zero, zero⟩ : Cplx F)
  let HTMPJ : Cplx F := (⟨zero, zero⟩ : Cplx F)
  let r ← foldN (K).toNat (fun i (s : Cplx F × Cplx F) => hgemmdh_90_L A B I J LDA LDB ((i : Int) + 1) s.1 s.2) (HTMPJ, HTMPS)
  let HTMPJ : Cplx F := r.1
  let HTMPS : Cplx F := r.2
  let _ ← (do
    if BZERO then
      wrC (el3 2 2 LDC C 1 I J) (Cplx.ofReal ALPHA *ᶜ HTMPS)
      wrC (el3 2 2 LDC C 2 I J) (Cplx.ofReal ALPHA *ᶜ HTMPJ)
      pure ()
    else
      let t1 ← rdC (el3 2 2 LDC C 1 I J)
      let t2 ← rdC (el3 2 2 LDC C 2 I J)
      let HTMPS : Cplx F := Cplx.ofReal ALPHA *ᶜ HTMPS +ᶜ Quat.lo BETA *ᶜ t1 -ᶜ Quat.hi BETA *ᶜ Cplx.conj t2
      let t3 ← rdC (el3 2 2 LDC C 2 I J)
      let t4 ← rdC (el3 2 2 LDC C 1 I J)
      wrC (el3 2 2 LDC C 2 I J) (Cplx.ofReal ALPHA *ᶜ HTMPJ +ᶜ Quat.lo BETA *ᶜ t3 +ᶜ Quat.hi BETA *ᶜ Cplx.conj t4)
      wrC (el3 2 2 LDC C 1 I J) HTMPS
      pure () : Prog F Unit)
  pure ()

@[thr] theorem run_hgemmdh_80_I (A : Int) (ALPHA : F) (B : Int) (BETA : Quat F) (BZERO : Bool) (C : Int) (J : Int) (K : Int) (LDA : Int) (LDB : Int) (LDC : Int) (I : Int) :
    (Thr.hgemmdh_80_I A ALPHA B BETA BZERO C J K LDA LDB LDC I (F := F)).run = Haxx.hgemmdh_80_I A ALPHA B BETA BZERO C J K LDA LDB LDC I (F := F) := by
  simp only [Thr.hgemmdh_80_I, Haxx.hgemmdh_80_I, thr]

/-- As `Haxx.hgemmdh_80_J`, `src/hblas/fortran/hblas3/hgemmdh.f:192-260`, body of `DO 80 J`. -/
def hgemmdh_80_J (A : Int) (ALPHA : F) (B : Int) (BETA : Quat F) (BZERO : Bool) (C : Int) (K : Int) (LDA : Int) (LDB : Int) (LDC : Int) (M : Int) (J : Int)  : Prog F (Unit) := do
  forN (M).toNat (fun i => hgemmdh_80_I A ALPHA B BETA BZERO C J K LDA LDB LDC ((i : Int) + 1))
  pure ()

@[thr] theorem run_hgemmdh_80_J (A : Int) (ALPHA : F) (B : Int) (BETA : Quat F) (BZERO : Bool) (C : Int) (K : Int) (LDA : Int) (LDB : Int) (LDC : Int) (M : Int) (J : Int) :
    (Thr.hgemmdh_80_J A ALPHA B BETA BZERO C K LDA LDB LDC M J (F := F)).run = Haxx.hgemmdh_80_J A ALPHA B BETA BZERO C K LDA LDB LDC M J (F := F) := by
  simp only [Thr.hgemmdh_80_J, Haxx.hgemmdh_80_J, thr]

/-- As `Haxx.hgemmdh_110_L`, `src/hblas/fortran/hblas3/hgemmdh.f:274-294`, body of `DO 110 L`. -/
def hgemmdh_110_L (A : Int) (B : Int) (I : Int) (J : Int) (LDA : Int) (LDB : Int) (L : Int) (HTMPJ : Cplx F) (HTMPS : Cplx F) : Prog F (Cplx F × Cplx F) := do
  let t1 ← rdC (el3 2 2 LDA A 1 L I)
  let t2 ← rdC (el3 2 2 LDB B 1 L J)
  let t3 ← rdC (el3 2 2 LDA A 2 L I)
  let t4 ← rdC (el3 2 2 LDB B 2 L J)
  let HTMPS : Cplx F := HTMPS +ᶜ t1 *ᶜ t2 -ᶜ t3 *ᶜ Cplx.conj t4
  let t5 ← rdC (el3 2 2 LDA A 1 L I)
  let t6 ← rdC (el3 2 2 LDB B 2 L J)
  let t7 ← rdC (el3 2 2 LDA A 2 L I)
  let t8 ← rdC (el3 2 2 LDB B 1 L J)
  let HTMPJ : Cplx F := HTMPJ +ᶜ t5 *ᶜ t6 +ᶜ t7 *ᶜ Cplx.conj t8
  pure (HTMPJ, HTMPS)

@[thr] theorem run_hgemmdh_110_L (A : Int) (B : Int) (I : Int) (J : Int) (LDA : Int) (LDB : Int) (L : Int) (HTMPJ : Cplx F) (HTMPS : Cplx F) :
    (Thr.hgemmdh_110_L A B I J LDA LDB L HTMPJ HTMPS (F := F)).run = Haxx.hgemmdh_110_L A B I J LDA LDB L HTMPJ HTMPS (F := F) := by
  simp only [Thr.hgemmdh_110_L, Haxx.hgemmdh_110_L, thr]

/-- As `Haxx.hgemmdh_100_I`, `src/hblas/fortran/hblas3/hgemmdh.f:267-334`, body of `DO 100 I`. -/
def hgemmdh_100_I (A : Int) (ALPHA : F) (B : Int) (BETA : Quat F) (BZERO : Bool) (C : Int) (J : Int) (K : Int) (LDA : Int) (LDB : Int) (LDC : Int) (I : Int)  : Prog F (Unit) := do
  let HTMPS : Cplx F := (⟨zero, zero⟩ : Cplx F)
  let HTMPJ : Cplx F := (⟨zero, zero⟩ : Cplx F)
  let r ← foldN (K).toNat (fun i (s : Cplx F × Cplx F) => hgemmdh_110_L A B I J LDA LDB ((i : Int) + 1) s.1 s.2) (HTMPJ, HTMPS)
  let HTMPJ : Cplx F := r.1
  let HTMPS : Cplx F := r.2
  let _ ← (do
    if BZERO then
      wrC (el3 2 2 LDC C 1 I J) (Cplx.ofReal ALPHA *ᶜ HTMPS)
      wrC (el3 2 2 LDC C 2 I J) (Cplx.ofReal ALPHA *ᶜ HTMPJ)
      pure ()
    else
      let t1 ← rdC (el3 2 2 LDC C 1 I J)
      let t2 ← rdC (el3 2 2 LDC C 2 I J)
      let HTMPS : Cplx F := Cplx.ofReal ALPHA *ᶜ HTMPS +ᶜ Quat.lo BETA *ᶜ t1 -ᶜ Quat.hi BETA *ᶜ Cplx.conj t2
      let t3 ← rdC (el3 2 2 LDC C 2 I J)
      let t4 ← rdC (el3 2 2 LDC C 1 I J)
      wrC (el3 2 2 LDC C 2 I J) (Cplx.ofReal ALPHA *ᶜ HTMPJ +ᶜ Quat.lo BETA *ᶜ t3 +ᶜ Quat.hi BETA *ᶜ Cplx.conj t4)
      wrC (el3 2 2 LDC C 1 I J) HTMPS
      pure () : Prog F Unit)
  pure ()

@[thr] theorem run_hgemmdh_100_I (A : Int) (ALPHA : F) (B : Int) (BETA : Quat F) (BZERO : Bool) (C : Int) (J : Int) (K : Int) (LDA : Int) (LDB : Int) (LDC : Int) (I : Int) :
    (Thr.hgemmdh_100_I A ALPHA B BETA BZERO C J K LDA LDB LDC I (F := F)).run = Haxx.hgemmdh_100_I A ALPHA B BETA BZERO C J K LDA LDB LDC I (F := F) := by
  simp only [Thr.hgemmdh_100_I, Haxx.hgemmdh_100_I, thr]

/-- As `Haxx.hgemmdh_100_J`, `src/hblas/fortran/hblas3/hgemmdh.f:266-334`, body of `DO 100 J`. -/
def hgemmdh_100_J (A : Int) (ALPHA : F) (B : Int) (BETA : Quat F) (BZERO : Bool) (C : Int) (K : Int) (LDA : Int) (LDB : Int) (LDC : Int) (M : Int) (J : Int)  : Prog F (Unit) := do
  forN (M).toNat (fun i => hgemmdh_100_I A ALPHA B BETA BZERO C J K LDA LDB LDC ((i : Int) + 1))
  pure ()

@[thr] theorem run_hgemmdh_100_J (A : Int) (ALPHA : F) (B : Int) (BETA : Quat F) (BZERO : Bool) (C : Int) (K : Int) (LDA : Int) (LDB : Int) (LDC : Int) (M : Int) (J : Int) :
    (Thr.hgemmdh_100_J A ALPHA B BETA BZERO C K LDA LDB LDC M J (F := F)).run = Haxx.hgemmdh_100_J A ALPHA B BETA BZERO C K LDA LDB LDC M J (F := F) := by
  simp only [Thr.hgemmdh_100_J, Haxx.hgemmdh_100_J, thr]

/-- As `Haxx.hgemmdh_if108`, `src/hblas/fortran/hblas3/hgemmdh.f:108-335`. -/
def hgemmdh_if108 (A : Int) (ALPHA : F) (B : Int) (BETA : Quat F) (BONE : Bool) (BZERO : Bool) (C : Int) (CONJA : Bool) (K : Int) (LDA : Int) (LDB : Int) (LDC : Int) (M : Int) (N : Int) (NOTA : Bool) : Prog F (Unit) := do
  if NOTA then
    forN (N).toNat (fun i => hgemmdh_30_J A ALPHA B BETA BONE BZERO C K LDA LDB LDC M ((i : Int) + 1))
    pure ()
  else if CONJA then
    forN (N).toNat (fun i => hgemmdh_80_J A ALPHA B BETA BZERO C K LDA LDB LDC M ((i : Int) + 1))
    pure ()
  else
    forN (N).toNat (fun i => hgemmdh_100_J A ALPHA B BETA BZERO C K LDA LDB LDC M ((i : Int) + 1))
    pure ()

@[thr] theorem run_hgemmdh_if108 (A : Int) (ALPHA : F) (B : Int) (BETA : Quat F) (BONE : Bool) (BZERO : Bool) (C : Int) (CONJA : Bool) (K : Int) (LDA : Int) (LDB : Int) (LDC : Int) (M : Int) (N : Int) (NOTA : Bool) :
    (Thr.hgemmdh_if108 A ALPHA B BETA BONE BZERO C CONJA K LDA LDB LDC M N NOTA (F := F)).run = Haxx.hgemmdh_if108 A ALPHA B BETA BONE BZERO C CONJA K LDA LDB LDC M N NOTA (F := F) := by
  simp only [Thr.hgemmdh_if108, Haxx.hgemmdh_if108, thr]

/-- As `Haxx.hgemmdh_130_I`, `src/hblas/fortran/hblas3/hgemmdh.f:343-350`, body of `DO 130 I`. -/
def hgemmdh_130_I (C : Int) (J : Int) (LDC : Int) (I : Int)  : Prog F (Unit) := do
  wrC (el3 2 2 LDC C 1 I J) (⟨zero, zero⟩ : Cplx F)
  wrC (el3 2 2 LDC C 2 I J) (⟨zero, zero⟩ : Cplx F)
  pure ()

@[thr] theorem run_hgemmdh_130_I (C : Int) (J : Int) (LDC : Int) (I : Int) :
    (Thr.hgemmdh_130_I C J LDC I (F := F)).run = Haxx.hgemmdh_130_I C J LDC I (F := F) := by
  simp only [Thr.hgemmdh_130_I, Haxx.hgemmdh_130_I, thr]

/-- As `Haxx.hgemmdh_140_I`, `src/hblas/fortran/hblas3/hgemmdh.f:352-378`, body of `DO 140 I`. -/
def hgemmdh_140_I (BETA : Quat F) (C : Int) (J : Int) (LDC : Int) (I : Int)  : Prog F (Unit) := do
  let t1 ← rdC (el3 2 2 LDC C 1 I J)
  let t2 ← rdC (el3 2 2 LDC C 2 I J)
  let HTMPS : Cplx F := Quat.lo BETA *ᶜ t1 -ᶜ Quat.hi BETA *ᶜ Cplx.conj t2
  let t3 ← rdC (el3 2 2 LDC C 2 I J)
  let t4 ← rdC (el3 2 2 LDC C 1 I J)
  wrC (el3 2 2 LDC C 2 I J) (Quat.lo BETA *ᶜ t3 +ᶜ Quat.hi BETA *ᶜ Cplx.conj t4)
  wrC (el3 2 2 LDC C 1 I J) HTMPS
  pure ()

@[thr] theorem run_hgemmdh_140_I (BETA : Quat F) (C : Int) (J : Int) (LDC : Int) (I : Int) :
    (Thr.hgemmdh_140_I BETA C J LDC I (F := F)).run = Haxx.hgemmdh_140_I BETA C J LDC I (F := F) := by
  simp only [Thr.hgemmdh_140_I, Haxx.hgemmdh_140_I, thr]

/-- As `Haxx.hgemmdh_if342`, `src/hblas/fortran/hblas3/hgemmdh.f:342-379`. -/
def hgemmdh_if342 (BETA : Quat F) (BONE : Bool) (BZERO : Bool) (C : Int) (J : Int) (LDC : Int) (M : Int) : Prog F (Unit) := do
  if BZERO then
    forN (M).toNat (fun i => hgemmdh_130_I C J LDC ((i : Int) + 1))
    pure ()
  else if !BONE then
    forN (M).toNat (fun i => hgemmdh_140_I BETA C J LDC ((i : Int) + 1))
    pure ()
  else
    pure ()

@[thr] theorem run_hgemmdh_if342 (BETA : Quat F) (BONE : Bool) (BZERO : Bool) (C : Int) (J : Int) (LDC : Int) (M : Int) :
    (Thr.hgemmdh_if342 BETA BONE BZERO C J LDC M (F := F)).run = Haxx.hgemmdh_if342 BETA BONE BZERO C J LDC M (F := F) := by
  simp only [Thr.hgemmdh_if342, Haxx.hgemmdh_if342, thr]

/-- As `Haxx.hgemmdh_160_I`, `src/hblas/fortran/hblas3/hgemmdh.f:391-415`, body of `DO 160 I`. -/
def hgemmdh_160_I (A : Int) (C : Int) (HTMPJ : Cplx F) (HTMPS : Cplx F) (J : Int) (L : Int) (LDA : Int) (LDC : Int) (I : Int)  : Prog F (Unit) := do
  let t1 ← rdC (el3 2 2 LDC C 1 I J)
  let t2 ← rdC (el3 2 2 LDA A 1 I L)
  let t3 ← rdC (el3 2 2 LDA A 2 I L)
  wrC (el3 2 2 LDC C 1 I J) (t1 +ᶜ t2 *ᶜ HTMPS -ᶜ t3 *ᶜ Cplx.conj HTMPJ)
  let t4 ← rdC (el3 2 2 LDC C 2 I J)
  let t5 ← rdC (el3 2 2 LDA A 1 I L)
  let t6 ← rdC (el3 2 2 LDA A 2 I L)
  wrC (el3 2 2 LDC C 2 I J) (t4 +ᶜ t5 *ᶜ HTMPJ +ᶜ t6 *ᶜ Cplx.conj HTMPS)
  pure ()

@[thr] theorem run_hgemmdh_160_I (A : Int) (C : Int) (HTMPJ : Cplx F) (HTMPS : Cplx F) (J : Int) (L : Int) (LDA : Int) (LDC : Int) (I : Int) :
    (Thr.hgemmdh_160_I A C HTMPJ HTMPS J L LDA LDC I (F := F)).run = Haxx.hgemmdh_160_I A C HTMPJ HTMPS J L LDA LDC I (F := F) := by
  simp only [Thr.hgemmdh_160_I, Haxx.hgemmdh_160_I, thr]

/-- As `Haxx.hgemmdh_150_L`, `src/hblas/fortran/hblas3/hgemmdh.f:381-416`, body of `DO 150 L`. -/
def hgemmdh_150_L (A : Int) (ALPHA : F) (B : Int) (C : Int) (J : Int) (LDA : Int) (LDB : Int) (LDC : Int) (M : Int) (L : Int)  : Prog F (Unit) := do
  let t1 ← rdC (el3 2 2 LDB B 1 J L)
  let HTMPS : Cplx F := Cplx.ofReal ALPHA *ᶜ Cplx.conj t1
  let t2 ← rdC (el3 2 2 LDB B 2 J L)
  let HTMPJ : Cplx F := Cplx.neg (Cplx.ofReal ALPHA *ᶜ t2)
  forN (M).toNat (fun i => hgemmdh_160_I A C HTMPJ HTMPS J L LDA LDC ((i : Int) + 1))
  pure ()

@[thr] theorem run_hgemmdh_150_L (A : Int) (ALPHA : F) (B : Int) (C : Int) (J : Int) (LDA : Int) (LDB : Int) (LDC : Int) (M : Int) (L : Int) :
    (Thr.hgemmdh_150_L A ALPHA B C J LDA LDB LDC M L (F := F)).run = Haxx.hgemmdh_150_L A ALPHA B C J LDA LDB LDC M L (F := F) := by
  simp only [Thr.hgemmdh_150_L, Haxx.hgemmdh_150_L, thr]

/-- As `Haxx.hgemmdh_120_J`, `src/hblas/fortran/hblas3/hgemmdh.f:341-417`, body of `DO 120 J`. -/
def hgemmdh_120_J (A : Int) (ALPHA : F) (B : Int) (BETA : Quat F) (BONE : Bool) (BZERO : Bool) (C : Int) (K : Int) (LDA : Int) (LDB : Int) (LDC : Int) (M : Int) (J : Int)  : Prog F (Unit) := do
  hgemmdh_if342 BETA BONE BZERO C J LDC M
  forN (K).toNat (fun i => hgemmdh_150_L A ALPHA B C J LDA LDB LDC M ((i : Int) + 1))
  pure ()

@[thr] theorem run_hgemmdh_120_J (A : Int) (ALPHA : F) (B : Int) (BETA : Quat F) (BONE : Bool) (BZERO : Bool) (C : Int) (K : Int) (LDA : Int) (LDB : Int) (LDC : Int) (M : Int) (J : Int) :
    (Thr.hgemmdh_120_J A ALPHA B BETA BONE BZERO C K LDA LDB LDC M J (F := F)).run = Haxx.hgemmdh_120_J A ALPHA B BETA BONE BZERO C K LDA LDB LDC M J (F := F) := by
  simp only [Thr.hgemmdh_120_J, Haxx.hgemmdh_120_J, thr]

/-- As `Haxx.hgemmdh_180_I`, `src/hblas/fortran/hblas3/hgemmdh.f:425-432`, body of `DO 180 I`. -/
def hgemmdh_180_I (C : Int) (J : Int) (LDC : Int) (I : Int)  : Prog F (Unit) := do
  wrC (el3 2 2 LDC C 1 I J) (⟨zero, zero⟩ : Cplx F)
  wrC (el3 2 2 LDC C 2 I J) (⟨zero, zero⟩ : Cplx F)
  pure ()

@[thr] theorem run_hgemmdh_180_I (C : Int) (J : Int) (LDC : Int) (I : Int) :
    (Thr.hgemmdh_180_I C J LDC I (F := F)).run = Haxx.hgemmdh_180_I C J LDC I (F := F) := by
  simp only [Thr.hgemmdh_180_I, Haxx.hgemmdh_180_I, thr]

/-- As `Haxx.hgemmdh_190_I`, `src/hblas/fortran/hblas3/hgemmdh.f:434-460`, body of `DO 190 I`. -/
def hgemmdh_190_I (BETA : Quat F) (C : Int) (J : Int) (LDC : Int) (I : Int)  : Prog F (Unit) := do
  let t1 ← rdC (el3 2 2 LDC C 1 I J)
  let t2 ← rdC (el3 2 2 LDC C 2 I J)
  let HTMPS : Cplx F := Quat.lo BETA *ᶜ t1 -ᶜ Quat.hi BETA *ᶜ Cplx.conj t2
  let t3 ← rdC (el3 2 2 LDC C 2 I J)
  let t4 ← rdC (el3 2 2 LDC C 1 I J)
  wrC (el3 2 2 LDC C 2 I J) (Quat.lo BETA *ᶜ t3 +ᶜ Quat.hi BETA *ᶜ Cplx.conj t4)
  wrC (el3 2 2 LDC C 1 I J) HTMPS
  pure ()

@[thr] theorem run_hgemmdh_190_I (BETA : Quat F) (C : Int) (J : Int) (LDC : Int) (I : Int) :
    (Thr.hgemmdh_190_I BETA C J LDC I (F := F)).run = Haxx.hgemmdh_190_I BETA C J LDC I (F := F) := by
  simp only [Thr.hgemmdh_190_I, Haxx.hgemmdh_190_I, thr]

/-- As `Haxx.hgemmdh_if424`, `src/hblas/fortran/hblas3/hgemmdh.f:424-461`. -/
def hgemmdh_if424 (BETA : Quat F) (BONE : Bool) (BZERO : Bool) (C : Int) (J : Int) (LDC : Int) (M : Int) : Prog F (Unit) := do
  if BZERO then
    forN (M).toNat (fun i => hgemmdh_180_I C J LDC ((i : Int) + 1))
    pure ()
  else if !BONE then
    forN (M).toNat (fun i => hgemmdh_190_I BETA C J LDC ((i : Int) + 1))
    pure ()
  else
    pure ()

@[thr] theorem run_hgemmdh_if424 (BETA : Quat F) (BONE : Bool) (BZERO : Bool) (C : Int) (J : Int) (LDC : Int) (M : Int) :
    (Thr.hgemmdh_if424 BETA BONE BZERO C J LDC M (F := F)).run = Haxx.hgemmdh_if424 BETA BONE BZERO C J LDC M (F := F) := by
  simp only [Thr.hgemmdh_if424, Haxx.hgemmdh_if424, thr]

/-- As `Haxx.hgemmdh_210_I`, `src/hblas/fortran/hblas3/hgemmdh.f:472-496`, body of `DO 210 I`. -/
def hgemmdh_210_I (A : Int) (C : Int) (HTMPJ : Cplx F) (HTMPS : Cplx F) (J : Int) (L : Int) (LDA : Int) (LDC : Int) (I : Int)  : Prog F (Unit) := do
  let t1 ← rdC (el3 2 2 LDC C 1 I J)
  let t2 ← rdC (el3 2 2 LDA A 1 I L)
  let t3 ← rdC (el3 2 2 LDA A 2 I L)
  wrC (el3 2 2 LDC C 1 I J) (t1 +ᶜ t2 *ᶜ HTMPS -ᶜ t3 *ᶜ Cplx.conj HTMPJ)
  let t4 ← rdC (el3 2 2 LDC C 2 I J)
  let t5 ← rdC (el3 2 2 LDA A 1 I L)
  let t6 ← rdC (el3 2 2 LDA A 2 I L)
  wrC (el3 2 2 LDC C 2 I J) (t4 +ᶜ t5 *ᶜ HTMPJ +ᶜ t6 *ᶜ Cplx.conj HTMPS)
  pure ()

@[thr] theorem run_hgemmdh_210_I (A : Int) (C : Int) (HTMPJ : Cplx F) (HTMPS : Cplx F) (J : Int) (L : Int) (LDA : Int) (LDC : Int) (I : Int) :
    (Thr.hgemmdh_210_I A C HTMPJ HTMPS J L LDA LDC I (F := F)).run = Haxx.hgemmdh_210_I A C HTMPJ HTMPS J L LDA LDC I (F := F) := by
  simp only [Thr.hgemmdh_210_I, Haxx.hgemmdh_210_I, thr]

/-- As `Haxx.hgemmdh_200_L`, `src/hblas/fortran/hblas3/hgemmdh.f:463-497`, body of `DO 200 L`. -/
def hgemmdh_200_L (A : Int) (ALPHA : F) (B : Int) (C : Int) (J : Int) (LDA : Int) (LDB : Int) (LDC : Int) (M : Int) (L : Int)  : Prog F (Unit) := do
  let t1 ← rdC (el3 2 2 LDB B 1 J L)
  let HTMPS : Cplx F := Cplx.ofReal ALPHA *ᶜ t1
  let t2 ← rdC (el3 2 2 LDB B 2 J L)
  let HTMPJ : Cplx F := Cplx.ofReal ALPHA *ᶜ t2
  forN (M).toNat (fun i => hgemmdh_210_I A C HTMPJ HTMPS J L LDA LDC ((i : Int) + 1))
  pure ()

@[thr] theorem run_hgemmdh_200_L (A : Int) (ALPHA : F) (B : Int) (C : Int) (J : Int) (LDA : Int) (LDB : Int) (LDC : Int) (M : Int) (L : Int) :
    (Thr.hgemmdh_200_L A ALPHA B C J LDA LDB LDC M L (F := F)).run = Haxx.hgemmdh_200_L A ALPHA B C J LDA LDB LDC M L (F := F) := by
  simp only [Thr.hgemmdh_200_L, Haxx.hgemmdh_200_L, thr]

/-- As `Haxx.hgemmdh_170_J`, `src/hblas/fortran/hblas3/hgemmdh.f:423-498`, body of `DO 170 J`. -/
def hgemmdh_170_J (A : Int) (ALPHA : F) (B : Int) (BETA : Quat F) (BONE : Bool) (BZERO : Bool) (C : Int) (K : Int) (LDA : Int) (LDB : Int) (LDC : Int) (M : Int) (J : Int)  : Prog F (Unit) := do
  hgemmdh_if424 BETA BONE BZERO C J LDC M
  forN (K).toNat (fun i => hgemmdh_200_L A ALPHA B C J LDA LDB LDC M ((i : Int) + 1))
  pure ()

@[thr] theorem run_hgemmdh_170_J (A : Int) (ALPHA : F) (B : Int) (BETA : Quat F) (BONE : Bool) (BZERO : Bool) (C : Int) (K : Int) (LDA : Int) (LDB : Int) (LDC : Int) (M : Int) (J : Int) :
    (Thr.hgemmdh_170_J A ALPHA B BETA BONE BZERO C K LDA LDB LDC M J (F := F)).run = Haxx.hgemmdh_170_J A ALPHA B BETA BONE BZERO C K LDA LDB LDC M J (F := F) := by
  simp only [Thr.hgemmdh_170_J, Haxx.hgemmdh_170_J, thr]

/-- As `Haxx.hgemmdh_if337`, `src/hblas/fortran/hblas3/hgemmdh.f:337-499`. -/
def hgemmdh_if337 (A : Int) (ALPHA : F) (B : Int) (BETA : Quat F) (BONE : Bool) (BZERO : Bool) (C : Int) (CONJB : Bool) (K : Int) (LDA : Int) (LDB : Int) (LDC : Int) (M : Int) (N : Int) : Prog F (Unit) := do
  if CONJB then
    forN (N).toNat (fun i => hgemmdh_120_J A ALPHA B BETA BONE BZERO C K LDA LDB LDC M ((i : Int) + 1))
    pure ()
  else
    forN (N).toNat (fun i => hgemmdh_170_J A ALPHA B BETA BONE BZERO C K LDA LDB LDC M ((i : Int) + 1))
    pure ()

@[thr] theorem run_hgemmdh_if337 (A : Int) (ALPHA : F) (B : Int) (BETA : Quat F) (BONE : Bool) (BZERO : Bool) (C : Int) (CONJB : Bool) (K : Int) (LDA : Int) (LDB : Int) (LDC : Int) (M : Int) (N : Int) :
    (Thr.hgemmdh_if337 A ALPHA B BETA BONE BZERO C CONJB K LDA LDB LDC M N (F := F)).run = Haxx.hgemmdh_if337 A ALPHA B BETA BONE BZERO C CONJB K LDA LDB LDC M N (F := F) := by
  simp only [Thr.hgemmdh_if337, Haxx.hgemmdh_if337, thr]

/-- As `Haxx.hgemmdh_230_L`, `src/hblas/fortran/hblas3/hgemmdh.f:513-534`, body of `DO 230 L`. -/
def hgemmdh_230_L (A : Int) (B : Int) (I : Int) (J : Int) (LDA : Int) (LDB : Int) (L : Int) (HTMPJ : Cplx F) (HTMPS : Cplx F) : Prog F (Cplx F × Cplx F) := do
  let t1 ← rdC (el3 2 2 LDA A 1 L I)
  let t2 ← rdC (el3 2 2 LDB B 1 J L)
  let t3 ← rdC (el3 2 2 LDA A 2 L I)
  let t4 ← rdC (el3 2 2 LDB B 2 J L)
  let HTMPS : Cplx F := HTMPS +ᶜ Cplx.conj t1 *ᶜ Cplx.conj t2 -ᶜ t3 *ᶜ Cplx.conj t4
  let t5 ← rdC (el3 2 2 LDA A 1 L I)
  let t6 ← rdC (el3 2 2 LDB B 2 J L)
  let t7 ← rdC (el3 2 2 LDA A 2 L I)
  let t8 ← rdC (el3 2 2 LDB B 1 J L)
  let HTMPJ : Cplx F := HTMPJ -ᶜ Cplx.conj t5 *ᶜ t6 -ᶜ t7 *ᶜ t8
  pure (HTMPJ, HTMPS)

@[thr] theorem run_hgemmdh_230_L (A : Int) (B : Int) (I : Int) (J : Int) (LDA : Int) (LDB : Int) (L : Int) (HTMPJ : Cplx F) (HTMPS : Cplx F) :
    (Thr.hgemmdh_230_L A B I J LDA LDB L HTMPJ HTMPS (F := F)).run = Haxx.hgemmdh_230_L A B I J LDA LDB L HTMPJ HTMPS (F := F) := by
  simp only [Thr.hgemmdh_230_L, Haxx.hgemmdh_230_L, thr]

/-- As `Haxx.hgemmdh_220_I`, `src/hblas/fortran/hblas3/hgemmdh.f:506-574`, body of `DO 220 I`. -/
def hgemmdh_220_I (A : Int) (ALPHA : F) (B : Int) (BETA : Quat F) (BZERO : Bool) (C : Int) (J : Int) (K : Int) (LDA : Int) (LDB : Int) (LDC : Int) (I : Int)  : Prog F (Unit) := do
  let HTMPS : Cplx F := (⟨zero, zero⟩ : Cplx F)
  let HTMPJ : Cplx F := (⟨zero, zero⟩ : Cplx F)
  let r ← foldN (K).toNat (fun i (s : Cplx F × Cplx F) => hgemmdh_230_L A B I J LDA LDB ((i : Int) + 1) s.1 s.2) (HTMPJ, HTMPS)
  let HTMPJ : Cplx F := r.1
  let HTMPS : Cplx F := r.2
  let _ ← (do
    if BZERO then
      wrC (el3 2 2 LDC C 1 I J) (Cplx.ofReal ALPHA *ᶜ HTMPS)
      wrC (el3 2 2 LDC C 2 I J) (Cplx.ofReal ALPHA *ᶜ HTMPJ)
      pure ()
    else
      let t1 ← rdC (el3 2 2 LDC C 1 I J)
      let t2 ← rdC (el3 2 2 LDC C 2 I J)
      let HTMPS : Cplx F := Cplx.ofReal ALPHA *ᶜ HTMPS +ᶜ Quat.lo BETA *ᶜ t1 -ᶜ Quat.hi BETA *ᶜ Cplx.conj t2
      let t3 ← rdC (el3 2 2 LDC C 2 I J)
      let t4 ← rdC (el3 2 2 LDC C 1 I J)
      wrC (el3 2 2 LDC C 2 I J) (Cplx.ofReal ALPHA *ᶜ HTMPJ +ᶜ Quat.lo BETA *ᶜ t3 +ᶜ Quat.hi BETA *ᶜ Cplx.conj t4)
      wrC (el3 2 2 LDC C 1 I J) HTMPS
      pure () : Prog F Unit)
  pure ()

@[thr] theorem run_hgemmdh_220_I (A : Int) (ALPHA : F) (B : Int) (BETA : Quat F) (BZERO : Bool) (C : Int) (J : Int) (K : Int) (LDA : Int) (LDB : Int) (LDC : Int) (I : Int) :
    (Thr.hgemmdh_220_I A ALPHA B BETA BZERO C J K LDA LDB LDC I (F := F)).run = Haxx.hgemmdh_220_I A ALPHA B BETA BZERO C J K LDA LDB LDC I (F := F) := by
  simp only [Thr.hgemmdh_220_I, Haxx.hgemmdh_220_I, thr]

/-- As `Haxx.hgemmdh_220_J`, `src/hblas/fortran/hblas3/hgemmdh.f:505-574`, body of `DO 220 J`. -/
def hgemmdh_220_J (A : Int) (ALPHA : F) (B : Int) (BETA : Quat F) (BZERO : Bool) (C : Int) (K : Int) (LDA : Int) (LDB : Int) (LDC : Int) (M : Int) (J : Int)  : Prog F (Unit) := do
  forN (M).toNat (fun i => hgemmdh_220_I A ALPHA B BETA BZERO C J K LDA LDB LDC ((i : Int) + 1))
  pure ()

@[thr] theorem run_hgemmdh_220_J (A : Int) (ALPHA : F) (B : Int) (BETA : Quat F) (BZERO : Bool) (C : Int) (K : Int) (LDA : Int) (LDB : Int) (LDC : Int) (M : Int) (J : Int) :
    (Thr.hgemmdh_220_J A ALPHA B BETA BZERO C K LDA LDB LDC M J (F := F)).run = Haxx.hgemmdh_220_J A ALPHA B BETA BZERO C K LDA LDB LDC M J (F := F) := by
  simp only [Thr.hgemmdh_220_J, Haxx.hgemmdh_220_J, thr]

/-- As `Haxx.hgemmdh_250_L`, `src/hblas/fortran/hblas3/hgemmdh.f:588-608`, body of `DO 250 L`. -/
def hgemmdh_250_L (A : Int) (B : Int) (I : Int) (J : Int) (LDA : Int) (LDB : Int) (L : Int) (HTMPJ : Cplx F) (HTMPS : Cplx F) : Prog F (Cplx F × Cplx F) := do
  let t1 ← rdC (el3 2 2 LDA A 1 L I)
  let t2 ← rdC (el3 2 2 LDB B 1 J L)
  let t3 ← rdC (el3 2 2 LDA A 2 L I)
  let t4 ← rdC (el3 2 2 LDB B 2 J L)
  let HTMPS : Cplx F := HTMPS +ᶜ Cplx.conj t1 *ᶜ t2 +ᶜ t3 *ᶜ Cplx.conj t4
  let t5 ← rdC (el3 2 2 LDA A 1 L I)
  let t6 ← rdC (el3 2 2 LDB B 2 J L)
  let t7 ← rdC (el3 2 2 LDA A 2 L I)
  let t8 ← rdC (el3 2 2 LDB B 1 J L)
  let HTMPJ : Cplx F := HTMPJ +ᶜ Cplx.conj t5 *ᶜ t6 -ᶜ t7 *ᶜ Cplx.conj t8
  pure (HTMPJ, HTMPS)

@[thr] theorem run_hgemmdh_250_L (A : Int) (B : Int) (I : Int) (J : Int) (LDA : Int) (LDB : Int) (L : Int) (HTMPJ : Cplx F) (HTMPS : Cplx F) :
    (Thr.hgemmdh_250_L A B I J LDA LDB L HTMPJ HTMPS (F := F)).run = Haxx.hgemmdh_250_L A B I J LDA LDB L HTMPJ HTMPS (F := F) := by
  simp only [Thr.hgemmdh_250_L, Haxx.hgemmdh_250_L, thr]

/-- As `Haxx.hgemmdh_240_I`, `src/hblas/fortran/hblas3/hgemmdh.f:581-648`, body of `DO 240 I`. -/
def hgemmdh_240_I (A : Int) (ALPHA : F) (B : Int) (BETA : Quat F) (BZERO : Bool) (C : Int) (J : Int) (K : Int) (LDA : Int) (LDB : Int) (LDC : Int) (I : Int)  : Prog F (Unit) := do
  let HTMPS : Cplx F := (⟨zero, zero⟩ : Cplx F)
  let HTMPJ : Cplx F := (⟨zero, zero⟩ : Cplx F)
  let r ← foldN (K).toNat (fun i (s : Cplx F × Cplx F) => hgemmdh_250_L A B I J LDA LDB ((i : Int) + 1) s.1 s.2) (HTMPJ, HTMPS)
  let HTMPJ : Cplx F := r.1
  let HTMPS : Cplx F := r.2
  let _ ← (do
    if BZERO then
      wrC (el3 2 2 LDC C 1 I J) (Cplx.ofReal ALPHA *ᶜ HTMPS)
      wrC (el3 2 2 LDC C 2 I J) (Cplx.ofReal ALPHA *ᶜ HTMPJ)
      pure ()
    else
      let t1 ← rdC (el3 2 2 LDC C 1 I J)
      let t2 ← rdC (el3 2 2 LDC C 2 I J)
      let HTMPS : Cplx F := Cplx.ofReal ALPHA *ᶜ HTMPS +ᶜ Quat.lo BETA *ᶜ t1 -ᶜ Quat.hi BETA *ᶜ Cplx.conj t2
      let t3 ← rdC (el3 2 2 LDC C 2 I J)
      let t4 ← rdC (el3 2 2 LDC C 1 I J)
      wrC (el3 2 2 LDC C 2 I J) (Cplx.ofReal ALPHA *ᶜ HTMPJ +ᶜ Quat.lo BETA *ᶜ t3 +ᶜ Quat.hi BETA *ᶜ Cplx.conj t4)
      wrC (el3 2 2 LDC C 1 I J) HTMPS
      pure () : Prog F Unit)
  pure ()

@[thr] theorem run_hgemmdh_240_I (A : Int) (ALPHA : F) (B : Int) (BETA : Quat F) (BZERO : Bool) (C : Int) (J : Int) (K : Int) (LDA : Int) (LDB : Int) (LDC : Int) (I : Int) :
    (Thr.hgemmdh_240_I A ALPHA B BETA BZERO C J K LDA LDB LDC I (F := F)).run = Haxx.hgemmdh_240_I A ALPHA B BETA BZERO C J K LDA LDB LDC I (F := F) := by
  simp only [Thr.hgemmdh_240_I, Haxx.hgemmdh_240_I, thr]

/-- As `Haxx.hgemmdh_240_J`, `src/hblas/fortran/hblas3/hgemmdh.f:580-648`, body of `DO 240 J`. -/
def hgemmdh_240_J (A : Int) (ALPHA : F) (B : Int) (BETA : Quat F) (BZERO : Bool) (C : Int) (K : Int) (LDA : Int) (LDB : Int) (LDC : Int) (M : Int) (J : Int)  : Prog F (Unit) := do
  forN (M).toNat (fun i => hgemmdh_240_I A ALPHA B BETA BZERO C J K LDA LDB LDC ((i : Int) + 1))
  pure ()

@[thr] theorem run_hgemmdh_240_J (A : Int) (ALPHA : F) (B : Int) (BETA : Quat F) (BZERO : Bool) (C : Int) (K : Int) (LDA : Int) (LDB : Int) (LDC : Int) (M : Int) (J : Int) :
    (Thr.hgemmdh_240_J A ALPHA B BETA BZERO C K LDA LDB LDC M J (F := F)).run = Haxx.hgemmdh_240_J A ALPHA B BETA BZERO C K LDA LDB LDC M J (F := F) := by
  simp only [Thr.hgemmdh_240_J, Haxx.hgemmdh_240_J, thr]

/-- As `Haxx.hgemmdh_if501`, `src/hblas/fortran/hblas3/hgemmdh.f:501-649`. -/
def hgemmdh_if501 (A : Int) (ALPHA : F) (B : Int) (BETA : Quat F) (BZERO : Bool) (C : Int) (CONJB : Bool) (K : Int) (LDA : Int) (LDB : Int) (LDC : Int) (M : Int) (N : Int) : Prog F (Unit) := do
  if CONJB then
    forN (N).toNat (fun i => hgemmdh_220_J A ALPHA B BETA BZERO C K LDA LDB LDC M ((i : Int) + 1))
    pure ()
  else
    forN (N).toNat (fun i => hgemmdh_240_J A ALPHA B BETA BZERO C K LDA LDB LDC M ((i : Int) + 1))
    pure ()

@[thr] theorem run_hgemmdh_if501 (A : Int) (ALPHA : F) (B : Int) (BETA : Quat F) (BZERO : Bool) (C : Int) (CONJB : Bool) (K : Int) (LDA : Int) (LDB : Int) (LDC : Int) (M : Int) (N : Int) :
    (Thr.hgemmdh_if501 A ALPHA B BETA BZERO C CONJB K LDA LDB LDC M N (F := F)).run = Haxx.hgemmdh_if501 A ALPHA B BETA BZERO C CONJB K LDA LDB LDC M N (F := F) := by
  simp only [Thr.hgemmdh_if501, Haxx.hgemmdh_if501, thr]

/-- As `Haxx.hgemmdh_270_L`, `src/hblas/fortran/hblas3/hgemmdh.f:662-682`, body of `DO 270 L`. -/
def hgemmdh_270_L (A : Int) (B : Int) (I : Int) (J : Int) (LDA : Int) (LDB : Int) (L : Int) (HTMPJ : Cplx F) (HTMPS : Cplx F) : Prog F (Cplx F × Cplx F) := do
  let t1 ← rdC (el3 2 2 LDA A 1 L I)
  let t2 ← rdC (el3 2 2 LDB B 1 J L)
  let t3 ← rdC (el3 2 2 LDA A 2 L I)
  let t4 ← rdC (el3 2 2 LDB B 2 J L)
  let HTMPS : Cplx F := HTMPS +ᶜ t1 *ᶜ Cplx.conj t2 +ᶜ t3 *ᶜ Cplx.conj t4
  let t5 ← rdC (el3 2 2 LDA A 1 L I)
  let t6 ← rdC (el3 2 2 LDB B 2 J L)
  let t7 ← rdC (el3 2 2 LDA A 2 L I)
  let t8 ← rdC (el3 2 2 LDB B 1 J L)
  let HTMPJ : Cplx F := HTMPJ -ᶜ t5 *ᶜ t6 +ᶜ t7 *ᶜ t8
  pure (HTMPJ, HTMPS)

@[thr] theorem run_hgemmdh_270_L (A : Int) (B : Int) (I : Int) (J : Int) (LDA : Int) (LDB : Int) (L : Int) (HTMPJ : Cplx F) (HTMPS : Cplx F) :
    (Thr.hgemmdh_270_L A B I J LDA LDB L HTMPJ HTMPS (F := F)).run = Haxx.hgemmdh_270_L A B I J LDA LDB L HTMPJ HTMPS (F := F) := by
  simp only [Thr.hgemmdh_270_L, Haxx.hgemmdh_270_L, thr]

/-- As `Haxx.hgemmdh_260_I`, `src/hblas/fortran/hblas3/hgemmdh.f:657-722`, body of `DO 260 I`. -/
def hgemmdh_260_I (A : Int) (ALPHA : F) (B : Int) (BETA : Quat F) (BZERO : Bool) (C : Int) (J : Int) (K : Int) (LDA : Int) (LDB : Int) (LDC : Int) (I : Int)  : Prog F (Unit) := do
  let HTMPS : Cplx F := (⟨zero, zero⟩ : Cplx F)
  -- HTMPI (line 659) is never read
  let HTMPJ : Cplx F := (⟨zero, zero⟩ : Cplx F)
  -- HTMPK (line 661) is never read
  let r ← foldN (K).toNat (fun i (s : Cplx F × Cplx F) => hgemmdh_270_L A B I J LDA LDB ((i : Int) + 1) s.1 s.2) (HTMPJ, HTMPS)
  let HTMPJ : Cplx F := r.1
  let HTMPS : Cplx F := r.2
  let _ ← (do
    if BZERO then
      wrC (el3 2 2 LDC C 1 I J) (Cplx.ofReal ALPHA *ᶜ HTMPS)
      wrC (el3 2 2 LDC C 2 I J) (Cplx.ofReal ALPHA *ᶜ HTMPJ)
      pure ()
    else
      let t1 ← rdC (el3 2 2 LDC C 1 I J)
      let t2 ← rdC (el3 2 2 LDC C 2 I J)
      let HTMPS : Cplx F := Cplx.ofReal ALPHA *ᶜ HTMPS +ᶜ Quat.lo BETA *ᶜ t1 -ᶜ Quat.hi BETA *ᶜ Cplx.conj t2
      let t3 ← rdC (el3 2 2 LDC C 2 I J)
      let t4 ← rdC (el3 2 2 LDC C 1 I J)
      wrC (el3 2 2 LDC C 2 I J) (Cplx.ofReal ALPHA *ᶜ HTMPJ +ᶜ Quat.lo BETA *ᶜ t3 +ᶜ Quat.hi BETA *ᶜ Cplx.conj t4)
      wrC (el3 2 2 LDC C 1 I J) HTMPS
      pure () : Prog F Unit)
  pure ()

@[thr] theorem run_hgemmdh_260_I (A : Int) (ALPHA : F) (B : Int) (BETA : Quat F) (BZERO : Bool) (C : Int) (J : Int) (K : Int) (LDA : Int) (LDB : Int) (LDC : Int) (I : Int) :
    (Thr.hgemmdh_260_I A ALPHA B BETA BZERO C J K LDA LDB LDC I (F := F)).run = Haxx.hgemmdh_260_I A ALPHA B BETA BZERO C J K LDA LDB LDC I (F := F) := by
  simp only [Thr.hgemmdh_260_I, Haxx.hgemmdh_260_I, thr]

/-- As `Haxx.hgemmdh_260_J`, `src/hblas/fortran/hblas3/hgemmdh.f:656-722`, body of `DO 260 J`. -/
def hgemmdh_260_J (A : Int) (ALPHA : F) (B : Int) (BETA : Quat F) (BZERO : Bool) (C : Int) (K : Int) (LDA : Int) (LDB : Int) (LDC : Int) (M : Int) (J : Int)  : Prog F (Unit) := do
  forN (M).toNat (fun i => hgemmdh_260_I A ALPHA B BETA BZERO C J K LDA LDB LDC ((i : Int) + 1))
  pure ()

@[thr] theorem run_hgemmdh_260_J (A : Int) (ALPHA : F) (B : Int) (BETA : Quat F) (BZERO : Bool) (C : Int) (K : Int) (LDA : Int) (LDB : Int) (LDC : Int) (M : Int) (J : Int) :
    (Thr.hgemmdh_260_J A ALPHA B BETA BZERO C K LDA LDB LDC M J (F := F)).run = Haxx.hgemmdh_260_J A ALPHA B BETA BZERO C K LDA LDB LDC M J (F := F) := by
  simp only [Thr.hgemmdh_260_J, Haxx.hgemmdh_260_J, thr]

/-- As `Haxx.hgemmdh_290_L`, `src/hblas/fortran/hblas3/hgemmdh.f:735-755`, body of `DO 290 L`. -/
def hgemmdh_290_L (A : Int) (B : Int) (I : Int) (J : Int) (LDA : Int) (LDB : Int) (L : Int) (HTMPJ : Cplx F) (HTMPS : Cplx F) : Prog F (Cplx F × Cplx F) := do
  let t1 ← rdC (el3 2 2 LDA A 1 L I)
  let t2 ← rdC (el3 2 2 LDB B 1 J L)
  let t3 ← rdC (el3 2 2 LDA A 2 L I)
  let t4 ← rdC (el3 2 2 LDB B 2 J L)
  let HTMPS : Cplx F := HTMPS +ᶜ t1 *ᶜ t2 -ᶜ t3 *ᶜ Cplx.conj t4
  let t5 ← rdC (el3 2 2 LDA A 1 L I)
  let t6 ← rdC (el3 2 2 LDB B 2 J L)
  let t7 ← rdC (el3 2 2 LDA A 2 L I)
  let t8 ← rdC (el3 2 2 LDB B 1 J L)
  let HTMPJ : Cplx F := HTMPJ +ᶜ t5 *ᶜ t6 +ᶜ t7 *ᶜ Cplx.conj t8
  pure (HTMPJ, HTMPS)

@[thr] theorem run_hgemmdh_290_L (A : Int) (B : Int) (I : Int) (J : Int) (LDA : Int) (LDB : Int) (L : Int) (HTMPJ : Cplx F) (HTMPS : Cplx F) :
    (Thr.hgemmdh_290_L A B I J LDA LDB L HTMPJ HTMPS (F := F)).run = Haxx.hgemmdh_290_L A B I J LDA LDB L HTMPJ HTMPS (F := F) := by
  simp only [Thr.hgemmdh_290_L, Haxx.hgemmdh_290_L, thr]

/-- As `Haxx.hgemmdh_280_I`, `src/hblas/fortran/hblas3/hgemmdh.f:728-795`, body of `DO 280 I`. -/
def hgemmdh_280_I (A : Int) (ALPHA : F) (B : Int) (BETA : Quat F) (BZERO : Bool) (C : Int) (J : Int) (K : Int) (LDA : Int) (LDB : Int) (LDC : Int) (I : Int)  : Prog F (Unit) := do
  let HTMPS : Cplx F := (⟨zero, zero⟩ : Cplx F)
  let HTMPJ : Cplx F := (⟨zero, zero⟩ : Cplx F)
  let r ← foldN (K).toNat (fun i (s : Cplx F × Cplx F) => hgemmdh_290_L A B I J LDA LDB ((i : Int) + 1) s.1 s.2) (HTMPJ, HTMPS)
  let HTMPJ : Cplx F := r.1
  let HTMPS : Cplx F := r.2
  let _ ← (do
    if BZERO then
      wrC (el3 2 2 LDC C 1 I J) (Cplx.ofReal ALPHA *ᶜ HTMPS)
      wrC (el3 2 2 LDC C 2 I J) (Cplx.ofReal ALPHA *ᶜ HTMPJ)
      pure ()
    else
      let t1 ← rdC (el3 2 2 LDC C 1 I J)
      let t2 ← rdC (el3 2 2 LDC C 2 I J)
      let HTMPS : Cplx F := Cplx.ofReal ALPHA *ᶜ HTMPS +ᶜ Quat.lo BETA *ᶜ t1 -ᶜ Quat.hi BETA *ᶜ Cplx.conj t2
      let t3 ← rdC (el3 2 2 LDC C 2 I J)
      let t4 ← rdC (el3 2 2 LDC C 1 I J)
      wrC (el3 2 2 LDC C 2 I J) (Cplx.ofReal ALPHA *ᶜ HTMPJ +ᶜ Quat.lo BETA *ᶜ t3 +ᶜ Quat.hi BETA *ᶜ Cplx.conj t4)
      wrC (el3 2 2 LDC C 1 I J) HTMPS
      pure () : Prog F Unit)
  pure ()

@[thr] theorem run_hgemmdh_280_I (A : Int) (ALPHA : F) (B : Int) (BETA : Quat F) (BZERO : Bool) (C : Int) (J : Int) (K : Int) (LDA : Int) (LDB : Int) (LDC : Int) (I : Int) :
    (Thr.hgemmdh_280_I A ALPHA B BETA BZERO C J K LDA LDB LDC I (F := F)).run = Haxx.hgemmdh_280_I A ALPHA B BETA BZERO C J K LDA LDB LDC I (F := F) := by
  simp only [Thr.hgemmdh_280_I, Haxx.hgemmdh_280_I, thr]

/-- As `Haxx.hgemmdh_280_J`, `src/hblas/fortran/hblas3/hgemmdh.f:727-795`, body of `DO 280 J`. -/
def hgemmdh_280_J (A : Int) (ALPHA : F) (B : Int) (BETA : Quat F) (BZERO : Bool) (C : Int) (K : Int) (LDA : Int) (LDB : Int) (LDC : Int) (M : Int) (J : Int)  : Prog F (Unit) := do
  forN (M).toNat (fun i => hgemmdh_280_I A ALPHA B BETA BZERO C J K LDA LDB LDC ((i : Int) + 1))
  pure ()

@[thr] theorem run_hgemmdh_280_J (A : Int) (ALPHA : F) (B : Int) (BETA : Quat F) (BZERO : Bool) (C : Int) (K : Int) (LDA : Int) (LDB : Int) (LDC : Int) (M : Int) (J : Int) :
    (Thr.hgemmdh_280_J A ALPHA B BETA BZERO C K LDA LDB LDC M J (F := F)).run = Haxx.hgemmdh_280_J A ALPHA B BETA BZERO C K LDA LDB LDC M J (F := F) := by
  simp only [Thr.hgemmdh_280_J, Haxx.hgemmdh_280_J, thr]

/-- As `Haxx.hgemmdh_if652`, `src/hblas/fortran/hblas3/hgemmdh.f:652-796`. -/
def hgemmdh_if652 (A : Int) (ALPHA : F) (B : Int) (BETA : Quat F) (BZERO : Bool) (C : Int) (CONJB : Bool) (K : Int) (LDA : Int) (LDB : Int) (LDC : Int) (M : Int) (N : Int) : Prog F (Unit) := do
  if CONJB then
    forN (N).toNat (fun i => hgemmdh_260_J A ALPHA B BETA BZERO C K LDA LDB LDC M ((i : Int) + 1))
    pure ()
  else
    forN (N).toNat (fun i => hgemmdh_280_J A ALPHA B BETA BZERO C K LDA LDB LDC M ((i : Int) + 1))
    pure ()

@[thr] theorem run_hgemmdh_if652 (A : Int) (ALPHA : F) (B : Int) (BETA : Quat F) (BZERO : Bool) (C : Int) (CONJB : Bool) (K : Int) (LDA : Int) (LDB : Int) (LDC : Int) (M : Int) (N : Int) :
    (Thr.hgemmdh_if652 A ALPHA B BETA BZERO C CONJB K LDA LDB LDC M N (F := F)).run = Haxx.hgemmdh_if652 A ALPHA B BETA BZERO C CONJB K LDA LDB LDC M N (F := F) := by
  simp only [Thr.hgemmdh_if652, Haxx.hgemmdh_if652, thr]

/-- As `Haxx.hgemmdh_if107`, `src/hblas/fortran/hblas3/hgemmdh.f:107-797`. -/
def hgemmdh_if107 (A : Int) (ALPHA : F) (B : Int) (BETA : Quat F) (BONE : Bool) (BZERO : Bool) (C : Int) (CONJA : Bool) (CONJB : Bool) (K : Int) (LDA : Int) (LDB : Int) (LDC : Int) (M : Int) (N : Int) (NOTA : Bool) (NOTB : Bool) : Prog F (Unit) := do
  if NOTB then
    hgemmdh_if108 A ALPHA B BETA BONE BZERO C CONJA K LDA LDB LDC M N NOTA
    pure ()
  else if NOTA then
    hgemmdh_if337 A ALPHA B BETA BONE BZERO C CONJB K LDA LDB LDC M N
    pure ()
  else if CONJA then
    hgemmdh_if501 A ALPHA B BETA BZERO C CONJB K LDA LDB LDC M N
    pure ()
  else
    hgemmdh_if652 A ALPHA B BETA BZERO C CONJB K LDA LDB LDC M N
    pure ()

@[thr] theorem run_hgemmdh_if107 (A : Int) (ALPHA : F) (B : Int) (BETA : Quat F) (BONE : Bool) (BZERO : Bool) (C : Int) (CONJA : Bool) (CONJB : Bool) (K : Int) (LDA : Int) (LDB : Int) (LDC : Int) (M : Int) (N : Int) (NOTA : Bool) (NOTB : Bool) :
    (Thr.hgemmdh_if107 A ALPHA B BETA BONE BZERO C CONJA CONJB K LDA LDB LDC M N NOTA NOTB (F := F)).run = Haxx.hgemmdh_if107 A ALPHA B BETA BONE BZERO C CONJA CONJB K LDA LDB LDC M N NOTA NOTB (F := F) := by
  simp only [Thr.hgemmdh_if107, Haxx.hgemmdh_if107, thr]

/-- As `Haxx.hgemmdh`, `src/hblas/fortran/hblas3/hgemmdh.f:10-798`. -/
def hgemmdh (TRANSA : Char) (TRANSB : Char) (M : Int) (N : Int) (K : Int) (ALPHA : F) (A : Int) (LDA : Int) (B : Int) (LDB : Int) (BETA : Quat F) (C : Int) (LDC : Int) : Prog F (Unit) := do
  let NOTA : Bool := lsame TRANSA 'N'
  let NOTB : Bool := lsame TRANSB 'N'
  let CONJA : Bool := lsame TRANSA 'C'
  let CONJB : Bool := lsame TRANSB 'C'
  let AZERO : Bool := Cplx.feq (Cplx.ofReal ALPHA) (⟨zero, zero⟩ : Cplx F)
  -- AONE (line 43) is never read
  let BZERO : Bool := (Cplx.feq (Quat.lo BETA) (⟨zero, zero⟩ : Cplx F)) && (Cplx.feq (Quat.hi BETA) (⟨zero, zero⟩ : Cplx F))
  let BONE : Bool := (Cplx.feq (Quat.lo BETA) (⟨one, zero⟩ : Cplx F)) && (Cplx.feq (Quat.hi BETA) (⟨zero, zero⟩ : Cplx F))
  if (decide (M = 0)) || (decide (N = 0)) then
    pure ()
  else
    if (AZERO || (decide (K = 0))) && BONE then
      pure ()
    else
      if AZERO then
        hgemmdh_if64 BETA BZERO C LDC M N
        pure ()
      else
        hgemmdh_if107 A ALPHA B BETA BONE BZERO C CONJA CONJB K LDA LDB LDC M N NOTA NOTB
        pure ()

@[thr] theorem run_hgemmdh (TRANSA : Char) (TRANSB : Char) (M : Int) (N : Int) (K : Int) (ALPHA : F) (A : Int) (LDA : Int) (B : Int) (LDB : Int) (BETA : Quat F) (C : Int) (LDC : Int) :
    (Thr.hgemmdh TRANSA TRANSB M N K ALPHA A LDA B LDB BETA C LDC (F := F)).run = Haxx.hgemmdh TRANSA TRANSB M N K ALPHA A LDA B LDB BETA C LDC (F := F) := by
  simp only [Thr.hgemmdh, Haxx.hgemmdh, thr]

-- end of FGemmdh

variable {F : Type} [Arith F] [ArithEq F]
/-- As `Haxx.hgemmzd_10_I`, `src/hblas/fortran/hblas3/hgemmzd.f:50-53`, body of `DO 10 I`. -/
def hgemmzd_10_I (C : Int) (J : Int) (LDC : Int) (I : Int)  : Prog F (Unit) := do
  wrC (el3 2 2 LDC C 1 I J) (⟨zero, zero⟩ : Cplx F)
  wrC (el3 2 2 LDC C 2 I J) (⟨zero, zero⟩ : Cplx F)
  pure ()

@[thr] theorem run_hgemmzd_10_I (C : Int) (J : Int) (LDC : Int) (I : Int) :
    (Thr.hgemmzd_10_I C J LDC I (F := F)).run = Haxx.hgemmzd_10_I C J LDC I (F := F) := by
  simp only [Thr.hgemmzd_10_I, Haxx.hgemmzd_10_I, thr]

/-- As `Haxx.hgemmzd_10_J`, `src/hblas/fortran/hblas3/hgemmzd.f:49-53`, body of `DO 10 J`. -/
def hgemmzd_10_J (C : Int) (LDC : Int) (M : Int) (J : Int)  : Prog F (Unit) := do
  forN (M).toNat (fun i => hgemmzd_10_I C J LDC ((i : Int) + 1))
  pure ()

@[thr] theorem run_hgemmzd_10_J (C : Int) (LDC : Int) (M : Int) (J : Int) :
    (Thr.hgemmzd_10_J C LDC M J (F := F)).run = Haxx.hgemmzd_10_J C LDC M J (F := F) := by
  simp only [Thr.hgemmzd_10_J, Haxx.hgemmzd_10_J, thr]

/-- As `Haxx.hgemmzd_20_I`, `src/hblas/fortran/hblas3/hgemmzd.f:56-59`, body of `DO 20 I`. -/
def hgemmzd_20_I (BETA : F) (C : Int) (J : Int) (LDC : Int) (I : Int)  : Prog F (Unit) := do
  let t1 ← rdC (el3 2 2 LDC C 1 I J)
  wrC (el3 2 2 LDC C 1 I J) (Cplx.ofReal BETA *ᶜ t1)
  let t2 ← rdC (el3 2 2 LDC C 2 I J)
  wrC (el3 2 2 LDC C 2 I J) (Cplx.ofReal BETA *ᶜ t2)
  pure ()

@[thr] theorem run_hgemmzd_20_I (BETA : F) (C : Int) (J : Int) (LDC : Int) (I : Int) :
    (Thr.hgemmzd_20_I BETA C J LDC I (F := F)).run = Haxx.hgemmzd_20_I BETA C J LDC I (F := F) := by
  simp only [Thr.hgemmzd_20_I, Haxx.hgemmzd_20_I, thr]

/-- As `Haxx.hgemmzd_20_J`, `src/hblas/fortran/hblas3/hgemmzd.f:55-59`, body of `DO 20 J`. -/
def hgemmzd_20_J (BETA : F) (C : Int) (LDC : Int) (M : Int) (J : Int)  : Prog F (Unit) := do
  forN (M).toNat (fun i => hgemmzd_20_I BETA C J LDC ((i : Int) + 1))
  pure ()

@[thr] theorem run_hgemmzd_20_J (BETA : F) (C : Int) (LDC : Int) (M : Int) (J : Int) :
    (Thr.hgemmzd_20_J BETA C LDC M J (F := F)).run = Haxx.hgemmzd_20_J BETA C LDC M J (F := F) := by
  simp only [Thr.hgemmzd_20_J, Haxx.hgemmzd_20_J, thr]

/-- As `Haxx.hgemmzd_if48`, `src/hblas/fortran/hblas3/hgemmzd.f:48-60`. -/
def hgemmzd_if48 (BETA : F) (BZERO : Bool) (C : Int) (LDC : Int) (M : Int) (N : Int) : Prog F (Unit) := do
  if BZERO then
    forN (N).toNat (fun i => hgemmzd_10_J C LDC M ((i : Int) + 1))
    pure ()
  else
    forN (N).toNat (fun i => hgemmzd_20_J BETA C LDC M ((i : Int) + 1))
    pure ()

@[thr] theorem run_hgemmzd_if48 (BETA : F) (BZERO : Bool) (C : Int) (LDC : Int) (M : Int) (N : Int) :
    (Thr.hgemmzd_if48 BETA BZERO C LDC M N (F := F)).run = Haxx.hgemmzd_if48 BETA BZERO C LDC M N (F := F) := by
  simp only [Thr.hgemmzd_if48, Haxx.hgemmzd_if48, thr]

/-- As `Haxx.hgemmzd_40_I`, `src/hblas/fortran/hblas3/hgemmzd.f:71-74`, body of `DO 40 I`. -/
def hgemmzd_40_I (C : Int) (J : Int) (LDC : Int) (I : Int)  : Prog F (Unit) := do
  wrC (el3 2 2 LDC C 1 I J) (⟨zero, zero⟩ : Cplx F)
  wrC (el3 2 2 LDC C 2 I J) (⟨zero, zero⟩ : Cplx F)
  pure ()

@[thr] theorem run_hgemmzd_40_I (C : Int) (J : Int) (LDC : Int) (I : Int) :
    (Thr.hgemmzd_40_I C J LDC I (F := F)).run = Haxx.hgemmzd_40_I C J LDC I (F := F) := by
  simp only [Thr.hgemmzd_40_I, Haxx.hgemmzd_40_I, thr]

/-- As `Haxx.hgemmzd_50_I`, `src/hblas/fortran/hblas3/hgemmzd.f:76-79`, body of `DO 50 I`. -/
def hgemmzd_50_I (BETA : F) (C : Int) (J : Int) (LDC : Int) (I : Int)  : Prog F (Unit) := do
  let t1 ← rdC (el3 2 2 LDC C 1 I J)
  wrC (el3 2 2 LDC C 1 I J) (Cplx.ofReal BETA *ᶜ t1)
  let t2 ← rdC (el3 2 2 LDC C 2 I J)
  wrC (el3 2 2 LDC C 2 I J) (Cplx.ofReal BETA *ᶜ t2)
  pure ()

@[thr] theorem run_hgemmzd_50_I (BETA : F) (C : Int) (J : Int) (LDC : Int) (I : Int) :
    (Thr.hgemmzd_50_I BETA C J LDC I (F := F)).run = Haxx.hgemmzd_50_I BETA C J LDC I (F := F) := by
  simp only [Thr.hgemmzd_50_I, Haxx.hgemmzd_50_I, thr]

/-- As `Haxx.hgemmzd_if70`, `src/hblas/fortran/hblas3/hgemmzd.f:70-80`. -/
def hgemmzd_if70 (BETA : F) (BONE : Bool) (BZERO : Bool) (C : Int) (J : Int) (LDC : Int) (M : Int) : Prog F (Unit) := do
  if BZERO then
    forN (M).toNat (fun i => hgemmzd_40_I C J LDC ((i : Int) + 1))
    pure ()
  else if !BONE then
    forN (M).toNat (fun i => hgemmzd_50_I BETA C J LDC ((i : Int) + 1))
    pure ()
  else
    pure ()

@[thr] theorem run_hgemmzd_if70 (BETA : F) (BONE : Bool) (BZERO : Bool) (C : Int) (J : Int) (LDC : Int) (M : Int) :
    (Thr.hgemmzd_if70 BETA BONE BZERO C J LDC M (F := F)).run = Haxx.hgemmzd_if70 BETA BONE BZERO C J LDC M (F := F) := by
  simp only [Thr.hgemmzd_if70, Haxx.hgemmzd_if70, thr]

/-- As `Haxx.hgemmzd_70_I`, `src/hblas/fortran/hblas3/hgemmzd.f:87-93`, body of `DO 70 I`. -/
def hgemmzd_70_I (A : Int) (C : Int) (HTMP1J : Cplx F) (HTMP1S : Cplx F) (HTMP2J : Cplx F) (HTMP2S : Cplx F) (J : Int) (L : Int) (LDA : Int) (LDC : Int) (I : Int)  : Prog F (Unit) := do
  let t1 ← rdC (el3 2 2 LDC C 1 I J)
  let t2 ← rdC (el3 2 2 LDA A 1 I L)
  let t3 ← rdC (el3 2 2 LDA A 2 I L)
  wrC (el3 2 2 LDC C 1 I J) (t1 +ᶜ t2 *ᶜ HTMP1S -ᶜ t3 *ᶜ HTMP2J)
  let t4 ← rdC (el3 2 2 LDC C 2 I J)
  let t5 ← rdC (el3 2 2 LDA A 1 I L)
  let t6 ← rdC (el3 2 2 LDA A 2 I L)
  wrC (el3 2 2 LDC C 2 I J) (t4 +ᶜ t5 *ᶜ HTMP1J +ᶜ t6 *ᶜ HTMP2S)
  pure ()

@[thr] theorem run_hgemmzd_70_I (A : Int) (C : Int) (HTMP1J : Cplx F) (HTMP1S : Cplx F) (HTMP2J : Cplx F) (HTMP2S : Cplx F) (J : Int) (L : Int) (LDA : Int) (LDC : Int) (I : Int) :
    (Thr.hgemmzd_70_I A C HTMP1J HTMP1S HTMP2J HTMP2S J L LDA LDC I (F := F)).run = Haxx.hgemmzd_70_I A C HTMP1J HTMP1S HTMP2J HTMP2S J L LDA LDC I (F := F) := by
  simp only [Thr.hgemmzd_70_I, Haxx.hgemmzd_70_I, thr]

/-- As `Haxx.hgemmzd_60_L`, `src/hblas/fortran/hblas3/hgemmzd.f:82-94`, body of `DO 60 L`. -/
def hgemmzd_60_L (A : Int) (ALPHA : Cplx F) (B : Int) (C : Int) (J : Int) (LDA : Int) (LDB : Int) (LDC : Int) (M : Int) (L : Int)  : Prog F (Unit) := do
  let t1 ← rdC (el3 2 2 LDB B 1 L J)
  let HTMP1S : Cplx F := ALPHA *ᶜ t1
  let t2 ← rdC (el3 2 2 LDB B 2 L J)
  let HTMP1J : Cplx F := ALPHA *ᶜ t2
  let t3 ← rdC (el3 2 2 LDB B 1 L J)
  let HTMP2S : Cplx F := ALPHA *ᶜ Cplx.conj t3
  let t4 ← rdC (el3 2 2 LDB B 2 L J)
  let HTMP2J : Cplx F := ALPHA *ᶜ Cplx.conj t4
  forN (M).toNat (fun i => hgemmzd_70_I A C HTMP1J HTMP1S HTMP2J HTMP2S J L LDA LDC ((i : Int) + 1))
  pure ()

@[thr] theorem run_hgemmzd_60_L (A : Int) (ALPHA : Cplx F) (B : Int) (C : Int) (J : Int) (LDA : Int) (LDB : Int) (LDC : Int) (M : Int) (L : Int) :
    (Thr.hgemmzd_60_L A ALPHA B C J LDA LDB LDC M L (F := F)).run = Haxx.hgemmzd_60_L A ALPHA B C J LDA LDB LDC M L (F := F) := by
  simp only [Thr.hgemmzd_60_L, Haxx.hgemmzd_60_L, thr]

/-- As `Haxx.hgemmzd_30_J`, `src/hblas/fortran/hblas3/hgemmzd.f:69-95`, body of `DO 30 J`. -/
def hgemmzd_30_J (A : Int) (ALPHA : Cplx F) (B : Int) (BETA : F) (BONE : Bool) (BZERO : Bool) (C : Int) (K : Int) (LDA : Int) (LDB : Int) (LDC : Int) (M : Int) (J : Int)  : Prog F (Unit) := do
  hgemmzd_if70 BETA BONE BZERO C J LDC M
  forN (K).toNat (fun i => hgemmzd_60_L A ALPHA B C J LDA LDB LDC M ((i : Int) + 1))
  pure ()

@[thr] theorem run_hgemmzd_30_J (A : Int) (ALPHA : Cplx F) (B : Int) (BETA : F) (BONE : Bool) (BZERO : Bool) (C : Int) (K : Int) (LDA : Int) (LDB : Int) (LDC : Int) (M : Int) (J : Int) :
    (Thr.hgemmzd_30_J A ALPHA B BETA BONE BZERO C K LDA LDB LDC M J (F := F)).run = Haxx.hgemmzd_30_J A ALPHA B BETA BONE BZERO C K LDA LDB LDC M J (F := F) := by
  simp only [Thr.hgemmzd_30_J, Haxx.hgemmzd_30_J, thr]

/-- As `Haxx.hgemmzd_90_L`, `src/hblas/fortran/hblas3/hgemmzd.f:104-110`, body of `DO 90 L`. -/
def hgemmzd_90_L (A : Int) (B : Int) (I : Int) (J : Int) (LDA : Int) (LDB : Int) (L : Int) (HTMP1J : Cplx F) (HTMP1S : Cplx F) : Prog F (Cplx F × Cplx F) := do
  let t1 ← rdC (el3 2 2 LDA A 1 L I)
  let t2 ← rdC (el3 2 2 LDB B 1 L J)
  let t3 ← rdC (el3 2 2 LDA A 2 L I)
  let t4 ← rdC (el3 2 2 LDB B 2 L J)
  let HTMP1S : Cplx F := HTMP1S +ᶜ Cplx.conj t1 *ᶜ t2 +ᶜ t3 *ᶜ Cplx.conj t4
  let t5 ← rdC (el3 2 2 LDA A 1 L I)
  let t6 ← rdC (el3 2 2 LDB B 2 L J)
  let t7 ← rdC (el3 2 2 LDA A 2 L I)
  let t8 ← rdC (el3 2 2 LDB B 1 L J)
  let HTMP1J : Cplx F := HTMP1J +ᶜ Cplx.conj t5 *ᶜ t6 -ᶜ t7 *ᶜ Cplx.conj t8
  pure (HTMP1J, HTMP1S)

@[thr] theorem run_hgemmzd_90_L (A : Int) (B : Int) (I : Int) (J : Int) (LDA : Int) (LDB : Int) (L : Int) (HTMP1J : Cplx F) (HTMP1S : Cplx F) :
    (Thr.hgemmzd_90_L A B I J LDA LDB L HTMP1J HTMP1S (F := F)).run = Haxx.hgemmzd_90_L A B I J LDA LDB L HTMP1J HTMP1S (F := F) := by
  simp only [Thr.hgemmzd_90_L, Haxx.hgemmzd_90_L, thr]

/-- As `Haxx.hgemmzd_80_I`, `src/hblas/fortran/hblas3/hgemmzd.f:101-119`, body of `DO 80 I`. -/
def hgemmzd_80_I (A : Int) (ALPHA : Cplx F) (B : Int) (BETA : F) (BZERO : Bool) (C : Int) (J : Int) (K : Int) (LDA : Int) (LDB : Int) (LDC : Int) (I : Int)  : Prog F (Unit) := do
  let HTMP1S : Cplx F := (⟨zero, zero⟩ : Cplx F)
  let HTMP1J : Cplx F := (⟨zero, zero⟩ : Cplx F)
  let r ← foldN (K).toNat (fun i (s : Cplx F × Cplx F) => hgemmzd_90_L A B I J LDA LDB ((i : Int) + 1) s.1 s.2) (HTMP1J, HTMP1S)
  let HTMP1J : Cplx F := r.1
  let HTMP1S : Cplx F := r.2
  let _ ← (do
    if BZERO then
      wrC (el3 2 2 LDC C 1 I J) (ALPHA *ᶜ HTMP1S)
      wrC (el3 2 2 LDC C 2 I J) (ALPHA *ᶜ HTMP1J)
      pure ()
    else
      let t1 ← rdC (el3 2 2 LDC C 1 I J)
      wrC (el3 2 2 LDC C 1 I J) (ALPHA *ᶜ HTMP1S +ᶜ Cplx.ofReal BETA *ᶜ t1)
      let t2 ← rdC (el3 2 2 LDC C 2 I J)
      wrC (el3 2 2 LDC C 2 I J) (ALPHA *ᶜ HTMP1J +ᶜ Cplx.ofReal BETA *ᶜ t2)
      pure () : Prog F Unit)
  pure ()

@[thr] theorem run_hgemmzd_80_I (A : Int) (ALPHA : Cplx F) (B : Int) (BETA : F) (BZERO : Bool) (C : Int) (J : Int) (K : Int) (LDA : Int) (LDB : Int) (LDC : Int) (I : Int) :
    (Thr.hgemmzd_80_I A ALPHA B BETA BZERO C J K LDA LDB LDC I (F := F)).run = Haxx.hgemmzd_80_I A ALPHA B BETA BZERO C J K LDA LDB LDC I (F := F) := by
  simp only [Thr.hgemmzd_80_I, Haxx.hgemmzd_80_I, thr]

/-- As `Haxx.hgemmzd_80_J`, `src/hblas/fortran/hblas3/hgemmzd.f:100-119`, body of `DO 80 J`. -/
def hgemmzd_80_J (A : Int) (ALPHA : Cplx F) (B : Int) (BETA : F) (BZERO : Bool) (C : Int) (K : Int) (LDA : Int) (LDB : Int) (LDC : Int) (M : Int) (J : Int)  : Prog F (Unit) := do
  forN (M).toNat (fun i => hgemmzd_80_I A ALPHA B BETA BZERO C J K LDA LDB LDC ((i : Int) + 1))
  pure ()

@[thr] theorem run_hgemmzd_80_J (A : Int) (ALPHA : Cplx F) (B : Int) (BETA : F) (BZERO : Bool) (C : Int) (K : Int) (LDA : Int) (LDB : Int) (LDC : Int) (M : Int) (J : Int) :
    (Thr.hgemmzd_80_J A ALPHA B BETA BZERO C K LDA LDB LDC M J (F := F)).run = Haxx.hgemmzd_80_J A ALPHA B BETA BZERO C K LDA LDB LDC M J (F := F) := by
  simp only [Thr.hgemmzd_80_J, Haxx.hgemmzd_80_J, thr]

/-- As `Haxx.hgemmzd_110_L`, `src/hblas/fortran/hblas3/hgemmzd.f:129-135`, body of `DO 110 L`. -/
def hgemmzd_110_L (A : Int) (B : Int) (I : Int) (J : Int) (LDA : Int) (LDB : Int) (L : Int) (HTMP1J : Cplx F) (HTMP1S : Cplx F) : Prog F (Cplx F × Cplx F) := do
  let t1 ← rdC (el3 2 2 LDA A 1 L I)
  let t2 ← rdC (el3 2 2 LDB B 1 L J)
  let t3 ← rdC (el3 2 2 LDA A 2 L I)
  let t4 ← rdC (el3 2 2 LDB B 2 L J)
  let HTMP1S : Cplx F := HTMP1S +ᶜ t1 *ᶜ t2 -ᶜ t3 *ᶜ Cplx.conj t4
  let t5 ← rdC (el3 2 2 LDA A 1 L I)
  let t6 ← rdC (el3 2 2 LDB B 2 L J)
  let t7 ← rdC (el3 2 2 LDA A 2 L I)
  let t8 ← rdC (el3 2 2 LDB B 1 L J)
  let HTMP1J : Cplx F := HTMP1J +ᶜ t5 *ᶜ t6 +ᶜ t7 *ᶜ Cplx.conj t8
  pure (HTMP1J, HTMP1S)

@[thr] theorem run_hgemmzd_110_L (A : Int) (B : Int) (I : Int) (J : Int) (LDA : Int) (LDB : Int) (L : Int) (HTMP1J : Cplx F) (HTMP1S : Cplx F) :
    (Thr.hgemmzd_110_L A B I J LDA LDB L HTMP1J HTMP1S (F := F)).run = Haxx.hgemmzd_110_L A B I J LDA LDB L HTMP1J HTMP1S (F := F) := by
  simp only [Thr.hgemmzd_110_L, Haxx.hgemmzd_110_L, thr]

/-- As `Haxx.hgemmzd_100_I`, `src/hblas/fortran/hblas3/hgemmzd.f:126-144`, body of `DO 100 I`. -/
def hgemmzd_100_I (A : Int) (ALPHA : Cplx F) (B : Int) (BETA : F) (BZERO : Bool) (C : Int) (J : Int) (K : Int) (LDA : Int) (LDB : Int) (LDC : Int) (I : Int)  : Prog F (Unit) := do
  let HTMP1S : Cplx F := (⟨zero, zero⟩ : Cplx F)
  let HTMP1J : Cplx F := (⟨zero, zero⟩ : Cplx F)
  let r ← foldN (K).toNat (fun i (s : Cplx F × Cplx F) => hgemmzd_110_L A B I J LDA LDB ((i : Int) + 1) s.1 s.2) (HTMP1J, HTMP1S)
  let HTMP1J : Cplx F := r.1
  let HTMP1S : Cplx F := r.2
  let _ ← (do
    if BZERO then
      wrC (el3 2 2 LDC C 1 I J) (ALPHA *ᶜ HTMP1S)
      wrC (el3 2 2 LDC C 2 I J) (ALPHA *ᶜ HTMP1J)
      pure ()
    else
      let t1 ← rdC (el3 2 2 LDC C 1 I J)
      wrC (el3 2 2 LDC C 1 I J) (ALPHA *ᶜ HTMP1S +ᶜ Cplx.ofReal BETA *ᶜ t1)
      let t2 ← rdC (el3 2 2 LDC C 2 I J)
      wrC (el3 2 2 LDC C 2 I J) (ALPHA *ᶜ HTMP1J +ᶜ Cplx.ofReal BETA *ᶜ t2)
      pure () : Prog F Unit)
  pure ()

@[thr] theorem run_hgemmzd_100_I (A : Int) (ALPHA : Cplx F) (B : Int) (BETA : F) (BZERO : Bool) (C : Int) (J : Int) (K : Int) (LDA : Int) (LDB : Int) (LDC : Int) (I : Int) :
    (Thr.hgemmzd_100_I A ALPHA B BETA BZERO C J K LDA LDB LDC I (F := F)).run = Haxx.hgemmzd_100_I A ALPHA B BETA BZERO C J K LDA LDB LDC I (F := F) := by
  simp only [Thr.hgemmzd_100_I, Haxx.hgemmzd_100_I, thr]

/-- As `Haxx.hgemmzd_100_J`, `src/hblas/fortran/hblas3/hgemmzd.f:125-144`, body of `DO 100 J`. -/
def hgemmzd_100_J (A : Int) (ALPHA : Cplx F) (B : Int) (BETA : F) (BZERO : Bool) (C : Int) (K : Int) (LDA : Int) (LDB : Int) (LDC : Int) (M : Int) (J : Int)  : Prog F (Unit) := do
  forN (M).toNat (fun i => hgemmzd_100_I A ALPHA B BETA BZERO C J K LDA LDB LDC ((i : Int) + 1))
  pure ()

@[thr] theorem run_hgemmzd_100_J (A : Int) (ALPHA : Cplx F) (B : Int) (BETA : F) (BZERO : Bool) (C : Int) (K : Int) (LDA : Int) (LDB : Int) (LDC : Int) (M : Int) (J : Int) :
    (Thr.hgemmzd_100_J A ALPHA B BETA BZERO C K LDA LDB LDC M J (F := F)).run = Haxx.hgemmzd_100_J A ALPHA B BETA BZERO C K LDA LDB LDC M J (F := F) := by
  simp only [Thr.hgemmzd_100_J, Haxx.hgemmzd_100_J, thr]

/-- As `Haxx.hgemmzd_if65`, `src/hblas/fortran/hblas3/hgemmzd.f:65-145`. -/
def hgemmzd_if65 (A : Int) (ALPHA : Cplx F) (B : Int) (BETA : F) (BONE : Bool) (BZERO : Bool) (C : Int) (CONJA : Bool) (K : Int) (LDA : Int) (LDB : Int) (LDC : Int) (M : Int) (N : Int) (NOTA : Bool) : Prog F (Unit) := do
  if NOTA then
    forN (N).toNat (fun i => hgemmzd_30_J A ALPHA B BETA BONE BZERO C K LDA LDB LDC M ((i : Int) + 1))
    pure ()
  else if CONJA then
    forN (N).toNat (fun i => hgemmzd_80_J A ALPHA B BETA BZERO C K LDA LDB LDC M ((i : Int) + 1))
    pure ()
  else
    forN (N).toNat (fun i => hgemmzd_100_J A ALPHA B BETA BZERO C K LDA LDB LDC M ((i : Int) + 1))
    pure ()

@[thr] theorem run_hgemmzd_if65 (A : Int) (ALPHA : Cplx F) (B : Int) (BETA : F) (BONE : Bool) (BZERO : Bool) (C : Int) (CONJA : Bool) (K : Int) (LDA : Int) (LDB : Int) (LDC : Int) (M : Int) (N : Int) (NOTA : Bool) :
    (Thr.hgemmzd_if65 A ALPHA B BETA BONE BZERO C CONJA K LDA LDB LDC M N NOTA (F := F)).run = Haxx.hgemmzd_if65 A ALPHA B BETA BONE BZERO C CONJA K LDA LDB LDC M N NOTA (F := F) := by
  simp only [Thr.hgemmzd_if65, Haxx.hgemmzd_if65, thr]

/-- As `Haxx.hgemmzd_130_I`, `src/hblas/fortran/hblas3/hgemmzd.f:153-156`, body of `DO 130 I`. -/
def hgemmzd_130_I (C : Int) (J : Int) (LDC : Int) (I : Int)  : Prog F (Unit) := do
  wrC (el3 2 2 LDC C 1 I J) (⟨zero, zero⟩ : Cplx F)
  wrC (el3 2 2 LDC C 2 I J) (⟨zero, zero⟩ : Cplx F)
  pure ()

@[thr] theorem run_hgemmzd_130_I (C : Int) (J : Int) (LDC : Int) (I : Int) :
    (Thr.hgemmzd_130_I C J LDC I (F := F)).run = Haxx.hgemmzd_130_I C J LDC I (F := F) := by
  simp only [Thr.hgemmzd_130_I, Haxx.hgemmzd_130_I, thr]

/-- As `Haxx.hgemmzd_140_I`, `src/hblas/fortran/hblas3/hgemmzd.f:158-161`, body of `DO 140 I`. -/
def hgemmzd_140_I (BETA : F) (C : Int) (J : Int) (LDC : Int) (I : Int)  : Prog F (Unit) := do
  let t1 ← rdC (el3 2 2 LDC C 1 I J)
  wrC (el3 2 2 LDC C 1 I J) (Cplx.ofReal BETA *ᶜ t1)
  let t2 ← rdC (el3 2 2 LDC C 2 I J)
  wrC (el3 2 2 LDC C 2 I J) (Cplx.ofReal BETA *ᶜ t2)
  pure ()

@[thr] theorem run_hgemmzd_140_I (BETA : F) (C : Int) (J : Int) (LDC : Int) (I : Int) :
    (Thr.hgemmzd_140_I BETA C J LDC I (F := F)).run = Haxx.hgemmzd_140_I BETA C J LDC I (F := F) := by
  simp only [Thr.hgemmzd_140_I, Haxx.hgemmzd_140_I, thr]

/-- As `Haxx.hgemmzd_if152`, `src/hblas/fortran/hblas3/hgemmzd.f:152-162`. -/
def hgemmzd_if152 (BETA : F) (BONE : Bool) (BZERO : Bool) (C : Int) (J : Int) (LDC : Int) (M : Int) : Prog F (Unit) := do
  if BZERO then
    forN (M).toNat (fun i => hgemmzd_130_I C J LDC ((i : Int) + 1))
    pure ()
  else if !BONE then
    forN (M).toNat (fun i => hgemmzd_140_I BETA C J LDC ((i : Int) + 1))
    pure ()
  else
    pure ()

@[thr] theorem run_hgemmzd_if152 (BETA : F) (BONE : Bool) (BZERO : Bool) (C : Int) (J : Int) (LDC : Int) (M : Int) :
    (Thr.hgemmzd_if152 BETA BONE BZERO C J LDC M (F := F)).run = Haxx.hgemmzd_if152 BETA BONE BZERO C J LDC M (F := F) := by
  simp only [Thr.hgemmzd_if152, Haxx.hgemmzd_if152, thr]

/-- As `Haxx.hgemmzd_160_I`, `src/hblas/fortran/hblas3/hgemmzd.f:169-175`, body of `DO 160 I`. -/
def hgemmzd_160_I (A : Int) (C : Int) (HTMP1J : Cplx F) (HTMP1S : Cplx F) (HTMP2J : Cplx F) (HTMP2S : Cplx F) (J : Int) (L : Int) (LDA : Int) (LDC : Int) (I : Int)  : Prog F (Unit) := do
  let t1 ← rdC (el3 2 2 LDC C 1 I J)
  let t2 ← rdC (el3 2 2 LDA A 1 I L)
  let t3 ← rdC (el3 2 2 LDA A 2 I L)
  wrC (el3 2 2 LDC C 1 I J) (t1 +ᶜ t2 *ᶜ HTMP2S -ᶜ t3 *ᶜ HTMP2J)
  let t4 ← rdC (el3 2 2 LDC C 2 I J)
  let t5 ← rdC (el3 2 2 LDA A 1 I L)
  let t6 ← rdC (el3 2 2 LDA A 2 I L)
  wrC (el3 2 2 LDC C 2 I J) (t4 +ᶜ t5 *ᶜ HTMP1J +ᶜ t6 *ᶜ HTMP1S)
  pure ()

@[thr] theorem run_hgemmzd_160_I (A : Int) (C : Int) (HTMP1J : Cplx F) (HTMP1S : Cplx F) (HTMP2J : Cplx F) (HTMP2S : Cplx F) (J : Int) (L : Int) (LDA : Int) (LDC : Int) (I : Int) :
    (Thr.hgemmzd_160_I A C HTMP1J HTMP1S HTMP2J HTMP2S J L LDA LDC I (F := F)).run = Haxx.hgemmzd_160_I A C HTMP1J HTMP1S HTMP2J HTMP2S J L LDA LDC I (F := F) := by
  simp only [Thr.hgemmzd_160_I, Haxx.hgemmzd_160_I, thr]

/-- As `Haxx.hgemmzd_150_L`, `src/hblas/fortran/hblas3/hgemmzd.f:164-176`, body of `DO 150 L`. -/
def hgemmzd_150_L (A : Int) (ALPHA : Cplx F) (B : Int) (C : Int) (J : Int) (LDA : Int) (LDB : Int) (LDC : Int) (M : Int) (L : Int)  : Prog F (Unit) := do
  let t1 ← rdC (el3 2 2 LDB B 1 J L)
  let HTMP1S : Cplx F := ALPHA *ᶜ t1
  let t2 ← rdC (el3 2 2 LDB B 2 J L)
  let HTMP1J : Cplx F := Cplx.neg (ALPHA *ᶜ t2)
  let t3 ← rdC (el3 2 2 LDB B 1 J L)
  let HTMP2S : Cplx F := ALPHA *ᶜ Cplx.conj t3
  let t4 ← rdC (el3 2 2 LDB B 2 J L)
  let HTMP2J : Cplx F := Cplx.neg (ALPHA *ᶜ Cplx.conj t4)
  forN (M).toNat (fun i => hgemmzd_160_I A C HTMP1J HTMP1S HTMP2J HTMP2S J L LDA LDC ((i : Int) + 1))
  pure ()

@[thr] theorem run_hgemmzd_150_L (A : Int) (ALPHA : Cplx F) (B : Int) (C : Int) (J : Int) (LDA : Int) (LDB : Int) (LDC : Int) (M : Int) (L : Int) :
    (Thr.hgemmzd_150_L A ALPHA B C J LDA LDB LDC M L (F := F)).run = Haxx.hgemmzd_150_L A ALPHA B C J LDA LDB LDC M L (F := F) := by
  simp only [Thr.hgemmzd_150_L, Haxx.hgemmzd_150_L, thr]

/-- As `Haxx.hgemmzd_120_J`, `src/hblas/fortran/hblas3/hgemmzd.f:151-177`, body of `DO 120 J`. -/
def hgemmzd_120_J (A : Int) (ALPHA : Cplx F) (B : Int) (BETA : F) (BONE : Bool) (BZERO : Bool) (C : Int) (K : Int) (LDA : Int) (LDB : Int) (LDC : Int) (M : Int) (J : Int)  : Prog F (Unit) := do
  hgemmzd_if152 BETA BONE BZERO C J LDC M
  forN (K).toNat (fun i => hgemmzd_150_L A ALPHA B C J LDA LDB LDC M ((i : Int) + 1))
  pure ()

@[thr] theorem run_hgemmzd_120_J (A : Int) (ALPHA : Cplx F) (B : Int) (BETA : F) (BONE : Bool) (BZERO : Bool) (C : Int) (K : Int) (LDA : Int) (LDB : Int) (LDC : Int) (M : Int) (J : Int) :
    (Thr.hgemmzd_120_J A ALPHA B BETA BONE BZERO C K LDA LDB LDC M J (F := F)).run = Haxx.hgemmzd_120_J A ALPHA B BETA BONE BZERO C K LDA LDB LDC M J (F := F) := by
  simp only [Thr.hgemmzd_120_J, Haxx.hgemmzd_120_J, thr]

/-- As `Haxx.hgemmzd_180_I`, `src/hblas/fortran/hblas3/hgemmzd.f:185-188`, body of `DO 180 I`. -/
def hgemmzd_180_I (C : Int) (J : Int) (LDC : Int) (I : Int)  : Prog F (Unit) := do
  wrC (el3 2 2 LDC C 1 I J) (⟨zero, zero⟩ : Cplx F)
  wrC (el3 2 2 LDC C 2 I J) (⟨zero, zero⟩ : Cplx F)
  pure ()

@[thr] theorem run_hgemmzd_180_I (C : Int) (J : Int) (LDC : Int) (I : Int) :
    (Thr.hgemmzd_180_I C J LDC I (F := F)).run = Haxx.hgemmzd_180_I C J LDC I (F := F) := by
  simp only [Thr.hgemmzd_180_I, Haxx.hgemmzd_180_I, thr]

/-- As `Haxx.hgemmzd_190_I`, `src/hblas/fortran/hblas3/hgemmzd.f:190-193`, body of `DO 190 I`. -/
def hgemmzd_190_I (BETA : F) (C : Int) (J : Int) (LDC : Int) (I : Int)  : Prog F (Unit) := do
  let t1 ← rdC (el3 2 2 LDC C 1 I J)
  wrC (el3 2 2 LDC C 1 I J) (Cplx.ofReal BETA *ᶜ t1)
  let t2 ← rdC (el3 2 2 LDC C 2 I J)
  wrC (el3 2 2 LDC C 2 I J) (Cplx.ofReal BETA *ᶜ t2)
  pure ()

@[thr] theorem run_hgemmzd_190_I (BETA : F) (C : Int) (J : Int) (LDC : Int) (I : Int) :
    (Thr.hgemmzd_190_I BETA C J LDC I (F := F)).run = Haxx.hgemmzd_190_I BETA C J LDC I (F := F) := by
  simp only [Thr.hgemmzd_190_I, Haxx.hgemmzd_190_I, thr]

/-- As `Haxx.hgemmzd_if184`, `src/hblas/fortran/hblas3/hgemmzd.f:184-194`. -/
def hgemmzd_if184 (BETA : F) (BONE : Bool) (BZERO : Bool) (C : Int) (J : Int) (LDC : Int) (M : Int) : Prog F (Unit) := do
  if BZERO then
    forN (M).toNat (fun i => hgemmzd_180_I C J LDC ((i : Int) + 1))
    pure ()
  else if !BONE then
    forN (M).toNat (fun i => hgemmzd_190_I BETA C J LDC ((i : Int) + 1))
    pure ()
  else
    pure ()

@[thr] theorem run_hgemmzd_if184 (BETA : F) (BONE : Bool) (BZERO : Bool) (C : Int) (J : Int) (LDC : Int) (M : Int) :
    (Thr.hgemmzd_if184 BETA BONE BZERO C J LDC M (F := F)).run = Haxx.hgemmzd_if184 BETA BONE BZERO C J LDC M (F := F) := by
  simp only [Thr.hgemmzd_if184, Haxx.hgemmzd_if184, thr]

/-- As `Haxx.hgemmzd_210_I`, `src/hblas/fortran/hblas3/hgemmzd.f:201-207`, body of `DO 210 I`. -/
def hgemmzd_210_I (A : Int) (C : Int) (HTMP1J : Cplx F) (HTMP1S : Cplx F) (HTMP2J : Cplx F) (HTMP2S : Cplx F) (J : Int) (L : Int) (LDA : Int) (LDC : Int) (I : Int)  : Prog F (Unit) := do
  let t1 ← rdC (el3 2 2 LDC C 1 I J)
  let t2 ← rdC (el3 2 2 LDA A 1 I L)
  let t3 ← rdC (el3 2 2 LDA A 2 I L)
  wrC (el3 2 2 LDC C 1 I J) (t1 +ᶜ t2 *ᶜ HTMP1S -ᶜ t3 *ᶜ HTMP2J)
  let t4 ← rdC (el3 2 2 LDC C 2 I J)
  let t5 ← rdC (el3 2 2 LDA A 1 I L)
  let t6 ← rdC (el3 2 2 LDA A 2 I L)
  wrC (el3 2 2 LDC C 2 I J) (t4 +ᶜ t5 *ᶜ HTMP1J +ᶜ t6 *ᶜ HTMP2S)
  pure ()

@[thr] theorem run_hgemmzd_210_I (A : Int) (C : Int) (HTMP1J : Cplx F) (HTMP1S : Cplx F) (HTMP2J : Cplx F) (HTMP2S : Cplx F) (J : Int) (L : Int) (LDA : Int) (LDC : Int) (I : Int) :
    (Thr.hgemmzd_210_I A C HTMP1J HTMP1S HTMP2J HTMP2S J L LDA LDC I (F := F)).run = Haxx.hgemmzd_210_I A C HTMP1J HTMP1S HTMP2J HTMP2S J L LDA LDC I (F := F) := by
  simp only [Thr.hgemmzd_210_I, Haxx.hgemmzd_210_I, thr]

/-- As `Haxx.hgemmzd_200_L`, `src/hblas/fortran/hblas3/hgemmzd.f:196-208`, body of `DO 200 L`. -/
def hgemmzd_200_L (A : Int) (ALPHA : Cplx F) (B : Int) (C : Int) (J : Int) (LDA : Int) (LDB : Int) (LDC : Int) (M : Int) (L : Int)  : Prog F (Unit) := do
  let t1 ← rdC (el3 2 2 LDB B 1 J L)
  let HTMP1S : Cplx F := ALPHA *ᶜ t1
  let t2 ← rdC (el3 2 2 LDB B 2 J L)
  let HTMP1J : Cplx F := ALPHA *ᶜ t2
  let t3 ← rdC (el3 2 2 LDB B 1 J L)
  let HTMP2S : Cplx F := ALPHA *ᶜ Cplx.conj t3
  let t4 ← rdC (el3 2 2 LDB B 2 J L)
  let HTMP2J : Cplx F := ALPHA *ᶜ Cplx.conj t4
  forN (M).toNat (fun i => hgemmzd_210_I A C HTMP1J HTMP1S HTMP2J HTMP2S J L LDA LDC ((i : Int) + 1))
  pure ()

@[thr] theorem run_hgemmzd_200_L (A : Int) (ALPHA : Cplx F) (B : Int) (C : Int) (J : Int) (LDA : Int) (LDB : Int) (LDC : Int) (M : Int) (L : Int) :
    (Thr.hgemmzd_200_L A ALPHA B C J LDA LDB LDC M L (F := F)).run = Haxx.hgemmzd_200_L A ALPHA B C J LDA LDB LDC M L (F := F) := by
  simp only [Thr.hgemmzd_200_L, Haxx.hgemmzd_200_L, thr]

/-- As `Haxx.hgemmzd_170_J`, `src/hblas/fortran/hblas3/hgemmzd.f:183-209`, body of `DO 170 J`. -/
def hgemmzd_170_J (A : Int) (ALPHA : Cplx F) (B : Int) (BETA : F) (BONE : Bool) (BZERO : Bool) (C : Int) (K : Int) (LDA : Int) (LDB : Int) (LDC : Int) (M : Int) (J : Int)  : Prog F (Unit) := do
  hgemmzd_if184 BETA BONE BZERO C J LDC M
  forN (K).toNat (fun i => hgemmzd_200_L A ALPHA B C J LDA LDB LDC M ((i : Int) + 1))
  pure ()

@[thr] theorem run_hgemmzd_170_J (A : Int) (ALPHA : Cplx F) (B : Int) (BETA : F) (BONE : Bool) (BZERO : Bool) (C : Int) (K : Int) (LDA : Int) (LDB : Int) (LDC : Int) (M : Int) (J : Int) :
    (Thr.hgemmzd_170_J A ALPHA B BETA BONE BZERO C K LDA LDB LDC M J (F := F)).run = Haxx.hgemmzd_170_J A ALPHA B BETA BONE BZERO C K LDA LDB LDC M J (F := F) := by
  simp only [Thr.hgemmzd_170_J, Haxx.hgemmzd_170_J, thr]

/-- As `Haxx.hgemmzd_if147`, `src/hblas/fortran/hblas3/hgemmzd.f:147-210`. -/
def hgemmzd_if147 (A : Int) (ALPHA : Cplx F) (B : Int) (BETA : F) (BONE : Bool) (BZERO : Bool) (C : Int) (CONJB : Bool) (K : Int) (LDA : Int) (LDB : Int) (LDC : Int) (M : Int) (N : Int) : Prog F (Unit) := do
  if CONJB then
    forN (N).toNat (fun i => hgemmzd_120_J A ALPHA B BETA BONE BZERO C K LDA LDB LDC M ((i : Int) + 1))
    pure ()
  else
    forN (N).toNat (fun i => hgemmzd_170_J A ALPHA B BETA BONE BZERO C K LDA LDB LDC M ((i : Int) + 1))
    pure ()

@[thr] theorem run_hgemmzd_if147 (A : Int) (ALPHA : Cplx F) (B : Int) (BETA : F) (BONE : Bool) (BZERO : Bool) (C : Int) (CONJB : Bool) (K : Int) (LDA : Int) (LDB : Int) (LDC : Int) (M : Int) (N : Int) :
    (Thr.hgemmzd_if147 A ALPHA B BETA BONE BZERO C CONJB K LDA LDB LDC M N (F := F)).run = Haxx.hgemmzd_if147 A ALPHA B BETA BONE BZERO C CONJB K LDA LDB LDC M N (F := F) := by
  simp only [Thr.hgemmzd_if147, Haxx.hgemmzd_if147, thr]

/-- As `Haxx.hgemmzd_230_L`, `src/hblas/fortran/hblas3/hgemmzd.f:220-227`, body of `DO 230 L`. -/
def hgemmzd_230_L (A : Int) (B : Int) (I : Int) (J : Int) (LDA : Int) (LDB : Int) (L : Int) (HTMP1J : Cplx F) (HTMP1S : Cplx F) : Prog F (Cplx F × Cplx F) := do
  let t1 ← rdC (el3 2 2 LDA A 1 L I)
  let t2 ← rdC (el3 2 2 LDB B 1 J L)
  let t3 ← rdC (el3 2 2 LDA A 2 L I)
  let t4 ← rdC (el3 2 2 LDB B 2 J L)
  let HTMP1S : Cplx F := HTMP1S +ᶜ Cplx.conj t1 *ᶜ Cplx.conj t2 -ᶜ t3 *ᶜ Cplx.conj t4
  let t5 ← rdC (el3 2 2 LDA A 1 L I)
  let t6 ← rdC (el3 2 2 LDB B 2 J L)
  let t7 ← rdC (el3 2 2 LDA A 2 L I)
  let t8 ← rdC (el3 2 2 LDB B 1 J L)
  let HTMP1J : Cplx F := HTMP1J -ᶜ Cplx.conj t5 *ᶜ t6 -ᶜ t7 *ᶜ t8
  pure (HTMP1J, HTMP1S)

@[thr] theorem run_hgemmzd_230_L (A : Int) (B : Int) (I : Int) (J : Int) (LDA : Int) (LDB : Int) (L : Int) (HTMP1J : Cplx F) (HTMP1S : Cplx F) :
    (Thr.hgemmzd_230_L A B I J LDA LDB L HTMP1J HTMP1S (F := F)).run = Haxx.hgemmzd_230_L A B I J LDA LDB L HTMP1J HTMP1S (F := F) := by
  simp only [Thr.hgemmzd_230_L, Haxx.hgemmzd_230_L, thr]

/-- As `Haxx.hgemmzd_220_I`, `src/hblas/fortran/hblas3/hgemmzd.f:217-236`, body of `DO 220 I`. -/
def hgemmzd_220_I (A : Int) (ALPHA : Cplx F) (B : Int) (BETA : F) (BZERO : Bool) (C : Int) (J : Int) (K : Int) (LDA : Int) (LDB : Int) (LDC : Int) (I : Int)  : Prog F (Unit) := do
  let HTMP1S : Cplx F := (⟨zero, zero⟩ : Cplx F)
  let HTMP1J : Cplx F := (⟨zero, zero⟩ : Cplx F)
  let r ← foldN (K).toNat (fun i (s : Cplx F × Cplx F) => hgemmzd_230_L A B I J LDA LDB ((i : Int) + 1) s.1 s.2) (HTMP1J, HTMP1S)
  let HTMP1J : Cplx F := r.1
  let HTMP1S : Cplx F := r.2
  let _ ← (do
    if BZERO then
      wrC (el3 2 2 LDC C 1 I J) (ALPHA *ᶜ HTMP1S)
      wrC (el3 2 2 LDC C 2 I J) (ALPHA *ᶜ HTMP1J)
      pure ()
    else
      let t1 ← rdC (el3 2 2 LDC C 1 I J)
      wrC (el3 2 2 LDC C 1 I J) (ALPHA *ᶜ HTMP1S +ᶜ Cplx.ofReal BETA *ᶜ t1)
      let t2 ← rdC (el3 2 2 LDC C 2 I J)
      wrC (el3 2 2 LDC C 2 I J) (ALPHA *ᶜ HTMP1J +ᶜ Cplx.ofReal BETA *ᶜ t2)
      pure () : Prog F Unit)
  pure ()

@[thr] theorem run_hgemmzd_220_I (A : Int) (ALPHA : Cplx F) (B : Int) (BETA : F) (BZERO : Bool) (C : Int) (J : Int) (K : Int) (LDA : Int) (LDB : Int) (LDC : Int) (I : Int) :
    (Thr.hgemmzd_220_I A ALPHA B BETA BZERO C J K LDA LDB LDC I (F := F)).run = Haxx.hgemmzd_220_I A ALPHA B BETA BZERO C J K LDA LDB LDC I (F := F) := by
  simp only [Thr.hgemmzd_220_I, Haxx.hgemmzd_220_I, thr]

/-- As `Haxx.hgemmzd_220_J`, `src/hblas/fortran/hblas3/hgemmzd.f:216-236`, body of `DO 220 J`. -/
def hgemmzd_220_J (A : Int) (ALPHA : Cplx F) (B : Int) (BETA : F) (BZERO : Bool) (C : Int) (K : Int) (LDA : Int) (LDB : Int) (LDC : Int) (M : Int) (J : Int)  : Prog F (Unit) := do
  forN (M).toNat (fun i => hgemmzd_220_I A ALPHA B BETA BZERO C J K LDA LDB LDC ((i : Int) + 1))
  pure ()

@[thr] theorem run_hgemmzd_220_J (A : Int) (ALPHA : Cplx F) (B : Int) (BETA : F) (BZERO : Bool) (C : Int) (K : Int) (LDA : Int) (LDB : Int) (LDC : Int) (M : Int) (J : Int) :
    (Thr.hgemmzd_220_J A ALPHA B BETA BZERO C K LDA LDB LDC M J (F := F)).run = Haxx.hgemmzd_220_J A ALPHA B BETA BZERO C K LDA LDB LDC M J (F := F) := by
  simp only [Thr.hgemmzd_220_J, Haxx.hgemmzd_220_J, thr]

/-- As `Haxx.hgemmzd_250_L`, `src/hblas/fortran/hblas3/hgemmzd.f:246-252`, body of `DO 250 L`. -/
def hgemmzd_250_L (A : Int) (B : Int) (I : Int) (J : Int) (LDA : Int) (LDB : Int) (L : Int) (HTMP1J : Cplx F) (HTMP1S : Cplx F) : Prog F (Cplx F × Cplx F) := do
  let t1 ← rdC (el3 2 2 LDA A 1 L I)
  let t2 ← rdC (el3 2 2 LDB B 1 J L)
  let t3 ← rdC (el3 2 2 LDA A 2 L I)
  let t4 ← rdC (el3 2 2 LDB B 2 J L)
  let HTMP1S : Cplx F := HTMP1S +ᶜ Cplx.conj t1 *ᶜ t2 +ᶜ t3 *ᶜ Cplx.conj t4
  let t5 ← rdC (el3 2 2 LDA A 1 L I)
  let t6 ← rdC (el3 2 2 LDB B 2 J L)
  let t7 ← rdC (el3 2 2 LDA A 2 L I)
  let t8 ← rdC (el3 2 2 LDB B 1 J L)
  let HTMP1J : Cplx F := HTMP1J +ᶜ Cplx.conj t5 *ᶜ t6 -ᶜ t7 *ᶜ Cplx.conj t8
  pure (HTMP1J, HTMP1S)

@[thr] theorem run_hgemmzd_250_L (A : Int) (B : Int) (I : Int) (J : Int) (LDA : Int) (LDB : Int) (L : Int) (HTMP1J : Cplx F) (HTMP1S : Cplx F) :
    (Thr.hgemmzd_250_L A B I J LDA LDB L HTMP1J HTMP1S (F := F)).run = Haxx.hgemmzd_250_L A B I J LDA LDB L HTMP1J HTMP1S (F := F) := by
  simp only [Thr.hgemmzd_250_L, Haxx.hgemmzd_250_L, thr]

/-- As `Haxx.hgemmzd_240_I`, `src/hblas/fortran/hblas3/hgemmzd.f:243-261`, body of `DO 240 I`. -/
def hgemmzd_240_I (A : Int) (ALPHA : Cplx F) (B : Int) (BETA : F) (BZERO : Bool) (C : Int) (J : Int) (K : Int) (LDA : Int) (LDB : Int) (LDC : Int) (I : Int)  : Prog F (Unit) := do
  let HTMP1S : Cplx F := (⟨zero, zero⟩ : Cplx F)
  let HTMP1J : Cplx F := (⟨zero, zero⟩ : Cplx F)
  let r ← foldN (K).toNat (fun i (s : Cplx F × Cplx F) => hgemmzd_250_L A B I J LDA LDB ((i : Int) + 1) s.1 s.2) (HTMP1J, HTMP1S)
  let HTMP1J : Cplx F := r.1
  let HTMP1S : Cplx F := r.2
  let _ ← (do
    if BZERO then
      wrC (el3 2 2 LDC C 1 I J) (ALPHA *ᶜ HTMP1S)
      wrC (el3 2 2 LDC C 2 I J) (ALPHA *ᶜ HTMP1J)
      pure ()
    else
      let t1 ← rdC (el3 2 2 LDC C 1 I J)
      wrC (el3 2 2 LDC C 1 I J) (ALPHA *ᶜ HTMP1S +ᶜ Cplx.ofReal BETA *ᶜ t1)
      let t2 ← rdC (el3 2 2 LDC C 2 I J)
      wrC (el3 2 2 LDC C 2 I J) (ALPHA *ᶜ HTMP1J +ᶜ Cplx.ofReal BETA *ᶜ t2)
      pure () : Prog F Unit)
  pure ()

@[thr] theorem run_hgemmzd_240_I (A : Int) (ALPHA : Cplx F) (B : Int) (BETA : F) (BZERO : Bool) (C : Int) (J : Int) (K : Int) (LDA : Int) (LDB : Int) (LDC : Int) (I : Int) :
    (Thr.hgemmzd_240_I A ALPHA B BETA BZERO C J K LDA LDB LDC I (F := F)).run = Haxx.hgemmzd_240_I A ALPHA B BETA BZERO C J K LDA LDB LDC I (F := F) := by
  simp only [Thr.hgemmzd_240_I, Haxx.hgemmzd_240_I, thr]

/-- As `Haxx.hgemmzd_240_J`, `src/hblas/fortran/hblas3/hgemmzd.f:242-261`, body of `DO 240 J`. -/
def hgemmzd_240_J (A : Int) (ALPHA : Cplx F) (B : Int) (BETA : F) (BZERO : Bool) (C : Int) (K : Int) (LDA : Int) (LDB : Int) (LDC : Int) (M : Int) (J : Int)  : Prog F (Unit) := do
  forN (M).toNat (fun i => hgemmzd_240_I A ALPHA B BETA BZERO C J K LDA LDB LDC ((i : Int) + 1))
  pure ()

@[thr] theorem run_hgemmzd_240_J (A : Int) (ALPHA : Cplx F) (B : Int) (BETA : F) (BZERO : Bool) (C : Int) (K : Int) (LDA : Int) (LDB : Int) (LDC : Int) (M : Int) (J : Int) :
    (Thr.hgemmzd_240_J A ALPHA B BETA BZERO C K LDA LDB LDC M J (F := F)).run = Haxx.hgemmzd_240_J A ALPHA B BETA BZERO C K LDA LDB LDC M J (F := F) := by
  simp only [Thr.hgemmzd_240_J, Haxx.hgemmzd_240_J, thr]

/-- As `Haxx.hgemmzd_if212`, `src/hblas/fortran/hblas3/hgemmzd.f:212-262`. -/
def hgemmzd_if212 (A : Int) (ALPHA : Cplx F) (B : Int) (BETA : F) (BZERO : Bool) (C : Int) (CONJB : Bool) (K : Int) (LDA : Int) (LDB : Int) (LDC : Int) (M : Int) (N : Int) : Prog F (Unit) := do
  if CONJB then
    forN (N).toNat (fun i => hgemmzd_220_J A ALPHA B BETA BZERO C K LDA LDB LDC M ((i : Int) + 1))
    pure ()
  else
    forN (N).toNat (fun i => hgemmzd_240_J A ALPHA B BETA BZERO C K LDA LDB LDC M ((i : Int) + 1))
    pure ()

@[thr] theorem run_hgemmzd_if212 (A : Int) (ALPHA : Cplx F) (B : Int) (BETA : F) (BZERO : Bool) (C : Int) (CONJB : Bool) (K : Int) (LDA : Int) (LDB : Int) (LDC : Int) (M : Int) (N : Int) :
    (Thr.hgemmzd_if212 A ALPHA B BETA BZERO C CONJB K LDA LDB LDC M N (F := F)).run = Haxx.hgemmzd_if212 A ALPHA B BETA BZERO C CONJB K LDA LDB LDC M N (F := F) := by
  simp only [Thr.hgemmzd_if212, Haxx.hgemmzd_if212, thr]

/-- As `Haxx.hgemmzd_270_L`, `src/hblas/fortran/hblas3/hgemmzd.f:273-279`, body of `DO 270 L`. -/
def hgemmzd_270_L (A : Int) (B : Int) (I : Int) (J : Int) (LDA : Int) (LDB : Int) (L : Int) (HTMP1J : Cplx F) (HTMP1S : Cplx F) : Prog F (Cplx F × Cplx F) := do
  let t1 ← rdC (el3 2 2 LDA A 1 L I)
  let t2 ← rdC (el3 2 2 LDB B 1 J L)
  let t3 ← rdC (el3 2 2 LDA A 2 L I)
  let t4 ← rdC (el3 2 2 LDB B 2 J L)
  let HTMP1S : Cplx F := HTMP1S +ᶜ t1 *ᶜ Cplx.conj t2 +ᶜ t3 *ᶜ Cplx.conj t4
  let t5 ← rdC (el3 2 2 LDA A 1 L I)
  let t6 ← rdC (el3 2 2 LDB B 2 J L)
  let t7 ← rdC (el3 2 2 LDA A 2 L I)
  let t8 ← rdC (el3 2 2 LDB B 1 J L)
  let HTMP1J : Cplx F := HTMP1J -ᶜ t5 *ᶜ t6 +ᶜ t7 *ᶜ t8
  pure (HTMP1J, HTMP1S)

@[thr] theorem run_hgemmzd_270_L (A : Int) (B : Int) (I : Int) (J : Int) (LDA : Int) (LDB : Int) (L : Int) (HTMP1J : Cplx F) (HTMP1S : Cplx F) :
    (Thr.hgemmzd_270_L A B I J LDA LDB L HTMP1J HTMP1S (F := F)).run = Haxx.hgemmzd_270_L A B I J LDA LDB L HTMP1J HTMP1S (F := F) := by
  simp only [Thr.hgemmzd_270_L, Haxx.hgemmzd_270_L, thr]

/-- As `Haxx.hgemmzd_260_I`, `src/hblas/fortran/hblas3/hgemmzd.f:270-288`, body of `DO 260 I`. -/
def hgemmzd_260_I (A : Int) (ALPHA : Cplx F) (B : Int) (BETA : F) (BZERO : Bool) (C : Int) (J : Int) (K : Int) (LDA : Int) (LDB : Int) (LDC : Int) (I : Int)  : Prog F (Unit) := do
  let HTMP1S : Cplx F := (⟨zero, zero⟩ : Cplx F)
  let HTMP1J : Cplx F := (⟨zero, zero⟩ : Cplx F)
  let r ← foldN (K).toNat (fun i (s : Cplx F × Cplx F) => hgemmzd_270_L A B I J LDA LDB ((i : Int) + 1) s.1 s.2) (HTMP1J, HTMP1S)
  let HTMP1J : Cplx F := r.1
  let HTMP1S : Cplx F := r.2
  let _ ← (do
    if BZERO then
      wrC (el3 2 2 LDC C 1 I J) (ALPHA *ᶜ HTMP1S)
      wrC (el3 2 2 LDC C 2 I J) (ALPHA *ᶜ HTMP1J)
      pure ()
    else
      let t1 ← rdC (el3 2 2 LDC C 1 I J)
      wrC (el3 2 2 LDC C 1 I J) (ALPHA *ᶜ HTMP1S +ᶜ Cplx.ofReal BETA *ᶜ t1)
      let t2 ← rdC (el3 2 2 LDC C 2 I J)
      wrC (el3 2 2 LDC C 2 I J) (ALPHA *ᶜ HTMP1J +ᶜ Cplx.ofReal BETA *ᶜ t2)
      pure () : Prog F Unit)
  pure ()

@[thr] theorem run_hgemmzd_260_I (A : Int) (ALPHA : Cplx F) (B : Int) (BETA : F) (BZERO : Bool) (C : Int) (J : Int) (K : Int) (LDA : Int) (LDB : Int) (LDC : Int) (I : Int) :
    (Thr.hgemmzd_260_I A ALPHA B BETA BZERO C J K LDA LDB LDC I (F := F)).run = Haxx.hgemmzd_260_I A ALPHA B BETA BZERO C J K LDA LDB LDC I (F := F) := by
  simp only [Thr.hgemmzd_260_I, Haxx.hgemmzd_260_I, thr]

/-- As `Haxx.hgemmzd_260_J`, `src/hblas/fortran/hblas3/hgemmzd.f:269-288`, body of `DO 260 J`. -/
def hgemmzd_260_J (A : Int) (ALPHA : Cplx F) (B : Int) (BETA : F) (BZERO : Bool) (C : Int) (K : Int) (LDA : Int) (LDB : Int) (LDC : Int) (M : Int) (J : Int)  : Prog F (Unit) := do
  forN (M).toNat (fun i => hgemmzd_260_I A ALPHA B BETA BZERO C J K LDA LDB LDC ((i : Int) + 1))
  pure ()

@[thr] theorem run_hgemmzd_260_J (A : Int) (ALPHA : Cplx F) (B : Int) (BETA : F) (BZERO : Bool) (C : Int) (K : Int) (LDA : Int) (LDB : Int) (LDC : Int) (M : Int) (J : Int) :
    (Thr.hgemmzd_260_J A ALPHA B BETA BZERO C K LDA LDB LDC M J (F := F)).run = Haxx.hgemmzd_260_J A ALPHA B BETA BZERO C K LDA LDB LDC M J (F := F) := by
  simp only [Thr.hgemmzd_260_J, Haxx.hgemmzd_260_J, thr]

/-- As `Haxx.hgemmzd_290_L`, `src/hblas/fortran/hblas3/hgemmzd.f:297-303`, body of `DO 290 L`. -/
def hgemmzd_290_L (A : Int) (B : Int) (I : Int) (J : Int) (LDA : Int) (LDB : Int) (L : Int) (HTMP1J : Cplx F) (HTMP1S : Cplx F) : Prog F (Cplx F × Cplx F) := do
  let t1 ← rdC (el3 2 2 LDA A 1 L I)
  let t2 ← rdC (el3 2 2 LDB B 1 J L)
  let t3 ← rdC (el3 2 2 LDA A 2 L I)
  let t4 ← rdC (el3 2 2 LDB B 2 J L)
  let HTMP1S : Cplx F := HTMP1S +ᶜ t1 *ᶜ t2 -ᶜ t3 *ᶜ Cplx.conj t4
  let t5 ← rdC (el3 2 2 LDA A 1 L I)
  let t6 ← rdC (el3 2 2 LDB B 2 J L)
  let t7 ← rdC (el3 2 2 LDA A 2 L I)
  let t8 ← rdC (el3 2 2 LDB B 1 J L)
  let HTMP1J : Cplx F := HTMP1J +ᶜ t5 *ᶜ t6 +ᶜ t7 *ᶜ Cplx.conj t8
  pure (HTMP1J, HTMP1S)

@[thr] theorem run_hgemmzd_290_L (A : Int) (B : Int) (I : Int) (J : Int) (LDA : Int) (LDB : Int) (L : Int) (HTMP1J : Cplx F) (HTMP1S : Cplx F) :
    (Thr.hgemmzd_290_L A B I J LDA LDB L HTMP1J HTMP1S (F := F)).run = Haxx.hgemmzd_290_L A B I J LDA LDB L HTMP1J HTMP1S (F := F) := by
  simp only [Thr.hgemmzd_290_L, Haxx.hgemmzd_290_L, thr]

/-- As `Haxx.hgemmzd_280_I`, `src/hblas/fortran/hblas3/hgemmzd.f:294-312`, body of `DO 280 I`. -/
def hgemmzd_280_I (A : Int) (ALPHA : Cplx F) (B : Int) (BETA : F) (BZERO : Bool) (C : Int) (J : Int) (K : Int) (LDA : Int) (LDB : Int) (LDC : Int) (I : Int)  : Prog F (Unit) := do
  let HTMP1S : Cplx F := (⟨zero, zero⟩ : Cplx F)
  let HTMP1J : Cplx F := (⟨zero, zero⟩ : Cplx F)
  let r ← foldN (K).toNat (fun i (s : Cplx F × Cplx F) => hgemmzd_290_L A B I J LDA LDB ((i : Int) + 1) s.1 s.2) (HTMP1J, HTMP1S)
  let HTMP1J : Cplx F := r.1
  let HTMP1S : Cplx F := r.2
  let _ ← (do
    if BZERO then
      wrC (el3 2 2 LDC C 1 I J) (ALPHA *ᶜ HTMP1S)
      wrC (el3 2 2 LDC C 2 I J) (ALPHA *ᶜ HTMP1J)
      pure ()
    else
      let t1 ← rdC (el3 2 2 LDC C 1 I J)
      wrC (el3 2 2 LDC C 1 I J) (ALPHA *ᶜ HTMP1S +ᶜ Cplx.ofReal BETA *ᶜ t1)
      let t2 ← rdC (el3 2 2 LDC C 2 I J)
      wrC (el3 2 2 LDC C 2 I J) (ALPHA *ᶜ HTMP1J +ᶜ Cplx.ofReal BETA *ᶜ t2)
      pure () : Prog F Unit)
  pure ()

@[thr] theorem run_hgemmzd_280_I (A : Int) (ALPHA : Cplx F) (B : Int) (BETA : F) (BZERO : Bool) (C : Int) (J : Int) (K : Int) (LDA : Int) (LDB : Int) (LDC : Int) (I : Int) :
    (Thr.hgemmzd_280_I A ALPHA B BETA BZERO C J K LDA LDB LDC I (F := F)).run = Haxx.hgemmzd_280_I A ALPHA B BETA BZERO C J K LDA LDB LDC I (F := F) := by
  simp only [Thr.hgemmzd_280_I, Haxx.hgemmzd_280_I, thr]

/-- As `Haxx.hgemmzd_280_J`, `src/hblas/fortran/hblas3/hgemmzd.f:293-312`, body of `DO 280 J`. -/
def hgemmzd_280_J (A : Int) (ALPHA : Cplx F) (B : Int) (BETA : F) (BZERO : Bool) (C : Int) (K : Int) (LDA : Int) (LDB : Int) (LDC : Int) (M : Int) (J : Int)  : Prog F (Unit) := do
  forN (M).toNat (fun i => hgemmzd_280_I A ALPHA B BETA BZERO C J K LDA LDB LDC ((i : Int) + 1))
  pure ()

@[thr] theorem run_hgemmzd_280_J (A : Int) (ALPHA : Cplx F) (B : Int) (BETA : F) (BZERO : Bool) (C : Int) (K : Int) (LDA : Int) (LDB : Int) (LDC : Int) (M : Int) (J : Int) :
    (Thr.hgemmzd_280_J A ALPHA B BETA BZERO C K LDA LDB LDC M J (F := F)).run = Haxx.hgemmzd_280_J A ALPHA B BETA BZERO C K LDA LDB LDC M J (F := F) := by
  simp only [Thr.hgemmzd_280_J, Haxx.hgemmzd_280_J, thr]

/-- As `Haxx.hgemmzd_if265`, `src/hblas/fortran/hblas3/hgemmzd.f:265-313`. -/
def hgemmzd_if265 (A : Int) (ALPHA : Cplx F) (B : Int) (BETA : F) (BZERO : Bool) (C : Int) (CONJB : Bool) (K : Int) (LDA : Int) (LDB : Int) (LDC : Int) (M : Int) (N : Int) : Prog F (Unit) := do
  if CONJB then
    forN (N).toNat (fun i => hgemmzd_260_J A ALPHA B BETA BZERO C K LDA LDB LDC M ((i : Int) + 1))
    pure ()
  else
    forN (N).toNat (fun i => hgemmzd_280_J A ALPHA B BETA BZERO C K LDA LDB LDC M ((i : Int) + 1))
    pure ()

@[thr] theorem run_hgemmzd_if265 (A : Int) (ALPHA : Cplx F) (B : Int) (BETA : F) (BZERO : Bool) (C : Int) (CONJB : Bool) (K : Int) (LDA : Int) (LDB : Int) (LDC : Int) (M : Int) (N : Int) :
    (Thr.hgemmzd_if265 A ALPHA B BETA BZERO C CONJB K LDA LDB LDC M N (F := F)).run = Haxx.hgemmzd_if265 A ALPHA B BETA BZERO C CONJB K LDA LDB LDC M N (F := F) := by
  simp only [Thr.hgemmzd_if265, Haxx.hgemmzd_if265, thr]

/-- As `Haxx.hgemmzd_if64`, `src/hblas/fortran/hblas3/hgemmzd.f:64-314`. -/
def hgemmzd_if64 (A : Int) (ALPHA : Cplx F) (B : Int) (BETA : F) (BONE : Bool) (BZERO : Bool) (C : Int) (CONJA : Bool) (CONJB : Bool) (K : Int) (LDA : Int) (LDB : Int) (LDC : Int) (M : Int) (N : Int) (NOTA : Bool) (NOTB : Bool) : Prog F (Unit) := do
  if NOTB then
    hgemmzd_if65 A ALPHA B BETA BONE BZERO C CONJA K LDA LDB LDC M N NOTA
    pure ()
  else if NOTA then
    hgemmzd_if147 A ALPHA B BETA BONE BZERO C CONJB K LDA LDB LDC M N
    pure ()
  else if CONJA then
    hgemmzd_if212 A ALPHA B BETA BZERO C CONJB K LDA LDB LDC M N
    pure ()
  else
    hgemmzd_if265 A ALPHA B BETA BZERO C CONJB K LDA LDB LDC M N
    pure ()

@[thr] theorem run_hgemmzd_if64 (A : Int) (ALPHA : Cplx F) (B : Int) (BETA : F) (BONE : Bool) (BZERO : Bool) (C : Int) (CONJA : Bool) (CONJB : Bool) (K : Int) (LDA : Int) (LDB : Int) (LDC : Int) (M : Int) (N : Int) (NOTA : Bool) (NOTB : Bool) :
    (Thr.hgemmzd_if64 A ALPHA B BETA BONE BZERO C CONJA CONJB K LDA LDB LDC M N NOTA NOTB (F := F)).run = Haxx.hgemmzd_if64 A ALPHA B BETA BONE BZERO C CONJA CONJB K LDA LDB LDC M N NOTA NOTB (F := F) := by
  simp only [Thr.hgemmzd_if64, Haxx.hgemmzd_if64, thr]

/-- As `Haxx.hgemmzd`, `src/hblas/fortran/hblas3/hgemmzd.f:9-315`. -/
def hgemmzd (TRANSA : Char) (TRANSB : Char) (M : Int) (N : Int) (K : Int) (ALPHA : Cplx F) (A : Int) (LDA : Int) (B : Int) (LDB : Int) (BETA : F) (C : Int) (LDC : Int) : Prog F (Unit) := do
  let NOTA : Bool := lsame TRANSA 'N'
  let NOTB : Bool := lsame TRANSB 'N'
  let CONJA : Bool := lsame TRANSA 'C'
  let CONJB : Bool := lsame TRANSB 'C'
  let AZERO : Bool := Cplx.feq ALPHA (⟨zero, zero⟩ : Cplx F)
  -- AONE (line 34) is never read
  let BZERO : Bool := Cplx.feq (Cplx.ofReal BETA) (⟨zero, zero⟩ : Cplx F)
  let BONE : Bool := Cplx.feq (Cplx.ofReal BETA) (⟨one, zero⟩ : Cplx F)
  if (decide (M = 0)) || (decide (N = 0)) then
    pure ()
  else
    if (AZERO || (decide (K = 0))) && BONE then
      pure ()
    else
      if AZERO then
        hgemmzd_if48 BETA BZERO C LDC M N
        pure ()
      else
        hgemmzd_if64 A ALPHA B BETA BONE BZERO C CONJA CONJB K LDA LDB LDC M N NOTA NOTB
        pure ()

@[thr] theorem run_hgemmzd (TRANSA : Char) (TRANSB : Char) (M : Int) (N : Int) (K : Int) (ALPHA : Cplx F) (A : Int) (LDA : Int) (B : Int) (LDB : Int) (BETA : F) (C : Int) (LDC : Int) :
    (Thr.hgemmzd TRANSA TRANSB M N K ALPHA A LDA B LDB BETA C LDC (F := F)).run = Haxx.hgemmzd TRANSA TRANSB M N K ALPHA A LDA B LDB BETA C LDC (F := F) := by
  simp only [Thr.hgemmzd, Haxx.hgemmzd, thr]

-- end of FGemmzd

variable {F : Type} [Arith F] [ArithEq F]
/-- As `Haxx.hgemmzz_10_I`, `src/hblas/fortran/hblas3/hgemmzz.f:49-52`, body of `DO 10 I`. -/
def hgemmzz_10_I (C : Int) (J : Int) (LDC : Int) (I : Int)  : Prog F (Unit) := do
  wrC (el3 2 2 LDC C 1 I J) (⟨zero, zero⟩ : Cplx F)
  wrC (el3 2 2 LDC C 2 I J) (⟨zero, zero⟩ : Cplx F)
  pure ()

@[thr] theorem run_hgemmzz_10_I (C : Int) (J : Int) (LDC : Int) (I : Int) :
    (Thr.hgemmzz_10_I C J LDC I (F := F)).run = Haxx.hgemmzz_10_I C J LDC I (F := F) := by
  simp only [Thr.hgemmzz_10_I, Haxx.hgemmzz_10_I, thr]

/-- As `Haxx.hgemmzz_10_J`, `src/hblas/fortran/hblas3/hgemmzz.f:48-52`, body of `DO 10 J`. -/
def hgemmzz_10_J (C : Int) (LDC : Int) (M : Int) (J : Int)  : Prog F (Unit) := do
  forN (M).toNat (fun i => hgemmzz_10_I C J LDC ((i : Int) + 1))
  pure ()

@[thr] theorem run_hgemmzz_10_J (C : Int) (LDC : Int) (M : Int) (J : Int) :
    (Thr.hgemmzz_10_J C LDC M J (F := F)).run = Haxx.hgemmzz_10_J C LDC M J (F := F) := by
  simp only [Thr.hgemmzz_10_J, Haxx.hgemmzz_10_J, thr]

/-- As `Haxx.hgemmzz_20_I`, `src/hblas/fortran/hblas3/hgemmzz.f:55-58`, body of `DO 20 I`. -/
def hgemmzz_20_I (BETA : Cplx F) (C : Int) (J : Int) (LDC : Int) (I : Int)  : Prog F (Unit) := do
  let t1 ← rdC (el3 2 2 LDC C 1 I J)
  wrC (el3 2 2 LDC C 1 I J) (BETA *ᶜ t1)
  let t2 ← rdC (el3 2 2 LDC C 2 I J)
  wrC (el3 2 2 LDC C 2 I J) (BETA *ᶜ t2)
  pure ()

@[thr] theorem run_hgemmzz_20_I (BETA : Cplx F) (C : Int) (J : Int) (LDC : Int) (I : Int) :
    (Thr.hgemmzz_20_I BETA C J LDC I (F := F)).run = Haxx.hgemmzz_20_I BETA C J LDC I (F := F) := by
  simp only [Thr.hgemmzz_20_I, Haxx.hgemmzz_20_I, thr]

/-- As `Haxx.hgemmzz_20_J`, `src/hblas/fortran/hblas3/hgemmzz.f:54-58`, body of `DO 20 J`. -/
def hgemmzz_20_J (BETA : Cplx F) (C : Int) (LDC : Int) (M : Int) (J : Int)  : Prog F (Unit) := do
  forN (M).toNat (fun i => hgemmzz_20_I BETA C J LDC ((i : Int) + 1))
  pure ()

@[thr] theorem run_hgemmzz_20_J (BETA : Cplx F) (C : Int) (LDC : Int) (M : Int) (J : Int) :
    (Thr.hgemmzz_20_J BETA C LDC M J (F := F)).run = Haxx.hgemmzz_20_J BETA C LDC M J (F := F) := by
  simp only [Thr.hgemmzz_20_J, Haxx.hgemmzz_20_J, thr]

/-- As `Haxx.hgemmzz_if47`, `src/hblas/fortran/hblas3/hgemmzz.f:47-59`. -/
def hgemmzz_if47 (BETA : Cplx F) (BZERO : Bool) (C : Int) (LDC : Int) (M : Int) (N : Int) : Prog F (Unit) := do
  if BZERO then
    forN (N).toNat (fun i => hgemmzz_10_J C LDC M ((i : Int) + 1))
    pure ()
  else
    forN (N).toNat (fun i => hgemmzz_20_J BETA C LDC M ((i : Int) + 1))
    pure ()

@[thr] theorem run_hgemmzz_if47 (BETA : Cplx F) (BZERO : Bool) (C : Int) (LDC : Int) (M : Int) (N : Int) :
    (Thr.hgemmzz_if47 BETA BZERO C LDC M N (F := F)).run = Haxx.hgemmzz_if47 BETA BZERO C LDC M N (F := F) := by
  simp only [Thr.hgemmzz_if47, Haxx.hgemmzz_if47, thr]

/-- As `Haxx.hgemmzz_40_I`, `src/hblas/fortran/hblas3/hgemmzz.f:70-73`, body of `DO 40 I`. -/
def hgemmzz_40_I (C : Int) (J : Int) (LDC : Int) (I : Int)  : Prog F (Unit) := do
  wrC (el3 2 2 LDC C 1 I J) (⟨zero, zero⟩ : Cplx F)
  wrC (el3 2 2 LDC C 2 I J) (⟨zero, zero⟩ : Cplx F)
  pure ()

@[thr] theorem run_hgemmzz_40_I (C : Int) (J : Int) (LDC : Int) (I : Int) :
    (Thr.hgemmzz_40_I C J LDC I (F := F)).run = Haxx.hgemmzz_40_I C J LDC I (F := F) := by
  simp only [Thr.hgemmzz_40_I, Haxx.hgemmzz_40_I, thr]

/-- As `Haxx.hgemmzz_50_I`, `src/hblas/fortran/hblas3/hgemmzz.f:75-78`, body of `DO 50 I`. -/
def hgemmzz_50_I (BETA : Cplx F) (C : Int) (J : Int) (LDC : Int) (I : Int)  : Prog F (Unit) := do
  let t1 ← rdC (el3 2 2 LDC C 1 I J)
  wrC (el3 2 2 LDC C 1 I J) (BETA *ᶜ t1)
  let t2 ← rdC (el3 2 2 LDC C 2 I J)
  wrC (el3 2 2 LDC C 2 I J) (BETA *ᶜ t2)
  pure ()

@[thr] theorem run_hgemmzz_50_I (BETA : Cplx F) (C : Int) (J : Int) (LDC : Int) (I : Int) :
    (Thr.hgemmzz_50_I BETA C J LDC I (F := F)).run = Haxx.hgemmzz_50_I BETA C J LDC I (F := F) := by
  simp only [Thr.hgemmzz_50_I, Haxx.hgemmzz_50_I, thr]

/-- As `Haxx.hgemmzz_if69`, `src/hblas/fortran/hblas3/hgemmzz.f:69-79`. -/
def hgemmzz_if69 (BETA : Cplx F) (BONE : Bool) (BZERO : Bool) (C : Int) (J : Int) (LDC : Int) (M : Int) : Prog F (Unit) := do
  if BZERO then
    forN (M).toNat (fun i => hgemmzz_40_I C J LDC ((i : Int) + 1))
    pure ()
  else if !BONE then
    forN (M).toNat (fun i => hgemmzz_50_I BETA C J LDC ((i : Int) + 1))
    pure ()
  else
    pure ()

@[thr] theorem run_hgemmzz_if69 (BETA : Cplx F) (BONE : Bool) (BZERO : Bool) (C : Int) (J : Int) (LDC : Int) (M : Int) :
    (Thr.hgemmzz_if69 BETA BONE BZERO C J LDC M (F := F)).run = Haxx.hgemmzz_if69 BETA BONE BZERO C J LDC M (F := F) := by
  simp only [Thr.hgemmzz_if69, Haxx.hgemmzz_if69, thr]

/-- As `Haxx.hgemmzz_70_I`, `src/hblas/fortran/hblas3/hgemmzz.f:86-92`, body of `DO 70 I`. -/
def hgemmzz_70_I (A : Int) (C : Int) (HTMP1J : Cplx F) (HTMP1S : Cplx F) (HTMP2J : Cplx F) (HTMP2S : Cplx F) (J : Int) (L : Int) (LDA : Int) (LDC : Int) (I : Int)  : Prog F (Unit) := do
  let t1 ← rdC (el3 2 2 LDC C 1 I J)
  let t2 ← rdC (el3 2 2 LDA A 1 I L)
  let t3 ← rdC (el3 2 2 LDA A 2 I L)
  wrC (el3 2 2 LDC C 1 I J) (t1 +ᶜ t2 *ᶜ HTMP1S -ᶜ t3 *ᶜ HTMP2J)
  let t4 ← rdC (el3 2 2 LDC C 2 I J)
  let t5 ← rdC (el3 2 2 LDA A 1 I L)
  let t6 ← rdC (el3 2 2 LDA A 2 I L)
  wrC (el3 2 2 LDC C 2 I J) (t4 +ᶜ t5 *ᶜ HTMP1J +ᶜ t6 *ᶜ HTMP2S)
  pure ()

@[thr] theorem run_hgemmzz_70_I (A : Int) (C : Int) (HTMP1J : Cplx F) (HTMP1S : Cplx F) (HTMP2J : Cplx F) (HTMP2S : Cplx F) (J : Int) (L : Int) (LDA : Int) (LDC : Int) (I : Int) :
    (Thr.hgemmzz_70_I A C HTMP1J HTMP1S HTMP2J HTMP2S J L LDA LDC I (F := F)).run = Haxx.hgemmzz_70_I A C HTMP1J HTMP1S HTMP2J HTMP2S J L LDA LDC I (F := F) := by
  simp only [Thr.hgemmzz_70_I, Haxx.hgemmzz_70_I, thr]

/-- As `Haxx.hgemmzz_60_L`, `src/hblas/fortran/hblas3/hgemmzz.f:81-93`, body of `DO 60 L`. -/
def hgemmzz_60_L (A : Int) (ALPHA : Cplx F) (B : Int) (C : Int) (J : Int) (LDA : Int) (LDB : Int) (LDC : Int) (M : Int) (L : Int)  : Prog F (Unit) := do
  let t1 ← rdC (el3 2 2 LDB B 1 L J)
  let HTMP1S : Cplx F := ALPHA *ᶜ t1
  let t2 ← rdC (el3 2 2 LDB B 2 L J)
  let HTMP1J : Cplx F := ALPHA *ᶜ t2
  let t3 ← rdC (el3 2 2 LDB B 1 L J)
  let HTMP2S : Cplx F := ALPHA *ᶜ Cplx.conj t3
  let t4 ← rdC (el3 2 2 LDB B 2 L J)
  let HTMP2J : Cplx F := ALPHA *ᶜ Cplx.conj t4
  forN (M).toNat (fun i => hgemmzz_70_I A C HTMP1J HTMP1S HTMP2J HTMP2S J L LDA LDC ((i : Int) + 1))
  pure ()

@[thr] theorem run_hgemmzz_60_L (A : Int) (ALPHA : Cplx F) (B : Int) (C : Int) (J : Int) (LDA : Int) (LDB : Int) (LDC : Int) (M : Int) (L : Int) :
    (Thr.hgemmzz_60_L A ALPHA B C J LDA LDB LDC M L (F := F)).run = Haxx.hgemmzz_60_L A ALPHA B C J LDA LDB LDC M L (F := F) := by
  simp only [Thr.hgemmzz_60_L, Haxx.hgemmzz_60_L, thr]

/-- As `Haxx.hgemmzz_30_J`, `src/hblas/fortran/hblas3/hgemmzz.f:68-94`, body of `DO 30 J`. -/
def hgemmzz_30_J (A : Int) (ALPHA : Cplx F) (B : Int) (BETA : Cplx F) (BONE : Bool) (BZERO : Bool) (C : Int) (K : Int) (LDA : Int) (LDB : Int) (LDC : Int) (M : Int) (J : Int)  : Prog F (Unit) := do
  hgemmzz_if69 BETA BONE BZERO C J LDC M
  forN (K).toNat (fun i => hgemmzz_60_L A ALPHA B C J LDA LDB LDC M ((i : Int) + 1))
  pure ()

@[thr] theorem run_hgemmzz_30_J (A : Int) (ALPHA : Cplx F) (B : Int) (BETA : Cplx F) (BONE : Bool) (BZERO : Bool) (C : Int) (K : Int) (LDA : Int) (LDB : Int) (LDC : Int) (M : Int) (J : Int) :
    (Thr.hgemmzz_30_J A ALPHA B BETA BONE BZERO C K LDA LDB LDC M J (F := F)).run = Haxx.hgemmzz_30_J A ALPHA B BETA BONE BZERO C K LDA LDB LDC M J (F := F) := by
  simp only [Thr.hgemmzz_30_J, Haxx.hgemmzz_30_J, thr]

/-- As `Haxx.hgemmzz_90_L`, `src/hblas/fortran/hblas3/hgemmzz.f:103-109`, body of `DO 90 L`. -/
def hgemmzz_90_L (A : Int) (B : Int) (I : Int) (J : Int) (LDA : Int) (LDB : Int) (L : Int) (HTMP1J : Cplx F) (HTMP1S : Cplx F) : Prog F (Cplx F × Cplx F) := do
  let t1 ← rdC (el3 2 2 LDA A 1 L I)
  let t2 ← rdC (el3 2 2 LDB B 1 L J)
  let t3 ← rdC (el3 2 2 LDA A 2 L I)
  let t4 ← rdC (el3 2 2 LDB B 2 L J)
  let HTMP1S : Cplx F := HTMP1S +ᶜ Cplx.conj t1 *ᶜ t2 +ᶜ t3 *ᶜ Cplx.conj t4
  let t5 ← rdC (el3 2 2 LDA A 1 L I)
  let t6 ← rdC (el3 2 2 LDB B 2 L J)
  let t7 ← rdC (el3 2 2 LDA A 2 L I)
  let t8 ← rdC (el3 2 2 LDB B 1 L J)
  let HTMP1J : Cplx F := HTMP1J +ᶜ Cplx.conj t5 *ᶜ t6 -ᶜ t7 *ᶜ Cplx.conj t8
  pure (HTMP1J, HTMP1S)

@[thr] theorem run_hgemmzz_90_L (A : Int) (B : Int) (I : Int) (J : Int) (LDA : Int) (LDB : Int) (L : Int) (HTMP1J : Cplx F) (HTMP1S : Cplx F) :
    (Thr.hgemmzz_90_L A B I J LDA LDB L HTMP1J HTMP1S (F := F)).run = Haxx.hgemmzz_90_L A B I J LDA LDB L HTMP1J HTMP1S (F := F) := by
  simp only [Thr.hgemmzz_90_L, Haxx.hgemmzz_90_L, thr]

/-- As `Haxx.hgemmzz_80_I`, `src/hblas/fortran/hblas3/hgemmzz.f:100-118`, body of `DO 80 I`. -/
def hgemmzz_80_I (A : Int) (ALPHA : Cplx F) (B : Int) (BETA : Cplx F) (BZERO : Bool) (C : Int) (J : Int) (K : Int) (LDA : Int) (LDB : Int) (LDC : Int) (I : Int)  : Prog F (Unit) := do
  let HTMP1S : Cplx F := (⟨zero, zero⟩ : Cplx F)
  let HTMP1J : Cplx F := (⟨zero, zero⟩ : Cplx F)
  let r ← foldN (K).toNat (fun i (s : Cplx F × Cplx F) => hgemmzz_90_L A B I J LDA LDB ((i : Int) + 1) s.1 s.2) (HTMP1J, HTMP1S)
  let HTMP1J : Cplx F := r.1
  let HTMP1S : Cplx F := r.2
  let _ ← (do
    if BZERO then
      wrC (el3 2 2 LDC C 1 I J) (ALPHA *ᶜ HTMP1S)
      wrC (el3 2 2 LDC C 2 I J) (ALPHA *ᶜ HTMP1J)
      pure ()
    else
      let t1 ← rdC (el3 2 2 LDC C 1 I J)
      wrC (el3 2 2 LDC C 1 I J) (ALPHA *ᶜ HTMP1S +ᶜ BETA *ᶜ t1)
      let t2 ← rdC (el3 2 2 LDC C 2 I J)
      wrC (el3 2 2 LDC C 2 I J) (ALPHA *ᶜ HTMP1J +ᶜ BETA *ᶜ t2)
      pure () : Prog F Unit)
  pure ()

@[thr] theorem run_hgemmzz_80_I (A : Int) (ALPHA : Cplx F) (B : Int) (BETA : Cplx F) (BZERO : Bool) (C : Int) (J : Int) (K : Int) (LDA : Int) (LDB : Int) (LDC : Int) (I : Int) :
    (Thr.hgemmzz_80_I A ALPHA B BETA BZERO C J K LDA LDB LDC I (F := F)).run = Haxx.hgemmzz_80_I A ALPHA B BETA BZERO C J K LDA LDB LDC I (F := F) := by
  simp only [Thr.hgemmzz_80_I, Haxx.hgemmzz_80_I, thr]

/-- As `Haxx.hgemmzz_80_J`, `src/hblas/fortran/hblas3/hgemmzz.f:99-118`, body of `DO 80 J`. -/
def hgemmzz_80_J (A : Int) (ALPHA : Cplx F) (B : Int) (BETA : Cplx F) (BZERO : Bool) (C : Int) (K : Int) (LDA : Int) (LDB : Int) (LDC : Int) (M : Int) (J : Int)  : Prog F (Unit) := do
  forN (M).toNat (fun i => hgemmzz_80_I A ALPHA B BETA BZERO C J K LDA LDB LDC ((i : Int) + 1))
  pure ()

@[thr] theorem run_hgemmzz_80_J (A : Int) (ALPHA : Cplx F) (B : Int) (BETA : Cplx F) (BZERO : Bool) (C : Int) (K : Int) (LDA : Int) (LDB : Int) (LDC : Int) (M : Int) (J : Int) :
    (Thr.hgemmzz_80_J A ALPHA B BETA BZERO C K LDA LDB LDC M J (F := F)).run = Haxx.hgemmzz_80_J A ALPHA B BETA BZERO C K LDA LDB LDC M J (F := F) := by
  simp only [Thr.hgemmzz_80_J, Haxx.hgemmzz_80_J, thr]

/-- As `Haxx.hgemmzz_110_L`, `src/hblas/fortran/hblas3/hgemmzz.f:128-134`, body of `DO 110 L`. -/
def hgemmzz_110_L (A : Int) (B : Int) (I : Int) (J : Int) (LDA : Int) (LDB : Int) (L : Int) (HTMP1J : Cplx F) (HTMP1S : Cplx F) : Prog F (Cplx F × Cplx F) := do
  let t1 ← rdC (el3 2 2 LDA A 1 L I)
  let t2 ← rdC (el3 2 2 LDB B 1 L J)
  let t3 ← rdC (el3 2 2 LDA A 2 L I)
  let t4 ← rdC (el3 2 2 LDB B 2 L J)
  let HTMP1S : Cplx F := HTMP1S +ᶜ t1 *ᶜ t2 -ᶜ t3 *ᶜ Cplx.conj t4
  let t5 ← rdC (el3 2 2 LDA A 1 L I)
  let t6 ← rdC (el3 2 2 LDB B 2 L J)
  let t7 ← rdC (el3 2 2 LDA A 2 L I)
  let t8 ← rdC (el3 2 2 LDB B 1 L J)
  let HTMP1J : Cplx F := HTMP1J +ᶜ t5 *ᶜ t6 +ᶜ t7 *ᶜ Cplx.conj t8
  pure (HTMP1J, HTMP1S)

@[thr] theorem run_hgemmzz_110_L (A : Int) (B : Int) (I : Int) (J : Int) (LDA : Int) (LDB : Int) (L : Int) (HTMP1J : Cplx F) (HTMP1S : Cplx F) :
    (Thr.hgemmzz_110_L A B I J LDA LDB L HTMP1J HTMP1S (F := F)).run = Haxx.hgemmzz_110_L A B I J LDA LDB L HTMP1J HTMP1S (F := F) := by
  simp only [Thr.hgemmzz_110_L, Haxx.hgemmzz_110_L, thr]

/-- As `Haxx.hgemmzz_100_I`, `src/hblas/fortran/hblas3/hgemmzz.f:125-143`, body of `DO 100 I`. -/
def hgemmzz_100_I (A : Int) (ALPHA : Cplx F) (B : Int) (BETA : Cplx F) (BZERO : Bool) (C : Int) (J : Int) (K : Int) (LDA : Int) (LDB : Int) (LDC : Int) (I : Int)  : Prog F (Unit) := do
  let HTMP1S : Cplx F := (⟨zero, zero⟩ : Cplx F)
  let HTMP1J : Cplx F := (⟨zero, zero⟩ : Cplx F)
  let r ← foldN (K).toNat (fun i (s : Cplx F × Cplx F) => hgemmzz_110_L A B I J LDA LDB ((i : Int) + 1) s.1 s.2) (HTMP1J, HTMP1S)
  let HTMP1J : Cplx F := r.1
  let HTMP1S : Cplx F := r.2
  let _ ← (do
    if BZERO then
      wrC (el3 2 2 LDC C 1 I J) (ALPHA *ᶜ HTMP1S)
      wrC (el3 2 2 LDC C 2 I J) (ALPHA *ᶜ HTMP1J)
      pure ()
    else
      let t1 ← rdC (el3 2 2 LDC C 1 I J)
      wrC (el3 2 2 LDC C 1 I J) (ALPHA *ᶜ HTMP1S +ᶜ BETA *ᶜ t1)
      let t2 ← rdC (el3 2 2 LDC C 2 I J)
      wrC (el3 2 2 LDC C 2 I J) (ALPHA *ᶜ HTMP1J +ᶜ BETA *ᶜ t2)
      pure () : Prog F Unit)
  pure ()

@[thr] theorem run_hgemmzz_100_I (A : Int) (ALPHA : Cplx F) (B : Int) (BETA : Cplx F) (BZERO : Bool) (C : Int) (J : Int) (K : Int) (LDA : Int) (LDB : Int) (LDC : Int) (I : Int) :
    (Thr.hgemmzz_100_I A ALPHA B BETA BZERO C J K LDA LDB LDC I (F := F)).run = Haxx.hgemmzz_100_I A ALPHA B BETA BZERO C J K LDA LDB LDC I (F := F) := by
  simp only [Thr.hgemmzz_100_I, Haxx.hgemmzz_100_I, thr]

/-- As `Haxx.hgemmzz_100_J`, `src/hblas/fortran/hblas3/hgemmzz.f:124-143`, body of `DO 100 J`. -/
def hgemmzz_100_J (A : Int) (ALPHA : Cplx F) (B : Int) (BETA : Cplx F) (BZERO : Bool) (C : Int) (K : Int) (LDA : Int) (LDB : Int) (LDC : Int) (M : Int) (J : Int)  : Prog F (Unit) := do
  forN (M).toNat (fun i => hgemmzz_100_I A ALPHA B BETA BZERO C J K LDA LDB LDC ((i : Int) + 1))
  pure ()

@[thr] theorem run_hgemmzz_100_J (A : Int) (ALPHA : Cplx F) (B : Int) (BETA : Cplx F) (BZERO : Bool) (C : Int) (K : Int) (LDA : Int) (LDB : Int) (LDC : Int) (M : Int) (J : Int) :
    (Thr.hgemmzz_100_J A ALPHA B BETA BZERO C K LDA LDB LDC M J (F := F)).run = Haxx.hgemmzz_100_J A ALPHA B BETA BZERO C K LDA LDB LDC M J (F := F) := by
  simp only [Thr.hgemmzz_100_J, Haxx.hgemmzz_100_J, thr]

/-- As `Haxx.hgemmzz_if64`, `src/hblas/fortran/hblas3/hgemmzz.f:64-144`. -/
def hgemmzz_if64 (A : Int) (ALPHA : Cplx F) (B : Int) (BETA : Cplx F) (BONE : Bool) (BZERO : Bool) (C : Int) (CONJA : Bool) (K : Int) (LDA : Int) (LDB : Int) (LDC : Int) (M : Int) (N : Int) (NOTA : Bool) : Prog F (Unit) := do
  if NOTA then
    forN (N).toNat (fun i => hgemmzz_30_J A ALPHA B BETA BONE BZERO C K LDA LDB LDC M ((i : Int) + 1))
    pure ()
  else if CONJA then
    forN (N).toNat (fun i => hgemmzz_80_J A ALPHA B BETA BZERO C K LDA LDB LDC M ((i : Int) + 1))
    pure ()
  else
    forN (N).toNat (fun i => hgemmzz_100_J A ALPHA B BETA BZERO C K LDA LDB LDC M ((i : Int) + 1))
    pure ()

@[thr] theorem run_hgemmzz_if64 (A : Int) (ALPHA : Cplx F) (B : Int) (BETA : Cplx F) (BONE : Bool) (BZERO : Bool) (C : Int) (CONJA : Bool) (K : Int) (LDA : Int) (LDB : Int) (LDC : Int) (M : Int) (N : Int) (NOTA : Bool) :
    (Thr.hgemmzz_if64 A ALPHA B BETA BONE BZERO C CONJA K LDA LDB LDC M N NOTA (F := F)).run = Haxx.hgemmzz_if64 A ALPHA B BETA BONE BZERO C CONJA K LDA LDB LDC M N NOTA (F := F) := by
  simp only [Thr.hgemmzz_if64, Haxx.hgemmzz_if64, thr]

/-- As `Haxx.hgemmzz_130_I`, `src/hblas/fortran/hblas3/hgemmzz.f:152-155`, body of `DO 130 I`. -/
def hgemmzz_130_I (C : Int) (J : Int) (LDC : Int) (I : Int)  : Prog F (Unit) := do
  wrC (el3 2 2 LDC C 1 I J) (⟨zero, zero⟩ : Cplx F)
  wrC (el3 2 2 LDC C 2 I J) (⟨zero, zero⟩ : Cplx F)
  pure ()

@[thr] theorem run_hgemmzz_130_I (C : Int) (J : Int) (LDC : Int) (I : Int) :
    (Thr.hgemmzz_130_I C J LDC I (F := F)).run = Haxx.hgemmzz_130_I C J LDC I (F := F) := by
  simp only [Thr.hgemmzz_130_I, Haxx.hgemmzz_130_I, thr]

/-- As `Haxx.hgemmzz_140_I`, `src/hblas/fortran/hblas3/hgemmzz.f:157-160`, body of `DO 140 I`. -/
def hgemmzz_140_I (BETA : Cplx F) (C : Int) (J : Int) (LDC : Int) (I : Int)  : Prog F (Unit) := do
  let t1 ← rdC (el3 2 2 LDC C 1 I J)
  wrC (el3 2 2 LDC C 1 I J) (BETA *ᶜ t1)
  let t2 ← rdC (el3 2 2 LDC C 2 I J)
  wrC (el3 2 2 LDC C 2 I J) (BETA *ᶜ t2)
  pure ()

@[thr] theorem run_hgemmzz_140_I (BETA : Cplx F) (C : Int) (J : Int) (LDC : Int) (I : Int) :
    (Thr.hgemmzz_140_I BETA C J LDC I (F := F)).run = Haxx.hgemmzz_140_I BETA C J LDC I (F := F) := by
  simp only [Thr.hgemmzz_140_I, Haxx.hgemmzz_140_I, thr]

/-- As `Haxx.hgemmzz_if151`, `src/hblas/fortran/hblas3/hgemmzz.f:151-161`. -/
def hgemmzz_if151 (BETA : Cplx F) (BONE : Bool) (BZERO : Bool) (C : Int) (J : Int) (LDC : Int) (M : Int) : Prog F (Unit) := do
  if BZERO then
    forN (M).toNat (fun i => hgemmzz_130_I C J LDC ((i : Int) + 1))
    pure ()
  else if !BONE then
    forN (M).toNat (fun i => hgemmzz_140_I BETA C J LDC ((i : Int) + 1))
    pure ()
  else
    pure ()

@[thr] theorem run_hgemmzz_if151 (BETA : Cplx F) (BONE : Bool) (BZERO : Bool) (C : Int) (J : Int) (LDC : Int) (M : Int) :
    (Thr.hgemmzz_if151 BETA BONE BZERO C J LDC M (F := F)).run = Haxx.hgemmzz_if151 BETA BONE BZERO C J LDC M (F := F) := by
  simp only [Thr.hgemmzz_if151, Haxx.hgemmzz_if151, thr]

/-- As `Haxx.hgemmzz_160_I`, `src/hblas/fortran/hblas3/hgemmzz.f:168-174`, body of `DO 160 I`. -/
def hgemmzz_160_I (A : Int) (C : Int) (HTMP1J : Cplx F) (HTMP1S : Cplx F) (HTMP2J : Cplx F) (HTMP2S : Cplx F) (J : Int) (L : Int) (LDA : Int) (LDC : Int) (I : Int)  : Prog F (Unit) := do
  let t1 ← rdC (el3 2 2 LDC C 1 I J)
  let t2 ← rdC (el3 2 2 LDA A 1 I L)
  let t3 ← rdC (el3 2 2 LDA A 2 I L)
  wrC (el3 2 2 LDC C 1 I J) (t1 +ᶜ t2 *ᶜ HTMP2S -ᶜ t3 *ᶜ HTMP2J)
  let t4 ← rdC (el3 2 2 LDC C 2 I J)
  let t5 ← rdC (el3 2 2 LDA A 1 I L)
  let t6 ← rdC (el3 2 2 LDA A 2 I L)
  wrC (el3 2 2 LDC C 2 I J) (t4 +ᶜ t5 *ᶜ HTMP1J +ᶜ t6 *ᶜ HTMP1S)
  pure ()

@[thr] theorem run_hgemmzz_160_I (A : Int) (C : Int) (HTMP1J : Cplx F) (HTMP1S : Cplx F) (HTMP2J : Cplx F) (HTMP2S : Cplx F) (J : Int) (L : Int) (LDA : Int) (LDC : Int) (I : Int) :
    (Thr.hgemmzz_160_I A C HTMP1J HTMP1S HTMP2J HTMP2S J L LDA LDC I (F := F)).run = Haxx.hgemmzz_160_I A C HTMP1J HTMP1S HTMP2J HTMP2S J L LDA LDC I (F := F) := by
  simp only [Thr.hgemmzz_160_I, Haxx.hgemmzz_160_I, thr]

/-- As `Haxx.hgemmzz_150_L`, `src/hblas/fortran/hblas3/hgemmzz.f:163-175`, body of `DO 150 L`. -/
def hgemmzz_150_L (A : Int) (ALPHA : Cplx F) (B : Int) (C : Int) (J : Int) (LDA : Int) (LDB : Int) (LDC : Int) (M : Int) (L : Int)  : Prog F (Unit) := do
  let t1 ← rdC (el3 2 2 LDB B 1 J L)
  let HTMP1S : Cplx F := ALPHA *ᶜ t1
  let t2 ← rdC (el3 2 2 LDB B 2 J L)
  let HTMP1J : Cplx F := Cplx.neg (ALPHA *ᶜ t2)
  let t3 ← rdC (el3 2 2 LDB B 1 J L)
  let HTMP2S : Cplx F := ALPHA *ᶜ Cplx.conj t3
  let t4 ← rdC (el3 2 2 LDB B 2 J L)
  let HTMP2J : Cplx F := Cplx.neg (ALPHA *ᶜ Cplx.conj t4)
  forN (M).toNat (fun i => hgemmzz_160_I A C HTMP1J HTMP1S HTMP2J HTMP2S J L LDA LDC ((i : Int) + 1))
  pure ()

@[thr] theorem run_hgemmzz_150_L (A : Int) (ALPHA : Cplx F) (B : Int) (C : Int) (J : Int) (LDA : Int) (LDB : Int) (LDC : Int) (M : Int) (L : Int) :
    (Thr.hgemmzz_150_L A ALPHA B C J LDA LDB LDC M L (F := F)).run = Haxx.hgemmzz_150_L A ALPHA B C J LDA LDB LDC M L (F := F) := by
  simp only [Thr.hgemmzz_150_L, Haxx.hgemmzz_150_L, thr]

/-- As `Haxx.hgemmzz_120_J`, `src/hblas/fortran/hblas3/hgemmzz.f:150-176`, body of `DO 120 J`. -/
def hgemmzz_120_J (A : Int) (ALPHA : Cplx F) (B : Int) (BETA : Cplx F) (BONE : Bool) (BZERO : Bool) (C : Int) (K : Int) (LDA : Int) (LDB : Int) (LDC : Int) (M : Int) (J : Int)  : Prog F (Unit) := do
  hgemmzz_if151 BETA BONE BZERO C J LDC M
  forN (K).toNat (fun i => hgemmzz_150_L A ALPHA B C J LDA LDB LDC M ((i : Int) + 1))
  pure ()

@[thr] theorem run_hgemmzz_120_J (A : Int) (ALPHA : Cplx F) (B : Int) (BETA : Cplx F) (BONE : Bool) (BZERO : Bool) (C : Int) (K : Int) (LDA : Int) (LDB : Int) (LDC : Int) (M : Int) (J : Int) :
    (Thr.hgemmzz_120_J A ALPHA B BETA BONE BZERO C K LDA LDB LDC M J (F := F)).run = Haxx.hgemmzz_120_J A ALPHA B BETA BONE BZERO C K LDA LDB LDC M J (F := F) := by
  simp only [Thr.hgemmzz_120_J, Haxx.hgemmzz_120_J, thr]

/-- As `Haxx.hgemmzz_180_I`, `src/hblas/fortran/hblas3/hgemmzz.f:184-187`, body of `DO 180 I`. -/
def hgemmzz_180_I (C : Int) (J : Int) (LDC : Int) (I : Int)  : Prog F (Unit) := do
  wrC (el3 2 2 LDC C 1 I J) (⟨zero, zero⟩ : Cplx F)
  wrC (el3 2 2 LDC C 2 I J) (⟨zero, zero⟩ : Cplx F)
  pure ()

@[thr] theorem run_hgemmzz_180_I (C : Int) (J : Int) (LDC : Int) (I : Int) :
    (Thr.hgemmzz_180_I C J LDC I (F := F)).run = Haxx.hgemmzz_180_I C J LDC I (F := F) := by
  simp only [Thr.hgemmzz_180_I, Haxx.hgemmzz_180_I, thr]

/-- As `Haxx.hgemmzz_190_I`, `src/hblas/fortran/hblas3/hgemmzz.f:189-192`, body of `DO 190 I`. -/
def hgemmzz_190_I (BETA : Cplx F) (C : Int) (J : Int) (LDC : Int) (I : Int)  : Prog F (Unit) := do
  let t1 ← rdC (el3 2 2 LDC C 1 I J)
  wrC (el3 2 2 LDC C 1 I J) (BETA *ᶜ t1)
  let t2 ← rdC (el3 2 2 LDC C 2 I J)
  wrC (el3 2 2 LDC C 2 I J) (BETA *ᶜ t2)
  pure ()

@[thr] theorem run_hgemmzz_190_I (BETA : Cplx F) (C : Int) (J : Int) (LDC : Int) (I : Int) :
    (Thr.hgemmzz_190_I BETA C J LDC I (F := F)).run = Haxx.hgemmzz_190_I BETA C J LDC I (F := F) := by
  simp only [Thr.hgemmzz_190_I, Haxx.hgemmzz_190_I, thr]

/-- As `Haxx.hgemmzz_if183`, `src/hblas/fortran/hblas3/hgemmzz.f:183-193`. -/
def hgemmzz_if183 (BETA : Cplx F) (BONE : Bool) (BZERO : Bool) (C : Int) (J : Int) (LDC : Int) (M : Int) : Prog F (Unit) := do
  if BZERO then
    forN (M).toNat (fun i => hgemmzz_180_I C J LDC ((i : Int) + 1))
    pure ()
  else if !BONE then
    forN (M).toNat (fun i => hgemmzz_190_I BETA C J LDC ((i : Int) + 1))
    pure ()
  else
    pure ()

@[thr] theorem run_hgemmzz_if183 (BETA : Cplx F) (BONE : Bool) (BZERO : Bool) (C : Int) (J : Int) (LDC : Int) (M : Int) :
    (Thr.hgemmzz_if183 BETA BONE BZERO C J LDC M (F := F)).run = Haxx.hgemmzz_if183 BETA BONE BZERO C J LDC M (F := F) := by
  simp only [Thr.hgemmzz_if183, Haxx.hgemmzz_if183, thr]

/-- As `Haxx.hgemmzz_210_I`, `src/hblas/fortran/hblas3/hgemmzz.f:200-206`, body of `DO 210 I`. -/
def hgemmzz_210_I (A : Int) (C : Int) (HTMP1J : Cplx F) (HTMP1S : Cplx F) (HTMP2J : Cplx F) (HTMP2S : Cplx F) (J : Int) (L : Int) (LDA : Int) (LDC : Int) (I : Int)  : Prog F (Unit) := do
  let t1 ← rdC (el3 2 2 LDC C 1 I J)
  let t2 ← rdC (el3 2 2 LDA A 1 I L)
  let t3 ← rdC (el3 2 2 LDA A 2 I L)
  wrC (el3 2 2 LDC C 1 I J) (t1 +ᶜ t2 *ᶜ HTMP1S -ᶜ t3 *ᶜ HTMP2J)
  let t4 ← rdC (el3 2 2 LDC C 2 I J)
  let t5 ← rdC (el3 2 2 LDA A 1 I L)
  let t6 ← rdC (el3 2 2 LDA A 2 I L)
  wrC (el3 2 2 LDC C 2 I J) (t4 +ᶜ t5 *ᶜ HTMP1J +ᶜ t6 *ᶜ HTMP2S)
  pure ()

@[thr] theorem run_hgemmzz_210_I (A : Int) (C : Int) (HTMP1J : Cplx F) (HTMP1S : Cplx F) (HTMP2J : Cplx F) (HTMP2S : Cplx F) (J : Int) (L : Int) (LDA : Int) (LDC : Int) (I : Int) :
    (Thr.hgemmzz_210_I A C HTMP1J HTMP1S HTMP2J HTMP2S J L LDA LDC I (F := F)).run = Haxx.hgemmzz_210_I A C HTMP1J HTMP1S HTMP2J HTMP2S J L LDA LDC I (F := F) := by
  simp only [Thr.hgemmzz_210_I, Haxx.hgemmzz_210_I, thr]

/-- As `Haxx.hgemmzz_200_L`, `src/hblas/fortran/hblas3/hgemmzz.f:195-207`, body of `DO 200 L`. -/
def hgemmzz_200_L (A : Int) (ALPHA : Cplx F) (B : Int) (C : Int) (J : Int) (LDA : Int) (LDB : Int) (LDC : Int) (M : Int) (L : Int)  : Prog F (Unit) := do
  let t1 ← rdC (el3 2 2 LDB B 1 J L)
  let HTMP1S : Cplx F := ALPHA *ᶜ t1
  let t2 ← rdC (el3 2 2 LDB B 2 J L)
  let HTMP1J : Cplx F := ALPHA *ᶜ t2
  let t3 ← rdC (el3 2 2 LDB B 1 J L)
  let HTMP2S : Cplx F := ALPHA *ᶜ Cplx.conj t3
  let t4 ← rdC (el3 2 2 LDB B 2 J L)
  let HTMP2J : Cplx F := ALPHA *ᶜ Cplx.conj t4
  forN (M).toNat (fun i => hgemmzz_210_I A C HTMP1J HTMP1S HTMP2J HTMP2S J L LDA LDC ((i : Int) + 1))
  pure ()

@[thr] theorem run_hgemmzz_200_L (A : Int) (ALPHA : Cplx F) (B : Int) (C : Int) (J : Int) (LDA : Int) (LDB : Int) (LDC : Int) (M : Int) (L : Int) :
    (Thr.hgemmzz_200_L A ALPHA B C J LDA LDB LDC M L (F := F)).run = Haxx.hgemmzz_200_L A ALPHA B C J LDA LDB LDC M L (F := F) := by
  simp only [Thr.hgemmzz_200_L, Haxx.hgemmzz_200_L, thr]

/-- As `Haxx.hgemmzz_170_J`, `src/hblas/fortran/hblas3/hgemmzz.f:182-208`, body of `DO 170 J`. -/
def hgemmzz_170_J (A : Int) (ALPHA : Cplx F) (B : Int) (BETA : Cplx F) (BONE : Bool) (BZERO : Bool) (C : Int) (K : Int) (LDA : Int) (LDB : Int) (LDC : Int) (M : Int) (J : Int)  : Prog F (Unit) := do
  hgemmzz_if183 BETA BONE BZERO C J LDC M
  forN (K).toNat (fun i => hgemmzz_200_L A ALPHA B C J LDA LDB LDC M ((i : Int) + 1))
  pure ()

@[thr] theorem run_hgemmzz_170_J (A : Int) (ALPHA : Cplx F) (B : Int) (BETA : Cplx F) (BONE : Bool) (BZERO : Bool) (C : Int) (K : Int) (LDA : Int) (LDB : Int) (LDC : Int) (M : Int) (J : Int) :
    (Thr.hgemmzz_170_J A ALPHA B BETA BONE BZERO C K LDA LDB LDC M J (F := F)).run = Haxx.hgemmzz_170_J A ALPHA B BETA BONE BZERO C K LDA LDB LDC M J (F := F) := by
  simp only [Thr.hgemmzz_170_J, Haxx.hgemmzz_170_J, thr]

/-- As `Haxx.hgemmzz_if146`, `src/hblas/fortran/hblas3/hgemmzz.f:146-209`. -/
def hgemmzz_if146 (A : Int) (ALPHA : Cplx F) (B : Int) (BETA : Cplx F) (BONE : Bool) (BZERO : Bool) (C : Int) (CONJB : Bool) (K : Int) (LDA : Int) (LDB : Int) (LDC : Int) (M : Int) (N : Int) : Prog F (Unit) := do
  if CONJB then
    forN (N).toNat (fun i => hgemmzz_120_J A ALPHA B BETA BONE BZERO C K LDA LDB LDC M ((i : Int) + 1))
    pure ()
  else
    forN (N).toNat (fun i => hgemmzz_170_J A ALPHA B BETA BONE BZERO C K LDA LDB LDC M ((i : Int) + 1))
    pure ()

@[thr] theorem run_hgemmzz_if146 (A : Int) (ALPHA : Cplx F) (B : Int) (BETA : Cplx F) (BONE : Bool) (BZERO : Bool) (C : Int) (CONJB : Bool) (K : Int) (LDA : Int) (LDB : Int) (LDC : Int) (M : Int) (N : Int) :
    (Thr.hgemmzz_if146 A ALPHA B BETA BONE BZERO C CONJB K LDA LDB LDC M N (F := F)).run = Haxx.hgemmzz_if146 A ALPHA B BETA BONE BZERO C CONJB K LDA LDB LDC M N (F := F) := by
  simp only [Thr.hgemmzz_if146, Haxx.hgemmzz_if146, thr]

/-- As `Haxx.hgemmzz_230_L`, `src/hblas/fortran/hblas3/hgemmzz.f:219-226`, body of `DO 230 L`. -/
def hgemmzz_230_L (A : Int) (B : Int) (I : Int) (J : Int) (LDA : Int) (LDB : Int) (L : Int) (HTMP1J : Cplx F) (HTMP1S : Cplx F) : Prog F (Cplx F × Cplx F) := do
  let t1 ← rdC (el3 2 2 LDA A 1 L I)
  let t2 ← rdC (el3 2 2 LDB B 1 J L)
  let t3 ← rdC (el3 2 2 LDA A 2 L I)
  let t4 ← rdC (el3 2 2 LDB B 2 J L)
  let HTMP1S : Cplx F := HTMP1S +ᶜ Cplx.conj t1 *ᶜ Cplx.conj t2 -ᶜ t3 *ᶜ Cplx.conj t4
  let t5 ← rdC (el3 2 2 LDA A 1 L I)
  let t6 ← rdC (el3 2 2 LDB B 2 J L)
  let t7 ← rdC (el3 2 2 LDA A 2 L I)
  let t8 ← rdC (el3 2 2 LDB B 1 J L)
  let HTMP1J : Cplx F := HTMP1J -ᶜ Cplx.conj t5 *ᶜ t6 -ᶜ t7 *ᶜ t8
  pure (HTMP1J, HTMP1S)

@[thr] theorem run_hgemmzz_230_L (A : Int) (B : Int) (I : Int) (J : Int) (LDA : Int) (LDB : Int) (L : Int) (HTMP1J : Cplx F) (HTMP1S : Cplx F) :
    (Thr.hgemmzz_230_L A B I J LDA LDB L HTMP1J HTMP1S (F := F)).run = Haxx.hgemmzz_230_L A B I J LDA LDB L HTMP1J HTMP1S (F := F) := by
  simp only [Thr.hgemmzz_230_L, Haxx.hgemmzz_230_L, thr]

/-- As `Haxx.hgemmzz_220_I`, `src/hblas/fortran/hblas3/hgemmzz.f:216-235`, body of `DO 220 I`. -/
def hgemmzz_220_I (A : Int) (ALPHA : Cplx F) (B : Int) (BETA : Cplx F) (BZERO : Bool) (C : Int) (J : Int) (K : Int) (LDA : Int) (LDB : Int) (LDC : Int) (I : Int)  : Prog F (Unit) := do
  let HTMP1S : Cplx F := (⟨zero, zero⟩ : Cplx F)
  let HTMP1J : Cplx F := (⟨zero, zero⟩ : Cplx F)
  let r ← foldN (K).toNat (fun i (s : Cplx F × Cplx F) => hgemmzz_230_L A B I J LDA LDB ((i : Int) + 1) s.1 s.2) (HTMP1J, HTMP1S)
  let HTMP1J : Cplx F := r.1
  let HTMP1S : Cplx F := r.2
  let _ ← (do
    if BZERO then
      wrC (el3 2 2 LDC C 1 I J) (ALPHA *ᶜ HTMP1S)
      wrC (el3 2 2 LDC C 2 I J) (ALPHA *ᶜ HTMP1J)
      pure ()
    else
      let t1 ← rdC (el3 2 2 LDC C 1 I J)
      wrC (el3 2 2 LDC C 1 I J) (ALPHA *ᶜ HTMP1S +ᶜ BETA *ᶜ t1)
      let t2 ← rdC (el3 2 2 LDC C 2 I J)
      wrC (el3 2 2 LDC C 2 I J) (ALPHA *ᶜ HTMP1J +ᶜ BETA *ᶜ t2)
      pure () : Prog F Unit)
  pure ()

@[thr] theorem run_hgemmzz_220_I (A : Int) (ALPHA : Cplx F) (B : Int) (BETA : Cplx F) (BZERO : Bool) (C : Int) (J : Int) (K : Int) (LDA : Int) (LDB : Int) (LDC : Int) (I : Int) :
    (Thr.hgemmzz_220_I A ALPHA B BETA BZERO C J K LDA LDB LDC I (F := F)).run = Haxx.hgemmzz_220_I A ALPHA B BETA BZERO C J K LDA LDB LDC I (F := F) := by
  simp only [Thr.hgemmzz_220_I, Haxx.hgemmzz_220_I, thr]

/-- As `Haxx.hgemmzz_220_J`, `src/hblas/fortran/hblas3/hgemmzz.f:215-235`, body of `DO 220 J`. -/
def hgemmzz_220_J (A : Int) (ALPHA : Cplx F) (B : Int) (BETA : Cplx F) (BZERO : Bool) (C : Int) (K : Int) (LDA : Int) (LDB : Int) (LDC : Int) (M : Int) (J : Int)  : Prog F (Unit) := do
  forN (M).toNat (fun i => hgemmzz_220_I A ALPHA B BETA BZERO C J K LDA LDB LDC ((i : Int) + 1))
  pure ()

@[thr] theorem run_hgemmzz_220_J (A : Int) (ALPHA : Cplx F) (B : Int) (BETA : Cplx F) (BZERO : Bool) (C : Int) (K : Int) (LDA : Int) (LDB : Int) (LDC : Int) (M : Int) (J : Int) :
    (Thr.hgemmzz_220_J A ALPHA B BETA BZERO C K LDA LDB LDC M J (F := F)).run = Haxx.hgemmzz_220_J A ALPHA B BETA BZERO C K LDA LDB LDC M J (F := F) := by
  simp only [Thr.hgemmzz_220_J, Haxx.hgemmzz_220_J, thr]

/-- As `Haxx.hgemmzz_250_L`, `src/hblas/fortran/hblas3/hgemmzz.f:245-251`, body of `DO 250 L`. -/
def hgemmzz_250_L (A : Int) (B : Int) (I : Int) (J : Int) (LDA : Int) (LDB : Int) (L : Int) (HTMP1J : Cplx F) (HTMP1S : Cplx F) : Prog F (Cplx F × Cplx F) := do
  let t1 ← rdC (el3 2 2 LDA A 1 L I)
  let t2 ← rdC (el3 2 2 LDB B 1 J L)
  let t3 ← rdC (el3 2 2 LDA A 2 L I)
  let t4 ← rdC (el3 2 2 LDB B 2 J L)
  let HTMP1S : Cplx F := HTMP1S +ᶜ Cplx.conj t1 *ᶜ t2 +ᶜ t3 *ᶜ Cplx.conj t4
  let t5 ← rdC (el3 2 2 LDA A 1 L I)
  let t6 ← rdC (el3 2 2 LDB B 2 J L)
  let t7 ← rdC (el3 2 2 LDA A 2 L I)
  let t8 ← rdC (el3 2 2 LDB B 1 J L)
  let HTMP1J : Cplx F := HTMP1J +ᶜ Cplx.conj t5 *ᶜ t6 -ᶜ t7 *ᶜ Cplx.conj t8
  pure (HTMP1J, HTMP1S)

@[thr] theorem run_hgemmzz_250_L (A : Int) (B : Int) (I : Int) (J : Int) (LDA : Int) (LDB : Int) (L : Int) (HTMP1J : Cplx F) (HTMP1S : Cplx F) :
    (Thr.hgemmzz_250_L A B I J LDA LDB L HTMP1J HTMP1S (F := F)).run = Haxx.hgemmzz_250_L A B I J LDA LDB L HTMP1J HTMP1S (F := F) := by
  simp only [Thr.hgemmzz_250_L, Haxx.hgemmzz_250_L, thr]

/-- As `Haxx.hgemmzz_240_I`, `src/hblas/fortran/hblas3/hgemmzz.f:242-260`, body of `DO 240 I`. -/
def hgemmzz_240_I (A : Int) (ALPHA : Cplx F) (B : Int) (BETA : Cplx F) (BZERO : Bool) (C : Int) (J : Int) (K : Int) (LDA : Int) (LDB : Int) (LDC : Int) (I : Int)  : Prog F (Unit) := do
  let HTMP1S : Cplx F := (⟨zero, zero⟩ : Cplx F)
  let HTMP1J : Cplx F := (⟨zero, zero⟩ : Cplx F)
  let r ← foldN (K).toNat (fun i (s : Cplx F × Cplx F) => hgemmzz_250_L A B I J LDA LDB ((i : Int) + 1) s.1 s.2) (HTMP1J, HTMP1S)
  let HTMP1J : Cplx F := r.1
  let HTMP1S : Cplx F := r.2
  let _ ← (do
    if BZERO then
      wrC (el3 2 2 LDC C 1 I J) (ALPHA *ᶜ HTMP1S)
      wrC (el3 2 2 LDC C 2 I J) (ALPHA *ᶜ HTMP1J)
      pure ()
    else
      let t1 ← rdC (el3 2 2 LDC C 1 I J)
      wrC (el3 2 2 LDC C 1 I J) (ALPHA *ᶜ HTMP1S +ᶜ BETA *ᶜ t1)
      let t2 ← rdC (el3 2 2 LDC C 2 I J)
      wrC (el3 2 2 LDC C 2 I J) (ALPHA *ᶜ HTMP1J +ᶜ BETA *ᶜ t2)
      pure () : Prog F Unit)
  pure ()

@[thr] theorem run_hgemmzz_240_I (A : Int) (ALPHA : Cplx F) (B : Int) (BETA : Cplx F) (BZERO : Bool) (C : Int) (J : Int) (K : Int) (LDA : Int) (LDB : Int) (LDC : Int) (I : Int) :
    (Thr.hgemmzz_240_I A ALPHA B BETA BZERO C J K LDA LDB LDC I (F := F)).run = Haxx.hgemmzz_240_I A ALPHA B BETA BZERO C J K LDA LDB LDC I (F := F) := by
  simp only [Thr.hgemmzz_240_I, Haxx.hgemmzz_240_I, thr]

/-- As `Haxx.hgemmzz_240_J`, `src/hblas/fortran/hblas3/hgemmzz.f:241-260`, body of `DO 240 J`. -/
def hgemmzz_240_J (A : Int) (ALPHA : Cplx F) (B : Int) (BETA : Cplx F) (BZERO : Bool) (C : Int) (K : Int) (LDA : Int) (LDB : Int) (LDC : Int) (M : Int) (J : Int)  : Prog F (Unit) := do
  forN (M).toNat (fun i => hgemmzz_240_I A ALPHA B BETA BZERO C J K LDA LDB LDC ((i : Int) + 1))
  pure ()

@[thr] theorem run_hgemmzz_240_J (A : Int) (ALPHA : Cplx F) (B : Int) (BETA : Cplx F) (BZERO : Bool) (C : Int) (K : Int) (LDA : Int) (LDB : Int) (LDC : Int) (M : Int) (J : Int) :
    (Thr.hgemmzz_240_J A ALPHA B BETA BZERO C K LDA LDB LDC M J (F := F)).run = Haxx.hgemmzz_240_J A ALPHA B BETA BZERO C K LDA LDB LDC M J (F := F) := by
  simp only [Thr.hgemmzz_240_J, Haxx.hgemmzz_240_J, thr]

/-- As `Haxx.hgemmzz_if211`, `src/hblas/fortran/hblas3/hgemmzz.f:211-261`. -/
def hgemmzz_if211 (A : Int) (ALPHA : Cplx F) (B : Int) (BETA : Cplx F) (BZERO : Bool) (C : Int) (CONJB : Bool) (K : Int) (LDA : Int) (LDB : Int) (LDC : Int) (M : Int) (N : Int) : Prog F (Unit) := do
  if CONJB then
    forN (N).toNat (fun i => hgemmzz_220_J A ALPHA B BETA BZERO C K LDA LDB LDC M ((i : Int) + 1))
    pure ()
  else
    forN (N).toNat (fun i => hgemmzz_240_J A ALPHA B BETA BZERO C K LDA LDB LDC M ((i : Int) + 1))
    pure ()

@[thr] theorem run_hgemmzz_if211 (A : Int) (ALPHA : Cplx F) (B : Int) (BETA : Cplx F) (BZERO : Bool) (C : Int) (CONJB : Bool) (K : Int) (LDA : Int) (LDB : Int) (LDC : Int) (M : Int) (N : Int) :
    (Thr.hgemmzz_if211 A ALPHA B BETA BZERO C CONJB K LDA LDB LDC M N (F := F)).run = Haxx.hgemmzz_if211 A ALPHA B BETA BZERO C CONJB K LDA LDB LDC M N (F := F) := by
  simp only [Thr.hgemmzz_if211, Haxx.hgemmzz_if211, thr]

/-- As `Haxx.hgemmzz_270_L`, `src/hblas/fortran/hblas3/hgemmzz.f:272-278`, body of `DO 270 L`. -/
def hgemmzz_270_L (A : Int) (B : Int) (I : Int) (J : Int) (LDA : Int) (LDB : Int) (L : Int) (HTMP1J : Cplx F) (HTMP1S : Cplx F) : Prog F (Cplx F × Cplx F) := do
  let t1 ← rdC (el3 2 2 LDA A 1 L I)
  let t2 ← rdC (el3 2 2 LDB B 1 J L)
  let t3 ← rdC (el3 2 2 LDA A 2 L I)
  let t4 ← rdC (el3 2 2 LDB B 2 J L)
  let HTMP1S : Cplx F := HTMP1S +ᶜ t1 *ᶜ Cplx.conj t2 +ᶜ t3 *ᶜ Cplx.conj t4
  let t5 ← rdC (el3 2 2 LDA A 1 L I)
  let t6 ← rdC (el3 2 2 LDB B 2 J L)
  let t7 ← rdC (el3 2 2 LDA A 2 L I)
  let t8 ← rdC (el3 2 2 LDB B 1 J L)
  let HTMP1J : Cplx F := HTMP1J -ᶜ t5 *ᶜ t6 +ᶜ t7 *ᶜ t8
  pure (HTMP1J, HTMP1S)

@[thr] theorem run_hgemmzz_270_L (A : Int) (B : Int) (I : Int) (J : Int) (LDA : Int) (LDB : Int) (L : Int) (HTMP1J : Cplx F) (HTMP1S : Cplx F) :
    (Thr.hgemmzz_270_L A B I J LDA LDB L HTMP1J HTMP1S (F := F)).run = Haxx.hgemmzz_270_L A B I J LDA LDB L HTMP1J HTMP1S (F := F) := by
  simp only [Thr.hgemmzz_270_L, Haxx.hgemmzz_270_L, thr]

/-- As `Haxx.hgemmzz_260_I`, `src/hblas/fortran/hblas3/hgemmzz.f:269-287`, body of `DO 260 I`. -/
def hgemmzz_260_I (A : Int) (ALPHA : Cplx F) (B : Int) (BETA : Cplx F) (BZERO : Bool) (C : Int) (J : Int) (K : Int) (LDA : Int) (LDB : Int) (LDC : Int) (I : Int)  : Prog F (Unit) := do
  let HTMP1S : Cplx F := (⟨zero, zero⟩ : Cplx F)
  let HTMP1J : Cplx F := (⟨zero, zero⟩ : Cplx F)
  let r ← foldN (K).toNat (fun i (s : Cplx F × Cplx F) => hgemmzz_270_L A B I J LDA LDB ((i : Int) + 1) s.1 s.2) (HTMP1J, HTMP1S)
  let HTMP1J : Cplx F := r.1
  let HTMP1S : Cplx F := r.2
  let _ ← (do
    if BZERO then
      wrC (el3 2 2 LDC C 1 I J) (ALPHA *ᶜ HTMP1S)
      wrC (el3 2 2 LDC C 2 I J) (ALPHA *ᶜ HTMP1J)
      pure ()
    else
      let t1 ← rdC (el3 2 2 LDC C 1 I J)
      wrC (el3 2 2 LDC C 1 I J) (ALPHA *ᶜ HTMP1S +ᶜ BETA *ᶜ t1)
      let t2 ← rdC (el3 2 2 LDC C 2 I J)
      wrC (el3 2 2 LDC C 2 I J) (ALPHA *ᶜ HTMP1J +ᶜ BETA *ᶜ t2)
      pure () : Prog F Unit)
  pure ()

@[thr] theorem run_hgemmzz_260_I (A : Int) (ALPHA : Cplx F) (B : Int) (BETA : Cplx F) (BZERO : Bool) (C : Int) (J : Int) (K : Int) (LDA : Int) (LDB : Int) (LDC : Int) (I : Int) :
    (Thr.hgemmzz_260_I A ALPHA B BETA BZERO C J K LDA LDB LDC I (F := F)).run = Haxx.hgemmzz_260_I A ALPHA B BETA BZERO C J K LDA LDB LDC I (F := F) := by
  simp only [Thr.hgemmzz_260_I, Haxx.hgemmzz_260_I, thr]

/-- As `Haxx.hgemmzz_260_J`, `src/hblas/fortran/hblas3/hgemmzz.f:268-287`, body of `DO 260 J`. -/
def hgemmzz_260_J (A : Int) (ALPHA : Cplx F) (B : Int) (BETA : Cplx F) (BZERO : Bool) (C : Int) (K : Int) (LDA : Int) (LDB : Int) (LDC : Int) (M : Int) (J : Int)  : Prog F (Unit) := do
  forN (M).toNat (fun i => hgemmzz_260_I A ALPHA B BETA BZERO C J K LDA LDB LDC ((i : Int) + 1))
  pure ()

@[thr] theorem run_hgemmzz_260_J (A : Int) (ALPHA : Cplx F) (B : Int) (BETA : Cplx F) (BZERO : Bool) (C : Int) (K : Int) (LDA : Int) (LDB : Int) (LDC : Int) (M : Int) (J : Int) :
    (Thr.hgemmzz_260_J A ALPHA B BETA BZERO C K LDA LDB LDC M J (F := F)).run = Haxx.hgemmzz_260_J A ALPHA B BETA BZERO C K LDA LDB LDC M J (F := F) := by
  simp only [Thr.hgemmzz_260_J, Haxx.hgemmzz_260_J, thr]

/-- As `Haxx.hgemmzz_290_L`, `src/hblas/fortran/hblas3/hgemmzz.f:296-302`, body of `DO 290 L`. -/
def hgemmzz_290_L (A : Int) (B : Int) (I : Int) (J : Int) (LDA : Int) (LDB : Int) (L : Int) (HTMP1J : Cplx F) (HTMP1S : Cplx F) : Prog F (Cplx F × Cplx F) := do
  let t1 ← rdC (el3 2 2 LDA A 1 L I)
  let t2 ← rdC (el3 2 2 LDB B 1 J L)
  let t3 ← rdC (el3 2 2 LDA A 2 L I)
  let t4 ← rdC (el3 2 2 LDB B 2 J L)
  let HTMP1S : Cplx F := HTMP1S +ᶜ t1 *ᶜ t2 -ᶜ t3 *ᶜ Cplx.conj t4
  let t5 ← rdC (el3 2 2 LDA A 1 L I)
  let t6 ← rdC (el3 2 2 LDB B 2 J L)
  let t7 ← rdC (el3 2 2 LDA A 2 L I)
  let t8 ← rdC (el3 2 2 LDB B 1 J L)
  let HTMP1J : Cplx F := HTMP1J +ᶜ t5 *ᶜ t6 +ᶜ t7 *ᶜ Cplx.conj t8
  pure (HTMP1J, HTMP1S)

@[thr] theorem run_hgemmzz_290_L (A : Int) (B : Int) (I : Int) (J : Int) (LDA : Int) (LDB : Int) (L : Int) (HTMP1J : Cplx F) (HTMP1S : Cplx F) :
    (Thr.hgemmzz_290_L A B I J LDA LDB L HTMP1J HTMP1S (F := F)).run = Haxx.hgemmzz_290_L A B I J LDA LDB L HTMP1J HTMP1S (F := F) := by
  simp only [Thr.hgemmzz_290_L, Haxx.hgemmzz_290_L, thr]

/-- As `Haxx.hgemmzz_280_I`, `src/hblas/fortran/hblas3/hgemmzz.f:293-311`, body of `DO 280 I`. -/
def hgemmzz_280_I (A : Int) (ALPHA : Cplx F) (B : Int) (BETA : Cplx F) (BZERO : Bool) (C : Int) (J : Int) (K : Int) (LDA : Int) (LDB : Int) (LDC : Int) (I : Int)  : Prog F (Unit) := do
  let HTMP1S : Cplx F := (⟨zero, zero⟩ : Cplx F)
  let HTMP1J : Cplx F := (⟨zero, zero⟩ : Cplx F)
  let r ← foldN (K).toNat (fun i (s : Cplx F × Cplx F) => hgemmzz_290_L A B I J LDA LDB ((i : Int) + 1) s.1 s.2) (HTMP1J, HTMP1S)
  let HTMP1J : Cplx F := r.1
  let HTMP1S : Cplx F := r.2
  let _ ← (do
    if BZERO then
      wrC (el3 2 2 LDC C 1 I J) (ALPHA *ᶜ HTMP1S)
      wrC (el3 2 2 LDC C 2 I J) (ALPHA *ᶜ HTMP1J)
      pure ()
    else
      let t1 ← rdC (el3 2 2 LDC C 1 I J)
      wrC (el3 2 2 LDC C 1 I J) (ALPHA *ᶜ HTMP1S +ᶜ BETA *ᶜ t1)
      let t2 ← rdC (el3 2 2 LDC C 2 I J)
      wrC (el3 2 2 LDC C 2 I J) (ALPHA *ᶜ HTMP1J +ᶜ BETA *ᶜ t2)
      pure () : Prog F Unit)
  pure ()

@[thr] theorem run_hgemmzz_280_I (A : Int) (ALPHA : Cplx F) (B : Int) (BETA : Cplx F) (BZERO : Bool) (C : Int) (J : Int) (K : Int) (LDA : Int) (LDB : Int) (LDC : Int) (I : Int) :
    (Thr.hgemmzz_280_I A ALPHA B BETA BZERO C J K LDA LDB LDC I (F := F)).run = Haxx.hgemmzz_280_I A ALPHA B BETA BZERO C J K LDA LDB LDC I (F := F) := by
  simp only [Thr.hgemmzz_280_I, Haxx.hgemmzz_280_I, thr]

/-- As `Haxx.hgemmzz_280_J`, `src/hblas/fortran/hblas3/hgemmzz.f:292-311`, body of `DO 280 J`. -/
def hgemmzz_280_J (A : Int) (ALPHA : Cplx F) (B : Int) (BETA : Cplx F) (BZERO : Bool) (C : Int) (K : Int) (LDA : Int) (LDB : Int) (LDC : Int) (M : Int) (J : Int)  : Prog F (Unit) := do
  forN (M).toNat (fun i => hgemmzz_280_I A ALPHA B BETA BZERO C J K LDA LDB LDC ((i : Int) + 1))
  pure ()

@[thr] theorem run_hgemmzz_280_J (A : Int) (ALPHA : Cplx F) (B : Int) (BETA : Cplx F) (BZERO : Bool) (C : Int) (K : Int) (LDA : Int) (LDB : Int) (LDC : Int) (M : Int) (J : Int) :
    (Thr.hgemmzz_280_J A ALPHA B BETA BZERO C K LDA LDB LDC M J (F := F)).run = Haxx.hgemmzz_280_J A ALPHA B BETA BZERO C K LDA LDB LDC M J (F := F) := by
  simp only [Thr.hgemmzz_280_J, Haxx.hgemmzz_280_J, thr]

/-- As `Haxx.hgemmzz_if264`, `src/hblas/fortran/hblas3/hgemmzz.f:264-312`. -/
def hgemmzz_if264 (A : Int) (ALPHA : Cplx F) (B : Int) (BETA : Cplx F) (BZERO : Bool) (C : Int) (CONJB : Bool) (K : Int) (LDA : Int) (LDB : Int) (LDC : Int) (M : Int) (N : Int) : Prog F (Unit) := do
  if CONJB then
    forN (N).toNat (fun i => hgemmzz_260_J A ALPHA B BETA BZERO C K LDA LDB LDC M ((i : Int) + 1))
    pure ()
  else
    forN (N).toNat (fun i => hgemmzz_280_J A ALPHA B BETA BZERO C K LDA LDB LDC M ((i : Int) + 1))
    pure ()

@[thr] theorem run_hgemmzz_if264 (A : Int) (ALPHA : Cplx F) (B : Int) (BETA : Cplx F) (BZERO : Bool) (C : Int) (CONJB : Bool) (K : Int) (LDA : Int) (LDB : Int) (LDC : Int) (M : Int) (N : Int) :
    (Thr.hgemmzz_if264 A ALPHA B BETA BZERO C CONJB K LDA LDB LDC M N (F := F)).run = Haxx.hgemmzz_if264 A ALPHA B BETA BZERO C CONJB K LDA LDB LDC M N (F := F) := by
  simp only [Thr.hgemmzz_if264, Haxx.hgemmzz_if264, thr]

/-- As `Haxx.hgemmzz_if63`, `src/hblas/fortran/hblas3/hgemmzz.f:63-313`. -/
def hgemmzz_if63 (A : Int) (ALPHA : Cplx F) (B : Int) (BETA : Cplx F) (BONE : Bool) (BZERO : Bool) (C : Int) (CONJA : Bool) (CONJB : Bool) (K : Int) (LDA : Int) (LDB : Int) (LDC : Int) (M : Int) (N : Int) (NOTA : Bool) (NOTB : Bool) : Prog F (Unit) := do
  if NOTB then
    hgemmzz_if64 A ALPHA B BETA BONE BZERO C CONJA K LDA LDB LDC M N NOTA
    pure ()
  else if NOTA then
    hgemmzz_if146 A ALPHA B BETA BONE BZERO C CONJB K LDA LDB LDC M N
    pure ()
  else if CONJA then
    hgemmzz_if211 A ALPHA B BETA BZERO C CONJB K LDA LDB LDC M N
    pure ()
  else
    hgemmzz_if264 A ALPHA B BETA BZERO C CONJB K LDA LDB LDC M N
    pure ()

@[thr] theorem run_hgemmzz_if63 (A : Int) (ALPHA : Cplx F) (B : Int) (BETA : Cplx F) (BONE : Bool) (BZERO : Bool) (C : Int) (CONJA : Bool) (CONJB : Bool) (K : Int) (LDA : Int) (LDB : Int) (LDC : Int) (M : Int) (N : Int) (NOTA : Bool) (NOTB : Bool) :
    (Thr.hgemmzz_if63 A ALPHA B BETA BONE BZERO C CONJA CONJB K LDA LDB LDC M N NOTA NOTB (F := F)).run = Haxx.hgemmzz_if63 A ALPHA B BETA BONE BZERO C CONJA CONJB K LDA LDB LDC M N NOTA NOTB (F := F) := by
  simp only [Thr.hgemmzz_if63, Haxx.hgemmzz_if63, thr]

/-- As `Haxx.hgemmzz`, `src/hblas/fortran/hblas3/hgemmzz.f:9-314`. -/
def hgemmzz (TRANSA : Char) (TRANSB : Char) (M : Int) (N : Int) (K : Int) (ALPHA : Cplx F) (A : Int) (LDA : Int) (B : Int) (LDB : Int) (BETA : Cplx F) (C : Int) (LDC : Int) : Prog F (Unit) := do
  let NOTA : Bool := lsame TRANSA 'N'
  let NOTB : Bool := lsame TRANSB 'N'
  let CONJA : Bool := lsame TRANSA 'C'
  let CONJB : Bool := lsame TRANSB 'C'
  let AZERO : Bool := Cplx.feq ALPHA (⟨zero, zero⟩ : Cplx F)
  -- AONE (line 33) is never read
  let BZERO : Bool := Cplx.feq BETA (⟨zero, zero⟩ : Cplx F)
  let BONE : Bool := Cplx.feq BETA (⟨one, zero⟩ : Cplx F)
  if (decide (M = 0)) || (decide (N = 0)) then
    pure ()
  else
    if (AZERO || (decide (K = 0))) && BONE then
      pure ()
    else
      if AZERO then
        hgemmzz_if47 BETA BZERO C LDC M N
        pure ()
      else
        hgemmzz_if63 A ALPHA B BETA BONE BZERO C CONJA CONJB K LDA LDB LDC M N NOTA NOTB
        pure ()

@[thr] theorem run_hgemmzz (TRANSA : Char) (TRANSB : Char) (M : Int) (N : Int) (K : Int) (ALPHA : Cplx F) (A : Int) (LDA : Int) (B : Int) (LDB : Int) (BETA : Cplx F) (C : Int) (LDC : Int) :
    (Thr.hgemmzz TRANSA TRANSB M N K ALPHA A LDA B LDB BETA C LDC (F := F)).run = Haxx.hgemmzz TRANSA TRANSB M N K ALPHA A LDA B LDB BETA C LDC (F := F) := by
  simp only [Thr.hgemmzz, Haxx.hgemmzz, thr]

-- end of FGemmzz

variable {F : Type} [Arith F] [ArithEq F]
/-- As `Haxx.hgemmzh_10_I`, `src/hblas/fortran/hblas3/hgemmzh.f:49-52`, body of `DO 10 I`. -/
def hgemmzh_10_I (C : Int) (J : Int) (LDC : Int) (I : Int)  : Prog F (Unit) := do
  wrC (el3 2 2 LDC C 1 I J) (⟨zero, zero⟩ : Cplx F)
  wrC (el3 2 2 LDC C 2 I J) (⟨zero, zero⟩ : Cplx F)
  pure ()

@[thr] theorem run_hgemmzh_10_I (C : Int) (J : Int) (LDC : Int) (I : Int) :
    (Thr.hgemmzh_10_I C J LDC I (F := F)).run = Haxx.hgemmzh_10_I C J LDC I (F := F) := by
  simp only [Thr.hgemmzh_10_I, Haxx.hgemmzh_10_I, thr]

/-- As `Haxx.hgemmzh_10_J`, `src/hblas/fortran/hblas3/hgemmzh.f:48-52`, body of `DO 10 J`. -/
def hgemmzh_10_J (C : Int) (LDC : Int) (M : Int) (J : Int)  : Prog F (Unit) := do
  forN (M).toNat (fun i => hgemmzh_10_I C J LDC ((i : Int) + 1))
  pure ()

@[thr] theorem run_hgemmzh_10_J (C : Int) (LDC : Int) (M : Int) (J : Int) :
    (Thr.hgemmzh_10_J C LDC M J (F := F)).run = Haxx.hgemmzh_10_J C LDC M J (F := F) := by
  simp only [Thr.hgemmzh_10_J, Haxx.hgemmzh_10_J, thr]

/-- As `Haxx.hgemmzh_20_I`, `src/hblas/fortran/hblas3/hgemmzh.f:55-59`, body of `DO 20 I`. -/
def hgemmzh_20_I (BETA : Quat F) (C : Int) (J : Int) (LDC : Int) (I : Int)  : Prog F (Unit) := do
  let t1 ← rdC (el3 2 2 LDC C 1 I J)
  let t2 ← rdC (el3 2 2 LDC C 2 I J)
  let HTMP1S : Cplx F := Quat.lo BETA *ᶜ t1 -ᶜ Quat.hi BETA *ᶜ Cplx.conj t2
  let t3 ← rdC (el3 2 2 LDC C 2 I J)
  let t4 ← rdC (el3 2 2 LDC C 1 I J)
  wrC (el3 2 2 LDC C 2 I J) (Quat.lo BETA *ᶜ t3 +ᶜ Quat.hi BETA *ᶜ Cplx.conj t4)
  wrC (el3 2 2 LDC C 1 I J) HTMP1S
  pure ()

@[thr] theorem run_hgemmzh_20_I (BETA : Quat F) (C : Int) (J : Int) (LDC : Int) (I : Int) :
    (Thr.hgemmzh_20_I BETA C J LDC I (F := F)).run = Haxx.hgemmzh_20_I BETA C J LDC I (F := F) := by
  simp only [Thr.hgemmzh_20_I, Haxx.hgemmzh_20_I, thr]

/-- As `Haxx.hgemmzh_20_J`, `src/hblas/fortran/hblas3/hgemmzh.f:54-59`, body of `DO 20 J`. -/
def hgemmzh_20_J (BETA : Quat F) (C : Int) (LDC : Int) (M : Int) (J : Int)  : Prog F (Unit) := do
  forN (M).toNat (fun i => hgemmzh_20_I BETA C J LDC ((i : Int) + 1))
  pure ()

@[thr] theorem run_hgemmzh_20_J (BETA : Quat F) (C : Int) (LDC : Int) (M : Int) (J : Int) :
    (Thr.hgemmzh_20_J BETA C LDC M J (F := F)).run = Haxx.hgemmzh_20_J BETA C LDC M J (F := F) := by
  simp only [Thr.hgemmzh_20_J, Haxx.hgemmzh_20_J, thr]

/-- As `Haxx.hgemmzh_if47`, `src/hblas/fortran/hblas3/hgemmzh.f:47-60`. -/
def hgemmzh_if47 (BETA : Quat F) (BZERO : Bool) (C : Int) (LDC : Int) (M : Int) (N : Int) : Prog F (Unit) := do
  if BZERO then
    forN (N).toNat (fun i => hgemmzh_10_J C LDC M ((i : Int) + 1))
    pure ()
  else
    forN (N).toNat (fun i => hgemmzh_20_J BETA C LDC M ((i : Int) + 1))
    pure ()

@[thr] theorem run_hgemmzh_if47 (BETA : Quat F) (BZERO : Bool) (C : Int) (LDC : Int) (M : Int) (N : Int) :
    (Thr.hgemmzh_if47 BETA BZERO C LDC M N (F := F)).run = Haxx.hgemmzh_if47 BETA BZERO C LDC M N (F := F) := by
  simp only [Thr.hgemmzh_if47, Haxx.hgemmzh_if47, thr]

/-- As `Haxx.hgemmzh_40_I`, `src/hblas/fortran/hblas3/hgemmzh.f:71-74`, body of `DO 40 I`. -/
def hgemmzh_40_I (C : Int) (J : Int) (LDC : Int) (I : Int)  : Prog F (Unit) := do
  wrC (el3 2 2 LDC C 1 I J) (⟨zero, zero⟩ : Cplx F)
  wrC (el3 2 2 LDC C 2 I J) (⟨zero, zero⟩ : Cplx F)
  pure ()

@[thr] theorem run_hgemmzh_40_I (C : Int) (J : Int) (LDC : Int) (I : Int) :
    (Thr.hgemmzh_40_I C J LDC I (F := F)).run = Haxx.hgemmzh_40_I C J LDC I (F := F) := by
  simp only [Thr.hgemmzh_40_I, Haxx.hgemmzh_40_I, thr]

/-- As `Haxx.hgemmzh_50_I`, `src/hblas/fortran/hblas3/hgemmzh.f:76-80`, body of `DO 50 I`. -/
def hgemmzh_50_I (BETA : Quat F) (C : Int) (J : Int) (LDC : Int) (I : Int)  : Prog F (Unit) := do
  let t1 ← rdC (el3 2 2 LDC C 1 I J)
  let t2 ← rdC (el3 2 2 LDC C 2 I J)
  let HTMP1S : Cplx F := Quat.lo BETA *ᶜ t1 -ᶜ Quat.hi BETA *ᶜ Cplx.conj t2
  let t3 ← rdC (el3 2 2 LDC C 2 I J)
  let t4 ← rdC (el3 2 2 LDC C 1 I J)
  wrC (el3 2 2 LDC C 2 I J) (Quat.lo BETA *ᶜ t3 +ᶜ Quat.hi BETA *ᶜ Cplx.conj t4)
  wrC (el3 2 2 LDC C 1 I J) HTMP1S
  pure ()

@[thr] theorem run_hgemmzh_50_I (BETA : Quat F) (C : Int) (J : Int) (LDC : Int) (I : Int) :
    (Thr.hgemmzh_50_I BETA C J LDC I (F := F)).run = Haxx.hgemmzh_50_I BETA C J LDC I (F := F) := by
  simp only [Thr.hgemmzh_50_I, Haxx.hgemmzh_50_I, thr]

/-- As `Haxx.hgemmzh_if70`, `src/hblas/fortran/hblas3/hgemmzh.f:70-81`. -/
def hgemmzh_if70 (BETA : Quat F) (BONE : Bool) (BZERO : Bool) (C : Int) (J : Int) (LDC : Int) (M : Int) : Prog F (Unit) := do
  if BZERO then
    forN (M).toNat (fun i => hgemmzh_40_I C J LDC ((i : Int) + 1))
    pure ()
  else if !BONE then
    forN (M).toNat (fun i => hgemmzh_50_I BETA C J LDC ((i : Int) + 1))
    pure ()
  else
    pure ()

@[thr] theorem run_hgemmzh_if70 (BETA : Quat F) (BONE : Bool) (BZERO : Bool) (C : Int) (J : Int) (LDC : Int) (M : Int) :
    (Thr.hgemmzh_if70 BETA BONE BZERO C J LDC M (F := F)).run = Haxx.hgemmzh_if70 BETA BONE BZERO C J LDC M (F := F) := by
  simp only [Thr.hgemmzh_if70, Haxx.hgemmzh_if70, thr]

/-- As `Haxx.hgemmzh_70_I`, `src/hblas/fortran/hblas3/hgemmzh.f:88-94`, body of `DO 70 I`. -/
def hgemmzh_70_I (A : Int) (C : Int) (HTMP1J : Cplx F) (HTMP1S : Cplx F) (HTMP2J : Cplx F) (HTMP2S : Cplx F) (J : Int) (L : Int) (LDA : Int) (LDC : Int) (I : Int)  : Prog F (Unit) := do
  let t1 ← rdC (el3 2 2 LDC C 1 I J)
  let t2 ← rdC (el3 2 2 LDA A 1 I L)
  let t3 ← rdC (el3 2 2 LDA A 2 I L)
  wrC (el3 2 2 LDC C 1 I J) (t1 +ᶜ t2 *ᶜ HTMP1S -ᶜ t3 *ᶜ HTMP2J)
  let t4 ← rdC (el3 2 2 LDC C 2 I J)
  let t5 ← rdC (el3 2 2 LDA A 1 I L)
  let t6 ← rdC (el3 2 2 LDA A 2 I L)
  wrC (el3 2 2 LDC C 2 I J) (t4 +ᶜ t5 *ᶜ HTMP1J +ᶜ t6 *ᶜ HTMP2S)
  pure ()

@[thr] theorem run_hgemmzh_70_I (A : Int) (C : Int) (HTMP1J : Cplx F) (HTMP1S : Cplx F) (HTMP2J : Cplx F) (HTMP2S : Cplx F) (J : Int) (L : Int) (LDA : Int) (LDC : Int) (I : Int) :
    (Thr.hgemmzh_70_I A C HTMP1J HTMP1S HTMP2J HTMP2S J L LDA LDC I (F := F)).run = Haxx.hgemmzh_70_I A C HTMP1J HTMP1S HTMP2J HTMP2S J L LDA LDC I (F := F) := by
  simp only [Thr.hgemmzh_70_I, Haxx.hgemmzh_70_I, thr]

/-- As `Haxx.hgemmzh_60_L`, `src/hblas/fortran/hblas3/hgemmzh.f:83-95`, body of `DO 60 L`. -/
def hgemmzh_60_L (A : Int) (ALPHA : Cplx F) (B : Int) (C : Int) (J : Int) (LDA : Int) (LDB : Int) (LDC : Int) (M : Int) (L : Int)  : Prog F (Unit) := do
  let t1 ← rdC (el3 2 2 LDB B 1 L J)
  let HTMP1S : Cplx F := ALPHA *ᶜ t1
  let t2 ← rdC (el3 2 2 LDB B 2 L J)
  let HTMP1J : Cplx F := ALPHA *ᶜ t2
  let t3 ← rdC (el3 2 2 LDB B 1 L J)
  let HTMP2S : Cplx F := ALPHA *ᶜ Cplx.conj t3
  let t4 ← rdC (el3 2 2 LDB B 2 L J)
  let HTMP2J : Cplx F := ALPHA *ᶜ Cplx.conj t4
  forN (M).toNat (fun i => hgemmzh_70_I A C HTMP1J HTMP1S HTMP2J HTMP2S J L LDA LDC ((i : Int) + 1))
  pure ()

@[thr] theorem run_hgemmzh_60_L (A : Int) (ALPHA : Cplx F) (B : Int) (C : Int) (J : Int) (LDA : Int) (LDB : Int) (LDC : Int) (M : Int) (L : Int) :
    (Thr.hgemmzh_60_L A ALPHA B C J LDA LDB LDC M L (F := F)).run = Haxx.hgemmzh_60_L A ALPHA B C J LDA LDB LDC M L (F := F) := by
  simp only [Thr.hgemmzh_60_L, Haxx.hgemmzh_60_L, thr]

/-- As `Haxx.hgemmzh_30_J`, `src/hblas/fortran/hblas3/hgemmzh.f:69-96`, body of `DO 30 J`. -/
def hgemmzh_30_J (A : Int) (ALPHA : Cplx F) (B : Int) (BETA : Quat F) (BONE : Bool) (BZERO : Bool) (C : Int) (K : Int) (LDA : Int) (LDB : Int) (LDC : Int) (M : Int) (J : Int)  : Prog F (Unit) := do
  hgemmzh_if70 BETA BONE BZERO C J LDC M
  forN (K).toNat (fun i => hgemmzh_60_L A ALPHA B C J LDA LDB LDC M ((i : Int) + 1))
  pure ()

@[thr] theorem run_hgemmzh_30_J (A : Int) (ALPHA : Cplx F) (B : Int) (BETA : Quat F) (BONE : Bool) (BZERO : Bool) (C : Int) (K : Int) (LDA : Int) (LDB : Int) (LDC : Int) (M : Int) (J : Int) :
    (Thr.hgemmzh_30_J A ALPHA B BETA BONE BZERO C K LDA LDB LDC M J (F := F)).run = Haxx.hgemmzh_30_J A ALPHA B BETA BONE BZERO C K LDA LDB LDC M J (F := F) := by
  simp only [Thr.hgemmzh_30_J, Haxx.hgemmzh_30_J, thr]

/-- As `Haxx.hgemmzh_90_L`, `src/hblas/fortran/hblas3/hgemmzh.f:105-111`, body of `DO 90 L`. -/
def hgemmzh_90_L (A : Int) (B : Int) (I : Int) (J : Int) (LDA : Int) (LDB : Int) (L : Int) (HTMP1J : Cplx F) (HTMP1S : Cplx F) : Prog F (Cplx F × Cplx F) := do
  let t1 ← rdC (el3 2 2 LDA A 1 L I)
  let t2 ← rdC (el3 2 2 LDB B 1 L J)
  let t3 ← rdC (el3 2 2 LDA A 2 L I)
  let t4 ← rdC (el3 2 2 LDB B 2 L J)
  let HTMP1S : Cplx F := HTMP1S +ᶜ Cplx.conj t1 *ᶜ t2 +ᶜ t3 *ᶜ Cplx.conj t4
  let t5 ← rdC (el3 2 2 LDA A 1 L I)
  let t6 ← rdC (el3 2 2 LDB B 2 L J)
  let t7 ← rdC (el3 2 2 LDA A 2 L I)
  let t8 ← rdC (el3 2 2 LDB B 1 L J)
  let HTMP1J : Cplx F := HTMP1J +ᶜ Cplx.conj t5 *ᶜ t6 -ᶜ t7 *ᶜ Cplx.conj t8
  pure (HTMP1J, HTMP1S)

@[thr] theorem run_hgemmzh_90_L (A : Int) (B : Int) (I : Int) (J : Int) (LDA : Int) (LDB : Int) (L : Int) (HTMP1J : Cplx F) (HTMP1S : Cplx F) :
    (Thr.hgemmzh_90_L A B I J LDA LDB L HTMP1J HTMP1S (F := F)).run = Haxx.hgemmzh_90_L A B I J LDA LDB L HTMP1J HTMP1S (F := F) := by
  simp only [Thr.hgemmzh_90_L, Haxx.hgemmzh_90_L, thr]

/-- As `Haxx.hgemmzh_80_I`, `src/hblas/fortran/hblas3/hgemmzh.f:102-123`, body of `DO 80 I`. -/
def hgemmzh_80_I (A : Int) (ALPHA : Cplx F) (B : Int) (BETA : Quat F) (BZERO : Bool) (C : Int) (J : Int) (K : Int) (LDA : Int) (LDB : Int) (LDC : Int) (I : Int)  : Prog F (Unit) := do
  let HTMP1S : Cplx F := (⟨zero, zero⟩ : Cplx F)
  let HTMP1J : Cplx F := (⟨zero, zero⟩ : Cplx F)
  let r ← foldN (K).toNat (fun i (s : Cplx F × Cplx F) => hgemmzh_90_L A B I J LDA LDB ((i : Int) + 1) s.1 s.2) (HTMP1J, HTMP1S)
  let HTMP1J : Cplx F := r.1
  let HTMP1S : Cplx F := r.2
  let _ ← (do
    if BZERO then
      wrC (el3 2 2 LDC C 1 I J) (ALPHA *ᶜ HTMP1S)
      wrC (el3 2 2 LDC C 2 I J) (ALPHA *ᶜ HTMP1J)
      pure ()
    else
      let t1 ← rdC (el3 2 2 LDC C 1 I J)
      let t2 ← rdC (el3 2 2 LDC C 2 I J)
      let HTMP1S : Cplx F := ALPHA *ᶜ HTMP1S +ᶜ Quat.lo BETA *ᶜ t1 -ᶜ Quat.hi BETA *ᶜ Cplx.conj t2
      let t3 ← rdC (el3 2 2 LDC C 2 I J)
      let t4 ← rdC (el3 2 2 LDC C 1 I J)
      wrC (el3 2 2 LDC C 2 I J) (ALPHA *ᶜ HTMP1J +ᶜ Quat.lo BETA *ᶜ t3 +ᶜ Quat.hi BETA *ᶜ Cplx.conj t4)
      wrC (el3 2 2 LDC C 1 I J) HTMP1S
      pure () : Prog F Unit)
  pure ()

@[thr] theorem run_hgemmzh_80_I (A : Int) (ALPHA : Cplx F) (B : Int) (BETA : Quat F) (BZERO : Bool) (C : Int) (J : Int) (K : Int) (LDA : Int) (LDB : Int) (LDC : Int) (I : Int) :
    (Thr.hgemmzh_80_I A ALPHA B BETA BZERO C J K LDA LDB LDC I (F := F)).run = Haxx.hgemmzh_80_I A ALPHA B BETA BZERO C J K LDA LDB LDC I (F := F) := by
  simp only [Thr.hgemmzh_80_I, Haxx.hgemmzh_80_I, thr]

/-- As `Haxx.hgemmzh_80_J`, `src/hblas/fortran/hblas3/hgemmzh.f:101-123`, body of `DO 80 J`. -/
def hgemmzh_80_J (A : Int) (ALPHA : Cplx F) (B : Int) (BETA : Quat F) (BZERO : Bool) (C : Int) (K : Int) (LDA : Int) (LDB : Int) (LDC : Int) (M : Int) (J : Int)  : Prog F (Unit) := do
  forN (M).toNat (fun i => hgemmzh_80_I A ALPHA B BETA BZERO C J K LDA LDB LDC ((i : Int) + 1))
  pure ()

@[thr] theorem run_hgemmzh_80_J (A : Int) (ALPHA : Cplx F) (B : Int) (BETA : Quat F) (BZERO : Bool) (C : Int) (K : Int) (LDA : Int) (LDB : Int) (LDC : Int) (M : Int) (J : Int) :
    (Thr.hgemmzh_80_J A ALPHA B BETA BZERO C K LDA LDB LDC M J (F := F)).run = Haxx.hgemmzh_80_J A ALPHA B BETA BZERO C K LDA LDB LDC M J (F := F) := by
  simp only [Thr.hgemmzh_80_J, Haxx.hgemmzh_80_J, thr]

/-- As `Haxx.hgemmzh_110_L`, `src/hblas/fortran/hblas3/hgemmzh.f:133-139`, body of `DO 110 L`. -/
def hgemmzh_110_L (A : Int) (B : Int) (I : Int) (J : Int) (LDA : Int) (LDB : Int) (L : Int) (HTMP1J : Cplx F) (HTMP1S : Cplx F) : Prog F (Cplx F × Cplx F) := do
  let t1 ← rdC (el3 2 2 LDA A 1 L I)
  let t2 ← rdC (el3 2 2 LDB B 1 L J)
  let t3 ← rdC (el3 2 2 LDA A 2 L I)
  let t4 ← rdC (el3 2 2 LDB B 2 L J)
  let HTMP1S : Cplx F := HTMP1S +ᶜ t1 *ᶜ t2 -ᶜ t3 *ᶜ Cplx.conj t4
  let t5 ← rdC (el3 2 2 LDA A 1 L I)
  let t6 ← rdC (el3 2 2 LDB B 2 L J)
  let t7 ← rdC (el3 2 2 LDA A 2 L I)
  let t8 ← rdC (el3 2 2 LDB B 1 L J)
  let HTMP1J : Cplx F := HTMP1J +ᶜ t5 *ᶜ t6 +ᶜ t7 *ᶜ Cplx.conj t8
  pure (HTMP1J, HTMP1S)

@[thr] theorem run_hgemmzh_110_L (A : Int) (B : Int) (I : Int) (J : Int) (LDA : Int) (LDB : Int) (L : Int) (HTMP1J : Cplx F) (HTMP1S : Cplx F) :
    (Thr.hgemmzh_110_L A B I J LDA LDB L HTMP1J HTMP1S (F := F)).run = Haxx.hgemmzh_110_L A B I J LDA LDB L HTMP1J HTMP1S (F := F) := by
  simp only [Thr.hgemmzh_110_L, Haxx.hgemmzh_110_L, thr]

/-- As `Haxx.hgemmzh_100_I`, `src/hblas/fortran/hblas3/hgemmzh.f:130-151`, body of `DO 100 I`. -/
def hgemmzh_100_I (A : Int) (ALPHA : Cplx F) (B : Int) (BETA : Quat F) (BZERO : Bool) (C : Int) (J : Int) (K : Int) (LDA : Int) (LDB : Int) (LDC : Int) (I : Int)  : Prog F (Unit) := do
  let HTMP1S : Cplx F := (⟨zero, zero⟩ : Cplx F)
  let HTMP1J : Cplx F := (⟨zero, zero⟩ : Cplx F)
  let r ← foldN (K).toNat (fun i (s : Cplx F × Cplx F) => hgemmzh_110_L A B I J LDA LDB ((i : Int) + 1) s.1 s.2) (HTMP1J, HTMP1S)
  let HTMP1J : Cplx F := r.1
  let HTMP1S : Cplx F := r.2
  let _ ← (do
    if BZERO then
      wrC (el3 2 2 LDC C 1 I J) (ALPHA *ᶜ HTMP1S)
      wrC (el3 2 2 LDC C 2 I J) (ALPHA *ᶜ HTMP1J)
      pure ()
    else
      let t1 ← rdC (el3 2 2 LDC C 1 I J)
      let t2 ← rdC (el3 2 2 LDC C 2 I J)
      let HTMP1S : Cplx F := ALPHA *ᶜ HTMP1S +ᶜ Quat.lo BETA *ᶜ t1 -ᶜ Quat.hi BETA *ᶜ Cplx.conj t2
      let t3 ← rdC (el3 2 2 LDC C 2 I J)
      let t4 ← rdC (el3 2 2 LDC C 1 I J)
      wrC (el3 2 2 LDC C 2 I J) (ALPHA *ᶜ HTMP1J +ᶜ Quat.lo BETA *ᶜ t3 +ᶜ Quat.hi BETA *ᶜ Cplx.conj t4)
      wrC (el3 2 2 LDC C 1 I J) HTMP1S
      pure () : Prog F Unit)
  pure ()

@[thr] theorem run_hgemmzh_100_I (A : Int) (ALPHA : Cplx F) (B : Int) (BETA : Quat F) (BZERO : Bool) (C : Int) (J : Int) (K : Int) (LDA : Int) (LDB : Int) (LDC : Int) (I : Int) :
    (Thr.hgemmzh_100_I A ALPHA B BETA BZERO C J K LDA LDB LDC I (F := F)).run = Haxx.hgemmzh_100_I A ALPHA B BETA BZERO C J K LDA LDB LDC I (F := F) := by
  simp only [Thr.hgemmzh_100_I, Haxx.hgemmzh_100_I, thr]

/-- As `Haxx.hgemmzh_100_J`, `src/hblas/fortran/hblas3/hgemmzh.f:129-151`, body of `DO 100 J`. -/
def hgemmzh_100_J (A : Int) (ALPHA : Cplx F) (B : Int) (BETA : Quat F) (BZERO : Bool) (C : Int) (K : Int) (LDA : Int) (LDB : Int) (LDC : Int) (M : Int) (J : Int)  : Prog F (Unit) := do
  forN (M).toNat (fun i => hgemmzh_100_I A ALPHA B BETA BZERO C J K LDA LDB LDC ((i : Int) + 1))
  pure ()

@[thr] theorem run_hgemmzh_100_J (A : Int) (ALPHA : Cplx F) (B : Int) (BETA : Quat F) (BZERO : Bool) (C : Int) (K : Int) (LDA : Int) (LDB : Int) (LDC : Int) (M : Int) (J : Int) :
    (Thr.hgemmzh_100_J A ALPHA B BETA BZERO C K LDA LDB LDC M J (F := F)).run = Haxx.hgemmzh_100_J A ALPHA B BETA BZERO C K LDA LDB LDC M J (F := F) := by
  simp only [Thr.hgemmzh_100_J, Haxx.hgemmzh_100_J, thr]

/-- As `Haxx.hgemmzh_if65`, `src/hblas/fortran/hblas3/hgemmzh.f:65-152`. -/
def hgemmzh_if65 (A : Int) (ALPHA : Cplx F) (B : Int) (BETA : Quat F) (BONE : Bool) (BZERO : Bool) (C : Int) (CONJA : Bool) (K : Int) (LDA : Int) (LDB : Int) (LDC : Int) (M : Int) (N : Int) (NOTA : Bool) : Prog F (Unit) := do
  if NOTA then
    forN (N).toNat (fun i => hgemmzh_30_J A ALPHA B BETA BONE BZERO C K LDA LDB LDC M ((i : Int) + 1))
    pure ()
  else if CONJA then
    forN (N).toNat (fun i => hgemmzh_80_J A ALPHA B BETA BZERO C K LDA LDB LDC M ((i : Int) + 1))
    pure ()
  else
    forN (N).toNat (fun i => hgemmzh_100_J A ALPHA B BETA BZERO C K LDA LDB LDC M ((i : Int) + 1))
    pure ()

@[thr] theorem run_hgemmzh_if65 (A : Int) (ALPHA : Cplx F) (B : Int) (BETA : Quat F) (BONE : Bool) (BZERO : Bool) (C : Int) (CONJA : Bool) (K : Int) (LDA : Int) (LDB : Int) (LDC : Int) (M : Int) (N : Int) (NOTA : Bool) :
    (Thr.hgemmzh_if65 A ALPHA B BETA BONE BZERO C CONJA K LDA LDB LDC M N NOTA (F := F)).run = Haxx.hgemmzh_if65 A ALPHA B BETA BONE BZERO C CONJA K LDA LDB LDC M N NOTA (F := F) := by
  simp only [Thr.hgemmzh_if65, Haxx.hgemmzh_if65, thr]

/-- As `Haxx.hgemmzh_130_I`, `src/hblas/fortran/hblas3/hgemmzh.f:160-163`, body of `DO 130 I`. -/
def hgemmzh_130_I (C : Int) (J : Int) (LDC : Int) (I : Int)  : Prog F (Unit) := do
  wrC (el3 2 2 LDC C 1 I J) (⟨zero, zero⟩ : Cplx F)
  wrC (el3 2 2 LDC C 2 I J) (⟨zero, zero⟩ : Cplx F)
  pure ()

@[thr] theorem run_hgemmzh_130_I (C : Int) (J : Int) (LDC : Int) (I : Int) :
    (Thr.hgemmzh_130_I C J LDC I (F := F)).run = Haxx.hgemmzh_130_I C J LDC I (F := F) := by
  simp only [Thr.hgemmzh_130_I, Haxx.hgemmzh_130_I, thr]

/-- As `Haxx.hgemmzh_140_I`, `src/hblas/fortran/hblas3/hgemmzh.f:165-169`, body of `DO 140 I`. -/
def hgemmzh_140_I (BETA : Quat F) (C : Int) (J : Int) (LDC : Int) (I : Int)  : Prog F (Unit) := do
  let t1 ← rdC (el3 2 2 LDC C 1 I J)
  let t2 ← rdC (el3 2 2 LDC C 2 I J)
  let HTMP1S : Cplx F := Quat.lo BETA *ᶜ t1 -ᶜ Quat.hi BETA *ᶜ Cplx.conj t2
  let t3 ← rdC (el3 2 2 LDC C 2 I J)
  let t4 ← rdC (el3 2 2 LDC C 1 I J)
  wrC (el3 2 2 LDC C 2 I J) (Quat.lo BETA *ᶜ t3 +ᶜ Quat.hi BETA *ᶜ Cplx.conj t4)
  wrC (el3 2 2 LDC C 1 I J) HTMP1S
  pure ()

@[thr] theorem run_hgemmzh_140_I (BETA : Quat F) (C : Int) (J : Int) (LDC : Int) (I : Int) :
    (Thr.hgemmzh_140_I BETA C J LDC I (F := F)).run = Haxx.hgemmzh_140_I BETA C J LDC I (F := F) := by
  simp only [Thr.hgemmzh_140_I, Haxx.hgemmzh_140_I, thr]

/-- As `Haxx.hgemmzh_if159`, `src/hblas/fortran/hblas3/hgemmzh.f:159-170`. -/
def hgemmzh_if159 (BETA : Quat F) (BONE : Bool) (BZERO : Bool) (C : Int) (J : Int) (LDC : Int) (M : Int) : Prog F (Unit) := do
  if BZERO then
    forN (M).toNat (fun i => hgemmzh_130_I C J LDC ((i : Int) + 1))
    pure ()
  else if !BONE then
    forN (M).toNat (fun i => hgemmzh_140_I BETA C J LDC ((i : Int) + 1))
    pure ()
  else
    pure ()

@[thr] theorem run_hgemmzh_if159 (BETA : Quat F) (BONE : Bool) (BZERO : Bool) (C : Int) (J : Int) (LDC : Int) (M : Int) :
    (Thr.hgemmzh_if159 BETA BONE BZERO C J LDC M (F := F)).run = Haxx.hgemmzh_if159 BETA BONE BZERO C J LDC M (F := F) := by
  simp only [Thr.hgemmzh_if159, Haxx.hgemmzh_if159, thr]

/-- As `Haxx.hgemmzh_160_I`, `src/hblas/fortran/hblas3/hgemmzh.f:177-183`, body of `DO 160 I`. -/
def hgemmzh_160_I (A : Int) (C : Int) (HTMP1J : Cplx F) (HTMP1S : Cplx F) (HTMP2J : Cplx F) (HTMP2S : Cplx F) (J : Int) (L : Int) (LDA : Int) (LDC : Int) (I : Int)  : Prog F (Unit) := do
  let t1 ← rdC (el3 2 2 LDC C 1 I J)
  let t2 ← rdC (el3 2 2 LDA A 1 I L)
  let t3 ← rdC (el3 2 2 LDA A 2 I L)
  wrC (el3 2 2 LDC C 1 I J) (t1 +ᶜ t2 *ᶜ HTMP2S -ᶜ t3 *ᶜ HTMP2J)
  let t4 ← rdC (el3 2 2 LDC C 2 I J)
  let t5 ← rdC (el3 2 2 LDA A 1 I L)
  let t6 ← rdC (el3 2 2 LDA A 2 I L)
  wrC (el3 2 2 LDC C 2 I J) (t4 +ᶜ t5 *ᶜ HTMP1J +ᶜ t6 *ᶜ HTMP1S)
  pure ()

@[thr] theorem run_hgemmzh_160_I (A : Int) (C : Int) (HTMP1J : Cplx F) (HTMP1S : Cplx F) (HTMP2J : Cplx F) (HTMP2S : Cplx F) (J : Int) (L : Int) (LDA : Int) (LDC : Int) (I : Int) :
    (Thr.hgemmzh_160_I A C HTMP1J HTMP1S HTMP2J HTMP2S J L LDA LDC I (F := F)).run = Haxx.hgemmzh_160_I A C HTMP1J HTMP1S HTMP2J HTMP2S J L LDA LDC I (F := F) := by
  simp only [Thr.hgemmzh_160_I, Haxx.hgemmzh_160_I, thr]

/-- As `Haxx.hgemmzh_150_L`, `src/hblas/fortran/hblas3/hgemmzh.f:172-184`, body of `DO 150 L`. -/
def hgemmzh_150_L (A : Int) (ALPHA : Cplx F) (B : Int) (C : Int) (J : Int) (LDA : Int) (LDB : Int) (LDC : Int) (M : Int) (L : Int)  : Prog F (Unit) := do
  let t1 ← rdC (el3 2 2 LDB B 1 J L)
  let HTMP1S : Cplx F := ALPHA *ᶜ t1
  let t2 ← rdC (el3 2 2 LDB B 2 J L)
  let HTMP1J : Cplx F := Cplx.neg (ALPHA *ᶜ t2)
  let t3 ← rdC (el3 2 2 LDB B 1 J L)
  let HTMP2S : Cplx F := ALPHA *ᶜ Cplx.conj t3
  let t4 ← rdC (el3 2 2 LDB B 2 J L)
  let HTMP2J : Cplx F := Cplx.neg (ALPHA *ᶜ Cplx.conj t4)
  forN (M).toNat (fun i => hgemmzh_160_I A C HTMP1J HTMP1S HTMP2J HTMP2S J L LDA LDC ((i : Int) + 1))
  pure ()

@[thr] theorem run_hgemmzh_150_L (A : Int) (ALPHA : Cplx F) (B : Int) (C : Int) (J : Int) (LDA : Int) (LDB : Int) (LDC : Int) (M : Int) (L : Int) :
    (Thr.hgemmzh_150_L A ALPHA B C J LDA LDB LDC M L (F := F)).run = Haxx.hgemmzh_150_L A ALPHA B C J LDA LDB LDC M L (F := F) := by
  simp only [Thr.hgemmzh_150_L, Haxx.hgemmzh_150_L, thr]

/-- As `Haxx.hgemmzh_120_J`, `src/hblas/fortran/hblas3/hgemmzh.f:158-185`, body of `DO 120 J`. -/
def hgemmzh_120_J (A : Int) (ALPHA : Cplx F) (B : Int) (BETA : Quat F) (BONE : Bool) (BZERO : Bool) (C : Int) (K : Int) (LDA : Int) (LDB : Int) (LDC : Int) (M : Int) (J : Int)  : Prog F (Unit) := do
  hgemmzh_if159 BETA BONE BZERO C J LDC M
  forN (K).toNat (fun i => hgemmzh_150_L A ALPHA B C J LDA LDB LDC M ((i : Int) + 1))
  pure ()

@[thr] theorem run_hgemmzh_120_J (A : Int) (ALPHA : Cplx F) (B : Int) (BETA : Quat F) (BONE : Bool) (BZERO : Bool) (C : Int) (K : Int) (LDA : Int) (LDB : Int) (LDC : Int) (M : Int) (J : Int) :
    (Thr.hgemmzh_120_J A ALPHA B BETA BONE BZERO C K LDA LDB LDC M J (F := F)).run = Haxx.hgemmzh_120_J A ALPHA B BETA BONE BZERO C K LDA LDB LDC M J (F := F) := by
  simp only [Thr.hgemmzh_120_J, Haxx.hgemmzh_120_J, thr]

/-- As `Haxx.hgemmzh_180_I`, `src/hblas/fortran/hblas3/hgemmzh.f:193-196`, body of `DO 180 I`. -/
def hgemmzh_180_I (C : Int) (J : Int) (LDC : Int) (I : Int)  : Prog F (Unit) := do
  wrC (el3 2 2 LDC C 1 I J) (⟨zero, zero⟩ : Cplx F)
  wrC (el3 2 2 LDC C 2 I J) (⟨zero, zero⟩ : Cplx F)
  pure ()

@[thr] theorem run_hgemmzh_180_I (C : Int) (J : Int) (LDC : Int) (I : Int) :
    (Thr.hgemmzh_180_I C J LDC I (F := F)).run = Haxx.hgemmzh_180_I C J LDC I (F := F) := by
  simp only [Thr.hgemmzh_180_I, Haxx.hgemmzh_180_I, thr]

/-- As `Haxx.hgemmzh_190_I`, `src/hblas/fortran/hblas3/hgemmzh.f:198-202`, body of `DO 190 I`. -/
def hgemmzh_190_I (BETA : Quat F) (C : Int) (J : Int) (LDC : Int) (I : Int)  : Prog F (Unit) := do
  let t1 ← rdC (el3 2 2 LDC C 1 I J)
  let t2 ← rdC (el3 2 2 LDC C 2 I J)
  let HTMP1S : Cplx F := Quat.lo BETA *ᶜ t1 -ᶜ Quat.hi BETA *ᶜ Cplx.conj t2
  let t3 ← rdC (el3 2 2 LDC C 2 I J)
  let t4 ← rdC (el3 2 2 LDC C 1 I J)
  wrC (el3 2 2 LDC C 2 I J) (Quat.lo BETA *ᶜ t3 +ᶜ Quat.hi BETA *ᶜ Cplx.conj t4)
  wrC (el3 2 2 LDC C 1 I J) HTMP1S
  pure ()

@[thr] theorem run_hgemmzh_190_I (BETA : Quat F) (C : Int) (J : Int) (LDC : Int) (I : Int) :
    (Thr.hgemmzh_190_I BETA C J LDC I (F := F)).run = Haxx.hgemmzh_190_I BETA C J LDC I (F := F) := by
  simp only [Thr.hgemmzh_190_I, Haxx.hgemmzh_190_I, thr]

/-- As `Haxx.hgemmzh_if192`, `src/hblas/fortran/hblas3/hgemmzh.f:192-203`. -/
def hgemmzh_if192 (BETA : Quat F) (BONE : Bool) (BZERO : Bool) (C : Int) (J : Int) (LDC : Int) (M : Int) : Prog F (Unit) := do
  if BZERO then
    forN (M).toNat (fun i => hgemmzh_180_I C J LDC ((i : Int) + 1))
    pure ()
  else if !BONE then
    forN (M).toNat (fun i => hgemmzh_190_I BETA C J LDC ((i : Int) + 1))
    pure ()
  else
    pure ()

@[thr] theorem run_hgemmzh_if192 (BETA : Quat F) (BONE : Bool) (BZERO : Bool) (C : Int) (J : Int) (LDC : Int) (M : Int) :
    (Thr.hgemmzh_if192 BETA BONE BZERO C J LDC M (F := F)).run = Haxx.hgemmzh_if192 BETA BONE BZERO C J LDC M (F := F) := by
  simp only [Thr.hgemmzh_if192, Haxx.hgemmzh_if192, thr]

/-- As `Haxx.hgemmzh_210_I`, `src/hblas/fortran/hblas3/hgemmzh.f:210-216`, body of `DO 210 I`. -/
def hgemmzh_210_I (A : Int) (C : Int) (HTMP1J : Cplx F) (HTMP1S : Cplx F) (HTMP2J : Cplx F) (HTMP2S : Cplx F) (J : Int) (L : Int) (LDA : Int) (LDC : Int) (I : Int)  : Prog F (Unit) := do
  let t1 ← rdC (el3 2 2 LDC C 1 I J)
  let t2 ← rdC (el3 2 2 LDA A 1 I L)
  let t3 ← rdC (el3 2 2 LDA A 2 I L)
  wrC (el3 2 2 LDC C 1 I J) (t1 +ᶜ t2 *ᶜ HTMP1S -ᶜ t3 *ᶜ HTMP2J)
  let t4 ← rdC (el3 2 2 LDC C 2 I J)
  let t5 ← rdC (el3 2 2 LDA A 1 I L)
  let t6 ← rdC (el3 2 2 LDA A 2 I L)
  wrC (el3 2 2 LDC C 2 I J) (t4 +ᶜ t5 *ᶜ HTMP1J +ᶜ t6 *ᶜ HTMP2S)
  pure ()

@[thr] theorem run_hgemmzh_210_I (A : Int) (C : Int) (HTMP1J : Cplx F) (HTMP1S : Cplx F) (HTMP2J : Cplx F) (HTMP2S : Cplx F) (J : Int) (L : Int) (LDA : Int) (LDC : Int) (I : Int) :
    (Thr.hgemmzh_210_I A C HTMP1J HTMP1S HTMP2J HTMP2S J L LDA LDC I (F := F)).run = Haxx.hgemmzh_210_I A C HTMP1J HTMP1S HTMP2J HTMP2S J L LDA LDC I (F := F) := by
  simp only [Thr.hgemmzh_210_I, Haxx.hgemmzh_210_I, thr]

/-- As `Haxx.hgemmzh_200_L`, `src/hblas/fortran/hblas3/hgemmzh.f:205-217`, body of `DO 200 L`. -/
def hgemmzh_200_L (A : Int) (ALPHA : Cplx F) (B : Int) (C : Int) (J : Int) (LDA : Int) (LDB : Int) (LDC : Int) (M : Int) (L : Int)  : Prog F (Unit) := do
  let t1 ← rdC (el3 2 2 LDB B 1 J L)
  let HTMP1S : Cplx F := ALPHA *ᶜ t1
  let t2 ← rdC (el3 2 2 LDB B 2 J L)
  let HTMP1J : Cplx F := ALPHA *ᶜ t2
  let t3 ← rdC (el3 2 2 LDB B 1 J L)
  let HTMP2S : Cplx F := ALPHA *ᶜ Cplx.conj t3
  let t4 ← rdC (el3 2 2 LDB B 2 J L)
  let HTMP2J : Cplx F := ALPHA *ᶜ Cplx.conj t4
  forN (M).toNat (fun i => hgemmzh_210_I A C HTMP1J HTMP1S HTMP2J HTMP2S J L LDA LDC ((i : Int) + 1))
  pure ()

@[thr] theorem run_hgemmzh_200_L (A : Int) (ALPHA : Cplx F) (B : Int) (C : Int) (J : Int) (LDA : Int) (LDB : Int) (LDC : Int) (M : Int) (L : Int) :
    (Thr.hgemmzh_200_L A ALPHA B C J LDA LDB LDC M L (F := F)).run = Haxx.hgemmzh_200_L A ALPHA B C J LDA LDB LDC M L (F := F) := by
  simp only [Thr.hgemmzh_200_L, Haxx.hgemmzh_200_L, thr]

/-- As `Haxx.hgemmzh_170_J`, `src/hblas/fortran/hblas3/hgemmzh.f:191-218`, body of `DO 170 J`. -/
def hgemmzh_170_J (A : Int) (ALPHA : Cplx F) (B : Int) (BETA : Quat F) (BONE : Bool) (BZERO : Bool) (C : Int) (K : Int) (LDA : Int) (LDB : Int) (LDC : Int) (M : Int) (J : Int)  : Prog F (Unit) := do
  hgemmzh_if192 BETA BONE BZERO C J LDC M
  forN (K).toNat (fun i => hgemmzh_200_L A ALPHA B C J LDA LDB LDC M ((i : Int) + 1))
  pure ()

@[thr] theorem run_hgemmzh_170_J (A : Int) (ALPHA : Cplx F) (B : Int) (BETA : Quat F) (BONE : Bool) (BZERO : Bool) (C : Int) (K : Int) (LDA : Int) (LDB : Int) (LDC : Int) (M : Int) (J : Int) :
    (Thr.hgemmzh_170_J A ALPHA B BETA BONE BZERO C K LDA LDB LDC M J (F := F)).run = Haxx.hgemmzh_170_J A ALPHA B BETA BONE BZERO C K LDA LDB LDC M J (F := F) := by
  simp only [Thr.hgemmzh_170_J, Haxx.hgemmzh_170_J, thr]

/-- As `Haxx.hgemmzh_if154`, `src/hblas/fortran/hblas3/hgemmzh.f:154-219`. -/
def hgemmzh_if154 (A : Int) (ALPHA : Cplx F) (B : Int) (BETA : Quat F) (BONE : Bool) (BZERO : Bool) (C : Int) (CONJB : Bool) (K : Int) (LDA : Int) (LDB : Int) (LDC : Int) (M : Int) (N : Int) : Prog F (Unit) := do
  if CONJB then
    forN (N).toNat (fun i => hgemmzh_120_J A ALPHA B BETA BONE BZERO C K LDA LDB LDC M ((i : Int) + 1))
    pure ()
  else
    forN (N).toNat (fun i => hgemmzh_170_J A ALPHA B BETA BONE BZERO C K LDA LDB LDC M ((i : Int) + 1))
    pure ()

@[thr] theorem run_hgemmzh_if154 (A : Int) (ALPHA : Cplx F) (B : Int) (BETA : Quat F) (BONE : Bool) (BZERO : Bool) (C : Int) (CONJB : Bool) (K : Int) (LDA : Int) (LDB : Int) (LDC : Int) (M : Int) (N : Int) :
    (Thr.hgemmzh_if154 A ALPHA B BETA BONE BZERO C CONJB K LDA LDB LDC M N (F := F)).run = Haxx.hgemmzh_if154 A ALPHA B BETA BONE BZERO C CONJB K LDA LDB LDC M N (F := F) := by
  simp only [Thr.hgemmzh_if154, Haxx.hgemmzh_if154, thr]

/-- As `Haxx.hgemmzh_230_L`, `src/hblas/fortran/hblas3/hgemmzh.f:229-236`, body of `DO 230 L`. -/
def hgemmzh_230_L (A : Int) (B : Int) (I : Int) (J : Int) (LDA : Int) (LDB : Int) (L : Int) (HTMP1J : Cplx F) (HTMP1S : Cplx F) : Prog F (Cplx F × Cplx F) := do
  let t1 ← rdC (el3 2 2 LDA A 1 L I)
  let t2 ← rdC (el3 2 2 LDB B 1 J L)
  let t3 ← rdC (el3 2 2 LDA A 2 L I)
  let t4 ← rdC (el3 2 2 LDB B 2 J L)
  let HTMP1S : Cplx F := HTMP1S +ᶜ Cplx.conj t1 *ᶜ Cplx.conj t2 -ᶜ t3 *ᶜ Cplx.conj t4
  let t5 ← rdC (el3 2 2 LDA A 1 L I)
  let t6 ← rdC (el3 2 2 LDB B 2 J L)
  let t7 ← rdC (el3 2 2 LDA A 2 L I)
  let t8 ← rdC (el3 2 2 LDB B 1 J L)
  let HTMP1J : Cplx F := HTMP1J -ᶜ Cplx.conj t5 *ᶜ t6 -ᶜ t7 *ᶜ t8
  pure (HTMP1J, HTMP1S)

@[thr] theorem run_hgemmzh_230_L (A : Int) (B : Int) (I : Int) (J : Int) (LDA : Int) (LDB : Int) (L : Int) (HTMP1J : Cplx F) (HTMP1S : Cplx F) :
    (Thr.hgemmzh_230_L A B I J LDA LDB L HTMP1J HTMP1S (F := F)).run = Haxx.hgemmzh_230_L A B I J LDA LDB L HTMP1J HTMP1S (F := F) := by
  simp only [Thr.hgemmzh_230_L, Haxx.hgemmzh_230_L, thr]

/-- As `Haxx.hgemmzh_220_I`, `src/hblas/fortran/hblas3/hgemmzh.f:226-248`, body of `DO 220 I`. -/
def hgemmzh_220_I (A : Int) (ALPHA : Cplx F) (B : Int) (BETA : Quat F) (BZERO : Bool) (C : Int) (J : Int) (K : Int) (LDA : Int) (LDB : Int) (LDC : Int) (I : Int)  : Prog F (Unit) := do
  let HTMP1S : Cplx F := (⟨zero, zero⟩ : Cplx F)
  let HTMP1J : Cplx F := (⟨zero, zero⟩ : Cplx F)
  let r ← foldN (K).toNat (fun i (s : Cplx F × Cplx F) => hgemmzh_230_L A B I J LDA LDB ((i : Int) + 1) s.1 s.2) (HTMP1J, HTMP1S)
  let HTMP1J : Cplx F := r.1
  let HTMP1S : Cplx F := r.2
  let _ ← (do
    if BZERO then
      wrC (el3 2 2 LDC C 1 I J) (ALPHA *ᶜ HTMP1S)
      wrC (el3 2 2 LDC C 2 I J) (ALPHA *ᶜ HTMP1J)
      pure ()
    else
      let t1 ← rdC (el3 2 2 LDC C 1 I J)
      let t2 ← rdC (el3 2 2 LDC C 2 I J)
      let HTMP1S : Cplx F := ALPHA *ᶜ HTMP1S +ᶜ Quat.lo BETA *ᶜ t1 -ᶜ Quat.hi BETA *ᶜ Cplx.conj t2
      let t3 ← rdC (el3 2 2 LDC C 2 I J)
      let t4 ← rdC (el3 2 2 LDC C 1 I J)
      wrC (el3 2 2 LDC C 2 I J) (ALPHA *ᶜ HTMP1J +ᶜ Quat.lo BETA *ᶜ t3 +ᶜ Quat.hi BETA *ᶜ Cplx.conj t4)
      wrC (el3 2 2 LDC C 1 I J) HTMP1S
      pure () : Prog F Unit)
  pure ()

@[thr] theorem run_hgemmzh_220_I (A : Int) (ALPHA : Cplx F) (B : Int) (BETA : Quat F) (BZERO : Bool) (C : Int) (J : Int) (K : Int) (LDA : Int) (LDB : Int) (LDC : Int) (I : Int) :
    (Thr.hgemmzh_220_I A ALPHA B BETA BZERO C J K LDA LDB LDC I (F := F)).run = Haxx.hgemmzh_220_I A ALPHA B BETA BZERO C J K LDA LDB LDC I (F := F) := by
  simp only [Thr.hgemmzh_220_I, Haxx.hgemmzh_220_I, thr]

/-- As `Haxx.hgemmzh_220_J`, `src/hblas/fortran/hblas3/hgemmzh.f:225-248`, body of `DO 220 J`. -/
def hgemmzh_220_J (A : Int) (ALPHA : Cplx F) (B : Int) (BETA : Quat F) (BZERO : Bool) (C : Int) (K : Int) (LDA : Int) (LDB : Int) (LDC : Int) (M : Int) (J : Int)  : Prog F (Unit) := do
  forN (M).toNat (fun i => hgemmzh_220_I A ALPHA B BETA BZERO C J K LDA LDB LDC ((i : Int) + 1))
  pure ()

@[thr] theorem run_hgemmzh_220_J (A : Int) (ALPHA : Cplx F) (B : Int) (BETA : Quat F) (BZERO : Bool) (C : Int) (K : Int) (LDA : Int) (LDB : Int) (LDC : Int) (M : Int) (J : Int) :
    (Thr.hgemmzh_220_J A ALPHA B BETA BZERO C K LDA LDB LDC M J (F := F)).run = Haxx.hgemmzh_220_J A ALPHA B BETA BZERO C K LDA LDB LDC M J (F := F) := by
  simp only [Thr.hgemmzh_220_J, Haxx.hgemmzh_220_J, thr]

/-- As `Haxx.hgemmzh_250_L`, `src/hblas/fortran/hblas3/hgemmzh.f:258-264`, body of `DO 250 L`. -/
def hgemmzh_250_L (A : Int) (B : Int) (I : Int) (J : Int) (LDA : Int) (LDB : Int) (L : Int) (HTMP1J : Cplx F) (HTMP1S : Cplx F) : Prog F (Cplx F × Cplx F) := do
  let t1 ← rdC (el3 2 2 LDA A 1 L I)
  let t2 ← rdC (el3 2 2 LDB B 1 J L)
  let t3 ← rdC (el3 2 2 LDA A 2 L I)
  let t4 ← rdC (el3 2 2 LDB B 2 J L)
  let HTMP1S : Cplx F := HTMP1S +ᶜ Cplx.conj t1 *ᶜ t2 +ᶜ t3 *ᶜ Cplx.conj t4
  let t5 ← rdC (el3 2 2 LDA A 1 L I)
  let t6 ← rdC (el3 2 2 LDB B 2 J L)
  let t7 ← rdC (el3 2 2 LDA A 2 L I)
  let t8 ← rdC (el3 2 2 LDB B 1 J L)
  let HTMP1J : Cplx F := HTMP1J +ᶜ Cplx.conj t5 *ᶜ t6 -ᶜ t7 *ᶜ Cplx.conj t8
  pure (HTMP1J, HTMP1S)

@[thr] theorem run_hgemmzh_250_L (A : Int) (B : Int) (I : Int) (J : Int) (LDA : Int) (LDB : Int) (L : Int) (HTMP1J : Cplx F) (HTMP1S : Cplx F) :
    (Thr.hgemmzh_250_L A B I J LDA LDB L HTMP1J HTMP1S (F := F)).run = Haxx.hgemmzh_250_L A B I J LDA LDB L HTMP1J HTMP1S (F := F) := by
  simp only [Thr.hgemmzh_250_L, Haxx.hgemmzh_250_L, thr]

/-- As `Haxx.hgemmzh_240_I`, `src/hblas/fortran/hblas3/hgemmzh.f:255-276`, body of `DO 240 I`. -/
def hgemmzh_240_I (A : Int) (ALPHA : Cplx F) (B : Int) (BETA : Quat F) (BZERO : Bool) (C : Int) (J : Int) (K : Int) (LDA : Int) (LDB : Int) (LDC : Int) (I : Int)  : Prog F (Unit) := do
  let HTMP1S : Cplx F := (⟨zero, zero⟩ : Cplx F)
  let HTMP1J : Cplx F := (⟨zero, zero⟩ : Cplx F)
  let r ← foldN (K).toNat (fun i (s : Cplx F × Cplx F) => hgemmzh_250_L A B I J LDA LDB ((i : Int) + 1) s.1 s.2) (HTMP1J, HTMP1S)
  let HTMP1J : Cplx F := r.1
  let HTMP1S : Cplx F := r.2
  let _ ← (do
    if BZERO then
      wrC (el3 2 2 LDC C 1 I J) (ALPHA *ᶜ HTMP1S)
      wrC (el3 2 2 LDC C 2 I J) (ALPHA *ᶜ HTMP1J)
      pure ()
    else
      let t1 ← rdC (el3 2 2 LDC C 1 I J)
      let t2 ← rdC (el3 2 2 LDC C 2 I J)
      let HTMP1S : Cplx F := ALPHA *ᶜ HTMP1S +ᶜ Quat.lo BETA *ᶜ t1 -ᶜ Quat.hi BETA *ᶜ Cplx.conj t2
      let t3 ← rdC (el3 2 2 LDC C 2 I J)
      let t4 ← rdC (el3 2 2 LDC C 1 I J)
      wrC (el3 2 2 LDC C 2 I J) (ALPHA *ᶜ HTMP1J +ᶜ Quat.lo BETA *ᶜ t3 +ᶜ Quat.hi BETA *ᶜ Cplx.conj t4)
      wrC (el3 2 2 LDC C 1 I J) HTMP1S
      pure () : Prog F Unit)
  pure ()

@[thr] theorem run_hgemmzh_240_I (A : Int) (ALPHA : Cplx F) (B : Int) (BETA : Quat F) (BZERO : Bool) (C : Int) (J : Int) (K : Int) (LDA : Int) (LDB : Int) (LDC : Int) (I : Int) :
    (Thr.hgemmzh_240_I A ALPHA B BETA BZERO C J K LDA LDB LDC I (F := F)).run = Haxx.hgemmzh_240_I A ALPHA B BETA BZERO C J K LDA LDB LDC I (F := F) := by
  simp only [Thr.hgemmzh_240_I, Haxx.hgemmzh_240_I, thr]

/-- As `Haxx.hgemmzh_240_J`, `src/hblas/fortran/hblas3/hgemmzh.f:254-276`, body of `DO 240 J`. -/
def hgemmzh_240_J (A : Int) (ALPHA : Cplx F) (B : Int) (BETA : Quat F) (BZERO : Bool) (C : Int) (K : Int) (LDA : Int) (LDB : Int) (LDC : Int) (M : Int) (J : Int)  : Prog F (Unit) := do
  forN (M).toNat (fun i => hgemmzh_240_I A ALPHA B BETA BZERO C J K LDA LDB LDC ((i : Int) + 1))
  pure ()

@[thr] theorem run_hgemmzh_240_J (A : Int) (ALPHA : Cplx F) (B : Int) (BETA : Quat F) (BZERO : Bool) (C : Int) (K : Int) (LDA : Int) (LDB : Int) (LDC : Int) (M : Int) (J : Int) :
    (Thr.hgemmzh_240_J A ALPHA B BETA BZERO C K LDA LDB LDC M J (F := F)).run = Haxx.hgemmzh_240_J A ALPHA B BETA BZERO C K LDA LDB LDC M J (F := F) := by
  simp only [Thr.hgemmzh_240_J, Haxx.hgemmzh_240_J, thr]

/-- As `Haxx.hgemmzh_if221`, `src/hblas/fortran/hblas3/hgemmzh.f:221-277`. -/
def hgemmzh_if221 (A : Int) (ALPHA : Cplx F) (B : Int) (BETA : Quat F) (BZERO : Bool) (C : Int) (CONJB : Bool) (K : Int) (LDA : Int) (LDB : Int) (LDC : Int) (M : Int) (N : Int) : Prog F (Unit) := do
  if CONJB then
    forN (N).toNat (fun i => hgemmzh_220_J A ALPHA B BETA BZERO C K LDA LDB LDC M ((i : Int) + 1))
    pure ()
  else
    forN (N).toNat (fun i => hgemmzh_240_J A ALPHA B BETA BZERO C K LDA LDB LDC M ((i : Int) + 1))
    pure ()

@[thr] theorem run_hgemmzh_if221 (A : Int) (ALPHA : Cplx F) (B : Int) (BETA : Quat F) (BZERO : Bool) (C : Int) (CONJB : Bool) (K : Int) (LDA : Int) (LDB : Int) (LDC : Int) (M : Int) (N : Int) :
    (Thr.hgemmzh_if221 A ALPHA B BETA BZERO C CONJB K LDA LDB LDC M N (F := F)).run = Haxx.hgemmzh_if221 A ALPHA B BETA BZERO C CONJB K LDA LDB LDC M N (F := F) := by
  simp only [Thr.hgemmzh_if221, Haxx.hgemmzh_if221, thr]

/-- As `Haxx.hgemmzh_270_L`, `src/hblas/fortran/hblas3/hgemmzh.f:288-294`, body of `DO 270 L`. -/
def hgemmzh_270_L (A : Int) (B : Int) (I : Int) (J : Int) (LDA : Int) (LDB : Int) (L : Int) (HTMP1J : Cplx F) (HTMP1S : Cplx F) : Prog F (Cplx F × Cplx F) := do
  let t1 ← rdC (el3 2 2 LDA A 1 L I)
  let t2 ← rdC (el3 2 2 LDB B 1 J L)
  let t3 ← rdC (el3 2 2 LDA A 2 L I)
  let t4 ← rdC (el3 2 2 LDB B 2 J L)
  let HTMP1S : Cplx F := HTMP1S +ᶜ t1 *ᶜ Cplx.conj t2 +ᶜ t3 *ᶜ Cplx.conj t4
  let t5 ← rdC (el3 2 2 LDA A 1 L I)
  let t6 ← rdC (el3 2 2 LDB B 2 J L)
  let t7 ← rdC (el3 2 2 LDA A 2 L I)
  let t8 ← rdC (el3 2 2 LDB B 1 J L)
  let HTMP1J : Cplx F := HTMP1J -ᶜ t5 *ᶜ t6 +ᶜ t7 *ᶜ t8
  pure (HTMP1J, HTMP1S)

@[thr] theorem run_hgemmzh_270_L (A : Int) (B : Int) (I : Int) (J : Int) (LDA : Int) (LDB : Int) (L : Int) (HTMP1J : Cplx F) (HTMP1S : Cplx F) :
    (Thr.hgemmzh_270_L A B I J LDA LDB L HTMP1J HTMP1S (F := F)).run = Haxx.hgemmzh_270_L A B I J LDA LDB L HTMP1J HTMP1S (F := F) := by
  simp only [Thr.hgemmzh_270_L, Haxx.hgemmzh_270_L, thr]

/-- As `Haxx.hgemmzh_260_I`, `src/hblas/fortran/hblas3/hgemmzh.f:285-306`, body of `DO 260 I`. -/
def hgemmzh_260_I (A : Int) (ALPHA : Cplx F) (B : Int) (BETA : Quat F) (BZERO : Bool) (C : Int) (J : Int) (K : Int) (LDA : Int) (LDB : Int) (LDC : Int) (I : Int)  : Prog F (Unit) := do
  let HTMP1S : Cplx F := (⟨zero, zero⟩ : Cplx F)
  let HTMP1J : Cplx F := (⟨zero, zero⟩ : Cplx F)
  let r ← foldN (K).toNat (fun i (s : Cplx F × Cplx F) => hgemmzh_270_L A B I J LDA LDB ((i : Int) + 1) s.1 s.2) (HTMP1J, HTMP1S)
  let HTMP1J : Cplx F := r.1
  let HTMP1S : Cplx F := r.2
  let _ ← (do
    if BZERO then
      wrC (el3 2 2 LDC C 1 I J) (ALPHA *ᶜ HTMP1S)
      wrC (el3 2 2 LDC C 2 I J) (ALPHA *ᶜ HTMP1J)
      pure ()
    else
      let t1 ← rdC (el3 2 2 LDC C 1 I J)
      let t2 ← rdC (el3 2 2 LDC C 2 I J)
      let HTMP1S : Cplx F := ALPHA *ᶜ HTMP1S +ᶜ Quat.lo BETA *ᶜ t1 -ᶜ Quat.hi BETA *ᶜ Cplx.conj t2
      let t3 ← rdC (el3 2 2 LDC C 2 I J)
      let t4 ← rdC (el3 2 2 LDC C 1 I J)
      wrC (el3 2 2 LDC C 2 I J) (ALPHA *ᶜ HTMP1J +ᶜ Quat.lo BETA *ᶜ t3 +ᶜ Quat.hi BETA *ᶜ Cplx.conj t4)
      wrC (el3 2 2 LDC C 1 I J) HTMP1S
      pure () : Prog F Unit)
  pure ()

@[thr] theorem run_hgemmzh_260_I (A : Int) (ALPHA : Cplx F) (B : Int) (BETA : Quat F) (BZERO : Bool) (C : Int) (J : Int) (K : Int) (LDA : Int) (LDB : Int) (LDC : Int) (I : Int) :
    (Thr.hgemmzh_260_I A ALPHA B BETA BZERO C J K LDA LDB LDC I (F := F)).run = Haxx.hgemmzh_260_I A ALPHA B BETA BZERO C J K LDA LDB LDC I (F := F) := by
  simp only [Thr.hgemmzh_260_I, Haxx.hgemmzh_260_I, thr]

/-- As `Haxx.hgemmzh_260_J`, `src/hblas/fortran/hblas3/hgemmzh.f:284-306`, body of `DO 260 J`. -/
def hgemmzh_260_J (A : Int) (ALPHA : Cplx F) (B : Int) (BETA : Quat F) (BZERO : Bool) (C : Int) (K : Int) (LDA : Int) (LDB : Int) (LDC : Int) (M : Int) (J : Int)  : Prog F (Unit) := do
  forN (M).toNat (fun i => hgemmzh_260_I A ALPHA B BETA BZERO C J K LDA LDB LDC ((i : Int) + 1))
  pure ()

@[thr] theorem run_hgemmzh_260_J (A : Int) (ALPHA : Cplx F) (B : Int) (BETA : Quat F) (BZERO : Bool) (C : Int) (K : Int) (LDA : Int) (LDB : Int) (LDC : Int) (M : Int) (J : Int) :
    (Thr.hgemmzh_260_J A ALPHA B BETA BZERO C K LDA LDB LDC M J (F := F)).run = Haxx.hgemmzh_260_J A ALPHA B BETA BZERO C K LDA LDB LDC M J (F := F) := by
  simp only [Thr.hgemmzh_260_J, Haxx.hgemmzh_260_J, thr]

/-- As `Haxx.hgemmzh_290_L`, `src/hblas/fortran/hblas3/hgemmzh.f:315-321`, body of `DO 290 L`. -/
def hgemmzh_290_L (A : Int) (B : Int) (I : Int) (J : Int) (LDA : Int) (LDB : Int) (L : Int) (HTMP1J : Cplx F) (HTMP1S : Cplx F) : Prog F (Cplx F × Cplx F) := do
  let t1 ← rdC (el3 2 2 LDA A 1 L I)
  let t2 ← rdC (el3 2 2 LDB B 1 J L)
  let t3 ← rdC (el3 2 2 LDA A 2 L I)
  let t4 ← rdC (el3 2 2 LDB B 2 J L)
  let HTMP1S : Cplx F := HTMP1S +ᶜ t1 *ᶜ t2 -ᶜ t3 *ᶜ Cplx.conj t4
  let t5 ← rdC (el3 2 2 LDA A 1 L I)
  let t6 ← rdC (el3 2 2 LDB B 2 J L)
  let t7 ← rdC (el3 2 2 LDA A 2 L I)
  let t8 ← rdC (el3 2 2 LDB B 1 J L)
  let HTMP1J : Cplx F := HTMP1J +ᶜ t5 *ᶜ t6 +ᶜ t7 *ᶜ Cplx.conj t8
  pure (HTMP1J, HTMP1S)

@[thr] theorem run_hgemmzh_290_L (A : Int) (B : Int) (I : Int) (J : Int) (LDA : Int) (LDB : Int) (L : Int) (HTMP1J : Cplx F) (HTMP1S : Cplx F) :
    (Thr.hgemmzh_290_L A B I J LDA LDB L HTMP1J HTMP1S (F := F)).run = Haxx.hgemmzh_290_L A B I J LDA LDB L HTMP1J HTMP1S (F := F) := by
  simp only [Thr.hgemmzh_290_L, Haxx.hgemmzh_290_L, thr]

/-- As `Haxx.hgemmzh_280_I`, `src/hblas/fortran/hblas3/hgemmzh.f:312-333`, body of `DO 280 I`. -/
def hgemmzh_280_I (A : Int) (ALPHA : Cplx F) (B : Int) (BETA : Quat F) (BZERO : Bool) (C : Int) (J : Int) (K : Int) (LDA : Int) (LDB : Int) (LDC : Int) (I : Int)  : Prog F (Unit) := do
  let HTMP1S : Cplx F := (⟨zero, zero⟩ : Cplx F)
  let HTMP1J : Cplx F := (⟨zero, zero⟩ : Cplx F)
  let r ← foldN (K).toNat (fun i (s : Cplx F × Cplx F) => hgemmzh_290_L A B I J LDA LDB ((i : Int) + 1) s.1 s.2) (HTMP1J, HTMP1S)
  let HTMP1J : Cplx F := r.1
  let HTMP1S : Cplx F := r.2
  let _ ← (do
    if BZERO then
      wrC (el3 2 2 LDC C 1 I J) (ALPHA *ᶜ HTMP1S)
      wrC (el3 2 2 LDC C 2 I J) (ALPHA *ᶜ HTMP1J)
      pure ()
    else
      let t1 ← rdC (el3 2 2 LDC C 1 I J)
      let t2 ← rdC (el3 2 2 LDC C 2 I J)
      let HTMP1S : Cplx F := ALPHA *ᶜ HTMP1S +ᶜ Quat.lo BETA *ᶜ t1 -ᶜ Quat.hi BETA *ᶜ Cplx.conj t2
      let t3 ← rdC (el3 2 2 LDC C 2 I J)
      let t4 ← rdC (el3 2 2 LDC C 1 I J)
      wrC (el3 2 2 LDC C 2 I J) (ALPHA *ᶜ HTMP1J +ᶜ Quat.lo BETA *ᶜ t3 +ᶜ Quat.hi BETA *ᶜ Cplx.conj t4)
      wrC (el3 2 2 LDC C 1 I J) HTMP1S
      pure () : Prog F Unit)
  pure ()

@[thr] theorem run_hgemmzh_280_I (A : Int) (ALPHA : Cplx F) (B : Int) (BETA : Quat F) (BZERO : Bool) (C : Int) (J : Int) (K : Int) (LDA : Int) (LDB : Int) (LDC : Int) (I : Int) :
    (Thr.hgemmzh_280_I A ALPHA B BETA BZERO C J K LDA LDB LDC I (F := F)).run = Haxx.hgemmzh_280_I A ALPHA B BETA BZERO C J K LDA LDB LDC I (F := F) := by
  simp only [Thr.hgemmzh_280_I, Haxx.hgemmzh_280_I, thr]

/-- As `Haxx.hgemmzh_280_J`, `src/hblas/fortran/hblas3/hgemmzh.f:311-333`, body of `DO 280 J`. -/
def hgemmzh_280_J (A : Int) (ALPHA : Cplx F) (B : Int) (BETA : Quat F) (BZERO : Bool) (C : Int) (K : Int) (LDA : Int) (LDB : Int) (LDC : Int) (M : Int) (J : Int)  : Prog F (Unit) := do
  forN (M).toNat (fun i => hgemmzh_280_I A ALPHA B BETA BZERO C J K LDA LDB LDC ((i : Int) + 1))
  pure ()

@[thr] theorem run_hgemmzh_280_J (A : Int) (ALPHA : Cplx F) (B : Int) (BETA : Quat F) (BZERO : Bool) (C : Int) (K : Int) (LDA : Int) (LDB : Int) (LDC : Int) (M : Int) (J : Int) :
    (Thr.hgemmzh_280_J A ALPHA B BETA BZERO C K LDA LDB LDC M J (F := F)).run = Haxx.hgemmzh_280_J A ALPHA B BETA BZERO C K LDA LDB LDC M J (F := F) := by
  simp only [Thr.hgemmzh_280_J, Haxx.hgemmzh_280_J, thr]

/-- As `Haxx.hgemmzh_if280`, `src/hblas/fortran/hblas3/hgemmzh.f:280-334`. -/
def hgemmzh_if280 (A : Int) (ALPHA : Cplx F) (B : Int) (BETA : Quat F) (BZERO : Bool) (C : Int) (CONJB : Bool) (K : Int) (LDA : Int) (LDB : Int) (LDC : Int) (M : Int) (N : Int) : Prog F (Unit) := do
  if CONJB then
    forN (N).toNat (fun i => hgemmzh_260_J A ALPHA B BETA BZERO C K LDA LDB LDC M ((i : Int) + 1))
    pure ()
  else
    forN (N).toNat (fun i => hgemmzh_280_J A ALPHA B BETA BZERO C K LDA LDB LDC M ((i : Int) + 1))
    pure ()

@[thr] theorem run_hgemmzh_if280 (A : Int) (ALPHA : Cplx F) (B : Int) (BETA : Quat F) (BZERO : Bool) (C : Int) (CONJB : Bool) (K : Int) (LDA : Int) (LDB : Int) (LDC : Int) (M : Int) (N : Int) :
    (Thr.hgemmzh_if280 A ALPHA B BETA BZERO C CONJB K LDA LDB LDC M N (F := F)).run = Haxx.hgemmzh_if280 A ALPHA B BETA BZERO C CONJB K LDA LDB LDC M N (F := F) := by
  simp only [Thr.hgemmzh_if280, Haxx.hgemmzh_if280, thr]

/-- As `Haxx.hgemmzh_if64`, `src/hblas/fortran/hblas3/hgemmzh.f:64-335`. -/
def hgemmzh_if64 (A : Int) (ALPHA : Cplx F) (B : Int) (BETA : Quat F) (BONE : Bool) (BZERO : Bool) (C : Int) (CONJA : Bool) (CONJB : Bool) (K : Int) (LDA : Int) (LDB : Int) (LDC : Int) (M : Int) (N : Int) (NOTA : Bool) (NOTB : Bool) : Prog F (Unit) := do
  if NOTB then
    hgemmzh_if65 A ALPHA B BETA BONE BZERO C CONJA K LDA LDB LDC M N NOTA
    pure ()
  else if NOTA then
    hgemmzh_if154 A ALPHA B BETA BONE BZERO C CONJB K LDA LDB LDC M N
    pure ()
  else if CONJA then
    hgemmzh_if221 A ALPHA B BETA BZERO C CONJB K LDA LDB LDC M N
    pure ()
  else
    hgemmzh_if280 A ALPHA B BETA BZERO C CONJB K LDA LDB LDC M N
    pure ()

@[thr] theorem run_hgemmzh_if64 (A : Int) (ALPHA : Cplx F) (B : Int) (BETA : Quat F) (BONE : Bool) (BZERO : Bool) (C : Int) (CONJA : Bool) (CONJB : Bool) (K : Int) (LDA : Int) (LDB : Int) (LDC : Int) (M : Int) (N : Int) (NOTA : Bool) (NOTB : Bool) :
    (Thr.hgemmzh_if64 A ALPHA B BETA BONE BZERO C CONJA CONJB K LDA LDB LDC M N NOTA NOTB (F := F)).run = Haxx.hgemmzh_if64 A ALPHA B BETA BONE BZERO C CONJA CONJB K LDA LDB LDC M N NOTA NOTB (F := F) := by
  simp only [Thr.hgemmzh_if64, Haxx.hgemmzh_if64, thr]

/-- As `Haxx.hgemmzh`, `src/hblas/fortran/hblas3/hgemmzh.f:9-336`. -/
def hgemmzh (TRANSA : Char) (TRANSB : Char) (M : Int) (N : Int) (K : Int) (ALPHA : Cplx F) (A : Int) (LDA : Int) (B : Int) (LDB : Int) (BETA : Quat F) (C : Int) (LDC : Int) : Prog F (Unit) := do
  let NOTA : Bool := lsame TRANSA 'N'
  let NOTB : Bool := lsame TRANSB 'N'
  let CONJA : Bool := lsame TRANSA 'C'
  let CONJB : Bool := lsame TRANSB 'C'
  let AZERO : Bool := Cplx.feq ALPHA (⟨zero, zero⟩ : Cplx F)
  -- AONE (line 33) is never read
  let BZERO : Bool := (Cplx.feq (Quat.lo BETA) (⟨zero, zero⟩ : Cplx F)) && (Cplx.feq (Quat.hi BETA) (⟨zero, zero⟩ : Cplx F))
  let BONE : Bool := (Cplx.feq (Quat.lo BETA) (⟨one, zero⟩ : Cplx F)) && (Cplx.feq (Quat.hi BETA) (⟨zero, zero⟩ : Cplx F))
  if (decide (M = 0)) || (decide (N = 0)) then
    pure ()
  else
    if (AZERO || (decide (K = 0))) && BONE then
      pure ()
    else
      if AZERO then
        hgemmzh_if47 BETA BZERO C LDC M N
        pure ()
      else
        hgemmzh_if64 A ALPHA B BETA BONE BZERO C CONJA CONJB K LDA LDB LDC M N NOTA NOTB
        pure ()

@[thr] theorem run_hgemmzh (TRANSA : Char) (TRANSB : Char) (M : Int) (N : Int) (K : Int) (ALPHA : Cplx F) (A : Int) (LDA : Int) (B : Int) (LDB : Int) (BETA : Quat F) (C : Int) (LDC : Int) :
    (Thr.hgemmzh TRANSA TRANSB M N K ALPHA A LDA B LDB BETA C LDC (F := F)).run = Haxx.hgemmzh TRANSA TRANSB M N K ALPHA A LDA B LDB BETA C LDC (F := F) := by
  simp only [Thr.hgemmzh, Haxx.hgemmzh, thr]

-- end of FGemmzh

variable {F : Type} [Arith F] [ArithEq F]
/-- As `Haxx.hgemmhd_10_I`, `src/hblas/fortran/hblas3/hgemmhd.f:51-54`, body of `DO 10 I`. -/
def hgemmhd_10_I (C : Int) (J : Int) (LDC : Int) (I : Int)  : Prog F (Unit) := do
  wrC (el3 2 2 LDC C 1 I J) (⟨zero, zero⟩ : Cplx F)
  wrC (el3 2 2 LDC C 2 I J) (⟨zero, zero⟩ : Cplx F)
  pure ()

@[thr] theorem run_hgemmhd_10_I (C : Int) (J : Int) (LDC : Int) (I : Int) :
    (Thr.hgemmhd_10_I C J LDC I (F := F)).run = Haxx.hgemmhd_10_I C J LDC I (F := F) := by
  simp only [Thr.hgemmhd_10_I, Haxx.hgemmhd_10_I, thr]

/-- As `Haxx.hgemmhd_10_J`, `src/hblas/fortran/hblas3/hgemmhd.f:50-54`, body of `DO 10 J`. -/
def hgemmhd_10_J (C : Int) (LDC : Int) (M : Int) (J : Int)  : Prog F (Unit) := do
  forN (M).toNat (fun i => hgemmhd_10_I C J LDC ((i : Int) + 1))
  pure ()

@[thr] theorem run_hgemmhd_10_J (C : Int) (LDC : Int) (M : Int) (J : Int) :
    (Thr.hgemmhd_10_J C LDC M J (F := F)).run = Haxx.hgemmhd_10_J C LDC M J (F := F) := by
  simp only [Thr.hgemmhd_10_J, Haxx.hgemmhd_10_J, thr]

/-- As `Haxx.hgemmhd_20_I`, `src/hblas/fortran/hblas3/hgemmhd.f:57-60`, body of `DO 20 I`. -/
def hgemmhd_20_I (BETA : F) (C : Int) (J : Int) (LDC : Int) (I : Int)  : Prog F (Unit) := do
  let t1 ← rdC (el3 2 2 LDC C 1 I J)
  wrC (el3 2 2 LDC C 1 I J) (Cplx.ofReal BETA *ᶜ t1)
  let t2 ← rdC (el3 2 2 LDC C 2 I J)
  wrC (el3 2 2 LDC C 2 I J) (Cplx.ofReal BETA *ᶜ t2)
  pure ()

@[thr] theorem run_hgemmhd_20_I (BETA : F) (C : Int) (J : Int) (LDC : Int) (I : Int) :
    (Thr.hgemmhd_20_I BETA C J LDC I (F := F)).run = Haxx.hgemmhd_20_I BETA C J LDC I (F := F) := by
  simp only [Thr.hgemmhd_20_I, Haxx.hgemmhd_20_I, thr]

/-- As `Haxx.hgemmhd_20_J`, `src/hblas/fortran/hblas3/hgemmhd.f:56-60`, body of `DO 20 J`. -/
def hgemmhd_20_J (BETA : F) (C : Int) (LDC : Int) (M : Int) (J : Int)  : Prog F (Unit) := do
  forN (M).toNat (fun i => hgemmhd_20_I BETA C J LDC ((i : Int) + 1))
  pure ()

@[thr] theorem run_hgemmhd_20_J (BETA : F) (C : Int) (LDC : Int) (M : Int) (J : Int) :
    (Thr.hgemmhd_20_J BETA C LDC M J (F := F)).run = Haxx.hgemmhd_20_J BETA C LDC M J (F := F) := by
  simp only [Thr.hgemmhd_20_J, Haxx.hgemmhd_20_J, thr]

/-- As `Haxx.hgemmhd_if49`, `src/hblas/fortran/hblas3/hgemmhd.f:49-61`. -/
def hgemmhd_if49 (BETA : F) (BZERO : Bool) (C : Int) (LDC : Int) (M : Int) (N : Int) : Prog F (Unit) := do
  if BZERO then
    forN (N).toNat (fun i => hgemmhd_10_J C LDC M ((i : Int) + 1))
    pure ()
  else
    forN (N).toNat (fun i => hgemmhd_20_J BETA C LDC M ((i : Int) + 1))
    pure ()

@[thr] theorem run_hgemmhd_if49 (BETA : F) (BZERO : Bool) (C : Int) (LDC : Int) (M : Int) (N : Int) :
    (Thr.hgemmhd_if49 BETA BZERO C LDC M N (F := F)).run = Haxx.hgemmhd_if49 BETA BZERO C LDC M N (F := F) := by
  simp only [Thr.hgemmhd_if49, Haxx.hgemmhd_if49, thr]

/-- As `Haxx.hgemmhd_40_I`, `src/hblas/fortran/hblas3/hgemmhd.f:72-75`, body of `DO 40 I`. -/
def hgemmhd_40_I (C : Int) (J : Int) (LDC : Int) (I : Int)  : Prog F (Unit) := do
  wrC (el3 2 2 LDC C 1 I J) (⟨zero, zero⟩ : Cplx F)
  wrC (el3 2 2 LDC C 2 I J) (⟨zero, zero⟩ : Cplx F)
  pure ()

@[thr] theorem run_hgemmhd_40_I (C : Int) (J : Int) (LDC : Int) (I : Int) :
    (Thr.hgemmhd_40_I C J LDC I (F := F)).run = Haxx.hgemmhd_40_I C J LDC I (F := F) := by
  simp only [Thr.hgemmhd_40_I, Haxx.hgemmhd_40_I, thr]

/-- As `Haxx.hgemmhd_50_I`, `src/hblas/fortran/hblas3/hgemmhd.f:77-80`, body of `DO 50 I`. -/
def hgemmhd_50_I (BETA : F) (C : Int) (J : Int) (LDC : Int) (I : Int)  : Prog F (Unit) := do
  let t1 ← rdC (el3 2 2 LDC C 1 I J)
  wrC (el3 2 2 LDC C 1 I J) (Cplx.ofReal BETA *ᶜ t1)
  let t2 ← rdC (el3 2 2 LDC C 2 I J)
  wrC (el3 2 2 LDC C 2 I J) (Cplx.ofReal BETA *ᶜ t2)
  pure ()

@[thr] theorem run_hgemmhd_50_I (BETA : F) (C : Int) (J : Int) (LDC : Int) (I : Int) :
    (Thr.hgemmhd_50_I BETA C J LDC I (F := F)).run = Haxx.hgemmhd_50_I BETA C J LDC I (F := F) := by
  simp only [Thr.hgemmhd_50_I, Haxx.hgemmhd_50_I, thr]

/-- As `Haxx.hgemmhd_if71`, `src/hblas/fortran/hblas3/hgemmhd.f:71-81`. -/
def hgemmhd_if71 (BETA : F) (BONE : Bool) (BZERO : Bool) (C : Int) (J : Int) (LDC : Int) (M : Int) : Prog F (Unit) := do
  if BZERO then
    forN (M).toNat (fun i => hgemmhd_40_I C J LDC ((i : Int) + 1))
    pure ()
  else if !BONE then
    forN (M).toNat (fun i => hgemmhd_50_I BETA C J LDC ((i : Int) + 1))
    pure ()
  else
    pure ()

@[thr] theorem run_hgemmhd_if71 (BETA : F) (BONE : Bool) (BZERO : Bool) (C : Int) (J : Int) (LDC : Int) (M : Int) :
    (Thr.hgemmhd_if71 BETA BONE BZERO C J LDC M (F := F)).run = Haxx.hgemmhd_if71 BETA BONE BZERO C J LDC M (F := F) := by
  simp only [Thr.hgemmhd_if71, Haxx.hgemmhd_if71, thr]

/-- As `Haxx.hgemmhd_70_I`, `src/hblas/fortran/hblas3/hgemmhd.f:92-100`, body of `DO 70 I`. -/
def hgemmhd_70_I (A : Int) (C : Int) (HTMP1J : Cplx F) (HTMP1S : Cplx F) (HTMP2J : Cplx F) (HTMP2S : Cplx F) (HTMP3J : Cplx F) (HTMP3S : Cplx F) (HTMP4J : Cplx F) (HTMP4S : Cplx F) (J : Int) (L : Int) (LDA : Int) (LDC : Int) (I : Int)  : Prog F (Unit) := do
  let t1 ← rdC (el3 2 2 LDC C 1 I J)
  let t2 ← rdC (el3 2 2 LDA A 1 I L)
  let t3 ← rdC (el3 2 2 LDA A 2 I L)
  let t4 ← rdC (el3 2 2 LDA A 1 I L)
  let t5 ← rdC (el3 2 2 LDA A 2 I L)
  wrC (el3 2 2 LDC C 1 I J) (t1 +ᶜ t2 *ᶜ HTMP1S -ᶜ t3 *ᶜ HTMP2J -ᶜ Cplx.conj t4 *ᶜ HTMP4J -ᶜ Cplx.conj t5 *ᶜ HTMP3S)
  let t6 ← rdC (el3 2 2 LDC C 2 I J)
  let t7 ← rdC (el3 2 2 LDA A 1 I L)
  let t8 ← rdC (el3 2 2 LDA A 2 I L)
  let t9 ← rdC (el3 2 2 LDA A 1 I L)
  let t10 ← rdC (el3 2 2 LDA A 2 I L)
  wrC (el3 2 2 LDC C 2 I J) (t6 +ᶜ t7 *ᶜ HTMP1J +ᶜ t8 *ᶜ HTMP2S +ᶜ Cplx.conj t9 *ᶜ HTMP4S -ᶜ Cplx.conj t10 *ᶜ HTMP3J)
  pure ()

@[thr] theorem run_hgemmhd_70_I (A : Int) (C : Int) (HTMP1J : Cplx F) (HTMP1S : Cplx F) (HTMP2J : Cplx F) (HTMP2S : Cplx F) (HTMP3J : Cplx F) (HTMP3S : Cplx F) (HTMP4J : Cplx F) (HTMP4S : Cplx F) (J : Int) (L : Int) (LDA : Int) (LDC : Int) (I : Int) :
    (Thr.hgemmhd_70_I A C HTMP1J HTMP1S HTMP2J HTMP2S HTMP3J HTMP3S HTMP4J HTMP4S J L LDA LDC I (F := F)).run = Haxx.hgemmhd_70_I A C HTMP1J HTMP1S HTMP2J HTMP2S HTMP3J HTMP3S HTMP4J HTMP4S J L LDA LDC I (F := F) := by
  simp only [Thr.hgemmhd_70_I, Haxx.hgemmhd_70_I, thr]

/-- As `Haxx.hgemmhd_60_L`, `src/hblas/fortran/hblas3/hgemmhd.f:83-101`, body of `DO 60 L`. -/
def hgemmhd_60_L (A : Int) (ALPHA : Quat F) (B : Int) (C : Int) (J : Int) (LDA : Int) (LDB : Int) (LDC : Int) (M : Int) (L : Int)  : Prog F (Unit) := do
  let t1 ← rdC (el3 2 2 LDB B 1 L J)
  let HTMP1S : Cplx F := Quat.lo ALPHA *ᶜ t1
  let t2 ← rdC (el3 2 2 LDB B 2 L J)
  let HTMP1J : Cplx F := Quat.lo ALPHA *ᶜ t2
  let t3 ← rdC (el3 2 2 LDB B 1 L J)
  let HTMP2S : Cplx F := Quat.lo ALPHA *ᶜ Cplx.conj t3
  let t4 ← rdC (el3 2 2 LDB B 2 L J)
  let HTMP2J : Cplx F := Quat.lo ALPHA *ᶜ Cplx.conj t4
  let t5 ← rdC (el3 2 2 LDB B 1 L J)
  let HTMP3S : Cplx F := Quat.hi ALPHA *ᶜ t5
  let t6 ← rdC (el3 2 2 LDB B 2 L J)
  let HTMP3J : Cplx F := Quat.hi ALPHA *ᶜ t6
  let t7 ← rdC (el3 2 2 LDB B 1 L J)
  let HTMP4S : Cplx F := Quat.hi ALPHA *ᶜ Cplx.conj t7
  let t8 ← rdC (el3 2 2 LDB B 2 L J)
  let HTMP4J : Cplx F := Quat.hi ALPHA *ᶜ Cplx.conj t8
  forN (M).toNat (fun i => hgemmhd_70_I A C HTMP1J HTMP1S HTMP2J HTMP2S HTMP3J HTMP3S HTMP4J HTMP4S J L LDA LDC ((i : Int) + 1))
  pure ()

@[thr] theorem run_hgemmhd_60_L (A : Int) (ALPHA : Quat F) (B : Int) (C : Int) (J : Int) (LDA : Int) (LDB : Int) (LDC : Int) (M : Int) (L : Int) :
    (Thr.hgemmhd_60_L A ALPHA B C J LDA LDB LDC M L (F := F)).run = Haxx.hgemmhd_60_L A ALPHA B C J LDA LDB LDC M L (F := F) := by
  simp only [Thr.hgemmhd_60_L, Haxx.hgemmhd_60_L, thr]

/-- As `Haxx.hgemmhd_30_J`, `src/hblas/fortran/hblas3/hgemmhd.f:70-102`, body of `DO 30 J`. -/
def hgemmhd_30_J (A : Int) (ALPHA : Quat F) (B : Int) (BETA : F) (BONE : Bool) (BZERO : Bool) (C : Int) (K : Int) (LDA : Int) (LDB : Int) (LDC : Int) (M : Int) (J : Int)  : Prog F (Unit) := do
  hgemmhd_if71 BETA BONE BZERO C J LDC M
  forN (K).toNat (fun i => hgemmhd_60_L A ALPHA B C J LDA LDB LDC M ((i : Int) + 1))
  pure ()

@[thr] theorem run_hgemmhd_30_J (A : Int) (ALPHA : Quat F) (B : Int) (BETA : F) (BONE : Bool) (BZERO : Bool) (C : Int) (K : Int) (LDA : Int) (LDB : Int) (LDC : Int) (M : Int) (J : Int) :
    (Thr.hgemmhd_30_J A ALPHA B BETA BONE BZERO C K LDA LDB LDC M J (F := F)).run = Haxx.hgemmhd_30_J A ALPHA B BETA BONE BZERO C K LDA LDB LDC M J (F := F) := by
  simp only [Thr.hgemmhd_30_J, Haxx.hgemmhd_30_J, thr]

/-- As `Haxx.hgemmhd_90_L`, `src/hblas/fortran/hblas3/hgemmhd.f:111-117`, body of `DO 90 L`. -/
def hgemmhd_90_L (A : Int) (B : Int) (I : Int) (J : Int) (LDA : Int) (LDB : Int) (L : Int) (HTMP1J : Cplx F) (HTMP1S : Cplx F) : Prog F (Cplx F × Cplx F) := do
  let t1 ← rdC (el3 2 2 LDA A 1 L I)
  let t2 ← rdC (el3 2 2 LDB B 1 L J)
  let t3 ← rdC (el3 2 2 LDA A 2 L I)
  let t4 ← rdC (el3 2 2 LDB B 2 L J)
  let HTMP1S : Cplx F := HTMP1S +ᶜ Cplx.conj t1 *ᶜ t2 +ᶜ t3 *ᶜ Cplx.conj t4
  let t5 ← rdC (el3 2 2 LDA A 1 L I)
  let t6 ← rdC (el3 2 2 LDB B 2 L J)
  let t7 ← rdC (el3 2 2 LDA A 2 L I)
  let t8 ← rdC (el3 2 2 LDB B 1 L J)
  let HTMP1J : Cplx F := HTMP1J +ᶜ Cplx.conj t5 *ᶜ t6 -ᶜ t7 *ᶜ Cplx.conj t8
  pure (HTMP1J, HTMP1S)

@[thr] theorem run_hgemmhd_90_L (A : Int) (B : Int) (I : Int) (J : Int) (LDA : Int) (LDB : Int) (L : Int) (HTMP1J : Cplx F) (HTMP1S : Cplx F) :
    (Thr.hgemmhd_90_L A B I J LDA LDB L HTMP1J HTMP1S (F := F)).run = Haxx.hgemmhd_90_L A B I J LDA LDB L HTMP1J HTMP1S (F := F) := by
  simp only [Thr.hgemmhd_90_L, Haxx.hgemmhd_90_L, thr]

/-- As `Haxx.hgemmhd_80_I`, `src/hblas/fortran/hblas3/hgemmhd.f:108-128`, body of `DO 80 I`. -/
def hgemmhd_80_I (A : Int) (ALPHA : Quat F) (B : Int) (BETA : F) (BZERO : Bool) (C : Int) (J : Int) (K : Int) (LDA : Int) (LDB : Int) (LDC : Int) (I : Int)  : Prog F (Unit) := do
  let HTMP1S : Cplx F := (⟨zero, zero⟩ : Cplx F)
  let HTMP1J : Cplx F := (⟨zero, zero⟩ : Cplx F)
  let r ← foldN (K).toNat (fun i (s : Cplx F × Cplx F) => hgemmhd_90_L A B I J LDA LDB ((i : Int) + 1) s.1 s.2) (HTMP1J, HTMP1S)
  let HTMP1J : Cplx F := r.1
  let HTMP1S : Cplx F := r.2
  let _ ← (do
    if BZERO then
      wrC (el3 2 2 LDC C 1 I J) (Quat.lo ALPHA *ᶜ HTMP1S -ᶜ Quat.hi ALPHA *ᶜ Cplx.conj HTMP1J)
      wrC (el3 2 2 LDC C 2 I J) (Quat.lo ALPHA *ᶜ HTMP1J +ᶜ Quat.hi ALPHA *ᶜ Cplx.conj HTMP1S)
      pure ()
    else
      let t1 ← rdC (el3 2 2 LDC C 1 I J)
      wrC (el3 2 2 LDC C 1 I J) (Quat.lo ALPHA *ᶜ HTMP1S -ᶜ Quat.hi ALPHA *ᶜ Cplx.conj HTMP1J +ᶜ Cplx.ofReal BETA *ᶜ t1)
      let t2 ← rdC (el3 2 2 LDC C 2 I J)
      wrC (el3 2 2 LDC C 2 I J) (Quat.lo ALPHA *ᶜ HTMP1J +ᶜ Quat.hi ALPHA *ᶜ Cplx.conj HTMP1S +ᶜ Cplx.ofReal BETA *ᶜ t2)
      pure () : Prog F Unit)
  pure ()

@[thr] theorem run_hgemmhd_80_I (A : Int) (ALPHA : Quat F) (B : Int) (BETA : F) (BZERO : Bool) (C : Int) (J : Int) (K : Int) (LDA : Int) (LDB : Int) (LDC : Int) (I : Int) :
    (Thr.hgemmhd_80_I A ALPHA B BETA BZERO C J K LDA LDB LDC I (F := F)).run = Haxx.hgemmhd_80_I A ALPHA B BETA BZERO C J K LDA LDB LDC I (F := F) := by
  simp only [Thr.hgemmhd_80_I, Haxx.hgemmhd_80_I, thr]

/-- As `Haxx.hgemmhd_80_J`, `src/hblas/fortran/hblas3/hgemmhd.f:107-128`, body of `DO 80 J`. -/
def hgemmhd_80_J (A : Int) (ALPHA : Quat F) (B : Int) (BETA : F) (BZERO : Bool) (C : Int) (K : Int) (LDA : Int) (LDB : Int) (LDC : Int) (M : Int) (J : Int)  : Prog F (Unit) := do
  forN (M).toNat (fun i => hgemmhd_80_I A ALPHA B BETA BZERO C J K LDA LDB LDC ((i : Int) + 1))
  pure ()

@[thr] theorem run_hgemmhd_80_J (A : Int) (ALPHA : Quat F) (B : Int) (BETA : F) (BZERO : Bool) (C : Int) (K : Int) (LDA : Int) (LDB : Int) (LDC : Int) (M : Int) (J : Int) :
    (Thr.hgemmhd_80_J A ALPHA B BETA BZERO C K LDA LDB LDC M J (F := F)).run = Haxx.hgemmhd_80_J A ALPHA B BETA BZERO C K LDA LDB LDC M J (F := F) := by
  simp only [Thr.hgemmhd_80_J, Haxx.hgemmhd_80_J, thr]

/-- As `Haxx.hgemmhd_110_L`, `src/hblas/fortran/hblas3/hgemmhd.f:138-144`, body of `DO 110 L`. -/
def hgemmhd_110_L (A : Int) (B : Int) (I : Int) (J : Int) (LDA : Int) (LDB : Int) (L : Int) (HTMP1J : Cplx F) (HTMP1S : Cplx F) : Prog F (Cplx F × Cplx F) := do
  let t1 ← rdC (el3 2 2 LDA A 1 L I)
  let t2 ← rdC (el3 2 2 LDB B 1 L J)
  let t3 ← rdC (el3 2 2 LDA A 2 L I)
  let t4 ← rdC (el3 2 2 LDB B 2 L J)
  let HTMP1S : Cplx F := HTMP1S +ᶜ t1 *ᶜ t2 -ᶜ t3 *ᶜ Cplx.conj t4
  let t5 ← rdC (el3 2 2 LDA A 1 L I)
  let t6 ← rdC (el3 2 2 LDB B 2 L J)
  let t7 ← rdC (el3 2 2 LDA A 2 L I)
  let t8 ← rdC (el3 2 2 LDB B 1 L J)
  let HTMP1J : Cplx F := HTMP1J +ᶜ t5 *ᶜ t6 +ᶜ t7 *ᶜ Cplx.conj t8
  pure (HTMP1J, HTMP1S)

@[thr] theorem run_hgemmhd_110_L (A : Int) (B : Int) (I : Int) (J : Int) (LDA : Int) (LDB : Int) (L : Int) (HTMP1J : Cplx F) (HTMP1S : Cplx F) :
    (Thr.hgemmhd_110_L A B I J LDA LDB L HTMP1J HTMP1S (F := F)).run = Haxx.hgemmhd_110_L A B I J LDA LDB L HTMP1J HTMP1S (F := F) := by
  simp only [Thr.hgemmhd_110_L, Haxx.hgemmhd_110_L, thr]

/-- As `Haxx.hgemmhd_100_I`, `src/hblas/fortran/hblas3/hgemmhd.f:135-155`, body of `DO 100 I`. -/
def hgemmhd_100_I (A : Int) (ALPHA : Quat F) (B : Int) (BETA : F) (BZERO : Bool) (C : Int) (J : Int) (K : Int) (LDA : Int) (LDB : Int) (LDC : Int) (I : Int)  : Prog F (Unit) := do
  let HTMP1S : Cplx F := (⟨zero, zero⟩ : Cplx F)
  let HTMP1J : Cplx F := (⟨zero, zero⟩ : Cplx F)
  let r ← foldN (K).toNat (fun i (s : Cplx F × Cplx F) => hgemmhd_110_L A B I J LDA LDB ((i : Int) + 1) s.1 s.2) (HTMP1J, HTMP1S)
  let HTMP1J : Cplx F := r.1
  let HTMP1S : Cplx F := r.2
  let _ ← (do
    if BZERO then
      wrC (el3 2 2 LDC C 1 I J) (Quat.lo ALPHA *ᶜ HTMP1S -ᶜ Quat.hi ALPHA *ᶜ Cplx.conj HTMP1J)
      wrC (el3 2 2 LDC C 2 I J) (Quat.lo ALPHA *ᶜ HTMP1J +ᶜ Quat.hi ALPHA *ᶜ Cplx.conj HTMP1S)
      pure ()
    else
      let t1 ← rdC (el3 2 2 LDC C 1 I J)
      wrC (el3 2 2 LDC C 1 I J) (Quat.lo ALPHA *ᶜ HTMP1S -ᶜ Quat.hi ALPHA *ᶜ Cplx.conj HTMP1J +ᶜ Cplx.ofReal BETA *ᶜ t1)
      let t2 ← rdC (el3 2 2 LDC C 2 I J)
      wrC (el3 2 2 LDC C 2 I J) (Quat.lo ALPHA *ᶜ HTMP1J +ᶜ Quat.hi ALPHA *ᶜ Cplx.conj HTMP1S +ᶜ Cplx.ofReal BETA *ᶜ t2)
      pure () : Prog F Unit)
  pure ()

@[thr] theorem run_hgemmhd_100_I (A : Int) (ALPHA : Quat F) (B : Int) (BETA : F) (BZERO : Bool) (C : Int) (J : Int) (K : Int) (LDA : Int) (LDB : Int) (LDC : Int) (I : Int) :
    (Thr.hgemmhd_100_I A ALPHA B BETA BZERO C J K LDA LDB LDC I (F := F)).run = Haxx.hgemmhd_100_I A ALPHA B BETA BZERO C J K LDA LDB LDC I (F := F) := by
  simp only [Thr.hgemmhd_100_I, Haxx.hgemmhd_100_I, thr]

/-- As `Haxx.hgemmhd_100_J`, `src/hblas/fortran/hblas3/hgemmhd.f:134-155`, body of `DO 100 J`. -/
def hgemmhd_100_J (A : Int) (ALPHA : Quat F) (B : Int) (BETA : F) (BZERO : Bool) (C : Int) (K : Int) (LDA : Int) (LDB : Int) (LDC : Int) (M : Int) (J : Int)  : Prog F (Unit) := do
  forN (M).toNat (fun i => hgemmhd_100_I A ALPHA B BETA BZERO C J K LDA LDB LDC ((i : Int) + 1))
  pure ()

@[thr] theorem run_hgemmhd_100_J (A : Int) (ALPHA : Quat F) (B : Int) (BETA : F) (BZERO : Bool) (C : Int) (K : Int) (LDA : Int) (LDB : Int) (LDC : Int) (M : Int) (J : Int) :
    (Thr.hgemmhd_100_J A ALPHA B BETA BZERO C K LDA LDB LDC M J (F := F)).run = Haxx.hgemmhd_100_J A ALPHA B BETA BZERO C K LDA LDB LDC M J (F := F) := by
  simp only [Thr.hgemmhd_100_J, Haxx.hgemmhd_100_J, thr]

/-- As `Haxx.hgemmhd_if66`, `src/hblas/fortran/hblas3/hgemmhd.f:66-156`. -/
def hgemmhd_if66 (A : Int) (ALPHA : Quat F) (B : Int) (BETA : F) (BONE : Bool) (BZERO : Bool) (C : Int) (CONJA : Bool) (K : Int) (LDA : Int) (LDB : Int) (LDC : Int) (M : Int) (N : Int) (NOTA : Bool) : Prog F (Unit) := do
  if NOTA then
    forN (N).toNat (fun i => hgemmhd_30_J A ALPHA B BETA BONE BZERO C K LDA LDB LDC M ((i : Int) + 1))
    pure ()
  else if CONJA then
    forN (N).toNat (fun i => hgemmhd_80_J A ALPHA B BETA BZERO C K LDA LDB LDC M ((i : Int) + 1))
    pure ()
  else
    forN (N).toNat (fun i => hgemmhd_100_J A ALPHA B BETA BZERO C K LDA LDB LDC M ((i : Int) + 1))
    pure ()

@[thr] theorem run_hgemmhd_if66 (A : Int) (ALPHA : Quat F) (B : Int) (BETA : F) (BONE : Bool) (BZERO : Bool) (C : Int) (CONJA : Bool) (K : Int) (LDA : Int) (LDB : Int) (LDC : Int) (M : Int) (N : Int) (NOTA : Bool) :
    (Thr.hgemmhd_if66 A ALPHA B BETA BONE BZERO C CONJA K LDA LDB LDC M N NOTA (F := F)).run = Haxx.hgemmhd_if66 A ALPHA B BETA BONE BZERO C CONJA K LDA LDB LDC M N NOTA (F := F) := by
  simp only [Thr.hgemmhd_if66, Haxx.hgemmhd_if66, thr]

/-- As `Haxx.hgemmhd_130_I`, `src/hblas/fortran/hblas3/hgemmhd.f:164-167`, body of `DO 130 I`. -/
def hgemmhd_130_I (C : Int) (J : Int) (LDC : Int) (I : Int)  : Prog F (Unit) := do
  wrC (el3 2 2 LDC C 1 I J) (⟨zero, zero⟩ : Cplx F)
  wrC (el3 2 2 LDC C 2 I J) (⟨zero, zero⟩ : Cplx F)
  pure ()

@[thr] theorem run_hgemmhd_130_I (C : Int) (J : Int) (LDC : Int) (I : Int) :
    (Thr.hgemmhd_130_I C J LDC I (F := F)).run = Haxx.hgemmhd_130_I C J LDC I (F := F) := by
  simp only [Thr.hgemmhd_130_I, Haxx.hgemmhd_130_I, thr]

/-- As `Haxx.hgemmhd_140_I`, `src/hblas/fortran/hblas3/hgemmhd.f:169-172`, body of `DO 140 I`. -/
def hgemmhd_140_I (BETA : F) (C : Int) (J : Int) (LDC : Int) (I : Int)  : Prog F (Unit) := do
  let t1 ← rdC (el3 2 2 LDC C 1 I J)
  wrC (el3 2 2 LDC C 1 I J) (Cplx.ofReal BETA *ᶜ t1)
  let t2 ← rdC (el3 2 2 LDC C 2 I J)
  wrC (el3 2 2 LDC C 2 I J) (Cplx.ofReal BETA *ᶜ t2)
  pure ()

@[thr] theorem run_hgemmhd_140_I (BETA : F) (C : Int) (J : Int) (LDC : Int) (I : Int) :
    (Thr.hgemmhd_140_I BETA C J LDC I (F := F)).run = Haxx.hgemmhd_140_I BETA C J LDC I (F := F) := by
  simp only [Thr.hgemmhd_140_I, Haxx.hgemmhd_140_I, thr]

/-- As `Haxx.hgemmhd_if163`, `src/hblas/fortran/hblas3/hgemmhd.f:163-173`. -/
def hgemmhd_if163 (BETA : F) (BONE : Bool) (BZERO : Bool) (C : Int) (J : Int) (LDC : Int) (M : Int) : Prog F (Unit) := do
  if BZERO then
    forN (M).toNat (fun i => hgemmhd_130_I C J LDC ((i : Int) + 1))
    pure ()
  else if !BONE then
    forN (M).toNat (fun i => hgemmhd_140_I BETA C J LDC ((i : Int) + 1))
    pure ()
  else
    pure ()

@[thr] theorem run_hgemmhd_if163 (BETA : F) (BONE : Bool) (BZERO : Bool) (C : Int) (J : Int) (LDC : Int) (M : Int) :
    (Thr.hgemmhd_if163 BETA BONE BZERO C J LDC M (F := F)).run = Haxx.hgemmhd_if163 BETA BONE BZERO C J LDC M (F := F) := by
  simp only [Thr.hgemmhd_if163, Haxx.hgemmhd_if163, thr]

/-- As `Haxx.hgemmhd_160_I`, `src/hblas/fortran/hblas3/hgemmhd.f:184-192`, body of `DO 160 I`. -/
def hgemmhd_160_I (A : Int) (C : Int) (HTMP1J : Cplx F) (HTMP1S : Cplx F) (HTMP2J : Cplx F) (HTMP2S : Cplx F) (HTMP3J : Cplx F) (HTMP3S : Cplx F) (HTMP4J : Cplx F) (HTMP4S : Cplx F) (J : Int) (L : Int) (LDA : Int) (LDC : Int) (I : Int)  : Prog F (Unit) := do
  let t1 ← rdC (el3 2 2 LDC C 1 I J)
  let t2 ← rdC (el3 2 2 LDA A 1 I L)
  let t3 ← rdC (el3 2 2 LDA A 2 I L)
  let t4 ← rdC (el3 2 2 LDA A 1 I L)
  let t5 ← rdC (el3 2 2 LDA A 2 I L)
  wrC (el3 2 2 LDC C 1 I J) (t1 +ᶜ t2 *ᶜ HTMP2S -ᶜ t3 *ᶜ HTMP2J -ᶜ Cplx.conj t4 *ᶜ HTMP4J -ᶜ Cplx.conj t5 *ᶜ HTMP4S)
  let t6 ← rdC (el3 2 2 LDC C 2 I J)
  let t7 ← rdC (el3 2 2 LDA A 1 I L)
  let t8 ← rdC (el3 2 2 LDA A 2 I L)
  let t9 ← rdC (el3 2 2 LDA A 1 I L)
  let t10 ← rdC (el3 2 2 LDA A 2 I L)
  wrC (el3 2 2 LDC C 2 I J) (t6 +ᶜ t7 *ᶜ HTMP1J +ᶜ t8 *ᶜ HTMP1S +ᶜ Cplx.conj t9 *ᶜ HTMP3S -ᶜ Cplx.conj t10 *ᶜ HTMP3J)
  pure ()

@[thr] theorem run_hgemmhd_160_I (A : Int) (C : Int) (HTMP1J : Cplx F) (HTMP1S : Cplx F) (HTMP2J : Cplx F) (HTMP2S : Cplx F) (HTMP3J : Cplx F) (HTMP3S : Cplx F) (HTMP4J : Cplx F) (HTMP4S : Cplx F) (J : Int) (L : Int) (LDA : Int) (LDC : Int) (I : Int) :
    (Thr.hgemmhd_160_I A C HTMP1J HTMP1S HTMP2J HTMP2S HTMP3J HTMP3S HTMP4J HTMP4S J L LDA LDC I (F := F)).run = Haxx.hgemmhd_160_I A C HTMP1J HTMP1S HTMP2J HTMP2S HTMP3J HTMP3S HTMP4J HTMP4S J L LDA LDC I (F := F) := by
  simp only [Thr.hgemmhd_160_I, Haxx.hgemmhd_160_I, thr]

/-- As `Haxx.hgemmhd_150_L`, `src/hblas/fortran/hblas3/hgemmhd.f:175-193`, body of `DO 150 L`. -/
def hgemmhd_150_L (A : Int) (ALPHA : Quat F) (B : Int) (C : Int) (J : Int) (LDA : Int) (LDB : Int) (LDC : Int) (M : Int) (L : Int)  : Prog F (Unit) := do
  let t1 ← rdC (el3 2 2 LDB B 1 J L)
  let HTMP1S : Cplx F := Quat.lo ALPHA *ᶜ t1
  let t2 ← rdC (el3 2 2 LDB B 2 J L)
  let HTMP1J : Cplx F := Cplx.neg (Quat.lo ALPHA *ᶜ t2)
  let t3 ← rdC (el3 2 2 LDB B 1 J L)
  let HTMP2S : Cplx F := Quat.lo ALPHA *ᶜ Cplx.conj t3
  let t4 ← rdC (el3 2 2 LDB B 2 J L)
  let HTMP2J : Cplx F := Cplx.neg (Quat.lo ALPHA *ᶜ Cplx.conj t4)
  let t5 ← rdC (el3 2 2 LDB B 1 J L)
  let HTMP3S : Cplx F := Quat.hi ALPHA *ᶜ t5
  let t6 ← rdC (el3 2 2 LDB B 2 J L)
  let HTMP3J : Cplx F := Cplx.neg (Quat.hi ALPHA *ᶜ t6)
  let t7 ← rdC (el3 2 2 LDB B 1 J L)
  let HTMP4S : Cplx F := Quat.hi ALPHA *ᶜ Cplx.conj t7
  let t8 ← rdC (el3 2 2 LDB B 2 J L)
  let HTMP4J : Cplx F := Cplx.neg (Quat.hi ALPHA *ᶜ Cplx.conj t8)
  forN (M).toNat (fun i => hgemmhd_160_I A C HTMP1J HTMP1S HTMP2J HTMP2S HTMP3J HTMP3S HTMP4J HTMP4S J L LDA LDC ((i : Int) + 1))
  pure ()

@[thr] theorem run_hgemmhd_150_L (A : Int) (ALPHA : Quat F) (B : Int) (C : Int) (J : Int) (LDA : Int) (LDB : Int) (LDC : Int) (M : Int) (L : Int) :
    (Thr.hgemmhd_150_L A ALPHA B C J LDA LDB LDC M L (F := F)).run = Haxx.hgemmhd_150_L A ALPHA B C J LDA LDB LDC M L (F := F) := by
  simp only [Thr.hgemmhd_150_L, Haxx.hgemmhd_150_L, thr]

/-- As `Haxx.hgemmhd_120_J`, `src/hblas/fortran/hblas3/hgemmhd.f:162-194`, body of `DO 120 J`. -/
def hgemmhd_120_J (A : Int) (ALPHA : Quat F) (B : Int) (BETA : F) (BONE : Bool) (BZERO : Bool) (C : Int) (K : Int) (LDA : Int) (LDB : Int) (LDC : Int) (M : Int) (J : Int)  : Prog F (Unit) := do
  hgemmhd_if163 BETA BONE BZERO C J LDC M
  forN (K).toNat (fun i => hgemmhd_150_L A ALPHA B C J LDA LDB LDC M ((i : Int) + 1))
  pure ()

@[thr] theorem run_hgemmhd_120_J (A : Int) (ALPHA : Quat F) (B : Int) (BETA : F) (BONE : Bool) (BZERO : Bool) (C : Int) (K : Int) (LDA : Int) (LDB : Int) (LDC : Int) (M : Int) (J : Int) :
    (Thr.hgemmhd_120_J A ALPHA B BETA BONE BZERO C K LDA LDB LDC M J (F := F)).run = Haxx.hgemmhd_120_J A ALPHA B BETA BONE BZERO C K LDA LDB LDC M J (F := F) := by
  simp only [Thr.hgemmhd_120_J, Haxx.hgemmhd_120_J, thr]

/-- As `Haxx.hgemmhd_180_I`, `src/hblas/fortran/hblas3/hgemmhd.f:202-205`, body of `DO 180 I`. -/
def hgemmhd_180_I (C : Int) (J : Int) (LDC : Int) (I : Int)  : Prog F (Unit) := do
  wrC (el3 2 2 LDC C 1 I J) (⟨zero, zero⟩ : Cplx F)
  wrC (el3 2 2 LDC C 2 I J) (⟨zero, zero⟩ : Cplx F)
  pure ()

@[thr] theorem run_hgemmhd_180_I (C : Int) (J : Int) (LDC : Int) (I : Int) :
    (Thr.hgemmhd_180_I C J LDC I (F := F)).run = Haxx.hgemmhd_180_I C J LDC I (F := F) := by
  simp only [Thr.hgemmhd_180_I, Haxx.hgemmhd_180_I, thr]

/-- As `Haxx.hgemmhd_190_I`, `src/hblas/fortran/hblas3/hgemmhd.f:207-210`, body of `DO 190 I`. -/
def hgemmhd_190_I (BETA : F) (C : Int) (J : Int) (LDC : Int) (I : Int)  : Prog F (Unit) := do
  let t1 ← rdC (el3 2 2 LDC C 1 I J)
  wrC (el3 2 2 LDC C 1 I J) (Cplx.ofReal BETA *ᶜ t1)
  let t2 ← rdC (el3 2 2 LDC C 2 I J)
  wrC (el3 2 2 LDC C 2 I J) (Cplx.ofReal BETA *ᶜ t2)
  pure ()

@[thr] theorem run_hgemmhd_190_I (BETA : F) (C : Int) (J : Int) (LDC : Int) (I : Int) :
    (Thr.hgemmhd_190_I BETA C J LDC I (F := F)).run = Haxx.hgemmhd_190_I BETA C J LDC I (F := F) := by
  simp only [Thr.hgemmhd_190_I, Haxx.hgemmhd_190_I, thr]

/-- As `Haxx.hgemmhd_if201`, `src/hblas/fortran/hblas3/hgemmhd.f:201-211`. -/
def hgemmhd_if201 (BETA : F) (BONE : Bool) (BZERO : Bool) (C : Int) (J : Int) (LDC : Int) (M : Int) : Prog F (Unit) := do
  if BZERO then
    forN (M).toNat (fun i => hgemmhd_180_I C J LDC ((i : Int) + 1))
    pure ()
  else if !BONE then
    forN (M).toNat (fun i => hgemmhd_190_I BETA C J LDC ((i : Int) + 1))
    pure ()
  else
    pure ()

@[thr] theorem run_hgemmhd_if201 (BETA : F) (BONE : Bool) (BZERO : Bool) (C : Int) (J : Int) (LDC : Int) (M : Int) :
    (Thr.hgemmhd_if201 BETA BONE BZERO C J LDC M (F := F)).run = Haxx.hgemmhd_if201 BETA BONE BZERO C J LDC M (F := F) := by
  simp only [Thr.hgemmhd_if201, Haxx.hgemmhd_if201, thr]

/-- As `Haxx.hgemmhd_210_I`, `src/hblas/fortran/hblas3/hgemmhd.f:222-230`, body of `DO 210 I`. -/
def hgemmhd_210_I (A : Int) (C : Int) (HTMP1J : Cplx F) (HTMP1S : Cplx F) (HTMP2J : Cplx F) (HTMP2S : Cplx F) (HTMP3J : Cplx F) (HTMP3S : Cplx F) (HTMP4J : Cplx F) (HTMP4S : Cplx F) (J : Int) (L : Int) (LDA : Int) (LDC : Int) (I : Int)  : Prog F (Unit) := do
  let t1 ← rdC (el3 2 2 LDC C 1 I J)
  let t2 ← rdC (el3 2 2 LDA A 1 I L)
  let t3 ← rdC (el3 2 2 LDA A 2 I L)
  let t4 ← rdC (el3 2 2 LDA A 1 I L)
  let t5 ← rdC (el3 2 2 LDA A 2 I L)
  wrC (el3 2 2 LDC C 1 I J) (t1 +ᶜ t2 *ᶜ HTMP1S -ᶜ t3 *ᶜ HTMP2J -ᶜ Cplx.conj t4 *ᶜ HTMP4J -ᶜ Cplx.conj t5 *ᶜ HTMP3S)
  let t6 ← rdC (el3 2 2 LDC C 2 I J)
  let t7 ← rdC (el3 2 2 LDA A 1 I L)
  let t8 ← rdC (el3 2 2 LDA A 2 I L)
  let t9 ← rdC (el3 2 2 LDA A 1 I L)
  let t10 ← rdC (el3 2 2 LDA A 2 I L)
  wrC (el3 2 2 LDC C 2 I J) (t6 +ᶜ t7 *ᶜ HTMP1J +ᶜ t8 *ᶜ HTMP2S +ᶜ Cplx.conj t9 *ᶜ HTMP4S -ᶜ Cplx.conj t10 *ᶜ HTMP3J)
  pure ()

@[thr] theorem run_hgemmhd_210_I (A : Int) (C : Int) (HTMP1J : Cplx F) (HTMP1S : Cplx F) (HTMP2J : Cplx F) (HTMP2S : Cplx F) (HTMP3J : Cplx F) (HTMP3S : Cplx F) (HTMP4J : Cplx F) (HTMP4S : Cplx F) (J : Int) (L : Int) (LDA : Int) (LDC : Int) (I : Int) :
    (Thr.hgemmhd_210_I A C HTMP1J HTMP1S HTMP2J HTMP2S HTMP3J HTMP3S HTMP4J HTMP4S J L LDA LDC I (F := F)).run = Haxx.hgemmhd_210_I A C HTMP1J HTMP1S HTMP2J HTMP2S HTMP3J HTMP3S HTMP4J HTMP4S J L LDA LDC I (F := F) := by
  simp only [Thr.hgemmhd_210_I, Haxx.hgemmhd_210_I, thr]

/-- As `Haxx.hgemmhd_200_L`, `src/hblas/fortran/hblas3/hgemmhd.f:213-231`, body of `DO 200 L`. -/
def hgemmhd_200_L (A : Int) (ALPHA : Quat F) (B : Int) (C : Int) (J : Int) (LDA : Int) (LDB : Int) (LDC : Int) (M : Int) (L : Int)  : Prog F (Unit) := do
  let t1 ← rdC (el3 2 2 LDB B 1 J L)
  let HTMP1S : Cplx F := Quat.lo ALPHA *ᶜ t1
  let t2 ← rdC (el3 2 2 LDB B 2 J L)
  let HTMP1J : Cplx F := Quat.lo ALPHA *ᶜ t2
  let t3 ← rdC (el3 2 2 LDB B 1 J L)
  let HTMP2S : Cplx F := Quat.lo ALPHA *ᶜ Cplx.conj t3
  let t4 ← rdC (el3 2 2 LDB B 2 J L)
  let HTMP2J : Cplx F := Quat.lo ALPHA *ᶜ Cplx.conj t4
  let t5 ← rdC (el3 2 2 LDB B 1 J L)
  let HTMP3S : Cplx F := Quat.hi ALPHA *ᶜ t5
  let t6 ← rdC (el3 2 2 LDB B 2 J L)
  let HTMP3J : Cplx F := Quat.hi ALPHA *ᶜ t6
  let t7 ← rdC (el3 2 2 LDB B 1 J L)
  let HTMP4S : Cplx F := Quat.hi ALPHA *ᶜ Cplx.conj t7
  let t8 ← rdC (el3 2 2 LDB B 2 J L)
  let HTMP4J : Cplx F := Quat.hi ALPHA *ᶜ Cplx.conj t8
  forN (M).toNat (fun i => hgemmhd_210_I A C HTMP1J HTMP1S HTMP2J HTMP2S HTMP3J HTMP3S HTMP4J HTMP4S J L LDA LDC ((i : Int) + 1))
  pure ()

@[thr] theorem run_hgemmhd_200_L (A : Int) (ALPHA : Quat F) (B : Int) (C : Int) (J : Int) (LDA : Int) (LDB : Int) (LDC : Int) (M : Int) (L : Int) :
    (Thr.hgemmhd_200_L A ALPHA B C J LDA LDB LDC M L (F := F)).run = Haxx.hgemmhd_200_L A ALPHA B C J LDA LDB LDC M L (F := F) := by
  simp only [Thr.hgemmhd_200_L, Haxx.hgemmhd_200_L, thr]

/-- As `Haxx.hgemmhd_170_J`, `src/hblas/fortran/hblas3/hgemmhd.f:200-232`, body of `DO 170 J`. -/
def hgemmhd_170_J (A : Int) (ALPHA : Quat F) (B : Int) (BETA : F) (BONE : Bool) (BZERO : Bool) (C : Int) (K : Int) (LDA : Int) (LDB : Int) (LDC : Int) (M : Int) (J : Int)  : Prog F (Unit) := do
  hgemmhd_if201 BETA BONE BZERO C J LDC M
  forN (K).toNat (fun i => hgemmhd_200_L A ALPHA B C J LDA LDB LDC M ((i : Int) + 1))
  pure ()

@[thr] theorem run_hgemmhd_170_J (A : Int) (ALPHA : Quat F) (B : Int) (BETA : F) (BONE : Bool) (BZERO : Bool) (C : Int) (K : Int) (LDA : Int) (LDB : Int) (LDC : Int) (M : Int) (J : Int) :
    (Thr.hgemmhd_170_J A ALPHA B BETA BONE BZERO C K LDA LDB LDC M J (F := F)).run = Haxx.hgemmhd_170_J A ALPHA B BETA BONE BZERO C K LDA LDB LDC M J (F := F) := by
  simp only [Thr.hgemmhd_170_J, Haxx.hgemmhd_170_J, thr]

/-- As `Haxx.hgemmhd_if158`, `src/hblas/fortran/hblas3/hgemmhd.f:158-233`. -/
def hgemmhd_if158 (A : Int) (ALPHA : Quat F) (B : Int) (BETA : F) (BONE : Bool) (BZERO : Bool) (C : Int) (CONJB : Bool) (K : Int) (LDA : Int) (LDB : Int) (LDC : Int) (M : Int) (N : Int) : Prog F (Unit) := do
  if CONJB then
    forN (N).toNat (fun i => hgemmhd_120_J A ALPHA B BETA BONE BZERO C K LDA LDB LDC M ((i : Int) + 1))
    pure ()
  else
    forN (N).toNat (fun i => hgemmhd_170_J A ALPHA B BETA BONE BZERO C K LDA LDB LDC M ((i : Int) + 1))
    pure ()

@[thr] theorem run_hgemmhd_if158 (A : Int) (ALPHA : Quat F) (B : Int) (BETA : F) (BONE : Bool) (BZERO : Bool) (C : Int) (CONJB : Bool) (K : Int) (LDA : Int) (LDB : Int) (LDC : Int) (M : Int) (N : Int) :
    (Thr.hgemmhd_if158 A ALPHA B BETA BONE BZERO C CONJB K LDA LDB LDC M N (F := F)).run = Haxx.hgemmhd_if158 A ALPHA B BETA BONE BZERO C CONJB K LDA LDB LDC M N (F := F) := by
  simp only [Thr.hgemmhd_if158, Haxx.hgemmhd_if158, thr]

/-- As `Haxx.hgemmhd_230_L`, `src/hblas/fortran/hblas3/hgemmhd.f:243-250`, body of `DO 230 L`. -/
def hgemmhd_230_L (A : Int) (B : Int) (I : Int) (J : Int) (LDA : Int) (LDB : Int) (L : Int) (HTMP1J : Cplx F) (HTMP1S : Cplx F) : Prog F (Cplx F × Cplx F) := do
  let t1 ← rdC (el3 2 2 LDA A 1 L I)
  let t2 ← rdC (el3 2 2 LDB B 1 J L)
  let t3 ← rdC (el3 2 2 LDA A 2 L I)
  let t4 ← rdC (el3 2 2 LDB B 2 J L)
  let HTMP1S : Cplx F := HTMP1S +ᶜ Cplx.conj t1 *ᶜ Cplx.conj t2 -ᶜ t3 *ᶜ Cplx.conj t4
  let t5 ← rdC (el3 2 2 LDA A 1 L I)
  let t6 ← rdC (el3 2 2 LDB B 2 J L)
  let t7 ← rdC (el3 2 2 LDA A 2 L I)
  let t8 ← rdC (el3 2 2 LDB B 1 J L)
  let HTMP1J : Cplx F := HTMP1J -ᶜ Cplx.conj t5 *ᶜ t6 -ᶜ t7 *ᶜ t8
  pure (HTMP1J, HTMP1S)

@[thr] theorem run_hgemmhd_230_L (A : Int) (B : Int) (I : Int) (J : Int) (LDA : Int) (LDB : Int) (L : Int) (HTMP1J : Cplx F) (HTMP1S : Cplx F) :
    (Thr.hgemmhd_230_L A B I J LDA LDB L HTMP1J HTMP1S (F := F)).run = Haxx.hgemmhd_230_L A B I J LDA LDB L HTMP1J HTMP1S (F := F) := by
  simp only [Thr.hgemmhd_230_L, Haxx.hgemmhd_230_L, thr]

/-- As `Haxx.hgemmhd_220_I`, `src/hblas/fortran/hblas3/hgemmhd.f:240-261`, body of `DO 220 I`. -/
def hgemmhd_220_I (A : Int) (ALPHA : Quat F) (B : Int) (BETA : F) (BZERO : Bool) (C : Int) (J : Int) (K : Int) (LDA : Int) (LDB : Int) (LDC : Int) (I : Int)  : Prog F (Unit) := do
  let HTMP1S : Cplx F := (⟨zero, zero⟩ : Cplx F)
  let HTMP1J : Cplx F := (⟨zero, zero⟩ : Cplx F)
  let r ← foldN (K).toNat (fun i (s : Cplx F × Cplx F) => hgemmhd_230_L A B I J LDA LDB ((i : Int) + 1) s.1 s.2) (HTMP1J, HTMP1S)
  let HTMP1J : Cplx F := r.1
  let HTMP1S : Cplx F := r.2
  let _ ← (do
    if BZERO then
      wrC (el3 2 2 LDC C 1 I J) (Quat.lo ALPHA *ᶜ HTMP1S -ᶜ Quat.hi ALPHA *ᶜ Cplx.conj HTMP1J)
      wrC (el3 2 2 LDC C 2 I J) (Quat.lo ALPHA *ᶜ HTMP1J +ᶜ Quat.hi ALPHA *ᶜ Cplx.conj HTMP1S)
      pure ()
    else
      let t1 ← rdC (el3 2 2 LDC C 1 I J)
      wrC (el3 2 2 LDC C 1 I J) (Quat.lo ALPHA *ᶜ HTMP1S -ᶜ Quat.hi ALPHA *ᶜ Cplx.conj HTMP1J +ᶜ Cplx.ofReal BETA *ᶜ t1)
      let t2 ← rdC (el3 2 2 LDC C 2 I J)
      wrC (el3 2 2 LDC C 2 I J) (Quat.lo ALPHA *ᶜ HTMP1J +ᶜ Quat.hi ALPHA *ᶜ Cplx.conj HTMP1S +ᶜ Cplx.ofReal BETA *ᶜ t2)
      pure () : Prog F Unit)
  pure ()

@[thr] theorem run_hgemmhd_220_I (A : Int) (ALPHA : Quat F) (B : Int) (BETA : F) (BZERO : Bool) (C : Int) (J : Int) (K : Int) (LDA : Int) (LDB : Int) (LDC : Int) (I : Int) :
    (Thr.hgemmhd_220_I A ALPHA B BETA BZERO C J K LDA LDB LDC I (F := F)).run = Haxx.hgemmhd_220_I A ALPHA B BETA BZERO C J K LDA LDB LDC I (F := F) := by
  simp only [Thr.hgemmhd_220_I, Haxx.hgemmhd_220_I, thr]

/-- As `Haxx.hgemmhd_220_J`, `src/hblas/fortran/hblas3/hgemmhd.f:239-261`, body of `DO 220 J`. -/
def hgemmhd_220_J (A : Int) (ALPHA : Quat F) (B : Int) (BETA : F) (BZERO : Bool) (C : Int) (K : Int) (LDA : Int) (LDB : Int) (LDC : Int) (M : Int) (J : Int)  : Prog F (Unit) := do
  forN (M).toNat (fun i => hgemmhd_220_I A ALPHA B BETA BZERO C J K LDA LDB LDC ((i : Int) + 1))
  pure ()

@[thr] theorem run_hgemmhd_220_J (A : Int) (ALPHA : Quat F) (B : Int) (BETA : F) (BZERO : Bool) (C : Int) (K : Int) (LDA : Int) (LDB : Int) (LDC : Int) (M : Int) (J : Int) :
    (Thr.hgemmhd_220_J A ALPHA B BETA BZERO C K LDA LDB LDC M J (F := F)).run = Haxx.hgemmhd_220_J A ALPHA B BETA BZERO C K LDA LDB LDC M J (F := F) := by
  simp only [Thr.hgemmhd_220_J, Haxx.hgemmhd_220_J, thr]

/-- As `Haxx.hgemmhd_250_L`, `src/hblas/fortran/hblas3/hgemmhd.f:271-277`, body of `DO 250 L`. -/
def hgemmhd_250_L (A : Int) (B : Int) (I : Int) (J : Int) (LDA : Int) (LDB : Int) (L : Int) (HTMP1J : Cplx F) (HTMP1S : Cplx F) : Prog F (Cplx F × Cplx F) := do
  let t1 ← rdC (el3 2 2 LDA A 1 L I)
  let t2 ← rdC (el3 2 2 LDB B 1 J L)
  let t3 ← rdC (el3 2 2 LDA A 2 L I)
  let t4 ← rdC (el3 2 2 LDB B 2 J L)
  let HTMP1S : Cplx F := HTMP1S +ᶜ Cplx.conj t1 *ᶜ t2 +ᶜ t3 *ᶜ Cplx.conj t4
  let t5 ← rdC (el3 2 2 LDA A 1 L I)
  let t6 ← rdC (el3 2 2 LDB B 2 J L)
  let t7 ← rdC (el3 2 2 LDA A 2 L I)
  let t8 ← rdC (el3 2 2 LDB B 1 J L)
  let HTMP1J : Cplx F := HTMP1J +ᶜ Cplx.conj t5 *ᶜ t6 -ᶜ t7 *ᶜ Cplx.conj t8
  pure (HTMP1J, HTMP1S)

@[thr] theorem run_hgemmhd_250_L (A : Int) (B : Int) (I : Int) (J : Int) (LDA : Int) (LDB : Int) (L : Int) (HTMP1J : Cplx F) (HTMP1S : Cplx F) :
    (Thr.hgemmhd_250_L A B I J LDA LDB L HTMP1J HTMP1S (F := F)).run = Haxx.hgemmhd_250_L A B I J LDA LDB L HTMP1J HTMP1S (F := F) := by
  simp only [Thr.hgemmhd_250_L, Haxx.hgemmhd_250_L, thr]

/-- As `Haxx.hgemmhd_240_I`, `src/hblas/fortran/hblas3/hgemmhd.f:268-288`, body of `DO 240 I`. -/
def hgemmhd_240_I (A : Int) (ALPHA : Quat F) (B : Int) (BETA : F) (BZERO : Bool) (C : Int) (J : Int) (K : Int) (LDA : Int) (LDB : Int) (LDC : Int) (I : Int)  : Prog F (Unit) := do
  let HTMP1S : Cplx F := (⟨zero, zero⟩ : Cplx F)
  let HTMP1J : Cplx F := (⟨zero, zero⟩ : Cplx F)
  let r ← foldN (K).toNat (fun i (s : Cplx F × Cplx F) => hgemmhd_250_L A B I J LDA LDB ((i : Int) + 1) s.1 s.2) (HTMP1J, HTMP1S)
  let HTMP1J : Cplx F := r.1
  let HTMP1S : Cplx F := r.2
  let _ ← (do
    if BZERO then
      wrC (el3 2 2 LDC C 1 I J) (Quat.lo ALPHA *ᶜ HTMP1S -ᶜ Quat.hi ALPHA *ᶜ Cplx.conj HTMP1J)
      wrC (el3 2 2 LDC C 2 I J) (Quat.lo ALPHA *ᶜ HTMP1J +ᶜ Quat.hi ALPHA *ᶜ Cplx.conj HTMP1S)
      pure ()
    else
      let t1 ← rdC (el3 2 2 LDC C 1 I J)
      wrC (el3 2 2 LDC C 1 I J) (Quat.lo ALPHA *ᶜ HTMP1S -ᶜ Quat.hi ALPHA *ᶜ Cplx.conj HTMP1J +ᶜ Cplx.ofReal BETA *ᶜ t1)
      let t2 ← rdC (el3 2 2 LDC C 2 I J)
      wrC (el3 2 2 LDC C 2 I J) (Quat.lo ALPHA *ᶜ HTMP1J +ᶜ Quat.hi ALPHA *ᶜ Cplx.conj HTMP1S +ᶜ Cplx.ofReal BETA *ᶜ t2)
      pure () : Prog F Unit)
  pure ()

@[thr] theorem run_hgemmhd_240_I (A : Int) (ALPHA : Quat F) (B : Int) (BETA : F) (BZERO : Bool) (C : Int) (J : Int) (K : Int) (LDA : Int) (LDB : Int) (LDC : Int) (I : Int) :
    (Thr.hgemmhd_240_I A ALPHA B BETA BZERO C J K LDA LDB LDC I (F := F)).run = Haxx.hgemmhd_240_I A ALPHA B BETA BZERO C J K LDA LDB LDC I (F := F) := by
  simp only [Thr.hgemmhd_240_I, Haxx.hgemmhd_240_I, thr]

/-- As `Haxx.hgemmhd_240_J`, `src/hblas/fortran/hblas3/hgemmhd.f:267-288`, body of `DO 240 J`. -/
def hgemmhd_240_J (A : Int) (ALPHA : Quat F) (B : Int) (BETA : F) (BZERO : Bool) (C : Int) (K : Int) (LDA : Int) (LDB : Int) (LDC : Int) (M : Int) (J : Int)  : Prog F (Unit) := do
  forN (M).toNat (fun i => hgemmhd_240_I A ALPHA B BETA BZERO C J K LDA LDB LDC ((i : Int) + 1))
  pure ()

@[thr] theorem run_hgemmhd_240_J (A : Int) (ALPHA : Quat F) (B : Int) (BETA : F) (BZERO : Bool) (C : Int) (K : Int) (LDA : Int) (LDB : Int) (LDC : Int) (M : Int) (J : Int) :
    (Thr.hgemmhd_240_J A ALPHA B BETA BZERO C K LDA LDB LDC M J (F := F)).run = Haxx.hgemmhd_240_J A ALPHA B BETA BZERO C K LDA LDB LDC M J (F := F) := by
  simp only [Thr.hgemmhd_240_J, Haxx.hgemmhd_240_J, thr]

/-- As `Haxx.hgemmhd_if235`, `src/hblas/fortran/hblas3/hgemmhd.f:235-289`. -/
def hgemmhd_if235 (A : Int) (ALPHA : Quat F) (B : Int) (BETA : F) (BZERO : Bool) (C : Int) (CONJB : Bool) (K : Int) (LDA : Int) (LDB : Int) (LDC : Int) (M : Int) (N : Int) : Prog F (Unit) := do
  if CONJB then
    forN (N).toNat (fun i => hgemmhd_220_J A ALPHA B BETA BZERO C K LDA LDB LDC M ((i : Int) + 1))
    pure ()
  else
    forN (N).toNat (fun i => hgemmhd_240_J A ALPHA B BETA BZERO C K LDA LDB LDC M ((i : Int) + 1))
    pure ()

@[thr] theorem run_hgemmhd_if235 (A : Int) (ALPHA : Quat F) (B : Int) (BETA : F) (BZERO : Bool) (C : Int) (CONJB : Bool) (K : Int) (LDA : Int) (LDB : Int) (LDC : Int) (M : Int) (N : Int) :
    (Thr.hgemmhd_if235 A ALPHA B BETA BZERO C CONJB K LDA LDB LDC M N (F := F)).run = Haxx.hgemmhd_if235 A ALPHA B BETA BZERO C CONJB K LDA LDB LDC M N (F := F) := by
  simp only [Thr.hgemmhd_if235, Haxx.hgemmhd_if235, thr]

/-- As `Haxx.hgemmhd_270_L`, `src/hblas/fortran/hblas3/hgemmhd.f:300-306`, body of `DO 270 L`. -/
def hgemmhd_270_L (A : Int) (B : Int) (I : Int) (J : Int) (LDA : Int) (LDB : Int) (L : Int) (HTMP1J : Cplx F) (HTMP1S : Cplx F) : Prog F (Cplx F × Cplx F) := do
  let t1 ← rdC (el3 2 2 LDA A 1 L I)
  let t2 ← rdC (el3 2 2 LDB B 1 J L)
  let t3 ← rdC (el3 2 2 LDA A 2 L I)
  let t4 ← rdC (el3 2 2 LDB B 2 J L)
  let HTMP1S : Cplx F := HTMP1S +ᶜ t1 *ᶜ Cplx.conj t2 +ᶜ t3 *ᶜ Cplx.conj t4
  let t5 ← rdC (el3 2 2 LDA A 1 L I)
  let t6 ← rdC (el3 2 2 LDB B 2 J L)
  let t7 ← rdC (el3 2 2 LDA A 2 L I)
  let t8 ← rdC (el3 2 2 LDB B 1 J L)
  let HTMP1J : Cplx F := HTMP1J -ᶜ t5 *ᶜ t6 +ᶜ t7 *ᶜ t8
  pure (HTMP1J, HTMP1S)

@[thr] theorem run_hgemmhd_270_L (A : Int) (B : Int) (I : Int) (J : Int) (LDA : Int) (LDB : Int) (L : Int) (HTMP1J : Cplx F) (HTMP1S : Cplx F) :
    (Thr.hgemmhd_270_L A B I J LDA LDB L HTMP1J HTMP1S (F := F)).run = Haxx.hgemmhd_270_L A B I J LDA LDB L HTMP1J HTMP1S (F := F) := by
  simp only [Thr.hgemmhd_270_L, Haxx.hgemmhd_270_L, thr]

/-- As `Haxx.hgemmhd_260_I`, `src/hblas/fortran/hblas3/hgemmhd.f:297-317`, body of `DO 260 I`. -/
def hgemmhd_260_I (A : Int) (ALPHA : Quat F) (B : Int) (BETA : F) (BZERO : Bool) (C : Int) (J : Int) (K : Int) (LDA : Int) (LDB : Int) (LDC : Int) (I : Int)  : Prog F (Unit) := do
  let HTMP1S : Cplx F := (⟨zero, zero⟩ : Cplx F)
  let HTMP1J : Cplx F := (⟨zero, zero⟩ : Cplx F)
  let r ← foldN (K).toNat (fun i (s : Cplx F × Cplx F) => hgemmhd_270_L A B I J LDA LDB ((i : Int) + 1) s.1 s.2) (HTMP1J, HTMP1S)
  let HTMP1J : Cplx F := r.1
  let HTMP1S : Cplx F := r.2
  let _ ← (do
    if BZERO then
      wrC (el3 2 2 LDC C 1 I J) (Quat.lo ALPHA *ᶜ HTMP1S -ᶜ Quat.hi ALPHA *ᶜ Cplx.conj HTMP1J)
      wrC (el3 2 2 LDC C 2 I J) (Quat.lo ALPHA *ᶜ HTMP1J +ᶜ Quat.hi ALPHA *ᶜ Cplx.conj HTMP1S)
      pure ()
    else
      let t1 ← rdC (el3 2 2 LDC C 1 I J)
      wrC (el3 2 2 LDC C 1 I J) (Quat.lo ALPHA *ᶜ HTMP1S -ᶜ Quat.hi ALPHA *ᶜ Cplx.conj HTMP1J +ᶜ Cplx.ofReal BETA *ᶜ t1)
      let t2 ← rdC (el3 2 2 LDC C 2 I J)
      wrC (el3 2 2 LDC C 2 I J) (Quat.lo ALPHA *ᶜ HTMP1J +ᶜ Quat.hi ALPHA *ᶜ Cplx.conj HTMP1S +ᶜ Cplx.ofReal BETA *ᶜ t2)
      pure () : Prog F Unit)
  pure ()

@[thr] theorem run_hgemmhd_260_I (A : Int) (ALPHA : Quat F) (B : Int) (BETA : F) (BZERO : Bool) (C : Int) (J : Int) (K : Int) (LDA : Int) (LDB : Int) (LDC : Int) (I : Int) :
    (Thr.hgemmhd_260_I A ALPHA B BETA BZERO C J K LDA LDB LDC I (F := F)).run = Haxx.hgemmhd_260_I A ALPHA B BETA BZERO C J K LDA LDB LDC I (F := F) := by
  simp only [Thr.hgemmhd_260_I, Haxx.hgemmhd_260_I, thr]

/-- As `Haxx.hgemmhd_260_J`, `src/hblas/fortran/hblas3/hgemmhd.f:296-317`, body of `DO 260 J`. -/
def hgemmhd_260_J (A : Int) (ALPHA : Quat F) (B : Int) (BETA : F) (BZERO : Bool) (C : Int) (K : Int) (LDA : Int) (LDB : Int) (LDC : Int) (M : Int) (J : Int)  : Prog F (Unit) := do
  forN (M).toNat (fun i => hgemmhd_260_I A ALPHA B BETA BZERO C J K LDA LDB LDC ((i : Int) + 1))
  pure ()

@[thr] theorem run_hgemmhd_260_J (A : Int) (ALPHA : Quat F) (B : Int) (BETA : F) (BZERO : Bool) (C : Int) (K : Int) (LDA : Int) (LDB : Int) (LDC : Int) (M : Int) (J : Int) :
    (Thr.hgemmhd_260_J A ALPHA B BETA BZERO C K LDA LDB LDC M J (F := F)).run = Haxx.hgemmhd_260_J A ALPHA B BETA BZERO C K LDA LDB LDC M J (F := F) := by
  simp only [Thr.hgemmhd_260_J, Haxx.hgemmhd_260_J, thr]

/-- As `Haxx.hgemmhd_290_L`, `src/hblas/fortran/hblas3/hgemmhd.f:326-332`, body of `DO 290 L`. -/
def hgemmhd_290_L (A : Int) (B : Int) (I : Int) (J : Int) (LDA : Int) (LDB : Int) (L : Int) (HTMP1J : Cplx F) (HTMP1S : Cplx F) : Prog F (Cplx F × Cplx F) := do
  let t1 ← rdC (el3 2 2 LDA A 1 L I)
  let t2 ← rdC (el3 2 2 LDB B 1 J L)
  let t3 ← rdC (el3 2 2 LDA A 2 L I)
  let t4 ← rdC (el3 2 2 LDB B 2 J L)
  let HTMP1S : Cplx F := HTMP1S +ᶜ t1 *ᶜ t2 -ᶜ t3 *ᶜ Cplx.conj t4
  let t5 ← rdC (el3 2 2 LDA A 1 L I)
  let t6 ← rdC (el3 2 2 LDB B 2 J L)
  let t7 ← rdC (el3 2 2 LDA A 2 L I)
  let t8 ← rdC (el3 2 2 LDB B 1 J L)
  let HTMP1J : Cplx F := HTMP1J +ᶜ t5 *ᶜ t6 +ᶜ t7 *ᶜ Cplx.conj t8
  pure (HTMP1J, HTMP1S)

@[thr] theorem run_hgemmhd_290_L (A : Int) (B : Int) (I : Int) (J : Int) (LDA : Int) (LDB : Int) (L : Int) (HTMP1J : Cplx F) (HTMP1S : Cplx F) :
    (Thr.hgemmhd_290_L A B I J LDA LDB L HTMP1J HTMP1S (F := F)).run = Haxx.hgemmhd_290_L A B I J LDA LDB L HTMP1J HTMP1S (F := F) := by
  simp only [Thr.hgemmhd_290_L, Haxx.hgemmhd_290_L, thr]

/-- As `Haxx.hgemmhd_280_I`, `src/hblas/fortran/hblas3/hgemmhd.f:323-343`, body of `DO 280 I`. -/
def hgemmhd_280_I (A : Int) (ALPHA : Quat F) (B : Int) (BETA : F) (BZERO : Bool) (C : Int) (J : Int) (K : Int) (LDA : Int) (LDB : Int) (LDC : Int) (I : Int)  : Prog F (Unit) := do
  let HTMP1S : Cplx F := (⟨zero, zero⟩ : Cplx F)
  let HTMP1J : Cplx F := (⟨zero, zero⟩ : Cplx F)
  let r ← foldN (K).toNat (fun i (s : Cplx F × Cplx F) => hgemmhd_290_L A B I J LDA LDB ((i : Int) + 1) s.1 s.2) (HTMP1J, HTMP1S)
  let HTMP1J : Cplx F := r.1
  let HTMP1S : Cplx F := r.2
  let _ ← (do
    if BZERO then
      wrC (el3 2 2 LDC C 1 I J) (Quat.lo ALPHA *ᶜ HTMP1S -ᶜ Quat.hi ALPHA *ᶜ Cplx.conj HTMP1J)
      wrC (el3 2 2 LDC C 2 I J) (Quat.lo ALPHA *ᶜ HTMP1J +ᶜ Quat.hi ALPHA *ᶜ Cplx.conj HTMP1S)
      pure ()
    else
      let t1 ← rdC (el3 2 2 LDC C 1 I J)
      wrC (el3 2 2 LDC C 1 I J) (Quat.lo ALPHA *ᶜ HTMP1S -ᶜ Quat.hi ALPHA *ᶜ Cplx.conj HTMP1J +ᶜ Cplx.ofReal BETA *ᶜ t1)
      let t2 ← rdC (el3 2 2 LDC C 2 I J)
      wrC (el3 2 2 LDC C 2 I J) (Quat.lo ALPHA *ᶜ HTMP1J +ᶜ Quat.hi ALPHA *ᶜ Cplx.conj HTMP1S +ᶜ Cplx.ofReal BETA *ᶜ t2)
      pure () : Prog F Unit)
  pure ()

@[thr] theorem run_hgemmhd_280_I (A : Int) (ALPHA : Quat F) (B : Int) (BETA : F) (BZERO : Bool) (C : Int) (J : Int) (K : Int) (LDA : Int) (LDB : Int) (LDC : Int) (I : Int) :
    (Thr.hgemmhd_280_I A ALPHA B BETA BZERO C J K LDA LDB LDC I (F := F)).run = Haxx.hgemmhd_280_I A ALPHA B BETA BZERO C J K LDA LDB LDC I (F := F) := by
  simp only [Thr.hgemmhd_280_I, Haxx.hgemmhd_280_I, thr]

/-- As `Haxx.hgemmhd_280_J`, `src/hblas/fortran/hblas3/hgemmhd.f:322-343`, body of `DO 280 J`. -/
def hgemmhd_280_J (A : Int) (ALPHA : Quat F) (B : Int) (BETA : F) (BZERO : Bool) (C : Int) (K : Int) (LDA : Int) (LDB : Int) (LDC : Int) (M : Int) (J : Int)  : Prog F (Unit) := do
  forN (M).toNat (fun i => hgemmhd_280_I A ALPHA B BETA BZERO C J K LDA LDB LDC ((i : Int) + 1))
  pure ()

@[thr] theorem run_hgemmhd_280_J (A : Int) (ALPHA : Quat F) (B : Int) (BETA : F) (BZERO : Bool) (C : Int) (K : Int) (LDA : Int) (LDB : Int) (LDC : Int) (M : Int) (J : Int) :
    (Thr.hgemmhd_280_J A ALPHA B BETA BZERO C K LDA LDB LDC M J (F := F)).run = Haxx.hgemmhd_280_J A ALPHA B BETA BZERO C K LDA LDB LDC M J (F := F) := by
  simp only [Thr.hgemmhd_280_J, Haxx.hgemmhd_280_J, thr]

/-- As `Haxx.hgemmhd_if292`, `src/hblas/fortran/hblas3/hgemmhd.f:292-344`. -/
def hgemmhd_if292 (A : Int) (ALPHA : Quat F) (B : Int) (BETA : F) (BZERO : Bool) (C : Int) (CONJB : Bool) (K : Int) (LDA : Int) (LDB : Int) (LDC : Int) (M : Int) (N : Int) : Prog F (Unit) := do
  if CONJB then
    forN (N).toNat (fun i => hgemmhd_260_J A ALPHA B BETA BZERO C K LDA LDB LDC M ((i : Int) + 1))
    pure ()
  else
    forN (N).toNat (fun i => hgemmhd_280_J A ALPHA B BETA BZERO C K LDA LDB LDC M ((i : Int) + 1))
    pure ()

@[thr] theorem run_hgemmhd_if292 (A : Int) (ALPHA : Quat F) (B : Int) (BETA : F) (BZERO : Bool) (C : Int) (CONJB : Bool) (K : Int) (LDA : Int) (LDB : Int) (LDC : Int) (M : Int) (N : Int) :
    (Thr.hgemmhd_if292 A ALPHA B BETA BZERO C CONJB K LDA LDB LDC M N (F := F)).run = Haxx.hgemmhd_if292 A ALPHA B BETA BZERO C CONJB K LDA LDB LDC M N (F := F) := by
  simp only [Thr.hgemmhd_if292, Haxx.hgemmhd_if292, thr]

/-- As `Haxx.hgemmhd_if65`, `src/hblas/fortran/hblas3/hgemmhd.f:65-345`. -/
def hgemmhd_if65 (A : Int) (ALPHA : Quat F) (B : Int) (BETA : F) (BONE : Bool) (BZERO : Bool) (C : Int) (CONJA : Bool) (CONJB : Bool) (K : Int) (LDA : Int) (LDB : Int) (LDC : Int) (M : Int) (N : Int) (NOTA : Bool) (NOTB : Bool) : Prog F (Unit) := do
  if NOTB then
    hgemmhd_if66 A ALPHA B BETA BONE BZERO C CONJA K LDA LDB LDC M N NOTA
    pure ()
  else if NOTA then
    hgemmhd_if158 A ALPHA B BETA BONE BZERO C CONJB K LDA LDB LDC M N
    pure ()
  else if CONJA then
    hgemmhd_if235 A ALPHA B BETA BZERO C CONJB K LDA LDB LDC M N
    pure ()
  else
    hgemmhd_if292 A ALPHA B BETA BZERO C CONJB K LDA LDB LDC M N
    pure ()

@[thr] theorem run_hgemmhd_if65 (A : Int) (ALPHA : Quat F) (B : Int) (BETA : F) (BONE : Bool) (BZERO : Bool) (C : Int) (CONJA : Bool) (CONJB : Bool) (K : Int) (LDA : Int) (LDB : Int) (LDC : Int) (M : Int) (N : Int) (NOTA : Bool) (NOTB : Bool) :
    (Thr.hgemmhd_if65 A ALPHA B BETA BONE BZERO C CONJA CONJB K LDA LDB LDC M N NOTA NOTB (F := F)).run = Haxx.hgemmhd_if65 A ALPHA B BETA BONE BZERO C CONJA CONJB K LDA LDB LDC M N NOTA NOTB (F := F) := by
  simp only [Thr.hgemmhd_if65, Haxx.hgemmhd_if65, thr]

/-- As `Haxx.hgemmhd`, `src/hblas/fortran/hblas3/hgemmhd.f:9-346`. -/
def hgemmhd (TRANSA : Char) (TRANSB : Char) (M : Int) (N : Int) (K : Int) (ALPHA : Quat F) (A : Int) (LDA : Int) (B : Int) (LDB : Int) (BETA : F) (C : Int) (LDC : Int) : Prog F (Unit) := do
  let NOTA : Bool := lsame TRANSA 'N'
  let NOTB : Bool := lsame TRANSB 'N'
  let CONJA : Bool := lsame TRANSA 'C'
  let CONJB : Bool := lsame TRANSB 'C'
  let AZERO : Bool := (Cplx.feq (Quat.lo ALPHA) (⟨zero, zero⟩ : Cplx F)) && (Cplx.feq (Quat.hi ALPHA) (⟨zero, zero⟩ : Cplx F))
  -- AONE (line 35) is never read
  let BZERO : Bool := Cplx.feq (Cplx.ofReal BETA) (⟨zero, zero⟩ : Cplx F)
  let BONE : Bool := Cplx.feq (Cplx.ofReal BETA) (⟨one, zero⟩ : Cplx F)
  if (decide (M = 0)) || (decide (N = 0)) then
    pure ()
  else
    if (AZERO || (decide (K = 0))) && BONE then
      pure ()
    else
      if AZERO then
        hgemmhd_if49 BETA BZERO C LDC M N
        pure ()
      else
        hgemmhd_if65 A ALPHA B BETA BONE BZERO C CONJA CONJB K LDA LDB LDC M N NOTA NOTB
        pure ()

@[thr] theorem run_hgemmhd (TRANSA : Char) (TRANSB : Char) (M : Int) (N : Int) (K : Int) (ALPHA : Quat F) (A : Int) (LDA : Int) (B : Int) (LDB : Int) (BETA : F) (C : Int) (LDC : Int) :
    (Thr.hgemmhd TRANSA TRANSB M N K ALPHA A LDA B LDB BETA C LDC (F := F)).run = Haxx.hgemmhd TRANSA TRANSB M N K ALPHA A LDA B LDB BETA C LDC (F := F) := by
  simp only [Thr.hgemmhd, Haxx.hgemmhd, thr]

-- end of FGemmhd

variable {F : Type} [Arith F] [ArithEq F]
/-- As `Haxx.hgemmhz_10_I`, `src/hblas/fortran/hblas3/hgemmhz.f:50-53`, body of `DO 10 I`. -/
def hgemmhz_10_I (C : Int) (J : Int) (LDC : Int) (I : Int)  : Prog F (Unit) := do
  wrC (el3 2 2 LDC C 1 I J) (⟨zero, zero⟩ : Cplx F)
  wrC (el3 2 2 LDC C 2 I J) (⟨zero, zero⟩ : Cplx F)
  pure ()

@[thr] theorem run_hgemmhz_10_I (C : Int) (J : Int) (LDC : Int) (I : Int) :
    (Thr.hgemmhz_10_I C J LDC I (F := F)).run = Haxx.hgemmhz_10_I C J LDC I (F := F) := by
  simp only [Thr.hgemmhz_10_I, Haxx.hgemmhz_10_I, thr]

/-- As `Haxx.hgemmhz_10_J`, `src/hblas/fortran/hblas3/hgemmhz.f:49-53`, body of `DO 10 J`. -/
def hgemmhz_10_J (C : Int) (LDC : Int) (M : Int) (J : Int)  : Prog F (Unit) := do
  forN (M).toNat (fun i => hgemmhz_10_I C J LDC ((i : Int) + 1))
  pure ()

@[thr] theorem run_hgemmhz_10_J (C : Int) (LDC : Int) (M : Int) (J : Int) :
    (Thr.hgemmhz_10_J C LDC M J (F := F)).run = Haxx.hgemmhz_10_J C LDC M J (F := F) := by
  simp only [Thr.hgemmhz_10_J, Haxx.hgemmhz_10_J, thr]

/-- As `Haxx.hgemmhz_20_I`, `src/hblas/fortran/hblas3/hgemmhz.f:56-59`, body of `DO 20 I`. -/
def hgemmhz_20_I (BETA : Cplx F) (C : Int) (J : Int) (LDC : Int) (I : Int)  : Prog F (Unit) := do
  let t1 ← rdC (el3 2 2 LDC C 1 I J)
  wrC (el3 2 2 LDC C 1 I J) (BETA *ᶜ t1)
  let t2 ← rdC (el3 2 2 LDC C 2 I J)
  wrC (el3 2 2 LDC C 2 I J) (BETA *ᶜ t2)
  pure ()

@[thr] theorem run_hgemmhz_20_I (BETA : Cplx F) (C : Int) (J : Int) (LDC : Int) (I : Int) :
    (Thr.hgemmhz_20_I BETA C J LDC I (F := F)).run = Haxx.hgemmhz_20_I BETA C J LDC I (F := F) := by
  simp only [Thr.hgemmhz_20_I, Haxx.hgemmhz_20_I, thr]

/-- As `Haxx.hgemmhz_20_J`, `src/hblas/fortran/hblas3/hgemmhz.f:55-59`, body of `DO 20 J`. -/
def hgemmhz_20_J (BETA : Cplx F) (C : Int) (LDC : Int) (M : Int) (J : Int)  : Prog F (Unit) := do
  forN (M).toNat (fun i => hgemmhz_20_I BETA C J LDC ((i : Int) + 1))
  pure ()

@[thr] theorem run_hgemmhz_20_J (BETA : Cplx F) (C : Int) (LDC : Int) (M : Int) (J : Int) :
    (Thr.hgemmhz_20_J BETA C LDC M J (F := F)).run = Haxx.hgemmhz_20_J BETA C LDC M J (F := F) := by
  simp only [Thr.hgemmhz_20_J, Haxx.hgemmhz_20_J, thr]

/-- As `Haxx.hgemmhz_if48`, `src/hblas/fortran/hblas3/hgemmhz.f:48-60`. -/
def hgemmhz_if48 (BETA : Cplx F) (BZERO : Bool) (C : Int) (LDC : Int) (M : Int) (N : Int) : Prog F (Unit) := do
  if BZERO then
    forN (N).toNat (fun i => hgemmhz_10_J C LDC M ((i : Int) + 1))
    pure ()
  else
    forN (N).toNat (fun i => hgemmhz_20_J BETA C LDC M ((i : Int) + 1))
    pure ()

@[thr] theorem run_hgemmhz_if48 (BETA : Cplx F) (BZERO : Bool) (C : Int) (LDC : Int) (M : Int) (N : Int) :
    (Thr.hgemmhz_if48 BETA BZERO C LDC M N (F := F)).run = Haxx.hgemmhz_if48 BETA BZERO C LDC M N (F := F) := by
  simp only [Thr.hgemmhz_if48, Haxx.hgemmhz_if48, thr]

/-- As `Haxx.hgemmhz_40_I`, `src/hblas/fortran/hblas3/hgemmhz.f:71-74`, body of `DO 40 I`. -/
def hgemmhz_40_I (C : Int) (J : Int) (LDC : Int) (I : Int)  : Prog F (Unit) := do
  wrC (el3 2 2 LDC C 1 I J) (⟨zero, zero⟩ : Cplx F)
  wrC (el3 2 2 LDC C 2 I J) (⟨zero, zero⟩ : Cplx F)
  pure ()

@[thr] theorem run_hgemmhz_40_I (C : Int) (J : Int) (LDC : Int) (I : Int) :
    (Thr.hgemmhz_40_I C J LDC I (F := F)).run = Haxx.hgemmhz_40_I C J LDC I (F := F) := by
  simp only [Thr.hgemmhz_40_I, Haxx.hgemmhz_40_I, thr]

/-- As `Haxx.hgemmhz_50_I`, `src/hblas/fortran/hblas3/hgemmhz.f:76-79`, body of `DO 50 I`. -/
def hgemmhz_50_I (BETA : Cplx F) (C : Int) (J : Int) (LDC : Int) (I : Int)  : Prog F (Unit) := do
  let t1 ← rdC (el3 2 2 LDC C 1 I J)
  wrC (el3 2 2 LDC C 1 I J) (BETA *ᶜ t1)
  let t2 ← rdC (el3 2 2 LDC C 2 I J)
  wrC (el3 2 2 LDC C 2 I J) (BETA *ᶜ t2)
  pure ()

@[thr] theorem run_hgemmhz_50_I (BETA : Cplx F) (C : Int) (J : Int) (LDC : Int) (I : Int) :
    (Thr.hgemmhz_50_I BETA C J LDC I (F := F)).run = Haxx.hgemmhz_50_I BETA C J LDC I (F := F) := by
  simp only [Thr.hgemmhz_50_I, Haxx.hgemmhz_50_I, thr]

/-- As `Haxx.hgemmhz_if70`, `src/hblas/fortran/hblas3/hgemmhz.f:70-80`. -/
def hgemmhz_if70 (BETA : Cplx F) (BONE : Bool) (BZERO : Bool) (C : Int) (J : Int) (LDC : Int) (M : Int) : Prog F (Unit) := do
  if BZERO then
    forN (M).toNat (fun i => hgemmhz_40_I C J LDC ((i : Int) + 1))
    pure ()
  else if !BONE then
    forN (M).toNat (fun i => hgemmhz_50_I BETA C J LDC ((i : Int) + 1))
    pure ()
  else
    pure ()

@[thr] theorem run_hgemmhz_if70 (BETA : Cplx F) (BONE : Bool) (BZERO : Bool) (C : Int) (J : Int) (LDC : Int) (M : Int) :
    (Thr.hgemmhz_if70 BETA BONE BZERO C J LDC M (F := F)).run = Haxx.hgemmhz_if70 BETA BONE BZERO C J LDC M (F := F) := by
  simp only [Thr.hgemmhz_if70, Haxx.hgemmhz_if70, thr]

/-- As `Haxx.hgemmhz_70_I`, `src/hblas/fortran/hblas3/hgemmhz.f:91-99`, body of `DO 70 I`. -/
def hgemmhz_70_I (A : Int) (C : Int) (HTMP1J : Cplx F) (HTMP1S : Cplx F) (HTMP2J : Cplx F) (HTMP2S : Cplx F) (HTMP3J : Cplx F) (HTMP3S : Cplx F) (HTMP4J : Cplx F) (HTMP4S : Cplx F) (J : Int) (L : Int) (LDA : Int) (LDC : Int) (I : Int)  : Prog F (Unit) := do
  let t1 ← rdC (el3 2 2 LDC C 1 I J)
  let t2 ← rdC (el3 2 2 LDA A 1 I L)
  let t3 ← rdC (el3 2 2 LDA A 2 I L)
  let t4 ← rdC (el3 2 2 LDA A 1 I L)
  let t5 ← rdC (el3 2 2 LDA A 2 I L)
  wrC (el3 2 2 LDC C 1 I J) (t1 +ᶜ t2 *ᶜ HTMP1S -ᶜ t3 *ᶜ HTMP2J -ᶜ Cplx.conj t4 *ᶜ HTMP4J -ᶜ Cplx.conj t5 *ᶜ HTMP3S)
  let t6 ← rdC (el3 2 2 LDC C 2 I J)
  let t7 ← rdC (el3 2 2 LDA A 1 I L)
  let t8 ← rdC (el3 2 2 LDA A 2 I L)
  let t9 ← rdC (el3 2 2 LDA A 1 I L)
  let t10 ← rdC (el3 2 2 LDA A 2 I L)
  wrC (el3 2 2 LDC C 2 I J) (t6 +ᶜ t7 *ᶜ HTMP1J +ᶜ t8 *ᶜ HTMP2S +ᶜ Cplx.conj t9 *ᶜ HTMP4S -ᶜ Cplx.conj t10 *ᶜ HTMP3J)
  pure ()

@[thr] theorem run_hgemmhz_70_I (A : Int) (C : Int) (HTMP1J : Cplx F) (HTMP1S : Cplx F) (HTMP2J : Cplx F) (HTMP2S : Cplx F) (HTMP3J : Cplx F) (HTMP3S : Cplx F) (HTMP4J : Cplx F) (HTMP4S : Cplx F) (J : Int) (L : Int) (LDA : Int) (LDC : Int) (I : Int) :
    (Thr.hgemmhz_70_I A C HTMP1J HTMP1S HTMP2J HTMP2S HTMP3J HTMP3S HTMP4J HTMP4S J L LDA LDC I (F := F)).run = Haxx.hgemmhz_70_I A C HTMP1J HTMP1S HTMP2J HTMP2S HTMP3J HTMP3S HTMP4J HTMP4S J L LDA LDC I (F := F) := by
  simp only [Thr.hgemmhz_70_I, Haxx.hgemmhz_70_I, thr]

/-- As `Haxx.hgemmhz_60_L`, `src/hblas/fortran/hblas3/hgemmhz.f:82-100`, body of `DO 60 L`. -/
def hgemmhz_60_L (A : Int) (ALPHA : Quat F) (B : Int) (C : Int) (J : Int) (LDA : Int) (LDB : Int) (LDC : Int) (M : Int) (L : Int)  : Prog F (Unit) := do
  let t1 ← rdC (el3 2 2 LDB B 1 L J)
  let HTMP1S : Cplx F := Quat.lo ALPHA *ᶜ t1
  let t2 ← rdC (el3 2 2 LDB B 2 L J)
  let HTMP1J : Cplx F := Quat.lo ALPHA *ᶜ t2
  let t3 ← rdC (el3 2 2 LDB B 1 L J)
  let HTMP2S : Cplx F := Quat.lo ALPHA *ᶜ Cplx.conj t3
  let t4 ← rdC (el3 2 2 LDB B 2 L J)
  let HTMP2J : Cplx F := Quat.lo ALPHA *ᶜ Cplx.conj t4
  let t5 ← rdC (el3 2 2 LDB B 1 L J)
  let HTMP3S : Cplx F := Quat.hi ALPHA *ᶜ t5
  let t6 ← rdC (el3 2 2 LDB B 2 L J)
  let HTMP3J : Cplx F := Quat.hi ALPHA *ᶜ t6
  let t7 ← rdC (el3 2 2 LDB B 1 L J)
  let HTMP4S : Cplx F := Quat.hi ALPHA *ᶜ Cplx.conj t7
  let t8 ← rdC (el3 2 2 LDB B 2 L J)
  let HTMP4J : Cplx F := Quat.hi ALPHA *ᶜ Cplx.conj t8
  forN (M).toNat (fun i => hgemmhz_70_I A C HTMP1J HTMP1S HTMP2J HTMP2S HTMP3J HTMP3S HTMP4J HTMP4S J L LDA LDC ((i : Int) + 1))
  pure ()

@[thr] theorem run_hgemmhz_60_L (A : Int) (ALPHA : Quat F) (B : Int) (C : Int) (J : Int) (LDA : Int) (LDB : Int) (LDC : Int) (M : Int) (L : Int) :
    (Thr.hgemmhz_60_L A ALPHA B C J LDA LDB LDC M L (F := F)).run = Haxx.hgemmhz_60_L A ALPHA B C J LDA LDB LDC M L (F := F) := by
  simp only [Thr.hgemmhz_60_L, Haxx.hgemmhz_60_L, thr]

/-- As `Haxx.hgemmhz_30_J`, `src/hblas/fortran/hblas3/hgemmhz.f:69-101`, body of `DO 30 J`. -/
def hgemmhz_30_J (A : Int) (ALPHA : Quat F) (B : Int) (BETA : Cplx F) (BONE : Bool) (BZERO : Bool) (C : Int) (K : Int) (LDA : Int) (LDB : Int) (LDC : Int) (M : Int) (J : Int)  : Prog F (Unit) := do
  hgemmhz_if70 BETA BONE BZERO C J LDC M
  forN (K).toNat (fun i => hgemmhz_60_L A ALPHA B C J LDA LDB LDC M ((i : Int) + 1))
  pure ()

@[thr] theorem run_hgemmhz_30_J (A : Int) (ALPHA : Quat F) (B : Int) (BETA : Cplx F) (BONE : Bool) (BZERO : Bool) (C : Int) (K : Int) (LDA : Int) (LDB : Int) (LDC : Int) (M : Int) (J : Int) :
    (Thr.hgemmhz_30_J A ALPHA B BETA BONE BZERO C K LDA LDB LDC M J (F := F)).run = Haxx.hgemmhz_30_J A ALPHA B BETA BONE BZERO C K LDA LDB LDC M J (F := F) := by
  simp only [Thr.hgemmhz_30_J, Haxx.hgemmhz_30_J, thr]

/-- As `Haxx.hgemmhz_90_L`, `src/hblas/fortran/hblas3/hgemmhz.f:110-116`, body of `DO 90 L`. -/
def hgemmhz_90_L (A : Int) (B : Int) (I : Int) (J : Int) (LDA : Int) (LDB : Int) (L : Int) (HTMP1J : Cplx F) (HTMP1S : Cplx F) : Prog F (Cplx F × Cplx F) := do
  let t1 ← rdC (el3 2 2 LDA A 1 L I)
  let t2 ← rdC (el3 2 2 LDB B 1 L J)
  let t3 ← rdC (el3 2 2 LDA A 2 L I)
  let t4 ← rdC (el3 2 2 LDB B 2 L J)
  let HTMP1S : Cplx F := HTMP1S +ᶜ Cplx.conj t1 *ᶜ t2 +ᶜ t3 *ᶜ Cplx.conj t4
  let t5 ← rdC (el3 2 2 LDA A 1 L I)
  let t6 ← rdC (el3 2 2 LDB B 2 L J)
  let t7 ← rdC (el3 2 2 LDA A 2 L I)
  let t8 ← rdC (el3 2 2 LDB B 1 L J)
  let HTMP1J : Cplx F := HTMP1J +ᶜ Cplx.conj t5 *ᶜ t6 -ᶜ t7 *ᶜ Cplx.conj t8
  pure (HTMP1J, HTMP1S)

@[thr] theorem run_hgemmhz_90_L (A : Int) (B : Int) (I : Int) (J : Int) (LDA : Int) (LDB : Int) (L : Int) (HTMP1J : Cplx F) (HTMP1S : Cplx F) :
    (Thr.hgemmhz_90_L A B I J LDA LDB L HTMP1J HTMP1S (F := F)).run = Haxx.hgemmhz_90_L A B I J LDA LDB L HTMP1J HTMP1S (F := F) := by
  simp only [Thr.hgemmhz_90_L, Haxx.hgemmhz_90_L, thr]

/-- As `Haxx.hgemmhz_80_I`, `src/hblas/fortran/hblas3/hgemmhz.f:107-127`, body of `DO 80 I`. -/
def hgemmhz_80_I (A : Int) (ALPHA : Quat F) (B : Int) (BETA : Cplx F) (BZERO : Bool) (C : Int) (J : Int) (K : Int) (LDA : Int) (LDB : Int) (LDC : Int) (I : Int)  : Prog F (Unit) := do
  let HTMP1S : Cplx F := (⟨zero, zero⟩ : Cplx F)
  let HTMP1J : Cplx F := (⟨zero, zero⟩ : Cplx F)
  let r ← foldN (K).toNat (fun i (s : Cplx F × Cplx F) => hgemmhz_90_L A B I J LDA LDB ((i : Int) + 1) s.1 s.2) (HTMP1J, HTMP1S)
  let HTMP1J : Cplx F := r.1
  let HTMP1S : Cplx F := r.2
  let _ ← (do
    if BZERO then
      wrC (el3 2 2 LDC C 1 I J) (Quat.lo ALPHA *ᶜ HTMP1S -ᶜ Quat.hi ALPHA *ᶜ Cplx.conj HTMP1J)
      wrC (el3 2 2 LDC C 2 I J) (Quat.lo ALPHA *ᶜ HTMP1J +ᶜ Quat.hi ALPHA *ᶜ Cplx.conj HTMP1S)
      pure ()
    else
      let t1 ← rdC (el3 2 2 LDC C 1 I J)
      wrC (el3 2 2 LDC C 1 I J) (Quat.lo ALPHA *ᶜ HTMP1S -ᶜ Quat.hi ALPHA *ᶜ Cplx.conj HTMP1J +ᶜ BETA *ᶜ t1)
      let t2 ← rdC (el3 2 2 LDC C 2 I J)
      wrC (el3 2 2 LDC C 2 I J) (Quat.lo ALPHA *ᶜ HTMP1J +ᶜ Quat.hi ALPHA *ᶜ Cplx.conj HTMP1S +ᶜ BETA *ᶜ t2)
      pure () : Prog F Unit)
  pure ()

@[thr] theorem run_hgemmhz_80_I (A : Int) (ALPHA : Quat F) (B : Int) (BETA : Cplx F) (BZERO : Bool) (C : Int) (J : Int) (K : Int) (LDA : Int) (LDB : Int) (LDC : Int) (I : Int) :
    (Thr.hgemmhz_80_I A ALPHA B BETA BZERO C J K LDA LDB LDC I (F := F)).run = Haxx.hgemmhz_80_I A ALPHA B BETA BZERO C J K LDA LDB LDC I (F := F) := by
  simp only [Thr.hgemmhz_80_I, Haxx.hgemmhz_80_I, thr]

/-- As `Haxx.hgemmhz_80_J`, `src/hblas/fortran/hblas3/hgemmhz.f:106-127`, body of `DO 80 J`. -/
def hgemmhz_80_J (A : Int) (ALPHA : Quat F) (B : Int) (BETA : Cplx F) (BZERO : Bool) (C : Int) (K : Int) (LDA : Int) (LDB : Int) (LDC : Int) (M : Int) (J : Int)  : Prog F (Unit) := do
  forN (M).toNat (fun i => hgemmhz_80_I A ALPHA B BETA BZERO C J K LDA LDB LDC ((i : Int) + 1))
  pure ()

@[thr] theorem run_hgemmhz_80_J (A : Int) (ALPHA : Quat F) (B : Int) (BETA : Cplx F) (BZERO : Bool) (C : Int) (K : Int) (LDA : Int) (LDB : Int) (LDC : Int) (M : Int) (J : Int) :
    (Thr.hgemmhz_80_J A ALPHA B BETA BZERO C K LDA LDB LDC M J (F := F)).run = Haxx.hgemmhz_80_J A ALPHA B BETA BZERO C K LDA LDB LDC M J (F := F) := by
  simp only [Thr.hgemmhz_80_J, Haxx.hgemmhz_80_J, thr]

/-- As `Haxx.hgemmhz_110_L`, `src/hblas/fortran/hblas3/hgemmhz.f:137-143`, body of `DO 110 L`. -/
def hgemmhz_110_L (A : Int) (B : Int) (I : Int) (J : Int) (LDA : Int) (LDB : Int) (L : Int) (HTMP1J : Cplx F) (HTMP1S : Cplx F) : Prog F (Cplx F × Cplx F) := do
  let t1 ← rdC (el3 2 2 LDA A 1 L I)
  let t2 ← rdC (el3 2 2 LDB B 1 L J)
  let t3 ← rdC (el3 2 2 LDA A 2 L I)
  let t4 ← rdC (el3 2 2 LDB B 2 L J)
  let HTMP1S : Cplx F := HTMP1S +ᶜ t1 *ᶜ t2 -ᶜ t3 *ᶜ Cplx.conj t4
  let t5 ← rdC (el3 2 2 LDA A 1 L I)
  let t6 ← rdC (el3 2 2 LDB B 2 L J)
  let t7 ← rdC (el3 2 2 LDA A 2 L I)
  let t8 ← rdC (el3 2 2 LDB B 1 L J)
  let HTMP1J : Cplx F := HTMP1J +ᶜ t5 *ᶜ t6 +ᶜ t7 *ᶜ Cplx.conj t8
  pure (HTMP1J, HTMP1S)

@[thr] theorem run_hgemmhz_110_L (A : Int) (B : Int) (I : Int) (J : Int) (LDA : Int) (LDB : Int) (L : Int) (HTMP1J : Cplx F) (HTMP1S : Cplx F) :
    (Thr.hgemmhz_110_L A B I J LDA LDB L HTMP1J HTMP1S (F := F)).run = Haxx.hgemmhz_110_L A B I J LDA LDB L HTMP1J HTMP1S (F := F) := by
  simp only [Thr.hgemmhz_110_L, Haxx.hgemmhz_110_L, thr]

/-- As `Haxx.hgemmhz_100_I`, `src/hblas/fortran/hblas3/hgemmhz.f:134-154`, body of `DO 100 I`. -/
def hgemmhz_100_I (A : Int) (ALPHA : Quat F) (B : Int) (BETA : Cplx F) (BZERO : Bool) (C : Int) (J : Int) (K : Int) (LDA : Int) (LDB : Int) (LDC : Int) (I : Int)  : Prog F (Unit) := do
  let HTMP1S : Cplx F := (⟨zero, zero⟩ : Cplx F)
  let HTMP1J : Cplx F := (⟨zero, zero⟩ : Cplx F)
  let r ← foldN (K).toNat (fun i (s : Cplx F × Cplx F) => hgemmhz_110_L A B I J LDA LDB ((i : Int) + 1) s.1 s.2) (HTMP1J, HTMP1S)
  let HTMP1J : Cplx F := r.1
  let HTMP1S : Cplx F := r.2
  let _ ← (do
    if BZERO then
      wrC (el3 2 2 LDC C 1 I J) (Quat.lo ALPHA *ᶜ HTMP1S -ᶜ Quat.hi ALPHA *ᶜ Cplx.conj HTMP1J)
      wrC (el3 2 2 LDC C 2 I J) (Quat.lo ALPHA *ᶜ HTMP1J +ᶜ Quat.hi ALPHA *ᶜ Cplx.conj HTMP1S)
      pure ()
    else
      let t1 ← rdC (el3 2 2 LDC C 1 I J)
      wrC (el3 2 2 LDC C 1 I J) (Quat.lo ALPHA *ᶜ HTMP1S -ᶜ Quat.hi ALPHA *ᶜ Cplx.conj HTMP1J +ᶜ BETA *ᶜ t1)
      let t2 ← rdC (el3 2 2 LDC C 2 I J)
      wrC (el3 2 2 LDC C 2 I J) (Quat.lo ALPHA *ᶜ HTMP1J +ᶜ Quat.hi ALPHA *ᶜ Cplx.conj HTMP1S +ᶜ BETA *ᶜ t2)
      pure () : Prog F Unit)
  pure ()

@[thr] theorem run_hgemmhz_100_I (A : Int) (ALPHA : Quat F) (B : Int) (BETA : Cplx F) (BZERO : Bool) (C : Int) (J : Int) (K : Int) (LDA : Int) (LDB : Int) (LDC : Int) (I : Int) :
    (Thr.hgemmhz_100_I A ALPHA B BETA BZERO C J K LDA LDB LDC I (F := F)).run = Haxx.hgemmhz_100_I A ALPHA B BETA BZERO C J K LDA LDB LDC I (F := F) := by
  simp only [Thr.hgemmhz_100_I, Haxx.hgemmhz_100_I, thr]

/-- As `Haxx.hgemmhz_100_J`, `src/hblas/fortran/hblas3/hgemmhz.f:133-154`, body of `DO 100 J`. -/
def hgemmhz_100_J (A : Int) (ALPHA : Quat F) (B : Int) (BETA : Cplx F) (BZERO : Bool) (C : Int) (K : Int) (LDA : Int) (LDB : Int) (LDC : Int) (M : Int) (J : Int)  : Prog F (Unit) := do
  forN (M).toNat (fun i => hgemmhz_100_I A ALPHA B BETA BZERO C J K LDA LDB LDC ((i : Int) + 1))
  pure ()

@[thr] theorem run_hgemmhz_100_J (A : Int) (ALPHA : Quat F) (B : Int) (BETA : Cplx F) (BZERO : Bool) (C : Int) (K : Int) (LDA : Int) (LDB : Int) (LDC : Int) (M : Int) (J : Int) :
    (Thr.hgemmhz_100_J A ALPHA B BETA BZERO C K LDA LDB LDC M J (F := F)).run = Haxx.hgemmhz_100_J A ALPHA B BETA BZERO C K LDA LDB LDC M J (F := F) := by
  simp only [Thr.hgemmhz_100_J, Haxx.hgemmhz_100_J, thr]

/-- As `Haxx.hgemmhz_if65`, `src/hblas/fortran/hblas3/hgemmhz.f:65-155`. -/
def hgemmhz_if65 (A : Int) (ALPHA : Quat F) (B : Int) (BETA : Cplx F) (BONE : Bool) (BZERO : Bool) (C : Int) (CONJA : Bool) (K : Int) (LDA : Int) (LDB : Int) (LDC : Int) (M : Int) (N : Int) (NOTA : Bool) : Prog F (Unit) := do
  if NOTA then
    forN (N).toNat (fun i => hgemmhz_30_J A ALPHA B BETA BONE BZERO C K LDA LDB LDC M ((i : Int) + 1))
    pure ()
  else if CONJA then
    forN (N).toNat (fun i => hgemmhz_80_J A ALPHA B BETA BZERO C K LDA LDB LDC M ((i : Int) + 1))
    pure ()
  else
    forN (N).toNat (fun i => hgemmhz_100_J A ALPHA B BETA BZERO C K LDA LDB LDC M ((i : Int) + 1))
    pure ()

@[thr] theorem run_hgemmhz_if65 (A : Int) (ALPHA : Quat F) (B : Int) (BETA : Cplx F) (BONE : Bool) (BZERO : Bool) (C : Int) (CONJA : Bool) (K : Int) (LDA : Int) (LDB : Int) (LDC : Int) (M : Int) (N : Int) (NOTA : Bool) :
    (Thr.hgemmhz_if65 A ALPHA B BETA BONE BZERO C CONJA K LDA LDB LDC M N NOTA (F := F)).run = Haxx.hgemmhz_if65 A ALPHA B BETA BONE BZERO C CONJA K LDA LDB LDC M N NOTA (F := F) := by
  simp only [Thr.hgemmhz_if65, Haxx.hgemmhz_if65, thr]

/-- As `Haxx.hgemmhz_130_I`, `src/hblas/fortran/hblas3/hgemmhz.f:163-166`, body of `DO 130 I`. -/
def hgemmhz_130_I (C : Int) (J : Int) (LDC : Int) (I : Int)  : Prog F (Unit) := do
  wrC (el3 2 2 LDC C 1 I J) (⟨zero, zero⟩ : Cplx F)
  wrC (el3 2 2 LDC C 2 I J) (⟨zero, zero⟩ : Cplx F)
  pure ()

@[thr] theorem run_hgemmhz_130_I (C : Int) (J : Int) (LDC : Int) (I : Int) :
    (Thr.hgemmhz_130_I C J LDC I (F := F)).run = Haxx.hgemmhz_130_I C J LDC I (F := F) := by
  simp only [Thr.hgemmhz_130_I, Haxx.hgemmhz_130_I, thr]

/-- As `Haxx.hgemmhz_140_I`, `src/hblas/fortran/hblas3/hgemmhz.f:168-171`, body of `DO 140 I`. -/
def hgemmhz_140_I (BETA : Cplx F) (C : Int) (J : Int) (LDC : Int) (I : Int)  : Prog F (Unit) := do
  let t1 ← rdC (el3 2 2 LDC C 1 I J)
  wrC (el3 2 2 LDC C 1 I J) (BETA *ᶜ t1)
  let t2 ← rdC (el3 2 2 LDC C 2 I J)
  wrC (el3 2 2 LDC C 2 I J) (BETA *ᶜ t2)
  pure ()

@[thr] theorem run_hgemmhz_140_I (BETA : Cplx F) (C : Int) (J : Int) (LDC : Int) (I : Int) :
    (Thr.hgemmhz_140_I BETA C J LDC I (F := F)).run = Haxx.hgemmhz_140_I BETA C J LDC I (F := F) := by
  simp only [Thr.hgemmhz_140_I, Haxx.hgemmhz_140_I, thr]

/-- As `Haxx.hgemmhz_if162`, `src/hblas/fortran/hblas3/hgemmhz.f:162-172`. -/
def hgemmhz_if162 (BETA : Cplx F) (BONE : Bool) (BZERO : Bool) (C : Int) (J : Int) (LDC : Int) (M : Int) : Prog F (Unit) := do
  if BZERO then
    forN (M).toNat (fun i => hgemmhz_130_I C J LDC ((i : Int) + 1))
    pure ()
  else if !BONE then
    forN (M).toNat (fun i => hgemmhz_140_I BETA C J LDC ((i : Int) + 1))
    pure ()
  else
    pure ()

@[thr] theorem run_hgemmhz_if162 (BETA : Cplx F) (BONE : Bool) (BZERO : Bool) (C : Int) (J : Int) (LDC : Int) (M : Int) :
    (Thr.hgemmhz_if162 BETA BONE BZERO C J LDC M (F := F)).run = Haxx.hgemmhz_if162 BETA BONE BZERO C J LDC M (F := F) := by
  simp only [Thr.hgemmhz_if162, Haxx.hgemmhz_if162, thr]

/-- As `Haxx.hgemmhz_160_I`, `src/hblas/fortran/hblas3/hgemmhz.f:183-191`, body of `DO 160 I`. -/
def hgemmhz_160_I (A : Int) (C : Int) (HTMP1J : Cplx F) (HTMP1S : Cplx F) (HTMP2J : Cplx F) (HTMP2S : Cplx F) (HTMP3J : Cplx F) (HTMP3S : Cplx F) (HTMP4J : Cplx F) (HTMP4S : Cplx F) (J : Int) (L : Int) (LDA : Int) (LDC : Int) (I : Int)  : Prog F (Unit) := do
  let t1 ← rdC (el3 2 2 LDC C 1 I J)
  let t2 ← rdC (el3 2 2 LDA A 1 I L)
  let t3 ← rdC (el3 2 2 LDA A 2 I L)
  let t4 ← rdC (el3 2 2 LDA A 1 I L)
  let t5 ← rdC (el3 2 2 LDA A 2 I L)
  wrC (el3 2 2 LDC C 1 I J) (t1 +ᶜ t2 *ᶜ HTMP2S -ᶜ t3 *ᶜ HTMP2J -ᶜ Cplx.conj t4 *ᶜ HTMP4J -ᶜ Cplx.conj t5 *ᶜ HTMP4S)
  let t6 ← rdC (el3 2 2 LDC C 2 I J)
  let t7 ← rdC (el3 2 2 LDA A 1 I L)
  let t8 ← rdC (el3 2 2 LDA A 2 I L)
  let t9 ← rdC (el3 2 2 LDA A 1 I L)
  let t10 ← rdC (el3 2 2 LDA A 2 I L)
  wrC (el3 2 2 LDC C 2 I J) (t6 +ᶜ t7 *ᶜ HTMP1J +ᶜ t8 *ᶜ HTMP1S +ᶜ Cplx.conj t9 *ᶜ HTMP3S -ᶜ Cplx.conj t10 *ᶜ HTMP3J)
  pure ()

@[thr] theorem run_hgemmhz_160_I (A : Int) (C : Int) (HTMP1J : Cplx F) (HTMP1S : Cplx F) (HTMP2J : Cplx F) (HTMP2S : Cplx F) (HTMP3J : Cplx F) (HTMP3S : Cplx F) (HTMP4J : Cplx F) (HTMP4S : Cplx F) (J : Int) (L : Int) (LDA : Int) (LDC : Int) (I : Int) :
    (Thr.hgemmhz_160_I A C HTMP1J HTMP1S HTMP2J HTMP2S HTMP3J HTMP3S HTMP4J HTMP4S J L LDA LDC I (F := F)).run = Haxx.hgemmhz_160_I A C HTMP1J HTMP1S HTMP2J HTMP2S HTMP3J HTMP3S HTMP4J HTMP4S J L LDA LDC I (F := F) := by
  simp only [Thr.hgemmhz_160_I, Haxx.hgemmhz_160_I, thr]

/-- As `Haxx.hgemmhz_150_L`, `src/hblas/fortran/hblas3/hgemmhz.f:174-192`, body of `DO 150 L`. -/
def hgemmhz_150_L (A : Int) (ALPHA : Quat F) (B : Int) (C : Int) (J : Int) (LDA : Int) (LDB : Int) (LDC : Int) (M : Int) (L : Int)  : Prog F (Unit) := do
  let t1 ← rdC (el3 2 2 LDB B 1 J L)
  let HTMP1S : Cplx F := Quat.lo ALPHA *ᶜ t1
  let t2 ← rdC (el3 2 2 LDB B 2 J L)
  let HTMP1J : Cplx F := Cplx.neg (Quat.lo ALPHA *ᶜ t2)
  let t3 ← rdC (el3 2 2 LDB B 1 J L)
  let HTMP2S : Cplx F := Quat.lo ALPHA *ᶜ Cplx.conj t3
  let t4 ← rdC (el3 2 2 LDB B 2 J L)
  let HTMP2J : Cplx F := Cplx.neg (Quat.lo ALPHA *ᶜ Cplx.conj t4)
  let t5 ← rdC (el3 2 2 LDB B 1 J L)
  let HTMP3S : Cplx F := Quat.hi ALPHA *ᶜ t5
  let t6 ← rdC (el3 2 2 LDB B 2 J L)
  let HTMP3J : Cplx F := Cplx.neg (Quat.hi ALPHA *ᶜ t6)
  let t7 ← rdC (el3 2 2 LDB B 1 J L)
  let HTMP4S : Cplx F := Quat.hi ALPHA *ᶜ Cplx.conj t7
  let t8 ← rdC (el3 2 2 LDB B 2 J L)
  let HTMP4J : Cplx F := Cplx.neg (Quat.hi ALPHA *ᶜ Cplx.conj t8)
  forN (M).toNat (fun i => hgemmhz_160_I A C HTMP1J HTMP1S HTMP2J HTMP2S HTMP3J HTMP3S HTMP4J HTMP4S J L LDA LDC ((i : Int) + 1))
  pure ()

@[thr] theorem run_hgemmhz_150_L (A : Int) (ALPHA : Quat F) (B : Int) (C : Int) (J : Int) (LDA : Int) (LDB : Int) (LDC : Int) (M : Int) (L : Int) :
    (Thr.hgemmhz_150_L A ALPHA B C J LDA LDB LDC M L (F := F)).run = Haxx.hgemmhz_150_L A ALPHA B C J LDA LDB LDC M L (F := F) := by
  simp only [Thr.hgemmhz_150_L, Haxx.hgemmhz_150_L, thr]

/-- As `Haxx.hgemmhz_120_J`, `src/hblas/fortran/hblas3/hgemmhz.f:161-193`, body of `DO 120 J`. -/
def hgemmhz_120_J (A : Int) (ALPHA : Quat F) (B : Int) (BETA : Cplx F) (BONE : Bool) (BZERO : Bool) (C : Int) (K : Int) (LDA : Int) (LDB : Int) (LDC : Int) (M : Int) (J : Int)  : Prog F (Unit) := do
  hgemmhz_if162 BETA BONE BZERO C J LDC M
  forN (K).toNat (fun i => hgemmhz_150_L A ALPHA B C J LDA LDB LDC M ((i : Int) + 1))
  pure ()

@[thr] theorem run_hgemmhz_120_J (A : Int) (ALPHA : Quat F) (B : Int) (BETA : Cplx F) (BONE : Bool) (BZERO : Bool) (C : Int) (K : Int) (LDA : Int) (LDB : Int) (LDC : Int) (M : Int) (J : Int) :
    (Thr.hgemmhz_120_J A ALPHA B BETA BONE BZERO C K LDA LDB LDC M J (F := F)).run = Haxx.hgemmhz_120_J A ALPHA B BETA BONE BZERO C K LDA LDB LDC M J (F := F) := by
  simp only [Thr.hgemmhz_120_J, Haxx.hgemmhz_120_J, thr]

/-- As `Haxx.hgemmhz_180_I`, `src/hblas/fortran/hblas3/hgemmhz.f:201-204`, body of `DO 180 I`. -/
def hgemmhz_180_I (C : Int) (J : Int) (LDC : Int) (I : Int)  : Prog F (Unit) := do
  wrC (el3 2 2 LDC C 1 I J) (⟨zero, zero⟩ : Cplx F)
  wrC (el3 2 2 LDC C 2 I J) (⟨zero, zero⟩ : Cplx F)
  pure ()

@[thr] theorem run_hgemmhz_180_I (C : Int) (J : Int) (LDC : Int) (I : Int) :
    (Thr.hgemmhz_180_I C J LDC I (F := F)).run = Haxx.hgemmhz_180_I C J LDC I (F := F) := by
  simp only [Thr.hgemmhz_180_I, Haxx.hgemmhz_180_I, thr]

/-- As `Haxx.hgemmhz_190_I`, `src/hblas/fortran/hblas3/hgemmhz.f:206-209`, body of `DO 190 I`. -/
def hgemmhz_190_I (BETA : Cplx F) (C : Int) (J : Int) (LDC : Int) (I : Int)  : Prog F (Unit) := do
  let t1 ← rdC (el3 2 2 LDC C 1 I J)
  wrC (el3 2 2 LDC C 1 I J) (BETA *ᶜ t1)
  let t2 ← rdC (el3 2 2 LDC C 2 I J)
  wrC (el3 2 2 LDC C 2 I J) (BETA *ᶜ t2)
  pure ()

@[thr] theorem run_hgemmhz_190_I (BETA : Cplx F) (C : Int) (J : Int) (LDC : Int) (I : Int) :
    (Thr.hgemmhz_190_I BETA C J LDC I (F := F)).run = Haxx.hgemmhz_190_I BETA C J LDC I (F := F) := by
  simp only [Thr.hgemmhz_190_I, Haxx.hgemmhz_190_I, thr]

/-- As `Haxx.hgemmhz_if200`, `src/hblas/fortran/hblas3/hgemmhz.f:200-210`. -/
def hgemmhz_if200 (BETA : Cplx F) (BONE : Bool) (BZERO : Bool) (C : Int) (J : Int) (LDC : Int) (M : Int) : Prog F (Unit) := do
  if BZERO then
    forN (M).toNat (fun i => hgemmhz_180_I C J LDC ((i : Int) + 1))
    pure ()
  else if !BONE then
    forN (M).toNat (fun i => hgemmhz_190_I BETA C J LDC ((i : Int) + 1))
    pure ()
  else
    pure ()

@[thr] theorem run_hgemmhz_if200 (BETA : Cplx F) (BONE : Bool) (BZERO : Bool) (C : Int) (J : Int) (LDC : Int) (M : Int) :
    (Thr.hgemmhz_if200 BETA BONE BZERO C J LDC M (F := F)).run = Haxx.hgemmhz_if200 BETA BONE BZERO C J LDC M (F := F) := by
  simp only [Thr.hgemmhz_if200, Haxx.hgemmhz_if200, thr]

/-- As `Haxx.hgemmhz_210_I`, `src/hblas/fortran/hblas3/hgemmhz.f:221-229`, body of `DO 210 I`. -/
def hgemmhz_210_I (A : Int) (C : Int) (HTMP1J : Cplx F) (HTMP1S : Cplx F) (HTMP2J : Cplx F) (HTMP2S : Cplx F) (HTMP3J : Cplx F) (HTMP3S : Cplx F) (HTMP4J : Cplx F) (HTMP4S : Cplx F) (J : Int) (L : Int) (LDA : Int) (LDC : Int) (I : Int)  : Prog F (Unit) := do
  let t1 ← rdC (el3 2 2 LDC C 1 I J)
  let t2 ← rdC (el3 2 2 LDA A 1 I L)
  let t3 ← rdC (el3 2 2 LDA A 2 I L)
  let t4 ← rdC (el3 2 2 LDA A 1 I L)
  let t5 ← rdC (el3 2 2 LDA A 2 I L)
  wrC (el3 2 2 LDC C 1 I J) (t1 +ᶜ t2 *ᶜ HTMP1S -ᶜ t3 *ᶜ HTMP2J -ᶜ Cplx.conj t4 *ᶜ HTMP4J -ᶜ Cplx.conj t5 *ᶜ HTMP3S)
  let t6 ← rdC (el3 2 2 LDC C 2 I J)
  let t7 ← rdC (el3 2 2 LDA A 1 I L)
  let t8 ← rdC (el3 2 2 LDA A 2 I L)
  let t9 ← rdC (el3 2 2 LDA A 1 I L)
  let t10 ← rdC (el3 2 2 LDA A 2 I L)
  wrC (el3 2 2 LDC C 2 I J) (t6 +ᶜ t7 *ᶜ HTMP1J +ᶜ t8 *ᶜ HTMP2S +ᶜ Cplx.conj t9 *ᶜ HTMP4S -ᶜ Cplx.conj t10 *ᶜ HTMP3J)
  pure ()

@[thr] theorem run_hgemmhz_210_I (A : Int) (C : Int) (HTMP1J : Cplx F) (HTMP1S : Cplx F) (HTMP2J : Cplx F) (HTMP2S : Cplx F) (HTMP3J : Cplx F) (HTMP3S : Cplx F) (HTMP4J : Cplx F) (HTMP4S : Cplx F) (J : Int) (L : Int) (LDA : Int) (LDC : Int) (I : Int) :
    (Thr.hgemmhz_210_I A C HTMP1J HTMP1S HTMP2J HTMP2S HTMP3J HTMP3S HTMP4J HTMP4S J L LDA LDC I (F := F)).run = Haxx.hgemmhz_210_I A C HTMP1J HTMP1S HTMP2J HTMP2S HTMP3J HTMP3S HTMP4J HTMP4S J L LDA LDC I (F := F) := by
  simp only [Thr.hgemmhz_210_I, Haxx.hgemmhz_210_I, thr]

/-- As `Haxx.hgemmhz_200_L`, `src/hblas/fortran/hblas3/hgemmhz.f:212-230`, body of `DO 200 L`. -/
def hgemmhz_200_L (A : Int) (ALPHA : Quat F) (B : Int) (C : Int) (J : Int) (LDA : Int) (LDB : Int) (LDC : Int) (M : Int) (L : Int)  : Prog F (Unit) := do
  let t1 ← rdC (el3 2 2 LDB B 1 J L)
  let HTMP1S : Cplx F := Quat.lo ALPHA *ᶜ t1
  let t2 ← rdC (el3 2 2 LDB B 2 J L)
  let HTMP1J : Cplx F := Quat.lo ALPHA *ᶜ t2
  let t3 ← rdC (el3 2 2 LDB B 1 J L)
  let HTMP2S : Cplx F := Quat.lo ALPHA *ᶜ Cplx.conj t3
  let t4 ← rdC (el3 2 2 LDB B 2 J L)
  let HTMP2J : Cplx F := Quat.lo ALPHA *ᶜ Cplx.conj t4
  let t5 ← rdC (el3 2 2 LDB B 1 J L)
  let HTMP3S : Cplx F := Quat.hi ALPHA *ᶜ t5
  let t6 ← rdC (el3 2 2 LDB B 2 J L)
  let HTMP3J : Cplx F := Quat.hi ALPHA *ᶜ t6
  let t7 ← rdC (el3 2 2 LDB B 1 J L)
  let HTMP4S : Cplx F := Quat.hi ALPHA *ᶜ Cplx.conj t7
  let t8 ← rdC (el3 2 2 LDB B 2 J L)
  let HTMP4J : Cplx F := Quat.hi ALPHA *ᶜ Cplx.conj t8
  forN (M).toNat (fun i => hgemmhz_210_I A C HTMP1J HTMP1S HTMP2J HTMP2S HTMP3J HTMP3S HTMP4J HTMP4S J L LDA LDC ((i : Int) + 1))
  pure ()

@[thr] theorem run_hgemmhz_200_L (A : Int) (ALPHA : Quat F) (B : Int) (C : Int) (J : Int) (LDA : Int) (LDB : Int) (LDC : Int) (M : Int) (L : Int) :
    (Thr.hgemmhz_200_L A ALPHA B C J LDA LDB LDC M L (F := F)).run = Haxx.hgemmhz_200_L A ALPHA B C J LDA LDB LDC M L (F := F) := by
  simp only [Thr.hgemmhz_200_L, Haxx.hgemmhz_200_L, thr]

/-- As `Haxx.hgemmhz_170_J`, `src/hblas/fortran/hblas3/hgemmhz.f:199-231`, body of `DO 170 J`. -/
def hgemmhz_170_J (A : Int) (ALPHA : Quat F) (B : Int) (BETA : Cplx F) (BONE : Bool) (BZERO : Bool) (C : Int) (K : Int) (LDA : Int) (LDB : Int) (LDC : Int) (M : Int) (J : Int)  : Prog F (Unit) := do
  hgemmhz_if200 BETA BONE BZERO C J LDC M
  forN (K).toNat (fun i => hgemmhz_200_L A ALPHA B C J LDA LDB LDC M ((i : Int) + 1))
  pure ()

@[thr] theorem run_hgemmhz_170_J (A : Int) (ALPHA : Quat F) (B : Int) (BETA : Cplx F) (BONE : Bool) (BZERO : Bool) (C : Int) (K : Int) (LDA : Int) (LDB : Int) (LDC : Int) (M : Int) (J : Int) :
    (Thr.hgemmhz_170_J A ALPHA B BETA BONE BZERO C K LDA LDB LDC M J (F := F)).run = Haxx.hgemmhz_170_J A ALPHA B BETA BONE BZERO C K LDA LDB LDC M J (F := F) := by
  simp only [Thr.hgemmhz_170_J, Haxx.hgemmhz_170_J, thr]

/-- As `Haxx.hgemmhz_if157`, `src/hblas/fortran/hblas3/hgemmhz.f:157-232`. -/
def hgemmhz_if157 (A : Int) (ALPHA : Quat F) (B : Int) (BETA : Cplx F) (BONE : Bool) (BZERO : Bool) (C : Int) (CONJB : Bool) (K : Int) (LDA : Int) (LDB : Int) (LDC : Int) (M : Int) (N : Int) : Prog F (Unit) := do
  if CONJB then
    forN (N).toNat (fun i => hgemmhz_120_J A ALPHA B BETA BONE BZERO C K LDA LDB LDC M ((i : Int) + 1))
    pure ()
  else
    forN (N).toNat (fun i => hgemmhz_170_J A ALPHA B BETA BONE BZERO C K LDA LDB LDC M ((i : Int) + 1))
    pure ()

@[thr] theorem run_hgemmhz_if157 (A : Int) (ALPHA : Quat F) (B : Int) (BETA : Cplx F) (BONE : Bool) (BZERO : Bool) (C : Int) (CONJB : Bool) (K : Int) (LDA : Int) (LDB : Int) (LDC : Int) (M : Int) (N : Int) :
    (Thr.hgemmhz_if157 A ALPHA B BETA BONE BZERO C CONJB K LDA LDB LDC M N (F := F)).run = Haxx.hgemmhz_if157 A ALPHA B BETA BONE BZERO C CONJB K LDA LDB LDC M N (F := F) := by
  simp only [Thr.hgemmhz_if157, Haxx.hgemmhz_if157, thr]

/-- As `Haxx.hgemmhz_230_L`, `src/hblas/fortran/hblas3/hgemmhz.f:242-249`, body of `DO 230 L`. -/
def hgemmhz_230_L (A : Int) (B : Int) (I : Int) (J : Int) (LDA : Int) (LDB : Int) (L : Int) (HTMP1J : Cplx F) (HTMP1S : Cplx F) : Prog F (Cplx F × Cplx F) := do
  let t1 ← rdC (el3 2 2 LDA A 1 L I)
  let t2 ← rdC (el3 2 2 LDB B 1 J L)
  let t3 ← rdC (el3 2 2 LDA A 2 L I)
  let t4 ← rdC (el3 2 2 LDB B 2 J L)
  let HTMP1S : Cplx F := HTMP1S +ᶜ Cplx.conj t1 *ᶜ Cplx.conj t2 -ᶜ t3 *ᶜ Cplx.conj t4
  let t5 ← rdC (el3 2 2 LDA A 1 L I)
  let t6 ← rdC (el3 2 2 LDB B 2 J L)
  let t7 ← rdC (el3 2 2 LDA A 2 L I)
  let t8 ← rdC (el3 2 2 LDB B 1 J L)
  let HTMP1J : Cplx F := HTMP1J -ᶜ Cplx.conj t5 *ᶜ t6 -ᶜ t7 *ᶜ t8
  pure (HTMP1J, HTMP1S)

@[thr] theorem run_hgemmhz_230_L (A : Int) (B : Int) (I : Int) (J : Int) (LDA : Int) (LDB : Int) (L : Int) (HTMP1J : Cplx F) (HTMP1S : Cplx F) :
    (Thr.hgemmhz_230_L A B I J LDA LDB L HTMP1J HTMP1S (F := F)).run = Haxx.hgemmhz_230_L A B I J LDA LDB L HTMP1J HTMP1S (F := F) := by
  simp only [Thr.hgemmhz_230_L, Haxx.hgemmhz_230_L, thr]

/-- As `Haxx.hgemmhz_220_I`, `src/hblas/fortran/hblas3/hgemmhz.f:239-260`, body of `DO 220 I`. -/
def hgemmhz_220_I (A : Int) (ALPHA : Quat F) (B : Int) (BETA : Cplx F) (BZERO : Bool) (C : Int) (J : Int) (K : Int) (LDA : Int) (LDB : Int) (LDC : Int) (I : Int)  : Prog F (Unit) := do
  let HTMP1S : Cplx F := (⟨zero, zero⟩ : Cplx F)
  let HTMP1J : Cplx F := (⟨zero, zero⟩ : Cplx F)
  let r ← foldN (K).toNat (fun i (s : Cplx F × Cplx F) => hgemmhz_230_L A B I J LDA LDB ((i : Int) + 1) s.1 s.2) (HTMP1J, HTMP1S)
  let HTMP1J : Cplx F := r.1
  let HTMP1S : Cplx F := r.2
  let _ ← (do
    if BZERO then
      wrC (el3 2 2 LDC C 1 I J) (Quat.lo ALPHA *ᶜ HTMP1S -ᶜ Quat.hi ALPHA *ᶜ Cplx.conj HTMP1J)
      wrC (el3 2 2 LDC C 2 I J) (Quat.lo ALPHA *ᶜ HTMP1J +ᶜ Quat.hi ALPHA *ᶜ Cplx.conj HTMP1S)
      pure ()
    else
      let t1 ← rdC (el3 2 2 LDC C 1 I J)
      wrC (el3 2 2 LDC C 1 I J) (Quat.lo ALPHA *ᶜ HTMP1S -ᶜ Quat.hi ALPHA *ᶜ Cplx.conj HTMP1J +ᶜ BETA *ᶜ t1)
      let t2 ← rdC (el3 2 2 LDC C 2 I J)
      wrC (el3 2 2 LDC C 2 I J) (Quat.lo ALPHA *ᶜ HTMP1J +ᶜ Quat.hi ALPHA *ᶜ Cplx.conj HTMP1S +ᶜ BETA *ᶜ t2)
      pure () : Prog F Unit)
  pure ()

@[thr] theorem run_hgemmhz_220_I (A : Int) (ALPHA : Quat F) (B : Int) (BETA : Cplx F) (BZERO : Bool) (C : Int) (J : Int) (K : Int) (LDA : Int) (LDB : Int) (LDC : Int) (I : Int) :
    (Thr.hgemmhz_220_I A ALPHA B BETA BZERO C J K LDA LDB LDC I (F := F)).run = Haxx.hgemmhz_220_I A ALPHA B BETA BZERO C J K LDA LDB LDC I (F := F) := by
  simp only [Thr.hgemmhz_220_I, Haxx.hgemmhz_220_I, thr]

/-- As `Haxx.hgemmhz_220_J`, `src/hblas/fortran/hblas3/hgemmhz.f:238-260`, body of `DO 220 J`. -/
def hgemmhz_220_J (A : Int) (ALPHA : Quat F) (B : Int) (BETA : Cplx F) (BZERO : Bool) (C : Int) (K : Int) (LDA : Int) (LDB : Int) (LDC : Int) (M : Int) (J : Int)  : Prog F (Unit) := do
  forN (M).toNat (fun i => hgemmhz_220_I A ALPHA B BETA BZERO C J K LDA LDB LDC ((i : Int) + 1))
  pure ()

@[thr] theorem run_hgemmhz_220_J (A : Int) (ALPHA : Quat F) (B : Int) (BETA : Cplx F) (BZERO : Bool) (C : Int) (K : Int) (LDA : Int) (LDB : Int) (LDC : Int) (M : Int) (J : Int) :
    (Thr.hgemmhz_220_J A ALPHA B BETA BZERO C K LDA LDB LDC M J (F := F)).run = Haxx.hgemmhz_220_J A ALPHA B BETA BZERO C K LDA LDB LDC M J (F := F) := by
  simp only [Thr.hgemmhz_220_J, Haxx.hgemmhz_220_J, thr]

/-- As `Haxx.hgemmhz_250_L`, `src/hblas/fortran/hblas3/hgemmhz.f:270-276`, body of `DO 250 L`. -/
def hgemmhz_250_L (A : Int) (B : Int) (I : Int) (J : Int) (LDA : Int) (LDB : Int) (L : Int) (HTMP1J : Cplx F) (HTMP1S : Cplx F) : Prog F (Cplx F × Cplx F) := do
  let t1 ← rdC (el3 2 2 LDA A 1 L I)
  let t2 ← rdC (el3 2 2 LDB B 1 J L)
  let t3 ← rdC (el3 2 2 LDA A 2 L I)
  let t4 ← rdC (el3 2 2 LDB B 2 J L)
  let HTMP1S : Cplx F := HTMP1S +ᶜ Cplx.conj t1 *ᶜ t2 +ᶜ t3 *ᶜ Cplx.conj t4
  let t5 ← rdC (el3 2 2 LDA A 1 L I)
  let t6 ← rdC (el3 2 2 LDB B 2 J L)
  let t7 ← rdC (el3 2 2 LDA A 2 L I)
  let t8 ← rdC (el3 2 2 LDB B 1 J L)
  let HTMP1J : Cplx F := HTMP1J +ᶜ Cplx.conj t5 *ᶜ t6 -ᶜ t7 *ᶜ Cplx.conj t8
  pure (HTMP1J, HTMP1S)

@[thr] theorem run_hgemmhz_250_L (A : Int) (B : Int) (I : Int) (J : Int) (LDA : Int) (LDB : Int) (L : Int) (HTMP1J : Cplx F) (HTMP1S : Cplx F) :
    (Thr.hgemmhz_250_L A B I J LDA LDB L HTMP1J HTMP1S (F := F)).run = Haxx.hgemmhz_250_L A B I J LDA LDB L HTMP1J HTMP1S (F := F) := by
  simp only [Thr.hgemmhz_250_L, Haxx.hgemmhz_250_L, thr]

/-- As `Haxx.hgemmhz_240_I`, `src/hblas/fortran/hblas3/hgemmhz.f:267-287`, body of `DO 240 I`. -/
def hgemmhz_240_I (A : Int) (ALPHA : Quat F) (B : Int) (BETA : Cplx F) (BZERO : Bool) (C : Int) (J : Int) (K : Int) (LDA : Int) (LDB : Int) (LDC : Int) (I : Int)  : Prog F (Unit) := do
  let HTMP1S : Cplx F := (⟨zero, zero⟩ : Cplx F)
  let HTMP1J : Cplx F := (⟨zero, zero⟩ : Cplx F)
  let r ← foldN (K).toNat (fun i (s : Cplx F × Cplx F) => hgemmhz_250_L A B I J LDA LDB ((i : Int) + 1) s.1 s.2) (HTMP1J, HTMP1S)
  let HTMP1J : Cplx F := r.1
  let HTMP1S : Cplx F := r.2
  let _ ← (do
    if BZERO then
      wrC (el3 2 2 LDC C 1 I J) (Quat.lo ALPHA *ᶜ HTMP1S -ᶜ Quat.hi ALPHA *ᶜ Cplx.conj HTMP1J)
      wrC (el3 2 2 LDC C 2 I J) (Quat.lo ALPHA *ᶜ HTMP1J +ᶜ Quat.hi ALPHA *ᶜ Cplx.conj HTMP1S)
      pure ()
    else
      let t1 ← rdC (el3 2 2 LDC C 1 I J)
      wrC (el3 2 2 LDC C 1 I J) (Quat.lo ALPHA *ᶜ HTMP1S -ᶜ Quat.hi ALPHA *ᶜ Cplx.conj HTMP1J +ᶜ BETA *ᶜ t1)
      let t2 ← rdC (el3 2 2 LDC C 2 I J)
      wrC (el3 2 2 LDC C 2 I J) (Quat.lo ALPHA *ᶜ HTMP1J +ᶜ Quat.hi ALPHA *ᶜ Cplx.conj HTMP1S +ᶜ BETA *ᶜ t2)
      pure () : Prog F Unit)
  pure ()

@[thr] theorem run_hgemmhz_240_I (A : Int) (ALPHA : Quat F) (B : Int) (BETA : Cplx F) (BZERO : Bool) (C : Int) (J : Int) (K : Int) (LDA : Int) (LDB : Int) (LDC : Int) (I : Int) :
    (Thr.hgemmhz_240_I A ALPHA B BETA BZERO C J K LDA LDB LDC I (F := F)).run = Haxx.hgemmhz_240_I A ALPHA B BETA BZERO C J K LDA LDB LDC I (F := F) := by
  simp only [Thr.hgemmhz_240_I, Haxx.hgemmhz_240_I, thr]

/-- As `Haxx.hgemmhz_240_J`, `src/hblas/fortran/hblas3/hgemmhz.f:266-287`, body of `DO 240 J`. -/
def hgemmhz_240_J (A : Int) (ALPHA : Quat F) (B : Int) (BETA : Cplx F) (BZERO : Bool) (C : Int) (K : Int) (LDA : Int) (LDB : Int) (LDC : Int) (M : Int) (J : Int)  : Prog F (Unit) := do
  forN (M).toNat (fun i => hgemmhz_240_I A ALPHA B BETA BZERO C J K LDA LDB LDC ((i : Int) + 1))
  pure ()

@[thr] theorem run_hgemmhz_240_J (A : Int) (ALPHA : Quat F) (B : Int) (BETA : Cplx F) (BZERO : Bool) (C : Int) (K : Int) (LDA : Int) (LDB : Int) (LDC : Int) (M : Int) (J : Int) :
    (Thr.hgemmhz_240_J A ALPHA B BETA BZERO C K LDA LDB LDC M J (F := F)).run = Haxx.hgemmhz_240_J A ALPHA B BETA BZERO C K LDA LDB LDC M J (F := F) := by
  simp only [Thr.hgemmhz_240_J, Haxx.hgemmhz_240_J, thr]

/-- As `Haxx.hgemmhz_if234`, `src/hblas/fortran/hblas3/hgemmhz.f:234-288`. -/
def hgemmhz_if234 (A : Int) (ALPHA : Quat F) (B : Int) (BETA : Cplx F) (BZERO : Bool) (C : Int) (CONJB : Bool) (K : Int) (LDA : Int) (LDB : Int) (LDC : Int) (M : Int) (N : Int) : Prog F (Unit) := do
  if CONJB then
    forN (N).toNat (fun i => hgemmhz_220_J A ALPHA B BETA BZERO C K LDA LDB LDC M ((i : Int) + 1))
    pure ()
  else
    forN (N).toNat (fun i => hgemmhz_240_J A ALPHA B BETA BZERO C K LDA LDB LDC M ((i : Int) + 1))
    pure ()

@[thr] theorem run_hgemmhz_if234 (A : Int) (ALPHA : Quat F) (B : Int) (BETA : Cplx F) (BZERO : Bool) (C : Int) (CONJB : Bool) (K : Int) (LDA : Int) (LDB : Int) (LDC : Int) (M : Int) (N : Int) :
    (Thr.hgemmhz_if234 A ALPHA B BETA BZERO C CONJB K LDA LDB LDC M N (F := F)).run = Haxx.hgemmhz_if234 A ALPHA B BETA BZERO C CONJB K LDA LDB LDC M N (F := F) := by
  simp only [Thr.hgemmhz_if234, Haxx.hgemmhz_if234, thr]

/-- As `Haxx.hgemmhz_270_L`, `src/hblas/fortran/hblas3/hgemmhz.f:299-305`, body of `DO 270 L`. -/
def hgemmhz_270_L (A : Int) (B : Int) (I : Int) (J : Int) (LDA : Int) (LDB : Int) (L : Int) (HTMP1J : Cplx F) (HTMP1S : Cplx F) : Prog F (Cplx F × Cplx F) := do
  let t1 ← rdC (el3 2 2 LDA A 1 L I)
  let t2 ← rdC (el3 2 2 LDB B 1 J L)
  let t3 ← rdC (el3 2 2 LDA A 2 L I)
  let t4 ← rdC (el3 2 2 LDB B 2 J L)
  let HTMP1S : Cplx F := HTMP1S +ᶜ t1 *ᶜ Cplx.conj t2 +ᶜ t3 *ᶜ Cplx.conj t4
  let t5 ← rdC (el3 2 2 LDA A 1 L I)
  let t6 ← rdC (el3 2 2 LDB B 2 J L)
  let t7 ← rdC (el3 2 2 LDA A 2 L I)
  let t8 ← rdC (el3 2 2 LDB B 1 J L)
  let HTMP1J : Cplx F := HTMP1J -ᶜ t5 *ᶜ t6 +ᶜ t7 *ᶜ t8
  pure (HTMP1J, HTMP1S)

@[thr] theorem run_hgemmhz_270_L (A : Int) (B : Int) (I : Int) (J : Int) (LDA : Int) (LDB : Int) (L : Int) (HTMP1J : Cplx F) (HTMP1S : Cplx F) :
    (Thr.hgemmhz_270_L A B I J LDA LDB L HTMP1J HTMP1S (F := F)).run = Haxx.hgemmhz_270_L A B I J LDA LDB L HTMP1J HTMP1S (F := F) := by
  simp only [Thr.hgemmhz_270_L, Haxx.hgemmhz_270_L, thr]

/-- As `Haxx.hgemmhz_260_I`, `src/hblas/fortran/hblas3/hgemmhz.f:296-316`, body of `DO 260 I`. -/
def hgemmhz_260_I (A : Int) (ALPHA : Quat F) (B : Int) (BETA : Cplx F) (BZERO : Bool) (C : Int) (J : Int) (K : Int) (LDA : Int) (LDB : Int) (LDC : Int) (I : Int)  : Prog F (Unit) := do
  let HTMP1S : Cplx F := (⟨zero, zero⟩ : Cplx F)
  let HTMP1J : Cplx F := (⟨zero, zero⟩ : Cplx F)
  let r ← foldN (K).toNat (fun i (s : Cplx F × Cplx F) => hgemmhz_270_L A B I J LDA LDB ((i : Int) + 1) s.1 s.2) (HTMP1J, HTMP1S)
  let HTMP1J : Cplx F := r.1
  let HTMP1S : Cplx F := r.2
  let _ ← (do
    if BZERO then
      wrC (el3 2 2 LDC C 1 I J) (Quat.lo ALPHA *ᶜ HTMP1S -ᶜ Quat.hi ALPHA *ᶜ Cplx.conj HTMP1J)
      wrC (el3 2 2 LDC C 2 I J) (Quat.lo ALPHA *ᶜ HTMP1J +ᶜ Quat.hi ALPHA *ᶜ Cplx.conj HTMP1S)
      pure ()
    else
      let t1 ← rdC (el3 2 2 LDC C 1 I J)
      wrC (el3 2 2 LDC C 1 I J) (Quat.lo ALPHA *ᶜ HTMP1S -ᶜ Quat.hi ALPHA *ᶜ Cplx.conj HTMP1J +ᶜ BETA *ᶜ t1)
      let t2 ← rdC (el3 2 2 LDC C 2 I J)
      wrC (el3 2 2 LDC C 2 I J) (Quat.lo ALPHA *ᶜ HTMP1J +ᶜ Quat.hi ALPHA *ᶜ Cplx.conj HTMP1S +ᶜ BETA *ᶜ t2)
      pure () : Prog F Unit)
  pure ()

@[thr] theorem run_hgemmhz_260_I (A : Int) (ALPHA : Quat F) (B : Int) (BETA : Cplx F) (BZERO : Bool) (C : Int) (J : Int) (K : Int) (LDA : Int) (LDB : Int) (LDC : Int) (I : Int) :
    (Thr.hgemmhz_260_I A ALPHA B BETA BZERO C J K LDA LDB LDC I (F := F)).run = Haxx.hgemmhz_260_I A ALPHA B BETA BZERO C J K LDA LDB LDC I (F := F) := by
  simp only [Thr.hgemmhz_260_I, Haxx.hgemmhz_260_I, thr]

/-- As `Haxx.hgemmhz_260_J`, `src/hblas/fortran/hblas3/hgemmhz.f:295-316`, body of `DO 260 J`. -/
def hgemmhz_260_J (A : Int) (ALPHA : Quat F) (B : Int) (BETA : Cplx F) (BZERO : Bool) (C : Int) (K : Int) (LDA : Int) (LDB : Int) (LDC : Int) (M : Int) (J : Int)  : Prog F (Unit) := do
  forN (M).toNat (fun i => hgemmhz_260_I A ALPHA B BETA BZERO C J K LDA LDB LDC ((i : Int) + 1))
  pure ()

@[thr] theorem run_hgemmhz_260_J (A : Int) (ALPHA : Quat F) (B : Int) (BETA : Cplx F) (BZERO : Bool) (C : Int) (K : Int) (LDA : Int) (LDB : Int) (LDC : Int) (M : Int) (J : Int) :
    (Thr.hgemmhz_260_J A ALPHA B BETA BZERO C K LDA LDB LDC M J (F := F)).run = Haxx.hgemmhz_260_J A ALPHA B BETA BZERO C K LDA LDB LDC M J (F := F) := by
  simp only [Thr.hgemmhz_260_J, Haxx.hgemmhz_260_J, thr]

/-- As `Haxx.hgemmhz_290_L`, `src/hblas/fortran/hblas3/hgemmhz.f:325-331`, body of `DO 290 L`. -/
def hgemmhz_290_L (A : Int) (B : Int) (I : Int) (J : Int) (LDA : Int) (LDB : Int) (L : Int) (HTMP1J : Cplx F) (HTMP1S : Cplx F) : Prog F (Cplx F × Cplx F) := do
  let t1 ← rdC (el3 2 2 LDA A 1 L I)
  let t2 ← rdC (el3 2 2 LDB B 1 J L)
  let t3 ← rdC (el3 2 2 LDA A 2 L I)
  let t4 ← rdC (el3 2 2 LDB B 2 J L)
  let HTMP1S : Cplx F := HTMP1S +ᶜ t1 *ᶜ t2 -ᶜ t3 *ᶜ Cplx.conj t4
  let t5 ← rdC (el3 2 2 LDA A 1 L I)
  let t6 ← rdC (el3 2 2 LDB B 2 J L)
  let t7 ← rdC (el3 2 2 LDA A 2 L I)
  let t8 ← rdC (el3 2 2 LDB B 1 J L)
  let HTMP1J : Cplx F := HTMP1J +ᶜ t5 *ᶜ t6 +ᶜ t7 *ᶜ Cplx.conj t8
  pure (HTMP1J, HTMP1S)

@[thr] theorem run_hgemmhz_290_L (A : Int) (B : Int) (I : Int) (J : Int) (LDA : Int) (LDB : Int) (L : Int) (HTMP1J : Cplx F) (HTMP1S : Cplx F) :
    (Thr.hgemmhz_290_L A B I J LDA LDB L HTMP1J HTMP1S (F := F)).run = Haxx.hgemmhz_290_L A B I J LDA LDB L HTMP1J HTMP1S (F := F) := by
  simp only [Thr.hgemmhz_290_L, Haxx.hgemmhz_290_L, thr]

/-- As `Haxx.hgemmhz_280_I`, `src/hblas/fortran/hblas3/hgemmhz.f:322-342`, body of `DO 280 I`. -/
def hgemmhz_280_I (A : Int) (ALPHA : Quat F) (B : Int) (BETA : Cplx F) (BZERO : Bool) (C : Int) (J : Int) (K : Int) (LDA : Int) (LDB : Int) (LDC : Int) (I : Int)  : Prog F (Unit) := do
  let HTMP1S : Cplx F := (⟨zero, zero⟩ : Cplx F)
  let HTMP1J : Cplx F := (⟨zero, zero⟩ : Cplx F)
  let r ← foldN (K).toNat (fun i (s : Cplx F × Cplx F) => hgemmhz_290_L A B I J LDA LDB ((i : Int) + 1) s.1 s.2) (HTMP1J, HTMP1S)
  let HTMP1J : Cplx F := r.1
  let HTMP1S : Cplx F := r.2
  let _ ← (do
    if BZERO then
      wrC (el3 2 2 LDC C 1 I J) (Quat.lo ALPHA *ᶜ HTMP1S -ᶜ Quat.hi ALPHA *ᶜ Cplx.conj HTMP1J)
      wrC (el3 2 2 LDC C 2 I J) (Quat.lo ALPHA *ᶜ HTMP1J +ᶜ Quat.hi ALPHA *ᶜ Cplx.conj HTMP1S)
      pure ()
    else
      let t1 ← rdC (el3 2 2 LDC C 1 I J)
      wrC (el3 2 2 LDC C 1 I J) (Quat.lo ALPHA *ᶜ HTMP1S -ᶜ Quat.hi ALPHA *ᶜ Cplx.conj HTMP1J +ᶜ BETA *ᶜ t1)
      let t2 ← rdC (el3 2 2 LDC C 2 I J)
      wrC (el3 2 2 LDC C 2 I J) (Quat.lo ALPHA *ᶜ HTMP1J +ᶜ Quat.hi ALPHA *ᶜ Cplx.conj HTMP1S +ᶜ BETA *ᶜ t2)
      pure () : Prog F Unit)
  pure ()

@[thr] theorem run_hgemmhz_280_I (A : Int) (ALPHA : Quat F) (B : Int) (BETA : Cplx F) (BZERO : Bool) (C : Int) (J : Int) (K : Int) (LDA : Int) (LDB : Int) (LDC : Int) (I : Int) :
    (Thr.hgemmhz_280_I A ALPHA B BETA BZERO C J K LDA LDB LDC I (F := F)).run = Haxx.hgemmhz_280_I A ALPHA B BETA BZERO C J K LDA LDB LDC I (F := F) := by
  simp only [Thr.hgemmhz_280_I, Haxx.hgemmhz_280_I, thr]

/-- As `Haxx.hgemmhz_280_J`, `src/hblas/fortran/hblas3/hgemmhz.f:321-342`, body of `DO 280 J`. -/
def hgemmhz_280_J (A : Int) (ALPHA : Quat F) (B : Int) (BETA : Cplx F) (BZERO : Bool) (C : Int) (K : Int) (LDA : Int) (LDB : Int) (LDC : Int) (M : Int) (J : Int)  : Prog F (Unit) := do
  forN (M).toNat (fun i => hgemmhz_280_I A ALPHA B BETA BZERO C J K LDA LDB LDC ((i : Int) + 1))
  pure ()

@[thr] theorem run_hgemmhz_280_J (A : Int) (ALPHA : Quat F) (B : Int) (BETA : Cplx F) (BZERO : Bool) (C : Int) (K : Int) (LDA : Int) (LDB : Int) (LDC : Int) (M : Int) (J : Int) :
    (Thr.hgemmhz_280_J A ALPHA B BETA BZERO C K LDA LDB LDC M J (F := F)).run = Haxx.hgemmhz_280_J A ALPHA B BETA BZERO C K LDA LDB LDC M J (F := F) := by
  simp only [Thr.hgemmhz_280_J, Haxx.hgemmhz_280_J, thr]

/-- As `Haxx.hgemmhz_if291`, `src/hblas/fortran/hblas3/hgemmhz.f:291-343`. -/
def hgemmhz_if291 (A : Int) (ALPHA : Quat F) (B : Int) (BETA : Cplx F) (BZERO : Bool) (C : Int) (CONJB : Bool) (K : Int) (LDA : Int) (LDB : Int) (LDC : Int) (M : Int) (N : Int) : Prog F (Unit) := do
  if CONJB then
    forN (N).toNat (fun i => hgemmhz_260_J A ALPHA B BETA BZERO C K LDA LDB LDC M ((i : Int) + 1))
    pure ()
  else
    forN (N).toNat (fun i => hgemmhz_280_J A ALPHA B BETA BZERO C K LDA LDB LDC M ((i : Int) + 1))
    pure ()

@[thr] theorem run_hgemmhz_if291 (A : Int) (ALPHA : Quat F) (B : Int) (BETA : Cplx F) (BZERO : Bool) (C : Int) (CONJB : Bool) (K : Int) (LDA : Int) (LDB : Int) (LDC : Int) (M : Int) (N : Int) :
    (Thr.hgemmhz_if291 A ALPHA B BETA BZERO C CONJB K LDA LDB LDC M N (F := F)).run = Haxx.hgemmhz_if291 A ALPHA B BETA BZERO C CONJB K LDA LDB LDC M N (F := F) := by
  simp only [Thr.hgemmhz_if291, Haxx.hgemmhz_if291, thr]

/-- As `Haxx.hgemmhz_if64`, `src/hblas/fortran/hblas3/hgemmhz.f:64-344`. -/
def hgemmhz_if64 (A : Int) (ALPHA : Quat F) (B : Int) (BETA : Cplx F) (BONE : Bool) (BZERO : Bool) (C : Int) (CONJA : Bool) (CONJB : Bool) (K : Int) (LDA : Int) (LDB : Int) (LDC : Int) (M : Int) (N : Int) (NOTA : Bool) (NOTB : Bool) : Prog F (Unit) := do
  if NOTB then
    hgemmhz_if65 A ALPHA B BETA BONE BZERO C CONJA K LDA LDB LDC M N NOTA
    pure ()
  else if NOTA then
    hgemmhz_if157 A ALPHA B BETA BONE BZERO C CONJB K LDA LDB LDC M N
    pure ()
  else if CONJA then
    hgemmhz_if234 A ALPHA B BETA BZERO C CONJB K LDA LDB LDC M N
    pure ()
  else
    hgemmhz_if291 A ALPHA B BETA BZERO C CONJB K LDA LDB LDC M N
    pure ()

@[thr] theorem run_hgemmhz_if64 (A : Int) (ALPHA : Quat F) (B : Int) (BETA : Cplx F) (BONE : Bool) (BZERO : Bool) (C : Int) (CONJA : Bool) (CONJB : Bool) (K : Int) (LDA : Int) (LDB : Int) (LDC : Int) (M : Int) (N : Int) (NOTA : Bool) (NOTB : Bool) :
    (Thr.hgemmhz_if64 A ALPHA B BETA BONE BZERO C CONJA CONJB K LDA LDB LDC M N NOTA NOTB (F := F)).run = Haxx.hgemmhz_if64 A ALPHA B BETA BONE BZERO C CONJA CONJB K LDA LDB LDC M N NOTA NOTB (F := F) := by
  simp only [Thr.hgemmhz_if64, Haxx.hgemmhz_if64, thr]

/-- As `Haxx.hgemmhz`, `src/hblas/fortran/hblas3/hgemmhz.f:9-345`. -/
def hgemmhz (TRANSA : Char) (TRANSB : Char) (M : Int) (N : Int) (K : Int) (ALPHA : Quat F) (A : Int) (LDA : Int) (B : Int) (LDB : Int) (BETA : Cplx F) (C : Int) (LDC : Int) : Prog F (Unit) := do
  let NOTA : Bool := lsame TRANSA 'N'
  let NOTB : Bool := lsame TRANSB 'N'
  let CONJA : Bool := lsame TRANSA 'C'
  let CONJB : Bool := lsame TRANSB 'C'
  let AZERO : Bool := (Cplx.feq (Quat.lo ALPHA) (⟨zero, zero⟩ : Cplx F)) && (Cplx.feq (Quat.hi ALPHA) (⟨zero, zero⟩ : Cplx F))
  -- AONE (line 34) is never read
  let BZERO : Bool := Cplx.feq BETA (⟨zero, zero⟩ : Cplx F)
  let BONE : Bool := Cplx.feq BETA (⟨one, zero⟩ : Cplx F)
  if (decide (M = 0)) || (decide (N = 0)) then
    pure ()
  else
    if (AZERO || (decide (K = 0))) && BONE then
      pure ()
    else
      if AZERO then
        hgemmhz_if48 BETA BZERO C LDC M N
        pure ()
      else
        hgemmhz_if64 A ALPHA B BETA BONE BZERO C CONJA CONJB K LDA LDB LDC M N NOTA NOTB
        pure ()

@[thr] theorem run_hgemmhz (TRANSA : Char) (TRANSB : Char) (M : Int) (N : Int) (K : Int) (ALPHA : Quat F) (A : Int) (LDA : Int) (B : Int) (LDB : Int) (BETA : Cplx F) (C : Int) (LDC : Int) :
    (Thr.hgemmhz TRANSA TRANSB M N K ALPHA A LDA B LDB BETA C LDC (F := F)).run = Haxx.hgemmhz TRANSA TRANSB M N K ALPHA A LDA B LDB BETA C LDC (F := F) := by
  simp only [Thr.hgemmhz, Haxx.hgemmhz, thr]

-- end of FGemmhz

variable {F : Type} [Arith F] [ArithEq F]
/-- As `Haxx.hgemmhh_10_I`, `src/hblas/fortran/hblas3/hgemmhh.f:51-54`, body of `DO 10 I`. -/
def hgemmhh_10_I (C : Int) (J : Int) (LDC : Int) (I : Int)  : Prog F (Unit) := do
  wrC (el3 2 2 LDC C 1 I J) (⟨zero, zero⟩ : Cplx F)
  wrC (el3 2 2 LDC C 2 I J) (⟨zero, zero⟩ : Cplx F)
  pure ()

@[thr] theorem run_hgemmhh_10_I (C : Int) (J : Int) (LDC : Int) (I : Int) :
    (Thr.hgemmhh_10_I C J LDC I (F := F)).run = Haxx.hgemmhh_10_I C J LDC I (F := F) := by
  simp only [Thr.hgemmhh_10_I, Haxx.hgemmhh_10_I, thr]

/-- As `Haxx.hgemmhh_10_J`, `src/hblas/fortran/hblas3/hgemmhh.f:50-54`, body of `DO 10 J`. -/
def hgemmhh_10_J (C : Int) (LDC : Int) (M : Int) (J : Int)  : Prog F (Unit) := do
  forN (M).toNat (fun i => hgemmhh_10_I C J LDC ((i : Int) + 1))
  pure ()

@[thr] theorem run_hgemmhh_10_J (C : Int) (LDC : Int) (M : Int) (J : Int) :
    (Thr.hgemmhh_10_J C LDC M J (F := F)).run = Haxx.hgemmhh_10_J C LDC M J (F := F) := by
  simp only [Thr.hgemmhh_10_J, Haxx.hgemmhh_10_J, thr]

/-- As `Haxx.hgemmhh_20_I`, `src/hblas/fortran/hblas3/hgemmhh.f:57-61`, body of `DO 20 I`. -/
def hgemmhh_20_I (BETA : Quat F) (C : Int) (J : Int) (LDC : Int) (I : Int)  : Prog F (Unit) := do
  let t1 ← rdC (el3 2 2 LDC C 1 I J)
  let t2 ← rdC (el3 2 2 LDC C 2 I J)
  let HTMP1S : Cplx F := Quat.lo BETA *ᶜ t1 -ᶜ Quat.hi BETA *ᶜ Cplx.conj t2
  let t3 ← rdC (el3 2 2 LDC C 2 I J)
  let t4 ← rdC (el3 2 2 LDC C 1 I J)
  wrC (el3 2 2 LDC C 2 I J) (Quat.lo BETA *ᶜ t3 +ᶜ Quat.hi BETA *ᶜ Cplx.conj t4)
  wrC (el3 2 2 LDC C 1 I J) HTMP1S
  pure ()

@[thr] theorem run_hgemmhh_20_I (BETA : Quat F) (C : Int) (J : Int) (LDC : Int) (I : Int) :
    (Thr.hgemmhh_20_I BETA C J LDC I (F := F)).run = Haxx.hgemmhh_20_I BETA C J LDC I (F := F) := by
  simp only [Thr.hgemmhh_20_I, Haxx.hgemmhh_20_I, thr]

/-- As `Haxx.hgemmhh_20_J`, `src/hblas/fortran/hblas3/hgemmhh.f:56-61`, body of `DO 20 J`. -/
def hgemmhh_20_J (BETA : Quat F) (C : Int) (LDC : Int) (M : Int) (J : Int)  : Prog F (Unit) := do
  forN (M).toNat (fun i => hgemmhh_20_I BETA C J LDC ((i : Int) + 1))
  pure ()

@[thr] theorem run_hgemmhh_20_J (BETA : Quat F) (C : Int) (LDC : Int) (M : Int) (J : Int) :
    (Thr.hgemmhh_20_J BETA C LDC M J (F := F)).run = Haxx.hgemmhh_20_J BETA C LDC M J (F := F) := by
  simp only [Thr.hgemmhh_20_J, Haxx.hgemmhh_20_J, thr]

/-- As `Haxx.hgemmhh_if49`, `src/hblas/fortran/hblas3/hgemmhh.f:49-62`. -/
def hgemmhh_if49 (BETA : Quat F) (BZERO : Bool) (C : Int) (LDC : Int) (M : Int) (N : Int) : Prog F (Unit) := do
  if BZERO then
    forN (N).toNat (fun i => hgemmhh_10_J C LDC M ((i : Int) + 1))
    pure ()
  else
    forN (N).toNat (fun i => hgemmhh_20_J BETA C LDC M ((i : Int) + 1))
    pure ()

@[thr] theorem run_hgemmhh_if49 (BETA : Quat F) (BZERO : Bool) (C : Int) (LDC : Int) (M : Int) (N : Int) :
    (Thr.hgemmhh_if49 BETA BZERO C LDC M N (F := F)).run = Haxx.hgemmhh_if49 BETA BZERO C LDC M N (F := F) := by
  simp only [Thr.hgemmhh_if49, Haxx.hgemmhh_if49, thr]

/-- As `Haxx.hgemmhh_40_I`, `src/hblas/fortran/hblas3/hgemmhh.f:73-76`, body of `DO 40 I`. -/
def hgemmhh_40_I (C : Int) (J : Int) (LDC : Int) (I : Int)  : Prog F (Unit) := do
  wrC (el3 2 2 LDC C 1 I J) (⟨zero, zero⟩ : Cplx F)
  wrC (el3 2 2 LDC C 2 I J) (⟨zero, zero⟩ : Cplx F)
  pure ()

@[thr] theorem run_hgemmhh_40_I (C : Int) (J : Int) (LDC : Int) (I : Int) :
    (Thr.hgemmhh_40_I C J LDC I (F := F)).run = Haxx.hgemmhh_40_I C J LDC I (F := F) := by
  simp only [Thr.hgemmhh_40_I, Haxx.hgemmhh_40_I, thr]

/-- As `Haxx.hgemmhh_50_I`, `src/hblas/fortran/hblas3/hgemmhh.f:78-82`, body of `DO 50 I`. -/
def hgemmhh_50_I (BETA : Quat F) (C : Int) (J : Int) (LDC : Int) (I : Int)  : Prog F (Unit) := do
  let t1 ← rdC (el3 2 2 LDC C 1 I J)
  let t2 ← rdC (el3 2 2 LDC C 2 I J)
  let HTMP1S : Cplx F := Quat.lo BETA *ᶜ t1 -ᶜ Quat.hi BETA *ᶜ Cplx.conj t2
  let t3 ← rdC (el3 2 2 LDC C 2 I J)
  let t4 ← rdC (el3 2 2 LDC C 1 I J)
  wrC (el3 2 2 LDC C 2 I J) (Quat.lo BETA *ᶜ t3 +ᶜ Quat.hi BETA *ᶜ Cplx.conj t4)
  wrC (el3 2 2 LDC C 1 I J) HTMP1S
  pure ()

@[thr] theorem run_hgemmhh_50_I (BETA : Quat F) (C : Int) (J : Int) (LDC : Int) (I : Int) :
    (Thr.hgemmhh_50_I BETA C J LDC I (F := F)).run = Haxx.hgemmhh_50_I BETA C J LDC I (F := F) := by
  simp only [Thr.hgemmhh_50_I, Haxx.hgemmhh_50_I, thr]

/-- As `Haxx.hgemmhh_if72`, `src/hblas/fortran/hblas3/hgemmhh.f:72-83`. -/
def hgemmhh_if72 (BETA : Quat F) (BONE : Bool) (BZERO : Bool) (C : Int) (J : Int) (LDC : Int) (M : Int) : Prog F (Unit) := do
  if BZERO then
    forN (M).toNat (fun i => hgemmhh_40_I C J LDC ((i : Int) + 1))
    pure ()
  else if !BONE then
    forN (M).toNat (fun i => hgemmhh_50_I BETA C J LDC ((i : Int) + 1))
    pure ()
  else
    pure ()

@[thr] theorem run_hgemmhh_if72 (BETA : Quat F) (BONE : Bool) (BZERO : Bool) (C : Int) (J : Int) (LDC : Int) (M : Int) :
    (Thr.hgemmhh_if72 BETA BONE BZERO C J LDC M (F := F)).run = Haxx.hgemmhh_if72 BETA BONE BZERO C J LDC M (F := F) := by
  simp only [Thr.hgemmhh_if72, Haxx.hgemmhh_if72, thr]

/-- As `Haxx.hgemmhh_70_I`, `src/hblas/fortran/hblas3/hgemmhh.f:94-102`, body of `DO 70 I`. -/
def hgemmhh_70_I (A : Int) (C : Int) (HTMP1J : Cplx F) (HTMP1S : Cplx F) (HTMP2J : Cplx F) (HTMP2S : Cplx F) (HTMP3J : Cplx F) (HTMP3S : Cplx F) (HTMP4J : Cplx F) (HTMP4S : Cplx F) (J : Int) (L : Int) (LDA : Int) (LDC : Int) (I : Int)  : Prog F (Unit) := do
  let t1 ← rdC (el3 2 2 LDC C 1 I J)
  let t2 ← rdC (el3 2 2 LDA A 1 I L)
  let t3 ← rdC (el3 2 2 LDA A 2 I L)
  let t4 ← rdC (el3 2 2 LDA A 1 I L)
  let t5 ← rdC (el3 2 2 LDA A 2 I L)
  wrC (el3 2 2 LDC C 1 I J) (t1 +ᶜ t2 *ᶜ HTMP1S -ᶜ t3 *ᶜ HTMP2J -ᶜ Cplx.conj t4 *ᶜ HTMP4J -ᶜ Cplx.conj t5 *ᶜ HTMP3S)
  let t6 ← rdC (el3 2 2 LDC C 2 I J)
  let t7 ← rdC (el3 2 2 LDA A 1 I L)
  let t8 ← rdC (el3 2 2 LDA A 2 I L)
  let t9 ← rdC (el3 2 2 LDA A 1 I L)
  let t10 ← rdC (el3 2 2 LDA A 2 I L)
  wrC (el3 2 2 LDC C 2 I J) (t6 +ᶜ t7 *ᶜ HTMP1J +ᶜ t8 *ᶜ HTMP2S +ᶜ Cplx.conj t9 *ᶜ HTMP4S -ᶜ Cplx.conj t10 *ᶜ HTMP3J)
  pure ()

@[thr] theorem run_hgemmhh_70_I (A : Int) (C : Int) (HTMP1J : Cplx F) (HTMP1S : Cplx F) (HTMP2J : Cplx F) (HTMP2S : Cplx F) (HTMP3J : Cplx F) (HTMP3S : Cplx F) (HTMP4J : Cplx F) (HTMP4S : Cplx F) (J : Int) (L : Int) (LDA : Int) (LDC : Int) (I : Int) :
    (Thr.hgemmhh_70_I A C HTMP1J HTMP1S HTMP2J HTMP2S HTMP3J HTMP3S HTMP4J HTMP4S J L LDA LDC I (F := F)).run = Haxx.hgemmhh_70_I A C HTMP1J HTMP1S HTMP2J HTMP2S HTMP3J HTMP3S HTMP4J HTMP4S J L LDA LDC I (F := F) := by
  simp only [Thr.hgemmhh_70_I, Haxx.hgemmhh_70_I, thr]

/-- As `Haxx.hgemmhh_60_L`, `src/hblas/fortran/hblas3/hgemmhh.f:85-103`, body of `DO 60 L`. -/
def hgemmhh_60_L (A : Int) (ALPHA : Quat F) (B : Int) (C : Int) (J : Int) (LDA : Int) (LDB : Int) (LDC : Int) (M : Int) (L : Int)  : Prog F (Unit) := do
  let t1 ← rdC (el3 2 2 LDB B 1 L J)
  let HTMP1S : Cplx F := Quat.lo ALPHA *ᶜ t1
  let t2 ← rdC (el3 2 2 LDB B 2 L J)
  let HTMP1J : Cplx F := Quat.lo ALPHA *ᶜ t2
  let t3 ← rdC (el3 2 2 LDB B 1 L J)
  let HTMP2S : Cplx F := Quat.lo ALPHA *ᶜ Cplx.conj t3
  let t4 ← rdC (el3 2 2 LDB B 2 L J)
  let HTMP2J : Cplx F := Quat.lo ALPHA *ᶜ Cplx.conj t4
  let t5 ← rdC (el3 2 2 LDB B 1 L J)
  let HTMP3S : Cplx F := Quat.hi ALPHA *ᶜ t5
  let t6 ← rdC (el3 2 2 LDB B 2 L J)
  let HTMP3J : Cplx F := Quat.hi ALPHA *ᶜ t6
  let t7 ← rdC (el3 2 2 LDB B 1 L J)
  let HTMP4S : Cplx F := Quat.hi ALPHA *ᶜ Cplx.conj t7
  let t8 ← rdC (el3 2 2 LDB B 2 L J)
  let HTMP4J : Cplx F := Quat.hi ALPHA *ᶜ Cplx.conj t8
  forN (M).toNat (fun i => hgemmhh_70_I A C HTMP1J HTMP1S HTMP2J HTMP2S HTMP3J HTMP3S HTMP4J HTMP4S J L LDA LDC ((i : Int) + 1))
  pure ()

@[thr] theorem run_hgemmhh_60_L (A : Int) (ALPHA : Quat F) (B : Int) (C : Int) (J : Int) (LDA : Int) (LDB : Int) (LDC : Int) (M : Int) (L : Int) :
    (Thr.hgemmhh_60_L A ALPHA B C J LDA LDB LDC M L (F := F)).run = Haxx.hgemmhh_60_L A ALPHA B C J LDA LDB LDC M L (F := F) := by
  simp only [Thr.hgemmhh_60_L, Haxx.hgemmhh_60_L, thr]

/-- As `Haxx.hgemmhh_30_J`, `src/hblas/fortran/hblas3/hgemmhh.f:71-104`, body of `DO 30 J`. -/
def hgemmhh_30_J (A : Int) (ALPHA : Quat F) (B : Int) (BETA : Quat F) (BONE : Bool) (BZERO : Bool) (C : Int) (K : Int) (LDA : Int) (LDB : Int) (LDC : Int) (M : Int) (J : Int)  : Prog F (Unit) := do
  hgemmhh_if72 BETA BONE BZERO C J LDC M
  forN (K).toNat (fun i => hgemmhh_60_L A ALPHA B C J LDA LDB LDC M ((i : Int) + 1))
  pure ()

@[thr] theorem run_hgemmhh_30_J (A : Int) (ALPHA : Quat F) (B : Int) (BETA : Quat F) (BONE : Bool) (BZERO : Bool) (C : Int) (K : Int) (LDA : Int) (LDB : Int) (LDC : Int) (M : Int) (J : Int) :
    (Thr.hgemmhh_30_J A ALPHA B BETA BONE BZERO C K LDA LDB LDC M J (F := F)).run = Haxx.hgemmhh_30_J A ALPHA B BETA BONE BZERO C K LDA LDB LDC M J (F := F) := by
  simp only [Thr.hgemmhh_30_J, Haxx.hgemmhh_30_J, thr]

/-- As `Haxx.hgemmhh_90_L`, `src/hblas/fortran/hblas3/hgemmhh.f:113-119`, body of `DO 90 L`. -/
def hgemmhh_90_L (A : Int) (B : Int) (I : Int) (J : Int) (LDA : Int) (LDB : Int) (L : Int) (HTMP1J : Cplx F) (HTMP1S : Cplx F) : Prog F (Cplx F × Cplx F) := do
  let t1 ← rdC (el3 2 2 LDA A 1 L I)
  let t2 ← rdC (el3 2 2 LDB B 1 L J)
  let t3 ← rdC (el3 2 2 LDA A 2 L I)
  let t4 ← rdC (el3 2 2 LDB B 2 L J)
  let HTMP1S : Cplx F := HTMP1S +ᶜ Cplx.conj t1 *ᶜ t2 +ᶜ t3 *ᶜ Cplx.conj t4
  let t5 ← rdC (el3 2 2 LDA A 1 L I)
  let t6 ← rdC (el3 2 2 LDB B 2 L J)
  let t7 ← rdC (el3 2 2 LDA A 2 L I)
  let t8 ← rdC (el3 2 2 LDB B 1 L J)
  let HTMP1J : Cplx F := HTMP1J +ᶜ Cplx.conj t5 *ᶜ t6 -ᶜ t7 *ᶜ Cplx.conj t8
  pure (HTMP1J, HTMP1S)

@[thr] theorem run_hgemmhh_90_L (A : Int) (B : Int) (I : Int) (J : Int) (LDA : Int) (LDB : Int) (L : Int) (HTMP1J : Cplx F) (HTMP1S : Cplx F) :
    (Thr.hgemmhh_90_L A B I J LDA LDB L HTMP1J HTMP1S (F := F)).run = Haxx.hgemmhh_90_L A B I J LDA LDB L HTMP1J HTMP1S (F := F) := by
  simp only [Thr.hgemmhh_90_L, Haxx.hgemmhh_90_L, thr]

/-- As `Haxx.hgemmhh_80_I`, `src/hblas/fortran/hblas3/hgemmhh.f:110-133`, body of `DO 80 I`. -/
def hgemmhh_80_I (A : Int) (ALPHA : Quat F) (B : Int) (BETA : Quat F) (BZERO : Bool) (C : Int) (J : Int) (K : Int) (LDA : Int) (LDB : Int) (LDC : Int) (I : Int)  : Prog F (Unit) := do
  let HTMP1S : Cplx F := (⟨zero, zero⟩ : Cplx F)
  let HTMP1J : Cplx F := (⟨zero, zero⟩ : Cplx F)
  let r ← foldN (K).toNat (fun i (s : Cplx F × Cplx F) => hgemmhh_90_L A B I J LDA LDB ((i : Int) + 1) s.1 s.2) (HTMP1J, HTMP1S)
  let HTMP1J : Cplx F := r.1
  let HTMP1S : Cplx F := r.2
  let _ ← (do
    if BZERO then
      wrC (el3 2 2 LDC C 1 I J) (Quat.lo ALPHA *ᶜ HTMP1S -ᶜ Quat.hi ALPHA *ᶜ Cplx.conj HTMP1J)
      wrC (el3 2 2 LDC C 2 I J) (Quat.lo ALPHA *ᶜ HTMP1J +ᶜ Quat.hi ALPHA *ᶜ Cplx.conj HTMP1S)
      pure ()
    else
      let t1 ← rdC (el3 2 2 LDC C 1 I J)
      let t2 ← rdC (el3 2 2 LDC C 2 I J)
      let HTMP2S : Cplx F := Quat.lo ALPHA *ᶜ HTMP1S -ᶜ Quat.hi ALPHA *ᶜ Cplx.conj HTMP1J +ᶜ Quat.lo BETA *ᶜ t1 -ᶜ Quat.hi BETA *ᶜ Cplx.conj t2
      let t3 ← rdC (el3 2 2 LDC C 2 I J)
      let t4 ← rdC (el3 2 2 LDC C 1 I J)
      wrC (el3 2 2 LDC C 2 I J) (Quat.lo ALPHA *ᶜ HTMP1J +ᶜ Quat.hi ALPHA *ᶜ Cplx.conj HTMP1S +ᶜ Quat.lo BETA *ᶜ t3 +ᶜ Quat.hi BETA *ᶜ Cplx.conj t4)
      wrC (el3 2 2 LDC C 1 I J) HTMP2S
      pure () : Prog F Unit)
  pure ()

@[thr] theorem run_hgemmhh_80_I (A : Int) (ALPHA : Quat F) (B : Int) (BETA : Quat F) (BZERO : Bool) (C : Int) (J : Int) (K : Int) (LDA : Int) (LDB : Int) (LDC : Int) (I : Int) :
    (Thr.hgemmhh_80_I A ALPHA B BETA BZERO C J K LDA LDB LDC I (F := F)).run = Haxx.hgemmhh_80_I A ALPHA B BETA BZERO C J K LDA LDB LDC I (F := F) := by
  simp only [Thr.hgemmhh_80_I, Haxx.hgemmhh_80_I, thr]

/-- As `Haxx.hgemmhh_80_J`, `src/hblas/fortran/hblas3/hgemmhh.f:109-133`, body of `DO 80 J`. -/
def hgemmhh_80_J (A : Int) (ALPHA : Quat F) (B : Int) (BETA : Quat F) (BZERO : Bool) (C : Int) (K : Int) (LDA : Int) (LDB : Int) (LDC : Int) (M : Int) (J : Int)  : Prog F (Unit) := do
  forN (M).toNat (fun i => hgemmhh_80_I A ALPHA B BETA BZERO C J K LDA LDB LDC ((i : Int) + 1))
  pure ()

@[thr] theorem run_hgemmhh_80_J (A : Int) (ALPHA : Quat F) (B : Int) (BETA : Quat F) (BZERO : Bool) (C : Int) (K : Int) (LDA : Int) (LDB : Int) (LDC : Int) (M : Int) (J : Int) :
    (Thr.hgemmhh_80_J A ALPHA B BETA BZERO C K LDA LDB LDC M J (F := F)).run = Haxx.hgemmhh_80_J A ALPHA B BETA BZERO C K LDA LDB LDC M J (F := F) := by
  simp only [Thr.hgemmhh_80_J, Haxx.hgemmhh_80_J, thr]

/-- As `Haxx.hgemmhh_110_L`, `src/hblas/fortran/hblas3/hgemmhh.f:143-149`, body of `DO 110 L`. -/
def hgemmhh_110_L (A : Int) (B : Int) (I : Int) (J : Int) (LDA : Int) (LDB : Int) (L : Int) (HTMP1J : Cplx F) (HTMP1S : Cplx F) : Prog F (Cplx F × Cplx F) := do
  let t1 ← rdC (el3 2 2 LDA A 1 L I)
  let t2 ← rdC (el3 2 2 LDB B 1 L J)
  let t3 ← rdC (el3 2 2 LDA A 2 L I)
  let t4 ← rdC (el3 2 2 LDB B 2 L J)
  let HTMP1S : Cplx F := HTMP1S +ᶜ t1 *ᶜ t2 -ᶜ t3 *ᶜ Cplx.conj t4
  let t5 ← rdC (el3 2 2 LDA A 1 L I)
  let t6 ← rdC (el3 2 2 LDB B 2 L J)
  let t7 ← rdC (el3 2 2 LDA A 2 L I)
  let t8 ← rdC (el3 2 2 LDB B 1 L J)
  let HTMP1J : Cplx F := HTMP1J +ᶜ t5 *ᶜ t6 +ᶜ t7 *ᶜ Cplx.conj t8
  pure (HTMP1J, HTMP1S)

@[thr] theorem run_hgemmhh_110_L (A : Int) (B : Int) (I : Int) (J : Int) (LDA : Int) (LDB : Int) (L : Int) (HTMP1J : Cplx F) (HTMP1S : Cplx F) :
    (Thr.hgemmhh_110_L A B I J LDA LDB L HTMP1J HTMP1S (F := F)).run = Haxx.hgemmhh_110_L A B I J LDA LDB L HTMP1J HTMP1S (F := F) := by
  simp only [Thr.hgemmhh_110_L, Haxx.hgemmhh_110_L, thr]

/-- As `Haxx.hgemmhh_100_I`, `src/hblas/fortran/hblas3/hgemmhh.f:140-163`, body of `DO 100 I`. -/
def hgemmhh_100_I (A : Int) (ALPHA : Quat F) (B : Int) (BETA : Quat F) (BZERO : Bool) (C : Int) (J : Int) (K : Int) (LDA : Int) (LDB : Int) (LDC : Int) (I : Int)  : Prog F (Unit) := do
  let HTMP1S : Cplx F := (⟨zero, zero⟩ : Cplx F)
  let HTMP1J : Cplx F := (⟨zero, zero⟩ : Cplx F)
  let r ← foldN (K).toNat (fun i (s : Cplx F × Cplx F) => hgemmhh_110_L A B I J LDA LDB ((i : Int) + 1) s.1 s.2) (HTMP1J, HTMP1S)
  let HTMP1J : Cplx F := r.1
  let HTMP1S : Cplx F := r.2
  let _ ← (do
    if BZERO then
      wrC (el3 2 2 LDC C 1 I J) (Quat.lo ALPHA *ᶜ HTMP1S -ᶜ Quat.hi ALPHA *ᶜ Cplx.conj HTMP1J)
      wrC (el3 2 2 LDC C 2 I J) (Quat.lo ALPHA *ᶜ HTMP1J +ᶜ Quat.hi ALPHA *ᶜ Cplx.conj HTMP1S)
      pure ()
    else
      let t1 ← rdC (el3 2 2 LDC C 1 I J)
      let t2 ← rdC (el3 2 2 LDC C 2 I J)
      let HTMP2S : Cplx F := Quat.lo ALPHA *ᶜ HTMP1S -ᶜ Quat.hi ALPHA *ᶜ Cplx.conj HTMP1J +ᶜ Quat.lo BETA *ᶜ t1 -ᶜ Quat.hi BETA *ᶜ Cplx.conj t2
      let t3 ← rdC (el3 2 2 LDC C 2 I J)
      let t4 ← rdC (el3 2 2 LDC C 1 I J)
      wrC (el3 2 2 LDC C 2 I J) (Quat.lo ALPHA *ᶜ HTMP1J +ᶜ Quat.hi ALPHA *ᶜ Cplx.conj HTMP1S +ᶜ Quat.lo BETA *ᶜ t3 +ᶜ Quat.hi BETA *ᶜ Cplx.conj t4)
      wrC (el3 2 2 LDC C 1 I J) HTMP2S
      pure () : Prog F Unit)
  pure ()

@[thr] theorem run_hgemmhh_100_I (A : Int) (ALPHA : Quat F) (B : Int) (BETA : Quat F) (BZERO : Bool) (C : Int) (J : Int) (K : Int) (LDA : Int) (LDB : Int) (LDC : Int) (I : Int) :
    (Thr.hgemmhh_100_I A ALPHA B BETA BZERO C J K LDA LDB LDC I (F := F)).run = Haxx.hgemmhh_100_I A ALPHA B BETA BZERO C J K LDA LDB LDC I (F := F) := by
  simp only [Thr.hgemmhh_100_I, Haxx.hgemmhh_100_I, thr]

/-- As `Haxx.hgemmhh_100_J`, `src/hblas/fortran/hblas3/hgemmhh.f:139-163`, body of `DO 100 J`. -/
def hgemmhh_100_J (A : Int) (ALPHA : Quat F) (B : Int) (BETA : Quat F) (BZERO : Bool) (C : Int) (K : Int) (LDA : Int) (LDB : Int) (LDC : Int) (M : Int) (J : Int)  : Prog F (Unit) := do
  forN (M).toNat (fun i => hgemmhh_100_I A ALPHA B BETA BZERO C J K LDA LDB LDC ((i : Int) + 1))
  pure ()

@[thr] theorem run_hgemmhh_100_J (A : Int) (ALPHA : Quat F) (B : Int) (BETA : Quat F) (BZERO : Bool) (C : Int) (K : Int) (LDA : Int) (LDB : Int) (LDC : Int) (M : Int) (J : Int) :
    (Thr.hgemmhh_100_J A ALPHA B BETA BZERO C K LDA LDB LDC M J (F := F)).run = Haxx.hgemmhh_100_J A ALPHA B BETA BZERO C K LDA LDB LDC M J (F := F) := by
  simp only [Thr.hgemmhh_100_J, Haxx.hgemmhh_100_J, thr]

/-- As `Haxx.hgemmhh_if67`, `src/hblas/fortran/hblas3/hgemmhh.f:67-164`. -/
def hgemmhh_if67 (A : Int) (ALPHA : Quat F) (B : Int) (BETA : Quat F) (BONE : Bool) (BZERO : Bool) (C : Int) (CONJA : Bool) (K : Int) (LDA : Int) (LDB : Int) (LDC : Int) (M : Int) (N : Int) (NOTA : Bool) : Prog F (Unit) := do
  if NOTA then
    forN (N).toNat (fun i => hgemmhh_30_J A ALPHA B BETA BONE BZERO C K LDA LDB LDC M ((i : Int) + 1))
    pure ()
  else if CONJA then
    forN (N).toNat (fun i => hgemmhh_80_J A ALPHA B BETA BZERO C K LDA LDB LDC M ((i : Int) + 1))
    pure ()
  else
    forN (N).toNat (fun i => hgemmhh_100_J A ALPHA B BETA BZERO C K LDA LDB LDC M ((i : Int) + 1))
    pure ()

@[thr] theorem run_hgemmhh_if67 (A : Int) (ALPHA : Quat F) (B : Int) (BETA : Quat F) (BONE : Bool) (BZERO : Bool) (C : Int) (CONJA : Bool) (K : Int) (LDA : Int) (LDB : Int) (LDC : Int) (M : Int) (N : Int) (NOTA : Bool) :
    (Thr.hgemmhh_if67 A ALPHA B BETA BONE BZERO C CONJA K LDA LDB LDC M N NOTA (F := F)).run = Haxx.hgemmhh_if67 A ALPHA B BETA BONE BZERO C CONJA K LDA LDB LDC M N NOTA (F := F) := by
  simp only [Thr.hgemmhh_if67, Haxx.hgemmhh_if67, thr]

/-- As `Haxx.hgemmhh_130_I`, `src/hblas/fortran/hblas3/hgemmhh.f:172-175`, body of `DO 130 I`. -/
def hgemmhh_130_I (C : Int) (J : Int) (LDC : Int) (I : Int)  : Prog F (Unit) := do
  wrC (el3 2 2 LDC C 1 I J) (⟨zero, zero⟩ : Cplx F)
  wrC (el3 2 2 LDC C 2 I J) (⟨zero, zero⟩ : Cplx F)
  pure ()

@[thr] theorem run_hgemmhh_130_I (C : Int) (J : Int) (LDC : Int) (I : Int) :
    (Thr.hgemmhh_130_I C J LDC I (F := F)).run = Haxx.hgemmhh_130_I C J LDC I (F := F) := by
  simp only [Thr.hgemmhh_130_I, Haxx.hgemmhh_130_I, thr]

/-- As `Haxx.hgemmhh_140_I`, `src/hblas/fortran/hblas3/hgemmhh.f:177-181`, body of `DO 140 I`. -/
def hgemmhh_140_I (BETA : Quat F) (C : Int) (J : Int) (LDC : Int) (I : Int)  : Prog F (Unit) := do
  let t1 ← rdC (el3 2 2 LDC C 1 I J)
  let t2 ← rdC (el3 2 2 LDC C 2 I J)
  let HTMP1S : Cplx F := Quat.lo BETA *ᶜ t1 -ᶜ Quat.hi BETA *ᶜ Cplx.conj t2
  let t3 ← rdC (el3 2 2 LDC C 2 I J)
  let t4 ← rdC (el3 2 2 LDC C 1 I J)
  wrC (el3 2 2 LDC C 2 I J) (Quat.lo BETA *ᶜ t3 +ᶜ Quat.hi BETA *ᶜ Cplx.conj t4)
  wrC (el3 2 2 LDC C 1 I J) HTMP1S
  pure ()

@[thr] theorem run_hgemmhh_140_I (BETA : Quat F) (C : Int) (J : Int) (LDC : Int) (I : Int) :
    (Thr.hgemmhh_140_I BETA C J LDC I (F := F)).run = Haxx.hgemmhh_140_I BETA C J LDC I (F := F) := by
  simp only [Thr.hgemmhh_140_I, Haxx.hgemmhh_140_I, thr]

/-- As `Haxx.hgemmhh_if171`, `src/hblas/fortran/hblas3/hgemmhh.f:171-182`. -/
def hgemmhh_if171 (BETA : Quat F) (BONE : Bool) (BZERO : Bool) (C : Int) (J : Int) (LDC : Int) (M : Int) : Prog F (Unit) := do
  if BZERO then
    forN (M).toNat (fun i => hgemmhh_130_I C J LDC ((i : Int) + 1))
    pure ()
  else if !BONE then
    forN (M).toNat (fun i => hgemmhh_140_I BETA C J LDC ((i : Int) + 1))
    pure ()
  else
    pure ()

@[thr] theorem run_hgemmhh_if171 (BETA : Quat F) (BONE : Bool) (BZERO : Bool) (C : Int) (J : Int) (LDC : Int) (M : Int) :
    (Thr.hgemmhh_if171 BETA BONE BZERO C J LDC M (F := F)).run = Haxx.hgemmhh_if171 BETA BONE BZERO C J LDC M (F := F) := by
  simp only [Thr.hgemmhh_if171, Haxx.hgemmhh_if171, thr]

/-- As `Haxx.hgemmhh_160_I`, `src/hblas/fortran/hblas3/hgemmhh.f:193-201`, body of `DO 160 I`. -/
def hgemmhh_160_I (A : Int) (C : Int) (HTMP1J : Cplx F) (HTMP1S : Cplx F) (HTMP2J : Cplx F) (HTMP2S : Cplx F) (HTMP3J : Cplx F) (HTMP3S : Cplx F) (HTMP4J : Cplx F) (HTMP4S : Cplx F) (J : Int) (L : Int) (LDA : Int) (LDC : Int) (I : Int)  : Prog F (Unit) := do
  let t1 ← rdC (el3 2 2 LDC C 1 I J)
  let t2 ← rdC (el3 2 2 LDA A 1 I L)
  let t3 ← rdC (el3 2 2 LDA A 2 I L)
  let t4 ← rdC (el3 2 2 LDA A 1 I L)
  let t5 ← rdC (el3 2 2 LDA A 2 I L)
  wrC (el3 2 2 LDC C 1 I J) (t1 +ᶜ t2 *ᶜ HTMP2S -ᶜ t3 *ᶜ HTMP2J -ᶜ Cplx.conj t4 *ᶜ HTMP4J -ᶜ Cplx.conj t5 *ᶜ HTMP4S)
  let t6 ← rdC (el3 2 2 LDC C 2 I J)
  let t7 ← rdC (el3 2 2 LDA A 1 I L)
  let t8 ← rdC (el3 2 2 LDA A 2 I L)
  let t9 ← rdC (el3 2 2 LDA A 1 I L)
  let t10 ← rdC (el3 2 2 LDA A 2 I L)
  wrC (el3 2 2 LDC C 2 I J) (t6 +ᶜ t7 *ᶜ HTMP1J +ᶜ t8 *ᶜ HTMP1S +ᶜ Cplx.conj t9 *ᶜ HTMP3S -ᶜ Cplx.conj t10 *ᶜ HTMP3J)
  pure ()

@[thr] theorem run_hgemmhh_160_I (A : Int) (C : Int) (HTMP1J : Cplx F) (HTMP1S : Cplx F) (HTMP2J : Cplx F) (HTMP2S : Cplx F) (HTMP3J : Cplx F) (HTMP3S : Cplx F) (HTMP4J : Cplx F) (HTMP4S : Cplx F) (J : Int) (L : Int) (LDA : Int) (LDC : Int) (I : Int) :
    (Thr.hgemmhh_160_I A C HTMP1J HTMP1S HTMP2J HTMP2S HTMP3J HTMP3S HTMP4J HTMP4S J L LDA LDC I (F := F)).run = Haxx.hgemmhh_160_I A C HTMP1J HTMP1S HTMP2J HTMP2S HTMP3J HTMP3S HTMP4J HTMP4S J L LDA LDC I (F := F) := by
  simp only [Thr.hgemmhh_160_I, Haxx.hgemmhh_160_I, thr]

/-- As `Haxx.hgemmhh_150_L`, `src/hblas/fortran/hblas3/hgemmhh.f:184-202`, body of `DO 150 L`. -/
def hgemmhh_150_L (A : Int) (ALPHA : Quat F) (B : Int) (C : Int) (J : Int) (LDA : Int) (LDB : Int) (LDC : Int) (M : Int) (L : Int)  : Prog F (Unit) := do
  let t1 ← rdC (el3 2 2 LDB B 1 J L)
  let HTMP1S : Cplx F := Quat.lo ALPHA *ᶜ t1
  let t2 ← rdC (el3 2 2 LDB B 2 J L)
  let HTMP1J : Cplx F := Cplx.neg (Quat.lo ALPHA *ᶜ t2)
  let t3 ← rdC (el3 2 2 LDB B 1 J L)
  let HTMP2S : Cplx F := Quat.lo ALPHA *ᶜ Cplx.conj t3
  let t4 ← rdC (el3 2 2 LDB B 2 J L)
  let HTMP2J : Cplx F := Cplx.neg (Quat.lo ALPHA *ᶜ Cplx.conj t4)
  let t5 ← rdC (el3 2 2 LDB B 1 J L)
  let HTMP3S : Cplx F := Quat.hi ALPHA *ᶜ t5
  let t6 ← rdC (el3 2 2 LDB B 2 J L)
  let HTMP3J : Cplx F := Cplx.neg (Quat.hi ALPHA *ᶜ t6)
  let t7 ← rdC (el3 2 2 LDB B 1 J L)
  let HTMP4S : Cplx F := Quat.hi ALPHA *ᶜ Cplx.conj t7
  let t8 ← rdC (el3 2 2 LDB B 2 J L)
  let HTMP4J : Cplx F := Cplx.neg (Quat.hi ALPHA *ᶜ Cplx.conj t8)
  forN (M).toNat (fun i => hgemmhh_160_I A C HTMP1J HTMP1S HTMP2J HTMP2S HTMP3J HTMP3S HTMP4J HTMP4S J L LDA LDC ((i : Int) + 1))
  pure ()

@[thr] theorem run_hgemmhh_150_L (A : Int) (ALPHA : Quat F) (B : Int) (C : Int) (J : Int) (LDA : Int) (LDB : Int) (LDC : Int) (M : Int) (L : Int) :
    (Thr.hgemmhh_150_L A ALPHA B C J LDA LDB LDC M L (F := F)).run = Haxx.hgemmhh_150_L A ALPHA B C J LDA LDB LDC M L (F := F) := by
  simp only [Thr.hgemmhh_150_L, Haxx.hgemmhh_150_L, thr]

/-- As `Haxx.hgemmhh_120_J`, `src/hblas/fortran/hblas3/hgemmhh.f:170-203`, body of `DO 120 J`. -/
def hgemmhh_120_J (A : Int) (ALPHA : Quat F) (B : Int) (BETA : Quat F) (BONE : Bool) (BZERO : Bool) (C : Int) (K : Int) (LDA : Int) (LDB : Int) (LDC : Int) (M : Int) (J : Int)  : Prog F (Unit) := do
  hgemmhh_if171 BETA BONE BZERO C J LDC M
  forN (K).toNat (fun i => hgemmhh_150_L A ALPHA B C J LDA LDB LDC M ((i : Int) + 1))
  pure ()

@[thr] theorem run_hgemmhh_120_J (A : Int) (ALPHA : Quat F) (B : Int) (BETA : Quat F) (BONE : Bool) (BZERO : Bool) (C : Int) (K : Int) (LDA : Int) (LDB : Int) (LDC : Int) (M : Int) (J : Int) :
    (Thr.hgemmhh_120_J A ALPHA B BETA BONE BZERO C K LDA LDB LDC M J (F := F)).run = Haxx.hgemmhh_120_J A ALPHA B BETA BONE BZERO C K LDA LDB LDC M J (F := F) := by
  simp only [Thr.hgemmhh_120_J, Haxx.hgemmhh_120_J, thr]

/-- As `Haxx.hgemmhh_180_I`, `src/hblas/fortran/hblas3/hgemmhh.f:211-214`, body of `DO 180 I`. -/
def hgemmhh_180_I (C : Int) (J : Int) (LDC : Int) (I : Int)  : Prog F (Unit) := do
  wrC (el3 2 2 LDC C 1 I J) (⟨zero, zero⟩ : Cplx F)
  wrC (el3 2 2 LDC C 2 I J) (⟨zero, zero⟩ : Cplx F)
  pure ()

@[thr] theorem run_hgemmhh_180_I (C : Int) (J : Int) (LDC : Int) (I : Int) :
    (Thr.hgemmhh_180_I C J LDC I (F := F)).run = Haxx.hgemmhh_180_I C J LDC I (F := F) := by
  simp only [Thr.hgemmhh_180_I, Haxx.hgemmhh_180_I, thr]

/-- As `Haxx.hgemmhh_190_I`, `src/hblas/fortran/hblas3/hgemmhh.f:216-220`, body of `DO 190 I`. -/
def hgemmhh_190_I (BETA : Quat F) (C : Int) (J : Int) (LDC : Int) (I : Int)  : Prog F (Unit) := do
  let t1 ← rdC (el3 2 2 LDC C 1 I J)
  let t2 ← rdC (el3 2 2 LDC C 2 I J)
  let HTMP1S : Cplx F := Quat.lo BETA *ᶜ t1 -ᶜ Quat.hi BETA *ᶜ Cplx.conj t2
  let t3 ← rdC (el3 2 2 LDC C 2 I J)
  let t4 ← rdC (el3 2 2 LDC C 1 I J)
  wrC (el3 2 2 LDC C 2 I J) (Quat.lo BETA *ᶜ t3 +ᶜ Quat.hi BETA *ᶜ Cplx.conj t4)
  wrC (el3 2 2 LDC C 1 I J) HTMP1S
  pure ()

@[thr] theorem run_hgemmhh_190_I (BETA : Quat F) (C : Int) (J : Int) (LDC : Int) (I : Int) :
    (Thr.hgemmhh_190_I BETA C J LDC I (F := F)).run = Haxx.hgemmhh_190_I BETA C J LDC I (F := F) := by
  simp only [Thr.hgemmhh_190_I, Haxx.hgemmhh_190_I, thr]

/-- As `Haxx.hgemmhh_if210`, `src/hblas/fortran/hblas3/hgemmhh.f:210-221`. -/
def hgemmhh_if210 (BETA : Quat F) (BONE : Bool) (BZERO : Bool) (C : Int) (J : Int) (LDC : Int) (M : Int) : Prog F (Unit) := do
  if BZERO then
    forN (M).toNat (fun i => hgemmhh_180_I C J LDC ((i : Int) + 1))
    pure ()
  else if !BONE then
    forN (M).toNat (fun i => hgemmhh_190_I BETA C J LDC ((i : Int) + 1))
    pure ()
  else
    pure ()

@[thr] theorem run_hgemmhh_if210 (BETA : Quat F) (BONE : Bool) (BZERO : Bool) (C : Int) (J : Int) (LDC : Int) (M : Int) :
    (Thr.hgemmhh_if210 BETA BONE BZERO C J LDC M (F := F)).run = Haxx.hgemmhh_if210 BETA BONE BZERO C J LDC M (F := F) := by
  simp only [Thr.hgemmhh_if210, Haxx.hgemmhh_if210, thr]

/-- As `Haxx.hgemmhh_210_I`, `src/hblas/fortran/hblas3/hgemmhh.f:232-240`, body of `DO 210 I`. -/
def hgemmhh_210_I (A : Int) (C : Int) (HTMP1J : Cplx F) (HTMP1S : Cplx F) (HTMP2J : Cplx F) (HTMP2S : Cplx F) (HTMP3J : Cplx F) (HTMP3S : Cplx F) (HTMP4J : Cplx F) (HTMP4S : Cplx F) (J : Int) (L : Int) (LDA : Int) (LDC : Int) (I : Int)  : Prog F (Unit) := do
  let t1 ← rdC (el3 2 2 LDC C 1 I J)
  let t2 ← rdC (el3 2 2 LDA A 1 I L)
  let t3 ← rdC (el3 2 2 LDA A 2 I L)
  let t4 ← rdC (el3 2 2 LDA A 1 I L)
  let t5 ← rdC (el3 2 2 LDA A 2 I L)
  wrC (el3 2 2 LDC C 1 I J) (t1 +ᶜ t2 *ᶜ HTMP1S -ᶜ t3 *ᶜ HTMP2J -ᶜ Cplx.conj t4 *ᶜ HTMP4J -ᶜ Cplx.conj t5 *ᶜ HTMP3S)
  let t6 ← rdC (el3 2 2 LDC C 2 I J)
  let t7 ← rdC (el3 2 2 LDA A 1 I L)
  let t8 ← rdC (el3 2 2 LDA A 2 I L)
  let t9 ← rdC (el3 2 2 LDA A 1 I L)
  let t10 ← rdC (el3 2 2 LDA A 2 I L)
  wrC (el3 2 2 LDC C 2 I J) (t6 +ᶜ t7 *ᶜ HTMP1J +ᶜ t8 *ᶜ HTMP2S +ᶜ Cplx.conj t9 *ᶜ HTMP4S -ᶜ Cplx.conj t10 *ᶜ HTMP3J)
  pure ()

@[thr] theorem run_hgemmhh_210_I (A : Int) (C : Int) (HTMP1J : Cplx F) (HTMP1S : Cplx F) (HTMP2J : Cplx F) (HTMP2S : Cplx F) (HTMP3J : Cplx F) (HTMP3S : Cplx F) (HTMP4J : Cplx F) (HTMP4S : Cplx F) (J : Int) (L : Int) (LDA : Int) (LDC : Int) (I : Int) :
    (Thr.hgemmhh_210_I A C HTMP1J HTMP1S HTMP2J HTMP2S HTMP3J HTMP3S HTMP4J HTMP4S J L LDA LDC I (F := F)).run = Haxx.hgemmhh_210_I A C HTMP1J HTMP1S HTMP2J HTMP2S HTMP3J HTMP3S HTMP4J HTMP4S J L LDA LDC I (F := F) := by
  simp only [Thr.hgemmhh_210_I, Haxx.hgemmhh_210_I, thr]

/-- As `Haxx.hgemmhh_200_L`, `src/hblas/fortran/hblas3/hgemmhh.f:223-241`, body of `DO 200 L`. -/
def hgemmhh_200_L (A : Int) (ALPHA : Quat F) (B : Int) (C : Int) (J : Int) (LDA : Int) (LDB : Int) (LDC : Int) (M : Int) (L : Int)  : Prog F (Unit) := do
  let t1 ← rdC (el3 2 2 LDB B 1 J L)
  let HTMP1S : Cplx F := Quat.lo ALPHA *ᶜ t1
  let t2 ← rdC (el3 2 2 LDB B 2 J L)
  let HTMP1J : Cplx F := Quat.lo ALPHA *ᶜ t2
  let t3 ← rdC (el3 2 2 LDB B 1 J L)
  let HTMP2S : Cplx F := Quat.lo ALPHA *ᶜ Cplx.conj t3
  let t4 ← rdC (el3 2 2 LDB B 2 J L)
  let HTMP2J : Cplx F := Quat.lo ALPHA *ᶜ Cplx.conj t4
  let t5 ← rdC (el3 2 2 LDB B 1 J L)
  let HTMP3S : Cplx F := Quat.hi ALPHA *ᶜ t5
  let t6 ← rdC (el3 2 2 LDB B 2 J L)
  let HTMP3J : Cplx F := Quat.hi ALPHA *ᶜ t6
  let t7 ← rdC (el3 2 2 LDB B 1 J L)
  let HTMP4S : Cplx F := Quat.hi ALPHA *ᶜ Cplx.conj t7
  let t8 ← rdC (el3 2 2 LDB B 2 J L)
  let HTMP4J : Cplx F := Quat.hi ALPHA *ᶜ Cplx.conj t8
  forN (M).toNat (fun i => hgemmhh_210_I A C HTMP1J HTMP1S HTMP2J HTMP2S HTMP3J HTMP3S HTMP4J HTMP4S J L LDA LDC ((i : Int) + 1))
  pure ()

@[thr] theorem run_hgemmhh_200_L (A : Int) (ALPHA : Quat F) (B : Int) (C : Int) (J : Int) (LDA : Int) (LDB : Int) (LDC : Int) (M : Int) (L : Int) :
    (Thr.hgemmhh_200_L A ALPHA B C J LDA LDB LDC M L (F := F)).run = Haxx.hgemmhh_200_L A ALPHA B C J LDA LDB LDC M L (F := F) := by
  simp only [Thr.hgemmhh_200_L, Haxx.hgemmhh_200_L, thr]

/-- As `Haxx.hgemmhh_170_J`, `src/hblas/fortran/hblas3/hgemmhh.f:209-242`, body of `DO 170 J`. -/
def hgemmhh_170_J (A : Int) (ALPHA : Quat F) (B : Int) (BETA : Quat F) (BONE : Bool) (BZERO : Bool) (C : Int) (K : Int) (LDA : Int) (LDB : Int) (LDC : Int) (M : Int) (J : Int)  : Prog F (Unit) := do
  hgemmhh_if210 BETA BONE BZERO C J LDC M
  forN (K).toNat (fun i => hgemmhh_200_L A ALPHA B C J LDA LDB LDC M ((i : Int) + 1))
  pure ()

@[thr] theorem run_hgemmhh_170_J (A : Int) (ALPHA : Quat F) (B : Int) (BETA : Quat F) (BONE : Bool) (BZERO : Bool) (C : Int) (K : Int) (LDA : Int) (LDB : Int) (LDC : Int) (M : Int) (J : Int) :
    (Thr.hgemmhh_170_J A ALPHA B BETA BONE BZERO C K LDA LDB LDC M J (F := F)).run = Haxx.hgemmhh_170_J A ALPHA B BETA BONE BZERO C K LDA LDB LDC M J (F := F) := by
  simp only [Thr.hgemmhh_170_J, Haxx.hgemmhh_170_J, thr]

/-- As `Haxx.hgemmhh_if166`, `src/hblas/fortran/hblas3/hgemmhh.f:166-243`. -/
def hgemmhh_if166 (A : Int) (ALPHA : Quat F) (B : Int) (BETA : Quat F) (BONE : Bool) (BZERO : Bool) (C : Int) (CONJB : Bool) (K : Int) (LDA : Int) (LDB : Int) (LDC : Int) (M : Int) (N : Int) : Prog F (Unit) := do
  if CONJB then
    forN (N).toNat (fun i => hgemmhh_120_J A ALPHA B BETA BONE BZERO C K LDA LDB LDC M ((i : Int) + 1))
    pure ()
  else
    forN (N).toNat (fun i => hgemmhh_170_J A ALPHA B BETA BONE BZERO C K LDA LDB LDC M ((i : Int) + 1))
    pure ()

@[thr] theorem run_hgemmhh_if166 (A : Int) (ALPHA : Quat F) (B : Int) (BETA : Quat F) (BONE : Bool) (BZERO : Bool) (C : Int) (CONJB : Bool) (K : Int) (LDA : Int) (LDB : Int) (LDC : Int) (M : Int) (N : Int) :
    (Thr.hgemmhh_if166 A ALPHA B BETA BONE BZERO C CONJB K LDA LDB LDC M N (F := F)).run = Haxx.hgemmhh_if166 A ALPHA B BETA BONE BZERO C CONJB K LDA LDB LDC M N (F := F) := by
  simp only [Thr.hgemmhh_if166, Haxx.hgemmhh_if166, thr]

/-- As `Haxx.hgemmhh_230_L`, `src/hblas/fortran/hblas3/hgemmhh.f:253-260`, body of `DO 230 L`. -/
def hgemmhh_230_L (A : Int) (B : Int) (I : Int) (J : Int) (LDA : Int) (LDB : Int) (L : Int) (HTMP1J : Cplx F) (HTMP1S : Cplx F) : Prog F (Cplx F × Cplx F) := do
  let t1 ← rdC (el3 2 2 LDA A 1 L I)
  let t2 ← rdC (el3 2 2 LDB B 1 J L)
  let t3 ← rdC (el3 2 2 LDA A 2 L I)
  let t4 ← rdC (el3 2 2 LDB B 2 J L)
  let HTMP1S : Cplx F := HTMP1S +ᶜ Cplx.conj t1 *ᶜ Cplx.conj t2 -ᶜ t3 *ᶜ Cplx.conj t4
  let t5 ← rdC (el3 2 2 LDA A 1 L I)
  let t6 ← rdC (el3 2 2 LDB B 2 J L)
  let t7 ← rdC (el3 2 2 LDA A 2 L I)
  let t8 ← rdC (el3 2 2 LDB B 1 J L)
  let HTMP1J : Cplx F := HTMP1J -ᶜ Cplx.conj t5 *ᶜ t6 -ᶜ t7 *ᶜ t8
  pure (HTMP1J, HTMP1S)

@[thr] theorem run_hgemmhh_230_L (A : Int) (B : Int) (I : Int) (J : Int) (LDA : Int) (LDB : Int) (L : Int) (HTMP1J : Cplx F) (HTMP1S : Cplx F) :
    (Thr.hgemmhh_230_L A B I J LDA LDB L HTMP1J HTMP1S (F := F)).run = Haxx.hgemmhh_230_L A B I J LDA LDB L HTMP1J HTMP1S (F := F) := by
  simp only [Thr.hgemmhh_230_L, Haxx.hgemmhh_230_L, thr]

/-- As `Haxx.hgemmhh_220_I`, `src/hblas/fortran/hblas3/hgemmhh.f:250-274`, body of `DO 220 I`. -/
def hgemmhh_220_I (A : Int) (ALPHA : Quat F) (B : Int) (BETA : Quat F) (BZERO : Bool) (C : Int) (J : Int) (K : Int) (LDA : Int) (LDB : Int) (LDC : Int) (I : Int)  : Prog F (Unit) := do
  let HTMP1S : Cplx F := (⟨zero, zero⟩ : Cplx F)
  let HTMP1J : Cplx F := (⟨zero, zero⟩ : Cplx F)
  let r ← foldN (K).toNat (fun i (s : Cplx F × Cplx F) => hgemmhh_230_L A B I J LDA LDB ((i : Int) + 1) s.1 s.2) (HTMP1J, HTMP1S)
  let HTMP1J : Cplx F := r.1
  let HTMP1S : Cplx F := r.2
  let _ ← (do
    if BZERO then
      wrC (el3 2 2 LDC C 1 I J) (Quat.lo ALPHA *ᶜ HTMP1S -ᶜ Quat.hi ALPHA *ᶜ Cplx.conj HTMP1J)
      wrC (el3 2 2 LDC C 2 I J) (Quat.lo ALPHA *ᶜ HTMP1J +ᶜ Quat.hi ALPHA *ᶜ Cplx.conj HTMP1S)
      pure ()
    else
      let t1 ← rdC (el3 2 2 LDC C 1 I J)
      let t2 ← rdC (el3 2 2 LDC C 2 I J)
      let HTMP2S : Cplx F := Quat.lo ALPHA *ᶜ HTMP1S -ᶜ Quat.hi ALPHA *ᶜ Cplx.conj HTMP1J +ᶜ Quat.lo BETA *ᶜ t1 -ᶜ Quat.hi BETA *ᶜ Cplx.conj t2
      let t3 ← rdC (el3 2 2 LDC C 2 I J)
      let t4 ← rdC (el3 2 2 LDC C 1 I J)
      wrC (el3 2 2 LDC C 2 I J) (Quat.lo ALPHA *ᶜ HTMP1J +ᶜ Quat.hi ALPHA *ᶜ Cplx.conj HTMP1S +ᶜ Quat.lo BETA *ᶜ t3 +ᶜ Quat.hi BETA *ᶜ Cplx.conj t4)
      wrC (el3 2 2 LDC C 1 I J) HTMP2S
      pure () : Prog F Unit)
  pure ()

@[thr] theorem run_hgemmhh_220_I (A : Int) (ALPHA : Quat F) (B : Int) (BETA : Quat F) (BZERO : Bool) (C : Int) (J : Int) (K : Int) (LDA : Int) (LDB : Int) (LDC : Int) (I : Int) :
    (Thr.hgemmhh_220_I A ALPHA B BETA BZERO C J K LDA LDB LDC I (F := F)).run = Haxx.hgemmhh_220_I A ALPHA B BETA BZERO C J K LDA LDB LDC I (F := F) := by
  simp only [Thr.hgemmhh_220_I, Haxx.hgemmhh_220_I, thr]

/-- As `Haxx.hgemmhh_220_J`, `src/hblas/fortran/hblas3/hgemmhh.f:249-274`, body of `DO 220 J`. -/
def hgemmhh_220_J (A : Int) (ALPHA : Quat F) (B : Int) (BETA : Quat F) (BZERO : Bool) (C : Int) (K : Int) (LDA : Int) (LDB : Int) (LDC : Int) (M : Int) (J : Int)  : Prog F (Unit) := do
  forN (M).toNat (fun i => hgemmhh_220_I A ALPHA B BETA BZERO C J K LDA LDB LDC ((i : Int) + 1))
  pure ()

@[thr] theorem run_hgemmhh_220_J (A : Int) (ALPHA : Quat F) (B : Int) (BETA : Quat F) (BZERO : Bool) (C : Int) (K : Int) (LDA : Int) (LDB : Int) (LDC : Int) (M : Int) (J : Int) :
    (Thr.hgemmhh_220_J A ALPHA B BETA BZERO C K LDA LDB LDC M J (F := F)).run = Haxx.hgemmhh_220_J A ALPHA B BETA BZERO C K LDA LDB LDC M J (F := F) := by
  simp only [Thr.hgemmhh_220_J, Haxx.hgemmhh_220_J, thr]

/-- As `Haxx.hgemmhh_250_L`, `src/hblas/fortran/hblas3/hgemmhh.f:284-290`, body of `DO 250 L`. -/
def hgemmhh_250_L (A : Int) (B : Int) (I : Int) (J : Int) (LDA : Int) (LDB : Int) (L : Int) (HTMP1J : Cplx F) (HTMP1S : Cplx F) : Prog F (Cplx F × Cplx F) := do
  let t1 ← rdC (el3 2 2 LDA A 1 L I)
  let t2 ← rdC (el3 2 2 LDB B 1 J L)
  let t3 ← rdC (el3 2 2 LDA A 2 L I)
  let t4 ← rdC (el3 2 2 LDB B 2 J L)
  let HTMP1S : Cplx F := HTMP1S +ᶜ Cplx.conj t1 *ᶜ t2 +ᶜ t3 *ᶜ Cplx.conj t4
  let t5 ← rdC (el3 2 2 LDA A 1 L I)
  let t6 ← rdC (el3 2 2 LDB B 2 J L)
  let t7 ← rdC (el3 2 2 LDA A 2 L I)
  let t8 ← rdC (el3 2 2 LDB B 1 J L)
  let HTMP1J : Cplx F := HTMP1J +ᶜ Cplx.conj t5 *ᶜ t6 -ᶜ t7 *ᶜ Cplx.conj t8
  pure (HTMP1J, HTMP1S)

@[thr] theorem run_hgemmhh_250_L (A : Int) (B : Int) (I : Int) (J : Int) (LDA : Int) (LDB : Int) (L : Int) (HTMP1J : Cplx F) (HTMP1S : Cplx F) :
    (Thr.hgemmhh_250_L A B I J LDA LDB L HTMP1J HTMP1S (F := F)).run = Haxx.hgemmhh_250_L A B I J LDA LDB L HTMP1J HTMP1S (F := F) := by
  simp only [Thr.hgemmhh_250_L, Haxx.hgemmhh_250_L, thr]

/-- As `Haxx.hgemmhh_240_I`, `src/hblas/fortran/hblas3/hgemmhh.f:281-304`, body of `DO 240 I`. -/
def hgemmhh_240_I (A : Int) (ALPHA : Quat F) (B : Int) (BETA : Quat F) (BZERO : Bool) (C : Int) (J : Int) (K : Int) (LDA : Int) (LDB : Int) (LDC : Int) (I : Int)  : Prog F (Unit) := do
  let HTMP1S : Cplx F := (⟨zero, zero⟩ : Cplx F)
  let HTMP1J : Cplx F := (⟨zero, zero⟩ : Cplx F)
  let r ← foldN (K).toNat (fun i (s : Cplx F × Cplx F) => hgemmhh_250_L A B I J LDA LDB ((i : Int) + 1) s.1 s.2) (HTMP1J, HTMP1S)
  let HTMP1J : Cplx F := r.1
  let HTMP1S : Cplx F := r.2
  let _ ← (do
    if BZERO then
      wrC (el3 2 2 LDC C 1 I J) (Quat.lo ALPHA *ᶜ HTMP1S -ᶜ Quat.hi ALPHA *ᶜ Cplx.conj HTMP1J)
      wrC (el3 2 2 LDC C 2 I J) (Quat.lo ALPHA *ᶜ HTMP1J +ᶜ Quat.hi ALPHA *ᶜ Cplx.conj HTMP1S)
      pure ()
    else
      let t1 ← rdC (el3 2 2 LDC C 1 I J)
      let t2 ← rdC (el3 2 2 LDC C 2 I J)
      let HTMP2S : Cplx F := Quat.lo ALPHA *ᶜ HTMP1S -ᶜ Quat.hi ALPHA *ᶜ Cplx.conj HTMP1J +ᶜ Quat.lo BETA *ᶜ t1 -ᶜ Quat.hi BETA *ᶜ Cplx.conj t2
      let t3 ← rdC (el3 2 2 LDC C 2 I J)
      let t4 ← rdC (el3 2 2 LDC C 1 I J)
      wrC (el3 2 2 LDC C 2 I J) (Quat.lo ALPHA *ᶜ HTMP1J +ᶜ Quat.hi ALPHA *ᶜ Cplx.conj HTMP1S +ᶜ Quat.lo BETA *ᶜ t3 +ᶜ Quat.hi BETA *ᶜ Cplx.conj t4)
      wrC (el3 2 2 LDC C 1 I J) HTMP2S
      pure () : Prog F Unit)
  pure ()

@[thr] theorem run_hgemmhh_240_I (A : Int) (ALPHA : Quat F) (B : Int) (BETA : Quat F) (BZERO : Bool) (C : Int) (J : Int) (K : Int) (LDA : Int) (LDB : Int) (LDC : Int) (I : Int) :
    (Thr.hgemmhh_240_I A ALPHA B BETA BZERO C J K LDA LDB LDC I (F := F)).run = Haxx.hgemmhh_240_I A ALPHA B BETA BZERO C J K LDA LDB LDC I (F := F) := by
  simp only [Thr.hgemmhh_240_I, Haxx.hgemmhh_240_I, thr]

/-- As `Haxx.hgemmhh_240_J`, `src/hblas/fortran/hblas3/hgemmhh.f:280-304`, body of `DO 240 J`. -/
def hgemmhh_240_J (A : Int) (ALPHA : Quat F) (B : Int) (BETA : Quat F) (BZERO : Bool) (C : Int) (K : Int) (LDA : Int) (LDB : Int) (LDC : Int) (M : Int) (J : Int)  : Prog F (Unit) := do
  forN (M).toNat (fun i => hgemmhh_240_I A ALPHA B BETA BZERO C J K LDA LDB LDC ((i : Int) + 1))
  pure ()

@[thr] theorem run_hgemmhh_240_J (A : Int) (ALPHA : Quat F) (B : Int) (BETA : Quat F) (BZERO : Bool) (C : Int) (K : Int) (LDA : Int) (LDB : Int) (LDC : Int) (M : Int) (J : Int) :
    (Thr.hgemmhh_240_J A ALPHA B BETA BZERO C K LDA LDB LDC M J (F := F)).run = Haxx.hgemmhh_240_J A ALPHA B BETA BZERO C K LDA LDB LDC M J (F := F) := by
  simp only [Thr.hgemmhh_240_J, Haxx.hgemmhh_240_J, thr]

/-- As `Haxx.hgemmhh_if245`, `src/hblas/fortran/hblas3/hgemmhh.f:245-305`. -/
def hgemmhh_if245 (A : Int) (ALPHA : Quat F) (B : Int) (BETA : Quat F) (BZERO : Bool) (C : Int) (CONJB : Bool) (K : Int) (LDA : Int) (LDB : Int) (LDC : Int) (M : Int) (N : Int) : Prog F (Unit) := do
  if CONJB then
    forN (N).toNat (fun i => hgemmhh_220_J A ALPHA B BETA BZERO C K LDA LDB LDC M ((i : Int) + 1))
    pure ()
  else
    forN (N).toNat (fun i => hgemmhh_240_J A ALPHA B BETA BZERO C K LDA LDB LDC M ((i : Int) + 1))
    pure ()

@[thr] theorem run_hgemmhh_if245 (A : Int) (ALPHA : Quat F) (B : Int) (BETA : Quat F) (BZERO : Bool) (C : Int) (CONJB : Bool) (K : Int) (LDA : Int) (LDB : Int) (LDC : Int) (M : Int) (N : Int) :
    (Thr.hgemmhh_if245 A ALPHA B BETA BZERO C CONJB K LDA LDB LDC M N (F := F)).run = Haxx.hgemmhh_if245 A ALPHA B BETA BZERO C CONJB K LDA LDB LDC M N (F := F) := by
  simp only [Thr.hgemmhh_if245, Haxx.hgemmhh_if245, thr]

/-- As `Haxx.hgemmhh_270_L`, `src/hblas/fortran/hblas3/hgemmhh.f:316-322`, body of `DO 270 L`. -/
def hgemmhh_270_L (A : Int) (B : Int) (I : Int) (J : Int) (LDA : Int) (LDB : Int) (L : Int) (HTMP1J : Cplx F) (HTMP1S : Cplx F) : Prog F (Cplx F × Cplx F) := do
  let t1 ← rdC (el3 2 2 LDA A 1 L I)
  let t2 ← rdC (el3 2 2 LDB B 1 J L)
  let t3 ← rdC (el3 2 2 LDA A 2 L I)
  let t4 ← rdC (el3 2 2 LDB B 2 J L)
  let HTMP1S : Cplx F := HTMP1S +ᶜ t1 *ᶜ Cplx.conj t2 +ᶜ t3 *ᶜ Cplx.conj t4
  let t5 ← rdC (el3 2 2 LDA A 1 L I)
  let t6 ← rdC (el3 2 2 LDB B 2 J L)
  let t7 ← rdC (el3 2 2 LDA A 2 L I)
  let t8 ← rdC (el3 2 2 LDB B 1 J L)
  let HTMP1J : Cplx F := HTMP1J -ᶜ t5 *ᶜ t6 +ᶜ t7 *ᶜ t8
  pure (HTMP1J, HTMP1S)

@[thr] theorem run_hgemmhh_270_L (A : Int) (B : Int) (I : Int) (J : Int) (LDA : Int) (LDB : Int) (L : Int) (HTMP1J : Cplx F) (HTMP1S : Cplx F) :
    (Thr.hgemmhh_270_L A B I J LDA LDB L HTMP1J HTMP1S (F := F)).run = Haxx.hgemmhh_270_L A B I J LDA LDB L HTMP1J HTMP1S (F := F) := by
  simp only [Thr.hgemmhh_270_L, Haxx.hgemmhh_270_L, thr]

/-- As `Haxx.hgemmhh_260_I`, `src/hblas/fortran/hblas3/hgemmhh.f:313-336`, body of `DO 260 I`. -/
def hgemmhh_260_I (A : Int) (ALPHA : Quat F) (B : Int) (BETA : Quat F) (BZERO : Bool) (C : Int) (J : Int) (K : Int) (LDA : Int) (LDB : Int) (LDC : Int) (I : Int)  : Prog F (Unit) := do
  let HTMP1S : Cplx F := (⟨zero, zero⟩ : Cplx F)
  let HTMP1J : Cplx F := (⟨zero, zero⟩ : Cplx F)
  let r ← foldN (K).toNat (fun i (s : Cplx F × Cplx F) => hgemmhh_270_L A B I J LDA LDB ((i : Int) + 1) s.1 s.2) (HTMP1J, HTMP1S)
  let HTMP1J : Cplx F := r.1
  let HTMP1S : Cplx F := r.2
  let _ ← (do
    if BZERO then
      wrC (el3 2 2 LDC C 1 I J) (Quat.lo ALPHA *ᶜ HTMP1S -ᶜ Quat.hi ALPHA *ᶜ Cplx.conj HTMP1J)
      wrC (el3 2 2 LDC C 2 I J) (Quat.lo ALPHA *ᶜ HTMP1J +ᶜ Quat.hi ALPHA *ᶜ Cplx.conj HTMP1S)
      pure ()
    else
      let t1 ← rdC (el3 2 2 LDC C 1 I J)
      let t2 ← rdC (el3 2 2 LDC C 2 I J)
      let HTMP2S : Cplx F := Quat.lo ALPHA *ᶜ HTMP1S -ᶜ Quat.hi ALPHA *ᶜ Cplx.conj HTMP1J +ᶜ Quat.lo BETA *ᶜ t1 -ᶜ Quat.hi BETA *ᶜ Cplx.conj t2
      let t3 ← rdC (el3 2 2 LDC C 2 I J)
      let t4 ← rdC (el3 2 2 LDC C 1 I J)
      wrC (el3 2 2 LDC C 2 I J) (Quat.lo ALPHA *ᶜ HTMP1J +ᶜ Quat.hi ALPHA *ᶜ Cplx.conj HTMP1S +ᶜ Quat.lo BETA *ᶜ t3 +ᶜ Quat.hi BETA *ᶜ Cplx.conj t4)
      wrC (el3 2 2 LDC C 1 I J) HTMP2S
      pure () : Prog F Unit)
  pure ()

@[thr] theorem run_hgemmhh_260_I (A : Int) (ALPHA : Quat F) (B : Int) (BETA : Quat F) (BZERO : Bool) (C : Int) (J : Int) (K : Int) (LDA : Int) (LDB : Int) (LDC : Int) (I : Int) :
    (Thr.hgemmhh_260_I A ALPHA B BETA BZERO C J K LDA LDB LDC I (F := F)).run = Haxx.hgemmhh_260_I A ALPHA B BETA BZERO C J K LDA LDB LDC I (F := F) := by
  simp only [Thr.hgemmhh_260_I, Haxx.hgemmhh_260_I, thr]

/-- As `Haxx.hgemmhh_260_J`, `src/hblas/fortran/hblas3/hgemmhh.f:312-336`, body of `DO 260 J`. -/
def hgemmhh_260_J (A : Int) (ALPHA : Quat F) (B : Int) (BETA : Quat F) (BZERO : Bool) (C : Int) (K : Int) (LDA : Int) (LDB : Int) (LDC : Int) (M : Int) (J : Int)  : Prog F (Unit) := do
  forN (M).toNat (fun i => hgemmhh_260_I A ALPHA B BETA BZERO C J K LDA LDB LDC ((i : Int) + 1))
  pure ()

@[thr] theorem run_hgemmhh_260_J (A : Int) (ALPHA : Quat F) (B : Int) (BETA : Quat F) (BZERO : Bool) (C : Int) (K : Int) (LDA : Int) (LDB : Int) (LDC : Int) (M : Int) (J : Int) :
    (Thr.hgemmhh_260_J A ALPHA B BETA BZERO C K LDA LDB LDC M J (F := F)).run = Haxx.hgemmhh_260_J A ALPHA B BETA BZERO C K LDA LDB LDC M J (F := F) := by
  simp only [Thr.hgemmhh_260_J, Haxx.hgemmhh_260_J, thr]

/-- As `Haxx.hgemmhh_290_L`, `src/hblas/fortran/hblas3/hgemmhh.f:345-351`, body of `DO 290 L`. -/
def hgemmhh_290_L (A : Int) (B : Int) (I : Int) (J : Int) (LDA : Int) (LDB : Int) (L : Int) (HTMP1J : Cplx F) (HTMP1S : Cplx F) : Prog F (Cplx F × Cplx F) := do
  let t1 ← rdC (el3 2 2 LDA A 1 L I)
  let t2 ← rdC (el3 2 2 LDB B 1 J L)
  let t3 ← rdC (el3 2 2 LDA A 2 L I)
  let t4 ← rdC (el3 2 2 LDB B 2 J L)
  let HTMP1S : Cplx F := HTMP1S +ᶜ t1 *ᶜ t2 -ᶜ t3 *ᶜ Cplx.conj t4
  let t5 ← rdC (el3 2 2 LDA A 1 L I)
  let t6 ← rdC (el3 2 2 LDB B 2 J L)
  let t7 ← rdC (el3 2 2 LDA A 2 L I)
  let t8 ← rdC (el3 2 2 LDB B 1 J L)
  let HTMP1J : Cplx F := HTMP1J +ᶜ t5 *ᶜ t6 +ᶜ t7 *ᶜ Cplx.conj t8
  pure (HTMP1J, HTMP1S)

@[thr] theorem run_hgemmhh_290_L (A : Int) (B : Int) (I : Int) (J : Int) (LDA : Int) (LDB : Int) (L : Int) (HTMP1J : Cplx F) (HTMP1S : Cplx F) :
    (Thr.hgemmhh_290_L A B I J LDA LDB L HTMP1J HTMP1S (F := F)).run = Haxx.hgemmhh_290_L A B I J LDA LDB L HTMP1J HTMP1S (F := F) := by
  simp only [Thr.hgemmhh_290_L, Haxx.hgemmhh_290_L, thr]

/-- As `Haxx.hgemmhh_280_I`, `src/hblas/fortran/hblas3/hgemmhh.f:342-365`, body of `DO 280 I`. -/
def hgemmhh_280_I (A : Int) (ALPHA : Quat F) (B : Int) (BETA : Quat F) (BZERO : Bool) (C : Int) (J : Int) (K : Int) (LDA : Int) (LDB : Int) (LDC : Int) (I : Int)  : Prog F (Unit) := do
  let HTMP1S : Cplx F := (⟨zero, zero⟩ : Cplx F)
  let HTMP1J : Cplx F := (⟨zero, zero⟩ : Cplx F)
  let r ← foldN (K).toNat (fun i (s : Cplx F × Cplx F) => hgemmhh_290_L A B I J LDA LDB ((i : Int) + 1) s.1 s.2) (HTMP1J, HTMP1S)
  let HTMP1J : Cplx F := r.1
  let HTMP1S : Cplx F := r.2
  let _ ← (do
    if BZERO then
      wrC (el3 2 2 LDC C 1 I J) (Quat.lo ALPHA *ᶜ HTMP1S -ᶜ Quat.hi ALPHA *ᶜ Cplx.conj HTMP1J)
      wrC (el3 2 2 LDC C 2 I J) (Quat.lo ALPHA *ᶜ HTMP1J +ᶜ Quat.hi ALPHA *ᶜ Cplx.conj HTMP1S)
      pure ()
    else
      let t1 ← rdC (el3 2 2 LDC C 1 I J)
      let t2 ← rdC (el3 2 2 LDC C 2 I J)
      let HTMP2S : Cplx F := Quat.lo ALPHA *ᶜ HTMP1S -ᶜ Quat.hi ALPHA *ᶜ Cplx.conj HTMP1J +ᶜ Quat.lo BETA *ᶜ t1 -ᶜ Quat.hi BETA *ᶜ Cplx.conj t2
      let t3 ← rdC (el3 2 2 LDC C 2 I J)
      let t4 ← rdC (el3 2 2 LDC C 1 I J)
      wrC (el3 2 2 LDC C 2 I J) (Quat.lo ALPHA *ᶜ HTMP1J +ᶜ Quat.hi ALPHA *ᶜ Cplx.conj HTMP1S +ᶜ Quat.lo BETA *ᶜ t3 +ᶜ Quat.hi BETA *ᶜ Cplx.conj t4)
      wrC (el3 2 2 LDC C 1 I J) HTMP2S
      pure () : Prog F Unit)
  pure ()

@[thr] theorem run_hgemmhh_280_I (A : Int) (ALPHA : Quat F) (B : Int) (BETA : Quat F) (BZERO : Bool) (C : Int) (J : Int) (K : Int) (LDA : Int) (LDB : Int) (LDC : Int) (I : Int) :
    (Thr.hgemmhh_280_I A ALPHA B BETA BZERO C J K LDA LDB LDC I (F := F)).run = Haxx.hgemmhh_280_I A ALPHA B BETA BZERO C J K LDA LDB LDC I (F := F) := by
  simp only [Thr.hgemmhh_280_I, Haxx.hgemmhh_280_I, thr]

/-- As `Haxx.hgemmhh_280_J`, `src/hblas/fortran/hblas3/hgemmhh.f:341-365`, body of `DO 280 J`. -/
def hgemmhh_280_J (A : Int) (ALPHA : Quat F) (B : Int) (BETA : Quat F) (BZERO : Bool) (C : Int) (K : Int) (LDA : Int) (LDB : Int) (LDC : Int) (M : Int) (J : Int)  : Prog F (Unit) := do
  forN (M).toNat (fun i => hgemmhh_280_I A ALPHA B BETA BZERO C J K LDA LDB LDC ((i : Int) + 1))
  pure ()

@[thr] theorem run_hgemmhh_280_J (A : Int) (ALPHA : Quat F) (B : Int) (BETA : Quat F) (BZERO : Bool) (C : Int) (K : Int) (LDA : Int) (LDB : Int) (LDC : Int) (M : Int) (J : Int) :
    (Thr.hgemmhh_280_J A ALPHA B BETA BZERO C K LDA LDB LDC M J (F := F)).run = Haxx.hgemmhh_280_J A ALPHA B BETA BZERO C K LDA LDB LDC M J (F := F) := by
  simp only [Thr.hgemmhh_280_J, Haxx.hgemmhh_280_J, thr]

/-- As `Haxx.hgemmhh_if308`, `src/hblas/fortran/hblas3/hgemmhh.f:308-366`. -/
def hgemmhh_if308 (A : Int) (ALPHA : Quat F) (B : Int) (BETA : Quat F) (BZERO : Bool) (C : Int) (CONJB : Bool) (K : Int) (LDA : Int) (LDB : Int) (LDC : Int) (M : Int) (N : Int) : Prog F (Unit) := do
  if CONJB then
    forN (N).toNat (fun i => hgemmhh_260_J A ALPHA B BETA BZERO C K LDA LDB LDC M ((i : Int) + 1))
    pure ()
  else
    forN (N).toNat (fun i => hgemmhh_280_J A ALPHA B BETA BZERO C K LDA LDB LDC M ((i : Int) + 1))
    pure ()

@[thr] theorem run_hgemmhh_if308 (A : Int) (ALPHA : Quat F) (B : Int) (BETA : Quat F) (BZERO : Bool) (C : Int) (CONJB : Bool) (K : Int) (LDA : Int) (LDB : Int) (LDC : Int) (M : Int) (N : Int) :
    (Thr.hgemmhh_if308 A ALPHA B BETA BZERO C CONJB K LDA LDB LDC M N (F := F)).run = Haxx.hgemmhh_if308 A ALPHA B BETA BZERO C CONJB K LDA LDB LDC M N (F := F) := by
  simp only [Thr.hgemmhh_if308, Haxx.hgemmhh_if308, thr]

/-- As `Haxx.hgemmhh_if66`, `src/hblas/fortran/hblas3/hgemmhh.f:66-367`. -/
def hgemmhh_if66 (A : Int) (ALPHA : Quat F) (B : Int) (BETA : Quat F) (BONE : Bool) (BZERO : Bool) (C : Int) (CONJA : Bool) (CONJB : Bool) (K : Int) (LDA : Int) (LDB : Int) (LDC : Int) (M : Int) (N : Int) (NOTA : Bool) (NOTB : Bool) : Prog F (Unit) := do
  if NOTB then
    hgemmhh_if67 A ALPHA B BETA BONE BZERO C CONJA K LDA LDB LDC M N NOTA
    pure ()
  else if NOTA then
    hgemmhh_if166 A ALPHA B BETA BONE BZERO C CONJB K LDA LDB LDC M N
    pure ()
  else if CONJA then
    hgemmhh_if245 A ALPHA B BETA BZERO C CONJB K LDA LDB LDC M N
    pure ()
  else
    hgemmhh_if308 A ALPHA B BETA BZERO C CONJB K LDA LDB LDC M N
    pure ()

@[thr] theorem run_hgemmhh_if66 (A : Int) (ALPHA : Quat F) (B : Int) (BETA : Quat F) (BONE : Bool) (BZERO : Bool) (C : Int) (CONJA : Bool) (CONJB : Bool) (K : Int) (LDA : Int) (LDB : Int) (LDC : Int) (M : Int) (N : Int) (NOTA : Bool) (NOTB : Bool) :
    (Thr.hgemmhh_if66 A ALPHA B BETA BONE BZERO C CONJA CONJB K LDA LDB LDC M N NOTA NOTB (F := F)).run = Haxx.hgemmhh_if66 A ALPHA B BETA BONE BZERO C CONJA CONJB K LDA LDB LDC M N NOTA NOTB (F := F) := by
  simp only [Thr.hgemmhh_if66, Haxx.hgemmhh_if66, thr]

/-- As `Haxx.hgemmhh`, `src/hblas/fortran/hblas3/hgemmhh.f:9-368`. -/
def hgemmhh (TRANSA : Char) (TRANSB : Char) (M : Int) (N : Int) (K : Int) (ALPHA : Quat F) (A : Int) (LDA : Int) (B : Int) (LDB : Int) (BETA : Quat F) (C : Int) (LDC : Int) : Prog F (Unit) := do
  let NOTA : Bool := lsame TRANSA 'N'
  let NOTB : Bool := lsame TRANSB 'N'
  let CONJA : Bool := lsame TRANSA 'C'
  let CONJB : Bool := lsame TRANSB 'C'
  let AZERO : Bool := (Cplx.feq (Quat.lo ALPHA) (⟨zero, zero⟩ : Cplx F)) && (Cplx.feq (Quat.hi ALPHA) (⟨zero, zero⟩ : Cplx F))
  -- AONE (line 35) is never read
  let BZERO : Bool := (Cplx.feq (Quat.lo BETA) (⟨zero, zero⟩ : Cplx F)) && (Cplx.feq (Quat.hi BETA) (⟨zero, zero⟩ : Cplx F))
  let BONE : Bool := (Cplx.feq (Quat.lo BETA) (⟨one, zero⟩ : Cplx F)) && (Cplx.feq (Quat.hi BETA) (⟨zero, zero⟩ : Cplx F))
  if (decide (M = 0)) || (decide (N = 0)) then
    pure ()
  else
    if (AZERO || (decide (K = 0))) && BONE then
      pure ()
    else
      if AZERO then
        hgemmhh_if49 BETA BZERO C LDC M N
        pure ()
      else
        hgemmhh_if66 A ALPHA B BETA BONE BZERO C CONJA CONJB K LDA LDB LDC M N NOTA NOTB
        pure ()

@[thr] theorem run_hgemmhh (TRANSA : Char) (TRANSB : Char) (M : Int) (N : Int) (K : Int) (ALPHA : Quat F) (A : Int) (LDA : Int) (B : Int) (LDB : Int) (BETA : Quat F) (C : Int) (LDC : Int) :
    (Thr.hgemmhh TRANSA TRANSB M N K ALPHA A LDA B LDB BETA C LDC (F := F)).run = Haxx.hgemmhh TRANSA TRANSB M N K ALPHA A LDA B LDB BETA C LDC (F := F) := by
  simp only [Thr.hgemmhh, Haxx.hgemmhh, thr]

-- end of FGemmhh

end Haxx.Thr
