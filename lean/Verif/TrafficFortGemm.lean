import Verif.TrafficPort
import Verif.ThrFortGemm

/-!
# Upper bounds for the memory accesses of the Fortran GEMM

Generated by the scripts in `tools/traffic_fort` from the access-level programs: one bound per loop body, branch and routine.
-/

set_option linter.unusedVariables false
set_option linter.unusedSectionVars false
set_option linter.unusedTactic false
set_option linter.unreachableTactic false

namespace Haxx.Thr
open Arith

variable {F : Type} [Arith F] [ArithEq F]

/-- A straight line of reads and writes. -/
macro "le_line" : tactic =>
  `(tactic| (repeat (first | exact .ret | refine .rd fun _ => ?_ | refine .wr ?_)))

theorem CntLe.bindL {α β : Type} {p : Prog F α} {f : α → Prog F β} {r w : Nat} (h : CntLe p r w) (hk : ∀ a, CntLe (f a) 0 0) :
    CntLe (p >>= f) r w := h.bind hk

theorem le_rdC_bind {β : Type} {p : Int} {f : Cplx F → Prog F β} {r w : Nat} (h : ∀ v, CntLe (f v) r w) :
    CntLe (rdC p >>= f) (r + 2) w := .rd fun _ => .rd fun _ => h _

theorem gemm_le1 (M N K : Nat) : N * (M * 8) ≤ N * (M * 8 + K * (M * 20 + 16)) := Nat.mul_le_mul_left _ (Nat.le_add_right _ _)
theorem gemm_le2 (M N K : Nat) : N * (M * 4) ≤ N * (M * 4 + K * (M * 4)) := Nat.mul_le_mul_left _ (Nat.le_add_right _ _)
theorem gemm_le3 (M N K : Nat) : N * (M * (K * 16 + 8)) ≤ N * (M * 8 + K * (M * 20 + 16)) := by
  apply Nat.mul_le_mul_left
  have h : M * (K * 16 + 8) = M * 8 + K * (M * 16) := by ring
  have h2 : K * (M * 16) ≤ K * (M * 20 + 16) := Nat.mul_le_mul_left _ (by omega)
  omega

theorem le_hgemmdd_10_I (C : Int) (J : Int) (LDC : Int) (I : Int) : CntLe (hgemmdd_10_I C J LDC I : Prog F _) 8 4 := by
  unfold hgemmdd_10_I
  le_line

theorem le_hgemmdd_10_J (C : Int) (LDC : Int) (M : Int) (J : Int) :
    CntLe (hgemmdd_10_J C LDC M J : Prog F _) (M.toNat * 8) (M.toNat * 4) := by
  unfold hgemmdd_10_J
  exact CntLe.bindL (CntLe.forN fun _ _ => le_hgemmdd_10_I ..) (fun _ => .ret)

theorem le_hgemmdd_20_I (BETA : F) (C : Int) (J : Int) (LDC : Int) (I : Int) : CntLe (hgemmdd_20_I BETA C J LDC I : Prog F _) 8 4 := by
  unfold hgemmdd_20_I
  le_line

theorem le_hgemmdd_20_J (BETA : F) (C : Int) (LDC : Int) (M : Int) (J : Int) :
    CntLe (hgemmdd_20_J BETA C LDC M J : Prog F _) (M.toNat * 8) (M.toNat * 4) := by
  unfold hgemmdd_20_J
  exact CntLe.bindL (CntLe.forN fun _ _ => le_hgemmdd_20_I ..) (fun _ => .ret)

theorem le_hgemmdd_if57 (BETA : F) (BZERO : Bool) (C : Int) (LDC : Int) (M : Int) (N : Int) :
    CntLe (hgemmdd_if57 BETA BZERO C LDC M N : Prog F _) (N.toNat * (M.toNat * 8)) (N.toNat * (M.toNat * 4)) := by
  unfold hgemmdd_if57
  refine CntLe.ite (fun _ => ?_) (fun _ => ?_)
  · exact CntLe.bindL (CntLe.forN fun _ _ => le_hgemmdd_10_J ..) (fun _ => .ret)
  · exact CntLe.bindL (CntLe.forN fun _ _ => le_hgemmdd_20_J ..) (fun _ => .ret)

theorem le_hgemmdd_40_I (C : Int) (J : Int) (LDC : Int) (I : Int) : CntLe (hgemmdd_40_I C J LDC I : Prog F _) 8 4 := by
  unfold hgemmdd_40_I
  le_line

theorem le_hgemmdd_50_I (BETA : F) (C : Int) (J : Int) (LDC : Int) (I : Int) : CntLe (hgemmdd_50_I BETA C J LDC I : Prog F _) 8 4 := by
  unfold hgemmdd_50_I
  le_line

theorem le_hgemmdd_if87 (BETA : F) (BONE : Bool) (BZERO : Bool) (C : Int) (J : Int) (LDC : Int) (M : Int) :
    CntLe (hgemmdd_if87 BETA BONE BZERO C J LDC M : Prog F _) (M.toNat * 8) (M.toNat * 4) := by
  unfold hgemmdd_if87
  refine CntLe.ite (fun _ => ?_) (fun _ => CntLe.ite (fun _ => ?_) (fun _ => .ret))
  · exact CntLe.bindL (CntLe.forN fun _ _ => le_hgemmdd_40_I ..) (fun _ => .ret)
  · exact CntLe.bindL (CntLe.forN fun _ _ => le_hgemmdd_50_I ..) (fun _ => .ret)

theorem le_hgemmdd_70_I (A : Int) (C : Int) (HTMPJ : Cplx F) (HTMPS : Cplx F) (J : Int) (L : Int) (LDA : Int) (LDC : Int) (I : Int) : CntLe (hgemmdd_70_I A C HTMPJ HTMPS J L LDA LDC I : Prog F _) 20 4 := by
  unfold hgemmdd_70_I
  le_line

theorem le_hgemmdd_60_L (A : Int) (ALPHA : F) (B : Int) (C : Int) (J : Int) (LDA : Int) (LDB : Int) (LDC : Int) (M : Int) (L : Int) :
    CntLe (hgemmdd_60_L A ALPHA B C J LDA LDB LDC M L : Prog F _) (M.toNat * 20 + 16) (M.toNat * 4) := by
  unfold hgemmdd_60_L
  try dsimp only
  repeat (first | refine le_rdC_bind fun _ => ?_ | refine .rd fun _ => ?_)
  exact CntLe.mono (CntLe.bindL (CntLe.forN fun _ _ => le_hgemmdd_70_I ..) (fun _ => .ret)) (by omega) (by omega)

theorem le_hgemmdd_30_J (A : Int) (ALPHA : F) (B : Int) (BETA : F) (BONE : Bool) (BZERO : Bool) (C : Int) (K : Int) (LDA : Int) (LDB : Int) (LDC : Int) (M : Int) (J : Int) :
    CntLe (hgemmdd_30_J A ALPHA B BETA BONE BZERO C K LDA LDB LDC M J : Prog F _) (M.toNat * 8 + K.toNat * (M.toNat * 20 + 16)) (M.toNat * 4 + K.toNat * (M.toNat * 4)) := by
  unfold hgemmdd_30_J
  exact CntLe.bind (le_hgemmdd_if87 ..) fun _ => CntLe.bindL (CntLe.forN fun _ _ => le_hgemmdd_60_L ..) (fun _ => .ret)

theorem le_hgemmdd_90_L (A : Int) (B : Int) (I : Int) (J : Int) (LDA : Int) (LDB : Int) (L : Int) (HTMPJ : Cplx F) (HTMPS : Cplx F) : CntLe (hgemmdd_90_L A B I J LDA LDB L HTMPJ HTMPS : Prog F _) 16 0 := by
  unfold hgemmdd_90_L
  le_line

theorem le_hgemmdd_80_I (A : Int) (ALPHA : F) (B : Int) (BETA : F) (BZERO : Bool) (C : Int) (J : Int) (K : Int) (LDA : Int) (LDB : Int) (LDC : Int) (I : Int) :
    CntLe (hgemmdd_80_I A ALPHA B BETA BZERO C J K LDA LDB LDC I : Prog F _) (K.toNat * 16 + 8) (4) := by
  unfold hgemmdd_80_I
  try dsimp only
  refine CntLe.mono (CntLe.bind (CntLe.fold_const fun _ _ _ => le_hgemmdd_90_L ..) (fun _ => (?_ : CntLe _ 8 4))) (by omega) (by omega)
  cases BZERO <;> le_line

theorem le_hgemmdd_80_J (A : Int) (ALPHA : F) (B : Int) (BETA : F) (BZERO : Bool) (C : Int) (K : Int) (LDA : Int) (LDB : Int) (LDC : Int) (M : Int) (J : Int) :
    CntLe (hgemmdd_80_J A ALPHA B BETA BZERO C K LDA LDB LDC M J : Prog F _) (M.toNat * (K.toNat * 16 + 8)) (M.toNat * 4) := by
  unfold hgemmdd_80_J
  exact CntLe.bindL (CntLe.forN fun _ _ => le_hgemmdd_80_I ..) (fun _ => .ret)

theorem le_hgemmdd_110_L (A : Int) (B : Int) (I : Int) (J : Int) (LDA : Int) (LDB : Int) (L : Int) (HTMPJ : Cplx F) (HTMPS : Cplx F) : CntLe (hgemmdd_110_L A B I J LDA LDB L HTMPJ HTMPS : Prog F _) 16 0 := by
  unfold hgemmdd_110_L
  le_line

theorem le_hgemmdd_100_I (A : Int) (ALPHA : F) (B : Int) (BETA : F) (BZERO : Bool) (C : Int) (J : Int) (K : Int) (LDA : Int) (LDB : Int) (LDC : Int) (I : Int) :
    CntLe (hgemmdd_100_I A ALPHA B BETA BZERO C J K LDA LDB LDC I : Prog F _) (K.toNat * 16 + 8) (4) := by
  unfold hgemmdd_100_I
  try dsimp only
  refine CntLe.mono (CntLe.bind (CntLe.fold_const fun _ _ _ => le_hgemmdd_110_L ..) (fun _ => (?_ : CntLe _ 8 4))) (by omega) (by omega)
  cases BZERO <;> le_line

theorem le_hgemmdd_100_J (A : Int) (ALPHA : F) (B : Int) (BETA : F) (BZERO : Bool) (C : Int) (K : Int) (LDA : Int) (LDB : Int) (LDC : Int) (M : Int) (J : Int) :
    CntLe (hgemmdd_100_J A ALPHA B BETA BZERO C K LDA LDB LDC M J : Prog F _) (M.toNat * (K.toNat * 16 + 8)) (M.toNat * 4) := by
  unfold hgemmdd_100_J
  exact CntLe.bindL (CntLe.forN fun _ _ => le_hgemmdd_100_I ..) (fun _ => .ret)

theorem le_hgemmdd_if82 (A : Int) (ALPHA : F) (B : Int) (BETA : F) (BONE : Bool) (BZERO : Bool) (C : Int) (CONJA : Bool) (K : Int) (LDA : Int) (LDB : Int) (LDC : Int) (M : Int) (N : Int) (NOTA : Bool) :
    CntLe (hgemmdd_if82 A ALPHA B BETA BONE BZERO C CONJA K LDA LDB LDC M N NOTA : Prog F _) (N.toNat * (M.toNat * 8 + K.toNat * (M.toNat * 20 + 16))) (N.toNat * (M.toNat * 4 + K.toNat * (M.toNat * 4))) := by
  unfold hgemmdd_if82
  refine CntLe.ite (fun _ => ?_) (fun _ => CntLe.ite (fun _ => ?_) (fun _ => ?_))
  · exact CntLe.bindL (CntLe.forN fun _ _ => le_hgemmdd_30_J ..) (fun _ => .ret)
  · exact CntLe.mono (CntLe.bindL (CntLe.forN fun _ _ => le_hgemmdd_80_J ..) (fun _ => .ret)) (gemm_le3 ..) (gemm_le2 ..)
  · exact CntLe.mono (CntLe.bindL (CntLe.forN fun _ _ => le_hgemmdd_100_J ..) (fun _ => .ret)) (gemm_le3 ..) (gemm_le2 ..)

theorem le_hgemmdd_130_I (C : Int) (J : Int) (LDC : Int) (I : Int) : CntLe (hgemmdd_130_I C J LDC I : Prog F _) 8 4 := by
  unfold hgemmdd_130_I
  le_line

theorem le_hgemmdd_140_I (BETA : F) (C : Int) (J : Int) (LDC : Int) (I : Int) : CntLe (hgemmdd_140_I BETA C J LDC I : Prog F _) 8 4 := by
  unfold hgemmdd_140_I
  le_line

theorem le_hgemmdd_if259 (BETA : F) (BONE : Bool) (BZERO : Bool) (C : Int) (J : Int) (LDC : Int) (M : Int) :
    CntLe (hgemmdd_if259 BETA BONE BZERO C J LDC M : Prog F _) (M.toNat * 8) (M.toNat * 4) := by
  unfold hgemmdd_if259
  refine CntLe.ite (fun _ => ?_) (fun _ => CntLe.ite (fun _ => ?_) (fun _ => .ret))
  · exact CntLe.bindL (CntLe.forN fun _ _ => le_hgemmdd_130_I ..) (fun _ => .ret)
  · exact CntLe.bindL (CntLe.forN fun _ _ => le_hgemmdd_140_I ..) (fun _ => .ret)

theorem le_hgemmdd_160_I (A : Int) (C : Int) (HTMPJ : Cplx F) (HTMPS : Cplx F) (J : Int) (L : Int) (LDA : Int) (LDC : Int) (I : Int) : CntLe (hgemmdd_160_I A C HTMPJ HTMPS J L LDA LDC I : Prog F _) 20 4 := by
  unfold hgemmdd_160_I
  le_line

theorem le_hgemmdd_150_L (A : Int) (ALPHA : F) (B : Int) (C : Int) (J : Int) (LDA : Int) (LDB : Int) (LDC : Int) (M : Int) (L : Int) :
    CntLe (hgemmdd_150_L A ALPHA B C J LDA LDB LDC M L : Prog F _) (M.toNat * 20 + 16) (M.toNat * 4) := by
  unfold hgemmdd_150_L
  try dsimp only
  repeat (first | refine le_rdC_bind fun _ => ?_ | refine .rd fun _ => ?_)
  exact CntLe.mono (CntLe.bindL (CntLe.forN fun _ _ => le_hgemmdd_160_I ..) (fun _ => .ret)) (by omega) (by omega)

theorem le_hgemmdd_120_J (A : Int) (ALPHA : F) (B : Int) (BETA : F) (BONE : Bool) (BZERO : Bool) (C : Int) (K : Int) (LDA : Int) (LDB : Int) (LDC : Int) (M : Int) (J : Int) :
    CntLe (hgemmdd_120_J A ALPHA B BETA BONE BZERO C K LDA LDB LDC M J : Prog F _) (M.toNat * 8 + K.toNat * (M.toNat * 20 + 16)) (M.toNat * 4 + K.toNat * (M.toNat * 4)) := by
  unfold hgemmdd_120_J
  exact CntLe.bind (le_hgemmdd_if259 ..) fun _ => CntLe.bindL (CntLe.forN fun _ _ => le_hgemmdd_150_L ..) (fun _ => .ret)

theorem le_hgemmdd_180_I (C : Int) (J : Int) (LDC : Int) (I : Int) : CntLe (hgemmdd_180_I C J LDC I : Prog F _) 8 4 := by
  unfold hgemmdd_180_I
  le_line

theorem le_hgemmdd_190_I (BETA : F) (C : Int) (J : Int) (LDC : Int) (I : Int) : CntLe (hgemmdd_190_I BETA C J LDC I : Prog F _) 8 4 := by
  unfold hgemmdd_190_I
  le_line

theorem le_hgemmdd_if322 (BETA : F) (BONE : Bool) (BZERO : Bool) (C : Int) (J : Int) (LDC : Int) (M : Int) :
    CntLe (hgemmdd_if322 BETA BONE BZERO C J LDC M : Prog F _) (M.toNat * 8) (M.toNat * 4) := by
  unfold hgemmdd_if322
  refine CntLe.ite (fun _ => ?_) (fun _ => CntLe.ite (fun _ => ?_) (fun _ => .ret))
  · exact CntLe.bindL (CntLe.forN fun _ _ => le_hgemmdd_180_I ..) (fun _ => .ret)
  · exact CntLe.bindL (CntLe.forN fun _ _ => le_hgemmdd_190_I ..) (fun _ => .ret)

theorem le_hgemmdd_210_I (A : Int) (C : Int) (HTMPJ : Cplx F) (HTMPS : Cplx F) (J : Int) (L : Int) (LDA : Int) (LDC : Int) (I : Int) : CntLe (hgemmdd_210_I A C HTMPJ HTMPS J L LDA LDC I : Prog F _) 20 4 := by
  unfold hgemmdd_210_I
  le_line

theorem le_hgemmdd_200_L (A : Int) (ALPHA : F) (B : Int) (C : Int) (J : Int) (LDA : Int) (LDB : Int) (LDC : Int) (M : Int) (L : Int) :
    CntLe (hgemmdd_200_L A ALPHA B C J LDA LDB LDC M L : Prog F _) (M.toNat * 20 + 16) (M.toNat * 4) := by
  unfold hgemmdd_200_L
  try dsimp only
  repeat (first | refine le_rdC_bind fun _ => ?_ | refine .rd fun _ => ?_)
  exact CntLe.mono (CntLe.bindL (CntLe.forN fun _ _ => le_hgemmdd_210_I ..) (fun _ => .ret)) (by omega) (by omega)

theorem le_hgemmdd_170_J (A : Int) (ALPHA : F) (B : Int) (BETA : F) (BONE : Bool) (BZERO : Bool) (C : Int) (K : Int) (LDA : Int) (LDB : Int) (LDC : Int) (M : Int) (J : Int) :
    CntLe (hgemmdd_170_J A ALPHA B BETA BONE BZERO C K LDA LDB LDC M J : Prog F _) (M.toNat * 8 + K.toNat * (M.toNat * 20 + 16)) (M.toNat * 4 + K.toNat * (M.toNat * 4)) := by
  unfold hgemmdd_170_J
  exact CntLe.bind (le_hgemmdd_if322 ..) fun _ => CntLe.bindL (CntLe.forN fun _ _ => le_hgemmdd_200_L ..) (fun _ => .ret)

theorem le_hgemmdd_if254 (A : Int) (ALPHA : F) (B : Int) (BETA : F) (BONE : Bool) (BZERO : Bool) (C : Int) (CONJB : Bool) (K : Int) (LDA : Int) (LDB : Int) (LDC : Int) (M : Int) (N : Int) :
    CntLe (hgemmdd_if254 A ALPHA B BETA BONE BZERO C CONJB K LDA LDB LDC M N : Prog F _) (N.toNat * (M.toNat * 8 + K.toNat * (M.toNat * 20 + 16))) (N.toNat * (M.toNat * 4 + K.toNat * (M.toNat * 4))) := by
  unfold hgemmdd_if254
  refine CntLe.ite (fun _ => ?_) (fun _ => ?_)
  · exact CntLe.bindL (CntLe.forN fun _ _ => le_hgemmdd_120_J ..) (fun _ => .ret)
  · exact CntLe.bindL (CntLe.forN fun _ _ => le_hgemmdd_170_J ..) (fun _ => .ret)

theorem le_hgemmdd_230_L (A : Int) (B : Int) (I : Int) (J : Int) (LDA : Int) (LDB : Int) (L : Int) (HTMPJ : Cplx F) (HTMPS : Cplx F) : CntLe (hgemmdd_230_L A B I J LDA LDB L HTMPJ HTMPS : Prog F _) 16 0 := by
  unfold hgemmdd_230_L
  le_line

theorem le_hgemmdd_220_I (A : Int) (ALPHA : F) (B : Int) (BETA : F) (BZERO : Bool) (C : Int) (J : Int) (K : Int) (LDA : Int) (LDB : Int) (LDC : Int) (I : Int) :
    CntLe (hgemmdd_220_I A ALPHA B BETA BZERO C J K LDA LDB LDC I : Prog F _) (K.toNat * 16 + 8) (4) := by
  unfold hgemmdd_220_I
  try dsimp only
  refine CntLe.mono (CntLe.bind (CntLe.fold_const fun _ _ _ => le_hgemmdd_230_L ..) (fun _ => (?_ : CntLe _ 8 4))) (by omega) (by omega)
  cases BZERO <;> le_line

theorem le_hgemmdd_220_J (A : Int) (ALPHA : F) (B : Int) (BETA : F) (BZERO : Bool) (C : Int) (K : Int) (LDA : Int) (LDB : Int) (LDC : Int) (M : Int) (J : Int) :
    CntLe (hgemmdd_220_J A ALPHA B BETA BZERO C K LDA LDB LDC M J : Prog F _) (M.toNat * (K.toNat * 16 + 8)) (M.toNat * 4) := by
  unfold hgemmdd_220_J
  exact CntLe.bindL (CntLe.forN fun _ _ => le_hgemmdd_220_I ..) (fun _ => .ret)

theorem le_hgemmdd_250_L (A : Int) (B : Int) (I : Int) (J : Int) (LDA : Int) (LDB : Int) (L : Int) (HTMPJ : Cplx F) (HTMPS : Cplx F) : CntLe (hgemmdd_250_L A B I J LDA LDB L HTMPJ HTMPS : Prog F _) 16 0 := by
  unfold hgemmdd_250_L
  le_line

theorem le_hgemmdd_240_I (A : Int) (ALPHA : F) (B : Int) (BETA : F) (BZERO : Bool) (C : Int) (J : Int) (K : Int) (LDA : Int) (LDB : Int) (LDC : Int) (I : Int) :
    CntLe (hgemmdd_240_I A ALPHA B BETA BZERO C J K LDA LDB LDC I : Prog F _) (K.toNat * 16 + 8) (4) := by
  unfold hgemmdd_240_I
  try dsimp only
  refine CntLe.mono (CntLe.bind (CntLe.fold_const fun _ _ _ => le_hgemmdd_250_L ..) (fun _ => (?_ : CntLe _ 8 4))) (by omega) (by omega)
  cases BZERO <;> le_line

theorem le_hgemmdd_240_J (A : Int) (ALPHA : F) (B : Int) (BETA : F) (BZERO : Bool) (C : Int) (K : Int) (LDA : Int) (LDB : Int) (LDC : Int) (M : Int) (J : Int) :
    CntLe (hgemmdd_240_J A ALPHA B BETA BZERO C K LDA LDB LDC M J : Prog F _) (M.toNat * (K.toNat * 16 + 8)) (M.toNat * 4) := by
  unfold hgemmdd_240_J
  exact CntLe.bindL (CntLe.forN fun _ _ => le_hgemmdd_240_I ..) (fun _ => .ret)

theorem le_hgemmdd_if380 (A : Int) (ALPHA : F) (B : Int) (BETA : F) (BZERO : Bool) (C : Int) (CONJB : Bool) (K : Int) (LDA : Int) (LDB : Int) (LDC : Int) (M : Int) (N : Int) :
    CntLe (hgemmdd_if380 A ALPHA B BETA BZERO C CONJB K LDA LDB LDC M N : Prog F _) (N.toNat * (M.toNat * 8 + K.toNat * (M.toNat * 20 + 16))) (N.toNat * (M.toNat * 4 + K.toNat * (M.toNat * 4))) := by
  unfold hgemmdd_if380
  refine CntLe.ite (fun _ => ?_) (fun _ => ?_)
  · exact CntLe.mono (CntLe.bindL (CntLe.forN fun _ _ => le_hgemmdd_220_J ..) (fun _ => .ret)) (gemm_le3 ..) (gemm_le2 ..)
  · exact CntLe.mono (CntLe.bindL (CntLe.forN fun _ _ => le_hgemmdd_240_J ..) (fun _ => .ret)) (gemm_le3 ..) (gemm_le2 ..)

theorem le_hgemmdd_270_L (A : Int) (B : Int) (I : Int) (J : Int) (LDA : Int) (LDB : Int) (L : Int) (HTMPJ : Cplx F) (HTMPS : Cplx F) : CntLe (hgemmdd_270_L A B I J LDA LDB L HTMPJ HTMPS : Prog F _) 16 0 := by
  unfold hgemmdd_270_L
  le_line

theorem le_hgemmdd_260_I (A : Int) (ALPHA : F) (B : Int) (BETA : F) (BZERO : Bool) (C : Int) (J : Int) (K : Int) (LDA : Int) (LDB : Int) (LDC : Int) (I : Int) :
    CntLe (hgemmdd_260_I A ALPHA B BETA BZERO C J K LDA LDB LDC I : Prog F _) (K.toNat * 16 + 8) (4) := by
  unfold hgemmdd_260_I
  try dsimp only
  refine CntLe.mono (CntLe.bind (CntLe.fold_const fun _ _ _ => le_hgemmdd_270_L ..) (fun _ => (?_ : CntLe _ 8 4))) (by omega) (by omega)
  cases BZERO <;> le_line

theorem le_hgemmdd_260_J (A : Int) (ALPHA : F) (B : Int) (BETA : F) (BZERO : Bool) (C : Int) (K : Int) (LDA : Int) (LDB : Int) (LDC : Int) (M : Int) (J : Int) :
    CntLe (hgemmdd_260_J A ALPHA B BETA BZERO C K LDA LDB LDC M J : Prog F _) (M.toNat * (K.toNat * 16 + 8)) (M.toNat * 4) := by
  unfold hgemmdd_260_J
  exact CntLe.bindL (CntLe.forN fun _ _ => le_hgemmdd_260_I ..) (fun _ => .ret)

theorem le_hgemmdd_290_L (A : Int) (B : Int) (I : Int) (J : Int) (LDA : Int) (LDB : Int) (L : Int) (HTMPJ : Cplx F) (HTMPS : Cplx F) : CntLe (hgemmdd_290_L A B I J LDA LDB L HTMPJ HTMPS : Prog F _) 16 0 := by
  unfold hgemmdd_290_L
  le_line

theorem le_hgemmdd_280_I (A : Int) (ALPHA : F) (B : Int) (BETA : F) (BZERO : Bool) (C : Int) (J : Int) (K : Int) (LDA : Int) (LDB : Int) (LDC : Int) (I : Int) :
    CntLe (hgemmdd_280_I A ALPHA B BETA BZERO C J K LDA LDB LDC I : Prog F _) (K.toNat * 16 + 8) (4) := by
  unfold hgemmdd_280_I
  try dsimp only
  refine CntLe.mono (CntLe.bind (CntLe.fold_const fun _ _ _ => le_hgemmdd_290_L ..) (fun _ => (?_ : CntLe _ 8 4))) (by omega) (by omega)
  cases BZERO <;> le_line

theorem le_hgemmdd_280_J (A : Int) (ALPHA : F) (B : Int) (BETA : F) (BZERO : Bool) (C : Int) (K : Int) (LDA : Int) (LDB : Int) (LDC : Int) (M : Int) (J : Int) :
    CntLe (hgemmdd_280_J A ALPHA B BETA BZERO C K LDA LDB LDC M J : Prog F _) (M.toNat * (K.toNat * 16 + 8)) (M.toNat * 4) := by
  unfold hgemmdd_280_J
  exact CntLe.bindL (CntLe.forN fun _ _ => le_hgemmdd_280_I ..) (fun _ => .ret)

theorem le_hgemmdd_if493 (A : Int) (ALPHA : F) (B : Int) (BETA : F) (BZERO : Bool) (C : Int) (CONJB : Bool) (K : Int) (LDA : Int) (LDB : Int) (LDC : Int) (M : Int) (N : Int) :
    CntLe (hgemmdd_if493 A ALPHA B BETA BZERO C CONJB K LDA LDB LDC M N : Prog F _) (N.toNat * (M.toNat * 8 + K.toNat * (M.toNat * 20 + 16))) (N.toNat * (M.toNat * 4 + K.toNat * (M.toNat * 4))) := by
  unfold hgemmdd_if493
  refine CntLe.ite (fun _ => ?_) (fun _ => ?_)
  · exact CntLe.mono (CntLe.bindL (CntLe.forN fun _ _ => le_hgemmdd_260_J ..) (fun _ => .ret)) (gemm_le3 ..) (gemm_le2 ..)
  · exact CntLe.mono (CntLe.bindL (CntLe.forN fun _ _ => le_hgemmdd_280_J ..) (fun _ => .ret)) (gemm_le3 ..) (gemm_le2 ..)

theorem le_hgemmdd_if81 (A : Int) (ALPHA : F) (B : Int) (BETA : F) (BONE : Bool) (BZERO : Bool) (C : Int) (CONJA : Bool) (CONJB : Bool) (K : Int) (LDA : Int) (LDB : Int) (LDC : Int) (M : Int) (N : Int) (NOTA : Bool) (NOTB : Bool) :
    CntLe (hgemmdd_if81 A ALPHA B BETA BONE BZERO C CONJA CONJB K LDA LDB LDC M N NOTA NOTB : Prog F _) (N.toNat * (M.toNat * 8 + K.toNat * (M.toNat * 20 + 16))) (N.toNat * (M.toNat * 4 + K.toNat * (M.toNat * 4))) := by
  unfold hgemmdd_if81
  refine CntLe.ite (fun _ => ?_) (fun _ => CntLe.ite (fun _ => ?_) (fun _ => CntLe.ite (fun _ => ?_) (fun _ => ?_)))
  · exact CntLe.bindL (le_hgemmdd_if82 ..) (fun _ => .ret)
  · exact CntLe.bindL (le_hgemmdd_if254 ..) (fun _ => .ret)
  · exact CntLe.bindL (le_hgemmdd_if380 ..) (fun _ => .ret)
  · exact CntLe.bindL (le_hgemmdd_if493 ..) (fun _ => .ret)

theorem le_hgemmdd (TRANSA : Char) (TRANSB : Char) (M : Int) (N : Int) (K : Int) (ALPHA : F) (A : Int) (LDA : Int) (B : Int) (LDB : Int) (BETA : F) (C : Int) (LDC : Int) :
    CntLe (hgemmdd TRANSA TRANSB M N K ALPHA A LDA B LDB BETA C LDC : Prog F _) (N.toNat * (M.toNat * 8 + K.toNat * (M.toNat * 20 + 16))) (N.toNat * (M.toNat * 4 + K.toNat * (M.toNat * 4))) := by
  unfold hgemmdd
  try dsimp only
  refine CntLe.ite (fun _ => .ret) fun _ => CntLe.ite (fun _ => .ret) fun _ => CntLe.ite (fun _ => ?_) (fun _ => ?_)
  · exact CntLe.mono (CntLe.bindL (le_hgemmdd_if57 ..) (fun _ => .ret)) (gemm_le1 ..) (gemm_le2 ..)
  · exact CntLe.bindL (le_hgemmdd_if81 ..) (fun _ => .ret)

theorem le_hgemmdz_10_I (C : Int) (J : Int) (LDC : Int) (I : Int) : CntLe (hgemmdz_10_I C J LDC I : Prog F _) 8 4 := by
  unfold hgemmdz_10_I
  le_line

theorem le_hgemmdz_10_J (C : Int) (LDC : Int) (M : Int) (J : Int) :
    CntLe (hgemmdz_10_J C LDC M J : Prog F _) (M.toNat * 8) (M.toNat * 4) := by
  unfold hgemmdz_10_J
  exact CntLe.bindL (CntLe.forN fun _ _ => le_hgemmdz_10_I ..) (fun _ => .ret)

theorem le_hgemmdz_20_I (BETA : Cplx F) (C : Int) (J : Int) (LDC : Int) (I : Int) : CntLe (hgemmdz_20_I BETA C J LDC I : Prog F _) 8 4 := by
  unfold hgemmdz_20_I
  le_line

theorem le_hgemmdz_20_J (BETA : Cplx F) (C : Int) (LDC : Int) (M : Int) (J : Int) :
    CntLe (hgemmdz_20_J BETA C LDC M J : Prog F _) (M.toNat * 8) (M.toNat * 4) := by
  unfold hgemmdz_20_J
  exact CntLe.bindL (CntLe.forN fun _ _ => le_hgemmdz_20_I ..) (fun _ => .ret)

theorem le_hgemmdz_if62 (BETA : Cplx F) (BZERO : Bool) (C : Int) (LDC : Int) (M : Int) (N : Int) :
    CntLe (hgemmdz_if62 BETA BZERO C LDC M N : Prog F _) (N.toNat * (M.toNat * 8)) (N.toNat * (M.toNat * 4)) := by
  unfold hgemmdz_if62
  refine CntLe.ite (fun _ => ?_) (fun _ => ?_)
  · exact CntLe.bindL (CntLe.forN fun _ _ => le_hgemmdz_10_J ..) (fun _ => .ret)
  · exact CntLe.bindL (CntLe.forN fun _ _ => le_hgemmdz_20_J ..) (fun _ => .ret)

theorem le_hgemmdz_40_I (C : Int) (J : Int) (LDC : Int) (I : Int) : CntLe (hgemmdz_40_I C J LDC I : Prog F _) 8 4 := by
  unfold hgemmdz_40_I
  le_line

theorem le_hgemmdz_50_I (BETA : Cplx F) (C : Int) (J : Int) (LDC : Int) (I : Int) : CntLe (hgemmdz_50_I BETA C J LDC I : Prog F _) 8 4 := by
  unfold hgemmdz_50_I
  le_line

theorem le_hgemmdz_if106 (BETA : Cplx F) (BONE : Bool) (BZERO : Bool) (C : Int) (J : Int) (LDC : Int) (M : Int) :
    CntLe (hgemmdz_if106 BETA BONE BZERO C J LDC M : Prog F _) (M.toNat * 8) (M.toNat * 4) := by
  unfold hgemmdz_if106
  refine CntLe.ite (fun _ => ?_) (fun _ => CntLe.ite (fun _ => ?_) (fun _ => .ret))
  · exact CntLe.bindL (CntLe.forN fun _ _ => le_hgemmdz_40_I ..) (fun _ => .ret)
  · exact CntLe.bindL (CntLe.forN fun _ _ => le_hgemmdz_50_I ..) (fun _ => .ret)

theorem le_hgemmdz_70_I (A : Int) (C : Int) (HTMPJ : Cplx F) (HTMPS : Cplx F) (J : Int) (L : Int) (LDA : Int) (LDC : Int) (I : Int) : CntLe (hgemmdz_70_I A C HTMPJ HTMPS J L LDA LDC I : Prog F _) 20 4 := by
  unfold hgemmdz_70_I
  le_line

theorem le_hgemmdz_60_L (A : Int) (ALPHA : F) (B : Int) (C : Int) (J : Int) (LDA : Int) (LDB : Int) (LDC : Int) (M : Int) (L : Int) :
    CntLe (hgemmdz_60_L A ALPHA B C J LDA LDB LDC M L : Prog F _) (M.toNat * 20 + 16) (M.toNat * 4) := by
  unfold hgemmdz_60_L
  try dsimp only
  repeat (first | refine le_rdC_bind fun _ => ?_ | refine .rd fun _ => ?_)
  exact CntLe.mono (CntLe.bindL (CntLe.forN fun _ _ => le_hgemmdz_70_I ..) (fun _ => .ret)) (by omega) (by omega)

theorem le_hgemmdz_30_J (A : Int) (ALPHA : F) (B : Int) (BETA : Cplx F) (BONE : Bool) (BZERO : Bool) (C : Int) (K : Int) (LDA : Int) (LDB : Int) (LDC : Int) (M : Int) (J : Int) :
    CntLe (hgemmdz_30_J A ALPHA B BETA BONE BZERO C K LDA LDB LDC M J : Prog F _) (M.toNat * 8 + K.toNat * (M.toNat * 20 + 16)) (M.toNat * 4 + K.toNat * (M.toNat * 4)) := by
  unfold hgemmdz_30_J
  exact CntLe.bind (le_hgemmdz_if106 ..) fun _ => CntLe.bindL (CntLe.forN fun _ _ => le_hgemmdz_60_L ..) (fun _ => .ret)

theorem le_hgemmdz_90_L (A : Int) (B : Int) (I : Int) (J : Int) (LDA : Int) (LDB : Int) (L : Int) (HTMPJ : Cplx F) (HTMPS : Cplx F) : CntLe (hgemmdz_90_L A B I J LDA LDB L HTMPJ HTMPS : Prog F _) 16 0 := by
  unfold hgemmdz_90_L
  le_line

theorem le_hgemmdz_80_I (A : Int) (ALPHA : F) (B : Int) (BETA : Cplx F) (BZERO : Bool) (C : Int) (J : Int) (K : Int) (LDA : Int) (LDB : Int) (LDC : Int) (I : Int) :
    CntLe (hgemmdz_80_I A ALPHA B BETA BZERO C J K LDA LDB LDC I : Prog F _) (K.toNat * 16 + 8) (4) := by
  unfold hgemmdz_80_I
  try dsimp only
  refine CntLe.mono (CntLe.bind (CntLe.fold_const fun _ _ _ => le_hgemmdz_90_L ..) (fun _ => (?_ : CntLe _ 8 4))) (by omega) (by omega)
  cases BZERO <;> le_line

theorem le_hgemmdz_80_J (A : Int) (ALPHA : F) (B : Int) (BETA : Cplx F) (BZERO : Bool) (C : Int) (K : Int) (LDA : Int) (LDB : Int) (LDC : Int) (M : Int) (J : Int) :
    CntLe (hgemmdz_80_J A ALPHA B BETA BZERO C K LDA LDB LDC M J : Prog F _) (M.toNat * (K.toNat * 16 + 8)) (M.toNat * 4) := by
  unfold hgemmdz_80_J
  exact CntLe.bindL (CntLe.forN fun _ _ => le_hgemmdz_80_I ..) (fun _ => .ret)

theorem le_hgemmdz_110_L (A : Int) (B : Int) (I : Int) (J : Int) (LDA : Int) (LDB : Int) (L : Int) (HTMPJ : Cplx F) (HTMPS : Cplx F) : CntLe (hgemmdz_110_L A B I J LDA LDB L HTMPJ HTMPS : Prog F _) 16 0 := by
  unfold hgemmdz_110_L
  le_line

theorem le_hgemmdz_100_I (A : Int) (ALPHA : F) (B : Int) (BETA : Cplx F) (BZERO : Bool) (C : Int) (J : Int) (K : Int) (LDA : Int) (LDB : Int) (LDC : Int) (I : Int) :
    CntLe (hgemmdz_100_I A ALPHA B BETA BZERO C J K LDA LDB LDC I : Prog F _) (K.toNat * 16 + 8) (4) := by
  unfold hgemmdz_100_I
  try dsimp only
  refine CntLe.mono (CntLe.bind (CntLe.fold_const fun _ _ _ => le_hgemmdz_110_L ..) (fun _ => (?_ : CntLe _ 8 4))) (by omega) (by omega)
  cases BZERO <;> le_line

theorem le_hgemmdz_100_J (A : Int) (ALPHA : F) (B : Int) (BETA : Cplx F) (BZERO : Bool) (C : Int) (K : Int) (LDA : Int) (LDB : Int) (LDC : Int) (M : Int) (J : Int) :
    CntLe (hgemmdz_100_J A ALPHA B BETA BZERO C K LDA LDB LDC M J : Prog F _) (M.toNat * (K.toNat * 16 + 8)) (M.toNat * 4) := by
  unfold hgemmdz_100_J
  exact CntLe.bindL (CntLe.forN fun _ _ => le_hgemmdz_100_I ..) (fun _ => .ret)

theorem le_hgemmdz_if101 (A : Int) (ALPHA : F) (B : Int) (BETA : Cplx F) (BONE : Bool) (BZERO : Bool) (C : Int) (CONJA : Bool) (K : Int) (LDA : Int) (LDB : Int) (LDC : Int) (M : Int) (N : Int) (NOTA : Bool) :
    CntLe (hgemmdz_if101 A ALPHA B BETA BONE BZERO C CONJA K LDA LDB LDC M N NOTA : Prog F _) (N.toNat * (M.toNat * 8 + K.toNat * (M.toNat * 20 + 16))) (N.toNat * (M.toNat * 4 + K.toNat * (M.toNat * 4))) := by
  unfold hgemmdz_if101
  refine CntLe.ite (fun _ => ?_) (fun _ => CntLe.ite (fun _ => ?_) (fun _ => ?_))
  · exact CntLe.bindL (CntLe.forN fun _ _ => le_hgemmdz_30_J ..) (fun _ => .ret)
  · exact CntLe.mono (CntLe.bindL (CntLe.forN fun _ _ => le_hgemmdz_80_J ..) (fun _ => .ret)) (gemm_le3 ..) (gemm_le2 ..)
  · exact CntLe.mono (CntLe.bindL (CntLe.forN fun _ _ => le_hgemmdz_100_J ..) (fun _ => .ret)) (gemm_le3 ..) (gemm_le2 ..)

theorem le_hgemmdz_130_I (C : Int) (J : Int) (LDC : Int) (I : Int) : CntLe (hgemmdz_130_I C J LDC I : Prog F _) 8 4 := by
  unfold hgemmdz_130_I
  le_line

theorem le_hgemmdz_140_I (BETA : Cplx F) (C : Int) (J : Int) (LDC : Int) (I : Int) : CntLe (hgemmdz_140_I BETA C J LDC I : Prog F _) 8 4 := by
  unfold hgemmdz_140_I
  le_line

theorem le_hgemmdz_if316 (BETA : Cplx F) (BONE : Bool) (BZERO : Bool) (C : Int) (J : Int) (LDC : Int) (M : Int) :
    CntLe (hgemmdz_if316 BETA BONE BZERO C J LDC M : Prog F _) (M.toNat * 8) (M.toNat * 4) := by
  unfold hgemmdz_if316
  refine CntLe.ite (fun _ => ?_) (fun _ => CntLe.ite (fun _ => ?_) (fun _ => .ret))
  · exact CntLe.bindL (CntLe.forN fun _ _ => le_hgemmdz_130_I ..) (fun _ => .ret)
  · exact CntLe.bindL (CntLe.forN fun _ _ => le_hgemmdz_140_I ..) (fun _ => .ret)

theorem le_hgemmdz_160_I (A : Int) (C : Int) (HTMPJ : Cplx F) (HTMPS : Cplx F) (J : Int) (L : Int) (LDA : Int) (LDC : Int) (I : Int) : CntLe (hgemmdz_160_I A C HTMPJ HTMPS J L LDA LDC I : Prog F _) 20 4 := by
  unfold hgemmdz_160_I
  le_line

theorem le_hgemmdz_150_L (A : Int) (ALPHA : F) (B : Int) (C : Int) (J : Int) (LDA : Int) (LDB : Int) (LDC : Int) (M : Int) (L : Int) :
    CntLe (hgemmdz_150_L A ALPHA B C J LDA LDB LDC M L : Prog F _) (M.toNat * 20 + 16) (M.toNat * 4) := by
  unfold hgemmdz_150_L
  try dsimp only
  repeat (first | refine le_rdC_bind fun _ => ?_ | refine .rd fun _ => ?_)
  exact CntLe.mono (CntLe.bindL (CntLe.forN fun _ _ => le_hgemmdz_160_I ..) (fun _ => .ret)) (by omega) (by omega)

theorem le_hgemmdz_120_J (A : Int) (ALPHA : F) (B : Int) (BETA : Cplx F) (BONE : Bool) (BZERO : Bool) (C : Int) (K : Int) (LDA : Int) (LDB : Int) (LDC : Int) (M : Int) (J : Int) :
    CntLe (hgemmdz_120_J A ALPHA B BETA BONE BZERO C K LDA LDB LDC M J : Prog F _) (M.toNat * 8 + K.toNat * (M.toNat * 20 + 16)) (M.toNat * 4 + K.toNat * (M.toNat * 4)) := by
  unfold hgemmdz_120_J
  exact CntLe.bind (le_hgemmdz_if316 ..) fun _ => CntLe.bindL (CntLe.forN fun _ _ => le_hgemmdz_150_L ..) (fun _ => .ret)

theorem le_hgemmdz_180_I (C : Int) (J : Int) (LDC : Int) (I : Int) : CntLe (hgemmdz_180_I C J LDC I : Prog F _) 8 4 := by
  unfold hgemmdz_180_I
  le_line

theorem le_hgemmdz_190_I (BETA : Cplx F) (C : Int) (J : Int) (LDC : Int) (I : Int) : CntLe (hgemmdz_190_I BETA C J LDC I : Prog F _) 8 4 := by
  unfold hgemmdz_190_I
  le_line

theorem le_hgemmdz_if393 (BETA : Cplx F) (BONE : Bool) (BZERO : Bool) (C : Int) (J : Int) (LDC : Int) (M : Int) :
    CntLe (hgemmdz_if393 BETA BONE BZERO C J LDC M : Prog F _) (M.toNat * 8) (M.toNat * 4) := by
  unfold hgemmdz_if393
  refine CntLe.ite (fun _ => ?_) (fun _ => CntLe.ite (fun _ => ?_) (fun _ => .ret))
  · exact CntLe.bindL (CntLe.forN fun _ _ => le_hgemmdz_180_I ..) (fun _ => .ret)
  · exact CntLe.bindL (CntLe.forN fun _ _ => le_hgemmdz_190_I ..) (fun _ => .ret)

theorem le_hgemmdz_210_I (A : Int) (C : Int) (HTMPJ : Cplx F) (HTMPS : Cplx F) (J : Int) (L : Int) (LDA : Int) (LDC : Int) (I : Int) : CntLe (hgemmdz_210_I A C HTMPJ HTMPS J L LDA LDC I : Prog F _) 20 4 := by
  unfold hgemmdz_210_I
  le_line

theorem le_hgemmdz_200_L (A : Int) (ALPHA : F) (B : Int) (C : Int) (J : Int) (LDA : Int) (LDB : Int) (LDC : Int) (M : Int) (L : Int) :
    CntLe (hgemmdz_200_L A ALPHA B C J LDA LDB LDC M L : Prog F _) (M.toNat * 20 + 16) (M.toNat * 4) := by
  unfold hgemmdz_200_L
  try dsimp only
  repeat (first | refine le_rdC_bind fun _ => ?_ | refine .rd fun _ => ?_)
  exact CntLe.mono (CntLe.bindL (CntLe.forN fun _ _ => le_hgemmdz_210_I ..) (fun _ => .ret)) (by omega) (by omega)

theorem le_hgemmdz_170_J (A : Int) (ALPHA : F) (B : Int) (BETA : Cplx F) (BONE : Bool) (BZERO : Bool) (C : Int) (K : Int) (LDA : Int) (LDB : Int) (LDC : Int) (M : Int) (J : Int) :
    CntLe (hgemmdz_170_J A ALPHA B BETA BONE BZERO C K LDA LDB LDC M J : Prog F _) (M.toNat * 8 + K.toNat * (M.toNat * 20 + 16)) (M.toNat * 4 + K.toNat * (M.toNat * 4)) := by
  unfold hgemmdz_170_J
  exact CntLe.bind (le_hgemmdz_if393 ..) fun _ => CntLe.bindL (CntLe.forN fun _ _ => le_hgemmdz_200_L ..) (fun _ => .ret)

theorem le_hgemmdz_if311 (A : Int) (ALPHA : F) (B : Int) (BETA : Cplx F) (BONE : Bool) (BZERO : Bool) (C : Int) (CONJB : Bool) (K : Int) (LDA : Int) (LDB : Int) (LDC : Int) (M : Int) (N : Int) :
    CntLe (hgemmdz_if311 A ALPHA B BETA BONE BZERO C CONJB K LDA LDB LDC M N : Prog F _) (N.toNat * (M.toNat * 8 + K.toNat * (M.toNat * 20 + 16))) (N.toNat * (M.toNat * 4 + K.toNat * (M.toNat * 4))) := by
  unfold hgemmdz_if311
  refine CntLe.ite (fun _ => ?_) (fun _ => ?_)
  · exact CntLe.bindL (CntLe.forN fun _ _ => le_hgemmdz_120_J ..) (fun _ => .ret)
  · exact CntLe.bindL (CntLe.forN fun _ _ => le_hgemmdz_170_J ..) (fun _ => .ret)

theorem le_hgemmdz_230_L (A : Int) (B : Int) (I : Int) (J : Int) (LDA : Int) (LDB : Int) (L : Int) (HTMPJ : Cplx F) (HTMPS : Cplx F) : CntLe (hgemmdz_230_L A B I J LDA LDB L HTMPJ HTMPS : Prog F _) 16 0 := by
  unfold hgemmdz_230_L
  le_line

theorem le_hgemmdz_220_I (A : Int) (ALPHA : F) (B : Int) (BETA : Cplx F) (BZERO : Bool) (C : Int) (J : Int) (K : Int) (LDA : Int) (LDB : Int) (LDC : Int) (I : Int) :
    CntLe (hgemmdz_220_I A ALPHA B BETA BZERO C J K LDA LDB LDC I : Prog F _) (K.toNat * 16 + 8) (4) := by
  unfold hgemmdz_220_I
  try dsimp only
  refine CntLe.mono (CntLe.bind (CntLe.fold_const fun _ _ _ => le_hgemmdz_230_L ..) (fun _ => (?_ : CntLe _ 8 4))) (by omega) (by omega)
  cases BZERO <;> le_line

theorem le_hgemmdz_220_J (A : Int) (ALPHA : F) (B : Int) (BETA : Cplx F) (BZERO : Bool) (C : Int) (K : Int) (LDA : Int) (LDB : Int) (LDC : Int) (M : Int) (J : Int) :
    CntLe (hgemmdz_220_J A ALPHA B BETA BZERO C K LDA LDB LDC M J : Prog F _) (M.toNat * (K.toNat * 16 + 8)) (M.toNat * 4) := by
  unfold hgemmdz_220_J
  exact CntLe.bindL (CntLe.forN fun _ _ => le_hgemmdz_220_I ..) (fun _ => .ret)

theorem le_hgemmdz_250_L (A : Int) (B : Int) (I : Int) (J : Int) (LDA : Int) (LDB : Int) (L : Int) (HTMPJ : Cplx F) (HTMPS : Cplx F) : CntLe (hgemmdz_250_L A B I J LDA LDB L HTMPJ HTMPS : Prog F _) 16 0 := by
  unfold hgemmdz_250_L
  le_line

theorem le_hgemmdz_240_I (A : Int) (ALPHA : F) (B : Int) (BETA : Cplx F) (BZERO : Bool) (C : Int) (J : Int) (K : Int) (LDA : Int) (LDB : Int) (LDC : Int) (I : Int) :
    CntLe (hgemmdz_240_I A ALPHA B BETA BZERO C J K LDA LDB LDC I : Prog F _) (K.toNat * 16 + 8) (4) := by
  unfold hgemmdz_240_I
  try dsimp only
  refine CntLe.mono (CntLe.bind (CntLe.fold_const fun _ _ _ => le_hgemmdz_250_L ..) (fun _ => (?_ : CntLe _ 8 4))) (by omega) (by omega)
  cases BZERO <;> le_line

theorem le_hgemmdz_240_J (A : Int) (ALPHA : F) (B : Int) (BETA : Cplx F) (BZERO : Bool) (C : Int) (K : Int) (LDA : Int) (LDB : Int) (LDC : Int) (M : Int) (J : Int) :
    CntLe (hgemmdz_240_J A ALPHA B BETA BZERO C K LDA LDB LDC M J : Prog F _) (M.toNat * (K.toNat * 16 + 8)) (M.toNat * 4) := by
  unfold hgemmdz_240_J
  exact CntLe.bindL (CntLe.forN fun _ _ => le_hgemmdz_240_I ..) (fun _ => .ret)

theorem le_hgemmdz_if465 (A : Int) (ALPHA : F) (B : Int) (BETA : Cplx F) (BZERO : Bool) (C : Int) (CONJB : Bool) (K : Int) (LDA : Int) (LDB : Int) (LDC : Int) (M : Int) (N : Int) :
    CntLe (hgemmdz_if465 A ALPHA B BETA BZERO C CONJB K LDA LDB LDC M N : Prog F _) (N.toNat * (M.toNat * 8 + K.toNat * (M.toNat * 20 + 16))) (N.toNat * (M.toNat * 4 + K.toNat * (M.toNat * 4))) := by
  unfold hgemmdz_if465
  refine CntLe.ite (fun _ => ?_) (fun _ => ?_)
  · exact CntLe.mono (CntLe.bindL (CntLe.forN fun _ _ => le_hgemmdz_220_J ..) (fun _ => .ret)) (gemm_le3 ..) (gemm_le2 ..)
  · exact CntLe.mono (CntLe.bindL (CntLe.forN fun _ _ => le_hgemmdz_240_J ..) (fun _ => .ret)) (gemm_le3 ..) (gemm_le2 ..)

theorem le_hgemmdz_270_L (A : Int) (B : Int) (I : Int) (J : Int) (LDA : Int) (LDB : Int) (L : Int) (HTMPJ : Cplx F) (HTMPS : Cplx F) : CntLe (hgemmdz_270_L A B I J LDA LDB L HTMPJ HTMPS : Prog F _) 16 0 := by
  unfold hgemmdz_270_L
  le_line

theorem le_hgemmdz_260_I (A : Int) (ALPHA : F) (B : Int) (BETA : Cplx F) (BZERO : Bool) (C : Int) (J : Int) (K : Int) (LDA : Int) (LDB : Int) (LDC : Int) (I : Int) :
    CntLe (hgemmdz_260_I A ALPHA B BETA BZERO C J K LDA LDB LDC I : Prog F _) (K.toNat * 16 + 8) (4) := by
  unfold hgemmdz_260_I
  try dsimp only
  refine CntLe.mono (CntLe.bind (CntLe.fold_const fun _ _ _ => le_hgemmdz_270_L ..) (fun _ => (?_ : CntLe _ 8 4))) (by omega) (by omega)
  cases BZERO <;> le_line

theorem le_hgemmdz_260_J (A : Int) (ALPHA : F) (B : Int) (BETA : Cplx F) (BZERO : Bool) (C : Int) (K : Int) (LDA : Int) (LDB : Int) (LDC : Int) (M : Int) (J : Int) :
    CntLe (hgemmdz_260_J A ALPHA B BETA BZERO C K LDA LDB LDC M J : Prog F _) (M.toNat * (K.toNat * 16 + 8)) (M.toNat * 4) := by
  unfold hgemmdz_260_J
  exact CntLe.bindL (CntLe.forN fun _ _ => le_hgemmdz_260_I ..) (fun _ => .ret)

theorem le_hgemmdz_290_L (A : Int) (B : Int) (I : Int) (J : Int) (LDA : Int) (LDB : Int) (L : Int) (HTMPJ : Cplx F) (HTMPS : Cplx F) : CntLe (hgemmdz_290_L A B I J LDA LDB L HTMPJ HTMPS : Prog F _) 16 0 := by
  unfold hgemmdz_290_L
  le_line

theorem le_hgemmdz_280_I (A : Int) (ALPHA : F) (B : Int) (BETA : Cplx F) (BZERO : Bool) (C : Int) (J : Int) (K : Int) (LDA : Int) (LDB : Int) (LDC : Int) (I : Int) :
    CntLe (hgemmdz_280_I A ALPHA B BETA BZERO C J K LDA LDB LDC I : Prog F _) (K.toNat * 16 + 8) (4) := by
  unfold hgemmdz_280_I
  try dsimp only
  refine CntLe.mono (CntLe.bind (CntLe.fold_const fun _ _ _ => le_hgemmdz_290_L ..) (fun _ => (?_ : CntLe _ 8 4))) (by omega) (by omega)
  cases BZERO <;> le_line

theorem le_hgemmdz_280_J (A : Int) (ALPHA : F) (B : Int) (BETA : Cplx F) (BZERO : Bool) (C : Int) (K : Int) (LDA : Int) (LDB : Int) (LDC : Int) (M : Int) (J : Int) :
    CntLe (hgemmdz_280_J A ALPHA B BETA BZERO C K LDA LDB LDC M J : Prog F _) (M.toNat * (K.toNat * 16 + 8)) (M.toNat * 4) := by
  unfold hgemmdz_280_J
  exact CntLe.bindL (CntLe.forN fun _ _ => le_hgemmdz_280_I ..) (fun _ => .ret)

theorem le_hgemmdz_if602 (A : Int) (ALPHA : F) (B : Int) (BETA : Cplx F) (BZERO : Bool) (C : Int) (CONJB : Bool) (K : Int) (LDA : Int) (LDB : Int) (LDC : Int) (M : Int) (N : Int) :
    CntLe (hgemmdz_if602 A ALPHA B BETA BZERO C CONJB K LDA LDB LDC M N : Prog F _) (N.toNat * (M.toNat * 8 + K.toNat * (M.toNat * 20 + 16))) (N.toNat * (M.toNat * 4 + K.toNat * (M.toNat * 4))) := by
  unfold hgemmdz_if602
  refine CntLe.ite (fun _ => ?_) (fun _ => ?_)
  · exact CntLe.mono (CntLe.bindL (CntLe.forN fun _ _ => le_hgemmdz_260_J ..) (fun _ => .ret)) (gemm_le3 ..) (gemm_le2 ..)
  · exact CntLe.mono (CntLe.bindL (CntLe.forN fun _ _ => le_hgemmdz_280_J ..) (fun _ => .ret)) (gemm_le3 ..) (gemm_le2 ..)

theorem le_hgemmdz_if100 (A : Int) (ALPHA : F) (B : Int) (BETA : Cplx F) (BONE : Bool) (BZERO : Bool) (C : Int) (CONJA : Bool) (CONJB : Bool) (K : Int) (LDA : Int) (LDB : Int) (LDC : Int) (M : Int) (N : Int) (NOTA : Bool) (NOTB : Bool) :
    CntLe (hgemmdz_if100 A ALPHA B BETA BONE BZERO C CONJA CONJB K LDA LDB LDC M N NOTA NOTB : Prog F _) (N.toNat * (M.toNat * 8 + K.toNat * (M.toNat * 20 + 16))) (N.toNat * (M.toNat * 4 + K.toNat * (M.toNat * 4))) := by
  unfold hgemmdz_if100
  refine CntLe.ite (fun _ => ?_) (fun _ => CntLe.ite (fun _ => ?_) (fun _ => CntLe.ite (fun _ => ?_) (fun _ => ?_)))
  · exact CntLe.bindL (le_hgemmdz_if101 ..) (fun _ => .ret)
  · exact CntLe.bindL (le_hgemmdz_if311 ..) (fun _ => .ret)
  · exact CntLe.bindL (le_hgemmdz_if465 ..) (fun _ => .ret)
  · exact CntLe.bindL (le_hgemmdz_if602 ..) (fun _ => .ret)

theorem le_hgemmdz (TRANSA : Char) (TRANSB : Char) (M : Int) (N : Int) (K : Int) (ALPHA : F) (A : Int) (LDA : Int) (B : Int) (LDB : Int) (BETA : Cplx F) (C : Int) (LDC : Int) :
    CntLe (hgemmdz TRANSA TRANSB M N K ALPHA A LDA B LDB BETA C LDC : Prog F _) (N.toNat * (M.toNat * 8 + K.toNat * (M.toNat * 20 + 16))) (N.toNat * (M.toNat * 4 + K.toNat * (M.toNat * 4))) := by
  unfold hgemmdz
  try dsimp only
  refine CntLe.ite (fun _ => .ret) fun _ => CntLe.ite (fun _ => .ret) fun _ => CntLe.ite (fun _ => ?_) (fun _ => ?_)
  · exact CntLe.mono (CntLe.bindL (le_hgemmdz_if62 ..) (fun _ => .ret)) (gemm_le1 ..) (gemm_le2 ..)
  · exact CntLe.bindL (le_hgemmdz_if100 ..) (fun _ => .ret)

theorem le_hgemmdh_10_I (C : Int) (J : Int) (LDC : Int) (I : Int) : CntLe (hgemmdh_10_I C J LDC I : Prog F _) 8 4 := by
  unfold hgemmdh_10_I
  le_line

theorem le_hgemmdh_10_J (C : Int) (LDC : Int) (M : Int) (J : Int) :
    CntLe (hgemmdh_10_J C LDC M J : Prog F _) (M.toNat * 8) (M.toNat * 4) := by
  unfold hgemmdh_10_J
  exact CntLe.bindL (CntLe.forN fun _ _ => le_hgemmdh_10_I ..) (fun _ => .ret)

theorem le_hgemmdh_20_I (BETA : Quat F) (C : Int) (J : Int) (LDC : Int) (I : Int) : CntLe (hgemmdh_20_I BETA C J LDC I : Prog F _) 8 4 := by
  unfold hgemmdh_20_I
  le_line

theorem le_hgemmdh_20_J (BETA : Quat F) (C : Int) (LDC : Int) (M : Int) (J : Int) :
    CntLe (hgemmdh_20_J BETA C LDC M J : Prog F _) (M.toNat * 8) (M.toNat * 4) := by
  unfold hgemmdh_20_J
  exact CntLe.bindL (CntLe.forN fun _ _ => le_hgemmdh_20_I ..) (fun _ => .ret)

theorem le_hgemmdh_if64 (BETA : Quat F) (BZERO : Bool) (C : Int) (LDC : Int) (M : Int) (N : Int) :
    CntLe (hgemmdh_if64 BETA BZERO C LDC M N : Prog F _) (N.toNat * (M.toNat * 8)) (N.toNat * (M.toNat * 4)) := by
  unfold hgemmdh_if64
  refine CntLe.ite (fun _ => ?_) (fun _ => ?_)
  · exact CntLe.bindL (CntLe.forN fun _ _ => le_hgemmdh_10_J ..) (fun _ => .ret)
  · exact CntLe.bindL (CntLe.forN fun _ _ => le_hgemmdh_20_J ..) (fun _ => .ret)

theorem le_hgemmdh_40_I (C : Int) (J : Int) (LDC : Int) (I : Int) : CntLe (hgemmdh_40_I C J LDC I : Prog F _) 8 4 := by
  unfold hgemmdh_40_I
  le_line

theorem le_hgemmdh_50_I (BETA : Quat F) (C : Int) (J : Int) (LDC : Int) (I : Int) : CntLe (hgemmdh_50_I BETA C J LDC I : Prog F _) 8 4 := by
  unfold hgemmdh_50_I
  le_line

theorem le_hgemmdh_if113 (BETA : Quat F) (BONE : Bool) (BZERO : Bool) (C : Int) (J : Int) (LDC : Int) (M : Int) :
    CntLe (hgemmdh_if113 BETA BONE BZERO C J LDC M : Prog F _) (M.toNat * 8) (M.toNat * 4) := by
  unfold hgemmdh_if113
  refine CntLe.ite (fun _ => ?_) (fun _ => CntLe.ite (fun _ => ?_) (fun _ => .ret))
  · exact CntLe.bindL (CntLe.forN fun _ _ => le_hgemmdh_40_I ..) (fun _ => .ret)
  · exact CntLe.bindL (CntLe.forN fun _ _ => le_hgemmdh_50_I ..) (fun _ => .ret)

theorem le_hgemmdh_70_I (A : Int) (C : Int) (HTMPJ : Cplx F) (HTMPS : Cplx F) (J : Int) (L : Int) (LDA : Int) (LDC : Int) (I : Int) : CntLe (hgemmdh_70_I A C HTMPJ HTMPS J L LDA LDC I : Prog F _) 20 4 := by
  unfold hgemmdh_70_I
  le_line

theorem le_hgemmdh_60_L (A : Int) (ALPHA : F) (B : Int) (C : Int) (J : Int) (LDA : Int) (LDB : Int) (LDC : Int) (M : Int) (L : Int) :
    CntLe (hgemmdh_60_L A ALPHA B C J LDA LDB LDC M L : Prog F _) (M.toNat * 20 + 16) (M.toNat * 4) := by
  unfold hgemmdh_60_L
  try dsimp only
  repeat (first | refine le_rdC_bind fun _ => ?_ | refine .rd fun _ => ?_)
  exact CntLe.mono (CntLe.bindL (CntLe.forN fun _ _ => le_hgemmdh_70_I ..) (fun _ => .ret)) (by omega) (by omega)

theorem le_hgemmdh_30_J (A : Int) (ALPHA : F) (B : Int) (BETA : Quat F) (BONE : Bool) (BZERO : Bool) (C : Int) (K : Int) (LDA : Int) (LDB : Int) (LDC : Int) (M : Int) (J : Int) :
    CntLe (hgemmdh_30_J A ALPHA B BETA BONE BZERO C K LDA LDB LDC M J : Prog F _) (M.toNat * 8 + K.toNat * (M.toNat * 20 + 16)) (M.toNat * 4 + K.toNat * (M.toNat * 4)) := by
  unfold hgemmdh_30_J
  exact CntLe.bind (le_hgemmdh_if113 ..) fun _ => CntLe.bindL (CntLe.forN fun _ _ => le_hgemmdh_60_L ..) (fun _ => .ret)

theorem le_hgemmdh_90_L (A : Int) (B : Int) (I : Int) (J : Int) (LDA : Int) (LDB : Int) (L : Int) (HTMPJ : Cplx F) (HTMPS : Cplx F) : CntLe (hgemmdh_90_L A B I J LDA LDB L HTMPJ HTMPS : Prog F _) 16 0 := by
  unfold hgemmdh_90_L
  le_line

theorem le_hgemmdh_80_I (A : Int) (ALPHA : F) (B : Int) (BETA : Quat F) (BZERO : Bool) (C : Int) (J : Int) (K : Int) (LDA : Int) (LDB : Int) (LDC : Int) (I : Int) :
    CntLe (hgemmdh_80_I A ALPHA B BETA BZERO C J K LDA LDB LDC I : Prog F _) (K.toNat * 16 + 8) (4) := by
  unfold hgemmdh_80_I
  try dsimp only
  refine CntLe.mono (CntLe.bind (CntLe.fold_const fun _ _ _ => le_hgemmdh_90_L ..) (fun _ => (?_ : CntLe _ 8 4))) (by omega) (by omega)
  cases BZERO <;> le_line

theorem le_hgemmdh_80_J (A : Int) (ALPHA : F) (B : Int) (BETA : Quat F) (BZERO : Bool) (C : Int) (K : Int) (LDA : Int) (LDB : Int) (LDC : Int) (M : Int) (J : Int) :
    CntLe (hgemmdh_80_J A ALPHA B BETA BZERO C K LDA LDB LDC M J : Prog F _) (M.toNat * (K.toNat * 16 + 8)) (M.toNat * 4) := by
  unfold hgemmdh_80_J
  exact CntLe.bindL (CntLe.forN fun _ _ => le_hgemmdh_80_I ..) (fun _ => .ret)

theorem le_hgemmdh_110_L (A : Int) (B : Int) (I : Int) (J : Int) (LDA : Int) (LDB : Int) (L : Int) (HTMPJ : Cplx F) (HTMPS : Cplx F) : CntLe (hgemmdh_110_L A B I J LDA LDB L HTMPJ HTMPS : Prog F _) 16 0 := by
  unfold hgemmdh_110_L
  le_line

theorem le_hgemmdh_100_I (A : Int) (ALPHA : F) (B : Int) (BETA : Quat F) (BZERO : Bool) (C : Int) (J : Int) (K : Int) (LDA : Int) (LDB : Int) (LDC : Int) (I : Int) :
    CntLe (hgemmdh_100_I A ALPHA B BETA BZERO C J K LDA LDB LDC I : Prog F _) (K.toNat * 16 + 8) (4) := by
  unfold hgemmdh_100_I
  try dsimp only
  refine CntLe.mono (CntLe.bind (CntLe.fold_const fun _ _ _ => le_hgemmdh_110_L ..) (fun _ => (?_ : CntLe _ 8 4))) (by omega) (by omega)
  cases BZERO <;> le_line

theorem le_hgemmdh_100_J (A : Int) (ALPHA : F) (B : Int) (BETA : Quat F) (BZERO : Bool) (C : Int) (K : Int) (LDA : Int) (LDB : Int) (LDC : Int) (M : Int) (J : Int) :
    CntLe (hgemmdh_100_J A ALPHA B BETA BZERO C K LDA LDB LDC M J : Prog F _) (M.toNat * (K.toNat * 16 + 8)) (M.toNat * 4) := by
  unfold hgemmdh_100_J
  exact CntLe.bindL (CntLe.forN fun _ _ => le_hgemmdh_100_I ..) (fun _ => .ret)

theorem le_hgemmdh_if108 (A : Int) (ALPHA : F) (B : Int) (BETA : Quat F) (BONE : Bool) (BZERO : Bool) (C : Int) (CONJA : Bool) (K : Int) (LDA : Int) (LDB : Int) (LDC : Int) (M : Int) (N : Int) (NOTA : Bool) :
    CntLe (hgemmdh_if108 A ALPHA B BETA BONE BZERO C CONJA K LDA LDB LDC M N NOTA : Prog F _) (N.toNat * (M.toNat * 8 + K.toNat * (M.toNat * 20 + 16))) (N.toNat * (M.toNat * 4 + K.toNat * (M.toNat * 4))) := by
  unfold hgemmdh_if108
  refine CntLe.ite (fun _ => ?_) (fun _ => CntLe.ite (fun _ => ?_) (fun _ => ?_))
  · exact CntLe.bindL (CntLe.forN fun _ _ => le_hgemmdh_30_J ..) (fun _ => .ret)
  · exact CntLe.mono (CntLe.bindL (CntLe.forN fun _ _ => le_hgemmdh_80_J ..) (fun _ => .ret)) (gemm_le3 ..) (gemm_le2 ..)
  · exact CntLe.mono (CntLe.bindL (CntLe.forN fun _ _ => le_hgemmdh_100_J ..) (fun _ => .ret)) (gemm_le3 ..) (gemm_le2 ..)

theorem le_hgemmdh_130_I (C : Int) (J : Int) (LDC : Int) (I : Int) : CntLe (hgemmdh_130_I C J LDC I : Prog F _) 8 4 := by
  unfold hgemmdh_130_I
  le_line

theorem le_hgemmdh_140_I (BETA : Quat F) (C : Int) (J : Int) (LDC : Int) (I : Int) : CntLe (hgemmdh_140_I BETA C J LDC I : Prog F _) 8 4 := by
  unfold hgemmdh_140_I
  le_line

theorem le_hgemmdh_if342 (BETA : Quat F) (BONE : Bool) (BZERO : Bool) (C : Int) (J : Int) (LDC : Int) (M : Int) :
    CntLe (hgemmdh_if342 BETA BONE BZERO C J LDC M : Prog F _) (M.toNat * 8) (M.toNat * 4) := by
  unfold hgemmdh_if342
  refine CntLe.ite (fun _ => ?_) (fun _ => CntLe.ite (fun _ => ?_) (fun _ => .ret))
  · exact CntLe.bindL (CntLe.forN fun _ _ => le_hgemmdh_130_I ..) (fun _ => .ret)
  · exact CntLe.bindL (CntLe.forN fun _ _ => le_hgemmdh_140_I ..) (fun _ => .ret)

theorem le_hgemmdh_160_I (A : Int) (C : Int) (HTMPJ : Cplx F) (HTMPS : Cplx F) (J : Int) (L : Int) (LDA : Int) (LDC : Int) (I : Int) : CntLe (hgemmdh_160_I A C HTMPJ HTMPS J L LDA LDC I : Prog F _) 20 4 := by
  unfold hgemmdh_160_I
  le_line

theorem le_hgemmdh_150_L (A : Int) (ALPHA : F) (B : Int) (C : Int) (J : Int) (LDA : Int) (LDB : Int) (LDC : Int) (M : Int) (L : Int) :
    CntLe (hgemmdh_150_L A ALPHA B C J LDA LDB LDC M L : Prog F _) (M.toNat * 20 + 16) (M.toNat * 4) := by
  unfold hgemmdh_150_L
  try dsimp only
  repeat (first | refine le_rdC_bind fun _ => ?_ | refine .rd fun _ => ?_)
  exact CntLe.mono (CntLe.bindL (CntLe.forN fun _ _ => le_hgemmdh_160_I ..) (fun _ => .ret)) (by omega) (by omega)

theorem le_hgemmdh_120_J (A : Int) (ALPHA : F) (B : Int) (BETA : Quat F) (BONE : Bool) (BZERO : Bool) (C : Int) (K : Int) (LDA : Int) (LDB : Int) (LDC : Int) (M : Int) (J : Int) :
    CntLe (hgemmdh_120_J A ALPHA B BETA BONE BZERO C K LDA LDB LDC M J : Prog F _) (M.toNat * 8 + K.toNat * (M.toNat * 20 + 16)) (M.toNat * 4 + K.toNat * (M.toNat * 4)) := by
  unfold hgemmdh_120_J
  exact CntLe.bind (le_hgemmdh_if342 ..) fun _ => CntLe.bindL (CntLe.forN fun _ _ => le_hgemmdh_150_L ..) (fun _ => .ret)

theorem le_hgemmdh_180_I (C : Int) (J : Int) (LDC : Int) (I : Int) : CntLe (hgemmdh_180_I C J LDC I : Prog F _) 8 4 := by
  unfold hgemmdh_180_I
  le_line

theorem le_hgemmdh_190_I (BETA : Quat F) (C : Int) (J : Int) (LDC : Int) (I : Int) : CntLe (hgemmdh_190_I BETA C J LDC I : Prog F _) 8 4 := by
  unfold hgemmdh_190_I
  le_line

theorem le_hgemmdh_if424 (BETA : Quat F) (BONE : Bool) (BZERO : Bool) (C : Int) (J : Int) (LDC : Int) (M : Int) :
    CntLe (hgemmdh_if424 BETA BONE BZERO C J LDC M : Prog F _) (M.toNat * 8) (M.toNat * 4) := by
  unfold hgemmdh_if424
  refine CntLe.ite (fun _ => ?_) (fun _ => CntLe.ite (fun _ => ?_) (fun _ => .ret))
  · exact CntLe.bindL (CntLe.forN fun _ _ => le_hgemmdh_180_I ..) (fun _ => .ret)
  · exact CntLe.bindL (CntLe.forN fun _ _ => le_hgemmdh_190_I ..) (fun _ => .ret)

theorem le_hgemmdh_210_I (A : Int) (C : Int) (HTMPJ : Cplx F) (HTMPS : Cplx F) (J : Int) (L : Int) (LDA : Int) (LDC : Int) (I : Int) : CntLe (hgemmdh_210_I A C HTMPJ HTMPS J L LDA LDC I : Prog F _) 20 4 := by
  unfold hgemmdh_210_I
  le_line

theorem le_hgemmdh_200_L (A : Int) (ALPHA : F) (B : Int) (C : Int) (J : Int) (LDA : Int) (LDB : Int) (LDC : Int) (M : Int) (L : Int) :
    CntLe (hgemmdh_200_L A ALPHA B C J LDA LDB LDC M L : Prog F _) (M.toNat * 20 + 16) (M.toNat * 4) := by
  unfold hgemmdh_200_L
  try dsimp only
  repeat (first | refine le_rdC_bind fun _ => ?_ | refine .rd fun _ => ?_)
  exact CntLe.mono (CntLe.bindL (CntLe.forN fun _ _ => le_hgemmdh_210_I ..) (fun _ => .ret)) (by omega) (by omega)

theorem le_hgemmdh_170_J (A : Int) (ALPHA : F) (B : Int) (BETA : Quat F) (BONE : Bool) (BZERO : Bool) (C : Int) (K : Int) (LDA : Int) (LDB : Int) (LDC : Int) (M : Int) (J : Int) :
    CntLe (hgemmdh_170_J A ALPHA B BETA BONE BZERO C K LDA LDB LDC M J : Prog F _) (M.toNat * 8 + K.toNat * (M.toNat * 20 + 16)) (M.toNat * 4 + K.toNat * (M.toNat * 4)) := by
  unfold hgemmdh_170_J
  exact CntLe.bind (le_hgemmdh_if424 ..) fun _ => CntLe.bindL (CntLe.forN fun _ _ => le_hgemmdh_200_L ..) (fun _ => .ret)

theorem le_hgemmdh_if337 (A : Int) (ALPHA : F) (B : Int) (BETA : Quat F) (BONE : Bool) (BZERO : Bool) (C : Int) (CONJB : Bool) (K : Int) (LDA : Int) (LDB : Int) (LDC : Int) (M : Int) (N : Int) :
    CntLe (hgemmdh_if337 A ALPHA B BETA BONE BZERO C CONJB K LDA LDB LDC M N : Prog F _) (N.toNat * (M.toNat * 8 + K.toNat * (M.toNat * 20 + 16))) (N.toNat * (M.toNat * 4 + K.toNat * (M.toNat * 4))) := by
  unfold hgemmdh_if337
  refine CntLe.ite (fun _ => ?_) (fun _ => ?_)
  · exact CntLe.bindL (CntLe.forN fun _ _ => le_hgemmdh_120_J ..) (fun _ => .ret)
  · exact CntLe.bindL (CntLe.forN fun _ _ => le_hgemmdh_170_J ..) (fun _ => .ret)

theorem le_hgemmdh_230_L (A : Int) (B : Int) (I : Int) (J : Int) (LDA : Int) (LDB : Int) (L : Int) (HTMPJ : Cplx F) (HTMPS : Cplx F) : CntLe (hgemmdh_230_L A B I J LDA LDB L HTMPJ HTMPS : Prog F _) 16 0 := by
  unfold hgemmdh_230_L
  le_line

theorem le_hgemmdh_220_I (A : Int) (ALPHA : F) (B : Int) (BETA : Quat F) (BZERO : Bool) (C : Int) (J : Int) (K : Int) (LDA : Int) (LDB : Int) (LDC : Int) (I : Int) :
    CntLe (hgemmdh_220_I A ALPHA B BETA BZERO C J K LDA LDB LDC I : Prog F _) (K.toNat * 16 + 8) (4) := by
  unfold hgemmdh_220_I
  try dsimp only
  refine CntLe.mono (CntLe.bind (CntLe.fold_const fun _ _ _ => le_hgemmdh_230_L ..) (fun _ => (?_ : CntLe _ 8 4))) (by omega) (by omega)
  cases BZERO <;> le_line

theorem le_hgemmdh_220_J (A : Int) (ALPHA : F) (B : Int) (BETA : Quat F) (BZERO : Bool) (C : Int) (K : Int) (LDA : Int) (LDB : Int) (LDC : Int) (M : Int) (J : Int) :
    CntLe (hgemmdh_220_J A ALPHA B BETA BZERO C K LDA LDB LDC M J : Prog F _) (M.toNat * (K.toNat * 16 + 8)) (M.toNat * 4) := by
  unfold hgemmdh_220_J
  exact CntLe.bindL (CntLe.forN fun _ _ => le_hgemmdh_220_I ..) (fun _ => .ret)

theorem le_hgemmdh_250_L (A : Int) (B : Int) (I : Int) (J : Int) (LDA : Int) (LDB : Int) (L : Int) (HTMPJ : Cplx F) (HTMPS : Cplx F) : CntLe (hgemmdh_250_L A B I J LDA LDB L HTMPJ HTMPS : Prog F _) 16 0 := by
  unfold hgemmdh_250_L
  le_line

theorem le_hgemmdh_240_I (A : Int) (ALPHA : F) (B : Int) (BETA : Quat F) (BZERO : Bool) (C : Int) (J : Int) (K : Int) (LDA : Int) (LDB : Int) (LDC : Int) (I : Int) :
    CntLe (hgemmdh_240_I A ALPHA B BETA BZERO C J K LDA LDB LDC I : Prog F _) (K.toNat * 16 + 8) (4) := by
  unfold hgemmdh_240_I
  try dsimp only
  refine CntLe.mono (CntLe.bind (CntLe.fold_const fun _ _ _ => le_hgemmdh_250_L ..) (fun _ => (?_ : CntLe _ 8 4))) (by omega) (by omega)
  cases BZERO <;> le_line

theorem le_hgemmdh_240_J (A : Int) (ALPHA : F) (B : Int) (BETA : Quat F) (BZERO : Bool) (C : Int) (K : Int) (LDA : Int) (LDB : Int) (LDC : Int) (M : Int) (J : Int) :
    CntLe (hgemmdh_240_J A ALPHA B BETA BZERO C K LDA LDB LDC M J : Prog F _) (M.toNat * (K.toNat * 16 + 8)) (M.toNat * 4) := by
  unfold hgemmdh_240_J
  exact CntLe.bindL (CntLe.forN fun _ _ => le_hgemmdh_240_I ..) (fun _ => .ret)

theorem le_hgemmdh_if501 (A : Int) (ALPHA : F) (B : Int) (BETA : Quat F) (BZERO : Bool) (C : Int) (CONJB : Bool) (K : Int) (LDA : Int) (LDB : Int) (LDC : Int) (M : Int) (N : Int) :
    CntLe (hgemmdh_if501 A ALPHA B BETA BZERO C CONJB K LDA LDB LDC M N : Prog F _) (N.toNat * (M.toNat * 8 + K.toNat * (M.toNat * 20 + 16))) (N.toNat * (M.toNat * 4 + K.toNat * (M.toNat * 4))) := by
  unfold hgemmdh_if501
  refine CntLe.ite (fun _ => ?_) (fun _ => ?_)
  · exact CntLe.mono (CntLe.bindL (CntLe.forN fun _ _ => le_hgemmdh_220_J ..) (fun _ => .ret)) (gemm_le3 ..) (gemm_le2 ..)
  · exact CntLe.mono (CntLe.bindL (CntLe.forN fun _ _ => le_hgemmdh_240_J ..) (fun _ => .ret)) (gemm_le3 ..) (gemm_le2 ..)

theorem le_hgemmdh_270_L (A : Int) (B : Int) (I : Int) (J : Int) (LDA : Int) (LDB : Int) (L : Int) (HTMPJ : Cplx F) (HTMPS : Cplx F) : CntLe (hgemmdh_270_L A B I J LDA LDB L HTMPJ HTMPS : Prog F _) 16 0 := by
  unfold hgemmdh_270_L
  le_line

theorem le_hgemmdh_260_I (A : Int) (ALPHA : F) (B : Int) (BETA : Quat F) (BZERO : Bool) (C : Int) (J : Int) (K : Int) (LDA : Int) (LDB : Int) (LDC : Int) (I : Int) :
    CntLe (hgemmdh_260_I A ALPHA B BETA BZERO C J K LDA LDB LDC I : Prog F _) (K.toNat * 16 + 8) (4) := by
  unfold hgemmdh_260_I
  try dsimp only
  refine CntLe.mono (CntLe.bind (CntLe.fold_const fun _ _ _ => le_hgemmdh_270_L ..) (fun _ => (?_ : CntLe _ 8 4))) (by omega) (by omega)
  cases BZERO <;> le_line

theorem le_hgemmdh_260_J (A : Int) (ALPHA : F) (B : Int) (BETA : Quat F) (BZERO : Bool) (C : Int) (K : Int) (LDA : Int) (LDB : Int) (LDC : Int) (M : Int) (J : Int) :
    CntLe (hgemmdh_260_J A ALPHA B BETA BZERO C K LDA LDB LDC M J : Prog F _) (M.toNat * (K.toNat * 16 + 8)) (M.toNat * 4) := by
  unfold hgemmdh_260_J
  exact CntLe.bindL (CntLe.forN fun _ _ => le_hgemmdh_260_I ..) (fun _ => .ret)

theorem le_hgemmdh_290_L (A : Int) (B : Int) (I : Int) (J : Int) (LDA : Int) (LDB : Int) (L : Int) (HTMPJ : Cplx F) (HTMPS : Cplx F) : CntLe (hgemmdh_290_L A B I J LDA LDB L HTMPJ HTMPS : Prog F _) 16 0 := by
  unfold hgemmdh_290_L
  le_line

theorem le_hgemmdh_280_I (A : Int) (ALPHA : F) (B : Int) (BETA : Quat F) (BZERO : Bool) (C : Int) (J : Int) (K : Int) (LDA : Int) (LDB : Int) (LDC : Int) (I : Int) :
    CntLe (hgemmdh_280_I A ALPHA B BETA BZERO C J K LDA LDB LDC I : Prog F _) (K.toNat * 16 + 8) (4) := by
  unfold hgemmdh_280_I
  try dsimp only
  refine CntLe.mono (CntLe.bind (CntLe.fold_const fun _ _ _ => le_hgemmdh_290_L ..) (fun _ => (?_ : CntLe _ 8 4))) (by omega) (by omega)
  cases BZERO <;> le_line

theorem le_hgemmdh_280_J (A : Int) (ALPHA : F) (B : Int) (BETA : Quat F) (BZERO : Bool) (C : Int) (K : Int) (LDA : Int) (LDB : Int) (LDC : Int) (M : Int) (J : Int) :
    CntLe (hgemmdh_280_J A ALPHA B BETA BZERO C K LDA LDB LDC M J : Prog F _) (M.toNat * (K.toNat * 16 + 8)) (M.toNat * 4) := by
  unfold hgemmdh_280_J
  exact CntLe.bindL (CntLe.forN fun _ _ => le_hgemmdh_280_I ..) (fun _ => .ret)

theorem le_hgemmdh_if652 (A : Int) (ALPHA : F) (B : Int) (BETA : Quat F) (BZERO : Bool) (C : Int) (CONJB : Bool) (K : Int) (LDA : Int) (LDB : Int) (LDC : Int) (M : Int) (N : Int) :
    CntLe (hgemmdh_if652 A ALPHA B BETA BZERO C CONJB K LDA LDB LDC M N : Prog F _) (N.toNat * (M.toNat * 8 + K.toNat * (M.toNat * 20 + 16))) (N.toNat * (M.toNat * 4 + K.toNat * (M.toNat * 4))) := by
  unfold hgemmdh_if652
  refine CntLe.ite (fun _ => ?_) (fun _ => ?_)
  · exact CntLe.mono (CntLe.bindL (CntLe.forN fun _ _ => le_hgemmdh_260_J ..) (fun _ => .ret)) (gemm_le3 ..) (gemm_le2 ..)
  · exact CntLe.mono (CntLe.bindL (CntLe.forN fun _ _ => le_hgemmdh_280_J ..) (fun _ => .ret)) (gemm_le3 ..) (gemm_le2 ..)

theorem le_hgemmdh_if107 (A : Int) (ALPHA : F) (B : Int) (BETA : Quat F) (BONE : Bool) (BZERO : Bool) (C : Int) (CONJA : Bool) (CONJB : Bool) (K : Int) (LDA : Int) (LDB : Int) (LDC : Int) (M : Int) (N : Int) (NOTA : Bool) (NOTB : Bool) :
    CntLe (hgemmdh_if107 A ALPHA B BETA BONE BZERO C CONJA CONJB K LDA LDB LDC M N NOTA NOTB : Prog F _) (N.toNat * (M.toNat * 8 + K.toNat * (M.toNat * 20 + 16))) (N.toNat * (M.toNat * 4 + K.toNat * (M.toNat * 4))) := by
  unfold hgemmdh_if107
  refine CntLe.ite (fun _ => ?_) (fun _ => CntLe.ite (fun _ => ?_) (fun _ => CntLe.ite (fun _ => ?_) (fun _ => ?_)))
  · exact CntLe.bindL (le_hgemmdh_if108 ..) (fun _ => .ret)
  · exact CntLe.bindL (le_hgemmdh_if337 ..) (fun _ => .ret)
  · exact CntLe.bindL (le_hgemmdh_if501 ..) (fun _ => .ret)
  · exact CntLe.bindL (le_hgemmdh_if652 ..) (fun _ => .ret)

theorem le_hgemmdh (TRANSA : Char) (TRANSB : Char) (M : Int) (N : Int) (K : Int) (ALPHA : F) (A : Int) (LDA : Int) (B : Int) (LDB : Int) (BETA : Quat F) (C : Int) (LDC : Int) :
    CntLe (hgemmdh TRANSA TRANSB M N K ALPHA A LDA B LDB BETA C LDC : Prog F _) (N.toNat * (M.toNat * 8 + K.toNat * (M.toNat * 20 + 16))) (N.toNat * (M.toNat * 4 + K.toNat * (M.toNat * 4))) := by
  unfold hgemmdh
  try dsimp only
  refine CntLe.ite (fun _ => .ret) fun _ => CntLe.ite (fun _ => .ret) fun _ => CntLe.ite (fun _ => ?_) (fun _ => ?_)
  · exact CntLe.mono (CntLe.bindL (le_hgemmdh_if64 ..) (fun _ => .ret)) (gemm_le1 ..) (gemm_le2 ..)
  · exact CntLe.bindL (le_hgemmdh_if107 ..) (fun _ => .ret)

theorem le_hgemmzd_10_I (C : Int) (J : Int) (LDC : Int) (I : Int) : CntLe (hgemmzd_10_I C J LDC I : Prog F _) 8 4 := by
  unfold hgemmzd_10_I
  le_line

theorem le_hgemmzd_10_J (C : Int) (LDC : Int) (M : Int) (J : Int) :
    CntLe (hgemmzd_10_J C LDC M J : Prog F _) (M.toNat * 8) (M.toNat * 4) := by
  unfold hgemmzd_10_J
  exact CntLe.bindL (CntLe.forN fun _ _ => le_hgemmzd_10_I ..) (fun _ => .ret)

theorem le_hgemmzd_20_I (BETA : F) (C : Int) (J : Int) (LDC : Int) (I : Int) : CntLe (hgemmzd_20_I BETA C J LDC I : Prog F _) 8 4 := by
  unfold hgemmzd_20_I
  le_line

theorem le_hgemmzd_20_J (BETA : F) (C : Int) (LDC : Int) (M : Int) (J : Int) :
    CntLe (hgemmzd_20_J BETA C LDC M J : Prog F _) (M.toNat * 8) (M.toNat * 4) := by
  unfold hgemmzd_20_J
  exact CntLe.bindL (CntLe.forN fun _ _ => le_hgemmzd_20_I ..) (fun _ => .ret)

theorem le_hgemmzd_if48 (BETA : F) (BZERO : Bool) (C : Int) (LDC : Int) (M : Int) (N : Int) :
    CntLe (hgemmzd_if48 BETA BZERO C LDC M N : Prog F _) (N.toNat * (M.toNat * 8)) (N.toNat * (M.toNat * 4)) := by
  unfold hgemmzd_if48
  refine CntLe.ite (fun _ => ?_) (fun _ => ?_)
  · exact CntLe.bindL (CntLe.forN fun _ _ => le_hgemmzd_10_J ..) (fun _ => .ret)
  · exact CntLe.bindL (CntLe.forN fun _ _ => le_hgemmzd_20_J ..) (fun _ => .ret)

theorem le_hgemmzd_40_I (C : Int) (J : Int) (LDC : Int) (I : Int) : CntLe (hgemmzd_40_I C J LDC I : Prog F _) 8 4 := by
  unfold hgemmzd_40_I
  le_line

theorem le_hgemmzd_50_I (BETA : F) (C : Int) (J : Int) (LDC : Int) (I : Int) : CntLe (hgemmzd_50_I BETA C J LDC I : Prog F _) 8 4 := by
  unfold hgemmzd_50_I
  le_line

theorem le_hgemmzd_if70 (BETA : F) (BONE : Bool) (BZERO : Bool) (C : Int) (J : Int) (LDC : Int) (M : Int) :
    CntLe (hgemmzd_if70 BETA BONE BZERO C J LDC M : Prog F _) (M.toNat * 8) (M.toNat * 4) := by
  unfold hgemmzd_if70
  refine CntLe.ite (fun _ => ?_) (fun _ => CntLe.ite (fun _ => ?_) (fun _ => .ret))
  · exact CntLe.bindL (CntLe.forN fun _ _ => le_hgemmzd_40_I ..) (fun _ => .ret)
  · exact CntLe.bindL (CntLe.forN fun _ _ => le_hgemmzd_50_I ..) (fun _ => .ret)

theorem le_hgemmzd_70_I (A : Int) (C : Int) (HTMP1J : Cplx F) (HTMP1S : Cplx F) (HTMP2J : Cplx F) (HTMP2S : Cplx F) (J : Int) (L : Int) (LDA : Int) (LDC : Int) (I : Int) : CntLe (hgemmzd_70_I A C HTMP1J HTMP1S HTMP2J HTMP2S J L LDA LDC I : Prog F _) 20 4 := by
  unfold hgemmzd_70_I
  le_line

theorem le_hgemmzd_60_L (A : Int) (ALPHA : Cplx F) (B : Int) (C : Int) (J : Int) (LDA : Int) (LDB : Int) (LDC : Int) (M : Int) (L : Int) :
    CntLe (hgemmzd_60_L A ALPHA B C J LDA LDB LDC M L : Prog F _) (M.toNat * 20 + 16) (M.toNat * 4) := by
  unfold hgemmzd_60_L
  try dsimp only
  repeat (first | refine le_rdC_bind fun _ => ?_ | refine .rd fun _ => ?_)
  exact CntLe.mono (CntLe.bindL (CntLe.forN fun _ _ => le_hgemmzd_70_I ..) (fun _ => .ret)) (by omega) (by omega)

theorem le_hgemmzd_30_J (A : Int) (ALPHA : Cplx F) (B : Int) (BETA : F) (BONE : Bool) (BZERO : Bool) (C : Int) (K : Int) (LDA : Int) (LDB : Int) (LDC : Int) (M : Int) (J : Int) :
    CntLe (hgemmzd_30_J A ALPHA B BETA BONE BZERO C K LDA LDB LDC M J : Prog F _) (M.toNat * 8 + K.toNat * (M.toNat * 20 + 16)) (M.toNat * 4 + K.toNat * (M.toNat * 4)) := by
  unfold hgemmzd_30_J
  exact CntLe.bind (le_hgemmzd_if70 ..) fun _ => CntLe.bindL (CntLe.forN fun _ _ => le_hgemmzd_60_L ..) (fun _ => .ret)

theorem le_hgemmzd_90_L (A : Int) (B : Int) (I : Int) (J : Int) (LDA : Int) (LDB : Int) (L : Int) (HTMP1J : Cplx F) (HTMP1S : Cplx F) : CntLe (hgemmzd_90_L A B I J LDA LDB L HTMP1J HTMP1S : Prog F _) 16 0 := by
  unfold hgemmzd_90_L
  le_line

theorem le_hgemmzd_80_I (A : Int) (ALPHA : Cplx F) (B : Int) (BETA : F) (BZERO : Bool) (C : Int) (J : Int) (K : Int) (LDA : Int) (LDB : Int) (LDC : Int) (I : Int) :
    CntLe (hgemmzd_80_I A ALPHA B BETA BZERO C J K LDA LDB LDC I : Prog F _) (K.toNat * 16 + 8) (4) := by
  unfold hgemmzd_80_I
  try dsimp only
  refine CntLe.mono (CntLe.bind (CntLe.fold_const fun _ _ _ => le_hgemmzd_90_L ..) (fun _ => (?_ : CntLe _ 8 4))) (by omega) (by omega)
  cases BZERO <;> le_line

theorem le_hgemmzd_80_J (A : Int) (ALPHA : Cplx F) (B : Int) (BETA : F) (BZERO : Bool) (C : Int) (K : Int) (LDA : Int) (LDB : Int) (LDC : Int) (M : Int) (J : Int) :
    CntLe (hgemmzd_80_J A ALPHA B BETA BZERO C K LDA LDB LDC M J : Prog F _) (M.toNat * (K.toNat * 16 + 8)) (M.toNat * 4) := by
  unfold hgemmzd_80_J
  exact CntLe.bindL (CntLe.forN fun _ _ => le_hgemmzd_80_I ..) (fun _ => .ret)

theorem le_hgemmzd_110_L (A : Int) (B : Int) (I : Int) (J : Int) (LDA : Int) (LDB : Int) (L : Int) (HTMP1J : Cplx F) (HTMP1S : Cplx F) : CntLe (hgemmzd_110_L A B I J LDA LDB L HTMP1J HTMP1S : Prog F _) 16 0 := by
  unfold hgemmzd_110_L
  le_line

theorem le_hgemmzd_100_I (A : Int) (ALPHA : Cplx F) (B : Int) (BETA : F) (BZERO : Bool) (C : Int) (J : Int) (K : Int) (LDA : Int) (LDB : Int) (LDC : Int) (I : Int) :
    CntLe (hgemmzd_100_I A ALPHA B BETA BZERO C J K LDA LDB LDC I : Prog F _) (K.toNat * 16 + 8) (4) := by
  unfold hgemmzd_100_I
  try dsimp only
  refine CntLe.mono (CntLe.bind (CntLe.fold_const fun _ _ _ => le_hgemmzd_110_L ..) (fun _ => (?_ : CntLe _ 8 4))) (by omega) (by omega)
  cases BZERO <;> le_line

theorem le_hgemmzd_100_J (A : Int) (ALPHA : Cplx F) (B : Int) (BETA : F) (BZERO : Bool) (C : Int) (K : Int) (LDA : Int) (LDB : Int) (LDC : Int) (M : Int) (J : Int) :
    CntLe (hgemmzd_100_J A ALPHA B BETA BZERO C K LDA LDB LDC M J : Prog F _) (M.toNat * (K.toNat * 16 + 8)) (M.toNat * 4) := by
  unfold hgemmzd_100_J
  exact CntLe.bindL (CntLe.forN fun _ _ => le_hgemmzd_100_I ..) (fun _ => .ret)

theorem le_hgemmzd_if65 (A : Int) (ALPHA : Cplx F) (B : Int) (BETA : F) (BONE : Bool) (BZERO : Bool) (C : Int) (CONJA : Bool) (K : Int) (LDA : Int) (LDB : Int) (LDC : Int) (M : Int) (N : Int) (NOTA : Bool) :
    CntLe (hgemmzd_if65 A ALPHA B BETA BONE BZERO C CONJA K LDA LDB LDC M N NOTA : Prog F _) (N.toNat * (M.toNat * 8 + K.toNat * (M.toNat * 20 + 16))) (N.toNat * (M.toNat * 4 + K.toNat * (M.toNat * 4))) := by
  unfold hgemmzd_if65
  refine CntLe.ite (fun _ => ?_) (fun _ => CntLe.ite (fun _ => ?_) (fun _ => ?_))
  · exact CntLe.bindL (CntLe.forN fun _ _ => le_hgemmzd_30_J ..) (fun _ => .ret)
  · exact CntLe.mono (CntLe.bindL (CntLe.forN fun _ _ => le_hgemmzd_80_J ..) (fun _ => .ret)) (gemm_le3 ..) (gemm_le2 ..)
  · exact CntLe.mono (CntLe.bindL (CntLe.forN fun _ _ => le_hgemmzd_100_J ..) (fun _ => .ret)) (gemm_le3 ..) (gemm_le2 ..)

theorem le_hgemmzd_130_I (C : Int) (J : Int) (LDC : Int) (I : Int) : CntLe (hgemmzd_130_I C J LDC I : Prog F _) 8 4 := by
  unfold hgemmzd_130_I
  le_line

theorem le_hgemmzd_140_I (BETA : F) (C : Int) (J : Int) (LDC : Int) (I : Int) : CntLe (hgemmzd_140_I BETA C J LDC I : Prog F _) 8 4 := by
  unfold hgemmzd_140_I
  le_line

theorem le_hgemmzd_if152 (BETA : F) (BONE : Bool) (BZERO : Bool) (C : Int) (J : Int) (LDC : Int) (M : Int) :
    CntLe (hgemmzd_if152 BETA BONE BZERO C J LDC M : Prog F _) (M.toNat * 8) (M.toNat * 4) := by
  unfold hgemmzd_if152
  refine CntLe.ite (fun _ => ?_) (fun _ => CntLe.ite (fun _ => ?_) (fun _ => .ret))
  · exact CntLe.bindL (CntLe.forN fun _ _ => le_hgemmzd_130_I ..) (fun _ => .ret)
  · exact CntLe.bindL (CntLe.forN fun _ _ => le_hgemmzd_140_I ..) (fun _ => .ret)

theorem le_hgemmzd_160_I (A : Int) (C : Int) (HTMP1J : Cplx F) (HTMP1S : Cplx F) (HTMP2J : Cplx F) (HTMP2S : Cplx F) (J : Int) (L : Int) (LDA : Int) (LDC : Int) (I : Int) : CntLe (hgemmzd_160_I A C HTMP1J HTMP1S HTMP2J HTMP2S J L LDA LDC I : Prog F _) 20 4 := by
  unfold hgemmzd_160_I
  le_line

theorem le_hgemmzd_150_L (A : Int) (ALPHA : Cplx F) (B : Int) (C : Int) (J : Int) (LDA : Int) (LDB : Int) (LDC : Int) (M : Int) (L : Int) :
    CntLe (hgemmzd_150_L A ALPHA B C J LDA LDB LDC M L : Prog F _) (M.toNat * 20 + 16) (M.toNat * 4) := by
  unfold hgemmzd_150_L
  try dsimp only
  repeat (first | refine le_rdC_bind fun _ => ?_ | refine .rd fun _ => ?_)
  exact CntLe.mono (CntLe.bindL (CntLe.forN fun _ _ => le_hgemmzd_160_I ..) (fun _ => .ret)) (by omega) (by omega)

theorem le_hgemmzd_120_J (A : Int) (ALPHA : Cplx F) (B : Int) (BETA : F) (BONE : Bool) (BZERO : Bool) (C : Int) (K : Int) (LDA : Int) (LDB : Int) (LDC : Int) (M : Int) (J : Int) :
    CntLe (hgemmzd_120_J A ALPHA B BETA BONE BZERO C K LDA LDB LDC M J : Prog F _) (M.toNat * 8 + K.toNat * (M.toNat * 20 + 16)) (M.toNat * 4 + K.toNat * (M.toNat * 4)) := by
  unfold hgemmzd_120_J
  exact CntLe.bind (le_hgemmzd_if152 ..) fun _ => CntLe.bindL (CntLe.forN fun _ _ => le_hgemmzd_150_L ..) (fun _ => .ret)

theorem le_hgemmzd_180_I (C : Int) (J : Int) (LDC : Int) (I : Int) : CntLe (hgemmzd_180_I C J LDC I : Prog F _) 8 4 := by
  unfold hgemmzd_180_I
  le_line

theorem le_hgemmzd_190_I (BETA : F) (C : Int) (J : Int) (LDC : Int) (I : Int) : CntLe (hgemmzd_190_I BETA C J LDC I : Prog F _) 8 4 := by
  unfold hgemmzd_190_I
  le_line

theorem le_hgemmzd_if184 (BETA : F) (BONE : Bool) (BZERO : Bool) (C : Int) (J : Int) (LDC : Int) (M : Int) :
    CntLe (hgemmzd_if184 BETA BONE BZERO C J LDC M : Prog F _) (M.toNat * 8) (M.toNat * 4) := by
  unfold hgemmzd_if184
  refine CntLe.ite (fun _ => ?_) (fun _ => CntLe.ite (fun _ => ?_) (fun _ => .ret))
  · exact CntLe.bindL (CntLe.forN fun _ _ => le_hgemmzd_180_I ..) (fun _ => .ret)
  · exact CntLe.bindL (CntLe.forN fun _ _ => le_hgemmzd_190_I ..) (fun _ => .ret)

theorem le_hgemmzd_210_I (A : Int) (C : Int) (HTMP1J : Cplx F) (HTMP1S : Cplx F) (HTMP2J : Cplx F) (HTMP2S : Cplx F) (J : Int) (L : Int) (LDA : Int) (LDC : Int) (I : Int) : CntLe (hgemmzd_210_I A C HTMP1J HTMP1S HTMP2J HTMP2S J L LDA LDC I : Prog F _) 20 4 := by
  unfold hgemmzd_210_I
  le_line

theorem le_hgemmzd_200_L (A : Int) (ALPHA : Cplx F) (B : Int) (C : Int) (J : Int) (LDA : Int) (LDB : Int) (LDC : Int) (M : Int) (L : Int) :
    CntLe (hgemmzd_200_L A ALPHA B C J LDA LDB LDC M L : Prog F _) (M.toNat * 20 + 16) (M.toNat * 4) := by
  unfold hgemmzd_200_L
  try dsimp only
  repeat (first | refine le_rdC_bind fun _ => ?_ | refine .rd fun _ => ?_)
  exact CntLe.mono (CntLe.bindL (CntLe.forN fun _ _ => le_hgemmzd_210_I ..) (fun _ => .ret)) (by omega) (by omega)

theorem le_hgemmzd_170_J (A : Int) (ALPHA : Cplx F) (B : Int) (BETA : F) (BONE : Bool) (BZERO : Bool) (C : Int) (K : Int) (LDA : Int) (LDB : Int) (LDC : Int) (M : Int) (J : Int) :
    CntLe (hgemmzd_170_J A ALPHA B BETA BONE BZERO C K LDA LDB LDC M J : Prog F _) (M.toNat * 8 + K.toNat * (M.toNat * 20 + 16)) (M.toNat * 4 + K.toNat * (M.toNat * 4)) := by
  unfold hgemmzd_170_J
  exact CntLe.bind (le_hgemmzd_if184 ..) fun _ => CntLe.bindL (CntLe.forN fun _ _ => le_hgemmzd_200_L ..) (fun _ => .ret)

theorem le_hgemmzd_if147 (A : Int) (ALPHA : Cplx F) (B : Int) (BETA : F) (BONE : Bool) (BZERO : Bool) (C : Int) (CONJB : Bool) (K : Int) (LDA : Int) (LDB : Int) (LDC : Int) (M : Int) (N : Int) :
    CntLe (hgemmzd_if147 A ALPHA B BETA BONE BZERO C CONJB K LDA LDB LDC M N : Prog F _) (N.toNat * (M.toNat * 8 + K.toNat * (M.toNat * 20 + 16))) (N.toNat * (M.toNat * 4 + K.toNat * (M.toNat * 4))) := by
  unfold hgemmzd_if147
  refine CntLe.ite (fun _ => ?_) (fun _ => ?_)
  · exact CntLe.bindL (CntLe.forN fun _ _ => le_hgemmzd_120_J ..) (fun _ => .ret)
  · exact CntLe.bindL (CntLe.forN fun _ _ => le_hgemmzd_170_J ..) (fun _ => .ret)

theorem le_hgemmzd_230_L (A : Int) (B : Int) (I : Int) (J : Int) (LDA : Int) (LDB : Int) (L : Int) (HTMP1J : Cplx F) (HTMP1S : Cplx F) : CntLe (hgemmzd_230_L A B I J LDA LDB L HTMP1J HTMP1S : Prog F _) 16 0 := by
  unfold hgemmzd_230_L
  le_line

theorem le_hgemmzd_220_I (A : Int) (ALPHA : Cplx F) (B : Int) (BETA : F) (BZERO : Bool) (C : Int) (J : Int) (K : Int) (LDA : Int) (LDB : Int) (LDC : Int) (I : Int) :
    CntLe (hgemmzd_220_I A ALPHA B BETA BZERO C J K LDA LDB LDC I : Prog F _) (K.toNat * 16 + 8) (4) := by
  unfold hgemmzd_220_I
  try dsimp only
  refine CntLe.mono (CntLe.bind (CntLe.fold_const fun _ _ _ => le_hgemmzd_230_L ..) (fun _ => (?_ : CntLe _ 8 4))) (by omega) (by omega)
  cases BZERO <;> le_line

theorem le_hgemmzd_220_J (A : Int) (ALPHA : Cplx F) (B : Int) (BETA : F) (BZERO : Bool) (C : Int) (K : Int) (LDA : Int) (LDB : Int) (LDC : Int) (M : Int) (J : Int) :
    CntLe (hgemmzd_220_J A ALPHA B BETA BZERO C K LDA LDB LDC M J : Prog F _) (M.toNat * (K.toNat * 16 + 8)) (M.toNat * 4) := by
  unfold hgemmzd_220_J
  exact CntLe.bindL (CntLe.forN fun _ _ => le_hgemmzd_220_I ..) (fun _ => .ret)

theorem le_hgemmzd_250_L (A : Int) (B : Int) (I : Int) (J : Int) (LDA : Int) (LDB : Int) (L : Int) (HTMP1J : Cplx F) (HTMP1S : Cplx F) : CntLe (hgemmzd_250_L A B I J LDA LDB L HTMP1J HTMP1S : Prog F _) 16 0 := by
  unfold hgemmzd_250_L
  le_line

theorem le_hgemmzd_240_I (A : Int) (ALPHA : Cplx F) (B : Int) (BETA : F) (BZERO : Bool) (C : Int) (J : Int) (K : Int) (LDA : Int) (LDB : Int) (LDC : Int) (I : Int) :
    CntLe (hgemmzd_240_I A ALPHA B BETA BZERO C J K LDA LDB LDC I : Prog F _) (K.toNat * 16 + 8) (4) := by
  unfold hgemmzd_240_I
  try dsimp only
  refine CntLe.mono (CntLe.bind (CntLe.fold_const fun _ _ _ => le_hgemmzd_250_L ..) (fun _ => (?_ : CntLe _ 8 4))) (by omega) (by omega)
  cases BZERO <;> le_line

theorem le_hgemmzd_240_J (A : Int) (ALPHA : Cplx F) (B : Int) (BETA : F) (BZERO : Bool) (C : Int) (K : Int) (LDA : Int) (LDB : Int) (LDC : Int) (M : Int) (J : Int) :
    CntLe (hgemmzd_240_J A ALPHA B BETA BZERO C K LDA LDB LDC M J : Prog F _) (M.toNat * (K.toNat * 16 + 8)) (M.toNat * 4) := by
  unfold hgemmzd_240_J
  exact CntLe.bindL (CntLe.forN fun _ _ => le_hgemmzd_240_I ..) (fun _ => .ret)

theorem le_hgemmzd_if212 (A : Int) (ALPHA : Cplx F) (B : Int) (BETA : F) (BZERO : Bool) (C : Int) (CONJB : Bool) (K : Int) (LDA : Int) (LDB : Int) (LDC : Int) (M : Int) (N : Int) :
    CntLe (hgemmzd_if212 A ALPHA B BETA BZERO C CONJB K LDA LDB LDC M N : Prog F _) (N.toNat * (M.toNat * 8 + K.toNat * (M.toNat * 20 + 16))) (N.toNat * (M.toNat * 4 + K.toNat * (M.toNat * 4))) := by
  unfold hgemmzd_if212
  refine CntLe.ite (fun _ => ?_) (fun _ => ?_)
  · exact CntLe.mono (CntLe.bindL (CntLe.forN fun _ _ => le_hgemmzd_220_J ..) (fun _ => .ret)) (gemm_le3 ..) (gemm_le2 ..)
  · exact CntLe.mono (CntLe.bindL (CntLe.forN fun _ _ => le_hgemmzd_240_J ..) (fun _ => .ret)) (gemm_le3 ..) (gemm_le2 ..)

theorem le_hgemmzd_270_L (A : Int) (B : Int) (I : Int) (J : Int) (LDA : Int) (LDB : Int) (L : Int) (HTMP1J : Cplx F) (HTMP1S : Cplx F) : CntLe (hgemmzd_270_L A B I J LDA LDB L HTMP1J HTMP1S : Prog F _) 16 0 := by
  unfold hgemmzd_270_L
  le_line

theorem le_hgemmzd_260_I (A : Int) (ALPHA : Cplx F) (B : Int) (BETA : F) (BZERO : Bool) (C : Int) (J : Int) (K : Int) (LDA : Int) (LDB : Int) (LDC : Int) (I : Int) :
    CntLe (hgemmzd_260_I A ALPHA B BETA BZERO C J K LDA LDB LDC I : Prog F _) (K.toNat * 16 + 8) (4) := by
  unfold hgemmzd_260_I
  try dsimp only
  refine CntLe.mono (CntLe.bind (CntLe.fold_const fun _ _ _ => le_hgemmzd_270_L ..) (fun _ => (?_ : CntLe _ 8 4))) (by omega) (by omega)
  cases BZERO <;> le_line

theorem le_hgemmzd_260_J (A : Int) (ALPHA : Cplx F) (B : Int) (BETA : F) (BZERO : Bool) (C : Int) (K : Int) (LDA : Int) (LDB : Int) (LDC : Int) (M : Int) (J : Int) :
    CntLe (hgemmzd_260_J A ALPHA B BETA BZERO C K LDA LDB LDC M J : Prog F _) (M.toNat * (K.toNat * 16 + 8)) (M.toNat * 4) := by
  unfold hgemmzd_260_J
  exact CntLe.bindL (CntLe.forN fun _ _ => le_hgemmzd_260_I ..) (fun _ => .ret)

theorem le_hgemmzd_290_L (A : Int) (B : Int) (I : Int) (J : Int) (LDA : Int) (LDB : Int) (L : Int) (HTMP1J : Cplx F) (HTMP1S : Cplx F) : CntLe (hgemmzd_290_L A B I J LDA LDB L HTMP1J HTMP1S : Prog F _) 16 0 := by
  unfold hgemmzd_290_L
  le_line

theorem le_hgemmzd_280_I (A : Int) (ALPHA : Cplx F) (B : Int) (BETA : F) (BZERO : Bool) (C : Int) (J : Int) (K : Int) (LDA : Int) (LDB : Int) (LDC : Int) (I : Int) :
    CntLe (hgemmzd_280_I A ALPHA B BETA BZERO C J K LDA LDB LDC I : Prog F _) (K.toNat * 16 + 8) (4) := by
  unfold hgemmzd_280_I
  try dsimp only
  refine CntLe.mono (CntLe.bind (CntLe.fold_const fun _ _ _ => le_hgemmzd_290_L ..) (fun _ => (?_ : CntLe _ 8 4))) (by omega) (by omega)
  cases BZERO <;> le_line

theorem le_hgemmzd_280_J (A : Int) (ALPHA : Cplx F) (B : Int) (BETA : F) (BZERO : Bool) (C : Int) (K : Int) (LDA : Int) (LDB : Int) (LDC : Int) (M : Int) (J : Int) :
    CntLe (hgemmzd_280_J A ALPHA B BETA BZERO C K LDA LDB LDC M J : Prog F _) (M.toNat * (K.toNat * 16 + 8)) (M.toNat * 4) := by
  unfold hgemmzd_280_J
  exact CntLe.bindL (CntLe.forN fun _ _ => le_hgemmzd_280_I ..) (fun _ => .ret)

theorem le_hgemmzd_if265 (A : Int) (ALPHA : Cplx F) (B : Int) (BETA : F) (BZERO : Bool) (C : Int) (CONJB : Bool) (K : Int) (LDA : Int) (LDB : Int) (LDC : Int) (M : Int) (N : Int) :
    CntLe (hgemmzd_if265 A ALPHA B BETA BZERO C CONJB K LDA LDB LDC M N : Prog F _) (N.toNat * (M.toNat * 8 + K.toNat * (M.toNat * 20 + 16))) (N.toNat * (M.toNat * 4 + K.toNat * (M.toNat * 4))) := by
  unfold hgemmzd_if265
  refine CntLe.ite (fun _ => ?_) (fun _ => ?_)
  · exact CntLe.mono (CntLe.bindL (CntLe.forN fun _ _ => le_hgemmzd_260_J ..) (fun _ => .ret)) (gemm_le3 ..) (gemm_le2 ..)
  · exact CntLe.mono (CntLe.bindL (CntLe.forN fun _ _ => le_hgemmzd_280_J ..) (fun _ => .ret)) (gemm_le3 ..) (gemm_le2 ..)

theorem le_hgemmzd_if64 (A : Int) (ALPHA : Cplx F) (B : Int) (BETA : F) (BONE : Bool) (BZERO : Bool) (C : Int) (CONJA : Bool) (CONJB : Bool) (K : Int) (LDA : Int) (LDB : Int) (LDC : Int) (M : Int) (N : Int) (NOTA : Bool) (NOTB : Bool) :
    CntLe (hgemmzd_if64 A ALPHA B BETA BONE BZERO C CONJA CONJB K LDA LDB LDC M N NOTA NOTB : Prog F _) (N.toNat * (M.toNat * 8 + K.toNat * (M.toNat * 20 + 16))) (N.toNat * (M.toNat * 4 + K.toNat * (M.toNat * 4))) := by
  unfold hgemmzd_if64
  refine CntLe.ite (fun _ => ?_) (fun _ => CntLe.ite (fun _ => ?_) (fun _ => CntLe.ite (fun _ => ?_) (fun _ => ?_)))
  · exact CntLe.bindL (le_hgemmzd_if65 ..) (fun _ => .ret)
  · exact CntLe.bindL (le_hgemmzd_if147 ..) (fun _ => .ret)
  · exact CntLe.bindL (le_hgemmzd_if212 ..) (fun _ => .ret)
  · exact CntLe.bindL (le_hgemmzd_if265 ..) (fun _ => .ret)

theorem le_hgemmzd (TRANSA : Char) (TRANSB : Char) (M : Int) (N : Int) (K : Int) (ALPHA : Cplx F) (A : Int) (LDA : Int) (B : Int) (LDB : Int) (BETA : F) (C : Int) (LDC : Int) :
    CntLe (hgemmzd TRANSA TRANSB M N K ALPHA A LDA B LDB BETA C LDC : Prog F _) (N.toNat * (M.toNat * 8 + K.toNat * (M.toNat * 20 + 16))) (N.toNat * (M.toNat * 4 + K.toNat * (M.toNat * 4))) := by
  unfold hgemmzd
  try dsimp only
  refine CntLe.ite (fun _ => .ret) fun _ => CntLe.ite (fun _ => .ret) fun _ => CntLe.ite (fun _ => ?_) (fun _ => ?_)
  · exact CntLe.mono (CntLe.bindL (le_hgemmzd_if48 ..) (fun _ => .ret)) (gemm_le1 ..) (gemm_le2 ..)
  · exact CntLe.bindL (le_hgemmzd_if64 ..) (fun _ => .ret)

theorem le_hgemmzz_10_I (C : Int) (J : Int) (LDC : Int) (I : Int) : CntLe (hgemmzz_10_I C J LDC I : Prog F _) 8 4 := by
  unfold hgemmzz_10_I
  le_line

theorem le_hgemmzz_10_J (C : Int) (LDC : Int) (M : Int) (J : Int) :
    CntLe (hgemmzz_10_J C LDC M J : Prog F _) (M.toNat * 8) (M.toNat * 4) := by
  unfold hgemmzz_10_J
  exact CntLe.bindL (CntLe.forN fun _ _ => le_hgemmzz_10_I ..) (fun _ => .ret)

theorem le_hgemmzz_20_I (BETA : Cplx F) (C : Int) (J : Int) (LDC : Int) (I : Int) : CntLe (hgemmzz_20_I BETA C J LDC I : Prog F _) 8 4 := by
  unfold hgemmzz_20_I
  le_line

theorem le_hgemmzz_20_J (BETA : Cplx F) (C : Int) (LDC : Int) (M : Int) (J : Int) :
    CntLe (hgemmzz_20_J BETA C LDC M J : Prog F _) (M.toNat * 8) (M.toNat * 4) := by
  unfold hgemmzz_20_J
  exact CntLe.bindL (CntLe.forN fun _ _ => le_hgemmzz_20_I ..) (fun _ => .ret)

theorem le_hgemmzz_if47 (BETA : Cplx F) (BZERO : Bool) (C : Int) (LDC : Int) (M : Int) (N : Int) :
    CntLe (hgemmzz_if47 BETA BZERO C LDC M N : Prog F _) (N.toNat * (M.toNat * 8)) (N.toNat * (M.toNat * 4)) := by
  unfold hgemmzz_if47
  refine CntLe.ite (fun _ => ?_) (fun _ => ?_)
  · exact CntLe.bindL (CntLe.forN fun _ _ => le_hgemmzz_10_J ..) (fun _ => .ret)
  · exact CntLe.bindL (CntLe.forN fun _ _ => le_hgemmzz_20_J ..) (fun _ => .ret)

theorem le_hgemmzz_40_I (C : Int) (J : Int) (LDC : Int) (I : Int) : CntLe (hgemmzz_40_I C J LDC I : Prog F _) 8 4 := by
  unfold hgemmzz_40_I
  le_line

theorem le_hgemmzz_50_I (BETA : Cplx F) (C : Int) (J : Int) (LDC : Int) (I : Int) : CntLe (hgemmzz_50_I BETA C J LDC I : Prog F _) 8 4 := by
  unfold hgemmzz_50_I
  le_line

theorem le_hgemmzz_if69 (BETA : Cplx F) (BONE : Bool) (BZERO : Bool) (C : Int) (J : Int) (LDC : Int) (M : Int) :
    CntLe (hgemmzz_if69 BETA BONE BZERO C J LDC M : Prog F _) (M.toNat * 8) (M.toNat * 4) := by
  unfold hgemmzz_if69
  refine CntLe.ite (fun _ => ?_) (fun _ => CntLe.ite (fun _ => ?_) (fun _ => .ret))
  · exact CntLe.bindL (CntLe.forN fun _ _ => le_hgemmzz_40_I ..) (fun _ => .ret)
  · exact CntLe.bindL (CntLe.forN fun _ _ => le_hgemmzz_50_I ..) (fun _ => .ret)

theorem le_hgemmzz_70_I (A : Int) (C : Int) (HTMP1J : Cplx F) (HTMP1S : Cplx F) (HTMP2J : Cplx F) (HTMP2S : Cplx F) (J : Int) (L : Int) (LDA : Int) (LDC : Int) (I : Int) : CntLe (hgemmzz_70_I A C HTMP1J HTMP1S HTMP2J HTMP2S J L LDA LDC I : Prog F _) 20 4 := by
  unfold hgemmzz_70_I
  le_line

theorem le_hgemmzz_60_L (A : Int) (ALPHA : Cplx F) (B : Int) (C : Int) (J : Int) (LDA : Int) (LDB : Int) (LDC : Int) (M : Int) (L : Int) :
    CntLe (hgemmzz_60_L A ALPHA B C J LDA LDB LDC M L : Prog F _) (M.toNat * 20 + 16) (M.toNat * 4) := by
  unfold hgemmzz_60_L
  try dsimp only
  repeat (first | refine le_rdC_bind fun _ => ?_ | refine .rd fun _ => ?_)
  exact CntLe.mono (CntLe.bindL (CntLe.forN fun _ _ => le_hgemmzz_70_I ..) (fun _ => .ret)) (by omega) (by omega)

theorem le_hgemmzz_30_J (A : Int) (ALPHA : Cplx F) (B : Int) (BETA : Cplx F) (BONE : Bool) (BZERO : Bool) (C : Int) (K : Int) (LDA : Int) (LDB : Int) (LDC : Int) (M : Int) (J : Int) :
    CntLe (hgemmzz_30_J A ALPHA B BETA BONE BZERO C K LDA LDB LDC M J : Prog F _) (M.toNat * 8 + K.toNat * (M.toNat * 20 + 16)) (M.toNat * 4 + K.toNat * (M.toNat * 4)) := by
  unfold hgemmzz_30_J
  exact CntLe.bind (le_hgemmzz_if69 ..) fun _ => CntLe.bindL (CntLe.forN fun _ _ => le_hgemmzz_60_L ..) (fun _ => .ret)

theorem le_hgemmzz_90_L (A : Int) (B : Int) (I : Int) (J : Int) (LDA : Int) (LDB : Int) (L : Int) (HTMP1J : Cplx F) (HTMP1S : Cplx F) : CntLe (hgemmzz_90_L A B I J LDA LDB L HTMP1J HTMP1S : Prog F _) 16 0 := by
  unfold hgemmzz_90_L
  le_line

theorem le_hgemmzz_80_I (A : Int) (ALPHA : Cplx F) (B : Int) (BETA : Cplx F) (BZERO : Bool) (C : Int) (J : Int) (K : Int) (LDA : Int) (LDB : Int) (LDC : Int) (I : Int) :
    CntLe (hgemmzz_80_I A ALPHA B BETA BZERO C J K LDA LDB LDC I : Prog F _) (K.toNat * 16 + 8) (4) := by
  unfold hgemmzz_80_I
  try dsimp only
  refine CntLe.mono (CntLe.bind (CntLe.fold_const fun _ _ _ => le_hgemmzz_90_L ..) (fun _ => (?_ : CntLe _ 8 4))) (by omega) (by omega)
  cases BZERO <;> le_line

theorem le_hgemmzz_80_J (A : Int) (ALPHA : Cplx F) (B : Int) (BETA : Cplx F) (BZERO : Bool) (C : Int) (K : Int) (LDA : Int) (LDB : Int) (LDC : Int) (M : Int) (J : Int) :
    CntLe (hgemmzz_80_J A ALPHA B BETA BZERO C K LDA LDB LDC M J : Prog F _) (M.toNat * (K.toNat * 16 + 8)) (M.toNat * 4) := by
  unfold hgemmzz_80_J
  exact CntLe.bindL (CntLe.forN fun _ _ => le_hgemmzz_80_I ..) (fun _ => .ret)

theorem le_hgemmzz_110_L (A : Int) (B : Int) (I : Int) (J : Int) (LDA : Int) (LDB : Int) (L : Int) (HTMP1J : Cplx F) (HTMP1S : Cplx F) : CntLe (hgemmzz_110_L A B I J LDA LDB L HTMP1J HTMP1S : Prog F _) 16 0 := by
  unfold hgemmzz_110_L
  le_line

theorem le_hgemmzz_100_I (A : Int) (ALPHA : Cplx F) (B : Int) (BETA : Cplx F) (BZERO : Bool) (C : Int) (J : Int) (K : Int) (LDA : Int) (LDB : Int) (LDC : Int) (I : Int) :
    CntLe (hgemmzz_100_I A ALPHA B BETA BZERO C J K LDA LDB LDC I : Prog F _) (K.toNat * 16 + 8) (4) := by
  unfold hgemmzz_100_I
  try dsimp only
  refine CntLe.mono (CntLe.bind (CntLe.fold_const fun _ _ _ => le_hgemmzz_110_L ..) (fun _ => (?_ : CntLe _ 8 4))) (by omega) (by omega)
  cases BZERO <;> le_line

theorem le_hgemmzz_100_J (A : Int) (ALPHA : Cplx F) (B : Int) (BETA : Cplx F) (BZERO : Bool) (C : Int) (K : Int) (LDA : Int) (LDB : Int) (LDC : Int) (M : Int) (J : Int) :
    CntLe (hgemmzz_100_J A ALPHA B BETA BZERO C K LDA LDB LDC M J : Prog F _) (M.toNat * (K.toNat * 16 + 8)) (M.toNat * 4) := by
  unfold hgemmzz_100_J
  exact CntLe.bindL (CntLe.forN fun _ _ => le_hgemmzz_100_I ..) (fun _ => .ret)

theorem le_hgemmzz_if64 (A : Int) (ALPHA : Cplx F) (B : Int) (BETA : Cplx F) (BONE : Bool) (BZERO : Bool) (C : Int) (CONJA : Bool) (K : Int) (LDA : Int) (LDB : Int) (LDC : Int) (M : Int) (N : Int) (NOTA : Bool) :
    CntLe (hgemmzz_if64 A ALPHA B BETA BONE BZERO C CONJA K LDA LDB LDC M N NOTA : Prog F _) (N.toNat * (M.toNat * 8 + K.toNat * (M.toNat * 20 + 16))) (N.toNat * (M.toNat * 4 + K.toNat * (M.toNat * 4))) := by
  unfold hgemmzz_if64
  refine CntLe.ite (fun _ => ?_) (fun _ => CntLe.ite (fun _ => ?_) (fun _ => ?_))
  · exact CntLe.bindL (CntLe.forN fun _ _ => le_hgemmzz_30_J ..) (fun _ => .ret)
  · exact CntLe.mono (CntLe.bindL (CntLe.forN fun _ _ => le_hgemmzz_80_J ..) (fun _ => .ret)) (gemm_le3 ..) (gemm_le2 ..)
  · exact CntLe.mono (CntLe.bindL (CntLe.forN fun _ _ => le_hgemmzz_100_J ..) (fun _ => .ret)) (gemm_le3 ..) (gemm_le2 ..)

theorem le_hgemmzz_130_I (C : Int) (J : Int) (LDC : Int) (I : Int) : CntLe (hgemmzz_130_I C J LDC I : Prog F _) 8 4 := by
  unfold hgemmzz_130_I
  le_line

theorem le_hgemmzz_140_I (BETA : Cplx F) (C : Int) (J : Int) (LDC : Int) (I : Int) : CntLe (hgemmzz_140_I BETA C J LDC I : Prog F _) 8 4 := by
  unfold hgemmzz_140_I
  le_line

theorem le_hgemmzz_if151 (BETA : Cplx F) (BONE : Bool) (BZERO : Bool) (C : Int) (J : Int) (LDC : Int) (M : Int) :
    CntLe (hgemmzz_if151 BETA BONE BZERO C J LDC M : Prog F _) (M.toNat * 8) (M.toNat * 4) := by
  unfold hgemmzz_if151
  refine CntLe.ite (fun _ => ?_) (fun _ => CntLe.ite (fun _ => ?_) (fun _ => .ret))
  · exact CntLe.bindL (CntLe.forN fun _ _ => le_hgemmzz_130_I ..) (fun _ => .ret)
  · exact CntLe.bindL (CntLe.forN fun _ _ => le_hgemmzz_140_I ..) (fun _ => .ret)

theorem le_hgemmzz_160_I (A : Int) (C : Int) (HTMP1J : Cplx F) (HTMP1S : Cplx F) (HTMP2J : Cplx F) (HTMP2S : Cplx F) (J : Int) (L : Int) (LDA : Int) (LDC : Int) (I : Int) : CntLe (hgemmzz_160_I A C HTMP1J HTMP1S HTMP2J HTMP2S J L LDA LDC I : Prog F _) 20 4 := by
  unfold hgemmzz_160_I
  le_line

theorem le_hgemmzz_150_L (A : Int) (ALPHA : Cplx F) (B : Int) (C : Int) (J : Int) (LDA : Int) (LDB : Int) (LDC : Int) (M : Int) (L : Int) :
    CntLe (hgemmzz_150_L A ALPHA B C J LDA LDB LDC M L : Prog F _) (M.toNat * 20 + 16) (M.toNat * 4) := by
  unfold hgemmzz_150_L
  try dsimp only
  repeat (first | refine le_rdC_bind fun _ => ?_ | refine .rd fun _ => ?_)
  exact CntLe.mono (CntLe.bindL (CntLe.forN fun _ _ => le_hgemmzz_160_I ..) (fun _ => .ret)) (by omega) (by omega)

theorem le_hgemmzz_120_J (A : Int) (ALPHA : Cplx F) (B : Int) (BETA : Cplx F) (BONE : Bool) (BZERO : Bool) (C : Int) (K : Int) (LDA : Int) (LDB : Int) (LDC : Int) (M : Int) (J : Int) :
    CntLe (hgemmzz_120_J A ALPHA B BETA BONE BZERO C K LDA LDB LDC M J : Prog F _) (M.toNat * 8 + K.toNat * (M.toNat * 20 + 16)) (M.toNat * 4 + K.toNat * (M.toNat * 4)) := by
  unfold hgemmzz_120_J
  exact CntLe.bind (le_hgemmzz_if151 ..) fun _ => CntLe.bindL (CntLe.forN fun _ _ => le_hgemmzz_150_L ..) (fun _ => .ret)

theorem le_hgemmzz_180_I (C : Int) (J : Int) (LDC : Int) (I : Int) : CntLe (hgemmzz_180_I C J LDC I : Prog F _) 8 4 := by
  unfold hgemmzz_180_I
  le_line

theorem le_hgemmzz_190_I (BETA : Cplx F) (C : Int) (J : Int) (LDC : Int) (I : Int) : CntLe (hgemmzz_190_I BETA C J LDC I : Prog F _) 8 4 := by
  unfold hgemmzz_190_I
  le_line

theorem le_hgemmzz_if183 (BETA : Cplx F) (BONE : Bool) (BZERO : Bool) (C : Int) (J : Int) (LDC : Int) (M : Int) :
    CntLe (hgemmzz_if183 BETA BONE BZERO C J LDC M : Prog F _) (M.toNat * 8) (M.toNat * 4) := by
  unfold hgemmzz_if183
  refine CntLe.ite (fun _ => ?_) (fun _ => CntLe.ite (fun _ => ?_) (fun _ => .ret))
  · exact CntLe.bindL (CntLe.forN fun _ _ => le_hgemmzz_180_I ..) (fun _ => .ret)
  · exact CntLe.bindL (CntLe.forN fun _ _ => le_hgemmzz_190_I ..) (fun _ => .ret)

theorem le_hgemmzz_210_I (A : Int) (C : Int) (HTMP1J : Cplx F) (HTMP1S : Cplx F) (HTMP2J : Cplx F) (HTMP2S : Cplx F) (J : Int) (L : Int) (LDA : Int) (LDC : Int) (I : Int) : CntLe (hgemmzz_210_I A C HTMP1J HTMP1S HTMP2J HTMP2S J L LDA LDC I : Prog F _) 20 4 := by
  unfold hgemmzz_210_I
  le_line

theorem le_hgemmzz_200_L (A : Int) (ALPHA : Cplx F) (B : Int) (C : Int) (J : Int) (LDA : Int) (LDB : Int) (LDC : Int) (M : Int) (L : Int) :
    CntLe (hgemmzz_200_L A ALPHA B C J LDA LDB LDC M L : Prog F _) (M.toNat * 20 + 16) (M.toNat * 4) := by
  unfold hgemmzz_200_L
  try dsimp only
  repeat (first | refine le_rdC_bind fun _ => ?_ | refine .rd fun _ => ?_)
  exact CntLe.mono (CntLe.bindL (CntLe.forN fun _ _ => le_hgemmzz_210_I ..) (fun _ => .ret)) (by omega) (by omega)

theorem le_hgemmzz_170_J (A : Int) (ALPHA : Cplx F) (B : Int) (BETA : Cplx F) (BONE : Bool) (BZERO : Bool) (C : Int) (K : Int) (LDA : Int) (LDB : Int) (LDC : Int) (M : Int) (J : Int) :
    CntLe (hgemmzz_170_J A ALPHA B BETA BONE BZERO C K LDA LDB LDC M J : Prog F _) (M.toNat * 8 + K.toNat * (M.toNat * 20 + 16)) (M.toNat * 4 + K.toNat * (M.toNat * 4)) := by
  unfold hgemmzz_170_J
  exact CntLe.bind (le_hgemmzz_if183 ..) fun _ => CntLe.bindL (CntLe.forN fun _ _ => le_hgemmzz_200_L ..) (fun _ => .ret)

theorem le_hgemmzz_if146 (A : Int) (ALPHA : Cplx F) (B : Int) (BETA : Cplx F) (BONE : Bool) (BZERO : Bool) (C : Int) (CONJB : Bool) (K : Int) (LDA : Int) (LDB : Int) (LDC : Int) (M : Int) (N : Int) :
    CntLe (hgemmzz_if146 A ALPHA B BETA BONE BZERO C CONJB K LDA LDB LDC M N : Prog F _) (N.toNat * (M.toNat * 8 + K.toNat * (M.toNat * 20 + 16))) (N.toNat * (M.toNat * 4 + K.toNat * (M.toNat * 4))) := by
  unfold hgemmzz_if146
  refine CntLe.ite (fun _ => ?_) (fun _ => ?_)
  · exact CntLe.bindL (CntLe.forN fun _ _ => le_hgemmzz_120_J ..) (fun _ => .ret)
  · exact CntLe.bindL (CntLe.forN fun _ _ => le_hgemmzz_170_J ..) (fun _ => .ret)

theorem le_hgemmzz_230_L (A : Int) (B : Int) (I : Int) (J : Int) (LDA : Int) (LDB : Int) (L : Int) (HTMP1J : Cplx F) (HTMP1S : Cplx F) : CntLe (hgemmzz_230_L A B I J LDA LDB L HTMP1J HTMP1S : Prog F _) 16 0 := by
  unfold hgemmzz_230_L
  le_line

theorem le_hgemmzz_220_I (A : Int) (ALPHA : Cplx F) (B : Int) (BETA : Cplx F) (BZERO : Bool) (C : Int) (J : Int) (K : Int) (LDA : Int) (LDB : Int) (LDC : Int) (I : Int) :
    CntLe (hgemmzz_220_I A ALPHA B BETA BZERO C J K LDA LDB LDC I : Prog F _) (K.toNat * 16 + 8) (4) := by
  unfold hgemmzz_220_I
  try dsimp only
  refine CntLe.mono (CntLe.bind (CntLe.fold_const fun _ _ _ => le_hgemmzz_230_L ..) (fun _ => (?_ : CntLe _ 8 4))) (by omega) (by omega)
  cases BZERO <;> le_line

theorem le_hgemmzz_220_J (A : Int) (ALPHA : Cplx F) (B : Int) (BETA : Cplx F) (BZERO : Bool) (C : Int) (K : Int) (LDA : Int) (LDB : Int) (LDC : Int) (M : Int) (J : Int) :
    CntLe (hgemmzz_220_J A ALPHA B BETA BZERO C K LDA LDB LDC M J : Prog F _) (M.toNat * (K.toNat * 16 + 8)) (M.toNat * 4) := by
  unfold hgemmzz_220_J
  exact CntLe.bindL (CntLe.forN fun _ _ => le_hgemmzz_220_I ..) (fun _ => .ret)

theorem le_hgemmzz_250_L (A : Int) (B : Int) (I : Int) (J : Int) (LDA : Int) (LDB : Int) (L : Int) (HTMP1J : Cplx F) (HTMP1S : Cplx F) : CntLe (hgemmzz_250_L A B I J LDA LDB L HTMP1J HTMP1S : Prog F _) 16 0 := by
  unfold hgemmzz_250_L
  le_line

theorem le_hgemmzz_240_I (A : Int) (ALPHA : Cplx F) (B : Int) (BETA : Cplx F) (BZERO : Bool) (C : Int) (J : Int) (K : Int) (LDA : Int) (LDB : Int) (LDC : Int) (I : Int) :
    CntLe (hgemmzz_240_I A ALPHA B BETA BZERO C J K LDA LDB LDC I : Prog F _) (K.toNat * 16 + 8) (4) := by
  unfold hgemmzz_240_I
  try dsimp only
  refine CntLe.mono (CntLe.bind (CntLe.fold_const fun _ _ _ => le_hgemmzz_250_L ..) (fun _ => (?_ : CntLe _ 8 4))) (by omega) (by omega)
  cases BZERO <;> le_line

theorem le_hgemmzz_240_J (A : Int) (ALPHA : Cplx F) (B : Int) (BETA : Cplx F) (BZERO : Bool) (C : Int) (K : Int) (LDA : Int) (LDB : Int) (LDC : Int) (M : Int) (J : Int) :
    CntLe (hgemmzz_240_J A ALPHA B BETA BZERO C K LDA LDB LDC M J : Prog F _) (M.toNat * (K.toNat * 16 + 8)) (M.toNat * 4) := by
  unfold hgemmzz_240_J
  exact CntLe.bindL (CntLe.forN fun _ _ => le_hgemmzz_240_I ..) (fun _ => .ret)

theorem le_hgemmzz_if211 (A : Int) (ALPHA : Cplx F) (B : Int) (BETA : Cplx F) (BZERO : Bool) (C : Int) (CONJB : Bool) (K : Int) (LDA : Int) (LDB : Int) (LDC : Int) (M : Int) (N : Int) :
    CntLe (hgemmzz_if211 A ALPHA B BETA BZERO C CONJB K LDA LDB LDC M N : Prog F _) (N.toNat * (M.toNat * 8 + K.toNat * (M.toNat * 20 + 16))) (N.toNat * (M.toNat * 4 + K.toNat * (M.toNat * 4))) := by
  unfold hgemmzz_if211
  refine CntLe.ite (fun _ => ?_) (fun _ => ?_)
  · exact CntLe.mono (CntLe.bindL (CntLe.forN fun _ _ => le_hgemmzz_220_J ..) (fun _ => .ret)) (gemm_le3 ..) (gemm_le2 ..)
  · exact CntLe.mono (CntLe.bindL (CntLe.forN fun _ _ => le_hgemmzz_240_J ..) (fun _ => .ret)) (gemm_le3 ..) (gemm_le2 ..)

theorem le_hgemmzz_270_L (A : Int) (B : Int) (I : Int) (J : Int) (LDA : Int) (LDB : Int) (L : Int) (HTMP1J : Cplx F) (HTMP1S : Cplx F) : CntLe (hgemmzz_270_L A B I J LDA LDB L HTMP1J HTMP1S : Prog F _) 16 0 := by
  unfold hgemmzz_270_L
  le_line

theorem le_hgemmzz_260_I (A : Int) (ALPHA : Cplx F) (B : Int) (BETA : Cplx F) (BZERO : Bool) (C : Int) (J : Int) (K : Int) (LDA : Int) (LDB : Int) (LDC : Int) (I : Int) :
    CntLe (hgemmzz_260_I A ALPHA B BETA BZERO C J K LDA LDB LDC I : Prog F _) (K.toNat * 16 + 8) (4) := by
  unfold hgemmzz_260_I
  try dsimp only
  refine CntLe.mono (CntLe.bind (CntLe.fold_const fun _ _ _ => le_hgemmzz_270_L ..) (fun _ => (?_ : CntLe _ 8 4))) (by omega) (by omega)
  cases BZERO <;> le_line

theorem le_hgemmzz_260_J (A : Int) (ALPHA : Cplx F) (B : Int) (BETA : Cplx F) (BZERO : Bool) (C : Int) (K : Int) (LDA : Int) (LDB : Int) (LDC : Int) (M : Int) (J : Int) :
    CntLe (hgemmzz_260_J A ALPHA B BETA BZERO C K LDA LDB LDC M J : Prog F _) (M.toNat * (K.toNat * 16 + 8)) (M.toNat * 4) := by
  unfold hgemmzz_260_J
  exact CntLe.bindL (CntLe.forN fun _ _ => le_hgemmzz_260_I ..) (fun _ => .ret)

theorem le_hgemmzz_290_L (A : Int) (B : Int) (I : Int) (J : Int) (LDA : Int) (LDB : Int) (L : Int) (HTMP1J : Cplx F) (HTMP1S : Cplx F) : CntLe (hgemmzz_290_L A B I J LDA LDB L HTMP1J HTMP1S : Prog F _) 16 0 := by
  unfold hgemmzz_290_L
  le_line

theorem le_hgemmzz_280_I (A : Int) (ALPHA : Cplx F) (B : Int) (BETA : Cplx F) (BZERO : Bool) (C : Int) (J : Int) (K : Int) (LDA : Int) (LDB : Int) (LDC : Int) (I : Int) :
    CntLe (hgemmzz_280_I A ALPHA B BETA BZERO C J K LDA LDB LDC I : Prog F _) (K.toNat * 16 + 8) (4) := by
  unfold hgemmzz_280_I
  try dsimp only
  refine CntLe.mono (CntLe.bind (CntLe.fold_const fun _ _ _ => le_hgemmzz_290_L ..) (fun _ => (?_ : CntLe _ 8 4))) (by omega) (by omega)
  cases BZERO <;> le_line

theorem le_hgemmzz_280_J (A : Int) (ALPHA : Cplx F) (B : Int) (BETA : Cplx F) (BZERO : Bool) (C : Int) (K : Int) (LDA : Int) (LDB : Int) (LDC : Int) (M : Int) (J : Int) :
    CntLe (hgemmzz_280_J A ALPHA B BETA BZERO C K LDA LDB LDC M J : Prog F _) (M.toNat * (K.toNat * 16 + 8)) (M.toNat * 4) := by
  unfold hgemmzz_280_J
  exact CntLe.bindL (CntLe.forN fun _ _ => le_hgemmzz_280_I ..) (fun _ => .ret)

theorem le_hgemmzz_if264 (A : Int) (ALPHA : Cplx F) (B : Int) (BETA : Cplx F) (BZERO : Bool) (C : Int) (CONJB : Bool) (K : Int) (LDA : Int) (LDB : Int) (LDC : Int) (M : Int) (N : Int) :
    CntLe (hgemmzz_if264 A ALPHA B BETA BZERO C CONJB K LDA LDB LDC M N : Prog F _) (N.toNat * (M.toNat * 8 + K.toNat * (M.toNat * 20 + 16))) (N.toNat * (M.toNat * 4 + K.toNat * (M.toNat * 4))) := by
  unfold hgemmzz_if264
  refine CntLe.ite (fun _ => ?_) (fun _ => ?_)
  · exact CntLe.mono (CntLe.bindL (CntLe.forN fun _ _ => le_hgemmzz_260_J ..) (fun _ => .ret)) (gemm_le3 ..) (gemm_le2 ..)
  · exact CntLe.mono (CntLe.bindL (CntLe.forN fun _ _ => le_hgemmzz_280_J ..) (fun _ => .ret)) (gemm_le3 ..) (gemm_le2 ..)

theorem le_hgemmzz_if63 (A : Int) (ALPHA : Cplx F) (B : Int) (BETA : Cplx F) (BONE : Bool) (BZERO : Bool) (C : Int) (CONJA : Bool) (CONJB : Bool) (K : Int) (LDA : Int) (LDB : Int) (LDC : Int) (M : Int) (N : Int) (NOTA : Bool) (NOTB : Bool) :
    CntLe (hgemmzz_if63 A ALPHA B BETA BONE BZERO C CONJA CONJB K LDA LDB LDC M N NOTA NOTB : Prog F _) (N.toNat * (M.toNat * 8 + K.toNat * (M.toNat * 20 + 16))) (N.toNat * (M.toNat * 4 + K.toNat * (M.toNat * 4))) := by
  unfold hgemmzz_if63
  refine CntLe.ite (fun _ => ?_) (fun _ => CntLe.ite (fun _ => ?_) (fun _ => CntLe.ite (fun _ => ?_) (fun _ => ?_)))
  · exact CntLe.bindL (le_hgemmzz_if64 ..) (fun _ => .ret)
  · exact CntLe.bindL (le_hgemmzz_if146 ..) (fun _ => .ret)
  · exact CntLe.bindL (le_hgemmzz_if211 ..) (fun _ => .ret)
  · exact CntLe.bindL (le_hgemmzz_if264 ..) (fun _ => .ret)

theorem le_hgemmzz (TRANSA : Char) (TRANSB : Char) (M : Int) (N : Int) (K : Int) (ALPHA : Cplx F) (A : Int) (LDA : Int) (B : Int) (LDB : Int) (BETA : Cplx F) (C : Int) (LDC : Int) :
    CntLe (hgemmzz TRANSA TRANSB M N K ALPHA A LDA B LDB BETA C LDC : Prog F _) (N.toNat * (M.toNat * 8 + K.toNat * (M.toNat * 20 + 16))) (N.toNat * (M.toNat * 4 + K.toNat * (M.toNat * 4))) := by
  unfold hgemmzz
  try dsimp only
  refine CntLe.ite (fun _ => .ret) fun _ => CntLe.ite (fun _ => .ret) fun _ => CntLe.ite (fun _ => ?_) (fun _ => ?_)
  · exact CntLe.mono (CntLe.bindL (le_hgemmzz_if47 ..) (fun _ => .ret)) (gemm_le1 ..) (gemm_le2 ..)
  · exact CntLe.bindL (le_hgemmzz_if63 ..) (fun _ => .ret)

theorem le_hgemmzh_10_I (C : Int) (J : Int) (LDC : Int) (I : Int) : CntLe (hgemmzh_10_I C J LDC I : Prog F _) 8 4 := by
  unfold hgemmzh_10_I
  le_line

theorem le_hgemmzh_10_J (C : Int) (LDC : Int) (M : Int) (J : Int) :
    CntLe (hgemmzh_10_J C LDC M J : Prog F _) (M.toNat * 8) (M.toNat * 4) := by
  unfold hgemmzh_10_J
  exact CntLe.bindL (CntLe.forN fun _ _ => le_hgemmzh_10_I ..) (fun _ => .ret)

theorem le_hgemmzh_20_I (BETA : Quat F) (C : Int) (J : Int) (LDC : Int) (I : Int) : CntLe (hgemmzh_20_I BETA C J LDC I : Prog F _) 8 4 := by
  unfold hgemmzh_20_I
  le_line

theorem le_hgemmzh_20_J (BETA : Quat F) (C : Int) (LDC : Int) (M : Int) (J : Int) :
    CntLe (hgemmzh_20_J BETA C LDC M J : Prog F _) (M.toNat * 8) (M.toNat * 4) := by
  unfold hgemmzh_20_J
  exact CntLe.bindL (CntLe.forN fun _ _ => le_hgemmzh_20_I ..) (fun _ => .ret)

theorem le_hgemmzh_if47 (BETA : Quat F) (BZERO : Bool) (C : Int) (LDC : Int) (M : Int) (N : Int) :
    CntLe (hgemmzh_if47 BETA BZERO C LDC M N : Prog F _) (N.toNat * (M.toNat * 8)) (N.toNat * (M.toNat * 4)) := by
  unfold hgemmzh_if47
  refine CntLe.ite (fun _ => ?_) (fun _ => ?_)
  · exact CntLe.bindL (CntLe.forN fun _ _ => le_hgemmzh_10_J ..) (fun _ => .ret)
  · exact CntLe.bindL (CntLe.forN fun _ _ => le_hgemmzh_20_J ..) (fun _ => .ret)

theorem le_hgemmzh_40_I (C : Int) (J : Int) (LDC : Int) (I : Int) : CntLe (hgemmzh_40_I C J LDC I : Prog F _) 8 4 := by
  unfold hgemmzh_40_I
  le_line

theorem le_hgemmzh_50_I (BETA : Quat F) (C : Int) (J : Int) (LDC : Int) (I : Int) : CntLe (hgemmzh_50_I BETA C J LDC I : Prog F _) 8 4 := by
  unfold hgemmzh_50_I
  le_line

theorem le_hgemmzh_if70 (BETA : Quat F) (BONE : Bool) (BZERO : Bool) (C : Int) (J : Int) (LDC : Int) (M : Int) :
    CntLe (hgemmzh_if70 BETA BONE BZERO C J LDC M : Prog F _) (M.toNat * 8) (M.toNat * 4) := by
  unfold hgemmzh_if70
  refine CntLe.ite (fun _ => ?_) (fun _ => CntLe.ite (fun _ => ?_) (fun _ => .ret))
  · exact CntLe.bindL (CntLe.forN fun _ _ => le_hgemmzh_40_I ..) (fun _ => .ret)
  · exact CntLe.bindL (CntLe.forN fun _ _ => le_hgemmzh_50_I ..) (fun _ => .ret)

theorem le_hgemmzh_70_I (A : Int) (C : Int) (HTMP1J : Cplx F) (HTMP1S : Cplx F) (HTMP2J : Cplx F) (HTMP2S : Cplx F) (J : Int) (L : Int) (LDA : Int) (LDC : Int) (I : Int) : CntLe (hgemmzh_70_I A C HTMP1J HTMP1S HTMP2J HTMP2S J L LDA LDC I : Prog F _) 20 4 := by
  unfold hgemmzh_70_I
  le_line

theorem le_hgemmzh_60_L (A : Int) (ALPHA : Cplx F) (B : Int) (C : Int) (J : Int) (LDA : Int) (LDB : Int) (LDC : Int) (M : Int) (L : Int) :
    CntLe (hgemmzh_60_L A ALPHA B C J LDA LDB LDC M L : Prog F _) (M.toNat * 20 + 16) (M.toNat * 4) := by
  unfold hgemmzh_60_L
  try dsimp only
  repeat (first | refine le_rdC_bind fun _ => ?_ | refine .rd fun _ => ?_)
  exact CntLe.mono (CntLe.bindL (CntLe.forN fun _ _ => le_hgemmzh_70_I ..) (fun _ => .ret)) (by omega) (by omega)

theorem le_hgemmzh_30_J (A : Int) (ALPHA : Cplx F) (B : Int) (BETA : Quat F) (BONE : Bool) (BZERO : Bool) (C : Int) (K : Int) (LDA : Int) (LDB : Int) (LDC : Int) (M : Int) (J : Int) :
    CntLe (hgemmzh_30_J A ALPHA B BETA BONE BZERO C K LDA LDB LDC M J : Prog F _) (M.toNat * 8 + K.toNat * (M.toNat * 20 + 16)) (M.toNat * 4 + K.toNat * (M.toNat * 4)) := by
  unfold hgemmzh_30_J
  exact CntLe.bind (le_hgemmzh_if70 ..) fun _ => CntLe.bindL (CntLe.forN fun _ _ => le_hgemmzh_60_L ..) (fun _ => .ret)

theorem le_hgemmzh_90_L (A : Int) (B : Int) (I : Int) (J : Int) (LDA : Int) (LDB : Int) (L : Int) (HTMP1J : Cplx F) (HTMP1S : Cplx F) : CntLe (hgemmzh_90_L A B I J LDA LDB L HTMP1J HTMP1S : Prog F _) 16 0 := by
  unfold hgemmzh_90_L
  le_line

theorem le_hgemmzh_80_I (A : Int) (ALPHA : Cplx F) (B : Int) (BETA : Quat F) (BZERO : Bool) (C : Int) (J : Int) (K : Int) (LDA : Int) (LDB : Int) (LDC : Int) (I : Int) :
    CntLe (hgemmzh_80_I A ALPHA B BETA BZERO C J K LDA LDB LDC I : Prog F _) (K.toNat * 16 + 8) (4) := by
  unfold hgemmzh_80_I
  try dsimp only
  refine CntLe.mono (CntLe.bind (CntLe.fold_const fun _ _ _ => le_hgemmzh_90_L ..) (fun _ => (?_ : CntLe _ 8 4))) (by omega) (by omega)
  cases BZERO <;> le_line

theorem le_hgemmzh_80_J (A : Int) (ALPHA : Cplx F) (B : Int) (BETA : Quat F) (BZERO : Bool) (C : Int) (K : Int) (LDA : Int) (LDB : Int) (LDC : Int) (M : Int) (J : Int) :
    CntLe (hgemmzh_80_J A ALPHA B BETA BZERO C K LDA LDB LDC M J : Prog F _) (M.toNat * (K.toNat * 16 + 8)) (M.toNat * 4) := by
  unfold hgemmzh_80_J
  exact CntLe.bindL (CntLe.forN fun _ _ => le_hgemmzh_80_I ..) (fun _ => .ret)

theorem le_hgemmzh_110_L (A : Int) (B : Int) (I : Int) (J : Int) (LDA : Int) (LDB : Int) (L : Int) (HTMP1J : Cplx F) (HTMP1S : Cplx F) : CntLe (hgemmzh_110_L A B I J LDA LDB L HTMP1J HTMP1S : Prog F _) 16 0 := by
  unfold hgemmzh_110_L
  le_line

theorem le_hgemmzh_100_I (A : Int) (ALPHA : Cplx F) (B : Int) (BETA : Quat F) (BZERO : Bool) (C : Int) (J : Int) (K : Int) (LDA : Int) (LDB : Int) (LDC : Int) (I : Int) :
    CntLe (hgemmzh_100_I A ALPHA B BETA BZERO C J K LDA LDB LDC I : Prog F _) (K.toNat * 16 + 8) (4) := by
  unfold hgemmzh_100_I
  try dsimp only
  refine CntLe.mono (CntLe.bind (CntLe.fold_const fun _ _ _ => le_hgemmzh_110_L ..) (fun _ => (?_ : CntLe _ 8 4))) (by omega) (by omega)
  cases BZERO <;> le_line

theorem le_hgemmzh_100_J (A : Int) (ALPHA : Cplx F) (B : Int) (BETA : Quat F) (BZERO : Bool) (C : Int) (K : Int) (LDA : Int) (LDB : Int) (LDC : Int) (M : Int) (J : Int) :
    CntLe (hgemmzh_100_J A ALPHA B BETA BZERO C K LDA LDB LDC M J : Prog F _) (M.toNat * (K.toNat * 16 + 8)) (M.toNat * 4) := by
  unfold hgemmzh_100_J
  exact CntLe.bindL (CntLe.forN fun _ _ => le_hgemmzh_100_I ..) (fun _ => .ret)

theorem le_hgemmzh_if65 (A : Int) (ALPHA : Cplx F) (B : Int) (BETA : Quat F) (BONE : Bool) (BZERO : Bool) (C : Int) (CONJA : Bool) (K : Int) (LDA : Int) (LDB : Int) (LDC : Int) (M : Int) (N : Int) (NOTA : Bool) :
    CntLe (hgemmzh_if65 A ALPHA B BETA BONE BZERO C CONJA K LDA LDB LDC M N NOTA : Prog F _) (N.toNat * (M.toNat * 8 + K.toNat * (M.toNat * 20 + 16))) (N.toNat * (M.toNat * 4 + K.toNat * (M.toNat * 4))) := by
  unfold hgemmzh_if65
  refine CntLe.ite (fun _ => ?_) (fun _ => CntLe.ite (fun _ => ?_) (fun _ => ?_))
  · exact CntLe.bindL (CntLe.forN fun _ _ => le_hgemmzh_30_J ..) (fun _ => .ret)
  · exact CntLe.mono (CntLe.bindL (CntLe.forN fun _ _ => le_hgemmzh_80_J ..) (fun _ => .ret)) (gemm_le3 ..) (gemm_le2 ..)
  · exact CntLe.mono (CntLe.bindL (CntLe.forN fun _ _ => le_hgemmzh_100_J ..) (fun _ => .ret)) (gemm_le3 ..) (gemm_le2 ..)

theorem le_hgemmzh_130_I (C : Int) (J : Int) (LDC : Int) (I : Int) : CntLe (hgemmzh_130_I C J LDC I : Prog F _) 8 4 := by
  unfold hgemmzh_130_I
  le_line

theorem le_hgemmzh_140_I (BETA : Quat F) (C : Int) (J : Int) (LDC : Int) (I : Int) : CntLe (hgemmzh_140_I BETA C J LDC I : Prog F _) 8 4 := by
  unfold hgemmzh_140_I
  le_line

theorem le_hgemmzh_if159 (BETA : Quat F) (BONE : Bool) (BZERO : Bool) (C : Int) (J : Int) (LDC : Int) (M : Int) :
    CntLe (hgemmzh_if159 BETA BONE BZERO C J LDC M : Prog F _) (M.toNat * 8) (M.toNat * 4) := by
  unfold hgemmzh_if159
  refine CntLe.ite (fun _ => ?_) (fun _ => CntLe.ite (fun _ => ?_) (fun _ => .ret))
  · exact CntLe.bindL (CntLe.forN fun _ _ => le_hgemmzh_130_I ..) (fun _ => .ret)
  · exact CntLe.bindL (CntLe.forN fun _ _ => le_hgemmzh_140_I ..) (fun _ => .ret)

theorem le_hgemmzh_160_I (A : Int) (C : Int) (HTMP1J : Cplx F) (HTMP1S : Cplx F) (HTMP2J : Cplx F) (HTMP2S : Cplx F) (J : Int) (L : Int) (LDA : Int) (LDC : Int) (I : Int) : CntLe (hgemmzh_160_I A C HTMP1J HTMP1S HTMP2J HTMP2S J L LDA LDC I : Prog F _) 20 4 := by
  unfold hgemmzh_160_I
  le_line

theorem le_hgemmzh_150_L (A : Int) (ALPHA : Cplx F) (B : Int) (C : Int) (J : Int) (LDA : Int) (LDB : Int) (LDC : Int) (M : Int) (L : Int) :
    CntLe (hgemmzh_150_L A ALPHA B C J LDA LDB LDC M L : Prog F _) (M.toNat * 20 + 16) (M.toNat * 4) := by
  unfold hgemmzh_150_L
  try dsimp only
  repeat (first | refine le_rdC_bind fun _ => ?_ | refine .rd fun _ => ?_)
  exact CntLe.mono (CntLe.bindL (CntLe.forN fun _ _ => le_hgemmzh_160_I ..) (fun _ => .ret)) (by omega) (by omega)

theorem le_hgemmzh_120_J (A : Int) (ALPHA : Cplx F) (B : Int) (BETA : Quat F) (BONE : Bool) (BZERO : Bool) (C : Int) (K : Int) (LDA : Int) (LDB : Int) (LDC : Int) (M : Int) (J : Int) :
    CntLe (hgemmzh_120_J A ALPHA B BETA BONE BZERO C K LDA LDB LDC M J : Prog F _) (M.toNat * 8 + K.toNat * (M.toNat * 20 + 16)) (M.toNat * 4 + K.toNat * (M.toNat * 4)) := by
  unfold hgemmzh_120_J
  exact CntLe.bind (le_hgemmzh_if159 ..) fun _ => CntLe.bindL (CntLe.forN fun _ _ => le_hgemmzh_150_L ..) (fun _ => .ret)

theorem le_hgemmzh_180_I (C : Int) (J : Int) (LDC : Int) (I : Int) : CntLe (hgemmzh_180_I C J LDC I : Prog F _) 8 4 := by
  unfold hgemmzh_180_I
  le_line

theorem le_hgemmzh_190_I (BETA : Quat F) (C : Int) (J : Int) (LDC : Int) (I : Int) : CntLe (hgemmzh_190_I BETA C J LDC I : Prog F _) 8 4 := by
  unfold hgemmzh_190_I
  le_line

theorem le_hgemmzh_if192 (BETA : Quat F) (BONE : Bool) (BZERO : Bool) (C : Int) (J : Int) (LDC : Int) (M : Int) :
    CntLe (hgemmzh_if192 BETA BONE BZERO C J LDC M : Prog F _) (M.toNat * 8) (M.toNat * 4) := by
  unfold hgemmzh_if192
  refine CntLe.ite (fun _ => ?_) (fun _ => CntLe.ite (fun _ => ?_) (fun _ => .ret))
  · exact CntLe.bindL (CntLe.forN fun _ _ => le_hgemmzh_180_I ..) (fun _ => .ret)
  · exact CntLe.bindL (CntLe.forN fun _ _ => le_hgemmzh_190_I ..) (fun _ => .ret)

theorem le_hgemmzh_210_I (A : Int) (C : Int) (HTMP1J : Cplx F) (HTMP1S : Cplx F) (HTMP2J : Cplx F) (HTMP2S : Cplx F) (J : Int) (L : Int) (LDA : Int) (LDC : Int) (I : Int) : CntLe (hgemmzh_210_I A C HTMP1J HTMP1S HTMP2J HTMP2S J L LDA LDC I : Prog F _) 20 4 := by
  unfold hgemmzh_210_I
  le_line

theorem le_hgemmzh_200_L (A : Int) (ALPHA : Cplx F) (B : Int) (C : Int) (J : Int) (LDA : Int) (LDB : Int) (LDC : Int) (M : Int) (L : Int) :
    CntLe (hgemmzh_200_L A ALPHA B C J LDA LDB LDC M L : Prog F _) (M.toNat * 20 + 16) (M.toNat * 4) := by
  unfold hgemmzh_200_L
  try dsimp only
  repeat (first | refine le_rdC_bind fun _ => ?_ | refine .rd fun _ => ?_)
  exact CntLe.mono (CntLe.bindL (CntLe.forN fun _ _ => le_hgemmzh_210_I ..) (fun _ => .ret)) (by omega) (by omega)

theorem le_hgemmzh_170_J (A : Int) (ALPHA : Cplx F) (B : Int) (BETA : Quat F) (BONE : Bool) (BZERO : Bool) (C : Int) (K : Int) (LDA : Int) (LDB : Int) (LDC : Int) (M : Int) (J : Int) :
    CntLe (hgemmzh_170_J A ALPHA B BETA BONE BZERO C K LDA LDB LDC M J : Prog F _) (M.toNat * 8 + K.toNat * (M.toNat * 20 + 16)) (M.toNat * 4 + K.toNat * (M.toNat * 4)) := by
  unfold hgemmzh_170_J
  exact CntLe.bind (le_hgemmzh_if192 ..) fun _ => CntLe.bindL (CntLe.forN fun _ _ => le_hgemmzh_200_L ..) (fun _ => .ret)

theorem le_hgemmzh_if154 (A : Int) (ALPHA : Cplx F) (B : Int) (BETA : Quat F) (BONE : Bool) (BZERO : Bool) (C : Int) (CONJB : Bool) (K : Int) (LDA : Int) (LDB : Int) (LDC : Int) (M : Int) (N : Int) :
    CntLe (hgemmzh_if154 A ALPHA B BETA BONE BZERO C CONJB K LDA LDB LDC M N : Prog F _) (N.toNat * (M.toNat * 8 + K.toNat * (M.toNat * 20 + 16))) (N.toNat * (M.toNat * 4 + K.toNat * (M.toNat * 4))) := by
  unfold hgemmzh_if154
  refine CntLe.ite (fun _ => ?_) (fun _ => ?_)
  · exact CntLe.bindL (CntLe.forN fun _ _ => le_hgemmzh_120_J ..) (fun _ => .ret)
  · exact CntLe.bindL (CntLe.forN fun _ _ => le_hgemmzh_170_J ..) (fun _ => .ret)

theorem le_hgemmzh_230_L (A : Int) (B : Int) (I : Int) (J : Int) (LDA : Int) (LDB : Int) (L : Int) (HTMP1J : Cplx F) (HTMP1S : Cplx F) : CntLe (hgemmzh_230_L A B I J LDA LDB L HTMP1J HTMP1S : Prog F _) 16 0 := by
  unfold hgemmzh_230_L
  le_line

theorem le_hgemmzh_220_I (A : Int) (ALPHA : Cplx F) (B : Int) (BETA : Quat F) (BZERO : Bool) (C : Int) (J : Int) (K : Int) (LDA : Int) (LDB : Int) (LDC : Int) (I : Int) :
    CntLe (hgemmzh_220_I A ALPHA B BETA BZERO C J K LDA LDB LDC I : Prog F _) (K.toNat * 16 + 8) (4) := by
  unfold hgemmzh_220_I
  try dsimp only
  refine CntLe.mono (CntLe.bind (CntLe.fold_const fun _ _ _ => le_hgemmzh_230_L ..) (fun _ => (?_ : CntLe _ 8 4))) (by omega) (by omega)
  cases BZERO <;> le_line

theorem le_hgemmzh_220_J (A : Int) (ALPHA : Cplx F) (B : Int) (BETA : Quat F) (BZERO : Bool) (C : Int) (K : Int) (LDA : Int) (LDB : Int) (LDC : Int) (M : Int) (J : Int) :
    CntLe (hgemmzh_220_J A ALPHA B BETA BZERO C K LDA LDB LDC M J : Prog F _) (M.toNat * (K.toNat * 16 + 8)) (M.toNat * 4) := by
  unfold hgemmzh_220_J
  exact CntLe.bindL (CntLe.forN fun _ _ => le_hgemmzh_220_I ..) (fun _ => .ret)

theorem le_hgemmzh_250_L (A : Int) (B : Int) (I : Int) (J : Int) (LDA : Int) (LDB : Int) (L : Int) (HTMP1J : Cplx F) (HTMP1S : Cplx F) : CntLe (hgemmzh_250_L A B I J LDA LDB L HTMP1J HTMP1S : Prog F _) 16 0 := by
  unfold hgemmzh_250_L
  le_line

theorem le_hgemmzh_240_I (A : Int) (ALPHA : Cplx F) (B : Int) (BETA : Quat F) (BZERO : Bool) (C : Int) (J : Int) (K : Int) (LDA : Int) (LDB : Int) (LDC : Int) (I : Int) :
    CntLe (hgemmzh_240_I A ALPHA B BETA BZERO C J K LDA LDB LDC I : Prog F _) (K.toNat * 16 + 8) (4) := by
  unfold hgemmzh_240_I
  try dsimp only
  refine CntLe.mono (CntLe.bind (CntLe.fold_const fun _ _ _ => le_hgemmzh_250_L ..) (fun _ => (?_ : CntLe _ 8 4))) (by omega) (by omega)
  cases BZERO <;> le_line

theorem le_hgemmzh_240_J (A : Int) (ALPHA : Cplx F) (B : Int) (BETA : Quat F) (BZERO : Bool) (C : Int) (K : Int) (LDA : Int) (LDB : Int) (LDC : Int) (M : Int) (J : Int) :
    CntLe (hgemmzh_240_J A ALPHA B BETA BZERO C K LDA LDB LDC M J : Prog F _) (M.toNat * (K.toNat * 16 + 8)) (M.toNat * 4) := by
  unfold hgemmzh_240_J
  exact CntLe.bindL (CntLe.forN fun _ _ => le_hgemmzh_240_I ..) (fun _ => .ret)

theorem le_hgemmzh_if221 (A : Int) (ALPHA : Cplx F) (B : Int) (BETA : Quat F) (BZERO : Bool) (C : Int) (CONJB : Bool) (K : Int) (LDA : Int) (LDB : Int) (LDC : Int) (M : Int) (N : Int) :
    CntLe (hgemmzh_if221 A ALPHA B BETA BZERO C CONJB K LDA LDB LDC M N : Prog F _) (N.toNat * (M.toNat * 8 + K.toNat * (M.toNat * 20 + 16))) (N.toNat * (M.toNat * 4 + K.toNat * (M.toNat * 4))) := by
  unfold hgemmzh_if221
  refine CntLe.ite (fun _ => ?_) (fun _ => ?_)
  · exact CntLe.mono (CntLe.bindL (CntLe.forN fun _ _ => le_hgemmzh_220_J ..) (fun _ => .ret)) (gemm_le3 ..) (gemm_le2 ..)
  · exact CntLe.mono (CntLe.bindL (CntLe.forN fun _ _ => le_hgemmzh_240_J ..) (fun _ => .ret)) (gemm_le3 ..) (gemm_le2 ..)

theorem le_hgemmzh_270_L (A : Int) (B : Int) (I : Int) (J : Int) (LDA : Int) (LDB : Int) (L : Int) (HTMP1J : Cplx F) (HTMP1S : Cplx F) : CntLe (hgemmzh_270_L A B I J LDA LDB L HTMP1J HTMP1S : Prog F _) 16 0 := by
  unfold hgemmzh_270_L
  le_line

theorem le_hgemmzh_260_I (A : Int) (ALPHA : Cplx F) (B : Int) (BETA : Quat F) (BZERO : Bool) (C : Int) (J : Int) (K : Int) (LDA : Int) (LDB : Int) (LDC : Int) (I : Int) :
    CntLe (hgemmzh_260_I A ALPHA B BETA BZERO C J K LDA LDB LDC I : Prog F _) (K.toNat * 16 + 8) (4) := by
  unfold hgemmzh_260_I
  try dsimp only
  refine CntLe.mono (CntLe.bind (CntLe.fold_const fun _ _ _ => le_hgemmzh_270_L ..) (fun _ => (?_ : CntLe _ 8 4))) (by omega) (by omega)
  cases BZERO <;> le_line

theorem le_hgemmzh_260_J (A : Int) (ALPHA : Cplx F) (B : Int) (BETA : Quat F) (BZERO : Bool) (C : Int) (K : Int) (LDA : Int) (LDB : Int) (LDC : Int) (M : Int) (J : Int) :
    CntLe (hgemmzh_260_J A ALPHA B BETA BZERO C K LDA LDB LDC M J : Prog F _) (M.toNat * (K.toNat * 16 + 8)) (M.toNat * 4) := by
  unfold hgemmzh_260_J
  exact CntLe.bindL (CntLe.forN fun _ _ => le_hgemmzh_260_I ..) (fun _ => .ret)

theorem le_hgemmzh_290_L (A : Int) (B : Int) (I : Int) (J : Int) (LDA : Int) (LDB : Int) (L : Int) (HTMP1J : Cplx F) (HTMP1S : Cplx F) : CntLe (hgemmzh_290_L A B I J LDA LDB L HTMP1J HTMP1S : Prog F _) 16 0 := by
  unfold hgemmzh_290_L
  le_line

theorem le_hgemmzh_280_I (A : Int) (ALPHA : Cplx F) (B : Int) (BETA : Quat F) (BZERO : Bool) (C : Int) (J : Int) (K : Int) (LDA : Int) (LDB : Int) (LDC : Int) (I : Int) :
    CntLe (hgemmzh_280_I A ALPHA B BETA BZERO C J K LDA LDB LDC I : Prog F _) (K.toNat * 16 + 8) (4) := by
  unfold hgemmzh_280_I
  try dsimp only
  refine CntLe.mono (CntLe.bind (CntLe.fold_const fun _ _ _ => le_hgemmzh_290_L ..) (fun _ => (?_ : CntLe _ 8 4))) (by omega) (by omega)
  cases BZERO <;> le_line

theorem le_hgemmzh_280_J (A : Int) (ALPHA : Cplx F) (B : Int) (BETA : Quat F) (BZERO : Bool) (C : Int) (K : Int) (LDA : Int) (LDB : Int) (LDC : Int) (M : Int) (J : Int) :
    CntLe (hgemmzh_280_J A ALPHA B BETA BZERO C K LDA LDB LDC M J : Prog F _) (M.toNat * (K.toNat * 16 + 8)) (M.toNat * 4) := by
  unfold hgemmzh_280_J
  exact CntLe.bindL (CntLe.forN fun _ _ => le_hgemmzh_280_I ..) (fun _ => .ret)

theorem le_hgemmzh_if280 (A : Int) (ALPHA : Cplx F) (B : Int) (BETA : Quat F) (BZERO : Bool) (C : Int) (CONJB : Bool) (K : Int) (LDA : Int) (LDB : Int) (LDC : Int) (M : Int) (N : Int) :
    CntLe (hgemmzh_if280 A ALPHA B BETA BZERO C CONJB K LDA LDB LDC M N : Prog F _) (N.toNat * (M.toNat * 8 + K.toNat * (M.toNat * 20 + 16))) (N.toNat * (M.toNat * 4 + K.toNat * (M.toNat * 4))) := by
  unfold hgemmzh_if280
  refine CntLe.ite (fun _ => ?_) (fun _ => ?_)
  · exact CntLe.mono (CntLe.bindL (CntLe.forN fun _ _ => le_hgemmzh_260_J ..) (fun _ => .ret)) (gemm_le3 ..) (gemm_le2 ..)
  · exact CntLe.mono (CntLe.bindL (CntLe.forN fun _ _ => le_hgemmzh_280_J ..) (fun _ => .ret)) (gemm_le3 ..) (gemm_le2 ..)

theorem le_hgemmzh_if64 (A : Int) (ALPHA : Cplx F) (B : Int) (BETA : Quat F) (BONE : Bool) (BZERO : Bool) (C : Int) (CONJA : Bool) (CONJB : Bool) (K : Int) (LDA : Int) (LDB : Int) (LDC : Int) (M : Int) (N : Int) (NOTA : Bool) (NOTB : Bool) :
    CntLe (hgemmzh_if64 A ALPHA B BETA BONE BZERO C CONJA CONJB K LDA LDB LDC M N NOTA NOTB : Prog F _) (N.toNat * (M.toNat * 8 + K.toNat * (M.toNat * 20 + 16))) (N.toNat * (M.toNat * 4 + K.toNat * (M.toNat * 4))) := by
  unfold hgemmzh_if64
  refine CntLe.ite (fun _ => ?_) (fun _ => CntLe.ite (fun _ => ?_) (fun _ => CntLe.ite (fun _ => ?_) (fun _ => ?_)))
  · exact CntLe.bindL (le_hgemmzh_if65 ..) (fun _ => .ret)
  · exact CntLe.bindL (le_hgemmzh_if154 ..) (fun _ => .ret)
  · exact CntLe.bindL (le_hgemmzh_if221 ..) (fun _ => .ret)
  · exact CntLe.bindL (le_hgemmzh_if280 ..) (fun _ => .ret)

theorem le_hgemmzh (TRANSA : Char) (TRANSB : Char) (M : Int) (N : Int) (K : Int) (ALPHA : Cplx F) (A : Int) (LDA : Int) (B : Int) (LDB : Int) (BETA : Quat F) (C : Int) (LDC : Int) :
    CntLe (hgemmzh TRANSA TRANSB M N K ALPHA A LDA B LDB BETA C LDC : Prog F _) (N.toNat * (M.toNat * 8 + K.toNat * (M.toNat * 20 + 16))) (N.toNat * (M.toNat * 4 + K.toNat * (M.toNat * 4))) := by
  unfold hgemmzh
  try dsimp only
  refine CntLe.ite (fun _ => .ret) fun _ => CntLe.ite (fun _ => .ret) fun _ => CntLe.ite (fun _ => ?_) (fun _ => ?_)
  · exact CntLe.mono (CntLe.bindL (le_hgemmzh_if47 ..) (fun _ => .ret)) (gemm_le1 ..) (gemm_le2 ..)
  · exact CntLe.bindL (le_hgemmzh_if64 ..) (fun _ => .ret)

theorem le_hgemmhd_10_I (C : Int) (J : Int) (LDC : Int) (I : Int) : CntLe (hgemmhd_10_I C J LDC I : Prog F _) 8 4 := by
  unfold hgemmhd_10_I
  le_line

theorem le_hgemmhd_10_J (C : Int) (LDC : Int) (M : Int) (J : Int) :
    CntLe (hgemmhd_10_J C LDC M J : Prog F _) (M.toNat * 8) (M.toNat * 4) := by
  unfold hgemmhd_10_J
  exact CntLe.bindL (CntLe.forN fun _ _ => le_hgemmhd_10_I ..) (fun _ => .ret)

theorem le_hgemmhd_20_I (BETA : F) (C : Int) (J : Int) (LDC : Int) (I : Int) : CntLe (hgemmhd_20_I BETA C J LDC I : Prog F _) 8 4 := by
  unfold hgemmhd_20_I
  le_line

theorem le_hgemmhd_20_J (BETA : F) (C : Int) (LDC : Int) (M : Int) (J : Int) :
    CntLe (hgemmhd_20_J BETA C LDC M J : Prog F _) (M.toNat * 8) (M.toNat * 4) := by
  unfold hgemmhd_20_J
  exact CntLe.bindL (CntLe.forN fun _ _ => le_hgemmhd_20_I ..) (fun _ => .ret)

theorem le_hgemmhd_if49 (BETA : F) (BZERO : Bool) (C : Int) (LDC : Int) (M : Int) (N : Int) :
    CntLe (hgemmhd_if49 BETA BZERO C LDC M N : Prog F _) (N.toNat * (M.toNat * 8)) (N.toNat * (M.toNat * 4)) := by
  unfold hgemmhd_if49
  refine CntLe.ite (fun _ => ?_) (fun _ => ?_)
  · exact CntLe.bindL (CntLe.forN fun _ _ => le_hgemmhd_10_J ..) (fun _ => .ret)
  · exact CntLe.bindL (CntLe.forN fun _ _ => le_hgemmhd_20_J ..) (fun _ => .ret)

theorem le_hgemmhd_40_I (C : Int) (J : Int) (LDC : Int) (I : Int) : CntLe (hgemmhd_40_I C J LDC I : Prog F _) 8 4 := by
  unfold hgemmhd_40_I
  le_line

theorem le_hgemmhd_50_I (BETA : F) (C : Int) (J : Int) (LDC : Int) (I : Int) : CntLe (hgemmhd_50_I BETA C J LDC I : Prog F _) 8 4 := by
  unfold hgemmhd_50_I
  le_line

theorem le_hgemmhd_if71 (BETA : F) (BONE : Bool) (BZERO : Bool) (C : Int) (J : Int) (LDC : Int) (M : Int) :
    CntLe (hgemmhd_if71 BETA BONE BZERO C J LDC M : Prog F _) (M.toNat * 8) (M.toNat * 4) := by
  unfold hgemmhd_if71
  refine CntLe.ite (fun _ => ?_) (fun _ => CntLe.ite (fun _ => ?_) (fun _ => .ret))
  · exact CntLe.bindL (CntLe.forN fun _ _ => le_hgemmhd_40_I ..) (fun _ => .ret)
  · exact CntLe.bindL (CntLe.forN fun _ _ => le_hgemmhd_50_I ..) (fun _ => .ret)

theorem le_hgemmhd_70_I (A : Int) (C : Int) (HTMP1J : Cplx F) (HTMP1S : Cplx F) (HTMP2J : Cplx F) (HTMP2S : Cplx F) (HTMP3J : Cplx F) (HTMP3S : Cplx F) (HTMP4J : Cplx F) (HTMP4S : Cplx F) (J : Int) (L : Int) (LDA : Int) (LDC : Int) (I : Int) : CntLe (hgemmhd_70_I A C HTMP1J HTMP1S HTMP2J HTMP2S HTMP3J HTMP3S HTMP4J HTMP4S J L LDA LDC I : Prog F _) 20 4 := by
  unfold hgemmhd_70_I
  le_line

theorem le_hgemmhd_60_L (A : Int) (ALPHA : Quat F) (B : Int) (C : Int) (J : Int) (LDA : Int) (LDB : Int) (LDC : Int) (M : Int) (L : Int) :
    CntLe (hgemmhd_60_L A ALPHA B C J LDA LDB LDC M L : Prog F _) (M.toNat * 20 + 16) (M.toNat * 4) := by
  unfold hgemmhd_60_L
  try dsimp only
  repeat (first | refine le_rdC_bind fun _ => ?_ | refine .rd fun _ => ?_)
  exact CntLe.mono (CntLe.bindL (CntLe.forN fun _ _ => le_hgemmhd_70_I ..) (fun _ => .ret)) (by omega) (by omega)

theorem le_hgemmhd_30_J (A : Int) (ALPHA : Quat F) (B : Int) (BETA : F) (BONE : Bool) (BZERO : Bool) (C : Int) (K : Int) (LDA : Int) (LDB : Int) (LDC : Int) (M : Int) (J : Int) :
    CntLe (hgemmhd_30_J A ALPHA B BETA BONE BZERO C K LDA LDB LDC M J : Prog F _) (M.toNat * 8 + K.toNat * (M.toNat * 20 + 16)) (M.toNat * 4 + K.toNat * (M.toNat * 4)) := by
  unfold hgemmhd_30_J
  exact CntLe.bind (le_hgemmhd_if71 ..) fun _ => CntLe.bindL (CntLe.forN fun _ _ => le_hgemmhd_60_L ..) (fun _ => .ret)

theorem le_hgemmhd_90_L (A : Int) (B : Int) (I : Int) (J : Int) (LDA : Int) (LDB : Int) (L : Int) (HTMP1J : Cplx F) (HTMP1S : Cplx F) : CntLe (hgemmhd_90_L A B I J LDA LDB L HTMP1J HTMP1S : Prog F _) 16 0 := by
  unfold hgemmhd_90_L
  le_line

theorem le_hgemmhd_80_I (A : Int) (ALPHA : Quat F) (B : Int) (BETA : F) (BZERO : Bool) (C : Int) (J : Int) (K : Int) (LDA : Int) (LDB : Int) (LDC : Int) (I : Int) :
    CntLe (hgemmhd_80_I A ALPHA B BETA BZERO C J K LDA LDB LDC I : Prog F _) (K.toNat * 16 + 8) (4) := by
  unfold hgemmhd_80_I
  try dsimp only
  refine CntLe.mono (CntLe.bind (CntLe.fold_const fun _ _ _ => le_hgemmhd_90_L ..) (fun _ => (?_ : CntLe _ 8 4))) (by omega) (by omega)
  cases BZERO <;> le_line

theorem le_hgemmhd_80_J (A : Int) (ALPHA : Quat F) (B : Int) (BETA : F) (BZERO : Bool) (C : Int) (K : Int) (LDA : Int) (LDB : Int) (LDC : Int) (M : Int) (J : Int) :
    CntLe (hgemmhd_80_J A ALPHA B BETA BZERO C K LDA LDB LDC M J : Prog F _) (M.toNat * (K.toNat * 16 + 8)) (M.toNat * 4) := by
  unfold hgemmhd_80_J
  exact CntLe.bindL (CntLe.forN fun _ _ => le_hgemmhd_80_I ..) (fun _ => .ret)

theorem le_hgemmhd_110_L (A : Int) (B : Int) (I : Int) (J : Int) (LDA : Int) (LDB : Int) (L : Int) (HTMP1J : Cplx F) (HTMP1S : Cplx F) : CntLe (hgemmhd_110_L A B I J LDA LDB L HTMP1J HTMP1S : Prog F _) 16 0 := by
  unfold hgemmhd_110_L
  le_line

theorem le_hgemmhd_100_I (A : Int) (ALPHA : Quat F) (B : Int) (BETA : F) (BZERO : Bool) (C : Int) (J : Int) (K : Int) (LDA : Int) (LDB : Int) (LDC : Int) (I : Int) :
    CntLe (hgemmhd_100_I A ALPHA B BETA BZERO C J K LDA LDB LDC I : Prog F _) (K.toNat * 16 + 8) (4) := by
  unfold hgemmhd_100_I
  try dsimp only
  refine CntLe.mono (CntLe.bind (CntLe.fold_const fun _ _ _ => le_hgemmhd_110_L ..) (fun _ => (?_ : CntLe _ 8 4))) (by omega) (by omega)
  cases BZERO <;> le_line

theorem le_hgemmhd_100_J (A : Int) (ALPHA : Quat F) (B : Int) (BETA : F) (BZERO : Bool) (C : Int) (K : Int) (LDA : Int) (LDB : Int) (LDC : Int) (M : Int) (J : Int) :
    CntLe (hgemmhd_100_J A ALPHA B BETA BZERO C K LDA LDB LDC M J : Prog F _) (M.toNat * (K.toNat * 16 + 8)) (M.toNat * 4) := by
  unfold hgemmhd_100_J
  exact CntLe.bindL (CntLe.forN fun _ _ => le_hgemmhd_100_I ..) (fun _ => .ret)

theorem le_hgemmhd_if66 (A : Int) (ALPHA : Quat F) (B : Int) (BETA : F) (BONE : Bool) (BZERO : Bool) (C : Int) (CONJA : Bool) (K : Int) (LDA : Int) (LDB : Int) (LDC : Int) (M : Int) (N : Int) (NOTA : Bool) :
    CntLe (hgemmhd_if66 A ALPHA B BETA BONE BZERO C CONJA K LDA LDB LDC M N NOTA : Prog F _) (N.toNat * (M.toNat * 8 + K.toNat * (M.toNat * 20 + 16))) (N.toNat * (M.toNat * 4 + K.toNat * (M.toNat * 4))) := by
  unfold hgemmhd_if66
  refine CntLe.ite (fun _ => ?_) (fun _ => CntLe.ite (fun _ => ?_) (fun _ => ?_))
  · exact CntLe.bindL (CntLe.forN fun _ _ => le_hgemmhd_30_J ..) (fun _ => .ret)
  · exact CntLe.mono (CntLe.bindL (CntLe.forN fun _ _ => le_hgemmhd_80_J ..) (fun _ => .ret)) (gemm_le3 ..) (gemm_le2 ..)
  · exact CntLe.mono (CntLe.bindL (CntLe.forN fun _ _ => le_hgemmhd_100_J ..) (fun _ => .ret)) (gemm_le3 ..) (gemm_le2 ..)

theorem le_hgemmhd_130_I (C : Int) (J : Int) (LDC : Int) (I : Int) : CntLe (hgemmhd_130_I C J LDC I : Prog F _) 8 4 := by
  unfold hgemmhd_130_I
  le_line

theorem le_hgemmhd_140_I (BETA : F) (C : Int) (J : Int) (LDC : Int) (I : Int) : CntLe (hgemmhd_140_I BETA C J LDC I : Prog F _) 8 4 := by
  unfold hgemmhd_140_I
  le_line

theorem le_hgemmhd_if163 (BETA : F) (BONE : Bool) (BZERO : Bool) (C : Int) (J : Int) (LDC : Int) (M : Int) :
    CntLe (hgemmhd_if163 BETA BONE BZERO C J LDC M : Prog F _) (M.toNat * 8) (M.toNat * 4) := by
  unfold hgemmhd_if163
  refine CntLe.ite (fun _ => ?_) (fun _ => CntLe.ite (fun _ => ?_) (fun _ => .ret))
  · exact CntLe.bindL (CntLe.forN fun _ _ => le_hgemmhd_130_I ..) (fun _ => .ret)
  · exact CntLe.bindL (CntLe.forN fun _ _ => le_hgemmhd_140_I ..) (fun _ => .ret)

theorem le_hgemmhd_160_I (A : Int) (C : Int) (HTMP1J : Cplx F) (HTMP1S : Cplx F) (HTMP2J : Cplx F) (HTMP2S : Cplx F) (HTMP3J : Cplx F) (HTMP3S : Cplx F) (HTMP4J : Cplx F) (HTMP4S : Cplx F) (J : Int) (L : Int) (LDA : Int) (LDC : Int) (I : Int) : CntLe (hgemmhd_160_I A C HTMP1J HTMP1S HTMP2J HTMP2S HTMP3J HTMP3S HTMP4J HTMP4S J L LDA LDC I : Prog F _) 20 4 := by
  unfold hgemmhd_160_I
  le_line

theorem le_hgemmhd_150_L (A : Int) (ALPHA : Quat F) (B : Int) (C : Int) (J : Int) (LDA : Int) (LDB : Int) (LDC : Int) (M : Int) (L : Int) :
    CntLe (hgemmhd_150_L A ALPHA B C J LDA LDB LDC M L : Prog F _) (M.toNat * 20 + 16) (M.toNat * 4) := by
  unfold hgemmhd_150_L
  try dsimp only
  repeat (first | refine le_rdC_bind fun _ => ?_ | refine .rd fun _ => ?_)
  exact CntLe.mono (CntLe.bindL (CntLe.forN fun _ _ => le_hgemmhd_160_I ..) (fun _ => .ret)) (by omega) (by omega)

theorem le_hgemmhd_120_J (A : Int) (ALPHA : Quat F) (B : Int) (BETA : F) (BONE : Bool) (BZERO : Bool) (C : Int) (K : Int) (LDA : Int) (LDB : Int) (LDC : Int) (M : Int) (J : Int) :
    CntLe (hgemmhd_120_J A ALPHA B BETA BONE BZERO C K LDA LDB LDC M J : Prog F _) (M.toNat * 8 + K.toNat * (M.toNat * 20 + 16)) (M.toNat * 4 + K.toNat * (M.toNat * 4)) := by
  unfold hgemmhd_120_J
  exact CntLe.bind (le_hgemmhd_if163 ..) fun _ => CntLe.bindL (CntLe.forN fun _ _ => le_hgemmhd_150_L ..) (fun _ => .ret)

theorem le_hgemmhd_180_I (C : Int) (J : Int) (LDC : Int) (I : Int) : CntLe (hgemmhd_180_I C J LDC I : Prog F _) 8 4 := by
  unfold hgemmhd_180_I
  le_line

theorem le_hgemmhd_190_I (BETA : F) (C : Int) (J : Int) (LDC : Int) (I : Int) : CntLe (hgemmhd_190_I BETA C J LDC I : Prog F _) 8 4 := by
  unfold hgemmhd_190_I
  le_line

theorem le_hgemmhd_if201 (BETA : F) (BONE : Bool) (BZERO : Bool) (C : Int) (J : Int) (LDC : Int) (M : Int) :
    CntLe (hgemmhd_if201 BETA BONE BZERO C J LDC M : Prog F _) (M.toNat * 8) (M.toNat * 4) := by
  unfold hgemmhd_if201
  refine CntLe.ite (fun _ => ?_) (fun _ => CntLe.ite (fun _ => ?_) (fun _ => .ret))
  · exact CntLe.bindL (CntLe.forN fun _ _ => le_hgemmhd_180_I ..) (fun _ => .ret)
  · exact CntLe.bindL (CntLe.forN fun _ _ => le_hgemmhd_190_I ..) (fun _ => .ret)

theorem le_hgemmhd_210_I (A : Int) (C : Int) (HTMP1J : Cplx F) (HTMP1S : Cplx F) (HTMP2J : Cplx F) (HTMP2S : Cplx F) (HTMP3J : Cplx F) (HTMP3S : Cplx F) (HTMP4J : Cplx F) (HTMP4S : Cplx F) (J : Int) (L : Int) (LDA : Int) (LDC : Int) (I : Int) : CntLe (hgemmhd_210_I A C HTMP1J HTMP1S HTMP2J HTMP2S HTMP3J HTMP3S HTMP4J HTMP4S J L LDA LDC I : Prog F _) 20 4 := by
  unfold hgemmhd_210_I
  le_line

theorem le_hgemmhd_200_L (A : Int) (ALPHA : Quat F) (B : Int) (C : Int) (J : Int) (LDA : Int) (LDB : Int) (LDC : Int) (M : Int) (L : Int) :
    CntLe (hgemmhd_200_L A ALPHA B C J LDA LDB LDC M L : Prog F _) (M.toNat * 20 + 16) (M.toNat * 4) := by
  unfold hgemmhd_200_L
  try dsimp only
  repeat (first | refine le_rdC_bind fun _ => ?_ | refine .rd fun _ => ?_)
  exact CntLe.mono (CntLe.bindL (CntLe.forN fun _ _ => le_hgemmhd_210_I ..) (fun _ => .ret)) (by omega) (by omega)

theorem le_hgemmhd_170_J (A : Int) (ALPHA : Quat F) (B : Int) (BETA : F) (BONE : Bool) (BZERO : Bool) (C : Int) (K : Int) (LDA : Int) (LDB : Int) (LDC : Int) (M : Int) (J : Int) :
    CntLe (hgemmhd_170_J A ALPHA B BETA BONE BZERO C K LDA LDB LDC M J : Prog F _) (M.toNat * 8 + K.toNat * (M.toNat * 20 + 16)) (M.toNat * 4 + K.toNat * (M.toNat * 4)) := by
  unfold hgemmhd_170_J
  exact CntLe.bind (le_hgemmhd_if201 ..) fun _ => CntLe.bindL (CntLe.forN fun _ _ => le_hgemmhd_200_L ..) (fun _ => .ret)

theorem le_hgemmhd_if158 (A : Int) (ALPHA : Quat F) (B : Int) (BETA : F) (BONE : Bool) (BZERO : Bool) (C : Int) (CONJB : Bool) (K : Int) (LDA : Int) (LDB : Int) (LDC : Int) (M : Int) (N : Int) :
    CntLe (hgemmhd_if158 A ALPHA B BETA BONE BZERO C CONJB K LDA LDB LDC M N : Prog F _) (N.toNat * (M.toNat * 8 + K.toNat * (M.toNat * 20 + 16))) (N.toNat * (M.toNat * 4 + K.toNat * (M.toNat * 4))) := by
  unfold hgemmhd_if158
  refine CntLe.ite (fun _ => ?_) (fun _ => ?_)
  · exact CntLe.bindL (CntLe.forN fun _ _ => le_hgemmhd_120_J ..) (fun _ => .ret)
  · exact CntLe.bindL (CntLe.forN fun _ _ => le_hgemmhd_170_J ..) (fun _ => .ret)

theorem le_hgemmhd_230_L (A : Int) (B : Int) (I : Int) (J : Int) (LDA : Int) (LDB : Int) (L : Int) (HTMP1J : Cplx F) (HTMP1S : Cplx F) : CntLe (hgemmhd_230_L A B I J LDA LDB L HTMP1J HTMP1S : Prog F _) 16 0 := by
  unfold hgemmhd_230_L
  le_line

theorem le_hgemmhd_220_I (A : Int) (ALPHA : Quat F) (B : Int) (BETA : F) (BZERO : Bool) (C : Int) (J : Int) (K : Int) (LDA : Int) (LDB : Int) (LDC : Int) (I : Int) :
    CntLe (hgemmhd_220_I A ALPHA B BETA BZERO C J K LDA LDB LDC I : Prog F _) (K.toNat * 16 + 8) (4) := by
  unfold hgemmhd_220_I
  try dsimp only
  refine CntLe.mono (CntLe.bind (CntLe.fold_const fun _ _ _ => le_hgemmhd_230_L ..) (fun _ => (?_ : CntLe _ 8 4))) (by omega) (by omega)
  cases BZERO <;> le_line

theorem le_hgemmhd_220_J (A : Int) (ALPHA : Quat F) (B : Int) (BETA : F) (BZERO : Bool) (C : Int) (K : Int) (LDA : Int) (LDB : Int) (LDC : Int) (M : Int) (J : Int) :
    CntLe (hgemmhd_220_J A ALPHA B BETA BZERO C K LDA LDB LDC M J : Prog F _) (M.toNat * (K.toNat * 16 + 8)) (M.toNat * 4) := by
  unfold hgemmhd_220_J
  exact CntLe.bindL (CntLe.forN fun _ _ => le_hgemmhd_220_I ..) (fun _ => .ret)

theorem le_hgemmhd_250_L (A : Int) (B : Int) (I : Int) (J : Int) (LDA : Int) (LDB : Int) (L : Int) (HTMP1J : Cplx F) (HTMP1S : Cplx F) : CntLe (hgemmhd_250_L A B I J LDA LDB L HTMP1J HTMP1S : Prog F _) 16 0 := by
  unfold hgemmhd_250_L
  le_line

theorem le_hgemmhd_240_I (A : Int) (ALPHA : Quat F) (B : Int) (BETA : F) (BZERO : Bool) (C : Int) (J : Int) (K : Int) (LDA : Int) (LDB : Int) (LDC : Int) (I : Int) :
    CntLe (hgemmhd_240_I A ALPHA B BETA BZERO C J K LDA LDB LDC I : Prog F _) (K.toNat * 16 + 8) (4) := by
  unfold hgemmhd_240_I
  try dsimp only
  refine CntLe.mono (CntLe.bind (CntLe.fold_const fun _ _ _ => le_hgemmhd_250_L ..) (fun _ => (?_ : CntLe _ 8 4))) (by omega) (by omega)
  cases BZERO <;> le_line

theorem le_hgemmhd_240_J (A : Int) (ALPHA : Quat F) (B : Int) (BETA : F) (BZERO : Bool) (C : Int) (K : Int) (LDA : Int) (LDB : Int) (LDC : Int) (M : Int) (J : Int) :
    CntLe (hgemmhd_240_J A ALPHA B BETA BZERO C K LDA LDB LDC M J : Prog F _) (M.toNat * (K.toNat * 16 + 8)) (M.toNat * 4) := by
  unfold hgemmhd_240_J
  exact CntLe.bindL (CntLe.forN fun _ _ => le_hgemmhd_240_I ..) (fun _ => .ret)

theorem le_hgemmhd_if235 (A : Int) (ALPHA : Quat F) (B : Int) (BETA : F) (BZERO : Bool) (C : Int) (CONJB : Bool) (K : Int) (LDA : Int) (LDB : Int) (LDC : Int) (M : Int) (N : Int) :
    CntLe (hgemmhd_if235 A ALPHA B BETA BZERO C CONJB K LDA LDB LDC M N : Prog F _) (N.toNat * (M.toNat * 8 + K.toNat * (M.toNat * 20 + 16))) (N.toNat * (M.toNat * 4 + K.toNat * (M.toNat * 4))) := by
  unfold hgemmhd_if235
  refine CntLe.ite (fun _ => ?_) (fun _ => ?_)
  · exact CntLe.mono (CntLe.bindL (CntLe.forN fun _ _ => le_hgemmhd_220_J ..) (fun _ => .ret)) (gemm_le3 ..) (gemm_le2 ..)
  · exact CntLe.mono (CntLe.bindL (CntLe.forN fun _ _ => le_hgemmhd_240_J ..) (fun _ => .ret)) (gemm_le3 ..) (gemm_le2 ..)

theorem le_hgemmhd_270_L (A : Int) (B : Int) (I : Int) (J : Int) (LDA : Int) (LDB : Int) (L : Int) (HTMP1J : Cplx F) (HTMP1S : Cplx F) : CntLe (hgemmhd_270_L A B I J LDA LDB L HTMP1J HTMP1S : Prog F _) 16 0 := by
  unfold hgemmhd_270_L
  le_line

theorem le_hgemmhd_260_I (A : Int) (ALPHA : Quat F) (B : Int) (BETA : F) (BZERO : Bool) (C : Int) (J : Int) (K : Int) (LDA : Int) (LDB : Int) (LDC : Int) (I : Int) :
    CntLe (hgemmhd_260_I A ALPHA B BETA BZERO C J K LDA LDB LDC I : Prog F _) (K.toNat * 16 + 8) (4) := by
  unfold hgemmhd_260_I
  try dsimp only
  refine CntLe.mono (CntLe.bind (CntLe.fold_const fun _ _ _ => le_hgemmhd_270_L ..) (fun _ => (?_ : CntLe _ 8 4))) (by omega) (by omega)
  cases BZERO <;> le_line

theorem le_hgemmhd_260_J (A : Int) (ALPHA : Quat F) (B : Int) (BETA : F) (BZERO : Bool) (C : Int) (K : Int) (LDA : Int) (LDB : Int) (LDC : Int) (M : Int) (J : Int) :
    CntLe (hgemmhd_260_J A ALPHA B BETA BZERO C K LDA LDB LDC M J : Prog F _) (M.toNat * (K.toNat * 16 + 8)) (M.toNat * 4) := by
  unfold hgemmhd_260_J
  exact CntLe.bindL (CntLe.forN fun _ _ => le_hgemmhd_260_I ..) (fun _ => .ret)

theorem le_hgemmhd_290_L (A : Int) (B : Int) (I : Int) (J : Int) (LDA : Int) (LDB : Int) (L : Int) (HTMP1J : Cplx F) (HTMP1S : Cplx F) : CntLe (hgemmhd_290_L A B I J LDA LDB L HTMP1J HTMP1S : Prog F _) 16 0 := by
  unfold hgemmhd_290_L
  le_line

theorem le_hgemmhd_280_I (A : Int) (ALPHA : Quat F) (B : Int) (BETA : F) (BZERO : Bool) (C : Int) (J : Int) (K : Int) (LDA : Int) (LDB : Int) (LDC : Int) (I : Int) :
    CntLe (hgemmhd_280_I A ALPHA B BETA BZERO C J K LDA LDB LDC I : Prog F _) (K.toNat * 16 + 8) (4) := by
  unfold hgemmhd_280_I
  try dsimp only
  refine CntLe.mono (CntLe.bind (CntLe.fold_const fun _ _ _ => le_hgemmhd_290_L ..) (fun _ => (?_ : CntLe _ 8 4))) (by omega) (by omega)
  cases BZERO <;> le_line

theorem le_hgemmhd_280_J (A : Int) (ALPHA : Quat F) (B : Int) (BETA : F) (BZERO : Bool) (C : Int) (K : Int) (LDA : Int) (LDB : Int) (LDC : Int) (M : Int) (J : Int) :
    CntLe (hgemmhd_280_J A ALPHA B BETA BZERO C K LDA LDB LDC M J : Prog F _) (M.toNat * (K.toNat * 16 + 8)) (M.toNat * 4) := by
  unfold hgemmhd_280_J
  exact CntLe.bindL (CntLe.forN fun _ _ => le_hgemmhd_280_I ..) (fun _ => .ret)

theorem le_hgemmhd_if292 (A : Int) (ALPHA : Quat F) (B : Int) (BETA : F) (BZERO : Bool) (C : Int) (CONJB : Bool) (K : Int) (LDA : Int) (LDB : Int) (LDC : Int) (M : Int) (N : Int) :
    CntLe (hgemmhd_if292 A ALPHA B BETA BZERO C CONJB K LDA LDB LDC M N : Prog F _) (N.toNat * (M.toNat * 8 + K.toNat * (M.toNat * 20 + 16))) (N.toNat * (M.toNat * 4 + K.toNat * (M.toNat * 4))) := by
  unfold hgemmhd_if292
  refine CntLe.ite (fun _ => ?_) (fun _ => ?_)
  · exact CntLe.mono (CntLe.bindL (CntLe.forN fun _ _ => le_hgemmhd_260_J ..) (fun _ => .ret)) (gemm_le3 ..) (gemm_le2 ..)
  · exact CntLe.mono (CntLe.bindL (CntLe.forN fun _ _ => le_hgemmhd_280_J ..) (fun _ => .ret)) (gemm_le3 ..) (gemm_le2 ..)

theorem le_hgemmhd_if65 (A : Int) (ALPHA : Quat F) (B : Int) (BETA : F) (BONE : Bool) (BZERO : Bool) (C : Int) (CONJA : Bool) (CONJB : Bool) (K : Int) (LDA : Int) (LDB : Int) (LDC : Int) (M : Int) (N : Int) (NOTA : Bool) (NOTB : Bool) :
    CntLe (hgemmhd_if65 A ALPHA B BETA BONE BZERO C CONJA CONJB K LDA LDB LDC M N NOTA NOTB : Prog F _) (N.toNat * (M.toNat * 8 + K.toNat * (M.toNat * 20 + 16))) (N.toNat * (M.toNat * 4 + K.toNat * (M.toNat * 4))) := by
  unfold hgemmhd_if65
  refine CntLe.ite (fun _ => ?_) (fun _ => CntLe.ite (fun _ => ?_) (fun _ => CntLe.ite (fun _ => ?_) (fun _ => ?_)))
  · exact CntLe.bindL (le_hgemmhd_if66 ..) (fun _ => .ret)
  · exact CntLe.bindL (le_hgemmhd_if158 ..) (fun _ => .ret)
  · exact CntLe.bindL (le_hgemmhd_if235 ..) (fun _ => .ret)
  · exact CntLe.bindL (le_hgemmhd_if292 ..) (fun _ => .ret)

theorem le_hgemmhd (TRANSA : Char) (TRANSB : Char) (M : Int) (N : Int) (K : Int) (ALPHA : Quat F) (A : Int) (LDA : Int) (B : Int) (LDB : Int) (BETA : F) (C : Int) (LDC : Int) :
    CntLe (hgemmhd TRANSA TRANSB M N K ALPHA A LDA B LDB BETA C LDC : Prog F _) (N.toNat * (M.toNat * 8 + K.toNat * (M.toNat * 20 + 16))) (N.toNat * (M.toNat * 4 + K.toNat * (M.toNat * 4))) := by
  unfold hgemmhd
  try dsimp only
  refine CntLe.ite (fun _ => .ret) fun _ => CntLe.ite (fun _ => .ret) fun _ => CntLe.ite (fun _ => ?_) (fun _ => ?_)
  · exact CntLe.mono (CntLe.bindL (le_hgemmhd_if49 ..) (fun _ => .ret)) (gemm_le1 ..) (gemm_le2 ..)
  · exact CntLe.bindL (le_hgemmhd_if65 ..) (fun _ => .ret)

theorem le_hgemmhz_10_I (C : Int) (J : Int) (LDC : Int) (I : Int) : CntLe (hgemmhz_10_I C J LDC I : Prog F _) 8 4 := by
  unfold hgemmhz_10_I
  le_line

theorem le_hgemmhz_10_J (C : Int) (LDC : Int) (M : Int) (J : Int) :
    CntLe (hgemmhz_10_J C LDC M J : Prog F _) (M.toNat * 8) (M.toNat * 4) := by
  unfold hgemmhz_10_J
  exact CntLe.bindL (CntLe.forN fun _ _ => le_hgemmhz_10_I ..) (fun _ => .ret)

theorem le_hgemmhz_20_I (BETA : Cplx F) (C : Int) (J : Int) (LDC : Int) (I : Int) : CntLe (hgemmhz_20_I BETA C J LDC I : Prog F _) 8 4 := by
  unfold hgemmhz_20_I
  le_line

theorem le_hgemmhz_20_J (BETA : Cplx F) (C : Int) (LDC : Int) (M : Int) (J : Int) :
    CntLe (hgemmhz_20_J BETA C LDC M J : Prog F _) (M.toNat * 8) (M.toNat * 4) := by
  unfold hgemmhz_20_J
  exact CntLe.bindL (CntLe.forN fun _ _ => le_hgemmhz_20_I ..) (fun _ => .ret)

theorem le_hgemmhz_if48 (BETA : Cplx F) (BZERO : Bool) (C : Int) (LDC : Int) (M : Int) (N : Int) :
    CntLe (hgemmhz_if48 BETA BZERO C LDC M N : Prog F _) (N.toNat * (M.toNat * 8)) (N.toNat * (M.toNat * 4)) := by
  unfold hgemmhz_if48
  refine CntLe.ite (fun _ => ?_) (fun _ => ?_)
  · exact CntLe.bindL (CntLe.forN fun _ _ => le_hgemmhz_10_J ..) (fun _ => .ret)
  · exact CntLe.bindL (CntLe.forN fun _ _ => le_hgemmhz_20_J ..) (fun _ => .ret)

theorem le_hgemmhz_40_I (C : Int) (J : Int) (LDC : Int) (I : Int) : CntLe (hgemmhz_40_I C J LDC I : Prog F _) 8 4 := by
  unfold hgemmhz_40_I
  le_line

theorem le_hgemmhz_50_I (BETA : Cplx F) (C : Int) (J : Int) (LDC : Int) (I : Int) : CntLe (hgemmhz_50_I BETA C J LDC I : Prog F _) 8 4 := by
  unfold hgemmhz_50_I
  le_line

theorem le_hgemmhz_if70 (BETA : Cplx F) (BONE : Bool) (BZERO : Bool) (C : Int) (J : Int) (LDC : Int) (M : Int) :
    CntLe (hgemmhz_if70 BETA BONE BZERO C J LDC M : Prog F _) (M.toNat * 8) (M.toNat * 4) := by
  unfold hgemmhz_if70
  refine CntLe.ite (fun _ => ?_) (fun _ => CntLe.ite (fun _ => ?_) (fun _ => .ret))
  · exact CntLe.bindL (CntLe.forN fun _ _ => le_hgemmhz_40_I ..) (fun _ => .ret)
  · exact CntLe.bindL (CntLe.forN fun _ _ => le_hgemmhz_50_I ..) (fun _ => .ret)

theorem le_hgemmhz_70_I (A : Int) (C : Int) (HTMP1J : Cplx F) (HTMP1S : Cplx F) (HTMP2J : Cplx F) (HTMP2S : Cplx F) (HTMP3J : Cplx F) (HTMP3S : Cplx F) (HTMP4J : Cplx F) (HTMP4S : Cplx F) (J : Int) (L : Int) (LDA : Int) (LDC : Int) (I : Int) : CntLe (hgemmhz_70_I A C HTMP1J HTMP1S HTMP2J HTMP2S HTMP3J HTMP3S HTMP4J HTMP4S J L LDA LDC I : Prog F _) 20 4 := by
  unfold hgemmhz_70_I
  le_line

theorem le_hgemmhz_60_L (A : Int) (ALPHA : Quat F) (B : Int) (C : Int) (J : Int) (LDA : Int) (LDB : Int) (LDC : Int) (M : Int) (L : Int) :
    CntLe (hgemmhz_60_L A ALPHA B C J LDA LDB LDC M L : Prog F _) (M.toNat * 20 + 16) (M.toNat * 4) := by
  unfold hgemmhz_60_L
  try dsimp only
  repeat (first | refine le_rdC_bind fun _ => ?_ | refine .rd fun _ => ?_)
  exact CntLe.mono (CntLe.bindL (CntLe.forN fun _ _ => le_hgemmhz_70_I ..) (fun _ => .ret)) (by omega) (by omega)

theorem le_hgemmhz_30_J (A : Int) (ALPHA : Quat F) (B : Int) (BETA : Cplx F) (BONE : Bool) (BZERO : Bool) (C : Int) (K : Int) (LDA : Int) (LDB : Int) (LDC : Int) (M : Int) (J : Int) :
    CntLe (hgemmhz_30_J A ALPHA B BETA BONE BZERO C K LDA LDB LDC M J : Prog F _) (M.toNat * 8 + K.toNat * (M.toNat * 20 + 16)) (M.toNat * 4 + K.toNat * (M.toNat * 4)) := by
  unfold hgemmhz_30_J
  exact CntLe.bind (le_hgemmhz_if70 ..) fun _ => CntLe.bindL (CntLe.forN fun _ _ => le_hgemmhz_60_L ..) (fun _ => .ret)

theorem le_hgemmhz_90_L (A : Int) (B : Int) (I : Int) (J : Int) (LDA : Int) (LDB : Int) (L : Int) (HTMP1J : Cplx F) (HTMP1S : Cplx F) : CntLe (hgemmhz_90_L A B I J LDA LDB L HTMP1J HTMP1S : Prog F _) 16 0 := by
  unfold hgemmhz_90_L
  le_line

theorem le_hgemmhz_80_I (A : Int) (ALPHA : Quat F) (B : Int) (BETA : Cplx F) (BZERO : Bool) (C : Int) (J : Int) (K : Int) (LDA : Int) (LDB : Int) (LDC : Int) (I : Int) :
    CntLe (hgemmhz_80_I A ALPHA B BETA BZERO C J K LDA LDB LDC I : Prog F _) (K.toNat * 16 + 8) (4) := by
  unfold hgemmhz_80_I
  try dsimp only
  refine CntLe.mono (CntLe.bind (CntLe.fold_const fun _ _ _ => le_hgemmhz_90_L ..) (fun _ => (?_ : CntLe _ 8 4))) (by omega) (by omega)
  cases BZERO <;> le_line

theorem le_hgemmhz_80_J (A : Int) (ALPHA : Quat F) (B : Int) (BETA : Cplx F) (BZERO : Bool) (C : Int) (K : Int) (LDA : Int) (LDB : Int) (LDC : Int) (M : Int) (J : Int) :
    CntLe (hgemmhz_80_J A ALPHA B BETA BZERO C K LDA LDB LDC M J : Prog F _) (M.toNat * (K.toNat * 16 + 8)) (M.toNat * 4) := by
  unfold hgemmhz_80_J
  exact CntLe.bindL (CntLe.forN fun _ _ => le_hgemmhz_80_I ..) (fun _ => .ret)

theorem le_hgemmhz_110_L (A : Int) (B : Int) (I : Int) (J : Int) (LDA : Int) (LDB : Int) (L : Int) (HTMP1J : Cplx F) (HTMP1S : Cplx F) : CntLe (hgemmhz_110_L A B I J LDA LDB L HTMP1J HTMP1S : Prog F _) 16 0 := by
  unfold hgemmhz_110_L
  le_line

theorem le_hgemmhz_100_I (A : Int) (ALPHA : Quat F) (B : Int) (BETA : Cplx F) (BZERO : Bool) (C : Int) (J : Int) (K : Int) (LDA : Int) (LDB : Int) (LDC : Int) (I : Int) :
    CntLe (hgemmhz_100_I A ALPHA B BETA BZERO C J K LDA LDB LDC I : Prog F _) (K.toNat * 16 + 8) (4) := by
  unfold hgemmhz_100_I
  try dsimp only
  refine CntLe.mono (CntLe.bind (CntLe.fold_const fun _ _ _ => le_hgemmhz_110_L ..) (fun _ => (?_ : CntLe _ 8 4))) (by omega) (by omega)
  cases BZERO <;> le_line

theorem le_hgemmhz_100_J (A : Int) (ALPHA : Quat F) (B : Int) (BETA : Cplx F) (BZERO : Bool) (C : Int) (K : Int) (LDA : Int) (LDB : Int) (LDC : Int) (M : Int) (J : Int) :
    CntLe (hgemmhz_100_J A ALPHA B BETA BZERO C K LDA LDB LDC M J : Prog F _) (M.toNat * (K.toNat * 16 + 8)) (M.toNat * 4) := by
  unfold hgemmhz_100_J
  exact CntLe.bindL (CntLe.forN fun _ _ => le_hgemmhz_100_I ..) (fun _ => .ret)

theorem le_hgemmhz_if65 (A : Int) (ALPHA : Quat F) (B : Int) (BETA : Cplx F) (BONE : Bool) (BZERO : Bool) (C : Int) (CONJA : Bool) (K : Int) (LDA : Int) (LDB : Int) (LDC : Int) (M : Int) (N : Int) (NOTA : Bool) :
    CntLe (hgemmhz_if65 A ALPHA B BETA BONE BZERO C CONJA K LDA LDB LDC M N NOTA : Prog F _) (N.toNat * (M.toNat * 8 + K.toNat * (M.toNat * 20 + 16))) (N.toNat * (M.toNat * 4 + K.toNat * (M.toNat * 4))) := by
  unfold hgemmhz_if65
  refine CntLe.ite (fun _ => ?_) (fun _ => CntLe.ite (fun _ => ?_) (fun _ => ?_))
  · exact CntLe.bindL (CntLe.forN fun _ _ => le_hgemmhz_30_J ..) (fun _ => .ret)
  · exact CntLe.mono (CntLe.bindL (CntLe.forN fun _ _ => le_hgemmhz_80_J ..) (fun _ => .ret)) (gemm_le3 ..) (gemm_le2 ..)
  · exact CntLe.mono (CntLe.bindL (CntLe.forN fun _ _ => le_hgemmhz_100_J ..) (fun _ => .ret)) (gemm_le3 ..) (gemm_le2 ..)

theorem le_hgemmhz_130_I (C : Int) (J : Int) (LDC : Int) (I : Int) : CntLe (hgemmhz_130_I C J LDC I : Prog F _) 8 4 := by
  unfold hgemmhz_130_I
  le_line

theorem le_hgemmhz_140_I (BETA : Cplx F) (C : Int) (J : Int) (LDC : Int) (I : Int) : CntLe (hgemmhz_140_I BETA C J LDC I : Prog F _) 8 4 := by
  unfold hgemmhz_140_I
  le_line

theorem le_hgemmhz_if162 (BETA : Cplx F) (BONE : Bool) (BZERO : Bool) (C : Int) (J : Int) (LDC : Int) (M : Int) :
    CntLe (hgemmhz_if162 BETA BONE BZERO C J LDC M : Prog F _) (M.toNat * 8) (M.toNat * 4) := by
  unfold hgemmhz_if162
  refine CntLe.ite (fun _ => ?_) (fun _ => CntLe.ite (fun _ => ?_) (fun _ => .ret))
  · exact CntLe.bindL (CntLe.forN fun _ _ => le_hgemmhz_130_I ..) (fun _ => .ret)
  · exact CntLe.bindL (CntLe.forN fun _ _ => le_hgemmhz_140_I ..) (fun _ => .ret)

theorem le_hgemmhz_160_I (A : Int) (C : Int) (HTMP1J : Cplx F) (HTMP1S : Cplx F) (HTMP2J : Cplx F) (HTMP2S : Cplx F) (HTMP3J : Cplx F) (HTMP3S : Cplx F) (HTMP4J : Cplx F) (HTMP4S : Cplx F) (J : Int) (L : Int) (LDA : Int) (LDC : Int) (I : Int) : CntLe (hgemmhz_160_I A C HTMP1J HTMP1S HTMP2J HTMP2S HTMP3J HTMP3S HTMP4J HTMP4S J L LDA LDC I : Prog F _) 20 4 := by
  unfold hgemmhz_160_I
  le_line

theorem le_hgemmhz_150_L (A : Int) (ALPHA : Quat F) (B : Int) (C : Int) (J : Int) (LDA : Int) (LDB : Int) (LDC : Int) (M : Int) (L : Int) :
    CntLe (hgemmhz_150_L A ALPHA B C J LDA LDB LDC M L : Prog F _) (M.toNat * 20 + 16) (M.toNat * 4) := by
  unfold hgemmhz_150_L
  try dsimp only
  repeat (first | refine le_rdC_bind fun _ => ?_ | refine .rd fun _ => ?_)
  exact CntLe.mono (CntLe.bindL (CntLe.forN fun _ _ => le_hgemmhz_160_I ..) (fun _ => .ret)) (by omega) (by omega)

theorem le_hgemmhz_120_J (A : Int) (ALPHA : Quat F) (B : Int) (BETA : Cplx F) (BONE : Bool) (BZERO : Bool) (C : Int) (K : Int) (LDA : Int) (LDB : Int) (LDC : Int) (M : Int) (J : Int) :
    CntLe (hgemmhz_120_J A ALPHA B BETA BONE BZERO C K LDA LDB LDC M J : Prog F _) (M.toNat * 8 + K.toNat * (M.toNat * 20 + 16)) (M.toNat * 4 + K.toNat * (M.toNat * 4)) := by
  unfold hgemmhz_120_J
  exact CntLe.bind (le_hgemmhz_if162 ..) fun _ => CntLe.bindL (CntLe.forN fun _ _ => le_hgemmhz_150_L ..) (fun _ => .ret)

theorem le_hgemmhz_180_I (C : Int) (J : Int) (LDC : Int) (I : Int) : CntLe (hgemmhz_180_I C J LDC I : Prog F _) 8 4 := by
  unfold hgemmhz_180_I
  le_line

theorem le_hgemmhz_190_I (BETA : Cplx F) (C : Int) (J : Int) (LDC : Int) (I : Int) : CntLe (hgemmhz_190_I BETA C J LDC I : Prog F _) 8 4 := by
  unfold hgemmhz_190_I
  le_line

theorem le_hgemmhz_if200 (BETA : Cplx F) (BONE : Bool) (BZERO : Bool) (C : Int) (J : Int) (LDC : Int) (M : Int) :
    CntLe (hgemmhz_if200 BETA BONE BZERO C J LDC M : Prog F _) (M.toNat * 8) (M.toNat * 4) := by
  unfold hgemmhz_if200
  refine CntLe.ite (fun _ => ?_) (fun _ => CntLe.ite (fun _ => ?_) (fun _ => .ret))
  · exact CntLe.bindL (CntLe.forN fun _ _ => le_hgemmhz_180_I ..) (fun _ => .ret)
  · exact CntLe.bindL (CntLe.forN fun _ _ => le_hgemmhz_190_I ..) (fun _ => .ret)

theorem le_hgemmhz_210_I (A : Int) (C : Int) (HTMP1J : Cplx F) (HTMP1S : Cplx F) (HTMP2J : Cplx F) (HTMP2S : Cplx F) (HTMP3J : Cplx F) (HTMP3S : Cplx F) (HTMP4J : Cplx F) (HTMP4S : Cplx F) (J : Int) (L : Int) (LDA : Int) (LDC : Int) (I : Int) : CntLe (hgemmhz_210_I A C HTMP1J HTMP1S HTMP2J HTMP2S HTMP3J HTMP3S HTMP4J HTMP4S J L LDA LDC I : Prog F _) 20 4 := by
  unfold hgemmhz_210_I
  le_line

theorem le_hgemmhz_200_L (A : Int) (ALPHA : Quat F) (B : Int) (C : Int) (J : Int) (LDA : Int) (LDB : Int) (LDC : Int) (M : Int) (L : Int) :
    CntLe (hgemmhz_200_L A ALPHA B C J LDA LDB LDC M L : Prog F _) (M.toNat * 20 + 16) (M.toNat * 4) := by
  unfold hgemmhz_200_L
  try dsimp only
  repeat (first | refine le_rdC_bind fun _ => ?_ | refine .rd fun _ => ?_)
  exact CntLe.mono (CntLe.bindL (CntLe.forN fun _ _ => le_hgemmhz_210_I ..) (fun _ => .ret)) (by omega) (by omega)

theorem le_hgemmhz_170_J (A : Int) (ALPHA : Quat F) (B : Int) (BETA : Cplx F) (BONE : Bool) (BZERO : Bool) (C : Int) (K : Int) (LDA : Int) (LDB : Int) (LDC : Int) (M : Int) (J : Int) :
    CntLe (hgemmhz_170_J A ALPHA B BETA BONE BZERO C K LDA LDB LDC M J : Prog F _) (M.toNat * 8 + K.toNat * (M.toNat * 20 + 16)) (M.toNat * 4 + K.toNat * (M.toNat * 4)) := by
  unfold hgemmhz_170_J
  exact CntLe.bind (le_hgemmhz_if200 ..) fun _ => CntLe.bindL (CntLe.forN fun _ _ => le_hgemmhz_200_L ..) (fun _ => .ret)

theorem le_hgemmhz_if157 (A : Int) (ALPHA : Quat F) (B : Int) (BETA : Cplx F) (BONE : Bool) (BZERO : Bool) (C : Int) (CONJB : Bool) (K : Int) (LDA : Int) (LDB : Int) (LDC : Int) (M : Int) (N : Int) :
    CntLe (hgemmhz_if157 A ALPHA B BETA BONE BZERO C CONJB K LDA LDB LDC M N : Prog F _) (N.toNat * (M.toNat * 8 + K.toNat * (M.toNat * 20 + 16))) (N.toNat * (M.toNat * 4 + K.toNat * (M.toNat * 4))) := by
  unfold hgemmhz_if157
  refine CntLe.ite (fun _ => ?_) (fun _ => ?_)
  · exact CntLe.bindL (CntLe.forN fun _ _ => le_hgemmhz_120_J ..) (fun _ => .ret)
  · exact CntLe.bindL (CntLe.forN fun _ _ => le_hgemmhz_170_J ..) (fun _ => .ret)

theorem le_hgemmhz_230_L (A : Int) (B : Int) (I : Int) (J : Int) (LDA : Int) (LDB : Int) (L : Int) (HTMP1J : Cplx F) (HTMP1S : Cplx F) : CntLe (hgemmhz_230_L A B I J LDA LDB L HTMP1J HTMP1S : Prog F _) 16 0 := by
  unfold hgemmhz_230_L
  le_line

theorem le_hgemmhz_220_I (A : Int) (ALPHA : Quat F) (B : Int) (BETA : Cplx F) (BZERO : Bool) (C : Int) (J : Int) (K : Int) (LDA : Int) (LDB : Int) (LDC : Int) (I : Int) :
    CntLe (hgemmhz_220_I A ALPHA B BETA BZERO C J K LDA LDB LDC I : Prog F _) (K.toNat * 16 + 8) (4) := by
  unfold hgemmhz_220_I
  try dsimp only
  refine CntLe.mono (CntLe.bind (CntLe.fold_const fun _ _ _ => le_hgemmhz_230_L ..) (fun _ => (?_ : CntLe _ 8 4))) (by omega) (by omega)
  cases BZERO <;> le_line

theorem le_hgemmhz_220_J (A : Int) (ALPHA : Quat F) (B : Int) (BETA : Cplx F) (BZERO : Bool) (C : Int) (K : Int) (LDA : Int) (LDB : Int) (LDC : Int) (M : Int) (J : Int) :
    CntLe (hgemmhz_220_J A ALPHA B BETA BZERO C K LDA LDB LDC M J : Prog F _) (M.toNat * (K.toNat * 16 + 8)) (M.toNat * 4) := by
  unfold hgemmhz_220_J
  exact CntLe.bindL (CntLe.forN fun _ _ => le_hgemmhz_220_I ..) (fun _ => .ret)

theorem le_hgemmhz_250_L (A : Int) (B : Int) (I : Int) (J : Int) (LDA : Int) (LDB : Int) (L : Int) (HTMP1J : Cplx F) (HTMP1S : Cplx F) : CntLe (hgemmhz_250_L A B I J LDA LDB L HTMP1J HTMP1S : Prog F _) 16 0 := by
  unfold hgemmhz_250_L
  le_line

theorem le_hgemmhz_240_I (A : Int) (ALPHA : Quat F) (B : Int) (BETA : Cplx F) (BZERO : Bool) (C : Int) (J : Int) (K : Int) (LDA : Int) (LDB : Int) (LDC : Int) (I : Int) :
    CntLe (hgemmhz_240_I A ALPHA B BETA BZERO C J K LDA LDB LDC I : Prog F _) (K.toNat * 16 + 8) (4) := by
  unfold hgemmhz_240_I
  try dsimp only
  refine CntLe.mono (CntLe.bind (CntLe.fold_const fun _ _ _ => le_hgemmhz_250_L ..) (fun _ => (?_ : CntLe _ 8 4))) (by omega) (by omega)
  cases BZERO <;> le_line

theorem le_hgemmhz_240_J (A : Int) (ALPHA : Quat F) (B : Int) (BETA : Cplx F) (BZERO : Bool) (C : Int) (K : Int) (LDA : Int) (LDB : Int) (LDC : Int) (M : Int) (J : Int) :
    CntLe (hgemmhz_240_J A ALPHA B BETA BZERO C K LDA LDB LDC M J : Prog F _) (M.toNat * (K.toNat * 16 + 8)) (M.toNat * 4) := by
  unfold hgemmhz_240_J
  exact CntLe.bindL (CntLe.forN fun _ _ => le_hgemmhz_240_I ..) (fun _ => .ret)

theorem le_hgemmhz_if234 (A : Int) (ALPHA : Quat F) (B : Int) (BETA : Cplx F) (BZERO : Bool) (C : Int) (CONJB : Bool) (K : Int) (LDA : Int) (LDB : Int) (LDC : Int) (M : Int) (N : Int) :
    CntLe (hgemmhz_if234 A ALPHA B BETA BZERO C CONJB K LDA LDB LDC M N : Prog F _) (N.toNat * (M.toNat * 8 + K.toNat * (M.toNat * 20 + 16))) (N.toNat * (M.toNat * 4 + K.toNat * (M.toNat * 4))) := by
  unfold hgemmhz_if234
  refine CntLe.ite (fun _ => ?_) (fun _ => ?_)
  · exact CntLe.mono (CntLe.bindL (CntLe.forN fun _ _ => le_hgemmhz_220_J ..) (fun _ => .ret)) (gemm_le3 ..) (gemm_le2 ..)
  · exact CntLe.mono (CntLe.bindL (CntLe.forN fun _ _ => le_hgemmhz_240_J ..) (fun _ => .ret)) (gemm_le3 ..) (gemm_le2 ..)

theorem le_hgemmhz_270_L (A : Int) (B : Int) (I : Int) (J : Int) (LDA : Int) (LDB : Int) (L : Int) (HTMP1J : Cplx F) (HTMP1S : Cplx F) : CntLe (hgemmhz_270_L A B I J LDA LDB L HTMP1J HTMP1S : Prog F _) 16 0 := by
  unfold hgemmhz_270_L
  le_line

theorem le_hgemmhz_260_I (A : Int) (ALPHA : Quat F) (B : Int) (BETA : Cplx F) (BZERO : Bool) (C : Int) (J : Int) (K : Int) (LDA : Int) (LDB : Int) (LDC : Int) (I : Int) :
    CntLe (hgemmhz_260_I A ALPHA B BETA BZERO C J K LDA LDB LDC I : Prog F _) (K.toNat * 16 + 8) (4) := by
  unfold hgemmhz_260_I
  try dsimp only
  refine CntLe.mono (CntLe.bind (CntLe.fold_const fun _ _ _ => le_hgemmhz_270_L ..) (fun _ => (?_ : CntLe _ 8 4))) (by omega) (by omega)
  cases BZERO <;> le_line

theorem le_hgemmhz_260_J (A : Int) (ALPHA : Quat F) (B : Int) (BETA : Cplx F) (BZERO : Bool) (C : Int) (K : Int) (LDA : Int) (LDB : Int) (LDC : Int) (M : Int) (J : Int) :
    CntLe (hgemmhz_260_J A ALPHA B BETA BZERO C K LDA LDB LDC M J : Prog F _) (M.toNat * (K.toNat * 16 + 8)) (M.toNat * 4) := by
  unfold hgemmhz_260_J
  exact CntLe.bindL (CntLe.forN fun _ _ => le_hgemmhz_260_I ..) (fun _ => .ret)

theorem le_hgemmhz_290_L (A : Int) (B : Int) (I : Int) (J : Int) (LDA : Int) (LDB : Int) (L : Int) (HTMP1J : Cplx F) (HTMP1S : Cplx F) : CntLe (hgemmhz_290_L A B I J LDA LDB L HTMP1J HTMP1S : Prog F _) 16 0 := by
  unfold hgemmhz_290_L
  le_line

theorem le_hgemmhz_280_I (A : Int) (ALPHA : Quat F) (B : Int) (BETA : Cplx F) (BZERO : Bool) (C : Int) (J : Int) (K : Int) (LDA : Int) (LDB : Int) (LDC : Int) (I : Int) :
    CntLe (hgemmhz_280_I A ALPHA B BETA BZERO C J K LDA LDB LDC I : Prog F _) (K.toNat * 16 + 8) (4) := by
  unfold hgemmhz_280_I
  try dsimp only
  refine CntLe.mono (CntLe.bind (CntLe.fold_const fun _ _ _ => le_hgemmhz_290_L ..) (fun _ => (?_ : CntLe _ 8 4))) (by omega) (by omega)
  cases BZERO <;> le_line

theorem le_hgemmhz_280_J (A : Int) (ALPHA : Quat F) (B : Int) (BETA : Cplx F) (BZERO : Bool) (C : Int) (K : Int) (LDA : Int) (LDB : Int) (LDC : Int) (M : Int) (J : Int) :
    CntLe (hgemmhz_280_J A ALPHA B BETA BZERO C K LDA LDB LDC M J : Prog F _) (M.toNat * (K.toNat * 16 + 8)) (M.toNat * 4) := by
  unfold hgemmhz_280_J
  exact CntLe.bindL (CntLe.forN fun _ _ => le_hgemmhz_280_I ..) (fun _ => .ret)

theorem le_hgemmhz_if291 (A : Int) (ALPHA : Quat F) (B : Int) (BETA : Cplx F) (BZERO : Bool) (C : Int) (CONJB : Bool) (K : Int) (LDA : Int) (LDB : Int) (LDC : Int) (M : Int) (N : Int) :
    CntLe (hgemmhz_if291 A ALPHA B BETA BZERO C CONJB K LDA LDB LDC M N : Prog F _) (N.toNat * (M.toNat * 8 + K.toNat * (M.toNat * 20 + 16))) (N.toNat * (M.toNat * 4 + K.toNat * (M.toNat * 4))) := by
  unfold hgemmhz_if291
  refine CntLe.ite (fun _ => ?_) (fun _ => ?_)
  · exact CntLe.mono (CntLe.bindL (CntLe.forN fun _ _ => le_hgemmhz_260_J ..) (fun _ => .ret)) (gemm_le3 ..) (gemm_le2 ..)
  · exact CntLe.mono (CntLe.bindL (CntLe.forN fun _ _ => le_hgemmhz_280_J ..) (fun _ => .ret)) (gemm_le3 ..) (gemm_le2 ..)

theorem le_hgemmhz_if64 (A : Int) (ALPHA : Quat F) (B : Int) (BETA : Cplx F) (BONE : Bool) (BZERO : Bool) (C : Int) (CONJA : Bool) (CONJB : Bool) (K : Int) (LDA : Int) (LDB : Int) (LDC : Int) (M : Int) (N : Int) (NOTA : Bool) (NOTB : Bool) :
    CntLe (hgemmhz_if64 A ALPHA B BETA BONE BZERO C CONJA CONJB K LDA LDB LDC M N NOTA NOTB : Prog F _) (N.toNat * (M.toNat * 8 + K.toNat * (M.toNat * 20 + 16))) (N.toNat * (M.toNat * 4 + K.toNat * (M.toNat * 4))) := by
  unfold hgemmhz_if64
  refine CntLe.ite (fun _ => ?_) (fun _ => CntLe.ite (fun _ => ?_) (fun _ => CntLe.ite (fun _ => ?_) (fun _ => ?_)))
  · exact CntLe.bindL (le_hgemmhz_if65 ..) (fun _ => .ret)
  · exact CntLe.bindL (le_hgemmhz_if157 ..) (fun _ => .ret)
  · exact CntLe.bindL (le_hgemmhz_if234 ..) (fun _ => .ret)
  · exact CntLe.bindL (le_hgemmhz_if291 ..) (fun _ => .ret)

theorem le_hgemmhz (TRANSA : Char) (TRANSB : Char) (M : Int) (N : Int) (K : Int) (ALPHA : Quat F) (A : Int) (LDA : Int) (B : Int) (LDB : Int) (BETA : Cplx F) (C : Int) (LDC : Int) :
    CntLe (hgemmhz TRANSA TRANSB M N K ALPHA A LDA B LDB BETA C LDC : Prog F _) (N.toNat * (M.toNat * 8 + K.toNat * (M.toNat * 20 + 16))) (N.toNat * (M.toNat * 4 + K.toNat * (M.toNat * 4))) := by
  unfold hgemmhz
  try dsimp only
  refine CntLe.ite (fun _ => .ret) fun _ => CntLe.ite (fun _ => .ret) fun _ => CntLe.ite (fun _ => ?_) (fun _ => ?_)
  · exact CntLe.mono (CntLe.bindL (le_hgemmhz_if48 ..) (fun _ => .ret)) (gemm_le1 ..) (gemm_le2 ..)
  · exact CntLe.bindL (le_hgemmhz_if64 ..) (fun _ => .ret)

theorem le_hgemmhh_10_I (C : Int) (J : Int) (LDC : Int) (I : Int) : CntLe (hgemmhh_10_I C J LDC I : Prog F _) 8 4 := by
  unfold hgemmhh_10_I
  le_line

theorem le_hgemmhh_10_J (C : Int) (LDC : Int) (M : Int) (J : Int) :
    CntLe (hgemmhh_10_J C LDC M J : Prog F _) (M.toNat * 8) (M.toNat * 4) := by
  unfold hgemmhh_10_J
  exact CntLe.bindL (CntLe.forN fun _ _ => le_hgemmhh_10_I ..) (fun _ => .ret)

theorem le_hgemmhh_20_I (BETA : Quat F) (C : Int) (J : Int) (LDC : Int) (I : Int) : CntLe (hgemmhh_20_I BETA C J LDC I : Prog F _) 8 4 := by
  unfold hgemmhh_20_I
  le_line

theorem le_hgemmhh_20_J (BETA : Quat F) (C : Int) (LDC : Int) (M : Int) (J : Int) :
    CntLe (hgemmhh_20_J BETA C LDC M J : Prog F _) (M.toNat * 8) (M.toNat * 4) := by
  unfold hgemmhh_20_J
  exact CntLe.bindL (CntLe.forN fun _ _ => le_hgemmhh_20_I ..) (fun _ => .ret)

theorem le_hgemmhh_if49 (BETA : Quat F) (BZERO : Bool) (C : Int) (LDC : Int) (M : Int) (N : Int) :
    CntLe (hgemmhh_if49 BETA BZERO C LDC M N : Prog F _) (N.toNat * (M.toNat * 8)) (N.toNat * (M.toNat * 4)) := by
  unfold hgemmhh_if49
  refine CntLe.ite (fun _ => ?_) (fun _ => ?_)
  · exact CntLe.bindL (CntLe.forN fun _ _ => le_hgemmhh_10_J ..) (fun _ => .ret)
  · exact CntLe.bindL (CntLe.forN fun _ _ => le_hgemmhh_20_J ..) (fun _ => .ret)

theorem le_hgemmhh_40_I (C : Int) (J : Int) (LDC : Int) (I : Int) : CntLe (hgemmhh_40_I C J LDC I : Prog F _) 8 4 := by
  unfold hgemmhh_40_I
  le_line

theorem le_hgemmhh_50_I (BETA : Quat F) (C : Int) (J : Int) (LDC : Int) (I : Int) : CntLe (hgemmhh_50_I BETA C J LDC I : Prog F _) 8 4 := by
  unfold hgemmhh_50_I
  le_line

theorem le_hgemmhh_if72 (BETA : Quat F) (BONE : Bool) (BZERO : Bool) (C : Int) (J : Int) (LDC : Int) (M : Int) :
    CntLe (hgemmhh_if72 BETA BONE BZERO C J LDC M : Prog F _) (M.toNat * 8) (M.toNat * 4) := by
  unfold hgemmhh_if72
  refine CntLe.ite (fun _ => ?_) (fun _ => CntLe.ite (fun _ => ?_) (fun _ => .ret))
  · exact CntLe.bindL (CntLe.forN fun _ _ => le_hgemmhh_40_I ..) (fun _ => .ret)
  · exact CntLe.bindL (CntLe.forN fun _ _ => le_hgemmhh_50_I ..) (fun _ => .ret)

theorem le_hgemmhh_70_I (A : Int) (C : Int) (HTMP1J : Cplx F) (HTMP1S : Cplx F) (HTMP2J : Cplx F) (HTMP2S : Cplx F) (HTMP3J : Cplx F) (HTMP3S : Cplx F) (HTMP4J : Cplx F) (HTMP4S : Cplx F) (J : Int) (L : Int) (LDA : Int) (LDC : Int) (I : Int) : CntLe (hgemmhh_70_I A C HTMP1J HTMP1S HTMP2J HTMP2S HTMP3J HTMP3S HTMP4J HTMP4S J L LDA LDC I : Prog F _) 20 4 := by
  unfold hgemmhh_70_I
  le_line

theorem le_hgemmhh_60_L (A : Int) (ALPHA : Quat F) (B : Int) (C : Int) (J : Int) (LDA : Int) (LDB : Int) (LDC : Int) (M : Int) (L : Int) :
    CntLe (hgemmhh_60_L A ALPHA B C J LDA LDB LDC M L : Prog F _) (M.toNat * 20 + 16) (M.toNat * 4) := by
  unfold hgemmhh_60_L
  try dsimp only
  repeat (first | refine le_rdC_bind fun _ => ?_ | refine .rd fun _ => ?_)
  exact CntLe.mono (CntLe.bindL (CntLe.forN fun _ _ => le_hgemmhh_70_I ..) (fun _ => .ret)) (by omega) (by omega)

theorem le_hgemmhh_30_J (A : Int) (ALPHA : Quat F) (B : Int) (BETA : Quat F) (BONE : Bool) (BZERO : Bool) (C : Int) (K : Int) (LDA : Int) (LDB : Int) (LDC : Int) (M : Int) (J : Int) :
    CntLe (hgemmhh_30_J A ALPHA B BETA BONE BZERO C K LDA LDB LDC M J : Prog F _) (M.toNat * 8 + K.toNat * (M.toNat * 20 + 16)) (M.toNat * 4 + K.toNat * (M.toNat * 4)) := by
  unfold hgemmhh_30_J
  exact CntLe.bind (le_hgemmhh_if72 ..) fun _ => CntLe.bindL (CntLe.forN fun _ _ => le_hgemmhh_60_L ..) (fun _ => .ret)

theorem le_hgemmhh_90_L (A : Int) (B : Int) (I : Int) (J : Int) (LDA : Int) (LDB : Int) (L : Int) (HTMP1J : Cplx F) (HTMP1S : Cplx F) : CntLe (hgemmhh_90_L A B I J LDA LDB L HTMP1J HTMP1S : Prog F _) 16 0 := by
  unfold hgemmhh_90_L
  le_line

theorem le_hgemmhh_80_I (A : Int) (ALPHA : Quat F) (B : Int) (BETA : Quat F) (BZERO : Bool) (C : Int) (J : Int) (K : Int) (LDA : Int) (LDB : Int) (LDC : Int) (I : Int) :
    CntLe (hgemmhh_80_I A ALPHA B BETA BZERO C J K LDA LDB LDC I : Prog F _) (K.toNat * 16 + 8) (4) := by
  unfold hgemmhh_80_I
  try dsimp only
  refine CntLe.mono (CntLe.bind (CntLe.fold_const fun _ _ _ => le_hgemmhh_90_L ..) (fun _ => (?_ : CntLe _ 8 4))) (by omega) (by omega)
  cases BZERO <;> le_line

theorem le_hgemmhh_80_J (A : Int) (ALPHA : Quat F) (B : Int) (BETA : Quat F) (BZERO : Bool) (C : Int) (K : Int) (LDA : Int) (LDB : Int) (LDC : Int) (M : Int) (J : Int) :
    CntLe (hgemmhh_80_J A ALPHA B BETA BZERO C K LDA LDB LDC M J : Prog F _) (M.toNat * (K.toNat * 16 + 8)) (M.toNat * 4) := by
  unfold hgemmhh_80_J
  exact CntLe.bindL (CntLe.forN fun _ _ => le_hgemmhh_80_I ..) (fun _ => .ret)

theorem le_hgemmhh_110_L (A : Int) (B : Int) (I : Int) (J : Int) (LDA : Int) (LDB : Int) (L : Int) (HTMP1J : Cplx F) (HTMP1S : Cplx F) : CntLe (hgemmhh_110_L A B I J LDA LDB L HTMP1J HTMP1S : Prog F _) 16 0 := by
  unfold hgemmhh_110_L
  le_line

theorem le_hgemmhh_100_I (A : Int) (ALPHA : Quat F) (B : Int) (BETA : Quat F) (BZERO : Bool) (C : Int) (J : Int) (K : Int) (LDA : Int) (LDB : Int) (LDC : Int) (I : Int) :
    CntLe (hgemmhh_100_I A ALPHA B BETA BZERO C J K LDA LDB LDC I : Prog F _) (K.toNat * 16 + 8) (4) := by
  unfold hgemmhh_100_I
  try dsimp only
  refine CntLe.mono (CntLe.bind (CntLe.fold_const fun _ _ _ => le_hgemmhh_110_L ..) (fun _ => (?_ : CntLe _ 8 4))) (by omega) (by omega)
  cases BZERO <;> le_line

theorem le_hgemmhh_100_J (A : Int) (ALPHA : Quat F) (B : Int) (BETA : Quat F) (BZERO : Bool) (C : Int) (K : Int) (LDA : Int) (LDB : Int) (LDC : Int) (M : Int) (J : Int) :
    CntLe (hgemmhh_100_J A ALPHA B BETA BZERO C K LDA LDB LDC M J : Prog F _) (M.toNat * (K.toNat * 16 + 8)) (M.toNat * 4) := by
  unfold hgemmhh_100_J
  exact CntLe.bindL (CntLe.forN fun _ _ => le_hgemmhh_100_I ..) (fun _ => .ret)

theorem le_hgemmhh_if67 (A : Int) (ALPHA : Quat F) (B : Int) (BETA : Quat F) (BONE : Bool) (BZERO : Bool) (C : Int) (CONJA : Bool) (K : Int) (LDA : Int) (LDB : Int) (LDC : Int) (M : Int) (N : Int) (NOTA : Bool) :
    CntLe (hgemmhh_if67 A ALPHA B BETA BONE BZERO C CONJA K LDA LDB LDC M N NOTA : Prog F _) (N.toNat * (M.toNat * 8 + K.toNat * (M.toNat * 20 + 16))) (N.toNat * (M.toNat * 4 + K.toNat * (M.toNat * 4))) := by
  unfold hgemmhh_if67
  refine CntLe.ite (fun _ => ?_) (fun _ => CntLe.ite (fun _ => ?_) (fun _ => ?_))
  · exact CntLe.bindL (CntLe.forN fun _ _ => le_hgemmhh_30_J ..) (fun _ => .ret)
  · exact CntLe.mono (CntLe.bindL (CntLe.forN fun _ _ => le_hgemmhh_80_J ..) (fun _ => .ret)) (gemm_le3 ..) (gemm_le2 ..)
  · exact CntLe.mono (CntLe.bindL (CntLe.forN fun _ _ => le_hgemmhh_100_J ..) (fun _ => .ret)) (gemm_le3 ..) (gemm_le2 ..)

theorem le_hgemmhh_130_I (C : Int) (J : Int) (LDC : Int) (I : Int) : CntLe (hgemmhh_130_I C J LDC I : Prog F _) 8 4 := by
  unfold hgemmhh_130_I
  le_line

theorem le_hgemmhh_140_I (BETA : Quat F) (C : Int) (J : Int) (LDC : Int) (I : Int) : CntLe (hgemmhh_140_I BETA C J LDC I : Prog F _) 8 4 := by
  unfold hgemmhh_140_I
  le_line

theorem le_hgemmhh_if171 (BETA : Quat F) (BONE : Bool) (BZERO : Bool) (C : Int) (J : Int) (LDC : Int) (M : Int) :
    CntLe (hgemmhh_if171 BETA BONE BZERO C J LDC M : Prog F _) (M.toNat * 8) (M.toNat * 4) := by
  unfold hgemmhh_if171
  refine CntLe.ite (fun _ => ?_) (fun _ => CntLe.ite (fun _ => ?_) (fun _ => .ret))
  · exact CntLe.bindL (CntLe.forN fun _ _ => le_hgemmhh_130_I ..) (fun _ => .ret)
  · exact CntLe.bindL (CntLe.forN fun _ _ => le_hgemmhh_140_I ..) (fun _ => .ret)

theorem le_hgemmhh_160_I (A : Int) (C : Int) (HTMP1J : Cplx F) (HTMP1S : Cplx F) (HTMP2J : Cplx F) (HTMP2S : Cplx F) (HTMP3J : Cplx F) (HTMP3S : Cplx F) (HTMP4J : Cplx F) (HTMP4S : Cplx F) (J : Int) (L : Int) (LDA : Int) (LDC : Int) (I : Int) : CntLe (hgemmhh_160_I A C HTMP1J HTMP1S HTMP2J HTMP2S HTMP3J HTMP3S HTMP4J HTMP4S J L LDA LDC I : Prog F _) 20 4 := by
  unfold hgemmhh_160_I
  le_line

theorem le_hgemmhh_150_L (A : Int) (ALPHA : Quat F) (B : Int) (C : Int) (J : Int) (LDA : Int) (LDB : Int) (LDC : Int) (M : Int) (L : Int) :
    CntLe (hgemmhh_150_L A ALPHA B C J LDA LDB LDC M L : Prog F _) (M.toNat * 20 + 16) (M.toNat * 4) := by
  unfold hgemmhh_150_L
  try dsimp only
  repeat (first | refine le_rdC_bind fun _ => ?_ | refine .rd fun _ => ?_)
  exact CntLe.mono (CntLe.bindL (CntLe.forN fun _ _ => le_hgemmhh_160_I ..) (fun _ => .ret)) (by omega) (by omega)

theorem le_hgemmhh_120_J (A : Int) (ALPHA : Quat F) (B : Int) (BETA : Quat F) (BONE : Bool) (BZERO : Bool) (C : Int) (K : Int) (LDA : Int) (LDB : Int) (LDC : Int) (M : Int) (J : Int) :
    CntLe (hgemmhh_120_J A ALPHA B BETA BONE BZERO C K LDA LDB LDC M J : Prog F _) (M.toNat * 8 + K.toNat * (M.toNat * 20 + 16)) (M.toNat * 4 + K.toNat * (M.toNat * 4)) := by
  unfold hgemmhh_120_J
  exact CntLe.bind (le_hgemmhh_if171 ..) fun _ => CntLe.bindL (CntLe.forN fun _ _ => le_hgemmhh_150_L ..) (fun _ => .ret)

theorem le_hgemmhh_180_I (C : Int) (J : Int) (LDC : Int) (I : Int) : CntLe (hgemmhh_180_I C J LDC I : Prog F _) 8 4 := by
  unfold hgemmhh_180_I
  le_line

theorem le_hgemmhh_190_I (BETA : Quat F) (C : Int) (J : Int) (LDC : Int) (I : Int) : CntLe (hgemmhh_190_I BETA C J LDC I : Prog F _) 8 4 := by
  unfold hgemmhh_190_I
  le_line

theorem le_hgemmhh_if210 (BETA : Quat F) (BONE : Bool) (BZERO : Bool) (C : Int) (J : Int) (LDC : Int) (M : Int) :
    CntLe (hgemmhh_if210 BETA BONE BZERO C J LDC M : Prog F _) (M.toNat * 8) (M.toNat * 4) := by
  unfold hgemmhh_if210
  refine CntLe.ite (fun _ => ?_) (fun _ => CntLe.ite (fun _ => ?_) (fun _ => .ret))
  · exact CntLe.bindL (CntLe.forN fun _ _ => le_hgemmhh_180_I ..) (fun _ => .ret)
  · exact CntLe.bindL (CntLe.forN fun _ _ => le_hgemmhh_190_I ..) (fun _ => .ret)

theorem le_hgemmhh_210_I (A : Int) (C : Int) (HTMP1J : Cplx F) (HTMP1S : Cplx F) (HTMP2J : Cplx F) (HTMP2S : Cplx F) (HTMP3J : Cplx F) (HTMP3S : Cplx F) (HTMP4J : Cplx F) (HTMP4S : Cplx F) (J : Int) (L : Int) (LDA : Int) (LDC : Int) (I : Int) : CntLe (hgemmhh_210_I A C HTMP1J HTMP1S HTMP2J HTMP2S HTMP3J HTMP3S HTMP4J HTMP4S J L LDA LDC I : Prog F _) 20 4 := by
  unfold hgemmhh_210_I
  le_line

theorem le_hgemmhh_200_L (A : Int) (ALPHA : Quat F) (B : Int) (C : Int) (J : Int) (LDA : Int) (LDB : Int) (LDC : Int) (M : Int) (L : Int) :
    CntLe (hgemmhh_200_L A ALPHA B C J LDA LDB LDC M L : Prog F _) (M.toNat * 20 + 16) (M.toNat * 4) := by
  unfold hgemmhh_200_L
  try dsimp only
  repeat (first | refine le_rdC_bind fun _ => ?_ | refine .rd fun _ => ?_)
  exact CntLe.mono (CntLe.bindL (CntLe.forN fun _ _ => le_hgemmhh_210_I ..) (fun _ => .ret)) (by omega) (by omega)

theorem le_hgemmhh_170_J (A : Int) (ALPHA : Quat F) (B : Int) (BETA : Quat F) (BONE : Bool) (BZERO : Bool) (C : Int) (K : Int) (LDA : Int) (LDB : Int) (LDC : Int) (M : Int) (J : Int) :
    CntLe (hgemmhh_170_J A ALPHA B BETA BONE BZERO C K LDA LDB LDC M J : Prog F _) (M.toNat * 8 + K.toNat * (M.toNat * 20 + 16)) (M.toNat * 4 + K.toNat * (M.toNat * 4)) := by
  unfold hgemmhh_170_J
  exact CntLe.bind (le_hgemmhh_if210 ..) fun _ => CntLe.bindL (CntLe.forN fun _ _ => le_hgemmhh_200_L ..) (fun _ => .ret)

theorem le_hgemmhh_if166 (A : Int) (ALPHA : Quat F) (B : Int) (BETA : Quat F) (BONE : Bool) (BZERO : Bool) (C : Int) (CONJB : Bool) (K : Int) (LDA : Int) (LDB : Int) (LDC : Int) (M : Int) (N : Int) :
    CntLe (hgemmhh_if166 A ALPHA B BETA BONE BZERO C CONJB K LDA LDB LDC M N : Prog F _) (N.toNat * (M.toNat * 8 + K.toNat * (M.toNat * 20 + 16))) (N.toNat * (M.toNat * 4 + K.toNat * (M.toNat * 4))) := by
  unfold hgemmhh_if166
  refine CntLe.ite (fun _ => ?_) (fun _ => ?_)
  · exact CntLe.bindL (CntLe.forN fun _ _ => le_hgemmhh_120_J ..) (fun _ => .ret)
  · exact CntLe.bindL (CntLe.forN fun _ _ => le_hgemmhh_170_J ..) (fun _ => .ret)

theorem le_hgemmhh_230_L (A : Int) (B : Int) (I : Int) (J : Int) (LDA : Int) (LDB : Int) (L : Int) (HTMP1J : Cplx F) (HTMP1S : Cplx F) : CntLe (hgemmhh_230_L A B I J LDA LDB L HTMP1J HTMP1S : Prog F _) 16 0 := by
  unfold hgemmhh_230_L
  le_line

theorem le_hgemmhh_220_I (A : Int) (ALPHA : Quat F) (B : Int) (BETA : Quat F) (BZERO : Bool) (C : Int) (J : Int) (K : Int) (LDA : Int) (LDB : Int) (LDC : Int) (I : Int) :
    CntLe (hgemmhh_220_I A ALPHA B BETA BZERO C J K LDA LDB LDC I : Prog F _) (K.toNat * 16 + 8) (4) := by
  unfold hgemmhh_220_I
  try dsimp only
  refine CntLe.mono (CntLe.bind (CntLe.fold_const fun _ _ _ => le_hgemmhh_230_L ..) (fun _ => (?_ : CntLe _ 8 4))) (by omega) (by omega)
  cases BZERO <;> le_line

theorem le_hgemmhh_220_J (A : Int) (ALPHA : Quat F) (B : Int) (BETA : Quat F) (BZERO : Bool) (C : Int) (K : Int) (LDA : Int) (LDB : Int) (LDC : Int) (M : Int) (J : Int) :
    CntLe (hgemmhh_220_J A ALPHA B BETA BZERO C K LDA LDB LDC M J : Prog F _) (M.toNat * (K.toNat * 16 + 8)) (M.toNat * 4) := by
  unfold hgemmhh_220_J
  exact CntLe.bindL (CntLe.forN fun _ _ => le_hgemmhh_220_I ..) (fun _ => .ret)

theorem le_hgemmhh_250_L (A : Int) (B : Int) (I : Int) (J : Int) (LDA : Int) (LDB : Int) (L : Int) (HTMP1J : Cplx F) (HTMP1S : Cplx F) : CntLe (hgemmhh_250_L A B I J LDA LDB L HTMP1J HTMP1S : Prog F _) 16 0 := by
  unfold hgemmhh_250_L
  le_line

theorem le_hgemmhh_240_I (A : Int) (ALPHA : Quat F) (B : Int) (BETA : Quat F) (BZERO : Bool) (C : Int) (J : Int) (K : Int) (LDA : Int) (LDB : Int) (LDC : Int) (I : Int) :
    CntLe (hgemmhh_240_I A ALPHA B BETA BZERO C J K LDA LDB LDC I : Prog F _) (K.toNat * 16 + 8) (4) := by
  unfold hgemmhh_240_I
  try dsimp only
  refine CntLe.mono (CntLe.bind (CntLe.fold_const fun _ _ _ => le_hgemmhh_250_L ..) (fun _ => (?_ : CntLe _ 8 4))) (by omega) (by omega)
  cases BZERO <;> le_line

theorem le_hgemmhh_240_J (A : Int) (ALPHA : Quat F) (B : Int) (BETA : Quat F) (BZERO : Bool) (C : Int) (K : Int) (LDA : Int) (LDB : Int) (LDC : Int) (M : Int) (J : Int) :
    CntLe (hgemmhh_240_J A ALPHA B BETA BZERO C K LDA LDB LDC M J : Prog F _) (M.toNat * (K.toNat * 16 + 8)) (M.toNat * 4) := by
  unfold hgemmhh_240_J
  exact CntLe.bindL (CntLe.forN fun _ _ => le_hgemmhh_240_I ..) (fun _ => .ret)

theorem le_hgemmhh_if245 (A : Int) (ALPHA : Quat F) (B : Int) (BETA : Quat F) (BZERO : Bool) (C : Int) (CONJB : Bool) (K : Int) (LDA : Int) (LDB : Int) (LDC : Int) (M : Int) (N : Int) :
    CntLe (hgemmhh_if245 A ALPHA B BETA BZERO C CONJB K LDA LDB LDC M N : Prog F _) (N.toNat * (M.toNat * 8 + K.toNat * (M.toNat * 20 + 16))) (N.toNat * (M.toNat * 4 + K.toNat * (M.toNat * 4))) := by
  unfold hgemmhh_if245
  refine CntLe.ite (fun _ => ?_) (fun _ => ?_)
  · exact CntLe.mono (CntLe.bindL (CntLe.forN fun _ _ => le_hgemmhh_220_J ..) (fun _ => .ret)) (gemm_le3 ..) (gemm_le2 ..)
  · exact CntLe.mono (CntLe.bindL (CntLe.forN fun _ _ => le_hgemmhh_240_J ..) (fun _ => .ret)) (gemm_le3 ..) (gemm_le2 ..)

theorem le_hgemmhh_270_L (A : Int) (B : Int) (I : Int) (J : Int) (LDA : Int) (LDB : Int) (L : Int) (HTMP1J : Cplx F) (HTMP1S : Cplx F) : CntLe (hgemmhh_270_L A B I J LDA LDB L HTMP1J HTMP1S : Prog F _) 16 0 := by
  unfold hgemmhh_270_L
  le_line

theorem le_hgemmhh_260_I (A : Int) (ALPHA : Quat F) (B : Int) (BETA : Quat F) (BZERO : Bool) (C : Int) (J : Int) (K : Int) (LDA : Int) (LDB : Int) (LDC : Int) (I : Int) :
    CntLe (hgemmhh_260_I A ALPHA B BETA BZERO C J K LDA LDB LDC I : Prog F _) (K.toNat * 16 + 8) (4) := by
  unfold hgemmhh_260_I
  try dsimp only
  refine CntLe.mono (CntLe.bind (CntLe.fold_const fun _ _ _ => le_hgemmhh_270_L ..) (fun _ => (?_ : CntLe _ 8 4))) (by omega) (by omega)
  cases BZERO <;> le_line

theorem le_hgemmhh_260_J (A : Int) (ALPHA : Quat F) (B : Int) (BETA : Quat F) (BZERO : Bool) (C : Int) (K : Int) (LDA : Int) (LDB : Int) (LDC : Int) (M : Int) (J : Int) :
    CntLe (hgemmhh_260_J A ALPHA B BETA BZERO C K LDA LDB LDC M J : Prog F _) (M.toNat * (K.toNat * 16 + 8)) (M.toNat * 4) := by
  unfold hgemmhh_260_J
  exact CntLe.bindL (CntLe.forN fun _ _ => le_hgemmhh_260_I ..) (fun _ => .ret)

theorem le_hgemmhh_290_L (A : Int) (B : Int) (I : Int) (J : Int) (LDA : Int) (LDB : Int) (L : Int) (HTMP1J : Cplx F) (HTMP1S : Cplx F) : CntLe (hgemmhh_290_L A B I J LDA LDB L HTMP1J HTMP1S : Prog F _) 16 0 := by
  unfold hgemmhh_290_L
  le_line

theorem le_hgemmhh_280_I (A : Int) (ALPHA : Quat F) (B : Int) (BETA : Quat F) (BZERO : Bool) (C : Int) (J : Int) (K : Int) (LDA : Int) (LDB : Int) (LDC : Int) (I : Int) :
    CntLe (hgemmhh_280_I A ALPHA B BETA BZERO C J K LDA LDB LDC I : Prog F _) (K.toNat * 16 + 8) (4) := by
  unfold hgemmhh_280_I
  try dsimp only
  refine CntLe.mono (CntLe.bind (CntLe.fold_const fun _ _ _ => le_hgemmhh_290_L ..) (fun _ => (?_ : CntLe _ 8 4))) (by omega) (by omega)
  cases BZERO <;> le_line

theorem le_hgemmhh_280_J (A : Int) (ALPHA : Quat F) (B : Int) (BETA : Quat F) (BZERO : Bool) (C : Int) (K : Int) (LDA : Int) (LDB : Int) (LDC : Int) (M : Int) (J : Int) :
    CntLe (hgemmhh_280_J A ALPHA B BETA BZERO C K LDA LDB LDC M J : Prog F _) (M.toNat * (K.toNat * 16 + 8)) (M.toNat * 4) := by
  unfold hgemmhh_280_J
  exact CntLe.bindL (CntLe.forN fun _ _ => le_hgemmhh_280_I ..) (fun _ => .ret)

theorem le_hgemmhh_if308 (A : Int) (ALPHA : Quat F) (B : Int) (BETA : Quat F) (BZERO : Bool) (C : Int) (CONJB : Bool) (K : Int) (LDA : Int) (LDB : Int) (LDC : Int) (M : Int) (N : Int) :
    CntLe (hgemmhh_if308 A ALPHA B BETA BZERO C CONJB K LDA LDB LDC M N : Prog F _) (N.toNat * (M.toNat * 8 + K.toNat * (M.toNat * 20 + 16))) (N.toNat * (M.toNat * 4 + K.toNat * (M.toNat * 4))) := by
  unfold hgemmhh_if308
  refine CntLe.ite (fun _ => ?_) (fun _ => ?_)
  · exact CntLe.mono (CntLe.bindL (CntLe.forN fun _ _ => le_hgemmhh_260_J ..) (fun _ => .ret)) (gemm_le3 ..) (gemm_le2 ..)
  · exact CntLe.mono (CntLe.bindL (CntLe.forN fun _ _ => le_hgemmhh_280_J ..) (fun _ => .ret)) (gemm_le3 ..) (gemm_le2 ..)

theorem le_hgemmhh_if66 (A : Int) (ALPHA : Quat F) (B : Int) (BETA : Quat F) (BONE : Bool) (BZERO : Bool) (C : Int) (CONJA : Bool) (CONJB : Bool) (K : Int) (LDA : Int) (LDB : Int) (LDC : Int) (M : Int) (N : Int) (NOTA : Bool) (NOTB : Bool) :
    CntLe (hgemmhh_if66 A ALPHA B BETA BONE BZERO C CONJA CONJB K LDA LDB LDC M N NOTA NOTB : Prog F _) (N.toNat * (M.toNat * 8 + K.toNat * (M.toNat * 20 + 16))) (N.toNat * (M.toNat * 4 + K.toNat * (M.toNat * 4))) := by
  unfold hgemmhh_if66
  refine CntLe.ite (fun _ => ?_) (fun _ => CntLe.ite (fun _ => ?_) (fun _ => CntLe.ite (fun _ => ?_) (fun _ => ?_)))
  · exact CntLe.bindL (le_hgemmhh_if67 ..) (fun _ => .ret)
  · exact CntLe.bindL (le_hgemmhh_if166 ..) (fun _ => .ret)
  · exact CntLe.bindL (le_hgemmhh_if245 ..) (fun _ => .ret)
  · exact CntLe.bindL (le_hgemmhh_if308 ..) (fun _ => .ret)

theorem le_hgemmhh (TRANSA : Char) (TRANSB : Char) (M : Int) (N : Int) (K : Int) (ALPHA : Quat F) (A : Int) (LDA : Int) (B : Int) (LDB : Int) (BETA : Quat F) (C : Int) (LDC : Int) :
    CntLe (hgemmhh TRANSA TRANSB M N K ALPHA A LDA B LDB BETA C LDC : Prog F _) (N.toNat * (M.toNat * 8 + K.toNat * (M.toNat * 20 + 16))) (N.toNat * (M.toNat * 4 + K.toNat * (M.toNat * 4))) := by
  unfold hgemmhh
  try dsimp only
  refine CntLe.ite (fun _ => .ret) fun _ => CntLe.ite (fun _ => .ret) fun _ => CntLe.ite (fun _ => ?_) (fun _ => ?_)
  · exact CntLe.mono (CntLe.bindL (le_hgemmhh_if49 ..) (fun _ => .ret)) (gemm_le1 ..) (gemm_le2 ..)
  · exact CntLe.bindL (le_hgemmhh_if66 ..) (fun _ => .ret)

end Haxx.Thr
