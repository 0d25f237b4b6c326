import Verif.TrafficFortGemm
import Verif.ThrFort

/-!
# Upper bounds for the memory accesses of the Fortran GEMV, GERU and GERC

Generated by the scripts in `tools/traffic_fort` from the access-level programs: one bound per loop body, branch and routine.
-/

set_option linter.unusedVariables false
set_option linter.unusedSectionVars false
set_option linter.unusedTactic false
set_option linter.unreachableTactic false

namespace Haxx.Thr
open Arith

variable {F : Type} [Arith F] [ArithEq F]


/-- Branches, reads, writes and reads of undefined variables. -/
macro "le_line2" : tactic =>
  `(tactic| (repeat (first | exact .ret | exact .fail | refine .rd fun _ => ?_ | refine .wr ?_ | refine CntLe.ite (fun _ => ?_) (fun _ => ?_))))

theorem CntLe.bind0 {α β : Type} {p : Prog F α} {f : α → Prog F β} {r w : Nat} (h : CntLe p 0 0) (hk : ∀ a, CntLe (f a) r w) :
    CntLe (p >>= f) r w := CntLe.mono (h.bind hk) (by omega) (by omega)

theorem CntLe.pureBind {α β : Type} {a : α} {f : α → Prog F β} {r w : Nat} (h : CntLe (f a) r w) : CntLe (pure a >>= f) r w := h

theorem gemv_w1 (M N : Nat) : N * (M * 4) ≤ N * (M * 4 + 4) := Nat.mul_le_mul_left _ (by omega)
theorem gemv_w2 (M N : Nat) : N * 4 ≤ N * (M * 4 + 4) := Nat.mul_le_mul_left _ (by omega)
theorem gemv_r2 (M N : Nat) : N * (M * 16 + 4) ≤ N * (M * 20 + 16) := Nat.mul_le_mul_left _ (by omega)

theorem le_hgemvdd_10_I (Y : Int) (I : Int) : CntLe (hgemvdd_10_I Y I : Prog F _) 8 4 := by
  unfold hgemvdd_10_I
  le_line

theorem le_hgemvdd_20_I (BETA : F) (Y : Int) (I : Int) : CntLe (hgemvdd_20_I BETA Y I : Prog F _) 8 4 := by
  unfold hgemvdd_20_I
  le_line

theorem le_hgemvdd_if58 (BETA : F) (BZERO : Bool) (LENY : Int) (Y : Int) :
    CntLe (hgemvdd_if58 BETA BZERO LENY Y : Prog F _) (LENY.toNat * 8) (LENY.toNat * 4) := by
  unfold hgemvdd_if58
  try dsimp only
  refine CntLe.ite (fun _ => ?_) (fun _ => ?_)
  · exact CntLe.bindL (CntLe.forN fun _ _ => le_hgemvdd_10_I ..) (fun _ => .ret)
  · exact CntLe.bindL (CntLe.forN fun _ _ => le_hgemvdd_20_I ..) (fun _ => .ret)

theorem le_hgemvdd_30_I (INCY : Int) (Y : Int) (I : Int) (IY : Int) : CntLe (hgemvdd_30_I INCY Y I IY : Prog F _) 8 4 := by
  unfold hgemvdd_30_I
  le_line

theorem le_hgemvdd_40_I (BETA : F) (INCY : Int) (Y : Int) (I : Int) (IY : Int) : CntLe (hgemvdd_40_I BETA INCY Y I IY : Prog F _) 8 4 := by
  unfold hgemvdd_40_I
  le_line

theorem le_hgemvdd_if71 (BETA : F) (BZERO : Bool) (INCY : Int) (IY : Int) (LENY : Int) (Y : Int) :
    CntLe (hgemvdd_if71 BETA BZERO INCY IY LENY Y : Prog F _) (LENY.toNat * 8) (LENY.toNat * 4) := by
  unfold hgemvdd_if71
  try dsimp only
  refine CntLe.ite (fun _ => ?_) (fun _ => ?_)
  · exact CntLe.bindL (CntLe.fold_const fun _ _ _ => le_hgemvdd_30_I ..) (fun _ => .ret)
  · exact CntLe.bindL (CntLe.fold_const fun _ _ _ => le_hgemvdd_40_I ..) (fun _ => .ret)

theorem le_hgemvdd_if57 (BETA : F) (BZERO : Bool) (INCY : Int) (KY : Int) (LENY : Int) (Y : Int) :
    CntLe (hgemvdd_if57 BETA BZERO INCY KY LENY Y : Prog F _) (LENY.toNat * 8) (LENY.toNat * 4) := by
  unfold hgemvdd_if57
  try dsimp only
  refine CntLe.ite (fun _ => ?_) (fun _ => ?_)
  · exact CntLe.bindL (le_hgemvdd_if58 ..) fun _ => .ret
  · exact CntLe.bindL (le_hgemvdd_if71 ..) fun _ => .ret

theorem le_hgemvdd_if56 (BETA : F) (BONE : Bool) (BZERO : Bool) (INCY : Int) (KY : Int) (LENY : Int) (Y : Int) :
    CntLe (hgemvdd_if56 BETA BONE BZERO INCY KY LENY Y : Prog F _) (LENY.toNat * 8) (LENY.toNat * 4) := by
  unfold hgemvdd_if56
  try dsimp only
  refine CntLe.ite (fun _ => ?_) (fun _ => ?_)
  · exact CntLe.bindL (le_hgemvdd_if57 ..) fun _ => .ret
  · exact .ret

theorem le_hgemvdd_50_I (A : Int) (HTMPJ : Cplx F) (HTMPS : Cplx F) (J : Int) (LDA : Int) (Y : Int) (I : Int) : CntLe (hgemvdd_50_I A HTMPJ HTMPS J LDA Y I : Prog F _) 20 4 := by
  unfold hgemvdd_50_I
  le_line

theorem le_hgemvdd_60_J (A : Int) (ALPHA : F) (INCX : Int) (LDA : Int) (M : Int) (X : Int) (Y : Int) (J : Int) (JX : Int) :
    CntLe (hgemvdd_60_J A ALPHA INCX LDA M X Y J JX : Prog F _) (M.toNat * 20 + 16) (M.toNat * 4) := by
  unfold hgemvdd_60_J
  try dsimp only
  repeat (first | refine le_rdC_bind fun _ => ?_ | refine .rd fun _ => ?_)
  exact CntLe.mono (CntLe.bindL (CntLe.forN fun _ _ => le_hgemvdd_50_I ..) (fun _ => .ret)) (by omega) (by omega)

theorem le_hgemvdd_70_I (A : Int) (HTMPJ : Cplx F) (HTMPS : Cplx F) (INCY : Int) (J : Int) (LDA : Int) (Y : Int) (I : Int) (IY : Int) : CntLe (hgemvdd_70_I A HTMPJ HTMPS INCY J LDA Y I IY : Prog F _) 20 4 := by
  unfold hgemvdd_70_I
  le_line

theorem le_hgemvdd_80_J (A : Int) (ALPHA : F) (INCX : Int) (INCY : Int) (KY : Int) (LDA : Int) (M : Int) (X : Int) (Y : Int) (J : Int) (JX : Int) :
    CntLe (hgemvdd_80_J A ALPHA INCX INCY KY LDA M X Y J JX : Prog F _) (M.toNat * 20 + 16) (M.toNat * 4) := by
  unfold hgemvdd_80_J
  try dsimp only
  repeat (first | refine le_rdC_bind fun _ => ?_ | refine .rd fun _ => ?_)
  exact CntLe.mono (CntLe.bindL (CntLe.fold_const fun _ _ _ => le_hgemvdd_70_I ..) (fun _ => .ret)) (by omega) (by omega)

theorem le_hgemvdd_if91 (A : Int) (ALPHA : F) (INCX : Int) (INCY : Int) (JX : Int) (KY : Int) (LDA : Int) (M : Int) (N : Int) (X : Int) (Y : Int) :
    CntLe (hgemvdd_if91 A ALPHA INCX INCY JX KY LDA M N X Y : Prog F _) (N.toNat * (M.toNat * 20 + 16)) (N.toNat * (M.toNat * 4 + 4)) := by
  unfold hgemvdd_if91
  try dsimp only
  refine CntLe.ite (fun _ => ?_) (fun _ => ?_)
  · exact CntLe.mono (CntLe.bindL (CntLe.fold_const fun _ _ _ => le_hgemvdd_60_J ..) (fun _ => .ret)) le_rfl (gemv_w1 ..)
  · exact CntLe.mono (CntLe.bindL (CntLe.fold_const fun _ _ _ => le_hgemvdd_80_J ..) (fun _ => .ret)) le_rfl (gemv_w1 ..)

theorem le_hgemvdd_90_I (A : Int) (J : Int) (LDA : Int) (X : Int) (I : Int) (HTMPJ : Cplx F) (HTMPS : Cplx F) : CntLe (hgemvdd_90_I A J LDA X I HTMPJ HTMPS : Prog F _) 16 0 := by
  unfold hgemvdd_90_I
  le_line

theorem le_hgemvdd_100_I (A : Int) (J : Int) (LDA : Int) (X : Int) (I : Int) (HTMPJ : Cplx F) (HTMPS : Cplx F) : CntLe (hgemvdd_100_I A J LDA X I HTMPJ HTMPS : Prog F _) 16 0 := by
  unfold hgemvdd_100_I
  le_line

theorem le_hgemvdd_if126 (A : Int) (HTMPJ : Cplx F) (HTMPS : Cplx F) (J : Int) (LDA : Int) (M : Int) (NOCONJ : Bool) (X : Int) :
    CntLe (hgemvdd_if126 A HTMPJ HTMPS J LDA M NOCONJ X : Prog F _) (M.toNat * 16) (0) := by
  unfold hgemvdd_if126
  try dsimp only
  refine CntLe.ite (fun _ => ?_) (fun _ => ?_)
  · exact CntLe.bindL (CntLe.fold_const fun _ _ _ => le_hgemvdd_90_I ..) (fun _ => .ret)
  · exact CntLe.bindL (CntLe.fold_const fun _ _ _ => le_hgemvdd_100_I ..) (fun _ => .ret)

theorem le_hgemvdd_110_J (A : Int) (ALPHA : F) (INCY : Int) (LDA : Int) (M : Int) (NOCONJ : Bool) (X : Int) (Y : Int) (J : Int) (JY : Int) :
    CntLe (hgemvdd_110_J A ALPHA INCY LDA M NOCONJ X Y J JY : Prog F _) (M.toNat * 16 + 4) (4) := by
  unfold hgemvdd_110_J
  try dsimp only
  refine CntLe.mono (CntLe.bind (le_hgemvdd_if126 ..) (fun _ => (?_ : CntLe _ 4 4))) (by omega) (by omega)
  le_line2

theorem le_hgemvdd_120_I (A : Int) (INCX : Int) (J : Int) (LDA : Int) (X : Int) (I : Int) (HTMPJ : Cplx F) (HTMPS : Cplx F) (IX : Int) : CntLe (hgemvdd_120_I A INCX J LDA X I HTMPJ HTMPS IX : Prog F _) 16 0 := by
  unfold hgemvdd_120_I
  le_line

theorem le_hgemvdd_130_I (A : Int) (INCX : Int) (J : Int) (LDA : Int) (X : Int) (I : Int) (HTMPJ : Cplx F) (HTMPS : Cplx F) (IX : Int) : CntLe (hgemvdd_130_I A INCX J LDA X I HTMPJ HTMPS IX : Prog F _) 16 0 := by
  unfold hgemvdd_130_I
  le_line

theorem le_hgemvdd_if150 (A : Int) (HTMPJ : Cplx F) (HTMPS : Cplx F) (INCX : Int) (IX : Int) (J : Int) (LDA : Int) (M : Int) (NOCONJ : Bool) (X : Int) :
    CntLe (hgemvdd_if150 A HTMPJ HTMPS INCX IX J LDA M NOCONJ X : Prog F _) (M.toNat * 16) (0) := by
  unfold hgemvdd_if150
  try dsimp only
  refine CntLe.ite (fun _ => ?_) (fun _ => ?_)
  · exact CntLe.bindL (CntLe.fold_const fun _ _ _ => le_hgemvdd_120_I ..) (fun _ => .ret)
  · exact CntLe.bindL (CntLe.fold_const fun _ _ _ => le_hgemvdd_130_I ..) (fun _ => .ret)

theorem le_hgemvdd_140_J (A : Int) (ALPHA : F) (INCX : Int) (INCY : Int) (KX : Int) (LDA : Int) (M : Int) (NOCONJ : Bool) (X : Int) (Y : Int) (J : Int) (JY : Int) :
    CntLe (hgemvdd_140_J A ALPHA INCX INCY KX LDA M NOCONJ X Y J JY : Prog F _) (M.toNat * 16 + 4) (4) := by
  unfold hgemvdd_140_J
  try dsimp only
  refine CntLe.mono (CntLe.bind (le_hgemvdd_if150 ..) (fun _ => (?_ : CntLe _ 4 4))) (by omega) (by omega)
  le_line2

theorem le_hgemvdd_if122 (A : Int) (ALPHA : F) (INCX : Int) (INCY : Int) (JY : Int) (KX : Int) (LDA : Int) (M : Int) (N : Int) (NOCONJ : Bool) (X : Int) (Y : Int) :
    CntLe (hgemvdd_if122 A ALPHA INCX INCY JY KX LDA M N NOCONJ X Y : Prog F _) (N.toNat * (M.toNat * 20 + 16)) (N.toNat * (M.toNat * 4 + 4)) := by
  unfold hgemvdd_if122
  try dsimp only
  refine CntLe.ite (fun _ => ?_) (fun _ => ?_)
  · exact CntLe.mono (CntLe.bindL (CntLe.fold_const fun _ _ _ => le_hgemvdd_110_J ..) (fun _ => .ret)) (gemv_r2 ..) (gemv_w2 ..)
  · exact CntLe.mono (CntLe.bindL (CntLe.fold_const fun _ _ _ => le_hgemvdd_140_J ..) (fun _ => .ret)) (gemv_r2 ..) (gemv_w2 ..)

theorem le_hgemvdd_if89 (A : Int) (ALPHA : F) (INCX : Int) (INCY : Int) (KX : Int) (KY : Int) (LDA : Int) (M : Int) (N : Int) (NOCONJ : Bool) (TRANS : Char) (X : Int) (Y : Int) :
    CntLe (hgemvdd_if89 A ALPHA INCX INCY KX KY LDA M N NOCONJ TRANS X Y : Prog F _) (N.toNat * (M.toNat * 20 + 16)) (N.toNat * (M.toNat * 4 + 4)) := by
  unfold hgemvdd_if89
  try dsimp only
  refine CntLe.ite (fun _ => ?_) (fun _ => ?_)
  · exact CntLe.bindL (le_hgemvdd_if91 ..) fun _ => .ret
  · exact CntLe.bindL (le_hgemvdd_if122 ..) fun _ => .ret

theorem le_hgemvdd (TRANS : Char) (M : Int) (N : Int) (ALPHA : F) (A : Int) (LDA : Int) (X : Int) (INCX : Int) (BETA : F) (Y : Int) (INCY : Int) :
    CntLe (hgemvdd TRANS M N ALPHA A LDA X INCX BETA Y INCY : Prog F _) (max M.toNat N.toNat * 8 + N.toNat * (M.toNat * 20 + 16)) (max M.toNat N.toNat * 4 + N.toNat * (M.toNat * 4 + 4)) := by
  unfold hgemvdd
  try dsimp only
  refine CntLe.ite (fun _ => .ret) fun _ => ?_
  split <;> refine CntLe.pureBind (CntLe.bind0 (CntLe.ite (fun _ => .ret) fun _ => .ret) fun _ =>
    CntLe.bind0 (CntLe.ite (fun _ => .ret) fun _ => .ret) fun _ => CntLe.bind (CntLe.mono (le_hgemvdd_if56 ..) ?_ ?_) fun _ =>
    CntLe.ite (fun _ => .ret) fun _ => CntLe.bindL (le_hgemvdd_if89 ..) fun _ => .ret)
  all_goals first | exact Nat.mul_le_mul_right _ (le_max_left _ _) | exact Nat.mul_le_mul_right _ (le_max_right _ _)

theorem le_hgemvdz_10_I (Y : Int) (I : Int) : CntLe (hgemvdz_10_I Y I : Prog F _) 8 4 := by
  unfold hgemvdz_10_I
  le_line

theorem le_hgemvdz_20_I (BETA : Cplx F) (Y : Int) (I : Int) : CntLe (hgemvdz_20_I BETA Y I : Prog F _) 8 4 := by
  unfold hgemvdz_20_I
  le_line

theorem le_hgemvdz_if58 (BETA : Cplx F) (BZERO : Bool) (LENY : Int) (Y : Int) :
    CntLe (hgemvdz_if58 BETA BZERO LENY Y : Prog F _) (LENY.toNat * 8) (LENY.toNat * 4) := by
  unfold hgemvdz_if58
  try dsimp only
  refine CntLe.ite (fun _ => ?_) (fun _ => ?_)
  · exact CntLe.bindL (CntLe.forN fun _ _ => le_hgemvdz_10_I ..) (fun _ => .ret)
  · exact CntLe.bindL (CntLe.forN fun _ _ => le_hgemvdz_20_I ..) (fun _ => .ret)

theorem le_hgemvdz_30_I (INCY : Int) (Y : Int) (I : Int) (IY : Int) : CntLe (hgemvdz_30_I INCY Y I IY : Prog F _) 8 4 := by
  unfold hgemvdz_30_I
  le_line

theorem le_hgemvdz_40_I (BETA : Cplx F) (INCY : Int) (Y : Int) (I : Int) (IY : Int) : CntLe (hgemvdz_40_I BETA INCY Y I IY : Prog F _) 8 4 := by
  unfold hgemvdz_40_I
  le_line

theorem le_hgemvdz_if71 (BETA : Cplx F) (BZERO : Bool) (INCY : Int) (IY : Int) (LENY : Int) (Y : Int) :
    CntLe (hgemvdz_if71 BETA BZERO INCY IY LENY Y : Prog F _) (LENY.toNat * 8) (LENY.toNat * 4) := by
  unfold hgemvdz_if71
  try dsimp only
  refine CntLe.ite (fun _ => ?_) (fun _ => ?_)
  · exact CntLe.bindL (CntLe.fold_const fun _ _ _ => le_hgemvdz_30_I ..) (fun _ => .ret)
  · exact CntLe.bindL (CntLe.fold_const fun _ _ _ => le_hgemvdz_40_I ..) (fun _ => .ret)

theorem le_hgemvdz_if57 (BETA : Cplx F) (BZERO : Bool) (INCY : Int) (KY : Int) (LENY : Int) (Y : Int) :
    CntLe (hgemvdz_if57 BETA BZERO INCY KY LENY Y : Prog F _) (LENY.toNat * 8) (LENY.toNat * 4) := by
  unfold hgemvdz_if57
  try dsimp only
  refine CntLe.ite (fun _ => ?_) (fun _ => ?_)
  · exact CntLe.bindL (le_hgemvdz_if58 ..) fun _ => .ret
  · exact CntLe.bindL (le_hgemvdz_if71 ..) fun _ => .ret

theorem le_hgemvdz_if56 (BETA : Cplx F) (BONE : Bool) (BZERO : Bool) (INCY : Int) (KY : Int) (LENY : Int) (Y : Int) :
    CntLe (hgemvdz_if56 BETA BONE BZERO INCY KY LENY Y : Prog F _) (LENY.toNat * 8) (LENY.toNat * 4) := by
  unfold hgemvdz_if56
  try dsimp only
  refine CntLe.ite (fun _ => ?_) (fun _ => ?_)
  · exact CntLe.bindL (le_hgemvdz_if57 ..) fun _ => .ret
  · exact .ret

theorem le_hgemvdz_50_I (A : Int) (HTMPJ : Cplx F) (HTMPS : Cplx F) (J : Int) (LDA : Int) (Y : Int) (I : Int) : CntLe (hgemvdz_50_I A HTMPJ HTMPS J LDA Y I : Prog F _) 20 4 := by
  unfold hgemvdz_50_I
  le_line

theorem le_hgemvdz_60_J (A : Int) (ALPHA : F) (INCX : Int) (LDA : Int) (M : Int) (X : Int) (Y : Int) (J : Int) (JX : Int) :
    CntLe (hgemvdz_60_J A ALPHA INCX LDA M X Y J JX : Prog F _) (M.toNat * 20 + 16) (M.toNat * 4) := by
  unfold hgemvdz_60_J
  try dsimp only
  repeat (first | refine le_rdC_bind fun _ => ?_ | refine .rd fun _ => ?_)
  exact CntLe.mono (CntLe.bindL (CntLe.forN fun _ _ => le_hgemvdz_50_I ..) (fun _ => .ret)) (by omega) (by omega)

theorem le_hgemvdz_70_I (A : Int) (HTMPJ : Cplx F) (HTMPS : Cplx F) (INCY : Int) (J : Int) (LDA : Int) (Y : Int) (I : Int) (IY : Int) : CntLe (hgemvdz_70_I A HTMPJ HTMPS INCY J LDA Y I IY : Prog F _) 20 4 := by
  unfold hgemvdz_70_I
  le_line

theorem le_hgemvdz_80_J (A : Int) (ALPHA : F) (INCX : Int) (INCY : Int) (KY : Int) (LDA : Int) (M : Int) (X : Int) (Y : Int) (J : Int) (JX : Int) :
    CntLe (hgemvdz_80_J A ALPHA INCX INCY KY LDA M X Y J JX : Prog F _) (M.toNat * 20 + 16) (M.toNat * 4) := by
  unfold hgemvdz_80_J
  try dsimp only
  repeat (first | refine le_rdC_bind fun _ => ?_ | refine .rd fun _ => ?_)
  exact CntLe.mono (CntLe.bindL (CntLe.fold_const fun _ _ _ => le_hgemvdz_70_I ..) (fun _ => .ret)) (by omega) (by omega)

theorem le_hgemvdz_if91 (A : Int) (ALPHA : F) (INCX : Int) (INCY : Int) (JX : Int) (KY : Int) (LDA : Int) (M : Int) (N : Int) (X : Int) (Y : Int) :
    CntLe (hgemvdz_if91 A ALPHA INCX INCY JX KY LDA M N X Y : Prog F _) (N.toNat * (M.toNat * 20 + 16)) (N.toNat * (M.toNat * 4 + 4)) := by
  unfold hgemvdz_if91
  try dsimp only
  refine CntLe.ite (fun _ => ?_) (fun _ => ?_)
  · exact CntLe.mono (CntLe.bindL (CntLe.fold_const fun _ _ _ => le_hgemvdz_60_J ..) (fun _ => .ret)) le_rfl (gemv_w1 ..)
  · exact CntLe.mono (CntLe.bindL (CntLe.fold_const fun _ _ _ => le_hgemvdz_80_J ..) (fun _ => .ret)) le_rfl (gemv_w1 ..)

theorem le_hgemvdz_90_I (A : Int) (J : Int) (LDA : Int) (X : Int) (I : Int) (HTMPJ : Cplx F) (HTMPS : Cplx F) : CntLe (hgemvdz_90_I A J LDA X I HTMPJ HTMPS : Prog F _) 16 0 := by
  unfold hgemvdz_90_I
  le_line

theorem le_hgemvdz_100_I (A : Int) (J : Int) (LDA : Int) (X : Int) (I : Int) (HTMPJ : Cplx F) (HTMPS : Cplx F) : CntLe (hgemvdz_100_I A J LDA X I HTMPJ HTMPS : Prog F _) 16 0 := by
  unfold hgemvdz_100_I
  le_line

theorem le_hgemvdz_if126 (A : Int) (HTMPJ : Cplx F) (HTMPS : Cplx F) (J : Int) (LDA : Int) (M : Int) (NOCONJ : Bool) (X : Int) :
    CntLe (hgemvdz_if126 A HTMPJ HTMPS J LDA M NOCONJ X : Prog F _) (M.toNat * 16) (0) := by
  unfold hgemvdz_if126
  try dsimp only
  refine CntLe.ite (fun _ => ?_) (fun _ => ?_)
  · exact CntLe.bindL (CntLe.fold_const fun _ _ _ => le_hgemvdz_90_I ..) (fun _ => .ret)
  · exact CntLe.bindL (CntLe.fold_const fun _ _ _ => le_hgemvdz_100_I ..) (fun _ => .ret)

theorem le_hgemvdz_110_J (A : Int) (ALPHA : F) (INCY : Int) (LDA : Int) (M : Int) (NOCONJ : Bool) (X : Int) (Y : Int) (J : Int) (JY : Int) :
    CntLe (hgemvdz_110_J A ALPHA INCY LDA M NOCONJ X Y J JY : Prog F _) (M.toNat * 16 + 4) (4) := by
  unfold hgemvdz_110_J
  try dsimp only
  refine CntLe.mono (CntLe.bind (le_hgemvdz_if126 ..) (fun _ => (?_ : CntLe _ 4 4))) (by omega) (by omega)
  le_line2

theorem le_hgemvdz_120_I (A : Int) (INCX : Int) (J : Int) (LDA : Int) (X : Int) (I : Int) (HTMPJ : Cplx F) (HTMPS : Cplx F) (IX : Int) : CntLe (hgemvdz_120_I A INCX J LDA X I HTMPJ HTMPS IX : Prog F _) 16 0 := by
  unfold hgemvdz_120_I
  le_line

theorem le_hgemvdz_130_I (A : Int) (INCX : Int) (J : Int) (LDA : Int) (X : Int) (I : Int) (HTMPJ : Cplx F) (HTMPS : Cplx F) (IX : Int) : CntLe (hgemvdz_130_I A INCX J LDA X I HTMPJ HTMPS IX : Prog F _) 16 0 := by
  unfold hgemvdz_130_I
  le_line

theorem le_hgemvdz_if150 (A : Int) (HTMPJ : Cplx F) (HTMPS : Cplx F) (INCX : Int) (IX : Int) (J : Int) (LDA : Int) (M : Int) (NOCONJ : Bool) (X : Int) :
    CntLe (hgemvdz_if150 A HTMPJ HTMPS INCX IX J LDA M NOCONJ X : Prog F _) (M.toNat * 16) (0) := by
  unfold hgemvdz_if150
  try dsimp only
  refine CntLe.ite (fun _ => ?_) (fun _ => ?_)
  · exact CntLe.bindL (CntLe.fold_const fun _ _ _ => le_hgemvdz_120_I ..) (fun _ => .ret)
  · exact CntLe.bindL (CntLe.fold_const fun _ _ _ => le_hgemvdz_130_I ..) (fun _ => .ret)

theorem le_hgemvdz_140_J (A : Int) (ALPHA : F) (INCX : Int) (INCY : Int) (KX : Int) (LDA : Int) (M : Int) (NOCONJ : Bool) (X : Int) (Y : Int) (J : Int) (JY : Int) :
    CntLe (hgemvdz_140_J A ALPHA INCX INCY KX LDA M NOCONJ X Y J JY : Prog F _) (M.toNat * 16 + 4) (4) := by
  unfold hgemvdz_140_J
  try dsimp only
  refine CntLe.mono (CntLe.bind (le_hgemvdz_if150 ..) (fun _ => (?_ : CntLe _ 4 4))) (by omega) (by omega)
  le_line2

theorem le_hgemvdz_if122 (A : Int) (ALPHA : F) (INCX : Int) (INCY : Int) (JY : Int) (KX : Int) (LDA : Int) (M : Int) (N : Int) (NOCONJ : Bool) (X : Int) (Y : Int) :
    CntLe (hgemvdz_if122 A ALPHA INCX INCY JY KX LDA M N NOCONJ X Y : Prog F _) (N.toNat * (M.toNat * 20 + 16)) (N.toNat * (M.toNat * 4 + 4)) := by
  unfold hgemvdz_if122
  try dsimp only
  refine CntLe.ite (fun _ => ?_) (fun _ => ?_)
  · exact CntLe.mono (CntLe.bindL (CntLe.fold_const fun _ _ _ => le_hgemvdz_110_J ..) (fun _ => .ret)) (gemv_r2 ..) (gemv_w2 ..)
  · exact CntLe.mono (CntLe.bindL (CntLe.fold_const fun _ _ _ => le_hgemvdz_140_J ..) (fun _ => .ret)) (gemv_r2 ..) (gemv_w2 ..)

theorem le_hgemvdz_if89 (A : Int) (ALPHA : F) (INCX : Int) (INCY : Int) (KX : Int) (KY : Int) (LDA : Int) (M : Int) (N : Int) (NOCONJ : Bool) (TRANS : Char) (X : Int) (Y : Int) :
    CntLe (hgemvdz_if89 A ALPHA INCX INCY KX KY LDA M N NOCONJ TRANS X Y : Prog F _) (N.toNat * (M.toNat * 20 + 16)) (N.toNat * (M.toNat * 4 + 4)) := by
  unfold hgemvdz_if89
  try dsimp only
  refine CntLe.ite (fun _ => ?_) (fun _ => ?_)
  · exact CntLe.bindL (le_hgemvdz_if91 ..) fun _ => .ret
  · exact CntLe.bindL (le_hgemvdz_if122 ..) fun _ => .ret

theorem le_hgemvdz (TRANS : Char) (M : Int) (N : Int) (ALPHA : F) (A : Int) (LDA : Int) (X : Int) (INCX : Int) (BETA : Cplx F) (Y : Int) (INCY : Int) :
    CntLe (hgemvdz TRANS M N ALPHA A LDA X INCX BETA Y INCY : Prog F _) (max M.toNat N.toNat * 8 + N.toNat * (M.toNat * 20 + 16)) (max M.toNat N.toNat * 4 + N.toNat * (M.toNat * 4 + 4)) := by
  unfold hgemvdz
  try dsimp only
  refine CntLe.ite (fun _ => .ret) fun _ => ?_
  split <;> refine CntLe.pureBind (CntLe.bind0 (CntLe.ite (fun _ => .ret) fun _ => .ret) fun _ =>
    CntLe.bind0 (CntLe.ite (fun _ => .ret) fun _ => .ret) fun _ => CntLe.bind (CntLe.mono (le_hgemvdz_if56 ..) ?_ ?_) fun _ =>
    CntLe.ite (fun _ => .ret) fun _ => CntLe.bindL (le_hgemvdz_if89 ..) fun _ => .ret)
  all_goals first | exact Nat.mul_le_mul_right _ (le_max_left _ _) | exact Nat.mul_le_mul_right _ (le_max_right _ _)

theorem le_hgemvdh_10_I (Y : Int) (I : Int) : CntLe (hgemvdh_10_I Y I : Prog F _) 8 4 := by
  unfold hgemvdh_10_I
  le_line

theorem le_hgemvdh_20_I (BETA : Quat F) (Y : Int) (I : Int) : CntLe (hgemvdh_20_I BETA Y I : Prog F _) 8 4 := by
  unfold hgemvdh_20_I
  le_line

theorem le_hgemvdh_if59 (BETA : Quat F) (BZERO : Bool) (LENY : Int) (Y : Int) :
    CntLe (hgemvdh_if59 BETA BZERO LENY Y : Prog F _) (LENY.toNat * 8) (LENY.toNat * 4) := by
  unfold hgemvdh_if59
  try dsimp only
  refine CntLe.ite (fun _ => ?_) (fun _ => ?_)
  · exact CntLe.bindL (CntLe.forN fun _ _ => le_hgemvdh_10_I ..) (fun _ => .ret)
  · exact CntLe.bindL (CntLe.forN fun _ _ => le_hgemvdh_20_I ..) (fun _ => .ret)

theorem le_hgemvdh_30_I (INCY : Int) (Y : Int) (I : Int) (IY : Int) : CntLe (hgemvdh_30_I INCY Y I IY : Prog F _) 8 4 := by
  unfold hgemvdh_30_I
  le_line

theorem le_hgemvdh_40_I (BETA : Quat F) (IY : Int) (Y : Int) (I : Int) : CntLe (hgemvdh_40_I BETA IY Y I : Prog F _) 8 4 := by
  unfold hgemvdh_40_I
  le_line

theorem le_hgemvdh_if73 (BETA : Quat F) (BZERO : Bool) (INCY : Int) (IY : Int) (LENY : Int) (Y : Int) :
    CntLe (hgemvdh_if73 BETA BZERO INCY IY LENY Y : Prog F _) (LENY.toNat * 8) (LENY.toNat * 4) := by
  unfold hgemvdh_if73
  try dsimp only
  refine CntLe.ite (fun _ => ?_) (fun _ => ?_)
  · exact CntLe.bindL (CntLe.fold_const fun _ _ _ => le_hgemvdh_30_I ..) (fun _ => .ret)
  · exact CntLe.bindL (CntLe.forN fun _ _ => le_hgemvdh_40_I ..) (fun _ => .ret)

theorem le_hgemvdh_if58 (BETA : Quat F) (BZERO : Bool) (INCY : Int) (KY : Int) (LENY : Int) (Y : Int) :
    CntLe (hgemvdh_if58 BETA BZERO INCY KY LENY Y : Prog F _) (LENY.toNat * 8) (LENY.toNat * 4) := by
  unfold hgemvdh_if58
  try dsimp only
  refine CntLe.ite (fun _ => ?_) (fun _ => ?_)
  · exact CntLe.bindL (le_hgemvdh_if59 ..) fun _ => .ret
  · exact CntLe.bindL (le_hgemvdh_if73 ..) fun _ => .ret

theorem le_hgemvdh_if57 (BETA : Quat F) (BONE : Bool) (BZERO : Bool) (INCY : Int) (KY : Int) (LENY : Int) (Y : Int) :
    CntLe (hgemvdh_if57 BETA BONE BZERO INCY KY LENY Y : Prog F _) (LENY.toNat * 8) (LENY.toNat * 4) := by
  unfold hgemvdh_if57
  try dsimp only
  refine CntLe.ite (fun _ => ?_) (fun _ => ?_)
  · exact CntLe.bindL (le_hgemvdh_if58 ..) fun _ => .ret
  · exact .ret

theorem le_hgemvdh_50_I (A : Int) (HTMPJ : Cplx F) (HTMPS : Cplx F) (J : Int) (LDA : Int) (Y : Int) (I : Int) : CntLe (hgemvdh_50_I A HTMPJ HTMPS J LDA Y I : Prog F _) 20 4 := by
  unfold hgemvdh_50_I
  le_line

theorem le_hgemvdh_60_J (A : Int) (ALPHA : F) (INCX : Int) (LDA : Int) (M : Int) (X : Int) (Y : Int) (J : Int) (JX : Int) :
    CntLe (hgemvdh_60_J A ALPHA INCX LDA M X Y J JX : Prog F _) (M.toNat * 20 + 16) (M.toNat * 4) := by
  unfold hgemvdh_60_J
  try dsimp only
  repeat (first | refine le_rdC_bind fun _ => ?_ | refine .rd fun _ => ?_)
  exact CntLe.mono (CntLe.bindL (CntLe.forN fun _ _ => le_hgemvdh_50_I ..) (fun _ => .ret)) (by omega) (by omega)

theorem le_hgemvdh_70_I (A : Int) (HTMPJ : Cplx F) (HTMPS : Cplx F) (INCY : Int) (J : Int) (LDA : Int) (Y : Int) (I : Int) (IY : Int) : CntLe (hgemvdh_70_I A HTMPJ HTMPS INCY J LDA Y I IY : Prog F _) 20 4 := by
  unfold hgemvdh_70_I
  le_line

theorem le_hgemvdh_80_J (A : Int) (ALPHA : F) (INCX : Int) (INCY : Int) (KY : Int) (LDA : Int) (M : Int) (X : Int) (Y : Int) (J : Int) (JX : Int) :
    CntLe (hgemvdh_80_J A ALPHA INCX INCY KY LDA M X Y J JX : Prog F _) (M.toNat * 20 + 16) (M.toNat * 4) := by
  unfold hgemvdh_80_J
  try dsimp only
  repeat (first | refine le_rdC_bind fun _ => ?_ | refine .rd fun _ => ?_)
  exact CntLe.mono (CntLe.bindL (CntLe.fold_const fun _ _ _ => le_hgemvdh_70_I ..) (fun _ => .ret)) (by omega) (by omega)

theorem le_hgemvdh_if93 (A : Int) (ALPHA : F) (INCX : Int) (INCY : Int) (JX : Int) (KY : Int) (LDA : Int) (M : Int) (N : Int) (X : Int) (Y : Int) :
    CntLe (hgemvdh_if93 A ALPHA INCX INCY JX KY LDA M N X Y : Prog F _) (N.toNat * (M.toNat * 20 + 16)) (N.toNat * (M.toNat * 4 + 4)) := by
  unfold hgemvdh_if93
  try dsimp only
  refine CntLe.ite (fun _ => ?_) (fun _ => ?_)
  · exact CntLe.mono (CntLe.bindL (CntLe.fold_const fun _ _ _ => le_hgemvdh_60_J ..) (fun _ => .ret)) le_rfl (gemv_w1 ..)
  · exact CntLe.mono (CntLe.bindL (CntLe.fold_const fun _ _ _ => le_hgemvdh_80_J ..) (fun _ => .ret)) le_rfl (gemv_w1 ..)

theorem le_hgemvdh_90_I (A : Int) (J : Int) (LDA : Int) (X : Int) (I : Int) (HTMPJ : Cplx F) (HTMPS : Cplx F) : CntLe (hgemvdh_90_I A J LDA X I HTMPJ HTMPS : Prog F _) 16 0 := by
  unfold hgemvdh_90_I
  le_line

theorem le_hgemvdh_100_I (A : Int) (J : Int) (LDA : Int) (X : Int) (I : Int) (HTMPJ : Cplx F) (HTMPS : Cplx F) : CntLe (hgemvdh_100_I A J LDA X I HTMPJ HTMPS : Prog F _) 16 0 := by
  unfold hgemvdh_100_I
  le_line

theorem le_hgemvdh_if128 (A : Int) (HTMPJ : Cplx F) (HTMPS : Cplx F) (J : Int) (LDA : Int) (M : Int) (NOCONJ : Bool) (X : Int) :
    CntLe (hgemvdh_if128 A HTMPJ HTMPS J LDA M NOCONJ X : Prog F _) (M.toNat * 16) (0) := by
  unfold hgemvdh_if128
  try dsimp only
  refine CntLe.ite (fun _ => ?_) (fun _ => ?_)
  · exact CntLe.bindL (CntLe.fold_const fun _ _ _ => le_hgemvdh_90_I ..) (fun _ => .ret)
  · exact CntLe.bindL (CntLe.fold_const fun _ _ _ => le_hgemvdh_100_I ..) (fun _ => .ret)

theorem le_hgemvdh_110_J (A : Int) (ALPHA : F) (INCY : Int) (LDA : Int) (M : Int) (NOCONJ : Bool) (X : Int) (Y : Int) (J : Int) (JY : Int) :
    CntLe (hgemvdh_110_J A ALPHA INCY LDA M NOCONJ X Y J JY : Prog F _) (M.toNat * 16 + 4) (4) := by
  unfold hgemvdh_110_J
  try dsimp only
  refine CntLe.mono (CntLe.bind (le_hgemvdh_if128 ..) (fun _ => (?_ : CntLe _ 4 4))) (by omega) (by omega)
  le_line2

theorem le_hgemvdh_120_I (A : Int) (INCX : Int) (J : Int) (LDA : Int) (X : Int) (I : Int) (HTMPJ : Cplx F) (HTMPS : Cplx F) (IX : Int) : CntLe (hgemvdh_120_I A INCX J LDA X I HTMPJ HTMPS IX : Prog F _) 16 0 := by
  unfold hgemvdh_120_I
  le_line

theorem le_hgemvdh_130_I (A : Int) (INCX : Int) (J : Int) (LDA : Int) (X : Int) (I : Int) (HTMPJ : Cplx F) (HTMPS : Cplx F) (IX : Int) : CntLe (hgemvdh_130_I A INCX J LDA X I HTMPJ HTMPS IX : Prog F _) 16 0 := by
  unfold hgemvdh_130_I
  le_line

theorem le_hgemvdh_if152 (A : Int) (HTMPJ : Cplx F) (HTMPS : Cplx F) (INCX : Int) (IX : Int) (J : Int) (LDA : Int) (M : Int) (NOCONJ : Bool) (X : Int) :
    CntLe (hgemvdh_if152 A HTMPJ HTMPS INCX IX J LDA M NOCONJ X : Prog F _) (M.toNat * 16) (0) := by
  unfold hgemvdh_if152
  try dsimp only
  refine CntLe.ite (fun _ => ?_) (fun _ => ?_)
  · exact CntLe.bindL (CntLe.fold_const fun _ _ _ => le_hgemvdh_120_I ..) (fun _ => .ret)
  · exact CntLe.bindL (CntLe.fold_const fun _ _ _ => le_hgemvdh_130_I ..) (fun _ => .ret)

theorem le_hgemvdh_140_J (A : Int) (ALPHA : F) (INCX : Int) (INCY : Int) (KX : Int) (LDA : Int) (M : Int) (NOCONJ : Bool) (X : Int) (Y : Int) (J : Int) (JY : Int) :
    CntLe (hgemvdh_140_J A ALPHA INCX INCY KX LDA M NOCONJ X Y J JY : Prog F _) (M.toNat * 16 + 4) (4) := by
  unfold hgemvdh_140_J
  try dsimp only
  refine CntLe.mono (CntLe.bind (le_hgemvdh_if152 ..) (fun _ => (?_ : CntLe _ 4 4))) (by omega) (by omega)
  le_line2

theorem le_hgemvdh_if124 (A : Int) (ALPHA : F) (INCX : Int) (INCY : Int) (JY : Int) (KX : Int) (LDA : Int) (M : Int) (N : Int) (NOCONJ : Bool) (X : Int) (Y : Int) :
    CntLe (hgemvdh_if124 A ALPHA INCX INCY JY KX LDA M N NOCONJ X Y : Prog F _) (N.toNat * (M.toNat * 20 + 16)) (N.toNat * (M.toNat * 4 + 4)) := by
  unfold hgemvdh_if124
  try dsimp only
  refine CntLe.ite (fun _ => ?_) (fun _ => ?_)
  · exact CntLe.mono (CntLe.bindL (CntLe.fold_const fun _ _ _ => le_hgemvdh_110_J ..) (fun _ => .ret)) (gemv_r2 ..) (gemv_w2 ..)
  · exact CntLe.mono (CntLe.bindL (CntLe.fold_const fun _ _ _ => le_hgemvdh_140_J ..) (fun _ => .ret)) (gemv_r2 ..) (gemv_w2 ..)

theorem le_hgemvdh_if91 (A : Int) (ALPHA : F) (INCX : Int) (INCY : Int) (KX : Int) (KY : Int) (LDA : Int) (M : Int) (N : Int) (NOCONJ : Bool) (TRANS : Char) (X : Int) (Y : Int) :
    CntLe (hgemvdh_if91 A ALPHA INCX INCY KX KY LDA M N NOCONJ TRANS X Y : Prog F _) (N.toNat * (M.toNat * 20 + 16)) (N.toNat * (M.toNat * 4 + 4)) := by
  unfold hgemvdh_if91
  try dsimp only
  refine CntLe.ite (fun _ => ?_) (fun _ => ?_)
  · exact CntLe.bindL (le_hgemvdh_if93 ..) fun _ => .ret
  · exact CntLe.bindL (le_hgemvdh_if124 ..) fun _ => .ret

theorem le_hgemvdh (TRANS : Char) (M : Int) (N : Int) (ALPHA : F) (A : Int) (LDA : Int) (X : Int) (INCX : Int) (BETA : Quat F) (Y : Int) (INCY : Int) :
    CntLe (hgemvdh TRANS M N ALPHA A LDA X INCX BETA Y INCY : Prog F _) (max M.toNat N.toNat * 8 + N.toNat * (M.toNat * 20 + 16)) (max M.toNat N.toNat * 4 + N.toNat * (M.toNat * 4 + 4)) := by
  unfold hgemvdh
  try dsimp only
  split <;> refine CntLe.pureBind (CntLe.ite (fun _ => .ret) fun _ => CntLe.bind0 (CntLe.ite (fun _ => .ret) fun _ => .ret) fun _ =>
    CntLe.bind0 (CntLe.ite (fun _ => .ret) fun _ => .ret) fun _ => CntLe.bind (CntLe.mono (le_hgemvdh_if57 ..) ?_ ?_) fun _ =>
    CntLe.ite (fun _ => .ret) fun _ => CntLe.bindL (le_hgemvdh_if91 ..) fun _ => .ret)
  all_goals first | exact Nat.mul_le_mul_right _ (le_max_left _ _) | exact Nat.mul_le_mul_right _ (le_max_right _ _)

theorem le_hgemvzd_10_I (Y : Int) (I : Int) : CntLe (hgemvzd_10_I Y I : Prog F _) 8 4 := by
  unfold hgemvzd_10_I
  le_line

theorem le_hgemvzd_20_I (BETA : F) (Y : Int) (I : Int) : CntLe (hgemvzd_20_I BETA Y I : Prog F _) 8 4 := by
  unfold hgemvzd_20_I
  le_line

theorem le_hgemvzd_if59 (BETA : F) (BZERO : Bool) (LENY : Int) (Y : Int) :
    CntLe (hgemvzd_if59 BETA BZERO LENY Y : Prog F _) (LENY.toNat * 8) (LENY.toNat * 4) := by
  unfold hgemvzd_if59
  try dsimp only
  refine CntLe.ite (fun _ => ?_) (fun _ => ?_)
  · exact CntLe.bindL (CntLe.forN fun _ _ => le_hgemvzd_10_I ..) (fun _ => .ret)
  · exact CntLe.bindL (CntLe.forN fun _ _ => le_hgemvzd_20_I ..) (fun _ => .ret)

theorem le_hgemvzd_30_I (INCY : Int) (Y : Int) (I : Int) (IY : Int) : CntLe (hgemvzd_30_I INCY Y I IY : Prog F _) 8 4 := by
  unfold hgemvzd_30_I
  le_line

theorem le_hgemvzd_40_I (BETA : F) (INCY : Int) (Y : Int) (I : Int) (IY : Int) : CntLe (hgemvzd_40_I BETA INCY Y I IY : Prog F _) 8 4 := by
  unfold hgemvzd_40_I
  le_line

theorem le_hgemvzd_if72 (BETA : F) (BZERO : Bool) (INCY : Int) (IY : Int) (LENY : Int) (Y : Int) :
    CntLe (hgemvzd_if72 BETA BZERO INCY IY LENY Y : Prog F _) (LENY.toNat * 8) (LENY.toNat * 4) := by
  unfold hgemvzd_if72
  try dsimp only
  refine CntLe.ite (fun _ => ?_) (fun _ => ?_)
  · exact CntLe.bindL (CntLe.fold_const fun _ _ _ => le_hgemvzd_30_I ..) (fun _ => .ret)
  · exact CntLe.bindL (CntLe.fold_const fun _ _ _ => le_hgemvzd_40_I ..) (fun _ => .ret)

theorem le_hgemvzd_if58 (BETA : F) (BZERO : Bool) (INCY : Int) (KY : Int) (LENY : Int) (Y : Int) :
    CntLe (hgemvzd_if58 BETA BZERO INCY KY LENY Y : Prog F _) (LENY.toNat * 8) (LENY.toNat * 4) := by
  unfold hgemvzd_if58
  try dsimp only
  refine CntLe.ite (fun _ => ?_) (fun _ => ?_)
  · exact CntLe.bindL (le_hgemvzd_if59 ..) fun _ => .ret
  · exact CntLe.bindL (le_hgemvzd_if72 ..) fun _ => .ret

theorem le_hgemvzd_if57 (BETA : F) (BONE : Bool) (BZERO : Bool) (INCY : Int) (KY : Int) (LENY : Int) (Y : Int) :
    CntLe (hgemvzd_if57 BETA BONE BZERO INCY KY LENY Y : Prog F _) (LENY.toNat * 8) (LENY.toNat * 4) := by
  unfold hgemvzd_if57
  try dsimp only
  refine CntLe.ite (fun _ => ?_) (fun _ => ?_)
  · exact CntLe.bindL (le_hgemvzd_if58 ..) fun _ => .ret
  · exact .ret

theorem le_hgemvzd_50_I (A : Int) (HTMP1J : Cplx F) (HTMP1S : Cplx F) (HTMP2J : Cplx F) (HTMP2S : Cplx F) (J : Int) (LDA : Int) (Y : Int) (I : Int) : CntLe (hgemvzd_50_I A HTMP1J HTMP1S HTMP2J HTMP2S J LDA Y I : Prog F _) 20 4 := by
  unfold hgemvzd_50_I
  le_line

theorem le_hgemvzd_60_J (A : Int) (ALPHA : Cplx F) (INCX : Int) (LDA : Int) (M : Int) (X : Int) (Y : Int) (J : Int) (JX : Int) :
    CntLe (hgemvzd_60_J A ALPHA INCX LDA M X Y J JX : Prog F _) (M.toNat * 20 + 16) (M.toNat * 4) := by
  unfold hgemvzd_60_J
  try dsimp only
  repeat (first | refine le_rdC_bind fun _ => ?_ | refine .rd fun _ => ?_)
  exact CntLe.mono (CntLe.bindL (CntLe.forN fun _ _ => le_hgemvzd_50_I ..) (fun _ => .ret)) (by omega) (by omega)

theorem le_hgemvzd_70_I (A : Int) (HTMP1J : Cplx F) (HTMP1S : Cplx F) (HTMP2J : Cplx F) (HTMP2S : Cplx F) (INCY : Int) (J : Int) (LDA : Int) (Y : Int) (I : Int) (IY : Int) : CntLe (hgemvzd_70_I A HTMP1J HTMP1S HTMP2J HTMP2S INCY J LDA Y I IY : Prog F _) 20 4 := by
  unfold hgemvzd_70_I
  le_line

theorem le_hgemvzd_80_J (A : Int) (ALPHA : Cplx F) (INCX : Int) (INCY : Int) (KY : Int) (LDA : Int) (M : Int) (X : Int) (Y : Int) (J : Int) (JX : Int) :
    CntLe (hgemvzd_80_J A ALPHA INCX INCY KY LDA M X Y J JX : Prog F _) (M.toNat * 20 + 16) (M.toNat * 4) := by
  unfold hgemvzd_80_J
  try dsimp only
  repeat (first | refine le_rdC_bind fun _ => ?_ | refine .rd fun _ => ?_)
  exact CntLe.mono (CntLe.bindL (CntLe.fold_const fun _ _ _ => le_hgemvzd_70_I ..) (fun _ => .ret)) (by omega) (by omega)

theorem le_hgemvzd_if92 (A : Int) (ALPHA : Cplx F) (INCX : Int) (INCY : Int) (JX : Int) (KY : Int) (LDA : Int) (M : Int) (N : Int) (X : Int) (Y : Int) :
    CntLe (hgemvzd_if92 A ALPHA INCX INCY JX KY LDA M N X Y : Prog F _) (N.toNat * (M.toNat * 20 + 16)) (N.toNat * (M.toNat * 4 + 4)) := by
  unfold hgemvzd_if92
  try dsimp only
  refine CntLe.ite (fun _ => ?_) (fun _ => ?_)
  · exact CntLe.mono (CntLe.bindL (CntLe.fold_const fun _ _ _ => le_hgemvzd_60_J ..) (fun _ => .ret)) le_rfl (gemv_w1 ..)
  · exact CntLe.mono (CntLe.bindL (CntLe.fold_const fun _ _ _ => le_hgemvzd_80_J ..) (fun _ => .ret)) le_rfl (gemv_w1 ..)

theorem le_hgemvzd_90_I (A : Int) (J : Int) (LDA : Int) (X : Int) (I : Int) (HTMP1J : Cplx F) (HTMP1S : Cplx F) : CntLe (hgemvzd_90_I A J LDA X I HTMP1J HTMP1S : Prog F _) 16 0 := by
  unfold hgemvzd_90_I
  le_line

theorem le_hgemvzd_100_I (A : Int) (J : Int) (LDA : Int) (X : Int) (I : Int) (HTMP1J : Cplx F) (HTMP1S : Cplx F) : CntLe (hgemvzd_100_I A J LDA X I HTMP1J HTMP1S : Prog F _) 16 0 := by
  unfold hgemvzd_100_I
  le_line

theorem le_hgemvzd_if127 (A : Int) (HTMP1J : Cplx F) (HTMP1S : Cplx F) (J : Int) (LDA : Int) (M : Int) (NOCONJ : Bool) (X : Int) :
    CntLe (hgemvzd_if127 A HTMP1J HTMP1S J LDA M NOCONJ X : Prog F _) (M.toNat * 16) (0) := by
  unfold hgemvzd_if127
  try dsimp only
  refine CntLe.ite (fun _ => ?_) (fun _ => ?_)
  · exact CntLe.bindL (CntLe.fold_const fun _ _ _ => le_hgemvzd_90_I ..) (fun _ => .ret)
  · exact CntLe.bindL (CntLe.fold_const fun _ _ _ => le_hgemvzd_100_I ..) (fun _ => .ret)

theorem le_hgemvzd_110_J (A : Int) (ALPHA : Cplx F) (INCY : Int) (LDA : Int) (M : Int) (NOCONJ : Bool) (X : Int) (Y : Int) (J : Int) (JY : Int) :
    CntLe (hgemvzd_110_J A ALPHA INCY LDA M NOCONJ X Y J JY : Prog F _) (M.toNat * 16 + 4) (4) := by
  unfold hgemvzd_110_J
  try dsimp only
  refine CntLe.mono (CntLe.bind (le_hgemvzd_if127 ..) (fun _ => (?_ : CntLe _ 4 4))) (by omega) (by omega)
  le_line2

theorem le_hgemvzd_120_I (A : Int) (INCX : Int) (J : Int) (LDA : Int) (X : Int) (I : Int) (HTMP1J : Cplx F) (HTMP1S : Cplx F) (IX : Int) : CntLe (hgemvzd_120_I A INCX J LDA X I HTMP1J HTMP1S IX : Prog F _) 16 0 := by
  unfold hgemvzd_120_I
  le_line

theorem le_hgemvzd_130_I (A : Int) (INCX : Int) (J : Int) (LDA : Int) (X : Int) (I : Int) (HTMP1J : Cplx F) (HTMP1S : Cplx F) (IX : Int) : CntLe (hgemvzd_130_I A INCX J LDA X I HTMP1J HTMP1S IX : Prog F _) 16 0 := by
  unfold hgemvzd_130_I
  le_line

theorem le_hgemvzd_if153 (A : Int) (HTMP1J : Cplx F) (HTMP1S : Cplx F) (INCX : Int) (IX : Int) (J : Int) (LDA : Int) (M : Int) (NOCONJ : Bool) (X : Int) :
    CntLe (hgemvzd_if153 A HTMP1J HTMP1S INCX IX J LDA M NOCONJ X : Prog F _) (M.toNat * 16) (0) := by
  unfold hgemvzd_if153
  try dsimp only
  refine CntLe.ite (fun _ => ?_) (fun _ => ?_)
  · exact CntLe.bindL (CntLe.fold_const fun _ _ _ => le_hgemvzd_120_I ..) (fun _ => .ret)
  · exact CntLe.bindL (CntLe.fold_const fun _ _ _ => le_hgemvzd_130_I ..) (fun _ => .ret)

theorem le_hgemvzd_140_J (A : Int) (ALPHA : Cplx F) (INCX : Int) (INCY : Int) (KX : Int) (LDA : Int) (M : Int) (NOCONJ : Bool) (X : Int) (Y : Int) (J : Int) (JY : Int) :
    CntLe (hgemvzd_140_J A ALPHA INCX INCY KX LDA M NOCONJ X Y J JY : Prog F _) (M.toNat * 16 + 4) (4) := by
  unfold hgemvzd_140_J
  try dsimp only
  refine CntLe.mono (CntLe.bind (le_hgemvzd_if153 ..) (fun _ => (?_ : CntLe _ 4 4))) (by omega) (by omega)
  le_line2

theorem le_hgemvzd_if123 (A : Int) (ALPHA : Cplx F) (INCX : Int) (INCY : Int) (JY : Int) (KX : Int) (LDA : Int) (M : Int) (N : Int) (NOCONJ : Bool) (X : Int) (Y : Int) :
    CntLe (hgemvzd_if123 A ALPHA INCX INCY JY KX LDA M N NOCONJ X Y : Prog F _) (N.toNat * (M.toNat * 20 + 16)) (N.toNat * (M.toNat * 4 + 4)) := by
  unfold hgemvzd_if123
  try dsimp only
  refine CntLe.ite (fun _ => ?_) (fun _ => ?_)
  · exact CntLe.mono (CntLe.bindL (CntLe.fold_const fun _ _ _ => le_hgemvzd_110_J ..) (fun _ => .ret)) (gemv_r2 ..) (gemv_w2 ..)
  · exact CntLe.mono (CntLe.bindL (CntLe.fold_const fun _ _ _ => le_hgemvzd_140_J ..) (fun _ => .ret)) (gemv_r2 ..) (gemv_w2 ..)

theorem le_hgemvzd_if90 (A : Int) (ALPHA : Cplx F) (INCX : Int) (INCY : Int) (KX : Int) (KY : Int) (LDA : Int) (M : Int) (N : Int) (NOCONJ : Bool) (TRANS : Char) (X : Int) (Y : Int) :
    CntLe (hgemvzd_if90 A ALPHA INCX INCY KX KY LDA M N NOCONJ TRANS X Y : Prog F _) (N.toNat * (M.toNat * 20 + 16)) (N.toNat * (M.toNat * 4 + 4)) := by
  unfold hgemvzd_if90
  try dsimp only
  refine CntLe.ite (fun _ => ?_) (fun _ => ?_)
  · exact CntLe.bindL (le_hgemvzd_if92 ..) fun _ => .ret
  · exact CntLe.bindL (le_hgemvzd_if123 ..) fun _ => .ret

theorem le_hgemvzd (TRANS : Char) (M : Int) (N : Int) (ALPHA : Cplx F) (A : Int) (LDA : Int) (X : Int) (INCX : Int) (BETA : F) (Y : Int) (INCY : Int) :
    CntLe (hgemvzd TRANS M N ALPHA A LDA X INCX BETA Y INCY : Prog F _) (max M.toNat N.toNat * 8 + N.toNat * (M.toNat * 20 + 16)) (max M.toNat N.toNat * 4 + N.toNat * (M.toNat * 4 + 4)) := by
  unfold hgemvzd
  try dsimp only
  split <;> refine CntLe.pureBind (CntLe.ite (fun _ => .ret) fun _ => CntLe.bind0 (CntLe.ite (fun _ => .ret) fun _ => .ret) fun _ =>
    CntLe.bind0 (CntLe.ite (fun _ => .ret) fun _ => .ret) fun _ => CntLe.bind (CntLe.mono (le_hgemvzd_if57 ..) ?_ ?_) fun _ =>
    CntLe.ite (fun _ => .ret) fun _ => CntLe.bindL (le_hgemvzd_if90 ..) fun _ => .ret)
  all_goals first | exact Nat.mul_le_mul_right _ (le_max_left _ _) | exact Nat.mul_le_mul_right _ (le_max_right _ _)

theorem le_hgemvzz_10_I (Y : Int) (I : Int) : CntLe (hgemvzz_10_I Y I : Prog F _) 8 4 := by
  unfold hgemvzz_10_I
  le_line

theorem le_hgemvzz_20_I (BETA : Cplx F) (Y : Int) (I : Int) : CntLe (hgemvzz_20_I BETA Y I : Prog F _) 8 4 := by
  unfold hgemvzz_20_I
  le_line

theorem le_hgemvzz_if58 (BETA : Cplx F) (BZERO : Bool) (LENY : Int) (Y : Int) :
    CntLe (hgemvzz_if58 BETA BZERO LENY Y : Prog F _) (LENY.toNat * 8) (LENY.toNat * 4) := by
  unfold hgemvzz_if58
  try dsimp only
  refine CntLe.ite (fun _ => ?_) (fun _ => ?_)
  · exact CntLe.bindL (CntLe.forN fun _ _ => le_hgemvzz_10_I ..) (fun _ => .ret)
  · exact CntLe.bindL (CntLe.forN fun _ _ => le_hgemvzz_20_I ..) (fun _ => .ret)

theorem le_hgemvzz_30_I (INCY : Int) (Y : Int) (I : Int) (IY : Int) : CntLe (hgemvzz_30_I INCY Y I IY : Prog F _) 8 4 := by
  unfold hgemvzz_30_I
  le_line

theorem le_hgemvzz_40_I (BETA : Cplx F) (INCY : Int) (Y : Int) (I : Int) (IY : Int) : CntLe (hgemvzz_40_I BETA INCY Y I IY : Prog F _) 8 4 := by
  unfold hgemvzz_40_I
  le_line

theorem le_hgemvzz_if71 (BETA : Cplx F) (BZERO : Bool) (INCY : Int) (IY : Int) (LENY : Int) (Y : Int) :
    CntLe (hgemvzz_if71 BETA BZERO INCY IY LENY Y : Prog F _) (LENY.toNat * 8) (LENY.toNat * 4) := by
  unfold hgemvzz_if71
  try dsimp only
  refine CntLe.ite (fun _ => ?_) (fun _ => ?_)
  · exact CntLe.bindL (CntLe.fold_const fun _ _ _ => le_hgemvzz_30_I ..) (fun _ => .ret)
  · exact CntLe.bindL (CntLe.fold_const fun _ _ _ => le_hgemvzz_40_I ..) (fun _ => .ret)

theorem le_hgemvzz_if57 (BETA : Cplx F) (BZERO : Bool) (INCY : Int) (KY : Int) (LENY : Int) (Y : Int) :
    CntLe (hgemvzz_if57 BETA BZERO INCY KY LENY Y : Prog F _) (LENY.toNat * 8) (LENY.toNat * 4) := by
  unfold hgemvzz_if57
  try dsimp only
  refine CntLe.ite (fun _ => ?_) (fun _ => ?_)
  · exact CntLe.bindL (le_hgemvzz_if58 ..) fun _ => .ret
  · exact CntLe.bindL (le_hgemvzz_if71 ..) fun _ => .ret

theorem le_hgemvzz_if56 (BETA : Cplx F) (BONE : Bool) (BZERO : Bool) (INCY : Int) (KY : Int) (LENY : Int) (Y : Int) :
    CntLe (hgemvzz_if56 BETA BONE BZERO INCY KY LENY Y : Prog F _) (LENY.toNat * 8) (LENY.toNat * 4) := by
  unfold hgemvzz_if56
  try dsimp only
  refine CntLe.ite (fun _ => ?_) (fun _ => ?_)
  · exact CntLe.bindL (le_hgemvzz_if57 ..) fun _ => .ret
  · exact .ret

theorem le_hgemvzz_50_I (A : Int) (HTMP1J : Cplx F) (HTMP1S : Cplx F) (HTMP2J : Cplx F) (HTMP2S : Cplx F) (J : Int) (LDA : Int) (Y : Int) (I : Int) : CntLe (hgemvzz_50_I A HTMP1J HTMP1S HTMP2J HTMP2S J LDA Y I : Prog F _) 20 4 := by
  unfold hgemvzz_50_I
  le_line

theorem le_hgemvzz_60_J (A : Int) (ALPHA : Cplx F) (INCX : Int) (LDA : Int) (M : Int) (X : Int) (Y : Int) (J : Int) (JX : Int) :
    CntLe (hgemvzz_60_J A ALPHA INCX LDA M X Y J JX : Prog F _) (M.toNat * 20 + 16) (M.toNat * 4) := by
  unfold hgemvzz_60_J
  try dsimp only
  repeat (first | refine le_rdC_bind fun _ => ?_ | refine .rd fun _ => ?_)
  exact CntLe.mono (CntLe.bindL (CntLe.forN fun _ _ => le_hgemvzz_50_I ..) (fun _ => .ret)) (by omega) (by omega)

theorem le_hgemvzz_70_I (A : Int) (HTMP1J : Cplx F) (HTMP1S : Cplx F) (HTMP2J : Cplx F) (HTMP2S : Cplx F) (INCY : Int) (J : Int) (LDA : Int) (Y : Int) (I : Int) (IY : Int) : CntLe (hgemvzz_70_I A HTMP1J HTMP1S HTMP2J HTMP2S INCY J LDA Y I IY : Prog F _) 20 4 := by
  unfold hgemvzz_70_I
  le_line

theorem le_hgemvzz_80_J (A : Int) (ALPHA : Cplx F) (INCX : Int) (INCY : Int) (KY : Int) (LDA : Int) (M : Int) (X : Int) (Y : Int) (J : Int) (JX : Int) :
    CntLe (hgemvzz_80_J A ALPHA INCX INCY KY LDA M X Y J JX : Prog F _) (M.toNat * 20 + 16) (M.toNat * 4) := by
  unfold hgemvzz_80_J
  try dsimp only
  repeat (first | refine le_rdC_bind fun _ => ?_ | refine .rd fun _ => ?_)
  exact CntLe.mono (CntLe.bindL (CntLe.fold_const fun _ _ _ => le_hgemvzz_70_I ..) (fun _ => .ret)) (by omega) (by omega)

theorem le_hgemvzz_if91 (A : Int) (ALPHA : Cplx F) (INCX : Int) (INCY : Int) (JX : Int) (KY : Int) (LDA : Int) (M : Int) (N : Int) (X : Int) (Y : Int) :
    CntLe (hgemvzz_if91 A ALPHA INCX INCY JX KY LDA M N X Y : Prog F _) (N.toNat * (M.toNat * 20 + 16)) (N.toNat * (M.toNat * 4 + 4)) := by
  unfold hgemvzz_if91
  try dsimp only
  refine CntLe.ite (fun _ => ?_) (fun _ => ?_)
  · exact CntLe.mono (CntLe.bindL (CntLe.fold_const fun _ _ _ => le_hgemvzz_60_J ..) (fun _ => .ret)) le_rfl (gemv_w1 ..)
  · exact CntLe.mono (CntLe.bindL (CntLe.fold_const fun _ _ _ => le_hgemvzz_80_J ..) (fun _ => .ret)) le_rfl (gemv_w1 ..)

theorem le_hgemvzz_90_I (A : Int) (J : Int) (LDA : Int) (X : Int) (I : Int) (HTMP1J : Cplx F) (HTMP1S : Cplx F) : CntLe (hgemvzz_90_I A J LDA X I HTMP1J HTMP1S : Prog F _) 16 0 := by
  unfold hgemvzz_90_I
  le_line

theorem le_hgemvzz_100_I (A : Int) (J : Int) (LDA : Int) (X : Int) (I : Int) (HTMP1J : Cplx F) (HTMP1S : Cplx F) : CntLe (hgemvzz_100_I A J LDA X I HTMP1J HTMP1S : Prog F _) 16 0 := by
  unfold hgemvzz_100_I
  le_line

theorem le_hgemvzz_if126 (A : Int) (HTMP1J : Cplx F) (HTMP1S : Cplx F) (J : Int) (LDA : Int) (M : Int) (NOCONJ : Bool) (X : Int) :
    CntLe (hgemvzz_if126 A HTMP1J HTMP1S J LDA M NOCONJ X : Prog F _) (M.toNat * 16) (0) := by
  unfold hgemvzz_if126
  try dsimp only
  refine CntLe.ite (fun _ => ?_) (fun _ => ?_)
  · exact CntLe.bindL (CntLe.fold_const fun _ _ _ => le_hgemvzz_90_I ..) (fun _ => .ret)
  · exact CntLe.bindL (CntLe.fold_const fun _ _ _ => le_hgemvzz_100_I ..) (fun _ => .ret)

theorem le_hgemvzz_110_J (A : Int) (ALPHA : Cplx F) (INCY : Int) (LDA : Int) (M : Int) (NOCONJ : Bool) (X : Int) (Y : Int) (J : Int) (JY : Int) :
    CntLe (hgemvzz_110_J A ALPHA INCY LDA M NOCONJ X Y J JY : Prog F _) (M.toNat * 16 + 4) (4) := by
  unfold hgemvzz_110_J
  try dsimp only
  refine CntLe.mono (CntLe.bind (le_hgemvzz_if126 ..) (fun _ => (?_ : CntLe _ 4 4))) (by omega) (by omega)
  le_line2

theorem le_hgemvzz_120_I (A : Int) (INCX : Int) (J : Int) (LDA : Int) (X : Int) (I : Int) (HTMP1J : Cplx F) (HTMP1S : Cplx F) (IX : Int) : CntLe (hgemvzz_120_I A INCX J LDA X I HTMP1J HTMP1S IX : Prog F _) 16 0 := by
  unfold hgemvzz_120_I
  le_line

theorem le_hgemvzz_130_I (A : Int) (INCX : Int) (J : Int) (LDA : Int) (X : Int) (I : Int) (HTMP1J : Cplx F) (HTMP1S : Cplx F) (IX : Int) : CntLe (hgemvzz_130_I A INCX J LDA X I HTMP1J HTMP1S IX : Prog F _) 16 0 := by
  unfold hgemvzz_130_I
  le_line

theorem le_hgemvzz_if152 (A : Int) (HTMP1J : Cplx F) (HTMP1S : Cplx F) (INCX : Int) (IX : Int) (J : Int) (LDA : Int) (M : Int) (NOCONJ : Bool) (X : Int) :
    CntLe (hgemvzz_if152 A HTMP1J HTMP1S INCX IX J LDA M NOCONJ X : Prog F _) (M.toNat * 16) (0) := by
  unfold hgemvzz_if152
  try dsimp only
  refine CntLe.ite (fun _ => ?_) (fun _ => ?_)
  · exact CntLe.bindL (CntLe.fold_const fun _ _ _ => le_hgemvzz_120_I ..) (fun _ => .ret)
  · exact CntLe.bindL (CntLe.fold_const fun _ _ _ => le_hgemvzz_130_I ..) (fun _ => .ret)

theorem le_hgemvzz_140_J (A : Int) (ALPHA : Cplx F) (INCX : Int) (INCY : Int) (KX : Int) (LDA : Int) (M : Int) (NOCONJ : Bool) (X : Int) (Y : Int) (J : Int) (JY : Int) :
    CntLe (hgemvzz_140_J A ALPHA INCX INCY KX LDA M NOCONJ X Y J JY : Prog F _) (M.toNat * 16 + 4) (4) := by
  unfold hgemvzz_140_J
  try dsimp only
  refine CntLe.mono (CntLe.bind (le_hgemvzz_if152 ..) (fun _ => (?_ : CntLe _ 4 4))) (by omega) (by omega)
  le_line2

theorem le_hgemvzz_if122 (A : Int) (ALPHA : Cplx F) (INCX : Int) (INCY : Int) (JY : Int) (KX : Int) (LDA : Int) (M : Int) (N : Int) (NOCONJ : Bool) (X : Int) (Y : Int) :
    CntLe (hgemvzz_if122 A ALPHA INCX INCY JY KX LDA M N NOCONJ X Y : Prog F _) (N.toNat * (M.toNat * 20 + 16)) (N.toNat * (M.toNat * 4 + 4)) := by
  unfold hgemvzz_if122
  try dsimp only
  refine CntLe.ite (fun _ => ?_) (fun _ => ?_)
  · exact CntLe.mono (CntLe.bindL (CntLe.fold_const fun _ _ _ => le_hgemvzz_110_J ..) (fun _ => .ret)) (gemv_r2 ..) (gemv_w2 ..)
  · exact CntLe.mono (CntLe.bindL (CntLe.fold_const fun _ _ _ => le_hgemvzz_140_J ..) (fun _ => .ret)) (gemv_r2 ..) (gemv_w2 ..)

theorem le_hgemvzz_if89 (A : Int) (ALPHA : Cplx F) (INCX : Int) (INCY : Int) (KX : Int) (KY : Int) (LDA : Int) (M : Int) (N : Int) (NOCONJ : Bool) (TRANS : Char) (X : Int) (Y : Int) :
    CntLe (hgemvzz_if89 A ALPHA INCX INCY KX KY LDA M N NOCONJ TRANS X Y : Prog F _) (N.toNat * (M.toNat * 20 + 16)) (N.toNat * (M.toNat * 4 + 4)) := by
  unfold hgemvzz_if89
  try dsimp only
  refine CntLe.ite (fun _ => ?_) (fun _ => ?_)
  · exact CntLe.bindL (le_hgemvzz_if91 ..) fun _ => .ret
  · exact CntLe.bindL (le_hgemvzz_if122 ..) fun _ => .ret

theorem le_hgemvzz (TRANS : Char) (M : Int) (N : Int) (ALPHA : Cplx F) (A : Int) (LDA : Int) (X : Int) (INCX : Int) (BETA : Cplx F) (Y : Int) (INCY : Int) :
    CntLe (hgemvzz TRANS M N ALPHA A LDA X INCX BETA Y INCY : Prog F _) (max M.toNat N.toNat * 8 + N.toNat * (M.toNat * 20 + 16)) (max M.toNat N.toNat * 4 + N.toNat * (M.toNat * 4 + 4)) := by
  unfold hgemvzz
  try dsimp only
  split <;> refine CntLe.pureBind (CntLe.ite (fun _ => .ret) fun _ => CntLe.bind0 (CntLe.ite (fun _ => .ret) fun _ => .ret) fun _ =>
    CntLe.bind0 (CntLe.ite (fun _ => .ret) fun _ => .ret) fun _ => CntLe.bind (CntLe.mono (le_hgemvzz_if56 ..) ?_ ?_) fun _ =>
    CntLe.ite (fun _ => .ret) fun _ => CntLe.bindL (le_hgemvzz_if89 ..) fun _ => .ret)
  all_goals first | exact Nat.mul_le_mul_right _ (le_max_left _ _) | exact Nat.mul_le_mul_right _ (le_max_right _ _)

theorem le_hgemvzh_10_I (Y : Int) (I : Int) : CntLe (hgemvzh_10_I Y I : Prog F _) 8 4 := by
  unfold hgemvzh_10_I
  le_line

theorem le_hgemvzh_20_I (BETA : Quat F) (Y : Int) (I : Int) : CntLe (hgemvzh_20_I BETA Y I : Prog F _) 8 4 := by
  unfold hgemvzh_20_I
  le_line

theorem le_hgemvzh_if58 (BETA : Quat F) (BZERO : Bool) (LENY : Int) (Y : Int) :
    CntLe (hgemvzh_if58 BETA BZERO LENY Y : Prog F _) (LENY.toNat * 8) (LENY.toNat * 4) := by
  unfold hgemvzh_if58
  try dsimp only
  refine CntLe.ite (fun _ => ?_) (fun _ => ?_)
  · exact CntLe.bindL (CntLe.forN fun _ _ => le_hgemvzh_10_I ..) (fun _ => .ret)
  · exact CntLe.bindL (CntLe.forN fun _ _ => le_hgemvzh_20_I ..) (fun _ => .ret)

theorem le_hgemvzh_30_I (INCY : Int) (Y : Int) (I : Int) (IY : Int) : CntLe (hgemvzh_30_I INCY Y I IY : Prog F _) 8 4 := by
  unfold hgemvzh_30_I
  le_line

theorem le_hgemvzh_40_I (BETA : Quat F) (INCY : Int) (Y : Int) (I : Int) (IY : Int) : CntLe (hgemvzh_40_I BETA INCY Y I IY : Prog F _) 8 4 := by
  unfold hgemvzh_40_I
  le_line

theorem le_hgemvzh_if72 (BETA : Quat F) (BZERO : Bool) (INCY : Int) (IY : Int) (LENY : Int) (Y : Int) :
    CntLe (hgemvzh_if72 BETA BZERO INCY IY LENY Y : Prog F _) (LENY.toNat * 8) (LENY.toNat * 4) := by
  unfold hgemvzh_if72
  try dsimp only
  refine CntLe.ite (fun _ => ?_) (fun _ => ?_)
  · exact CntLe.bindL (CntLe.fold_const fun _ _ _ => le_hgemvzh_30_I ..) (fun _ => .ret)
  · exact CntLe.bindL (CntLe.fold_const fun _ _ _ => le_hgemvzh_40_I ..) (fun _ => .ret)

theorem le_hgemvzh_if57 (BETA : Quat F) (BZERO : Bool) (INCY : Int) (KY : Int) (LENY : Int) (Y : Int) :
    CntLe (hgemvzh_if57 BETA BZERO INCY KY LENY Y : Prog F _) (LENY.toNat * 8) (LENY.toNat * 4) := by
  unfold hgemvzh_if57
  try dsimp only
  refine CntLe.ite (fun _ => ?_) (fun _ => ?_)
  · exact CntLe.bindL (le_hgemvzh_if58 ..) fun _ => .ret
  · exact CntLe.bindL (le_hgemvzh_if72 ..) fun _ => .ret

theorem le_hgemvzh_if56 (BETA : Quat F) (BONE : Bool) (BZERO : Bool) (INCY : Int) (KY : Int) (LENY : Int) (Y : Int) :
    CntLe (hgemvzh_if56 BETA BONE BZERO INCY KY LENY Y : Prog F _) (LENY.toNat * 8) (LENY.toNat * 4) := by
  unfold hgemvzh_if56
  try dsimp only
  refine CntLe.ite (fun _ => ?_) (fun _ => ?_)
  · exact CntLe.bindL (le_hgemvzh_if57 ..) fun _ => .ret
  · exact .ret

theorem le_hgemvzh_50_I (A : Int) (HTMP1J : Cplx F) (HTMP1S : Cplx F) (HTMP2J : Cplx F) (HTMP2S : Cplx F) (J : Int) (LDA : Int) (Y : Int) (I : Int) : CntLe (hgemvzh_50_I A HTMP1J HTMP1S HTMP2J HTMP2S J LDA Y I : Prog F _) 20 4 := by
  unfold hgemvzh_50_I
  le_line

theorem le_hgemvzh_60_J (A : Int) (ALPHA : Cplx F) (INCX : Int) (LDA : Int) (M : Int) (X : Int) (Y : Int) (J : Int) (JX : Int) :
    CntLe (hgemvzh_60_J A ALPHA INCX LDA M X Y J JX : Prog F _) (M.toNat * 20 + 16) (M.toNat * 4) := by
  unfold hgemvzh_60_J
  try dsimp only
  repeat (first | refine le_rdC_bind fun _ => ?_ | refine .rd fun _ => ?_)
  exact CntLe.mono (CntLe.bindL (CntLe.forN fun _ _ => le_hgemvzh_50_I ..) (fun _ => .ret)) (by omega) (by omega)

theorem le_hgemvzh_70_I (A : Int) (HTMP1J : Cplx F) (HTMP1S : Cplx F) (HTMP2J : Cplx F) (HTMP2S : Cplx F) (INCY : Int) (J : Int) (LDA : Int) (Y : Int) (I : Int) (IY : Int) : CntLe (hgemvzh_70_I A HTMP1J HTMP1S HTMP2J HTMP2S INCY J LDA Y I IY : Prog F _) 20 4 := by
  unfold hgemvzh_70_I
  le_line

theorem le_hgemvzh_80_J (A : Int) (ALPHA : Cplx F) (INCX : Int) (INCY : Int) (KY : Int) (LDA : Int) (M : Int) (X : Int) (Y : Int) (J : Int) (JX : Int) :
    CntLe (hgemvzh_80_J A ALPHA INCX INCY KY LDA M X Y J JX : Prog F _) (M.toNat * 20 + 16) (M.toNat * 4) := by
  unfold hgemvzh_80_J
  try dsimp only
  repeat (first | refine le_rdC_bind fun _ => ?_ | refine .rd fun _ => ?_)
  exact CntLe.mono (CntLe.bindL (CntLe.fold_const fun _ _ _ => le_hgemvzh_70_I ..) (fun _ => .ret)) (by omega) (by omega)

theorem le_hgemvzh_if93 (A : Int) (ALPHA : Cplx F) (INCX : Int) (INCY : Int) (JX : Int) (KY : Int) (LDA : Int) (M : Int) (N : Int) (X : Int) (Y : Int) :
    CntLe (hgemvzh_if93 A ALPHA INCX INCY JX KY LDA M N X Y : Prog F _) (N.toNat * (M.toNat * 20 + 16)) (N.toNat * (M.toNat * 4 + 4)) := by
  unfold hgemvzh_if93
  try dsimp only
  refine CntLe.ite (fun _ => ?_) (fun _ => ?_)
  · exact CntLe.mono (CntLe.bindL (CntLe.fold_const fun _ _ _ => le_hgemvzh_60_J ..) (fun _ => .ret)) le_rfl (gemv_w1 ..)
  · exact CntLe.mono (CntLe.bindL (CntLe.fold_const fun _ _ _ => le_hgemvzh_80_J ..) (fun _ => .ret)) le_rfl (gemv_w1 ..)

theorem le_hgemvzh_90_I (A : Int) (J : Int) (LDA : Int) (X : Int) (I : Int) (HTMP1J : Cplx F) (HTMP1S : Cplx F) : CntLe (hgemvzh_90_I A J LDA X I HTMP1J HTMP1S : Prog F _) 16 0 := by
  unfold hgemvzh_90_I
  le_line

theorem le_hgemvzh_100_I (A : Int) (J : Int) (LDA : Int) (X : Int) (I : Int) (HTMP1J : Cplx F) (HTMP1S : Cplx F) : CntLe (hgemvzh_100_I A J LDA X I HTMP1J HTMP1S : Prog F _) 16 0 := by
  unfold hgemvzh_100_I
  le_line

theorem le_hgemvzh_if128 (A : Int) (HTMP1J : Cplx F) (HTMP1S : Cplx F) (J : Int) (LDA : Int) (M : Int) (NOCONJ : Bool) (X : Int) :
    CntLe (hgemvzh_if128 A HTMP1J HTMP1S J LDA M NOCONJ X : Prog F _) (M.toNat * 16) (0) := by
  unfold hgemvzh_if128
  try dsimp only
  refine CntLe.ite (fun _ => ?_) (fun _ => ?_)
  · exact CntLe.bindL (CntLe.fold_const fun _ _ _ => le_hgemvzh_90_I ..) (fun _ => .ret)
  · exact CntLe.bindL (CntLe.fold_const fun _ _ _ => le_hgemvzh_100_I ..) (fun _ => .ret)

theorem le_hgemvzh_110_J (A : Int) (ALPHA : Cplx F) (INCY : Int) (LDA : Int) (M : Int) (NOCONJ : Bool) (X : Int) (Y : Int) (J : Int) (JY : Int) :
    CntLe (hgemvzh_110_J A ALPHA INCY LDA M NOCONJ X Y J JY : Prog F _) (M.toNat * 16 + 4) (4) := by
  unfold hgemvzh_110_J
  try dsimp only
  refine CntLe.mono (CntLe.bind (le_hgemvzh_if128 ..) (fun _ => (?_ : CntLe _ 4 4))) (by omega) (by omega)
  le_line2

theorem le_hgemvzh_120_I (A : Int) (INCX : Int) (J : Int) (LDA : Int) (X : Int) (I : Int) (HTMP1J : Cplx F) (HTMP1S : Cplx F) (IX : Int) : CntLe (hgemvzh_120_I A INCX J LDA X I HTMP1J HTMP1S IX : Prog F _) 16 0 := by
  unfold hgemvzh_120_I
  le_line

theorem le_hgemvzh_130_I (A : Int) (INCX : Int) (J : Int) (LDA : Int) (X : Int) (I : Int) (HTMP1J : Cplx F) (HTMP1S : Cplx F) (IX : Int) : CntLe (hgemvzh_130_I A INCX J LDA X I HTMP1J HTMP1S IX : Prog F _) 16 0 := by
  unfold hgemvzh_130_I
  le_line

theorem le_hgemvzh_if154 (A : Int) (HTMP1J : Cplx F) (HTMP1S : Cplx F) (INCX : Int) (IX : Int) (J : Int) (LDA : Int) (M : Int) (NOCONJ : Bool) (X : Int) :
    CntLe (hgemvzh_if154 A HTMP1J HTMP1S INCX IX J LDA M NOCONJ X : Prog F _) (M.toNat * 16) (0) := by
  unfold hgemvzh_if154
  try dsimp only
  refine CntLe.ite (fun _ => ?_) (fun _ => ?_)
  · exact CntLe.bindL (CntLe.fold_const fun _ _ _ => le_hgemvzh_120_I ..) (fun _ => .ret)
  · exact CntLe.bindL (CntLe.fold_const fun _ _ _ => le_hgemvzh_130_I ..) (fun _ => .ret)

theorem le_hgemvzh_140_J (A : Int) (ALPHA : Cplx F) (INCX : Int) (INCY : Int) (KX : Int) (LDA : Int) (M : Int) (NOCONJ : Bool) (X : Int) (Y : Int) (J : Int) (JY : Int) :
    CntLe (hgemvzh_140_J A ALPHA INCX INCY KX LDA M NOCONJ X Y J JY : Prog F _) (M.toNat * 16 + 4) (4) := by
  unfold hgemvzh_140_J
  try dsimp only
  refine CntLe.mono (CntLe.bind (le_hgemvzh_if154 ..) (fun _ => (?_ : CntLe _ 4 4))) (by omega) (by omega)
  le_line2

theorem le_hgemvzh_if124 (A : Int) (ALPHA : Cplx F) (INCX : Int) (INCY : Int) (JY : Int) (KX : Int) (LDA : Int) (M : Int) (N : Int) (NOCONJ : Bool) (X : Int) (Y : Int) :
    CntLe (hgemvzh_if124 A ALPHA INCX INCY JY KX LDA M N NOCONJ X Y : Prog F _) (N.toNat * (M.toNat * 20 + 16)) (N.toNat * (M.toNat * 4 + 4)) := by
  unfold hgemvzh_if124
  try dsimp only
  refine CntLe.ite (fun _ => ?_) (fun _ => ?_)
  · exact CntLe.mono (CntLe.bindL (CntLe.fold_const fun _ _ _ => le_hgemvzh_110_J ..) (fun _ => .ret)) (gemv_r2 ..) (gemv_w2 ..)
  · exact CntLe.mono (CntLe.bindL (CntLe.fold_const fun _ _ _ => le_hgemvzh_140_J ..) (fun _ => .ret)) (gemv_r2 ..) (gemv_w2 ..)

theorem le_hgemvzh_if91 (A : Int) (ALPHA : Cplx F) (INCX : Int) (INCY : Int) (KX : Int) (KY : Int) (LDA : Int) (M : Int) (N : Int) (NOCONJ : Bool) (TRANS : Char) (X : Int) (Y : Int) :
    CntLe (hgemvzh_if91 A ALPHA INCX INCY KX KY LDA M N NOCONJ TRANS X Y : Prog F _) (N.toNat * (M.toNat * 20 + 16)) (N.toNat * (M.toNat * 4 + 4)) := by
  unfold hgemvzh_if91
  try dsimp only
  refine CntLe.ite (fun _ => ?_) (fun _ => ?_)
  · exact CntLe.bindL (le_hgemvzh_if93 ..) fun _ => .ret
  · exact CntLe.bindL (le_hgemvzh_if124 ..) fun _ => .ret

theorem le_hgemvzh (TRANS : Char) (M : Int) (N : Int) (ALPHA : Cplx F) (A : Int) (LDA : Int) (X : Int) (INCX : Int) (BETA : Quat F) (Y : Int) (INCY : Int) :
    CntLe (hgemvzh TRANS M N ALPHA A LDA X INCX BETA Y INCY : Prog F _) (max M.toNat N.toNat * 8 + N.toNat * (M.toNat * 20 + 16)) (max M.toNat N.toNat * 4 + N.toNat * (M.toNat * 4 + 4)) := by
  unfold hgemvzh
  try dsimp only
  split <;> refine CntLe.pureBind (CntLe.ite (fun _ => .ret) fun _ => CntLe.bind0 (CntLe.ite (fun _ => .ret) fun _ => .ret) fun _ =>
    CntLe.bind0 (CntLe.ite (fun _ => .ret) fun _ => .ret) fun _ => CntLe.bind (CntLe.mono (le_hgemvzh_if56 ..) ?_ ?_) fun _ =>
    CntLe.ite (fun _ => .ret) fun _ => CntLe.bindL (le_hgemvzh_if91 ..) fun _ => .ret)
  all_goals first | exact Nat.mul_le_mul_right _ (le_max_left _ _) | exact Nat.mul_le_mul_right _ (le_max_right _ _)

theorem le_hgemvhd_10_I (Y : Int) (I : Int) : CntLe (hgemvhd_10_I Y I : Prog F _) 8 4 := by
  unfold hgemvhd_10_I
  le_line

theorem le_hgemvhd_20_I (BETA : F) (Y : Int) (I : Int) : CntLe (hgemvhd_20_I BETA Y I : Prog F _) 8 4 := by
  unfold hgemvhd_20_I
  le_line

theorem le_hgemvhd_if60 (BETA : F) (BZERO : Bool) (LENY : Int) (Y : Int) :
    CntLe (hgemvhd_if60 BETA BZERO LENY Y : Prog F _) (LENY.toNat * 8) (LENY.toNat * 4) := by
  unfold hgemvhd_if60
  try dsimp only
  refine CntLe.ite (fun _ => ?_) (fun _ => ?_)
  · exact CntLe.bindL (CntLe.forN fun _ _ => le_hgemvhd_10_I ..) (fun _ => .ret)
  · exact CntLe.bindL (CntLe.forN fun _ _ => le_hgemvhd_20_I ..) (fun _ => .ret)

theorem le_hgemvhd_30_I (INCY : Int) (Y : Int) (I : Int) (IY : Int) : CntLe (hgemvhd_30_I INCY Y I IY : Prog F _) 8 4 := by
  unfold hgemvhd_30_I
  le_line

theorem le_hgemvhd_40_I (BETA : F) (INCY : Int) (Y : Int) (I : Int) (IY : Int) : CntLe (hgemvhd_40_I BETA INCY Y I IY : Prog F _) 8 4 := by
  unfold hgemvhd_40_I
  le_line

theorem le_hgemvhd_if73 (BETA : F) (BZERO : Bool) (INCY : Int) (IY : Int) (LENY : Int) (Y : Int) :
    CntLe (hgemvhd_if73 BETA BZERO INCY IY LENY Y : Prog F _) (LENY.toNat * 8) (LENY.toNat * 4) := by
  unfold hgemvhd_if73
  try dsimp only
  refine CntLe.ite (fun _ => ?_) (fun _ => ?_)
  · exact CntLe.bindL (CntLe.fold_const fun _ _ _ => le_hgemvhd_30_I ..) (fun _ => .ret)
  · exact CntLe.bindL (CntLe.fold_const fun _ _ _ => le_hgemvhd_40_I ..) (fun _ => .ret)

theorem le_hgemvhd_if59 (BETA : F) (BZERO : Bool) (INCY : Int) (KY : Int) (LENY : Int) (Y : Int) :
    CntLe (hgemvhd_if59 BETA BZERO INCY KY LENY Y : Prog F _) (LENY.toNat * 8) (LENY.toNat * 4) := by
  unfold hgemvhd_if59
  try dsimp only
  refine CntLe.ite (fun _ => ?_) (fun _ => ?_)
  · exact CntLe.bindL (le_hgemvhd_if60 ..) fun _ => .ret
  · exact CntLe.bindL (le_hgemvhd_if73 ..) fun _ => .ret

theorem le_hgemvhd_if58 (BETA : F) (BONE : Bool) (BZERO : Bool) (INCY : Int) (KY : Int) (LENY : Int) (Y : Int) :
    CntLe (hgemvhd_if58 BETA BONE BZERO INCY KY LENY Y : Prog F _) (LENY.toNat * 8) (LENY.toNat * 4) := by
  unfold hgemvhd_if58
  try dsimp only
  refine CntLe.ite (fun _ => ?_) (fun _ => ?_)
  · exact CntLe.bindL (le_hgemvhd_if59 ..) fun _ => .ret
  · exact .ret

theorem le_hgemvhd_50_I (A : Int) (HTMP1J : Cplx F) (HTMP1S : Cplx F) (HTMP2J : Cplx F) (HTMP2S : Cplx F) (HTMP3J : Cplx F) (HTMP3S : Cplx F) (HTMP4J : Cplx F) (HTMP4S : Cplx F) (J : Int) (LDA : Int) (Y : Int) (I : Int) : CntLe (hgemvhd_50_I A HTMP1J HTMP1S HTMP2J HTMP2S HTMP3J HTMP3S HTMP4J HTMP4S J LDA Y I : Prog F _) 20 4 := by
  unfold hgemvhd_50_I
  le_line

theorem le_hgemvhd_60_J (A : Int) (ALPHA : Quat F) (INCX : Int) (LDA : Int) (M : Int) (X : Int) (Y : Int) (J : Int) (JX : Int) :
    CntLe (hgemvhd_60_J A ALPHA INCX LDA M X Y J JX : Prog F _) (M.toNat * 20 + 16) (M.toNat * 4) := by
  unfold hgemvhd_60_J
  try dsimp only
  repeat (first | refine le_rdC_bind fun _ => ?_ | refine .rd fun _ => ?_)
  exact CntLe.mono (CntLe.bindL (CntLe.forN fun _ _ => le_hgemvhd_50_I ..) (fun _ => .ret)) (by omega) (by omega)

theorem le_hgemvhd_70_I (A : Int) (HTMP1J : Cplx F) (HTMP1S : Cplx F) (HTMP2J : Cplx F) (HTMP2S : Cplx F) (HTMP3J : Cplx F) (HTMP3S : Cplx F) (HTMP4J : Cplx F) (HTMP4S : Cplx F) (INCY : Int) (J : Int) (LDA : Int) (Y : Int) (I : Int) (IY : Int) : CntLe (hgemvhd_70_I A HTMP1J HTMP1S HTMP2J HTMP2S HTMP3J HTMP3S HTMP4J HTMP4S INCY J LDA Y I IY : Prog F _) 20 4 := by
  unfold hgemvhd_70_I
  le_line

theorem le_hgemvhd_80_J (A : Int) (ALPHA : Quat F) (INCX : Int) (INCY : Int) (KY : Int) (LDA : Int) (M : Int) (X : Int) (Y : Int) (J : Int) (JX : Int) :
    CntLe (hgemvhd_80_J A ALPHA INCX INCY KY LDA M X Y J JX : Prog F _) (M.toNat * 20 + 16) (M.toNat * 4) := by
  unfold hgemvhd_80_J
  try dsimp only
  repeat (first | refine le_rdC_bind fun _ => ?_ | refine .rd fun _ => ?_)
  exact CntLe.mono (CntLe.bindL (CntLe.fold_const fun _ _ _ => le_hgemvhd_70_I ..) (fun _ => .ret)) (by omega) (by omega)

theorem le_hgemvhd_if93 (A : Int) (ALPHA : Quat F) (INCX : Int) (INCY : Int) (JX : Int) (KY : Int) (LDA : Int) (M : Int) (N : Int) (X : Int) (Y : Int) :
    CntLe (hgemvhd_if93 A ALPHA INCX INCY JX KY LDA M N X Y : Prog F _) (N.toNat * (M.toNat * 20 + 16)) (N.toNat * (M.toNat * 4 + 4)) := by
  unfold hgemvhd_if93
  try dsimp only
  refine CntLe.ite (fun _ => ?_) (fun _ => ?_)
  · exact CntLe.mono (CntLe.bindL (CntLe.fold_const fun _ _ _ => le_hgemvhd_60_J ..) (fun _ => .ret)) le_rfl (gemv_w1 ..)
  · exact CntLe.mono (CntLe.bindL (CntLe.fold_const fun _ _ _ => le_hgemvhd_80_J ..) (fun _ => .ret)) le_rfl (gemv_w1 ..)

theorem le_hgemvhd_90_I (A : Int) (J : Int) (LDA : Int) (X : Int) (I : Int) (HTMP1J : Cplx F) (HTMP1S : Cplx F) : CntLe (hgemvhd_90_I A J LDA X I HTMP1J HTMP1S : Prog F _) 16 0 := by
  unfold hgemvhd_90_I
  le_line

theorem le_hgemvhd_100_I (A : Int) (J : Int) (LDA : Int) (X : Int) (I : Int) (HTMP1J : Cplx F) (HTMP1S : Cplx F) : CntLe (hgemvhd_100_I A J LDA X I HTMP1J HTMP1S : Prog F _) 16 0 := by
  unfold hgemvhd_100_I
  le_line

theorem le_hgemvhd_if144 (A : Int) (HTMP1J : Cplx F) (HTMP1S : Cplx F) (J : Int) (LDA : Int) (M : Int) (NOCONJ : Bool) (X : Int) :
    CntLe (hgemvhd_if144 A HTMP1J HTMP1S J LDA M NOCONJ X : Prog F _) (M.toNat * 16) (0) := by
  unfold hgemvhd_if144
  try dsimp only
  refine CntLe.ite (fun _ => ?_) (fun _ => ?_)
  · exact CntLe.bindL (CntLe.fold_const fun _ _ _ => le_hgemvhd_90_I ..) (fun _ => .ret)
  · exact CntLe.bindL (CntLe.fold_const fun _ _ _ => le_hgemvhd_100_I ..) (fun _ => .ret)

theorem le_hgemvhd_110_J (A : Int) (ALPHA : Quat F) (INCY : Int) (LDA : Int) (M : Int) (NOCONJ : Bool) (X : Int) (Y : Int) (J : Int) (JY : Int) :
    CntLe (hgemvhd_110_J A ALPHA INCY LDA M NOCONJ X Y J JY : Prog F _) (M.toNat * 16 + 4) (4) := by
  unfold hgemvhd_110_J
  try dsimp only
  refine CntLe.mono (CntLe.bind (le_hgemvhd_if144 ..) (fun _ => (?_ : CntLe _ 4 4))) (by omega) (by omega)
  le_line2

theorem le_hgemvhd_120_I (A : Int) (INCX : Int) (J : Int) (LDA : Int) (X : Int) (I : Int) (HTMP1J : Cplx F) (HTMP1S : Cplx F) (IX : Int) : CntLe (hgemvhd_120_I A INCX J LDA X I HTMP1J HTMP1S IX : Prog F _) 16 0 := by
  unfold hgemvhd_120_I
  le_line

theorem le_hgemvhd_130_I (A : Int) (INCX : Int) (J : Int) (LDA : Int) (X : Int) (I : Int) (HTMP1J : Cplx F) (HTMP1S : Cplx F) (IX : Int) : CntLe (hgemvhd_130_I A INCX J LDA X I HTMP1J HTMP1S IX : Prog F _) 16 0 := by
  unfold hgemvhd_130_I
  le_line

theorem le_hgemvhd_if170 (A : Int) (HTMP1J : Cplx F) (HTMP1S : Cplx F) (INCX : Int) (IX : Int) (J : Int) (LDA : Int) (M : Int) (NOCONJ : Bool) (X : Int) :
    CntLe (hgemvhd_if170 A HTMP1J HTMP1S INCX IX J LDA M NOCONJ X : Prog F _) (M.toNat * 16) (0) := by
  unfold hgemvhd_if170
  try dsimp only
  refine CntLe.ite (fun _ => ?_) (fun _ => ?_)
  · exact CntLe.bindL (CntLe.fold_const fun _ _ _ => le_hgemvhd_120_I ..) (fun _ => .ret)
  · exact CntLe.bindL (CntLe.fold_const fun _ _ _ => le_hgemvhd_130_I ..) (fun _ => .ret)

theorem le_hgemvhd_140_J (A : Int) (ALPHA : Quat F) (INCX : Int) (INCY : Int) (KX : Int) (LDA : Int) (M : Int) (NOCONJ : Bool) (X : Int) (Y : Int) (J : Int) (JY : Int) :
    CntLe (hgemvhd_140_J A ALPHA INCX INCY KX LDA M NOCONJ X Y J JY : Prog F _) (M.toNat * 16 + 4) (4) := by
  unfold hgemvhd_140_J
  try dsimp only
  refine CntLe.mono (CntLe.bind (le_hgemvhd_if170 ..) (fun _ => (?_ : CntLe _ 4 4))) (by omega) (by omega)
  le_line2

theorem le_hgemvhd_if140 (A : Int) (ALPHA : Quat F) (INCX : Int) (INCY : Int) (JY : Int) (KX : Int) (LDA : Int) (M : Int) (N : Int) (NOCONJ : Bool) (X : Int) (Y : Int) :
    CntLe (hgemvhd_if140 A ALPHA INCX INCY JY KX LDA M N NOCONJ X Y : Prog F _) (N.toNat * (M.toNat * 20 + 16)) (N.toNat * (M.toNat * 4 + 4)) := by
  unfold hgemvhd_if140
  try dsimp only
  refine CntLe.ite (fun _ => ?_) (fun _ => ?_)
  · exact CntLe.mono (CntLe.bindL (CntLe.fold_const fun _ _ _ => le_hgemvhd_110_J ..) (fun _ => .ret)) (gemv_r2 ..) (gemv_w2 ..)
  · exact CntLe.mono (CntLe.bindL (CntLe.fold_const fun _ _ _ => le_hgemvhd_140_J ..) (fun _ => .ret)) (gemv_r2 ..) (gemv_w2 ..)

theorem le_hgemvhd_if91 (A : Int) (ALPHA : Quat F) (INCX : Int) (INCY : Int) (KX : Int) (KY : Int) (LDA : Int) (M : Int) (N : Int) (NOCONJ : Bool) (TRANS : Char) (X : Int) (Y : Int) :
    CntLe (hgemvhd_if91 A ALPHA INCX INCY KX KY LDA M N NOCONJ TRANS X Y : Prog F _) (N.toNat * (M.toNat * 20 + 16)) (N.toNat * (M.toNat * 4 + 4)) := by
  unfold hgemvhd_if91
  try dsimp only
  refine CntLe.ite (fun _ => ?_) (fun _ => ?_)
  · exact CntLe.bindL (le_hgemvhd_if93 ..) fun _ => .ret
  · exact CntLe.bindL (le_hgemvhd_if140 ..) fun _ => .ret

theorem le_hgemvhd (TRANS : Char) (M : Int) (N : Int) (ALPHA : Quat F) (A : Int) (LDA : Int) (X : Int) (INCX : Int) (BETA : F) (Y : Int) (INCY : Int) :
    CntLe (hgemvhd TRANS M N ALPHA A LDA X INCX BETA Y INCY : Prog F _) (max M.toNat N.toNat * 8 + N.toNat * (M.toNat * 20 + 16)) (max M.toNat N.toNat * 4 + N.toNat * (M.toNat * 4 + 4)) := by
  unfold hgemvhd
  try dsimp only
  split <;> refine CntLe.pureBind (CntLe.ite (fun _ => .ret) fun _ => CntLe.bind0 (CntLe.ite (fun _ => .ret) fun _ => .ret) fun _ =>
    CntLe.bind0 (CntLe.ite (fun _ => .ret) fun _ => .ret) fun _ => CntLe.bind (CntLe.mono (le_hgemvhd_if58 ..) ?_ ?_) fun _ =>
    CntLe.ite (fun _ => .ret) fun _ => CntLe.bindL (le_hgemvhd_if91 ..) fun _ => .ret)
  all_goals first | exact Nat.mul_le_mul_right _ (le_max_left _ _) | exact Nat.mul_le_mul_right _ (le_max_right _ _)

theorem le_hgemvhz_10_I (Y : Int) (I : Int) : CntLe (hgemvhz_10_I Y I : Prog F _) 8 4 := by
  unfold hgemvhz_10_I
  le_line

theorem le_hgemvhz_20_I (BETA : Cplx F) (Y : Int) (I : Int) : CntLe (hgemvhz_20_I BETA Y I : Prog F _) 8 4 := by
  unfold hgemvhz_20_I
  le_line

theorem le_hgemvhz_if59 (BETA : Cplx F) (BZERO : Bool) (LENY : Int) (Y : Int) :
    CntLe (hgemvhz_if59 BETA BZERO LENY Y : Prog F _) (LENY.toNat * 8) (LENY.toNat * 4) := by
  unfold hgemvhz_if59
  try dsimp only
  refine CntLe.ite (fun _ => ?_) (fun _ => ?_)
  · exact CntLe.bindL (CntLe.forN fun _ _ => le_hgemvhz_10_I ..) (fun _ => .ret)
  · exact CntLe.bindL (CntLe.forN fun _ _ => le_hgemvhz_20_I ..) (fun _ => .ret)

theorem le_hgemvhz_30_I (INCY : Int) (Y : Int) (I : Int) (IY : Int) : CntLe (hgemvhz_30_I INCY Y I IY : Prog F _) 8 4 := by
  unfold hgemvhz_30_I
  le_line

theorem le_hgemvhz_40_I (BETA : Cplx F) (INCY : Int) (Y : Int) (I : Int) (IY : Int) : CntLe (hgemvhz_40_I BETA INCY Y I IY : Prog F _) 8 4 := by
  unfold hgemvhz_40_I
  le_line

theorem le_hgemvhz_if72 (BETA : Cplx F) (BZERO : Bool) (INCY : Int) (IY : Int) (LENY : Int) (Y : Int) :
    CntLe (hgemvhz_if72 BETA BZERO INCY IY LENY Y : Prog F _) (LENY.toNat * 8) (LENY.toNat * 4) := by
  unfold hgemvhz_if72
  try dsimp only
  refine CntLe.ite (fun _ => ?_) (fun _ => ?_)
  · exact CntLe.bindL (CntLe.fold_const fun _ _ _ => le_hgemvhz_30_I ..) (fun _ => .ret)
  · exact CntLe.bindL (CntLe.fold_const fun _ _ _ => le_hgemvhz_40_I ..) (fun _ => .ret)

theorem le_hgemvhz_if58 (BETA : Cplx F) (BZERO : Bool) (INCY : Int) (KY : Int) (LENY : Int) (Y : Int) :
    CntLe (hgemvhz_if58 BETA BZERO INCY KY LENY Y : Prog F _) (LENY.toNat * 8) (LENY.toNat * 4) := by
  unfold hgemvhz_if58
  try dsimp only
  refine CntLe.ite (fun _ => ?_) (fun _ => ?_)
  · exact CntLe.bindL (le_hgemvhz_if59 ..) fun _ => .ret
  · exact CntLe.bindL (le_hgemvhz_if72 ..) fun _ => .ret

theorem le_hgemvhz_if57 (BETA : Cplx F) (BONE : Bool) (BZERO : Bool) (INCY : Int) (KY : Int) (LENY : Int) (Y : Int) :
    CntLe (hgemvhz_if57 BETA BONE BZERO INCY KY LENY Y : Prog F _) (LENY.toNat * 8) (LENY.toNat * 4) := by
  unfold hgemvhz_if57
  try dsimp only
  refine CntLe.ite (fun _ => ?_) (fun _ => ?_)
  · exact CntLe.bindL (le_hgemvhz_if58 ..) fun _ => .ret
  · exact .ret

theorem le_hgemvhz_50_I (A : Int) (HTMP1J : Cplx F) (HTMP1S : Cplx F) (HTMP2J : Cplx F) (HTMP2S : Cplx F) (HTMP3J : Cplx F) (HTMP3S : Cplx F) (HTMP4J : Cplx F) (HTMP4S : Cplx F) (J : Int) (LDA : Int) (Y : Int) (I : Int) : CntLe (hgemvhz_50_I A HTMP1J HTMP1S HTMP2J HTMP2S HTMP3J HTMP3S HTMP4J HTMP4S J LDA Y I : Prog F _) 20 4 := by
  unfold hgemvhz_50_I
  le_line

theorem le_hgemvhz_60_J (A : Int) (ALPHA : Quat F) (INCX : Int) (LDA : Int) (M : Int) (X : Int) (Y : Int) (J : Int) (JX : Int) :
    CntLe (hgemvhz_60_J A ALPHA INCX LDA M X Y J JX : Prog F _) (M.toNat * 20 + 16) (M.toNat * 4) := by
  unfold hgemvhz_60_J
  try dsimp only
  repeat (first | refine le_rdC_bind fun _ => ?_ | refine .rd fun _ => ?_)
  exact CntLe.mono (CntLe.bindL (CntLe.forN fun _ _ => le_hgemvhz_50_I ..) (fun _ => .ret)) (by omega) (by omega)

theorem le_hgemvhz_70_I (A : Int) (HTMP1J : Cplx F) (HTMP1S : Cplx F) (HTMP2J : Cplx F) (HTMP2S : Cplx F) (HTMP3J : Cplx F) (HTMP3S : Cplx F) (HTMP4J : Cplx F) (HTMP4S : Cplx F) (INCY : Int) (J : Int) (LDA : Int) (Y : Int) (I : Int) (IY : Int) : CntLe (hgemvhz_70_I A HTMP1J HTMP1S HTMP2J HTMP2S HTMP3J HTMP3S HTMP4J HTMP4S INCY J LDA Y I IY : Prog F _) 20 4 := by
  unfold hgemvhz_70_I
  le_line

theorem le_hgemvhz_80_J (A : Int) (ALPHA : Quat F) (INCX : Int) (INCY : Int) (KY : Int) (LDA : Int) (M : Int) (X : Int) (Y : Int) (J : Int) (JX : Int) :
    CntLe (hgemvhz_80_J A ALPHA INCX INCY KY LDA M X Y J JX : Prog F _) (M.toNat * 20 + 16) (M.toNat * 4) := by
  unfold hgemvhz_80_J
  try dsimp only
  repeat (first | refine le_rdC_bind fun _ => ?_ | refine .rd fun _ => ?_)
  exact CntLe.mono (CntLe.bindL (CntLe.fold_const fun _ _ _ => le_hgemvhz_70_I ..) (fun _ => .ret)) (by omega) (by omega)

theorem le_hgemvhz_if92 (A : Int) (ALPHA : Quat F) (INCX : Int) (INCY : Int) (JX : Int) (KY : Int) (LDA : Int) (M : Int) (N : Int) (X : Int) (Y : Int) :
    CntLe (hgemvhz_if92 A ALPHA INCX INCY JX KY LDA M N X Y : Prog F _) (N.toNat * (M.toNat * 20 + 16)) (N.toNat * (M.toNat * 4 + 4)) := by
  unfold hgemvhz_if92
  try dsimp only
  refine CntLe.ite (fun _ => ?_) (fun _ => ?_)
  · exact CntLe.mono (CntLe.bindL (CntLe.fold_const fun _ _ _ => le_hgemvhz_60_J ..) (fun _ => .ret)) le_rfl (gemv_w1 ..)
  · exact CntLe.mono (CntLe.bindL (CntLe.fold_const fun _ _ _ => le_hgemvhz_80_J ..) (fun _ => .ret)) le_rfl (gemv_w1 ..)

theorem le_hgemvhz_90_I (A : Int) (J : Int) (LDA : Int) (X : Int) (I : Int) (HTMP1J : Cplx F) (HTMP1S : Cplx F) : CntLe (hgemvhz_90_I A J LDA X I HTMP1J HTMP1S : Prog F _) 16 0 := by
  unfold hgemvhz_90_I
  le_line

theorem le_hgemvhz_100_I (A : Int) (J : Int) (LDA : Int) (X : Int) (I : Int) (HTMP1J : Cplx F) (HTMP1S : Cplx F) : CntLe (hgemvhz_100_I A J LDA X I HTMP1J HTMP1S : Prog F _) 16 0 := by
  unfold hgemvhz_100_I
  le_line

theorem le_hgemvhz_if143 (A : Int) (HTMP1J : Cplx F) (HTMP1S : Cplx F) (J : Int) (LDA : Int) (M : Int) (NOCONJ : Bool) (X : Int) :
    CntLe (hgemvhz_if143 A HTMP1J HTMP1S J LDA M NOCONJ X : Prog F _) (M.toNat * 16) (0) := by
  unfold hgemvhz_if143
  try dsimp only
  refine CntLe.ite (fun _ => ?_) (fun _ => ?_)
  · exact CntLe.bindL (CntLe.fold_const fun _ _ _ => le_hgemvhz_90_I ..) (fun _ => .ret)
  · exact CntLe.bindL (CntLe.fold_const fun _ _ _ => le_hgemvhz_100_I ..) (fun _ => .ret)

theorem le_hgemvhz_110_J (A : Int) (ALPHA : Quat F) (INCY : Int) (LDA : Int) (M : Int) (NOCONJ : Bool) (X : Int) (Y : Int) (J : Int) (JY : Int) :
    CntLe (hgemvhz_110_J A ALPHA INCY LDA M NOCONJ X Y J JY : Prog F _) (M.toNat * 16 + 4) (4) := by
  unfold hgemvhz_110_J
  try dsimp only
  refine CntLe.mono (CntLe.bind (le_hgemvhz_if143 ..) (fun _ => (?_ : CntLe _ 4 4))) (by omega) (by omega)
  le_line2

theorem le_hgemvhz_120_I (A : Int) (INCX : Int) (J : Int) (LDA : Int) (X : Int) (I : Int) (HTMP1J : Cplx F) (HTMP1S : Cplx F) (IX : Int) : CntLe (hgemvhz_120_I A INCX J LDA X I HTMP1J HTMP1S IX : Prog F _) 16 0 := by
  unfold hgemvhz_120_I
  le_line

theorem le_hgemvhz_130_I (A : Int) (INCX : Int) (J : Int) (LDA : Int) (X : Int) (I : Int) (HTMP1J : Cplx F) (HTMP1S : Cplx F) (IX : Int) : CntLe (hgemvhz_130_I A INCX J LDA X I HTMP1J HTMP1S IX : Prog F _) 16 0 := by
  unfold hgemvhz_130_I
  le_line

theorem le_hgemvhz_if169 (A : Int) (HTMP1J : Cplx F) (HTMP1S : Cplx F) (INCX : Int) (IX : Int) (J : Int) (LDA : Int) (M : Int) (NOCONJ : Bool) (X : Int) :
    CntLe (hgemvhz_if169 A HTMP1J HTMP1S INCX IX J LDA M NOCONJ X : Prog F _) (M.toNat * 16) (0) := by
  unfold hgemvhz_if169
  try dsimp only
  refine CntLe.ite (fun _ => ?_) (fun _ => ?_)
  · exact CntLe.bindL (CntLe.fold_const fun _ _ _ => le_hgemvhz_120_I ..) (fun _ => .ret)
  · exact CntLe.bindL (CntLe.fold_const fun _ _ _ => le_hgemvhz_130_I ..) (fun _ => .ret)

theorem le_hgemvhz_140_J (A : Int) (ALPHA : Quat F) (INCX : Int) (INCY : Int) (KX : Int) (LDA : Int) (M : Int) (NOCONJ : Bool) (X : Int) (Y : Int) (J : Int) (JY : Int) :
    CntLe (hgemvhz_140_J A ALPHA INCX INCY KX LDA M NOCONJ X Y J JY : Prog F _) (M.toNat * 16 + 4) (4) := by
  unfold hgemvhz_140_J
  try dsimp only
  refine CntLe.mono (CntLe.bind (le_hgemvhz_if169 ..) (fun _ => (?_ : CntLe _ 4 4))) (by omega) (by omega)
  le_line2

theorem le_hgemvhz_if139 (A : Int) (ALPHA : Quat F) (INCX : Int) (INCY : Int) (JY : Int) (KX : Int) (LDA : Int) (M : Int) (N : Int) (NOCONJ : Bool) (X : Int) (Y : Int) :
    CntLe (hgemvhz_if139 A ALPHA INCX INCY JY KX LDA M N NOCONJ X Y : Prog F _) (N.toNat * (M.toNat * 20 + 16)) (N.toNat * (M.toNat * 4 + 4)) := by
  unfold hgemvhz_if139
  try dsimp only
  refine CntLe.ite (fun _ => ?_) (fun _ => ?_)
  · exact CntLe.mono (CntLe.bindL (CntLe.fold_const fun _ _ _ => le_hgemvhz_110_J ..) (fun _ => .ret)) (gemv_r2 ..) (gemv_w2 ..)
  · exact CntLe.mono (CntLe.bindL (CntLe.fold_const fun _ _ _ => le_hgemvhz_140_J ..) (fun _ => .ret)) (gemv_r2 ..) (gemv_w2 ..)

theorem le_hgemvhz_if90 (A : Int) (ALPHA : Quat F) (INCX : Int) (INCY : Int) (KX : Int) (KY : Int) (LDA : Int) (M : Int) (N : Int) (NOCONJ : Bool) (TRANS : Char) (X : Int) (Y : Int) :
    CntLe (hgemvhz_if90 A ALPHA INCX INCY KX KY LDA M N NOCONJ TRANS X Y : Prog F _) (N.toNat * (M.toNat * 20 + 16)) (N.toNat * (M.toNat * 4 + 4)) := by
  unfold hgemvhz_if90
  try dsimp only
  refine CntLe.ite (fun _ => ?_) (fun _ => ?_)
  · exact CntLe.bindL (le_hgemvhz_if92 ..) fun _ => .ret
  · exact CntLe.bindL (le_hgemvhz_if139 ..) fun _ => .ret

theorem le_hgemvhz (TRANS : Char) (M : Int) (N : Int) (ALPHA : Quat F) (A : Int) (LDA : Int) (X : Int) (INCX : Int) (BETA : Cplx F) (Y : Int) (INCY : Int) :
    CntLe (hgemvhz TRANS M N ALPHA A LDA X INCX BETA Y INCY : Prog F _) (max M.toNat N.toNat * 8 + N.toNat * (M.toNat * 20 + 16)) (max M.toNat N.toNat * 4 + N.toNat * (M.toNat * 4 + 4)) := by
  unfold hgemvhz
  try dsimp only
  split <;> refine CntLe.pureBind (CntLe.ite (fun _ => .ret) fun _ => CntLe.bind0 (CntLe.ite (fun _ => .ret) fun _ => .ret) fun _ =>
    CntLe.bind0 (CntLe.ite (fun _ => .ret) fun _ => .ret) fun _ => CntLe.bind (CntLe.mono (le_hgemvhz_if57 ..) ?_ ?_) fun _ =>
    CntLe.ite (fun _ => .ret) fun _ => CntLe.bindL (le_hgemvhz_if90 ..) fun _ => .ret)
  all_goals first | exact Nat.mul_le_mul_right _ (le_max_left _ _) | exact Nat.mul_le_mul_right _ (le_max_right _ _)

theorem le_hgemvhh_10_I (Y : Int) (I : Int) : CntLe (hgemvhh_10_I Y I : Prog F _) 8 4 := by
  unfold hgemvhh_10_I
  le_line

theorem le_hgemvhh_20_I (BETA : Quat F) (Y : Int) (I : Int) : CntLe (hgemvhh_20_I BETA Y I : Prog F _) 8 4 := by
  unfold hgemvhh_20_I
  le_line

theorem le_hgemvhh_if59 (BETA : Quat F) (BZERO : Bool) (LENY : Int) (Y : Int) :
    CntLe (hgemvhh_if59 BETA BZERO LENY Y : Prog F _) (LENY.toNat * 8) (LENY.toNat * 4) := by
  unfold hgemvhh_if59
  try dsimp only
  refine CntLe.ite (fun _ => ?_) (fun _ => ?_)
  · exact CntLe.bindL (CntLe.forN fun _ _ => le_hgemvhh_10_I ..) (fun _ => .ret)
  · exact CntLe.bindL (CntLe.forN fun _ _ => le_hgemvhh_20_I ..) (fun _ => .ret)

theorem le_hgemvhh_30_I (INCY : Int) (Y : Int) (I : Int) (IY : Int) : CntLe (hgemvhh_30_I INCY Y I IY : Prog F _) 8 4 := by
  unfold hgemvhh_30_I
  le_line

theorem le_hgemvhh_40_I (BETA : Quat F) (INCY : Int) (Y : Int) (I : Int) (IY : Int) : CntLe (hgemvhh_40_I BETA INCY Y I IY : Prog F _) 8 4 := by
  unfold hgemvhh_40_I
  le_line

theorem le_hgemvhh_if73 (BETA : Quat F) (BZERO : Bool) (INCY : Int) (IY : Int) (LENY : Int) (Y : Int) :
    CntLe (hgemvhh_if73 BETA BZERO INCY IY LENY Y : Prog F _) (LENY.toNat * 8) (LENY.toNat * 4) := by
  unfold hgemvhh_if73
  try dsimp only
  refine CntLe.ite (fun _ => ?_) (fun _ => ?_)
  · exact CntLe.bindL (CntLe.fold_const fun _ _ _ => le_hgemvhh_30_I ..) (fun _ => .ret)
  · exact CntLe.bindL (CntLe.fold_const fun _ _ _ => le_hgemvhh_40_I ..) (fun _ => .ret)

theorem le_hgemvhh_if58 (BETA : Quat F) (BZERO : Bool) (INCY : Int) (KY : Int) (LENY : Int) (Y : Int) :
    CntLe (hgemvhh_if58 BETA BZERO INCY KY LENY Y : Prog F _) (LENY.toNat * 8) (LENY.toNat * 4) := by
  unfold hgemvhh_if58
  try dsimp only
  refine CntLe.ite (fun _ => ?_) (fun _ => ?_)
  · exact CntLe.bindL (le_hgemvhh_if59 ..) fun _ => .ret
  · exact CntLe.bindL (le_hgemvhh_if73 ..) fun _ => .ret

theorem le_hgemvhh_if57 (BETA : Quat F) (BONE : Bool) (BZERO : Bool) (INCY : Int) (KY : Int) (LENY : Int) (Y : Int) :
    CntLe (hgemvhh_if57 BETA BONE BZERO INCY KY LENY Y : Prog F _) (LENY.toNat * 8) (LENY.toNat * 4) := by
  unfold hgemvhh_if57
  try dsimp only
  refine CntLe.ite (fun _ => ?_) (fun _ => ?_)
  · exact CntLe.bindL (le_hgemvhh_if58 ..) fun _ => .ret
  · exact .ret

theorem le_hgemvhh_50_I (A : Int) (HTMP1J : Cplx F) (HTMP1S : Cplx F) (HTMP2J : Cplx F) (HTMP2S : Cplx F) (HTMP3J : Cplx F) (HTMP3S : Cplx F) (HTMP4J : Cplx F) (HTMP4S : Cplx F) (J : Int) (LDA : Int) (Y : Int) (I : Int) : CntLe (hgemvhh_50_I A HTMP1J HTMP1S HTMP2J HTMP2S HTMP3J HTMP3S HTMP4J HTMP4S J LDA Y I : Prog F _) 20 4 := by
  unfold hgemvhh_50_I
  le_line

theorem le_hgemvhh_60_J (A : Int) (ALPHA : Quat F) (INCX : Int) (LDA : Int) (M : Int) (X : Int) (Y : Int) (J : Int) (JX : Int) :
    CntLe (hgemvhh_60_J A ALPHA INCX LDA M X Y J JX : Prog F _) (M.toNat * 20 + 16) (M.toNat * 4) := by
  unfold hgemvhh_60_J
  try dsimp only
  repeat (first | refine le_rdC_bind fun _ => ?_ | refine .rd fun _ => ?_)
  exact CntLe.mono (CntLe.bindL (CntLe.forN fun _ _ => le_hgemvhh_50_I ..) (fun _ => .ret)) (by omega) (by omega)

theorem le_hgemvhh_70_I (A : Int) (HTMP1J : Cplx F) (HTMP1S : Cplx F) (HTMP2J : Cplx F) (HTMP2S : Cplx F) (HTMP3J : Cplx F) (HTMP3S : Cplx F) (HTMP4J : Cplx F) (HTMP4S : Cplx F) (INCY : Int) (J : Int) (LDA : Int) (Y : Int) (I : Int) (IY : Int) : CntLe (hgemvhh_70_I A HTMP1J HTMP1S HTMP2J HTMP2S HTMP3J HTMP3S HTMP4J HTMP4S INCY J LDA Y I IY : Prog F _) 20 4 := by
  unfold hgemvhh_70_I
  le_line

theorem le_hgemvhh_80_J (A : Int) (ALPHA : Quat F) (INCX : Int) (INCY : Int) (KY : Int) (LDA : Int) (M : Int) (X : Int) (Y : Int) (J : Int) (JX : Int) :
    CntLe (hgemvhh_80_J A ALPHA INCX INCY KY LDA M X Y J JX : Prog F _) (M.toNat * 20 + 16) (M.toNat * 4) := by
  unfold hgemvhh_80_J
  try dsimp only
  repeat (first | refine le_rdC_bind fun _ => ?_ | refine .rd fun _ => ?_)
  exact CntLe.mono (CntLe.bindL (CntLe.fold_const fun _ _ _ => le_hgemvhh_70_I ..) (fun _ => .ret)) (by omega) (by omega)

theorem le_hgemvhh_if94 (A : Int) (ALPHA : Quat F) (INCX : Int) (INCY : Int) (JX : Int) (KY : Int) (LDA : Int) (M : Int) (N : Int) (X : Int) (Y : Int) :
    CntLe (hgemvhh_if94 A ALPHA INCX INCY JX KY LDA M N X Y : Prog F _) (N.toNat * (M.toNat * 20 + 16)) (N.toNat * (M.toNat * 4 + 4)) := by
  unfold hgemvhh_if94
  try dsimp only
  refine CntLe.ite (fun _ => ?_) (fun _ => ?_)
  · exact CntLe.mono (CntLe.bindL (CntLe.fold_const fun _ _ _ => le_hgemvhh_60_J ..) (fun _ => .ret)) le_rfl (gemv_w1 ..)
  · exact CntLe.mono (CntLe.bindL (CntLe.fold_const fun _ _ _ => le_hgemvhh_80_J ..) (fun _ => .ret)) le_rfl (gemv_w1 ..)

theorem le_hgemvhh_90_I (A : Int) (J : Int) (LDA : Int) (X : Int) (I : Int) (HTMP1J : Cplx F) (HTMP1S : Cplx F) : CntLe (hgemvhh_90_I A J LDA X I HTMP1J HTMP1S : Prog F _) 16 0 := by
  unfold hgemvhh_90_I
  le_line

theorem le_hgemvhh_100_I (A : Int) (J : Int) (LDA : Int) (X : Int) (I : Int) (HTMP1J : Cplx F) (HTMP1S : Cplx F) : CntLe (hgemvhh_100_I A J LDA X I HTMP1J HTMP1S : Prog F _) 16 0 := by
  unfold hgemvhh_100_I
  le_line

theorem le_hgemvhh_if145 (A : Int) (HTMP1J : Cplx F) (HTMP1S : Cplx F) (J : Int) (LDA : Int) (M : Int) (NOCONJ : Bool) (X : Int) :
    CntLe (hgemvhh_if145 A HTMP1J HTMP1S J LDA M NOCONJ X : Prog F _) (M.toNat * 16) (0) := by
  unfold hgemvhh_if145
  try dsimp only
  refine CntLe.ite (fun _ => ?_) (fun _ => ?_)
  · exact CntLe.bindL (CntLe.fold_const fun _ _ _ => le_hgemvhh_90_I ..) (fun _ => .ret)
  · exact CntLe.bindL (CntLe.fold_const fun _ _ _ => le_hgemvhh_100_I ..) (fun _ => .ret)

theorem le_hgemvhh_110_J (A : Int) (ALPHA : Quat F) (INCY : Int) (LDA : Int) (M : Int) (NOCONJ : Bool) (X : Int) (Y : Int) (J : Int) (JY : Int) :
    CntLe (hgemvhh_110_J A ALPHA INCY LDA M NOCONJ X Y J JY : Prog F _) (M.toNat * 16 + 4) (4) := by
  unfold hgemvhh_110_J
  try dsimp only
  refine CntLe.mono (CntLe.bind (le_hgemvhh_if145 ..) (fun _ => (?_ : CntLe _ 4 4))) (by omega) (by omega)
  le_line2

theorem le_hgemvhh_120_I (A : Int) (INCX : Int) (J : Int) (LDA : Int) (X : Int) (I : Int) (HTMP1J : Cplx F) (HTMP1S : Cplx F) (IX : Int) : CntLe (hgemvhh_120_I A INCX J LDA X I HTMP1J HTMP1S IX : Prog F _) 16 0 := by
  unfold hgemvhh_120_I
  le_line

theorem le_hgemvhh_130_I (A : Int) (INCX : Int) (J : Int) (LDA : Int) (X : Int) (I : Int) (HTMP1J : Cplx F) (HTMP1S : Cplx F) (IX : Int) : CntLe (hgemvhh_130_I A INCX J LDA X I HTMP1J HTMP1S IX : Prog F _) 16 0 := by
  unfold hgemvhh_130_I
  le_line

theorem le_hgemvhh_if171 (A : Int) (HTMP1J : Cplx F) (HTMP1S : Cplx F) (INCX : Int) (IX : Int) (J : Int) (LDA : Int) (M : Int) (NOCONJ : Bool) (X : Int) :
    CntLe (hgemvhh_if171 A HTMP1J HTMP1S INCX IX J LDA M NOCONJ X : Prog F _) (M.toNat * 16) (0) := by
  unfold hgemvhh_if171
  try dsimp only
  refine CntLe.ite (fun _ => ?_) (fun _ => ?_)
  · exact CntLe.bindL (CntLe.fold_const fun _ _ _ => le_hgemvhh_120_I ..) (fun _ => .ret)
  · exact CntLe.bindL (CntLe.fold_const fun _ _ _ => le_hgemvhh_130_I ..) (fun _ => .ret)

theorem le_hgemvhh_140_J (A : Int) (ALPHA : Quat F) (INCX : Int) (INCY : Int) (KX : Int) (LDA : Int) (M : Int) (NOCONJ : Bool) (X : Int) (Y : Int) (J : Int) (JY : Int) :
    CntLe (hgemvhh_140_J A ALPHA INCX INCY KX LDA M NOCONJ X Y J JY : Prog F _) (M.toNat * 16 + 4) (4) := by
  unfold hgemvhh_140_J
  try dsimp only
  refine CntLe.mono (CntLe.bind (le_hgemvhh_if171 ..) (fun _ => (?_ : CntLe _ 4 4))) (by omega) (by omega)
  le_line2

theorem le_hgemvhh_if141 (A : Int) (ALPHA : Quat F) (INCX : Int) (INCY : Int) (JY : Int) (KX : Int) (LDA : Int) (M : Int) (N : Int) (NOCONJ : Bool) (X : Int) (Y : Int) :
    CntLe (hgemvhh_if141 A ALPHA INCX INCY JY KX LDA M N NOCONJ X Y : Prog F _) (N.toNat * (M.toNat * 20 + 16)) (N.toNat * (M.toNat * 4 + 4)) := by
  unfold hgemvhh_if141
  try dsimp only
  refine CntLe.ite (fun _ => ?_) (fun _ => ?_)
  · exact CntLe.mono (CntLe.bindL (CntLe.fold_const fun _ _ _ => le_hgemvhh_110_J ..) (fun _ => .ret)) (gemv_r2 ..) (gemv_w2 ..)
  · exact CntLe.mono (CntLe.bindL (CntLe.fold_const fun _ _ _ => le_hgemvhh_140_J ..) (fun _ => .ret)) (gemv_r2 ..) (gemv_w2 ..)

theorem le_hgemvhh_if92 (A : Int) (ALPHA : Quat F) (INCX : Int) (INCY : Int) (KX : Int) (KY : Int) (LDA : Int) (M : Int) (N : Int) (NOCONJ : Bool) (TRANS : Char) (X : Int) (Y : Int) :
    CntLe (hgemvhh_if92 A ALPHA INCX INCY KX KY LDA M N NOCONJ TRANS X Y : Prog F _) (N.toNat * (M.toNat * 20 + 16)) (N.toNat * (M.toNat * 4 + 4)) := by
  unfold hgemvhh_if92
  try dsimp only
  refine CntLe.ite (fun _ => ?_) (fun _ => ?_)
  · exact CntLe.bindL (le_hgemvhh_if94 ..) fun _ => .ret
  · exact CntLe.bindL (le_hgemvhh_if141 ..) fun _ => .ret

theorem le_hgemvhh (TRANS : Char) (M : Int) (N : Int) (ALPHA : Quat F) (A : Int) (LDA : Int) (X : Int) (INCX : Int) (BETA : Quat F) (Y : Int) (INCY : Int) :
    CntLe (hgemvhh TRANS M N ALPHA A LDA X INCX BETA Y INCY : Prog F _) (max M.toNat N.toNat * 8 + N.toNat * (M.toNat * 20 + 16)) (max M.toNat N.toNat * 4 + N.toNat * (M.toNat * 4 + 4)) := by
  unfold hgemvhh
  try dsimp only
  split <;> refine CntLe.pureBind (CntLe.ite (fun _ => .ret) fun _ => CntLe.bind0 (CntLe.ite (fun _ => .ret) fun _ => .ret) fun _ =>
    CntLe.bind0 (CntLe.ite (fun _ => .ret) fun _ => .ret) fun _ => CntLe.bind (CntLe.mono (le_hgemvhh_if57 ..) ?_ ?_) fun _ =>
    CntLe.ite (fun _ => .ret) fun _ => CntLe.bindL (le_hgemvhh_if92 ..) fun _ => .ret)
  all_goals first | exact Nat.mul_le_mul_right _ (le_max_left _ _) | exact Nat.mul_le_mul_right _ (le_max_right _ _)

theorem le_hgerud_10_I (A : Int) (HTMPJ : Cplx F) (HTMPS : Cplx F) (J : Int) (LDA : Int) (X : Int) (I : Int) : CntLe (hgerud_10_I A HTMPJ HTMPS J LDA X I : Prog F _) 20 4 := by
  unfold hgerud_10_I
  le_line2

theorem le_hgerud_if36 (A : Int) (ALPHA : F) (J : Int) (JY : Int) (LDA : Int) (M : Int) (X : Int) (Y : Int) :
    CntLe (hgerud_if36 A ALPHA J JY LDA M X Y : Prog F _) (M.toNat * 20 + 20) (M.toNat * 4) := by
  unfold hgerud_if36
  try dsimp only
  repeat (first | refine le_rdC_bind fun _ => ?_ | refine .rd fun _ => ?_)
  refine CntLe.ite (fun _ => ?_) (fun _ => .ret)
  repeat (first | refine le_rdC_bind fun _ => ?_ | refine .rd fun _ => ?_)
  exact CntLe.mono (CntLe.bindL (CntLe.forN fun _ _ => le_hgerud_10_I ..) (fun _ => .ret)) (by omega) (by omega)

theorem le_hgerud_20_J (A : Int) (ALPHA : F) (INCY : Int) (LDA : Int) (M : Int) (X : Int) (Y : Int) (J : Int) (JY : Int) :
    CntLe (hgerud_20_J A ALPHA INCY LDA M X Y J JY : Prog F _) (M.toNat * 20 + 20) (M.toNat * 4) := by
  unfold hgerud_20_J
  exact CntLe.bindL (le_hgerud_if36 ..) fun _ => .ret

theorem le_hgerud_30_I (A : Int) (HTMPJ : Cplx F) (INCX : Int) (J : Int) (LDA : Int) (X : Int) (I : Int) (IX : Int) : CntLe (hgerud_30_I A HTMPJ INCX J LDA X I IX : Prog F _) 20 4 := by
  unfold hgerud_30_I
  le_line2

theorem le_hgerud_if53 (A : Int) (ALPHA : F) (INCX : Int) (J : Int) (JY : Int) (KX : Int) (LDA : Int) (M : Int) (X : Int) (Y : Int) :
    CntLe (hgerud_if53 A ALPHA INCX J JY KX LDA M X Y : Prog F _) (M.toNat * 20 + 20) (M.toNat * 4) := by
  unfold hgerud_if53
  try dsimp only
  repeat (first | refine le_rdC_bind fun _ => ?_ | refine .rd fun _ => ?_)
  refine CntLe.ite (fun _ => ?_) (fun _ => .ret)
  repeat (first | refine le_rdC_bind fun _ => ?_ | refine .rd fun _ => ?_)
  exact CntLe.mono (CntLe.bindL (CntLe.fold_const fun _ _ _ => le_hgerud_30_I ..) (fun _ => .ret)) (by omega) (by omega)

theorem le_hgerud_40_J (A : Int) (ALPHA : F) (INCX : Int) (INCY : Int) (KX : Int) (LDA : Int) (M : Int) (X : Int) (Y : Int) (J : Int) (JY : Int) :
    CntLe (hgerud_40_J A ALPHA INCX INCY KX LDA M X Y J JY : Prog F _) (M.toNat * 20 + 20) (M.toNat * 4) := by
  unfold hgerud_40_J
  exact CntLe.bindL (le_hgerud_if53 ..) fun _ => .ret

theorem le_hgerud_if34 (A : Int) (ALPHA : F) (INCX : Int) (INCY : Int) (JY : Int) (LDA : Int) (M : Int) (N : Int) (X : Int) (Y : Int) :
    CntLe (hgerud_if34 A ALPHA INCX INCY JY LDA M N X Y : Prog F _) (N.toNat * (M.toNat * 20 + 20)) (N.toNat * (M.toNat * 4)) := by
  unfold hgerud_if34
  try dsimp only
  refine CntLe.ite (fun _ => ?_) (fun _ => ?_)
  · exact CntLe.bindL (CntLe.fold_const fun _ _ _ => le_hgerud_20_J ..) (fun _ => .ret)
  · exact CntLe.bind0 (CntLe.ite (fun _ => .ret) fun _ => .ret) fun _ => CntLe.bindL (CntLe.fold_const fun _ _ _ => le_hgerud_40_J ..) (fun _ => .ret)

theorem le_hgerud (M : Int) (N : Int) (ALPHA : F) (X : Int) (INCX : Int) (Y : Int) (INCY : Int) (A : Int) (LDA : Int) :
    CntLe (hgerud M N ALPHA X INCX Y INCY A LDA : Prog F _) (N.toNat * (M.toNat * 20 + 20)) (N.toNat * (M.toNat * 4)) := by
  unfold hgerud
  try dsimp only
  refine CntLe.ite (fun _ => .ret) fun _ => CntLe.bind0 (CntLe.ite (fun _ => .ret) fun _ => .ret) fun _ => CntLe.bindL (le_hgerud_if34 ..) fun _ => .ret

theorem le_hgeruz_10_I (A : Int) (HTMP1J : Cplx F) (HTMP1S : Cplx F) (HTMP2J : Cplx F) (HTMP2S : Cplx F) (J : Int) (LDA : Int) (X : Int) (I : Int) : CntLe (hgeruz_10_I A HTMP1J HTMP1S HTMP2J HTMP2S J LDA X I : Prog F _) 20 4 := by
  unfold hgeruz_10_I
  le_line2

theorem le_hgeruz_if35 (A : Int) (ALPHA : Cplx F) (J : Int) (JY : Int) (LDA : Int) (M : Int) (X : Int) (Y : Int) :
    CntLe (hgeruz_if35 A ALPHA J JY LDA M X Y : Prog F _) (M.toNat * 20 + 20) (M.toNat * 4) := by
  unfold hgeruz_if35
  try dsimp only
  repeat (first | refine le_rdC_bind fun _ => ?_ | refine .rd fun _ => ?_)
  refine CntLe.ite (fun _ => ?_) (fun _ => .ret)
  repeat (first | refine le_rdC_bind fun _ => ?_ | refine .rd fun _ => ?_)
  exact CntLe.mono (CntLe.bindL (CntLe.forN fun _ _ => le_hgeruz_10_I ..) (fun _ => .ret)) (by omega) (by omega)

theorem le_hgeruz_20_J (A : Int) (ALPHA : Cplx F) (INCY : Int) (LDA : Int) (M : Int) (X : Int) (Y : Int) (J : Int) (JY : Int) :
    CntLe (hgeruz_20_J A ALPHA INCY LDA M X Y J JY : Prog F _) (M.toNat * 20 + 20) (M.toNat * 4) := by
  unfold hgeruz_20_J
  exact CntLe.bindL (le_hgeruz_if35 ..) fun _ => .ret

theorem le_hgeruz_30_I (A : Int) (HTMP1J : Cplx F) (HTMP1S : Cplx F) (HTMP2J : Cplx F) (HTMP2S : Cplx F) (INCX : Int) (J : Int) (LDA : Int) (X : Int) (I : Int) (IX : Int) : CntLe (hgeruz_30_I A HTMP1J HTMP1S HTMP2J HTMP2S INCX J LDA X I IX : Prog F _) 20 4 := by
  unfold hgeruz_30_I
  le_line2

theorem le_hgeruz_if54 (A : Int) (ALPHA : Cplx F) (INCX : Int) (J : Int) (JY : Int) (KX : Int) (LDA : Int) (M : Int) (X : Int) (Y : Int) :
    CntLe (hgeruz_if54 A ALPHA INCX J JY KX LDA M X Y : Prog F _) (M.toNat * 20 + 20) (M.toNat * 4) := by
  unfold hgeruz_if54
  try dsimp only
  repeat (first | refine le_rdC_bind fun _ => ?_ | refine .rd fun _ => ?_)
  refine CntLe.ite (fun _ => ?_) (fun _ => .ret)
  repeat (first | refine le_rdC_bind fun _ => ?_ | refine .rd fun _ => ?_)
  exact CntLe.mono (CntLe.bindL (CntLe.fold_const fun _ _ _ => le_hgeruz_30_I ..) (fun _ => .ret)) (by omega) (by omega)

theorem le_hgeruz_40_J (A : Int) (ALPHA : Cplx F) (INCX : Int) (INCY : Int) (KX : Int) (LDA : Int) (M : Int) (X : Int) (Y : Int) (J : Int) (JY : Int) :
    CntLe (hgeruz_40_J A ALPHA INCX INCY KX LDA M X Y J JY : Prog F _) (M.toNat * 20 + 20) (M.toNat * 4) := by
  unfold hgeruz_40_J
  exact CntLe.bindL (le_hgeruz_if54 ..) fun _ => .ret

theorem le_hgeruz_if33 (A : Int) (ALPHA : Cplx F) (INCX : Int) (INCY : Int) (JY : Int) (LDA : Int) (M : Int) (N : Int) (X : Int) (Y : Int) :
    CntLe (hgeruz_if33 A ALPHA INCX INCY JY LDA M N X Y : Prog F _) (N.toNat * (M.toNat * 20 + 20)) (N.toNat * (M.toNat * 4)) := by
  unfold hgeruz_if33
  try dsimp only
  refine CntLe.ite (fun _ => ?_) (fun _ => ?_)
  · exact CntLe.bindL (CntLe.fold_const fun _ _ _ => le_hgeruz_20_J ..) (fun _ => .ret)
  · exact CntLe.bind0 (CntLe.ite (fun _ => .ret) fun _ => .ret) fun _ => CntLe.bindL (CntLe.fold_const fun _ _ _ => le_hgeruz_40_J ..) (fun _ => .ret)

theorem le_hgeruz (M : Int) (N : Int) (ALPHA : Cplx F) (X : Int) (INCX : Int) (Y : Int) (INCY : Int) (A : Int) (LDA : Int) :
    CntLe (hgeruz M N ALPHA X INCX Y INCY A LDA : Prog F _) (N.toNat * (M.toNat * 20 + 20)) (N.toNat * (M.toNat * 4)) := by
  unfold hgeruz
  try dsimp only
  refine CntLe.ite (fun _ => .ret) fun _ => CntLe.bind0 (CntLe.ite (fun _ => .ret) fun _ => .ret) fun _ => CntLe.bindL (le_hgeruz_if33 ..) fun _ => .ret

theorem le_hgeruh_10_I (A : Int) (HTMP1J : Cplx F) (HTMP1S : Cplx F) (HTMP2J : Cplx F) (HTMP2S : Cplx F) (HTMP3J : Cplx F) (HTMP3S : Cplx F) (HTMP4J : Cplx F) (HTMP4S : Cplx F) (J : Int) (LDA : Int) (X : Int) (I : Int) : CntLe (hgeruh_10_I A HTMP1J HTMP1S HTMP2J HTMP2S HTMP3J HTMP3S HTMP4J HTMP4S J LDA X I : Prog F _) 20 4 := by
  unfold hgeruh_10_I
  le_line2

theorem le_hgeruh_if36 (A : Int) (ALPHA : Quat F) (J : Int) (JY : Int) (LDA : Int) (M : Int) (X : Int) (Y : Int) :
    CntLe (hgeruh_if36 A ALPHA J JY LDA M X Y : Prog F _) (M.toNat * 20 + 20) (M.toNat * 4) := by
  unfold hgeruh_if36
  try dsimp only
  repeat (first | refine le_rdC_bind fun _ => ?_ | refine .rd fun _ => ?_)
  refine CntLe.ite (fun _ => ?_) (fun _ => .ret)
  repeat (first | refine le_rdC_bind fun _ => ?_ | refine .rd fun _ => ?_)
  exact CntLe.mono (CntLe.bindL (CntLe.forN fun _ _ => le_hgeruh_10_I ..) (fun _ => .ret)) (by omega) (by omega)

theorem le_hgeruh_20_J (A : Int) (ALPHA : Quat F) (INCY : Int) (LDA : Int) (M : Int) (X : Int) (Y : Int) (J : Int) (JY : Int) :
    CntLe (hgeruh_20_J A ALPHA INCY LDA M X Y J JY : Prog F _) (M.toNat * 20 + 20) (M.toNat * 4) := by
  unfold hgeruh_20_J
  exact CntLe.bindL (le_hgeruh_if36 ..) fun _ => .ret

theorem le_hgeruh_30_I (A : Int) (HTMP1J : Cplx F) (HTMP1S : Cplx F) (HTMP2J : Cplx F) (HTMP2S : Cplx F) (HTMP3J : Cplx F) (HTMP3S : Cplx F) (HTMP4J : Cplx F) (HTMP4S : Cplx F) (INCX : Int) (J : Int) (LDA : Int) (X : Int) (I : Int) (IX : Int) : CntLe (hgeruh_30_I A HTMP1J HTMP1S HTMP2J HTMP2S HTMP3J HTMP3S HTMP4J HTMP4S INCX J LDA X I IX : Prog F _) 20 4 := by
  unfold hgeruh_30_I
  le_line2

theorem le_hgeruh_if63 (A : Int) (ALPHA : Quat F) (INCX : Int) (J : Int) (JY : Int) (KX : Int) (LDA : Int) (M : Int) (X : Int) (Y : Int) :
    CntLe (hgeruh_if63 A ALPHA INCX J JY KX LDA M X Y : Prog F _) (M.toNat * 20 + 20) (M.toNat * 4) := by
  unfold hgeruh_if63
  try dsimp only
  repeat (first | refine le_rdC_bind fun _ => ?_ | refine .rd fun _ => ?_)
  refine CntLe.ite (fun _ => ?_) (fun _ => .ret)
  repeat (first | refine le_rdC_bind fun _ => ?_ | refine .rd fun _ => ?_)
  exact CntLe.mono (CntLe.bindL (CntLe.fold_const fun _ _ _ => le_hgeruh_30_I ..) (fun _ => .ret)) (by omega) (by omega)

theorem le_hgeruh_40_J (A : Int) (ALPHA : Quat F) (INCX : Int) (INCY : Int) (KX : Int) (LDA : Int) (M : Int) (X : Int) (Y : Int) (J : Int) (JY : Int) :
    CntLe (hgeruh_40_J A ALPHA INCX INCY KX LDA M X Y J JY : Prog F _) (M.toNat * 20 + 20) (M.toNat * 4) := by
  unfold hgeruh_40_J
  exact CntLe.bindL (le_hgeruh_if63 ..) fun _ => .ret

theorem le_hgeruh_if34 (A : Int) (ALPHA : Quat F) (INCX : Int) (INCY : Int) (JY : Int) (LDA : Int) (M : Int) (N : Int) (X : Int) (Y : Int) :
    CntLe (hgeruh_if34 A ALPHA INCX INCY JY LDA M N X Y : Prog F _) (N.toNat * (M.toNat * 20 + 20)) (N.toNat * (M.toNat * 4)) := by
  unfold hgeruh_if34
  try dsimp only
  refine CntLe.ite (fun _ => ?_) (fun _ => ?_)
  · exact CntLe.bindL (CntLe.fold_const fun _ _ _ => le_hgeruh_20_J ..) (fun _ => .ret)
  · exact CntLe.bind0 (CntLe.ite (fun _ => .ret) fun _ => .ret) fun _ => CntLe.bindL (CntLe.fold_const fun _ _ _ => le_hgeruh_40_J ..) (fun _ => .ret)

theorem le_hgeruh (M : Int) (N : Int) (ALPHA : Quat F) (X : Int) (INCX : Int) (Y : Int) (INCY : Int) (A : Int) (LDA : Int) :
    CntLe (hgeruh M N ALPHA X INCX Y INCY A LDA : Prog F _) (N.toNat * (M.toNat * 20 + 20)) (N.toNat * (M.toNat * 4)) := by
  unfold hgeruh
  try dsimp only
  refine CntLe.ite (fun _ => .ret) fun _ => CntLe.bind0 (CntLe.ite (fun _ => .ret) fun _ => .ret) fun _ => CntLe.bindL (le_hgeruh_if34 ..) fun _ => .ret

theorem le_hgercd_10_I (A : Int) (HTMPJ : Cplx F) (HTMPS : Cplx F) (J : Int) (LDA : Int) (X : Int) (I : Int) : CntLe (hgercd_10_I A HTMPJ HTMPS J LDA X I : Prog F _) 20 4 := by
  unfold hgercd_10_I
  le_line2

theorem le_hgercd_if36 (A : Int) (ALPHA : F) (J : Int) (JY : Int) (LDA : Int) (M : Int) (X : Int) (Y : Int) :
    CntLe (hgercd_if36 A ALPHA J JY LDA M X Y : Prog F _) (M.toNat * 20 + 20) (M.toNat * 4) := by
  unfold hgercd_if36
  try dsimp only
  repeat (first | refine le_rdC_bind fun _ => ?_ | refine .rd fun _ => ?_)
  refine CntLe.ite (fun _ => ?_) (fun _ => .ret)
  repeat (first | refine le_rdC_bind fun _ => ?_ | refine .rd fun _ => ?_)
  exact CntLe.mono (CntLe.bindL (CntLe.forN fun _ _ => le_hgercd_10_I ..) (fun _ => .ret)) (by omega) (by omega)

theorem le_hgercd_20_J (A : Int) (ALPHA : F) (INCY : Int) (LDA : Int) (M : Int) (X : Int) (Y : Int) (J : Int) (JY : Int) :
    CntLe (hgercd_20_J A ALPHA INCY LDA M X Y J JY : Prog F _) (M.toNat * 20 + 20) (M.toNat * 4) := by
  unfold hgercd_20_J
  exact CntLe.bindL (le_hgercd_if36 ..) fun _ => .ret

theorem le_hgercd_30_I (A : Int) (HTMPJ : Cplx F) (INCX : Int) (J : Int) (LDA : Int) (X : Int) (I : Int) (IX : Int) : CntLe (hgercd_30_I A HTMPJ INCX J LDA X I IX : Prog F _) 20 4 := by
  unfold hgercd_30_I
  le_line2

theorem le_hgercd_if53 (A : Int) (ALPHA : F) (INCX : Int) (J : Int) (JY : Int) (KX : Int) (LDA : Int) (M : Int) (X : Int) (Y : Int) :
    CntLe (hgercd_if53 A ALPHA INCX J JY KX LDA M X Y : Prog F _) (M.toNat * 20 + 20) (M.toNat * 4) := by
  unfold hgercd_if53
  try dsimp only
  repeat (first | refine le_rdC_bind fun _ => ?_ | refine .rd fun _ => ?_)
  refine CntLe.ite (fun _ => ?_) (fun _ => .ret)
  repeat (first | refine le_rdC_bind fun _ => ?_ | refine .rd fun _ => ?_)
  exact CntLe.mono (CntLe.bindL (CntLe.fold_const fun _ _ _ => le_hgercd_30_I ..) (fun _ => .ret)) (by omega) (by omega)

theorem le_hgercd_40_J (A : Int) (ALPHA : F) (INCX : Int) (INCY : Int) (KX : Int) (LDA : Int) (M : Int) (X : Int) (Y : Int) (J : Int) (JY : Int) :
    CntLe (hgercd_40_J A ALPHA INCX INCY KX LDA M X Y J JY : Prog F _) (M.toNat * 20 + 20) (M.toNat * 4) := by
  unfold hgercd_40_J
  exact CntLe.bindL (le_hgercd_if53 ..) fun _ => .ret

theorem le_hgercd_if34 (A : Int) (ALPHA : F) (INCX : Int) (INCY : Int) (JY : Int) (LDA : Int) (M : Int) (N : Int) (X : Int) (Y : Int) :
    CntLe (hgercd_if34 A ALPHA INCX INCY JY LDA M N X Y : Prog F _) (N.toNat * (M.toNat * 20 + 20)) (N.toNat * (M.toNat * 4)) := by
  unfold hgercd_if34
  try dsimp only
  refine CntLe.ite (fun _ => ?_) (fun _ => ?_)
  · exact CntLe.bindL (CntLe.fold_const fun _ _ _ => le_hgercd_20_J ..) (fun _ => .ret)
  · exact CntLe.bind0 (CntLe.ite (fun _ => .ret) fun _ => .ret) fun _ => CntLe.bindL (CntLe.fold_const fun _ _ _ => le_hgercd_40_J ..) (fun _ => .ret)

theorem le_hgercd (M : Int) (N : Int) (ALPHA : F) (X : Int) (INCX : Int) (Y : Int) (INCY : Int) (A : Int) (LDA : Int) :
    CntLe (hgercd M N ALPHA X INCX Y INCY A LDA : Prog F _) (N.toNat * (M.toNat * 20 + 20)) (N.toNat * (M.toNat * 4)) := by
  unfold hgercd
  try dsimp only
  refine CntLe.ite (fun _ => .ret) fun _ => CntLe.bind0 (CntLe.ite (fun _ => .ret) fun _ => .ret) fun _ => CntLe.bindL (le_hgercd_if34 ..) fun _ => .ret

theorem le_hgercz_10_I (A : Int) (HTMP1J : Cplx F) (HTMP1S : Cplx F) (HTMP2J : Cplx F) (HTMP2S : Cplx F) (J : Int) (LDA : Int) (X : Int) (I : Int) : CntLe (hgercz_10_I A HTMP1J HTMP1S HTMP2J HTMP2S J LDA X I : Prog F _) 20 4 := by
  unfold hgercz_10_I
  le_line2

theorem le_hgercz_if35 (A : Int) (ALPHA : Cplx F) (J : Int) (JY : Int) (LDA : Int) (M : Int) (X : Int) (Y : Int) :
    CntLe (hgercz_if35 A ALPHA J JY LDA M X Y : Prog F _) (M.toNat * 20 + 20) (M.toNat * 4) := by
  unfold hgercz_if35
  try dsimp only
  repeat (first | refine le_rdC_bind fun _ => ?_ | refine .rd fun _ => ?_)
  refine CntLe.ite (fun _ => ?_) (fun _ => .ret)
  repeat (first | refine le_rdC_bind fun _ => ?_ | refine .rd fun _ => ?_)
  exact CntLe.mono (CntLe.bindL (CntLe.forN fun _ _ => le_hgercz_10_I ..) (fun _ => .ret)) (by omega) (by omega)

theorem le_hgercz_20_J (A : Int) (ALPHA : Cplx F) (INCY : Int) (LDA : Int) (M : Int) (X : Int) (Y : Int) (J : Int) (JY : Int) :
    CntLe (hgercz_20_J A ALPHA INCY LDA M X Y J JY : Prog F _) (M.toNat * 20 + 20) (M.toNat * 4) := by
  unfold hgercz_20_J
  exact CntLe.bindL (le_hgercz_if35 ..) fun _ => .ret

theorem le_hgercz_30_I (A : Int) (HTMP1J : Cplx F) (HTMP1S : Cplx F) (HTMP2J : Cplx F) (HTMP2S : Cplx F) (INCX : Int) (J : Int) (LDA : Int) (X : Int) (I : Int) (IX : Int) : CntLe (hgercz_30_I A HTMP1J HTMP1S HTMP2J HTMP2S INCX J LDA X I IX : Prog F _) 20 4 := by
  unfold hgercz_30_I
  le_line2

theorem le_hgercz_if54 (A : Int) (ALPHA : Cplx F) (INCX : Int) (J : Int) (JY : Int) (KX : Int) (LDA : Int) (M : Int) (X : Int) (Y : Int) :
    CntLe (hgercz_if54 A ALPHA INCX J JY KX LDA M X Y : Prog F _) (M.toNat * 20 + 20) (M.toNat * 4) := by
  unfold hgercz_if54
  try dsimp only
  repeat (first | refine le_rdC_bind fun _ => ?_ | refine .rd fun _ => ?_)
  refine CntLe.ite (fun _ => ?_) (fun _ => .ret)
  repeat (first | refine le_rdC_bind fun _ => ?_ | refine .rd fun _ => ?_)
  exact CntLe.mono (CntLe.bindL (CntLe.fold_const fun _ _ _ => le_hgercz_30_I ..) (fun _ => .ret)) (by omega) (by omega)

theorem le_hgercz_40_J (A : Int) (ALPHA : Cplx F) (INCX : Int) (INCY : Int) (KX : Int) (LDA : Int) (M : Int) (X : Int) (Y : Int) (J : Int) (JY : Int) :
    CntLe (hgercz_40_J A ALPHA INCX INCY KX LDA M X Y J JY : Prog F _) (M.toNat * 20 + 20) (M.toNat * 4) := by
  unfold hgercz_40_J
  exact CntLe.bindL (le_hgercz_if54 ..) fun _ => .ret

theorem le_hgercz_if33 (A : Int) (ALPHA : Cplx F) (INCX : Int) (INCY : Int) (JY : Int) (LDA : Int) (M : Int) (N : Int) (X : Int) (Y : Int) :
    CntLe (hgercz_if33 A ALPHA INCX INCY JY LDA M N X Y : Prog F _) (N.toNat * (M.toNat * 20 + 20)) (N.toNat * (M.toNat * 4)) := by
  unfold hgercz_if33
  try dsimp only
  refine CntLe.ite (fun _ => ?_) (fun _ => ?_)
  · exact CntLe.bindL (CntLe.fold_const fun _ _ _ => le_hgercz_20_J ..) (fun _ => .ret)
  · exact CntLe.bind0 (CntLe.ite (fun _ => .ret) fun _ => .ret) fun _ => CntLe.bindL (CntLe.fold_const fun _ _ _ => le_hgercz_40_J ..) (fun _ => .ret)

theorem le_hgercz (M : Int) (N : Int) (ALPHA : Cplx F) (X : Int) (INCX : Int) (Y : Int) (INCY : Int) (A : Int) (LDA : Int) :
    CntLe (hgercz M N ALPHA X INCX Y INCY A LDA : Prog F _) (N.toNat * (M.toNat * 20 + 20)) (N.toNat * (M.toNat * 4)) := by
  unfold hgercz
  try dsimp only
  refine CntLe.ite (fun _ => .ret) fun _ => CntLe.bind0 (CntLe.ite (fun _ => .ret) fun _ => .ret) fun _ => CntLe.bindL (le_hgercz_if33 ..) fun _ => .ret

theorem le_hgerch_10_I (A : Int) (HTMP1J : Cplx F) (HTMP1S : Cplx F) (HTMP2J : Cplx F) (HTMP2S : Cplx F) (HTMP3J : Cplx F) (HTMP3S : Cplx F) (HTMP4J : Cplx F) (HTMP4S : Cplx F) (J : Int) (LDA : Int) (X : Int) (I : Int) : CntLe (hgerch_10_I A HTMP1J HTMP1S HTMP2J HTMP2S HTMP3J HTMP3S HTMP4J HTMP4S J LDA X I : Prog F _) 20 4 := by
  unfold hgerch_10_I
  le_line2

theorem le_hgerch_if36 (A : Int) (ALPHA : Quat F) (J : Int) (JY : Int) (LDA : Int) (M : Int) (X : Int) (Y : Int) :
    CntLe (hgerch_if36 A ALPHA J JY LDA M X Y : Prog F _) (M.toNat * 20 + 20) (M.toNat * 4) := by
  unfold hgerch_if36
  try dsimp only
  repeat (first | refine le_rdC_bind fun _ => ?_ | refine .rd fun _ => ?_)
  refine CntLe.ite (fun _ => ?_) (fun _ => .ret)
  repeat (first | refine le_rdC_bind fun _ => ?_ | refine .rd fun _ => ?_)
  exact CntLe.mono (CntLe.bindL (CntLe.forN fun _ _ => le_hgerch_10_I ..) (fun _ => .ret)) (by omega) (by omega)

theorem le_hgerch_20_J (A : Int) (ALPHA : Quat F) (INCY : Int) (LDA : Int) (M : Int) (X : Int) (Y : Int) (J : Int) (JY : Int) :
    CntLe (hgerch_20_J A ALPHA INCY LDA M X Y J JY : Prog F _) (M.toNat * 20 + 20) (M.toNat * 4) := by
  unfold hgerch_20_J
  exact CntLe.bindL (le_hgerch_if36 ..) fun _ => .ret

theorem le_hgerch_30_I (A : Int) (HTMP1J : Cplx F) (HTMP1S : Cplx F) (HTMP2J : Cplx F) (HTMP2S : Cplx F) (HTMP3J : Cplx F) (HTMP3S : Cplx F) (HTMP4J : Cplx F) (HTMP4S : Cplx F) (INCX : Int) (J : Int) (LDA : Int) (X : Int) (I : Int) (IX : Int) : CntLe (hgerch_30_I A HTMP1J HTMP1S HTMP2J HTMP2S HTMP3J HTMP3S HTMP4J HTMP4S INCX J LDA X I IX : Prog F _) 20 4 := by
  unfold hgerch_30_I
  le_line2

theorem le_hgerch_if63 (A : Int) (ALPHA : Quat F) (INCX : Int) (J : Int) (JY : Int) (KX : Int) (LDA : Int) (M : Int) (X : Int) (Y : Int) :
    CntLe (hgerch_if63 A ALPHA INCX J JY KX LDA M X Y : Prog F _) (M.toNat * 20 + 20) (M.toNat * 4) := by
  unfold hgerch_if63
  try dsimp only
  repeat (first | refine le_rdC_bind fun _ => ?_ | refine .rd fun _ => ?_)
  refine CntLe.ite (fun _ => ?_) (fun _ => .ret)
  repeat (first | refine le_rdC_bind fun _ => ?_ | refine .rd fun _ => ?_)
  exact CntLe.mono (CntLe.bindL (CntLe.fold_const fun _ _ _ => le_hgerch_30_I ..) (fun _ => .ret)) (by omega) (by omega)

theorem le_hgerch_40_J (A : Int) (ALPHA : Quat F) (INCX : Int) (INCY : Int) (KX : Int) (LDA : Int) (M : Int) (X : Int) (Y : Int) (J : Int) (JY : Int) :
    CntLe (hgerch_40_J A ALPHA INCX INCY KX LDA M X Y J JY : Prog F _) (M.toNat * 20 + 20) (M.toNat * 4) := by
  unfold hgerch_40_J
  exact CntLe.bindL (le_hgerch_if63 ..) fun _ => .ret

theorem le_hgerch_if34 (A : Int) (ALPHA : Quat F) (INCX : Int) (INCY : Int) (JY : Int) (LDA : Int) (M : Int) (N : Int) (X : Int) (Y : Int) :
    CntLe (hgerch_if34 A ALPHA INCX INCY JY LDA M N X Y : Prog F _) (N.toNat * (M.toNat * 20 + 20)) (N.toNat * (M.toNat * 4)) := by
  unfold hgerch_if34
  try dsimp only
  refine CntLe.ite (fun _ => ?_) (fun _ => ?_)
  · exact CntLe.bindL (CntLe.fold_const fun _ _ _ => le_hgerch_20_J ..) (fun _ => .ret)
  · exact CntLe.bind0 (CntLe.ite (fun _ => .ret) fun _ => .ret) fun _ => CntLe.bindL (CntLe.fold_const fun _ _ _ => le_hgerch_40_J ..) (fun _ => .ret)

theorem le_hgerch (M : Int) (N : Int) (ALPHA : Quat F) (X : Int) (INCX : Int) (Y : Int) (INCY : Int) (A : Int) (LDA : Int) :
    CntLe (hgerch M N ALPHA X INCX Y INCY A LDA : Prog F _) (N.toNat * (M.toNat * 20 + 20)) (N.toNat * (M.toNat * 4)) := by
  unfold hgerch
  try dsimp only
  refine CntLe.ite (fun _ => .ret) fun _ => CntLe.bind0 (CntLe.ite (fun _ => .ret) fun _ => .ret) fun _ => CntLe.bindL (le_hgerch_if34 ..) fun _ => .ret

end Haxx.Thr
