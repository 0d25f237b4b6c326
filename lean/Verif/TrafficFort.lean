import Verif.TrafficPort
import Verif.ThrFort

/-!
# Counting the memory accesses of the Fortran level-1 routines and of the expansions

As `Traffic.lean`.  Counted are the references of the Fortran source (an element of an array that appears in an expression is
read); the loop bodies are straight lines of reads and writes.
-/

set_option linter.unusedVariables false
set_option linter.unusedSectionVars false
set_option linter.unusedTactic false
set_option linter.unreachableTactic false

namespace Haxx.Thr
open Arith

variable {F : Type} [Arith F] [ArithEq F]

/-- A straight line of reads and writes. -/
macro "cnt_line" : tactic =>
  `(tactic| (repeat (first | exact .ret | refine .rd fun _ => ?_ | refine .wr ?_)))

theorem Cnt.bindL {α β : Type} {p : Prog F α} {f : α → Prog F β} {r w : Nat} (h : Cnt p r w) (hk : ∀ a, Cnt (f a) 0 0) :
    Cnt (p >>= f) r w := h.bind hk

/-- Branches, loops and calls; the leaves are the lemmas given. -/
syntax "cnt_tree" "[" term,* "]" : tactic
macro_rules
  | `(tactic| cnt_tree [$ts,*]) => do
    let es := ts.getElems
    `(tactic| ((try dsimp only); (repeat (first
      | exact .ret
      $[| apply $es]*
      | refine Cnt.forN fun _ _ => ?_
      | refine Cnt.fold_const fun _ _ _ => ?_
      | refine Cnt.ite (fun _ => ?_) (fun _ => ?_)
      | refine Cnt.bindL ?_ (fun _ => .ret)
      | refine Cnt.bind0 (Cnt.ite (fun _ => .ret) (fun _ => .ret)) fun _ => ?_))))

theorem cnt_hscald_10_I (ALPHA : F) (X : Int) (I : Int) : Cnt (hscald_10_I ALPHA X I : Prog F _) 4 4 := by
  unfold hscald_10_I
  cnt_line

theorem cnt_hscald_20_I (ALPHA : F) (INCX : Int) (X : Int) (I : Int) (IX : Int) : Cnt (hscald_20_I ALPHA INCX X I IX : Prog F _) 4 4 := by
  unfold hscald_20_I
  cnt_line

theorem cnt_hscalc_10_I (ALPHA : Cplx F) (X : Int) (I : Int) : Cnt (hscalc_10_I ALPHA X I : Prog F _) 4 4 := by
  unfold hscalc_10_I
  cnt_line

theorem cnt_hscalc_20_I (ALPHA : Cplx F) (X : Int) (I : Int) : Cnt (hscalc_20_I ALPHA X I : Prog F _) 4 4 := by
  unfold hscalc_20_I
  cnt_line

theorem cnt_hscalc_30_I (ALPHA : Cplx F) (INCX : Int) (X : Int) (I : Int) (IX : Int) : Cnt (hscalc_30_I ALPHA INCX X I IX : Prog F _) 4 4 := by
  unfold hscalc_30_I
  cnt_line

theorem cnt_hscalc_40_I (ALPHA : Cplx F) (INCX : Int) (X : Int) (I : Int) (IX : Int) : Cnt (hscalc_40_I ALPHA INCX X I IX : Prog F _) 4 4 := by
  unfold hscalc_40_I
  cnt_line

theorem cnt_hscalh_10_I (ALPHA : Quat F) (X : Int) (I : Int) : Cnt (hscalh_10_I ALPHA X I : Prog F _) 16 4 := by
  unfold hscalh_10_I
  cnt_line

theorem cnt_hscalh_20_I (ALPHA : Quat F) (X : Int) (I : Int) : Cnt (hscalh_20_I ALPHA X I : Prog F _) 16 4 := by
  unfold hscalh_20_I
  cnt_line

theorem cnt_hscalh_30_I (ALPHA : Quat F) (INCX : Int) (X : Int) (I : Int) (IX : Int) : Cnt (hscalh_30_I ALPHA INCX X I IX : Prog F _) 16 4 := by
  unfold hscalh_30_I
  cnt_line

theorem cnt_hscalh_40_I (ALPHA : Quat F) (INCX : Int) (X : Int) (I : Int) (IX : Int) : Cnt (hscalh_40_I ALPHA INCX X I IX : Prog F _) 16 4 := by
  unfold hscalh_40_I
  cnt_line

theorem cnt_haxpydh_10_I (ALPHA : F) (X : Int) (Y : Int) (I : Int) : Cnt (haxpydh_10_I ALPHA X Y I : Prog F _) 8 4 := by
  unfold haxpydh_10_I
  cnt_line

theorem cnt_haxpydh_20_I (ALPHA : F) (INCX : Int) (INCY : Int) (X : Int) (Y : Int) (I : Int) (IX : Int) (IY : Int) : Cnt (haxpydh_20_I ALPHA INCX INCY X Y I IX IY : Prog F _) 8 4 := by
  unfold haxpydh_20_I
  cnt_line

theorem cnt_haxpych_10_I (ALPHA : Cplx F) (X : Int) (Y : Int) (I : Int) : Cnt (haxpych_10_I ALPHA X Y I : Prog F _) 12 4 := by
  unfold haxpych_10_I
  cnt_line

theorem cnt_haxpych_20_I (ALPHA : Cplx F) (X : Int) (Y : Int) (I : Int) : Cnt (haxpych_20_I ALPHA X Y I : Prog F _) 12 4 := by
  unfold haxpych_20_I
  cnt_line

theorem cnt_haxpych_30_I (ALPHA : Cplx F) (INCX : Int) (INCY : Int) (X : Int) (Y : Int) (I : Int) (IX : Int) (IY : Int) : Cnt (haxpych_30_I ALPHA INCX INCY X Y I IX IY : Prog F _) 12 4 := by
  unfold haxpych_30_I
  cnt_line

theorem cnt_haxpych_40_I (ALPHA : Cplx F) (INCX : Int) (INCY : Int) (X : Int) (Y : Int) (I : Int) (IX : Int) (IY : Int) : Cnt (haxpych_40_I ALPHA INCX INCY X Y I IX IY : Prog F _) 12 4 := by
  unfold haxpych_40_I
  cnt_line

theorem cnt_haxpyhh_10_I (ALPHA : Quat F) (X : Int) (Y : Int) (I : Int) : Cnt (haxpyhh_10_I ALPHA X Y I : Prog F _) 20 4 := by
  unfold haxpyhh_10_I
  cnt_line

theorem cnt_haxpyhh_20_I (ALPHA : Quat F) (X : Int) (Y : Int) (I : Int) : Cnt (haxpyhh_20_I ALPHA X Y I : Prog F _) 20 4 := by
  unfold haxpyhh_20_I
  cnt_line

theorem cnt_haxpyhh_30_I (ALPHA : Quat F) (INCX : Int) (INCY : Int) (X : Int) (Y : Int) (I : Int) (IX : Int) (IY : Int) : Cnt (haxpyhh_30_I ALPHA INCX INCY X Y I IX IY : Prog F _) 20 4 := by
  unfold haxpyhh_30_I
  cnt_line

theorem cnt_haxpyhh_40_I (ALPHA : Quat F) (INCX : Int) (INCY : Int) (X : Int) (Y : Int) (I : Int) (IX : Int) (IY : Int) : Cnt (haxpyhh_40_I ALPHA INCX INCY X Y I IX IY : Prog F _) 20 4 := by
  unfold haxpyhh_40_I
  cnt_line

theorem cnt_hdotu_10_I (X : Int) (Y : Int) (I : Int) (R1 : F) (R2 : F) (R3 : F) (R4 : F) : Cnt (hdotu_10_I X Y I R1 R2 R3 R4 : Prog F _) 32 0 := by
  unfold hdotu_10_I
  cnt_line

theorem cnt_hdotu_20_I (INCX : Int) (INCY : Int) (X : Int) (Y : Int) (I : Int) (IX : Int) (IY : Int) (R1 : F) (R2 : F) (R3 : F) (R4 : F) : Cnt (hdotu_20_I INCX INCY X Y I IX IY R1 R2 R3 R4 : Prog F _) 32 0 := by
  unfold hdotu_20_I
  cnt_line

theorem cnt_hdotc_10_I (X : Int) (Y : Int) (I : Int) (R1 : F) (R2 : F) (R3 : F) (R4 : F) : Cnt (hdotc_10_I X Y I R1 R2 R3 R4 : Prog F _) 32 0 := by
  unfold hdotc_10_I
  cnt_line

theorem cnt_hdotc_20_I (INCX : Int) (INCY : Int) (X : Int) (Y : Int) (I : Int) (IX : Int) (IY : Int) (R1 : F) (R2 : F) (R3 : F) (R4 : F) : Cnt (hdotc_20_I INCX INCY X Y I IX IY R1 R2 R3 R4 : Prog F _) 32 0 := by
  unfold hdotc_20_I
  cnt_line

theorem cnt_hdexp_10_I (A : Int) (B : Int) (J : Int) (JB : Int) (LDA : Int) (LDB : Int) (I : Int) (IB : Int) : Cnt (hdexp_10_I A B J JB LDA LDB I IB : Prog F _) 16 16 := by
  unfold hdexp_10_I
  cnt_line

theorem cnt_hzexp1_10_I (A : Int) (B : Int) (J : Int) (JB : Int) (LDA : Int) (LDB : Int) (I : Int) (IB : Int) : Cnt (hzexp1_10_I A B J JB LDA LDB I IB : Prog F _) 8 8 := by
  unfold hzexp1_10_I
  cnt_line

theorem cnt_hzexp2_10_I (A : Int) (B : Int) (J : Int) (LDA : Int) (LDB : Int) (M : Int) (N : Int) (I : Int) : Cnt (hzexp2_10_I A B J LDA LDB M N I : Prog F _) 8 8 := by
  unfold hzexp2_10_I
  cnt_line

theorem cnt_hzcon1_10_I (A : Int) (B : Int) (J : Int) (JB : Int) (LDA : Int) (LDB : Int) (NOTL : Bool) (I : Int) (IB : Int) : Cnt (hzcon1_10_I A B J JB LDA LDB NOTL I IB : Prog F _) 4 4 := by
  unfold hzcon1_10_I
  cases NOTL <;> cnt_line

theorem cnt_hzcon2_10_I (A : Int) (B : Int) (J : Int) (LDA : Int) (LDB : Int) (M : Int) (N : Int) (NOTL : Bool) (I : Int) : Cnt (hzcon2_10_I A B J LDA LDB M N NOTL I : Prog F _) 4 4 := by
  unfold hzcon2_10_I
  cases NOTL <;> cnt_line

theorem cnt_hscald_if21 (ALPHA : F) (INCX : Int) (N : Int) (X : Int) :
    Cnt (hscald_if21 ALPHA INCX N X : Prog F _) (N.toNat * 4) (N.toNat * 4) := by
  unfold hscald_if21
  cnt_tree [cnt_hscald_10_I, cnt_hscald_20_I]

theorem cnt_hscald (SIDE : Char) (N : Int) (ALPHA : F) (X : Int) (INCX : Int) :
    Cnt (hscald SIDE N ALPHA X INCX : Prog F _) (if ALPHA ==ᶠ zero then 0 else N.toNat * 4) (if ALPHA ==ᶠ zero then 0 else N.toNat * 4) := by
  unfold hscald
  by_cases hN : N ≤ 0
  · rw [if_pos (decide_eq_true hN)]
    simp only [Int.toNat_of_nonpos hN, zero_mul, ite_self]
    exact .ret
  · rw [if_neg (by simpa using hN)]
    split
    · exact .ret
    · try dsimp only
      exact Cnt.bindL (cnt_hscald_if21 ..) (fun _ => .ret)

theorem cnt_hscalc_if27 (ALPHA : Cplx F) (MRIGHT : Bool) (N : Int) (X : Int) :
    Cnt (hscalc_if27 ALPHA MRIGHT N X : Prog F _) (N.toNat * 4) (N.toNat * 4) := by
  unfold hscalc_if27
  cnt_tree [cnt_hscalc_10_I, cnt_hscalc_20_I]

theorem cnt_hscalc_if45 (ALPHA : Cplx F) (INCX : Int) (IX : Int) (MRIGHT : Bool) (N : Int) (X : Int) :
    Cnt (hscalc_if45 ALPHA INCX IX MRIGHT N X : Prog F _) (N.toNat * 4) (N.toNat * 4) := by
  unfold hscalc_if45
  cnt_tree [cnt_hscalc_30_I, cnt_hscalc_40_I]

theorem cnt_hscalc_if26 (ALPHA : Cplx F) (INCX : Int) (MRIGHT : Bool) (N : Int) (X : Int) :
    Cnt (hscalc_if26 ALPHA INCX MRIGHT N X : Prog F _) (N.toNat * 4) (N.toNat * 4) := by
  unfold hscalc_if26
  cnt_tree [cnt_hscalc_if27, cnt_hscalc_if45]

theorem cnt_hscalc (SIDE : Char) (N : Int) (ALPHA : Cplx F) (X : Int) (INCX : Int) :
    Cnt (hscalc SIDE N ALPHA X INCX : Prog F _) (if cabsIsZero ALPHA then 0 else N.toNat * 4) (if cabsIsZero ALPHA then 0 else N.toNat * 4) := by
  unfold hscalc
  by_cases hN : N ≤ 0
  · rw [if_pos (decide_eq_true hN)]
    simp only [Int.toNat_of_nonpos hN, zero_mul, ite_self]
    exact .ret
  · rw [if_neg (by simpa using hN)]
    split
    · exact .ret
    · try dsimp only
      exact Cnt.bindL (cnt_hscalc_if26 ..) (fun _ => .ret)

theorem cnt_hscalh_if28 (ALPHA : Quat F) (MRIGHT : Bool) (N : Int) (X : Int) :
    Cnt (hscalh_if28 ALPHA MRIGHT N X : Prog F _) (N.toNat * 16) (N.toNat * 4) := by
  unfold hscalh_if28
  cnt_tree [cnt_hscalh_10_I, cnt_hscalh_20_I]

theorem cnt_hscalh_if70 (ALPHA : Quat F) (INCX : Int) (IX : Int) (MRIGHT : Bool) (N : Int) (X : Int) :
    Cnt (hscalh_if70 ALPHA INCX IX MRIGHT N X : Prog F _) (N.toNat * 16) (N.toNat * 4) := by
  unfold hscalh_if70
  cnt_tree [cnt_hscalh_30_I, cnt_hscalh_40_I]

theorem cnt_hscalh_if27 (ALPHA : Quat F) (INCX : Int) (MRIGHT : Bool) (N : Int) (X : Int) :
    Cnt (hscalh_if27 ALPHA INCX MRIGHT N X : Prog F _) (N.toNat * 16) (N.toNat * 4) := by
  unfold hscalh_if27
  cnt_tree [cnt_hscalh_if28, cnt_hscalh_if70]

theorem cnt_hscalh (SIDE : Char) (N : Int) (ALPHA : Quat F) (X : Int) (INCX : Int) :
    Cnt (hscalh SIDE N ALPHA X INCX : Prog F _) (if (((ALPHA.re ==ᶠ zero) && (ALPHA.i ==ᶠ zero)) && (ALPHA.j ==ᶠ zero)) && (ALPHA.k ==ᶠ zero) then 0 else N.toNat * 16) (if (((ALPHA.re ==ᶠ zero) && (ALPHA.i ==ᶠ zero)) && (ALPHA.j ==ᶠ zero)) && (ALPHA.k ==ᶠ zero) then 0 else N.toNat * 4) := by
  unfold hscalh
  by_cases hN : N ≤ 0
  · rw [if_pos (decide_eq_true hN)]
    simp only [Int.toNat_of_nonpos hN, zero_mul, ite_self]
    exact .ret
  · rw [if_neg (by simpa using hN)]
    split
    · exact .ret
    · try dsimp only
      exact Cnt.bindL (cnt_hscalh_if27 ..) (fun _ => .ret)

theorem cnt_haxpydh_if21 (ALPHA : F) (INCX : Int) (INCY : Int) (N : Int) (X : Int) (Y : Int) :
    Cnt (haxpydh_if21 ALPHA INCX INCY N X Y : Prog F _) (N.toNat * 8) (N.toNat * 4) := by
  unfold haxpydh_if21
  cnt_tree [cnt_haxpydh_10_I, cnt_haxpydh_20_I]

theorem cnt_haxpydh (SIDE : Char) (N : Int) (ALPHA : F) (X : Int) (INCX : Int) (Y : Int) (INCY : Int) :
    Cnt (haxpydh SIDE N ALPHA X INCX Y INCY : Prog F _) (if ALPHA ==ᶠ zero then 0 else N.toNat * 8) (if ALPHA ==ᶠ zero then 0 else N.toNat * 4) := by
  unfold haxpydh
  by_cases hN : N ≤ 0
  · rw [if_pos (decide_eq_true hN)]
    simp only [Int.toNat_of_nonpos hN, zero_mul, ite_self]
    exact .ret
  · rw [if_neg (by simpa using hN)]
    split
    · exact .ret
    · try dsimp only
      exact Cnt.bindL (cnt_haxpydh_if21 ..) (fun _ => .ret)

theorem cnt_haxpych_if25 (ALPHA : Cplx F) (MRIGHT : Bool) (N : Int) (X : Int) (Y : Int) :
    Cnt (haxpych_if25 ALPHA MRIGHT N X Y : Prog F _) (N.toNat * 12) (N.toNat * 4) := by
  unfold haxpych_if25
  cnt_tree [cnt_haxpych_10_I, cnt_haxpych_20_I]

theorem cnt_haxpych_if49 (ALPHA : Cplx F) (INCX : Int) (INCY : Int) (IX : Int) (IY : Int) (MRIGHT : Bool) (N : Int) (X : Int) (Y : Int) :
    Cnt (haxpych_if49 ALPHA INCX INCY IX IY MRIGHT N X Y : Prog F _) (N.toNat * 12) (N.toNat * 4) := by
  unfold haxpych_if49
  cnt_tree [cnt_haxpych_30_I, cnt_haxpych_40_I]

theorem cnt_haxpych_if24 (ALPHA : Cplx F) (INCX : Int) (INCY : Int) (MRIGHT : Bool) (N : Int) (X : Int) (Y : Int) :
    Cnt (haxpych_if24 ALPHA INCX INCY MRIGHT N X Y : Prog F _) (N.toNat * 12) (N.toNat * 4) := by
  unfold haxpych_if24
  cnt_tree [cnt_haxpych_if25, cnt_haxpych_if49]

theorem cnt_haxpych (SIDE : Char) (N : Int) (ALPHA : Cplx F) (X : Int) (INCX : Int) (Y : Int) (INCY : Int) :
    Cnt (haxpych SIDE N ALPHA X INCX Y INCY : Prog F _) (if (ALPHA.re ==ᶠ zero) && (ALPHA.im ==ᶠ zero) then 0 else N.toNat * 12) (if (ALPHA.re ==ᶠ zero) && (ALPHA.im ==ᶠ zero) then 0 else N.toNat * 4) := by
  unfold haxpych
  by_cases hN : N ≤ 0
  · rw [if_pos (decide_eq_true hN)]
    simp only [Int.toNat_of_nonpos hN, zero_mul, ite_self]
    exact .ret
  · rw [if_neg (by simpa using hN)]
    split
    · exact .ret
    · try dsimp only
      exact Cnt.bindL (cnt_haxpych_if24 ..) (fun _ => .ret)

theorem cnt_haxpyhh_if26 (ALPHA : Quat F) (MRIGHT : Bool) (N : Int) (X : Int) (Y : Int) :
    Cnt (haxpyhh_if26 ALPHA MRIGHT N X Y : Prog F _) (N.toNat * 20) (N.toNat * 4) := by
  unfold haxpyhh_if26
  cnt_tree [cnt_haxpyhh_10_I, cnt_haxpyhh_20_I]

theorem cnt_haxpyhh_if64 (ALPHA : Quat F) (INCX : Int) (INCY : Int) (IX : Int) (IY : Int) (MRIGHT : Bool) (N : Int) (X : Int) (Y : Int) :
    Cnt (haxpyhh_if64 ALPHA INCX INCY IX IY MRIGHT N X Y : Prog F _) (N.toNat * 20) (N.toNat * 4) := by
  unfold haxpyhh_if64
  cnt_tree [cnt_haxpyhh_30_I, cnt_haxpyhh_40_I]

theorem cnt_haxpyhh_if25 (ALPHA : Quat F) (INCX : Int) (INCY : Int) (MRIGHT : Bool) (N : Int) (X : Int) (Y : Int) :
    Cnt (haxpyhh_if25 ALPHA INCX INCY MRIGHT N X Y : Prog F _) (N.toNat * 20) (N.toNat * 4) := by
  unfold haxpyhh_if25
  cnt_tree [cnt_haxpyhh_if26, cnt_haxpyhh_if64]

theorem cnt_haxpyhh (SIDE : Char) (N : Int) (ALPHA : Quat F) (X : Int) (INCX : Int) (Y : Int) (INCY : Int) :
    Cnt (haxpyhh SIDE N ALPHA X INCX Y INCY : Prog F _) (if (((ALPHA.re ==ᶠ zero) && (ALPHA.i ==ᶠ zero)) && (ALPHA.j ==ᶠ zero)) && (ALPHA.k ==ᶠ zero) then 0 else N.toNat * 20) (if (((ALPHA.re ==ᶠ zero) && (ALPHA.i ==ᶠ zero)) && (ALPHA.j ==ᶠ zero)) && (ALPHA.k ==ᶠ zero) then 0 else N.toNat * 4) := by
  unfold haxpyhh
  by_cases hN : N ≤ 0
  · rw [if_pos (decide_eq_true hN)]
    simp only [Int.toNat_of_nonpos hN, zero_mul, ite_self]
    exact .ret
  · rw [if_neg (by simpa using hN)]
    split
    · exact .ret
    · try dsimp only
      exact Cnt.bindL (cnt_haxpyhh_if25 ..) (fun _ => .ret)

theorem cnt_hdotu_if20 (INCX : Int) (INCY : Int) (N : Int) (R1 : F) (R2 : F) (R3 : F) (R4 : F) (X : Int) (Y : Int) :
    Cnt (hdotu_if20 INCX INCY N R1 R2 R3 R4 X Y : Prog F _) (N.toNat * 32) (N.toNat * 0) := by
  unfold hdotu_if20
  cnt_tree [cnt_hdotu_10_I, cnt_hdotu_20_I]

theorem cnt_hdotu (N : Int) (X : Int) (INCX : Int) (Y : Int) (INCY : Int) :
    Cnt (hdotu N X INCX Y INCY : Prog F _) (N.toNat * 32) (N.toNat * 0) := by
  unfold hdotu
  by_cases hN : N ≤ 0
  · rw [if_pos (decide_eq_true hN)]
    simp only [Int.toNat_of_nonpos hN, zero_mul]
    exact .ret
  · rw [if_neg (by simpa using hN)]
    try dsimp only
    exact Cnt.bindL (cnt_hdotu_if20 ..) (fun _ => .ret)

theorem cnt_hdotc_if20 (INCX : Int) (INCY : Int) (N : Int) (R1 : F) (R2 : F) (R3 : F) (R4 : F) (X : Int) (Y : Int) :
    Cnt (hdotc_if20 INCX INCY N R1 R2 R3 R4 X Y : Prog F _) (N.toNat * 32) (N.toNat * 0) := by
  unfold hdotc_if20
  cnt_tree [cnt_hdotc_10_I, cnt_hdotc_20_I]

theorem cnt_hdotc (N : Int) (X : Int) (INCX : Int) (Y : Int) (INCY : Int) :
    Cnt (hdotc N X INCX Y INCY : Prog F _) (N.toNat * 32) (N.toNat * 0) := by
  unfold hdotc
  by_cases hN : N ≤ 0
  · rw [if_pos (decide_eq_true hN)]
    simp only [Int.toNat_of_nonpos hN, zero_mul]
    exact .ret
  · rw [if_neg (by simpa using hN)]
    try dsimp only
    exact Cnt.bindL (cnt_hdotc_if20 ..) (fun _ => .ret)

theorem cnt_hdexp_20_J (A : Int) (B : Int) (LDA : Int) (LDB : Int) (M : Int) (J : Int) (JB : Int) :
    Cnt (hdexp_20_J A B LDA LDB M J JB : Prog F _) (M.toNat * 16) (M.toNat * 16) := by
  unfold hdexp_20_J
  cnt_tree [cnt_hdexp_10_I]

theorem cnt_hdexp (M : Int) (N : Int) (A : Int) (LDA : Int) (B : Int) (LDB : Int) :
    Cnt (hdexp M N A LDA B LDB : Prog F _) (N.toNat * (M.toNat * 16)) (N.toNat * (M.toNat * 16)) := by
  unfold hdexp
  cnt_tree [cnt_hdexp_20_J]

theorem cnt_hzexp1_20_J (A : Int) (B : Int) (LDA : Int) (LDB : Int) (M : Int) (J : Int) (JB : Int) :
    Cnt (hzexp1_20_J A B LDA LDB M J JB : Prog F _) (M.toNat * 8) (M.toNat * 8) := by
  unfold hzexp1_20_J
  cnt_tree [cnt_hzexp1_10_I]

theorem cnt_hzexp1 (M : Int) (N : Int) (A : Int) (LDA : Int) (B : Int) (LDB : Int) :
    Cnt (hzexp1 M N A LDA B LDB : Prog F _) (N.toNat * (M.toNat * 8)) (N.toNat * (M.toNat * 8)) := by
  unfold hzexp1
  cnt_tree [cnt_hzexp1_20_J]

theorem cnt_hzexp2_10_J (A : Int) (B : Int) (LDA : Int) (LDB : Int) (M : Int) (N : Int) (J : Int) :
    Cnt (hzexp2_10_J A B LDA LDB M N J : Prog F _) (M.toNat * 8) (M.toNat * 8) := by
  unfold hzexp2_10_J
  cnt_tree [cnt_hzexp2_10_I]

theorem cnt_hzexp2 (M : Int) (N : Int) (A : Int) (LDA : Int) (B : Int) (LDB : Int) :
    Cnt (hzexp2 M N A LDA B LDB : Prog F _) (N.toNat * (M.toNat * 8)) (N.toNat * (M.toNat * 8)) := by
  unfold hzexp2
  cnt_tree [cnt_hzexp2_10_J]

theorem cnt_hzcon1_20_J (A : Int) (B : Int) (LDA : Int) (LDB : Int) (M : Int) (NOTL : Bool) (J : Int) (JB : Int) :
    Cnt (hzcon1_20_J A B LDA LDB M NOTL J JB : Prog F _) (M.toNat * 4) (M.toNat * 4) := by
  unfold hzcon1_20_J
  cnt_tree [cnt_hzcon1_10_I]

theorem cnt_hzcon1 (UPLO : Char) (M : Int) (N : Int) (A : Int) (LDA : Int) (B : Int) (LDB : Int) :
    Cnt (hzcon1 UPLO M N A LDA B LDB : Prog F _) (N.toNat * (M.toNat * 4)) (N.toNat * (M.toNat * 4)) := by
  unfold hzcon1
  cnt_tree [cnt_hzcon1_20_J]

theorem cnt_hzcon2_10_J (A : Int) (B : Int) (LDA : Int) (LDB : Int) (M : Int) (N : Int) (NOTL : Bool) (J : Int) :
    Cnt (hzcon2_10_J A B LDA LDB M N NOTL J : Prog F _) (M.toNat * 4) (M.toNat * 4) := by
  unfold hzcon2_10_J
  cnt_tree [cnt_hzcon2_10_I]

theorem cnt_hzcon2 (UPLO : Char) (M : Int) (N : Int) (A : Int) (LDA : Int) (B : Int) (LDB : Int) :
    Cnt (hzcon2 UPLO M N A LDA B LDB : Prog F _) (N.toNat * (M.toNat * 4)) (N.toNat * (M.toNat * 4)) := by
  unfold hzcon2
  cnt_tree [cnt_hzcon2_10_J]

theorem cnt_HBLAS_COMPLEX_EXPAND (ORDER : Char) (M N A LDA B LDB : Int) :
    Cnt (HBLAS_COMPLEX_EXPAND ORDER M N A LDA B LDB : Prog F _) (N.toNat * (M.toNat * 8)) (N.toNat * (M.toNat * 8)) := by
  unfold HBLAS_COMPLEX_EXPAND
  refine Cnt.bind0 (cnt_assert _) fun _ => Cnt.ite (fun _ => ?_) (fun _ => ?_)
  · exact cnt_hzexp1 ..
  · exact cnt_hzexp2 ..

theorem cnt_HBLAS_COMPLEX_CONTRACT (ORDER UPLO : Char) (M N A LDA B LDB : Int) :
    Cnt (HBLAS_COMPLEX_CONTRACT ORDER UPLO M N A LDA B LDB : Prog F _) (N.toNat * (M.toNat * 4)) (N.toNat * (M.toNat * 4)) := by
  unfold HBLAS_COMPLEX_CONTRACT
  refine Cnt.bind0 (cnt_assert _) fun _ => Cnt.ite (fun _ => ?_) (fun _ => ?_)
  · exact cnt_hzcon1 ..
  · exact cnt_hzcon2 ..

theorem cnt_HBLAS_REAL_EXPAND (M N A LDA B LDB : Int) :
    Cnt (HBLAS_REAL_EXPAND M N A LDA B LDB : Prog F _) (N.toNat * (M.toNat * 16)) (N.toNat * (M.toNat * 16)) := cnt_hdexp ..

end Haxx.Thr
