import Verif.ThrLockPort
import Verif.ThrLockS
import Verif.ThrSafeMix

/-! # The templates with real, complex or quaternion operands in lock step -/

namespace Haxx.Thr
open Arith
set_option linter.unusedSectionVars false
set_option linter.unusedTactic false
set_option linter.unreachableTactic false

variable {F : Type} [Arith F] [ArithEq F]

theorem axpyvGenK_lock (kX : Kind) (SIDE : Char) (N : Int) (ALPHA : Scal F) (X INCX Y INCY : Int) :
    Lock (axpyvGenK kX SIDE N ALPHA X INCX Y INCY) (axpyvGenK kX SIDE N ALPHA X INCX Y INCY) := by
  repeat' first
    | with_reducible exact lock_loadK ..
    | lock_step
    | unfold axpyvGenK
    | unfold axpyUnrollK
    | unfold stridedStep
    | unfold axpyElK
theorem gemmGenK_lock (k kB : Kind) (TRANSA TRANSB : Char) (M N K : Int) (ALPHA : Scal F) (A LDA B LDB : Int) (BETA : Scal F) (C LDC : Int) :
    Lock (gemmGenK k kB TRANSA TRANSB M N K ALPHA A LDA B LDB BETA C LDC) (gemmGenK k kB TRANSA TRANSB M N K ALPHA A LDA B LDB BETA C LDC) := by
  repeat' first
    | with_reducible exact lock_loadK ..
    | lock_step
    | unfold gemmGenK
    | unfold gemmColNNK
    | unfold gemmColNTK
    | unfold gemmColTNK
    | unfold gemmColTTK
    | unfold gemmColA0
    | unfold gemmElTNK
    | unfold gemmElTTK
    | unfold gemmStoreEl
    | unfold gemmDotElK
    | unfold gemmBetaCol
    | unfold gemmAxpyElK
    | unfold betaEl
    | unfold zeroEl
theorem gemvGenK_lock (k kX : Kind) (TRANS : Char) (M N : Int) (ALPHA : Scal F) (A LDA X INCX : Int) (BETA : Scal F) (Y INCY : Int) :
    Lock (gemvGenK k kX TRANS M N ALPHA A LDA X INCX BETA Y INCY) (gemvGenK k kX TRANS M N ALPHA A LDA X INCX BETA Y INCY) := by
  repeat' first
    | with_reducible exact lock_loadK ..
    | lock_step
    | unfold gemvGenK
    | unfold gemvScale
    | unfold gemvColNK
    | unfold gemvColTK
    | unfold gemvAxpyElK
    | unfold gemvDotElK
    | unfold zeroEl
    | unfold betaEl
    | unfold rank2

theorem ls_loadK {S : Int → Prop} {k : Kind} {p : Int} : LockS S Any (loadK k p : Prog F (Scal F)) (loadK k p) := by
  cases k
  · exact .rd fun _ _ => .ret trivial
  · exact .rd fun _ _ => .rd fun _ _ => .ret trivial
  · exact .rd fun _ _ => .rd fun _ _ => .rd fun _ _ => .rd fun _ _ => .ret trivial

theorem ls_loadKS {S : Int → Prop} {k : Kind} {p : Int} (h : K4 k S p) : LockS S Eq (loadK k p : Prog F (Scal F)) (loadK k p) := by
  cases k
  · exact .rdS (h _ (by omega) (by show p < p + 1; omega)) fun _ => .ret rfl
  · exact .rdS (h _ (by omega) (by show p < p + 2; omega)) fun _ => .rdS (h _ (by omega) (by show p + 1 < p + 2; omega)) fun _ => .ret rfl
  · exact .rdS (h _ (by omega) (by show p < p + 4; omega)) fun _ => .rdS (h _ (by omega) (by show p + 1 < p + 4; omega)) fun _ =>
      .rdS (h _ (by omega) (by show p + 2 < p + 4; omega)) fun _ => .rdS (h _ (by omega) (by show p + 3 < p + 4; omega)) fun _ => .ret rfl

theorem gerElK_lockS {S : Int → Prop} {kX kY : Kind} {cj : Bool} {ALPHA : Scal F} {X Y A LDA j JY i ix : Int}
    (hA : Q4 (fun a => ¬ S a) (A + 4 * (i + j * LDA))) : LockS S Any (gerElK kX kY cj ALPHA X Y A LDA j JY i ix) (gerElK kX kY cj ALPHA X Y A LDA j JY i ix) := by
  unfold gerElK rank2
  refine ls_seqT ls_loadK fun _ _ => ls_seqT ls_loadK fun _ _ => LockS.bind (R := fun a b => a = b ∧ a = i + j * LDA) (ls_i32_bind (x := j * LDA) (f := fun p => i32 (i + p)) (g := fun p => i32 (i + p)) ls_i32) ?_
  rintro p q ⟨rfl, rfl⟩
  exact ls_seqT ls_loadQ fun _ _ => ls_storeQ hA

theorem gerGenK_lockS {S : Int → Prop} (kX kY : Kind) (cj : Bool) (M N : Int) (ALPHA : Scal F) (X INCX Y INCY A LDA : Int)
    (hY : ∀ a, KVecCell kY Y INCY N.toNat a → S a) (hA : ∀ a, MatCell A LDA M.toNat N.toNat a → ¬ S a) :
    LockS S Any (gerGenK kX kY cj M N ALPHA X INCX Y INCY A LDA) (gerGenK kX kY cj M N ALPHA X INCX Y INCY A LDA) := by
  unfold gerGenK
  refine ls_ite (fun _ => .ret trivial) fun _ => ls_assert fun _ => ls_assert fun _ => ?_
  refine ls_seqS (ls_foldP INCY fun j p e hj => ?_) fun _ => .ret trivial
  rw [Int.zero_add] at e
  subst e
  have hel : ∀ i : Nat, i < M.toNat → Q4 (fun a => ¬ S a) (A + 4 * ((i:Int) + j * LDA)) := fun i hi a ha => hA a ⟨i, j, hi, hj, ha⟩
  unfold gerColK
  refine ls_seqS (ls_loadKS (vec_k4 hY hj)) fun y => ?_
  dsimp only
  refine ls_ite (fun _ => ls_ite (fun _ => ?_) fun _ => ?_) fun _ => ls_i32
  · exact ls_seqU (ls_forN fun i hi => gerElK_lockS (hel i hi)) ls_i32
  · refine ls_seqS (ls_foldP INCX fun i ix _ hi => ls_seqU (gerElK_lockS (hel i hi)) ls_i32) fun _ => ls_i32
end Haxx.Thr
