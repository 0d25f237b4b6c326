import Verif.ThrSafeVec
import Verif.ThrFort

/-! Generated by `tools/gen_safe.py util`. -/

namespace Haxx.Thr
open Arith
variable {F : Type} [Arith F] [ArithEq F]
set_option maxHeartbeats 4000000
set_option linter.unusedSectionVars false

/-- The four complex entries of a 2 × 2 block with top-left entry `(p,q)`. -/
structure ZOk (P : Int → Prop) (LDB B p q : Int) : Prop where
  c00 : Two P (el2 2 LDB B p q)
  c01 : Two P (el2 2 LDB B p (q + 1))
  c10 : Two P (el2 2 LDB B (p + 1) q)
  c11 : Two P (el2 2 LDB B (p + 1) (q + 1))

/-- The same with the blocks `M` rows and `N` columns apart. -/
structure ZOk2 (P : Int → Prop) (LDB B M N p q : Int) : Prop where
  c00 : Two P (el2 2 LDB B p q)
  c01 : Two P (el2 2 LDB B p (q + N))
  c10 : Two P (el2 2 LDB B (p + M) q)
  c11 : Two P (el2 2 LDB B (p + M) (q + N))

/-- The sixteen real entries of a 4 × 4 block with top-left entry `(p,q)`. -/
structure DOk (P : Int → Prop) (LDB B p q : Int) : Prop where
  d00 : P (el2 1 LDB B p q)
  d01 : P (el2 1 LDB B p (q + 1))
  d02 : P (el2 1 LDB B p (q + 2))
  d03 : P (el2 1 LDB B p (q + 3))
  d10 : P (el2 1 LDB B (p + 1) q)
  d11 : P (el2 1 LDB B (p + 1) (q + 1))
  d12 : P (el2 1 LDB B (p + 1) (q + 2))
  d13 : P (el2 1 LDB B (p + 1) (q + 3))
  d20 : P (el2 1 LDB B (p + 2) q)
  d21 : P (el2 1 LDB B (p + 2) (q + 1))
  d22 : P (el2 1 LDB B (p + 2) (q + 2))
  d23 : P (el2 1 LDB B (p + 2) (q + 3))
  d30 : P (el2 1 LDB B (p + 3) q)
  d31 : P (el2 1 LDB B (p + 3) (q + 1))
  d32 : P (el2 1 LDB B (p + 3) (q + 2))
  d33 : P (el2 1 LDB B (p + 3) (q + 3))

theorem hzexp1_safe (M : Int) (N : Int) (A : Int) (LDA : Int) (B : Int) (LDB : Int) {S W : Int → Prop}
    (ha : ∀ i j : Nat, i < M.toNat → j < N.toNat → MOk S LDA A ((i:Int) + 1) ((j:Int) + 1))
    (hb : ∀ (p q : Int) (i j : Nat), p = 1 + (i:Int) * 2 → q = 1 + (j:Int) * 2 → i < M.toNat → j < N.toNat → ZOk S LDB B p q)
    (hw : ∀ (p q : Int) (i j : Nat), p = 1 + (i:Int) * 2 → q = 1 + (j:Int) * 2 → i < M.toNat → j < N.toNat → ZOk W LDB B p q) :
    Safe S W (hzexp1 M N A LDA B LDB (F := F)) (fun _ => True) := by
  repeat' first
    | exact safe_pure trivial
    | exact safe_pure rfl
    | exact safe_pure ⟨rfl, rfl⟩
    | with_reducible refine safe_ite (fun _ => ?_) (fun _ => ?_)
    | with_reducible refine safe_bind_ite (α := Int) ?_
    | with_reducible refine safe_bind_cases (α := Int × Int) (fun _ => ?_) (fun _ => ?_)
    | with_reducible refine safe_seq ?_ (fun _ => ?_)
    | with_reducible refine safe_rdC ?_
    | with_reducible refine safe_wrC ?_ ?_
    | with_reducible refine safe_forN (fun _ _ => ?_)
    | with_reducible refine safe_rd ?_
    | with_reducible refine safe_wr ?_ ?_
    | with_reducible refine safe_foldP (f := fun i (s : Int) => hzexp1_10_I _ _ _ _ _ _ ((i : Int) + 1) s) (fun s => s) 2 (fun _ _ _ _ => ?_)
    | with_reducible refine safe_foldP (f := fun i (s : Int) => hzexp1_20_J _ _ _ _ _ ((i : Int) + 1) s) (fun s => s) 2 (fun _ _ _ _ => ?_)
    | with_reducible refine safe_fold (fun _ _ _ => ?_)
    | with_reducible exact (ha _ _ (by assumption) (by assumption)).r1
    | with_reducible exact (ha _ _ (by assumption) (by assumption)).r2
    | with_reducible exact (ha _ _ (by assumption) (by assumption)).r3
    | with_reducible exact (ha _ _ (by assumption) (by assumption)).r4
    | with_reducible exact (ha _ _ (by assumption) (by assumption)).c1
    | with_reducible exact (ha _ _ (by assumption) (by assumption)).c2
    | with_reducible exact (hb _ _ _ _ (by assumption) (by assumption) (by assumption) (by assumption)).c00
    | with_reducible exact (hb _ _ _ _ (by assumption) (by assumption) (by assumption) (by assumption)).c01
    | with_reducible exact (hb _ _ _ _ (by assumption) (by assumption) (by assumption) (by assumption)).c10
    | with_reducible exact (hb _ _ _ _ (by assumption) (by assumption) (by assumption) (by assumption)).c11
    | with_reducible exact (hw _ _ _ _ (by assumption) (by assumption) (by assumption) (by assumption)).c00
    | with_reducible exact (hw _ _ _ _ (by assumption) (by assumption) (by assumption) (by assumption)).c01
    | with_reducible exact (hw _ _ _ _ (by assumption) (by assumption) (by assumption) (by assumption)).c10
    | with_reducible exact (hw _ _ _ _ (by assumption) (by assumption) (by assumption) (by assumption)).c11
    | unfold hzexp1
    | unfold hzexp1_10_I
    | unfold hzexp1_20_J

theorem hzexp2_safe (M : Int) (N : Int) (A : Int) (LDA : Int) (B : Int) (LDB : Int) {S W : Int → Prop}
    (ha : ∀ i j : Nat, i < M.toNat → j < N.toNat → MOk S LDA A ((i:Int) + 1) ((j:Int) + 1))
    (hb : ∀ i j : Nat, i < M.toNat → j < N.toNat → ZOk2 S LDB B M N ((i:Int) + 1) ((j:Int) + 1))
    (hw : ∀ i j : Nat, i < M.toNat → j < N.toNat → ZOk2 W LDB B M N ((i:Int) + 1) ((j:Int) + 1)) :
    Safe S W (hzexp2 M N A LDA B LDB (F := F)) (fun _ => True) := by
  repeat' first
    | exact safe_pure trivial
    | exact safe_pure rfl
    | exact safe_pure ⟨rfl, rfl⟩
    | with_reducible refine safe_ite (fun _ => ?_) (fun _ => ?_)
    | with_reducible refine safe_bind_ite (α := Int) ?_
    | with_reducible refine safe_bind_cases (α := Int × Int) (fun _ => ?_) (fun _ => ?_)
    | with_reducible refine safe_seq ?_ (fun _ => ?_)
    | with_reducible refine safe_rdC ?_
    | with_reducible refine safe_wrC ?_ ?_
    | with_reducible refine safe_forN (fun _ _ => ?_)
    | with_reducible refine safe_rd ?_
    | with_reducible refine safe_wr ?_ ?_

    | with_reducible refine safe_fold (fun _ _ _ => ?_)
    | with_reducible exact (ha _ _ (by assumption) (by assumption)).r1
    | with_reducible exact (ha _ _ (by assumption) (by assumption)).r2
    | with_reducible exact (ha _ _ (by assumption) (by assumption)).r3
    | with_reducible exact (ha _ _ (by assumption) (by assumption)).r4
    | with_reducible exact (ha _ _ (by assumption) (by assumption)).c1
    | with_reducible exact (ha _ _ (by assumption) (by assumption)).c2
    | with_reducible exact (hb _ _ (by assumption) (by assumption)).c00
    | with_reducible exact (hb _ _ (by assumption) (by assumption)).c01
    | with_reducible exact (hb _ _ (by assumption) (by assumption)).c10
    | with_reducible exact (hb _ _ (by assumption) (by assumption)).c11
    | with_reducible exact (hw _ _ (by assumption) (by assumption)).c00
    | with_reducible exact (hw _ _ (by assumption) (by assumption)).c01
    | with_reducible exact (hw _ _ (by assumption) (by assumption)).c10
    | with_reducible exact (hw _ _ (by assumption) (by assumption)).c11
    | unfold hzexp2
    | unfold hzexp2_10_I
    | unfold hzexp2_10_J

theorem hdexp_safe (M : Int) (N : Int) (A : Int) (LDA : Int) (B : Int) (LDB : Int) {S W : Int → Prop}
    (ha : ∀ i j : Nat, i < M.toNat → j < N.toNat → MOk S LDA A ((i:Int) + 1) ((j:Int) + 1))
    (hb : ∀ (p q : Int) (i j : Nat), p = 1 + (i:Int) * 4 → q = 1 + (j:Int) * 4 → i < M.toNat → j < N.toNat → DOk S LDB B p q)
    (hw : ∀ (p q : Int) (i j : Nat), p = 1 + (i:Int) * 4 → q = 1 + (j:Int) * 4 → i < M.toNat → j < N.toNat → DOk W LDB B p q) :
    Safe S W (hdexp M N A LDA B LDB (F := F)) (fun _ => True) := by
  repeat' first
    | exact safe_pure trivial
    | exact safe_pure rfl
    | exact safe_pure ⟨rfl, rfl⟩
    | with_reducible refine safe_ite (fun _ => ?_) (fun _ => ?_)
    | with_reducible refine safe_bind_ite (α := Int) ?_
    | with_reducible refine safe_bind_cases (α := Int × Int) (fun _ => ?_) (fun _ => ?_)
    | with_reducible refine safe_seq ?_ (fun _ => ?_)
    | with_reducible refine safe_rdC ?_
    | with_reducible refine safe_wrC ?_ ?_
    | with_reducible refine safe_forN (fun _ _ => ?_)
    | with_reducible refine safe_rd ?_
    | with_reducible refine safe_wr ?_ ?_
    | with_reducible refine safe_foldP (f := fun i (s : Int) => hdexp_10_I _ _ _ _ _ _ ((i : Int) + 1) s) (fun s => s) 4 (fun _ _ _ _ => ?_)
    | with_reducible refine safe_foldP (f := fun i (s : Int) => hdexp_20_J _ _ _ _ _ ((i : Int) + 1) s) (fun s => s) 4 (fun _ _ _ _ => ?_)
    | with_reducible refine safe_fold (fun _ _ _ => ?_)
    | with_reducible exact (ha _ _ (by assumption) (by assumption)).r1
    | with_reducible exact (ha _ _ (by assumption) (by assumption)).r2
    | with_reducible exact (ha _ _ (by assumption) (by assumption)).r3
    | with_reducible exact (ha _ _ (by assumption) (by assumption)).r4
    | with_reducible exact (ha _ _ (by assumption) (by assumption)).c1
    | with_reducible exact (ha _ _ (by assumption) (by assumption)).c2
    | with_reducible exact (hb _ _ _ _ (by assumption) (by assumption) (by assumption) (by assumption)).d00
    | with_reducible exact (hb _ _ _ _ (by assumption) (by assumption) (by assumption) (by assumption)).d01
    | with_reducible exact (hb _ _ _ _ (by assumption) (by assumption) (by assumption) (by assumption)).d02
    | with_reducible exact (hb _ _ _ _ (by assumption) (by assumption) (by assumption) (by assumption)).d03
    | with_reducible exact (hb _ _ _ _ (by assumption) (by assumption) (by assumption) (by assumption)).d10
    | with_reducible exact (hb _ _ _ _ (by assumption) (by assumption) (by assumption) (by assumption)).d11
    | with_reducible exact (hb _ _ _ _ (by assumption) (by assumption) (by assumption) (by assumption)).d12
    | with_reducible exact (hb _ _ _ _ (by assumption) (by assumption) (by assumption) (by assumption)).d13
    | with_reducible exact (hb _ _ _ _ (by assumption) (by assumption) (by assumption) (by assumption)).d20
    | with_reducible exact (hb _ _ _ _ (by assumption) (by assumption) (by assumption) (by assumption)).d21
    | with_reducible exact (hb _ _ _ _ (by assumption) (by assumption) (by assumption) (by assumption)).d22
    | with_reducible exact (hb _ _ _ _ (by assumption) (by assumption) (by assumption) (by assumption)).d23
    | with_reducible exact (hb _ _ _ _ (by assumption) (by assumption) (by assumption) (by assumption)).d30
    | with_reducible exact (hb _ _ _ _ (by assumption) (by assumption) (by assumption) (by assumption)).d31
    | with_reducible exact (hb _ _ _ _ (by assumption) (by assumption) (by assumption) (by assumption)).d32
    | with_reducible exact (hb _ _ _ _ (by assumption) (by assumption) (by assumption) (by assumption)).d33
    | with_reducible exact (hw _ _ _ _ (by assumption) (by assumption) (by assumption) (by assumption)).d00
    | with_reducible exact (hw _ _ _ _ (by assumption) (by assumption) (by assumption) (by assumption)).d01
    | with_reducible exact (hw _ _ _ _ (by assumption) (by assumption) (by assumption) (by assumption)).d02
    | with_reducible exact (hw _ _ _ _ (by assumption) (by assumption) (by assumption) (by assumption)).d03
    | with_reducible exact (hw _ _ _ _ (by assumption) (by assumption) (by assumption) (by assumption)).d10
    | with_reducible exact (hw _ _ _ _ (by assumption) (by assumption) (by assumption) (by assumption)).d11
    | with_reducible exact (hw _ _ _ _ (by assumption) (by assumption) (by assumption) (by assumption)).d12
    | with_reducible exact (hw _ _ _ _ (by assumption) (by assumption) (by assumption) (by assumption)).d13
    | with_reducible exact (hw _ _ _ _ (by assumption) (by assumption) (by assumption) (by assumption)).d20
    | with_reducible exact (hw _ _ _ _ (by assumption) (by assumption) (by assumption) (by assumption)).d21
    | with_reducible exact (hw _ _ _ _ (by assumption) (by assumption) (by assumption) (by assumption)).d22
    | with_reducible exact (hw _ _ _ _ (by assumption) (by assumption) (by assumption) (by assumption)).d23
    | with_reducible exact (hw _ _ _ _ (by assumption) (by assumption) (by assumption) (by assumption)).d30
    | with_reducible exact (hw _ _ _ _ (by assumption) (by assumption) (by assumption) (by assumption)).d31
    | with_reducible exact (hw _ _ _ _ (by assumption) (by assumption) (by assumption) (by assumption)).d32
    | with_reducible exact (hw _ _ _ _ (by assumption) (by assumption) (by assumption) (by assumption)).d33
    | unfold hdexp
    | unfold hdexp_10_I
    | unfold hdexp_20_J

theorem hzcon1_safe (UPLO : Char) (M : Int) (N : Int) (A : Int) (LDA : Int) (B : Int) (LDB : Int) {S W : Int → Prop}
    (ha : ∀ i j : Nat, i < M.toNat → j < N.toNat → MOk S LDA A ((i:Int) + 1) ((j:Int) + 1))
    (hw : ∀ i j : Nat, i < M.toNat → j < N.toNat → MOk W LDA A ((i:Int) + 1) ((j:Int) + 1))
    (hb : ∀ (p q : Int) (i j : Nat), p = 1 + (i:Int) * 2 → q = 1 + (j:Int) * 2 → i < M.toNat → j < N.toNat → ZOk S LDB B p q) :
    Safe S W (hzcon1 UPLO M N A LDA B LDB (F := F)) (fun _ => True) := by
  repeat' first
    | exact safe_pure trivial
    | exact safe_pure rfl
    | exact safe_pure ⟨rfl, rfl⟩
    | with_reducible refine safe_ite (fun _ => ?_) (fun _ => ?_)
    | with_reducible refine safe_bind_ite (α := Int) ?_
    | with_reducible refine safe_bind_cases (α := Int × Int) (fun _ => ?_) (fun _ => ?_)
    | with_reducible refine safe_seq ?_ (fun _ => ?_)
    | with_reducible refine safe_rdC ?_
    | with_reducible refine safe_wrC ?_ ?_
    | with_reducible refine safe_forN (fun _ _ => ?_)
    | with_reducible refine safe_rd ?_
    | with_reducible refine safe_wr ?_ ?_
    | with_reducible refine safe_foldP (f := fun i (s : Int) => hzcon1_10_I _ _ _ _ _ _ _ ((i : Int) + 1) s) (fun s => s) 2 (fun _ _ _ _ => ?_)
    | with_reducible refine safe_foldP (f := fun i (s : Int) => hzcon1_20_J _ _ _ _ _ _ ((i : Int) + 1) s) (fun s => s) 2 (fun _ _ _ _ => ?_)
    | with_reducible refine safe_fold (fun _ _ _ => ?_)
    | with_reducible exact (ha _ _ (by assumption) (by assumption)).r1
    | with_reducible exact (ha _ _ (by assumption) (by assumption)).r2
    | with_reducible exact (ha _ _ (by assumption) (by assumption)).r3
    | with_reducible exact (ha _ _ (by assumption) (by assumption)).r4
    | with_reducible exact (ha _ _ (by assumption) (by assumption)).c1
    | with_reducible exact (ha _ _ (by assumption) (by assumption)).c2
    | with_reducible exact (hw _ _ (by assumption) (by assumption)).r1
    | with_reducible exact (hw _ _ (by assumption) (by assumption)).r2
    | with_reducible exact (hw _ _ (by assumption) (by assumption)).r3
    | with_reducible exact (hw _ _ (by assumption) (by assumption)).r4
    | with_reducible exact (hw _ _ (by assumption) (by assumption)).c1
    | with_reducible exact (hw _ _ (by assumption) (by assumption)).c2
    | with_reducible exact (hb _ _ _ _ (by assumption) (by assumption) (by assumption) (by assumption)).c00
    | with_reducible exact (hb _ _ _ _ (by assumption) (by assumption) (by assumption) (by assumption)).c01
    | with_reducible exact (hb _ _ _ _ (by assumption) (by assumption) (by assumption) (by assumption)).c10
    | with_reducible exact (hb _ _ _ _ (by assumption) (by assumption) (by assumption) (by assumption)).c11
    | unfold hzcon1
    | unfold hzcon1_10_I
    | unfold hzcon1_20_J

theorem hzcon2_safe (UPLO : Char) (M : Int) (N : Int) (A : Int) (LDA : Int) (B : Int) (LDB : Int) {S W : Int → Prop}
    (ha : ∀ i j : Nat, i < M.toNat → j < N.toNat → MOk S LDA A ((i:Int) + 1) ((j:Int) + 1))
    (hw : ∀ i j : Nat, i < M.toNat → j < N.toNat → MOk W LDA A ((i:Int) + 1) ((j:Int) + 1))
    (hb : ∀ i j : Nat, i < M.toNat → j < N.toNat → ZOk2 S LDB B M N ((i:Int) + 1) ((j:Int) + 1)) :
    Safe S W (hzcon2 UPLO M N A LDA B LDB (F := F)) (fun _ => True) := by
  repeat' first
    | exact safe_pure trivial
    | exact safe_pure rfl
    | exact safe_pure ⟨rfl, rfl⟩
    | with_reducible refine safe_ite (fun _ => ?_) (fun _ => ?_)
    | with_reducible refine safe_bind_ite (α := Int) ?_
    | with_reducible refine safe_bind_cases (α := Int × Int) (fun _ => ?_) (fun _ => ?_)
    | with_reducible refine safe_seq ?_ (fun _ => ?_)
    | with_reducible refine safe_rdC ?_
    | with_reducible refine safe_wrC ?_ ?_
    | with_reducible refine safe_forN (fun _ _ => ?_)
    | with_reducible refine safe_rd ?_
    | with_reducible refine safe_wr ?_ ?_

    | with_reducible refine safe_fold (fun _ _ _ => ?_)
    | with_reducible exact (ha _ _ (by assumption) (by assumption)).r1
    | with_reducible exact (ha _ _ (by assumption) (by assumption)).r2
    | with_reducible exact (ha _ _ (by assumption) (by assumption)).r3
    | with_reducible exact (ha _ _ (by assumption) (by assumption)).r4
    | with_reducible exact (ha _ _ (by assumption) (by assumption)).c1
    | with_reducible exact (ha _ _ (by assumption) (by assumption)).c2
    | with_reducible exact (hw _ _ (by assumption) (by assumption)).r1
    | with_reducible exact (hw _ _ (by assumption) (by assumption)).r2
    | with_reducible exact (hw _ _ (by assumption) (by assumption)).r3
    | with_reducible exact (hw _ _ (by assumption) (by assumption)).r4
    | with_reducible exact (hw _ _ (by assumption) (by assumption)).c1
    | with_reducible exact (hw _ _ (by assumption) (by assumption)).c2
    | with_reducible exact (hb _ _ (by assumption) (by assumption)).c00
    | with_reducible exact (hb _ _ (by assumption) (by assumption)).c01
    | with_reducible exact (hb _ _ (by assumption) (by assumption)).c10
    | with_reducible exact (hb _ _ (by assumption) (by assumption)).c11
    | unfold hzcon2
    | unfold hzcon2_10_I
    | unfold hzcon2_10_J

end Haxx.Thr
