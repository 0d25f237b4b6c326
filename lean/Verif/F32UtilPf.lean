import Verif.F32Util
import Verif.FUtil

/-! Generated by `tools/gen_f32.py`. -/

namespace Haxx.F32
open Arith
variable {F : Type} [Arith F] [ArithEq F]
set_option maxHeartbeats 4000000
set_option linter.unusedSectionVars false
set_option linter.unusedVariables false

theorem hdexp_eq32 (M : Int) (N : Int) (A : Int) (LDA : Int) (B : Int) (LDB : Int) (hM : 4 * M + 1 ≤ 2147483647) (hN : 4 * N + 1 ≤ 2147483647) :
    Eq32 (Haxx.F32.hdexp M N A LDA B LDB (F := F)) (Haxx.hdexp M N A LDA B LDB) (fun _ => True) := by
  repeat' first
    | exact eq32_pure trivial
    | exact eq32_pure rfl
    | exact eq32_pure ⟨rfl, rfl⟩
    | with_reducible refine eq32_i32 ?_ ?_
    | with_reducible refine eq32_last ?_ rfl
    | with_reducible refine eq32_ite (fun _ => ?_) (fun _ => ?_)
    | with_reducible refine eq32_cases (α := Int × Int) (fun _ => ?_) (fun _ => ?_)
    | with_reducible refine eq32_start (α := Int) (fun _ => ?_) (fun _ => ?_) ?_
    | with_reducible refine eq32_same (fun _ => ?_)
    | with_reducible refine eq32_seq ?_ (fun _ => ?_)
    | with_reducible exact eq32_refl _
    | with_reducible refine eq32_forN (fun _ _ => ?_)
    | with_reducible refine eq32_foldP (f := fun i (s : Int) => Haxx.hdexp_10_I _ _ _ _ _ _ ((i : Int) + 1) s) (fun s => s) 4 (fun _ _ _ _ => ?_)
    | with_reducible refine eq32_foldP (f := fun i (s : Int) => Haxx.hdexp_20_J _ _ _ _ _ ((i : Int) + 1) s) (fun s => s) 4 (fun _ _ _ _ => ?_)
    | with_reducible refine eq32_fold (fun _ _ _ => ?_)
    | (unfold Fits32; dsimp only at *; omega)
    | (unfold Fits32; omega)
    | unfold Haxx.F32.hdexp Haxx.hdexp
    | unfold Haxx.F32.hdexp_10_I Haxx.hdexp_10_I
    | unfold Haxx.F32.hdexp_20_J Haxx.hdexp_20_J

theorem hzexp1_eq32 (M : Int) (N : Int) (A : Int) (LDA : Int) (B : Int) (LDB : Int) (hM : 2 * M + 1 ≤ 2147483647) (hN : 2 * N + 1 ≤ 2147483647) :
    Eq32 (Haxx.F32.hzexp1 M N A LDA B LDB (F := F)) (Haxx.hzexp1 M N A LDA B LDB) (fun _ => True) := by
  repeat' first
    | exact eq32_pure trivial
    | exact eq32_pure rfl
    | exact eq32_pure ⟨rfl, rfl⟩
    | with_reducible refine eq32_i32 ?_ ?_
    | with_reducible refine eq32_last ?_ rfl
    | with_reducible refine eq32_ite (fun _ => ?_) (fun _ => ?_)
    | with_reducible refine eq32_cases (α := Int × Int) (fun _ => ?_) (fun _ => ?_)
    | with_reducible refine eq32_start (α := Int) (fun _ => ?_) (fun _ => ?_) ?_
    | with_reducible refine eq32_same (fun _ => ?_)
    | with_reducible refine eq32_seq ?_ (fun _ => ?_)
    | with_reducible exact eq32_refl _
    | with_reducible refine eq32_forN (fun _ _ => ?_)
    | with_reducible refine eq32_foldP (f := fun i (s : Int) => Haxx.hzexp1_10_I _ _ _ _ _ _ ((i : Int) + 1) s) (fun s => s) 2 (fun _ _ _ _ => ?_)
    | with_reducible refine eq32_foldP (f := fun i (s : Int) => Haxx.hzexp1_20_J _ _ _ _ _ ((i : Int) + 1) s) (fun s => s) 2 (fun _ _ _ _ => ?_)
    | with_reducible refine eq32_fold (fun _ _ _ => ?_)
    | (unfold Fits32; dsimp only at *; omega)
    | (unfold Fits32; omega)
    | unfold Haxx.F32.hzexp1 Haxx.hzexp1
    | unfold Haxx.F32.hzexp1_10_I Haxx.hzexp1_10_I
    | unfold Haxx.F32.hzexp1_20_J Haxx.hzexp1_20_J

theorem hzexp2_eq32 (M : Int) (N : Int) (A : Int) (LDA : Int) (B : Int) (LDB : Int) (hM : 2 * M + 1 ≤ 2147483647) (hN : 2 * N + 1 ≤ 2147483647) :
    Eq32 (Haxx.F32.hzexp2 M N A LDA B LDB (F := F)) (Haxx.hzexp2 M N A LDA B LDB) (fun _ => True) := by
  repeat' first
    | exact eq32_pure trivial
    | exact eq32_pure rfl
    | exact eq32_pure ⟨rfl, rfl⟩
    | with_reducible refine eq32_i32 ?_ ?_
    | with_reducible refine eq32_last ?_ rfl
    | with_reducible refine eq32_ite (fun _ => ?_) (fun _ => ?_)
    | with_reducible refine eq32_cases (α := Int × Int) (fun _ => ?_) (fun _ => ?_)
    | with_reducible refine eq32_start (α := Int) (fun _ => ?_) (fun _ => ?_) ?_
    | with_reducible refine eq32_same (fun _ => ?_)
    | with_reducible refine eq32_seq ?_ (fun _ => ?_)
    | with_reducible exact eq32_refl _
    | with_reducible refine eq32_forN (fun _ _ => ?_)

    | with_reducible refine eq32_fold (fun _ _ _ => ?_)
    | (unfold Fits32; dsimp only at *; omega)
    | (unfold Fits32; omega)
    | unfold Haxx.F32.hzexp2 Haxx.hzexp2
    | unfold Haxx.F32.hzexp2_10_I Haxx.hzexp2_10_I
    | unfold Haxx.F32.hzexp2_10_J Haxx.hzexp2_10_J

theorem hzcon1_eq32 (UPLO : Char) (M : Int) (N : Int) (A : Int) (LDA : Int) (B : Int) (LDB : Int) (hM : 2 * M + 1 ≤ 2147483647) (hN : 2 * N + 1 ≤ 2147483647) :
    Eq32 (Haxx.F32.hzcon1 UPLO M N A LDA B LDB (F := F)) (Haxx.hzcon1 UPLO M N A LDA B LDB) (fun _ => True) := by
  repeat' first
    | exact eq32_pure trivial
    | exact eq32_pure rfl
    | exact eq32_pure ⟨rfl, rfl⟩
    | with_reducible refine eq32_i32 ?_ ?_
    | with_reducible refine eq32_last ?_ rfl
    | with_reducible refine eq32_ite (fun _ => ?_) (fun _ => ?_)
    | with_reducible refine eq32_cases (α := Int × Int) (fun _ => ?_) (fun _ => ?_)
    | with_reducible refine eq32_start (α := Int) (fun _ => ?_) (fun _ => ?_) ?_
    | with_reducible refine eq32_same (fun _ => ?_)
    | with_reducible refine eq32_seq ?_ (fun _ => ?_)
    | with_reducible exact eq32_refl _
    | with_reducible refine eq32_forN (fun _ _ => ?_)
    | with_reducible refine eq32_foldP (f := fun i (s : Int) => Haxx.hzcon1_10_I _ _ _ _ _ _ _ ((i : Int) + 1) s) (fun s => s) 2 (fun _ _ _ _ => ?_)
    | with_reducible refine eq32_foldP (f := fun i (s : Int) => Haxx.hzcon1_20_J _ _ _ _ _ _ ((i : Int) + 1) s) (fun s => s) 2 (fun _ _ _ _ => ?_)
    | with_reducible refine eq32_fold (fun _ _ _ => ?_)
    | (unfold Fits32; dsimp only at *; omega)
    | (unfold Fits32; omega)
    | unfold Haxx.F32.hzcon1 Haxx.hzcon1
    | unfold Haxx.F32.hzcon1_10_I Haxx.hzcon1_10_I
    | unfold Haxx.F32.hzcon1_20_J Haxx.hzcon1_20_J

theorem hzcon2_eq32 (UPLO : Char) (M : Int) (N : Int) (A : Int) (LDA : Int) (B : Int) (LDB : Int) (hM : 2 * M + 1 ≤ 2147483647) (hN : 2 * N + 1 ≤ 2147483647) :
    Eq32 (Haxx.F32.hzcon2 UPLO M N A LDA B LDB (F := F)) (Haxx.hzcon2 UPLO M N A LDA B LDB) (fun _ => True) := by
  repeat' first
    | exact eq32_pure trivial
    | exact eq32_pure rfl
    | exact eq32_pure ⟨rfl, rfl⟩
    | with_reducible refine eq32_i32 ?_ ?_
    | with_reducible refine eq32_last ?_ rfl
    | with_reducible refine eq32_ite (fun _ => ?_) (fun _ => ?_)
    | with_reducible refine eq32_cases (α := Int × Int) (fun _ => ?_) (fun _ => ?_)
    | with_reducible refine eq32_start (α := Int) (fun _ => ?_) (fun _ => ?_) ?_
    | with_reducible refine eq32_same (fun _ => ?_)
    | with_reducible refine eq32_seq ?_ (fun _ => ?_)
    | with_reducible exact eq32_refl _
    | with_reducible refine eq32_forN (fun _ _ => ?_)

    | with_reducible refine eq32_fold (fun _ _ _ => ?_)
    | (unfold Fits32; dsimp only at *; omega)
    | (unfold Fits32; omega)
    | unfold Haxx.F32.hzcon2 Haxx.hzcon2
    | unfold Haxx.F32.hzcon2_10_I Haxx.hzcon2_10_I
    | unfold Haxx.F32.hzcon2_10_J Haxx.hzcon2_10_J

end Haxx.F32
