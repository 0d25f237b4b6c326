import Verif.ThrLockS
import Verif.ThrFort

/-! # The accesses of GERU and GERC depend on the data only through y

Generated by `tools/gen_lockger.py`. -/

namespace Haxx.Thr
open Arith
variable {F : Type} [Arith F] [ArithEq F]
set_option maxHeartbeats 400000
set_option linter.unusedSectionVars false
set_option linter.unusedTactic false
set_option linter.unreachableTactic false

theorem hgerud_10_I_lockS (A : Int) (HTMPJ : Cplx F) (HTMPS : Cplx F) (J : Int) (LDA : Int) (X : Int) (I : Int) {S : Int → Prop} (hw : MOk (fun a => ¬ S a) LDA A I J) :
    LockS S Any (hgerud_10_I A HTMPJ HTMPS J LDA X I (F := F)) (hgerud_10_I A HTMPJ HTMPS J LDA X I) := by
  unfold hgerud_10_I
  repeat' first
    | with_reducible exact ls_retA
    | with_reducible exact ls_retE
    | with_reducible exact ls_retP
    | with_reducible refine ls_ite (fun _ => ?_) (fun _ => ?_)
    | with_reducible refine ls_seqT ls_rdC (fun _ _ => ?_)
    | with_reducible refine ls_seqU (ls_wrC hw.c1) ?_
    | with_reducible refine ls_seqU (ls_wrC hw.c2) ?_
    | with_reducible exact ls_uninit

theorem hgerud_30_I_lockS (A : Int) (HTMPJ : Cplx F) (INCX : Int) (J : Int) (LDA : Int) (X : Int) (I : Int) (IX : Int) {S : Int → Prop} (hw : MOk (fun a => ¬ S a) LDA A I J) :
    LockS S (fun a b => a = b ∧ a = IX + INCX) (hgerud_30_I A HTMPJ INCX J LDA X I IX (F := F)) (hgerud_30_I A HTMPJ INCX J LDA X I IX) := by
  unfold hgerud_30_I
  repeat' first
    | with_reducible exact ls_retA
    | with_reducible exact ls_retE
    | with_reducible exact ls_retP
    | with_reducible refine ls_ite (fun _ => ?_) (fun _ => ?_)
    | with_reducible refine ls_seqT ls_rdC (fun _ _ => ?_)
    | with_reducible refine ls_seqU (ls_wrC hw.c1) ?_
    | with_reducible refine ls_seqU (ls_wrC hw.c2) ?_
    | with_reducible exact ls_uninit

theorem hgerud_if36_lockS (A : Int) (ALPHA : F) (J : Int) (JY : Int) (LDA : Int) (M : Int) (X : Int) (Y : Int) {S : Int → Prop} (hy : VOk S Y JY)
    (hw : ∀ i : Nat, i < M.toNat → MOk (fun a => ¬ S a) LDA A ((i:Int) + 1) J) :
    LockS S Any (hgerud_if36 A ALPHA J JY LDA M X Y (F := F)) (hgerud_if36 A ALPHA J JY LDA M X Y) := by
  unfold hgerud_if36
  repeat' first
    | with_reducible exact ls_retA
    | with_reducible exact ls_retE
    | with_reducible exact ls_retP
    | with_reducible refine ls_ite (fun _ => ?_) (fun _ => ?_)
    | with_reducible refine ls_seqS (ls_rdCS hy.c1) (fun _ => ?_)
    | with_reducible refine ls_seqS (ls_rdCS hy.c2) (fun _ => ?_)
    | with_reducible refine ls_seqU (ls_forN fun i hi => ?_) ?_
    | with_reducible refine ls_seqS (ls_foldP INCX (fun i _ _ hi => ?_)) (fun _ => ?_)
    | with_reducible exact hgerud_10_I_lockS (hw := hw _ (by assumption)) ..
    | with_reducible exact hgerud_30_I_lockS (hw := hw _ (by assumption)) ..

theorem hgerud_if53_lockS (A : Int) (ALPHA : F) (INCX : Int) (J : Int) (JY : Int) (KX : Int) (LDA : Int) (M : Int) (X : Int) (Y : Int) {S : Int → Prop} (hy : VOk S Y JY)
    (hw : ∀ i : Nat, i < M.toNat → MOk (fun a => ¬ S a) LDA A ((i:Int) + 1) J) :
    LockS S Any (hgerud_if53 A ALPHA INCX J JY KX LDA M X Y (F := F)) (hgerud_if53 A ALPHA INCX J JY KX LDA M X Y) := by
  unfold hgerud_if53
  repeat' first
    | with_reducible exact ls_retA
    | with_reducible exact ls_retE
    | with_reducible exact ls_retP
    | with_reducible refine ls_ite (fun _ => ?_) (fun _ => ?_)
    | with_reducible refine ls_seqS (ls_rdCS hy.c1) (fun _ => ?_)
    | with_reducible refine ls_seqS (ls_rdCS hy.c2) (fun _ => ?_)
    | with_reducible refine ls_seqU (ls_forN fun i hi => ?_) ?_
    | with_reducible refine ls_seqS (ls_foldP INCX (fun i _ _ hi => ?_)) (fun _ => ?_)
    | with_reducible exact hgerud_10_I_lockS (hw := hw _ (by assumption)) ..
    | with_reducible exact hgerud_30_I_lockS (hw := hw _ (by assumption)) ..

theorem hgerud_20_J_lockS (A : Int) (ALPHA : F) (INCY : Int) (LDA : Int) (M : Int) (X : Int) (Y : Int) (J : Int) (JY : Int) {S : Int → Prop} (hy : VOk S Y JY)
    (hw : ∀ i : Nat, i < M.toNat → MOk (fun a => ¬ S a) LDA A ((i:Int) + 1) J) :
    LockS S (fun a b => a = b ∧ a = JY + INCY) (hgerud_20_J A ALPHA INCY LDA M X Y J JY (F := F)) (hgerud_20_J A ALPHA INCY LDA M X Y J JY) := by
  unfold hgerud_20_J
  repeat' first
    | with_reducible exact ls_retA
    | with_reducible exact ls_retE
    | with_reducible exact ls_retP
    | with_reducible refine ls_ite (fun _ => ?_) (fun _ => ?_)
    | with_reducible refine ls_seqU (hgerud_if36_lockS (hy := hy) (hw := hw) ..) ?_
    | with_reducible refine ls_seqU (hgerud_if53_lockS (hy := hy) (hw := hw) ..) ?_

theorem hgerud_40_J_lockS (A : Int) (ALPHA : F) (INCX : Int) (INCY : Int) (KX : Int) (LDA : Int) (M : Int) (X : Int) (Y : Int) (J : Int) (JY : Int) {S : Int → Prop} (hy : VOk S Y JY)
    (hw : ∀ i : Nat, i < M.toNat → MOk (fun a => ¬ S a) LDA A ((i:Int) + 1) J) :
    LockS S (fun a b => a = b ∧ a = JY + INCY) (hgerud_40_J A ALPHA INCX INCY KX LDA M X Y J JY (F := F)) (hgerud_40_J A ALPHA INCX INCY KX LDA M X Y J JY) := by
  unfold hgerud_40_J
  repeat' first
    | with_reducible exact ls_retA
    | with_reducible exact ls_retE
    | with_reducible exact ls_retP
    | with_reducible refine ls_ite (fun _ => ?_) (fun _ => ?_)
    | with_reducible refine ls_seqU (hgerud_if36_lockS (hy := hy) (hw := hw) ..) ?_
    | with_reducible refine ls_seqU (hgerud_if53_lockS (hy := hy) (hw := hw) ..) ?_

theorem hgerud_lockS (M : Int) (N : Int) (ALPHA : F) (X : Int) (INCX : Int) (Y : Int) (INCY : Int) (A : Int) (LDA : Int) {S : Int → Prop}
    (hy : VEnv S Y (if decide (INCY > 0) = true then 1 else 1 - (N - 1) * INCY) INCY N.toNat False)
    (hw : ∀ i j : Nat, i < M.toNat → j < N.toNat → MOk (fun a => ¬ S a) LDA A ((i:Int) + 1) ((j:Int) + 1)) :
    LockS S Any (hgerud M N ALPHA X INCX Y INCY A LDA (F := F)) (hgerud M N ALPHA X INCX Y INCY A LDA) := by
  unfold hgerud
  repeat' first
    | with_reducible exact ls_retA
    | with_reducible exact ls_retE
    | with_reducible exact ls_retP
    | with_reducible refine ls_ite (fun _ => ?_) (fun _ => ?_)
    | with_reducible refine ls_bind_ite (α := Int) ?_
    | with_reducible refine ls_seqS (ls_foldP (f := fun i (s : Int) => hgerud_20_J _ _ _ _ _ _ _ ((i : Int) + 1) s) (g := fun i (s : Int) => hgerud_20_J _ _ _ _ _ _ _ ((i : Int) + 1) s) INCY (fun i p e hi => hgerud_20_J_lockS (hy := hy.pos p i e hi) (hw := fun k hk => hw k i hk hi) ..)) (fun _ => ?_)
    | with_reducible refine ls_seqS (ls_foldP (f := fun i (s : Int) => hgerud_40_J _ _ _ _ _ _ _ _ _ ((i : Int) + 1) s) (g := fun i (s : Int) => hgerud_40_J _ _ _ _ _ _ _ _ _ ((i : Int) + 1) s) INCY (fun i p e hi => hgerud_40_J_lockS (hy := hy.pos p i e hi) (hw := fun k hk => hw k i hk hi) ..)) (fun _ => ?_)
    | with_reducible refine ls_seqU ?_ ?_
    | with_reducible skip; unfold hgerud_if34

theorem hgercd_10_I_lockS (A : Int) (HTMPJ : Cplx F) (HTMPS : Cplx F) (J : Int) (LDA : Int) (X : Int) (I : Int) {S : Int → Prop} (hw : MOk (fun a => ¬ S a) LDA A I J) :
    LockS S Any (hgercd_10_I A HTMPJ HTMPS J LDA X I (F := F)) (hgercd_10_I A HTMPJ HTMPS J LDA X I) := by
  unfold hgercd_10_I
  repeat' first
    | with_reducible exact ls_retA
    | with_reducible exact ls_retE
    | with_reducible exact ls_retP
    | with_reducible refine ls_ite (fun _ => ?_) (fun _ => ?_)
    | with_reducible refine ls_seqT ls_rdC (fun _ _ => ?_)
    | with_reducible refine ls_seqU (ls_wrC hw.c1) ?_
    | with_reducible refine ls_seqU (ls_wrC hw.c2) ?_
    | with_reducible exact ls_uninit

theorem hgercd_30_I_lockS (A : Int) (HTMPJ : Cplx F) (INCX : Int) (J : Int) (LDA : Int) (X : Int) (I : Int) (IX : Int) {S : Int → Prop} (hw : MOk (fun a => ¬ S a) LDA A I J) :
    LockS S (fun a b => a = b ∧ a = IX + INCX) (hgercd_30_I A HTMPJ INCX J LDA X I IX (F := F)) (hgercd_30_I A HTMPJ INCX J LDA X I IX) := by
  unfold hgercd_30_I
  repeat' first
    | with_reducible exact ls_retA
    | with_reducible exact ls_retE
    | with_reducible exact ls_retP
    | with_reducible refine ls_ite (fun _ => ?_) (fun _ => ?_)
    | with_reducible refine ls_seqT ls_rdC (fun _ _ => ?_)
    | with_reducible refine ls_seqU (ls_wrC hw.c1) ?_
    | with_reducible refine ls_seqU (ls_wrC hw.c2) ?_
    | with_reducible exact ls_uninit

theorem hgercd_if36_lockS (A : Int) (ALPHA : F) (J : Int) (JY : Int) (LDA : Int) (M : Int) (X : Int) (Y : Int) {S : Int → Prop} (hy : VOk S Y JY)
    (hw : ∀ i : Nat, i < M.toNat → MOk (fun a => ¬ S a) LDA A ((i:Int) + 1) J) :
    LockS S Any (hgercd_if36 A ALPHA J JY LDA M X Y (F := F)) (hgercd_if36 A ALPHA J JY LDA M X Y) := by
  unfold hgercd_if36
  repeat' first
    | with_reducible exact ls_retA
    | with_reducible exact ls_retE
    | with_reducible exact ls_retP
    | with_reducible refine ls_ite (fun _ => ?_) (fun _ => ?_)
    | with_reducible refine ls_seqS (ls_rdCS hy.c1) (fun _ => ?_)
    | with_reducible refine ls_seqS (ls_rdCS hy.c2) (fun _ => ?_)
    | with_reducible refine ls_seqU (ls_forN fun i hi => ?_) ?_
    | with_reducible refine ls_seqS (ls_foldP INCX (fun i _ _ hi => ?_)) (fun _ => ?_)
    | with_reducible exact hgercd_10_I_lockS (hw := hw _ (by assumption)) ..
    | with_reducible exact hgercd_30_I_lockS (hw := hw _ (by assumption)) ..

theorem hgercd_if53_lockS (A : Int) (ALPHA : F) (INCX : Int) (J : Int) (JY : Int) (KX : Int) (LDA : Int) (M : Int) (X : Int) (Y : Int) {S : Int → Prop} (hy : VOk S Y JY)
    (hw : ∀ i : Nat, i < M.toNat → MOk (fun a => ¬ S a) LDA A ((i:Int) + 1) J) :
    LockS S Any (hgercd_if53 A ALPHA INCX J JY KX LDA M X Y (F := F)) (hgercd_if53 A ALPHA INCX J JY KX LDA M X Y) := by
  unfold hgercd_if53
  repeat' first
    | with_reducible exact ls_retA
    | with_reducible exact ls_retE
    | with_reducible exact ls_retP
    | with_reducible refine ls_ite (fun _ => ?_) (fun _ => ?_)
    | with_reducible refine ls_seqS (ls_rdCS hy.c1) (fun _ => ?_)
    | with_reducible refine ls_seqS (ls_rdCS hy.c2) (fun _ => ?_)
    | with_reducible refine ls_seqU (ls_forN fun i hi => ?_) ?_
    | with_reducible refine ls_seqS (ls_foldP INCX (fun i _ _ hi => ?_)) (fun _ => ?_)
    | with_reducible exact hgercd_10_I_lockS (hw := hw _ (by assumption)) ..
    | with_reducible exact hgercd_30_I_lockS (hw := hw _ (by assumption)) ..

theorem hgercd_20_J_lockS (A : Int) (ALPHA : F) (INCY : Int) (LDA : Int) (M : Int) (X : Int) (Y : Int) (J : Int) (JY : Int) {S : Int → Prop} (hy : VOk S Y JY)
    (hw : ∀ i : Nat, i < M.toNat → MOk (fun a => ¬ S a) LDA A ((i:Int) + 1) J) :
    LockS S (fun a b => a = b ∧ a = JY + INCY) (hgercd_20_J A ALPHA INCY LDA M X Y J JY (F := F)) (hgercd_20_J A ALPHA INCY LDA M X Y J JY) := by
  unfold hgercd_20_J
  repeat' first
    | with_reducible exact ls_retA
    | with_reducible exact ls_retE
    | with_reducible exact ls_retP
    | with_reducible refine ls_ite (fun _ => ?_) (fun _ => ?_)
    | with_reducible refine ls_seqU (hgercd_if36_lockS (hy := hy) (hw := hw) ..) ?_
    | with_reducible refine ls_seqU (hgercd_if53_lockS (hy := hy) (hw := hw) ..) ?_

theorem hgercd_40_J_lockS (A : Int) (ALPHA : F) (INCX : Int) (INCY : Int) (KX : Int) (LDA : Int) (M : Int) (X : Int) (Y : Int) (J : Int) (JY : Int) {S : Int → Prop} (hy : VOk S Y JY)
    (hw : ∀ i : Nat, i < M.toNat → MOk (fun a => ¬ S a) LDA A ((i:Int) + 1) J) :
    LockS S (fun a b => a = b ∧ a = JY + INCY) (hgercd_40_J A ALPHA INCX INCY KX LDA M X Y J JY (F := F)) (hgercd_40_J A ALPHA INCX INCY KX LDA M X Y J JY) := by
  unfold hgercd_40_J
  repeat' first
    | with_reducible exact ls_retA
    | with_reducible exact ls_retE
    | with_reducible exact ls_retP
    | with_reducible refine ls_ite (fun _ => ?_) (fun _ => ?_)
    | with_reducible refine ls_seqU (hgercd_if36_lockS (hy := hy) (hw := hw) ..) ?_
    | with_reducible refine ls_seqU (hgercd_if53_lockS (hy := hy) (hw := hw) ..) ?_

theorem hgercd_lockS (M : Int) (N : Int) (ALPHA : F) (X : Int) (INCX : Int) (Y : Int) (INCY : Int) (A : Int) (LDA : Int) {S : Int → Prop}
    (hy : VEnv S Y (if decide (INCY > 0) = true then 1 else 1 - (N - 1) * INCY) INCY N.toNat False)
    (hw : ∀ i j : Nat, i < M.toNat → j < N.toNat → MOk (fun a => ¬ S a) LDA A ((i:Int) + 1) ((j:Int) + 1)) :
    LockS S Any (hgercd M N ALPHA X INCX Y INCY A LDA (F := F)) (hgercd M N ALPHA X INCX Y INCY A LDA) := by
  unfold hgercd
  repeat' first
    | with_reducible exact ls_retA
    | with_reducible exact ls_retE
    | with_reducible exact ls_retP
    | with_reducible refine ls_ite (fun _ => ?_) (fun _ => ?_)
    | with_reducible refine ls_bind_ite (α := Int) ?_
    | with_reducible refine ls_seqS (ls_foldP (f := fun i (s : Int) => hgercd_20_J _ _ _ _ _ _ _ ((i : Int) + 1) s) (g := fun i (s : Int) => hgercd_20_J _ _ _ _ _ _ _ ((i : Int) + 1) s) INCY (fun i p e hi => hgercd_20_J_lockS (hy := hy.pos p i e hi) (hw := fun k hk => hw k i hk hi) ..)) (fun _ => ?_)
    | with_reducible refine ls_seqS (ls_foldP (f := fun i (s : Int) => hgercd_40_J _ _ _ _ _ _ _ _ _ ((i : Int) + 1) s) (g := fun i (s : Int) => hgercd_40_J _ _ _ _ _ _ _ _ _ ((i : Int) + 1) s) INCY (fun i p e hi => hgercd_40_J_lockS (hy := hy.pos p i e hi) (hw := fun k hk => hw k i hk hi) ..)) (fun _ => ?_)
    | with_reducible refine ls_seqU ?_ ?_
    | with_reducible skip; unfold hgercd_if34

theorem hgeruz_10_I_lockS (A : Int) (HTMP1J : Cplx F) (HTMP1S : Cplx F) (HTMP2J : Cplx F) (HTMP2S : Cplx F) (J : Int) (LDA : Int) (X : Int) (I : Int) {S : Int → Prop} (hw : MOk (fun a => ¬ S a) LDA A I J) :
    LockS S Any (hgeruz_10_I A HTMP1J HTMP1S HTMP2J HTMP2S J LDA X I (F := F)) (hgeruz_10_I A HTMP1J HTMP1S HTMP2J HTMP2S J LDA X I) := by
  unfold hgeruz_10_I
  repeat' first
    | with_reducible exact ls_retA
    | with_reducible exact ls_retE
    | with_reducible exact ls_retP
    | with_reducible refine ls_ite (fun _ => ?_) (fun _ => ?_)
    | with_reducible refine ls_seqT ls_rdC (fun _ _ => ?_)
    | with_reducible refine ls_seqU (ls_wrC hw.c1) ?_
    | with_reducible refine ls_seqU (ls_wrC hw.c2) ?_
    | with_reducible exact ls_uninit

theorem hgeruz_30_I_lockS (A : Int) (HTMP1J : Cplx F) (HTMP1S : Cplx F) (HTMP2J : Cplx F) (HTMP2S : Cplx F) (INCX : Int) (J : Int) (LDA : Int) (X : Int) (I : Int) (IX : Int) {S : Int → Prop} (hw : MOk (fun a => ¬ S a) LDA A I J) :
    LockS S (fun a b => a = b ∧ a = IX + INCX) (hgeruz_30_I A HTMP1J HTMP1S HTMP2J HTMP2S INCX J LDA X I IX (F := F)) (hgeruz_30_I A HTMP1J HTMP1S HTMP2J HTMP2S INCX J LDA X I IX) := by
  unfold hgeruz_30_I
  repeat' first
    | with_reducible exact ls_retA
    | with_reducible exact ls_retE
    | with_reducible exact ls_retP
    | with_reducible refine ls_ite (fun _ => ?_) (fun _ => ?_)
    | with_reducible refine ls_seqT ls_rdC (fun _ _ => ?_)
    | with_reducible refine ls_seqU (ls_wrC hw.c1) ?_
    | with_reducible refine ls_seqU (ls_wrC hw.c2) ?_
    | with_reducible exact ls_uninit

theorem hgeruz_if35_lockS (A : Int) (ALPHA : Cplx F) (J : Int) (JY : Int) (LDA : Int) (M : Int) (X : Int) (Y : Int) {S : Int → Prop} (hy : VOk S Y JY)
    (hw : ∀ i : Nat, i < M.toNat → MOk (fun a => ¬ S a) LDA A ((i:Int) + 1) J) :
    LockS S Any (hgeruz_if35 A ALPHA J JY LDA M X Y (F := F)) (hgeruz_if35 A ALPHA J JY LDA M X Y) := by
  unfold hgeruz_if35
  repeat' first
    | with_reducible exact ls_retA
    | with_reducible exact ls_retE
    | with_reducible exact ls_retP
    | with_reducible refine ls_ite (fun _ => ?_) (fun _ => ?_)
    | with_reducible refine ls_seqS (ls_rdCS hy.c1) (fun _ => ?_)
    | with_reducible refine ls_seqS (ls_rdCS hy.c2) (fun _ => ?_)
    | with_reducible refine ls_seqU (ls_forN fun i hi => ?_) ?_
    | with_reducible refine ls_seqS (ls_foldP INCX (fun i _ _ hi => ?_)) (fun _ => ?_)
    | with_reducible exact hgeruz_10_I_lockS (hw := hw _ (by assumption)) ..
    | with_reducible exact hgeruz_30_I_lockS (hw := hw _ (by assumption)) ..

theorem hgeruz_if54_lockS (A : Int) (ALPHA : Cplx F) (INCX : Int) (J : Int) (JY : Int) (KX : Int) (LDA : Int) (M : Int) (X : Int) (Y : Int) {S : Int → Prop} (hy : VOk S Y JY)
    (hw : ∀ i : Nat, i < M.toNat → MOk (fun a => ¬ S a) LDA A ((i:Int) + 1) J) :
    LockS S Any (hgeruz_if54 A ALPHA INCX J JY KX LDA M X Y (F := F)) (hgeruz_if54 A ALPHA INCX J JY KX LDA M X Y) := by
  unfold hgeruz_if54
  repeat' first
    | with_reducible exact ls_retA
    | with_reducible exact ls_retE
    | with_reducible exact ls_retP
    | with_reducible refine ls_ite (fun _ => ?_) (fun _ => ?_)
    | with_reducible refine ls_seqS (ls_rdCS hy.c1) (fun _ => ?_)
    | with_reducible refine ls_seqS (ls_rdCS hy.c2) (fun _ => ?_)
    | with_reducible refine ls_seqU (ls_forN fun i hi => ?_) ?_
    | with_reducible refine ls_seqS (ls_foldP INCX (fun i _ _ hi => ?_)) (fun _ => ?_)
    | with_reducible exact hgeruz_10_I_lockS (hw := hw _ (by assumption)) ..
    | with_reducible exact hgeruz_30_I_lockS (hw := hw _ (by assumption)) ..

theorem hgeruz_20_J_lockS (A : Int) (ALPHA : Cplx F) (INCY : Int) (LDA : Int) (M : Int) (X : Int) (Y : Int) (J : Int) (JY : Int) {S : Int → Prop} (hy : VOk S Y JY)
    (hw : ∀ i : Nat, i < M.toNat → MOk (fun a => ¬ S a) LDA A ((i:Int) + 1) J) :
    LockS S (fun a b => a = b ∧ a = JY + INCY) (hgeruz_20_J A ALPHA INCY LDA M X Y J JY (F := F)) (hgeruz_20_J A ALPHA INCY LDA M X Y J JY) := by
  unfold hgeruz_20_J
  repeat' first
    | with_reducible exact ls_retA
    | with_reducible exact ls_retE
    | with_reducible exact ls_retP
    | with_reducible refine ls_ite (fun _ => ?_) (fun _ => ?_)
    | with_reducible refine ls_seqU (hgeruz_if35_lockS (hy := hy) (hw := hw) ..) ?_
    | with_reducible refine ls_seqU (hgeruz_if54_lockS (hy := hy) (hw := hw) ..) ?_

theorem hgeruz_40_J_lockS (A : Int) (ALPHA : Cplx F) (INCX : Int) (INCY : Int) (KX : Int) (LDA : Int) (M : Int) (X : Int) (Y : Int) (J : Int) (JY : Int) {S : Int → Prop} (hy : VOk S Y JY)
    (hw : ∀ i : Nat, i < M.toNat → MOk (fun a => ¬ S a) LDA A ((i:Int) + 1) J) :
    LockS S (fun a b => a = b ∧ a = JY + INCY) (hgeruz_40_J A ALPHA INCX INCY KX LDA M X Y J JY (F := F)) (hgeruz_40_J A ALPHA INCX INCY KX LDA M X Y J JY) := by
  unfold hgeruz_40_J
  repeat' first
    | with_reducible exact ls_retA
    | with_reducible exact ls_retE
    | with_reducible exact ls_retP
    | with_reducible refine ls_ite (fun _ => ?_) (fun _ => ?_)
    | with_reducible refine ls_seqU (hgeruz_if35_lockS (hy := hy) (hw := hw) ..) ?_
    | with_reducible refine ls_seqU (hgeruz_if54_lockS (hy := hy) (hw := hw) ..) ?_

theorem hgeruz_lockS (M : Int) (N : Int) (ALPHA : Cplx F) (X : Int) (INCX : Int) (Y : Int) (INCY : Int) (A : Int) (LDA : Int) {S : Int → Prop}
    (hy : VEnv S Y (if decide (INCY > 0) = true then 1 else 1 - (N - 1) * INCY) INCY N.toNat False)
    (hw : ∀ i j : Nat, i < M.toNat → j < N.toNat → MOk (fun a => ¬ S a) LDA A ((i:Int) + 1) ((j:Int) + 1)) :
    LockS S Any (hgeruz M N ALPHA X INCX Y INCY A LDA (F := F)) (hgeruz M N ALPHA X INCX Y INCY A LDA) := by
  unfold hgeruz
  repeat' first
    | with_reducible exact ls_retA
    | with_reducible exact ls_retE
    | with_reducible exact ls_retP
    | with_reducible refine ls_ite (fun _ => ?_) (fun _ => ?_)
    | with_reducible refine ls_bind_ite (α := Int) ?_
    | with_reducible refine ls_seqS (ls_foldP (f := fun i (s : Int) => hgeruz_20_J _ _ _ _ _ _ _ ((i : Int) + 1) s) (g := fun i (s : Int) => hgeruz_20_J _ _ _ _ _ _ _ ((i : Int) + 1) s) INCY (fun i p e hi => hgeruz_20_J_lockS (hy := hy.pos p i e hi) (hw := fun k hk => hw k i hk hi) ..)) (fun _ => ?_)
    | with_reducible refine ls_seqS (ls_foldP (f := fun i (s : Int) => hgeruz_40_J _ _ _ _ _ _ _ _ _ ((i : Int) + 1) s) (g := fun i (s : Int) => hgeruz_40_J _ _ _ _ _ _ _ _ _ ((i : Int) + 1) s) INCY (fun i p e hi => hgeruz_40_J_lockS (hy := hy.pos p i e hi) (hw := fun k hk => hw k i hk hi) ..)) (fun _ => ?_)
    | with_reducible refine ls_seqU ?_ ?_
    | with_reducible skip; unfold hgeruz_if33

theorem hgercz_10_I_lockS (A : Int) (HTMP1J : Cplx F) (HTMP1S : Cplx F) (HTMP2J : Cplx F) (HTMP2S : Cplx F) (J : Int) (LDA : Int) (X : Int) (I : Int) {S : Int → Prop} (hw : MOk (fun a => ¬ S a) LDA A I J) :
    LockS S Any (hgercz_10_I A HTMP1J HTMP1S HTMP2J HTMP2S J LDA X I (F := F)) (hgercz_10_I A HTMP1J HTMP1S HTMP2J HTMP2S J LDA X I) := by
  unfold hgercz_10_I
  repeat' first
    | with_reducible exact ls_retA
    | with_reducible exact ls_retE
    | with_reducible exact ls_retP
    | with_reducible refine ls_ite (fun _ => ?_) (fun _ => ?_)
    | with_reducible refine ls_seqT ls_rdC (fun _ _ => ?_)
    | with_reducible refine ls_seqU (ls_wrC hw.c1) ?_
    | with_reducible refine ls_seqU (ls_wrC hw.c2) ?_
    | with_reducible exact ls_uninit

theorem hgercz_30_I_lockS (A : Int) (HTMP1J : Cplx F) (HTMP1S : Cplx F) (HTMP2J : Cplx F) (HTMP2S : Cplx F) (INCX : Int) (J : Int) (LDA : Int) (X : Int) (I : Int) (IX : Int) {S : Int → Prop} (hw : MOk (fun a => ¬ S a) LDA A I J) :
    LockS S (fun a b => a = b ∧ a = IX + INCX) (hgercz_30_I A HTMP1J HTMP1S HTMP2J HTMP2S INCX J LDA X I IX (F := F)) (hgercz_30_I A HTMP1J HTMP1S HTMP2J HTMP2S INCX J LDA X I IX) := by
  unfold hgercz_30_I
  repeat' first
    | with_reducible exact ls_retA
    | with_reducible exact ls_retE
    | with_reducible exact ls_retP
    | with_reducible refine ls_ite (fun _ => ?_) (fun _ => ?_)
    | with_reducible refine ls_seqT ls_rdC (fun _ _ => ?_)
    | with_reducible refine ls_seqU (ls_wrC hw.c1) ?_
    | with_reducible refine ls_seqU (ls_wrC hw.c2) ?_
    | with_reducible exact ls_uninit

theorem hgercz_if35_lockS (A : Int) (ALPHA : Cplx F) (J : Int) (JY : Int) (LDA : Int) (M : Int) (X : Int) (Y : Int) {S : Int → Prop} (hy : VOk S Y JY)
    (hw : ∀ i : Nat, i < M.toNat → MOk (fun a => ¬ S a) LDA A ((i:Int) + 1) J) :
    LockS S Any (hgercz_if35 A ALPHA J JY LDA M X Y (F := F)) (hgercz_if35 A ALPHA J JY LDA M X Y) := by
  unfold hgercz_if35
  repeat' first
    | with_reducible exact ls_retA
    | with_reducible exact ls_retE
    | with_reducible exact ls_retP
    | with_reducible refine ls_ite (fun _ => ?_) (fun _ => ?_)
    | with_reducible refine ls_seqS (ls_rdCS hy.c1) (fun _ => ?_)
    | with_reducible refine ls_seqS (ls_rdCS hy.c2) (fun _ => ?_)
    | with_reducible refine ls_seqU (ls_forN fun i hi => ?_) ?_
    | with_reducible refine ls_seqS (ls_foldP INCX (fun i _ _ hi => ?_)) (fun _ => ?_)
    | with_reducible exact hgercz_10_I_lockS (hw := hw _ (by assumption)) ..
    | with_reducible exact hgercz_30_I_lockS (hw := hw _ (by assumption)) ..

theorem hgercz_if54_lockS (A : Int) (ALPHA : Cplx F) (INCX : Int) (J : Int) (JY : Int) (KX : Int) (LDA : Int) (M : Int) (X : Int) (Y : Int) {S : Int → Prop} (hy : VOk S Y JY)
    (hw : ∀ i : Nat, i < M.toNat → MOk (fun a => ¬ S a) LDA A ((i:Int) + 1) J) :
    LockS S Any (hgercz_if54 A ALPHA INCX J JY KX LDA M X Y (F := F)) (hgercz_if54 A ALPHA INCX J JY KX LDA M X Y) := by
  unfold hgercz_if54
  repeat' first
    | with_reducible exact ls_retA
    | with_reducible exact ls_retE
    | with_reducible exact ls_retP
    | with_reducible refine ls_ite (fun _ => ?_) (fun _ => ?_)
    | with_reducible refine ls_seqS (ls_rdCS hy.c1) (fun _ => ?_)
    | with_reducible refine ls_seqS (ls_rdCS hy.c2) (fun _ => ?_)
    | with_reducible refine ls_seqU (ls_forN fun i hi => ?_) ?_
    | with_reducible refine ls_seqS (ls_foldP INCX (fun i _ _ hi => ?_)) (fun _ => ?_)
    | with_reducible exact hgercz_10_I_lockS (hw := hw _ (by assumption)) ..
    | with_reducible exact hgercz_30_I_lockS (hw := hw _ (by assumption)) ..

theorem hgercz_20_J_lockS (A : Int) (ALPHA : Cplx F) (INCY : Int) (LDA : Int) (M : Int) (X : Int) (Y : Int) (J : Int) (JY : Int) {S : Int → Prop} (hy : VOk S Y JY)
    (hw : ∀ i : Nat, i < M.toNat → MOk (fun a => ¬ S a) LDA A ((i:Int) + 1) J) :
    LockS S (fun a b => a = b ∧ a = JY + INCY) (hgercz_20_J A ALPHA INCY LDA M X Y J JY (F := F)) (hgercz_20_J A ALPHA INCY LDA M X Y J JY) := by
  unfold hgercz_20_J
  repeat' first
    | with_reducible exact ls_retA
    | with_reducible exact ls_retE
    | with_reducible exact ls_retP
    | with_reducible refine ls_ite (fun _ => ?_) (fun _ => ?_)
    | with_reducible refine ls_seqU (hgercz_if35_lockS (hy := hy) (hw := hw) ..) ?_
    | with_reducible refine ls_seqU (hgercz_if54_lockS (hy := hy) (hw := hw) ..) ?_

theorem hgercz_40_J_lockS (A : Int) (ALPHA : Cplx F) (INCX : Int) (INCY : Int) (KX : Int) (LDA : Int) (M : Int) (X : Int) (Y : Int) (J : Int) (JY : Int) {S : Int → Prop} (hy : VOk S Y JY)
    (hw : ∀ i : Nat, i < M.toNat → MOk (fun a => ¬ S a) LDA A ((i:Int) + 1) J) :
    LockS S (fun a b => a = b ∧ a = JY + INCY) (hgercz_40_J A ALPHA INCX INCY KX LDA M X Y J JY (F := F)) (hgercz_40_J A ALPHA INCX INCY KX LDA M X Y J JY) := by
  unfold hgercz_40_J
  repeat' first
    | with_reducible exact ls_retA
    | with_reducible exact ls_retE
    | with_reducible exact ls_retP
    | with_reducible refine ls_ite (fun _ => ?_) (fun _ => ?_)
    | with_reducible refine ls_seqU (hgercz_if35_lockS (hy := hy) (hw := hw) ..) ?_
    | with_reducible refine ls_seqU (hgercz_if54_lockS (hy := hy) (hw := hw) ..) ?_

theorem hgercz_lockS (M : Int) (N : Int) (ALPHA : Cplx F) (X : Int) (INCX : Int) (Y : Int) (INCY : Int) (A : Int) (LDA : Int) {S : Int → Prop}
    (hy : VEnv S Y (if decide (INCY > 0) = true then 1 else 1 - (N - 1) * INCY) INCY N.toNat False)
    (hw : ∀ i j : Nat, i < M.toNat → j < N.toNat → MOk (fun a => ¬ S a) LDA A ((i:Int) + 1) ((j:Int) + 1)) :
    LockS S Any (hgercz M N ALPHA X INCX Y INCY A LDA (F := F)) (hgercz M N ALPHA X INCX Y INCY A LDA) := by
  unfold hgercz
  repeat' first
    | with_reducible exact ls_retA
    | with_reducible exact ls_retE
    | with_reducible exact ls_retP
    | with_reducible refine ls_ite (fun _ => ?_) (fun _ => ?_)
    | with_reducible refine ls_bind_ite (α := Int) ?_
    | with_reducible refine ls_seqS (ls_foldP (f := fun i (s : Int) => hgercz_20_J _ _ _ _ _ _ _ ((i : Int) + 1) s) (g := fun i (s : Int) => hgercz_20_J _ _ _ _ _ _ _ ((i : Int) + 1) s) INCY (fun i p e hi => hgercz_20_J_lockS (hy := hy.pos p i e hi) (hw := fun k hk => hw k i hk hi) ..)) (fun _ => ?_)
    | with_reducible refine ls_seqS (ls_foldP (f := fun i (s : Int) => hgercz_40_J _ _ _ _ _ _ _ _ _ ((i : Int) + 1) s) (g := fun i (s : Int) => hgercz_40_J _ _ _ _ _ _ _ _ _ ((i : Int) + 1) s) INCY (fun i p e hi => hgercz_40_J_lockS (hy := hy.pos p i e hi) (hw := fun k hk => hw k i hk hi) ..)) (fun _ => ?_)
    | with_reducible refine ls_seqU ?_ ?_
    | with_reducible skip; unfold hgercz_if33

theorem hgeruh_10_I_lockS (A : Int) (HTMP1J : Cplx F) (HTMP1S : Cplx F) (HTMP2J : Cplx F) (HTMP2S : Cplx F) (HTMP3J : Cplx F) (HTMP3S : Cplx F) (HTMP4J : Cplx F) (HTMP4S : Cplx F) (J : Int) (LDA : Int) (X : Int) (I : Int) {S : Int → Prop} (hw : MOk (fun a => ¬ S a) LDA A I J) :
    LockS S Any (hgeruh_10_I A HTMP1J HTMP1S HTMP2J HTMP2S HTMP3J HTMP3S HTMP4J HTMP4S J LDA X I (F := F)) (hgeruh_10_I A HTMP1J HTMP1S HTMP2J HTMP2S HTMP3J HTMP3S HTMP4J HTMP4S J LDA X I) := by
  unfold hgeruh_10_I
  repeat' first
    | with_reducible exact ls_retA
    | with_reducible exact ls_retE
    | with_reducible exact ls_retP
    | with_reducible refine ls_ite (fun _ => ?_) (fun _ => ?_)
    | with_reducible refine ls_seqT ls_rdC (fun _ _ => ?_)
    | with_reducible refine ls_seqU (ls_wrC hw.c1) ?_
    | with_reducible refine ls_seqU (ls_wrC hw.c2) ?_
    | with_reducible exact ls_uninit

theorem hgeruh_30_I_lockS (A : Int) (HTMP1J : Cplx F) (HTMP1S : Cplx F) (HTMP2J : Cplx F) (HTMP2S : Cplx F) (HTMP3J : Cplx F) (HTMP3S : Cplx F) (HTMP4J : Cplx F) (HTMP4S : Cplx F) (INCX : Int) (J : Int) (LDA : Int) (X : Int) (I : Int) (IX : Int) {S : Int → Prop} (hw : MOk (fun a => ¬ S a) LDA A I J) :
    LockS S (fun a b => a = b ∧ a = IX + INCX) (hgeruh_30_I A HTMP1J HTMP1S HTMP2J HTMP2S HTMP3J HTMP3S HTMP4J HTMP4S INCX J LDA X I IX (F := F)) (hgeruh_30_I A HTMP1J HTMP1S HTMP2J HTMP2S HTMP3J HTMP3S HTMP4J HTMP4S INCX J LDA X I IX) := by
  unfold hgeruh_30_I
  repeat' first
    | with_reducible exact ls_retA
    | with_reducible exact ls_retE
    | with_reducible exact ls_retP
    | with_reducible refine ls_ite (fun _ => ?_) (fun _ => ?_)
    | with_reducible refine ls_seqT ls_rdC (fun _ _ => ?_)
    | with_reducible refine ls_seqU (ls_wrC hw.c1) ?_
    | with_reducible refine ls_seqU (ls_wrC hw.c2) ?_
    | with_reducible exact ls_uninit

theorem hgeruh_if36_lockS (A : Int) (ALPHA : Quat F) (J : Int) (JY : Int) (LDA : Int) (M : Int) (X : Int) (Y : Int) {S : Int → Prop} (hy : VOk S Y JY)
    (hw : ∀ i : Nat, i < M.toNat → MOk (fun a => ¬ S a) LDA A ((i:Int) + 1) J) :
    LockS S Any (hgeruh_if36 A ALPHA J JY LDA M X Y (F := F)) (hgeruh_if36 A ALPHA J JY LDA M X Y) := by
  unfold hgeruh_if36
  repeat' first
    | with_reducible exact ls_retA
    | with_reducible exact ls_retE
    | with_reducible exact ls_retP
    | with_reducible refine ls_ite (fun _ => ?_) (fun _ => ?_)
    | with_reducible refine ls_seqS (ls_rdCS hy.c1) (fun _ => ?_)
    | with_reducible refine ls_seqS (ls_rdCS hy.c2) (fun _ => ?_)
    | with_reducible refine ls_seqU (ls_forN fun i hi => ?_) ?_
    | with_reducible refine ls_seqS (ls_foldP INCX (fun i _ _ hi => ?_)) (fun _ => ?_)
    | with_reducible exact hgeruh_10_I_lockS (hw := hw _ (by assumption)) ..
    | with_reducible exact hgeruh_30_I_lockS (hw := hw _ (by assumption)) ..

theorem hgeruh_if63_lockS (A : Int) (ALPHA : Quat F) (INCX : Int) (J : Int) (JY : Int) (KX : Int) (LDA : Int) (M : Int) (X : Int) (Y : Int) {S : Int → Prop} (hy : VOk S Y JY)
    (hw : ∀ i : Nat, i < M.toNat → MOk (fun a => ¬ S a) LDA A ((i:Int) + 1) J) :
    LockS S Any (hgeruh_if63 A ALPHA INCX J JY KX LDA M X Y (F := F)) (hgeruh_if63 A ALPHA INCX J JY KX LDA M X Y) := by
  unfold hgeruh_if63
  repeat' first
    | with_reducible exact ls_retA
    | with_reducible exact ls_retE
    | with_reducible exact ls_retP
    | with_reducible refine ls_ite (fun _ => ?_) (fun _ => ?_)
    | with_reducible refine ls_seqS (ls_rdCS hy.c1) (fun _ => ?_)
    | with_reducible refine ls_seqS (ls_rdCS hy.c2) (fun _ => ?_)
    | with_reducible refine ls_seqU (ls_forN fun i hi => ?_) ?_
    | with_reducible refine ls_seqS (ls_foldP INCX (fun i _ _ hi => ?_)) (fun _ => ?_)
    | with_reducible exact hgeruh_10_I_lockS (hw := hw _ (by assumption)) ..
    | with_reducible exact hgeruh_30_I_lockS (hw := hw _ (by assumption)) ..

theorem hgeruh_20_J_lockS (A : Int) (ALPHA : Quat F) (INCY : Int) (LDA : Int) (M : Int) (X : Int) (Y : Int) (J : Int) (JY : Int) {S : Int → Prop} (hy : VOk S Y JY)
    (hw : ∀ i : Nat, i < M.toNat → MOk (fun a => ¬ S a) LDA A ((i:Int) + 1) J) :
    LockS S (fun a b => a = b ∧ a = JY + INCY) (hgeruh_20_J A ALPHA INCY LDA M X Y J JY (F := F)) (hgeruh_20_J A ALPHA INCY LDA M X Y J JY) := by
  unfold hgeruh_20_J
  repeat' first
    | with_reducible exact ls_retA
    | with_reducible exact ls_retE
    | with_reducible exact ls_retP
    | with_reducible refine ls_ite (fun _ => ?_) (fun _ => ?_)
    | with_reducible refine ls_seqU (hgeruh_if36_lockS (hy := hy) (hw := hw) ..) ?_
    | with_reducible refine ls_seqU (hgeruh_if63_lockS (hy := hy) (hw := hw) ..) ?_

theorem hgeruh_40_J_lockS (A : Int) (ALPHA : Quat F) (INCX : Int) (INCY : Int) (KX : Int) (LDA : Int) (M : Int) (X : Int) (Y : Int) (J : Int) (JY : Int) {S : Int → Prop} (hy : VOk S Y JY)
    (hw : ∀ i : Nat, i < M.toNat → MOk (fun a => ¬ S a) LDA A ((i:Int) + 1) J) :
    LockS S (fun a b => a = b ∧ a = JY + INCY) (hgeruh_40_J A ALPHA INCX INCY KX LDA M X Y J JY (F := F)) (hgeruh_40_J A ALPHA INCX INCY KX LDA M X Y J JY) := by
  unfold hgeruh_40_J
  repeat' first
    | with_reducible exact ls_retA
    | with_reducible exact ls_retE
    | with_reducible exact ls_retP
    | with_reducible refine ls_ite (fun _ => ?_) (fun _ => ?_)
    | with_reducible refine ls_seqU (hgeruh_if36_lockS (hy := hy) (hw := hw) ..) ?_
    | with_reducible refine ls_seqU (hgeruh_if63_lockS (hy := hy) (hw := hw) ..) ?_

theorem hgeruh_lockS (M : Int) (N : Int) (ALPHA : Quat F) (X : Int) (INCX : Int) (Y : Int) (INCY : Int) (A : Int) (LDA : Int) {S : Int → Prop}
    (hy : VEnv S Y (if decide (INCY > 0) = true then 1 else 1 - (N - 1) * INCY) INCY N.toNat False)
    (hw : ∀ i j : Nat, i < M.toNat → j < N.toNat → MOk (fun a => ¬ S a) LDA A ((i:Int) + 1) ((j:Int) + 1)) :
    LockS S Any (hgeruh M N ALPHA X INCX Y INCY A LDA (F := F)) (hgeruh M N ALPHA X INCX Y INCY A LDA) := by
  unfold hgeruh
  repeat' first
    | with_reducible exact ls_retA
    | with_reducible exact ls_retE
    | with_reducible exact ls_retP
    | with_reducible refine ls_ite (fun _ => ?_) (fun _ => ?_)
    | with_reducible refine ls_bind_ite (α := Int) ?_
    | with_reducible refine ls_seqS (ls_foldP (f := fun i (s : Int) => hgeruh_20_J _ _ _ _ _ _ _ ((i : Int) + 1) s) (g := fun i (s : Int) => hgeruh_20_J _ _ _ _ _ _ _ ((i : Int) + 1) s) INCY (fun i p e hi => hgeruh_20_J_lockS (hy := hy.pos p i e hi) (hw := fun k hk => hw k i hk hi) ..)) (fun _ => ?_)
    | with_reducible refine ls_seqS (ls_foldP (f := fun i (s : Int) => hgeruh_40_J _ _ _ _ _ _ _ _ _ ((i : Int) + 1) s) (g := fun i (s : Int) => hgeruh_40_J _ _ _ _ _ _ _ _ _ ((i : Int) + 1) s) INCY (fun i p e hi => hgeruh_40_J_lockS (hy := hy.pos p i e hi) (hw := fun k hk => hw k i hk hi) ..)) (fun _ => ?_)
    | with_reducible refine ls_seqU ?_ ?_
    | with_reducible skip; unfold hgeruh_if34

theorem hgerch_10_I_lockS (A : Int) (HTMP1J : Cplx F) (HTMP1S : Cplx F) (HTMP2J : Cplx F) (HTMP2S : Cplx F) (HTMP3J : Cplx F) (HTMP3S : Cplx F) (HTMP4J : Cplx F) (HTMP4S : Cplx F) (J : Int) (LDA : Int) (X : Int) (I : Int) {S : Int → Prop} (hw : MOk (fun a => ¬ S a) LDA A I J) :
    LockS S Any (hgerch_10_I A HTMP1J HTMP1S HTMP2J HTMP2S HTMP3J HTMP3S HTMP4J HTMP4S J LDA X I (F := F)) (hgerch_10_I A HTMP1J HTMP1S HTMP2J HTMP2S HTMP3J HTMP3S HTMP4J HTMP4S J LDA X I) := by
  unfold hgerch_10_I
  repeat' first
    | with_reducible exact ls_retA
    | with_reducible exact ls_retE
    | with_reducible exact ls_retP
    | with_reducible refine ls_ite (fun _ => ?_) (fun _ => ?_)
    | with_reducible refine ls_seqT ls_rdC (fun _ _ => ?_)
    | with_reducible refine ls_seqU (ls_wrC hw.c1) ?_
    | with_reducible refine ls_seqU (ls_wrC hw.c2) ?_
    | with_reducible exact ls_uninit

theorem hgerch_30_I_lockS (A : Int) (HTMP1J : Cplx F) (HTMP1S : Cplx F) (HTMP2J : Cplx F) (HTMP2S : Cplx F) (HTMP3J : Cplx F) (HTMP3S : Cplx F) (HTMP4J : Cplx F) (HTMP4S : Cplx F) (INCX : Int) (J : Int) (LDA : Int) (X : Int) (I : Int) (IX : Int) {S : Int → Prop} (hw : MOk (fun a => ¬ S a) LDA A I J) :
    LockS S (fun a b => a = b ∧ a = IX + INCX) (hgerch_30_I A HTMP1J HTMP1S HTMP2J HTMP2S HTMP3J HTMP3S HTMP4J HTMP4S INCX J LDA X I IX (F := F)) (hgerch_30_I A HTMP1J HTMP1S HTMP2J HTMP2S HTMP3J HTMP3S HTMP4J HTMP4S INCX J LDA X I IX) := by
  unfold hgerch_30_I
  repeat' first
    | with_reducible exact ls_retA
    | with_reducible exact ls_retE
    | with_reducible exact ls_retP
    | with_reducible refine ls_ite (fun _ => ?_) (fun _ => ?_)
    | with_reducible refine ls_seqT ls_rdC (fun _ _ => ?_)
    | with_reducible refine ls_seqU (ls_wrC hw.c1) ?_
    | with_reducible refine ls_seqU (ls_wrC hw.c2) ?_
    | with_reducible exact ls_uninit

theorem hgerch_if36_lockS (A : Int) (ALPHA : Quat F) (J : Int) (JY : Int) (LDA : Int) (M : Int) (X : Int) (Y : Int) {S : Int → Prop} (hy : VOk S Y JY)
    (hw : ∀ i : Nat, i < M.toNat → MOk (fun a => ¬ S a) LDA A ((i:Int) + 1) J) :
    LockS S Any (hgerch_if36 A ALPHA J JY LDA M X Y (F := F)) (hgerch_if36 A ALPHA J JY LDA M X Y) := by
  unfold hgerch_if36
  repeat' first
    | with_reducible exact ls_retA
    | with_reducible exact ls_retE
    | with_reducible exact ls_retP
    | with_reducible refine ls_ite (fun _ => ?_) (fun _ => ?_)
    | with_reducible refine ls_seqS (ls_rdCS hy.c1) (fun _ => ?_)
    | with_reducible refine ls_seqS (ls_rdCS hy.c2) (fun _ => ?_)
    | with_reducible refine ls_seqU (ls_forN fun i hi => ?_) ?_
    | with_reducible refine ls_seqS (ls_foldP INCX (fun i _ _ hi => ?_)) (fun _ => ?_)
    | with_reducible exact hgerch_10_I_lockS (hw := hw _ (by assumption)) ..
    | with_reducible exact hgerch_30_I_lockS (hw := hw _ (by assumption)) ..

theorem hgerch_if63_lockS (A : Int) (ALPHA : Quat F) (INCX : Int) (J : Int) (JY : Int) (KX : Int) (LDA : Int) (M : Int) (X : Int) (Y : Int) {S : Int → Prop} (hy : VOk S Y JY)
    (hw : ∀ i : Nat, i < M.toNat → MOk (fun a => ¬ S a) LDA A ((i:Int) + 1) J) :
    LockS S Any (hgerch_if63 A ALPHA INCX J JY KX LDA M X Y (F := F)) (hgerch_if63 A ALPHA INCX J JY KX LDA M X Y) := by
  unfold hgerch_if63
  repeat' first
    | with_reducible exact ls_retA
    | with_reducible exact ls_retE
    | with_reducible exact ls_retP
    | with_reducible refine ls_ite (fun _ => ?_) (fun _ => ?_)
    | with_reducible refine ls_seqS (ls_rdCS hy.c1) (fun _ => ?_)
    | with_reducible refine ls_seqS (ls_rdCS hy.c2) (fun _ => ?_)
    | with_reducible refine ls_seqU (ls_forN fun i hi => ?_) ?_
    | with_reducible refine ls_seqS (ls_foldP INCX (fun i _ _ hi => ?_)) (fun _ => ?_)
    | with_reducible exact hgerch_10_I_lockS (hw := hw _ (by assumption)) ..
    | with_reducible exact hgerch_30_I_lockS (hw := hw _ (by assumption)) ..

theorem hgerch_20_J_lockS (A : Int) (ALPHA : Quat F) (INCY : Int) (LDA : Int) (M : Int) (X : Int) (Y : Int) (J : Int) (JY : Int) {S : Int → Prop} (hy : VOk S Y JY)
    (hw : ∀ i : Nat, i < M.toNat → MOk (fun a => ¬ S a) LDA A ((i:Int) + 1) J) :
    LockS S (fun a b => a = b ∧ a = JY + INCY) (hgerch_20_J A ALPHA INCY LDA M X Y J JY (F := F)) (hgerch_20_J A ALPHA INCY LDA M X Y J JY) := by
  unfold hgerch_20_J
  repeat' first
    | with_reducible exact ls_retA
    | with_reducible exact ls_retE
    | with_reducible exact ls_retP
    | with_reducible refine ls_ite (fun _ => ?_) (fun _ => ?_)
    | with_reducible refine ls_seqU (hgerch_if36_lockS (hy := hy) (hw := hw) ..) ?_
    | with_reducible refine ls_seqU (hgerch_if63_lockS (hy := hy) (hw := hw) ..) ?_

theorem hgerch_40_J_lockS (A : Int) (ALPHA : Quat F) (INCX : Int) (INCY : Int) (KX : Int) (LDA : Int) (M : Int) (X : Int) (Y : Int) (J : Int) (JY : Int) {S : Int → Prop} (hy : VOk S Y JY)
    (hw : ∀ i : Nat, i < M.toNat → MOk (fun a => ¬ S a) LDA A ((i:Int) + 1) J) :
    LockS S (fun a b => a = b ∧ a = JY + INCY) (hgerch_40_J A ALPHA INCX INCY KX LDA M X Y J JY (F := F)) (hgerch_40_J A ALPHA INCX INCY KX LDA M X Y J JY) := by
  unfold hgerch_40_J
  repeat' first
    | with_reducible exact ls_retA
    | with_reducible exact ls_retE
    | with_reducible exact ls_retP
    | with_reducible refine ls_ite (fun _ => ?_) (fun _ => ?_)
    | with_reducible refine ls_seqU (hgerch_if36_lockS (hy := hy) (hw := hw) ..) ?_
    | with_reducible refine ls_seqU (hgerch_if63_lockS (hy := hy) (hw := hw) ..) ?_

theorem hgerch_lockS (M : Int) (N : Int) (ALPHA : Quat F) (X : Int) (INCX : Int) (Y : Int) (INCY : Int) (A : Int) (LDA : Int) {S : Int → Prop}
    (hy : VEnv S Y (if decide (INCY > 0) = true then 1 else 1 - (N - 1) * INCY) INCY N.toNat False)
    (hw : ∀ i j : Nat, i < M.toNat → j < N.toNat → MOk (fun a => ¬ S a) LDA A ((i:Int) + 1) ((j:Int) + 1)) :
    LockS S Any (hgerch M N ALPHA X INCX Y INCY A LDA (F := F)) (hgerch M N ALPHA X INCX Y INCY A LDA) := by
  unfold hgerch
  repeat' first
    | with_reducible exact ls_retA
    | with_reducible exact ls_retE
    | with_reducible exact ls_retP
    | with_reducible refine ls_ite (fun _ => ?_) (fun _ => ?_)
    | with_reducible refine ls_bind_ite (α := Int) ?_
    | with_reducible refine ls_seqS (ls_foldP (f := fun i (s : Int) => hgerch_20_J _ _ _ _ _ _ _ ((i : Int) + 1) s) (g := fun i (s : Int) => hgerch_20_J _ _ _ _ _ _ _ ((i : Int) + 1) s) INCY (fun i p e hi => hgerch_20_J_lockS (hy := hy.pos p i e hi) (hw := fun k hk => hw k i hk hi) ..)) (fun _ => ?_)
    | with_reducible refine ls_seqS (ls_foldP (f := fun i (s : Int) => hgerch_40_J _ _ _ _ _ _ _ _ _ ((i : Int) + 1) s) (g := fun i (s : Int) => hgerch_40_J _ _ _ _ _ _ _ _ _ ((i : Int) + 1) s) INCY (fun i p e hi => hgerch_40_J_lockS (hy := hy.pos p i e hi) (hw := fun k hk => hw k i hk hi) ..)) (fun _ => ?_)
    | with_reducible refine ls_seqU ?_ ?_
    | with_reducible skip; unfold hgerch_if34

end Haxx.Thr
