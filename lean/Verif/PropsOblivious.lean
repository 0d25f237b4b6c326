import Verif.ThrLockSimd
import Verif.ThrLockPort
import Verif.ThrLockMix
import Verif.ThrLockFort
import Verif.ThrLockGemm
import Verif.ThrLockGer
import Verif.PropsSafe

/-!
# C62: which memory is accessed, and whether a call crashes, does not depend on the data

The sequence of accesses of a call (`Thr.Prog.trace`: places, reads and writes, allocations, in order) and the way
the call ends are the same for any two memories with the same accessible cells — whatever numbers the vectors and
matrices hold.  So there are no short cuts for zeros, no data-dependent branches; in particular NaNs are never
skipped, and a call that is safe for one set of numbers is safe for all.

The one exception are GERU and GERC, which skip the columns whose element of y is zero: `C62_ger_violated`.  For
them the accesses depend on y only: `C62_only_y_decides`.
-/

namespace Haxx
open Arith
set_option linter.unusedSectionVars false

variable {F : Type} [Arith F] [ArithEq F]

namespace Thr
theorem LockR.weak {α : Type} {R Q : α → α → Prop} {p q : Prog F α} (h : LockR R p q) (hr : ∀ a b, R a b → Q a b) : LockR Q p q := by
  induction h with
  | ret h => exact .ret (hr _ _ h)
  | fail => exact .fail
  | rd _ ih => exact .rd ih
  | wr _ ih => exact .wr ih
  | map hg _ ih => exact .map hg ih

theorem Lock.any {α : Type} [Sh α] {p q : Prog F α} (h : Lock p q) : LockR (fun _ _ => True) p q :=
  LockR.weak h fun _ _ _ => trivial

theorem complexExpand_lock (ORDER : Char) (M N A LDA B LDB : Int) :
    Lock (HBLAS_COMPLEX_EXPAND ORDER M N A LDA B LDB : Prog F Unit) (HBLAS_COMPLEX_EXPAND ORDER M N A LDA B LDB) := by
  repeat' first
    | lock_step
    | with_reducible exact hzexp1_lock ..
    | with_reducible exact hzexp2_lock ..
    | unfold HBLAS_COMPLEX_EXPAND
theorem realExpand_lock (M N A LDA B LDB : Int) :
    Lock (HBLAS_REAL_EXPAND M N A LDA B LDB : Prog F Unit) (HBLAS_REAL_EXPAND M N A LDA B LDB) := by
  repeat' first
    | lock_step
    | with_reducible exact hdexp_lock ..
    | unfold HBLAS_REAL_EXPAND
theorem complexContract_lock (ORDER UPLO : Char) (M N A LDA B LDB : Int) :
    Lock (HBLAS_COMPLEX_CONTRACT ORDER UPLO M N A LDA B LDB : Prog F Unit) (HBLAS_COMPLEX_CONTRACT ORDER UPLO M N A LDA B LDB) := by
  repeat' first
    | lock_step
    | with_reducible exact hzcon1_lock ..
    | with_reducible exact hzcon2_lock ..
    | unfold HBLAS_COMPLEX_CONTRACT
end Thr

theorem Call.lock (c : Call F) : Thr.LockR (fun _ _ => True) c.thread c.thread := by
  cases c with
  | copyv => exact (Thr.copyvAVX_lock ..).any
  | swapv => exact (Thr.swapvAVX_lock ..).any
  | scalv => exact (Thr.scalvAVX_lock ..).any
  | axpyv => exact (Thr.axpyvAVX_lock ..).any
  | dot => exact (Thr.dotAVX_lock ..).any
  | scalm => exact (Thr.scalm_lock _ Thr.scalvAVX_lock ..).any
  | axpym => exact (Thr.axpym_lock _ Thr.axpyvAVX_lock ..).any
  | gemm => exact (Thr.gemmAVX_lock ..).any

/-- The call is a GERU or GERC. -/
def RefCall.IsGer : RefCall F → Prop
  | .fger .. => True
  | .pger .. => True
  | .kger .. => True
  | _ => False

theorem Thr.scalF_lock (SIDE : Char) (N : Int) (ALPHA : Scal F) (X INCX : Int) :
    Thr.Lock (Thr.scalF SIDE N ALPHA X INCX) (Thr.scalF SIDE N ALPHA X INCX) := by
  cases ALPHA
  · exact Thr.hscald_lock (SIDE := SIDE) ..
  · exact Thr.hscalc_lock ..
  · exact Thr.hscalh_lock ..

theorem Thr.axpyF_lock (SIDE : Char) (N : Int) (ALPHA : Scal F) (X INCX Y INCY : Int) :
    Thr.Lock (Thr.axpyF SIDE N ALPHA X INCX Y INCY) (Thr.axpyF SIDE N ALPHA X INCX Y INCY) := by
  cases ALPHA
  · exact Thr.haxpydh_lock (SIDE := SIDE) ..
  · exact Thr.haxpych_lock ..
  · exact Thr.haxpyhh_lock ..

theorem RefCall.lock (c : RefCall F) (h : ¬ c.IsGer) : Thr.LockR (fun _ _ => True) c.thread c.thread := by
  cases c with
  | fscal SIDE N ALPHA =>
    cases ALPHA
    · exact (Thr.hscald_lock (SIDE := SIDE) ..).any
    · exact (Thr.hscalc_lock ..).any
    · exact (Thr.hscalh_lock ..).any
  | faxpy SIDE N ALPHA =>
    cases ALPHA
    · exact (Thr.haxpydh_lock (SIDE := SIDE) ..).any
    · exact (Thr.haxpych_lock ..).any
    · exact (Thr.haxpyhh_lock ..).any
  | fdot conj =>
    cases conj
    · exact (Thr.hdotu_lock ..).any
    · exact (Thr.hdotc_lock ..).any
  | fger => exact (h trivial).elim
  | fgemv t M N ALPHA A LDA X INCX BETA =>
    cases ALPHA <;> cases BETA
    · exact (Thr.hgemvdd_lock ..).any
    · exact (Thr.hgemvdz_lock ..).any
    · exact (Thr.hgemvdh_lock ..).any
    · exact (Thr.hgemvzd_lock ..).any
    · exact (Thr.hgemvzz_lock ..).any
    · exact (Thr.hgemvzh_lock ..).any
    · exact (Thr.hgemvhd_lock ..).any
    · exact (Thr.hgemvhz_lock ..).any
    · exact (Thr.hgemvhh_lock ..).any
  | fgemm tA tB M N K ALPHA A LDA B LDB BETA =>
    cases ALPHA <;> cases BETA
    · exact (Thr.hgemmdd_lock ..).any
    · exact (Thr.hgemmdz_lock ..).any
    · exact (Thr.hgemmdh_lock ..).any
    · exact (Thr.hgemmzd_lock ..).any
    · exact (Thr.hgemmzz_lock ..).any
    · exact (Thr.hgemmzh_lock ..).any
    · exact (Thr.hgemmhd_lock ..).any
    · exact (Thr.hgemmhz_lock ..).any
    · exact (Thr.hgemmhh_lock ..).any
  | expandZ => exact (Thr.complexExpand_lock ..).any
  | expandD => exact (Thr.realExpand_lock ..).any
  | contractZ => exact (Thr.complexContract_lock ..).any
  | pcopy => exact (Thr.copyvGen_lock ..).any
  | pswap => exact (Thr.swapvGen_lock ..).any
  | pscal => exact (Thr.scalvGen_lock ..).any
  | paxpy => exact (Thr.axpyvGen_lock ..).any
  | pdot => exact (Thr.dotGen_lock ..).any
  | pger => exact (h trivial).elim
  | pgemv => exact (Thr.gemvGen_lock ..).any
  | pgemm => exact (Thr.gemmGen_lock ..).any
  | fscalm => exact (Thr.scalm_lock _ Thr.scalF_lock ..).any
  | faxpym => exact (Thr.axpym_lock _ Thr.axpyF_lock ..).any
  | pscalm => exact (Thr.scalm_lock _ Thr.scalvGen_lock ..).any
  | paxpym => exact (Thr.axpym_lock _ Thr.axpyvGen_lock ..).any
  | kaxpy => exact (Thr.axpyvGenK_lock ..).any
  | kger => exact (h trivial).elim
  | kgemv => exact (Thr.gemvGenK_lock ..).any
  | kgemm => exact (Thr.gemmGenK_lock ..).any

/-- The call is a GERU or GERC. -/
def AnyCall.IsGer : AnyCall F → Prop
  | .simd _ => False
  | .ref c => c.IsGer

/-- The memory accesses of the call when it runs alone from `m`, in order. -/
def AnyCall.accesses (c : AnyCall F) (m : Mem F) : List Thr.Ev := c.thread.trace m

theorem AnyCall.lock (c : AnyCall F) (h : ¬ c.IsGer) : Thr.LockR (fun _ _ => True) c.thread c.thread := by
  cases c with
  | simd c => exact c.lock
  | ref c => exact c.lock h

/-- C62.  Every call of every build except GERU, GERC makes the same memory accesses in the same order whatever
the data: in any two memories with the same accessible cells, and over any arithmetic. -/
theorem C62_same_accesses_partial (c : AnyCall F) (hc : ¬ c.IsGer) (m m' : Mem F) (h : ∀ a, (m a).isSome = (m' a).isSome) :
    c.accesses m = c.accesses m' := ((c.lock hc).sound h).1

/-- C62.  It also ends in the same way: it finishes in both, or it faults in both, with the same fault. -/
theorem C62_same_end_partial (c : AnyCall F) (hc : ¬ c.IsGer) (m m' : Mem F) (h : ∀ a, (m a).isSome = (m' a).isSome) :
    (∃ r n r' n', c.seq m = .ok (r, n) ∧ c.seq m' = .ok (r', n') ∧ ∀ a, (n a).isSome = (n' a).isSome) ∨
    (∃ e, c.seq m = .error e ∧ c.seq m' = .error e) := by
  have hs := ((c.lock hc).sound (m := m) (m' := m') h).2
  rw [c.thread_run] at hs
  unfold Thr.SameEnd at hs
  split at hs
  · exact .inl ⟨_, _, _, _, ‹_›, ‹_›, hs.2⟩
  · subst hs; exact .inr ⟨_, ‹_›, ‹_›⟩
  · exact hs.elim

/-- C62.  A call that is safe for one set of numbers is safe for all. -/
theorem C62_safe_for_all_data_partial (c : AnyCall F) (hc : ¬ c.IsGer) (m m' : Mem F) (h : ∀ a, (m a).isSome = (m' a).isSome)
    {r : c.Res} {n : Mem F} (hr : c.seq m = .ok (r, n)) : ∃ r' n', c.seq m' = .ok (r', n') := by
  rcases C62_same_end_partial c hc m m' h with ⟨_, _, r', n', _, h', _⟩ | ⟨e, he, _⟩
  · exact ⟨r', n', h'⟩
  · rw [hr] at he; cases he

/-! ### All calls, GERU and GERC included -/

/-- The cells that decide which accesses are made: the vector y of GERU and GERC, nothing for the other calls. -/
def AnyCall.Deciding : AnyCall F → Int → Prop
  | .ref (.fger _ _ N _ _ _ Y INCY _ _) => VecCell (vecStart Y N INCY) INCY N.toNat
  | .ref (.pger _ _ N _ _ _ Y INCY _ _) => VecCell Y INCY N.toNat
  | .ref (.kger _ kY _ _ N _ _ _ Y INCY _ _) => KVecCell kY Y INCY N.toNat
  | _ => fun _ => False

namespace Thr
theorem gerEl_lockS {S : Int → Prop} {cj : Bool} {ALPHA : Scal F} {X Y A LDA j JY i ix : Int}
    (hA : Q4 (fun a => ¬ S a) (A + 4 * (i + j * LDA))) : LockS S Any (gerEl cj ALPHA X Y A LDA j JY i ix) (gerEl cj ALPHA X Y A LDA j JY i ix) := by
  unfold gerEl rank2
  refine ls_seqT ls_loadQ fun _ _ => ls_seqT ls_loadQ fun _ _ => LockS.bind (R := fun a b => a = b ∧ a = i + j * LDA) (ls_i32_bind (x := j * LDA) (f := fun p => i32 (i + p)) (g := fun p => i32 (i + p)) ls_i32) ?_
  rintro p q ⟨rfl, rfl⟩
  exact ls_seqT ls_loadQ fun _ _ => ls_storeQ hA

theorem gerGen_lockS {S : Int → Prop} (cj : Bool) (M N : Int) (ALPHA : Scal F) (X INCX Y INCY A LDA : Int)
    (hY : ∀ a, VecCell Y INCY N.toNat a → S a) (hA : ∀ a, MatCell A LDA M.toNat N.toNat a → ¬ S a) :
    LockS S Any (gerGen cj M N ALPHA X INCX Y INCY A LDA) (gerGen cj M N ALPHA X INCX Y INCY A LDA) := by
  unfold gerGen
  refine ls_ite (fun _ => .ret trivial) fun _ => ls_assert fun _ => ls_assert fun _ => ?_
  refine ls_seqS (ls_foldP INCY fun j p e hj => ?_) fun _ => .ret trivial
  rw [Int.zero_add] at e
  subst e
  have hel : ∀ i : Nat, i < M.toNat → Q4 (fun a => ¬ S a) (A + 4 * ((i:Int) + j * LDA)) := fun i hi a ha => hA a ⟨i, j, hi, hj, ha⟩
  unfold gerCol
  refine ls_seqS (ls_loadQS (vec_q4 hY hj)) fun y => ?_
  dsimp only
  refine ls_ite (fun _ => ls_ite (fun _ => ?_) fun _ => ?_) fun _ => ls_i32
  · exact ls_seqU (ls_forN fun i hi => gerEl_lockS (hel i hi)) ls_i32
  · refine ls_seqS (ls_foldP INCX fun i ix _ hi => ls_seqU (gerEl_lockS (hel i hi)) ls_i32) fun _ => ls_i32
end Thr

theorem RefCall.fger_lockS (cj : Bool) (M N : Int) (ALPHA : Scal F) (X INCX Y INCY A LDA : Int) {S : Int → Prop}
    (hY : ∀ a, VecCell (vecStart Y N INCY) INCY N.toNat a → S a) (hA : ∀ a, MatCell A LDA M.toNat N.toNat a → ¬ S a) :
    Thr.LockS S Thr.Any (Thr.gerF cj M N ALPHA X INCX Y INCY A LDA) (Thr.gerF cj M N ALPHA X INCX Y INCY A LDA) := by
  have hy := env2 (P := S) (X := Y) (INC := INCY) (n := N) (u := False) hY False.elim
  have hw := fun (i j : Nat) (hi : i < M.toNat) (hj : j < N.toNat) => Thr.MOk.mat (P := fun a => ¬ S a) (LDA := LDA) (A := A) hA hi hj
  cases ALPHA <;> cases cj
  · exact Thr.hgerud_lockS _ _ _ _ _ _ _ _ _ hy hw
  · exact Thr.hgercd_lockS _ _ _ _ _ _ _ _ _ hy hw
  · exact Thr.hgeruz_lockS _ _ _ _ _ _ _ _ _ hy hw
  · exact Thr.hgercz_lockS _ _ _ _ _ _ _ _ _ hy hw
  · exact Thr.hgeruh_lockS _ _ _ _ _ _ _ _ _ hy hw
  · exact Thr.hgerch_lockS _ _ _ _ _ _ _ _ _ hy hw

theorem AnyCall.lockS (c : AnyCall F) (hd : ∀ a, c.Outputs a → ¬ c.Deciding a) (h : c.IsGer) :
    Thr.LockS c.Deciding Thr.Any c.thread c.thread := by
  cases c with
  | simd c => exact h.elim
  | ref c =>
    cases c with
    | fger => exact RefCall.fger_lockS _ _ _ _ _ _ _ _ _ _ (fun _ h => h) hd
    | pger => exact Thr.gerGen_lockS _ _ _ _ _ _ _ _ _ _ (fun _ h => h) hd
    | kger => exact Thr.gerGenK_lockS _ _ _ _ _ _ _ _ _ _ _ _ (fun _ h => h) hd
    | _ => exact h.elim

/-- C62.  Every call of every build, GERU and GERC included: accesses and ending depend on the memory only through
which cells are accessible and, for GERU and GERC, through the numbers in y (provided A does not overlap y, as for any
BLAS call); the numbers in x and A never matter. -/
theorem C62_only_y_decides (c : AnyCall F) (m m' : Mem F) (h : ∀ a, (m a).isSome = (m' a).isSome)
    (hy : ∀ a, c.Deciding a → m a = m' a) (hd : ∀ a, c.Outputs a → ¬ c.Deciding a) :
    c.accesses m = c.accesses m' ∧
    ((∃ r n r' n', c.seq m = .ok (r, n) ∧ c.seq m' = .ok (r', n') ∧ ∀ a, (n a).isSome = (n' a).isSome) ∨
     (∃ e, c.seq m = .error e ∧ c.seq m' = .error e)) := by
  by_cases hg : c.IsGer
  · have hs := (c.lockS hd hg).sound (m := m) (m' := m') h hy
    refine ⟨hs.1, ?_⟩
    have hs := hs.2
    rw [c.thread_run] at hs
    unfold Thr.SameEnd at hs
    split at hs
    · exact .inl ⟨_, _, _, _, ‹_›, ‹_›, hs.2⟩
    · subst hs; exact .inr ⟨_, ‹_›, ‹_›⟩
    · exact hs.elim
  · exact ⟨C62_same_accesses_partial c hg m m' h, C62_same_end_partial c hg m m' h⟩

section violated

/-- Two memories with the same accessible cells: `x` at 0, `y` at 4, nothing else; `y` is `v` in all components. -/
def gerMem (v : Int) : Mem Int := memOf 0 8 (fun a => if a < 4 then 1 else v)

/-- C62, violated by GERU and GERC, in the Fortran build and in the templates: a column whose element of y is zero is
skipped, so both the accesses and whether the call crashes depend on the numbers.  Here `A` (1 × 1) is not accessible,
and the call goes well if and only if y is zero. -/
theorem C62_ger_violated (conj : Bool) (c : AnyCall Int)
    (hc : c = .ref (.fger conj 1 1 (.h ⟨1, 0, 0, 0⟩) 0 1 4 1 100 1) ∨ c = .ref (.pger conj 1 1 (.h ⟨1, 0, 0, 0⟩) 0 1 4 1 100 1)) :
    (∀ a, (gerMem 0 a).isSome = (gerMem 1 a).isSome) ∧ c.accesses (gerMem 0) ≠ c.accesses (gerMem 1) ∧
    (∃ r m', c.seq (gerMem 0) = .ok (r, m')) ∧ ∃ e, c.seq (gerMem 1) = .error e := by
  refine ⟨?_, ?_, ?_, ?_⟩
  · intro a; unfold gerMem memOf; split <;> rfl
  · rcases hc with rfl | rfl <;> cases conj <;> decide
  · rcases hc with rfl | rfl <;> cases conj <;> exact ⟨_, _, rfl⟩
  · rcases hc with rfl | rfl <;> cases conj <;> exact ⟨_, rfl⟩
/-- The hypotheses of `C62_only_y_decides` hold for a GERU with two different x and two different A. -/
theorem C62_only_y_decides_hyps : let c : AnyCall Int := .ref (.pger false 1 1 (.h ⟨1, 0, 0, 0⟩) 0 1 4 1 8 1)
    let m := fun v : Int => (memOf 0 12 (fun a => if 4 ≤ a ∧ a < 8 then 5 else v) : Mem Int)
    (∀ a, (m 1 a).isSome = (m 2 a).isSome) ∧ (∀ a, c.Deciding a → m 1 a = m 2 a) ∧ (∀ a, c.Outputs a → ¬ c.Deciding a) ∧
    m 1 0 ≠ m 2 0 ∧ m 1 8 ≠ m 2 8 ∧ ∃ r n, c.seq (m 1) = .ok (r, n) := by
  refine ⟨?_, ?_, ?_, by decide, by decide, ?_⟩
  · intro a; unfold memOf; dsimp only; split <;> rfl
  · rintro a ⟨i, hi, h⟩
    have hi : i = 0 := by have : i < 1 := hi; omega
    subst hi
    unfold InQ at h
    simp at h
    unfold memOf
    simp only [if_pos h]
  · rintro a ⟨i, j, hi, hj, h⟩ ⟨k, hk, h'⟩
    have hi : i = 0 := by have : i < 1 := hi; omega
    have hj : j = 0 := by have : j < 1 := hj; omega
    have hk : k = 0 := by have : k < 1 := hk; omega
    subst hi hj hk
    unfold InQ at h h'
    simp at h h'
    omega
  · exact ⟨_, _, rfl⟩
end violated

end Haxx
