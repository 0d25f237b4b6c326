import Verif.ThrSafeSimd
import Verif.SpecUtil
import Verif.PropsTile
import Mathlib.Tactic.IntervalCases
import Mathlib.Tactic.FinCases

/-!
# C49: concurrent calls

Any number of threads call routines of the library (SIMD build) at the same time.  As long as no call writes
storage that another one uses, every interleaving of their memory accesses ends, without a fault, with the
same memory and return values as the calls one after the other, in any order.
-/

namespace Haxx
open Arith
set_option linter.unusedSectionVars false

variable {F : Type} [Arith F] [ArithEq F]

/-- A call of a routine of the library, with its arguments.  For GEMM also: the block sizes the library was
built with, the addresses of the two work arrays the allocator hands out, and the garbage found there. -/
inductive Call (F : Type) where
  | copyv (N X INCX Y INCY : Int)
  | swapv (N X INCX Y INCY : Int)
  | scalv (SIDE : Char) (N : Int) (ALPHA : Scal F) (X INCX : Int)
  | axpyv (SIDE : Char) (N : Int) (ALPHA : Scal F) (X INCX Y INCY : Int)
  | dot (conj : Bool) (N X INCX Y INCY : Int)
  | scalm (SIDE : Char) (M N : Int) (ALPHA : Scal F) (A LDA INCA : Int)
  | axpym (SIDE : Char) (M N : Int) (ALPHA : Scal F) (A LDA INCA B LDB INCB : Int)
  | gemm (blk : Blk) (bAddr aAddr : Int) (junk : Int → F) (TRANSA TRANSB : Char) (M N K : Nat) (ALPHA : Scal F)
      (A LDA B LDB : Int) (BETA : Scal F) (C LDC : Int)

namespace Call

/-- The type of the value the call returns. -/
def Res : Call F → Type
  | dot .. => Quat F
  | _ => Unit

/-- The call in the sequential model. -/
def seq : (c : Call F) → Prog F c.Res
  | copyv N X INCX Y INCY => copyvAVX N X INCX Y INCY
  | swapv N X INCX Y INCY => swapvAVX N X INCX Y INCY
  | scalv SIDE N ALPHA X INCX => scalvAVX SIDE N ALPHA X INCX
  | axpyv SIDE N ALPHA X INCX Y INCY => axpyvAVX SIDE N ALPHA X INCX Y INCY
  | dot conj N X INCX Y INCY => dotAVX conj N X INCX Y INCY
  | scalm SIDE M N ALPHA A LDA INCA => Haxx.scalm scalvAVX SIDE 'N' M N ALPHA A LDA INCA
  | axpym SIDE M N ALPHA A LDA INCA B LDB INCB => Haxx.axpym axpyvAVX SIDE 'N' M N ALPHA A LDA INCA B LDB INCB
  | gemm blk bAddr aAddr junk tA tB M N K ALPHA A LDA B LDB BETA C LDC =>
    gemmAVX blk bAddr aAddr junk tA tB M N K ALPHA A LDA B LDB BETA C LDC

/-- The call as a sequence of single memory accesses, which other threads can interrupt. -/
def thread : (c : Call F) → Thr.Prog F c.Res
  | copyv N X INCX Y INCY => Thr.copyvAVX N X INCX Y INCY
  | swapv N X INCX Y INCY => Thr.swapvAVX N X INCX Y INCY
  | scalv SIDE N ALPHA X INCX => Thr.scalvAVX SIDE N ALPHA X INCX
  | axpyv SIDE N ALPHA X INCX Y INCY => Thr.axpyvAVX SIDE N ALPHA X INCX Y INCY
  | dot conj N X INCX Y INCY => Thr.dotAVX conj N X INCX Y INCY
  | scalm SIDE M N ALPHA A LDA INCA => Thr.scalm Thr.scalvAVX SIDE 'N' M N ALPHA A LDA INCA
  | axpym SIDE M N ALPHA A LDA INCA B LDB INCB => Thr.axpym Thr.axpyvAVX SIDE 'N' M N ALPHA A LDA INCA B LDB INCB
  | gemm blk bAddr aAddr junk tA tB M N K ALPHA A LDA B LDB BETA C LDC =>
    Thr.gemmAVX blk bAddr aAddr junk tA tB M N K ALPHA A LDA B LDB BETA C LDC

/-- The cells of the call's operands that it only reads. -/
def Inputs : Call F → Int → Prop
  | copyv N X INCX _ _ => VecCell X INCX N.toNat
  | swapv .. => fun _ => False
  | scalv .. => fun _ => False
  | axpyv _ N _ X INCX _ _ => VecCell X INCX N.toNat
  | dot _ N X INCX Y INCY => fun a => VecCell X INCX N.toNat a ∨ VecCell Y INCY N.toNat a
  | scalm .. => fun _ => False
  | axpym _ M N _ A LDA INCA _ _ _ => SMatCell A INCA LDA M.toNat N.toNat
  | gemm _ _ _ _ tA tB M N K _ A LDA B LDB _ _ _ => fun a =>
    MatCell A LDA (if isT tA then K else M) (if isT tA then M else K) a ∨
    MatCell B LDB (if isT tB then N else K) (if isT tB then K else N) a

/-- The cells of its outputs and its work storage. -/
def Outputs : Call F → Int → Prop
  | copyv N _ _ Y INCY => VecCell Y INCY N.toNat
  | swapv N X INCX Y INCY => fun a => VecCell X INCX N.toNat a ∨ VecCell Y INCY N.toNat a
  | scalv _ N _ X INCX => VecCell X INCX N.toNat
  | axpyv _ N _ _ _ Y INCY => VecCell Y INCY N.toNat
  | dot .. => fun _ => False
  | scalm _ M N _ A LDA INCA => SMatCell A INCA LDA M.toNat N.toNat
  | axpym _ M N _ _ _ _ B LDB INCB => SMatCell B INCB LDB M.toNat N.toNat
  | gemm blk bAddr aAddr _ _ _ M N _ _ _ _ _ _ _ C LDC => fun a =>
    MatCell C LDC M N a ∨ InBuf bAddr (4 * fixMod (blk.KC * blk.NC) 32) a ∨ InBuf aAddr (4 * fixMod (blk.KC * blk.MC) 32) a

/-- The cells of its outputs. -/
def Results : Call F → Int → Prop
  | gemm _ _ _ _ _ _ M N _ _ _ _ _ _ _ C LDC => MatCell C LDC M N
  | c => c.Outputs

/-- The cells of the work storage it allocates. -/
def Buffers : Call F → Int → Prop
  | gemm blk bAddr aAddr _ _ _ _ _ _ _ _ _ _ _ _ _ _ => fun a =>
    InBuf bAddr (4 * fixMod (blk.KC * blk.NC) 32) a ∨ InBuf aAddr (4 * fixMod (blk.KC * blk.MC) 32) a
  | _ => fun _ => False

/-- What is asked of the arguments themselves: no 32-bit overflow; for GEMM also usable block sizes and aligned
work arrays.  Nothing is asked of the places of the operands: they may overlap. -/
def Valid : Call F → Prop
  | dot _ _ _ INCX _ INCY => Fits32 (4 * INCX) ∧ Fits32 (4 * INCY)
  | gemm blk bAddr aAddr _ _ _ M N K _ _ LDA _ LDB _ _ LDC => Thr.GemmValid blk bAddr aAddr M N K LDA LDB LDC
  | _ => True

/-- The conditions under which the call alone is defined: valid arguments, accessible operands, and work arrays
that are fresh memory. -/
structure Ok (m : Mem F) (c : Call F) : Prop where
  valid : c.Valid
  acc : Accessible (fun a => c.Inputs a ∨ c.Results a) m
  fresh : ∀ a, c.Buffers a → m a = none

theorem thread_run (c : Call F) : c.thread.run = c.seq := by
  cases c with
  | copyv => exact Thr.run_copyvAVX ..
  | swapv => exact Thr.run_swapvAVX ..
  | scalv => exact Thr.run_scalvAVX ..
  | axpyv => exact Thr.run_axpyvAVX ..
  | dot => exact Thr.run_dotAVX ..
  | scalm => exact (Thr.run_scalm ..).trans (by simp only [Thr.run_scalvAVX, seq])
  | axpym => exact (Thr.run_axpym ..).trans (by simp only [Thr.run_axpyvAVX, seq])
  | gemm => exact Thr.run_gemmAVX ..

theorem outputs_iff (c : Call F) (a : Int) : c.Outputs a ↔ c.Results a ∨ c.Buffers a := by
  cases c with
  | gemm => exact Iff.rfl
  | _ => exact (or_iff_left (fun h : False => h)).symm

theorem thread_writes (c : Call F) (h : c.Valid) : Thr.Writes c.Outputs c.thread (fun _ => True) := by
  cases c with
  | copyv => exact Thr.copyv_writes ..
  | swapv => exact Thr.swapv_writes ..
  | scalv => exact Thr.scalv_writes ..
  | axpyv => exact Thr.axpyv_writes ..
  | dot => exact Thr.dot_writes ..
  | scalm => exact Thr.scalm_writes _ _ _ _ _ _ _ _ (fun X => Thr.scalv_writes ..)
  | axpym => exact Thr.axpym_writes _ _ _ _ _ _ _ _ _ _ _ (fun X Y => Thr.axpyv_writes ..)
  | gemm => exact Thr.gemm_writes h.mc_pos h.nc_pos h.kc_pos h.mc_even h.nc_even

/-- All routines but GEMM access memory that is there already, in their operands only. -/
theorem safe (c : Call F) (h : c.Valid) (hg : ∀ a, ¬ c.Buffers a) (hn : ∀ blk bA aA j tA tB M N K al A LA B LB be C LC,
      c ≠ .gemm blk bA aA j tA tB M N K al A LA B LB be C LC) :
    Thr.Safe (fun a => c.Inputs a ∨ c.Results a) c.Results c.thread (fun _ => True) := by
  cases c with
  | copyv => exact Thr.copyv_safe (fun _ => Or.inl) (fun _ => Or.inr) (fun _ h => h)
  | swapv => exact Thr.swapv_safe (fun _ h => Or.inr (Or.inl h)) (fun _ h => Or.inr (Or.inr h)) (fun _ => Or.inl) (fun _ => Or.inr)
  | scalv => exact Thr.scalv_safe (fun _ => Or.inr) (fun _ h => h)
  | axpyv => exact Thr.axpyv_safe (fun _ => Or.inl) (fun _ => Or.inr) (fun _ h => h)
  | dot => exact Thr.dot_safe h.1 h.2 (fun _ h => Or.inl (Or.inl h)) (fun _ h => Or.inl (Or.inr h))
  | scalm =>
    exact Thr.scalm_safe (fun X hX => Thr.scalv_safe (fun a ha => (hX a ha).1) (fun a ha => (hX a ha).2)) (fun a ha => ⟨Or.inr ha, ha⟩)
  | axpym =>
    exact Thr.axpym_safe (fun X Y hX hY => Thr.axpyv_safe hX (fun a ha => (hY a ha).1) (fun a ha => (hY a ha).2))
      (fun _ => Or.inl) (fun a ha => ⟨Or.inr ha, ha⟩)
  | gemm => exact (hn _ _ _ _ _ _ _ _ _ _ _ _ _ _ _ _ _ rfl).elim

/-- GEMM is its body between the allocation and the release of the work arrays. -/
theorem gemm_of_body {blk : Blk} {bAddr aAddr : Int} {junk : Int → F} {tA tB : Char} {M N K : Int} {ALPHA BETA : Scal F}
    {A LDA B LDB C LDC : Int} {m m1 : Mem F}
    (h : (Thr.scalm Thr.scalvAVX 'L' 'N' M N BETA C LDC 1 >>= fun _ => Thr.gemmJ blk tA tB M N K ALPHA A LDA B LDB C LDC aAddr bAddr).run
      (fun a => if aAddr ≤ a ∧ a < aAddr + 4 * fixMod (blk.KC * blk.MC) 32 then some (junk a)
        else if bAddr ≤ a ∧ a < bAddr + 4 * fixMod (blk.KC * blk.NC) 32 then some (junk a) else m a) = .ok ((), m1)) :
    gemmAVX blk bAddr aAddr junk tA tB M N K ALPHA A LDA B LDB BETA C LDC m = .ok ((), fun a =>
      if aAddr ≤ a ∧ a < aAddr + 4 * fixMod (blk.KC * blk.MC) 32 then none
      else if bAddr ≤ a ∧ a < bAddr + 4 * fixMod (blk.KC * blk.NC) 32 then none else m1 a) := by
  rw [Thr.run_bind_eq (Thr.run_scalm ..) (fun _ => Thr.run_gemmJ ..)] at h
  simp only [Thr.run_scalvAVX] at h
  have hw : wp (gemmAVX blk bAddr aAddr junk tA tB M N K ALPHA A LDA B LDB BETA C LDC) m (fun _ mf => mf = fun a =>
      if aAddr ≤ a ∧ a < aAddr + 4 * fixMod (blk.KC * blk.MC) 32 then none
      else if bAddr ≤ a ∧ a < bAddr + 4 * fixMod (blk.KC * blk.NC) 32 then none else m1 a) := by
    unfold gemmAVX
    rw [wp_bind, wp_allocQ, wp_bind, wp_allocQ, wp_bind]
    have hb := wp_bind.1 (show wp (_ >>= _) _ (fun _ mf => mf = m1) from ⟨_, _, h, rfl⟩)
    refine wp_mono hb fun _ x hx => ?_
    rw [wp_bind]
    refine wp_mono hx fun _ y hy => ?_
    subst hy
    rw [wp_bind, wp_freeQ, wp_freeQ]
  obtain ⟨_, _, h1, rfl⟩ := hw
  exact h1

/-- Two runs of the same call, from memories that agree on the call's storage. -/
theorem runs {m m2 : Mem F} {c : Call F} (h : c.Ok m) (hag : ∀ a, c.Inputs a ∨ c.Outputs a → m2 a = m a) :
    ∃ r mf mf2, c.seq m = .ok (r, mf) ∧ c.seq m2 = .ok (r, mf2) ∧ SameOutside c.Results m mf ∧ SameOutside c.Results m2 mf2 ∧
      ∀ a, c.Inputs a ∨ c.Outputs a → mf2 a = mf a := by
  by_cases hn : ∀ blk bA aA j tA tB M N K al A LA B LB be C LC, c ≠ .gemm blk bA aA j tA tB M N K al A LA B LB be C LC
  · have hb : ∀ a, ¬ c.Buffers a := by
      intro a
      cases c with
      | gemm => exact (hn _ _ _ _ _ _ _ _ _ _ _ _ _ _ _ _ _ rfl).elim
      | _ => exact id
    have ho : ∀ a, c.Outputs a ↔ c.Results a := fun a => by rw [outputs_iff]; exact or_iff_left (hb a)
    have hs := c.safe h.valid hb hn
    obtain ⟨r, mf, mf2, e1, e2, e3⟩ := hs.agree h.acc (fun a ha => hag a (by rw [ho]; exact ha))
    obtain ⟨_, _, f1, _⟩ := hs.foot h.acc
    cases e1.symm.trans f1.run
    obtain ⟨_, _, f2, _⟩ := hs.foot (m := m2) (fun a ha => by rw [hag a (by rw [ho]; exact ha)]; exact h.acc a ha)
    cases e2.symm.trans f2.run
    refine ⟨r, mf, mf2, by rw [← c.thread_run]; exact e1, by rw [← c.thread_run]; exact e2,
      fun a ha => Thr.run_frame f1.run fun hw => ha (f1.wrs a hw), fun a ha => Thr.run_frame f2.run fun hw => ha (f2.wrs a hw), ?_⟩
    intro a ha
    rw [ho] at ha
    exact e3 a ha
  · push Not at hn
    obtain ⟨blk, bA, aA, j, tA, tB, M, N, K, al, A, LA, B, LB, be, C, LC, rfl⟩ := hn
    obtain ⟨hv, hacc, hfr⟩ := h
    set S : Int → Prop := fun a => (Call.gemm blk bA aA j tA tB M N K al A LA B LB be C LC).Inputs a ∨ (Call.gemm blk bA aA j tA tB M N K al A LA B LB be C LC).Outputs a with hS
    set W := (Call.gemm blk bA aA j tA tB M N K al A LA B LB be C LC).Outputs with hW
    have hs := Thr.gemmBody_safe (S := S) (W := W) (tA := tA) (tB := tB) (ALPHA := al) (BETA := be) (A := A) (B := B) (C := C) hv
      (fun a ha => Or.inl (Or.inl ha)) (fun a ha => Or.inl (Or.inr ha)) (fun a ha => ⟨Or.inr (Or.inl ha), Or.inl ha⟩)
      (fun a ha => ⟨Or.inr (Or.inr (Or.inl ha)), Or.inr (Or.inl ha)⟩) (fun _ a ha => ⟨Or.inr (Or.inr (Or.inr ha)), Or.inr (Or.inr ha)⟩)
    set al1 : Mem F → Mem F := fun m a => if aA ≤ a ∧ a < aA + 4 * fixMod (blk.KC * blk.MC) 32 then some (j a)
        else if bA ≤ a ∧ a < bA + 4 * fixMod (blk.KC * blk.NC) 32 then some (j a) else m a with hal
    have hsome : ∀ a, S a → (al1 m a).isSome := by
      intro a ha
      rw [hal]
      dsimp only
      split
      · rfl
      · rename_i n1
        split
        · rfl
        · rename_i n2
          refine hacc a ?_
          rcases ha with ha | ha | ha | ha
          · exact Or.inl ha
          · exact Or.inr ha
          · exact absurd ha n2
          · exact absurd ha n1
    have hag1 : ∀ a, S a → al1 m2 a = al1 m a := by
      intro a ha
      rw [hal]
      dsimp only
      rw [hag a ha]
    obtain ⟨r, mf, mf2, e1, e2, e3⟩ := hs.agree hsome hag1
    obtain ⟨_, _, f1, _⟩ := hs.foot hsome
    cases e1.symm.trans f1.run
    obtain ⟨_, _, f2, _⟩ := hs.foot (m := al1 m2) (fun a ha => by rw [hag1 a ha]; exact hsome a ha)
    cases e2.symm.trans f2.run
    refine ⟨(), _, _, gemm_of_body e1, gemm_of_body e2, ?_, ?_, ?_⟩
    · intro a ha
      dsimp only
      split
      · rename_i n1; exact (hfr a (Or.inr n1)).symm
      · rename_i n1
        split
        · rename_i n2; exact (hfr a (Or.inl n2)).symm
        · rename_i n2
          rw [Thr.run_frame f1.run fun hw => by
            rcases f1.wrs a hw with h | h | h
            · exact ha h
            · exact n2 h
            · exact n1 h, hal]
          dsimp only
          rw [if_neg n1, if_neg n2]
    · intro a ha
      dsimp only
      split
      · rename_i n1; rw [hag a (Or.inr (Or.inr (Or.inr n1)))]; exact (hfr a (Or.inr n1)).symm
      · rename_i n1
        split
        · rename_i n2; rw [hag a (Or.inr (Or.inr (Or.inl n2)))]; exact (hfr a (Or.inl n2)).symm
        · rename_i n2
          rw [Thr.run_frame f2.run fun hw => by
            rcases f2.wrs a hw with h | h | h
            · exact ha h
            · exact n2 h
            · exact n1 h, hal]
          dsimp only
          rw [if_neg n1, if_neg n2]
    · intro a ha
      rw [e3 a ha]

/-- The conditions only speak of the call's own storage. -/
theorem ok_keep {m : Mem F} {c : Call F} (h : c.Ok m) : c.Ok (Thr.keep (fun a => c.Inputs a ∨ c.Outputs a) m) where
  valid := h.valid
  acc := fun a ha => by
    rw [Thr.keep_of (show c.Inputs a ∨ c.Outputs a by rw [outputs_iff]; tauto)]; exact h.acc a ha
  fresh := fun a ha => by
    by_cases hs : c.Inputs a ∨ c.Outputs a
    · rw [Thr.keep_of hs]; exact h.fresh a ha
    · exact Thr.keep_not hs

/-- Alone, the call does not fault. -/
theorem ok_runs {m : Mem F} {c : Call F} (h : c.Ok m) : wp c.seq m (fun _ _ => True) := by
  obtain ⟨r, mf, _, e, _⟩ := runs h (m2 := m) fun _ _ => rfl
  exact ⟨r, mf, e, trivial⟩

/-- Alone, the call accesses only its own storage and writes only its outputs and work storage. -/
theorem foot {m : Mem F} {c : Call F} (h : c.Ok m) :
    ∃ r mf, Thr.Foot c.thread m (fun a => c.Inputs a ∨ c.Outputs a) c.Outputs r mf :=
  Thr.foot_of_wp c.thread_run (ok_runs (ok_keep h)) (thread_writes c h.valid) (fun _ ha => Or.inr ha)

/-- The conditions of C22–C24 are more than enough. -/
theorem ok_of_gemmPre {m : Mem F} {blk : Blk} {bAddr aAddr : Int} {junk : Int → F} {tA tB : Char} {M N K : Nat} {ALPHA BETA : Scal F}
    {A LDA B LDB C LDC : Int} {Av Bv Cv : Nat → Nat → Quat F} (h : GemmPre m blk bAddr aAddr tA tB M N K A LDA Av B LDB Bv C LDC Cv) :
    (Call.gemm blk bAddr aAddr junk tA tB M N K ALPHA A LDA B LDB BETA C LDC).Ok m where
  valid := ⟨h.mc_pos, h.nc_pos, h.kc_pos, h.mc_even, h.nc_even, h.alignB, h.alignA, h.kc32, h.m32, h.n32, h.k32, h.ldc32, h.ldcN32, h.ldbN32,
    h.ldbK32, h.ldaM32, h.ldaK32⟩
  acc := by
    rintro a ((ha | ha) | ha)
    · exact matCell_isSome h.matA ha
    · exact matCell_isSome h.matB ha
    · exact matCell_isSome h.matC ha
  fresh := by
    rintro a (ha | ha)
    · exact h.freshB a ha
    · exact h.freshA a ha

end Call

/-- No call writes storage another one uses. -/
def Independent {ι : Type} (c : ι → Call F) : Prop :=
  ∀ i j, i ≠ j → Apart (c i).Outputs (fun a => (c j).Inputs a ∨ (c j).Outputs a)

/-- C49: concurrent calls.  Every schedule of the memory accesses of independent calls — any number of threads —
is free of faults and deadlocks, finishes after a bounded number of steps, and leaves the memory `mf` and the
return values `r` that the calls leave one after the other, in whatever order; each call does what it does alone. -/
theorem C49_calls {ι : Type} [Fintype ι] [DecidableEq ι] (c : ι → Call F) (m : Mem F) (hok : ∀ i, (c i).Ok m)
    (hind : Independent c) :
    ∃ (r : (i : ι) → (c i).Res) (mf : Mem F),
      (∀ i, ∃ mi, (c i).seq m = .ok (r i, mi) ∧ (∀ a, (c i).Outputs a → mf a = mi a)) ∧
      (∀ a, (∀ i, ¬ (c i).Outputs a) → mf a = m a) ∧
      (∀ l : List ι, l.Nodup → (∀ i, i ∈ l) → Thr.Serial (fun i => (c i).seq) r l m mf) ∧
      (∀ s, Thr.Steps (fun i => (c i).thread, m) s →
        ¬ Thr.Crash s ∧ (Thr.Done s r ∨ ∃ s', Thr.Step s s') ∧ ∀ x, Thr.Done s x → x = r ∧ s.2 = mf) ∧
      (∃ B : Nat, ∀ (n : Nat) (s : Nat → Thr.Pool F fun i => (c i).Res), s 0 = (fun i => (c i).thread, m) →
        (∀ k, k < n → Thr.Step (s k) (s (k+1))) → n ≤ B) := by
  choose r ms hf using fun i => Call.foot (hok i)
  have hr : Thr.RaceFree (fun i => (c i).thread) m := by
    intro i j hij a h1 h2
    exact hind i j hij a ((hf i).wrs a h1) ((hf j).accs a h2)
  obtain ⟨mf, h1, h2, h3, h4, h5⟩ := Thr.race_free (fun i => (hf i).run) hr
  refine ⟨r, mf, ?_, ?_, ?_, h4, h5⟩
  · intro i
    refine ⟨ms i, by rw [← (c i).thread_run]; exact (hf i).run, ?_⟩
    intro a ha
    by_cases hw : (c i).thread.wrs m a
    · exact h1 i a hw
    · have hnone : ∀ j, ¬ (c j).thread.wrs m a := by
        intro j hj
        by_cases e : j = i
        · subst e; exact hw hj
        · exact hind j i e a ((hf j).wrs a hj) (Or.inr ha)
      rw [h2 a hnone, Thr.run_frame (hf i).run hw]
  · intro a ha
    exact h2 a (fun i hi => ha i ((hf i).wrs a hi))
  · intro l hl hall
    have := h3 l hl hall
    simp only [Call.thread_run] at this
    exact this

section tiles
variable {F : Type} [Arith F] [ArithEq F]

/-- The cells of a block of op(X) are cells of X. -/
theorem matCell_block {t : Char} {P LD : Int} {R C r0 r c0 c : Nat} (hr : r0 + r ≤ R) (hc : c0 + c ≤ C) {a : Int}
    (h : MatCell (blockAt t P LD r0 c0) LD (if isT t then c else r) (if isT t then r else c) a) :
    MatCell P LD (if isT t then C else R) (if isT t then R else C) a := by
  obtain ⟨i, j, h1, h2, h3⟩ := h
  by_cases ht : isT t
  · rw [if_pos ht] at h1 h2
    rw [blockAt_T ht] at h3
    refine ⟨c0 + i, r0 + j, by rw [if_pos ht]; omega, by rw [if_pos ht]; omega, ?_⟩
    have : P + 4 * ((c0:Int) + r0 * LD) + 4 * (↑i + ↑j * LD) = P + 4 * (((c0 + i : Nat):Int) + ((r0 + j : Nat):Int) * LD) := by
      push_cast; ring
    rwa [this] at h3
  · rw [if_neg ht] at h1 h2
    rw [blockAt_N ht] at h3
    refine ⟨r0 + i, c0 + j, by rw [if_neg ht]; omega, by rw [if_neg ht]; omega, ?_⟩
    have : P + 4 * ((r0:Int) + c0 * LD) + 4 * (↑i + ↑j * LD) = P + 4 * (((r0 + i : Nat):Int) + ((c0 + j : Nat):Int) * LD) := by
      push_cast; ring
    rwa [this] at h3

/-- The work storage of a GEMM call. -/
def Work (blk : Blk) (bAddr aAddr : Int) (a : Int) : Prop :=
  InBuf bAddr (4 * fixMod (blk.KC * blk.NC) 32) a ∨ InBuf aAddr (4 * fixMod (blk.KC * blk.MC) 32) a

/-- The call `gemmTile` stands for. -/
def tileCall (blk : Blk) (bAddr aAddr : Int) (junk : Int → F) (tA tB : Char) (K : Nat) (ALPHA : Scal F)
    (A LDA B LDB : Int) (BETA : Scal F) (C LDC : Int) (t : Tile) : Call F :=
  .gemm blk bAddr aAddr junk tA tB t.rows t.cols K ALPHA (blockAt tA A LDA t.i0 (0 : Nat)) LDA
    (blockAt tB B LDB (0 : Nat) t.j0) LDB BETA (C + 4 * (t.i0 + t.j0 * LDC)) LDC

/-- C49, one GEMM on several threads: C is cut into blocks such that every entry lies in exactly one of them,
and each thread calls GEMM on its block, with its own work arrays.  Under every schedule no thread faults, all of
them finish, and the memory they leave is bit for bit the memory of one call on the whole of C. -/
theorem C49_gemm_tiles {ι : Type} [Fintype ι] [DecidableEq ι] (m : Mem F) (blk : Blk) (bAddr aAddr : Int) (junk : Int → F)
    (tA tB : Char) (M N K : Nat) (ALPHA BETA : Scal F) (A LDA B LDB C LDC : Int) (Av Bv Cv : Nat → Nat → Quat F)
    (h : GemmPre m blk bAddr aAddr tA tB M N K A LDA Av B LDB Bv C LDC Cv)
    (tile : ι → Tile) (tb ta : ι → Int) (tj : ι → Int → F)
    (hbuf : ∀ i, GemmPre m blk (tb i) (ta i) tA tB M N K A LDA Av B LDB Bv C LDC Cv)
    (hown : ∀ i j, i ≠ j → Apart (Work blk (tb i) (ta i)) (Work blk (tb j) (ta j)))
    (hin : ∀ i, (tile i).i0 + (tile i).rows ≤ M ∧ (tile i).j0 + (tile i).cols ≤ N)
    (hpart : ∀ p q, p < M → q < N → ∃ i, (tile i).has p q = true ∧ ∀ j, (tile j).has p q = true → j = i) :
    ∃ m', gemmAVX blk bAddr aAddr junk tA tB M N K ALPHA A LDA B LDB BETA C LDC m = .ok ((), m') ∧
      ∀ th : ι → Thr.Prog F Unit,
        (∀ i, th i = Thr.gemmAVX blk (tb i) (ta i) (tj i) tA tB (tile i).rows (tile i).cols K ALPHA
          (blockAt tA A LDA (tile i).i0 (0 : Nat)) LDA (blockAt tB B LDB (0 : Nat) (tile i).j0) LDB BETA
          (C + 4 * ((tile i).i0 + (tile i).j0 * LDC)) LDC) →
        (∀ s, Thr.Steps (th, m) s →
          ¬ Thr.Crash s ∧ (Thr.Done s (fun _ => ()) ∨ ∃ s', Thr.Step s s') ∧ ∀ x, Thr.Done s x → s.2 = m') ∧
        (∃ n : Nat, ∀ (k : Nat) (s : Nat → Thr.Pool F fun _ : ι => Unit), s 0 = (th, m) →
          (∀ i, i < k → Thr.Step (s i) (s (i+1))) → k ≤ n) := by
  obtain ⟨_, m1, e1, v1, s1⟩ := gemmAVX_wp (junk := junk) (ALPHA := ALPHA) (BETA := BETA) h
  refine ⟨m1, e1, ?_⟩
  intro th hth
  obtain rfl : th = fun i => (tileCall blk (tb i) (ta i) (tj i) tA tB K ALPHA A LDA B LDB BETA C LDC (tile i)).thread := funext hth
  have eC : ∀ (i : ι) (p q : Nat), C + 4 * (((tile i).i0:Int) + (tile i).j0 * LDC) + 4 * (↑p + ↑q * LDC)
      = C + 4 * ((((tile i).i0 + p : Nat):Int) + (((tile i).j0 + q : Nat):Int) * LDC) := by
    intros; push_cast; ring
  have ldc : (M:Int) ≤ LDC := h.ldc
  -- cells of a block of C
  have cellC : ∀ i a, MatCell (C + 4 * ((tile i).i0 + (tile i).j0 * LDC)) LDC (tile i).rows (tile i).cols a →
      ∃ p q, p < M ∧ q < N ∧ (tile i).has p q = true ∧ InQ (C + 4 * ((p:Int) + q * LDC)) a := by
    rintro i a ⟨p, q, h1, h2, h3⟩
    rw [eC] at h3
    have := hin i
    exact ⟨_, _, by omega, by omega, decide_eq_true (by omega), h3⟩
  have cellC' : ∀ i a, MatCell (C + 4 * ((tile i).i0 + (tile i).j0 * LDC)) LDC (tile i).rows (tile i).cols a → MatCell C LDC M N a := by
    intro i a ha
    obtain ⟨p, q, h1, h2, _, h3⟩ := cellC i a ha
    exact ⟨p, q, h1, h2, h3⟩
  have mapped : ∀ (P LD : Int) (r c : Nat) (v : Nat → Nat → Quat F) (a : Int), MatAt m P LD r c v → MatCell P LD r c a → m a ≠ none := by
    intro P LD r c v a hv ha hn
    have := matCell_isSome hv ha
    rw [hn] at this
    cases this
  have workNone : ∀ i a, Work blk (tb i) (ta i) a → m a = none := by
    rintro i a (hw | hw)
    · exact (hbuf i).freshB a hw
    · exact (hbuf i).freshA a hw
  have hok : ∀ i, (tileCall blk (tb i) (ta i) (tj i) tA tB K ALPHA A LDA B LDB BETA C LDC (tile i)).Ok m := by
    intro i
    exact Call.ok_of_gemmPre ((hbuf i).block (m' := m) (fun _ _ => rfl) h.matC (hin i).1 (hin i).2 (k0 := 0) (K' := K) (by omega))
  have hind : Independent (fun i => tileCall blk (tb i) (ta i) (tj i) tA tB K ALPHA A LDA B LDB BETA C LDC (tile i)) := by
    intro i j hij a h1 h2
    have h1 : MatCell (C + 4 * ((tile i).i0 + (tile i).j0 * LDC)) LDC (tile i).rows (tile i).cols a ∨ Work blk (tb i) (ta i) a := h1
    have h2 : (MatCell (blockAt tA A LDA (tile j).i0 (0 : Nat)) LDA (if isT tA then K else (tile j).rows) (if isT tA then (tile j).rows else K) a ∨
        MatCell (blockAt tB B LDB (0 : Nat) (tile j).j0) LDB (if isT tB then (tile j).cols else K) (if isT tB then K else (tile j).cols) a) ∨
        (MatCell (C + 4 * ((tile j).i0 + (tile j).j0 * LDC)) LDC (tile j).rows (tile j).cols a ∨ Work blk (tb j) (ta j) a) := h2
    have hA := fun x => matCell_block (t := tA) (P := A) (LD := LDA) (R := M) (C := K) (hin j).1 (show 0 + K ≤ K by omega) (a := a) x
    have hB := fun x => matCell_block (t := tB) (P := B) (LD := LDB) (R := K) (C := N) (show 0 + K ≤ K by omega) (hin j).2 (a := a) x
    rcases h1 with h1 | h1
    · rcases h2 with (h2 | h2) | h2 | h2
      · exact h.apartA a (hA h2) (cellC' i a h1)
      · exact h.apartB a (hB h2) (cellC' i a h1)
      · obtain ⟨p, q, hp, hq, t1, c1⟩ := cellC i a h1
        obtain ⟨p', q', hp', hq', t2, c2⟩ := cellC j a h2
        by_cases e : p = p' ∧ q = q'
        · obtain ⟨rfl, rfl⟩ := e
          obtain ⟨k, _, hk⟩ := hpart p q hp hq
          exact hij ((hk i t1).trans (hk j t2).symm)
        · exact (mat_disj (r := M) (by exact_mod_cast ldc) hp hp' e).cell c1 c2
      · exact mapped _ _ _ _ _ a h.matC (cellC' i a h1) (workNone j a h2)
    · rcases h2 with (h2 | h2) | h2 | h2
      · exact mapped _ _ _ _ _ a h.matA (hA h2) (workNone i a h1)
      · exact mapped _ _ _ _ _ a h.matB (hB h2) (workNone i a h1)
      · exact mapped _ _ _ _ _ a h.matC (cellC' j a h2) (workNone i a h1)
      · exact hown i j hij a h1 h2
  obtain ⟨r, mf, h1, h2, h3, h4, h5⟩ := C49_calls _ m hok hind
  have hmf : mf = m1 := by
    have hout : ∀ i a, (tileCall blk (tb i) (ta i) (tj i) tA tB K ALPHA A LDA B LDB BETA C LDC (tile i)).Outputs a ↔
      (MatCell (C + 4 * ((tile i).i0 + (tile i).j0 * LDC)) LDC (tile i).rows (tile i).cols a ∨ Work blk (tb i) (ta i) a) := fun _ _ => Iff.rfl
    refine mem_ext_mat (m := m) (C := C) (LDC := LDC) (r := M) (c := N) ?_ v1 ?_ s1
    · intro p q hp hq
      obtain ⟨i, ti, _⟩ := hpart p q hp hq
      obtain ⟨mi, ei, wi⟩ := h1 i
      obtain ⟨_, m2, e2, v2, _⟩ := gemmTile_wp (junk := tj i) (ALPHA := ALPHA) (BETA := BETA) (hbuf i) (m' := m) (fun _ _ => rfl) h.matC (hin i).1 (hin i).2
      have e : mi = m2 := by
        have : Except.ok (r i, mi) = Except.ok ((), m2) := ei.symm.trans e2
        injection this with this
        injection this
      subst e
      have w := v2 p q hp hq
      dsimp only at w
      rw [if_pos ti] at w
      rw [← w]
      refine readQ_congr fun a ha => ?_
      refine wi a ((hout i a).2 (Or.inl ?_))
      have ti' := of_decide_eq_true ti
      refine ⟨p - (tile i).i0, q - (tile i).j0, by omega, by omega, ?_⟩
      rw [eC]
      rwa [show (tile i).i0 + (p - (tile i).i0) = p by omega, show (tile i).j0 + (q - (tile i).j0) = q by omega]
    · intro a ha
      by_cases hw : ∃ i, Work blk (tb i) (ta i) a
      · obtain ⟨i, hw⟩ := hw
        obtain ⟨mi, ei, wi⟩ := h1 i
        obtain ⟨_, m2, e2, _, s2⟩ := gemmTile_wp (junk := tj i) (ALPHA := ALPHA) (BETA := BETA) (hbuf i) (m' := m) (fun _ _ => rfl) h.matC (hin i).1 (hin i).2
        have e : mi = m2 := by
          have : Except.ok (r i, mi) = Except.ok ((), m2) := ei.symm.trans e2
          injection this with this
          injection this
        subst e
        rw [wi a ((hout i a).2 (Or.inr hw)), s2 a ha]
      · refine h2 a fun i hi => ?_
        rcases (hout i a).1 hi with hi | hi
        · exact ha (cellC' i a hi)
        · exact hw ⟨i, hi⟩
  subst hmf
  refine ⟨fun s hs => ?_, h5⟩
  obtain ⟨g1, g2, g3⟩ := h4 s hs
  exact ⟨g1, g2, fun x hx => (g3 x hx).2⟩

end tiles

section witness

/-- Run a schedule: the list says which thread makes the next access. -/
def exec {F : Type} {ι : Type} [DecidableEq ι] {α : ι → Type} : List ι → Thr.Pool F α → Option (Thr.Pool F α)
  | [], s => some s
  | i :: l, s => match (s.1 i).next s.2 with
    | some (.ok (T, m')) => exec l (Function.update s.1 i T, m')
    | _ => none

theorem exec_steps {F : Type} {ι : Type} [DecidableEq ι] {α : ι → Type} (l : List ι) (s s' : Thr.Pool F α)
    (h : exec l s = some s') : Thr.Steps s s' := by
  induction l generalizing s with
  | nil => unfold exec at h; injection h with h; subst h; exact .refl
  | cons i l ih =>
    unfold exec at h
    split at h
    · rename_i T m' e
      exact .head ⟨i, T, m', e, rfl⟩ (ih _ h)
    · cases h

/-- Two threads copy different quaternions to the same place. -/
def raceThreads (b : Bool) : Thr.Prog Int Unit := Thr.copyvAVX 1 (if b then 4 else 0) 1 8 1

/-- Both threads read; the first one writes two components, the second one all four, the first one the rest. -/
def raceSchedule : List Bool :=
  [false, false, false, false, true, true, true, true, false, false, true, true, true, true, false, false]

/-- The independence of the calls is needed: when two threads write the same quaternion there is a schedule
after which it is neither thread's value (nor what any serial order of the two calls leaves there). -/
theorem C49_race_witness :
    ∃ s, Thr.Steps (raceThreads, memOf 0 12 (fun a => a)) s ∧ Thr.Done s (fun _ => ()) ∧
      readQ s.2 8 = some ⟨4, 5, 2, 3⟩ ∧
      (∀ b m', Thr.Serial (fun b => (raceThreads b).run) (fun _ => ()) [b, !b] (memOf 0 12 (fun a => a)) m' →
        readQ m' 8 = if b then some ⟨0, 1, 2, 3⟩ else some ⟨4, 5, 6, 7⟩) := by
  have h : ∃ s, exec raceSchedule (raceThreads, memOf 0 12 (fun a => a)) = some s ∧ s.1 false = .ret () ∧ s.1 true = .ret () ∧
      readQ s.2 8 = some ⟨4, 5, 2, 3⟩ := ⟨_, rfl, rfl, rfl, rfl⟩
  obtain ⟨s, h1, h2, h3, h4⟩ := h
  refine ⟨s, exec_steps _ _ _ h1, fun b => by cases b <;> assumption, h4, ?_⟩
  have key : ∀ b : Bool, ∃ m1 m2 : Mem Int, (raceThreads b).run (memOf 0 12 (fun a => a)) = .ok ((), m1) ∧ (raceThreads (!b)).run m1 = .ok ((), m2) ∧
      readQ m2 8 = if b then some ⟨0, 1, 2, 3⟩ else some ⟨4, 5, 6, 7⟩ := by
    intro b
    cases b
    · exact ⟨_, _, rfl, rfl, rfl⟩
    · exact ⟨_, _, rfl, rfl, rfl⟩
  intro b m' hs
  obtain ⟨m1, m2, e1, e2, e3⟩ := key b
  cases hs with
  | cons g1 hs =>
    cases hs with
    | cons g2 hs =>
      cases hs with
      | nil =>
        cases e1.symm.trans g1
        cases e2.symm.trans g2
        exact e3

/-- Three calls at the same time: a GEMM, the scaling of two quaternions behind its C, and a dot product of the
first entries of its A. -/
def threeCalls {F : Type} (al be : Scal F) (junk : Int → F) (i : Fin 3) : Call F :=
  if i = 0 then .gemm ⟨64, 512, 64⟩ 1000 200000 junk 'C' 'N' 3 1 2 al 0 2 24 2 be 33 4
  else if i = 1 then .scalv 'R' 2 al 48 2
  else .dot true 2 0 1 4 1

/-- Non-vacuity: they meet the hypotheses of `C49_calls`. -/
theorem threeCalls_ok {F : Type} [Arith F] [ArithEq F] (al be : Scal F) (junk f : Int → F) :
    (∀ i, (threeCalls al be junk i).Ok (memOf 0 64 f)) ∧ Independent (threeCalls al be junk) := by
  have acc : ∀ (X INC : Int), 0 ≤ X → 0 ≤ INC → X + 4 * INC + 3 < 64 → ∀ a, VecCell X INC (2 : Int).toNat a → (memOf 0 64 f a).isSome := by
    rintro X INC h0 h1 h2 a ⟨i, hi, g1, g2⟩
    have hi' : i < 2 := hi
    unfold memOf
    rw [if_pos (by interval_cases i <;> push_cast at g1 g2 <;> omega)]
    rfl
  have c0 : threeCalls al be junk 0 = .gemm ⟨64, 512, 64⟩ 1000 200000 junk 'C' 'N' 3 1 2 al 0 2 24 2 be 33 4 := rfl
  have c1 : threeCalls al be junk 1 = .scalv 'R' 2 al 48 2 := rfl
  have c2 : threeCalls al be junk 2 = .dot true 2 0 1 4 1 := rfl
  constructor
  · intro i
    fin_cases i
    · exact Call.ok_of_gemmPre (gemmPre_example' f)
    · refine ⟨trivial, ?_, fun _ h => h.elim⟩
      rintro a (h | h)
      · exact h.elim
      · exact acc 48 2 (by decide) (by decide) (by decide) a h
    · refine ⟨⟨by unfold Fits32; decide, by unfold Fits32; decide⟩, ?_, fun _ h => h.elim⟩
      rintro a ((h | h) | h)
      · exact acc 0 1 (by decide) (by decide) (by decide) a h
      · exact acc 4 1 (by decide) (by decide) (by decide) a h
      · exact h.elim
  · have vec : ∀ (X INC a : Int), VecCell X INC (2 : Int).toNat a → (X ≤ a ∧ a < X + 4) ∨ (X + 4 * INC ≤ a ∧ a < X + 4 * INC + 4) := by
      rintro X INC a ⟨i, hi, h1, h2⟩
      have hi' : i < 2 := hi
      interval_cases i <;> push_cast at h1 h2 <;> omega
    have matC : ∀ a, MatCell 33 4 3 1 a → 33 ≤ a ∧ a < 45 := by
      rintro a ⟨i, j, hi, hj, h1, h2⟩
      obtain rfl : j = 0 := by omega
      constructor <;> push_cast at h1 h2 <;> omega
    have matA : ∀ a, MatCell 0 2 (if isT 'C' then 2 else 3) (if isT 'C' then 3 else 2) a → 0 ≤ a ∧ a < 24 := by
      rintro a ⟨i, j, hi, hj, h1, h2⟩
      have hi' : i < 2 := hi
      have hj' : j < 3 := hj
      constructor <;> omega
    have matB : ∀ a, MatCell 24 2 (if isT 'N' then 1 else 2) (if isT 'N' then 2 else 1) a → 24 ≤ a ∧ a < 32 := by
      rintro a ⟨i, j, hi, hj, h1, h2⟩
      have hi' : i < 2 := hi
      have hj' : j < 1 := hj
      constructor <;> omega
    have buf : ∀ p n a : Int, InBuf p n a → p ≤ a := fun p n a h => h.1
    have o0 : ∀ a, (threeCalls al be junk 0).Outputs a → (33 ≤ a ∧ a < 45) ∨ 1000 ≤ a := by
      rintro a (h | h | h)
      · exact Or.inl (matC a h)
      · exact Or.inr (buf _ _ _ h)
      · exact Or.inr (by have := buf _ _ _ h; omega)
    have i0 : ∀ a, (threeCalls al be junk 0).Inputs a → (0 ≤ a ∧ a < 32) := by
      rintro a (h | h)
      · have := matA a h; omega
      · have := matB a h; omega
    have o1 : ∀ a, (threeCalls al be junk 1).Outputs a → (48 ≤ a ∧ a < 60) := by
      intro a h
      have := vec 48 2 a h; omega
    have i1 : ∀ a, ¬ (threeCalls al be junk 1).Inputs a := fun a h => h
    have o2 : ∀ a, ¬ (threeCalls al be junk 2).Outputs a := fun a h => h
    have i2 : ∀ a, (threeCalls al be junk 2).Inputs a → (0 ≤ a ∧ a < 12) := by
      rintro a (h | h)
      · have := vec 0 1 a h; omega
      · have := vec 4 1 a h; omega
    intro i j hij a h1 h2
    fin_cases i <;> fin_cases j <;> simp only [Fin.zero_eta, Fin.mk_one, Fin.reduceFinMk] at h1 h2 hij
    · exact hij rfl
    · have := o0 a h1
      rcases h2 with h2 | h2
      · exact i1 a h2
      · have := o1 a h2; omega
    · have := o0 a h1
      rcases h2 with h2 | h2
      · have := i2 a h2; omega
      · exact o2 a h2
    · have := o1 a h1
      rcases h2 with h2 | h2
      · have := i0 a h2; omega
      · have := o0 a h2; omega
    · exact hij rfl
    · have := o1 a h1
      rcases h2 with h2 | h2
      · have := i2 a h2; omega
      · exact o2 a h2
    · exact o2 a h1
    · exact o2 a h1
    · exact o2 a h1

/-- The example call of C22–C24, with other work arrays. -/
theorem gemmPre_example_at {F : Type} [Arith F] (f : Int → F) {b a : Int} (hb : aligned32 b = true) (ha : aligned32 a = true)
    (h1 : 64 ≤ b) (h2 : b + 200000 ≤ a) :
    GemmPre (memOf 0 64 f) ⟨64, 512, 64⟩ b a 'C' 'N' 3 1 2
      0 2 (fun i j => let p : Int := 0 + 4 * (i + j * 2); ⟨f p, f (p+1), f (p+2), f (p+3)⟩)
      24 2 (fun i j => let p : Int := 24 + 4 * (i + j * 2); ⟨f p, f (p+1), f (p+2), f (p+3)⟩)
      33 4 (fun i j => let p : Int := 33 + 4 * (i + j * 4); ⟨f p, f (p+1), f (p+2), f (p+3)⟩) :=
  { gemmPre_example' f with
    alignB := hb
    alignA := ha
    freshB := fun c hc => by
      have : b ≤ c := hc.1
      exact if_neg (by omega)
    freshA := fun c hc => by
      have : a ≤ c := hc.1
      exact if_neg (by omega)
    freshAB := fun c hc hd => by
      have e : fixMod (64 * 512) 32 = 32768 := by decide
      have h3 : c < b + 4 * fixMod (64 * 512) 32 := hc.2
      have : a ≤ c := hd.1
      rw [e] at h3
      omega }

/-- Non-vacuity of `C49_gemm_tiles`: the example call cut into its first two rows and its last row, each with its
own work arrays. -/
theorem gemmTiles_example {F : Type} [Arith F] (f : Int → F) :
    (∀ i : Bool, GemmPre (memOf 0 64 f) ⟨64, 512, 64⟩ (if i then 1000 else 1000000) (if i then 400000 else 1400000) 'C' 'N' 3 1 2
      0 2 (fun i j => let p : Int := 0 + 4 * (i + j * 2); ⟨f p, f (p+1), f (p+2), f (p+3)⟩)
      24 2 (fun i j => let p : Int := 24 + 4 * (i + j * 2); ⟨f p, f (p+1), f (p+2), f (p+3)⟩)
      33 4 (fun i j => let p : Int := 33 + 4 * (i + j * 4); ⟨f p, f (p+1), f (p+2), f (p+3)⟩)) ∧
    (∀ i j : Bool, i ≠ j → Apart (Work ⟨64, 512, 64⟩ (if i then 1000 else 1000000) (if i then 400000 else 1400000))
      (Work ⟨64, 512, 64⟩ (if j then 1000 else 1000000) (if j then 400000 else 1400000))) ∧
    (∀ p q, p < 3 → q < 1 → ∃ i : Bool, (if i then (⟨0, 2, 0, 1⟩ : Tile) else ⟨2, 1, 0, 1⟩).has p q = true ∧
      ∀ j : Bool, (if j then (⟨0, 2, 0, 1⟩ : Tile) else ⟨2, 1, 0, 1⟩).has p q = true → j = i) := by
  refine ⟨?_, ?_, ?_⟩
  · intro i
    cases i
    · exact gemmPre_example_at f (by decide) (by decide) (by decide) (by decide)
    · exact gemmPre_example_at f (by decide) (by decide) (by decide) (by decide)
  · have e1 : fixMod (64 * 512) 32 = 32768 := by decide
    have e2 : fixMod (64 * 64) 32 = 4096 := by decide
    intro i j hij a h1 h2
    unfold Work InBuf at h1 h2
    dsimp only at h1 h2
    rw [e1, e2] at h1 h2
    cases i <;> cases j <;> simp only [if_true, Bool.false_eq_true, if_false] at h1 h2 hij <;> first | exact hij rfl | omega
  · intro p q hp hq
    interval_cases p <;> interval_cases q <;> decide

end witness

end Haxx
