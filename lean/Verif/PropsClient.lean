import Verif.SpecClient
import Verif.PropsProgram2
import Mathlib.Data.Matrix.Mul
import Mathlib.Algebra.Order.Ring.Rat

/-!
# C70: programs that decide as they go

C54 is about lists of calls fixed in advance.  Here the next call may depend on everything returned and read before — loops,
convergence tests, pivoting — and the program may run for ever: the statements are about its first `n` steps, for every `n`.
-/

set_option linter.unusedSectionVars false

namespace Haxx
open Quaternion Finset

section
variable {σ ι R : Type} [CommRing R] [DecidableEq ι]

/-- The first `n` steps of the program, with a build of the library and the matrices in memory.  Looking at an entry and
setting one are the loads and stores of the user's own code. -/
def Client.exec (L : Layout ι) (l : Lib R) (p : Client σ ι R) : Nat → σ → Prog R σ
  | 0, t => pure t
  | n+1, t => match p t with
    | .stop => pure t
    | .call c k => do
        let r ← c.exec L l
        p.exec L l n (k (r.map Quat.toH))
    | .look v i j k => do
        let x ← loadQ (L.addr v i j)
        p.exec L l n (k x.toH)
    | .set v i j x t' => do
        storeQ (L.addr v i j) (Quat.ofH x)
        p.exec L l n t'

theorem State.setAt_eq (s : State ι R) (v : ι) (i j : Nat) (x : ℍ[R]) :
    s.setAt v i j x = s.setBlock ⟨v, i, j, 1, 1⟩ (fun _ _ => x) := by
  funext v' i' j'
  unfold State.setAt State.setBlock Block.Mem
  dsimp only
  congr 1
  simp only [eq_iff_iff]
  constructor
  · rintro ⟨rfl, rfl, rfl⟩; exact ⟨rfl, by omega, by omega, by omega, by omega⟩
  · rintro ⟨rfl, _, _, _, _⟩; exact ⟨rfl, by omega, by omega⟩

theorem bind_eq_ok {F α β : Type} {P : Prog F α} {f : α → Prog F β} {m m' : Mem F} {b : β} (h : (P >>= f) m = .ok (b, m')) :
    ∃ a m1, P m = .ok (a, m1) ∧ f a m1 = .ok (b, m') := by
  cases e : P m with
  | error x => rw [bind_error e] at h; cases h
  | ok r => exact ⟨r.1, r.2, rfl, by rw [bind_ok e] at h; exact h⟩

theorem map_toH_ofH (l : List ℍ[R]) : (l.map Quat.ofH).map Quat.toH = l := by
  rw [List.map_map, show (Quat.toH ∘ Quat.ofH : ℍ[R] → ℍ[R]) = id from rfl, List.map_id]

variable {L : Layout ι} {q : Quirks R} {Inv : Mem R → Prop} {l : Lib R}

/-- Any build that gets single calls right. -/
theorem Lawful.client (hl : Lawful q Inv l) (hL : L.Ok) (p : Client σ ι R) (n : Nat) {t : σ} {m : Mem R} {s : State ι R}
    (hh : L.Holds m s) (hi : Inv m) (hp : p.Safe (fun s c => c.Sup q L s) L n t s) :
    ∃ m', p.exec L l n t m = .ok ((p.spec n t s).1, m') ∧ L.Holds m' (p.spec n t s).2 ∧ SameOutside L.All m m' := by
  induction n generalizing t m s with
  | zero => exact ⟨m, rfl, hh, fun _ _ => rfl⟩
  | succ n ih =>
    unfold Client.exec Client.spec
    unfold Client.Safe at hp
    cases hpt : p t with
    | stop => exact ⟨m, rfl, hh, fun _ _ => rfl⟩
    | call c k =>
      rw [hpt] at hp
      obtain ⟨ht, hs, hp⟩ := hp
      obtain ⟨m1, h1, h2, h3⟩ := hl.step hL c hh hi ht hs
      obtain ⟨m', g1, g2, g3⟩ := ih h2 (hl.inv m m1 hi (hh.acc h2 h3)) hp
      refine ⟨m', ?_, g2, fun a ha => (g3 a ha).trans (h3 a ha)⟩
      dsimp only
      rw [bind_ok h1, map_toH_ofH]
      exact g1
    | look v i j k =>
      rw [hpt] at hp
      obtain ⟨⟨hi', hj'⟩, hp⟩ := hp
      obtain ⟨m', g1, g2, g3⟩ := ih hh hi hp
      refine ⟨m', ?_, g2, g3⟩
      dsimp only
      have hr : loadQ (L.addr v i j) m = .ok (Quat.ofH (s v i j), m) := by
        obtain ⟨r, m1, e1, e2, e3⟩ := id ((wp_loadQ (Q := fun r m1 => r = Quat.ofH (s v i j) ∧ m1 = m) (hh.read hi' hj')).2 ⟨rfl, rfl⟩)
        rw [e1, e2, e3]
      rw [bind_ok hr]
      exact g1
    | set v i j x t' =>
      rw [hpt] at hp
      obtain ⟨⟨hi', hj'⟩, hp⟩ := hp
      have hb : L.BlockIn ⟨v, i, j, 1, 1⟩ := ⟨by simpa using hi', by simpa using hj'⟩
      obtain ⟨m1, h1, h2, h3⟩ : ∃ m1, storeQ (L.addr v i j) (Quat.ofH x) m = .ok ((), m1) ∧ L.Holds m1 (s.setAt v i j x) ∧
          SameOutside (MatCell (L.blockPtr ⟨v, i, j, 1, 1⟩) (L.ld v) 1 1) m m1 := by
        obtain ⟨_, m1, e1, e2⟩ := id ((wp_storeQ (q := Quat.ofH x) (Q := fun _ m1 => m1 = writeQ m (L.addr v i j) (Quat.ofH x)) (hh.read hi' hj')).2 rfl)
        subst e2
        have so : SameOutside (MatCell (L.blockPtr ⟨v, i, j, 1, 1⟩) (L.ld v) 1 1) m (writeQ m (L.addr v i j) (Quat.ofH x)) := by
          intro a ha
          refine writeQ_other ?_
          intro hq
          exact ha ⟨0, 0, by omega, by omega, by simpa [Layout.blockPtr] using hq⟩
        refine ⟨_, e1, ?_, so⟩
        rw [State.setAt_eq]
        refine hL.holds_block hb hh (fun i' j' h1 h2 => ?_) so
        obtain rfl : i' = 0 := by have : i' < 1 := h1; omega
        obtain rfl : j' = 0 := by have : j' < 1 := h2; omega
        simpa [Layout.blockPtr] using readQ_writeQ_same m _ _
      have h3' : SameOutside L.All m m1 := fun a ha => h3 a (fun hc => ha (Layout.block_all hb hc))
      obtain ⟨m', g1, g2, g3⟩ := ih h2 (hl.inv m m1 hi (hh.acc h2 h3')) hp
      refine ⟨m', ?_, g2, fun a ha => (g3 a ha).trans (h3' a ha)⟩
      dsimp only
      rw [bind_ok h1]
      exact g1

end

section
variable {σ ι R : Type} [CommRing R] [DecidableEq ι] [DecidableEq R]

/-- C70 for the shipped build: after any number of steps of any program the program's own variables are those of the exact
computation (so it has taken the same decisions), the matrices hold the exact values, nothing else in memory has changed,
and no step has failed. -/
theorem C70_simd {blk : Blk} {bAddr aAddr : Int} (hb : BufOk blk bAddr aAddr) (junk : Int → R) (L : Layout ι) (hL : L.Ok)
    (p : Client σ ι R) (n : Nat) (t : σ) (m : Mem R) (s : State ι R) (hm : L.Holds m s) (hfree : BufFree blk bAddr aAddr m)
    (hp : p.Safe (fun s c => c.Sup (simdQuirks blk) L s) L n t s) :
    ∃ m', p.exec L (simdLib blk bAddr aAddr junk) n t m = .ok ((p.spec n t s).1, m') ∧ L.Holds m' (p.spec n t s).2 ∧
      SameOutside L.All m m' :=
  (simd_lawful hb junk).client hL p n hm hfree hp

/-- C70 for the Fortran reference. -/
theorem C70_fortran (L : Layout ι) (hL : L.Ok) (p : Client σ ι R) (n : Nat) (t : σ) (m : Mem R) (s : State ι R)
    (hm : L.Holds m s) (hp : p.Safe (fun s c => c.Sup fortranQuirks L s) L n t s) :
    ∃ m', p.exec L fortranLib n t m = .ok ((p.spec n t s).1, m') ∧ L.Holds m' (p.spec n t s).2 ∧ SameOutside L.All m m' :=
  fortran_lawful.client hL p n hm trivial hp

/-- C70 for the portable templates. -/
theorem C70_portable (L : Layout ι) (hL : L.Ok) (p : Client σ ι R) (n : Nat) (t : σ) (m : Mem R) (s : State ι R)
    (hm : L.Holds m s) (hp : p.Safe (fun s c => c.Sup portableQuirks L s) L n t s) :
    ∃ m', p.exec L portableLib n t m = .ok ((p.spec n t s).1, m') ∧ L.Holds m' (p.spec n t s).2 ∧ SameOutside L.All m m' :=
  portable_lawful.client hL p n hm trivial hp

/-- C70: with any two choices of block sizes, buffers and storage of the matrices, the program takes the same decisions. -/
theorem C70_layout_independent {blk blk' : Blk} {bAddr aAddr bAddr' aAddr' : Int} (hb : BufOk blk bAddr aAddr)
    (hb' : BufOk blk' bAddr' aAddr') (junk junk' : Int → R) (L L' : Layout ι) (hL : L.Ok) (hL' : L'.Ok)
    (p : Client σ ι R) (n : Nat) (t : σ) (m m' : Mem R) (s : State ι R) (hm : L.Holds m s) (hm' : L'.Holds m' s)
    (hf : BufFree blk bAddr aAddr m) (hf' : BufFree blk' bAddr' aAddr' m')
    (hp : p.Safe (fun s c => c.Sup (simdQuirks blk) L s) L n t s)
    (hp' : p.Safe (fun s c => c.Sup (simdQuirks blk') L' s) L' n t s) :
    ∃ t' m1 m1', p.exec L (simdLib blk bAddr aAddr junk) n t m = .ok (t', m1) ∧
      p.exec L' (simdLib blk' bAddr' aAddr' junk') n t m' = .ok (t', m1') ∧ ∃ s', L.Holds m1 s' ∧ L'.Holds m1' s' := by
  obtain ⟨m1, a1, b1, _⟩ := C70_simd hb junk L hL p n t m s hm hf hp
  obtain ⟨m2, a2, b2, _⟩ := C70_simd hb' junk' L' hL' p n t m' s hm' hf' hp'
  exact ⟨_, _, _, a1, a2, _, b1, b2⟩

/-- C70: the three builds take the program through the same states and leave the same memory. -/
theorem C70_builds_agree {blk : Blk} {bAddr aAddr : Int} (hb : BufOk blk bAddr aAddr) (junk : Int → R) (L : Layout ι)
    (hL : L.Ok) (p : Client σ ι R) (n : Nat) (t : σ) (m : Mem R) (s : State ι R) (hm : L.Holds m s)
    (hfree : BufFree blk bAddr aAddr m) (h1 : p.Safe (fun s c => c.Sup (simdQuirks blk) L s) L n t s)
    (h2 : p.Safe (fun s c => c.Sup fortranQuirks L s) L n t s) (h3 : p.Safe (fun s c => c.Sup portableQuirks L s) L n t s) :
    ∃ r, p.exec L (simdLib blk bAddr aAddr junk) n t m = .ok r ∧ p.exec L fortranLib n t m = .ok r ∧
      p.exec L portableLib n t m = .ok r := by
  obtain ⟨m1, a1, b1, c1⟩ := C70_simd hb junk L hL p n t m s hm hfree h1
  obtain ⟨m2, a2, b2, c2⟩ := C70_fortran L hL p n t m s hm h2
  obtain ⟨m3, a3, b3, c3⟩ := C70_portable L hL p n t m s hm h3
  rw [Layout.mem_ext b2 b1 c2 c1] at a2
  rw [Layout.mem_ext b3 b1 c3 c1] at a3
  exact ⟨_, a1, a2, a3⟩

/-- A program that has stopped stays as it is: running it longer changes nothing, in any build. -/
theorem C70_stopped (L : Layout ι) (l : Lib R) (p : Client σ ι R) (n k : Nat) (t t' : σ) (m m' : Mem R)
    (h : p.exec L l n t m = .ok (t', m')) (hs : p t' = .stop) : p.exec L l (n + k) t m = .ok (t', m') := by
  induction n generalizing t m with
  | zero =>
    obtain ⟨rfl, rfl⟩ : t = t' ∧ m = m' := by
      have : (Except.ok (t, m) : Except Fault (σ × Mem R)) = .ok (t', m') := h
      simpa using this
    cases k with
    | zero => exact h
    | succ k =>
      rw [Nat.zero_add]; unfold Client.exec; rw [hs]; rfl
  | succ n ih =>
    rw [show n + 1 + k = (n + k) + 1 from by omega]
    unfold Client.exec at h ⊢
    cases hp : p t with
    | stop => rw [hp] at h; exact h
    | call c k' =>
      rw [hp] at h
      dsimp only at h ⊢
      obtain ⟨r, m1, e1, e2⟩ := bind_eq_ok h
      rw [bind_ok e1]; exact ih _ _ e2
    | look v i j k' =>
      rw [hp] at h
      dsimp only at h ⊢
      obtain ⟨r, m1, e1, e2⟩ := bind_eq_ok h
      rw [bind_ok e1]; exact ih _ _ e2
    | set v i j x t'' =>
      rw [hp] at h
      dsimp only at h ⊢
      obtain ⟨r, m1, e1, e2⟩ := bind_eq_ok h
      rw [bind_ok e1]; exact ih _ _ e2
end

/-! ## The library as it is linked -/

section
variable {σ ι R : Type} [CommRing R] [DecidableEq ι] [DecidableEq R]

/-- One of the four GEMM objects of `src/hblas/cxx/hblas3/Gemm.cmake:1-12` exists for these scalar types. -/
def vecGemm : Scal R → Scal R → Bool
  | .h _, _ => false
  | _, .h _ => false
  | _, _ => true

/-- `HBLAS_GEMM` of the vectorised build: real and complex scalars go to `gemm.cxx` (`src/hblas/cxx/hblas3/Gemm.cmake:1-12`), a
quaternion ALPHA or BETA to the Fortran routines (`src/hblas/hblas3.cxx.in:40-61`, where the other four are commented out). -/
def linkedGemm (blk : Blk) (bAddr aAddr : Int) (junk : Int → R) (TRANSA TRANSB : Char) (M N K : Int) (ALPHA : Scal R)
    (A LDA B LDB : Int) (BETA : Scal R) (C LDC : Int) : Prog R Unit :=
  if vecGemm ALPHA BETA then gemmAVX blk bAddr aAddr junk TRANSA TRANSB M N K ALPHA A LDA B LDB BETA C LDC
  else hgemmF TRANSA TRANSB M N K ALPHA A LDA B LDB BETA C LDC

/-- The vectorised build, linked: `simdLib` with this GEMM (`src/hblas/CMakeLists.txt`). -/
def linkedLib (blk : Blk) (bAddr aAddr : Int) (junk : Int → R) : Lib R :=
  { simdLib blk bAddr aAddr junk with gemm := linkedGemm blk bAddr aAddr junk }

/-- As `simdQuirks`; the Fortran GEMM has no restriction. -/
def linkedQuirks (blk : Blk) : Quirks R :=
  { simdQuirks blk with
    gemm := fun tA tB M N K a b LDA LDB LDC => vecGemm a b = true → (simdQuirks blk).gemm tA tB M N K a b LDA LDB LDC }

theorem linked_lawful {blk : Blk} {bAddr aAddr : Int} (hb : BufOk blk bAddr aAddr) (junk : Int → R) :
    Lawful (R := R) (linkedQuirks blk) (BufFree blk bAddr aAddr) (linkedLib blk bAddr aAddr junk) :=
  have S := simd_lawful hb junk
  { inv := S.inv, copyv := S.copyv, swapv := S.swapv, scalv := S.scalv, axpyv := S.axpyv, dot := S.dot, scalm := S.scalm,
    axpym := S.axpym, gemv := S.gemv, ger := S.ger
    gemm := by
      intro m tA tB M N K rA cA rB cB a b A LDA B LDB C LDC Av Bv Cv h1 h2 h3 h4 h5 h6 h7 h8 h9 h10 h11 h12 h13 h14 hq hi hA hB hC d1 d2
      show ∃ m', linkedGemm blk bAddr aAddr junk tA.char tB.char M N K a A LDA B LDB b C LDC m = .ok ((), m') ∧ _
      unfold linkedGemm
      by_cases hv : vecGemm a b = true
      · rw [if_pos hv]
        exact S.gemm m tA tB M N K rA cA rB cB a b A LDA B LDB C LDC Av Bv Cv h1 h2 h3 h4 h5 h6 h7 h8 h9 h10 h11 h12 h13 h14 (hq hv) hi
          hA hB hC d1 d2
      · rw [if_neg hv]
        exact fortran_lawful.gemm m tA tB M N K rA cA rB cB a b A LDA B LDB C LDC Av Bv Cv h1 h2 h3 h4 h5 h6 h7 h8 h9 h10 h11 h12 h13
          h14 trivial trivial hA hB hC d1 d2 }

/-- C54 for the vectorised build as it is linked. -/
theorem C54_linked {blk : Blk} {bAddr aAddr : Int} (hb : BufOk blk bAddr aAddr) (junk : Int → R) (L : Layout ι) (hL : L.Ok)
    (cs : List (Cmd ι R)) (m : Mem R) (s : State ι R) (hm : L.Holds m s) (hfree : BufFree blk bAddr aAddr m)
    (hp : Program (linkedQuirks blk) L cs s) :
    ∃ m', execAll L (linkedLib blk bAddr aAddr junk) cs m = .ok ((runSpec cs s).2.map Quat.ofH, m') ∧
      L.Holds m' (runSpec cs s).1 ∧ SameOutside L.All m m' :=
  (linked_lawful hb junk).run hL cs hm hfree hp

/-- C70 for the vectorised build as it is linked. -/
theorem C70_linked {blk : Blk} {bAddr aAddr : Int} (hb : BufOk blk bAddr aAddr) (junk : Int → R) (L : Layout ι) (hL : L.Ok)
    (p : Client σ ι R) (n : Nat) (t : σ) (m : Mem R) (s : State ι R) (hm : L.Holds m s) (hfree : BufFree blk bAddr aAddr m)
    (hp : p.Safe (fun s c => c.Sup (linkedQuirks blk) L s) L n t s) :
    ∃ m', p.exec L (linkedLib blk bAddr aAddr junk) n t m = .ok ((p.spec n t s).1, m') ∧ L.Holds m' (p.spec n t s).2 ∧
      SameOutside L.All m m' :=
  (linked_lawful hb junk).client hL p n hm hfree hp

end

/-! ## Two programs -/

section
variable {R : Type} [CommRing R] [DecidableEq R]

/-- Powers of a matrix: matrices 1 and 2 take turns in receiving matrix 0 times the other one; the program counts the
products and stops after `K`. -/
def powers (d K : Nat) : Client Nat (Fin 3) R := fun t =>
  if t < K then
    .call (.gemm .none .none (.d 1) ⟨0, 0, 0, d, d⟩ ⟨if t % 2 = 0 then 1 else 2, 0, 0, d, d⟩ (.d 0)
      ⟨if t % 2 = 0 then 2 else 1, 0, 0, d, d⟩) (fun _ => t + 1)
  else .stop

/-- The top left `d × d` part of a matrix. -/
def State.mat {ι : Type} (s : State ι R) (d : Nat) (v : ι) : Matrix (Fin d) (Fin d) ℍ[R] := fun i j => s v i j

theorem powers_spec (d K : Nat) (n t : Nat) (s : State (Fin 3) R) (A B : Matrix (Fin d) (Fin d) ℍ[R])
    (hA : s.mat d 0 = A) (hB : s.mat d (if t % 2 = 0 then 1 else 2) = A ^ t * B) (ht : t + n = K) :
    ((powers d K).spec n t s).1 = K ∧ ((powers d K).spec n t s).2.mat d 0 = A ∧
      ((powers d K).spec n t s).2.mat d (if K % 2 = 0 then 1 else 2) = A ^ K * B := by
  induction n generalizing t s with
  | zero =>
    obtain rfl : t = K := by omega
    exact ⟨rfl, hA, hB⟩
  | succ n ih =>
    unfold Client.spec
    have e : powers (R := R) d K t = .call (.gemm .none .none (.d 1) ⟨0, 0, 0, d, d⟩ ⟨if t % 2 = 0 then 1 else 2, 0, 0, d, d⟩
      (.d 0) ⟨if t % 2 = 0 then 2 else 1, 0, 0, d, d⟩) (fun _ => t + 1) := if_pos (by omega)
    rw [e]
    refine ih (t + 1) _ ?_ ?_ (by omega)
    · rw [← hA]
      funext i j
      simp only [State.mat, Cmd.next, State.setBlock]
      refine if_neg ?_
      rintro ⟨h, _⟩
      dsimp only at h
      split at h <;> exact absurd h (by decide)
    · have hv : (if (t + 1) % 2 = 0 then (1 : Fin 3) else 2) = if t % 2 = 0 then 2 else 1 := by
        split <;> split <;> first | rfl | omega
      rw [hv, pow_succ', mul_assoc, ← hB, ← hA]
      funext i j
      simp only [State.mat, Cmd.next, State.setBlock]
      refine (if_pos ⟨rfl, Nat.zero_le _, by have := i.2; dsimp only; omega, Nat.zero_le _, by have := j.2; dsimp only; omega⟩).trans ?_
      simp only [Matrix.mul_apply, State.mat, Scal.toH, Op.app, Block.val, Op.cols]
      rw [Finset.sum_range]
      simp

theorem powers_safe (q : Quirks R) (L : Layout (Fin 3)) (d K : Nat) (hd : ∀ v, L.rows v = d ∧ L.cols v = d)
    (hq : ∀ u v w : Fin 3, q.gemm .none .none d d d (.d 1) (.d 0) (L.ld u) (L.ld v) (L.ld w)) (n t : Nat) (s : State (Fin 3) R) :
    (powers d K).Safe (fun s c => c.Sup q L s) L n t s := by
  induction n generalizing t s with
  | zero => trivial
  | succ n ih =>
    unfold Client.Safe powers
    by_cases h : t < K
    · rw [if_pos h]
      have hb : ∀ v, L.BlockIn ⟨v, 0, 0, d, d⟩ := fun v => ⟨by simp [(hd v).1], by simp [(hd v).2]⟩
      refine ⟨⟨hb _, hb _, hb _, rfl, rfl, rfl, ?_, ?_⟩, hq _ _ _, ih _ _⟩
      · rintro v i j ⟨e, _⟩ ⟨e', _⟩
        rw [e] at e'; dsimp only at e'
        split at e' <;> exact absurd e' (by decide)
      · rintro v i j ⟨e, _⟩ ⟨e', _⟩
        rw [e] at e'; dsimp only at e'
        split at e' <;> exact absurd e' (by decide)
    · rw [if_neg h]; trivial

/-- C70 at work: a loop of `K` calls of the shipped GEMM, `K` any number, computes `A ^ K * B` — for every size, storage and
blocking. -/
theorem C70_powers {blk : Blk} {bAddr aAddr : Int} (hb : BufOk blk bAddr aAddr) (junk : Int → R) (L : Layout (Fin 3)) (hL : L.Ok)
    (d K : Nat) (hd : ∀ v, L.rows v = d ∧ L.cols v = d) (m : Mem R) (s : State (Fin 3) R) (hm : L.Holds m s)
    (hfree : BufFree blk bAddr aAddr m) :
    ∃ m' s', (powers d K).exec L (simdLib blk bAddr aAddr junk) K 0 m = .ok (K, m') ∧ L.Holds m' s' ∧
      s'.mat d (if K % 2 = 0 then 1 else 2) = s.mat d 0 ^ K * s.mat d 1 ∧ s'.mat d 0 = s.mat d 0 ∧ SameOutside L.All m m' := by
  have fit : ∀ (v : Fin 3) (x : Int), 0 ≤ x → x ≤ d → Fits32 (x * L.ld v) := by
    intro v x h0 hx
    have h1 := hL.small v
    rw [(hd v).2] at h1
    have h2 := (hL.ld v).1
    have h3 : x * L.ld v ≤ d * L.ld v := Int.mul_le_mul_of_nonneg_right hx (by omega)
    have h4 : 0 ≤ x * L.ld v := Int.mul_nonneg h0 (by omega)
    have h5 : L.ld v * ((d:Int) + 1) = d * L.ld v + L.ld v := by ring
    unfold Fits32
    constructor <;> omega
  obtain ⟨n1, n2, _⟩ := hb.nc
  obtain ⟨n3, n4, _⟩ := hb.mc
  obtain ⟨n5, n6⟩ := hb.kc
  have safe := powers_safe (R := R) (simdQuirks blk) L d K hd (fun u v w =>
    ⟨fit _ _ (by omega) (by omega), fit _ _ (by omega) (by omega), fit _ _ (by omega) (by omega), fit _ _ (by omega) (by omega)⟩) K 0 s
  obtain ⟨m', h1, h2, h3⟩ := C70_simd hb junk L hL (powers d K) K 0 m s hm hfree safe
  obtain ⟨e1, e2, e3⟩ := powers_spec d K K 0 s _ (s.mat d 1) rfl (by simp) (by omega)
  rw [e1] at h1
  exact ⟨m', _, h1, h2, e3, e2, h3⟩
end

section
variable {R : Type} [Field R] [LinearOrder R] [IsStrictOrderedRing R]

/-- One Gram-Schmidt step on columns `x`, `y` of a matrix (lines in general): two inner products, a division by the user's own
code, an update `y := y + x a` with `a = - ⟨x,x⟩⁻¹ ⟨x,y⟩`, and once more ⟨x,y⟩, for a test.  The scalar the update is called
with is not known before the inner products are. -/
inductive GS (R : Type) [CommRing R]
  | start
  | haveXX (xx : ℍ[R])
  | haveA (a : ℍ[R])
  | updated
  | done (xy : ℍ[R])

def gramSchmidt {ι : Type} (x y : Line ι) : Client (GS R) ι R
  | .start => .call (.dot true x x) (fun r => .haveXX (r.headD 0))
  | .haveXX xx => .call (.dot true x y) (fun r => .haveA (- (xx⁻¹ * r.headD 0)))
  | .haveA a => .call (.axpy .right (.h (Quat.ofH a)) x y) (fun _ => .updated)
  | .updated => .call (.dot true x y) (fun r => .done (r.headD 0))
  | .done _ => .stop

theorem Line.val_setLine {ι : Type} [DecidableEq ι] (s : State ι R) (x y : Line ι) (f : Nat → ℍ[R]) (h : LineLine x y) (k : Nat)
    (hk : k < x.n) : x.val (s.setLine y f) k = x.val s k := by
  unfold Line.val
  rcases State.setLine_at (s := s) (x := y) (f := f) (v := x.v) (i := x.r + k * x.dr) (j := x.c + k * x.dc) with
    ⟨k', hk', hat, _⟩ | ⟨_, e⟩
  · exact absurd ⟨k', hk', hat⟩ (h _ _ _ ⟨k, hk, rfl, rfl, rfl⟩)
  · exact e

theorem Line.val_setLine_self {ι : Type} [DecidableEq ι] (s : State ι R) (y : Line ι) (f : Nat → ℍ[R]) (h : 0 < y.dr + y.dc) (k : Nat)
    (hk : k < y.n) : y.val (s.setLine y f) k = f k := by
  unfold Line.val
  rcases State.setLine_at (s := s) (x := y) (f := f) (v := y.v) (i := y.r + k * y.dr) (j := y.c + k * y.dc) with
    ⟨k', hk', ⟨_, e1, e2⟩, e⟩ | ⟨hm, _⟩
  · rw [e]
    congr 1
    have a1 : k * y.dr = k' * y.dr := by omega
    have a2 : k * y.dc = k' * y.dc := by omega
    rcases Nat.eq_zero_or_pos y.dr with h0 | h0
    · exact (Nat.eq_of_mul_eq_mul_right (by omega) a2).symm
    · exact (Nat.eq_of_mul_eq_mul_right h0 a1).symm
  · exact absurd ⟨k, hk, rfl, rfl, rfl⟩ hm

/-- C70 at work: after the step the program finds the inner product 0 — with the shipped build, for every length, storage and
pair of lines, as long as `⟨x,x⟩ ≠ 0`. -/
theorem C70_gram_schmidt {ι : Type} [DecidableEq ι] {blk : Blk} {bAddr aAddr : Int} (hb : BufOk blk bAddr aAddr) (junk : Int → R)
    (L : Layout ι) (hL : L.Ok) (x y : Line ι) (hx : L.LineIn x) (hy : L.LineIn y) (hn : x.n = y.n) (hxy : LineLine x y)
    (m : Mem R) (s : State ι R) (hm : L.Holds m s) (hfree : BufFree blk bAddr aAddr m)
    (h0 : ∑ k ∈ range x.n, star (x.val s k) * x.val s k ≠ 0) :
    ∃ m', (gramSchmidt x y).exec L (simdLib blk bAddr aAddr junk) 4 .start m = .ok (.done 0, m') ∧ SameOutside L.All m m' := by
  have safe : (gramSchmidt x y).Safe (fun s c => c.Sup (simdQuirks blk) L s) L 4 .start s :=
    ⟨⟨hx, hx, rfl⟩, trivial, ⟨hx, hy, hn⟩, trivial, ⟨hx, hy, hn, hxy⟩, trivial, ⟨hx, hy, hn⟩, trivial, trivial⟩
  obtain ⟨m', h1, _, h3⟩ := C70_simd hb junk L hL (gramSchmidt x y) 4 .start m s hm hfree safe
  refine ⟨m', ?_, h3⟩
  rw [h1]
  congr 2
  show GS.done (∑ k ∈ range x.n, star (x.val (State.setLine s y _) k) * y.val (State.setLine s y _) k) = _
  congr 1
  have e : ∀ k ∈ range x.n, star (x.val (State.setLine s y (fun k => y.val s k + Side.right.mul (Quat.toH (Quat.ofH
      (-((∑ k ∈ range x.n, star (x.val s k) * x.val s k)⁻¹ * ∑ k ∈ range x.n, star (x.val s k) * y.val s k)))) (x.val s k))) k) *
      y.val (State.setLine s y (fun k => y.val s k + Side.right.mul (Quat.toH (Quat.ofH
      (-((∑ k ∈ range x.n, star (x.val s k) * x.val s k)⁻¹ * ∑ k ∈ range x.n, star (x.val s k) * y.val s k)))) (x.val s k))) k =
      star (x.val s k) * y.val s k + star (x.val s k) * x.val s k *
        (-((∑ k ∈ range x.n, star (x.val s k) * x.val s k)⁻¹ * ∑ k ∈ range x.n, star (x.val s k) * y.val s k)) := by
    intro k hk
    have hk' : k < x.n := by simpa using hk
    rw [Line.val_setLine s x y _ hxy k hk', Line.val_setLine_self s y _ hy.step k (by omega), mul_add, mul_assoc]
    rfl
  refine (Finset.sum_congr rfl e).trans ?_
  rw [Finset.sum_add_distrib, ← Finset.sum_mul, mul_neg, ← mul_assoc, mul_inv_cancel₀ h0, one_mul, add_neg_cancel]
end

/-! ## Non-vacuity -/

theorem exFree {R : Type} (f : Int → R) : BufFree ⟨64, 512, 64⟩ 1000 200000 (memOf 0 400 f) := by
  intro a ha
  have e1 : fixMod ((64:Int) * 64) 32 = 4096 := by decide
  have e2 : fixMod ((64:Int) * 512) 32 = 32768 := by decide
  simp only [InBuf] at ha
  unfold memOf
  rw [if_neg (by omega)]

/-- Seven products of 2 × 2 matrices with leading dimension 3. -/
example : ∃ m' s', (powers 2 7).exec exLayout (simdLib ⟨64, 512, 64⟩ 1000 200000 (fun _ => 0)) 7 0 (memOf 0 400 (fun a => a)) = .ok (7, m') ∧
    exLayout.Holds m' s' ∧ s'.mat 2 2 = exState.mat 2 0 ^ 7 * exState.mat 2 1 := by
  obtain ⟨m', s', h1, h2, h3, _⟩ := C70_powers exBuf (fun _ => 0) exLayout exLayout_ok 2 7 (fun _ => ⟨rfl, rfl⟩) _ exState exHolds (exFree _)
  exact ⟨m', s', h1, h2, h3⟩

/-- A call of the linked library with a quaternion BETA (so of the Fortran routine). -/
example : ∃ r, execAll exLayout (linkedLib ⟨64, 512, 64⟩ 1000 200000 (fun _ => 0))
    [.gemm .conjTrans .none (.z ⟨1, 1⟩) ⟨0, 0, 0, 2, 2⟩ ⟨1, 0, 0, 2, 2⟩ (.h ⟨1, 2, 3, 4⟩) ⟨2, 0, 0, 2, 2⟩]
    (memOf 0 400 (fun a => a)) = .ok r := by
  have blk : ∀ v, exLayout.BlockIn ⟨v, 0, 0, 2, 2⟩ := fun v => ⟨by simp [exLayout], by simp [exLayout]⟩
  obtain ⟨m', h, _⟩ := C54_linked exBuf (fun _ => 0) exLayout exLayout_ok
    [.gemm .conjTrans .none (.z ⟨1, 1⟩) ⟨0, 0, 0, 2, 2⟩ ⟨1, 0, 0, 2, 2⟩ (.h ⟨1, 2, 3, 4⟩) ⟨2, 0, 0, 2, 2⟩] _ exState exHolds (exFree _)
    ⟨⟨blk _, blk _, blk _, rfl, rfl, rfl, by
        rintro v i j ⟨e, _⟩ ⟨e', _⟩
        rw [e] at e'; exact absurd e' (by decide), by
        rintro v i j ⟨e, _⟩ ⟨e', _⟩
        rw [e] at e'; exact absurd e' (by decide)⟩, (fun h => by cases h), trivial⟩
  exact ⟨_, h⟩

/-- A program that never stops: it keeps adding 1 to an entry it looks at, so its decisions depend on memory. -/
def counting : Client (Option ℍ[Int]) (Fin 3) Int
  | none => .look 1 0 1 some
  | some x => .set 1 0 1 (x + 1) none

theorem counting_safe (q : Quirks Int) (n : Nat) (t : Option ℍ[Int]) (s : State (Fin 3) Int) :
    counting.Safe (fun s c => c.Sup q exLayout s) exLayout n t s := by
  induction n generalizing t s with
  | zero => trivial
  | succ n ih =>
    unfold Client.Safe counting
    cases t
    · exact ⟨⟨by decide, by decide⟩, ih _ _⟩
    · exact ⟨⟨by decide, by decide⟩, ih _ _⟩

example (n : Nat) : ∃ r, counting.exec exLayout (simdLib ⟨64, 512, 64⟩ 1000 200000 (fun _ => 0)) n none (memOf 0 400 (fun a => a)) = .ok r ∧
    counting.exec exLayout fortranLib n none (memOf 0 400 (fun a => a)) = .ok r ∧
    counting.exec exLayout portableLib n none (memOf 0 400 (fun a => a)) = .ok r :=
  C70_builds_agree exBuf _ exLayout exLayout_ok counting n none _ exState exHolds (exFree _) (counting_safe _ _ _ _)
    (counting_safe _ _ _ _) (counting_safe _ _ _ _)

/-- Rows 0 and 1 of matrix 0, rational entries. -/
example : ∃ m', (gramSchmidt ⟨(0 : Fin 3), 0, 0, 0, 1, 2⟩ ⟨0, 1, 0, 0, 1, 2⟩).exec exLayout (simdLib ⟨64, 512, 64⟩ 1000 200000 (fun _ => 0)) 4 .start
    (memOf 0 400 (fun a => (a : ℚ))) = .ok (.done 0, m') := by
  let s : State (Fin 3) ℚ := fun v i j =>
    let p : Int := 100 * v.val + 4 * (i + j * 3)
    ⟨p, (p+1 : Int), (p+2 : Int), (p+3 : Int)⟩
  have hs : exLayout.Holds (memOf 0 400 (fun a => (a : ℚ))) s := by
    intro v i j hi hj
    have h1 : i < 2 := hi
    have h2 : j < 2 := hj
    have := v.isLt
    exact readQ_memOf (p := 100 * v.val + 4 * (i + j * 3)) (by omega) (by omega)
  obtain ⟨m', h, _⟩ := C70_gram_schmidt exBuf (fun _ => (0 : ℚ)) exLayout exLayout_ok ⟨(0 : Fin 3), 0, 0, 0, 1, 2⟩ ⟨0, 1, 0, 0, 1, 2⟩
    (exLine _ _ _ _ _ (by omega) (by omega) (by omega) (by omega) (by omega))
    (exLine _ _ _ _ _ (by omega) (by omega) (by omega) (by omega) (by omega)) rfl
    (by
      rintro v i j ⟨k, _, _, e, _⟩ ⟨k', _, _, e', _⟩
      dsimp only at e e'; omega) _ s hs (exFree _)
    (by
      intro h
      have := congrArg (fun q : ℍ[ℚ] => q.re) h
      simp only [Finset.sum_range_succ, Finset.sum_range_zero, Line.val, s] at this
      erw [QuaternionAlgebra.star_mk, QuaternionAlgebra.star_mk, QuaternionAlgebra.mk_mul_mk, QuaternionAlgebra.mk_mul_mk] at this
      norm_num at this
      have e : ((0 : ℚ) + 14) + 734 = 0 := this
      norm_num at e)
  exact ⟨m', h⟩

end Haxx
