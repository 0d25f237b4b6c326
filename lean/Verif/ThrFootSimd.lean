import Verif.ThrFoot
import Verif.ThrSimd
import Verif.GemmTop

/-!
# Threads: which cells the SIMD routines write

For arbitrary contents of memory, even when the operands overlap or are not accessible.
-/

set_option linter.unusedSectionVars false

namespace Haxx.Thr
open Arith

section
variable {F : Type}

theorem writes_loadM {W : Int → Prop} {al : Bool} {p : Int} {Q : Quat F → Prop} (h : ∀ v, Q v) : Writes W (loadM al p) Q :=
  writes_ite (fun _ => writes_loadA h) (fun _ => writes_loadQ h)

theorem writes_storeM {W : Int → Prop} {al : Bool} {p : Int} {q : Quat F} {Q : Unit → Prop} (h : ∀ a, InQ p a → W a) (hq : Q ()) :
    Writes W (storeM al p q) Q :=
  writes_ite (fun _ => writes_storeA h hq) (fun _ => writes_storeQ h hq)

theorem step_ptr (X INC : Int) (i : Nat) : X + 4 * ((i:Int) * INC) + 4 * INC = X + 4 * (((i+1 : Nat):Int) * INC) := by
  push_cast; ring

theorem copyv_writes (N X INCX Y INCY : Int) :
    Writes (VecCell Y INCY N.toNat) (copyvAVX N X INCX Y INCY : Prog F Unit) (fun _ => True) := by
  have key : ∀ al, Writes (VecCell Y INCY N.toNat) (foldN N.toNat (fun _ loc => copyBody al INCX INCY loc) (X, Y) : Prog F _)
      (fun _ => True) := by
    intro al
    refine (writes_foldN (fun i s => s.2 = Y + 4 * ((i:Int) * INCY)) (by simp) ?_).mono (fun _ _ => trivial)
    intro i s hi hs
    refine writes_bind (writes_loadM fun v => writes_bind (writes_storeM (fun a ha => ⟨i, hi, hs ▸ ha⟩) (writes_pure ?_)))
    dsimp only; rw [hs, step_ptr]
  exact writes_ite (fun _ => writes_bind ((key true).mono fun _ _ => trivial))
    (fun _ => writes_bind ((key false).mono fun _ _ => trivial))

theorem swapv_writes (N X INCX Y INCY : Int) :
    Writes (fun a => VecCell X INCX N.toNat a ∨ VecCell Y INCY N.toNat a) (swapvAVX N X INCX Y INCY : Prog F Unit) (fun _ => True) := by
  have key : ∀ al, Writes (fun a => VecCell X INCX N.toNat a ∨ VecCell Y INCY N.toNat a)
      (foldN N.toNat (fun _ loc => swapBody al INCX INCY loc) (X, Y) : Prog F _) (fun _ => True) := by
    intro al
    refine (writes_foldN (fun i s => s.1 = X + 4 * ((i:Int) * INCX) ∧ s.2 = Y + 4 * ((i:Int) * INCY)) (by simp) ?_).mono (fun _ _ => trivial)
    intro i s hi hs
    refine writes_bind (writes_loadM fun v => writes_bind (writes_loadM fun w => writes_bind (writes_storeM
      (fun a ha => Or.inr ⟨i, hi, hs.2 ▸ ha⟩) (writes_bind (writes_storeM (fun a ha => Or.inl ⟨i, hi, hs.1 ▸ ha⟩) (writes_pure ?_))))))
    dsimp only; rw [hs.1, hs.2, step_ptr, step_ptr]; exact ⟨rfl, rfl⟩
  exact writes_ite (fun _ => writes_bind ((key true).mono fun _ _ => trivial))
    (fun _ => writes_bind ((key false).mono fun _ _ => trivial))

variable [Arith F]

theorem scalv_writes (SIDE : Char) (N : Int) (ALPHA : Scal F) (X INCX : Int) :
    Writes (VecCell X INCX N.toNat) (scalvAVX SIDE N ALPHA X INCX) (fun _ => True) := by
  refine writes_bind ((writes_foldN (fun i s => s = X + 4 * ((i:Int) * INCX)) (by simp) ?_).mono (fun _ _ => trivial))
  intro i s hi hs
  refine writes_bind (writes_loadM fun v => writes_bind (writes_storeM (fun a ha => ⟨i, hi, hs ▸ ha⟩) (writes_pure ?_)))
  rw [hs, step_ptr]

theorem axpyv_writes (SIDE : Char) (N : Int) (ALPHA : Scal F) (X INCX Y INCY : Int) :
    Writes (VecCell Y INCY N.toNat) (axpyvAVX SIDE N ALPHA X INCX Y INCY) (fun _ => True) := by
  refine writes_bind ((writes_foldN (fun i s => s.2 = Y + 4 * ((i:Int) * INCY)) (by simp) ?_).mono (fun _ _ => trivial))
  intro i s hi hs
  refine writes_bind (writes_loadM fun v => writes_bind (writes_loadM fun w => writes_bind (writes_storeM (fun a ha => ⟨i, hi, hs ▸ ha⟩) (writes_pure ?_))))
  dsimp only; rw [hs, step_ptr]

theorem dot_writes (conj : Bool) (N X INCX Y INCY : Int) :
    Writes (fun _ => False) (dotAVX conj N X INCX Y INCY : Prog F (Quat F)) (fun _ => True) := by
  refine writes_bind ((writes_foldN (fun _ _ => True) trivial ?_).mono fun s _ => ?_)
  · intro i s _ _
    unfold dotBatch
    repeat first | exact trivial | refine writes_bind (writes_i32 ?_) | refine writes_bind (writes_loadM fun _ => ?_)
  · refine (writes_foldN (fun _ _ => True) trivial ?_).mono fun _ _ => trivial
    intro i r _ _
    unfold dotClean
    repeat first | refine writes_bind (writes_i32 ?_) | refine writes_bind (writes_loadM fun _ => ?_)
    exact writes_ite (fun _ => trivial) (fun _ => trivial)

theorem scalm_writes {SCALV : Char → Int → Scal F → Int → Int → Prog F Unit} (SIDE TRANSA : Char) (M N : Int) (ALPHA : Scal F)
    (A LDA INCA : Int) (h : ∀ X, Writes (VecCell X INCA M.toNat) (SCALV SIDE M ALPHA X INCA) (fun _ => True)) :
    Writes (SMatCell A INCA LDA M.toNat N.toNat) (scalm SCALV SIDE TRANSA M N ALPHA A LDA INCA) (fun _ => True) := by
  refine writes_ite (fun _ => trivial) (fun _ => writes_bind (writes_assertP fun _ => writes_bind ((writes_foldN
    (fun i s => s = A + 4 * ((i:Int) * LDA)) (by simp) ?_).mono fun _ _ => trivial)))
  intro j s hj hs
  refine writes_bind (((h s).weaken ?_).mono fun _ _ => writes_pure ?_)
  · intro a ha; exact smatCell_col.2 ⟨j, hj, hs ▸ ha⟩
  · rw [hs, step_ptr]

theorem axpym_writes [ArithEq F] {AXPYV : Char → Int → Scal F → Int → Int → Int → Int → Prog F Unit} (SIDE TRANSA : Char) (M N : Int)
    (ALPHA : Scal F) (A LDA INCA B LDB INCB : Int)
    (h : ∀ X Y, Writes (VecCell Y INCB M.toNat) (AXPYV SIDE M ALPHA X INCA Y INCB) (fun _ => True)) :
    Writes (SMatCell B INCB LDB M.toNat N.toNat) (axpym AXPYV SIDE TRANSA M N ALPHA A LDA INCA B LDB INCB) (fun _ => True) := by
  refine writes_ite (fun _ => trivial) (fun _ => writes_ite (fun _ => trivial) fun _ => writes_bind (writes_assertP fun _ => writes_bind ((writes_foldN
    (fun i s => s.2 = B + 4 * ((i:Int) * LDB)) (by simp) ?_).mono fun _ _ => trivial)))
  intro j s hj hs
  refine writes_bind (((h s.1 s.2).weaken ?_).mono fun _ _ => writes_pure ?_)
  · intro a ha; exact smatCell_col.2 ⟨j, hj, hs ▸ ha⟩
  · dsimp only; rw [hs, step_ptr]

/-! ### GEMM -/

/-- Packing `w` pairs per panel, `p` panels: the block `Xp, …` is written from its start. -/
theorem packCol2_writes {W : Int → Prop} {pre : V4 F → V4 F} {op : VV F → VV F} {inc : Int} {n : Nat} {s : Int × Int × Int}
    (h : ∀ a, s.2.2 ≤ a → a < s.2.2 + 8 * n → W a) :
    Writes W (foldN n (fun _ c => packCol2 pre op inc c) s) (fun r => r.2.2 = s.2.2 + 8 * n) := by
  refine writes_foldN (fun i (r : Int × Int × Int) => r.2.2 = s.2.2 + 8 * (i:Int)) (by simp) ?_
  intro i r hi hr
  refine writes_bind (writes_loadQ fun _ => writes_bind (writes_loadQ fun _ => writes_bind (writes_storeQ ?_
    (writes_bind (writes_storeQ ?_ (writes_pure ?_))))))
  · intro a ha; unfold InQ at ha; exact h a (by omega) (by omega)
  · intro a ha; unfold InQ at ha; exact h a (by omega) (by omega)
  · dsimp only; rw [hr]; push_cast; ring

theorem packCol1_writes {W : Int → Prop} {pre : V4 F → V4 F} {op : VV F → VV F} {inc : Int} {n : Nat} {s : Int × Int}
    (h : ∀ a, s.2 ≤ a → a < s.2 + 8 * n → W a) :
    Writes W (foldN n (fun _ c => packCol1 pre op inc c) s) (fun r => r.2 = s.2 + 8 * n) := by
  refine writes_foldN (fun i (r : Int × Int) => r.2 = s.2 + 8 * (i:Int)) (by simp) ?_
  intro i r hi hr
  refine writes_bind (writes_loadQ fun _ => writes_bind (writes_storeQ ?_
    (writes_bind (writes_storeQ ?_ (writes_pure ?_)))))
  · intro a ha; unfold InQ at ha; exact h a (by omega) (by omega)
  · intro a ha; unfold InQ at ha; exact h a (by omega) (by omega)
  · dsimp only; rw [hr]; push_cast; ring

theorem TPACK_writes {W : Int → Prop} {pre : V4 F → V4 F} {op : VV F → VV F} {M N : Nat} {X LDX Xp : Int}
    (h : ∀ a, Xp ≤ a → a < Xp + 8 * (((N + 1) / 2 : Nat) * (M:Int)) → W a) :
    Writes W (TPACK pre op M N X LDX Xp) (fun _ => True) := by
  refine writes_bind ((writes_foldN (fun i r => r.2 = Xp + 8 * ((i:Int) * M)) (by simp) ?_).mono fun s hs => ?_)
  · intro i s hi hs
    have hi' : (i:Int) + 1 ≤ ((N + 1) / 2 : Nat) := by omega
    have h1 : ((i:Int) + 1) * M ≤ ((N + 1) / 2 : Nat) * (M:Int) := mul_le_mul_of_nonneg_right hi' (by omega)
    have h0 : (0:Int) ≤ (i:Int) * M := by positivity
    have e1 : ((i:Int) + 1) * M = i * M + M := by ring
    refine writes_bind ((packCol2_writes ?_).mono fun r hr => writes_pure ?_)
    · intro a h2 h3; dsimp only at h2 h3; exact h a (by omega) (by omega)
    · dsimp only; rw [hr]; dsimp only; rw [hs]; push_cast; simp; ring
  · refine writes_ite (fun hN => writes_bind (writes_assertP fun _ => writes_bind ((packCol1_writes ?_).mono fun _ _ => trivial))) (fun _ => trivial)
    intro a h2 h3
    have e : (((N:Int) / 2).toNat : Int) + 1 = ((N + 1) / 2 : Nat) := by omega
    have e1 : ((((N:Int) / 2).toNat : Int) + 1) * (M:Int) = (((N:Int) / 2).toNat : Int) * M + M := by ring
    have h0 : (0:Int) ≤ (((N:Int) / 2).toNat : Int) * M := by positivity
    rw [e] at e1
    refine h a ?_ ?_
    · omega
    · rw [e1]; omega

theorem NPACK_writes {W : Int → Prop} {pre : V4 F → V4 F} {op : VV F → VV F} {M N : Nat} {X LDX Xp : Int}
    (h : ∀ a, Xp ≤ a → a < Xp + 8 * (((M + 1) / 2 : Nat) * (N:Int)) → W a) :
    Writes W (NPACK pre op M N X LDX Xp) (fun _ => True) := by
  refine writes_bind ((writes_foldN (fun i r => r.2 = Xp + 8 * ((i:Int) * N)) (by simp) ?_).mono fun s hs => ?_)
  · intro i s hi hs
    have hi' : (i:Int) + 1 ≤ ((M + 1) / 2 : Nat) := by omega
    have h1 : ((i:Int) + 1) * N ≤ ((M + 1) / 2 : Nat) * (N:Int) := mul_le_mul_of_nonneg_right hi' (by omega)
    have h0 : (0:Int) ≤ (i:Int) * N := by positivity
    have e1 : ((i:Int) + 1) * N = i * N + N := by ring
    refine writes_bind ((packCol2_writes ?_).mono fun r hr => writes_pure ?_)
    · intro a h2 h3; dsimp only at h2 h3; exact h a (by omega) (by omega)
    · dsimp only; rw [hr]; dsimp only; rw [hs]; push_cast; simp; ring
  · refine writes_ite (fun hN => writes_bind (writes_assertP fun _ => writes_bind ((packCol1_writes ?_).mono fun _ _ => trivial))) (fun _ => trivial)
    intro a h2 h3
    have e : (((M:Int) / 2).toNat : Int) + 1 = ((M + 1) / 2 : Nat) := by omega
    have e1 : ((((M:Int) / 2).toNat : Int) + 1) * (N:Int) = (((M:Int) / 2).toNat : Int) * N + N := by ring
    have h0 : (0:Int) ≤ (((M:Int) / 2).toNat : Int) * N := by positivity
    rw [e] at e1
    refine h a ?_ ?_
    · omega
    · rw [e1]; omega

theorem kernBody_writes {W : Int → Prop} (s : KernSt F) : Writes W (kernBody s) (fun _ => True) := by
  unfold kernBody load2A
  repeat first
    | exact trivial
    | refine writes_bind (writes_loadA fun _ => ?_)
    | refine writes_bind (writes_rd fun _ => ?_)
    | refine writes_bind (writes_ite (fun _ => ?_) (fun _ => writes_fault))
    | refine writes_pure ?_

theorem Kern_writes {W : Int → Prop} {M N K A B C LDC : Int} (hM : 0 < M) (hN : 0 < N)
    (h : ∀ i j : Nat, (i:Int) < M → (j:Int) < N → ∀ a, InQ (C + 4 * (i + j * LDC)) a → W a) :
    Writes W (Kern M N K A B C LDC : Prog F Unit) (fun _ => True) := by
  have h00 : ∀ a, InQ C a → W a := fun a ha => h 0 0 (by simpa) (by simpa) a (by simpa using ha)
  have h10 : (M == 2) = true → ∀ a, InQ (C + 4 * 1) a → W a := fun e a ha => by
    have e' : M = 2 := by simpa using e
    exact h 1 0 (by subst e'; decide) (by simpa) a (by simpa using ha)
  have h01 : (N == 2) = true → ∀ a, InQ (C + 4 * LDC) a → W a := fun e a ha => by
    have e' : N = 2 := by simpa using e
    exact h 0 1 (by simpa) (by subst e'; decide) a (by simpa using ha)
  have h11 : (M == 2 && N == 2) = true → ∀ a, InQ (C + 4 * (LDC + 1)) a → W a := fun e a ha => by
    have e' : M = 2 ∧ N = 2 := by simpa using e
    obtain ⟨e1, e2⟩ := e'
    refine h 1 1 (by subst e1; decide) (by subst e2; decide) a ?_
    have : C + 4 * (((1:Nat):Int) + ((1:Nat):Int) * LDC) = C + 4 * (LDC + 1) := by push_cast; ring
    rw [this]; exact ha
  unfold Kern
  refine writes_bind (writes_loadQ fun _ => ?_)
  have rest : ∀ c : R4 F, Writes W (do
      let s ← foldN K.toNat (fun _ s => kernBody s) ⟨A, B, c⟩
      let c := transpose4 s.c
      storeQ C c.r1
      if (M == 2) then storeQ (C + 4 * 1) c.r3 else pure ()
      if (N == 2) then storeQ (C + 4 * LDC) c.r2 else pure ()
      if (M == 2) && (N == 2) then storeQ (C + 4 * (LDC + 1)) c.r4 else pure ()) (fun _ => True) := by
    intro c
    refine writes_bind ((writes_foldN (fun _ _ => True) trivial (fun _ s _ _ => kernBody_writes s)).mono fun s _ => ?_)
    refine writes_bind (writes_storeQ h00 ?_)
    have l3 : Writes W (if ((M == 2) && (N == 2)) = true then storeQ (C + 4 * (LDC + 1)) (transpose4 s.c).r4 else pure ()) (fun _ => True) :=
      writes_ite (fun e => writes_storeQ (h11 e) trivial) (fun _ => trivial)
    have l2 : Writes W (do
        if (N == 2) then storeQ (C + 4 * LDC) (transpose4 s.c).r2 else pure ()
        if (M == 2) && (N == 2) then storeQ (C + 4 * (LDC + 1)) (transpose4 s.c).r4 else pure ()) (fun _ => True) :=
      writes_ite (fun e => writes_bind (writes_storeQ (h01 e) l3)) (fun _ => l3)
    exact writes_ite (fun e => writes_bind (writes_storeQ (h10 e) l2)) (fun _ => l2)
  repeat' first
    | exact rest _
    | refine writes_ite (fun _ => ?_) (fun _ => ?_)
    | refine writes_bind (writes_loadQ fun _ => ?_)

theorem gemmII_writes {W : Int → Prop} {nI : Nat} {nJJJ nK aPack BL1 CBlk LDC : Int} (hN : 0 < nJJJ)
    (h : ∀ i j : Nat, i < nI → (j:Int) < nJJJ → ∀ a, InQ (CBlk + 4 * (i + j * LDC)) a → W a) :
    Writes W (gemmII nI nJJJ nK aPack BL1 CBlk LDC : Prog F Unit) (fun _ => True) := by
  refine writes_bind ((writes_foldN (fun b s => s.1 = CBlk + 4 * (2 * (b:Int))) (by simp) ?_).mono fun _ _ => trivial)
  intro b s hb hs
  have hb2 := nIter_lt2.1 hb
  refine writes_bind ((Kern_writes (by omega) hN ?_).mono fun _ _ => ?_)
  · intro i j hi hj a ha
    refine h (2 * b + i) j (by omega) hj a ?_
    have e : CBlk + 4 * (((2 * b + i : Nat):Int) + j * LDC) = s.1 + 4 * (i + j * LDC) := by rw [hs]; push_cast; ring
    rw [e]; exact ha
  · have key : ∀ z w : Int, Writes W (do let d ← i32 w; let _ ← i32 z; pure (s.1 + 4 * 2, s.2 + 4 * d) : Prog F (Int × Int)) (fun s => s.1 = CBlk + 4 * (2 * ((b + 1 : Nat):Int))) := by
      intro z w
      refine writes_bind (writes_i32 ?_)
      refine writes_bind (writes_i32 ?_)
      refine writes_pure ?_
      dsimp only; rw [hs]; push_cast; ring
    exact key _ _

theorem gemmJJ_writes {W : Int → Prop} {nI nJ : Nat} {nK aPack bPack Ci LDC : Int}
    (h : ∀ i j : Nat, i < nI → j < nJ → ∀ a, InQ (Ci + 4 * (i + j * LDC)) a → W a) :
    Writes W (gemmJJ nI nJ nK aPack bPack Ci LDC : Prog F Unit) (fun _ => True) := by
  refine writes_bind ((writes_foldN (fun b s => s.2 = Ci + 4 * (2 * (b:Int) * LDC)) (by simp) ?_).mono fun _ _ => trivial)
  intro b s hb hs
  have hb2 := nIter_lt2.1 hb
  refine writes_bind ((gemmII_writes (by omega) ?_).mono fun _ _ => ?_)
  · intro i j hi hj a ha
    refine h i (2 * b + j) hi (by omega) a ?_
    have e : Ci + 4 * ((i:Int) + ((2 * b + j : Nat):Int) * LDC) = s.2 + 4 * (i + j * LDC) := by rw [hs]; push_cast; ring
    rw [e]; exact ha
  · have key : ∀ z w v : Int, v = 2 * LDC → Writes W (do let d ← i32 w; let e ← i32 v; let _ ← i32 z; pure (s.1 + 4 * d, s.2 + 4 * e) : Prog F (Int × Int)) (fun s => s.2 = Ci + 4 * (2 * ((b + 1 : Nat):Int) * LDC)) := by
      intro z w v hv
      refine writes_bind (writes_i32 ?_)
      refine writes_bind (writes_i32 ?_)
      refine writes_bind (writes_i32 ?_)
      refine writes_pure ?_
      dsimp only; rw [hv]; rw [hs]; push_cast; ring
    exact key _ _ _ rfl

theorem half_le {n c : Nat} (h : n ≤ c) (hc : c % 2 = 0) : 2 * ((n + 1) / 2) ≤ c := by omega

theorem buf_bound {n c k kc : Nat} (h : n ≤ c) (hc : c % 2 = 0) (hk : k ≤ kc) :
    8 * (((n + 1) / 2 : Nat) * (k:Int)) ≤ 4 * fixMod ((kc:Int) * c) 32 := by
  have h1 : 2 * ((n + 1) / 2) * k ≤ c * kc := Nat.mul_le_mul (half_le h hc) hk
  have h2 : ((kc:Int) * c) ≤ fixMod ((kc:Int) * c) 32 := fixMod_ge (by positivity)
  have h3 : ((2 * ((n + 1) / 2) * k : Nat) : Int) ≤ ((c * kc : Nat) : Int) := by exact_mod_cast h1
  have e1 : ((2 * ((n + 1) / 2) * k : Nat) : Int) = 2 * (((n + 1) / 2 : Nat) * (k:Int)) := by push_cast; ring
  have e2 : ((c * kc : Nat) : Int) = (kc:Int) * c := by push_cast; ring
  rw [e1, e2] at h3
  omega

theorem aPackSel_writes {W : Int → Prop} {tA : Char} {ALPHA : Scal F} {nI nK : Nat} {Ai LDA aPack : Int}
    (h : ∀ a, aPack ≤ a → a < aPack + 8 * (((nI + 1) / 2 : Nat) * (nK:Int)) → W a) :
    Writes W (aPackSel tA ALPHA nI nK Ai LDA aPack) (fun _ => True) :=
  writes_ite (fun _ => TPACK_writes h) (fun _ => writes_ite (fun _ => TPACK_writes h) (fun _ => writes_ite (fun _ => NPACK_writes h)
    (fun _ => NPACK_writes h)))

theorem bPackSel_writes {W : Int → Prop} {tB : Char} {nJ nK : Nat} {Bp LDB bPack : Int}
    (h : ∀ a, bPack ≤ a → a < bPack + 8 * (((nJ + 1) / 2 : Nat) * (nK:Int)) → W a) :
    Writes W (bPackSel tB nJ nK Bp LDB bPack : Prog F Unit) (fun _ => True) :=
  writes_ite (fun _ => NPACK_writes h) (fun _ => writes_ite (fun _ => NPACK_writes h) (fun _ => writes_ite (fun _ => TPACK_writes h)
    (fun _ => TPACK_writes h)))

theorem advance_writes {W : Int → Prop} {c : Prop} [Decidable c] {p n LD : Int} {Q : Int → Prop} (h : ∀ x, Q x) :
    Writes W (advance c p n LD : Prog F Int) Q :=
  writes_ite (fun _ => writes_bind (writes_i32 (writes_pure (h _)))) (fun _ => h _)

theorem min_block {n b c : Nat} (h : b * c < n) : min ((n:Int) - b * c) c = ((min (n - b * c) c : Nat) : Int) := by
  push_cast; rw [Nat.cast_sub h.le]; push_cast; rfl

theorem gemmI_writes {W : Int → Prop} {mc nc kc : Nat} {tA : Char} {M nJ nK : Nat} {ALPHA : Scal F} {Ap LDA Cj LDC aPack bPack : Int}
    (hmc : 0 < mc) (hme : mc % 2 = 0) (hk : nK ≤ kc)
    (hA : ∀ a, InBuf aPack (4 * fixMod ((kc:Int) * mc) 32) a → W a)
    (hC : ∀ i j : Nat, i < M → j < nJ → ∀ a, InQ (Cj + 4 * (i + j * LDC)) a → W a) :
    Writes W (gemmI ⟨mc, nc, kc⟩ tA M nJ nK ALPHA Ap LDA Cj LDC aPack bPack) (fun _ => True) := by
  refine writes_bind ((writes_foldN (fun b s => b * mc ≤ M → s.2 = Cj + 4 * ((b:Int) * mc)) (by simp) ?_).mono fun _ _ => trivial)
  intro b s hb hs
  have hb2 : b * mc < M := (nIter_lt hmc).1 hb
  unfold gemmIStep
  refine writes_bind (writes_pure ?_)
  dsimp only
  rw [min_block hb2]
  refine writes_bind ((aPackSel_writes ?_).mono fun _ _ => writes_bind ((gemmJJ_writes ?_).mono fun _ _ => writes_bind
    (advance_writes fun _ => writes_bind (writes_i32 (writes_pure ?_)))))
  · intro a h1 h2
    refine hA a ⟨h1, ?_⟩
    have := buf_bound (n := min (M - b * mc) mc) (c := mc) (k := nK) (kc := kc) (by omega) hme hk
    omega
  · intro i j hi hj a ha
    refine hC (b * mc + i) j (by omega) hj a ?_
    have e : Cj + 4 * (((b * mc + i : Nat):Int) + j * LDC) = s.2 + 4 * (i + j * LDC) := by rw [hs hb2.le]; push_cast; ring
    rw [e]; exact ha
  · intro hle
    have e : min (M - b * mc) mc = mc := by
      rw [Nat.succ_mul] at hle; omega
    dsimp only
    rw [e, hs hb2.le]; push_cast; ring

theorem gemmK_writes {W : Int → Prop} {mc nc kc : Nat} {tA tB : Char} {M nJ K : Nat} {ALPHA : Scal F} {A LDA Bj LDB Cj LDC aPack bPack : Int}
    (hmc : 0 < mc) (hkc : 0 < kc) (hme : mc % 2 = 0) (hne : nc % 2 = 0) (hj : nJ ≤ nc)
    (hA : ∀ a, InBuf aPack (4 * fixMod ((kc:Int) * mc) 32) a → W a)
    (hB : ∀ a, InBuf bPack (4 * fixMod ((kc:Int) * nc) 32) a → W a)
    (hC : ∀ i j : Nat, i < M → j < nJ → ∀ a, InQ (Cj + 4 * (i + j * LDC)) a → W a) :
    Writes W (gemmK ⟨mc, nc, kc⟩ tA tB M nJ K ALPHA A LDA Bj LDB Cj LDC aPack bPack) (fun _ => True) := by
  refine writes_bind ((writes_foldN (fun _ _ => True) trivial ?_).mono fun _ _ => trivial)
  intro b s hb _
  have hb2 : b * kc < K := (nIter_lt hkc).1 hb
  unfold gemmKStep
  refine writes_bind (writes_pure ?_)
  dsimp only
  rw [min_block hb2]
  refine writes_bind ((bPackSel_writes ?_).mono fun _ _ => writes_bind ((gemmI_writes hmc hme (by omega) hA hC).mono fun _ _ => writes_bind
    (advance_writes fun _ => writes_bind (advance_writes fun _ => writes_bind (writes_i32 (writes_pure trivial))))))
  intro a h1 h2
  refine hB a ⟨h1, ?_⟩
  have := buf_bound (n := nJ) (c := nc) (k := min (K - b * kc) kc) (kc := kc) hj hne (by omega)
  omega

theorem gemmJ_writes {W : Int → Prop} {mc nc kc : Nat} {tA tB : Char} {M N K : Nat} {ALPHA : Scal F} {A LDA B LDB C LDC aPack bPack : Int}
    (hmc : 0 < mc) (hnc : 0 < nc) (hkc : 0 < kc) (hme : mc % 2 = 0) (hne : nc % 2 = 0)
    (hA : ∀ a, InBuf aPack (4 * fixMod ((kc:Int) * mc) 32) a → W a)
    (hB : ∀ a, InBuf bPack (4 * fixMod ((kc:Int) * nc) 32) a → W a)
    (hC : ∀ i j : Nat, i < M → j < N → ∀ a, InQ (C + 4 * (i + j * LDC)) a → W a) :
    Writes W (gemmJ ⟨mc, nc, kc⟩ tA tB M N K ALPHA A LDA B LDB C LDC aPack bPack) (fun _ => True) := by
  refine writes_bind ((writes_foldN (fun b s => b * nc ≤ N → s.1 = C + 4 * ((b:Int) * nc * LDC)) (by simp) ?_).mono fun _ _ => trivial)
  intro b s hb hs
  have hb2 : b * nc < N := (nIter_lt hnc).1 hb
  unfold gemmJStep
  refine writes_bind (writes_pure ?_)
  dsimp only
  rw [min_block hb2]
  refine writes_bind ((gemmK_writes hmc hkc hme hne (by omega) hA hB ?_).mono fun _ _ => writes_bind (writes_i32 (writes_bind
    (advance_writes fun _ => writes_bind (writes_i32 (writes_pure ?_))))))
  · intro i j hi hj a ha
    refine hC i (b * nc + j) hi (by omega) a ?_
    have e : C + 4 * ((i:Int) + ((b * nc + j : Nat):Int) * LDC) = s.1 + 4 * (i + j * LDC) := by rw [hs hb2.le]; push_cast; ring
    rw [e]; exact ha
  · intro hle
    have e : min (N - b * nc) nc = nc := by
      rw [Nat.succ_mul] at hle; omega
    dsimp only
    rw [e, hs hb2.le]; push_cast; ring

theorem gemm_writes {blk : Blk} {bAddr aAddr : Int} {junk : Int → F} {tA tB : Char} {M N K : Nat} {ALPHA BETA : Scal F}
    {A LDA B LDB C LDC : Int} (hmc : 0 < blk.MC) (hnc : 0 < blk.NC) (hkc : 0 < blk.KC) (hme : blk.MC % 2 = 0) (hne : blk.NC % 2 = 0) :
    Writes (fun a => MatCell C LDC M N a ∨ InBuf bAddr (4 * fixMod (blk.KC * blk.NC) 32) a ∨ InBuf aAddr (4 * fixMod (blk.KC * blk.MC) 32) a)
      (gemmAVX blk bAddr aAddr junk tA tB M N K ALPHA A LDA B LDB BETA C LDC) (fun _ => True) := by
  obtain ⟨mc, hmc'⟩ : ∃ n : Nat, blk.MC = n := ⟨blk.MC.toNat, by omega⟩
  obtain ⟨nc, hnc'⟩ : ∃ n : Nat, blk.NC = n := ⟨blk.NC.toNat, by omega⟩
  obtain ⟨kc, hkc'⟩ : ∃ n : Nat, blk.KC = n := ⟨blk.KC.toNat, by omega⟩
  obtain ⟨MC, NC, KC⟩ := blk
  dsimp only at *
  subst hmc' hnc' hkc'
  unfold gemmAVX
  refine writes_bind ⟨fun a h1 h2 => Or.inr (Or.inl ⟨h1, h2⟩), writes_bind ⟨fun a h1 h2 => Or.inr (Or.inr ⟨h1, h2⟩), ?_⟩⟩
  show Writes _ (_ >>= _) _
  refine writes_bind (((scalm_writes 'L' 'N' M N BETA C LDC 1 (fun X => scalv_writes ..)).weaken ?_).mono fun _ _ => ?_)
  rotate_left
  · refine writes_bind ((gemmJ_writes (mc := mc) (nc := nc) (kc := kc) (by omega) (by omega) (by omega) (by omega) (by omega) (fun a h => Or.inr (Or.inr h)) (fun a h => Or.inr (Or.inl h))
      (fun i j hi hj a ha => Or.inl ⟨i, j, hi, hj, ha⟩)).mono fun _ _ => ?_)
    exact writes_bind ⟨fun a h1 h2 => Or.inr (Or.inl ⟨h1, h2⟩), ⟨fun a h1 h2 => Or.inr (Or.inr ⟨h1, h2⟩), trivial⟩⟩
  intro a ha
  exact Or.inl (by simpa using smatCell_one.1 ha)

end
end Haxx.Thr
