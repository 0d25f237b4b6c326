import Verif.ThrSafePort
import Verif.ThrFootSimd
import Verif.GemmTop

/-!
# Threads: safety of the vectorised routines, whatever the numbers and however the operands overlap
-/

namespace Haxx.Thr
open Arith

set_option linter.unusedSectionVars false

/-- What a safe routine does depends only on the cells it may access. -/
theorem Safe.agree {F α : Type} {S W : Int → Prop} {t : Prog F α} {Q : α → Prop} (h : Safe S W t Q) {m m2 : Mem F}
    (hm : ∀ a, S a → (m a).isSome) (hag : ∀ a, S a → m2 a = m a) :
    ∃ r mf mf2, t.run m = .ok (r, mf) ∧ t.run m2 = .ok (r, mf2) ∧ ∀ a, S a → mf2 a = mf a := by
  induction t generalizing m m2 with
  | ret a => exact ⟨a, m, m2, rfl, rfl, hag⟩
  | fail e => exact h.elim
  | rd a k ih =>
    obtain ⟨v, hv⟩ := Option.isSome_iff_exists.1 (hm a h.1)
    obtain ⟨r, mf, mf2, h1, h2, h3⟩ := ih v (h.2 v) hm hag
    refine ⟨r, mf, mf2, by simp only [Prog.run, hv]; exact h1, ?_, h3⟩
    simp only [Prog.run, hag a h.1, hv]; exact h2
  | wr a v k ih =>
    obtain ⟨w, hv⟩ := Option.isSome_iff_exists.1 (hm a h.1.1)
    obtain ⟨r, mf, mf2, h1, h2, h3⟩ := ih h.2 (m := upd m a v) (m2 := upd m2 a v) (by
      intro c hc
      unfold upd
      split
      · rfl
      · exact hm c hc) (by
      intro c hc
      unfold upd
      split
      · rfl
      · exact hag c hc)
    refine ⟨r, mf, mf2, by simp only [Prog.run, hv]; exact h1, ?_, h3⟩
    simp only [Prog.run, hag a h.1.1, hv]; exact h2
  | map p n g k ih => exact h.elim

section
variable {F : Type} {S W : Int → Prop}

theorem al_step {X INC : Int} (i : Nat) (h : aligned32 X = true) : aligned32 (X + 4 * ((i:Int) * INC)) = true := by
  unfold aligned32 at *
  simp only [beq_iff_eq] at *
  omega

theorem safe_loadA {p : Int} (ha : aligned32 p = true) (h : Q4 S p) : Safe S W (loadA p : Prog F (Quat F)) (fun _ => True) := by
  unfold loadA; rw [if_pos ha]; exact safe_loadQ h

theorem safe_loadM {al : Bool} {p : Int} (ha : al = true → aligned32 p = true) (h : Q4 S p) :
    Safe S W (loadM al p : Prog F (Quat F)) (fun _ => True) :=
  safe_ite (fun e => safe_loadA (ha e) h) (fun _ => safe_loadQ h)

theorem safe_storeM {al : Bool} {p : Int} {q : Quat F} (ha : al = true → aligned32 p = true) (h : Q4 S p) (hw : Q4 W p) :
    Safe S W (storeM al p q) (fun _ => True) :=
  safe_ite (fun e => by unfold storeA; rw [if_pos (ha e)]; exact safe_storeQ h hw) (fun _ => safe_storeQ h hw)

theorem copyv_safe {N X INCX Y INCY : Int} (hX : ∀ a, VecCell X INCX N.toNat a → S a) (hY : ∀ a, VecCell Y INCY N.toNat a → S a)
    (hW : ∀ a, VecCell Y INCY N.toNat a → W a) : Safe S W (copyvAVX N X INCX Y INCY : Prog F Unit) (fun _ => True) := by
  have key : ∀ al, (al = true → aligned32 X = true ∧ aligned32 Y = true) →
      Safe S W (foldN N.toNat (fun _ loc => copyBody al INCX INCY loc) (X, Y) : Prog F _) (fun _ => True) := by
    intro al hal
    refine (safe_foldI (fun i s => s = (X + 4 * ((i:Int) * INCX), Y + 4 * ((i:Int) * INCY))) (by simp) ?_).mono (fun _ _ => trivial)
    rintro i s hi rfl
    refine safe_seq (safe_loadM (fun e => al_step i (hal e).1) (vec_q4 hX hi)) fun v => safe_seq
      (safe_storeM (fun e => al_step i (hal e).2) (vec_q4 hY hi) (vec_q4 hW hi)) fun _ => safe_pure ?_
    dsimp only; rw [step_ptr, step_ptr]
  exact safe_ite (fun e => safe_seq (key true (fun _ => by simpa using e)) fun _ => trivial)
    (fun _ => safe_seq (key false (fun e => by cases e)) fun _ => trivial)

theorem swapv_safe {N X INCX Y INCY : Int} (hX : ∀ a, VecCell X INCX N.toNat a → S a) (hY : ∀ a, VecCell Y INCY N.toNat a → S a)
    (hWX : ∀ a, VecCell X INCX N.toNat a → W a)
    (hW : ∀ a, VecCell Y INCY N.toNat a → W a) : Safe S W (swapvAVX N X INCX Y INCY : Prog F Unit) (fun _ => True) := by
  have key : ∀ al, (al = true → aligned32 X = true ∧ aligned32 Y = true) →
      Safe S W (foldN N.toNat (fun _ loc => swapBody al INCX INCY loc) (X, Y) : Prog F _) (fun _ => True) := by
    intro al hal
    refine (safe_foldI (fun i s => s = (X + 4 * ((i:Int) * INCX), Y + 4 * ((i:Int) * INCY))) (by simp) ?_).mono (fun _ _ => trivial)
    rintro i s hi rfl
    refine safe_seq (safe_loadM (fun e => al_step i (hal e).1) (vec_q4 hX hi)) fun v =>
      safe_seq (safe_loadM (fun e => al_step i (hal e).2) (vec_q4 hY hi)) fun v => safe_seq
      (safe_storeM (fun e => al_step i (hal e).2) (vec_q4 hY hi) (vec_q4 hW hi)) fun _ => safe_seq
      (safe_storeM (fun e => al_step i (hal e).1) (vec_q4 hX hi) (vec_q4 hWX hi)) fun _ => safe_pure ?_
    dsimp only; rw [step_ptr, step_ptr]
  exact safe_ite (fun e => safe_seq (key true (fun _ => by simpa using e)) fun _ => trivial)
    (fun _ => safe_seq (key false (fun e => by cases e)) fun _ => trivial)

variable [Arith F]

theorem scalv_safe {SIDE : Char} {N : Int} {ALPHA : Scal F} {X INCX : Int} (hX : ∀ a, VecCell X INCX N.toNat a → S a)
    (hW : ∀ a, VecCell X INCX N.toNat a → W a) : Safe S W (scalvAVX SIDE N ALPHA X INCX) (fun _ => True) := by
  refine safe_seq ((safe_foldI (fun i s => s = X + 4 * ((i:Int) * INCX)) (by simp) ?_).mono (fun _ _ => trivial)) fun _ => trivial
  rintro i s hi rfl
  refine safe_seq (safe_loadM (fun e => al_step i e) (vec_q4 hX hi)) fun v => safe_seq
    (safe_storeM (fun e => al_step i e) (vec_q4 hX hi) (vec_q4 hW hi)) fun _ => safe_pure ?_
  rw [step_ptr]

theorem axpyv_safe {SIDE : Char} {N : Int} {ALPHA : Scal F} {X INCX Y INCY : Int} (hX : ∀ a, VecCell X INCX N.toNat a → S a)
    (hY : ∀ a, VecCell Y INCY N.toNat a → S a) (hW : ∀ a, VecCell Y INCY N.toNat a → W a) :
    Safe S W (axpyvAVX SIDE N ALPHA X INCX Y INCY) (fun _ => True) := by
  refine safe_seq ((safe_foldI (fun i s => s = (X + 4 * ((i:Int) * INCX), Y + 4 * ((i:Int) * INCY))) (by simp) ?_).mono (fun _ _ => trivial)) fun _ => trivial
  rintro i s hi rfl
  have al : ∀ e : (aligned32 X && aligned32 Y) = true, aligned32 X = true ∧ aligned32 Y = true := fun e => by simpa using e
  refine safe_seq (safe_loadM (fun e => al_step i (al e).1) (vec_q4 hX hi)) fun v =>
    safe_seq (safe_loadM (fun e => al_step i (al e).2) (vec_q4 hY hi)) fun v => safe_seq
    (safe_storeM (fun e => al_step i (al e).2) (vec_q4 hY hi) (vec_q4 hW hi)) fun _ => safe_pure ?_
  dsimp only; rw [step_ptr, step_ptr]

/-- A product between 0 and one that fits. -/
theorem fits_between {L : Int} {n c : Nat} (h : Fits32 ((c:Int) * L)) (hn : n ≤ c) : Fits32 ((n:Int) * L) := by
  unfold Fits32 at *
  have hn' : (n:Int) ≤ c := by omega
  rcases le_total 0 L with hL | hL
  · have h1 : (n:Int) * L ≤ c * L := mul_le_mul_of_nonneg_right hn' hL
    have h2 : 0 ≤ (n:Int) * L := by positivity
    omega
  · have h1 : (c:Int) * L ≤ n * L := mul_le_mul_of_nonpos_right hn' hL
    have h2 : (n:Int) * L ≤ 0 := mul_nonpos_of_nonneg_of_nonpos (by omega) hL
    omega

theorem dot_safe {conj : Bool} {N X INCX Y INCY : Int} (fx : Fits32 (4 * INCX)) (fy : Fits32 (4 * INCY))
    (hX : ∀ a, VecCell X INCX N.toNat a → S a) (hY : ∀ a, VecCell Y INCY N.toNat a → S a) :
    Safe S W (dotAVX conj N X INCX Y INCY : Prog F (Quat F)) (fun _ => True) := by
  have al : ∀ e : (aligned32 X && aligned32 Y) = true, aligned32 X = true ∧ aligned32 Y = true := fun e => by simpa using e
  have fit : ∀ {I : Int}, Fits32 (4 * I) → ∀ n : Nat, n ≤ 4 → Fits32 ((n:Int) * I) := fun h n hn =>
    fits_between (c := 4) (by exact_mod_cast h) hn
  have adv : ∀ {P I : Int} (i : Nat) {n : Nat}, (∀ a, VecCell P I n a → S a) → i < n → ∀ {q : Int}, q = P + 4 * ((i:Int) * I) → Q4 S q := by
    intro P I i n h hi q hq; rw [hq]; exact vec_q4 h hi
  have ala : ∀ {P I q : Int} (i : Nat), aligned32 P = true → q = P + 4 * ((i:Int) * I) → aligned32 q = true := by
    intro P I q i h hq; rw [hq]; exact al_step i h
  unfold dotAVX
  dsimp only
  refine safe_bind ((safe_foldI (fun i (s : DotSt F) => s.locX = X + 4 * (((4 * i : Nat):Int) * INCX) ∧ s.locY = Y + 4 * (((4 * i : Nat):Int) * INCY)) (by simp) ?_).mono fun s hs => ?_)
  · rintro i s hi ⟨h1, h2⟩
    have hi4 : 4 * i + 3 < N.toNat := by
      have := Int.tdiv_eq_ediv_of_nonneg (b := 4) (show 0 ≤ N by
        by_contra hc
        have : N.tdiv 4 ≤ 0 := by
          have := Int.tdiv_nonneg_of_nonpos_of_nonpos (a := N) (b := -4) (by omega) (by decide)
          rw [Int.tdiv_neg] at this; omega
        omega)
      omega
    unfold dotBatch
    refine safe_i32_bind (fit fx 2 (by decide)) (safe_i32_bind (fit fx 3 (by decide)) ?_)
    refine safe_seq (safe_loadM (fun e => ala (I := INCX) (4*i) (al e).1 h1) (adv (4*i) hX (by omega) h1)) fun _ => ?_
    refine safe_seq (safe_loadM (fun e => ala (I := INCX) (4*i+1) (al e).1 (by rw [h1]; push_cast; ring)) (adv (4*i+1) hX (by omega) (by rw [h1]; push_cast; ring))) fun _ => ?_
    refine safe_seq (safe_loadM (fun e => ala (I := INCX) (4*i+2) (al e).1 (by rw [h1]; push_cast; ring)) (adv (4*i+2) hX (by omega) (by rw [h1]; push_cast; ring))) fun _ => ?_
    refine safe_seq (safe_loadM (fun e => ala (I := INCX) (4*i+3) (al e).1 (by rw [h1]; push_cast; ring)) (adv (4*i+3) hX (by omega) (by rw [h1]; push_cast; ring))) fun _ => ?_
    refine safe_i32_bind (fit fy 2 (by decide)) (safe_i32_bind (fit fy 3 (by decide)) ?_)
    refine safe_seq (safe_loadM (fun e => ala (I := INCY) (4*i) (al e).2 h2) (adv (4*i) hY (by omega) h2)) fun _ => ?_
    refine safe_seq (safe_loadM (fun e => ala (I := INCY) (4*i+1) (al e).2 (by rw [h2]; push_cast; ring)) (adv (4*i+1) hY (by omega) (by rw [h2]; push_cast; ring))) fun _ => ?_
    refine safe_seq (safe_loadM (fun e => ala (I := INCY) (4*i+2) (al e).2 (by rw [h2]; push_cast; ring)) (adv (4*i+2) hY (by omega) (by rw [h2]; push_cast; ring))) fun _ => ?_
    refine safe_seq (safe_loadM (fun e => ala (I := INCY) (4*i+3) (al e).2 (by rw [h2]; push_cast; ring)) (adv (4*i+3) hY (by omega) (by rw [h2]; push_cast; ring))) fun _ => ?_
    refine safe_i32_bind (fit fx 4 (by decide)) (safe_i32_bind (fit fy 4 (by decide)) (safe_pure ?_))
    dsimp only
    constructor
    · rw [h1]; push_cast; ring
    · rw [h2]; push_cast; ring
  · refine safe_fold ?_
    intro i r hi
    have hN : 0 ≤ N := by
      by_contra hc
      have : N.tmod 4 ≤ 0 := by
        have := Int.tmod_nonneg (a := -N) 4 (by omega)
        rw [Int.neg_tmod] at this; omega
      omega
    have e1 := Int.tdiv_eq_ediv_of_nonneg (b := 4) hN
    have e2 := Int.tmod_eq_emod_of_nonneg (b := 4) hN
    have h4 : i < 4 := by omega
    unfold dotClean
    refine safe_i32_bind (fit fx i (by omega)) (safe_i32_bind (fit fy i (by omega)) ?_)
    refine safe_seq (safe_loadM (fun e => ala (I := INCX) (4 * (N.tdiv 4).toNat + i) (al e).1 (by rw [hs.1]; push_cast; ring)) (adv (4 * (N.tdiv 4).toNat + i) hX (by omega) (by rw [hs.1]; push_cast; ring))) fun _ => ?_
    refine safe_seq (safe_loadM (fun e => ala (I := INCY) (4 * (N.tdiv 4).toNat + i) (al e).2 (by rw [hs.2]; push_cast; ring)) (adv (4 * (N.tdiv 4).toNat + i) hY (by omega) (by rw [hs.2]; push_cast; ring))) fun _ => ?_
    exact safe_ite (fun _ => trivial) (fun _ => trivial)

theorem scalm_safe {SCALV : Char → Int → Scal F → Int → Int → Prog F Unit} {SIDE : Char} {M N : Int} {ALPHA : Scal F}
    {A LDA INCA : Int} (h : ∀ X, (∀ a, VecCell X INCA M.toNat a → S a ∧ W a) → Safe S W (SCALV SIDE M ALPHA X INCA) (fun _ => True))
    (hA : ∀ a, SMatCell A INCA LDA M.toNat N.toNat a → S a ∧ W a) :
    Safe S W (scalm SCALV SIDE 'N' M N ALPHA A LDA INCA) (fun _ => True) := by
  refine safe_ite (fun _ => trivial) (fun _ => safe_assert (by rfl) (safe_seq ((safe_foldI
    (fun i s => s = A + 4 * ((i:Int) * LDA)) (by simp) ?_).mono fun _ _ => trivial) fun _ => trivial))
  rintro j s hj rfl
  refine safe_seq (h _ fun a ha => hA a (smatCell_col.2 ⟨j, hj, ha⟩)) fun _ => safe_pure ?_
  rw [step_ptr]

theorem axpym_safe [ArithEq F] {AXPYV : Char → Int → Scal F → Int → Int → Int → Int → Prog F Unit} {SIDE : Char} {M N : Int}
    {ALPHA : Scal F} {A LDA INCA B LDB INCB : Int}
    (h : ∀ X Y, (∀ a, VecCell X INCA M.toNat a → S a) → (∀ a, VecCell Y INCB M.toNat a → S a ∧ W a) →
      Safe S W (AXPYV SIDE M ALPHA X INCA Y INCB) (fun _ => True))
    (hA : ∀ a, SMatCell A INCA LDA M.toNat N.toNat a → S a) (hB : ∀ a, SMatCell B INCB LDB M.toNat N.toNat a → S a ∧ W a) :
    Safe S W (axpym AXPYV SIDE 'N' M N ALPHA A LDA INCA B LDB INCB) (fun _ => True) := by
  refine safe_ite (fun _ => trivial) (fun _ => safe_ite (fun _ => trivial) fun _ => safe_assert (by rfl) (safe_seq ((safe_foldI
    (fun i s => s = (A + 4 * ((i:Int) * LDA), B + 4 * ((i:Int) * LDB))) (by simp) ?_).mono fun _ _ => trivial) fun _ => trivial))
  rintro j s hj rfl
  refine safe_seq (h _ _ (fun a ha => hA a (smatCell_col.2 ⟨j, hj, ha⟩)) fun a ha => hB a (smatCell_col.2 ⟨j, hj, ha⟩)) fun _ => safe_pure ?_
  dsimp only; rw [step_ptr, step_ptr]

/-! ### GEMM -/

theorem packCol2_safe {pre : V4 F → V4 F} {op : VV F → VV F} {inc : Int} {n : Nat} {s : Int × Int × Int}
    (h1 : ∀ i : Nat, i < n → Q4 S (s.1 + 4 * ((i:Int) * inc))) (h2 : ∀ i : Nat, i < n → Q4 S (s.2.1 + 4 * ((i:Int) * inc)))
    (h : ∀ a, s.2.2 ≤ a → a < s.2.2 + 8 * n → S a ∧ W a) :
    Safe S W (foldN n (fun _ c => packCol2 pre op inc c) s) (fun r => r.2.2 = s.2.2 + 8 * n) := by
  refine (safe_foldI (fun i (r : Int × Int × Int) => r = (s.1 + 4 * ((i:Int) * inc), s.2.1 + 4 * ((i:Int) * inc), s.2.2 + 8 * (i:Int))) (by simp) ?_).mono
    (fun r hr => by rw [hr])
  rintro i r hi rfl
  have hb : ∀ a, s.2.2 + 8 * (i:Int) ≤ a → a < s.2.2 + 8 * (i:Int) + 8 → S a ∧ W a := fun a g1 g2 => h a (by omega) (by omega)
  refine safe_seq (safe_loadQ (h1 i hi)) fun _ => safe_seq (safe_loadQ (h2 i hi)) fun _ => safe_seq (safe_storeQ ?_ ?_) fun _ =>
    safe_seq (safe_storeQ ?_ ?_) fun _ => safe_pure ?_
  any_goals (intro a ha; unfold InQ at ha; dsimp only at ha)
  · exact (hb a (by omega) (by omega)).1
  · exact (hb a (by omega) (by omega)).2
  · exact (hb a (by omega) (by omega)).1
  · exact (hb a (by omega) (by omega)).2
  · dsimp only; rw [step_ptr, step_ptr]; push_cast; congr 2; ring

theorem packCol1_safe {pre : V4 F → V4 F} {op : VV F → VV F} {inc : Int} {n : Nat} {s : Int × Int}
    (h1 : ∀ i : Nat, i < n → Q4 S (s.1 + 4 * ((i:Int) * inc)))
    (h : ∀ a, s.2 ≤ a → a < s.2 + 8 * n → S a ∧ W a) :
    Safe S W (foldN n (fun _ c => packCol1 pre op inc c) s) (fun r => r.2 = s.2 + 8 * n) := by
  refine (safe_foldI (fun i (r : Int × Int) => r = (s.1 + 4 * ((i:Int) * inc), s.2 + 8 * (i:Int))) (by simp) ?_).mono
    (fun r hr => by rw [hr])
  rintro i r hi rfl
  have hb : ∀ a, s.2 + 8 * (i:Int) ≤ a → a < s.2 + 8 * (i:Int) + 8 → S a ∧ W a := fun a g1 g2 => h a (by omega) (by omega)
  refine safe_seq (safe_loadQ (h1 i hi)) fun _ => safe_seq (safe_storeQ ?_ ?_) fun _ =>
    safe_seq (safe_storeQ ?_ ?_) fun _ => safe_pure ?_
  any_goals (intro a ha; unfold InQ at ha; dsimp only at ha)
  · exact (hb a (by omega) (by omega)).1
  · exact (hb a (by omega) (by omega)).2
  · exact (hb a (by omega) (by omega)).1
  · exact (hb a (by omega) (by omega)).2
  · dsimp only; rw [step_ptr]; push_cast; congr 1; ring

theorem TPACK_safe {pre : V4 F → V4 F} {op : VV F → VV F} {M N : Nat} {X LDX Xp : Int}
    (hX : ∀ r c : Nat, r < M → c < N → Q4 S (X + 4 * ((r:Int) + c * LDX)))
    (h : ∀ a, Xp ≤ a → a < Xp + 8 * (((N + 1) / 2 : Nat) * (M:Int)) → S a ∧ W a) :
    Safe S W (TPACK pre op M N X LDX Xp) (fun _ => True) := by
  refine safe_bind ((safe_foldI (fun i r => r = (X + 4 * (2 * (i:Int) * LDX), Xp + 8 * ((i:Int) * M))) (by simp) ?_).mono fun s hs => ?_)
  · rintro i s hi rfl
    have hi' : (i:Int) + 1 ≤ ((N + 1) / 2 : Nat) := by omega
    have hm : ((i:Int) + 1) * M ≤ ((N + 1) / 2 : Nat) * (M:Int) := mul_le_mul_of_nonneg_right hi' (by omega)
    have h0 : (0:Int) ≤ (i:Int) * M := by positivity
    have e1 : ((i:Int) + 1) * M = i * M + M := by ring
    refine safe_bind ((packCol2_safe ?_ ?_ ?_).mono fun r hr => safe_pure ?_)
    · intro k hk
      have := hX k (2 * i) (by omega) (by omega)
      convert this using 1; push_cast; ring
    · intro k hk
      have := hX k (2 * i + 1) (by omega) (by omega)
      convert this using 1; push_cast; ring
    · intro a h2 h3; dsimp only at h2 h3; exact h a (by omega) (by omega)
    · dsimp only; rw [hr]; dsimp only; push_cast; simp only [Prod.mk.injEq, Int.toNat_natCast]; constructor <;> ring
  · subst hs
    refine safe_ite (fun hN => safe_assert ?_ (safe_seq ((packCol1_safe ?_ ?_).mono fun _ _ => trivial) fun _ => trivial)) (fun _ => trivial)
    · simp; omega
    · intro k hk
      have := hX k (2 * (N / 2)) (by omega) (by omega)
      have e : (((N:Int) / 2).toNat : Int) = ((N / 2 : Nat) : Int) := by omega
      convert this using 1; rw [e]; push_cast; ring
    intro a h2 h3
    have e : (((N:Int) / 2).toNat : Int) + 1 = ((N + 1) / 2 : Nat) := by omega
    have e1 : ((((N:Int) / 2).toNat : Int) + 1) * (M:Int) = (((N:Int) / 2).toNat : Int) * M + M := by ring
    have h0 : (0:Int) ≤ (((N:Int) / 2).toNat : Int) * M := by positivity
    rw [e] at e1
    dsimp only at h2 h3
    refine h a ?_ ?_
    · omega
    · rw [e1]; omega

theorem NPACK_safe {pre : V4 F → V4 F} {op : VV F → VV F} {M N : Nat} {X LDX Xp : Int}
    (hX : ∀ r c : Nat, r < M → c < N → Q4 S (X + 4 * ((r:Int) + c * LDX)))
    (h : ∀ a, Xp ≤ a → a < Xp + 8 * (((M + 1) / 2 : Nat) * (N:Int)) → S a ∧ W a) :
    Safe S W (NPACK pre op M N X LDX Xp) (fun _ => True) := by
  refine safe_bind ((safe_foldI (fun i r => r = (X + 4 * (2 * (i:Int)), Xp + 8 * ((i:Int) * N))) (by simp) ?_).mono fun s hs => ?_)
  · rintro i s hi rfl
    have hi' : (i:Int) + 1 ≤ ((M + 1) / 2 : Nat) := by omega
    have hm : ((i:Int) + 1) * N ≤ ((M + 1) / 2 : Nat) * (N:Int) := mul_le_mul_of_nonneg_right hi' (by omega)
    have h0 : (0:Int) ≤ (i:Int) * N := by positivity
    have e1 : ((i:Int) + 1) * N = i * N + N := by ring
    refine safe_bind ((packCol2_safe ?_ ?_ ?_).mono fun r hr => safe_pure ?_)
    · intro k hk
      have := hX (2 * i) k (by omega) (by omega)
      convert this using 1; push_cast; ring
    · intro k hk
      have := hX (2 * i + 1) k (by omega) (by omega)
      convert this using 1; push_cast; ring
    · intro a h2 h3; dsimp only at h2 h3; exact h a (by omega) (by omega)
    · dsimp only; rw [hr]; dsimp only; push_cast; simp only [Prod.mk.injEq, Int.toNat_natCast]; constructor <;> ring
  · subst hs
    refine safe_ite (fun hN => safe_assert ?_ (safe_seq ((packCol1_safe ?_ ?_).mono fun _ _ => trivial) fun _ => trivial)) (fun _ => trivial)
    · simp; omega
    · intro k hk
      have := hX (2 * (M / 2)) k (by omega) (by omega)
      have e : (((M:Int) / 2).toNat : Int) = ((M / 2 : Nat) : Int) := by omega
      convert this using 1; rw [e]; push_cast; ring
    intro a h2 h3
    have e : (((M:Int) / 2).toNat : Int) + 1 = ((M + 1) / 2 : Nat) := by omega
    have e1 : ((((M:Int) / 2).toNat : Int) + 1) * (N:Int) = (((M:Int) / 2).toNat : Int) * N + N := by ring
    have h0 : (0:Int) ≤ (((M:Int) / 2).toNat : Int) * N := by positivity
    rw [e] at e1
    dsimp only at h2 h3
    refine h a ?_ ?_
    · omega
    · rw [e1]; omega

theorem safe_load2A {p : Int} (ha : p % 2 = 0) (h0 : S p) (h1 : S (p+1)) : Safe S W (load2A p : Prog F (V2 F)) (fun _ => True) := by
  unfold load2A; rw [if_pos ha]
  exact safe_seq (safe_rd h0) fun _ => safe_seq (safe_rd h1) fun _ => trivial

/-- A product step of the kernel. -/
theorem kernBody_safe {A B : Int} {s : KernSt F} (hA : s.locA = A) (hB : s.locB = B) (aA : aligned32 A = true) (aB : aligned32 B = true)
    (sA : ∀ a, A ≤ a → a < A + 8 → S a) (sB : ∀ a, B ≤ a → a < B + 8 → S a) :
    Safe S W (kernBody s) (fun r => r.locA = A + 8 ∧ r.locB = B + 8) := by
  subst hA hB
  have al1 : aligned32 (s.locA + 4 * 1) = true := by
    unfold aligned32 at *; simp only [beq_iff_eq] at *; omega
  have ev : s.locB % 2 = 0 := by
    unfold aligned32 at aB; simp only [beq_iff_eq] at aB; omega
  unfold kernBody
  refine safe_seq (safe_loadA aA fun a ha => sA a ha.1 (by unfold InQ at ha; omega)) fun _ => ?_
  refine safe_seq (safe_loadA al1 fun a ha => sA a (by unfold InQ at ha; omega) (by unfold InQ at ha; omega)) fun _ => ?_
  refine safe_seq (safe_load2A ev (sB _ (by omega) (by omega)) (sB _ (by omega) (by omega))) fun _ => ?_
  refine safe_seq (safe_load2A (by omega) (sB _ (by omega) (by omega)) (sB _ (by omega) (by omega))) fun _ => ?_
  refine safe_seq (safe_load2A (by omega) (sB _ (by omega) (by omega)) (sB _ (by omega) (by omega))) fun _ => ?_
  refine safe_seq (safe_load2A (by omega) (sB _ (by omega) (by omega)) (sB _ (by omega) (by omega))) fun _ => ?_
  exact safe_pure ⟨rfl, rfl⟩

theorem Kern_safe {M N A B C LDC : Int} {K : Nat} (hM : 0 < M) (hN : 0 < N) (aA : aligned32 A = true) (aB : aligned32 B = true)
    (sA : ∀ a, A ≤ a → a < A + 8 * K → S a) (sB : ∀ a, B ≤ a → a < B + 8 * K → S a)
    (h : ∀ i j : Nat, (i:Int) < M → (j:Int) < N → ∀ a, InQ (C + 4 * (i + j * LDC)) a → S a ∧ W a) :
    Safe S W (Kern M N K A B C LDC : Prog F Unit) (fun _ => True) := by
  have h00 : ∀ a, InQ C a → S a ∧ W a := fun a ha => h 0 0 (by simpa) (by simpa) a (by simpa using ha)
  have h10 : (M == 2) = true → ∀ a, InQ (C + 4 * 1) a → S a ∧ W a := fun e a ha => by
    have e' : M = 2 := by simpa using e
    exact h 1 0 (by subst e'; decide) (by simpa) a (by simpa using ha)
  have h01 : (N == 2) = true → ∀ a, InQ (C + 4 * LDC) a → S a ∧ W a := fun e a ha => by
    have e' : N = 2 := by simpa using e
    exact h 0 1 (by simpa) (by subst e'; decide) a (by simpa using ha)
  have h11 : (M == 2 && N == 2) = true → ∀ a, InQ (C + 4 * (LDC + 1)) a → S a ∧ W a := fun e a ha => by
    have e' : M = 2 ∧ N = 2 := by simpa using e
    obtain ⟨e1, e2⟩ := e'
    refine h 1 1 (by subst e1; decide) (by subst e2; decide) a ?_
    have : C + 4 * (((1:Nat):Int) + ((1:Nat):Int) * LDC) = C + 4 * (LDC + 1) := by push_cast; ring
    rw [this]; exact ha
  have ld : ∀ {p : Int}, (∀ a, InQ p a → S a ∧ W a) → Safe S W (loadQ p : Prog F (Quat F)) (fun _ => True) := fun g => safe_loadQ fun a ha => (g a ha).1
  have st : ∀ {p : Int} {q : Quat F}, (∀ a, InQ p a → S a ∧ W a) → Safe S W (storeQ p q) (fun _ => True) := fun g =>
    safe_storeQ (fun a ha => (g a ha).1) (fun a ha => (g a ha).2)
  unfold Kern
  refine safe_seq (ld h00) fun c00 => ?_
  have rest : ∀ c : R4 F, Safe S W (do
      let s ← foldN ((K:Int)).toNat (fun _ s => kernBody s) ⟨A, B, c⟩
      let c := transpose4 s.c
      storeQ C c.r1
      if (M == 2) then storeQ (C + 4 * 1) c.r3 else pure ()
      if (N == 2) then storeQ (C + 4 * LDC) c.r2 else pure ()
      if (M == 2) && (N == 2) then storeQ (C + 4 * (LDC + 1)) c.r4 else pure ()) (fun _ => True) := by
    intro c
    refine safe_seq ((safe_foldI (fun i (s : KernSt F) => s.locA = A + 8 * (i:Int) ∧ s.locB = B + 8 * (i:Int)) (by simp) ?_).mono fun _ _ => trivial) fun s => ?_
    · rintro i s hi ⟨e1, e2⟩
      rw [Int.toNat_natCast] at hi
      refine (kernBody_safe e1 e2 ?_ ?_ (fun a g1 g2 => sA a (by omega) (by omega)) (fun a g1 g2 => sB a (by omega) (by omega))).mono ?_
      · unfold aligned32 at *; simp only [beq_iff_eq] at *; omega
      · unfold aligned32 at *; simp only [beq_iff_eq] at *; omega
      · intro r hr; rw [hr.1, hr.2]; push_cast; constructor <;> ring
    refine safe_seq (st h00) fun _ => ?_
    have l3 : Safe S W (if ((M == 2) && (N == 2)) = true then storeQ (C + 4 * (LDC + 1)) (transpose4 s.c).r4 else pure ()) (fun _ => True) :=
      safe_ite (fun e => st (h11 e)) (fun _ => trivial)
    have l2 : Safe S W (do
        if (N == 2) then storeQ (C + 4 * LDC) (transpose4 s.c).r2 else pure ()
        if (M == 2) && (N == 2) then storeQ (C + 4 * (LDC + 1)) (transpose4 s.c).r4 else pure ()) (fun _ => True) :=
      safe_ite (fun e => safe_seq (st (h01 e)) fun _ => l3) (fun _ => l3)
    exact safe_ite (fun e => safe_seq (st (h10 e)) fun _ => l2) (fun _ => l2)
  refine safe_ite (fun e => safe_seq (ld (h10 e)) fun _ => ?_) (fun _ => ?_)
  all_goals
    refine safe_ite (fun e => safe_seq (ld (h01 e)) fun _ => ?_) (fun _ => ?_)
    all_goals
      refine safe_ite (fun e => safe_seq (ld (h11 e)) fun _ => ?_) (fun _ => ?_)
      all_goals exact rest _

theorem fits_le {x y : Int} (h : Fits32 y) (h0 : 0 ≤ x) (h1 : x ≤ y) : Fits32 x := by unfold Fits32 at *; omega

theorem al8 {p : Int} (n : Int) (h : aligned32 p = true) : aligned32 (p + 8 * n) = true := by
  unfold aligned32 at *; simp only [beq_iff_eq] at *; omega

theorem gemmII_safe {nI nK : Nat} {nJJJ aPack BL1 CBlk LDC : Int} (hN : 0 < nJJJ)
    (f1 : Fits32 (2 * (nK:Int))) (f2 : Fits32 ((nI:Int) + 2))
    (aA : aligned32 aPack = true) (aB : aligned32 BL1 = true)
    (sA : ∀ a, aPack ≤ a → a < aPack + 8 * (((nI + 1) / 2 : Nat) * (nK:Int)) → S a) (sB : ∀ a, BL1 ≤ a → a < BL1 + 8 * nK → S a)
    (h : ∀ i j : Nat, i < nI → (j:Int) < nJJJ → ∀ a, InQ (CBlk + 4 * (i + j * LDC)) a → S a ∧ W a) :
    Safe S W (gemmII nI nJJJ nK aPack BL1 CBlk LDC : Prog F Unit) (fun _ => True) := by
  refine safe_seq ((safe_foldI (fun b s => s = (CBlk + 4 * (2 * (b:Int)), aPack + 8 * ((b:Int) * nK))) (by simp) ?_).mono fun _ _ => trivial) fun _ => trivial
  rintro b s hb rfl
  have hb2 := nIter_lt2.1 hb
  have hi' : (b:Int) + 1 ≤ ((nI + 1) / 2 : Nat) := by omega
  have hm : ((b:Int) + 1) * nK ≤ ((nI + 1) / 2 : Nat) * (nK:Int) := mul_le_mul_of_nonneg_right hi' (by omega)
  have e1 : ((b:Int) + 1) * nK = b * nK + nK := by ring
  have h0 : (0:Int) ≤ (b:Int) * nK := by positivity
  refine safe_seq (Kern_safe (by omega) hN (al8 _ aA) aB (fun a g1 g2 => sA a (by dsimp only at g1; omega) (by dsimp only at g2; omega)) sB ?_) fun _ => ?_
  · intro i j hi hj a ha
    refine h (2 * b + i) j (by omega) hj a ?_
    have e : CBlk + 4 * (((2 * b + i : Nat):Int) + j * LDC) = CBlk + 4 * (2 * (b:Int)) + 4 * (i + j * LDC) := by push_cast; ring
    rw [e]; exact ha
  · have key : ∀ (p q z w : Int), Fits32 z → Fits32 w → w = 2 * (nK:Int) → p = CBlk + 4 * (2 * (b:Int)) → q = aPack + 8 * ((b:Int) * nK) →
        Safe S W (do let d ← i32 w; let _ ← i32 z; pure (p + 4 * 2, q + 4 * d) : Prog F (Int × Int))
          (fun s => s = (CBlk + 4 * (2 * ((b + 1 : Nat):Int)), aPack + 8 * (((b + 1 : Nat):Int) * nK))) := by
      rintro p q z w fz fw rfl rfl rfl
      refine safe_i32_bind fw (safe_i32_bind fz (safe_pure ?_))
      push_cast; congr 1 <;> ring
    exact key _ _ _ _ (fits_le f2 (by omega) (by omega)) f1 rfl rfl rfl

theorem gemmJJ_safe {nI nJ nK : Nat} {aPack bPack Ci LDC : Int}
    (f1 : Fits32 (2 * (nK:Int))) (f2 : Fits32 ((nI:Int) + 2)) (f3 : Fits32 ((nJ:Int) + 2)) (f4 : Fits32 (2 * LDC))
    (aA : aligned32 aPack = true) (aB : aligned32 bPack = true)
    (sA : ∀ a, aPack ≤ a → a < aPack + 8 * (((nI + 1) / 2 : Nat) * (nK:Int)) → S a)
    (sB : ∀ a, bPack ≤ a → a < bPack + 8 * (((nJ + 1) / 2 : Nat) * (nK:Int)) → S a)
    (h : ∀ i j : Nat, i < nI → j < nJ → ∀ a, InQ (Ci + 4 * (i + j * LDC)) a → S a ∧ W a) :
    Safe S W (gemmJJ nI nJ nK aPack bPack Ci LDC : Prog F Unit) (fun _ => True) := by
  refine safe_seq ((safe_foldI (fun b s => s = (bPack + 8 * ((b:Int) * nK), Ci + 4 * (2 * (b:Int) * LDC))) (by simp) ?_).mono fun _ _ => trivial) fun _ => trivial
  rintro b s hb rfl
  have hb2 := nIter_lt2.1 hb
  have hi' : (b:Int) + 1 ≤ ((nJ + 1) / 2 : Nat) := by omega
  have hm : ((b:Int) + 1) * nK ≤ ((nJ + 1) / 2 : Nat) * (nK:Int) := mul_le_mul_of_nonneg_right hi' (by omega)
  have e1 : ((b:Int) + 1) * nK = b * nK + nK := by ring
  have h0 : (0:Int) ≤ (b:Int) * nK := by positivity
  refine safe_seq (gemmII_safe (by omega) f1 f2 aA (al8 _ aB) sA (fun a g1 g2 => sB a (by omega) (by omega)) ?_) fun _ => ?_
  · intro i j hi hj a ha
    refine h i (2 * b + j) hi (by omega) a ?_
    have e : Ci + 4 * ((i:Int) + ((2 * b + j : Nat):Int) * LDC) = Ci + 4 * (2 * (b:Int) * LDC) + 4 * (i + j * LDC) := by push_cast; ring
    rw [e]; exact ha
  · have key : ∀ (p q z w v : Int), Fits32 z → Fits32 w → Fits32 v → w = 2 * (nK:Int) → v = 2 * LDC →
        p = bPack + 8 * ((b:Int) * nK) → q = Ci + 4 * (2 * (b:Int) * LDC) →
        Safe S W (do let d ← i32 w; let e ← i32 v; let _ ← i32 z; pure (p + 4 * d, q + 4 * e) : Prog F (Int × Int))
          (fun s => s = (bPack + 8 * (((b + 1 : Nat):Int) * nK), Ci + 4 * (2 * ((b + 1 : Nat):Int) * LDC))) := by
      rintro p q z w v fz fw fv rfl rfl rfl rfl
      refine safe_i32_bind fw (safe_i32_bind fv (safe_i32_bind fz (safe_pure ?_)))
      push_cast; congr 1 <;> ring
    exact key _ _ _ _ _ (fits_le f3 (by omega) (by omega)) f1 f4 rfl rfl rfl rfl

theorem aPackSel_safe {tA : Char} {ALPHA : Scal F} {nI nK : Nat} {Ai LDA aPack : Int}
    (hX : ∀ i k : Nat, i < nI → k < nK → Q4 S (Ai + 4 * ((i:Int) * rs tA LDA + k * cs tA LDA)))
    (h : ∀ a, aPack ≤ a → a < aPack + 8 * (((nI + 1) / 2 : Nat) * (nK:Int)) → S a ∧ W a) :
    Safe S W (aPackSel tA ALPHA nI nK Ai LDA aPack) (fun _ => True) := by
  have hT : (tA = 'T' ∨ tA = 'C') → ∀ r c : Nat, r < nK → c < nI → Q4 S (Ai + 4 * ((r:Int) + c * LDA)) := by
    intro e r c hr hc
    have := hX c r hc hr
    unfold rs cs at this; rw [if_pos e, if_pos e] at this
    convert this using 1; ring
  have hN : ¬ (tA = 'T' ∨ tA = 'C') → ∀ r c : Nat, r < nI → c < nK → Q4 S (Ai + 4 * ((r:Int) + c * LDA)) := by
    intro e r c hr hc
    have := hX r c hr hc
    unfold rs cs at this; rw [if_neg e, if_neg e] at this
    convert this using 1; ring
  exact safe_ite (fun e => TPACK_safe (hT (Or.inl e)) h) (fun e1 => safe_ite (fun e => TPACK_safe (hT (Or.inr e)) h)
    (fun e2 => safe_ite (fun _ => NPACK_safe (hN (by rintro (e | e); exacts [e1 e, e2 e])) h)
    (fun _ => NPACK_safe (hN (by rintro (e | e); exacts [e1 e, e2 e])) h)))

theorem bPackSel_safe {tB : Char} {nJ nK : Nat} {Bp LDB bPack : Int}
    (hX : ∀ j k : Nat, j < nJ → k < nK → Q4 S (Bp + 4 * ((j:Int) * cs tB LDB + k * rs tB LDB)))
    (h : ∀ a, bPack ≤ a → a < bPack + 8 * (((nJ + 1) / 2 : Nat) * (nK:Int)) → S a ∧ W a) :
    Safe S W (bPackSel tB nJ nK Bp LDB bPack : Prog F Unit) (fun _ => True) := by
  have hT : (tB = 'T' ∨ tB = 'C') → ∀ r c : Nat, r < nJ → c < nK → Q4 S (Bp + 4 * ((r:Int) + c * LDB)) := by
    intro e r c hr hc
    have := hX r c hr hc
    unfold rs cs at this; rw [if_pos e, if_pos e] at this
    convert this using 1; ring
  have hN : ¬ (tB = 'T' ∨ tB = 'C') → ∀ r c : Nat, r < nK → c < nJ → Q4 S (Bp + 4 * ((r:Int) + c * LDB)) := by
    intro e r c hr hc
    have := hX c r hc hr
    unfold rs cs at this; rw [if_neg e, if_neg e] at this
    convert this using 1; ring
  exact safe_ite (fun e => NPACK_safe (hT (Or.inl e)) h) (fun e1 => safe_ite (fun e => NPACK_safe (hT (Or.inr e)) h)
    (fun e2 => safe_ite (fun _ => TPACK_safe (hN (by rintro (e | e); exacts [e1 e, e2 e])) h)
    (fun _ => TPACK_safe (hN (by rintro (e | e); exacts [e1 e, e2 e])) h)))

theorem advance_safe {c : Prop} [Decidable c] {p n LD : Int} (f : Fits32 (n * LD)) :
    Safe S W (advance c p n LD : Prog F Int) (fun r => r = p + 4 * (n * if c then LD else 1)) := by
  unfold advance
  split
  · exact safe_i32_bind f (safe_pure rfl)
  · exact safe_pure (by ring)

theorem gemmI_safe {mc nc kc : Nat} {tA : Char} {M nJ nK : Nat} {ALPHA : Scal F} {Ap LDA Cj LDC aPack bPack : Int}
    (hmc : 0 < mc) (hme : mc % 2 = 0) (hk : nK ≤ kc)
    (f1 : Fits32 (2 * (nK:Int))) (f2 : Fits32 ((M:Int) + mc + 2)) (f3 : Fits32 ((nJ:Int) + 2)) (f4 : Fits32 (2 * LDC))
    (f5 : Fits32 (((min M mc : Nat):Int) * LDA))
    (aA : 0 < M → aligned32 aPack = true) (aB : aligned32 bPack = true)
    (hA : 0 < M → ∀ a, InBuf aPack (4 * fixMod ((kc:Int) * mc) 32) a → S a ∧ W a)
    (sB : ∀ a, bPack ≤ a → a < bPack + 8 * (((nJ + 1) / 2 : Nat) * (nK:Int)) → S a)
    (hX : ∀ i k : Nat, i < M → k < nK → Q4 S (Ap + 4 * ((i:Int) * rs tA LDA + k * cs tA LDA)))
    (hC : ∀ i j : Nat, i < M → j < nJ → ∀ a, InQ (Cj + 4 * (i + j * LDC)) a → S a ∧ W a) :
    Safe S W (gemmI ⟨mc, nc, kc⟩ tA M nJ nK ALPHA Ap LDA Cj LDC aPack bPack) (fun _ => True) := by
  refine safe_seq ((safe_foldI (fun b s => b * mc ≤ M → s = (Ap + 4 * ((b:Int) * mc * rs tA LDA), Cj + 4 * ((b:Int) * mc))) (by simp) ?_).mono fun _ _ => trivial) fun _ => trivial
  intro b s hb hs
  have hb2 : b * mc < M := (nIter_lt hmc).1 hb
  obtain rfl := hs hb2.le
  clear hs
  unfold gemmIStep
  refine safe_bind (safe_pure ?_)
  dsimp only
  rw [min_block hb2]
  have hle : min (M - b * mc) mc ≤ min M mc := by omega
  have buf : ∀ a, aPack ≤ a → a < aPack + 8 * (((min (M - b * mc) mc + 1) / 2 : Nat) * (nK:Int)) → S a ∧ W a := by
    intro a h1 h2
    refine hA (by omega) a ⟨h1, ?_⟩
    have := buf_bound (n := min (M - b * mc) mc) (c := mc) (k := nK) (kc := kc) (by omega) hme hk
    omega
  have hbM : (b:Int) * mc ≤ M := by exact_mod_cast hb2.le
  have hb0 : (0:Int) ≤ (b:Int) * mc := by positivity
  refine safe_seq (aPackSel_safe ?_ buf) fun _ => safe_seq (gemmJJ_safe f1 (fits_le f2 (by omega) (by omega)) f3 f4 (aA (by omega)) aB (fun a g1 g2 => (buf a g1 g2).1) sB ?_) fun _ => safe_bind
    ((advance_safe (fits_between f5 hle)).mono fun r hr => safe_i32_bind (fits_le f2 (by omega) (by omega)) (safe_pure ?_))
  · intro i k hi hk
    have := hX (b * mc + i) k (by omega) hk
    convert this using 1; push_cast; ring
  · intro i j hi hj a ha
    refine hC (b * mc + i) j (by omega) hj a ?_
    have e : Cj + 4 * (((b * mc + i : Nat):Int) + j * LDC) = Cj + 4 * ((b:Int) * mc) + 4 * (i + j * LDC) := by push_cast; ring
    rw [e]; exact ha
  · intro hle
    have e : min (M - b * mc) mc = mc := by
      rw [Nat.succ_mul] at hle; omega
    rw [hr, e]
    show (_, _) = _
    unfold rs
    push_cast; congr 1 <;> ring

theorem gemmK_safe {mc nc kc : Nat} {tA tB : Char} {M nJ K : Nat} {ALPHA : Scal F} {A LDA Bj LDB Cj LDC aPack bPack : Int}
    (hmc : 0 < mc) (hkc : 0 < kc) (hme : mc % 2 = 0) (hne : nc % 2 = 0) (hj : nJ ≤ nc)
    (f1 : Fits32 (2 * (kc:Int))) (f2 : Fits32 ((M:Int) + mc + 2)) (f3 : Fits32 ((nJ:Int) + 2)) (f4 : Fits32 (2 * LDC))
    (f5 : Fits32 (((min M mc : Nat):Int) * LDA)) (f6 : Fits32 ((K:Int) + kc))
    (f7 : Fits32 (((min K kc : Nat):Int) * LDA)) (f8 : Fits32 (((min K kc : Nat):Int) * LDB))
    (aA : 0 < M → aligned32 aPack = true) (aB : aligned32 bPack = true)
    (hA : 0 < M → ∀ a, InBuf aPack (4 * fixMod ((kc:Int) * mc) 32) a → S a ∧ W a)
    (hB : ∀ a, InBuf bPack (4 * fixMod ((kc:Int) * nc) 32) a → S a ∧ W a)
    (hX : ∀ i k : Nat, i < M → k < K → Q4 S (A + 4 * ((i:Int) * rs tA LDA + k * cs tA LDA)))
    (hY : ∀ j k : Nat, j < nJ → k < K → Q4 S (Bj + 4 * ((j:Int) * cs tB LDB + k * rs tB LDB)))
    (hC : ∀ i j : Nat, i < M → j < nJ → ∀ a, InQ (Cj + 4 * (i + j * LDC)) a → S a ∧ W a) :
    Safe S W (gemmK ⟨mc, nc, kc⟩ tA tB M nJ K ALPHA A LDA Bj LDB Cj LDC aPack bPack) (fun _ => True) := by
  refine safe_seq ((safe_foldI (fun b s => b * kc ≤ K → s = (A + 4 * ((b:Int) * kc * cs tA LDA), Bj + 4 * ((b:Int) * kc * rs tB LDB))) (by simp) ?_).mono fun _ _ => trivial) fun _ => trivial
  intro b s hb hs
  have hb2 : b * kc < K := (nIter_lt hkc).1 hb
  obtain rfl := hs hb2.le
  clear hs
  unfold gemmKStep
  refine safe_bind (safe_pure ?_)
  dsimp only
  rw [min_block hb2]
  have hle : min (K - b * kc) kc ≤ min K kc := by omega
  have hbK : (b:Int) * kc ≤ K := by exact_mod_cast hb2.le
  have hb0 : (0:Int) ≤ (b:Int) * kc := by positivity
  have buf : ∀ a, bPack ≤ a → a < bPack + 8 * (((nJ + 1) / 2 : Nat) * ((min (K - b * kc) kc : Nat):Int)) → S a ∧ W a := by
    intro a h1 h2
    refine hB a ⟨h1, ?_⟩
    have := buf_bound (n := nJ) (c := nc) (k := min (K - b * kc) kc) (kc := kc) hj hne (by omega)
    omega
  refine safe_seq (bPackSel_safe ?_ buf) fun _ => safe_seq (gemmI_safe hmc hme (by omega) (fits_le f1 (by omega) (by omega)) f2 f3 f4 f5 aA aB hA
    (fun a g1 g2 => (buf a g1 g2).1) ?_ hC) fun _ => safe_bind
    ((advance_safe (fits_between f7 hle)).mono fun r hr => safe_bind ((advance_safe (fits_between f8 hle)).mono fun r' hr' =>
      safe_i32_bind (fits_le f6 (by omega) (by omega)) (safe_pure ?_)))
  · intro j k hj hk
    have := hY j (b * kc + k) hj (by omega)
    convert this using 1; push_cast; ring
  · intro i k hi hk
    have := hX i (b * kc + k) hi (by omega)
    convert this using 1; push_cast; ring
  · intro hle
    have e : min (K - b * kc) kc = kc := by
      rw [Nat.succ_mul] at hle; omega
    rw [hr, hr', e]
    show (_, _) = _
    unfold rs cs
    by_cases e1 : tA = 'T' ∨ tA = 'C'
    · rw [if_neg (not_not.2 e1), if_pos e1]; push_cast; congr 1 <;> ring
    · rw [if_pos e1, if_neg e1]; push_cast; congr 1 <;> ring

theorem gemmJ_safe {mc nc kc : Nat} {tA tB : Char} {M N K : Nat} {ALPHA : Scal F} {A LDA B LDB C LDC aPack bPack : Int}
    (hmc : 0 < mc) (hnc : 0 < nc) (hkc : 0 < kc) (hme : mc % 2 = 0) (hne : nc % 2 = 0)
    (f1 : Fits32 (2 * (kc:Int))) (f2 : Fits32 ((M:Int) + mc + 2)) (f3 : Fits32 ((N:Int) + nc + 2)) (f4 : Fits32 (2 * LDC))
    (f5 : Fits32 (((min M mc : Nat):Int) * LDA)) (f6 : Fits32 ((K:Int) + kc))
    (f7 : Fits32 (((min K kc : Nat):Int) * LDA)) (f8 : Fits32 (((min K kc : Nat):Int) * LDB))
    (f9 : Fits32 (((min N nc : Nat):Int) * LDC)) (f10 : Fits32 (((min N nc : Nat):Int) * LDB))
    (aA : 0 < M → aligned32 aPack = true) (aB : aligned32 bPack = true)
    (hA : 0 < M → ∀ a, InBuf aPack (4 * fixMod ((kc:Int) * mc) 32) a → S a ∧ W a)
    (hB : ∀ a, InBuf bPack (4 * fixMod ((kc:Int) * nc) 32) a → S a ∧ W a)
    (hX : ∀ i k : Nat, i < M → k < K → Q4 S (A + 4 * ((i:Int) * rs tA LDA + k * cs tA LDA)))
    (hY : ∀ j k : Nat, j < N → k < K → Q4 S (B + 4 * ((j:Int) * cs tB LDB + k * rs tB LDB)))
    (hC : ∀ i j : Nat, i < M → j < N → ∀ a, InQ (C + 4 * (i + j * LDC)) a → S a ∧ W a) :
    Safe S W (gemmJ ⟨mc, nc, kc⟩ tA tB M N K ALPHA A LDA B LDB C LDC aPack bPack) (fun _ => True) := by
  refine safe_seq ((safe_foldI (fun b s => b * nc ≤ N → s = (C + 4 * ((b:Int) * nc * LDC), B + 4 * ((b:Int) * nc * cs tB LDB))) (by simp) ?_).mono fun _ _ => trivial) fun _ => trivial
  intro b s hb hs
  have hb2 : b * nc < N := (nIter_lt hnc).1 hb
  obtain rfl := hs hb2.le
  clear hs
  unfold gemmJStep
  refine safe_bind (safe_pure ?_)
  dsimp only
  rw [min_block hb2]
  have hle : min (N - b * nc) nc ≤ min N nc := by omega
  have hbN : (b:Int) * nc ≤ N := by exact_mod_cast hb2.le
  have hb0 : (0:Int) ≤ (b:Int) * nc := by positivity
  refine safe_seq (gemmK_safe hmc hkc hme hne (by omega) f1 f2 (fits_le f3 (by omega) (by omega)) f4 f5 f6 f7 f8 aA aB hA hB hX ?_ ?_) fun _ =>
    safe_i32_bind (fits_between f9 hle) (safe_bind ((advance_safe (fits_between f10 hle)).mono fun r hr =>
      safe_i32_bind (fits_le f3 (by omega) (by omega)) (safe_pure ?_)))
  · intro j k hj hk
    have := hY (b * nc + j) k (by omega) hk
    convert this using 1; push_cast; ring
  · intro i j hi hj a ha
    refine hC i (b * nc + j) hi (by omega) a ?_
    have e : C + 4 * ((i:Int) + ((b * nc + j : Nat):Int) * LDC) = C + 4 * ((b:Int) * nc * LDC) + 4 * (i + j * LDC) := by push_cast; ring
    rw [e]; exact ha
  · intro hle
    have e : min (N - b * nc) nc = nc := by
      rw [Nat.succ_mul] at hle; omega
    rw [hr, e]
    show (_, _) = _
    unfold cs
    by_cases e1 : tB = 'T' ∨ tB = 'C'
    · rw [if_neg (not_not.2 e1), if_pos e1]; push_cast; congr 1 <;> ring
    · rw [if_pos e1, if_neg e1]; push_cast; congr 1 <;> ring

/-- What GEMM asks of its arguments whatever the memory holds: positive block sizes, even ones for the panels,
aligned work arrays, and no 32-bit overflow.  Nothing is asked of the places of the operands. -/
structure GemmValid (blk : Blk) (bAddr aAddr : Int) (M N K : Nat) (LDA LDB LDC : Int) : Prop where
  mc_pos : 0 < blk.MC
  nc_pos : 0 < blk.NC
  kc_pos : 0 < blk.KC
  mc_even : blk.MC % 2 = 0
  nc_even : blk.NC % 2 = 0
  alignB : aligned32 bAddr = true
  alignA : aligned32 aAddr = true
  kc32 : Fits32 (2 * blk.KC)
  m32 : Fits32 ((M:Int) + blk.MC + 2)
  n32 : Fits32 ((N:Int) + blk.NC + 2)
  k32 : Fits32 ((K:Int) + blk.KC)
  ldc32 : Fits32 (2 * LDC)
  ldcN32 : Fits32 (min (N:Int) blk.NC * LDC)
  ldbN32 : Fits32 (min (N:Int) blk.NC * LDB)
  ldbK32 : Fits32 (min (K:Int) blk.KC * LDB)
  ldaM32 : Fits32 (min (M:Int) blk.MC * LDA)
  ldaK32 : Fits32 (min (K:Int) blk.KC * LDA)

/-- GEMM between the allocation and the release of its work arrays. -/
theorem gemmBody_safe {blk : Blk} {bAddr aAddr : Int} {tA tB : Char} {M N K : Nat} {ALPHA BETA : Scal F}
    {A LDA B LDB C LDC : Int} (h : GemmValid blk bAddr aAddr M N K LDA LDB LDC)
    (hA : ∀ a, MatCell A LDA (if isT tA then K else M) (if isT tA then M else K) a → S a)
    (hB : ∀ a, MatCell B LDB (if isT tB then N else K) (if isT tB then K else N) a → S a)
    (hC : ∀ a, MatCell C LDC M N a → S a ∧ W a)
    (bB : ∀ a, InBuf bAddr (4 * fixMod (blk.KC * blk.NC) 32) a → S a ∧ W a)
    (bA : 0 < M → ∀ a, InBuf aAddr (4 * fixMod (blk.KC * blk.MC) 32) a → S a ∧ W a) :
    Safe S W (scalm scalvAVX 'L' 'N' M N BETA C LDC 1 >>= fun _ =>
      gemmJ blk tA tB M N K ALPHA A LDA B LDB C LDC aAddr bAddr) (fun _ => True) := by
  obtain ⟨h1, h2, h3, h4, h5, h6, h7, f1, f2, f3, f4, f5, f6, f7, f8, f9, f10⟩ := h
  obtain ⟨mc, hmc'⟩ : ∃ n : Nat, blk.MC = n := ⟨blk.MC.toNat, by omega⟩
  obtain ⟨nc, hnc'⟩ : ∃ n : Nat, blk.NC = n := ⟨blk.NC.toNat, by omega⟩
  obtain ⟨kc, hkc'⟩ : ∃ n : Nat, blk.KC = n := ⟨blk.KC.toNat, by omega⟩
  obtain ⟨MC, NC, KC⟩ := blk
  dsimp only at *
  subst hmc' hnc' hkc'
  refine safe_seq (scalm_safe (fun X hX => scalv_safe (fun a ha => (hX a ha).1) (fun a ha => (hX a ha).2)) ?_) fun _ => ?_
  · intro a ha
    exact hC a (by simpa using smatCell_one.1 ha)
  · refine gemmJ_safe (mc := mc) (nc := nc) (kc := kc) (by omega) (by omega) (by omega) (by omega) (by omega) f1 f2 f3 f5 ?_ f4 ?_ ?_ ?_ ?_ (fun _ => h7) h6 bA bB ?_ ?_ ?_
    any_goals (push_cast; assumption)
    · intro i k hi hk a ha
      exact hA a (smat_opA_cell ⟨i, k, hi, hk, ha⟩)
    · intro j k hj hk a ha
      exact hB a (smat_opB_cell ⟨j, k, hj, hk, ha⟩)
    · intro i j hi hj a ha
      exact hC a ⟨i, j, hi, hj, ha⟩

end
end Haxx.Thr
