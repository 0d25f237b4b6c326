import Verif.Drivers
import Verif.PropsGemm
import Verif.PropsFBits4

/-!
# C72: the shipped benchmark and tuning programs

The benchmark programs run to their end from any memory, for any clock, random numbers and addresses an allocator may return,
without a fault, and give back all the memory they took.  The tuning program reads an uninitialised duration.
-/

set_option linter.unusedSectionVars false

namespace Haxx
open Arith Drv Quaternion

variable {F : Type} [Arith F]

/-- What the allocator owes one pass of the GEMM loop with `n × n` matrices: every block it returns is unused, the blocks alive
at the same time have nothing in common, and the two packing buffers (`64·512` and `64·64` quaternions) are 32-byte aligned. -/
structure FreshPass (m : Mem F) (d : Addrs) (n : Nat) : Prop where
  A : ∀ a, InBuf d.A (4 * (n * n)) a → m a = none
  B : ∀ a, InBuf d.B (4 * (n * n)) a → m a = none
  C : ∀ a, InBuf d.C (4 * (n * n)) a → m a = none
  bW : ∀ a, InBuf d.bWarm (4 * 32768) a → m a = none
  aW : ∀ a, InBuf d.aWarm (4 * 4096) a → m a = none
  bT : ∀ a, InBuf d.bTimed (4 * 32768) a → m a = none
  aT : ∀ a, InBuf d.aTimed (4 * 4096) a → m a = none
  AB : Apart (InBuf d.A (4 * (n * n))) (InBuf d.B (4 * (n * n)))
  AC : Apart (InBuf d.A (4 * (n * n))) (InBuf d.C (4 * (n * n)))
  BC : Apart (InBuf d.B (4 * (n * n))) (InBuf d.C (4 * (n * n)))
  warm : Apart (InBuf d.bWarm (4 * 32768)) (InBuf d.aWarm (4 * 4096))
  timed : Apart (InBuf d.bTimed (4 * 32768)) (InBuf d.aTimed (4 * 4096))
  bufs : ∀ a, InBuf d.A (4 * (n * n)) a ∨ InBuf d.B (4 * (n * n)) a ∨ InBuf d.C (4 * (n * n)) a →
    ¬ InBuf d.bWarm (4 * 32768) a ∧ ¬ InBuf d.aWarm (4 * 4096) a ∧ ¬ InBuf d.bTimed (4 * 32768) a ∧ ¬ InBuf d.aTimed (4 * 4096) a
  alBW : aligned32 d.bWarm = true
  alAW : aligned32 d.aWarm = true
  alBT : aligned32 d.bTimed = true
  alAT : aligned32 d.aTimed = true

/-- A vector of `n·n` quaternions read as the column-major `n × n` matrix. -/
def asMat (n : Nat) (r : Nat → Quat F) : Nat → Nat → Quat F := fun i j => r (i + j * n)

theorem inBuf_of_matCell {p : Int} {n : Nat} {a : Int} (h : MatCell p n n n a) : InBuf p (4 * ((n:Int) * n)) a := by
  obtain ⟨i, j, hi, hj, ha⟩ := h
  unfold InQ at ha
  have h1 : (i:Int) + j * n + 1 ≤ n * n := by
    have : i + j * n + 1 ≤ n * n := by nlinarith
    exact_mod_cast this
  have h0 : (0:Int) ≤ (i:Int) + j * n := by positivity
  constructor
  · omega
  · omega

/-- A block of `n` quaternions at `p`, and its elements. -/
theorem inBuf_elem {p : Int} {n e : Nat} {a : Int} (he : e < n) (ha : InQ (p + 4 * (e:Int)) a) : InBuf p (4 * (n:Int)) a := by
  unfold InQ at ha; constructor <;> omega

/-- `fill` writes the vector and nothing else. -/
theorem fill_wp {m0 : Mem F} {p : Int} {n : Nat} {r : Nat → Quat F} {Q : Unit → Mem F → Prop}
    (hacc : ∀ e, e < n → ∃ q, readQ m0 (p + 4 * (e:Int)) = some q)
    (hQ : ∀ m, (∀ e, e < n → readQ m (p + 4 * (e:Int)) = some (r e)) → (∀ a, ¬ InBuf p (4 * (n:Int)) a → m a = m0 a) → Q () m) :
    wp (fill p n r) m0 Q := by
  unfold fill
  refine wp_forN (fun i m => (∀ e, e < i → readQ m (p + 4 * (e:Int)) = some (r e)) ∧
      (∀ e, i ≤ e → e < n → ∃ q, readQ m (p + 4 * (e:Int)) = some q) ∧ (∀ a, ¬ InBuf p (4 * (n:Int)) a → m a = m0 a))
    ⟨fun e he => absurd he (by omega), fun e _ he => hacc e he, fun _ _ => rfl⟩ ?_ (fun m h => hQ m h.1 h.2.2)
  rintro i m hi ⟨h1, h2, h3⟩
  obtain ⟨q, hq⟩ := h2 i (le_refl i) hi
  rw [wp_storeQ hq]
  refine ⟨?_, ?_, ?_⟩
  · intro e he
    by_cases hei : e = i
    · subst hei; exact readQ_writeQ_same _ _ _
    · rw [readQ_writeQ_disj (by unfold QDisj; omega)]; exact h1 e (by omega)
  · intro e he hn
    rw [readQ_writeQ_disj (by unfold QDisj; omega)]; exact h2 e (by omega) hn
  · intro a ha
    rw [writeQ_other (fun h => ha (inBuf_elem hi h))]; exact h3 a ha

/-- The memory inside a pass: the three matrices hold `Av`, `Bv`, `Cv`; everything else is as before the pass. -/
structure InPass (m0 : Mem F) (d : Addrs) (n : Nat) (Av Bv Cv : Nat → Nat → Quat F) (m : Mem F) : Prop where
  A : MatAt m d.A n n n Av
  B : MatAt m d.B n n n Bv
  C : MatAt m d.C n n n Cv
  rest : ∀ a, ¬ InBuf d.A (4 * (n * n)) a → ¬ InBuf d.B (4 * (n * n)) a → ¬ InBuf d.C (4 * (n * n)) a → m a = m0 a

theorem gemmPre_pass {m0 m : Mem F} {d : Addrs} {n : Nat} {Av Bv Cv : Nat → Nat → Quat F} {b a : Int}
    (h : InPass m0 d n Av Bv Cv m) (hf : FreshPass m0 d n) (hn : n ≤ 1000000)
    (fb : ∀ x, InBuf b (4 * 32768) x → m0 x = none) (fa : ∀ x, InBuf a (4 * 4096) x → m0 x = none)
    (fab : Apart (InBuf b (4 * 32768)) (InBuf a (4 * 4096))) (alb : aligned32 b = true) (ala : aligned32 a = true)
    (hx : ∀ x, InBuf d.A (4 * (n * n)) x ∨ InBuf d.B (4 * (n * n)) x ∨ InBuf d.C (4 * (n * n)) x →
      ¬ InBuf b (4 * 32768) x ∧ ¬ InBuf a (4 * 4096) x) :
    GemmPre m ⟨64, 512, 64⟩ b a 'N' 'N' n n n d.A n Av d.B n Bv d.C n Cv := by
  have e1 : fixMod ((64:Int) * 64) 32 = 4096 := by decide
  have e2 : fixMod ((64:Int) * 512) 32 = 32768 := by decide
  have hT : isT 'N' = false := by decide
  refine ⟨by decide, by decide, by decide, by decide, by decide, ?_, ?_, h.C, by positivity, by positivity, le_refl _, ?_, ?_,
    alb, ala, ?_, ?_, ?_, ?_, ?_, ?_, ?_, ?_, ?_, ?_, ?_, ?_, ?_⟩
  · simpa [hT] using h.A
  · simpa [hT] using h.B
  · simp only [hT, Bool.false_eq_true, if_false]
    exact fun x h1 h2 => hf.AC x (inBuf_of_matCell h1) (inBuf_of_matCell h2)
  · simp only [hT, Bool.false_eq_true, if_false]
    exact fun x h1 h2 => hf.BC x (inBuf_of_matCell h1) (inBuf_of_matCell h2)
  · intro x hxb
    simp only [e2] at hxb
    rw [h.rest x (fun q => (hx x (.inl q)).1 hxb) (fun q => (hx x (.inr (.inl q))).1 hxb) (fun q => (hx x (.inr (.inr q))).1 hxb)]
    exact fb x hxb
  · intro x hxb
    simp only [e1] at hxb
    rw [h.rest x (fun q => (hx x (.inl q)).2 hxb) (fun q => (hx x (.inr (.inl q))).2 hxb) (fun q => (hx x (.inr (.inr q))).2 hxb)]
    exact fa x hxb
  · simpa only [e1, e2] using fab
  all_goals unfold Fits32
  all_goals try dsimp only
  all_goals first
    | (constructor <;> omega)
    | (have k1 : min (n:Int) 512 * n ≤ 512 * n := mul_le_mul_of_nonneg_right (min_le_right _ _) (by positivity)
       have k2 : 0 ≤ min (n:Int) 512 * n := by positivity
       constructor <;> omega)
    | (have k1 : min (n:Int) 64 * n ≤ 64 * n := mul_le_mul_of_nonneg_right (min_le_right _ _) (by positivity)
       have k2 : 0 ≤ min (n:Int) 64 * n := by positivity
       constructor <;> omega)

/-- One call of the pass. -/
theorem call_wp {m0 m : Mem F} {d : Addrs} {n : Nat} {Av Bv Cv : Nat → Nat → Quat F} {b a : Int} {junk : Int → F} {r : Draws F}
    (h : InPass m0 d n Av Bv Cv m) (hf : FreshPass m0 d n) (hn : n ≤ 1000000)
    (fb : ∀ x, InBuf b (4 * 32768) x → m0 x = none) (fa : ∀ x, InBuf a (4 * 4096) x → m0 x = none)
    (fab : Apart (InBuf b (4 * 32768)) (InBuf a (4 * 4096))) (alb : aligned32 b = true) (ala : aligned32 a = true)
    (hx : ∀ x, InBuf d.A (4 * (n * n)) x ∨ InBuf d.B (4 * (n * n)) x ∨ InBuf d.C (4 * (n * n)) x →
      ¬ InBuf b (4 * 32768) x ∧ ¬ InBuf a (4 * 4096) x) :
    wp (call b a junk d r n) m (fun _ m' => InPass m0 d n Av Bv (fun i j => gemmElt 'N' 'N' (.z r.alpha) (.z r.beta) n
      (fun k => Av i k) (fun k => Bv k j) (Cv i j)) m') := by
  refine wp_mono (gemmAVX_wp (gemmPre_pass h hf hn fb fa fab alb ala hx)) ?_
  rintro _ m' ⟨h1, h2⟩
  have hT : isT 'N' = false := by decide
  refine ⟨matAt_congr (fun x hxa => (h2 x (fun hc => hf.AC x (inBuf_of_matCell hxa) (inBuf_of_matCell hc))).symm) h.A,
    matAt_congr (fun x hxa => (h2 x (fun hc => hf.BC x (inBuf_of_matCell hxa) (inBuf_of_matCell hc))).symm) h.B, ?_, ?_⟩
  · simpa [opE, hT] using h1
  · intro x ha hb hc
    rw [h2 x (fun q => hc (inBuf_of_matCell q))]; exact h.rest x ha hb hc

/-- The entries of `C` when the timed call returns. -/
def passC (r : Draws F) (n i j : Nat) : Quat F :=
  let once := fun c => gemmElt 'N' 'N' (.z r.alpha) (.z r.beta) n (fun k => asMat n r.rA i k) (fun k => asMat n r.rB k j) c
  if n = 500 then once (once (asMat n r.rC i j)) else once (asMat n r.rC i j)

theorem passBody_wp {m0 : Mem F} {d : Addrs} {n : Nat} {junk : Int → F} {r : Draws F} (hf : FreshPass m0 d n) (hn : n ≤ 1000000) :
    wp (passBody junk d r n) m0 (fun _ m' => InPass m0 d n (asMat n r.rA) (asMat n r.rB) (passC r n) m') := by
  unfold passBody vecNew
  have eN : ((n * n : Nat) : Int) = (n:Int) * n := by push_cast; rfl
  have inb : ∀ {p : Int} {e : Nat} {a : Int}, e < n * n → InQ (p + 4 * (e:Int)) a → InBuf p (4 * ((n:Int) * n)) a := by
    intro p e a he ha; rw [← eN]; exact inBuf_elem he ha
  rw [wp_bind, wp_allocQ, wp_bind, wp_allocQ, wp_bind, wp_allocQ, wp_bind]
  simp only [eN]
  have rdz : ∀ {m : Mem F} {p : Int} {e : Nat}, (∀ a, InQ (p + 4 * (e:Int)) a → m a = some zero) →
      ∃ q, readQ m (p + 4 * (e:Int)) = some q := by
    intro m p e h
    refine ⟨⟨zero, zero, zero, zero⟩, readQ_eq_some.mpr ⟨h _ ?_, h _ ?_, h _ ?_, h _ ?_⟩⟩ <;> unfold InQ <;> omega
  have toMat : ∀ {m : Mem F} {p : Int} {q : Nat → Quat F}, (∀ e, e < n * n → readQ m (p + 4 * (e:Int)) = some (q e)) →
      MatAt m p n n n (asMat n q) := by
    intro m p q h i j hi hj
    have := h (i + j * n) (by nlinarith)
    push_cast at this
    exact this
  refine fill_wp ?_ ?_
  · intro e he
    refine rdz (fun a ha => ?_)
    have h1 := inb he ha
    have h2 := hf.AB a h1
    have h3 := hf.AC a h1
    unfold InBuf at h1 h2 h3
    rw [if_neg h3, if_neg h2, if_pos h1]
  intro m1 hA rA
  rw [eN] at rA
  rw [wp_bind]
  refine fill_wp ?_ ?_
  · intro e he
    refine rdz (fun a ha => ?_)
    have h1 := inb he ha
    have h2 := fun h => hf.AB a h h1
    have h3 := hf.BC a h1
    rw [rA a h2]
    unfold InBuf at h1 h2 h3
    rw [if_neg h3, if_pos h1]
  intro m2 hB rB
  rw [eN] at rB
  rw [wp_bind]
  refine fill_wp ?_ ?_
  · intro e he
    refine rdz (fun a ha => ?_)
    have h1 := inb he ha
    have h2 := fun h => hf.AC a h h1
    have h3 := fun h => hf.BC a h h1
    rw [rB a h3, rA a h2]
    unfold InBuf at h1
    rw [if_pos h1]
  intro m3 hC rC
  rw [eN] at rC
  have h3 : InPass m0 d n (asMat n r.rA) (asMat n r.rB) (asMat n r.rC) m3 := by
    refine ⟨toMat ?_, toMat ?_, toMat hC, ?_⟩
    · intro e he
      rw [← hA e he]
      refine readQ_congr (fun a ha => ?_)
      rw [rC a (fun h => hf.AC a (inb he ha) h), rB a (fun h => hf.AB a (inb he ha) h)]
    · intro e he
      rw [← hB e he]
      refine readQ_congr (fun a ha => ?_)
      rw [rC a (fun h => hf.BC a (inb he ha) h)]
    · intro a ha hb hc
      rw [rC a hc, rB a hb, rA a ha]
      unfold InBuf at ha hb hc
      rw [if_neg hc, if_neg hb, if_neg ha]
  have xW := fun x hx => (show _ ∧ _ from ⟨(hf.bufs x hx).1, (hf.bufs x hx).2.1⟩)
  have xT := fun x hx => (show _ ∧ _ from ⟨(hf.bufs x hx).2.2.1, (hf.bufs x hx).2.2.2⟩)
  by_cases h5 : n = 500
  · rw [if_pos h5, wp_bind]
    refine wp_mono (call_wp h3 hf hn hf.bW hf.aW hf.warm hf.alBW hf.alAW xW) ?_
    intro _ m4 h4
    refine wp_mono (call_wp h4 hf hn hf.bT hf.aT hf.timed hf.alBT hf.alAT xT) ?_
    intro _ m5 h6
    have e : passC r n = fun i j => gemmElt 'N' 'N' (.z r.alpha) (.z r.beta) n (fun k => asMat n r.rA i k)
        (fun k => asMat n r.rB k j) (gemmElt 'N' 'N' (.z r.alpha) (.z r.beta) n (fun k => asMat n r.rA i k)
        (fun k => asMat n r.rB k j) (asMat n r.rC i j)) := by
      funext i j; unfold passC; rw [if_pos h5]
    rw [e]; exact h6
  · rw [if_neg h5]
    refine wp_mono (call_wp h3 hf hn hf.bT hf.aT hf.timed hf.alBT hf.alAT xT) ?_
    intro _ m5 h6
    have e : passC r n = fun i j => gemmElt 'N' 'N' (.z r.alpha) (.z r.beta) n (fun k => asMat n r.rA i k)
        (fun k => asMat n r.rB k j) (asMat n r.rC i j) := by
      funext i j; unfold passC; rw [if_neg h5]
    rw [e]; exact h6

/-- Freeing the three vectors gives the memory before the pass. -/
theorem passEnd_eq {m0 m : Mem F} {d : Addrs} {n : Nat} {Av Bv Cv : Nat → Nat → Quat F} (hf : FreshPass m0 d n)
    (h : InPass m0 d n Av Bv Cv m) : (passEnd d n : Prog F Unit) m = .ok ((), m0) := by
  have : wp (passEnd d n : Prog F Unit) m (fun _ m' => m' = m0) := by
    unfold passEnd
    rw [wp_bind, wp_freeQ, wp_bind, wp_freeQ, wp_freeQ]
    funext a
    by_cases hA : d.A ≤ a ∧ a < d.A + 4 * ((n:Int) * n)
    · rw [if_pos hA, hf.A a hA]
    by_cases hB : d.B ≤ a ∧ a < d.B + 4 * ((n:Int) * n)
    · rw [if_neg hA, if_pos hB, hf.B a hB]
    by_cases hC : d.C ≤ a ∧ a < d.C + 4 * ((n:Int) * n)
    · rw [if_neg hA, if_neg hB, if_pos hC, hf.C a hC]
    · rw [if_neg hA, if_neg hB, if_neg hC, h.rest a hA hB hC]
  obtain ⟨_, m', he, rfl⟩ := this
  exact he

/-! ## The GEMM programs -/

/-- The loop `for(n = lo; n <= hi; n += inc)` makes `(hi - lo) / inc + 1` passes: exactly those with `n ≤ hi`. -/
theorem trips_iff {lo hi inc : Nat} (h : lo ≤ hi) (hi0 : 0 < inc) (t : Nat) :
    t < (hi - lo) / inc + 1 ↔ lo + t * inc ≤ hi := by
  rw [Nat.lt_succ_iff, Nat.le_div_iff_mul_le hi0]; omega

theorem pass_wp {m0 : Mem F} {d : Addrs} {n : Nat} {junk : Int → F} {r : Draws F} (hf : FreshPass m0 d n) (hn : n ≤ 1000000) :
    wp (do passBody junk d r n; passEnd d n) m0 (fun _ m' => m' = m0) := by
  rw [wp_bind]
  refine wp_mono (passBody_wp hf hn) ?_
  intro _ m h
  exact ⟨(), m0, passEnd_eq hf h, rfl⟩

/-- C72. The GEMM benchmark program runs to its end and gives back all the memory it took: for every arithmetic, every starting
memory, every sequence of addresses an allocator may return, all random numbers and all first contents of the buffers. -/
theorem C72_gemm_bench (m : Mem F) (junk : Nat → Int → F) (d : Nat → Addrs) (r : Nat → Draws F)
    (h : ∀ t, t < 10 → FreshPass m (d t) (500 + t * 500)) :
    gemmBench 500 5000 500 junk d r m = .ok ((), m) := by
  have : wp (gemmBench 500 5000 500 junk d r) m (fun _ m' => m' = m) := by
    unfold gemmBench
    refine wp_forN (fun _ m' => m' = m) rfl ?_ (fun _ h => h)
    rintro t m' ht rfl
    have ht : t < 10 := ht
    exact pass_wp (h t ht) (by omega)
  obtain ⟨_, m', he, rfl⟩ := this
  exact he

/-- C72. The same for the loop with any bounds up to a million and any positive step: one pass for every length of the loop. -/
theorem C72_gemm_loop (lo hi inc : Nat) (hlo : lo ≤ hi) (hinc : 0 < inc) (hhi : hi ≤ 1000000)
    (m : Mem F) (junk : Nat → Int → F) (d : Nat → Addrs) (r : Nat → Draws F)
    (h : ∀ t, lo + t * inc ≤ hi → FreshPass m (d t) (lo + t * inc)) :
    gemmBench lo hi inc junk d r m = .ok ((), m) := by
  have : wp (gemmBench lo hi inc junk d r) m (fun _ m' => m' = m) := by
    unfold gemmBench
    refine wp_forN (fun _ m' => m' = m) rfl ?_ (fun _ h => h)
    rintro t m' ht rfl
    have ht := (trips_iff hlo hinc t).mp ht
    exact pass_wp (h t ht) (by omega)
  obtain ⟨_, m', he, rfl⟩ := this
  exact he

/-- C72. The sum of the measured times, in the order of the passes. -/
def timeSum (x : F) (dt : Nat → F) : Nat → F
  | 0 => x
  | t + 1 => timeSum x dt t +ᶠ dt t

/-- C72. The tuning program with `hgemmDur` initialised to `x`: it ends without a fault, gives back its memory and prints `x`
plus the four measured times. -/
theorem C72_tune_initialised_partial (m : Mem F) (x : F) (dt : Nat → F) (junk : Nat → Int → F) (d : Nat → Addrs)
    (r : Nat → Draws F) (h : ∀ t, t < 4 → FreshPass m (d t) (500 + t * 500)) :
    gemmTune (some x) 500 2000 500 dt junk d r m = .ok (some (((x +ᶠ dt 0) +ᶠ dt 1) +ᶠ dt 2 +ᶠ dt 3), m) := by
  have : wp (gemmTune (some x) 500 2000 500 dt junk d r) m (fun s m' => s = some (timeSum x dt 4) ∧ m' = m) := by
    unfold gemmTune
    refine wp_foldN (fun i s m' => s = some (timeSum x dt i) ∧ m' = m) ⟨rfl, rfl⟩ ?_ (fun _ _ h => h)
    rintro t s m' ht ⟨rfl, rfl⟩
    have ht : t < 4 := ht
    rw [wp_bind]
    refine wp_mono (passBody_wp (h t ht) (by omega)) ?_
    intro _ m2 h2
    rw [wp_bind]
    unfold addTo
    rw [wp_pure, wp_bind]
    exact ⟨(), m', passEnd_eq (h t ht) h2, wp_pure.mpr ⟨rfl, rfl⟩⟩
  obtain ⟨s, m', he, rfl, rfl⟩ := this
  exact he

theorem tune_none (m : Mem F) (lo hi inc : Nat) (dt : Nat → F) (junk : Nat → Int → F) (d : Nat → Addrs)
    (r : Nat → Draws F) (hlo : lo ≤ 1000000) (h : FreshPass m (d 0) lo) :
    gemmTune none lo hi inc dt junk d r m = .error .uninit := by
  unfold gemmTune
  generalize (hi - lo) / inc = k
  have h' : FreshPass m (d 0) (lo + 0 * inc) := by simpa using h
  induction k with
  | zero =>
    obtain ⟨_, m', he, _⟩ := passBody_wp (junk := junk 0) (r := r 0) h' (by omega)
    simp only [foldN]
    rw [bind_ok (m' := m) (a := none) rfl]
    rw [bind_ok he]
    exact bind_error rfl
  | succ k ih => rw [foldN]; exact bind_error ih

/-- C72, violated. The tuning program as shipped adds to an uninitialised duration in its first pass: whatever the allocator
returns, the run is undefined. -/
theorem C72_tune_violated (m : Mem F) (dt : Nat → F) (junk : Nat → Int → F) (d : Nat → Addrs)
    (r : Nat → Draws F) (h : FreshPass m (d 0) 500) :
    gemmTune none 500 2000 500 dt junk d r m = .error .uninit :=
  tune_none m _ _ _ dt junk d r (by norm_num) h

section exact
variable {R : Type} [CommRing R]

/-- C72. Over a commutative ring, when the timed call of a pass returns, `A` and `B` are as drawn, `C = α A B + β C₀` — with the
warm-up (`n = 500`) applied once before — and the rest of the memory is untouched. -/
theorem C72_pass (m : Mem R) (d : Addrs) (n : Nat) (junk : Int → R) (r : Draws R) (h : FreshPass m d n) (hn : n ≤ 1000000) :
    ∃ m', passBody junk d r n m = .ok ((), m') ∧
      (∀ i j, i < n → j < n →
        readQ m' (d.A + 4 * (i + j * n)) = some (r.rA (i + j * n)) ∧ readQ m' (d.B + 4 * (i + j * n)) = some (r.rB (i + j * n)) ∧
        ∃ c, readQ m' (d.C + 4 * (i + j * n)) = some c ∧
          let α : ℍ[R] := ⟨r.alpha.re, r.alpha.im, 0, 0⟩
          let β : ℍ[R] := ⟨r.beta.re, r.beta.im, 0, 0⟩
          let ab := α * ∑ k ∈ Finset.range n, (r.rA (i + k * n)).toH * (r.rB (k + j * n)).toH
          let c0 := (r.rC (i + j * n)).toH
          c.toH = if n = 500 then ab + β * (ab + β * c0) else ab + β * c0) ∧
      (∀ a, ¬ InBuf d.A (4 * (n * n)) a → ¬ InBuf d.B (4 * (n * n)) a → ¬ InBuf d.C (4 * (n * n)) a → m' a = m a) := by
  obtain ⟨_, m', he, hp⟩ := passBody_wp (junk := junk) (r := r) h hn
  refine ⟨m', he, ?_, hp.rest⟩
  intro i j hi hj
  refine ⟨hp.A i j hi hj, hp.B i j hi hj, _, hp.C i j hi hj, ?_⟩
  have e : ∀ c : Quat R, (gemmElt 'N' 'N' (.z r.alpha) (.z r.beta) n (fun k => asMat n r.rA i k) (fun k => asMat n r.rB k j) c).toH =
      (Scal.z r.alpha).toH * ∑ k ∈ Finset.range n, (r.rA (i + k * n)).toH * (r.rB (k + j * n)).toH +
        (Scal.z r.beta).toH * c.toH := by
    intro c
    have := toH_gemmElt 'N' 'N' (.z r.alpha) (.z r.beta) n (asMat n r.rA) (asMat n r.rB) i j c
    simpa [opE, opSpec, isT, asMat] using this
  unfold passC
  by_cases h5 : n = 500
  · simp only [if_pos h5, e]; rfl
  · simp only [if_neg h5, e]; rfl

end exact

/-! ## The DOT program -/

/-- What the allocator owes the DOT program: two unused blocks of `max` quaternions with nothing in common. -/
structure FreshDot (m : Mem F) (X Y : Int) (max : Nat) : Prop where
  newX : ∀ a, InBuf X (4 * max) a → m a = none
  newY : ∀ a, InBuf Y (4 * max) a → m a = none
  apart : Apart (InBuf X (4 * max)) (InBuf Y (4 * max))

theorem hdotu_wp {m : Mem F} {X Y : Int} {n : Nat} {x y : Nat → Quat F}
    (hX : VecAt m X 1 n x) (hY : VecAt m Y 1 n y) :
    wp (hdotu n X 1 Y 1) m (fun r m' => m' = m ∧ r = fDot false x y n) := by
  let _ : ArithEq F := ⟨fun _ _ => false⟩
  have h := dotF_bits (m0 := m) (conj := false) (N := n) (X := X) (INCX := 1) (Y := Y) (INCY := 1) (x := x) (y := y)
    (by simpa [fbase] using hX) (by simpa [fbase] using hY)
  simpa [dotF] using h

/-- One pass: the two routines' values, memory untouched. -/
theorem dotPass_wp {m : Mem F} {X Y start : Int} {n : Nat} {x y : Nat → Quat F}
    (hX : VecAt m X 1 n x) (hY : VecAt m Y 1 n y) :
    wp (dotPass start X Y n) m (fun r m' => m' = m ∧ r = (fDot false x y n, dotVal false n x y)) := by
  have f4 : Fits32 (4 * 1) := by unfold Fits32; decide
  have hd : wp (dotAVX false n X 1 Y 1) m (fun r m' => r = dotVal false n x y ∧ m' = m) :=
    dotAVX_wp (N := n) hX hY (fun _ => f4) (fun _ => f4)
  have hf := hdotu_wp hX hY
  have tail : wp (do
      let rf ← foldN 10 (fun _ _ => hdotu n X 1 Y 1) ⟨zero, zero, zero, zero⟩
      let rs ← foldN 10 (fun _ _ => dotAVX false n X 1 Y 1) rf
      pure (rf, rs)) m (fun r m' => m' = m ∧ r = (fDot false x y n, dotVal false n x y)) := by
    rw [wp_bind]
    refine wp_foldN (fun i s m' => m' = m ∧ (0 < i → s = fDot false x y n)) ⟨rfl, by omega⟩ ?_ ?_
    · rintro i s m' _ ⟨rfl, _⟩
      exact wp_mono hf (fun _ _ h => ⟨h.1, fun _ => h.2⟩)
    rintro s m' ⟨rfl, hs⟩
    have hs := hs (by omega)
    rw [wp_bind]
    refine wp_foldN (fun i s m'' => m'' = m' ∧ (0 < i → s = dotVal false n x y)) ⟨rfl, by omega⟩ ?_ ?_
    · rintro i s m'' _ ⟨rfl, _⟩
      exact wp_mono hd (fun _ _ h => ⟨h.2, fun _ => h.1⟩)
    rintro s2 m'' ⟨rfl, hs2⟩
    have hs2 := hs2 (by omega)
    rw [wp_pure, hs, hs2]
    exact ⟨rfl, rfl⟩
  unfold dotPass
  by_cases h : (n:Int) = start
  · rw [if_pos h]
    simp only [prog_bind_assoc]
    rw [wp_bind]
    refine wp_mono hd ?_
    rintro _ m' ⟨_, rfl⟩
    exact tail
  · rw [if_neg h]; exact tail

/-- The DOT program with any sizes: the values of both routines for every length of the loop. -/
theorem dotBench_wp {m : Mem F} {start max tests : Nat} {jX jY : Int → F} {X Y : Int} {rX rY : Nat → Quat F}
    (hs : start ≤ max) (hmax : max ≤ 1000000000) (hinc : 0 < (max - start) / tests) (h : FreshDot m X Y max) :
    wp (dotBench start max tests jX jY X Y rX rY) m (fun l m' => m' = m ∧
      l = (List.range ((max - start) / ((max - start) / tests) + 1)).map (fun t =>
        (fDot false rX rY (start + t * ((max - start) / tests)), dotVal false (start + t * ((max - start) / tests)) rX rY))) := by
  unfold dotBench
  rw [wp_bind, wp_allocQ, wp_bind, wp_allocQ, wp_bind]
  have rdj : ∀ {m' : Mem F} {p : Int} {e : Nat}, (∀ a, InQ (p + 4 * (e:Int)) a → (m' a).isSome) →
      ∃ q, readQ m' (p + 4 * (e:Int)) = some q := by
    intro m' p e h
    obtain ⟨a, ha⟩ := Option.isSome_iff_exists.mp (h (p + 4 * (e:Int)) (by unfold InQ; omega))
    obtain ⟨b, hb⟩ := Option.isSome_iff_exists.mp (h (p + 4 * (e:Int) + 1) (by unfold InQ; omega))
    obtain ⟨c, hc⟩ := Option.isSome_iff_exists.mp (h (p + 4 * (e:Int) + 2) (by unfold InQ; omega))
    obtain ⟨d, hd⟩ := Option.isSome_iff_exists.mp (h (p + 4 * (e:Int) + 3) (by unfold InQ; omega))
    exact ⟨⟨a, b, c, d⟩, readQ_eq_some.mpr ⟨ha, hb, hc, hd⟩⟩
  have sep : ∀ {e e' : Nat}, e < max → e' < max → QDisj (X + 4 * (e:Int)) (Y + 4 * (e':Int)) := by
    intro e e' he he'
    have k1 := h.apart (X + 4 * (e:Int))
    have k2 := h.apart (Y + 4 * (e':Int))
    have k3 := h.apart (X + 4 * (e:Int) + 3)
    have k4 := h.apart (Y + 4 * (e':Int) + 3)
    unfold InBuf at k1 k2 k3 k4
    unfold QDisj
    omega
  have qsymm : ∀ {p q : Int}, QDisj p q → QDisj q p := by intro p q h; unfold QDisj at *; omega
  refine wp_forN (fun i m' => (∀ e, e < i → readQ m' (X + 4 * (e:Int)) = some (rX e)) ∧
      (∀ e, e < i → readQ m' (Y + 4 * (e:Int)) = some (rY e)) ∧
      (∀ a, InBuf X (4 * max) a ∨ InBuf Y (4 * max) a → (m' a).isSome) ∧
      (∀ a, ¬ InBuf X (4 * max) a → ¬ InBuf Y (4 * max) a → m' a = m a)) ?_ ?_ ?_
  · refine ⟨fun e he => absurd he (by omega), fun e he => absurd he (by omega), ?_, ?_⟩
    · rintro a (ha | ha)
      · by_cases hy : InBuf Y (4 * max) a
        · unfold InBuf at hy; rw [if_pos hy]; rfl
        · unfold InBuf at hy ha; rw [if_neg hy, if_pos ha]; rfl
      · unfold InBuf at ha; rw [if_pos ha]; rfl
    · intro a hx hy
      unfold InBuf at hx hy
      rw [if_neg hy, if_neg hx]
  · rintro i m' hi ⟨hX, hY, hS, hR⟩
    obtain ⟨q, hq⟩ := rdj (p := X) (e := i) (fun a ha => hS a (.inl (inBuf_elem hi ha)))
    rw [wp_bind, wp_storeQ hq]
    obtain ⟨q', hq'⟩ := rdj (m' := m') (p := Y) (e := i) (fun a ha => hS a (.inr (inBuf_elem hi ha)))
    have hq2 : readQ (writeQ m' (X + 4 * (i:Int)) (rX i)) (Y + 4 * (i:Int)) = some q' := by
      rw [readQ_writeQ_disj (qsymm (sep hi hi))]; exact hq'
    rw [wp_storeQ hq2]
    refine ⟨?_, ?_, ?_, ?_⟩
    · intro e he
      rw [readQ_writeQ_disj (sep (by omega) hi)]
      by_cases hei : e = i
      · subst hei; exact readQ_writeQ_same _ _ _
      · rw [readQ_writeQ_disj (by unfold QDisj; omega)]; exact hX e (by omega)
    · intro e he
      by_cases hei : e = i
      · subst hei; exact readQ_writeQ_same _ _ _
      · rw [readQ_writeQ_disj (by unfold QDisj; omega), readQ_writeQ_disj (qsymm (sep hi (by omega)))]; exact hY e (by omega)
    · exact fun a ha => writeQ_isSome (writeQ_isSome (hS a ha))
    · intro a hx hy
      rw [writeQ_other (fun k => hy (inBuf_elem hi k)), writeQ_other (fun k => hx (inBuf_elem hi k))]
      exact hR a hx hy
  rintro m1 ⟨hX, hY, -, hR⟩
  rw [wp_bind]
  refine wp_foldN (fun i l m' => m' = m1 ∧ l = (List.range i).map (fun t =>
        (fDot false rX rY (start + t * ((max - start) / tests)), dotVal false (start + t * ((max - start) / tests)) rX rY)))
    ⟨rfl, rfl⟩ ?_ ?_
  · rintro t l m' ht ⟨rfl, rfl⟩
    have hN := (trips_iff hs hinc t).mp ht
    have hle : (max - start) / tests ≤ max := (Nat.div_le_self _ _).trans (Nat.sub_le _ _)
    generalize (max - start) / tests = inc at *
    rw [wp_bind]
    refine wp_mono (dotPass_wp (x := rX) (y := rY) ?_ ?_) ?_
    · intro e he; have := hX e (by omega); simpa using this
    · intro e he; have := hY e (by omega); simpa using this
    rintro p m' ⟨rfl, rfl⟩
    rw [wp_bind, wp_i32 (by omega), wp_pure]
    refine ⟨rfl, ?_⟩
    rw [List.range_succ, List.map_append]; rfl
  rintro l m' ⟨rfl, rfl⟩
  rw [wp_bind, wp_freeQ, wp_bind, wp_freeQ, wp_pure]
  refine ⟨?_, rfl⟩
  funext a
  by_cases hy : Y ≤ a ∧ a < Y + 4 * (max : Int)
  · rw [if_pos hy, h.newY a hy]
  by_cases hx : X ≤ a ∧ a < X + 4 * (max : Int)
  · rw [if_neg hy, if_pos hx, h.newX a hx]
  · rw [if_neg hy, if_neg hx, hR a hx hy]

/-- C72. The DOT benchmark as shipped (`10⁷` quaternions, lengths 100, 1000090, …, 10000000) runs to its end in every
arithmetic, leaves the memory as it was, and has made eleven passes. -/
theorem C72_dot_bench (m : Mem F) (jX jY : Int → F) (X Y : Int) (rX rY : Nat → Quat F) (h : FreshDot m X Y 10000000) :
    ∃ l, dotBench 100 10000000 10 jX jY X Y rX rY m = .ok (l, m) ∧ l.length = 11 := by
  obtain ⟨l, m', he, rfl, hl⟩ := dotBench_wp (jX := jX) (jY := jY) (rX := rX) (rY := rY) (start := 100) (max := 10000000)
    (tests := 10) (by norm_num) (by norm_num) (by norm_num) h
  refine ⟨l, he, ?_⟩
  rw [hl, List.length_map, List.length_range]

section exact
variable {R : Type} [CommRing R]

/-- C72. Over a commutative ring the DOT benchmark compares routines that agree: in pass `t` both the Fortran and the SIMD
routine return `Σ xᵢ yᵢ` over the first `100 + 999990 t` elements. -/
theorem C72_dot_agree (m : Mem R) (jX jY : Int → R) (X Y : Int) (rX rY : Nat → Quat R) (h : FreshDot m X Y 10000000) :
    dotBench 100 10000000 10 jX jY X Y rX rY m = .ok ((List.range 11).map (fun t =>
      let s := Quat.ofH (∑ i ∈ Finset.range (100 + t * 999990), (rX i).toH * (rY i).toH)
      (s, s)), m) := by
  obtain ⟨l, m', he, rfl, hl⟩ := dotBench_wp (jX := jX) (jY := jY) (rX := rX) (rY := rY) (start := 100) (max := 10000000)
    (tests := 10) (by norm_num) (by norm_num) (by norm_num) h
  have e1 : (10000000 - 100) / 10 = 999990 := by norm_num
  have e2 : (10000000 - 100) / 999990 + 1 = 11 := by norm_num
  rw [e1, e2] at hl
  rw [he, hl]
  refine congrArg (fun z => Except.ok (z, m')) (List.map_congr_left (fun t _ => ?_))
  have h1 := toH_fDot false rX rY (100 + t * 999990)
  have h2 := dotVal_sum false rX rY (100 + t * 999990)
  simp only [Bool.false_eq_true, if_false] at h1 h2
  exact Prod.ext (eq_ofH h1) (eq_ofH h2)

end exact

/-! ## An allocator that meets the contracts -/

/-- From an empty memory: `A`, `B`, `C` one behind the other from 0, then the four buffers. -/
def bump (n : Nat) : Addrs :=
  ⟨0, 4 * (n * n), 8 * (n * n), 12 * (n * n), 12 * (n * n) + 131072, 12 * (n * n) + 147456, 12 * (n * n) + 278528⟩

theorem bump_fresh (n : Nat) : FreshPass (fun _ => none : Mem F) (bump n) n := by
  have h0 : (0:Int) ≤ (n:Int) * n := by positivity
  refine ⟨fun _ _ => rfl, fun _ _ => rfl, fun _ _ => rfl, fun _ _ => rfl, fun _ _ => rfl, fun _ _ => rfl, fun _ _ => rfl,
    ?_, ?_, ?_, ?_, ?_, ?_, ?_, ?_, ?_, ?_⟩
  all_goals unfold bump
  all_goals generalize (n:Int) * n = s at *
  all_goals first
    | (intro a h1 h2; simp only [InBuf] at h1 h2; omega)
    | (intro a h1; simp only [InBuf] at *; omega)
    | (simp only [aligned32, beq_iff_eq]; omega)

/-- The hypotheses of the GEMM theorems are met, for all passes at once. -/
example (junk : Nat → Int → F) (r : Nat → Draws F) :
    gemmBench 500 5000 500 junk (fun t => bump (500 + t * 500)) r (fun _ => none) = .ok ((), fun _ => none) :=
  C72_gemm_bench _ _ _ _ (fun _ _ => bump_fresh _)

example (dt : Nat → F) (junk : Nat → Int → F) (r : Nat → Draws F) :
    gemmTune none 500 2000 500 dt junk (fun t => bump (500 + t * 500)) r (fun _ => none) = .error .uninit :=
  C72_tune_violated _ _ _ _ _ (bump_fresh 500)

example : FreshDot (fun _ => none : Mem F) 0 40000000 10000000 :=
  ⟨fun _ _ => rfl, fun _ _ => rfl, fun a h1 h2 => by simp only [InBuf] at h1 h2; omega⟩

end Haxx
