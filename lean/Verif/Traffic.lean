import Verif.PropsTrace

/-!
# Counting memory accesses

`Cnt p r w`: the program `p`, if it finishes, has read `r` and written `w` doubles, whatever values it read; if it stops at a
fault, at most so many.
-/

namespace Haxx.Thr
open Arith Finset
set_option linter.unusedSectionVars false

variable {F α β σ : Type}

/-- Number of reads in a list of accesses. -/
def reads (L : List Ev) : Nat := L.countP fun e => match e with | .rd _ => true | _ => false
/-- Number of writes in a list of accesses. -/
def writes (L : List Ev) : Nat := L.countP fun e => match e with | .wr _ => true | _ => false

/-- The program reads `r` and writes `w` doubles, fewer only if it stops at a fault. -/
inductive Cnt : Prog F α → Nat → Nat → Prop where
  | ret {a : α} : Cnt (.ret a) 0 0
  | fail {e : Fault} {r w : Nat} : Cnt (.fail e) r w
  | rd {a : Int} {k : F → Prog F α} {r w : Nat} : (∀ v, Cnt (k v) r w) → Cnt (.rd a k) (r + 1) w
  | wr {a : Int} {v : F} {k : Prog F α} {r w : Nat} : Cnt k r w → Cnt (.wr a v k) r (w + 1)
  | map {p n : Int} {g : Int → Option F} {k : Prog F α} {r w : Nat} : Cnt k r w → Cnt (.map p n g k) r w

theorem Cnt.sound {p : Prog F α} {r w : Nat} (h : Cnt p r w) (m : Mem F) :
    reads (p.trace m) ≤ r ∧ writes (p.trace m) ≤ w ∧
    (∀ a m', p.run m = .ok (a, m') → reads (p.trace m) = r ∧ writes (p.trace m) = w) := by
  induction h generalizing m with
  | ret => exact ⟨le_rfl, le_rfl, fun _ _ _ => ⟨rfl, rfl⟩⟩
  | fail => exact ⟨Nat.zero_le _, Nat.zero_le _, fun a m' h => by cases h⟩
  | @rd a k r w _ ih =>
    unfold Prog.trace Prog.run
    cases e : m a with
    | none => exact ⟨by simp [reads], by simp [writes], fun a m' h => by cases h⟩
    | some v =>
      obtain ⟨h1, h2, h3⟩ := ih v m
      refine ⟨?_, ?_, fun a m' h => ?_⟩
      · simpa [reads] using h1
      · simpa [writes] using h2
      · have := h3 a m' h
        exact ⟨by simpa [reads] using this.1, by simpa [writes] using this.2⟩
  | @wr a v k r w _ ih =>
    unfold Prog.trace Prog.run
    cases e : m a with
    | none => exact ⟨by simp [reads], by simp [writes], fun a m' h => by cases h⟩
    | some _ =>
      obtain ⟨h1, h2, h3⟩ := ih (upd m a v)
      refine ⟨?_, ?_, fun a m' h => ?_⟩
      · simpa [reads] using h1
      · simpa [writes] using h2
      · have := h3 a m' h
        exact ⟨by simpa [reads] using this.1, by simpa [writes] using this.2⟩
  | @map p n g k r w _ ih =>
    unfold Prog.trace Prog.run
    obtain ⟨h1, h2, h3⟩ := ih (remap m p n g)
    refine ⟨?_, ?_, fun a m' h => ?_⟩
    · simpa [reads] using h1
    · simpa [writes] using h2
    · have := h3 a m' h
      exact ⟨by simpa [reads] using this.1, by simpa [writes] using this.2⟩

theorem Cnt.cast {p : Prog F α} {r w r' w' : Nat} (h : Cnt p r w) (hr : r = r') (hw : w = w') : Cnt p r' w' := hr ▸ hw ▸ h

theorem Cnt.bind {p : Prog F α} {f : α → Prog F β} {r w r' w' : Nat} (h : Cnt p r w) (hk : ∀ a, Cnt (f a) r' w') :
    Cnt (p >>= f) (r + r') (w + w') := by
  show Cnt (p.bind f) _ _
  induction h with
  | ret => exact Cnt.cast (hk _) (by omega) (by omega)
  | fail => exact .fail
  | rd _ ih => exact Cnt.cast (.rd fun v => ih v) (by omega) rfl
  | wr _ ih => exact Cnt.cast (.wr ih) rfl (by omega)
  | map _ ih => exact .map ih

/-- A computation without accesses, followed by something. -/
theorem Cnt.bind0 {p : Prog F α} {f : α → Prog F β} {r w : Nat} (h : Cnt p 0 0) (hk : ∀ a, Cnt (f a) r w) :
    Cnt (p >>= f) r w := (h.bind hk).cast (by omega) (by omega)

theorem cnt_i32_bind {x : Int} {f : Int → Prog F β} {r w : Nat} (h : Cnt (f x) r w) : Cnt (i32 x >>= f) r w := by
  unfold i32
  split
  · exact h
  · exact .fail
theorem cnt_i32 (x : Int) : Cnt (i32 x : Prog F Int) 0 0 := by
  unfold i32
  split
  · exact .ret
  · exact .fail
theorem cnt_assert (b : Bool) : Cnt (assertP b : Prog F Unit) 0 0 := by
  unfold assertP
  split
  · exact .ret
  · exact .fail
theorem cnt_loadQ (p : Int) : Cnt (loadQ p : Prog F (Quat F)) 4 0 := .rd fun _ => .rd fun _ => .rd fun _ => .rd fun _ => .ret
theorem cnt_storeQ (p : Int) (q : Quat F) : Cnt (storeQ p q) 0 4 := .wr (.wr (.wr (.wr .ret)))
theorem cnt_loadA (p : Int) : Cnt (loadA p : Prog F (Quat F)) 4 0 := by
  unfold loadA
  split
  · exact cnt_loadQ p
  · exact .fail
theorem cnt_storeA (p : Int) (q : Quat F) : Cnt (storeA p q) 0 4 := by
  unfold storeA
  split
  · exact cnt_storeQ p q
  · exact .fail
theorem cnt_loadM (al : Bool) (p : Int) : Cnt (loadM al p : Prog F (V4 F)) 4 0 := by
  unfold loadM
  split
  · exact cnt_loadA p
  · exact cnt_loadQ p
theorem cnt_storeM (al : Bool) (p : Int) (q : V4 F) : Cnt (storeM al p q) 0 4 := by
  unfold storeM
  split
  · exact cnt_storeA p q
  · exact cnt_storeQ p q

theorem Cnt.ite {c : Prop} [Decidable c] {p q : Prog F α} {r w : Nat} (h1 : c → Cnt p r w) (h2 : ¬ c → Cnt q r w) :
    Cnt (if c then p else q) r w := by
  split
  · exact h1 ‹_›
  · exact h2 ‹_›

/-- A loop whose iteration `i` reads `r i` and writes `w i`. -/
theorem Cnt.fold {f : Nat → σ → Prog F σ} {s : σ} {r w : Nat → Nat} {n : Nat} (hk : ∀ i s, i < n → Cnt (f i s) (r i) (w i)) :
    Cnt (foldN n f s) (∑ i ∈ range n, r i) (∑ i ∈ range n, w i) := by
  induction n with
  | zero => exact .ret
  | succ n ih =>
    rw [sum_range_succ, sum_range_succ]
    exact (ih fun i s hi => hk i s (by omega)).bind fun s => hk n s (by omega)

theorem Cnt.fold_const {f : Nat → σ → Prog F σ} {s : σ} {r w : Nat} {n : Nat} (hk : ∀ i s, i < n → Cnt (f i s) r w) :
    Cnt (foldN n f s) (n * r) (n * w) :=
  (Cnt.fold (r := fun _ => r) (w := fun _ => w) hk).cast (by simp) (by simp)

theorem Cnt.forN {f : Nat → Prog F Unit} {r w : Nat} {n : Nat} (hk : ∀ i, i < n → Cnt (f i) r w) :
    Cnt (Thr.forN n f) (n * r) (n * w) := Cnt.fold_const fun i _ hi => hk i hi

/-! ## Blocks -/

theorem nIter_eq {N S : Int} (hS : 0 < S) : nIter N S = (N.toNat + S.toNat - 1) / S.toNat := by
  unfold nIter
  by_cases h : 0 < N
  · obtain ⟨n, rfl⟩ := Int.eq_ofNat_of_zero_le h.le
    obtain ⟨s, rfl⟩ := Int.eq_ofNat_of_zero_le hS.le
    have : ((n:Int) + s - 1) = ((n + s - 1 : Nat) : Int) := by omega
    rw [this]
    rfl
  · rw [show N.toNat = 0 by omega, Nat.zero_add, Nat.div_eq_of_lt (by omega)]
    have : (N + S - 1) / S ≤ 0 := by
      have : N + S - 1 < S * 1 := by omega
      have := Int.ediv_lt_of_lt_mul hS (by linarith : N + S - 1 < 1 * S)
      omega
    omega

/-- Sum over the blocks of the block length. -/
theorem sum_min (n S t : Nat) : ∑ b ∈ range t, min (n - b * S) S = min n (t * S) := by
  induction t with
  | zero => simp
  | succ t ih =>
    rw [sum_range_succ, ih, Nat.succ_mul]
    generalize t * S = q
    omega

/-- Sum over the blocks (of even length) of half the block length, rounded up. -/
theorem sum_half (n h t : Nat) : ∑ b ∈ range t, (min (n - b * (2 * h)) (2 * h) + 1) / 2 = (min n (t * (2 * h)) + 1) / 2 := by
  induction t with
  | zero => simp
  | succ t ih =>
    rw [sum_range_succ, ih, show (t + 1) * (2 * h) = 2 * (t * h) + 2 * h by ring, show t * (2 * h) = 2 * (t * h) by ring]
    generalize t * h = q
    omega

theorem le_blocks (n S : Nat) (hS : 0 < S) : n ≤ (n + S - 1) / S * S := by
  have h := Nat.div_add_mod (n + S - 1) S
  have h2 := Nat.mod_lt (n + S - 1) hS
  rw [Nat.mul_comm] at h
  omega

/-- The blocks of `0 … N-1` cover it. -/
theorem blocks_sum {N S : Int} (hS : 0 < S) :
    ∑ b ∈ range (nIter N S), (min (N - b * S) S).toNat = N.toNat := by
  have e : ∀ b : Nat, (min (N - b * S) S).toNat = min (N.toNat - b * S.toNat) S.toNat := by
    intro b
    obtain ⟨s, rfl⟩ := Int.eq_ofNat_of_zero_le hS.le
    have : ((b:Int) * (s:Int)) = ((b * s : Nat) : Int) := by push_cast; rfl
    rw [this, Int.toNat_natCast]
    generalize b * s = q
    omega
  simp only [e]
  rw [sum_min, nIter_eq hS]
  have := le_blocks N.toNat S.toNat (by omega)
  omega

theorem blocks_half {N S : Int} (hS : 0 < S) (he : S % 2 = 0) :
    ∑ b ∈ range (nIter N S), ((min (N - b * S) S).toNat + 1) / 2 = (N.toNat + 1) / 2 := by
  obtain ⟨h, rfl⟩ : ∃ h : Nat, S = ((2 * h : Nat) : Int) := ⟨(S / 2).toNat, by omega⟩
  have e : ∀ b : Nat, (min (N - b * ((2 * h : Nat) : Int)) ((2 * h : Nat) : Int)).toNat = min (N.toNat - b * (2 * h)) (2 * h) := by
    intro b
    have : ((b:Int) * ((2 * h : Nat) : Int)) = ((b * (2 * h) : Nat) : Int) := by push_cast; rfl
    rw [this]
    generalize b * (2 * h) = q
    omega
  simp only [e]
  rw [sum_half, nIter_eq hS]
  have := le_blocks N.toNat (2 * h) (by omega)
  simp only [Int.toNat_natCast]
  omega

end Haxx.Thr
