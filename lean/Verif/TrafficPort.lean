import Verif.TrafficSimd

/-!
# Memory accesses of the portable templates

Counts as in `Traffic`, for the templates of `include/hblas/generic` on quaternions and, with suffix `K`, on mixed element types.
-/

namespace Haxx.Thr
open Arith Finset
set_option linter.unusedSectionVars false

variable {F α β σ : Type}

/-- The program reads at most `r` and writes at most `w` doubles. -/
inductive CntLe : Prog F α → Nat → Nat → Prop where
  | ret {a : α} {r w : Nat} : CntLe (.ret a) r w
  | fail {e : Fault} {r w : Nat} : CntLe (.fail e) r w
  | rd {a : Int} {k : F → Prog F α} {r w : Nat} : (∀ v, CntLe (k v) r w) → CntLe (.rd a k) (r + 1) w
  | wr {a : Int} {v : F} {k : Prog F α} {r w : Nat} : CntLe k r w → CntLe (.wr a v k) r (w + 1)
  | map {p n : Int} {g : Int → Option F} {k : Prog F α} {r w : Nat} : CntLe k r w → CntLe (.map p n g k) r w

theorem CntLe.sound {p : Prog F α} {r w : Nat} (h : CntLe p r w) (m : Mem F) :
    reads (p.trace m) ≤ r ∧ writes (p.trace m) ≤ w := by
  induction h generalizing m with
  | ret => exact ⟨Nat.zero_le _, Nat.zero_le _⟩
  | fail => exact ⟨Nat.zero_le _, Nat.zero_le _⟩
  | @rd a k r w _ ih =>
    unfold Prog.trace
    cases e : m a with
    | none => exact ⟨by simp [reads], by simp [writes]⟩
    | some v => exact ⟨by simpa [reads] using (ih v m).1, by simpa [writes] using (ih v m).2⟩
  | @wr a v k r w _ ih =>
    unfold Prog.trace
    cases e : m a with
    | none => exact ⟨by simp [reads], by simp [writes]⟩
    | some _ => exact ⟨by simpa [reads] using (ih (upd m a v)).1, by simpa [writes] using (ih (upd m a v)).2⟩
  | @map p n g k r w _ ih =>
    unfold Prog.trace
    exact ⟨by simpa [reads] using (ih (remap m p n g)).1, by simpa [writes] using (ih (remap m p n g)).2⟩

theorem Cnt.le {p : Prog F α} {r w : Nat} (h : Cnt p r w) : CntLe p r w := by
  induction h with
  | ret => exact .ret
  | fail => exact .fail
  | rd _ ih => exact .rd ih
  | wr _ ih => exact .wr ih
  | map _ ih => exact .map ih

theorem CntLe.cast {p : Prog F α} {r w r' w' : Nat} (h : CntLe p r w) (hr : r = r') (hw : w = w') : CntLe p r' w' := hr ▸ hw ▸ h

theorem CntLe.mono {p : Prog F α} {r w r' w' : Nat} (h : CntLe p r w) (hr : r ≤ r') (hw : w ≤ w') : CntLe p r' w' := by
  induction h generalizing r' w' with
  | ret => exact .ret
  | fail => exact .fail
  | rd _ ih =>
    obtain ⟨s, rfl⟩ := Nat.exists_eq_add_of_lt (Nat.lt_of_succ_le hr)
    exact .rd fun v => ih v (by omega) hw
  | wr _ ih =>
    obtain ⟨s, rfl⟩ := Nat.exists_eq_add_of_lt (Nat.lt_of_succ_le hw)
    exact .wr (ih hr (by omega))
  | map _ ih => exact .map (ih hr hw)

theorem CntLe.bind {p : Prog F α} {f : α → Prog F β} {r w r' w' : Nat} (h : CntLe p r w) (hk : ∀ a, CntLe (f a) r' w') :
    CntLe (p >>= f) (r + r') (w + w') := by
  show CntLe (p.bind f) _ _
  induction h with
  | ret => exact (hk _).mono (by omega) (by omega)
  | fail => exact .fail
  | rd _ ih => exact CntLe.cast (.rd fun v => ih v) (by omega) rfl
  | wr _ ih => exact CntLe.cast (.wr ih) rfl (by omega)
  | map _ ih => exact .map ih

theorem CntLe.ite {c : Prop} [Decidable c] {p q : Prog F α} {r w : Nat} (h1 : c → CntLe p r w) (h2 : ¬ c → CntLe q r w) :
    CntLe (if c then p else q) r w := by
  split
  · exact h1 ‹_›
  · exact h2 ‹_›

theorem CntLe.fold_const {f : Nat → σ → Prog F σ} {s : σ} {r w : Nat} {n : Nat} (hk : ∀ i s, i < n → CntLe (f i s) r w) :
    CntLe (foldN n f s) (n * r) (n * w) := by
  induction n with
  | zero => exact .ret
  | succ n ih =>
    exact ((ih fun i s hi => hk i s (by omega)).bind fun s => hk n s (by omega)).cast (Nat.succ_mul ..).symm (Nat.succ_mul ..).symm

theorem CntLe.forN {f : Nat → Prog F Unit} {r w : Nat} {n : Nat} (hk : ∀ i, i < n → CntLe (f i) r w) :
    CntLe (Thr.forN n f) (n * r) (n * w) := CntLe.fold_const fun i _ hi => hk i hi

/-! ## Loops -/

theorem cnt_forStep {lo hi s : Int} {body : Int → Prog F Unit} {r w : Nat} (h : ∀ i, Cnt (body i) r w) :
    Cnt (forStep lo hi s body) (((hi - lo + s - 1) / s).toNat * r) (((hi - lo + s - 1) / s).toNat * w) :=
  Cnt.forN fun _ _ => h _

/-- Clean-up loop and unrolled loop together: one visit per element. -/
theorem cnt_unroll {N : Int} (u : Nat) (hu : 0 < u) (hN : ¬ N ≤ 0) {el : Nat → Prog F Unit} {un : Int → Prog F Unit} {r w : Nat}
    (h1 : ∀ i, Cnt (el i) r w) (h2 : ∀ i, Cnt (un i) (u * r) (u * w)) :
    Cnt (if N.tmod u ≠ 0 then (do
        forN (N.tmod u).toNat el
        if N < u then pure () else forStep (N.tmod u) N u un)
      else forStep (N.tmod u) N u un) (N.toNat * r) (N.toNat * w) := by
  obtain ⟨n, rfl⟩ := Int.eq_ofNat_of_zero_le (show 0 ≤ N by omega)
  rw [Int.tmod_eq_emod_of_nonneg (by omega)]
  have e0 : ((n:Int) % u) = ((n % u : Nat) : Int) := by push_cast; rfl
  have e1 : (((n:Int) - ((n % u : Nat) : Int) + u - 1) / u).toNat = n / u := by
    have h := Nat.div_add_mod n u
    have : ((n:Int) - ((n % u : Nat) : Int) + u - 1) = ((u - 1 : Nat) : Int) + u * ((n / u : Nat) : Int) := by
      have : (n:Int) = u * ((n / u : Nat) : Int) + ((n % u : Nat) : Int) := by exact_mod_cast h.symm
      rw [Nat.cast_sub (by omega)]
      push_cast at this ⊢
      linarith
    rw [this, Int.add_mul_ediv_left _ _ (by omega), Int.ediv_eq_zero_of_lt (by omega) (by omega), zero_add,
      Int.toNat_natCast]
  have st : Cnt (forStep ((n:Int) % u) n u un) (n / u * (u * r)) (n / u * (u * w)) := by
    have := cnt_forStep (lo := (n:Int) % u) (hi := n) (s := u) h2
    rwa [e0, e1, ← e0] at this
  have key : ∀ k : Nat, n % u * k + n / u * (u * k) = n * k := fun k => by
    calc n % u * k + n / u * (u * k) = (u * (n / u) + n % u) * k := by ring
      _ = n * k := by rw [Nat.div_add_mod]
  refine Cnt.ite (fun h => ?_) (fun h => ?_)
  · refine ((Cnt.forN fun i _ => h1 i).bind (r' := n / u * (u * r)) (w' := n / u * (u * w)) fun _ => ?_).cast ?_ ?_
    · refine Cnt.ite (fun h => ?_) (fun h => st)
      rw [Nat.div_eq_of_lt (by omega)]
      exact Cnt.ret.cast (by simp) (by simp)
    · rw [e0, Int.toNat_natCast]; exact key r
    · rw [e0, Int.toNat_natCast]; exact key w
  · have hz : n % u = 0 := by rw [e0] at h; omega
    refine st.cast ?_ ?_
    · have := key r; rw [hz] at this; simpa using this
    · have := key w; rw [hz] at this; simpa using this

theorem cnt_strided {el : Int → Int → Prog F Unit} {r w n : Nat} {INCX INCY : Int} (h : ∀ i j, Cnt (el i j) r w) :
    Cnt (do let _ ← foldN n (fun _ s => stridedStep el INCX INCY s) ((0:Int), (0:Int)) : Prog F Unit) (n * r) (n * w) := by
  refine (Cnt.fold_const (r := r) (w := w) fun _ s _ => ?_).bind fun _ => .ret
  unfold stridedStep
  exact (h _ _).bind fun _ => (cnt_i32 _).bind fun _ => (cnt_i32 _).bind fun _ => .ret

/-! ## Level 1 -/

theorem cnt_copyEl (X Y i j : Int) : Cnt (copyEl X Y i j : Prog F Unit) 4 4 := (cnt_loadQ _).bind fun _ => cnt_storeQ _ _
theorem cnt_swapEl (X Y i j : Int) : Cnt (swapEl X Y i j : Prog F Unit) 8 8 :=
  (cnt_loadQ _).bind fun _ => (cnt_loadQ _).bind fun _ => (cnt_storeQ _ _).bind fun _ => cnt_storeQ _ _

theorem cnt_copyvGen (N X INCX Y INCY : Int) : Cnt (copyvGen N X INCX Y INCY : Prog F Unit) (N.toNat * 4) (N.toNat * 4) := by
  unfold copyvGen
  refine Cnt.ite (fun h => Cnt.ret.cast (by omega) (by omega)) fun h => ?_
  refine (cnt_assert _).bind0 fun _ => (cnt_assert _).bind0 fun _ => Cnt.ite (fun _ => ?_) (fun _ => cnt_strided fun i j => cnt_copyEl ..)
  exact cnt_unroll 7 (by decide) h (fun i => cnt_copyEl ..) fun i => (cnt_copyEl ..).bind fun _ => (cnt_copyEl ..).bind fun _ =>
    (cnt_copyEl ..).bind fun _ => (cnt_copyEl ..).bind fun _ => (cnt_copyEl ..).bind fun _ => (cnt_copyEl ..).bind fun _ => cnt_copyEl ..

theorem cnt_swapvGen (N X INCX Y INCY : Int) : Cnt (swapvGen N X INCX Y INCY : Prog F Unit) (N.toNat * 8) (N.toNat * 8) := by
  unfold swapvGen
  refine Cnt.ite (fun h => Cnt.ret.cast (by omega) (by omega)) fun h => ?_
  refine (cnt_assert _).bind0 fun _ => (cnt_assert _).bind0 fun _ => Cnt.ite (fun _ => ?_) (fun _ => cnt_strided fun i j => cnt_swapEl ..)
  exact cnt_unroll 3 (by decide) h (fun i => cnt_swapEl ..) fun i => (cnt_swapEl ..).bind fun _ => (cnt_swapEl ..).bind fun _ =>
    cnt_swapEl ..

variable [Arith F]

theorem cnt_scalEl (l : Bool) (a : Scal F) (X i : Int) : Cnt (scalEl l a X i) 4 4 := (cnt_loadQ _).bind fun _ => cnt_storeQ _ _

/-- SCALV touches nothing when `N ≤ 0` or `INCX ≤ 0`. -/
theorem cnt_scalvGen (SIDE : Char) (N : Int) (ALPHA : Scal F) (X INCX : Int) :
    Cnt (scalvGen SIDE N ALPHA X INCX) (if 0 < INCX then N.toNat * 4 else 0) (if 0 < INCX then N.toNat * 4 else 0) := by
  unfold scalvGen
  refine Cnt.ite (fun h => Cnt.ret.cast (by split <;> omega) (by split <;> omega)) fun h => ?_
  push Not at h
  rw [if_pos h.2]
  refine Cnt.ite (fun _ => ?_) (fun _ => ?_)
  · exact cnt_unroll 5 (by decide) (by omega) (fun i => cnt_scalEl ..) fun i => (cnt_scalEl ..).bind fun _ => (cnt_scalEl ..).bind fun _ =>
      (cnt_scalEl ..).bind fun _ => (cnt_scalEl ..).bind fun _ => cnt_scalEl ..
  · refine cnt_i32_bind ?_
    have e : (N * INCX - 0 + INCX - 1) / INCX = N := by
      rw [show N * INCX - 0 + INCX - 1 = (INCX - 1) + N * INCX by ring, Int.add_mul_ediv_right _ _ (by omega),
        Int.ediv_eq_zero_of_lt (by omega) (by omega), zero_add]
    have := cnt_forStep (lo := 0) (hi := N * INCX) (s := INCX) fun i => cnt_scalEl (!(SIDE == 'R')) ALPHA X i
    rwa [e] at this

theorem cnt_dotGen (conj : Bool) (N X INCX Y INCY : Int) : Cnt (dotGen conj N X INCX Y INCY : Prog F (Quat F)) (N.toNat * 8) 0 := by
  have el : ∀ i j (h : Quat F), Cnt (dotEl conj X Y i j h) 8 0 := fun i j h =>
    (cnt_loadQ _).bind fun _ => (cnt_loadQ _).bind fun _ => .ret
  unfold dotGen
  refine Cnt.ite (fun h => Cnt.ret.cast (by omega) rfl) fun h => ?_
  refine (cnt_assert _).bind0 fun _ => (cnt_assert _).bind0 fun _ => Cnt.ite (fun _ => ?_) (fun _ => ?_)
  · exact (Cnt.fold_const fun i s _ => el _ _ s).cast rfl (by simp)
  · refine ((Cnt.fold_const (r := 8) (w := 0) fun _ s _ => ?_).bind fun _ => .ret).cast rfl (by simp)
    unfold dotStep
    exact (el _ _ _).bind fun _ => (cnt_i32 _).bind fun _ => (cnt_i32 _).bind fun _ => .ret

/-- Doubles per element of the three element types. -/
theorem cnt_loadK (k : Kind) (p : Int) : Cnt (loadK k p : Prog F (Scal F)) k.width.toNat 0 := by
  cases k
  · exact .rd fun _ => .ret
  · exact .rd fun _ => .rd fun _ => .ret
  · exact (cnt_loadQ p).bind fun _ => .ret

section
omit [Arith F]
theorem cnt_rank2 (i j LD : Int) : Cnt (rank2 i j LD : Prog F Int) 0 0 := (cnt_i32 _).bind fun _ => cnt_i32 _
end
theorem cnt_zeroEl (C i : Int) : Cnt (zeroEl C i : Prog F Unit) 0 4 := cnt_storeQ _ _
theorem cnt_betaEl (b : Scal F) (C i : Int) : Cnt (betaEl b C i) 4 4 := (cnt_loadQ _).bind fun _ => cnt_storeQ _ _

variable [ArithEq F]

/-- Doubles read to scale `n` elements by BETA. -/
def betaR (b : Scal F) (n : Nat) : Nat := if b.eqZero ∨ b.eqOne then 0 else n * 4
/-- Doubles written to scale `n` elements by BETA. -/
def betaW (b : Scal F) (n : Nat) : Nat := if b.eqOne then 0 else n * 4

theorem cnt_gemmBetaCol (b : Scal F) (M C : Int) (h01 : b.eqZero = true → b.eqOne = false) :
    Cnt (gemmBetaCol b M C) (betaR b M.toNat) (betaW b M.toNat) := by
  unfold gemmBetaCol betaR betaW
  cases h0 : b.eqZero <;> cases h1 : b.eqOne
  · simpa using Cnt.forN fun i _ => cnt_betaEl b C i
  · exact .ret
  · simpa using Cnt.forN fun (i : Nat) (_ : i < M.toNat) => cnt_zeroEl (F := F) C i
  · rw [h01 h0] at h1; cases h1

theorem cnt_gemmColA0 (M : Int) (b : Scal F) (C LDC j : Int) (h1 : b.eqOne = false) :
    Cnt (gemmColA0 M b C LDC j) (betaR b M.toNat) (betaW b M.toNat) := by
  unfold gemmColA0 betaR betaW
  refine (cnt_i32 _).bind0 fun _ => ?_
  cases h0 : b.eqZero
  · simpa [h1] using Cnt.forN fun (i : Nat) (_ : i < M.toNat) => cnt_betaEl b _ i
  · simpa [h1] using Cnt.forN fun (i : Nat) (_ : i < M.toNat) => cnt_zeroEl (F := F) _ i

theorem cnt_gemmStoreEl (a b : Scal F) (C i : Int) (h : Quat F) :
    Cnt (gemmStoreEl a b C i h) (if b.eqZero then 0 else 4) 4 := by
  unfold gemmStoreEl
  cases h0 : b.eqZero
  · exact (cnt_loadQ _).bind fun _ => cnt_storeQ _ _
  · exact cnt_storeQ _ _

theorem cnt_gemvScale (n : Int) (b : Scal F) (Y INCY : Int) : Cnt (gemvScale n b Y INCY) (betaR b n.toNat) (betaW b n.toNat) := by
  unfold gemvScale betaR betaW
  cases h1 : b.eqOne
  · cases h0 : b.eqZero
    · simp only [Bool.not_false, if_true, Bool.false_eq_true, if_false, or_self]
      refine Cnt.ite (fun _ => Cnt.forN fun i _ => cnt_betaEl b Y i) fun _ => ?_
      exact (Cnt.fold_const (r := 4) (w := 4) fun _ s _ => (cnt_betaEl b Y s).bind fun _ => cnt_i32 _).bind fun _ => .ret
    · simp only [Bool.not_false, if_true, Bool.false_eq_true, if_false, true_or]
      refine Cnt.ite (fun _ => (Cnt.forN fun i _ => cnt_zeroEl Y i).cast (by simp) rfl) fun _ => ?_
      exact ((Cnt.fold_const (r := 0) (w := 4) fun _ s _ => (cnt_zeroEl Y s).bind fun _ => cnt_i32 _).bind fun _ => .ret).cast (by simp) rfl
  · exact Cnt.ret.cast (by simp) (by simp)


/-! ## Level 2 and 3, quaternion operands -/

section
omit [ArithEq F]
theorem cnt_axpyEl (l : Bool) (a : Scal F) (X Y i j : Int) : Cnt (axpyEl l a X Y i j) (4 + 4) 4 :=
  (cnt_loadQ _).bind fun _ => (cnt_loadQ _).bind fun _ => cnt_storeQ _ _
end

theorem cnt_axpyvGen (SIDE : Char) (N : Int) (ALPHA : Scal F) (X INCX Y INCY : Int) (h0 : ALPHA.eqZero = false) :
    Cnt (axpyvGen SIDE N ALPHA X INCX Y INCY) (N.toNat * (4 + 4)) (N.toNat * 4) := by
  unfold axpyvGen
  refine Cnt.ite (fun h => Cnt.ret.cast (by simp [show N.toNat = 0 by omega]) (by omega)) fun h => ?_
  rw [h0]
  refine (cnt_assert _).bind0 fun _ => (cnt_assert _).bind0 fun _ => Cnt.ite (fun _ => ?_) (fun _ => cnt_strided fun i j => cnt_axpyEl ..)
  refine cnt_unroll 4 (by decide) h (fun i => cnt_axpyEl ..) fun i => ((cnt_axpyEl ..).bind fun _ => (cnt_axpyEl ..).bind fun _ =>
    (cnt_axpyEl ..).bind fun _ => cnt_axpyEl ..).cast ?_ ?_ <;> omega

theorem cnt_axpyvGen_zero (SIDE : Char) (N : Int) (ALPHA : Scal F) (X INCX Y INCY : Int) (h0 : ALPHA.eqZero = true) :
    Cnt (axpyvGen SIDE N ALPHA X INCX Y INCY) 0 0 := by
  unfold axpyvGen
  rw [h0]
  exact Cnt.ite (fun _ => .ret) fun _ => .ret

/-- op(A) = A: C is updated once for every `l`. -/
theorem cnt_gemmGen_N (kA : Kind) (tB : Char) (M N K : Int) (ALPHA : Scal F) (A LDA B LDB : Int) (BETA : Scal F) (C LDC : Int)
    (h0 : ALPHA.eqZero = false) (h01 : BETA.eqZero = true → BETA.eqOne = false) :
    Cnt (gemmGen kA 'N' tB M N K ALPHA A LDA B LDB BETA C LDC)
      (N.toNat * (betaR BETA M.toNat + K.toNat * (M.toNat * (kA.width.toNat + (4 + 4)))))
      (N.toNat * (betaW BETA M.toNat + K.toNat * (M.toNat * 4))) := by
  have el : ∀ cj p q r i, Cnt (gemmAxpyEl kA cj ALPHA p q r i) (kA.width.toNat + (4 + 4)) 4 := fun cj p q r i =>
    ((cnt_loadK kA _).bind fun _ => (cnt_loadQ _).bind fun _ => (cnt_loadQ _).bind fun _ => cnt_storeQ _ _).cast (by omega) rfl
  have nn : ∀ j, Cnt (gemmColNN kA M K ALPHA A LDA B LDB BETA C LDC j)
      (betaR BETA M.toNat + K.toNat * (M.toNat * (kA.width.toNat + (4 + 4)))) (betaW BETA M.toNat + K.toNat * (M.toNat * 4)) := fun j => by
    unfold gemmColNN
    exact (cnt_i32 _).bind0 fun _ => (cnt_i32 _).bind0 fun _ => (cnt_gemmBetaCol _ _ _ h01).bind fun _ => Cnt.forN fun l _ =>
      (cnt_i32 _).bind0 fun _ => Cnt.forN fun i _ => el ..
  have nt : ∀ cj j, Cnt (gemmColNT kA cj M K ALPHA A LDA B LDB BETA C LDC j)
      (betaR BETA M.toNat + K.toNat * (M.toNat * (kA.width.toNat + (4 + 4)))) (betaW BETA M.toNat + K.toNat * (M.toNat * 4)) := fun cj j => by
    unfold gemmColNT
    exact (cnt_i32 _).bind0 fun _ => (cnt_gemmBetaCol _ _ _ h01).bind fun _ => Cnt.forN fun l _ =>
      (cnt_i32 _).bind0 fun _ => (cnt_i32 _).bind0 fun _ => Cnt.forN fun i _ => el ..
  unfold gemmGen
  refine Cnt.ite (fun h => ?_) fun h => ?_
  · simp only [h0, Bool.or_eq_true, decide_eq_true_eq, Bool.false_or, Bool.and_eq_true] at h
    rcases h with (h | h) | ⟨h, h'⟩
    · subst h
      exact Cnt.ret.cast (by simp [betaR]) (by simp [betaW])
    · subst h
      exact Cnt.ret.cast (by simp) (by simp)
    · subst h
      exact Cnt.ret.cast (by simp [betaR, h']) (by simp [betaW, h'])
  · rw [h0]
    exact Cnt.ite (fun h => by cases h) fun _ => Cnt.ite (fun _ => Cnt.forN fun j _ => nn j) fun _ =>
      Cnt.ite (fun _ => Cnt.ite (fun _ => Cnt.forN fun j _ => nt _ j) fun _ => Cnt.forN fun j _ => nt _ j) fun h => absurd rfl h

/-- op(A) ≠ A: every entry of C is stored once. -/
theorem cnt_gemmGen_T (kA : Kind) (tA tB : Char) (M N K : Int) (ALPHA : Scal F) (A LDA B LDB : Int) (BETA : Scal F) (C LDC : Int)
    (hA : tA ≠ 'N') (h0 : ALPHA.eqZero = false) (hK : K = 0 → BETA.eqOne = false) :
    Cnt (gemmGen kA tA tB M N K ALPHA A LDA B LDB BETA C LDC)
      (N.toNat * (M.toNat * (K.toNat * (kA.width.toNat + 4) + (if BETA.eqZero then 0 else 4))))
      (N.toNat * (M.toNat * 4)) := by
  have el : ∀ ca cj p q l h, Cnt (gemmDotEl kA ca cj p q l h : Prog F _) (kA.width.toNat + 4) 0 := fun ca cj p q l h =>
    ((cnt_loadK kA _).bind fun _ => (cnt_loadQ _).bind fun _ => .ret).cast (by omega) rfl
  have tn : ∀ ca j, Cnt (gemmColTN kA ca M K ALPHA A LDA B LDB BETA C LDC j)
      (M.toNat * (K.toNat * (kA.width.toNat + 4) + (if BETA.eqZero then 0 else 4))) (M.toNat * 4) := fun ca j => by
    unfold gemmColTN
    refine (cnt_i32 _).bind0 fun _ => (cnt_i32 _).bind0 fun _ => Cnt.forN fun i _ => ?_
    unfold gemmElTN
    exact (cnt_i32 _).bind0 fun _ => ((Cnt.fold_const fun l h _ => el _ _ _ _ _ h).bind fun _ => cnt_gemmStoreEl ..).cast rfl (by simp)
  have tt : ∀ ca cb j, Cnt (gemmColTT kA ca cb M K ALPHA A LDA B LDB BETA C LDC j)
      (M.toNat * (K.toNat * (kA.width.toNat + 4) + (if BETA.eqZero then 0 else 4))) (M.toNat * 4) := fun ca cb j => by
    unfold gemmColTT
    refine (cnt_i32 _).bind0 fun _ => Cnt.forN fun i _ => ?_
    unfold gemmElTT
    exact (cnt_i32 _).bind0 fun _ => ((Cnt.fold_const fun l h _ => (cnt_i32 _).bind0 fun _ => el _ _ _ _ _ h).bind fun _ =>
      cnt_gemmStoreEl ..).cast rfl (by simp)
  unfold gemmGen
  refine Cnt.ite (fun h => ?_) fun h => ?_
  · simp only [h0, Bool.or_eq_true, decide_eq_true_eq, Bool.false_or, Bool.and_eq_true] at h
    rcases h with (h | h) | ⟨h, h'⟩
    · subst h
      exact Cnt.ret.cast (by simp) (by simp)
    · subst h
      exact Cnt.ret.cast (by simp) (by simp)
    · rw [hK h] at h'
      cases h'
  · rw [h0, show (tA == 'N') = false by simpa using hA]
    exact Cnt.ite (fun h => by cases h) fun _ => Cnt.ite
      (fun _ => Cnt.ite (fun h => by cases h) fun _ => Cnt.ite (fun _ => Cnt.forN fun j _ => tn _ j) fun _ => Cnt.forN fun j _ => tn _ j)
      fun _ => Cnt.ite (fun h => by cases h) fun _ => Cnt.ite
        (fun _ => Cnt.ite (fun _ => Cnt.forN fun j _ => tt _ _ j) fun _ => Cnt.forN fun j _ => tt _ _ j)
        (fun _ => Cnt.ite (fun _ => Cnt.forN fun j _ => tt _ _ j) fun _ => Cnt.forN fun j _ => tt _ _ j)

/-- ALPHA = 0: neither A nor B is read. -/
theorem cnt_gemmGen_zero (kA : Kind) (tA tB : Char) (M N K : Int) (ALPHA : Scal F) (A LDA B LDB : Int) (BETA : Scal F) (C LDC : Int)
    (h0 : ALPHA.eqZero = true) :
    Cnt (gemmGen kA tA tB M N K ALPHA A LDA B LDB BETA C LDC) (N.toNat * betaR BETA M.toNat) (N.toNat * betaW BETA M.toNat) := by
  unfold gemmGen
  refine Cnt.ite (fun h => ?_) fun h => ?_
  · simp only [h0, Bool.or_eq_true, decide_eq_true_eq, Bool.true_or, Bool.true_and] at h
    rcases h with (h | h) | h'
    · subst h
      exact Cnt.ret.cast (by simp [betaR]) (by simp [betaW])
    · subst h
      exact Cnt.ret.cast (by simp) (by simp)
    · exact Cnt.ret.cast (by simp [betaR, h']) (by simp [betaW, h'])
  · simp only [h0, Bool.or_eq_true, decide_eq_true_eq, Bool.true_or, Bool.true_and, not_or, Bool.not_eq_true] at h
    rw [h0]
    exact Cnt.ite (fun _ => Cnt.forN fun j _ => cnt_gemmColA0 _ _ _ _ _ h.2) fun h => absurd rfl h

theorem cnt_gemvGen_N (kA : Kind) (M N : Int) (ALPHA : Scal F) (A LDA X INCX : Int) (BETA : Scal F) (Y INCY : Int)
    (hM : M ≠ 0) (hN : N ≠ 0) (h0 : ALPHA.eqZero = false) :
    Cnt (gemvGen kA 'N' M N ALPHA A LDA X INCX BETA Y INCY)
      (betaR BETA M.toNat + N.toNat * (4 + M.toNat * (2 * kA.width.toNat + (4 + 8))))
      (betaW BETA M.toNat + N.toNat * (M.toNat * 8)) := by
  have el : ∀ j jx h i iy, Cnt (gemvAxpyEl kA ALPHA A LDA X Y j jx h i iy) (2 * kA.width.toNat + (4 + 8)) 8 := fun j jx h i iy => by
    unfold gemvAxpyEl
    exact ((cnt_rank2 _ _ _).bind fun _ => (cnt_loadK kA _).bind fun _ => (cnt_loadQ _).bind fun _ => (cnt_storeQ _ _).bind fun _ =>
      (cnt_loadK kA _).bind fun _ => (cnt_loadQ _).bind fun _ => (cnt_loadQ _).bind fun _ => cnt_storeQ _ _).cast (by omega) rfl
  have col : ∀ j jx, Cnt (gemvColN kA M ALPHA A LDA X INCX Y INCY j jx)
      (4 + M.toNat * (2 * kA.width.toNat + (4 + 8))) (M.toNat * 8) := fun j jx => by
    unfold gemvColN
    refine Cnt.cast ((cnt_loadQ _).bind (r' := M.toNat * (2 * kA.width.toNat + (4 + 8))) (w' := M.toNat * 8) fun x => ?_) rfl (by omega)
    by_cases h : INCY = 1
    · simp only [h, if_true]
      exact ((Cnt.forN fun i _ => el ..).bind fun _ => cnt_i32 _).cast (by omega) (by omega)
    · simp only [h, if_false]
      exact ((Cnt.fold_const fun i s _ => (el ..).bind fun _ => cnt_i32 _).bind fun _ => cnt_i32 _).cast (by simp) (by simp)
  unfold gemvGen
  refine Cnt.ite (fun h => ?_) fun h => ?_
  · simp [h0, hM, hN] at h
  · refine (cnt_assert _).bind0 fun _ => (cnt_assert _).bind0 fun _ => ?_
    simp only [h0, ne_eq, not_true_eq_false, if_false, Bool.false_eq_true, if_true]
    exact (cnt_gemvScale ..).bind fun _ => (Cnt.fold_const fun j jx _ => col j jx).bind fun _ => .ret

theorem cnt_gemvGen_T (kA : Kind) (t : Char) (M N : Int) (ALPHA : Scal F) (A LDA X INCX : Int) (BETA : Scal F) (Y INCY : Int)
    (ht : t ≠ 'N') (hM : M ≠ 0) (hN : N ≠ 0) (h0 : ALPHA.eqZero = false) :
    Cnt (gemvGen kA t M N ALPHA A LDA X INCX BETA Y INCY)
      (betaR BETA N.toNat + N.toNat * (M.toNat * (kA.width.toNat + 4) + 4)) (betaW BETA N.toNat + N.toNat * 4) := by
  have el : ∀ nc j i ix h, Cnt (gemvDotEl kA nc A LDA X j i ix h : Prog F _) (kA.width.toNat + 4) 0 := fun nc j i ix h =>
    ((cnt_rank2 _ _ _).bind fun _ => (cnt_loadK kA _).bind fun _ => (cnt_loadQ _).bind fun _ => .ret).cast (by omega) rfl
  have col : ∀ nc j jy, Cnt (gemvColT kA nc M ALPHA A LDA X INCX Y INCY j jy) (M.toNat * (kA.width.toNat + 4) + 4) 4 :=
      fun nc j jy => by
    unfold gemvColT
    by_cases h : INCX = 1
    · simp only [h, if_true]
      exact ((Cnt.fold_const fun i h _ => el ..).bind fun _ => (cnt_loadQ _).bind fun _ => (cnt_storeQ _ _).bind fun _ =>
        cnt_i32 _).cast (by omega) (by simp)
    · simp only [h, if_false]
      exact (((Cnt.fold_const (r := kA.width.toNat + 4) (w := 0) fun i h _ => (el ..).bind fun _ => (cnt_i32 _).bind fun _ => .ret).bind
        fun _ => .ret).bind fun _ => (cnt_loadQ _).bind fun _ => (cnt_storeQ _ _).bind fun _ => cnt_i32 _).cast (by omega) (by simp)
  unfold gemvGen
  refine Cnt.ite (fun h => ?_) fun h => ?_
  · simp [h0, hM, hN] at h
  · refine (cnt_assert _).bind0 fun _ => (cnt_assert _).bind0 fun _ => ?_
    simp only [h0, ht, ne_eq, not_false_eq_true, if_true, Bool.false_eq_true, if_false]
    exact (cnt_gemvScale ..).bind fun _ => (Cnt.fold_const fun j jx _ => col _ j jx).bind fun _ => .ret

theorem cnt_gemvGen_zero (kA : Kind) (t : Char) (M N : Int) (ALPHA : Scal F) (A LDA X INCX : Int) (BETA : Scal F) (Y INCY : Int)
    (hM : M ≠ 0) (hN : N ≠ 0) (h0 : ALPHA.eqZero = true) :
    Cnt (gemvGen kA t M N ALPHA A LDA X INCX BETA Y INCY)
      (betaR BETA (if t = 'N' then M else N).toNat) (betaW BETA (if t = 'N' then M else N).toNat) := by
  unfold gemvGen
  refine Cnt.ite (fun h => ?_) fun h => ?_
  · have h1 : BETA.eqOne = true := by simpa [h0, hM, hN] using h
    exact Cnt.ret.cast (by simp [betaR, h1]) (by simp [betaW, h1])
  · refine (cnt_assert _).bind0 fun _ => (cnt_assert _).bind0 fun _ => ?_
    simp only [h0, if_true, ne_eq, ite_not]
    exact (cnt_gemvScale ..).bind fun _ => .ret

/-- The rank-1 updates skip the columns whose entry of y is zero: an upper bound. -/
theorem cnt_gerGen (cj : Bool) (M N : Int) (ALPHA : Scal F) (X INCX Y INCY A LDA : Int) :
    CntLe (gerGen cj M N ALPHA X INCX Y INCY A LDA)
      (N.toNat * (4 + M.toNat * (4 + (4 + 4)))) (N.toNat * (M.toNat * 4)) := by
  have el : ∀ j JY i ix, Cnt (gerEl cj ALPHA X Y A LDA j JY i ix) (4 + (4 + 4)) 4 := fun j JY i ix => by
    unfold gerEl
    exact ((cnt_loadQ _).bind fun _ => (cnt_loadQ _).bind fun _ => (cnt_rank2 _ _ _).bind fun _ => (cnt_loadQ _).bind fun _ =>
      cnt_storeQ _ _).cast (by omega) rfl
  have col : ∀ j JY, CntLe (gerCol cj M ALPHA X INCX Y INCY A LDA j JY) (4 + M.toNat * (4 + (4 + 4))) (M.toNat * 4) :=
      fun j JY => by
    unfold gerCol
    refine CntLe.cast ((cnt_loadQ _).le.bind (r' := M.toNat * (4 + (4 + 4))) (w' := M.toNat * 4) fun x => ?_) rfl (by omega)
    refine CntLe.ite (fun _ => ?_) fun _ => (cnt_i32 _).le.mono (by omega) (by omega)
    by_cases h : INCX = 1
    · simp only [h, if_true]
      exact ((Cnt.forN fun i _ => el ..).bind fun _ => cnt_i32 _).le.cast (by omega) (by omega)
    · simp only [h, if_false]
      exact ((Cnt.fold_const fun i s _ => (el ..).bind fun _ => cnt_i32 _).bind fun _ => cnt_i32 _).le.cast (by simp) (by simp)
  unfold gerGen
  refine CntLe.ite (fun _ => .ret) fun _ => ?_
  refine CntLe.cast ((cnt_assert _).le.bind fun _ => (cnt_assert _).le.bind fun _ => (CntLe.fold_const fun j JY _ => col j JY).bind
    (r' := 0) (w' := 0) fun _ => .ret) (by omega) (by omega)

/-! ## Mixed element types -/

section
omit [ArithEq F]
theorem cnt_axpyElK (kX : Kind) (l : Bool) (a : Scal F) (X Y i j : Int) : Cnt (axpyElK kX l a X Y i j) (kX.width.toNat + 4) 4 :=
  (cnt_loadK kX _).bind fun _ => (cnt_loadQ _).bind fun _ => cnt_storeQ _ _
end

theorem cnt_axpyvGenK (kX : Kind) (SIDE : Char) (N : Int) (ALPHA : Scal F) (X INCX Y INCY : Int) (h0 : ALPHA.eqZero = false) :
    Cnt (axpyvGenK kX SIDE N ALPHA X INCX Y INCY) (N.toNat * (kX.width.toNat + 4)) (N.toNat * 4) := by
  unfold axpyvGenK
  refine Cnt.ite (fun h => Cnt.ret.cast (by simp [show N.toNat = 0 by omega]) (by omega)) fun h => ?_
  rw [h0]
  refine (cnt_assert _).bind0 fun _ => (cnt_assert _).bind0 fun _ => Cnt.ite (fun _ => ?_) (fun _ => cnt_strided fun i j => cnt_axpyElK ..)
  refine cnt_unroll 4 (by decide) h (fun i => cnt_axpyElK ..) fun i => ((cnt_axpyElK ..).bind fun _ => (cnt_axpyElK ..).bind fun _ =>
    (cnt_axpyElK ..).bind fun _ => cnt_axpyElK ..).cast ?_ ?_ <;> omega

theorem cnt_axpyvGenK_zero (kX : Kind) (SIDE : Char) (N : Int) (ALPHA : Scal F) (X INCX Y INCY : Int) (h0 : ALPHA.eqZero = true) :
    Cnt (axpyvGenK kX SIDE N ALPHA X INCX Y INCY) 0 0 := by
  unfold axpyvGenK
  rw [h0]
  exact Cnt.ite (fun _ => .ret) fun _ => .ret

/-- op(A) = A: C is updated once for every `l`. -/
theorem cnt_gemmGenK_N (kA kB : Kind) (tB : Char) (M N K : Int) (ALPHA : Scal F) (A LDA B LDB : Int) (BETA : Scal F) (C LDC : Int)
    (h0 : ALPHA.eqZero = false) (h01 : BETA.eqZero = true → BETA.eqOne = false) :
    Cnt (gemmGenK kA kB 'N' tB M N K ALPHA A LDA B LDB BETA C LDC)
      (N.toNat * (betaR BETA M.toNat + K.toNat * (M.toNat * (kA.width.toNat + (kB.width.toNat + 4)))))
      (N.toNat * (betaW BETA M.toNat + K.toNat * (M.toNat * 4))) := by
  have el : ∀ cj p q r i, Cnt (gemmAxpyElK kA kB cj ALPHA p q r i) (kA.width.toNat + (kB.width.toNat + 4)) 4 := fun cj p q r i =>
    ((cnt_loadK kA _).bind fun _ => (cnt_loadK kB _).bind fun _ => (cnt_loadQ _).bind fun _ => cnt_storeQ _ _).cast (by omega) rfl
  have nn : ∀ j, Cnt (gemmColNNK kA kB M K ALPHA A LDA B LDB BETA C LDC j)
      (betaR BETA M.toNat + K.toNat * (M.toNat * (kA.width.toNat + (kB.width.toNat + 4)))) (betaW BETA M.toNat + K.toNat * (M.toNat * 4)) := fun j => by
    unfold gemmColNNK
    exact (cnt_i32 _).bind0 fun _ => (cnt_i32 _).bind0 fun _ => (cnt_gemmBetaCol _ _ _ h01).bind fun _ => Cnt.forN fun l _ =>
      (cnt_i32 _).bind0 fun _ => Cnt.forN fun i _ => el ..
  have nt : ∀ cj j, Cnt (gemmColNTK kA kB cj M K ALPHA A LDA B LDB BETA C LDC j)
      (betaR BETA M.toNat + K.toNat * (M.toNat * (kA.width.toNat + (kB.width.toNat + 4)))) (betaW BETA M.toNat + K.toNat * (M.toNat * 4)) := fun cj j => by
    unfold gemmColNTK
    exact (cnt_i32 _).bind0 fun _ => (cnt_gemmBetaCol _ _ _ h01).bind fun _ => Cnt.forN fun l _ =>
      (cnt_i32 _).bind0 fun _ => (cnt_i32 _).bind0 fun _ => Cnt.forN fun i _ => el ..
  unfold gemmGenK
  refine Cnt.ite (fun h => ?_) fun h => ?_
  · simp only [h0, Bool.or_eq_true, decide_eq_true_eq, Bool.false_or, Bool.and_eq_true] at h
    rcases h with (h | h) | ⟨h, h'⟩
    · subst h
      exact Cnt.ret.cast (by simp [betaR]) (by simp [betaW])
    · subst h
      exact Cnt.ret.cast (by simp) (by simp)
    · subst h
      exact Cnt.ret.cast (by simp [betaR, h']) (by simp [betaW, h'])
  · rw [h0]
    exact Cnt.ite (fun h => by cases h) fun _ => Cnt.ite (fun _ => Cnt.forN fun j _ => nn j) fun _ =>
      Cnt.ite (fun _ => Cnt.ite (fun _ => Cnt.forN fun j _ => nt _ j) fun _ => Cnt.forN fun j _ => nt _ j) fun h => absurd rfl h

/-- op(A) ≠ A: every entry of C is stored once. -/
theorem cnt_gemmGenK_T (kA kB : Kind) (tA tB : Char) (M N K : Int) (ALPHA : Scal F) (A LDA B LDB : Int) (BETA : Scal F) (C LDC : Int)
    (hA : tA ≠ 'N') (h0 : ALPHA.eqZero = false) (hK : K = 0 → BETA.eqOne = false) :
    Cnt (gemmGenK kA kB tA tB M N K ALPHA A LDA B LDB BETA C LDC)
      (N.toNat * (M.toNat * (K.toNat * (kA.width.toNat + kB.width.toNat) + (if BETA.eqZero then 0 else 4))))
      (N.toNat * (M.toNat * 4)) := by
  have el : ∀ ca cj p q l h, Cnt (gemmDotElK kA kB ca cj p q l h : Prog F _) (kA.width.toNat + kB.width.toNat) 0 := fun ca cj p q l h =>
    ((cnt_loadK kA _).bind fun _ => (cnt_loadK kB _).bind fun _ => .ret).cast (by omega) rfl
  have tn : ∀ ca j, Cnt (gemmColTNK kA kB ca M K ALPHA A LDA B LDB BETA C LDC j)
      (M.toNat * (K.toNat * (kA.width.toNat + kB.width.toNat) + (if BETA.eqZero then 0 else 4))) (M.toNat * 4) := fun ca j => by
    unfold gemmColTNK
    refine (cnt_i32 _).bind0 fun _ => (cnt_i32 _).bind0 fun _ => Cnt.forN fun i _ => ?_
    unfold gemmElTNK
    exact (cnt_i32 _).bind0 fun _ => ((Cnt.fold_const fun l h _ => el _ _ _ _ _ h).bind fun _ => cnt_gemmStoreEl ..).cast rfl (by simp)
  have tt : ∀ ca cb j, Cnt (gemmColTTK kA kB ca cb M K ALPHA A LDA B LDB BETA C LDC j)
      (M.toNat * (K.toNat * (kA.width.toNat + kB.width.toNat) + (if BETA.eqZero then 0 else 4))) (M.toNat * 4) := fun ca cb j => by
    unfold gemmColTTK
    refine (cnt_i32 _).bind0 fun _ => Cnt.forN fun i _ => ?_
    unfold gemmElTTK
    exact (cnt_i32 _).bind0 fun _ => ((Cnt.fold_const fun l h _ => (cnt_i32 _).bind0 fun _ => el _ _ _ _ _ h).bind fun _ =>
      cnt_gemmStoreEl ..).cast rfl (by simp)
  unfold gemmGenK
  refine Cnt.ite (fun h => ?_) fun h => ?_
  · simp only [h0, Bool.or_eq_true, decide_eq_true_eq, Bool.false_or, Bool.and_eq_true] at h
    rcases h with (h | h) | ⟨h, h'⟩
    · subst h
      exact Cnt.ret.cast (by simp) (by simp)
    · subst h
      exact Cnt.ret.cast (by simp) (by simp)
    · rw [hK h] at h'
      cases h'
  · rw [h0, show (tA == 'N') = false by simpa using hA]
    exact Cnt.ite (fun h => by cases h) fun _ => Cnt.ite
      (fun _ => Cnt.ite (fun h => by cases h) fun _ => Cnt.ite (fun _ => Cnt.forN fun j _ => tn _ j) fun _ => Cnt.forN fun j _ => tn _ j)
      fun _ => Cnt.ite (fun h => by cases h) fun _ => Cnt.ite
        (fun _ => Cnt.ite (fun _ => Cnt.forN fun j _ => tt _ _ j) fun _ => Cnt.forN fun j _ => tt _ _ j)
        (fun _ => Cnt.ite (fun _ => Cnt.forN fun j _ => tt _ _ j) fun _ => Cnt.forN fun j _ => tt _ _ j)

/-- ALPHA = 0: neither A nor B is read. -/
theorem cnt_gemmGenK_zero (kA kB : Kind) (tA tB : Char) (M N K : Int) (ALPHA : Scal F) (A LDA B LDB : Int) (BETA : Scal F) (C LDC : Int)
    (h0 : ALPHA.eqZero = true) :
    Cnt (gemmGenK kA kB tA tB M N K ALPHA A LDA B LDB BETA C LDC) (N.toNat * betaR BETA M.toNat) (N.toNat * betaW BETA M.toNat) := by
  unfold gemmGenK
  refine Cnt.ite (fun h => ?_) fun h => ?_
  · simp only [h0, Bool.or_eq_true, decide_eq_true_eq, Bool.true_or, Bool.true_and] at h
    rcases h with (h | h) | h'
    · subst h
      exact Cnt.ret.cast (by simp [betaR]) (by simp [betaW])
    · subst h
      exact Cnt.ret.cast (by simp) (by simp)
    · exact Cnt.ret.cast (by simp [betaR, h']) (by simp [betaW, h'])
  · simp only [h0, Bool.or_eq_true, decide_eq_true_eq, Bool.true_or, Bool.true_and, not_or, Bool.not_eq_true] at h
    rw [h0]
    exact Cnt.ite (fun _ => Cnt.forN fun j _ => cnt_gemmColA0 _ _ _ _ _ h.2) fun h => absurd rfl h

theorem cnt_gemvGenK_N (kA kX : Kind) (M N : Int) (ALPHA : Scal F) (A LDA X INCX : Int) (BETA : Scal F) (Y INCY : Int)
    (hM : M ≠ 0) (hN : N ≠ 0) (h0 : ALPHA.eqZero = false) :
    Cnt (gemvGenK kA kX 'N' M N ALPHA A LDA X INCX BETA Y INCY)
      (betaR BETA M.toNat + N.toNat * (kX.width.toNat + M.toNat * (2 * kA.width.toNat + (kX.width.toNat + 8))))
      (betaW BETA M.toNat + N.toNat * (M.toNat * 8)) := by
  have el : ∀ j jx h i iy, Cnt (gemvAxpyElK kA kX ALPHA A LDA X Y j jx h i iy) (2 * kA.width.toNat + (kX.width.toNat + 8)) 8 := fun j jx h i iy => by
    unfold gemvAxpyElK
    exact ((cnt_rank2 _ _ _).bind fun _ => (cnt_loadK kA _).bind fun _ => (cnt_loadQ _).bind fun _ => (cnt_storeQ _ _).bind fun _ =>
      (cnt_loadK kA _).bind fun _ => (cnt_loadK kX _).bind fun _ => (cnt_loadQ _).bind fun _ => cnt_storeQ _ _).cast (by omega) rfl
  have col : ∀ j jx, Cnt (gemvColNK kA kX M ALPHA A LDA X INCX Y INCY j jx)
      (kX.width.toNat + M.toNat * (2 * kA.width.toNat + (kX.width.toNat + 8))) (M.toNat * 8) := fun j jx => by
    unfold gemvColNK
    refine Cnt.cast ((cnt_loadK kX _).bind (r' := M.toNat * (2 * kA.width.toNat + (kX.width.toNat + 8))) (w' := M.toNat * 8) fun x => ?_) rfl (by omega)
    by_cases h : INCY = 1
    · simp only [h, if_true]
      exact ((Cnt.forN fun i _ => el ..).bind fun _ => cnt_i32 _).cast (by omega) (by omega)
    · simp only [h, if_false]
      exact ((Cnt.fold_const fun i s _ => (el ..).bind fun _ => cnt_i32 _).bind fun _ => cnt_i32 _).cast (by simp) (by simp)
  unfold gemvGenK
  refine Cnt.ite (fun h => ?_) fun h => ?_
  · simp [h0, hM, hN] at h
  · refine (cnt_assert _).bind0 fun _ => (cnt_assert _).bind0 fun _ => ?_
    simp only [h0, ne_eq, not_true_eq_false, if_false, Bool.false_eq_true, if_true]
    exact (cnt_gemvScale ..).bind fun _ => (Cnt.fold_const fun j jx _ => col j jx).bind fun _ => .ret

theorem cnt_gemvGenK_T (kA kX : Kind) (t : Char) (M N : Int) (ALPHA : Scal F) (A LDA X INCX : Int) (BETA : Scal F) (Y INCY : Int)
    (ht : t ≠ 'N') (hM : M ≠ 0) (hN : N ≠ 0) (h0 : ALPHA.eqZero = false) :
    Cnt (gemvGenK kA kX t M N ALPHA A LDA X INCX BETA Y INCY)
      (betaR BETA N.toNat + N.toNat * (M.toNat * (kA.width.toNat + kX.width.toNat) + 4)) (betaW BETA N.toNat + N.toNat * 4) := by
  have el : ∀ nc j i ix h, Cnt (gemvDotElK kA kX nc A LDA X j i ix h : Prog F _) (kA.width.toNat + kX.width.toNat) 0 := fun nc j i ix h =>
    ((cnt_rank2 _ _ _).bind fun _ => (cnt_loadK kA _).bind fun _ => (cnt_loadK kX _).bind fun _ => .ret).cast (by omega) rfl
  have col : ∀ nc j jy, Cnt (gemvColTK kA kX nc M ALPHA A LDA X INCX Y INCY j jy) (M.toNat * (kA.width.toNat + kX.width.toNat) + 4) 4 :=
      fun nc j jy => by
    unfold gemvColTK
    by_cases h : INCX = 1
    · simp only [h, if_true]
      exact ((Cnt.fold_const fun i h _ => el ..).bind fun _ => (cnt_loadQ _).bind fun _ => (cnt_storeQ _ _).bind fun _ =>
        cnt_i32 _).cast (by omega) (by simp)
    · simp only [h, if_false]
      exact (((Cnt.fold_const (r := kA.width.toNat + kX.width.toNat) (w := 0) fun i h _ => (el ..).bind fun _ => (cnt_i32 _).bind fun _ => .ret).bind
        fun _ => .ret).bind fun _ => (cnt_loadQ _).bind fun _ => (cnt_storeQ _ _).bind fun _ => cnt_i32 _).cast (by omega) (by simp)
  unfold gemvGenK
  refine Cnt.ite (fun h => ?_) fun h => ?_
  · simp [h0, hM, hN] at h
  · refine (cnt_assert _).bind0 fun _ => (cnt_assert _).bind0 fun _ => ?_
    simp only [h0, ht, ne_eq, not_false_eq_true, if_true, Bool.false_eq_true, if_false]
    exact (cnt_gemvScale ..).bind fun _ => (Cnt.fold_const fun j jx _ => col _ j jx).bind fun _ => .ret

theorem cnt_gemvGenK_zero (kA kX : Kind) (t : Char) (M N : Int) (ALPHA : Scal F) (A LDA X INCX : Int) (BETA : Scal F) (Y INCY : Int)
    (hM : M ≠ 0) (hN : N ≠ 0) (h0 : ALPHA.eqZero = true) :
    Cnt (gemvGenK kA kX t M N ALPHA A LDA X INCX BETA Y INCY)
      (betaR BETA (if t = 'N' then M else N).toNat) (betaW BETA (if t = 'N' then M else N).toNat) := by
  unfold gemvGenK
  refine Cnt.ite (fun h => ?_) fun h => ?_
  · have h1 : BETA.eqOne = true := by simpa [h0, hM, hN] using h
    exact Cnt.ret.cast (by simp [betaR, h1]) (by simp [betaW, h1])
  · refine (cnt_assert _).bind0 fun _ => (cnt_assert _).bind0 fun _ => ?_
    simp only [h0, if_true, ne_eq, ite_not]
    exact (cnt_gemvScale ..).bind fun _ => .ret

/-- The rank-1 updates skip the columns whose entry of y is zero: an upper bound. -/
theorem cnt_gerGenK (kX : Kind) (kY : Kind) (cj : Bool) (M N : Int) (ALPHA : Scal F) (X INCX Y INCY A LDA : Int) :
    CntLe (gerGenK kX kY cj M N ALPHA X INCX Y INCY A LDA)
      (N.toNat * (kY.width.toNat + M.toNat * (kX.width.toNat + (kY.width.toNat + 4)))) (N.toNat * (M.toNat * 4)) := by
  have el : ∀ j JY i ix, Cnt (gerElK kX kY cj ALPHA X Y A LDA j JY i ix) (kX.width.toNat + (kY.width.toNat + 4)) 4 := fun j JY i ix => by
    unfold gerElK
    exact ((cnt_loadK kX _).bind fun _ => (cnt_loadK kY _).bind fun _ => (cnt_rank2 _ _ _).bind fun _ => (cnt_loadQ _).bind fun _ =>
      cnt_storeQ _ _).cast (by omega) rfl
  have col : ∀ j JY, CntLe (gerColK kX kY cj M ALPHA X INCX Y INCY A LDA j JY) (kY.width.toNat + M.toNat * (kX.width.toNat + (kY.width.toNat + 4))) (M.toNat * 4) :=
      fun j JY => by
    unfold gerColK
    refine CntLe.cast ((cnt_loadK kY _).le.bind (r' := M.toNat * (kX.width.toNat + (kY.width.toNat + 4))) (w' := M.toNat * 4) fun x => ?_) rfl (by omega)
    refine CntLe.ite (fun _ => ?_) fun _ => (cnt_i32 _).le.mono (by omega) (by omega)
    by_cases h : INCX = 1
    · simp only [h, if_true]
      exact ((Cnt.forN fun i _ => el ..).bind fun _ => cnt_i32 _).le.cast (by omega) (by omega)
    · simp only [h, if_false]
      exact ((Cnt.fold_const fun i s _ => (el ..).bind fun _ => cnt_i32 _).bind fun _ => cnt_i32 _).le.cast (by simp) (by simp)
  unfold gerGenK
  refine CntLe.ite (fun _ => .ret) fun _ => ?_
  refine CntLe.cast ((cnt_assert _).le.bind fun _ => (cnt_assert _).le.bind fun _ => (CntLe.fold_const fun j JY _ => col j JY).bind
    (r' := 0) (w' := 0) fun _ => .ret) (by omega) (by omega)

end Haxx.Thr
