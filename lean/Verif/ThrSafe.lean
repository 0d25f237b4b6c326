import Verif.ThrFoot
import Verif.ThrFort

/-!
# Threads: safety of a routine, whatever the numbers

`Safe S W t Q`: whatever values it reads, `t` accesses only cells in `S`, writes only cells in `W`, never does
anything undefined, and returns a value satisfying `Q`.  No arithmetic enters, so this covers NaNs, infinities
and every rounding.  (The routines it is used for allocate nothing.)
-/

namespace Haxx.Thr

variable {F α β σ : Type}

/-- See the header. -/
def Safe (S W : Int → Prop) : Prog F α → (α → Prop) → Prop
  | .ret a, Q => Q a
  | .fail _, _ => False
  | .rd a k, Q => S a ∧ ∀ v, Safe S W (k v) Q
  | .wr a _ k, Q => (S a ∧ W a) ∧ Safe S W k Q
  | .map _ _ _ _, _ => False

theorem Safe.mono {S W : Int → Prop} {t : Prog F α} {Q Q' : α → Prop} (h : Safe S W t Q) (hq : ∀ a, Q a → Q' a) :
    Safe S W t Q' := by
  induction t with
  | ret a => exact hq a h
  | fail e => exact h
  | rd a k ih => exact ⟨h.1, fun v => ih v (h.2 v)⟩
  | wr a v k ih => exact ⟨h.1, ih h.2⟩
  | map p n g k ih => exact h

theorem safe_bind {S W : Int → Prop} {t : Prog F α} {f : α → Prog F β} {Q : β → Prop}
    (h : Safe S W t (fun a => Safe S W (f a) Q)) : Safe S W (t >>= f) Q := by
  show Safe S W (t.bind f) Q
  induction t with
  | ret a => exact h
  | fail e => exact h
  | rd a k ih => exact ⟨h.1, fun v => ih v (h.2 v)⟩
  | wr a v k ih => exact ⟨h.1, ih h.2⟩
  | map p n g k ih => exact h

theorem safe_seq {S W : Int → Prop} {t : Prog F α} {f : α → Prog F β} {Q : β → Prop}
    (h : Safe S W t (fun _ => True)) (hf : ∀ a, Safe S W (f a) Q) : Safe S W (t >>= f) Q :=
  safe_bind (h.mono fun a _ => hf a)

theorem safe_pure {S W : Int → Prop} {a : α} {Q : α → Prop} (h : Q a) : Safe S W (pure a : Prog F α) Q := h

theorem safe_ite {S W : Int → Prop} {c : Prop} [Decidable c] {t u : Prog F α} {Q : α → Prop}
    (h1 : c → Safe S W t Q) (h2 : ¬ c → Safe S W u Q) : Safe S W (if c then t else u) Q := by
  split
  · exact h1 ‹_›
  · exact h2 ‹_›

/-- The two cells of a `COMPLEX*16`. -/
def Two (S : Int → Prop) (p : Int) : Prop := S p ∧ S (p+1)

theorem safe_rd {S W : Int → Prop} {p : Int} (h : S p) : Safe S W (rd p : Prog F F) (fun _ => True) := ⟨h, fun _ => trivial⟩

theorem safe_rdC {S W : Int → Prop} {p : Int} (h : Two S p) : Safe S W (rdC p : Prog F (Cplx F)) (fun _ => True) :=
  ⟨h.1, fun _ => ⟨h.2, fun _ => trivial⟩⟩

theorem safe_wr {S W : Int → Prop} {p : Int} {v : F} (h : S p) (hw : W p) : Safe S W (wr p v) (fun _ => True) :=
  ⟨⟨h, hw⟩, trivial⟩

theorem safe_wrC {S W : Int → Prop} {p : Int} {z : Cplx F} (h : Two S p) (hw : Two W p) : Safe S W (wrC p z) (fun _ => True) :=
  ⟨⟨h.1, hw.1⟩, ⟨h.2, hw.2⟩, trivial⟩

theorem safe_foldI {S W : Int → Prop} {n : Nat} {f : Nat → σ → Prog F σ} {s : σ} (I : Nat → σ → Prop)
    (h0 : I 0 s) (hs : ∀ i s, i < n → I i s → Safe S W (f i s) (I (i+1))) : Safe S W (foldN n f s) (I n) := by
  induction n with
  | zero => exact h0
  | succ n ih =>
    unfold foldN
    exact safe_bind ((ih (fun i s hi => hs i s (by omega))).mono (fun s' h' => hs n s' (by omega) h'))

/-- A loop whose carried values do not matter. -/
theorem safe_fold {S W : Int → Prop} {n : Nat} {f : Nat → σ → Prog F σ} {s : σ}
    (hs : ∀ i s, i < n → Safe S W (f i s) (fun _ => True)) : Safe S W (foldN n f s) (fun _ => True) :=
  safe_foldI (fun _ _ => True) trivial (fun i s hi _ => hs i s hi)

/-- A loop that carries a position `g s` and advances it by `d`. -/
theorem safe_foldP {S W : Int → Prop} {n : Nat} {f : Nat → σ → Prog F σ} {s : σ} (g : σ → Int) (d : Int)
    (hs : ∀ i t, i < n → g t = g s + (i:Int) * d → Safe S W (f i t) (fun r => g r = g t + d)) :
    Safe S W (foldN n f s) (fun _ => True) := by
  refine (safe_foldI (fun i t => g t = g s + (i:Int) * d) (by simp) ?_).mono fun _ _ => trivial
  intro i t hi ht
  refine (hs i t hi ht).mono fun r hr => ?_
  rw [hr, ht]; push_cast; ring

/-- A loop that carries two positions. -/
theorem safe_foldP2 {S W : Int → Prop} {n : Nat} {f : Nat → σ → Prog F σ} {s : σ} (g g' : σ → Int) (d d' : Int)
    (hs : ∀ i t, i < n → g t = g s + (i:Int) * d → g' t = g' s + (i:Int) * d' →
      Safe S W (f i t) (fun r => g r = g t + d ∧ g' r = g' t + d')) :
    Safe S W (foldN n f s) (fun _ => True) := by
  refine (safe_foldI (fun i t => g t = g s + (i:Int) * d ∧ g' t = g' s + (i:Int) * d') (by simp) ?_).mono fun _ _ => trivial
  intro i t hi ht
  refine (hs i t hi ht.1 ht.2).mono fun r hr => ?_
  rw [hr.1, hr.2, ht.1, ht.2]; push_cast
  constructor <;> ring

theorem safe_forN {S W : Int → Prop} {n : Nat} {f : Nat → Prog F Unit}
    (hs : ∀ i, i < n → Safe S W (f i) (fun _ => True)) : Safe S W (forN n f) (fun _ => True) :=
  safe_fold (fun i _ hi => hs i hi)

/-- A safe routine finishes without a fault whenever the cells in `S` are accessible, and has the footprint. -/
theorem Safe.foot {S W : Int → Prop} {t : Prog F α} {Q : α → Prop} (h : Safe S W t Q) {m : Mem F} (hm : ∀ a, S a → (m a).isSome) :
    ∃ r mf, Foot t m S W r mf ∧ Q r := by
  induction t generalizing m with
  | ret a => exact ⟨a, m, ⟨rfl, fun _ h => h.elim, fun _ h => h.elim⟩, h⟩
  | fail e => exact h.elim
  | rd a k ih =>
    obtain ⟨v, hv⟩ := Option.isSome_iff_exists.1 (hm a h.1)
    obtain ⟨r, mf, hf, hq⟩ := ih v (h.2 v) hm
    refine ⟨r, mf, ⟨by simp only [Prog.run, hv]; exact hf.run, ?_, ?_⟩, hq⟩
    · intro c hc
      simp only [Prog.accs, hv] at hc
      rcases hc with rfl | hc
      · exact h.1
      · exact hf.accs c hc
    · intro c hc
      simp only [Prog.wrs, hv] at hc
      exact hf.wrs c hc
  | wr a v k ih =>
    obtain ⟨w, hv⟩ := Option.isSome_iff_exists.1 (hm a h.1.1)
    obtain ⟨r, mf, hf, hq⟩ := ih h.2 (m := upd m a v) (by
      intro c hc
      unfold upd
      split
      · rfl
      · exact hm c hc)
    refine ⟨r, mf, ⟨by simp only [Prog.run, hv]; exact hf.run, ?_, ?_⟩, hq⟩
    · intro c hc
      simp only [Prog.accs] at hc
      rcases hc with rfl | hc
      · exact h.1.1
      · exact hf.accs c hc
    · intro c hc
      simp only [Prog.wrs] at hc
      rcases hc with rfl | hc
      · exact h.1.2
      · exact hf.wrs c hc
  | map p n g k ih => exact h.elim

/-- The two complex numbers of the quaternion at `p`. -/
theorem two_of {S : Int → Prop} {p : Int} (h : ∀ a, InQ p a → S a) : Two S p ∧ Two S (p+2) := by
  unfold InQ at h
  exact ⟨⟨h _ (by omega), h _ (by omega)⟩, h _ (by omega), h _ (by omega)⟩

theorem two_mat {S : Int → Prop} {P LD : Int} {r c i j : Nat} (h : ∀ a, MatCell P LD r c a → S a) (hi : i < r) (hj : j < c) :
    Two S (el3 2 2 LD P 1 ((i:Int)+1) ((j:Int)+1)) ∧ Two S (el3 2 2 LD P 2 ((i:Int)+1) ((j:Int)+1)) := by
  have := two_of (S := S) (p := P + 4 * ((i:Int) + j * LD)) (fun a ha => h a ⟨i, j, hi, hj, ha⟩)
  have e1 : el3 2 2 LD P 1 ((i:Int)+1) ((j:Int)+1) = P + 4 * ((i:Int) + j * LD) := by unfold el3; ring
  have e2 : el3 2 2 LD P 2 ((i:Int)+1) ((j:Int)+1) = P + 4 * ((i:Int) + j * LD) + 2 := by unfold el3; ring
  rw [e1, e2]; exact this

/-- The accesses a Fortran GEMM may make. -/
structure FGemmEnv (S W : Int → Prop) (nA nB : Bool) (M N K A LDA B LDB C LDC : Int) : Prop where
  AN : nA = true → ∀ i l : Nat, i < M.toNat → l < K.toNat →
    Two S (el3 2 2 LDA A 1 ((i:Int)+1) ((l:Int)+1)) ∧ Two S (el3 2 2 LDA A 2 ((i:Int)+1) ((l:Int)+1))
  AT : ¬ nA = true → ∀ i l : Nat, i < M.toNat → l < K.toNat →
    Two S (el3 2 2 LDA A 1 ((l:Int)+1) ((i:Int)+1)) ∧ Two S (el3 2 2 LDA A 2 ((l:Int)+1) ((i:Int)+1))
  BN : nB = true → ∀ l j : Nat, l < K.toNat → j < N.toNat →
    Two S (el3 2 2 LDB B 1 ((l:Int)+1) ((j:Int)+1)) ∧ Two S (el3 2 2 LDB B 2 ((l:Int)+1) ((j:Int)+1))
  BT : ¬ nB = true → ∀ l j : Nat, l < K.toNat → j < N.toNat →
    Two S (el3 2 2 LDB B 1 ((j:Int)+1) ((l:Int)+1)) ∧ Two S (el3 2 2 LDB B 2 ((j:Int)+1) ((l:Int)+1))
  c : ∀ i j : Nat, i < M.toNat → j < N.toNat →
    Two S (el3 2 2 LDC C 1 ((i:Int)+1) ((j:Int)+1)) ∧ Two S (el3 2 2 LDC C 2 ((i:Int)+1) ((j:Int)+1))
  w : ∀ i j : Nat, i < M.toNat → j < N.toNat →
    Two W (el3 2 2 LDC C 1 ((i:Int)+1) ((j:Int)+1)) ∧ Two W (el3 2 2 LDC C 2 ((i:Int)+1) ((j:Int)+1))

theorem FGemmEnv.of {S W : Int → Prop} {nA nB : Bool} {M N K A LDA B LDB C LDC : Int}
    (hA : ∀ a, MatCell A LDA (if nA then M.toNat else K.toNat) (if nA then K.toNat else M.toNat) a → S a)
    (hB : ∀ a, MatCell B LDB (if nB then K.toNat else N.toNat) (if nB then N.toNat else K.toNat) a → S a)
    (hC : ∀ a, MatCell C LDC M.toNat N.toNat a → S a) (hW : ∀ a, MatCell C LDC M.toNat N.toNat a → W a) :
    FGemmEnv S W nA nB M N K A LDA B LDB C LDC where
  AN e i l hi hl := by subst e; exact two_mat hA hi hl
  AT e i l hi hl := by
    have e : nA = false := by simpa using e
    subst e; exact two_mat hA hl hi
  BN e l j hl hj := by subst e; exact two_mat hB hl hj
  BT e l j hl hj := by
    have e : nB = false := by simpa using e
    subst e; exact two_mat hB hj hl
  c i j hi hj := two_mat hC hi hj
  w i j hi hj := two_mat hW hi hj

end Haxx.Thr
