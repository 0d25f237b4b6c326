import Verif.ThrPrim
import Verif.Spec

/-!
# Threads: footprints

`Writes W t Q`: whatever values it reads, `t` writes (maps, unmaps) only cells in `W`, and a value it returns
satisfies `Q`.  With it and a run in a memory in which only the cells in `S` are accessible, all accesses of a
run alone are located (`foot_of`).
-/

namespace Haxx.Thr

variable {F α β σ : Type}

/-- All writes of `t`, whatever it reads, are in `W`; its result satisfies `Q`. -/
def Writes (W : Int → Prop) : Prog F α → (α → Prop) → Prop
  | .ret a, Q => Q a
  | .fail _, _ => True
  | .rd _ k, Q => ∀ v, Writes W (k v) Q
  | .wr a _ k, Q => W a ∧ Writes W k Q
  | .map p n _ k, Q => (∀ c, p ≤ c → c < p + n → W c) ∧ Writes W k Q

theorem Writes.mono {W : Int → Prop} {t : Prog F α} {Q Q' : α → Prop} (h : Writes W t Q) (hq : ∀ a, Q a → Q' a) :
    Writes W t Q' := by
  induction t with
  | ret a => exact hq a h
  | fail e => trivial
  | rd a k ih => exact fun v => ih v (h v)
  | wr a v k ih => exact ⟨h.1, ih h.2⟩
  | map p n g k ih => exact ⟨h.1, ih h.2⟩

theorem Writes.weaken {W W' : Int → Prop} {t : Prog F α} {Q : α → Prop} (h : Writes W t Q) (hw : ∀ a, W a → W' a) :
    Writes W' t Q := by
  induction t with
  | ret a => exact h
  | fail e => trivial
  | rd a k ih => exact fun v => ih v (h v)
  | wr a v k ih => exact ⟨hw _ h.1, ih h.2⟩
  | map p n g k ih => exact ⟨fun c h1 h2 => hw c (h.1 c h1 h2), ih h.2⟩

theorem writes_bind {W : Int → Prop} {t : Prog F α} {f : α → Prog F β} {Q : β → Prop}
    (h : Writes W t (fun a => Writes W (f a) Q)) : Writes W (t >>= f) Q := by
  show Writes W (t.bind f) Q
  induction t with
  | ret a => exact h
  | fail e => trivial
  | rd a k ih => exact fun v => ih v (h v)
  | wr a v k ih => exact ⟨h.1, ih h.2⟩
  | map p n g k ih => exact ⟨h.1, ih h.2⟩

theorem writes_pure {W : Int → Prop} {a : α} {Q : α → Prop} (h : Q a) : Writes W (pure a : Prog F α) Q := h

theorem writes_fault {W : Int → Prop} {e : Fault} {Q : α → Prop} : Writes W (fault e : Prog F α) Q := trivial

theorem writes_ite {W : Int → Prop} {c : Prop} [Decidable c] {t u : Prog F α} {Q : α → Prop}
    (h1 : c → Writes W t Q) (h2 : ¬ c → Writes W u Q) : Writes W (if c then t else u) Q := by
  split
  · exact h1 ‹_›
  · exact h2 ‹_›

theorem writes_rd {W : Int → Prop} {a : Int} {Q : F → Prop} (h : ∀ v, Q v) : Writes W (rd a) Q := h

theorem writes_loadQ {W : Int → Prop} {p : Int} {Q : Quat F → Prop} (h : ∀ v, Q v) : Writes W (loadQ p) Q :=
  fun _ _ _ _ => h _

theorem writes_loadA {W : Int → Prop} {p : Int} {Q : Quat F → Prop} (h : ∀ v, Q v) : Writes W (loadA p) Q :=
  writes_ite (fun _ => writes_loadQ h) (fun _ => writes_fault)

theorem writes_wr {W : Int → Prop} {a : Int} {v : F} {Q : Unit → Prop} (h : W a) (hq : Q ()) : Writes W (wr a v) Q := ⟨h, hq⟩

theorem writes_storeQ {W : Int → Prop} {p : Int} {q : Quat F} {Q : Unit → Prop} (h : ∀ a, InQ p a → W a) (hq : Q ()) :
    Writes W (storeQ p q) Q :=
  ⟨h p (by unfold InQ; omega), h _ (by unfold InQ; omega), h _ (by unfold InQ; omega), h _ (by unfold InQ; omega), hq⟩

theorem writes_storeA {W : Int → Prop} {p : Int} {q : Quat F} {Q : Unit → Prop} (h : ∀ a, InQ p a → W a) (hq : Q ()) :
    Writes W (storeA p q) Q :=
  writes_ite (fun _ => writes_storeQ h hq) (fun _ => writes_fault)

theorem writes_assertP {W : Int → Prop} {b : Bool} {Q : Unit → Prop} (h : b = true → Q ()) : Writes W (assertP b : Prog F Unit) Q :=
  writes_ite h (fun _ => writes_fault)

theorem writes_i32 {W : Int → Prop} {x : Int} {Q : Int → Prop} (h : Q x) : Writes W (i32 x : Prog F Int) Q :=
  writes_ite (fun _ => h) (fun _ => writes_fault)

theorem writes_foldN {W : Int → Prop} {n : Nat} {f : Nat → σ → Prog F σ} {s : σ} (I : Nat → σ → Prop)
    (h0 : I 0 s) (hs : ∀ i s, i < n → I i s → Writes W (f i s) (I (i+1))) : Writes W (foldN n f s) (I n) := by
  induction n with
  | zero => exact h0
  | succ n ih =>
    unfold foldN
    exact writes_bind ((ih (fun i s hi => hs i s (by omega))).mono (fun s' h' => hs n s' (by omega) h'))

theorem writes_forN {W : Int → Prop} {n : Nat} {f : Nat → Prog F Unit} {Q : Unit → Prop} (hQ : Q ())
    (hs : ∀ i, i < n → Writes W (f i) (fun _ => True)) : Writes W (forN n f) Q :=
  (writes_foldN (fun _ _ => True) trivial (fun i _ hi _ => hs i hi)).mono (fun _ _ => hQ)

theorem writes_wrs {W : Int → Prop} {t : Prog F α} {Q : α → Prop} (h : Writes W t Q) {m : Mem F} {a : Int} (ha : t.wrs m a) :
    W a := by
  induction t generalizing m with
  | ret _ => exact ha.elim
  | fail _ => exact ha.elim
  | rd b k ih =>
    unfold Prog.wrs at ha
    cases e : m b with
    | none => rw [e] at ha; exact ha.elim
    | some v => rw [e] at ha; exact ih v (h v) ha
  | wr b v k ih =>
    rcases ha with ha | ha
    · rw [ha]; exact h.1
    · exact ih h.2 ha
  | map p n g k ih =>
    rcases ha with ha | ha
    · exact h.1 a ha.1 ha.2
    · exact ih h.2 ha

/-- The memory in which only the cells in `S` are accessible. -/
noncomputable def keep (S : Int → Prop) (m : Mem F) : Mem F :=
  fun a => open Classical in if S a then m a else none

theorem keep_of {S : Int → Prop} {m : Mem F} {a : Int} (h : S a) : keep S m a = m a := by
  unfold keep; rw [if_pos h]

theorem keep_not {S : Int → Prop} {m : Mem F} {a : Int} (h : ¬ S a) : keep S m a = none := by
  unfold keep; rw [if_neg h]

theorem keep_le {S : Int → Prop} {m : Mem F} {a : Int} {v : F} (h : keep S m a = some v) : S a ∧ m a = some v := by
  by_cases hs : S a
  · rw [keep_of hs] at h; exact ⟨hs, h⟩
  · rw [keep_not hs] at h; cases h

/-- `t`, run alone from `m`, finishes with `r` and `mf`, accesses only cells in `S` and writes only cells in `W`. -/
structure Foot (t : Prog F α) (m : Mem F) (S W : Int → Prop) (r : α) (mf : Mem F) : Prop where
  run : t.run m = .ok (r, mf)
  accs : ∀ a, t.accs m a → S a
  wrs : ∀ a, t.wrs m a → W a

/-- A run with only the cells in `S` accessible is a run from the whole memory that accesses only cells in `S`
(and cells it maps itself, in `W`). -/
theorem foot_of {S W : Int → Prop} {t : Prog F α} {m : Mem F} {r : α} {m1 : Mem F} {Q : α → Prop}
    (hrun : t.run (keep S m) = .ok (r, m1)) (hW : Writes W t Q) (hWS : ∀ a, W a → S a) :
    ∃ mf, Foot t m S W r mf := by
  have key : ∀ (t : Prog F α) (k m : Mem F), (∀ a v, k a = some v → S a ∧ m a = some v) →
      t.run k = .ok (r, m1) → Writes W t Q → ∃ mf, t.run m = .ok (r, mf) ∧ ∀ a, t.accs m a → S a := by
    intro t
    induction t with
    | ret a =>
      intro k m hk hr hw
      have hr' : (Except.ok (a, k) : Except Fault _) = .ok (r, m1) := hr
      cases hr'
      exact ⟨m, rfl, fun _ h => h.elim⟩
    | fail e =>
      intro k m hk hr hw
      have hr' : (Except.error e : Except Fault _) = .ok (r, m1) := hr
      cases hr'
    | rd b f ih =>
      intro k m hk hr hw
      cases e : k b with
      | none => simp only [Prog.run, e] at hr; cases hr
      | some v =>
        simp only [Prog.run, e] at hr
        obtain ⟨h1, h2⟩ := hk b v e
        obtain ⟨mf, h3, h4⟩ := ih v k m hk hr (hw v)
        refine ⟨mf, by simp only [Prog.run, h2]; exact h3, ?_⟩
        intro a ha
        simp only [Prog.accs, h2] at ha
        rcases ha with rfl | ha
        · exact h1
        · exact h4 a ha
    | wr b w f ih =>
      intro k m hk hr hw
      cases e : k b with
      | none => simp only [Prog.run, e] at hr; cases hr
      | some v =>
        simp only [Prog.run, e] at hr
        obtain ⟨h1, h2⟩ := hk b v e
        obtain ⟨mf, h3, h4⟩ := ih (upd k b w) (upd m b w) (by
          intro a v' ha
          unfold upd at ha ⊢
          by_cases hab : a = b
          · rw [if_pos hab] at ha ⊢; exact ⟨hab ▸ h1, ha⟩
          · rw [if_neg hab] at ha ⊢; exact hk a v' ha) hr hw.2
        refine ⟨mf, by simp only [Prog.run, h2]; exact h3, ?_⟩
        intro a ha
        simp only [Prog.accs] at ha
        rcases ha with rfl | ha
        · exact h1
        · exact h4 a ha
    | map p n g f ih =>
      intro k m hk hr hw
      obtain ⟨mf, h3, h4⟩ := ih (remap k p n g) (remap m p n g) (by
          intro a v' ha
          unfold remap at ha ⊢
          by_cases hab : p ≤ a ∧ a < p + n
          · rw [if_pos hab] at ha ⊢; exact ⟨hWS a (hw.1 a hab.1 hab.2), ha⟩
          · rw [if_neg hab] at ha ⊢; exact hk a v' ha) hr hw.2
      refine ⟨mf, h3, ?_⟩
      intro a ha
      simp only [Prog.accs] at ha
      rcases ha with ha | ha
      · exact hWS a (hw.1 a ha.1 ha.2)
      · exact h4 a ha
  obtain ⟨mf, h1, h2⟩ := key t (keep S m) m (fun a v h => keep_le h) hrun hW
  exact ⟨mf, h1, h2, fun a ha => writes_wrs hW ha⟩

/-- The form in which the routines' theorems provide it. -/
theorem foot_of_wp {S W : Int → Prop} {t : Prog F α} {p : Haxx.Prog F α} {m : Mem F} {Q : α → Mem F → Prop} {Q' : α → Prop}
    (hp : t.run = p) (hrun : wp p (keep S m) Q) (hW : Writes W t Q') (hWS : ∀ a, W a → S a) :
    ∃ r mf, Foot t m S W r mf := by
  obtain ⟨r, m1, h, _⟩ := hrun
  rw [← hp] at h
  obtain ⟨mf, hf⟩ := foot_of h hW hWS
  exact ⟨r, mf, hf⟩

theorem readQ_keep {S : Int → Prop} {m : Mem F} {p : Int} (h : ∀ a, InQ p a → S a) : readQ (keep S m) p = readQ m p :=
  readQ_congr (fun a ha => keep_of (h a ha))

theorem vecAt_keep {S : Int → Prop} {m : Mem F} {p inc : Int} {n : Nat} {v : Nat → Quat F} (hv : VecAt m p inc n v)
    (h : ∀ a, VecCell p inc n a → S a) : VecAt (keep S m) p inc n v := fun i hi => by
  rw [readQ_keep (fun a ha => h a ⟨i, hi, ha⟩)]; exact hv i hi

theorem matAt_keep {S : Int → Prop} {m : Mem F} {p ld : Int} {r c : Nat} {v : Nat → Nat → Quat F} (hv : MatAt m p ld r c v)
    (h : ∀ a, MatCell p ld r c a → S a) : MatAt (keep S m) p ld r c v := fun i j hi hj => by
  rw [readQ_keep (fun a ha => h a ⟨i, j, hi, hj, ha⟩)]; exact hv i j hi hj

end Haxx.Thr
