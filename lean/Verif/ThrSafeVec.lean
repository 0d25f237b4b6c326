import Verif.ThrSafe
import Verif.FortranLemmas

/-!
# Threads: safety of the Fortran level-1 and level-2 routines — vectors and matrices
-/

namespace Haxx.Thr

variable {F α β : Type}

/-- `(IF (c) THEN v = a ELSE v = b)` followed by the rest. -/
theorem safe_bind_ite {S W : Int → Prop} {c : Prop} [Decidable c] {a b : α} {f : α → Prog F β} {Q : β → Prop}
    (h : Safe S W (f (if c then a else b)) Q) : Safe S W ((if c then pure a else pure b : Prog F α) >>= f) Q := by
  split at h
  · rw [if_pos ‹_›]; exact h
  · rw [if_neg ‹_›]; exact h

/-- The same, one branch at a time. -/
theorem safe_bind_cases {S W : Int → Prop} {c : Prop} [Decidable c] {a b : α} {f : α → Prog F β} {Q : β → Prop}
    (h1 : c → Safe S W (f a) Q) (h2 : ¬ c → Safe S W (f b) Q) :
    Safe S W ((if c then pure a else pure b : Prog F α) >>= f) Q := by
  split
  · exact h1 ‹_›
  · exact h2 ‹_›

/-- Element `p` (1-based) of the quaternion vector at `X` may be accessed, in every way the routines do. -/
structure VOk (P : Int → Prop) (X p : Int) : Prop where
  r1 : P (el2 1 4 X 1 p)
  r2 : P (el2 1 4 X 2 p)
  r3 : P (el2 1 4 X 3 p)
  r4 : P (el2 1 4 X 4 p)
  c1 : Two P (el2 2 2 X 1 p)
  c2 : Two P (el2 2 2 X 2 p)

theorem VOk.of {P : Int → Prop} {X p : Int} (h : ∀ a, InQ (X + 4 * (p - 1)) a → P a) : VOk P X p := by
  unfold InQ at h
  constructor <;> first | (refine h _ ?_; unfold el2; omega) | (refine ⟨h _ ?_, h _ ?_⟩ <;> unfold el2 <;> omega)

/-- A vector of `n` elements with increment `INC`, starting at element `K`; under `u` the increment is one. -/
structure VEnv (P : Int → Prop) (X K INC : Int) (n : Nat) (u : Prop) : Prop where
  pos : ∀ (p : Int) (i : Nat), p = K + (i:Int) * INC → i < n → VOk P X p
  start : ∀ i : Nat, i < n → VOk P X K
  one : u → ∀ i : Nat, i < n → VOk P X ((i:Int) + 1)

theorem VEnv.of {P : Int → Prop} {X K INC : Int} {n : Nat} {u : Prop}
    (h : ∀ i : Nat, i < n → ∀ a, InQ (X + 4 * (K - 1) + 4 * ((i:Int) * INC)) a → P a) (hu : u → K = 1 ∧ INC = 1) :
    VEnv P X K INC n u where
  pos p i e hi := by
    subst e
    refine VOk.of fun a ha => h i hi a ?_
    have : X + 4 * (K + (i:Int) * INC - 1) = X + 4 * (K - 1) + 4 * ((i:Int) * INC) := by ring
    rwa [← this]
  start i hi := by
    refine VOk.of fun a ha => h 0 (by omega) a ?_
    simpa using ha
  one hx i hi := by
    obtain ⟨rfl, rfl⟩ := hu hx
    refine VOk.of fun a ha => h i hi a ?_
    have : X + 4 * ((1:Int) - 1) + 4 * ((i:Int) * 1) = X + 4 * ((i:Int) + 1 - 1) := by ring
    rwa [this]

/-- Element `(I,J)` of the quaternion matrix at `A` may be accessed. -/
structure MOk (P : Int → Prop) (LDA A I J : Int) : Prop where
  r1 : P (el3 1 4 LDA A 1 I J)
  r2 : P (el3 1 4 LDA A 2 I J)
  r3 : P (el3 1 4 LDA A 3 I J)
  r4 : P (el3 1 4 LDA A 4 I J)
  c1 : Two P (el3 2 2 LDA A 1 I J)
  c2 : Two P (el3 2 2 LDA A 2 I J)

theorem MOk.of {P : Int → Prop} {LDA A I J : Int} (h : ∀ a, InQ (A + 4 * (I - 1 + (J - 1) * LDA)) a → P a) : MOk P LDA A I J := by
  unfold InQ at h
  have e1 : ∀ k, el3 1 4 LDA A k I J = A + 4 * (I - 1 + (J - 1) * LDA) + (k - 1) := fun k => by unfold el3; ring
  have e2 : ∀ k, el3 2 2 LDA A k I J = A + 4 * (I - 1 + (J - 1) * LDA) + 2 * (k - 1) := fun k => by unfold el3; ring
  constructor <;> (try unfold Two) <;> (simp only [e1, e2]) <;>
    first | (refine h _ ?_; omega) | (refine ⟨h _ ?_, h _ ?_⟩ <;> omega)

theorem MOk.mat {P : Int → Prop} {LDA A : Int} {r c i j : Nat} (h : ∀ a, MatCell A LDA r c a → P a) (hi : i < r) (hj : j < c) :
    MOk P LDA A ((i:Int) + 1) ((j:Int) + 1) := by
  refine MOk.of fun a ha => h a ⟨i, j, hi, hj, ?_⟩
  have : A + 4 * ((i:Int) + 1 - 1 + ((j:Int) + 1 - 1) * LDA) = A + 4 * ((i:Int) + j * LDA) := by ring
  rwa [← this]

/-- Where level 1 starts a vector. -/
def k1 (n INC : Int) : Int := if decide (INC < 0) = true then ((-n) + 1) * INC + 1 else 1
/-- Where level 2 starts a vector. -/
def k2 (n INC : Int) : Int := if decide (INC > 0) = true then 1 else 1 - (n - 1) * INC

/-- The cells of an `n`-element vector argument. -/
def Vec (X INC : Int) (n : Nat) : Int → Prop := VecCell (if INC < 0 then X - 4 * (((n:Int) - 1) * INC) else X) INC n

theorem k_eq {n : Nat} {INC X : Int} (hn : 0 < n) : X + 4 * (k1 n INC - 1) = (if INC < 0 then X - 4 * (((n:Int) - 1) * INC) else X) ∧
    X + 4 * (k2 n INC - 1) = (if INC < 0 then X - 4 * (((n:Int) - 1) * INC) else X) := by
  unfold k1 k2
  rcases lt_trichotomy INC 0 with h | h | h
  · simp only [h, not_lt_of_gt h, if_true, decide_true, gt_iff_lt, decide_false, Bool.false_eq_true, if_false]
    constructor <;> ring
  · subst h; simp
  · simp [h, not_lt_of_gt h]

theorem VEnv.of1 {P : Int → Prop} {X INC : Int} {n : Int} {u : Prop} (h : ∀ a, Vec X INC n.toNat a → P a) (hu : u → INC = 1) :
    VEnv P X (if decide (INC < 0) = true then ((-n) + 1) * INC + 1 else 1) INC n.toNat u := by
  refine VEnv.of (fun i hi a ha => h a ⟨i, hi, ?_⟩) (fun hx => ⟨?_, hu hx⟩)
  · have := (k_eq (X := X) (INC := INC) (n := n.toNat) (by omega)).1
    rw [show ((n.toNat : Nat) : Int) = n from Int.toNat_of_nonneg (by omega)] at this ⊢
    rw [← this]; exact ha
  · rw [hu hx]; simp

theorem VEnv.of2 {P : Int → Prop} {X INC : Int} {n : Int} {u : Prop} (h : ∀ a, Vec X INC n.toNat a → P a) (hu : u → INC = 1) :
    VEnv P X (if decide (INC > 0) = true then 1 else 1 - (n - 1) * INC) INC n.toNat u := by
  refine VEnv.of (fun i hi a ha => h a ⟨i, hi, ?_⟩) (fun hx => ⟨?_, hu hx⟩)
  · have := (k_eq (X := X) (INC := INC) (n := n.toNat) (by omega)).2
    rw [show ((n.toNat : Nat) : Int) = n from Int.toNat_of_nonneg (by omega)] at this ⊢
    rw [← this]; exact ha
  · rw [hu hx]; simp

/-- What a Fortran GEMV may access, when it takes `LX`, `LY` for the lengths of the two vectors. -/
structure GemvEnv (S W : Int → Prop) (isN : Prop) (M N A LDA X INCX Y INCY LX LY : Int) : Prop where
  a : ∀ i j : Nat, i < M.toNat → j < N.toNat → MOk S LDA A ((i:Int) + 1) ((j:Int) + 1)
  xN : isN → VEnv S X (if decide (INCX > 0) = true then 1 else 1 - (LX - 1) * INCX) INCX N.toNat (decide (INCX = 1) = true)
  xT : ¬ isN → VEnv S X (if decide (INCX > 0) = true then 1 else 1 - (LX - 1) * INCX) INCX M.toNat (decide (INCX = 1) = true)
  y : VEnv S Y (if decide (INCY > 0) = true then 1 else 1 - (LY - 1) * INCY) INCY LY.toNat (decide (INCY = 1) = true)
  w : VEnv W Y (if decide (INCY > 0) = true then 1 else 1 - (LY - 1) * INCY) INCY LY.toNat (decide (INCY = 1) = true)
  yN : isN → VEnv S Y (if decide (INCY > 0) = true then 1 else 1 - (LY - 1) * INCY) INCY M.toNat (decide (INCY = 1) = true)
  yT : ¬ isN → VEnv S Y (if decide (INCY > 0) = true then 1 else 1 - (LY - 1) * INCY) INCY N.toNat (decide (INCY = 1) = true)
  wN : isN → VEnv W Y (if decide (INCY > 0) = true then 1 else 1 - (LY - 1) * INCY) INCY M.toNat (decide (INCY = 1) = true)
  wT : ¬ isN → VEnv W Y (if decide (INCY > 0) = true then 1 else 1 - (LY - 1) * INCY) INCY N.toNat (decide (INCY = 1) = true)

end Haxx.Thr
