import Verif.PropsOblivious
import Mathlib.Data.Multiset.AddSub
import Mathlib.Tactic.Abel

/-!
# C62, continued: the exact accesses of the vectorised level-1 routines

COPYV, SWAPV, SCALV and AXPYV go through the elements in order, load every operand element once and store every
result element once, and access nothing else.  DOTUV and DOTCV load every element of x and y exactly once (in batches
of four).
-/

namespace Haxx
open Arith
set_option linter.unusedSectionVars false

variable {F : Type}

namespace Thr

/-- The four reads of a quaternion. -/
def rdQ (p : Int) : List Ev := [.rd p, .rd (p + 1), .rd (p + 2), .rd (p + 3)]
/-- The four writes of a quaternion. -/
def wrQ (p : Int) : List Ev := [.wr p, .wr (p + 1), .wr (p + 2), .wr (p + 3)]

variable {α β σ : Type}

/-- The program reads and writes exactly the given cells, whatever it reads. -/
inductive Emits (R : α → Prop) : Prog F α → List Ev → Prop where
  | ret {a : α} : R a → Emits R (.ret a) []
  | rd {a : Int} {k : F → Prog F α} {L : List Ev} : (∀ v, Emits R (k v) L) → Emits R (.rd a k) (.rd a :: L)
  | wr {a : Int} {v : F} {k : Prog F α} {L : List Ev} : Emits R k L → Emits R (.wr a v k) (.wr a :: L)

/-- The cell an access needs. -/
def Ev.cell : Ev → Option Int
  | .rd a => some a
  | .wr a => some a
  | .map _ _ => none

theorem Emits.sound {R : α → Prop} {p : Prog F α} {L : List Ev} (h : Emits R p L) {m : Mem F}
    (hm : ∀ e ∈ L, ∀ a, e.cell = some a → (m a).isSome) : p.trace m = L := by
  induction h generalizing m with
  | ret _ => rfl
  | @rd a k L _ ih =>
    have ha := hm (.rd a) (List.mem_cons_self ..) a rfl
    unfold Prog.trace
    cases e : m a with
    | none => rw [e] at ha; cases ha
    | some v => exact congrArg _ (ih v fun e he => hm e (List.mem_cons_of_mem _ he))
  | @wr a v k L _ ih =>
    have ha := hm (.wr a) (List.mem_cons_self ..) a rfl
    unfold Prog.trace
    cases e : m a with
    | none => rw [e] at ha; cases ha
    | some v =>
      refine congrArg _ (ih fun e he b hb => ?_)
      have := hm e (List.mem_cons_of_mem _ he) b hb
      unfold upd; split
      · rfl
      · exact this

theorem Emits.bind {R : α → Prop} {Q : β → Prop} {p : Prog F α} {f : α → Prog F β} {L L' : List Ev} (h : Emits R p L)
    (hk : ∀ a, R a → Emits Q (f a) L') : Emits Q (p >>= f) (L ++ L') := by
  show Emits Q (p.bind f) _
  induction h with
  | ret hr => exact hk _ hr
  | rd _ ih => exact .rd fun v => ih v
  | wr _ ih => exact .wr ih

theorem Emits.mono {R Q : α → Prop} {p : Prog F α} {L : List Ev} (h : Emits R p L) (hr : ∀ a, R a → Q a) : Emits Q p L := by
  induction h with
  | ret h => exact .ret (hr _ h)
  | rd _ ih => exact .rd ih
  | wr _ ih => exact .wr ih

theorem Emits.fold {R : Nat → σ → Prop} {f : Nat → σ → Prog F σ} {s : σ} {L : Nat → List Ev} {n : Nat}
    (hk : ∀ i s, i < n → R i s → Emits (R (i + 1)) (f i s) (L i)) (h : R 0 s) :
    Emits (R n) (foldN n f s) ((List.range n).flatMap L) := by
  induction n with
  | zero => exact .ret h
  | succ n ih =>
    rw [List.range_succ, List.flatMap_append, List.flatMap_singleton]
    exact (ih fun i s hi => hk i s (by omega)).bind fun s => hk n s (by omega)

theorem emits_loadQ (p : Int) : Emits (fun _ => True) (loadQ p : Prog F (Quat F)) (rdQ p) :=
  .rd fun _ => .rd fun _ => .rd fun _ => .rd fun _ => .ret trivial
theorem emits_storeQ (p : Int) (q : Quat F) : Emits (fun _ => True) (storeQ p q) (wrQ p) :=
  .wr (.wr (.wr (.wr (.ret trivial))))
/-- An aligned load is used only where the address is aligned. -/
theorem emits_loadM (al : Bool) (p : Int) (h : al = true → aligned32 p = true) : Emits (fun _ => True) (loadM al p : Prog F (V4 F)) (rdQ p) := by
  unfold loadM
  cases al
  · exact emits_loadQ p
  · unfold loadA; rw [if_pos rfl, if_pos (h rfl)]; exact emits_loadQ p
theorem emits_storeM (al : Bool) (p : Int) (q : V4 F) (h : al = true → aligned32 p = true) : Emits (fun _ => True) (storeM al p q) (wrQ p) := by
  unfold storeM
  cases al
  · exact emits_storeQ p q
  · unfold storeA; rw [if_pos rfl, if_pos (h rfl)]; exact emits_storeQ p q

theorem aligned_step {p q : Int} (h : aligned32 p = true) (i : Int) (e : q = p + 4 * i) : aligned32 q = true := by
  subst e
  unfold aligned32 at *
  simp only [beq_iff_eq] at *
  omega

/-- The pointer of a loop over a vector. -/
theorem fold_ptr {n : Nat} {f : Nat → Int → Prog F Int} {X INCX : Int} {L : Int → List Ev} (al : Bool)
    (hal : al = true → aligned32 X = true)
    (hk : ∀ i p, (al = true → aligned32 p = true) → Emits (fun q => q = p + 4 * INCX) (f i p) (L p)) :
    Emits (fun _ => True) (foldN n f X) ((List.range n).flatMap fun i : Nat => L (X + 4 * ((i : Int) * INCX))) := by
  refine (Emits.fold (R := fun i p => p = X + 4 * ((i : Int) * INCX)) (fun i p _ hp => ?_) ?_).mono fun _ _ => trivial
  · subst hp
    refine (hk i _ fun h => aligned_step (hal h) _ rfl).mono fun q hq => ?_
    rw [hq]; push_cast; ring
  · simp

/-- The two pointers of a loop over two vectors. -/
theorem fold_ptr2 {n : Nat} {f : Nat → Int × Int → Prog F (Int × Int)} {X INCX Y INCY : Int} {L : Int → Int → List Ev} (al : Bool)
    (hal : al = true → aligned32 X = true ∧ aligned32 Y = true)
    (hk : ∀ i p q, (al = true → aligned32 p = true ∧ aligned32 q = true) →
      Emits (fun r => r = (p + 4 * INCX, q + 4 * INCY)) (f i (p, q)) (L p q)) :
    Emits (fun _ => True) (foldN n f (X, Y))
      ((List.range n).flatMap fun i : Nat => L (X + 4 * ((i : Int) * INCX)) (Y + 4 * ((i : Int) * INCY))) := by
  refine (Emits.fold (R := fun i r => r = (X + 4 * ((i : Int) * INCX), Y + 4 * ((i : Int) * INCY))) (fun i r _ hr => ?_) ?_).mono fun _ _ => trivial
  · subst hr
    refine (hk i _ _ fun h => ⟨aligned_step (hal h).1 _ rfl, aligned_step (hal h).2 _ rfl⟩).mono fun q hq => ?_
    rw [hq]; push_cast; ring_nf
  · simp

theorem copyv_emits (N X INCX Y INCY : Int) : Emits (fun _ => True) (copyvAVX N X INCX Y INCY : Prog F Unit)
    ((List.range N.toNat).flatMap fun i : Nat => rdQ (X + 4 * (i * INCX)) ++ wrQ (Y + 4 * (i * INCY))) := by
  have hb : ∀ al : Bool, (al = true → aligned32 X = true ∧ aligned32 Y = true) →
      Emits (fun _ => True) (foldN N.toNat (fun _ loc => copyBody al INCX INCY loc) (X, Y) : Prog F _)
        ((List.range N.toNat).flatMap fun i : Nat => rdQ (X + 4 * (i * INCX)) ++ wrQ (Y + 4 * (i * INCY))) := fun al hal =>
    fold_ptr2 (L := fun p q => rdQ p ++ wrQ q) al hal fun i p q h => by
      unfold copyBody
      refine (emits_loadM al p fun e => (h e).1).bind fun v _ => ?_
      rw [← List.append_nil (wrQ q)]
      exact (emits_storeM al q v fun e => (h e).2).bind fun _ _ => .ret rfl
  unfold copyvAVX
  rw [← List.append_nil (List.flatMap _ _)]
  dsimp only
  split
  · exact (hb true fun _ => by simpa using ‹(_ && _) = true›).bind fun _ _ => .ret trivial
  · exact (hb false fun h => by cases h).bind fun _ _ => .ret trivial

theorem swapv_emits (N X INCX Y INCY : Int) : Emits (fun _ => True) (swapvAVX N X INCX Y INCY : Prog F Unit)
    ((List.range N.toNat).flatMap fun i : Nat => rdQ (X + 4 * (i * INCX)) ++ (rdQ (Y + 4 * (i * INCY)) ++
      (wrQ (Y + 4 * (i * INCY)) ++ wrQ (X + 4 * (i * INCX))))) := by
  have hb : ∀ al : Bool, (al = true → aligned32 X = true ∧ aligned32 Y = true) →
      Emits (fun _ => True) (foldN N.toNat (fun _ loc => swapBody al INCX INCY loc) (X, Y) : Prog F _)
        ((List.range N.toNat).flatMap fun i : Nat => rdQ (X + 4 * (i * INCX)) ++ (rdQ (Y + 4 * (i * INCY)) ++
          (wrQ (Y + 4 * (i * INCY)) ++ wrQ (X + 4 * (i * INCX))))) := fun al hal =>
    fold_ptr2 (L := fun p q => rdQ p ++ (rdQ q ++ (wrQ q ++ wrQ p))) al hal fun i p q h => by
      unfold swapBody
      refine (emits_loadM al p fun e => (h e).1).bind fun v _ => ?_
      refine (emits_loadM al q fun e => (h e).2).bind fun w _ => ?_
      refine (emits_storeM al q v fun e => (h e).2).bind fun _ _ => ?_
      rw [← List.append_nil (wrQ p)]
      exact (emits_storeM al p w fun e => (h e).1).bind fun _ _ => .ret rfl
  unfold swapvAVX
  rw [← List.append_nil (List.flatMap _ _)]
  dsimp only
  split
  · exact (hb true fun _ => by simpa using ‹(_ && _) = true›).bind fun _ _ => .ret trivial
  · exact (hb false fun h => by cases h).bind fun _ _ => .ret trivial

variable [Arith F]

theorem scalv_emits (SIDE : Char) (N : Int) (ALPHA : Scal F) (X INCX : Int) :
    Emits (fun _ => True) (scalvAVX SIDE N ALPHA X INCX)
      ((List.range N.toNat).flatMap fun i : Nat => rdQ (X + 4 * (i * INCX)) ++ wrQ (X + 4 * (i * INCX))) := by
  unfold scalvAVX
  rw [← List.append_nil (List.flatMap _ _)]
  refine (fold_ptr (L := fun p => rdQ p ++ wrQ p) (aligned32 X) id fun i p h => ?_).bind fun _ _ => .ret trivial
  refine (emits_loadM _ p h).bind fun v _ => ?_
  rw [← List.append_nil (wrQ p)]
  exact (emits_storeM _ p _ h).bind fun _ _ => .ret rfl

theorem axpyv_emits (SIDE : Char) (N : Int) (ALPHA : Scal F) (X INCX Y INCY : Int) :
    Emits (fun _ => True) (axpyvAVX SIDE N ALPHA X INCX Y INCY)
      ((List.range N.toNat).flatMap fun i : Nat => rdQ (X + 4 * (i * INCX)) ++ (rdQ (Y + 4 * (i * INCY)) ++ wrQ (Y + 4 * (i * INCY)))) := by
  unfold axpyvAVX
  rw [← List.append_nil (List.flatMap _ _)]
  refine (fold_ptr2 (L := fun p q => rdQ p ++ (rdQ q ++ wrQ q)) (aligned32 X && aligned32 Y) (fun h => by simpa using h)
    fun i p q h => ?_).bind fun _ _ => .ret trivial
  refine (emits_loadM _ p fun e => (h e).1).bind fun v _ => ?_
  refine (emits_loadM _ q fun e => (h e).2).bind fun w _ => ?_
  rw [← List.append_nil (wrQ q)]
  exact (emits_storeM _ q _ fun e => (h e).2).bind fun _ _ => .ret rfl

theorem emits_i32 {x : Int} (h : Fits32 x) : Emits (fun r => r = x) (i32 x : Prog F Int) [] := by
  unfold i32; rw [if_pos (show -2147483648 ≤ x ∧ x ≤ 2147483647 from h)]; exact .ret rfl

/-- The loads of one batch of the dot product. -/
def dotL (INCX INCY p q : Int) : List Ev :=
  rdQ p ++ (rdQ (p + 4 * INCX) ++ (rdQ (p + 4 * (2 * INCX)) ++ (rdQ (p + 4 * (3 * INCX)) ++
    (rdQ q ++ (rdQ (q + 4 * INCY) ++ (rdQ (q + 4 * (2 * INCY)) ++ rdQ (q + 4 * (3 * INCY))))))))

theorem dotBatch_emits (conj al : Bool) (INCX INCY : Int) (s : DotSt F) (hx : Fits32 (4 * INCX)) (hy : Fits32 (4 * INCY))
    (hal : al = true → aligned32 s.locX = true ∧ aligned32 s.locY = true) :
    Emits (fun r => r.locX = s.locX + 4 * (4 * INCX) ∧ r.locY = s.locY + 4 * (4 * INCY)) (dotBatch conj al INCX INCY s)
      (dotL INCX INCY s.locX s.locY) := by
  have f2x : Fits32 (2 * INCX) := by unfold Fits32 at *; omega
  have f3x : Fits32 (3 * INCX) := by unfold Fits32 at *; omega
  have f2y : Fits32 (2 * INCY) := by unfold Fits32 at *; omega
  have f3y : Fits32 (3 * INCY) := by unfold Fits32 at *; omega
  have ax : ∀ i q, q = s.locX + 4 * i → al = true → aligned32 q = true := fun i q e h => aligned_step (hal h).1 i e
  have ay : ∀ i q, q = s.locY + 4 * i → al = true → aligned32 q = true := fun i q e h => aligned_step (hal h).2 i e
  unfold dotBatch dotL
  refine (emits_i32 f2x).bind (L' := _) fun a ha => ?_
  subst ha
  refine (emits_i32 f3x).bind (L' := _) fun a ha => ?_
  subst ha
  refine (emits_loadM al _ (ax 0 _ (by ring))).bind fun _ _ => ?_
  refine (emits_loadM al _ (ax _ _ rfl)).bind fun _ _ => ?_
  refine (emits_loadM al _ (ax _ _ rfl)).bind fun _ _ => ?_
  refine (emits_loadM al _ (ax _ _ rfl)).bind fun _ _ => ?_
  refine (emits_i32 f2y).bind (L' := _) fun a ha => ?_
  subst ha
  refine (emits_i32 f3y).bind (L' := _) fun a ha => ?_
  subst ha
  refine (emits_loadM al _ (ay 0 _ (by ring))).bind fun _ _ => ?_
  refine (emits_loadM al _ (ay _ _ rfl)).bind fun _ _ => ?_
  refine (emits_loadM al _ (ay _ _ rfl)).bind fun _ _ => ?_
  rw [← List.append_nil (rdQ (s.locY + 4 * (3 * INCY)))]
  refine (emits_loadM al _ (ay _ _ rfl)).bind fun _ _ => ?_
  refine (emits_i32 hx).bind (L' := []) fun a ha => ?_
  subst ha
  refine (emits_i32 hy).bind (L' := []) fun a ha => ?_
  subst ha
  exact .ret ⟨rfl, rfl⟩

theorem dot_emits (conj : Bool) (N X INCX Y INCY : Int) (hN : 0 ≤ N) (hx : Fits32 (4 * INCX)) (hy : Fits32 (4 * INCY)) :
    Emits (fun _ => True) (dotAVX conj N X INCX Y INCY : Prog F (Quat F))
      (((List.range (N.toNat / 4)).flatMap fun b : Nat => dotL INCX INCY (X + 4 * ((4 * b : Nat) * INCX)) (Y + 4 * ((4 * b : Nat) * INCY))) ++
       ((List.range (N.toNat % 4)).flatMap fun i : Nat => rdQ (X + 4 * ((4 * (N.toNat / 4) + i : Nat) * INCX)) ++
          rdQ (Y + 4 * ((4 * (N.toNat / 4) + i : Nat) * INCY)))) := by
  obtain ⟨n, rfl⟩ : ∃ n : Nat, N = n := ⟨N.toNat, by omega⟩
  have e1 : ((n : Int).tdiv 4).toNat = n / 4 := by
    rw [Int.tdiv_eq_ediv_of_nonneg hN]; omega
  have e2 : ((n : Int).tmod 4).toNat = n % 4 := by
    rw [Int.tmod_eq_emod_of_nonneg hN]; omega
  unfold dotAVX
  dsimp only
  rw [e1, e2, Int.toNat_natCast]
  have hal : (aligned32 X && aligned32 Y) = true → aligned32 X = true ∧ aligned32 Y = true := fun h => by simpa using h
  refine (Emits.fold (R := fun b s => s.locX = X + 4 * ((4 * b : Nat) * INCX) ∧ s.locY = Y + 4 * ((4 * b : Nat) * INCY))
    (L := fun b => dotL INCX INCY (X + 4 * ((4 * b : Nat) * INCX)) (Y + 4 * ((4 * b : Nat) * INCY))) (fun b s _ hs => ?_) ?_).bind fun s hs => ?_
  · obtain ⟨h1, h2⟩ := hs
    rw [← h1, ← h2]
    refine (dotBatch_emits conj _ INCX INCY s hx hy fun h => ⟨aligned_step (hal h).1 _ h1, aligned_step (hal h).2 _ h2⟩).mono fun r hr => ?_
    rw [hr.1, hr.2, h1, h2]
    push_cast
    exact ⟨by ring, by ring⟩
  · simp
  · obtain ⟨h1, h2⟩ := hs
    refine (Emits.fold (R := fun _ _ => True) (fun i r hi _ => ?_) trivial).mono fun _ _ => trivial
    have hi4 : i < 4 := lt_of_lt_of_le hi (Nat.le_of_lt (Nat.mod_lt _ (by decide)))
    have fx : Fits32 ((i : Int) * INCX) := by
      unfold Fits32 at *
      interval_cases i <;> omega
    have fy : Fits32 ((i : Int) * INCY) := by
      unfold Fits32 at *
      interval_cases i <;> omega
    have g1 : X + 4 * ((4 * (n / 4) + i : Nat) * INCX) = s.locX + 4 * (i * INCX) := by rw [h1]; push_cast; ring
    have g2 : Y + 4 * ((4 * (n / 4) + i : Nat) * INCY) = s.locY + 4 * (i * INCY) := by rw [h2]; push_cast; ring
    rw [g1, g2]
    unfold dotClean
    refine (emits_i32 fx).bind (L' := _) fun a ha => ?_
    subst ha
    refine (emits_i32 fy).bind (L' := _) fun a ha => ?_
    subst ha
    refine (emits_loadM _ _ fun h => aligned_step (hal h).1 _ g1.symm).bind fun _ _ => ?_
    rw [← List.append_nil (rdQ (s.locY + 4 * (i * INCY)))]
    refine (emits_loadM _ _ fun h => aligned_step (hal h).2 _ g2.symm).bind fun _ _ => ?_
    split
    · exact .ret trivial
    · exact .ret trivial

/-- The loads of the dot product, element by element. -/
def dotEls (X INCX Y INCY : Int) (i : Nat) : List Ev := rdQ (X + 4 * (i * INCX)) ++ rdQ (Y + 4 * (i * INCY))

theorem dotL_perm (X INCX Y INCY : Int) (b : Nat) :
    (dotL INCX INCY (X + 4 * ((4 * b : Nat) * INCX)) (Y + 4 * ((4 * b : Nat) * INCY))).Perm
      (dotEls X INCX Y INCY (4 * b) ++ (dotEls X INCX Y INCY (4 * b + 1) ++ (dotEls X INCX Y INCY (4 * b + 2) ++
        dotEls X INCX Y INCY (4 * b + 3)))) := by
  have h : ∀ (P INC : Int) (k : Nat), P + 4 * ((4 * b : Nat) * INC) + 4 * ((k : Int) * INC) = P + 4 * ((4 * b + k : Nat) * INC) := by
    intros; push_cast; ring
  have h1 : ∀ (P INC : Int), P + 4 * ((4 * b : Nat) * INC) + 4 * INC = P + 4 * ((4 * b + 1 : Nat) * INC) := by
    intros; push_cast; ring
  have h2 := fun P INC => h P INC 2
  have h3 := fun P INC => h P INC 3
  unfold dotL dotEls
  rw [h1, h1]
  have := h2 X INCX
  have := h2 Y INCY
  have := h3 X INCX
  have := h3 Y INCY
  push_cast at *
  simp only [*]
  rw [← Multiset.coe_eq_coe]
  simp only [← Multiset.coe_add]
  abel

theorem flatMap_four (n : Nat) (g : Nat → List Ev) :
    (List.range (4 * n)).flatMap g = (List.range n).flatMap fun b => g (4 * b) ++ (g (4 * b + 1) ++ (g (4 * b + 2) ++ g (4 * b + 3))) := by
  induction n with
  | zero => rfl
  | succ n ih =>
    rw [show 4 * (n + 1) = 4 * n + 1 + 1 + 1 + 1 by ring, List.range_succ, List.range_succ, List.range_succ, List.range_succ, List.range_succ]
    simp only [List.flatMap_append, ih, List.flatMap_singleton, List.append_assoc]

theorem dot_perm (N : Nat) (X INCX Y INCY : Int) :
    (((List.range (N / 4)).flatMap fun b : Nat => dotL INCX INCY (X + 4 * ((4 * b : Nat) * INCX)) (Y + 4 * ((4 * b : Nat) * INCY))) ++
       ((List.range (N % 4)).flatMap fun i : Nat => rdQ (X + 4 * ((4 * (N / 4) + i : Nat) * INCX)) ++
          rdQ (Y + 4 * ((4 * (N / 4) + i : Nat) * INCY)))).Perm ((List.range N).flatMap (dotEls X INCX Y INCY)) := by
  conv_rhs => rw [← Nat.div_add_mod N 4, List.range_add, List.flatMap_append, flatMap_four]
  refine List.Perm.append ?_ ?_
  · exact List.Perm.flatMap_left _ fun b _ => dotL_perm X INCX Y INCY b
  · rw [List.flatMap_map]; exact List.Perm.refl _

theorem cell_rdQ {p a : Int} {e : Ev} (h : e ∈ rdQ p) (ha : e.cell = some a) : InQ p a := by
  unfold rdQ at h
  simp only [List.mem_cons, List.not_mem_nil, or_false] at h
  unfold InQ
  rcases h with rfl | rfl | rfl | rfl <;> cases ha <;> omega
theorem cell_wrQ {p a : Int} {e : Ev} (h : e ∈ wrQ p) (ha : e.cell = some a) : InQ p a := by
  unfold wrQ at h
  simp only [List.mem_cons, List.not_mem_nil, or_false] at h
  unfold InQ
  rcases h with rfl | rfl | rfl | rfl <;> cases ha <;> omega

end Thr

open Thr (rdQ wrQ)
variable [Arith F] [ArithEq F]

/-- C62.  COPYV, vectorised build: for `i = 0, …, N-1` in this order, load element `i` of x and store element `i` of y
— nothing else is accessed. -/
theorem C62_copyv_accesses (N X INCX Y INCY : Int) (m : Mem F)
    (hx : Accessible (VecCell X INCX N.toNat) m) (hy : Accessible (VecCell Y INCY N.toNat) m) :
    (AnyCall.simd (.copyv N X INCX Y INCY)).accesses m =
      (List.range N.toNat).flatMap fun i : Nat => rdQ (X + 4 * (i * INCX)) ++ wrQ (Y + 4 * (i * INCY)) := by
  refine (Thr.copyv_emits N X INCX Y INCY).sound fun e he a ha => ?_
  obtain ⟨i, hi, h⟩ := List.mem_flatMap.mp he
  have hi := List.mem_range.mp hi
  rcases List.mem_append.mp h with h | h
  · exact hx a ⟨i, hi, Thr.cell_rdQ h ha⟩
  · exact hy a ⟨i, hi, Thr.cell_wrQ h ha⟩

/-- C62.  SWAPV, vectorised build: both elements are loaded once, then both stored once. -/
theorem C62_swapv_accesses (N X INCX Y INCY : Int) (m : Mem F)
    (hx : Accessible (VecCell X INCX N.toNat) m) (hy : Accessible (VecCell Y INCY N.toNat) m) :
    (AnyCall.simd (.swapv N X INCX Y INCY)).accesses m =
      (List.range N.toNat).flatMap fun i : Nat => rdQ (X + 4 * (i * INCX)) ++ (rdQ (Y + 4 * (i * INCY)) ++
        (wrQ (Y + 4 * (i * INCY)) ++ wrQ (X + 4 * (i * INCX)))) := by
  refine (Thr.swapv_emits N X INCX Y INCY).sound fun e he a ha => ?_
  obtain ⟨i, hi, h⟩ := List.mem_flatMap.mp he
  have hi := List.mem_range.mp hi
  rcases List.mem_append.mp h with h | h
  · exact hx a ⟨i, hi, Thr.cell_rdQ h ha⟩
  rcases List.mem_append.mp h with h | h
  · exact hy a ⟨i, hi, Thr.cell_rdQ h ha⟩
  rcases List.mem_append.mp h with h | h
  · exact hy a ⟨i, hi, Thr.cell_wrQ h ha⟩
  · exact hx a ⟨i, hi, Thr.cell_wrQ h ha⟩

/-- C62.  SCALV, vectorised build: each element is loaded once and stored once — whatever ALPHA, even zero or one. -/
theorem C62_scalv_accesses (SIDE : Char) (N : Int) (ALPHA : Scal F) (X INCX : Int) (m : Mem F)
    (hx : Accessible (VecCell X INCX N.toNat) m) :
    (AnyCall.simd (.scalv SIDE N ALPHA X INCX)).accesses m =
      (List.range N.toNat).flatMap fun i : Nat => rdQ (X + 4 * (i * INCX)) ++ wrQ (X + 4 * (i * INCX)) := by
  refine (Thr.scalv_emits SIDE N ALPHA X INCX).sound fun e he a ha => ?_
  obtain ⟨i, hi, h⟩ := List.mem_flatMap.mp he
  have hi := List.mem_range.mp hi
  rcases List.mem_append.mp h with h | h
  · exact hx a ⟨i, hi, Thr.cell_rdQ h ha⟩
  · exact hx a ⟨i, hi, Thr.cell_wrQ h ha⟩

/-- C62.  AXPYV, vectorised build: elements `i` of x and y are loaded once, and y's is stored once — whatever ALPHA. -/
theorem C62_axpyv_accesses (SIDE : Char) (N : Int) (ALPHA : Scal F) (X INCX Y INCY : Int) (m : Mem F)
    (hx : Accessible (VecCell X INCX N.toNat) m) (hy : Accessible (VecCell Y INCY N.toNat) m) :
    (AnyCall.simd (.axpyv SIDE N ALPHA X INCX Y INCY)).accesses m =
      (List.range N.toNat).flatMap fun i : Nat => rdQ (X + 4 * (i * INCX)) ++ (rdQ (Y + 4 * (i * INCY)) ++ wrQ (Y + 4 * (i * INCY))) := by
  refine (Thr.axpyv_emits SIDE N ALPHA X INCX Y INCY).sound fun e he a ha => ?_
  obtain ⟨i, hi, h⟩ := List.mem_flatMap.mp he
  have hi := List.mem_range.mp hi
  rcases List.mem_append.mp h with h | h
  · exact hx a ⟨i, hi, Thr.cell_rdQ h ha⟩
  rcases List.mem_append.mp h with h | h
  · exact hy a ⟨i, hi, Thr.cell_rdQ h ha⟩
  · exact hy a ⟨i, hi, Thr.cell_wrQ h ha⟩

/-- C62.  DOTUV, DOTCV, vectorised build: up to the order, the accesses are one load of every element of x and of y. -/
theorem C62_dot_accesses (conj : Bool) (N X INCX Y INCY : Int) (m : Mem F) (hN : 0 ≤ N) (fx : Fits32 (4 * INCX)) (fy : Fits32 (4 * INCY))
    (hx : Accessible (VecCell X INCX N.toNat) m) (hy : Accessible (VecCell Y INCY N.toNat) m) :
    ((AnyCall.simd (.dot conj N X INCX Y INCY)).accesses m).Perm
      ((List.range N.toNat).flatMap fun i : Nat => rdQ (X + 4 * (i * INCX)) ++ rdQ (Y + 4 * (i * INCY))) := by
  have hp := Thr.dot_perm N.toNat X INCX Y INCY
  refine List.Perm.trans (List.Perm.of_eq ?_) hp
  refine (Thr.dot_emits conj N X INCX Y INCY hN fx fy).sound fun e he a ha => ?_
  obtain ⟨i, hi, h⟩ := List.mem_flatMap.mp (hp.mem_iff.mp he)
  have hi := List.mem_range.mp hi
  rcases List.mem_append.mp h with h | h
  · exact hx a ⟨i, hi, Thr.cell_rdQ h ha⟩
  · exact hy a ⟨i, hi, Thr.cell_rdQ h ha⟩

/-- Non-vacuity: a vector with stride -2 in 100 accessible cells. -/
example (f : Int → F) : Accessible (VecCell 60 (-2) 5) (memOf 0 100 f) := by
  rintro a ⟨i, hi, h⟩
  unfold InQ at h
  unfold memOf
  rw [if_pos (by omega)]
  rfl

/-- Non-vacuity: two memories with the same accessible cells and different contents. -/
example : (∀ a, (memOf 0 100 (fun _ => (0 : Int)) a).isSome = (memOf 0 100 (fun a => a) a).isSome) := by
  intro a; unfold memOf; split <;> rfl

end Haxx
