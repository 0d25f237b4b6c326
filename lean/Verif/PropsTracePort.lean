import Verif.PropsTrace

/-!
# C62, continued: the exact accesses of the portable level-1 templates

The templates of `include/hblas/generic/hblas1` peel `N % s` elements and then run an unrolled loop when both increments
are 1, and run a plain strided loop otherwise.  Either way each operand element is loaded once and each result element
stored once, in increasing order, and nothing else is accessed.
-/

namespace Haxx
open Arith
set_option linter.unusedSectionVars false

variable {F : Type}

namespace Thr
variable {σ : Type}

/-- No access at all: the assertion holds. -/
theorem emits_assert {b : Bool} (h : b = true) : Emits (fun _ => True) (assertP b : Prog F Unit) [] := by
  unfold assertP; rw [if_pos h]; exact .ret trivial

/-- A step that accesses nothing. -/
theorem Emits.skip {α β : Type} {R : α → Prop} {Q : β → Prop} {p : Prog F α} {f : α → Prog F β} {L : List Ev} (h : Emits R p [])
    (hk : ∀ a, R a → Emits Q (f a) L) : Emits Q (p >>= f) L := h.bind hk

theorem emits_int {x : Int} (h : Fits32 x) : Emits (fun r => r = x) (i32 x : Prog F Int) [] := by
  unfold i32; rw [if_pos (show -2147483648 ≤ x ∧ x ≤ 2147483647 from h)]; exact .ret rfl

theorem emits_forN {n : Nat} {body : Nat → Prog F Unit} {L : Nat → List Ev}
    (hk : ∀ i, i < n → Emits (fun _ => True) (body i) (L i)) :
    Emits (fun _ => True) (forN n body) ((List.range n).flatMap L) :=
  Emits.fold (R := fun _ _ => True) (fun i _ hi _ => hk i hi) trivial

/-- Cutting a loop over `m + s*q` elements into its first `m` and `q` batches of `s`. -/
theorem flatMap_batches (L : Int → List Ev) (m s q : Nat) :
    (List.range (m + s * q)).flatMap (fun i : Nat => L (i : Int)) =
      (List.range m).flatMap (fun i : Nat => L (i : Int)) ++
      (List.range q).flatMap fun k : Nat => (List.range s).flatMap fun j : Nat => L ((m : Int) + (s : Int) * (k : Int) + (j : Int)) := by
  induction q with
  | zero => simp
  | succ q ih =>
    rw [Nat.mul_succ, ← Nat.add_assoc, List.range_add (n := m + s * q) (m := s), List.flatMap_append, ih, List.range_succ (n := q),
      List.flatMap_append, List.flatMap_singleton, List.append_assoc, List.flatMap_map]
    push_cast
    rfl

/-- The peeled and unrolled loop of the templates. -/
theorem emits_unrolled {el un : Int → Prog F Unit} {L : Int → List Ev} {s : Nat} {N : Int} (hs : 0 < s) (hN : 0 < N)
    (hel : ∀ i, Emits (fun _ => True) (el i) (L i))
    (hun : ∀ i : Int, Emits (fun _ => True) (un i) ((List.range s).flatMap fun j : Nat => L (i + (j : Int)))) :
    Emits (fun _ => True) (do
      let m := N.tmod s
      if m ≠ 0 then
        forN m.toNat (fun i => el i)
        if N < s then pure ()
        else forStep m N s un
      else forStep m N s un : Prog F Unit) ((List.range N.toNat).flatMap fun i : Nat => L (i : Int)) := by
  obtain ⟨n, rfl⟩ := Int.eq_ofNat_of_zero_le hN.le
  have hm : (n : Int).tmod s = ((n % s : Nat) : Int) := by simp [Int.tmod]
  have hstep : Emits (fun _ => True) (forStep ((n % s : Nat) : Int) n s un)
      ((List.range (n / s)).flatMap fun k : Nat => (List.range s).flatMap fun j : Nat =>
        L (((n % s : Nat) : Int) + (s : Int) * (k : Int) + (j : Int))) := by
    unfold forStep
    have hc : (((n : Int) - ((n % s : Nat) : Int) + s - 1) / s).toNat = n / s := by
      have h1 : (n : Int) - ((n % s : Nat) : Int) + s - 1 = (s - 1 : Int) + (s : Int) * ((n / s : Nat) : Int) := by
        have := Nat.mod_add_div n s
        zify at this ⊢
        linarith
      rw [h1, Int.add_mul_ediv_left _ _ (by omega), Int.ediv_eq_zero_of_lt (by omega) (by omega)]
      rw [zero_add, Int.toNat_natCast]
    rw [hc]
    exact emits_forN fun k _ => hun _
  have hL := flatMap_batches L (n % s) s (n / s)
  rw [Nat.mod_add_div] at hL
  simp only [Int.toNat_natCast, hm, hL]
  split
  · refine (emits_forN fun i _ => hel _).bind fun _ _ => ?_
    split
    · rw [Nat.div_eq_of_lt (by omega)]; exact .ret trivial
    · exact hstep
  · have h0 : n % s = 0 := by omega
    have : (List.range (n % s)).flatMap (fun i : Nat => L (i : Int)) = [] := by rw [h0]; rfl
    rw [this]; exact hstep

/-- The strided loop of the templates. -/
theorem emits_strided {el : Int → Int → Prog F Unit} {L : Int → Int → List Ev} {N INCX INCY : Int}
    (hx : 0 < INCX) (hy : 0 < INCY) (fx : Fits32 (N * INCX)) (fy : Fits32 (N * INCY))
    (hel : ∀ ix iy, Emits (fun _ => True) (el ix iy) (L ix iy)) :
    Emits (fun _ => True) (foldN N.toNat (fun _ s => stridedStep el INCX INCY s) (0, 0))
      ((List.range N.toNat).flatMap fun i : Nat => L (i * INCX) (i * INCY)) := by
  have hf : ∀ i INC : Int, 0 < INC → 0 ≤ i → i ≤ N → Fits32 (N * INC) → Fits32 (i * INC) := by
    intro i INC h0 h1 h2 h3
    unfold Fits32 at *
    have := mul_le_mul_of_nonneg_right h2 h0.le
    have := mul_nonneg h1 h0.le
    omega
  refine (Emits.fold (R := fun i s => s = ((i : Int) * INCX, (i : Int) * INCY)) (fun i s hi hr => ?_) (by simp)).mono fun _ _ => trivial
  subst hr
  unfold stridedStep
  rw [← List.append_nil (L _ _)]
  refine (hel _ _).bind fun _ _ => ?_
  have e : ∀ INC : Int, (i : Int) * INC + INC = ((i : Int) + 1) * INC := fun INC => by ring
  simp only [e]
  refine (emits_int (hf _ _ hx (by omega) (by omega) fx)).skip fun a ha => ?_
  refine (emits_int (hf _ _ hy (by omega) (by omega) fy)).skip fun b hb => ?_
  exact .ret (by rw [ha, hb]; push_cast; rfl)

theorem emits_two {N X INCX Y INCY : Int} {el : Int → Int → Prog F Unit} {un : Int → Prog F Unit} {L : Int → Int → List Ev} {s : Nat}
    (hs : 0 < s) (hN : 0 < N) (hx : 0 < INCX) (hy : 0 < INCY) (fx : Fits32 (N * INCX)) (fy : Fits32 (N * INCY))
    (hel : ∀ ix iy, Emits (fun _ => True) (el ix iy) (L (X + 4 * ix) (Y + 4 * iy)))
    (hun : ∀ i : Int, Emits (fun _ => True) (un i) ((List.range s).flatMap fun j : Nat => L (X + 4 * (i + (j : Int))) (Y + 4 * (i + (j : Int))))) :
    Emits (fun _ => True) (do
      assertP (INCX > 0)
      assertP (INCY > 0)
      if INCX = 1 ∧ INCY = 1 then
        let m := N.tmod s
        if m ≠ 0 then
          forN m.toNat (fun i => el i i)
          if N < s then pure ()
          else forStep m N s un
        else forStep m N s un
      else
        let _ ← foldN N.toNat (fun _ s => stridedStep el INCX INCY s) (0, 0) : Prog F Unit)
      ((List.range N.toNat).flatMap fun i : Nat => L (X + 4 * (i * INCX)) (Y + 4 * (i * INCY))) := by
  refine (emits_assert (by simpa using hx)).skip fun _ _ => ?_
  refine (emits_assert (by simpa using hy)).skip fun _ _ => ?_
  split
  · rename_i h
    obtain ⟨rfl, rfl⟩ := h
    simp only [mul_one]
    exact emits_unrolled (L := fun i => L (X + 4 * i) (Y + 4 * i)) (el := fun i => el i i) hs hN (fun i => hel i i) hun
  · rw [← List.append_nil (List.flatMap _ _)]
    exact (emits_strided (L := fun ix iy => L (X + 4 * ix) (Y + 4 * iy)) hx hy fx fy hel).bind fun _ _ => .ret trivial

theorem emits_copyEl (X Y ix iy : Int) : Emits (fun _ => True) (copyEl X Y ix iy : Prog F Unit) (rdQ (X + 4 * ix) ++ wrQ (Y + 4 * iy)) :=
  (emits_loadQ _).bind fun _ _ => emits_storeQ _ _

theorem copyvGen_emits {N X INCX Y INCY : Int} (hx : 0 < INCX) (hy : 0 < INCY) (fx : Fits32 (N * INCX)) (fy : Fits32 (N * INCY)) :
    Emits (fun _ => True) (copyvGen N X INCX Y INCY : Prog F Unit)
      ((List.range N.toNat).flatMap fun i : Nat => rdQ (X + 4 * (i * INCX)) ++ wrQ (Y + 4 * (i * INCY))) := by
  unfold copyvGen
  split
  · rw [Int.toNat_of_nonpos ‹_›]; exact .ret trivial
  · refine emits_two (L := fun p q => rdQ p ++ wrQ q) (s := 7) (by omega) (by omega) hx hy fx fy (emits_copyEl X Y) fun i => ?_
    unfold copyUnroll
    have h := fun j : Int => emits_copyEl (F := F) X Y (i + j) (i + j)
    have h0 := h 0
    rw [add_zero] at h0
    simpa [List.range_succ] using
      h0.bind fun _ _ => (h 1).bind fun _ _ => (h 2).bind fun _ _ => (h 3).bind fun _ _ => (h 4).bind fun _ _ => (h 5).bind fun _ _ => h 6

theorem emits_swapEl (X Y ix iy : Int) : Emits (fun _ => True) (swapEl X Y ix iy : Prog F Unit)
    (rdQ (X + 4 * ix) ++ (rdQ (Y + 4 * iy) ++ (wrQ (X + 4 * ix) ++ wrQ (Y + 4 * iy)))) :=
  (emits_loadQ _).bind fun _ _ => (emits_loadQ _).bind fun _ _ => (emits_storeQ _ _).bind fun _ _ => emits_storeQ _ _

theorem swapvGen_emits {N X INCX Y INCY : Int} (hx : 0 < INCX) (hy : 0 < INCY) (fx : Fits32 (N * INCX)) (fy : Fits32 (N * INCY)) :
    Emits (fun _ => True) (swapvGen N X INCX Y INCY : Prog F Unit)
      ((List.range N.toNat).flatMap fun i : Nat => rdQ (X + 4 * (i * INCX)) ++ (rdQ (Y + 4 * (i * INCY)) ++
        (wrQ (X + 4 * (i * INCX)) ++ wrQ (Y + 4 * (i * INCY))))) := by
  unfold swapvGen
  split
  · rw [Int.toNat_of_nonpos ‹_›]; exact .ret trivial
  · refine emits_two (L := fun p q => rdQ p ++ (rdQ q ++ (wrQ p ++ wrQ q))) (s := 3) (by omega) (by omega) hx hy fx fy (emits_swapEl X Y) fun i => ?_
    unfold swapUnroll
    have h := fun j : Int => emits_swapEl (F := F) X Y (i + j) (i + j)
    have h0 := h 0
    rw [add_zero] at h0
    simpa [List.range_succ] using h0.bind fun _ _ => (h 1).bind fun _ _ => h 2

variable [Arith F]

theorem emits_axpyEl (isL : Bool) (ALPHA : Scal F) (X Y ix iy : Int) : Emits (fun _ => True) (axpyEl isL ALPHA X Y ix iy)
    (rdQ (X + 4 * ix) ++ (rdQ (Y + 4 * iy) ++ wrQ (Y + 4 * iy))) :=
  (emits_loadQ _).bind fun _ _ => (emits_loadQ _).bind fun _ _ => emits_storeQ _ _

theorem axpyvGen_emits [ArithEq F] {SIDE : Char} {ALPHA : Scal F} {N X INCX Y INCY : Int} (hz : ALPHA.eqZero = false)
    (hx : 0 < INCX) (hy : 0 < INCY) (fx : Fits32 (N * INCX)) (fy : Fits32 (N * INCY)) :
    Emits (fun _ => True) (axpyvGen SIDE N ALPHA X INCX Y INCY)
      ((List.range N.toNat).flatMap fun i : Nat => rdQ (X + 4 * (i * INCX)) ++ (rdQ (Y + 4 * (i * INCY)) ++
        wrQ (Y + 4 * (i * INCY)))) := by
  unfold axpyvGen
  split
  · rw [Int.toNat_of_nonpos ‹_›]; exact .ret trivial
  · rw [if_neg (by simp [hz])]
    refine emits_two (L := fun p q => rdQ p ++ (rdQ q ++ wrQ q)) (s := 4) (by omega) (by omega) hx hy fx fy (emits_axpyEl _ ALPHA X Y) fun i => ?_
    unfold axpyUnroll
    have h := fun j : Int => emits_axpyEl (!(SIDE == 'R')) ALPHA X Y (i + j) (i + j)
    have h0 := h 0
    rw [add_zero] at h0
    simpa [List.range_succ] using h0.bind fun _ _ => (h 1).bind fun _ _ => (h 2).bind fun _ _ => h 3

theorem emits_scalEl (isL : Bool) (ALPHA : Scal F) (X i : Int) : Emits (fun _ => True) (scalEl isL ALPHA X i)
    (rdQ (X + 4 * i) ++ wrQ (X + 4 * i)) :=
  (emits_loadQ _).bind fun _ _ => emits_storeQ _ _

theorem scalvGen_emits {SIDE : Char} {ALPHA : Scal F} {N X INCX : Int} (hx : 0 < INCX) (fx : Fits32 (N * INCX)) :
    Emits (fun _ => True) (scalvGen SIDE N ALPHA X INCX)
      ((List.range N.toNat).flatMap fun i : Nat => rdQ (X + 4 * (i * INCX)) ++ wrQ (X + 4 * (i * INCX))) := by
  unfold scalvGen
  split
  · rw [Int.toNat_of_nonpos (by omega)]; exact .ret trivial
  dsimp only
  split
  · rename_i h
    subst h
    simp only [mul_one]
    refine emits_unrolled (L := fun i => rdQ (X + 4 * i) ++ wrQ (X + 4 * i)) (s := 5) (by omega) (by omega) (emits_scalEl _ ALPHA X) fun i => ?_
    unfold scalUnroll
    have h := fun j : Int => emits_scalEl (!(SIDE == 'R')) ALPHA X (i + j)
    have h0 := h 0
    rw [add_zero] at h0
    simpa [List.range_succ] using
      h0.bind fun _ _ => (h 1).bind fun _ _ => (h 2).bind fun _ _ => (h 3).bind fun _ _ => h 4
  · refine (emits_int fx).skip fun r hr => ?_
    subst hr
    unfold forStep
    have hc : ((N * INCX - 0 + INCX - 1) / INCX).toNat = N.toNat := by
      have : N * INCX - 0 + INCX - 1 = (INCX - 1) + INCX * N := by ring
      rw [this, Int.add_mul_ediv_left _ _ (by omega), Int.ediv_eq_zero_of_lt (by omega) (by omega)]
      simp
    rw [hc]
    refine emits_forN fun i _ => ?_
    have e : (0 : Int) + INCX * (i : Int) = i * INCX := by ring
    rw [e]; exact emits_scalEl _ _ _ _

theorem emits_dotEl (conj : Bool) (X Y ix iy : Int) (h : Quat F) : Emits (fun _ => True) (dotEl conj X Y ix iy h)
    (rdQ (X + 4 * ix) ++ rdQ (Y + 4 * iy)) := by
  rw [← List.append_nil (rdQ (Y + 4 * iy))]
  exact (emits_loadQ _).bind fun _ _ => (emits_loadQ _).bind fun _ _ => .ret trivial

theorem dotGen_emits {conj : Bool} {N X INCX Y INCY : Int} (hx : 0 < INCX) (hy : 0 < INCY) (fx : Fits32 (N * INCX)) (fy : Fits32 (N * INCY)) :
    Emits (fun _ => True) (dotGen conj N X INCX Y INCY : Prog F (Quat F))
      ((List.range N.toNat).flatMap fun i : Nat => rdQ (X + 4 * (i * INCX)) ++ rdQ (Y + 4 * (i * INCY))) := by
  unfold dotGen
  split
  · rw [Int.toNat_of_nonpos ‹_›]; exact .ret trivial
  refine (emits_assert (by simpa using hx)).skip fun _ _ => ?_
  refine (emits_assert (by simpa using hy)).skip fun _ _ => ?_
  split
  · rename_i h
    obtain ⟨rfl, rfl⟩ := h
    simp only [mul_one]
    exact Emits.fold (R := fun _ _ => True) (fun i h _ _ => emits_dotEl conj X Y i i h) trivial
  · rw [← List.append_nil (List.flatMap _ _)]
    have hf : ∀ i INC : Int, 0 < INC → 0 ≤ i → i ≤ N → Fits32 (N * INC) → Fits32 (i * INC) := by
      intro i INC h0 h1 h2 h3
      unfold Fits32 at *
      have := mul_le_mul_of_nonneg_right h2 h0.le
      have := mul_nonneg h1 h0.le
      omega
    refine (Emits.fold (R := fun i s => s.1 = (i : Int) * INCX ∧ s.2.1 = (i : Int) * INCY) (fun i s hi hr => ?_) (by simp)).bind
      fun _ _ => .ret trivial
    unfold dotStep
    rw [hr.1, hr.2, ← List.append_nil (_ ++ _)]
    refine (emits_dotEl conj X Y _ _ _).bind fun _ _ => ?_
    have e : ∀ INC : Int, (i : Int) * INC + INC = ((i : Int) + 1) * INC := fun INC => by ring
    simp only [e]
    refine (emits_int (hf _ _ hx (by omega) (by omega) fx)).skip fun a ha => ?_
    refine (emits_int (hf _ _ hy (by omega) (by omega) fy)).skip fun b hb => ?_
    exact .ret ⟨by rw [ha]; push_cast; rfl, by rw [hb]; push_cast; rfl⟩

end Thr
open Thr

variable [Arith F] [ArithEq F]

/-- C62.  COPYV, portable template: for `i = 0, …, N-1` in this order, load element `i` of x and store element `i` of y. -/
theorem C62_copyv_portable_accesses (N X INCX Y INCY : Int) (m : Mem F) (px : 0 < INCX) (py : 0 < INCY)
    (fx : Fits32 (N * INCX)) (fy : Fits32 (N * INCY))
    (hx : Accessible (VecCell X INCX N.toNat) m) (hy : Accessible (VecCell Y INCY N.toNat) m) :
    (AnyCall.ref (.pcopy N X INCX Y INCY)).accesses m =
      (List.range N.toNat).flatMap fun i : Nat => rdQ (X + 4 * (i * INCX)) ++ wrQ (Y + 4 * (i * INCY)) := by
  refine (Thr.copyvGen_emits px py fx fy).sound fun e he a ha => ?_
  obtain ⟨i, hi, h⟩ := List.mem_flatMap.mp he
  have hi := List.mem_range.mp hi
  rcases List.mem_append.mp h with h | h
  · exact hx a ⟨i, hi, Thr.cell_rdQ h ha⟩
  · exact hy a ⟨i, hi, Thr.cell_wrQ h ha⟩

/-- C62.  SWAPV, portable template: both elements are loaded once, then both stored once (x first, unlike the vectorised
SWAPV, which stores y first). -/
theorem C62_swapv_portable_accesses (N X INCX Y INCY : Int) (m : Mem F) (px : 0 < INCX) (py : 0 < INCY)
    (fx : Fits32 (N * INCX)) (fy : Fits32 (N * INCY))
    (hx : Accessible (VecCell X INCX N.toNat) m) (hy : Accessible (VecCell Y INCY N.toNat) m) :
    (AnyCall.ref (.pswap N X INCX Y INCY)).accesses m =
      (List.range N.toNat).flatMap fun i : Nat => rdQ (X + 4 * (i * INCX)) ++ (rdQ (Y + 4 * (i * INCY)) ++
        (wrQ (X + 4 * (i * INCX)) ++ wrQ (Y + 4 * (i * INCY)))) := by
  refine (Thr.swapvGen_emits px py fx fy).sound fun e he a ha => ?_
  obtain ⟨i, hi, h⟩ := List.mem_flatMap.mp he
  have hi := List.mem_range.mp hi
  rcases List.mem_append.mp h with h | h
  · exact hx a ⟨i, hi, Thr.cell_rdQ h ha⟩
  rcases List.mem_append.mp h with h | h
  · exact hy a ⟨i, hi, Thr.cell_rdQ h ha⟩
  rcases List.mem_append.mp h with h | h
  · exact hx a ⟨i, hi, Thr.cell_wrQ h ha⟩
  · exact hy a ⟨i, hi, Thr.cell_wrQ h ha⟩

/-- C62.  SCALV, portable template: each element is loaded once and stored once — whatever ALPHA, even zero or one. -/
theorem C62_scalv_portable_accesses (SIDE : Char) (N : Int) (ALPHA : Scal F) (X INCX : Int) (m : Mem F) (px : 0 < INCX)
    (fx : Fits32 (N * INCX)) (hx : Accessible (VecCell X INCX N.toNat) m) :
    (AnyCall.ref (.pscal SIDE N ALPHA X INCX)).accesses m =
      (List.range N.toNat).flatMap fun i : Nat => rdQ (X + 4 * (i * INCX)) ++ wrQ (X + 4 * (i * INCX)) := by
  refine (Thr.scalvGen_emits px fx).sound fun e he a ha => ?_
  obtain ⟨i, hi, h⟩ := List.mem_flatMap.mp he
  have hi := List.mem_range.mp hi
  rcases List.mem_append.mp h with h | h
  · exact hx a ⟨i, hi, Thr.cell_rdQ h ha⟩
  · exact hx a ⟨i, hi, Thr.cell_wrQ h ha⟩

/-- C62.  AXPYV, portable template: with ALPHA zero nothing is accessed; otherwise elements `i` of x and y are loaded once
and y's is stored once. -/
theorem C62_axpyv_portable_accesses (SIDE : Char) (N : Int) (ALPHA : Scal F) (X INCX Y INCY : Int) (m : Mem F) :
    (ALPHA.eqZero = true → (AnyCall.ref (.paxpy SIDE N ALPHA X INCX Y INCY)).accesses m = []) ∧
    (ALPHA.eqZero = false → 0 < INCX → 0 < INCY → Fits32 (N * INCX) → Fits32 (N * INCY) →
      Accessible (VecCell X INCX N.toNat) m → Accessible (VecCell Y INCY N.toNat) m →
      (AnyCall.ref (.paxpy SIDE N ALPHA X INCX Y INCY)).accesses m =
        (List.range N.toNat).flatMap fun i : Nat => rdQ (X + 4 * (i * INCX)) ++ (rdQ (Y + 4 * (i * INCY)) ++ wrQ (Y + 4 * (i * INCY)))) := by
  refine ⟨fun hz => ?_, fun hz px py fx fy hx hy => ?_⟩
  · refine Emits.sound (R := fun _ => True) ?_ (by simp)
    show Emits _ (Thr.axpyvGen SIDE N ALPHA X INCX Y INCY) []
    unfold Thr.axpyvGen
    rw [hz]
    split
    · exact .ret trivial
    · exact .ret trivial
  · refine (Thr.axpyvGen_emits hz px py fx fy).sound fun e he a ha => ?_
    obtain ⟨i, hi, h⟩ := List.mem_flatMap.mp he
    have hi := List.mem_range.mp hi
    rcases List.mem_append.mp h with h | h
    · exact hx a ⟨i, hi, Thr.cell_rdQ h ha⟩
    rcases List.mem_append.mp h with h | h
    · exact hy a ⟨i, hi, Thr.cell_rdQ h ha⟩
    · exact hy a ⟨i, hi, Thr.cell_wrQ h ha⟩

/-- C62.  DOTUV, DOTCV, portable template: one load of every element of x and of y, in order, and no store. -/
theorem C62_dot_portable_accesses (conj : Bool) (N X INCX Y INCY : Int) (m : Mem F) (px : 0 < INCX) (py : 0 < INCY)
    (fx : Fits32 (N * INCX)) (fy : Fits32 (N * INCY))
    (hx : Accessible (VecCell X INCX N.toNat) m) (hy : Accessible (VecCell Y INCY N.toNat) m) :
    (AnyCall.ref (.pdot conj N X INCX Y INCY)).accesses m =
      (List.range N.toNat).flatMap fun i : Nat => rdQ (X + 4 * (i * INCX)) ++ rdQ (Y + 4 * (i * INCY)) := by
  refine (Thr.dotGen_emits px py fx fy).sound fun e he a ha => ?_
  obtain ⟨i, hi, h⟩ := List.mem_flatMap.mp he
  have hi := List.mem_range.mp hi
  rcases List.mem_append.mp h with h | h
  · exact hx a ⟨i, hi, Thr.cell_rdQ h ha⟩
  · exact hy a ⟨i, hi, Thr.cell_rdQ h ha⟩

/-- Non-vacuity: increments 2 and 3, nine elements, 200 accessible cells. -/
example (f : Int → F) : Accessible (VecCell 0 2 9) (memOf 0 200 f) ∧ Accessible (VecCell 80 3 9) (memOf 0 200 f) ∧
    Fits32 (9 * 2) ∧ Fits32 (9 * 3) := by
  refine ⟨?_, ?_, by unfold Fits32; omega, by unfold Fits32; omega⟩ <;>
  · rintro a ⟨i, hi, h⟩
    unfold InQ at h
    unfold memOf
    rw [if_pos (by omega)]
    rfl

end Haxx
