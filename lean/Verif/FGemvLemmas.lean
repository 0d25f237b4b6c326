import Verif.FGerLemmas

/-! Shared lemmas of the Fortran GEMV proofs. -/

namespace Haxx
open Arith Quaternion Finset

section
variable {F : Type}

/-- The reads of a matrix–vector product: `K` makes `A` and `x` readable and survives stores to `y`. -/
structure GvEnv (K : Mem F → Prop) (A LDA : Int) (M N : Nat) (a : Nat → Nat → Quat F)
    (X INCX : Int) (lx : Nat) (x : Nat → Quat F) (addr : Nat → Int) (ly : Nat) : Prop where
  rdA : ∀ m, K m → MatAt m A LDA M N a
  rdX : ∀ m, K m → ∀ i : Nat, i < lx → readQ m (X + 4 * ((i:Int) * INCX)) = some (x i)
  stable : ∀ m i q, i < ly → K m → K (writeQ m (addr i) q)
  disj : ∀ i j, i < ly → j < ly → i ≠ j → QDisj (addr i) (addr j)

theorem wp_lens {b : Bool} {N M : Int} {m : Mem F} {Q : Int × Int → Mem F → Prop} :
    wp (do if b = true then pure (N, M) else pure (M, N) : Prog F (Int × Int)) m Q ↔
      Q (if b = true then N else M, if b = true then M else N) m := by
  cases b
  · simp only [Bool.false_eq_true, if_false, wp_pure]
  · simp only [if_true, wp_pure]

theorem lsame_symm (a b : Char) : lsame a b = lsame b a := by
  unfold lsame
  by_cases h : a = b
  · subst h; rfl
  · rw [if_neg h, if_neg (fun e => h e.symm)]
    simp only [decide_eq_decide]
    exact eq_comm

end

section
variable {R : Type} [CommRing R]

/-- Accumulating passes with a loop-carried value: pass `l` adds `t l i` to every element `i`. -/
theorem wp_accPassS {σ : Type} {K : Mem R → Prop} {addr : Nat → Int} {n k : Nat} {m0 m : Mem R}
    {c : Nat → Quat R} {f : Nat → σ → Prog R σ} {s0 : σ} (st : Nat → σ) (hs0 : s0 = st 0)
    (t : Nat → Nat → ℍ[R]) (hU : Upd K addr n m0 c m)
    (hbody : ∀ l m c, l < k → Upd K addr n m0 c m →
      wp (f l (st l)) m (fun s m' => s = st (l+1) ∧
        Upd K addr n m0 (fun i => Quat.ofH ((c i).toH + t l i)) m')) :
    wp (foldN k f s0) m (fun _ m' => Upd K addr n m0
      (fun i => Quat.ofH ((c i).toH + ∑ l ∈ range k, t l i)) m') := by
  apply wp_foldN (fun l s m => s = st l ∧ Upd K addr n m0
      (fun i => Quat.ofH ((c i).toH + ∑ l' ∈ range l, t l' i)) m)
  · exact ⟨hs0, by simpa using hU⟩
  · rintro l s m hl ⟨rfl, h⟩
    refine wp_mono (hbody l m _ hl h) ?_
    rintro s m' ⟨rfl, h'⟩
    refine ⟨rfl, ?_⟩
    simpa [sum_range_succ, add_assoc] using h'
  · intro s m h; exact h.2

end

section
variable {R : Type} [CommRing R] [DecidableEq R]

theorem scal1_d' (a : R) (h : (Scal.d a).toH = 1) :
    Cplx.feq (Cplx.ofReal a) (⟨one, zero⟩ : Cplx R) = true := by
  have := congrArg QuaternionAlgebra.re h
  simp [Scal.toH] at this
  simp [Cplx.feq, this]
theorem scal1_z' (a : Cplx R) (h : (Scal.z a).toH = 1) :
    Cplx.feq a (⟨one, zero⟩ : Cplx R) = true := by
  have h0 := congrArg QuaternionAlgebra.re h
  have h1 := congrArg QuaternionAlgebra.imI h
  simp [Scal.toH] at h0 h1
  simp [Cplx.feq, h0, h1]
theorem scal1_h' (a : Quat R) (h : (Scal.h a).toH = 1) : (Cplx.feq a.lo (⟨one, zero⟩ : Cplx R) &&
    Cplx.feq a.hi (⟨zero, zero⟩ : Cplx R)) = true := by
  have h0 := congrArg QuaternionAlgebra.re h
  have h1 := congrArg QuaternionAlgebra.imI h
  have h2 := congrArg QuaternionAlgebra.imJ h
  have h3 := congrArg QuaternionAlgebra.imK h
  simp [Scal.toH] at h0 h1 h2 h3
  simp [Cplx.feq, h0, h1, h2, h3]

end
end Haxx

namespace Haxx
/-- Passes with a loop-carried value: after `l` of them, element `i` holds `t l i`. -/
theorem wp_stepsS {F σ : Type} {K : Mem F → Prop} {addr : Nat → Int} {n k : Nat} {m0 m : Mem F}
    {f : Nat → σ → Prog F σ} {s0 : σ} (st : Nat → σ) (hs0 : s0 = st 0)
    (t : Nat → Nat → Quat F) (hU : Upd K addr n m0 (t 0) m)
    (hbody : ∀ l m, l < k → Upd K addr n m0 (t l) m →
      wp (f l (st l)) m (fun s m' => s = st (l+1) ∧ Upd K addr n m0 (t (l+1)) m')) :
    wp (foldN k f s0) m (fun _ m' => Upd K addr n m0 (t k) m') := by
  apply wp_foldN (fun l s m => s = st l ∧ Upd K addr n m0 (t l) m)
  · exact ⟨hs0, hU⟩
  · rintro l s m hl ⟨rfl, h⟩
    exact hbody l m hl h
  · intro s m h; exact h.2
end Haxx
