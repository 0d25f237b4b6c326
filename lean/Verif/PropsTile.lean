import Verif.PropsCross
import Mathlib.Algebra.Star.BigOperators

/-!
# C45: GEMM on blocks, and GEMM of the reversed product
-/

set_option linter.unusedSectionVars false

namespace Haxx
open Arith Quaternion Finset

/-- Address of the block of the stored matrix that starts at row `r`, column `c` of `op(X)` (op as the SIMD
build reads its flags: `'T'` and `'C'` transpose), X starting at `P` with leading dimension `LD`. -/
def blockAt (t : Char) (P LD r c : Int) : Int := if t = 'T' ∨ t = 'C' then P + 4 * (c + r * LD) else P + 4 * (r + c * LD)

theorem blockAt_T {t : Char} (h : isT t) (P LD r c : Int) : blockAt t P LD r c = P + 4 * (c + r * LD) := if_pos h
theorem blockAt_N {t : Char} (h : ¬ isT t) (P LD r c : Int) : blockAt t P LD r c = P + 4 * (r + c * LD) := if_neg h

theorem QDisj.cell {p q a : Int} (h : QDisj p q) (h1 : InQ p a) (h2 : InQ q a) : False := by
  unfold QDisj at h; unfold InQ at h1 h2; omega

section bits
variable {F : Type} [Arith F]

/-- The conditions on a GEMM call carry over to any block of it, in any memory reached from the original one
by changing C only. -/
theorem GemmPre.block {m m' : Mem F} {blk : Blk} {bAddr aAddr : Int} {tA tB : Char} {M N K : Nat}
    {A LDA : Int} {Av : Nat → Nat → Quat F} {B LDB : Int} {Bv : Nat → Nat → Quat F} {C LDC : Int}
    {Cv Cv' : Nat → Nat → Quat F}
    (h : GemmPre m blk bAddr aAddr tA tB M N K A LDA Av B LDB Bv C LDC Cv)
    (hs : SameOutside (MatCell C LDC M N) m m') (hC : MatAt m' C LDC M N Cv')
    {i0 M' j0 N' k0 K' : Nat} (hi : i0 + M' ≤ M) (hj : j0 + N' ≤ N) (hk : k0 + K' ≤ K) :
    GemmPre m' blk bAddr aAddr tA tB M' N' K'
      (blockAt tA A LDA i0 k0) LDA (fun i j => if isT tA then Av (k0 + i) (i0 + j) else Av (i0 + i) (k0 + j))
      (blockAt tB B LDB k0 j0) LDB (fun i j => if isT tB then Bv (j0 + i) (k0 + j) else Bv (k0 + i) (j0 + j))
      (C + 4 * (i0 + j0 * LDC)) LDC (fun i j => Cv' (i0 + i) (j0 + j)) := by
  have cellC : ∀ c, MatCell (C + 4 * (i0 + j0 * LDC)) LDC M' N' c → MatCell C LDC M N c := by
    rintro c ⟨i, j, h1, h2, h3⟩
    refine ⟨i0 + i, j0 + j, by omega, by omega, ?_⟩
    have : C + 4 * (i0 + j0 * LDC) + 4 * (↑i + ↑j * LDC) = C + 4 * (((i0 + i : Nat):Int) + ((j0 + j : Nat):Int) * LDC) := by
      push_cast; ring
    rwa [this] at h3
  have eA1 : ∀ i j : Nat, A + 4 * ((k0:Int) + i0 * LDA) + 4 * (↑i + ↑j * LDA) = A + 4 * (((k0 + i : Nat):Int) + ((i0 + j : Nat):Int) * LDA) := by
    intros; push_cast; ring
  have eA2 : ∀ i j : Nat, A + 4 * ((i0:Int) + k0 * LDA) + 4 * (↑i + ↑j * LDA) = A + 4 * (((i0 + i : Nat):Int) + ((k0 + j : Nat):Int) * LDA) := by
    intros; push_cast; ring
  have eB1 : ∀ i j : Nat, B + 4 * ((j0:Int) + k0 * LDB) + 4 * (↑i + ↑j * LDB) = B + 4 * (((j0 + i : Nat):Int) + ((k0 + j : Nat):Int) * LDB) := by
    intros; push_cast; ring
  have eB2 : ∀ i j : Nat, B + 4 * ((k0:Int) + j0 * LDB) + 4 * (↑i + ↑j * LDB) = B + 4 * (((k0 + i : Nat):Int) + ((j0 + j : Nat):Int) * LDB) := by
    intros; push_cast; ring
  have cellA : ∀ c, MatCell (blockAt tA A LDA i0 k0) LDA (if isT tA then K' else M') (if isT tA then M' else K') c →
      MatCell A LDA (if isT tA then K else M) (if isT tA then M else K) c := by
    rintro c ⟨i, j, h1, h2, h3⟩
    by_cases t : isT tA
    · rw [if_pos t] at h1 h2
      rw [blockAt_T t, eA1] at h3
      exact ⟨k0 + i, i0 + j, by rw [if_pos t]; omega, by rw [if_pos t]; omega, h3⟩
    · rw [if_neg t] at h1 h2
      rw [blockAt_N t, eA2] at h3
      exact ⟨i0 + i, k0 + j, by rw [if_neg t]; omega, by rw [if_neg t]; omega, h3⟩
  have cellB : ∀ c, MatCell (blockAt tB B LDB k0 j0) LDB (if isT tB then N' else K') (if isT tB then K' else N') c →
      MatCell B LDB (if isT tB then N else K) (if isT tB then K else N) c := by
    rintro c ⟨i, j, h1, h2, h3⟩
    by_cases t : isT tB
    · rw [if_pos t] at h1 h2
      rw [blockAt_T t, eB1] at h3
      exact ⟨j0 + i, k0 + j, by rw [if_pos t]; omega, by rw [if_pos t]; omega, h3⟩
    · rw [if_neg t] at h1 h2
      rw [blockAt_N t, eB2] at h3
      exact ⟨k0 + i, j0 + j, by rw [if_neg t]; omega, by rw [if_neg t]; omega, h3⟩
  have mA := matAt_congr (fun a ha => (hs a (h.apartA a ha)).symm) h.matA
  have mB := matAt_congr (fun a ha => (hs a (h.apartB a ha)).symm) h.matB
  have fresh : ∀ a, m a = none → m' a = none := by
    intro a ha
    rw [hs a, ha]
    intro hc
    have := matCell_isSome h.matC hc
    rw [ha] at this; cases this
  have fm : ∀ (x y : Nat) (c LD : Int), x ≤ y → 0 < c → 0 ≤ LD → Fits32 (min (y:Int) c * LD) → Fits32 (min (x:Int) c * LD) := by
    intro x y c LD hxy hc hl hf
    refine hf.mono (mul_nonneg (by omega) hl) (mul_le_mul_of_nonneg_right (by omega) hl)
  constructor
  · exact h.mc_pos
  · exact h.nc_pos
  · exact h.kc_pos
  · exact h.mc_even
  · exact h.nc_even
  · intro i j h1 h2
    by_cases t : isT tA
    · rw [if_pos t] at h1 h2
      have := mA (k0 + i) (i0 + j) (by rw [if_pos t]; omega) (by rw [if_pos t]; omega)
      dsimp only
      rw [blockAt_T t, if_pos t, eA1, this]
    · rw [if_neg t] at h1 h2
      have := mA (i0 + i) (k0 + j) (by rw [if_neg t]; omega) (by rw [if_neg t]; omega)
      dsimp only
      rw [blockAt_N t, if_neg t, eA2, this]
  · intro i j h1 h2
    by_cases t : isT tB
    · rw [if_pos t] at h1 h2
      have := mB (j0 + i) (k0 + j) (by rw [if_pos t]; omega) (by rw [if_pos t]; omega)
      dsimp only
      rw [blockAt_T t, if_pos t, eB1, this]
    · rw [if_neg t] at h1 h2
      have := mB (k0 + i) (j0 + j) (by rw [if_neg t]; omega) (by rw [if_neg t]; omega)
      dsimp only
      rw [blockAt_N t, if_neg t, eB2, this]
  · intro i j h1 h2
    rw [← hC (i0 + i) (j0 + j) (by omega) (by omega)]
    congr 1
    push_cast; ring
  · exact h.lda
  · exact h.ldb
  · have := h.ldc; omega
  · intro a h1 h2; exact h.apartA a (cellA a h1) (cellC a h2)
  · intro a h1 h2; exact h.apartB a (cellB a h1) (cellC a h2)
  · exact h.alignB
  · exact h.alignA
  · intro a ha; exact fresh a (h.freshB a ha)
  · intro a ha; exact fresh a (h.freshA a ha)
  · exact h.freshAB
  · exact h.kc32
  · have := h.m32; have := h.mc_pos; unfold Fits32 at *; omega
  · have := h.n32; have := h.nc_pos; unfold Fits32 at *; omega
  · have := h.k32; have := h.kc_pos; unfold Fits32 at *; omega
  · exact h.ldc32
  · exact fm _ _ _ _ (by omega) h.nc_pos (by have := h.ldc; omega) h.ldcN32
  · exact fm _ _ _ _ (by omega) h.nc_pos h.ldb h.ldbN32
  · exact fm _ _ _ _ (by omega) h.kc_pos h.ldb h.ldbK32
  · exact fm _ _ _ _ (by omega) h.mc_pos h.lda h.ldaM32
  · exact fm _ _ _ _ (by omega) h.kc_pos h.lda h.ldaK32

theorem opE_block (t : Char) (X : Nat → Nat → Quat F) (r c i k : Nat) :
    opE t (fun i j => if isT t then X (c + i) (r + j) else X (r + i) (c + j)) i k = opE t X (r + i) (c + k) := by
  unfold opE
  by_cases h : isT t
  · rw [if_pos h, if_pos h]; dsimp only; rw [if_pos h]
  · rw [if_neg h, if_neg h]; dsimp only; rw [if_neg h]

/-- A block of C: rows `i0 .. i0+rows-1`, columns `j0 .. j0+cols-1`. -/
structure Tile where
  (i0 rows j0 cols : Nat)

/-- Entry `(i,j)` is in the block. -/
def Tile.has (t : Tile) (i j : Nat) : Bool := decide (t.i0 ≤ i ∧ i < t.i0 + t.rows ∧ t.j0 ≤ j ∧ j < t.j0 + t.cols)

/-- `GEMM` on one block of C, A advanced by `i0` rows and B by `j0` columns. -/
def gemmTile (blk : Blk) (bAddr aAddr : Int) (junk : Int → F) (tA tB : Char) (K : Nat) (ALPHA : Scal F)
    (A LDA B LDB : Int) (BETA : Scal F) (C LDC : Int) (t : Tile) : Prog F Unit :=
  gemmAVX blk bAddr aAddr junk tA tB t.rows t.cols K ALPHA (blockAt tA A LDA t.i0 0) LDA
    (blockAt tB B LDB 0 t.j0) LDB BETA (C + 4 * (t.i0 + t.j0 * LDC)) LDC

/-- `GEMM` on the blocks of a list, one after the other; each call finds other garbage in its work space. -/
def gemmTiles (blk : Blk) (bAddr aAddr : Int) (tA tB : Char) (K : Nat) (ALPHA : Scal F)
    (A LDA B LDB : Int) (BETA : Scal F) (C LDC : Int) : List ((Int → F) × Tile) → Prog F Unit
  | [] => pure ()
  | (junk, t) :: ts => do
    gemmTile blk bAddr aAddr junk tA tB K ALPHA A LDA B LDB BETA C LDC t
    gemmTiles blk bAddr aAddr tA tB K ALPHA A LDA B LDB BETA C LDC ts

theorem gemmTile_wp {m m' : Mem F} {blk : Blk} {bAddr aAddr : Int} {junk : Int → F} {tA tB : Char}
    {M N K : Nat} {ALPHA BETA : Scal F} {A LDA B LDB C LDC : Int} {Av Bv Cv Cv' : Nat → Nat → Quat F}
    (h : GemmPre m blk bAddr aAddr tA tB M N K A LDA Av B LDB Bv C LDC Cv)
    (hs : SameOutside (MatCell C LDC M N) m m') (hC : MatAt m' C LDC M N Cv')
    {t : Tile} (hi : t.i0 + t.rows ≤ M) (hj : t.j0 + t.cols ≤ N) :
    wp (gemmTile blk bAddr aAddr junk tA tB K ALPHA A LDA B LDB BETA C LDC t) m' (fun _ m2 =>
      MatAt m2 C LDC M N (fun i j => if t.has i j then
        gemmElt tA tB ALPHA BETA K (fun k => opE tA Av i k) (fun k => opE tB Bv k j) (Cv' i j) else Cv' i j) ∧
      SameOutside (MatCell C LDC M N) m m2) := by
  have h2 := h.block hs hC hi hj (k0 := 0) (K' := K) (by omega)
  have e4 : ∀ i j : Nat, C + 4 * ((t.i0:Int) + t.j0 * LDC) + 4 * (↑i + ↑j * LDC) = C + 4 * (((t.i0 + i : Nat):Int) + ((t.j0 + j : Nat):Int) * LDC) := by
    intros; push_cast; ring
  unfold gemmTile
  refine wp_mono (gemmAVX_wp (junk := junk) (ALPHA := ALPHA) (BETA := BETA) h2) ?_
  rintro _ m2 ⟨v, s⟩
  constructor
  · intro i j qi qj
    dsimp only
    by_cases ht : t.has i j = true
    · rw [if_pos ht]
      have ht' := of_decide_eq_true ht
      obtain ⟨d, rfl⟩ : ∃ d, i = t.i0 + d := ⟨i - t.i0, by omega⟩
      obtain ⟨e, rfl⟩ : ∃ e, j = t.j0 + e := ⟨j - t.j0, by omega⟩
      have w := v d e (by omega) (by omega)
      rw [e4] at w
      rw [w]
      have eA : (fun k => opE tA (fun i j => if isT tA then Av (0 + i) (t.i0 + j) else Av (t.i0 + i) (0 + j)) d k) = fun k => opE tA Av (t.i0 + d) k := by
        funext k; rw [opE_block, Nat.zero_add]
      have eB : (fun k => opE tB (fun i j => if isT tB then Bv (t.j0 + i) (0 + j) else Bv (0 + i) (t.j0 + j)) k e) = fun k => opE tB Bv k (t.j0 + e) := by
        funext k; rw [opE_block, Nat.zero_add]
      dsimp only
      rw [eA, eB]
    · rw [if_neg ht, readQ_congr (m' := m'), hC i j qi qj]
      intro a ha
      refine s a ?_
      rintro ⟨i', j', h1, h2, h3⟩
      rw [e4] at h3
      refine (mat_disj (r := M) (by have := h.ldc; exact_mod_cast this) (by omega) qi ?_).cell h3 ha
      rintro ⟨rfl, rfl⟩
      exact ht (decide_eq_true (by omega))
  · intro a ha
    rw [s a, hs a ha]
    rintro ⟨i', j', h1, h2, h3⟩
    rw [e4] at h3
    exact ha ⟨_, _, by omega, by omega, h3⟩

/-- C45, blocks of rows and columns.  Take any list of blocks of C such that every entry of C lies in exactly
one of them.  Calling GEMM on the blocks, one after the other, leaves bit for bit the memory that one GEMM on
the whole of C leaves, whatever the arithmetic. -/
theorem C45_tiles (m : Mem F) (blk : Blk) (bAddr aAddr : Int) (junk : Int → F) (tA tB : Char)
    (M N K : Nat) (ALPHA BETA : Scal F) (A LDA B LDB C LDC : Int) (Av Bv Cv : Nat → Nat → Quat F)
    (h : GemmPre m blk bAddr aAddr tA tB M N K A LDA Av B LDB Bv C LDC Cv)
    (ts : List ((Int → F) × Tile)) (hin : ∀ t ∈ ts, t.2.i0 + t.2.rows ≤ M ∧ t.2.j0 + t.2.cols ≤ N)
    (hpart : ∀ i j, i < M → j < N → (ts.countP (fun t => t.2.has i j)) = 1) :
    ∃ m', gemmAVX blk bAddr aAddr junk tA tB M N K ALPHA A LDA B LDB BETA C LDC m = .ok ((), m') ∧
      gemmTiles blk bAddr aAddr tA tB K ALPHA A LDA B LDB BETA C LDC ts m = .ok ((), m') := by
  obtain ⟨_, m1, e1, v1, s1⟩ := gemmAVX_wp (junk := junk) (ALPHA := ALPHA) (BETA := BETA) h
  have key : ∀ (ts : List ((Int → F) × Tile)) (m' : Mem F) (Cv' : Nat → Nat → Quat F),
      (∀ t ∈ ts, t.2.i0 + t.2.rows ≤ M ∧ t.2.j0 + t.2.cols ≤ N) →
      (∀ i j, i < M → j < N → ts.countP (fun t => t.2.has i j) ≤ 1) →
      SameOutside (MatCell C LDC M N) m m' → MatAt m' C LDC M N Cv' →
      wp (gemmTiles blk bAddr aAddr tA tB K ALPHA A LDA B LDB BETA C LDC ts) m' (fun _ m2 =>
        MatAt m2 C LDC M N (fun i j => if ts.countP (fun t => t.2.has i j) = 1 then
          gemmElt tA tB ALPHA BETA K (fun k => opE tA Av i k) (fun k => opE tB Bv k j) (Cv' i j) else Cv' i j) ∧
        SameOutside (MatCell C LDC M N) m m2) := by
    intro ts
    induction ts with
    | nil =>
      intro m' Cv' _ _ hs hC
      unfold gemmTiles
      rw [wp_pure]
      exact ⟨fun i j hi hj => by simpa using hC i j hi hj, hs⟩
    | cons t ts ih =>
      intro m' Cv' hin hp hs hC
      obtain ⟨jk, t⟩ := t
      unfold gemmTiles
      rw [wp_bind]
      have hb := hin (jk, t) (by simp)
      refine wp_mono (gemmTile_wp h hs hC hb.1 hb.2) ?_
      rintro _ m2 ⟨v2, s2⟩
      refine wp_mono (ih m2 _ (fun t ht => hin t (by simp [ht])) ?_ s2 v2) ?_
      · intro i j hi hj
        have := hp i j hi hj
        rw [List.countP_cons] at this
        omega
      · rintro _ m3 ⟨v3, s3⟩
        refine ⟨fun i j hi hj => ?_, s3⟩
        have hle := hp i j hi hj
        rw [v3 i j hi hj]
        simp only [List.countP_cons] at hle ⊢
        by_cases ht : t.has i j = true
        · simp only [ht, if_true] at hle ⊢
          have z : ts.countP (fun t => t.2.has i j) = 0 := by omega
          rw [z]
          simp
        · simp only [ht] at hle ⊢
          simp
  obtain ⟨_, m2, e2, v2, s2⟩ := key ts m Cv hin (fun i j hi hj => (hpart i j hi hj).le) (fun _ _ => rfl) h.matC
  have : m2 = m1 := by
    refine mem_ext_mat (m := m) (C := C) (LDC := LDC) (r := M) (c := N) ?_ v1 s2 s1
    intro i j hi hj
    rw [v2 i j hi hj]
    dsimp only
    rw [if_pos (hpart i j hi hj)]
  subst this
  exact ⟨m2, e1, e2⟩

end bits

section exact
variable {R : Type} [CommRing R]

/-- C45, splitting the inner dimension: GEMM over the first `K1` columns of op(A) and rows of op(B), followed by
GEMM with BETA = 1 over the other `K2`, leaves the memory of one GEMM over `K1 + K2`. -/
theorem C45_split_inner (m : Mem R) (blk : Blk) (bAddr aAddr : Int) (junk junk1 junk2 : Int → R) (tA tB : Char)
    (M N K1 K2 : Nat) (ALPHA BETA : Scal R) (A LDA B LDB C LDC : Int) (Av Bv Cv : Nat → Nat → Quat R)
    (h : GemmPre m blk bAddr aAddr tA tB M N (K1 + K2) A LDA Av B LDB Bv C LDC Cv) :
    ∃ m1 m2,
      gemmAVX blk bAddr aAddr junk1 tA tB M N K1 ALPHA A LDA B LDB BETA C LDC m = .ok ((), m1) ∧
      gemmAVX blk bAddr aAddr junk2 tA tB M N K2 ALPHA (blockAt tA A LDA 0 K1) LDA (blockAt tB B LDB K1 0) LDB
        (.d 1) C LDC m1 = .ok ((), m2) ∧
      gemmAVX blk bAddr aAddr junk tA tB M N ((K1 + K2 : Nat) : Int) ALPHA A LDA B LDB BETA C LDC m = .ok ((), m2) := by
  have z : ∀ t P LD, blockAt t P LD 0 0 = P := by intro t P LD; unfold blockAt; split <;> simp
  obtain ⟨_, m0, e0, v0, s0⟩ := gemmAVX_wp (junk := junk) (ALPHA := ALPHA) (BETA := BETA) h
  have h1 := h.block (fun _ _ => rfl) h.matC (i0 := 0) (M' := M) (by omega) (j0 := 0) (N' := N) (by omega) (k0 := 0) (K' := K1) (by omega)
  simp only [Nat.cast_zero, z, zero_mul, add_zero, mul_zero] at h1
  obtain ⟨_, m1, e1, v1, s1⟩ := gemmAVX_wp (junk := junk1) (ALPHA := ALPHA) (BETA := BETA) h1
  have h2 := h.block s1 v1 (i0 := 0) (M' := M) (by omega) (j0 := 0) (N' := N) (by omega) (k0 := K1) (K' := K2) (by omega)
  simp only [Nat.cast_zero, zero_mul, add_zero, mul_zero] at h2
  obtain ⟨_, m2, e2, v2, s2⟩ := gemmAVX_wp (junk := junk2) (ALPHA := ALPHA) (BETA := .d 1) h2
  have one : (Scal.d (1:R)).toH = 1 := by ext <;> simp [Scal.toH]
  have : m0 = m2 := by
    refine mem_ext_mat (m := m) v0 ?_ s0 (fun a ha => (s2 a ha).trans (s1 a ha))
    intro i j hi hj
    rw [v2 i j hi hj]
    congr 1
    dsimp only
    apply toH_inj.mp
    rw [toH_gemmElt, toH_gemmElt, toH_gemmElt, one, one_mul, sum_range_add, mul_add]
    have eA : ∀ k, opSpec tA (fun i j => if isT tA then Av (K1 + i) (0 + j) else Av (0 + i) (K1 + j)) i k = opSpec tA Av i (K1 + k) := by
      intro k
      rw [← opSpec_eq, ← opSpec_eq, opE_block, Nat.zero_add]
    have eB : ∀ k, opSpec tB (fun i j => if isT tB then Bv (0 + i) (K1 + j) else Bv (K1 + i) (0 + j)) k j = opSpec tB Bv (K1 + k) j := by
      intro k
      rw [← opSpec_eq, ← opSpec_eq, opE_block, Nat.zero_add]
    have eA0 : ∀ k, opSpec tA (fun i j => if isT tA then Av (0 + i) (0 + j) else Av (0 + i) (0 + j)) i k = opSpec tA Av i k := by
      intro k
      rw [← opSpec_eq, ← opSpec_eq, opE_block, Nat.zero_add, Nat.zero_add]
    have eB0 : ∀ k, opSpec tB (fun i j => if isT tB then Bv (0 + i) (0 + j) else Bv (0 + i) (0 + j)) k j = opSpec tB Bv k j := by
      intro k
      rw [← opSpec_eq, ← opSpec_eq, opE_block, Nat.zero_add, Nat.zero_add]
    simp only [Nat.zero_add] at eA eB eA0 eB0 ⊢
    simp only [eA, eB, eA0, eB0]
    abel
  subst this
  exact ⟨m1, _, e1, e2, e0⟩

/-- The flag of the conjugate transpose: `'N'` and `'C'`, `'T'` and `'R'` (conjugate, SIMD build) swap. -/
def adjFlag (t : Char) : Char :=
  if t = 'N' then 'C' else if t = 'C' then 'N' else if t = 'T' then 'R' else if t = 'R' then 'T' else t

theorem opSpec_adj {t : Char} (ht : t = 'N' ∨ t = 'C' ∨ t = 'T' ∨ t = 'R') (X : Nat → Nat → Quat R) (i k : Nat) :
    opSpec (adjFlag t) X k i = star (opSpec t X i k) := by
  rcases ht with rfl | rfl | rfl | rfl <;> simp [opSpec, adjFlag]

/-- C45, the product of the adjoints in reverse order: for real ALPHA and BETA, `op(B)ᴴ op(A)ᴴ`, computed by GEMM
with the operands exchanged and the adjoint flags into a matrix that held Cᴴ, is entry by entry the
conjugate transpose of what GEMM leaves in C. -/
theorem C45_adjoint (m : Mem R) (blk : Blk) (bAddr aAddr : Int) (junk junk' : Int → R) (tA tB : Char)
    (htA : tA = 'N' ∨ tA = 'C' ∨ tA = 'T' ∨ tA = 'R') (htB : tB = 'N' ∨ tB = 'C' ∨ tB = 'T' ∨ tB = 'R')
    (M N K : Nat) (α β : R) (A LDA B LDB C LDC D LDD : Int) (Av Bv Cv Dv : Nat → Nat → Quat R)
    (h : GemmPre m blk bAddr aAddr tA tB M N K A LDA Av B LDB Bv C LDC Cv)
    (h' : GemmPre m blk bAddr aAddr (adjFlag tB) (adjFlag tA) N M K B LDB Bv A LDA Av D LDD Dv)
    (hD : ∀ i j, i < M → j < N → (Dv j i).toH = star (Cv i j).toH) :
    ∃ m1 m2,
      gemmAVX blk bAddr aAddr junk tA tB M N K (.d α) A LDA B LDB (.d β) C LDC m = .ok ((), m1) ∧
      gemmAVX blk bAddr aAddr junk' (adjFlag tB) (adjFlag tA) N M K (.d α) B LDB A LDA (.d β) D LDD m = .ok ((), m2) ∧
      ∀ i j, i < M → j < N → ∃ p q, readQ m1 (C + 4 * (i + j * LDC)) = some p ∧
        readQ m2 (D + 4 * (j + i * LDD)) = some q ∧ q.toH = star p.toH := by
  obtain ⟨_, m1, e1, v1, _⟩ := gemmAVX_wp (junk := junk) (ALPHA := .d α) (BETA := .d β) h
  obtain ⟨_, m2, e2, v2, _⟩ := gemmAVX_wp (junk := junk') (ALPHA := .d α) (BETA := .d β) h'
  refine ⟨m1, m2, e1, e2, fun i j hi hj => ⟨_, _, v1 i j hi hj, v2 j i hj hi, ?_⟩⟩
  have real : ∀ (a : R) (q : ℍ[R]), star ((Scal.d a).toH * q) = (Scal.d a).toH * star q := by
    intro a q; ext <;> simp [Scal.toH] <;> try ring
  dsimp only
  rw [toH_gemmElt, toH_gemmElt, star_add, real, real, star_sum, hD i j hi hj]
  simp only [star_mul, opSpec_adj htA, opSpec_adj htB]

/-- C45, no such rule for transposes: computing `op(B)ᵀ op(A)ᵀ` instead of `(op(A) op(B))ᵀ` gives the products of
the entries in the other order.  In the smallest case (`1 × 1`), the two calls leave the same value only if
the two quaternions commute. -/
theorem C45_no_transpose_rule (m : Mem R) (blk : Blk) (bAddr aAddr : Int) (junk junk' : Int → R)
    (A LDA B LDB C LDC D LDD : Int) (Av Bv Cv Dv : Nat → Nat → Quat R)
    (h : GemmPre m blk bAddr aAddr 'N' 'N' 1 1 1 A LDA Av B LDB Bv C LDC Cv)
    (h' : GemmPre m blk bAddr aAddr 'T' 'T' 1 1 1 B LDB Bv A LDA Av D LDD Dv)
    (hne : (Av 0 0).toH * (Bv 0 0).toH ≠ (Bv 0 0).toH * (Av 0 0).toH) :
    ∃ m1 m2 p q,
      gemmAVX blk bAddr aAddr junk 'N' 'N' 1 1 1 (.d 1) A LDA B LDB (.d 0) C LDC m = .ok ((), m1) ∧
      gemmAVX blk bAddr aAddr junk' 'T' 'T' 1 1 1 (.d 1) B LDB A LDA (.d 0) D LDD m = .ok ((), m2) ∧
      readQ m1 C = some p ∧ readQ m2 D = some q ∧ p ≠ q := by
  obtain ⟨_, m1, e1, v1, _⟩ := gemmAVX_wp (junk := junk) (ALPHA := .d 1) (BETA := .d 0) h
  obtain ⟨_, m2, e2, v2, _⟩ := gemmAVX_wp (junk := junk') (ALPHA := .d 1) (BETA := .d 0) h'
  have w1 := v1 0 0 (by decide) (by decide)
  have w2 := v2 0 0 (by decide) (by decide)
  have z : ∀ P LD : Int, P + 4 * (((0:Nat):Int) + ((0:Nat):Int) * LD) = P := by intros; simp
  rw [z] at w1 w2
  refine ⟨m1, m2, _, _, e1, e2, w1, w2, ?_⟩
  intro e
  have e' := congrArg Quat.toH e
  have one : (Scal.d (1:R)).toH = 1 := by ext <;> simp [Scal.toH]
  have zero : (Scal.d (0:R)).toH = 0 := by ext <;> simp [Scal.toH]
  dsimp only at e'
  rw [toH_gemmElt, toH_gemmElt, one, zero] at e'
  exact hne (by simpa [opSpec] using e')

end exact


/-! ### Non-vacuity -/

/-- `Aᴴ B`, 3 × 1, K = 2. -/
theorem adj_example1 {F : Type} [Arith F] (f : Int → F) :
    GemmPre (memOf 0 100 f) ⟨64, 512, 64⟩ 1000 200000 'C' 'N' 3 1 2
      0 2 (fun i j => let p : Int := 0 + 4 * (i + j * 2); ⟨f p, f (p+1), f (p+2), f (p+3)⟩)
      24 2 (fun i j => let p : Int := 24 + 4 * (i + j * 2); ⟨f p, f (p+1), f (p+2), f (p+3)⟩)
      40 4 (fun i j => let p : Int := 40 + 4 * (i + j * 4); ⟨f p, f (p+1), f (p+2), f (p+3)⟩) where
  mc_pos := by decide
  nc_pos := by decide
  kc_pos := by decide
  mc_even := by decide
  nc_even := by decide
  matA := by
    intro i j hi hj
    have h1 : i < 2 := hi
    have h2 : j < 3 := hj
    exact readQ_memOf (by omega) (by omega)
  matB := by
    intro i j hi hj
    have h1 : i < 2 := hi
    have h2 : j < 1 := hj
    exact readQ_memOf (by omega) (by omega)
  matC := by
    intro i j hi hj
    exact readQ_memOf (by omega) (by omega)
  lda := by decide
  ldb := by decide
  ldc := by decide
  apartA := by
    rintro a ⟨i, j, hi, hj, h⟩ ⟨i', j', hi', hj', h'⟩
    have h1 : i < 2 := hi
    have h2 : j < 3 := hj
    unfold InQ at *; omega
  apartB := by
    rintro a ⟨i, j, hi, hj, h⟩ ⟨i', j', hi', hj', h'⟩
    have h1 : i < 2 := hi
    have h2 : j < 1 := hj
    unfold InQ at *; omega
  alignB := by decide
  alignA := by decide
  freshB := by
    intro a ha
    unfold InBuf at ha; unfold memOf
    rw [if_neg (by omega)]
  freshA := by
    intro a ha
    unfold InBuf at ha; unfold memOf
    rw [if_neg (by omega)]
  freshAB := by
    intro a h1 h2
    have e1 : fixMod ((64:Int) * 64) 32 = 4096 := by decide
    have e2 : fixMod ((64:Int) * 512) 32 = 32768 := by decide
    simp only [InBuf] at h1 h2
    omega
  kc32 := by unfold Fits32; decide
  m32 := by unfold Fits32; decide
  n32 := by unfold Fits32; decide
  k32 := by unfold Fits32; decide
  ldc32 := by unfold Fits32; decide
  ldcN32 := by unfold Fits32; decide
  ldbN32 := by unfold Fits32; decide
  ldbK32 := by unfold Fits32; decide
  ldaM32 := by unfold Fits32; decide
  ldaK32 := by unfold Fits32; decide

/-- `Bᴴ A`, 1 × 3, K = 2, for the same A and B. -/
theorem adj_example2 {F : Type} [Arith F] (f : Int → F) :
    GemmPre (memOf 0 100 f) ⟨64, 512, 64⟩ 1000 200000 'C' 'N' 1 3 2
      24 2 (fun i j => let p : Int := 24 + 4 * (i + j * 2); ⟨f p, f (p+1), f (p+2), f (p+3)⟩)
      0 2 (fun i j => let p : Int := 0 + 4 * (i + j * 2); ⟨f p, f (p+1), f (p+2), f (p+3)⟩)
      60 1 (fun i j => let p : Int := 60 + 4 * (i + j * 1); ⟨f p, f (p+1), f (p+2), f (p+3)⟩) where
  mc_pos := by decide
  nc_pos := by decide
  kc_pos := by decide
  mc_even := by decide
  nc_even := by decide
  matA := by
    intro i j hi hj
    have h1 : i < 2 := hi
    have h2 : j < 1 := hj
    exact readQ_memOf (by omega) (by omega)
  matB := by
    intro i j hi hj
    have h1 : i < 2 := hi
    have h2 : j < 3 := hj
    exact readQ_memOf (by omega) (by omega)
  matC := by
    intro i j hi hj
    exact readQ_memOf (by omega) (by omega)
  lda := by decide
  ldb := by decide
  ldc := by decide
  apartA := by
    rintro a ⟨i, j, hi, hj, h⟩ ⟨i', j', hi', hj', h'⟩
    have h1 : i < 2 := hi
    have h2 : j < 1 := hj
    unfold InQ at *; omega
  apartB := by
    rintro a ⟨i, j, hi, hj, h⟩ ⟨i', j', hi', hj', h'⟩
    have h1 : i < 2 := hi
    have h2 : j < 3 := hj
    unfold InQ at *; omega
  alignB := by decide
  alignA := by decide
  freshB := by
    intro a ha
    unfold InBuf at ha; unfold memOf
    rw [if_neg (by omega)]
  freshA := by
    intro a ha
    unfold InBuf at ha; unfold memOf
    rw [if_neg (by omega)]
  freshAB := by
    intro a h1 h2
    have e1 : fixMod ((64:Int) * 64) 32 = 4096 := by decide
    have e2 : fixMod ((64:Int) * 512) 32 = 32768 := by decide
    simp only [InBuf] at h1 h2
    omega
  kc32 := by unfold Fits32; decide
  m32 := by unfold Fits32; decide
  n32 := by unfold Fits32; decide
  k32 := by unfold Fits32; decide
  ldc32 := by unfold Fits32; decide
  ldcN32 := by unfold Fits32; decide
  ldbN32 := by unfold Fits32; decide
  ldbK32 := by unfold Fits32; decide
  ldaM32 := by unfold Fits32; decide
  ldaK32 := by unfold Fits32; decide

/-- `a b`. -/
theorem trans_example1 {F : Type} [Arith F] (f : Int → F) :
    GemmPre (memOf 0 16 f) ⟨64, 512, 64⟩ 1000 200000 'N' 'N' 1 1 1
      0 1 (fun i j => let p : Int := 0 + 4 * (i + j * 1); ⟨f p, f (p+1), f (p+2), f (p+3)⟩)
      4 1 (fun i j => let p : Int := 4 + 4 * (i + j * 1); ⟨f p, f (p+1), f (p+2), f (p+3)⟩)
      8 1 (fun i j => let p : Int := 8 + 4 * (i + j * 1); ⟨f p, f (p+1), f (p+2), f (p+3)⟩) where
  mc_pos := by decide
  nc_pos := by decide
  kc_pos := by decide
  mc_even := by decide
  nc_even := by decide
  matA := by
    intro i j hi hj
    have h1 : i < 1 := hi
    have h2 : j < 1 := hj
    exact readQ_memOf (by omega) (by omega)
  matB := by
    intro i j hi hj
    have h1 : i < 1 := hi
    have h2 : j < 1 := hj
    exact readQ_memOf (by omega) (by omega)
  matC := by
    intro i j hi hj
    exact readQ_memOf (by omega) (by omega)
  lda := by decide
  ldb := by decide
  ldc := by decide
  apartA := by
    rintro a ⟨i, j, hi, hj, h⟩ ⟨i', j', hi', hj', h'⟩
    have h1 : i < 1 := hi
    have h2 : j < 1 := hj
    unfold InQ at *; omega
  apartB := by
    rintro a ⟨i, j, hi, hj, h⟩ ⟨i', j', hi', hj', h'⟩
    have h1 : i < 1 := hi
    have h2 : j < 1 := hj
    unfold InQ at *; omega
  alignB := by decide
  alignA := by decide
  freshB := by
    intro a ha
    unfold InBuf at ha; unfold memOf
    rw [if_neg (by omega)]
  freshA := by
    intro a ha
    unfold InBuf at ha; unfold memOf
    rw [if_neg (by omega)]
  freshAB := by
    intro a h1 h2
    have e1 : fixMod ((64:Int) * 64) 32 = 4096 := by decide
    have e2 : fixMod ((64:Int) * 512) 32 = 32768 := by decide
    simp only [InBuf] at h1 h2
    omega
  kc32 := by unfold Fits32; decide
  m32 := by unfold Fits32; decide
  n32 := by unfold Fits32; decide
  k32 := by unfold Fits32; decide
  ldc32 := by unfold Fits32; decide
  ldcN32 := by unfold Fits32; decide
  ldbN32 := by unfold Fits32; decide
  ldbK32 := by unfold Fits32; decide
  ldaM32 := by unfold Fits32; decide
  ldaK32 := by unfold Fits32; decide

/-- `b a`. -/
theorem trans_example2 {F : Type} [Arith F] (f : Int → F) :
    GemmPre (memOf 0 16 f) ⟨64, 512, 64⟩ 1000 200000 'T' 'T' 1 1 1
      4 1 (fun i j => let p : Int := 4 + 4 * (i + j * 1); ⟨f p, f (p+1), f (p+2), f (p+3)⟩)
      0 1 (fun i j => let p : Int := 0 + 4 * (i + j * 1); ⟨f p, f (p+1), f (p+2), f (p+3)⟩)
      12 1 (fun i j => let p : Int := 12 + 4 * (i + j * 1); ⟨f p, f (p+1), f (p+2), f (p+3)⟩) where
  mc_pos := by decide
  nc_pos := by decide
  kc_pos := by decide
  mc_even := by decide
  nc_even := by decide
  matA := by
    intro i j hi hj
    have h1 : i < 1 := hi
    have h2 : j < 1 := hj
    exact readQ_memOf (by omega) (by omega)
  matB := by
    intro i j hi hj
    have h1 : i < 1 := hi
    have h2 : j < 1 := hj
    exact readQ_memOf (by omega) (by omega)
  matC := by
    intro i j hi hj
    exact readQ_memOf (by omega) (by omega)
  lda := by decide
  ldb := by decide
  ldc := by decide
  apartA := by
    rintro a ⟨i, j, hi, hj, h⟩ ⟨i', j', hi', hj', h'⟩
    have h1 : i < 1 := hi
    have h2 : j < 1 := hj
    unfold InQ at *; omega
  apartB := by
    rintro a ⟨i, j, hi, hj, h⟩ ⟨i', j', hi', hj', h'⟩
    have h1 : i < 1 := hi
    have h2 : j < 1 := hj
    unfold InQ at *; omega
  alignB := by decide
  alignA := by decide
  freshB := by
    intro a ha
    unfold InBuf at ha; unfold memOf
    rw [if_neg (by omega)]
  freshA := by
    intro a ha
    unfold InBuf at ha; unfold memOf
    rw [if_neg (by omega)]
  freshAB := by
    intro a h1 h2
    have e1 : fixMod ((64:Int) * 64) 32 = 4096 := by decide
    have e2 : fixMod ((64:Int) * 512) 32 = 32768 := by decide
    simp only [InBuf] at h1 h2
    omega
  kc32 := by unfold Fits32; decide
  m32 := by unfold Fits32; decide
  n32 := by unfold Fits32; decide
  k32 := by unfold Fits32; decide
  ldc32 := by unfold Fits32; decide
  ldcN32 := by unfold Fits32; decide
  ldbN32 := by unfold Fits32; decide
  ldbK32 := by unfold Fits32; decide
  ldaM32 := by unfold Fits32; decide
  ldaK32 := by unfold Fits32; decide

/-- Two blocks, 2 rows and 1 row, in the order second, first. -/
example (ALPHA BETA : Scal Int) : ∃ m', gemmAVX ⟨64, 512, 64⟩ 1000 200000 (fun _ => 0) 'C' 'N' 3 1 2 ALPHA 0 2 24 2 BETA 40 4
      (memOf 0 100 (fun a => a)) = .ok ((), m') ∧
    gemmTiles ⟨64, 512, 64⟩ 1000 200000 'C' 'N' 2 ALPHA 0 2 24 2 BETA 40 4
      [(fun _ => 5, ⟨2, 1, 0, 1⟩), (fun a => a, ⟨0, 2, 0, 1⟩)] (memOf 0 100 (fun a => a)) = .ok ((), m') :=
  C45_tiles _ _ _ _ _ 'C' 'N' 3 1 2 ALPHA BETA 0 2 24 2 40 4 _ _ _ (adj_example1 _) _
    (by intro t ht; simp only [List.mem_cons, List.not_mem_nil, or_false] at ht; rcases ht with rfl | rfl <;> decide)
    (by
      intro i j hi hj
      obtain rfl : j = 0 := by omega
      have : i = 0 ∨ i = 1 ∨ i = 2 := by omega
      rcases this with rfl | rfl | rfl <;> rfl)

example (ALPHA BETA : Scal Int) : ∃ m1 m2,
    gemmAVX ⟨64, 512, 64⟩ 1000 200000 (fun _ => 1) 'C' 'N' 3 1 1 ALPHA 0 2 24 2 BETA 40 4 (memOf 0 100 (fun a => a)) = .ok ((), m1) ∧
    gemmAVX ⟨64, 512, 64⟩ 1000 200000 (fun _ => 2) 'C' 'N' 3 1 1 ALPHA 4 2 28 2 (.d 1) 40 4 m1 = .ok ((), m2) ∧
    gemmAVX ⟨64, 512, 64⟩ 1000 200000 (fun _ => 0) 'C' 'N' 3 1 2 ALPHA 0 2 24 2 BETA 40 4 (memOf 0 100 (fun a => a)) = .ok ((), m2) :=
  C45_split_inner (memOf 0 100 (fun a => a)) _ _ _ (fun _ => 0) (fun _ => 1) (fun _ => 2) 'C' 'N' 3 1 1 1 ALPHA BETA 0 2 24 2 40 4 _ _ _
    (adj_example1 (fun a => a))

/-- C and D are zero, A and B arbitrary. -/
example (f : Int → Int) (hf : ∀ a, 40 ≤ a → a < 100 → f a = 0) : ∃ m1 m2,
    gemmAVX ⟨64, 512, 64⟩ 1000 200000 (fun _ => 0) 'C' 'N' 3 1 2 (.d 5) 0 2 24 2 (.d 7) 40 4 (memOf 0 100 f) = .ok ((), m1) ∧
    gemmAVX ⟨64, 512, 64⟩ 1000 200000 (fun _ => 0) 'C' 'N' 1 3 2 (.d 5) 24 2 0 2 (.d 7) 60 1 (memOf 0 100 f) = .ok ((), m2) ∧
    ∀ i j : Nat, i < 3 → j < 1 → ∃ p q, readQ m1 (40 + 4 * (i + j * 4)) = some p ∧
      readQ m2 (60 + 4 * (j + i * 1)) = some q ∧ q.toH = star p.toH :=
  C45_adjoint (memOf 0 100 f) _ _ _ (fun _ => 0) (fun _ => 0) 'C' 'N' (by decide) (by decide) 3 1 2 5 7 0 2 24 2 40 4 60 1 _ _ _ _
    (adj_example1 f) (adj_example2 f)
    (by
      intro i j hi hj
      have z : ∀ a : Int, 40 ≤ a ∧ a < 100 → f a = 0 := fun a ha => hf a ha.1 ha.2
      ext <;> simp (disch := omega) [Quat.toH, z] <;> rfl)

/-- `i * j ≠ j * i`. -/
example : ∃ m1 m2 p q,
    gemmAVX (F := Int) ⟨64, 512, 64⟩ 1000 200000 (fun _ => 0) 'N' 'N' 1 1 1 (.d 1) 0 1 4 1 (.d 0) 8 1
      (memOf 0 16 (fun a => if a = 1 ∨ a = 6 then 1 else 0)) = .ok ((), m1) ∧
    gemmAVX ⟨64, 512, 64⟩ 1000 200000 (fun _ => 0) 'T' 'T' 1 1 1 (.d 1) 4 1 0 1 (.d 0) 12 1
      (memOf 0 16 (fun a => if a = 1 ∨ a = 6 then 1 else 0)) = .ok ((), m2) ∧
    readQ m1 8 = some p ∧ readQ m2 12 = some q ∧ p ≠ q :=
  C45_no_transpose_rule _ _ _ _ (fun _ => 0) (fun _ => 0) 0 1 4 1 8 1 12 1 _ _ _ _ (trans_example1 _) (trans_example2 _)
    (by
      intro e
      have := congrArg QuaternionAlgebra.imK e
      exact absurd this (by decide))

end Haxx
