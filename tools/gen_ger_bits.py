#!/usr/bin/env python3
"""Writes lean/Verif/FGerBits.lean: the generated Fortran rank-one updates compute `fGer` (FBits.lean) bit for bit, over
any arithmetic.  Same loops as gen_ger_proofs.py."""
import re, os
ROOT = os.path.join(os.path.dirname(os.path.abspath(__file__)), '..', 'lean', 'Verif')
TY = {'d': 'F', 'z': 'Cplx F', 'h': 'Quat F'}
src = open(f'{ROOT}/FGer.lean').read()
o = []
w = o.append
w('''import Verif.FGerLemmas
import Verif.FBits
import Mathlib.Tactic.Ring

/-!
# The Fortran rank-one updates, bit for bit (written by `tools/gen_ger_bits.py`)
-/

set_option linter.unusedSimpArgs false
set_option linter.unusedSectionVars false
set_option linter.unusedVariables false
set_option linter.unusedTactic false
set_option linter.unreachableTactic false

namespace Haxx
open Arith

variable {F : Type} [Arith F] [ArithEq F]
''')
RD = 'el3c_1, el3c_2, el2c_1, el2c_2, wp_bind, wp_pure'
def rd(*hs):
    s = RD
    for h in hs: s += f', wp_rdC_lo {h}, wp_rdC_hi {h}'
    return s
WC = ('wp_wrC_lo hC, wp_wrC_hi hC, wp_wrC_lo (readQ_writeQ_same _ _ _), wp_wrC_hi (readQ_writeQ_same _ _ _), '
      'wp_rdC_lo (readQ_writeQ_same _ _ _), wp_rdC_hi (readQ_writeQ_same _ _ _), writeQ_writeQ')
w('''theorem fIsZero_not (q : Quat F) : ((!(Cplx.feq q.lo (⟨zero, zero⟩ : Cplx F))) ||
    (!(Cplx.feq q.hi (⟨zero, zero⟩ : Cplx F)))) = !q.fIsZero := by
  unfold Quat.fIsZero
  rw [Bool.not_and]
''')
for kind in 'uc':
    for a in 'dzh':
        n = f'hger{kind}{a}'
        ifs = re.findall(rf'^def ({n}_if\d+) ', src, re.M)
        colU, colS, drv = ifs
        Y = 'yq.toH' if kind == 'u' else 'star yq.toH'
        Yj = '(y j).toH' if kind == 'u' else 'star (y j).toH'
        al = f'(.{a} ALPHA)'; t = '.N' if kind == 'u' else '.C'
        for (col, lab, strided) in ((colU, '10', False), (colS, '30', True)):
            if strided and a == 'd': continue
            idx = 'KX + (i:Int) * INCX' if strided else '(i:Int) + 1'
            extra = 'INCX KX ' if strided else ''
            args = 'A ALPHA INCX (j+1) JY KX LDA M X Y' if strided else 'A ALPHA (j+1) JY LDA M X Y'
            w(f'''theorem {col}_bits {{K : Mem F → Prop}} {{m : Mem F}} {{M A LDA X Y JY {extra}: Int}} {{j : Nat}} {{ALPHA : {TY[a]}}}
    {{x c : Nat → Quat F}} {{yq : Quat F}} (hy : readQ m (Y + 4 * (JY - 1)) = some yq)
    (hx : ∀ m (i : Nat), K m → i < M.toNat → readQ m (X + 4 * ({idx} - 1)) = some (x i))
    (hdisj : ∀ i i', i < M.toNat → i' < M.toNat → i ≠ i' →
      QDisj (A + 4 * ((i:Int) + j * LDA)) (A + 4 * ((i':Int) + j * LDA)))
    (hst : ∀ m i q, i < M.toNat → K m → K (writeQ m (A + 4 * ((i:Int) + j * LDA)) q))
    (hU : Upd K (fun i => A + 4 * ((i:Int) + j * LDA)) M.toNat m c m) :
    wp ({col} {args}) m (fun _ m' =>
      Upd K (fun i => A + 4 * ((i:Int) + j * LDA)) M.toNat m
        (fun i => if yq.fIsZero then c i else fStep {al} {t} (x i) yq (c i)) m') := by
  unfold {col}
  simp only [{rd('hy')}, wp_ite, fIsZero_not]
  cases yq.fIsZero
  · simp only [Bool.not_false, if_true, Bool.false_eq_true, if_false]''')
            if strided:
                w(f'''    refine wp_mono (wp_pass (fun i => KX + (i:Int) * INCX) (by simp) hdisj hst hU
      (c' := fun i => fStep {al} {t} (x i) yq (c i)) ?_) (fun _ _ h => h.2)
    intro i m hi hk hC
    have hX := hx m i hk hi
    have hX' : ∀ q, readQ (writeQ m (A + 4 * ((i:Int) + j * LDA)) q) (X + 4 * ({idx} - 1)) = some (x i) :=
      fun q => hx _ i (hst m i q hi hk) hi
    unfold {n}_{lab}_I
    simp only [{rd('hX', "(hX' _)", 'hC')}, {WC}]
    exact ⟨by push_cast; ring, rfl⟩''')
            else:
                w(f'''    refine wp_passU hdisj hst hU ?_
    intro i m hi hk hC
    have hX := hx m i hk hi
    have hX' : ∀ q, readQ (writeQ m (A + 4 * ((i:Int) + j * LDA)) q) (X + 4 * ({idx} - 1)) = some (x i) :=
      fun q => hx _ i (hst m i q hi hk) hi
    unfold {n}_{lab}_I
    simp only [{rd('hX', "(hX' _)", 'hC')}, {WC}]
    rfl''')
            w(f'''  · simp only [Bool.not_true, Bool.false_eq_true, if_false, wp_pure, if_true]
    exact hU
''')
        # driver
        hyp = '' if a != 'd' else '(h1 : INCX = 1) '
        w(f'''theorem {n}_bits {{K : Mem F → Prop}} {{m : Mem F}} {{M N A LDA X INCX Y INCY : Int}} {{ALPHA : {TY[a]}}}
    {{x y : Nat → Quat F}} {{c : Nat → Nat → Quat F}} {hyp}
    (env : GerEnv K (fbase X M INCX) INCX M.toNat x (fbase Y N INCY) INCY N.toNat y A LDA)
    (hk : K m) (hA : MatAt m A LDA M.toNat N.toNat c) :
    wp ({n} M N ALPHA X INCX Y INCY A LDA) m (fun _ m' => GPost K m A LDA M.toNat N.toNat
      (fun i j => fGer {t} {al} (x i) (y j) (c i j)) m') := by
  unfold {n}
  dsimp only
  rw [wp_ite]
  split
  · rename_i h
    rw [wp_pure]
    simp only [Bool.or_eq_true, decide_eq_true_eq] at h
    refine ⟨?_, hk, fun _ _ => rfl⟩
    intro i j hi hj
    rcases h with (rfl | rfl) | h
    · simp at hi
    · simp at hj
    · have hz : Scal.gIsZero {al} = true := by
        simpa [Scal.gIsZero] using h
      rw [hA i j hi hj]
      simp [fGer, hz]
  · rename_i hz
    simp only [Bool.or_eq_true, not_or] at hz
    have hz : Scal.gIsZero {al} = false := by
      have := hz.2
      simpa [Scal.gIsZero] using this
    simp only [fGer, hz, Bool.false_or]
    rw [wp_bind, wp_fstart, wp_bind]
    unfold {drv}
    rw [wp_ite]
    split
    · rename_i h
      rw [decide_eq_true_eq] at h
      subst h
      rw [wp_bind]
      have key := wp_cols (K := K) (m0 := m) (addr := fun i j => A + 4 * ((i:Int) + j * LDA)) (M := M.toNat)
        (N := N.toNat) (c := c) (c' := fun i j => if (y j).fIsZero then c i j else fStep {al} {t} (x i) (y j) (c i j))
        (f := fun i s => {n}_20_J A ALPHA INCY LDA M X Y ((i : Int) + 1) s)
        (s0 := if INCY > 0 then 1 else 1 - (N - 1) * INCY)
        (fun j => (if INCY > 0 then 1 else 1 - (N - 1) * INCY) + (j:Int) * INCY) (by simp) env.disj hk hA ?_
      · refine wp_mono key ?_
        intro _ m' h
        simp only [wp_pure]
        exact h
      · intro j m hj hU
        unfold {n}_20_J
        rw [wp_bind]
        refine wp_mono ({colU}_bits (x := x) (yq := y j) ?_ ?_ ?_ ?_ hU) ?_
        · rw [fstart]; exact env.rdY m hU.k j hj
        · intro m i hk hi
          have := env.rdX m hk i hi
          rw [fbase_one] at this
          rw [← this]
          congr 1
          ring
        · exact fun i i' hi hi' hne => env.disj i j i' j hi hi' (fun e => hne e.1)
        · exact fun m i q hi hk => env.stable m i j q hi hj hk
        · intro _ m' h
          simp only [wp_pure]
          exact ⟨by push_cast; ring, h⟩''')
        if a == 'd':
            w('''    · rename_i h
      exact absurd h1 (by simpa using h)
''')
        else:
            w(f'''    · rw [wp_bind, wp_fstart, wp_bind]
      have key := wp_cols (K := K) (m0 := m) (addr := fun i j => A + 4 * ((i:Int) + j * LDA)) (M := M.toNat)
        (N := N.toNat) (c := c) (c' := fun i j => if (y j).fIsZero then c i j else fStep {al} {t} (x i) (y j) (c i j))
        (f := fun i s => {n}_40_J A ALPHA INCX INCY (if INCX > 0 then 1 else 1 - (M - 1) * INCX) LDA M X Y ((i : Int) + 1) s)
        (s0 := if INCY > 0 then 1 else 1 - (N - 1) * INCY)
        (fun j => (if INCY > 0 then 1 else 1 - (N - 1) * INCY) + (j:Int) * INCY) (by simp) env.disj hk hA ?_
      · refine wp_mono key ?_
        intro _ m' h
        simp only [wp_pure]
        exact h
      · intro j m hj hU
        unfold {n}_40_J
        rw [wp_bind]
        refine wp_mono ({colS}_bits (x := x) (yq := y j) ?_ ?_ ?_ ?_ hU) ?_
        · rw [fstart]; exact env.rdY m hU.k j hj
        · intro m i hk hi
          rw [fstart]; exact env.rdX m hk i hi
        · exact fun i i' hi hi' hne => env.disj i j i' j hi hi' (fun e => hne e.1)
        · exact fun m i q hi hk => env.stable m i j q hi hj hk
        · intro _ m' h
          simp only [wp_pure]
          exact ⟨by push_cast; ring, h⟩
''')
w('end Haxx')
open(f'{ROOT}/FGerBits.lean', 'w').write('\n'.join(o) + '\n')
