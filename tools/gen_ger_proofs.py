#!/usr/bin/env python3
"""Writes lean/Verif/FGerPf.lean: correctness proofs of the generated Fortran rank-one updates."""
import re, os
ROOT = os.path.join(os.path.dirname(os.path.abspath(__file__)), '..', 'lean', 'Verif')
TY = {'d': 'R', 'z': 'Cplx R', 'h': 'Quat R'}
src = open(f'{ROOT}/FGer.lean').read()
o = []
w = o.append
w('''import Verif.FGerLemmas
import Mathlib.Tactic.Ring

/-!
# Correctness of the Fortran rank-one updates (written by `tools/gen_ger_proofs.py`)
-/

set_option linter.unusedSimpArgs false
set_option linter.unusedSectionVars false
set_option linter.unusedVariables false
set_option linter.unusedTactic false
set_option linter.unreachableTactic false

namespace Haxx
open Arith Quaternion Finset

variable {R : Type} [CommRing R] [DecidableEq R]
''')
RD = 'el3c_1, el3c_2, el2c_1, el2c_2, wp_bind, wp_pure'
def rd(*hs):
    s = RD
    for h in hs: s += f', wp_rdC_lo {h}, wp_rdC_hi {h}'
    return s
WC = ('wp_wrC_lo hC, wp_wrC_hi hC, wp_wrC_lo (readQ_writeQ_same _ _ _), wp_wrC_hi (readQ_writeQ_same _ _ _), '
      'wp_rdC_lo (readQ_writeQ_same _ _ _), wp_rdC_hi (readQ_writeQ_same _ _ _), writeQ_writeQ')
for kind in 'uc':
    for a in 'dzh':
        n = f'hger{kind}{a}'
        ifs = re.findall(rf'^def ({n}_if\d+) ', src, re.M)
        colU, colS, drv = ifs
        Y = 'yq.toH' if kind == 'u' else 'star yq.toH'
        Yj = '(y j).toH' if kind == 'u' else 'star (y j).toH'
        al = f'(Scal.{a} ALPHA).toH'
        for (col, lab, strided) in ((colU, '10', False), (colS, '30', True)):
            if strided and a == 'd': continue
            idx = 'KX + (i:Int) * INCX' if strided else '(i:Int) + 1'
            extra = 'INCX KX ' if strided else ''
            args = 'A ALPHA INCX (j+1) JY KX LDA M X Y' if strided else 'A ALPHA (j+1) JY LDA M X Y'
            w(f'''theorem {col}_wp {{K : Mem R → Prop}} {{m : Mem R}} {{M A LDA X Y JY {extra}: Int}} {{j : Nat}} {{ALPHA : {TY[a]}}}
    {{x c : Nat → Quat R}} {{yq : Quat R}} (hy : readQ m (Y + 4 * (JY - 1)) = some yq)
    (hx : ∀ m (i : Nat), K m → i < M.toNat → readQ m (X + 4 * ({idx} - 1)) = some (x i))
    (hdisj : ∀ i i', i < M.toNat → i' < M.toNat → i ≠ i' →
      QDisj (A + 4 * ((i:Int) + j * LDA)) (A + 4 * ((i':Int) + j * LDA)))
    (hst : ∀ m i q, i < M.toNat → K m → K (writeQ m (A + 4 * ((i:Int) + j * LDA)) q))
    (hU : Upd K (fun i => A + 4 * ((i:Int) + j * LDA)) M.toNat m c m) :
    wp ({col} {args}) m (fun _ m' =>
      Upd K (fun i => A + 4 * ((i:Int) + j * LDA)) M.toNat m
        (fun i => Quat.ofH ((c i).toH + {al} * (x i).toH * {Y})) m') := by
  unfold {col}
  simp only [{rd('hy')}, wp_ite]
  split''')
            if strided:
                w(f'''  · refine wp_mono (wp_pass (fun i => KX + (i:Int) * INCX) (by simp) hdisj hst hU
      (c' := fun i => Quat.ofH ((c i).toH + {al} * (x i).toH * {Y})) ?_) (fun _ _ h => h.2)
    intro i m hi hk hC
    have hX := hx m i hk hi
    have hX' : ∀ q, readQ (writeQ m (A + 4 * ((i:Int) + j * LDA)) q) (X + 4 * ({idx} - 1)) = some (x i) :=
      fun q => hx _ i (hst m i q hi hk) hi
    unfold {n}_{lab}_I
    simp only [{rd('hX', "(hX' _)", 'hC')}, {WC}]
    refine ⟨by push_cast; ring, congrArg (writeQ m _) (eq_ofH ?_)⟩
    ext <;> simp [Scal.toH] <;> ring''')
            else:
                w(f'''  · refine wp_passU hdisj hst hU ?_
    intro i m hi hk hC
    have hX := hx m i hk hi
    have hX' : ∀ q, readQ (writeQ m (A + 4 * ((i:Int) + j * LDA)) q) (X + 4 * ({idx} - 1)) = some (x i) :=
      fun q => hx _ i (hst m i q hi hk) hi
    unfold {n}_{lab}_I
    simp only [{rd('hX', "(hX' _)", 'hC')}, {WC}]
    refine congrArg (writeQ m _) (eq_ofH ?_)
    ext <;> simp [Scal.toH] <;> ring''')
            w(f'''  · rename_i h
    rw [feq_zero_toH h]
    simpa using hU
''')
        # driver
        hyp = '' if a != 'd' else '(h1 : INCX = 1) '
        w(f'''theorem {n}_wp {{K : Mem R → Prop}} {{m : Mem R}} {{M N A LDA X INCX Y INCY : Int}} {{ALPHA : {TY[a]}}}
    {{x y : Nat → Quat R}} {{c : Nat → Nat → Quat R}} {hyp}
    (env : GerEnv K (fbase X M INCX) INCX M.toNat x (fbase Y N INCY) INCY N.toNat y A LDA)
    (hk : K m) (hA : MatAt m A LDA M.toNat N.toNat c) :
    wp ({n} M N ALPHA X INCX Y INCY A LDA) m (fun _ m' => GPost K m A LDA M.toNat N.toNat
      (fun i j => Quat.ofH ((c i j).toH + {al} * (x i).toH * {Yj})) m') := by
  unfold {n}
  dsimp only
  rw [wp_ite]
  split
  · rename_i h
    rw [wp_pure]
    simp only [Bool.or_eq_true, decide_eq_true_eq] at h
    refine ⟨?_, hk, fun _ _ => rfl⟩
    intro i j hi hj
    rcases h with (rfl | rfl) | h
    · simp at hi
    · simp at hj
    · have hz : {al} = 0 := by
        rw [← allZero_iff]
        simp [Cplx.feq, Quat.lo, Quat.hi] at h
        simp [Scal.allZero, h]
      rw [hA i j hi hj, hz]
      simp
  · rw [wp_bind, wp_fstart, wp_bind]
    unfold {drv}
    rw [wp_ite]
    split
    · rename_i h
      rw [decide_eq_true_eq] at h
      subst h
      rw [wp_bind]
      have key := wp_cols (K := K) (m0 := m) (addr := fun i j => A + 4 * ((i:Int) + j * LDA)) (M := M.toNat)
        (N := N.toNat) (c := c) (c' := fun i j => Quat.ofH ((c i j).toH + {al} * (x i).toH * {Yj}))
        (f := fun i s => {n}_20_J A ALPHA INCY LDA M X Y ((i : Int) + 1) s)
        (s0 := if INCY > 0 then 1 else 1 - (N - 1) * INCY)
        (fun j => (if INCY > 0 then 1 else 1 - (N - 1) * INCY) + (j:Int) * INCY) (by simp) env.disj hk hA ?_
      · refine wp_mono key ?_
        intro _ m' h
        simp only [wp_pure]
        exact h
      · intro j m hj hU
        unfold {n}_20_J
        rw [wp_bind]
        refine wp_mono ({colU}_wp (x := x) (yq := y j) ?_ ?_ ?_ ?_ hU) ?_
        · rw [fstart]; exact env.rdY m hU.k j hj
        · intro m i hk hi
          have := env.rdX m hk i hi
          rw [fbase_one] at this
          rw [← this]
          congr 1
          ring
        · exact fun i i' hi hi' hne => env.disj i j i' j hi hi' (fun e => hne e.1)
        · exact fun m i q hi hk => env.stable m i j q hi hj hk
        · intro _ m' h
          simp only [wp_pure]
          exact ⟨by push_cast; ring, h⟩''')
        if a == 'd':
            w('''    · rename_i h
      exact absurd h1 (by simpa using h)
''')
        else:
            w(f'''    · rw [wp_bind, wp_fstart, wp_bind]
      have key := wp_cols (K := K) (m0 := m) (addr := fun i j => A + 4 * ((i:Int) + j * LDA)) (M := M.toNat)
        (N := N.toNat) (c := c) (c' := fun i j => Quat.ofH ((c i j).toH + {al} * (x i).toH * {Yj}))
        (f := fun i s => {n}_40_J A ALPHA INCX INCY (if INCX > 0 then 1 else 1 - (M - 1) * INCX) LDA M X Y ((i : Int) + 1) s)
        (s0 := if INCY > 0 then 1 else 1 - (N - 1) * INCY)
        (fun j => (if INCY > 0 then 1 else 1 - (N - 1) * INCY) + (j:Int) * INCY) (by simp) env.disj hk hA ?_
      · refine wp_mono key ?_
        intro _ m' h
        simp only [wp_pure]
        exact h
      · intro j m hj hU
        unfold {n}_40_J
        rw [wp_bind]
        refine wp_mono ({colS}_wp (x := x) (yq := y j) ?_ ?_ ?_ ?_ hU) ?_
        · rw [fstart]; exact env.rdY m hU.k j hj
        · intro m i hk hi
          rw [fstart]; exact env.rdX m hk i hi
        · exact fun i i' hi hi' hne => env.disj i j i' j hi hi' (fun e => hne e.1)
        · exact fun m i q hi hk => env.stable m i j q hi hj hk
        · intro _ m' h
          simp only [wp_pure]
          exact ⟨by push_cast; ring, h⟩
''')
w('end Haxx')
open(f'{ROOT}/FGerPf.lean', 'w').write('\n'.join(o) + '\n')
