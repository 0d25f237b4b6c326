#!/usr/bin/env python3
"""Writes lean/Verif/FGemmPf<v>.lean: correctness proofs of the generated Fortran GEMM models.
The nine variants have the same loop structure, so one template serves all."""
import re, os
ROOT = os.path.join(os.path.dirname(os.path.abspath(__file__)), '..', 'lean', 'Verif')
TY = {'d': 'R', 'z': 'Cplx R', 'h': 'Quat R'}

RW = '''el3c_1, el3c_2, wp_bind, wp_pure'''
def rw(*hs):
    s = RW
    for h in hs: s += f', wp_rdC_lo {h}, wp_rdC_hi {h}'
    return s
WC = ('wp_wrC_lo hC, wp_wrC_hi hC, wp_wrC_lo (readQ_writeQ_same _ _ _), wp_wrC_hi (readQ_writeQ_same _ _ _), '
      'wp_rdC_lo (readQ_writeQ_same _ _ _), wp_rdC_hi (readQ_writeQ_same _ _ _), writeQ_writeQ')
FIN = 'ext <;> simp [Scal.toH] <;> ring'

def gen(v):
    src = open(f'{ROOT}/FGemm{v}.lean').read()
    ifs = re.findall(rf'^def (hgemm{v}_if\d+) ', src, re.M)
    azero, bNN, ifN, bNC, bNT, ifA, ifC, ifT, top = ifs
    a, b = v
    n = f'hgemm{v}'
    o = []
    w = o.append
    w(f'''import Verif.FGemmLemmas
import Verif.FGemm{v}
import Mathlib.Tactic.Ring

/-!
# Correctness of `{n}` (written by `tools/gen_gemm_proofs.py`)
-/

set_option linter.unusedSimpArgs false
set_option linter.unusedSectionVars false
set_option linter.unusedVariables false
set_option linter.unusedTactic false
set_option linter.unreachableTactic false

namespace Haxx
open Arith Quaternion Finset

variable {{R : Type}} [CommRing R] [DecidableEq R]
''')
    # zero / scale element bodies
    for l in ('10', '40', '130', '180'):
        w(f'''theorem {n}_{l}_I_wp {{m : Mem R}} {{C LDC : Int}} {{i j : Nat}} {{c : Quat R}}
    (hC : readQ m (C + 4 * ((i:Int) + j * LDC)) = some c) :
    wp ({n}_{l}_I C (j+1) LDC (i+1)) m (fun _ m' =>
      m' = writeQ m (C + 4 * (i + j * LDC)) (Quat.ofH 0)) := by
  unfold {n}_{l}_I
  simp only [{rw('hC')}, {WC}]
  rfl
''')
    for l in ('20', '50', '140', '190'):
        w(f'''theorem {n}_{l}_I_wp {{m : Mem R}} {{C LDC : Int}} {{i j : Nat}} {{c : Quat R}} {{BETA : {TY[b]}}}
    (hC : readQ m (C + 4 * ((i:Int) + j * LDC)) = some c) :
    wp ({n}_{l}_I BETA C (j+1) LDC (i+1)) m (fun _ m' =>
      m' = writeQ m (C + 4 * (i + j * LDC)) (Quat.ofH ((Scal.{b} BETA).toH * c.toH))) := by
  unfold {n}_{l}_I
  simp only [{rw('hC')}, {WC}]
  refine congrArg (writeQ m _) (eq_ofH ?_)
  {FIN}
''')
    for (nm, z, s) in ((bNN, '40', '50'), (bNC, '130', '140'), (bNT, '180', '190')):
        w(f'''theorem {nm}_wp {{K : Mem R → Prop}} {{m0 m : Mem R}} {{M : Int}} {{C LDC : Int}} {{j : Nat}}
    {{c : Nat → Quat R}} {{BETA : {TY[b]}}} {{BONE BZERO : Bool}}
    (hz : BZERO = true → (Scal.{b} BETA).toH = 0) (ho : BONE = true → (Scal.{b} BETA).toH = 1)
    (hdisj : ∀ i i', i < M.toNat → i' < M.toNat → i ≠ i' →
      QDisj (C + 4 * ((i:Int) + j * LDC)) (C + 4 * ((i':Int) + j * LDC)))
    (hst : ∀ m i q, i < M.toNat → K m → K (writeQ m (C + 4 * ((i:Int) + j * LDC)) q))
    (hU : Upd K (fun i => C + 4 * ((i:Int) + j * LDC)) M.toNat m0 c m) :
    wp ({nm} BETA BONE BZERO C (j+1) LDC M) m (fun _ m' =>
      Upd K (fun i => C + 4 * ((i:Int) + j * LDC)) M.toNat m0
        (fun i => Quat.ofH ((Scal.{b} BETA).toH * (c i).toH)) m') := by
  unfold {nm}
  rw [wp_ite]
  split
  · rename_i h
    rw [hz h]
    simp only [wp_bind, wp_pure, zero_mul]
    refine wp_passU hdisj hst hU ?_
    intro i m _ _ hc
    exact {n}_{z}_I_wp hc
  · rw [wp_ite]
    split
    · simp only [wp_bind, wp_pure]
      refine wp_passU hdisj hst hU ?_
      intro i m _ _ hc
      exact {n}_{s}_I_wp hc
    · rename_i h
      rw [ho (by simpa using h), wp_pure]
      simpa using hU
''')
    # type A nests
    def sp(which, i, j, op):
        return {'N': f'(({which} {i} {j}).toH)', 'T': f'(({which} {j} {i}).toH)', 'C': f'(star ({which} {j} {i}).toH)'}[op]
    for (tb, J, bnm, L, I) in (('N', '30', bNN, '60', '70'), ('C', '120', bNC, '150', '160'), ('T', '170', bNT, '200', '210')):
        rB, cB = ('K.toNat', 'N.toNat') if tb == 'N' else ('N.toNat', 'K.toNat')
        bi, bj = ('l', 'j') if tb == 'N' else ('j', 'l')
        hb = f'env.rdB m hU.k {bi} {bj}' + (' hl hj' if tb == 'N' else ' hj hl')
        w(f'''theorem {n}_{J}_J_wp {{Kp : Mem R → Prop}} {{m : Mem R}} {{M N K : Int}} {{A LDA B LDB C LDC : Int}}
    {{X Y : Nat → Nat → Quat R}} {{c : Nat → Quat R}} {{ALPHA : {TY[a]}}} {{BETA : {TY[b]}}} {{BONE BZERO : Bool}} {{j : Nat}}
    (env : GEnv Kp A LDA M.toNat K.toNat X B LDB {rB} {cB} Y C LDC M.toNat N.toNat)
    (hz : BZERO = true → (Scal.{b} BETA).toH = 0) (ho : BONE = true → (Scal.{b} BETA).toH = 1) (hj : j < N.toNat)
    (hU : Upd Kp (fun i => C + 4 * ((i:Int) + j * LDC)) M.toNat m c m) :
    wp ({n}_{J}_J A ALPHA B BETA BONE BZERO C K LDA LDB LDC M (j+1)) m (fun _ m' =>
      Upd Kp (fun i => C + 4 * ((i:Int) + j * LDC)) M.toNat m
        (fun i => Quat.ofH (gemmSpec (Scal.{a} ALPHA).toH (Scal.{b} BETA).toH K.toNat (fun k => {sp('X', 'i', 'k', 'N')})
          (fun k => {sp('Y', 'k', 'j', tb)}) (c i).toH)) m') := by
  have hd : ∀ i i', i < M.toNat → i' < M.toNat → i ≠ i' →
      QDisj (C + 4 * ((i:Int) + j * LDC)) (C + 4 * ((i':Int) + j * LDC)) :=
    fun i i' hi hi' hne => env.disj i j i' j hi hi' (fun e => hne e.1)
  have hs : ∀ m i q, i < M.toNat → Kp m → Kp (writeQ m (C + 4 * ((i:Int) + j * LDC)) q) :=
    fun m i q hi hk => env.stable m i j q hi hj hk
  unfold {n}_{J}_J
  rw [wp_bind]
  refine wp_mono ({bnm}_wp hz ho hd hs hU) ?_
  intro _ m1 hU1
  rw [wp_bind]
  refine wp_mono (wp_accPass (fun l i => (Scal.{a} ALPHA).toH * ({sp('X', 'i', 'l', 'N')} * {sp('Y', 'l', 'j', tb)})) hU1 ?_) ?_
  · intro l m c hl hU
    have hB := {hb}
    unfold {n}_{L}_L
    simp only [{rw('hB')}]
    refine wp_passU hd hs hU ?_
    intro i m hi hk hC
    have hA := env.rdA m hk i l hi hl
    have hA' := matAt_write env.rdA (fun q => hs m i q hi hk) hi hl
    unfold {n}_{I}_I
    simp only [{rw('hA', "(hA' _)", 'hC')}, {WC}]
    refine congrArg (writeQ m _) (eq_ofH ?_)
    {FIN}
  · intro _ m' h
    rw [wp_pure]
    have e : (fun i => Quat.ofH ((Quat.ofH ((Scal.{b} BETA).toH * (c i).toH)).toH + ∑ l ∈ range K.toNat,
        (Scal.{a} ALPHA).toH * ({sp('X', 'i', 'l', 'N')} * {sp('Y', 'l', 'j', tb)}))) =
      (fun i => Quat.ofH (gemmSpec (Scal.{a} ALPHA).toH (Scal.{b} BETA).toH K.toNat (fun k => {sp('X', 'i', 'k', 'N')})
          (fun k => {sp('Y', 'k', 'j', tb)}) (c i).toH)) := by
      funext i
      rw [toH_ofH, gemmSpec, mul_sum, add_comm]
    rw [e] at h
    exact h
''')
    # type B nests
    for (ta, tb, J, L) in (('C', 'N', '80', '90'), ('T', 'N', '100', '110'), ('C', 'C', '220', '230'), ('C', 'T', '240', '250'),
                           ('T', 'C', '260', '270'), ('T', 'T', '280', '290')):
        rB, cB = ('K.toNat', 'N.toNat') if tb == 'N' else ('N.toNat', 'K.toNat')
        hb = 'env.rdB m hk l j hl hj' if tb == 'N' else 'env.rdB m hk j l hj hl'
        w(f'''theorem {n}_{J}_I_wp {{Kp : Mem R → Prop}} {{m : Mem R}} {{M N K : Int}} {{A LDA B LDB C LDC : Int}}
    {{X Y : Nat → Nat → Quat R}} {{c : Quat R}} {{ALPHA : {TY[a]}}} {{BETA : {TY[b]}}} {{BZERO : Bool}} {{i j : Nat}}
    (env : GEnv Kp A LDA K.toNat M.toNat X B LDB {rB} {cB} Y C LDC M.toNat N.toNat)
    (hz : BZERO = true → (Scal.{b} BETA).toH = 0) (hi : i < M.toNat) (hj : j < N.toNat) (hk : Kp m)
    (hC : readQ m (C + 4 * ((i:Int) + j * LDC)) = some c) :
    wp ({n}_{J}_I A ALPHA B BETA BZERO C (j+1) K LDA LDB LDC (i+1)) m (fun _ m' =>
      m' = writeQ m (C + 4 * (i + j * LDC)) (Quat.ofH (gemmSpec (Scal.{a} ALPHA).toH (Scal.{b} BETA).toH K.toNat
          (fun k => {sp('X', 'i', 'k', ta)}) (fun k => {sp('Y', 'k', 'j', tb)}) c.toH))) := by
  unfold {n}_{J}_I
  simp only [wp_bind]
  refine wp_acc (fun l s => (⟨s.2.re, s.2.im, s.1.re, s.1.im⟩ : Quat R).toH =
    ∑ k ∈ range l, {sp('X', 'i', 'k', ta)} * {sp('Y', 'k', 'j', tb)}) ?_ ?_ ?_
  · simp only [range_zero, sum_empty]; rfl
  · intro l s hl hs
    have hA := env.rdA m hk l i hl hi
    have hB := {hb}
    unfold {n}_{L}_L
    simp only [{rw('hA', 'hB')}]
    refine ⟨trivial, ?_⟩
    rw [sum_range_succ, ← hs]
    {FIN}
  · intro s hs
    unfold gemmSpec
    rw [← hs]
    cases BZERO
    · simp only [Bool.false_eq_true, if_false, {rw('hC')}, {WC}]
      refine congrArg (writeQ m _) (eq_ofH ?_)
      {FIN}
    · rw [hz rfl]
      simp only [if_true, {rw('hC')}, {WC}]
      refine congrArg (writeQ m _) (eq_ofH ?_)
      {FIN}
''')
    # nests
    typeA = {('N', 'N'): '30', ('N', 'C'): '120', ('N', 'T'): '170'}
    typeB = {('C', 'N'): '80', ('T', 'N'): '100', ('C', 'C'): '220', ('C', 'T'): '240', ('T', 'C'): '260', ('T', 'T'): '280'}
    for (ta, tb), J in list(typeA.items()) + list(typeB.items()):
        rA, cA = ('M.toNat', 'K.toNat') if ta == 'N' else ('K.toNat', 'M.toNat')
        rB, cB = ('K.toNat', 'N.toNat') if tb == 'N' else ('N.toNat', 'K.toNat')
        bone = 'BONE ' if ta == 'N' else ''
        prog = f'forN N.toNat (fun i => {n}_{J}_J A ALPHA B BETA {bone}BZERO C K LDA LDB LDC M ((i : Int) + 1))'
        hyp = f' (ho : BONE = true → (Scal.{b} BETA).toH = 1)' if ta == 'N' else ''
        w(f'''theorem {n}_{J}_wp {{Kp : Mem R → Prop}} {{m : Mem R}} {{M N K : Int}} {{A LDA B LDB C LDC : Int}}
    {{X Y c : Nat → Nat → Quat R}} {{ALPHA : {TY[a]}}} {{BETA : {TY[b]}}} {{{'BONE ' if ta == 'N' else ''}BZERO : Bool}}
    (env : GEnv Kp A LDA {rA} {cA} X B LDB {rB} {cB} Y C LDC M.toNat N.toNat)
    (hz : BZERO = true → (Scal.{b} BETA).toH = 0){hyp} (hk : Kp m)
    (hc : MatAt m C LDC M.toNat N.toNat c) :
    wp ({prog}) m
      (fun _ m' => GPost Kp m C LDC M.toNat N.toNat (fun i j => Quat.ofH (gemmSpec (Scal.{a} ALPHA).toH (Scal.{b} BETA).toH
        K.toNat (fun k => {sp('X', 'i', 'k', ta)}) (fun k => {sp('Y', 'k', 'j', tb)}) (c i j).toH)) m') := by''')
        if ta == 'N':
            w(f'''  refine wp_colsU env.disj hk hc ?_
  intro j m hj hU
  exact {n}_{J}_J_wp env hz ho hj hU
''')
        else:
            w(f'''  refine wp_nestU (f := fun j i => {n}_{J}_I A ALPHA B BETA BZERO C ((j:Int)+1) K LDA LDB LDC ((i:Int)+1))
    (fun j => rfl) env.disj env.stable hk hc ?_
  intro i j m hi hj hk hC
  exact {n}_{J}_I_wp env hz hi hj hk hC
''')
    # alpha = 0
    w(f'''theorem {azero}_wp {{Kp : Mem R → Prop}} {{m : Mem R}} {{M N : Int}} {{C LDC : Int}}
    {{c : Nat → Nat → Quat R}} {{BETA : {TY[b]}}} {{BZERO : Bool}}
    (hdisj : ∀ i j i' j' : Nat, i < M.toNat → i' < M.toNat → ¬ (i = i' ∧ j = j') →
      QDisj (C + 4 * (i + j * LDC)) (C + 4 * (i' + j' * LDC)))
    (hst : ∀ m (i j : Nat) q, i < M.toNat → j < N.toNat → Kp m → Kp (writeQ m (C + 4 * (i + j * LDC)) q))
    (hz : BZERO = true → (Scal.{b} BETA).toH = 0) (hk : Kp m) (hc : MatAt m C LDC M.toNat N.toNat c) :
    wp ({azero} BETA BZERO C LDC M N) m
      (fun _ m' => GPost Kp m C LDC M.toNat N.toNat (fun i j => Quat.ofH ((Scal.{b} BETA).toH * (c i j).toH)) m') := by
  unfold {azero}
  rw [wp_ite]
  split
  · rename_i h
    rw [hz h]
    simp only [wp_bind, wp_pure, zero_mul]
    refine wp_nestU (f := fun j i => {n}_10_I C ((j:Int)+1) LDC ((i:Int)+1)) (fun j => rfl) hdisj hst hk hc ?_
    intro i j m _ _ _ hC
    exact {n}_10_I_wp hC
  · simp only [wp_bind, wp_pure]
    refine wp_nestU (f := fun j i => {n}_20_I BETA C ((j:Int)+1) LDC ((i:Int)+1)) (fun j => rfl) hdisj hst hk hc ?_
    intro i j m _ _ _ hC
    exact {n}_20_I_wp hC

''')
    # dispatch
    w(f'''theorem {top}_wp {{Kp : Mem R → Prop}} {{m : Mem R}} {{M N K : Int}} {{A LDA B LDB C LDC : Int}}
    {{X Y c : Nat → Nat → Quat R}} {{ALPHA : {TY[a]}}} {{BETA : {TY[b]}}} {{BONE BZERO : Bool}} {{tA tB : FTrans}}
    (env : GEnv Kp A LDA (tA.rows M.toNat K.toNat) (tA.rows K.toNat M.toNat) X
      B LDB (tB.rows K.toNat N.toNat) (tB.rows N.toNat K.toNat) Y C LDC M.toNat N.toNat)
    (hz : BZERO = true → (Scal.{b} BETA).toH = 0) (ho : BONE = true → (Scal.{b} BETA).toH = 1) (hk : Kp m)
    (hc : MatAt m C LDC M.toNat N.toNat c) :
    wp ({top} A ALPHA B BETA BONE BZERO C (tA == .C) (tB == .C) K LDA LDB LDC M N (tA == .N) (tB == .N)) m
      (fun _ m' => GPost Kp m C LDC M.toNat N.toNat (fun i j => Quat.ofH (gemmSpec (Scal.{a} ALPHA).toH (Scal.{b} BETA).toH
        K.toNat (fun k => tA.op X i k) (fun k => tB.op Y k j) (c i j).toH)) m') := by
  cases tA <;> cases tB''')
    for ta in 'NTC':
        for tb in 'NTC':
            J = {**typeA, **typeB}[(ta, tb)]
            inner = ifN if tb == 'N' else {'N': ifA, 'C': ifC, 'T': ifT}[ta]
            ho = ' ho' if ta == 'N' else ''
            w(f'''  · unfold {top} {inner}
    simp only [ft_NN, ft_TN, ft_CN, ft_NC, ft_TC, ft_CC, if_true, if_false, Bool.false_eq_true, wp_bind, wp_pure]
    exact {n}_{J}_wp env hz{ho} hk hc''')
    w('')
    w(f'''/-- `{n}` computes `ALPHA*op(A)*op(B) + BETA*C`. -/
theorem {n}_wp {{Kp : Mem R → Prop}} {{m : Mem R}} {{TRANSA TRANSB : Char}} {{M N K : Int}} {{A LDA B LDB C LDC : Int}}
    {{X Y c : Nat → Nat → Quat R}} {{ALPHA : {TY[a]}}} {{BETA : {TY[b]}}}
    (hdisj : ∀ i j i' j' : Nat, i < M.toNat → i' < M.toNat → ¬ (i = i' ∧ j = j') →
      QDisj (C + 4 * (i + j * LDC)) (C + 4 * (i' + j' * LDC)))
    (hst : ∀ m (i j : Nat) q, i < M.toNat → j < N.toNat → Kp m → Kp (writeQ m (C + 4 * (i + j * LDC)) q))
    (env : (Scal.{a} ALPHA).toH ≠ 0 → GEnv Kp A LDA ((FTrans.ofChar TRANSA).rows M.toNat K.toNat) ((FTrans.ofChar TRANSA).rows K.toNat M.toNat) X
      B LDB ((FTrans.ofChar TRANSB).rows K.toNat N.toNat) ((FTrans.ofChar TRANSB).rows N.toNat K.toNat) Y
      C LDC M.toNat N.toNat)
    (hk : Kp m) (hc : MatAt m C LDC M.toNat N.toNat c) :
    wp ({n} TRANSA TRANSB M N K ALPHA A LDA B LDB BETA C LDC) m
      (fun _ m' => GPost Kp m C LDC M.toNat N.toNat (fun i j => Quat.ofH (gemmSpec (Scal.{a} ALPHA).toH (Scal.{b} BETA).toH
        K.toNat (fun k => (FTrans.ofChar TRANSA).op X i k) (fun k => (FTrans.ofChar TRANSB).op Y k j) (c i j).toH)) m') := by
  unfold {n}
  simp only [lsame_N, lsame_C]
  split
  · rename_i h
    rw [wp_pure]
    refine ⟨fun i j hi hj => ?_, hk, fun _ _ => rfl⟩
    simp only [Bool.or_eq_true, decide_eq_true_eq] at h
    omega
  · split
    · rename_i h
      rw [wp_pure]
      refine ⟨fun i j hi hj => ?_, hk, fun _ _ => rfl⟩
      rw [hc i j hi hj]
      rw [Bool.and_eq_true, Bool.or_eq_true] at h
      have h2 := scal1_{b} BETA h.2
      refine congrArg some ?_
      unfold gemmSpec
      beta_reduce
      rcases h.1 with h1 | h1
      · rw [scal0_{a} ALPHA h1, h2, zero_mul, zero_add, one_mul, ofH_toH]
      · have : K = 0 := by simpa using h1
        subst this
        rw [h2]; simp
    · split
      · rename_i h
        rw [wp_bind]
        refine wp_mono ({azero}_wp hdisj hst (scal0_{b} BETA) hk hc) ?_
        intro _ m' h'
        rw [wp_pure]
        refine h'.congr (fun i j _ _ => ?_)
        rw [gemmSpec, scal0_{a} ALPHA h, zero_mul, zero_add]
      · rename_i h
        simp only [wp_bind, wp_pure]
        exact {top}_wp (env (fun e => h (scal0_{a}' ALPHA e))) (scal0_{b} BETA) (scal1_{b} BETA) hk hc

end Haxx''')
    open(f'{ROOT}/FGemmPf{v}.lean', 'w').write('\n'.join(o) + '\n')

import sys
for v in (sys.argv[1:] or ['dd', 'dz', 'dh', 'zd', 'zz', 'zh', 'hd', 'hz', 'hh']): gen(v)
