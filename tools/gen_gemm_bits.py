#!/usr/bin/env python3
"""Writes lean/Verif/FGemmBits<v>.lean: the nine generated Fortran GEMM models compute `fGemm` (FBits.lean) bit for bit,
over any arithmetic.  Same loop structure as gen_gemm_proofs.py; the elements close by `rfl` instead of by ring laws."""
import re, os
ROOT = os.path.join(os.path.dirname(os.path.abspath(__file__)), '..', 'lean', 'Verif')
TY = {'d': 'F', 'z': 'Cplx F', 'h': 'Quat F'}

RW = '''el3c_1, el3c_2, wp_bind, wp_pure'''
def rw(*hs):
    s = RW
    for h in hs: s += f', wp_rdC_lo {h}, wp_rdC_hi {h}'
    return s
WC = ('wp_wrC_lo hC, wp_wrC_hi hC, wp_wrC_lo (readQ_writeQ_same _ _ _), wp_wrC_hi (readQ_writeQ_same _ _ _), '
      'wp_rdC_lo (readQ_writeQ_same _ _ _), wp_rdC_hi (readQ_writeQ_same _ _ _), writeQ_writeQ')

def gen(v):
    src = open(f'{ROOT}/FGemm{v}.lean').read()
    ifs = re.findall(rf'^def (hgemm{v}_if\d+) ', src, re.M)
    azero, bNN, ifN, bNC, bNT, ifA, ifC, ifT, top = ifs
    a, b = v
    n = f'hgemm{v}'
    o = []
    w = o.append
    AL = f'(.{a} ALPHA)'; BE = f'(.{b} BETA)'
    w(f'''import Verif.FBits
import Verif.FGemm{v}

/-!
# `{n}`, bit for bit (written by `tools/gen_gemm_bits.py`)
-/

set_option linter.unusedSimpArgs false
set_option linter.unusedSectionVars false
set_option linter.unusedVariables false

namespace Haxx
open Arith

variable {{F : Type}} [Arith F] [ArithEq F]
''')
    for l in ('10', '40', '130', '180'):
        w(f'''theorem {n}_{l}_I_bits {{m : Mem F}} {{C LDC : Int}} {{i j : Nat}} {{c : Quat F}}
    (hC : readQ m (C + 4 * ((i:Int) + j * LDC)) = some c) :
    wp ({n}_{l}_I C (j+1) LDC (i+1)) m (fun _ m' => m' = writeQ m (C + 4 * (i + j * LDC)) fZero) := by
  unfold {n}_{l}_I
  simp only [{rw('hC')}, {WC}]
  rfl
''')
    for l in ('20', '50', '140', '190'):
        w(f'''theorem {n}_{l}_I_bits {{m : Mem F}} {{C LDC : Int}} {{i j : Nat}} {{c : Quat F}} {{BETA : {TY[b]}}}
    (hC : readQ m (C + 4 * ((i:Int) + j * LDC)) = some c) :
    wp ({n}_{l}_I BETA C (j+1) LDC (i+1)) m (fun _ m' => m' = writeQ m (C + 4 * (i + j * LDC)) (fScal {BE} c)) := by
  unfold {n}_{l}_I
  simp only [{rw('hC')}, {WC}]
  rfl
''')
    for (nm, z, s) in ((bNN, '40', '50'), (bNC, '130', '140'), (bNT, '180', '190')):
        w(f'''theorem {nm}_bits {{K : Mem F → Prop}} {{m0 m : Mem F}} {{M : Int}} {{C LDC : Int}} {{j : Nat}}
    {{c : Nat → Quat F}} {{BETA : {TY[b]}}} {{BONE BZERO : Bool}}
    (hdisj : ∀ i i', i < M.toNat → i' < M.toNat → i ≠ i' →
      QDisj (C + 4 * ((i:Int) + j * LDC)) (C + 4 * ((i':Int) + j * LDC)))
    (hst : ∀ m i q, i < M.toNat → K m → K (writeQ m (C + 4 * ((i:Int) + j * LDC)) q))
    (hU : Upd K (fun i => C + 4 * ((i:Int) + j * LDC)) M.toNat m0 c m) :
    wp ({nm} BETA BONE BZERO C (j+1) LDC M) m (fun _ m' =>
      Upd K (fun i => C + 4 * ((i:Int) + j * LDC)) M.toNat m0 (fun i => fBeta BZERO BONE {BE} (c i)) m') := by
  unfold {nm}
  cases BZERO
  · cases BONE
    · simp only [Bool.false_eq_true, if_false, Bool.not_false, if_true, wp_bind, wp_pure]
      refine wp_passU hdisj hst hU ?_
      intro i m _ _ hc
      exact {n}_{s}_I_bits hc
    · simp only [Bool.false_eq_true, if_false, Bool.not_true, wp_pure]
      exact hU
  · simp only [if_true, wp_bind, wp_pure]
    refine wp_passU hdisj hst hU ?_
    intro i m _ _ hc
    exact {n}_{z}_I_bits hc
''')
    def xs(which, op, tail):
        return f'(FTrans.pick .{op} {which} {tail})'
    def fm(ta, tb):
        return f'(fun k => FTrans.pick .{ta} X i k) (fun k => FTrans.pick .{tb} Y k j)'
    for (tb, J, bnm, L, I) in (('N', '30', bNN, '60', '70'), ('C', '120', bNC, '150', '160'), ('T', '170', bNT, '200', '210')):
        rB, cB = ('K.toNat', 'N.toNat') if tb == 'N' else ('N.toNat', 'K.toNat')
        bi, bj = ('l', 'j') if tb == 'N' else ('j', 'l')
        hb = f'env.rdB m hU.k {bi} {bj}' + (' hl hj' if tb == 'N' else ' hj hl')
        w(f'''theorem {n}_{J}_J_bits {{Kp : Mem F → Prop}} {{m : Mem F}} {{M N K : Int}} {{A LDA B LDB C LDC : Int}}
    {{X Y : Nat → Nat → Quat F}} {{c : Nat → Quat F}} {{ALPHA : {TY[a]}}} {{BETA : {TY[b]}}} {{BONE BZERO : Bool}} {{j : Nat}}
    (env : GEnv Kp A LDA M.toNat K.toNat X B LDB {rB} {cB} Y C LDC M.toNat N.toNat) (hj : j < N.toNat)
    (hU : Upd Kp (fun i => C + 4 * ((i:Int) + j * LDC)) M.toNat m c m) :
    wp ({n}_{J}_J A ALPHA B BETA BONE BZERO C K LDA LDB LDC M (j+1)) m (fun _ m' =>
      Upd Kp (fun i => C + 4 * ((i:Int) + j * LDC)) M.toNat m
        (fun i => fMain .N .{tb} {AL} BZERO BONE {BE} K.toNat {fm('N', tb)} (c i)) m') := by
  have hd : ∀ i i', i < M.toNat → i' < M.toNat → i ≠ i' →
      QDisj (C + 4 * ((i:Int) + j * LDC)) (C + 4 * ((i':Int) + j * LDC)) :=
    fun i i' hi hi' hne => env.disj i j i' j hi hi' (fun e => hne e.1)
  have hs : ∀ m i q, i < M.toNat → Kp m → Kp (writeQ m (C + 4 * ((i:Int) + j * LDC)) q) :=
    fun m i q hi hk => env.stable m i j q hi hj hk
  unfold {n}_{J}_J
  rw [wp_bind]
  refine wp_mono ({bnm}_bits hd hs hU) ?_
  intro _ m1 hU1
  rw [wp_bind]
  refine wp_forN (fun l m' => Upd Kp (fun i => C + 4 * ((i:Int) + j * LDC)) M.toNat m
    (fun i => fSteps {AL} .{tb} {fm('N', tb)} (fBeta BZERO BONE {BE} (c i)) l) m') hU1 ?_ ?_
  · intro l m hl hU
    have hB := {hb}
    unfold {n}_{L}_L
    simp only [{rw('hB')}]
    refine wp_passU hd hs hU ?_
    intro i m hi hk hC
    have hA := env.rdA m hk i l hi hl
    have hA' := matAt_write env.rdA (fun q => hs m i q hi hk) hi hl
    unfold {n}_{I}_I
    simp only [{rw('hA', "(hA' _)", 'hC')}, {WC}]
    rfl
  · intro m' h
    rw [wp_pure]
    exact h
''')
    for (ta, tb, J, L) in (('C', 'N', '80', '90'), ('T', 'N', '100', '110'), ('C', 'C', '220', '230'), ('C', 'T', '240', '250'),
                           ('T', 'C', '260', '270'), ('T', 'T', '280', '290')):
        rB, cB = ('K.toNat', 'N.toNat') if tb == 'N' else ('N.toNat', 'K.toNat')
        hb = 'env.rdB m hk l j hl hj' if tb == 'N' else 'env.rdB m hk j l hj hl'
        w(f'''theorem {n}_{J}_I_bits {{Kp : Mem F → Prop}} {{m : Mem F}} {{M N K : Int}} {{A LDA B LDB C LDC : Int}}
    {{X Y : Nat → Nat → Quat F}} {{c : Quat F}} {{ALPHA : {TY[a]}}} {{BETA : {TY[b]}}} {{BONE BZERO : Bool}} {{i j : Nat}}
    (env : GEnv Kp A LDA K.toNat M.toNat X B LDB {rB} {cB} Y C LDC M.toNat N.toNat)
    (hi : i < M.toNat) (hj : j < N.toNat) (hk : Kp m)
    (hC : readQ m (C + 4 * ((i:Int) + j * LDC)) = some c) :
    wp ({n}_{J}_I A ALPHA B BETA BZERO C (j+1) K LDA LDB LDC (i+1)) m (fun _ m' =>
      m' = writeQ m (C + 4 * (i + j * LDC))
        (fMain .{ta} .{tb} {AL} BZERO BONE {BE} K.toNat {fm(ta, tb)} c)) := by
  unfold {n}_{J}_I
  simp only [wp_bind]
  refine wp_acc (fun l s => s = ((fAccs .{ta} .{tb} {fm(ta, tb)} l).hi, (fAccs .{ta} .{tb} {fm(ta, tb)} l).lo)) rfl ?_ ?_
  · rintro l s hl rfl
    have hA := env.rdA m hk l i hl hi
    have hB := {hb}
    unfold {n}_{L}_L
    simp only [{rw('hA', 'hB')}]
    exact ⟨trivial, rfl⟩
  · rintro s rfl
    cases BZERO
    · simp only [Bool.false_eq_true, if_false, {rw('hC')}, {WC}]
      rfl
    · simp only [if_true, {rw('hC')}, {WC}]
      rfl
''')
    typeA = {('N', 'N'): '30', ('N', 'C'): '120', ('N', 'T'): '170'}
    typeB = {('C', 'N'): '80', ('T', 'N'): '100', ('C', 'C'): '220', ('C', 'T'): '240', ('T', 'C'): '260', ('T', 'T'): '280'}
    for (ta, tb), J in list(typeA.items()) + list(typeB.items()):
        rA, cA = ('M.toNat', 'K.toNat') if ta == 'N' else ('K.toNat', 'M.toNat')
        rB, cB = ('K.toNat', 'N.toNat') if tb == 'N' else ('N.toNat', 'K.toNat')
        bone = 'BONE ' if ta == 'N' else ''
        prog = f'forN N.toNat (fun i => {n}_{J}_J A ALPHA B BETA {bone}BZERO C K LDA LDB LDC M ((i : Int) + 1))'
        w(f'''theorem {n}_{J}_bits {{Kp : Mem F → Prop}} {{m : Mem F}} {{M N K : Int}} {{A LDA B LDB C LDC : Int}}
    {{X Y c : Nat → Nat → Quat F}} {{ALPHA : {TY[a]}}} {{BETA : {TY[b]}}} {{BONE BZERO : Bool}}
    (env : GEnv Kp A LDA {rA} {cA} X B LDB {rB} {cB} Y C LDC M.toNat N.toNat) (hk : Kp m)
    (hc : MatAt m C LDC M.toNat N.toNat c) :
    wp ({prog}) m
      (fun _ m' => GPost Kp m C LDC M.toNat N.toNat
        (fun i j => fMain .{ta} .{tb} {AL} BZERO BONE {BE} K.toNat {fm(ta, tb)} (c i j)) m') := by''')
        if ta == 'N':
            w(f'''  refine wp_colsU env.disj hk hc ?_
  intro j m hj hU
  exact {n}_{J}_J_bits env hj hU
''')
        else:
            w(f'''  refine wp_nestU (f := fun j i => {n}_{J}_I A ALPHA B BETA BZERO C ((j:Int)+1) K LDA LDB LDC ((i:Int)+1))
    (fun j => rfl) env.disj env.stable hk hc ?_
  intro i j m hi hj hk hC
  exact {n}_{J}_I_bits env hi hj hk hC
''')
    w(f'''theorem {azero}_bits {{Kp : Mem F → Prop}} {{m : Mem F}} {{M N : Int}} {{C LDC : Int}}
    {{c : Nat → Nat → Quat F}} {{BETA : {TY[b]}}} {{BZERO : Bool}}
    (hdisj : ∀ i j i' j' : Nat, i < M.toNat → i' < M.toNat → ¬ (i = i' ∧ j = j') →
      QDisj (C + 4 * (i + j * LDC)) (C + 4 * (i' + j' * LDC)))
    (hst : ∀ m (i j : Nat) q, i < M.toNat → j < N.toNat → Kp m → Kp (writeQ m (C + 4 * (i + j * LDC)) q))
    (hk : Kp m) (hc : MatAt m C LDC M.toNat N.toNat c) :
    wp ({azero} BETA BZERO C LDC M N) m
      (fun _ m' => GPost Kp m C LDC M.toNat N.toNat (fun i j => if BZERO then fZero else fScal {BE} (c i j)) m') := by
  unfold {azero}
  cases BZERO
  · simp only [Bool.false_eq_true, if_false, wp_bind, wp_pure]
    refine wp_nestU (f := fun j i => {n}_20_I BETA C ((j:Int)+1) LDC ((i:Int)+1)) (fun j => rfl) hdisj hst hk hc ?_
    intro i j m _ _ _ hC
    exact {n}_20_I_bits hC
  · simp only [if_true, wp_bind, wp_pure]
    refine wp_nestU (f := fun j i => {n}_10_I C ((j:Int)+1) LDC ((i:Int)+1)) (fun j => rfl) hdisj hst hk hc ?_
    intro i j m _ _ _ hC
    exact {n}_10_I_bits hC

''')
    w(f'''theorem {top}_bits {{Kp : Mem F → Prop}} {{m : Mem F}} {{M N K : Int}} {{A LDA B LDB C LDC : Int}}
    {{X Y c : Nat → Nat → Quat F}} {{ALPHA : {TY[a]}}} {{BETA : {TY[b]}}} {{BONE BZERO : Bool}} {{tA tB : FTrans}}
    (env : GEnv Kp A LDA (tA.rows M.toNat K.toNat) (tA.rows K.toNat M.toNat) X
      B LDB (tB.rows K.toNat N.toNat) (tB.rows N.toNat K.toNat) Y C LDC M.toNat N.toNat)
    (hk : Kp m) (hc : MatAt m C LDC M.toNat N.toNat c) :
    wp ({top} A ALPHA B BETA BONE BZERO C (tA == .C) (tB == .C) K LDA LDB LDC M N (tA == .N) (tB == .N)) m
      (fun _ m' => GPost Kp m C LDC M.toNat N.toNat (fun i j => fMain tA tB {AL} BZERO BONE {BE} K.toNat
        (fun k => tA.pick X i k) (fun k => tB.pick Y k j) (c i j)) m') := by
  cases tA <;> cases tB''')
    for ta in 'NTC':
        for tb in 'NTC':
            J = {**typeA, **typeB}[(ta, tb)]
            inner = ifN if tb == 'N' else {'N': ifA, 'C': ifC, 'T': ifT}[ta]
            w(f'''  · unfold {top} {inner}
    simp only [ft_NN, ft_TN, ft_CN, ft_NC, ft_TC, ft_CC, if_true, if_false, Bool.false_eq_true, wp_bind, wp_pure]
    exact {n}_{J}_bits env hk hc''')
    w('')
    w(f'''/-- Every entry of C after `{n}` is `fGemm` of the elements it depends on. -/
theorem {n}_bits {{Kp : Mem F → Prop}} {{m : Mem F}} {{TRANSA TRANSB : Char}} {{M N K : Int}} {{A LDA B LDB C LDC : Int}}
    {{X Y c : Nat → Nat → Quat F}} {{ALPHA : {TY[a]}}} {{BETA : {TY[b]}}}
    (hdisj : ∀ i j i' j' : Nat, i < M.toNat → i' < M.toNat → ¬ (i = i' ∧ j = j') →
      QDisj (C + 4 * (i + j * LDC)) (C + 4 * (i' + j' * LDC)))
    (hst : ∀ m (i j : Nat) q, i < M.toNat → j < N.toNat → Kp m → Kp (writeQ m (C + 4 * (i + j * LDC)) q))
    (env : Scal.fIsZero (F := F) {AL} = false → GEnv Kp A LDA ((FTrans.ofChar TRANSA).rows M.toNat K.toNat)
      ((FTrans.ofChar TRANSA).rows K.toNat M.toNat) X
      B LDB ((FTrans.ofChar TRANSB).rows K.toNat N.toNat) ((FTrans.ofChar TRANSB).rows N.toNat K.toNat) Y
      C LDC M.toNat N.toNat)
    (hk : Kp m) (hc : MatAt m C LDC M.toNat N.toNat c) :
    wp ({n} TRANSA TRANSB M N K ALPHA A LDA B LDB BETA C LDC) m
      (fun _ m' => GPost Kp m C LDC M.toNat N.toNat (fun i j => fGemm (FTrans.ofChar TRANSA) (FTrans.ofChar TRANSB)
        {AL} {BE} K (fun k => (FTrans.ofChar TRANSA).pick X i k) (fun k => (FTrans.ofChar TRANSB).pick Y k j)
        (c i j)) m') := by
  unfold {n}
  simp only [lsame_N, lsame_C]
  split
  · rename_i h
    rw [wp_pure]
    refine ⟨fun i j hi hj => ?_, hk, fun _ _ => rfl⟩
    simp only [Bool.or_eq_true, decide_eq_true_eq] at h
    omega
  · split
    · rename_i h
      rw [wp_pure]
      refine ⟨fun i j hi hj => ?_, hk, fun _ _ => rfl⟩
      rw [hc i j hi hj]
      exact congrArg some (if_pos h).symm
    · rename_i h0
      split
      · rename_i h
        rw [wp_bind]
        refine wp_mono ({azero}_bits hdisj hst hk hc) ?_
        intro _ m' h'
        rw [wp_pure]
        refine h'.congr (fun i j _ _ => ?_)
        exact ((if_neg h0).trans (if_pos h)).symm
      · rename_i h
        simp only [wp_bind, wp_pure]
        refine wp_mono ({top}_bits (env (Bool.eq_false_iff.mpr h)) hk hc) ?_
        intro _ m' h'
        refine h'.congr (fun i j _ _ => ?_)
        exact ((if_neg h0).trans (if_neg h)).symm

end Haxx''')
    open(f'{ROOT}/FGemmBits{v}.lean', 'w').write('\n'.join(o) + '\n')

import sys
for v in (sys.argv[1:] or ['dd', 'dz', 'dh', 'zd', 'zz', 'zh', 'hd', 'hz', 'hh']): gen(v)
