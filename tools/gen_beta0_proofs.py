#!/usr/bin/env python3
"""Writes lean/Verif/FBeta0<v>.lean: with BETA = 0 the Fortran GEMM does not depend on the old C.
The nine variants have the same loop structure, so one template serves all."""
import re, os, sys
ROOT = os.path.join(os.path.dirname(os.path.abspath(__file__)), '..', 'lean', 'Verif')
TY = {'d': 'F', 'z': 'Cplx F', 'h': 'Quat F'}

def gen(v):
    src = open(f'{ROOT}/FGemm{v}.lean').read()
    ifs = re.findall(rf'^def (hgemm{v}_if\d+) ', src, re.M)
    azero, bNN, ifN, bNC, bNT, ifA, ifC, ifT, top = ifs
    bz = re.search(r'let BZERO : Bool := (.*)', src).group(1)
    bo = re.search(r'let BONE : Bool := (.*)', src).group(1)
    a, b = v
    n = f'hgemm{v}'
    o = []
    w = o.append
    w(f'''import Verif.RelF
import Verif.FGemm{v}

/-!
# `{n}` with BETA = 0 (written by `tools/gen_beta0_proofs.py`)
-/

set_option linter.unusedSectionVars false
set_option linter.unusedVariables false
set_option linter.unusedSimpArgs false

namespace Haxx
open Arith

variable {{F : Type}} [Arith F] [ArithEq F] {{S : Int → Prop}} {{M N K : Int}} {{A LDA B LDB C LDC : Int}}
  {{ALPHA : {TY[a]}}} {{BETA : {TY[b]}}} {{BONE : Bool}}
''')
    EL = 'simp only [el3c_1, el3c_2]'
    for (tb, J, L, I, bnm, z) in (('N', '30', '60', '70', bNN, '40'), ('C', '120', '150', '160', bNC, '130'), ('T', '170', '200', '210', bNT, '180')):
        badr = 'l + j * LDB' if tb == 'N' else 'j + l * LDB'
        w(f'''theorem {n}_{J}_sim {{j : Nat}}
    (hA : ∀ i l : Nat, i < M.toNat → l < K.toNat → ∀ a, InQ (A + 4 * (i + l * LDA)) a → ¬ S a)
    (hB : ∀ l : Nat, l < K.toNat → ∀ a, InQ (B + 4 * ({badr})) a → ¬ S a) :
    Sim (doneM S C LDC M.toNat j 0) ({n}_{J}_J A ALPHA B BETA BONE true C K LDA LDB LDC M (j+1)) (fun _ => True)
      (doneM S C LDC M.toNat j M.toNat) := by
  unfold {n}_{J}_J {bnm}
  refine Sim.bind (E := doneM S C LDC M.toNat j M.toNat) (P := fun _ => True) ?_ fun _ _ => ?_
  · rw [if_pos rfl]
    refine Sim.bind (sim_colF fun i hi D hD => ?_) fun _ _ => Sim.pure trivial
    unfold {n}_{z}_I
    {EL}
    exact Sim.wrQ
  · refine Sim.bind (Sim.forN (fun _ => doneM S C LDC M.toNat j M.toNat) fun l hl => ?_) fun _ _ => Sim.pure trivial
    unfold {n}_{L}_L
    {EL}
    have hb : ∀ a, InQ (B + 4 * ({badr})) a → doneM S C LDC M.toNat j M.toNat a := fun a ha => .inl (hB l hl a ha)
    sim_go
    refine Sim.bind (Sim.forN (fun _ => doneM S C LDC M.toNat j M.toNat) fun i hi => ?_) fun _ _ => Sim.pure trivial
    have ha : ∀ a, InQ (A + 4 * (i + l * LDA)) a → doneM S C LDC M.toNat j M.toNat a := fun a ha => .inl (hA i l hi hl a ha)
    have hc : ∀ a, InQ (C + 4 * (i + j * LDC)) a → doneM S C LDC M.toNat j M.toNat a := fun a ha => .inr (.inr ⟨i, hi, ha⟩)
    unfold {n}_{I}_I
    {EL}
    sim_go
''')
    for (ta, tb, J, L) in (('C', 'N', '80', '90'), ('T', 'N', '100', '110'), ('C', 'C', '220', '230'), ('C', 'T', '240', '250'),
                           ('T', 'C', '260', '270'), ('T', 'T', '280', '290')):
        badr = 'l + j * LDB' if tb == 'N' else 'j + l * LDB'
        w(f'''theorem {n}_{J}_sim {{j : Nat}}
    (hA : ∀ l i : Nat, l < K.toNat → i < M.toNat → ∀ a, InQ (A + 4 * (l + i * LDA)) a → ¬ S a)
    (hB : ∀ l : Nat, l < K.toNat → ∀ a, InQ (B + 4 * ({badr})) a → ¬ S a) :
    Sim (doneM S C LDC M.toNat j 0) ({n}_{J}_J A ALPHA B BETA true C K LDA LDB LDC M (j+1)) (fun _ => True)
      (doneM S C LDC M.toNat j M.toNat) := by
  unfold {n}_{J}_J
  refine Sim.bind (sim_colF fun i hi D hD => ?_) fun _ _ => Sim.pure trivial
  unfold {n}_{J}_I
  refine Sim.bind (Sim.foldN (fun _ => D) (fun _ _ => True) trivial fun l s hl _ => ?_) fun _ _ => ?_
  · unfold {n}_{L}_L
    {EL}
    have ha : ∀ a, InQ (A + 4 * (l + i * LDA)) a → D a := fun a ha => hD a (hA l i hl hi a ha)
    have hb : ∀ a, InQ (B + 4 * ({badr})) a → D a := fun a ha => hD a (hB l hl a ha)
    sim_go
  · simp only [if_true, el3c_1, el3c_2]
    exact Sim.bind Sim.wrQ fun _ _ => Sim.pure trivial
''')
    w(f'''/-- With BETA = 0, `{n}` does not depend on the contents of C. -/
theorem {n}_sim {{TRANSA TRANSB : Char}}
    (hz : ({bz}) = true)
    (ho : ({bo}) = false)
    (hA : Apart (MatCell A LDA ((FTrans.ofChar TRANSA).rows M.toNat K.toNat) ((FTrans.ofChar TRANSA).rows K.toNat M.toNat)) S)
    (hB : Apart (MatCell B LDB ((FTrans.ofChar TRANSB).rows K.toNat N.toNat) ((FTrans.ofChar TRANSB).rows N.toNat K.toNat)) S)
    (hS : S = MatCell C LDC M.toNat N.toNat) :
    Sim (doneM S C LDC M.toNat 0 0) ({n} TRANSA TRANSB M N K ALPHA A LDA B LDB BETA C LDC) (fun _ => True)
      (doneM S C LDC M.toNat N.toNat 0) := by
  unfold {n}
  simp only [lsame_N, lsame_C, hz, ho, Bool.and_false, Bool.false_eq_true, if_false]
  split
  · rename_i h
    refine (Sim.pure trivial).mono (fun _ h => h) (fun a _ => .inl ?_) (fun _ h => h)
    rw [hS]
    rintro ⟨i, j, hi, hj, _⟩
    simp only [Bool.or_eq_true, decide_eq_true_eq] at h
    omega
  · split
    · refine Sim.bind (P := fun _ => True) ?_ fun _ _ => Sim.pure trivial
      unfold {azero}
      rw [if_pos rfl]
      refine Sim.bind (sim_colsF fun j hj => ?_) fun _ _ => Sim.pure trivial
      unfold {n}_10_J
      refine Sim.bind (sim_colF fun i hi D hD => ?_) fun _ _ => Sim.pure trivial
      unfold {n}_10_I
      {EL}
      exact Sim.wrQ
    · refine Sim.bind (P := fun _ => True) ?_ fun _ _ => Sim.pure trivial
      generalize FTrans.ofChar TRANSA = tA at *
      generalize FTrans.ofChar TRANSB = tB at *
      cases tA <;> cases tB''')
    J_of = {('N', 'N'): '30', ('N', 'C'): '120', ('N', 'T'): '170', ('C', 'N'): '80', ('T', 'N'): '100', ('C', 'C'): '220',
            ('C', 'T'): '240', ('T', 'C'): '260', ('T', 'T'): '280'}
    for ta in 'NTC':
        for tb in 'NTC':
            inner = ifN if tb == 'N' else {'N': ifA, 'C': ifC, 'T': ifT}[ta]
            hb = 'fun l hl a ha => hB a ⟨l, j, hl, hj, ha⟩' if tb == 'N' else 'fun l hl a ha => hB a ⟨j, l, hj, hl, ha⟩'
            w(f'''      · unfold {top} {inner}
        simp only [ft_NN, ft_TN, ft_CN, ft_NC, ft_TC, ft_CC, if_true, if_false, Bool.false_eq_true]
        refine Sim.bind (P := fun _ => True) ?_ fun _ _ => Sim.pure trivial
        refine Sim.bind (sim_colsF fun j hj => ?_) fun _ _ => Sim.pure trivial
        exact {n}_{J_of[(ta, tb)]}_sim (fun i l hi hl a ha => hA a ⟨i, l, hi, hl, ha⟩) ({hb})''')
    w('\nend Haxx')
    open(f'{ROOT}/FBeta0{v}.lean', 'w').write('\n'.join(o) + '\n')

def genv(v):
    src = open(f'{ROOT}/FGemv{v}.lean').read()
    ifs = re.findall(rf'^def (hgemv{v}_if\d+) ', src, re.M)
    if1, ifI, ifsel, ifone = ifs[:4]
    bz = re.search(r'let BZERO : Bool := (.*)', src).group(1)
    bo = re.search(r'let BONE : Bool := (.*)', src).group(1)
    ltest = re.search(r"if (lsame '[NT]' TRANS) then\n +let LENX : Int := N", src).group(1)
    a, b = v
    n = f'hgemv{v}'
    return f'''
/-- With BETA = 0, `{n}` does not depend on the contents of the vector it takes y to be. -/
theorem {n}_sim {{F : Type}} [Arith F] [ArithEq F] {{M N : Int}} {{A LDA X INCX Y INCY : Int}} {{ALPHA : {TY[a]}}} {{BETA : {TY[b]}}} {{TRANS : Char}}
    {{LEN : Int}} {{S : Int → Prop}} (hM : M ≠ 0) (hN : N ≠ 0)
    (hL : LEN = if {ltest} then M else N)
    (hz : ({bz}) = true)
    (ho : ({bo}) = false)
    (hS : ∀ a, S a → VecCell (if INCY > 0 then Y else Y - 4 * ((LEN - 1) * INCY)) INCY LEN.toNat a) :
    Sim (fun a => ¬ S a) ({n} TRANS M N ALPHA A LDA X INCX BETA Y INCY) (fun _ => True) (fun _ => True) := by
  have hmn : (decide (M = 0) || decide (N = 0)) = false := by simp [hM, hN]
  unfold {n}
  simp only [hz, ho, hmn, Bool.and_false, Bool.or_false, Bool.false_eq_true, if_false]
  refine Sim.bind (P := fun r => r.2 = LEN) (E := fun a => ¬ S a) ?_ fun r hr => ?_
  · rw [hL]
    split
    · exact Sim.pure rfl
    · exact Sim.pure rfl
  refine Sim.bind (P := fun _ => True) (E := fun a => ¬ S a) ?_ fun KX _ => ?_
  · split
    · exact Sim.pure trivial
    · exact Sim.pure trivial
  refine Sim.bind (P := fun KY => Y + 4 * (KY - 1) = if INCY > 0 then Y else Y - 4 * ((LEN - 1) * INCY)) (E := fun a => ¬ S a) ?_ fun KY hKY => ?_
  · simp only [decide_eq_true_eq]
    split
    · exact Sim.pure (by ring)
    · exact Sim.pure (by rw [hr]; ring)
  refine Sim.bind (P := fun _ => True) (E := fun _ => True) ?_ fun _ _ => Sim.all
  unfold {ifone} {ifsel} {if1} {ifI}
  simp only [Bool.not_false, if_true, decide_eq_true_eq]
  refine Sim.bind (P := fun _ => True) (E := fun _ => True) ?_ fun _ _ => Sim.all
  rw [hr]
  split
  · rename_i e
    subst e
    refine Sim.bind (P := fun _ => True) (E := fun _ => True) ?_ fun _ _ => Sim.all
    refine Sim.bind (P := fun _ => True) (E := fun _ => True) ?_ fun _ _ => Sim.all
    refine (sim_vec1 (Y := Y) fun i D => ?_).mono (fun _ h => h) (fun a _ => ?_) (fun _ h => h)
    · unfold {n}_10_I
      simp only [el2c_1, el2c_2]
      exact Sim.wrQ
    · by_cases ha : S a
      · have := hS a ha
        rw [if_pos (by decide)] at this
        exact .inr this
      · exact .inl ha
  · refine Sim.bind (P := fun _ => True) (E := fun _ => True) ?_ fun _ _ => Sim.all
    refine Sim.bind (P := fun _ => True) (E := fun _ => True) ?_ fun _ _ => Sim.all
    refine (sim_vecI (INC := INCY) (Y := Y) fun i iy D => ?_).mono (fun _ h => h) (fun a _ => ?_) (fun _ h => h)
    · unfold {n}_30_I
      simp only [el2c_1, el2c_2]
      exact Sim.wrQP rfl
    · by_cases ha : S a
      · have := hS a ha
        rw [← hKY] at this
        exact .inr this
      · exact .inl ha
'''

ALL = ['dd', 'dz', 'dh', 'zd', 'zz', 'zh', 'hd', 'hz', 'hh']
for v in ALL: gen(v)
out = ''.join(f'import Verif.FGemv{v}\n' for v in ALL)
out = 'import Verif.RelF\n' + out + '''
/-!
# The Fortran GEMV with BETA = 0 (written by `tools/gen_beta0_proofs.py`)
-/

set_option linter.unusedVariables false
set_option linter.unusedSimpArgs false

namespace Haxx
open Arith
''' + ''.join(genv(v) for v in ALL) + '\nend Haxx\n'
open(f'{ROOT}/FBeta0Gemv.lean', 'w').write(out)
