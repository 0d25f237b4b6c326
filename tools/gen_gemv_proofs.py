#!/usr/bin/env python3
"""Writes lean/Verif/FGemvPf<v>.lean: correctness proofs of the generated Fortran GEMV models."""
import re, os
ROOT = os.path.join(os.path.dirname(os.path.abspath(__file__)), '..', 'lean', 'Verif')
TY = {'d': 'R', 'z': 'Cplx R', 'h': 'Quat R'}
RD = 'el3c_1, el3c_2, el2c_1, el2c_2, wp_bind, wp_pure'
def rd(*hs):
    s = RD
    for h in hs: s += f', wp_rdC_lo {h}, wp_rdC_hi {h}'
    return s
WC = ('wp_wrC_lo hC, wp_wrC_hi hC, wp_wrC_lo (readQ_writeQ_same _ _ _), wp_wrC_hi (readQ_writeQ_same _ _ _), '
      'wp_rdC_lo (readQ_writeQ_same _ _ _), wp_rdC_hi (readQ_writeQ_same _ _ _), writeQ_writeQ')
FIN = 'ext <;> simp [Scal.toH] <;> ring'
AU = 'Y + 4 * ((i:Int) + 1 - 1)'
AS = 'Y + 4 * (KY + (i:Int) * INCY - 1)'

HSDH = "(hs1.imp id (Or.imp (scal0_h' _) (scal1_h' _))) "
def gen(v):
    src = open(f'{ROOT}/FGemv{v}.lean').read()
    ifs = re.findall(rf'^def (hgemv{v}_if\d+) ', src, re.M)
    b1, b2, b3, b4, dN, accU, accS, dT, main = ifs
    a, b = v
    n = f'hgemv{v}'
    al = f'(Scal.{a} ALPHA).toH'
    be = f'(Scal.{b} BETA).toH'
    o = []
    w = o.append
    w(f'''import Verif.FGemvLemmas
import Verif.FGemv{v}
import Mathlib.Tactic.Ring

/-!
# Correctness of `{n}` (written by `tools/gen_gemv_proofs.py`)
-/

set_option linter.unusedSimpArgs false
set_option linter.unusedSectionVars false
set_option linter.unusedVariables false
set_option linter.unusedTactic false
set_option linter.unreachableTactic false

namespace Haxx
open Arith Quaternion Finset

variable {{R : Type}} [CommRing R] [DecidableEq R]
''')
    # ---- beta
    dh = (v == 'dh')
    hb40 = '(hs : INCY = 1 ∨ BZERO = true ∨ BONE = true)' if dh else ''
    w(f'''theorem {b4}_wp {{K : Mem R → Prop}} {{m : Mem R}} {{BETA : {TY[b]}}} {{BONE BZERO : Bool}} {{INCY KY LENY Y : Int}}
    {{ly : Nat}} {{c : Nat → Quat R}} {hb40}
    (hz : BZERO = true → {be} = 0) (ho : BONE = true → {be} = 1) (hl : BONE = false → LENY.toNat = ly)
    (hky : INCY = 1 → KY = 1)
    (hdisj : ∀ i j : Nat, i < ly → j < ly → i ≠ j → QDisj ({AS}) ({AS.replace('(i:Int)','(j:Int)')}))
    (hst : ∀ m (i : Nat) q, i < ly → K m → K (writeQ m ({AS}) q))
    (hU : Upd K (fun i => {AS}) ly m c m) :
    wp ({b4} BETA BONE BZERO INCY KY LENY Y) m (fun _ m' =>
      Upd K (fun i => {AS}) ly m (fun i => Quat.ofH ({be} * (c i).toH)) m') := by
  unfold {b4}
  rw [wp_ite]
  split
  · rename_i hb
    have hly := hl (by simpa using hb)
    subst hly
    rw [wp_bind]
    unfold {b3}
    rw [wp_ite]
    split
    · rename_i h1
      rw [decide_eq_true_eq] at h1
      obtain rfl := hky h1
      subst h1
      have e : (fun i : Nat => Y + 4 * ((1:Int) + (i:Int) * 1 - 1)) = (fun i : Nat => {AU}) := by
        funext i; ring
      have e1 : ∀ i : Nat, Y + 4 * ((1:Int) + (i:Int) * 1 - 1) = {AU} := by intro i; ring
      rw [e] at hU ⊢
      simp only [e1] at hdisj hst
      rw [wp_bind]
      unfold {b1}
      rw [wp_ite]
      split
      · rename_i h
        rw [hz h]
        simp only [wp_bind, wp_pure, zero_mul]
        refine wp_passU hdisj hst hU ?_
        intro i m _ _ hC
        unfold {n}_10_I
        simp only [{rd('hC')}, {WC}]
        rfl
      · simp only [wp_bind, wp_pure]
        refine wp_passU hdisj hst hU ?_
        intro i m _ _ hC
        unfold {n}_20_I
        simp only [{rd('hC')}, {WC}]
        refine congrArg (writeQ m _) (eq_ofH ?_)
        {FIN}
    · rw [wp_bind]
      unfold {b2}
      rw [wp_ite]
      split
      · rename_i h
        rw [hz h]
        simp only [wp_bind, wp_pure, zero_mul]
        refine wp_mono (wp_pass (fun i => KY + (i:Int) * INCY) (by simp) hdisj hst hU
          (c' := fun i => Quat.ofH 0) ?_) (fun _ _ h => h.2)
        intro i m _ _ hC
        unfold {n}_30_I
        simp only [{rd('hC')}, {WC}]
        exact ⟨by push_cast; ring, rfl⟩''')
    if dh:
        w(f'''      · rename_i h1 h2
        rcases hs with h | h | h
        · exact absurd h (by simpa using h1)
        · exact absurd h h2
        · rw [h] at hb; exact absurd hb (by decide)''')
    else:
        w(f'''      · simp only [wp_bind, wp_pure]
        refine wp_mono (wp_pass (fun i => KY + (i:Int) * INCY) (by simp) hdisj hst hU
          (c' := fun i => Quat.ofH ({be} * (c i).toH)) ?_) (fun _ _ h => h.2)
        intro i m _ _ hC
        unfold {n}_40_I
        simp only [{rd('hC')}, {WC}]
        refine ⟨by push_cast; ring, congrArg (writeQ m _) (eq_ofH ?_)⟩
        {FIN}''')
    w(f'''  · rename_i h
    rw [ho (by simpa using h), wp_pure]
    simpa using hU
''')
    # ---- N
    hs70 = '(hs : INCY = 1)' if a == 'h' else ''
    def nbody(lab, I, addr, strided):
        inner = f'''      have hA := env.rdA m hk i j hi hj
      have hA' := matAt_write env.rdA (fun q => hst m i q hi hk) hi hj
      unfold {n}_{I}_I
      simp only [{rd('hA', "(hA' _)", 'hC')}, {WC}]
'''
        if strided:
            loop = f'''    refine wp_mono (wp_pass (fun i => KY + (i:Int) * INCY) (by simp) hdisj hst hU'
      (c' := fun i => Quat.ofH ((c i).toH + {al} * ((a i j).toH * (x j).toH))) ?_) ?_
    · intro i m hi hk hC
{inner}      refine ⟨by push_cast; ring, congrArg (writeQ m _) (eq_ofH ?_)⟩
      {FIN}
    · rintro _ m' ⟨_, h⟩
      exact ⟨by push_cast; ring, h⟩'''
        else:
            loop = f'''    refine wp_mono (wp_passU hdisj hst hU'
      (c' := fun i => Quat.ofH ((c i).toH + {al} * ((a i j).toH * (x j).toH))) ?_) ?_
    · intro i m hi hk hC
{inner}      refine congrArg (writeQ m _) (eq_ofH ?_)
      {FIN}
    · intro _ m' h
      exact ⟨by push_cast; ring, h⟩'''
        args = 'A ALPHA INCX INCY KY LDA M X Y' if strided else 'A ALPHA INCX LDA M X Y'
        w(f'''theorem {n}_{lab}_wp {{K : Mem R → Prop}} {{m0 m : Mem R}} {{ALPHA : {TY[a]}}} {{A LDA M N X INCX Y {'INCY KY ' if strided else ''}JX : Int}}
    {{a : Nat → Nat → Quat R}} {{x c : Nat → Quat R}}
    (env : GvEnv K A LDA M.toNat N.toNat a (X + 4 * (JX - 1)) INCX N.toNat x (fun i => {addr}) M.toNat)
    (hU : Upd K (fun i => {addr}) M.toNat m0 c m) :
    wp (foldN N.toNat (fun i (s : Int) => {n}_{lab}_J {args} ((i:Int) + 1) s) JX) m (fun _ m' =>
      Upd K (fun i => {addr}) M.toNat m0
        (fun i => Quat.ofH ((c i).toH + ∑ j ∈ range N.toNat, {al} * ((a i j).toH * (x j).toH))) m') := by
  have hdisj := env.disj
  have hst := env.stable
  refine wp_accPassS (fun j => JX + (j:Int) * INCX) (by simp) (fun j i => {al} * ((a i j).toH * (x j).toH)) hU ?_
  intro j m c hj hU'
  have hX : readQ m (X + 4 * (JX + (j:Int) * INCX - 1)) = some (x j) := by
    rw [← env.rdX m hU'.k j hj]; congr 1; ring
  unfold {n}_{lab}_J
  simp only [{rd('hX')}]
  · 
{loop}
''')
    nbody('60', '50', AU, False)
    if a != 'h':
        nbody('80', '70', AS, True)
    w(f'''theorem {dN}_wp {{K : Mem R → Prop}} {{m0 m : Mem R}} {{ALPHA : {TY[a]}}} {{A LDA M N X INCX Y INCY JX KY : Int}}
    {{a : Nat → Nat → Quat R}} {{x c : Nat → Quat R}} {hs70} (hky : INCY = 1 → KY = 1)
    (env : GvEnv K A LDA M.toNat N.toNat a (X + 4 * (JX - 1)) INCX N.toNat x (fun i => {AS}) M.toNat)
    (hU : Upd K (fun i => {AS}) M.toNat m0 c m) :
    wp ({dN} A ALPHA INCX INCY JX KY LDA M N X Y) m (fun _ m' =>
      Upd K (fun i => {AS}) M.toNat m0
        (fun i => Quat.ofH ((c i).toH + ∑ j ∈ range N.toNat, {al} * ((a i j).toH * (x j).toH))) m') := by
  unfold {dN}
  rw [wp_ite]
  split
  · rename_i h1
    rw [decide_eq_true_eq] at h1
    obtain rfl := hky h1
    subst h1
    have e : (fun i : Nat => Y + 4 * ((1:Int) + (i:Int) * 1 - 1)) = (fun i : Nat => {AU}) := by
      funext i; ring
    rw [e] at hU env ⊢
    rw [wp_bind]
    refine wp_mono ({n}_60_wp env hU) ?_
    intro _ m' h
    rw [wp_pure]; exact h''')
    if a == 'h':
        w('''  · rename_i h1
    exact absurd hs (by simpa using h1)
''')
    else:
        w(f'''  · rw [wp_bind]
    refine wp_mono ({n}_80_wp env hU) ?_
    intro _ m' h
    rw [wp_pure]; exact h
''')
    # ---- T / C
    TERM = '(if NOCONJ = true then (a i j).toH else star (a i j).toH) * (x i).toH'
    def acc(nm, labN, labC, strided):
        rdx = 'X + 4 * (IX + (i:Int) * INCX - 1)' if strided else 'X + 4 * ((i:Int) + 1 - 1)'
        cargs = 'A ⟨zero, zero⟩ ⟨zero, zero⟩ INCX IX ((j:Int)+1) LDA M NOCONJ X' if strided else 'A ⟨zero, zero⟩ ⟨zero, zero⟩ ((j:Int)+1) LDA M NOCONJ X'
        def br(lab, tm):
            inv = f'((Quat.ofH (∑ i ∈ range k, {tm})).hi, (Quat.ofH (∑ i ∈ range k, {tm})).lo' + (', IX + (k:Int) * INCX)' if strided else ')')
            spl = 's.1 s.2.1 s.2.2' if strided else 's.1 s.2'
            pairs = 'Prod.mk.injEq, '
            fin = ('refine ⟨trivial, ?_, ?_, by push_cast; ring⟩ <;> ext <;> simp [← hS, sum_range_succ] <;> ring'
                   if strided else 'refine ⟨trivial, ?_, ?_⟩ <;> ext <;> simp [sum_range_succ] <;> ring')
            return f'''rw [wp_bind]
    refine wp_acc (fun k s => s = {inv}) ?_ ?_ ?_
    · simp [Quat.hi, Quat.lo, Quat.ofH]
    · rintro i s hi rfl
      have hA := hA i hi
      have hX := hx i hi
      unfold {n}_{lab}_I
      simp only [{rd('hA', 'hX')}, Prod.mk.injEq, true_and, sum_range_succ]
      generalize (∑ i ∈ range i, {tm}) = S
      refine {'⟨?_, ?_, by push_cast; ring⟩' if strided else '⟨?_, ?_⟩'} <;> ext <;> simp [Quat.ofH, Quat.lo, Quat.hi] <;> ring
    · rintro s rfl
      simp only [wp_pure]
      simp'''
        extra = 'INCX IX ' if strided else ''
        w(f'''theorem {nm}_wp {{m : Mem R}} {{A LDA M X {extra}: Int}} {{j : Nat}} {{NOCONJ : Bool}}
    {{a : Nat → Nat → Quat R}} {{x : Nat → Quat R}}
    (hA : ∀ i : Nat, i < M.toNat → readQ m (A + 4 * ((i:Int) + j * LDA)) = some (a i j))
    (hx : ∀ i : Nat, i < M.toNat → readQ m ({rdx}) = some (x i)) :
    wp ({nm} {cargs}) m (fun r m' => m' = m ∧
      r = ((Quat.ofH (∑ i ∈ range M.toNat, {TERM})).hi,
        (Quat.ofH (∑ i ∈ range M.toNat, {TERM})).lo)) := by
  unfold {nm}
  cases NOCONJ
  · simp only [Bool.false_eq_true, if_false]
    {br(labC, 'star (a i j).toH * (x i).toH')}
  · simp only [if_true]
    {br(labN, '(a i j).toH * (x i).toH')}
''')
    acc(accU, '90', '100', False)
    acc(accS, '120', '130', True)
    ASj = AS.replace('(i:Int)', '(j:Int)')
    def tbody(lab, nm, strided):
        args = 'A ALPHA INCX INCY KX LDA M NOCONJ X Y' if strided else 'A ALPHA INCY LDA M NOCONJ X Y'
        base = 'X + 4 * (KX - 1)' if strided else 'X'
        extra = 'INCX KX ' if strided else ''
        inc = 'INCX' if strided else '1'
        w(f'''theorem {n}_{lab}_wp {{K : Mem R → Prop}} {{m0 m : Mem R}} {{ALPHA : {TY[a]}}} {{A LDA M N X Y INCY KY {extra}: Int}} {{NOCONJ : Bool}}
    {{a : Nat → Nat → Quat R}} {{x c : Nat → Quat R}}
    (env : GvEnv K A LDA M.toNat N.toNat a ({base}) {inc} M.toNat x (fun i => {AS}) N.toNat)
    (hU : Upd K (fun i => {AS}) N.toNat m0 c m) :
    wp (foldN N.toNat (fun i (s : Int) => {n}_{lab}_J {args} ((i:Int) + 1) s) KY) m (fun _ m' =>
      Upd K (fun i => {AS}) N.toNat m0
        (fun j => Quat.ofH ((c j).toH + {al} * ∑ i ∈ range M.toNat, {TERM})) m') := by
  refine wp_mono (wp_pass (fun i => KY + (i:Int) * INCY) (by simp) env.disj env.stable hU
    (c' := fun j => Quat.ofH ((c j).toH + {al} * ∑ i ∈ range M.toNat, {TERM})) ?_) (fun _ _ h => h.2)
  intro j m hj hk hC
  unfold {n}_{lab}_J
  rw [wp_bind]
  refine wp_mono ({nm}_wp (a := a) (x := x) (j := j) ?_ ?_) ?_
  · intro i hi; exact env.rdA m hk i j hi hj
  · intro i hi; rw [← env.rdX m hk i hi]; congr 1; ring
  · rintro r m' ⟨rfl, rfl⟩
    simp only [{rd('hC')}, {WC}]
    generalize (∑ i ∈ range M.toNat, {TERM}) = S
    refine ⟨by push_cast; ring, congrArg (writeQ m' _) (eq_ofH ?_)⟩
    ext <;> simp [Scal.toH, Quat.ofH, Quat.lo, Quat.hi] <;> ring
''')
    tbody('110', accU, False)
    tbody('140', accS, True)
    w(f'''theorem {dT}_wp {{K : Mem R → Prop}} {{m0 m : Mem R}} {{ALPHA : {TY[a]}}} {{A LDA M N X Y INCX INCY KX KY : Int}} {{NOCONJ : Bool}}
    {{a : Nat → Nat → Quat R}} {{x c : Nat → Quat R}} (hkx : INCX = 1 → KX = 1)
    (env : GvEnv K A LDA M.toNat N.toNat a (X + 4 * (KX - 1)) INCX M.toNat x (fun i => {AS}) N.toNat)
    (hU : Upd K (fun i => {AS}) N.toNat m0 c m) :
    wp ({dT} A ALPHA INCX INCY KY KX LDA M N NOCONJ X Y) m (fun _ m' =>
      Upd K (fun i => {AS}) N.toNat m0
        (fun j => Quat.ofH ((c j).toH + {al} * ∑ i ∈ range M.toNat, {TERM})) m') := by
  unfold {dT}
  rw [wp_ite]
  split
  · rename_i h1
    rw [decide_eq_true_eq] at h1
    obtain rfl := hkx h1
    subst h1
    rw [show X + 4 * ((1:Int) - 1) = X by ring] at env
    rw [wp_bind]
    refine wp_mono ({n}_110_wp env hU) ?_
    intro _ m' h
    rw [wp_pure]; exact h
  · rw [wp_bind]
    refine wp_mono ({n}_140_wp env hU) ?_
    intro _ m' h
    rw [wp_pure]; exact h
''')
    # ---- top
    hs_dh = f'(hs1 : INCY = 1 ∨ {be} = 0 ∨ {be} = 1)' if dh else ''
    hs_h = "(hs2 : lsame TRANS 'N' = true → INCY = 1)" if a == 'h' else ''
    LX = "(if lsame TRANS 'N' = true then N else M)"
    LY = "(if lsame TRANS 'N' = true then M else N)"
    CLX = "(if lsame 'T' TRANS = true then N else M)"
    CLY = "(if lsame 'T' TRANS = true then M else N)"
    if v == 'dd':
        hlen = ''
    else:
        hlen = f'(hlx : 0 < INCX ∨ {CLX} = {LX}) (hly : (0 < INCY ∧ {be} = 1) ∨ {CLY} = {LY})'
    zt = {'d': 'Cplx.feq (Cplx.ofReal {0}) (⟨zero, zero⟩ : Cplx R)', 'z': 'Cplx.feq {0} (⟨zero, zero⟩ : Cplx R)',
          'h': 'Cplx.feq (Quat.lo {0}) (⟨zero, zero⟩ : Cplx R) && Cplx.feq (Quat.hi {0}) (⟨zero, zero⟩ : Cplx R)'}
    ot = {k: z.replace('⟨zero, zero⟩', '⟨one, zero⟩', 1) for k, z in zt.items()}
    az = zt[a].format('ALPHA'); bz = zt[b].format('BETA'); bo = ot[b].format('BETA')
    w(f'''theorem {n}_wp {{K : Mem R → Prop}} {{m : Mem R}} {{TRANS : Char}} {{M N : Int}} {{ALPHA : {TY[a]}}} {{BETA : {TY[b]}}}
    {{A LDA X INCX Y INCY : Int}} {{a : Nat → Nat → Quat R}} {{x c : Nat → Quat R}} {hs_dh} {hs_h}
    {hlen}
    (hM : M ≠ 0) (hN : N ≠ 0)
    (hst : ∀ m (i : Nat) q, i < {LY}.toNat → K m → K (writeQ m (fbase Y {LY} INCY + 4 * ((i:Int) * INCY)) q))
    (hdisj : ∀ i j : Nat, i < {LY}.toNat → j < {LY}.toNat → i ≠ j →
      QDisj (fbase Y {LY} INCY + 4 * ((i:Int) * INCY)) (fbase Y {LY} INCY + 4 * ((j:Int) * INCY)))
    (env : {al} ≠ 0 → GvEnv K A LDA M.toNat N.toNat a (fbase X {LX} INCX) INCX {LX}.toNat x
      (fun i => fbase Y {LY} INCY + 4 * ((i:Int) * INCY)) {LY}.toNat)
    (hk : K m) (hY : VecAt m (fbase Y {LY} INCY) INCY {LY}.toNat c) :
    wp ({n} TRANS M N ALPHA A LDA X INCX BETA Y INCY) m (fun _ m' =>
      Upd K (fun i => fbase Y {LY} INCY + 4 * ((i:Int) * INCY)) {LY}.toNat m
        (fun i => Quat.ofH ({al} * (∑ k ∈ range {LX}.toNat,
          (if lsame TRANS 'N' = true then (a i k).toH else if lsame 'T' TRANS = true then (a k i).toH
            else star (a k i).toH) * (x k).toH) + {be} * (c i).toH)) m') := by
  have hUi : Upd K (fun i => fbase Y {LY} INCY + 4 * ((i:Int) * INCY)) {LY}.toNat m c m := ⟨hY, hk, fun _ _ => rfl⟩
  have hz : ({bz}) = true → {be} = 0 := scal0_{b} _
  have ho : ({bo}) = true → {be} = 1 := scal1_{b} _
  have ha : ({az}) = true → {al} = 0 := scal0_{a} _
  have ha' : {al} = 0 → ({az}) = true := scal0_{a}' _
  unfold {n}
  dsimp only''')
    early = f'''split
  · rename_i h
    rw [wp_pure]
    simp only [Bool.or_eq_true, decide_eq_true_eq, hM, hN, false_or, or_self] at h
    rw [Bool.and_eq_true] at h
    rw [ha h.1, ho h.2]
    simpa using hUi'''
    lens = 'rw [wp_bind, wp_lens]\n  dsimp only'
    if v == 'dd':
        w(f'''  rw [wp_ite]
  {early}
  · rw [wp_bind, wp_lens]
    dsimp only
    rw [lsame_symm 'N' TRANS]
    have hlx : 0 < INCX ∨ {LX} = {LX} := Or.inr rfl
    have hly : (0 < INCY ∧ {be} = 1) ∨ {LY} = {LY} := Or.inr rfl''')
        CX, CY = LX, LY
    elif v == 'dz':
        w(f'''  rw [wp_ite]
  {early}
  · rw [wp_bind, wp_lens]
    dsimp only''')
        CX, CY = CLX, CLY
    else:
        w(f'''  rw [wp_bind, wp_lens]
  dsimp only
  rw [wp_ite]
  {early}
  · skip''')
        CX, CY = CLX, CLY
    w(f'''    rw [wp_bind, wp_fstart, wp_bind, wp_fstart, wp_bind]
    have hKX : (if INCX > 0 then 1 else 1 - ({CX} - 1) * INCX) = (if INCX > 0 then 1 else 1 - ({LX} - 1) * INCX) := by
      rcases hlx with h | h
      · simp only [gt_iff_lt, h, if_true]
      · rw [h]
    have hKY : (if INCY > 0 then 1 else 1 - ({CY} - 1) * INCY) = (if INCY > 0 then 1 else 1 - ({LY} - 1) * INCY) := by
      rcases hly with h | h
      · simp only [gt_iff_lt, h.1, if_true]
      · rw [h]
    rw [hKX, hKY]
    have hLY : ({bo}) = false → {CY}.toNat = {LY}.toNat := by
      intro hf
      rcases hly with h | h
      · exact absurd (hf.symm.trans (scal1_{b}' _ h.2)) (by decide)
      · rw [h]
    have hky : INCY = 1 → (if INCY > 0 then 1 else 1 - ({LY} - 1) * INCY) = 1 := by rintro rfl; rfl
    have hkx : INCX = 1 → (if INCX > 0 then 1 else 1 - ({LX} - 1) * INCX) = 1 := by rintro rfl; rfl
    have eY : ∀ i : Nat, Y + 4 * ((if INCY > 0 then 1 else 1 - ({LY} - 1) * INCY) + (i:Int) * INCY - 1) =
      fbase Y {LY} INCY + 4 * ((i:Int) * INCY) := fun i => fstart Y {LY} INCY i
    have eX : X + 4 * ((if INCX > 0 then 1 else 1 - ({LX} - 1) * INCX) - 1) = fbase X {LX} INCX := by
      have := fstart X {LX} INCX 0
      simpa using this
    generalize hgKX : (if INCX > 0 then 1 else 1 - ({LX} - 1) * INCX) = KX at *
    generalize hgKY : (if INCY > 0 then 1 else 1 - ({LY} - 1) * INCY) = KY at *
    simp only [← eY] at hst hdisj env hUi ⊢
    refine wp_mono ({b4}_wp {HSDH if dh else ''}hz ho hLY hky hdisj hst hUi) ?_
    intro _ m1 hU1
    rw [wp_ite]
    split
    · rename_i h
      rw [wp_pure, ha h]
      simpa using hU1
    · rename_i h
      have env := env (fun h0 => h (ha' h0))
      rw [wp_bind]
      unfold {main}
      rw [wp_ite]
      split
      · rename_i hNN
        simp only [hNN, if_true] at *
        rw [wp_bind]
        rw [← eX] at env
        refine wp_mono ({dN}_wp {'(hs2 trivial) ' if a == 'h' else ''}hky env hU1) ?_
        intro _ m' h
        simp only [wp_pure]
        have e : ∀ i, (Quat.ofH ({be} * (c i).toH)).toH + ∑ j ∈ range N.toNat, {al} * ((a i j).toH * (x j).toH) =
            {al} * (∑ k ∈ range N.toNat, (a i k).toH * (x k).toH) + {be} * (c i).toH := by
          intro i; rw [toH_ofH, mul_sum, add_comm]
        simp only [e] at h
        exact h
      · rename_i hNN
        simp only [hNN, if_false] at *
        rw [wp_bind]
        rw [← eX] at env
        refine wp_mono ({dT}_wp (NOCONJ := lsame 'T' TRANS) hkx env hU1) ?_
        intro _ m' h
        simp only [wp_pure]
        simp only [toH_ofH] at h
        have e : ∀ j, {be} * (c j).toH + {al} * ∑ i ∈ range M.toNat, (if lsame 'T' TRANS = true then (a i j).toH else star (a i j).toH) * (x i).toH =
            {al} * ∑ i ∈ range M.toNat, (if lsame 'T' TRANS = true then (a i j).toH else star (a i j).toH) * (x i).toH + {be} * (c j).toH := by
          intro j; rw [add_comm]
        simp only [e] at h
        exact h
''')
    if v != 'dd':
        early0 = f'''split
  · rename_i h
    simp only [Bool.or_eq_true, decide_eq_true_eq, hM, hN, false_or, or_self] at h
    rw [Bool.and_eq_true] at h
    exact absurd (ho h.2) h1'''
        if v == 'dz':
            pre = f'''  rw [wp_ite]
  {early0}
  · rw [wp_bind, wp_lens]
    dsimp only'''
        else:
            pre = f'''  rw [wp_bind, wp_lens]
  dsimp only
  rw [wp_ite]
  {early0}
  · skip'''
        w(f'''/-- With `ALPHA = 0` and unit stride, what is scaled is the first `LENY` elements for the `LENY` of the code. -/
theorem {n}_alpha0 {{m : Mem R}} {{TRANS : Char}} {{M N : Int}} {{ALPHA : {TY[a]}}} {{BETA : {TY[b]}}}
    {{A LDA X INCX Y : Int}} {{c : Nat → Quat R}} (hM : M ≠ 0) (hN : N ≠ 0) (h0 : {al} = 0) (h1 : {be} ≠ 1)
    (hY : VecAt m Y 1 {CLY}.toNat c) :
    wp ({n} TRANS M N ALPHA A LDA X INCX BETA Y 1) m (fun _ m' =>
      VecAt m' Y 1 {CLY}.toNat (fun i => Quat.ofH ({be} * (c i).toH)) ∧
      SameOutside (VecCell Y 1 {CLY}.toNat) m m') := by
  have hz : ({bz}) = true → {be} = 0 := scal0_{b} _
  have ho : ({bo}) = true → {be} = 1 := scal1_{b} _
  have ha' : ({az}) = true := scal0_{a}' _ h0
  unfold {n}
  dsimp only
{pre}
    rw [wp_bind, wp_fstart, wp_bind]
    simp only [gt_iff_lt, Int.zero_lt_one, decide_true, if_true, wp_pure]
    rw [wp_bind]
    have e : ∀ i : Nat, Y + 4 * ((1:Int) + (i:Int) * 1 - 1) = Y + 4 * ((i:Int) * 1) := by intro i; ring
    refine wp_mono ({b4}_wp (K := fun _ => True) (KY := 1) (ly := {CLY}.toNat) (c := c) {'(Or.inl rfl) ' if dh else ''}hz ho
      (fun _ => rfl) (fun _ => rfl) ?_ (fun _ _ _ _ _ => trivial) ⟨?_, trivial, fun _ _ => rfl⟩) ?_
    · intro i j _ _ hij
      unfold QDisj; omega
    · intro i hi
      rw [e]; exact hY i hi
    · intro _ m1 hU1
      simp only [ha', if_true, wp_pure]
      refine ⟨?_, ?_⟩
      · intro i hi
        rw [← e]; exact hU1.cur i hi
      · intro cc hcc
        refine hU1.out cc ?_
        intro i hi hin
        exact hcc ⟨i, hi, by rw [← e]; exact hin⟩
''')
    w('end Haxx')
    open(f'{ROOT}/FGemvPf{v}.lean', 'w').write('\n'.join(o) + '\n')
import sys
for v in (sys.argv[1:] or ['dd', 'dz', 'dh', 'zd', 'zz', 'zh', 'hd', 'hz', 'hh']): gen(v)
