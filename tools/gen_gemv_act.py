#!/usr/bin/env python3
"""Writes lean/Verif/FGemvAct<v>.lean: what the generated Fortran GEMV models do on every call (also the wrong ones)."""
import re, os, sys
ROOT = os.path.join(os.path.dirname(os.path.abspath(__file__)), '..', 'lean', 'Verif')
TY = {'d': 'R', 'z': 'Cplx R', 'h': 'Quat R'}
RD = 'el3c_1, el3c_2, el2c_1, el2c_2, wp_bind, wp_pure'
def rd(*hs):
    s = RD
    for h in hs: s += f', wp_rdC_lo {h}, wp_rdC_hi {h}'
    return s
WC = ('wp_wrC_lo hC, wp_wrC_hi hC, wp_wrC_lo (readQ_writeQ_same _ _ _), wp_wrC_hi (readQ_writeQ_same _ _ _), '
      'wp_rdC_lo (readQ_writeQ_same _ _ _), wp_rdC_hi (readQ_writeQ_same _ _ _), writeQ_writeQ')
AU = 'Y + 4 * ((i:Int) + 1 - 1)'
AS = 'Y + 4 * (KY + (i:Int) * INCY - 1)'

def gen(v):
    src = open(f'{ROOT}/FGemv{v}.lean').read()
    ifs = re.findall(rf'^def (hgemv{v}_if\d+) ', src, re.M)
    b1, b2, b3, b4, dN, accU, accS, dT, main = ifs
    a, b = v
    n = f'hgemv{v}'
    al = f'(Scal.{a} ALPHA).toH'
    be = f'(Scal.{b} BETA).toH'
    dh = v == 'dh'
    stuck = f'(INCY ≠ 1 ∧ {be} ≠ 0)' if dh else 'False'
    o = []
    w = o.append
    w(f'''import Verif.FGemvActLemmas
import Verif.FGemvPf{v}

/-!
# What `{n}` does on every call (written by `tools/gen_gemv_act.py`)
-/

set_option linter.unusedSimpArgs false
set_option linter.unusedSectionVars false
set_option linter.unusedVariables false
set_option linter.unusedTactic false
set_option linter.unreachableTactic false

namespace Haxx
open Arith Quaternion Finset

variable {{R : Type}} [CommRing R] [DecidableEq R]
''')
    # ---- scaling phase
    if dh:
        w(f'''theorem {n}_40_act {{m : Mem R}} {{BETA c : Quat R}} {{IY Y I : Int}} (h : readQ m (Y + 4 * (IY - 1)) = some c) :
    wp ({n}_40_I BETA IY Y I) m (fun _ m' => m' = writeQ m (Y + 4 * (IY - 1)) (Quat.ofH (BETA.toH * c.toH))) := by
  unfold {n}_40_I
  simp only [el2c_1, el2c_2, wp_bind, wp_pure, wp_rdC_lo h, wp_rdC_hi h, wp_wrC_hi h, wp_wrC_lo (readQ_writeQ_same _ _ _), writeQ_writeQ]
  refine congrArg (writeQ m _) (eq_ofH ?_)
  ext <;> simp [Quat.lo, Quat.hi] <;> ring
''')
    w(f'''open Classical in
theorem {b4}_act {{K : Mem R → Prop}} {{m : Mem R}} {{BETA : {TY[b]}}} {{BONE BZERO : Bool}} {{INCY KY LENY Y : Int}}
    {{n : Nat}} {{c : Nat → Quat R}}
    (hz : BZERO = true ↔ {be} = 0) (ho : BONE = true ↔ {be} = 1) (hl : {be} = 1 ∨ {stuck} ∨ LENY.toNat ≤ n) (hlp : 0 < n)
    (hky : INCY = 1 → KY = 1)
    (hdisj : ∀ i j : Nat, i < n → j < n → i ≠ j → QDisj ({AS}) ({AS.replace('(i:Int)','(j:Int)')}))
    (hst : ∀ m (i : Nat) q, i < n → K m → K (writeQ m ({AS}) q))
    (hU : Upd K (fun i => {AS}) n m c m) :
    wp ({b4} BETA BONE BZERO INCY KY LENY Y) m (fun _ m' =>
      Upd K (fun i => {AS}) n m (fun i => Quat.ofH (gemvScaled {stuck} LENY.toNat {be} i (c i).toH)) m') := by''')
    normal = f'''refine wp_mono ({b4}_wp {{HS}}hz.1 ho.1 (ly := LENY.toNat) (fun _ => rfl) hky (fun i j hi hj => hdisj i j (by omega) (by omega))
    (fun m i q hi => hst m i q (by omega)) (hU.start hl)) ?_
  intro _ m' h
  have h2 := hU.chain hl hdisj h
  have e : (fun i => if i < LENY.toNat then Quat.ofH ({be} * (c i).toH) else c i) =
      fun i => Quat.ofH (gemvScaled {stuck} LENY.toNat {be} i (c i).toH) := by
    funext i
    unfold gemvScaled
    {{STK}}
    split_ifs
    · rfl
    · exact eq_ofH rfl
  rw [e] at h2
  exact h2'''
    w(f'''  by_cases h1 : {be} = 1
  · have hb := ho.2 h1
    unfold {b4}
    rw [hb, h1]
    simp only [gemvScaled_one, Bool.not_true, Bool.false_eq_true, if_false, wp_pure]
    simpa using hU''')
    if dh:
        w(f'''  by_cases hs : INCY ≠ 1 ∧ {be} ≠ 0
  swap
  · have hl := (hl.resolve_left h1).resolve_left hs
    have hs' : INCY = 1 ∨ BZERO = true ∨ BONE = true := by
      by_contra hc
      push Not at hc
      exact hs ⟨hc.1, fun e => hc.2.1 (hz.2 e)⟩
    ''' + normal.format(HS="hs' ", STK='rw [if_neg hs]').replace('\n  ', '\n    ') + f'''
  · have hb : BONE = false := by
      by_contra hc
      exact h1 (ho.1 (by simpa using hc))
    have hb0 : BZERO = false := by
      by_contra hc
      exact hs.2 (hz.1 (by simpa using hc))
    unfold {b4} {b3} {b2}
    simp only [hb, hb0, hs.1, decide_false, Bool.not_false, Bool.false_eq_true, if_false, if_true, wp_bind, wp_pure]
    apply wp_forN (fun k m' => Upd K (fun i => {AS}) n m (fun i => Quat.ofH (if i = 0 then {be} ^ k * (c i).toH else (c i).toH)) m')
    · refine ⟨fun i hi => ?_, hU.k, fun _ _ => rfl⟩
      rw [hU.cur i hi]
      refine congrArg some (eq_ofH ?_)
      simp
    · intro k m1 _ hk
      have h0 := hk.cur 0 (by omega)
      simp only [Nat.cast_zero, zero_mul, add_zero, if_true] at h0
      refine wp_mono ({n}_40_act h0) ?_
      rintro _ m2 rfl
      have e0 : (Y + 4 * (KY - 1)) = Y + 4 * (KY + ((0:Nat):Int) * INCY - 1) := by simp
      refine ⟨fun i hi => ?_, ?_, ?_⟩
      · by_cases hi0 : i = 0
        · subst hi0
          rw [← e0, readQ_writeQ_same]
          simp only [if_true, toH_ofH, pow_succ', mul_assoc]
          rfl
        · have hd := hdisj i 0 hi (by omega) hi0
          rw [← e0] at hd
          rw [readQ_writeQ_disj hd, hk.cur i hi]
          simp only [hi0, if_false]
      · rw [e0]; exact hst _ 0 _ (by omega) hk.k
      · intro cc hcc
        rw [writeQ_other (by have := hcc 0 (by omega); simpa using this)]
        exact hk.out cc hcc
    · intro m' h
      have e : (fun i => Quat.ofH (if i = 0 then {be} ^ LENY.toNat * (c i).toH else (c i).toH)) =
          fun i => Quat.ofH (gemvScaled {stuck} LENY.toNat {be} i (c i).toH) := by
        funext i
        unfold gemvScaled
        rw [if_pos hs]
      rw [← e]
      exact h
''')
    else:
        w('  have hl := (hl.resolve_left h1).resolve_left not_false\n  ' + normal.format(HS='', STK='rw [if_neg not_false]') + '\n')
    # ---- N, strided, quaternion ALPHA
    if a == 'h':
        T = f'({al} * ((a i j).toH * (x j).toH) + gemvErr ALPHA (a i j) (x j))'
        w(f'''theorem {n}_80_act {{K : Mem R → Prop}} {{m0 m : Mem R}} {{ALPHA : Quat R}} {{A LDA M N X INCX Y INCY KY JX : Int}}
    {{a : Nat → Nat → Quat R}} {{x c : Nat → Quat R}}
    (env : GvEnv K A LDA M.toNat N.toNat a (X + 4 * (JX - 1)) INCX N.toNat x (fun i => {AS}) M.toNat)
    (hU : Upd K (fun i => {AS}) M.toNat m0 c m) :
    wp (foldN N.toNat (fun i (s : Int) => {n}_80_J A ALPHA INCX INCY KY LDA M X Y ((i:Int) + 1) s) JX) m (fun _ m' =>
      Upd K (fun i => {AS}) M.toNat m0
        (fun i => Quat.ofH ((c i).toH + ∑ j ∈ range N.toNat, {T})) m') := by
  have hdisj := env.disj
  have hst := env.stable
  refine wp_accPassS (fun j => JX + (j:Int) * INCX) (by simp) (fun j i => {T}) hU ?_
  intro j m c hj hU'
  have hX : readQ m (X + 4 * (JX + (j:Int) * INCX - 1)) = some (x j) := by
    rw [← env.rdX m hU'.k j hj]; congr 1; ring
  unfold {n}_80_J
  simp only [{rd('hX')}]
  refine wp_mono (wp_pass (fun i => KY + (i:Int) * INCY) (by simp) hdisj hst hU'
      (c' := fun i => Quat.ofH ((c i).toH + {T})) ?_) ?_
  · intro i m hi hk hC
    have hA := env.rdA m hk i j hi hj
    have hA' := matAt_write env.rdA (fun q => hst m i q hi hk) hi hj
    unfold {n}_70_I
    simp only [{rd('hA', "(hA' _)", 'hC')}, {WC}]
    refine ⟨by push_cast; ring, congrArg (writeQ m _) (eq_ofH ?_)⟩
    ext <;> simp [Scal.toH, gemvErr_re, gemvErr_imI, gemvErr_imJ, gemvErr_imK, Quat.lo, Quat.hi] <;> ring
  · rintro _ m' ⟨_, h⟩
    exact ⟨by push_cast; ring, h⟩

theorem {dN}_act {{K : Mem R → Prop}} {{m0 m : Mem R}} {{ALPHA : Quat R}} {{A LDA M N X INCX Y INCY JX KY : Int}}
    {{a : Nat → Nat → Quat R}} {{x c : Nat → Quat R}} (hky : INCY = 1 → KY = 1)
    (env : GvEnv K A LDA M.toNat N.toNat a (X + 4 * (JX - 1)) INCX N.toNat x (fun i => {AS}) M.toNat)
    (hU : Upd K (fun i => {AS}) M.toNat m0 c m) :
    wp ({dN} A ALPHA INCX INCY JX KY LDA M N X Y) m (fun _ m' =>
      Upd K (fun i => {AS}) M.toNat m0
        (fun i => Quat.ofH ((c i).toH + ({al} * (∑ j ∈ range N.toNat, (a i j).toH * (x j).toH) +
          if INCY = 1 then 0 else ∑ j ∈ range N.toNat, gemvErr ALPHA (a i j) (x j)))) m') := by
  by_cases h1 : INCY = 1
  · refine wp_mono ({dN}_wp h1 hky env hU) ?_
    intro _ m' h
    simp only [h1, if_true, add_zero, mul_sum] at h ⊢
    exact h
  · unfold {dN}
    simp only [h1, decide_false, Bool.false_eq_true, if_false]
    rw [wp_bind]
    refine wp_mono ({n}_80_act env hU) ?_
    intro _ m' h
    rw [wp_pure]
    simp only [sum_add_distrib, ← mul_sum] at h
    exact h
''')
    # ---- top
    LX = "(if lsame TRANS 'N' = true then N else M)"
    LY = "(if lsame TRANS 'N' = true then M else N)"
    CX = "(if lsame 'T' TRANS = true then N else M)"
    CY = "(if lsame 'T' TRANS = true then M else N)"
    zt = {'d': 'Cplx.feq (Cplx.ofReal {0}) (⟨zero, zero⟩ : Cplx R)', 'z': 'Cplx.feq {0} (⟨zero, zero⟩ : Cplx R)',
          'h': 'Cplx.feq (Quat.lo {0}) (⟨zero, zero⟩ : Cplx R) && Cplx.feq (Quat.hi {0}) (⟨zero, zero⟩ : Cplx R)'}
    ot = {k: z.replace('⟨zero, zero⟩', '⟨one, zero⟩', 1) for k, z in zt.items()}
    az = zt[a].format('ALPHA'); bz = zt[b].format('BETA'); bo = ot[b].format('BETA')
    ADDR = f'(fun i : Nat => fbase Y {CY} INCY + 4 * ((i:Int) * INCY))'
    OP = f'''(if lsame TRANS 'N' = true then (a i k).toH else if lsame 'T' TRANS = true then (a k i).toH
            else star (a k i).toH)'''
    ERR = f" + (if lsame TRANS 'N' = true ∧ INCY ≠ 1 then ∑ k ∈ range {LX}.toNat, gemvErr ALPHA (a i k) (x k) else 0)" if a == 'h' else ''
    RES = f'''(fun i => Quat.ofH ((if i < {LY}.toNat then {al} * (∑ k ∈ range {LX}.toNat, {OP} * (x k).toH){ERR} else 0) +
          gemvScaled {stuck} {CY}.toNat {be} i (c i).toH))'''
    w(f'''open Classical in
/-- `{n}`, whatever the lengths, flags and increments: it scales as many elements as `LENY` of the code says, adds to as many as
y has, and starts both walks where `LENX` and `LENY` of the code say. -/
theorem {n}_act {{K : Mem R → Prop}} {{m : Mem R}} {{TRANS : Char}} {{M N : Int}} {{ALPHA : {TY[a]}}} {{BETA : {TY[b]}}}
    {{A LDA X INCX Y INCY : Int}} {{a : Nat → Nat → Quat R}} {{x c : Nat → Quat R}} {{n : Nat}}
    (hM : 0 < M) (hN : 0 < N) (hLYn : {LY}.toNat ≤ n) (hCYn : {be} = 1 ∨ {stuck} ∨ {CY}.toNat ≤ n)
    (hst : ∀ m (i : Nat) q, i < n → K m → K (writeQ m (fbase Y {CY} INCY + 4 * ((i:Int) * INCY)) q))
    (hdisj : ∀ i j : Nat, i < n → j < n → i ≠ j →
      QDisj (fbase Y {CY} INCY + 4 * ((i:Int) * INCY)) (fbase Y {CY} INCY + 4 * ((j:Int) * INCY)))
    (env : {al} ≠ 0 → GvEnv K A LDA M.toNat N.toNat a (fbase X {CX} INCX) INCX {LX}.toNat x {ADDR} n)
    (hk : K m) (hY : VecAt m (fbase Y {CY} INCY) INCY n c) :
    wp ({n} TRANS M N ALPHA A LDA X INCX BETA Y INCY) m (fun _ m' => Upd K {ADDR} n m
        {RES} m') := by
  have hUi : Upd K {ADDR} n m c m := ⟨hY, hk, fun _ _ => rfl⟩
  have hz : ({bz}) = true ↔ {be} = 0 := ⟨scal0_{b} _, scal0_{b}' _⟩
  have ho : ({bo}) = true ↔ {be} = 1 := ⟨scal1_{b} _, scal1_{b}' _⟩
  have ha : ({az}) = true → {al} = 0 := scal0_{a} _
  have ha' : {al} = 0 → ({az}) = true := scal0_{a}' _
  have hnp : 0 < n := by
    refine lt_of_lt_of_le ?_ hLYn
    split <;> omega
  have err0 : ∀ p q : Quat R, {al} = 0 → {'gemvErr ALPHA p q = 0' if a == 'h' else 'True'} := by
    intro p q e
    {"have e0 := congrArg QuaternionAlgebra.re e" if a == 'h' else 'trivial'}''')
    if a == 'h':
        w('''    have e1 := congrArg QuaternionAlgebra.imI e
    simp [Scal.toH] at e0 e1
    ext <;> simp [gemvErr_re, gemvErr_imI, gemvErr_imJ, gemvErr_imK, Quat.lo, e0, e1]''')
    w(f'''  have nothing : {al} = 0 → {RES} =
      fun i => Quat.ofH (gemvScaled {stuck} {CY}.toNat {be} i (c i).toH) := by
    intro e
    funext i
    simp only [{'err0 _ _ e, sum_const_zero, ' if a == 'h' else ''}e, zero_mul, {'ite_self, add_zero, ' if a == 'h' else ''}ite_self, zero_add]
  unfold {n}
  dsimp only''')
    early = f'''split
  · rename_i h
    rw [wp_pure]
    simp only [Bool.or_eq_true, decide_eq_true_eq, hM.ne', hN.ne', false_or, or_self] at h
    rw [Bool.and_eq_true] at h
    rw [nothing (ha h.1), ho.1 h.2]
    simp only [gemvScaled_one]
    exact hUi'''
    if v == 'dz':
        w(f'''  rw [wp_ite]
  {early}
  · rw [wp_bind, wp_lens]
    dsimp only''')
    else:
        w(f'''  rw [wp_bind, wp_lens]
  dsimp only
  rw [wp_ite]
  {early}
  · skip''')
    w(f'''    rw [wp_bind, wp_fstart, wp_bind, wp_fstart, wp_bind]
    have hky : INCY = 1 → (if INCY > 0 then 1 else 1 - ({CY} - 1) * INCY) = 1 := by rintro rfl; rfl
    have hkx : INCX = 1 → (if INCX > 0 then 1 else 1 - ({CX} - 1) * INCX) = 1 := by rintro rfl; rfl
    have eY : ∀ i : Nat, Y + 4 * ((if INCY > 0 then 1 else 1 - ({CY} - 1) * INCY) + (i:Int) * INCY - 1) =
      fbase Y {CY} INCY + 4 * ((i:Int) * INCY) := fun i => fstart Y {CY} INCY i
    have eX : X + 4 * ((if INCX > 0 then 1 else 1 - ({CX} - 1) * INCX) - 1) = fbase X {CX} INCX := by
      have := fstart X {CX} INCX 0
      simpa using this
    generalize hgKX : (if INCX > 0 then 1 else 1 - ({CX} - 1) * INCX) = KX at *
    generalize hgKY : (if INCY > 0 then 1 else 1 - ({CY} - 1) * INCY) = KY at *
    simp only [← eY, ← eX] at hst hdisj env hUi ⊢
    refine wp_mono ({b4}_act hz ho hCYn hnp hky hdisj hst hUi) ?_
    intro _ m1 hU1
    rw [wp_ite]
    split
    · rename_i h
      rw [wp_pure, nothing (ha h)]
      exact hU1
    · rename_i h
      have env := env (fun h0 => h (ha' h0))
      clear nothing err0
      rw [wp_bind]
      unfold {main}
      rw [wp_ite]
      split
      · rename_i hNN
        simp only [hNN, if_true, true_and] at env hLYn ⊢
        rw [wp_bind]
        refine wp_mono ({dN}_{'act' if a == 'h' else 'wp'} hky ⟨env.rdA, env.rdX, fun m i q hi => env.stable m i q (by omega), fun i j hi hj => env.disj i j (by omega) (by omega)⟩
          (hU1.start hLYn)) ?_
        intro _ m' h
        simp only [wp_pure]
        have h2 := hU1.chain hLYn hdisj h
        refine ⟨fun i hi => (h2.cur i hi).trans (congrArg some (eq_ofH ?_)), h2.k, h2.out⟩
        by_cases hil : i < M.toNat
        · simp only [hil, if_true, toH_ofH{', ite_not, ne_eq' if a == 'h' else ', mul_sum'}]
          rw [add_comm]
        · simp only [hil, if_false, toH_ofH, zero_add]
      · rename_i hNN
        simp only [hNN, if_false, false_and, Bool.false_eq_true] at env hLYn ⊢
        rw [wp_bind]
        refine wp_mono ({dT}_wp (NOCONJ := lsame 'T' TRANS) hkx ⟨env.rdA, env.rdX, fun m i q hi => env.stable m i q (by omega), fun i j hi hj => env.disj i j (by omega) (by omega)⟩
          (hU1.start hLYn)) ?_
        intro _ m' h
        simp only [wp_pure]
        have h2 := hU1.chain hLYn hdisj h
        refine ⟨fun i hi => (h2.cur i hi).trans (congrArg some (eq_ofH ?_)), h2.k, h2.out⟩
        by_cases hil : i < N.toNat
        · simp only [hil, if_true, toH_ofH, add_zero]
          rw [add_comm]
        · simp only [hil, if_false, toH_ofH, zero_add]
''')
    w('end Haxx')
    open(f'{ROOT}/FGemvAct{v}.lean', 'w').write('\n'.join(o) + '\n')
for v in (sys.argv[1:] or ['dz', 'dh', 'zd', 'zz', 'zh', 'hd', 'hz', 'hh']): gen(v)
