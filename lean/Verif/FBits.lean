import Verif.FGemmLemmas

/-!
# What the Fortran GEMM routines compute, bit for bit

Pure functions of the elements a Fortran GEMM entry depends on, over any arithmetic (so NaN, infinities and every
rounding are included): one step of each kind of loop, and the value of an entry of C.  `FGemmBits<v>.lean` proves that
the nine generated routines compute `fGemm`.
-/

namespace Haxx
open Arith

section
variable {F : Type} [Arith F]

/-- A quaternion from its two `COMPLEX*16` halves. -/
def Quat.ofC (s j : Cplx F) : Quat F := ⟨s.re, s.im, j.re, j.im⟩

/-- `BETA*C(I,J)`: loops 20, 50, 140, 190 (`hgemmdd.f:69-76`, `hgemmdz.f`, `hgemmdh.f`). -/
def fScal : Scal F → Quat F → Quat F
  | .d b, c => .ofC (Cplx.ofReal b *ᶜ c.lo) (Cplx.ofReal b *ᶜ c.hi)
  | .z b, c => .ofC (b *ᶜ c.lo) (b *ᶜ c.hi)
  | .h b, c => .ofC (b.lo *ᶜ c.lo -ᶜ b.hi *ᶜ Cplx.conj c.hi) (b.lo *ᶜ c.hi +ᶜ b.hi *ᶜ Cplx.conj c.lo)

/-- `C(I,J) + A(I,L)*(ALPHA*op(B)(L,J))`, A not transposed: loops 60-70, 150-160, 200-210. `y` is the stored element of B. -/
def fStep : Scal F → FTrans → Quat F → Quat F → Quat F → Quat F
  | .d a, .C, x, y, c =>
    let HS := Cplx.ofReal a *ᶜ Cplx.conj y.lo
    let HJ := Cplx.neg (Cplx.ofReal a *ᶜ y.hi)
    .ofC (c.lo +ᶜ x.lo *ᶜ HS -ᶜ x.hi *ᶜ Cplx.conj HJ) (c.hi +ᶜ x.lo *ᶜ HJ +ᶜ x.hi *ᶜ Cplx.conj HS)
  | .d a, _, x, y, c =>
    let HS := Cplx.ofReal a *ᶜ y.lo
    let HJ := Cplx.ofReal a *ᶜ y.hi
    .ofC (c.lo +ᶜ x.lo *ᶜ HS -ᶜ x.hi *ᶜ Cplx.conj HJ) (c.hi +ᶜ x.lo *ᶜ HJ +ᶜ x.hi *ᶜ Cplx.conj HS)
  | .z a, .C, x, y, c =>
    let H1S := a *ᶜ y.lo
    let H1J := Cplx.neg (a *ᶜ y.hi)
    let H2S := a *ᶜ Cplx.conj y.lo
    let H2J := Cplx.neg (a *ᶜ Cplx.conj y.hi)
    .ofC (c.lo +ᶜ x.lo *ᶜ H2S -ᶜ x.hi *ᶜ H2J) (c.hi +ᶜ x.lo *ᶜ H1J +ᶜ x.hi *ᶜ H1S)
  | .z a, _, x, y, c =>
    let H1S := a *ᶜ y.lo
    let H1J := a *ᶜ y.hi
    let H2S := a *ᶜ Cplx.conj y.lo
    let H2J := a *ᶜ Cplx.conj y.hi
    .ofC (c.lo +ᶜ x.lo *ᶜ H1S -ᶜ x.hi *ᶜ H2J) (c.hi +ᶜ x.lo *ᶜ H1J +ᶜ x.hi *ᶜ H2S)
  | .h a, .C, x, y, c =>
    let H1S := a.lo *ᶜ y.lo
    let H1J := Cplx.neg (a.lo *ᶜ y.hi)
    let H2S := a.lo *ᶜ Cplx.conj y.lo
    let H2J := Cplx.neg (a.lo *ᶜ Cplx.conj y.hi)
    let H3S := a.hi *ᶜ y.lo
    let H3J := Cplx.neg (a.hi *ᶜ y.hi)
    let H4S := a.hi *ᶜ Cplx.conj y.lo
    let H4J := Cplx.neg (a.hi *ᶜ Cplx.conj y.hi)
    .ofC (c.lo +ᶜ x.lo *ᶜ H2S -ᶜ x.hi *ᶜ H2J -ᶜ Cplx.conj x.lo *ᶜ H4J -ᶜ Cplx.conj x.hi *ᶜ H4S)
      (c.hi +ᶜ x.lo *ᶜ H1J +ᶜ x.hi *ᶜ H1S +ᶜ Cplx.conj x.lo *ᶜ H3S -ᶜ Cplx.conj x.hi *ᶜ H3J)
  | .h a, _, x, y, c =>
    let H1S := a.lo *ᶜ y.lo
    let H1J := a.lo *ᶜ y.hi
    let H2S := a.lo *ᶜ Cplx.conj y.lo
    let H2J := a.lo *ᶜ Cplx.conj y.hi
    let H3S := a.hi *ᶜ y.lo
    let H3J := a.hi *ᶜ y.hi
    let H4S := a.hi *ᶜ Cplx.conj y.lo
    let H4J := a.hi *ᶜ Cplx.conj y.hi
    .ofC (c.lo +ᶜ x.lo *ᶜ H1S -ᶜ x.hi *ᶜ H2J -ᶜ Cplx.conj x.lo *ᶜ H4J -ᶜ Cplx.conj x.hi *ᶜ H3S)
      (c.hi +ᶜ x.lo *ᶜ H1J +ᶜ x.hi *ᶜ H2S +ᶜ Cplx.conj x.lo *ᶜ H4S -ᶜ Cplx.conj x.hi *ᶜ H3J)

/-- One step of `HTMP = HTMP + op(A)(I,L)*op(B)(L,J)`, A transposed: loops 90, 110, 230, 250, 270, 290. `x`, `y` are the
stored elements. -/
def fAcc : FTrans → FTrans → Quat F → Quat F → Quat F → Quat F
  | .C, .C, x, y, s => .ofC (s.lo +ᶜ Cplx.conj x.lo *ᶜ Cplx.conj y.lo -ᶜ x.hi *ᶜ Cplx.conj y.hi)
      (s.hi -ᶜ Cplx.conj x.lo *ᶜ y.hi -ᶜ x.hi *ᶜ y.lo)
  | .C, _, x, y, s => .ofC (s.lo +ᶜ Cplx.conj x.lo *ᶜ y.lo +ᶜ x.hi *ᶜ Cplx.conj y.hi)
      (s.hi +ᶜ Cplx.conj x.lo *ᶜ y.hi -ᶜ x.hi *ᶜ Cplx.conj y.lo)
  | _, .C, x, y, s => .ofC (s.lo +ᶜ x.lo *ᶜ Cplx.conj y.lo +ᶜ x.hi *ᶜ Cplx.conj y.hi)
      (s.hi -ᶜ x.lo *ᶜ y.hi +ᶜ x.hi *ᶜ y.lo)
  | _, _, x, y, s => .ofC (s.lo +ᶜ x.lo *ᶜ y.lo -ᶜ x.hi *ᶜ Cplx.conj y.hi)
      (s.hi +ᶜ x.lo *ᶜ y.hi +ᶜ x.hi *ᶜ Cplx.conj y.lo)

/-- `ALPHA*HTMP` where BETA is zero, after loops 90, 110, 230, 250, 270, 290. -/
def fAlpha : Scal F → Quat F → Quat F
  | .d a, s => .ofC (Cplx.ofReal a *ᶜ s.lo) (Cplx.ofReal a *ᶜ s.hi)
  | .z a, s => .ofC (a *ᶜ s.lo) (a *ᶜ s.hi)
  | .h a, s => .ofC (a.lo *ᶜ s.lo -ᶜ a.hi *ᶜ Cplx.conj s.hi) (a.lo *ᶜ s.hi +ᶜ a.hi *ᶜ Cplx.conj s.lo)

/-- `ALPHA*HTMP + BETA*C(I,J)` where BETA is not zero. -/
def fAddBeta : Scal F → Quat F → Quat F → Quat F
  | .d b, t, c => .ofC (t.lo +ᶜ Cplx.ofReal b *ᶜ c.lo) (t.hi +ᶜ Cplx.ofReal b *ᶜ c.hi)
  | .z b, t, c => .ofC (t.lo +ᶜ b *ᶜ c.lo) (t.hi +ᶜ b *ᶜ c.hi)
  | .h b, t, c => .ofC (t.lo +ᶜ b.lo *ᶜ c.lo -ᶜ b.hi *ᶜ Cplx.conj c.hi) (t.hi +ᶜ b.lo *ᶜ c.hi +ᶜ b.hi *ᶜ Cplx.conj c.lo)

/-- The quaternion zero. -/
def fZero : Quat F := .ofC ⟨zero, zero⟩ ⟨zero, zero⟩

/-- The K loop with A not transposed. -/
def fSteps (al : Scal F) (tb : FTrans) (x y : Nat → Quat F) (c : Quat F) : Nat → Quat F
  | 0 => c
  | k+1 => fStep al tb (x k) (y k) (fSteps al tb x y c k)

/-- The K loop with A transposed. -/
def fAccs (ta tb : FTrans) (x y : Nat → Quat F) : Nat → Quat F
  | 0 => fZero
  | k+1 => fAcc ta tb (x k) (y k) (fAccs ta tb x y k)

end

section
variable {F : Type} [Arith F] [ArithEq F]

/-- `ALPHA.EQ.0` of the Fortran routines. -/
def Scal.fIsZero : Scal F → Bool
  | .d a => Cplx.feq (Cplx.ofReal a) ⟨zero, zero⟩
  | .z a => Cplx.feq a ⟨zero, zero⟩
  | .h a => Cplx.feq a.lo ⟨zero, zero⟩ && Cplx.feq a.hi ⟨zero, zero⟩

/-- `BETA.EQ.1` of the Fortran routines. -/
def Scal.fIsOne : Scal F → Bool
  | .d a => Cplx.feq (Cplx.ofReal a) ⟨one, zero⟩
  | .z a => Cplx.feq a ⟨one, zero⟩
  | .h a => Cplx.feq a.lo ⟨one, zero⟩ && Cplx.feq a.hi ⟨zero, zero⟩

/-- The pass over C before the K loop. -/
def fBeta (bz bo : Bool) (be : Scal F) (c : Quat F) : Quat F :=
  if bz then fZero else if bo then c else fScal be c

/-- An entry when ALPHA and BETA are not both trivial. -/
def fMain (ta tb : FTrans) (al : Scal F) (bz bo : Bool) (be : Scal F) (K : Nat) (x y : Nat → Quat F) (c : Quat F) : Quat F :=
  match ta with
  | .N => fSteps al tb x y (fBeta bz bo be c) K
  | _ => if bz then fAlpha al (fAccs ta tb x y K) else fAddBeta be (fAlpha al (fAccs ta tb x y K)) c

/-- An entry of C after GEMM: `x k` and `y k` are the stored elements of A and B that op(A)(i,k) and op(B)(k,j) refer to. -/
def fGemm (ta tb : FTrans) (al be : Scal F) (K : Int) (x y : Nat → Quat F) (c : Quat F) : Quat F :=
  if (al.fIsZero || decide (K = 0)) && be.fIsOne then c
  else if al.fIsZero then (if be.fIsZero then fZero else fScal be c)
  else fMain ta tb al be.fIsZero be.fIsOne be K.toNat x y c

/-- `ALPHA.EQ.ZERO` of the rank-one updates: here a real ALPHA is compared as a real number. -/
def Scal.gIsZero : Scal F → Bool
  | .d a => a ==ᶠ (zero : F)
  | .z a => Cplx.feq a ⟨zero, zero⟩
  | .h a => Cplx.feq a.lo ⟨zero, zero⟩ && Cplx.feq a.hi ⟨zero, zero⟩

/-- `Y(1,JY).EQ.ZERO .AND. Y(2,JY).EQ.ZERO`: the test that skips a column of a rank-one update. -/
def Quat.fIsZero (q : Quat F) : Bool := Cplx.feq q.lo ⟨zero, zero⟩ && Cplx.feq q.hi ⟨zero, zero⟩

/-- An entry of A after a rank-one update (`t = .C` for GERC): `hger{u,c}{d,z,h}.f`. -/
def fGer (t : FTrans) (al : Scal F) (x y a : Quat F) : Quat F :=
  if al.gIsZero || y.fIsZero then a else fStep al t x y a

/-- The pass over y at the start of GEMV: loops 10, 20, 30, 40 of `hgemv{d,z,h}{d,z,h}.f`. -/
def fBetaV (be : Scal F) (y : Quat F) : Quat F :=
  if be.fIsOne then y else if be.fIsZero then fZero else fScal be y

/-- An element of y after GEMV: `a k` are the stored elements of A that op(A)(i,k) refers to. -/
def fGemv (t : FTrans) (al be : Scal F) (K : Nat) (a x : Nat → Quat F) (y : Quat F) : Quat F :=
  if al.fIsZero then fBetaV be y
  else match t with
    | .N => fSteps al .N a x (fBetaV be y) K
    | t => fAddBeta al (fBetaV be y) (fAccs t .N a x K)

end

/-- How GEMV reads TRANS: N, T, and anything else is C. -/
def FTrans.gv (c : Char) : FTrans :=
  if lsame c 'N' = true then .N else if lsame 'T' c = true then .T else .C

/-- The stored element that op(X)(i,k) refers to. -/
def FTrans.pick {α : Type} : FTrans → (Nat → Nat → α) → Nat → Nat → α
  | .N, X, i, k => X i k
  | _, X, i, k => X k i

end Haxx
