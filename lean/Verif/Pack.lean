import Verif.GemmTop

/-!
# The packing templates for any packing width

`include/hblas/pack/pack.hpp` and the tuple helpers of `include/util/boilerplate.hpp` as they are written: templates in the
packing width `PK` and the packing operations.  `Gemm.lean` has the instance `PK = 2`; here `PK`, the operation on a tuple (`OP`)
and the one on an element (`preOP`) are parameters.  A tuple is a list.  C++ does not fix the order in which the arguments of
`std::make_tuple(op(std::get<Is>(t))...)` are evaluated: the order, for a tuple of `k`, is the list `o k`.
-/

namespace Haxx.Pack
open Arith

variable {F : Type} [Arith F]

/-- `pointer_sequence<N>(seed,INC)`: `seed, seed+INC, …` — `boilerplate.hpp:24-41`. -/
def pointerSequence (N : Nat) (seed inc : Int) : List Int := (List.range N).map (fun (i : Nat) => seed + 4 * ((i : Int) * inc))

/-- `apply(load_preOP, xCol)`: load and pre-process through every pointer, evaluated in the order `o` —
`boilerplate.hpp:56-74`, `pack.hpp:64-67`. -/
def applyLoad (o : List Nat) (pre : V4 F → V4 F) (t : List Int) : Prog F (List (V4 F)) := do
  let f ← foldN o.length (fun n (f : Nat → V4 F) => do
    let x ← loadQ (t.getD (o.getD n 0) 0)
    pure (fun k => if k = o.getD n 0 then pre x else f k)) (fun _ => setzero)
  pure ((List.range t.length).map f)

/-- `apply_n_impl<n>(load_preOP, xCol)`: `n` further calls without argument (`Load()` is zero) at the end of the tuple —
`boilerplate.hpp:84-107`, `pack.hpp:68-71`. -/
def applyNImpl (o : List Nat) (pre : V4 F → V4 F) (t : List Int) : Nat → Prog F (List (V4 F))
  | 0 => applyLoad o pre t
  | n + 1 => do
    let r ← applyNImpl o pre t n
    pure (r ++ [pre setzero])

/-- `array_tuple_execute(store,xp,x_t)` — `boilerplate.hpp:131-180`: element `s` of the tuple to `xp + s`. -/
def storeAll : Int → List (V4 F) → Prog F Unit
  | _, [] => pure ()
  | p, x :: l => do
    storeQ p x
    storeAll (p + 4) l

/-- One iteration of `loopBody` — `pack.hpp:81-95` (`inc = 1`), `pack.hpp:169-182` (`inc = LDX`); state `(xCol, xp)`. -/
def body (PK : Nat) (o : Nat → List Nat) (pre : V4 F → V4 F) (OP : List (V4 F) → List (V4 F)) (inc : Int) (s : List Int × Int) :
    Prog F (List Int × Int) := do
  let x ← applyNImpl (o s.1.length) pre s.1 (PK - s.1.length)
  storeAll s.2 (OP x)
  pure (s.1.map (fun p => p + 4 * inc), s.2 + 4 * PK)

/-- `TPACK<PK,…>` — `pack.hpp:28-127`, for `M, N ≥ 0`. -/
def TPACK (PK : Nat) (o : Nat → List Nat) (pre : V4 F → V4 F) (OP : List (V4 F) → List (V4 F)) (M N X LDX Xp : Int) :
    Prog F Unit := do
  let s ← foldN (N / PK).toNat (fun _ (s : Int × Int) => do
    let r ← foldN M.toNat (fun _ c => body PK o pre OP 1 c) (pointerSequence PK s.1 LDX, s.2)
    pure (s.1 + 4 * (PK * LDX), r.2)) (X, Xp)
  let j := N % PK
  if j ≠ 0 then do
    assertP (j == 1)
    let _ ← foldN M.toNat (fun _ c => body PK o pre OP 1 c) ([s.1], s.2)
    pure ()
  else pure ()

/-- `NPACK<PK,…>` — `pack.hpp:133-234`, for `M, N ≥ 0`. -/
def NPACK (PK : Nat) (o : Nat → List Nat) (pre : V4 F → V4 F) (OP : List (V4 F) → List (V4 F)) (M N X LDX Xp : Int) :
    Prog F Unit := do
  let s ← foldN (M / PK).toNat (fun _ (s : Int × Int) => do
    let r ← foldN N.toNat (fun _ c => body PK o pre OP LDX c) (pointerSequence PK s.1 1, s.2)
    pure (s.1 + 4 * PK, r.2)) (X, Xp)
  let i := M % PK
  if i ≠ 0 then do
    assertP (i == 1)
    let _ ← foldN N.toNat (fun _ c => body PK o pre OP LDX c) ([s.1], s.2)
    pure ()
  else pure ()

end Haxx.Pack
