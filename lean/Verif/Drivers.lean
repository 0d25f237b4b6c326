import Verif.GemmTop
import Verif.FHblas1

/-!
# The shipped drivers

`src/benchmark/gemm.cxx`, `src/tune/gemm.cxx`, `src/benchmark/dot.cxx`: programs around the library.  The clock, the random
numbers (`dis(gen)`), the addresses the allocator returns and the first contents of `aligned_alloc`ed blocks are parameters.
Printing is left out.  `_DO_COMPLEX` and `_DO_FORTRAN` are not defined in the sources, so the parts they guard are left out.
-/

namespace Haxx.Drv
open Arith

variable {F : Type}

/-- `std::vector<quaternion<double>> v(n)`: `n` zeros at a fresh address — `benchmark/gemm.cxx:70-71`. -/
def vecNew [Arith F] (p : Int) (n : Nat) : Prog F Unit := allocQ p n (fun _ => zero)

/-- `for(auto &x : v) x = quaternion<double>(dis(gen),dis(gen),dis(gen),dis(gen))` — `benchmark/gemm.cxx:73-78`. -/
def fill (p : Int) (n : Nat) (r : Nat → Quat F) : Prog F Unit := forN n (fun e => storeQ (p + 4 * (e : Int)) (r e))

/-- What the allocator returns in one pass of the loop: the vectors, the packing buffers of the warm-up call and those of
the timed call. -/
structure Addrs where
  A : Int
  B : Int
  C : Int
  bWarm : Int
  aWarm : Int
  bTimed : Int
  aTimed : Int

/-- What one pass draws: the three vectors and the two complex scalars. -/
structure Draws (F : Type) where
  rA : Nat → Quat F
  rB : Nat → Quat F
  rC : Nat → Quat F
  alpha : Cplx F
  beta : Cplx F

variable [Arith F]

/-- `HBLAS_GEMM(TRANSA,TRANSB,GEMM_LEN,GEMM_LEN,GEMM_LEN,ALPHA,&A[0],GEMM_LEN,&B[0],GEMM_LEN,BETA,&C[0],GEMM_LEN)` with the
shipped block sizes — `benchmark/gemm.cxx:97-99`, `112-113`. -/
def call (b a : Int) (junk : Int → F) (d : Addrs) (r : Draws F) (n : Nat) : Prog F Unit :=
  gemmAVX ⟨64, 512, 64⟩ b a junk 'N' 'N' n n n (.z r.alpha) d.A n d.B n (.z r.beta) d.C n

/-- One pass up to the end of the timed call — `benchmark/gemm.cxx:70-113`, `tune/gemm.cxx:71-114`. -/
def passBody (junk : Int → F) (d : Addrs) (r : Draws F) (n : Nat) : Prog F Unit := do
  vecNew d.A (n * n)
  vecNew d.B (n * n)
  vecNew d.C (n * n)
  fill d.A (n * n) r.rA
  fill d.B (n * n) r.rB
  fill d.C (n * n) r.rC
  if n = 500 then call d.bWarm d.aWarm junk d r n else pure ()
  call d.bTimed d.aTimed junk d r n

/-- The vectors are destroyed in reverse order at the end of the pass. -/
def passEnd (d : Addrs) (n : Nat) : Prog F Unit := do
  freeQ d.C (n * n)
  freeQ d.B (n * n)
  freeQ d.A (n * n)

/-- `main` of `benchmark/gemm.cxx:59-132`: `GEMM_LEN` = 500, 1000, …, 5000.  (Its loop with any bounds; `hi = 5000`.) -/
def gemmBench (lo hi inc : Nat) (junk : Nat → Int → F) (d : Nat → Addrs) (r : Nat → Draws F) : Prog F Unit :=
  forN ((hi - lo) / inc + 1) (fun t => do
    passBody (junk t) (d t) (r t) (lo + t * inc)
    passEnd (d t) (lo + t * inc))

/-- `dur += dt`: an uninitialised `dur` (`none`) is undefined behaviour. -/
def addTo (dur : Option F) (dt : F) : Prog F (Option F) :=
  match dur with
  | none => fault .uninit
  | some x => pure (some (x +ᶠ dt))

/-- `main` of `tune/gemm.cxx:59-137`, `GEMM_LEN` = 500, 1000, 1500, 2000, returning the total printed at the end.
`dur0` is `hgemmDur` as declared at line 65; `dt t` the time measured in pass `t`. -/
def gemmTune (dur0 : Option F) (lo hi inc : Nat) (dt : Nat → F) (junk : Nat → Int → F) (d : Nat → Addrs) (r : Nat → Draws F) :
    Prog F (Option F) :=
  foldN ((hi - lo) / inc + 1) (fun t dur => do
    passBody (junk t) (d t) (r t) (lo + t * inc)
    let dur ← addTo dur (dt t)
    passEnd (d t) (lo + t * inc)
    pure dur) dur0

/-- One pass of the loop of `benchmark/dot.cxx:65-99`; returns the last result of the Fortran and of the SIMD routine. -/
def dotPass (start X Y N : Int) : Prog F (Quat F × Quat F) := do
  if N = start then (do let _ ← dotAVX false N X 1 Y 1; pure ()) else pure ()
  let rf ← foldN 10 (fun _ _ => hdotu N X 1 Y 1) ⟨zero, zero, zero, zero⟩
  let rs ← foldN 10 (fun _ _ => dotAVX false N X 1 Y 1) rf
  pure (rf, rs)

/-- `main` of `benchmark/dot.cxx:37-107` (`USE_ALIGNED_MEM`), `DOT_LEN_MAX` = `max` = 10000000, `DOT_LEN_START` = `start` =
100, `NTEST` = `tests` = 10.  `nAlloc + nAlloc % 32` is `nAlloc`: the sizes are multiples of 32. -/
def dotBench (start max tests : Nat) (jX jY : Int → F) (X Y : Int) (rX rY : Nat → Quat F) : Prog F (List (Quat F × Quat F)) := do
  allocQ X max jX
  allocQ Y max jY
  forN max (fun e => do
    storeQ (X + 4 * (e : Int)) (rX e)
    storeQ (Y + 4 * (e : Int)) (rY e))
  let res ← foldN ((max - start) / ((max - start) / tests) + 1) (fun t (l : List (Quat F × Quat F)) => do
    let p ← dotPass start X Y (start + t * ((max - start) / tests) : Nat)
    let _ ← i32 ((start + t * ((max - start) / tests) : Nat) + ((max - start) / tests : Nat))
    pure (l ++ [p])) []
  freeQ X max
  freeQ Y max
  pure res

end Haxx.Drv
