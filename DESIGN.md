# HAXX — formal model and proofs in Lean 4

Property list: `properties.jsonl` (C01 …). Status: `MANIFEST.json`.

## 1. Approach

* **Arithmetic.** Scalar code is written once over an uninterpreted operation class `Arith F`
  (zero, one, add, sub, mul, neg = sign-bit flip, fma, fms, fnma). No law is assumed of it, so
  everything proved for a general `Arith F` holds for IEEE doubles bit by bit (with NaNs, −0, any
  rounding). `Arith` is then instantiated from an arbitrary commutative ring `R`, which gives the
  *exact-arithmetic* theorems (`fma a b c = a*b+c`). Norm/inverse/versor use ℝ. Exact-arithmetic
  theorems say the program computes the right polynomial in its inputs; the structural theorems say
  which operations are executed and in which order; and a third reading of `Arith` (`StdModel`, C42)
  assumes a relative error of at most `u` per operation and bounds the deviation from the exact result.
* **Specification of quaternions.** The independent specification is Mathlib's `Quaternion R`
  (`ℍ[R]`), its `*`, `star`, `normSq`, and finite sums `∑ k ∈ range K`. The code's struct `Quat`
  is related to it by the evident component map `toH`.
* **Memory.** A flat memory of 8-byte cells `Int → Option F` (`none` = inaccessible). A
  `quaternion<double>` at address `p` occupies cells `p..p+3`, element `i` of a pointer `p` is at
  `p+4*i`; a cell address is 32-byte aligned iff it is a multiple of 4. Arrays may overlap in any
  way; non-overlap is an explicit hypothesis wherever needed.
* **Undefined behaviour** is a distinct outcome: programs are `Mem → Except Fault (α × Mem)` with
  faults `oob`, `misaligned`, `assertFail`, `overflow` (signed int32), `uninit`. A theorem of the form
  "the program returns `ok`" is therefore also a memory-safety / no-UB theorem.
* **Loops** are structural recursions (`forN`, `foldN`, `forStep`), with one invariant rule each.
* **SIMD** registers are 4-tuples; every intrinsic used is defined by its lane semantics
  (shuffle/permute immediates decoded bitwise).

Lean files (under `lean/Verif/`):

| file | contents |
|---|---|
| `Arith`, `Mem` | op class, ring instance; memory, faults, program monad, loop combinators, wp rules |
| `Spec`, `SpecUtil` | the independent specification vocabulary (vectors, matrices, cells, "nothing else changes") |
| `Quat`, `QuatLemmas` | the scalar class and free functions (`include/haxx/*.hpp`) |
| `Simd` | registers, intrinsics, `qop.hpp`, `misc.hpp`, `types.hpp` |
| `Hblas1`, `Hblas1Proofs`, `Hblas1m` | level-1 AVX kernels; SCALM, AXPYM |
| `Generic1`, `Generic1Proofs` | the portable level-1 templates |
| `Generic3`, `Generic2Proofs`, `Generic3Proofs` | the portable GEMV/GERU/GERC and GEMM templates |
| `Gemm`, `GemmPack`, `GemmKern`, `GemmTop`, `GemmProofs*` | AVX GEMM: packing, micro-kernel, drivers |
| `Fortran`, `FortranLemmas` | COMPLEX*16 arrays, LSAME, `SIGN`-like helpers, and their proof rules |
| `FHblas1`, `FHblas1Proofs*` | Fortran level 1 (generated) |
| `FGemm{dd..hh}`, `FGemmPf*`, `FGemmLemmas` | the nine `hgemm??.f` (generated), their proofs (generated from one script) |
| `FGemv{dd..hh}`, `FGemvPf*`, `FGemvLemmas` | the nine `hgemv??.f` (generated) and proofs |
| `FGemvAct*`, `PropsGemvExact` | what the eight faulty `hgemv??.f` do on every call (generated by `tools/gen_gemv_act.py`), and the exact set of calls on which GEMV is right |
| `PropsGerExact` | the exact set of calls on which the portable GERU/GERC are right |
| `FGer`, `FGerPf`, `FGerLemmas` | the six `hger??.f` (generated) and proofs |
| `FUtil`, `Util`, `UtilProofs` | `hzexp*.f`, `hdexp*.f`, `hzcon*.f` (generated); wrappers; LSAME, FixMod, IS_ALIGNED |
| `Rel`, `RelF`, `FBeta0*` | relational triples (two runs of one program); BETA = 0 in the Fortran GEMM/GEMV (generated) |
| `GenericBits`, `Generic2Bits` | the operations the portable DOT, GEMM, GEMV and GER perform, in order, over a general `Arith F` |
| `Round`, `RoundQ`, `RoundK`, `RoundP`, `RoundF` | the standard model of rounded arithmetic and its error calculus (scalars, quaternions, SIMD, portable, Fortran) |
| `FBits`, `FGemmBits*`, `PropsFBits`, `PropsRoundF` | what the nine Fortran GEMMs compute operation by operation (`fGemm`), in any arithmetic (`tools/gen_gemm_bits.py` writes the nine proofs); C47, C53, C42 for them |
| `FGerBits`, `PropsFBits2`, `FGemvBits*`, `PropsFBits3` | the same for the six Fortran GERs (`fGer`) and the nine Fortran GEMVs (`fGemv`), generated by `tools/gen_ger_bits.py` and `tools/gen_gemv_bits.py` |
| `FHblas1Bits`, `PropsFBits4` | the same for the Fortran SCALV, AXPYV and DOT; C40 for the portable and Fortran level 1 |
| `PropsAgree` | C55: the builds compared with each other in rounded arithmetic |
| `PropsAlloc`, `PropsAllocExact` | C56: GEMM when `aligned_alloc` fails |
| `PropsRoundS` | C57: rounding errors of norm, inverse, versor, division, products, commutators |
| `Thread` | programs as trees of single memory accesses, pools of threads, all interleavings; race-free pools behave as each thread alone |
| `ThrPrim`, `ThrSimd`, `ThrPort`, `ThrMix`, `ThrFort`, `ThrFortGemm` | every routine once more as such a tree (generated by `tools/gen_thr.py` from the model files), each with a theorem that its sequential run is the routine of the main model |
| `ThrSafe*`, `PropsSafe`, `PropsSafe2` | safety of the routines of all builds for every content and overlap (C50), C49 for all builds |
| `PropsLetters`, `PropsNegInc`, `PropsNaN` | C51, C52, C53 |
| `SpecProgram`, `PropsProgram`, `PropsProgram2` | C54: programs of calls as mathematics; refinement for any build whose single calls are right; the three builds |
| `ThrFoot`, `ThrFootSimd` | which cells a routine writes, whatever it reads |
| `F32`, `F32Hblas1`, `F32Ger`, `F32Gemv??`, `F32Util`, `F32*Pf*` | the Fortran routines once more with every INTEGER*4 operation checked for overflow (generated by `tools/gen_f32.py`), and their agreement with the unchecked ones |
| `Exact`, `Exact2`, `PropsExact`, `ExactInst`, `ExactEx` | C59: integer data; `rneModel`, IEEE double precision (round to nearest even, normal range) as an instance of `StdModel` (u = 2⁻⁵³) and `IntModel` (B = 2^53) |
| `Fin`, `Fin2`, `PropsFin`, `FinInst`, `FinEx`, `PropsEqNan` (C07 for IEEE components) | C60: moderate data; `ieeeModel`, IEEE double precision with infinities, NaN and gradual underflow (`F64`; the two zeros are one value) as an instance of `FinModel` (u = 2⁻⁵³, η = 2⁻¹⁰⁷⁵, Ω the largest double) |
| `PropsOverflow`, `PropsF32` | C38 for level 1, bounds needed; C58 |
| `PropsAlias`, `PropsAlias2`, `PropsSwapShift` | C48 |
| `PropsPrint` | C61: stream state, `operator<<`, `to_string` |
| `ThrLock*`, `PropsOblivious`, `PropsTrace`, `PropsTracePort` | C62: the sequence of accesses of a program; pairs of programs in lock step (`ThrLockFort`, `ThrLockGemm` generated by `tools/gen_lock.py`, `ThrLockGer` by `tools/gen_lockger.py`) |
| `MixGen`, `MixBits`, `PropsMix` | C63: the header templates with real or complex X, Y, A, B; with quaternion ones they are those of `Generic1`/`Generic3` (`gemmGenK_h`, …) |
| `PropsMat` | C65; C20, C21, C42 for SCALM and AXPYM over the portable and Fortran vector routines |
| `PropsMatF` | C53, C59, C60, C64 for SCALM and AXPYM in every build |
| `Fuse`, `FuseUnits`, `PropsFuse`, `PropsFuseNorm`, `FuseEx` | C66: expressions, evaluated the way the compiled code does for any choice of fused products; `fusedFin`, `fusedInt`, `fusedStd`, `fusedNaN`, `fusedUnits`: fused code is an arithmetic of C60, C59, C42, C53, C64 again (`PropsFuse`, `FuseEx` generated by `tools/gen_fuse.py`, `tools/gen_fuse_ex.py`) |
| `PropsTwo` | C67: the bound of each operation in one form for all builds (`scalv_of`, `axpyv_of`, `dot_of`, `gemm_of`, `gemv_of`, `ger_of`), then two calls on two arithmetics; `litM`: one memory image seen by two compilations |
| `Traffic`, `TrafficSimd`, `TrafficPort`, `TrafficFort`, `TrafficFort2`, `TrafficFortGemm`, `PropsTraffic`, `PropsTrafficF` | C68: number of doubles read and written: predicates `Cnt` (exact) and `CntLe` (upper bound) on access-level programs, counts of the vectorised, portable, mixed-type and Fortran routines |
| `InPlace`, `PropsInPlace` | C69: the compound assignments of `quaternion<F>` as programs on memory, operand read through its reference in every statement |
| `SpecClient`, `PropsClient` | C70: user programs as arbitrary state machines that call the library; their meaning as mathematics (`SpecClient`) and with a build (`Client.exec`); the vectorised library as it is linked (`linkedLib`) |
| `GemmCfg`, `GemmCfgProofs`, `PropsCfg` | C71: GEMM under the other compile-time switches (where ALPHA is folded in, who permutes) |
| `Pack`, `PropsPack` | C73: the packing templates for any width and operation |
| `Drivers`, `PropsDrivers` | C72: the benchmark and tuning programs |
| `PropsMixFin`, `PropsMixNaN`, `PropsMixRound` | C42, C53, C59, C60 for the mixed-type templates of `MixGen` |
| `Units`, `PropsUnits`, `UnitsInst`, `PropsUnits2`, `PropsMixUnits` | C64: two arithmetics related operation by operation up to a unit; `ieeeSigns` (IEEE double precision, ±1) and `pow2Units` (normal range, ±2^k) |
| `Props*` | the property theorems (names `Cnn_…`), with non-vacuity examples |

Generated files: `tools/f2lean.py` translates the fixed-form Fortran of `/repo/src/hblas/fortran` to Lean
definitions, one per loop and per `IF`, each with its line range; `tools/gen_fortran.sh` lists the calls.
`tools/gen_{gemm,gemv,ger,beta0}_proofs.py` instantiate one proof pattern for the type variants. Nothing is
generated at build time: the outputs are committed and are what the kernel checks. The translator is
part of the reading of the sources (section 4); its output is meant to be read next to the `.f` file.

## 2. Plan per property

| id | modelled | proof |
|---|---|---|
| C01–C04,C06,C08 | every ctor/getter/setter/operator of `haxx/*.hpp` | component-wise `ring`; transfer to `ℍ[R]` |
| C05 | `norm`, `conj`, `inv`, `versor`, `/` over ℝ with `Real.sqrt` | field arithmetic |
| C07 | `operator==` as written (compares `q.imag_k()` with itself) | **violated**: negation by witness + `_partial`; `PropsEqNan`: the same for IEEE components, where `==` also is not symmetric (a NaN in `k` counts on the right only) |
| C09,C10 | `qop.hpp`, `misc.hpp`, `types.hpp` on 4-lane registers | lane-wise `ring` / `rfl` |
| C11–C17 | `copy_swap.cxx`, `axpy_scal.cxx`, `dot.cxx` on flat memory | loop invariants |
| C18,C19 | `*_impl.hpp` level-1 templates, Fortran level-1 | loop invariants to the same specification; Fortran `ALPHA=0` violates C19 |
| C20,C21 | `SCALM`, `AXPYM` templates over the AVX, portable and Fortran kernels | nested loop invariants; AXPYM violated for pure-k ALPHA through `operator==` |
| C22–C27 | `pack.hpp`, `packops.hpp`, `kern.cxx`, `gemm.cxx`, arbitrary even MC,NC, KC>0 | packed-panel invariants, kernel fold, three nested blocked loops; structural theorem for arbitrary `Arith`, exact corollary |
| C28,C29 | all nine `hgemm??.f`, portable GEMM | nested loop invariants |
| C30,C31 | `hgemv*.f`, `hger*.f`, portable GEMV/GER | loop invariants; several variants violate the property (section 3) |
| C32–C36 | `hzexp.f`, `hdexp.f`, `hzcon.f`, `lsame.f`, wrappers | loop invariants + matrix algebra |
| C37 | `macro.hpp` | integer / bit-vector arithmetic |
| C38 | int32 checks inside the AVX model | side conditions of the same theorems; level 1 apart from DOT computes no 32-bit products at all; witnesses that the bounds are needed |
| C39 | corollary of C13/C14 | algebra |
| C40 | the level-1 AVX, portable and Fortran routines over a general `Arith F` | two runs in different memories give the same values, bit for bit |
| C41 | GEMM, GEMV in all builds, general `Arith F` | relational triples (`Rel`, `RelF`): two runs in memories that differ only in the output; SIMD GEMM **violates** it |
| C42 | the bit-level results of SIMD, portable and Fortran level 1, SIMD and portable GEMM, portable GEMV and GER, Fortran GEMM, GER and (outside its defects) GEMV, under the standard model `StdModel F u` of rounded arithmetic | a calculus of relative errors (`Round*.lean`): each computed component carries (number of roundings, magnitude); Cauchy-Schwarz turns the componentwise bound into a norm bound |
| C43 | SIMD, Fortran and portable GEMM; Fortran and portable GEMV, GER | each meets the same specification; memories that agree on the output block and outside it are equal |
| C44 | GEMM against GEMV, GER, DOT | the same argument across routines |
| C45 | SIMD GEMM | conditions of a call carry over to its blocks (`GemmPre.block`); induction over a list of blocks; sums split / star of a sum |
| C46 | SIMD GEMM, HBLAS_REAL_EXPAND, HBLAS_COMPLEX_EXPAND | C22 + C32/C33 composed; expansion is a ring homomorphism on matrices |
| C47 | portable GEMM, GEMV, GER; SIMD GEMM; Fortran GEMM, GER, GEMV; general `Arith F` | the bit-level descriptions of the results (`GenericBits`, `Generic2Bits`, `gemmAVX_wp`), read in two memories |
| C48 | SIMD and portable COPYV, SWAPV (also with itself shifted), AXPYV; Fortran AXPYV; GEMM (all builds) with A = B; GERC with x = y | loop invariant that the unread part of x is intact; C22/C28/C29 with A = B; Fortran AXPYV in place **violates** it unless ALPHA is real |
| C49 | SIMD level 1, SCALM/AXPYM, GEMM, all Fortran routines, templates (also with real or complex operands), SCALM/AXPYM of every build as trees of single-cell reads/writes; pools of threads | simulation invariant for race-free pools (each thread is where it would be alone); footprints from the safety proofs of C50 (operands of one call may overlap) |
| C50 | every routine of the three builds as a tree of single-cell accesses (`ThrFort`, `ThrFortGemm`, `ThrPort`, `ThrMix`, `ThrSimd`) | a predicate `Safe S W` on the tree (all reads in S, all writes in W, no fault, for every value read), with one rule per statement; GEMV/GER defects excluded by `Valid` and shown by `C50_gemv_violated`, `C31_real_strided_violated` |
| C51 | option letters of all builds | each routine's letter tests factored through a table (`simdSide`, `portSide`, …); the "exactly when" directions by explicit witnesses |
| C52 | level-1 routines with negative increments | the Fortran loops start at `(1-N)*INC`; SIMD and portable kernels by counterexample, and positive results for what they do instead |
| C53 | SIMD level 1 and GEMM, Fortran level 1, all portable templates, Fortran GEMM, GER, GEMV, over any arithmetic with a NaN-like set closed under the operations | bit-level descriptions of each output (C42, C47) followed operation by operation |
| C54 | the entry points of each build as one record (`simdLib`, `fortranLib`, `portableLib`), programs as lists of calls on parts of named matrices (`SpecProgram`, no memory) | each build is shown to satisfy the same list of per-call specifications (`Lawful`), then induction over the program: a layout relates memory and matrix values, each call preserves it |
| C55 | the three builds over a rounded arithmetic (`StdModel`) | both results are within the C42 bounds of the same exact value; triangle inequality |
| C56 | `gemmMay`: GEMM with the outcome of both `aligned_alloc` calls left open | the code faults: the first store into a missing buffer; where no buffer is used (N ≤ 0 or K ≤ 0) it ends in the same memory as a successful call; `C56_exact_partial`: call by call, it survives exactly if each block it did not get is one it does not use |
| C57 | the scalar operators of `Quat.lean` over `StdModel`, extended by division and square root (`DivModel`) | relative error calculus (`E`): each operation multiplies the factor; norm from components |
| C58 | the Fortran routines with checked INTEGER*4 operations (`F32*`) | relation `Eq32`: same outcome in every memory, positions bounded by a loop invariant |
| C59 | the bit-level results of all builds over `IntModel F u B`: rounded arithmetic that is exact on integers of magnitude at most B | each intermediate value is an integer with a tracked bound (`EQ`), so no operation rounds; the value is then the exact-ring one (C06-C31) |
| C60 | the bit-level results of all builds over `FinModel F u η Ω`: an operation whose exact result has magnitude at most Ω gives a finite number with relative error u (and, for products, absolute error η); nothing is said of other operations | each intermediate value is followed with its exact counterpart, a bound and the depth of roundings (`W`, `WQ`); the bound and the room left under Ω show that the next operation cannot overflow |
| C61 | `operator<<`, `to_string` over an arbitrary function that writes a number | the text cut at separators is determined; induction over the sequence |
| C62 | the interleavable programs of C49 and the list of their accesses (`Prog.trace`) | relation `Lock`: two programs with the same tree of accesses whatever each of them reads, results equal up to data; compositional rules, one proof per routine; for GERU/GERC the relation `LockS`, where the cells of y read the same in both runs; exact lists for level 1 by induction |
| C63 | AXPYV, GEMV, GERU/GERC, GEMM templates with element types as parameters (`Kind`) and the overloads of `+=`, `=` and `*` they select | the loop invariants of C29-C31 with cells of 1, 2 or 4 doubles, then the embedding of ℝ and ℂ in ℍ |
| C64 | the bit-level results of every routine of the three builds and of the mixed-type templates (the functions of C55/C56/C63: `gemmElt`, `pGemm`, `fGemm`, `pGemmK`, …), in two runs over two arithmetics related by a unit | every operation respects units (`Units`), by induction along each routine's sums; rounding to nearest even commutes with ± and with 2^k |
| C65 | `SCALM`, `AXPYM` over the three vector routines, any arithmetic | loop invariant over the columns (`scalm_wp`, `axpym_wp`) with the bit-level result of the vector routine; false for ALPHA comparing equal to zero where AXPYM returns at once |
| C66 | every routine run over unevaluated expressions, which `Ex.ev pol` evaluates as the compiled code does: each `+` and `-` may use one multiply-add with the (possibly negated) product on its left or right, as `pol` says | a fused addition has at most four times the error of an unfused one (`fuseErr'`), so fused code satisfies the hypotheses of the theorems of C60, C59, C53, C64 |
| C67 | two memories over two arithmetics whose values agree on the operands; `Build` selects the implementation | C42 for each build with a common exponent, triangle inequality through the exact result; `C67_fused_*` by `fusedStd` for two fusings of one memory image |
| C68 | the access-level programs of C49/C62 | `Cnt` is compositional (sequence, branch, loop); sums over blocks of block lengths; soundness against the trace of a run |
| C69 | `InPlace.*`: one memory program per operator, statement by statement | symbolic execution of the (at most eight) accesses with case distinction on the place of the operand; the SCALV/AXPYV part from C13/C14/C18 |
| C70 | `Client.exec`: a state machine over the calls of C54 plus loads and stores of entries, first n steps | induction on n with C54's per-call laws (`Lawful.step`); stepwise refinement of the exact machine |
| C71 | `Cfg.gemmAVX` (the driver with ALPHA where the switch puts it), `Cfg.Kern` (the micro-kernel with and without its own permutations) | the invariants of C22–C24 with the scalar of each packing as a parameter; what each choice computes is `cfgSpec` |
| C72 | `Drv.gemmBench`, `Drv.gemmTune`, `Drv.dotBench`: the `main`s, with clock, random numbers, allocator addresses and first contents of buffers as parameters; no printing | loop invariants over the passes around `gemmAVX_wp`, `dotAVX_wp` and the Fortran dot; the allocator's contract is a hypothesis, met by `bump_fresh` |
| C73 | `Pack.TPACK`, `Pack.NPACK`: the templates with `PK`, `preOP`, `OP` and the evaluation order of tuple loads as parameters; tuples are lists | invariants over panels and rows; the panels determine the buffer, so the order does not matter; equality with the `PK = 2` programs of `Gemm.lean` |

## 3. Disagreements found between the code and the properties

1. `operator==` (`haxx_quaternion_op.hpp:159-160`) compares `q.imag_k() == q.imag_k()`; the k component
   is ignored, so `==` and `!=` are wrong for quaternions differing only in k. Consequence: `HBLAS_AXPYM`
   (and the portable AXPYV, GEMV, GER, GEMM shortcuts) treat a pure-k ALPHA as zero and skip the update.
2. Every `hgemv??.f` except `hgemvdd.f` picks `LENX/LENY` with `LSAME('T',TRANS)` where `'N'` is
   meant: for M≠N the wrong number of elements of Y is scaled, and the start offsets for negative
   increments are wrong.
3. `hgemvdh.f`: strided BETA scaling loop never advances `IY`.
4. `hgemvh{d,z,h}.f`, strided Y, loop 70: `CONJG(HTMP2S)` instead of `HTMP2S`.
5. `hgerud.f`, `hgercd.f`, strided X: assigns `HTMPI` (an implicit REAL) and reads `HTMPS` uninitialised.
6. `hscald.f`, `hscalc.f`, `hscalh.f`: return without zeroing X when ALPHA=0.
7. The non-AVX build lacks GEMM bindings for ALPHA,BETA ∈ {double, complex} and misspells `DOTV_FORTRAN_IMPL`.
8. SIDE conventions differ: AVX treats anything but `'L'` as right, portable anything but `'R'` as left,
   Fortran is case-insensitive on `'R'`.
9. TRANS conventions differ: AVX GEMM accepts `'R'` and treats unknown characters as `'N'`;
   Fortran/portable GEMM treat anything but N/C as `'T'`.
10. With an odd MC or NC the packing buffers of the AVX GEMM are one register column too small.
11. Negative increments: AVX walks backwards from the given pointer; Fortran starts at the far end; portable asserts.
12. The SIMD GEMM multiplies C by BETA even when BETA = 0, so NaN/Inf in an uninitialised C survive.
13. Portable GERU/GERC skip column j when `y_j == 0`; a NaN in x (or, by 1, in the k part of y_j) is then lost.
    The Fortran GERU/GERC do the same (their test looks at all four components).

14. GEMM does not check the results of `aligned_alloc` (`gemm.cxx:56-59`): when memory runs out it writes through
    a null pointer (C56).
15. `norm` (hence `inv`, `versor`) squares without scaling: it overflows for components of about 2^513 and more, although
    the norm is representable (`C57_norm_overflow`).
16. `HAXPYC*`/`HAXPYH*` update y component by component and read x again for each: in-place AXPYV is wrong in the
    Fortran build for every ALPHA with an imaginary part (`C48_axpyv_self_fortran_violated`); the other builds get it right.
17. `q *= t` and `q /= t` (`haxx_scalar_op.hpp:82-114`) read `t` through the reference in every statement: with `t`
    bound to one of the first three components of `q` the later components use the overwritten value (C69).
18. Build system, seen while modelling what is linked (not part of any claim): with `ENABLE_GENERIC_FORTRAN` the library
    does not compile (`hblas1.cxx.in:103-104` uses `DOTV_FORTRAN_IMPL`, defined as `DOT_FORTRAN_IMPL`; COPYV and SWAPV
    are instantiated without their definitions being included), and the four GEMMs with real or complex ALPHA and BETA are
    commented out (`hblas3.cxx.in:41-54`), so they would be missing from it.
19. `config/hblas3/gemm.hpp`: `_FACTOR_ALPHA_IN_B_PACK` puts ALPHA between op(A) and op(B) (wrong for complex and quaternion
    ALPHA); with neither ALPHA switch the code compiles and ignores ALPHA; without `_FACTOR_TRANSPOSE_INTO_{A,B}_PACK` it
    does not compile (`packops.hpp:40`: unqualified `Mul`, a static member of the type wrapper) (C71).
20. `src/tune/gemm.cxx:65`: `std::chrono::duration<double> hgemmDur;` is default-initialised, so its count is indeterminate, and
    `hgemmDur += …` (line 116) reads it (C72).
21. `include/hblas/pack/pack.hpp:114-120,201-207`: with two or more vectors left over the packing templates stop at
    `assert(j == 1 /* This has yet to be worked out */)`; with `NDEBUG` they would pack one vector and drop the others (C73).

## 4. Trusted base

* Lean 4.33.0 kernel; Mathlib as installed. Axioms used by the theorems: at most `propext`,
  `Classical.choice`, `Quot.sound`.
* The reading of the C++/Fortran sources into the model (every definition cites file and lines).
* The lane semantics of the AVX intrinsics as written in `Simd.lean`.
* The memory model: doubles are the smallest addressed unit (pointers are 8-byte aligned),
  `aligned_alloc` returns a fresh 32-byte aligned block (except in C56, where it may fail).

* `HAXX_INT` is 32 bits (the default). The SIMD routines and the portable templates check their 32-bit products and sums
  that index memory (`i32`: overflow is a fault); the Fortran routines use unbounded integers, justified by C58. Address computations (pointer plus
  offset, and the offset of an array element in Fortran, which gfortran does in 64 bits) do not wrap.
* Theorems about bits, rounding and NaNs take each C++ or Fortran operation as one operation of `Arith F`, as written in the
  source. A compiler that contracts `a*b+c` into one fused operation (GCC does at -O3 -march=native unless -ffp-contract=off,
  in the portable and Fortran code and for the multiply and add intrinsics) runs a different sequence of operations: C66 covers
  accuracy (the bounds of C60 and, with 4u for u, those of C42), exactness on integers, NaNs and signs for every such choice; the exact-ring theorems are unaffected; C42, C55
  and C57 bound the sequence as written. C66 assumes that the compiler does the same with the same expression of the same
  operands wherever it occurs, and does not reassociate (no -ffast-math).
* `assert` is enabled (`assertP` stops the program); CMake sets no build type. With `NDEBUG` a run of the model
  that does not stop at an assertion is unchanged, which covers every theorem that gives a normal outcome.

Not modelled: the IEEE bit format itself (`F64` in `FinInst.lean` has the values of binary64 and its rounding, overflow and NaN rules, but one zero, one NaN and no encoding; C42 assumes the standard model `|fl(x op y) - x op y| <= u|x op y|` with sticky exceptions; `chop53` in `PropsRound.lean` and `rneModel` in `ExactInst.lean` show 53-bit arithmetics that satisfy it), NaN payload propagation inside arithmetic ops (so "the test `== 0` is
false for NaN" is not visible in the exact theorems; it is in the ones over a general `Arith F`), the NaN
recovery branch of `std::complex` multiplication, the text of a single number in `operator<<`, the
printing of the benchmark and tuning programs and their parts under `_DO_COMPLEX`/`_DO_FORTRAN`, CMake configuration. The library starts no threads and has no static data; C49 models
callers on several threads: memory is sequentially consistent (what the C++ model guarantees for race-free programs),
the unit of interleaving is one double (a vector load is four reads), and the allocator gives every call its own
fresh blocks (hypotheses of the theorems). Most properties of the portable level-2/3
templates are stated for quaternion x, y, B, C (the library's only instantiation); C63 has the other element types.
AXPYM compiles for quaternion A only (`quaternion<_F> *locA = A`), GERC not for real y. Compile-time selection (`HAXX_USE_...` options) is represented by having one definition
per build, not by a model of the preprocessor. The GEMM packing switches (`config/hblas3/gemm.hpp:37-50`) are modelled
as shipped (ALPHA factored into the A pack, transposes into both packs); with them off the code does not compile
(`GenericPackOps::preOP` calls an undeclared `Mul`).

## 5. How the theorems were tested

`seeded/LOG.jsonl` records deliberate wrong edits of the model (in a scratch copy): some by hand, aimed at a
particular claim, the bulk drawn at random from a list of token-level edits over all model files
(swapped operands, wrong component, off-by-one, dropped conjugate, wrong flag letter, wrong leading dimension, ...).
For each it lists the theorems that stopped compiling and the property theorems that rest on them.
