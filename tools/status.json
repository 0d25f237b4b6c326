{
 "C07": [
  "partial",
  "operator== compares q.imag_k() with itself: C07_violated proves the negation of the full statement for the code as written; C07_equality_partial proves what does hold (all components except k); C07_ieee_partial and C07_ieee_violated do the same for IEEE doubles with NaN and infinities."
 ],
 "C21": [
  "partial",
  "Violated for the code as written: AXPYM tests ALPHA==0 through operator==, which ignores k, so a pure-k ALPHA is treated as 0 (C21_*_violated); the _partial theorem proves the property for every other ALPHA."
 ],
 "C18": [
  "partial",
  "COPYV, SWAPV, SCALV and DOT agree across the SIMD, portable and Fortran builds with no exception. AXPYV does not: the portable template tests ALPHA==0 through operator==, which ignores k, so it adds nothing for a pure-k ALPHA (C18_axpyv_violated); C18_axpyv_partial proves agreement for every other ALPHA."
 ],
 "C19": [
  "partial",
  "Proved for the SIMD and portable builds; the Fortran build returns early on zero ALPHA and leaves the vector unchanged (C19_fortran_violated proves the negation)."
 ],
 "C31": [
  "partial",
  "Fortran (the build in the library): a real ALPHA with INCX != 1 reads the never-assigned HTMPS (C31_real_strided_violated proves it for all such calls); every other case is proved (C31_geru_partial, C31_gerc_partial). Portable templates: `Y[JY] != 0` ignores the k component, so columns with y_j = ck are skipped (C31_portable_pure_k_violated); every other case is proved (C31_ger*_portable_partial). C31_portable_exact: the portable rank-one update is right exactly when no column is wrongly skipped (an iff over ALPHA and y)."
 ],
 "C30": [
  "partial",
  "Violated for the code as written outside GemvGood: (1) unless both scalars are real the lengths of x and y are swapped for TRANS N/T, so non-square calls update the wrong number of elements (C30_lengths_violated, C30_lengths_violated_neg); (2) with real ALPHA, quaternion BETA and INCY != 1 the scaling loop never advances (C30_strided_beta_violated); (3) with quaternion ALPHA, TRANS = N and INCY != 1 a wrong conjugate is used (C30_strided_alpha_violated). C30_gemv_partial proves every other call, C30_gemv_empty the M=0 / N=0 case. The portable template (the build used for real A) has none of these faults: C30_gemv_portable, C30_gemv_real. C30_every_call says what the code does on every call of positive sizes (lengths, starting points, scaling, additions, extra term), and C30_exact_partial characterises the calls on which that is right for every memory: an iff, so the exceptions listed are all there are."
 ],
 "C41": [
  "partial",
  "Proved for the portable GEMM and GEMV and the Fortran GEMM (all inputs), and for the Fortran GEMV where it gets the length of y right (C41_fortran_gemv_partial). Violated by the SIMD GEMM, which multiplies C by BETA unconditionally: C41_simd_violated (NaN stays NaN for every BETA) and C41_simd_depends (an explicit pair of memories)."
 ],
 "C43": [
  "partial",
  "GEMM: proved with no exception but an inaccurate `== 0` / `== 1` test of a quaternion ALPHA or BETA in the portable template (`Plain`; the failure itself is C29_header_pure_k). GEMV and GER: proved for every call on which the Fortran kernels and the portable templates are both right; the others really differ (C30_*_violated, C31_*_violated)."
 ],
 "C44": [
  "partial",
  "GEMM vs GER and GEMM vs DOT are proved without exception. GEMM vs GEMV holds for the calls GEMV gets right (C44_gemm_gemv_partial; the others are C30_*_violated)."
 ],
 "C50": [
  "partial",
  "Proved for every routine of the Fortran, template (quaternion, real or complex operands) and vectorised builds, SCALM and AXPYM of each build included, except Fortran GEMV with a non-real scalar, a non-square A and TRANS N or T, which overwrites memory behind y (C50_gemv_violated), and Fortran GERU/GERC with real ALPHA and INCX /= 1, which indexes with an uninitialised variable (C31_real_strided_violated). C50_gemv_padded: with storage for max(M,N) elements of x and y every Fortran GEMV call is safe."
 ],
 "C52": [
  "partial",
  "Holds for the Fortran kernels (C52_fortran_partial). Violated by the SIMD kernels, which walk backwards out of the storage from the pointer given (C52_simd_violated; C52_simd_from_element_zero shows they are right when given the address of logical element 0), and by the portable templates, which assert, or in SCALV do nothing (C52_portable_rejects, C52_portable_violated)."
 ],
 "C53": [
  "partial",
  "Proved for the SIMD SCALV/AXPYV/DOT/GEMM, the Fortran SCALV/AXPYV/DOT, the portable SCALV/AXPYV/DOT/GEMV/GEMM, the nine Fortran GEMMs, and the nine Fortran GEMVs outside their known defects (FGemvGood). The portable GER drops NaNs of x against a y_j it takes for zero, and a NaN y_j in its k component (C53_ger_portable_violated, C53_ger_portable_witness; C53_ger_portable_partial is the rest); the Fortran GER drops NaNs of x and ALPHA against a zero y_j (C53_ger_fortran_violated, C53_ger_fortran_witness; C53_ger_fortran_partial is the rest). SCALM/AXPYM in every build (PropsMatF) and the mixed-type templates (PropsMixNaN; GER again loses NaNs against a zero y_j: C53_ger_mixed_violated, C53_ger_mixed_witness, the rest is C53_ger_mixed_partial) are covered too."
 ],
 "C42": [
  "partial",
  "Proved for the SIMD, portable (quaternion and mixed-type) and Fortran routines, except: Fortran GEMV only outside its known defects (FGemvGood; C42_gemv_fortran_partial), where the result is wrong by more than rounding; Fortran SCALV with ALPHA = 0 leaves x unscaled (C19)."
 ],
 "C47": [
  "partial",
  "Proved for SIMD and portable routines, Fortran GEMM and GER. Fortran GEMV only outside its known defects (FGemvGood; C47_gemv_fortran_partial)."
 ],
 "C55": [
  "partial",
  "SCALV, AXPYV, DOT and GEMM in full (three builds; SCALV with ALPHA = 0 excluded, see C19). GEMV and GER outside the calls on which the Fortran or portable code is wrong (C55_gemv_partial, C55_ger_partial)."
 ],
 "C56": [
  "partial",
  "The code violates it: C56_violated, C56_bPack_violated, C56_aPack_violated show that GEMM faults when a buffer cannot be allocated (aligned_alloc unchecked, gemm.cxx:56-59). C56_alloc_partial: it holds for N <= 0 or K <= 0. C56_exact_partial: for every well-formed call and every outcome of the two allocations, exactly when it holds."
 ],
 "C59": [
  "partial",
  "Proved for the SIMD, portable (quaternion and mixed-type) and Fortran routines, except where the code is wrong on any data: Fortran GEMV only outside its defects (C59_gemv_fortran_partial), Fortran SCALV with ALPHA = 0 (C19), Fortran GER with real ALPHA and INCX /= 1 (C31), portable comparisons that ignore k (C18). C59_dot_builds_agree, C59_gemm_builds_agree: same numbers from the three builds. Instance: rneModel (IEEE double, round to nearest even, B = 2^53)."
 ],
 "C60": [
  "partial",
  "Proved for the SIMD, portable (quaternion and mixed-type) and Fortran routines, except where the code is wrong on any data: Fortran GEMV only outside its defects (C60_gemv_fortran_partial), Fortran SCALV with ALPHA = 0 (C19), Fortran GER with real ALPHA and INCX /= 1 (C31), portable comparisons that ignore k (C18). Instance: ieeeModel (IEEE double with infinities, NaN, gradual underflow, fused or not). C60_sizes_needed: the size condition cannot be dropped."
 ],
 "C48": [
  "partial",
  "Violated for the code as written in the Fortran build: HAXPYZ*/HAXPYH* store one component of y at a time and read x again for the next, so AXPYV with x and y the same vector is right for every x if and only if the imaginary part of ALPHA is zero (C48_axpyv_self_fortran_violated; C48_axpyv_self_fortran gives the exact value otherwise). All other parts hold in all builds."
 ],
 "C62": [
  "partial",
  "Proved for all calls of all builds except GERU/GERC. Violated for the code as written by GERU/GERC (Fortran and templates): columns with y_j = 0 are skipped, so accesses and faults depend on y (C62_ger_violated); C62_only_y_decides, for all calls, shows that y is the only data they depend on. The exact access sequences of the vectorised and of the portable level-1 routines are given by C62_*_accesses."
 ],
 "C63": [
  "partial",
  "Violated for the code as written only where C18/C31 are: a quaternion ALPHA = ck or y_j = ck is taken for zero (C63_pure_k_violated); every other case proved. AXPYM is not in the list: it compiles for quaternion A only; GERC does not compile for real y."
 ],
 "C64": [
  "partial",
  "Proved for every build and routine and for the mixed-type templates. Left out: calls of Fortran SCALV with ALPHA = 0 (x is left alone, C07), of Fortran GEMV outside FGemvGood and of Fortran GERU/GERC with real ALPHA and INCX /= 1 (known defects, C30/C31). The two zeros are one value in the model."
 ],
 "C20": [
  "partial",
  "Proved for SCALM over the SIMD and portable SCALV, and over the Fortran SCALV with ALPHA /= 0; with ALPHA = 0 the Fortran SCALV leaves the vector alone (C19) and SCALM the matrix (C20_scalm_fortran_zero)."
 ],
 "C65": [
  "partial",
  "Proved for SCALM over the three SCALVs and AXPYM over the portable AXPYV for every ALPHA; over the SIMD and Fortran AXPYV for ALPHA not comparing equal to zero. There AXPYM returns at once (C65_axpym_zero) while the SIMD AXPYV computes, which differs for a NaN in A and for a pure-k ALPHA (C21)."
 ],
 "C66": [
  "partial",
  "Proved for every routine and every choice of the compiler by instantiating the theorems of C60, C42, C59, C53 and C64 with the arithmetic of fused code (fusedFin, fusedStd, fusedInt, fusedNaN, fusedUnits); partial in the same places as those: Fortran GEMV outside its defects, Fortran SCALV with ALPHA = 0, Fortran GER with real ALPHA and INCX /= 1, portable comparisons that ignore k, GER skipping columns where y_j is zero. The compiler is assumed to treat equal expressions on the same operands alike, and not to reassociate."
 ],
 "C67": [
  "partial",
  "Proved for any two builds, arithmetics, layouts and scalar types (C67_*) and for one memory image compiled twice with any fusings (C67_fused_*). Partial where a build computes something else: Fortran SCALV with ALPHA = 0, scalars whose comparison with 0 or 1 lies (pure-k), GEMV and GER outside the defects of the Fortran kernels and the portable GER. SCALV, AXPYV: side L or R and positive increments; flags N, T, C."
 ],
 "C68": [
  "proved",
  "Counted on the access-level model (Thr), whose sequential meaning is the main model (run_*). Vectorised and portable routines on quaternion and mixed element types; for GERU/GERC the numbers are upper bounds, as the claim says. The Fortran level-1 routines, expansions and contraction are counted exactly, reference by reference; Fortran GEMV, GERU, GERC, GEMM have upper bounds (C68_gemv_fortran, C68_ger_fortran, C68_gemm_fortran) that hold for all nine forms and all option letters, not exact numbers."
 ],
 "C69": [
  "partial",
  "Violated by the code: q *= t and q /= t with t one of the first three components of q (through a reference or pointer) go on with the overwritten value (C69_mul_real_exact, C69_div_real_exact say with which one; C69_mul_real_violated); so do a complex operand whose imaginary part is the real part of q and a quaternion operand that starts one to three components before q (C69_overlap_violated). Everything else is proved. Operands of another component type are covered by the value conversion only."
 ],
 "C70": [
  "proved",
  "Calls excluded by the known defects are excluded by the hypothesis, as in C54 (simdQuirks, linkedQuirks, fortranQuirks, portableQuirks). Exact arithmetic (commutative ring); the user's own code between calls is arbitrary."
 ],
 "C71": [
  "partial",
  "Violated by the code: C71_gemm_computes says what each choice computes; with ALPHA in the packing of B the result is right exactly when sum (alpha a_k - a_k alpha) b_k = 0 (C71_bpack_iff), with neither switch ALPHA is ignored (C71_bpack_neither_violated). The shipped choice is right for all inputs. Builds with _FACTOR_TRANSPOSE_INTO_x_PACK undefined do not compile (packops.hpp:40 calls a Mul that does not exist), so for those switches the claim is about the micro-kernel, which does compile (C71_kernel)."
 ],
 "C72": [
  "partial",
  "Violated by the code: src/tune/gemm.cxx:65 declares the duration it accumulates into without initialising it, so the tuning program is undefined in its first pass (C72_tune_violated); with the duration initialised it is right (C72_tune_initialised_partial). The two benchmark programs satisfy the claim (C72_gemm_bench, C72_dot_bench). Printing is not modelled."
 ],
 "C73": [
  "partial",
  "Violated by the code: when the number of vectors leaves a remainder of two or more modulo PK (possible for PK >= 3) both templates stop at an assertion marked as yet to be worked out (C73_remainder_violated). For remainders 0 and 1 the claim holds for every width, operation and evaluation order. C73_gemm_instance: the packing of Gemm.lean is the instance PK = 2, as a program."
 ]
}