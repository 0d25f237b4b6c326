{
 "claims": [
  {
   "property": "C01",
   "status": "proved",
   "theorems": [
    "Haxx.C01_hamilton",
    "Haxx.C01_table",
    "Haxx.C01_assoc_distrib"
   ],
   "note": ""
  },
  {
   "property": "C02",
   "status": "proved",
   "theorems": [
    "Haxx.C02_simd_product"
   ],
   "note": ""
  },
  {
   "property": "C03",
   "status": "proved",
   "theorems": [
    "Haxx.C03_real",
    "Haxx.C03_complex",
    "Haxx.C03_quat_assign"
   ],
   "note": ""
  },
  {
   "property": "C04",
   "status": "proved",
   "theorems": [
    "Haxx.C04_conj",
    "Haxx.C04_normSq",
    "Haxx.C04_smartConj"
   ],
   "note": ""
  },
  {
   "property": "C05",
   "status": "proved",
   "theorems": [
    "Haxx.C05_norm",
    "Haxx.C05_inverse"
   ],
   "note": ""
  },
  {
   "property": "C06",
   "status": "proved",
   "theorems": [
    "Haxx.C06_comm",
    "Haxx.C06_antisymm"
   ],
   "note": ""
  },
  {
   "property": "C07",
   "status": "partial",
   "theorems": [
    "Haxx.C07_ieee_partial",
    "Haxx.C07_ieee_violated",
    "Haxx.C07_violated",
    "Haxx.C07_equality_partial"
   ],
   "note": "operator== compares q.imag_k() with itself: C07_violated proves the negation of the full statement for the code as written; C07_equality_partial proves what does hold (all components except k); C07_ieee_partial and C07_ieee_violated do the same for IEEE doubles with NaN and infinities."
  },
  {
   "property": "C08",
   "status": "proved",
   "theorems": [
    "Haxx.C08_ctor",
    "Haxx.C08_setters",
    "Haxx.C08_assign"
   ],
   "note": ""
  },
  {
   "property": "C09",
   "status": "proved",
   "theorems": [
    "Haxx.C09_batched",
    "Haxx.C09_transpose",
    "Haxx.C09_transpose_involutive"
   ],
   "note": ""
  },
  {
   "property": "C10",
   "status": "proved",
   "theorems": [
    "Haxx.C10_register_scaling"
   ],
   "note": ""
  },
  {
   "property": "C11",
   "status": "proved",
   "theorems": [
    "Haxx.C11_copyv"
   ],
   "note": ""
  },
  {
   "property": "C12",
   "status": "proved",
   "theorems": [
    "Haxx.C12_swapv",
    "Haxx.C12_swap_twice"
   ],
   "note": ""
  },
  {
   "property": "C13",
   "status": "proved",
   "theorems": [
    "Haxx.C13_scalv"
   ],
   "note": ""
  },
  {
   "property": "C14",
   "status": "proved",
   "theorems": [
    "Haxx.C14_axpyv"
   ],
   "note": ""
  },
  {
   "property": "C15",
   "status": "proved",
   "theorems": [
    "Haxx.C15_dot"
   ],
   "note": ""
  },
  {
   "property": "C16",
   "status": "proved",
   "theorems": [
    "Haxx.C16_hermitian",
    "Haxx.C16_self",
    "Haxx.C16_definite",
    "Haxx.C16_right_linear"
   ],
   "note": ""
  },
  {
   "property": "C17",
   "status": "proved",
   "theorems": [
    "Haxx.C17_nonpos",
    "Haxx.C17_dot_nonpos"
   ],
   "note": ""
  },
  {
   "property": "C18",
   "status": "partial",
   "theorems": [
    "Haxx.C18_copyv",
    "Haxx.C18_swapv",
    "Haxx.C18_scalv",
    "Haxx.C18_axpyv_partial",
    "Haxx.C18_axpyv_pureK_ignored",
    "Haxx.C18_axpyv_violated",
    "Haxx.C18_dot"
   ],
   "note": "COPYV, SWAPV, SCALV and DOT agree across the SIMD, portable and Fortran builds with no exception. AXPYV does not: the portable template tests ALPHA==0 through operator==, which ignores k, so it adds nothing for a pure-k ALPHA (C18_axpyv_violated); C18_axpyv_partial proves agreement for every other ALPHA."
  },
  {
   "property": "C19",
   "status": "partial",
   "theorems": [
    "Haxx.C19_simd_portable_partial",
    "Haxx.C19_fortran_ignored",
    "Haxx.C19_fortran_violated"
   ],
   "note": "Proved for the SIMD and portable builds; the Fortran build returns early on zero ALPHA and leaves the vector unchanged (C19_fortran_violated proves the negation)."
  },
  {
   "property": "C20",
   "status": "partial",
   "theorems": [
    "Haxx.C20_scalm",
    "Haxx.C20_scalm_empty",
    "Haxx.C20_scalm_trans",
    "Haxx.C20_scalm_portable",
    "Haxx.C20_scalm_fortran_partial",
    "Haxx.C20_scalm_fortran_zero"
   ],
   "note": "Proved for SCALM over the SIMD and portable SCALV, and over the Fortran SCALV with ALPHA /= 0; with ALPHA = 0 the Fortran SCALV leaves the vector alone (C19) and SCALM the matrix (C20_scalm_fortran_zero)."
  },
  {
   "property": "C21",
   "status": "partial",
   "theorems": [
    "Haxx.C21_axpym_partial",
    "Haxx.C21_axpym_pureK_ignored",
    "Haxx.C21_axpym_violated",
    "Haxx.C21_axpym_portable_partial",
    "Haxx.C21_axpym_fortran_partial",
    "Haxx.C21_axpym_pureK_ignored_any"
   ],
   "note": "Violated for the code as written: AXPYM tests ALPHA==0 through operator==, which ignores k, so a pure-k ALPHA is treated as 0 (C21_*_violated); the _partial theorem proves the property for every other ALPHA."
  },
  {
   "property": "C22",
   "status": "proved",
   "theorems": [
    "Haxx.C22_gemm"
   ],
   "note": ""
  },
  {
   "property": "C23",
   "status": "proved",
   "theorems": [
    "Haxx.C23_gemm_frame"
   ],
   "note": ""
  },
  {
   "property": "C24",
   "status": "proved",
   "theorems": [
    "Haxx.C24_gemm_blocking"
   ],
   "note": ""
  },
  {
   "property": "C25",
   "status": "proved",
   "theorems": [
    "Haxx.C25_pack_fits_A",
    "Haxx.C25_pack_fits_B",
    "Haxx.C25_odd_block_overflows"
   ],
   "note": ""
  },
  {
   "property": "C26",
   "status": "proved",
   "theorems": [
    "Haxx.C26_gemm_empty",
    "Haxx.C26_gemm_K0",
    "Haxx.C26_gemm_alpha0"
   ],
   "note": ""
  },
  {
   "property": "C27",
   "status": "proved",
   "theorems": [
    "Haxx.C27_pack_A",
    "Haxx.C27_pack_B"
   ],
   "note": ""
  },
  {
   "property": "C28",
   "status": "proved",
   "theorems": [
    "Haxx.C28_gemm_fortran",
    "Haxx.C28_other_flags_transpose"
   ],
   "note": ""
  },
  {
   "property": "C29",
   "status": "proved",
   "theorems": [
    "Haxx.C29_gemm_portable",
    "Haxx.C29_gemm_real",
    "Haxx.C29_header_pure_k"
   ],
   "note": ""
  },
  {
   "property": "C30",
   "status": "partial",
   "theorems": [
    "Haxx.C30_gemv_partial",
    "Haxx.C30_strided_alpha_violated",
    "Haxx.C30_lengths_violated",
    "Haxx.C30_lengths_violated_neg",
    "Haxx.C30_strided_beta_violated",
    "Haxx.C30_gemv_empty",
    "Haxx.C30_every_call",
    "Haxx.C30_exact_partial",
    "Haxx.C30_gemv_portable",
    "Haxx.C30_gemv_real",
    "Haxx.C30_portable_increment"
   ],
   "note": "Violated for the code as written outside GemvGood: (1) unless both scalars are real the lengths of x and y are swapped for TRANS N/T, so non-square calls update the wrong number of elements (C30_lengths_violated, C30_lengths_violated_neg); (2) with real ALPHA, quaternion BETA and INCY != 1 the scaling loop never advances (C30_strided_beta_violated); (3) with quaternion ALPHA, TRANS = N and INCY != 1 a wrong conjugate is used (C30_strided_alpha_violated). C30_gemv_partial proves every other call, C30_gemv_empty the M=0 / N=0 case. The portable template (the build used for real A) has none of these faults: C30_gemv_portable, C30_gemv_real. C30_every_call says what the code does on every call of positive sizes (lengths, starting points, scaling, additions, extra term), and C30_exact_partial characterises the calls on which that is right for every memory: an iff, so the exceptions listed are all there are."
  },
  {
   "property": "C31",
   "status": "partial",
   "theorems": [
    "Haxx.C31_geru_portable_partial",
    "Haxx.C31_gerc_portable_partial",
    "Haxx.C31_portable_pure_k_unchanged",
    "Haxx.C31_portable_pure_k_violated",
    "Haxx.C31_geru_partial",
    "Haxx.C31_gerc_partial",
    "Haxx.C31_real_strided_violated",
    "Haxx.C31_fortran_exact",
    "Haxx.C31_portable_exact"
   ],
   "note": "Fortran (the build in the library): a real ALPHA with INCX != 1 reads the never-assigned HTMPS (C31_real_strided_violated proves it for all such calls); every other case is proved (C31_geru_partial, C31_gerc_partial). Portable templates: `Y[JY] != 0` ignores the k component, so columns with y_j = ck are skipped (C31_portable_pure_k_violated); every other case is proved (C31_ger*_portable_partial). C31_portable_exact: the portable rank-one update is right exactly when no column is wrongly skipped (an iff over ALPHA and y)."
  },
  {
   "property": "C32",
   "status": "proved",
   "theorems": [
    "Haxx.C32_complex_expand_entries",
    "Haxx.C32_complex_expand",
    "Haxx.C32_expand_mul",
    "Haxx.C32_expand_star_algebra",
    "Haxx.C32_expand_injective",
    "Haxx.C32_expand_runs_mul"
   ],
   "note": ""
  },
  {
   "property": "C33",
   "status": "proved",
   "theorems": [
    "Haxx.C33_real_expand",
    "Haxx.C33_expand_mul",
    "Haxx.C33_expand_algebra",
    "Haxx.C33_expand_injective",
    "Haxx.C33_expand_runs_mul"
   ],
   "note": ""
  },
  {
   "property": "C34",
   "status": "proved",
   "theorems": [
    "Haxx.C34_contract_entries",
    "Haxx.C34_contract_expand"
   ],
   "note": ""
  },
  {
   "property": "C35",
   "status": "proved",
   "theorems": [
    "Haxx.C35_bad_order",
    "Haxx.C35_good_order"
   ],
   "note": ""
  },
  {
   "property": "C36",
   "status": "proved",
   "theorems": [
    "Haxx.C36_lsame",
    "Haxx.C36_lsame_equiv"
   ],
   "note": ""
  },
  {
   "property": "C37",
   "status": "proved",
   "theorems": [
    "Haxx.C37_fixMod",
    "Haxx.C37_isAligned",
    "Haxx.C37_isAligned_cells"
   ],
   "note": ""
  },
  {
   "property": "C38",
   "status": "proved",
   "theorems": [
    "Haxx.C38_gemm_no_overflow",
    "Haxx.C38_level1_no_overflow",
    "Haxx.C38_dot_no_overflow",
    "Haxx.C38_dot_bound_needed",
    "Haxx.C38_gemm_bound_needed"
   ],
   "note": ""
  },
  {
   "property": "C39",
   "status": "proved",
   "theorems": [
    "Haxx.C39_side"
   ],
   "note": ""
  },
  {
   "property": "C40",
   "status": "proved",
   "theorems": [
    "Haxx.C40_elementwise_fortran",
    "Haxx.C40_dot_fortran",
    "Haxx.C40_elementwise_portable",
    "Haxx.C40_dot_portable",
    "Haxx.C40_dot_bits",
    "Haxx.C40_elementwise"
   ],
   "note": ""
  },
  {
   "property": "C41",
   "status": "partial",
   "theorems": [
    "Haxx.C41_portable_gemm",
    "Haxx.C41_portable_gemv",
    "Haxx.C41_simd_violated",
    "Haxx.C41_simd_depends",
    "Haxx.C41_fortran_gemm",
    "Haxx.C41_fortran_gemv_partial"
   ],
   "note": "Proved for the portable GEMM and GEMV and the Fortran GEMM (all inputs), and for the Fortran GEMV where it gets the length of y right (C41_fortran_gemv_partial). Violated by the SIMD GEMM, which multiplies C by BETA unconditionally: C41_simd_violated (NaN stays NaN for every BETA) and C41_simd_depends (an explicit pair of memories)."
  },
  {
   "property": "C42",
   "status": "partial",
   "theorems": [
    "Haxx.C42_ger_fortran",
    "Haxx.C42_gemv_fortran_partial",
    "Haxx.C42_scalv_fortran",
    "Haxx.C42_axpyv_fortran",
    "Haxx.C42_dot_fortran",
    "Haxx.C42_scalm",
    "Haxx.C42_scalm_portable",
    "Haxx.C42_scalm_fortran",
    "Haxx.C42_axpym",
    "Haxx.C42_axpym_portable",
    "Haxx.C42_axpym_fortran",
    "Haxx.C42_axpyv_mixed",
    "Haxx.C42_gemm_mixed",
    "Haxx.C42_gemv_mixed",
    "Haxx.C42_ger_mixed",
    "Haxx.C42_scalv",
    "Haxx.C42_axpyv",
    "Haxx.C42_dot",
    "Haxx.C42_gemm",
    "Haxx.C42_gemv_portable",
    "Haxx.C42_ger_portable",
    "Haxx.C42_gemm_fortran",
    "Haxx.C42_mul",
    "Haxx.C42_scalv_portable",
    "Haxx.C42_axpyv_portable",
    "Haxx.C42_dot_portable",
    "Haxx.C42_gemm_portable"
   ],
   "note": "Proved for the SIMD, portable (quaternion and mixed-type) and Fortran routines, except: Fortran GEMV only outside its known defects (FGemvGood; C42_gemv_fortran_partial), where the result is wrong by more than rounding; Fortran SCALV with ALPHA = 0 leaves x unscaled (C19)."
  },
  {
   "property": "C43",
   "status": "partial",
   "theorems": [
    "Haxx.C43_gemm",
    "Haxx.C43_gemv_partial",
    "Haxx.C43_ger_partial"
   ],
   "note": "GEMM: proved with no exception but an inaccurate `== 0` / `== 1` test of a quaternion ALPHA or BETA in the portable template (`Plain`; the failure itself is C29_header_pure_k). GEMV and GER: proved for every call on which the Fortran kernels and the portable templates are both right; the others really differ (C30_*_violated, C31_*_violated)."
  },
  {
   "property": "C44",
   "status": "partial",
   "theorems": [
    "Haxx.C44_gemm_gemv_partial",
    "Haxx.C44_gemm_ger",
    "Haxx.C44_gemm_dot"
   ],
   "note": "GEMM vs GER and GEMM vs DOT are proved without exception. GEMM vs GEMV holds for the calls GEMV gets right (C44_gemm_gemv_partial; the others are C30_*_violated)."
  },
  {
   "property": "C45",
   "status": "proved",
   "theorems": [
    "Haxx.C45_tiles",
    "Haxx.C45_split_inner",
    "Haxx.C45_adjoint",
    "Haxx.C45_no_transpose_rule"
   ],
   "note": ""
  },
  {
   "property": "C46",
   "status": "proved",
   "theorems": [
    "Haxx.C46_real",
    "Haxx.C46_complex",
    "Haxx.C46_complex_scalar",
    "Haxx.C46_complex_scalar_differs"
   ],
   "note": ""
  },
  {
   "property": "C47",
   "status": "partial",
   "theorems": [
    "Haxx.C47_gemm_fortran",
    "Haxx.C47_ger_fortran",
    "Haxx.C47_gemv_fortran_partial",
    "Haxx.C47_gemm_portable",
    "Haxx.C47_gemv_portable",
    "Haxx.C47_ger_portable",
    "Haxx.C47_gemm_simd"
   ],
   "note": "Proved for SIMD and portable routines, Fortran GEMM and GER. Fortran GEMV only outside its known defects (FGemvGood; C47_gemv_fortran_partial)."
  },
  {
   "property": "C48",
   "status": "partial",
   "theorems": [
    "Haxx.C48_copyv",
    "Haxx.C48_self",
    "Haxx.C48_copyv_up",
    "Haxx.C48_axpyv",
    "Haxx.C48_axpyv_self",
    "Haxx.C48_axpyv_portable",
    "Haxx.C48_gemm_gram",
    "Haxx.C48_axpyv_fortran",
    "Haxx.C48_axpyv_self_fortran",
    "Haxx.C48_axpyv_self_fortran_real",
    "Haxx.C48_gemm_gram_fortran",
    "Haxx.C48_gemm_gram_portable",
    "Haxx.C48_gerc_self",
    "Haxx.C48_axpyv_self_fortran_violated",
    "Haxx.C48_swapv_shift",
    "Haxx.C48_swapv_shift_portable"
   ],
   "note": "Violated for the code as written in the Fortran build: HAXPYZ*/HAXPYH* store one component of y at a time and read x again for the next, so AXPYV with x and y the same vector is right for every x if and only if the imaginary part of ALPHA is zero (C48_axpyv_self_fortran_violated; C48_axpyv_self_fortran gives the exact value otherwise). All other parts hold in all builds."
  },
  {
   "property": "C49",
   "status": "proved",
   "theorems": [
    "Haxx.C49_any_calls",
    "Haxx.C49_calls",
    "Haxx.C49_gemm_tiles",
    "Haxx.C49_race_witness"
   ],
   "note": ""
  },
  {
   "property": "C50",
   "status": "partial",
   "theorems": [
    "Haxx.C50_reference_partial",
    "Haxx.C50_simd",
    "Haxx.C50_gemv_violated",
    "Haxx.C50_gemv_padded"
   ],
   "note": "Proved for every routine of the Fortran, template (quaternion, real or complex operands) and vectorised builds, SCALM and AXPYM of each build included, except Fortran GEMV with a non-real scalar, a non-square A and TRANS N or T, which overwrites memory behind y (C50_gemv_violated), and Fortran GERU/GERC with real ALPHA and INCX /= 1, which indexes with an uninitialised variable (C31_real_strided_violated). C50_gemv_padded: with storage for max(M,N) elements of x and y every Fortran GEMV call is safe."
  },
  {
   "property": "C51",
   "status": "proved",
   "theorems": [
    "Haxx.C51_scalv",
    "Haxx.C51_axpyv",
    "Haxx.C51_gemm_simd",
    "Haxx.C51_gemm",
    "Haxx.C51_gemv",
    "Haxx.C51_scalm",
    "Haxx.C51_axpym",
    "Haxx.C51_transa",
    "Haxx.C51_side_iff",
    "Haxx.C51_op_iff",
    "Haxx.C51_case_fortran",
    "Haxx.C51_case_matters"
   ],
   "note": ""
  },
  {
   "property": "C52",
   "status": "partial",
   "theorems": [
    "Haxx.C52_fortran_partial",
    "Haxx.C52_simd_from_element_zero",
    "Haxx.C52_simd_fortran_agree",
    "Haxx.C52_simd_violated",
    "Haxx.C52_portable_rejects",
    "Haxx.C52_portable_violated"
   ],
   "note": "Holds for the Fortran kernels (C52_fortran_partial). Violated by the SIMD kernels, which walk backwards out of the storage from the pointer given (C52_simd_violated; C52_simd_from_element_zero shows they are right when given the address of logical element 0), and by the portable templates, which assert, or in SCALV do nothing (C52_portable_rejects, C52_portable_violated)."
  },
  {
   "property": "C53",
   "status": "partial",
   "theorems": [
    "Haxx.C53_gemm_fortran",
    "Haxx.C53_ger_fortran_partial",
    "Haxx.C53_ger_fortran_violated",
    "Haxx.C53_ger_fortran_witness",
    "Haxx.C53_gemv_fortran_partial",
    "Haxx.C53_scalv_fortran",
    "Haxx.C53_axpyv_fortran",
    "Haxx.C53_dot_fortran",
    "Haxx.C53_scalm_simd",
    "Haxx.C53_axpym_simd",
    "Haxx.C53_scalm_portable",
    "Haxx.C53_axpym_portable",
    "Haxx.C53_scalm_fortran",
    "Haxx.C53_axpym_fortran",
    "Haxx.C53_axpyv_mixed",
    "Haxx.C53_gemm_mixed",
    "Haxx.C53_gemv_mixed",
    "Haxx.C53_ger_mixed_partial",
    "Haxx.C53_ger_mixed_violated",
    "Haxx.C53_ger_mixed_witness",
    "Haxx.C53_scalv_simd",
    "Haxx.C53_axpyv_simd",
    "Haxx.C53_dot_simd",
    "Haxx.C53_gemm_simd",
    "Haxx.C53_scalv_portable",
    "Haxx.C53_dot_portable",
    "Haxx.C53_axpyv_portable",
    "Haxx.C53_gemm_portable",
    "Haxx.C53_gemv_portable",
    "Haxx.C53_ger_portable_partial",
    "Haxx.C53_ger_portable_violated",
    "Haxx.C53_ger_portable_witness"
   ],
   "note": "Proved for the SIMD SCALV/AXPYV/DOT/GEMM, the Fortran SCALV/AXPYV/DOT, the portable SCALV/AXPYV/DOT/GEMV/GEMM, the nine Fortran GEMMs, and the nine Fortran GEMVs outside their known defects (FGemvGood). The portable GER drops NaNs of x against a y_j it takes for zero, and a NaN y_j in its k component (C53_ger_portable_violated, C53_ger_portable_witness; C53_ger_portable_partial is the rest); the Fortran GER drops NaNs of x and ALPHA against a zero y_j (C53_ger_fortran_violated, C53_ger_fortran_witness; C53_ger_fortran_partial is the rest). SCALM/AXPYM in every build (PropsMatF) and the mixed-type templates (PropsMixNaN; GER again loses NaNs against a zero y_j: C53_ger_mixed_violated, C53_ger_mixed_witness, the rest is C53_ger_mixed_partial) are covered too."
  },
  {
   "property": "C54",
   "status": "proved",
   "theorems": [
    "Haxx.C54_linked",
    "Haxx.C54_simd",
    "Haxx.C54_fortran",
    "Haxx.C54_portable",
    "Haxx.C54_builds_agree",
    "Haxx.C54_layout_independent"
   ],
   "note": ""
  },
  {
   "property": "C55",
   "status": "partial",
   "theorems": [
    "Haxx.C55_scalv",
    "Haxx.C55_axpyv",
    "Haxx.C55_dot",
    "Haxx.C55_gemm",
    "Haxx.C55_gemv_partial",
    "Haxx.C55_ger_partial"
   ],
   "note": "SCALV, AXPYV, DOT and GEMM in full (three builds; SCALV with ALPHA = 0 excluded, see C19). GEMV and GER outside the calls on which the Fortran or portable code is wrong (C55_gemv_partial, C55_ger_partial)."
  },
  {
   "property": "C56",
   "status": "partial",
   "theorems": [
    "Haxx.C56_bPack_violated",
    "Haxx.C56_aPack_violated",
    "Haxx.C56_alloc_partial",
    "Haxx.C56_violated",
    "Haxx.C56_exact_partial"
   ],
   "note": "The code violates it: C56_violated, C56_bPack_violated, C56_aPack_violated show that GEMM faults when a buffer cannot be allocated (aligned_alloc unchecked, gemm.cxx:56-59). C56_alloc_partial: it holds for N <= 0 or K <= 0. C56_exact_partial: for every well-formed call and every outcome of the two allocations, exactly when it holds."
  },
  {
   "property": "C57",
   "status": "proved",
   "theorems": [
    "Haxx.C57_norm",
    "Haxx.C57_versor",
    "Haxx.C57_inv",
    "Haxx.C57_real_div",
    "Haxx.C57_div_real",
    "Haxx.C57_mul",
    "Haxx.C57_mul_scalar",
    "Haxx.C57_add_sub",
    "Haxx.C57_comm",
    "Haxx.C57_norm_overflow"
   ],
   "note": ""
  },
  {
   "property": "C58",
   "status": "proved",
   "theorems": [
    "Haxx.F32.C58_level1",
    "Haxx.F32.C58_ger",
    "Haxx.F32.C58_gemv",
    "Haxx.F32.C58_util",
    "Haxx.F32.C58_bound_needed",
    "Haxx.F32.C58_ger_spec",
    "Haxx.F32.C58_gemv_spec"
   ],
   "note": ""
  },
  {
   "property": "C59",
   "status": "partial",
   "theorems": [
    "Haxx.C59_dot_builds_agree",
    "Haxx.C59_gemm_builds_agree",
    "Haxx.C59_scalv",
    "Haxx.C59_axpyv",
    "Haxx.C59_dot",
    "Haxx.C59_gemm",
    "Haxx.C59_scalv_portable",
    "Haxx.C59_axpyv_portable",
    "Haxx.C59_dot_portable",
    "Haxx.C59_gemm_portable",
    "Haxx.C59_gemv_portable",
    "Haxx.C59_ger_portable",
    "Haxx.C59_scalv_fortran",
    "Haxx.C59_axpyv_fortran",
    "Haxx.C59_dot_fortran",
    "Haxx.C59_gemm_fortran",
    "Haxx.C59_gemv_fortran_partial",
    "Haxx.C59_ger_fortran",
    "Haxx.C59_scalm",
    "Haxx.C59_axpym",
    "Haxx.C59_scalm_portable",
    "Haxx.C59_axpym_portable",
    "Haxx.C59_scalm_fortran",
    "Haxx.C59_axpym_fortran",
    "Haxx.C59_axpyv_mixed",
    "Haxx.C59_gemm_mixed",
    "Haxx.C59_gemv_mixed",
    "Haxx.C59_ger_mixed"
   ],
   "note": "Proved for the SIMD, portable (quaternion and mixed-type) and Fortran routines, except where the code is wrong on any data: Fortran GEMV only outside its defects (C59_gemv_fortran_partial), Fortran SCALV with ALPHA = 0 (C19), Fortran GER with real ALPHA and INCX /= 1 (C31), portable comparisons that ignore k (C18). C59_dot_builds_agree, C59_gemm_builds_agree: same numbers from the three builds. Instance: rneModel (IEEE double, round to nearest even, B = 2^53)."
  },
  {
   "property": "C60",
   "status": "partial",
   "theorems": [
    "Haxx.C60_sizes_needed",
    "Haxx.C60_scalv",
    "Haxx.C60_axpyv",
    "Haxx.C60_dot",
    "Haxx.C60_gemm",
    "Haxx.C60_scalv_portable",
    "Haxx.C60_axpyv_portable",
    "Haxx.C60_dot_portable",
    "Haxx.C60_gemm_portable",
    "Haxx.C60_gemv_portable",
    "Haxx.C60_ger_portable",
    "Haxx.C60_scalv_fortran",
    "Haxx.C60_axpyv_fortran",
    "Haxx.C60_dot_fortran",
    "Haxx.C60_gemm_fortran",
    "Haxx.C60_gemv_fortran_partial",
    "Haxx.C60_ger_fortran",
    "Haxx.C60_scalm",
    "Haxx.C60_axpym",
    "Haxx.C60_scalm_portable",
    "Haxx.C60_axpym_portable",
    "Haxx.C60_scalm_fortran",
    "Haxx.C60_axpym_fortran",
    "Haxx.C60_axpyv_mixed",
    "Haxx.C60_gemm_mixed",
    "Haxx.C60_gemv_mixed",
    "Haxx.C60_ger_mixed"
   ],
   "note": "Proved for the SIMD, portable (quaternion and mixed-type) and Fortran routines, except where the code is wrong on any data: Fortran GEMV only outside its defects (C60_gemv_fortran_partial), Fortran SCALV with ALPHA = 0 (C19), Fortran GER with real ALPHA and INCX /= 1 (C31), portable comparisons that ignore k (C18). Instance: ieeeModel (IEEE double with infinities, NaN, gradual underflow, fused or not). C60_sizes_needed: the size condition cannot be dropped."
  },
  {
   "property": "C61",
   "status": "proved",
   "theorems": [
    "Haxx.C61_print",
    "Haxx.C61_to_string",
    "Haxx.C61_unambiguous",
    "Haxx.C61_to_string_same",
    "Haxx.C61_sequence",
    "Haxx.C61_decimal_comma"
   ],
   "note": ""
  },
  {
   "property": "C62",
   "status": "partial",
   "theorems": [
    "Haxx.C62_same_accesses_partial",
    "Haxx.C62_same_end_partial",
    "Haxx.C62_safe_for_all_data_partial",
    "Haxx.C62_only_y_decides",
    "Haxx.C62_ger_violated",
    "Haxx.C62_only_y_decides_hyps",
    "Haxx.C62_copyv_accesses",
    "Haxx.C62_swapv_accesses",
    "Haxx.C62_scalv_accesses",
    "Haxx.C62_axpyv_accesses",
    "Haxx.C62_dot_accesses",
    "Haxx.C62_copyv_portable_accesses",
    "Haxx.C62_swapv_portable_accesses",
    "Haxx.C62_scalv_portable_accesses",
    "Haxx.C62_axpyv_portable_accesses",
    "Haxx.C62_dot_portable_accesses"
   ],
   "note": "Proved for all calls of all builds except GERU/GERC. Violated for the code as written by GERU/GERC (Fortran and templates): columns with y_j = 0 are skipped, so accesses and faults depend on y (C62_ger_violated); C62_only_y_decides, for all calls, shows that y is the only data they depend on. The exact access sequences of the vectorised and of the portable level-1 routines are given by C62_*_accesses."
  },
  {
   "property": "C63",
   "status": "partial",
   "theorems": [
    "Haxx.C63_axpyv_partial",
    "Haxx.C63_gemm_partial",
    "Haxx.C63_gemv_partial",
    "Haxx.C63_ger_partial",
    "Haxx.C63_pure_k_violated",
    "Haxx.C63_gemm_widening",
    "Haxx.C63_axpyv_real_keeps",
    "Haxx.C63_geru_complex_keeps"
   ],
   "note": "Violated for the code as written only where C18/C31 are: a quaternion ALPHA = ck or y_j = ck is taken for zero (C63_pure_k_violated); every other case proved. AXPYM is not in the list: it compiles for quaternion A only; GERC does not compile for real y."
  },
  {
   "property": "C64",
   "status": "partial",
   "theorems": [
    "Haxx.C64_scalm",
    "Haxx.C64_axpym",
    "Haxx.C64_scalm_portable",
    "Haxx.C64_axpym_portable",
    "Haxx.C64_scalm_fortran_partial",
    "Haxx.C64_axpym_fortran",
    "Haxx.C64_axpyv_mixed",
    "Haxx.C64_gemm_mixed",
    "Haxx.C64_gemv_mixed",
    "Haxx.C64_ger_mixed",
    "Haxx.C64_scalv",
    "Haxx.C64_axpyv",
    "Haxx.C64_dot",
    "Haxx.C64_gemm",
    "Haxx.C64_scalv_portable",
    "Haxx.C64_axpyv_portable",
    "Haxx.C64_dot_portable",
    "Haxx.C64_gemm_portable",
    "Haxx.C64_gemv_portable",
    "Haxx.C64_ger_portable",
    "Haxx.C64_scalv_fortran_partial",
    "Haxx.C64_axpyv_fortran",
    "Haxx.C64_dot_fortran",
    "Haxx.C64_gemm_fortran",
    "Haxx.C64_gemv_fortran_partial",
    "Haxx.C64_ger_fortran_partial",
    "Haxx.C64_dot_sign",
    "Haxx.C64_gemm_sign",
    "Haxx.C64_gemv_portable_sign",
    "Haxx.C64_ger_portable_sign",
    "Haxx.C64_dot_pow2",
    "Haxx.C64_gemm_pow2"
   ],
   "note": "Proved for every build and routine and for the mixed-type templates. Left out: calls of Fortran SCALV with ALPHA = 0 (x is left alone, C07), of Fortran GEMV outside FGemvGood and of Fortran GERU/GERC with real ALPHA and INCX /= 1 (known defects, C30/C31). The two zeros are one value in the model."
  },
  {
   "property": "C65",
   "status": "partial",
   "theorems": [
    "Haxx.C65_scalm",
    "Haxx.C65_scalm_portable",
    "Haxx.C65_scalm_fortran",
    "Haxx.C65_axpym_partial",
    "Haxx.C65_axpym_zero",
    "Haxx.C65_axpym_portable",
    "Haxx.C65_axpym_fortran_partial"
   ],
   "note": "Proved for SCALM over the three SCALVs and AXPYM over the portable AXPYV for every ALPHA; over the SIMD and Fortran AXPYV for ALPHA not comparing equal to zero. There AXPYM returns at once (C65_axpym_zero) while the SIMD AXPYV computes, which differs for a NaN in A and for a pure-k ALPHA (C21)."
  },
  {
   "property": "C66",
   "status": "partial",
   "theorems": [
    "Haxx.C66_sign_dot",
    "Haxx.C66_sign_dot_portable",
    "Haxx.C66_sign_gemm",
    "Haxx.C66_sign_gemm_portable",
    "Haxx.C66_none_gemm_portable",
    "Haxx.C66_acc_scalv",
    "Haxx.C66_acc_axpyv",
    "Haxx.C66_acc_dot",
    "Haxx.C66_acc_gemm",
    "Haxx.C66_acc_scalv_portable",
    "Haxx.C66_acc_axpyv_portable",
    "Haxx.C66_acc_dot_portable",
    "Haxx.C66_acc_gemm_portable",
    "Haxx.C66_acc_gemv_portable",
    "Haxx.C66_acc_ger_portable",
    "Haxx.C66_acc_scalv_fortran",
    "Haxx.C66_acc_axpyv_fortran",
    "Haxx.C66_acc_dot_fortran",
    "Haxx.C66_acc_gemm_fortran",
    "Haxx.C66_acc_gemv_fortran_partial",
    "Haxx.C66_acc_ger_fortran",
    "Haxx.C66_acc_scalm",
    "Haxx.C66_acc_axpym",
    "Haxx.C66_acc_scalm_portable",
    "Haxx.C66_acc_axpym_portable",
    "Haxx.C66_acc_scalm_fortran",
    "Haxx.C66_acc_axpym_fortran",
    "Haxx.C66_acc_axpyv_mixed",
    "Haxx.C66_acc_gemm_mixed",
    "Haxx.C66_acc_gemv_mixed",
    "Haxx.C66_acc_ger_mixed",
    "Haxx.C66_exact_scalv",
    "Haxx.C66_exact_axpyv",
    "Haxx.C66_exact_dot",
    "Haxx.C66_exact_gemm",
    "Haxx.C66_exact_scalv_portable",
    "Haxx.C66_exact_axpyv_portable",
    "Haxx.C66_exact_dot_portable",
    "Haxx.C66_exact_gemm_portable",
    "Haxx.C66_exact_gemv_portable",
    "Haxx.C66_exact_ger_portable",
    "Haxx.C66_exact_scalv_fortran",
    "Haxx.C66_exact_axpyv_fortran",
    "Haxx.C66_exact_dot_fortran",
    "Haxx.C66_exact_gemm_fortran",
    "Haxx.C66_exact_gemv_fortran_partial",
    "Haxx.C66_exact_ger_fortran",
    "Haxx.C66_exact_scalm",
    "Haxx.C66_exact_axpym",
    "Haxx.C66_exact_scalm_portable",
    "Haxx.C66_exact_axpym_portable",
    "Haxx.C66_exact_scalm_fortran",
    "Haxx.C66_exact_axpym_fortran",
    "Haxx.C66_exact_axpyv_mixed",
    "Haxx.C66_exact_gemm_mixed",
    "Haxx.C66_exact_gemv_mixed",
    "Haxx.C66_exact_ger_mixed",
    "Haxx.C66_nan_gemm_fortran",
    "Haxx.C66_nan_ger_fortran_partial",
    "Haxx.C66_nan_gemv_fortran_partial",
    "Haxx.C66_nan_scalv_fortran",
    "Haxx.C66_nan_axpyv_fortran",
    "Haxx.C66_nan_dot_fortran",
    "Haxx.C66_nan_scalm_simd",
    "Haxx.C66_nan_axpym_simd",
    "Haxx.C66_nan_scalm_portable",
    "Haxx.C66_nan_axpym_portable",
    "Haxx.C66_nan_scalm_fortran",
    "Haxx.C66_nan_axpym_fortran",
    "Haxx.C66_nan_axpyv_mixed",
    "Haxx.C66_nan_gemm_mixed",
    "Haxx.C66_nan_gemv_mixed",
    "Haxx.C66_nan_ger_mixed_partial",
    "Haxx.C66_nan_scalv_simd",
    "Haxx.C66_nan_axpyv_simd",
    "Haxx.C66_nan_dot_simd",
    "Haxx.C66_nan_gemm_simd",
    "Haxx.C66_nan_scalv_portable",
    "Haxx.C66_nan_dot_portable",
    "Haxx.C66_nan_axpyv_portable",
    "Haxx.C66_nan_gemm_portable",
    "Haxx.C66_nan_gemv_portable",
    "Haxx.C66_nan_ger_portable_partial",
    "Haxx.C66_norm_ger_fortran",
    "Haxx.C66_norm_gemv_fortran_partial",
    "Haxx.C66_norm_scalv_fortran",
    "Haxx.C66_norm_axpyv_fortran",
    "Haxx.C66_norm_dot_fortran",
    "Haxx.C66_norm_scalm",
    "Haxx.C66_norm_scalm_portable",
    "Haxx.C66_norm_scalm_fortran",
    "Haxx.C66_norm_axpym",
    "Haxx.C66_norm_axpym_portable",
    "Haxx.C66_norm_axpym_fortran",
    "Haxx.C66_norm_axpyv_mixed",
    "Haxx.C66_norm_gemm_mixed",
    "Haxx.C66_norm_gemv_mixed",
    "Haxx.C66_norm_ger_mixed",
    "Haxx.C66_norm_scalv",
    "Haxx.C66_norm_axpyv",
    "Haxx.C66_norm_dot",
    "Haxx.C66_norm_gemm",
    "Haxx.C66_norm_gemv_portable",
    "Haxx.C66_norm_ger_portable",
    "Haxx.C66_norm_gemm_fortran",
    "Haxx.C66_norm_mul",
    "Haxx.C66_norm_scalv_portable",
    "Haxx.C66_norm_axpyv_portable",
    "Haxx.C66_norm_dot_portable",
    "Haxx.C66_norm_gemm_portable",
    "Haxx.C66_norm_op_mul",
    "Haxx.C66_norm_op_mul_scalar",
    "Haxx.C66_norm_op_comm"
   ],
   "note": "Proved for every routine and every choice of the compiler by instantiating the theorems of C60, C42, C59, C53 and C64 with the arithmetic of fused code (fusedFin, fusedStd, fusedInt, fusedNaN, fusedUnits); partial in the same places as those: Fortran GEMV outside its defects, Fortran SCALV with ALPHA = 0, Fortran GER with real ALPHA and INCX /= 1, portable comparisons that ignore k, GER skipping columns where y_j is zero. The compiler is assumed to treat equal expressions on the same operands alike, and not to reassociate."
  },
  {
   "property": "C67",
   "status": "partial",
   "theorems": [
    "Haxx.C67_scalv",
    "Haxx.C67_axpyv",
    "Haxx.C67_dot",
    "Haxx.C67_gemm",
    "Haxx.C67_gemv_partial",
    "Haxx.C67_ger_partial",
    "Haxx.C67_fused_scalv",
    "Haxx.C67_fused_axpyv",
    "Haxx.C67_fused_dot",
    "Haxx.C67_fused_gemm"
   ],
   "note": "Proved for any two builds, arithmetics, layouts and scalar types (C67_*) and for one memory image compiled twice with any fusings (C67_fused_*). Partial where a build computes something else: Fortran SCALV with ALPHA = 0, scalars whose comparison with 0 or 1 lies (pure-k), GEMV and GER outside the defects of the Fortran kernels and the portable GER. SCALV, AXPYV: side L or R and positive increments; flags N, T, C."
  },
  {
   "property": "C68",
   "status": "proved",
   "theorems": [
    "Haxx.C68_valid_call_exact",
    "Haxx.C68_copyv",
    "Haxx.C68_swapv",
    "Haxx.C68_scalv",
    "Haxx.C68_axpyv",
    "Haxx.C68_dot",
    "Haxx.C68_scalm",
    "Haxx.C68_axpym",
    "Haxx.C68_gemm",
    "Haxx.C68_copyv_portable",
    "Haxx.C68_swapv_portable",
    "Haxx.C68_scalv_portable",
    "Haxx.C68_axpyv_portable",
    "Haxx.C68_dot_portable",
    "Haxx.C68_gemm_portable_N",
    "Haxx.C68_gemm_portable_T",
    "Haxx.C68_gemm_portable_zero",
    "Haxx.C68_gemv_portable_N",
    "Haxx.C68_gemv_portable_T",
    "Haxx.C68_gemv_portable_zero",
    "Haxx.C68_ger_portable",
    "Haxx.C68_scalm_portable",
    "Haxx.C68_axpym_portable",
    "Haxx.C68_scalv_fortran",
    "Haxx.C68_axpyv_fortran",
    "Haxx.C68_dot_fortran",
    "Haxx.C68_expandZ",
    "Haxx.C68_expandD",
    "Haxx.C68_contractZ",
    "Haxx.C68_scalm_fortran",
    "Haxx.C68_axpym_fortran",
    "Haxx.C68_ger_fortran",
    "Haxx.C68_gemv_fortran",
    "Haxx.C68_gemm_fortran"
   ],
   "note": "Counted on the access-level model (Thr), whose sequential meaning is the main model (run_*). Vectorised and portable routines on quaternion and mixed element types; for GERU/GERC the numbers are upper bounds, as the claim says. The Fortran level-1 routines, expansions and contraction are counted exactly, reference by reference; Fortran GEMV, GERU, GERC, GEMM have upper bounds (C68_gemv_fortran, C68_ger_fortran, C68_gemm_fortran) that hold for all nine forms and all option letters, not exact numbers."
  },
  {
   "property": "C69",
   "status": "partial",
   "theorems": [
    "Haxx.C69_assign_real",
    "Haxx.C69_add_real",
    "Haxx.C69_sub_real",
    "Haxx.C69_mul_real_partial",
    "Haxx.C69_div_real_partial",
    "Haxx.C69_mul_real_exact",
    "Haxx.C69_div_real_exact",
    "Haxx.C69_mul_real_violated",
    "Haxx.C69_mul_own",
    "Haxx.C69_div_own",
    "Haxx.C69_assign_cplx_partial",
    "Haxx.C69_add_cplx_partial",
    "Haxx.C69_sub_cplx_partial",
    "Haxx.C69_assign_partial",
    "Haxx.C69_add_partial",
    "Haxx.C69_sub_partial",
    "Haxx.C69_self",
    "Haxx.C69_overlap_violated",
    "Haxx.C69_scalv_own",
    "Haxx.C69_scalv_own_builds",
    "Haxx.C69_axpyv_own"
   ],
   "note": "Violated by the code: q *= t and q /= t with t one of the first three components of q (through a reference or pointer) go on with the overwritten value (C69_mul_real_exact, C69_div_real_exact say with which one; C69_mul_real_violated); so do a complex operand whose imaginary part is the real part of q and a quaternion operand that starts one to three components before q (C69_overlap_violated). Everything else is proved. Operands of another component type are covered by the value conversion only."
  },
  {
   "property": "C70",
   "status": "proved",
   "theorems": [
    "Haxx.C70_simd",
    "Haxx.C70_fortran",
    "Haxx.C70_portable",
    "Haxx.C70_layout_independent",
    "Haxx.C70_builds_agree",
    "Haxx.C70_stopped",
    "Haxx.C70_linked",
    "Haxx.C70_powers",
    "Haxx.C70_gram_schmidt"
   ],
   "note": "Calls excluded by the known defects are excluded by the hypothesis, as in C54 (simdQuirks, linkedQuirks, fortranQuirks, portableQuirks). Exact arithmetic (commutative ring); the user's own code between calls is arbitrary."
  },
  {
   "property": "C71",
   "status": "partial",
   "theorems": [
    "Haxx.C71_gemm_computes",
    "Haxx.C71_gemm_partial",
    "Haxx.C71_real_commutes",
    "Haxx.C71_real_either",
    "Haxx.C71_bpack_iff",
    "Haxx.C71_shipped",
    "Haxx.C71_bpack_neither_violated",
    "Haxx.C71_gemm_bits",
    "Haxx.C71_kernel",
    "Haxx.C71_kernel_exact",
    "Haxx.C71_kernel_shipped"
   ],
   "note": "Violated by the code: C71_gemm_computes says what each choice computes; with ALPHA in the packing of B the result is right exactly when sum (alpha a_k - a_k alpha) b_k = 0 (C71_bpack_iff), with neither switch ALPHA is ignored (C71_bpack_neither_violated). The shipped choice is right for all inputs. Builds with _FACTOR_TRANSPOSE_INTO_x_PACK undefined do not compile (packops.hpp:40 calls a Mul that does not exist), so for those switches the claim is about the micro-kernel, which does compile (C71_kernel)."
  },
  {
   "property": "C72",
   "status": "partial",
   "theorems": [
    "Haxx.C72_gemm_bench",
    "Haxx.C72_gemm_loop",
    "Haxx.C72_tune_initialised_partial",
    "Haxx.C72_tune_violated",
    "Haxx.C72_pass",
    "Haxx.C72_dot_bench",
    "Haxx.C72_dot_agree"
   ],
   "note": "Violated by the code: src/tune/gemm.cxx:65 declares the duration it accumulates into without initialising it, so the tuning program is undefined in its first pass (C72_tune_violated); with the duration initialised it is right (C72_tune_initialised_partial). The two benchmark programs satisfy the claim (C72_gemm_bench, C72_dot_bench). Printing is not modelled."
  },
  {
   "property": "C73",
   "status": "partial",
   "theorems": [
    "Haxx.Pack.C73_tpack_partial",
    "Haxx.Pack.C73_npack_partial",
    "Haxx.Pack.C73_remainder_violated",
    "Haxx.Pack.C73_order_partial",
    "Haxx.Pack.C73_gemm_instance"
   ],
   "note": "Violated by the code: when the number of vectors leaves a remainder of two or more modulo PK (possible for PK >= 3) both templates stop at an assertion marked as yet to be worked out (C73_remainder_violated). For remainders 0 and 1 the claim holds for every width, operation and evaluation order. C73_gemm_instance: the packing of Gemm.lean is the instance PK = 2, as a program."
  }
 ]
}