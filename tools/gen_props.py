import json
P=[]
def p(title,statement,quantifier,why,anchors):
    P.append(dict(id="C%02d"%(len(P)+1),title=title,statement=statement,quantifier=quantifier,why_tests_cant=why,anchors=anchors))
real="Real inputs form a continuum: unit tests sample random values; a wrong sign or swapped component that vanishes on the sampled/structured inputs is not excluded."
# ---- scalar
p("Quaternion product is Hamilton's product",
  "For any two quaternions x,y, x*y has the components of Hamilton's product (i*j=k, j*k=i, k*i=j, i^2=j^2=k^2=-1, real part central); hence over exact arithmetic the product is associative, distributes over + and is unital.",
  "all quaternions over any commutative ring", real,
  ["include/haxx/haxx_quaternion_op.hpp:operator*","include/haxx/haxx_quaternion_op.hpp:operator+","include/haxx/haxx_quaternion_op.hpp:operator-"])
p("SIMD product agrees with the scalar product",
  "In the AVX build, x*y for quaternion<double> (the 256-bit register product) computes the same value as the portable component formula, and the conjugating register product computes conj(x)*y.",
  "all pairs of quaternions over any commutative ring, FMA or mul+add builds", real,
  ["include/util/simd/qop.hpp:MULDQ_NN","include/util/simd/qop.hpp:MULDQ_CN","include/haxx/haxx_quaternion_op.hpp:operator*<double>"])
p("Mixed real/complex/quaternion arithmetic is the embedded arithmetic",
  "Every +,-,* between a quaternion and a real or complex number (either side), and the compound assignments +=,-=,*=, give exactly the quaternion result of first embedding the real a as (a,0,0,0) or the complex z as (Re z, Im z,0,0); complex multiplication on the left and on the right are the respective quaternion products.",
  "all quaternions, reals and complexes, both operand orders", real,
  ["include/haxx/haxx_scalar_op.hpp","include/haxx/haxx_complex_op.hpp"])
p("Conjugation is an involutive anti-automorphism",
  "conj(conj q)=q, conj(p+q)=conj p+conj q, conj(p*q)=conj(q)*conj(p), and q*conj(q)=conj(q)*q is the real number a^2+b^2+c^2+d^2.",
  "all quaternions", real, ["include/haxx/haxx_quaternion_reduction.hpp:conj"])
p("Norm, inverse and versor",
  "norm is non-negative, zero only for 0, multiplicative, and norm(q)^2=a^2+b^2+c^2+d^2; for q != 0, inv(q)*q = q*inv(q) = 1, norm(versor q)=1 and q = norm(q)*versor(q); a/q = a*inv(q), and q/a divides each component.",
  "all (non-zero) quaternions over the reals", real,
  ["include/haxx/haxx_quaternion_reduction.hpp:norm,inv,versor","include/haxx/haxx_scalar_op.hpp:operator/"])
p("Commutators",
  "comm(p,q)=p*q-q*p for every combination of quaternion, complex and real arguments (in particular it is 0 whenever one argument is real), is antisymmetric, and has zero real part.",
  "all quaternion/complex/real arguments", real,
  ["include/haxx/haxx_quaternion_reduction.hpp:comm"])
p("Equality compares every component",
  "p==q is true iff all four components are equal, and p!=q is its negation.",
  "all pairs of quaternions","The defect is only visible on pairs equal in exactly the first three components; random tests never hit it.",
  ["include/haxx/haxx_quaternion_op.hpp:operator==","include/haxx/haxx_quaternion_op.hpp:operator!="])
p("Construction, access and mutation round-trip",
  "Constructing from four reals, two complexes (Cayley-Dickson a+bj), or the array forms and reading back real/imag_i/imag_j/imag_k/imag returns what was stored (missing arguments are 0); each setter changes exactly the component it names; assignment from a real or complex zeroes the other components.",
  "all component values and all quaternions","Needs all values; swapped setters are only visible when components differ.",
  ["include/haxx/haxx_def.hpp:quaternion"])
# ---- SIMD batch
p("Batched register products",
  "The 4-way batched products (plain and left-conjugated, initialising and incrementing) give in each of the four lanes the corresponding quaternion product of the quaternions stored across that lane; the 4x4 register transpose sends lane j of register i to lane i of register j and is an involution for arbitrary (also NaN) payloads.",
  "all register contents",real,
  ["include/util/simd/qop.hpp:INC_MULD4Q_NN,INC_MULD4Q_CN,MULD4Q_NN,MULD4Q_CN","include/util/simd/misc.hpp:_MM_TRANSPOSE_4x4_PD"])
p("Register scaling by loaded scalars",
  "For a real, complex or quaternion scalar loaded for register use, register multiplication on the left yields alpha*q and on the right q*alpha (the right-complex case is marked unvalidated in the source); register conjugation yields conj(q); loading nothing multiplies by one.",
  "all scalars and quaternions, both sides",real,
  ["include/util/types.hpp:AVXType<double>::Mul,LoadScalar,Conj","include/util/types.hpp:GenericType"])
# ---- HBLAS1 AVX
mem="Requires all lengths, increments, alignments and memory contents; tests use one length and one stride, and cannot observe untouched memory or out-of-bounds accesses."
p("HBLAS_COPYV copies exactly the strided vector",
  "For valid, non-overlapping X and Y, after COPYV(N,X,INCX,Y,INCY) element i of Y equals element i of X bit for bit, X and every memory cell that is not one of those N elements is unchanged, and no cell outside the two vectors is touched; aligned instructions are only executed on aligned addresses.",
  "all N, all INCX and non-zero INCY, all alignments, all memory contents (arbitrary bit patterns)",mem,
  ["src/hblas/cxx/hblas1/copy_swap.cxx","include/hblas/hblas1.hpp:HBLAS_COPYV"])
p("HBLAS_SWAPV exchanges the two vectors",
  "For valid non-overlapping X and Y, SWAPV exchanges element i of X and Y for all i bit for bit, changes nothing else, and doing it twice restores the memory exactly.",
  "all N, all non-zero increments, all alignments, all memory contents",mem,
  ["src/hblas/cxx/hblas1/copy_swap.cxx","include/hblas/hblas1.hpp:HBLAS_SWAPV"])
p("HBLAS_SCALV scales on the requested side",
  "SCALV(SIDE,N,ALPHA,X,INCX) replaces element i of X by ALPHA*x_i for SIDE='L' and x_i*ALPHA otherwise, for real, complex and quaternion ALPHA (including ALPHA=0, which zeroes), touching nothing else.",
  "all N, non-zero INCX, ALPHA of the three types, SIDE, alignments",mem,
  ["src/hblas/cxx/hblas1/axpy_scal.cxx","include/hblas/hblas1.hpp:HBLAS_SCALV"])
p("HBLAS_AXPYV accumulates on the requested side",
  "AXPYV(SIDE,N,ALPHA,X,INCX,Y,INCY) replaces y_i by y_i + ALPHA*x_i (SIDE='L') or y_i + x_i*ALPHA (otherwise) for real, complex and quaternion ALPHA; X and all other memory unchanged.",
  "all N, INCX, non-zero INCY, ALPHA of the three types, SIDE, alignments, X and Y non-overlapping",mem,
  ["src/hblas/cxx/hblas1/axpy_scal.cxx","include/hblas/hblas1.hpp:HBLAS_AXPYV"])
p("HBLAS_DOTUV / HBLAS_DOTCV",
  "DOTUV returns sum_i x_i*y_i and DOTCV returns sum_i conj(x_i)*y_i (0 for N<=0), reading only the 2N elements and modifying no memory, for every length including those not a multiple of the 4-element batch.",
  "all N, all increments, all alignments, also when X and Y overlap",mem,
  ["src/hblas/cxx/hblas1/dot.cxx","include/hblas/hblas1.hpp:HBLAS_DOTUV,HBLAS_DOTCV"])
p("DOTCV is a sesquilinear inner product",
  "DOTCV(x,x) has zero imaginary parts and equals the sum of squared norms (non-negative, zero only for the zero vector over the reals); DOTCV(y,x)=conj(DOTCV(x,y)); scaling y on the right by q scales DOTCV by q on the right.",
  "all lengths and vectors",mem,["src/hblas/cxx/hblas1/dot.cxx"])
p("Level-1 routines do nothing for N <= 0",
  "COPYV, SWAPV, SCALV, AXPYV with N<=0 leave memory untouched without reading any pointer, and DOTUV/DOTCV return 0, even when the pointers are invalid.",
  "all non-positive N, all pointers and memories","Absence of any access for every pointer cannot be observed by a test.",
  ["src/hblas/cxx/hblas1/*.cxx"])
p("Portable, Fortran and SIMD level-1 implementations agree",
  "On the domain they share (positive increments, valid non-overlapping vectors, SIDE in {L,R}, non-zero ALPHA for SCALV), the portable templates, the Fortran routines and the AVX routines leave the same memory / return the same value in exact arithmetic.",
  "all N, increments > 0, ALPHA, SIDE, vectors","Build-configuration equivalence over all inputs; a test run exercises one build.",
  ["include/hblas/generic/hblas1/*_impl.hpp","src/hblas/fortran/hblas1/*.f","src/hblas/cxx/hblas1/*.cxx"])
p("Scaling by zero zeroes the vector in every build",
  "SCALV with ALPHA=0 leaves every element of X equal to 0, in the SIMD, portable and Fortran builds.",
  "all N, INCX, X","Requires all builds and inputs.",
  ["src/hblas/fortran/hblas1/hscald.f","src/hblas/fortran/hblas1/hscalc.f","src/hblas/fortran/hblas1/hscalh.f"])
# ---- M
p("HBLAS_SCALM scales exactly the M x N block",
  "SCALM(SIDE,TRANS,M,N,ALPHA,A,LDA,INCA) replaces A(i,j) by ALPHA*A(i,j) (or A(i,j)*ALPHA), i<M, j<N, and leaves the padding rows M..LDA-1 and all other memory unchanged.",
  "all M,N>=0, LDA>=M, ALPHA types, SIDE, INCA",mem,
  ["include/hblas/generic/hblas1/hblas_scalm_impl.hpp"])
p("HBLAS_AXPYM adds a scaled matrix",
  "AXPYM(SIDE,TRANSA,M,N,ALPHA,A,LDA,INCA,B,LDB,INCB) replaces B(i,j) by B(i,j)+ALPHA*op(A)(i,j) for every ALPHA, leaving padding and all other memory unchanged.",
  "all M,N, leading dimensions, ALPHA of the three types incl. pure-k quaternions",mem,
  ["include/hblas/generic/hblas1/hblas_axpym_impl.hpp","include/haxx/haxx_quaternion_op.hpp:operator=="])
# ---- GEMM AVX
p("HBLAS_GEMM (SIMD) computes alpha*op(A)*op(B)+beta*C",
  "For quaternion A,B,C and real/complex ALPHA,BETA, after GEMM every C(i,j), i<M, j<N, equals ALPHA*sum_k op(A)(i,k)*op(B)(k,j) + BETA*C(i,j) in exact arithmetic, for each TRANSA,TRANSB in {N,T,C,R} (C=conjugate transpose, R=conjugate).",
  "all M,N,K>=0 (odd/even, not multiples of the block sizes), leading dimensions, ALPHA, BETA, transposition pairs, matrices",
  "Tests use one fixed size; edge blocks, odd sizes and multi-panel sizes need all M,N,K.",
  ["src/hblas/cxx/hblas3/gemm.cxx:HBLAS_GEMM","src/hblas/cxx/hblas3/kern.cxx:Kern","include/hblas/pack/pack.hpp"])
p("GEMM (SIMD) is memory safe and writes only the M x N block of C",
  "GEMM never reads outside the referenced parts of A, B, C or its own packing buffers, never writes outside the M x N block of C and its buffers, performs aligned accesses only at aligned addresses, and releases its buffers; padding rows of C, A and B are unchanged.",
  "all sizes, leading dimensions >= the stored row counts, base alignments","Out-of-bounds reads in padded edge blocks are invisible to value tests.",
  ["src/hblas/cxx/hblas3/gemm.cxx","include/hblas/pack/pack.hpp:TPACK,NPACK","src/hblas/cxx/hblas3/kern.cxx"])
p("GEMM result is bitwise independent of the cache blocking",
  "For arbitrary (rounded) arithmetic, the bits of every C(i,j) depend only on ALPHA, BETA, row i of op(A), column j of op(B), C(i,j) and K: they are the same for all choices of MC,NC,KC (even MC, NC) and do not depend on M, N, LDA, LDB, LDC, nor on other rows/columns.",
  "all blocking parameters, sizes and operand values; arithmetic left uninterpreted","Needs all block sizes and all values; tests cannot enumerate builds.",
  ["src/hblas/cxx/hblas3/gemm.cxx","include/hblas/config/hblas3/gemm.hpp","src/tune/gemm.cxx"])
p("GEMM packing buffers are large enough",
  "For the configured block sizes, every packed element written or read lies inside the buffers the routine allocates; this requires MC and NC to be even (true of the shipped configuration).",
  "all panel sizes <= block sizes, all even MC,NC, any KC","An overflow of one register block past the heap buffer rarely crashes.",
  ["src/hblas/cxx/hblas3/gemm.cxx","include/util/macro.hpp:FixMod"])
p("GEMM degenerate shapes",
  "With M<=0 or N<=0 GEMM changes nothing; with K<=0 it only scales C by BETA; with ALPHA=0 it leaves BETA*C in exact arithmetic.",
  "all other arguments","All shapes, pointers and scalars.",["src/hblas/cxx/hblas3/gemm.cxx"])
p("Packing lays out panels as the kernel expects",
  "Packing an m x k (or k x n) panel in normal or transposed orientation, with or without conjugation and scaling, stores for every pair of rows (columns) and every k the (scaled, conjugated) elements, zero-padding the missing partner of an odd last row (column), and modifies nothing outside the packed buffer.",
  "all panel shapes, leading dimensions, element values","All shapes incl. odd tails.",
  ["include/hblas/pack/pack.hpp","include/hblas/pack/packops.hpp"])
# ---- Fortran/generic gemm
p("Fortran GEMM variants compute alpha*op(A)*op(B)+beta*C",
  "HBLAS_GEMM for scalar type pairs involving a quaternion ALPHA or BETA computes C := ALPHA*op(A)*op(B)+BETA*C with ALPHA and BETA multiplied on the left, for op in {N,T,C} (case-insensitive), honouring the ALPHA=0, BETA=0, BETA=1 shortcuts, and writing only the M x N block.",
  "all sizes, leading dimensions, transposition pairs, scalars of type d/z/h","All sizes, transposes and scalar types.",
  ["src/hblas/fortran/hblas3/hgemm*.f","src/hblas/hblas3.cxx.in"])
p("Portable GEMM computes alpha*op(A)*op(B)+beta*C",
  "The portable GEMM template (compiled into the library for real A; available from the headers for every scalar type) computes C := ALPHA*op(A)*op(B)+BETA*C for op in {N,T,C}, with conjugation of real entries the identity.",
  "all sizes, leading dimensions, transposition pairs, real scalars","All sizes, transposes.",
  ["include/hblas/generic/hblas3/hblas_gemm_impl.hpp"])
# ---- HBLAS2
p("HBLAS_GEMV computes y := alpha*op(A)*x + beta*y",
  "For every TRANS in {N,T,C}, M, N, strides and scalar types, GEMV leaves y = ALPHA*op(A)*x + BETA*y (scalars on the left), reading only A, x, y and writing exactly the len(y) elements of y; a call with M = 0 or N = 0 changes nothing.",
  "all M,N (also M != N), LDA, increments, scalars","Non-square shapes with strides and every scalar type pair: tests use square unit-stride cases.",
  ["src/hblas/fortran/hblas2/hgemv*.f","include/hblas/generic/hblas2/hblas_gemv_impl.hpp","src/hblas/hblas2.cxx.in"])
p("HBLAS_GERU / HBLAS_GERC are rank-one updates",
  "GERU leaves A(i,j) = A(i,j) + ALPHA*x_i*y_j and GERC leaves A(i,j) = A(i,j) + ALPHA*x_i*conj(y_j), for real, complex and quaternion ALPHA (on the left), all strides, writing only the M x N block.",
  "all M,N, LDA, increments, ALPHA types","Strided calls and all shapes.",
  ["src/hblas/fortran/hblas2/hger*.f","include/hblas/generic/hblas2/hblas_geru_impl.hpp","include/hblas/generic/hblas2/hblas_gerc_impl.hpp"])
# ---- util
p("Complex expansion is a *-homomorphism",
  "HBLAS_COMPLEX_EXPAND maps an M x N quaternion matrix to the 2M x 2N complex matrix of left multiplication (interleaved order 'F' or block order 'S') such that expansion of sums and matrix products are sums and products of expansions, conjugate transposition is preserved and the map is injective; only the 2M x 2N block is written.",
  "all sizes, leading dimensions, matrices, both orders","All sizes and matrices.",
  ["src/hblas/fortran/util/hzexp.f","include/hblas/generic/util/expand_impl.hpp"])
p("Real expansion is a homomorphism",
  "HBLAS_REAL_EXPAND maps an M x N quaternion matrix to a 4M x 4N real matrix such that sums, products and conjugate-transposes (as transposes) are preserved and the map is injective.",
  "all sizes, leading dimensions, matrices","All sizes and matrices.",["src/hblas/fortran/util/hdexp.f","include/hblas/generic/util/expand_impl.hpp"])
p("Contraction inverts expansion",
  "HBLAS_COMPLEX_CONTRACT after HBLAS_COMPLEX_EXPAND with the same ORDER restores the original quaternion matrix exactly (bit for bit in re/i/j/k up to double negation), for both UPLO choices.",
  "all sizes, leading dimensions, matrices, ORDER in {F,S}, any UPLO","All matrices.",
  ["src/hblas/fortran/util/hzcon.f","include/hblas/generic/util/contract_impl.hpp"])
p("Invalid ORDER is rejected",
  "Expansion and contraction with ORDER not in {F,S} abort before touching memory.",
  "all other characters, all memories","All characters and memories.",["include/hblas/generic/util/expand_impl.hpp","include/hblas/generic/util/contract_impl.hpp"])
p("Character options are case-insensitive in the Fortran layer",
  "LSAME(a,b) holds iff a and b are the same ASCII character up to letter case (first argument vs second argument), for all characters in the ASCII range.",
  "all pairs of ASCII characters","All 128 x 128 pairs.",["src/hblas/fortran/util/lsame.f"])
p("Rounding sizes up to a multiple",
  "FixMod(X,N) is the least multiple of N that is >= X, for X>=0,N>0; IS_ALIGNED(p,B) for B a power of two holds iff the address is a multiple of B.",
  "all X>=0,N>0; all 64-bit addresses and powers of two","All integers.",["include/util/macro.hpp"])
p("32-bit index arithmetic does not overflow for addressable problems",
  "No signed 32-bit index computation in the SIMD level-1, SCALM and GEMM routines overflows provided the stated products (increments times length, leading dimensions times column counts plus one block) stay below 2^31.",
  "all sizes within the stated bounds","Overflow shows up only on multi-gigabyte operands.",
  ["src/hblas/cxx/hblas1/dot.cxx","src/hblas/cxx/hblas3/gemm.cxx","include/hblas/generic/hblas1/hblas_scalm_impl.hpp"])
p("Operands are evaluated on the documented side",
  "Quaternion scalars never commute past matrix entries: replacing SIDE='L' by SIDE='R' changes SCALV/AXPYV to right multiplication, and the two results coincide iff ALPHA commutes with every entry; for real ALPHA they always coincide.",
  "all vectors and scalars",real,["src/hblas/cxx/hblas1/axpy_scal.cxx","include/hblas/generic/hblas1/hblas_scalv_impl.hpp","include/hblas/generic/hblas1/hblas_axpyv_impl.hpp"])
p("Level-1 results do not depend on alignment or layout, bit for bit",
  "For arbitrary rounded arithmetic, every element COPYV/SCALV/AXPYV writes, and the value DOTUV/DOTCV returns, is a function of the scalar arguments and the vector contents alone: running the same data at aligned or misaligned addresses, with any increments, gives identical bits.",
  "all arithmetics, memories, addresses, alignments, increments","The aligned and unaligned code paths, all strides and all rounding behaviours.",
  ["src/hblas/cxx/hblas1/axpy_scal.cxx","src/hblas/cxx/hblas1/copy_swap.cxx","src/hblas/cxx/hblas1/dot.cxx"])
p("BETA = 0 means the old output is not read",
  "As in the reference BLAS: when BETA is zero, GEMM and GEMV overwrite their output, so the result (and whether the call faults) does not depend on what C / y held before, even if it held NaN, Inf or uninitialised memory.",
  "all arithmetics (any rounding, NaN, Inf), sizes, strides, flags, scalar types, addresses, pairs of memories","All contents of C, including NaNs, and all sizes and flags.",
  ["src/hblas/cxx/hblas3/gemm.cxx","include/hblas/generic/hblas3/hblas_gemm_impl.hpp","include/hblas/generic/hblas2/hblas_gemv_impl.hpp","src/hblas/fortran/hblas3/hgemmhh.f","src/hblas/fortran/hblas2/hgemvhh.f"])
p("Rounding errors are bounded",
  "In any machine arithmetic with relative rounding error at most u per operation (fused or unfused multiply-add), as long as no operation overflows or underflows, the quaternion product, SCALV, AXPYV, DOTUV/DOTCV, GEMV, GER and GEMM deviate from the exact mathematical result by at most 2((1+u)^p-1) times the natural magnitude (e.g. |BETA||C_ij| + 2|ALPHA| sum |op(A)_ik||op(B)_kj|), with p a small constant or linear in the inner dimension; the bound holds for every size, layout, block size and scalar type.",
  "all arithmetics satisfying the standard model with any u, all sizes, values, layouts, block sizes, scalar types","A test compares a few random inputs against a tolerance; the bound is for all inputs and sizes and every contraction choice of the compiler.",
  ["src/hblas/cxx/hblas3/kern.cxx","src/hblas/cxx/hblas3/gemm.cxx","src/hblas/cxx/hblas1/dot.cxx","src/hblas/cxx/hblas1/axpy_scal.cxx","include/util/simd/qop.hpp","include/hblas/generic/hblas3/hblas_gemm_impl.hpp","include/hblas/generic/hblas1/hblas_dotuv_impl.hpp","include/haxx/haxx_quaternion_op.hpp"])
p("All builds of level 2 and 3 agree",
  "For the documented upper-case flags, the SIMD, Fortran and portable GEMM leave the same memory (exact arithmetic) for every size, leading dimension and scalar type; so do the Fortran and the portable GEMV, GERU and GERC. A program relinked against another build of the library computes the same results.",
  "all sizes, strides, contents, flags N/T/C, scalar types, block sizes","Every build has to be compared on every input; a test suite is compiled against one build.",
  ["src/hblas/cxx/hblas3/gemm.cxx","src/hblas/fortran/hblas3/hgemmhh.f","include/hblas/generic/hblas3/hblas_gemm_impl.hpp","src/hblas/fortran/hblas2/hgemvhh.f","include/hblas/generic/hblas2/hblas_gemv_impl.hpp","src/hblas/fortran/hblas2/hgeruh.f","include/hblas/generic/hblas2/hblas_geru_impl.hpp"])
p("The routines agree with each other",
  "GEMM with one column leaves the memory that GEMV leaves; GEMM with inner dimension 1 and BETA = 1 leaves the memory that GERU (TRANSB='T') or GERC (TRANSB='C') leaves; GEMM with a 1 x 1 result, ALPHA = 1, BETA = 0 stores the value that DOTUV or DOTCV returns.",
  "all sizes, leading dimensions, contents, scalar types, block sizes","Relates different routines on all inputs.",
  ["src/hblas/cxx/hblas3/gemm.cxx","src/hblas/cxx/hblas1/dot.cxx","src/hblas/hblas2.cxx.in","src/hblas/fortran/hblas2/hgemvhh.f","src/hblas/fortran/hblas2/hgeruh.f"])
p("GEMM can be computed block by block, and reversed",
  "Calling the SIMD GEMM on the blocks of any partition of C (in any order, operands advanced accordingly) leaves, bit for bit, what one call leaves; splitting the inner dimension with BETA = 1 for the second part gives the same result in exact arithmetic; for real ALPHA, BETA the product of the adjoints in reverse order is the adjoint of the product, while the product of the transposes in reverse order is not the transpose unless the entries commute.",
  "all partitions of C, all sizes, flags, scalars, block sizes, all arithmetics (partition part)","All partitions, sizes and rounding behaviours.",
  ["src/hblas/cxx/hblas3/gemm.cxx","src/hblas/cxx/hblas3/kern.cxx"])
p("Quaternion GEMM matches real and complex matrix products of the expansions",
  "GEMM followed by REAL_EXPAND of C leaves the real matrix [ALPHA][op(A)][op(B)] + [BETA][C] of the real expansions; for real ALPHA, BETA, GEMM followed by COMPLEX_EXPAND leaves ALPHA*[op(A)][op(B)] + BETA*[C], i.e. what a complex GEMM on the complex expansions computes; for complex scalars the expansion acts as diag(z, conj z), not as the complex scalar.",
  "all sizes, flags, leading dimensions, contents, scalars, block sizes, both expansion orders","Relates GEMM and the expansion utilities on all inputs; this is how users validate quaternion results against LAPACK/BLAS.",
  ["src/hblas/cxx/hblas3/gemm.cxx","include/hblas/generic/util/expand_impl.hpp","src/hblas/fortran/util/hzexp.f","src/hblas/fortran/util/hdexp.f"])
p("An output entry depends only on its own row, column and old value",
  "For arbitrary (rounded, NaN-propagating) arithmetic, entry (i,j) of the result of GEMM is a function of row i of op(A), column j of op(B), the old C_ij and the scalars; entry i of GEMV's result of row i of op(A), x and y_i; entry (i,j) of GER's result of x_i, y_j and A_ij. So a NaN or Inf in one row of A cannot contaminate other rows of C, even through the packing buffers, their padding or the 2x2 register kernel.",
  "all arithmetics, sizes, strides, flags, scalar types, block sizes, pairs of memories","All contents incl. NaN/Inf in every position, all sizes (edge tiles) and block sizes.",
  ["src/hblas/cxx/hblas3/gemm.cxx","src/hblas/cxx/hblas3/kern.cxx","include/hblas/pack/pack.hpp","include/hblas/generic/hblas3/hblas_gemm_impl.hpp","include/hblas/generic/hblas2/hblas_gemv_impl.hpp","include/hblas/generic/hblas2/hblas_geru_impl.hpp"])
p("Overlapping operands",
  "In every build, COPYV and AXPYV give the textbook result for overlapping x and y as long as no element of x is overwritten before it is read (x above y with the same increment, or x the same vector as y); COPYV and SWAPV of a vector with itself change nothing; COPYV to y = x shifted up by one element replicates x_0 into all of y (BLAS semantics, not memmove); SWAPV of a vector with itself shifted by one element, in either order of the arguments, rotates the storage by one element; GEMM with A and B the same matrix, TRANSA='C', TRANSB='N', ALPHA=1, BETA=0 leaves the Hermitian Gram matrix with real non-negative diagonal; GERC with x and y the same vector and a real ALPHA keeps a Hermitian matrix Hermitian.",
  "all lengths, increments, addresses, overlaps of the stated kinds, contents","All overlaps and lengths.",
  ["src/hblas/cxx/hblas1/copy_swap.cxx","src/hblas/cxx/hblas1/axpy_scal.cxx","include/hblas/generic/hblas1/hblas_copyv_impl.hpp","include/hblas/generic/hblas1/hblas_axpyv_impl.hpp","src/hblas/cxx/hblas3/gemm.cxx"])
p("Concurrent calls on independent data do not interfere",
  "Any number of threads may call routines of the SIMD build (COPYV, SWAPV, SCALV, AXPYV, DOT, SCALM, AXPYM, GEMM), of the Fortran build (level 1, GER, GEMV, GEMM, utilities) and of the portable build (level 1, GER, GEMV, GEMM) at the same time, in any mixture, sharing inputs, as long as no call writes storage another one uses: under every interleaving of their single memory accesses no call faults, the calls finish after a bounded number of accesses, and memory and return values are those of running them one after the other in any order. In particular GEMM on the blocks of a partition of C, one block per thread, leaves bit for bit what one GEMM call leaves. If two calls write the same storage this is false.",
  "all schedules of any finite number of threads, all routines, arguments, memories, arithmetics, block sizes","The number of interleavings is astronomical, and a data race shows only in rare ones.",
  ["src/hblas/cxx/hblas1/copy_swap.cxx","src/hblas/cxx/hblas1/axpy_scal.cxx","src/hblas/cxx/hblas1/dot.cxx","include/hblas/generic/hblas1/hblas_scalm_impl.hpp","include/hblas/generic/hblas1/hblas_axpym_impl.hpp","src/hblas/cxx/hblas3/gemm.cxx","src/hblas/cxx/hblas3/kern.cxx","include/hblas/pack/pack.hpp"])
p("Memory safety does not depend on the numbers",
  "A call whose operands are valid storage never reads or writes outside them: whatever the numbers in memory and the scalars are (NaN, Inf, any rounding), and however the operands overlap, the call finishes without undefined behaviour, changes only its output, and its effect and return value do not depend on the rest of memory.",
  "all routines of the Fortran, portable and SIMD builds, all arithmetics, sizes (also negative), strides, flags, scalars, addresses, overlaps, memories","An out-of-bounds access needs particular sizes, strides or contents (early exits on zero elements make the access pattern depend on the data); sanitizers only see the runs that are made.",
  ["src/hblas/fortran/hblas1","src/hblas/fortran/hblas2","src/hblas/fortran/hblas3","src/hblas/fortran/util","include/hblas/generic/hblas1","include/hblas/generic/hblas2","include/hblas/generic/hblas3/hblas_gemm_impl.hpp","src/hblas/cxx"])

p("Option letters: what each means in each build, and when the builds agree",
  "Every character passed as SIDE, TRANSA, TRANSB or TRANS selects one of the documented behaviours, the same for all sizes and data: the SIMD level-1 routines take only 'L' for left, the portable ones only 'R' for right, the Fortran ones 'R' or 'r' for right; SIMD GEMM knows 'T', 'C', 'R' and takes all else for 'N'; portable and Fortran GEMM take anything but N and C for 'T' (Fortran ignoring case), while GEMV takes anything but N and T for 'C'. SCALM and AXPYM refuse any TRANSA but 'N'. The builds give the same result for every call exactly when SIDE is 'L' or 'R', and exactly when both TRANSA and TRANSB are 'N', 'T' or 'C'.",
  "all characters, sizes, scalars, addresses and memories",
  "a test passes a few letters on one build; the claim covers every character, and its converse needs a pair of builds to differ for every other one",
  ["include/hblas/generic/hblas1/hblas_scalv_impl.hpp","include/hblas/generic/hblas1/hblas_axpyv_impl.hpp","include/hblas/generic/hblas1/hblas_scalm_impl.hpp","include/hblas/generic/hblas1/hblas_axpym_impl.hpp","include/hblas/generic/hblas2/hblas_gemv_impl.hpp","include/hblas/generic/hblas3/hblas_gemm_impl.hpp","src/hblas/cxx/hblas1/axpy_scal.cxx","src/hblas/cxx/hblas3/gemm.cxx","src/hblas/fortran/hblas1","src/hblas/fortran/hblas3/hgemmhh.f"])

p("Negative increments follow the BLAS convention",
  "With a negative increment a level-1 call on a vector whose storage starts at X (SCALV, AXPYV, DOTU, DOTC) works on that storage read from its far end, as in reference BLAS: logical element i is at X + (N-1-i)*|INC|, nothing outside the storage is touched, and all builds agree.",
  "all lengths, non-zero increments of either sign, scalars, contents",
  "negative increments are untested in the suite; one that reads before the buffer may pass by luck on any given heap layout",
  ["src/hblas/cxx/hblas1/axpy_scal.cxx","src/hblas/cxx/hblas1/dot.cxx","include/hblas/generic/hblas1/hblas_scalv_impl.hpp","include/hblas/generic/hblas1/hblas_axpyv_impl.hpp","include/hblas/generic/hblas1/hblas_dotuv_impl.hpp","src/hblas/fortran/hblas1"])

p("A NaN in an operand is never lost",
  "If an operand element that mathematically enters an output element has a NaN component, so has that output element: SCALV and SCALM (ALPHA or x_i), AXPYV and AXPYM (ALPHA, x_i, y_i), DOTU/DOTC (any x_i or y_i makes all four components NaN), GEMM and GEMV (ALPHA, the row of op(A), the column of op(B) or x, old C or y, BETA), GERU/GERC (ALPHA, x_i, y_j, old A), except where a scalar ALPHA or BETA that compares equal to 0 lets reference BLAS skip the operand.",
  "all sizes, strides, option letters, contents and positions of the NaNs; any arithmetic in which operations on a NaN give a NaN",
  "tests use finite data, and the position of the NaN, the unrolled remainder or packed edge it lands in and the mix with other values range over unbounded sets",
  ["src/hblas/cxx/hblas3/gemm.cxx","src/hblas/cxx/hblas3/kern.cxx","src/hblas/cxx/hblas1/axpy_scal.cxx","src/hblas/cxx/hblas1/dot.cxx","include/hblas/generic/hblas3/hblas_gemm_impl.hpp","include/hblas/generic/hblas2/hblas_gemv_impl.hpp","include/hblas/generic/hblas2/hblas_geru_impl.hpp","include/haxx/haxx_quaternion_op.hpp: operator=="])

p("A program of library calls computes what the mathematics says",
  "Take any finite sequence of calls (COPYV, SWAPV, SCALV, AXPYV, DOTU/DOTC, SCALM, AXPYM, GEMV, GERU/GERC, GEMM) on blocks, rows, columns, diagonals and strided pieces of named quaternion matrices, each call reading what earlier calls left. If every call is well-formed (operands inside their matrices, matching sizes, output not also an input) and avoids the calls listed as defective under C18, C19, C21, C29, C30, C31, then the sequence runs without fault, the matrices end with the values given by doing the same steps in exact quaternion arithmetic, DOT returns the exact values, and no other memory has changed. Hence the SIMD build with any block sizes, the Fortran reference and the portable templates leave the same memory, and storage location and leading dimensions make no difference.",
  "all finite sequences of calls, all operands, sizes, scalars, layouts, block sizes and initial memories, over any commutative ring of components",
  "interactions between calls (a routine leaving state, buffer or stray write that a later call trips over) show up only in particular sequences; sequences are unbounded",
  ["src/hblas/cxx","src/hblas/fortran","include/hblas/generic","include/hblas/hblas1.hpp","include/hblas/hblas2.hpp","include/hblas/hblas3.hpp"])

p("The builds agree up to rounding in floating point",
  "For the same well-formed call (SCALV, AXPYV, DOTU/DOTC, GEMM on the SIMD, portable and Fortran builds; GEMV, GERU/GERC on the portable and Fortran ones) the results of any two builds, where they are finite numbers, differ element by element by at most 4((1+u)^n-1) times the sum of the norms of the products involved, n depending only on the inner length, not on blocking, unrolling, fused or separate multiply-add, strides or option letters.",
  "all sizes, positive strides, letters N/T/C and L/R, scalars of any type, contents; any arithmetic whose operations have relative error at most u",
  "a test compares two builds on one machine and a few sizes with an ad hoc tolerance; the bound holds for every input including those with cancellation, and every order of summation the builds use",
  ["src/hblas/cxx/hblas1/axpy_scal.cxx","src/hblas/cxx/hblas1/dot.cxx","src/hblas/cxx/hblas3/gemm.cxx","include/hblas/generic/hblas1","include/hblas/generic/hblas2","include/hblas/generic/hblas3/hblas_gemm_impl.hpp","src/hblas/fortran"])

p("GEMM survives running out of memory",
  "If the allocator cannot provide one or both of GEMM's packing buffers, a well-formed call still ends normally and leaves either the result of a successful call or the memory untouched; it does not crash or write through an invalid pointer. (The code does not have this property once M, N and K are positive: the results of aligned_alloc are used unchecked.)",
  "all calls, sizes, letters, scalars, contents, cache block sizes, and every outcome of the two allocations",
  "allocation failure does not occur in a test run, and has to be considered for every call",
  ["src/hblas/cxx/hblas3/gemm.cxx: aligned_alloc, free","include/hblas/config/hblas3/gemm.hpp: MC, NC, KC"])

p("Rounding errors of the quaternion operators are bounded",
  "In floating point, where the result is finite: norm(q) is within ((1+u)^5-1) of the exact norm, relatively; versor(q) within (1+u)/(2-(1+u)^5)-1 of q/|q|; inv(q) within ((1+u)/(2-(1+u)^5))^2-1 of the exact inverse, relatively; a real divided by a quaternion one rounding more; quaternion/real, sums and differences within u; products (portable, AVX, AVX with conjugated left factor, with real or complex factors on either side) within 2((1+u)^4-1)|x||y|; commutators within 4((1+u)^5-1)|p||q|.",
  "all quaternions, complex and real operands; any arithmetic whose operations have relative error at most u",
  "tests compare a few values with a tolerance; the bound must hold for all magnitudes and cancellations",
  ["include/haxx/haxx_quaternion_op.hpp","include/haxx/haxx_complex_op.hpp","include/haxx/haxx_scalar_op.hpp","include/haxx/haxx_quaternion_reduction.hpp","include/util/simd/qop.hpp"])

p("The Fortran routines do not overflow their 32-bit indices",
  "The Fortran routines keep positions in INTEGER*4 variables. If N*|INC|+1 fits in 32 bits for each vector of a level-1 call (for GEMV with the larger of M and N, for GERU/GERC with the length of the vector), and 2M+1, 2N+1 (complex) or 4M+1, 4N+1 (real) for expansion and contraction, then no index operation overflows and the outcome, faults included, is that of the routine with unbounded indices; so C18, C30-C36 hold of the routines with 32-bit indices. Without the bound even a one-element call overflows (the position after the last one is computed).",
  "all calls, sizes, increments of either sign, option letters, scalar types, contents",
  "the sizes at which an index overflows need vectors of gigabytes; overflow is undefined and may go unnoticed in a test",
  ["src/hblas/fortran/hblas1","src/hblas/fortran/hblas2","src/hblas/fortran/util"])

p("Integer data are computed exactly, and identically by every build",
  "If the scalars, vectors and matrices of a well-formed call (SCALV, SCALM, AXPYV, AXPYM, DOTU/DOTC, GEMV, GERU/GERC, GEMM) have integer components small enough that the sum of the magnitudes of the products involved stays within 2^53 (explicit bounds: 4st for SCALV, w+4st for AXPYV, 4Nst for DOT, 4*beta*c+16*K*alpha*a*b for GEMM, 48 instead of 16 for the portable GEMV, a+16*alpha*x*y for GER), then every result element is exactly the mathematical one, in IEEE double precision with or without fused multiply-add, whatever the order of operations; so the SIMD, portable and Fortran builds return the same numbers. (The code does not have this property on the calls where C18, C19, C30 or C31 fail.)",
  "all sizes, strides, option letters, scalar types, block sizes and integer contents within the bounds; any arithmetic that is exact on integers up to B, in particular round-to-nearest-even doubles with B = 2^53",
  "a test checks a few matrices; that no intermediate sum or product in any of the build's orders of operation rounds or overflows must hold for all integer data within the bounds and all sizes",
  ["src/hblas/cxx/hblas1/axpy_scal.cxx","src/hblas/cxx/hblas1/dot.cxx","src/hblas/cxx/hblas3/gemm.cxx","src/hblas/cxx/hblas3/kern.cxx","include/hblas/generic","src/hblas/fortran"])

p("Moderate data give finite, accurate results in full IEEE arithmetic",
  "Nothing is assumed about overflow or underflow on the way: if the scalars, vectors and matrices of a well-formed call (SCALV, SCALM, AXPYV, AXPYM, DOTU/DOTC, GEMV, GERU/GERC, GEMM, in each build) have finite components of magnitude at most given bounds (each at least 1), and the largest magnitude S the mathematics can produce (4st for SCALV, w+4st for AXPYV, 4Nst for DOT, 4*beta*c+16*K*alpha*a*b for GEMM, 48 instead of 16 for the portable GEMV, a+16*alpha*x*y for GER) satisfies (1+2u)^D*S <= largest double, D linear in the inner length, then no intermediate result is an infinity or a NaN, every component of the result is finite and within ((1+2u)^D-1)*S of the exact one, with or without fused multiply-add. Without the condition it fails: a DOTU of two finite vectors whose exact value is 0 can be NaN.",
  "all sizes, strides, option letters, scalar types, block sizes and finite contents within the bounds; any arithmetic with relative error u plus absolute underflow error, in particular IEEE double precision with infinities, NaN and gradual underflow",
  "tests use small random numbers; that no intermediate value of any build's order of operation overflows has to hold for all contents up to the bounds and all sizes",
  ["src/hblas/cxx/hblas1/axpy_scal.cxx","src/hblas/cxx/hblas1/dot.cxx","src/hblas/cxx/hblas3/gemm.cxx","src/hblas/cxx/hblas3/kern.cxx","include/hblas/generic","src/hblas/fortran"])

p("Printing a quaternion is one unambiguous field",
  "operator<< writes (a,b,c,d), the four components in the stream's own flags, precision and locale, to a good stream as one field padded to the stream's width, resets the width and changes nothing else; a stream in a failed state is left alone. to_string gives the same text with the default format (six digits, global locale). Provided numbers are written without ',' and ')', two quaternions (or two sequences of quaternions) print alike exactly if all their components are written alike; in a locale with a decimal comma the text is ambiguous.",
  "all quaternions, stream states (flags, precision, locale, width, fill, adjustment), ways of writing numbers, sequences of any length",
  "a test compares a few strings; that no two different sequences of components share a text has to hold for all of them and all formats",
  ["include/haxx/haxx_def.hpp: operator<<, to_string"])

p("Which memory is accessed, and whether a call crashes, does not depend on the data",
  "Every call of every build makes the same memory accesses (the same addresses, reads and writes, allocations, in the same order) and ends in the same way (finishing, or the same fault) in any two memories with the same accessible cells, whatever numbers they hold: no short cuts for zeros, no data-dependent branches; a call that is safe for one set of numbers is safe for all. In the vectorised build COPYV, SWAPV, SCALV and AXPYV go through the elements in order, load each operand element once and store each result element once, whatever ALPHA; DOTU and DOTC load each element once. (The code does not have this property for GERU and GERC: they skip the columns whose element of y is zero; for them the accesses and the ending depend on no numbers other than those of y.)",
  "all calls, sizes, increments, option letters, scalars, block sizes, pairs of memories with the same accessible cells, any arithmetic",
  "a test with a memory checker or a timer sees one set of numbers; that no other numbers lead the call elsewhere has to hold for all contents",
  ["src/hblas/cxx","include/hblas/generic","src/hblas/fortran"])

p("The header templates accept real and complex operands and treat them as quaternions",
  "The portable templates AXPYV, GEMV, GERU, GERC and GEMM, instantiated from the headers with any combination of real, complex and quaternion element types for the input operands (X; A and X; X and Y; A and B) and any types of the scalars, compute the same formulas as for quaternions, a real or complex number standing for the quaternion with the other components zero, and change nothing but the output; storing B of GEMM as real or complex instead of quaternion numbers does not change the result. With everything real (AXPYV) or complex (GERU), the other components of the output are kept bit for bit, in any arithmetic. (The code does not have this property when a quaternion ALPHA, BETA or y_j is ck: it is taken for 0, or 1+ck for 1.)",
  "all element types of the operands and scalars, all sizes, strides, leading dimensions, option letters and contents",
  "the unit tests instantiate the templates for quaternion operands only; there are 27 to 81 instantiations of each, and in each of them the overloads chosen must fit for all sizes and contents",
  ["include/hblas/generic/hblas1/hblas_axpyv_impl.hpp","include/hblas/generic/hblas2","include/hblas/generic/hblas3/hblas_gemm_impl.hpp","include/haxx/haxx_scalar_op.hpp","include/haxx/haxx_complex_op.hpp"])

p("A change of sign or of scale by a power of two carries over exactly",
  "Take a well-formed call of SCALV, SCALM, AXPYV, AXPYM, DOTU/DOTC, GEMM (each build), GEMV or GERU/GERC (portable and Fortran builds) and a second one with ALPHA multiplied by r, A (or x) by g, B (or y) by h and the operand that is overwritten by r*g*h (r*g for SCALV and AXPYV), BETA unchanged. Both finish and every result of the second is that of the first multiplied by r*g*h, with no rounding difference: bit for bit (up to the sign of zeros) in IEEE double precision when the factors are signs, whatever the data, infinities and NaN included; exactly when they are powers of two and neither run overflows or underflows. The two calls may differ in addresses, strides, leading dimensions, GEMM block sizes and scratch memory. So the choice of units and of sign conventions never shows in the digits.",
  "all sizes, strides, option letters, scalar types, block sizes, contents, signs and powers of two, fused or unfused multiply-add",
  "a test compares a few pairs of runs; that every rounding of every build's order of operations commutes with the change of units has to hold for all contents and sizes",
  ["src/hblas/cxx/hblas1/axpy_scal.cxx","src/hblas/cxx/hblas1/dot.cxx","src/hblas/cxx/hblas3/gemm.cxx","src/hblas/cxx/hblas3/kern.cxx","include/hblas/generic","src/hblas/fortran"])

p("The matrix templates are their vector routine on every column",
  "A well-formed call of SCALM finishes, changes nothing but the M x N block, and leaves in column j, bit for bit and in any arithmetic, what SCALV leaves when called on a copy of that column anywhere in memory with any increment; the same for AXPYM and AXPYV on columns j of A and B. So every guarantee about an element the vector routine computes (rounding bounds, exactness, NaN propagation, independence of alignment) holds for every entry of the matrix, whichever build of the vector routine is linked.",
  "all sizes, strides, leading dimensions, sides, scalar types, contents, arithmetics and the three builds of the vector routine",
  "a test compares a few matrices with a few vectors; that columns never influence each other and that no entry depends on its address needs all layouts and contents",
  ["include/hblas/generic/hblas1/hblas_scalm_impl.hpp","include/hblas/generic/hblas1/hblas_axpym_impl.hpp","src/hblas/cxx/hblas1/axpy_scal.cxx","src/hblas/fortran/hblas1"])

p("Fusing of products with additions by the compiler does no harm",
  "GCC, with the options the library is built with, may merge any product with an addition or subtraction that uses it into one instruction that rounds once (-ffp-contract=fast), in the portable, Fortran and intrinsics code alike. Whichever products it merges, in every routine of every build (SCALV, SCALM, AXPYV, AXPYM, DOTU/DOTC, GEMV, GERU/GERC, GEMM, mixed-type templates): moderate finite data give finite results that differ from the exact quaternion value by at most ((1+8u)^D-1)S, with the same D and S as without merging (C60) and half the largest double as limit; integer data give the exact result (C59); a NaN in an operand is never lost (C53); changing the signs of operands changes nothing but signs (C64); and if it merges nothing the results are those of the source as written. (Each restricted where the code is wrong in any arithmetic, as in those properties.)",
  "all choices of the compiler (for every addition and subtraction none, the left or the right product, depending on the whole expression), sizes, strides, option letters, scalar types, block sizes and contents",
  "a test runs the binary of one compiler version; the next version, another optimisation level or an inlining decision merges other products",
  ["cmake/HAXXCompilerFlags.cmake","include/hblas/generic","src/hblas/cxx","src/hblas/fortran","include/haxx/haxx_binary_op.hpp"])

p("The same operation done twice agrees up to rounding, whatever the builds, compilers, layouts and types of the scalars",
  "Two well-formed calls of SCALV, AXPYV, DOTU/DOTC, GEMM, GEMV or GERU/GERC on the same numbers both finish, and element for element, if the results are finite, they differ by at most twice the rounding bound of the operation. The two calls may be made by any two of the builds, on machines or by compilers whose arithmetic rounds differently (each with relative error at most u; for one source compiled twice with any fused multiply-adds, 4u), with the operands at different addresses with different strides, leading dimensions and, for GEMM, different transposition flags with the same op(A) and op(B), block sizes and pack buffers, and with ALPHA and BETA passed as any scalar type that holds the same number.",
  "all pairs of builds, arithmetics, fusings, layouts, scalar types, sizes, block sizes and contents",
  "a test compares a few results of a few binaries; there are endlessly many pairs of compilers, layouts and contents",
  ["src/hblas/cxx","include/hblas/generic","src/hblas/fortran","cmake/HAXXCompilerFlags.cmake"])

p("The memory traffic of a call is what its size says",
  "The number of doubles a call reads and writes, work arrays included, is a fixed function of its sizes, strides' signs, option letters, block sizes and of whether ALPHA and BETA are 0 or 1; no content of the operands, no overlap and no alignment makes it larger, and a call that finishes attains it exactly. In particular level 1 reads and writes each element once, the portable GEMM and GEMV with ALPHA = 0 touch only the output and with BETA = 0 do not read it, and the vectorised GEMM reads A once per column block, B once, and C once per block of K. GERU/GERC may stay below their number (zeros of y); for the Fortran GEMV, GERU, GERC and GEMM an upper bound is claimed.",
  "all sizes, strides, option letters, scalars, element types, block sizes, addresses, overlaps and contents, in the vectorised, the portable and the Fortran build",
  "a test counts the accesses of a few calls with performance counters; a loop that revisits elements for some sizes or contents gives the right result and is only slower",
  ["src/hblas/cxx/hblas1","src/hblas/cxx/hblas3/gemm.cxx","include/hblas/pack","include/hblas/generic","src/hblas/fortran"])

p("In-place operators use the old value of their operand",
  "q = t, q += t, q -= t, q *= t, q /= t on a quaternion store what the operator gives on the values q and t had before, in the four components of q and nowhere else, also when the operand lies in q itself: q = q, q += q, q -= q are right; a real operand of =, +=, -= may be any component of q; a factor computed from q by its accessors (q *= q.real(), q /= norm(q)) is used with its old value throughout; and ALPHA of HBLAS_SCALV and HBLAS_AXPYV may be an element of the vector that is updated.",
  "all contents, addresses of both operands (also overlapping), element types; all lengths, strides, sides and builds for the vector routines",
  "the operators read their operand through a reference once per component: whether a later component sees the old value depends on where the operand lies, and the tests use separate variables",
  ["include/haxx/haxx_scalar_op.hpp","include/haxx/haxx_complex_op.hpp","include/haxx/haxx_quaternion_op.hpp","include/haxx/haxx_def.hpp"])

p("Programs that decide as they go compute what the mathematics says",
  "Take any user program that makes well-formed, supported library calls (as in C54), looks at and sets matrix entries, and chooses every next step from what calls returned and entries held - loops, convergence tests, pivoting, programs that never stop. After any number of steps its own variables are those of the same program run in exact quaternion arithmetic, so it has taken the same decisions; the matrices hold the exact values, no other memory has changed and no step failed. Hence the vectorised build (also as it is linked: quaternion scalars of GEMM go to the Fortran routine), the Fortran reference and the portable templates, any block sizes and any storage take the program through the same states, and a program that stops in one stops in all at the same step. Instances: a loop of K GEMMs computes A^K B for every K; a Gram-Schmidt step makes the inner product exactly 0.",
  "all programs (any state space and transition function), numbers of steps, initial states and memories, layouts, block sizes, over any commutative ring of components",
  "the next call depends on the values earlier calls left: the space of histories is unbounded, and one wrong value sends the program down another path",
  ["src/hblas/hblas1.cxx.in","src/hblas/hblas2.cxx.in","src/hblas/hblas3.cxx.in","src/hblas/cxx/hblas3/Gemm.cmake"])

p("GEMM is the same routine under every compile-time switch",
  "config/hblas3/gemm.hpp lets the person compiling the library fold ALPHA into the packing of A or of B (or forget both) and move the permutations between packing and micro-kernel. Under each accepted choice GEMM runs without fault, changes only C, leaves C = ALPHA op(A) op(B) + BETA C, and its bits do not depend on blocking or layout; the micro-kernel does the same to C bit for bit whichever side permutes. (Violated: with ALPHA in the packing of B it stands between op(A) and op(B), wrong unless it commutes; with neither switch ALPHA is ignored.)",
  "all switch settings, sizes, flags, scalar types, block sizes, contents; bits for any arithmetic",
  "the test suite is compiled with one setting of the switches; the others are separate programs, each with all inputs",
  ["include/hblas/config/hblas3/gemm.hpp","src/hblas/cxx/hblas3/gemm.cxx","src/hblas/cxx/hblas3/kern.cxx","include/hblas/pack/packops.hpp"])

p("The shipped benchmark and tuning programs run to their end",
  "The GEMM benchmark, the GEMM tuning program and the DOT benchmark, from any memory, with any random numbers, any measured times and any addresses an allocator may return, run to their end without a fault or undefined operation, give back all memory they took and leave the rest untouched; the GEMM programs leave ALPHA A B + BETA C in C (applied twice where a warm-up call precedes), and the DOT benchmark compares a Fortran and a SIMD routine that return the same value for each of its eleven lengths. (Violated by the tuning program: it adds the measured times to an uninitialised duration.)",
  "all initial memories, allocator addresses, buffer contents, random numbers, clock readings; faults for any arithmetic, values over any commutative ring",
  "a run sees one allocator, one random sequence and one clock; an uninitialised duration usually happens to start at 0",
  ["src/benchmark/gemm.cxx","src/tune/gemm.cxx","src/benchmark/dot.cxx"])

p("The packing templates pack panels of any width",
  "TPACK<PK> and NPACK<PK> (include/hblas/pack/pack.hpp), for every packing width PK and every packing operation, copy the matrix into panels of PK vectors: position r of panel p holds the operation applied to the pre-processed elements r of vectors p*PK..p*PK+PK-1, zero standing for vectors past the last; they read only the matrix, write only the buffer, and do not depend on the order in which the compiler evaluates the loads of a tuple. The packing inside GEMM is the instance PK = 2. (Violated when two or more vectors are left over: the templates stop at an assertion.)",
  "all widths, element and tuple operations, matrix sizes, leading dimensions, contents, addresses, arithmetics and evaluation orders",
  "the library instantiates one width; the others are separate programs, and the order of evaluation is the compiler's choice",
  ["include/hblas/pack/pack.hpp","include/util/boilerplate.hpp"])

if __name__=="__main__":
    with open("/verif/properties.jsonl","w") as f:
        for q in P: f.write(json.dumps(q)+"\n")
    for q in P: print(q["id"],q["title"])
