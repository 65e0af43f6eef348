#!/usr/bin/env python3
"""Source of properties.jsonl (run: python3 tools/props.py > properties.jsonl)."""
import json
P = []
def prop(title, statement, quantifier, why, anchors):
    P.append(dict(id="C%02d" % (len(P)+1), title=title, statement=statement,
                  quantifier=quantifier, why_tests_cant=why, anchors=anchors))
A = lambda f, *s: {"file": f, "symbols": list(s)}
M="src/private/fnft__misc.c"; MH="include/private/fnft__misc.h"
prop("Next power of two",
 "misc_nextpowerof2(n) returns the smallest power of two that is >= n for every 1 <= n <= 2^63, and 0 for n = 0. (For n > 2^63 the 64-bit accumulator wraps to 0 and the call never returns.)",
 "every 64-bit unsigned n", "2^64 inputs; the wrap-around region is never exercised.",
 [A(M,"misc_nextpowerof2")])
prop("Bounding-box filter keeps exactly the values in the box",
 "On valid arguments misc_filter leaves in vals[0..*N) exactly the input values with box[0]<=Re<=box[1] and box[2]<=Im<=box[3] (IEEE comparisons, so NaNs are dropped), in input order with multiplicity, permutes the companion array identically, sets *N to their number and accesses only indices < the old *N. Invalid arguments (NULL, NaN or reversed box) change nothing and give an error.",
 "all array contents incl. NaN/inf, all lengths, all boxes", "infinite domain incl. NaN/inf combinations and arbitrary lengths.",
 [A(M,"misc_filter")])
prop("Inverse bounding-box filter",
 "misc_filter_inv keeps, in order, exactly the values that are not strictly inside the box (a value with a NaN part is kept), companion array likewise.",
 "all array contents incl. NaN/inf, all lengths, all boxes", "infinite domain.", [A(M,"misc_filter_inv")])
prop("Non-real filter",
 "misc_filter_nonreal keeps, in order, exactly the values with |Im|>tol (documentation says the opposite; the code and its only use in kdvv/nsep rely on this), for every tol>=0; NaN or negative tol is rejected.",
 "all arrays, lengths, tolerances", "infinite domain.", [A(M,"misc_filter_nonreal"),A(MH,"fnft__misc_filter_nonreal")])
prop("Merging of nearby values",
 "After misc_merge the survivors are a subsequence of the input starting with its first element, are pairwise at distance >= tol, and each removed value was within tol of an earlier input value. It is NOT guaranteed that a removed value is within tol of a survivor (chains of close values collapse onto the first one).",
 "all arrays, lengths and tolerances", "order-dependent in-place algorithm over arbitrary inputs.", [A(M,"misc_merge")])
prop("Downsampling stays in bounds and reports correct indices",
 "For D>=3 and any desired Dsub, misc_downsample succeeds, reads only q[0..D), the actual Dsub is between 2 and D, qsub[j]=q[j*s] for a constant stride s>=1, first_last_index = {0,(Dsub-1)*s} with (Dsub-1)*s < D, and if the desired Dsub divides D (and is in [2,D]) it is returned unchanged.",
 "all D >= 3, all desired sizes, all contents", "rounding behaviour over all (D,Dsub) pairs.", [A(M,"misc_downsample")])
K="src/3rd_party/kiss_fft/kiss_fft.c"; W="include/private/fnft__fft_wrapper.h"
prop("Next FFT length",
 "fft_wrapper_next_fft_length(n) returns, for n>=1, the smallest number >= n having only prime factors 2, 3, 5; it is monotone in n. For n=0 it never returns.",
 "all n", "infinite domain; termination.", [A(K,"kiss_fft_next_fast_size"),A(W,"fnft__fft_wrapper_next_fft_length")])
prop("FFT plan factorisation is correct and fits its table",
 "The factor table a plan stores for length n consists of pairs (p_i,m_i) with p_1*m_1=n, p_{i+1}*m_{i+1}=m_i, last m=1; for all 1<=n<2*3^32 it has at most 32 pairs (so never overruns the fixed table), while n=2*3^32 needs 33.",
 "all plan lengths", "the overflow needs lengths no test can allocate.", [A(K,"kf_factor","kiss_fft_alloc"),A("include/3rd_party/kiss_fft/_kiss_fft_guts.h","MAXFACTORS")])
prop("The FFT computes the DFT",
 "For every length n>=1, direction and input, executing a plan returns out[k]=sum_j in[j]*exp(-+2*pi*i*j*k/n) (exact arithmetic), whatever mixture of radix 2/3/4/5/generic stages the plan uses, without touching memory outside the n-element buffers.",
 "all lengths, both directions, all inputs", "every factorisation pattern of n gives a different execution path.", [A(K,"kf_work","kf_bfly2","kf_bfly3","kf_bfly4","kf_bfly5","kf_bfly_generic"),A(W,"fnft__fft_wrapper_execute_plan")])
prop("Forward then inverse FFT returns n times the input",
 "Executing a forward plan and then an inverse plan of the same length n on any buffer returns n times the original buffer (and vice versa).",
 "all lengths and inputs", "infinite domain.", [A(W,"fnft__fft_wrapper_execute_plan")])
E="src/private/fnft__poly_eval.c"
prop("Polynomial evaluation",
 "poly_eval replaces every z[i] by p(z[i]) = sum_j p[j] z^(deg-j), for every degree (incl. 0) and every z, whichever of the two Horner branches is taken; entries are processed independently.",
 "all degrees, coefficients, point lists", "branch depends on |z|; infinite domain.", [A(E,"poly_eval")])
prop("Polynomial and derivative evaluation",
 "poly_evalderiv returns p(z[i]) and p'(z[i]) for every degree >=1 and z, in both branches. For deg=0 and |z|>1 the exponent deg-1 wraps around (code relies on 0*inf there).",
 "all degrees, coefficients, point lists", "infinite domain.", [A(E,"poly_evalderiv")])
prop("Chirp transform evaluates the polynomial on the spiral",
 "poly_chirpz stores in result[k], k<M, the value p(z_k), z_k = A^{-1} W^k (so that W=exp(i*eps), A=exp(-i*phi0) walks the unit circle from phi0 in steps eps), for all degrees, M>=1, A,W != 0.",
 "all degrees, M, A, W, coefficients", "index wrap-around of the zero-padded convolution depends on deg, M and the FFT length.", [A("src/private/fnft__poly_chirpz.c","poly_chirpz")])
F="src/private/fnft__poly_fmult.c"
prop("Fast product of n polynomials",
 "For n>=2 (power of two or not) poly_fmult leaves in p the coefficients of the product of the n degree-d polynomials, times 2^-W, sets *d to n*d, and never reads or writes outside the poly_fmult_numel(d,n) elements although it works in place.",
 "all n>=2, all degrees, all coefficients, with and without normalisation", "in-place overlapping buffers and padding for every n.", [A(F,"fnft__poly_fmult","poly_fmult_two_polys")])
prop("Fast product of n 2x2 polynomial matrices",
 "For n>=2 poly_fmult2x2 returns in result the entries of P_1*...*P_n (matrix product, in this order) times 2^-W, with *d = n*d; scratch writes of unfinished FFT products never corrupt the results of other pairs.",
 "all n>=2, degrees, coefficients, both memory modes, with and without normalisation", "the shared-spectrum/buffer-swap modes depend on remaining space at run time.", [A(F,"fnft__poly_fmult2x2","poly_fmult_two_polys2x2")])
prop("Fast product of n 3x3 polynomial matrices",
 "Same as for 2x2 with 3x3 matrices (27 scalar products scheduled over shared FFT buffers).",
 "all n>=2, degrees, coefficients, both memory modes", "same.", [A(F,"fnft__poly_fmult3x3","poly_fmult_two_polys3x3")])
prop("Return value of the fast products is determined",
 "For every n>=2 the return code of the three fast product routines is SUCCESS when all allocations succeed. For n<=1 no assignment to the return code is executed: the value returned is indeterminate and result is not written (D=1 in the fscatter routines reaches this).",
 "all n, d", "uninitialised reads usually look fine in a test.", [A(F,"fnft__poly_fmult","fnft__poly_fmult2x2","fnft__poly_fmult3x3"),A("src/private/fnft__akns_fscatter.c","akns_fscatter")])
prop("Vector normalisation",
 "misc_normalize_vector returns an integer a with v_out = 2^-a v_in, the maximum absolute value of v_out in [1,2) unless all entries are 0, in which case v is unchanged and a=0. The 2x2 and 3x3 rescaling used by the fast products do the same for all entries jointly.",
 "all vectors and lengths", "infinite domain.", [A(MH,"fnft__misc_normalize_vector"),A(F,"poly_rescale2x2","poly_rescale3x3")])
prop("Dense matrix product",
 "misc_matrix_mult computes the matrix product of row-major n x m and m x p matrices for all sizes.",
 "all sizes and entries", "infinite domain.", [A(MH,"fnft__misc_matrix_mult","fnft__misc_mat_mult_2x2","fnft__misc_mat_mult_4x4")])
prop("Hausdorff distance",
 "misc_hausdorff_dist returns the Hausdorff distance of the two finite point sets: 0 iff equal as sets, symmetric, max over points of the distance to the other set.",
 "all nonempty vectors", "infinite domain.", [A(M,"misc_hausdorff_dist")])
prop("Legendre polynomials",
 "misc_legendre_poly(n,x) is the n-th Legendre polynomial at x, for all n and x.",
 "all n, x", "infinite domain.", [A(MH,"fnft__misc_legendre_poly")])
FS="src/private/fnft__akns_fscatter.c"
prop("Per-sample polynomial transfer matrices implement the advertised splitting schemes",
 "For every fast discretization, sample (q,r), step eps and z, the polynomial matrix built for one sample and evaluated at z equals the advertised linear combination of products of exp(A) and exp(B) factors (Prins & Wahls splittings), up to the documented power of z (and up to the documented basis change for 2SPLIT2A/2SPLIT2_MODAL).",
 "all 21 fast discretizations, all samples, steps and z", "tests compare one signal at a few z; hundreds of coefficients are hand-written.", [A(FS,"akns_fscatter","akns_fscatter_zero_freq_scatter_matrix")])
prop("Fast scattering returns the ordered product over all samples",
 "akns_fscatter returns polynomials whose evaluation at z is 2^-W times the product (last sample leftmost) of the per-sample matrices, degree D*deg, for every D>=2.",
 "all D>=2, signals, discretizations", "infinite domain.", [A(FS,"akns_fscatter"),A("src/private/fnft__nse_fscatter.c","nse_fscatter")])
AS="src/private/fnft__akns_scatter.c"
prop("Slow scattering multiplies exact one-step propagators",
 "akns_scatter_matrix with the Boffetta-Osborne discretization returns the product over samples of expm(h*[-i*lambda,q_n;r_n,i*lambda]) (when no argument falls under the 1e-8 sinc threshold), times 2^-W with normalisation, for every lambda.",
 "all signals, D, lambda", "infinite domain.", [A(AS,"akns_scatter_matrix","akns_scatter_U_BO")])
prop("Scattering matrices are unimodular",
 "det S(lambda) = 1 for the matrices returned by akns_scatter_matrix (up to 2^-2W), for every discretization of slow type, and the one-step matrices for eps and -eps are inverse to each other.",
 "all signals, D, lambda", "infinite domain.", [A(AS,"akns_scatter_matrix","akns_scatter_U_BO","akns_scatter_U_ES4")])
prop("Energy conservation on the real axis",
 "For real lambda and r=-conj(q) (focusing) the returned a,b satisfy |a|^2+|b|^2=1; for r=conj(q) (defocusing) |a|^2-|b|^2=1.",
 "all signals, all real lambda, both signs of kappa", "infinite domain.", [A(AS,"akns_scatter_matrix"),A("src/private/fnft__nse_scatter.c","nse_scatter_matrix")])
prop("Derivative block is the lambda-derivative",
 "With derivative_flag=1 akns_scatter_matrix returns in entries 4..7 the exact derivative with respect to lambda of entries 0..3.",
 "all signals, all lambda outside the sinc thresholds", "finite differences in tests only approximate.", [A(AS,"akns_scatter_matrix","akns_scatter_U_BO","akns_scatter_U_ES4")])
prop("Norming constant from forward-backward scattering",
 "If a(lambda)=0 then the value b returned by akns_scatter_bound_states satisfies phi=b*psi whichever sample index the selection metric picks; entries of the scaling tables that are never written (first/last index) cannot be selected.",
 "all signals, bound states, selection outcomes", "depends on data-dependent arg-min; uninitialised table entries.", [A(AS,"akns_scatter_bound_states")])
FI="src/private/fnft__akns_finvscatter_q_from_r.inc"
prop("Inverse scattering inverts forward scattering",
 "For D=2^k, k>=1: nse_finvscatter applied to the transfer matrix computed by nse_fscatter (with or without normalisation) from samples q with kappa=+-1 returns exactly q with 2SPLIT2_MODAL (eps*|q_n| != 1 if defocusing), and with 2SPLIT2A in the focusing case when eps*|q_n|<pi/2 (up to a relative error of 1e-32 for samples with 0<eps*|q_n|<1e-8). In the defocusing 2SPLIT2A case the code applies atan instead of atanh: every non-zero sample is returned with too small a modulus.",
 "all power-of-two lengths, all signals in range", "test uses one smooth small signal with a tolerance (4e11*eps) that hides the defocusing error.", [A(FI,"finvscatter_recurse"),A("src/private/fnft__nse_finvscatter.c","fnft__nse_finvscatter")])
prop("Inverse scattering uses its explicit stack within bounds",
 "For supported discretizations (degree 1) and D a power of two >= 2 the explicit recursion stack never exceeds log2(D)+1 entries and every sample q[0..D) is written with the value that belongs to the layers of the medium; in the focusing case this holds for every transfer matrix whose first entry does not vanish at z=0. Unsupported discretizations of degree 1 are reported; for a discretization of degree >= 2 the stack is overrun before the unsupported discretization is reported.",
 "all D, deg", "heap overflow is not observable in a passing test.", [A(FI,"finvscatter_recurse")])
AD="src/private/fnft__akns_discretization.c"
prop("Change of basis matrices are mutually inverse",
 "For every PDE, discretization, vanilla flag, xi (xi != 0 for KdV) and step, the matrices to_S and from_S (2x2, and 4x4 with derivative) are inverse to each other, and the lower left block is the xi-derivative of the upper left block.",
 "all xi, eps_t, discretizations, flags", "infinite domain.", [A(AD,"fnft__akns_discretization_change_of_basis_matrix_to_S","fnft__akns_discretization_change_of_basis_matrix_from_S")])
prop("Discretization tables are consistent",
 "degree(d)>0 iff d is accepted by akns_fscatter; upsampling factor, method order and boundary coefficient are defined for exactly the known discretizations, and unknown values are rejected by every routine that takes one (except phase_factor_rho, which returns SUCCESS with NaN because of a `== NAN` comparison).",
 "all enum values incl. out-of-range", "out of range values are not tested.", [A(AD,"fnft__akns_discretization_degree"),A("src/private/fnft__nse_discretization.c","fnft__nse_discretization_phase_factor_rho")])
prop("Spectral parameter maps",
 "lambda_to_z(z_to_lambda(z)) = z for all z != 0 and z_to_lambda(lambda_to_z(l)) = l whenever |2*Re(l)*eps_t/degree1step| < pi; real lambda map to the unit circle, the upper half plane to |z|<1.",
 "all values and discretizations", "branch cut of the complex logarithm.", [A(AD,"fnft__akns_discretization_lambda_to_z","fnft__akns_discretization_z_to_lambda")])
prop("Signal preprocessing",
 "akns_discretization_preprocess_signal returns arrays of Dsub*upsampling_factor samples, reads q only at indices < D, chooses Dsub like misc_downsample, and for pointwise discretizations returns q[j*s] and r=-kappa*conj(q[j*s]).",
 "all D>=2, desired Dsub, discretizations, signals", "rounding over all pairs (D,Dsub).", [A(AD,"fnft__akns_discretization_preprocess_signal")])
prop("Commutator-free weights are consistent",
 "For the CF4_2, CF4_3 and CF5_3 methods (and pointwise ones) each row of the sample weights sums to 1 and the step weights sum to 1, so a constant signal is propagated exactly over the whole step; for CF6_4 the decimal constants make the step weights sum to 1 only up to rounding of the literals.",
 "all methods", "exact algebraic identities with square roots.", [A(AD,"fnft__akns_discretization_method_weights")])
prop("Band-limited resampling",
 "misc_resample samples the unique interpolating trigonometric polynomial with frequencies -ceil(D/2)..floor(D/2)-1 at the times j*eps_t+delta; hence delta=k*eps_t gives the circular shift by k samples (k=0: the input), shifts compose additively and resampling is linear; only q_new[0..D) is written.",
 "all D>=3, signals, shifts", "infinite domain.", [A(M,"misc_resample")])
prop("Grid search for roots on the unit circle (para-Hermitian)",
 "poly_roots_fftgridsearch_paraherm reports at most M-1 values, all of modulus one, one for every grid interval in which the real function p(z)z^-(deg/2) changes sign or vanishes at an end point, each with an angle inside its interval; the in-place overwriting of roots never destroys a value still to be read.",
 "all even degrees, grids, polynomials", "in-place aliasing and sign patterns.", [A("src/private/fnft__poly_roots_fftgridsearch.c","poly_roots_fftgridsearch_paraherm")])
prop("Grid search for roots (general)",
 "poly_roots_fftgridsearch reports at most M-2 values, each within eps of a grid point on the unit circle at which |p| is minimal among its nine grid neighbours; if p has only roots elsewhere nothing outside roots[0..M-2) is written.",
 "all degrees>=2, grids, polynomials", "infinite domain.", [A("src/private/fnft__poly_roots_fftgridsearch.c","poly_roots_fftgridsearch")])
prop("Error codes",
 "A routine returns 0 only when every subroutine it called returned 0; an error of a subroutine is propagated as a nonzero negative code -|ec| through arbitrarily deep call chains, preserving |ec|; invalid arguments are reported before any output is modified.",
 "all call depths, error codes", "requires fault injection at every call site.", [A("include/private/fnft__errwarn.h","FNFT__E_SUBROUTINE","FNFT__CHECK_RETCODE")])
prop("Message callback",
 "fnft_errwarn_getprintf returns the last pointer set in the same thread by fnft_errwarn_setprintf (initially the default printer), NULL disables all messages, and setting it in one thread does not affect another one when thread-local storage is available.",
 "all histories of set/get calls and interleavings of threads", "all interleavings.", [A("src/fnft_errwarn.c","fnft_errwarn_setprintf","fnft_errwarn_getprintf"),A("src/private/fnft__errwarn.c","fnft__errmsg_aux")])
exec(open(__file__.replace("props.py","props_extra.py")).read())
for p in P: print(json.dumps(p))
