{"id": "C01", "title": "Next power of two", "statement": "misc_nextpowerof2(n) returns the smallest power of two that is >= n for every 1 <= n <= 2^63, and 0 for n = 0. (For n > 2^63 the 64-bit accumulator wraps to 0 and the call never returns.)", "quantifier": "every 64-bit unsigned n", "why_tests_cant": "2^64 inputs; the wrap-around region is never exercised.", "anchors": [{"file": "src/private/fnft__misc.c", "symbols": ["misc_nextpowerof2"]}]}
{"id": "C02", "title": "Bounding-box filter keeps exactly the values in the box", "statement": "On valid arguments misc_filter leaves in vals[0..*N) exactly the input values with box[0]<=Re<=box[1] and box[2]<=Im<=box[3] (IEEE comparisons, so NaNs are dropped), in input order with multiplicity, permutes the companion array identically, sets *N to their number and accesses only indices < the old *N. Invalid arguments (NULL, NaN or reversed box) change nothing and give an error.", "quantifier": "all array contents incl. NaN/inf, all lengths, all boxes", "why_tests_cant": "infinite domain incl. NaN/inf combinations and arbitrary lengths.", "anchors": [{"file": "src/private/fnft__misc.c", "symbols": ["misc_filter"]}]}
{"id": "C03", "title": "Inverse bounding-box filter", "statement": "misc_filter_inv keeps, in order, exactly the values that are not strictly inside the box (a value with a NaN part is kept), companion array likewise.", "quantifier": "all array contents incl. NaN/inf, all lengths, all boxes", "why_tests_cant": "infinite domain.", "anchors": [{"file": "src/private/fnft__misc.c", "symbols": ["misc_filter_inv"]}]}
{"id": "C04", "title": "Non-real filter", "statement": "misc_filter_nonreal keeps, in order, exactly the values with |Im|>tol (documentation says the opposite; the code and its only use in kdvv/nsep rely on this), for every tol>=0; NaN or negative tol is rejected.", "quantifier": "all arrays, lengths, tolerances", "why_tests_cant": "infinite domain.", "anchors": [{"file": "src/private/fnft__misc.c", "symbols": ["misc_filter_nonreal"]}, {"file": "include/private/fnft__misc.h", "symbols": ["fnft__misc_filter_nonreal"]}]}
{"id": "C05", "title": "Merging of nearby values", "statement": "After misc_merge the survivors are a subsequence of the input starting with its first element, are pairwise at distance >= tol, and each removed value was within tol of an earlier input value. It is NOT guaranteed that a removed value is within tol of a survivor (chains of close values collapse onto the first one).", "quantifier": "all arrays, lengths and tolerances", "why_tests_cant": "order-dependent in-place algorithm over arbitrary inputs.", "anchors": [{"file": "src/private/fnft__misc.c", "symbols": ["misc_merge"]}]}
{"id": "C06", "title": "Downsampling stays in bounds and reports correct indices", "statement": "For D>=3 and any desired Dsub, misc_downsample succeeds, reads only q[0..D), the actual Dsub is between 2 and D, qsub[j]=q[j*s] for a constant stride s>=1, first_last_index = {0,(Dsub-1)*s} with (Dsub-1)*s < D, and if the desired Dsub divides D (and is in [2,D]) it is returned unchanged.", "quantifier": "all D >= 3, all desired sizes, all contents", "why_tests_cant": "rounding behaviour over all (D,Dsub) pairs.", "anchors": [{"file": "src/private/fnft__misc.c", "symbols": ["misc_downsample"]}]}
{"id": "C07", "title": "Next FFT length", "statement": "fft_wrapper_next_fft_length(n) returns, for n>=1, the smallest number >= n having only prime factors 2, 3, 5; it is monotone in n. For n=0 it never returns.", "quantifier": "all n", "why_tests_cant": "infinite domain; termination.", "anchors": [{"file": "src/3rd_party/kiss_fft/kiss_fft.c", "symbols": ["kiss_fft_next_fast_size"]}, {"file": "include/private/fnft__fft_wrapper.h", "symbols": ["fnft__fft_wrapper_next_fft_length"]}]}
{"id": "C08", "title": "FFT plan factorisation is correct and fits its table", "statement": "The factor table a plan stores for length n consists of pairs (p_i,m_i) with p_1*m_1=n, p_{i+1}*m_{i+1}=m_i, last m=1; for all 1<=n<2*3^32 it has at most 32 pairs (so never overruns the fixed table), while n=2*3^32 needs 33.", "quantifier": "all plan lengths", "why_tests_cant": "the overflow needs lengths no test can allocate.", "anchors": [{"file": "src/3rd_party/kiss_fft/kiss_fft.c", "symbols": ["kf_factor", "kiss_fft_alloc"]}, {"file": "include/3rd_party/kiss_fft/_kiss_fft_guts.h", "symbols": ["MAXFACTORS"]}]}
{"id": "C09", "title": "The FFT computes the DFT", "statement": "For every length n>=1, direction and input, executing a plan returns out[k]=sum_j in[j]*exp(-+2*pi*i*j*k/n) (exact arithmetic), whatever mixture of radix 2/3/4/5/generic stages the plan uses, without touching memory outside the n-element buffers.", "quantifier": "all lengths, both directions, all inputs", "why_tests_cant": "every factorisation pattern of n gives a different execution path.", "anchors": [{"file": "src/3rd_party/kiss_fft/kiss_fft.c", "symbols": ["kf_work", "kf_bfly2", "kf_bfly3", "kf_bfly4", "kf_bfly5", "kf_bfly_generic"]}, {"file": "include/private/fnft__fft_wrapper.h", "symbols": ["fnft__fft_wrapper_execute_plan"]}]}
{"id": "C10", "title": "Forward then inverse FFT returns n times the input", "statement": "Executing a forward plan and then an inverse plan of the same length n on any buffer returns n times the original buffer (and vice versa).", "quantifier": "all lengths and inputs", "why_tests_cant": "infinite domain.", "anchors": [{"file": "include/private/fnft__fft_wrapper.h", "symbols": ["fnft__fft_wrapper_execute_plan"]}]}
{"id": "C11", "title": "Polynomial evaluation", "statement": "poly_eval replaces every z[i] by p(z[i]) = sum_j p[j] z^(deg-j), for every degree (incl. 0) and every z, whichever of the two Horner branches is taken; entries are processed independently.", "quantifier": "all degrees, coefficients, point lists", "why_tests_cant": "branch depends on |z|; infinite domain.", "anchors": [{"file": "src/private/fnft__poly_eval.c", "symbols": ["poly_eval"]}]}
{"id": "C12", "title": "Polynomial and derivative evaluation", "statement": "poly_evalderiv returns p(z[i]) and p'(z[i]) for every degree >=1 and z, in both branches. For deg=0 and |z|>1 the exponent deg-1 wraps around (code relies on 0*inf there).", "quantifier": "all degrees, coefficients, point lists", "why_tests_cant": "infinite domain.", "anchors": [{"file": "src/private/fnft__poly_eval.c", "symbols": ["poly_evalderiv"]}]}
{"id": "C13", "title": "Chirp transform evaluates the polynomial on the spiral", "statement": "poly_chirpz stores in result[k], k<M, the value p(z_k), z_k = A^{-1} W^k (so that W=exp(i*eps), A=exp(-i*phi0) walks the unit circle from phi0 in steps eps), for all degrees, M>=1, A,W != 0.", "quantifier": "all degrees, M, A, W, coefficients", "why_tests_cant": "index wrap-around of the zero-padded convolution depends on deg, M and the FFT length.", "anchors": [{"file": "src/private/fnft__poly_chirpz.c", "symbols": ["poly_chirpz"]}]}
{"id": "C14", "title": "Fast product of n polynomials", "statement": "For n>=2 (power of two or not) poly_fmult leaves in p the coefficients of the product of the n degree-d polynomials, times 2^-W, sets *d to n*d, and never reads or writes outside the poly_fmult_numel(d,n) elements although it works in place.", "quantifier": "all n>=2, all degrees, all coefficients, with and without normalisation", "why_tests_cant": "in-place overlapping buffers and padding for every n.", "anchors": [{"file": "src/private/fnft__poly_fmult.c", "symbols": ["fnft__poly_fmult", "poly_fmult_two_polys"]}]}
{"id": "C15", "title": "Fast product of n 2x2 polynomial matrices", "statement": "For n>=2 poly_fmult2x2 returns in result the entries of P_1*...*P_n (matrix product, in this order) times 2^-W, with *d = n*d; scratch writes of unfinished FFT products never corrupt the results of other pairs.", "quantifier": "all n>=2, degrees, coefficients, both memory modes, with and without normalisation", "why_tests_cant": "the shared-spectrum/buffer-swap modes depend on remaining space at run time.", "anchors": [{"file": "src/private/fnft__poly_fmult.c", "symbols": ["fnft__poly_fmult2x2", "poly_fmult_two_polys2x2"]}]}
{"id": "C16", "title": "Fast product of n 3x3 polynomial matrices", "statement": "Same as for 2x2 with 3x3 matrices (27 scalar products scheduled over shared FFT buffers).", "quantifier": "all n>=2, degrees, coefficients, both memory modes", "why_tests_cant": "same.", "anchors": [{"file": "src/private/fnft__poly_fmult.c", "symbols": ["fnft__poly_fmult3x3", "poly_fmult_two_polys3x3"]}]}
{"id": "C17", "title": "Return value of the fast products is determined", "statement": "For every n>=2 the return code of the three fast product routines is SUCCESS when all allocations succeed. For n<=1 no assignment to the return code is executed: the value returned is indeterminate and result is not written (D=1 in the fscatter routines reaches this).", "quantifier": "all n, d", "why_tests_cant": "uninitialised reads usually look fine in a test.", "anchors": [{"file": "src/private/fnft__poly_fmult.c", "symbols": ["fnft__poly_fmult", "fnft__poly_fmult2x2", "fnft__poly_fmult3x3"]}, {"file": "src/private/fnft__akns_fscatter.c", "symbols": ["akns_fscatter"]}]}
{"id": "C18", "title": "Vector normalisation", "statement": "misc_normalize_vector returns an integer a with v_out = 2^-a v_in, the maximum absolute value of v_out in [1,2) unless all entries are 0, in which case v is unchanged and a=0. The 2x2 and 3x3 rescaling used by the fast products do the same for all entries jointly.", "quantifier": "all vectors and lengths", "why_tests_cant": "infinite domain.", "anchors": [{"file": "include/private/fnft__misc.h", "symbols": ["fnft__misc_normalize_vector"]}, {"file": "src/private/fnft__poly_fmult.c", "symbols": ["poly_rescale2x2", "poly_rescale3x3"]}]}
{"id": "C19", "title": "Dense matrix product", "statement": "misc_matrix_mult computes the matrix product of row-major n x m and m x p matrices for all sizes.", "quantifier": "all sizes and entries", "why_tests_cant": "infinite domain.", "anchors": [{"file": "include/private/fnft__misc.h", "symbols": ["fnft__misc_matrix_mult", "fnft__misc_mat_mult_2x2", "fnft__misc_mat_mult_4x4"]}]}
{"id": "C20", "title": "Hausdorff distance", "statement": "misc_hausdorff_dist returns the Hausdorff distance of the two finite point sets: 0 iff equal as sets, symmetric, max over points of the distance to the other set.", "quantifier": "all nonempty vectors", "why_tests_cant": "infinite domain.", "anchors": [{"file": "src/private/fnft__misc.c", "symbols": ["misc_hausdorff_dist"]}]}
{"id": "C21", "title": "Legendre polynomials", "statement": "misc_legendre_poly(n,x) is the n-th Legendre polynomial at x, for all n and x.", "quantifier": "all n, x", "why_tests_cant": "infinite domain.", "anchors": [{"file": "include/private/fnft__misc.h", "symbols": ["fnft__misc_legendre_poly"]}]}
{"id": "C22", "title": "Per-sample polynomial transfer matrices implement the advertised splitting schemes", "statement": "For every fast discretization, sample (q,r), step eps and z, the polynomial matrix built for one sample and evaluated at z equals the advertised linear combination of products of exp(A) and exp(B) factors (Prins & Wahls splittings), up to the documented power of z (and up to the documented basis change for 2SPLIT2A/2SPLIT2_MODAL).", "quantifier": "all 21 fast discretizations, all samples, steps and z", "why_tests_cant": "tests compare one signal at a few z; hundreds of coefficients are hand-written.", "anchors": [{"file": "src/private/fnft__akns_fscatter.c", "symbols": ["akns_fscatter", "akns_fscatter_zero_freq_scatter_matrix"]}]}
{"id": "C23", "title": "Fast scattering returns the ordered product over all samples", "statement": "akns_fscatter returns polynomials whose evaluation at z is 2^-W times the product (last sample leftmost) of the per-sample matrices, degree D*deg, for every D>=2.", "quantifier": "all D>=2, signals, discretizations", "why_tests_cant": "infinite domain.", "anchors": [{"file": "src/private/fnft__akns_fscatter.c", "symbols": ["akns_fscatter"]}, {"file": "src/private/fnft__nse_fscatter.c", "symbols": ["nse_fscatter"]}]}
{"id": "C24", "title": "Slow scattering multiplies exact one-step propagators", "statement": "akns_scatter_matrix with the Boffetta-Osborne discretization returns the product over samples of expm(h*[-i*lambda,q_n;r_n,i*lambda]) (when no argument falls under the 1e-8 sinc threshold), times 2^-W with normalisation, for every lambda.", "quantifier": "all signals, D, lambda", "why_tests_cant": "infinite domain.", "anchors": [{"file": "src/private/fnft__akns_scatter.c", "symbols": ["akns_scatter_matrix", "akns_scatter_U_BO"]}]}
{"id": "C25", "title": "Scattering matrices are unimodular", "statement": "det S(lambda) = 1 for the matrices returned by akns_scatter_matrix (up to 2^-2W), for every discretization of slow type, and the one-step matrices for eps and -eps are inverse to each other.", "quantifier": "all signals, D, lambda", "why_tests_cant": "infinite domain.", "anchors": [{"file": "src/private/fnft__akns_scatter.c", "symbols": ["akns_scatter_matrix", "akns_scatter_U_BO", "akns_scatter_U_ES4"]}]}
{"id": "C26", "title": "Energy conservation on the real axis", "statement": "For real lambda and r=-conj(q) (focusing) the returned a,b satisfy |a|^2+|b|^2=1; for r=conj(q) (defocusing) |a|^2-|b|^2=1.", "quantifier": "all signals, all real lambda, both signs of kappa", "why_tests_cant": "infinite domain.", "anchors": [{"file": "src/private/fnft__akns_scatter.c", "symbols": ["akns_scatter_matrix"]}, {"file": "src/private/fnft__nse_scatter.c", "symbols": ["nse_scatter_matrix"]}]}
{"id": "C27", "title": "Derivative block is the lambda-derivative", "statement": "With derivative_flag=1 akns_scatter_matrix returns in entries 4..7 the exact derivative with respect to lambda of entries 0..3.", "quantifier": "all signals, all lambda outside the sinc thresholds", "why_tests_cant": "finite differences in tests only approximate.", "anchors": [{"file": "src/private/fnft__akns_scatter.c", "symbols": ["akns_scatter_matrix", "akns_scatter_U_BO", "akns_scatter_U_ES4"]}]}
{"id": "C28", "title": "Norming constant from forward-backward scattering", "statement": "If a(lambda)=0 then the value b returned by akns_scatter_bound_states satisfies phi=b*psi whichever sample index the selection metric picks; entries of the scaling tables that are never written (first/last index) cannot be selected.", "quantifier": "all signals, bound states, selection outcomes", "why_tests_cant": "depends on data-dependent arg-min; uninitialised table entries.", "anchors": [{"file": "src/private/fnft__akns_scatter.c", "symbols": ["akns_scatter_bound_states"]}]}
{"id": "C29", "title": "Inverse scattering inverts forward scattering", "statement": "For D=2^k, k>=1: nse_finvscatter applied to the transfer matrix computed by nse_fscatter (with or without normalisation) from samples q with kappa=+-1 returns exactly q with 2SPLIT2_MODAL (eps*|q_n| != 1 if defocusing), and with 2SPLIT2A in the focusing case when eps*|q_n|<pi/2 (up to a relative error of 1e-32 for samples with 0<eps*|q_n|<1e-8). In the defocusing 2SPLIT2A case the code applies atan instead of atanh: every non-zero sample is returned with too small a modulus.", "quantifier": "all power-of-two lengths, all signals in range", "why_tests_cant": "test uses one smooth small signal with a tolerance (4e11*eps) that hides the defocusing error.", "anchors": [{"file": "src/private/fnft__akns_finvscatter_q_from_r.inc", "symbols": ["finvscatter_recurse"]}, {"file": "src/private/fnft__nse_finvscatter.c", "symbols": ["fnft__nse_finvscatter"]}]}
{"id": "C30", "title": "Inverse scattering uses its explicit stack within bounds", "statement": "For supported discretizations (degree 1) and D a power of two >= 2 the explicit recursion stack never exceeds log2(D)+1 entries and every sample q[0..D) is written with the value that belongs to the layers of the medium; in the focusing case this holds for every transfer matrix whose first entry does not vanish at z=0. Unsupported discretizations of degree 1 are reported; for a discretization of degree >= 2 the stack is overrun before the unsupported discretization is reported.", "quantifier": "all D, deg", "why_tests_cant": "heap overflow is not observable in a passing test.", "anchors": [{"file": "src/private/fnft__akns_finvscatter_q_from_r.inc", "symbols": ["finvscatter_recurse"]}]}
{"id": "C31", "title": "Change of basis matrices are mutually inverse", "statement": "For every PDE, discretization, vanilla flag, xi (xi != 0 for KdV) and step, the matrices to_S and from_S (2x2, and 4x4 with derivative) are inverse to each other, and the lower left block is the xi-derivative of the upper left block.", "quantifier": "all xi, eps_t, discretizations, flags", "why_tests_cant": "infinite domain.", "anchors": [{"file": "src/private/fnft__akns_discretization.c", "symbols": ["fnft__akns_discretization_change_of_basis_matrix_to_S", "fnft__akns_discretization_change_of_basis_matrix_from_S"]}]}
{"id": "C32", "title": "Discretization tables are consistent", "statement": "degree(d)>0 iff d is accepted by akns_fscatter; upsampling factor, method order and boundary coefficient are defined for exactly the known discretizations, and unknown values are rejected by every routine that takes one (except phase_factor_rho, which returns SUCCESS with NaN because of a `== NAN` comparison).", "quantifier": "all enum values incl. out-of-range", "why_tests_cant": "out of range values are not tested.", "anchors": [{"file": "src/private/fnft__akns_discretization.c", "symbols": ["fnft__akns_discretization_degree"]}, {"file": "src/private/fnft__nse_discretization.c", "symbols": ["fnft__nse_discretization_phase_factor_rho"]}]}
{"id": "C33", "title": "Spectral parameter maps", "statement": "lambda_to_z(z_to_lambda(z)) = z for all z != 0 and z_to_lambda(lambda_to_z(l)) = l whenever |2*Re(l)*eps_t/degree1step| < pi; real lambda map to the unit circle, the upper half plane to |z|<1.", "quantifier": "all values and discretizations", "why_tests_cant": "branch cut of the complex logarithm.", "anchors": [{"file": "src/private/fnft__akns_discretization.c", "symbols": ["fnft__akns_discretization_lambda_to_z", "fnft__akns_discretization_z_to_lambda"]}]}
{"id": "C34", "title": "Signal preprocessing", "statement": "akns_discretization_preprocess_signal returns arrays of Dsub*upsampling_factor samples, reads q only at indices < D, chooses Dsub like misc_downsample, and for pointwise discretizations returns q[j*s] and r=-kappa*conj(q[j*s]).", "quantifier": "all D>=2, desired Dsub, discretizations, signals", "why_tests_cant": "rounding over all pairs (D,Dsub).", "anchors": [{"file": "src/private/fnft__akns_discretization.c", "symbols": ["fnft__akns_discretization_preprocess_signal"]}]}
{"id": "C35", "title": "Commutator-free weights are consistent", "statement": "For the CF4_2, CF4_3 and CF5_3 methods (and pointwise ones) each row of the sample weights sums to 1 and the step weights sum to 1, so a constant signal is propagated exactly over the whole step; for CF6_4 the decimal constants make the step weights sum to 1 only up to rounding of the literals.", "quantifier": "all methods", "why_tests_cant": "exact algebraic identities with square roots.", "anchors": [{"file": "src/private/fnft__akns_discretization.c", "symbols": ["fnft__akns_discretization_method_weights"]}]}
{"id": "C36", "title": "Band-limited resampling", "statement": "misc_resample samples the unique interpolating trigonometric polynomial with frequencies -ceil(D/2)..floor(D/2)-1 at the times j*eps_t+delta; hence delta=k*eps_t gives the circular shift by k samples (k=0: the input), shifts compose additively and resampling is linear; only q_new[0..D) is written.", "quantifier": "all D>=3, signals, shifts", "why_tests_cant": "infinite domain.", "anchors": [{"file": "src/private/fnft__misc.c", "symbols": ["misc_resample"]}]}
{"id": "C37", "title": "Grid search for roots on the unit circle (para-Hermitian)", "statement": "poly_roots_fftgridsearch_paraherm reports at most M-1 values, all of modulus one, one for every grid interval in which the real function p(z)z^-(deg/2) changes sign or vanishes at an end point, each with an angle inside its interval; the in-place overwriting of roots never destroys a value still to be read.", "quantifier": "all even degrees, grids, polynomials", "why_tests_cant": "in-place aliasing and sign patterns.", "anchors": [{"file": "src/private/fnft__poly_roots_fftgridsearch.c", "symbols": ["poly_roots_fftgridsearch_paraherm"]}]}
{"id": "C38", "title": "Grid search for roots (general)", "statement": "poly_roots_fftgridsearch reports at most M-2 values, each within eps of a grid point on the unit circle at which |p| is minimal among its nine grid neighbours; if p has only roots elsewhere nothing outside roots[0..M-2) is written.", "quantifier": "all degrees>=2, grids, polynomials", "why_tests_cant": "infinite domain.", "anchors": [{"file": "src/private/fnft__poly_roots_fftgridsearch.c", "symbols": ["poly_roots_fftgridsearch"]}]}
{"id": "C39", "title": "Error codes", "statement": "A routine returns 0 only when every subroutine it called returned 0; an error of a subroutine is propagated as a nonzero negative code -|ec| through arbitrarily deep call chains, preserving |ec|; invalid arguments are reported before any output is modified.", "quantifier": "all call depths, error codes", "why_tests_cant": "requires fault injection at every call site.", "anchors": [{"file": "include/private/fnft__errwarn.h", "symbols": ["FNFT__E_SUBROUTINE", "FNFT__CHECK_RETCODE"]}]}
{"id": "C40", "title": "Message callback", "statement": "fnft_errwarn_getprintf returns the last pointer set in the same thread by fnft_errwarn_setprintf (initially the default printer), NULL disables all messages, and setting it in one thread does not affect another one when thread-local storage is available.", "quantifier": "all histories of set/get calls and interleavings of threads", "why_tests_cant": "all interleavings.", "anchors": [{"file": "src/fnft_errwarn.c", "symbols": ["fnft_errwarn_setprintf", "fnft_errwarn_getprintf"]}, {"file": "src/private/fnft__errwarn.c", "symbols": ["fnft__errmsg_aux"]}]}
{"id": "C41", "title": "fnft_nsev: continuous spectrum", "statement": "A call of fnft_nsev without Richardson extrapolation that succeeds leaves in contspec, for every discretization, normalisation flag, kappa and contspec type, the values computed from the scattering coefficients a(xi_i), b(xi_i) of the chosen discretization of the signal on the grid xi_i=XI[0]+i*(XI[1]-XI[0])/(M-1): b/a, (a,b), or (b/a,a,b), in this order, and nothing beyond; if no bound states are requested the call succeeds iff no division by a(xi_i)=0 is needed, and otherwise reports an error.", "quantifier": "all D>=2 (3 for commutator-free methods), M>=2, signals, intervals, kappa, options", "why_tests_cant": "the tests compare a few sech signals against closed forms with a tolerance.", "anchors": [{"file": "src/fnft_nsev.c", "symbols": ["fnft_nsev", "fnft_nsev_base", "nsev_compute_contspec"]}]}
{"id": "C42", "title": "fnft_nsev: bound states with Newton's method", "statement": "In a focusing call of fnft_nsev without Richardson extrapolation that uses Newton's method, every user-provided guess is replaced by the final iterate of Newton's method for the coefficient a(lambda) of the (slow variant of the) chosen discretization, and an iteration only stops when an exact zero was hit, the step or the value of a is at most the tolerance, the iterate leaves the bounding box or the iteration budget is used up; the iterates in the box, thinned out such that no two are closer than sqrt(eps), are written to the front of the array (at most *K_ptr of them), *K_ptr is their number and the options are unchanged; the call fails iff the derivative of a is exactly zero at an iterate (or at a bound state, if residues are requested).", "quantifier": "all signals, intervals, discretizations, filters, tolerances, budgets, guesses and numbers of guesses", "why_tests_cant": "the tests refine a few guesses for one sech pulse.", "anchors": [{"file": "src/fnft_nsev.c", "symbols": ["fnft_nsev", "fnft_nsev_base", "nsev_compute_boundstates", "nsev_refine_bound_states_newton"]}]}
{"id": "C43", "title": "fnft_nsev: bound states from polynomial roots", "statement": "In a focusing call with the fast eigenvalue method the polynomial handed to the root finder is, up to the power-of-two normalisation, the coefficient a(lambda) in the variable z=exp(2i lambda eps/degree); the reported bound states are the images of the returned roots in the lambda plane after filtering with the bounding box and merging; hence with exact roots every reported value is a zero of a, and every zero of a in the resolvable strip and the box is reported or merged with one that is closer than sqrt(eps), as long as *K_ptr is large enough; failures of the root finder are passed on.", "quantifier": "all signals, intervals, fast discretizations, filters and root finders", "why_tests_cant": "the tests look at one signal whose eigenvalues are known.", "anchors": [{"file": "src/fnft_nsev.c", "symbols": ["fnft_nsev_base", "nsev_compute_boundstates"]}, {"file": "src/fnft__nse_discretization.c", "symbols": ["fnft__nse_discretization_z_to_lambda"]}]}
{"id": "C44", "title": "fnft_nsev: norming constants and residues", "statement": "The norming constant that fnft_nsev reports for a bound state at an exact zero of a is the factor between the two Jost solutions at every sample boundary and equals b(lambda); residues are norming constants divided by the derivative of a, and with both requested all norming constants come first and all residues second.", "quantifier": "all signals, discretizations, bound states, numbers of bound states", "why_tests_cant": "the tests compare numbers for a few bound states of one pulse with a tolerance.", "anchors": [{"file": "src/fnft_nsev.c", "symbols": ["fnft_nsev_base", "nsev_compute_normconsts_or_residues"]}, {"file": "src/private/fnft__akns_scatter_bound_states.c", "symbols": ["akns_scatter_bound_states"]}]}
{"id": "C45", "title": "fnft_nsev: the default localisation method", "statement": "In a focusing call with the (default) method subsample-and-refine, the guesses are obtained from the roots of the polynomial of a(lambda) of a subsampled signal whose samples have a common larger distance and lie in the original grid (exactly Dsub of them if Dsub divides D), after filtering and merging; they are then refined with Newton's method for the full signal and filtered and merged again, and the result is truncated to the size of the user's array; after success the caller's options record is unchanged although it is modified temporarily, after a failure it contains the method of the failed stage.", "quantifier": "all signals, intervals, discretizations with a polynomial transfer matrix, options with Dsub<=2D, root finders", "why_tests_cant": "the tests use one signal and never look at the options afterwards.", "anchors": [{"file": "src/fnft_nsev.c", "symbols": ["fnft_nsev", "fnft_nsev_base", "nsev_compute_boundstates"]}]}
{"id": "C46", "title": "fnft_nsev: Richardson extrapolation of the continuous spectrum", "statement": "With Richardson extrapolation the continuous spectrum is, at every frequency that the subsampled signal can resolve, (s^p u - v)/(s^p - 1) with u the values for the full signal, v those for the signal subsampled with factor s>=2 and p the order of the method, and u elsewhere; this combination is exact if the error is exactly alpha*h^p; the options record is unchanged; if a division by a(xi)=0 occurs in any of the two computations an error is returned.", "quantifier": "all D>=3, signals, discretizations, frequency grids, contspec types", "why_tests_cant": "the tests only check that errors decrease at a higher rate for one signal.", "anchors": [{"file": "src/fnft_nsev.c", "symbols": ["fnft_nsev"]}]}
{"id": "C47", "title": "KdV discretizations: tables", "statement": "The 56 KdV discretizations are the 28 AKNS discretizations in two AKNS systems each (the flag vanilla tells them apart), without omissions or duplicates; degrees and orders are those of the documentation; the slow method used for the discrete spectrum exists for each of them, uses the same AKNS system and the same number of samples per step and has the same order; phase factors correspond to boundaries half a step outside of the samples; unknown values are rejected by every routine without side effects (except that phase_factor_rho reports success and NaN).", "quantifier": "all enumerators and all values that are not enumerators", "why_tests_cant": "a test enumerates some tables; consistency of all tables with each other and with the documentation over all values is not checked.", "anchors": [{"file": "src/private/fnft__kdv_discretization.c", "symbols": ["fnft__kdv_discretization_to_akns_discretization", "fnft__kdv_discretization_vanilla_flag", "fnft__kdv_slow_discretization", "fnft__kdv_discretization_phase_factor_a"]}, {"file": "include/fnft_kdv_discretization_t.h", "symbols": ["fnft_kdv_discretization_t"]}]}
{"id": "C48", "title": "fnft_kdvv: continuous spectrum", "statement": "A call of fnft_kdvv without Richardson extrapolation that succeeds leaves in contspec, for each of the 56 discretizations, the values b/a, (a,b), or (b/a,a,b) computed from the scattering coefficients of the chosen discretization of the Schroedinger operator on the frequency grid, and nothing beyond; for the discretization BO these are exactly the scattering coefficients of the piecewise constant potential. If no bound states are requested the call succeeds iff no division by a(xi_i)=0 is needed. Signals with a sample that is not real and frequency grids that contain zero are rejected without any output.", "quantifier": "all D>=2 (3 for commutator-free methods), M>=2, real signals, intervals, frequency grids without zero, options", "why_tests_cant": "the tests compare a few signals against closed forms with a tolerance.", "anchors": [{"file": "src/fnft_kdvv.c", "symbols": ["fnft_kdvv", "fnft_kdvv_base", "kdvv_compute_contspec"]}, {"file": "src/private/fnft__kdv_fscatter.c", "symbols": ["kdv_fscatter"]}, {"file": "src/private/fnft__kdv_scatter.c", "symbols": ["kdv_scatter_matrix"]}]}
{"id": "C49", "title": "fnft_kdvv: bound states with Newton's method", "statement": "In a call of fnft_kdvv without Richardson extrapolation that uses Newton's method, every user-provided guess i*kappa is replaced by i times the final iterate of Newton's method for kappa -> Re a(i kappa) of the slow method that belongs to the chosen discretization; an iteration only stops when an exact zero was hit, the step is at most 100 times the machine precision, the iterate leaves the interval between zero and the square root of the largest sample, or the iteration budget is used up; the number of bound states and the options are unchanged, and the continuous spectrum is as in C48. If no sample is positive the call reports zero bound states and does not touch the arrays. The call fails iff an iterate is exactly zero or the derivative vanishes at an iterate (or at a bound state, if residues are requested).", "quantifier": "all real signals, intervals, discretizations, budgets, guesses and numbers of guesses", "why_tests_cant": "the tests refine a few guesses for one sech^2 pulse.", "anchors": [{"file": "src/fnft_kdvv.c", "symbols": ["fnft_kdvv", "fnft_kdvv_base", "kdvv_compute_boundstates", "kdvv_refine_bound_states_newton"]}]}
{"id": "C50", "title": "fnft_kdvv: bound states with the grid search", "statement": "In a call of fnft_kdvv without Richardson extrapolation that uses the (default) grid search, the initial guesses are exactly the zeros of kappa -> S_11(i kappa) at points of a strictly increasing grid in the open interval between zero and the square root of the largest sample, and one point strictly between any two neighbouring grid points at which the real part has opposite signs; the guesses are strictly increasing, and between two such points there is indeed a zero of a(i kappa); they are refined with Newton's method. If there is no positive sample, or the interval is not longer than the grid spacing, success and zero bound states are reported; if the grid spacing is not positive but there is a positive sample, or there are more guesses than *K_ptr, the call fails.", "quantifier": "all real signals, intervals, discretizations, grid spacings, array sizes", "why_tests_cant": "the tests use one grid for one signal.", "anchors": [{"file": "src/fnft_kdvv.c", "symbols": ["fnft_kdvv", "fnft_kdvv_base", "kdvv_compute_boundstates", "grid_search_for_boundstates"]}]}
{"id": "C51", "title": "fnft_kdvv: norming constants", "statement": "The norming constant that fnft_kdvv reports for a bound state i*kappa at an exact zero of a is real, is the factor between the two Jost solutions at every sample boundary and equals b(i kappa) (unless there is no sample boundary at which no component vanishes: then the array is left as it was).", "quantifier": "all real signals, discretizations with real weights, bound states", "why_tests_cant": "the tests compare numbers for one pulse with a tolerance.", "anchors": [{"file": "src/fnft_kdvv.c", "symbols": ["fnft_kdvv_base", "kdvv_compute_normconsts_or_residues"]}, {"file": "src/private/fnft__akns_scatter_bound_states.c", "symbols": ["akns_scatter_bound_states"]}]}
{"id": "C52", "title": "fnft_kdvv: the search interval contains all bound states", "statement": "For every discretization with one or two processed samples per sample, and real processed samples, a(i kappa) is positive for every kappa>0 that is at least the square root of the largest processed sample; hence no bound state is outside of the interval that fnft_kdvv searches, and there are none if no sample is positive. The processed samples are real for all discretizations that do not interpolate the signal.", "quantifier": "all real signals, intervals, kappa>0, discretizations", "why_tests_cant": "positivity on an unbounded interval for every potential cannot be tested.", "anchors": [{"file": "src/fnft_kdvv.c", "symbols": ["fnft_kdvv_base"]}]}
{"id": "C53", "title": "Manakov: fast transfer matrix", "statement": "For each of the ten discretizations that manakov_fscatter supports, all D>=2 samples of both components, steps and signs kappa, it succeeds and the returned 3x3 polynomial matrix of degree D*degree, evaluated at the z that belongs to a lambda and multiplied by the power of two W and a phase, is the product, last sample first, of the documented splitting of exp((A+B_n)h) (for the FTES4 discretizations surrounded by the exponentials of the correction terms with first and second differences); the factors exp(w h B_n) are exact unless the sample is tiny, and accurate to 33 digits in general. Every other discretization is rejected and no output is touched.", "quantifier": "all D, signals, kappa, steps, lambda, discretizations", "why_tests_cant": "the tests compare coefficients for one short signal per discretization with precomputed values; 229 KB of generated coefficient tables are not covered.", "anchors": [{"file": "src/private/fnft__manakov_fscatter.c", "symbols": ["manakov_fscatter", "manakov_fscatter_numel"]}]}
{"id": "C54", "title": "Manakov: slow scattering matrix", "statement": "For BO and CF4_2, all numbers of samples and of lambdas, the nine numbers that manakov_scatter_matrix stores for each lambda are the product, last sample first, of the exact exponentials of the steps (at lambda, or lambda/2 for the commutator-free method), nothing else in the result array changes, and every other discretization is rejected without touching the result.", "quantifier": "all D, K, signals, lambda for which no step hits the branch point, steps, kappa", "why_tests_cant": "the tests compare a few numbers for one signal.", "anchors": [{"file": "src/private/fnft__manakov_scatter.c", "symbols": ["manakov_scatter_matrix", "manakov_scatter_U_BO"]}]}
{"id": "C55", "title": "Manakov: energy conservation", "statement": "The scattering matrices returned by manakov_scatter_matrix satisfy S^H J S = J with J=diag(1,kappa,kappa) for every real lambda, in particular |S11|^2+kappa(|S21|^2+|S31|^2)=1 (focusing case: for every signal whatsoever), and their determinant is exp(i lambda T) for every lambda.", "quantifier": "all D, signals, lambda, kappa", "why_tests_cant": "an identity over all signals and lambda.", "anchors": [{"file": "src/private/fnft__manakov_scatter.c", "symbols": ["manakov_scatter_matrix"]}]}
{"id": "C56", "title": "Manakov discretizations: preprocessing and spectral maps", "statement": "For every discretization with a nonzero upsampling factor the preprocessing returns samples on a subgrid as requested (with the upsampling factor two: the Gauss-Legendre combinations of the trigonometric interpolants of both components); the maps between lambda and z are inverse to each other where z is nonzero and |Re lambda| is below the Nyquist bound; the phase factors fit to the boundaries of the interval; unknown discretizations are rejected.", "quantifier": "all D>=2, signals, steps, requested numbers of samples, discretizations, values", "why_tests_cant": "the tests look at no intermediate values for the Manakov equation.", "anchors": [{"file": "src/private/fnft__manakov_discretization.c", "symbols": ["manakov_discretization_preprocess_signal", "fnft__manakov_discretization_lambda_to_z", "fnft__manakov_discretization_z_to_lambda", "fnft__manakov_discretization_phase_factor_rho"]}]}
{"id": "C57", "title": "fnft_manakovv: continuous spectrum", "statement": "A call of fnft_manakovv without Richardson extrapolation that succeeds leaves in contspec, for each of the twelve discretizations that are accepted, the values (b1/a,b2/a), (a,b1,b2), or all five computed from the scattering coefficients of the chosen discretization of the Manakov system on the frequency grid, and nothing beyond them; it fails with a division by zero exactly if a reflection coefficient is requested and a vanishes at a grid point; invalid arguments are rejected before anything is written; options are unchanged.", "quantifier": "all D>=2 (3 for upsampled methods), M>=2, signals, intervals, frequency grids, options, requests", "why_tests_cant": "the tests compare two signals against closed forms with a tolerance.", "anchors": [{"file": "src/fnft_manakovv.c", "symbols": ["fnft_manakovv", "fnft_manakovv_base", "manakovv_compute_contspec"]}]}
{"id": "C58", "title": "fnft_manakovv: bound states", "statement": "In a focusing call with a polynomial method the polynomial handed to the root finder is, up to a power of two (and an exponential factor), the coefficient a(lambda) in the variable z of the discretization applied to a subsampled signal; the reported bound states are the images of the returned roots after filtering (closed upper half plane) and merging, truncated to the capacity; with an exact root finder they are zeros of a, and no zero with |Re lambda| below the Nyquist bound is missed. With exact-exponential methods such a request always fails and nothing is written.", "quantifier": "all signals, intervals, discretizations, filters, options with Dsub<=2D, root finders, capacities", "why_tests_cant": "the tests look at one signal whose eigenvalues are known.", "anchors": [{"file": "src/fnft_manakovv.c", "symbols": ["fnft_manakovv", "fnft_manakovv_base", "manakovv_compute_boundstates"]}]}
{"id": "C59", "title": "fnft_manakovv: Richardson extrapolation of the continuous spectrum", "statement": "With Richardson extrapolation the continuous spectrum is, at every frequency that the subsampled signal can resolve, (s^p u - v)/(s^p - 1) with u the values for the full signal, v those for the signal subsampled with factor s>=2 and p the order of the method, and u elsewhere; this combination is exact if the error is exactly of the order p; the options are restored.", "quantifier": "all D>=3, signals, polynomial discretizations, frequency grids, contspec types", "why_tests_cant": "the tests only check that errors decrease at a higher rate for one signal.", "anchors": [{"file": "src/fnft_manakovv.c", "symbols": ["fnft_manakovv"]}]}
{"id": "C60", "title": "fnft_nsep: spectra by grid search", "statement": "With the grid search method and a polynomial discretization, the main spectrum consists of the points that the grid search reports for Floquet discriminant -2, followed by those for +2, and the auxiliary spectrum of the points it reports for a vanishing (1,2) entry of the monodromy matrix, both for the periodic signal obtained by removing the phase rotation; all points are filtered with the bounding box (the user's one, or the automatic one), shifted back, and truncated to the capacity, and nothing else is written. Points at which the discriminant has exactly the right value at an interior grid point are not missed, and every reported point is next to a grid point at which the distance from that value is locally minimal. The options are left as they were, except for the automatic box.", "quantifier": "all D=2^k>=2, quasi-periodic signals, periods, phase shifts, kappa, polynomial discretizations, boxes, filters, capacities, NULL or non-NULL outputs", "why_tests_cant": "the tests compare two plane-wave signals with known spectra within a tolerance.", "anchors": [{"file": "src/fnft_nsep.c", "symbols": ["fnft_nsep", "gridsearch", "update_bounding_box_if_auto"]}]}
{"id": "C61", "title": "fnft_nsep: Newton refinement of initial guesses", "statement": "With the Newton method and an exponential integrator, each block of K guesses for the main spectrum is refined by Newton's method (with a line search over the multiplicities one and two) for the Floquet discriminant minus the value that belongs to the block, and the guesses for the auxiliary spectrum by Newton's method for the (1,2) entry of the monodromy matrix of the periodic signal, with derivatives that are exact (or accurate to the documented tolerance for tiny steps); a guess that is an exact simple root is returned unchanged; at most max_evals steps and max_evals+2 evaluations are made per guess; the refined points that pass the filter are returned in order, shifted back, with their number, and nothing beyond the guesses is written; the call fails with a division by zero exactly if a derivative vanishes during the refinement. With a discretization that has only a fast method every request for refinement fails.", "quantifier": "all D=2^k>=2, quasi-periodic signals, guesses, points per spine, ranges, tolerances, boxes, max_evals, capacities, discretizations", "why_tests_cant": "the tests refine guesses for two plane-wave signals.", "anchors": [{"file": "src/fnft_nsep.c", "symbols": ["fnft_nsep", "newton", "refine_mainspec", "refine_auxspec"]}]}
{"id": "C62", "title": "fnft_nsep: subsample and refine", "statement": "With the (actual default) subsample-and-refine method and a polynomial discretization, for each of the requested values of the Floquet discriminant the candidates are the images of the roots, as reported by the root finder, of the polynomial that is (up to a nonzero factor) the Floquet discriminant of the subsampled periodic signal minus that value; with an exact root finder these are exactly the points of the strip that the variable z can represent at which the subsampled discriminant has the value. Candidates that pass the filter are refined by Newton's method for the monodromy matrix of the full signal with an exponential integrator; those that pass the filter then are returned, shifted back, one value after the other, as long as there is room, and nothing else is written. The auxiliary spectrum is treated in the same way with the (1,2) entry. The call fails exactly if a derivative vanishes during a refinement, whatever number of samples was asked for, and the options are left as they were, except for the automatic box.", "quantifier": "all D=2^k>=2, quasi-periodic signals, periods, phase shifts, kappa, polynomial discretizations, root finders, boxes, filters, Dsub, capacities, NULL or non-NULL outputs", "why_tests_cant": "the tests compare two plane-wave signals with known spectra within a tolerance.", "anchors": [{"file": "src/fnft_nsep.c", "symbols": ["fnft_nsep", "subsample_and_refine", "refine_mainspec", "refine_auxspec"]}]}
{"id": "C63", "title": "fnft_nsep: mixed method and rejected arguments", "statement": "With the mixed method the returned spectra are the real points found by the grid search followed by those points of subsample-and-refine whose distance from the real axis is larger than the tolerance, both truncated to the capacities; hence no point of the second part is real. With automatic filtering the tolerance is not negative. A call is rejected with the invalid-argument code before anything is written if D is not a power of two greater than one, the signal, the interval or one of the counters is missing, the interval is empty, kappa is neither +1 nor -1, or only the auxiliary spectrum is requested although a filter is active; otherwise a request for sheet indices is rejected as not implemented, and an unknown localization method is rejected without touching the outputs.", "quantifier": "all inputs of fnft_nsep", "why_tests_cant": "the tests exercise one mixed call and no rejected call.", "anchors": [{"file": "src/fnft_nsep.c", "symbols": ["fnft_nsep", "gridsearch", "subsample_and_refine"]}]}
{"id": "C64", "title": "fnft_nsev_inverse_XI: frequency grid", "statement": "For every discretization with a polynomial method, even M>=2, D>=2 and nonempty interval, fnft_nsev_inverse_XI succeeds and returns bounds such that the M equidistant frequencies between them are mapped by z=exp(2i xi eps/degree) to all M-th roots of unity, each one once, starting next to -1; they lie between the Nyquist bounds. Invalid arguments are rejected without writing to XI. (For odd M the grid does not have this property.)", "quantifier": "all D, M, intervals, discretizations", "why_tests_cant": "the tests use the grid for a few fixed sizes only.", "anchors": [{"file": "src/fnft_nsev_inverse.c", "symbols": ["fnft_nsev_inverse_XI"]}]}
{"id": "C65", "title": "fnft_nsev_inverse: reflection coefficient", "statement": "If the values of a reflection coefficient on the grid are given and there are no bound states, then (default method) the routine returns the samples of the unique layered medium whose reflection coefficient agrees, up to terms of order z^D, with the polynomial that interpolates the values at the grid points; in the focusing case it succeeds for all values. If the values are those of a medium (modulo z^D), focusing or defocusing, its samples are returned exactly for 2SPLIT2_MODAL. The array with the continuous spectrum is overwritten by its values times a phase factor.", "quantifier": "all M>=D=2^k, values of the reflection coefficient, intervals, garbage in malloc'ed memory, both discretizations", "why_tests_cant": "the tests reconstruct a few signals up to a tolerance.", "anchors": [{"file": "src/fnft_nsev_inverse.c", "symbols": ["fnft_nsev_inverse", "transfer_matrix_from_reflection_coefficient"]}]}
{"id": "C66", "title": "Spectral factorization", "statement": "poly_specfact succeeds for every polynomial b such that |b|^2 (kappa=0) or 1-kappa|b|^2 is positive on the unit circle. It returns the first coefficients of a polynomial of degree less than N, N>=(deg+1)*oversampling_factor; if the three highest Fourier modes of the sampled logarithm of the modulus vanish, then this polynomial has the prescribed modulus at the N-th roots of unity, and its logarithm is a polynomial in z there (no zeros in the disk). For monomials the result is exact. Invalid arguments are rejected without writing. (In general the modulus is wrong even at the sample points, because of an off-by-one in the discrete Hilbert transform.)", "quantifier": "all degrees, polynomials, oversampling factors, kappa in {-1,0,1}", "why_tests_cant": "the tests compare the factor of one polynomial with a tolerance.", "anchors": [{"file": "src/private/fnft__poly_specfact.c", "symbols": ["poly_specfact"]}]}
{"id": "C67", "title": "fnft_nsev_inverse: multi-solitons", "statement": "If only a discrete spectrum with distinct eigenvalues in the upper half plane and nonzero norming constants is given, then every call that does not divide by zero returns the samples of one and the same potential q(t), which is the multi-soliton with exactly these data: its Zakharov-Shabat problem has b=0 on the real axis, a(lambda) is the Blaschke product, and at each eigenvalue the two decaying solutions are related by the given norming constant. It does not depend on the grid, the options or the contents of the memory. For one eigenvalue the call always succeeds and gives a hyperbolic secant. The scattering data are uniquely determined by the potential.", "quantifier": "all K, eigenvalues, norming constants, grids, D, options", "why_tests_cant": "the tests compare with the forward transform for a few eigenvalues.", "anchors": [{"file": "src/fnft_nsev_inverse.c", "symbols": ["fnft_nsev_inverse", "add_discrete_spectrum"]}]}
{"id": "C68", "title": "fnft_nsev_inverse: adding bound states to a potential", "statement": "With the method USE_SEED, a run that does not divide by zero returns the samples of a potential whose b(xi) is that of the (piecewise constant) seed, whose a is that of the seed times the Blaschke factors, and which has the given eigenvalues with the given norming constants. If a continuous spectrum is given together with bound states, the routine does the same with the potential it computes for the continuous spectrum alone, where a reflection coefficient is first multiplied with the Blaschke factors.", "quantifier": "all K, eigenvalues that are not eigenvalues of the seed, norming constants, seeds, grids, continuous spectra", "why_tests_cant": "the tests look at one or two eigenvalues and a tolerance.", "anchors": [{"file": "src/fnft_nsev_inverse.c", "symbols": ["fnft_nsev_inverse", "add_discrete_spectrum", "compute_eigenfunctions", "precompensate_for_cdt_phaseshifts"]}]}
{"id": "C69", "title": "fnft_nsev_inverse: residues", "statement": "If residues are given instead of norming constants, the result is that for the norming constants which have these residues of b/a at the eigenvalues; for pure multi-solitons a is the Blaschke product. Together with a continuous spectrum, a is the Blaschke product times the coefficient a of the piecewise constant signal with the samples computed from the continuous spectrum (it exists and is unique). With a seed (USE_SEED) the routine converts the residues as if the a of the seed were one.", "quantifier": "all K, eigenvalues, residues, grids, seeds", "why_tests_cant": "the tests use at most a few eigenvalues.", "anchors": [{"file": "src/fnft_nsev_inverse.c", "symbols": ["add_discrete_spectrum"]}]}
{"id": "C70", "title": "fnft_nsev_inverse: rejected calls", "statement": "Calls with invalid arguments (D not a power of two >=2, odd M or M<D, missing arrays, empty intervals, kappa not +1 or -1, bound states in the defocusing case or not in the open upper half plane, unsupported discretization) are rejected with an error code and neither the continuous spectrum nor the signal is changed. Two equal bound states are rejected if no different one has the same imaginary part (otherwise they may be accepted).", "quantifier": "all inputs", "why_tests_cant": "the tests contain no rejected calls.", "anchors": [{"file": "src/fnft_nsev_inverse.c", "symbols": ["fnft_nsev_inverse", "add_discrete_spectrum"]}]}
{"id": "C71", "title": "fnft_nsev_inverse: b(xi) and B(tau)", "statement": "If values of b(xi) on the grid are given and there are no bound states, then the routine computes the polynomial A that poly_specfact returns for the polynomial B that interpolates the (phase-compensated) values at the grid points, and returns the samples of the layered medium with the ratio B/A up to terms of order z^D; in the focusing case there is exactly one such medium and the call succeeds whenever A(0) is not zero. If values B(tau) are given on a symmetric interval, B has the coefficients 2 eps B(tau_j), halved at the two ends, and the array with the spectrum is not changed; other intervals and M different from D are rejected without changing anything. If only one value B(tau) is not zero the result is exact: one layer reflects.", "quantifier": "all M>=D=2^k, values with 1-kappa|B|^2>0 on the unit circle, intervals, oversampling factors, both discretizations", "why_tests_cant": "the tests compare the forward transform of the result for a few signals within a tolerance.", "anchors": [{"file": "src/fnft_nsev_inverse.c", "symbols": ["fnft_nsev_inverse", "transfer_matrix_from_b_of_xi", "transfer_matrix_from_B_of_tau"]}]}
{"id": "C72", "title": "fnft_nsev_inverse: iteration for A and B", "statement": "With the method that iterates for A and B in the defocusing case, M=D and values of the reflection coefficient of modulus less than one, the routine performs a uniquely determined iteration: the polynomial B_n interpolates rho/sqrt(1-|rho|^2) times the phases of the spectral factor A_(n-1) of the last step, A_n is the spectral factor of B_n; it stops with the first step in which the mean phase of A_n does not change any more or its change does not decrease by ten percent, and after max_iter steps at the latest; then the samples of the layered medium with the ratio B_n/A_n up to order z^D are returned. The modulus of B_n is right in each step, and a fixed point of the iteration with exact spectral factors has the given reflection coefficient at all grid points. For rho=c z^m the result is exact. In the focusing case and for M different from D the method is rejected without changing anything.", "quantifier": "all D=2^k, values of the reflection coefficient, intervals, max_iter, both discretizations", "why_tests_cant": "the tests run the iteration for one reflection coefficient only.", "anchors": [{"file": "src/fnft_nsev_inverse.c", "symbols": ["fnft_nsev_inverse", "transfer_matrix_from_reflection_coefficient_TFMATRIX_CONTAINS_AB_FROM_ITER"]}]}
{"id": "C73", "title": "fnft_nsev: Richardson extrapolation of the discrete spectrum", "statement": "With Richardson extrapolation, the bound states of a call without extrapolation (order p) are the initial guesses of Newton's method for the subsampled signal (step s*eps). Every bound state whose nearest bound state of the second approximation has a relative distance less than eps is replaced by (s^p*l1-l2)/(s^p-1), the others are not changed; the number of bound states and the norming constants are those of the first approximation. If residues are requested as well, the derivatives a' are extrapolated in the same way and the residue becomes b/a', provided that no two bound states have the same partner. Otherwise the routine uses residues in place of a' for every second one. Residues without norming constants work in this way with the method SUBSAMPLE_AND_REFINE; with the other methods the routine writes 2K values into the array of the user and reads memory that was never written.", "quantifier": "all signals, numbers of samples, discretizations, initial guesses, options, garbage in malloc'ed memory", "why_tests_cant": "the tests look at the error of the extrapolated spectrum of a few signals.", "anchors": [{"file": "src/fnft_nsev.c", "symbols": ["fnft_nsev"]}]}
{"id": "C74", "title": "fnft_kdvv: Richardson extrapolation", "statement": "With Richardson extrapolation, fnft_kdvv first does what it does without it (order p of the discretization), then runs Newton's method for the subsampled signal (step s*eps) from the bound states it found. The continuous spectrum becomes (s^p*c1-c2)/(s^p-1) entrywise; every bound state whose nearest bound state of the second approximation has a relative distance less than eps is replaced by (s^p*l1-l2)/(s^p-1), the others are not changed; number of bound states and norming constants are those of the first approximation. If norming constants and residues are requested, the derivatives a' are extrapolated as well and the residue becomes b/a', provided that no two bound states have the same partner. Residues alone never work: the routine writes 2K values into the array of the user and reads memory that was never written. If the second call fails, the spectrum of the first one is left in place and an error is returned.", "quantifier": "all signals, numbers of samples, discretizations, initial guesses, options, garbage in malloc'ed memory", "why_tests_cant": "the tests look at the error of the extrapolated spectrum of a few signals.", "anchors": [{"file": "src/fnft_kdvv.c", "symbols": ["fnft_kdvv"]}]}
{"id": "C75", "title": "fnft_nsev: convergence to the continuous-time spectrum", "statement": "Let q be a signal on [T0,T1] (zero outside) and let the D samples be its values. The scattering coefficients a(xi), b(xi) of the continuous-time Zakharov-Shabat problem exist and are unique. Whenever fnft_nsev succeeds, the values a, b, and b/a that it wrote for each point of the grid differ from them by at most C*h if q is Lipschitz continuous (all methods that use each sample once except 2SPLIT7A/7B), and by at most C*h^2 if q has a Lipschitz continuous derivative (second-order methods), with h=(T1-T0)/(D-1) and an explicit constant C that depends on T1-T0, the bounds for q and xi only; the bounds are O(1/D) and O(1/D^2).", "quantifier": "all signals of these classes, intervals, D, grids, kappa, output types, methods listed, garbage in malloc'ed memory", "why_tests_cant": "the tests compare with exact spectra of a few signals for a few D.", "anchors": [{"file": "src/fnft_nsev.c", "symbols": ["fnft_nsev"]}, {"file": "src/private/fnft__akns_fscatter.c", "symbols": ["akns_fscatter"]}, {"file": "src/private/fnft__nse_scatter.c", "symbols": ["nse_scatter_matrix"]}]}
{"id": "C76", "title": "fnft_nsev: convergence of the bound states", "statement": "Let q be a signal with Lipschitz continuous derivative that is zero outside [T0,T1], let the D samples be its values, and let fnft_nsev compute the bound states of the focusing NSE by the eigenvalue method with a second-order discretization and an exact root finder. If it succeeds, then |a(lambda)|<=C h^2 at every reported point of the closed upper half plane, a being the coefficient of the continuous-time problem. Conversely, if a(lambda0)=0 and |a|>=m>2Ch^2 on a circle of radius delta around lambda0 that lies in the closed upper half plane, in the filter's region and in the strip resolved by D samples, a point with a distance less than delta is found (up to the merging of values closer than sqrt(eps)). C is explicit.", "quantifier": "all signals of this class, intervals, D, eigenvalues, second-order discretizations, filters, exact root finders, garbage in malloc'ed memory", "why_tests_cant": "the tests compare with exact eigenvalues of a few signals for a few D.", "anchors": [{"file": "src/fnft_nsev.c", "symbols": ["fnft_nsev", "fnft_nsev_base"]}, {"file": "src/private/fnft__akns_fscatter.c", "symbols": ["akns_fscatter"]}]}
{"id": "C77", "title": "fnft_kdvv: convergence to the continuous-time spectrum", "statement": "Let q be a real signal on [T0,T1] (zero outside) and let the D samples be its values. For every xi != 0 the scattering coefficients a(xi), b(xi) of the Schroedinger operator exist and are unique: the solution of psi''+(q+xi^2)psi=0 that is exp(-i*xi*t) on the left is a*exp(-i*xi*t)+b*exp(i*xi*t) on the right. Whenever fnft_kdvv succeeds, the values a, b, and b/a that it wrote for each point of the grid differ from them by at most C*h if q is Lipschitz continuous (all methods that use each sample once except 2SPLIT7A/7B), and by at most C*h^2 if q has a Lipschitz continuous derivative (second-order methods), in both AKNS systems (with and without _VANILLA), with h=(T1-T0)/(D-1) and an explicit constant C; the bounds tend to zero like 1/D and 1/D^2.", "quantifier": "all real signals of these classes, intervals, D, grids without zero, output types, methods listed, garbage in malloc'ed memory", "why_tests_cant": "the tests compare with exact spectra of a few signals for a few D.", "anchors": [{"file": "src/fnft_kdvv.c", "symbols": ["fnft_kdvv"]}, {"file": "src/private/fnft__kdv_fscatter.c", "symbols": ["kdv_fscatter"]}, {"file": "src/private/fnft__kdv_scatter.c", "symbols": ["kdv_scatter_matrix"]}]}
{"id": "C78", "title": "fnft_nsep: convergence of the main spectrum", "statement": "Let p be a signal of period T with a Lipschitz continuous derivative and let the D samples be its values (for a quasi-periodic signal u(t+T)=exp(i*phi)u(t), p is u(t)exp(2iLt)). The monodromy matrix of the continuous-time Zakharov-Shabat problem exists and is unique; let Delta be its trace. With the method of subsampling, no refinement, a second-order polynomial method and an exact root finder, fnft_nsep succeeds, provided that the leading and last coefficient of the polynomials are nonzero (which is always so for the Ablowitz-Ladik method with moderate steps). The points it stores for the value 2F (shifted by L) satisfy |Delta(lambda)-2F|<=C*h^2, and if Delta(lambda0)=2F and |Delta-2F|>=m>2Ch^2 on a circle around lambda0 that lies in the box and in the strip resolved by the samples, one of the points lies inside. C is explicit and h is the step of the subsampled signal.", "quantifier": "all signals of this class, periods, phase shifts, D, D_sub, spine values, filters, second-order methods, exact root finders, garbage in malloc'ed memory", "why_tests_cant": "the tests compare with the exact spectra of a plane wave for a few D.", "anchors": [{"file": "src/fnft_nsep.c", "symbols": ["fnft_nsep", "subsample_and_refine"]}, {"file": "src/private/fnft__nse_fscatter.c", "symbols": ["nse_fscatter"]}]}
{"id": "C79", "title": "fnft_nsev: exactness for piecewise constant signals", "statement": "Let the signal have the constant value q[n] on the interval of length h around the n-th sample point and be zero elsewhere. Its scattering coefficients a, b exist and are unique at every complex lambda. Whenever fnft_nsev succeeds with the discretization BO and without Richardson extrapolation, the values a, b, b/a that it wrote for each grid point are exactly those of this signal (in exact arithmetic, if no determinant h^2(xi^2+kappa|q[n]|^2) is nonzero but smaller than 1e-16). With any discretization based on BO, the norming constant computed for an exact zero of a is the coefficient b of this signal there.", "quantifier": "all samples, intervals, D, grids, kappa, output types, garbage in malloc'ed memory", "why_tests_cant": "the tests compare with the exact spectrum of smooth signals for a few D only.", "anchors": [{"file": "src/fnft_nsev.c", "symbols": ["fnft_nsev"]}, {"file": "src/private/fnft__akns_scatter.c", "symbols": ["akns_scatter_matrix"]}, {"file": "src/private/fnft__akns_scatter_bound_states.c", "symbols": ["akns_scatter_bound_states"]}]}
{"id": "C80", "title": "fnft_manakovv: convergence to the continuous-time spectrum", "statement": "Let (q1,q2) be a signal on [T0,T1] (zero outside) and let the D samples be its values. The scattering coefficients a(xi), b1(xi), b2(xi) of the continuous-time Manakov problem exist and are unique. Whenever fnft_manakovv succeeds without Richardson extrapolation with one of the methods BO, 2SPLIT3A, 2SPLIT3B, 2SPLIT4A, 2SPLIT4B, 2SPLIT6B, the values a, b1, b2, b1/a, b2/a that it wrote for each point of the grid differ from them by at most C*h if q1, q2 are Lipschitz continuous, and by at most C*h^2 if they have Lipschitz continuous derivatives and vanish outside, plus a number of the order of the machine precision, because the routine treats samples below 2^-52 as zero. All constants are explicit.", "quantifier": "all signals of these classes, intervals, D, grids, kappa, output types, methods listed", "why_tests_cant": "the tests compare with exact spectra of a few signals for a few D.", "anchors": [{"file": "src/fnft_manakovv.c", "symbols": ["fnft_manakovv"]}, {"file": "src/private/fnft__manakov_fscatter.c", "symbols": ["manakov_fscatter"]}, {"file": "src/private/fnft__manakov_scatter.c", "symbols": ["manakov_scatter_matrix"]}]}
{"id": "C81", "title": "KdV: fast inverse scattering", "statement": "kdv_finvscatter with 2SPLIT2_MODAL or 2SPLIT2A and D=2^k samples: if the first row of the transfer matrix is, up to a factor, that of layers [1,Q_n z;-eps,z] with 1+eps*Q_n != 0, the routine succeeds (it stays within its stack and arrays and reads nothing that was not written) and returns the samples that belong to the Q_n in the right order; applied to the result of kdv_fscatter with 2SPLIT2_MODAL it returns the samples exactly. The transfer matrix, documented as an input, is changed: the block of T21 is overwritten by the shifted block of T12. With 2SPLIT2A it does not invert kdv_fscatter: the first sample becomes arctan(sqrt(r)tan(eps*sqrt(r)))/eps. The _VANILLA variants and the other methods of degree one are rejected as errors of a subroutine, a singular first layer as a division by zero; the samples are not changed then. With methods of higher degree the stack is exceeded.", "quantifier": "all D=2^k, transfer matrices of layered media, step sizes, samples", "why_tests_cant": "the tests do one round trip per method and D with a tolerance of 4e-4 for 2SPLIT2A.", "anchors": [{"file": "src/private/fnft__kdv_finvscatter.c", "symbols": ["kdv_finvscatter"]}, {"file": "src/private/fnft__akns_finvscatter_q_from_r.inc", "symbols": ["finvscatter_recurse"]}]}
{"id": "C82", "title": "Allocation failures and errors of subroutines", "statement": "Whatever combination of memory allocations, subroutines and input checks fails, a routine never accesses memory that is not allocated, never releases memory twice, returns an error code exactly if something failed, and releases everything it allocated (on success everything except its documented results). This holds for poly_chirpz, the products of at least two polynomials, poly_specfact, misc_downsample, misc_resample, akns_fscatter, manakov_fscatter, poly_roots_fftgridsearch, akns_discretization_method_weights, akns_scatter_matrix, the inverse scattering, fnft_kdvv, its bound states, fnft_nsev_inverse and its transfer matrices, gridsearch and newton of fnft_nsep, the base routines. It fails, and exactly the following goes wrong: the product of one polynomial returns an uninitialised value; akns_ and manakov_discretization_preprocess_signal lose their results on errors; the latter does not test its scratch memory and ignores errors of misc_resample; akns_scatter_bound_states dereferences NULL exactly if one of its allocations fails; the routines for the continuous spectra and the norming constants, fnft_nsep, subsample_and_refine and add_discrete_spectrum lose memory in early returns; subsample_and_refine reports success if the root finder failed; fnft_nsev and fnft_manakovv with subsampling and Richardson extrapolation release memory twice if the second preprocessing fails.", "quantifier": "all patterns of failing allocations, subroutines and checks, all data dependent branches, all numbers of loop iterations", "why_tests_cant": "no allocation fails in a test, and there are exponentially many patterns of failures.", "anchors": [{"file": "src/fnft_nsev.c", "symbols": ["fnft_nsev", "nsev_compute_contspec", "nsev_compute_normconsts_or_residues"]}, {"file": "src/fnft_kdvv.c", "symbols": ["fnft_kdvv", "kdvv_compute_contspec"]}, {"file": "src/fnft_manakovv.c", "symbols": ["fnft_manakovv"]}, {"file": "src/fnft_nsep.c", "symbols": ["fnft_nsep", "subsample_and_refine"]}, {"file": "src/fnft_nsev_inverse.c", "symbols": ["add_discrete_spectrum"]}, {"file": "src/private/fnft__akns_discretization.c", "symbols": ["akns_discretization_preprocess_signal"]}, {"file": "src/private/fnft__manakov_discretization.c", "symbols": ["manakov_discretization_preprocess_signal"]}, {"file": "src/private/fnft__akns_scatter.c", "symbols": ["akns_scatter_bound_states"]}, {"file": "src/private/fnft__poly_fmult.c", "symbols": ["poly_fmult"]}]}
{"id": "C83", "title": "fnft_manakovv: exactness for piecewise constant signals", "statement": "Let the two components have the constant values q1[n], q2[n] on the interval of length h around the n-th sample point and be zero elsewhere. The scattering coefficients a, b1, b2 of the Manakov system of this signal exist and are unique at every complex lambda. Whenever fnft_manakovv succeeds with the discretization BO and without Richardson extrapolation, the values a, b1, b2, b1/a, b2/a that it wrote for each grid point are exactly those of this signal (in exact arithmetic). Exception: samples that are not both zero, but both smaller than 2^-52 in absolute value, because the routine treats them as zero.", "quantifier": "all samples, intervals, D, grids, kappa, output types", "why_tests_cant": "the tests compare with the exact spectrum of smooth signals for a few D only.", "anchors": [{"file": "src/fnft_manakovv.c", "symbols": ["fnft_manakovv"]}, {"file": "src/private/fnft__manakov_scatter.c", "symbols": ["manakov_scatter_matrix"]}]}
{"id": "C84", "title": "MATLAB interface", "statement": "A call of mex_fnft_nsev, mex_fnft_kdvv, mex_fnft_manakovv, mex_fnft_nsep or mex_fnft_nsev_inverse with valid arrays follows the documented table of options: if the arguments are as documented, the C routine is called once with exactly the numbers, arrays, sizes, options, guesses and NULL pointers that the help text describes (values from later options override earlier ones; outputs that were not requested are not computed), and MATLAB gets the results of the routine as complex row vectors (of the documented sizes and in the documented order), or the documented error message if the routine fails. Conversely, if the arguments do not follow the table, the call ends with an error before the routine is called; no memory outside of an array is accessed. Together with the model of fnft_nsev: contspec is the quotient b/a of the discretized scattering problem. Exceptions: complex single-precision signals are read behind the end of the array (nsev, kdvv); the calls of mex_fnft_manakovv and mex_fnft_nsep with one output write behind the array of outputs. mex_fnft_nsev_inverse_XI(D,T,M) with even M returns the bounds computed by fnft_nsev_inverse_XI and the grid of M equidistant frequencies between them, which z=exp(2i xi eps) maps to all M-th roots of unity; wrong inputs are reported; for M=1 the second output is not a number. fnft_version and mex_fnft_version report the configured version; the suffix never exceeds its nine characters.", "quantifier": "all lists of arguments, array sizes and contents, orders and repetitions of options, numbers of outputs, results and errors of the C routine", "why_tests_cant": "no test covers the MATLAB interface.", "anchors": [{"file": "matlab/mex_fnft_nsev.c", "symbols": ["mexFunction"]}, {"file": "matlab/mex_fnft_kdvv.c", "symbols": ["mexFunction"]}, {"file": "matlab/mex_fnft_manakovv.c", "symbols": ["mexFunction"]}, {"file": "matlab/mex_fnft_nsep.c", "symbols": ["mexFunction"]}, {"file": "matlab/mex_fnft_nsev_inverse.c", "symbols": ["mexFunction"]}, {"file": "matlab/mex_fnft_nsev_inverse_XI.c", "symbols": ["mexFunction"]}, {"file": "matlab/mex_fnft_version.c", "symbols": ["mexFunction"]}, {"file": "src/fnft_version.c", "symbols": ["fnft_version"]}]}
{"id": "C85", "title": "fnft_nsep: convergence of the auxiliary spectrum", "statement": "Let p be a signal of period T with a Lipschitz continuous derivative and let the D samples be its values (for a quasi-periodic signal u(t+T)=exp(i*phi)u(t), p is u(t)exp(2iLt)). Let fnft_nsep compute the auxiliary spectrum by the method of subsampling with a second-order polynomial discretization, without refinement and with an exact root finder. If the leading and the last coefficient of the polynomials in use do not vanish, it succeeds, and the points delivered are the first ones of a list that approximates the zeros of the (1,2) entry of the monodromy matrix of the continuous-time problem: at each point this entry is at most C(|lambda|) h^2, h being the step of the subsampled signal, and every zero around which the entry exceeds C h^2 plus a margin on a circle (inside the filter box and the strip that the step resolves) has a point of the list inside the circle. The entry is that of the period that starts half a step before the first sample; for the period that starts at T[0] the same holds with errors of first order. C is explicit. For 2SPLIT2A (the default), the Ablowitz-Ladik method and all other splittings all of whose products begin or all of whose products end with the linear part, one of these two coefficients is always zero.", "quantifier": "all signals of this class, periods, phase shifts, D, D_sub, filters, second-order methods, exact root finders, garbage in malloc'ed memory", "why_tests_cant": "the tests compare with the exact spectra of a plane wave for a few D.", "anchors": [{"file": "src/fnft_nsep.c", "symbols": ["fnft_nsep", "subsample_and_refine"]}, {"file": "src/private/fnft__nse_fscatter.c", "symbols": ["nse_fscatter"]}, {"file": "include/fnft_nsep.h", "symbols": ["fnft_nsep"]}]}
{"id": "C86", "title": "fnft_manakovv: convergence of the bound states", "statement": "Let (q1,q2) be a signal with Lipschitz continuous derivatives that is zero outside of [T0,T1], let the D samples be its values, and let fnft_manakovv compute the bound states (focusing case) from all samples (D <= Dsub <= 2D) with one of the methods 2SPLIT3A, 2SPLIT3B, 2SPLIT4A, 2SPLIT4B, 2SPLIT6B and an exact root finder. If it reports success, the stored values are the first ones of a list such that |a(lambda)| of the continuous-time Manakov problem is at most E(|lambda|) at each value in the closed upper half plane, and every zero lambda0 of a has a value of the list closer than delta, if |a| >= m > 2E on the circle of radius delta around lambda0 and the disk lies in the upper half plane and in the strip |Re lambda| h r < pi that the sampling resolves (merging adds at most deg*sqrt(2^-52)). E is C(|lambda|) h^2 with explicit C and h=(T1-T0)/(D-1), plus a number of the order of the machine precision (samples below 2^-52 are replaced by zero). If Dsub divides D, the same holds, with h=(T1-T0)/(Dsub-1), for a signal that has the retained samples (every (D/Dsub)-th one) at Dsub equidistant points of all of [T0,T1], which are not the times of these samples.", "quantifier": "all signals of this class, intervals, D, D_sub as stated, filters, capacities of the output array, exact root finders, continuations of the options", "why_tests_cant": "the tests compare with exact eigenvalues of a few signals for a few D.", "anchors": [{"file": "src/fnft_manakovv.c", "symbols": ["fnft_manakovv", "manakovv_compute_boundstates"]}, {"file": "src/private/fnft__manakov_fscatter.c", "symbols": ["manakov_fscatter"]}, {"file": "include/fnft_manakovv.h", "symbols": ["fnft_manakovv"]}]}
