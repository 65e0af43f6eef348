
NV="src/fnft_nsev.c"
prop("fnft_nsev: continuous spectrum",
 "A call of fnft_nsev without Richardson extrapolation that succeeds leaves in contspec, for every discretization, normalisation flag, kappa and contspec type, the values computed from the scattering coefficients a(xi_i), b(xi_i) of the chosen discretization of the signal on the grid xi_i=XI[0]+i*(XI[1]-XI[0])/(M-1): b/a, (a,b), or (b/a,a,b), in this order, and nothing beyond; if no bound states are requested the call succeeds iff no division by a(xi_i)=0 is needed, and otherwise reports an error.",
 "all D>=2 (3 for commutator-free methods), M>=2, signals, intervals, kappa, options", "the tests compare a few sech signals against closed forms with a tolerance.", [A(NV,"fnft_nsev","fnft_nsev_base","nsev_compute_contspec")])
prop("fnft_nsev: bound states with Newton's method",
 "In a focusing call of fnft_nsev without Richardson extrapolation that uses Newton's method, every user-provided guess is replaced by the final iterate of Newton's method for the coefficient a(lambda) of the (slow variant of the) chosen discretization, and an iteration only stops when an exact zero was hit, the step or the value of a is at most the tolerance, the iterate leaves the bounding box or the iteration budget is used up; the iterates in the box, thinned out such that no two are closer than sqrt(eps), are written to the front of the array (at most *K_ptr of them), *K_ptr is their number and the options are unchanged; the call fails iff the derivative of a is exactly zero at an iterate (or at a bound state, if residues are requested).",
 "all signals, intervals, discretizations, filters, tolerances, budgets, guesses and numbers of guesses", "the tests refine a few guesses for one sech pulse.", [A(NV,"fnft_nsev","fnft_nsev_base","nsev_compute_boundstates","nsev_refine_bound_states_newton")])
prop("fnft_nsev: bound states from polynomial roots",
 "In a focusing call with the fast eigenvalue method the polynomial handed to the root finder is, up to the power-of-two normalisation, the coefficient a(lambda) in the variable z=exp(2i lambda eps/degree); the reported bound states are the images of the returned roots in the lambda plane after filtering with the bounding box and merging; hence with exact roots every reported value is a zero of a, and every zero of a in the resolvable strip and the box is reported or merged with one that is closer than sqrt(eps), as long as *K_ptr is large enough; failures of the root finder are passed on.",
 "all signals, intervals, fast discretizations, filters and root finders", "the tests look at one signal whose eigenvalues are known.", [A(NV,"fnft_nsev_base","nsev_compute_boundstates"),A("src/fnft__nse_discretization.c","fnft__nse_discretization_z_to_lambda")])
prop("fnft_nsev: norming constants and residues",
 "The norming constant that fnft_nsev reports for a bound state at an exact zero of a is the factor between the two Jost solutions at every sample boundary and equals b(lambda); residues are norming constants divided by the derivative of a, and with both requested all norming constants come first and all residues second.",
 "all signals, discretizations, bound states, numbers of bound states", "the tests compare numbers for a few bound states of one pulse with a tolerance.", [A(NV,"fnft_nsev_base","nsev_compute_normconsts_or_residues"),A("src/private/fnft__akns_scatter_bound_states.c","akns_scatter_bound_states")])
prop("fnft_nsev: the default localisation method",
 "In a focusing call with the (default) method subsample-and-refine, the guesses are obtained from the roots of the polynomial of a(lambda) of a subsampled signal whose samples have a common larger distance and lie in the original grid (exactly Dsub of them if Dsub divides D), after filtering and merging; they are then refined with Newton's method for the full signal and filtered and merged again, and the result is truncated to the size of the user's array; after success the caller's options record is unchanged although it is modified temporarily, after a failure it contains the method of the failed stage.",
 "all signals, intervals, discretizations with a polynomial transfer matrix, options with Dsub<=2D, root finders", "the tests use one signal and never look at the options afterwards.", [A(NV,"fnft_nsev","fnft_nsev_base","nsev_compute_boundstates")])
prop("fnft_nsev: Richardson extrapolation of the continuous spectrum",
 "With Richardson extrapolation the continuous spectrum is, at every frequency that the subsampled signal can resolve, (s^p u - v)/(s^p - 1) with u the values for the full signal, v those for the signal subsampled with factor s>=2 and p the order of the method, and u elsewhere; this combination is exact if the error is exactly alpha*h^p; the options record is unchanged; if a division by a(xi)=0 occurs in any of the two computations an error is returned.",
 "all D>=3, signals, discretizations, frequency grids, contspec types", "the tests only check that errors decrease at a higher rate for one signal.", [A(NV,"fnft_nsev")])
KV="src/fnft_kdvv.c"; KD="src/private/fnft__kdv_discretization.c"
prop("KdV discretizations: tables",
 "The 56 KdV discretizations are the 28 AKNS discretizations in two AKNS systems each (the flag vanilla tells them apart), without omissions or duplicates; degrees and orders are those of the documentation; the slow method used for the discrete spectrum exists for each of them, uses the same AKNS system and the same number of samples per step and has the same order; phase factors correspond to boundaries half a step outside of the samples; unknown values are rejected by every routine without side effects (except that phase_factor_rho reports success and NaN).",
 "all enumerators and all values that are not enumerators", "a test enumerates some tables; consistency of all tables with each other and with the documentation over all values is not checked.", [A(KD,"fnft__kdv_discretization_to_akns_discretization","fnft__kdv_discretization_vanilla_flag","fnft__kdv_slow_discretization","fnft__kdv_discretization_phase_factor_a"),A("include/fnft_kdv_discretization_t.h","fnft_kdv_discretization_t")])
prop("fnft_kdvv: continuous spectrum",
 "A call of fnft_kdvv without Richardson extrapolation that succeeds leaves in contspec, for each of the 56 discretizations, the values b/a, (a,b), or (b/a,a,b) computed from the scattering coefficients of the chosen discretization of the Schroedinger operator on the frequency grid, and nothing beyond; for the discretization BO these are exactly the scattering coefficients of the piecewise constant potential. If no bound states are requested the call succeeds iff no division by a(xi_i)=0 is needed. Signals with a sample that is not real and frequency grids that contain zero are rejected without any output.",
 "all D>=2 (3 for commutator-free methods), M>=2, real signals, intervals, frequency grids without zero, options", "the tests compare a few signals against closed forms with a tolerance.", [A(KV,"fnft_kdvv","fnft_kdvv_base","kdvv_compute_contspec"),A("src/private/fnft__kdv_fscatter.c","kdv_fscatter"),A("src/private/fnft__kdv_scatter.c","kdv_scatter_matrix")])
prop("fnft_kdvv: bound states with Newton's method",
 "In a call of fnft_kdvv without Richardson extrapolation that uses Newton's method, every user-provided guess i*kappa is replaced by i times the final iterate of Newton's method for kappa -> Re a(i kappa) of the slow method that belongs to the chosen discretization; an iteration only stops when an exact zero was hit, the step is at most 100 times the machine precision, the iterate leaves the interval between zero and the square root of the largest sample, or the iteration budget is used up; the number of bound states and the options are unchanged, and the continuous spectrum is as in C48. If no sample is positive the call reports zero bound states and does not touch the arrays. The call fails iff an iterate is exactly zero or the derivative vanishes at an iterate (or at a bound state, if residues are requested).",
 "all real signals, intervals, discretizations, budgets, guesses and numbers of guesses", "the tests refine a few guesses for one sech^2 pulse.", [A(KV,"fnft_kdvv","fnft_kdvv_base","kdvv_compute_boundstates","kdvv_refine_bound_states_newton")])
prop("fnft_kdvv: bound states with the grid search",
 "In a call of fnft_kdvv without Richardson extrapolation that uses the (default) grid search, the initial guesses are exactly the zeros of kappa -> S_11(i kappa) at points of a strictly increasing grid in the open interval between zero and the square root of the largest sample, and one point strictly between any two neighbouring grid points at which the real part has opposite signs; the guesses are strictly increasing, and between two such points there is indeed a zero of a(i kappa); they are refined with Newton's method. If there is no positive sample, or the interval is not longer than the grid spacing, success and zero bound states are reported; if the grid spacing is not positive but there is a positive sample, or there are more guesses than *K_ptr, the call fails.",
 "all real signals, intervals, discretizations, grid spacings, array sizes", "the tests use one grid for one signal.", [A(KV,"fnft_kdvv","fnft_kdvv_base","kdvv_compute_boundstates","grid_search_for_boundstates")])
prop("fnft_kdvv: norming constants",
 "The norming constant that fnft_kdvv reports for a bound state i*kappa at an exact zero of a is real, is the factor between the two Jost solutions at every sample boundary and equals b(i kappa) (unless there is no sample boundary at which no component vanishes: then the array is left as it was).",
 "all real signals, discretizations with real weights, bound states", "the tests compare numbers for one pulse with a tolerance.", [A(KV,"fnft_kdvv_base","kdvv_compute_normconsts_or_residues"),A("src/private/fnft__akns_scatter_bound_states.c","akns_scatter_bound_states")])
prop("fnft_kdvv: the search interval contains all bound states",
 "For every discretization with one or two processed samples per sample, and real processed samples, a(i kappa) is positive for every kappa>0 that is at least the square root of the largest processed sample; hence no bound state is outside of the interval that fnft_kdvv searches, and there are none if no sample is positive. The processed samples are real for all discretizations that do not interpolate the signal.",
 "all real signals, intervals, kappa>0, discretizations", "positivity on an unbounded interval for every potential cannot be tested.", [A(KV,"fnft_kdvv_base")])
MF="src/private/fnft__manakov_fscatter.c"; MS="src/private/fnft__manakov_scatter.c"; MD="src/private/fnft__manakov_discretization.c"; MV="src/fnft_manakovv.c"
prop("Manakov: fast transfer matrix",
 "For each of the ten discretizations that manakov_fscatter supports, all D>=2 samples of both components, steps and signs kappa, it succeeds and the returned 3x3 polynomial matrix of degree D*degree, evaluated at the z that belongs to a lambda and multiplied by the power of two W and a phase, is the product, last sample first, of the documented splitting of exp((A+B_n)h) (for the FTES4 discretizations surrounded by the exponentials of the correction terms with first and second differences); the factors exp(w h B_n) are exact unless the sample is tiny, and accurate to 33 digits in general. Every other discretization is rejected and no output is touched.",
 "all D, signals, kappa, steps, lambda, discretizations", "the tests compare coefficients for one short signal per discretization with precomputed values; 229 KB of generated coefficient tables are not covered.", [A(MF,"manakov_fscatter","manakov_fscatter_numel")])
prop("Manakov: slow scattering matrix",
 "For BO and CF4_2, all numbers of samples and of lambdas, the nine numbers that manakov_scatter_matrix stores for each lambda are the product, last sample first, of the exact exponentials of the steps (at lambda, or lambda/2 for the commutator-free method), nothing else in the result array changes, and every other discretization is rejected without touching the result.",
 "all D, K, signals, lambda for which no step hits the branch point, steps, kappa", "the tests compare a few numbers for one signal.", [A(MS,"manakov_scatter_matrix","manakov_scatter_U_BO")])
prop("Manakov: energy conservation",
 "The scattering matrices returned by manakov_scatter_matrix satisfy S^H J S = J with J=diag(1,kappa,kappa) for every real lambda, in particular |S11|^2+kappa(|S21|^2+|S31|^2)=1 (focusing case: for every signal whatsoever), and their determinant is exp(i lambda T) for every lambda.",
 "all D, signals, lambda, kappa", "an identity over all signals and lambda.", [A(MS,"manakov_scatter_matrix")])
prop("Manakov discretizations: preprocessing and spectral maps",
 "For every discretization with a nonzero upsampling factor the preprocessing returns samples on a subgrid as requested (with the upsampling factor two: the Gauss-Legendre combinations of the trigonometric interpolants of both components); the maps between lambda and z are inverse to each other where z is nonzero and |Re lambda| is below the Nyquist bound; the phase factors fit to the boundaries of the interval; unknown discretizations are rejected.",
 "all D>=2, signals, steps, requested numbers of samples, discretizations, values", "the tests look at no intermediate values for the Manakov equation.", [A(MD,"manakov_discretization_preprocess_signal","fnft__manakov_discretization_lambda_to_z","fnft__manakov_discretization_z_to_lambda","fnft__manakov_discretization_phase_factor_rho")])
prop("fnft_manakovv: continuous spectrum",
 "A call of fnft_manakovv without Richardson extrapolation that succeeds leaves in contspec, for each of the twelve discretizations that are accepted, the values (b1/a,b2/a), (a,b1,b2), or all five computed from the scattering coefficients of the chosen discretization of the Manakov system on the frequency grid, and nothing beyond them; it fails with a division by zero exactly if a reflection coefficient is requested and a vanishes at a grid point; invalid arguments are rejected before anything is written; options are unchanged.",
 "all D>=2 (3 for upsampled methods), M>=2, signals, intervals, frequency grids, options, requests", "the tests compare two signals against closed forms with a tolerance.", [A(MV,"fnft_manakovv","fnft_manakovv_base","manakovv_compute_contspec")])
prop("fnft_manakovv: bound states",
 "In a focusing call with a polynomial method the polynomial handed to the root finder is, up to a power of two (and an exponential factor), the coefficient a(lambda) in the variable z of the discretization applied to a subsampled signal; the reported bound states are the images of the returned roots after filtering (closed upper half plane) and merging, truncated to the capacity; with an exact root finder they are zeros of a, and no zero with |Re lambda| below the Nyquist bound is missed. With exact-exponential methods such a request always fails and nothing is written.",
 "all signals, intervals, discretizations, filters, options with Dsub<=2D, root finders, capacities", "the tests look at one signal whose eigenvalues are known.", [A(MV,"fnft_manakovv","fnft_manakovv_base","manakovv_compute_boundstates")])
prop("fnft_manakovv: Richardson extrapolation of the continuous spectrum",
 "With Richardson extrapolation the continuous spectrum is, at every frequency that the subsampled signal can resolve, (s^p u - v)/(s^p - 1) with u the values for the full signal, v those for the signal subsampled with factor s>=2 and p the order of the method, and u elsewhere; this combination is exact if the error is exactly of the order p; the options are restored.",
 "all D>=3, signals, polynomial discretizations, frequency grids, contspec types", "the tests only check that errors decrease at a higher rate for one signal.", [A(MV,"fnft_manakovv")])
NP="src/fnft_nsep.c"
prop("fnft_nsep: spectra by grid search",
 "With the grid search method and a polynomial discretization, the main spectrum consists of the points that the grid search reports for Floquet discriminant -2, followed by those for +2, and the auxiliary spectrum of the points it reports for a vanishing (1,2) entry of the monodromy matrix, both for the periodic signal obtained by removing the phase rotation; all points are filtered with the bounding box (the user's one, or the automatic one), shifted back, and truncated to the capacity, and nothing else is written. Points at which the discriminant has exactly the right value at an interior grid point are not missed, and every reported point is next to a grid point at which the distance from that value is locally minimal. The options are left as they were, except for the automatic box.",
 "all D=2^k>=2, quasi-periodic signals, periods, phase shifts, kappa, polynomial discretizations, boxes, filters, capacities, NULL or non-NULL outputs", "the tests compare two plane-wave signals with known spectra within a tolerance.", [A(NP,"fnft_nsep","gridsearch","update_bounding_box_if_auto")])
prop("fnft_nsep: Newton refinement of initial guesses",
 "With the Newton method and an exponential integrator, each block of K guesses for the main spectrum is refined by Newton's method (with a line search over the multiplicities one and two) for the Floquet discriminant minus the value that belongs to the block, and the guesses for the auxiliary spectrum by Newton's method for the (1,2) entry of the monodromy matrix of the periodic signal, with derivatives that are exact (or accurate to the documented tolerance for tiny steps); a guess that is an exact simple root is returned unchanged; at most max_evals steps and max_evals+2 evaluations are made per guess; the refined points that pass the filter are returned in order, shifted back, with their number, and nothing beyond the guesses is written; the call fails with a division by zero exactly if a derivative vanishes during the refinement. With a discretization that has only a fast method every request for refinement fails.",
 "all D=2^k>=2, quasi-periodic signals, guesses, points per spine, ranges, tolerances, boxes, max_evals, capacities, discretizations", "the tests refine guesses for two plane-wave signals.", [A(NP,"fnft_nsep","newton","refine_mainspec","refine_auxspec")])
prop("fnft_nsep: subsample and refine",
 "With the (actual default) subsample-and-refine method and a polynomial discretization, for each of the requested values of the Floquet discriminant the candidates are the images of the roots, as reported by the root finder, of the polynomial that is (up to a nonzero factor) the Floquet discriminant of the subsampled periodic signal minus that value; with an exact root finder these are exactly the points of the strip that the variable z can represent at which the subsampled discriminant has the value. Candidates that pass the filter are refined by Newton's method for the monodromy matrix of the full signal with an exponential integrator; those that pass the filter then are returned, shifted back, one value after the other, as long as there is room, and nothing else is written. The auxiliary spectrum is treated in the same way with the (1,2) entry. The call fails exactly if a derivative vanishes during a refinement, whatever number of samples was asked for, and the options are left as they were, except for the automatic box.",
 "all D=2^k>=2, quasi-periodic signals, periods, phase shifts, kappa, polynomial discretizations, root finders, boxes, filters, Dsub, capacities, NULL or non-NULL outputs", "the tests compare two plane-wave signals with known spectra within a tolerance.", [A(NP,"fnft_nsep","subsample_and_refine","refine_mainspec","refine_auxspec")])
prop("fnft_nsep: mixed method and rejected arguments",
 "With the mixed method the returned spectra are the real points found by the grid search followed by those points of subsample-and-refine whose distance from the real axis is larger than the tolerance, both truncated to the capacities; hence no point of the second part is real. With automatic filtering the tolerance is not negative. A call is rejected with the invalid-argument code before anything is written if D is not a power of two greater than one, the signal, the interval or one of the counters is missing, the interval is empty, kappa is neither +1 nor -1, or only the auxiliary spectrum is requested although a filter is active; otherwise a request for sheet indices is rejected as not implemented, and an unknown localization method is rejected without touching the outputs.",
 "all inputs of fnft_nsep", "the tests exercise one mixed call and no rejected call.", [A(NP,"fnft_nsep","gridsearch","subsample_and_refine")])
NI="src/fnft_nsev_inverse.c"
SF="src/private/fnft__poly_specfact.c"
prop("fnft_nsev_inverse_XI: frequency grid",
 "For every discretization with a polynomial method, even M>=2, D>=2 and nonempty interval, fnft_nsev_inverse_XI succeeds and returns bounds such that the M equidistant frequencies between them are mapped by z=exp(2i xi eps/degree) to all M-th roots of unity, each one once, starting next to -1; they lie between the Nyquist bounds. Invalid arguments are rejected without writing to XI. (For odd M the grid does not have this property.)",
 "all D, M, intervals, discretizations", "the tests use the grid for a few fixed sizes only.", [A(NI,"fnft_nsev_inverse_XI")])
prop("fnft_nsev_inverse: reflection coefficient",
 "If the values of a reflection coefficient on the grid are given and there are no bound states, then (default method) the routine returns the samples of the unique layered medium whose reflection coefficient agrees, up to terms of order z^D, with the polynomial that interpolates the values at the grid points; in the focusing case it succeeds for all values. If the values are those of a medium (modulo z^D), focusing or defocusing, its samples are returned exactly for 2SPLIT2_MODAL. The array with the continuous spectrum is overwritten by its values times a phase factor.",
 "all M>=D=2^k, values of the reflection coefficient, intervals, garbage in malloc'ed memory, both discretizations", "the tests reconstruct a few signals up to a tolerance.", [A(NI,"fnft_nsev_inverse","transfer_matrix_from_reflection_coefficient")])
prop("Spectral factorization",
 "poly_specfact succeeds for every polynomial b such that |b|^2 (kappa=0) or 1-kappa|b|^2 is positive on the unit circle. It returns the first coefficients of a polynomial of degree less than N, N>=(deg+1)*oversampling_factor; if the three highest Fourier modes of the sampled logarithm of the modulus vanish, then this polynomial has the prescribed modulus at the N-th roots of unity, and its logarithm is a polynomial in z there (no zeros in the disk). For monomials the result is exact. Invalid arguments are rejected without writing. (In general the modulus is wrong even at the sample points, because of an off-by-one in the discrete Hilbert transform.)",
 "all degrees, polynomials, oversampling factors, kappa in {-1,0,1}", "the tests compare the factor of one polynomial with a tolerance.", [A(SF,"poly_specfact")])
prop("fnft_nsev_inverse: multi-solitons",
 "If only a discrete spectrum with distinct eigenvalues in the upper half plane and nonzero norming constants is given, then every call that does not divide by zero returns the samples of one and the same potential q(t), which is the multi-soliton with exactly these data: its Zakharov-Shabat problem has b=0 on the real axis, a(lambda) is the Blaschke product, and at each eigenvalue the two decaying solutions are related by the given norming constant. It does not depend on the grid, the options or the contents of the memory. For one eigenvalue the call always succeeds and gives a hyperbolic secant. The scattering data are uniquely determined by the potential.",
 "all K, eigenvalues, norming constants, grids, D, options", "the tests compare with the forward transform for a few eigenvalues.", [A(NI,"fnft_nsev_inverse","add_discrete_spectrum")])
prop("fnft_nsev_inverse: adding bound states to a potential",
 "With the method USE_SEED, a run that does not divide by zero returns the samples of a potential whose b(xi) is that of the (piecewise constant) seed, whose a is that of the seed times the Blaschke factors, and which has the given eigenvalues with the given norming constants. If a continuous spectrum is given together with bound states, the routine does the same with the potential it computes for the continuous spectrum alone, where a reflection coefficient is first multiplied with the Blaschke factors.",
 "all K, eigenvalues that are not eigenvalues of the seed, norming constants, seeds, grids, continuous spectra", "the tests look at one or two eigenvalues and a tolerance.", [A(NI,"fnft_nsev_inverse","add_discrete_spectrum","compute_eigenfunctions","precompensate_for_cdt_phaseshifts")])
prop("fnft_nsev_inverse: residues",
 "If residues are given instead of norming constants, the result is that for the norming constants which have these residues of b/a at the eigenvalues; for pure multi-solitons a is the Blaschke product. Together with a continuous spectrum, a is the Blaschke product times the coefficient a of the piecewise constant signal with the samples computed from the continuous spectrum (it exists and is unique). With a seed (USE_SEED) the routine converts the residues as if the a of the seed were one.",
 "all K, eigenvalues, residues, grids, seeds", "the tests use at most a few eigenvalues.", [A(NI,"add_discrete_spectrum")])
prop("fnft_nsev_inverse: rejected calls",
 "Calls with invalid arguments (D not a power of two >=2, odd M or M<D, missing arrays, empty intervals, kappa not +1 or -1, bound states in the defocusing case or not in the open upper half plane, unsupported discretization) are rejected with an error code and neither the continuous spectrum nor the signal is changed. Two equal bound states are rejected if no different one has the same imaginary part (otherwise they may be accepted).",
 "all inputs", "the tests contain no rejected calls.", [A(NI,"fnft_nsev_inverse","add_discrete_spectrum")])
prop("fnft_nsev_inverse: b(xi) and B(tau)",
 "If values of b(xi) on the grid are given and there are no bound states, then the routine computes the polynomial A that poly_specfact returns for the polynomial B that interpolates the (phase-compensated) values at the grid points, and returns the samples of the layered medium with the ratio B/A up to terms of order z^D; in the focusing case there is exactly one such medium and the call succeeds whenever A(0) is not zero. If values B(tau) are given on a symmetric interval, B has the coefficients 2 eps B(tau_j), halved at the two ends, and the array with the spectrum is not changed; other intervals and M different from D are rejected without changing anything. If only one value B(tau) is not zero the result is exact: one layer reflects.",
 "all M>=D=2^k, values with 1-kappa|B|^2>0 on the unit circle, intervals, oversampling factors, both discretizations", "the tests compare the forward transform of the result for a few signals within a tolerance.", [A(NI,"fnft_nsev_inverse","transfer_matrix_from_b_of_xi","transfer_matrix_from_B_of_tau")])
prop("fnft_nsev_inverse: iteration for A and B",
 "With the method that iterates for A and B in the defocusing case, M=D and values of the reflection coefficient of modulus less than one, the routine performs a uniquely determined iteration: the polynomial B_n interpolates rho/sqrt(1-|rho|^2) times the phases of the spectral factor A_(n-1) of the last step, A_n is the spectral factor of B_n; it stops with the first step in which the mean phase of A_n does not change any more or its change does not decrease by ten percent, and after max_iter steps at the latest; then the samples of the layered medium with the ratio B_n/A_n up to order z^D are returned. The modulus of B_n is right in each step, and a fixed point of the iteration with exact spectral factors has the given reflection coefficient at all grid points. For rho=c z^m the result is exact. In the focusing case and for M different from D the method is rejected without changing anything.",
 "all D=2^k, values of the reflection coefficient, intervals, max_iter, both discretizations", "the tests run the iteration for one reflection coefficient only.", [A(NI,"fnft_nsev_inverse","transfer_matrix_from_reflection_coefficient_TFMATRIX_CONTAINS_AB_FROM_ITER")])
prop("fnft_nsev: Richardson extrapolation of the discrete spectrum",
 "With Richardson extrapolation, the bound states of a call without extrapolation (order p) are the initial guesses of Newton's method for the subsampled signal (step s*eps). Every bound state whose nearest bound state of the second approximation has a relative distance less than eps is replaced by (s^p*l1-l2)/(s^p-1), the others are not changed; the number of bound states and the norming constants are those of the first approximation. If residues are requested as well, the derivatives a' are extrapolated in the same way and the residue becomes b/a', provided that no two bound states have the same partner. Otherwise the routine uses residues in place of a' for every second one. Residues without norming constants work in this way with the method SUBSAMPLE_AND_REFINE; with the other methods the routine writes 2K values into the array of the user and reads memory that was never written.",
 "all signals, numbers of samples, discretizations, initial guesses, options, garbage in malloc'ed memory", "the tests look at the error of the extrapolated spectrum of a few signals.", [A("src/fnft_nsev.c","fnft_nsev")])
prop("fnft_kdvv: Richardson extrapolation",
 "With Richardson extrapolation, fnft_kdvv first does what it does without it (order p of the discretization), then runs Newton's method for the subsampled signal (step s*eps) from the bound states it found. The continuous spectrum becomes (s^p*c1-c2)/(s^p-1) entrywise; every bound state whose nearest bound state of the second approximation has a relative distance less than eps is replaced by (s^p*l1-l2)/(s^p-1), the others are not changed; number of bound states and norming constants are those of the first approximation. If norming constants and residues are requested, the derivatives a' are extrapolated as well and the residue becomes b/a', provided that no two bound states have the same partner. Residues alone never work: the routine writes 2K values into the array of the user and reads memory that was never written. If the second call fails, the spectrum of the first one is left in place and an error is returned.",
 "all signals, numbers of samples, discretizations, initial guesses, options, garbage in malloc'ed memory", "the tests look at the error of the extrapolated spectrum of a few signals.", [A("src/fnft_kdvv.c","fnft_kdvv")])
prop("fnft_nsev: convergence to the continuous-time spectrum",
 "Let q be a signal on [T0,T1] (zero outside) and let the D samples be its values. The scattering coefficients a(xi), b(xi) of the continuous-time Zakharov-Shabat problem exist and are unique. Whenever fnft_nsev succeeds, the values a, b, and b/a that it wrote for each point of the grid differ from them by at most C*h if q is Lipschitz continuous (all methods that use each sample once except 2SPLIT7A/7B), and by at most C*h^2 if q has a Lipschitz continuous derivative (second-order methods), with h=(T1-T0)/(D-1) and an explicit constant C that depends on T1-T0, the bounds for q and xi only; the bounds are O(1/D) and O(1/D^2).",
 "all signals of these classes, intervals, D, grids, kappa, output types, methods listed, garbage in malloc'ed memory", "the tests compare with exact spectra of a few signals for a few D.", [A("src/fnft_nsev.c","fnft_nsev"),A("src/private/fnft__akns_fscatter.c","akns_fscatter"),A("src/private/fnft__nse_scatter.c","nse_scatter_matrix")])
prop("fnft_nsev: convergence of the bound states",
 "Let q be a signal with Lipschitz continuous derivative that is zero outside [T0,T1], let the D samples be its values, and let fnft_nsev compute the bound states of the focusing NSE by the eigenvalue method with a second-order discretization and an exact root finder. If it succeeds, then |a(lambda)|<=C h^2 at every reported point of the closed upper half plane, a being the coefficient of the continuous-time problem. Conversely, if a(lambda0)=0 and |a|>=m>2Ch^2 on a circle of radius delta around lambda0 that lies in the closed upper half plane, in the filter's region and in the strip resolved by D samples, a point with a distance less than delta is found (up to the merging of values closer than sqrt(eps)). C is explicit.",
 "all signals of this class, intervals, D, eigenvalues, second-order discretizations, filters, exact root finders, garbage in malloc'ed memory", "the tests compare with exact eigenvalues of a few signals for a few D.", [A("src/fnft_nsev.c","fnft_nsev","fnft_nsev_base"),A("src/private/fnft__akns_fscatter.c","akns_fscatter")])
prop("fnft_kdvv: convergence to the continuous-time spectrum",
 "Let q be a real signal on [T0,T1] (zero outside) and let the D samples be its values. For every xi != 0 the scattering coefficients a(xi), b(xi) of the Schroedinger operator exist and are unique: the solution of psi''+(q+xi^2)psi=0 that is exp(-i*xi*t) on the left is a*exp(-i*xi*t)+b*exp(i*xi*t) on the right. Whenever fnft_kdvv succeeds, the values a, b, and b/a that it wrote for each point of the grid differ from them by at most C*h if q is Lipschitz continuous (all methods that use each sample once except 2SPLIT7A/7B), and by at most C*h^2 if q has a Lipschitz continuous derivative (second-order methods), in both AKNS systems (with and without _VANILLA), with h=(T1-T0)/(D-1) and an explicit constant C; the bounds tend to zero like 1/D and 1/D^2.",
 "all real signals of these classes, intervals, D, grids without zero, output types, methods listed, garbage in malloc'ed memory", "the tests compare with exact spectra of a few signals for a few D.", [A("src/fnft_kdvv.c","fnft_kdvv"),A("src/private/fnft__kdv_fscatter.c","kdv_fscatter"),A("src/private/fnft__kdv_scatter.c","kdv_scatter_matrix")])
prop("fnft_nsep: convergence of the main spectrum",
 "Let p be a signal of period T with a Lipschitz continuous derivative and let the D samples be its values (for a quasi-periodic signal u(t+T)=exp(i*phi)u(t), p is u(t)exp(2iLt)). The monodromy matrix of the continuous-time Zakharov-Shabat problem exists and is unique; let Delta be its trace. With the method of subsampling, no refinement, a second-order polynomial method and an exact root finder, fnft_nsep succeeds, provided that the leading and last coefficient of the polynomials are nonzero (which is always so for the Ablowitz-Ladik method with moderate steps). The points it stores for the value 2F (shifted by L) satisfy |Delta(lambda)-2F|<=C*h^2, and if Delta(lambda0)=2F and |Delta-2F|>=m>2Ch^2 on a circle around lambda0 that lies in the box and in the strip resolved by the samples, one of the points lies inside. C is explicit and h is the step of the subsampled signal.",
 "all signals of this class, periods, phase shifts, D, D_sub, spine values, filters, second-order methods, exact root finders, garbage in malloc'ed memory", "the tests compare with the exact spectra of a plane wave for a few D.", [A("src/fnft_nsep.c","fnft_nsep","subsample_and_refine"),A("src/private/fnft__nse_fscatter.c","nse_fscatter")])

prop("fnft_nsev: exactness for piecewise constant signals",
 "Let the signal have the constant value q[n] on the interval of length h around the n-th sample point and be zero elsewhere. Its scattering coefficients a, b exist and are unique at every complex lambda. Whenever fnft_nsev succeeds with the discretization BO and without Richardson extrapolation, the values a, b, b/a that it wrote for each grid point are exactly those of this signal (in exact arithmetic, if no determinant h^2(xi^2+kappa|q[n]|^2) is nonzero but smaller than 1e-16). With any discretization based on BO, the norming constant computed for an exact zero of a is the coefficient b of this signal there.",
 "all samples, intervals, D, grids, kappa, output types, garbage in malloc'ed memory", "the tests compare with the exact spectrum of smooth signals for a few D only.", [A("src/fnft_nsev.c","fnft_nsev"),A("src/private/fnft__akns_scatter.c","akns_scatter_matrix"),A("src/private/fnft__akns_scatter_bound_states.c","akns_scatter_bound_states")])
prop("fnft_manakovv: convergence to the continuous-time spectrum",
 "Let (q1,q2) be a signal on [T0,T1] (zero outside) and let the D samples be its values. The scattering coefficients a(xi), b1(xi), b2(xi) of the continuous-time Manakov problem exist and are unique. Whenever fnft_manakovv succeeds without Richardson extrapolation with one of the methods BO, 2SPLIT3A, 2SPLIT3B, 2SPLIT4A, 2SPLIT4B, 2SPLIT6B, the values a, b1, b2, b1/a, b2/a that it wrote for each point of the grid differ from them by at most C*h if q1, q2 are Lipschitz continuous, and by at most C*h^2 if they have Lipschitz continuous derivatives and vanish outside, plus a number of the order of the machine precision, because the routine treats samples below 2^-52 as zero. All constants are explicit.",
 "all signals of these classes, intervals, D, grids, kappa, output types, methods listed", "the tests compare with exact spectra of a few signals for a few D.", [A("src/fnft_manakovv.c","fnft_manakovv"),A("src/private/fnft__manakov_fscatter.c","manakov_fscatter"),A("src/private/fnft__manakov_scatter.c","manakov_scatter_matrix")])
prop("KdV: fast inverse scattering",
 "kdv_finvscatter with 2SPLIT2_MODAL or 2SPLIT2A and D=2^k samples: if the first row of the transfer matrix is, up to a factor, that of layers [1,Q_n z;-eps,z] with 1+eps*Q_n != 0, the routine succeeds (it stays within its stack and arrays and reads nothing that was not written) and returns the samples that belong to the Q_n in the right order; applied to the result of kdv_fscatter with 2SPLIT2_MODAL it returns the samples exactly. The transfer matrix, documented as an input, is changed: the block of T21 is overwritten by the shifted block of T12. With 2SPLIT2A it does not invert kdv_fscatter: the first sample becomes arctan(sqrt(r)tan(eps*sqrt(r)))/eps. The _VANILLA variants and the other methods of degree one are rejected as errors of a subroutine, a singular first layer as a division by zero; the samples are not changed then. With methods of higher degree the stack is exceeded.",
 "all D=2^k, transfer matrices of layered media, step sizes, samples", "the tests do one round trip per method and D with a tolerance of 4e-4 for 2SPLIT2A.", [A("src/private/fnft__kdv_finvscatter.c","kdv_finvscatter"),A("src/private/fnft__akns_finvscatter_q_from_r.inc","finvscatter_recurse")])

prop("Allocation failures and errors of subroutines",
 "Whatever combination of memory allocations, subroutines and input checks fails, a routine never accesses memory that is not allocated, never releases memory twice, returns an error code exactly if something failed, and releases everything it allocated (on success everything except its documented results). This holds for poly_chirpz, the products of at least two polynomials, poly_specfact, misc_downsample, misc_resample, akns_fscatter, manakov_fscatter, poly_roots_fftgridsearch, akns_discretization_method_weights, akns_scatter_matrix, the inverse scattering, fnft_kdvv, its bound states, fnft_nsev_inverse and its transfer matrices, gridsearch and newton of fnft_nsep, the base routines. It fails, and exactly the following goes wrong: the product of one polynomial returns an uninitialised value; akns_ and manakov_discretization_preprocess_signal lose their results on errors; the latter does not test its scratch memory and ignores errors of misc_resample; akns_scatter_bound_states dereferences NULL exactly if one of its allocations fails; the routines for the continuous spectra and the norming constants, fnft_nsep, subsample_and_refine and add_discrete_spectrum lose memory in early returns; subsample_and_refine reports success if the root finder failed; fnft_nsev and fnft_manakovv with subsampling and Richardson extrapolation release memory twice if the second preprocessing fails.",
 "all patterns of failing allocations, subroutines and checks, all data dependent branches, all numbers of loop iterations", "no allocation fails in a test, and there are exponentially many patterns of failures.", [A("src/fnft_nsev.c","fnft_nsev","nsev_compute_contspec","nsev_compute_normconsts_or_residues"),A("src/fnft_kdvv.c","fnft_kdvv","kdvv_compute_contspec"),A("src/fnft_manakovv.c","fnft_manakovv"),A("src/fnft_nsep.c","fnft_nsep","subsample_and_refine"),A("src/fnft_nsev_inverse.c","add_discrete_spectrum"),A("src/private/fnft__akns_discretization.c","akns_discretization_preprocess_signal"),A("src/private/fnft__manakov_discretization.c","manakov_discretization_preprocess_signal"),A("src/private/fnft__akns_scatter.c","akns_scatter_bound_states"),A("src/private/fnft__poly_fmult.c","poly_fmult")])
prop("fnft_manakovv: exactness for piecewise constant signals",
 "Let the two components have the constant values q1[n], q2[n] on the interval of length h around the n-th sample point and be zero elsewhere. The scattering coefficients a, b1, b2 of the Manakov system of this signal exist and are unique at every complex lambda. Whenever fnft_manakovv succeeds with the discretization BO and without Richardson extrapolation, the values a, b1, b2, b1/a, b2/a that it wrote for each grid point are exactly those of this signal (in exact arithmetic). Exception: samples that are not both zero, but both smaller than 2^-52 in absolute value, because the routine treats them as zero.",
 "all samples, intervals, D, grids, kappa, output types", "the tests compare with the exact spectrum of smooth signals for a few D only.", [A("src/fnft_manakovv.c","fnft_manakovv"),A("src/private/fnft__manakov_scatter.c","manakov_scatter_matrix")])

prop("MATLAB interface",
 "A call of mex_fnft_nsev, mex_fnft_kdvv, mex_fnft_manakovv, mex_fnft_nsep or mex_fnft_nsev_inverse with valid arrays follows the documented table of options: if the arguments are as documented, the C routine is called once with exactly the numbers, arrays, sizes, options, guesses and NULL pointers that the help text describes (values from later options override earlier ones; outputs that were not requested are not computed), and MATLAB gets the results of the routine as complex row vectors (of the documented sizes and in the documented order), or the documented error message if the routine fails. Conversely, if the arguments do not follow the table, the call ends with an error before the routine is called; no memory outside of an array is accessed. Together with the model of fnft_nsev: contspec is the quotient b/a of the discretized scattering problem. Exceptions: complex single-precision signals are read behind the end of the array (nsev, kdvv); the calls of mex_fnft_manakovv and mex_fnft_nsep with one output write behind the array of outputs. mex_fnft_nsev_inverse_XI(D,T,M) with even M returns the bounds computed by fnft_nsev_inverse_XI and the grid of M equidistant frequencies between them, which z=exp(2i xi eps) maps to all M-th roots of unity; wrong inputs are reported; for M=1 the second output is not a number. fnft_version and mex_fnft_version report the configured version; the suffix never exceeds its nine characters.",
 "all lists of arguments, array sizes and contents, orders and repetitions of options, numbers of outputs, results and errors of the C routine", "no test covers the MATLAB interface.", [A("matlab/mex_fnft_nsev.c","mexFunction"),A("matlab/mex_fnft_kdvv.c","mexFunction"),A("matlab/mex_fnft_manakovv.c","mexFunction"),A("matlab/mex_fnft_nsep.c","mexFunction"),A("matlab/mex_fnft_nsev_inverse.c","mexFunction"),A("matlab/mex_fnft_nsev_inverse_XI.c","mexFunction"),A("matlab/mex_fnft_version.c","mexFunction"),A("src/fnft_version.c","fnft_version")])

prop("fnft_nsep: convergence of the auxiliary spectrum",
 "Let p be a signal of period T with a Lipschitz continuous derivative and let the D samples be its values (for a quasi-periodic signal u(t+T)=exp(i*phi)u(t), p is u(t)exp(2iLt)). Let fnft_nsep compute the auxiliary spectrum by the method of subsampling with a second-order polynomial discretization, without refinement and with an exact root finder. If the leading and the last coefficient of the polynomials in use do not vanish, it succeeds, and the points delivered are the first ones of a list that approximates the zeros of the (1,2) entry of the monodromy matrix of the continuous-time problem: at each point this entry is at most C(|lambda|) h^2, h being the step of the subsampled signal, and every zero around which the entry exceeds C h^2 plus a margin on a circle (inside the filter box and the strip that the step resolves) has a point of the list inside the circle. The entry is that of the period that starts half a step before the first sample; for the period that starts at T[0] the same holds with errors of first order. C is explicit. For 2SPLIT2A (the default), the Ablowitz-Ladik method and all other splittings all of whose products begin or all of whose products end with the linear part, one of these two coefficients is always zero.",
 "all signals of this class, periods, phase shifts, D, D_sub, filters, second-order methods, exact root finders, garbage in malloc'ed memory", "the tests compare with the exact spectra of a plane wave for a few D.", [A("src/fnft_nsep.c","fnft_nsep","subsample_and_refine"),A("src/private/fnft__nse_fscatter.c","nse_fscatter"),A("include/fnft_nsep.h","fnft_nsep")])

prop("fnft_manakovv: convergence of the bound states",
 "Let (q1,q2) be a signal with Lipschitz continuous derivatives that is zero outside of [T0,T1], let the D samples be its values, and let fnft_manakovv compute the bound states (focusing case) from all samples (D <= Dsub <= 2D) with one of the methods 2SPLIT3A, 2SPLIT3B, 2SPLIT4A, 2SPLIT4B, 2SPLIT6B and an exact root finder. If it reports success, the stored values are the first ones of a list such that |a(lambda)| of the continuous-time Manakov problem is at most E(|lambda|) at each value in the closed upper half plane, and every zero lambda0 of a has a value of the list closer than delta, if |a| >= m > 2E on the circle of radius delta around lambda0 and the disk lies in the upper half plane and in the strip |Re lambda| h r < pi that the sampling resolves (merging adds at most deg*sqrt(2^-52)). E is C(|lambda|) h^2 with explicit C and h=(T1-T0)/(D-1), plus a number of the order of the machine precision (samples below 2^-52 are replaced by zero). If Dsub divides D, the same holds, with h=(T1-T0)/(Dsub-1), for a signal that has the retained samples (every (D/Dsub)-th one) at Dsub equidistant points of all of [T0,T1], which are not the times of these samples.",
 "all signals of this class, intervals, D, D_sub as stated, filters, capacities of the output array, exact root finders, continuations of the options", "the tests compare with exact eigenvalues of a few signals for a few D.", [A("src/fnft_manakovv.c","fnft_manakovv","manakovv_compute_boundstates"),A("src/private/fnft__manakov_fscatter.c","manakov_fscatter"),A("include/fnft_manakovv.h","fnft_manakovv")])
