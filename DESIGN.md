# Formal model of FNFT in Lean 4 -- design

## 1. What is modelled, and how

The model is a function-by-function transcription of the C code in `/repo/src` (and of the kiss_fft
copy it ships) into small Lean functions.  Conventions:

* **Memory.** A C array is a `Buf α`: a length and a function from indices to *optional* cells
  (`none` = never written since `malloc`).  `Buf.rd`/`Buf.wr` return `none` when the index is out of
  bounds or (for reads) the cell is uninitialised.  A C function becomes a function into `Option _`;
  `none` means undefined behaviour.  "The call returns `some ...`" is therefore a memory-safety
  statement as well as a functional one.
* **Loops.** `for` loops with a bound known on entry are `forLoop` (structural recursion on the trip
  count).  `while` loops whose termination is part of the property take a fuel argument; "terminates"
  is "exists a fuel for which the result is produced", "never returns" is "for every fuel, out of fuel".
* **Integers.** `UINT` (size_t) is `Nat` when no wrap can occur and `BitVec 64`/explicit `% 2^64` where
  wrap-around is part of the property (C01, C12).
* **Floating point.** Two treatments.  (a) Where the code only *compares* doubles (filters, merge) we
  model doubles as extended reals plus NaN with IEEE comparison semantics.  (b) Where it does
  arithmetic we use exact arithmetic in a field (generic `K`, or `ℝ`/`ℂ` when exp, sqrt, abs occur).
  Rounding errors, overflow to infinity and underflow are *not* modelled; all theorems of kind (b) are
  statements about the algorithm in exact arithmetic.
* **Errors.** Return codes are integers; `E_SUBROUTINE(ec) = -|ec|` as in the headers.
* **Allocation** is assumed to succeed unless a property is about failure.

Specifications are stated with Mathlib notions (`Polynomial`, `Matrix`, `List.filter`, `Finset.sum`,
`NormedSpace.exp`, `HasDerivAt`, ...) in the property files, independent of the model's helpers.

## 2. Trusted base

* Lean 4.33.0 kernel.  Axioms: every theorem listed in `MANIFEST.json` depends on a subset of
  `propext`, `Classical.choice`, `Quot.sound` (section 5).  No own axioms, no native code.
* The reading of the C code: every model definition cites file and lines.  Nothing was compiled or run.
  The big per-discretization coefficient blocks of `akns_fscatter` are a deep-embedded table produced
  from the C text by `tools/gen_fscatter.py` (the generated Lean module is committed; C22 proves the
  tables against independent specifications, so an error in the generator would surface there).
* The modelling decisions above (exact arithmetic, allocation succeeds, C abstract machine with flat
  arrays, no aliasing other than the aliasing modelled explicitly).
* Modelled source files: `src/private/` fnft__misc, fnft__poly_eval, fnft__poly_chirpz, fnft__poly_fmult,
  fnft__akns_discretization, fnft__akns_fscatter, fnft__akns_scatter, fnft__nse_discretization,
  fnft__nse_fscatter, fnft__nse_scatter, fnft__nse_finvscatter, fnft__poly_roots_fftgridsearch,
  fnft__errwarn, the kiss_fft copy (`kf_factor`, `kf_work`, butterflies, `next_fast_size`), and
  `src/fnft_nsev.c` completely.
  The modules named in section 6 are added as the model grows.
* Not modelled: eiscor (Fortran root finder; it is an oracle with the contract `RootsOK`: it returns
  `deg` finite numbers, or an error), FFTW backend (only kiss_fft), the Python interface and the MATLAB
  gateways other than the five of section 6, printing,
  the test cases and other files not named here or in section 6.
* Left outside the model on purpose (the model has no result for such a call, so theorems exclude it by
  hypothesis): division by an exact zero and `log 0` (IEEE infinities/NaN), e.g. `M = 1` or `D = 1` in grid
  spacings, `ks = 0` in the derivative of a scattering step, `T_11[1] = 0` in the inverse scattering,
  a root `z = 0` in `z_to_lambda`, `D = 2` with Richardson extrapolation, `eps = 1` in the grid search;
  data races on the non-thread-local build of errwarn.
* The principal branch of `csqrt` is Mathlib's `Complex.cpow _ (1/2)`; results never depend on the branch
  where the property says so.  `malloc`ed memory that is read before being written appears as explicit
  universally quantified garbage (`gPHI`, `gPSI`, `Garbage`).  `NULL` is `none`.

## 3. Plan per property

| id | model | proof |
|----|-------|-------|
| C01 | `UINT` loop on `BitVec 64`-style Nat mod 2^64 with fuel | loop invariant result = 2^k; divergence: fixed point 0 |
| C02-C04 | in-place compaction loop on `Buf` of double pairs with NaN | loop invariant against `List.filter` |
| C05 | in-place loop, early exit, parametrised distance | invariant: prefix = survivors, tail = original |
| C06 | exact rational rounding (half away from zero), copy loop | arithmetic on `Nat` division; invariant |
| C07 | fuel loops dividing out 2,3,5 | smoothness spec `∀ prime p ∣ n, p ≤ 5` |
| C08 | kf_factor loop with table of 32 pairs | product invariant, lower bound on factors, witness 2·3^32 |
| C09, C10 | recursive kf_work on `Buf ℂ`, butterflies 2/3/4/5/generic | decimation-in-time identity by induction on the plan |
| C11, C12 | two-branch Horner loops | invariant, `Polynomial.eval`, `derivative` |
| C13 | chirp-z with FFT buffers | Bluestein identity + C09 |
| C14-C17 | in-place products of 1, 2x2, 3x3 polynomial (matrices) | invariant per level over an abstract exact convolution + C09 |
| C18 | frexp-style exponent on reals | floor of log2 |
| C19-C21 | loops | sums; `Matrix.mul`, `Metric.hausdorffDist`, Legendre recurrence |
| C22 | transcription of the coefficient tables | ring identity per discretization |
| C23 | sample loop + C15 | product of list of matrices |
| C24-C28 | scattering recursions over ℂ | `NormedSpace.exp` of 2x2, determinant, conjugation symmetry, product rule |
| C29, C30 | layer peeling with explicit stack | machine invariant vs. recursive spec; product factorisation |
| C31-C35 | tables/2x2, 4x4 matrices | case analysis + `ring`/`field_simp` |
| C36 | FFT, phase, FFT | C09/C10 |
| C37, C38 | grid search loops | invariants |
| C39, C40 | call chains; thread-indexed state machine | induction on chain / history |

| C41 | `nsev` option record, preprocessing, transfer matrix (fast or slow), chirp-z / slow evaluation, phase factors | chain of C34, C23/C24, C13, C33: output = exact quotient of the Jost coefficients of the sampled signal |
| C42 | Newton loop over a list of guesses | loop invariant: every returned value is an iterate of Newton's map for `a` of the sampled signal, inside the filter box |
| C43 | transfer polynomial + root oracle + z→λ + filters + merge | with an exact root finder: every kept value is a zero of the discrete `a`, and for every zero inside the box a value is reported whose distance is less than `deg·√ε` (zero without filter): the values removed by the merging can form a chain |
| C44 | forward/backward Jost recursion, boundary chosen by minimal error | `phi = b psi` at a zero of `a`; residue = `b/a'` (C28) |
| C45 | subsample (C06), fast eigenvalues on the subsampled signal, Newton refinement on the full one | composition of C43 and C42 |
| C46 | two runs at steps eps_t and the subsampled eps_t, linear combination | componentwise formula; kills the leading term of an error expansion |
| C47 | the tables of fnft__kdv_discretization.c as functions on the enumerators, plus unknown values | case analysis over all enumerators, against a separate list of the documentation |
| C48 | `fnft_kdvv` as a function from arguments and output arrays to error code and output arrays; S basis change `fromS` | reuse of C23, C24 through `kdv_fscatter`/`kdv_scatter`; for BO the steps are proved to be exact solutions of `ψ''+(q+λ²)ψ=0` |
| C49 | Newton loop of `kdvv_refine_bound_states_newton` on the results of `akns_scatter_bound_states` | loop invariant; `A'` is proved to be the derivative of `Re a(iκ)` (exact, or within the Taylor error) |
| C50 | grid, sign changes and regula falsi of the grid search | loop invariant, order of the guesses; intermediate value theorem for the zeros |
| C51 | forward/backward Jost recursion as in C44, with the real projections of the KdV | as C44, realness of all factors |
| C52 | bounding interval of `fnft_kdvv_base` | positivity of `(ψ, ψ')` along the chain of steps if `κ² ≥ q` |
| C53 | the coefficient tables of `manakov_fscatter` (generated into `Model/ManTab` from the C text by tools/gen_manakov.py), zero-frequency exponential with its series branch, 3x3 fast products | a reflection checker (`decide +kernel`) shows that every table is the splitting as a polynomial identity in the entries of `exp(w h B)`; C16 for the product |
| C54, C55 | closed-form step of `manakov_scatter_matrix` and its product | the closed form is the matrix exponential (idempotent decomposition); invariance of `J`, determinant along the chain |
| C56–C59 | `fnft_manakovv.c` completely (`Model/Manakovv`): preprocessing, base routine, the two calls for the spectra, subsampled bound states, Richardson extrapolation; the Fortran root finder is a parameter with a contract | symbolic execution of the model for arbitrary sizes; C53/C54 give the transfer matrix, C13 the chirp transform, C36 the interpolation; the exact-roots theorem uses the factorisation of the polynomial and the principal branch of the logarithm |
| C60–C63 | `fnft_nsep.c` completely (`Model/Nsep`): option handling, phase rotation, grid search, Newton refinement, subsample-and-refine, mixed method, filtering; the Fortran root finder is a parameter with a contract | symbolic execution with list-valued specifications of what each stage keeps (`ListOut`, `Spines`); C09/C22 for the transfer polynomial, C32 for derivatives, factorisation of polynomials over the complex numbers for completeness of the candidates |
| C64, C65, C70 | `fnft_nsev_inverse.c` completely (`Model/NsevInv`), `Spec/Finv` (layered media) | the grid points are roots of unity, so the FFT interpolates (C14); uniqueness of layer peeling modulo `z^D` (C30) |
| C66 | `fnft__poly_specfact.c` completely (`Model/Specfact`) | discrete Hilbert transform of band-limited real samples via orthogonality of the roots of unity |
| C67–C69 | recursion for multi-solitons, eigenfunctions, Darboux transform of `add_discrete_spectrum`; `Spec/ZS`: Zakharov-Shabat system on the real line with Jost solutions as limits | the recursion is the iterated Darboux transform; derivative and asymptotics of the transformed solutions; uniqueness by a Wronskian argument |
| C71, C72 | the transfer matrices of `fnft_nsev_inverse.c` for `B_OF_XI`, `B_OF_TAU` and `AB_FROM_ITER` | C66 for the spectral factor, interpolation at roots of unity, uniqueness of layer peeling; induction over the steps of the iteration |
| C73 | the discrete half of Richardson extrapolation in `fnft_nsev.c` (`Model/Nsev`: richDisc, richBody, richFind, richResidue) | reduction to the call without extrapolation and to the Newton run on the subsampled signal (C42, C44); loop invariants for the search of partners and the in-place conversion residue/a' |
| C74 | Richardson extrapolation in `fnft_kdvv.c` (`Model/Kdvv`: kdvRich, kdvReserve, with the loops of `Model/Nsev`) | reduction to the call without extrapolation (C48, C49) and to the Newton run on the subsampled signal; the loops as in C73 |
| C75 | no new code: the continuous spectrum of `fnft_nsev` (C41) compared with the Zakharov-Shabat problem in continuous time (`Spec/Converge`) | dominated power series in a Banach algebra give the local errors of the splittings (order conditions of the weight tables are checked by evaluation), Gronwall's inequality and a telescoping product the global error; explicit constants |
| C76 | no new code: the bound states of `fnft_nsev` (C43) compared with the zeros of `a` of the continuous-time problem | the error bound of C75 holds for all complex `λ` with nonnegative imaginary part; the computed `a` is entire, and the maximum principle for `1/a` gives a zero in every disk on whose boundary `a` is large and in whose centre it is small |
| C77 | no new code: the continuous spectrum of `fnft_kdvv` (C48) compared with the scattering coefficients of `ψ'' + (q + ξ²)ψ = 0` | global error of the one-step methods (as C75) in the AKNS basis, then change to the basis `exp(∓iξt)`; existence and uniqueness from the same fixed point argument |
| C78 | no new code: the polynomials and lists of `fnft_nsep` (C62) compared with the Floquet discriminant of the continuous-time problem | the chain of the method is compared with the monodromy matrix for the base point `t0 - h/2`; its trace does not depend on the base point (periodicity); second-order local errors as in C75, zeros located by the minimum principle as in C76; for the Ablowitz-Ladik method, the leading and last coefficients are computed from the limits `w → 0`, `w → ∞` of the chain. The auxiliary spectrum is not covered: it does depend on the base point, so that sampling at `t0` instead of `t0 - h/2` costs one order |
| C79 | no new code: the results of C41 and C44 for `BO` compared with the continuous-time problem for a piecewise constant signal (`Spec/Cells`) | the flow of a system with constant coefficients is the matrix exponential (uniqueness of solutions), interval by interval; solutions glued together for the existence |
| C80 | no new code: the continuous spectrum of C57 compared with the continuous-time Manakov problem (`Spec/ManConverge`) | error of one step (splitting weights, Taylor expansions in 3x3 matrices), perturbation of products, Gronwall for the flow; the cut-off of samples below 2^-52 gives a remainder (`Spec.manFloor`, bounded in `C80_floor`) that does not tend to zero with the step size |
| C81 | the template of C29/C30 with the macros of `fnft__kdv_finvscatter.c` (`Model/KdvFinv`) | exchange of Q and R and reversal of the layers (`layers_swap`), then the recursion of C30; round trip with the table of 2SPLIT2_MODAL; for 2SPLIT2A the coefficient at z=0 shows the wrong sample |
| C82 | skeletons (allocations, releases, tests, jumps, calls) of 35 routines as programs for a small nondeterministic machine (`Model/Res`); FFT plans count as one allocation, interior pointers are not variables of their own, data enter only as nondeterministic branches, a level of the stack of the inverse scattering is followed by one representative | abstraction of the heap by the status of each pointer variable, simulation `step_sim`, and an inductive invariant: a finite certificate (all abstract states) that the kernel checks to be closed under steps (`check_sound`); the certificates are computed at elaboration (`Proofs/ResCert`) but nothing depends on how; a failing run is given explicitly for each defect |
| C83 | model of `fnft_manakovv` of C62-C65/C80; specification `Spec/ManCells` (`ManCellScattering`: one solution of the Manakov system with the cell values as potentials) | on each cell the solution is the matrix exponential applied to its left value (uniqueness by `NormedSpace.exp`), the closed formula of `manakov_scatter_matrix` is this exponential (`Conv.manP`); chain over the cells, then the a, b normalisation |
| C84 | the five `mexFunction`s (checks, conversion, option loop, allocation of the outputs, conversion of the results) over a model of MATLAB arrays (`Model/Mex`); the C routine is a parameter; specification `Spec/Mex` (tables of option names, inductive `Options`: which lists of arguments mean which options) | induction over the list of arguments, for every routine with the stated contract; converse by soundness of the parser; combined with the model of `fnft_nsev` in `C84_nsev_end_to_end`. Two behaviours outside the arrays are proved as such (`C84_*_single`, `C84_manakovv_help_text`, `C84_nsep*`) |
| C85 | no new code: the polynomial and the list of the auxiliary spectrum of `fnft_nsep` (C62) compared with the (1,2) entry of the continuous-time monodromy matrix | the chain of the method is second-order accurate for the base point half a step before the first sample (C78); moving the base point by `h/2` conjugates the monodromy matrix by a matrix that is `O(h)` close to the identity, hence only first order for `[T0,T1]`; zeros by the minimum principle; concrete case: a constant signal with 2SPLIT2B, for which the product of the leading and the last coefficient is computed |
| C86 | no new code: the bound states of `fnft_manakovv` (C58) compared with the zeros of `a` of the continuous-time Manakov problem | the error bound of C80 extended to complex `λ` with nonnegative imaginary part (`man_two_upper`), then as for C76; `C86_subsampled` states what is computed if samples are left out |

Deviations are recorded in section 4; the status of each property is in `MANIFEST.json`.

## 4. Disagreements between code, documentation and expectations found while modelling

- misc_nextpowerof2: number>2^63 -> result wraps to 0, infinite loop. number=0 ->0.
- misc_merge: compares vals[i] to all vals[j], j<i in *partially compacted* array; chain: 0,.6,1.2 tol 1 drops 1.2 though only 0 kept. tol NaN passes.
- misc_downsample: exact rational arithmetic: indices in bounds (Dsub-1)*nskip < D. Dsub actual may be 1? D=3,Dsub=2 -> nskip=round(1.5)=2, Dsub=round(1.5)=2. 
- kiss_fft_next_fast_size(0): inner while (0%2==0) infinite loop. so n>=1 needed.
- kf_factor: factors array MAXFACTORS 32 pairs
- poly_fmult / 2x2 / 3x3: n=1 (or 0): while loop not entered -> ret_code uninitialised returned, result unset. => akns_fscatter D=1 UB
- poly_fmult* mode tricks (buffers swapped), verified by hand OK
- akns_scatter_bound_states: WPHI[0], WPSI[D_given] never initialised but read (malloc'ed); harmless as tmp=inf there exact. Second CHECK_NOMEM checks WPHI rather than WPSI => NULL deref on OOM.
- boundary_coeff == NAN always false.
- E_SUBROUTINE(ec) = -abs(ec): wrapped codes negative.
- doc of misc_filter_nonreal says removes |Im|>tol, code keeps |Im|>tol.
- 2SPLIT7A/B coefficient 2874587633249303/2^50 approximates 117649/46080 -> weights don't sum to exactly 1
- nse_discretization_phase_factor_rho: unknown discretization -> SUCCESS with NaN since `== NAN` check never fires.
- preprocess_signal leaks q_preprocessed/r_preprocessed on errors (misc_resample rejects D=2 for CF4 etc).
- fftgridsearch: "skip center" uses j==0 instead of j==i; ring radius of eval is 1/(1+(k-1)eps) vs assumed (1-(k-1)eps).
- finvscatter: discretization degree>=2: stack_size=log2(D)+1 where D=deg/degree, recursion depth log2(deg) => OOB s[] write (heap overflow) instead of error. e.g. deg=8, degree 2.
- finvscatter 2SPLIT2A defocusing: uses ATAN(|X|) though X=tanh(eps|q|)e^{i arg}: roundtrip not exact (should be atanh)?
- chirpz evaluates at z_k = A^{-1} W^k
- akns_scatter: derivative of the step divides by ks=sqrt(-q r + lambda^2)-type quantity (ES4 by w): NaN exactly at q_n r_n = lambda^2 although the limit exists.
- misc_resample: for odd D the frequencies used are asymmetric, -(h+1)..h-1.
- preprocess_signal: CF methods with D=2 fail with a subroutine error code (resample rejects D<=2).
- fnft_nsev, Richardson + RESIDUES with NEWTON / FAST_EIGENVALUE localisation: the user's array is passed instead of the internal reserve (2K values are written into K entries; the reserve stays uninitialised).
- fnft_nsev: `*K_ptr` read although K_ptr may be NULL; `XI` read although contspec is NULL; `*opts` (even the global defaults) stay modified on error paths; M=1 gives a NaN grid.
- fnft_nsev Richardson frees qsub/rsub before the second preprocessing and frees again at leave_fun if that fails; CEIL(D/2) is an integer division; D=2 gives scl_den=0.
- fnft_nsev: opts.Dsub > 2D makes the nskip computation convert an infinite double to UINT.
- fnft_nsev, Richardson, discrete part: two bound states with the same partner toggle an entry between residue and a' (C73_both_used); RESIDUES leaves the user's array unfilled if the second approximation finds no bound state (C73_residues, Ks=0); with NEWTON/FAST_EIGENVALUE it overflows the user's array or reads uninitialised memory (C73_residues_overflow, C73_residues_uninitialised); BOTH with a NULL array dereferences NULL (C73_both_null); the norming constants are not extrapolated.
- fnft_kdvv, Richardson: residues alone never work (C74_residues_overflow: 2 values per bound state into the user's array; C74_residues_uninitialised: a' read from memory never written); BOTH with a NULL array dereferences NULL (C74_both_null); after an error in the second call the caller's options record keeps bound_state_localization=NEWTON (and discspec_type=BOTH if residues were requested).
- Newton refinement: `iter++` occurs twice per iteration, so opts.niter iterations are halved; the stop test on |a| uses the scaled value when normalisation is on; a warning flag is set even when an exact zero was found.
- early `return E_DIV_BY_ZERO` in contspec / normconsts leaks the work buffers.
- FULL bounding box uses 2/degree without the upsampling factor (only conservative for 4SPLIT4).
- norming-constant entry stays unwritten when no boundary has all-nonzero components.
- nse_finvscatter: division by T_11[1]=0 unchecked; mode_offset is always 0; 2SPLIT1A/1B/2B/2S unsupported -> E_SUBROUTINE(E_INVALID_ARGUMENT).
- poly_roots_fftgridsearch: at i=1 the skip removes neighbour j=0 instead of the centre; paraherm documentation says odd degree, code requires even.
- poly_specfact: index off by one in the discrete Hilbert transform (zeroes bin M/2-1 and multiplies bin M/2 by +I/M instead of zeroing bin M/2); |P| = 0 takes log 0.
- fnft_kdvv.h documents SUBSAMPLE_AND_REFINE as default localisation, the code uses GRIDSEARCH_AND_REFINE.
- fnft_kdvv: error codes of the Newton refinement are wrapped twice; Richardson extrapolation passes `normconsts_or_residues` instead of the reserve, as in nsev; early returns leak buffers.
- fnft_kdvv grid search: the scaling exponents are combined with a truncating integer division, so that the regula falsi uses weights that are wrong by a factor of up to two (the guess still lies in the bracket); the first grid point is the smallest subnormal number, so that 1/(2i lambda) overflows in floating point and the first bracket is effectively lost; more guesses than `*K_ptr` give an error although the documentation promises a warning and a truncated result.
- fnft_kdvv Newton: iterates that leave the interval are kept (no filtering afterwards); an iterate that is exactly zero gives an error.
- fnft_kdvv: M=1 gives 0/0 in the check of the frequency grid.
- akns_scatter_bound_states: a' is the exact derivative only if no exponent has a determinant of modulus below 1 (Taylor polynomial otherwise, error bounded in C49).
- CF discretizations of the KdV: the resampled signal of a real signal is not real in general (asymmetric frequencies), so that the bound on the eigenvalues claimed in fnft_kdvv.c:530-535 needs real processed samples as an additional hypothesis (C52).
- fnft_kdvv: XI is dereferenced even if no continuous spectrum is requested; default grid_spacing 0 makes the default options fail with E_INVALID_ARGUMENT when bound states are requested.
- manakov: FTES4_4B has a degree and an order but manakov_fscatter and fnft_manakovv reject it; method_order is 0 for BO and CF4_2, so that Richardson extrapolation fails for them.
- manakov preprocessing ignores the return codes of misc_resample: with at most two (sub)samples and an upsampled method it uses uninitialised memory.
- manakov_scatter_matrix divides by sqrt(λ²+κ|q|²): NaN at λ=±|q| in the defocusing case although the limit exists.
- fnft_manakovv compute_contspec: `return E_DIV_BY_ZERO` / `E_NOMEM` leak buffers; `*K_ptr` is not zeroed in the defocusing case or without bound_states; if a continuous spectrum and bound states by subsampling are both requested the first call overwrites *K_ptr and so reduces the capacity that the second call sees.
- fnft_manakovv: bound states are computed from the subsampled signal with the interval of the full signal, so that the step is wrong by the factor (D-1)/((Dsub-1)s) (C58 states the step that is used: `(T1-T0)/(Dsub-1)`).
- fnft_manakovv: if the continuous spectrum is requested too, the bound states are computed twice; the first call (full signal) sets `*K_ptr`, which is then the capacity for the second call (C58_both).
- fnft_manakovv: with Richardson extrapolation and ds type RESIDUES `K_ptr` is dereferenced even if it is NULL, and `XI` is dereferenced even if no continuous spectrum is requested; on errors the options (`loc`, `ds`) are not restored.
- fnft_manakovv: a request for bound states with BO or CF4_2 is only rejected up front if the localisation method is not NEWTON; with NEWTON (which is not implemented) the call always fails later (C58_slow).
- fnft_nsep gridsearch: an uninitialised number is stored in *K_ptr if main_spec is NULL (also with MIXED); the model has a parameter `junk` for it.
- fnft_nsep NEWTON: the box is shifted by -Lam_shift and the results by +Lam_shift, but the initial guesses are not shifted, so that with a phase shift they are read in the wrong frame (C61 states what is computed).
- fnft_nsep: Newton's method that hits a double root exactly (f'=0; e.g. the zero signal) makes the whole call fail with E_DIV_BY_ZERO.
- fnft_nsep: the static default options are changed (automatic box) if the caller passes NULL; on errors the MANUAL box is not restored and the preprocessed signal leaks; the return code of poly_roots_fasteigen for the auxiliary spectrum is ignored; `degree1step == NAN` is never true.
- fnft_nsep MIXED without filter and with the default infinite box: the tolerance is infinite, so no non-real points are found; GRIDSEARCH with an infinite box gets infinite or NaN angles.
- fnft_nsep GRIDSEARCH: for the 4SPLIT methods the map of the box to angles ignores the upsampling factor, so that twice the necessary range is covered.
- ES4/TES4 in fnft_nsep: the finite differences treat the periodic signal as zero outside of the period.
- fnft_nsep: the documented defaults (MIXED, max_evals 20) are not the actual ones (SUBSAMPLE_AND_REFINE, 50).
- fnft_nsep: `return E_ASSERTION_FAILED` in subsample_and_refine would leak memory, but cannot be reached (C62).
- 2SPLIT2_MODAL with kappa=-1 and h|q|>1: the normalisation factor is not real, T22 is not the conjugate of T11, so that the polynomial is not the Floquet discriminant; C62 has the hypothesis that it is.
- 2SPLIT7A/7B: since the weights do not sum to one exactly (error about 1e-16), the methods are not consistent in exact arithmetic; C75 excludes them. 4SPLIT4, CF and ES4 interpolate the samples or use finite differences and are not covered by C75.
- poly_specfact: C66_off_by_one states the effect of the wrong index on a polynomial of degree one.
- fnft_nsev_inverse_XI: for odd M the grid does not consist of M-th roots of unity (C64_odd); XI is overwritten even if the discretization is rejected.
- fnft_nsev_inverse: the caller's array `contspec` is overwritten (phase factors, C65; Blaschke factors, C68).
- fnft_nsev_inverse: the check for multiple bound states compares neighbours after sorting by the imaginary part only, so i, 1+i, i is accepted (C70_multiple_undetected).
- fnft_nsev_inverse: the recursion for multi-solitons can divide by zero for valid data (C67 speaks about runs without division by zero); a norming constant 0 gives 1/0.
- fnft_nsev_inverse, compute_eigenfunctions: uses the identity instead of I+hA if λ²=-|q|² (C68 excludes this).
- fnft_nsev_inverse, AB_FROM_ITER: max_iter=0 uses uninitialised memory, |ρ|>=1 gives square roots of numbers that are not positive in the defocusing case.
- fnft_nsev_inverse, add_discrete_spectrum: the last `return E_INVALID_ARGUMENT` leaks memory and is reached with q already overwritten; an invalid discspec_type is not rejected; with USE_SEED and RESIDUES the a(λ) of the seed is taken to be 1 (C69_seed_residues); with a continuous spectrum a(λ) is computed by BO scattering on [T0-ε/2,T1+ε/2], the eigenfunctions on [T0,T1] with half steps at the ends.
- fnft_nsev_inverse: for B_OF_XI, B_OF_TAU and AB_FROM_ITER the entry T22 of the transfer matrix is the reversed A without conjugation; the inverse scattering does not use it.
- fnft_nsev_inverse: `degree1step == NAN` is never true; the inversion method is not checked for B_OF_XI.
- Resource handling (C82), found while proving it: uninitialised return value of poly_fmult* for n=1; leaks of akns/manakov_discretization_preprocess_signal on errors; untested allocations and unused return codes in manakov_discretization_preprocess_signal (lines 161-166, 202-205); `CHECK_NOMEM(WPHI, ..)` instead of `WPSI` (fnft__akns_scatter.c:499); early returns that leak in fnft_nsev.c (827, 893, 1006, 1011), fnft_kdvv.c (747, 852, 957, 962), fnft_manakovv.c (559, 626), fnft_nsep.c (176, 217, 524), fnft_nsev_inverse.c (905); unused return code in fnft_nsep.c:669; double free in fnft_nsev and fnft_manakovv (subsampling with Richardson extrapolation, second preprocessing fails).
- MATLAB gateways (C84): `mex_fnft_nsev` tests only that `q` is complex and `mex_fnft_kdvv` only that it is not complex, so a single-precision `q` is read as `double`, behind the end of the array.
- Auxiliary spectrum (C85): the discretizations associate a sample with the middle of its interval, while `fnft_nsep` documents the period `[T[0],T[1]]` that starts at the first sample. The main spectrum does not depend on the starting point; the auxiliary spectrum does, and therefore the computed one is only first-order accurate with respect to `T[0]` (second-order with respect to `T[0]-h/2`, where `h` is the step of the subsampled signal). For 2SPLIT2A (the default of `fnft_nsep`), the Ablowitz-Ladik method, and all other splittings all of whose products start with, or all of whose products end with, the exponential of the linear part (1A, 1B, 3A, 3B, 4A, 5A, 5B, 6A, 7A, 7B, 8A, and 4SPLIT4A), the (1,2) entry involves fewer powers of `z` than the diagonal entries, so the product of the first and the last coefficient of its polynomial is zero whatever the signal is: proved as `C85_degenerate` and `C85_degenerate_splittings`. That is, the polynomial has the root 0 or a vanishing leading coefficient; the hypothesis on the coefficients in C85 excludes these methods, while 2S, 2B, 3S, 4B, 6B, 8B remain. In the code a root 0 becomes an infinite `lambda`, which the filter drops, and a vanishing leading coefficient is left to the eigenvalue solver.
- mex_fnft_kdvv: the help text asks for a complex row vector and the error message says "Try passing complex(q)", but complex arrays are rejected.
- mex_fnft_manakovv: the call `contspec = mex_fnft_manakovv(...)` of the help text writes `plhs[1]` although only `plhs[0]` exists; `plhs[2]` is never assigned; the slow discretizations BO, CF4_2 are rejected unless 'skip_bs' is given; 'discr_FTES4_4B' is not documented.
- mex_fnft_nsep: with one or no output `plhs[1]` is written although only `plhs[0]` exists; 'loc_newton' with 0 points per spine divides by zero; `zeros(0,n)` as initial guesses reads from the NULL pointer.
- mex_fnft_nsev_inverse_XI: for `M = 1` the C routine succeeds, but the second output is computed with a division by `M-1 = 0` and is NaN (`C84_inverse_XI_one`). `fnft_version` does not test `suffix` for NULL and returns an error although it has written the other results if the suffix is too long.
- mex_fnft_nsev_inverse: 'discr_modal' and 'oversampling_factor' are not documented. All gateways accept numbers for kappa that are not integers and round them towards zero.

## 5. Axioms

`#print axioms` for every theorem in `MANIFEST.json`: all depend on a subset of
`{propext, Classical.choice, Quot.sound}`; C39_cases depends on none.  Nothing depends on placeholder,
`ofReduceBool` or user axioms.

## 6. Modules added as the model grew

* `src/private/fnft__kdv_discretization.c`, `fnft__kdv_fscatter.c`, `fnft__kdv_scatter.c`: completely (`Model/KdvDisc`, `Model/Kdvv`).
* `src/private/fnft__kdv_finvscatter.c`: completely (`Model/KdvFinv`, an instance of the template in `Model/Finv`).
* `src/fnft_kdvv.c`: everything. `nexttoward` is a parameter (its values next to the
  two ends of the interval are only assumed to be inside, `NextOK`).
* `src/private/fnft__manakov_fscatter.c`: completely; the coefficient tables are translated by tools/gen_manakov.py (`Model/ManTab`), the rest by hand (`Model/ManFscatter`).
* `src/private/fnft__manakov_scatter.c`: completely (`Model/ManScatter`).
* `src/private/fnft__manakov_discretization.c`: completely (`Model/ManDisc`).
* `src/fnft_manakovv.c`: completely (`Model/Manakovv`; `Spec/Manakovv`, `Proofs/ManPre`, `ManCont`, `ManBase`, `ManBound`, `Props/Manakovv`, `ManBound`, `ManRich`).
* `src/fnft_nsep.c`: completely (`Model/Nsep`; `Spec/Nsep`, `Spec/NsepNewton`, `Spec/NsepSub`, `Proofs/Nsep*`, `Props/Nsep*`).
* `src/private/fnft__poly_specfact.c`: completely (`Model/Specfact`; `Spec/Specfact`, `Proofs/Specfact*`, `Props/Specfact`).
* `src/fnft_nsev_inverse.c`: completely (`Model/NsevInv`; `Spec/ZS`, `Spec/Finv`, `Proofs/Inv*`, `Proofs/Darboux*`, `Props/NsevInv*`). For residues together with a
  continuous spectrum, C69 describes which norming constants are used: the conversion uses the coefficient `a` of the signal with full cells, the eigenvalues are added to the signal
  with half cells at both ends, so the residues of the result are in general not exactly the given ones.
* `matlab/mex_fnft_nsev.c`, `mex_fnft_kdvv.c`, `mex_fnft_manakovv.c`, `mex_fnft_nsep.c`, `mex_fnft_nsev_inverse.c`, `mex_fnft_nsev_inverse_XI.c`, `mex_fnft_version.c` and `src/fnft_version.c`: completely except for the texts of
  messages (`Model/Mex`, `Model/MexXi`; `Spec/Mex`, `Proofs/Mex*`, `Props/Mex*`). MATLAB's arrays are modelled as buffers with a class, a size and a text.
* Memory and error paths of the routines above: `Model/Res`, `Spec/Res`, `Proofs/Res`, `Proofs/ResCert`, `Props/Res`.
