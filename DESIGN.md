# Formal model of JCGoran/coffe in Lean 4 — design

## What this is

COFFE computes galaxy two-point functions (full-sky and flat-sky correlation
function, multipoles, redshift-averaged multipoles, covariances).  It consists
of a C core (`src/*.c`), a command line driver (`src/main.c`, `src/parser.c`,
`src/output.c`) and a Cython API (`python/coffe/coffe.pyx`).

This directory contains a Lean 4 model of that code (`lean/Verif/Model/*`), small
independent specifications (`lean/Verif/Spec/*`), helper lemmas
(`lean/Verif/Proofs/*`) and the property theorems (`lean/Verif/Props/*`).
Every definition in `Model` cites the file and lines in `/repo` it models.

## Modelling choices

* **Numbers.** C `double`s are modelled by exact reals ℝ (or an arbitrary
  ordered field).  Rounding and overflow are *not* modelled; NaN and infinities only as arguments of the scalar settings (C82).
  Integer indices are `Nat`/`Int` without wrap-around, except where
  the property is about wrap-around (FFT input length).
* **Splines / external numerics** (GSL interpolation, GSL/Cuba integration,
  FFTW, CLASS, Wigner 3j) are parameters of the model: arbitrary functions.  A theorem that quantifies over them holds whatever they compute.  Where a theorem needs a law of an
  external (e.g. integral additivity) it is an explicit hypothesis.
* **Undefined behaviour** (null dereference, out-of-bounds access, use of an
  uninitialised value, double free, a division by zero or another operation that
  would give NaN) and `exit()` are distinct outcomes (`CRes`, `CErr` in
  `Model/C/Mem.lean`; `Err.crash`, `Err.abort` for the Python object).
* **State.** The Python object is a record of parameters plus eight caches
  (background, power spectrum, integrals, corrfunc, multipoles, average
  multipoles, covariance, average covariance); each method is a step function.
* **Preprocessor.** The build is C99 (`CMakeLists.txt`: `LANGUAGES C`); the
  `__cplusplus`, `HAVE_ARB`, `HAVE_INTEGRALS`, `HAVE_NONLINEAR` branches are not
  built and not modelled unless stated.  `HAVE_CLASS` is modelled as a Boolean
  where the signal formulas branch on it.

## Plan per property

| id | modelled | proof |
|----|----------|-------|
| C01 | Python object as state machine (parameters, 8 caches, stage functions abstract) | invariant: result of a recomputing call depends only on parameters; induction over op lists |
| C02 | same; per-setter invalidation table | negations with concrete histories for the faulty setters; `_partial` for histories using sound setters |
| C03,C04 | Omega setters over ℝ | invariant by induction; negation for `omega_cdm` with massive neutrinos / negative cdm |
| C05 | `_check_parameter` + scalar setters | case analysis over ℝ |
| C06 | `set_parameters` as fold of partial setters | negation + partial (unknown keys are atomic) |
| C07 | `parameters` getter as fold of self-assignments | negation + partial (parameter values preserved) |
| C08–C10 | the signal integrands, term by term, splines arbitrary | exchange of labels, `ring` per term; negation for the faulty ones |
| C11,C12 | same | structural |
| C13 | geometry | `field_simp`, `nlinarith` |
| C14 | same formulas, mu=±1 | `field_simp; ring` |
| C15 | flat-sky formulas + Legendre polynomials; ∫ over [-1,1] | Mathlib interval integrals, orthogonality |
| C16 | flat-sky formulas | `HasDerivAt` |
| C17 | formulas | negation for d1-d2.., g5-len; partial for the rest |
| C18 | formulas | identity / negation |
| C19 | `coffe_integrate` dispatcher | case analysis |
| C20 | list of (n,l) created vs. looked up | membership, all flags |
| C21,C24 | nested counter loops | induction, index bijection |
| C22 | every `omp parallel for` loop that is reached: threads with their iterations, any interleaving of the accesses to shared arrays | a run is determined by the runs of its iterations when no iteration writes what another touches (Proofs/ParallelLoops) |
| C23,C25,C26 | covariance sums | algebra over arbitrary sums, index arithmetic |
| C48 | accelerator state carried along a sequence of look-ups | invariant by induction |
| C27 | `coffe_approx_equal`, `covariance_find` | reals; negations at 0 / asymmetry |
| C28 | `coffe_legendre_integral` with 3j squares as parameters | selection rule, symmetry; product expansion as hypothesis |
| C29 | `coffe_generate_range` | ordered field |
| C30,C31 | text readers / writers over `List Char` / rows | induction, negations |
| C32 | init/free state machines with a heap | invariant over histories |
| C33 | list setters, the C arrays behind them in a memory with contents, arbitrary allocator | refinement to list; invariant: different blocks, filled |
| C34,C35 | background formulas | algebra, `HasDerivAt` |
| C36 | tanh-sinh loop with arbitrary tables | induction over levels |
| C37,C38 | window, fft input indices, bias choice | reals, `omega` |
| C39–C41,C43 | parser / main / output decision logic | case analysis, induction |
| C42 | integral table | list lemmas |
| C44 | maximum separation with concave distance | ordered field |
| C45 | extrapolation loops | induction |
| C46 | array helpers | induction |
| C47 | setters as functions on a record | case analysis over all pairs of names |
| C49 | distance tables and their inverse look-up | strict monotonicity of an integral, interpolation at nodes |
| C50 | background stage as a function of the table size | success for five and more; negations below |
| C51,C53 | FFTLog grids and table assembly, FFT arbitrary | cell-by-cell loop invariants; ordered field |
| C52 | coefficients of the zero-separation limit | induction over the order |
| C54 | same heap as C32 | invariant over histories: owned blocks = live blocks |
| C55 | Akima formulas of GSL behind the bias functions | algebra at the nodes, gluing of continuity |
| C56 | settings parser | field by field, inversion of the parser monad |
| C57,C58 | signal with all tables scaled | homogeneity, term by term |
| C59 | weights and ranges of the redshift average | change of variables, negation for normalisation |
| C60 | two-dimensional FFTLog, loop by loop | region invariants; negations for the other sizes |
| C61 | covariance with one spectrum per redshift | independence of the other spectra |
| C62 | analytic Bessel integrals | fundamental theorem of calculus for each multipole |
| C63 | the renormalisation integrands, the stored tables | power series of the Bessel functions, integrals of continuous functions |
| C64 | the FFTLog cell by cell, the redshift tables | homogeneity of each step; witness for the flat-sky entry |
| C65 | the redshift grid of the tables, the setters | arithmetic; witness by setters |
| C66 | plane waves, their responses and the mean over directions (Spec/Ensemble, Spec/Effects); all terms of the signal | angular moments by integration by parts give Bessel functions; each coefficient by field arithmetic in the sides of the triangle |
| C67 | `from_file` with all groups of options (Model/Python/File) | the stages are loops over independent assignments (C47); induction over each loop gives the last assignment to each parameter |
| C68 | `coffe_covariance_init` (Model/C/Covariance) against Gaussian fields in a periodic box (Spec/GaussianCovariance) | fourth moments by Wick's theorem; products of Kaiser factors expanded in Legendre polynomials (C28); factorisation of the integral over wave vectors |
| C69 | `coffe_integrate` for multipoles (Model/Signal/Dispatch) | the integrands are symmetric (C08, C09, C10), the Legendre polynomials have parity `(-1)^l`, the quadrature is invariant under reflection of the angle and exchange of the two lines of sight |
| C70 | all computing methods (Model/Python/Compute) | a relation between the object before and after that is reflexive, transitive and holds for every stage (Proofs/PyMoves) |
| C71 | `set_power_spectrum_linear`, the setters, the computing methods (Model/Python) | the relation 'spectrum and range stay' holds for every such call (Proofs/PyMoves), induction over the history |
| C72 | all methods of the object (Model/Python) | a Hoare logic for methods that leave the process alive (Proofs/PyNoKill), the invariant 'linear type, no spectrum, or CLASS has run', induction over the history |
| C73 | coffe_integrate with the flat-sky multipole functions, the values of the tables (IntegralValues) | Legendre moments of J0(x sqrt(1-mu^2)) and |mu| J0 from the power series (Proofs/FlatBessel: Sonine's integral, the moments of Legendre polynomials), exchange of the two integrals (Proofs/FlatMultipoles), splitting off the flat-sky terms |
| C74 | all look-ups of functions_nonintegrated, functions_single_integrated, functions_double_integrated and the flat-sky multipoles; average_z | congruence of each of the 55 terms for two universes that agree up to the farther point (Proofs/Inside); convexity of the squared distance between points on the two lines of sight bounds the separations looked up; monotonicity of the distance for the redshift average |
| C75 | coffe_parser_init (Model/C/Parser) and from_file (Model/Python/File) on two views of one file (Spec/FrontEnds) | C39_faithful and C67_partial describe both results in terms of the file; option by option they say the same; the shipped settings.cfg is accepted by both (C39_accepts_class, C67_accepts) |
| C76 | compute_output and np.savetxt (Model/Python/CommandLine) on the object model; the reader of numbers is atof of Model/C/Text | the results are never empty after loading a file (C67_partial: no list of coordinates is), so the number of formats fits; columns by a table of records with names; rounding by the lemmas of C30 |
| C77 | all terms of the signal, the rows of the background, the values of the integral tables, the covariance with its FFTLog; units in Spec/Units, Spec/UnitsCovariance | every local variable is a power of the unit times its old value; each term by field arithmetic, branch by branch; tables by substitution in the integral |
| C78 | coffe_integrals_init:857-878 with its array accesses (Model/C/RenormReach), the double and single integrated terms, the quadrature; agreement of tables below a distance in Spec/TableReach | every look-up of the renormalisation in each term is at most the end of the line of sight, which is bounded through monotone distance; loop invariant for the maximum; witnesses with two tables that differ only beyond |
| C79 | growth_rate_ode and the tables of dark energy (Model/C/Background); the growth equation in Spec/Growth | derivative of the expansion rate by the chain rule, field arithmetic; substitution a = 1/(1+z) in the integral of the ratio |
| C80 | g_l, lngamma_lanczos (Model/C/Twobessel), twofast_mql, twofast_lgamma (Model/C/Twofast); the damped Mellin transform of the spherical Bessel function in Spec/Mellin | Mellin transform of the damped function by Gamma integrals of exponentials, limit of the damping, Bessel recurrence against the recurrence of the Gamma quotient, induction on the order |
| C81 | the five classes, to_dict, attribute look-up and assignment (Model/Python/Representation) | Forall₂ of the constructor loop, permutation and order of the filtered names, induction over the assignments |
| C82 | the scalar setters once more over reals with infinities and NaN (Model/Python/NotANumber) | refinement between the two models, case analysis on the special values, induction over the assignments |
| C83 | the computation of the covariance as for C24; spec of positive (semi-)definite matrices | the matrix as an integral of squares over wave numbers and angles (Legendre expansion of the coefficients of C68, orthogonality of the parities), plus the diagonal shot noise |
| C84 | which spectrum the covariance reads (Model/C/CovSpectrum), the object model and the computation of the covariance as for C24; spec of a covariance stage computing with the settings of the object | evaluation of the bulk method on a new object, position of a row in the five nested loops, C24_rows_partial; for the counterexample one cosmic-variance cell evaluated with both spectra |
| C85 | the splines made of the tables of C34 (Model/C/BackgroundSplines) and the object model; spec of a background stage computing with the settings of the object | C34_success, C34_rows and C34_growth for the table, increasing abscissae (C49) for the interpolation, evaluation of the getters on a new object |
| C86 | the text handed to CLASS (Model/C/ClassInput) and the setters; spec of the names CLASS uses | look-up in the list, error of a printed number that is read back (C30), evaluation of the setters |

Anything below this table that is refined while the model grows is recorded in
the section "Status and findings".

## Status and findings

`MANIFEST.json` lists, per property, the theorems and what is missing.  Theorem
names: `C12_…` proves the property, `C12_…_partial` a part of it (its comment says
what is missing), `C12_…_false` is the negation, for a concrete input that the code
accepts.  The disagreements between the code and the listed properties that are
proved in `Props/`:

*Python object*
* C02: `sep`, biases, uploaded spectra and `z_mean` do not clear everything that was computed from them (stale results).
* C03/C04: assigning `omega_cdm` with massive neutrinos, or `h` with massive neutrinos, breaks the matter budget; cold dark
  matter and baryons can become negative.
* C05: `m_ncdm` with `h == 0` stores and then raises; `integrals_fftlog_sampling` cannot be set at all; fractions given to
  `l_max_g`, `l_max_ur` are truncated.
* C06: `set_parameters` is not atomic.  C07: reading `parameters` clears all results, loses an uploaded spectrum, may raise.
* C19: with a flat-sky flag the correlation function drops terms, since the stored output kind stays MULTIPOLES.
* C20: `integral()` before the first computation, `compute_multipole` for a multipole that is not listed and changing `l` with a
  flat-sky flag look up integrals that were never computed.
* C43: settings written to a file do not reproduce the object (lost options, resampled biases, order of sets, empty lists).
* C67: seven options of a settings file are ignored under their own names (`has_g2`, `has_only_cross_correlations`, `omega_cdm`, …:
  coffe.pyx:664-715), `integrals_fftlog_sampling` makes a file unreadable, and `galaxy_bias1 = 2` is ignored unless
  `input_galaxy_bias1` is also given (coffe.pyx:750-755).
* C44: the maximum separation is not safe for phantom dark energy, and the bin is not compared with the end of the table.
* C50: `background_sampling` accepts 0 to 4, which end the interpreter.  C53: accepted separations can be outside the tables.
* C55: fewer than five samples, or a repeated redshift, end the interpreter.
* C70: a CLASS run overwrites the user's k_min and k_max (src/parser.c:608-615); setting another cosmology afterwards keeps the narrowed range.
* C71: an uploaded spectrum is silently replaced by that of CLASS when an effect such as has_d1 is switched on or off, and with recompute=True.
* C72: four ways to end the interpreter without an exception: computing with an uploaded spectrum and a non-linear spectrum type on a new object (null pointer), redshift-averaged multipoles with fewer z_max than z_min, their covariance with fewer z_mean than bins and a non-linear type, and splines with fewer than five samples.
* C75: the shipped settings.cfg means different things to the two front ends: 10 separations for the C program and 100 for Python, which does not know `separations_min`, `separations_max`, `separations_sampling`; `z_min = 0.9` (no brackets) is no redshift bin for the C program and one for Python; `covariance_density`, `covariance_fsky`, `covariance_zmin`, … are ignored by the C program (which reads `density1`, `fsky`, `zmin`), while Python ignores `density1`, `density2`, `zmin`, `zmax`, `covariance_integration_bins`, `k_pivot`, `input_power_spectrum`, `have_class`, `have_window` and the derivative switches.
* C76: `np.savetxt` raises (`fmt has wrong shape`) and leaves an empty file when there are no results; proved unreachable from the command line, because no text of an option is read as an empty list.
* C81: assigning to the underscored attributes of a result changes it; the HTML table of a result has no row around its cells (`<tbody><td>`).
* C82: NaN passes every range check of the scalar settings (`value < xmin` and `value > xmax` are both false) and is stored. A NaN density makes the others NaN, and with NaN radiation the check of the energy budget accepts any amount of matter. If `h` was NaN while the neutrino mass was set, the neutrino density stays NaN after `h` is repaired, also when the same mass is assigned again. The lists (separations, redshifts, ...) refuse NaN, because their tests are written the other way round.
* C86: once `A_s` is assigned, `sigma8` is ignored without a message, and an `A_s` of at most 1e-10 is ignored as well; `k_max`, documented in 1/Mpc, is given to CLASS in h/Mpc, so the spectrum ends at `h * k_max`; for the linear spectrum types the entry `non linear` is passed with a name but a value that is never written; numbers are passed with seven digits.

*Signal and covariance*
* C09: Doppler-lensing and, with CLASS, density-lensing are not symmetric under exchange of the populations.
* C16: derivative switches are ignored for a non-linear spectrum in the midpoint approximation.
* C17: d1 with the potential terms and g5 with lensing keep a term when the amplitude is zero.
* C18, C57: a constant 4 is added to the lensing-lensing integrand at coincident points; jumps at `|mu| = 0.999` and for
  non-linear spectra.
* C24, C26: repeated separations; reads out of bounds of the redshift averaged covariance.
* C59: the weights of the redshift average do not add up to one.
* C23, C60, C61, C62: the FFTLog covariance is not symmetric in the two separations of one multipole (`c_window_2d` puts the zero
  of its window at row `N/2 + 1`, which is frequency `-(N/2 - 1)`, not `-N/2`); an odd number of sampling points ends the process
  with exit status 0, 2 to 6 give NaN; it ignores non-linear spectra and pixel averaging.  Standard integration uses the first
  pixel size for all redshifts of a linear spectrum, and gives zero for binned multipoles above 6.
* C68: the covariance of two odd multipoles has the terms with exchanged tracers with the sign `+` instead of `(-1)^l` (both in the
  cosmic variance and in the mixed part, src/covariance.c:878-945; the Poisson part has the sign): the cosmic variance of the dipole
  of two populations, which is zero, comes out positive.  The number densities belong to the first and second tracer of the
  correlation, not to the first and second population: with the default populations (1, 1, 1, 1) the result depends on
  `number_density2`.
* C69: the dipole of a single population does not vanish for Doppler and lensing when the magnification bias depends on redshift.
* C73: with a spectrum from CLASS and the midpoint approximation, the flat-sky density-lensing multipoles are sqrt(2/pi) 2 pi^2 (about 15.7) times the Legendre coefficients of the flat-sky correlation function, because the two-dimensional table of the latter is never rescaled (C64); the flat-sky lensing-lensing correlation function uses the linear table even when the multipoles use the spectra of CLASS.
* C74: settings that the setters accept make the library look beyond its tables: a separation larger than twice the distance puts a point behind the observer (negative distance), a mean redshift close to 10 puts the farther point beyond the default biases (tabulated on [0, 10]), and a large separation at high redshift puts it beyond the background tables (redshift 15). GSL then returns NaN or stops the program, and `functions.c` ends the process when the result is not finite.
* C77: the integrand of lensing with the fifth potential term subtracts one from the conformal Hubble rate, an inverse length, and the lensing integrand at coincident points adds the number 4 to an area: both depend on the unit of length. All other 53 full-sky terms and both flat-sky multipole formulas are pure numbers.
* C83: no new defect. The wrong treatment of odd multipoles (C68) changes their variances but keeps the matrix positive semi-definite.
* C84: `have_class` stays 0 in Python (only the settings file of the C program sets it), so with a spectrum type other than `linear` the covariance is computed from the linear spectrum at redshift zero, in all bins, without the growth factor.

*Background and integrals*
* C34: neutrinos are left out of the expansion rate.  C35: two entries of the Jacobian are wrong (unused by the stepper).
* C37: the window is not a number at its two outer edges.
* C63: the renormalised potential at coincident points is too large by the fourth power of the distance.
* C64: with a spectrum from CLASS the flat-sky density-lensing integral lacks a factor of about 15.7.
* C65: redshift dependent tables end at 2.97; larger redshifts are accepted and end the process.
* C66: of the 55 full-sky terms, 42 are the two-point functions of the effects (derived from plane waves); Doppler-Doppler has the
  wrong sign in one part (src/functions.c:364-573), Doppler with d2, g1, g2, g3, g4, g5 lacks the amplitude G (1220-1266,
  3221-3257), g1-, g2-, g3-lensing lack the scale factor (3033-3121), density-g5 multiplies by the scale factor instead of
  dividing (3143-3163), the second half of Doppler-lensing uses the amplitude and the bias of the other population (2485-2999),
  g5-lensing has the conformal Hubble rate where the growth rate belongs (3920-3965).
* C78: separations larger than the bin are accepted, and so are, in the Python package, averaged multipoles beyond the widest
  bin around a mean redshift (its table is always made for the mean redshifts): the potential terms then look up the
  renormalisation beyond its table. In the loops of the C library GSL's error handler is off and the value is a NaN; the
  functions for single points run with GSL's default handler, which aborts.
* C79: the growth equation leaves out radiation, although the expansion rate has it: dark energy is taken to be 1 - Ωm.
* C85: no new defect; every setting reaches the background stage.

*C helpers, files, memory*
* C27: `coffe_approx_equal(0, 0)` with zero absolute tolerance is false; not symmetric.
* C30, C31: lines without a newline, missing columns, long comments; `write_ncol` and `write_matrix` index errors.
* C32, C54: double free of `zmin`; leaks in setters, fits, a second CLASS run.
* C39, C40, C41: the settings parser accepts files that break later stages; averaged multipoles are never written; result files
  are extended by a second run; unchecked `fopen`; an empty output path reads before a string; an unknown background column
  hides the later ones; Python and C disagree on a contribution list without density. The covariance of averaged multipoles
  ignores `separations_min`, `separations_max` and `separations_sampling`: it always has the 100 default separations 5, 8, .., 302
  (C39_separations_false).

## What is modelled

| file | modelled | not modelled |
|------|----------|--------------|
| src/functions.c | all three integrands, every term | – |
| src/signal.c | dispatch, flat-sky parts, all output kinds | the error estimates of the integrators |
| src/corrfunc.c, multipoles.c, average_multipoles.c | grids, loops, parallel stores | – |
| src/covariance.c | formulas, analytic Bessel integrals, integrands, FFTLog, loops, look-ups, array bounds, output rows | temporaries on the heap |
| src/background.c | tables, growth equation, Jacobian, look-ups | the ODE stepper (parameter), `coffe_fit_polynomial` |
| src/integrals.c | which integrals, keys, look-up, all integrands, table assembly, the values of every table | CLASS's spectra (parameters) |
| src/twofast.c, utils.c | grids, bias, window, the whole one-dimensional transform (over any kernel), its kernel `twofast_mql` with `twofast_lgamma`, limits, padding, matrix output | `twofast_gamma`, `twofast_mql1l2`, `twofast_2bessel` (not called) |
| src/twobessel.c, the part of utils.c it calls | `two_sph_bessel`, `g_l`, `lngamma_lanczos`, `c_window_2d`, as called by `covariance_integrate_fftlog` | the `_binave` variants (not called) |
| src/tanhsinh.c | loop, tables | rounding, the infinite ranges |
| src/common.c | ranges, comparisons, Legendre integrals, readers, writers, array helpers, list and spline handling, free functions | `print_parameters`, error text |
| src/parser.c | `coffe_parser_init`, defaults, biases, spectrum from a file, the text given to CLASS | libconfig's grammar, the run of CLASS |
| src/output.c, main.c | options, sequence of stages, every file that is written | messages on the terminal, timing |
| python/coffe/coffe.pyx | every setter and getter, bulk and single-point methods, caches, `parameters`, `set_parameters`, `from_file`, `to_file`, biases, uploads, `maximum_separation`, `integral`, the look-ups | plotting-free representation code (`__str__`, `_repr_html_`-like methods), warnings |
| python/coffe/representation.py | the five result classes, `to_dict` | `__repr__`, `__str__`, `_repr_html_` |

## Trusted base

* Lean 4.33.0's kernel, and the definitions of Mathlib that occur in statements (reals, integrals, derivatives, lists).
* Axioms: `#print axioms` gives `propext`, `Classical.choice`, `Quot.sound` for every theorem in `MANIFEST.json` (one needs only
  `propext`, `Quot.sound`).  There are no axioms of our own, no `sorry`, no `native_decide`, no `bv_decide`.
* The reading of `/repo`: the model was written by hand from the text.
* Numbers are exact.  Text input and output of numbers: `%.10e` and `strtod` are modelled with an arbitrary rounding of the
  printed decimal digits; C `int` does not overflow.
* External code, as parameters without laws: CLASS, FFTW, Cuba, the growth equation's solver, GSL's fits.  As parameters with the
  law named in the theorem: quadrature (exact on continuous functions, linear, or homogeneous), interpolation (passes through its
  points).  The two-dimensional FFTs are their defining sums.  Transcribed from their documentation: GSL's accelerator and binary search, Akima
  and linear splines, Wigner 3j symbols (closed form), libconfig's typed look-up, `getopt`, `fopen`, `mkdir`, `strtok`.
* Blocks that GSL and CLASS allocate for one object count as one block of the heap.
* Cython 2.9x conversions (`cython<3` is pinned) from Python numbers to C numbers.
