{"id": "C01", "title": "recompute=True is history independent", "statement": "compute_corrfunc_bulk / compute_multipoles_bulk / compute_average_multipoles_bulk / compute_covariance_bulk / compute_average_covariance_bulk called with recompute=True return exactly what a newly built Coffe object carrying the same parameters would return.", "quantifier": "every finite history of setter calls, bias setters, power-spectrum uploads, integral() calls and earlier computations, and every output kind", "why_tests_cant": "The history space (about 70 setters interleaved with 12 compute calls, any length) is infinite; tests try a handful of orders.", "anchors": ["python/coffe/coffe.pyx:compute_corrfunc_bulk", "python/coffe/coffe.pyx:compute_multipoles_bulk", "python/coffe/coffe.pyx:compute_average_multipoles_bulk", "python/coffe/coffe.pyx:compute_covariance_bulk", "python/coffe/coffe.pyx:compute_average_covariance_bulk", "python/coffe/coffe.pyx:_free_except_parameters"]}
{"id": "C02", "title": "Cached results are never stale", "statement": "A compute_*_bulk() call with the default recompute=False returns what a freshly built object with the current parameters would return; in particular a setter that changes an input of a cached quantity invalidates that quantity.", "quantifier": "every finite history of setter and compute calls, each of the eight cached stages", "why_tests_cant": "Staleness needs one particular setter between two particular computations; pairs and longer chains cannot be enumerated by tests.", "anchors": ["python/coffe/coffe.pyx:sep", "python/coffe/coffe.pyx:l", "python/coffe/coffe.pyx:set_galaxy_bias1", "python/coffe/coffe.pyx:set_magnification_bias1", "python/coffe/coffe.pyx:z_min", "python/coffe/coffe.pyx:deltaz", "python/coffe/coffe.pyx:set_power_spectrum_linear", "python/coffe/coffe.pyx:_free_corrfunc", "python/coffe/coffe.pyx:_free_multipoles"]}
{"id": "C03", "title": "Density parameters stay closed", "statement": "After any sequence of accepted cosmology assignments omega_de = 1 - omega_m - omega_gamma and omega_m = omega_cdm + omega_baryon + omega_nu(m_ncdm, h).", "quantifier": "every history of assignments to omega_cdm, omega_m, omega_baryon, omega_gamma, h, m_ncdm starting from a new object, all real values", "why_tests_cant": "The identities are invariants over unbounded assignment orders; only special orders break them.", "anchors": ["python/coffe/coffe.pyx:_balance_content", "python/coffe/coffe.pyx:omega_cdm", "python/coffe/coffe.pyx:omega_m", "python/coffe/coffe.pyx:omega_baryon", "python/coffe/coffe.pyx:m_ncdm", "python/coffe/coffe.pyx:h"]}
{"id": "C04", "title": "Density parameters stay physical", "statement": "After any sequence of accepted cosmology assignments all of omega_cdm, omega_baryon, omega_gamma, omega_m, omega_de lie in [0,1].", "quantifier": "every history of accepted assignments to the density parameters and m_ncdm, all real values", "why_tests_cant": "Requires an invariant over all orders of assignments; each setter alone looks safe.", "anchors": ["python/coffe/coffe.pyx:_check_omegas", "python/coffe/coffe.pyx:omega_baryon", "python/coffe/coffe.pyx:omega_cdm", "python/coffe/coffe.pyx:m_ncdm"]}
{"id": "C05", "title": "Rejected assignments change nothing; accepted ones are readable", "statement": "A scalar setter either raises and leaves the whole object unchanged, or afterwards the getter returns the assigned value (cosmology setters: up to the numpy.allclose tolerance 1e-8+1e-5*|old|) and that value satisfies the documented range.", "quantifier": "every object state and every real argument, for each validated scalar parameter", "why_tests_cant": "Ranges and tolerance are over the reals; boundary and near-equal arguments are a continuum.", "anchors": ["python/coffe/coffe.pyx:_check_parameter", "python/coffe/coffe.pyx:omega_m", "python/coffe/coffe.pyx:h", "python/coffe/coffe.pyx:k_min", "python/coffe/coffe.pyx:fsky"]}
{"id": "C06", "title": "Bulk parameter update is all-or-nothing", "statement": "set_parameters(dict) either applies every entry or raises and leaves the object as it was.", "quantifier": "every state, every dictionary (any mix of valid, invalid and unknown keys, in any order)", "why_tests_cant": "Depends on the position of the first invalid value in an arbitrary-length mapping.", "anchors": ["python/coffe/coffe.pyx:set_parameters"]}
{"id": "C07", "title": "Inspecting parameters is side-effect free", "statement": "Reading the `parameters` property leaves parameters, the uploaded power spectrum and all cached results unchanged.", "quantifier": "every reachable object state", "why_tests_cant": "Needs comparison of full hidden state for all histories; tests only look at the returned dict.", "anchors": ["python/coffe/coffe.pyx:parameters", "python/coffe/coffe.pyx:to_file"]}
{"id": "C08", "title": "Population-exchange symmetry of the local signal", "statement": "Exchanging the two galaxy populations and flipping mu leaves the non-integrated (density, RSD, Doppler, local potential) correlation function unchanged: xi(r, mu, z; 1,2) = xi(r, -mu, z; 2,1).", "quantifier": "all background functions, bias functions, Fourier-Bessel integrals, contribution sets, flat-sky/full-sky modes, real r, mu, z", "why_tests_cant": "Equality of two ~1400-line real-valued formulas for every real input and every spline; sampling cannot exclude a compensating or rarely active term.", "anchors": ["src/functions.c:functions_nonintegrated"]}
{"id": "C09", "title": "Population-exchange symmetry of the local x integrated signal", "statement": "The same exchange symmetry holds for every term with exactly one line-of-sight integral (lensing, time delay, integrated Sachs-Wolfe crossed with local terms).", "quantifier": "all splines, contribution sets, quadrature points, real r, mu, z", "why_tests_cant": "See C08; the mirrored halves are hand-duplicated in the code and differ only in subscripts.", "anchors": ["src/functions.c:functions_single_integrated"]}
{"id": "C10", "title": "Population-exchange symmetry of the doubly integrated signal", "statement": "The same exchange symmetry holds for lensing-lensing, time-delay and ISW correlations (with the two line-of-sight integration variables exchanged).", "quantifier": "all splines, contribution sets, pairs of quadrature points, real r, mu, z", "why_tests_cant": "See C08.", "anchors": ["src/functions.c:functions_double_integrated"]}
{"id": "C11", "title": "Contributions add up", "statement": "The signal for a set of contributions is the sum over unordered pairs of that set, so the signal is the same however contributions are grouped, and has_only_cross_correlations removes exactly the auto terms.", "quantifier": "all 2^10 contribution sets, all splines and coordinates", "why_tests_cant": "Inclusion-exclusion over all subsets and all real inputs.", "anchors": ["src/functions.c:functions_nonintegrated", "src/functions.c:functions_single_integrated", "src/functions.c:functions_double_integrated"]}
{"id": "C12", "title": "No contributions, no signal", "statement": "With every contribution switched off, corrfunc, multipoles and average multipoles are exactly zero at every coordinate.", "quantifier": "all backgrounds, flags, coordinates, output kinds", "why_tests_cant": "Universal over flags and coordinates.", "anchors": ["src/functions.c", "src/signal.c:coffe_integrate"]}
{"id": "C13", "title": "Consistent observer-pair geometry", "statement": "For a pair at separation r, angle mu around redshift z, the line-of-sight distances chi1, chi2 and angle theta the code uses satisfy the law of cosines r^2 = chi1^2 + chi2^2 - 2 chi1 chi2 cos(theta), chi2 - chi1 = r*mu, and |cos theta| <= 1 whenever |mu| <= 1 and r|mu| < 2 chi and r <= 2 chi.", "quantifier": "all real chi, r, mu in the stated domain", "why_tests_cant": "Continuum of coordinates including grazing configurations.", "anchors": ["src/functions.c:functions_nonintegrated", "src/functions.c:functions_single_integrated", "src/functions.c:functions_double_integrated"]}
{"id": "C14", "title": "Full sky reduces to flat sky along the line of sight", "statement": "When the two galaxies lie on the same line of sight (mu = +-1) and background/bias quantities do not evolve between them, the full-sky density, RSD, and Doppler terms (autos and crosses) equal the flat-sky ones.", "quantifier": "all splines constant between the two positions, all r, chi with r < 2 chi, mu = +-1", "why_tests_cant": "Symbolic identity between independently coded formulas.", "anchors": ["src/functions.c:functions_nonintegrated"]}
{"id": "C15", "title": "Flat-sky density+RSD multipoles are Kaiser's", "statement": "In flat sky with density and RSD only, the Legendre multipoles of the correlation function are (b1 b2 + (b1+b2) f/3 + f^2/5) I00, -(2(b1+b2) f/3 + 4 f^2/7) I02, 8 f^2/35 I04 times D1^2 for l = 0,2,4 and zero for every other l, and these agree with the prefactors used in the covariance.", "quantifier": "all biases, growth rates, integrals, and all multipoles l", "why_tests_cant": "Holds for all l and real parameters; numerical quadrature can only sample.", "anchors": ["src/functions.c:functions_nonintegrated", "src/covariance.c:covariance_coefficient", "src/signal.c:multipoles_nonintegrated_integrand"]}
{"id": "C16", "title": "Derivative modes return derivatives", "statement": "In flat-sky density+RSD mode the b / f derivative switches return the exact partial derivative of the signal with respect to b (both populations sharing one bias) / f, and the tilde switches with respect to b*D1 / f*D1.", "quantifier": "all b, f, D1, integrals, mu, r", "why_tests_cant": "Derivative identities for all reals, not finite differences at points.", "anchors": ["src/functions.c:functions_nonintegrated"]}
{"id": "C17", "title": "An effect with zero amplitude contributes nothing", "statement": "If a relativistic effect's physical amplitude is identically zero (Doppler factor G = 0, magnification 5s-2 = 0, growth f = 1 for the ISW effects), switching that contribution on does not change the signal.", "quantifier": "all contribution sets and splines with the given amplitude identically zero", "why_tests_cant": "Needs every cross term with every other contribution, for all inputs.", "anchors": ["src/functions.c"]}
{"id": "C18", "title": "Special-case branches agree with the general formula", "statement": "The branches taken for coincident points or near-radial directions (r = 0, |mu| >= 0.999) give the limit / the same value as the general formula they replace.", "quantifier": "all splines and all coordinates on the branch boundary", "why_tests_cant": "The branch boundary has measure zero; random tests never land on it.", "anchors": ["src/functions.c:functions_single_integrated", "src/functions.c:functions_double_integrated"]}
{"id": "C19", "title": "No active contribution is dropped by the integration dispatcher", "statement": "For every output kind and every set of contributions, each pair of active effects is included exactly once in the sum of the non-, singly- and doubly-integrated parts: whenever a part is skipped its integrand is identically zero, and no term is counted twice.", "quantifier": "all contribution sets, flat-sky flags, output kinds, multipoles", "why_tests_cant": "2^10 contribution sets x 2^4 flags x outputs x all l, each with a real-valued integrand.", "anchors": ["src/signal.c:coffe_integrate", "src/functions.c"]}
{"id": "C20", "title": "Every Fourier-Bessel integral that is used has been computed", "statement": "Whenever a signal is evaluated, each integral it looks up was created by the integral stage run for the same settings; no lookup fails (a failed lookup is a null-pointer dereference).", "quantifier": "all contribution sets, flat-sky flags, multipole lists, output kinds; Python: all call histories", "why_tests_cant": "A missing entry crashes only for the specific flag combination using it.", "anchors": ["src/integrals.c:coffe_integrals_init", "src/integrals.c:coffe_find_integral", "src/functions.c", "python/coffe/coffe.pyx:integral"]}
{"id": "C21", "title": "Output grid is complete and duplicate free", "statement": "Corrfunc, multipoles and average multipoles results contain each combination of requested redshift, angle/multipole and separation exactly once, in (z, mu|l, r) lexicographic order, and the value stored with a coordinate is the signal at that coordinate.", "quantifier": "all lists of separations, angles, multipoles, redshifts (any lengths)", "why_tests_cant": "Unbounded list lengths.", "anchors": ["src/corrfunc.c:coffe_corrfunc_init", "src/multipoles.c:coffe_multipoles_init", "src/average_multipoles.c:coffe_average_multipoles_init"]}
{"id": "C22", "title": "Parallel evaluation is schedule independent", "statement": "The result arrays are the same for every assignment of loop iterations to threads and every interleaving, i.e. for any thread count.", "quantifier": "every permutation/partition of the iterations", "why_tests_cant": "The number of schedules is factorial in the grid size.", "anchors": ["src/corrfunc.c", "src/multipoles.c", "src/average_multipoles.c", "src/covariance.c"]}
{"id": "C23", "title": "Covariance is symmetric", "statement": "The covariance between (l1, r1) and (l2, r2) equals the covariance between (l2, r2) and (l1, r1) at each redshift.", "quantifier": "all multipole and separation lists, densities, populations with equal pairs, integrals", "why_tests_cant": "Holds for every pair of entries of an arbitrarily large matrix.", "anchors": ["src/covariance.c:coffe_covariance_init"]}
{"id": "C24", "title": "Covariance values and coordinates line up", "statement": "The k-th covariance value is stored with the coordinates (z, l1, l2, r1, r2) it was computed for, and each combination occurs exactly once.", "quantifier": "all lists of redshifts, multipoles, separations", "why_tests_cant": "Values and coordinates are filled by two different nested loops; index arithmetic over unbounded sizes.", "anchors": ["src/covariance.c:coffe_covariance_init"]}
{"id": "C25", "title": "Covariance parts switch on and off independently", "statement": "With cosmic, mixed (cosmic-Poisson) and Poisson parts disabled the covariance is zero; the enabled parts add, and the total scales as 1/fsky (1/volume).", "quantifier": "all flag combinations and real inputs", "why_tests_cant": "Universal over reals and flags.", "anchors": ["src/covariance.c:coffe_covariance_init"]}
{"id": "C26", "title": "Covariance computation never writes outside its arrays", "statement": "For every configuration accepted by the input checks, the covariance arrays are indexed within bounds and every allocated entry is written exactly once.", "quantifier": "all accepted list lengths (densities, redshifts, pixel sizes, sky fractions, multipoles, separations)", "why_tests_cant": "Buffer overruns depend on length mismatches that tests do not enumerate.", "anchors": ["src/covariance.c:coffe_covariance_init", "src/parser.c:coffe_parser_init", "python/coffe/coffe.pyx:compute_covariance_bulk"]}
{"id": "C27", "title": "Approximate equality behaves as an equality test", "statement": "The tolerance comparison used for matching separations is reflexive and symmetric, and a separation that is on the grid is found.", "quantifier": "all real numbers and tolerances", "why_tests_cant": "Continuum of values, failures at zero and at the tolerance edge.", "anchors": ["src/common.c:coffe_approx_equal", "src/covariance.c:covariance_find"]}
{"id": "C28", "title": "Legendre product integral", "statement": "The angular coefficient used in the covariance equals the integral over mu in [-1,1] of the product of four Legendre polynomials; it vanishes when the degrees sum to an odd number and is symmetric under exchanges n<->m, a<->b and (n,m)<->(a,b).", "quantifier": "all degrees n, m, a, b", "why_tests_cant": "Unbounded degrees.", "anchors": ["src/common.c:coffe_legendre_integral"]}
{"id": "C29", "title": "Generated ranges", "statement": "The generated separation range has exactly `steps` strictly increasing, equally spaced points starting at the minimum and staying below the maximum; an empty or reversed interval is rejected.", "quantifier": "all reals min, max and all step counts", "why_tests_cant": "Unbounded sizes and reals.", "anchors": ["src/common.c:coffe_generate_range"]}
{"id": "C30", "title": "Reading back a written table", "statement": "A one/two-column table written to disk is read back with the same rows; comment lines are skipped, and every data line of an input file is read.", "quantifier": "all tables, all files with lines below the buffer length", "why_tests_cant": "Unbounded file contents; the last line and buffer-length edges.", "anchors": ["src/common.c:read_1col", "src/common.c:read_2col", "src/common.c:write_1col", "src/common.c:write_2col", "src/common.c:coffe_read_ncol"]}
{"id": "C31", "title": "Matrix and column writers emit every entry safely", "statement": "Writing an n x m matrix / n columns of length k emits every entry once, in order, and reads no memory outside the given arrays.", "quantifier": "all dimensions", "why_tests_cant": "Boundary conditions on unbounded sizes, out-of-bounds reads are silent.", "anchors": ["src/common.c:write_matrix", "src/common.c:write_ncol", "src/common.c:write_ncol_null"]}
{"id": "C32", "title": "Resources are released exactly once", "statement": "For every sequence of initialise/free calls on background, integrals, corrfunc, multipoles, average multipoles, covariance and parameter structures no block is freed twice or used after free, and freeing twice is a no-op.", "quantifier": "every finite sequence of init/free operations", "why_tests_cant": "Unbounded histories.", "anchors": ["src/common.c:coffe_parameters_free", "src/common.c:coffe_free_spline", "src/corrfunc.c:coffe_corrfunc_free", "src/multipoles.c:coffe_multipoles_free", "src/covariance.c:coffe_covariance_free", "src/integrals.c:coffe_integrals_free", "src/background.c:coffe_background_free"]}
{"id": "C33", "title": "List parameters round-trip through the object", "statement": "After assigning a list to sep, mu, l, z_mean, z_min, z_max, deltaz, number_density1/2, pixelsize, fsky the getter returns that list (sorted where documented), the stored length matches, and invalid lists are rejected without effect; any history of assignments keeps memory consistent.", "quantifier": "every history of list assignments, lists of any length", "why_tests_cant": "Unbounded lists and histories.", "anchors": ["python/coffe/coffe.pyx:sep", "python/coffe/coffe.pyx:l", "python/coffe/coffe.pyx:z_mean", "python/coffe/coffe.pyx:number_density1", "python/coffe/coffe.pyx:pixelsize"]}
{"id": "C34", "title": "Background is normalised and self-consistent", "statement": "The expansion rate at z = 0 equals h/2997.92458 when densities sum to one, the linear growth factor is 1 at z = 0, the conformal expansion rate is H/(1+z) and the stored derivative of the conformal rate is its conformal-time derivative.", "quantifier": "all cosmological parameters and dark-energy functions", "why_tests_cant": "Identities over the reals and arbitrary dark energy histories.", "anchors": ["src/background.c:coffe_background_init", "src/common.c:coffe_dark_energy_eos"]}
{"id": "C35", "title": "Growth ODE Jacobian matches the ODE", "statement": "The Jacobian handed to the stiff ODE solver is the matrix of partial derivatives of the growth equations.", "quantifier": "all cosmologies and scale factors", "why_tests_cant": "Derivative identity over reals.", "anchors": ["src/background.c:growth_rate_ode", "src/background.c:growth_rate_jac"]}
{"id": "C36", "title": "Double-exponential quadrature laws", "statement": "The built-in integrator is linear, gives exactly zero for functions odd about the midpoint, changes sign when the endpoints are exchanged, samples only points of the closed interval and uses at most 385 evaluations.", "quantifier": "all integrands and intervals", "why_tests_cant": "Universal over functions.", "anchors": ["src/tanhsinh.c:tanhsinh_quad", "src/common.c:coffe_integrate_1d_prec_double_exponential"]}
{"id": "C37", "title": "Window and FFT input are well defined", "statement": "The smoothing window is defined for every argument, between 0 and 1, 1 in the plateau and 0 outside; the FFT input loop only touches existing array entries.", "quantifier": "all reals and all array lengths", "why_tests_cant": "Measure-zero endpoints and unbounded sizes.", "anchors": ["src/twofast.c:twofast_window", "src/twofast.c:twofast_fft_input"]}
{"id": "C38", "title": "FFTLog bias lies in the convergence strip", "statement": "The bias exponent chosen for a Fourier-Bessel integral always lies inside the strip where the transform converges, when that strip is non-empty.", "quantifier": "all orders l and powers n", "why_tests_cant": "Real-valued inequality for all parameters.", "anchors": ["src/twofast.c:twofast_selectqnu"]}
{"id": "C39", "title": "Settings-file checks reject inconsistent input", "statement": "The settings parser rejects files whose list lengths disagree, redshifts that are not positive, empty sampling choices and more than one derivative switch; everything it accepts satisfies the preconditions of the later stages.", "quantifier": "all settings files (present/absent keys, list lengths, values)", "why_tests_cant": "Combinatorial space of settings.", "anchors": ["src/parser.c:coffe_parser_init"]}
{"id": "C40", "title": "Requested output is produced", "statement": "For every output type selectable in the settings file, the program runs the stages that type needs, in dependency order, and writes its result file.", "quantifier": "all output types and settings", "why_tests_cant": "Combination of stage gating in main and output.", "anchors": ["src/main.c:main", "src/output.c:coffe_output_init"]}
{"id": "C41", "title": "Contribution names are interpreted as a set", "statement": "The list of contribution names in a settings file is interpreted as a set: order, duplicates and unknown names do not matter.", "quantifier": "all lists of names", "why_tests_cant": "Unbounded lists.", "anchors": ["src/parser.c:coffe_parser_init", "python/coffe/coffe.pyx:from_file"]}
{"id": "C42", "title": "Integral lookup is unambiguous", "statement": "Looking up a Fourier-Bessel integral returns the entry computed for exactly those orders; the table never contains two different entries for one key.", "quantifier": "all settings and multipole lists", "why_tests_cant": "Depends on arbitrary multipole lists generating overlapping keys.", "anchors": ["src/integrals.c:coffe_find_integral", "src/integrals.c:coffe_integrals_init"]}
{"id": "C43", "title": "Saved configuration reproduces the object", "statement": "Coffe.from_file(to_file(c)) yields an object with the same parameters as c.", "quantifier": "all parameter values", "why_tests_cant": "Key lists in the two directions are maintained by hand; a missing key affects only non-default values.", "anchors": ["python/coffe/coffe.pyx:from_file", "python/coffe/coffe.pyx:to_file"]}
{"id": "C44", "title": "maximum_separation is safe", "statement": "For every separation not larger than the reported maximum separation, both galaxies of the pair lie within the survey/tabulated range for all angles.", "quantifier": "all redshift configurations and angles", "why_tests_cant": "Inequality over reals.", "anchors": ["python/coffe/coffe.pyx:maximum_separation"]}
{"id": "C45", "title": "Extrapolation keeps the data", "statement": "Padding a sampled spectrum for the two-Bessel transform keeps the original samples unchanged in the middle, fills every padded entry, continues the end slopes (log-)linearly, and stays in bounds; the table of an uncorrelated spectrum has every sample on the diagonal and zero elsewhere.", "quantifier": "all array sizes >= 2 and padding sizes", "why_tests_cant": "Unbounded sizes.", "anchors": ["src/utils.c:extrap_log_linear", "src/utils.c:extrap_bilinear", "src/utils.c:extrap_log_bilinear", "src/utils.c:extrap_2dzeros", "src/utils.c:mk_diag_g_to_ng"]}
{"id": "C46", "title": "Array helpers act elementwise", "statement": "The rescale / multiply / power helpers and maximum search act on every element, preserve length, and reject missing input.", "quantifier": "all arrays", "why_tests_cant": "Unbounded sizes.", "anchors": ["src/common.c:coffe_rescale_array", "src/common.c:coffe_multiply_array", "src/common.c:coffe_multiply_power_array", "src/common.c:coffe_max_array_double", "src/common.c:copy_matrix_array"]}
{"id": "C47", "title": "Assignments are independent", "statement": "Assigning one parameter, whether accepted or rejected, does not change the value read for any other parameter, except that omega_m and omega_cdm follow the other density parameters.", "quantifier": "all object states, all values, all pairs of parameters", "why_tests_cant": "Holds for every pair of parameters, value and state.", "anchors": ["python/coffe/coffe.pyx:Coffe property setters"]}
{"id": "C48", "title": "Interpolation look-ups do not depend on earlier look-ups", "statement": "The value interpolated from a tabulated function is a function of the table and the argument only, whatever look-ups were made before with the same table.", "quantifier": "all strictly increasing tables, all sequences of look-ups", "why_tests_cant": "The look-up keeps the last position as hidden state, so the claim is about every history.", "anchors": ["src/common.c:coffe_init_spline", "src/common.c:coffe_interp_spline"]}
{"id": "C49", "title": "Distance and redshift look-ups are inverse", "statement": "The tabulated comoving distance increases strictly with redshift, so the inverse table (redshift as a function of distance) exists and looking up the redshift of the distance of a tabulated redshift gives that redshift back.", "quantifier": "all parameters of an expanding universe, all table sizes, all dark energy equations of state", "why_tests_cant": "Monotonicity over all parameters.", "anchors": ["src/background.c:coffe_background_init"]}
{"id": "C50", "title": "Every accepted number of background redshifts works", "statement": "For every value accepted by background_sampling the background stage completes and produces finite tables.", "quantifier": "all accepted table sizes, all parameters of an expanding universe", "why_tests_cant": "Unbounded parameter.", "anchors": ["python/coffe/coffe.pyx:background_sampling", "src/background.c:coffe_background_init"]}
{"id": "C51", "title": "The integral tables are complete and increasing", "statement": "For every pair of orders the table behind an integral look-up consists of the zero separation, the fixed separations below one, and a logarithmic grid above; every cell is written, the separations increase strictly and the values at and below unit separation are the documented limit and directly computed integrals.", "quantifier": "all orders, grid sizes, wavenumber ranges and spectra", "why_tests_cant": "Unbounded grid size.", "anchors": ["src/integrals.c:coffe_integrals_renormalizable", "src/twofast.c:twofast_1bessel"]}
{"id": "C52", "title": "The limit of zero separation is exact", "statement": "The coefficient used for the limit of zero separation is the leading coefficient of the spherical (1/(2l+1)!!) or cylindrical (1/(2^m m!)) Bessel function for every order.", "quantifier": "all orders", "why_tests_cant": "All orders.", "anchors": ["src/integrals.c:integrals_coefficients"]}
{"id": "C53", "title": "The tables cover the requested separations", "statement": "Every separation accepted by the object lies within the tabulated range of every integral, whatever the accepted wavenumber range.", "quantifier": "all accepted separations and wavenumber ranges, all table sizes", "why_tests_cant": "Ranges over all accepted settings.", "anchors": ["src/integrals.c:coffe_integrals_renormalizable", "python/coffe/coffe.pyx:k_min", "python/coffe/coffe.pyx:k_max", "python/coffe/coffe.pyx:sep"]}
{"id": "C54", "title": "Memory is returned", "statement": "After any sequence of initialise, set, compute and free calls that ends with releasing every structure, exactly the memory in use before is in use: repeated calls do not leak.", "quantifier": "all sequences of calls", "why_tests_cant": "Holds for every history; a leak is not visible in any result.", "anchors": ["src/common.c:coffe_parameters_free", "src/background.c:coffe_background_free", "src/integrals.c:coffe_integrals_init", "src/parser.c:parse_external_power_spectrum", "python/coffe/coffe.pyx:set_galaxy_bias1"]}
{"id": "C55", "title": "Bias functions reproduce their samples", "statement": "After a bias has been set from samples, reading it at a sampled redshift gives the sampled value, it is continuous in between, constant if the samples are equal, the straight line or the parabola of equidistant samples on one, smooth, and cannot be read outside; the other biases are unchanged. Samples that cannot be used are refused with a Python error and leave the object as it was.", "quantifier": "all lists of samples, all redshifts, all object states", "why_tests_cant": "Holds for every list of samples and every redshift between them.", "anchors": ["python/coffe/coffe.pyx:set_spline", "python/coffe/coffe.pyx:evaluate_spline", "python/coffe/coffe.pyx:set_galaxy_bias1", "src/common.c:coffe_init_spline"]}
{"id": "C56", "title": "Settings reach the calculation unchanged", "statement": "Every parameter that the C program computes with is the one given in the settings file under the documented name (lists element by element, separations as the even grid between the limits, the wavenumber range cut to the range of the spectrum); no setting is taken from another one's name.", "quantifier": "all settings files that are accepted", "why_tests_cant": "About sixty settings, each independent of the others; a swapped name shows only for inputs that tell the two apart.", "anchors": ["src/parser.c:coffe_parser_init"]}
{"id": "C57", "title": "The signal is proportional to the power spectrum", "statement": "Multiplying the power spectrum by a constant multiplies every correlation function, multipole and averaged multipole by that constant; a vanishing spectrum gives a vanishing signal.", "quantifier": "all sets of effects, modes, biases, backgrounds, coordinates and constants", "why_tests_cant": "About sixty terms with several branches each, some of them taken only at coincident points of the two lines of sight.", "anchors": ["src/functions.c:functions_nonintegrated", "src/functions.c:functions_single_integrated", "src/functions.c:functions_double_integrated", "src/signal.c:coffe_integrate"]}
{"id": "C58", "title": "The signal scales with the square of the growth factor", "statement": "With a linear spectrum, renormalising the growth factor by a constant multiplies every correlation function, multipole and averaged multipole by its square; the derivatives with respect to b D1 and f D1 by its first power.", "quantifier": "all sets of effects, modes, biases, backgrounds, coordinates and constants", "why_tests_cant": "A missing or extra growth factor in one branch changes the value only where that branch is taken, and only where the growth factor is not one.", "anchors": ["src/functions.c:functions_nonintegrated", "src/functions.c:functions_single_integrated", "src/functions.c:functions_double_integrated", "src/functions.c:functions_flatsky_lensing_lensing_multipoles"]}
{"id": "C59", "title": "Redshift-averaged multipoles average the pairs inside the survey", "statement": "A redshift-averaged multipole is a mean of the multipoles over the redshifts at which a pair of the given separation fits into the survey: both galaxies stay between the limits, nothing outside the survey matters, and a signal that does not depend on redshift is its own average.", "quantifier": "all redshift limits, separations that fit, multipoles, effects and product quadrature rules", "why_tests_cant": "Holds for every survey, separation and orientation; a pair that leaves the survey by a little does not show in the numbers.", "anchors": ["src/signal.c:average_multipoles_nonintegrated_integrand", "src/signal.c:coffe_integrate", "python/coffe/coffe.pyx:compute_average_multipole"]}
{"id": "C60", "title": "Every accepted number of FFTLog sampling points gives a covariance", "statement": "For every accepted value of covariance_integration_sampling (or covariance_integration_bins) the two-dimensional FFTLog finishes and writes the requested value for every pair of separations.", "quantifier": "all numbers of sampling points, wavenumber ranges, spectra, multipoles and lists of separations", "why_tests_cant": "Holds for every number of points; small and odd numbers are not tried.", "anchors": ["src/covariance.c:covariance_integrate_fftlog", "src/twobessel.c:two_sph_bessel", "src/utils.c:c_window_2d", "python/coffe/coffe.pyx:covariance_integration_sampling"]}
{"id": "C61", "title": "A non-linear covariance uses the spectrum of its own redshift", "statement": "With a non-linear spectrum the covariance of each redshift is computed from the spectrum at that redshift and no other, with either integration method.", "quantifier": "all redshifts, spectra, multipoles, separations and both integration methods", "why_tests_cant": "A wrong spectrum is invisible unless the spectra differ.", "anchors": ["src/covariance.c:coffe_covariance_init"]}
{"id": "C62", "title": "Binned covariance averages over the pixels of each redshift", "statement": "With has_binned_covariance every spherical Bessel function in the covariance is its mean over the volume of the shell whose width is the pixel size of the redshift bin, for every accepted multipole and either integration method.", "quantifier": "all multipoles, separations, wavenumbers, pixel sizes, redshift bins and both integration methods", "why_tests_cant": "The analytic integrals are different formulae for each multipole, to be right at all arguments.", "anchors": ["src/covariance.c:covariance_windowed_bessel", "src/covariance.c:integral_power_spherical_bessel1_unit", "src/covariance.c:coffe_covariance_init", "python/coffe/coffe.pyx:has_binned_covariance"]}
{"id": "C63", "title": "The limit of two coincident points is the limit", "statement": "The gravitational potential terms with the renormalised correlation of the potential are continuous where the two lines of sight meet: the value used for coincident points is the limit of the values used for neighbouring points.", "quantifier": "all positive spectra, wavenumber ranges, distances and pairs of points", "why_tests_cant": "The special case is taken on a set of measure zero of the integration domain for separations above zero, and everywhere near the diagonal for small separations.", "anchors": ["src/integrals.c:integrals_renormalization0_integrand", "src/integrals.c:integrals_integrate_function", "src/integrals.c:coffe_integrals_init", "src/functions.c:functions_double_integrated"]}
{"id": "C64", "title": "The linear spectrum of CLASS is the linear spectrum", "statement": "With the linear spectrum from CLASS (pk_type linear_class) and a spectrum that grows by the square of the growth factor, every tabulated integral at a redshift is the square of the growth factor times the integral at redshift zero, so that the signals agree with those of pk_type linear.", "quantifier": "all integrals, redshifts of the table, spectra, growth factors, grid sizes and wavenumber ranges", "why_tests_cant": "Ranges over all spectra; one of the integrals is different.", "anchors": ["src/integrals.c:coffe_integrals_init", "src/functions.c:functions_single_integrated", "python/coffe/coffe.pyx:pk_type"]}
{"id": "C65", "title": "The non-linear tables cover the accepted redshifts", "statement": "Every redshift accepted by z_mean lies within the range of the redshift dependent tables when they are used.", "quantifier": "all accepted redshifts and spectra", "why_tests_cant": "Ranges over all accepted redshifts.", "anchors": ["src/integrals.c:coffe_integrals_init", "python/coffe/coffe.pyx:z_mean", "python/coffe/coffe.pyx:pk_type"]}
{"id": "C66", "title": "The signal is the two-point function of the effects in the ensemble of density fields", "statement": "In full sky and with the linear spectrum the correlation function is the ensemble average, over density fields that are superpositions of plane waves with the given spectrum, of the product of the number counts at the two places: the sum over all ordered pairs of requested effects (only pairs of different effects with only_cross_correlations) of the expected product of the linear responses, without the monopole of the potentials; for effects along the line of sight the integrands are the contributions of its points.", "quantifier": "all sets of effects, spectra, wavenumber ranges, backgrounds, biases, separations, angles and points of the lines of sight", "why_tests_cant": "About fifty coefficients that are functions of three distances; each is right or wrong for all inputs, and a wrong sign or a missing factor in one of many terms hides in the sum.", "anchors": ["src/functions.c:functions_nonintegrated", "src/functions.c:functions_single_integrated", "src/functions.c:functions_double_integrated"]}
{"id": "C67", "title": "Every option of a settings file takes effect", "statement": "After a settings file has been loaded, every parameter has the value the file gives under its own name, otherwise the value under its old name, otherwise (for the effects) it is on if the old list of contributions has it, otherwise it is that of a new object; every bias function is what the file says about it.", "quantifier": "all settings files (any set of options with any text), all parameters and all orders in which Python visits its sets", "why_tests_cant": "About seventy options in five groups with different readers; an option that is silently ignored is only noticed by a test that sets it in a file and reads it back, alone and together with any other.", "anchors": ["python/coffe/coffe.pyx:from_file"]}
{"id": "C68", "title": "The covariance is that of the multipoles of Gaussian fields", "statement": "The covariance between two multipoles at two separations is the covariance of the measured multipoles when the density contrasts of the tracers are Gaussian fields, with the spectra given by density, redshift-space distortions and the shot noise of each population, in the volume of the redshift bin; the flags for cosmic variance, mixed and Poisson part select the products signal-signal, signal-noise and noise-noise of it.", "quantifier": "all multipoles, separations, redshift bins, spectra, biases, growth rates, number densities, populations, sky fractions and pixel sizes", "why_tests_cant": "The result is a sum of integrals of products of Bessel and Legendre functions; a missing sign or factor for some multipoles or populations changes the error bars for these only.", "anchors": ["src/covariance.c:coffe_covariance_init", "src/covariance.c:covariance_coefficient", "src/common.c:coffe_legendre_integral"]}
{"id": "C69", "title": "Exchanging the populations changes the sign of the odd multipoles", "statement": "Exchanging the two populations (all their biases) multiplies every multipole l, also the redshift averaged one, by (-1)^l; in particular the odd multipoles of a single population vanish.", "quantifier": "all effects, biases, backgrounds, spectra, redshifts, separations, multipoles and flat-sky settings; quadrature rules with the symmetries of the cube", "why_tests_cant": "The dipole is the signal of several relativistic effects; a spurious one of a single population would be taken for physics, and depends on the evolution of the biases.", "anchors": ["src/signal.c:coffe_integrate", "src/functions.c:functions_nonintegrated", "src/functions.c:functions_single_integrated", "src/functions.c:functions_double_integrated", "src/multipoles.c:coffe_multipoles_init", "src/average_multipoles.c:coffe_average_multipoles_init"]}
{"id": "C70", "title": "Computing changes no settings", "statement": "A computation (bulk or single point, an integral, a distance, a background quantity, a spectrum), however it ends, leaves every attribute of the object as the user set it.", "quantifier": "all objects, settings, numerical back ends and computing calls with any arguments, including calls that raise", "why_tests_cant": "A setting changed behind the user's back shows only in a later computation, after a particular order of calls.", "anchors": ["python/coffe/coffe.pyx:Coffe.compute_corrfunc_bulk", "python/coffe/coffe.pyx:Coffe._power_spectrum_init", "src/parser.c:parse_external_power_spectrum"]}
{"id": "C71", "title": "An uploaded spectrum is used", "statement": "After set_power_spectrum_linear the object works with exactly the uploaded samples and their range, through any history of calls that have nothing to do with the spectrum.", "quantifier": "all samples, objects, numerical back ends and histories of computations, survey settings and bias functions after the upload", "why_tests_cant": "Whether the spectrum has silently been replaced by the one of CLASS depends on the history of calls and is invisible in the type of the result.", "anchors": ["python/coffe/coffe.pyx:Coffe.set_power_spectrum_linear", "python/coffe/coffe.pyx:Coffe.power_spectrum", "python/coffe/coffe.pyx:Coffe._free_power_spectrum"]}
{"id": "C72", "title": "No call ends the process", "statement": "Every call on the object returns a result or raises a Python exception; none ends the interpreter.", "quantifier": "all histories of calls with any arguments on a new object, all numerical back ends that succeed", "why_tests_cant": "A crash depends on the combination of earlier assignments, uploads and computations; tests exercise few of them.", "anchors": ["python/coffe/coffe.pyx:Coffe.compute_average_multipoles_bulk", "python/coffe/coffe.pyx:Coffe.compute_average_covariance_bulk", "python/coffe/coffe.pyx:Coffe.set_power_spectrum_linear", "python/coffe/coffe.pyx:set_spline", "src/integrals.c:coffe_integrals_init", "src/average_multipoles.c:coffe_average_multipoles_init", "src/covariance.c:coffe_covariance_init"]}
{"id": "C73", "title": "The multipoles are the Legendre coefficients of the correlation function", "statement": "For every combination of contributions, every flat-sky approximation and every spectrum, the multipole of order l that the library returns at a separation is (2l+1)/2 times the integral over the cosine of the angle of the correlation function that it returns, times the Legendre polynomial of order l.", "quantifier": "all parameters, cosmologies and spectra, all separations, all orders", "why_tests_cant": "The multipoles of the flat-sky lensing terms use formulas of their own (sums of Bessel integrals) that have nothing in common with the correlation function; agreement at sampled orders does not show it for all.", "anchors": ["src/signal.c:coffe_integrate", "src/functions.c:functions_flatsky_lensing_lensing_multipoles", "src/functions.c:functions_flatsky_density_lensing_multipoles", "src/functions.c:functions_single_integrated", "src/functions.c:functions_double_integrated", "src/integrals.c:coffe_integrals_init"]}
{"id": "C74", "title": "Nothing beyond the pair matters", "statement": "The correlation function and the multipoles of a pair depend on the background, the biases and the Fourier-Bessel integrals only between the observer and the farther of the two points; redshift-averaged multipoles only on what lies in front of the far side of the redshift bin. Changing the cosmology, the biases or the tables beyond that point changes no value.", "quantifier": "all parameters, contributions and approximations, all backgrounds, biases and tables, all pairs in front of the observer", "why_tests_cant": "The values are integrals over products of some fifty formulas, each of which looks up several tables at points of its own; a single look-up beyond the end is visible only at the settings that reach it.", "anchors": ["src/functions.c:functions_nonintegrated", "src/functions.c:functions_single_integrated", "src/functions.c:functions_double_integrated", "src/functions.c:functions_flatsky_lensing_lensing_multipoles", "src/functions.c:functions_flatsky_density_lensing_multipoles", "src/signal.c:coffe_integrate", "src/parser.c:parse_bias_default"]}
{"id": "C75", "title": "One settings file, one meaning", "statement": "A settings file means the same to the C program and to the Python object: if both accept it, the parameters of the calculation are the same in both.", "quantifier": "all settings files, all surroundings (CLASS or not, any files), all iteration orders of Python sets", "why_tests_cant": "The two readers are written independently (libconfig in C, configparser in Python) with some seventy options each; a disagreement shows only for the option, the value and the output type that it concerns.", "anchors": ["src/parser.c:coffe_parser_init", "src/parser.c:parse_bias", "python/coffe/coffe.pyx:from_file", "settings.cfg"]}
{"id": "C76", "title": "The command line writes what the object calculates", "statement": "`python -m coffe -s settings -o file -k kind` ends without an exception exactly when the settings file can be loaded and the calculation asked for succeeds; the file then has one comment line with the names of the columns and one line for every result, in the order of the results, and what stands below a name is the quantity with this name, to eleven significant digits (multipoles exactly).  After an exception the output file is as it was.", "quantifier": "all settings files, all six kinds of output, all iteration orders of Python sets, all numerical back ends, all previous contents of the output file", "why_tests_cant": "The test suite does not run the command line; a swapped column or a format that does not fit the number of columns shows only in the file, and for empty results only for the lists that make them empty.", "anchors": ["python/coffe/__main__.py:compute_output", "python/coffe/__main__.py:parse_args", "python/coffe/coffe.pyx:from_file"]}
{"id": "C77", "title": "The Hubble constant is only a unit of length", "statement": "Dividing the Hubble constant by a positive number c, measuring the spectrum in the new unit (c\u00b3 P(c k), wavenumbers divided by c) and multiplying the separation by c leaves every value of the correlation function, of its multipoles and of its averaged multipoles as it is; distances are multiplied by c and expansion rates divided by c. With pixel sizes multiplied by c and number densities divided by its cube every covariance stays as it is, too.", "quantifier": "all positive c, all settings, effects and modes, all spectra, bias functions, redshifts, separations and angles, all quadratures that move their points with the interval", "why_tests_cant": "A term with a wrong power of the Hubble constant or of a distance gives the right numbers in the one unit the reference data were made in; only the equality for all units shows that no term has one.", "anchors": ["src/functions.c:functions_nonintegrated", "src/functions.c:functions_single_integrated", "src/functions.c:functions_double_integrated", "src/background.c:coffe_background_init", "src/integrals.c:coffe_integrals_init", "src/signal.c:coffe_integrate", "src/covariance.c:coffe_covariance_init", "src/twobessel.c:two_sph_bessel"]}
{"id": "C78", "title": "The renormalisation table covers the lines of sight", "statement": "The signal depends on the table of renormalisation integrals only up to the distance that the table reaches: the lines of sight of every accepted separation, angle and redshift end within it.", "quantifier": "all settings of the redshift bins, all accepted separations, angles and redshifts, all backgrounds with growing distance, all effects, all quadratures", "why_tests_cant": "A look-up past the end happens only for the largest separations of a bin and only in some quadrature points; the result is a NaN or an abort that depends on the settings.", "anchors": ["src/integrals.c:coffe_integrals_init", "src/functions.c:functions_double_integrated", "src/functions.c:functions_single_integrated", "src/signal.c:coffe_integrate"]}
{"id": "C79", "title": "The growth factor obeys the growth equation of the expansion", "statement": "The equation from which the growth factor and growth rate are integrated is that of matter perturbations in the expansion history that the same parameters give: D'' + (3/a + H'/H) D' = (3/2) \u03a9m/(a\u2075H\u00b2) D.", "quantifier": "all matter densities, all dark-energy functions, all scale factors, all values of the growth factor and its derivative", "why_tests_cant": "The equation is written in the ratio of matter to dark energy; that it is the one of the tabulated expansion is an identity over all expansion histories.", "anchors": ["src/background.c:growth_rate_ode", "src/background.c:integrand_x", "src/background.c:integrand_w", "src/background.c:coffe_background_init"]}
{"id": "C80", "title": "The response functions of the FFT transforms are those of the Bessel functions", "statement": "The factor by which each frequency is multiplied, in the transform of the power spectrum into the correlation integrals and in the transform into the covariance integrals, is the integral of x^(z-1) times the spherical Bessel function of the requested order, up to the error of the Gamma function used; that Gamma function obeys the reflection and conjugation formulas of the true one.", "quantifier": "all orders of the Bessel function, all frequencies, all biases for which the integral exists, all relative errors of the Gamma function", "why_tests_cant": "The factor is a closed form in Gamma functions; that it is the integral over an infinite range, for every order and every complex frequency, is a theorem of analysis.", "anchors": ["src/utils.c:g_l", "src/utils.c:lngamma_lanczos", "src/twofast.c:twofast_mql", "src/twofast.c:twofast_lgamma", "src/twobessel.c:two_sph_bessel"]}
{"id": "C81", "title": "Results are fixed records of what was calculated", "statement": "Every result object reports, by attribute and in its dictionary, exactly the coordinates and the value it was built from; the dictionary has the same names in the same order for every result of a kind; a result cannot be built with a coordinate missing or an unknown one; nothing assigned to its public attributes later changes it.", "quantifier": "all five kinds of results, all values, all sets of keyword arguments, all sequences of assignments of any length, any attributes that the interpreter adds to classes", "why_tests_cant": "The dictionary is found by looking through all attributes of the class, including those of the interpreter; that it is complete and stays so holds for every history of assignments.", "anchors": ["python/coffe/representation.py:Representation.to_dict", "python/coffe/representation.py:Covariance", "python/coffe/representation.py:AverageCovariance", "python/coffe/representation.py:Corrfunc", "python/coffe/representation.py:Multipoles", "python/coffe/representation.py:AverageMultipoles"]}
{"id": "C82", "title": "Settings are numbers in their documented ranges", "statement": "Every scalar setting of an object is a number, and an assignment is accepted only when the value is a number in the range of that setting; infinities and NaN are refused and change nothing; lists of coordinates contain only numbers in range.", "quantifier": "all seventeen real-valued scalar settings, all values including infinities and NaN, all states of the object, all sequences of assignments of any length; all lists", "why_tests_cant": "Tests use ordinary numbers; the special values pass through comparisons that are all false for NaN, and what they leave behind depends on the history.", "anchors": ["python/coffe/coffe.pyx:_check_parameter", "python/coffe/coffe.pyx:Coffe._check_omegas", "python/coffe/coffe.pyx:Coffe.h", "python/coffe/coffe.pyx:Coffe.m_ncdm", "python/coffe/coffe.pyx:Coffe.omega_m", "python/coffe/coffe.pyx:Coffe.omega_gamma", "python/coffe/coffe.pyx:Coffe.sep"]}
{"id": "C83", "title": "The covariance of a measurement with itself is a covariance matrix", "statement": "When the same pair of populations is given twice, the covariance matrix of the multipoles in each redshift bin is symmetric and positive semi-definite: no linear combination of the multipoles has a negative variance, and no two of them have a correlation above one. With shot noise, distinct even multipoles, or distinct multipoles of two different populations, have a positive definite matrix, which can be inverted.", "quantifier": "all lists of multipoles and distinct separations, all redshift bins and surveys with positive volume, densities and pixels, all biases, growth rates and switches, all non-negative spectra, all quadratures with non-negative weights, all linear combinations", "why_tests_cant": "A negative variance may occur for one combination of many multipoles and separations only; no finite set of combinations or surveys excludes it.", "anchors": ["src/covariance.c:coffe_covariance_init", "src/covariance.c:covariance_integrand", "src/covariance.c:covariance_windowed_bessel", "src/covariance.c:covariance_coefficient", "src/covariance.c:covariance_coefficient_pair", "src/covariance.c:covariance_integral"]}
{"id": "C84", "title": "The covariance of an object is that of its settings and its spectrum", "statement": "The covariance that an object returns is, row for row, the one defined by its settings, its background and its power spectrum of the chosen type at the redshift of each bin: every setting is handed on unchanged and none is exchanged with another.", "quantifier": "all settings, backgrounds, spectra and numerical procedures, all redshifts or redshift bins, multipoles and separations, both integration methods", "why_tests_cant": "A setting handed on wrongly matters only for surveys in which it differs from the one used instead; no finite set of surveys and spectrum types excludes it.", "anchors": ["python/coffe/coffe.pyx:compute_covariance_bulk", "python/coffe/coffe.pyx:compute_average_covariance_bulk", "python/coffe/coffe.pyx:_covariance_init", "src/covariance.c:coffe_covariance_init", "src/parser.c:coffe_parse_default_parameters"]}
{"id": "C85", "title": "The background functions of an object are those of its cosmology", "statement": "The distance, expansion rate, growth factor and growth rate that the methods of an object return are those of the cosmology it has been given: its densities, Hubble parameter and equation of state of dark energy, with its integration method and precision.", "quantifier": "all expanding cosmologies, all numbers of tabulated redshifts from five on, all redshifts of the tables, all biases and all growth solvers", "why_tests_cant": "A density or an equation of state handed on wrongly matters only for cosmologies in which it differs from the one used instead; no finite set of cosmologies excludes it.", "anchors": ["python/coffe/coffe.pyx:comoving_distance", "python/coffe/coffe.pyx:hubble_rate_conformal", "python/coffe/coffe.pyx:growth_factor", "python/coffe/coffe.pyx:growth_rate", "python/coffe/coffe.pyx:_background_init", "src/background.c:coffe_background_init"]}
{"id": "C86", "title": "CLASS is run with the settings of the object", "statement": "Every cosmological and precision setting of an object reaches CLASS under the name CLASS has for it, in the units CLASS expects, and the amplitude of the spectrum is the one that was assigned last.", "quantifier": "all settings, all rounding directions of the printed numbers, all assignments of the amplitudes", "why_tests_cant": "A setting written under another name, in other units or not at all changes the spectrum smoothly; no finite set of cosmologies excludes it.", "anchors": ["src/parser.c:parse_external_power_spectrum", "python/coffe/coffe.pyx:_power_spectrum_init", "python/coffe/coffe.pyx:sigma8", "python/coffe/coffe.pyx:A_s"]}
