{
 "claims": [
  {
   "property": "C08",
   "status": "proved",
   "theorems": [
    "Coffe.C08_nonintegrated_exchange"
   ],
   "note": ""
  },
  {
   "property": "C09",
   "status": "partial",
   "theorems": [
    "Coffe.C09_single_exchange_partial",
    "Coffe.C09_single_exchange_false",
    "Coffe.C09_single_exchange_class_false",
    "Coffe.C09_flatsky_den_len_multipoles"
   ],
   "note": "False of the code for Doppler-lensing and for density-lensing with CLASS at coincident points; proved otherwise."
  },
  {
   "property": "C10",
   "status": "proved",
   "theorems": [
    "Coffe.C10_double_exchange",
    "Coffe.C10_flatsky_len_len_exchange",
    "Coffe.C10_flatsky_len_len_multipoles"
   ],
   "note": ""
  },
  {
   "property": "C11",
   "status": "proved",
   "theorems": [
    "Coffe.C11_integrands_sum_over_pairs",
    "Coffe.C11_signal_sums_over_pairs",
    "Coffe.C11_pair_in_one_part"
   ],
   "note": ""
  },
  {
   "property": "C12",
   "status": "proved",
   "theorems": [
    "Coffe.C12_no_contributions_zero"
   ],
   "note": ""
  },
  {
   "property": "C19",
   "status": "partial",
   "theorems": [
    "Coffe.C19_dispatch_complete_partial",
    "Coffe.C19_parts_never_skipped",
    "Coffe.C19_no_double_count",
    "Coffe.C19_python_flatsky_corrfunc_false"
   ],
   "note": "False for the Python correlation function with a flat-sky flag (stored output kind stays MULTIPOLES); proved otherwise."
  },
  {
   "property": "C20",
   "status": "partial",
   "theorems": [
    "Coffe.C20_lookups_exist",
    "Coffe.C20_value_uses_only_lookups",
    "Coffe.C20_signal_from_table",
    "Coffe.C20_inconsistent_false",
    "Coffe.C20_history_partial",
    "Coffe.C20_recompute",
    "Coffe.C20_integral_first_false",
    "Coffe.C20_multipole_false",
    "Coffe.C20_l_change_false"
   ],
   "note": "Proved for every table built with consistent settings, for every history of safe Python calls, and for recompute=True after every history. False in general: integral() before the divergent switch is set, compute_multipole outside the multipole list, and changing l with a flat-sky flag on each lead to a failed lookup."
  },
  {
   "property": "C42",
   "status": "proved",
   "theorems": [
    "Coffe.C42_lookup_unambiguous",
    "Coffe.C42_no_conflicting_entries"
   ],
   "note": ""
  },
  {
   "property": "C01",
   "status": "partial",
   "theorems": [
    "Coffe.C01_recompute_history_independent_partial",
    "Coffe.C01_recompute_equals_fresh_partial",
    "Coffe.C01_point_history_independent_partial",
    "Coffe.C01_stale_switch_false"
   ],
   "note": "For every numerical back end, every pair of objects with equal user-visible parameters and every bulk or single-point method; the histories include failed calls, uploads and earlier recomputations. Missing, and false there (C01_stale_switch_false): fewer widths of the redshift bins than mean redshifts, when an effect that needs the divergent integral was on earlier and is off now."
  },
  {
   "property": "C02",
   "status": "partial",
   "theorems": [
    "Coffe.C02_cached_equals_new_partial",
    "Coffe.C02_sep_average_false",
    "Coffe.C02_bias_covariance_false",
    "Coffe.C02_upload_covariance_false",
    "Coffe.C02_z_mean_integral_false"
   ],
   "note": "Proved for every history of safe calls (SafeOp lists, per setter, which caches must be empty because the setter forgets to free them). Also needed at the end: WidthsFit (enough widths of the redshift bins, or the internal switch agrees with the effects). False in general: four concrete stale-cache histories are proved."
  },
  {
   "property": "C03",
   "status": "partial",
   "theorems": [
    "Coffe.C03_dark_energy_closes",
    "Coffe.C03_matter_closes_partial",
    "Coffe.C03_omega_cdm_false",
    "Coffe.C03_h_false"
   ],
   "note": "omega_de = 1-omega_m-omega_gamma proved for every history. omega_m = cdm+b+nu and nu(m_ncdm,h) are false in general (omega_cdm assigned with neutrinos; h assigned with massive neutrinos) and proved for all histories avoiding those assignments."
  },
  {
   "property": "C04",
   "status": "partial",
   "theorems": [
    "Coffe.C04_physical_partial",
    "Coffe.C04_omega_baryon_false",
    "Coffe.C04_omega_gamma_false"
   ],
   "note": "omega_m, omega_gamma, omega_de in [0,1] for all histories of non-negative assignments; false for omega_cdm/omega_baryon and for negative assignments (both witnessed)."
  },
  {
   "property": "C05",
   "status": "partial",
   "theorems": [
    "Coffe.C05_setter_partial",
    "Coffe.C05_rejected_partial",
    "Coffe.C05_valid_accepted_partial",
    "Coffe.C05_m_ncdm_false",
    "Coffe.C05_fftlog_sampling_false",
    "Coffe.C05_truncated_false"
   ],
   "note": "Proved for all 65 settable parameters, all values and states, except m_ncdm while h == 0, where the code raises after storing. integrals_fftlog_sampling can never be set; a fraction given to l_max_g or l_max_ur is silently truncated (witness)."
  },
  {
   "property": "C06",
   "status": "partial",
   "theorems": [
    "Coffe.C06_set_parameters_partial",
    "Coffe.C06_single_entry_partial",
    "Coffe.C06_all_applied",
    "Coffe.C06_atomic_false"
   ],
   "note": "Not atomic: entries before the offending one stay applied (witness). Exact effect proved for all dictionaries."
  },
  {
   "property": "C07",
   "status": "partial",
   "theorems": [
    "Coffe.C07_parameters_partial",
    "Coffe.C07_clears_everything_false",
    "Coffe.C07_upload_lost_false",
    "Coffe.C07_raises_false"
   ],
   "note": "Parameters are unchanged and returned faithfully; but reading clears all caches and the uploaded spectrum, and may raise after an upload."
  },
  {
   "property": "C33",
   "status": "proved",
   "theorems": [
    "Coffe.C33_list_round_trip",
    "Coffe.C33_multipoles_round_trip",
    "Coffe.C33_history",
    "Coffe.C33_memory",
    "Coffe.C33_reachable"
   ],
   "note": "All lists, states and histories, also of the C arrays behind the lists, for every allocator that hands out unused addresses; requests for memory are assumed to succeed."
  },
  {
   "property": "C47",
   "status": "proved",
   "theorems": [
    "Coffe.C47_assignments_independent"
   ],
   "note": ""
  },
  {
   "property": "C27",
   "status": "partial",
   "theorems": [
    "Coffe.C27_reflexive_partial",
    "Coffe.C27_zero_false",
    "Coffe.C27_symmetric_partial",
    "Coffe.C27_symmetric_false",
    "Coffe.C27_find_partial",
    "Coffe.C27_find_other_false"
   ],
   "note": "Reflexive except at zero with zero absolute tolerance (witness 0,0); symmetric only up to rel/(1-rel) (witness 1001,1000); look-up finds an entry within the tolerance, not necessarily the same one (witness)."
  },
  {
   "property": "C29",
   "status": "proved",
   "theorems": [
    "Coffe.C29_range"
   ],
   "note": ""
  },
  {
   "property": "C45",
   "status": "proved",
   "theorems": [
    "Coffe.C45_log_linear",
    "Coffe.C45_bilinear",
    "Coffe.C45_zeros",
    "Coffe.C45_log_linear_short",
    "Coffe.C45_diagonal",
    "Coffe.C45_log_bilinear",
    "Coffe.C45_log_bilinear_infinite"
   ],
   "note": "Logarithmic padding for positive samples."
  },
  {
   "property": "C46",
   "status": "proved",
   "theorems": [
    "Coffe.C46_rescale",
    "Coffe.C46_multiply",
    "Coffe.C46_multiply_self",
    "Coffe.C46_multiply_power",
    "Coffe.C46_multiply_power_self",
    "Coffe.C46_max",
    "Coffe.C46_missing",
    "Coffe.C46_copy"
   ],
   "note": "Power helpers for positive bases (pow of a non-positive base is modelled as a separate outcome)."
  },
  {
   "property": "C13",
   "status": "proved",
   "theorems": [
    "Coffe.C13_geometry",
    "Coffe.C13_line_of_sight",
    "Coffe.C13_far_pair_false"
   ],
   "note": "All three integrands. C13_far_pair_false shows the hypothesis r <= 2 chi is needed (nothing in the code checks it)."
  },
  {
   "property": "C14",
   "status": "proved",
   "theorems": [
    "Coffe.C14_line_of_sight"
   ],
   "note": "Every subset of density, distortions and Doppler; linear and non-linear spectra; any mu = +-1."
  },
  {
   "property": "C16",
   "status": "partial",
   "theorems": [
    "Coffe.C16_b_partial",
    "Coffe.C16_f_partial",
    "Coffe.C16_b_tilde_partial",
    "Coffe.C16_f_tilde_partial",
    "Coffe.C16_nonlinear_false"
   ],
   "note": "Proved except for a non-linear spectrum in the midpoint approximation, where the switches are ignored (C16_nonlinear_false)."
  },
  {
   "property": "C17",
   "status": "partial",
   "theorems": [
    "Coffe.C17_magnification",
    "Coffe.C17_g3",
    "Coffe.C17_g5_doppler",
    "Coffe.C17_g5_partial",
    "Coffe.C17_d1_partial",
    "Coffe.C17_d1_potential_false",
    "Coffe.C17_g5_lensing_false"
   ],
   "note": "Lensing, g2, g4, g3 proved. Doppler and g5 proved in the absence of the effects for which the code does not satisfy the property (the _false theorems)."
  },
  {
   "property": "C18",
   "status": "partial",
   "theorems": [
    "Coffe.C18_den_len_partial",
    "Coffe.C18_d1_len_partial",
    "Coffe.C18_rsd_len_partial",
    "Coffe.C18_g4_len",
    "Coffe.C18_len_len_false",
    "Coffe.C18_den_len_midpoint_false",
    "Coffe.C18_den_len_no_midpoint_false",
    "Coffe.C18_rsd_len_midpoint_false",
    "Coffe.C18_rsd_len_radial_false"
   ],
   "note": "Radial pairs with a linear spectrum: the single-integrated lensing terms have no jump. The code has jumps for lensing-lensing, for non-linear spectra and at |mu| = 0.999. Not covered: approach to a coincident point from non-radial pairs."
  },
  {
   "property": "C15",
   "status": "proved",
   "theorems": [
    "Coffe.C15_kaiser",
    "Coffe.C15_covariance"
   ],
   "note": "Every multipole order, density and/or distortions, any integral tables; the quadrature is assumed exact on continuous functions (the only external law used)."
  },
  {
   "property": "C28",
   "status": "proved",
   "theorems": [
    "Coffe.C28_integral",
    "Coffe.C28_odd",
    "Coffe.C28_symmetric"
   ],
   "note": "Equality with the integral for all degrees; GSL's 3j symbol is modelled by its closed form (trusted)."
  },
  {
   "property": "C21",
   "status": "partial",
   "theorems": [
    "Coffe.C21_corrfunc",
    "Coffe.C21_multipoles",
    "Coffe.C21_average_partial",
    "Coffe.C21_average_false",
    "Coffe.C21_complete",
    "Coffe.C21_lexicographic",
    "Coffe.C21_distinct"
   ],
   "note": "Correlation function and multipoles in full. Redshift averaged multipoles need as many upper as lower redshifts; otherwise the code reads out of bounds (C21_average_false)."
  },
  {
   "property": "C22",
   "status": "partial",
   "theorems": [
    "Coffe.C22_store_partial",
    "Coffe.C22_add_partial",
    "Coffe.C22_table_partial",
    "Coffe.C22_race_free_partial",
    "Coffe.C22_divergent_partial",
    "Coffe.C22_renormalization_partial",
    "Coffe.C22_covariance_partial",
    "Coffe.C22_shared_accelerator_false"
   ],
   "note": "Any number of threads, assignment and interleaving of the accesses to the result arrays. What an iteration computes is taken to depend on its row only; the code shares one look-up accelerator per table between threads, so the accesses to it race (C22_shared_accelerator_false). All parallel loops that are reached are covered: the three outputs, the tables of the divergent integral and the covariance."
  },
  {
   "property": "C23",
   "status": "partial",
   "theorems": [
    "Coffe.C23_formula_partial",
    "Coffe.C23_rows_partial",
    "Coffe.C23_fftlog_false"
   ],
   "note": "All multipoles, separations (also repeated ones), parts, populations, spectra, except two separations of the same multipole with FFTLog integration: the window of the code damps the negative frequencies of one separation differently, so the result is not symmetric (C23_fftlog_false, for every power-law spectrum but one)."
  },
  {
   "property": "C24",
   "status": "partial",
   "theorems": [
    "Coffe.C24_rows_partial",
    "Coffe.C24_complete",
    "Coffe.C24_duplicates_false"
   ],
   "note": "Distinct separations; with FFTLog integration increasing multipoles. With a repeated separation two rows have equal coordinates and different values (C24_duplicates_false)."
  },
  {
   "property": "C25",
   "status": "proved",
   "theorems": [
    "Coffe.C25_parts",
    "Coffe.C25_none",
    "Coffe.C25_volume"
   ],
   "note": "For both covariance outputs, all parts and sky fractions different from zero."
  },
  {
   "property": "C26",
   "status": "partial",
   "theorems": [
    "Coffe.C26_bounds",
    "Coffe.C26_average_partial",
    "Coffe.C26_average_false",
    "Coffe.C26_empty_false"
   ],
   "note": "Mean redshifts: proved for everything the Python checks accept. Redshift bins: the code reads out of bounds if there are fewer mean redshifts than bins, or no bin at all; proved otherwise."
  },
  {
   "property": "C48",
   "status": "proved",
   "theorems": [
    "Coffe.C48_look_up",
    "Coffe.C48_history_independent"
   ],
   "note": "One thread, any sequence of look-ups of real arguments; gsl_interp_accel_find and gsl_interp_bsearch are modelled from their documented behaviour (trusted)."
  },
  {
   "property": "C36",
   "status": "partial",
   "theorems": [
    "Coffe.C36_samples",
    "Coffe.C36_local",
    "Coffe.C36_homogeneous",
    "Coffe.C36_odd",
    "Coffe.C36_exchange",
    "Coffe.C36_empty",
    "Coffe.C36_nonneg",
    "Coffe.C36_cubic",
    "Coffe.C36_additive_partial",
    "Coffe.C36_additive_false"
   ],
   "note": "All functions and end points. The number of levels depends on the integrand, so the integral of a sum is the sum of the integrals only if all three use the same number of levels (C36_additive_false)."
  },
  {
   "property": "C34",
   "status": "partial",
   "theorems": [
    "Coffe.C34_rows",
    "Coffe.C34_today",
    "Coffe.C34_expansion_rate",
    "Coffe.C34_success",
    "Coffe.C34_doppler",
    "Coffe.C34_growth",
    "Coffe.C34_conformal_derivative",
    "Coffe.C34_conformal_derivative_lcdm",
    "Coffe.C34_conformal_derivative_node",
    "Coffe.C34_python_partial",
    "Coffe.C34_neutrinos_false"
   ],
   "note": "All parameters and table sizes for which the stage succeeds. The code leaves the neutrinos out of the expansion rate (C34_neutrinos_false). The derivative is exact for a cosmological constant and at the nodes of the internal dark energy table; elsewhere it is conditional on the tabulated value being exact."
  },
  {
   "property": "C35",
   "status": "partial",
   "theorems": [
    "Coffe.C35_jacobian_partial",
    "Coffe.C35_damping_iff",
    "Coffe.C35_damping_false",
    "Coffe.C35_time_partial",
    "Coffe.C35_time_false",
    "Coffe.C35_chain_false"
   ],
   "note": "Four of six entries are right; the damping entry and the explicit derivative of the second equation are wrong in the code. The chosen stepper (rk2) does not use the Jacobian."
  },
  {
   "property": "C49",
   "status": "proved",
   "theorems": [
    "Coffe.C49_increasing",
    "Coffe.C49_round_trip"
   ],
   "note": "Exact quadrature assumed; the interpolation is any that passes through its points."
  },
  {
   "property": "C50",
   "status": "partial",
   "theorems": [
    "Coffe.C50_partial",
    "Coffe.C50_few_redshifts_false",
    "Coffe.C50_no_redshift_false"
   ],
   "note": "Proved for at least five redshifts; the setter accepts 0 to 4, which fail."
  },
  {
   "property": "C37",
   "status": "partial",
   "theorems": [
    "Coffe.C37_window_partial",
    "Coffe.C37_edge_false",
    "Coffe.C37_fft_partial",
    "Coffe.C37_short_range",
    "Coffe.C37_fft_edge_false"
   ],
   "note": "The window is one in the middle, zero outside and between zero and one elsewhere, except at its two outer edges, where it divides by zero times a negative power (not a number): a sampled wavenumber range whose grid meets an edge is poisoned (C37_fft_edge_false)."
  },
  {
   "property": "C38",
   "status": "proved",
   "theorems": [
    "Coffe.C38_bias",
    "Coffe.C38_table"
   ],
   "note": "All orders for which the admissible interval is not empty; all orders used by the code."
  },
  {
   "property": "C51",
   "status": "partial",
   "theorems": [
    "Coffe.C51_table",
    "Coffe.tableSep_strictMono",
    "Coffe.C37_fft_edge_false"
   ],
   "note": "For every grid that misses the two window edges (see C37). The FFT and the special functions are arbitrary functions; the values above unit separation are not compared with the exact integral."
  },
  {
   "property": "C52",
   "status": "proved",
   "theorems": [
    "Coffe.C52_spherical",
    "Coffe.C52_cylindrical",
    "Coffe.C52_limit",
    "Coffe.C52_table"
   ],
   "note": "All orders. C52_limit: the tabulated value at zero separation is the limit of the tabulated values, for every continuous spectrum (exact quadrature); C52_table: this covers every entry that is created for even multipoles."
  },
  {
   "property": "C53",
   "status": "partial",
   "theorems": [
    "Coffe.C53_partial",
    "Coffe.C53_false"
   ],
   "note": "Proved for separations up to (k_max/k_min)^((n-1)/n); k_min = 1e-3, k_max = 0.1 and a separation of 150 are accepted but not covered."
  },
  {
   "property": "C30",
   "status": "partial",
   "theorems": [
    "Coffe.C30_read_1col",
    "Coffe.C30_read_2col_partial",
    "Coffe.C30_read_ncol_partial",
    "Coffe.C30_round_trip_1col",
    "Coffe.C30_round_trip_2col",
    "Coffe.C30_round_trip_ncol",
    "Coffe.C30_precision",
    "Coffe.C30_precision_false",
    "Coffe.C30_last_line_false",
    "Coffe.C30_empty_line_false",
    "Coffe.C30_long_line_false"
   ],
   "note": "Proved for files whose lines are shorter than the buffer, end with a newline and have enough columns, and for the numbers the printed digits stand for. The last line without a newline is dropped, a missing column dereferences NULL, a comment longer than the buffer is read as data, and two different doubles are written as the same text."
  },
  {
   "property": "C31",
   "status": "partial",
   "theorems": [
    "Coffe.C31_write_1col",
    "Coffe.C31_write_2col",
    "Coffe.C31_write_ncol_null",
    "Coffe.C31_unterminated_false",
    "Coffe.C31_write_ncol_partial",
    "Coffe.C31_write_ncol_false",
    "Coffe.write_matrix_eq",
    "Coffe.C31_write_matrix_false"
   ],
   "note": "write_1col, write_2col and write_ncol_null are right for all sizes. write_ncol reads out of bounds with more rows than columns, write_matrix never writes the last column, and write_ncol_null without a final NULL reads missing arguments."
  },
  {
   "property": "C32",
   "status": "partial",
   "theorems": [
    "Coffe.Mem.C32_safe_partial",
    "Coffe.Mem.C32_free_succeeds",
    "Coffe.Mem.C32_free_twice",
    "Coffe.Mem.C32_zmin_false"
   ],
   "note": "All sequences of 24 kinds of calls, on any heap, except setting z_min between releasing the parameters and setting the defaults again: zmin_len is not reset, which is a double free. NULL dereferences (using what was never computed) are a separate outcome and are not excluded. Temporaries of the covariance and library-internal blocks are not modelled."
  },
  {
   "property": "C54",
   "status": "partial",
   "theorems": [
    "Coffe.Mem.C54_released_partial",
    "Coffe.Mem.C54_false"
   ],
   "note": "Proved for all sequences of tidy calls. Bias setters, parsing over defaults, empty lists, results of size zero, polynomial fits, a second CLASS run and the non-linear tables lose memory."
  },
  {
   "property": "C43",
   "status": "partial",
   "theorems": [
    "Coffe.C43_read_back_partial",
    "Coffe.C43_lost_false",
    "Coffe.C43_succeeds_partial",
    "Coffe.C43_has_g2_false",
    "Coffe.C43_empty_false",
    "Coffe.C43_bias_partial",
    "Coffe.C43_bias_false",
    "Coffe.C43_omega_cdm_partial",
    "Coffe.C43_order_false"
   ],
   "note": "Proved for every order in which Python iterates over the sets of option names. Some parameters are lost, a cosmological parameter near the default is replaced by it, omega_cdm depends on the order, empty lists cannot be read back, and biases come back resampled."
  },
  {
   "property": "C55",
   "status": "partial",
   "theorems": [
    "Coffe.C55_at_samples",
    "Coffe.C55_constant",
    "Coffe.C55_line",
    "Coffe.C55_parabola",
    "Coffe.C55_smooth_partial",
    "Coffe.C55_smooth_false",
    "Coffe.C55_continuous",
    "Coffe.C55_others",
    "Coffe.C55_refused",
    "Coffe.C55_outside",
    "Coffe.C55_accepted_partial",
    "Coffe.C55_repeated_false",
    "Coffe.C55_four_false"
   ],
   "note": "Proved for GSL's Akima formulas. Fewer than five samples or a repeated redshift are not refused: GSL aborts the interpreter. The curve has a kink at a sample where two straight pieces meet."
  },
  {
   "property": "C39",
   "status": "partial",
   "theorems": [
    "Coffe.C39_checked_partial",
    "Coffe.C39_accepts",
    "Coffe.C39_accepts_class",
    "Coffe.C39_rejects_redshift",
    "Coffe.C39_rejects_lengths",
    "Coffe.C39_rejects_lengths_average",
    "Coffe.C39_rejects_sampling",
    "Coffe.C39_rejects_derivatives",
    "Coffe.C39_ranges_false",
    "Coffe.C39_step_false",
    "Coffe.C39_output_type_false",
    "Coffe.C39_empty_false",
    "Coffe.C39_derivatives_false",
    "Coffe.C39_interpolation_false",
    "Coffe.C39_widths",
    "Coffe.C39_widths_false",
    "Coffe.C39_separations_fixed",
    "Coffe.C39_separations_false"
   ],
   "note": "Separations given for the covariance of averaged multipoles are ignored. The checks listed in the structure Checked hold for every accepted file. Accepted files can still break later stages: redshift ranges of different lengths, unknown output types, no redshifts, steps instead of samples, negative switches; a missing interpolation setting is undefined behaviour."
  },
  {
   "property": "C41",
   "status": "partial",
   "theorems": [
    "Coffe.C41_c",
    "Coffe.C41_c_exact",
    "Coffe.C41_python",
    "Coffe.C41_python_exact",
    "Coffe.C41_density_false"
   ],
   "note": "Both readers treat the names as a set. They disagree on a list without density: Python leaves the default, which is on."
  },
  {
   "property": "C56",
   "status": "proved",
   "theorems": [
    "Coffe.C39_faithful",
    "Coffe.C39_faithful_spectrum"
   ],
   "note": "For every settings file that the parser accepts; fields of biases, spectrum and range included."
  },
  {
   "property": "C57",
   "status": "partial",
   "theorems": [
    "Coffe.C57_nonintegrated",
    "Coffe.C57_single",
    "Coffe.C57_double_partial",
    "Coffe.C57_signal_partial",
    "Coffe.C57_coincident_false"
   ],
   "note": "False of the code where the lensing-lensing integrand is evaluated at two coincident points: a constant 4 is added there instead of a multiple of an integral. Proved everywhere else."
  },
  {
   "property": "C58",
   "status": "proved",
   "theorems": [
    "Coffe.C58_growth",
    "Coffe.C58_nonintegrated",
    "Coffe.C58_tilde"
   ],
   "note": "For every quadrature rule that is homogeneous in the integrand."
  },
  {
   "property": "C59",
   "status": "partial",
   "theorems": [
    "Coffe.C59_inside",
    "Coffe.C59_survey_only",
    "Coffe.C59_mean",
    "Coffe.C59_average_false"
   ],
   "note": "The centres and weights are characterised exactly (C59_mean, without the flat-sky approximation of the integrated effects); the weights H0/H do not add up to one, so a constant signal is not its own average."
  },
  {
   "property": "C40",
   "status": "partial",
   "theorems": [
    "Coffe.C40_in_order",
    "Coffe.C40_stages",
    "Coffe.C40_corrfunc",
    "Coffe.C40_multipoles",
    "Coffe.C40_covariance",
    "Coffe.C40_average_covariance",
    "Coffe.C40_average_false",
    "Coffe.C40_rerun_false",
    "Coffe.C40_unwritable_false",
    "Coffe.C40_empty_path_false",
    "Coffe.C40_unknown_column_false",
    "Coffe.C40_unknown_first_false",
    "Coffe.C40_threads"
   ],
   "note": "Stages are proved for every run. The result file is proved, to the character, for four of the five types; redshift averaged multipoles are calculated and never written. An older file is extended instead of replaced, a file that cannot be opened or an empty output path ends in undefined behaviour, and an unknown background column hides the later ones."
  },
  {
   "property": "C44",
   "status": "partial",
   "theorems": [
    "Coffe.C44_partial",
    "Coffe.C44_iff",
    "Coffe.C44_far_end",
    "Coffe.C44_phantom_false",
    "Coffe.C44_table_false"
   ],
   "note": "Proved for every expanding universe whose dark energy is not phantom and every bin for which a separation is returned, with exact quadrature and look-ups that are faithful between the tabulated redshifts: both galaxies stay in the bin, in distance and redshift, for all separations up to the reported one and all angles. C44_iff says exactly when the answer is safe for any background. False in general: with w0 = -2 a galaxy gets a negative distance; and z_mean + deltaz is never compared with the last tabulated redshift, so that for every accepted bin that ends beyond it the look-up ends the process."
  },
  {
   "property": "C60",
   "status": "partial",
   "theorems": [
    "Coffe.C60_iff",
    "Coffe.C60_partial",
    "Coffe.C60_odd_false",
    "Coffe.C60_small_false",
    "Coffe.C60_zero_false"
   ],
   "note": "Exact: even numbers from eight on work. Odd numbers end the process with exit status 0; 2, 4 and 6 divide zero by zero; 0 reads out of bounds. The FFT is its defining sum, the two-dimensional spline arbitrary."
  },
  {
   "property": "C61",
   "status": "partial",
   "theorems": [
    "Coffe.C61_standard_partial",
    "Coffe.C61_fftlog_false"
   ],
   "note": "Standard integration. With FFTLog integration the spectra at the redshifts are not used at all (the linear one at redshift zero is, without growth factor)."
  },
  {
   "property": "C62",
   "status": "partial",
   "theorems": [
    "Coffe.C62_average_partial",
    "Coffe.C62_pixelsize_false",
    "Coffe.C62_multipoles_false",
    "Coffe.C62_fftlog_false"
   ],
   "note": "All analytic integrals are right (multipoles 0 to 6). With a linear spectrum only the first pixel size is used, the multipoles 7 to 9 give zero, and FFTLog integration ignores the request."
  },
  {
   "property": "C63",
   "status": "partial",
   "theorems": [
    "Coffe.C63_off_diagonal",
    "Coffe.C63_continuous",
    "Coffe.C63_stored",
    "Coffe.C63_divergent_stored",
    "Coffe.C63_false",
    "Coffe.C63_example",
    "Coffe.C63_double"
   ],
   "note": "Away from coincident points the correlation is right and has a limit. The stored value is the limit times the fourth power of the distance (the integration routine multiplies by sep^(n-l) although the comment says that n and l do not matter): a factor 10^12 at 1000 Mpc."
  },
  {
   "property": "C64",
   "status": "partial",
   "theorems": [
    "Coffe.C64_partial",
    "Coffe.C64_missing_factor",
    "Coffe.C64_false",
    "Coffe.C64_flatsky"
   ],
   "note": "Proved for all integrals but one, for every size of the grid and homogeneous numerical routines. In the flat-sky integral the table of a redshift lacks the factor sqrt(2/pi) 2 pi^2 (about 15.7) that the table at redshift zero has, so the flat-sky density-lensing correlation function is too small by it."
  },
  {
   "property": "C65",
   "status": "partial",
   "theorems": [
    "Coffe.C65_partial",
    "Coffe.C65_false"
   ],
   "note": "Covered up to redshift 2.97. Redshifts up to 10 are accepted."
  },
  {
   "property": "C66",
   "status": "partial",
   "theorems": [
    "Coffe.C66_local",
    "Coffe.C66_local_partial",
    "Coffe.C66_doppler",
    "Coffe.C66_false",
    "Coffe.C66_single",
    "Coffe.C66_single_partial",
    "Coffe.C66_single_false",
    "Coffe.C66_double",
    "Coffe.C66_double_partial",
    "Coffe.lensing_laplacian"
   ],
   "note": "Proved from the plane waves for all 28 + 21 + 6 full-sky terms with exact tables, except for the faults found: Doppler-Doppler has one part with the wrong sign; Doppler with d2, g1, g2, g3, g4, g5 lacks the Doppler amplitude; g1-, g2-, g3-lensing lack 1/a; density-g5 multiplies by a instead of dividing; Doppler-lensing uses properties of the wrong population; g5-lensing has the conformal Hubble rate instead of the growth rate. C66_local, C66_single and C66_double say exactly what is computed instead. Not covered: flat sky, coincident points, rsd-lensing for |mu| above 0.999, the non-linear spectrum."
  },
  {
   "property": "C67",
   "status": "partial",
   "theorems": [
    "Coffe.C67_partial",
    "Coffe.C67_old_names",
    "Coffe.C67_bias_partial",
    "Coffe.C67_accepts",
    "Coffe.C67_ignored_false",
    "Coffe.C67_sampling_false",
    "Coffe.C67_cross_false",
    "Coffe.C67_bias_false"
   ],
   "note": "Proved for every file that loads (C67_accepts: which files do) and all parameters but seven (has_g2, has_only_cross_correlations, verbose, integration_1d_prec, covariance_populations, start_large_k_at_tau_h_over_tau_k, omega_cdm), which are ignored under their own names; for the two of them that have an old name or are an effect the old form works. integrals_fftlog_sampling makes any file unreadable. A single value of a bias is ignored unless the file also names an input file."
  },
  {
   "property": "C68",
   "status": "partial",
   "theorems": [
    "Coffe.C68_box",
    "Coffe.C68_parts",
    "Coffe.C68_partial",
    "Coffe.C68_odd_true",
    "Coffe.C68_odd_false",
    "Coffe.C68_density_false"
   ],
   "note": "The formula for Gaussian fields is derived for a periodic box (finite sums); the continuum form with the integral over wave vectors is the specification of the survey. Proved for the standard integration, fixed redshifts, exact quadrature and special functions, unless both multipoles are odd, and for tracers 1 and 2 of populations 1 and 2 (or equal densities). For odd multipoles the terms with exchanged tracers have the wrong sign; the number densities are used for the first and second tracer instead of the first and second population. Not covered: redshift bins (average covariance), FFTLog."
  },
  {
   "property": "C69",
   "status": "partial",
   "theorems": [
    "Coffe.C69_exchange_partial",
    "Coffe.C69_odd_partial",
    "Coffe.C69_odd_false"
   ],
   "note": "Proved for any homogeneous quadrature with the symmetries of the cube and symmetric tables, except Doppler-lensing (unless the magnification bias is one constant) and density-lensing with a spectrum from CLASS. C69_odd_false: the dipole of one population with a magnification bias that depends on redshift is not zero."
  },
  {
   "property": "C70",
   "status": "partial",
   "theorems": [
    "Coffe.C70_settings_partial",
    "Coffe.C70_reuse_partial",
    "Coffe.C70_k_max_false"
   ],
   "note": "Every attribute except k_min and k_max (these can only shrink the range), and all attributes when a spectrum is present and recompute is False. C70_k_max_false: running CLASS overwrites k_max (and k_min) of the user with the range CLASS covers."
  },
  {
   "property": "C71",
   "status": "partial",
   "theorems": [
    "Coffe.C71_upload_used_partial",
    "Coffe.C71_recompute_false",
    "Coffe.C71_effect_false"
   ],
   "note": "Proved for computations with recompute=False, the survey settings listed in Spec/PyComputing (including density, RSD and lensing switches) and the bias functions. C71_recompute_false: recompute=True replaces the upload by CLASS. C71_effect_false: so does switching on any of the other effects (has_d1 .. has_g5)."
  },
  {
   "property": "C72",
   "status": "partial",
   "theorems": [
    "Coffe.C72_alive_partial",
    "Coffe.C72_plain_partial",
    "Coffe.C72_plain_local_partial",
    "Coffe.C72_widths_false",
    "Coffe.C72_upload_false",
    "Coffe.C72_average_false",
    "Coffe.C72_average_covariance_false",
    "Coffe.C72_spline_false",
    "Coffe.C72_sampling_false",
    "Coffe.C72_no_separation_false",
    "Coffe.C72_fftlog_false",
    "Coffe.C72_separation_false",
    "Coffe.C72_range_false",
    "Coffe.C72_redshift_false",
    "Coffe.C72_table_false",
    "Coffe.C72_integral_false"
   ],
   "note": "Proved for histories whose calls satisfy Careful (Spec/PyComputing): as many widths of the redshift bins as mean redshifts with the effects that need the divergent integral, fitting lists for the two redshift-averaged computations, at least five increasing samples of biases, spectra and background, an even FFTLog sampling, bins and look-ups that end inside the tables, separations when the flat-sky nonlocal terms are on, uploads only with a linear spectrum type or after CLASS has run. C72_plain_partial: assignments other than background_sampling, z_mean and deltaz, reading the parameters, and the correlation function and multipoles need no care; C72_plain_local_partial: the same with z_mean and deltaz but without the effects d2 and g1 to g5. Each _false theorem shows that one of the conditions is needed. The numerical libraries are assumed to succeed, and the check of the integrands for non-finite values, which also ends the process (src/functions.c:1429-1482), is not part of the Python model."
  },
  {
   "property": "C73",
   "status": "partial",
   "theorems": [
    "Coffe.C73_full_sky",
    "Coffe.C73_multipoles_partial",
    "Coffe.C73_class_ratio",
    "Coffe.C73_class_false",
    "Coffe.C73_len_len_ignores_class",
    "Coffe.C73_len_len_class_false"
   ],
   "note": "Without flat-sky approximations of the lensing terms: any spectrum. With them: proved for a linear spectrum (or without the midpoint approximation) and exact quadrature and splines, all orders; false for spectra of CLASS with the midpoint approximation (C73_class_ratio gives the exact ratio)."
  },
  {
   "property": "C74",
   "status": "partial",
   "theorems": [
    "Coffe.C74_corrfunc_partial",
    "Coffe.C74_multipoles_partial",
    "Coffe.C74_average_partial",
    "Coffe.C74_behind_false",
    "Coffe.C74_end_false",
    "Coffe.C74_bias_false"
   ],
   "note": "Proved for every pair of which both points are in front of the observer (separation less than twice the distance), for quadrature rules that look only inside the unit cube, and for a distance that grows with redshift and whose inverse is tabulated exactly. False for larger separations (a negative distance is looked up); near the end of the tables (background z = 15, default biases z = 10) accepted settings look beyond them."
  },
  {
   "property": "C75",
   "status": "partial",
   "theorems": [
    "Coffe.C75_partial",
    "Coffe.C75_defaults",
    "Coffe.C75_new_names_false",
    "Coffe.C75_old_names_false",
    "Coffe.C75_separations_false",
    "Coffe.C75_bins_false",
    "Coffe.C75_contributions_false",
    "Coffe.C75_bias_false"
   ],
   "note": "Proved for the 41 items of the structure Agree (cosmology up to the tolerance of np.allclose, samplings, covariance methods, redshifts, bins, angles, multipoles, survey, switches, contributions with density, k-range, six biases), for every file without the option names that only Python knows. False for the rest: 56 option names are read by one of the two only, redshift bins without brackets, contributions without density, constant biases without an input file. Not covered: which text libconfig and configparser accept, decimal numbers for integer options (truncated by C, rejected by Python)."
  },
  {
   "property": "C76",
   "status": "proved",
   "theorems": [
    "Coffe.C76_succeeds",
    "Coffe.C76_table",
    "Coffe.C76_fails",
    "Coffe.C76_background"
   ],
   "note": "The whole of compute_output, np.savetxt included; argparse is taken as documented. The background file agrees in titles and numbers with that of the C program if the splines pass through the table. Not covered: not-a-number and infinite values, an output file that cannot be opened."
  },
  {
   "property": "C77",
   "status": "partial",
   "theorems": [
    "Coffe.C77_nonintegrated",
    "Coffe.C77_single",
    "Coffe.C77_double_partial",
    "Coffe.C77_signal_partial",
    "Coffe.C77_background",
    "Coffe.C77_table",
    "Coffe.C77_table_half",
    "Coffe.C77_renormalization",
    "Coffe.C77_exact_tables",
    "Coffe.C77_g5_lensing_false",
    "Coffe.C77_coincident_false",
    "Coffe.C77_zero_separation_power",
    "Coffe.C77_covariance",
    "Coffe.C77_fftlog"
   ],
   "note": "False for lensing with the fifth potential term and for lensing at points that the code takes for one; the tabulated limit of the divergent entry at coincident points has the wrong power of length. Proved for everything else, and for the covariance (both methods of integration). The step from the rows of the background to the splines, and the FFT values of the signal's tables, are not covered."
  },
  {
   "property": "C78",
   "status": "partial",
   "theorems": [
    "Coffe.C78_multipoles_partial",
    "Coffe.C78_corrfunc_partial",
    "Coffe.C78_average_partial",
    "Coffe.C78_nodes",
    "Coffe.C78_range",
    "Coffe.C78_range_average",
    "Coffe.C78_wide_false",
    "Coffe.C78_python_average_false"
   ],
   "note": "Proved for separations at most twice the distance from the mean redshift to the edge of its bin (and for averaged multipoles when the table is made for them). False for larger separations, which are accepted, and for averaged multipoles of the Python package, whose table is made for the mean redshifts. The distance is the largest over all bins, with the array accesses that calculate it (C78_range)."
  },
  {
   "property": "C79",
   "status": "partial",
   "theorems": [
    "Coffe.C79_equation_partial",
    "Coffe.C79_tables",
    "Coffe.C79_equation_false"
   ],
   "note": "Proved without radiation, for every dark energy; the tabulated ratio is the right one at every node with exact integration. With radiation the equation is that of another expansion: dark energy is taken to be everything but matter. A matter density of one divides by zero."
  },
  {
   "property": "C80",
   "status": "partial",
   "theorems": [
    "Coffe.C80_mellin",
    "Coffe.C80_covariance_partial",
    "Coffe.C80_tables_partial",
    "Coffe.C80_reflection",
    "Coffe.C80_conj",
    "Coffe.C80_negative",
    "Coffe.C80_values"
   ],
   "note": "The closed form is proved to be the integral for every order and every complex exponent off the integers. The error of the nine-term Gamma function is a hypothesis (bounded by one part in 10^9 at 1 and 1/2, exact reflection and conjugation proved everywhere); a bound over the whole half-plane is missing. Exponents that are integers between -l and l+1 at frequency zero, and the shifted orders of flat-sky integrals, are not covered."
  },
  {
   "property": "C81",
   "status": "partial",
   "theorems": [
    "Coffe.C81_attributes",
    "Coffe.C81_constructor",
    "Coffe.C81_refused",
    "Coffe.C81_dict",
    "Coffe.C81_fixed",
    "Coffe.C81_classes",
    "Coffe.C81_names",
    "Coffe.C81_private_false"
   ],
   "note": "Proved for attributes without a leading underscore. Assigning to _value changes a result (C81_private_false), as usual in Python. The text and HTML forms are not modelled."
  },
  {
   "property": "C82",
   "status": "partial",
   "theorems": [
    "Coffe.C82_finite",
    "Coffe.C82_infinite",
    "Coffe.C82_range_partial",
    "Coffe.C82_history",
    "Coffe.C82_lists",
    "Coffe.C82_nan_false",
    "Coffe.C82_spreads_false",
    "Coffe.C82_budget_false",
    "Coffe.C82_stuck_false"
   ],
   "note": "Proved except for NaN: infinities are refused, lists accept only numbers, and without NaN every history leaves numbers. Every scalar setting accepts NaN (C82_nan_false), it spreads to other densities, switches off the check of the energy budget, and can remain after the setting that caused it is repaired. C82_finite shows that this model with special values agrees with the model with exact reals on numbers."
  },
  {
   "property": "C83",
   "status": "partial",
   "theorems": [
    "Coffe.C83_partial",
    "Coffe.C83_definite_partial",
    "Coffe.C83_object_partial"
   ],
   "note": "Proved for the standard integration, assuming that its quadrature has non-negative weights, for the computation and for the rows an object returns (mean redshifts). With FFTLog the matrix is not even symmetric (C23_fftlog_false)."
  },
  {
   "property": "C84",
   "status": "partial",
   "theorems": [
    "Coffe.C84_inputs",
    "Coffe.C84_rows_partial",
    "Coffe.C84_average_partial",
    "Coffe.C84_growth_false",
    "Coffe.C84_spectrum_false"
   ],
   "note": "Row for row on a new object, for distinct mean redshifts or bins with distinct centres; C01 and C02 extend this to other histories. False for spectrum types other than linear: the covariance then uses the linear spectrum at redshift zero without growth (C84_growth_false, C84_spectrum_false)."
  },
  {
   "property": "C85",
   "status": "partial",
   "theorems": [
    "Coffe.C85_inputs",
    "Coffe.C85_partial"
   ],
   "note": "At the redshifts of the tables, for exact quadrature, an interpolation that passes through the points of its table, and a new object (C01 and C02 extend this to other histories). Between the redshifts of the tables the numbers are interpolated. The growth of the dark energy density is the tabulated one (C34, C79); neutrinos are left out (C34)."
  },
  {
   "property": "C86",
   "status": "partial",
   "theorems": [
    "Coffe.C86_partial",
    "Coffe.C86_names",
    "Coffe.C86_amplitude_partial",
    "Coffe.C86_sigma8_false",
    "Coffe.C86_small_false",
    "Coffe.C86_digits_false",
    "Coffe.C86_units_false",
    "Coffe.C86_unset_false"
   ],
   "note": "Proved for the numbers other than the largest wave number and the amplitude, up to the seventh digit. What CLASS does with its input is not modelled."
  }
 ]
}