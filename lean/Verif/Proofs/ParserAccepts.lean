import Verif.Proofs.ParserOk

/-! # Complete settings files are accepted -/

namespace Coffe
open Classical

theorem spline_min_size_le (m : ℤ) : spline_min_size m ≤ 5 := by
  unfold spline_min_size
  split_ifs <;> omega

theorem bias_default_usable (v : ℝ) : ((bias_default v).map Prod.fst).Pairwise (· < ·) := by
  unfold bias_default
  rw [List.map_map, List.pairwise_map]
  refine List.Pairwise.imp ?_ List.pairwise_lt_range
  intro i j hij
  show (i : ℝ) < j
  exact_mod_cast hij

theorem parse_bias_single {E : ParserEnv} {c : Conf} {m : ℤ} {flag setting single : String} {v : ℝ}
    (h : lookup_int c flag ≠ some 1) (hv : lookup_float c single = some v) :
    parse_bias E c m flag setting single = .ok (bias_default v) := by
  have h' : (lookup_int c flag).getD 0 ≠ 1 := by
    intro e
    apply h
    cases hl : lookup_int c flag with
    | none => rw [hl] at e; cases e
    | some k => rw [hl] at e; exact congrArg some e
  have hl : (bias_default v).length = 11 := by simp [bias_default]
  refine parse_bias_iff.2 ⟨fun e => absurd e h', fun _ => ⟨v, hv, rfl⟩, by rw [hl]; decide, ?_, bias_default_usable v⟩
  rw [hl]
  exact (spline_min_size_le m).trans (by decide)

theorem parser_accepts {E : ParserEnv} {R : ClassRun} {c : Conf} {ty : ℤ} (H : Complete E c ty) :
    ∃ p, coffe_parser_init E R c = .ok p := by
  obtain ⟨i_verbose, hi_verbose⟩ := H.ints "verbose" (by simp)
  obtain ⟨i_background_sampling, hi_background_sampling⟩ := H.ints "background_sampling" (by simp)
  obtain ⟨i_interpolation, hi_interpolation⟩ := H.ints "interpolation" (by simp)
  obtain ⟨i_bessel_sampling, hi_bessel_sampling⟩ := H.ints "bessel_sampling" (by simp)
  obtain ⟨i_integration_sampling, hi_integration_sampling⟩ := H.ints "integration_sampling" (by simp)
  obtain ⟨i_covariance_window, hi_covariance_window⟩ := H.ints "covariance_window" (by simp)
  obtain ⟨i_flatsky_local, hi_flatsky_local⟩ := H.ints "flatsky_local" (by simp)
  obtain ⟨i_flatsky_local_nonlocal, hi_flatsky_local_nonlocal⟩ := H.ints "flatsky_local_nonlocal" (by simp)
  obtain ⟨i_flatsky_nonlocal, hi_flatsky_nonlocal⟩ := H.ints "flatsky_nonlocal" (by simp)
  obtain ⟨i_only_cross_correlations, hi_only_cross_correlations⟩ := H.ints "only_cross_correlations" (by simp)
  obtain ⟨x_omega_m, hx_omega_m⟩ := H.floats "omega_m" (by simp)
  obtain ⟨x_omega_baryon, hx_omega_baryon⟩ := H.floats "omega_baryon" (by simp)
  obtain ⟨x_omega_gamma, hx_omega_gamma⟩ := H.floats "omega_gamma" (by simp)
  obtain ⟨x_w0, hx_w0⟩ := H.floats "w0" (by simp)
  obtain ⟨x_wa, hx_wa⟩ := H.floats "wa" (by simp)
  obtain ⟨x_k_min, hx_k_min⟩ := H.floats "k_min" (by simp)
  obtain ⟨x_k_max, hx_k_max⟩ := H.floats "k_max" (by simp)
  obtain ⟨x_galaxy_bias1, hx_galaxy_bias1⟩ := H.floats "galaxy_bias1" (by simp)
  obtain ⟨x_galaxy_bias2, hx_galaxy_bias2⟩ := H.floats "galaxy_bias2" (by simp)
  obtain ⟨x_magnification_bias1, hx_magnification_bias1⟩ := H.floats "magnification_bias1" (by simp)
  obtain ⟨x_magnification_bias2, hx_magnification_bias2⟩ := H.floats "magnification_bias2" (by simp)
  obtain ⟨x_evolution_bias1, hx_evolution_bias1⟩ := H.floats "evolution_bias1" (by simp)
  obtain ⟨x_evolution_bias2, hx_evolution_bias2⟩ := H.floats "evolution_bias2" (by simp)
  obtain ⟨t_output_path, ht_output_path⟩ := H.strings "output_path" (by simp)
  obtain ⟨t_output_prefix, ht_output_prefix⟩ := H.strings "output_prefix" (by simp)
  obtain ⟨t_input_power_spectrum, ht_input_power_spectrum⟩ := H.strings "input_power_spectrum" (by simp)
  obtain ⟨l_output_background, hl_output_background⟩ := H.texts "output_background" (by simp)
  obtain ⟨l_correlation_contributions, hl_correlation_contributions⟩ := H.texts "correlation_contributions" (by simp)
  obtain ⟨mm, hm1, hm2, hm3⟩ := H.method
  obtain ⟨dx, dy, dz, dw, hd1, hd2, hd3, hd4, hd5⟩ := H.derivatives
  obtain ⟨p1, h1⟩ : ∃ p1, p1 = { CPar.default E with
        output_type := ty, type_bg := l_output_background, background_bins := i_background_sampling, Omega0_m := x_omega_m,
        Omega0_baryon := x_omega_baryon, Omega0_gamma := x_omega_gamma, Omega0_de := 1 - (x_omega_m + x_omega_gamma) } := ⟨_, rfl⟩
  have s1 : parse_general c (CPar.default E) = .ok p1 := parse_general_iff.2 ⟨_, _, _, _, _, _, _, hi_verbose, H.type,
    parse_string_array_lists hl_output_background, hi_background_sampling, hx_omega_m, hx_omega_baryon, hx_omega_gamma, h1⟩
  have t1 : p1.output_type = ty := (congrArg CPar.output_type h1 :)
  obtain ⟨p2, s2⟩ : ∃ p2, parse_z_mean c p1 = .ok p2 := by
    by_cases hm : HasMean p1
    · refine ⟨_, parse_z_mean_iff.2 ⟨parse_double_array c "z_mean" [], rfl, fun _ => ⟨rfl, ?_⟩, fun e => absurd hm e⟩⟩
      rcases H.redshifts (by unfold HasMean at hm; rw [t1] at hm; exact hm) with hz | ⟨l, hz, hz'⟩
      · intro x hx
        unfold parse_double_array at hx
        rw [hz] at hx
        cases hx
      · rw [parse_double_array_lists hz]
        exact hz'
    · exact ⟨_, parse_z_mean_iff.2 ⟨p1.z_mean, rfl, fun e => absurd e hm, fun _ => rfl⟩⟩
  obtain ⟨z2, h2, b1, b2⟩ := parse_z_mean_iff.1 s2
  obtain ⟨p3, s3⟩ : ∃ p3, parse_z_range c p2 = p3 := ⟨_, rfl⟩
  have h3 := s3.symm.trans (parse_z_range_eq c p2)
  obtain ⟨p4, h4⟩ : ∃ p4, p4 = { p3 with interp_method := i_interpolation } := ⟨_, rfl⟩
  have s4 : parse_interpolation c p3 = .ok p4 := parse_interpolation_iff.2 ⟨_, hi_interpolation, h4⟩
  obtain ⟨p5, s5⟩ : ∃ p5, parse_mu_multipoles c p4 = p5 := ⟨_, rfl⟩
  have h5 := s5.symm.trans (parse_mu_multipoles_eq c p4)
  have t5 : p5.output_type = ty := ((congrArg CPar.output_type h5 :).trans ((congrArg CPar.output_type h4 :).trans ((congrArg CPar.output_type h3 :).trans (congrArg CPar.output_type h2 :)))).trans t1
  obtain ⟨p6, s6⟩ : ∃ p6, parse_separations c p5 = .ok p6 := by
    by_cases hm : HasSep p5
    · obtain ⟨a, b, e1, e2, e3, e4, e5⟩ := H.separations (by unfold HasSep at hm; rw [t5] at hm; exact hm)
      exact ⟨_, parse_separations_iff.2 ⟨_, rfl, fun _ => read_separations_iff.2 ⟨a, b, e1, e2, e3, e4, e5, rfl⟩,
        fun e => absurd hm e⟩⟩
    · exact ⟨_, parse_separations_iff.2 ⟨p5.sep, rfl, fun e => absurd e hm, fun _ => rfl⟩⟩
  obtain ⟨s6', h6, d1, d2⟩ := parse_separations_iff.1 s6
  obtain ⟨p7, s7⟩ : ∃ p7, parse_integration E c p6 = .ok p7 := by
    unfold parse_integration
    simp only [cbind_iff, cpure_iff, parse_int_iff, parse_double_iff, require_iff, parse_method_iff,
      parse_fftlog_iff]
    refine ⟨_, i_bessel_sampling, hi_bessel_sampling, _,
      ⟨if E.have_cuba = true then p6.integration_method else mm, rfl, fun e => ?_, fun e => if_pos e⟩,
      i_integration_sampling, hi_integration_sampling, 1, H.covariance_method, (), .inl rfl, _,
      ⟨_, _, rfl, fun e => absurd e (by decide), fun _ => ⟨rfl, rfl⟩⟩, x_w0, hx_w0, x_wa, hx_wa, rfl⟩
    rw [e, if_neg (by decide)]
    exact ⟨hm1, hm2, hm3⟩
  obtain ⟨bessel, me, ib, cm, cb, ct, w0, wa, e1, e2, e3, e4, e5, e6, e7, e8, e9, e10, h7⟩ := parse_integration_ok s7
  obtain ⟨p8, h8⟩ : ∃ p8, p8 = { p7 with
        galaxy_bias1 := bias_default x_galaxy_bias1, galaxy_bias2 := bias_default x_galaxy_bias2,
        magnification_bias1 := bias_default x_magnification_bias1, magnification_bias2 := bias_default x_magnification_bias2,
        evolution_bias1 := bias_default x_evolution_bias1, evolution_bias2 := bias_default x_evolution_bias2 } := ⟨_, rfl⟩
  have s8 : parse_biases E c p7 = .ok p8 := parse_biases_iff.2 ⟨_, _, _, _, _, _,
    parse_bias_single (H.flags _ (by simp)) hx_galaxy_bias1, parse_bias_single (H.flags _ (by simp)) hx_galaxy_bias2,
    parse_bias_single (H.flags _ (by simp)) hx_magnification_bias1,
    parse_bias_single (H.flags _ (by simp)) hx_magnification_bias2,
    parse_bias_single (H.flags _ (by simp)) hx_evolution_bias1, parse_bias_single (H.flags _ (by simp)) hx_evolution_bias2, h8⟩
  have t8 : p8.output_type = ty := ((congrArg CPar.output_type h8 :).trans ((congrArg CPar.output_type h7 :).trans (congrArg CPar.output_type h6 :))).trans t5
  obtain ⟨p9, s9⟩ : ∃ p9, parse_survey c p8 = .ok p9 := by
    by_cases hm : HasSurvey p8
    · exact ⟨_, parse_survey_iff.2 ⟨_, _, _, _, _, rfl, fun _ => ⟨hi_covariance_window, rfl, rfl, rfl, rfl⟩,
        fun e => absurd hm e⟩⟩
    · exact ⟨_, parse_survey_iff.2 ⟨_, _, _, _, _, rfl, fun e => absurd e hm, fun _ => ⟨rfl, rfl, rfl, rfl, rfl⟩⟩⟩
  obtain ⟨n1, n2, fs, px, cw, h9, i1, i2⟩ := parse_survey_iff.1 s9
  have t9 : p9.output_type = ty := (congrArg CPar.output_type h9 :).trans t8
  have d9 : p9.density1 = n1 := (congrArg CPar.density1 h9 :)
  have dd9 : p9.density2 = n2 := (congrArg CPar.density2 h9 :)
  have px9 : p9.pixelsize = px := (congrArg CPar.pixelsize h9 :)
  have fs9 : p9.fsky = fs := (congrArg CPar.fsky h9 :)
  obtain ⟨p10, s10⟩ : ∃ p10, parse_covariance_multipoles c p9 = .ok p10 := by
    by_cases hm : p9.output_type = COVARIANCE_MULTIPOLES
    · obtain ⟨l1, l2, lf, lz, ld, lx, g1, g2, g3, g4, g5, g6, q1, q2, q3, q4, q5⟩ := H.covariance (by rw [← t9]; exact hm)
      obtain ⟨_, v1, v2, v3, v4⟩ := i1 (.inl (by rw [t8, ← t9]; exact hm))
      rw [parse_double_array_lists g1] at v1
      rw [parse_double_array_lists g2] at v2
      rw [parse_double_array_lists g3] at v3
      rw [parse_double_array_lists g6] at v4
      refine ⟨_, parse_covariance_multipoles_iff.2 ⟨lz, ld, lf, rfl, fun _ => ?_, fun e => absurd hm e⟩⟩
      rw [parse_double_array_lists g4, parse_double_array_lists g5, parse_double_array_lists g3, d9, dd9, px9, v1, v2, v4]
      exact ⟨rfl, rfl, rfl, q1, q2, q3, q4, q5⟩
    · exact ⟨_, parse_covariance_multipoles_iff.2 ⟨_, _, _, rfl, fun e => absurd e hm, fun _ => ⟨rfl, rfl, rfl⟩⟩⟩
  obtain ⟨z10, dz10, fs10, h10, j1, j2⟩ := parse_covariance_multipoles_iff.1 s10
  have t10 : p10.output_type = ty := (congrArg CPar.output_type h10 :).trans t9
  have d10 : p10.density1 = n1 := (congrArg CPar.density1 h10 :).trans d9
  have dd10 : p10.density2 = n2 := (congrArg CPar.density2 h10 :).trans dd9
  have fs10' : p10.fsky = fs10 := (congrArg CPar.fsky h10 :)
  obtain ⟨p11, s11⟩ : ∃ p11, parse_covariance_average c p10 = .ok p11 := by
    by_cases hm : p10.output_type = COVARIANCE_AVERAGE_MULTIPOLES
    · obtain ⟨l1, l2, lf, la, lb, g1, g2, g3, g4, g5, q1, q2, q3, q4⟩ := H.covariance_average (by rw [← t10]; exact hm)
      obtain ⟨_, v1, v2, v3, v4⟩ := i1 (.inr (by rw [t8, ← t10]; exact hm))
      have hn : p9.output_type ≠ COVARIANCE_MULTIPOLES := by rw [t9, ← t10, hm]; decide
      have v5 := (j2 hn).2.2
      rw [parse_double_array_lists g1] at v1
      rw [parse_double_array_lists g2] at v2
      rw [parse_double_array_lists g3] at v3
      refine ⟨_, parse_covariance_average_iff.2 ⟨la, lb, rfl, fun _ => ?_, fun e => absurd hm e⟩⟩
      rw [parse_double_array_lists g4, parse_double_array_lists g5, d10, dd10, fs10', v5, fs9, v1, v2, v3]
      exact ⟨rfl, rfl, q1, q2, q3, q4⟩
    · exact ⟨_, parse_covariance_average_iff.2 ⟨_, _, rfl, fun e => absurd e hm, fun _ => ⟨rfl, rfl⟩⟩⟩
  obtain ⟨zl, zr, h11, k1, k2⟩ := parse_covariance_average_iff.1 s11
  obtain ⟨p12, s12⟩ : ∃ p12, parse_contributions c p11 = .ok p12 :=
    ⟨_, parse_contributions_iff.2 ⟨_, parse_string_array_lists hl_correlation_contributions, rfl⟩⟩
  obtain ⟨l12, l1, h12⟩ := parse_contributions_iff.1 s12
  obtain ⟨p13, h13⟩ : ∃ p13, p13 = { p12 with
        output_path := t_output_path, output_prefix := t_output_prefix, flatsky_local := i_flatsky_local,
        flatsky_local_nonlocal := i_flatsky_local_nonlocal, flatsky_nonlocal := i_flatsky_nonlocal } := ⟨_, rfl⟩
  have s13 : parse_output c p12 = .ok p13 := parse_output_iff.2 ⟨_, _, _, _, _, ht_output_path, ht_output_prefix,
    hi_flatsky_local, hi_flatsky_local_nonlocal, hi_flatsky_nonlocal, h13⟩
  obtain ⟨p14, h14⟩ : ∃ p14, p14 = { p13 with
        b_derivative := dx, f_derivative := dy, b_tilde_derivative := dz, f_tilde_derivative := dw } := ⟨_, rfl⟩
  have s14 : parse_derivatives c p13 = .ok p14 := parse_derivatives_iff.2 ⟨_, _, _, _, hd1, hd2, hd3, hd4, hd5, h14⟩
  obtain ⟨p15, s15⟩ : ∃ p15, parse_range c p14 = .ok p15 := by
    unfold parse_range
    simp only [cbind_iff, parse_int_iff, parse_double_iff, parse_window_size_iff]
    exact ⟨_, x_k_min, hx_k_min, x_k_max, hx_k_max, 0, H.window, i_only_cross_correlations, hi_only_cross_correlations,
      _, rfl, fun e => absurd rfl e, fun _ => rfl⟩
  obtain ⟨ka, kb, hw, xc, ws, r1, r2, r3, r4, r5, r6, h15⟩ := parse_range_ok s15
  obtain ⟨p16, y2⟩ : ∃ p16, p16 = { p15 with Omega0_cdm := p15.Omega0_m - p15.Omega0_baryon - p15.Omega0_nu } := ⟨_, rfl⟩
  have s16' : parse_spectrum_file E c p15 = .ok p16 := by
    unfold parse_spectrum_file
    rw [cbind_iff]
    refine ⟨_, parse_string_iff.2 ht_input_power_spectrum, ?_⟩
    rw [H.no_file _ ht_input_power_spectrum.1, y2]
    rfl
  have s16 : parse_spectrum E R c p15 = .ok p16 := by
    unfold parse_spectrum
    by_cases hc : E.have_class = true
    · rw [if_pos hc, cbind_iff]
      rcases H.no_class with hn | hn
      · rw [hn] at hc; cases hc
      · exact ⟨0, parse_int_iff.2 hn, by rw [if_neg (not_not.2 rfl)]; exact s16'⟩
    · rw [if_neg hc]
      exact s16'
  have y3 : p16.power_spectrum = p15.power_spectrum := (congrArg CPar.power_spectrum y2 :)
  have y4 : p15.power_spectrum = E.default_spectrum.map fun x => (x.1 * 0.67, x.2 / 0.67 ^ 3) := ((congrArg CPar.power_spectrum h15 :).trans ((congrArg CPar.power_spectrum h14 :).trans ((congrArg CPar.power_spectrum h13 :).trans ((congrArg CPar.power_spectrum h12 :).trans ((congrArg CPar.power_spectrum h11 :).trans ((congrArg CPar.power_spectrum h10 :).trans ((congrArg CPar.power_spectrum h9 :).trans ((congrArg CPar.power_spectrum h8 :).trans ((congrArg CPar.power_spectrum h7 :).trans ((congrArg CPar.power_spectrum h6 :).trans ((congrArg CPar.power_spectrum h5 :).trans ((congrArg CPar.power_spectrum h4 :).trans ((congrArg CPar.power_spectrum h3 :).trans (congrArg CPar.power_spectrum h2 :)))))))))))))).trans (congrArg CPar.power_spectrum h1 :)
  have y5 := y3.trans y4
  have y6 : (p16.power_spectrum.map Prod.fst).Pairwise (· < ·) := by
    rw [y5, List.map_map, List.pairwise_map]
    have := H.spectrum.2
    rw [List.pairwise_map] at this
    refine this.imp ?_
    intro a b hab
    show a.1 * 0.67 < b.1 * 0.67
    gcongr
  have y7 : p16.power_spectrum.length = E.default_spectrum.length := by rw [y5, List.length_map]
  have y8 : p16.power_spectrum ≠ [] := by
    intro e
    rw [e] at y7
    have := H.spectrum.1
    rw [← y7] at this
    cases this
  obtain ⟨p17, s17⟩ : ∃ p17, clamp_range p16 = .ok p17 := by
    unfold clamp_range
    rw [List.head?_eq_some_head y8, List.getLast?_eq_some_getLast y8]
    simp only [cbind_iff, cpure_iff]
    exact ⟨_, _, init_spline_iff.2 ⟨rfl, by rw [y7]; have := H.spectrum.1; omega,
      (spline_min_size_le _).trans (by rw [y7]; exact H.spectrum.1), y6⟩, rfl⟩
  exact ⟨p17, parser_trace.2 ⟨p1, p2, p3, p4, p5, p6, p7, p8, p9, p10, p11, p12, p13, p14, p15, p16,
    ⟨s1, s2, s3, s4, s5, s6, s7, s8, s9, s10, s11, s12, s13, s14, s15, s16, s17⟩⟩⟩

theorem parser_accepts_class {E : ParserEnv} {R : ClassRun} {c : Conf} {ty : ℤ}
    (H : Complete { E with have_class := false } c ty) (C : CompleteClass E R c) :
    ∃ p, coffe_parser_init E R c = .ok p := by
  obtain ⟨p, hp⟩ := parser_accepts (R := R) H
  obtain ⟨p1, p2, p3, p4, p5, p6, p7, p8, p9, p10, p11, p12, p13, p14, p15, p16, T⟩ := parser_trace.1 hp
  obtain ⟨k, hk, hk0⟩ := C.chosen
  obtain ⟨t, ht⟩ := C.kind
  obtain ⟨h, hh⟩ := C.floats "h" (by simp)
  obtain ⟨n, hn⟩ := C.floats "n_s" (by simp)
  obtain ⟨kp, hkp⟩ := C.floats "k_pivot" (by simp)
  obtain ⟨q16, l, s16, y1, y2, y3⟩ : ∃ (q16 : CPar) (l : Samples), parse_spectrum E R c p15 = .ok q16 ∧
      q16.power_spectrum = l ∧ 5 ≤ l.length ∧ (l.map Prod.fst).Pairwise (· < ·) := by
    unfold parse_spectrum
    rw [if_pos C.on]
    simp only [cbind_iff]
    obtain ⟨q, hq⟩ : ∃ q : CPar, q = { p15 with
      pk_type := t, h := h, sigma8 := (lookup_float c "sigma8").getD p15.sigma8,
      A_s := (lookup_float c "A_s").getD p15.A_s, n_s := n, k_pivot := kp,
      T_cmb := (lookup_float c "T_cmb").getD p15.T_cmb, N_ur := (lookup_float c "N_ur").getD p15.N_ur,
      m_ncdm := (lookup_float c "m_ncdm").getD p15.m_ncdm,
      N_ncdm := (lookup_int c "N_ncdm").getD p15.N_ncdm, YHe := (lookup_float c "YHe").getD p15.YHe,
      Omega0_nu := (lookup_float c "m_ncdm").getD p15.m_ncdm / 93.14 / h / h,
      Omega0_cdm := p15.Omega0_m - p15.Omega0_baryon - (lookup_float c "m_ncdm").getD p15.m_ncdm / 93.14 / h / h } := ⟨_, rfl⟩
    obtain ⟨l, hl, z2, z3⟩ := C.run q
    refine ⟨{ q with power_spectrum := l }, l, ⟨k, parse_int_iff.2 hk, ?_⟩, rfl, z2, z3⟩
    · rw [if_pos hk0]
      unfold parse_class
      simp only [cbind_iff, cpure_iff]
      refine ⟨t, parse_int_iff.2 ht, h, parse_double_iff.2 hh, (), ?_, n, parse_double_iff.2 hn, kp,
        parse_double_iff.2 hkp, l, by rw [hq] at hl; exact hl, by rw [hq]⟩
      unfold require
      rw [if_pos]
      rintro ⟨a, b⟩
      rcases C.amplitude with e | e
      · rw [e] at a; cases a
      · rw [e] at b; cases b
  have y8 : q16.power_spectrum ≠ [] := by
    rw [y1]
    rintro rfl
    simp at y2
  obtain ⟨p17, s17⟩ : ∃ p17, clamp_range q16 = .ok p17 := by
    unfold clamp_range
    rw [List.head?_eq_some_head y8, List.getLast?_eq_some_getLast y8]
    simp only [cbind_iff, cpure_iff]
    exact ⟨_, _, init_spline_iff.2 ⟨rfl, by rw [y1]; omega, (spline_min_size_le _).trans (by rw [y1]; exact y2),
      by rw [y1]; exact y3⟩, rfl⟩
  exact ⟨p17, parser_trace.2 ⟨p1, p2, p3, p4, p5, p6, p7, p8, p9, p10, p11, p12, p13, p14, p15, q16,
    ⟨T.s1, T.s2, T.s3, T.s4, T.s5, T.s6, T.s7, T.s8, T.s9, T.s10, T.s11, T.s12, T.s13, T.s14, T.s15, s16, s17⟩⟩⟩

theorem parser_no_steps {E : ParserEnv} {R : ClassRun} {c : Conf} {p17 : CPar} (h : coffe_parser_init E R c = .ok p17)
    (hs : HasSep p17) (h0 : lookup_int c "separations_sampling" = none) : p17.sep = [] := by
  obtain ⟨p1, p2, p3, p4, p5, p6, p7, p8, p9, p10, p11, p12, p13, p14, p15, p16, T⟩ := parser_trace.1 h
  obtain ⟨v, ty, bg, bins, om, ob, og, a1, a2, a3, a4, a5, a6, a7, h1⟩ := parse_general_iff.1 T.s1
  obtain ⟨z2, h2, b1, b2⟩ := parse_z_mean_iff.1 T.s2
  have h3 := T.s3.symm.trans (parse_z_range_eq c p2)
  obtain ⟨im, c1, h4⟩ := parse_interpolation_iff.1 T.s4
  have h5 := T.s5.symm.trans (parse_mu_multipoles_eq c p4)
  obtain ⟨s6, h6, d1, d2⟩ := parse_separations_iff.1 T.s6
  obtain ⟨bessel, me, ib, cm, cb, ct, w0, wa, e1, e2, e3, e4, e5, e6, e7, e8, e9, e10, h7⟩ := parse_integration_ok T.s7
  obtain ⟨g1, g2, m1, m2, ev1, ev2, f1, f2, f3, f4, f5, f6, h8⟩ := parse_biases_iff.1 T.s8
  obtain ⟨n1, n2, fs, px, cw, h9, i1, i2⟩ := parse_survey_iff.1 T.s9
  obtain ⟨z10, dz, fs10, h10, j1, j2⟩ := parse_covariance_multipoles_iff.1 T.s10
  obtain ⟨zl, zr, h11, k1, k2⟩ := parse_covariance_average_iff.1 T.s11
  obtain ⟨l12, l1, h12⟩ := parse_contributions_iff.1 T.s12
  obtain ⟨path, pre, fa, fb, fd, o1, o2, o3, o4, o5, h13⟩ := parse_output_iff.1 T.s13
  obtain ⟨db, df, dbt, dft, q1, q2, q3, q4, q5, h14⟩ := parse_derivatives_iff.1 T.s14
  obtain ⟨ka, kb, hw, xc, ws, r1, r2, r3, r4, r5, r6, h15⟩ := parse_range_ok T.s15
  have h16 := (parse_spectrum_same T.s16).eq
  obtain ⟨ua, ub, u1, u2, u3, u4, h17⟩ := clamp_range_ok T.s17
  have x_sep : p17.sep = s6 := ((congrArg CPar.sep h17 :).trans ((congrArg CPar.sep h16 :).trans ((congrArg CPar.sep h15 :).trans ((congrArg CPar.sep h14 :).trans ((congrArg CPar.sep h13 :).trans ((congrArg CPar.sep h12 :).trans ((congrArg CPar.sep h11 :).trans ((congrArg CPar.sep h10 :).trans ((congrArg CPar.sep h9 :).trans ((congrArg CPar.sep h8 :).trans (congrArg CPar.sep h7 :))))))))))).trans (congrArg CPar.sep h6 :)
  have t5 : p17.output_type = p5.output_type := ((congrArg CPar.output_type h17 :).trans ((congrArg CPar.output_type h16 :).trans ((congrArg CPar.output_type h15 :).trans ((congrArg CPar.output_type h14 :).trans ((congrArg CPar.output_type h13 :).trans ((congrArg CPar.output_type h12 :).trans ((congrArg CPar.output_type h11 :).trans ((congrArg CPar.output_type h10 :).trans ((congrArg CPar.output_type h9 :).trans ((congrArg CPar.output_type h8 :).trans ((congrArg CPar.output_type h7 :).trans (congrArg CPar.output_type h6 :))))))))))))
  have sep5 : HasSep p5 := by unfold HasSep at hs ⊢; rw [← t5]; exact hs
  obtain ⟨a, b, g1, g2, g3, g4, g5, g6⟩ := read_separations_iff.1 (d1 sep5)
  rw [x_sep, g6, h0]
  rfl

theorem parser_no_bins {E : ParserEnv} {R : ClassRun} {c : Conf} {p17 : CPar} (h : coffe_parser_init E R c = .ok p17)
    (hs : p17.output_type = AVERAGE_MULTIPOLES) {v : Scalar} (h0 : c "z_min" = some (.one v)) : p17.zmin = [] := by
  obtain ⟨p1, p2, p3, p4, p5, p6, p7, p8, p9, p10, p11, p12, p13, p14, p15, p16, T⟩ := parser_trace.1 h
  obtain ⟨v, ty, bg, bins, om, ob, og, a1, a2, a3, a4, a5, a6, a7, h1⟩ := parse_general_iff.1 T.s1
  obtain ⟨z2, h2, b1, b2⟩ := parse_z_mean_iff.1 T.s2
  have h3 := T.s3.symm.trans (parse_z_range_eq c p2)
  obtain ⟨im, c1, h4⟩ := parse_interpolation_iff.1 T.s4
  have h5 := T.s5.symm.trans (parse_mu_multipoles_eq c p4)
  obtain ⟨s6, h6, d1, d2⟩ := parse_separations_iff.1 T.s6
  obtain ⟨bessel, me, ib, cm, cb, ct, w0, wa, e1, e2, e3, e4, e5, e6, e7, e8, e9, e10, h7⟩ := parse_integration_ok T.s7
  obtain ⟨g1, g2, m1, m2, ev1, ev2, f1, f2, f3, f4, f5, f6, h8⟩ := parse_biases_iff.1 T.s8
  obtain ⟨n1, n2, fs, px, cw, h9, i1, i2⟩ := parse_survey_iff.1 T.s9
  obtain ⟨z10, dz, fs10, h10, j1, j2⟩ := parse_covariance_multipoles_iff.1 T.s10
  obtain ⟨zl, zr, h11, k1, k2⟩ := parse_covariance_average_iff.1 T.s11
  obtain ⟨l12, l1, h12⟩ := parse_contributions_iff.1 T.s12
  obtain ⟨path, pre, fa, fb, fd, o1, o2, o3, o4, o5, h13⟩ := parse_output_iff.1 T.s13
  obtain ⟨db, df, dbt, dft, q1, q2, q3, q4, q5, h14⟩ := parse_derivatives_iff.1 T.s14
  obtain ⟨ka, kb, hw, xc, ws, r1, r2, r3, r4, r5, r6, h15⟩ := parse_range_ok T.s15
  have h16 := (parse_spectrum_same T.s16).eq
  obtain ⟨ua, ub, u1, u2, u3, u4, h17⟩ := clamp_range_ok T.s17
  have x_zmin : p17.zmin = zl := ((congrArg CPar.zmin h17 :).trans ((congrArg CPar.zmin h16 :).trans ((congrArg CPar.zmin h15 :).trans ((congrArg CPar.zmin h14 :).trans ((congrArg CPar.zmin h13 :).trans ((congrArg CPar.zmin h12 :).trans (congrArg CPar.zmin h11 :)))))))
  have t2 : p17.output_type = p2.output_type := ((congrArg CPar.output_type h17 :).trans ((congrArg CPar.output_type h16 :).trans ((congrArg CPar.output_type h15 :).trans ((congrArg CPar.output_type h14 :).trans ((congrArg CPar.output_type h13 :).trans ((congrArg CPar.output_type h12 :).trans ((congrArg CPar.output_type h11 :).trans ((congrArg CPar.output_type h10 :).trans ((congrArg CPar.output_type h9 :).trans ((congrArg CPar.output_type h8 :).trans ((congrArg CPar.output_type h7 :).trans ((congrArg CPar.output_type h6 :).trans ((congrArg CPar.output_type h5 :).trans ((congrArg CPar.output_type h4 :).trans (congrArg CPar.output_type h3 :)))))))))))))))
  have t10 : p17.output_type = p10.output_type := ((congrArg CPar.output_type h17 :).trans ((congrArg CPar.output_type h16 :).trans ((congrArg CPar.output_type h15 :).trans ((congrArg CPar.output_type h14 :).trans ((congrArg CPar.output_type h13 :).trans ((congrArg CPar.output_type h12 :).trans (congrArg CPar.output_type h11 :)))))))
  have z10' : p10.zmin = p3.zmin := ((congrArg CPar.zmin h10 :).trans ((congrArg CPar.zmin h9 :).trans ((congrArg CPar.zmin h8 :).trans ((congrArg CPar.zmin h7 :).trans ((congrArg CPar.zmin h6 :).trans ((congrArg CPar.zmin h5 :).trans (congrArg CPar.zmin h4 :)))))))
  have hn : p10.output_type ≠ COVARIANCE_AVERAGE_MULTIPOLES := by
    rw [← t10, hs]
    decide
  rw [x_zmin, (k2 hn).1, z10', h3]
  dsimp only
  rw [if_pos (t2.symm.trans hs)]
  unfold parse_double_array
  rw [h0]
  rfl

theorem parser_no_redshifts {E : ParserEnv} {R : ClassRun} {c : Conf} {p17 : CPar} (h : coffe_parser_init E R c = .ok p17)
    (hs : p17.output_type = 1 ∨ p17.output_type = 2) (h0 : c "z_mean" = none) : p17.z_mean = [] := by
  obtain ⟨p1, p2, p3, p4, p5, p6, p7, p8, p9, p10, p11, p12, p13, p14, p15, p16, T⟩ := parser_trace.1 h
  obtain ⟨v, ty, bg, bins, om, ob, og, a1, a2, a3, a4, a5, a6, a7, h1⟩ := parse_general_iff.1 T.s1
  obtain ⟨z2, h2, b1, b2⟩ := parse_z_mean_iff.1 T.s2
  have h3 := T.s3.symm.trans (parse_z_range_eq c p2)
  obtain ⟨im, c1, h4⟩ := parse_interpolation_iff.1 T.s4
  have h5 := T.s5.symm.trans (parse_mu_multipoles_eq c p4)
  obtain ⟨s6, h6, d1, d2⟩ := parse_separations_iff.1 T.s6
  obtain ⟨bessel, me, ib, cm, cb, ct, w0, wa, e1, e2, e3, e4, e5, e6, e7, e8, e9, e10, h7⟩ := parse_integration_ok T.s7
  obtain ⟨g1, g2, m1, m2, ev1, ev2, f1, f2, f3, f4, f5, f6, h8⟩ := parse_biases_iff.1 T.s8
  obtain ⟨n1, n2, fs, px, cw, h9, i1, i2⟩ := parse_survey_iff.1 T.s9
  obtain ⟨z10, dz, fs10, h10, j1, j2⟩ := parse_covariance_multipoles_iff.1 T.s10
  obtain ⟨zl, zr, h11, k1, k2⟩ := parse_covariance_average_iff.1 T.s11
  obtain ⟨l12, l1, h12⟩ := parse_contributions_iff.1 T.s12
  obtain ⟨path, pre, fa, fb, fd, o1, o2, o3, o4, o5, h13⟩ := parse_output_iff.1 T.s13
  obtain ⟨db, df, dbt, dft, q1, q2, q3, q4, q5, h14⟩ := parse_derivatives_iff.1 T.s14
  obtain ⟨ka, kb, hw, xc, ws, r1, r2, r3, r4, r5, r6, h15⟩ := parse_range_ok T.s15
  have h16 := (parse_spectrum_same T.s16).eq
  obtain ⟨ua, ub, u1, u2, u3, u4, h17⟩ := clamp_range_ok T.s17
  have x_z_mean : p17.z_mean = z10 := ((congrArg CPar.z_mean h17 :).trans ((congrArg CPar.z_mean h16 :).trans ((congrArg CPar.z_mean h15 :).trans ((congrArg CPar.z_mean h14 :).trans ((congrArg CPar.z_mean h13 :).trans ((congrArg CPar.z_mean h12 :).trans (congrArg CPar.z_mean h11 :))))))).trans (congrArg CPar.z_mean h10 :)
  have t1 : p17.output_type = p1.output_type := ((congrArg CPar.output_type h17 :).trans ((congrArg CPar.output_type h16 :).trans ((congrArg CPar.output_type h15 :).trans ((congrArg CPar.output_type h14 :).trans ((congrArg CPar.output_type h13 :).trans ((congrArg CPar.output_type h12 :).trans ((congrArg CPar.output_type h11 :).trans ((congrArg CPar.output_type h10 :).trans ((congrArg CPar.output_type h9 :).trans ((congrArg CPar.output_type h8 :).trans ((congrArg CPar.output_type h7 :).trans ((congrArg CPar.output_type h6 :).trans ((congrArg CPar.output_type h5 :).trans ((congrArg CPar.output_type h4 :).trans ((congrArg CPar.output_type h3 :).trans (congrArg CPar.output_type h2 :))))))))))))))))
  have t9 : p17.output_type = p9.output_type := ((congrArg CPar.output_type h17 :).trans ((congrArg CPar.output_type h16 :).trans ((congrArg CPar.output_type h15 :).trans ((congrArg CPar.output_type h14 :).trans ((congrArg CPar.output_type h13 :).trans ((congrArg CPar.output_type h12 :).trans ((congrArg CPar.output_type h11 :).trans (congrArg CPar.output_type h10 :))))))))
  have z9 : p9.z_mean = z2 := ((congrArg CPar.z_mean h9 :).trans ((congrArg CPar.z_mean h8 :).trans ((congrArg CPar.z_mean h7 :).trans ((congrArg CPar.z_mean h6 :).trans ((congrArg CPar.z_mean h5 :).trans ((congrArg CPar.z_mean h4 :).trans (congrArg CPar.z_mean h3 :))))))).trans (congrArg CPar.z_mean h2 :)
  have hm : HasMean p1 := by
    rcases hs with e | e
    · exact .inl (t1.symm.trans e)
    · exact .inr (.inl (t1.symm.trans e))
  have hn : p9.output_type ≠ COVARIANCE_MULTIPOLES := by
    rw [← t9]
    rcases hs with e | e <;> rw [e] <;> decide
  rw [x_z_mean, (j2 hn).1, z9, (b1 hm).1]
  unfold parse_double_array
  rw [h0]

end Coffe
