import Verif.Proofs.ParserOk
import Verif.Spec.ParserDefaults

/-! # What an accepted settings file leaves out -/

namespace Coffe
open Classical

theorem parse_double_array_missing {c : Conf} {s : String} {old : List ℝ} (h : c s = none) : parse_double_array c s old = old := by
  unfold parse_double_array
  rw [h]

theorem parser_defaulted {E : ParserEnv} {R : ClassRun} {c : Conf} {p17 : CPar} (h : coffe_parser_init E R c = .ok p17) :
    Defaulted E c p17 ∧ (p17.output_type = COVARIANCE_AVERAGE_MULTIPOLES → p17.sep = PyPar.default.sep) := by
  obtain ⟨p1, p2, p3, p4, p5, p6, p7, p8, p9, p10, p11, p12, p13, p14, p15, p16, T⟩ := parser_trace.1 h
  obtain ⟨v, ty, bg, bins, om, ob, og, a1, a2, a3, a4, a5, a6, a7, h1⟩ := parse_general_iff.1 T.s1
  obtain ⟨z2, h2, b1, b2⟩ := parse_z_mean_iff.1 T.s2
  have h3 := T.s3.symm.trans (parse_z_range_eq c p2)
  obtain ⟨im, c1, h4⟩ := parse_interpolation_iff.1 T.s4
  have h5 := T.s5.symm.trans (parse_mu_multipoles_eq c p4)
  obtain ⟨s6, h6, d1, d2⟩ := parse_separations_iff.1 T.s6
  obtain ⟨bessel, me, ib, cm, cb, ct, w0, wa, e1, e2, e3, e4, e5, e6, e7, e8, e9, e10, h7⟩ := parse_integration_ok T.s7
  obtain ⟨g1, g2, m1, m2, ev1, ev2, f1, f2, f3, f4, f5, f6, h8⟩ := parse_biases_iff.1 T.s8
  obtain ⟨n1, n2, fs, px, cw, h9, i1, i2⟩ := parse_survey_iff.1 T.s9
  obtain ⟨z10, dz, fs10, h10, j1, j2⟩ := parse_covariance_multipoles_iff.1 T.s10
  obtain ⟨zl, zr, h11, k1, k2⟩ := parse_covariance_average_iff.1 T.s11
  obtain ⟨l12, l1, h12⟩ := parse_contributions_iff.1 T.s12
  obtain ⟨path, pre, fa, fb, fd, o1, o2, o3, o4, o5, h13⟩ := parse_output_iff.1 T.s13
  obtain ⟨db, df, dbt, dft, q1, q2, q3, q4, q5, h14⟩ := parse_derivatives_iff.1 T.s14
  obtain ⟨ka, kb, hw, xc, ws, r1, r2, r3, r4, r5, r6, h15⟩ := parse_range_ok T.s15
  have h16 := (parse_spectrum_same T.s16).eq
  obtain ⟨ua, ub, u1, u2, u3, u4, h17⟩ := clamp_range_ok T.s17
  have t1 : p17.output_type = (p1).output_type := ((congrArg CPar.output_type h17 :).trans ((congrArg CPar.output_type h16 :).trans ((congrArg CPar.output_type h15 :).trans ((congrArg CPar.output_type h14 :).trans ((congrArg CPar.output_type h13 :).trans ((congrArg CPar.output_type h12 :).trans ((congrArg CPar.output_type h11 :).trans ((congrArg CPar.output_type h10 :).trans ((congrArg CPar.output_type h9 :).trans ((congrArg CPar.output_type h8 :).trans ((congrArg CPar.output_type h7 :).trans ((congrArg CPar.output_type h6 :).trans ((congrArg CPar.output_type h5 :).trans ((congrArg CPar.output_type h4 :).trans ((congrArg CPar.output_type h3 :).trans (congrArg CPar.output_type h2 :))))))))))))))))
  have t2 : p17.output_type = (p2).output_type := ((congrArg CPar.output_type h17 :).trans ((congrArg CPar.output_type h16 :).trans ((congrArg CPar.output_type h15 :).trans ((congrArg CPar.output_type h14 :).trans ((congrArg CPar.output_type h13 :).trans ((congrArg CPar.output_type h12 :).trans ((congrArg CPar.output_type h11 :).trans ((congrArg CPar.output_type h10 :).trans ((congrArg CPar.output_type h9 :).trans ((congrArg CPar.output_type h8 :).trans ((congrArg CPar.output_type h7 :).trans ((congrArg CPar.output_type h6 :).trans ((congrArg CPar.output_type h5 :).trans ((congrArg CPar.output_type h4 :).trans (congrArg CPar.output_type h3 :)))))))))))))))
  have t4 : p17.output_type = (p4).output_type := ((congrArg CPar.output_type h17 :).trans ((congrArg CPar.output_type h16 :).trans ((congrArg CPar.output_type h15 :).trans ((congrArg CPar.output_type h14 :).trans ((congrArg CPar.output_type h13 :).trans ((congrArg CPar.output_type h12 :).trans ((congrArg CPar.output_type h11 :).trans ((congrArg CPar.output_type h10 :).trans ((congrArg CPar.output_type h9 :).trans ((congrArg CPar.output_type h8 :).trans ((congrArg CPar.output_type h7 :).trans ((congrArg CPar.output_type h6 :).trans (congrArg CPar.output_type h5 :)))))))))))))
  have t5 : p17.output_type = (p5).output_type := ((congrArg CPar.output_type h17 :).trans ((congrArg CPar.output_type h16 :).trans ((congrArg CPar.output_type h15 :).trans ((congrArg CPar.output_type h14 :).trans ((congrArg CPar.output_type h13 :).trans ((congrArg CPar.output_type h12 :).trans ((congrArg CPar.output_type h11 :).trans ((congrArg CPar.output_type h10 :).trans ((congrArg CPar.output_type h9 :).trans ((congrArg CPar.output_type h8 :).trans ((congrArg CPar.output_type h7 :).trans (congrArg CPar.output_type h6 :))))))))))))
  have t8 : p17.output_type = (p8).output_type := ((congrArg CPar.output_type h17 :).trans ((congrArg CPar.output_type h16 :).trans ((congrArg CPar.output_type h15 :).trans ((congrArg CPar.output_type h14 :).trans ((congrArg CPar.output_type h13 :).trans ((congrArg CPar.output_type h12 :).trans ((congrArg CPar.output_type h11 :).trans ((congrArg CPar.output_type h10 :).trans (congrArg CPar.output_type h9 :)))))))))
  have t9 : p17.output_type = (p9).output_type := ((congrArg CPar.output_type h17 :).trans ((congrArg CPar.output_type h16 :).trans ((congrArg CPar.output_type h15 :).trans ((congrArg CPar.output_type h14 :).trans ((congrArg CPar.output_type h13 :).trans ((congrArg CPar.output_type h12 :).trans ((congrArg CPar.output_type h11 :).trans (congrArg CPar.output_type h10 :))))))))
  have t10 : p17.output_type = (p10).output_type := ((congrArg CPar.output_type h17 :).trans ((congrArg CPar.output_type h16 :).trans ((congrArg CPar.output_type h15 :).trans ((congrArg CPar.output_type h14 :).trans ((congrArg CPar.output_type h13 :).trans ((congrArg CPar.output_type h12 :).trans (congrArg CPar.output_type h11 :)))))))
  have x_mu : p17.mu = (p5).mu := ((congrArg CPar.mu h17 :).trans ((congrArg CPar.mu h16 :).trans ((congrArg CPar.mu h15 :).trans ((congrArg CPar.mu h14 :).trans ((congrArg CPar.mu h13 :).trans ((congrArg CPar.mu h12 :).trans ((congrArg CPar.mu h11 :).trans ((congrArg CPar.mu h10 :).trans ((congrArg CPar.mu h9 :).trans ((congrArg CPar.mu h8 :).trans ((congrArg CPar.mu h7 :).trans (congrArg CPar.mu h6 :))))))))))))
  have y_mu : p4.mu = (CPar.default E).mu := ((congrArg CPar.mu h4 :).trans ((congrArg CPar.mu h3 :).trans ((congrArg CPar.mu h2 :).trans (congrArg CPar.mu h1 :))))
  have x_dz : p17.deltaz = (p10).deltaz := ((congrArg CPar.deltaz h17 :).trans ((congrArg CPar.deltaz h16 :).trans ((congrArg CPar.deltaz h15 :).trans ((congrArg CPar.deltaz h14 :).trans ((congrArg CPar.deltaz h13 :).trans ((congrArg CPar.deltaz h12 :).trans (congrArg CPar.deltaz h11 :)))))))
  have y_dz : p9.deltaz = (CPar.default E).deltaz := ((congrArg CPar.deltaz h9 :).trans ((congrArg CPar.deltaz h8 :).trans ((congrArg CPar.deltaz h7 :).trans ((congrArg CPar.deltaz h6 :).trans ((congrArg CPar.deltaz h5 :).trans ((congrArg CPar.deltaz h4 :).trans ((congrArg CPar.deltaz h3 :).trans ((congrArg CPar.deltaz h2 :).trans (congrArg CPar.deltaz h1 :)))))))))
  have x_zmin : p17.zmin = (p11).zmin := ((congrArg CPar.zmin h17 :).trans ((congrArg CPar.zmin h16 :).trans ((congrArg CPar.zmin h15 :).trans ((congrArg CPar.zmin h14 :).trans ((congrArg CPar.zmin h13 :).trans (congrArg CPar.zmin h12 :))))))
  have w_zmin : p10.zmin = (p3).zmin := ((congrArg CPar.zmin h10 :).trans ((congrArg CPar.zmin h9 :).trans ((congrArg CPar.zmin h8 :).trans ((congrArg CPar.zmin h7 :).trans ((congrArg CPar.zmin h6 :).trans ((congrArg CPar.zmin h5 :).trans (congrArg CPar.zmin h4 :)))))))
  have y_zmin : p2.zmin = (CPar.default E).zmin := ((congrArg CPar.zmin h2 :).trans (congrArg CPar.zmin h1 :))
  have x_zmax : p17.zmax = (p11).zmax := ((congrArg CPar.zmax h17 :).trans ((congrArg CPar.zmax h16 :).trans ((congrArg CPar.zmax h15 :).trans ((congrArg CPar.zmax h14 :).trans ((congrArg CPar.zmax h13 :).trans (congrArg CPar.zmax h12 :))))))
  have w_zmax : p10.zmax = (p3).zmax := ((congrArg CPar.zmax h10 :).trans ((congrArg CPar.zmax h9 :).trans ((congrArg CPar.zmax h8 :).trans ((congrArg CPar.zmax h7 :).trans ((congrArg CPar.zmax h6 :).trans ((congrArg CPar.zmax h5 :).trans (congrArg CPar.zmax h4 :)))))))
  have y_zmax : p2.zmax = (CPar.default E).zmax := ((congrArg CPar.zmax h2 :).trans (congrArg CPar.zmax h1 :))
  have x_density1 : p17.density1 = (p9).density1 := ((congrArg CPar.density1 h17 :).trans ((congrArg CPar.density1 h16 :).trans ((congrArg CPar.density1 h15 :).trans ((congrArg CPar.density1 h14 :).trans ((congrArg CPar.density1 h13 :).trans ((congrArg CPar.density1 h12 :).trans ((congrArg CPar.density1 h11 :).trans (congrArg CPar.density1 h10 :))))))))
  have y_density1 : p8.density1 = (CPar.default E).density1 := ((congrArg CPar.density1 h8 :).trans ((congrArg CPar.density1 h7 :).trans ((congrArg CPar.density1 h6 :).trans ((congrArg CPar.density1 h5 :).trans ((congrArg CPar.density1 h4 :).trans ((congrArg CPar.density1 h3 :).trans ((congrArg CPar.density1 h2 :).trans (congrArg CPar.density1 h1 :))))))))
  have x_density2 : p17.density2 = (p9).density2 := ((congrArg CPar.density2 h17 :).trans ((congrArg CPar.density2 h16 :).trans ((congrArg CPar.density2 h15 :).trans ((congrArg CPar.density2 h14 :).trans ((congrArg CPar.density2 h13 :).trans ((congrArg CPar.density2 h12 :).trans ((congrArg CPar.density2 h11 :).trans (congrArg CPar.density2 h10 :))))))))
  have y_density2 : p8.density2 = (CPar.default E).density2 := ((congrArg CPar.density2 h8 :).trans ((congrArg CPar.density2 h7 :).trans ((congrArg CPar.density2 h6 :).trans ((congrArg CPar.density2 h5 :).trans ((congrArg CPar.density2 h4 :).trans ((congrArg CPar.density2 h3 :).trans ((congrArg CPar.density2 h2 :).trans (congrArg CPar.density2 h1 :))))))))
  have x_pixelsize : p17.pixelsize = (p9).pixelsize := ((congrArg CPar.pixelsize h17 :).trans ((congrArg CPar.pixelsize h16 :).trans ((congrArg CPar.pixelsize h15 :).trans ((congrArg CPar.pixelsize h14 :).trans ((congrArg CPar.pixelsize h13 :).trans ((congrArg CPar.pixelsize h12 :).trans ((congrArg CPar.pixelsize h11 :).trans (congrArg CPar.pixelsize h10 :))))))))
  have y_pixelsize : p8.pixelsize = (CPar.default E).pixelsize := ((congrArg CPar.pixelsize h8 :).trans ((congrArg CPar.pixelsize h7 :).trans ((congrArg CPar.pixelsize h6 :).trans ((congrArg CPar.pixelsize h5 :).trans ((congrArg CPar.pixelsize h4 :).trans ((congrArg CPar.pixelsize h3 :).trans ((congrArg CPar.pixelsize h2 :).trans (congrArg CPar.pixelsize h1 :))))))))
  have x_fsky : p17.fsky = (p10).fsky := ((congrArg CPar.fsky h17 :).trans ((congrArg CPar.fsky h16 :).trans ((congrArg CPar.fsky h15 :).trans ((congrArg CPar.fsky h14 :).trans ((congrArg CPar.fsky h13 :).trans ((congrArg CPar.fsky h12 :).trans (congrArg CPar.fsky h11 :)))))))
  have y_fsky : p8.fsky = (CPar.default E).fsky := ((congrArg CPar.fsky h8 :).trans ((congrArg CPar.fsky h7 :).trans ((congrArg CPar.fsky h6 :).trans ((congrArg CPar.fsky h5 :).trans ((congrArg CPar.fsky h4 :).trans ((congrArg CPar.fsky h3 :).trans ((congrArg CPar.fsky h2 :).trans (congrArg CPar.fsky h1 :))))))))
  have x_sep : p17.sep = (p6).sep := ((congrArg CPar.sep h17 :).trans ((congrArg CPar.sep h16 :).trans ((congrArg CPar.sep h15 :).trans ((congrArg CPar.sep h14 :).trans ((congrArg CPar.sep h13 :).trans ((congrArg CPar.sep h12 :).trans ((congrArg CPar.sep h11 :).trans ((congrArg CPar.sep h10 :).trans ((congrArg CPar.sep h9 :).trans ((congrArg CPar.sep h8 :).trans (congrArg CPar.sep h7 :)))))))))))
  have y_sep : p5.sep = (CPar.default E).sep := ((congrArg CPar.sep h5 :).trans ((congrArg CPar.sep h4 :).trans ((congrArg CPar.sep h3 :).trans ((congrArg CPar.sep h2 :).trans (congrArg CPar.sep h1 :)))))
  have x_cb : p17.covariance_integration_bins = (p7).covariance_integration_bins := ((congrArg CPar.covariance_integration_bins h17 :).trans ((congrArg CPar.covariance_integration_bins h16 :).trans ((congrArg CPar.covariance_integration_bins h15 :).trans ((congrArg CPar.covariance_integration_bins h14 :).trans ((congrArg CPar.covariance_integration_bins h13 :).trans ((congrArg CPar.covariance_integration_bins h12 :).trans ((congrArg CPar.covariance_integration_bins h11 :).trans ((congrArg CPar.covariance_integration_bins h10 :).trans ((congrArg CPar.covariance_integration_bins h9 :).trans (congrArg CPar.covariance_integration_bins h8 :))))))))))
  have y_cb : p6.covariance_integration_bins = (CPar.default E).covariance_integration_bins := ((congrArg CPar.covariance_integration_bins h6 :).trans ((congrArg CPar.covariance_integration_bins h5 :).trans ((congrArg CPar.covariance_integration_bins h4 :).trans ((congrArg CPar.covariance_integration_bins h3 :).trans ((congrArg CPar.covariance_integration_bins h2 :).trans (congrArg CPar.covariance_integration_bins h1 :))))))
  have x_cm : p17.covariance_integration_method = (p7).covariance_integration_method := ((congrArg CPar.covariance_integration_method h17 :).trans ((congrArg CPar.covariance_integration_method h16 :).trans ((congrArg CPar.covariance_integration_method h15 :).trans ((congrArg CPar.covariance_integration_method h14 :).trans ((congrArg CPar.covariance_integration_method h13 :).trans ((congrArg CPar.covariance_integration_method h12 :).trans ((congrArg CPar.covariance_integration_method h11 :).trans ((congrArg CPar.covariance_integration_method h10 :).trans ((congrArg CPar.covariance_integration_method h9 :).trans (congrArg CPar.covariance_integration_method h8 :))))))))))
  have x_sigma8 : p17.sigma8 = (p16).sigma8 := (congrArg CPar.sigma8 h17 :)
  have y_sigma8 : p15.sigma8 = (CPar.default E).sigma8 := ((congrArg CPar.sigma8 h15 :).trans ((congrArg CPar.sigma8 h14 :).trans ((congrArg CPar.sigma8 h13 :).trans ((congrArg CPar.sigma8 h12 :).trans ((congrArg CPar.sigma8 h11 :).trans ((congrArg CPar.sigma8 h10 :).trans ((congrArg CPar.sigma8 h9 :).trans ((congrArg CPar.sigma8 h8 :).trans ((congrArg CPar.sigma8 h7 :).trans ((congrArg CPar.sigma8 h6 :).trans ((congrArg CPar.sigma8 h5 :).trans ((congrArg CPar.sigma8 h4 :).trans ((congrArg CPar.sigma8 h3 :).trans ((congrArg CPar.sigma8 h2 :).trans (congrArg CPar.sigma8 h1 :)))))))))))))))
  have x_A_s : p17.A_s = (p16).A_s := (congrArg CPar.A_s h17 :)
  have y_A_s : p15.A_s = (CPar.default E).A_s := ((congrArg CPar.A_s h15 :).trans ((congrArg CPar.A_s h14 :).trans ((congrArg CPar.A_s h13 :).trans ((congrArg CPar.A_s h12 :).trans ((congrArg CPar.A_s h11 :).trans ((congrArg CPar.A_s h10 :).trans ((congrArg CPar.A_s h9 :).trans ((congrArg CPar.A_s h8 :).trans ((congrArg CPar.A_s h7 :).trans ((congrArg CPar.A_s h6 :).trans ((congrArg CPar.A_s h5 :).trans ((congrArg CPar.A_s h4 :).trans ((congrArg CPar.A_s h3 :).trans ((congrArg CPar.A_s h2 :).trans (congrArg CPar.A_s h1 :)))))))))))))))
  have x_T_cmb : p17.T_cmb = (p16).T_cmb := (congrArg CPar.T_cmb h17 :)
  have y_T_cmb : p15.T_cmb = (CPar.default E).T_cmb := ((congrArg CPar.T_cmb h15 :).trans ((congrArg CPar.T_cmb h14 :).trans ((congrArg CPar.T_cmb h13 :).trans ((congrArg CPar.T_cmb h12 :).trans ((congrArg CPar.T_cmb h11 :).trans ((congrArg CPar.T_cmb h10 :).trans ((congrArg CPar.T_cmb h9 :).trans ((congrArg CPar.T_cmb h8 :).trans ((congrArg CPar.T_cmb h7 :).trans ((congrArg CPar.T_cmb h6 :).trans ((congrArg CPar.T_cmb h5 :).trans ((congrArg CPar.T_cmb h4 :).trans ((congrArg CPar.T_cmb h3 :).trans ((congrArg CPar.T_cmb h2 :).trans (congrArg CPar.T_cmb h1 :)))))))))))))))
  have x_N_ur : p17.N_ur = (p16).N_ur := (congrArg CPar.N_ur h17 :)
  have y_N_ur : p15.N_ur = (CPar.default E).N_ur := ((congrArg CPar.N_ur h15 :).trans ((congrArg CPar.N_ur h14 :).trans ((congrArg CPar.N_ur h13 :).trans ((congrArg CPar.N_ur h12 :).trans ((congrArg CPar.N_ur h11 :).trans ((congrArg CPar.N_ur h10 :).trans ((congrArg CPar.N_ur h9 :).trans ((congrArg CPar.N_ur h8 :).trans ((congrArg CPar.N_ur h7 :).trans ((congrArg CPar.N_ur h6 :).trans ((congrArg CPar.N_ur h5 :).trans ((congrArg CPar.N_ur h4 :).trans ((congrArg CPar.N_ur h3 :).trans ((congrArg CPar.N_ur h2 :).trans (congrArg CPar.N_ur h1 :)))))))))))))))
  have x_m_ncdm : p17.m_ncdm = (p16).m_ncdm := (congrArg CPar.m_ncdm h17 :)
  have y_m_ncdm : p15.m_ncdm = (CPar.default E).m_ncdm := ((congrArg CPar.m_ncdm h15 :).trans ((congrArg CPar.m_ncdm h14 :).trans ((congrArg CPar.m_ncdm h13 :).trans ((congrArg CPar.m_ncdm h12 :).trans ((congrArg CPar.m_ncdm h11 :).trans ((congrArg CPar.m_ncdm h10 :).trans ((congrArg CPar.m_ncdm h9 :).trans ((congrArg CPar.m_ncdm h8 :).trans ((congrArg CPar.m_ncdm h7 :).trans ((congrArg CPar.m_ncdm h6 :).trans ((congrArg CPar.m_ncdm h5 :).trans ((congrArg CPar.m_ncdm h4 :).trans ((congrArg CPar.m_ncdm h3 :).trans ((congrArg CPar.m_ncdm h2 :).trans (congrArg CPar.m_ncdm h1 :)))))))))))))))
  have x_N_ncdm : p17.N_ncdm = (p16).N_ncdm := (congrArg CPar.N_ncdm h17 :)
  have y_N_ncdm : p15.N_ncdm = (CPar.default E).N_ncdm := ((congrArg CPar.N_ncdm h15 :).trans ((congrArg CPar.N_ncdm h14 :).trans ((congrArg CPar.N_ncdm h13 :).trans ((congrArg CPar.N_ncdm h12 :).trans ((congrArg CPar.N_ncdm h11 :).trans ((congrArg CPar.N_ncdm h10 :).trans ((congrArg CPar.N_ncdm h9 :).trans ((congrArg CPar.N_ncdm h8 :).trans ((congrArg CPar.N_ncdm h7 :).trans ((congrArg CPar.N_ncdm h6 :).trans ((congrArg CPar.N_ncdm h5 :).trans ((congrArg CPar.N_ncdm h4 :).trans ((congrArg CPar.N_ncdm h3 :).trans ((congrArg CPar.N_ncdm h2 :).trans (congrArg CPar.N_ncdm h1 :)))))))))))))))
  have x_YHe : p17.YHe = (p16).YHe := (congrArg CPar.YHe h17 :)
  have y_YHe : p15.YHe = (CPar.default E).YHe := ((congrArg CPar.YHe h15 :).trans ((congrArg CPar.YHe h14 :).trans ((congrArg CPar.YHe h13 :).trans ((congrArg CPar.YHe h12 :).trans ((congrArg CPar.YHe h11 :).trans ((congrArg CPar.YHe h10 :).trans ((congrArg CPar.YHe h9 :).trans ((congrArg CPar.YHe h8 :).trans ((congrArg CPar.YHe h7 :).trans ((congrArg CPar.YHe h6 :).trans ((congrArg CPar.YHe h5 :).trans ((congrArg CPar.YHe h4 :).trans ((congrArg CPar.YHe h3 :).trans ((congrArg CPar.YHe h2 :).trans (congrArg CPar.YHe h1 :)))))))))))))))
  have x_h : p17.h = (p16).h := (congrArg CPar.h h17 :)
  have y_h : p15.h = (CPar.default E).h := ((congrArg CPar.h h15 :).trans ((congrArg CPar.h h14 :).trans ((congrArg CPar.h h13 :).trans ((congrArg CPar.h h12 :).trans ((congrArg CPar.h h11 :).trans ((congrArg CPar.h h10 :).trans ((congrArg CPar.h h9 :).trans ((congrArg CPar.h h8 :).trans ((congrArg CPar.h h7 :).trans ((congrArg CPar.h h6 :).trans ((congrArg CPar.h h5 :).trans ((congrArg CPar.h h4 :).trans ((congrArg CPar.h h3 :).trans ((congrArg CPar.h h2 :).trans (congrArg CPar.h h1 :)))))))))))))))
  have x_n_s : p17.n_s = (p16).n_s := (congrArg CPar.n_s h17 :)
  have y_n_s : p15.n_s = (CPar.default E).n_s := ((congrArg CPar.n_s h15 :).trans ((congrArg CPar.n_s h14 :).trans ((congrArg CPar.n_s h13 :).trans ((congrArg CPar.n_s h12 :).trans ((congrArg CPar.n_s h11 :).trans ((congrArg CPar.n_s h10 :).trans ((congrArg CPar.n_s h9 :).trans ((congrArg CPar.n_s h8 :).trans ((congrArg CPar.n_s h7 :).trans ((congrArg CPar.n_s h6 :).trans ((congrArg CPar.n_s h5 :).trans ((congrArg CPar.n_s h4 :).trans ((congrArg CPar.n_s h3 :).trans ((congrArg CPar.n_s h2 :).trans (congrArg CPar.n_s h1 :)))))))))))))))
  have x_Omega0_nu : p17.Omega0_nu = (p16).Omega0_nu := (congrArg CPar.Omega0_nu h17 :)
  have y_Omega0_nu : p15.Omega0_nu = (CPar.default E).Omega0_nu := ((congrArg CPar.Omega0_nu h15 :).trans ((congrArg CPar.Omega0_nu h14 :).trans ((congrArg CPar.Omega0_nu h13 :).trans ((congrArg CPar.Omega0_nu h12 :).trans ((congrArg CPar.Omega0_nu h11 :).trans ((congrArg CPar.Omega0_nu h10 :).trans ((congrArg CPar.Omega0_nu h9 :).trans ((congrArg CPar.Omega0_nu h8 :).trans ((congrArg CPar.Omega0_nu h7 :).trans ((congrArg CPar.Omega0_nu h6 :).trans ((congrArg CPar.Omega0_nu h5 :).trans ((congrArg CPar.Omega0_nu h4 :).trans ((congrArg CPar.Omega0_nu h3 :).trans ((congrArg CPar.Omega0_nu h2 :).trans (congrArg CPar.Omega0_nu h1 :)))))))))))))))
  have x_power_spectrum : p17.power_spectrum = (p16).power_spectrum := (congrArg CPar.power_spectrum h17 :)
  have y_power_spectrum : p15.power_spectrum = (CPar.default E).power_spectrum := ((congrArg CPar.power_spectrum h15 :).trans ((congrArg CPar.power_spectrum h14 :).trans ((congrArg CPar.power_spectrum h13 :).trans ((congrArg CPar.power_spectrum h12 :).trans ((congrArg CPar.power_spectrum h11 :).trans ((congrArg CPar.power_spectrum h10 :).trans ((congrArg CPar.power_spectrum h9 :).trans ((congrArg CPar.power_spectrum h8 :).trans ((congrArg CPar.power_spectrum h7 :).trans ((congrArg CPar.power_spectrum h6 :).trans ((congrArg CPar.power_spectrum h5 :).trans ((congrArg CPar.power_spectrum h4 :).trans ((congrArg CPar.power_spectrum h3 :).trans ((congrArg CPar.power_spectrum h2 :).trans (congrArg CPar.power_spectrum h1 :)))))))))))))))
  have dmu : (CPar.default E).mu = PyPar.default.mu := rfl
  have hs8 : p17.output_type = COVARIANCE_MULTIPOLES ∨ p17.output_type = COVARIANCE_AVERAGE_MULTIPOLES → HasSurvey p8 := by
    rw [t8]; exact id
  constructor
  · refine {
      mu := fun e1 e2 => ?_, deltaz := fun e1 e2 => ?_, z_min := fun e1 e2 => ?_, z_max := fun e1 e2 => ?_, zmin := fun e1 e2 => ?_,
      zmax := fun e1 e2 => ?_, density1 := fun e1 e2 => ?_, density2 := fun e1 e2 => ?_, fsky := fun e1 e2 => ?_,
      pixelsize := fun e1 e2 => ?_, covariance_integration_bins := fun e1 => ?_, sigma8 := fun e1 e2 => ?_, A_s := fun e1 e2 => ?_,
      T_cmb := fun e1 e2 => ?_, N_ur := fun e1 e2 => ?_, m_ncdm := fun e1 e2 => ?_, N_ncdm := fun e1 e2 => ?_,
      YHe := fun e1 e2 => ?_, h := fun e1 => ?_, n_s := fun e1 => ?_, Omega0_nu := fun e1 => ?_, spectrum := fun e1 e2 => ?_ }
    · rw [x_mu, (congrArg CPar.mu h5 :)]
      refine (if_pos (t4 ▸ e1)).trans ?_
      rw [parse_double_array_missing e2, y_mu]
      rfl
    · rw [x_dz, (congrArg CPar.deltaz h10 :)]
      refine (j1 (t9 ▸ e1)).2.1.trans ?_
      rw [parse_double_array_missing e2, y_dz]
      rfl
    · rw [x_zmin, (congrArg CPar.zmin h11 :)]
      refine (k2 (by rw [← t10, e1]; decide)).1.trans ?_
      rw [w_zmin, (congrArg CPar.zmin h3 :)]
      refine (if_pos (t2 ▸ e1)).trans ?_
      rw [parse_double_array_missing e2, y_zmin]
      rfl
    · rw [x_zmax, (congrArg CPar.zmax h11 :)]
      refine (k2 (by rw [← t10, e1]; decide)).2.trans ?_
      rw [w_zmax, (congrArg CPar.zmax h3 :)]
      refine (if_pos (t2 ▸ e1)).trans ?_
      rw [parse_double_array_missing e2, y_zmax]
      rfl
    · rw [x_zmin, (congrArg CPar.zmin h11 :)]
      refine (k1 (t10 ▸ e1)).1.trans ?_
      rw [parse_double_array_missing e2, w_zmin, (congrArg CPar.zmin h3 :)]
      refine (if_neg (by rw [← t2, e1]; decide)).trans ?_
      rw [y_zmin]
      rfl
    · rw [x_zmax, (congrArg CPar.zmax h11 :)]
      refine (k1 (t10 ▸ e1)).2.1.trans ?_
      rw [parse_double_array_missing e2, w_zmax, (congrArg CPar.zmax h3 :)]
      refine (if_neg (by rw [← t2, e1]; decide)).trans ?_
      rw [y_zmax]
      rfl
    · rw [x_density1, (congrArg CPar.density1 h9 :)]
      refine (i1 (hs8 e1)).2.1.trans ?_
      rw [parse_double_array_missing e2, y_density1]
      rfl
    · rw [x_density2, (congrArg CPar.density2 h9 :)]
      refine (i1 (hs8 e1)).2.2.1.trans ?_
      rw [parse_double_array_missing e2, y_density2]
      rfl
    · have hf : p9.fsky = PyPar.default.fsky := by
        rw [(congrArg CPar.fsky h9 :)]
        refine (i1 (hs8 e1)).2.2.2.1.trans ?_
        rw [parse_double_array_missing e2, y_fsky]
        rfl
      rw [x_fsky, (congrArg CPar.fsky h10 :)]
      by_cases e : p9.output_type = COVARIANCE_MULTIPOLES
      · refine (j1 e).2.2.1.trans ?_
        rw [parse_double_array_missing e2, hf]
      · exact (j2 e).2.2.trans hf
    · rw [x_pixelsize, (congrArg CPar.pixelsize h9 :)]
      refine (i1 (hs8 e1)).2.2.2.2.trans ?_
      rw [parse_double_array_missing e2, y_pixelsize]
      rfl
    · rw [x_cb, (congrArg CPar.covariance_integration_bins h7 :)]
      refine (e8 ?_).1.trans ?_
      · rw [x_cm, (congrArg CPar.covariance_integration_method h7 :)] at e1
        exact e1
      · rw [y_cb]
        rfl
    · rcases parse_spectrum_ok T.s16 with ⟨_, g⟩ | ⟨g, _⟩
      · rw [x_sigma8, (parse_class_ok g).2.2.2.2.1, e2, y_sigma8]
        rfl
      · exact absurd e1 g
    · rcases parse_spectrum_ok T.s16 with ⟨_, g⟩ | ⟨g, _⟩
      · rw [x_A_s, (parse_class_ok g).2.2.2.2.2.1, e2, y_A_s]
        rfl
      · exact absurd e1 g
    · rcases parse_spectrum_ok T.s16 with ⟨_, g⟩ | ⟨g, _⟩
      · rw [x_T_cmb, (parse_class_ok g).2.2.2.2.2.2.2.2.1, e2, y_T_cmb]
        rfl
      · exact absurd e1 g
    · rcases parse_spectrum_ok T.s16 with ⟨_, g⟩ | ⟨g, _⟩
      · rw [x_N_ur, (parse_class_ok g).2.2.2.2.2.2.2.2.2.1, e2, y_N_ur]
        rfl
      · exact absurd e1 g
    · rcases parse_spectrum_ok T.s16 with ⟨_, g⟩ | ⟨g, _⟩
      · rw [x_m_ncdm, (parse_class_ok g).2.2.2.2.2.2.2.2.2.2.1, e2, y_m_ncdm]
        rfl
      · exact absurd e1 g
    · rcases parse_spectrum_ok T.s16 with ⟨_, g⟩ | ⟨g, _⟩
      · rw [x_N_ncdm, (parse_class_ok g).2.2.2.2.2.2.2.2.2.2.2.1, e2, y_N_ncdm]
        rfl
      · exact absurd e1 g
    · rcases parse_spectrum_ok T.s16 with ⟨_, g⟩ | ⟨g, _⟩
      · rw [x_YHe, (parse_class_ok g).2.2.2.2.2.2.2.2.2.2.2.2.1, e2, y_YHe]
        rfl
      · exact absurd e1 g
    · rcases parse_spectrum_ok T.s16 with ⟨g, _⟩ | ⟨_, g⟩
      · exact absurd g e1
      · obtain ⟨name, l, _, g2, _⟩ := parse_spectrum_file_ok g
        rw [x_h, (congrArg CPar.h g2 :)]
        exact y_h
    · rcases parse_spectrum_ok T.s16 with ⟨g, _⟩ | ⟨_, g⟩
      · exact absurd g e1
      · obtain ⟨name, l, _, g2, _⟩ := parse_spectrum_file_ok g
        rw [x_n_s, (congrArg CPar.n_s g2 :)]
        exact y_n_s
    · rcases parse_spectrum_ok T.s16 with ⟨g, _⟩ | ⟨_, g⟩
      · exact absurd g e1
      · obtain ⟨name, l, _, g2, _⟩ := parse_spectrum_file_ok g
        rw [x_Omega0_nu, (congrArg CPar.Omega0_nu g2 :)]
        exact y_Omega0_nu
    · rcases parse_spectrum_ok T.s16 with ⟨g, _⟩ | ⟨_, g⟩
      · exact absurd g e1
      · obtain ⟨name, l, ⟨g1, _⟩, g2, _, g3⟩ := parse_spectrum_file_ok g
        rw [x_power_spectrum, (congrArg CPar.power_spectrum g2 :)]
        exact (g3 (e2 name g1)).trans y_power_spectrum
  · intro e
    rw [x_sep, (congrArg CPar.sep h6 :)]
    refine (d2 ?_).trans ?_
    · unfold HasSep
      rw [← t5, e]
      decide
    · rw [y_sep]
      simp only [CPar.default, PyPar.default, generateRange]
      norm_num

end Coffe
