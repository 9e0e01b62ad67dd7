import Verif.Proofs.Parser

/-! # What an accepted settings file guarantees -/

namespace Coffe
open Classical

/-- The parameters after each stage. -/
structure Trace (E : ParserEnv) (R : ClassRun) (c : Conf) (p1 p2 p3 p4 p5 p6 p7 p8 p9 p10 p11 p12 p13 p14 p15 p16 p17 : CPar) :
    Prop where
  s1 : parse_general c (CPar.default E) = .ok p1
  s2 : parse_z_mean c p1 = .ok p2
  s3 : parse_z_range c p2 = p3
  s4 : parse_interpolation c p3 = .ok p4
  s5 : parse_mu_multipoles c p4 = p5
  s6 : parse_separations c p5 = .ok p6
  s7 : parse_integration E c p6 = .ok p7
  s8 : parse_biases E c p7 = .ok p8
  s9 : parse_survey c p8 = .ok p9
  s10 : parse_covariance_multipoles c p9 = .ok p10
  s11 : parse_covariance_average c p10 = .ok p11
  s12 : parse_contributions c p11 = .ok p12
  s13 : parse_output c p12 = .ok p13
  s14 : parse_derivatives c p13 = .ok p14
  s15 : parse_range c p14 = .ok p15
  s16 : parse_spectrum E R c p15 = .ok p16
  s17 : clamp_range p16 = .ok p17

theorem parser_trace {E : ParserEnv} {R : ClassRun} {c : Conf} {p : CPar} : coffe_parser_init E R c = .ok p ↔
    ∃ p1 p2 p3 p4 p5 p6 p7 p8 p9 p10 p11 p12 p13 p14 p15 p16,
      Trace E R c p1 p2 p3 p4 p5 p6 p7 p8 p9 p10 p11 p12 p13 p14 p15 p16 p := by
  unfold coffe_parser_init
  simp only [cbind_iff]
  constructor
  · rintro ⟨p1, s1, p2, s2, p4, s4, p6, s6, p7, s7, p8, s8, p9, s9, p10, s10, p11, s11, p12, s12, p13, s13, p14, s14,
      p15, s15, p16, s16, s17⟩
    exact ⟨p1, p2, _, p4, _, p6, p7, p8, p9, p10, p11, p12, p13, p14, p15, p16,
      ⟨s1, s2, rfl, s4, rfl, s6, s7, s8, s9, s10, s11, s12, s13, s14, s15, s16, s17⟩⟩
  · rintro ⟨p1, p2, p3, p4, p5, p6, p7, p8, p9, p10, p11, p12, p13, p14, p15, p16, ⟨s1, s2, rfl, s4, rfl, s6, s7, s8, s9,
      s10, s11, s12, s13, s14, s15, s16, s17⟩⟩
    exact ⟨p1, s1, p2, s2, p4, s4, p6, s6, p7, s7, p8, s8, p9, s9, p10, s10, p11, s11, p12, s12, p13, s13, p14, s14,
      p15, s15, p16, s16, s17⟩

theorem parse_double_array_lists {c : Conf} {s : String} {l old : List ℝ} (h : ListsReal c s l) :
    parse_double_array c s old = l := by
  obtain ⟨vs, h1, h2⟩ := h
  unfold parse_double_array
  rw [h1]
  show vs.map _ = l
  have : vs.map (fun v => v.toFloat.getD 0) = (vs.map Scalar.toFloat).map fun o => o.getD 0 := by
    rw [List.map_map]; rfl
  rw [this, h2, List.map_map]
  exact List.map_id l

theorem parse_int_array_lists {c : Conf} {s : String} {l old : List ℤ} (h : ListsInt c s l) :
    parse_int_array c s old = l := by
  obtain ⟨vs, h1, h2⟩ := h
  unfold parse_int_array
  rw [h1]
  show vs.map _ = l
  have : vs.map (fun v => v.toInt.getD 0) = (vs.map Scalar.toInt).map fun o => o.getD 0 := by
    rw [List.map_map]; rfl
  rw [this, h2, List.map_map]
  exact List.map_id l

theorem parse_string_array_lists {c : Conf} {s : String} {l old : List Text} (h : ListsText c s l) :
    parse_string_array c s old = .ok l := by
  unfold parse_string_array
  rw [h]
  show collect _ (l.map Scalar.str) = _
  rw [collect_iff]
  clear h
  induction l with
  | nil => exact .nil
  | cons a l ih => exact .cons rfl ih

theorem set_contribution_listed (l : List Text) (k : Contrib) : l.foldl set_contribution k =
    ⟨k.den || (Contrib.listed l).den, k.rsd || (Contrib.listed l).rsd, k.len || (Contrib.listed l).len,
      k.d1 || (Contrib.listed l).d1, k.d2 || (Contrib.listed l).d2, k.g1 || (Contrib.listed l).g1,
      k.g2 || (Contrib.listed l).g2, k.g3 || (Contrib.listed l).g3, k.g4 || (Contrib.listed l).g4,
      k.g5 || (Contrib.listed l).g5⟩ := by
  induction l generalizing k with
  | nil => simp [Contrib.listed]
  | cons a l ih =>
    rw [List.foldl_cons, ih]
    unfold set_contribution Contrib.listed
    split_ifs with h1 h2 h3 h4 h5 h6 h7 h8 h9 h10
    case neg =>
      simp only [List.mem_cons, Ne.symm h1, Ne.symm h2, Ne.symm h3, Ne.symm h4, Ne.symm h5, Ne.symm h6,
        Ne.symm h7, Ne.symm h8, Ne.symm h9, Ne.symm h10, false_or]
    all_goals subst_vars; simp

theorem contributions_listed (l : List Text) : l.foldl set_contribution Contrib.zero = Contrib.listed l := by
  rw [set_contribution_listed]
  simp [Contrib.zero]

theorem parse_double_array_idem (c : Conf) (s : String) (old : List ℝ) :
    parse_double_array c s (parse_double_array c s old) = parse_double_array c s old := by
  unfold parse_double_array
  cases c s <;> rfl

theorem parse_bias_iff {E : ParserEnv} {c : Conf} {m : ℤ} {flag setting single : String} {l : Samples} :
    parse_bias E c m flag setting single = .ok l ↔
      ((lookup_int c flag).getD 0 = 1 → ∃ name data, (lookup_string c setting = some name ∧
        name.length < COFFE_MAX_STRLEN) ∧ E.file name = some data ∧ read_samples data = .ok l) ∧
      ((lookup_int c flag).getD 0 ≠ 1 → ∃ v, lookup_float c single = some v ∧ l = bias_default v) ∧
      l.length ≠ 0 ∧ spline_min_size m ≤ l.length ∧ (l.map Prod.fst).Pairwise (· < ·) := by
  unfold parse_bias
  by_cases h : (lookup_int c flag).getD 0 = 1
  · rw [if_pos h, cbind_iff]
    constructor
    · rintro ⟨name, h1, h2⟩
      rw [parse_string_iff] at h1
      cases hf : E.file name with
      | none => rw [hf] at h2; cases h2
      | some data =>
        rw [hf] at h2
        simp only [cbind_iff, init_spline_iff] at h2
        obtain ⟨l0, h3, rfl, h4⟩ := h2
        exact ⟨fun _ => ⟨name, data, h1, hf, h3⟩, fun h5 => absurd h h5, h4⟩
    · rintro ⟨h1, _, h2⟩
      obtain ⟨name, data, h3, h4, h5⟩ := h1 h
      refine ⟨name, parse_string_iff.2 h3, ?_⟩
      rw [h4]
      simp only [cbind_iff, init_spline_iff]
      exact ⟨l, h5, rfl, h2⟩
  · rw [if_neg h]
    simp only [cbind_iff, parse_double_iff, init_spline_iff]
    constructor
    · rintro ⟨v, h1, rfl, h2⟩
      exact ⟨fun h3 => absurd h3 h, fun _ => ⟨v, h1, rfl⟩, h2⟩
    · rintro ⟨_, h1, h2⟩
      obtain ⟨v, h3, rfl⟩ := h1 h
      exact ⟨v, h3, rfl, h2⟩

theorem parse_bias_from {E : ParserEnv} {c : Conf} {m : ℤ} {flag setting single : String} {l : Samples}
    (h : parse_bias E c m flag setting single = .ok l) : BiasFrom E c flag setting single l := by
  obtain ⟨h1, h2, h3, h4, h5⟩ := parse_bias_iff.1 h
  refine ⟨fun e => ?_, fun e => ?_, h5, fun e => h3 (by rw [e]; rfl)⟩
  · obtain ⟨name, data, h6, h7, h8⟩ := h1 (by rw [e]; rfl)
    exact ⟨name, data, h6.1, h7, h8⟩
  · obtain ⟨v, h6, rfl⟩ := h2 (by
      intro h7
      apply e
      cases hl : lookup_int c flag with
      | none => rw [hl] at h7; cases h7
      | some k => rw [hl] at h7; exact congrArg some h7)
    refine ⟨v, h6, fun x hx => ?_⟩
    unfold bias_default at hx
    obtain ⟨i, _, rfl⟩ := List.mem_map.1 hx
    rfl

theorem parse_spectrum_ok {E : ParserEnv} {R : ClassRun} {c : Conf} {p q : CPar} (h : parse_spectrum E R c p = .ok q) :
    (UsesClass E c ∧ parse_class R c p = .ok q) ∨ (¬ UsesClass E c ∧ parse_spectrum_file E c p = .ok q) := by
  unfold parse_spectrum at h
  by_cases h1 : E.have_class = true
  · rw [if_pos h1, cbind_iff] at h
    obtain ⟨k, h2, h3⟩ := h
    rw [parse_int_iff] at h2
    by_cases h4 : k = 0
    · rw [if_neg (not_not.2 h4)] at h3
      exact .inr ⟨fun h5 => h5.2 (by rw [h2, h4]), h3⟩
    · rw [if_pos h4] at h3
      exact .inl ⟨⟨h1, fun h5 => h4 (by rw [h2] at h5; exact Option.some.inj h5)⟩, h3⟩
  · rw [if_neg h1] at h
    exact .inr ⟨fun h5 => h1 h5.1, h⟩

theorem parse_spectrum_same {E : ParserEnv} {R : ClassRun} {c : Conf} {p q : CPar} (h : parse_spectrum E R c p = .ok q) :
    SameButSpectrum p q := by
  rcases parse_spectrum_ok h with ⟨_, h1⟩ | ⟨_, h1⟩
  · exact (parse_class_ok h1).1
  · obtain ⟨name, l, _, h2, _⟩ := parse_spectrum_file_ok h1
    exact ⟨by rw [h2]⟩


theorem parser_faithful {E : ParserEnv} {R : ClassRun} {c : Conf} {p17 : CPar} (h : coffe_parser_init E R c = .ok p17) :
    Faithful E c p17 := by
  obtain ⟨p1, p2, p3, p4, p5, p6, p7, p8, p9, p10, p11, p12, p13, p14, p15, p16, T⟩ := parser_trace.1 h
  obtain ⟨v, ty, bg, bins, om, ob, og, a1, a2, a3, a4, a5, a6, a7, h1⟩ := parse_general_iff.1 T.s1
  obtain ⟨z2, h2, b1, b2⟩ := parse_z_mean_iff.1 T.s2
  have h3 := T.s3.symm.trans (parse_z_range_eq c p2)
  obtain ⟨im, c1, h4⟩ := parse_interpolation_iff.1 T.s4
  have h5 := T.s5.symm.trans (parse_mu_multipoles_eq c p4)
  obtain ⟨s6, h6, d1, d2⟩ := parse_separations_iff.1 T.s6
  obtain ⟨bessel, me, ib, cm, cb, ct, w0, wa, e1, e2, e3, e4, e5, e6, e7, e8, e9, e10, h7⟩ := parse_integration_ok T.s7
  obtain ⟨g1, g2, m1, m2, ev1, ev2, f1, f2, f3, f4, f5, f6, h8⟩ := parse_biases_iff.1 T.s8
  obtain ⟨n1, n2, fs, px, cw, h9, i1, i2⟩ := parse_survey_iff.1 T.s9
  obtain ⟨z10, dz, fs10, h10, j1, j2⟩ := parse_covariance_multipoles_iff.1 T.s10
  obtain ⟨zl, zr, h11, k1, k2⟩ := parse_covariance_average_iff.1 T.s11
  obtain ⟨l12, l1, h12⟩ := parse_contributions_iff.1 T.s12
  obtain ⟨path, pre, fa, fb, fd, o1, o2, o3, o4, o5, h13⟩ := parse_output_iff.1 T.s13
  obtain ⟨db, df, dbt, dft, q1, q2, q3, q4, q5, h14⟩ := parse_derivatives_iff.1 T.s14
  obtain ⟨ka, kb, hw, xc, ws, r1, r2, r3, r4, r5, r6, h15⟩ := parse_range_ok T.s15
  have h16 := (parse_spectrum_same T.s16).eq
  obtain ⟨ua, ub, u1, u2, u3, u4, h17⟩ := clamp_range_ok T.s17
  have t1 : p17.output_type = p1.output_type := ((congrArg CPar.output_type h17 :).trans ((congrArg CPar.output_type h16 :).trans ((congrArg CPar.output_type h15 :).trans ((congrArg CPar.output_type h14 :).trans ((congrArg CPar.output_type h13 :).trans ((congrArg CPar.output_type h12 :).trans ((congrArg CPar.output_type h11 :).trans ((congrArg CPar.output_type h10 :).trans ((congrArg CPar.output_type h9 :).trans ((congrArg CPar.output_type h8 :).trans ((congrArg CPar.output_type h7 :).trans ((congrArg CPar.output_type h6 :).trans ((congrArg CPar.output_type h5 :).trans ((congrArg CPar.output_type h4 :).trans ((congrArg CPar.output_type h3 :).trans (congrArg CPar.output_type h2 :))))))))))))))))
  have t2 : p17.output_type = p2.output_type := ((congrArg CPar.output_type h17 :).trans ((congrArg CPar.output_type h16 :).trans ((congrArg CPar.output_type h15 :).trans ((congrArg CPar.output_type h14 :).trans ((congrArg CPar.output_type h13 :).trans ((congrArg CPar.output_type h12 :).trans ((congrArg CPar.output_type h11 :).trans ((congrArg CPar.output_type h10 :).trans ((congrArg CPar.output_type h9 :).trans ((congrArg CPar.output_type h8 :).trans ((congrArg CPar.output_type h7 :).trans ((congrArg CPar.output_type h6 :).trans ((congrArg CPar.output_type h5 :).trans ((congrArg CPar.output_type h4 :).trans (congrArg CPar.output_type h3 :)))))))))))))))
  have t4 : p17.output_type = p4.output_type := ((congrArg CPar.output_type h17 :).trans ((congrArg CPar.output_type h16 :).trans ((congrArg CPar.output_type h15 :).trans ((congrArg CPar.output_type h14 :).trans ((congrArg CPar.output_type h13 :).trans ((congrArg CPar.output_type h12 :).trans ((congrArg CPar.output_type h11 :).trans ((congrArg CPar.output_type h10 :).trans ((congrArg CPar.output_type h9 :).trans ((congrArg CPar.output_type h8 :).trans ((congrArg CPar.output_type h7 :).trans ((congrArg CPar.output_type h6 :).trans (congrArg CPar.output_type h5 :)))))))))))))
  have t5 : p17.output_type = p5.output_type := ((congrArg CPar.output_type h17 :).trans ((congrArg CPar.output_type h16 :).trans ((congrArg CPar.output_type h15 :).trans ((congrArg CPar.output_type h14 :).trans ((congrArg CPar.output_type h13 :).trans ((congrArg CPar.output_type h12 :).trans ((congrArg CPar.output_type h11 :).trans ((congrArg CPar.output_type h10 :).trans ((congrArg CPar.output_type h9 :).trans ((congrArg CPar.output_type h8 :).trans ((congrArg CPar.output_type h7 :).trans (congrArg CPar.output_type h6 :))))))))))))
  have t8 : p17.output_type = p8.output_type := ((congrArg CPar.output_type h17 :).trans ((congrArg CPar.output_type h16 :).trans ((congrArg CPar.output_type h15 :).trans ((congrArg CPar.output_type h14 :).trans ((congrArg CPar.output_type h13 :).trans ((congrArg CPar.output_type h12 :).trans ((congrArg CPar.output_type h11 :).trans ((congrArg CPar.output_type h10 :).trans (congrArg CPar.output_type h9 :)))))))))
  have t9 : p17.output_type = p9.output_type := ((congrArg CPar.output_type h17 :).trans ((congrArg CPar.output_type h16 :).trans ((congrArg CPar.output_type h15 :).trans ((congrArg CPar.output_type h14 :).trans ((congrArg CPar.output_type h13 :).trans ((congrArg CPar.output_type h12 :).trans ((congrArg CPar.output_type h11 :).trans (congrArg CPar.output_type h10 :))))))))
  have t10 : p17.output_type = p10.output_type := ((congrArg CPar.output_type h17 :).trans ((congrArg CPar.output_type h16 :).trans ((congrArg CPar.output_type h15 :).trans ((congrArg CPar.output_type h14 :).trans ((congrArg CPar.output_type h13 :).trans ((congrArg CPar.output_type h12 :).trans (congrArg CPar.output_type h11 :)))))))
  have x_output_type : p17.output_type = ty := ((congrArg CPar.output_type h17 :).trans ((congrArg CPar.output_type h16 :).trans ((congrArg CPar.output_type h15 :).trans ((congrArg CPar.output_type h14 :).trans ((congrArg CPar.output_type h13 :).trans ((congrArg CPar.output_type h12 :).trans ((congrArg CPar.output_type h11 :).trans ((congrArg CPar.output_type h10 :).trans ((congrArg CPar.output_type h9 :).trans ((congrArg CPar.output_type h8 :).trans ((congrArg CPar.output_type h7 :).trans ((congrArg CPar.output_type h6 :).trans ((congrArg CPar.output_type h5 :).trans ((congrArg CPar.output_type h4 :).trans ((congrArg CPar.output_type h3 :).trans (congrArg CPar.output_type h2 :)))))))))))))))).trans (congrArg CPar.output_type h1 :)
  have x_type_bg : p17.type_bg = bg := ((congrArg CPar.type_bg h17 :).trans ((congrArg CPar.type_bg h16 :).trans ((congrArg CPar.type_bg h15 :).trans ((congrArg CPar.type_bg h14 :).trans ((congrArg CPar.type_bg h13 :).trans ((congrArg CPar.type_bg h12 :).trans ((congrArg CPar.type_bg h11 :).trans ((congrArg CPar.type_bg h10 :).trans ((congrArg CPar.type_bg h9 :).trans ((congrArg CPar.type_bg h8 :).trans ((congrArg CPar.type_bg h7 :).trans ((congrArg CPar.type_bg h6 :).trans ((congrArg CPar.type_bg h5 :).trans ((congrArg CPar.type_bg h4 :).trans ((congrArg CPar.type_bg h3 :).trans (congrArg CPar.type_bg h2 :)))))))))))))))).trans (congrArg CPar.type_bg h1 :)
  have x_background_bins : p17.background_bins = bins := ((congrArg CPar.background_bins h17 :).trans ((congrArg CPar.background_bins h16 :).trans ((congrArg CPar.background_bins h15 :).trans ((congrArg CPar.background_bins h14 :).trans ((congrArg CPar.background_bins h13 :).trans ((congrArg CPar.background_bins h12 :).trans ((congrArg CPar.background_bins h11 :).trans ((congrArg CPar.background_bins h10 :).trans ((congrArg CPar.background_bins h9 :).trans ((congrArg CPar.background_bins h8 :).trans ((congrArg CPar.background_bins h7 :).trans ((congrArg CPar.background_bins h6 :).trans ((congrArg CPar.background_bins h5 :).trans ((congrArg CPar.background_bins h4 :).trans ((congrArg CPar.background_bins h3 :).trans (congrArg CPar.background_bins h2 :)))))))))))))))).trans (congrArg CPar.background_bins h1 :)
  have x_Omega0_m : p17.Omega0_m = om := ((congrArg CPar.Omega0_m h17 :).trans ((congrArg CPar.Omega0_m h16 :).trans ((congrArg CPar.Omega0_m h15 :).trans ((congrArg CPar.Omega0_m h14 :).trans ((congrArg CPar.Omega0_m h13 :).trans ((congrArg CPar.Omega0_m h12 :).trans ((congrArg CPar.Omega0_m h11 :).trans ((congrArg CPar.Omega0_m h10 :).trans ((congrArg CPar.Omega0_m h9 :).trans ((congrArg CPar.Omega0_m h8 :).trans ((congrArg CPar.Omega0_m h7 :).trans ((congrArg CPar.Omega0_m h6 :).trans ((congrArg CPar.Omega0_m h5 :).trans ((congrArg CPar.Omega0_m h4 :).trans ((congrArg CPar.Omega0_m h3 :).trans (congrArg CPar.Omega0_m h2 :)))))))))))))))).trans (congrArg CPar.Omega0_m h1 :)
  have x_Omega0_baryon : p17.Omega0_baryon = ob := ((congrArg CPar.Omega0_baryon h17 :).trans ((congrArg CPar.Omega0_baryon h16 :).trans ((congrArg CPar.Omega0_baryon h15 :).trans ((congrArg CPar.Omega0_baryon h14 :).trans ((congrArg CPar.Omega0_baryon h13 :).trans ((congrArg CPar.Omega0_baryon h12 :).trans ((congrArg CPar.Omega0_baryon h11 :).trans ((congrArg CPar.Omega0_baryon h10 :).trans ((congrArg CPar.Omega0_baryon h9 :).trans ((congrArg CPar.Omega0_baryon h8 :).trans ((congrArg CPar.Omega0_baryon h7 :).trans ((congrArg CPar.Omega0_baryon h6 :).trans ((congrArg CPar.Omega0_baryon h5 :).trans ((congrArg CPar.Omega0_baryon h4 :).trans ((congrArg CPar.Omega0_baryon h3 :).trans (congrArg CPar.Omega0_baryon h2 :)))))))))))))))).trans (congrArg CPar.Omega0_baryon h1 :)
  have x_Omega0_gamma : p17.Omega0_gamma = og := ((congrArg CPar.Omega0_gamma h17 :).trans ((congrArg CPar.Omega0_gamma h16 :).trans ((congrArg CPar.Omega0_gamma h15 :).trans ((congrArg CPar.Omega0_gamma h14 :).trans ((congrArg CPar.Omega0_gamma h13 :).trans ((congrArg CPar.Omega0_gamma h12 :).trans ((congrArg CPar.Omega0_gamma h11 :).trans ((congrArg CPar.Omega0_gamma h10 :).trans ((congrArg CPar.Omega0_gamma h9 :).trans ((congrArg CPar.Omega0_gamma h8 :).trans ((congrArg CPar.Omega0_gamma h7 :).trans ((congrArg CPar.Omega0_gamma h6 :).trans ((congrArg CPar.Omega0_gamma h5 :).trans ((congrArg CPar.Omega0_gamma h4 :).trans ((congrArg CPar.Omega0_gamma h3 :).trans (congrArg CPar.Omega0_gamma h2 :)))))))))))))))).trans (congrArg CPar.Omega0_gamma h1 :)
  have x_Omega0_de : p17.Omega0_de = 1 - (om + og) := ((congrArg CPar.Omega0_de h17 :).trans ((congrArg CPar.Omega0_de h16 :).trans ((congrArg CPar.Omega0_de h15 :).trans ((congrArg CPar.Omega0_de h14 :).trans ((congrArg CPar.Omega0_de h13 :).trans ((congrArg CPar.Omega0_de h12 :).trans ((congrArg CPar.Omega0_de h11 :).trans ((congrArg CPar.Omega0_de h10 :).trans ((congrArg CPar.Omega0_de h9 :).trans ((congrArg CPar.Omega0_de h8 :).trans ((congrArg CPar.Omega0_de h7 :).trans ((congrArg CPar.Omega0_de h6 :).trans ((congrArg CPar.Omega0_de h5 :).trans ((congrArg CPar.Omega0_de h4 :).trans ((congrArg CPar.Omega0_de h3 :).trans (congrArg CPar.Omega0_de h2 :)))))))))))))))).trans (congrArg CPar.Omega0_de h1 :)
  have x_interp_method : p17.interp_method = im := ((congrArg CPar.interp_method h17 :).trans ((congrArg CPar.interp_method h16 :).trans ((congrArg CPar.interp_method h15 :).trans ((congrArg CPar.interp_method h14 :).trans ((congrArg CPar.interp_method h13 :).trans ((congrArg CPar.interp_method h12 :).trans ((congrArg CPar.interp_method h11 :).trans ((congrArg CPar.interp_method h10 :).trans ((congrArg CPar.interp_method h9 :).trans ((congrArg CPar.interp_method h8 :).trans ((congrArg CPar.interp_method h7 :).trans ((congrArg CPar.interp_method h6 :).trans (congrArg CPar.interp_method h5 :))))))))))))).trans (congrArg CPar.interp_method h4 :)
  have x_sep : p17.sep = s6 := ((congrArg CPar.sep h17 :).trans ((congrArg CPar.sep h16 :).trans ((congrArg CPar.sep h15 :).trans ((congrArg CPar.sep h14 :).trans ((congrArg CPar.sep h13 :).trans ((congrArg CPar.sep h12 :).trans ((congrArg CPar.sep h11 :).trans ((congrArg CPar.sep h10 :).trans ((congrArg CPar.sep h9 :).trans ((congrArg CPar.sep h8 :).trans (congrArg CPar.sep h7 :))))))))))).trans (congrArg CPar.sep h6 :)
  have x_bessel_bins : p17.bessel_bins = bessel := ((congrArg CPar.bessel_bins h17 :).trans ((congrArg CPar.bessel_bins h16 :).trans ((congrArg CPar.bessel_bins h15 :).trans ((congrArg CPar.bessel_bins h14 :).trans ((congrArg CPar.bessel_bins h13 :).trans ((congrArg CPar.bessel_bins h12 :).trans ((congrArg CPar.bessel_bins h11 :).trans ((congrArg CPar.bessel_bins h10 :).trans ((congrArg CPar.bessel_bins h9 :).trans (congrArg CPar.bessel_bins h8 :)))))))))).trans (congrArg CPar.bessel_bins h7 :)
  have x_integration_method : p17.integration_method = me := ((congrArg CPar.integration_method h17 :).trans ((congrArg CPar.integration_method h16 :).trans ((congrArg CPar.integration_method h15 :).trans ((congrArg CPar.integration_method h14 :).trans ((congrArg CPar.integration_method h13 :).trans ((congrArg CPar.integration_method h12 :).trans ((congrArg CPar.integration_method h11 :).trans ((congrArg CPar.integration_method h10 :).trans ((congrArg CPar.integration_method h9 :).trans (congrArg CPar.integration_method h8 :)))))))))).trans (congrArg CPar.integration_method h7 :)
  have x_integration_bins : p17.integration_bins = ib := ((congrArg CPar.integration_bins h17 :).trans ((congrArg CPar.integration_bins h16 :).trans ((congrArg CPar.integration_bins h15 :).trans ((congrArg CPar.integration_bins h14 :).trans ((congrArg CPar.integration_bins h13 :).trans ((congrArg CPar.integration_bins h12 :).trans ((congrArg CPar.integration_bins h11 :).trans ((congrArg CPar.integration_bins h10 :).trans ((congrArg CPar.integration_bins h9 :).trans (congrArg CPar.integration_bins h8 :)))))))))).trans (congrArg CPar.integration_bins h7 :)
  have x_covariance_integration_method : p17.covariance_integration_method = cm := ((congrArg CPar.covariance_integration_method h17 :).trans ((congrArg CPar.covariance_integration_method h16 :).trans ((congrArg CPar.covariance_integration_method h15 :).trans ((congrArg CPar.covariance_integration_method h14 :).trans ((congrArg CPar.covariance_integration_method h13 :).trans ((congrArg CPar.covariance_integration_method h12 :).trans ((congrArg CPar.covariance_integration_method h11 :).trans ((congrArg CPar.covariance_integration_method h10 :).trans ((congrArg CPar.covariance_integration_method h9 :).trans (congrArg CPar.covariance_integration_method h8 :)))))))))).trans (congrArg CPar.covariance_integration_method h7 :)
  have x_covariance_integration_bins : p17.covariance_integration_bins = cb := ((congrArg CPar.covariance_integration_bins h17 :).trans ((congrArg CPar.covariance_integration_bins h16 :).trans ((congrArg CPar.covariance_integration_bins h15 :).trans ((congrArg CPar.covariance_integration_bins h14 :).trans ((congrArg CPar.covariance_integration_bins h13 :).trans ((congrArg CPar.covariance_integration_bins h12 :).trans ((congrArg CPar.covariance_integration_bins h11 :).trans ((congrArg CPar.covariance_integration_bins h10 :).trans ((congrArg CPar.covariance_integration_bins h9 :).trans (congrArg CPar.covariance_integration_bins h8 :)))))))))).trans (congrArg CPar.covariance_integration_bins h7 :)
  have x_covariance_interpolation_method : p17.covariance_interpolation_method = ct := ((congrArg CPar.covariance_interpolation_method h17 :).trans ((congrArg CPar.covariance_interpolation_method h16 :).trans ((congrArg CPar.covariance_interpolation_method h15 :).trans ((congrArg CPar.covariance_interpolation_method h14 :).trans ((congrArg CPar.covariance_interpolation_method h13 :).trans ((congrArg CPar.covariance_interpolation_method h12 :).trans ((congrArg CPar.covariance_interpolation_method h11 :).trans ((congrArg CPar.covariance_interpolation_method h10 :).trans ((congrArg CPar.covariance_interpolation_method h9 :).trans (congrArg CPar.covariance_interpolation_method h8 :)))))))))).trans (congrArg CPar.covariance_interpolation_method h7 :)
  have x_w0 : p17.w0 = w0 := ((congrArg CPar.w0 h17 :).trans ((congrArg CPar.w0 h16 :).trans ((congrArg CPar.w0 h15 :).trans ((congrArg CPar.w0 h14 :).trans ((congrArg CPar.w0 h13 :).trans ((congrArg CPar.w0 h12 :).trans ((congrArg CPar.w0 h11 :).trans ((congrArg CPar.w0 h10 :).trans ((congrArg CPar.w0 h9 :).trans (congrArg CPar.w0 h8 :)))))))))).trans (congrArg CPar.w0 h7 :)
  have x_wa : p17.wa = wa := ((congrArg CPar.wa h17 :).trans ((congrArg CPar.wa h16 :).trans ((congrArg CPar.wa h15 :).trans ((congrArg CPar.wa h14 :).trans ((congrArg CPar.wa h13 :).trans ((congrArg CPar.wa h12 :).trans ((congrArg CPar.wa h11 :).trans ((congrArg CPar.wa h10 :).trans ((congrArg CPar.wa h9 :).trans (congrArg CPar.wa h8 :)))))))))).trans (congrArg CPar.wa h7 :)
  have x_galaxy_bias1 : p17.galaxy_bias1 = g1 := ((congrArg CPar.galaxy_bias1 h17 :).trans ((congrArg CPar.galaxy_bias1 h16 :).trans ((congrArg CPar.galaxy_bias1 h15 :).trans ((congrArg CPar.galaxy_bias1 h14 :).trans ((congrArg CPar.galaxy_bias1 h13 :).trans ((congrArg CPar.galaxy_bias1 h12 :).trans ((congrArg CPar.galaxy_bias1 h11 :).trans ((congrArg CPar.galaxy_bias1 h10 :).trans (congrArg CPar.galaxy_bias1 h9 :))))))))).trans (congrArg CPar.galaxy_bias1 h8 :)
  have x_galaxy_bias2 : p17.galaxy_bias2 = g2 := ((congrArg CPar.galaxy_bias2 h17 :).trans ((congrArg CPar.galaxy_bias2 h16 :).trans ((congrArg CPar.galaxy_bias2 h15 :).trans ((congrArg CPar.galaxy_bias2 h14 :).trans ((congrArg CPar.galaxy_bias2 h13 :).trans ((congrArg CPar.galaxy_bias2 h12 :).trans ((congrArg CPar.galaxy_bias2 h11 :).trans ((congrArg CPar.galaxy_bias2 h10 :).trans (congrArg CPar.galaxy_bias2 h9 :))))))))).trans (congrArg CPar.galaxy_bias2 h8 :)
  have x_magnification_bias1 : p17.magnification_bias1 = m1 := ((congrArg CPar.magnification_bias1 h17 :).trans ((congrArg CPar.magnification_bias1 h16 :).trans ((congrArg CPar.magnification_bias1 h15 :).trans ((congrArg CPar.magnification_bias1 h14 :).trans ((congrArg CPar.magnification_bias1 h13 :).trans ((congrArg CPar.magnification_bias1 h12 :).trans ((congrArg CPar.magnification_bias1 h11 :).trans ((congrArg CPar.magnification_bias1 h10 :).trans (congrArg CPar.magnification_bias1 h9 :))))))))).trans (congrArg CPar.magnification_bias1 h8 :)
  have x_magnification_bias2 : p17.magnification_bias2 = m2 := ((congrArg CPar.magnification_bias2 h17 :).trans ((congrArg CPar.magnification_bias2 h16 :).trans ((congrArg CPar.magnification_bias2 h15 :).trans ((congrArg CPar.magnification_bias2 h14 :).trans ((congrArg CPar.magnification_bias2 h13 :).trans ((congrArg CPar.magnification_bias2 h12 :).trans ((congrArg CPar.magnification_bias2 h11 :).trans ((congrArg CPar.magnification_bias2 h10 :).trans (congrArg CPar.magnification_bias2 h9 :))))))))).trans (congrArg CPar.magnification_bias2 h8 :)
  have x_evolution_bias1 : p17.evolution_bias1 = ev1 := ((congrArg CPar.evolution_bias1 h17 :).trans ((congrArg CPar.evolution_bias1 h16 :).trans ((congrArg CPar.evolution_bias1 h15 :).trans ((congrArg CPar.evolution_bias1 h14 :).trans ((congrArg CPar.evolution_bias1 h13 :).trans ((congrArg CPar.evolution_bias1 h12 :).trans ((congrArg CPar.evolution_bias1 h11 :).trans ((congrArg CPar.evolution_bias1 h10 :).trans (congrArg CPar.evolution_bias1 h9 :))))))))).trans (congrArg CPar.evolution_bias1 h8 :)
  have x_evolution_bias2 : p17.evolution_bias2 = ev2 := ((congrArg CPar.evolution_bias2 h17 :).trans ((congrArg CPar.evolution_bias2 h16 :).trans ((congrArg CPar.evolution_bias2 h15 :).trans ((congrArg CPar.evolution_bias2 h14 :).trans ((congrArg CPar.evolution_bias2 h13 :).trans ((congrArg CPar.evolution_bias2 h12 :).trans ((congrArg CPar.evolution_bias2 h11 :).trans ((congrArg CPar.evolution_bias2 h10 :).trans (congrArg CPar.evolution_bias2 h9 :))))))))).trans (congrArg CPar.evolution_bias2 h8 :)
  have x_density1 : p17.density1 = n1 := ((congrArg CPar.density1 h17 :).trans ((congrArg CPar.density1 h16 :).trans ((congrArg CPar.density1 h15 :).trans ((congrArg CPar.density1 h14 :).trans ((congrArg CPar.density1 h13 :).trans ((congrArg CPar.density1 h12 :).trans ((congrArg CPar.density1 h11 :).trans (congrArg CPar.density1 h10 :)))))))).trans (congrArg CPar.density1 h9 :)
  have x_density2 : p17.density2 = n2 := ((congrArg CPar.density2 h17 :).trans ((congrArg CPar.density2 h16 :).trans ((congrArg CPar.density2 h15 :).trans ((congrArg CPar.density2 h14 :).trans ((congrArg CPar.density2 h13 :).trans ((congrArg CPar.density2 h12 :).trans ((congrArg CPar.density2 h11 :).trans (congrArg CPar.density2 h10 :)))))))).trans (congrArg CPar.density2 h9 :)
  have x_pixelsize : p17.pixelsize = px := ((congrArg CPar.pixelsize h17 :).trans ((congrArg CPar.pixelsize h16 :).trans ((congrArg CPar.pixelsize h15 :).trans ((congrArg CPar.pixelsize h14 :).trans ((congrArg CPar.pixelsize h13 :).trans ((congrArg CPar.pixelsize h12 :).trans ((congrArg CPar.pixelsize h11 :).trans (congrArg CPar.pixelsize h10 :)))))))).trans (congrArg CPar.pixelsize h9 :)
  have x_covariance_window : p17.covariance_window = cw := ((congrArg CPar.covariance_window h17 :).trans ((congrArg CPar.covariance_window h16 :).trans ((congrArg CPar.covariance_window h15 :).trans ((congrArg CPar.covariance_window h14 :).trans ((congrArg CPar.covariance_window h13 :).trans ((congrArg CPar.covariance_window h12 :).trans ((congrArg CPar.covariance_window h11 :).trans (congrArg CPar.covariance_window h10 :)))))))).trans (congrArg CPar.covariance_window h9 :)
  have x_z_mean : p17.z_mean = z10 := ((congrArg CPar.z_mean h17 :).trans ((congrArg CPar.z_mean h16 :).trans ((congrArg CPar.z_mean h15 :).trans ((congrArg CPar.z_mean h14 :).trans ((congrArg CPar.z_mean h13 :).trans ((congrArg CPar.z_mean h12 :).trans (congrArg CPar.z_mean h11 :))))))).trans (congrArg CPar.z_mean h10 :)
  have x_deltaz : p17.deltaz = dz := ((congrArg CPar.deltaz h17 :).trans ((congrArg CPar.deltaz h16 :).trans ((congrArg CPar.deltaz h15 :).trans ((congrArg CPar.deltaz h14 :).trans ((congrArg CPar.deltaz h13 :).trans ((congrArg CPar.deltaz h12 :).trans (congrArg CPar.deltaz h11 :))))))).trans (congrArg CPar.deltaz h10 :)
  have x_fsky : p17.fsky = fs10 := ((congrArg CPar.fsky h17 :).trans ((congrArg CPar.fsky h16 :).trans ((congrArg CPar.fsky h15 :).trans ((congrArg CPar.fsky h14 :).trans ((congrArg CPar.fsky h13 :).trans ((congrArg CPar.fsky h12 :).trans (congrArg CPar.fsky h11 :))))))).trans (congrArg CPar.fsky h10 :)
  have x_zmin : p17.zmin = zl := ((congrArg CPar.zmin h17 :).trans ((congrArg CPar.zmin h16 :).trans ((congrArg CPar.zmin h15 :).trans ((congrArg CPar.zmin h14 :).trans ((congrArg CPar.zmin h13 :).trans (congrArg CPar.zmin h12 :)))))).trans (congrArg CPar.zmin h11 :)
  have x_zmax : p17.zmax = zr := ((congrArg CPar.zmax h17 :).trans ((congrArg CPar.zmax h16 :).trans ((congrArg CPar.zmax h15 :).trans ((congrArg CPar.zmax h14 :).trans ((congrArg CPar.zmax h13 :).trans (congrArg CPar.zmax h12 :)))))).trans (congrArg CPar.zmax h11 :)
  have x_output_path : p17.output_path = path := ((congrArg CPar.output_path h17 :).trans ((congrArg CPar.output_path h16 :).trans ((congrArg CPar.output_path h15 :).trans (congrArg CPar.output_path h14 :)))).trans (congrArg CPar.output_path h13 :)
  have x_output_prefix : p17.output_prefix = pre := ((congrArg CPar.output_prefix h17 :).trans ((congrArg CPar.output_prefix h16 :).trans ((congrArg CPar.output_prefix h15 :).trans (congrArg CPar.output_prefix h14 :)))).trans (congrArg CPar.output_prefix h13 :)
  have x_flatsky_local : p17.flatsky_local = fa := ((congrArg CPar.flatsky_local h17 :).trans ((congrArg CPar.flatsky_local h16 :).trans ((congrArg CPar.flatsky_local h15 :).trans (congrArg CPar.flatsky_local h14 :)))).trans (congrArg CPar.flatsky_local h13 :)
  have x_flatsky_local_nonlocal : p17.flatsky_local_nonlocal = fb := ((congrArg CPar.flatsky_local_nonlocal h17 :).trans ((congrArg CPar.flatsky_local_nonlocal h16 :).trans ((congrArg CPar.flatsky_local_nonlocal h15 :).trans (congrArg CPar.flatsky_local_nonlocal h14 :)))).trans (congrArg CPar.flatsky_local_nonlocal h13 :)
  have x_flatsky_nonlocal : p17.flatsky_nonlocal = fd := ((congrArg CPar.flatsky_nonlocal h17 :).trans ((congrArg CPar.flatsky_nonlocal h16 :).trans ((congrArg CPar.flatsky_nonlocal h15 :).trans (congrArg CPar.flatsky_nonlocal h14 :)))).trans (congrArg CPar.flatsky_nonlocal h13 :)
  have x_b_derivative : p17.b_derivative = db := ((congrArg CPar.b_derivative h17 :).trans ((congrArg CPar.b_derivative h16 :).trans (congrArg CPar.b_derivative h15 :))).trans (congrArg CPar.b_derivative h14 :)
  have x_f_derivative : p17.f_derivative = df := ((congrArg CPar.f_derivative h17 :).trans ((congrArg CPar.f_derivative h16 :).trans (congrArg CPar.f_derivative h15 :))).trans (congrArg CPar.f_derivative h14 :)
  have x_b_tilde_derivative : p17.b_tilde_derivative = dbt := ((congrArg CPar.b_tilde_derivative h17 :).trans ((congrArg CPar.b_tilde_derivative h16 :).trans (congrArg CPar.b_tilde_derivative h15 :))).trans (congrArg CPar.b_tilde_derivative h14 :)
  have x_f_tilde_derivative : p17.f_tilde_derivative = dft := ((congrArg CPar.f_tilde_derivative h17 :).trans ((congrArg CPar.f_tilde_derivative h16 :).trans (congrArg CPar.f_tilde_derivative h15 :))).trans (congrArg CPar.f_tilde_derivative h14 :)
  have x_have_window : p17.have_window = hw := ((congrArg CPar.have_window h17 :).trans (congrArg CPar.have_window h16 :)).trans (congrArg CPar.have_window h15 :)
  have x_only_cross_correlations : p17.only_cross_correlations = xc := ((congrArg CPar.only_cross_correlations h17 :).trans (congrArg CPar.only_cross_correlations h16 :)).trans (congrArg CPar.only_cross_correlations h15 :)
  have x_window_size : p17.window_size = ws := ((congrArg CPar.window_size h17 :).trans (congrArg CPar.window_size h16 :)).trans (congrArg CPar.window_size h15 :)
  have x_contrib : p17.contrib = l12.foldl set_contribution Contrib.zero := ((congrArg CPar.contrib h17 :).trans ((congrArg CPar.contrib h16 :).trans ((congrArg CPar.contrib h15 :).trans ((congrArg CPar.contrib h14 :).trans (congrArg CPar.contrib h13 :))))).trans (congrArg CPar.contrib h12 :)
  have x_mu : p17.mu = if p4.output_type = CORRFUNC then parse_double_array c "mu" p4.mu else p4.mu := ((congrArg CPar.mu h17 :).trans ((congrArg CPar.mu h16 :).trans ((congrArg CPar.mu h15 :).trans ((congrArg CPar.mu h14 :).trans ((congrArg CPar.mu h13 :).trans ((congrArg CPar.mu h12 :).trans ((congrArg CPar.mu h11 :).trans ((congrArg CPar.mu h10 :).trans ((congrArg CPar.mu h9 :).trans ((congrArg CPar.mu h8 :).trans ((congrArg CPar.mu h7 :).trans (congrArg CPar.mu h6 :)))))))))))).trans (congrArg CPar.mu h5 :)
  have x_multipoles : p17.multipoles = if HasMultipoles p4 then parse_int_array c "multipoles" [] else p4.multipoles := ((congrArg CPar.multipoles h17 :).trans ((congrArg CPar.multipoles h16 :).trans ((congrArg CPar.multipoles h15 :).trans ((congrArg CPar.multipoles h14 :).trans ((congrArg CPar.multipoles h13 :).trans ((congrArg CPar.multipoles h12 :).trans ((congrArg CPar.multipoles h11 :).trans ((congrArg CPar.multipoles h10 :).trans ((congrArg CPar.multipoles h9 :).trans ((congrArg CPar.multipoles h8 :).trans ((congrArg CPar.multipoles h7 :).trans (congrArg CPar.multipoles h6 :)))))))))))).trans (congrArg CPar.multipoles h5 :)
  have x_ps : p17.power_spectrum = p16.power_spectrum := (congrArg CPar.power_spectrum h17 :)
  have x_k_min : p17.k_min = if p16.k_min < ua.1 then ua.1 else p16.k_min := (congrArg CPar.k_min h17 :)
  have x_k_max : p17.k_max = if p16.k_max > ub.1 then ub.1 else p16.k_max := (congrArg CPar.k_max h17 :)
  have y_k_min : p16.k_min = ka := (congrArg CPar.k_min h16 :).trans (congrArg CPar.k_min h15 :)
  have y_k_max : p16.k_max = kb := (congrArg CPar.k_max h16 :).trans (congrArg CPar.k_max h15 :)
  have z9 : p9.z_mean = z2 := ((congrArg CPar.z_mean h9 :).trans ((congrArg CPar.z_mean h8 :).trans ((congrArg CPar.z_mean h7 :).trans ((congrArg CPar.z_mean h6 :).trans ((congrArg CPar.z_mean h5 :).trans ((congrArg CPar.z_mean h4 :).trans (congrArg CPar.z_mean h3 :))))))).trans (congrArg CPar.z_mean h2 :)
  have d9 : p9.density1 = n1 := (congrArg CPar.density1 h9 :)
  have dd9 : p9.density2 = n2 := (congrArg CPar.density2 h9 :)
  have px9 : p9.pixelsize = px := (congrArg CPar.pixelsize h9 :)
  have fs9 : p9.fsky = fs := (congrArg CPar.fsky h9 :)
  have d10 : p10.density1 = n1 := (congrArg CPar.density1 h10 :).trans d9
  have dd10 : p10.density2 = n2 := (congrArg CPar.density2 h10 :).trans dd9
  have fs10' : p10.fsky = fs10 := (congrArg CPar.fsky h10 :)
  have zl10 : p10.zmin = p3.zmin := ((congrArg CPar.zmin h10 :).trans ((congrArg CPar.zmin h9 :).trans ((congrArg CPar.zmin h8 :).trans ((congrArg CPar.zmin h7 :).trans ((congrArg CPar.zmin h6 :).trans ((congrArg CPar.zmin h5 :).trans (congrArg CPar.zmin h4 :)))))))
  have zr10 : p10.zmax = p3.zmax := ((congrArg CPar.zmax h10 :).trans ((congrArg CPar.zmax h9 :).trans ((congrArg CPar.zmax h8 :).trans ((congrArg CPar.zmax h7 :).trans ((congrArg CPar.zmax h6 :).trans ((congrArg CPar.zmax h5 :).trans (congrArg CPar.zmax h4 :)))))))
  have zl3 : p3.zmin = if p2.output_type = AVERAGE_MULTIPOLES then parse_double_array c "z_min" p2.zmin else p2.zmin := (congrArg CPar.zmin h3 :)
  have zr3 : p3.zmax = if p2.output_type = AVERAGE_MULTIPOLES then parse_double_array c "z_max" p2.zmax else p2.zmax := (congrArg CPar.zmax h3 :)
  have mean1 : HasMean p17 → HasMean p1 := fun e => by unfold HasMean at e ⊢; rw [← t1]; exact e
  have mult4 : HasMultipoles p17 → HasMultipoles p4 := fun e => by unfold HasMultipoles at e ⊢; rw [← t4]; exact e
  have sep5 : HasSep p17 → HasSep p5 := fun e => by unfold HasSep at e ⊢; rw [← t5]; exact e
  have surv8 : HasSurvey p17 → HasSurvey p8 := fun e => by unfold HasSurvey at e ⊢; rw [← t8]; exact e
  have z_eq : HasMean p17 → p17.z_mean = parse_double_array c "z_mean" [] := fun e => by
    have h0 := (b1 (mean1 e)).1
    rw [x_z_mean]
    by_cases hc : p9.output_type = COVARIANCE_MULTIPOLES
    · rw [(j1 hc).1, z9, h0, parse_double_array_idem]
    · rw [(j2 hc).1, z9, h0]
  exact {
    output_type := by rw [x_output_type]; exact a2
    background_bins := by rw [x_background_bins]; exact a4
    Omega0_m := by rw [x_Omega0_m]; exact a5
    Omega0_baryon := by rw [x_Omega0_baryon]; exact a6
    Omega0_gamma := by rw [x_Omega0_gamma]; exact a7
    interp_method := by rw [x_interp_method]; exact c1
    bessel_bins := by rw [x_bessel_bins]; exact e1
    integration_bins := by rw [x_integration_bins]; exact e4
    covariance_integration_method := by rw [x_covariance_integration_method]; exact e5
    w0 := by rw [x_w0]; exact e9
    wa := by rw [x_wa]; exact e10
    output_path := by rw [x_output_path]; exact o1.1
    output_prefix := by rw [x_output_prefix]; exact o2.1
    flatsky_local := by rw [x_flatsky_local]; exact o3
    flatsky_local_nonlocal := by rw [x_flatsky_local_nonlocal]; exact o4
    flatsky_nonlocal := by rw [x_flatsky_nonlocal]; exact o5
    b_derivative := by rw [x_b_derivative]; exact q1
    f_derivative := by rw [x_f_derivative]; exact q2
    b_tilde_derivative := by rw [x_b_tilde_derivative]; exact q3
    f_tilde_derivative := by rw [x_f_tilde_derivative]; exact q4
    have_window := by rw [x_have_window]; exact r3
    only_cross_correlations := by rw [x_only_cross_correlations]; exact r4
    galaxy_bias1 := by rw [x_galaxy_bias1]; exact parse_bias_from f1
    galaxy_bias2 := by rw [x_galaxy_bias2]; exact parse_bias_from f2
    magnification_bias1 := by rw [x_magnification_bias1]; exact parse_bias_from f3
    magnification_bias2 := by rw [x_magnification_bias2]; exact parse_bias_from f4
    evolution_bias1 := by rw [x_evolution_bias1]; exact parse_bias_from f5
    evolution_bias2 := by rw [x_evolution_bias2]; exact parse_bias_from f6
    type_bg := fun l hl => by
      rw [x_type_bg]
      exact (Except.ok.inj ((parse_string_array_lists hl).symm.trans a3)).symm
    Omega0_de := by rw [x_Omega0_m, x_Omega0_gamma, x_Omega0_de]; ring
    z_mean := fun e l hl => by rw [z_eq e]; exact parse_double_array_lists hl
    deltaz := fun e l hl => by
      rw [x_deltaz, (j1 (by rw [← t9]; exact e)).2.1]
      exact parse_double_array_lists hl
    z_min := fun e l hl => by
      have : p10.output_type ≠ COVARIANCE_AVERAGE_MULTIPOLES := by rw [← t10, e]; decide
      rw [x_zmin, (k2 this).1, zl10, zl3, if_pos (by rw [← t2]; exact e)]
      exact parse_double_array_lists hl
    z_max := fun e l hl => by
      have : p10.output_type ≠ COVARIANCE_AVERAGE_MULTIPOLES := by rw [← t10, e]; decide
      rw [x_zmax, (k2 this).2, zr10, zr3, if_pos (by rw [← t2]; exact e)]
      exact parse_double_array_lists hl
    zmin := fun e l hl => by
      rw [x_zmin, (k1 (by rw [← t10]; exact e)).1]
      exact parse_double_array_lists hl
    zmax := fun e l hl => by
      rw [x_zmax, (k1 (by rw [← t10]; exact e)).2.1]
      exact parse_double_array_lists hl
    mu := fun e l hl => by
      rw [x_mu, if_pos (by rw [← t4]; exact e)]
      exact parse_double_array_lists hl
    multipoles := fun e l hl => by
      rw [x_multipoles, if_pos (mult4 e)]
      exact parse_int_array_lists hl
    sep := fun e n hn => by
      obtain ⟨a, b, h1, h2, h3, h4, h5, h6⟩ := read_separations_iff.1 (d1 (sep5 e))
      have hn' : ((lookup_int c "separations_sampling").getD 0).toNat = n := by rw [hn]; rfl
      rw [hn'] at h6
      refine ⟨a, b, h1, h2, h3, ?_, ?_⟩
      · rw [x_sep, h6]; simp
      · intro i hi
        simp [x_sep, h6]
    integration_method := fun e => by rw [x_integration_method]; exact (e2 e).1
    covariance_integration_bins := fun e => by
      rw [x_covariance_integration_bins]
      exact (e7 (by rw [← x_covariance_integration_method]; exact e)).1
    covariance_interpolation_method := fun e => by
      rw [x_covariance_interpolation_method]
      exact (e7 (by rw [← x_covariance_integration_method]; exact e)).2.2.1
    density1 := fun e l hl => by
      rw [x_density1, (i1 (surv8 e)).2.1]
      exact parse_double_array_lists hl
    density2 := fun e l hl => by
      rw [x_density2, (i1 (surv8 e)).2.2.1]
      exact parse_double_array_lists hl
    fsky := fun e l hl => by
      rw [x_fsky]
      by_cases hc : p9.output_type = COVARIANCE_MULTIPOLES
      · rw [(j1 hc).2.2.1]
        exact parse_double_array_lists hl
      · rw [(j2 hc).2.2, fs9, (i1 (surv8 e)).2.2.2.1]
        exact parse_double_array_lists hl
    pixelsize := fun e l hl => by
      rw [x_pixelsize, (i1 (surv8 e)).2.2.2.2]
      exact parse_double_array_lists hl
    covariance_window := fun e => by
      rw [x_covariance_window]
      exact (i1 (surv8 e)).1
    contributions := fun l hl => by
      rw [x_contrib, Except.ok.inj (l1.symm.trans (parse_string_array_lists hl))]
      exact contributions_listed l
    k_min := by
      refine ⟨ka, r1, fun a ha => ?_⟩
      rw [x_ps, u1] at ha
      cases ha
      rw [x_k_min, y_k_min]
      by_cases hk : ka < ua.1
      · rw [if_pos hk, max_eq_right hk.le]
      · rw [if_neg hk, max_eq_left (not_lt.1 hk)]
    k_max := by
      refine ⟨kb, r2, fun a ha => ?_⟩
      rw [x_ps, u2] at ha
      cases ha
      rw [x_k_max, y_k_max]
      by_cases hk : kb > ub.1
      · rw [if_pos hk, min_eq_right hk.le]
      · rw [if_neg hk, min_eq_left (not_lt.1 hk)]
    window_size := fun e => by
      rw [x_window_size]
      exact (r5 (by rw [← x_have_window]; exact e)).1 }

theorem parser_checked {E : ParserEnv} {R : ClassRun} {c : Conf} {p17 : CPar} (h : coffe_parser_init E R c = .ok p17) :
    Checked E c p17 := by
  obtain ⟨p1, p2, p3, p4, p5, p6, p7, p8, p9, p10, p11, p12, p13, p14, p15, p16, T⟩ := parser_trace.1 h
  obtain ⟨v, ty, bg, bins, om, ob, og, a1, a2, a3, a4, a5, a6, a7, h1⟩ := parse_general_iff.1 T.s1
  obtain ⟨z2, h2, b1, b2⟩ := parse_z_mean_iff.1 T.s2
  have h3 := T.s3.symm.trans (parse_z_range_eq c p2)
  obtain ⟨im, c1, h4⟩ := parse_interpolation_iff.1 T.s4
  have h5 := T.s5.symm.trans (parse_mu_multipoles_eq c p4)
  obtain ⟨s6, h6, d1, d2⟩ := parse_separations_iff.1 T.s6
  obtain ⟨bessel, me, ib, cm, cb, ct, w0, wa, e1, e2, e3, e4, e5, e6, e7, e8, e9, e10, h7⟩ := parse_integration_ok T.s7
  obtain ⟨g1, g2, m1, m2, ev1, ev2, f1, f2, f3, f4, f5, f6, h8⟩ := parse_biases_iff.1 T.s8
  obtain ⟨n1, n2, fs, px, cw, h9, i1, i2⟩ := parse_survey_iff.1 T.s9
  obtain ⟨z10, dz, fs10, h10, j1, j2⟩ := parse_covariance_multipoles_iff.1 T.s10
  obtain ⟨zl, zr, h11, k1, k2⟩ := parse_covariance_average_iff.1 T.s11
  obtain ⟨l12, l1, h12⟩ := parse_contributions_iff.1 T.s12
  obtain ⟨path, pre, fa, fb, fd, o1, o2, o3, o4, o5, h13⟩ := parse_output_iff.1 T.s13
  obtain ⟨db, df, dbt, dft, q1, q2, q3, q4, q5, h14⟩ := parse_derivatives_iff.1 T.s14
  obtain ⟨ka, kb, hw, xc, ws, r1, r2, r3, r4, r5, r6, h15⟩ := parse_range_ok T.s15
  have h16 := (parse_spectrum_same T.s16).eq
  obtain ⟨ua, ub, u1, u2, u3, u4, h17⟩ := clamp_range_ok T.s17
  have t1 : p17.output_type = p1.output_type := ((congrArg CPar.output_type h17 :).trans ((congrArg CPar.output_type h16 :).trans ((congrArg CPar.output_type h15 :).trans ((congrArg CPar.output_type h14 :).trans ((congrArg CPar.output_type h13 :).trans ((congrArg CPar.output_type h12 :).trans ((congrArg CPar.output_type h11 :).trans ((congrArg CPar.output_type h10 :).trans ((congrArg CPar.output_type h9 :).trans ((congrArg CPar.output_type h8 :).trans ((congrArg CPar.output_type h7 :).trans ((congrArg CPar.output_type h6 :).trans ((congrArg CPar.output_type h5 :).trans ((congrArg CPar.output_type h4 :).trans ((congrArg CPar.output_type h3 :).trans (congrArg CPar.output_type h2 :))))))))))))))))
  have t2 : p17.output_type = p2.output_type := ((congrArg CPar.output_type h17 :).trans ((congrArg CPar.output_type h16 :).trans ((congrArg CPar.output_type h15 :).trans ((congrArg CPar.output_type h14 :).trans ((congrArg CPar.output_type h13 :).trans ((congrArg CPar.output_type h12 :).trans ((congrArg CPar.output_type h11 :).trans ((congrArg CPar.output_type h10 :).trans ((congrArg CPar.output_type h9 :).trans ((congrArg CPar.output_type h8 :).trans ((congrArg CPar.output_type h7 :).trans ((congrArg CPar.output_type h6 :).trans ((congrArg CPar.output_type h5 :).trans ((congrArg CPar.output_type h4 :).trans (congrArg CPar.output_type h3 :)))))))))))))))
  have t4 : p17.output_type = p4.output_type := ((congrArg CPar.output_type h17 :).trans ((congrArg CPar.output_type h16 :).trans ((congrArg CPar.output_type h15 :).trans ((congrArg CPar.output_type h14 :).trans ((congrArg CPar.output_type h13 :).trans ((congrArg CPar.output_type h12 :).trans ((congrArg CPar.output_type h11 :).trans ((congrArg CPar.output_type h10 :).trans ((congrArg CPar.output_type h9 :).trans ((congrArg CPar.output_type h8 :).trans ((congrArg CPar.output_type h7 :).trans ((congrArg CPar.output_type h6 :).trans (congrArg CPar.output_type h5 :)))))))))))))
  have t5 : p17.output_type = p5.output_type := ((congrArg CPar.output_type h17 :).trans ((congrArg CPar.output_type h16 :).trans ((congrArg CPar.output_type h15 :).trans ((congrArg CPar.output_type h14 :).trans ((congrArg CPar.output_type h13 :).trans ((congrArg CPar.output_type h12 :).trans ((congrArg CPar.output_type h11 :).trans ((congrArg CPar.output_type h10 :).trans ((congrArg CPar.output_type h9 :).trans ((congrArg CPar.output_type h8 :).trans ((congrArg CPar.output_type h7 :).trans (congrArg CPar.output_type h6 :))))))))))))
  have t8 : p17.output_type = p8.output_type := ((congrArg CPar.output_type h17 :).trans ((congrArg CPar.output_type h16 :).trans ((congrArg CPar.output_type h15 :).trans ((congrArg CPar.output_type h14 :).trans ((congrArg CPar.output_type h13 :).trans ((congrArg CPar.output_type h12 :).trans ((congrArg CPar.output_type h11 :).trans ((congrArg CPar.output_type h10 :).trans (congrArg CPar.output_type h9 :)))))))))
  have t9 : p17.output_type = p9.output_type := ((congrArg CPar.output_type h17 :).trans ((congrArg CPar.output_type h16 :).trans ((congrArg CPar.output_type h15 :).trans ((congrArg CPar.output_type h14 :).trans ((congrArg CPar.output_type h13 :).trans ((congrArg CPar.output_type h12 :).trans ((congrArg CPar.output_type h11 :).trans (congrArg CPar.output_type h10 :))))))))
  have t10 : p17.output_type = p10.output_type := ((congrArg CPar.output_type h17 :).trans ((congrArg CPar.output_type h16 :).trans ((congrArg CPar.output_type h15 :).trans ((congrArg CPar.output_type h14 :).trans ((congrArg CPar.output_type h13 :).trans ((congrArg CPar.output_type h12 :).trans (congrArg CPar.output_type h11 :)))))))
  have x_output_type : p17.output_type = ty := ((congrArg CPar.output_type h17 :).trans ((congrArg CPar.output_type h16 :).trans ((congrArg CPar.output_type h15 :).trans ((congrArg CPar.output_type h14 :).trans ((congrArg CPar.output_type h13 :).trans ((congrArg CPar.output_type h12 :).trans ((congrArg CPar.output_type h11 :).trans ((congrArg CPar.output_type h10 :).trans ((congrArg CPar.output_type h9 :).trans ((congrArg CPar.output_type h8 :).trans ((congrArg CPar.output_type h7 :).trans ((congrArg CPar.output_type h6 :).trans ((congrArg CPar.output_type h5 :).trans ((congrArg CPar.output_type h4 :).trans ((congrArg CPar.output_type h3 :).trans (congrArg CPar.output_type h2 :)))))))))))))))).trans (congrArg CPar.output_type h1 :)
  have x_type_bg : p17.type_bg = bg := ((congrArg CPar.type_bg h17 :).trans ((congrArg CPar.type_bg h16 :).trans ((congrArg CPar.type_bg h15 :).trans ((congrArg CPar.type_bg h14 :).trans ((congrArg CPar.type_bg h13 :).trans ((congrArg CPar.type_bg h12 :).trans ((congrArg CPar.type_bg h11 :).trans ((congrArg CPar.type_bg h10 :).trans ((congrArg CPar.type_bg h9 :).trans ((congrArg CPar.type_bg h8 :).trans ((congrArg CPar.type_bg h7 :).trans ((congrArg CPar.type_bg h6 :).trans ((congrArg CPar.type_bg h5 :).trans ((congrArg CPar.type_bg h4 :).trans ((congrArg CPar.type_bg h3 :).trans (congrArg CPar.type_bg h2 :)))))))))))))))).trans (congrArg CPar.type_bg h1 :)
  have x_background_bins : p17.background_bins = bins := ((congrArg CPar.background_bins h17 :).trans ((congrArg CPar.background_bins h16 :).trans ((congrArg CPar.background_bins h15 :).trans ((congrArg CPar.background_bins h14 :).trans ((congrArg CPar.background_bins h13 :).trans ((congrArg CPar.background_bins h12 :).trans ((congrArg CPar.background_bins h11 :).trans ((congrArg CPar.background_bins h10 :).trans ((congrArg CPar.background_bins h9 :).trans ((congrArg CPar.background_bins h8 :).trans ((congrArg CPar.background_bins h7 :).trans ((congrArg CPar.background_bins h6 :).trans ((congrArg CPar.background_bins h5 :).trans ((congrArg CPar.background_bins h4 :).trans ((congrArg CPar.background_bins h3 :).trans (congrArg CPar.background_bins h2 :)))))))))))))))).trans (congrArg CPar.background_bins h1 :)
  have x_Omega0_m : p17.Omega0_m = om := ((congrArg CPar.Omega0_m h17 :).trans ((congrArg CPar.Omega0_m h16 :).trans ((congrArg CPar.Omega0_m h15 :).trans ((congrArg CPar.Omega0_m h14 :).trans ((congrArg CPar.Omega0_m h13 :).trans ((congrArg CPar.Omega0_m h12 :).trans ((congrArg CPar.Omega0_m h11 :).trans ((congrArg CPar.Omega0_m h10 :).trans ((congrArg CPar.Omega0_m h9 :).trans ((congrArg CPar.Omega0_m h8 :).trans ((congrArg CPar.Omega0_m h7 :).trans ((congrArg CPar.Omega0_m h6 :).trans ((congrArg CPar.Omega0_m h5 :).trans ((congrArg CPar.Omega0_m h4 :).trans ((congrArg CPar.Omega0_m h3 :).trans (congrArg CPar.Omega0_m h2 :)))))))))))))))).trans (congrArg CPar.Omega0_m h1 :)
  have x_Omega0_baryon : p17.Omega0_baryon = ob := ((congrArg CPar.Omega0_baryon h17 :).trans ((congrArg CPar.Omega0_baryon h16 :).trans ((congrArg CPar.Omega0_baryon h15 :).trans ((congrArg CPar.Omega0_baryon h14 :).trans ((congrArg CPar.Omega0_baryon h13 :).trans ((congrArg CPar.Omega0_baryon h12 :).trans ((congrArg CPar.Omega0_baryon h11 :).trans ((congrArg CPar.Omega0_baryon h10 :).trans ((congrArg CPar.Omega0_baryon h9 :).trans ((congrArg CPar.Omega0_baryon h8 :).trans ((congrArg CPar.Omega0_baryon h7 :).trans ((congrArg CPar.Omega0_baryon h6 :).trans ((congrArg CPar.Omega0_baryon h5 :).trans ((congrArg CPar.Omega0_baryon h4 :).trans ((congrArg CPar.Omega0_baryon h3 :).trans (congrArg CPar.Omega0_baryon h2 :)))))))))))))))).trans (congrArg CPar.Omega0_baryon h1 :)
  have x_Omega0_gamma : p17.Omega0_gamma = og := ((congrArg CPar.Omega0_gamma h17 :).trans ((congrArg CPar.Omega0_gamma h16 :).trans ((congrArg CPar.Omega0_gamma h15 :).trans ((congrArg CPar.Omega0_gamma h14 :).trans ((congrArg CPar.Omega0_gamma h13 :).trans ((congrArg CPar.Omega0_gamma h12 :).trans ((congrArg CPar.Omega0_gamma h11 :).trans ((congrArg CPar.Omega0_gamma h10 :).trans ((congrArg CPar.Omega0_gamma h9 :).trans ((congrArg CPar.Omega0_gamma h8 :).trans ((congrArg CPar.Omega0_gamma h7 :).trans ((congrArg CPar.Omega0_gamma h6 :).trans ((congrArg CPar.Omega0_gamma h5 :).trans ((congrArg CPar.Omega0_gamma h4 :).trans ((congrArg CPar.Omega0_gamma h3 :).trans (congrArg CPar.Omega0_gamma h2 :)))))))))))))))).trans (congrArg CPar.Omega0_gamma h1 :)
  have x_Omega0_de : p17.Omega0_de = 1 - (om + og) := ((congrArg CPar.Omega0_de h17 :).trans ((congrArg CPar.Omega0_de h16 :).trans ((congrArg CPar.Omega0_de h15 :).trans ((congrArg CPar.Omega0_de h14 :).trans ((congrArg CPar.Omega0_de h13 :).trans ((congrArg CPar.Omega0_de h12 :).trans ((congrArg CPar.Omega0_de h11 :).trans ((congrArg CPar.Omega0_de h10 :).trans ((congrArg CPar.Omega0_de h9 :).trans ((congrArg CPar.Omega0_de h8 :).trans ((congrArg CPar.Omega0_de h7 :).trans ((congrArg CPar.Omega0_de h6 :).trans ((congrArg CPar.Omega0_de h5 :).trans ((congrArg CPar.Omega0_de h4 :).trans ((congrArg CPar.Omega0_de h3 :).trans (congrArg CPar.Omega0_de h2 :)))))))))))))))).trans (congrArg CPar.Omega0_de h1 :)
  have x_interp_method : p17.interp_method = im := ((congrArg CPar.interp_method h17 :).trans ((congrArg CPar.interp_method h16 :).trans ((congrArg CPar.interp_method h15 :).trans ((congrArg CPar.interp_method h14 :).trans ((congrArg CPar.interp_method h13 :).trans ((congrArg CPar.interp_method h12 :).trans ((congrArg CPar.interp_method h11 :).trans ((congrArg CPar.interp_method h10 :).trans ((congrArg CPar.interp_method h9 :).trans ((congrArg CPar.interp_method h8 :).trans ((congrArg CPar.interp_method h7 :).trans ((congrArg CPar.interp_method h6 :).trans (congrArg CPar.interp_method h5 :))))))))))))).trans (congrArg CPar.interp_method h4 :)
  have x_sep : p17.sep = s6 := ((congrArg CPar.sep h17 :).trans ((congrArg CPar.sep h16 :).trans ((congrArg CPar.sep h15 :).trans ((congrArg CPar.sep h14 :).trans ((congrArg CPar.sep h13 :).trans ((congrArg CPar.sep h12 :).trans ((congrArg CPar.sep h11 :).trans ((congrArg CPar.sep h10 :).trans ((congrArg CPar.sep h9 :).trans ((congrArg CPar.sep h8 :).trans (congrArg CPar.sep h7 :))))))))))).trans (congrArg CPar.sep h6 :)
  have x_bessel_bins : p17.bessel_bins = bessel := ((congrArg CPar.bessel_bins h17 :).trans ((congrArg CPar.bessel_bins h16 :).trans ((congrArg CPar.bessel_bins h15 :).trans ((congrArg CPar.bessel_bins h14 :).trans ((congrArg CPar.bessel_bins h13 :).trans ((congrArg CPar.bessel_bins h12 :).trans ((congrArg CPar.bessel_bins h11 :).trans ((congrArg CPar.bessel_bins h10 :).trans ((congrArg CPar.bessel_bins h9 :).trans (congrArg CPar.bessel_bins h8 :)))))))))).trans (congrArg CPar.bessel_bins h7 :)
  have x_integration_method : p17.integration_method = me := ((congrArg CPar.integration_method h17 :).trans ((congrArg CPar.integration_method h16 :).trans ((congrArg CPar.integration_method h15 :).trans ((congrArg CPar.integration_method h14 :).trans ((congrArg CPar.integration_method h13 :).trans ((congrArg CPar.integration_method h12 :).trans ((congrArg CPar.integration_method h11 :).trans ((congrArg CPar.integration_method h10 :).trans ((congrArg CPar.integration_method h9 :).trans (congrArg CPar.integration_method h8 :)))))))))).trans (congrArg CPar.integration_method h7 :)
  have x_integration_bins : p17.integration_bins = ib := ((congrArg CPar.integration_bins h17 :).trans ((congrArg CPar.integration_bins h16 :).trans ((congrArg CPar.integration_bins h15 :).trans ((congrArg CPar.integration_bins h14 :).trans ((congrArg CPar.integration_bins h13 :).trans ((congrArg CPar.integration_bins h12 :).trans ((congrArg CPar.integration_bins h11 :).trans ((congrArg CPar.integration_bins h10 :).trans ((congrArg CPar.integration_bins h9 :).trans (congrArg CPar.integration_bins h8 :)))))))))).trans (congrArg CPar.integration_bins h7 :)
  have x_covariance_integration_method : p17.covariance_integration_method = cm := ((congrArg CPar.covariance_integration_method h17 :).trans ((congrArg CPar.covariance_integration_method h16 :).trans ((congrArg CPar.covariance_integration_method h15 :).trans ((congrArg CPar.covariance_integration_method h14 :).trans ((congrArg CPar.covariance_integration_method h13 :).trans ((congrArg CPar.covariance_integration_method h12 :).trans ((congrArg CPar.covariance_integration_method h11 :).trans ((congrArg CPar.covariance_integration_method h10 :).trans ((congrArg CPar.covariance_integration_method h9 :).trans (congrArg CPar.covariance_integration_method h8 :)))))))))).trans (congrArg CPar.covariance_integration_method h7 :)
  have x_covariance_integration_bins : p17.covariance_integration_bins = cb := ((congrArg CPar.covariance_integration_bins h17 :).trans ((congrArg CPar.covariance_integration_bins h16 :).trans ((congrArg CPar.covariance_integration_bins h15 :).trans ((congrArg CPar.covariance_integration_bins h14 :).trans ((congrArg CPar.covariance_integration_bins h13 :).trans ((congrArg CPar.covariance_integration_bins h12 :).trans ((congrArg CPar.covariance_integration_bins h11 :).trans ((congrArg CPar.covariance_integration_bins h10 :).trans ((congrArg CPar.covariance_integration_bins h9 :).trans (congrArg CPar.covariance_integration_bins h8 :)))))))))).trans (congrArg CPar.covariance_integration_bins h7 :)
  have x_covariance_interpolation_method : p17.covariance_interpolation_method = ct := ((congrArg CPar.covariance_interpolation_method h17 :).trans ((congrArg CPar.covariance_interpolation_method h16 :).trans ((congrArg CPar.covariance_interpolation_method h15 :).trans ((congrArg CPar.covariance_interpolation_method h14 :).trans ((congrArg CPar.covariance_interpolation_method h13 :).trans ((congrArg CPar.covariance_interpolation_method h12 :).trans ((congrArg CPar.covariance_interpolation_method h11 :).trans ((congrArg CPar.covariance_interpolation_method h10 :).trans ((congrArg CPar.covariance_interpolation_method h9 :).trans (congrArg CPar.covariance_interpolation_method h8 :)))))))))).trans (congrArg CPar.covariance_interpolation_method h7 :)
  have x_w0 : p17.w0 = w0 := ((congrArg CPar.w0 h17 :).trans ((congrArg CPar.w0 h16 :).trans ((congrArg CPar.w0 h15 :).trans ((congrArg CPar.w0 h14 :).trans ((congrArg CPar.w0 h13 :).trans ((congrArg CPar.w0 h12 :).trans ((congrArg CPar.w0 h11 :).trans ((congrArg CPar.w0 h10 :).trans ((congrArg CPar.w0 h9 :).trans (congrArg CPar.w0 h8 :)))))))))).trans (congrArg CPar.w0 h7 :)
  have x_wa : p17.wa = wa := ((congrArg CPar.wa h17 :).trans ((congrArg CPar.wa h16 :).trans ((congrArg CPar.wa h15 :).trans ((congrArg CPar.wa h14 :).trans ((congrArg CPar.wa h13 :).trans ((congrArg CPar.wa h12 :).trans ((congrArg CPar.wa h11 :).trans ((congrArg CPar.wa h10 :).trans ((congrArg CPar.wa h9 :).trans (congrArg CPar.wa h8 :)))))))))).trans (congrArg CPar.wa h7 :)
  have x_galaxy_bias1 : p17.galaxy_bias1 = g1 := ((congrArg CPar.galaxy_bias1 h17 :).trans ((congrArg CPar.galaxy_bias1 h16 :).trans ((congrArg CPar.galaxy_bias1 h15 :).trans ((congrArg CPar.galaxy_bias1 h14 :).trans ((congrArg CPar.galaxy_bias1 h13 :).trans ((congrArg CPar.galaxy_bias1 h12 :).trans ((congrArg CPar.galaxy_bias1 h11 :).trans ((congrArg CPar.galaxy_bias1 h10 :).trans (congrArg CPar.galaxy_bias1 h9 :))))))))).trans (congrArg CPar.galaxy_bias1 h8 :)
  have x_galaxy_bias2 : p17.galaxy_bias2 = g2 := ((congrArg CPar.galaxy_bias2 h17 :).trans ((congrArg CPar.galaxy_bias2 h16 :).trans ((congrArg CPar.galaxy_bias2 h15 :).trans ((congrArg CPar.galaxy_bias2 h14 :).trans ((congrArg CPar.galaxy_bias2 h13 :).trans ((congrArg CPar.galaxy_bias2 h12 :).trans ((congrArg CPar.galaxy_bias2 h11 :).trans ((congrArg CPar.galaxy_bias2 h10 :).trans (congrArg CPar.galaxy_bias2 h9 :))))))))).trans (congrArg CPar.galaxy_bias2 h8 :)
  have x_magnification_bias1 : p17.magnification_bias1 = m1 := ((congrArg CPar.magnification_bias1 h17 :).trans ((congrArg CPar.magnification_bias1 h16 :).trans ((congrArg CPar.magnification_bias1 h15 :).trans ((congrArg CPar.magnification_bias1 h14 :).trans ((congrArg CPar.magnification_bias1 h13 :).trans ((congrArg CPar.magnification_bias1 h12 :).trans ((congrArg CPar.magnification_bias1 h11 :).trans ((congrArg CPar.magnification_bias1 h10 :).trans (congrArg CPar.magnification_bias1 h9 :))))))))).trans (congrArg CPar.magnification_bias1 h8 :)
  have x_magnification_bias2 : p17.magnification_bias2 = m2 := ((congrArg CPar.magnification_bias2 h17 :).trans ((congrArg CPar.magnification_bias2 h16 :).trans ((congrArg CPar.magnification_bias2 h15 :).trans ((congrArg CPar.magnification_bias2 h14 :).trans ((congrArg CPar.magnification_bias2 h13 :).trans ((congrArg CPar.magnification_bias2 h12 :).trans ((congrArg CPar.magnification_bias2 h11 :).trans ((congrArg CPar.magnification_bias2 h10 :).trans (congrArg CPar.magnification_bias2 h9 :))))))))).trans (congrArg CPar.magnification_bias2 h8 :)
  have x_evolution_bias1 : p17.evolution_bias1 = ev1 := ((congrArg CPar.evolution_bias1 h17 :).trans ((congrArg CPar.evolution_bias1 h16 :).trans ((congrArg CPar.evolution_bias1 h15 :).trans ((congrArg CPar.evolution_bias1 h14 :).trans ((congrArg CPar.evolution_bias1 h13 :).trans ((congrArg CPar.evolution_bias1 h12 :).trans ((congrArg CPar.evolution_bias1 h11 :).trans ((congrArg CPar.evolution_bias1 h10 :).trans (congrArg CPar.evolution_bias1 h9 :))))))))).trans (congrArg CPar.evolution_bias1 h8 :)
  have x_evolution_bias2 : p17.evolution_bias2 = ev2 := ((congrArg CPar.evolution_bias2 h17 :).trans ((congrArg CPar.evolution_bias2 h16 :).trans ((congrArg CPar.evolution_bias2 h15 :).trans ((congrArg CPar.evolution_bias2 h14 :).trans ((congrArg CPar.evolution_bias2 h13 :).trans ((congrArg CPar.evolution_bias2 h12 :).trans ((congrArg CPar.evolution_bias2 h11 :).trans ((congrArg CPar.evolution_bias2 h10 :).trans (congrArg CPar.evolution_bias2 h9 :))))))))).trans (congrArg CPar.evolution_bias2 h8 :)
  have x_density1 : p17.density1 = n1 := ((congrArg CPar.density1 h17 :).trans ((congrArg CPar.density1 h16 :).trans ((congrArg CPar.density1 h15 :).trans ((congrArg CPar.density1 h14 :).trans ((congrArg CPar.density1 h13 :).trans ((congrArg CPar.density1 h12 :).trans ((congrArg CPar.density1 h11 :).trans (congrArg CPar.density1 h10 :)))))))).trans (congrArg CPar.density1 h9 :)
  have x_density2 : p17.density2 = n2 := ((congrArg CPar.density2 h17 :).trans ((congrArg CPar.density2 h16 :).trans ((congrArg CPar.density2 h15 :).trans ((congrArg CPar.density2 h14 :).trans ((congrArg CPar.density2 h13 :).trans ((congrArg CPar.density2 h12 :).trans ((congrArg CPar.density2 h11 :).trans (congrArg CPar.density2 h10 :)))))))).trans (congrArg CPar.density2 h9 :)
  have x_pixelsize : p17.pixelsize = px := ((congrArg CPar.pixelsize h17 :).trans ((congrArg CPar.pixelsize h16 :).trans ((congrArg CPar.pixelsize h15 :).trans ((congrArg CPar.pixelsize h14 :).trans ((congrArg CPar.pixelsize h13 :).trans ((congrArg CPar.pixelsize h12 :).trans ((congrArg CPar.pixelsize h11 :).trans (congrArg CPar.pixelsize h10 :)))))))).trans (congrArg CPar.pixelsize h9 :)
  have x_covariance_window : p17.covariance_window = cw := ((congrArg CPar.covariance_window h17 :).trans ((congrArg CPar.covariance_window h16 :).trans ((congrArg CPar.covariance_window h15 :).trans ((congrArg CPar.covariance_window h14 :).trans ((congrArg CPar.covariance_window h13 :).trans ((congrArg CPar.covariance_window h12 :).trans ((congrArg CPar.covariance_window h11 :).trans (congrArg CPar.covariance_window h10 :)))))))).trans (congrArg CPar.covariance_window h9 :)
  have x_z_mean : p17.z_mean = z10 := ((congrArg CPar.z_mean h17 :).trans ((congrArg CPar.z_mean h16 :).trans ((congrArg CPar.z_mean h15 :).trans ((congrArg CPar.z_mean h14 :).trans ((congrArg CPar.z_mean h13 :).trans ((congrArg CPar.z_mean h12 :).trans (congrArg CPar.z_mean h11 :))))))).trans (congrArg CPar.z_mean h10 :)
  have x_deltaz : p17.deltaz = dz := ((congrArg CPar.deltaz h17 :).trans ((congrArg CPar.deltaz h16 :).trans ((congrArg CPar.deltaz h15 :).trans ((congrArg CPar.deltaz h14 :).trans ((congrArg CPar.deltaz h13 :).trans ((congrArg CPar.deltaz h12 :).trans (congrArg CPar.deltaz h11 :))))))).trans (congrArg CPar.deltaz h10 :)
  have x_fsky : p17.fsky = fs10 := ((congrArg CPar.fsky h17 :).trans ((congrArg CPar.fsky h16 :).trans ((congrArg CPar.fsky h15 :).trans ((congrArg CPar.fsky h14 :).trans ((congrArg CPar.fsky h13 :).trans ((congrArg CPar.fsky h12 :).trans (congrArg CPar.fsky h11 :))))))).trans (congrArg CPar.fsky h10 :)
  have x_zmin : p17.zmin = zl := ((congrArg CPar.zmin h17 :).trans ((congrArg CPar.zmin h16 :).trans ((congrArg CPar.zmin h15 :).trans ((congrArg CPar.zmin h14 :).trans ((congrArg CPar.zmin h13 :).trans (congrArg CPar.zmin h12 :)))))).trans (congrArg CPar.zmin h11 :)
  have x_zmax : p17.zmax = zr := ((congrArg CPar.zmax h17 :).trans ((congrArg CPar.zmax h16 :).trans ((congrArg CPar.zmax h15 :).trans ((congrArg CPar.zmax h14 :).trans ((congrArg CPar.zmax h13 :).trans (congrArg CPar.zmax h12 :)))))).trans (congrArg CPar.zmax h11 :)
  have x_output_path : p17.output_path = path := ((congrArg CPar.output_path h17 :).trans ((congrArg CPar.output_path h16 :).trans ((congrArg CPar.output_path h15 :).trans (congrArg CPar.output_path h14 :)))).trans (congrArg CPar.output_path h13 :)
  have x_output_prefix : p17.output_prefix = pre := ((congrArg CPar.output_prefix h17 :).trans ((congrArg CPar.output_prefix h16 :).trans ((congrArg CPar.output_prefix h15 :).trans (congrArg CPar.output_prefix h14 :)))).trans (congrArg CPar.output_prefix h13 :)
  have x_flatsky_local : p17.flatsky_local = fa := ((congrArg CPar.flatsky_local h17 :).trans ((congrArg CPar.flatsky_local h16 :).trans ((congrArg CPar.flatsky_local h15 :).trans (congrArg CPar.flatsky_local h14 :)))).trans (congrArg CPar.flatsky_local h13 :)
  have x_flatsky_local_nonlocal : p17.flatsky_local_nonlocal = fb := ((congrArg CPar.flatsky_local_nonlocal h17 :).trans ((congrArg CPar.flatsky_local_nonlocal h16 :).trans ((congrArg CPar.flatsky_local_nonlocal h15 :).trans (congrArg CPar.flatsky_local_nonlocal h14 :)))).trans (congrArg CPar.flatsky_local_nonlocal h13 :)
  have x_flatsky_nonlocal : p17.flatsky_nonlocal = fd := ((congrArg CPar.flatsky_nonlocal h17 :).trans ((congrArg CPar.flatsky_nonlocal h16 :).trans ((congrArg CPar.flatsky_nonlocal h15 :).trans (congrArg CPar.flatsky_nonlocal h14 :)))).trans (congrArg CPar.flatsky_nonlocal h13 :)
  have x_b_derivative : p17.b_derivative = db := ((congrArg CPar.b_derivative h17 :).trans ((congrArg CPar.b_derivative h16 :).trans (congrArg CPar.b_derivative h15 :))).trans (congrArg CPar.b_derivative h14 :)
  have x_f_derivative : p17.f_derivative = df := ((congrArg CPar.f_derivative h17 :).trans ((congrArg CPar.f_derivative h16 :).trans (congrArg CPar.f_derivative h15 :))).trans (congrArg CPar.f_derivative h14 :)
  have x_b_tilde_derivative : p17.b_tilde_derivative = dbt := ((congrArg CPar.b_tilde_derivative h17 :).trans ((congrArg CPar.b_tilde_derivative h16 :).trans (congrArg CPar.b_tilde_derivative h15 :))).trans (congrArg CPar.b_tilde_derivative h14 :)
  have x_f_tilde_derivative : p17.f_tilde_derivative = dft := ((congrArg CPar.f_tilde_derivative h17 :).trans ((congrArg CPar.f_tilde_derivative h16 :).trans (congrArg CPar.f_tilde_derivative h15 :))).trans (congrArg CPar.f_tilde_derivative h14 :)
  have x_have_window : p17.have_window = hw := ((congrArg CPar.have_window h17 :).trans (congrArg CPar.have_window h16 :)).trans (congrArg CPar.have_window h15 :)
  have x_only_cross_correlations : p17.only_cross_correlations = xc := ((congrArg CPar.only_cross_correlations h17 :).trans (congrArg CPar.only_cross_correlations h16 :)).trans (congrArg CPar.only_cross_correlations h15 :)
  have x_window_size : p17.window_size = ws := ((congrArg CPar.window_size h17 :).trans (congrArg CPar.window_size h16 :)).trans (congrArg CPar.window_size h15 :)
  have x_contrib : p17.contrib = l12.foldl set_contribution Contrib.zero := ((congrArg CPar.contrib h17 :).trans ((congrArg CPar.contrib h16 :).trans ((congrArg CPar.contrib h15 :).trans ((congrArg CPar.contrib h14 :).trans (congrArg CPar.contrib h13 :))))).trans (congrArg CPar.contrib h12 :)
  have x_mu : p17.mu = if p4.output_type = CORRFUNC then parse_double_array c "mu" p4.mu else p4.mu := ((congrArg CPar.mu h17 :).trans ((congrArg CPar.mu h16 :).trans ((congrArg CPar.mu h15 :).trans ((congrArg CPar.mu h14 :).trans ((congrArg CPar.mu h13 :).trans ((congrArg CPar.mu h12 :).trans ((congrArg CPar.mu h11 :).trans ((congrArg CPar.mu h10 :).trans ((congrArg CPar.mu h9 :).trans ((congrArg CPar.mu h8 :).trans ((congrArg CPar.mu h7 :).trans (congrArg CPar.mu h6 :)))))))))))).trans (congrArg CPar.mu h5 :)
  have x_multipoles : p17.multipoles = if HasMultipoles p4 then parse_int_array c "multipoles" [] else p4.multipoles := ((congrArg CPar.multipoles h17 :).trans ((congrArg CPar.multipoles h16 :).trans ((congrArg CPar.multipoles h15 :).trans ((congrArg CPar.multipoles h14 :).trans ((congrArg CPar.multipoles h13 :).trans ((congrArg CPar.multipoles h12 :).trans ((congrArg CPar.multipoles h11 :).trans ((congrArg CPar.multipoles h10 :).trans ((congrArg CPar.multipoles h9 :).trans ((congrArg CPar.multipoles h8 :).trans ((congrArg CPar.multipoles h7 :).trans (congrArg CPar.multipoles h6 :)))))))))))).trans (congrArg CPar.multipoles h5 :)
  have x_ps : p17.power_spectrum = p16.power_spectrum := (congrArg CPar.power_spectrum h17 :)
  have x_k_min : p17.k_min = if p16.k_min < ua.1 then ua.1 else p16.k_min := (congrArg CPar.k_min h17 :)
  have x_k_max : p17.k_max = if p16.k_max > ub.1 then ub.1 else p16.k_max := (congrArg CPar.k_max h17 :)
  have y_k_min : p16.k_min = ka := (congrArg CPar.k_min h16 :).trans (congrArg CPar.k_min h15 :)
  have y_k_max : p16.k_max = kb := (congrArg CPar.k_max h16 :).trans (congrArg CPar.k_max h15 :)
  have z9 : p9.z_mean = z2 := ((congrArg CPar.z_mean h9 :).trans ((congrArg CPar.z_mean h8 :).trans ((congrArg CPar.z_mean h7 :).trans ((congrArg CPar.z_mean h6 :).trans ((congrArg CPar.z_mean h5 :).trans ((congrArg CPar.z_mean h4 :).trans (congrArg CPar.z_mean h3 :))))))).trans (congrArg CPar.z_mean h2 :)
  have d9 : p9.density1 = n1 := (congrArg CPar.density1 h9 :)
  have dd9 : p9.density2 = n2 := (congrArg CPar.density2 h9 :)
  have px9 : p9.pixelsize = px := (congrArg CPar.pixelsize h9 :)
  have fs9 : p9.fsky = fs := (congrArg CPar.fsky h9 :)
  have d10 : p10.density1 = n1 := (congrArg CPar.density1 h10 :).trans d9
  have dd10 : p10.density2 = n2 := (congrArg CPar.density2 h10 :).trans dd9
  have fs10' : p10.fsky = fs10 := (congrArg CPar.fsky h10 :)
  have zl10 : p10.zmin = p3.zmin := ((congrArg CPar.zmin h10 :).trans ((congrArg CPar.zmin h9 :).trans ((congrArg CPar.zmin h8 :).trans ((congrArg CPar.zmin h7 :).trans ((congrArg CPar.zmin h6 :).trans ((congrArg CPar.zmin h5 :).trans (congrArg CPar.zmin h4 :)))))))
  have zr10 : p10.zmax = p3.zmax := ((congrArg CPar.zmax h10 :).trans ((congrArg CPar.zmax h9 :).trans ((congrArg CPar.zmax h8 :).trans ((congrArg CPar.zmax h7 :).trans ((congrArg CPar.zmax h6 :).trans ((congrArg CPar.zmax h5 :).trans (congrArg CPar.zmax h4 :)))))))
  have zl3 : p3.zmin = if p2.output_type = AVERAGE_MULTIPOLES then parse_double_array c "z_min" p2.zmin else p2.zmin := (congrArg CPar.zmin h3 :)
  have zr3 : p3.zmax = if p2.output_type = AVERAGE_MULTIPOLES then parse_double_array c "z_max" p2.zmax else p2.zmax := (congrArg CPar.zmax h3 :)
  have mean1 : HasMean p17 → HasMean p1 := fun e => by unfold HasMean at e ⊢; rw [← t1]; exact e
  have mult4 : HasMultipoles p17 → HasMultipoles p4 := fun e => by unfold HasMultipoles at e ⊢; rw [← t4]; exact e
  have sep5 : HasSep p17 → HasSep p5 := fun e => by unfold HasSep at e ⊢; rw [← t5]; exact e
  have surv8 : HasSurvey p17 → HasSurvey p8 := fun e => by unfold HasSurvey at e ⊢; rw [← t8]; exact e
  have z_eq : HasMean p17 → p17.z_mean = parse_double_array c "z_mean" [] := fun e => by
    have h0 := (b1 (mean1 e)).1
    rw [x_z_mean]
    by_cases hc : p9.output_type = COVARIANCE_MULTIPOLES
    · rw [(j1 hc).1, z9, h0, parse_double_array_idem]
    · rw [(j2 hc).1, z9, h0]
  exact {
    redshifts := fun e => by
      rw [z_eq e, ← (b1 (mean1 e)).1]
      exact (b1 (mean1 e)).2
    covariance := fun e => by
      have e' := j1 (by rw [← t9]; exact e)
      rw [d9, dd9, px9] at e'
      rw [x_density1, x_density2, x_fsky, x_z_mean, x_deltaz, x_pixelsize]
      exact e'.2.2.2
    covariance_average := fun e => by
      have e' := k1 (by rw [← t10]; exact e)
      rw [d10, dd10, fs10'] at e'
      rw [x_density1, x_density2, x_fsky, x_zmin, x_zmax]
      exact e'.2.2
    one_choice := fun e => by
      obtain ⟨a, b, h1, h2, h3, h4, h5, h6⟩ := read_separations_iff.1 (d1 (sep5 e))
      exact h4
    separations := fun e => by
      obtain ⟨a, b, h1, h2, h3, h4, h5, h6⟩ := read_separations_iff.1 (d1 (sep5 e))
      rw [x_sep, h6, List.pairwise_map]
      refine List.Pairwise.imp_of_mem ?_ List.pairwise_lt_range
      intro i j hi hj hij
      have hn : 0 < ((lookup_int c "separations_sampling").getD 0).toNat := lt_of_le_of_lt (Nat.zero_le _) (List.mem_range.1 hj)
      have h7 : (0 : ℝ) < ((lookup_int c "separations_sampling").getD 0).toNat := by exact_mod_cast hn
      have h8 : (i : ℝ) < j := by exact_mod_cast hij
      have h9 : 0 < b - a := by linarith
      have : (b - a) * i / ((lookup_int c "separations_sampling").getD 0).toNat <
          (b - a) * j / ((lookup_int c "separations_sampling").getD 0).toNat := by
        gcongr
      linarith
    derivatives := by
      rw [x_b_derivative, x_f_derivative, x_b_tilde_derivative, x_f_tilde_derivative]
      exact q5
    window := fun e => by
      rw [x_window_size]
      exact (r5 (by rw [← x_have_window]; exact e)).2
    method := fun e => by rw [x_integration_method]; exact (e2 e).2
    covariance_method := by rw [x_covariance_integration_method]; exact e6
    fftlog := fun e => by
      have := e7 (by rw [← x_covariance_integration_method]; exact e)
      rw [x_covariance_integration_bins, x_covariance_interpolation_method]
      exact ⟨this.2.1, this.2.2.2⟩
    spectrum := by rw [x_ps]; exact u4
    range := fun a ha b hb => by
      rw [x_ps, u1] at ha
      rw [x_ps, u2] at hb
      cases ha
      cases hb
      rw [x_k_min, x_k_max]
      constructor
      · split_ifs with hk
        · exact le_refl _
        · exact not_lt.1 hk
      · split_ifs with hk
        · exact le_refl _
        · exact not_lt.1 hk
    spectrum_nonempty := by
      intro e
      rw [x_ps] at e
      rw [e] at u1
      cases u1 }

theorem parser_faithful_spectrum {E : ParserEnv} {R : ClassRun} {c : Conf} {p17 : CPar}
    (h : coffe_parser_init E R c = .ok p17) : FaithfulSpectrum E c p17 := by
  obtain ⟨p1, p2, p3, p4, p5, p6, p7, p8, p9, p10, p11, p12, p13, p14, p15, p16, T⟩ := parser_trace.1 h
  obtain ⟨v, ty, bg, bins, om, ob, og, a1, a2, a3, a4, a5, a6, a7, h1⟩ := parse_general_iff.1 T.s1
  obtain ⟨z2, h2, b1, b2⟩ := parse_z_mean_iff.1 T.s2
  have h3 := T.s3.symm.trans (parse_z_range_eq c p2)
  obtain ⟨im, c1, h4⟩ := parse_interpolation_iff.1 T.s4
  have h5 := T.s5.symm.trans (parse_mu_multipoles_eq c p4)
  obtain ⟨s6, h6, d1, d2⟩ := parse_separations_iff.1 T.s6
  obtain ⟨bessel, me, ib, cm, cb, ct, w0, wa, e1, e2, e3, e4, e5, e6, e7, e8, e9, e10, h7⟩ := parse_integration_ok T.s7
  obtain ⟨g1, g2, m1, m2, ev1, ev2, f1, f2, f3, f4, f5, f6, h8⟩ := parse_biases_iff.1 T.s8
  obtain ⟨n1, n2, fs, px, cw, h9, i1, i2⟩ := parse_survey_iff.1 T.s9
  obtain ⟨z10, dz, fs10, h10, j1, j2⟩ := parse_covariance_multipoles_iff.1 T.s10
  obtain ⟨zl, zr, h11, k1, k2⟩ := parse_covariance_average_iff.1 T.s11
  obtain ⟨l12, l1, h12⟩ := parse_contributions_iff.1 T.s12
  obtain ⟨path, pre, fa, fb, fd, o1, o2, o3, o4, o5, h13⟩ := parse_output_iff.1 T.s13
  obtain ⟨db, df, dbt, dft, q1, q2, q3, q4, q5, h14⟩ := parse_derivatives_iff.1 T.s14
  obtain ⟨ka, kb, hw, xc, ws, r1, r2, r3, r4, r5, r6, h15⟩ := parse_range_ok T.s15
  have h16 := (parse_spectrum_same T.s16).eq
  obtain ⟨ua, ub, u1, u2, u3, u4, h17⟩ := clamp_range_ok T.s17
  have x_pk_type : p17.pk_type = p16.pk_type := (congrArg CPar.pk_type h17 :)
  have x_h : p17.h = p16.h := (congrArg CPar.h h17 :)
  have x_sigma8 : p17.sigma8 = p16.sigma8 := (congrArg CPar.sigma8 h17 :)
  have x_A_s : p17.A_s = p16.A_s := (congrArg CPar.A_s h17 :)
  have x_n_s : p17.n_s = p16.n_s := (congrArg CPar.n_s h17 :)
  have x_k_pivot : p17.k_pivot = p16.k_pivot := (congrArg CPar.k_pivot h17 :)
  have x_T_cmb : p17.T_cmb = p16.T_cmb := (congrArg CPar.T_cmb h17 :)
  have x_N_ur : p17.N_ur = p16.N_ur := (congrArg CPar.N_ur h17 :)
  have x_m_ncdm : p17.m_ncdm = p16.m_ncdm := (congrArg CPar.m_ncdm h17 :)
  have x_N_ncdm : p17.N_ncdm = p16.N_ncdm := (congrArg CPar.N_ncdm h17 :)
  have x_YHe : p17.YHe = p16.YHe := (congrArg CPar.YHe h17 :)
  have x_Omega0_nu : p17.Omega0_nu = p16.Omega0_nu := (congrArg CPar.Omega0_nu h17 :)
  have x_Omega0_cdm : p17.Omega0_cdm = p16.Omega0_cdm := (congrArg CPar.Omega0_cdm h17 :)
  have x_power_spectrum : p17.power_spectrum = p16.power_spectrum := (congrArg CPar.power_spectrum h17 :)
  have x_Omega0_m : p17.Omega0_m = p15.Omega0_m := ((congrArg CPar.Omega0_m h17 :).trans (congrArg CPar.Omega0_m h16 :))
  have x_Omega0_baryon : p17.Omega0_baryon = p15.Omega0_baryon := ((congrArg CPar.Omega0_baryon h17 :).trans (congrArg CPar.Omega0_baryon h16 :))
  have x_have_window : p17.have_window = p15.have_window := ((congrArg CPar.have_window h17 :).trans (congrArg CPar.have_window h16 :))
  rcases parse_spectrum_ok T.s16 with ⟨hu, hc⟩ | ⟨hu, hc⟩
  · obtain ⟨_, y1, y2, y3, y4, y5, y6, y7, y8, y9, y10, y11, y12, y13, y14⟩ := parse_class_ok hc
    exact {
      pk_type := fun _ => by rw [x_pk_type]; exact y1
      h := fun _ => by rw [x_h]; exact y2
      n_s := fun _ => by rw [x_n_s]; exact y6
      k_pivot := fun _ => by rw [x_k_pivot]; exact y7
      amplitude := fun _ => by
        cases e1 : lookup_float c "sigma8" with
        | none => exact .inl rfl
        | some a =>
          cases e2 : lookup_float c "A_s" with
          | none => exact .inr rfl
          | some b => exact absurd (by rw [e1, e2]; exact ⟨rfl, rfl⟩) y3
      sigma8 := fun _ x hx => by rw [x_sigma8, y4, hx]; rfl
      A_s := fun _ x hx => by rw [x_A_s, y5, hx]; rfl
      T_cmb := fun _ x hx => by rw [x_T_cmb, y8, hx]; rfl
      N_ur := fun _ x hx => by rw [x_N_ur, y9, hx]; rfl
      m_ncdm := fun _ x hx => by rw [x_m_ncdm, y10, hx]; rfl
      N_ncdm := fun _ x hx => by rw [x_N_ncdm, y11, hx]; rfl
      YHe := fun _ x hx => by rw [x_YHe, y12, hx]; rfl
      closure := by rw [x_Omega0_cdm, x_Omega0_baryon, x_Omega0_nu, x_Omega0_m, y14]; ring
      from_file := fun e => absurd hu e }
  · obtain ⟨name, l, y1, y2, y3, y4⟩ := parse_spectrum_file_ok hc
    have z1 : p16.Omega0_cdm = p15.Omega0_m - p15.Omega0_baryon - p15.Omega0_nu := (congrArg CPar.Omega0_cdm y2 :)
    have z2 : p16.Omega0_nu = p15.Omega0_nu := (congrArg CPar.Omega0_nu y2 :)
    have z3 : p16.power_spectrum = l := (congrArg CPar.power_spectrum y2 :)
    exact {
      pk_type := fun e => absurd e hu
      h := fun e => absurd e hu
      n_s := fun e => absurd e hu
      k_pivot := fun e => absurd e hu
      amplitude := fun e => absurd e hu
      sigma8 := fun e => absurd e hu
      A_s := fun e => absurd e hu
      T_cmb := fun e => absurd e hu
      N_ur := fun e => absurd e hu
      m_ncdm := fun e => absurd e hu
      N_ncdm := fun e => absurd e hu
      YHe := fun e => absurd e hu
      closure := by rw [x_Omega0_cdm, x_Omega0_baryon, x_Omega0_nu, x_Omega0_m, z1, z2]; ring
      from_file := fun _ name' data hn hd hw => by
        rw [y1.1] at hn
        cases hn
        obtain ⟨l0, w1, w2⟩ := y3 data hd
        rw [if_neg (by rw [← x_have_window]; exact not_not.2 hw)] at w2
        rw [x_power_spectrum, z3, w2]
        exact w1 }

end Coffe
