import Verif.Spec.Parser
import Verif.Proofs.Common
import Verif.Proofs.Background

/-! # The settings parser, stage by stage -/

namespace Coffe
open Classical

theorem cbind_iff {α β : Type} {x : CRes α} {f : α → CRes β} {b : β} :
    (x >>= f) = .ok b ↔ ∃ a, x = .ok a ∧ f a = .ok b := by
  constructor
  · exact bind_ok_inv
  · rintro ⟨a, rfl, h⟩
    exact h

theorem cpure_iff {α : Type} {a b : α} : (pure a : CRes α) = .ok b ↔ b = a := by
  constructor
  · intro h; cases h; rfl
  · rintro rfl; rfl

theorem cok_iff {α : Type} {a b : α} : (Except.ok a : CRes α) = .ok b ↔ b = a := cpure_iff

theorem require_iff {P : Prop} {u : Unit} : require P = .ok u ↔ P := by
  unfold require
  by_cases h : P
  · rw [if_pos h]; exact ⟨fun _ => h, fun _ => rfl⟩
  · rw [if_neg h]; exact ⟨fun e => (by cases e), fun e => absurd e h⟩

theorem parse_int_iff {c : Conf} {s : String} {n : ℤ} : parse_int c s = .ok n ↔ lookup_int c s = some n := by
  unfold parse_int
  cases lookup_int c s with
  | none => exact ⟨fun e => (by cases e), fun e => (by cases e)⟩
  | some m => exact ⟨fun e => (by cases e; rfl), fun e => (by cases e; rfl)⟩

theorem parse_double_iff {c : Conf} {s : String} {x : ℝ} : parse_double c s = .ok x ↔ lookup_float c s = some x := by
  unfold parse_double
  cases lookup_float c s with
  | none => exact ⟨fun e => (by cases e), fun e => (by cases e)⟩
  | some m => exact ⟨fun e => (by cases e; rfl), fun e => (by cases e; rfl)⟩

theorem parse_string_iff {c : Conf} {s : String} {t : Text} :
    parse_string c s = .ok t ↔ lookup_string c s = some t ∧ t.length < COFFE_MAX_STRLEN := by
  unfold parse_string
  cases lookup_string c s with
  | none => exact ⟨fun e => (by cases e), fun e => (by cases e.1)⟩
  | some m =>
    by_cases h : m.length < COFFE_MAX_STRLEN
    · simp only [if_pos h]
      exact ⟨fun e => (by cases e; exact ⟨rfl, h⟩), fun e => (by cases e.1; rfl)⟩
    · simp only [if_neg h]
      exact ⟨fun e => (by cases e), fun e => (by cases e.1; exact absurd e.2 h)⟩

theorem init_spline_iff {m : ℤ} {l l' : Samples} : init_spline m l = .ok l' ↔
    l' = l ∧ l.length ≠ 0 ∧ spline_min_size m ≤ l.length ∧ (l.map Prod.fst).Pairwise (· < ·) := by
  unfold init_spline
  by_cases h1 : l.length = 0
  · rw [if_pos h1]; exact ⟨fun e => (by cases e), fun e => absurd h1 e.2.1⟩
  rw [if_neg h1]
  by_cases h2 : l.length < spline_min_size m
  · rw [if_pos h2]; exact ⟨fun e => (by cases e), fun e => absurd h2 (by omega)⟩
  rw [if_neg h2]
  by_cases h3 : ¬ (l.map Prod.fst).Pairwise (· < ·)
  · rw [if_pos h3]; exact ⟨fun e => (by cases e), fun e => absurd e.2.2.2 h3⟩
  rw [if_neg h3]
  exact ⟨fun e => (by cases e; exact ⟨rfl, h1, by omega, not_not.1 h3⟩), fun e => by rw [e.1]⟩

theorem collect_ok {α β : Type} {f : α → CRes β} {g : α → β} :
    ∀ {l : List α}, (∀ a ∈ l, f a = .ok (g a)) → collect f l = .ok (l.map g)
  | [], _ => rfl
  | a :: l, h => by
    unfold collect
    rw [h a (by simp), collect_ok (l := l) fun b hb => h b (by simp [hb])]
    rfl

theorem collect_iff {α β : Type} {f : α → CRes β} :
    ∀ {l : List α} {r : List β}, collect f l = .ok r ↔ List.Forall₂ (fun a b => f a = .ok b) l r
  | [], r => by
    show (Except.ok [] : CRes (List β)) = .ok r ↔ _
    rw [cok_iff, List.forall₂_nil_left_iff]
  | a :: l, r => by
    unfold collect
    simp only [cbind_iff, cpure_iff, collect_iff (l := l)]
    constructor
    · rintro ⟨b, h1, bs, h2, rfl⟩
      exact .cons h1 h2
    · intro h
      cases h with
      | cons h1 h2 => exact ⟨_, h1, _, h2, rfl⟩

/-- The grid made by `coffe_generate_range`. -/
theorem generate_range_iff {a b : ℝ} {n : ℕ} {l : List ℝ} :
    (coffe_generate_range a b n >>= fun r => buf_list r n) = .ok l ↔
      a < b ∧ l = (List.range n).map fun i : ℕ => a + (b - a) * i / n := by
  unfold coffe_generate_range
  by_cases h : a ≥ b
  · rw [if_pos h]
    exact ⟨fun e => (by cases e), fun e => absurd e.1 (not_lt.2 h)⟩
  rw [if_neg h]
  obtain ⟨c, e, h1, h2⟩ := cfor_cells (cmalloc n) n (fun i : ℕ => a + (b - a) * i / n)
    (fun i result => result.store i (a + (b - a) * i / n)) (fun i hi => hi) fun i hi c hc hv => rfl
  rw [e]
  show buf_list c n = _ ↔ _
  have : buf_list c n = .ok ((List.range n).map fun i : ℕ => a + (b - a) * i / n) := by
    unfold buf_list
    refine collect_ok fun i hi => ?_
    rw [List.mem_range] at hi
    exact Buf.Holds.load h1 hi
  rw [this, cok_iff]
  exact ⟨fun e => ⟨not_le.1 h, e⟩, fun e => e.2⟩

theorem parse_general_iff {c : Conf} {p q : CPar} : parse_general c p = .ok q ↔
    ∃ v ty bg bins m b g, lookup_int c "verbose" = some v ∧ lookup_int c "output_type" = some ty ∧
      parse_string_array c "output_background" p.type_bg = .ok bg ∧
      lookup_int c "background_sampling" = some bins ∧ lookup_float c "omega_m" = some m ∧
      lookup_float c "omega_baryon" = some b ∧ lookup_float c "omega_gamma" = some g ∧
      q = { p with
        output_type := ty, type_bg := bg, background_bins := bins, Omega0_m := m, Omega0_baryon := b,
        Omega0_gamma := g, Omega0_de := 1 - (m + g) } := by
  unfold parse_general
  simp only [cbind_iff, cpure_iff, parse_int_iff, parse_double_iff]
  constructor
  · rintro ⟨v, h1, ty, h2, bg, h3, bins, h4, m, h5, b, h6, g, h7, h8⟩
    exact ⟨v, ty, bg, bins, m, b, g, h1, h2, h3, h4, h5, h6, h7, h8⟩
  · rintro ⟨v, ty, bg, bins, m, b, g, h1, h2, h3, h4, h5, h6, h7, h8⟩
    exact ⟨v, h1, ty, h2, bg, h3, bins, h4, m, h5, b, h6, g, h7, h8⟩

theorem parse_z_mean_iff {c : Conf} {p q : CPar} : parse_z_mean c p = .ok q ↔
    ∃ z, q = { p with z_mean := z } ∧
      (HasMean p → z = parse_double_array c "z_mean" [] ∧ ∀ x ∈ z, 0 < x) ∧ (¬ HasMean p → z = p.z_mean) := by
  unfold parse_z_mean
  by_cases h : HasMean p
  · refine (Iff.of_eq (congrArg (· = _) (if_pos h))).trans ?_
    simp only [cbind_iff, cpure_iff, require_iff, not_le]
    exact ⟨fun ⟨_, h1, h2⟩ => ⟨_, h2, fun _ => ⟨rfl, h1⟩, fun h3 => absurd h h3⟩,
      fun ⟨z, h1, h2, _⟩ => (by
        obtain ⟨rfl, h3⟩ := h2 h
        exact ⟨(), h3, h1⟩)⟩
  · refine (Iff.of_eq (congrArg (· = _) (if_neg h))).trans ?_
    rw [cpure_iff]
    exact ⟨fun h1 => ⟨_, h1, fun h3 => absurd h3 h, fun _ => rfl⟩, fun ⟨s, h1, _, h2⟩ => (by rw [h1, h2 h])⟩

theorem parse_z_range_eq (c : Conf) (p : CPar) : parse_z_range c p =
    { p with
      zmin := if p.output_type = AVERAGE_MULTIPOLES then parse_double_array c "z_min" p.zmin else p.zmin
      zmax := if p.output_type = AVERAGE_MULTIPOLES then parse_double_array c "z_max" p.zmax else p.zmax } := by
  unfold parse_z_range
  by_cases h : p.output_type = AVERAGE_MULTIPOLES
  · rw [if_pos h, if_pos h, if_pos h]
  · rw [if_neg h, if_neg h, if_neg h]

theorem parse_interpolation_iff {c : Conf} {p q : CPar} : parse_interpolation c p = .ok q ↔
    ∃ n, lookup_int c "interpolation" = some n ∧ q = { p with interp_method := n } := by
  unfold parse_interpolation
  cases lookup_int c "interpolation" with
  | none => exact ⟨fun e => (by cases e), fun ⟨n, e, _⟩ => (by cases e)⟩
  | some m =>
    exact ⟨fun e => (by cases e; exact ⟨m, rfl, rfl⟩), fun ⟨n, e, h⟩ => (by cases e; rw [h])⟩

theorem parse_mu_multipoles_eq (c : Conf) (p : CPar) : parse_mu_multipoles c p =
    { p with
      mu := if p.output_type = CORRFUNC then parse_double_array c "mu" p.mu else p.mu
      multipoles := if HasMultipoles p then parse_int_array c "multipoles" [] else p.multipoles } := by
  unfold parse_mu_multipoles
  by_cases h : p.output_type = CORRFUNC
  · have : ¬ HasMultipoles p := by
      unfold HasMultipoles
      rw [h]
      decide
    rw [if_pos h, if_pos h, if_neg this]
  · rw [if_neg h, if_neg h]
    by_cases h1 : HasMultipoles p
    · exact (if_pos h1).trans (by rw [if_pos h1])
    · exact (if_neg h1).trans (by rw [if_neg h1])

theorem read_separations_iff {c : Conf} {l : List ℝ} : read_separations c = .ok l ↔
    ∃ a b, lookup_float c "separations_min" = some a ∧ lookup_float c "separations_max" = some b ∧ a < b ∧
      ((lookup_int c "separations_sampling").isSome ↔ (lookup_float c "separations_step").isNone) ∧
      0 ≤ (lookup_int c "separations_sampling").getD 0 ∧
      l = (List.range ((lookup_int c "separations_sampling").getD 0).toNat).map
        fun i : ℕ => a + (b - a) * i / ((lookup_int c "separations_sampling").getD 0).toNat := by
  unfold read_separations
  simp only [cbind_iff (x := parse_double _ _), cbind_iff (x := require _), require_iff, parse_double_iff,
    generate_range_iff]
  constructor
  · rintro ⟨a, h1, b, h2, _, h3, _, h4, _, h5, h6, h7⟩
    refine ⟨a, b, h1, h2, h6, ?_, h5, h7⟩
    cases e1 : lookup_int c "separations_sampling" <;> cases e2 : lookup_float c "separations_step" <;>
      simp_all
  · rintro ⟨a, b, h1, h2, h6, h3, h5, h7⟩
    refine ⟨a, h1, b, h2, (), ?_, (), ?_, (), h5, h6, h7⟩
    · cases e1 : lookup_int c "separations_sampling" <;> cases e2 : lookup_float c "separations_step" <;>
        simp_all
    · cases e1 : lookup_int c "separations_sampling" <;> cases e2 : lookup_float c "separations_step" <;>
        simp_all

theorem parse_separations_iff {c : Conf} {p q : CPar} : parse_separations c p = .ok q ↔
    ∃ s, q = { p with sep := s } ∧ (HasSep p → read_separations c = .ok s) ∧ (¬ HasSep p → s = p.sep) := by
  unfold parse_separations
  by_cases h : HasSep p
  · refine (Iff.of_eq (congrArg (· = _) (if_pos h))).trans ?_
    simp only [cbind_iff, cpure_iff]
    exact ⟨fun ⟨s, h1, h2⟩ => ⟨s, h2, fun _ => h1, fun h3 => absurd h h3⟩, fun ⟨s, h1, h2, _⟩ => ⟨s, h2 h, h1⟩⟩
  · refine (Iff.of_eq (congrArg (· = _) (if_neg h))).trans ?_
    rw [cpure_iff]
    exact ⟨fun h1 => ⟨p.sep, h1, fun h3 => absurd h3 h, fun _ => rfl⟩,
      fun ⟨s, h1, _, h2⟩ => (by rw [h1, h2 h])⟩

theorem parse_fftlog_iff {c : Conf} {p q : CPar} : parse_fftlog c p = .ok q ↔
    ∃ n t, q = { p with covariance_integration_bins := n, covariance_interpolation_method := t } ∧
      (p.covariance_integration_method = 2 → lookup_int c "covariance_integration_bins" = some n ∧ 0 < n ∧
        lookup_int c "covariance_interpolation_method" = some t ∧ (t = 1 ∨ t = 2)) ∧
      (p.covariance_integration_method ≠ 2 →
        n = p.covariance_integration_bins ∧ t = p.covariance_interpolation_method) := by
  unfold parse_fftlog
  by_cases h : p.covariance_integration_method = 2
  · rw [if_pos h]
    simp only [cbind_iff, cpure_iff, parse_int_iff, require_iff]
    exact ⟨fun ⟨n, h1, _, h2, t, h3, _, h4, h5⟩ => ⟨n, t, h5, fun _ => ⟨h1, h2, h3, h4⟩, fun h6 => absurd h h6⟩,
      fun ⟨n, t, h5, h6, _⟩ => let ⟨h1, h2, h3, h4⟩ := h6 h; ⟨n, h1, (), h2, t, h3, (), h4, h5⟩⟩
  · rw [if_neg h, cpure_iff]
    exact ⟨fun h1 => ⟨_, _, h1, fun h2 => absurd h2 h, fun _ => ⟨rfl, rfl⟩⟩,
      fun ⟨n, t, h1, _, h2⟩ => (by rw [h1, (h2 h).1, (h2 h).2])⟩

theorem parse_method_iff {E : ParserEnv} {c : Conf} {p q : CPar} : parse_method E c p = .ok q ↔
    ∃ m, q = { p with integration_method := m } ∧
      (E.have_cuba = false → lookup_int c "integration_method" = some m ∧ 0 ≤ m ∧ m ≤ 2) ∧
      (E.have_cuba = true → m = p.integration_method) := by
  unfold parse_method
  by_cases h : E.have_cuba = true
  · rw [if_pos h, cpure_iff]
    exact ⟨fun h1 => ⟨_, h1, fun h2 => (by rw [h2] at h; cases h), fun _ => rfl⟩,
      fun ⟨m, h1, _, h2⟩ => (by rw [h1, h2 h])⟩
  · rw [if_neg h]
    have h' : E.have_cuba = false := by simpa using h
    simp only [cbind_iff, cpure_iff, parse_int_iff, require_iff]
    exact ⟨fun ⟨m, h1, _, h2, h3⟩ => ⟨m, h3, fun _ => ⟨h1, h2⟩, fun h4 => absurd h4 h⟩,
      fun ⟨m, h1, h2, _⟩ => ⟨m, (h2 h').1, (), (h2 h').2, h1⟩⟩

theorem parse_integration_ok {E : ParserEnv} {c : Conf} {p q : CPar} (h : parse_integration E c p = .ok q) :
    ∃ bessel m bins cm n t w0 wa, lookup_int c "bessel_sampling" = some bessel ∧
      (E.have_cuba = false → lookup_int c "integration_method" = some m ∧ 0 ≤ m ∧ m ≤ 2) ∧
      (E.have_cuba = true → m = p.integration_method) ∧
      lookup_int c "integration_sampling" = some bins ∧
      lookup_int c "covariance_integration_method" = some cm ∧ (cm = 1 ∨ cm = 2) ∧
      (cm = 2 → lookup_int c "covariance_integration_bins" = some n ∧ 0 < n ∧
        lookup_int c "covariance_interpolation_method" = some t ∧ (t = 1 ∨ t = 2)) ∧
      (cm ≠ 2 → n = p.covariance_integration_bins ∧ t = p.covariance_interpolation_method) ∧
      lookup_float c "w0" = some w0 ∧ lookup_float c "wa" = some wa ∧
      q = { p with
        bessel_bins := bessel, integration_method := m, integration_bins := bins,
        covariance_integration_method := cm, covariance_integration_bins := n,
        covariance_interpolation_method := t, w0 := w0, wa := wa } := by
  unfold parse_integration at h
  simp only [cbind_iff, cpure_iff, parse_int_iff, parse_double_iff, require_iff, parse_method_iff,
    parse_fftlog_iff] at h
  obtain ⟨bessel, h1, p1, ⟨m, rfl, h2, h3⟩, bins, h4, cm, h5, _, h6, p2, ⟨n, t, rfl, h7, h8⟩, w0, h9, wa, h10, rfl⟩ := h
  exact ⟨bessel, m, bins, cm, n, t, w0, wa, h1, h2, h3, h4, h5, h6, h7, h8, h9, h10, rfl⟩

theorem parse_biases_iff {E : ParserEnv} {c : Conf} {p q : CPar} : parse_biases E c p = .ok q ↔
    ∃ g1 g2 m1 m2 e1 e2,
      parse_bias E c p.interp_method "read_galaxy_bias1" "input_galaxy_bias1" "galaxy_bias1" = .ok g1 ∧
      parse_bias E c p.interp_method "read_galaxy_bias2" "input_galaxy_bias2" "galaxy_bias2" = .ok g2 ∧
      parse_bias E c p.interp_method "read_magnification_bias1" "input_magnification_bias1" "magnification_bias1"
        = .ok m1 ∧
      parse_bias E c p.interp_method "read_magnification_bias2" "input_magnification_bias2" "magnification_bias2"
        = .ok m2 ∧
      parse_bias E c p.interp_method "read_evolution_bias1" "input_evolution_bias1" "evolution_bias1" = .ok e1 ∧
      parse_bias E c p.interp_method "read_evolution_bias2" "input_evolution_bias2" "evolution_bias2" = .ok e2 ∧
      q = { p with
        galaxy_bias1 := g1, galaxy_bias2 := g2, magnification_bias1 := m1, magnification_bias2 := m2,
        evolution_bias1 := e1, evolution_bias2 := e2 } := by
  unfold parse_biases
  simp only [cbind_iff, cpure_iff]
  exact ⟨fun ⟨g1, a1, g2, a2, m1, a3, m2, a4, e1, a5, e2, a6, h⟩ => ⟨g1, g2, m1, m2, e1, e2, a1, a2, a3, a4, a5, a6, h⟩,
    fun ⟨g1, g2, m1, m2, e1, e2, a1, a2, a3, a4, a5, a6, h⟩ => ⟨g1, a1, g2, a2, m1, a3, m2, a4, e1, a5, e2, a6, h⟩⟩

theorem parse_survey_iff {c : Conf} {p q : CPar} : parse_survey c p = .ok q ↔
    ∃ d1 d2 f x w, q = { p with density1 := d1, density2 := d2, fsky := f, pixelsize := x, covariance_window := w } ∧
      (HasSurvey p → lookup_int c "covariance_window" = some w ∧ d1 = parse_double_array c "density1" p.density1 ∧
        d2 = parse_double_array c "density2" p.density2 ∧ f = parse_double_array c "fsky" p.fsky ∧
        x = parse_double_array c "pixelsize" p.pixelsize) ∧
      (¬ HasSurvey p → d1 = p.density1 ∧ d2 = p.density2 ∧ f = p.fsky ∧ x = p.pixelsize ∧
        w = p.covariance_window) := by
  unfold parse_survey
  by_cases h : HasSurvey p
  · refine (Iff.of_eq (congrArg (· = _) (if_pos h))).trans ?_
    simp only [cbind_iff, cpure_iff, parse_int_iff]
    exact ⟨fun ⟨w, h1, h2⟩ => ⟨_, _, _, _, w, h2, fun _ => ⟨h1, rfl, rfl, rfl, rfl⟩, fun h3 => absurd h h3⟩,
      fun ⟨d1, d2, f, x, w, h1, h2, _⟩ => ⟨w, (h2 h).1, by
        obtain ⟨_, rfl, rfl, rfl, rfl⟩ := h2 h
        exact h1⟩⟩
  · refine (Iff.of_eq (congrArg (· = _) (if_neg h))).trans ?_
    rw [cpure_iff]
    exact ⟨fun h1 => ⟨_, _, _, _, _, h1, fun h3 => absurd h3 h, fun _ => ⟨rfl, rfl, rfl, rfl, rfl⟩⟩,
      fun ⟨d1, d2, f, x, w, h1, _, h2⟩ => (by
        obtain ⟨rfl, rfl, rfl, rfl, rfl⟩ := h2 h
        exact h1)⟩

theorem parse_covariance_multipoles_iff {c : Conf} {p q : CPar} : parse_covariance_multipoles c p = .ok q ↔
    ∃ z d f, q = { p with z_mean := z, deltaz := d, fsky := f } ∧
      (p.output_type = COVARIANCE_MULTIPOLES → z = parse_double_array c "z_mean" p.z_mean ∧
        d = parse_double_array c "deltaz" p.deltaz ∧ f = parse_double_array c "fsky" p.fsky ∧
        p.density2.length = p.density1.length ∧ f.length = p.density1.length ∧ z.length = p.density1.length ∧
        d.length = p.density1.length ∧ p.pixelsize.length = p.density1.length) ∧
      (p.output_type ≠ COVARIANCE_MULTIPOLES → z = p.z_mean ∧ d = p.deltaz ∧ f = p.fsky) := by
  unfold parse_covariance_multipoles
  by_cases h : p.output_type = COVARIANCE_MULTIPOLES
  · rw [if_pos h]
    simp only [cbind_iff, cpure_iff, require_iff, not_or, not_not]
    exact ⟨fun ⟨_, ⟨h1, h2, h3, h4, h5⟩, h6⟩ =>
        ⟨_, _, _, h6, fun _ => ⟨rfl, rfl, rfl, h2.symm, h1.symm, h3.symm, h4.symm, h5.symm⟩, fun h7 => absurd h h7⟩,
      fun ⟨z, d, f, h6, h7, _⟩ => (by
        obtain ⟨rfl, rfl, rfl, h2, h1, h3, h4, h5⟩ := h7 h
        exact ⟨(), ⟨h1.symm, h2.symm, h3.symm, h4.symm, h5.symm⟩, h6⟩)⟩
  · rw [if_neg h, cpure_iff]
    exact ⟨fun h1 => ⟨_, _, _, h1, fun h2 => absurd h2 h, fun _ => ⟨rfl, rfl, rfl⟩⟩,
      fun ⟨z, d, f, h1, _, h2⟩ => (by
        obtain ⟨rfl, rfl, rfl⟩ := h2 h
        exact h1)⟩

theorem parse_covariance_average_iff {c : Conf} {p q : CPar} : parse_covariance_average c p = .ok q ↔
    ∃ a b, q = { p with zmin := a, zmax := b } ∧
      (p.output_type = COVARIANCE_AVERAGE_MULTIPOLES → a = parse_double_array c "zmin" p.zmin ∧
        b = parse_double_array c "zmax" p.zmax ∧ p.density2.length = p.density1.length ∧
        p.fsky.length = p.density1.length ∧ a.length = p.density1.length ∧ b.length = p.density1.length) ∧
      (p.output_type ≠ COVARIANCE_AVERAGE_MULTIPOLES → a = p.zmin ∧ b = p.zmax) := by
  unfold parse_covariance_average
  by_cases h : p.output_type = COVARIANCE_AVERAGE_MULTIPOLES
  · rw [if_pos h]
    simp only [cbind_iff, cpure_iff, require_iff, not_or, not_not]
    exact ⟨fun ⟨_, ⟨h1, h2, h3, h4⟩, h6⟩ =>
        ⟨_, _, h6, fun _ => ⟨rfl, rfl, h2.symm, h1.symm, h3.symm, h4.symm⟩, fun h7 => absurd h h7⟩,
      fun ⟨a, b, h6, h7, _⟩ => (by
        obtain ⟨rfl, rfl, h2, h1, h3, h4⟩ := h7 h
        exact ⟨(), ⟨h1.symm, h2.symm, h3.symm, h4.symm⟩, h6⟩)⟩
  · rw [if_neg h, cpure_iff]
    exact ⟨fun h1 => ⟨_, _, h1, fun h2 => absurd h2 h, fun _ => ⟨rfl, rfl⟩⟩,
      fun ⟨a, b, h1, _, h2⟩ => (by
        obtain ⟨rfl, rfl⟩ := h2 h
        exact h1)⟩

theorem parse_contributions_iff {c : Conf} {p q : CPar} : parse_contributions c p = .ok q ↔
    ∃ l, parse_string_array c "correlation_contributions" [] = .ok l ∧
      q = { p with
        contrib := l.foldl set_contribution Contrib.zero
        divergent := p.divergent || ((l.foldl set_contribution Contrib.zero).d2 ||
          (l.foldl set_contribution Contrib.zero).g1 || (l.foldl set_contribution Contrib.zero).g2 ||
          (l.foldl set_contribution Contrib.zero).g3 || (l.foldl set_contribution Contrib.zero).g4 ||
          (l.foldl set_contribution Contrib.zero).g5) } := by
  unfold parse_contributions
  simp only [cbind_iff, cpure_iff]

theorem parse_output_iff {c : Conf} {p q : CPar} : parse_output c p = .ok q ↔
    ∃ path pre a b d, (lookup_string c "output_path" = some path ∧ path.length < COFFE_MAX_STRLEN) ∧
      (lookup_string c "output_prefix" = some pre ∧ pre.length < COFFE_MAX_STRLEN) ∧
      lookup_int c "flatsky_local" = some a ∧ lookup_int c "flatsky_local_nonlocal" = some b ∧
      lookup_int c "flatsky_nonlocal" = some d ∧
      q = { p with
        output_path := path, output_prefix := pre, flatsky_local := a, flatsky_local_nonlocal := b,
        flatsky_nonlocal := d } := by
  unfold parse_output
  simp only [cbind_iff, cpure_iff, parse_int_iff, parse_string_iff]
  exact ⟨fun ⟨x1, h1, x2, h2, x3, h3, x4, h4, x5, h5, h⟩ => ⟨x1, x2, x3, x4, x5, h1, h2, h3, h4, h5, h⟩,
    fun ⟨x1, x2, x3, x4, x5, h1, h2, h3, h4, h5, h⟩ => ⟨x1, h1, x2, h2, x3, h3, x4, h4, x5, h5, h⟩⟩

theorem parse_derivatives_iff {c : Conf} {p q : CPar} : parse_derivatives c p = .ok q ↔
    ∃ b f bt ft, lookup_int c "b_derivative" = some b ∧ lookup_int c "f_derivative" = some f ∧
      lookup_int c "b_tilde_derivative" = some bt ∧ lookup_int c "f_tilde_derivative" = some ft ∧
      b + f + bt + ft ≤ 1 ∧
      q = { p with b_derivative := b, f_derivative := f, b_tilde_derivative := bt, f_tilde_derivative := ft } := by
  unfold parse_derivatives
  simp only [cbind_iff, cpure_iff, parse_int_iff, require_iff, gt_iff_lt, not_lt]
  exact ⟨fun ⟨x1, h1, x2, h2, x3, h3, x4, h4, _, h5, h⟩ => ⟨x1, x2, x3, x4, h1, h2, h3, h4, h5, h⟩,
    fun ⟨x1, x2, x3, x4, h1, h2, h3, h4, h5, h⟩ => ⟨x1, h1, x2, h2, x3, h3, x4, h4, (), h5, h⟩⟩

theorem parse_window_size_iff {c : Conf} {p q : CPar} : parse_window_size c p = .ok q ↔
    ∃ w, q = { p with window_size := w } ∧
      (p.have_window ≠ 0 → lookup_float c "window_size" = some w ∧ 0 < w ∧ w < 1000) ∧
      (p.have_window = 0 → w = p.window_size) := by
  unfold parse_window_size
  by_cases h : p.have_window = 0
  · rw [if_neg (not_not.2 h), cpure_iff]
    exact ⟨fun h1 => ⟨_, h1, fun h2 => absurd h h2, fun _ => rfl⟩, fun ⟨w, h1, _, h2⟩ => (by rw [h1, h2 h])⟩
  · rw [if_pos h]
    simp only [cbind_iff, cpure_iff, parse_double_iff, require_iff, not_or, not_le, ge_iff_le]
    exact ⟨fun ⟨w, h1, _, h2, h3⟩ => ⟨w, h3, fun _ => ⟨h1, h2⟩, fun h4 => absurd h4 h⟩,
      fun ⟨w, h1, h2, _⟩ => ⟨w, (h2 h).1, (), (h2 h).2, h1⟩⟩

theorem parse_range_ok {c : Conf} {p q : CPar} (h : parse_range c p = .ok q) :
    ∃ a b hw x w, lookup_float c "k_min" = some a ∧ lookup_float c "k_max" = some b ∧
      lookup_int c "have_window" = some hw ∧ lookup_int c "only_cross_correlations" = some x ∧
      (hw ≠ 0 → lookup_float c "window_size" = some w ∧ 0 < w ∧ w < 1000) ∧ (hw = 0 → w = p.window_size) ∧
      q = { p with k_min := a, k_max := b, have_window := hw, only_cross_correlations := x, window_size := w } := by
  unfold parse_range at h
  simp only [cbind_iff, parse_int_iff, parse_double_iff, parse_window_size_iff] at h
  obtain ⟨a, h1, b, h2, hw, h3, x, h4, w, h5, h6, h7⟩ := h
  exact ⟨a, b, hw, x, w, h1, h2, h3, h4, h6, h7, h5⟩

/-- The fields that the last two stages can change. -/
structure SameButSpectrum (p q : CPar) : Prop where
  eq : q = { p with
    pk_type := q.pk_type, h := q.h, sigma8 := q.sigma8, A_s := q.A_s, n_s := q.n_s, k_pivot := q.k_pivot,
    T_cmb := q.T_cmb, N_ur := q.N_ur, m_ncdm := q.m_ncdm, N_ncdm := q.N_ncdm, YHe := q.YHe,
    Omega0_nu := q.Omega0_nu, Omega0_cdm := q.Omega0_cdm, power_spectrum := q.power_spectrum }

theorem parse_class_ok {R : ClassRun} {c : Conf} {p q : CPar} (h : parse_class R c p = .ok q) :
    SameButSpectrum p q ∧ lookup_int c "pk_type" = some q.pk_type ∧ lookup_float c "h" = some q.h ∧
      ¬ ((lookup_float c "sigma8").isSome ∧ (lookup_float c "A_s").isSome) ∧
      q.sigma8 = (lookup_float c "sigma8").getD p.sigma8 ∧ q.A_s = (lookup_float c "A_s").getD p.A_s ∧
      lookup_float c "n_s" = some q.n_s ∧ lookup_float c "k_pivot" = some q.k_pivot ∧
      q.T_cmb = (lookup_float c "T_cmb").getD p.T_cmb ∧ q.N_ur = (lookup_float c "N_ur").getD p.N_ur ∧
      q.m_ncdm = (lookup_float c "m_ncdm").getD p.m_ncdm ∧ q.N_ncdm = (lookup_int c "N_ncdm").getD p.N_ncdm ∧
      q.YHe = (lookup_float c "YHe").getD p.YHe ∧ q.Omega0_nu = q.m_ncdm / 93.14 / q.h / q.h ∧
      q.Omega0_cdm = p.Omega0_m - p.Omega0_baryon - q.Omega0_nu := by
  unfold parse_class at h
  simp only [cbind_iff, cpure_iff, parse_int_iff, parse_double_iff, require_iff] at h
  obtain ⟨t, h1, hh, h2, _, h3, n, h4, k, h5, l, h6, rfl⟩ := h
  exact ⟨⟨rfl⟩, h1, h2, h3, rfl, rfl, h4, h5, rfl, rfl, rfl, rfl, rfl, rfl, rfl⟩

theorem parse_spectrum_file_ok {E : ParserEnv} {c : Conf} {p q : CPar} (h : parse_spectrum_file E c p = .ok q) :
    ∃ name l, (lookup_string c "input_power_spectrum" = some name ∧ name.length < COFFE_MAX_STRLEN) ∧
      q = { p with Omega0_cdm := p.Omega0_m - p.Omega0_baryon - p.Omega0_nu, power_spectrum := l } ∧
      (∀ data, E.file name = some data → ∃ l0, read_samples data = .ok l0 ∧
        l = (if p.have_window ≠ 0 then l0.map fun x => (x.1, x.2 * E.window (p.window_size * x.1) ^ 2) else l0)) ∧
      (E.file name = none → l = p.power_spectrum) := by
  unfold parse_spectrum_file at h
  rw [cbind_iff] at h
  obtain ⟨name, h1, h2⟩ := h
  rw [parse_string_iff] at h1
  dsimp only at h2
  cases hf : E.file name with
  | none =>
    rw [hf] at h2
    rw [cpure_iff] at h2
    exact ⟨name, p.power_spectrum, h1, h2, fun d hd => (by rw [hf] at hd; cases hd), fun _ => rfl⟩
  | some data =>
    rw [hf] at h2
    dsimp only at h2
    simp only [cbind_iff, cpure_iff, init_spline_iff] at h2
    obtain ⟨l0, h3, l, h4, h5⟩ := h2
    refine ⟨name, l, h1, h5, fun d hd => ?_, fun hd => by rw [hf] at hd; cases hd⟩
    rw [hf] at hd
    cases hd
    exact ⟨l0, h3, h4.1⟩

theorem clamp_range_ok {p q : CPar} (h : clamp_range p = .ok q) :
    ∃ a b, p.power_spectrum.head? = some a ∧ p.power_spectrum.getLast? = some b ∧
      spline_min_size p.interp_method ≤ p.power_spectrum.length ∧
      (p.power_spectrum.map Prod.fst).Pairwise (· < ·) ∧
      q = { p with
        k_min := if p.k_min < a.1 then a.1 else p.k_min
        k_max := if p.k_max > b.1 then b.1 else p.k_max } := by
  unfold clamp_range at h
  cases h1 : p.power_spectrum.head? with
  | none => rw [h1] at h; cases h
  | some a =>
    cases h2 : p.power_spectrum.getLast? with
    | none => rw [h1, h2] at h; cases h
    | some b =>
      rw [h1, h2] at h
      dsimp only at h
      simp only [cbind_iff, cpure_iff, init_spline_iff] at h
      obtain ⟨l, ⟨_, _, h3, h4⟩, h5⟩ := h
      exact ⟨a, b, rfl, rfl, h3, h4, h5⟩

end Coffe
