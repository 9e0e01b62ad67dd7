import Verif.Proofs.ParserOk

/-! # The parser and the list of contributions -/

namespace Coffe
open Classical

/-- Which settings the names of contributions can change. -/
theorem parser_congr {E : ParserEnv} {R : ClassRun} {c c' : Conf} {l l' : List Text}
    (hc : ∀ s, s ≠ "correlation_contributions" → c' s = c s) (hl : ListsText c "correlation_contributions" l)
    (hl' : ListsText c' "correlation_contributions" l') (h : Contrib.listed l' = Contrib.listed l) :
    coffe_parser_init E R c' = coffe_parser_init E R c := by
  have ki : ∀ s, s ≠ "correlation_contributions" → lookup_int c' s = lookup_int c s := fun s hs => by
    unfold lookup_int; rw [hc s hs]
  have kf : ∀ s, s ≠ "correlation_contributions" → lookup_float c' s = lookup_float c s := fun s hs => by
    unfold lookup_float; rw [hc s hs]
  have ks : ∀ s, s ≠ "correlation_contributions" → lookup_string c' s = lookup_string c s := fun s hs => by
    unfold lookup_string; rw [hc s hs]
  have pi : ∀ s, s ≠ "correlation_contributions" → parse_int c' s = parse_int c s := fun s hs => by
    unfold parse_int; rw [ki s hs]
  have pf : ∀ s, s ≠ "correlation_contributions" → parse_double c' s = parse_double c s := fun s hs => by
    unfold parse_double; rw [kf s hs]
  have ps : ∀ s, s ≠ "correlation_contributions" → parse_string c' s = parse_string c s := fun s hs => by
    unfold parse_string; rw [ks s hs]
  have da : ∀ s o, s ≠ "correlation_contributions" → parse_double_array c' s o = parse_double_array c s o :=
    fun s o hs => by unfold parse_double_array; rw [hc s hs]
  have ia : ∀ s o, s ≠ "correlation_contributions" → parse_int_array c' s o = parse_int_array c s o :=
    fun s o hs => by unfold parse_int_array; rw [hc s hs]
  have sa : ∀ s o, s ≠ "correlation_contributions" → parse_string_array c' s o = parse_string_array c s o :=
    fun s o hs => by unfold parse_string_array; rw [hc s hs]
  have pc : ∀ p, parse_contributions c' p = parse_contributions c p := fun p => by
    unfold parse_contributions
    rw [parse_string_array_lists hl, parse_string_array_lists hl']
    show (pure _ : CRes CPar) = pure _
    simp only [contributions_listed, h]
  have pb : ∀ E m a b d, a ≠ "correlation_contributions" → b ≠ "correlation_contributions" →
      d ≠ "correlation_contributions" → parse_bias E c' m a b d = parse_bias E c m a b d :=
    fun E m a b d h1 h2 h3 => by unfold parse_bias; rw [ki a h1, ps b h2, pf d h3]
  have a1 : parse_general c' = parse_general c := by
    funext p; unfold parse_general
    simp only [pi _ (by decide : ("verbose" : String) ≠ _), pi _ (by decide : ("output_type" : String) ≠ _),
      sa _ _ (by decide : ("output_background" : String) ≠ _), pi _ (by decide : ("background_sampling" : String) ≠ _),
      pf _ (by decide : ("omega_m" : String) ≠ _), pf _ (by decide : ("omega_baryon" : String) ≠ _),
      pf _ (by decide : ("omega_gamma" : String) ≠ _)]
  have a2 : parse_z_mean c' = parse_z_mean c := by
    funext p; unfold parse_z_mean
    rw [da _ _ (by decide : ("z_mean" : String) ≠ _)]
  have a3 : parse_z_range c' = parse_z_range c := by
    funext p; unfold parse_z_range
    rw [da _ _ (by decide : ("z_min" : String) ≠ _), da _ _ (by decide : ("z_max" : String) ≠ _)]
  have a4 : parse_interpolation c' = parse_interpolation c := by
    funext p; unfold parse_interpolation
    rw [ki _ (by decide : ("interpolation" : String) ≠ _)]
  have a5 : parse_mu_multipoles c' = parse_mu_multipoles c := by
    funext p; unfold parse_mu_multipoles
    rw [da _ _ (by decide : ("mu" : String) ≠ _), ia _ _ (by decide : ("multipoles" : String) ≠ _)]
  have a6 : parse_separations c' = parse_separations c := by
    funext p; unfold parse_separations read_separations
    rw [pf _ (by decide : ("separations_min" : String) ≠ _), pf _ (by decide : ("separations_max" : String) ≠ _),
      ki _ (by decide : ("separations_sampling" : String) ≠ _), kf _ (by decide : ("separations_step" : String) ≠ _)]
  have a7 : parse_integration E c' = parse_integration E c := by
    funext p; unfold parse_integration parse_method parse_fftlog
    simp only [pi _ (by decide : ("bessel_sampling" : String) ≠ _), pi _ (by decide : ("integration_method" : String) ≠ _),
      pi _ (by decide : ("integration_sampling" : String) ≠ _),
      pi _ (by decide : ("covariance_integration_method" : String) ≠ _),
      pi _ (by decide : ("covariance_integration_bins" : String) ≠ _),
      pi _ (by decide : ("covariance_interpolation_method" : String) ≠ _), pf _ (by decide : ("w0" : String) ≠ _),
      pf _ (by decide : ("wa" : String) ≠ _)]
  have a8 : parse_biases E c' = parse_biases E c := by
    funext p; unfold parse_biases
    simp only [
      pb E _ "read_galaxy_bias1" "input_galaxy_bias1" "galaxy_bias1" (by decide) (by decide) (by decide),
      pb E _ "read_galaxy_bias2" "input_galaxy_bias2" "galaxy_bias2" (by decide) (by decide) (by decide),
      pb E _ "read_magnification_bias1" "input_magnification_bias1" "magnification_bias1" (by decide) (by decide) (by decide),
      pb E _ "read_magnification_bias2" "input_magnification_bias2" "magnification_bias2" (by decide) (by decide) (by decide),
      pb E _ "read_evolution_bias1" "input_evolution_bias1" "evolution_bias1" (by decide) (by decide) (by decide),
      pb E _ "read_evolution_bias2" "input_evolution_bias2" "evolution_bias2" (by decide) (by decide) (by decide)]
  have a9 : parse_survey c' = parse_survey c := by
    funext p; unfold parse_survey
    rw [pi _ (by decide : ("covariance_window" : String) ≠ _), da _ _ (by decide : ("density1" : String) ≠ _),
      da _ _ (by decide : ("density2" : String) ≠ _), da _ _ (by decide : ("fsky" : String) ≠ _),
      da _ _ (by decide : ("pixelsize" : String) ≠ _)]
  have a10 : parse_covariance_multipoles c' = parse_covariance_multipoles c := by
    funext p; unfold parse_covariance_multipoles
    rw [da _ _ (by decide : ("z_mean" : String) ≠ _), da _ _ (by decide : ("deltaz" : String) ≠ _),
      da _ _ (by decide : ("fsky" : String) ≠ _)]
  have a11 : parse_covariance_average c' = parse_covariance_average c := by
    funext p; unfold parse_covariance_average
    rw [da _ _ (by decide : ("zmin" : String) ≠ _), da _ _ (by decide : ("zmax" : String) ≠ _)]
  have a12 : parse_contributions c' = parse_contributions c := funext pc
  have a13 : parse_output c' = parse_output c := by
    funext p; unfold parse_output
    simp only [ps _ (by decide : ("output_path" : String) ≠ _), ps _ (by decide : ("output_prefix" : String) ≠ _),
      pi _ (by decide : ("flatsky_local" : String) ≠ _), pi _ (by decide : ("flatsky_local_nonlocal" : String) ≠ _),
      pi _ (by decide : ("flatsky_nonlocal" : String) ≠ _)]
  have a14 : parse_derivatives c' = parse_derivatives c := by
    funext p; unfold parse_derivatives
    simp only [pi _ (by decide : ("b_derivative" : String) ≠ _), pi _ (by decide : ("f_derivative" : String) ≠ _),
      pi _ (by decide : ("b_tilde_derivative" : String) ≠ _), pi _ (by decide : ("f_tilde_derivative" : String) ≠ _)]
  have a15 : parse_range c' = parse_range c := by
    funext p; unfold parse_range parse_window_size
    simp only [pf _ (by decide : ("k_min" : String) ≠ _), pf _ (by decide : ("k_max" : String) ≠ _),
      pi _ (by decide : ("have_window" : String) ≠ _), pi _ (by decide : ("only_cross_correlations" : String) ≠ _),
      pf _ (by decide : ("window_size" : String) ≠ _)]
  have a16 : parse_spectrum E R c' = parse_spectrum E R c := by
    funext p; unfold parse_spectrum parse_class parse_spectrum_file
    simp only [pi _ (by decide : ("have_class" : String) ≠ _), pi _ (by decide : ("pk_type" : String) ≠ _),
      pf _ (by decide : ("h" : String) ≠ _), kf _ (by decide : ("sigma8" : String) ≠ _),
      kf _ (by decide : ("A_s" : String) ≠ _), pf _ (by decide : ("n_s" : String) ≠ _),
      pf _ (by decide : ("k_pivot" : String) ≠ _), kf _ (by decide : ("T_cmb" : String) ≠ _),
      kf _ (by decide : ("N_ur" : String) ≠ _), kf _ (by decide : ("m_ncdm" : String) ≠ _),
      ki _ (by decide : ("N_ncdm" : String) ≠ _), kf _ (by decide : ("YHe" : String) ≠ _),
      ps _ (by decide : ("input_power_spectrum" : String) ≠ _)]
  unfold coffe_parser_init
  rw [a1, a2, a3, a4, a5, a6, a7, a8, a9, a10, a11, a12, a13, a14, a15, a16]

end Coffe
