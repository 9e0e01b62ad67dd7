import Verif.Model.C.Parser

/-! # Specification of the settings parser -/

namespace Coffe
open Classical

/-- Output types with mean redshifts. -/
def HasMean (p : CPar) : Prop :=
  p.output_type = CORRFUNC ∨ p.output_type = MULTIPOLES ∨ p.output_type = COVARIANCE_MULTIPOLES

/-- Output types with separations from the file. -/
def HasSep (p : CPar) : Prop :=
  p.output_type = CORRFUNC ∨ p.output_type = MULTIPOLES ∨ p.output_type = AVERAGE_MULTIPOLES ∨
    p.output_type = COVARIANCE_MULTIPOLES

/-- Output types with multipoles. -/
def HasMultipoles (p : CPar) : Prop :=
  p.output_type = MULTIPOLES ∨ p.output_type = AVERAGE_MULTIPOLES ∨
      p.output_type = COVARIANCE_MULTIPOLES ∨ p.output_type = COVARIANCE_AVERAGE_MULTIPOLES

/-- Covariances. -/
def HasSurvey (p : CPar) : Prop :=
  p.output_type = COVARIANCE_MULTIPOLES ∨ p.output_type = COVARIANCE_AVERAGE_MULTIPOLES

/-- The setting is the given list of numbers. -/
def ListsReal (c : Conf) (name : String) (l : List ℝ) : Prop :=
  ∃ vs, c name = some (.many vs) ∧ vs.map Scalar.toFloat = l.map some

/-- The setting is the given list of integers. -/
def ListsInt (c : Conf) (name : String) (l : List ℤ) : Prop :=
  ∃ vs, c name = some (.many vs) ∧ vs.map Scalar.toInt = l.map some

/-- The setting is the given list of strings. -/
def ListsText (c : Conf) (name : String) (l : List Text) : Prop :=
  c name = some (.many (l.map .str))

/-- The samples of a bias function: from the named file if the flag is 1, otherwise one value everywhere. -/
structure BiasFrom (E : ParserEnv) (c : Conf) (flag setting single : String) (l : Samples) : Prop where
  file : lookup_int c flag = some 1 → ∃ name data, lookup_string c setting = some name ∧
    E.file name = some data ∧ read_samples data = .ok l
  value : lookup_int c flag ≠ some 1 → ∃ v, lookup_float c single = some v ∧ ∀ x ∈ l, x.2 = v
  increasing : (l.map Prod.fst).Pairwise (· < ·)
  nonempty : l ≠ []

/-- The contributions whose names are in a list. -/
noncomputable def Contrib.listed (l : List Text) : Contrib where
  den := "den".toList ∈ l
  rsd := "rsd".toList ∈ l
  len := "len".toList ∈ l
  d1 := "d1".toList ∈ l
  d2 := "d2".toList ∈ l
  g1 := "g1".toList ∈ l
  g2 := "g2".toList ∈ l
  g3 := "g3".toList ∈ l
  g4 := "g4".toList ∈ l
  g5 := "g5".toList ∈ l

/-- The checks that every accepted settings file passes. -/
structure Checked (E : ParserEnv) (c : Conf) (p : CPar) : Prop where
  redshifts : HasMean p → ∀ z ∈ p.z_mean, 0 < z
  covariance : p.output_type = COVARIANCE_MULTIPOLES →
    p.density2.length = p.density1.length ∧ p.fsky.length = p.density1.length ∧
    p.z_mean.length = p.density1.length ∧ p.deltaz.length = p.density1.length ∧
    p.pixelsize.length = p.density1.length
  covariance_average : p.output_type = COVARIANCE_AVERAGE_MULTIPOLES →
    p.density2.length = p.density1.length ∧ p.fsky.length = p.density1.length ∧
    p.zmin.length = p.density1.length ∧ p.zmax.length = p.density1.length
  one_choice : HasSep p →
    ((lookup_int c "separations_sampling").isSome ↔ (lookup_float c "separations_step").isNone)
  separations : HasSep p → p.sep.Pairwise (· < ·)
  derivatives : p.b_derivative + p.f_derivative + p.b_tilde_derivative + p.f_tilde_derivative ≤ 1
  window : p.have_window ≠ 0 → 0 < p.window_size ∧ p.window_size < 1000
  method : E.have_cuba = false → 0 ≤ p.integration_method ∧ p.integration_method ≤ 2
  covariance_method : p.covariance_integration_method = 1 ∨ p.covariance_integration_method = 2
  fftlog : p.covariance_integration_method = 2 → 0 < p.covariance_integration_bins ∧
    (p.covariance_interpolation_method = 1 ∨ p.covariance_interpolation_method = 2)
  spectrum : (p.power_spectrum.map Prod.fst).Pairwise (· < ·)
  spectrum_nonempty : p.power_spectrum ≠ []
  range : ∀ a ∈ p.power_spectrum.head?, ∀ b ∈ p.power_spectrum.getLast?, a.1 ≤ p.k_min ∧ p.k_max ≤ b.1

/-- Every parameter is what the file says. -/
structure Faithful (E : ParserEnv) (c : Conf) (p : CPar) : Prop where
  output_type : lookup_int c "output_type" = some p.output_type
  type_bg : ∀ l, ListsText c "output_background" l → p.type_bg = l
  background_bins : lookup_int c "background_sampling" = some p.background_bins
  Omega0_m : lookup_float c "omega_m" = some p.Omega0_m
  Omega0_baryon : lookup_float c "omega_baryon" = some p.Omega0_baryon
  Omega0_gamma : lookup_float c "omega_gamma" = some p.Omega0_gamma
  Omega0_de : p.Omega0_m + p.Omega0_gamma + p.Omega0_de = 1
  z_mean : HasMean p → ∀ l, ListsReal c "z_mean" l → p.z_mean = l
  deltaz : p.output_type = COVARIANCE_MULTIPOLES → ∀ l, ListsReal c "deltaz" l → p.deltaz = l
  z_min : p.output_type = AVERAGE_MULTIPOLES → ∀ l, ListsReal c "z_min" l → p.zmin = l
  z_max : p.output_type = AVERAGE_MULTIPOLES → ∀ l, ListsReal c "z_max" l → p.zmax = l
  zmin : p.output_type = COVARIANCE_AVERAGE_MULTIPOLES → ∀ l, ListsReal c "zmin" l → p.zmin = l
  zmax : p.output_type = COVARIANCE_AVERAGE_MULTIPOLES → ∀ l, ListsReal c "zmax" l → p.zmax = l
  interp_method : lookup_int c "interpolation" = some p.interp_method
  mu : p.output_type = CORRFUNC → ∀ l, ListsReal c "mu" l → p.mu = l
  multipoles : HasMultipoles p → ∀ l, ListsInt c "multipoles" l → p.multipoles = l
  sep : HasSep p → ∀ n : ℕ, lookup_int c "separations_sampling" = some (n : ℤ) →
    ∃ a b, lookup_float c "separations_min" = some a ∧ lookup_float c "separations_max" = some b ∧ a < b ∧
      p.sep.length = n ∧ ∀ i (hi : i < p.sep.length), p.sep[i] = a + (b - a) * i / n
  bessel_bins : lookup_int c "bessel_sampling" = some p.bessel_bins
  integration_method : E.have_cuba = false → lookup_int c "integration_method" = some p.integration_method
  integration_bins : lookup_int c "integration_sampling" = some p.integration_bins
  covariance_integration_method :
    lookup_int c "covariance_integration_method" = some p.covariance_integration_method
  covariance_integration_bins : p.covariance_integration_method = 2 →
    lookup_int c "covariance_integration_bins" = some p.covariance_integration_bins
  covariance_interpolation_method : p.covariance_integration_method = 2 →
    lookup_int c "covariance_interpolation_method" = some p.covariance_interpolation_method
  w0 : lookup_float c "w0" = some p.w0
  wa : lookup_float c "wa" = some p.wa
  galaxy_bias1 : BiasFrom E c "read_galaxy_bias1" "input_galaxy_bias1" "galaxy_bias1" p.galaxy_bias1
  galaxy_bias2 : BiasFrom E c "read_galaxy_bias2" "input_galaxy_bias2" "galaxy_bias2" p.galaxy_bias2
  magnification_bias1 : BiasFrom E c "read_magnification_bias1" "input_magnification_bias1" "magnification_bias1"
    p.magnification_bias1
  magnification_bias2 : BiasFrom E c "read_magnification_bias2" "input_magnification_bias2" "magnification_bias2"
    p.magnification_bias2
  evolution_bias1 : BiasFrom E c "read_evolution_bias1" "input_evolution_bias1" "evolution_bias1" p.evolution_bias1
  evolution_bias2 : BiasFrom E c "read_evolution_bias2" "input_evolution_bias2" "evolution_bias2" p.evolution_bias2
  density1 : HasSurvey p → ∀ l, ListsReal c "density1" l → p.density1 = l
  density2 : HasSurvey p → ∀ l, ListsReal c "density2" l → p.density2 = l
  fsky : HasSurvey p → ∀ l, ListsReal c "fsky" l → p.fsky = l
  pixelsize : HasSurvey p → ∀ l, ListsReal c "pixelsize" l → p.pixelsize = l
  covariance_window : HasSurvey p → lookup_int c "covariance_window" = some p.covariance_window
  contributions : ∀ l, ListsText c "correlation_contributions" l → p.contrib = Contrib.listed l
  output_path : lookup_string c "output_path" = some p.output_path
  output_prefix : lookup_string c "output_prefix" = some p.output_prefix
  flatsky_local : lookup_int c "flatsky_local" = some p.flatsky_local
  flatsky_local_nonlocal : lookup_int c "flatsky_local_nonlocal" = some p.flatsky_local_nonlocal
  flatsky_nonlocal : lookup_int c "flatsky_nonlocal" = some p.flatsky_nonlocal
  b_derivative : lookup_int c "b_derivative" = some p.b_derivative
  f_derivative : lookup_int c "f_derivative" = some p.f_derivative
  b_tilde_derivative : lookup_int c "b_tilde_derivative" = some p.b_tilde_derivative
  f_tilde_derivative : lookup_int c "f_tilde_derivative" = some p.f_tilde_derivative
  k_min : ∃ k, lookup_float c "k_min" = some k ∧ ∀ a ∈ p.power_spectrum.head?, p.k_min = max k a.1
  k_max : ∃ k, lookup_float c "k_max" = some k ∧ ∀ b ∈ p.power_spectrum.getLast?, p.k_max = min k b.1
  have_window : lookup_int c "have_window" = some p.have_window
  only_cross_correlations : lookup_int c "only_cross_correlations" = some p.only_cross_correlations
  window_size : p.have_window ≠ 0 → lookup_float c "window_size" = some p.window_size

/-- CLASS is used. -/
def UsesClass (E : ParserEnv) (c : Conf) : Prop :=
  E.have_class = true ∧ lookup_int c "have_class" ≠ some 0

/-- The cosmological parameters that matter for the spectrum are what the file says. -/
structure FaithfulSpectrum (E : ParserEnv) (c : Conf) (p : CPar) : Prop where
  pk_type : UsesClass E c → lookup_int c "pk_type" = some p.pk_type
  h : UsesClass E c → lookup_float c "h" = some p.h
  n_s : UsesClass E c → lookup_float c "n_s" = some p.n_s
  k_pivot : UsesClass E c → lookup_float c "k_pivot" = some p.k_pivot
  amplitude : UsesClass E c → (lookup_float c "sigma8" = none ∨ lookup_float c "A_s" = none)
  sigma8 : UsesClass E c → ∀ x, lookup_float c "sigma8" = some x → p.sigma8 = x
  A_s : UsesClass E c → ∀ x, lookup_float c "A_s" = some x → p.A_s = x
  T_cmb : UsesClass E c → ∀ x, lookup_float c "T_cmb" = some x → p.T_cmb = x
  N_ur : UsesClass E c → ∀ x, lookup_float c "N_ur" = some x → p.N_ur = x
  m_ncdm : UsesClass E c → ∀ x, lookup_float c "m_ncdm" = some x → p.m_ncdm = x
  N_ncdm : UsesClass E c → ∀ x, lookup_int c "N_ncdm" = some x → p.N_ncdm = x
  YHe : UsesClass E c → ∀ x, lookup_float c "YHe" = some x → p.YHe = x
  closure : p.Omega0_cdm + p.Omega0_baryon + p.Omega0_nu = p.Omega0_m
  from_file : ¬ UsesClass E c → ∀ name data, lookup_string c "input_power_spectrum" = some name →
    E.file name = some data → p.have_window = 0 → read_samples data = .ok p.power_spectrum

/-- A settings file that has everything for output type `ty`: no CLASS, no window, one value for every bias function, the
built-in power spectrum. -/
structure Complete (E : ParserEnv) (c : Conf) (ty : ℤ) : Prop where
  ints : ∀ s ∈ ["verbose", "background_sampling", "interpolation", "bessel_sampling", "integration_sampling",
    "covariance_window", "flatsky_local", "flatsky_local_nonlocal", "flatsky_nonlocal", "only_cross_correlations"],
    ∃ n, lookup_int c s = some n
  floats : ∀ s ∈ ["omega_m", "omega_baryon", "omega_gamma", "w0", "wa", "k_min", "k_max", "galaxy_bias1", "galaxy_bias2",
    "magnification_bias1", "magnification_bias2", "evolution_bias1", "evolution_bias2"], ∃ x, lookup_float c s = some x
  strings : ∀ s ∈ ["output_path", "output_prefix", "input_power_spectrum"],
    ∃ t, lookup_string c s = some t ∧ t.length < 256
  texts : ∀ s ∈ ["output_background", "correlation_contributions"], ∃ l, ListsText c s l
  flags : ∀ s ∈ ["read_galaxy_bias1", "read_galaxy_bias2", "read_magnification_bias1", "read_magnification_bias2",
    "read_evolution_bias1", "read_evolution_bias2"], lookup_int c s ≠ some 1
  type : lookup_int c "output_type" = some ty
  method : ∃ m, lookup_int c "integration_method" = some m ∧ 0 ≤ m ∧ m ≤ 2
  covariance_method : lookup_int c "covariance_integration_method" = some 1
  derivatives : ∃ x y z w, lookup_int c "b_derivative" = some x ∧ lookup_int c "f_derivative" = some y ∧
    lookup_int c "b_tilde_derivative" = some z ∧ lookup_int c "f_tilde_derivative" = some w ∧ x + y + z + w ≤ 1
  window : lookup_int c "have_window" = some 0
  no_class : E.have_class = false ∨ lookup_int c "have_class" = some 0
  no_file : ∀ t, lookup_string c "input_power_spectrum" = some t → E.file t = none
  spectrum : 5 ≤ E.default_spectrum.length ∧ (E.default_spectrum.map Prod.fst).Pairwise (· < ·)
  redshifts : ty = 1 ∨ ty = 2 ∨ ty = 4 → c "z_mean" = none ∨ ∃ l, ListsReal c "z_mean" l ∧ ∀ z ∈ l, 0 < z
  separations : ty = 1 ∨ ty = 2 ∨ ty = 3 ∨ ty = 4 → ∃ a b, lookup_float c "separations_min" = some a ∧
    lookup_float c "separations_max" = some b ∧ a < b ∧
    ((lookup_int c "separations_sampling").isSome ↔ (lookup_float c "separations_step").isNone) ∧
    0 ≤ (lookup_int c "separations_sampling").getD 0
  covariance : ty = 4 → ∃ n1 n2 f z d x, ListsReal c "density1" n1 ∧ ListsReal c "density2" n2 ∧ ListsReal c "fsky" f ∧
    ListsReal c "z_mean" z ∧ ListsReal c "deltaz" d ∧ ListsReal c "pixelsize" x ∧ n2.length = n1.length ∧
    f.length = n1.length ∧ z.length = n1.length ∧ d.length = n1.length ∧ x.length = n1.length
  covariance_average : ty = 5 → ∃ n1 n2 f a b, ListsReal c "density1" n1 ∧ ListsReal c "density2" n2 ∧ ListsReal c "fsky" f ∧
    ListsReal c "zmin" a ∧ ListsReal c "zmax" b ∧ n2.length = n1.length ∧ f.length = n1.length ∧ a.length = n1.length ∧
    b.length = n1.length

/-- The settings that CLASS needs are there, and CLASS gives a spectrum. -/
structure CompleteClass (E : ParserEnv) (R : ClassRun) (c : Conf) : Prop where
  on : E.have_class = true
  chosen : ∃ k, lookup_int c "have_class" = some k ∧ k ≠ 0
  kind : ∃ k, lookup_int c "pk_type" = some k
  floats : ∀ s ∈ ["h", "n_s", "k_pivot"], ∃ x, lookup_float c s = some x
  amplitude : lookup_float c "sigma8" = none ∨ lookup_float c "A_s" = none
  run : ∀ q, ∃ l, R q = .ok l ∧ 5 ≤ l.length ∧ (l.map Prod.fst).Pairwise (· < ·)

end Coffe
