import Verif.Spec.Parser
import Verif.Spec.FileOptions

/-!
# Specification of one settings file for the two front ends

The C program reads a settings file with libconfig, the Python object with `configparser`.  A file that both can read has
one option per line, each value on the line of its name, and strings without commas, quotes or brackets.
-/

namespace Coffe
open Classical

/-- The name of a parameter in a settings file. -/
def Name.text : Name → String
  | .A_s => "A_s"
  | .N_ncdm => "N_ncdm"
  | .N_ur => "N_ur"
  | .T_cmb => "T_cmb"
  | .YHe => "YHe"
  | .background_sampling => "background_sampling"
  | .covariance_cosmic => "covariance_cosmic"
  | .covariance_integration_method => "covariance_integration_method"
  | .covariance_integration_sampling => "covariance_integration_sampling"
  | .covariance_interpolation_method => "covariance_interpolation_method"
  | .covariance_mixed => "covariance_mixed"
  | .covariance_poisson => "covariance_poisson"
  | .covariance_populations => "covariance_populations"
  | .deltaz => "deltaz"
  | .fsky => "fsky"
  | .h => "h"
  | .has_binned_covariance => "has_binned_covariance"
  | .has_d1 => "has_d1"
  | .has_d2 => "has_d2"
  | .has_density => "has_density"
  | .has_flatsky_local => "has_flatsky_local"
  | .has_flatsky_local_nonlocal => "has_flatsky_local_nonlocal"
  | .has_flatsky_nonlocal => "has_flatsky_nonlocal"
  | .has_g1 => "has_g1"
  | .has_g2 => "has_g2"
  | .has_g3 => "has_g3"
  | .has_g4 => "has_g4"
  | .has_g5 => "has_g5"
  | .has_lensing => "has_lensing"
  | .has_only_cross_correlations => "has_only_cross_correlations"
  | .has_rsd => "has_rsd"
  | .integrals_fftlog_sampling => "integrals_fftlog_sampling"
  | .integration_1d_prec => "integration_1d_prec"
  | .integration_1d_type => "integration_1d_type"
  | .integration_sampling => "integration_sampling"
  | .k_max => "k_max"
  | .k_min => "k_min"
  | .k_per_decade_for_bao => "k_per_decade_for_bao"
  | .k_per_decade_for_pk => "k_per_decade_for_pk"
  | .l => "l"
  | .l_max_g => "l_max_g"
  | .l_max_ur => "l_max_ur"
  | .m_ncdm => "m_ncdm"
  | .mu => "mu"
  | .n_s => "n_s"
  | .number_density1 => "number_density1"
  | .number_density2 => "number_density2"
  | .omega_baryon => "omega_baryon"
  | .omega_cdm => "omega_cdm"
  | .omega_gamma => "omega_gamma"
  | .omega_m => "omega_m"
  | .pixelsize => "pixelsize"
  | .pk_type => "pk_type"
  | .radiation_streaming_trigger_tau_over_tau_k => "radiation_streaming_trigger_tau_over_tau_k"
  | .sep => "sep"
  | .sigma8 => "sigma8"
  | .start_large_k_at_tau_h_over_tau_k => "start_large_k_at_tau_h_over_tau_k"
  | .tol_perturb_integration => "tol_perturb_integration"
  | .ur_fluid_trigger_tau_over_tau_k => "ur_fluid_trigger_tau_over_tau_k"
  | .verbose => "verbose"
  | .w0 => "w0"
  | .wa => "wa"
  | .z_max => "z_max"
  | .z_mean => "z_mean"
  | .z_min => "z_min"

/-- The old name of a parameter in a settings file. -/
def Legacy.text : Legacy → String
  | .only_cross_correlations => "only_cross_correlations"
  | .covariance_z_mean => "covariance_z_mean"
  | .covariance_deltaz => "covariance_deltaz"
  | .covariance_fsky => "covariance_fsky"
  | .covariance_pixelsize => "covariance_pixelsize"
  | .covariance_zmin => "covariance_zmin"
  | .covariance_zmax => "covariance_zmax"
  | .covariance_window => "covariance_window"
  | .covariance_density => "covariance_density"
  | .multipoles => "multipoles"
  | .flatsky_local => "flatsky_local"
  | .flatsky_local_nonlocal => "flatsky_local_nonlocal"
  | .flatsky_nonlocal => "flatsky_nonlocal"

/-- The name of a bias function in a settings file. -/
def BiasName.text : BiasName → String
  | .galaxy1 => "galaxy_bias1"
  | .galaxy2 => "galaxy_bias2"
  | .galaxy3 => "galaxy_bias3"
  | .galaxy4 => "galaxy_bias4"
  | .magnification1 => "magnification_bias1"
  | .magnification2 => "magnification_bias2"
  | .evolution1 => "evolution_bias1"
  | .evolution2 => "evolution_bias2"

/-- What the value of a setting looks like to Python (python/coffe/coffe.pyx:558-563 and 64-80): the text after the equals
sign, without the semicolon; strings keep their quotes. -/
noncomputable def Setting.txt : Setting → Txt
  | .one (.int n) => .int n
  | .one (.float x) => .float x
  | .one (.str s) => .str ("\"" ++ String.ofList s ++ "\"")
  | .many l =>
    if ∀ v ∈ l, ∃ n, v = .int n then .ints (l.filterMap Scalar.toInt)
    else if ∀ v ∈ l, v.toFloat.isSome then .floats (l.filterMap Scalar.toFloat)
    else .str "a list with strings"

/-- The strings behind a setting (`getstr_array`, coffe.pyx:76-82). -/
def Setting.strings : Setting → List String
  | .one (.str s) => [String.ofList s]
  | .one _ => []
  | .many l => l.filterMap fun v => match v with
    | .str s => some (String.ofList s)
    | _ => none

/-- The two columns of a named file; what `np.loadtxt` reads is what the C program reads. -/
noncomputable def columns (E : ParserEnv) (name : Text) : List ℝ × List ℝ :=
  match E.file name with
  | some data => match read_samples data with
    | .ok l => (l.map Prod.fst, l.map Prod.snd)
    | .error _ => ([], [])
  | none => ([], [])

/-- The same settings file as Python sees it. -/
noncomputable def pyView (E : ParserEnv) (c : Conf) : Config where
  opt n := (c n.text).map Setting.txt
  legacy ℓ := (c ℓ.text).map Setting.txt
  contributions := (c "correlation_contributions").map Setting.strings
  bias b := {
    read := (c ("read_" ++ b.text)).map Setting.txt
    input := (c ("input_" ++ b.text)).map fun s => match s with
      | .one (.str name) => columns E name
      | _ => ([], [])
    value := (c b.text).map Setting.txt
    redshifts := (c (b.text ++ "_redshifts")).map Setting.txt
    values := (c (b.text ++ "_values")).map Setting.txt }

/-- The settings that the C program looks up (src/parser.c:1041-1697). -/
def cNames : List String :=
  ["A_s", "N_ncdm", "N_ur", "T_cmb", "YHe", "b_derivative", "b_tilde_derivative", "background_sampling",
   "bessel_sampling", "correlation_contributions", "covariance_integration_bins", "covariance_integration_method",
   "covariance_interpolation_method", "covariance_window", "deltaz", "density1", "density2", "evolution_bias1",
   "evolution_bias2", "f_derivative", "f_tilde_derivative", "flatsky_local", "flatsky_local_nonlocal",
   "flatsky_nonlocal", "fsky", "galaxy_bias1", "galaxy_bias2", "h", "have_class", "have_window",
   "input_evolution_bias1", "input_evolution_bias2", "input_galaxy_bias1", "input_galaxy_bias2",
   "input_magnification_bias1", "input_magnification_bias2", "input_power_spectrum", "integration_method",
   "integration_sampling", "interpolation", "k_max", "k_min", "k_pivot", "m_ncdm", "magnification_bias1",
   "magnification_bias2", "mu", "multipoles", "n_s", "omega_baryon", "omega_gamma", "omega_m",
   "only_cross_correlations", "output_background", "output_path", "output_prefix", "output_type", "pixelsize",
   "pk_type", "read_evolution_bias1", "read_evolution_bias2", "read_galaxy_bias1", "read_galaxy_bias2",
   "read_magnification_bias1", "read_magnification_bias2", "separations_max", "separations_min",
   "separations_sampling", "separations_step", "sigma8", "verbose", "w0", "wa", "window_size", "z_max", "z_mean",
   "z_min", "zmax", "zmin"]

/-- The settings that Python looks up (python/coffe/coffe.pyx:571-789). -/
def pyNames : List String :=
  ["A_s", "N_ncdm", "N_ur", "T_cmb", "YHe", "background_sampling", "covariance_cosmic",
   "covariance_integration_method", "covariance_integration_sampling", "covariance_interpolation_method",
   "covariance_mixed", "covariance_poisson", "covariance_populations", "deltaz", "fsky", "h",
   "has_binned_covariance", "has_d1", "has_d2", "has_density", "has_flatsky_local", "has_flatsky_local_nonlocal",
   "has_flatsky_nonlocal", "has_g1", "has_g2", "has_g3", "has_g4", "has_g5", "has_lensing",
   "has_only_cross_correlations", "has_rsd", "integrals_fftlog_sampling", "integration_1d_prec",
   "integration_1d_type", "integration_sampling", "k_max", "k_min", "k_per_decade_for_bao", "k_per_decade_for_pk",
   "l", "l_max_g", "l_max_ur", "m_ncdm", "mu", "n_s", "number_density1", "number_density2", "omega_baryon",
   "omega_cdm", "omega_gamma", "omega_m", "pixelsize", "pk_type", "radiation_streaming_trigger_tau_over_tau_k",
   "sep", "sigma8", "start_large_k_at_tau_h_over_tau_k", "tol_perturb_integration",
   "ur_fluid_trigger_tau_over_tau_k", "verbose", "w0", "wa", "z_max", "z_mean", "z_min",
   "only_cross_correlations", "covariance_z_mean", "covariance_deltaz", "covariance_fsky", "covariance_pixelsize",
   "covariance_zmin", "covariance_zmax", "covariance_window", "covariance_density", "multipoles", "flatsky_local",
   "flatsky_local_nonlocal", "flatsky_nonlocal", "correlation_contributions", "galaxy_bias1", "read_galaxy_bias1",
   "input_galaxy_bias1", "galaxy_bias1_redshifts", "galaxy_bias1_values", "galaxy_bias2", "read_galaxy_bias2",
   "input_galaxy_bias2", "galaxy_bias2_redshifts", "galaxy_bias2_values", "galaxy_bias3", "read_galaxy_bias3",
   "input_galaxy_bias3", "galaxy_bias3_redshifts", "galaxy_bias3_values", "galaxy_bias4", "read_galaxy_bias4",
   "input_galaxy_bias4", "galaxy_bias4_redshifts", "galaxy_bias4_values", "magnification_bias1",
   "read_magnification_bias1", "input_magnification_bias1", "magnification_bias1_redshifts",
   "magnification_bias1_values", "magnification_bias2", "read_magnification_bias2", "input_magnification_bias2",
   "magnification_bias2_redshifts", "magnification_bias2_values", "evolution_bias1", "read_evolution_bias1",
   "input_evolution_bias1", "evolution_bias1_redshifts", "evolution_bias1_values", "evolution_bias2",
   "read_evolution_bias2", "input_evolution_bias2", "evolution_bias2_redshifts", "evolution_bias2_values"]

/-- The settings that only Python knows by this name (the C program uses older names). -/
def onlyPython : List String :=
  ["l", "has_binned_covariance", "has_flatsky_local", "has_flatsky_local_nonlocal", "has_flatsky_nonlocal", "has_density",
   "has_rsd", "has_lensing", "has_d1", "has_d2", "has_g1", "has_g3", "has_g4", "has_g5", "galaxy_bias1_redshifts",
   "galaxy_bias2_redshifts", "magnification_bias1_redshifts", "magnification_bias2_redshifts",
   "evolution_bias1_redshifts", "evolution_bias2_redshifts"]

/-- The value of a cosmological parameter in Python: the given number, unless the default is so close that it is kept. -/
def Retains (n : Name) (v : PyVal) (x : ℝ) : Prop :=
  v = .float x ∨ (v = getattr PyPar.default n ∧ ∃ y, v = .float y ∧ |x - y| ≤ 1e-8 + 1e-5 * |y|)

/-- Two tables of a bias function say the same: they are equal, or both are one constant. -/
def SameBias (l m : Samples) : Prop :=
  l = m ∨ ∃ v : ℝ, (∀ x ∈ l, x.2 = v) ∧ ∀ x ∈ m, x.2 = v

/-- Two accepted readings of a settings file agree: `p` of the C program, `t` of the Python object. -/
structure Agree (E : ParserEnv) (c : Conf) (p : CPar) (t : PyPar) : Prop where
  omega_m : Retains .omega_m (getattr t .omega_m) p.Omega0_m
  omega_baryon : Retains .omega_baryon (getattr t .omega_baryon) p.Omega0_baryon
  omega_gamma : Retains .omega_gamma (getattr t .omega_gamma) p.Omega0_gamma
  w0 : Retains .w0 (getattr t .w0) p.w0
  wa : Retains .wa (getattr t .wa) p.wa
  h : UsesClass E c → Retains .h (getattr t .h) p.h
  n_s : UsesClass E c → Retains .n_s (getattr t .n_s) p.n_s
  sigma8 : UsesClass E c → ∀ x, lookup_float c "sigma8" = some x → Retains .sigma8 (getattr t .sigma8) p.sigma8
  A_s : UsesClass E c → ∀ x, lookup_float c "A_s" = some x → getattr t .A_s = .float p.A_s
  T_cmb : UsesClass E c → ∀ x, lookup_float c "T_cmb" = some x → Retains .T_cmb (getattr t .T_cmb) p.T_cmb
  N_ur : UsesClass E c → ∀ x, lookup_float c "N_ur" = some x → Retains .N_ur (getattr t .N_ur) p.N_ur
  m_ncdm : UsesClass E c → ∀ x, lookup_float c "m_ncdm" = some x → Retains .m_ncdm (getattr t .m_ncdm) p.m_ncdm
  YHe : UsesClass E c → ∀ x, lookup_float c "YHe" = some x → Retains .YHe (getattr t .YHe) p.YHe
  N_ncdm : UsesClass E c → ∀ x, lookup_int c "N_ncdm" = some x → getattr t .N_ncdm = .int p.N_ncdm
  pk_type : UsesClass E c → ∃ i : ℕ, p.pk_type = i ∧
    ["linear", "linear_class", "halofit", "hmcode"][i]?.map PyVal.str = some (getattr t .pk_type)
  background_sampling : getattr t .background_sampling = .int p.background_bins
  integration_sampling : getattr t .integration_sampling = .int p.integration_bins
  covariance_integration_method : getattr t .covariance_integration_method =
    .str (if p.covariance_integration_method = 1 then "standard" else "fftlog")
  covariance_interpolation_method : p.covariance_integration_method = 2 → getattr t .covariance_interpolation_method =
    .str (if p.covariance_interpolation_method = 1 then "bilinear" else "bicubic")
  z_mean : HasMean p → ∀ l, ListsReal c "z_mean" l → getattr t .z_mean = .floats p.z_mean
  deltaz : p.output_type = COVARIANCE_MULTIPOLES → ∀ l, ListsReal c "deltaz" l → getattr t .deltaz = .floats p.deltaz
  z_min : p.output_type = AVERAGE_MULTIPOLES → ∀ l, ListsReal c "z_min" l → getattr t .z_min = .floats p.zmin
  z_max : p.output_type = AVERAGE_MULTIPOLES → ∀ l, ListsReal c "z_max" l → getattr t .z_max = .floats p.zmax
  mu : p.output_type = CORRFUNC → ∀ l, ListsReal c "mu" l → getattr t .mu = .floats p.mu
  multipoles : HasMultipoles p → ∀ l, ListsInt c "multipoles" l → getattr t .l = .ints p.multipoles
  fsky : HasSurvey p → ∀ l, ListsReal c "fsky" l → getattr t .fsky = .floats p.fsky
  pixelsize : HasSurvey p → ∀ l, ListsReal c "pixelsize" l → getattr t .pixelsize = .floats p.pixelsize
  covariance_window : HasSurvey p → getattr t .has_binned_covariance = .bool (decide (p.covariance_window ≠ 0))
  flatsky_local : getattr t .has_flatsky_local = .bool (decide (p.flatsky_local ≠ 0))
  flatsky_local_nonlocal : getattr t .has_flatsky_local_nonlocal = .bool (decide (p.flatsky_local_nonlocal ≠ 0))
  flatsky_nonlocal : getattr t .has_flatsky_nonlocal = .bool (decide (p.flatsky_nonlocal ≠ 0))
  only_cross_correlations : getattr t .has_only_cross_correlations = .bool (decide (p.only_cross_correlations ≠ 0))
  contributions : ∀ l, ListsText c "correlation_contributions" l → "den".toList ∈ l → t.contrib = p.contrib
  k_min : ∃ k, getattr t .k_min = .float k ∧ ∀ a ∈ p.power_spectrum.head?, p.k_min = max k a.1
  k_max : ∃ k, getattr t .k_max = .float k ∧ ∀ b ∈ p.power_spectrum.getLast?, p.k_max = min k b.1
  galaxy_bias1 : c "input_galaxy_bias1" ≠ none → SameBias p.galaxy_bias1 t.bias.galaxy1
  galaxy_bias2 : c "input_galaxy_bias2" ≠ none → SameBias p.galaxy_bias2 t.bias.galaxy2
  magnification_bias1 : c "input_magnification_bias1" ≠ none → SameBias p.magnification_bias1 t.bias.magnification1
  magnification_bias2 : c "input_magnification_bias2" ≠ none → SameBias p.magnification_bias2 t.bias.magnification2
  evolution_bias1 : c "input_evolution_bias1" ≠ none → SameBias p.evolution_bias1 t.bias.evolution1
  evolution_bias2 : c "input_evolution_bias2" ≠ none → SameBias p.evolution_bias2 t.bias.evolution2

end Coffe
