import Verif.Spec.FrontEnds
import Verif.Spec.WitnessParser

/-! # The shipped settings file -/

namespace Coffe

/-- The settings of the shipped file settings.cfg. -/
noncomputable def shippedSettings : List (String × Setting) :=
  [("separations_min", .one (.float 5.0)), ("separations_max", .one (.float 305.0)),
   ("separations_sampling", .one (.int 10)), ("input_power_spectrum", .one (.str "PkL_CLASS.dat".toList)),
   ("have_window", .one (.int 0)), ("window_size", .one (.int 5)), ("omega_m", .one (.float 0.3)),
   ("omega_baryon", .one (.float 0.05)), ("omega_gamma", .one (.float 9e-5)), ("w0", .one (.float (-1.0))),
   ("wa", .one (.float 0.0)), ("galaxy_bias1", .one (.float 1.0)), ("read_galaxy_bias1", .one (.int 0)),
   ("input_galaxy_bias1", .one (.str "".toList)), ("galaxy_bias2", .one (.float 1.0)),
   ("read_galaxy_bias2", .one (.int 0)), ("input_galaxy_bias2", .one (.str "".toList)),
   ("magnification_bias1", .one (.float 0.0)), ("read_magnification_bias1", .one (.int 0)),
   ("input_magnification_bias1", .one (.str "".toList)), ("magnification_bias2", .one (.float 0.0)),
   ("read_magnification_bias2", .one (.int 0)), ("input_magnification_bias2", .one (.str "".toList)),
   ("evolution_bias1", .one (.float 0.0)), ("read_evolution_bias1", .one (.int 0)),
   ("input_evolution_bias1", .one (.str "".toList)), ("evolution_bias2", .one (.float 0.0)),
   ("read_evolution_bias2", .one (.int 0)), ("input_evolution_bias2", .one (.str "".toList)),
   ("covariance_z_mean", .many [.float 0.5, .float 1.0, .float 1.5]),
   ("covariance_deltaz", .many [.float 0.1, .float 0.1, .float 0.2]),
   ("covariance_density", .many [.float 0.1, .float 0.2, .float 0.01]),
   ("covariance_fsky", .many [.float 0.3, .float 0.5, .float 0.2]),
   ("covariance_pixelsize", .many [.float 10.0, .float 10.0, .float 10.0]),
   ("covariance_step_size", .one (.float 10.0)), ("covariance_zmin", .many [.float 2.0, .float 2.2, .float 2.3]),
   ("covariance_zmax", .many [.float 2.5, .float 2.8, .float 2.5]),
   ("covariance_minimum_separation", .one (.float 20.0)), ("covariance_window", .one (.int 0)),
   ("covariance_integration_method", .one (.int 1)), ("covariance_integration_bins", .one (.int 8000)),
   ("covariance_interpolation_method", .one (.int 2)), ("output_path", .one (.str "results/".toList)),
   ("output_prefix", .one (.str "$TIME".toList)), ("correlation_contributions", .many [.str "den".toList]),
   ("output_type", .one (.int 2)), ("only_cross_correlations", .one (.int 0)), ("z_mean", .many [.float 1.0]),
   ("deltaz", .many [.float 0.2]), ("z_min", .one (.float 0.9)), ("z_max", .one (.float 1.1)),
   ("mu", .many [.float 0.7]), ("multipoles", .many [.int 0, .int 2, .int 4]),
   ("output_background", .many [.str "z".toList, .str "a".toList, .str "H".toList, .str "conformal_H".toList,
    .str "conformal_H_prime".toList, .str "D1".toList, .str "f".toList, .str "comoving_distance".toList]),
   ("flatsky_local_nonlocal", .one (.int 0)), ("flatsky_nonlocal", .one (.int 0)),
   ("flatsky_local", .one (.int 0)), ("background_sampling", .one (.int 10000)),
   ("bessel_sampling", .one (.int 10000)), ("theta_sampling", .one (.int 3000)),
   ("integration_method", .one (.int 2)), ("integration_sampling", .one (.int 750000)),
   ("k_min", .one (.float 1e-5)), ("k_max", .one (.float 300.0)), ("interpolation", .one (.int 5)),
   ("have_class", .one (.int 1)), ("h", .one (.float 0.67)), ("k_pivot", .one (.float 0.05)),
   ("sigma8", .one (.float 0.8156)), ("n_s", .one (.float 0.96)), ("verbose", .one (.int 1)),
   ("pk_type", .one (.int 0)), ("b_derivative", .one (.int 0)), ("f_derivative", .one (.int 0)),
   ("b_tilde_derivative", .one (.int 0)), ("f_tilde_derivative", .one (.int 0))]

/-- The shipped file with changes: other values for some settings, or some settings left out. -/
noncomputable def shipped (change : List (String × Option Setting)) : Conf := fun s =>
  match change.lookup s with
  | some v => v
  | none => shippedSettings.lookup s

/-- Surroundings with CLASS. -/
def sEnv : ParserEnv := { wEnv with have_class := true }

/-- CLASS gives a short spectrum. -/
def sRun : ClassRun := fun _ => .ok [(1, 1), (2, 1), (3, 1), (4, 1), (5, 1)]

end Coffe
