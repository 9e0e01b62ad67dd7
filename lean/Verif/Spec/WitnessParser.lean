import Verif.Spec.Parser

/-! # Concrete settings files -/

namespace Coffe

/-- Surroundings without CLASS, without files, with a short default spectrum. -/
def wEnv : ParserEnv where
  file := fun _ => none
  have_class := false
  have_cuba := false
  window := fun _ => 1
  default_spectrum := [(1, 1), (2, 1), (3, 1), (4, 1), (5, 1)]

/-- CLASS is not called. -/
def wRun : ClassRun := fun _ => .error .exit

/-- An integer setting. -/
def wIntOne (n : ℤ) : Setting := .one (.int n)

/-- A list of integers. -/
def wIntList (l : List ℤ) : Setting := .many (l.map .int)

/-- A string setting. -/
def wStrOne (s : String) : Setting := .one (.str s.toList)

/-- The settings of a small calculation. -/
def wSettings : List (String × Setting) :=
  [("verbose", wIntOne 0), ("background_sampling", wIntOne 100), ("interpolation", wIntOne 5), ("bessel_sampling", wIntOne 100),
   ("integration_sampling", wIntOne 100), ("covariance_window", wIntOne 0), ("flatsky_local", wIntOne 0),
   ("flatsky_local_nonlocal", wIntOne 0), ("flatsky_nonlocal", wIntOne 0), ("only_cross_correlations", wIntOne 0),
   ("omega_m", wIntOne 1), ("omega_baryon", wIntOne 0), ("omega_gamma", wIntOne 0), ("w0", wIntOne (-1)), ("wa", wIntOne 0),
   ("k_min", wIntOne 0), ("k_max", wIntOne 100), ("galaxy_bias1", wIntOne 1), ("galaxy_bias2", wIntOne 2),
   ("magnification_bias1", wIntOne 0), ("magnification_bias2", wIntOne 0), ("evolution_bias1", wIntOne 0),
   ("evolution_bias2", wIntOne 0), ("output_path", wStrOne "./"), ("output_prefix", wStrOne "a"), ("input_power_spectrum", wStrOne "p"),
   ("output_background", .many [.str "z".toList]), ("correlation_contributions", .many [.str "den".toList]),
   ("integration_method", wIntOne 2), ("covariance_integration_method", wIntOne 1),
   ("b_derivative", wIntOne 0), ("f_derivative", wIntOne 0), ("b_tilde_derivative", wIntOne 0), ("f_tilde_derivative", wIntOne 0),
   ("have_window", wIntOne 0), ("separations_min", wIntOne 10), ("separations_max", wIntOne 20)]

/-- A settings file for the given output type; the given settings override the others. -/
def wConf (ty : ℤ) (l : List (String × Setting)) : Conf :=
  fun s => (l ++ ("output_type", wIntOne ty) :: wSettings).lookup s

end Coffe
