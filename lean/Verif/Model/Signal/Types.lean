import Mathlib.Analysis.Real.Sqrt
import Mathlib.Analysis.Real.Pi.Bounds

/-!
# Data used by the signal formulas of `src/functions.c`

C `double`s are exact reals.  A spline (`coffe_interpolation`, `coffe_interpolation2d`) is an
arbitrary function: `coffe_interp_spline(&s, x)` (src/common.c:704-709) becomes `s x` and
`coffe_interp_spline2d(&s, x, y)` (src/common.c:712-718) becomes `s x y`.
-/

namespace Coffe

/-- `enum coffe_pk_type`, src/common.h (values COFFE_PK_LINEAR … COFFE_PK_NONLINEAR_HMCODE).  The
build without CLASS is the special case `COFFE_PK_LINEAR` (the `#ifdef HAVE_CLASS` blocks of
`src/functions.c` are all guarded by `par->pk_type != COFFE_PK_LINEAR`). -/
inductive PkType where
  | COFFE_PK_LINEAR
  | COFFE_PK_LINEAR_CLASS
  | COFFE_PK_NONLINEAR_HALOFIT
  | COFFE_PK_NONLINEAR_HMCODE
deriving DecidableEq, Repr

/-- `enum coffe_output_type`, src/common.h. -/
inductive OutputType where
  | CORRFUNC
  | MULTIPOLES
  | AVERAGE_MULTIPOLES
  | COVARIANCE_MULTIPOLES
  | COVARIANCE_AVERAGE_MULTIPOLES
deriving DecidableEq, Repr

/-- `struct coffe_correlation_contributions`, src/common.h. -/
structure Contrib where
  den : Bool
  rsd : Bool
  len : Bool
  d1 : Bool
  d2 : Bool
  g1 : Bool
  g2 : Bool
  g3 : Bool
  g4 : Bool
  g5 : Bool
deriving DecidableEq, Repr

/-- The fields of `coffe_parameters_t` (src/common.h) read by `src/functions.c`. -/
structure Par where
  correlation_contrib : Contrib
  only_cross_correlations : Bool
  flatsky_local : Bool
  flatsky_local_nonlocal : Bool
  flatsky_nonlocal : Bool
  divergent : Bool
  output_type : OutputType
  pk_type : PkType
  midpoint_approximation : Bool
  b_derivative : Bool
  f_derivative : Bool
  b_tilde_derivative : Bool
  f_tilde_derivative : Bool
  Omega0_cdm : ℝ
  Omega0_baryon : ℝ
  h : ℝ
  galaxy_bias1 : ℝ → ℝ
  galaxy_bias2 : ℝ → ℝ
  magnification_bias1 : ℝ → ℝ
  magnification_bias2 : ℝ → ℝ
  evolution_bias1 : ℝ → ℝ
  evolution_bias2 : ℝ → ℝ

/-- The fields of `coffe_background_t` (src/background.h) read by `src/functions.c`. -/
structure Bg where
  comoving_distance : ℝ → ℝ
  z_as_chi : ℝ → ℝ
  f : ℝ → ℝ
  conformal_Hz : ℝ → ℝ
  G1 : ℝ → ℝ
  G2 : ℝ → ℝ
  a : ℝ → ℝ
  D1 : ℝ → ℝ

/-- One entry of `coffe_integral_array_t` (src/integrals.h): the splines it holds. -/
structure Integral where
  result : ℝ → ℝ
  result2d : ℝ → ℝ → ℝ
  renormalization : ℝ → ℝ → ℝ
  renormalization_zero_separation : ℝ → ℝ

/-- `COFFE_INTEGER` / `COFFE_HALF_INTEGER`, src/integrals.h. -/
inductive State where
  | int
  | half
deriving DecidableEq, Repr

/-- Arguments `(n, l, state_n, state_l)` of `coffe_find_integral`, src/integrals.c:140-169. -/
structure Key where
  n : Int
  l : Int
  state_n : State
  state_l : State
deriving DecidableEq, Repr

/-- The splines an entry of the integral table may hold (`coffe_integral_t`, src/integrals.h:25-39). -/
inductive Spl where
  | result
  | result2d
  | renormalization
  | renormalization_zero_separation
deriving DecidableEq, Repr

/-- One use of the integral table: which integral, and which of its splines is evaluated. -/
structure Look where
  key : Key
  spl : Spl
deriving DecidableEq, Repr

/-- The integral table seen through `coffe_find_integral`.  A total function here; that the looked-up
entry exists is a separate theorem (`Verif/Props/Lookups.lean`). -/
abbrev Ints := Key → Integral

namespace Ints
/-- `coffe_find_integral(integral, 0, 0, COFFE_INTEGER, COFFE_INTEGER)`, src/integrals.c:140-169. -/
def I00 (I : Ints) : Integral := I ⟨0, 0, .int, .int⟩
/-- `coffe_find_integral(integral, 0, 2, ..)`, src/integrals.c:140-169. -/
def I02 (I : Ints) : Integral := I ⟨0, 2, .int, .int⟩
/-- `coffe_find_integral(integral, 0, 4, ..)`, src/integrals.c:140-169. -/
def I04 (I : Ints) : Integral := I ⟨0, 4, .int, .int⟩
/-- `coffe_find_integral(integral, 1, 1, ..)`, src/integrals.c:140-169. -/
def I11 (I : Ints) : Integral := I ⟨1, 1, .int, .int⟩
/-- `coffe_find_integral(integral, 1, 3, ..)`, src/integrals.c:140-169. -/
def I13 (I : Ints) : Integral := I ⟨1, 3, .int, .int⟩
/-- `coffe_find_integral(integral, 2, 0, ..)`, src/integrals.c:140-169. -/
def I20 (I : Ints) : Integral := I ⟨2, 0, .int, .int⟩
/-- `coffe_find_integral(integral, 2, 2, ..)`, src/integrals.c:140-169. -/
def I22 (I : Ints) : Integral := I ⟨2, 2, .int, .int⟩
/-- `coffe_find_integral(integral, 3, 1, ..)`, src/integrals.c:140-169. -/
def I31 (I : Ints) : Integral := I ⟨3, 1, .int, .int⟩
/-- `coffe_find_integral(integral, 4, 0, ..)`, src/integrals.c:140-169. -/
def I40 (I : Ints) : Integral := I ⟨4, 0, .int, .int⟩
/-- `coffe_find_integral(integral, 1, -1, COFFE_HALF_INTEGER, COFFE_HALF_INTEGER)`. -/
def Ihalf (I : Ints) : Integral := I ⟨1, -1, .half, .half⟩
end Ints

/-- `COFFE_H0`, src/common.h:76 (H0 in units h/Mpc). -/
noncomputable def COFFE_H0 : ℝ := 1 / 2997.92458

/-- `gsl_sf_legendre_P1` (GSL; exact value). -/
noncomputable def legP1 (x : ℝ) : ℝ := x
/-- `gsl_sf_legendre_P2` (GSL; exact value). -/
noncomputable def legP2 (x : ℝ) : ℝ := (3 * x ^ 2 - 1) / 2
/-- `gsl_sf_legendre_P3` (GSL; exact value). -/
noncomputable def legP3 (x : ℝ) : ℝ := x * (5 * x ^ 2 - 3) / 2
/-- `gsl_sf_legendre_Pl(4, ·)` (GSL; exact value). -/
noncomputable def legP4 (x : ℝ) : ℝ := (35 * x ^ 4 - 30 * x ^ 2 + 3) / 8

end Coffe
