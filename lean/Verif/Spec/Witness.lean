import Verif.Model.Signal.Types

/-!
# Concrete configurations used as witnesses

Simple but non-trivial cosmologies and parameter sets, used in the non-vacuity examples and in the
counterexamples.  Nothing in the property statements depends on this file.
-/

namespace Coffe

/-- No contribution switched on. -/
def Contrib.none : Contrib := ⟨false, false, false, false, false, false, false, false, false, false⟩

/-- A parameter set with two different populations; contributions and flags are to be overridden. -/
noncomputable def wPar : Par where
  correlation_contrib := Contrib.none
  only_cross_correlations := false
  flatsky_local := false
  flatsky_local_nonlocal := false
  flatsky_nonlocal := false
  divergent := false
  output_type := .MULTIPOLES
  pk_type := .COFFE_PK_LINEAR
  midpoint_approximation := false
  b_derivative := false
  f_derivative := false
  b_tilde_derivative := false
  f_tilde_derivative := false
  Omega0_cdm := 1 / 4
  Omega0_baryon := 3 / 4
  h := 1
  galaxy_bias1 := fun _ => 1
  galaxy_bias2 := fun _ => 2
  magnification_bias1 := fun _ => 0
  magnification_bias2 := fun _ => 0
  evolution_bias1 := fun _ => 0
  evolution_bias2 := fun _ => 0

/-- A toy background: distance equals redshift, everything else constant, `G1 = 1`, `G2 = 0`. -/
noncomputable def wBg : Bg where
  comoving_distance := fun z => z
  z_as_chi := fun c => c
  f := fun _ => 1
  conformal_Hz := fun _ => 1
  G1 := fun _ => 1
  G2 := fun _ => 0
  a := fun _ => 1
  D1 := fun _ => 1

/-- The zero integral. -/
noncomputable def wZero : Integral := ⟨fun _ => 0, fun _ _ => 0, fun _ _ => 0, fun _ => 0⟩

/-- The constant integral with value `c` (and zero renormalisation). -/
noncomputable def wConst (c : ℝ) : Integral := ⟨fun _ => c, fun _ _ => c, fun _ _ => 0, fun _ => 0⟩

/-- Only the integral with key `k` is non-zero, with constant value 1. -/
noncomputable def wOnly (k : Key) : Ints := fun k' => if k' = k then wConst 1 else wZero

end Coffe
