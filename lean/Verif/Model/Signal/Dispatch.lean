import Verif.Model.Signal.NonIntegrated
import Verif.Model.Signal.SingleIntegrated
import Verif.Model.Signal.DoubleIntegrated
import Mathlib.Data.Nat.Choose.Basic
import Mathlib.Algebra.BigOperators.Group.Finset.Basic

/-!
# Model of `src/signal.c`: which integrals make up one value of the signal

`coffe_integrate` (src/signal.c:472-771) and the integrands it passes to the quadrature routines
(src/signal.c:14-463), together with the two flat-sky multipole formulas it calls
(src/functions.c:4019-4253).

The quadrature routines themselves are an arbitrary `Quad`: nothing is assumed about them here, and
every theorem states what it needs of them.  Multipoles are natural numbers (the Python setter
rejects negative values, python/coffe/coffe.pyx `l.setter`).
-/

namespace Coffe
open Classical

/-- `gsl_sf_legendre_Pl(l, x)`: GSL evaluates the three-term recursion; exact value. -/
noncomputable def legP : ℕ → ℝ → ℝ
  | 0, _ => 1
  | 1, x => x
  | (n + 2), x => ((2 * n + 3) * x * legP (n + 1) x - (n + 1) * legP n x) / (n + 2)

/-- `enum coffe_integral_type`, src/signal.h. -/
inductive IntegralType where
  | NONINTEGRATED
  | SINGLE_INTEGRATED
  | DOUBLE_INTEGRATED
deriving DecidableEq, Repr

/-- The quadrature routines with their settings fixed.  `one g` is
`coffe_integrate_1d_prec_{gsl,double_exponential}(g, 0, 1, par->integration_1d_prec)`
(src/common.c:1004-1068, selected by `par->integration_1d_type`); `multi n g` is
`coffe_integrate_multidimensional(g, par->integration_method, n, par->integration_bins)`
(src/common.c:1074-1179) over the `n`-dimensional unit cube, the point being given by its
coordinates `var[0], var[1], ..`. -/
structure Quad where
  one : (ℝ → ℝ) → ℝ
  multi : ℕ → ((ℕ → ℝ) → ℝ) → ℝ

/-- `functions_flatsky_lensing_lensing_multipoles`, src/functions.c:4019-4132. -/
noncomputable def flatsky_len_len_multipoles (par : Par) (bg : Bg) (I : Ints)
    (z_mean sep : ℝ) (l : ℕ) (x : ℝ) : ℝ :=
  let chi_mean := bg.comoving_distance z_mean
  let lambda := chi_mean * x
  let sz_mean1 := par.magnification_bias1 z_mean
  let sz_mean2 := par.magnification_bias2 z_mean
  let result : ℝ :=
    if par.pk_type ≠ .COFFE_PK_LINEAR ∧ par.midpoint_approximation then
      (2 * l + 1) * (l.factorial : ℝ) / 2 ^ l / ((l / 2).factorial : ℝ) ^ 2
      * 9 * (par.Omega0_cdm + par.Omega0_baryon) ^ 2
      * (2 - 5 * sz_mean1) * (2 - 5 * sz_mean2) * chi_mean ^ 3 / 8 / Real.pi
      * (I ⟨1, l, .int, .int⟩).result2d (bg.z_as_chi lambda) (x * sep)
      * (1 + bg.z_as_chi lambda) ^ 2 * (x * (1 - x)) ^ 2
    else
      (2 * l + 1) * (l.factorial : ℝ) / 2 ^ l / ((l / 2).factorial : ℝ) ^ 2
      * 9 * (par.Omega0_cdm + par.Omega0_baryon) ^ 2
      * (2 - 5 * sz_mean1) * (2 - 5 * sz_mean2) * chi_mean ^ 3 / 8 / Real.pi
      * (I ⟨1, l, .int, .int⟩).result (x * sep)
      * (bg.D1 (bg.z_as_chi lambda)) ^ 2
      * (1 + bg.z_as_chi lambda) ^ 2 * (x * (1 - x)) ^ 2
  if l > 0 then result * x * sep * (COFFE_H0 * par.h) ^ 4
  else result * (COFFE_H0 * par.h) ^ 4

/-- Key of the half-integer integral used in step `k` of the density-lensing multipole of order `l`,
src/functions.c:4184-4190 and 4219-4225 (`l - 2*k + 3`, `l - 2*k + 1`). -/
def flatsky_den_len_key (l k : ℕ) : Key := ⟨(l : Int) - 2 * k + 3, (l : Int) - 2 * k + 1, .half, .half⟩

/-- `functions_flatsky_density_lensing_multipoles`, src/functions.c:4136-4253. -/
noncomputable def flatsky_den_len_multipoles (par : Par) (bg : Bg) (I : Ints)
    (z_mean sep : ℝ) (l : ℕ) : ℝ :=
  let sz_mean1 := par.magnification_bias1 z_mean
  let sz_mean2 := par.magnification_bias2 z_mean
  let bz_mean1 := par.galaxy_bias1 z_mean
  let bz_mean2 := par.galaxy_bias2 z_mean
  let result : ℝ :=
    if par.pk_type ≠ .COFFE_PK_LINEAR ∧ par.midpoint_approximation then
      if l % 2 = 0 then
        (∑ k ∈ Finset.range (l / 2 + 1),
          (-1) ^ k / 2 ^ k * (l.choose k : ℝ) * ((2 * l - 2 * k).choose l : ℝ)
          * ((l / 2 - k).factorial : ℝ) * (I (flatsky_den_len_key l k)).result2d z_mean sep)
        * ((-3) * (par.Omega0_cdm + par.Omega0_baryon) / Real.pi / 8 * (2 * l + 1)
           * (1 + z_mean) * sep
           * ((2 - 5 * sz_mean1) * bz_mean2 + (2 - 5 * sz_mean2) * bz_mean1)
           * (2 : ℝ) ^ (1 - ((l / 2 : ℕ) : ℤ)))
      else 0
    else
      if l % 2 = 0 then
        (∑ k ∈ Finset.range (l / 2 + 1),
          (-1) ^ k / 2 ^ k * (l.choose k : ℝ) * ((2 * l - 2 * k).choose l : ℝ)
          * ((l / 2 - k).factorial : ℝ) * (I (flatsky_den_len_key l k)).result sep)
        * ((-3) * (par.Omega0_cdm + par.Omega0_baryon) / Real.pi / 8 * (2 * l + 1)
           * bg.D1 z_mean * bg.D1 z_mean * (1 + z_mean) * sep
           * ((2 - 5 * sz_mean1) * bz_mean2 + (2 - 5 * sz_mean2) * bz_mean1)
           * (2 : ℝ) ^ (1 - ((l / 2 : ℕ) : ℤ)))
      else 0
  result / Real.sqrt (2 * Real.pi) * (COFFE_H0 * par.h) ^ 2

/-- The Legendre weight of the multipole integrands: `1` when `l == 0`, `gsl_sf_legendre_Pl(l, mu)`
otherwise (src/signal.c:98-110, 161-173, 211-223, 277-293, 354-370, 429-445). -/
noncomputable def legWeight (l : ℕ) (mu : ℝ) : ℝ := if l = 0 then 1 else legP l mu

/-- `multipoles_nonintegrated_integrand`, src/signal.c:83-111. -/
noncomputable def multipoles_nonintegrated_integrand (par : Par) (bg : Bg) (I : Ints)
    (z_mean sep : ℝ) (l : ℕ) (x : ℝ) : ℝ :=
  functions_nonintegrated par bg I z_mean (2 * x - 1) sep * legWeight l (2 * x - 1)

/-- `multipoles_single_integrated_integrand`, src/signal.c:140-187. -/
noncomputable def multipoles_single_integrated_integrand (par : Par) (bg : Bg) (I : Ints)
    (z_mean sep : ℝ) (l : ℕ) (var : ℕ → ℝ) : ℝ :=
  functions_single_integrated par bg I z_mean (2 * var 0 - 1) sep (var 1)
    * legWeight l (2 * var 0 - 1)

/-- `multipoles_double_integrated_integrand`, src/signal.c:190-237. -/
noncomputable def multipoles_double_integrated_integrand (par : Par) (bg : Bg) (I : Ints)
    (z_mean sep : ℝ) (l : ℕ) (var : ℕ → ℝ) : ℝ :=
  functions_double_integrated par bg I z_mean (2 * var 0 - 1) sep (var 1) (var 2)
    * legWeight l (2 * var 0 - 1)

/-- Redshift sampled by the redshift-averaged integrands, src/signal.c:262-273. -/
noncomputable def average_z (bg : Bg) (z_min z_max sep : ℝ) (t : ℝ) : ℝ :=
  let z1 := bg.z_as_chi (bg.comoving_distance z_min + sep / 2)
  let z2 := bg.z_as_chi (bg.comoving_distance z_max - sep / 2)
  (z2 - z1) * t + z1

/-- The redshift weight of the averaged integrands, src/signal.c:281-282. -/
noncomputable def average_weight (par : Par) (bg : Bg) (z : ℝ) : ℝ :=
  1 / bg.conformal_Hz z / (1 + z) * (COFFE_H0 * par.h)

/-- `average_multipoles_nonintegrated_integrand`, src/signal.c:242-311. -/
noncomputable def average_nonintegrated_integrand (par : Par) (bg : Bg) (I : Ints)
    (z_min z_max sep : ℝ) (l : ℕ) (var : ℕ → ℝ) : ℝ :=
  let z := average_z bg z_min z_max sep (var 0)
  functions_nonintegrated par bg I z (2 * var 1 - 1) sep * legWeight l (2 * var 1 - 1)
    * average_weight par bg z

/-- `average_multipoles_single_integrated_integrand`, src/signal.c:318-388. -/
noncomputable def average_single_integrated_integrand (par : Par) (bg : Bg) (I : Ints)
    (z_min z_max sep : ℝ) (l : ℕ) (var : ℕ → ℝ) : ℝ :=
  let z := average_z bg z_min z_max sep (var 0)
  functions_single_integrated par bg I z (2 * var 1 - 1) sep (var 2) * legWeight l (2 * var 1 - 1)
    * average_weight par bg z

/-- `average_multipoles_double_integrated_integrand`, src/signal.c:393-463. -/
noncomputable def average_double_integrated_integrand (par : Par) (bg : Bg) (I : Ints)
    (z_min z_max sep : ℝ) (l : ℕ) (var : ℕ → ℝ) : ℝ :=
  let z := average_z bg z_min z_max sep (var 0)
  functions_double_integrated par bg I z (2 * var 1 - 1) sep (var 2) (var 3)
    * legWeight l (2 * var 1 - 1) * average_weight par bg z

/-- Gate of the NONINTEGRATED case, src/signal.c:501-511. -/
def non_gate (c : Contrib) : Bool := c.den || c.rsd || c.d1 || c.d2 || c.g1 || c.g2 || c.g3

/-- Gate of the SINGLE_INTEGRATED case, src/signal.c:557-581. -/
def single_gate (c : Contrib) : Bool :=
  (c.len && c.den) || (c.len && c.rsd) || (c.len && c.d1) || (c.len && c.d2) || (c.len && c.g1)
  || (c.len && c.g2) || (c.len && c.g3)
  || (c.g4 && c.den) || (c.g4 && c.rsd) || (c.g4 && c.d1) || (c.g4 && c.d2) || (c.g4 && c.g1)
  || (c.g4 && c.g2) || (c.g4 && c.g3)
  || (c.g5 && c.den) || (c.g5 && c.rsd) || (c.g5 && c.d1) || (c.g5 && c.d2) || (c.g5 && c.g1)
  || (c.g5 && c.g2) || (c.g5 && c.g3)

/-- Condition for the flat-sky density|RSD|d1-lensing special case, src/signal.c:610-618. -/
def single_flat_gate (par : Par) : Bool :=
  let c := par.correlation_contrib
  (c.den || c.rsd || c.d1) && c.len && par.flatsky_local_nonlocal

/-- Condition for the two-dimensional integral of the MULTIPOLES case, src/signal.c:632-660. -/
def single_multi_gate (par : Par) : Bool :=
  let c := par.correlation_contrib
  (c.len && c.d2) || (c.len && c.g1) || (c.len && c.g2) || (c.len && c.g3)
  || (c.g4 && c.den) || (c.g4 && c.rsd) || (c.g4 && c.d1) || (c.g4 && c.d2) || (c.g4 && c.g1)
  || (c.g4 && c.g2) || (c.g4 && c.g3)
  || (c.g5 && c.den) || (c.g5 && c.rsd) || (c.g5 && c.d1) || (c.g5 && c.d2) || (c.g5 && c.g1)
  || (c.g5 && c.g2) || (c.g5 && c.g3)
  || ((c.den || c.rsd || c.d1) && c.len && !par.flatsky_local_nonlocal)

/-- Gate of the DOUBLE_INTEGRATED case, src/signal.c:686-692. -/
def double_gate (c : Contrib) : Bool := c.len || c.g4 || c.g5

/-- Condition for the flat-sky lensing-lensing special case, src/signal.c:707-713. -/
def double_flat_gate (par : Par) (l : ℕ) : Bool :=
  par.correlation_contrib.len && par.flatsky_nonlocal && !par.only_cross_correlations
  && l % 2 == 0

/-- Condition for the three-dimensional integral of the MULTIPOLES case, src/signal.c:737-744. -/
def double_multi_gate (par : Par) : Bool :=
  par.correlation_contrib.g4 || par.correlation_contrib.g5
  || (par.correlation_contrib.len && !par.flatsky_nonlocal)

/-- Case `NONINTEGRATED` of `coffe_integrate` after its gate, src/signal.c:513-554. -/
noncomputable def integrate_non (Q : Quad) (par : Par) (bg : Bg) (I : Ints)
    (z_mean z_min z_max sep mu : ℝ) (l : ℕ) (out : OutputType) : ℝ :=
  match out with
  | .CORRFUNC => functions_nonintegrated par bg I z_mean mu sep
  | .MULTIPOLES =>
      (2 * l + 1) * Q.one (multipoles_nonintegrated_integrand par bg I z_mean sep l)
  | .AVERAGE_MULTIPOLES =>
      (2 * l + 1) * Q.multi 2 (average_nonintegrated_integrand par bg I z_min z_max sep l)
  | .COVARIANCE_MULTIPOLES => 0
  | .COVARIANCE_AVERAGE_MULTIPOLES => 0

/-- Case `SINGLE_INTEGRATED` of `coffe_integrate` after its gate, src/signal.c:583-683. -/
noncomputable def integrate_single (Q : Quad) (par : Par) (bg : Bg) (I : Ints)
    (z_mean z_min z_max sep mu : ℝ) (l : ℕ) (out : OutputType) : ℝ :=
  match out with
  | .CORRFUNC => Q.one (fun x => functions_single_integrated par bg I z_mean mu sep x)
  | .MULTIPOLES =>
      (if single_flat_gate par then
        (if par.correlation_contrib.den then
          2 * Real.pi * Real.pi * flatsky_den_len_multipoles par bg I z_mean sep l else 0)
       else 0)
      + (if single_multi_gate par then
          (2 * l + 1) * Q.multi 2 (multipoles_single_integrated_integrand par bg I z_mean sep l)
         else 0)
  | .AVERAGE_MULTIPOLES =>
      (2 * l + 1)
      * Q.multi 3 (average_single_integrated_integrand par bg I z_min z_max sep l)
  | .COVARIANCE_MULTIPOLES => 0
  | .COVARIANCE_AVERAGE_MULTIPOLES => 0

/-- Case `DOUBLE_INTEGRATED` of `coffe_integrate` after its gate, src/signal.c:694-766. -/
noncomputable def integrate_double (Q : Quad) (par : Par) (bg : Bg) (I : Ints)
    (z_mean z_min z_max sep mu : ℝ) (l : ℕ) (out : OutputType) : ℝ :=
  match out with
  | .CORRFUNC =>
      Q.multi 2 (fun v => functions_double_integrated par bg I z_mean mu sep (v 0) (v 1))
  | .MULTIPOLES =>
      (if double_flat_gate par l then
        2 * Real.pi * Real.pi
        * Q.one (fun x => flatsky_len_len_multipoles par bg I z_mean sep l x)
       else 0)
      + (if double_multi_gate par then
          (2 * l + 1) * Q.multi 3 (multipoles_double_integrated_integrand par bg I z_mean sep l)
         else 0)
  | .AVERAGE_MULTIPOLES =>
      (2 * l + 1)
      * Q.multi 4 (average_double_integrated_integrand par bg I z_min z_max sep l)
  | .COVARIANCE_MULTIPOLES => 0
  | .COVARIANCE_AVERAGE_MULTIPOLES => 0

/-- `coffe_integrate`, src/signal.c:472-771. -/
noncomputable def coffe_integrate (Q : Quad) (par : Par) (bg : Bg) (I : Ints)
    (z_mean z_min z_max sep mu : ℝ) (l : ℕ) (ty : IntegralType) (out : OutputType) : ℝ :=
  match ty with
  | .NONINTEGRATED =>
      if non_gate par.correlation_contrib then
        integrate_non Q par bg I z_mean z_min z_max sep mu l out else 0
  | .SINGLE_INTEGRATED =>
      if single_gate par.correlation_contrib then
        integrate_single Q par bg I z_mean z_min z_max sep mu l out else 0
  | .DOUBLE_INTEGRATED =>
      if double_gate par.correlation_contrib then
        integrate_double Q par bg I z_mean z_min z_max sep mu l out else 0

/-- The value computed for one grid point: the sum of the three `coffe_integrate` calls in
`coffe_corrfunc_init` (src/corrfunc.c), `coffe_multipoles_init` (src/multipoles.c) and
`coffe_average_multipoles_init` (src/average_multipoles.c). -/
noncomputable def signal_value (Q : Quad) (par : Par) (bg : Bg) (I : Ints)
    (z_mean z_min z_max sep mu : ℝ) (l : ℕ) (out : OutputType) : ℝ :=
  coffe_integrate Q par bg I z_mean z_min z_max sep mu l .NONINTEGRATED out
  + coffe_integrate Q par bg I z_mean z_min z_max sep mu l .SINGLE_INTEGRATED out
  + coffe_integrate Q par bg I z_mean z_min z_max sep mu l .DOUBLE_INTEGRATED out

end Coffe
