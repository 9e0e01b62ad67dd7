import Verif.Spec.Python

/-! # Specification vocabulary: calls that compute -/

namespace Coffe

/-- The calls that compute something from the settings, with the value of their `recompute` argument (`false` for those
that do not have one). -/
def Op.computes : Op → Option Bool
  | .computeBulk _ re => some re
  | .computeCorrfunc _ _ _ re => some re
  | .computeMultipole _ _ _ re => some re
  | .integral _ _ _ => some false
  | .maximumSeparation _ _ => some false
  | .background _ _ => some false
  | .spectrum _ _ _ _ _ => some false
  | _ => none

/-- Settings of the survey and of the output: coordinates, bins, number densities, the covariance, and which of density,
redshift-space distortions and lensing are taken into account. -/
def surveySettings : List Name :=
  [.sep, .mu, .l, .z_mean, .deltaz, .z_min, .z_max, .number_density1, .number_density2, .pixelsize, .fsky,
   .covariance_populations, .covariance_cosmic, .covariance_mixed, .covariance_poisson,
   .covariance_integration_method, .covariance_integration_sampling, .covariance_interpolation_method,
   .has_binned_covariance, .has_only_cross_correlations, .has_density, .has_rsd, .has_lensing,
   .has_flatsky_local, .has_flatsky_local_nonlocal, .has_flatsky_nonlocal, .integration_sampling, .verbose]

/-- Calls that have nothing to do with the power spectrum: computing calls that reuse what is there, assignments of
settings of the survey, and the bias functions. -/
def Op.SparesSpectrum (op : Op) : Prop :=
  op.computes = some false ∨ (∃ n ∈ surveySettings, ∃ v, op = .setattr (.settable n) v) ∨ ∃ n x y, op = .setBias n x y

/-- The numerical libraries succeed: the background equations can be solved if there are enough redshifts to interpolate
(Akima splines need five), and CLASS runs. -/
structure Num.Total (N : Num) : Prop where
  background : ∀ v, (∃ b, N.background v = some b) ↔ 5 ≤ v.background_bins
  classRun : ∀ v, ∃ c, N.classRun v = some c

/-- The samples of a function can be interpolated: no samples at all (which raises an exception), or at least five,
strictly increasing. -/
def Interpolable (x : List ℝ) : Prop := x = [] ∨ (5 ≤ x.length ∧ x.Pairwise (· < ·))

/-- Enough samples of the background, and a separation if the "flat-sky nonlocal" terms are switched on and there are
redshifts. -/
def PyPar.BgFine (p : PyPar) : Prop :=
  5 ≤ p.background_bins ∧ (p.flatsky_nonlocal = true → p.z_mean ≠ [] → p.sep ≠ [])

/-- The sampling of the covariance is one FFTLog accepts. -/
def PyPar.EvenSampling (p : PyPar) : Prop :=
  p.covariance_integration_method = .fftlog →
    p.covariance_integration_bins ≠ 0 ∧ p.covariance_integration_bins % 2 = 0

/-- As many widths of the redshift bins as mean redshifts, if an effect that needs the divergent integral is on, or was on
when something was computed. -/
def PyPar.WidthsFine (p : PyPar) : Prop :=
  (p.divergent = true ∨ p.contrib.divergent = true) → p.z_mean.length ≤ p.deltaz.length

/-- A bulk computation is made with care: enough samples of the background, and
* enough widths of the redshift bins (`WidthsFine`) for the signal;
* as many upper as lower ends of the redshift bins for the redshift-averaged multipoles;
* an even sampling and redshift bins that end at or below redshift 15 for the covariances;
* as many mean redshifts as bins for the covariance of the redshift-averaged multipoles with a spectrum type other than
  `linear`. -/
def CarefulBulk (p : PyPar) : Bulk → Prop
  | .average => p.WidthsFine ∧ p.z_min.length ≤ p.z_max.length
  | .covariance => p.EvenSampling ∧ ∀ zd ∈ p.z_mean.zip p.deltaz, zd.1 + zd.2 ≤ 15
  | .averageCovariance => p.EvenSampling ∧ (∀ zz ∈ p.z_min.zip p.z_max, zz.2 ≤ 15) ∧
      (p.pk_type = .COFFE_PK_LINEAR ∨ p.z_min.length ≤ p.z_mean.length)
  | .corrfunc => p.WidthsFine
  | .multipoles => p.WidthsFine

/-- The call is made with care: bulk computations as in `CarefulBulk`; enough samples of the background (and a separation,
for the calls that do not check that there is one); enough widths of the redshift bins for the signal and `integral`; bias functions and spectra that can be interpolated; a spectrum is
uploaded only while the spectrum type is `linear` or after CLASS has run; no look-up beyond the end of the tables in the
state the call leaves. -/
def Careful (N : Num) (s : PyObj) : Op → Prop
  | .computeBulk b _ => 5 ≤ s.par.background_bins ∧ CarefulBulk s.par b
  | .computeCorrfunc _ _ _ _ => 5 ≤ s.par.background_bins ∧ s.par.WidthsFine
  | .computeMultipole _ _ _ _ => 5 ≤ s.par.background_bins ∧ s.par.WidthsFine
  | .integral r n l => s.par.BgFine ∧ s.par.WidthsFine ∧ ∀ e ∈ (exec N (.integral r n l) s).2.ints, r ≤ N.top e.val
  | .maximumSeparation z dz => s.par.BgFine ∧ z + dz ≤ 15
  | .background _ _ => s.par.BgFine
  | .spectrum two f k z1 z2 => s.par.BgFine ∧
      (∀ ps, (exec N (.spectrum two f k z1 z2) s).2.ps = some ps → ¬ ps.Outside k) ∧
      (two = true → s.par.pk_type = .COFFE_PK_LINEAR ∨
        ((exec N (.spectrum two f k z1 z2) s).2.pk2d = true ∧ z1 ≤ 2.97))
  | .setBias _ x _ => Interpolable x
  | .setPowerSpectrumLinear k _ => Interpolable k ∧ (s.par.pk_type = .COFFE_PK_LINEAR ∨ s.cls ≠ none)
  | _ => True

/-- Every call of the history is made with care in the state in which it is made. -/
def CarefulRun (N : Num) : List Op → PyObj → Prop
  | [], _ => True
  | op :: ops, s => Careful N s op ∧ CarefulRun N ops (exec N op s).2

end Coffe
