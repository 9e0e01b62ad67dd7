import Verif.Model.C.Covariance
import Verif.Model.Python.Compute

/-!
# Which spectrum the covariance of a Python object is computed from
-/

namespace Coffe

/-- The numerical procedures of the covariance: interpolation of a table (`coffe_init_spline`), integration between two
limits with one of the two methods and a precision (src/covariance.c:316-351, 817-841), Bessel functions, sine integral and the FFTLog transform of a table (357-470). -/
structure CovMethods where
  interp : Samples → ℝ → ℝ
  quad : Int1d → ℝ → ℝ → ℝ → (ℝ → ℝ) → ℝ
  bessel : ℕ → ℝ → ℝ
  Si : ℝ → ℝ
  fft : Samples → ℝ → ℝ → ℤ → Interp2d → ℕ → ℕ → ℕ → ℝ → ℝ → ℝ
  H0 : ℝ

/-- `have_class` of a Python object: cleared by `coffe_parse_default_parameters`, src/parser.c:749; no line of
python/coffe/coffe.pyx or coffe.pxd assigns it (only the settings file of the C program does, src/parser.c:1541). -/
def pyHaveClass : Bool := false

/-- The table of the spectrum for redshift number `r`, src/covariance.c:548-598: that of CLASS at `z_mean[r]` if `have_class` is
set and the spectrum type is not `LINEAR`, otherwise `par->power_spectrum`. -/
noncomputable def cov_spectrum (have_class : Bool) (pk_type : PkType) (class_pk : ℝ → Samples) (ps : Spectrum) (z_mean : List ℝ) (r : ℕ) :
    Samples :=
  if have_class = true ∧ pk_type ≠ .COFFE_PK_LINEAR then class_pk (z_mean.getD r 0) else ps

/-- First and last wave number, src/covariance.c:581-582, 588-589. -/
noncomputable def cov_range (have_class : Bool) (p : PyPar) (class_pk : ℝ → Samples) (r : ℕ) : ℝ × ℝ :=
  if have_class = true ∧ p.pk_type ≠ .COFFE_PK_LINEAR then
    (((class_pk (p.z_mean.getD r 0)).headD (0, 0)).1, ((class_pk (p.z_mean.getD r 0)).getLastD (0, 0)).1)
  else (p.k_min, p.k_max)

/-- The numbers entering the covariance of an object, src/covariance.c:548-645 (P(k) and P(k)² are both interpolated). FFTLog
always transforms `par->power_spectrum_norm`, the same table (715-745). -/
noncomputable def PyPar.covNum (M : CovMethods) (have_class : Bool) (class_pk : ℝ → Samples) (p : PyPar) (ps : Spectrum) : CovNum where
  quadK r := M.quad p.integration_1d_type p.integration_1d_prec (cov_range have_class p class_pk r).1 (cov_range have_class p class_pk r).2
  quadZ := M.quad p.integration_1d_type p.integration_1d_prec
  bessel := M.bessel
  Si := M.Si
  pk r := M.interp (cov_spectrum have_class p.pk_type class_pk ps p.z_mean r)
  pk2 r := M.interp ((cov_spectrum have_class p.pk_type class_pk ps p.z_mean r).map fun x => (x.1, x.2 ^ 2))
  fft := M.fft ps p.k_min p.k_max p.covariance_integration_bins p.covariance_interpolation_method
  H0 := M.H0

/-- The settings of an object as `coffe_covariance_init` sees them (`coffe_parameters_t`, filled by the setters of
python/coffe/coffe.pyx). -/
noncomputable def PyPar.covPar (akima : Samples → ℝ → ℝ) (p : PyPar) (average : Bool) : CovPar where
  z_mean := p.z_mean
  deltaz := p.deltaz
  zmin := p.z_min
  zmax := p.z_max
  multipole_values := p.l
  sep := p.sep
  density1 := p.density1
  density2 := p.density2
  fsky := p.fsky
  pixelsize := p.pixelsize
  pk_linear := p.pk_type == .COFFE_PK_LINEAR
  covariance_window := p.covariance_window
  covariance_cosmic := p.covariance_cosmic
  covariance_mixed := p.covariance_mixed
  covariance_poisson := p.covariance_poisson
  fftlog := p.covariance_integration_method == .fftlog
  pop1 := p.covariance_pop.1
  pop2 := p.covariance_pop.2.1
  pop3 := p.covariance_pop.2.2.1
  pop4 := p.covariance_pop.2.2.2
  den := p.contrib.den
  rsd := p.contrib.rsd
  galaxy_bias1 := akima p.bias.galaxy1
  galaxy_bias2 := akima p.bias.galaxy2
  galaxy_bias3 := akima p.bias.galaxy3
  galaxy_bias4 := akima p.bias.galaxy4
  h := p.h
  average := average

end Coffe
