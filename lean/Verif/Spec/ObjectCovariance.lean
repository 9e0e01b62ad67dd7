import Verif.Model.C.CovSpectrum
import Verif.Spec.Covariance

/-!
# Specification for C84: the covariance of an object
-/

namespace Coffe

/-- The middle of the redshift bins. -/
noncomputable def PyPar.middles (p : PyPar) : List ℝ := (p.z_min.zip p.z_max).map fun zz => (zz.1 + zz.2) / 2

/-- The covariance stage of the object is the computation of src/covariance.c with the numerical procedures `M`: the number for a
redshift is the covariance of the bin with this redshift (distinct redshifts). -/
structure Num.CovBy (N : Num) (M : CovMethods) (cls : ℝ → Samples) : Prop where
  mean : ∀ (p : PyPar) (ps : Spectrum) (b : Bg) (k : ℕ), k < p.z_mean.length → p.z_mean.Nodup → ∀ (r1 r2 : ℝ) (l1 l2 : ℕ),
    N.cov (p.covView ps false) b (p.z_mean.getD k 0) r1 r2 l1 l2
      = (p.covPar N.akima false).covariance (p.covNum M pyHaveClass cls ps) b k l1 r1 l2 r2
  average : ∀ (p : PyPar) (ps : Spectrum) (b : Bg) (k : ℕ), k < p.middles.length → p.middles.Nodup → ∀ (r1 r2 : ℝ) (l1 l2 : ℕ),
    N.cov (p.covView ps true) b (p.middles.getD k 0) r1 r2 l1 l2
      = (p.covPar N.akima true).covariance (p.covNum M pyHaveClass cls ps) b k l1 r1 l2 r2

/-- The settings recovered from what the covariance stage is given. -/
noncomputable def CovView.covPar (akima : Samples → ℝ → ℝ) (v : CovView) : CovPar where
  z_mean := v.z_mean
  deltaz := v.deltaz
  zmin := v.z_min
  zmax := v.z_max
  multipole_values := v.l
  sep := v.sep
  density1 := v.density1
  density2 := v.density2
  fsky := v.fsky
  pixelsize := v.pixelsize
  pk_linear := v.pk_type == .COFFE_PK_LINEAR
  covariance_window := v.window
  covariance_cosmic := v.cosmic
  covariance_mixed := v.mixed
  covariance_poisson := v.poisson
  fftlog := v.method == .fftlog
  pop1 := v.pop.1
  pop2 := v.pop.2.1
  pop3 := v.pop.2.2.1
  pop4 := v.pop.2.2.2
  den := v.den
  rsd := v.rsd
  galaxy_bias1 := akima v.galaxy1
  galaxy_bias2 := akima v.galaxy2
  galaxy_bias3 := akima v.galaxy3
  galaxy_bias4 := akima v.galaxy4
  h := v.h
  average := v.average

/-- The numbers recovered from what the covariance stage is given. -/
noncomputable def CovView.covNum (M : CovMethods) (v : CovView) : CovNum where
  quadK _ := M.quad v.integration_1d_type v.integration_1d_prec v.k_min v.k_max
  quadZ := M.quad v.integration_1d_type v.integration_1d_prec
  bessel := M.bessel
  Si := M.Si
  pk _ := M.interp v.spectrum
  pk2 _ := M.interp (v.spectrum.map fun x => (x.1, x.2 ^ 2))
  fft := M.fft v.spectrum v.k_min v.k_max v.bins v.interp
  H0 := M.H0

open Classical in
/-- The stage of `N` with the covariance computed from what it is given. -/
noncomputable def Num.withCov (N : Num) (M : CovMethods) : Num :=
  { N with
    cov := fun v b z r1 r2 l1 l2 => (v.covPar N.akima).covariance (v.covNum M) b
      (if v.average then ((v.z_min.zip v.z_max).map fun zz => (zz.1 + zz.2) / 2).idxOf z else v.z_mean.idxOf z) l1 r1 l2 r2 }

end Coffe
