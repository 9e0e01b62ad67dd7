import Verif.Model.C.Covariance
import Verif.Model.C.Twobessel
import Verif.Spec.Grid

/-!
# Specification of the covariance
-/

namespace Coffe
open Classical

/-- Number of redshifts (or redshift bins) of the requested covariance. -/
def CovPar.bins (p : CovPar) : ℕ := if p.average then p.zmin.length else p.z_mean.length

/-- The lists given by the user fit together: one density, sky fraction and pixel size per redshift, at least one
redshift, populations between 1 and 4. -/
structure CovPar.Matching (p : CovPar) : Prop where
  pos : 0 < p.bins
  density1 : p.density1.length = p.bins
  density2 : p.density2.length = p.bins
  fsky : p.fsky.length = p.bins
  pixelsize : p.pixelsize.length = p.bins
  zmax : p.average = true → p.zmax.length = p.bins
  deltaz : p.average = false → p.deltaz.length = p.bins
  pops : ∀ x ∈ [p.pop1, p.pop2, p.pop3, p.pop4], 1 ≤ x ∧ x ≤ 4

/-- What `compute_covariance_bulk` and `compute_average_covariance_bulk` verify before the computation
(python/coffe/coffe.pyx:1061-1080, 3444-3453, 3500-3510), together with the values the setter of the populations accepts
(2172-2192). -/
structure CovPar.Accepted (p : CovPar) : Prop where
  multipoles : p.multipole_values ≠ []
  sep : p.sep ≠ []
  z_mean : p.z_mean ≠ []
  density1 : p.density1.length = p.bins
  density2 : p.density2.length = p.bins
  fsky : p.fsky.length = p.bins
  pixelsize : p.pixelsize.length = p.bins
  deltaz : p.deltaz.length = p.bins
  zmax : p.average = true → p.zmax.length = p.bins
  pops : ∀ x ∈ [p.pop1, p.pop2, p.pop3, p.pop4], 1 ≤ x ∧ x ≤ 4

/-- The mean redshifts fit the bins, too (they are used when the spectrum is not the linear one). -/
def CovPar.MeanFits (p : CovPar) : Prop := p.pk_linear = true ∨ p.z_mean.length = p.bins

/-- The FFTLog values of the covariance are those of `covariance_integrate_fftlog` with `N` points between `kmin` and
`kmax`, for the spectrum `P`. -/
def CovNum.FFTLogOf (E : CovNum) (s : Spline2d) (P : ℝ → ℝ) (N : ℕ) (kmin kmax : ℝ) : Prop :=
  ∀ (power l1 l2 : ℕ) (x y : ℝ), ∃ b,
    covariance_integrate_fftlog s P power l1 l2 N (Buf.of (· < 2) fun i => if i = 0 then x else y) 2 kmin kmax (cmalloc (2 * 2)) = .ok b ∧
      b.val (2 * 1 + 0) = some (E.fft power l1 l2 x y)

/-- Mean redshift of bin `k`. -/
noncomputable def CovPar.zOf (p : CovPar) (k : ℕ) : ℝ :=
  if p.average then (p.zmin.getD k 0 + p.zmax.getD k 0) / 2 else p.z_mean.getD k 0

/-- Volume of bin `k` per unit of sky fraction. -/
noncomputable def CovPar.unitVolume (p : CovPar) (E : CovNum) (bg : Bg) (k : ℕ) : ℝ :=
  if p.average then
    4 * Real.pi / E.quadZ (p.zmin.getD k 0) (p.zmax.getD k 0)
      (fun z => 1 / bg.conformal_Hz z / bg.comoving_distance z ^ 2 / (1 + z)) / (E.H0 * p.h) ^ 2
  else
    4 * Real.pi * (bg.comoving_distance (p.z_mean.getD k 0 + p.deltaz.getD k 0) ^ 3
      - bg.comoving_distance (p.z_mean.getD k 0 - p.deltaz.getD k 0) ^ 3) / 3

/-- Galaxy bias of a population, zero without density contribution. -/
noncomputable def CovPar.biasOf (p : CovPar) (z : ℝ) (population : ℤ) : ℝ :=
  if p.den then
    (if population = 1 then p.galaxy_bias1 else if population = 2 then p.galaxy_bias2
      else if population = 3 then p.galaxy_bias3 else p.galaxy_bias4) z
  else 0

/-- Number of the spectrum used for bin `k`. -/
def CovPar.spectrum (p : CovPar) (k : ℕ) : ℕ := if p.pk_linear then 0 else k

/-- (2l₁+1)(2l₂+1) · 2/π² ∫ k² P(k) j_l₁(k s₁) j_l₂(k s₂) dk, the Bessel functions averaged over pixels if
requested (standard integration only); for `power = 2` with P² and half the prefactor.  The FFTLog method transforms
each pair of multipoles with the smaller one first. -/
noncomputable def CovPar.bessels (p : CovPar) (E : CovNum) (power k l1 : ℕ) (s1 : ℝ) (l2 : ℕ) (s2 : ℝ) : ℝ :=
  (2 * (l1 : ℝ) + 1) * (2 * l2 + 1) * (2 / power) / Real.pi ^ 2 *
    (if p.fftlog then (if l1 ≤ l2 then E.fft power l1 l2 s1 s2 else E.fft power l2 l1 s2 s1)
    else E.quadK (p.spectrum k) fun q =>
      q ^ 2 * (if power = 1 then E.pk else E.pk2) (p.spectrum k) q
        * windowed_bessel E s1 l1 q s1 (if p.covariance_window then p.pixelsize.getD (p.spectrum k) 0 else 0)
        * windowed_bessel E s2 l2 q s2 (if p.covariance_window then p.pixelsize.getD (p.spectrum k) 0 else 0))

/-- Shot noise of a pair of multipoles in bin `k`. -/
noncomputable def CovPar.poissonPart (p : CovPar) (k l1 : ℕ) (s1 : ℝ) (l2 : ℕ) (s2 : ℝ) : ℝ :=
  if l1 = l2 ∧ s1 = s2 then
    (2 * (l1 : ℝ) + 1) / (4 * Real.pi)
      * (kronecker_delta p.pop1 p.pop3 * kronecker_delta p.pop2 p.pop4
        + (-1) ^ l2 * kronecker_delta p.pop1 p.pop4 * kronecker_delta p.pop2 p.pop3)
      * (if p.covariance_window then
          3 / ((s1 + p.pixelsize.getD k 0 / 2) ^ 3 - (s1 - p.pixelsize.getD k 0 / 2) ^ 3)
        else 1 / (s1 ^ 2 * p.pixelsize.getD k 0))
      / (p.density1.getD k 0 * p.density2.getD k 0)
  else 0

/-- Product of cosmic variance and shot noise. -/
noncomputable def CovPar.mixedPart (p : CovPar) (E : CovNum) (bg : Bg) (k l1 : ℕ) (s1 : ℝ) (l2 : ℕ) (s2 : ℝ) : ℝ :=
  sign (((l2 : ℤ) - l1).tdiv 2) * sign (l1 + l2) * (if p.pk_linear then bg.D1 (p.zOf k) ^ 2 else 1)
    * p.bessels E 1 k l1 s1 l2 s2
    * coeff_mixed p (p.biasOf (p.zOf k) p.pop1) (p.biasOf (p.zOf k) p.pop2) (p.biasOf (p.zOf k) p.pop3)
        (p.biasOf (p.zOf k) p.pop4) (if p.rsd then bg.f (p.zOf k) else 0) (p.density1.getD k 0) (p.density2.getD k 0) l1 l2

/-- Cosmic variance. -/
noncomputable def CovPar.cosmicPart (p : CovPar) (E : CovNum) (bg : Bg) (k l1 : ℕ) (s1 : ℝ) (l2 : ℕ) (s2 : ℝ) : ℝ :=
  sign (((l2 : ℤ) - l1).tdiv 2) * (if p.pk_linear then bg.D1 (p.zOf k) ^ 4 else 1)
    * p.bessels E 2 k l1 s1 l2 s2
    * coeff_cosmic (p.biasOf (p.zOf k) p.pop1) (p.biasOf (p.zOf k) p.pop2) (p.biasOf (p.zOf k) p.pop3)
        (p.biasOf (p.zOf k) p.pop4) (if p.rsd then bg.f (p.zOf k) else 0) l1 l2

/-- The covariance of the multipole `l1` at separation `s1` with the multipole `l2` at separation `s2` in
redshift bin `k`. -/
noncomputable def CovPar.covariance (p : CovPar) (E : CovNum) (bg : Bg) (k l1 : ℕ) (s1 : ℝ) (l2 : ℕ) (s2 : ℝ) : ℝ :=
  ((if p.covariance_poisson then p.poissonPart k l1 s1 l2 s2 else 0)
    + (if p.covariance_mixed then p.mixedPart E bg k l1 s1 l2 s2 else 0)
    + (if p.covariance_cosmic then p.cosmicPart E bg k l1 s1 l2 s2 else 0))
  / (p.fsky.getD k 0 * p.unitVolume E bg k)

/-- Position of the combination `(k, i, m, j, n)` in lexicographic order. -/
def pos5 (L S k i m j n : ℕ) : ℕ := (((k * L + i) * S + m) * L + j) * S + n

/-- The result arrays have one row for each redshift bin `k < K`, multipoles `i, j < L` and separations `m, n < S`, in
the order `k, i, m, j, n`, with these coordinates and values, and no other rows. -/
def IsTable5 {κ : Type} (coords : Buf ℕ κ) (value : Buf ℕ ℝ) (K L S : ℕ) (c : ℕ → ℕ → ℕ → ℕ → ℕ → κ)
    (v : ℕ → ℕ → ℕ → ℕ → ℕ → ℝ) : Prop :=
  (∀ q, coords.dom q ↔ q < K * L * S * L * S) ∧ (∀ q, value.dom q ↔ q < K * L * S * L * S) ∧
  ∀ k < K, ∀ i < L, ∀ m < S, ∀ j < L, ∀ n < S,
    coords.val (pos5 L S k i m j n) = some (c k i m j n) ∧ value.val (pos5 L S k i m j n) = some (v k i m j n)

/-- Coordinates of row `(k, i, m, j, n)`. -/
noncomputable def CovPar.coords (p : CovPar) (k i m j n : ℕ) : CovCoord where
  z1 := if p.average then p.zmin.getD k 0 else p.z_mean.getD k 0
  z2 := if p.average then p.zmax.getD k 0 else p.z_mean.getD k 0
  l1 := p.multipole_values.getD i 0
  l2 := p.multipole_values.getD j 0
  sep1 := p.sep.getD m 0
  sep2 := p.sep.getD n 0

end Coffe
