import Verif.Spec.Bessel
import Verif.Spec.Covariance
import Verif.Model.Signal.Dispatch
import Mathlib.Analysis.Complex.Basic
import Mathlib.LinearAlgebra.BilinearMap

/-!
# The covariance of the multipoles of Gaussian fields

First for fields in a periodic box, where everything is a finite sum; then the same with the sum over wave vectors
replaced by an integral, for the spectra of the flat-sky density and redshift-space distortions.
-/

namespace Coffe
open Classical

/-- Random fields in a periodic box of volume `V`: the wave vectors `ι`, each with its length `k`, the cosine `mu` of its
angle to the line of sight and its opposite `neg`; the Fourier coefficients `δ` of the tracers (`δ A (neg i)` is the
complex conjugate of `δ A i`, as the fields are real), which are elements of an algebra of random variables; and
the expectation value `mean`. -/
structure Box (ι R : Type) [Fintype ι] [CommRing R] [Algebra ℂ R] where
  V : ℝ
  neg : ι → ι
  k : ι → ℝ
  mu : ι → ℝ
  neg_neg : ∀ i, neg (neg i) = i
  k_neg : ∀ i, k (neg i) = k i
  mu_neg : ∀ i, mu (neg i) = -mu i
  δ : ℤ → ι → R
  mean : R →ₗ[ℂ] ℂ

variable {ι R : Type} [Fintype ι] [CommRing R] [Algebra ℂ R]

/-- The fields are statistically homogeneous with spectra `P` (of two tracers, a length and a cosine), and their fourth
moments are those of Gaussian fields: the sum over the three ways to form pairs. -/
structure Box.Gaussian (b : Box ι R) (P : ℤ → ℤ → ℝ → ℝ → ℝ) : Prop where
  volume : b.V ≠ 0
  two : ∀ A B i j, b.mean (b.δ A i * b.δ B j) = if j = b.neg i then (b.V * P A B (b.k i) (b.mu i) : ℝ) else 0
  four : ∀ A B C D i j k l, b.mean (b.δ A i * b.δ B j * (b.δ C k * b.δ D l)) =
    b.mean (b.δ A i * b.δ B j) * b.mean (b.δ C k * b.δ D l) + b.mean (b.δ A i * b.δ C k) * b.mean (b.δ B j * b.δ D l)
      + b.mean (b.δ A i * b.δ D l) * b.mean (b.δ B j * b.δ C k)

/-- The multipole `l` at separation `s` of the measured correlation function of the tracers `A` and `B`.  The mean over the
box of `δ_A(x) δ_B(x + s)` is the sum over wave vectors of `δ_A(-k) δ_B(k) exp(i k·s) / V²`; the multipole of the
exponential is `i^l j_l(k s) P_l(mu)`. -/
noncomputable def Box.multipole (b : Box ι R) (A B : ℤ) (l : ℕ) (s : ℝ) : R :=
  ((2 * l + 1 : ℂ) * Complex.I ^ l / b.V ^ 2) •
    ∑ i, ((sphericalBessel l (b.k i * s) * legP l (b.mu i) : ℝ) : ℂ) • (b.δ A (b.neg i) * b.δ B i)

/-- The covariance of two random variables. -/
noncomputable def Box.cov (b : Box ι R) (X Y : R) : ℂ := b.mean (X * Y) - b.mean X * b.mean Y

/-! ## A survey -/

/-- What is observed in one redshift bin: biases and number densities of the tracers, the growth rate, the matter spectrum
between `kmin` and `kmax`, the volume, the (pixel averaged) Bessel functions `J l k s`, and the value `shell s` that stands
for the Dirac function of two separations in the same bin (divided by `s²`). -/
structure Survey where
  bias : ℤ → ℝ
  f : ℝ
  density : ℤ → ℝ
  P : ℝ → ℝ
  kmin : ℝ
  kmax : ℝ
  V : ℝ
  J : ℕ → ℝ → ℝ → ℝ
  shell : ℝ → ℝ

/-- The spectrum of the density contrasts of two tracers: density and redshift-space distortions. -/
noncomputable def Survey.signal (T : Survey) (A B : ℤ) (k mu : ℝ) : ℝ :=
  (T.bias A + T.f * mu ^ 2) * (T.bias B + T.f * mu ^ 2) * T.P k

/-- Shot noise. -/
noncomputable def Survey.noise (T : Survey) (A B : ℤ) : ℝ := if A = B then 1 / T.density A else 0

/-- The sum over wave vectors per volume, `∫ d³k / (2π)³`. -/
noncomputable def Survey.modes (T : Survey) (g : ℝ → ℝ → ℝ) : ℝ :=
  1 / (4 * Real.pi ^ 2) * ∫ k in T.kmin..T.kmax, k ^ 2 * ∫ mu in (-1 : ℝ)..1, g k mu

/-- `(2l₁+1) (2l₂+1) i^(l₁-l₂) / V` times the sum over the wave vectors of `j_l₁ j_l₂ P_l₁ P_l₂ X`. -/
noncomputable def Survey.pairs (T : Survey) (l1 : ℕ) (s1 : ℝ) (l2 : ℕ) (s2 : ℝ) (X : ℝ → ℝ → ℝ) : ℝ :=
  (2 * (l1 : ℝ) + 1) * (2 * l2 + 1) / T.V * (Complex.I ^ l1 * (-Complex.I) ^ l2).re
    * T.modes fun k mu => T.J l1 k s1 * T.J l2 k s2 * legP l1 mu * legP l2 mu * X k mu

/-- The covariance of the multipole `l1` at separation `s1` of the tracers `a`, `b` with the multipole `l2` at separation
`s2` of `c`, `d`, from the spectra `X` of all pairs of tracers. -/
noncomputable def Survey.gaussian (T : Survey) (X : ℤ → ℤ → ℝ → ℝ → ℝ) (a b c d : ℤ) (l1 : ℕ) (s1 : ℝ) (l2 : ℕ) (s2 : ℝ) : ℝ :=
  T.pairs l1 s1 l2 s2 fun k mu => X a c k mu * X b d k mu + (-1) ^ l2 * X a d k mu * X b c k mu

/-- Cosmic variance: signal times signal. -/
noncomputable def Survey.cosmic (T : Survey) (a b c d : ℤ) (l1 : ℕ) (s1 : ℝ) (l2 : ℕ) (s2 : ℝ) : ℝ :=
  T.gaussian T.signal a b c d l1 s1 l2 s2

/-- Signal times noise. -/
noncomputable def Survey.mixed (T : Survey) (a b c d : ℤ) (l1 : ℕ) (s1 : ℝ) (l2 : ℕ) (s2 : ℝ) : ℝ :=
  T.pairs l1 s1 l2 s2 fun k mu => T.signal a c k mu * T.noise b d + T.noise a c * T.signal b d k mu
    + (-1) ^ l2 * (T.signal a d k mu * T.noise b c + T.noise a d * T.signal b c k mu)

/-- Noise times noise.  The integral of `k² j_l(k s₁) j_l(k s₂)` is `π / 2` times the Dirac function of the separations, divided by
`s²`; that of `P_l²` is `2 / (2l+1)`. -/
noncomputable def Survey.poisson (T : Survey) (a b c d : ℤ) (l1 : ℕ) (s1 : ℝ) (l2 : ℕ) (s2 : ℝ) : ℝ :=
  if l1 = l2 ∧ s1 = s2 then
    (2 * (l1 : ℝ) + 1) / (4 * Real.pi * T.V) * T.shell s1 * (T.noise a c * T.noise b d + (-1) ^ l2 * T.noise a d * T.noise b c)
  else 0

/-- The survey that the settings describe, bin `k`: `number_density1` belongs to the first population and
`number_density2` to the second; the volume is that of the shell between the redshifts `z_mean - deltaz` and `z_mean +
deltaz`; a linear spectrum is that of redshift zero and grows as the square of the growth factor. -/
noncomputable def CovPar.survey (p : CovPar) (E : CovNum) (bg : Bg) (kmin kmax : ℕ → ℝ) (k : ℕ) : Survey where
  bias := p.biasOf (p.z_mean.getD k 0)
  f := if p.rsd then bg.f (p.z_mean.getD k 0) else 0
  density A := if A = 1 then p.density1.getD k 0 else p.density2.getD k 0
  P q := if p.pk_linear then bg.D1 (p.z_mean.getD k 0) ^ 2 * E.pk 0 q else E.pk k q
  kmin := kmin (p.spectrum k)
  kmax := kmax (p.spectrum k)
  V := p.fsky.getD k 0 * (4 * Real.pi / 3 * (bg.comoving_distance (p.z_mean.getD k 0 + p.deltaz.getD k 0) ^ 3
    - bg.comoving_distance (p.z_mean.getD k 0 - p.deltaz.getD k 0) ^ 3))
  J l q s := if p.covariance_window then shellMean l q s (p.pixelsize.getD k 0) else sphericalBessel l (q * s)
  shell s := if p.covariance_window then
      1 / ∫ r in (s - p.pixelsize.getD k 0 / 2)..(s + p.pixelsize.getD k 0 / 2), r ^ 2
    else 1 / (s ^ 2 * p.pixelsize.getD k 0)

/-- The numerical procedures are exact: quadratures over wavenumbers are integrals between `kmin` and `kmax`, special
functions have their values, the table of the squared spectrum holds the square of the spectrum. -/
structure CovNum.Exact (E : CovNum) (kmin kmax : ℕ → ℝ) : Prop where
  quad : ∀ r g, E.quadK r g = ∫ q in (kmin r)..(kmax r), g q
  range : ∀ r, 0 < kmin r ∧ kmin r ≤ kmax r
  bessel : ∀ l, ∀ x > 0, E.bessel l x = sphericalBessel l x
  Si : IsSineIntegral E.Si
  square : ∀ r q, E.pk2 r q = E.pk r q ^ 2

/-- The multipole `l` and the separation `s` are admissible in bin `k`: with pixel averaging, multipoles up to 6, shells
that do not contain the origin, and the first redshift unless there is a spectrum for each redshift. -/
structure CovPar.Admissible (p : CovPar) (k l : ℕ) (s : ℝ) : Prop where
  sep : 0 < s
  order : p.covariance_window = true → l ≤ 6
  pixel : p.covariance_window = true → 0 < p.pixelsize.getD k 0 ∧ p.pixelsize.getD k 0 / 2 < s
  first : p.covariance_window = true → k = 0 ∨ p.pk_linear = false

end Coffe
