import Verif.Spec.Covariance
import Mathlib.MeasureTheory.Integral.Bochner.Basic

/-!
# Specification for C83: what a covariance matrix must satisfy
-/

namespace Coffe
open MeasureTheory

/-- The variance of every linear combination of the `L · S` measured numbers is non-negative. -/
def PositiveSemidefinite (L S : ℕ) (v : ℕ → ℕ → ℕ → ℕ → ℝ) : Prop :=
  ∀ w : ℕ → ℕ → ℝ, 0 ≤ ∑ i ∈ Finset.range L, ∑ m ∈ Finset.range S, ∑ j ∈ Finset.range L, ∑ n ∈ Finset.range S,
    w i m * w j n * v i m j n

/-- The variance of every linear combination with a coefficient other than zero is positive; the matrix can be inverted. -/
def PositiveDefinite (L S : ℕ) (v : ℕ → ℕ → ℕ → ℕ → ℝ) : Prop :=
  ∀ w : ℕ → ℕ → ℝ, (∃ i < L, ∃ m < S, w i m ≠ 0) →
    0 < ∑ i ∈ Finset.range L, ∑ m ∈ Finset.range S, ∑ j ∈ Finset.range L, ∑ n ∈ Finset.range S, w i m * w j n * v i m j n

/-- The width the Bessel functions are averaged over in bin `k`. -/
noncomputable def CovPar.width (p : CovPar) (k : ℕ) : ℝ := if p.covariance_window then p.pixelsize.getD (p.spectrum k) 0 else 0

/-- The quadrature in the wave number is an integral with non-negative weights (a rule with finitely many positive weights, or
the exact integral), the integrands of the covariance can be integrated, and the power spectra are not negative. -/
structure CovNum.Weighs (E : CovNum) (p : CovPar) (W : ℕ → Measure ℝ) : Prop where
  quad : ∀ r g, E.quadK r g = ∫ q, g q ∂(W r)
  pk : ∀ r q, 0 ≤ E.pk r q
  pk2 : ∀ r q, 0 ≤ E.pk2 r q
  int : ∀ k < p.bins, ∀ P ∈ [E.pk, E.pk2], ∀ l1 ∈ p.multipole_values, ∀ s1 ∈ p.sep, ∀ l2 ∈ p.multipole_values, ∀ s2 ∈ p.sep,
    Integrable (fun q => q ^ 2 * P (p.spectrum k) q * windowed_bessel E s1 l1 q s1 (p.width k) * windowed_bessel E s2 l2 q s2 (p.width k))
      (W (p.spectrum k))

/-- The survey has a volume, galaxies and pixels, and the covariance asked for is that of one measurement with itself. -/
structure CovPar.OneMeasurement (p : CovPar) (E : CovNum) (bg : Bg) : Prop where
  pop3 : p.pop3 = p.pop1
  pop4 : p.pop4 = p.pop2
  sep : ∀ s ∈ p.sep, 0 < s
  density1 : ∀ k < p.bins, 0 < p.density1.getD k 0
  density2 : ∀ k < p.bins, 0 < p.density2.getD k 0
  fsky : ∀ k < p.bins, 0 < p.fsky.getD k 0
  pixelsize : ∀ k < p.bins, 0 < p.pixelsize.getD k 0
  volume : ∀ k < p.bins, 0 < p.unitVolume E bg k

end Coffe
