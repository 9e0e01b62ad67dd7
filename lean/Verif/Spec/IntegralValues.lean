import Mathlib.MeasureTheory.Integral.IntervalIntegral.Basic
import Mathlib.Analysis.SpecialFunctions.Trigonometric.Sinc

/-!
# What the tables of the integrals are meant to contain
-/

namespace Coffe

/-- The integral itself, for the quadrature of the code. -/
noncomputable def exactQuad (f : ℝ → ℝ) (a b : ℝ) : ℝ := ∫ x in a..b, f x

/-- The correlation of the gravitational potential of two points at the distances `chi1` and `chi2` from the observer and at
the distance `r` from each other, renormalised so that the part that diverges for a long-wavelength spectrum is removed:
`(1 / 2π²) ∫ P(k) (j₀(k r) - j₀(k χ₁) j₀(k χ₂)) / k² dk`. -/
noncomputable def renormalised (P : ℝ → ℝ) (kmin kmax r chi1 chi2 : ℝ) : ℝ :=
  (∫ k in kmin..kmax, P k * (Real.sinc (k * r) - Real.sinc (k * chi1) * Real.sinc (k * chi2)) / k ^ 2)
    / (2 * Real.pi ^ 2)

/-- The same correlation for a point with itself. -/
noncomputable def coincidentPotential (P : ℝ → ℝ) (kmin kmax chi : ℝ) : ℝ :=
  (∫ k in kmin..kmax, P k * (1 - Real.sinc (k * chi) ^ 2) / k ^ 2) / (2 * Real.pi ^ 2)

end Coffe
