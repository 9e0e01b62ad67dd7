import Verif.Model.C.Covariance
import Mathlib.MeasureTheory.Integral.IntervalIntegral.Basic

/-!
# Spherical Bessel functions and their means over shells
-/

namespace Coffe

/-- The spherical Bessel function of order `l` (at positive arguments). -/
noncomputable def sphericalBessel : ℕ → ℝ → ℝ
  | 0, x => Real.sin x / x
  | 1, x => Real.sin x / x ^ 2 - Real.cos x / x
  | l + 2, x => (2 * (l : ℝ) + 3) / x * sphericalBessel (l + 1) x - sphericalBessel l x

/-- The sine integral (up to a constant). -/
def IsSineIntegral (Si : ℝ → ℝ) : Prop := ∀ x > 0, HasDerivAt Si (Real.sin x / x) x

/-- Mean over the volume of the shell between `s - d / 2` and `s + d / 2` of the spherical Bessel function of `k r`. -/
noncomputable def shellMean (l : ℕ) (k s d : ℝ) : ℝ :=
  (∫ r in (s - d / 2)..(s + d / 2), r ^ 2 * sphericalBessel l (k * r)) / ∫ r in (s - d / 2)..(s + d / 2), r ^ 2

end Coffe
