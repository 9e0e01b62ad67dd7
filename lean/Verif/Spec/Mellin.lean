import Verif.Spec.Bessel
import Mathlib.Analysis.MellinTransform
import Mathlib.Analysis.SpecialFunctions.Gamma.Basic

/-!
# The Mellin transform of the spherical Bessel functions, for C80
-/

namespace Coffe
open Filter Topology

/-- The spherical Bessel function with a damping of its tail. -/
noncomputable def damped (l : ℕ) (ε : ℝ) (x : ℝ) : ℂ := ((sphericalBessel l x * Real.exp (-ε * x) : ℝ) : ℂ)

/-- `v` is the integral of `x ^ (z - 1) j_l(x)` over the positive axis.  The tail of the integrand oscillates; the integral
is the limit of the integrals with a damping that goes to zero. -/
def IsBesselMellin (l : ℕ) (z v : ℂ) : Prop := Tendsto (fun ε : ℝ => mellin (damped l ε) z) (𝓝[>] 0) (𝓝 v)

/-- The quotient of Gamma functions in the transform, with `G` in place of the Gamma function. -/
noncomputable def response (G : ℂ → ℂ) (l z : ℂ) : ℂ := (2 : ℂ) ^ z * (G ((l + z) / 2) / G ((3 + l - z) / 2))

/-- `G` is the Gamma function up to a relative error `δ` at `u`. -/
def GammaWithin (δ : ℝ) (G : ℂ → ℂ) (u : ℂ) : Prop := ‖G u - Complex.Gamma u‖ ≤ δ * ‖Complex.Gamma u‖

end Coffe
