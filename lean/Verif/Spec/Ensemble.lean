import Mathlib.Analysis.SpecialFunctions.Complex.Circle
import Mathlib.Analysis.SpecialFunctions.Trigonometric.Sinc
import Mathlib.MeasureTheory.Integral.IntervalIntegral.Basic

/-!
# The two-point function as an ensemble average

The density field is a superposition of plane waves with independent phases and the spectrum `P`.  What is observed at a
place responds linearly to every wave.  The observer is at the origin.
-/

namespace Coffe
open ComplexConjugate

/-- A point of space, or a direction. -/
structure Place where
  x : ℝ
  y : ℝ
  z : ℝ

/-- The scalar product. -/
def Place.dot (u v : Place) : ℝ := u.x * v.x + u.y * v.y + u.z * v.z

/-- The distance from the observer. -/
noncomputable def Place.radius (u : Place) : ℝ := Real.sqrt (u.dot u)

/-- The direction with the cosine `μ` to the third axis and the azimuth `φ`. -/
noncomputable def direction (μ φ : ℝ) : Place :=
  ⟨Real.sqrt (1 - μ ^ 2) * Real.cos φ, Real.sqrt (1 - μ ^ 2) * Real.sin φ, μ⟩

/-- How an observable responds to a plane wave of the density contrast: proportionally to the density, to the gradient of
the velocity along the line of sight, to the velocity along the line of sight, to the potential. -/
structure Response where
  density : ℝ
  gradient : ℝ
  velocity : ℝ
  potential : ℝ

namespace Response

/-- The amplitude for a wave of the wave number `k` whose direction has the cosine `ν` to the line of sight. -/
noncomputable def amplitude (R : Response) (k ν : ℝ) : ℂ :=
  R.density + R.gradient * ν ^ 2 + Complex.I * R.velocity * ν / k + R.potential / k ^ 2

/-- The value of the observable at the place `X` in a wave of unit amplitude with the wave vector `k u`. -/
noncomputable def wave (R : Response) (X : Place) (k : ℝ) (u : Place) : ℂ :=
  R.amplitude k (u.dot X / X.radius) * Complex.exp (Complex.I * (k * u.dot X))

/-- The sum of two responses. -/
def add (R S : Response) : Response :=
  ⟨R.density + S.density, R.gradient + S.gradient, R.velocity + S.velocity, R.potential + S.potential⟩

/-- A multiple of a response. -/
def scale (c : ℝ) (R : Response) : Response := ⟨c * R.density, c * R.gradient, c * R.velocity, c * R.potential⟩

end Response

/-- The mean over all directions. -/
noncomputable def sphereMean (f : Place → ℂ) : ℂ :=
  (∫ μ in (-1 : ℝ)..1, ∫ φ in (0 : ℝ)..(2 * Real.pi), f (direction μ φ)) / (4 * Real.pi)

/-- The expected product of the observable `R₁` at `X₁` and the observable `R₂` at `X₂`, from waves between `kmin` and
`kmax`. -/
noncomputable def expectedProduct (P : ℝ → ℝ) (kmin kmax : ℝ) (R₁ : Response) (X₁ : Place) (R₂ : Response) (X₂ : Place) :
    ℂ :=
  (∫ k in kmin..kmax, k ^ 2 * P k * sphereMean fun u => R₁.wave X₁ k u * conj (R₂.wave X₂ k u)) / (2 * Real.pi ^ 2)

/-- The expected product of the means of the two potentials over the spheres around the observer through the two places.
It cannot be observed. -/
noncomputable def monopoleProduct (P : ℝ → ℝ) (kmin kmax : ℝ) (R₁ : Response) (X₁ : Place) (R₂ : Response) (X₂ : Place) :
    ℝ :=
  R₁.potential * R₂.potential
    * (∫ k in kmin..kmax, P k * (Real.sinc (k * X₁.radius) * Real.sinc (k * X₂.radius)) / k ^ 2) / (2 * Real.pi ^ 2)

/-- What the two-point function is meant to be: the expected product, without the monopole of the potentials. -/
noncomputable def twoPoint (P : ℝ → ℝ) (kmin kmax : ℝ) (R₁ : Response) (X₁ : Place) (R₂ : Response) (X₂ : Place) : ℂ :=
  expectedProduct P kmin kmax R₁ X₁ R₂ X₂ - monopoleProduct P kmin kmax R₁ X₁ R₂ X₂

end Coffe
