import Verif.Spec.Ensemble
import Mathlib.Data.Fintype.Defs
import Mathlib.Data.Finset.Insert

/-!
# The effects on galaxy number counts

The response of the number counts to the density contrast, effect by effect, at linear order.  With the density contrast `δ`
the potential is `-(3/2) Ω H₀² δ / (a k²)`, the velocity away from the observer is `i f ℋ ν δ / k` (conservation of mass) and
minus its gradient along the line of sight, over `ℋ`, is `f ν² δ`.
-/

namespace Coffe

/-- The names of the effects. -/
inductive LocalEffect where
  | den
  | rsd
  | d1
  | d2
  | g1
  | g2
  | g3
deriving DecidableEq

instance : Fintype LocalEffect := ⟨{.den, .rsd, .d1, .d2, .g1, .g2, .g3}, fun A => by cases A <;> simp⟩

/-- What is known about the galaxies and the background at the place of a galaxy. -/
structure Sample where
  /-- galaxy bias -/
  b : ℝ
  /-- growth rate -/
  f : ℝ
  /-- conformal Hubble rate -/
  H : ℝ
  /-- amplitude of the Doppler effect -/
  G : ℝ
  /-- evolution bias -/
  e : ℝ
  /-- magnification bias -/
  s : ℝ
  /-- scale factor -/
  a : ℝ
  /-- growth factor -/
  D : ℝ

/-- The response of the potential to the density contrast. -/
noncomputable def potentialOf (H0 Ω a : ℝ) : ℝ := -(3 / 2 * Ω * H0 ^ 2 / a)

/-- The effects that depend on the fields at the place of the galaxy only: density, redshift-space distortion, Doppler effect
(`-G` times the velocity away from the observer), the change of the number density in the velocity potential, and the three
local effects of the potential. -/
noncomputable def localResponse (H0 Ω : ℝ) (g : Sample) : LocalEffect → Response
  | .den => ⟨g.b, 0, 0, 0⟩
  | .rsd => ⟨0, g.f, 0, 0⟩
  | .d1 => ⟨0, 0, -(g.f * g.H * g.G), 0⟩
  | .d2 => ⟨0, 0, 0, (3 - g.e) * g.f * g.H ^ 2⟩
  | .g1 => ⟨0, 0, 0, potentialOf H0 Ω g.a * (1 + g.G)⟩
  | .g2 => ⟨0, 0, 0, potentialOf H0 Ω g.a * (5 * g.s - 2)⟩
  | .g3 => ⟨0, 0, 0, potentialOf H0 Ω g.a * (g.f - 1)⟩

/-- The response to the density contrast today. -/
noncomputable def galaxyResponse (H0 Ω : ℝ) (g : Sample) (A : LocalEffect) : Response := (localResponse H0 Ω g A).scale g.D

/-- What the effects along the line of sight depend on, at a point of the line of sight. -/
structure Ray where
  /-- distance of the galaxy -/
  χ : ℝ
  /-- distance of the point, as a fraction of the distance of the galaxy -/
  x : ℝ
  /-- magnification bias at the galaxy -/
  s : ℝ
  /-- amplitude of the Doppler effect at the galaxy -/
  G : ℝ
  /-- growth rate at the point -/
  f : ℝ
  /-- conformal Hubble rate at the point -/
  H : ℝ
  /-- scale factor at the point -/
  a : ℝ
  /-- growth factor at the point -/
  D : ℝ

/-- Lensing: `-(2 - 5 s)` times half the integral of `(1 - x) / x` times the angular Laplacian of twice the potential
(`lensing_laplacian`). -/
noncomputable def lensingResponse (H0 Ω : ℝ) (g : Ray) : Response :=
  let L := potentialOf H0 Ω g.a * (2 - 5 * g.s) * g.χ * (1 - g.x)
  ⟨L * (g.x * g.χ), -(L * (g.x * g.χ)), 2 * L, 0⟩

/-- Time delay: `(2 - 5 s)` times the mean of twice the potential along the line of sight. -/
noncomputable def delayResponse (H0 Ω : ℝ) (g : Ray) : Response := ⟨0, 0, 0, 2 * potentialOf H0 Ω g.a * (2 - 5 * g.s)⟩

/-- Integrated Sachs-Wolfe effect: `G` times the integral of the rate of change of twice the potential. -/
noncomputable def sachsWolfeResponse (H0 Ω : ℝ) (g : Ray) : Response :=
  ⟨0, 0, 0, 2 * potentialOf H0 Ω g.a * g.G * g.χ * g.H * (g.f - 1)⟩

/-- The names of the effects along the line of sight. -/
inductive Along where
  | len
  | g4
  | g5
deriving DecidableEq

instance : Fintype Along := ⟨{.len, .g4, .g5}, fun A => by cases A <;> simp⟩

/-- What a point of the line of sight contributes to the effects. -/
noncomputable def alongResponse (H0 Ω : ℝ) (g : Ray) : Along → Response
  | .len => lensingResponse H0 Ω g
  | .g4 => delayResponse H0 Ω g
  | .g5 => sachsWolfeResponse H0 Ω g

/-- The same, as a response to the density contrast today. -/
noncomputable def lightResponse (H0 Ω : ℝ) (g : Ray) (A : Along) : Response := (alongResponse H0 Ω g A).scale g.D

/-- Two places at the distances `χ₁` and `χ₂` from the observer and `r` from each other, in a frame whose third axis is along
the separation. -/
def Places (r χ₁ χ₂ : ℝ) (X₁ X₂ : Place) : Prop :=
  ∃ p q : ℝ, X₁ = ⟨p, 0, q⟩ ∧ X₂ = ⟨p, 0, q + r⟩ ∧ X₁.radius = χ₁ ∧ X₂.radius = χ₂

end Coffe
