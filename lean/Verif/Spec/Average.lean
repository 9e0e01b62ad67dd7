import Verif.Model.Signal.Types
import Verif.Spec.Dispatch
import Verif.Spec.Scale
import Mathlib.Order.Interval.Set.Defs
import Mathlib.Data.Fin.Tuple.Basic

/-!
# Specification vocabulary: averaging over the redshifts of a survey

A pair of galaxies with separation `sep` and orientation `mu` centred at redshift `z` consists of galaxies at the
distances `chi(z) - sep mu / 2` and `chi(z) + sep mu / 2`.
-/

namespace Coffe

/-- On the survey the distance increases with redshift, and the redshift of a distance is its inverse. -/
structure Bg.Inverse (bg : Bg) (zmin zmax : ℝ) : Prop where
  mono : ∀ x ∈ Set.Icc zmin zmax, ∀ y ∈ Set.Icc zmin zmax, x < y → bg.comoving_distance x < bg.comoving_distance y
  back : ∀ c ∈ Set.Icc (bg.comoving_distance zmin) (bg.comoving_distance zmax),
    bg.z_as_chi c ∈ Set.Icc zmin zmax ∧ bg.comoving_distance (bg.z_as_chi c) = c

/-- Two inputs that agree at all redshifts of the survey: same settings and same distances, other functions of the
redshift may differ outside. -/
structure SameInside (zmin zmax : ℝ) (par par' : Par) (bg bg' : Bg) : Prop where
  settings : par' = { par with galaxy_bias1 := par'.galaxy_bias1, galaxy_bias2 := par'.galaxy_bias2, magnification_bias1 := par'.magnification_bias1, magnification_bias2 := par'.magnification_bias2, evolution_bias1 := par'.evolution_bias1, evolution_bias2 := par'.evolution_bias2 }
  distance : bg'.comoving_distance = bg.comoving_distance ∧ bg'.z_as_chi = bg.z_as_chi
  biases : ∀ z ∈ Set.Icc zmin zmax, par'.galaxy_bias1 z = par.galaxy_bias1 z ∧ par'.galaxy_bias2 z = par.galaxy_bias2 z ∧
    par'.magnification_bias1 z = par.magnification_bias1 z ∧ par'.magnification_bias2 z = par.magnification_bias2 z ∧
    par'.evolution_bias1 z = par.evolution_bias1 z ∧ par'.evolution_bias2 z = par.evolution_bias2 z
  background : ∀ z ∈ Set.Icc zmin zmax, bg'.f z = bg.f z ∧ bg'.conformal_Hz z = bg.conformal_Hz z ∧
    bg'.G1 z = bg.G1 z ∧ bg'.G2 z = bg.G2 z ∧ bg'.a z = bg.a z ∧ bg'.D1 z = bg.D1 z

/-- The expansion rate: the conformal rate is `H / (1 + z)`. -/
noncomputable def Bg.hubbleRate (bg : Bg) (z : ℝ) : ℝ := (1 + z) * bg.conformal_Hz z

/-- The smallest redshift at which a pair of any orientation fits into the survey. -/
noncomputable def firstCentre (bg : Bg) (zmin sep : ℝ) : ℝ := bg.z_as_chi (bg.comoving_distance zmin + sep / 2)
/-- The largest one. -/
noncomputable def lastCentre (bg : Bg) (zmax sep : ℝ) : ℝ := bg.z_as_chi (bg.comoving_distance zmax - sep / 2)

/-- `t` followed by the coordinates `v`. -/
def consCoord (t : ℝ) (v : ℕ → ℝ) : ℕ → ℝ
  | 0 => t
  | n + 1 => v n

/-- A quadrature rule on the cube that is the product of rules on the interval (as the exact integral is). -/
structure Quad.Product (Q : Quad) : Prop where
  first : ∀ g : (ℕ → ℝ) → ℝ, Q.multi 2 g = Q.one (fun t => Q.one (fun x => g (consCoord t fun _ => x)))
  step : ∀ (n : ℕ), 2 ≤ n → ∀ g : (ℕ → ℝ) → ℝ, Q.multi (n + 1) g = Q.one (fun t => Q.multi n (fun v => g (consCoord t v)))

end Coffe
