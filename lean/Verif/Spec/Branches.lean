import Verif.Model.Signal.Types

/-!
# Radial pairs and smooth ingredients, for C18
-/

namespace Coffe

/-- Every spline the integrands of the lensing terms evaluate along the line of sight is continuous; the scale
factor does not vanish. -/
structure Smooth (bg : Bg) (I : Ints) : Prop where
  z_as_chi : Continuous bg.z_as_chi
  D1 : Continuous bg.D1
  a : Continuous bg.a
  a_ne : ∀ z, bg.a z ≠ 0
  result : ∀ k, Continuous (I k).result
  result2d : ∀ k, Continuous fun p : ℝ × ℝ => (I k).result2d p.1 p.2

/-- Both galaxies of the pair are on one line of sight, in front of the observer. -/
structure Radial (bg : Bg) (z mu r : ℝ) : Prop where
  dir : mu = 1 ∨ mu = -1
  pos : 0 < r
  front : r < 2 * bg.comoving_distance z

end Coffe
