import Verif.Model.Signal.Dispatch

/-!
# Specification vocabulary: rescaling the input

`I.amp c` is the integral table of a power spectrum multiplied by `c` everywhere; `bg.growth c` is the
background with a growth factor normalised differently (multiplied by `c` at every redshift).
-/

namespace Coffe

/-- All integrals multiplied by `c`. -/
def Ints.amp (I : Ints) (c : ℝ) : Ints := fun k =>
  { result := fun r => c * (I k).result r
    result2d := fun z r => c * (I k).result2d z r
    renormalization := fun x y => c * (I k).renormalization x y
    renormalization_zero_separation := fun x => c * (I k).renormalization_zero_separation x }

/-- The growth factor multiplied by `c` at every redshift. -/
def Bg.growth (bg : Bg) (c : ℝ) : Bg := { bg with D1 := fun z => c * bg.D1 z }

/-- A quadrature rule that is homogeneous in the integrand (any fixed-node rule is). -/
structure Quad.Homogeneous (Q : Quad) : Prop where
  one : ∀ (c : ℝ) (f : ℝ → ℝ), Q.one (fun x => c * f x) = c * Q.one f
  multi : ∀ (n : ℕ) (c : ℝ) (f : (ℕ → ℝ) → ℝ), Q.multi n (fun x => c * f x) = c * Q.multi n f

end Coffe
