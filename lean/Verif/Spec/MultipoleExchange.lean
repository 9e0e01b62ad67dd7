import Verif.Spec.Exchange
import Verif.Spec.Scale
import Verif.Model.Signal.Dispatch
import Mathlib.Logic.Equiv.Basic

/-!
# Specification: symmetric quadrature, symmetric tables, identical populations
-/

namespace Coffe

/-- A quadrature rule with the symmetries of the cube: reversing an axis or exchanging two of them changes nothing (so it is
for the exact integral). -/
structure Quad.Symmetric (Q : Quad) : Prop where
  one : ∀ f : ℝ → ℝ, Q.one (fun x => f (1 - x)) = Q.one f
  reverse : ∀ (n i : ℕ), i < n → ∀ f : (ℕ → ℝ) → ℝ, Q.multi n (fun v => f (Function.update v i (1 - v i))) = Q.multi n f
  exchange : ∀ (n i j : ℕ), i < n → j < n → ∀ f : (ℕ → ℝ) → ℝ, Q.multi n (fun v => f (v ∘ Equiv.swap i j)) = Q.multi n f

/-- The table of renormalisations is symmetric in its two distances; the limit of coincident points, which is used for points
closer than `1e-6`, is the same for both of them. -/
structure Ints.Symmetric (I : Ints) (par : Par) (bg : Bg) (sep : ℝ) : Prop where
  apart : ∀ x y, I.I40.renormalization x y = I.I40.renormalization y x
  close : par.divergent = true → ∀ z mu x1 x2, (DoubleEnv.of par bg I z mu sep x1 x2).r2 ≤ (0.000001 : ℝ) ^ 2 →
    I.I40.renormalization_zero_separation (DoubleEnv.of par bg I z mu sep x1 x2).lambda1 =
      I.I40.renormalization_zero_separation (DoubleEnv.of par bg I z mu sep x1 x2).lambda2

/-- The two populations of a pair are the same: same biases, and the same Doppler amplitudes. -/
def SamePopulation (par : Par) (bg : Bg) : Prop :=
  par.galaxy_bias1 = par.galaxy_bias2 ∧ par.magnification_bias1 = par.magnification_bias2 ∧
    par.evolution_bias1 = par.evolution_bias2 ∧ bg.G1 = bg.G2

end Coffe
