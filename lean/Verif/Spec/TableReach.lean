import Verif.Model.Signal.Types

/-! # Two sets of integrals that differ in the renormalisation only beyond a distance, for C78 -/

namespace Coffe

/-- The integrals are the same, except that the tables of the renormalisation may differ beyond the distance `X`. -/
structure SameBelow (X : ℝ) (I I' : Ints) : Prop where
  result : ∀ k, (I' k).result = (I k).result
  result2d : ∀ k, (I' k).result2d = (I k).result2d
  zero : ∀ k, (I' k).renormalization_zero_separation = (I k).renormalization_zero_separation
  below : ∀ k c d, 0 ≤ c → c ≤ X → 0 ≤ d → d ≤ X → (I' k).renormalization c d = (I k).renormalization c d

end Coffe
