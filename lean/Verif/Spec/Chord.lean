import Mathlib.Data.Real.Basic

/-! # The slopes between neighbouring samples, for C55 -/

namespace Coffe

/-- The slope of the straight line from sample `j` to sample `j + 1`. -/
noncomputable def chord (x y : List ℝ) (j : ℕ) : ℝ :=
  (y.getD (j + 1) 0 - y.getD j 0) / (x.getD (j + 1) 0 - x.getD j 0)

/-- Akima's derivative at a sample, from the slopes of the two segments before it and the two after it: the mean of the
adjacent slopes, each weighted with the change of slope on the other side. -/
noncomputable def akimaMean (m₁ m₂ m₃ m₄ : ℝ) : ℝ :=
  (|m₄ - m₃| * m₂ + |m₂ - m₁| * m₃) / (|m₄ - m₃| + |m₂ - m₁|)

end Coffe
