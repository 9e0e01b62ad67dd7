import Verif.Model.C.Mem
import Mathlib.Data.Real.Basic

/-! # Specification: extrapolation of samples -/

namespace Coffe

/-- Samples `f 0, …, f (N-1)` continued as a straight line on both sides. -/
noncomputable def linExtend (f : ℤ → ℝ) (N : ℤ) (k : ℤ) : ℝ :=
  if k < 0 then f 0 + k * (f 1 - f 0)
  else if k < N then f k
  else f (N - 1) + (k - N + 1) * (f (N - 1) - f (N - 2))

/-- Samples continued as a geometric progression on both sides (a straight line in the logarithm). -/
noncomputable def geomExtend (f : ℤ → ℝ) (N : ℤ) (k : ℤ) : ℝ :=
  if k < 0 then f 0 * (f 1 / f 0) ^ k
  else if k < N then f k
  else f (N - 1) * (f (N - 1) / f (N - 2)) ^ (k - N + 1)

/-- Samples continued by zeros. -/
noncomputable def zeroExtend (f : ℤ → ℤ → ℝ) (N : ℤ) (i j : ℤ) : ℝ :=
  if 0 ≤ i ∧ i < N ∧ 0 ≤ j ∧ j < N then f i j else 0

end Coffe
