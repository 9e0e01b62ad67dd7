import Verif.Model.C.Tanhsinh
import Mathlib.Algebra.BigOperators.Intervals

/-!
# What the double-exponential integrator should compute

The trapezoidal rule of level `k` on `[-1, 1]`, after the change of variables: the nodes and weights of the first
`k + 1` layers, with step `2^(-k)`.
-/

namespace Coffe
open Finset

/-- Number of nodes `x ≥ 0` in the layers `0, …, k`. -/
def tsCount : ℕ → ℕ
  | 0 => 4
  | k + 1 => 2 * tsCount k - 1

/-- `i`-th node. -/
noncomputable def tsNode (i : ℕ) : ℝ := (ts_nodes.getD i (0, 0)).val

/-- `i`-th weight. -/
noncomputable def tsWeight (i : ℕ) : ℝ := (ts_weights.getD i (0, 0)).val

/-- Estimate of `∫ f` over the interval with the given half-width and midpoint, at level `k`, divided by the
half-width. -/
noncomputable def tsEstimate (k : ℕ) (f : ℝ → ℝ) (c d : ℝ) : ℝ :=
  (tsWeight 0 * f d + ∑ i ∈ Ico 1 (tsCount k), tsWeight i * (f (d + c * tsNode i) + f (d - c * tsNode i))) / 2 ^ k

/-- The level at which an integrator stops that goes on until two successive estimates agree exactly, does at least
two levels and at most six. -/
def TsStops (f : ℝ → ℝ) (c d : ℝ) (k : ℕ) : Prop :=
  2 ≤ k ∧ k ≤ 6 ∧ (k = 6 ∨ tsEstimate k f c d = tsEstimate (k - 1) f c d) ∧
    ∀ j, 2 ≤ j → j < k → tsEstimate j f c d ≠ tsEstimate (j - 1) f c d

end Coffe
