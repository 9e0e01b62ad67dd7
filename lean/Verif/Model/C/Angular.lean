import Mathlib.Analysis.SpecialFunctions.Pow.NNReal
import Mathlib.Data.Nat.Factorial.Basic
import Mathlib.Order.Interval.Finset.Nat
import Mathlib.Algebra.BigOperators.Group.Finset.Basic

/-!
# Angular coefficients of the covariance

`coffe_legendre_integral` (src/common.c:1370-1394) and `covariance_coefficient` (src/covariance.c:40-57).
Multipoles are natural numbers.
-/

namespace Coffe

/-- `gsl_sf_coupling_3j(2n, 2m, 2l, 0, 0, 0)`: GSL returns the Wigner 3j symbol (n m l; 0 0 0).  Trusted: the
closed form of that symbol. -/
noncomputable def coupling3j (n m l : ℕ) : ℝ :=
  if (n + m + l) % 2 = 0 ∧ l ≤ n + m ∧ n ≤ m + l ∧ m ≤ n + l then
    let s := (n + m + l) / 2
    (-1) ^ s * Real.sqrt (((2 * (s - n)).factorial * (2 * (s - m)).factorial * (2 * (s - l)).factorial : ℕ)
        / ((2 * s + 1).factorial : ℕ))
      * ((s.factorial : ℕ) / ((s - n).factorial * (s - m).factorial * (s - l).factorial : ℕ))
  else 0

/-- `coffe_legendre_integral`, src/common.c:1370-1394.  `abs(n - m)` on non-negative `int`s is `(n - m) + (m - n)`
with truncated subtraction. -/
noncomputable def legendre_integral (n m a b : ℕ) : ℝ :=
  if (n + m + a + b) % 2 ≠ 0 then 0
  else
    let lower := if (n - m) + (m - n) > (a - b) + (b - a) then (n - m) + (m - n) else (a - b) + (b - a)
    let upper := if n + m < a + b then n + m else a + b
    2 * ∑ l ∈ Finset.Icc lower upper, (2 * (l : ℝ) + 1) * coupling3j n m l ^ 2 * coupling3j a b l ^ 2

/-- `covariance_coefficient`, src/covariance.c:40-57. -/
noncomputable def covariance_coefficient (bias1 bias2 growth_rate : ℝ) (ell : ℕ) : ℝ :=
  match ell with
  | 0 => bias1 * bias2 + (bias1 + bias2) * growth_rate / 3 + growth_rate ^ 2 / 5
  | 2 => 2 * (bias1 + bias2) * growth_rate / 3 + 4 * growth_rate ^ 2 / 7
  | 4 => 8 * growth_rate ^ 2 / 35
  | _ => 0

end Coffe
