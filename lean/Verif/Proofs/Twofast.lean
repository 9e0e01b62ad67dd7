import Verif.Model.C.Twofast
import Verif.Proofs.Common
import Verif.Props.Common
import Mathlib.Analysis.SpecialFunctions.Trigonometric.Bounds
import Mathlib.Analysis.SpecialFunctions.Gamma.BohrMollerup

namespace Coffe
open Real

/-- The smooth ramp stays in the unit interval. -/
theorem ramp_bounds {t : ℝ} (h0 : 0 ≤ t) (h1 : t ≤ 1) :
    0 ≤ t - Real.sin (2 * Real.pi * t) / 2 / Real.pi ∧ t - Real.sin (2 * Real.pi * t) / 2 / Real.pi ≤ 1 := by
  have hpi := Real.pi_pos
  constructor
  · have := Real.sin_le (show 0 ≤ 2 * Real.pi * t by positivity)
    have h2 : Real.sin (2 * Real.pi * t) / 2 / Real.pi ≤ t := by
      rw [div_div, div_le_iff₀ (by positivity)]; linarith
    linarith
  · have := Real.sin_le (show 0 ≤ 2 * Real.pi * (1 - t) by have := sub_nonneg.2 h1; positivity)
    have e : Real.sin (2 * Real.pi * (1 - t)) = - Real.sin (2 * Real.pi * t) := by
      rw [show 2 * Real.pi * (1 - t) = 2 * Real.pi - 2 * Real.pi * t by ring, Real.sin_two_pi_sub]
    rw [e] at this
    have h2 : - (Real.sin (2 * Real.pi * t) / 2 / Real.pi) ≤ 1 - t := by
      rw [div_div, ← neg_div, div_le_iff₀ (by positivity)]; linarith
    linarith

/-- Inside the arithmetic of `size_t`. -/
theorem size_t_index {a b c : ℕ} (hb : b ≤ a) (h : a + c < 2 ^ 64) : size_t_sub_add a b c = a - b + c := by
  unfold size_t_sub_add
  have hb' : b < 2 ^ 64 := by omega
  rw [show a + c + (2 ^ 64 - b) = (a - b + c) + 2 ^ 64 by omega, Nat.add_mod_right, Nat.mod_eq_of_lt (by omega)]

theorem logGrid_pos {k0 kmin kmax : ℝ} (h0 : 0 < k0) (h1 : 0 < kmin) (h2 : kmin < kmax) (len : ℕ) (x : ℝ) :
    0 < logGrid k0 kmin kmax len x := by
  unfold logGrid
  have : 0 < kmax / kmin := div_pos (h1.trans h2) h1
  positivity

theorem logGrid_lt {k0 kmin kmax : ℝ} (h0 : 0 < k0) (h1 : 0 < kmin) (h2 : kmin < kmax) {len : ℕ} (hl : 0 < len) {x y : ℝ}
    (h : x < y) : logGrid k0 kmin kmax len x < logGrid k0 kmin kmax len y := by
  unfold logGrid
  have h1' : 1 < kmax / kmin := (one_lt_div h1).2 h2
  have hl' : (0 : ℝ) < len := by exact_mod_cast hl
  refine mul_lt_mul_of_pos_left (Real.rpow_lt_rpow_of_exponent_lt h1' ?_) h0
  gcongr

theorem min_sep_len_eq : min_sep_len = 42 := by decide +kernel

/-- The small separations increase, from above zero to below one. -/
theorem min_sep_sorted : ∀ i j, i < j → j < 42 → 0 < min_sep.getD i 0 ∧ min_sep.getD i 0 < min_sep.getD j 0 ∧
    min_sep.getD j 0 < 1 := by
  have : ∀ j < 42, ∀ i < j, 0 < min_sep.getD i 0 ∧ min_sep.getD i 0 < min_sep.getD j 0 ∧ min_sep.getD j 0 < 1 := by
    decide +kernel
  exact fun i j h1 h2 => this j h2 i h1

end Coffe
