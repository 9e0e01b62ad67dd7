import Verif.Spec.Units
import Mathlib.Tactic.Ring
import Mathlib.Tactic.FieldSimp
import Mathlib.Tactic.Positivity
import Mathlib.Tactic.Linarith

/-! # Helper lemmas: every term is a pure number

Generated from the list of terms. -/

namespace Coffe
open Classical
set_option linter.unusedSimpArgs false
set_option linter.unusedVariables false
set_option linter.unusedTactic false
set_option linter.unnecessarySeqFocus false
set_option linter.unreachableTactic false

/-- The local variables of `functions_nonintegrated` in the new unit. -/
noncomputable def NonEnv.unit (v : NonEnv) (c : ℝ) : NonEnv :=
  { v with sep := c * v.sep, chi_mean := c * v.chi_mean, chi1 := c * v.chi1, chi2 := c * v.chi2,
           curlyH1 := v.curlyH1 / c, curlyH2 := v.curlyH2 / c, curlyH_mean := v.curlyH_mean / c }

/-- The local variables of `functions_single_integrated` in the new unit. -/
noncomputable def SingleEnv.unit (v : SingleEnv) (c : ℝ) : SingleEnv :=
  { v with sep := c * v.sep, chi_mean := c * v.chi_mean, chi1 := c * v.chi1, chi2 := c * v.chi2,
           lambda1 := c * v.lambda1, lambda2 := c * v.lambda2, r21 := c ^ 2 * v.r21, r22 := c ^ 2 * v.r22,
           ren1 := c ^ 4 * v.ren1, ren2 := c ^ 4 * v.ren2 }

/-- The local variables of `functions_double_integrated` in the new unit. -/
noncomputable def DoubleEnv.unit (v : DoubleEnv) (c : ℝ) : DoubleEnv :=
  { v with sep := c * v.sep, chi_mean := c * v.chi_mean, chi1 := c * v.chi1, chi2 := c * v.chi2,
           lambda1 := c * v.lambda1, lambda2 := c * v.lambda2, r2 := c ^ 2 * v.r2, ren := c ^ 4 * v.ren }

theorem ite_same {p : Prop} [i : Decidable p] [j : Decidable p] {x y x' y' : ℝ} (h1 : p → x' = x) (h2 : ¬ p → y' = y) :
    @ite ℝ p i x' y' = @ite ℝ p j x y := by
  by_cases h : p
  · rw [if_pos h, if_pos h]; exact h1 h
  · rw [if_neg h, if_neg h]; exact h2 h

theorem ite_same_mul {p : Prop} [i : Decidable p] [j : Decidable p] {x y x' y' k : ℝ} (h1 : p → x' = k * x)
    (h2 : ¬ p → y' = k * y) : @ite ℝ p i x' y' = k * @ite ℝ p j x y := by
  by_cases h : p
  · rw [if_pos h, if_pos h]; exact h1 h
  · rw [if_neg h, if_neg h]; exact h2 h

theorem ite_pos_mul {p q : Prop} [i : Decidable p] [j : Decidable q] {x y x' y' k : ℝ} (hp : p) (hq : q)
    (h1 : x' = k * x) : @ite ℝ p i x' y' = k * @ite ℝ q j x y := by
  rw [if_pos hp, if_pos hq]; exact h1

theorem zero_same {k : ℝ} : (0 : ℝ) = k * 0 := by rw [mul_zero]

/-- The bracket of the lensing-lensing term is a length to the second power. -/
theorem len_bracket {c : ℝ} (hc : c ≠ 0) (k l m r a0 a20 a11 a2 a3 a4 : ℝ) :
    2 * (k * k - 1) * (c * l) * (c * m) * a0 / 5 + 4 * k * (c ^ 2 * a20) / 3
      + 4 * k * (c ^ 2 * r + 6 * k * (c * l) * (c * m)) * a11 / 15
      + 2 * (k * k - 1) * (c * l) * (c * m) * (2 * (c ^ 2 * r) + 3 * k * (c * l) * (c * m)) * a2 / 7 / (c ^ 2 * r)
      + 2 * k * (2 * (c ^ 2 * r) * (c ^ 2 * r) + 12 * k * (c ^ 2 * r) * (c * l) * (c * m)
          + 15 * (k * k - 1) * (c * l) * (c * l) * (c * m) * (c * m)) * a3 / 15 / (c ^ 2 * r)
      + (k * k - 1) * (c * l) * (c * m) * (6 * (c ^ 2 * r) * (c ^ 2 * r) + 30 * k * (c ^ 2 * r) * (c * l) * (c * m)
          + 35 * (k * k - 1) * (c * l) * (c * l) * (c * m) * (c * m)) * a4 / 35 / (c ^ 2 * r) / (c ^ 2 * r) =
    c ^ 2 * (2 * (k * k - 1) * l * m * a0 / 5 + 4 * k * a20 / 3
      + 4 * k * (r + 6 * k * l * m) * a11 / 15
      + 2 * (k * k - 1) * l * m * (2 * r + 3 * k * l * m) * a2 / 7 / r
      + 2 * k * (2 * r * r + 12 * k * r * l * m + 15 * (k * k - 1) * l * l * m * m) * a3 / 15 / r
      + (k * k - 1) * l * m * (6 * r * r + 30 * k * r * l * m + 35 * (k * k - 1) * l * l * m * m) * a4 / 35 / r / r) := by
  field_simp

theorem g5_g5_leaf {c : ℝ} (hc : c ≠ 0) (k x y d e a b H K f g R : ℝ) :
    k * (c * x) * (c * y) * d * e / a / b * (H / c) * (K / c) * f * g * (c ^ 4 * R) =
      c ^ 4 * (k * x * y * d * e / a / b * H * K * f * g * R) := by
  have e1 : (c * x) * (H / c) = x * H := by field_simp
  have e2 : (c * y) * (K / c) = y * K := by field_simp
  linear_combination (k * d * e / a / b * f * g * (c ^ 4 * R) * (c * y) * (K / c)) * e1 +
    (k * d * e / a / b * f * g * (c ^ 4 * R) * x * H) * e2

theorem g4_g5_leaf {c : ℝ} (hc : c ≠ 0) (k p x H f d e a b R q y K g : ℝ) :
    k * (p * (c * x) * (H / c) * f * d * e / a / b * (c ^ 4 * R) + q * (c * y) * (K / c) * g * d * e / a / b * (c ^ 4 * R)) =
      c ^ 4 * (k * (p * x * H * f * d * e / a / b * R + q * y * K * g * d * e / a / b * R)) := by
  have e1 : (c * x) * (H / c) = x * H := by field_simp
  have e2 : (c * y) * (K / c) = y * K := by field_simp
  linear_combination (k * p * f * d * e / a / b * (c ^ 4 * R)) * e1 + (k * q * g * d * e / a / b * (c ^ 4 * R)) * e2

/-- Split the guards one by one; in each branch clear the unit. -/
macro "unit_cases" : tactic => `(tactic|
  (repeat' (first
    | with_reducible rfl
    | exact zero_same
    | (refine ite_same (fun hg => ?_) (fun hg => ?_))
    | (refine ite_same_mul (fun hg => ?_) (fun hg => ?_)))) <;>
      first | done | ring1 | (field_simp; done) | (field_simp; ring1))

section
variable (I : Ints) {c : ℝ} (hc : c ≠ 0)
include hc
theorem unit_result (k : Key) (r : ℝ) : ((I.unit c) k).result (c * r) = c ^ k.power * (I k).result r := by
  simp only [Ints.unit, mul_div_cancel_left₀ _ hc]
theorem unit_result2d (k : Key) (z r : ℝ) :
    ((I.unit c) k).result2d z (c * r) = c ^ k.power * (I k).result2d z r := by
  simp only [Ints.unit, mul_div_cancel_left₀ _ hc]
theorem unit_I00 (r : ℝ) : (I.unit c).I00.result (c * r) = I.I00.result r := by
  rw [Ints.I00, unit_result _ hc]; simp [Key.power, Ints.I00]
theorem unit2_I00 (z r : ℝ) : (I.unit c).I00.result2d z (c * r) = I.I00.result2d z r := by
  rw [Ints.I00, unit_result2d _ hc]; simp [Key.power, Ints.I00]
theorem unit02_I00 (z : ℝ) : (I.unit c).I00.result2d z 0 = I.I00.result2d z 0 := by
  have h := unit2_I00 I hc z 0
  rwa [mul_zero] at h
theorem unit0_I00 : (I.unit c).I00.result 0 = I.I00.result 0 := by
  have h := unit_I00 I hc 0
  rwa [mul_zero] at h
theorem unit_I02 (r : ℝ) : (I.unit c).I02.result (c * r) = I.I02.result r := by
  rw [Ints.I02, unit_result _ hc]; simp [Key.power, Ints.I02]
theorem unit2_I02 (z r : ℝ) : (I.unit c).I02.result2d z (c * r) = I.I02.result2d z r := by
  rw [Ints.I02, unit_result2d _ hc]; simp [Key.power, Ints.I02]
theorem unit02_I02 (z : ℝ) : (I.unit c).I02.result2d z 0 = I.I02.result2d z 0 := by
  have h := unit2_I02 I hc z 0
  rwa [mul_zero] at h
theorem unit0_I02 : (I.unit c).I02.result 0 = I.I02.result 0 := by
  have h := unit_I02 I hc 0
  rwa [mul_zero] at h
theorem unit_I04 (r : ℝ) : (I.unit c).I04.result (c * r) = I.I04.result r := by
  rw [Ints.I04, unit_result _ hc]; simp [Key.power, Ints.I04]
theorem unit2_I04 (z r : ℝ) : (I.unit c).I04.result2d z (c * r) = I.I04.result2d z r := by
  rw [Ints.I04, unit_result2d _ hc]; simp [Key.power, Ints.I04]
theorem unit02_I04 (z : ℝ) : (I.unit c).I04.result2d z 0 = I.I04.result2d z 0 := by
  have h := unit2_I04 I hc z 0
  rwa [mul_zero] at h
theorem unit0_I04 : (I.unit c).I04.result 0 = I.I04.result 0 := by
  have h := unit_I04 I hc 0
  rwa [mul_zero] at h
theorem unit_I11 (r : ℝ) : (I.unit c).I11.result (c * r) = I.I11.result r := by
  rw [Ints.I11, unit_result _ hc]; simp [Key.power, Ints.I11]
theorem unit2_I11 (z r : ℝ) : (I.unit c).I11.result2d z (c * r) = I.I11.result2d z r := by
  rw [Ints.I11, unit_result2d _ hc]; simp [Key.power, Ints.I11]
theorem unit02_I11 (z : ℝ) : (I.unit c).I11.result2d z 0 = I.I11.result2d z 0 := by
  have h := unit2_I11 I hc z 0
  rwa [mul_zero] at h
theorem unit0_I11 : (I.unit c).I11.result 0 = I.I11.result 0 := by
  have h := unit_I11 I hc 0
  rwa [mul_zero] at h
theorem unit_I13 (r : ℝ) : (I.unit c).I13.result (c * r) = I.I13.result r := by
  rw [Ints.I13, unit_result _ hc]; simp [Key.power, Ints.I13]
theorem unit2_I13 (z r : ℝ) : (I.unit c).I13.result2d z (c * r) = I.I13.result2d z r := by
  rw [Ints.I13, unit_result2d _ hc]; simp [Key.power, Ints.I13]
theorem unit02_I13 (z : ℝ) : (I.unit c).I13.result2d z 0 = I.I13.result2d z 0 := by
  have h := unit2_I13 I hc z 0
  rwa [mul_zero] at h
theorem unit0_I13 : (I.unit c).I13.result 0 = I.I13.result 0 := by
  have h := unit_I13 I hc 0
  rwa [mul_zero] at h
theorem unit_I22 (r : ℝ) : (I.unit c).I22.result (c * r) = I.I22.result r := by
  rw [Ints.I22, unit_result _ hc]; simp [Key.power, Ints.I22]
theorem unit2_I22 (z r : ℝ) : (I.unit c).I22.result2d z (c * r) = I.I22.result2d z r := by
  rw [Ints.I22, unit_result2d _ hc]; simp [Key.power, Ints.I22]
theorem unit02_I22 (z : ℝ) : (I.unit c).I22.result2d z 0 = I.I22.result2d z 0 := by
  have h := unit2_I22 I hc z 0
  rwa [mul_zero] at h
theorem unit0_I22 : (I.unit c).I22.result 0 = I.I22.result 0 := by
  have h := unit_I22 I hc 0
  rwa [mul_zero] at h
theorem unit_I20 (r : ℝ) : (I.unit c).I20.result (c * r) = c ^ 2 * I.I20.result r := by
  rw [Ints.I20, unit_result _ hc]; simp [Key.power, Ints.I20]
theorem unit2_I20 (z r : ℝ) : (I.unit c).I20.result2d z (c * r) = c ^ 2 * I.I20.result2d z r := by
  rw [Ints.I20, unit_result2d _ hc]; simp [Key.power, Ints.I20]
theorem unit02_I20 (z : ℝ) : (I.unit c).I20.result2d z 0 = c ^ 2 * I.I20.result2d z 0 := by
  have h := unit2_I20 I hc z 0
  rwa [mul_zero] at h
theorem unit0_I20 : (I.unit c).I20.result 0 = c ^ 2 * I.I20.result 0 := by
  have h := unit_I20 I hc 0
  rwa [mul_zero] at h
theorem unit_I31 (r : ℝ) : (I.unit c).I31.result (c * r) = c ^ 2 * I.I31.result r := by
  rw [Ints.I31, unit_result _ hc]; simp [Key.power, Ints.I31]
theorem unit2_I31 (z r : ℝ) : (I.unit c).I31.result2d z (c * r) = c ^ 2 * I.I31.result2d z r := by
  rw [Ints.I31, unit_result2d _ hc]; simp [Key.power, Ints.I31]
theorem unit02_I31 (z : ℝ) : (I.unit c).I31.result2d z 0 = c ^ 2 * I.I31.result2d z 0 := by
  have h := unit2_I31 I hc z 0
  rwa [mul_zero] at h
theorem unit0_I31 : (I.unit c).I31.result 0 = c ^ 2 * I.I31.result 0 := by
  have h := unit_I31 I hc 0
  rwa [mul_zero] at h
theorem unit_I40 (r : ℝ) : (I.unit c).I40.result (c * r) = c ^ 4 * I.I40.result r := by
  rw [Ints.I40, unit_result _ hc]; simp [Key.power, Ints.I40]
theorem unit2_I40 (z r : ℝ) : (I.unit c).I40.result2d z (c * r) = c ^ 4 * I.I40.result2d z r := by
  rw [Ints.I40, unit_result2d _ hc]; simp [Key.power, Ints.I40]
theorem unit02_I40 (z : ℝ) : (I.unit c).I40.result2d z 0 = c ^ 4 * I.I40.result2d z 0 := by
  have h := unit2_I40 I hc z 0
  rwa [mul_zero] at h
theorem unit0_I40 : (I.unit c).I40.result 0 = c ^ 4 * I.I40.result 0 := by
  have h := unit_I40 I hc 0
  rwa [mul_zero] at h
theorem unit_half (r t : ℝ) : (I.unit c).Ihalf.result (c * r * t) = c * I.Ihalf.result (r * t) := by
  rw [Ints.Ihalf, mul_assoc, unit_result _ hc]; simp [Key.power, Ints.Ihalf]
theorem unit2_half (z r t : ℝ) : (I.unit c).Ihalf.result2d z (c * r * t) = c * I.Ihalf.result2d z (r * t) := by
  rw [Ints.Ihalf, mul_assoc, unit_result2d _ hc]; simp [Key.power, Ints.Ihalf]
theorem unit_half' (x r t : ℝ) : (I.unit c).Ihalf.result (x * (c * r) * t) = c * I.Ihalf.result (x * r * t) := by
  rw [show x * (c * r) * t = c * (x * r) * t by ring, unit_half I hc]
theorem unit_ren (x y : ℝ) :
    (I.unit c).I40.renormalization (c * x) (c * y) = c ^ 4 * I.I40.renormalization x y := by
  simp only [Ints.I40, Ints.unit, mul_div_cancel_left₀ _ hc]; simp [Key.power]
theorem unit_zero (x : ℝ) :
    (I.unit c).I40.renormalization_zero_separation (c * x) = c ^ 4 * I.I40.renormalization_zero_separation x := by
  simp only [Ints.I40, Ints.unit, mul_div_cancel_left₀ _ hc]; simp [Key.power]
theorem unit_eq_zero (r : ℝ) : (c ^ 2 * r = 0) = (r = 0) := by
  simp [hc]
theorem unit_mid (x y : ℝ) : x * (c * y) / c = x * y := by field_simp
theorem unit_cos (x s mu : ℝ) :
    (2 * (c * x) * (c * x) - c * s * (c * s) + mu * mu * (c * s) * (c * s) / 2) /
      (2 * (c * x) * (c * x) - mu * mu * (c * s) * (c * s) / 2) =
    (2 * x * x - s * s + mu * mu * s * s / 2) / (2 * x * x - mu * mu * s * s / 2) := by
  rw [← mul_div_mul_left (2 * x * x - s * s + mu * mu * s * s / 2) _ (pow_ne_zero 2 hc)]
  congr 1 <;> ring

theorem NonEnv.of_unit (par : Par) (bg : Bg) (z mu s : ℝ) :
    NonEnv.of (par.unit c) (bg.unit c) z mu (c * s) = (NonEnv.of par bg z mu s).unit c := by
  have e1 : c * bg.comoving_distance z - c * s * mu / 2 = c * (bg.comoving_distance z - s * mu / 2) := by ring
  have e2 : c * bg.comoving_distance z + c * s * mu / 2 = c * (bg.comoving_distance z + s * mu / 2) := by ring
  simp only [NonEnv.of, NonEnv.unit, Bg.unit, Par.unit, e1, e2, unit_cos hc, mul_div_cancel_left₀ _ hc]

omit hc in
theorem unit_sqrt (hp : 0 < c) (r : ℝ) : Real.sqrt (c ^ 2 * r) = c * Real.sqrt r := by
  rw [Real.sqrt_mul (by positivity), Real.sqrt_sq hp.le]

omit hc in
theorem unit_neg (hp : 0 < c) (r : ℝ) : (c ^ 2 * r < 0) = (r < 0) := by
  have : 0 < c ^ 2 := by positivity
  exact propext ⟨fun h => by by_contra hn; nlinarith, fun h => by nlinarith⟩

omit hc in
theorem unit_clip (hp : 0 < c) (r : ℝ) : (if c ^ 2 * r < 0 then 0 else c ^ 2 * r) = c ^ 2 * (if r < 0 then 0 else r) := by
  simp only [unit_neg hp]; split_ifs <;> simp

omit hc in
theorem SingleEnv.of_unit (hp : 0 < c) (par : Par) (bg : Bg) (z mu s x : ℝ) :
    SingleEnv.of (par.unit c) (bg.unit c) (I.unit c) z mu (c * s) x = (SingleEnv.of par bg I z mu s x).unit c := by
  have hc : c ≠ 0 := hp.ne'
  have e1 : c * bg.comoving_distance z - c * s * mu / 2 = c * (bg.comoving_distance z - s * mu / 2) := by ring
  have e2 : c * bg.comoving_distance z + c * s * mu / 2 = c * (bg.comoving_distance z + s * mu / 2) := by ring
  have e3 : ∀ a : ℝ, c * a * x = c * (a * x) := fun a => by ring
  have e4 : ∀ a b k : ℝ, c * a * (c * a) + c * b * (c * b) - 2 * (c * b) * (c * a) * k =
      c ^ 2 * (a * a + b * b - 2 * b * a * k) := fun a b k => by ring
  simp only [SingleEnv.of, SingleEnv.unit, Bg.unit, Par.unit, e1, e2, e3, e4, unit_cos hc, mul_div_cancel_left₀ _ hc,
    unit_clip hp, unit_eq_zero hc, unit_sqrt hp, unit_I40 I hc, unit_ren I hc, unit_zero I hc]
  congr 1 <;> split_ifs <;> ring

omit hc in
theorem DoubleEnv.of_unit (hp : 0 < c) (par : Par) (bg : Bg) (z mu s x y : ℝ)
    (ha : par.divergent = true → ((DoubleEnv.of par bg I z mu s x y).r2 ≤ 0.000001 ^ 2 ↔
      c ^ 2 * (DoubleEnv.of par bg I z mu s x y).r2 ≤ 0.000001 ^ 2)) :
    DoubleEnv.of (par.unit c) (bg.unit c) (I.unit c) z mu (c * s) x y = (DoubleEnv.of par bg I z mu s x y).unit c := by
  have hc : c ≠ 0 := hp.ne'
  have e1 : c * bg.comoving_distance z - c * s * mu / 2 = c * (bg.comoving_distance z - s * mu / 2) := by ring
  have e2 : c * bg.comoving_distance z + c * s * mu / 2 = c * (bg.comoving_distance z + s * mu / 2) := by ring
  have e3 : ∀ a t : ℝ, c * a * t = c * (a * t) := fun a t => by ring
  have e4 : ∀ a b k : ℝ, c * a * (c * a) + c * b * (c * b) - 2 * (c * a) * (c * b) * k =
      c ^ 2 * (a * a + b * b - 2 * a * b * k) := fun a b k => by ring
  simp only [DoubleEnv.of] at ha
  simp only [DoubleEnv.of, DoubleEnv.unit, Bg.unit, Par.unit]
  simp only [e1, e2, unit_cos hc, e3 _ x, e3 _ y, e4, mul_div_cancel_left₀ _ hc, unit_clip hp, unit_sqrt hp, unit_I40 I hc, unit_ren I hc, unit_zero I hc]
  congr 1
  by_cases hd : par.divergent = true
  · rw [if_pos hd, if_pos hd]
    simp only [← ha hd]
    split_ifs <;> ring
  · rw [if_neg hd, if_neg hd]; ring

set_option maxHeartbeats 1000000 in
theorem non_den_den_unit (par : Par) (bg : Bg) (v : NonEnv) :
    non_den_den (par.unit c) (bg.unit c) (I.unit c) (v.unit c) = non_den_den par bg I v := by
  simp only [non_den_den, Par.unit, NonEnv.unit, unit_ren I hc, unit_I00 I hc, unit2_I00 I hc, unit0_I00 I hc, unit02_I00 I hc, unit_I02 I hc, unit2_I02 I hc, unit0_I02 I hc, unit02_I02 I hc, unit_I04 I hc, unit2_I04 I hc, unit0_I04 I hc, unit02_I04 I hc, unit_I11 I hc, unit2_I11 I hc, unit0_I11 I hc, unit02_I11 I hc, unit_I13 I hc, unit2_I13 I hc, unit0_I13 I hc, unit02_I13 I hc, unit_I22 I hc, unit2_I22 I hc, unit0_I22 I hc, unit02_I22 I hc, unit_I20 I hc, unit2_I20 I hc, unit0_I20 I hc, unit02_I20 I hc, unit_I31 I hc, unit2_I31 I hc, unit0_I31 I hc, unit02_I31 I hc, unit_I40 I hc, unit2_I40 I hc, unit0_I40 I hc, unit02_I40 I hc]

set_option maxHeartbeats 1000000 in
theorem non_rsd_rsd_unit (par : Par) (bg : Bg) (v : NonEnv) :
    non_rsd_rsd (par.unit c) (bg.unit c) (I.unit c) (v.unit c) = non_rsd_rsd par bg I v := by
  simp only [non_rsd_rsd, Par.unit, NonEnv.unit, unit_ren I hc, unit_I00 I hc, unit2_I00 I hc, unit0_I00 I hc, unit02_I00 I hc, unit_I02 I hc, unit2_I02 I hc, unit0_I02 I hc, unit02_I02 I hc, unit_I04 I hc, unit2_I04 I hc, unit0_I04 I hc, unit02_I04 I hc, unit_I11 I hc, unit2_I11 I hc, unit0_I11 I hc, unit02_I11 I hc, unit_I13 I hc, unit2_I13 I hc, unit0_I13 I hc, unit02_I13 I hc, unit_I22 I hc, unit2_I22 I hc, unit0_I22 I hc, unit02_I22 I hc, unit_I20 I hc, unit2_I20 I hc, unit0_I20 I hc, unit02_I20 I hc, unit_I31 I hc, unit2_I31 I hc, unit0_I31 I hc, unit02_I31 I hc, unit_I40 I hc, unit2_I40 I hc, unit0_I40 I hc, unit02_I40 I hc]
  unit_cases

set_option maxHeartbeats 1000000 in
theorem non_d1_d1_unit (par : Par) (bg : Bg) (v : NonEnv) :
    non_d1_d1 (par.unit c) (bg.unit c) (I.unit c) (v.unit c) = non_d1_d1 par bg I v := by
  simp only [non_d1_d1, Par.unit, NonEnv.unit, unit_ren I hc, unit_I00 I hc, unit2_I00 I hc, unit0_I00 I hc, unit02_I00 I hc, unit_I02 I hc, unit2_I02 I hc, unit0_I02 I hc, unit02_I02 I hc, unit_I04 I hc, unit2_I04 I hc, unit0_I04 I hc, unit02_I04 I hc, unit_I11 I hc, unit2_I11 I hc, unit0_I11 I hc, unit02_I11 I hc, unit_I13 I hc, unit2_I13 I hc, unit0_I13 I hc, unit02_I13 I hc, unit_I22 I hc, unit2_I22 I hc, unit0_I22 I hc, unit02_I22 I hc, unit_I20 I hc, unit2_I20 I hc, unit0_I20 I hc, unit02_I20 I hc, unit_I31 I hc, unit2_I31 I hc, unit0_I31 I hc, unit02_I31 I hc, unit_I40 I hc, unit2_I40 I hc, unit0_I40 I hc, unit02_I40 I hc]
  unit_cases

set_option maxHeartbeats 1000000 in
theorem non_d2_d2_unit (par : Par) (bg : Bg) (v : NonEnv) :
    non_d2_d2 (par.unit c) (bg.unit c) (I.unit c) (v.unit c) = non_d2_d2 par bg I v := by
  simp only [non_d2_d2, Par.unit, NonEnv.unit, unit_ren I hc, unit_I00 I hc, unit2_I00 I hc, unit0_I00 I hc, unit02_I00 I hc, unit_I02 I hc, unit2_I02 I hc, unit0_I02 I hc, unit02_I02 I hc, unit_I04 I hc, unit2_I04 I hc, unit0_I04 I hc, unit02_I04 I hc, unit_I11 I hc, unit2_I11 I hc, unit0_I11 I hc, unit02_I11 I hc, unit_I13 I hc, unit2_I13 I hc, unit0_I13 I hc, unit02_I13 I hc, unit_I22 I hc, unit2_I22 I hc, unit0_I22 I hc, unit02_I22 I hc, unit_I20 I hc, unit2_I20 I hc, unit0_I20 I hc, unit02_I20 I hc, unit_I31 I hc, unit2_I31 I hc, unit0_I31 I hc, unit02_I31 I hc, unit_I40 I hc, unit2_I40 I hc, unit0_I40 I hc, unit02_I40 I hc]
  unit_cases

set_option maxHeartbeats 1000000 in
theorem non_g1_g1_unit (par : Par) (bg : Bg) (v : NonEnv) :
    non_g1_g1 (par.unit c) (bg.unit c) (I.unit c) (v.unit c) = non_g1_g1 par bg I v := by
  simp only [non_g1_g1, Par.unit, NonEnv.unit, unit_ren I hc, unit_I00 I hc, unit2_I00 I hc, unit0_I00 I hc, unit02_I00 I hc, unit_I02 I hc, unit2_I02 I hc, unit0_I02 I hc, unit02_I02 I hc, unit_I04 I hc, unit2_I04 I hc, unit0_I04 I hc, unit02_I04 I hc, unit_I11 I hc, unit2_I11 I hc, unit0_I11 I hc, unit02_I11 I hc, unit_I13 I hc, unit2_I13 I hc, unit0_I13 I hc, unit02_I13 I hc, unit_I22 I hc, unit2_I22 I hc, unit0_I22 I hc, unit02_I22 I hc, unit_I20 I hc, unit2_I20 I hc, unit0_I20 I hc, unit02_I20 I hc, unit_I31 I hc, unit2_I31 I hc, unit0_I31 I hc, unit02_I31 I hc, unit_I40 I hc, unit2_I40 I hc, unit0_I40 I hc, unit02_I40 I hc]
  unit_cases

set_option maxHeartbeats 1000000 in
theorem non_g2_g2_unit (par : Par) (bg : Bg) (v : NonEnv) :
    non_g2_g2 (par.unit c) (bg.unit c) (I.unit c) (v.unit c) = non_g2_g2 par bg I v := by
  simp only [non_g2_g2, Par.unit, NonEnv.unit, unit_ren I hc, unit_I00 I hc, unit2_I00 I hc, unit0_I00 I hc, unit02_I00 I hc, unit_I02 I hc, unit2_I02 I hc, unit0_I02 I hc, unit02_I02 I hc, unit_I04 I hc, unit2_I04 I hc, unit0_I04 I hc, unit02_I04 I hc, unit_I11 I hc, unit2_I11 I hc, unit0_I11 I hc, unit02_I11 I hc, unit_I13 I hc, unit2_I13 I hc, unit0_I13 I hc, unit02_I13 I hc, unit_I22 I hc, unit2_I22 I hc, unit0_I22 I hc, unit02_I22 I hc, unit_I20 I hc, unit2_I20 I hc, unit0_I20 I hc, unit02_I20 I hc, unit_I31 I hc, unit2_I31 I hc, unit0_I31 I hc, unit02_I31 I hc, unit_I40 I hc, unit2_I40 I hc, unit0_I40 I hc, unit02_I40 I hc]
  unit_cases

set_option maxHeartbeats 1000000 in
theorem non_g3_g3_unit (par : Par) (bg : Bg) (v : NonEnv) :
    non_g3_g3 (par.unit c) (bg.unit c) (I.unit c) (v.unit c) = non_g3_g3 par bg I v := by
  simp only [non_g3_g3, Par.unit, NonEnv.unit, unit_ren I hc, unit_I00 I hc, unit2_I00 I hc, unit0_I00 I hc, unit02_I00 I hc, unit_I02 I hc, unit2_I02 I hc, unit0_I02 I hc, unit02_I02 I hc, unit_I04 I hc, unit2_I04 I hc, unit0_I04 I hc, unit02_I04 I hc, unit_I11 I hc, unit2_I11 I hc, unit0_I11 I hc, unit02_I11 I hc, unit_I13 I hc, unit2_I13 I hc, unit0_I13 I hc, unit02_I13 I hc, unit_I22 I hc, unit2_I22 I hc, unit0_I22 I hc, unit02_I22 I hc, unit_I20 I hc, unit2_I20 I hc, unit0_I20 I hc, unit02_I20 I hc, unit_I31 I hc, unit2_I31 I hc, unit0_I31 I hc, unit02_I31 I hc, unit_I40 I hc, unit2_I40 I hc, unit0_I40 I hc, unit02_I40 I hc]
  unit_cases

set_option maxHeartbeats 1000000 in
theorem non_den_rsd_unit (par : Par) (bg : Bg) (v : NonEnv) :
    non_den_rsd (par.unit c) (bg.unit c) (I.unit c) (v.unit c) = non_den_rsd par bg I v := by
  simp only [non_den_rsd, Par.unit, NonEnv.unit, unit_ren I hc, unit_I00 I hc, unit2_I00 I hc, unit0_I00 I hc, unit02_I00 I hc, unit_I02 I hc, unit2_I02 I hc, unit0_I02 I hc, unit02_I02 I hc, unit_I04 I hc, unit2_I04 I hc, unit0_I04 I hc, unit02_I04 I hc, unit_I11 I hc, unit2_I11 I hc, unit0_I11 I hc, unit02_I11 I hc, unit_I13 I hc, unit2_I13 I hc, unit0_I13 I hc, unit02_I13 I hc, unit_I22 I hc, unit2_I22 I hc, unit0_I22 I hc, unit02_I22 I hc, unit_I20 I hc, unit2_I20 I hc, unit0_I20 I hc, unit02_I20 I hc, unit_I31 I hc, unit2_I31 I hc, unit0_I31 I hc, unit02_I31 I hc, unit_I40 I hc, unit2_I40 I hc, unit0_I40 I hc, unit02_I40 I hc]
  unit_cases

set_option maxHeartbeats 1000000 in
theorem non_den_d1_unit (par : Par) (bg : Bg) (v : NonEnv) :
    non_den_d1 (par.unit c) (bg.unit c) (I.unit c) (v.unit c) = non_den_d1 par bg I v := by
  simp only [non_den_d1, Par.unit, NonEnv.unit, unit_ren I hc, unit_I00 I hc, unit2_I00 I hc, unit0_I00 I hc, unit02_I00 I hc, unit_I02 I hc, unit2_I02 I hc, unit0_I02 I hc, unit02_I02 I hc, unit_I04 I hc, unit2_I04 I hc, unit0_I04 I hc, unit02_I04 I hc, unit_I11 I hc, unit2_I11 I hc, unit0_I11 I hc, unit02_I11 I hc, unit_I13 I hc, unit2_I13 I hc, unit0_I13 I hc, unit02_I13 I hc, unit_I22 I hc, unit2_I22 I hc, unit0_I22 I hc, unit02_I22 I hc, unit_I20 I hc, unit2_I20 I hc, unit0_I20 I hc, unit02_I20 I hc, unit_I31 I hc, unit2_I31 I hc, unit0_I31 I hc, unit02_I31 I hc, unit_I40 I hc, unit2_I40 I hc, unit0_I40 I hc, unit02_I40 I hc]
  unit_cases

set_option maxHeartbeats 1000000 in
theorem non_den_d2_unit (par : Par) (bg : Bg) (v : NonEnv) :
    non_den_d2 (par.unit c) (bg.unit c) (I.unit c) (v.unit c) = non_den_d2 par bg I v := by
  simp only [non_den_d2, Par.unit, NonEnv.unit, unit_ren I hc, unit_I00 I hc, unit2_I00 I hc, unit0_I00 I hc, unit02_I00 I hc, unit_I02 I hc, unit2_I02 I hc, unit0_I02 I hc, unit02_I02 I hc, unit_I04 I hc, unit2_I04 I hc, unit0_I04 I hc, unit02_I04 I hc, unit_I11 I hc, unit2_I11 I hc, unit0_I11 I hc, unit02_I11 I hc, unit_I13 I hc, unit2_I13 I hc, unit0_I13 I hc, unit02_I13 I hc, unit_I22 I hc, unit2_I22 I hc, unit0_I22 I hc, unit02_I22 I hc, unit_I20 I hc, unit2_I20 I hc, unit0_I20 I hc, unit02_I20 I hc, unit_I31 I hc, unit2_I31 I hc, unit0_I31 I hc, unit02_I31 I hc, unit_I40 I hc, unit2_I40 I hc, unit0_I40 I hc, unit02_I40 I hc]
  unit_cases

set_option maxHeartbeats 1000000 in
theorem non_den_g1_unit (par : Par) (bg : Bg) (v : NonEnv) :
    non_den_g1 (par.unit c) (bg.unit c) (I.unit c) (v.unit c) = non_den_g1 par bg I v := by
  simp only [non_den_g1, Par.unit, NonEnv.unit, unit_ren I hc, unit_I00 I hc, unit2_I00 I hc, unit0_I00 I hc, unit02_I00 I hc, unit_I02 I hc, unit2_I02 I hc, unit0_I02 I hc, unit02_I02 I hc, unit_I04 I hc, unit2_I04 I hc, unit0_I04 I hc, unit02_I04 I hc, unit_I11 I hc, unit2_I11 I hc, unit0_I11 I hc, unit02_I11 I hc, unit_I13 I hc, unit2_I13 I hc, unit0_I13 I hc, unit02_I13 I hc, unit_I22 I hc, unit2_I22 I hc, unit0_I22 I hc, unit02_I22 I hc, unit_I20 I hc, unit2_I20 I hc, unit0_I20 I hc, unit02_I20 I hc, unit_I31 I hc, unit2_I31 I hc, unit0_I31 I hc, unit02_I31 I hc, unit_I40 I hc, unit2_I40 I hc, unit0_I40 I hc, unit02_I40 I hc]
  unit_cases

set_option maxHeartbeats 1000000 in
theorem non_den_g2_unit (par : Par) (bg : Bg) (v : NonEnv) :
    non_den_g2 (par.unit c) (bg.unit c) (I.unit c) (v.unit c) = non_den_g2 par bg I v := by
  simp only [non_den_g2, Par.unit, NonEnv.unit, unit_ren I hc, unit_I00 I hc, unit2_I00 I hc, unit0_I00 I hc, unit02_I00 I hc, unit_I02 I hc, unit2_I02 I hc, unit0_I02 I hc, unit02_I02 I hc, unit_I04 I hc, unit2_I04 I hc, unit0_I04 I hc, unit02_I04 I hc, unit_I11 I hc, unit2_I11 I hc, unit0_I11 I hc, unit02_I11 I hc, unit_I13 I hc, unit2_I13 I hc, unit0_I13 I hc, unit02_I13 I hc, unit_I22 I hc, unit2_I22 I hc, unit0_I22 I hc, unit02_I22 I hc, unit_I20 I hc, unit2_I20 I hc, unit0_I20 I hc, unit02_I20 I hc, unit_I31 I hc, unit2_I31 I hc, unit0_I31 I hc, unit02_I31 I hc, unit_I40 I hc, unit2_I40 I hc, unit0_I40 I hc, unit02_I40 I hc]
  unit_cases

set_option maxHeartbeats 1000000 in
theorem non_den_g3_unit (par : Par) (bg : Bg) (v : NonEnv) :
    non_den_g3 (par.unit c) (bg.unit c) (I.unit c) (v.unit c) = non_den_g3 par bg I v := by
  simp only [non_den_g3, Par.unit, NonEnv.unit, unit_ren I hc, unit_I00 I hc, unit2_I00 I hc, unit0_I00 I hc, unit02_I00 I hc, unit_I02 I hc, unit2_I02 I hc, unit0_I02 I hc, unit02_I02 I hc, unit_I04 I hc, unit2_I04 I hc, unit0_I04 I hc, unit02_I04 I hc, unit_I11 I hc, unit2_I11 I hc, unit0_I11 I hc, unit02_I11 I hc, unit_I13 I hc, unit2_I13 I hc, unit0_I13 I hc, unit02_I13 I hc, unit_I22 I hc, unit2_I22 I hc, unit0_I22 I hc, unit02_I22 I hc, unit_I20 I hc, unit2_I20 I hc, unit0_I20 I hc, unit02_I20 I hc, unit_I31 I hc, unit2_I31 I hc, unit0_I31 I hc, unit02_I31 I hc, unit_I40 I hc, unit2_I40 I hc, unit0_I40 I hc, unit02_I40 I hc]
  unit_cases

set_option maxHeartbeats 1000000 in
theorem non_rsd_d1_unit (par : Par) (bg : Bg) (v : NonEnv) :
    non_rsd_d1 (par.unit c) (bg.unit c) (I.unit c) (v.unit c) = non_rsd_d1 par bg I v := by
  simp only [non_rsd_d1, Par.unit, NonEnv.unit, unit_ren I hc, unit_I00 I hc, unit2_I00 I hc, unit0_I00 I hc, unit02_I00 I hc, unit_I02 I hc, unit2_I02 I hc, unit0_I02 I hc, unit02_I02 I hc, unit_I04 I hc, unit2_I04 I hc, unit0_I04 I hc, unit02_I04 I hc, unit_I11 I hc, unit2_I11 I hc, unit0_I11 I hc, unit02_I11 I hc, unit_I13 I hc, unit2_I13 I hc, unit0_I13 I hc, unit02_I13 I hc, unit_I22 I hc, unit2_I22 I hc, unit0_I22 I hc, unit02_I22 I hc, unit_I20 I hc, unit2_I20 I hc, unit0_I20 I hc, unit02_I20 I hc, unit_I31 I hc, unit2_I31 I hc, unit0_I31 I hc, unit02_I31 I hc, unit_I40 I hc, unit2_I40 I hc, unit0_I40 I hc, unit02_I40 I hc]
  unit_cases

set_option maxHeartbeats 1000000 in
theorem non_rsd_d2_unit (par : Par) (bg : Bg) (v : NonEnv) :
    non_rsd_d2 (par.unit c) (bg.unit c) (I.unit c) (v.unit c) = non_rsd_d2 par bg I v := by
  simp only [non_rsd_d2, Par.unit, NonEnv.unit, unit_ren I hc, unit_I00 I hc, unit2_I00 I hc, unit0_I00 I hc, unit02_I00 I hc, unit_I02 I hc, unit2_I02 I hc, unit0_I02 I hc, unit02_I02 I hc, unit_I04 I hc, unit2_I04 I hc, unit0_I04 I hc, unit02_I04 I hc, unit_I11 I hc, unit2_I11 I hc, unit0_I11 I hc, unit02_I11 I hc, unit_I13 I hc, unit2_I13 I hc, unit0_I13 I hc, unit02_I13 I hc, unit_I22 I hc, unit2_I22 I hc, unit0_I22 I hc, unit02_I22 I hc, unit_I20 I hc, unit2_I20 I hc, unit0_I20 I hc, unit02_I20 I hc, unit_I31 I hc, unit2_I31 I hc, unit0_I31 I hc, unit02_I31 I hc, unit_I40 I hc, unit2_I40 I hc, unit0_I40 I hc, unit02_I40 I hc]
  unit_cases

set_option maxHeartbeats 1000000 in
theorem non_rsd_g1_unit (par : Par) (bg : Bg) (v : NonEnv) :
    non_rsd_g1 (par.unit c) (bg.unit c) (I.unit c) (v.unit c) = non_rsd_g1 par bg I v := by
  simp only [non_rsd_g1, Par.unit, NonEnv.unit, unit_ren I hc, unit_I00 I hc, unit2_I00 I hc, unit0_I00 I hc, unit02_I00 I hc, unit_I02 I hc, unit2_I02 I hc, unit0_I02 I hc, unit02_I02 I hc, unit_I04 I hc, unit2_I04 I hc, unit0_I04 I hc, unit02_I04 I hc, unit_I11 I hc, unit2_I11 I hc, unit0_I11 I hc, unit02_I11 I hc, unit_I13 I hc, unit2_I13 I hc, unit0_I13 I hc, unit02_I13 I hc, unit_I22 I hc, unit2_I22 I hc, unit0_I22 I hc, unit02_I22 I hc, unit_I20 I hc, unit2_I20 I hc, unit0_I20 I hc, unit02_I20 I hc, unit_I31 I hc, unit2_I31 I hc, unit0_I31 I hc, unit02_I31 I hc, unit_I40 I hc, unit2_I40 I hc, unit0_I40 I hc, unit02_I40 I hc]
  unit_cases

set_option maxHeartbeats 1000000 in
theorem non_rsd_g2_unit (par : Par) (bg : Bg) (v : NonEnv) :
    non_rsd_g2 (par.unit c) (bg.unit c) (I.unit c) (v.unit c) = non_rsd_g2 par bg I v := by
  simp only [non_rsd_g2, Par.unit, NonEnv.unit, unit_ren I hc, unit_I00 I hc, unit2_I00 I hc, unit0_I00 I hc, unit02_I00 I hc, unit_I02 I hc, unit2_I02 I hc, unit0_I02 I hc, unit02_I02 I hc, unit_I04 I hc, unit2_I04 I hc, unit0_I04 I hc, unit02_I04 I hc, unit_I11 I hc, unit2_I11 I hc, unit0_I11 I hc, unit02_I11 I hc, unit_I13 I hc, unit2_I13 I hc, unit0_I13 I hc, unit02_I13 I hc, unit_I22 I hc, unit2_I22 I hc, unit0_I22 I hc, unit02_I22 I hc, unit_I20 I hc, unit2_I20 I hc, unit0_I20 I hc, unit02_I20 I hc, unit_I31 I hc, unit2_I31 I hc, unit0_I31 I hc, unit02_I31 I hc, unit_I40 I hc, unit2_I40 I hc, unit0_I40 I hc, unit02_I40 I hc]
  unit_cases

set_option maxHeartbeats 1000000 in
theorem non_rsd_g3_unit (par : Par) (bg : Bg) (v : NonEnv) :
    non_rsd_g3 (par.unit c) (bg.unit c) (I.unit c) (v.unit c) = non_rsd_g3 par bg I v := by
  simp only [non_rsd_g3, Par.unit, NonEnv.unit, unit_ren I hc, unit_I00 I hc, unit2_I00 I hc, unit0_I00 I hc, unit02_I00 I hc, unit_I02 I hc, unit2_I02 I hc, unit0_I02 I hc, unit02_I02 I hc, unit_I04 I hc, unit2_I04 I hc, unit0_I04 I hc, unit02_I04 I hc, unit_I11 I hc, unit2_I11 I hc, unit0_I11 I hc, unit02_I11 I hc, unit_I13 I hc, unit2_I13 I hc, unit0_I13 I hc, unit02_I13 I hc, unit_I22 I hc, unit2_I22 I hc, unit0_I22 I hc, unit02_I22 I hc, unit_I20 I hc, unit2_I20 I hc, unit0_I20 I hc, unit02_I20 I hc, unit_I31 I hc, unit2_I31 I hc, unit0_I31 I hc, unit02_I31 I hc, unit_I40 I hc, unit2_I40 I hc, unit0_I40 I hc, unit02_I40 I hc]
  unit_cases

set_option maxHeartbeats 1000000 in
theorem non_d1_d2_unit (par : Par) (bg : Bg) (v : NonEnv) :
    non_d1_d2 (par.unit c) (bg.unit c) (I.unit c) (v.unit c) = non_d1_d2 par bg I v := by
  simp only [non_d1_d2, Par.unit, NonEnv.unit, unit_ren I hc, unit_I00 I hc, unit2_I00 I hc, unit0_I00 I hc, unit02_I00 I hc, unit_I02 I hc, unit2_I02 I hc, unit0_I02 I hc, unit02_I02 I hc, unit_I04 I hc, unit2_I04 I hc, unit0_I04 I hc, unit02_I04 I hc, unit_I11 I hc, unit2_I11 I hc, unit0_I11 I hc, unit02_I11 I hc, unit_I13 I hc, unit2_I13 I hc, unit0_I13 I hc, unit02_I13 I hc, unit_I22 I hc, unit2_I22 I hc, unit0_I22 I hc, unit02_I22 I hc, unit_I20 I hc, unit2_I20 I hc, unit0_I20 I hc, unit02_I20 I hc, unit_I31 I hc, unit2_I31 I hc, unit0_I31 I hc, unit02_I31 I hc, unit_I40 I hc, unit2_I40 I hc, unit0_I40 I hc, unit02_I40 I hc]
  unit_cases

set_option maxHeartbeats 1000000 in
theorem non_d1_g1_unit (par : Par) (bg : Bg) (v : NonEnv) :
    non_d1_g1 (par.unit c) (bg.unit c) (I.unit c) (v.unit c) = non_d1_g1 par bg I v := by
  simp only [non_d1_g1, Par.unit, NonEnv.unit, unit_ren I hc, unit_I00 I hc, unit2_I00 I hc, unit0_I00 I hc, unit02_I00 I hc, unit_I02 I hc, unit2_I02 I hc, unit0_I02 I hc, unit02_I02 I hc, unit_I04 I hc, unit2_I04 I hc, unit0_I04 I hc, unit02_I04 I hc, unit_I11 I hc, unit2_I11 I hc, unit0_I11 I hc, unit02_I11 I hc, unit_I13 I hc, unit2_I13 I hc, unit0_I13 I hc, unit02_I13 I hc, unit_I22 I hc, unit2_I22 I hc, unit0_I22 I hc, unit02_I22 I hc, unit_I20 I hc, unit2_I20 I hc, unit0_I20 I hc, unit02_I20 I hc, unit_I31 I hc, unit2_I31 I hc, unit0_I31 I hc, unit02_I31 I hc, unit_I40 I hc, unit2_I40 I hc, unit0_I40 I hc, unit02_I40 I hc]
  unit_cases

set_option maxHeartbeats 1000000 in
theorem non_d1_g2_unit (par : Par) (bg : Bg) (v : NonEnv) :
    non_d1_g2 (par.unit c) (bg.unit c) (I.unit c) (v.unit c) = non_d1_g2 par bg I v := by
  simp only [non_d1_g2, Par.unit, NonEnv.unit, unit_ren I hc, unit_I00 I hc, unit2_I00 I hc, unit0_I00 I hc, unit02_I00 I hc, unit_I02 I hc, unit2_I02 I hc, unit0_I02 I hc, unit02_I02 I hc, unit_I04 I hc, unit2_I04 I hc, unit0_I04 I hc, unit02_I04 I hc, unit_I11 I hc, unit2_I11 I hc, unit0_I11 I hc, unit02_I11 I hc, unit_I13 I hc, unit2_I13 I hc, unit0_I13 I hc, unit02_I13 I hc, unit_I22 I hc, unit2_I22 I hc, unit0_I22 I hc, unit02_I22 I hc, unit_I20 I hc, unit2_I20 I hc, unit0_I20 I hc, unit02_I20 I hc, unit_I31 I hc, unit2_I31 I hc, unit0_I31 I hc, unit02_I31 I hc, unit_I40 I hc, unit2_I40 I hc, unit0_I40 I hc, unit02_I40 I hc]
  unit_cases

set_option maxHeartbeats 1000000 in
theorem non_d1_g3_unit (par : Par) (bg : Bg) (v : NonEnv) :
    non_d1_g3 (par.unit c) (bg.unit c) (I.unit c) (v.unit c) = non_d1_g3 par bg I v := by
  simp only [non_d1_g3, Par.unit, NonEnv.unit, unit_ren I hc, unit_I00 I hc, unit2_I00 I hc, unit0_I00 I hc, unit02_I00 I hc, unit_I02 I hc, unit2_I02 I hc, unit0_I02 I hc, unit02_I02 I hc, unit_I04 I hc, unit2_I04 I hc, unit0_I04 I hc, unit02_I04 I hc, unit_I11 I hc, unit2_I11 I hc, unit0_I11 I hc, unit02_I11 I hc, unit_I13 I hc, unit2_I13 I hc, unit0_I13 I hc, unit02_I13 I hc, unit_I22 I hc, unit2_I22 I hc, unit0_I22 I hc, unit02_I22 I hc, unit_I20 I hc, unit2_I20 I hc, unit0_I20 I hc, unit02_I20 I hc, unit_I31 I hc, unit2_I31 I hc, unit0_I31 I hc, unit02_I31 I hc, unit_I40 I hc, unit2_I40 I hc, unit0_I40 I hc, unit02_I40 I hc]
  unit_cases

set_option maxHeartbeats 1000000 in
theorem non_d2_g1_unit (par : Par) (bg : Bg) (v : NonEnv) :
    non_d2_g1 (par.unit c) (bg.unit c) (I.unit c) (v.unit c) = non_d2_g1 par bg I v := by
  simp only [non_d2_g1, Par.unit, NonEnv.unit, unit_ren I hc, unit_I00 I hc, unit2_I00 I hc, unit0_I00 I hc, unit02_I00 I hc, unit_I02 I hc, unit2_I02 I hc, unit0_I02 I hc, unit02_I02 I hc, unit_I04 I hc, unit2_I04 I hc, unit0_I04 I hc, unit02_I04 I hc, unit_I11 I hc, unit2_I11 I hc, unit0_I11 I hc, unit02_I11 I hc, unit_I13 I hc, unit2_I13 I hc, unit0_I13 I hc, unit02_I13 I hc, unit_I22 I hc, unit2_I22 I hc, unit0_I22 I hc, unit02_I22 I hc, unit_I20 I hc, unit2_I20 I hc, unit0_I20 I hc, unit02_I20 I hc, unit_I31 I hc, unit2_I31 I hc, unit0_I31 I hc, unit02_I31 I hc, unit_I40 I hc, unit2_I40 I hc, unit0_I40 I hc, unit02_I40 I hc]
  unit_cases

set_option maxHeartbeats 1000000 in
theorem non_d2_g2_unit (par : Par) (bg : Bg) (v : NonEnv) :
    non_d2_g2 (par.unit c) (bg.unit c) (I.unit c) (v.unit c) = non_d2_g2 par bg I v := by
  simp only [non_d2_g2, Par.unit, NonEnv.unit, unit_ren I hc, unit_I00 I hc, unit2_I00 I hc, unit0_I00 I hc, unit02_I00 I hc, unit_I02 I hc, unit2_I02 I hc, unit0_I02 I hc, unit02_I02 I hc, unit_I04 I hc, unit2_I04 I hc, unit0_I04 I hc, unit02_I04 I hc, unit_I11 I hc, unit2_I11 I hc, unit0_I11 I hc, unit02_I11 I hc, unit_I13 I hc, unit2_I13 I hc, unit0_I13 I hc, unit02_I13 I hc, unit_I22 I hc, unit2_I22 I hc, unit0_I22 I hc, unit02_I22 I hc, unit_I20 I hc, unit2_I20 I hc, unit0_I20 I hc, unit02_I20 I hc, unit_I31 I hc, unit2_I31 I hc, unit0_I31 I hc, unit02_I31 I hc, unit_I40 I hc, unit2_I40 I hc, unit0_I40 I hc, unit02_I40 I hc]
  unit_cases

set_option maxHeartbeats 1000000 in
theorem non_d2_g3_unit (par : Par) (bg : Bg) (v : NonEnv) :
    non_d2_g3 (par.unit c) (bg.unit c) (I.unit c) (v.unit c) = non_d2_g3 par bg I v := by
  simp only [non_d2_g3, Par.unit, NonEnv.unit, unit_ren I hc, unit_I00 I hc, unit2_I00 I hc, unit0_I00 I hc, unit02_I00 I hc, unit_I02 I hc, unit2_I02 I hc, unit0_I02 I hc, unit02_I02 I hc, unit_I04 I hc, unit2_I04 I hc, unit0_I04 I hc, unit02_I04 I hc, unit_I11 I hc, unit2_I11 I hc, unit0_I11 I hc, unit02_I11 I hc, unit_I13 I hc, unit2_I13 I hc, unit0_I13 I hc, unit02_I13 I hc, unit_I22 I hc, unit2_I22 I hc, unit0_I22 I hc, unit02_I22 I hc, unit_I20 I hc, unit2_I20 I hc, unit0_I20 I hc, unit02_I20 I hc, unit_I31 I hc, unit2_I31 I hc, unit0_I31 I hc, unit02_I31 I hc, unit_I40 I hc, unit2_I40 I hc, unit0_I40 I hc, unit02_I40 I hc]
  unit_cases

set_option maxHeartbeats 1000000 in
theorem non_g1_g2_unit (par : Par) (bg : Bg) (v : NonEnv) :
    non_g1_g2 (par.unit c) (bg.unit c) (I.unit c) (v.unit c) = non_g1_g2 par bg I v := by
  simp only [non_g1_g2, Par.unit, NonEnv.unit, unit_ren I hc, unit_I00 I hc, unit2_I00 I hc, unit0_I00 I hc, unit02_I00 I hc, unit_I02 I hc, unit2_I02 I hc, unit0_I02 I hc, unit02_I02 I hc, unit_I04 I hc, unit2_I04 I hc, unit0_I04 I hc, unit02_I04 I hc, unit_I11 I hc, unit2_I11 I hc, unit0_I11 I hc, unit02_I11 I hc, unit_I13 I hc, unit2_I13 I hc, unit0_I13 I hc, unit02_I13 I hc, unit_I22 I hc, unit2_I22 I hc, unit0_I22 I hc, unit02_I22 I hc, unit_I20 I hc, unit2_I20 I hc, unit0_I20 I hc, unit02_I20 I hc, unit_I31 I hc, unit2_I31 I hc, unit0_I31 I hc, unit02_I31 I hc, unit_I40 I hc, unit2_I40 I hc, unit0_I40 I hc, unit02_I40 I hc]
  unit_cases

set_option maxHeartbeats 1000000 in
theorem non_g1_g3_unit (par : Par) (bg : Bg) (v : NonEnv) :
    non_g1_g3 (par.unit c) (bg.unit c) (I.unit c) (v.unit c) = non_g1_g3 par bg I v := by
  simp only [non_g1_g3, Par.unit, NonEnv.unit, unit_ren I hc, unit_I00 I hc, unit2_I00 I hc, unit0_I00 I hc, unit02_I00 I hc, unit_I02 I hc, unit2_I02 I hc, unit0_I02 I hc, unit02_I02 I hc, unit_I04 I hc, unit2_I04 I hc, unit0_I04 I hc, unit02_I04 I hc, unit_I11 I hc, unit2_I11 I hc, unit0_I11 I hc, unit02_I11 I hc, unit_I13 I hc, unit2_I13 I hc, unit0_I13 I hc, unit02_I13 I hc, unit_I22 I hc, unit2_I22 I hc, unit0_I22 I hc, unit02_I22 I hc, unit_I20 I hc, unit2_I20 I hc, unit0_I20 I hc, unit02_I20 I hc, unit_I31 I hc, unit2_I31 I hc, unit0_I31 I hc, unit02_I31 I hc, unit_I40 I hc, unit2_I40 I hc, unit0_I40 I hc, unit02_I40 I hc]
  unit_cases

set_option maxHeartbeats 1000000 in
theorem non_g2_g3_unit (par : Par) (bg : Bg) (v : NonEnv) :
    non_g2_g3 (par.unit c) (bg.unit c) (I.unit c) (v.unit c) = non_g2_g3 par bg I v := by
  simp only [non_g2_g3, Par.unit, NonEnv.unit, unit_ren I hc, unit_I00 I hc, unit2_I00 I hc, unit0_I00 I hc, unit02_I00 I hc, unit_I02 I hc, unit2_I02 I hc, unit0_I02 I hc, unit02_I02 I hc, unit_I04 I hc, unit2_I04 I hc, unit0_I04 I hc, unit02_I04 I hc, unit_I11 I hc, unit2_I11 I hc, unit0_I11 I hc, unit02_I11 I hc, unit_I13 I hc, unit2_I13 I hc, unit0_I13 I hc, unit02_I13 I hc, unit_I22 I hc, unit2_I22 I hc, unit0_I22 I hc, unit02_I22 I hc, unit_I20 I hc, unit2_I20 I hc, unit0_I20 I hc, unit02_I20 I hc, unit_I31 I hc, unit2_I31 I hc, unit0_I31 I hc, unit02_I31 I hc, unit_I40 I hc, unit2_I40 I hc, unit0_I40 I hc, unit02_I40 I hc]
  unit_cases

omit hc in
set_option maxRecDepth 10000 in
set_option maxHeartbeats 1000000 in
theorem single_den_len_unit (hp : 0 < c) (par : Par) (bg : Bg) (v : SingleEnv) :
    single_den_len (par.unit c) (bg.unit c) (I.unit c) (v.unit c) = single_den_len par bg I v := by
  have hc : c ≠ 0 := hp.ne'
  simp only [single_den_len, Par.unit, Bg.unit, SingleEnv.unit, ne_eq, unit_eq_zero hc, unit_sqrt hp, unit_half I hc, unit2_half I hc,
    unit_I00 I hc, unit2_I00 I hc, unit0_I00 I hc, unit02_I00 I hc, unit_I02 I hc, unit2_I02 I hc, unit0_I02 I hc, unit02_I02 I hc, unit_I04 I hc, unit2_I04 I hc, unit0_I04 I hc, unit02_I04 I hc, unit_I11 I hc, unit2_I11 I hc, unit0_I11 I hc, unit02_I11 I hc, unit_I13 I hc, unit2_I13 I hc, unit0_I13 I hc, unit02_I13 I hc, unit_I22 I hc, unit2_I22 I hc, unit0_I22 I hc, unit02_I22 I hc, unit_I20 I hc, unit2_I20 I hc, unit0_I20 I hc, unit02_I20 I hc, unit_I31 I hc, unit2_I31 I hc, unit0_I31 I hc, unit02_I31 I hc, unit_I40 I hc, unit2_I40 I hc, unit0_I40 I hc, unit02_I40 I hc]
  unit_cases

omit hc in
set_option maxRecDepth 10000 in
set_option maxHeartbeats 1000000 in
theorem single_rsd_len_unit (hp : 0 < c) (par : Par) (bg : Bg) (v : SingleEnv) :
    single_rsd_len (par.unit c) (bg.unit c) (I.unit c) (v.unit c) = single_rsd_len par bg I v := by
  have hc : c ≠ 0 := hp.ne'
  simp only [single_rsd_len, Par.unit, Bg.unit, SingleEnv.unit, ne_eq, unit_eq_zero hc, unit_sqrt hp, unit_half I hc, unit2_half I hc,
    unit_I00 I hc, unit2_I00 I hc, unit0_I00 I hc, unit02_I00 I hc, unit_I02 I hc, unit2_I02 I hc, unit0_I02 I hc, unit02_I02 I hc, unit_I04 I hc, unit2_I04 I hc, unit0_I04 I hc, unit02_I04 I hc, unit_I11 I hc, unit2_I11 I hc, unit0_I11 I hc, unit02_I11 I hc, unit_I13 I hc, unit2_I13 I hc, unit0_I13 I hc, unit02_I13 I hc, unit_I22 I hc, unit2_I22 I hc, unit0_I22 I hc, unit02_I22 I hc, unit_I20 I hc, unit2_I20 I hc, unit0_I20 I hc, unit02_I20 I hc, unit_I31 I hc, unit2_I31 I hc, unit0_I31 I hc, unit02_I31 I hc, unit_I40 I hc, unit2_I40 I hc, unit0_I40 I hc, unit02_I40 I hc]
  unit_cases

omit hc in
set_option maxRecDepth 10000 in
set_option maxHeartbeats 1000000 in
theorem single_d1_len_unit (hp : 0 < c) (par : Par) (bg : Bg) (v : SingleEnv) :
    single_d1_len (par.unit c) (bg.unit c) (I.unit c) (v.unit c) = single_d1_len par bg I v := by
  have hc : c ≠ 0 := hp.ne'
  simp only [single_d1_len, Par.unit, Bg.unit, SingleEnv.unit, ne_eq, unit_eq_zero hc, unit_sqrt hp, unit_half I hc, unit2_half I hc,
    unit_I00 I hc, unit2_I00 I hc, unit0_I00 I hc, unit02_I00 I hc, unit_I02 I hc, unit2_I02 I hc, unit0_I02 I hc, unit02_I02 I hc, unit_I04 I hc, unit2_I04 I hc, unit0_I04 I hc, unit02_I04 I hc, unit_I11 I hc, unit2_I11 I hc, unit0_I11 I hc, unit02_I11 I hc, unit_I13 I hc, unit2_I13 I hc, unit0_I13 I hc, unit02_I13 I hc, unit_I22 I hc, unit2_I22 I hc, unit0_I22 I hc, unit02_I22 I hc, unit_I20 I hc, unit2_I20 I hc, unit0_I20 I hc, unit02_I20 I hc, unit_I31 I hc, unit2_I31 I hc, unit0_I31 I hc, unit02_I31 I hc, unit_I40 I hc, unit2_I40 I hc, unit0_I40 I hc, unit02_I40 I hc]
  unit_cases

omit hc in
set_option maxRecDepth 10000 in
set_option maxHeartbeats 1000000 in
theorem single_d2_len_unit (hp : 0 < c) (par : Par) (bg : Bg) (v : SingleEnv) :
    single_d2_len (par.unit c) (bg.unit c) (I.unit c) (v.unit c) = single_d2_len par bg I v := by
  have hc : c ≠ 0 := hp.ne'
  simp only [single_d2_len, Par.unit, Bg.unit, SingleEnv.unit, ne_eq, unit_eq_zero hc, unit_sqrt hp, unit_half I hc, unit2_half I hc,
    unit_I00 I hc, unit2_I00 I hc, unit0_I00 I hc, unit02_I00 I hc, unit_I02 I hc, unit2_I02 I hc, unit0_I02 I hc, unit02_I02 I hc, unit_I04 I hc, unit2_I04 I hc, unit0_I04 I hc, unit02_I04 I hc, unit_I11 I hc, unit2_I11 I hc, unit0_I11 I hc, unit02_I11 I hc, unit_I13 I hc, unit2_I13 I hc, unit0_I13 I hc, unit02_I13 I hc, unit_I22 I hc, unit2_I22 I hc, unit0_I22 I hc, unit02_I22 I hc, unit_I20 I hc, unit2_I20 I hc, unit0_I20 I hc, unit02_I20 I hc, unit_I31 I hc, unit2_I31 I hc, unit0_I31 I hc, unit02_I31 I hc, unit_I40 I hc, unit2_I40 I hc, unit0_I40 I hc, unit02_I40 I hc]
  unit_cases

omit hc in
set_option maxRecDepth 10000 in
set_option maxHeartbeats 1000000 in
theorem single_g1_len_unit (hp : 0 < c) (par : Par) (bg : Bg) (v : SingleEnv) :
    single_g1_len (par.unit c) (bg.unit c) (I.unit c) (v.unit c) = single_g1_len par bg I v := by
  have hc : c ≠ 0 := hp.ne'
  simp only [single_g1_len, Par.unit, Bg.unit, SingleEnv.unit, ne_eq, unit_eq_zero hc, unit_sqrt hp, unit_half I hc, unit2_half I hc,
    unit_I00 I hc, unit2_I00 I hc, unit0_I00 I hc, unit02_I00 I hc, unit_I02 I hc, unit2_I02 I hc, unit0_I02 I hc, unit02_I02 I hc, unit_I04 I hc, unit2_I04 I hc, unit0_I04 I hc, unit02_I04 I hc, unit_I11 I hc, unit2_I11 I hc, unit0_I11 I hc, unit02_I11 I hc, unit_I13 I hc, unit2_I13 I hc, unit0_I13 I hc, unit02_I13 I hc, unit_I22 I hc, unit2_I22 I hc, unit0_I22 I hc, unit02_I22 I hc, unit_I20 I hc, unit2_I20 I hc, unit0_I20 I hc, unit02_I20 I hc, unit_I31 I hc, unit2_I31 I hc, unit0_I31 I hc, unit02_I31 I hc, unit_I40 I hc, unit2_I40 I hc, unit0_I40 I hc, unit02_I40 I hc]
  unit_cases

omit hc in
set_option maxRecDepth 10000 in
set_option maxHeartbeats 1000000 in
theorem single_g2_len_unit (hp : 0 < c) (par : Par) (bg : Bg) (v : SingleEnv) :
    single_g2_len (par.unit c) (bg.unit c) (I.unit c) (v.unit c) = single_g2_len par bg I v := by
  have hc : c ≠ 0 := hp.ne'
  simp only [single_g2_len, Par.unit, Bg.unit, SingleEnv.unit, ne_eq, unit_eq_zero hc, unit_sqrt hp, unit_half I hc, unit2_half I hc,
    unit_I00 I hc, unit2_I00 I hc, unit0_I00 I hc, unit02_I00 I hc, unit_I02 I hc, unit2_I02 I hc, unit0_I02 I hc, unit02_I02 I hc, unit_I04 I hc, unit2_I04 I hc, unit0_I04 I hc, unit02_I04 I hc, unit_I11 I hc, unit2_I11 I hc, unit0_I11 I hc, unit02_I11 I hc, unit_I13 I hc, unit2_I13 I hc, unit0_I13 I hc, unit02_I13 I hc, unit_I22 I hc, unit2_I22 I hc, unit0_I22 I hc, unit02_I22 I hc, unit_I20 I hc, unit2_I20 I hc, unit0_I20 I hc, unit02_I20 I hc, unit_I31 I hc, unit2_I31 I hc, unit0_I31 I hc, unit02_I31 I hc, unit_I40 I hc, unit2_I40 I hc, unit0_I40 I hc, unit02_I40 I hc]
  unit_cases

omit hc in
set_option maxRecDepth 10000 in
set_option maxHeartbeats 1000000 in
theorem single_g3_len_unit (hp : 0 < c) (par : Par) (bg : Bg) (v : SingleEnv) :
    single_g3_len (par.unit c) (bg.unit c) (I.unit c) (v.unit c) = single_g3_len par bg I v := by
  have hc : c ≠ 0 := hp.ne'
  simp only [single_g3_len, Par.unit, Bg.unit, SingleEnv.unit, ne_eq, unit_eq_zero hc, unit_sqrt hp, unit_half I hc, unit2_half I hc,
    unit_I00 I hc, unit2_I00 I hc, unit0_I00 I hc, unit02_I00 I hc, unit_I02 I hc, unit2_I02 I hc, unit0_I02 I hc, unit02_I02 I hc, unit_I04 I hc, unit2_I04 I hc, unit0_I04 I hc, unit02_I04 I hc, unit_I11 I hc, unit2_I11 I hc, unit0_I11 I hc, unit02_I11 I hc, unit_I13 I hc, unit2_I13 I hc, unit0_I13 I hc, unit02_I13 I hc, unit_I22 I hc, unit2_I22 I hc, unit0_I22 I hc, unit02_I22 I hc, unit_I20 I hc, unit2_I20 I hc, unit0_I20 I hc, unit02_I20 I hc, unit_I31 I hc, unit2_I31 I hc, unit0_I31 I hc, unit02_I31 I hc, unit_I40 I hc, unit2_I40 I hc, unit0_I40 I hc, unit02_I40 I hc]
  unit_cases

omit hc in
set_option maxRecDepth 10000 in
set_option maxHeartbeats 1000000 in
theorem single_den_g4_unit (hp : 0 < c) (par : Par) (bg : Bg) (v : SingleEnv) :
    single_den_g4 (par.unit c) (bg.unit c) (I.unit c) (v.unit c) = single_den_g4 par bg I v := by
  have hc : c ≠ 0 := hp.ne'
  simp only [single_den_g4, Par.unit, Bg.unit, SingleEnv.unit, ne_eq, unit_eq_zero hc, unit_sqrt hp, unit_half I hc, unit2_half I hc,
    unit_I00 I hc, unit2_I00 I hc, unit0_I00 I hc, unit02_I00 I hc, unit_I02 I hc, unit2_I02 I hc, unit0_I02 I hc, unit02_I02 I hc, unit_I04 I hc, unit2_I04 I hc, unit0_I04 I hc, unit02_I04 I hc, unit_I11 I hc, unit2_I11 I hc, unit0_I11 I hc, unit02_I11 I hc, unit_I13 I hc, unit2_I13 I hc, unit0_I13 I hc, unit02_I13 I hc, unit_I22 I hc, unit2_I22 I hc, unit0_I22 I hc, unit02_I22 I hc, unit_I20 I hc, unit2_I20 I hc, unit0_I20 I hc, unit02_I20 I hc, unit_I31 I hc, unit2_I31 I hc, unit0_I31 I hc, unit02_I31 I hc, unit_I40 I hc, unit2_I40 I hc, unit0_I40 I hc, unit02_I40 I hc]
  unit_cases

omit hc in
set_option maxRecDepth 10000 in
set_option maxHeartbeats 1000000 in
theorem single_den_g5_unit (hp : 0 < c) (par : Par) (bg : Bg) (v : SingleEnv) :
    single_den_g5 (par.unit c) (bg.unit c) (I.unit c) (v.unit c) = single_den_g5 par bg I v := by
  have hc : c ≠ 0 := hp.ne'
  simp only [single_den_g5, Par.unit, Bg.unit, SingleEnv.unit, ne_eq, unit_eq_zero hc, unit_sqrt hp, unit_half I hc, unit2_half I hc,
    unit_I00 I hc, unit2_I00 I hc, unit0_I00 I hc, unit02_I00 I hc, unit_I02 I hc, unit2_I02 I hc, unit0_I02 I hc, unit02_I02 I hc, unit_I04 I hc, unit2_I04 I hc, unit0_I04 I hc, unit02_I04 I hc, unit_I11 I hc, unit2_I11 I hc, unit0_I11 I hc, unit02_I11 I hc, unit_I13 I hc, unit2_I13 I hc, unit0_I13 I hc, unit02_I13 I hc, unit_I22 I hc, unit2_I22 I hc, unit0_I22 I hc, unit02_I22 I hc, unit_I20 I hc, unit2_I20 I hc, unit0_I20 I hc, unit02_I20 I hc, unit_I31 I hc, unit2_I31 I hc, unit0_I31 I hc, unit02_I31 I hc, unit_I40 I hc, unit2_I40 I hc, unit0_I40 I hc, unit02_I40 I hc]
  unit_cases

omit hc in
set_option maxRecDepth 10000 in
set_option maxHeartbeats 1000000 in
theorem single_rsd_g4_unit (hp : 0 < c) (par : Par) (bg : Bg) (v : SingleEnv) :
    single_rsd_g4 (par.unit c) (bg.unit c) (I.unit c) (v.unit c) = single_rsd_g4 par bg I v := by
  have hc : c ≠ 0 := hp.ne'
  simp only [single_rsd_g4, Par.unit, Bg.unit, SingleEnv.unit, ne_eq, unit_eq_zero hc, unit_sqrt hp, unit_half I hc, unit2_half I hc,
    unit_I00 I hc, unit2_I00 I hc, unit0_I00 I hc, unit02_I00 I hc, unit_I02 I hc, unit2_I02 I hc, unit0_I02 I hc, unit02_I02 I hc, unit_I04 I hc, unit2_I04 I hc, unit0_I04 I hc, unit02_I04 I hc, unit_I11 I hc, unit2_I11 I hc, unit0_I11 I hc, unit02_I11 I hc, unit_I13 I hc, unit2_I13 I hc, unit0_I13 I hc, unit02_I13 I hc, unit_I22 I hc, unit2_I22 I hc, unit0_I22 I hc, unit02_I22 I hc, unit_I20 I hc, unit2_I20 I hc, unit0_I20 I hc, unit02_I20 I hc, unit_I31 I hc, unit2_I31 I hc, unit0_I31 I hc, unit02_I31 I hc, unit_I40 I hc, unit2_I40 I hc, unit0_I40 I hc, unit02_I40 I hc]
  unit_cases

omit hc in
set_option maxRecDepth 10000 in
set_option maxHeartbeats 1000000 in
theorem single_rsd_g5_unit (hp : 0 < c) (par : Par) (bg : Bg) (v : SingleEnv) :
    single_rsd_g5 (par.unit c) (bg.unit c) (I.unit c) (v.unit c) = single_rsd_g5 par bg I v := by
  have hc : c ≠ 0 := hp.ne'
  simp only [single_rsd_g5, Par.unit, Bg.unit, SingleEnv.unit, ne_eq, unit_eq_zero hc, unit_sqrt hp, unit_half I hc, unit2_half I hc,
    unit_I00 I hc, unit2_I00 I hc, unit0_I00 I hc, unit02_I00 I hc, unit_I02 I hc, unit2_I02 I hc, unit0_I02 I hc, unit02_I02 I hc, unit_I04 I hc, unit2_I04 I hc, unit0_I04 I hc, unit02_I04 I hc, unit_I11 I hc, unit2_I11 I hc, unit0_I11 I hc, unit02_I11 I hc, unit_I13 I hc, unit2_I13 I hc, unit0_I13 I hc, unit02_I13 I hc, unit_I22 I hc, unit2_I22 I hc, unit0_I22 I hc, unit02_I22 I hc, unit_I20 I hc, unit2_I20 I hc, unit0_I20 I hc, unit02_I20 I hc, unit_I31 I hc, unit2_I31 I hc, unit0_I31 I hc, unit02_I31 I hc, unit_I40 I hc, unit2_I40 I hc, unit0_I40 I hc, unit02_I40 I hc]
  unit_cases

omit hc in
set_option maxRecDepth 10000 in
set_option maxHeartbeats 1000000 in
theorem single_d1_g4_unit (hp : 0 < c) (par : Par) (bg : Bg) (v : SingleEnv) :
    single_d1_g4 (par.unit c) (bg.unit c) (I.unit c) (v.unit c) = single_d1_g4 par bg I v := by
  have hc : c ≠ 0 := hp.ne'
  simp only [single_d1_g4, Par.unit, Bg.unit, SingleEnv.unit, ne_eq, unit_eq_zero hc, unit_sqrt hp, unit_half I hc, unit2_half I hc,
    unit_I00 I hc, unit2_I00 I hc, unit0_I00 I hc, unit02_I00 I hc, unit_I02 I hc, unit2_I02 I hc, unit0_I02 I hc, unit02_I02 I hc, unit_I04 I hc, unit2_I04 I hc, unit0_I04 I hc, unit02_I04 I hc, unit_I11 I hc, unit2_I11 I hc, unit0_I11 I hc, unit02_I11 I hc, unit_I13 I hc, unit2_I13 I hc, unit0_I13 I hc, unit02_I13 I hc, unit_I22 I hc, unit2_I22 I hc, unit0_I22 I hc, unit02_I22 I hc, unit_I20 I hc, unit2_I20 I hc, unit0_I20 I hc, unit02_I20 I hc, unit_I31 I hc, unit2_I31 I hc, unit0_I31 I hc, unit02_I31 I hc, unit_I40 I hc, unit2_I40 I hc, unit0_I40 I hc, unit02_I40 I hc]
  unit_cases

omit hc in
set_option maxRecDepth 10000 in
set_option maxHeartbeats 1000000 in
theorem single_d1_g5_unit (hp : 0 < c) (par : Par) (bg : Bg) (v : SingleEnv) :
    single_d1_g5 (par.unit c) (bg.unit c) (I.unit c) (v.unit c) = single_d1_g5 par bg I v := by
  have hc : c ≠ 0 := hp.ne'
  simp only [single_d1_g5, Par.unit, Bg.unit, SingleEnv.unit, ne_eq, unit_eq_zero hc, unit_sqrt hp, unit_half I hc, unit2_half I hc,
    unit_I00 I hc, unit2_I00 I hc, unit0_I00 I hc, unit02_I00 I hc, unit_I02 I hc, unit2_I02 I hc, unit0_I02 I hc, unit02_I02 I hc, unit_I04 I hc, unit2_I04 I hc, unit0_I04 I hc, unit02_I04 I hc, unit_I11 I hc, unit2_I11 I hc, unit0_I11 I hc, unit02_I11 I hc, unit_I13 I hc, unit2_I13 I hc, unit0_I13 I hc, unit02_I13 I hc, unit_I22 I hc, unit2_I22 I hc, unit0_I22 I hc, unit02_I22 I hc, unit_I20 I hc, unit2_I20 I hc, unit0_I20 I hc, unit02_I20 I hc, unit_I31 I hc, unit2_I31 I hc, unit0_I31 I hc, unit02_I31 I hc, unit_I40 I hc, unit2_I40 I hc, unit0_I40 I hc, unit02_I40 I hc]
  unit_cases

omit hc in
set_option maxRecDepth 10000 in
set_option maxHeartbeats 1000000 in
theorem single_d2_g4_unit (hp : 0 < c) (par : Par) (bg : Bg) (v : SingleEnv) :
    single_d2_g4 (par.unit c) (bg.unit c) (I.unit c) (v.unit c) = single_d2_g4 par bg I v := by
  have hc : c ≠ 0 := hp.ne'
  simp only [single_d2_g4, Par.unit, Bg.unit, SingleEnv.unit, ne_eq, unit_eq_zero hc, unit_sqrt hp, unit_half I hc, unit2_half I hc,
    unit_I00 I hc, unit2_I00 I hc, unit0_I00 I hc, unit02_I00 I hc, unit_I02 I hc, unit2_I02 I hc, unit0_I02 I hc, unit02_I02 I hc, unit_I04 I hc, unit2_I04 I hc, unit0_I04 I hc, unit02_I04 I hc, unit_I11 I hc, unit2_I11 I hc, unit0_I11 I hc, unit02_I11 I hc, unit_I13 I hc, unit2_I13 I hc, unit0_I13 I hc, unit02_I13 I hc, unit_I22 I hc, unit2_I22 I hc, unit0_I22 I hc, unit02_I22 I hc, unit_I20 I hc, unit2_I20 I hc, unit0_I20 I hc, unit02_I20 I hc, unit_I31 I hc, unit2_I31 I hc, unit0_I31 I hc, unit02_I31 I hc, unit_I40 I hc, unit2_I40 I hc, unit0_I40 I hc, unit02_I40 I hc]
  unit_cases

omit hc in
set_option maxRecDepth 10000 in
set_option maxHeartbeats 1000000 in
theorem single_d2_g5_unit (hp : 0 < c) (par : Par) (bg : Bg) (v : SingleEnv) :
    single_d2_g5 (par.unit c) (bg.unit c) (I.unit c) (v.unit c) = single_d2_g5 par bg I v := by
  have hc : c ≠ 0 := hp.ne'
  simp only [single_d2_g5, Par.unit, Bg.unit, SingleEnv.unit, ne_eq, unit_eq_zero hc, unit_sqrt hp, unit_half I hc, unit2_half I hc,
    unit_I00 I hc, unit2_I00 I hc, unit0_I00 I hc, unit02_I00 I hc, unit_I02 I hc, unit2_I02 I hc, unit0_I02 I hc, unit02_I02 I hc, unit_I04 I hc, unit2_I04 I hc, unit0_I04 I hc, unit02_I04 I hc, unit_I11 I hc, unit2_I11 I hc, unit0_I11 I hc, unit02_I11 I hc, unit_I13 I hc, unit2_I13 I hc, unit0_I13 I hc, unit02_I13 I hc, unit_I22 I hc, unit2_I22 I hc, unit0_I22 I hc, unit02_I22 I hc, unit_I20 I hc, unit2_I20 I hc, unit0_I20 I hc, unit02_I20 I hc, unit_I31 I hc, unit2_I31 I hc, unit0_I31 I hc, unit02_I31 I hc, unit_I40 I hc, unit2_I40 I hc, unit0_I40 I hc, unit02_I40 I hc]
  unit_cases

omit hc in
set_option maxRecDepth 10000 in
set_option maxHeartbeats 1000000 in
theorem single_g1_g4_unit (hp : 0 < c) (par : Par) (bg : Bg) (v : SingleEnv) :
    single_g1_g4 (par.unit c) (bg.unit c) (I.unit c) (v.unit c) = single_g1_g4 par bg I v := by
  have hc : c ≠ 0 := hp.ne'
  simp only [single_g1_g4, Par.unit, Bg.unit, SingleEnv.unit, ne_eq, unit_eq_zero hc, unit_sqrt hp, unit_half I hc, unit2_half I hc,
    unit_I00 I hc, unit2_I00 I hc, unit0_I00 I hc, unit02_I00 I hc, unit_I02 I hc, unit2_I02 I hc, unit0_I02 I hc, unit02_I02 I hc, unit_I04 I hc, unit2_I04 I hc, unit0_I04 I hc, unit02_I04 I hc, unit_I11 I hc, unit2_I11 I hc, unit0_I11 I hc, unit02_I11 I hc, unit_I13 I hc, unit2_I13 I hc, unit0_I13 I hc, unit02_I13 I hc, unit_I22 I hc, unit2_I22 I hc, unit0_I22 I hc, unit02_I22 I hc, unit_I20 I hc, unit2_I20 I hc, unit0_I20 I hc, unit02_I20 I hc, unit_I31 I hc, unit2_I31 I hc, unit0_I31 I hc, unit02_I31 I hc, unit_I40 I hc, unit2_I40 I hc, unit0_I40 I hc, unit02_I40 I hc]
  unit_cases

omit hc in
set_option maxRecDepth 10000 in
set_option maxHeartbeats 1000000 in
theorem single_g1_g5_unit (hp : 0 < c) (par : Par) (bg : Bg) (v : SingleEnv) :
    single_g1_g5 (par.unit c) (bg.unit c) (I.unit c) (v.unit c) = single_g1_g5 par bg I v := by
  have hc : c ≠ 0 := hp.ne'
  simp only [single_g1_g5, Par.unit, Bg.unit, SingleEnv.unit, ne_eq, unit_eq_zero hc, unit_sqrt hp, unit_half I hc, unit2_half I hc,
    unit_I00 I hc, unit2_I00 I hc, unit0_I00 I hc, unit02_I00 I hc, unit_I02 I hc, unit2_I02 I hc, unit0_I02 I hc, unit02_I02 I hc, unit_I04 I hc, unit2_I04 I hc, unit0_I04 I hc, unit02_I04 I hc, unit_I11 I hc, unit2_I11 I hc, unit0_I11 I hc, unit02_I11 I hc, unit_I13 I hc, unit2_I13 I hc, unit0_I13 I hc, unit02_I13 I hc, unit_I22 I hc, unit2_I22 I hc, unit0_I22 I hc, unit02_I22 I hc, unit_I20 I hc, unit2_I20 I hc, unit0_I20 I hc, unit02_I20 I hc, unit_I31 I hc, unit2_I31 I hc, unit0_I31 I hc, unit02_I31 I hc, unit_I40 I hc, unit2_I40 I hc, unit0_I40 I hc, unit02_I40 I hc]
  unit_cases

omit hc in
set_option maxRecDepth 10000 in
set_option maxHeartbeats 1000000 in
theorem single_g2_g4_unit (hp : 0 < c) (par : Par) (bg : Bg) (v : SingleEnv) :
    single_g2_g4 (par.unit c) (bg.unit c) (I.unit c) (v.unit c) = single_g2_g4 par bg I v := by
  have hc : c ≠ 0 := hp.ne'
  simp only [single_g2_g4, Par.unit, Bg.unit, SingleEnv.unit, ne_eq, unit_eq_zero hc, unit_sqrt hp, unit_half I hc, unit2_half I hc,
    unit_I00 I hc, unit2_I00 I hc, unit0_I00 I hc, unit02_I00 I hc, unit_I02 I hc, unit2_I02 I hc, unit0_I02 I hc, unit02_I02 I hc, unit_I04 I hc, unit2_I04 I hc, unit0_I04 I hc, unit02_I04 I hc, unit_I11 I hc, unit2_I11 I hc, unit0_I11 I hc, unit02_I11 I hc, unit_I13 I hc, unit2_I13 I hc, unit0_I13 I hc, unit02_I13 I hc, unit_I22 I hc, unit2_I22 I hc, unit0_I22 I hc, unit02_I22 I hc, unit_I20 I hc, unit2_I20 I hc, unit0_I20 I hc, unit02_I20 I hc, unit_I31 I hc, unit2_I31 I hc, unit0_I31 I hc, unit02_I31 I hc, unit_I40 I hc, unit2_I40 I hc, unit0_I40 I hc, unit02_I40 I hc]
  unit_cases

omit hc in
set_option maxRecDepth 10000 in
set_option maxHeartbeats 1000000 in
theorem single_g2_g5_unit (hp : 0 < c) (par : Par) (bg : Bg) (v : SingleEnv) :
    single_g2_g5 (par.unit c) (bg.unit c) (I.unit c) (v.unit c) = single_g2_g5 par bg I v := by
  have hc : c ≠ 0 := hp.ne'
  simp only [single_g2_g5, Par.unit, Bg.unit, SingleEnv.unit, ne_eq, unit_eq_zero hc, unit_sqrt hp, unit_half I hc, unit2_half I hc,
    unit_I00 I hc, unit2_I00 I hc, unit0_I00 I hc, unit02_I00 I hc, unit_I02 I hc, unit2_I02 I hc, unit0_I02 I hc, unit02_I02 I hc, unit_I04 I hc, unit2_I04 I hc, unit0_I04 I hc, unit02_I04 I hc, unit_I11 I hc, unit2_I11 I hc, unit0_I11 I hc, unit02_I11 I hc, unit_I13 I hc, unit2_I13 I hc, unit0_I13 I hc, unit02_I13 I hc, unit_I22 I hc, unit2_I22 I hc, unit0_I22 I hc, unit02_I22 I hc, unit_I20 I hc, unit2_I20 I hc, unit0_I20 I hc, unit02_I20 I hc, unit_I31 I hc, unit2_I31 I hc, unit0_I31 I hc, unit02_I31 I hc, unit_I40 I hc, unit2_I40 I hc, unit0_I40 I hc, unit02_I40 I hc]
  unit_cases

omit hc in
set_option maxRecDepth 10000 in
set_option maxHeartbeats 1000000 in
theorem single_g3_g4_unit (hp : 0 < c) (par : Par) (bg : Bg) (v : SingleEnv) :
    single_g3_g4 (par.unit c) (bg.unit c) (I.unit c) (v.unit c) = single_g3_g4 par bg I v := by
  have hc : c ≠ 0 := hp.ne'
  simp only [single_g3_g4, Par.unit, Bg.unit, SingleEnv.unit, ne_eq, unit_eq_zero hc, unit_sqrt hp, unit_half I hc, unit2_half I hc,
    unit_I00 I hc, unit2_I00 I hc, unit0_I00 I hc, unit02_I00 I hc, unit_I02 I hc, unit2_I02 I hc, unit0_I02 I hc, unit02_I02 I hc, unit_I04 I hc, unit2_I04 I hc, unit0_I04 I hc, unit02_I04 I hc, unit_I11 I hc, unit2_I11 I hc, unit0_I11 I hc, unit02_I11 I hc, unit_I13 I hc, unit2_I13 I hc, unit0_I13 I hc, unit02_I13 I hc, unit_I22 I hc, unit2_I22 I hc, unit0_I22 I hc, unit02_I22 I hc, unit_I20 I hc, unit2_I20 I hc, unit0_I20 I hc, unit02_I20 I hc, unit_I31 I hc, unit2_I31 I hc, unit0_I31 I hc, unit02_I31 I hc, unit_I40 I hc, unit2_I40 I hc, unit0_I40 I hc, unit02_I40 I hc]
  unit_cases

omit hc in
set_option maxRecDepth 10000 in
set_option maxHeartbeats 1000000 in
theorem single_g3_g5_unit (hp : 0 < c) (par : Par) (bg : Bg) (v : SingleEnv) :
    single_g3_g5 (par.unit c) (bg.unit c) (I.unit c) (v.unit c) = single_g3_g5 par bg I v := by
  have hc : c ≠ 0 := hp.ne'
  simp only [single_g3_g5, Par.unit, Bg.unit, SingleEnv.unit, ne_eq, unit_eq_zero hc, unit_sqrt hp, unit_half I hc, unit2_half I hc,
    unit_I00 I hc, unit2_I00 I hc, unit0_I00 I hc, unit02_I00 I hc, unit_I02 I hc, unit2_I02 I hc, unit0_I02 I hc, unit02_I02 I hc, unit_I04 I hc, unit2_I04 I hc, unit0_I04 I hc, unit02_I04 I hc, unit_I11 I hc, unit2_I11 I hc, unit0_I11 I hc, unit02_I11 I hc, unit_I13 I hc, unit2_I13 I hc, unit0_I13 I hc, unit02_I13 I hc, unit_I22 I hc, unit2_I22 I hc, unit0_I22 I hc, unit02_I22 I hc, unit_I20 I hc, unit2_I20 I hc, unit0_I20 I hc, unit02_I20 I hc, unit_I31 I hc, unit2_I31 I hc, unit0_I31 I hc, unit02_I31 I hc, unit_I40 I hc, unit2_I40 I hc, unit0_I40 I hc, unit02_I40 I hc]
  unit_cases

omit hc in
set_option maxRecDepth 10000 in
set_option maxHeartbeats 1000000 in
theorem double_len_len_unit (hp : 0 < c) (par : Par) (bg : Bg) (v : DoubleEnv)
    (ha : par.correlation_contrib.len = true → par.only_cross_correlations = false → par.flatsky_nonlocal = false →
      v.r2 > 1e-20 ∧ c ^ 2 * v.r2 > 1e-20) :
    double_len_len (par.unit c) (bg.unit c) (I.unit c) (v.unit c) = c ^ 4 * double_len_len par bg I v := by
  have hc : c ≠ 0 := hp.ne'
  simp only [double_len_len, Par.unit, Bg.unit, DoubleEnv.unit]
  refine ite_same_mul (fun h1 => ?_) fun _ => zero_same
  refine ite_same_mul (fun _ => ?_) fun _ => ?_
  · simp only [unit_half' I hc, unit_mid hc]
    field_simp
  · refine ite_same_mul (fun h3 => ?_) fun _ => zero_same
    obtain ⟨a1, a2⟩ := ha h1.1 (by simpa using h1.2) (by simpa using h3)
    refine ite_pos_mul a2 a1 ?_
    simp only [unit_sqrt hp, unit_I00 I hc, unit2_I00 I hc, unit0_I00 I hc, unit02_I00 I hc, unit_I02 I hc, unit2_I02 I hc, unit0_I02 I hc, unit02_I02 I hc, unit_I04 I hc, unit2_I04 I hc, unit0_I04 I hc, unit02_I04 I hc, unit_I11 I hc, unit2_I11 I hc, unit0_I11 I hc, unit02_I11 I hc, unit_I13 I hc, unit2_I13 I hc, unit0_I13 I hc, unit02_I13 I hc, unit_I22 I hc, unit2_I22 I hc, unit0_I22 I hc, unit02_I22 I hc, unit_I20 I hc, unit2_I20 I hc, unit0_I20 I hc, unit02_I20 I hc, unit_I31 I hc, unit2_I31 I hc, unit0_I31 I hc, unit02_I31 I hc, unit_I40 I hc, unit2_I40 I hc, unit0_I40 I hc, unit02_I40 I hc, len_bracket hc]
    refine ite_same_mul (fun _ => ?_) fun _ => ?_
    · ring1
    · ring1

omit hc in
set_option maxRecDepth 10000 in
set_option maxHeartbeats 1000000 in
theorem double_g4_g4_unit (hp : 0 < c) (par : Par) (bg : Bg) (v : DoubleEnv) :
    double_g4_g4 (par.unit c) (bg.unit c) (I.unit c) (v.unit c) = c ^ 4 * double_g4_g4 par bg I v := by
  have hc : c ≠ 0 := hp.ne'
  simp only [double_g4_g4, Par.unit, Bg.unit, DoubleEnv.unit, ne_eq, unit_eq_zero hc, unit_sqrt hp, unit_half I hc, unit2_half I hc,
    unit_half' I hc, unit_mid hc, unit_I00 I hc, unit2_I00 I hc, unit0_I00 I hc, unit02_I00 I hc, unit_I02 I hc, unit2_I02 I hc, unit0_I02 I hc, unit02_I02 I hc, unit_I04 I hc, unit2_I04 I hc, unit0_I04 I hc, unit02_I04 I hc, unit_I11 I hc, unit2_I11 I hc, unit0_I11 I hc, unit02_I11 I hc, unit_I13 I hc, unit2_I13 I hc, unit0_I13 I hc, unit02_I13 I hc, unit_I22 I hc, unit2_I22 I hc, unit0_I22 I hc, unit02_I22 I hc, unit_I20 I hc, unit2_I20 I hc, unit0_I20 I hc, unit02_I20 I hc, unit_I31 I hc, unit2_I31 I hc, unit0_I31 I hc, unit02_I31 I hc, unit_I40 I hc, unit2_I40 I hc, unit0_I40 I hc, unit02_I40 I hc]
  unit_cases

omit hc in
set_option maxRecDepth 10000 in
set_option maxHeartbeats 1000000 in
theorem double_g5_g5_unit (hp : 0 < c) (par : Par) (bg : Bg) (v : DoubleEnv) :
    double_g5_g5 (par.unit c) (bg.unit c) (I.unit c) (v.unit c) = c ^ 4 * double_g5_g5 par bg I v := by
  have hc : c ≠ 0 := hp.ne'
  simp only [double_g5_g5, Par.unit, Bg.unit, DoubleEnv.unit, ne_eq, unit_eq_zero hc, unit_sqrt hp, unit_half I hc, unit2_half I hc,
    unit_half' I hc, unit_mid hc, unit_I00 I hc, unit2_I00 I hc, unit0_I00 I hc, unit02_I00 I hc, unit_I02 I hc, unit2_I02 I hc, unit0_I02 I hc, unit02_I02 I hc, unit_I04 I hc, unit2_I04 I hc, unit0_I04 I hc, unit02_I04 I hc, unit_I11 I hc, unit2_I11 I hc, unit0_I11 I hc, unit02_I11 I hc, unit_I13 I hc, unit2_I13 I hc, unit0_I13 I hc, unit02_I13 I hc, unit_I22 I hc, unit2_I22 I hc, unit0_I22 I hc, unit02_I22 I hc, unit_I20 I hc, unit2_I20 I hc, unit0_I20 I hc, unit02_I20 I hc, unit_I31 I hc, unit2_I31 I hc, unit0_I31 I hc, unit02_I31 I hc, unit_I40 I hc, unit2_I40 I hc, unit0_I40 I hc, unit02_I40 I hc]
  exact ite_same_mul (fun _ => g5_g5_leaf hc _ _ _ _ _ _ _ _ _ _ _ _) fun _ => zero_same

omit hc in
set_option maxRecDepth 10000 in
set_option maxHeartbeats 1000000 in
theorem double_g4_len_unit (hp : 0 < c) (par : Par) (bg : Bg) (v : DoubleEnv) :
    double_g4_len (par.unit c) (bg.unit c) (I.unit c) (v.unit c) = c ^ 4 * double_g4_len par bg I v := by
  have hc : c ≠ 0 := hp.ne'
  simp only [double_g4_len, Par.unit, Bg.unit, DoubleEnv.unit, ne_eq, unit_eq_zero hc, unit_sqrt hp, unit_half I hc, unit2_half I hc,
    unit_half' I hc, unit_mid hc, unit_I00 I hc, unit2_I00 I hc, unit0_I00 I hc, unit02_I00 I hc, unit_I02 I hc, unit2_I02 I hc, unit0_I02 I hc, unit02_I02 I hc, unit_I04 I hc, unit2_I04 I hc, unit0_I04 I hc, unit02_I04 I hc, unit_I11 I hc, unit2_I11 I hc, unit0_I11 I hc, unit02_I11 I hc, unit_I13 I hc, unit2_I13 I hc, unit0_I13 I hc, unit02_I13 I hc, unit_I22 I hc, unit2_I22 I hc, unit0_I22 I hc, unit02_I22 I hc, unit_I20 I hc, unit2_I20 I hc, unit0_I20 I hc, unit02_I20 I hc, unit_I31 I hc, unit2_I31 I hc, unit0_I31 I hc, unit02_I31 I hc, unit_I40 I hc, unit2_I40 I hc, unit0_I40 I hc, unit02_I40 I hc]
  unit_cases

omit hc in
set_option maxRecDepth 10000 in
set_option maxHeartbeats 1000000 in
theorem double_g4_g5_unit (hp : 0 < c) (par : Par) (bg : Bg) (v : DoubleEnv) :
    double_g4_g5 (par.unit c) (bg.unit c) (I.unit c) (v.unit c) = c ^ 4 * double_g4_g5 par bg I v := by
  have hc : c ≠ 0 := hp.ne'
  simp only [double_g4_g5, Par.unit, Bg.unit, DoubleEnv.unit, ne_eq, unit_eq_zero hc, unit_sqrt hp, unit_half I hc, unit2_half I hc,
    unit_half' I hc, unit_mid hc, unit_I00 I hc, unit2_I00 I hc, unit0_I00 I hc, unit02_I00 I hc, unit_I02 I hc, unit2_I02 I hc, unit0_I02 I hc, unit02_I02 I hc, unit_I04 I hc, unit2_I04 I hc, unit0_I04 I hc, unit02_I04 I hc, unit_I11 I hc, unit2_I11 I hc, unit0_I11 I hc, unit02_I11 I hc, unit_I13 I hc, unit2_I13 I hc, unit0_I13 I hc, unit02_I13 I hc, unit_I22 I hc, unit2_I22 I hc, unit0_I22 I hc, unit02_I22 I hc, unit_I20 I hc, unit2_I20 I hc, unit0_I20 I hc, unit02_I20 I hc, unit_I31 I hc, unit2_I31 I hc, unit0_I31 I hc, unit02_I31 I hc, unit_I40 I hc, unit2_I40 I hc, unit0_I40 I hc, unit02_I40 I hc]
  exact ite_same_mul (fun _ => g4_g5_leaf hc _ _ _ _ _ _ _ _ _ _ _ _ _ _) fun _ => zero_same

theorem non_result_unit (par : Par) (bg : Bg) (v : NonEnv) :
    non_result (par.unit c) (bg.unit c) (I.unit c) (v.unit c) = non_result par bg I v := by
  simp only [non_result, non_den_den_unit I hc, non_rsd_rsd_unit I hc, non_d1_d1_unit I hc, non_d2_d2_unit I hc, non_g1_g1_unit I hc, non_g2_g2_unit I hc, non_g3_g3_unit I hc, non_den_rsd_unit I hc, non_den_d1_unit I hc, non_den_d2_unit I hc, non_den_g1_unit I hc, non_den_g2_unit I hc, non_den_g3_unit I hc, non_rsd_d1_unit I hc, non_rsd_d2_unit I hc, non_rsd_g1_unit I hc, non_rsd_g2_unit I hc, non_rsd_g3_unit I hc, non_d1_d2_unit I hc, non_d1_g1_unit I hc, non_d1_g2_unit I hc, non_d1_g3_unit I hc, non_d2_g1_unit I hc, non_d2_g2_unit I hc, non_d2_g3_unit I hc, non_g1_g2_unit I hc, non_g1_g3_unit I hc, non_g2_g3_unit I hc]

omit hc in
theorem single_result_unit (hp : 0 < c) (par : Par) (bg : Bg) (v : SingleEnv) :
    single_result (par.unit c) (bg.unit c) (I.unit c) (v.unit c) = single_result par bg I v := by
  simp only [single_result, single_den_len_unit I hp, single_rsd_len_unit I hp, single_d1_len_unit I hp, single_d2_len_unit I hp, single_g1_len_unit I hp, single_g2_len_unit I hp, single_g3_len_unit I hp, single_den_g4_unit I hp, single_den_g5_unit I hp, single_rsd_g4_unit I hp, single_rsd_g5_unit I hp, single_d1_g4_unit I hp, single_d1_g5_unit I hp, single_d2_g4_unit I hp, single_d2_g5_unit I hp, single_g1_g4_unit I hp, single_g1_g5_unit I hp, single_g2_g4_unit I hp, single_g2_g5_unit I hp, single_g3_g4_unit I hp, single_g3_g5_unit I hp]

omit hc in
theorem double_result_unit (hp : 0 < c) (par : Par) (bg : Bg) (v : DoubleEnv)
    (hg : ¬ (par.correlation_contrib.g5 = true ∧ par.correlation_contrib.len = true))
    (ha : par.correlation_contrib.len = true → par.only_cross_correlations = false → par.flatsky_nonlocal = false →
      v.r2 > 1e-20 ∧ c ^ 2 * v.r2 > 1e-20) :
    double_result (par.unit c) (bg.unit c) (I.unit c) (v.unit c) = c ^ 4 * double_result par bg I v := by
  have h5 : ∀ (b : Bg) (J : Ints) (w : DoubleEnv), double_g5_len par b J w = 0 := fun b J w => if_neg hg
  have h5' : ∀ (b : Bg) (J : Ints) (w : DoubleEnv), double_g5_len (par.unit c) b J w = 0 := fun b J w => if_neg hg
  simp only [double_result, double_len_len_unit I hp par bg v ha, double_g4_g4_unit I hp, double_g5_g5_unit I hp, double_g4_len_unit I hp, double_g4_g5_unit I hp, h5, h5']
  ring
end
end Coffe
