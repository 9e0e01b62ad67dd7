import Verif.Model.Signal.Dispatch
import Verif.Spec.Branches
import Mathlib.Topology.Instances.Real.Lemmas
import Mathlib.Analysis.SpecialFunctions.Sqrt
import Mathlib.Topology.Algebra.Field
import Mathlib.Tactic.FieldSimp
import Mathlib.Tactic.Linarith
import Mathlib.Tactic.NormNum

/-!
# The lensing terms of a radial pair without case distinctions
-/

namespace Coffe
open Classical

theorem Radial.cos {bg : Bg} {z mu r : ℝ} (h : Radial bg z mu r) (par : Par) (I : Ints) (x : ℝ) :
    (SingleEnv.of par bg I z mu r x).costheta = 1 := by
  have hm2 : mu * mu = 1 := by rcases h.dir with rfl | rfl <;> norm_num
  change (2 * bg.comoving_distance z * bg.comoving_distance z - r * r + mu * mu * r * r / 2) /
      (2 * bg.comoving_distance z * bg.comoving_distance z - mu * mu * r * r / 2) = 1
  rw [hm2]
  have := h.pos
  have := h.front
  have : 2 * bg.comoving_distance z * bg.comoving_distance z - 1 * r * r / 2 ≠ 0 := by nlinarith
  rw [div_eq_one_iff_eq this]; ring

theorem Radial.chi {bg : Bg} {z mu r : ℝ} (h : Radial bg z mu r) :
    0 < bg.comoving_distance z - r * mu / 2 ∧ 0 < bg.comoving_distance z + r * mu / 2 := by
  have := h.pos
  have := h.front
  rcases h.dir with rfl | rfl <;> constructor <;> linarith

theorem clamp_sq (a b c : ℝ) (hc : c = 1) :
    (if a * a + b * b - 2 * b * a * c < 0 then 0 else a * a + b * b - 2 * b * a * c) = (a - b) ^ 2 := by
  have : a * a + b * b - 2 * b * a * c = (a - b) ^ 2 := by rw [hc]; ring
  rw [this, if_neg (not_lt.2 (sq_nonneg _))]

theorem Radial.r21 {bg : Bg} {z mu r : ℝ} (h : Radial bg z mu r) (par : Par) (I : Ints) (x : ℝ) :
    (SingleEnv.of par bg I z mu r x).r21 =
      ((SingleEnv.of par bg I z mu r x).lambda2 - (SingleEnv.of par bg I z mu r x).chi1) ^ 2 :=
  clamp_sq _ _ _ (h.cos par I x)

theorem Radial.r22 {bg : Bg} {z mu r : ℝ} (h : Radial bg z mu r) (par : Par) (I : Ints) (x : ℝ) :
    (SingleEnv.of par bg I z mu r x).r22 =
      ((SingleEnv.of par bg I z mu r x).lambda1 - (SingleEnv.of par bg I z mu r x).chi2) ^ 2 :=
  clamp_sq _ _ _ (h.cos par I x)

theorem sqrt_of_sq {a b : ℝ} (h : a = b ^ 2) : Real.sqrt a = |b| := by rw [h, Real.sqrt_sq_eq_abs]

theorem zero_of_sq {a b : ℝ} (h : a = b ^ 2) (h0 : a = 0) : b = 0 := by
  rw [h] at h0; exact pow_eq_zero_iff (two_ne_zero) |>.1 h0

/-- The linear density-lensing term of a radial pair, without case distinctions. -/
theorem den_len_radial (par : Par) (bg : Bg) (I : Ints) (v : SingleEnv) (hc : v.costheta = 1)
    (h21 : v.r21 = (v.lambda2 - v.chi1) ^ 2) (h22 : v.r22 = (v.lambda1 - v.chi2) ^ 2)
    (hden : par.correlation_contrib.den = true) (hlen : par.correlation_contrib.len = true)
    (hfl : par.flatsky_local_nonlocal = false) (hpk : par.pk_type = .COFFE_PK_LINEAR) :
    single_den_len par bg I v =
      (COFFE_H0 * par.h) ^ 2 * ((-3) * (par.Omega0_cdm + par.Omega0_baryon) / 2
        * (v.b1 * (2 - 5 * v.s2) * bg.D1 v.z1_const * v.chi2 * (1 - v.x) * bg.D1 v.z2 / bg.a v.z2
            * (2 * v.chi1 * I.I11.result |v.lambda2 - v.chi1|)
          + v.b2 * (2 - 5 * v.s1) * bg.D1 v.z2_const * v.chi1 * (1 - v.x) * bg.D1 v.z1 / bg.a v.z1
            * (2 * v.chi2 * I.I11.result |v.lambda1 - v.chi2|))) := by
  have q1 := sqrt_of_sq h21
  have q2 := sqrt_of_sq h22
  unfold single_den_len
  rw [if_pos ⟨hden, hlen⟩, if_neg (by simp [hfl]), if_pos (by simp [hfl])]
  by_cases e1 : v.r21 = 0 <;> by_cases e2 : v.r22 = 0 <;>
    simp only [e1, e2, hpk, ne_eq, not_true, not_false_iff, and_true, and_false, false_and, true_and, if_true,
      if_false, hc, q1, q2]
  · rw [zero_of_sq h21 e1, zero_of_sq h22 e2, abs_zero]; ring
  · rw [zero_of_sq h21 e1, abs_zero]; ring
  · rw [zero_of_sq h22 e2, abs_zero]; ring
  · ring

/-- The Doppler-lensing term of a radial pair in the linear case (or without the midpoint approximation),
without case distinctions. -/
theorem d1_len_radial (par : Par) (bg : Bg) (I : Ints) (v : SingleEnv) (hc : v.costheta = 1)
    (h21 : v.r21 = (v.lambda2 - v.chi1) ^ 2) (h22 : v.r22 = (v.lambda1 - v.chi2) ^ 2)
    (hd1 : par.correlation_contrib.d1 = true) (hlen : par.correlation_contrib.len = true)
    (hfl : par.flatsky_local_nonlocal = false)
    (hpk : ¬ (par.pk_type ≠ .COFFE_PK_LINEAR ∧ par.midpoint_approximation)) :
    single_d1_len par bg I v =
      (COFFE_H0 * par.h) ^ 2 * (3 * (par.Omega0_cdm + par.Omega0_baryon) / 2
        * (v.chi2 * bg.conformal_Hz v.z1_const * bg.f v.z1_const * bg.G1 v.z1_const * (2 - 5 * v.s2)
            * bg.D1 v.z1_const * (1 - v.x) * bg.D1 v.z2 / bg.a v.z2
            * (2 * (v.lambda2 ^ 2 - 2 * v.chi1 ^ 2 + v.chi1 * v.lambda2) * I.I11.result |v.lambda2 - v.chi1| / 15
              + 2 * I.I20.result |v.lambda2 - v.chi1| / 3
              - (4 * v.chi1 ^ 2 - 2 * v.chi1 * v.lambda2 - 2 * v.lambda2 ^ 2)
                * I.I13.result |v.lambda2 - v.chi1| / 15)
          + v.chi1 * bg.conformal_Hz v.z2_const * bg.f v.z2_const * bg.G1 v.z2_const * (2 - 5 * v.s2)
            * bg.D1 v.z2_const * (1 - v.x) * bg.D1 v.z1 / bg.a v.z1
            * (2 * (v.lambda1 ^ 2 - 2 * v.chi2 ^ 2 + v.chi2 * v.lambda1) * I.I11.result |v.lambda1 - v.chi2| / 15
              + 2 * I.I20.result |v.lambda1 - v.chi2| / 3
              - (4 * v.chi2 ^ 2 - 2 * v.chi2 * v.lambda1 - 2 * v.lambda1 ^ 2)
                * I.I13.result |v.lambda1 - v.chi2| / 15))) := by
  have q1 := sqrt_of_sq h21
  have q2 := sqrt_of_sq h22
  have div1 : v.r21 ≠ 0 → ∀ J : ℝ, (4 * v.chi1 ^ 4 * 1 - v.chi1 ^ 3 * v.lambda2 * (1 * 1 + 9)
      + v.chi1 * v.chi1 * v.lambda2 * v.lambda2 * 1 * (1 * 1 + 5)
      - 2 * v.chi1 * v.lambda2 ^ 3 * (2 * 1 * 1 - 1 - 2) - 2 * v.lambda2 ^ 4 * 1) * J / v.r21 / 15 =
      (4 * v.chi1 ^ 2 - 2 * v.chi1 * v.lambda2 - 2 * v.lambda2 ^ 2) * J / 15 := fun h J => by
    rw [show (4 * v.chi1 ^ 4 * 1 - v.chi1 ^ 3 * v.lambda2 * (1 * 1 + 9)
      + v.chi1 * v.chi1 * v.lambda2 * v.lambda2 * 1 * (1 * 1 + 5)
      - 2 * v.chi1 * v.lambda2 ^ 3 * (2 * 1 * 1 - 1 - 2) - 2 * v.lambda2 ^ 4 * 1) * J =
      (4 * v.chi1 ^ 2 - 2 * v.chi1 * v.lambda2 - 2 * v.lambda2 ^ 2) * J * v.r21 by rw [h21]; ring,
      mul_div_cancel_right₀ _ h]
  have div2 : v.r22 ≠ 0 → ∀ J : ℝ, (4 * v.chi2 ^ 4 * 1 - v.chi2 ^ 3 * v.lambda1 * (1 * 1 + 9)
      + v.chi2 * v.chi2 * v.lambda1 * v.lambda1 * 1 * (1 * 1 + 5)
      - 2 * v.chi2 * v.lambda1 ^ 3 * (2 * 1 * 1 - 1 - 2) - 2 * v.lambda1 ^ 4 * 1) * J / v.r22 / 15 =
      (4 * v.chi2 ^ 2 - 2 * v.chi2 * v.lambda1 - 2 * v.lambda1 ^ 2) * J / 15 := fun h J => by
    rw [show (4 * v.chi2 ^ 4 * 1 - v.chi2 ^ 3 * v.lambda1 * (1 * 1 + 9)
      + v.chi2 * v.chi2 * v.lambda1 * v.lambda1 * 1 * (1 * 1 + 5)
      - 2 * v.chi2 * v.lambda1 ^ 3 * (2 * 1 * 1 - 1 - 2) - 2 * v.lambda1 ^ 4 * 1) * J =
      (4 * v.chi2 ^ 2 - 2 * v.chi2 * v.lambda1 - 2 * v.lambda1 ^ 2) * J * v.r22 by rw [h22]; ring,
      mul_div_cancel_right₀ _ h]
  unfold single_d1_len
  rw [if_pos ⟨hd1, hlen⟩, if_pos (by simp [hfl])]
  by_cases e1 : v.r21 = 0 <;> by_cases e2 : v.r22 = 0
  · have l1 : v.lambda2 = v.chi1 := by linarith [zero_of_sq h21 e1]
    have l2 : v.lambda1 = v.chi2 := by linarith [zero_of_sq h22 e2]
    simp only [e1, e2, if_neg hpk, ne_eq, not_true, not_false_iff, and_true, and_false, false_and, true_and, if_true,
      if_false, l1, l2, sub_self, abs_zero]
    ring
  · have l1 : v.lambda2 = v.chi1 := by linarith [zero_of_sq h21 e1]
    simp only [e1, e2, if_neg hpk, ne_eq, not_true, not_false_iff, and_true, and_false, false_and, true_and, if_true,
      if_false, l1, sub_self, abs_zero, hc, q2, div2 e2]
    ring
  · have l2 : v.lambda1 = v.chi2 := by linarith [zero_of_sq h22 e2]
    simp only [e1, e2, if_neg hpk, ne_eq, not_true, not_false_iff, and_true, and_false, false_and, true_and, if_true,
      if_false, l2, sub_self, abs_zero, hc, q1, div1 e1]
    ring
  · simp only [e1, e2, if_neg hpk, ne_eq, not_true, not_false_iff, and_true, and_false, false_and, true_and, if_true,
      if_false, hc, q1, q2, div1 e1, div2 e2]
    ring

/-- The redshift-space-distortion-lensing term of a radial pair in the linear case (or without the midpoint
approximation), without case distinctions. -/
theorem rsd_len_radial (par : Par) (bg : Bg) (I : Ints) (v : SingleEnv) (hc : v.costheta = 1) (hmu : |v.mu| = 1)
    (h21 : v.r21 = (v.lambda2 - v.chi1) ^ 2) (h22 : v.r22 = (v.lambda1 - v.chi2) ^ 2)
    (k1 : v.lambda1 = v.chi1 * v.x) (k2 : v.lambda2 = v.chi2 * v.x) (n1 : v.chi1 ≠ 0) (n2 : v.chi2 ≠ 0)
    (hrsd : par.correlation_contrib.rsd = true) (hlen : par.correlation_contrib.len = true)
    (hfl : par.flatsky_local_nonlocal = false)
    (hpk : ¬ (par.pk_type ≠ .COFFE_PK_LINEAR ∧ par.midpoint_approximation))
    (h02 : I.I02.result 0 = 0) (h04 : I.I04.result 0 = 0) :
    single_rsd_len par bg I v =
      (COFFE_H0 * par.h) ^ 2 * (3 * (par.Omega0_cdm + par.Omega0_baryon) / 2
        * (v.chi2 * bg.f v.z1_const * (2 - 5 * v.s2) * bg.D1 v.z1_const * (1 - v.x) * bg.D1 v.z2 / bg.a v.z2
            * ((4 * v.lambda2 - 6 * v.chi1) * I.I00.result |v.lambda2 - v.chi1| / 15
              - (6 * v.chi1 - 8 * v.lambda2) * I.I02.result |v.lambda2 - v.chi1| / 21
              + 4 * (v.lambda2 + v.chi1) * I.I04.result |v.lambda2 - v.chi1| / 35)
          + v.chi1 * bg.f v.z2_const * (2 - 5 * v.s1) * bg.D1 v.z2_const * (1 - v.x) * bg.D1 v.z1 / bg.a v.z1
            * ((4 * v.lambda1 - 6 * v.chi2) * I.I00.result |v.lambda1 - v.chi2| / 15
              - (6 * v.chi2 - 8 * v.lambda1) * I.I02.result |v.lambda1 - v.chi2| / 21
              + 4 * (v.lambda1 + v.chi2) * I.I04.result |v.lambda1 - v.chi2| / 35))) := by
  have q1 := sqrt_of_sq h21
  have q2 := sqrt_of_sq h22
  have hm : ¬ |v.mu| < 0.999 := by rw [hmu]; norm_num
  have div1 : v.r21 ≠ 0 → ∀ J : ℝ, (6 * v.chi1 * v.chi1 * v.chi1 * 1 - v.chi1 * v.chi1 * v.lambda2 * (9 * 1 * 1 + 11)
      + v.chi1 * v.lambda2 * v.lambda2 * 1 * (3 * (2 * 1 * 1 - 1) + 19)
      - 2 * v.lambda2 * v.lambda2 * v.lambda2 * (3 * (2 * 1 * 1 - 1) + 1)) * J / v.r21 / 21 =
      (6 * v.chi1 - 8 * v.lambda2) * J / 21 := fun h J => by
    rw [show (6 * v.chi1 * v.chi1 * v.chi1 * 1 - v.chi1 * v.chi1 * v.lambda2 * (9 * 1 * 1 + 11)
      + v.chi1 * v.lambda2 * v.lambda2 * 1 * (3 * (2 * 1 * 1 - 1) + 19)
      - 2 * v.lambda2 * v.lambda2 * v.lambda2 * (3 * (2 * 1 * 1 - 1) + 1)) * J = (6 * v.chi1 - 8 * v.lambda2) * J * v.r21 by
      rw [h21]; ring, mul_div_cancel_right₀ _ h]
  have quart1 : v.r21 ≠ 0 → ∀ J : ℝ, ((-4) * v.chi1 ^ 5 * 1 - v.chi1 ^ 3 * v.lambda2 ^ 2 * 1 * (2 * 1 * 1 - 1 + 7)
      + v.chi1 ^ 2 * v.lambda2 ^ 3 * (1 ^ 4 + 12 * 1 * 1 - 21)
      - 3 * v.chi1 * v.lambda2 ^ 4 * 1 * (2 * 1 * 1 - 1 - 5)
      - v.lambda2 ^ 5 * (3 * (2 * 1 * 1 - 1) + 1) + 12 * v.chi1 ^ 4 * v.lambda2) * J / v.r21 / v.r21 / 35 =
      - (4 * (v.lambda2 + v.chi1) * J / 35) := fun h J => by
    rw [show ((-4) * v.chi1 ^ 5 * 1 - v.chi1 ^ 3 * v.lambda2 ^ 2 * 1 * (2 * 1 * 1 - 1 + 7)
      + v.chi1 ^ 2 * v.lambda2 ^ 3 * (1 ^ 4 + 12 * 1 * 1 - 21)
      - 3 * v.chi1 * v.lambda2 ^ 4 * 1 * (2 * 1 * 1 - 1 - 5)
      - v.lambda2 ^ 5 * (3 * (2 * 1 * 1 - 1) + 1) + 12 * v.chi1 ^ 4 * v.lambda2) * J =
      - (4 * (v.lambda2 + v.chi1) * J) * v.r21 * v.r21 by
      rw [h21]; ring, mul_div_cancel_right₀ _ h, mul_div_cancel_right₀ _ h, neg_div]
  have div2 : v.r22 ≠ 0 → ∀ J : ℝ, (6 * v.chi2 * v.chi2 * v.chi2 * 1 - v.chi2 * v.chi2 * v.lambda1 * (9 * 1 * 1 + 11)
      + v.chi2 * v.lambda1 * v.lambda1 * 1 * (3 * (2 * 1 * 1 - 1) + 19)
      - 2 * v.lambda1 * v.lambda1 * v.lambda1 * (3 * (2 * 1 * 1 - 1) + 1)) * J / v.r22 / 21 =
      (6 * v.chi2 - 8 * v.lambda1) * J / 21 := fun h J => by
    rw [show (6 * v.chi2 * v.chi2 * v.chi2 * 1 - v.chi2 * v.chi2 * v.lambda1 * (9 * 1 * 1 + 11)
      + v.chi2 * v.lambda1 * v.lambda1 * 1 * (3 * (2 * 1 * 1 - 1) + 19)
      - 2 * v.lambda1 * v.lambda1 * v.lambda1 * (3 * (2 * 1 * 1 - 1) + 1)) * J = (6 * v.chi2 - 8 * v.lambda1) * J * v.r22 by
      rw [h22]; ring, mul_div_cancel_right₀ _ h]
  have quart2 : v.r22 ≠ 0 → ∀ J : ℝ, ((-4) * v.chi2 ^ 5 * 1 - v.chi2 ^ 3 * v.lambda1 ^ 2 * 1 * (2 * 1 * 1 - 1 + 7)
      + v.chi2 ^ 2 * v.lambda1 ^ 3 * (1 ^ 4 + 12 * 1 * 1 - 21)
      - 3 * v.chi2 * v.lambda1 ^ 4 * 1 * (2 * 1 * 1 - 1 - 5)
      - v.lambda1 ^ 5 * (3 * (2 * 1 * 1 - 1) + 1) + 12 * v.chi2 ^ 4 * v.lambda1) * J / v.r22 / v.r22 / 35 =
      - (4 * (v.lambda1 + v.chi2) * J / 35) := fun h J => by
    rw [show ((-4) * v.chi2 ^ 5 * 1 - v.chi2 ^ 3 * v.lambda1 ^ 2 * 1 * (2 * 1 * 1 - 1 + 7)
      + v.chi2 ^ 2 * v.lambda1 ^ 3 * (1 ^ 4 + 12 * 1 * 1 - 21)
      - 3 * v.chi2 * v.lambda1 ^ 4 * 1 * (2 * 1 * 1 - 1 - 5)
      - v.lambda1 ^ 5 * (3 * (2 * 1 * 1 - 1) + 1) + 12 * v.chi2 ^ 4 * v.lambda1) * J =
      - (4 * (v.lambda1 + v.chi2) * J) * v.r22 * v.r22 by
      rw [h22]; ring, mul_div_cancel_right₀ _ h, mul_div_cancel_right₀ _ h, neg_div]
  unfold single_rsd_len
  rw [if_pos ⟨hrsd, hlen⟩, if_pos (by simp [hfl])]
  by_cases e1 : v.r21 = 0 <;> by_cases e2 : v.r22 = 0
  · have x1 : v.chi1 / v.chi2 = v.x := by rw [div_eq_iff n2]; linarith [zero_of_sq h21 e1]
    have l1 : v.lambda2 = v.chi1 := by linarith [zero_of_sq h21 e1]
    have x2 : v.chi2 / v.chi1 = v.x := by rw [div_eq_iff n1]; linarith [zero_of_sq h22 e2]
    have l2 : v.lambda1 = v.chi2 := by linarith [zero_of_sq h22 e2]
    simp only [e1, e2, if_neg hpk, if_neg hm, ne_eq, not_true, not_false_iff, and_true, and_false, false_and,
      true_and, if_true, if_false, l1, l2, x1, x2, sub_self, abs_zero, h02, h04]
    ring
  · have x1 : v.chi1 / v.chi2 = v.x := by rw [div_eq_iff n2]; linarith [zero_of_sq h21 e1]
    have l1 : v.lambda2 = v.chi1 := by linarith [zero_of_sq h21 e1]
    simp only [e1, e2, if_neg hpk, if_neg hm, ne_eq, not_true, not_false_iff, and_true, and_false, false_and,
      true_and, if_true, if_false, l1, x1, sub_self, abs_zero, h02, h04, hc, q2, div2 e2, quart2 e2]
    ring
  · have x2 : v.chi2 / v.chi1 = v.x := by rw [div_eq_iff n1]; linarith [zero_of_sq h22 e2]
    have l2 : v.lambda1 = v.chi2 := by linarith [zero_of_sq h22 e2]
    simp only [e1, e2, if_neg hpk, if_neg hm, ne_eq, not_true, not_false_iff, and_true, and_false, false_and,
      true_and, if_true, if_false, l2, x2, sub_self, abs_zero, h02, h04, hc, q1, div1 e1, quart1 e1]
    ring
  · simp only [e1, e2, if_neg hpk, if_neg hm, ne_eq, not_true, not_false_iff, and_true, and_false, false_and,
      true_and, if_true, if_false, hc, q1, q2, div1 e1, div2 e2]
    ring

end Coffe
