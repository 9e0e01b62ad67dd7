import Verif.Spec.Ensemble
import Verif.Proofs.BesselSeries
import Mathlib.Analysis.SpecialFunctions.Integrals.Basic
import Mathlib.MeasureTheory.Integral.IntervalIntegral.FundThmCalculus

/-!
# Means over directions of powers of the cosines and a plane wave
-/

namespace Coffe
open Complex intervalIntegral

/-- The mean over the azimuth of a polynomial in its cosine. -/
theorem integral_azimuth (a0 a1 a2 a3 a4 : ℂ) :
    (∫ φ in (0 : ℝ)..(2 * Real.pi), a0 + a1 * (Real.cos φ : ℂ) + a2 * (Real.cos φ : ℂ) ^ 2 + a3 * (Real.cos φ : ℂ) ^ 3
      + a4 * (Real.cos φ : ℂ) ^ 4) = 2 * Real.pi * (a0 + a2 / 2 + 3 * a4 / 8) := by
  have hc : ∀ n : ℕ, (∫ φ in (0 : ℝ)..(2 * Real.pi), (Real.cos φ : ℂ) ^ n)
      = ((∫ φ in (0 : ℝ)..(2 * Real.pi), Real.cos φ ^ n : ℝ) : ℂ) := fun n => by
    rw [← intervalIntegral.integral_ofReal]; simp
  have hi : ∀ (n : ℕ) (a : ℂ), IntervalIntegrable (fun φ : ℝ => a * (Real.cos φ : ℂ) ^ n) MeasureTheory.volume 0 (2 * Real.pi) :=
    fun n a => (Continuous.intervalIntegrable (by fun_prop) _ _)
  have h1 : ∀ f : ℝ → ℂ, f = (fun φ : ℝ => a0 + a1 * (Real.cos φ : ℂ) + a2 * (Real.cos φ : ℂ) ^ 2 + a3 * (Real.cos φ : ℂ) ^ 3
      + a4 * (Real.cos φ : ℂ) ^ 4) → f = fun φ : ℝ => a0 * (Real.cos φ : ℂ) ^ 0 + a1 * (Real.cos φ : ℂ) ^ 1
      + a2 * (Real.cos φ : ℂ) ^ 2 + a3 * (Real.cos φ : ℂ) ^ 3 + a4 * (Real.cos φ : ℂ) ^ 4 := fun f hf => by
    rw [hf]; funext φ; ring
  rw [h1 _ rfl, integral_add, integral_add, integral_add, integral_add]
  · simp only [intervalIntegral.integral_const_mul, hc]
    have e0 : ∫ φ in (0 : ℝ)..(2 * Real.pi), Real.cos φ ^ 0 = 2 * Real.pi := by simp
    have e1 : ∫ φ in (0 : ℝ)..(2 * Real.pi), Real.cos φ ^ 1 = 0 := by simp
    have e2 : ∫ φ in (0 : ℝ)..(2 * Real.pi), Real.cos φ ^ 2 = Real.pi := by
      rw [integral_cos_sq]; simp
    have e3 : ∫ φ in (0 : ℝ)..(2 * Real.pi), Real.cos φ ^ 3 = 0 := by
      rw [integral_cos_pow (n := 1), e1]; simp
    have e4 : ∫ φ in (0 : ℝ)..(2 * Real.pi), Real.cos φ ^ 4 = 3 * Real.pi / 4 := by
      rw [integral_cos_pow (n := 2), e2]; simp; ring
    rw [e0, e1, e2, e3, e4]
    push_cast
    ring
  all_goals
    first
    | exact hi _ _
    | exact Continuous.intervalIntegrable (by fun_prop) _ _

/-- The antiderivative of a power and a wave. -/
theorem hasDerivAt_power_wave (a c0 c1 c2 c3 c4 : ℂ) (μ : ℝ) :
    HasDerivAt (fun μ : ℝ => (c0 + c1 * μ + c2 * μ ^ 2 + c3 * μ ^ 3 + c4 * μ ^ 4) * cexp (a * μ))
      ((c1 + 2 * c2 * μ + 3 * c3 * μ ^ 2 + 4 * c4 * μ ^ 3 + a * (c0 + c1 * μ + c2 * μ ^ 2 + c3 * μ ^ 3 + c4 * μ ^ 4)) *
        cexp (a * μ)) μ := by
  have hx : HasDerivAt (fun μ : ℝ => (μ : ℂ)) 1 μ := (hasDerivAt_id μ).ofReal_comp
  have hp : HasDerivAt (fun μ : ℝ => c0 + c1 * (μ : ℂ) + c2 * (μ : ℂ) ^ 2 + c3 * (μ : ℂ) ^ 3 + c4 * (μ : ℂ) ^ 4)
      (c1 * 1 + c2 * ((2 : ℕ) * (μ : ℂ) ^ 1 * 1) + c3 * ((3 : ℕ) * (μ : ℂ) ^ 2 * 1) + c4 * ((4 : ℕ) * (μ : ℂ) ^ 3 * 1)) μ :=
    ((((hx.const_mul c1).const_add c0).add ((hx.pow 2).const_mul c2)).add ((hx.pow 3).const_mul c3)).add
      ((hx.pow 4).const_mul c4)
  have he : HasDerivAt (fun μ : ℝ => cexp (a * μ)) (cexp (a * μ) * (a * 1)) μ := (hx.const_mul a).cexp
  refine (hp.mul he).congr_deriv ?_
  push_cast
  ring

/-- The integral of a polynomial and a wave. -/
theorem integral_power_wave (a c0 c1 c2 c3 c4 : ℂ) :
    (∫ μ in (-1 : ℝ)..1, (c1 + 2 * c2 * μ + 3 * c3 * μ ^ 2 + 4 * c4 * μ ^ 3
        + a * (c0 + c1 * μ + c2 * μ ^ 2 + c3 * μ ^ 3 + c4 * μ ^ 4)) * cexp (a * μ))
      = (c0 + c1 + c2 + c3 + c4) * cexp a - (c0 - c1 + c2 - c3 + c4) * cexp (-a) := by
  rw [integral_eq_sub_of_hasDerivAt (fun μ _ => hasDerivAt_power_wave a c0 c1 c2 c3 c4 μ)
    (Continuous.intervalIntegrable (by fun_prop) _ _)]
  push_cast
  rw [mul_one, mul_neg_one]
  ring

/-- The integral over the cosine to the direction of the separation, of a polynomial and the phase of the wave. -/
theorem integral_phase (x : ℝ) (hx : x ≠ 0) (r0 r1 r2 r3 r4 : ℂ) :
    (∫ μ in (-1 : ℝ)..1, (r0 + r1 * μ + r2 * μ ^ 2 + r3 * μ ^ 3 + r4 * μ ^ 4) * cexp (-(I * x) * μ))
      = 2 * (r0 * gsl_sf_bessel_jl 0 x - I * r1 * gsl_sf_bessel_jl 1 x
        + r2 * (gsl_sf_bessel_jl 0 x - 2 * gsl_sf_bessel_jl 2 x) / 3
        - I * r3 * (3 * gsl_sf_bessel_jl 1 x - 2 * gsl_sf_bessel_jl 3 x) / 5
        + r4 * (gsl_sf_bessel_jl 0 x / 5 - 4 * gsl_sf_bessel_jl 2 x / 7 + 8 * gsl_sf_bessel_jl 4 x / 35)) := by
  have hx' : (x : ℂ) ≠ 0 := by exact_mod_cast hx
  obtain ⟨a, ha⟩ : ∃ a : ℂ, a = -(I * x) := ⟨_, rfl⟩
  have ha0 : a ≠ 0 := by rw [ha]; exact neg_ne_zero.2 (mul_ne_zero I_ne_zero hx')
  have hi : ∀ c0 c1 c2 c3 c4 : ℂ, c4 = r4 / a → c3 = (r3 - 4 * c4) / a → c2 = (r2 - 3 * c3) / a →
      c1 = (r1 - 2 * c2) / a → c0 = (r0 - c1) / a →
      (∫ μ in (-1 : ℝ)..1, (r0 + r1 * μ + r2 * μ ^ 2 + r3 * μ ^ 3 + r4 * μ ^ 4) * cexp (a * μ))
        = (c0 + c1 + c2 + c3 + c4) * cexp a - (c0 - c1 + c2 - c3 + c4) * cexp (-a) := by
    intro c0 c1 c2 c3 c4 h4 h3 h2 h1 h0
    rw [← integral_power_wave]
    refine integral_congr fun μ _ => ?_
    have e4 : r4 = a * c4 := by rw [h4]; field_simp
    have e3 : r3 = a * c3 + 4 * c4 := by rw [h3]; field_simp; ring
    have e2 : r2 = a * c2 + 3 * c3 := by rw [h2]; field_simp; ring
    have e1 : r1 = a * c1 + 2 * c2 := by rw [h1]; field_simp; ring
    have e0 : r0 = a * c0 + c1 := by rw [h0]; field_simp; ring
    show (r0 + r1 * μ + r2 * μ ^ 2 + r3 * μ ^ 3 + r4 * μ ^ 4) * cexp (a * μ) = _
    rw [e4, e3, e2, e1, e0]
    ring
  rw [← ha, hi _ _ _ _ _ rfl rfl rfl rfl rfl]
  have ep : cexp a = Complex.cos x - I * Complex.sin x := by
    rw [ha, show -(I * (x : ℂ)) = -(x : ℂ) * I by ring, Complex.exp_mul_I, Complex.cos_neg, Complex.sin_neg]; ring
  have em : cexp (-a) = Complex.cos x + I * Complex.sin x := by
    rw [ha, neg_neg, show I * (x : ℂ) = (x : ℂ) * I by ring, Complex.exp_mul_I]; ring
  rw [ep, em]
  rw [jl_succ 2 x hx, jl_succ 1 x hx, jl_succ 0 x hx, jl_one x hx, jl_zero x hx, ha]
  push_cast
  generalize Complex.cos (x : ℂ) = C
  generalize Complex.sin (x : ℂ) = S
  generalize (x : ℂ) = X at *
  have hI2 : I ^ 2 = -1 := I_sq
  have hI3 : I ^ 3 = -I := by rw [pow_succ, hI2]; ring
  have hI4 : I ^ 4 = 1 := I_pow_four
  have hI0 := I_ne_zero
  have hinv : ∀ z : ℂ, z / -(I * X) = I * z / X := fun z => by
    field_simp
    rw [hI2]
    ring
  simp only [hinv]
  field_simp
  ring_nf
  simp only [show I ^ 5 = I by rw [pow_succ, hI4, one_mul], show I ^ 6 = -1 by rw [pow_succ, pow_succ, hI4]; simp, hI4, hI3, hI2]
  ring

end Coffe
