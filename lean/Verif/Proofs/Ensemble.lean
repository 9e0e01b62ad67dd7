import Verif.Proofs.AngularMoments
import Verif.Proofs.IntegralValues

/-!
# The expected product of two observables through the tables of the integrals
-/

namespace Coffe
open Complex intervalIntegral ComplexConjugate

/-- The mean over directions of a product of two quadratic forms and the phase of the wave. -/
theorem sphereMean_quadratic (x : ℝ) (hx : x ≠ 0) (a b c d e g a' b' c' d' e' g' h0 h1 h2 : ℂ)
    (hh0 : h0 = g' * a + g * a' + d * d') (hh1 : h1 = g' * b + g * b' + d * e' + e * d')
    (hh2 : h2 = g' * c + g * c' + e * e') :
    sphereMean (fun u => (a + b * u.z + c * u.z ^ 2 + (d + e * u.z) * u.x + g * u.x ^ 2)
      * (a' + b' * u.z + c' * u.z ^ 2 + (d' + e' * u.z) * u.x + g' * u.x ^ 2) * cexp (-(I * x) * u.z)) =
    (a * a' + h0 / 2 + 3 / 8 * (g * g')) * gsl_sf_bessel_jl 0 x
      - I * (a * b' + b * a' + h1 / 2) * gsl_sf_bessel_jl 1 x
      + (a * c' + b * b' + c * a' + (h2 - h0) / 2 - 3 / 4 * (g * g'))
        * (gsl_sf_bessel_jl 0 x - 2 * gsl_sf_bessel_jl 2 x) / 3
      - I * (b * c' + c * b' - h1 / 2) * (3 * gsl_sf_bessel_jl 1 x - 2 * gsl_sf_bessel_jl 3 x) / 5
      + (c * c' - h2 / 2 + 3 / 8 * (g * g'))
        * (gsl_sf_bessel_jl 0 x / 5 - 4 * gsl_sf_bessel_jl 2 x / 7 + 8 * gsl_sf_bessel_jl 4 x / 35) := by
  have hin : ∀ μ : ℝ, μ ∈ Set.uIcc (-1 : ℝ) 1 →
      (∫ φ in (0 : ℝ)..(2 * Real.pi), (fun u : Place => (a + b * u.z + c * u.z ^ 2 + (d + e * u.z) * u.x + g * u.x ^ 2)
        * (a' + b' * u.z + c' * u.z ^ 2 + (d' + e' * u.z) * u.x + g' * u.x ^ 2) * cexp (-(I * x) * u.z)) (direction μ φ)) =
      (2 * Real.pi) * (((a * a' + h0 / 2 + 3 / 8 * (g * g')) + (a * b' + b * a' + h1 / 2) * μ
        + (a * c' + b * b' + c * a' + (h2 - h0) / 2 - 3 / 4 * (g * g')) * μ ^ 2
        + (b * c' + c * b' - h1 / 2) * μ ^ 3 + (c * c' - h2 / 2 + 3 / 8 * (g * g')) * μ ^ 4) * cexp (-(I * x) * μ)) := by
    intro μ hμ
    rw [Set.uIcc_of_le (by norm_num)] at hμ
    have hw : ((Real.sqrt (1 - μ ^ 2) : ℝ) : ℂ) ^ 2 = 1 - (μ : ℂ) ^ 2 := by
      have := Real.sq_sqrt (show 0 ≤ 1 - μ ^ 2 by nlinarith [hμ.1, hμ.2])
      exact_mod_cast this
    obtain ⟨w, hwe⟩ : ∃ w : ℂ, w = ((Real.sqrt (1 - μ ^ 2) : ℝ) : ℂ) := ⟨_, rfl⟩
    rw [← hwe] at hw
    have hw4 : w ^ 4 = (1 - (μ : ℂ) ^ 2) ^ 2 := by rw [← hw]; ring
    obtain ⟨p0, hp0⟩ : ∃ p : ℂ, p = a + b * μ + c * μ ^ 2 := ⟨_, rfl⟩
    obtain ⟨p0', hp0'⟩ : ∃ p : ℂ, p = a' + b' * μ + c' * μ ^ 2 := ⟨_, rfl⟩
    obtain ⟨p1, hp1⟩ : ∃ p : ℂ, p = d + e * μ := ⟨_, rfl⟩
    obtain ⟨p1', hp1'⟩ : ∃ p : ℂ, p = d' + e' * μ := ⟨_, rfl⟩
    obtain ⟨E, hE⟩ : ∃ E : ℂ, E = cexp (-(I * x) * μ) := ⟨_, rfl⟩
    have hcongr : ∀ φ : ℝ, (fun u : Place => (a + b * u.z + c * u.z ^ 2 + (d + e * u.z) * u.x + g * u.x ^ 2)
        * (a' + b' * u.z + c' * u.z ^ 2 + (d' + e' * u.z) * u.x + g' * u.x ^ 2) * cexp (-(I * x) * u.z)) (direction μ φ) =
        p0 * p0' * E + (p0 * p1' + p1 * p0') * w * E * (Real.cos φ : ℂ)
          + (p0 * g' + g * p0' + p1 * p1') * w ^ 2 * E * (Real.cos φ : ℂ) ^ 2
          + (p1 * g' + g * p1') * w ^ 3 * E * (Real.cos φ : ℂ) ^ 3 + g * g' * w ^ 4 * E * (Real.cos φ : ℂ) ^ 4 := by
      intro φ
      simp only [direction]
      rw [Complex.ofReal_mul, ← hwe, ← hE, hp0, hp0', hp1, hp1']
      ring
    simp only [hcongr]
    rw [integral_azimuth, hw, hw4, ← hE, hp0, hp0', hp1, hp1', hh0, hh1, hh2]
    ring
  unfold sphereMean
  rw [integral_congr hin, intervalIntegral.integral_const_mul, integral_phase x hx]
  have hpi : (Real.pi : ℂ) ≠ 0 := by exact_mod_cast Real.pi_ne_zero
  field_simp
  ring

/-- The coefficients of the nine integrals in the expected product; `c₁`, `c₂` are the cosines of the two lines of sight to the
separation, `C` the cosine of the angle between them. -/
structure Weights where
  w00 : ℝ
  w02 : ℝ
  w04 : ℝ
  w11 : ℝ
  w13 : ℝ
  w20 : ℝ
  w22 : ℝ
  w31 : ℝ
  w40 : ℝ

/-- The coefficients for two responses. -/
noncomputable def weights (R₁ R₂ : Response) (c₁ c₂ C : ℝ) : Weights where
  w00 := R₁.density * R₂.density + (R₁.density * R₂.gradient + R₁.gradient * R₂.density) / 3
    + R₁.gradient * R₂.gradient * (1 + 2 * C ^ 2) / 15
  w02 := -(R₁.density * R₂.gradient * (c₂ ^ 2 - 1 / 3)) - R₁.gradient * R₂.density * (c₁ ^ 2 - 1 / 3)
    + R₁.gradient * R₂.gradient * (2 / 21 * (1 + 2 * C ^ 2) - (c₁ ^ 2 + c₂ ^ 2 + 4 * C * c₁ * c₂) / 7)
  w04 := R₁.gradient * R₂.gradient
    * (c₁ ^ 2 * c₂ ^ 2 - (c₁ ^ 2 + c₂ ^ 2 + 4 * C * c₁ * c₂) / 7 + (1 + 2 * C ^ 2) / 35)
  w11 := R₁.velocity * R₂.density * c₁ - R₁.density * R₂.velocity * c₂
    + R₁.velocity * R₂.gradient * (c₁ + 2 * C * c₂) / 5 - R₁.gradient * R₂.velocity * (c₂ + 2 * C * c₁) / 5
  w13 := R₁.velocity * R₂.gradient * ((c₁ + 2 * C * c₂) / 5 - c₁ * c₂ ^ 2)
    - R₁.gradient * R₂.velocity * ((c₂ + 2 * C * c₁) / 5 - c₁ ^ 2 * c₂)
  w20 := R₁.velocity * R₂.velocity * C / 3 + R₁.density * R₂.potential + R₁.potential * R₂.density
    + (R₁.gradient * R₂.potential + R₁.potential * R₂.gradient) / 3
  w22 := R₁.velocity * R₂.velocity * (C / 3 - c₁ * c₂) - R₁.gradient * R₂.potential * (c₁ ^ 2 - 1 / 3)
    - R₁.potential * R₂.gradient * (c₂ ^ 2 - 1 / 3)
  w31 := R₁.velocity * R₂.potential * c₁ - R₁.potential * R₂.velocity * c₂
  w40 := R₁.potential * R₂.potential

/-- The mean over directions of the product of two amplitudes and the phase of the wave. -/
theorem sphereMean_amplitude (R₁ R₂ : Response) (s₁ c₁ s₂ c₂ k r : ℝ) (hk : k ≠ 0) (hr : r ≠ 0)
    (h₁ : s₁ ^ 2 + c₁ ^ 2 = 1) (h₂ : s₂ ^ 2 + c₂ ^ 2 = 1) :
    sphereMean (fun u => R₁.amplitude k (s₁ * u.x + c₁ * u.z) * conj (R₂.amplitude k (s₂ * u.x + c₂ * u.z))
      * cexp (-(I * (k * r : ℝ)) * u.z)) =
    let W := weights R₁ R₂ c₁ c₂ (c₁ * c₂ + s₁ * s₂)
    ((W.w00 * gsl_sf_bessel_jl 0 (k * r) + W.w02 * gsl_sf_bessel_jl 2 (k * r) + W.w04 * gsl_sf_bessel_jl 4 (k * r)
      + W.w11 * (gsl_sf_bessel_jl 1 (k * r) / k) + W.w13 * (gsl_sf_bessel_jl 3 (k * r) / k)
      + W.w20 * (gsl_sf_bessel_jl 0 (k * r) / k ^ 2) + W.w22 * (gsl_sf_bessel_jl 2 (k * r) / k ^ 2)
      + W.w31 * (gsl_sf_bessel_jl 1 (k * r) / k ^ 3) + W.w40 * (gsl_sf_bessel_jl 0 (k * r) / k ^ 4) : ℝ) : ℂ) := by
  have hkC : (k : ℂ) ≠ 0 := by exact_mod_cast hk
  have e : ∀ u : Place, R₁.amplitude k (s₁ * u.x + c₁ * u.z) * conj (R₂.amplitude k (s₂ * u.x + c₂ * u.z)) =
      ((R₁.density + R₁.potential / k ^ 2 : ℂ) + I * R₁.velocity * c₁ / k * u.z + R₁.gradient * c₁ ^ 2 * u.z ^ 2
        + (I * R₁.velocity * s₁ / k + 2 * R₁.gradient * s₁ * c₁ * u.z) * u.x + R₁.gradient * s₁ ^ 2 * u.x ^ 2)
      * ((R₂.density + R₂.potential / k ^ 2 : ℂ) + -(I * R₂.velocity * c₂ / k) * u.z + R₂.gradient * c₂ ^ 2 * u.z ^ 2
        + (-(I * R₂.velocity * s₂ / k) + 2 * R₂.gradient * s₂ * c₂ * u.z) * u.x + R₂.gradient * s₂ ^ 2 * u.x ^ 2) := by
    intro u
    simp only [Response.amplitude, map_add, map_mul, map_div₀, map_pow, conj_I, conj_ofReal]
    push_cast
    ring
  simp only [e]
  rw [sphereMean_quadratic (k * r) (mul_ne_zero hk hr) _ _ _ _ _ _ _ _ _ _ _ _ _ _ _ rfl rfl rfl]
  simp only [weights]
  generalize gsl_sf_bessel_jl 0 (k * r) = j0
  generalize gsl_sf_bessel_jl 1 (k * r) = j1
  generalize gsl_sf_bessel_jl 2 (k * r) = j2
  generalize gsl_sf_bessel_jl 3 (k * r) = j3
  generalize gsl_sf_bessel_jl 4 (k * r) = j4
  have h₁' : (s₁ : ℂ) ^ 2 = 1 - (c₁ : ℂ) ^ 2 := by rw [eq_sub_iff_add_eq]; exact_mod_cast h₁
  have h₂' : (s₂ : ℂ) ^ 2 = 1 - (c₂ : ℂ) ^ 2 := by rw [eq_sub_iff_add_eq]; exact_mod_cast h₂
  push_cast
  field_simp
  ring_nf
  simp only [I_sq, h₁', h₂']
  ring

end Coffe
