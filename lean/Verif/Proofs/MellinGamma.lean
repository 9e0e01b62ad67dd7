import Mathlib.Analysis.SpecialFunctions.Gamma.Deriv
import Mathlib.Analysis.SpecialFunctions.Gamma.Beta
import Mathlib.Analysis.SpecialFunctions.Gaussian.GaussianIntegral
import Mathlib.Analysis.Calculus.ParametricIntegral
import Mathlib.Analysis.Complex.CauchyIntegral
import Mathlib.Analysis.Complex.RealDeriv
import Mathlib.Analysis.Analytic.IsolatedZeros
import Mathlib.Analysis.MellinTransform

/-!
# The integral of a power and an exponential with a complex rate
-/

namespace Coffe
open MeasureTheory Set Filter Topology

/-- The right half plane. -/
def rightHalf : Set ℂ := {z | 0 < z.re}

theorem rightHalf_open : IsOpen rightHalf := isOpen_lt continuous_const Complex.continuous_re

theorem rightHalf_convex : Convex ℝ rightHalf := by
  intro x hx y hy a b ha hb hab
  simp only [rightHalf, mem_setOf_eq, Complex.add_re, Complex.real_smul, Complex.mul_re, Complex.ofReal_re, Complex.ofReal_im,
    zero_mul, sub_zero] at *
  rcases ha.lt_or_eq with h | h
  · have := mul_pos h hx
    have := mul_nonneg hb hy.le
    linarith
  · subst h
    have : b = 1 := by linarith
    subst this
    simpa using hy

/-- Two functions that are holomorphic in the right half plane and agree far to the right agree there. -/
theorem eq_of_eq_right {f g : ℂ → ℂ} (hf : DifferentiableOn ℂ f rightHalf) (hg : DifferentiableOn ℂ g rightHalf) (c : ℝ)
    (h : ∀ z : ℂ, c < z.re → f z = g z) {z : ℂ} (hz : 0 < z.re) : f z = g z := by
  have ha := hf.analyticOnNhd rightHalf_open
  have hb := hg.analyticOnNhd rightHalf_open
  have h0 : (((max c 0 + 1 : ℝ) : ℂ)) ∈ rightHalf := by
    show 0 < (((max c 0 + 1 : ℝ) : ℂ)).re
    rw [Complex.ofReal_re]
    have := le_max_right c 0
    linarith
  refine ha.eqOn_of_preconnected_of_eventuallyEq hb rightHalf_convex.isPreconnected h0 ?_ hz
  have ho : IsOpen {z : ℂ | c < z.re} := isOpen_lt continuous_const Complex.continuous_re
  refine eventually_of_mem (ho.mem_nhds ?_) fun w hw => h w hw
  show c < (((max c 0 + 1 : ℝ) : ℂ)).re
  rw [Complex.ofReal_re]
  have := le_max_left c 0
  linarith

theorem integrable_rpow_exp {s b : ℝ} (hs : -1 < s) (hb : 0 < b) : IntegrableOn (fun t : ℝ => t ^ s * Real.exp (-b * t)) (Ioi 0) := by
  have := integrableOn_rpow_mul_exp_neg_mul_rpow (p := 1) (s := s) (b := b) hs one_pos hb
  simpa using this

theorem norm_cpow_exp (a r : ℂ) {t : ℝ} (ht : 0 < t) :
    ‖(t : ℂ) ^ a * Complex.exp (-(r * t))‖ = t ^ a.re * Real.exp (-r.re * t) := by
  rw [norm_mul, Complex.norm_cpow_eq_rpow_re_of_pos ht, Complex.norm_exp]
  simp

theorem continuousOn_cpow_exp (a r : ℂ) : ContinuousOn (fun t : ℝ => (t : ℂ) ^ a * Complex.exp (-(r * t))) (Ioi 0) := by
  intro t ht
  have h1 : ContinuousAt (fun t : ℝ => (t : ℂ) ^ a) t :=
    (continuousAt_cpow_const (Or.inl (by simpa using ht))).comp Complex.continuous_ofReal.continuousAt
  have h2 : ContinuousAt (fun t : ℝ => Complex.exp (-(r * t))) t := by fun_prop
  exact (h1.mul h2).continuousWithinAt

theorem integrable_cpow_exp {a r : ℂ} (ha : -1 < a.re) (hr : 0 < r.re) :
    IntegrableOn (fun t : ℝ => (t : ℂ) ^ a * Complex.exp (-(r * t))) (Ioi 0) := by
  refine Integrable.mono' (integrable_rpow_exp ha hr) ((continuousOn_cpow_exp a r).aestronglyMeasurable measurableSet_Ioi) ?_
  exact (ae_restrict_mem measurableSet_Ioi).mono fun t ht => (norm_cpow_exp a r ht).le

/-- Euler's integral with a complex rate. -/
theorem gamma_rate {a r : ℂ} (ha : 0 < a.re) (hr : 0 < r.re) :
    (∫ t in Ioi (0 : ℝ), (t : ℂ) ^ (a - 1) * Complex.exp (-(r * t))) = r ^ (-a) * Complex.Gamma a := by
  have hd : DifferentiableOn ℂ (fun r : ℂ => ∫ t in Ioi (0 : ℝ), (t : ℂ) ^ (a - 1) * Complex.exp (-(r * t))) rightHalf := by
    intro r hr
    change 0 < r.re at hr
    have h1 : -1 < (a - 1).re := by simp; linarith
    have key := hasDerivAt_integral_of_dominated_loc_of_deriv_le (𝕜 := ℂ) (μ := volume.restrict (Ioi (0 : ℝ)))
      (F := fun (r : ℂ) (t : ℝ) => (t : ℂ) ^ (a - 1) * Complex.exp (-(r * t)))
      (F' := fun (r : ℂ) (t : ℝ) => (t : ℂ) ^ (a - 1) * (Complex.exp (-(r * t)) * -(t : ℂ)))
      (x₀ := r) (s := Metric.ball r (r.re / 2)) (bound := fun t => t ^ a.re * Real.exp (-(r.re / 2) * t))
      (Metric.ball_mem_nhds r (by linarith)) ?_ ?_ ?_ ?_ ?_ ?_
    · exact key.2.differentiableAt.differentiableWithinAt
    · exact Eventually.of_forall fun r => (continuousOn_cpow_exp (a - 1) r).aestronglyMeasurable measurableSet_Ioi
    · exact integrable_cpow_exp h1 hr
    · refine ContinuousOn.aestronglyMeasurable ?_ measurableSet_Ioi
      have := (continuousOn_cpow_exp (a - 1) r).mul (f := fun t : ℝ => (t : ℂ) ^ (a - 1) * Complex.exp (-(r * t)))
        (g := fun t : ℝ => -(t : ℂ)) (by fun_prop)
      refine this.congr fun t _ => ?_
      simp only [Pi.mul_apply]
      ring
    · refine (ae_restrict_mem measurableSet_Ioi).mono fun t ht x hx => ?_
      have ht0 : (0 : ℝ) < t := ht
      have e : (t : ℂ) ^ (a - 1) * (Complex.exp (-(x * t)) * -(t : ℂ)) = -((t : ℂ) * ((t : ℂ) ^ (a - 1) * Complex.exp (-(x * t)))) := by ring
      rw [e, norm_neg, norm_mul, norm_cpow_exp _ _ ht0, Complex.norm_real, Real.norm_of_nonneg ht0.le]
      have e2 : t * (t ^ (a - 1).re * Real.exp (-x.re * t)) = t ^ a.re * Real.exp (-x.re * t) := by
        rw [← mul_assoc]
        congr 1
        have := Real.rpow_add ht0 1 (a - 1).re
        rw [Real.rpow_one] at this
        rw [← this]
        congr 1
        simp
      rw [e2]
      have hx2 : r.re / 2 < x.re := by
        have h := Complex.abs_re_le_norm (x - r)
        rw [Metric.mem_ball, dist_eq_norm] at hx
        have := abs_lt.1 (h.trans_lt hx)
        rw [Complex.sub_re] at this
        linarith [this.1]
      refine mul_le_mul_of_nonneg_left ?_ (Real.rpow_nonneg ht0.le _)
      rw [Real.exp_le_exp]
      have := mul_lt_mul_of_pos_right hx2 ht0
      linarith
    · exact integrable_rpow_exp (by linarith) (by linarith)
    · refine Eventually.of_forall fun t x _ => ?_
      have : HasDerivAt (fun x : ℂ => -(x * t)) (-(t : ℂ)) x := by
        have h : HasDerivAt (fun x : ℂ => -(x * t)) (-(1 * (t : ℂ))) x := ((hasDerivAt_id x).mul_const (t : ℂ)).neg
        rwa [one_mul] at h
      exact this.cexp.const_mul _
  have hg : DifferentiableOn ℂ (fun r : ℂ => r ^ (-a) * Complex.Gamma a) rightHalf := by
    intro r hr
    have : r ∈ Complex.slitPlane := Or.inl hr
    exact ((differentiableAt_id.cpow_const this).mul_const _).differentiableWithinAt
  refine (hd.analyticOnNhd rightHalf_open).eqOn_of_preconnected_of_frequently_eq (hg.analyticOnNhd rightHalf_open)
    rightHalf_convex.isPreconnected (z₀ := 1) (by show 0 < (1 : ℂ).re; simp) ?_ hr
  have ht : Tendsto (fun n : ℕ => (((1 + 1 / ((n : ℝ) + 1) : ℝ)) : ℂ)) atTop (𝓝[≠] 1) := by
    refine tendsto_nhdsWithin_iff.2 ⟨?_, Eventually.of_forall fun n => ?_⟩
    · have h := (tendsto_one_div_add_atTop_nhds_zero_nat (𝕜 := ℝ)).const_add 1
      rw [add_zero] at h
      exact (Complex.continuous_ofReal.tendsto 1).comp h
    · intro h
      have h' : ((1 + 1 / ((n : ℝ) + 1) : ℝ)) = 1 := Complex.ofReal_injective h
      have : (0 : ℝ) < 1 / ((n : ℝ) + 1) := by positivity
      linarith
  refine ht.frequently (Frequently.of_forall fun n => ?_)
  have hp : (0 : ℝ) < 1 + 1 / ((n : ℝ) + 1) := by positivity
  generalize (1 + 1 / ((n : ℝ) + 1) : ℝ) = x at hp
  have := Complex.integral_cpow_mul_exp_neg_mul_Ioi ha hp
  rw [this]
  congr 1
  rw [one_div, Complex.inv_cpow _ _ (by rw [Complex.arg_ofReal_of_nonneg hp.le]; exact Real.pi_pos.ne), Complex.cpow_neg]

end Coffe
