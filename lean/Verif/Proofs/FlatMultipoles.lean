import Verif.Spec.FlatMultipoles
import Verif.Proofs.FlatBessel
import Verif.Proofs.EnsembleTables
import Verif.Proofs.Dispatch
import Mathlib.MeasureTheory.Integral.Prod

/-!
# The flat-sky multipoles as integrals over the angle
-/

namespace Coffe
open intervalIntegral

/-- `∫ k P(k) J₀(k r) dk`. -/
noncomputable def transverse (P : ℝ → ℝ) (kmin kmax r : ℝ) : ℝ := ∫ k in kmin..kmax, k * P k * gsl_sf_bessel_Jn 0 (k * r)

/-- The value of a half-integer entry: `√(π/2) / (2π²) ∫ k P(k) J_m(k r) / (k r)^m dk`. -/
theorem direct_value_half (P : ℝ → ℝ) {kmin kmax r : ℝ} (h0 : 0 < kmin) (h1 : kmin ≤ kmax) (hr : 0 < r) (m : ℕ) :
    direct_value exactQuad P ⟨2 * m + 1, 2 * m - 1, .half, .half⟩ kmin kmax r =
      Real.sqrt (Real.pi / 2) / (2 * Real.pi ^ 2) * ∫ k in kmin..kmax, k * P k * (gsl_sf_bessel_Jn m (k * r) / (k * r) ^ m) := by
  have hpos : ∀ k ∈ Set.uIcc kmin kmax, 0 < k := fun k hk => by
    rw [Set.uIcc_of_le h1] at hk; exact h0.trans_le hk.1
  have e1 : integrals_local (2 * m + 1) .half = m + 0.5 := by
    simp only [integrals_local, if_true]; push_cast; ring
  have e2 : integrals_local (2 * m - 1) .half = m - 0.5 := by
    simp only [integrals_local, if_true]; push_cast; ring
  have e4 : ((2 * (m : ℤ) - 1 + 1).tdiv 2).toNat = m := by
    rw [sub_add_cancel, Int.mul_tdiv_cancel_left _ (by norm_num), Int.toNat_natCast]
  simp only [direct_value, integrals_integrate_function, e1, e2]
  rw [if_pos ⟨by linarith, hr⟩, show (m : ℝ) + 0.5 - (m - 0.5) = 1 by ring, Real.rpow_one]
  have hq : exactQuad (integrals_bessel_integrand P ⟨2 * m + 1, 2 * m - 1, .half, .half⟩ r) kmin kmax * r =
      Real.sqrt (Real.pi / 2) * ∫ k in kmin..kmax, k * P k * (gsl_sf_bessel_Jn m (k * r) / (k * r) ^ m) := by
    rw [exactQuad, ← integral_mul_const, ← integral_const_mul]
    refine integral_congr fun k hk => ?_
    have hk := hpos k hk
    have hkr : 0 < k * r := mul_pos hk hr
    have ep : (k * r) ^ ((m : ℝ) + 0.5 + 0.5) = (k * r) ^ m * (k * r) := by
      rw [show (m : ℝ) + 0.5 + 0.5 = ((m + 1 : ℕ) : ℝ) by push_cast; ring, Real.rpow_natCast, pow_succ]
    simp only [integrals_bessel_integrand, e1, e4, ep, if_true]
    generalize gsl_sf_bessel_Jn m (k * r) = J
    generalize (k * r) ^ m = Q
    field_simp
  rw [hq]
  ring

theorem transverse_half (P : ℝ → ℝ) {kmin kmax r : ℝ} (h0 : 0 < kmin) (h1 : kmin ≤ kmax) (hr : 0 < r) :
    direct_value exactQuad P ⟨1, -1, .half, .half⟩ kmin kmax r * (Real.sqrt (2 / Real.pi) * 2 * Real.pi * Real.pi) =
      transverse P kmin kmax r := by
  have h := direct_value_half P h0 h1 hr 0
  simp only [Nat.cast_zero, mul_zero, zero_add, zero_sub, pow_zero, div_one] at h
  rw [h, transverse]
  have e : Real.sqrt (Real.pi / 2) * Real.sqrt (2 / Real.pi) = 1 := by
    have hp := Real.pi_ne_zero
    rw [← Real.sqrt_mul (by positivity), show Real.pi / 2 * (2 / Real.pi) = 1 by field_simp, Real.sqrt_one]
  generalize (∫ k in kmin..kmax, k * P k * gsl_sf_bessel_Jn 0 (k * r)) = T
  generalize Real.sqrt (Real.pi / 2) = a at e ⊢
  generalize Real.sqrt (2 / Real.pi) = b at e ⊢
  have hp := Real.pi_ne_zero
  field_simp
  linear_combination T * e

/-- A continuous function with the same values on the range of wave numbers. -/
theorem exists_continuous_ext {P : ℝ → ℝ} {a b : ℝ} (h : a ≤ b) (hP : ContinuousOn P (Set.Icc a b)) :
    ∃ P' : ℝ → ℝ, Continuous P' ∧ ∀ k ∈ Set.Icc a b, P' k = P k :=
  ⟨Set.IccExtend h ((Set.Icc a b).restrict P), (continuousOn_iff_continuous_restrict.1 hP).Icc_extend', fun k hk => by
    rw [Set.IccExtend_of_mem h _ hk]; rfl⟩

theorem transverse_congr {P P' : ℝ → ℝ} {kmin kmax : ℝ} (h1 : kmin ≤ kmax) (h : ∀ k ∈ Set.Icc kmin kmax, P' k = P k) (r : ℝ) :
    transverse P kmin kmax r = transverse P' kmin kmax r :=
  integral_congr fun k hk => by rw [Set.uIcc_of_le h1] at hk; simp only [h k hk]

theorem transverse_continuous {P : ℝ → ℝ} {kmin kmax : ℝ} (h1 : kmin ≤ kmax) (hP : ContinuousOn P (Set.Icc kmin kmax)) :
    Continuous (transverse P kmin kmax) := by
  obtain ⟨P', hP', e⟩ := exists_continuous_ext h1 hP
  rw [show transverse P kmin kmax = transverse P' kmin kmax from funext (transverse_congr h1 e)]
  have hJ := continuous_Jn 0
  refine continuous_parametric_intervalIntegral_of_continuous' (f := fun r k => k * P' k * gsl_sf_bessel_Jn 0 (k * r)) ?_ _ _
  simp only [Function.uncurry_def]
  fun_prop

/-- The table of the flat-sky entry, zero included. -/
theorem FlatTables.result {P : ℝ → ℝ} {kmin kmax : ℝ} (h0 : 0 < kmin) (h1 : kmin ≤ kmax)
    (hP : ContinuousOn P (Set.Icc kmin kmax)) {I : Ints} (hI : FlatTables P kmin kmax I) {r : ℝ} (hr : 0 ≤ r) :
    I.Ihalf.result r = transverse P kmin kmax r := by
  rcases hr.eq_or_lt with rfl | hr
  · have hl := C52_limit P ⟨1, -1, .half, .half⟩ (Or.inr ⟨rfl, rfl, 0, by norm_num⟩) h0 h1 hP
    rw [if_neg (by norm_num [integrals_local])] at hl
    have hl' := hl.mul_const (Real.sqrt (2 / Real.pi) * 2 * Real.pi * Real.pi)
    have hc := ((transverse_continuous h1 hP).tendsto 0).mono_left (nhdsWithin_le_nhds (s := Set.Ioi 0))
    have he := hl'.congr' (eventually_nhdsWithin_of_forall fun r (hr : r ∈ Set.Ioi (0 : ℝ)) => transverse_half P h0 h1 hr)
    rw [hI.zero]
    exact tendsto_nhds_unique he hc
  · rw [hI.half r hr, transverse_half P h0 h1 hr]

theorem swap_of_continuous {F : ℝ → ℝ → ℝ} (hF : Continuous F.uncurry) (a b c d : ℝ) :
    ∫ x in a..b, ∫ y in c..d, F x y = ∫ y in c..d, ∫ x in a..b, F x y :=
  MeasureTheory.intervalIntegral_intervalIntegral_swap ((hF.continuousOn.integrableOn_compact (isCompact_uIcc.prod isCompact_uIcc)).mono_set
    (Set.prod_mono Set.uIoc_subset_uIcc Set.uIoc_subset_uIcc))

/-- The integral over the angle moves inside the integral over the wave number. -/
theorem integral_transverse {P : ℝ → ℝ} {kmin kmax : ℝ} (h1 : kmin ≤ kmax) (hP : ContinuousOn P (Set.Icc kmin kmax))
    {w : ℝ → ℝ} (hw : Continuous w) (a b y : ℝ) :
    ∫ μ in a..b, w μ * transverse P kmin kmax (y * Real.sqrt (1 - μ ^ 2)) =
      ∫ k in kmin..kmax, k * P k * ∫ μ in a..b, w μ * gsl_sf_bessel_Jn 0 (k * y * Real.sqrt (1 - μ ^ 2)) := by
  obtain ⟨P', hP', e⟩ := exists_continuous_ext h1 hP
  have hJ := continuous_Jn 0
  have hl : ∀ μ, w μ * transverse P kmin kmax (y * Real.sqrt (1 - μ ^ 2)) =
      ∫ k in kmin..kmax, k * P' k * (w μ * gsl_sf_bessel_Jn 0 (k * y * Real.sqrt (1 - μ ^ 2))) := fun μ => by
    rw [transverse_congr h1 e, transverse, ← integral_const_mul]
    exact integral_congr fun k _ => by simp only [mul_assoc]; ring
  simp_rw [hl]
  rw [swap_of_continuous (F := fun μ k => k * P' k * (w μ * gsl_sf_bessel_Jn 0 (k * y * Real.sqrt (1 - μ ^ 2))))
    (by simp only [Function.uncurry_def]; fun_prop)]
  refine integral_congr fun k hk => ?_
  rw [Set.uIcc_of_le h1] at hk
  simp only [integral_const_mul, e k hk]

/-! ## Parity -/

theorem integral_symm (g : ℝ → ℝ) : ∫ μ in (-1 : ℝ)..1, g (-μ) = ∫ μ in (-1 : ℝ)..1, g μ := by
  rw [integral_comp_neg, neg_neg]

theorem multipoleOf_odd {f : ℝ → ℝ} (hf : ∀ μ, f (-μ) = f μ) {l : ℕ} (hl : l % 2 ≠ 0) : multipoleOf l f = 0 := by
  have ho : Odd l := Nat.odd_iff.2 (by omega)
  have h := integral_symm fun μ => f μ * legP l μ
  simp only [hf, legP_neg, ho.neg_one_pow] at h
  have h2 : ∫ μ in (-1 : ℝ)..1, f μ * (-1 * legP l μ) = - ∫ μ in (-1 : ℝ)..1, f μ * legP l μ := by
    rw [← intervalIntegral.integral_neg]
    exact integral_congr fun μ _ => by ring
  rw [h2] at h
  rw [multipoleOf, show (∫ μ in (-1 : ℝ)..1, f μ * legP l μ) = 0 by linarith, mul_zero]

/-- Twice the integral over the positive half. -/
theorem integral_even {g : ℝ → ℝ} (hg : ∀ μ, g (-μ) = g μ) (hc : Continuous g) :
    ∫ μ in (-1 : ℝ)..1, g μ = 2 * ∫ μ in (0 : ℝ)..1, g μ := by
  have h : ∫ μ in (-1 : ℝ)..0, g μ = ∫ μ in (0 : ℝ)..1, g μ := by
    have := integral_comp_neg (a := 0) (b := 1) g
    simp only [hg, neg_zero] at this
    exact this.symm
  rw [← integral_add_adjacent_intervals (hc.intervalIntegrable _ _) (hc.intervalIntegrable _ _), h]
  ring

/-! ## The two flat-sky terms -/

/-- Lensing-lensing: the multipole of the transverse correlation at the distance fraction `x`. -/
theorem multipoleOf_transverse {P : ℝ → ℝ} {kmin kmax : ℝ} (h1 : kmin ≤ kmax) (hP : ContinuousOn P (Set.Icc kmin kmax))
    (p : ℕ) (y : ℝ) :
    multipoleOf (2 * p) (fun μ => transverse P kmin kmax (y * Real.sqrt (1 - μ ^ 2))) =
      (2 * (2 * p : ℕ) + 1) * ((2 * p).factorial : ℝ) / 2 ^ (2 * p) / (p.factorial : ℝ) ^ 2
        * ∫ k in kmin..kmax, k * P k * gsl_sf_bessel_jl (2 * p) (k * y) := by
  rw [multipoleOf]
  have h := integral_transverse h1 hP (legP_continuous (2 * p)) (-1) 1 y
  simp only [integral_legP_J0] at h
  simp_rw [mul_comm _ (legP (2 * p) _)]
  rw [h]
  have e : ∀ c : ℝ, ∫ k in kmin..kmax, k * P k * (c * gsl_sf_bessel_jl (2 * p) (k * y)) =
      c * ∫ k in kmin..kmax, k * P k * gsl_sf_bessel_jl (2 * p) (k * y) := fun c => by
    rw [← integral_const_mul]
    exact integral_congr fun k _ => by ring
  rw [e]
  generalize (∫ k in kmin..kmax, k * P k * gsl_sf_bessel_jl (2 * p) (k * y)) = T
  field_simp

/-- Density-lensing: the multipole of `|μ|` times the transverse correlation. -/
theorem multipoleOf_abs_transverse {P : ℝ → ℝ} {kmin kmax : ℝ} (h0 : 0 < kmin) (h1 : kmin ≤ kmax)
    (hP : ContinuousOn P (Set.Icc kmin kmax)) (p : ℕ) {y : ℝ} (hy : 0 < y) :
    multipoleOf (2 * p) (fun μ => |μ| * transverse P kmin kmax (y * Real.sqrt (1 - μ ^ 2))) =
      (2 * (2 * p : ℕ) + 1) * ∑ k ∈ Finset.range (p + 1), (-1) ^ k / 2 ^ (2 * p) * ((2 * p).choose k : ℝ)
        * ((2 * (2 * p) - 2 * k).choose (2 * p) : ℝ) * (2 ^ (p - k) * ((p - k).factorial : ℝ)
          * ∫ q in kmin..kmax, q * P q * (gsl_sf_bessel_Jn (p - k + 1) (q * y) / (q * y) ^ (p - k + 1))) := by
  have hpos : ∀ k ∈ Set.uIcc kmin kmax, 0 < k := fun k hk => by
    rw [Set.uIcc_of_le h1] at hk; exact h0.trans_le hk.1
  have hP' : ContinuousOn P (Set.uIcc kmin kmax) := by rwa [Set.uIcc_of_le h1]
  have hT := transverse_continuous h1 hP
  have hL := legP_continuous (2 * p)
  rw [multipoleOf, integral_even (fun μ => by
      rw [abs_neg, neg_sq, legP_neg, (even_two_mul p).neg_one_pow, one_mul]) (by fun_prop)]
  have e1 : ∫ μ in (0 : ℝ)..1, |μ| * transverse P kmin kmax (y * Real.sqrt (1 - μ ^ 2)) * legP (2 * p) μ =
      ∫ μ in (0 : ℝ)..1, (μ * legP (2 * p) μ) * transverse P kmin kmax (y * Real.sqrt (1 - μ ^ 2)) := by
    refine integral_congr fun μ hμ => ?_
    rw [Set.uIcc_of_le zero_le_one] at hμ
    simp only [abs_of_nonneg hμ.1]
    ring
  rw [e1, integral_transverse h1 hP (by fun_prop)]
  have hJ := continuous_Jn 0
  have e2 : ∀ q ∈ Set.uIcc kmin kmax, q * P q * (∫ μ in (0 : ℝ)..1, μ * legP (2 * p) μ * gsl_sf_bessel_Jn 0 (q * y * Real.sqrt (1 - μ ^ 2))) =
      ∑ k ∈ Finset.range (p + 1), (-1) ^ k / 2 ^ (2 * p) * ((2 * p).choose k : ℝ)
        * ((2 * (2 * p) - 2 * k).choose (2 * p) : ℝ) * (2 ^ (p - k) * ((p - k).factorial : ℝ))
          * (q * P q * (gsl_sf_bessel_Jn (p - k + 1) (q * y) / (q * y) ^ (p - k + 1))) := fun q hq => by
    have hx : q * y ≠ 0 := (mul_pos (hpos q hq) hy).ne'
    have e3 : ∀ μ : ℝ, μ * legP (2 * p) μ * gsl_sf_bessel_Jn 0 (q * y * Real.sqrt (1 - μ ^ 2)) =
        ∑ k ∈ Finset.range (p + 1), (-1) ^ k / 2 ^ (2 * p) * ((2 * p).choose k : ℝ)
          * ((2 * (2 * p) - 2 * k).choose (2 * p) : ℝ) * (μ ^ (2 * (p - k) + 1) * gsl_sf_bessel_Jn 0 (q * y * Real.sqrt (1 - μ ^ 2))) := fun μ => by
      rw [legP_even, Finset.mul_sum, Finset.sum_mul]
      exact Finset.sum_congr rfl fun k _ => by ring
    simp_rw [e3]
    rw [integral_finset_sum fun k _ => Continuous.intervalIntegrable (by fun_prop) _ _, Finset.mul_sum]
    refine Finset.sum_congr rfl fun k _ => ?_
    rw [integral_const_mul, integral_pow_J0 _ hx]
    ring
  rw [integral_congr e2, integral_finset_sum fun k _ => ?_]
  · simp only [integral_const_mul]
    rw [show ∀ a b : ℝ, a / 2 * (2 * b) = a * b by intros; ring]
    congr 1
    exact Finset.sum_congr rfl fun k _ => by ring
  · refine ContinuousOn.intervalIntegrable (continuousOn_const.mul ?_)
    have hj : Continuous fun q : ℝ => gsl_sf_bessel_Jn (p - k + 1) (q * y) := (continuous_Jn _).comp (continuous_id.mul continuous_const)
    exact (continuousOn_id.mul hP').mul (hj.continuousOn.div (by fun_prop) fun q hq => pow_ne_zero _ (mul_pos (hpos q hq) hy).ne')

end Coffe
