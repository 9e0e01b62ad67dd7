import Verif.Spec.Bessel
import Mathlib.MeasureTheory.Integral.IntervalIntegral.FundThmCalculus
import Mathlib.Analysis.SpecialFunctions.Integrals.Basic
import Mathlib.Analysis.Calculus.Deriv.Inv
import Mathlib.Analysis.Calculus.Deriv.Pow
import Mathlib.Analysis.SpecialFunctions.Trigonometric.Deriv

namespace Coffe

theorem continuousOn_sphericalBessel (l : ℕ) : ContinuousOn (sphericalBessel l) (Set.Ioi 0) ∧
    ContinuousOn (sphericalBessel (l + 1)) (Set.Ioi 0) := by
  have hid : ContinuousOn (fun x : ℝ => x) (Set.Ioi 0) := continuousOn_id
  have hne : ∀ x ∈ Set.Ioi (0 : ℝ), x ≠ 0 := fun x hx => (Set.mem_Ioi.1 hx).ne'
  induction l with
  | zero =>
    constructor
    · exact (Real.continuous_sin.continuousOn).div hid hne
    · exact ((Real.continuous_sin.continuousOn).div (hid.pow 2) fun x hx => pow_ne_zero 2 (hne x hx)).sub
        ((Real.continuous_cos.continuousOn).div hid hne)
  | succ l ih => exact ⟨ih.2, ((continuousOn_const.div hid hne).mul ih.2).sub ih.1⟩

/-- A combination of cosine, sine and sine integral. -/
theorem hasDerivAt_combination {A B Si : ℝ → ℝ} {a b x : ℝ} (c : ℝ) (hA : HasDerivAt A a x) (hB : HasDerivAt B b x)
    (hS : HasDerivAt Si (Real.sin x / x) x) :
    HasDerivAt (fun x => A x * Real.cos x + B x * Real.sin x + c * Si x)
      (a * Real.cos x - A x * Real.sin x + (b * Real.sin x + B x * Real.cos x) + c * (Real.sin x / x)) x := by
  have := ((hA.mul (Real.hasDerivAt_cos x)).add (hB.mul (Real.hasDerivAt_sin x))).add (hS.const_mul c)
  have e : a * Real.cos x + A x * -Real.sin x + (b * Real.sin x + B x * Real.cos x) + c * (Real.sin x / x)
      = a * Real.cos x - A x * Real.sin x + (b * Real.sin x + B x * Real.cos x) + c * (Real.sin x / x) := by ring
  rw [e] at this
  exact this

theorem hasDerivAt_coefficient (a0 a1 a2 a3 a4 a5 : ℝ) {x : ℝ} (hx : x ≠ 0) :
    HasDerivAt (fun x => a0 * x + a1 + a2 * x⁻¹ + a3 * (x⁻¹) ^ 2 + a4 * (x⁻¹) ^ 3 + a5 * (x⁻¹) ^ 4)
      (a0 - a2 * (x⁻¹) ^ 2 - 2 * a3 * (x⁻¹) ^ 3 - 3 * a4 * (x⁻¹) ^ 4 - 4 * a5 * (x⁻¹) ^ 5) x := by
  have hi := hasDerivAt_inv hx
  have := (((((hasDerivAt_id x).const_mul a0).add_const a1).add (hi.const_mul a2)).add ((hi.pow 2).const_mul a3)).add
    ((hi.pow 3).const_mul a4) |>.add ((hi.pow 4).const_mul a5)
  refine this.congr_deriv ?_
  simp only [Nat.cast_ofNat, Nat.add_one_sub_one, Nat.reduceSub]
  field_simp
  ring

/-- The analytic integrals of the code have derivative `x² j_l(x)`, for `l ≤ 6`. -/
theorem hasDerivAt_integral_bessel_unit (E : CovNum) (hS : IsSineIntegral E.Si) (l : ℕ) (hl : l ≤ 6) {x : ℝ} (hx : 0 < x) :
    HasDerivAt (integral_bessel_unit E l) (x ^ 2 * sphericalBessel l x) x := by
  have hx' := hx.ne'
  have key : ∀ (a0 a1 a2 a3 a4 a5 b0 b1 b2 b3 b4 b5 c : ℝ),
      (∀ y > 0, integral_bessel_unit E l y = (a0 * y + a1 + a2 * y⁻¹ + a3 * (y⁻¹) ^ 2 + a4 * (y⁻¹) ^ 3 + a5 * (y⁻¹) ^ 4) * Real.cos y
        + (b0 * y + b1 + b2 * y⁻¹ + b3 * (y⁻¹) ^ 2 + b4 * (y⁻¹) ^ 3 + b5 * (y⁻¹) ^ 4) * Real.sin y + c * E.Si y) →
      x ^ 2 * sphericalBessel l x = (a0 - a2 * (x⁻¹) ^ 2 - 2 * a3 * (x⁻¹) ^ 3 - 3 * a4 * (x⁻¹) ^ 4 - 4 * a5 * (x⁻¹) ^ 5) * Real.cos x
        - (a0 * x + a1 + a2 * x⁻¹ + a3 * (x⁻¹) ^ 2 + a4 * (x⁻¹) ^ 3 + a5 * (x⁻¹) ^ 4) * Real.sin x
        + ((b0 - b2 * (x⁻¹) ^ 2 - 2 * b3 * (x⁻¹) ^ 3 - 3 * b4 * (x⁻¹) ^ 4 - 4 * b5 * (x⁻¹) ^ 5) * Real.sin x
          + (b0 * x + b1 + b2 * x⁻¹ + b3 * (x⁻¹) ^ 2 + b4 * (x⁻¹) ^ 3 + b5 * (x⁻¹) ^ 4) * Real.cos x) + c * (Real.sin x / x) →
      HasDerivAt (integral_bessel_unit E l) (x ^ 2 * sphericalBessel l x) x := by
    intro a0 a1 a2 a3 a4 a5 b0 b1 b2 b3 b4 b5 c h h'
    rw [h']
    exact (hasDerivAt_combination c (hasDerivAt_coefficient a0 a1 a2 a3 a4 a5 hx') (hasDerivAt_coefficient b0 b1 b2 b3 b4 b5 hx')
      (hS x hx)).congr_of_eventuallyEq (Filter.eventuallyEq_of_mem (Ioi_mem_nhds hx) fun y hy => h y hy)
  interval_cases l
  · refine key (-1) 0 0 0 0 0 0 1 0 0 0 0 0 (fun y hy => ?_) ?_
    · simp only [integral_bessel_unit]; ring
    · simp only [sphericalBessel]; field_simp; ring
  · refine key 0 (-2) 0 0 0 0 (-1) 0 0 0 0 0 0 (fun y hy => ?_) ?_
    · simp only [integral_bessel_unit]; ring
    · simp only [sphericalBessel]; field_simp; ring
  · refine key 1 0 0 0 0 0 0 (-4) 0 0 0 0 3 (fun y hy => ?_) ?_
    · simp only [integral_bessel_unit]; ring
    · simp only [sphericalBessel]; push_cast; field_simp; ring
  · refine key 0 7 0 0 0 0 1 0 (-15) 0 0 0 0 (fun y hy => ?_) ?_
    · have := (show y > 0 from hy).ne'
      simp only [integral_bessel_unit]; field_simp; ring
    · simp only [sphericalBessel]; push_cast; field_simp; ring
  · refine key (-1) 0 (105 / 2) 0 0 0 0 11 0 (-105 / 2) 0 0 (15 / 2) (fun y hy => ?_) ?_
    · have := (show y > 0 from hy).ne'
      simp only [integral_bessel_unit]; field_simp; ring
    · simp only [sphericalBessel]; push_cast; field_simp; ring
  · refine key 0 (-16) 0 315 0 0 (-1) 0 105 0 (-315) 0 0 (fun y hy => ?_) ?_
    · have := (show y > 0 from hy).ne'
      simp only [integral_bessel_unit]; field_simp; ring
    · simp only [sphericalBessel]; push_cast; field_simp; ring
  · refine key 1 0 (-1575 / 8) 0 (20790 / 8) 0 0 (-22) 0 (8505 / 8) 0 (-20790 / 8) (105 / 8) (fun y hy => ?_) ?_
    · have := (show y > 0 from hy).ne'
      simp only [integral_bessel_unit]; field_simp; ring
    · simp only [sphericalBessel]; push_cast; field_simp; ring

/-- The windowed Bessel function is the mean over the shell. -/
theorem windowed_bessel_eq (E : CovNum) (hS : IsSineIntegral E.Si) (l : ℕ) (hl : l ≤ 6) {k s d : ℝ} (hk : 0 < k) (hd : 0 < d) (hs : d / 2 < s) :
    windowed_bessel E s l k s d = shellMean l k s d := by
  have ha : 0 < s - d / 2 := by linarith
  have hab : s - d / 2 ≤ s + d / 2 := by linarith
  unfold windowed_bessel shellMean
  rw [if_neg hd.ne']
  have e1 : ∫ r in (s - d / 2)..(s + d / 2), r ^ 2 = covariance_volume_no_4pi (s - d / 2) (s + d / 2) := by
    rw [integral_pow]; unfold covariance_volume_no_4pi; norm_num
  have pos : ∀ r ∈ Set.uIcc (s - d / 2) (s + d / 2), 0 < r := by
    intro r hr
    rw [Set.uIcc_of_le hab] at hr
    exact ha.trans_le hr.1
  have e2 : ∫ r in (s - d / 2)..(s + d / 2), r ^ 2 * sphericalBessel l (k * r)
      = integral_bessel E l k (s + d / 2) - integral_bessel E l k (s - d / 2) := by
    refine intervalIntegral.integral_eq_sub_of_hasDerivAt (f := integral_bessel E l k) (fun r hr => ?_) ?_
    · have h := hasDerivAt_integral_bessel_unit E hS l hl (mul_pos hk (pos r hr))
      have hin : HasDerivAt (fun r => k * r) k r := by simpa using (hasDerivAt_id r).const_mul k
      have h2 := (HasDerivAt.comp r h hin).div_const (k ^ 3)
      have : (k * r) ^ 2 * sphericalBessel l (k * r) * k / k ^ 3 = r ^ 2 * sphericalBessel l (k * r) := by
        have := hk.ne'
        field_simp
      rw [this] at h2
      exact h2
    · refine ContinuousOn.intervalIntegrable ((continuousOn_id.pow 2).mul ((continuousOn_sphericalBessel l).1.comp
        (continuousOn_const.mul continuousOn_id) fun r hr => ?_))
      exact mul_pos hk (pos r hr)
  rw [e1, e2]
  ring

end Coffe
