import Verif.Proofs.BesselSeries
import Mathlib.MeasureTheory.Integral.IntervalIntegral.DerivIntegrable
import Mathlib.MeasureTheory.Integral.DominatedConvergence
import Mathlib.MeasureTheory.Integral.IntervalIntegral.FundThmCalculus

/-! # Limits of the integrals at small separations -/

namespace Coffe
open Filter Topology MeasureTheory Set
open scoped Interval

/-- If `φ` tends to `c` at zero, the integral of `w(k) φ(k r)` tends to that of `w(k) c`. -/
theorem tendsto_integral_scaled {w φ : ℝ → ℝ} {c kmin kmax : ℝ} (h0 : 0 < kmin) (h1 : kmin ≤ kmax)
    (hw : ContinuousOn w (Icc kmin kmax)) (hφ : ContinuousOn φ (Ioi 0)) (hl : Tendsto φ (𝓝[>] 0) (𝓝 c)) :
    Tendsto (fun r => ∫ k in kmin..kmax, w k * φ (k * r)) (𝓝[>] 0) (𝓝 (∫ k in kmin..kmax, w k * c)) := by
  have hsub : Ι kmin kmax ⊆ Icc kmin kmax := by rw [uIoc_of_le h1]; exact Ioc_subset_Icc_self
  have hk0 : ∀ k ∈ Ι kmin kmax, 0 < k := fun k hk => h0.trans_le (hsub hk).1
  -- a neighbourhood in which `φ` is close to its limit
  have hnear : ∀ᶠ x in 𝓝[>] (0 : ℝ), ‖φ x‖ ≤ |c| + 1 := by
    have := (continuous_norm.tendsto c).comp hl
    refine (this.eventually (gt_mem_nhds (show ‖c‖ < |c| + 1 by rw [Real.norm_eq_abs]; linarith))).mono fun x hx => hx.le
  obtain ⟨δ, hδ, hball⟩ := (mem_nhdsGT_iff_exists_Ioo_subset).1 hnear
  have hδ' : (0 : ℝ) < δ := hδ
  refine intervalIntegral.tendsto_integral_filter_of_dominated_convergence (fun k => ‖w k‖ * (|c| + 1)) ?_ ?_ ?_ ?_
  · refine eventually_nhdsWithin_of_forall fun r hr => ?_
    have hr' : 0 < r := hr
    refine ContinuousOn.aestronglyMeasurable ?_ measurableSet_uIoc
    refine (hw.mono hsub).mul (hφ.comp (continuousOn_id.mul continuousOn_const) fun k hk => ?_)
    exact mul_pos (hk0 k hk) hr'
  · have : Ioo (0 : ℝ) (δ / kmax) ∈ 𝓝[>] (0 : ℝ) := Ioo_mem_nhdsGT (div_pos hδ' (h0.trans_le h1))
    filter_upwards [this] with r hr
    refine Eventually.of_forall fun k hk => ?_
    have hkr : k * r ∈ Ioo (0 : ℝ) δ := by
      refine ⟨mul_pos (hk0 k hk) hr.1, ?_⟩
      calc k * r ≤ kmax * r := mul_le_mul_of_nonneg_right (hsub hk).2 hr.1.le
        _ < kmax * (δ / kmax) := mul_lt_mul_of_pos_left hr.2 (h0.trans_le h1)
        _ = δ := by field_simp [(h0.trans_le h1).ne']
    rw [norm_mul]
    exact mul_le_mul_of_nonneg_left (hball hkr) (norm_nonneg _)
  · refine ContinuousOn.intervalIntegrable ?_
    rw [uIcc_of_le h1]
    exact hw.norm.mul continuousOn_const
  · refine Eventually.of_forall fun k hk => ?_
    have hk := hk0 k hk
    refine (hl.comp ?_).const_mul (w k)
    refine tendsto_nhdsWithin_iff.2 ⟨?_, eventually_nhdsWithin_of_forall fun r hr => mul_pos hk hr⟩
    have : Tendsto (fun r : ℝ => k * r) (𝓝 0) (𝓝 (k * 0)) := (continuous_const.mul continuous_id).tendsto 0
    rw [mul_zero] at this
    exact this.mono_left nhdsWithin_le_nhds

/-- Small separations of the general integrand: `B` is the Bessel function of order `p` (up to the factor `s`), `a` the power in
the denominator, `d = a - p`. -/
theorem tendsto_integrand {B P : ℝ → ℝ} {p : ℕ} {c s a kmin kmax : ℝ} (h0 : 0 < kmin) (h1 : kmin ≤ kmax)
    (hP : ContinuousOn P (Icc kmin kmax)) (hB : Continuous B) (hl : Tendsto (fun x => B x / x ^ p) (𝓝[>] 0) (𝓝 c)) :
    Tendsto (fun r => (∫ k in kmin..kmax, k * k * P k * (s * B (k * r) / (k * r) ^ a))
        * (if a ≥ p then r ^ (a - p) else 1)) (𝓝[>] 0)
      (𝓝 (if a ≥ p then (∫ k in kmin..kmax, s * k ^ (2 + p - a) * P k) * c else 0)) := by
  have hpos : ∀ k ∈ Icc kmin kmax, 0 < k := fun k hk => h0.trans_le hk.1
  have hid : ContinuousOn (fun k : ℝ => k) (Icc kmin kmax) := continuousOn_id
  have huI : ∀ k ∈ uIcc kmin kmax, 0 < k := fun k hk => hpos k (by rwa [uIcc_of_le h1] at hk)
  by_cases ha : a ≥ p
  · simp only [if_pos ha]
    have hw : ContinuousOn (fun k => s * k ^ (2 + p - a) * P k) (Icc kmin kmax) :=
      (continuousOn_const.mul (hid.rpow_const fun k hk => Or.inl (hpos k hk).ne')).mul hP
    have := tendsto_integral_scaled h0 h1 hw (φ := fun x => B x / x ^ p)
      (hB.continuousOn.div (continuousOn_id.pow p) fun x hx => pow_ne_zero p (mem_Ioi.1 hx).ne') hl
    rw [intervalIntegral.integral_mul_const] at this
    refine this.congr' (eventually_nhdsWithin_of_forall fun r hr => ?_)
    have hr : 0 < r := hr
    show (∫ k in kmin..kmax, s * k ^ (2 + p - a) * P k * (B (k * r) / (k * r) ^ p)) =
      (∫ k in kmin..kmax, k * k * P k * (s * B (k * r) / (k * r) ^ a)) * r ^ (a - p)
    rw [← intervalIntegral.integral_mul_const]
    refine intervalIntegral.integral_congr fun k hk => ?_
    have hk := huI k hk
    have hkr : 0 < k * r := mul_pos hk hr
    have e1 : (k * r) ^ a = (k * r) ^ p * (k ^ (a - p) * r ^ (a - p)) := by
      rw [← Real.mul_rpow hk.le hr.le, ← Real.rpow_natCast (k * r) p, ← Real.rpow_add hkr]; ring_nf
    have e2 : k ^ (2 + p - a) * k ^ (a - p) = k * k := by
      rw [← Real.rpow_add hk, show 2 + (p : ℝ) - a + (a - p) = ((2 : ℕ) : ℝ) by push_cast; ring, Real.rpow_natCast]; ring
    have n1 : k ^ (a - p) ≠ 0 := (Real.rpow_pos_of_pos hk _).ne'
    have n2 : r ^ (a - p) ≠ 0 := (Real.rpow_pos_of_pos hr _).ne'
    have n3 : (k * r) ^ p ≠ 0 := (pow_pos hkr p).ne'
    show s * k ^ (2 + p - a) * P k * (B (k * r) / (k * r) ^ p) = k * k * P k * (s * B (k * r) / (k * r) ^ a) * r ^ (a - p)
    rw [e1, ← e2]
    generalize (k * r) ^ p = X at *
    generalize k ^ (a - p) = Y at *
    generalize r ^ (a - p) = Z at *
    field_simp
  · simp only [if_neg ha, mul_one]
    have hw : ContinuousOn (fun k => k * k * P k * s) (Icc kmin kmax) := ((hid.mul hid).mul hP).mul continuousOn_const
    have hlim : Tendsto (fun x => B x / x ^ a) (𝓝[>] 0) (𝓝 0) := by
      have hpow : Tendsto (fun x : ℝ => x ^ ((p : ℝ) - a)) (𝓝[>] 0) (𝓝 0) := by
        have h : 0 < (p : ℝ) - a := by linarith [not_le.1 ha]
        have := (Real.continuousAt_rpow_const 0 ((p : ℝ) - a) (Or.inr h.le)).tendsto
        rw [Real.zero_rpow h.ne'] at this
        exact this.mono_left nhdsWithin_le_nhds
      have := hl.mul hpow
      rw [mul_zero] at this
      refine this.congr' (eventually_nhdsWithin_of_forall fun x hx => ?_)
      have hx : 0 < x := hx
      rw [Real.rpow_sub hx, Real.rpow_natCast]
      have := (pow_pos hx p).ne'
      field_simp
    have := tendsto_integral_scaled h0 h1 hw (φ := fun x => B x / x ^ a)
      (hB.continuousOn.div (continuousOn_id.rpow_const fun x hx => Or.inl (mem_Ioi.1 hx).ne')
        fun x hx => (Real.rpow_pos_of_pos (mem_Ioi.1 hx) _).ne') hlim
    simp only [mul_zero, intervalIntegral.integral_zero] at this
    refine this.congr fun r => intervalIntegral.integral_congr fun k _ => ?_
    ring

end Coffe
