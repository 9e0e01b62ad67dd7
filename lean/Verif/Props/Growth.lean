import Verif.Props.Background
import Verif.Proofs.MaxSeparation
import Verif.Spec.Growth
import Mathlib.Analysis.SpecialFunctions.Sqrt
import Mathlib.Analysis.SpecialFunctions.Integrals.Basic
import Mathlib.MeasureTheory.Integral.IntervalIntegral.IntegrationByParts

/-!
# C79: the growth factor obeys the growth equation of the expansion
-/

namespace Coffe
open Set

/-- The expansion rate that the code tabulates is the one of the specification. -/
theorem rate_is_code (p : BgPar) (W : ℝ → ℝ) {a : ℝ} (ha : a ≠ 0) : p.rate W a = Real.sqrt (bg_E p W (1 / a - 1)) := by
  unfold BgPar.rate bg_E BgPar.matter
  rw [show (1 + (1 / a - 1) : ℝ) = 1 / a by ring]
  congr 1
  field_simp

theorem rate_deriv (p : BgPar) {w W : ℝ → ℝ} {a : ℝ} (ha : 0 < a) (hW : DarkEnergyAt w W (1 / a - 1))
    (hE : 0 < p.matter / a ^ 3 + p.Omega0_gamma / a ^ 4 + p.Omega0_de * W (1 / a - 1)) :
    deriv (p.rate W) a / p.rate W a =
      -(3 * p.matter / a ^ 3 + 4 * p.Omega0_gamma / a ^ 4 + 3 * (1 + w (1 / a - 1)) * (p.Omega0_de * W (1 / a - 1))) /
        (2 * a * (p.matter / a ^ 3 + p.Omega0_gamma / a ^ 4 + p.Omega0_de * W (1 / a - 1))) := by
  have h0 := ha.ne'
  have hz : HasDerivAt (fun a : ℝ => 1 / a - 1) (-(1 / a ^ 2)) a := by
    have := ((hasDerivAt_inv h0).sub_const 1)
    refine (this.congr_deriv ?_).congr_of_eventuallyEq (Filter.Eventually.of_forall fun x => ?_)
    · rw [one_div]
    · simp [one_div]
  have hWa : HasDerivAt (fun a : ℝ => W (1 / a - 1)) (3 * (1 + w (1 / a - 1)) / (1 + (1 / a - 1)) * W (1 / a - 1) * -(1 / a ^ 2)) a :=
    HasDerivAt.comp a (h₂ := W) hW hz
  have h3 : HasDerivAt (fun a : ℝ => p.matter / a ^ 3) (-(3 * p.matter / a ^ 4)) a := by
    have := (hasDerivAt_const a p.matter).div ((hasDerivAt_id a).pow 3) (pow_ne_zero 3 h0)
    refine HasDerivAt.congr_deriv (f := fun a : ℝ => p.matter / a ^ 3) this ?_
    simp
    field_simp
  have h4 : HasDerivAt (fun a : ℝ => p.Omega0_gamma / a ^ 4) (-(4 * p.Omega0_gamma / a ^ 5)) a := by
    have := (hasDerivAt_const a p.Omega0_gamma).div ((hasDerivAt_id a).pow 4) (pow_ne_zero 4 h0)
    refine HasDerivAt.congr_deriv (f := fun a : ℝ => p.Omega0_gamma / a ^ 4) this ?_
    simp
    field_simp
  have hd := (((h3.add h4).add (hWa.const_mul p.Omega0_de)).sqrt hE.ne')
  have e : deriv (p.rate W) a = _ := hd.deriv
  have hs : p.rate W a * p.rate W a = p.matter / a ^ 3 + p.Omega0_gamma / a ^ 4 + p.Omega0_de * W (1 / a - 1) :=
    Real.mul_self_sqrt hE.le
  have hr : 0 < p.rate W a := Real.sqrt_pos.2 hE
  rw [e]
  simp only [Pi.add_apply]
  change _ / (2 * p.rate W a) / p.rate W a = _
  rw [div_div, mul_assoc 2 (p.rate W a), hs]
  rw [show (1 + (1 / a - 1) : ℝ) = 1 / a by ring]
  field_simp
  ring

/-- Without radiation: the equation that the code integrates is the growth equation of the expansion, for every dark energy. -/
theorem C79_equation_partial (p : BgPar) (w W : ℝ → ℝ) (a D V : ℝ) (ha : 0 < a) (hW : DarkEnergyAt w W (1 / a - 1))
    (hpos : 0 < W (1 / a - 1)) (h0 : p.Omega0_gamma = 0) (hde : p.Omega0_de = 1 - p.matter) (h1 : 0 ≤ p.matter)
    (h2 : p.matter < 1) :
    growth_rate_ode w (fun z => p.matter * (1 + z) ^ 3 / ((1 - p.matter) * W z)) a (D, V) =
      (V, standardGrowth p.matter (p.rate W) a D V) := by
  have ha0 := ha.ne'
  have hm : 0 < 1 - p.matter := by linarith
  have hE : 0 < p.matter / a ^ 3 + p.Omega0_gamma / a ^ 4 + p.Omega0_de * W (1 / a - 1) := by
    rw [h0, hde]
    have := div_nonneg h1 (pow_pos ha 3).le
    have := mul_pos hm hpos
    simp only [zero_div, add_zero]
    linarith
  have hs : p.rate W a ^ 2 = p.matter / a ^ 3 + p.Omega0_gamma / a ^ 4 + p.Omega0_de * W (1 / a - 1) := Real.sq_sqrt hE.le
  unfold standardGrowth growth_rate_ode
  rw [rate_deriv p ha hW hE, hs]
  rw [h0, hde] at *
  simp only [zero_div, add_zero, mul_zero] at *
  rw [show (1 + (1 / a - 1) : ℝ) = 1 / a by ring]
  generalize w (1 / a - 1) = q
  generalize W (1 / a - 1) = y at *
  generalize p.matter = m at *
  have hn : m / a ^ 3 + (1 - m) * y ≠ 0 := hE.ne'
  have hx : 1 + m * (1 / a) ^ 3 / ((1 - m) * y) = (m / a ^ 3 + (1 - m) * y) / ((1 - m) * y) := by
    have := hm.ne'
    field_simp
    ring
  have hmy : (1 - m) * y ≠ 0 := (mul_pos hm hpos).ne'
  refine Prod.ext rfl ?_
  show -3 / 2 * (1 - q / (1 + m * (1 / a) ^ 3 / ((1 - m) * y))) * V / a +
    3 / 2 * (m * (1 / a) ^ 3 / ((1 - m) * y)) / (1 + m * (1 / a) ^ 3 / ((1 - m) * y)) * D / a ^ 2 = _
  rw [hx]
  generalize hF : m / a ^ 3 + (1 - m) * y = F at *
  have hm3 : m = a ^ 3 * (F - (1 - m) * y) := by rw [← hF]; field_simp; ring
  generalize hk : (1 - m) * y = k at *
  rw [show 3 * m / a ^ 3 = 3 * (F - k) by rw [← hF]; ring]
  field_simp
  rw [hm3]
  ring

theorem integrand_x_integral (p : BgPar) {z : ℝ} (h0 : 0 ≤ z) :
    (∫ a in (1 / (1 + z))..1, integrand_x p a) = ∫ u in (0 : ℝ)..z, de_w p u / (1 + u) := by
  have hz : 0 < 1 + z := by linarith
  have hl : 1 / (1 + z) ≤ 1 := by rw [div_le_one hz]; linarith
  have hp : 0 < 1 / (1 + z) := by positivity
  have hm : min (1 / (1 + z)) 1 = 1 / (1 + z) := min_eq_left hl
  have hM : max (1 / (1 + z)) 1 = 1 := max_eq_right hl
  have key := intervalIntegral.integral_comp_mul_deriv_of_deriv_nonpos (a := 1 / (1 + z)) (b := 1)
    (f := fun a : ℝ => a⁻¹ - 1) (f' := fun a : ℝ => -(a ^ 2)⁻¹) (g := fun u => de_w p u / (1 + u)) ?_ ?_ ?_
  · have e1 : (∫ x in (1 / (1 + z))..1, ((fun u => de_w p u / (1 + u)) ∘ fun a : ℝ => a⁻¹ - 1) x * -(x ^ 2)⁻¹) =
        ∫ x in (1 / (1 + z))..1, -integrand_x p x := by
      refine intervalIntegral.integral_congr fun x hx => ?_
      rw [Set.uIcc_of_le hl] at hx
      have hx0 : x ≠ 0 := (hp.trans_le hx.1).ne'
      simp only [Function.comp]
      unfold integrand_x
      rw [show (1 + (x⁻¹ - 1) : ℝ) = x⁻¹ by ring, one_div]
      field_simp
    rw [e1, intervalIntegral.integral_neg] at key
    have e2 : ((1 / (1 + z))⁻¹ - 1 : ℝ) = z := by rw [one_div, inv_inv]; ring
    have e3 : ((1 : ℝ)⁻¹ - 1) = 0 := by norm_num
    simp only [e2, e3] at key
    rw [intervalIntegral.integral_symm 0 z] at key
    linarith
  · intro x hx
    rw [Set.uIcc_of_le hl] at hx
    have hx0 : x ≠ 0 := (hp.trans_le hx.1).ne'
    exact ((continuousAt_inv₀ hx0).sub continuousAt_const).continuousWithinAt
  · intro x hx
    rw [hm, hM] at hx
    exact (hasDerivAt_inv (hp.trans hx.1).ne').sub_const 1
  · intro x _
    have : 0 ≤ (x ^ 2)⁻¹ := by positivity
    linarith

/-- The table of the ratio: with exact integration, at every node the ratio that enters the growth equation is that of matter
to a dark energy of fraction `1 - Ωm`, whose density is the tabulated one that enters the expansion rate. -/
theorem C79_tables (p : BgPar) (hm : p.matter ≠ 1) (i : ℕ) (hi : i ≤ de_bins) :
    de_xint exactQ p (de_z i) = p.matter * (1 + de_z i) ^ 3 / ((1 - p.matter) * de_wint exactQ p (de_z i)) := by
  obtain ⟨h0, h1⟩ := de_z_mem (i := i) (by omega)
  have hz : 0 < 1 + de_z i := by linarith
  have hm' : 1 - p.matter ≠ 0 := sub_ne_zero.2 (Ne.symm hm)
  unfold de_xint de_wint
  rw [interp_node de_z_strictMono (by omega) (by norm_num [de_bins]), interp_node de_z_strictMono (by omega) (by norm_num [de_bins])]
  change (if i ≠ 0 then p.matter / (1 - p.matter) * _ else p.matter / (1 - p.matter)) = _
  have hne : ∀ u ∈ uIcc 0 (de_z i), 1 + u ≠ 0 := fun u hu => by
    rw [uIcc_of_le h0] at hu
    linarith [hu.1]
  have hsub : uIcc 0 (de_z i) ⊆ Icc 0 100 := fun u hu => by
    rw [uIcc_of_le h0] at hu
    exact ⟨hu.1, hu.2.trans h1⟩
  have hc : ContinuousOn (fun u : ℝ => 1 + u) (uIcc 0 (de_z i)) := continuousOn_const.add continuousOn_id
  have hi1 : IntervalIntegrable (fun u : ℝ => 1 / (1 + u)) MeasureTheory.volume 0 (de_z i) :=
    (continuousOn_const.div hc hne).intervalIntegrable
  have hi2 : IntervalIntegrable (fun u : ℝ => de_w p u / (1 + u)) MeasureTheory.volume 0 (de_z i) :=
    ((de_w_continuousOn.mono hsub).div hc hne).intervalIntegrable
  have hw : exactQ (integrand_w p) 0 (de_z i) = Real.log (1 + de_z i) + ∫ u in (0 : ℝ)..de_z i, de_w p u / (1 + u) := by
    have e : (∫ u in (0 : ℝ)..de_z i, 1 / (1 + u)) = Real.log (1 + de_z i) := by
      have := intervalIntegral.integral_comp_add_left (a := 0) (b := de_z i) (fun u : ℝ => 1 / u) 1
      rw [this, integral_one_div_of_pos (by norm_num) hz]
      congr 1
      norm_num
    rw [← e, ← intervalIntegral.integral_add hi1 hi2]
    unfold exactQ
    refine intervalIntegral.integral_congr fun u _ => ?_
    simp only [integrand_w]
    ring
  have hlog : Real.exp (3 * Real.log (1 + de_z i)) = (1 + de_z i) ^ 3 := by
    rw [show 3 * Real.log (1 + de_z i) = ((3 : ℕ) : ℝ) * Real.log (1 + de_z i) by norm_num, Real.exp_nat_mul, Real.exp_log hz]
  rw [hw, mul_add, Real.exp_add, hlog]
  by_cases h : i = 0
  · subst h
    simp [de_z_zero]
  · rw [if_pos h]
    have hx : exactQ (integrand_x p) (1 / (1 + de_z i)) 1 = ∫ u in (0 : ℝ)..de_z i, de_w p u / (1 + u) :=
      integrand_x_integral p h0
    rw [hx, show (-3 : ℝ) * (∫ u in (0 : ℝ)..de_z i, de_w p u / (1 + u)) = -(3 * ∫ u in (0 : ℝ)..de_z i, de_w p u / (1 + u)) by ring,
      Real.exp_neg]
    have := Real.exp_pos (3 * ∫ u in (0 : ℝ)..de_z i, de_w p u / (1 + u))
    field_simp

/-- A universe with radiation and a cosmological constant. -/
noncomputable def radiationPar : BgPar :=
  { wBgPar with Omega0_cdm := 0.25, Omega0_baryon := 0.05, Omega0_gamma := 0.1, Omega0_de := 0.6 }

/-- C79 fails with radiation, even when all densities add up to one: the equation that the code integrates is not that of
the expansion that it tabulates. -/
theorem C79_equation_false :
    ¬ ∀ (p : BgPar) (w W : ℝ → ℝ) (a D V : ℝ), 0 < a → DarkEnergyAt w W (1 / a - 1) → 0 < W (1 / a - 1) →
      0 ≤ p.Omega0_gamma → p.matter + p.Omega0_gamma + p.Omega0_de = 1 → 0 ≤ p.matter → p.matter < 1 →
      growth_rate_ode w (fun z => p.matter * (1 + z) ^ 3 / ((1 - p.matter) * W z)) a (D, V) =
        (V, standardGrowth p.matter (p.rate W) a D V) := by
  intro H
  have hm : radiationPar.matter = 0.3 := by show (0.25 : ℝ) + 0.05 = 0.3; norm_num
  have hg : radiationPar.Omega0_gamma = 0.1 := rfl
  have hd : radiationPar.Omega0_de = 0.6 := rfl
  have hW : DarkEnergyAt (fun _ => -1) (fun _ => 1) (1 / 1 - 1) := by
    unfold DarkEnergyAt
    have := hasDerivAt_const (𝕜 := ℝ) (1 / 1 - 1 : ℝ) (1 : ℝ)
    simpa using this
  have h := H radiationPar (fun _ => -1) (fun _ => 1) 1 0 1 one_pos hW one_pos (by rw [hg]; norm_num)
    (by rw [hm, hg, hd]; norm_num) (by rw [hm]; norm_num) (by rw [hm]; norm_num)
  have h2 := congrArg Prod.snd h
  simp only [growth_rate_ode, standardGrowth] at h2
  rw [rate_deriv radiationPar one_pos hW (by rw [hm, hg, hd]; norm_num), hm, hg, hd] at h2
  norm_num at h2

/-- Non-vacuity of `C79_equation_partial`: a cosmological constant. -/
example : ∃ (p : BgPar) (w W : ℝ → ℝ) (a : ℝ), 0 < a ∧ DarkEnergyAt w W (1 / a - 1) ∧ 0 < W (1 / a - 1) ∧ p.Omega0_gamma = 0 ∧
    p.Omega0_de = 1 - p.matter ∧ 0 < p.matter ∧ p.matter < 1 := by
  have hm : ({ radiationPar with Omega0_gamma := 0, Omega0_de := 0.7 } : BgPar).matter = 0.3 := by
    show (0.25 : ℝ) + 0.05 = 0.3; norm_num
  refine ⟨{ radiationPar with Omega0_gamma := 0, Omega0_de := 0.7 }, fun _ => -1, fun _ => 1, 1 / 2, by norm_num, ?_, one_pos, rfl,
    ?_, ?_, ?_⟩
  · unfold DarkEnergyAt
    have := hasDerivAt_const (𝕜 := ℝ) (1 / (1 / 2) - 1 : ℝ) (1 : ℝ)
    simpa using this
  · rw [hm]; show (0.7 : ℝ) = _; norm_num
  · rw [hm]; norm_num
  · rw [hm]; norm_num

/-- Non-vacuity of `C79_tables`: the parameters of a new object. -/
example : wBgPar.matter ≠ 1 := by
  show (0.3 - 0.05 - 0 + 0.05 : ℝ) ≠ 1; norm_num

end Coffe
