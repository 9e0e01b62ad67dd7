import Verif.Proofs.MellinGamma
import Verif.Proofs.Bessel
import Verif.Proofs.BesselSeries
import Verif.Spec.Mellin

/-!
# The Mellin transform of the damped spherical Bessel functions
-/

namespace Coffe
open MeasureTheory Set Filter Topology

theorem sphericalBessel_bounded (l : ℕ) : ∃ C, ∀ x : ℝ, 1 ≤ x → |sphericalBessel l x| ≤ C := by
  have key : (∃ C, ∀ x : ℝ, 1 ≤ x → |sphericalBessel l x| ≤ C) ∧ ∃ C, ∀ x : ℝ, 1 ≤ x → |sphericalBessel (l + 1) x| ≤ C := by
    induction l with
    | zero =>
      refine ⟨⟨1, fun x hx => ?_⟩, ⟨2, fun x hx => ?_⟩⟩
      · simp only [sphericalBessel]
        rw [abs_div, abs_of_pos (by linarith : 0 < x), div_le_one (by linarith)]
        exact (Real.abs_sin_le_one x).trans hx
      · simp only [sphericalBessel]
        have h0 : 0 < x := by linarith
        have h1 : |Real.sin x / x ^ 2| ≤ 1 := by
          rw [abs_div, abs_of_pos (by positivity : 0 < x ^ 2), div_le_one (by positivity)]
          exact (Real.abs_sin_le_one x).trans (one_le_pow₀ hx)
        have h2 : |Real.cos x / x| ≤ 1 := by
          rw [abs_div, abs_of_pos h0, div_le_one h0]
          exact (Real.abs_cos_le_one x).trans hx
        calc |Real.sin x / x ^ 2 - Real.cos x / x| ≤ |Real.sin x / x ^ 2| + |Real.cos x / x| := abs_sub _ _
          _ ≤ 2 := by linarith
    | succ l ih =>
      obtain ⟨⟨C, hC⟩, ⟨D, hD⟩⟩ := ih
      refine ⟨⟨D, hD⟩, ⟨(2 * (l : ℝ) + 3) * D + C, fun x hx => ?_⟩⟩
      simp only [sphericalBessel]
      have h0 : 0 < x := by linarith
      have hl : (0 : ℝ) < 2 * (l : ℝ) + 3 := by positivity
      have h1 : |(2 * (l : ℝ) + 3) / x * sphericalBessel (l + 1) x| ≤ (2 * (l : ℝ) + 3) * D := by
        rw [abs_mul, abs_div, abs_of_pos h0, abs_of_pos hl]
        have : (2 * (l : ℝ) + 3) / x ≤ 2 * (l : ℝ) + 3 := div_le_self hl.le hx
        exact mul_le_mul this (hD x hx) (abs_nonneg _) hl.le
      calc _ ≤ |(2 * (l : ℝ) + 3) / x * sphericalBessel (l + 1) x| + |sphericalBessel l x| := abs_sub _ _
        _ ≤ _ := by linarith [hC x hx]
  exact key.1

section
variable (l : ℕ) {ε : ℝ}

theorem damped_continuousOn (ε : ℝ) : ContinuousOn (damped l ε) (Ioi 0) := by
  unfold damped
  refine Complex.continuous_ofReal.comp_continuousOn ?_
  exact (continuousOn_sphericalBessel l).1.mul (by fun_prop)

theorem damped_locallyIntegrable (ε : ℝ) : LocallyIntegrableOn (damped l ε) (Ioi 0) :=
  (damped_continuousOn l ε).locallyIntegrableOn measurableSet_Ioi

theorem damped_top (ε : ℝ) : damped l ε =O[atTop] fun t => Real.exp (-ε * t) := by
  obtain ⟨C, hC⟩ := sphericalBessel_bounded l
  refine Asymptotics.IsBigO.of_bound C ((eventually_ge_atTop 1).mono fun x hx => ?_)
  unfold damped
  rw [Complex.norm_real, norm_mul]
  exact mul_le_mul_of_nonneg_right (hC x hx) (norm_nonneg _)

theorem damped_bot (hε : 0 < ε) : damped l ε =O[𝓝[>] 0] fun t : ℝ => t ^ (-(0 : ℝ)) := by
  have hc : Tendsto (fun x => gsl_sf_bessel_jl l x * Real.exp (-ε * x)) (𝓝[>] 0) (𝓝 (gsl_sf_bessel_jl l 0 * Real.exp (-ε * 0))) :=
    (((continuous_jl l).mul (by fun_prop)).tendsto 0).mono_left nhdsWithin_le_nhds
  have h1 := hc.isBigO_one ℝ
  have h2 : (fun x => sphericalBessel l x * Real.exp (-ε * x)) =O[𝓝[>] 0] fun _ : ℝ => (1 : ℝ) := by
    refine h1.congr' ?_ (Eventually.of_forall fun _ => rfl)
    exact eventually_mem_nhdsWithin.mono fun x hx => by
      simp only
      rw [jl_eq_sphericalBessel l (ne_of_gt hx)]
  have h3 : damped l ε =O[𝓝[>] 0] fun _ : ℝ => (1 : ℝ) := by
    refine Asymptotics.IsBigO.of_norm_left ?_
    refine h2.norm_left.congr' (Eventually.of_forall fun x => ?_) (Eventually.of_forall fun _ => rfl)
    exact (Complex.norm_real _).symm
  simpa using h3

theorem damped_bot_pow (hε : 0 < ε) : damped l ε =O[𝓝[>] 0] fun t : ℝ => t ^ (-(-(l : ℝ))) := by
  have hc : Tendsto (fun x => gsl_sf_bessel_jl l x / x ^ l) (𝓝[>] 0) (𝓝 _) := tendsto_jl l
  have h1 := hc.isBigO_one ℝ
  have he : (fun x : ℝ => Real.exp (-ε * x)) =O[𝓝[>] 0] fun _ : ℝ => (1 : ℝ) := by
    have : Tendsto (fun x : ℝ => Real.exp (-ε * x)) (𝓝[>] 0) (𝓝 (Real.exp (-ε * 0))) :=
      ((show Continuous fun x : ℝ => Real.exp (-ε * x) by fun_prop).tendsto 0).mono_left nhdsWithin_le_nhds
    exact this.isBigO_one ℝ
  have h2 := (h1.mul he).mul (Asymptotics.isBigO_refl (fun x : ℝ => x ^ l) (𝓝[>] 0))
  have h3 : (fun x => sphericalBessel l x * Real.exp (-ε * x)) =O[𝓝[>] 0] fun x : ℝ => x ^ (-(-(l : ℝ))) := by
    refine h2.congr' ?_ ?_
    · exact eventually_mem_nhdsWithin.mono fun x hx => by
        have hx0 : x ≠ 0 := ne_of_gt hx
        simp only
        rw [jl_eq_sphericalBessel l hx0]
        field_simp
    · refine Eventually.of_forall fun x => ?_
      simp
  refine Asymptotics.IsBigO.of_norm_left ?_
  refine h3.norm_left.congr' (Eventually.of_forall fun x => ?_) (Eventually.of_forall fun _ => rfl)
  exact (Complex.norm_real _).symm

theorem damped_convergent_pow (hε : 0 < ε) {z : ℂ} (hz : -(l : ℝ) < z.re) : MellinConvergent (damped l ε) z :=
  mellinConvergent_of_isBigO_rpow_exp hε (damped_locallyIntegrable l ε) (damped_top l ε) (damped_bot_pow l hε) hz

theorem damped_convergent (hε : 0 < ε) {z : ℂ} (hz : 0 < z.re) : MellinConvergent (damped l ε) z :=
  mellinConvergent_of_isBigO_rpow_exp hε (damped_locallyIntegrable l ε) (damped_top l ε) (damped_bot l hε) hz

theorem damped_differentiable (hε : 0 < ε) : DifferentiableOn ℂ (mellin (damped l ε)) rightHalf := fun _ hz =>
  (mellin_differentiableAt_of_isBigO_rpow_exp hε (damped_locallyIntegrable l ε) (damped_top l ε) (damped_bot l hε)
    hz).differentiableWithinAt
end

/-- The integral of `x ^ (z - 2) sin x`, up to the factor `Γ (z - 1)`. -/
noncomputable def sinPart (ε : ℝ) (z : ℂ) : ℂ :=
  (((ε : ℂ) - Complex.I) ^ (1 - z) - ((ε : ℂ) + Complex.I) ^ (1 - z)) / (2 * Complex.I)

/-- The integral of `x ^ (z - 2) cos x`, up to the factor `Γ (z - 1)`. -/
noncomputable def cosPart (ε : ℝ) (z : ℂ) : ℂ :=
  (((ε : ℂ) - Complex.I) ^ (1 - z) + ((ε : ℂ) + Complex.I) ^ (1 - z)) / 2

/-- The transform of order `l`, up to the factor `Γ z / ((z - 1) … (z - l - 1))`. -/
noncomputable def besselPart (ε : ℝ) : ℕ → ℂ → ℂ
  | 0, z => sinPart ε z
  | 1, z => sinPart ε (z - 1) - (z - 2) * cosPart ε z
  | l + 2, z => (2 * (l : ℂ) + 3) * besselPart ε (l + 1) (z - 1) - (z - (l + 2)) * (z - (l + 3)) * besselPart ε l z

/-- `(z - 1) … (z - n)`. -/
noncomputable def falling (n : ℕ) (z : ℂ) : ℂ := ∏ k ∈ Finset.range n, (z - (k + 1))

theorem falling_succ (n : ℕ) (z : ℂ) : falling (n + 1) z = falling n z * (z - (n + 1)) := by
  unfold falling; rw [Finset.prod_range_succ]

theorem falling_shift (n : ℕ) (z : ℂ) : falling (n + 1) z = (z - 1) * falling n (z - 1) := by
  unfold falling
  rw [Finset.prod_range_succ']
  rw [mul_comm]
  congr 1
  · simp
  · refine Finset.prod_congr rfl fun k _ => ?_
    push_cast
    ring

theorem falling_differentiable (n : ℕ) : Differentiable ℂ (falling n) := by
  unfold falling
  fun_prop

theorem rate_ne {ε : ℝ} : (ε : ℂ) - Complex.I ≠ 0 ∧ (ε : ℂ) + Complex.I ≠ 0 := by
  constructor <;> intro h <;> have := congrArg Complex.im h <;> simp at this

theorem sinPart_differentiable (ε : ℝ) : Differentiable ℂ (sinPart ε) := by
  intro z
  unfold sinPart
  obtain ⟨h1, h2⟩ := rate_ne (ε := ε)
  have d : DifferentiableAt ℂ (fun z : ℂ => 1 - z) z := by fun_prop
  exact ((d.const_cpow (Or.inl h1)).sub (d.const_cpow (Or.inl h2))).div_const _

theorem cosPart_differentiable (ε : ℝ) : Differentiable ℂ (cosPart ε) := by
  intro z
  unfold cosPart
  obtain ⟨h1, h2⟩ := rate_ne (ε := ε)
  have d : DifferentiableAt ℂ (fun z : ℂ => 1 - z) z := by fun_prop
  exact ((d.const_cpow (Or.inl h1)).add (d.const_cpow (Or.inl h2))).div_const _

theorem besselPart_differentiable (ε : ℝ) (l : ℕ) : Differentiable ℂ (besselPart ε l) := by
  have key : Differentiable ℂ (besselPart ε l) ∧ Differentiable ℂ (besselPart ε (l + 1)) := by
    induction l with
    | zero =>
      refine ⟨by simpa only [besselPart] using! sinPart_differentiable ε, ?_⟩
      have h1 := sinPart_differentiable ε
      have h2 := cosPart_differentiable ε
      show Differentiable ℂ fun z => sinPart ε (z - 1) - (z - 2) * cosPart ε z
      fun_prop
    | succ l ih =>
      obtain ⟨h1, h2⟩ := ih
      refine ⟨h2, ?_⟩
      show Differentiable ℂ fun z => (2 * (l : ℂ) + 3) * besselPart ε (l + 1) (z - 1) - (z - (l + 2)) * (z - (l + 3)) * besselPart ε l z
      fun_prop
  exact key.1

theorem gamma_differentiable : DifferentiableOn ℂ Complex.Gamma rightHalf := fun z hz =>
  (Complex.differentiableAt_Gamma z fun m h => by
    change 0 < z.re at hz
    rw [h] at hz
    simp at hz
    have := Nat.cast_nonneg (α := ℝ) m
    linarith).differentiableWithinAt

theorem sin_exp (ε t : ℝ) : ((Real.sin t * Real.exp (-ε * t) : ℝ) : ℂ) =
    (Complex.exp (-(((ε : ℂ) - Complex.I) * t)) - Complex.exp (-(((ε : ℂ) + Complex.I) * t))) / (2 * Complex.I) := by
  have h1 : -(((ε : ℂ) - Complex.I) * t) = -(ε * t) + t * Complex.I := by ring
  have h2 : -(((ε : ℂ) + Complex.I) * t) = -(ε * t) + -t * Complex.I := by ring
  push_cast
  rw [h1, h2, Complex.exp_add, Complex.exp_add, Complex.sin]
  field_simp
  rw [show Complex.I ^ 2 = -1 from Complex.I_sq]
  ring

theorem cos_exp (ε t : ℝ) : ((Real.cos t * Real.exp (-ε * t) : ℝ) : ℂ) =
    (Complex.exp (-(((ε : ℂ) - Complex.I) * t)) + Complex.exp (-(((ε : ℂ) + Complex.I) * t))) / 2 := by
  have h1 : -(((ε : ℂ) - Complex.I) * t) = -(ε * t) + t * Complex.I := by ring
  have h2 : -(((ε : ℂ) + Complex.I) * t) = -(ε * t) + -t * Complex.I := by ring
  push_cast
  rw [h1, h2, Complex.exp_add, Complex.exp_add, Complex.cos]
  ring_nf

section
variable {ε : ℝ} (hε : 0 < ε)
include hε

theorem rate_pos : 0 < ((ε : ℂ) - Complex.I).re ∧ 0 < ((ε : ℂ) + Complex.I).re := by
  simp [hε]

/-- The integral of `x ^ (a - 1) sin x` with damping. -/
theorem integral_sin {a : ℂ} (ha : 0 < a.re) :
    (∫ t in Ioi (0 : ℝ), (t : ℂ) ^ (a - 1) * ((Real.sin t * Real.exp (-ε * t) : ℝ) : ℂ)) = Complex.Gamma a * sinPart ε (a + 1) := by
  obtain ⟨h1, h2⟩ := rate_pos hε
  have hi : -1 < (a - 1).re := by simp; linarith
  have e : ∀ t : ℝ, (t : ℂ) ^ (a - 1) * ((Real.sin t * Real.exp (-ε * t) : ℝ) : ℂ) =
      ((t : ℂ) ^ (a - 1) * Complex.exp (-(((ε : ℂ) - Complex.I) * t)) -
        (t : ℂ) ^ (a - 1) * Complex.exp (-(((ε : ℂ) + Complex.I) * t))) / (2 * Complex.I) := fun t => by
    rw [sin_exp]; ring
  simp_rw [e]
  rw [integral_div, integral_sub (integrable_cpow_exp hi h1) (integrable_cpow_exp hi h2), gamma_rate ha h1, gamma_rate ha h2]
  unfold sinPart
  rw [show 1 - (a + 1) = -a by ring]
  ring

theorem integral_cos {a : ℂ} (ha : 0 < a.re) :
    (∫ t in Ioi (0 : ℝ), (t : ℂ) ^ (a - 1) * ((Real.cos t * Real.exp (-ε * t) : ℝ) : ℂ)) = Complex.Gamma a * cosPart ε (a + 1) := by
  obtain ⟨h1, h2⟩ := rate_pos hε
  have hi : -1 < (a - 1).re := by simp; linarith
  have e : ∀ t : ℝ, (t : ℂ) ^ (a - 1) * ((Real.cos t * Real.exp (-ε * t) : ℝ) : ℂ) =
      ((t : ℂ) ^ (a - 1) * Complex.exp (-(((ε : ℂ) - Complex.I) * t)) +
        (t : ℂ) ^ (a - 1) * Complex.exp (-(((ε : ℂ) + Complex.I) * t))) / 2 := fun t => by
    rw [cos_exp]; ring
  simp_rw [e]
  rw [integral_div, integral_add (integrable_cpow_exp hi h1) (integrable_cpow_exp hi h2), gamma_rate ha h1, gamma_rate ha h2]
  unfold cosPart
  rw [show 1 - (a + 1) = -a by ring]
  ring

theorem integrable_trig {a : ℂ} (ha : 0 < a.re) {f : ℝ → ℝ} (hf : Continuous f) (h1 : ∀ t, |f t| ≤ 1) :
    IntegrableOn (fun t : ℝ => (t : ℂ) ^ (a - 1) * ((f t * Real.exp (-ε * t) : ℝ) : ℂ)) (Ioi 0) := by
  have hi : -1 < (a - 1).re := by simp; linarith
  refine Integrable.mono' (integrable_rpow_exp hi hε) ?_ ?_
  · refine ContinuousOn.aestronglyMeasurable ?_ measurableSet_Ioi
    intro t ht
    have c1 : ContinuousAt (fun t : ℝ => (t : ℂ) ^ (a - 1)) t :=
      (continuousAt_cpow_const (Or.inl (by simpa using ht))).comp Complex.continuous_ofReal.continuousAt
    have c2 : Continuous (fun t : ℝ => ((f t * Real.exp (-ε * t) : ℝ) : ℂ)) :=
      Complex.continuous_ofReal.comp (hf.mul (by fun_prop))
    exact (c1.mul c2.continuousAt).continuousWithinAt
  · refine (ae_restrict_mem measurableSet_Ioi).mono fun t ht => ?_
    rw [norm_mul, Complex.norm_cpow_eq_rpow_re_of_pos ht, Complex.norm_real, norm_mul, Real.norm_of_nonneg (Real.exp_pos _).le]
    refine mul_le_mul_of_nonneg_left ?_ (Real.rpow_nonneg (le_of_lt ht) _)
    exact mul_le_of_le_one_left (Real.exp_pos _).le (h1 t)

/-- The transform with damping, everywhere in the right half plane. -/
theorem mellin_damped (l : ℕ) {z : ℂ} (hz : 0 < z.re) :
    mellin (damped l ε) z * falling (l + 1) z = Complex.Gamma z * besselPart ε l z := by
  have hG : ∀ z : ℂ, 1 < z.re → Complex.Gamma z = (z - 1) * Complex.Gamma (z - 1) := fun z hz => by
    have h : z - 1 ≠ 0 := fun h => by
      have := congrArg Complex.re h
      simp at this
      linarith
    have := Complex.Gamma_add_one (z - 1) h
    rwa [sub_add_cancel] at this
  have diff1 : ∀ l, DifferentiableOn ℂ (fun z => mellin (damped l ε) z * falling (l + 1) z) rightHalf := fun l =>
    (damped_differentiable l hε).mul (falling_differentiable _).differentiableOn
  have diff2 : ∀ l, DifferentiableOn ℂ (fun z => Complex.Gamma z * besselPart ε l z) rightHalf := fun l =>
    gamma_differentiable.mul (besselPart_differentiable ε l).differentiableOn
  have key : (∀ z : ℂ, 0 < z.re → mellin (damped l ε) z * falling (l + 1) z = Complex.Gamma z * besselPart ε l z) ∧
      ∀ z : ℂ, 0 < z.re → mellin (damped (l + 1) ε) z * falling (l + 2) z = Complex.Gamma z * besselPart ε (l + 1) z := by
    induction l with
    | zero =>
      constructor
      · intro z hz
        refine eq_of_eq_right (diff1 0) (diff2 0) 1 (fun z hz => ?_) hz
        have h1 : 0 < (z - 1).re := by simp; linarith
        have e : mellin (damped 0 ε) z = Complex.Gamma (z - 1) * sinPart ε z := by
          have := integral_sin hε h1
          rw [sub_add_cancel] at this
          rw [← this, mellin]
          refine setIntegral_congr_fun measurableSet_Ioi fun t ht => ?_
          have ht0 : (t : ℂ) ≠ 0 := Complex.ofReal_ne_zero.2 (ne_of_gt ht)
          simp only [damped, sphericalBessel, smul_eq_mul]
          rw [Complex.cpow_sub (z - 1) 1 ht0, Complex.cpow_one]
          push_cast
          ring
        rw [e, hG z hz]
        simp only [falling, besselPart, Finset.prod_range_succ, Finset.prod_range_zero]
        push_cast
        ring
      · intro z hz
        refine eq_of_eq_right (diff1 1) (diff2 1) 2 (fun z hz => ?_) hz
        have h1 : 0 < (z - 1).re := by simp; linarith
        have h2 : 0 < (z - 2).re := by simp; linarith
        have e : mellin (damped 1 ε) z = Complex.Gamma (z - 2) * sinPart ε (z - 1) - Complex.Gamma (z - 1) * cosPart ε z := by
          have i1 := integral_sin hε h2
          have i2 := integral_cos hε h1
          rw [sub_add_cancel] at i2
          rw [show z - 2 + 1 = z - 1 by ring] at i1
          rw [← i1, ← i2, mellin, ← integral_sub (integrable_trig hε h2 Real.continuous_sin Real.abs_sin_le_one)
            (integrable_trig hε h1 Real.continuous_cos Real.abs_cos_le_one)]
          refine setIntegral_congr_fun measurableSet_Ioi fun t ht => ?_
          have ht0 : (t : ℂ) ≠ 0 := Complex.ofReal_ne_zero.2 (ne_of_gt ht)
          simp only [damped, sphericalBessel, smul_eq_mul]
          rw [show z - 2 - 1 = z - 1 - 2 by ring, Complex.cpow_sub (z - 1) 1 ht0,
            Complex.cpow_sub (z - 1) 2 ht0, Complex.cpow_one, Complex.cpow_ofNat]
          push_cast
          field_simp
        have g1 := hG z (by linarith)
        have g2 := hG (z - 1) (by simp; linarith)
        rw [show z - 1 - 1 = z - 2 by ring] at g2
        rw [e, g1, g2]
        simp only [falling, besselPart, Finset.prod_range_succ, Finset.prod_range_zero]
        push_cast
        ring
    | succ l ih =>
      obtain ⟨ih1, ih2⟩ := ih
      refine ⟨ih2, fun z hz => ?_⟩
      refine eq_of_eq_right (diff1 (l + 2)) (diff2 (l + 2)) 1 (fun z hz => ?_) hz
      have h1 : 0 < (z - 1).re := by simp; linarith
      have hz0 : 0 < z.re := by linarith
      have e : mellin (damped (l + 2) ε) z = (2 * (l : ℂ) + 3) * mellin (damped (l + 1) ε) (z - 1) - mellin (damped l ε) z := by
        have c1 := (damped_convergent (l + 1) hε h1)
        have c0 := (damped_convergent l hε hz0)
        unfold MellinConvergent at c1 c0
        rw [mellin, mellin, mellin, ← integral_const_mul, ← integral_sub (c1.const_mul _) c0]
        refine setIntegral_congr_fun measurableSet_Ioi fun t ht => ?_
        have ht0 : (t : ℂ) ≠ 0 := Complex.ofReal_ne_zero.2 (ne_of_gt ht)
        simp only [damped, sphericalBessel, smul_eq_mul]
        rw [Complex.cpow_sub (z - 1) 1 ht0, Complex.cpow_one]
        push_cast
        field_simp
      have a1 := ih1 z hz0
      have a2 := ih2 (z - 1) h1
      simp only [besselPart]
      rw [e, hG z hz, mul_sub]
      have f1 : falling (l + 2 + 1) z = (z - 1) * falling (l + 2) (z - 1) := falling_shift _ _
      have f2 : falling (l + 2 + 1) z = falling (l + 1) z * ((z - (l + 2)) * (z - (l + 3))) := by
        rw [falling_succ, falling_succ]; push_cast; ring
      rw [hG z hz] at a1
      rw [sub_mul]
      nth_rewrite 1 [f1]
      rw [f2]
      linear_combination (2 * (l : ℂ) + 3) * (z - 1) * a2 - ((z - (l + 2)) * (z - (l + 3))) * a1
  exact key.1 z hz
end

/-- The recurrence of the Bessel functions, under the integral. -/
theorem mellin_recurrence {ε : ℝ} (hε : 0 < ε) (l : ℕ) {z : ℂ} (hz : -((l : ℝ) + 1) < z.re) :
    (2 * (l : ℂ) + 3) * mellin (damped (l + 1) ε) z = mellin (damped l ε) (z + 1) + mellin (damped (l + 2) ε) (z + 1) := by
  have c0 := damped_convergent_pow l hε (z := z + 1) (by simp; linarith)
  have c2 := damped_convergent_pow (l + 2) hε (z := z + 1) (by push_cast; simp; linarith)
  unfold MellinConvergent at c0 c2
  rw [mellin, mellin, mellin, ← integral_const_mul, ← integral_add c0 c2]
  refine setIntegral_congr_fun measurableSet_Ioi fun t ht => ?_
  have ht0 : (t : ℂ) ≠ 0 := Complex.ofReal_ne_zero.2 (ne_of_gt ht)
  simp only [damped, sphericalBessel, smul_eq_mul]
  rw [show z + 1 - 1 = (z - 1) + 1 by ring, Complex.cpow_add _ _ ht0, Complex.cpow_one]
  push_cast
  field_simp
  ring

theorem sinPart_zero (z : ℂ) : sinPart 0 z = -Complex.cos (Real.pi * z / 2) := by
  unfold sinPart
  have h1 : Complex.log (-Complex.I) = -(Real.pi / 2) * Complex.I := Complex.log_neg_I
  have h2 : Complex.log Complex.I = Real.pi / 2 * Complex.I := Complex.log_I
  rw [Complex.ofReal_zero, zero_sub, zero_add, Complex.cpow_def_of_ne_zero (by simp), Complex.cpow_def_of_ne_zero Complex.I_ne_zero, h1, h2]
  have e1 : -(Real.pi / 2) * Complex.I * (1 - z) = (Real.pi * z / 2) * Complex.I + -((Real.pi : ℂ) / 2 * Complex.I) := by ring
  have e2 : (Real.pi : ℂ) / 2 * Complex.I * (1 - z) = -(Real.pi * z / 2) * Complex.I + (Real.pi : ℂ) / 2 * Complex.I := by ring
  rw [e1, e2, Complex.exp_add, Complex.exp_add, Complex.exp_neg, Complex.exp_pi_div_two_mul_I, Complex.inv_I, Complex.cos]
  field_simp
  ring

theorem cosPart_zero (z : ℂ) : cosPart 0 z = Complex.sin (Real.pi * z / 2) := by
  unfold cosPart
  have h1 : Complex.log (-Complex.I) = -(Real.pi / 2) * Complex.I := Complex.log_neg_I
  have h2 : Complex.log Complex.I = Real.pi / 2 * Complex.I := Complex.log_I
  rw [Complex.ofReal_zero, zero_sub, zero_add, Complex.cpow_def_of_ne_zero (by simp), Complex.cpow_def_of_ne_zero Complex.I_ne_zero, h1, h2]
  have e1 : -(Real.pi / 2) * Complex.I * (1 - z) = (Real.pi * z / 2) * Complex.I + -((Real.pi : ℂ) / 2 * Complex.I) := by ring
  have e2 : (Real.pi : ℂ) / 2 * Complex.I * (1 - z) = -(Real.pi * z / 2) * Complex.I + (Real.pi : ℂ) / 2 * Complex.I := by ring
  rw [e1, e2, Complex.exp_add, Complex.exp_add, Complex.exp_neg, Complex.exp_pi_div_two_mul_I, Complex.inv_I, Complex.sin]
  ring

theorem parts_tendsto (z : ℂ) : Tendsto (fun ε : ℝ => sinPart ε z) (𝓝 0) (𝓝 (sinPart 0 z)) ∧
    Tendsto (fun ε : ℝ => cosPart ε z) (𝓝 0) (𝓝 (cosPart 0 z)) := by
  have c1 : ContinuousAt (fun ε : ℝ => ((ε : ℂ) - Complex.I) ^ (1 - z)) 0 := by
    refine ContinuousAt.cpow (by fun_prop) continuousAt_const ?_
    rw [Complex.mem_slitPlane_iff]
    right
    simp
  have c2 : ContinuousAt (fun ε : ℝ => ((ε : ℂ) + Complex.I) ^ (1 - z)) 0 := by
    refine ContinuousAt.cpow (by fun_prop) continuousAt_const ?_
    rw [Complex.mem_slitPlane_iff]
    right
    simp
  exact ⟨((c1.sub c2).div_const _), ((c1.add c2).div_const _)⟩

theorem besselPart_tendsto (l : ℕ) (z : ℂ) : Tendsto (fun ε : ℝ => besselPart ε l z) (𝓝 0) (𝓝 (besselPart 0 l z)) := by
  have key : (∀ z, Tendsto (fun ε : ℝ => besselPart ε l z) (𝓝 0) (𝓝 (besselPart 0 l z))) ∧
      ∀ z, Tendsto (fun ε : ℝ => besselPart ε (l + 1) z) (𝓝 0) (𝓝 (besselPart 0 (l + 1) z)) := by
    induction l with
    | zero =>
      refine ⟨fun z => ?_, fun z => ?_⟩
      · simpa only [besselPart] using (parts_tendsto z).1
      · simp only [besselPart]
        exact (parts_tendsto (z - 1)).1.sub ((parts_tendsto z).2.const_mul _)
    | succ l ih =>
      refine ⟨ih.2, fun z => ?_⟩
      simp only [besselPart]
      exact ((ih.2 (z - 1)).const_mul _).sub ((ih.1 z).const_mul _)
  exact key.1 z

end Coffe
