import Verif.Proofs.Ensemble
import Verif.Props.IntegralValues

/-!
# The expected product through the values in the tables
-/

namespace Coffe
open Complex intervalIntegral ComplexConjugate

/-- One of the nine integrals of the expected product. -/
noncomputable def momentIntegral (P : ℝ → ℝ) (kmin kmax : ℝ) (n l : ℕ) (r : ℝ) : ℝ :=
  (∫ k in kmin..kmax, k ^ 2 * P k * (gsl_sf_bessel_jl l (k * r) / k ^ n)) / (2 * Real.pi ^ 2)

/-- The tables hold these integrals up to a power of the separation. -/
theorem direct_value_moment (P : ℝ → ℝ) {kmin kmax r : ℝ} (h0 : 0 < kmin) (h1 : kmin ≤ kmax) (hr : 0 < r) (n l : ℕ) :
    momentIntegral P kmin kmax n l r = r ^ (min n l) * direct_value exactQuad P ⟨n, l, .int, .int⟩ kmin kmax r := by
  have hpos : ∀ k ∈ Set.uIcc kmin kmax, 0 < k := fun k hk => by
    rw [Set.uIcc_of_le h1] at hk; exact h0.trans_le hk.1
  have hloc : ∀ m : ℕ, integrals_local (m : ℤ) .int = (m : ℝ) := fun m => by simp [integrals_local]
  have hq : exactQuad (integrals_bessel_integrand P ⟨n, l, .int, .int⟩ r) kmin kmax
      = (∫ k in kmin..kmax, k ^ 2 * P k * (gsl_sf_bessel_jl l (k * r) / k ^ n)) / r ^ n := by
    rw [exactQuad, ← intervalIntegral.integral_div]
    refine integral_congr fun k hk => ?_
    have hk := hpos k hk
    simp only [integrals_bessel_integrand, reduceCtorEq, if_false, hloc, Real.rpow_natCast, Int.toNat_natCast, mul_pow]
    field_simp
  simp only [direct_value, integrals_integrate_function, hloc, hq, momentIntegral]
  generalize (∫ k in kmin..kmax, k ^ 2 * P k * (gsl_sf_bessel_jl l (k * r) / k ^ n)) = J
  rcases le_or_gt l n with h | h
  · rw [if_pos ⟨by exact_mod_cast h, hr⟩, min_eq_right h]
    have e : r ^ ((n : ℝ) - (l : ℝ)) = r ^ n / r ^ l := by
      rw [Real.rpow_sub hr, Real.rpow_natCast, Real.rpow_natCast]
    rw [e]
    have := Real.pi_ne_zero
    field_simp
  · rw [if_neg (fun hh => absurd hh.1 (by simpa using h)), min_eq_left h.le]
    have := Real.pi_ne_zero
    field_simp

/-- The tables hold the values of the integrals: the splines reproduce the quadratures. -/
def ExactTables (P : ℝ → ℝ) (kmin kmax : ℝ) (I : Ints) : Prop :=
  (∀ n l : ℕ, ∀ r > 0, (I ⟨n, l, .int, .int⟩).result r = direct_value exactQuad P ⟨n, l, .int, .int⟩ kmin kmax r) ∧
  ∀ χ₁ χ₂, I.I40.renormalization χ₁ χ₂ = integrals_renormalization exactQuad P χ₁ χ₂ kmin kmax

/-- The recurrence of the Bessel functions relates the integrals. -/
theorem momentIntegral_recurrence {P : ℝ → ℝ} {kmin kmax : ℝ} (h0 : 0 < kmin) (h1 : kmin ≤ kmax)
    (hP : ContinuousOn P (Set.Icc kmin kmax)) {r : ℝ} (hr : 0 < r) (n l : ℕ) :
    momentIntegral P kmin kmax n l r + momentIntegral P kmin kmax n (l + 2) r =
      (2 * l + 3) / r * momentIntegral P kmin kmax (n + 1) (l + 1) r := by
  have hpos : ∀ k ∈ Set.uIcc kmin kmax, 0 < k := fun k hk => by
    rw [Set.uIcc_of_le h1] at hk; exact h0.trans_le hk.1
  have hP' : ContinuousOn P (Set.uIcc kmin kmax) := by rwa [Set.uIcc_of_le h1]
  have hint : ∀ n l : ℕ, IntervalIntegrable (fun k : ℝ => k ^ 2 * P k * (gsl_sf_bessel_jl l (k * r) / k ^ n))
      MeasureTheory.volume kmin kmax := fun n l => by
    refine ContinuousOn.intervalIntegrable ?_
    have hj : Continuous fun k : ℝ => gsl_sf_bessel_jl l (k * r) := (continuous_jl l).comp (continuous_id.mul continuous_const)
    exact ((continuousOn_id.pow 2).mul hP').mul (hj.continuousOn.div (continuousOn_id.pow n)
      fun k hk => pow_ne_zero n (hpos k hk).ne')
  unfold momentIntegral
  rw [← add_div, ← intervalIntegral.integral_add (hint n l) (hint n (l + 2)), ← mul_div_assoc,
    ← intervalIntegral.integral_const_mul]
  congr 1
  refine integral_congr fun k hk => ?_
  have hk := hpos k hk
  have hj := jl_succ l (k * r) (mul_pos hk hr).ne'
  show k ^ 2 * P k * (gsl_sf_bessel_jl l (k * r) / k ^ n) + k ^ 2 * P k * (gsl_sf_bessel_jl (l + 2) (k * r) / k ^ n) =
    (2 * l + 3) / r * (k ^ 2 * P k * (gsl_sf_bessel_jl (l + 1) (k * r) / k ^ (n + 1)))
  rw [hj]
  generalize gsl_sf_bessel_jl l (k * r) = a
  generalize gsl_sf_bessel_jl (l + 1) (k * r) = b
  field_simp
  ring

/-- The recurrence for the values in the tables. -/
theorem ExactTables.recurrence {P : ℝ → ℝ} {kmin kmax : ℝ} (h0 : 0 < kmin) (h1 : kmin ≤ kmax)
    (hP : ContinuousOn P (Set.Icc kmin kmax)) {I : Ints} (hI : ExactTables P kmin kmax I) {r : ℝ} (hr : 0 < r) :
    I.I02.result r = 3 * I.I11.result r - I.I00.result r ∧ I.I13.result r = 5 * I.I22.result r - I.I11.result r ∧
    I.I04.result r = 7 * I.I13.result r - I.I02.result r ∧
    I.I20.result r = 3 * I.I31.result r - r ^ 2 * I.I22.result r := by
  have hm := fun n l => momentIntegral_recurrence h0 h1 hP hr n l
  simp only [direct_value_moment P h0 h1 hr] at hm
  have ht := fun n l => (hI.1 n l r hr).symm
  simp only [ht] at hm
  have a := hm 0 0
  have b := hm 1 1
  have c := hm 0 2
  have d := hm 2 0
  norm_num [Ints.I00, Ints.I02, Ints.I04, Ints.I11, Ints.I13, Ints.I20, Ints.I22, Ints.I31] at a b c d ⊢
  field_simp at a b c d
  exact ⟨by linarith, by linarith, by linarith, by linarith⟩

/-- The combination of table values that is the expected product at the separation `r`. -/
noncomputable def tableSum (I : Ints) (r : ℝ) (W : Weights) : ℝ :=
  W.w00 * I.I00.result r + W.w02 * I.I02.result r + W.w04 * I.I04.result r + W.w11 * (r * I.I11.result r)
    + W.w13 * (r * I.I13.result r) + W.w20 * I.I20.result r + W.w22 * (r ^ 2 * I.I22.result r)
    + W.w31 * (r * I.I31.result r) + W.w40 * I.I40.result r

/-- The expected product, for two places whose separation is along the third axis. -/
theorem expectedProduct_tables {P : ℝ → ℝ} {kmin kmax : ℝ} (h0 : 0 < kmin) (h1 : kmin ≤ kmax)
    (hP : ContinuousOn P (Set.Icc kmin kmax)) {I : Ints} (hI : ExactTables P kmin kmax I) (R₁ R₂ : Response)
    (p q : ℝ) {r χ₁ χ₂ : ℝ} (hr : 0 < r) (hχ₁ : 0 < χ₁) (hχ₂ : 0 < χ₂)
    (e₁ : (⟨p, 0, q⟩ : Place).radius = χ₁) (e₂ : (⟨p, 0, q + r⟩ : Place).radius = χ₂) :
    expectedProduct P kmin kmax R₁ ⟨p, 0, q⟩ R₂ ⟨p, 0, q + r⟩ =
      (tableSum I r (weights R₁ R₂ (q / χ₁) ((q + r) / χ₂) ((p * p + q * (q + r)) / (χ₁ * χ₂))) : ℝ) := by
  have hpos : ∀ k ∈ Set.uIcc kmin kmax, 0 < k := fun k hk => by
    rw [Set.uIcc_of_le h1] at hk; exact h0.trans_le hk.1
  have hP' : ContinuousOn P (Set.uIcc kmin kmax) := by rwa [Set.uIcc_of_le h1]
  have q₁ : p ^ 2 + q ^ 2 = χ₁ ^ 2 := by
    rw [← e₁, Place.radius, Real.sq_sqrt (by simp only [Place.dot]; nlinarith [sq_nonneg p, sq_nonneg q, sq_nonneg (q + r)])]; simp only [Place.dot]; ring
  have q₂ : p ^ 2 + (q + r) ^ 2 = χ₂ ^ 2 := by
    rw [← e₂, Place.radius, Real.sq_sqrt (by simp only [Place.dot]; nlinarith [sq_nonneg p, sq_nonneg q, sq_nonneg (q + r)])]; simp only [Place.dot]; ring
  have g₁ : (p / χ₁) ^ 2 + (q / χ₁) ^ 2 = 1 := by field_simp; exact q₁
  have g₂ : (p / χ₂) ^ 2 + ((q + r) / χ₂) ^ 2 = 1 := by field_simp; exact q₂
  have hC : q / χ₁ * ((q + r) / χ₂) + p / χ₁ * (p / χ₂) = (p * p + q * (q + r)) / (χ₁ * χ₂) := by field_simp; ring
  have hcos := sphereMean_amplitude R₁ R₂ (p / χ₁) (q / χ₁) (p / χ₂) ((q + r) / χ₂)
  rw [hC] at hcos
  obtain ⟨W, hW⟩ : ∃ W, W = weights R₁ R₂ (q / χ₁) ((q + r) / χ₂) ((p * p + q * (q + r)) / (χ₁ * χ₂)) := ⟨_, rfl⟩
  rw [← hW] at hcos ⊢
  have hmean : ∀ k ∈ Set.uIcc kmin kmax, (k : ℂ) ^ 2 * P k * sphereMean (fun u => R₁.wave ⟨p, 0, q⟩ k u
      * conj (R₂.wave ⟨p, 0, q + r⟩ k u)) =
      ((W.w00 * (k ^ 2 * P k * (gsl_sf_bessel_jl 0 (k * r) / k ^ 0)) + W.w02 * (k ^ 2 * P k * (gsl_sf_bessel_jl 2 (k * r) / k ^ 0))
        + W.w04 * (k ^ 2 * P k * (gsl_sf_bessel_jl 4 (k * r) / k ^ 0))
        + W.w11 * (k ^ 2 * P k * (gsl_sf_bessel_jl 1 (k * r) / k ^ 1)) + W.w13 * (k ^ 2 * P k * (gsl_sf_bessel_jl 3 (k * r) / k ^ 1))
        + W.w20 * (k ^ 2 * P k * (gsl_sf_bessel_jl 0 (k * r) / k ^ 2)) + W.w22 * (k ^ 2 * P k * (gsl_sf_bessel_jl 2 (k * r) / k ^ 2))
        + W.w31 * (k ^ 2 * P k * (gsl_sf_bessel_jl 1 (k * r) / k ^ 3))
        + W.w40 * (k ^ 2 * P k * (gsl_sf_bessel_jl 0 (k * r) / k ^ 4)) : ℝ) : ℂ) := by
    intro k hk
    have hk := hpos k hk
    have hwave : (fun u => R₁.wave ⟨p, 0, q⟩ k u * conj (R₂.wave ⟨p, 0, q + r⟩ k u)) = fun u : Place =>
        R₁.amplitude k (p / χ₁ * u.x + q / χ₁ * u.z) * conj (R₂.amplitude k (p / χ₂ * u.x + (q + r) / χ₂ * u.z))
          * cexp (-(Complex.I * (k * r : ℝ)) * u.z) := by
      funext u
      have a₁ : u.dot ⟨p, 0, q⟩ / χ₁ = p / χ₁ * u.x + q / χ₁ * u.z := by simp only [Place.dot]; ring
      have a₂ : u.dot ⟨p, 0, q + r⟩ / χ₂ = p / χ₂ * u.x + (q + r) / χ₂ * u.z := by simp only [Place.dot]; ring
      have ex : cexp (Complex.I * (k * (u.dot ⟨p, 0, q⟩ : ℝ))) * conj (cexp (Complex.I * (k * (u.dot ⟨p, 0, q + r⟩ : ℝ)))) =
          cexp (-(Complex.I * (k * r : ℝ)) * u.z) := by
        rw [← Complex.exp_conj, ← Complex.exp_add]
        congr 1
        simp only [map_mul, conj_I, conj_ofReal, Place.dot]
        push_cast
        ring
      simp only [Response.wave, e₁, e₂, a₁, a₂, map_mul]
      rw [← ex]
      ring
    rw [hwave, hcos k r hk.ne' hr.ne' g₁ g₂]
    push_cast
    ring
  have hint : ∀ n l : ℕ, ∀ w : ℝ, IntervalIntegrable (fun k : ℝ => w * (k ^ 2 * P k * (gsl_sf_bessel_jl l (k * r) / k ^ n)))
      MeasureTheory.volume kmin kmax := fun n l w => by
    refine ContinuousOn.intervalIntegrable ?_
    have hj : Continuous fun k : ℝ => gsl_sf_bessel_jl l (k * r) := (continuous_jl l).comp (continuous_id.mul continuous_const)
    exact continuousOn_const.mul (((continuousOn_id.pow 2).mul hP').mul (hj.continuousOn.div (continuousOn_id.pow n)
      fun k hk => pow_ne_zero n (hpos k hk).ne'))
  unfold expectedProduct
  rw [integral_congr hmean, intervalIntegral.integral_ofReal]
  rw [show ((∫ k in kmin..kmax, _ : ℝ) : ℂ) / (2 * (Real.pi : ℂ) ^ 2) = (((∫ k in kmin..kmax, _ : ℝ) / (2 * Real.pi ^ 2) : ℝ) : ℂ) by
    push_cast; rfl]
  congr 1
  have i1 := hint 0 0 W.w00
  have i2 := i1.add (hint 0 2 W.w02)
  have i3 := i2.add (hint 0 4 W.w04)
  have i4 := i3.add (hint 1 1 W.w11)
  have i5 := i4.add (hint 1 3 W.w13)
  have i6 := i5.add (hint 2 0 W.w20)
  have i7 := i6.add (hint 2 2 W.w22)
  have i8 := i7.add (hint 3 1 W.w31)
  rw [intervalIntegral.integral_add i8 (hint 4 0 W.w40), intervalIntegral.integral_add i7 (hint 3 1 W.w31),
    intervalIntegral.integral_add i6 (hint 2 2 W.w22), intervalIntegral.integral_add i5 (hint 2 0 W.w20),
    intervalIntegral.integral_add i4 (hint 1 3 W.w13), intervalIntegral.integral_add i3 (hint 1 1 W.w11),
    intervalIntegral.integral_add i2 (hint 0 4 W.w04), intervalIntegral.integral_add i1 (hint 0 2 W.w02)]
  simp only [intervalIntegral.integral_const_mul, add_div, mul_div_assoc]
  have hm := fun n l => direct_value_moment P h0 h1 hr n l
  have ht := fun n l => (hI.1 n l r hr).symm
  simp only [momentIntegral] at hm
  simp only [tableSum, Ints.I00, Ints.I02, Ints.I04, Ints.I11, Ints.I13, Ints.I20, Ints.I22, Ints.I31, Ints.I40]
  have m00 := hm 0 0
  have m02 := hm 0 2
  have m04 := hm 0 4
  have m11 := hm 1 1
  have m13 := hm 1 3
  have m20 := hm 2 0
  have m22 := hm 2 2
  have m31 := hm 3 1
  have m40 := hm 4 0
  rw [ht] at m00 m02 m04 m11 m13 m20 m22 m31 m40
  rw [m00, m02, m04, m11, m13, m20, m22, m31, m40]
  norm_num

/-- The renormalisation in the tables is the product of the monopoles. -/
theorem renormalization_monopole (P : ℝ → ℝ) (kmin kmax χ₁ χ₂ : ℝ) :
    integrals_renormalization exactQuad P χ₁ χ₂ kmin kmax =
      (∫ k in kmin..kmax, P k * (Real.sinc (k * χ₁) * Real.sinc (k * χ₂)) / k ^ 2) / (2 * Real.pi ^ 2) := by
  simp only [integrals_renormalization, integrals_renormalization_integrand, exactQuad, gsl_sf_bessel_j0_eq]
  rw [div_div, div_div]
  congr 1
  · exact intervalIntegral.integral_congr fun k _ => by ring
  · ring

/-- The cosine of the angle at the observer in a triangle with the sides `χ₁`, `χ₂` and the opposite side `r`. -/
noncomputable def cosObserver (χ₁ χ₂ r : ℝ) : ℝ := (χ₁ ^ 2 + χ₂ ^ 2 - r ^ 2) / (2 * χ₁ * χ₂)

/-- The two-point function, for two places whose separation is along the third axis, in terms of the sides of the triangle. -/
theorem twoPoint_tables {P : ℝ → ℝ} {kmin kmax : ℝ} (h0 : 0 < kmin) (h1 : kmin ≤ kmax)
    (hP : ContinuousOn P (Set.Icc kmin kmax)) {I : Ints} (hI : ExactTables P kmin kmax I) (R₁ R₂ : Response)
    {p q r χ₁ χ₂ : ℝ} (hr : 0 < r) (hχ₁ : 0 < χ₁) (hχ₂ : 0 < χ₂)
    (e₁ : (⟨p, 0, q⟩ : Place).radius = χ₁) (e₂ : (⟨p, 0, q + r⟩ : Place).radius = χ₂) :
    twoPoint P kmin kmax R₁ ⟨p, 0, q⟩ R₂ ⟨p, 0, q + r⟩ =
      (tableSum I r (weights R₁ R₂ ((χ₂ ^ 2 - χ₁ ^ 2 - r ^ 2) / (2 * χ₁ * r)) ((χ₂ ^ 2 - χ₁ ^ 2 + r ^ 2) / (2 * χ₂ * r))
        (cosObserver χ₁ χ₂ r)) - R₁.potential * R₂.potential * I.I40.renormalization χ₁ χ₂ : ℝ) := by
  have q₁ : p ^ 2 + q ^ 2 = χ₁ ^ 2 := by
    rw [← e₁, Place.radius, Real.sq_sqrt (by simp only [Place.dot]; nlinarith [sq_nonneg p, sq_nonneg q, sq_nonneg (q + r)])]
    simp only [Place.dot]; ring
  have q₂ : p ^ 2 + (q + r) ^ 2 = χ₂ ^ 2 := by
    rw [← e₂, Place.radius, Real.sq_sqrt (by simp only [Place.dot]; nlinarith [sq_nonneg p, sq_nonneg q, sq_nonneg (q + r)])]
    simp only [Place.dot]; ring
  have c₁ : q / χ₁ = (χ₂ ^ 2 - χ₁ ^ 2 - r ^ 2) / (2 * χ₁ * r) := by
    rw [← q₁, ← q₂]; field_simp; ring
  have c₂ : (q + r) / χ₂ = (χ₂ ^ 2 - χ₁ ^ 2 + r ^ 2) / (2 * χ₂ * r) := by
    rw [← q₁, ← q₂]; field_simp; ring
  have cc : (p * p + q * (q + r)) / (χ₁ * χ₂) = cosObserver χ₁ χ₂ r := by
    rw [cosObserver, ← q₁, ← q₂]; field_simp; ring
  rw [twoPoint, expectedProduct_tables h0 h1 hP hI R₁ R₂ p q hr hχ₁ hχ₂ e₁ e₂, c₁, c₂, cc, monopoleProduct, e₁, e₂,
    hI.2, renormalization_monopole, mul_div_assoc, Complex.ofReal_sub]

/-- Such places exist for all triangles. -/
theorem exists_places {r χ₁ χ₂ : ℝ} (hr : 0 < r) (hχ₁ : 0 ≤ χ₁) (hχ₂ : 0 ≤ χ₂) (ha : |χ₂ - χ₁| ≤ r) (hb : r ≤ χ₁ + χ₂) :
    ∃ p q : ℝ, (⟨p, 0, q⟩ : Place).radius = χ₁ ∧ (⟨p, 0, q + r⟩ : Place).radius = χ₂ := by
  have hp : 0 ≤ χ₁ ^ 2 - ((χ₂ ^ 2 - χ₁ ^ 2 - r ^ 2) / (2 * r)) ^ 2 := by
    rw [div_pow, sub_nonneg, div_le_iff₀ (by positivity)]
    have a := abs_le.1 ha
    have h1 : 0 ≤ (r - (χ₂ - χ₁)) * (r + (χ₂ - χ₁)) := mul_nonneg (by linarith) (by linarith)
    have h2 : 0 ≤ (χ₁ + χ₂ - r) * (χ₁ + χ₂ + r) := mul_nonneg (by linarith) (by linarith)
    nlinarith [mul_nonneg h1 h2]
  refine ⟨Real.sqrt (χ₁ ^ 2 - ((χ₂ ^ 2 - χ₁ ^ 2 - r ^ 2) / (2 * r)) ^ 2), (χ₂ ^ 2 - χ₁ ^ 2 - r ^ 2) / (2 * r), ?_, ?_⟩
  · simp only [Place.radius, Place.dot]
    rw [Real.mul_self_sqrt hp]
    rw [show χ₁ ^ 2 - ((χ₂ ^ 2 - χ₁ ^ 2 - r ^ 2) / (2 * r)) ^ 2 + 0 * 0
      + (χ₂ ^ 2 - χ₁ ^ 2 - r ^ 2) / (2 * r) * ((χ₂ ^ 2 - χ₁ ^ 2 - r ^ 2) / (2 * r)) = χ₁ ^ 2 by ring, Real.sqrt_sq hχ₁]
  · simp only [Place.radius, Place.dot]
    rw [Real.mul_self_sqrt hp]
    rw [show χ₁ ^ 2 - ((χ₂ ^ 2 - χ₁ ^ 2 - r ^ 2) / (2 * r)) ^ 2 + 0 * 0
      + ((χ₂ ^ 2 - χ₁ ^ 2 - r ^ 2) / (2 * r) + r) * ((χ₂ ^ 2 - χ₁ ^ 2 - r ^ 2) / (2 * r) + r) = χ₂ ^ 2 by field_simp; ring,
      Real.sqrt_sq hχ₂]

end Coffe
