import Verif.Proofs.EnsembleDouble

/-!
# C66: the signal is the ensemble average
-/

namespace Coffe
open Complex Classical

section
variable (bg : Bg) (I : Ints)

/-- C66 (effects at the galaxies): in full sky and with the linear spectrum, the value without line-of-sight integrals is the
sum over all ordered pairs of requested effects (only over pairs of different effects, if only these are asked for) of the
two-point functions of the first effect at the first galaxy and the second effect at the second galaxy, in the ensemble of
density fields with the given spectrum - but with the amplitude of the Doppler effect replaced by one in its pairs with effects
of a potential (`used1`, `used2`), and with a deviation in the pair Doppler-Doppler. -/
theorem C66_local {P : ℝ → ℝ} {kmin kmax : ℝ} (h0 : 0 < kmin) (h1 : kmin ≤ kmax)
    (hP : ContinuousOn P (Set.Icc kmin kmax)) (hI : ExactTables P kmin kmax I) (par : Par) (hF : par.FullSky) (z mu sep : ℝ)
    (hsep : 0 < sep) (X₁ X₂ : Place) :
    let v := NonEnv.of par bg z mu sep
    0 < v.chi1 → 0 < v.chi2 → Places sep v.chi1 v.chi2 X₁ X₂ →
    ((functions_nonintegrated par bg I z mu sep : ℝ) : ℂ) = (∑ A : LocalEffect, ∑ B : LocalEffect,
      if par.correlation_contrib.atGalaxy A ∧ par.correlation_contrib.atGalaxy B ∧ ¬ (A = B ∧ par.only_cross_correlations) then
        twoPoint P kmin kmax (galaxyResponse par.hubble par.omega (v.used1 bg A B) A) X₁
          (galaxyResponse par.hubble par.omega (v.used2 bg A B) B) X₂ else 0)
      - if par.correlation_contrib.d1 ∧ ¬ par.only_cross_correlations then
          ((bg.D1 v.z1 * bg.D1 v.z2 * v.dopplerError I : ℝ) : ℂ) else 0 := by
  intro v p1 p2 hX
  have hR : v.Regular par := ⟨hF, nonEnv_cos par bg z mu sep p1 p2, p1, p2, hsep⟩
  have hg : non_growth par bg v = bg.D1 v.z1 * bg.D1 v.z2 := by
    obtain ⟨f1, -, -, -, f5, f6, f7, f8⟩ := id hF
    simp [non_growth, hF.linear, f1, f5, f6, f7, f8]
  show ((non_result par bg I v * non_growth par bg v : ℝ) : ℂ) = _
  rw [non_result_eq bg I hR, hg, sub_mul, Finset.sum_mul, ofReal_sub, ofReal_sum]
  refine congrArg₂ (· - ·) (Finset.sum_congr rfl fun A _ => ?_) ?_
  · rw [Finset.sum_mul, ofReal_sum]
    refine Finset.sum_congr rfl fun B _ => ?_
    rw [ite_mul, zero_mul, apply_ite ofReal, ofReal_zero]
    refine if_congr Iff.rfl ?_ rfl
    rw [galaxyResponse, galaxyResponse, twoPoint_scale h0 h1 hP hI _ _ _ _ hsep p1 p2 hX]
    have d1 : (v.used1 bg A B).D = bg.D1 v.z1 := by cases A <;> cases B <;> rfl
    have d2 : (v.used2 bg A B).D = bg.D1 v.z2 := by cases A <;> cases B <;> rfl
    rw [d1, d2, localTable, show v.sep = sep from rfl, mul_comm]
  · rw [ite_mul, zero_mul, apply_ite ofReal, ofReal_zero, mul_comm (v.dopplerError I)]

/-- C66 (part): in full sky and with the linear spectrum, the value without line-of-sight integrals is the sum over all ordered
pairs of requested effects (only over pairs of different effects, if only these are asked for) of the two-point functions of the
first effect at the first galaxy and the second effect at the second galaxy, in the ensemble of density fields with the given
spectrum.  Not when the pairs Doppler-Doppler or Doppler and an effect of a potential are involved. -/
theorem C66_local_partial {P : ℝ → ℝ} {kmin kmax : ℝ} (h0 : 0 < kmin) (h1 : kmin ≤ kmax)
    (hP : ContinuousOn P (Set.Icc kmin kmax)) (hI : ExactTables P kmin kmax I) (par : Par) (hF : par.FullSky) (z mu sep : ℝ)
    (hsep : 0 < sep) (X₁ X₂ : Place) :
    let v := NonEnv.of par bg z mu sep
    0 < v.chi1 → 0 < v.chi2 → Places sep v.chi1 v.chi2 X₁ X₂ →
    (par.correlation_contrib.d1 = true → par.only_cross_correlations = true ∧ par.correlation_contrib.d2 = false ∧
      par.correlation_contrib.g1 = false ∧ par.correlation_contrib.g2 = false ∧ par.correlation_contrib.g3 = false) →
    ((functions_nonintegrated par bg I z mu sep : ℝ) : ℂ) = ∑ A : LocalEffect, ∑ B : LocalEffect,
      if par.correlation_contrib.atGalaxy A ∧ par.correlation_contrib.atGalaxy B ∧ ¬ (A = B ∧ par.only_cross_correlations) then
        twoPoint P kmin kmax (galaxyResponse par.hubble par.omega (v.sample1 bg) A) X₁
          (galaxyResponse par.hubble par.omega (v.sample2 bg) B) X₂ else 0 := by
  intro v p1 p2 hX hd
  rw [C66_local bg I h0 h1 hP hI par hF z mu sep hsep X₁ X₂ p1 p2 hX, if_neg (fun hh => hh.2 (hd hh.1).1), sub_zero]
  refine Finset.sum_congr rfl fun A _ => Finset.sum_congr rfl fun B _ => ?_
  by_cases c : par.correlation_contrib.atGalaxy A = true ∧ par.correlation_contrib.atGalaxy B = true ∧
      ¬ (A = B ∧ par.only_cross_correlations = true)
  · rw [if_pos c, if_pos c]
    obtain ⟨cA, cB, -⟩ := c
    rw [v.used1_eq bg (fun hh => ?_), v.used2_eq bg (fun hh => ?_)]
    · obtain ⟨rfl, hh⟩ := hh
      obtain ⟨-, w2, w3, w4, w5⟩ := hd cB
      rcases hh with rfl | rfl | rfl | rfl <;> simp [Contrib.atGalaxy, w2, w3, w4, w5] at cA
    · obtain ⟨rfl, hh⟩ := hh
      obtain ⟨-, w2, w3, w4, w5⟩ := hd cA
      rcases hh with rfl | rfl | rfl | rfl <;> simp [Contrib.atGalaxy, w2, w3, w4, w5] at cB
  · rw [if_neg c, if_neg c]

/-- C66 (pairs of an effect at a galaxy and an effect along a line of sight): in full sky and with the linear spectrum, the
integrand of the single line-of-sight integrals is the sum over all pairs of requested effects of the two-point function of the
effect at the first galaxy and the point of the line of sight to the second galaxy, and that of the point of the line of sight
to the first galaxy and the effect at the second galaxy - but with wrong properties in some of the terms (`used1`, `used2`,
`usedRay1`, `usedRay2`). -/
theorem C66_single {P : ℝ → ℝ} {kmin kmax : ℝ} (h0 : 0 < kmin) (h1 : kmin ≤ kmax)
    (hP : ContinuousOn P (Set.Icc kmin kmax)) (hI : ExactTables P kmin kmax I) (par : Par) (hF : par.FullSky) (z mu sep x : ℝ)
    (hx : 0 < x) (X₁ Y₁ X₂ Y₂ : Place) :
    let v := SingleEnv.of par bg I z mu sep x
    0 < v.chi1 → 0 < v.chi2 → v.r21 ≠ 0 → v.r22 ≠ 0 →
    Places (Real.sqrt v.r21) v.chi1 v.lambda2 X₁ Y₂ → Places (Real.sqrt v.r22) v.lambda1 v.chi2 Y₁ X₂ →
    (par.divergent = false →
      par.correlation_contrib.d2 = false ∧ par.correlation_contrib.g1 = false ∧ par.correlation_contrib.g2 = false ∧
        par.correlation_contrib.g3 = false ∨ par.correlation_contrib.g4 = false ∧ par.correlation_contrib.g5 = false) →
    (par.correlation_contrib.rsd → par.correlation_contrib.len → |mu| < 0.999) →
    ((functions_single_integrated par bg I z mu sep x : ℝ) : ℂ) = ∑ A : LocalEffect, ∑ B : Along,
      if par.correlation_contrib.atGalaxy A ∧ par.correlation_contrib.along B then
        twoPoint P kmin kmax (galaxyResponse par.hubble par.omega (v.used1 par bg A B) A) X₁
            (lightResponse par.hubble par.omega (v.usedRay2 bg A B) B) Y₂
          + twoPoint P kmin kmax (lightResponse par.hubble par.omega (v.usedRay1 bg A B) B) Y₁
            (galaxyResponse par.hubble par.omega (v.used2 par bg A B) A) X₂ else 0 := by
  intro v p1 p2 n1 n2 hX hY hd hmu
  have hR : v.Regular par I (Real.sqrt v.r21) (Real.sqrt v.r22) := singleEnv_regular h0 h1 hP hI hF bg z mu sep x hx p1 p2 n1 n2
  have l1 : 0 < v.lambda1 := mul_pos p1 hx
  have l2 : 0 < v.lambda2 := mul_pos p2 hx
  show ((single_result par bg I v : ℝ) : ℂ) = _
  rw [single_result_eq bg I hR ?_ hmu, ofReal_sum]
  · refine Finset.sum_congr rfl fun A _ => ?_
    rw [ofReal_sum]
    refine Finset.sum_congr rfl fun B _ => ?_
    rw [apply_ite ofReal, ofReal_zero]
    refine if_congr Iff.rfl ?_ rfl
    rw [twoPoint_mixed h0 h1 hP hI par _ _ A B hR.posr1 p1 l2 hX, twoPoint_mixed_swap h0 h1 hP hI par _ _ A B hR.posr2 p2 l1 hY,
      SingleEnv.usedTable, ofReal_add]
  · intro a b
    have hdiv : par.divergent = true := by
      rcases Bool.eq_false_or_eq_true par.divergent with t | t
      · exact t
      · rcases hd t with ⟨c1, c2, c3, c4⟩ | ⟨c1, c2⟩
        · simp [c1, c2, c3, c4] at a
        · simp [c1, c2] at b
    constructor
    · show (if par.divergent = true then if v.r21 = 0 then _ else _ else _) = _
      rw [if_pos hdiv, if_neg n1]
      rfl
    · show (if par.divergent = true then if v.r22 = 0 then _ else _ else _) = _
      rw [if_pos hdiv, if_neg n2]
      rfl

/-- C66 (part): the same with the true properties, when none of the pairs is requested whose terms use wrong ones: density and
integrated Sachs-Wolfe effect; Doppler effect and any effect along the line of sight; a local effect of the potential and
lensing.  For redshift-space distortions and lensing the pair must not be close to the line of sight. -/
theorem C66_single_partial {P : ℝ → ℝ} {kmin kmax : ℝ} (h0 : 0 < kmin) (h1 : kmin ≤ kmax)
    (hP : ContinuousOn P (Set.Icc kmin kmax)) (hI : ExactTables P kmin kmax I) (par : Par) (hF : par.FullSky) (z mu sep x : ℝ)
    (hx : 0 < x) (X₁ Y₁ X₂ Y₂ : Place) :
    let v := SingleEnv.of par bg I z mu sep x
    0 < v.chi1 → 0 < v.chi2 → v.r21 ≠ 0 → v.r22 ≠ 0 →
    Places (Real.sqrt v.r21) v.chi1 v.lambda2 X₁ Y₂ → Places (Real.sqrt v.r22) v.lambda1 v.chi2 Y₁ X₂ →
    (par.divergent = false →
      par.correlation_contrib.d2 = false ∧ par.correlation_contrib.g1 = false ∧ par.correlation_contrib.g2 = false ∧
        par.correlation_contrib.g3 = false ∨ par.correlation_contrib.g4 = false ∧ par.correlation_contrib.g5 = false) →
    (par.correlation_contrib.rsd → par.correlation_contrib.len → |mu| < 0.999) →
    ¬ (par.correlation_contrib.den ∧ par.correlation_contrib.g5) →
    ¬ (par.correlation_contrib.d1 ∧ (par.correlation_contrib.len ∨ par.correlation_contrib.g4 ∨ par.correlation_contrib.g5)) →
    ¬ ((par.correlation_contrib.g1 ∨ par.correlation_contrib.g2 ∨ par.correlation_contrib.g3) ∧ par.correlation_contrib.len) →
    ((functions_single_integrated par bg I z mu sep x : ℝ) : ℂ) = ∑ A : LocalEffect, ∑ B : Along,
      if par.correlation_contrib.atGalaxy A ∧ par.correlation_contrib.along B then
        twoPoint P kmin kmax (galaxyResponse par.hubble par.omega (v.sample1 par bg) A) X₁
            (lightResponse par.hubble par.omega (v.ray2 bg) B) Y₂
          + twoPoint P kmin kmax (lightResponse par.hubble par.omega (v.ray1 bg) B) Y₁
            (galaxyResponse par.hubble par.omega (v.sample2 par bg) A) X₂ else 0 := by
  intro v p1 p2 n1 n2 hX hY hd hmu e1 e2 e3
  rw [C66_single bg I h0 h1 hP hI par hF z mu sep x hx X₁ Y₁ X₂ Y₂ p1 p2 n1 n2 hX hY hd hmu]
  refine Finset.sum_congr rfl fun A _ => Finset.sum_congr rfl fun B _ => ?_
  by_cases c : par.correlation_contrib.atGalaxy A = true ∧ par.correlation_contrib.along B = true
  · rw [if_pos c, if_pos c]
    obtain ⟨cA, cB⟩ := c
    have ok : ¬ SingleEnv.Faulty A B := by
      rintro (⟨rfl, rfl⟩ | rfl | ⟨hA, rfl⟩)
      · exact e1 ⟨cA, cB⟩
      · refine e2 ⟨cA, ?_⟩
        cases B
        · exact Or.inl cB
        · exact Or.inr (Or.inl cB)
        · exact Or.inr (Or.inr cB)
      · refine e3 ⟨?_, cB⟩
        rcases hA with rfl | rfl | rfl
        · exact Or.inl cA
        · exact Or.inr (Or.inl cA)
        · exact Or.inr (Or.inr cA)
    obtain ⟨u1, u2, u3, u4⟩ := v.used_eq par bg ok
    rw [u1, u2, u3, u4]
  · rw [if_neg c, if_neg c]

/-- C66 (pairs of effects along the lines of sight): in full sky and with the linear spectrum, the integrand of the double
line-of-sight integrals is the sum over all ordered pairs of requested effects of the two-point function of the points of the two
lines of sight - but with the conformal Hubble rate instead of the growth rate in the pairs of lensing and the integrated
Sachs-Wolfe effect (`used1`, `used2`). -/
theorem C66_double {P : ℝ → ℝ} {kmin kmax : ℝ} (h0 : 0 < kmin) (h1 : kmin ≤ kmax)
    (hP : ContinuousOn P (Set.Icc kmin kmax)) (hI : ExactTables P kmin kmax I) (par : Par) (hF : par.FullSky)
    (z mu sep x1 x2 : ℝ) (hx1 : 0 < x1) (hx2 : 0 < x2) (Y₁ Y₂ : Place) :
    let v := DoubleEnv.of par bg I z mu sep x1 x2
    0 < v.chi1 → 0 < v.chi2 → 0.000001 ^ 2 < v.r2 → Places (Real.sqrt v.r2) v.lambda1 v.lambda2 Y₁ Y₂ →
    (par.divergent = false → par.correlation_contrib.g4 = false ∧ par.correlation_contrib.g5 = false) →
    ((functions_double_integrated par bg I z mu sep x1 x2 : ℝ) : ℂ) = ∑ A : Along, ∑ B : Along,
      if par.correlation_contrib.along A ∧ par.correlation_contrib.along B ∧ ¬ (A = B ∧ par.only_cross_correlations) then
        twoPoint P kmin kmax (lightResponse par.hubble par.omega (v.used1 bg A B) A) Y₁
          (lightResponse par.hubble par.omega (v.used2 bg A B) B) Y₂ else 0 := by
  intro v p1 p2 n hY hd
  have hr : v.r2 ≠ 0 := by intro e; rw [e] at n; norm_num at n
  have hR : v.Regular par I (Real.sqrt v.r2) := doubleEnv_regular h0 h1 hP hI hF bg z mu sep x1 x2 hx1 hx2 p1 p2 hr
  show ((double_result par bg I v * (COFFE_H0 * par.h) ^ 4 : ℝ) : ℂ) = _
  rw [double_result_eq bg I hR ?_ (fun _ => lt_trans (by norm_num) n), ofReal_sum]
  · refine Finset.sum_congr rfl fun A _ => ?_
    rw [ofReal_sum]
    refine Finset.sum_congr rfl fun B _ => ?_
    rw [apply_ite ofReal, ofReal_zero]
    refine if_congr Iff.rfl ?_ rfl
    rw [twoPoint_light h0 h1 hP hI par _ _ A B hR.posr (mul_pos p1 hx1) (mul_pos p2 hx2) hY, DoubleEnv.usedTable]
    rfl
  · intro a
    have hdiv : par.divergent = true := by
      rcases Bool.eq_false_or_eq_true par.divergent with t | t
      · exact t
      · simp [hd t] at a
    show (if par.divergent = true then if v.r2 ≤ 0.000001 ^ 2 then _ else _ else _) = _
    rw [if_pos hdiv, if_neg (not_le.2 n)]
    rfl

/-- C66 (part): the same with the true properties, when lensing and the integrated Sachs-Wolfe effect are not both requested. -/
theorem C66_double_partial {P : ℝ → ℝ} {kmin kmax : ℝ} (h0 : 0 < kmin) (h1 : kmin ≤ kmax)
    (hP : ContinuousOn P (Set.Icc kmin kmax)) (hI : ExactTables P kmin kmax I) (par : Par) (hF : par.FullSky)
    (z mu sep x1 x2 : ℝ) (hx1 : 0 < x1) (hx2 : 0 < x2) (Y₁ Y₂ : Place) :
    let v := DoubleEnv.of par bg I z mu sep x1 x2
    0 < v.chi1 → 0 < v.chi2 → 0.000001 ^ 2 < v.r2 → Places (Real.sqrt v.r2) v.lambda1 v.lambda2 Y₁ Y₂ →
    (par.divergent = false → par.correlation_contrib.g4 = false ∧ par.correlation_contrib.g5 = false) →
    ¬ (par.correlation_contrib.len ∧ par.correlation_contrib.g5) →
    ((functions_double_integrated par bg I z mu sep x1 x2 : ℝ) : ℂ) = ∑ A : Along, ∑ B : Along,
      if par.correlation_contrib.along A ∧ par.correlation_contrib.along B ∧ ¬ (A = B ∧ par.only_cross_correlations) then
        twoPoint P kmin kmax (lightResponse par.hubble par.omega (v.ray1 bg) A) Y₁
          (lightResponse par.hubble par.omega (v.ray2 bg) B) Y₂ else 0 := by
  intro v p1 p2 n hY hd e
  rw [C66_double bg I h0 h1 hP hI par hF z mu sep x1 x2 hx1 hx2 Y₁ Y₂ p1 p2 n hY hd]
  refine Finset.sum_congr rfl fun A _ => Finset.sum_congr rfl fun B _ => ?_
  by_cases c : par.correlation_contrib.along A = true ∧ par.correlation_contrib.along B = true ∧
      ¬ (A = B ∧ par.only_cross_correlations = true)
  · rw [if_pos c, if_pos c]
    obtain ⟨cA, cB, -⟩ := c
    rw [v.used1_eq bg (fun hh => ?_), v.used2_eq bg (fun hh => ?_)]
    · obtain ⟨rfl, rfl⟩ := hh
      exact e ⟨cA, cB⟩
    · obtain ⟨rfl, rfl⟩ := hh
      exact e ⟨cB, cA⟩
  · rw [if_neg c, if_neg c]

/-- Only the Doppler effect. -/
def onlyDoppler : Contrib := ⟨false, false, false, true, false, false, false, false, false, false⟩

/-- The value for the Doppler effect alone: one of the two parts of the correlation of the velocities enters with the wrong sign. -/
theorem C66_doppler {P : ℝ → ℝ} {kmin kmax : ℝ} (h0 : 0 < kmin) (h1 : kmin ≤ kmax)
    (hP : ContinuousOn P (Set.Icc kmin kmax)) (hI : ExactTables P kmin kmax I) (par : Par) (hF : par.FullSky) (z mu sep : ℝ)
    (hsep : 0 < sep) (X₁ X₂ : Place) (hd : par.correlation_contrib = onlyDoppler) (ho : par.only_cross_correlations = false) :
    let v := NonEnv.of par bg z mu sep
    0 < v.chi1 → 0 < v.chi2 → Places sep v.chi1 v.chi2 X₁ X₂ →
    ((functions_nonintegrated par bg I z mu sep : ℝ) : ℂ) =
      twoPoint P kmin kmax (galaxyResponse par.hubble par.omega (v.sample1 bg) .d1) X₁
        (galaxyResponse par.hubble par.omega (v.sample2 bg) .d1) X₂
      - (2 * (bg.D1 v.z1 * (v.curlyH1 * v.f1 * v.G1)) * (bg.D1 v.z2 * (v.curlyH2 * v.f2 * v.G2)) * (v.costheta / 3
          - (v.chi2 ^ 2 - v.chi1 ^ 2 - sep ^ 2) / (2 * v.chi1 * sep) * ((v.chi2 ^ 2 - v.chi1 ^ 2 + sep ^ 2) / (2 * v.chi2 * sep)))
        * ((∫ k in kmin..kmax, P k * gsl_sf_bessel_jl 2 (k * sep)) / (2 * Real.pi ^ 2)) : ℝ) := by
  intro v p1 p2 hX
  have hR : v.Regular par := ⟨hF, nonEnv_cos par bg z mu sep p1 p2, p1, p2, hsep⟩
  have hs : v.sep = sep := rfl
  have hg : non_growth par bg v = bg.D1 v.z1 * bg.D1 v.z2 := by
    obtain ⟨f1, -, -, -, f5, f6, f7, f8⟩ := id hF
    simp [non_growth, hF.linear, f1, f5, f6, f7, f8]
  have hm : (∫ k in kmin..kmax, P k * gsl_sf_bessel_jl 2 (k * sep)) / (2 * Real.pi ^ 2) = sep ^ 2 * I.I22.result sep := by
    have := direct_value_moment P h0 h1 hsep 2 2
    rw [← hI.1 2 2 sep hsep, momentIntegral] at this
    rw [Ints.I22]
    refine Eq.trans ?_ this
    congr 1
    refine intervalIntegral.integral_congr fun k hk => ?_
    rw [Set.uIcc_of_le h1] at hk
    have hk := h0.trans_le hk.1
    show P k * gsl_sf_bessel_jl 2 (k * sep) = k ^ 2 * P k * (gsl_sf_bessel_jl 2 (k * sep) / k ^ 2)
    field_simp
  have hn : non_result par bg I v = non_d1_d1 par bg I v := by
    simp [non_result, non_den_den, non_rsd_rsd, non_d2_d2, non_g1_g1, non_g2_g2, non_g3_g3, non_den_rsd, non_den_d1, non_den_d2,
      non_den_g1, non_den_g2, non_den_g3, non_rsd_d1, non_rsd_d2, non_rsd_g1, non_rsd_g2, non_rsd_g3, non_d1_d2, non_d1_g1,
      non_d1_g2, non_d1_g3, non_d2_g1, non_d2_g2, non_d2_g3, non_g1_g2, non_g1_g3, non_g2_g3, hd, onlyDoppler]
  show ((non_result par bg I v * non_growth par bg v : ℝ) : ℂ) = _
  rw [hn, hg, non_d1_d1_eq bg I hR, if_pos ⟨by rw [hd]; rfl, by simp [ho]⟩, galaxyResponse, galaxyResponse,
    twoPoint_scale h0 h1 hP hI _ _ _ _ hsep p1 p2 hX, hm, ← Complex.ofReal_sub]
  congr 1
  simp only [NonEnv.pairTable, localTable, hs, NonEnv.sample1, NonEnv.sample2]
  ring

end

/-- The tables with exactly the values of the integrals. -/
noncomputable def exactInts (P : ℝ → ℝ) (kmin kmax : ℝ) : Ints := fun e =>
  ⟨direct_value exactQuad P e kmin kmax, fun _ _ => 0, fun a b => integrals_renormalization exactQuad P a b kmin kmax,
    fun a => integrals_integrate_function exactQuad (integrals_renormalization0_integrand P a) e a kmin kmax⟩

/-- There are such tables. -/
theorem exactInts_exact (P : ℝ → ℝ) (kmin kmax : ℝ) : ExactTables P kmin kmax (exactInts P kmin kmax) :=
  ⟨fun _ _ _ _ => rfl, fun _ _ => rfl⟩

/-- A universe in which nothing depends on the redshift, seen at the distance 1000. -/
noncomputable def plainBg : Bg := ⟨fun _ => 1000, fun _ => 1, fun _ => 1, fun _ => 1, fun _ => 1, fun _ => 1, fun _ => 1, fun _ => 1⟩

/-- Full sky, linear spectrum and the given contributions. -/
noncomputable def plainPar (c : Contrib) : Par :=
  { correlation_contrib := c, only_cross_correlations := false, flatsky_local := false, flatsky_local_nonlocal := false,
    flatsky_nonlocal := false, divergent := true, output_type := .CORRFUNC, pk_type := .COFFE_PK_LINEAR,
    midpoint_approximation := false, b_derivative := false, f_derivative := false, b_tilde_derivative := false,
    f_tilde_derivative := false, Omega0_cdm := 0.25, Omega0_baryon := 0.05, h := 0.67, galaxy_bias1 := fun _ => 1,
    galaxy_bias2 := fun _ => 1, magnification_bias1 := fun _ => 0, magnification_bias2 := fun _ => 0,
    evolution_bias1 := fun _ => 0, evolution_bias2 := fun _ => 0 }

theorem plainPar_fullSky (c : Contrib) : (plainPar c).FullSky := ⟨rfl, rfl, rfl, Or.inl rfl, rfl, rfl, rfl, rfl⟩

/-- There is a range of wave numbers in which the second Bessel function is positive. -/
theorem exists_j2_pos : ∃ kmin kmax : ℝ, 0 < kmin ∧ kmin < kmax ∧ ∀ k ∈ Set.Icc kmin kmax, 0 < gsl_sf_bessel_jl 2 (k * 100) := by
  have hc : ContinuousAt (fun k : ℝ => gsl_sf_bessel_jl 2 (k * 100)) (Real.pi / 100) :=
    ((continuous_jl 2).comp (continuous_id.mul continuous_const)).continuousAt
  have hv : 0 < gsl_sf_bessel_jl 2 (Real.pi / 100 * 100) := by
    rw [div_mul_cancel₀ _ (by norm_num), jl_succ 0 _ Real.pi_ne_zero, jl_one _ Real.pi_ne_zero, jl_zero _ Real.pi_ne_zero,
      Real.sin_pi, Real.cos_pi]
    have := Real.pi_pos
    norm_num
    exact mul_neg_of_pos_of_neg (by positivity) (div_neg_of_neg_of_pos (by norm_num) this)
  obtain ⟨ε, hε, hb⟩ := Metric.eventually_nhds_iff.1 (hc.eventually (lt_mem_nhds hv))
  refine ⟨Real.pi / 100, Real.pi / 100 + ε / 2, by positivity, by linarith, fun k hk => hb ?_⟩
  rw [Real.dist_eq, abs_lt]
  constructor <;> linarith [hk.1, hk.2]

/-- C66 is false: there are settings, with a spectrum and exact tables, in which the value for the Doppler effect is not the
two-point function. -/
theorem C66_false : ∃ (P : ℝ → ℝ) (kmin kmax : ℝ) (I : Ints) (par : Par) (bg : Bg) (z mu sep : ℝ) (X₁ X₂ : Place),
    0 < kmin ∧ kmin < kmax ∧ Continuous P ∧ ExactTables P kmin kmax I ∧ par.FullSky ∧
    par.correlation_contrib = onlyDoppler ∧ 0 < sep ∧
    0 < (NonEnv.of par bg z mu sep).chi1 ∧ 0 < (NonEnv.of par bg z mu sep).chi2 ∧
    Places sep (NonEnv.of par bg z mu sep).chi1 (NonEnv.of par bg z mu sep).chi2 X₁ X₂ ∧
    ((functions_nonintegrated par bg I z mu sep : ℝ) : ℂ) ≠
      twoPoint P kmin kmax (galaxyResponse par.hubble par.omega ((NonEnv.of par bg z mu sep).sample1 bg) .d1) X₁
        (galaxyResponse par.hubble par.omega ((NonEnv.of par bg z mu sep).sample2 bg) .d1) X₂ := by
  obtain ⟨kmin, kmax, h0, h1, hj⟩ := exists_j2_pos
  have c1 : (NonEnv.of (plainPar onlyDoppler) plainBg 1 1 100).chi1 = 950 := by norm_num [NonEnv.of, plainBg]
  have c2 : (NonEnv.of (plainPar onlyDoppler) plainBg 1 1 100).chi2 = 1050 := by norm_num [NonEnv.of, plainBg]
  have hX : Places 100 950 1050 ⟨0, 0, 950⟩ ⟨0, 0, 1050⟩ := by
    refine ⟨0, 950, rfl, by norm_num, ?_, ?_⟩
    · simp only [Place.radius, Place.dot]
      rw [show (0 : ℝ) * 0 + 0 * 0 + 950 * 950 = 950 ^ 2 by norm_num, Real.sqrt_sq (by norm_num)]
    · simp only [Place.radius, Place.dot]
      rw [show (0 : ℝ) * 0 + 0 * 0 + 1050 * 1050 = 1050 ^ 2 by norm_num, Real.sqrt_sq (by norm_num)]
  refine ⟨fun _ => 1, kmin, kmax, exactInts (fun _ => 1) kmin kmax, plainPar onlyDoppler, plainBg, 1, 1, 100, ⟨0, 0, 950⟩, ⟨0, 0, 1050⟩,
    h0, h1, continuous_const, exactInts_exact _ _ _, plainPar_fullSky _, rfl, by norm_num, by rw [c1]; norm_num,
    by rw [c2]; norm_num, by rw [c1, c2]; exact hX, ?_⟩
  rw [C66_doppler plainBg (exactInts (fun _ => 1) kmin kmax) h0 h1.le continuousOn_const (exactInts_exact _ _ _)
    (plainPar onlyDoppler) (plainPar_fullSky _) 1 1 100 (by norm_num) ⟨0, 0, 950⟩ ⟨0, 0, 1050⟩ rfl rfl (by rw [c1]; norm_num)
    (by rw [c2]; norm_num) (by rw [c1, c2]; exact hX)]
  intro h
  rw [sub_eq_self, Complex.ofReal_eq_zero] at h
  have hint : 0 < ∫ k in kmin..kmax, (1 : ℝ) * gsl_sf_bessel_jl 2 (k * 100) := by
    refine intervalIntegral.intervalIntegral_pos_of_pos_on ?_ (fun k hk => ?_) h1
    · exact Continuous.intervalIntegrable (continuous_const.mul ((continuous_jl 2).comp (continuous_id.mul continuous_const))) _ _
    · rw [one_mul]; exact hj k ⟨hk.1.le, hk.2.le⟩
  have hpi := Real.pi_pos
  rw [c1, c2] at h
  have hcos : (NonEnv.of (plainPar onlyDoppler) plainBg 1 1 100).costheta = 1 := by norm_num [NonEnv.of, plainBg]
  rw [hcos] at h
  rcases mul_eq_zero.1 h with h | h
  · norm_num [NonEnv.of, plainBg] at h
  · rcases div_eq_zero_iff.1 h with h | h
    · exact hint.ne' h
    · have : 0 < 2 * Real.pi ^ 2 := by positivity
      exact this.ne' h

/-- The places needed by the theorems exist for every pair of the code with a positive separation that is shorter than twice
the distance. -/
theorem nonEnv_places (par : Par) (bg : Bg) (z mu sep : ℝ) (hs : 0 < sep) (hmu : |mu| ≤ 1)
    (hd : sep < 2 * bg.comoving_distance z) :
    0 < (NonEnv.of par bg z mu sep).chi1 ∧ 0 < (NonEnv.of par bg z mu sep).chi2 ∧
    ∃ X₁ X₂, Places sep (NonEnv.of par bg z mu sep).chi1 (NonEnv.of par bg z mu sep).chi2 X₁ X₂ := by
  have hm := abs_le.1 hmu
  have a1 : sep * mu ≤ sep := by nlinarith
  have a2 : -sep ≤ sep * mu := by nlinarith
  have p1 : 0 < (NonEnv.of par bg z mu sep).chi1 := by simp only [NonEnv.of]; linarith
  have p2 : 0 < (NonEnv.of par bg z mu sep).chi2 := by simp only [NonEnv.of]; linarith
  refine ⟨p1, p2, ?_⟩
  obtain ⟨p, q, e₁, e₂⟩ := exists_places (r := sep) hs p1.le p2.le
    (by simp only [NonEnv.of]; rw [abs_le]; constructor <;> linarith) (by simp only [NonEnv.of]; linarith)
  exact ⟨_, _, p, q, rfl, rfl, e₁, e₂⟩

/-- The hypotheses of `C66_local_partial` can be met: six effects, separation 100 at the distance 1000. -/
example : ∃ X₁ X₂,
    let c : Contrib := ⟨true, true, false, false, true, true, true, true, false, false⟩
    let v := NonEnv.of (plainPar c) plainBg 1 0.5 100
    0 < v.chi1 ∧ 0 < v.chi2 ∧ Places 100 v.chi1 v.chi2 X₁ X₂ ∧ (plainPar c).FullSky ∧
      ExactTables (fun _ => 1) 0.001 10 (exactInts (fun _ => 1) 0.001 10) := by
  obtain ⟨p1, p2, X₁, X₂, hX⟩ := nonEnv_places (plainPar ⟨true, true, false, false, true, true, true, true, false, false⟩) plainBg 1 0.5 100
    (by norm_num) (by norm_num [abs_of_pos]) (by norm_num [plainBg])
  exact ⟨X₁, X₂, p1, p2, hX, plainPar_fullSky _, exactInts_exact _ _ _⟩

end Coffe
