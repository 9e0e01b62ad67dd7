import Verif.Props.Ensemble

/-!
# C66: cases that meet the hypotheses, and a pair along a line of sight for which the value is not the ensemble average
-/

namespace Coffe
open Complex Classical

/-- The angular part of the Laplacian of the potential of a plane wave: what a point of the line of sight contributes to lensing
is `-(2 - 5 s) (1 - x) / x` times it. -/
theorem lensing_laplacian (H0 Ω : ℝ) (g : Ray) (hx : g.x ≠ 0) (k : ℝ) (hk : k ≠ 0) (ν : ℝ) :
    (lensingResponse H0 Ω g).amplitude k ν * cexp (I * (k * (g.x * g.χ) * ν)) =
      -((2 - 5 * g.s) * (1 - g.x) / g.x * (potentialOf H0 Ω g.a / k ^ 2) : ℝ)
        * deriv (fun t : ℝ => ((1 - t ^ 2 : ℝ) : ℂ) * deriv (fun u : ℝ => cexp (I * (k * (g.x * g.χ) * u))) t) ν := by
  have d1 : ∀ t : ℝ, HasDerivAt (fun u : ℝ => cexp (I * (k * (g.x * g.χ) * u)))
      (cexp (I * (k * (g.x * g.χ) * t)) * (I * (k * (g.x * g.χ)))) t := by
    intro t
    have a : HasDerivAt (fun u : ℝ => I * (k * (g.x * g.χ) * (u : ℂ))) (I * (k * (g.x * g.χ))) t := by
      have := ((hasDerivAt_id t).ofReal_comp.const_mul ((k : ℂ) * (g.x * g.χ))).const_mul I
      simpa using this
    exact a.cexp
  have e1 : (fun t : ℝ => ((1 - t ^ 2 : ℝ) : ℂ) * deriv (fun u : ℝ => cexp (I * (k * (g.x * g.χ) * u))) t) =
      fun t : ℝ => ((1 - t ^ 2 : ℝ) : ℂ) * (cexp (I * (k * (g.x * g.χ) * t)) * (I * (k * (g.x * g.χ)))) :=
    funext fun t => by rw [(d1 t).deriv]
  have d2 : HasDerivAt (fun t : ℝ => ((1 - t ^ 2 : ℝ) : ℂ)) ((-(2 * ν) : ℝ) : ℂ) ν := by
    have : HasDerivAt (fun t : ℝ => 1 - t ^ 2) (-(2 * ν)) ν := by simpa using (hasDerivAt_pow 2 ν).const_sub 1
    exact this.ofReal_comp
  have d3 : deriv (fun t : ℝ => ((1 - t ^ 2 : ℝ) : ℂ) * (cexp (I * (k * (g.x * g.χ) * t)) * (I * (k * (g.x * g.χ))))) ν = _ :=
    (d2.mul ((d1 ν).mul_const (I * (k * (g.x * g.χ))))).deriv
  rw [e1, d3]
  have hx' : (g.x : ℂ) ≠ 0 := by exact_mod_cast hx
  have hk' : (k : ℂ) ≠ 0 := by exact_mod_cast hk
  simp only [Response.amplitude, lensingResponse]
  push_cast
  field_simp
  ring_nf
  simp only [I_sq]
  ring

/-- The cosine of the angle between the two galaxies is between -1 and 1. -/
theorem nonEnv_cos_bound {χ mu sep : ℝ} (hs : 0 < sep) (hmu : |mu| < 1) (hd : sep < 2 * χ) :
    -1 ≤ (2 * χ * χ - sep * sep + mu * mu * sep * sep / 2) / (2 * χ * χ - mu * mu * sep * sep / 2) ∧
    (2 * χ * χ - sep * sep + mu * mu * sep * sep / 2) / (2 * χ * χ - mu * mu * sep * sep / 2) < 1 := by
  have hm : mu * mu < 1 := by
    have := abs_lt.1 hmu
    nlinarith
  have h1 : sep * sep < 4 * (χ * χ) := by nlinarith
  have h2 : mu * mu * (sep * sep) < 1 * (sep * sep) := mul_lt_mul_of_pos_right hm (by positivity)
  have hpos : 0 < 2 * χ * χ - mu * mu * sep * sep / 2 := by nlinarith
  constructor
  · rw [le_div_iff₀ hpos]; nlinarith
  · rw [div_lt_one hpos]; nlinarith

/-- The third side of a triangle. -/
theorem exists_places_cos {a b C : ℝ} (ha : 0 < a) (hb : 0 < b) (h1 : -1 ≤ C) (h2 : C < 1) :
    0 < a * a + b * b - 2 * b * a * C ∧ ∃ X Y, Places (Real.sqrt (a * a + b * b - 2 * b * a * C)) b a X Y := by
  have hab := mul_pos ha hb
  have hp : 0 < a * a + b * b - 2 * b * a * C := by
    have : b * a * C < b * a * 1 := mul_lt_mul_of_pos_left h2 (mul_pos hb ha)
    nlinarith [sq_nonneg (a - b)]
  refine ⟨hp, ?_⟩
  obtain ⟨p, q, e₁, e₂⟩ := exists_places (Real.sqrt_pos.2 hp) hb.le ha.le (Real.abs_le_sqrt (by nlinarith))
    (Real.sqrt_le_iff.2 ⟨by positivity, by nlinarith⟩)
  exact ⟨_, _, p, q, rfl, rfl, e₁, e₂⟩

/-- The places needed by `C66_single` exist for every pair that is not along the line of sight. -/
theorem singleEnv_places (par : Par) (bg : Bg) (I : Ints) (z mu sep x : ℝ) (hs : 0 < sep) (hmu : |mu| < 1)
    (hd : sep < 2 * bg.comoving_distance z) (hx : 0 < x) :
    0 < (SingleEnv.of par bg I z mu sep x).chi1 ∧ 0 < (SingleEnv.of par bg I z mu sep x).chi2 ∧
    0 < (SingleEnv.of par bg I z mu sep x).r21 ∧ 0 < (SingleEnv.of par bg I z mu sep x).r22 ∧
    (∃ X₁ Y₂, Places (Real.sqrt (SingleEnv.of par bg I z mu sep x).r21) (SingleEnv.of par bg I z mu sep x).chi1
      (SingleEnv.of par bg I z mu sep x).lambda2 X₁ Y₂) ∧
    ∃ Y₁ X₂, Places (Real.sqrt (SingleEnv.of par bg I z mu sep x).r22) (SingleEnv.of par bg I z mu sep x).lambda1
      (SingleEnv.of par bg I z mu sep x).chi2 Y₁ X₂ := by
  have hm := abs_lt.1 hmu
  have a1 : sep * mu ≤ sep := by nlinarith
  have a2 : -sep ≤ sep * mu := by nlinarith
  have p1 : 0 < (SingleEnv.of par bg I z mu sep x).chi1 := by simp only [SingleEnv.of]; linarith
  have p2 : 0 < (SingleEnv.of par bg I z mu sep x).chi2 := by simp only [SingleEnv.of]; linarith
  have l1 : 0 < (SingleEnv.of par bg I z mu sep x).lambda1 := mul_pos p1 hx
  have l2 : 0 < (SingleEnv.of par bg I z mu sep x).lambda2 := mul_pos p2 hx
  obtain ⟨c1, c2⟩ := nonEnv_cos_bound hs hmu hd
  obtain ⟨q1, X₁, Y₂, h1⟩ := exists_places_cos l2 p1 c1 c2
  obtain ⟨q2, Y₁, X₂, h2⟩ := exists_places_cos p2 l1 c1 c2
  have e1 : (SingleEnv.of par bg I z mu sep x).r21 = _ := if_neg (not_lt.2 q1.le)
  have q2' : 0 < (SingleEnv.of par bg I z mu sep x).lambda1 * (SingleEnv.of par bg I z mu sep x).lambda1
      + (SingleEnv.of par bg I z mu sep x).chi2 * (SingleEnv.of par bg I z mu sep x).chi2
      - 2 * (SingleEnv.of par bg I z mu sep x).chi2 * (SingleEnv.of par bg I z mu sep x).lambda1
        * (SingleEnv.of par bg I z mu sep x).costheta := by
    refine lt_of_lt_of_eq q2 ?_
    change _ + _ - 2 * _ * _ * (SingleEnv.of par bg I z mu sep x).costheta = _
    ring
  have e2 : (SingleEnv.of par bg I z mu sep x).r22 = _ := if_neg (not_lt.2 q2'.le)
  refine ⟨p1, p2, lt_of_lt_of_eq q1 e1.symm, lt_of_lt_of_eq q2' e2.symm, ⟨X₁, Y₂, ?_⟩, Y₁, X₂, ?_⟩
  · rw [e1]; exact h1
  · rw [e2]
    have e' : (SingleEnv.of par bg I z mu sep x).chi2 * (SingleEnv.of par bg I z mu sep x).chi2 + (SingleEnv.of par bg I z mu sep x).lambda1 * (SingleEnv.of par bg I z mu sep x).lambda1
        - 2 * (SingleEnv.of par bg I z mu sep x).lambda1 * (SingleEnv.of par bg I z mu sep x).chi2 * (SingleEnv.of par bg I z mu sep x).costheta =
        ((SingleEnv.of par bg I z mu sep x).lambda1 * (SingleEnv.of par bg I z mu sep x).lambda1 + (SingleEnv.of par bg I z mu sep x).chi2 * (SingleEnv.of par bg I z mu sep x).chi2
          - 2 * (SingleEnv.of par bg I z mu sep x).chi2 * (SingleEnv.of par bg I z mu sep x).lambda1 * (SingleEnv.of par bg I z mu sep x).costheta) := by ring
    exact (congrArg (fun t => Places (Real.sqrt t) (SingleEnv.of par bg I z mu sep x).lambda1 (SingleEnv.of par bg I z mu sep x).chi2 Y₁ X₂) e').mp h2

/-- The places needed by `C66_double` exist for every pair that is not along the line of sight. -/
theorem doubleEnv_places (par : Par) (bg : Bg) (I : Ints) (z mu sep x1 x2 : ℝ) (hs : 0 < sep) (hmu : |mu| < 1)
    (hd : sep < 2 * bg.comoving_distance z) (hx1 : 0 < x1) (hx2 : 0 < x2) :
    0 < (DoubleEnv.of par bg I z mu sep x1 x2).chi1 ∧ 0 < (DoubleEnv.of par bg I z mu sep x1 x2).chi2 ∧
    0 < (DoubleEnv.of par bg I z mu sep x1 x2).r2 ∧
    ∃ Y₁ Y₂, Places (Real.sqrt (DoubleEnv.of par bg I z mu sep x1 x2).r2) (DoubleEnv.of par bg I z mu sep x1 x2).lambda1
      (DoubleEnv.of par bg I z mu sep x1 x2).lambda2 Y₁ Y₂ := by
  have hm := abs_lt.1 hmu
  have a1 : sep * mu ≤ sep := by nlinarith
  have a2 : -sep ≤ sep * mu := by nlinarith
  have p1 : 0 < (DoubleEnv.of par bg I z mu sep x1 x2).chi1 := by simp only [DoubleEnv.of]; linarith
  have p2 : 0 < (DoubleEnv.of par bg I z mu sep x1 x2).chi2 := by simp only [DoubleEnv.of]; linarith
  have l1 : 0 < (DoubleEnv.of par bg I z mu sep x1 x2).lambda1 := mul_pos p1 hx1
  have l2 : 0 < (DoubleEnv.of par bg I z mu sep x1 x2).lambda2 := mul_pos p2 hx2
  obtain ⟨c1, c2⟩ := nonEnv_cos_bound hs hmu hd
  obtain ⟨q, Y₁, Y₂, h⟩ := exists_places_cos l2 l1 c1 c2
  have q' : 0 < (DoubleEnv.of par bg I z mu sep x1 x2).lambda1 * (DoubleEnv.of par bg I z mu sep x1 x2).lambda1
      + (DoubleEnv.of par bg I z mu sep x1 x2).lambda2 * (DoubleEnv.of par bg I z mu sep x1 x2).lambda2
      - 2 * (DoubleEnv.of par bg I z mu sep x1 x2).lambda1 * (DoubleEnv.of par bg I z mu sep x1 x2).lambda2
        * (DoubleEnv.of par bg I z mu sep x1 x2).costheta := by
    refine lt_of_lt_of_eq q ?_
    change _ + _ - 2 * _ * _ * (DoubleEnv.of par bg I z mu sep x1 x2).costheta = _
    ring
  have e : (DoubleEnv.of par bg I z mu sep x1 x2).r2 = _ := if_neg (not_lt.2 q'.le)
  refine ⟨p1, p2, lt_of_lt_of_eq q' e.symm, Y₁, Y₂, ?_⟩
  rw [e]
  have e' : (DoubleEnv.of par bg I z mu sep x1 x2).lambda2 * (DoubleEnv.of par bg I z mu sep x1 x2).lambda2 + (DoubleEnv.of par bg I z mu sep x1 x2).lambda1 * (DoubleEnv.of par bg I z mu sep x1 x2).lambda1
      - 2 * (DoubleEnv.of par bg I z mu sep x1 x2).lambda1 * (DoubleEnv.of par bg I z mu sep x1 x2).lambda2 * (DoubleEnv.of par bg I z mu sep x1 x2).costheta =
      ((DoubleEnv.of par bg I z mu sep x1 x2).lambda1 * (DoubleEnv.of par bg I z mu sep x1 x2).lambda1 + (DoubleEnv.of par bg I z mu sep x1 x2).lambda2 * (DoubleEnv.of par bg I z mu sep x1 x2).lambda2
        - 2 * (DoubleEnv.of par bg I z mu sep x1 x2).lambda1 * (DoubleEnv.of par bg I z mu sep x1 x2).lambda2 * (DoubleEnv.of par bg I z mu sep x1 x2).costheta) := by ring
  exact (congrArg (fun t => Places (Real.sqrt t) (DoubleEnv.of par bg I z mu sep x1 x2).lambda1 (DoubleEnv.of par bg I z mu sep x1 x2).lambda2 Y₁ Y₂) e').mp h

/-- The hypotheses of `C66_single_partial` can be met: density, redshift-space distortions and lensing, at half the distance. -/
example : ∃ X₁ Y₁ X₂ Y₂,
    let c : Contrib := ⟨true, true, true, false, false, false, false, false, false, false⟩
    let v := SingleEnv.of (plainPar c) plainBg (exactInts (fun _ => 1) 0.001 10) 1 0.5 100 0.5
    0 < v.chi1 ∧ 0 < v.chi2 ∧ v.r21 ≠ 0 ∧ v.r22 ≠ 0 ∧ Places (Real.sqrt v.r21) v.chi1 v.lambda2 X₁ Y₂ ∧
      Places (Real.sqrt v.r22) v.lambda1 v.chi2 Y₁ X₂ ∧ |(0.5 : ℝ)| < 0.999 ∧ (plainPar c).divergent = true := by
  obtain ⟨p1, p2, q1, q2, ⟨X₁, Y₂, h1⟩, Y₁, X₂, h2⟩ := singleEnv_places
    (plainPar ⟨true, true, true, false, false, false, false, false, false, false⟩) plainBg (exactInts (fun _ => 1) 0.001 10) 1 0.5 100 0.5
    (by norm_num) (by norm_num [abs_of_pos]) (by norm_num [plainBg]) (by norm_num)
  exact ⟨X₁, Y₁, X₂, Y₂, p1, p2, q1.ne', q2.ne', h1, h2, by norm_num [abs_of_pos], rfl⟩

/-- The hypotheses of `C66_double_partial` can be met: lensing and time delay. -/
example : ∃ Y₁ Y₂,
    let c : Contrib := ⟨false, false, true, false, false, false, false, false, true, false⟩
    let v := DoubleEnv.of (plainPar c) plainBg (exactInts (fun _ => 1) 0.001 10) 1 0 100 0.5 0.25
    0 < v.chi1 ∧ 0 < v.chi2 ∧ 0.000001 ^ 2 < v.r2 ∧ Places (Real.sqrt v.r2) v.lambda1 v.lambda2 Y₁ Y₂ := by
  obtain ⟨p1, p2, q, Y₁, Y₂, h⟩ := doubleEnv_places
    (plainPar ⟨false, false, true, false, false, false, false, false, true, false⟩) plainBg (exactInts (fun _ => 1) 0.001 10) 1 0 100 0.5 0.25
    (by norm_num) (by norm_num) (by norm_num [plainBg]) (by norm_num) (by norm_num)
  refine ⟨Y₁, Y₂, p1, p2, ?_, h⟩
  simp only [DoubleEnv.of, plainBg]
  norm_num

/-- Density and integrated Sachs-Wolfe effect. -/
def densitySachsWolfe : Contrib := ⟨true, false, false, false, false, false, false, false, false, true⟩

/-- The universe of `plainBg` without growth, seen at half its size. -/
noncomputable def halfBg : Bg := { plainBg with a := fun _ => 1 / 2, f := fun _ => 0 }

theorem mixedTable_den_g5 (par : Par) (I : Ints) (g : Sample) (q : Ray) (χ lam r : ℝ) :
    mixedTable par I g q χ lam r .den .g5 =
      g.D * q.D * (g.b * (2 * potentialOf par.hubble par.omega q.a * q.G * q.χ * q.H * (q.f - 1))) * I.I20.result r := by
  simp only [mixedTable, localResponse, alongResponse, sachsWolfeResponse, tableSum, weights]
  ring

/-- The table is positive at small separations. -/
theorem exactInts_I20_pos {kmin kmax r : ℝ} (h0 : 0 < kmin) (h1 : kmin < kmax) (hr : 0 < r) (hk : kmax * r < Real.pi) :
    0 < (exactInts (fun _ => 1) kmin kmax).I20.result r := by
  have m := direct_value_moment (fun _ => 1) h0 h1.le hr 2 0
  rw [← (exactInts_exact (fun _ => 1) kmin kmax).1 2 0 r hr] at m
  have e : (exactInts (fun _ => 1) kmin kmax).I20.result r = momentIntegral (fun _ => 1) kmin kmax 2 0 r := by
    rw [m]
    norm_num [Ints.I20]
  rw [e, momentIntegral]
  refine div_pos (intervalIntegral.intervalIntegral_pos_of_pos_on ?_ (fun k hk' => ?_) h1) (by positivity)
  · refine ContinuousOn.intervalIntegrable ?_
    rw [Set.uIcc_of_le h1.le]
    intro k hk'
    have : k ≠ 0 := (h0.trans_le hk'.1).ne'
    refine ContinuousAt.continuousWithinAt ?_
    have c : ContinuousAt (fun k : ℝ => gsl_sf_bessel_jl 0 (k * r)) k :=
      ((continuous_jl 0).comp (continuous_id.mul continuous_const)).continuousAt
    exact ((continuousAt_id.pow 2).mul continuousAt_const).mul (c.div (continuousAt_id.pow 2) (pow_ne_zero 2 this))
  · have kp : 0 < k := h0.trans hk'.1
    have kr : 0 < k * r := mul_pos kp hr
    have kl : k * r < Real.pi := lt_of_lt_of_le (mul_lt_mul_of_pos_right hk'.2 hr) hk.le
    have s := Real.sin_pos_of_pos_of_lt_pi kr kl
    rw [jl_zero _ kr.ne']
    positivity

/-- C66 is false also for pairs along a line of sight: the value for the density and the integrated Sachs-Wolfe effect is not
the two-point function. -/
theorem C66_single_false : ∃ (P : ℝ → ℝ) (kmin kmax : ℝ) (I : Ints) (par : Par) (bg : Bg) (z mu sep x : ℝ)
    (X₁ Y₁ X₂ Y₂ : Place),
    0 < kmin ∧ kmin < kmax ∧ Continuous P ∧ ExactTables P kmin kmax I ∧ par.FullSky ∧ par.divergent = true ∧
    par.correlation_contrib = densitySachsWolfe ∧ |mu| < 1 ∧ 0 < sep ∧ sep < 2 * bg.comoving_distance z ∧ 0 < x ∧ x < 1 ∧
    Places (Real.sqrt (SingleEnv.of par bg I z mu sep x).r21) (SingleEnv.of par bg I z mu sep x).chi1
      (SingleEnv.of par bg I z mu sep x).lambda2 X₁ Y₂ ∧
    Places (Real.sqrt (SingleEnv.of par bg I z mu sep x).r22) (SingleEnv.of par bg I z mu sep x).lambda1
      (SingleEnv.of par bg I z mu sep x).chi2 Y₁ X₂ ∧
    ((functions_single_integrated par bg I z mu sep x : ℝ) : ℂ) ≠
      twoPoint P kmin kmax (galaxyResponse par.hubble par.omega ((SingleEnv.of par bg I z mu sep x).sample1 par bg) .den) X₁
        (lightResponse par.hubble par.omega ((SingleEnv.of par bg I z mu sep x).ray2 bg) .g5) Y₂
      + twoPoint P kmin kmax (lightResponse par.hubble par.omega ((SingleEnv.of par bg I z mu sep x).ray1 bg) .g5) Y₁
        (galaxyResponse par.hubble par.omega ((SingleEnv.of par bg I z mu sep x).sample2 par bg) .den) X₂ := by
  have h0 : (0 : ℝ) < 1 / 1000 := by norm_num
  have h1 : (1 / 1000 : ℝ) < 1 / 500 := by norm_num
  have hI := exactInts_exact (fun _ => 1) (1 / 1000) (1 / 500)
  have hF := plainPar_fullSky densitySachsWolfe
  obtain ⟨p1, p2, q1, q2, ⟨X₁, Y₂, hX⟩, Y₁, X₂, hY⟩ := singleEnv_places (plainPar densitySachsWolfe) halfBg
    (exactInts (fun _ => 1) (1 / 1000) (1 / 500)) 1 0 100 (1 / 2) (by norm_num) (by norm_num) (by norm_num [halfBg, plainBg]) (by norm_num)
  refine ⟨fun _ => 1, 1 / 1000, 1 / 500, exactInts (fun _ => 1) (1 / 1000) (1 / 500), plainPar densitySachsWolfe, halfBg, 1, 0, 100,
    1 / 2, X₁, Y₁, X₂, Y₂, h0, h1, continuous_const, hI, hF, rfl, rfl, by norm_num, by norm_num, by norm_num [halfBg, plainBg],
    by norm_num, by norm_num, hX, hY, ?_⟩
  have s1 := Real.sqrt_pos.2 q1
  have s2 := Real.sqrt_pos.2 q2
  have l1 : 0 < (SingleEnv.of (plainPar densitySachsWolfe) halfBg (exactInts (fun _ => 1) (1 / 1000) (1 / 500)) 1 0 100 (1 / 2)).lambda1 :=
    mul_pos p1 (by norm_num)
  have l2 : 0 < (SingleEnv.of (plainPar densitySachsWolfe) halfBg (exactInts (fun _ => 1) (1 / 1000) (1 / 500)) 1 0 100 (1 / 2)).lambda2 :=
    mul_pos p2 (by norm_num)
  rw [C66_single halfBg _ h0 h1.le continuousOn_const hI (plainPar densitySachsWolfe) hF 1 0 100 (1 / 2) (by norm_num) X₁ Y₁ X₂ Y₂ p1 p2
    q1.ne' q2.ne' hX hY (fun h => by simp [plainPar] at h) (fun h => by simp [plainPar, densitySachsWolfe] at h)]
  have hh : ∀ A, (plainPar densitySachsWolfe).correlation_contrib.atGalaxy A = decide (A = .den) := by intro A; cases A <;> rfl
  have ha : ∀ B, (plainPar densitySachsWolfe).correlation_contrib.along B = decide (B = .g5) := by intro B; cases B <;> rfl
  rw [sum_local]
  simp only [sum_along, hh, ha, decide_eq_true_eq, reduceCtorEq, false_and, and_false, if_false, and_self, if_true, zero_add, add_zero]
  rw [twoPoint_mixed h0 h1.le continuousOn_const hI _ _ _ _ _ s1 p1 l2 hX, twoPoint_mixed h0 h1.le continuousOn_const hI _ _ _ _ _ s1 p1 l2 hX,
    twoPoint_mixed_swap h0 h1.le continuousOn_const hI _ _ _ _ _ s2 p2 l1 hY,
    twoPoint_mixed_swap h0 h1.le continuousOn_const hI _ _ _ _ _ s2 p2 l1 hY]
  simp only [mixedTable_den_g5]
  intro h
  rw [← ofReal_add, ← ofReal_add, ofReal_inj] at h
  have r21 : (SingleEnv.of (plainPar densitySachsWolfe) halfBg (exactInts (fun _ => 1) (1 / 1000) (1 / 500)) 1 0 100 (1 / 2)).r21 = 255000 := by
    norm_num [SingleEnv.of, halfBg, plainBg]
  have r22 : (SingleEnv.of (plainPar densitySachsWolfe) halfBg (exactInts (fun _ => 1) (1 / 1000) (1 / 500)) 1 0 100 (1 / 2)).r22 = 255000 := by
    norm_num [SingleEnv.of, halfBg, plainBg]
  rw [r21, r22] at h
  have pos : 0 < (exactInts (fun _ => 1) (1 / 1000) (1 / 500)).I20.result (Real.sqrt 255000) := by
    refine exactInts_I20_pos h0 h1 (by positivity) ?_
    have : Real.sqrt 255000 < 1000 := (Real.sqrt_lt' (by norm_num)).2 (by norm_num)
    have := Real.pi_gt_three
    linarith
  generalize (exactInts (fun _ => 1) (1 / 1000) (1 / 500)).I20.result (Real.sqrt 255000) = J at h pos
  norm_num [SingleEnv.used1, SingleEnv.used2, SingleEnv.usedRay1, SingleEnv.usedRay2, SingleEnv.sample1, SingleEnv.sample2,
    SingleEnv.ray1, SingleEnv.ray2, SingleEnv.of, halfBg, plainBg, plainPar, potentialOf, Par.hubble, Par.omega, COFFE_H0] at h
  linarith

end Coffe
