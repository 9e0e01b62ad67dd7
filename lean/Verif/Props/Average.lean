import Verif.Spec.Average
import Verif.Spec.Witness
import Verif.Proofs.Dispatch
import Mathlib.Tactic.NormNum
import Mathlib.Tactic.Linarith
import Mathlib.Tactic.FieldSimp

/-!
# C59: the redshift-averaged multipoles

Vocabulary: `Verif/Spec/Average.lean`.
-/

namespace Coffe

/-- **C59, pairs inside the survey.**  At every quadrature point the two galaxies of the pair and its centre lie
inside the survey, if the separation fits into it. -/
theorem C59_inside (bg : Bg) (zmin zmax sep t mu : ℝ) (hb : bg.Inverse zmin zmax) (hz : zmin ≤ zmax)
    (hs : 0 ≤ sep) (hf : sep ≤ bg.comoving_distance zmax - bg.comoving_distance zmin)
    (ht : t ∈ Set.Icc (0 : ℝ) 1) (hmu : mu ∈ Set.Icc (-1 : ℝ) 1) :
    let z := average_z bg zmin zmax sep t
    z ∈ Set.Icc zmin zmax ∧
    bg.z_as_chi (bg.comoving_distance z - sep * mu / 2) ∈ Set.Icc zmin zmax ∧
    bg.z_as_chi (bg.comoving_distance z + sep * mu / 2) ∈ Set.Icc zmin zmax := by
  obtain ⟨t0, t1⟩ := ht
  obtain ⟨m0, m1⟩ := hmu
  obtain ⟨⟨a0, a1⟩, ea⟩ := hb.back (bg.comoving_distance zmin + sep / 2) ⟨by linarith, by linarith⟩
  obtain ⟨⟨b0, b1⟩, eb⟩ := hb.back (bg.comoving_distance zmax - sep / 2) ⟨by linarith, by linarith⟩
  simp only [average_z]
  generalize bg.z_as_chi (bg.comoving_distance zmin + sep / 2) = z1 at *
  generalize bg.z_as_chi (bg.comoving_distance zmax - sep / 2) = z2 at *
  have h12 : z1 ≤ z2 := by
    by_contra hlt
    have := hb.mono z2 ⟨b0, b1⟩ z1 ⟨a0, a1⟩ (not_le.1 hlt)
    rw [ea, eb] at this
    linarith
  have hc1 : z1 ≤ (z2 - z1) * t + z1 := by nlinarith [mul_nonneg (sub_nonneg.2 h12) t0]
  have hc2 : (z2 - z1) * t + z1 ≤ z2 := by nlinarith [mul_nonneg (sub_nonneg.2 h12) (sub_nonneg.2 t1)]
  generalize (z2 - z1) * t + z1 = z at *
  have hzi : z ∈ Set.Icc zmin zmax := ⟨a0.trans hc1, hc2.trans b1⟩
  have d1 : bg.comoving_distance zmin + sep / 2 ≤ bg.comoving_distance z := by
    rcases hc1.eq_or_lt with h | h
    · rw [← h, ea]
    · rw [← ea]; exact (hb.mono z1 ⟨a0, a1⟩ z hzi h).le
  have d2 : bg.comoving_distance z ≤ bg.comoving_distance zmax - sep / 2 := by
    rcases hc2.eq_or_lt with h | h
    · rw [h, eb]
    · rw [← eb]; exact (hb.mono z hzi z2 ⟨b0, b1⟩ h).le
  have e1 : sep * mu ≤ sep := by nlinarith
  have e2 : -sep ≤ sep * mu := by nlinarith
  exact ⟨hzi, (hb.back _ ⟨by linarith, by linarith⟩).1, (hb.back _ ⟨by linarith, by linarith⟩).1⟩

/-- **C59, nothing outside the survey matters.**  At every quadrature point the integrand of the non-integrated
effects is the same for two inputs that agree inside the survey. -/
theorem C59_survey_only (par par' : Par) (bg bg' : Bg) (I : Ints) (zmin zmax sep : ℝ) (l : ℕ) (var : ℕ → ℝ)
    (hsame : SameInside zmin zmax par par' bg bg') (hb : bg.Inverse zmin zmax) (hz : zmin ≤ zmax)
    (hs : 0 ≤ sep) (hf : sep ≤ bg.comoving_distance zmax - bg.comoving_distance zmin)
    (h0 : var 0 ∈ Set.Icc (0 : ℝ) 1) (h1 : var 1 ∈ Set.Icc (0 : ℝ) 1) :
    average_nonintegrated_integrand par' bg' I zmin zmax sep l var =
      average_nonintegrated_integrand par bg I zmin zmax sep l var := by
  obtain ⟨hset, ⟨hd1, hd2⟩, hbias, hback⟩ := hsame
  obtain ⟨i0, i1, i2⟩ := C59_inside bg zmin zmax sep (var 0) (2 * var 1 - 1) hb hz hs hf h0
    ⟨by linarith [h1.1], by linarith [h1.2]⟩
  have hza : average_z bg' = average_z bg := by unfold average_z; rw [hd1, hd2]
  have hw : average_weight par' bg' (average_z bg zmin zmax sep (var 0)) =
      average_weight par bg (average_z bg zmin zmax sep (var 0)) := by
    unfold average_weight
    rw [(hback _ i0).2.1, show par'.h = par.h by rw [hset]]
  simp only [average_nonintegrated_integrand, hza, hw]
  congr 2
  have hv : NonEnv.of par' bg' (average_z bg zmin zmax sep (var 0)) (2 * var 1 - 1) sep =
      NonEnv.of par bg (average_z bg zmin zmax sep (var 0)) (2 * var 1 - 1) sep := by
    obtain ⟨p1, p2, -, -, -, -⟩ := hbias _ i0
    obtain ⟨q1, -, q3, -, q5, -⟩ := hbias _ i1
    obtain ⟨-, r2, -, r4, -, r6⟩ := hbias _ i2
    obtain ⟨u1, u2, u3, u4, -, -⟩ := hback _ i0
    obtain ⟨v1, v2, v3, -, v5, -⟩ := hback _ i1
    obtain ⟨w1, w2, -, w4, w5, -⟩ := hback _ i2
    simp only [NonEnv.of, hd1, hd2, p1, p2, q1, q3, q5, r2, r4, r6, u1, u2, u3, u4, v1, v2, v3, v5, w1, w2, w4, w5]
  have hr : ∀ v, non_result par' bg' I v = non_result par bg I v := by
    intro v
    have : non_result par' bg' I v = non_result par' bg I v := rfl
    rw [this, hset]
    rfl
  have hg : non_growth par' bg' (NonEnv.of par bg (average_z bg zmin zmax sep (var 0)) (2 * var 1 - 1) sep) =
      non_growth par bg (NonEnv.of par bg (average_z bg zmin zmax sep (var 0)) (2 * var 1 - 1) sep) := by
    rw [hset]
    simp only [non_growth]
    have g0 := (hback _ i0).2.2.2.2.2
    have g1 := (hback _ i1).2.2.2.2.2
    have g2 := (hback _ i2).2.2.2.2.2
    simp only [NonEnv.of, g0, g1, g2]
  simp only [functions_nonintegrated, hv, hr, hg]

theorem single_output (par : Par) (hf : par.flatsky_local_nonlocal = false) (o : OutputType) (bg : Bg) (I : Ints)
    (z mu s x : ℝ) : functions_single_integrated { par with output_type := o } bg I z mu s x =
      functions_single_integrated par bg I z mu s x := by
  have h : ∀ v, single_den_len { par with output_type := o } bg I v = single_den_len par bg I v := by
    intro v
    unfold single_den_len
    simp only [hf, Bool.false_eq_true, false_and, if_false]
  have he : SingleEnv.of { par with output_type := o } bg I z mu s x = SingleEnv.of par bg I z mu s x := rfl
  simp only [functions_single_integrated, single_result, h, he]
  rfl

theorem double_output (par : Par) (hf : par.flatsky_nonlocal = false) (o : OutputType) (bg : Bg) (I : Ints)
    (z mu s x y : ℝ) : functions_double_integrated { par with output_type := o } bg I z mu s x y =
      functions_double_integrated par bg I z mu s x y := by
  have h : ∀ v, double_len_len { par with output_type := o } bg I v = double_len_len par bg I v := by
    intro v
    unfold double_len_len
    simp only [hf, Bool.false_eq_true, false_and, if_false]
  have he : DoubleEnv.of { par with output_type := o } bg I z mu s x y = DoubleEnv.of par bg I z mu s x y := rfl
  simp only [functions_double_integrated, double_result, h, he]
  rfl

theorem single_multi_gate_bits : ∀ den rsd len d1 d2 g1 g2 g3 g4 g5 : Bool,
    ((len && d2) || (len && g1) || (len && g2) || (len && g3)
      || (g4 && den) || (g4 && rsd) || (g4 && d1) || (g4 && d2) || (g4 && g1) || (g4 && g2) || (g4 && g3)
      || (g5 && den) || (g5 && rsd) || (g5 && d1) || (g5 && d2) || (g5 && g1) || (g5 && g2) || (g5 && g3)
      || ((den || rsd || d1) && len && !false)) =
    ((len && den) || (len && rsd) || (len && d1) || (len && d2) || (len && g1) || (len && g2) || (len && g3)
      || (g4 && den) || (g4 && rsd) || (g4 && d1) || (g4 && d2) || (g4 && g1) || (g4 && g2) || (g4 && g3)
      || (g5 && den) || (g5 && rsd) || (g5 && d1) || (g5 && d2) || (g5 && g1) || (g5 && g2) || (g5 && g3)) := by
  decide +kernel

theorem single_multi_gate_eq (par : Par) (hf : par.flatsky_local_nonlocal = false) :
    single_multi_gate par = single_gate par.correlation_contrib := by
  simp only [single_multi_gate, single_gate, hf]
  exact single_multi_gate_bits _ _ _ _ _ _ _ _ _ _

theorem double_multi_gate_eq (par : Par) (hf : par.flatsky_nonlocal = false) :
    double_multi_gate par = double_gate par.correlation_contrib := by
  rw [Bool.eq_iff_iff]
  simp only [double_multi_gate, double_gate, hf, Bool.or_eq_true, Bool.and_eq_true, Bool.not_false, and_true]
  tauto

/-- **C59, weighted mean.**  With a product quadrature rule and without the flat-sky approximation of the integrated
effects, the averaged multipole is the mean, over centres evenly spread between the first and the last redshift at
which the pair fits into the survey, of the multipole at the centre weighted with `H0 / H`. -/
theorem C59_mean (Q : Quad) (hP : Q.Product) (hA : Q.Additive) (hH : Q.Homogeneous) (par : Par) (bg : Bg) (I : Ints)
    (hf1 : par.flatsky_local_nonlocal = false) (hf2 : par.flatsky_nonlocal = false)
    (z zmin zmax sep mu : ℝ) (l : ℕ) :
    signal_value Q par bg I z zmin zmax sep mu l .AVERAGE_MULTIPOLES =
      Q.one (fun t =>
        let c := (1 - t) * firstCentre bg zmin sep + t * lastCentre bg zmax sep
        COFFE_H0 * par.h / bg.hubbleRate c *
          signal_value Q { par with output_type := .MULTIPOLES } bg I c zmin zmax sep mu l .MULTIPOLES) := by
  have hz : ∀ t, (1 - t) * firstCentre bg zmin sep + t * lastCentre bg zmax sep = average_z bg zmin zmax sep t := by
    intro t; unfold firstCentre lastCentre average_z; ring
  have hw : ∀ c, COFFE_H0 * par.h / bg.hubbleRate c = average_weight par bg c := by
    intro c; unfold average_weight Bg.hubbleRate; rw [div_div, mul_comm (bg.conformal_Hz c)]; ring
  simp only [hz, hw]
  have zero : (0 : ℝ) = Q.one (fun t => average_weight par bg (average_z bg zmin zmax sep t) * 0) := by
    have := hH.one 0 (fun _ => 0)
    simp only [zero_mul] at this
    simp only [mul_zero]; exact this.symm
  have p1 : coffe_integrate Q par bg I z zmin zmax sep mu l .NONINTEGRATED .AVERAGE_MULTIPOLES =
      Q.one (fun t => average_weight par bg (average_z bg zmin zmax sep t) *
        coffe_integrate Q { par with output_type := .MULTIPOLES } bg I (average_z bg zmin zmax sep t) zmin zmax sep mu l
          .NONINTEGRATED .MULTIPOLES) := by
    simp only [coffe_integrate]
    split_ifs with hg
    · simp only [integrate_non, hP.first, average_nonintegrated_integrand]
      rw [← hH.one]
      congr 1; funext t
      rw [← hH.one, ← hH.one, ← hH.one]
      congr 1; funext x
      show _ = average_weight par bg (average_z bg zmin zmax sep t) * ((2 * l + 1) *
        multipoles_nonintegrated_integrand par bg I (average_z bg zmin zmax sep t) sep l x)
      simp only [multipoles_nonintegrated_integrand, consCoord]
      ring
    · exact zero
  have p2 : coffe_integrate Q par bg I z zmin zmax sep mu l .SINGLE_INTEGRATED .AVERAGE_MULTIPOLES =
      Q.one (fun t => average_weight par bg (average_z bg zmin zmax sep t) *
        coffe_integrate Q { par with output_type := .MULTIPOLES } bg I (average_z bg zmin zmax sep t) zmin zmax sep mu l
          .SINGLE_INTEGRATED .MULTIPOLES) := by
    have g1 : single_flat_gate { par with output_type := .MULTIPOLES } = false := by
      simp [single_flat_gate, hf1]
    have g2 := single_multi_gate_eq { par with output_type := .MULTIPOLES } hf1
    simp only [coffe_integrate]
    split_ifs with hg
    · simp only [integrate_single, g1, g2, hg, if_true, Bool.false_eq_true, if_false, zero_add,
        hP.step 2 le_rfl, average_single_integrated_integrand]
      rw [← hH.one]
      congr 1; funext t
      rw [← hH.multi, ← hH.multi, ← hH.multi]
      congr 1; funext v
      simp only [multipoles_single_integrated_integrand, consCoord, single_output par hf1]
      ring
    · exact zero
  have p3 : coffe_integrate Q par bg I z zmin zmax sep mu l .DOUBLE_INTEGRATED .AVERAGE_MULTIPOLES =
      Q.one (fun t => average_weight par bg (average_z bg zmin zmax sep t) *
        coffe_integrate Q { par with output_type := .MULTIPOLES } bg I (average_z bg zmin zmax sep t) zmin zmax sep mu l
          .DOUBLE_INTEGRATED .MULTIPOLES) := by
    have g1 : double_flat_gate { par with output_type := .MULTIPOLES } l = false := by
      simp [double_flat_gate, hf2]
    have g2 := double_multi_gate_eq { par with output_type := .MULTIPOLES } hf2
    simp only [coffe_integrate]
    split_ifs with hg
    · simp only [integrate_double, g1, g2, hg, if_true, Bool.false_eq_true, if_false, zero_add,
        hP.step 3 (by norm_num), average_double_integrated_integrand]
      rw [← hH.one]
      congr 1; funext t
      rw [← hH.multi, ← hH.multi, ← hH.multi]
      congr 1; funext v
      simp only [multipoles_double_integrated_integrand, consCoord, double_output par hf2]
      ring
    · exact zero
  rw [signal_value, p1, p2, p3, ← hA.one, ← hA.one]
  congr 1; funext t
  simp only [Pi.add_apply, signal_value]
  ring

/-- **C59, not an average.**  The averaged multipole of a signal that does not depend on redshift is not that signal:
the weights `H0 / H` do not add up to one.  Here the expansion rate is `1 + z` times a constant and the rule evaluates
at the centre. -/
theorem C59_average_false : ¬ ∀ (Q : Quad) (par : Par) (bg : Bg) (I : Ints) (zmin zmax sep v : ℝ),
    Q.Product → Q.Additive → Q.Homogeneous → bg.Inverse zmin zmax → 0 < zmin → zmin < zmax → 0 < sep →
    sep ≤ bg.comoving_distance zmax - bg.comoving_distance zmin → Q.one (fun _ => 1) = 1 →
    (∀ c ∈ Set.Icc zmin zmax, signal_value Q { par with output_type := .MULTIPOLES } bg I c 0 0 sep 0 0 .MULTIPOLES = v) →
    signal_value Q par bg I 0 zmin zmax sep 0 0 .AVERAGE_MULTIPOLES = v := by
  intro h
  have := h (Quad.mk (fun f => f (1 / 2)) (fun _ f => f fun _ => 1 / 2))
    { wPar with correlation_contrib := { Contrib.none with den := true } } wBg (fun _ => wConst 1) 1 3 1 2
    ⟨fun g => by show g _ = g _; congr 1; funext n; cases n <;> rfl,
      fun n hn g => by show g _ = g _; congr 1; funext n; cases n <;> rfl⟩
    ⟨fun _ _ => rfl, fun _ _ _ => rfl⟩ ⟨fun _ _ => rfl, fun _ _ _ => rfl⟩
    ⟨fun x _ y _ hxy => hxy, fun c hc => ⟨hc, rfl⟩⟩ (by norm_num) (by norm_num) (by norm_num) (by norm_num [wBg]) rfl
    (by
      intro c hc
      simp [signal_value, coffe_integrate, integrate_non, non_gate, single_gate, double_gate,
        multipoles_nonintegrated_integrand, legWeight, functions_nonintegrated, non_result, non_growth, NonEnv.of, wPar,
        wBg, Contrib.none, non_den_den, non_rsd_rsd, non_d1_d1, non_d2_d2, non_g1_g1, non_g2_g2, non_g3_g3, non_den_rsd,
        non_den_d1, non_den_d2, non_den_g1, non_den_g2, non_den_g3, non_rsd_d1, non_rsd_d2, non_rsd_g1,
        non_rsd_g2, non_rsd_g3, non_d1_d2, non_d1_g1, non_d1_g2, non_d1_g3, non_d2_g1, non_d2_g2,
        non_d2_g3, non_g1_g2, non_g1_g3, non_g2_g3, Ints.I00, wConst])
  simp [signal_value, coffe_integrate, integrate_non, non_gate, single_gate, double_gate,
        average_nonintegrated_integrand, average_weight, average_z, COFFE_H0, legWeight, functions_nonintegrated, non_result, non_growth, NonEnv.of, wPar,
        wBg, Contrib.none, non_den_den, non_rsd_rsd, non_d1_d1, non_d2_d2, non_g1_g1, non_g2_g2, non_g3_g3, non_den_rsd,
        non_den_d1, non_den_d2, non_den_g1, non_den_g2, non_den_g3, non_rsd_d1, non_rsd_d2, non_rsd_g1,
        non_rsd_g2, non_rsd_g3, non_d1_d2, non_d1_g1, non_d1_g2, non_d1_g3, non_d2_g1, non_d2_g2,
        non_d2_g3, non_g1_g2, non_g1_g3, non_g2_g3, Ints.I00, wConst] at this
  norm_num at this

/-- Non-vacuity of C59: on the toy background a pair of separation 1 fits into the survey from 1 to 3. -/
example : wBg.Inverse 1 3 ∧ (1 : ℝ) ≤ wBg.comoving_distance 3 - wBg.comoving_distance 1 ∧
    SameInside 1 3 wPar { wPar with galaxy_bias1 := fun z => if z ≤ 3 then 1 else 2 } wBg wBg ∧
    average_z wBg 1 3 1 (1 / 2) = 2 := by
  refine ⟨⟨fun x _ y _ hxy => hxy, fun c hc => ⟨hc, rfl⟩⟩, by norm_num [wBg], ⟨rfl, ⟨rfl, rfl⟩, fun z hz => ?_, fun z hz => ?_⟩, ?_⟩
  · simp [wPar, hz.2]
  · simp
  · norm_num [average_z, wBg]

end Coffe
