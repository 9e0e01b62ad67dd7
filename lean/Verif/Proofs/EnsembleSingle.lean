import Verif.Proofs.EnsembleLocal
import Verif.Model.Signal.SingleIntegrated

/-!
# The terms of `functions_single_integrated` through the tables
-/

namespace Coffe
open Complex Classical

/-- The properties of the first galaxy. -/
noncomputable def SingleEnv.sample1 (par : Par) (bg : Bg) (v : SingleEnv) : Sample :=
  ⟨v.b1, bg.f v.z1_const, bg.conformal_Hz v.z1_const, bg.G1 v.z1_const, par.evolution_bias1 v.z1_const, v.s1, bg.a v.z1_const,
    bg.D1 v.z1_const⟩
/-- The properties of the second galaxy. -/
noncomputable def SingleEnv.sample2 (par : Par) (bg : Bg) (v : SingleEnv) : Sample :=
  ⟨v.b2, bg.f v.z2_const, bg.conformal_Hz v.z2_const, bg.G2 v.z2_const, par.evolution_bias2 v.z2_const, v.s2, bg.a v.z2_const,
    bg.D1 v.z2_const⟩
/-- The point of the line of sight to the first galaxy. -/
noncomputable def SingleEnv.ray1 (bg : Bg) (v : SingleEnv) : Ray :=
  ⟨v.chi1, v.x, v.s1, bg.G1 v.z1_const, bg.f v.z1, bg.conformal_Hz v.z1, bg.a v.z1, bg.D1 v.z1⟩
/-- The point of the line of sight to the second galaxy. -/
noncomputable def SingleEnv.ray2 (bg : Bg) (v : SingleEnv) : Ray :=
  ⟨v.chi2, v.x, v.s2, bg.G2 v.z2_const, bg.f v.z2, bg.conformal_Hz v.z2, bg.a v.z2, bg.D1 v.z2⟩

/-- The two-point function of a local effect at the distance `χ` and an effect along the line of sight at the distance `lam`,
through the tables. -/
noncomputable def mixedTable (par : Par) (I : Ints) (g : Sample) (q : Ray) (χ lam r : ℝ) (A : LocalEffect) (B : Along) : ℝ :=
  let R₁ := localResponse par.hubble par.omega g A
  let R₂ := alongResponse par.hubble par.omega q B
  g.D * q.D * (tableSum I r (weights R₁ R₂ ((lam ^ 2 - χ ^ 2 - r ^ 2) / (2 * χ * r)) ((lam ^ 2 - χ ^ 2 + r ^ 2) / (2 * lam * r))
    (cosObserver χ lam r)) - R₁.potential * R₂.potential * I.I40.renormalization lam χ)

/-- The recurrences between the tables at one separation. -/
structure TableRec (I : Ints) (r : ℝ) : Prop where
  e02 : I.I02.result r = 3 * I.I11.result r - I.I00.result r
  e13 : I.I13.result r = 5 * I.I22.result r - I.I11.result r
  e04 : I.I04.result r = 7 * I.I13.result r - I.I02.result r
  e20 : I.I20.result r = 3 * I.I31.result r - r ^ 2 * I.I22.result r

/-- What the terms need: full sky, linear spectrum, places in front of the observer, none of which coincide, and tables with
exact values. -/
structure SingleEnv.Regular (par : Par) (I : Ints) (v : SingleEnv) (r1 r2 : ℝ) : Prop where
  full : par.FullSky
  pos1 : 0 < v.chi1
  pos2 : 0 < v.chi2
  posx : 0 < v.x
  lam1 : v.lambda1 = v.chi1 * v.x
  lam2 : v.lambda2 = v.chi2 * v.x
  posr1 : 0 < r1
  posr2 : 0 < r2
  er1 : v.r21 = r1 ^ 2
  er2 : v.r22 = r2 ^ 2
  cos1 : v.costheta = cosObserver v.chi1 v.lambda2 r1
  cos2 : v.costheta = cosObserver v.chi2 v.lambda1 r2
  rec1 : TableRec I r1
  rec2 : TableRec I r2

section terms
variable {par : Par} (bg : Bg) (I : Ints) {v : SingleEnv} {r1 r2 : ℝ}

/-- The table value for the first galaxy and the line of sight to the second. -/
noncomputable abbrev SingleEnv.half1 (par : Par) (bg : Bg) (I : Ints) (v : SingleEnv) (r : ℝ) (A : LocalEffect) (B : Along) : ℝ :=
  mixedTable par I (v.sample1 par bg) (v.ray2 bg) v.chi1 v.lambda2 r A B

/-- The table value for the second galaxy and the line of sight to the first. -/
noncomputable abbrev SingleEnv.half2 (par : Par) (bg : Bg) (I : Ints) (v : SingleEnv) (r : ℝ) (A : LocalEffect) (B : Along) : ℝ :=
  mixedTable par I (v.sample2 par bg) (v.ray1 bg) v.chi2 v.lambda1 r A B

theorem single_den_len_eq (h : v.Regular par I r1 r2) :
    single_den_len par bg I v = if par.correlation_contrib.den ∧ par.correlation_contrib.len then
      v.half1 par bg I r1 .den .len
        + v.half2 par bg I r2 .den .len else 0 := by
  obtain ⟨full, pos1, pos2, posx, lam1, lam2, posr1, posr2, er1, er2, cos1, cos2, rec1, rec2⟩ := h
  have z1 : v.r21 ≠ 0 := by rw [er1]; positivity
  have z2 : v.r22 ≠ 0 := by rw [er2]; positivity
  unfold single_den_len
  refine if_congr Iff.rfl ?_ rfl
  rw [if_neg (show ¬ (par.flatsky_local_nonlocal = true ∧ par.output_type ≠ .MULTIPOLES) by simp [full.2.1]),
    if_pos (show ¬ par.flatsky_local_nonlocal = true by simp [full.2.1]), if_pos ⟨z1, z2⟩]
  rw [if_neg full.linear]
  rw [mul_add, mul_add]
  refine congrArg₂ (· + ·) ?_ ?_
  · simp only [er1, Real.sqrt_sq posr1.le, SingleEnv.half1, mixedTable, localResponse, alongResponse, lensingResponse, delayResponse,
      sachsWolfeResponse, potentialOf, tableSum, weights, SingleEnv.sample1, SingleEnv.ray2, Par.omega, Par.hubble]
    simp only [rec1.e04, rec1.e20, rec1.e13, rec1.e02, cos1, cosObserver, lam2]
    field_simp
    ring
  · simp only [er2, Real.sqrt_sq posr2.le, SingleEnv.half2, mixedTable, localResponse, alongResponse, lensingResponse, delayResponse,
      sachsWolfeResponse, potentialOf, tableSum, weights, SingleEnv.sample2, SingleEnv.ray1, Par.omega, Par.hubble]
    simp only [rec2.e04, rec2.e20, rec2.e13, rec2.e02, cos2, cosObserver, lam1]
    field_simp
    ring

theorem single_rsd_len_eq (h : v.Regular par I r1 r2) (hmu : |v.mu| < 0.999) :
    single_rsd_len par bg I v = if par.correlation_contrib.rsd ∧ par.correlation_contrib.len then
      v.half1 par bg I r1 .rsd .len
        + v.half2 par bg I r2 .rsd .len else 0 := by
  obtain ⟨full, pos1, pos2, posx, lam1, lam2, posr1, posr2, er1, er2, cos1, cos2, rec1, rec2⟩ := h
  have z1 : v.r21 ≠ 0 := by rw [er1]; positivity
  have z2 : v.r22 ≠ 0 := by rw [er2]; positivity
  unfold single_rsd_len
  refine if_congr Iff.rfl ?_ rfl
  rw [if_pos (show ¬ par.flatsky_local_nonlocal = true by simp [full.2.1]), if_pos ⟨z1, z2⟩]
  rw [if_neg full.linear, if_pos hmu, if_neg full.linear, ← mul_add, ← mul_add, add_add_add_comm]
  rw [mul_add, mul_add]
  refine congrArg₂ (· + ·) ?_ ?_
  · simp only [er1, Real.sqrt_sq posr1.le, SingleEnv.half1, mixedTable, localResponse, alongResponse, lensingResponse, delayResponse,
      sachsWolfeResponse, potentialOf, tableSum, weights, SingleEnv.sample1, SingleEnv.ray2, Par.omega, Par.hubble]
    simp only [rec1.e04, rec1.e20, rec1.e13, rec1.e02, cos1, cosObserver, lam2]
    field_simp
    ring
  · simp only [er2, Real.sqrt_sq posr2.le, SingleEnv.half2, mixedTable, localResponse, alongResponse, lensingResponse, delayResponse,
      sachsWolfeResponse, potentialOf, tableSum, weights, SingleEnv.sample2, SingleEnv.ray1, Par.omega, Par.hubble]
    simp only [rec2.e04, rec2.e20, rec2.e13, rec2.e02, cos2, cosObserver, lam1]
    field_simp
    ring

theorem single_d1_len_eq (h : v.Regular par I r1 r2) :
    single_d1_len par bg I v = if par.correlation_contrib.d1 ∧ par.correlation_contrib.len then
      mixedTable par I (v.sample1 par bg) (v.ray2 bg) v.chi1 v.lambda2 r1 .d1 .len
        + mixedTable par I { v.sample2 par bg with G := bg.G1 v.z2_const } { v.ray1 bg with s := v.s2 } v.chi2 v.lambda1 r2 .d1 .len else 0 := by
  obtain ⟨full, pos1, pos2, posx, lam1, lam2, posr1, posr2, er1, er2, cos1, cos2, rec1, rec2⟩ := h
  have z1 : v.r21 ≠ 0 := by rw [er1]; positivity
  have z2 : v.r22 ≠ 0 := by rw [er2]; positivity
  unfold single_d1_len
  refine if_congr Iff.rfl ?_ rfl
  rw [if_pos (show ¬ par.flatsky_local_nonlocal = true by simp [full.2.1]), if_pos ⟨z1, z2⟩]
  rw [if_neg full.linear]
  rw [mul_add, mul_add]
  refine congrArg₂ (· + ·) ?_ ?_
  · simp only [er1, Real.sqrt_sq posr1.le, SingleEnv.half1, mixedTable, localResponse, alongResponse, lensingResponse, delayResponse,
      sachsWolfeResponse, potentialOf, tableSum, weights, SingleEnv.sample1, SingleEnv.ray2, Par.omega, Par.hubble]
    simp only [rec1.e04, rec1.e20, rec1.e13, rec1.e02, cos1, cosObserver, lam2]
    field_simp
    ring
  · simp only [er2, Real.sqrt_sq posr2.le, SingleEnv.half2, mixedTable, localResponse, alongResponse, lensingResponse, delayResponse,
      sachsWolfeResponse, potentialOf, tableSum, weights, SingleEnv.sample2, SingleEnv.ray1, Par.omega, Par.hubble]
    simp only [rec2.e04, rec2.e20, rec2.e13, rec2.e02, cos2, cosObserver, lam1]
    field_simp
    ring

theorem single_d2_len_eq (h : v.Regular par I r1 r2) :
    single_d2_len par bg I v = if par.correlation_contrib.d2 ∧ par.correlation_contrib.len then
      v.half1 par bg I r1 .d2 .len
        + v.half2 par bg I r2 .d2 .len else 0 := by
  obtain ⟨full, pos1, pos2, posx, lam1, lam2, posr1, posr2, er1, er2, cos1, cos2, rec1, rec2⟩ := h
  have z1 : v.r21 ≠ 0 := by rw [er1]; positivity
  have z2 : v.r22 ≠ 0 := by rw [er2]; positivity
  unfold single_d2_len
  refine if_congr Iff.rfl ?_ rfl
  rw [mul_add, mul_add]
  refine congrArg₂ (· + ·) ?_ ?_
  · simp only [er1, Real.sqrt_sq posr1.le, SingleEnv.half1, mixedTable, localResponse, alongResponse, lensingResponse, delayResponse,
      sachsWolfeResponse, potentialOf, tableSum, weights, SingleEnv.sample1, SingleEnv.ray2, Par.omega, Par.hubble]
    simp only [rec1.e04, rec1.e20, rec1.e13, rec1.e02, cos1, cosObserver, lam2]
    field_simp
    ring
  · simp only [er2, Real.sqrt_sq posr2.le, SingleEnv.half2, mixedTable, localResponse, alongResponse, lensingResponse, delayResponse,
      sachsWolfeResponse, potentialOf, tableSum, weights, SingleEnv.sample2, SingleEnv.ray1, Par.omega, Par.hubble]
    simp only [rec2.e04, rec2.e20, rec2.e13, rec2.e02, cos2, cosObserver, lam1]
    field_simp
    ring

theorem single_g1_len_eq (h : v.Regular par I r1 r2) :
    single_g1_len par bg I v = if par.correlation_contrib.g1 ∧ par.correlation_contrib.len then
      mixedTable par I { v.sample1 par bg with a := 1 } (v.ray2 bg) v.chi1 v.lambda2 r1 .g1 .len
        + mixedTable par I { v.sample2 par bg with a := 1 } (v.ray1 bg) v.chi2 v.lambda1 r2 .g1 .len else 0 := by
  obtain ⟨full, pos1, pos2, posx, lam1, lam2, posr1, posr2, er1, er2, cos1, cos2, rec1, rec2⟩ := h
  have z1 : v.r21 ≠ 0 := by rw [er1]; positivity
  have z2 : v.r22 ≠ 0 := by rw [er2]; positivity
  unfold single_g1_len
  refine if_congr Iff.rfl ?_ rfl
  rw [mul_add, mul_add]
  refine congrArg₂ (· + ·) ?_ ?_
  · simp only [er1, Real.sqrt_sq posr1.le, SingleEnv.half1, mixedTable, localResponse, alongResponse, lensingResponse, delayResponse,
      sachsWolfeResponse, potentialOf, tableSum, weights, SingleEnv.sample1, SingleEnv.ray2, Par.omega, Par.hubble]
    simp only [rec1.e04, rec1.e20, rec1.e13, rec1.e02, cos1, cosObserver, lam2]
    field_simp
    ring
  · simp only [er2, Real.sqrt_sq posr2.le, SingleEnv.half2, mixedTable, localResponse, alongResponse, lensingResponse, delayResponse,
      sachsWolfeResponse, potentialOf, tableSum, weights, SingleEnv.sample2, SingleEnv.ray1, Par.omega, Par.hubble]
    simp only [rec2.e04, rec2.e20, rec2.e13, rec2.e02, cos2, cosObserver, lam1]
    field_simp
    ring

theorem single_g2_len_eq (h : v.Regular par I r1 r2) :
    single_g2_len par bg I v = if par.correlation_contrib.g2 ∧ par.correlation_contrib.len then
      mixedTable par I { v.sample1 par bg with a := 1 } (v.ray2 bg) v.chi1 v.lambda2 r1 .g2 .len
        + mixedTable par I { v.sample2 par bg with a := 1 } (v.ray1 bg) v.chi2 v.lambda1 r2 .g2 .len else 0 := by
  obtain ⟨full, pos1, pos2, posx, lam1, lam2, posr1, posr2, er1, er2, cos1, cos2, rec1, rec2⟩ := h
  have z1 : v.r21 ≠ 0 := by rw [er1]; positivity
  have z2 : v.r22 ≠ 0 := by rw [er2]; positivity
  unfold single_g2_len
  refine if_congr Iff.rfl ?_ rfl
  rw [mul_add, mul_add]
  refine congrArg₂ (· + ·) ?_ ?_
  · simp only [er1, Real.sqrt_sq posr1.le, SingleEnv.half1, mixedTable, localResponse, alongResponse, lensingResponse, delayResponse,
      sachsWolfeResponse, potentialOf, tableSum, weights, SingleEnv.sample1, SingleEnv.ray2, Par.omega, Par.hubble]
    simp only [rec1.e04, rec1.e20, rec1.e13, rec1.e02, cos1, cosObserver, lam2]
    field_simp
    ring
  · simp only [er2, Real.sqrt_sq posr2.le, SingleEnv.half2, mixedTable, localResponse, alongResponse, lensingResponse, delayResponse,
      sachsWolfeResponse, potentialOf, tableSum, weights, SingleEnv.sample2, SingleEnv.ray1, Par.omega, Par.hubble]
    simp only [rec2.e04, rec2.e20, rec2.e13, rec2.e02, cos2, cosObserver, lam1]
    field_simp
    ring

theorem single_g3_len_eq (h : v.Regular par I r1 r2) :
    single_g3_len par bg I v = if par.correlation_contrib.g3 ∧ par.correlation_contrib.len then
      mixedTable par I { v.sample1 par bg with a := 1 } (v.ray2 bg) v.chi1 v.lambda2 r1 .g3 .len
        + mixedTable par I { v.sample2 par bg with a := 1 } (v.ray1 bg) v.chi2 v.lambda1 r2 .g3 .len else 0 := by
  obtain ⟨full, pos1, pos2, posx, lam1, lam2, posr1, posr2, er1, er2, cos1, cos2, rec1, rec2⟩ := h
  have z1 : v.r21 ≠ 0 := by rw [er1]; positivity
  have z2 : v.r22 ≠ 0 := by rw [er2]; positivity
  unfold single_g3_len
  refine if_congr Iff.rfl ?_ rfl
  rw [mul_add, mul_add]
  refine congrArg₂ (· + ·) ?_ ?_
  · simp only [er1, Real.sqrt_sq posr1.le, SingleEnv.half1, mixedTable, localResponse, alongResponse, lensingResponse, delayResponse,
      sachsWolfeResponse, potentialOf, tableSum, weights, SingleEnv.sample1, SingleEnv.ray2, Par.omega, Par.hubble]
    simp only [rec1.e04, rec1.e20, rec1.e13, rec1.e02, cos1, cosObserver, lam2]
    field_simp
    ring
  · simp only [er2, Real.sqrt_sq posr2.le, SingleEnv.half2, mixedTable, localResponse, alongResponse, lensingResponse, delayResponse,
      sachsWolfeResponse, potentialOf, tableSum, weights, SingleEnv.sample2, SingleEnv.ray1, Par.omega, Par.hubble]
    simp only [rec2.e04, rec2.e20, rec2.e13, rec2.e02, cos2, cosObserver, lam1]
    field_simp
    ring

theorem single_den_g4_eq (h : v.Regular par I r1 r2) :
    single_den_g4 par bg I v = if par.correlation_contrib.den ∧ par.correlation_contrib.g4 then
      v.half1 par bg I r1 .den .g4
        + v.half2 par bg I r2 .den .g4 else 0 := by
  obtain ⟨full, pos1, pos2, posx, lam1, lam2, posr1, posr2, er1, er2, cos1, cos2, rec1, rec2⟩ := h
  have z1 : v.r21 ≠ 0 := by rw [er1]; positivity
  have z2 : v.r22 ≠ 0 := by rw [er2]; positivity
  unfold single_den_g4
  refine if_congr Iff.rfl ?_ rfl
  rw [mul_add, mul_add]
  refine congrArg₂ (· + ·) ?_ ?_
  · simp only [er1, Real.sqrt_sq posr1.le, SingleEnv.half1, mixedTable, localResponse, alongResponse, lensingResponse, delayResponse,
      sachsWolfeResponse, potentialOf, tableSum, weights, SingleEnv.sample1, SingleEnv.ray2, Par.omega, Par.hubble]
    simp only [rec1.e04, rec1.e20, rec1.e13, rec1.e02, cos1, cosObserver, lam2]
    field_simp
    ring
  · simp only [er2, Real.sqrt_sq posr2.le, SingleEnv.half2, mixedTable, localResponse, alongResponse, lensingResponse, delayResponse,
      sachsWolfeResponse, potentialOf, tableSum, weights, SingleEnv.sample2, SingleEnv.ray1, Par.omega, Par.hubble]
    simp only [rec2.e04, rec2.e20, rec2.e13, rec2.e02, cos2, cosObserver, lam1]
    field_simp
    ring

theorem single_den_g5_eq (h : v.Regular par I r1 r2) :
    single_den_g5 par bg I v = if par.correlation_contrib.den ∧ par.correlation_contrib.g5 then
      mixedTable par I (v.sample1 par bg) { v.ray2 bg with a := 1 / bg.a v.z2 } v.chi1 v.lambda2 r1 .den .g5
        + mixedTable par I (v.sample2 par bg) { v.ray1 bg with a := 1 / bg.a v.z1 } v.chi2 v.lambda1 r2 .den .g5 else 0 := by
  obtain ⟨full, pos1, pos2, posx, lam1, lam2, posr1, posr2, er1, er2, cos1, cos2, rec1, rec2⟩ := h
  have z1 : v.r21 ≠ 0 := by rw [er1]; positivity
  have z2 : v.r22 ≠ 0 := by rw [er2]; positivity
  unfold single_den_g5
  refine if_congr Iff.rfl ?_ rfl
  rw [mul_add, mul_add]
  refine congrArg₂ (· + ·) ?_ ?_
  · simp only [er1, Real.sqrt_sq posr1.le, SingleEnv.half1, mixedTable, localResponse, alongResponse, lensingResponse, delayResponse,
      sachsWolfeResponse, potentialOf, tableSum, weights, SingleEnv.sample1, SingleEnv.ray2, Par.omega, Par.hubble]
    simp only [rec1.e04, rec1.e20, rec1.e13, rec1.e02, cos1, cosObserver, lam2]
    field_simp
    ring
  · simp only [er2, Real.sqrt_sq posr2.le, SingleEnv.half2, mixedTable, localResponse, alongResponse, lensingResponse, delayResponse,
      sachsWolfeResponse, potentialOf, tableSum, weights, SingleEnv.sample2, SingleEnv.ray1, Par.omega, Par.hubble]
    simp only [rec2.e04, rec2.e20, rec2.e13, rec2.e02, cos2, cosObserver, lam1]
    field_simp
    ring

theorem single_rsd_g4_eq (h : v.Regular par I r1 r2) :
    single_rsd_g4 par bg I v = if par.correlation_contrib.rsd ∧ par.correlation_contrib.g4 then
      v.half1 par bg I r1 .rsd .g4
        + v.half2 par bg I r2 .rsd .g4 else 0 := by
  obtain ⟨full, pos1, pos2, posx, lam1, lam2, posr1, posr2, er1, er2, cos1, cos2, rec1, rec2⟩ := h
  have z1 : v.r21 ≠ 0 := by rw [er1]; positivity
  have z2 : v.r22 ≠ 0 := by rw [er2]; positivity
  unfold single_rsd_g4
  refine if_congr Iff.rfl ?_ rfl
  rw [mul_add, mul_add]
  refine congrArg₂ (· + ·) ?_ ?_
  · simp only [er1, Real.sqrt_sq posr1.le, SingleEnv.half1, mixedTable, localResponse, alongResponse, lensingResponse, delayResponse,
      sachsWolfeResponse, potentialOf, tableSum, weights, SingleEnv.sample1, SingleEnv.ray2, Par.omega, Par.hubble]
    simp only [rec1.e04, rec1.e20, rec1.e13, rec1.e02, cos1, cosObserver, lam2]
    field_simp
    ring
  · simp only [er2, Real.sqrt_sq posr2.le, SingleEnv.half2, mixedTable, localResponse, alongResponse, lensingResponse, delayResponse,
      sachsWolfeResponse, potentialOf, tableSum, weights, SingleEnv.sample2, SingleEnv.ray1, Par.omega, Par.hubble]
    simp only [rec2.e04, rec2.e20, rec2.e13, rec2.e02, cos2, cosObserver, lam1]
    field_simp
    ring

theorem single_rsd_g5_eq (h : v.Regular par I r1 r2) :
    single_rsd_g5 par bg I v = if par.correlation_contrib.rsd ∧ par.correlation_contrib.g5 then
      v.half1 par bg I r1 .rsd .g5
        + v.half2 par bg I r2 .rsd .g5 else 0 := by
  obtain ⟨full, pos1, pos2, posx, lam1, lam2, posr1, posr2, er1, er2, cos1, cos2, rec1, rec2⟩ := h
  have z1 : v.r21 ≠ 0 := by rw [er1]; positivity
  have z2 : v.r22 ≠ 0 := by rw [er2]; positivity
  unfold single_rsd_g5
  refine if_congr Iff.rfl ?_ rfl
  rw [mul_add, mul_add]
  refine congrArg₂ (· + ·) ?_ ?_
  · simp only [er1, Real.sqrt_sq posr1.le, SingleEnv.half1, mixedTable, localResponse, alongResponse, lensingResponse, delayResponse,
      sachsWolfeResponse, potentialOf, tableSum, weights, SingleEnv.sample1, SingleEnv.ray2, Par.omega, Par.hubble]
    simp only [rec1.e04, rec1.e20, rec1.e13, rec1.e02, cos1, cosObserver, lam2]
    field_simp
    ring
  · simp only [er2, Real.sqrt_sq posr2.le, SingleEnv.half2, mixedTable, localResponse, alongResponse, lensingResponse, delayResponse,
      sachsWolfeResponse, potentialOf, tableSum, weights, SingleEnv.sample2, SingleEnv.ray1, Par.omega, Par.hubble]
    simp only [rec2.e04, rec2.e20, rec2.e13, rec2.e02, cos2, cosObserver, lam1]
    field_simp
    ring

theorem single_d1_g4_eq (h : v.Regular par I r1 r2) :
    single_d1_g4 par bg I v = if par.correlation_contrib.d1 ∧ par.correlation_contrib.g4 then
      mixedTable par I { v.sample1 par bg with G := 1 } (v.ray2 bg) v.chi1 v.lambda2 r1 .d1 .g4
        + mixedTable par I { v.sample2 par bg with G := 1 } (v.ray1 bg) v.chi2 v.lambda1 r2 .d1 .g4 else 0 := by
  obtain ⟨full, pos1, pos2, posx, lam1, lam2, posr1, posr2, er1, er2, cos1, cos2, rec1, rec2⟩ := h
  have z1 : v.r21 ≠ 0 := by rw [er1]; positivity
  have z2 : v.r22 ≠ 0 := by rw [er2]; positivity
  unfold single_d1_g4
  refine if_congr Iff.rfl ?_ rfl
  rw [mul_add, mul_add]
  refine congrArg₂ (· + ·) ?_ ?_
  · simp only [er1, Real.sqrt_sq posr1.le, SingleEnv.half1, mixedTable, localResponse, alongResponse, lensingResponse, delayResponse,
      sachsWolfeResponse, potentialOf, tableSum, weights, SingleEnv.sample1, SingleEnv.ray2, Par.omega, Par.hubble]
    simp only [rec1.e04, rec1.e20, rec1.e13, rec1.e02, cos1, cosObserver, lam2]
    field_simp
    ring
  · simp only [er2, Real.sqrt_sq posr2.le, SingleEnv.half2, mixedTable, localResponse, alongResponse, lensingResponse, delayResponse,
      sachsWolfeResponse, potentialOf, tableSum, weights, SingleEnv.sample2, SingleEnv.ray1, Par.omega, Par.hubble]
    simp only [rec2.e04, rec2.e20, rec2.e13, rec2.e02, cos2, cosObserver, lam1]
    field_simp
    ring

theorem single_d1_g5_eq (h : v.Regular par I r1 r2) :
    single_d1_g5 par bg I v = if par.correlation_contrib.d1 ∧ par.correlation_contrib.g5 then
      mixedTable par I { v.sample1 par bg with G := 1 } (v.ray2 bg) v.chi1 v.lambda2 r1 .d1 .g5
        + mixedTable par I { v.sample2 par bg with G := 1 } (v.ray1 bg) v.chi2 v.lambda1 r2 .d1 .g5 else 0 := by
  obtain ⟨full, pos1, pos2, posx, lam1, lam2, posr1, posr2, er1, er2, cos1, cos2, rec1, rec2⟩ := h
  have z1 : v.r21 ≠ 0 := by rw [er1]; positivity
  have z2 : v.r22 ≠ 0 := by rw [er2]; positivity
  unfold single_d1_g5
  refine if_congr Iff.rfl ?_ rfl
  rw [mul_add, mul_add]
  refine congrArg₂ (· + ·) ?_ ?_
  · simp only [er1, Real.sqrt_sq posr1.le, SingleEnv.half1, mixedTable, localResponse, alongResponse, lensingResponse, delayResponse,
      sachsWolfeResponse, potentialOf, tableSum, weights, SingleEnv.sample1, SingleEnv.ray2, Par.omega, Par.hubble]
    simp only [rec1.e04, rec1.e20, rec1.e13, rec1.e02, cos1, cosObserver, lam2]
    field_simp
    ring
  · simp only [er2, Real.sqrt_sq posr2.le, SingleEnv.half2, mixedTable, localResponse, alongResponse, lensingResponse, delayResponse,
      sachsWolfeResponse, potentialOf, tableSum, weights, SingleEnv.sample2, SingleEnv.ray1, Par.omega, Par.hubble]
    simp only [rec2.e04, rec2.e20, rec2.e13, rec2.e02, cos2, cosObserver, lam1]
    field_simp
    ring

theorem single_d2_g4_eq (h : v.Regular par I r1 r2)
    (n1 : v.ren1 = I.I40.result r1 - I.I40.renormalization v.lambda2 v.chi1)
    (n2 : v.ren2 = I.I40.result r2 - I.I40.renormalization v.lambda1 v.chi2) :
    single_d2_g4 par bg I v = if par.correlation_contrib.d2 ∧ par.correlation_contrib.g4 then
      v.half1 par bg I r1 .d2 .g4
        + v.half2 par bg I r2 .d2 .g4 else 0 := by
  obtain ⟨full, pos1, pos2, posx, lam1, lam2, posr1, posr2, er1, er2, cos1, cos2, rec1, rec2⟩ := h
  have z1 : v.r21 ≠ 0 := by rw [er1]; positivity
  have z2 : v.r22 ≠ 0 := by rw [er2]; positivity
  unfold single_d2_g4
  refine if_congr Iff.rfl ?_ rfl
  rw [mul_add, mul_add]
  refine congrArg₂ (· + ·) ?_ ?_
  · simp only [n1, er1, Real.sqrt_sq posr1.le, SingleEnv.half1, mixedTable, localResponse, alongResponse, lensingResponse, delayResponse,
      sachsWolfeResponse, potentialOf, tableSum, weights, SingleEnv.sample1, SingleEnv.ray2, Par.omega, Par.hubble]
    simp only [rec1.e04, rec1.e20, rec1.e13, rec1.e02, cos1, cosObserver, lam2]
    field_simp
    ring
  · simp only [n2, er2, Real.sqrt_sq posr2.le, SingleEnv.half2, mixedTable, localResponse, alongResponse, lensingResponse, delayResponse,
      sachsWolfeResponse, potentialOf, tableSum, weights, SingleEnv.sample2, SingleEnv.ray1, Par.omega, Par.hubble]
    simp only [rec2.e04, rec2.e20, rec2.e13, rec2.e02, cos2, cosObserver, lam1]
    field_simp
    ring

theorem single_d2_g5_eq (h : v.Regular par I r1 r2)
    (n1 : v.ren1 = I.I40.result r1 - I.I40.renormalization v.lambda2 v.chi1)
    (n2 : v.ren2 = I.I40.result r2 - I.I40.renormalization v.lambda1 v.chi2) :
    single_d2_g5 par bg I v = if par.correlation_contrib.d2 ∧ par.correlation_contrib.g5 then
      v.half1 par bg I r1 .d2 .g5
        + v.half2 par bg I r2 .d2 .g5 else 0 := by
  obtain ⟨full, pos1, pos2, posx, lam1, lam2, posr1, posr2, er1, er2, cos1, cos2, rec1, rec2⟩ := h
  have z1 : v.r21 ≠ 0 := by rw [er1]; positivity
  have z2 : v.r22 ≠ 0 := by rw [er2]; positivity
  unfold single_d2_g5
  refine if_congr Iff.rfl ?_ rfl
  rw [mul_add, mul_add]
  refine congrArg₂ (· + ·) ?_ ?_
  · simp only [n1, er1, Real.sqrt_sq posr1.le, SingleEnv.half1, mixedTable, localResponse, alongResponse, lensingResponse, delayResponse,
      sachsWolfeResponse, potentialOf, tableSum, weights, SingleEnv.sample1, SingleEnv.ray2, Par.omega, Par.hubble]
    simp only [rec1.e04, rec1.e20, rec1.e13, rec1.e02, cos1, cosObserver, lam2]
    field_simp
    ring
  · simp only [n2, er2, Real.sqrt_sq posr2.le, SingleEnv.half2, mixedTable, localResponse, alongResponse, lensingResponse, delayResponse,
      sachsWolfeResponse, potentialOf, tableSum, weights, SingleEnv.sample2, SingleEnv.ray1, Par.omega, Par.hubble]
    simp only [rec2.e04, rec2.e20, rec2.e13, rec2.e02, cos2, cosObserver, lam1]
    field_simp
    ring

theorem single_g1_g4_eq (h : v.Regular par I r1 r2)
    (n1 : v.ren1 = I.I40.result r1 - I.I40.renormalization v.lambda2 v.chi1)
    (n2 : v.ren2 = I.I40.result r2 - I.I40.renormalization v.lambda1 v.chi2) :
    single_g1_g4 par bg I v = if par.correlation_contrib.g1 ∧ par.correlation_contrib.g4 then
      v.half1 par bg I r1 .g1 .g4
        + v.half2 par bg I r2 .g1 .g4 else 0 := by
  obtain ⟨full, pos1, pos2, posx, lam1, lam2, posr1, posr2, er1, er2, cos1, cos2, rec1, rec2⟩ := h
  have z1 : v.r21 ≠ 0 := by rw [er1]; positivity
  have z2 : v.r22 ≠ 0 := by rw [er2]; positivity
  unfold single_g1_g4
  refine if_congr Iff.rfl ?_ rfl
  rw [mul_add, mul_add]
  refine congrArg₂ (· + ·) ?_ ?_
  · simp only [n1, er1, Real.sqrt_sq posr1.le, SingleEnv.half1, mixedTable, localResponse, alongResponse, lensingResponse, delayResponse,
      sachsWolfeResponse, potentialOf, tableSum, weights, SingleEnv.sample1, SingleEnv.ray2, Par.omega, Par.hubble]
    simp only [rec1.e04, rec1.e20, rec1.e13, rec1.e02, cos1, cosObserver, lam2]
    field_simp
    ring
  · simp only [n2, er2, Real.sqrt_sq posr2.le, SingleEnv.half2, mixedTable, localResponse, alongResponse, lensingResponse, delayResponse,
      sachsWolfeResponse, potentialOf, tableSum, weights, SingleEnv.sample2, SingleEnv.ray1, Par.omega, Par.hubble]
    simp only [rec2.e04, rec2.e20, rec2.e13, rec2.e02, cos2, cosObserver, lam1]
    field_simp
    ring

theorem single_g1_g5_eq (h : v.Regular par I r1 r2)
    (n1 : v.ren1 = I.I40.result r1 - I.I40.renormalization v.lambda2 v.chi1)
    (n2 : v.ren2 = I.I40.result r2 - I.I40.renormalization v.lambda1 v.chi2) :
    single_g1_g5 par bg I v = if par.correlation_contrib.g1 ∧ par.correlation_contrib.g5 then
      v.half1 par bg I r1 .g1 .g5
        + v.half2 par bg I r2 .g1 .g5 else 0 := by
  obtain ⟨full, pos1, pos2, posx, lam1, lam2, posr1, posr2, er1, er2, cos1, cos2, rec1, rec2⟩ := h
  have z1 : v.r21 ≠ 0 := by rw [er1]; positivity
  have z2 : v.r22 ≠ 0 := by rw [er2]; positivity
  unfold single_g1_g5
  refine if_congr Iff.rfl ?_ rfl
  rw [mul_add, mul_add]
  refine congrArg₂ (· + ·) ?_ ?_
  · simp only [n1, er1, Real.sqrt_sq posr1.le, SingleEnv.half1, mixedTable, localResponse, alongResponse, lensingResponse, delayResponse,
      sachsWolfeResponse, potentialOf, tableSum, weights, SingleEnv.sample1, SingleEnv.ray2, Par.omega, Par.hubble]
    simp only [rec1.e04, rec1.e20, rec1.e13, rec1.e02, cos1, cosObserver, lam2]
    field_simp
    ring
  · simp only [n2, er2, Real.sqrt_sq posr2.le, SingleEnv.half2, mixedTable, localResponse, alongResponse, lensingResponse, delayResponse,
      sachsWolfeResponse, potentialOf, tableSum, weights, SingleEnv.sample2, SingleEnv.ray1, Par.omega, Par.hubble]
    simp only [rec2.e04, rec2.e20, rec2.e13, rec2.e02, cos2, cosObserver, lam1]
    field_simp
    ring

theorem single_g2_g4_eq (h : v.Regular par I r1 r2)
    (n1 : v.ren1 = I.I40.result r1 - I.I40.renormalization v.lambda2 v.chi1)
    (n2 : v.ren2 = I.I40.result r2 - I.I40.renormalization v.lambda1 v.chi2) :
    single_g2_g4 par bg I v = if par.correlation_contrib.g2 ∧ par.correlation_contrib.g4 then
      v.half1 par bg I r1 .g2 .g4
        + v.half2 par bg I r2 .g2 .g4 else 0 := by
  obtain ⟨full, pos1, pos2, posx, lam1, lam2, posr1, posr2, er1, er2, cos1, cos2, rec1, rec2⟩ := h
  have z1 : v.r21 ≠ 0 := by rw [er1]; positivity
  have z2 : v.r22 ≠ 0 := by rw [er2]; positivity
  unfold single_g2_g4
  refine if_congr Iff.rfl ?_ rfl
  rw [mul_add, mul_add]
  refine congrArg₂ (· + ·) ?_ ?_
  · simp only [n1, er1, Real.sqrt_sq posr1.le, SingleEnv.half1, mixedTable, localResponse, alongResponse, lensingResponse, delayResponse,
      sachsWolfeResponse, potentialOf, tableSum, weights, SingleEnv.sample1, SingleEnv.ray2, Par.omega, Par.hubble]
    simp only [rec1.e04, rec1.e20, rec1.e13, rec1.e02, cos1, cosObserver, lam2]
    field_simp
    ring
  · simp only [n2, er2, Real.sqrt_sq posr2.le, SingleEnv.half2, mixedTable, localResponse, alongResponse, lensingResponse, delayResponse,
      sachsWolfeResponse, potentialOf, tableSum, weights, SingleEnv.sample2, SingleEnv.ray1, Par.omega, Par.hubble]
    simp only [rec2.e04, rec2.e20, rec2.e13, rec2.e02, cos2, cosObserver, lam1]
    field_simp
    ring

theorem single_g2_g5_eq (h : v.Regular par I r1 r2)
    (n1 : v.ren1 = I.I40.result r1 - I.I40.renormalization v.lambda2 v.chi1)
    (n2 : v.ren2 = I.I40.result r2 - I.I40.renormalization v.lambda1 v.chi2) :
    single_g2_g5 par bg I v = if par.correlation_contrib.g2 ∧ par.correlation_contrib.g5 then
      v.half1 par bg I r1 .g2 .g5
        + v.half2 par bg I r2 .g2 .g5 else 0 := by
  obtain ⟨full, pos1, pos2, posx, lam1, lam2, posr1, posr2, er1, er2, cos1, cos2, rec1, rec2⟩ := h
  have z1 : v.r21 ≠ 0 := by rw [er1]; positivity
  have z2 : v.r22 ≠ 0 := by rw [er2]; positivity
  unfold single_g2_g5
  refine if_congr Iff.rfl ?_ rfl
  rw [mul_add, mul_add]
  refine congrArg₂ (· + ·) ?_ ?_
  · simp only [n1, er1, Real.sqrt_sq posr1.le, SingleEnv.half1, mixedTable, localResponse, alongResponse, lensingResponse, delayResponse,
      sachsWolfeResponse, potentialOf, tableSum, weights, SingleEnv.sample1, SingleEnv.ray2, Par.omega, Par.hubble]
    simp only [rec1.e04, rec1.e20, rec1.e13, rec1.e02, cos1, cosObserver, lam2]
    field_simp
    ring
  · simp only [n2, er2, Real.sqrt_sq posr2.le, SingleEnv.half2, mixedTable, localResponse, alongResponse, lensingResponse, delayResponse,
      sachsWolfeResponse, potentialOf, tableSum, weights, SingleEnv.sample2, SingleEnv.ray1, Par.omega, Par.hubble]
    simp only [rec2.e04, rec2.e20, rec2.e13, rec2.e02, cos2, cosObserver, lam1]
    field_simp
    ring

theorem single_g3_g4_eq (h : v.Regular par I r1 r2)
    (n1 : v.ren1 = I.I40.result r1 - I.I40.renormalization v.lambda2 v.chi1)
    (n2 : v.ren2 = I.I40.result r2 - I.I40.renormalization v.lambda1 v.chi2) :
    single_g3_g4 par bg I v = if par.correlation_contrib.g3 ∧ par.correlation_contrib.g4 then
      v.half1 par bg I r1 .g3 .g4
        + v.half2 par bg I r2 .g3 .g4 else 0 := by
  obtain ⟨full, pos1, pos2, posx, lam1, lam2, posr1, posr2, er1, er2, cos1, cos2, rec1, rec2⟩ := h
  have z1 : v.r21 ≠ 0 := by rw [er1]; positivity
  have z2 : v.r22 ≠ 0 := by rw [er2]; positivity
  unfold single_g3_g4
  refine if_congr Iff.rfl ?_ rfl
  rw [mul_add, mul_add]
  refine congrArg₂ (· + ·) ?_ ?_
  · simp only [n1, er1, Real.sqrt_sq posr1.le, SingleEnv.half1, mixedTable, localResponse, alongResponse, lensingResponse, delayResponse,
      sachsWolfeResponse, potentialOf, tableSum, weights, SingleEnv.sample1, SingleEnv.ray2, Par.omega, Par.hubble]
    simp only [rec1.e04, rec1.e20, rec1.e13, rec1.e02, cos1, cosObserver, lam2]
    field_simp
    ring
  · simp only [n2, er2, Real.sqrt_sq posr2.le, SingleEnv.half2, mixedTable, localResponse, alongResponse, lensingResponse, delayResponse,
      sachsWolfeResponse, potentialOf, tableSum, weights, SingleEnv.sample2, SingleEnv.ray1, Par.omega, Par.hubble]
    simp only [rec2.e04, rec2.e20, rec2.e13, rec2.e02, cos2, cosObserver, lam1]
    field_simp
    ring

theorem single_g3_g5_eq (h : v.Regular par I r1 r2)
    (n1 : v.ren1 = I.I40.result r1 - I.I40.renormalization v.lambda2 v.chi1)
    (n2 : v.ren2 = I.I40.result r2 - I.I40.renormalization v.lambda1 v.chi2) :
    single_g3_g5 par bg I v = if par.correlation_contrib.g3 ∧ par.correlation_contrib.g5 then
      v.half1 par bg I r1 .g3 .g5
        + v.half2 par bg I r2 .g3 .g5 else 0 := by
  obtain ⟨full, pos1, pos2, posx, lam1, lam2, posr1, posr2, er1, er2, cos1, cos2, rec1, rec2⟩ := h
  have z1 : v.r21 ≠ 0 := by rw [er1]; positivity
  have z2 : v.r22 ≠ 0 := by rw [er2]; positivity
  unfold single_g3_g5
  refine if_congr Iff.rfl ?_ rfl
  rw [mul_add, mul_add]
  refine congrArg₂ (· + ·) ?_ ?_
  · simp only [n1, er1, Real.sqrt_sq posr1.le, SingleEnv.half1, mixedTable, localResponse, alongResponse, lensingResponse, delayResponse,
      sachsWolfeResponse, potentialOf, tableSum, weights, SingleEnv.sample1, SingleEnv.ray2, Par.omega, Par.hubble]
    simp only [rec1.e04, rec1.e20, rec1.e13, rec1.e02, cos1, cosObserver, lam2]
    field_simp
    ring
  · simp only [n2, er2, Real.sqrt_sq posr2.le, SingleEnv.half2, mixedTable, localResponse, alongResponse, lensingResponse, delayResponse,
      sachsWolfeResponse, potentialOf, tableSum, weights, SingleEnv.sample2, SingleEnv.ray1, Par.omega, Par.hubble]
    simp only [rec2.e04, rec2.e20, rec2.e13, rec2.e02, cos2, cosObserver, lam1]
    field_simp
    ring

end terms

end Coffe
