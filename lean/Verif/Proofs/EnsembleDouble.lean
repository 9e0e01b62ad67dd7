import Verif.Proofs.EnsembleSingleSum
import Verif.Model.Signal.DoubleIntegrated

/-!
# The terms of `functions_double_integrated` through the tables
-/

namespace Coffe
open Complex Classical

/-- The point of the line of sight to the first galaxy. -/
noncomputable def DoubleEnv.ray1 (bg : Bg) (v : DoubleEnv) : Ray :=
  ⟨v.chi1, v.x1, v.s1, bg.G1 v.z1_const, bg.f v.z1, bg.conformal_Hz v.z1, bg.a v.z1, bg.D1 v.z1⟩
/-- The point of the line of sight to the second galaxy. -/
noncomputable def DoubleEnv.ray2 (bg : Bg) (v : DoubleEnv) : Ray :=
  ⟨v.chi2, v.x2, v.s2, bg.G2 v.z2_const, bg.f v.z2, bg.conformal_Hz v.z2, bg.a v.z2, bg.D1 v.z2⟩

/-- The two-point function of two effects along the lines of sight, through the tables. -/
noncomputable def lightTable (par : Par) (I : Ints) (q₁ q₂ : Ray) (l₁ l₂ r : ℝ) (A B : Along) : ℝ :=
  let R₁ := alongResponse par.hubble par.omega q₁ A
  let R₂ := alongResponse par.hubble par.omega q₂ B
  q₁.D * q₂.D * (tableSum I r (weights R₁ R₂ ((l₂ ^ 2 - l₁ ^ 2 - r ^ 2) / (2 * l₁ * r)) ((l₂ ^ 2 - l₁ ^ 2 + r ^ 2) / (2 * l₂ * r))
    (cosObserver l₁ l₂ r)) - R₁.potential * R₂.potential * I.I40.renormalization l₁ l₂)

/-- What the terms need: full sky, linear spectrum, places in front of the observer that do not coincide, and tables with
exact values. -/
structure DoubleEnv.Regular (par : Par) (I : Ints) (v : DoubleEnv) (r : ℝ) : Prop where
  full : par.FullSky
  pos1 : 0 < v.chi1
  pos2 : 0 < v.chi2
  posx1 : 0 < v.x1
  posx2 : 0 < v.x2
  lam1 : v.lambda1 = v.chi1 * v.x1
  lam2 : v.lambda2 = v.chi2 * v.x2
  posr : 0 < r
  er : v.r2 = r ^ 2
  cos : v.costheta = cosObserver v.lambda1 v.lambda2 r
  tables : TableRec I r

section terms
variable {par : Par} (bg : Bg) (I : Ints) {v : DoubleEnv} {r : ℝ}

/-- The points of the line of sight to the first galaxy, as the terms use them. -/
noncomputable def DoubleEnv.used1 (bg : Bg) (v : DoubleEnv) : Along → Along → Ray
  | .g5, .len => { v.ray1 bg with f := bg.conformal_Hz v.z1 }
  | _, _ => v.ray1 bg

/-- The points of the line of sight to the second galaxy, as the terms use them. -/
noncomputable def DoubleEnv.used2 (bg : Bg) (v : DoubleEnv) : Along → Along → Ray
  | .len, .g5 => { v.ray2 bg with f := bg.conformal_Hz v.z2 }
  | _, _ => v.ray2 bg

theorem DoubleEnv.used1_eq (v : DoubleEnv) {A B : Along} (h : ¬ (A = .g5 ∧ B = .len)) : v.used1 bg A B = v.ray1 bg := by
  cases A <;> cases B <;> first | (exfalso; simp at h; done) | rfl

theorem DoubleEnv.used2_eq (v : DoubleEnv) {A B : Along} (h : ¬ (A = .len ∧ B = .g5)) : v.used2 bg A B = v.ray2 bg := by
  cases A <;> cases B <;> first | (exfalso; simp at h; done) | rfl

/-- The value of one pair of effects, through the tables. -/
noncomputable def DoubleEnv.usedTable (par : Par) (bg : Bg) (I : Ints) (v : DoubleEnv) (r : ℝ) (A B : Along) : ℝ :=
  lightTable par I (v.used1 bg A B) (v.used2 bg A B) v.lambda1 v.lambda2 r A B

theorem double_len_len_eq (h : v.Regular par I r) (hr : 1e-20 < v.r2) :
    double_len_len par bg I v * (COFFE_H0 * par.h) ^ 4 = if par.correlation_contrib.len ∧ ¬ par.only_cross_correlations then
      v.usedTable par bg I r .len .len else 0 := by
  obtain ⟨full, pos1, pos2, posx1, posx2, lam1, lam2, posr, er, cos, tables⟩ := h
  have z : v.r2 ≠ 0 := by rw [er]; positivity
  unfold double_len_len
  rw [ite_mul, zero_mul]
  refine if_congr Iff.rfl ?_ rfl
  rw [if_neg (show ¬ (par.flatsky_nonlocal = true ∧ par.output_type ≠ .MULTIPOLES) by simp [full.2.2.1]),
    if_pos (show ¬ par.flatsky_nonlocal = true by simp [full.2.2.1]), if_pos hr, if_neg full.linear]
  simp only [er, Real.sqrt_sq posr.le, DoubleEnv.usedTable, DoubleEnv.used1, DoubleEnv.used2, lightTable, alongResponse,
    lensingResponse, delayResponse, sachsWolfeResponse, potentialOf, tableSum, weights, DoubleEnv.ray1, DoubleEnv.ray2,
    Par.omega, Par.hubble]
  simp only [tables.e04, tables.e20, tables.e13, tables.e02, cos, cosObserver, lam1, lam2]
  field_simp
  ring

theorem double_g4_g4_eq (h : v.Regular par I r)
    (hn : v.ren = I.I40.result r - I.I40.renormalization v.lambda1 v.lambda2) :
    double_g4_g4 par bg I v * (COFFE_H0 * par.h) ^ 4 = if par.correlation_contrib.g4 ∧ ¬ par.only_cross_correlations then
      v.usedTable par bg I r .g4 .g4 else 0 := by
  obtain ⟨full, pos1, pos2, posx1, posx2, lam1, lam2, posr, er, cos, tables⟩ := h
  have z : v.r2 ≠ 0 := by rw [er]; positivity
  unfold double_g4_g4
  rw [ite_mul, zero_mul]
  refine if_congr Iff.rfl ?_ rfl
  simp only [hn, er, Real.sqrt_sq posr.le, DoubleEnv.usedTable, DoubleEnv.used1, DoubleEnv.used2, lightTable, alongResponse,
    lensingResponse, delayResponse, sachsWolfeResponse, potentialOf, tableSum, weights, DoubleEnv.ray1, DoubleEnv.ray2,
    Par.omega, Par.hubble]
  simp only [tables.e04, tables.e20, tables.e13, tables.e02, cos, cosObserver, lam1, lam2]
  field_simp
  ring

theorem double_g5_g5_eq (h : v.Regular par I r)
    (hn : v.ren = I.I40.result r - I.I40.renormalization v.lambda1 v.lambda2) :
    double_g5_g5 par bg I v * (COFFE_H0 * par.h) ^ 4 = if par.correlation_contrib.g5 ∧ ¬ par.only_cross_correlations then
      v.usedTable par bg I r .g5 .g5 else 0 := by
  obtain ⟨full, pos1, pos2, posx1, posx2, lam1, lam2, posr, er, cos, tables⟩ := h
  have z : v.r2 ≠ 0 := by rw [er]; positivity
  unfold double_g5_g5
  rw [ite_mul, zero_mul]
  refine if_congr Iff.rfl ?_ rfl
  simp only [hn, er, Real.sqrt_sq posr.le, DoubleEnv.usedTable, DoubleEnv.used1, DoubleEnv.used2, lightTable, alongResponse,
    lensingResponse, delayResponse, sachsWolfeResponse, potentialOf, tableSum, weights, DoubleEnv.ray1, DoubleEnv.ray2,
    Par.omega, Par.hubble]
  simp only [tables.e04, tables.e20, tables.e13, tables.e02, cos, cosObserver, lam1, lam2]
  field_simp
  ring

theorem double_g4_len_eq (h : v.Regular par I r) :
    double_g4_len par bg I v * (COFFE_H0 * par.h) ^ 4 = if par.correlation_contrib.g4 ∧ par.correlation_contrib.len then
      v.usedTable par bg I r .g4 .len + v.usedTable par bg I r .len .g4 else 0 := by
  obtain ⟨full, pos1, pos2, posx1, posx2, lam1, lam2, posr, er, cos, tables⟩ := h
  have z : v.r2 ≠ 0 := by rw [er]; positivity
  unfold double_g4_len
  rw [ite_mul, zero_mul]
  refine if_congr Iff.rfl ?_ rfl
  rw [if_pos z]
  rw [mul_add, add_mul]
  refine congrArg₂ (· + ·) ?_ ?_
  · simp only [er, Real.sqrt_sq posr.le, DoubleEnv.usedTable, DoubleEnv.used1, DoubleEnv.used2, lightTable, alongResponse,
      lensingResponse, delayResponse, sachsWolfeResponse, potentialOf, tableSum, weights, DoubleEnv.ray1, DoubleEnv.ray2,
      Par.omega, Par.hubble]
    simp only [tables.e04, tables.e20, tables.e13, tables.e02, cos, cosObserver, lam1, lam2]
    field_simp
    ring
  · simp only [er, Real.sqrt_sq posr.le, DoubleEnv.usedTable, DoubleEnv.used1, DoubleEnv.used2, lightTable, alongResponse,
      lensingResponse, delayResponse, sachsWolfeResponse, potentialOf, tableSum, weights, DoubleEnv.ray1, DoubleEnv.ray2,
      Par.omega, Par.hubble]
    simp only [tables.e04, tables.e20, tables.e13, tables.e02, cos, cosObserver, lam1, lam2]
    field_simp
    ring

theorem double_g5_len_eq (h : v.Regular par I r) :
    double_g5_len par bg I v * (COFFE_H0 * par.h) ^ 4 = if par.correlation_contrib.g5 ∧ par.correlation_contrib.len then
      v.usedTable par bg I r .g5 .len + v.usedTable par bg I r .len .g5 else 0 := by
  obtain ⟨full, pos1, pos2, posx1, posx2, lam1, lam2, posr, er, cos, tables⟩ := h
  have z : v.r2 ≠ 0 := by rw [er]; positivity
  unfold double_g5_len
  rw [ite_mul, zero_mul]
  refine if_congr Iff.rfl ?_ rfl
  rw [if_pos z]
  rw [mul_add, add_mul]
  refine congrArg₂ (· + ·) ?_ ?_
  · simp only [er, Real.sqrt_sq posr.le, DoubleEnv.usedTable, DoubleEnv.used1, DoubleEnv.used2, lightTable, alongResponse,
      lensingResponse, delayResponse, sachsWolfeResponse, potentialOf, tableSum, weights, DoubleEnv.ray1, DoubleEnv.ray2,
      Par.omega, Par.hubble]
    simp only [tables.e04, tables.e20, tables.e13, tables.e02, cos, cosObserver, lam1, lam2]
    field_simp
    ring
  · simp only [er, Real.sqrt_sq posr.le, DoubleEnv.usedTable, DoubleEnv.used1, DoubleEnv.used2, lightTable, alongResponse,
      lensingResponse, delayResponse, sachsWolfeResponse, potentialOf, tableSum, weights, DoubleEnv.ray1, DoubleEnv.ray2,
      Par.omega, Par.hubble]
    simp only [tables.e04, tables.e20, tables.e13, tables.e02, cos, cosObserver, lam1, lam2]
    field_simp
    ring

theorem double_g4_g5_eq (h : v.Regular par I r)
    (hn : v.ren = I.I40.result r - I.I40.renormalization v.lambda1 v.lambda2) :
    double_g4_g5 par bg I v * (COFFE_H0 * par.h) ^ 4 = if par.correlation_contrib.g4 ∧ par.correlation_contrib.g5 then
      v.usedTable par bg I r .g4 .g5 + v.usedTable par bg I r .g5 .g4 else 0 := by
  obtain ⟨full, pos1, pos2, posx1, posx2, lam1, lam2, posr, er, cos, tables⟩ := h
  have z : v.r2 ≠ 0 := by rw [er]; positivity
  unfold double_g4_g5
  rw [ite_mul, zero_mul]
  refine if_congr Iff.rfl ?_ rfl
  rw [mul_add, add_mul]
  refine congrArg₂ (· + ·) ?_ ?_
  · simp only [hn, er, Real.sqrt_sq posr.le, DoubleEnv.usedTable, DoubleEnv.used1, DoubleEnv.used2, lightTable, alongResponse,
      lensingResponse, delayResponse, sachsWolfeResponse, potentialOf, tableSum, weights, DoubleEnv.ray1, DoubleEnv.ray2,
      Par.omega, Par.hubble]
    simp only [tables.e04, tables.e20, tables.e13, tables.e02, cos, cosObserver, lam1, lam2]
    field_simp
    ring
  · simp only [hn, er, Real.sqrt_sq posr.le, DoubleEnv.usedTable, DoubleEnv.used1, DoubleEnv.used2, lightTable, alongResponse,
      lensingResponse, delayResponse, sachsWolfeResponse, potentialOf, tableSum, weights, DoubleEnv.ray1, DoubleEnv.ray2,
      Par.omega, Par.hubble]
    simp only [tables.e04, tables.e20, tables.e13, tables.e02, cos, cosObserver, lam1, lam2]
    field_simp
    ring

/-- The value of all terms through the tables. -/
theorem double_result_eq (h : v.Regular par I r)
    (hn : par.correlation_contrib.g4 ∨ par.correlation_contrib.g5 →
      v.ren = I.I40.result r - I.I40.renormalization v.lambda1 v.lambda2)
    (hr : par.correlation_contrib.len → 1e-20 < v.r2) :
    double_result par bg I v * (COFFE_H0 * par.h) ^ 4 = ∑ A : Along, ∑ B : Along,
      if par.correlation_contrib.along A ∧ par.correlation_contrib.along B ∧ ¬ (A = B ∧ par.only_cross_correlations) then
        v.usedTable par bg I r A B else 0 := by
  have t_len : double_len_len par bg I v * (COFFE_H0 * par.h) ^ 4 = if par.correlation_contrib.len ∧ ¬ par.only_cross_correlations then
      v.usedTable par bg I r .len .len else 0 := by
    by_cases c : par.correlation_contrib.len ∧ ¬ par.only_cross_correlations
    · exact double_len_len_eq bg I h (hr c.1)
    · rw [double_len_len, if_neg c, if_neg c, zero_mul]
  have t_g4 : double_g4_g4 par bg I v * (COFFE_H0 * par.h) ^ 4 = if par.correlation_contrib.g4 ∧ ¬ par.only_cross_correlations then
      v.usedTable par bg I r .g4 .g4 else 0 := by
    by_cases c : par.correlation_contrib.g4 ∧ ¬ par.only_cross_correlations
    · exact double_g4_g4_eq bg I h (hn (by simp [c.1]))
    · rw [double_g4_g4, if_neg c, if_neg c, zero_mul]
  have t_g5 : double_g5_g5 par bg I v * (COFFE_H0 * par.h) ^ 4 = if par.correlation_contrib.g5 ∧ ¬ par.only_cross_correlations then
      v.usedTable par bg I r .g5 .g5 else 0 := by
    by_cases c : par.correlation_contrib.g5 ∧ ¬ par.only_cross_correlations
    · exact double_g5_g5_eq bg I h (hn (by simp [c.1]))
    · rw [double_g5_g5, if_neg c, if_neg c, zero_mul]
  have t_g4_g5 : double_g4_g5 par bg I v * (COFFE_H0 * par.h) ^ 4 = if par.correlation_contrib.g4 ∧ par.correlation_contrib.g5 then
      v.usedTable par bg I r .g4 .g5 + v.usedTable par bg I r .g5 .g4 else 0 := by
    by_cases c : par.correlation_contrib.g4 ∧ par.correlation_contrib.g5
    · exact double_g4_g5_eq bg I h (hn (by simp [c.1]))
    · rw [double_g4_g5, if_neg c, if_neg c, zero_mul]
  have pair : ∀ (a b : Bool) (x y : ℝ), (if a = true ∧ b = true then x + y else 0)
      = (if a = true ∧ b = true then x else 0) + (if b = true ∧ a = true then y else 0) := by
    intro a b x y
    cases a <;> cases b <;> simp
  rw [double_result]
  simp only [add_mul]
  rw [t_len, t_g4, t_g5, double_g4_len_eq bg I h, double_g5_len_eq bg I h, t_g4_g5]
  simp only [pair, sum_along, Contrib.along, reduceCtorEq, false_and, not_false_eq_true, and_true, true_and, and_self_left]
  ring

end terms

/-- A pair of effects along the lines of sight. -/
theorem twoPoint_light {P : ℝ → ℝ} {kmin kmax : ℝ} (h0 : 0 < kmin) (h1 : kmin ≤ kmax)
    (hP : ContinuousOn P (Set.Icc kmin kmax)) {I : Ints} (hI : ExactTables P kmin kmax I) (par : Par) (q₁ q₂ : Ray)
    (A B : Along) {X Y : Place} {r l₁ l₂ : ℝ} (hr : 0 < r) (hl₁ : 0 < l₁) (hl₂ : 0 < l₂) (hX : Places r l₁ l₂ X Y) :
    twoPoint P kmin kmax (lightResponse par.hubble par.omega q₁ A) X (lightResponse par.hubble par.omega q₂ B) Y =
      (lightTable par I q₁ q₂ l₁ l₂ r A B : ℝ) := by
  rw [lightResponse, lightResponse, twoPoint_scale h0 h1 hP hI _ _ _ _ hr hl₁ hl₂ hX, lightTable]

/-- The environment of the code is a triangle. -/
theorem doubleEnv_regular {P : ℝ → ℝ} {kmin kmax : ℝ} (h0 : 0 < kmin) (h1 : kmin ≤ kmax)
    (hP : ContinuousOn P (Set.Icc kmin kmax)) {I : Ints} (hI : ExactTables P kmin kmax I) {par : Par} (hF : par.FullSky)
    (bg : Bg) (z mu sep x1 x2 : ℝ) (hx1 : 0 < x1) (hx2 : 0 < x2) (p1 : 0 < (DoubleEnv.of par bg I z mu sep x1 x2).chi1)
    (p2 : 0 < (DoubleEnv.of par bg I z mu sep x1 x2).chi2) (n : (DoubleEnv.of par bg I z mu sep x1 x2).r2 ≠ 0) :
    (DoubleEnv.of par bg I z mu sep x1 x2).Regular par I (Real.sqrt (DoubleEnv.of par bg I z mu sep x1 x2).r2) := by
  have clamp : ∀ e : ℝ, (if e < 0 then 0 else e) ≠ 0 → 0 < e ∧ (if e < 0 then 0 else e) = e := by
    intro e he
    split_ifs at he ⊢ with hlt
    · exact absurd rfl he
    · exact ⟨lt_of_le_of_ne (not_lt.1 hlt) (Ne.symm he), rfl⟩
  have g := clamp _ n
  have q : 0 < (DoubleEnv.of par bg I z mu sep x1 x2).r2 := lt_of_lt_of_eq g.1 g.2.symm
  have f : (DoubleEnv.of par bg I z mu sep x1 x2).r2 = _ := g.2
  have r := Real.sqrt_pos.2 q
  have t := hI.recurrence h0 h1 hP r
  have l1 : 0 < (DoubleEnv.of par bg I z mu sep x1 x2).lambda1 := mul_pos p1 hx1
  have l2 : 0 < (DoubleEnv.of par bg I z mu sep x1 x2).lambda2 := mul_pos p2 hx2
  refine ⟨hF, p1, p2, hx1, hx2, rfl, rfl, r, (Real.sq_sqrt q.le).symm, ?_, ⟨t.1, t.2.1, t.2.2.1, t.2.2.2⟩⟩
  rw [cosObserver, Real.sq_sqrt q.le, f]
  change _ = ((DoubleEnv.of par bg I z mu sep x1 x2).lambda1 ^ 2 + (DoubleEnv.of par bg I z mu sep x1 x2).lambda2 ^ 2
    - ((DoubleEnv.of par bg I z mu sep x1 x2).lambda1 * (DoubleEnv.of par bg I z mu sep x1 x2).lambda1
      + (DoubleEnv.of par bg I z mu sep x1 x2).lambda2 * (DoubleEnv.of par bg I z mu sep x1 x2).lambda2
      - 2 * (DoubleEnv.of par bg I z mu sep x1 x2).lambda1 * (DoubleEnv.of par bg I z mu sep x1 x2).lambda2
        * (DoubleEnv.of par bg I z mu sep x1 x2).costheta)) / _
  field_simp
  ring

end Coffe
