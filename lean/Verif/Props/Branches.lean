import Verif.Proofs.Branches
import Verif.Props.Geometry
import Verif.Spec.Witness
import Mathlib.Tactic.FunProp
import Mathlib.Topology.Order.LeftRightNhds

/-!
# C18: the special-case branches agree with the formula they replace

A branch agrees with the formula it replaces when the integrand has no jump at the points where the branch is
taken: it is a continuous function of the position along the line of sight although its code is a case split.
-/

namespace Coffe
open Classical Topology Filter

/-- **C18, density-lensing.** For a radial pair and a linear spectrum the integrand is a continuous function of
the position on the line of sight, also at the points that coincide with one of the galaxies, where other
branches of the code are taken. -/
theorem C18_den_len_partial (par : Par) (bg : Bg) (I : Ints) (z mu r : ℝ) (hS : Smooth bg I) (hR : Radial bg z mu r)
    (hden : par.correlation_contrib.den = true) (hlen : par.correlation_contrib.len = true)
    (hfl : par.flatsky_local_nonlocal = false) (hpk : par.pk_type = .COFFE_PK_LINEAR) :
    Continuous fun x => single_den_len par bg I (SingleEnv.of par bg I z mu r x) := by
  have h : (fun x => single_den_len par bg I (SingleEnv.of par bg I z mu r x)) = _ := funext fun x =>
    den_len_radial par bg I _ (hR.cos par I x) (hR.r21 par I x) (hR.r22 par I x) hden hlen hfl hpk
  rw [h]
  have c1 := hS.z_as_chi
  have c2 := hS.D1
  have c3 := hS.a
  have c4 := hS.a_ne
  have c5 : Continuous I.I11.result := hS.result _
  simp only [SingleEnv.of]
  fun_prop (disch := intro; exact c4 _)

/-- **C18, Doppler-lensing.** -/
theorem C18_d1_len_partial (par : Par) (bg : Bg) (I : Ints) (z mu r : ℝ) (hS : Smooth bg I) (hR : Radial bg z mu r)
    (hd1 : par.correlation_contrib.d1 = true) (hlen : par.correlation_contrib.len = true)
    (hfl : par.flatsky_local_nonlocal = false)
    (hpk : ¬ (par.pk_type ≠ .COFFE_PK_LINEAR ∧ par.midpoint_approximation)) :
    Continuous fun x => single_d1_len par bg I (SingleEnv.of par bg I z mu r x) := by
  have h : (fun x => single_d1_len par bg I (SingleEnv.of par bg I z mu r x)) = _ := funext fun x =>
    d1_len_radial par bg I _ (hR.cos par I x) (hR.r21 par I x) (hR.r22 par I x) hd1 hlen hfl hpk
  rw [h]
  have c1 := hS.z_as_chi
  have c2 := hS.D1
  have c3 := hS.a
  have c4 := hS.a_ne
  have c5 : Continuous I.I11.result := hS.result _
  have c6 : Continuous I.I20.result := hS.result _
  have c7 : Continuous I.I13.result := hS.result _
  simp only [SingleEnv.of]
  fun_prop (disch := intro; exact c4 _)

/-- **C18, distortion-lensing.** The integrals with `l = 2, 4` vanish at zero separation, as the integrals of
the corresponding spherical Bessel functions do. -/
theorem C18_rsd_len_partial (par : Par) (bg : Bg) (I : Ints) (z mu r : ℝ) (hS : Smooth bg I) (hR : Radial bg z mu r)
    (hrsd : par.correlation_contrib.rsd = true) (hlen : par.correlation_contrib.len = true)
    (hfl : par.flatsky_local_nonlocal = false)
    (hpk : ¬ (par.pk_type ≠ .COFFE_PK_LINEAR ∧ par.midpoint_approximation))
    (h02 : I.I02.result 0 = 0) (h04 : I.I04.result 0 = 0) :
    Continuous fun x => single_rsd_len par bg I (SingleEnv.of par bg I z mu r x) := by
  have hm : |mu| = 1 := by rcases hR.dir with rfl | rfl <;> simp
  have h : (fun x => single_rsd_len par bg I (SingleEnv.of par bg I z mu r x)) = _ := funext fun x =>
    rsd_len_radial par bg I _ (hR.cos par I x) hm (hR.r21 par I x) (hR.r22 par I x) rfl rfl hR.chi.1.ne' hR.chi.2.ne'
      hrsd hlen hfl hpk h02 h04
  rw [h]
  have c1 := hS.z_as_chi
  have c2 := hS.D1
  have c3 := hS.a
  have c4 := hS.a_ne
  have c5 : Continuous I.I00.result := hS.result _
  have c6 : Continuous I.I02.result := hS.result _
  have c7 : Continuous I.I04.result := hS.result _
  simp only [SingleEnv.of]
  fun_prop (disch := intro; exact c4 _)

/-! The potential-lensing terms: the branch for coincident points is the general formula at those points. -/

theorem coincident {a b c : ℝ} (ha : 0 ≤ a) (hb : 0 ≤ b) (hc : |c| ≤ 1) (h : a * a + b * b - 2 * a * b * c = 0) :
    a * b * c = a * b ∧ a * a * b * b * (1 - c * c) = 0 := by
  obtain ⟨c1, c2⟩ := abs_le.1 hc
  have hcc : c * c ≤ 1 := by nlinarith
  have e1 : (a - b * c) ^ 2 = 0 := by
    have : 0 ≤ b ^ 2 * (1 - c * c) := mul_nonneg (sq_nonneg _) (by linarith)
    nlinarith [sq_nonneg (a - b * c)]
  have e2 : a = b * c := by have := pow_eq_zero_iff (two_ne_zero) |>.1 e1; linarith
  have e3 : b ^ 2 * (1 - c * c) = 0 := by rw [e2] at h; linarith
  refine ⟨?_, by nlinarith⟩
  rcases mul_eq_zero.1 e3 with h0 | h0
  · have : b = 0 := pow_eq_zero_iff (two_ne_zero) |>.1 h0
    simp [this]
  · have : (c - 1) * (c + 1) = 0 := by linarith
    rcases mul_eq_zero.1 this with h1 | h1
    · have : c = 1 := by linarith
      simp [this]
    · have hc' : c = -1 := by linarith
      have : b = 0 := by rw [hc'] at e2; linarith
      simp [this]

/-- **C18, potential-lensing (g4).** For every pair and every two points on its lines of sight the term is
given by one formula, coincident or not. -/
theorem C18_g4_len (par : Par) (bg : Bg) (I : Ints) (z mu r x1 x2 : ℝ) (h1 : |mu| ≤ 1) (h2 : 0 ≤ r)
    (h3 : r * |mu| < 2 * bg.comoving_distance z) (h4 : r ≤ 2 * bg.comoving_distance z) (hx1 : 0 ≤ x1) (hx2 : 0 ≤ x2)
    (hon : par.correlation_contrib.g4 = true ∧ par.correlation_contrib.len = true) :
    let v := DoubleEnv.of par bg I z mu r x1 x2
    double_g4_len par bg I v =
      9 * (par.Omega0_cdm + par.Omega0_baryon) ^ 2 / 2 * (2 - 5 * v.s1) * (2 - 5 * v.s2)
      * ((1 - x1) / x1 + (1 - x2) / x2) * bg.D1 v.z1 * bg.D1 v.z2 / bg.a v.z1 / bg.a v.z2
      * (2 * v.lambda1 * v.lambda2 * v.costheta * I.I31.result (Real.sqrt v.r2)
        - v.lambda1 * v.lambda1 * v.lambda2 * v.lambda2 * (1 - v.costheta * v.costheta)
          * I.I22.result (Real.sqrt v.r2)) := by
  intro v
  obtain ⟨-, -, ⟨p1, p2, -, -, pc⟩⟩ := C13_geometry par bg I z mu r x1 x2 h1 h2 h3 h4
  have hv1 : 0 ≤ v.lambda1 := mul_nonneg p1.le hx1
  have hv2 : 0 ≤ v.lambda2 := mul_nonneg p2.le hx2
  have hr2 : v.r2 = 0 → v.lambda1 * v.lambda1 + v.lambda2 * v.lambda2 - 2 * v.lambda1 * v.lambda2 * v.costheta = 0 := by
    intro h0
    have hn := triangle_nonneg pc (a := v.lambda2) (b := v.lambda1)
    have e : v.r2 = (if v.lambda1 * v.lambda1 + v.lambda2 * v.lambda2 - 2 * v.lambda1 * v.lambda2 * v.costheta < 0
      then 0 else v.lambda1 * v.lambda1 + v.lambda2 * v.lambda2 - 2 * v.lambda1 * v.lambda2 * v.costheta) := rfl
    have hn' : 0 ≤ v.lambda1 * v.lambda1 + v.lambda2 * v.lambda2 - 2 * v.lambda1 * v.lambda2 * v.costheta := by
      have : v.costheta = (DoubleEnv.of par bg I z mu r x1 x2).costheta := rfl
      rw [this]; linarith
    rw [if_neg (not_lt.2 hn')] at e
    rw [← e]; exact h0
  have hx : v.x1 = x1 := rfl
  have hx' : v.x2 = x2 := rfl
  unfold double_g4_len
  rw [if_pos hon]
  split_ifs with h0
  · rw [hx, hx']; ring
  · obtain ⟨q1, q2⟩ := coincident hv1 hv2 pc (hr2 (not_not.1 h0))
    rw [not_not.1 h0, Real.sqrt_zero, q2, hx, hx',
      show 2 * v.lambda1 * v.lambda2 * v.costheta = 2 * (v.lambda1 * v.lambda2 * v.costheta) by ring]
    have q1' : v.lambda1 * v.lambda2 * v.costheta = v.lambda1 * v.lambda2 := q1
    rw [q1']; ring

/-! The branches that do not agree. -/

/-- A function that has a jump is not continuous. -/
theorem jump {F G : ℝ → ℝ} {x : ℝ} {S : Set ℝ} [NeBot (𝓝[S] x)] (hF : ContinuousAt F x) (hG : ContinuousAt G x)
    (h : ∀ᶠ y in 𝓝[S] x, F y = G y) : F x = G x :=
  tendsto_nhds_unique ((hF.tendsto.mono_left nhdsWithin_le_nhds).congr' h) (hG.tendsto.mono_left nhdsWithin_le_nhds)

/-- Density, distortions and lensing. -/
noncomputable def wLens : Par :=
  { wPar with correlation_contrib := { Contrib.none with den := true, rsd := true, len := true } }

/-- **C18 fails for lensing-lensing.** The branch for (nearly) coincident points has the literal `4` where the
formula has `4 I20 / 3`, so the integrand jumps. -/
theorem C18_len_len_false : ∃ (par : Par) (bg : Bg) (I : Ints) (z x1 x2 : ℝ), Smooth bg I ∧ 0 < x1 ∧ x1 < x2 ∧
    x2 < 1 ∧ ¬ ContinuousAt (fun y => double_len_len par bg I (DoubleEnv.of par bg I z 1 0 x1 y)) x2 := by
  refine ⟨wLens, wBg, wOnly ⟨2, 0, .int, .int⟩, 1, 1 / 2, 1 / 2 + 1 / 10 ^ 10,
    ⟨continuous_id, continuous_const, continuous_const, fun _ => one_ne_zero, fun k => ?_, fun k => ?_⟩, by norm_num,
    by norm_num, by norm_num, fun hF => ?_⟩
  · unfold wOnly; split_ifs <;> exact continuous_const
  · unfold wOnly; split_ifs <;> exact continuous_const
  have r2 : ∀ y, (DoubleEnv.of wLens wBg (wOnly ⟨2, 0, .int, .int⟩) 1 1 0 (1 / 2) y).r2 = (y - 1 / 2) ^ 2 := by
    intro y
    have e : (1 : ℝ) / 2 * (1 / 2) + y * y - 2 * (1 / 2) * y = (y - 1 / 2) ^ 2 := by ring
    simp [DoubleEnv.of, wBg]
    rw [if_neg]
    · ring
    · rw [not_lt]; nlinarith [sq_nonneg (y - 1 / 2)]
  have far : ∀ y : ℝ, 1 / 2 + 1 / 10 ^ 10 < y → double_len_len wLens wBg (wOnly ⟨2, 0, .int, .int⟩)
      (DoubleEnv.of wLens wBg (wOnly ⟨2, 0, .int, .int⟩) 1 1 0 (1 / 2) y) = 6 * (1 - y) := by
    intro y hy
    unfold double_len_len
    rw [if_pos (by simp [wLens, wPar]), if_neg (by simp [wLens, wPar]), if_pos (by simp [wLens, wPar]), if_pos, if_neg]
    · simp [DoubleEnv.of, wLens, wPar, wBg, Ints.I20, Ints.I00, Ints.I11, Ints.I02, Ints.I13, Ints.I04, wOnly, wConst,
        wZero]
      ring
    · simp [wLens, wPar]
    · rw [r2]; norm_num at hy ⊢; nlinarith
  have near : double_len_len wLens wBg (wOnly ⟨2, 0, .int, .int⟩)
      (DoubleEnv.of wLens wBg (wOnly ⟨2, 0, .int, .int⟩) 1 1 0 (1 / 2) (1 / 2 + 1 / 10 ^ 10)) =
      18 * (1 - (1 / 2 + 1 / 10 ^ 10)) := by
    unfold double_len_len
    rw [if_pos (by simp [wLens, wPar]), if_neg (by simp [wLens, wPar]), if_pos (by simp [wLens, wPar]), if_neg, if_neg]
    · simp [DoubleEnv.of, wLens, wPar, wBg, Ints.I20, Ints.I00, Ints.I11, Ints.I02, Ints.I13, Ints.I04, wOnly, wConst,
        wZero]
      ring
    · simp [wLens, wPar]
    · rw [r2]; norm_num
  have := jump (S := Set.Ioi (1 / 2 + 1 / 10 ^ 10)) (G := fun y => 6 * (1 - y)) hF (by fun_prop)
    (eventually_nhdsWithin_of_forall far)
  rw [near] at this
  norm_num at this

/-- A non-linear spectrum in the midpoint approximation. -/
noncomputable def wClass : Par :=
  { wLens with pk_type := .COFFE_PK_NONLINEAR_HALOFIT, midpoint_approximation := true }

theorem wSmooth (k : Key) : Smooth wBg (wOnly k) := by
  refine ⟨continuous_id, continuous_const, continuous_const, fun _ => one_ne_zero, fun k => ?_, fun k => ?_⟩
  · unfold wOnly; split_ifs <;> exact continuous_const
  · unfold wOnly; split_ifs <;> exact continuous_const

theorem wRadial (mu : ℝ) (h : mu = 1 ∨ mu = -1) : Radial wBg 2 mu 2 :=
  ⟨h, two_pos, by simp [wBg]⟩

/-- A background with growth factor two. -/
noncomputable def wGrown : Bg := { wBg with D1 := fun _ => 2 }

theorem wGrownSmooth (k : Key) : Smooth wGrown (wOnly k) := by
  refine ⟨continuous_id, continuous_const, continuous_const, fun _ => one_ne_zero, fun k => ?_, fun k => ?_⟩
  · unfold wOnly; split_ifs <;> exact continuous_const
  · unfold wOnly; split_ifs <;> exact continuous_const

theorem wGrownRadial : Radial wGrown 2 1 2 := ⟨Or.inl rfl, two_pos, by simp [wBg, wGrown]⟩

theorem H0_ne : COFFE_H0 ≠ 0 := by unfold COFFE_H0; norm_num

/-- **C18 fails for density-lensing with a non-linear spectrum (midpoint approximation).** Where the line of
sight of the first galaxy passes the second one, the branch uses the integral `I02` in place of `I11`. -/
theorem C18_den_len_midpoint_false : ∃ (par : Par) (bg : Bg) (I : Ints) (z mu r x : ℝ), Smooth bg I ∧
    Radial bg z mu r ∧ 0 < x ∧ x < 1 ∧
    ¬ ContinuousAt (fun y => single_den_len par bg I (SingleEnv.of par bg I z mu r y)) x := by
  refine ⟨wClass, wBg, wOnly ⟨1, 1, .int, .int⟩, 2, -1, 2, 1 / 3, wSmooth _, wRadial _ (Or.inr rfl), by norm_num,
    by norm_num, fun hF => ?_⟩
  have hc := (wRadial (-1) (Or.inr rfl)).cos wClass (wOnly ⟨1, 1, .int, .int⟩)
  have h21 : ∀ y, (SingleEnv.of wClass wBg (wOnly ⟨1, 1, .int, .int⟩) 2 (-1) 2 y).r21 = (y - 3) ^ 2 := fun y => by
    rw [(wRadial (-1) (Or.inr rfl)).r21]; simp [SingleEnv.of, wBg]; ring
  have h22 : ∀ y, (SingleEnv.of wClass wBg (wOnly ⟨1, 1, .int, .int⟩) 2 (-1) 2 y).r22 = (3 * y - 1) ^ 2 := fun y => by
    rw [(wRadial (-1) (Or.inr rfl)).r22]; simp [SingleEnv.of, wBg]; ring
  have far : ∀ y : ℝ, y < 1 / 3 → single_den_len wClass wBg (wOnly ⟨1, 1, .int, .int⟩)
      (SingleEnv.of wClass wBg (wOnly ⟨1, 1, .int, .int⟩) 2 (-1) 2 y) = -54 * COFFE_H0 ^ 2 * (1 - y) := by
    intro y hy
    have n1 : (y - 3) ^ 2 ≠ 0 := pow_ne_zero _ (by linarith)
    have n2 : (3 * y - 1) ^ 2 ≠ 0 := pow_ne_zero _ (by linarith)
    unfold single_den_len
    rw [h21, h22]
    simp only [n1, n2, ne_eq, not_false_iff, and_self, if_true]
    rw [hc]
    simp [SingleEnv.of, wClass, wLens, wPar, wBg, Ints.I11, Ints.I02, wOnly, wConst, wZero]
    ring
  have near : single_den_len wClass wBg (wOnly ⟨1, 1, .int, .int⟩)
      (SingleEnv.of wClass wBg (wOnly ⟨1, 1, .int, .int⟩) 2 (-1) 2 (1 / 3)) = -12 * COFFE_H0 ^ 2 := by
    unfold single_den_len
    rw [h21, h22, hc]
    norm_num
    simp [SingleEnv.of, wClass, wLens, wPar, wBg, Ints.I11, Ints.I02, wOnly, wConst, wZero]
    ring
  have := jump (S := Set.Iio (1 / 3)) (G := fun y => -54 * COFFE_H0 ^ 2 * (1 - y)) hF (by fun_prop)
    (eventually_nhdsWithin_of_forall far)
  rw [near] at this
  have h0 : COFFE_H0 ^ 2 ≠ 0 := pow_ne_zero _ H0_ne
  apply h0; linarith

/-- **C18 fails for density-lensing with a non-linear spectrum without the midpoint approximation.** Where the
line of sight of the second galaxy passes the first one, the branch uses the two-dimensional integrals without
growth factors, everywhere else the code uses the one-dimensional ones with growth factors. -/
theorem C18_den_len_no_midpoint_false : ∃ (par : Par) (bg : Bg) (I : Ints) (z mu r x : ℝ), Smooth bg I ∧
    Radial bg z mu r ∧ 0 < x ∧ x < 1 ∧ par.midpoint_approximation = false ∧
    ¬ ContinuousAt (fun y => single_den_len par bg I (SingleEnv.of par bg I z mu r y)) x := by
  refine ⟨{ wClass with midpoint_approximation := false }, wGrown, wOnly ⟨1, 1, .int, .int⟩, 2, 1, 2, 1 / 3,
    wGrownSmooth _, wGrownRadial, by norm_num, by norm_num, rfl, fun hF => ?_⟩
  have hR : Radial wGrown 2 1 2 := wGrownRadial
  set par : Par := { wClass with midpoint_approximation := false } with hpar
  have hc := hR.cos par (wOnly ⟨1, 1, .int, .int⟩)
  have h21 : ∀ y, (SingleEnv.of par wGrown (wOnly ⟨1, 1, .int, .int⟩) 2 1 2 y).r21 = (3 * y - 1) ^ 2 := fun y => by
    rw [hR.r21]; simp [SingleEnv.of, wBg, wGrown]; ring
  have h22 : ∀ y, (SingleEnv.of par wGrown (wOnly ⟨1, 1, .int, .int⟩) 2 1 2 y).r22 = (y - 3) ^ 2 := fun y => by
    rw [hR.r22]; simp [SingleEnv.of, wBg, wGrown]; ring
  have far : ∀ y : ℝ, y < 1 / 3 → single_den_len par wGrown (wOnly ⟨1, 1, .int, .int⟩)
      (SingleEnv.of par wGrown (wOnly ⟨1, 1, .int, .int⟩) 2 1 2 y) = -216 * COFFE_H0 ^ 2 * (1 - y) := by
    intro y hy
    have n1 : (y - 3) ^ 2 ≠ 0 := pow_ne_zero _ (by linarith)
    have n2 : (3 * y - 1) ^ 2 ≠ 0 := pow_ne_zero _ (by linarith)
    unfold single_den_len
    rw [h21, h22]
    simp only [n1, n2, ne_eq, not_false_iff, and_self, if_true]
    rw [hc]
    simp [SingleEnv.of, hpar, wClass, wLens, wPar, wBg, wGrown, Ints.I11, Ints.I02, wOnly, wConst, wZero]
    ring
  have near : single_den_len par wGrown (wOnly ⟨1, 1, .int, .int⟩)
      (SingleEnv.of par wGrown (wOnly ⟨1, 1, .int, .int⟩) 2 1 2 (1 / 3)) = -36 * COFFE_H0 ^ 2 := by
    unfold single_den_len
    rw [h21, h22, hc]
    norm_num
    simp [SingleEnv.of, hpar, wClass, wLens, wPar, wBg, wGrown, Ints.I11, Ints.I02, wOnly, wConst, wZero]
    ring
  have := jump (S := Set.Iio (1 / 3)) (G := fun y => -216 * COFFE_H0 ^ 2 * (1 - y)) hF (by fun_prop)
    (eventually_nhdsWithin_of_forall far)
  rw [near] at this
  have h0 : COFFE_H0 ^ 2 ≠ 0 := pow_ne_zero _ H0_ne
  apply h0; linarith

/-- **C18 fails for distortion-lensing with a non-linear spectrum.** The branch for coincident points always
uses the linear spectrum and growth factors. -/
theorem C18_rsd_len_midpoint_false : ∃ (par : Par) (bg : Bg) (I : Ints) (z mu r x : ℝ), Smooth bg I ∧
    Radial bg z mu r ∧ 0 < x ∧ x < 1 ∧
    ¬ ContinuousAt (fun y => single_rsd_len par bg I (SingleEnv.of par bg I z mu r y)) x := by
  refine ⟨wClass, wGrown, wOnly ⟨0, 0, .int, .int⟩, 2, 1, 2, 1 / 3, wGrownSmooth _, wGrownRadial,
    by norm_num, by norm_num, fun hF => ?_⟩
  have hR : Radial wGrown 2 1 2 := wGrownRadial
  have hc := hR.cos wClass (wOnly ⟨0, 0, .int, .int⟩)
  have h21 : ∀ y, (SingleEnv.of wClass wGrown (wOnly ⟨0, 0, .int, .int⟩) 2 1 2 y).r21 = (3 * y - 1) ^ 2 := fun y => by
    rw [hR.r21]; simp [SingleEnv.of, wBg, wGrown]; ring
  have h22 : ∀ y, (SingleEnv.of wClass wGrown (wOnly ⟨0, 0, .int, .int⟩) 2 1 2 y).r22 = (y - 3) ^ 2 := fun y => by
    rw [hR.r22]; simp [SingleEnv.of, wBg, wGrown]; ring
  have far : ∀ y : ℝ, y < 1 / 3 → single_rsd_len wClass wGrown (wOnly ⟨0, 0, .int, .int⟩)
      (SingleEnv.of wClass wGrown (wOnly ⟨0, 0, .int, .int⟩) 2 1 2 y) =
        COFFE_H0 ^ 2 * (1 - y) * (40 * y - 36) / 5 := by
    intro y hy
    have n1 : (y - 3) ^ 2 ≠ 0 := pow_ne_zero _ (by linarith)
    have n2 : (3 * y - 1) ^ 2 ≠ 0 := pow_ne_zero _ (by linarith)
    unfold single_rsd_len
    rw [h21, h22]
    simp only [n1, n2, ne_eq, not_false_iff, and_self, if_true]
    rw [hc]
    simp [SingleEnv.of, wClass, wLens, wPar, wBg, wGrown, Ints.I00, Ints.I02, Ints.I04, wOnly, wConst, wZero]
    ring
  have near : single_rsd_len wClass wGrown (wOnly ⟨0, 0, .int, .int⟩)
      (SingleEnv.of wClass wGrown (wOnly ⟨0, 0, .int, .int⟩) 2 1 2 (1 / 3)) =
        4 * (COFFE_H0 ^ 2 * (1 - 1 / 3) * (40 * (1 / 3) - 36) / 5) := by
    unfold single_rsd_len
    rw [h21, h22, hc]
    norm_num
    simp [SingleEnv.of, wClass, wLens, wPar, wBg, wGrown, Ints.I00, Ints.I02, Ints.I04, wOnly, wConst, wZero]
    ring
  have := jump (S := Set.Iio (1 / 3)) (G := fun y => COFFE_H0 ^ 2 * (1 - y) * (40 * y - 36) / 5) hF (by fun_prop)
    (eventually_nhdsWithin_of_forall far)
  rw [near] at this
  have h0 : COFFE_H0 ^ 2 ≠ 0 := pow_ne_zero _ H0_ne
  apply h0; linarith

/-- **C18 fails for distortion-lensing at `|mu| = 0.999`.** From there on the code uses the radial value of
the `I04` coefficient; it is not the value of the formula used below. -/
theorem C18_rsd_len_radial_false : ∃ (par : Par) (bg : Bg) (I : Ints) (z r x : ℝ), Smooth bg I ∧ 0 < r ∧
    r < 2 * bg.comoving_distance z ∧ par.pk_type = .COFFE_PK_LINEAR ∧
    ¬ ContinuousAt (fun mu => single_rsd_len par bg I (SingleEnv.of par bg I z mu r x)) 0.999 := by
  refine ⟨wLens, wBg, wOnly ⟨0, 4, .int, .int⟩, 2, 2, 0, wSmooth _, by norm_num, by simp [wBg], rfl,
    fun hF => ?_⟩
  have h21 : ∀ mu, (SingleEnv.of wLens wBg (wOnly ⟨0, 4, .int, .int⟩) 2 mu 2 0).r21 = (2 - mu) ^ 2 := fun mu => by
    simp [SingleEnv.of, wBg]
    rw [if_neg (not_lt.2 (mul_self_nonneg _))]; ring
  have h22 : ∀ mu, (SingleEnv.of wLens wBg (wOnly ⟨0, 4, .int, .int⟩) 2 mu 2 0).r22 = (2 + mu) ^ 2 := fun mu => by
    simp [SingleEnv.of, wBg]
    rw [if_neg (not_lt.2 (mul_self_nonneg _))]; ring
  have hc : ∀ mu, (SingleEnv.of wLens wBg (wOnly ⟨0, 4, .int, .int⟩) 2 mu 2 0).costheta =
      (4 + 2 * mu ^ 2) / (8 - 2 * mu ^ 2) := fun mu => by
    simp only [SingleEnv.of, wBg]; congr 1 <;> ring
  have val : ∀ mu : ℝ, -0.999 < mu → mu < 1 → single_rsd_len wLens wBg (wOnly ⟨0, 4, .int, .int⟩)
      (SingleEnv.of wLens wBg (wOnly ⟨0, 4, .int, .int⟩) 2 mu 2 0) =
        COFFE_H0 ^ 2 * (24 * (2 - mu) * (2 + mu)) / 35 *
          (if mu < 0.999 then (4 + 2 * mu ^ 2) / (8 - 2 * mu ^ 2) else 1) := by
    intro mu a b
    have n1 : (2 - mu) ≠ 0 := by norm_num at a; linarith
    have n2 : (2 + mu) ≠ 0 := by norm_num at a; linarith
    have n1' : (2 - mu) ^ 2 ≠ 0 := pow_ne_zero _ n1
    have n2' : (2 + mu) ^ 2 ≠ 0 := pow_ne_zero _ n2
    have ha : (|mu| < 0.999) ↔ mu < 0.999 := by rw [abs_lt]; exact ⟨fun h => h.2, fun h => ⟨a, h⟩⟩
    unfold single_rsd_len
    rw [h21, h22, hc]
    have hmu : (SingleEnv.of wLens wBg (wOnly ⟨0, 4, .int, .int⟩) 2 mu 2 0).mu = mu := rfl
    simp only [n1', n2', ne_eq, not_false_iff, and_self, if_true, hmu, ha]
    by_cases hlt : mu < 0.999
    · rw [if_pos hlt, if_pos hlt]
      generalize (4 + 2 * mu ^ 2) / (8 - 2 * mu ^ 2) = c
      simp [SingleEnv.of, wLens, wPar, wBg, Ints.I00, Ints.I02, Ints.I04, wOnly, wConst, wZero]
      field_simp
      ring
    · rw [if_neg hlt, if_neg hlt]
      simp [SingleEnv.of, wLens, wPar, wBg, Ints.I00, Ints.I02, Ints.I04, wOnly, wConst, wZero]
      ring
  have hG : ContinuousAt (fun mu : ℝ => COFFE_H0 ^ 2 * (24 * (2 - mu) * (2 + mu)) / 35 *
      ((4 + 2 * mu ^ 2) / (8 - 2 * mu ^ 2))) 0.999 := by
    refine ContinuousAt.mul (by fun_prop) (ContinuousAt.div (by fun_prop) (by fun_prop) (by norm_num))
  haveI : NeBot (𝓝[Set.Ioo (-0.999 : ℝ) 0.999] 0.999) := right_nhdsWithin_Ioo_neBot (by norm_num)
  have := jump (S := Set.Ioo (-0.999) 0.999) hF hG
    (eventually_nhdsWithin_of_forall fun mu hm => by
      simpa [hm.2] using val mu hm.1 (hm.2.trans (by norm_num)))
  rw [val _ (by norm_num) (by norm_num), if_neg (lt_irrefl _)] at this
  have h0 : COFFE_H0 ^ 2 ≠ 0 := pow_ne_zero _ H0_ne
  apply h0
  norm_num at this
  linarith

/-- Non-vacuity: constant splines are smooth, a radial pair exists, and both branch points lie on the line of
sight. -/
example : Smooth wBg (wOnly ⟨1, 1, .int, .int⟩) ∧ Radial wBg 2 1 1 ∧ Radial wBg 2 (-1) 1 := by
  refine ⟨⟨continuous_id, continuous_const, continuous_const, fun _ => one_ne_zero, fun k => ?_, fun k => ?_⟩,
    ⟨Or.inl rfl, one_pos, ?_⟩, ⟨Or.inr rfl, one_pos, ?_⟩⟩
  · unfold wOnly; split_ifs <;> exact continuous_const
  · unfold wOnly; split_ifs <;> exact continuous_const
  · simp [wBg]; norm_num
  · simp [wBg]; norm_num

end Coffe
