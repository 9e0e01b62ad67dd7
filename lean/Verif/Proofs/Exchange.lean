import Verif.Model.Signal.NonIntegrated
import Verif.Model.Signal.SingleIntegrated
import Verif.Model.Signal.DoubleIntegrated
import Verif.Spec.Exchange
import Mathlib.Tactic.Ring
import Mathlib.Tactic.SplitIfs

/-!
# Helper lemmas for the population-exchange symmetry (C08-C10)

`NonEnv.swap` etc. describe what happens to the local variables of the C functions when the two
populations are exchanged and `mu` changes sign; one lemma per term.
-/

set_option linter.unusedSimpArgs false

namespace Coffe
open Classical

/-- Effect of the exchange on the locals of `functions_nonintegrated`. -/
abbrev NonEnv.swap (v : NonEnv) : NonEnv :=
  { z_mean := v.z_mean, mu := -v.mu, sep := v.sep, chi_mean := v.chi_mean
    chi1 := v.chi2, chi2 := v.chi1, costheta := v.costheta, z1 := v.z2, z2 := v.z1
    f1 := v.f2, f2 := v.f1, fmean := v.fmean, curlyH1 := v.curlyH2, curlyH2 := v.curlyH1
    curlyH_mean := v.curlyH_mean, b1 := v.b2, b2 := v.b1, bz_mean1 := v.bz_mean2
    bz_mean2 := v.bz_mean1, G1 := v.G2, G2 := v.G1, Gz_mean1 := v.Gz_mean2
    Gz_mean2 := v.Gz_mean1, s1 := v.s2, s2 := v.s1, fevo1 := v.fevo2, fevo2 := v.fevo1
    a1 := v.a2, a2 := v.a1 }

/-- Effect of the exchange on the locals of `functions_single_integrated`. -/
abbrev SingleEnv.swap (v : SingleEnv) : SingleEnv :=
  { z_mean := v.z_mean, mu := -v.mu, sep := v.sep, x := v.x, chi_mean := v.chi_mean
    chi1 := v.chi2, chi2 := v.chi1, costheta := v.costheta
    lambda1 := v.lambda2, lambda2 := v.lambda1, r21 := v.r22, r22 := v.r21
    z1_const := v.z2_const, z2_const := v.z1_const, z1 := v.z2, z2 := v.z1
    s1 := v.s2, s2 := v.s1, sz_mean1 := v.sz_mean2, sz_mean2 := v.sz_mean1
    b1 := v.b2, b2 := v.b1, bz_mean1 := v.bz_mean2, bz_mean2 := v.bz_mean1
    ren1 := v.ren2, ren2 := v.ren1 }

/-- Effect of the exchange on the locals of `functions_double_integrated`. -/
abbrev DoubleEnv.swap (v : DoubleEnv) : DoubleEnv :=
  { z_mean := v.z_mean, mu := -v.mu, sep := v.sep, x1 := v.x2, x2 := v.x1
    chi_mean := v.chi_mean, chi1 := v.chi2, chi2 := v.chi1, costheta := v.costheta
    lambda1 := v.lambda2, lambda2 := v.lambda1, r2 := v.r2
    z1_const := v.z2_const, z2_const := v.z1_const, z1 := v.z2, z2 := v.z1
    s1 := v.s2, s2 := v.s1, sz_mean1 := v.sz_mean2, sz_mean2 := v.sz_mean1, ren := v.ren }

theorem NonEnv.of_swap (par : Par) (bg : Bg) (z mu r : ℝ) :
    NonEnv.of par.swap bg.swap z (-mu) r = (NonEnv.of par bg z mu r).swap := by
  have e1 : ∀ c : ℝ, c - r * -mu / 2 = c + r * mu / 2 := fun c => by ring
  have e2 : ∀ c : ℝ, c + r * -mu / 2 = c - r * mu / 2 := fun c => by ring
  have e3 : -mu * -mu = mu * mu := by ring
  simp only [NonEnv.of, e1, e2, e3]

theorem SingleEnv.of_swap (par : Par) (bg : Bg) (I : Ints) (z mu r x : ℝ) :
    SingleEnv.of par.swap bg.swap I z (-mu) r x = (SingleEnv.of par bg I z mu r x).swap := by
  have e1 : ∀ c : ℝ, c - r * -mu / 2 = c + r * mu / 2 := fun c => by ring
  have e2 : ∀ c : ℝ, c + r * -mu / 2 = c - r * mu / 2 := fun c => by ring
  have e3 : -mu * -mu = mu * mu := by ring
  simp only [SingleEnv.of, e1, e2, e3]

theorem DoubleEnv.of_swap (par : Par) (bg : Bg) (I : Ints) (z mu r x1 x2 : ℝ)
    (hr : ∀ x y, I.I40.renormalization x y = I.I40.renormalization y x)
    (h0 : par.divergent = true → (DoubleEnv.of par bg I z mu r x1 x2).r2 ≤ (0.000001 : ℝ) ^ 2 →
      I.I40.renormalization_zero_separation (DoubleEnv.of par bg I z mu r x1 x2).lambda1 =
      I.I40.renormalization_zero_separation (DoubleEnv.of par bg I z mu r x1 x2).lambda2) :
    DoubleEnv.of par.swap bg.swap I z (-mu) r x2 x1 = (DoubleEnv.of par bg I z mu r x1 x2).swap := by
  have e1 : ∀ c : ℝ, c - r * -mu / 2 = c + r * mu / 2 := fun c => by ring
  have e2 : ∀ c : ℝ, c + r * -mu / 2 = c - r * mu / 2 := fun c => by ring
  have e3 : -mu * -mu = mu * mu := by ring
  have e4 : ∀ a b c : ℝ, a * a + b * b - 2 * a * b * c = b * b + a * a - 2 * b * a * c :=
    fun a b c => by ring
  simp only [DoubleEnv.of, e1, e2, e3] at h0 ⊢
  rw [e4]
  split_ifs at h0 ⊢ <;> simp_all

theorem legP1_neg (x : ℝ) : legP1 (-x) = -legP1 x := by unfold legP1; ring
theorem legP2_neg (x : ℝ) : legP2 (-x) = legP2 x := by unfold legP2; ring
theorem legP3_neg (x : ℝ) : legP3 (-x) = -legP3 x := by unfold legP3; ring
theorem legP4_neg (x : ℝ) : legP4 (-x) = legP4 x := by unfold legP4; ring

section
variable (par : Par) (bg : Bg) (I : Ints)

theorem swap_non_den_den (v : NonEnv)
    (hb : (par.b_derivative = true ∨ par.b_tilde_derivative = true) → v.bz_mean1 = v.bz_mean2) :
    non_den_den par.swap bg.swap I v.swap = non_den_den par bg I v := by
  simp only [non_den_den]
  split_ifs with h1 h2 h3 h4
  · ring1
  · rw [hb h4]
  all_goals ring1

theorem swap_non_rsd_rsd (v : NonEnv) :
    non_rsd_rsd par.swap bg.swap I v.swap = non_rsd_rsd par bg I v := by
  simp only [non_rsd_rsd, legP2_neg, legP4_neg]; split_ifs <;> ring1

theorem swap_non_d1_d1 (v : NonEnv) :
    non_d1_d1 par.swap bg.swap I v.swap = non_d1_d1 par bg I v := by
  simp only [non_d1_d1, legP2_neg]; split_ifs <;> ring1

theorem swap_non_d2_d2 (v : NonEnv)
    (hr : ∀ x y, I.I40.renormalization x y = I.I40.renormalization y x) :
    non_d2_d2 par.swap bg.swap I v.swap = non_d2_d2 par bg I v := by
  simp only [non_d2_d2, hr v.chi2 v.chi1]; split_ifs <;> ring1

theorem swap_non_g1_g1 (v : NonEnv)
    (hr : ∀ x y, I.I40.renormalization x y = I.I40.renormalization y x) :
    non_g1_g1 par.swap bg.swap I v.swap = non_g1_g1 par bg I v := by
  simp only [non_g1_g1, hr v.chi2 v.chi1]; split_ifs <;> ring1

theorem swap_non_g2_g2 (v : NonEnv)
    (hr : ∀ x y, I.I40.renormalization x y = I.I40.renormalization y x) :
    non_g2_g2 par.swap bg.swap I v.swap = non_g2_g2 par bg I v := by
  simp only [non_g2_g2, hr v.chi2 v.chi1]; split_ifs <;> ring1

theorem swap_non_g3_g3 (v : NonEnv)
    (hr : ∀ x y, I.I40.renormalization x y = I.I40.renormalization y x) :
    non_g3_g3 par.swap bg.swap I v.swap = non_g3_g3 par bg I v := by
  simp only [non_g3_g3, hr v.chi2 v.chi1]; split_ifs <;> ring1

theorem swap_non_den_rsd (v : NonEnv) :
    non_den_rsd par.swap bg.swap I v.swap = non_den_rsd par bg I v := by
  simp only [non_den_rsd, legP2_neg]; split_ifs <;> ring1

theorem swap_non_den_d1 (v : NonEnv) :
    non_den_d1 par.swap bg.swap I v.swap = non_den_d1 par bg I v := by
  simp only [non_den_d1, legP1_neg, neg_neg]; split_ifs <;> ring1

theorem swap_non_den_d2 (v : NonEnv) :
    non_den_d2 par.swap bg.swap I v.swap = non_den_d2 par bg I v := by
  simp only [non_den_d2]; split_ifs <;> ring1

theorem swap_non_den_g1 (v : NonEnv) :
    non_den_g1 par.swap bg.swap I v.swap = non_den_g1 par bg I v := by
  simp only [non_den_g1]; split_ifs <;> ring1

theorem swap_non_den_g2 (v : NonEnv) :
    non_den_g2 par.swap bg.swap I v.swap = non_den_g2 par bg I v := by
  simp only [non_den_g2]; split_ifs <;> ring1

theorem swap_non_den_g3 (v : NonEnv) :
    non_den_g3 par.swap bg.swap I v.swap = non_den_g3 par bg I v := by
  simp only [non_den_g3]; split_ifs <;> ring1

theorem swap_non_rsd_d1 (v : NonEnv) :
    non_rsd_d1 par.swap bg.swap I v.swap = non_rsd_d1 par bg I v := by
  simp only [non_rsd_d1, legP1_neg, legP3_neg, neg_neg]; split_ifs <;> ring1

theorem swap_non_rsd_d2 (v : NonEnv) :
    non_rsd_d2 par.swap bg.swap I v.swap = non_rsd_d2 par bg I v := by
  simp only [non_rsd_d2]; split_ifs <;> ring1

theorem swap_non_rsd_g1 (v : NonEnv) :
    non_rsd_g1 par.swap bg.swap I v.swap = non_rsd_g1 par bg I v := by
  simp only [non_rsd_g1]; split_ifs <;> ring1

theorem swap_non_rsd_g2 (v : NonEnv) :
    non_rsd_g2 par.swap bg.swap I v.swap = non_rsd_g2 par bg I v := by
  simp only [non_rsd_g2]; split_ifs <;> ring1

theorem swap_non_rsd_g3 (v : NonEnv) :
    non_rsd_g3 par.swap bg.swap I v.swap = non_rsd_g3 par bg I v := by
  simp only [non_rsd_g3]; split_ifs <;> ring1

theorem swap_non_d1_d2 (v : NonEnv) :
    non_d1_d2 par.swap bg.swap I v.swap = non_d1_d2 par bg I v := by
  simp only [non_d1_d2]; split_ifs <;> ring1

theorem swap_non_d1_g1 (v : NonEnv) :
    non_d1_g1 par.swap bg.swap I v.swap = non_d1_g1 par bg I v := by
  simp only [non_d1_g1]; split_ifs <;> ring1

theorem swap_non_d1_g2 (v : NonEnv) :
    non_d1_g2 par.swap bg.swap I v.swap = non_d1_g2 par bg I v := by
  simp only [non_d1_g2]; split_ifs <;> ring1

theorem swap_non_d1_g3 (v : NonEnv) :
    non_d1_g3 par.swap bg.swap I v.swap = non_d1_g3 par bg I v := by
  simp only [non_d1_g3]; split_ifs <;> ring1

theorem swap_non_d2_g1 (v : NonEnv)
    (hr : ∀ x y, I.I40.renormalization x y = I.I40.renormalization y x) :
    non_d2_g1 par.swap bg.swap I v.swap = non_d2_g1 par bg I v := by
  simp only [non_d2_g1, hr v.chi2 v.chi1]; split_ifs <;> ring1

theorem swap_non_d2_g2 (v : NonEnv)
    (hr : ∀ x y, I.I40.renormalization x y = I.I40.renormalization y x) :
    non_d2_g2 par.swap bg.swap I v.swap = non_d2_g2 par bg I v := by
  simp only [non_d2_g2, hr v.chi2 v.chi1]; split_ifs <;> ring1

theorem swap_non_d2_g3 (v : NonEnv)
    (hr : ∀ x y, I.I40.renormalization x y = I.I40.renormalization y x) :
    non_d2_g3 par.swap bg.swap I v.swap = non_d2_g3 par bg I v := by
  simp only [non_d2_g3, hr v.chi2 v.chi1]; split_ifs <;> ring1

theorem swap_non_g1_g2 (v : NonEnv)
    (hr : ∀ x y, I.I40.renormalization x y = I.I40.renormalization y x) :
    non_g1_g2 par.swap bg.swap I v.swap = non_g1_g2 par bg I v := by
  simp only [non_g1_g2, hr v.chi2 v.chi1]; split_ifs <;> ring1

theorem swap_non_g1_g3 (v : NonEnv)
    (hr : ∀ x y, I.I40.renormalization x y = I.I40.renormalization y x) :
    non_g1_g3 par.swap bg.swap I v.swap = non_g1_g3 par bg I v := by
  simp only [non_g1_g3, hr v.chi2 v.chi1]; split_ifs <;> ring1

theorem swap_non_g2_g3 (v : NonEnv)
    (hr : ∀ x y, I.I40.renormalization x y = I.I40.renormalization y x) :
    non_g2_g3 par.swap bg.swap I v.swap = non_g2_g3 par bg I v := by
  simp only [non_g2_g3, hr v.chi2 v.chi1]; split_ifs <;> ring1

theorem swap_single_den_len (v : SingleEnv)
    (hc : par.correlation_contrib.den = true → par.correlation_contrib.len = true →
      par.pk_type = .COFFE_PK_LINEAR ∨ (v.r21 ≠ 0 ∧ v.r22 ≠ 0)) :
    single_den_len par.swap bg.swap I v.swap = single_den_len par bg I v := by
  simp only [single_den_len, abs_neg, neg_mul_neg]
  by_cases g : par.correlation_contrib.den = true ∧ par.correlation_contrib.len = true
  swap
  · simp only [g, if_false]
  replace hc := hc g.1 g.2
  simp only [g, if_true, and_self]
  by_cases f : par.flatsky_local_nonlocal = true
  · simp only [f, ne_eq, not_true_eq_false, not_false_eq_true, and_true, and_false, true_and, false_and,
    if_true, if_false, and_self, Bool.false_eq_true]
    split_ifs <;> ring1
  · simp only [f, ne_eq, not_true_eq_false, not_false_eq_true, and_true, and_false, true_and, false_and,
    if_true, if_false, and_self, Bool.false_eq_true]
    rcases hc with hc | ⟨h1, h2⟩
    · by_cases h1 : v.r21 = 0 <;> by_cases h2 : v.r22 = 0 <;>
      simp only [h1, h2, hc, ne_eq, not_true_eq_false, not_false_eq_true, and_true, and_false, true_and, false_and,
    if_true, if_false, and_self, Bool.false_eq_true] <;> ring1
    · simp only [h1, h2, ne_eq, not_true_eq_false, not_false_eq_true, and_true, and_false, true_and, false_and,
    if_true, if_false, and_self, Bool.false_eq_true]
      split_ifs <;> ring1

theorem swap_single_rsd_len (v : SingleEnv) :
    single_rsd_len par.swap bg.swap I v.swap = single_rsd_len par bg I v := by
  simp only [single_rsd_len, abs_neg]
  by_cases g : par.correlation_contrib.rsd = true ∧ par.correlation_contrib.len = true
  swap
  · simp only [g, if_false]
  simp only [g, if_true, and_self]
  by_cases f : ¬ par.flatsky_local_nonlocal = true
  swap
  · simp only [f, if_false]
  simp only [f, if_true, not_false_eq_true]
  by_cases h1 : v.r21 = 0 <;> by_cases h2 : v.r22 = 0 <;>
    simp only [h1, h2, ne_eq, not_true_eq_false, not_false_eq_true, and_true, and_false, true_and, false_and,
    if_true, if_false, and_self, Bool.false_eq_true]
  · ring1
  · ring1
  · ring1
  · split_ifs <;> ring1

/-- The Doppler-lensing term is exchange symmetric only when the two populations have the same
Doppler amplitude and the same magnification bias at both positions. -/
theorem swap_single_d1_len (v : SingleEnv)
    (hg : par.correlation_contrib.d1 = true → par.correlation_contrib.len = true →
      (∀ z, bg.G1 z = bg.G2 z) ∧ v.s1 = v.s2) :
    single_d1_len par.swap bg.swap I v.swap = single_d1_len par bg I v := by
  simp only [single_d1_len]
  by_cases g : par.correlation_contrib.d1 = true ∧ par.correlation_contrib.len = true
  swap
  · simp only [g, if_false]
  obtain ⟨hG, hs⟩ := hg g.1 g.2
  simp only [g, if_true, and_self, hG, hs]
  by_cases f : ¬ par.flatsky_local_nonlocal = true
  swap
  · simp only [f, if_false]
  simp only [f, if_true, not_false_eq_true]
  rw [add_comm v.z2 v.z1_const, add_comm v.z2_const v.z1]
  by_cases h1 : v.r21 = 0 <;> by_cases h2 : v.r22 = 0 <;>
    simp only [h1, h2, ne_eq, not_true_eq_false, not_false_eq_true, and_true, and_false, true_and, false_and,
    if_true, if_false, and_self, Bool.false_eq_true] <;> split_ifs <;> ring1

theorem swap_single_d2_len (v : SingleEnv) :
    single_d2_len par.swap bg.swap I v.swap = single_d2_len par bg I v := by
  simp only [single_d2_len]; split_ifs <;> first | ring1 | (exfalso; tauto)

theorem swap_single_g1_len (v : SingleEnv) :
    single_g1_len par.swap bg.swap I v.swap = single_g1_len par bg I v := by
  simp only [single_g1_len]; split_ifs <;> first | ring1 | (exfalso; tauto)

theorem swap_single_g2_len (v : SingleEnv) :
    single_g2_len par.swap bg.swap I v.swap = single_g2_len par bg I v := by
  simp only [single_g2_len]; split_ifs <;> first | ring1 | (exfalso; tauto)

theorem swap_single_g3_len (v : SingleEnv) :
    single_g3_len par.swap bg.swap I v.swap = single_g3_len par bg I v := by
  simp only [single_g3_len]; split_ifs <;> first | ring1 | (exfalso; tauto)

theorem swap_single_den_g4 (v : SingleEnv) :
    single_den_g4 par.swap bg.swap I v.swap = single_den_g4 par bg I v := by
  simp only [single_den_g4]; split_ifs <;> first | ring1 | (exfalso; tauto)

theorem swap_single_den_g5 (v : SingleEnv) :
    single_den_g5 par.swap bg.swap I v.swap = single_den_g5 par bg I v := by
  simp only [single_den_g5]; split_ifs <;> first | ring1 | (exfalso; tauto)

theorem swap_single_rsd_g4 (v : SingleEnv) :
    single_rsd_g4 par.swap bg.swap I v.swap = single_rsd_g4 par bg I v := by
  simp only [single_rsd_g4]; split_ifs <;> first | ring1 | (exfalso; tauto)

theorem swap_single_rsd_g5 (v : SingleEnv) :
    single_rsd_g5 par.swap bg.swap I v.swap = single_rsd_g5 par bg I v := by
  simp only [single_rsd_g5]; split_ifs <;> first | ring1 | (exfalso; tauto)

theorem swap_single_d1_g4 (v : SingleEnv) :
    single_d1_g4 par.swap bg.swap I v.swap = single_d1_g4 par bg I v := by
  simp only [single_d1_g4]; split_ifs <;> first | ring1 | (exfalso; tauto)

theorem swap_single_d1_g5 (v : SingleEnv) :
    single_d1_g5 par.swap bg.swap I v.swap = single_d1_g5 par bg I v := by
  simp only [single_d1_g5]; split_ifs <;> first | ring1 | (exfalso; tauto)

theorem swap_single_d2_g4 (v : SingleEnv) :
    single_d2_g4 par.swap bg.swap I v.swap = single_d2_g4 par bg I v := by
  simp only [single_d2_g4]; split_ifs <;> first | ring1 | (exfalso; tauto)

theorem swap_single_d2_g5 (v : SingleEnv) :
    single_d2_g5 par.swap bg.swap I v.swap = single_d2_g5 par bg I v := by
  simp only [single_d2_g5]; split_ifs <;> first | ring1 | (exfalso; tauto)

theorem swap_single_g1_g4 (v : SingleEnv) :
    single_g1_g4 par.swap bg.swap I v.swap = single_g1_g4 par bg I v := by
  simp only [single_g1_g4]; split_ifs <;> first | ring1 | (exfalso; tauto)

theorem swap_single_g1_g5 (v : SingleEnv) :
    single_g1_g5 par.swap bg.swap I v.swap = single_g1_g5 par bg I v := by
  simp only [single_g1_g5]; split_ifs <;> first | ring1 | (exfalso; tauto)

theorem swap_single_g2_g4 (v : SingleEnv) :
    single_g2_g4 par.swap bg.swap I v.swap = single_g2_g4 par bg I v := by
  simp only [single_g2_g4]; split_ifs <;> first | ring1 | (exfalso; tauto)

theorem swap_single_g2_g5 (v : SingleEnv) :
    single_g2_g5 par.swap bg.swap I v.swap = single_g2_g5 par bg I v := by
  simp only [single_g2_g5]; split_ifs <;> first | ring1 | (exfalso; tauto)

theorem swap_single_g3_g4 (v : SingleEnv) :
    single_g3_g4 par.swap bg.swap I v.swap = single_g3_g4 par bg I v := by
  simp only [single_g3_g4]; split_ifs <;> first | ring1 | (exfalso; tauto)

theorem swap_single_g3_g5 (v : SingleEnv) :
    single_g3_g5 par.swap bg.swap I v.swap = single_g3_g5 par bg I v := by
  simp only [single_g3_g5]; split_ifs <;> first | ring1 | (exfalso; tauto)

theorem swap_double_len_len (v : DoubleEnv)
    (hf : par.correlation_contrib.len = true →
      ¬ (par.flatsky_nonlocal = true ∧ par.output_type ≠ .MULTIPOLES)) :
    double_len_len par.swap bg.swap I v.swap = double_len_len par bg I v := by
  simp only [double_len_len]
  by_cases g : par.correlation_contrib.len = true ∧ ¬ par.only_cross_correlations = true
  swap
  · simp only [g, if_false]
  replace hf := hf g.1
  by_cases f : par.flatsky_nonlocal = true
  · simp only [g, f, ne_eq, not_true_eq_false, not_false_eq_true, and_true, and_false, true_and, false_and,
    if_true, if_false, and_self, Bool.false_eq_true]
    by_cases m : par.output_type = .MULTIPOLES
    · simp only [m, ne_eq, not_true_eq_false, not_false_eq_true, and_true, and_false, true_and, false_and,
    if_true, if_false, and_self, Bool.false_eq_true]
    · exact absurd ⟨f, m⟩ hf
  simp only [g, f, ne_eq, not_true_eq_false, not_false_eq_true, and_true, and_false, true_and, false_and,
    if_true, if_false, and_self, Bool.false_eq_true]
  by_cases h1 : v.r2 > 1e-20 <;> simp only [h1, if_true, if_false]
  · split_ifs
    · rw [add_comm v.z2 v.z1]; ring1
    · ring1
  · split_ifs
    · rw [add_comm v.z2 v.z1]; ring1
    · ring1

theorem swap_double_g4_g4 (v : DoubleEnv) :
    double_g4_g4 par.swap bg.swap I v.swap = double_g4_g4 par bg I v := by
  simp only [double_g4_g4]; split_ifs <;> ring1

theorem swap_double_g5_g5 (v : DoubleEnv) :
    double_g5_g5 par.swap bg.swap I v.swap = double_g5_g5 par bg I v := by
  simp only [double_g5_g5]; split_ifs <;> ring1

theorem swap_double_g4_len (v : DoubleEnv) :
    double_g4_len par.swap bg.swap I v.swap = double_g4_len par bg I v := by
  simp only [double_g4_len]; split_ifs <;> ring1

theorem swap_double_g5_len (v : DoubleEnv) :
    double_g5_len par.swap bg.swap I v.swap = double_g5_len par bg I v := by
  simp only [double_g5_len]; split_ifs <;> ring1

theorem swap_double_g4_g5 (v : DoubleEnv) :
    double_g4_g5 par.swap bg.swap I v.swap = double_g4_g5 par bg I v := by
  simp only [double_g4_g5]; split_ifs <;> ring1

end

end Coffe
