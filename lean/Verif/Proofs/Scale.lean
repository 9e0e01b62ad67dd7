import Verif.Spec.Scale
import Verif.Model.Signal.Dispatch
import Mathlib.Tactic.Ring

/-! # Helper lemmas: every term is linear in the integrals and quadratic in the growth factor

Generated from the list of terms. -/

namespace Coffe
open Classical
set_option linter.unusedSimpArgs false
set_option linter.unusedVariables false
set_option linter.unusedTactic false
set_option linter.unnecessarySeqFocus false
set_option linter.unreachableTactic false

theorem ite_scale {p : Prop} [Decidable p] {x y x' y' c : ℝ} (h1 : p → x' = c * x) (h2 : ¬ p → y' = c * y) :
    (if p then x' else y') = c * (if p then x else y) := by
  by_cases h : p
  · rw [if_pos h, if_pos h]; exact h1 h
  · rw [if_neg h, if_neg h]; exact h2 h

/-- The lensing-lensing term is not evaluated at two coincident points. -/
def Distinct (par : Par) (v : DoubleEnv) : Prop :=
  par.correlation_contrib.len = true → par.only_cross_correlations = false → par.flatsky_nonlocal = false →
    v.r2 > 1e-20

theorem zero_scale {c : ℝ} : (0 : ℝ) = c * 0 := (mul_zero c).symm

/-- Split the guards one by one and finish each branch by `ring`. -/
macro "scale_cases" : tactic => `(tactic|
  (repeat' (first
    | exact zero_scale
    | (refine ite_scale (fun hc => ?_) (fun hc => ?_)))) <;> first | done | ring1 | (split_ifs <;> ring1))

theorem non_den_den_amp (par : Par) (bg : Bg) (I : Ints) (c : ℝ) (v : NonEnv) :
    non_den_den par bg (I.amp c) v = c * non_den_den par bg I v := by
  simp only [non_den_den, Ints.amp, Ints.I00, Ints.I02, Ints.I04, Ints.I11, Ints.I13, Ints.I20, Ints.I22, Ints.I31,
    Ints.I40, Ints.Ihalf]
  scale_cases

theorem non_rsd_rsd_amp (par : Par) (bg : Bg) (I : Ints) (c : ℝ) (v : NonEnv) :
    non_rsd_rsd par bg (I.amp c) v = c * non_rsd_rsd par bg I v := by
  simp only [non_rsd_rsd, Ints.amp, Ints.I00, Ints.I02, Ints.I04, Ints.I11, Ints.I13, Ints.I20, Ints.I22, Ints.I31,
    Ints.I40, Ints.Ihalf]
  scale_cases

theorem non_d1_d1_amp (par : Par) (bg : Bg) (I : Ints) (c : ℝ) (v : NonEnv) :
    non_d1_d1 par bg (I.amp c) v = c * non_d1_d1 par bg I v := by
  simp only [non_d1_d1, Ints.amp, Ints.I00, Ints.I02, Ints.I04, Ints.I11, Ints.I13, Ints.I20, Ints.I22, Ints.I31,
    Ints.I40, Ints.Ihalf]
  scale_cases

theorem non_d2_d2_amp (par : Par) (bg : Bg) (I : Ints) (c : ℝ) (v : NonEnv) :
    non_d2_d2 par bg (I.amp c) v = c * non_d2_d2 par bg I v := by
  simp only [non_d2_d2, Ints.amp, Ints.I00, Ints.I02, Ints.I04, Ints.I11, Ints.I13, Ints.I20, Ints.I22, Ints.I31,
    Ints.I40, Ints.Ihalf]
  scale_cases

theorem non_g1_g1_amp (par : Par) (bg : Bg) (I : Ints) (c : ℝ) (v : NonEnv) :
    non_g1_g1 par bg (I.amp c) v = c * non_g1_g1 par bg I v := by
  simp only [non_g1_g1, Ints.amp, Ints.I00, Ints.I02, Ints.I04, Ints.I11, Ints.I13, Ints.I20, Ints.I22, Ints.I31,
    Ints.I40, Ints.Ihalf]
  scale_cases

theorem non_g2_g2_amp (par : Par) (bg : Bg) (I : Ints) (c : ℝ) (v : NonEnv) :
    non_g2_g2 par bg (I.amp c) v = c * non_g2_g2 par bg I v := by
  simp only [non_g2_g2, Ints.amp, Ints.I00, Ints.I02, Ints.I04, Ints.I11, Ints.I13, Ints.I20, Ints.I22, Ints.I31,
    Ints.I40, Ints.Ihalf]
  scale_cases

theorem non_g3_g3_amp (par : Par) (bg : Bg) (I : Ints) (c : ℝ) (v : NonEnv) :
    non_g3_g3 par bg (I.amp c) v = c * non_g3_g3 par bg I v := by
  simp only [non_g3_g3, Ints.amp, Ints.I00, Ints.I02, Ints.I04, Ints.I11, Ints.I13, Ints.I20, Ints.I22, Ints.I31,
    Ints.I40, Ints.Ihalf]
  scale_cases

theorem non_den_rsd_amp (par : Par) (bg : Bg) (I : Ints) (c : ℝ) (v : NonEnv) :
    non_den_rsd par bg (I.amp c) v = c * non_den_rsd par bg I v := by
  simp only [non_den_rsd, Ints.amp, Ints.I00, Ints.I02, Ints.I04, Ints.I11, Ints.I13, Ints.I20, Ints.I22, Ints.I31,
    Ints.I40, Ints.Ihalf]
  scale_cases

theorem non_den_d1_amp (par : Par) (bg : Bg) (I : Ints) (c : ℝ) (v : NonEnv) :
    non_den_d1 par bg (I.amp c) v = c * non_den_d1 par bg I v := by
  simp only [non_den_d1, Ints.amp, Ints.I00, Ints.I02, Ints.I04, Ints.I11, Ints.I13, Ints.I20, Ints.I22, Ints.I31,
    Ints.I40, Ints.Ihalf]
  scale_cases

theorem non_den_d2_amp (par : Par) (bg : Bg) (I : Ints) (c : ℝ) (v : NonEnv) :
    non_den_d2 par bg (I.amp c) v = c * non_den_d2 par bg I v := by
  simp only [non_den_d2, Ints.amp, Ints.I00, Ints.I02, Ints.I04, Ints.I11, Ints.I13, Ints.I20, Ints.I22, Ints.I31,
    Ints.I40, Ints.Ihalf]
  scale_cases

theorem non_den_g1_amp (par : Par) (bg : Bg) (I : Ints) (c : ℝ) (v : NonEnv) :
    non_den_g1 par bg (I.amp c) v = c * non_den_g1 par bg I v := by
  simp only [non_den_g1, Ints.amp, Ints.I00, Ints.I02, Ints.I04, Ints.I11, Ints.I13, Ints.I20, Ints.I22, Ints.I31,
    Ints.I40, Ints.Ihalf]
  scale_cases

theorem non_den_g2_amp (par : Par) (bg : Bg) (I : Ints) (c : ℝ) (v : NonEnv) :
    non_den_g2 par bg (I.amp c) v = c * non_den_g2 par bg I v := by
  simp only [non_den_g2, Ints.amp, Ints.I00, Ints.I02, Ints.I04, Ints.I11, Ints.I13, Ints.I20, Ints.I22, Ints.I31,
    Ints.I40, Ints.Ihalf]
  scale_cases

theorem non_den_g3_amp (par : Par) (bg : Bg) (I : Ints) (c : ℝ) (v : NonEnv) :
    non_den_g3 par bg (I.amp c) v = c * non_den_g3 par bg I v := by
  simp only [non_den_g3, Ints.amp, Ints.I00, Ints.I02, Ints.I04, Ints.I11, Ints.I13, Ints.I20, Ints.I22, Ints.I31,
    Ints.I40, Ints.Ihalf]
  scale_cases

theorem non_rsd_d1_amp (par : Par) (bg : Bg) (I : Ints) (c : ℝ) (v : NonEnv) :
    non_rsd_d1 par bg (I.amp c) v = c * non_rsd_d1 par bg I v := by
  simp only [non_rsd_d1, Ints.amp, Ints.I00, Ints.I02, Ints.I04, Ints.I11, Ints.I13, Ints.I20, Ints.I22, Ints.I31,
    Ints.I40, Ints.Ihalf]
  scale_cases

theorem non_rsd_d2_amp (par : Par) (bg : Bg) (I : Ints) (c : ℝ) (v : NonEnv) :
    non_rsd_d2 par bg (I.amp c) v = c * non_rsd_d2 par bg I v := by
  simp only [non_rsd_d2, Ints.amp, Ints.I00, Ints.I02, Ints.I04, Ints.I11, Ints.I13, Ints.I20, Ints.I22, Ints.I31,
    Ints.I40, Ints.Ihalf]
  scale_cases

theorem non_rsd_g1_amp (par : Par) (bg : Bg) (I : Ints) (c : ℝ) (v : NonEnv) :
    non_rsd_g1 par bg (I.amp c) v = c * non_rsd_g1 par bg I v := by
  simp only [non_rsd_g1, Ints.amp, Ints.I00, Ints.I02, Ints.I04, Ints.I11, Ints.I13, Ints.I20, Ints.I22, Ints.I31,
    Ints.I40, Ints.Ihalf]
  scale_cases

theorem non_rsd_g2_amp (par : Par) (bg : Bg) (I : Ints) (c : ℝ) (v : NonEnv) :
    non_rsd_g2 par bg (I.amp c) v = c * non_rsd_g2 par bg I v := by
  simp only [non_rsd_g2, Ints.amp, Ints.I00, Ints.I02, Ints.I04, Ints.I11, Ints.I13, Ints.I20, Ints.I22, Ints.I31,
    Ints.I40, Ints.Ihalf]
  scale_cases

theorem non_rsd_g3_amp (par : Par) (bg : Bg) (I : Ints) (c : ℝ) (v : NonEnv) :
    non_rsd_g3 par bg (I.amp c) v = c * non_rsd_g3 par bg I v := by
  simp only [non_rsd_g3, Ints.amp, Ints.I00, Ints.I02, Ints.I04, Ints.I11, Ints.I13, Ints.I20, Ints.I22, Ints.I31,
    Ints.I40, Ints.Ihalf]
  scale_cases

theorem non_d1_d2_amp (par : Par) (bg : Bg) (I : Ints) (c : ℝ) (v : NonEnv) :
    non_d1_d2 par bg (I.amp c) v = c * non_d1_d2 par bg I v := by
  simp only [non_d1_d2, Ints.amp, Ints.I00, Ints.I02, Ints.I04, Ints.I11, Ints.I13, Ints.I20, Ints.I22, Ints.I31,
    Ints.I40, Ints.Ihalf]
  scale_cases

theorem non_d1_g1_amp (par : Par) (bg : Bg) (I : Ints) (c : ℝ) (v : NonEnv) :
    non_d1_g1 par bg (I.amp c) v = c * non_d1_g1 par bg I v := by
  simp only [non_d1_g1, Ints.amp, Ints.I00, Ints.I02, Ints.I04, Ints.I11, Ints.I13, Ints.I20, Ints.I22, Ints.I31,
    Ints.I40, Ints.Ihalf]
  scale_cases

theorem non_d1_g2_amp (par : Par) (bg : Bg) (I : Ints) (c : ℝ) (v : NonEnv) :
    non_d1_g2 par bg (I.amp c) v = c * non_d1_g2 par bg I v := by
  simp only [non_d1_g2, Ints.amp, Ints.I00, Ints.I02, Ints.I04, Ints.I11, Ints.I13, Ints.I20, Ints.I22, Ints.I31,
    Ints.I40, Ints.Ihalf]
  scale_cases

theorem non_d1_g3_amp (par : Par) (bg : Bg) (I : Ints) (c : ℝ) (v : NonEnv) :
    non_d1_g3 par bg (I.amp c) v = c * non_d1_g3 par bg I v := by
  simp only [non_d1_g3, Ints.amp, Ints.I00, Ints.I02, Ints.I04, Ints.I11, Ints.I13, Ints.I20, Ints.I22, Ints.I31,
    Ints.I40, Ints.Ihalf]
  scale_cases

theorem non_d2_g1_amp (par : Par) (bg : Bg) (I : Ints) (c : ℝ) (v : NonEnv) :
    non_d2_g1 par bg (I.amp c) v = c * non_d2_g1 par bg I v := by
  simp only [non_d2_g1, Ints.amp, Ints.I00, Ints.I02, Ints.I04, Ints.I11, Ints.I13, Ints.I20, Ints.I22, Ints.I31,
    Ints.I40, Ints.Ihalf]
  scale_cases

theorem non_d2_g2_amp (par : Par) (bg : Bg) (I : Ints) (c : ℝ) (v : NonEnv) :
    non_d2_g2 par bg (I.amp c) v = c * non_d2_g2 par bg I v := by
  simp only [non_d2_g2, Ints.amp, Ints.I00, Ints.I02, Ints.I04, Ints.I11, Ints.I13, Ints.I20, Ints.I22, Ints.I31,
    Ints.I40, Ints.Ihalf]
  scale_cases

theorem non_d2_g3_amp (par : Par) (bg : Bg) (I : Ints) (c : ℝ) (v : NonEnv) :
    non_d2_g3 par bg (I.amp c) v = c * non_d2_g3 par bg I v := by
  simp only [non_d2_g3, Ints.amp, Ints.I00, Ints.I02, Ints.I04, Ints.I11, Ints.I13, Ints.I20, Ints.I22, Ints.I31,
    Ints.I40, Ints.Ihalf]
  scale_cases

theorem non_g1_g2_amp (par : Par) (bg : Bg) (I : Ints) (c : ℝ) (v : NonEnv) :
    non_g1_g2 par bg (I.amp c) v = c * non_g1_g2 par bg I v := by
  simp only [non_g1_g2, Ints.amp, Ints.I00, Ints.I02, Ints.I04, Ints.I11, Ints.I13, Ints.I20, Ints.I22, Ints.I31,
    Ints.I40, Ints.Ihalf]
  scale_cases

theorem non_g1_g3_amp (par : Par) (bg : Bg) (I : Ints) (c : ℝ) (v : NonEnv) :
    non_g1_g3 par bg (I.amp c) v = c * non_g1_g3 par bg I v := by
  simp only [non_g1_g3, Ints.amp, Ints.I00, Ints.I02, Ints.I04, Ints.I11, Ints.I13, Ints.I20, Ints.I22, Ints.I31,
    Ints.I40, Ints.Ihalf]
  scale_cases

theorem non_g2_g3_amp (par : Par) (bg : Bg) (I : Ints) (c : ℝ) (v : NonEnv) :
    non_g2_g3 par bg (I.amp c) v = c * non_g2_g3 par bg I v := by
  simp only [non_g2_g3, Ints.amp, Ints.I00, Ints.I02, Ints.I04, Ints.I11, Ints.I13, Ints.I20, Ints.I22, Ints.I31,
    Ints.I40, Ints.Ihalf]
  scale_cases

theorem single_den_len_amp (par : Par) (bg : Bg) (I : Ints) (c : ℝ) (v : SingleEnv) :
    single_den_len par bg (I.amp c) { v with ren1 := c * v.ren1, ren2 := c * v.ren2 } = c * single_den_len par bg I v := by
  simp only [single_den_len, Ints.amp, Ints.I00, Ints.I02, Ints.I04, Ints.I11, Ints.I13, Ints.I20, Ints.I22, Ints.I31,
    Ints.I40, Ints.Ihalf]
  scale_cases

set_option maxRecDepth 2000 in
theorem single_den_len_growth (par : Par) (hl : par.pk_type = .COFFE_PK_LINEAR) (bg : Bg) (I : Ints) (c : ℝ) (v : SingleEnv) :
    single_den_len par (bg.growth c) I v = c ^ 2 * single_den_len par bg I v := by
  simp only [single_den_len, Bg.growth, hl, ne_eq, not_true_eq_false, false_and, if_false]
  scale_cases

theorem single_rsd_len_amp (par : Par) (bg : Bg) (I : Ints) (c : ℝ) (v : SingleEnv) :
    single_rsd_len par bg (I.amp c) { v with ren1 := c * v.ren1, ren2 := c * v.ren2 } = c * single_rsd_len par bg I v := by
  simp only [single_rsd_len, Ints.amp, Ints.I00, Ints.I02, Ints.I04, Ints.I11, Ints.I13, Ints.I20, Ints.I22, Ints.I31,
    Ints.I40, Ints.Ihalf]
  scale_cases

set_option maxRecDepth 2000 in
theorem single_rsd_len_growth (par : Par) (hl : par.pk_type = .COFFE_PK_LINEAR) (bg : Bg) (I : Ints) (c : ℝ) (v : SingleEnv) :
    single_rsd_len par (bg.growth c) I v = c ^ 2 * single_rsd_len par bg I v := by
  simp only [single_rsd_len, Bg.growth, hl, ne_eq, not_true_eq_false, false_and, if_false]
  scale_cases

theorem single_d1_len_amp (par : Par) (bg : Bg) (I : Ints) (c : ℝ) (v : SingleEnv) :
    single_d1_len par bg (I.amp c) { v with ren1 := c * v.ren1, ren2 := c * v.ren2 } = c * single_d1_len par bg I v := by
  simp only [single_d1_len, Ints.amp, Ints.I00, Ints.I02, Ints.I04, Ints.I11, Ints.I13, Ints.I20, Ints.I22, Ints.I31,
    Ints.I40, Ints.Ihalf]
  scale_cases

set_option maxRecDepth 2000 in
theorem single_d1_len_growth (par : Par) (hl : par.pk_type = .COFFE_PK_LINEAR) (bg : Bg) (I : Ints) (c : ℝ) (v : SingleEnv) :
    single_d1_len par (bg.growth c) I v = c ^ 2 * single_d1_len par bg I v := by
  simp only [single_d1_len, Bg.growth, hl, ne_eq, not_true_eq_false, false_and, if_false]
  scale_cases

theorem single_d2_len_amp (par : Par) (bg : Bg) (I : Ints) (c : ℝ) (v : SingleEnv) :
    single_d2_len par bg (I.amp c) { v with ren1 := c * v.ren1, ren2 := c * v.ren2 } = c * single_d2_len par bg I v := by
  simp only [single_d2_len, Ints.amp, Ints.I00, Ints.I02, Ints.I04, Ints.I11, Ints.I13, Ints.I20, Ints.I22, Ints.I31,
    Ints.I40, Ints.Ihalf]
  scale_cases

set_option maxRecDepth 2000 in
theorem single_d2_len_growth (par : Par) (hl : par.pk_type = .COFFE_PK_LINEAR) (bg : Bg) (I : Ints) (c : ℝ) (v : SingleEnv) :
    single_d2_len par (bg.growth c) I v = c ^ 2 * single_d2_len par bg I v := by
  simp only [single_d2_len, Bg.growth, hl, ne_eq, not_true_eq_false, false_and, if_false]
  scale_cases

theorem single_g1_len_amp (par : Par) (bg : Bg) (I : Ints) (c : ℝ) (v : SingleEnv) :
    single_g1_len par bg (I.amp c) { v with ren1 := c * v.ren1, ren2 := c * v.ren2 } = c * single_g1_len par bg I v := by
  simp only [single_g1_len, Ints.amp, Ints.I00, Ints.I02, Ints.I04, Ints.I11, Ints.I13, Ints.I20, Ints.I22, Ints.I31,
    Ints.I40, Ints.Ihalf]
  scale_cases

set_option maxRecDepth 2000 in
theorem single_g1_len_growth (par : Par) (hl : par.pk_type = .COFFE_PK_LINEAR) (bg : Bg) (I : Ints) (c : ℝ) (v : SingleEnv) :
    single_g1_len par (bg.growth c) I v = c ^ 2 * single_g1_len par bg I v := by
  simp only [single_g1_len, Bg.growth, hl, ne_eq, not_true_eq_false, false_and, if_false]
  scale_cases

theorem single_g2_len_amp (par : Par) (bg : Bg) (I : Ints) (c : ℝ) (v : SingleEnv) :
    single_g2_len par bg (I.amp c) { v with ren1 := c * v.ren1, ren2 := c * v.ren2 } = c * single_g2_len par bg I v := by
  simp only [single_g2_len, Ints.amp, Ints.I00, Ints.I02, Ints.I04, Ints.I11, Ints.I13, Ints.I20, Ints.I22, Ints.I31,
    Ints.I40, Ints.Ihalf]
  scale_cases

set_option maxRecDepth 2000 in
theorem single_g2_len_growth (par : Par) (hl : par.pk_type = .COFFE_PK_LINEAR) (bg : Bg) (I : Ints) (c : ℝ) (v : SingleEnv) :
    single_g2_len par (bg.growth c) I v = c ^ 2 * single_g2_len par bg I v := by
  simp only [single_g2_len, Bg.growth, hl, ne_eq, not_true_eq_false, false_and, if_false]
  scale_cases

theorem single_g3_len_amp (par : Par) (bg : Bg) (I : Ints) (c : ℝ) (v : SingleEnv) :
    single_g3_len par bg (I.amp c) { v with ren1 := c * v.ren1, ren2 := c * v.ren2 } = c * single_g3_len par bg I v := by
  simp only [single_g3_len, Ints.amp, Ints.I00, Ints.I02, Ints.I04, Ints.I11, Ints.I13, Ints.I20, Ints.I22, Ints.I31,
    Ints.I40, Ints.Ihalf]
  scale_cases

set_option maxRecDepth 2000 in
theorem single_g3_len_growth (par : Par) (hl : par.pk_type = .COFFE_PK_LINEAR) (bg : Bg) (I : Ints) (c : ℝ) (v : SingleEnv) :
    single_g3_len par (bg.growth c) I v = c ^ 2 * single_g3_len par bg I v := by
  simp only [single_g3_len, Bg.growth, hl, ne_eq, not_true_eq_false, false_and, if_false]
  scale_cases

theorem single_den_g4_amp (par : Par) (bg : Bg) (I : Ints) (c : ℝ) (v : SingleEnv) :
    single_den_g4 par bg (I.amp c) { v with ren1 := c * v.ren1, ren2 := c * v.ren2 } = c * single_den_g4 par bg I v := by
  simp only [single_den_g4, Ints.amp, Ints.I00, Ints.I02, Ints.I04, Ints.I11, Ints.I13, Ints.I20, Ints.I22, Ints.I31,
    Ints.I40, Ints.Ihalf]
  scale_cases

set_option maxRecDepth 2000 in
theorem single_den_g4_growth (par : Par) (hl : par.pk_type = .COFFE_PK_LINEAR) (bg : Bg) (I : Ints) (c : ℝ) (v : SingleEnv) :
    single_den_g4 par (bg.growth c) I v = c ^ 2 * single_den_g4 par bg I v := by
  simp only [single_den_g4, Bg.growth, hl, ne_eq, not_true_eq_false, false_and, if_false]
  scale_cases

theorem single_den_g5_amp (par : Par) (bg : Bg) (I : Ints) (c : ℝ) (v : SingleEnv) :
    single_den_g5 par bg (I.amp c) { v with ren1 := c * v.ren1, ren2 := c * v.ren2 } = c * single_den_g5 par bg I v := by
  simp only [single_den_g5, Ints.amp, Ints.I00, Ints.I02, Ints.I04, Ints.I11, Ints.I13, Ints.I20, Ints.I22, Ints.I31,
    Ints.I40, Ints.Ihalf]
  scale_cases

set_option maxRecDepth 2000 in
theorem single_den_g5_growth (par : Par) (hl : par.pk_type = .COFFE_PK_LINEAR) (bg : Bg) (I : Ints) (c : ℝ) (v : SingleEnv) :
    single_den_g5 par (bg.growth c) I v = c ^ 2 * single_den_g5 par bg I v := by
  simp only [single_den_g5, Bg.growth, hl, ne_eq, not_true_eq_false, false_and, if_false]
  scale_cases

theorem single_rsd_g4_amp (par : Par) (bg : Bg) (I : Ints) (c : ℝ) (v : SingleEnv) :
    single_rsd_g4 par bg (I.amp c) { v with ren1 := c * v.ren1, ren2 := c * v.ren2 } = c * single_rsd_g4 par bg I v := by
  simp only [single_rsd_g4, Ints.amp, Ints.I00, Ints.I02, Ints.I04, Ints.I11, Ints.I13, Ints.I20, Ints.I22, Ints.I31,
    Ints.I40, Ints.Ihalf]
  scale_cases

set_option maxRecDepth 2000 in
theorem single_rsd_g4_growth (par : Par) (hl : par.pk_type = .COFFE_PK_LINEAR) (bg : Bg) (I : Ints) (c : ℝ) (v : SingleEnv) :
    single_rsd_g4 par (bg.growth c) I v = c ^ 2 * single_rsd_g4 par bg I v := by
  simp only [single_rsd_g4, Bg.growth, hl, ne_eq, not_true_eq_false, false_and, if_false]
  scale_cases

theorem single_rsd_g5_amp (par : Par) (bg : Bg) (I : Ints) (c : ℝ) (v : SingleEnv) :
    single_rsd_g5 par bg (I.amp c) { v with ren1 := c * v.ren1, ren2 := c * v.ren2 } = c * single_rsd_g5 par bg I v := by
  simp only [single_rsd_g5, Ints.amp, Ints.I00, Ints.I02, Ints.I04, Ints.I11, Ints.I13, Ints.I20, Ints.I22, Ints.I31,
    Ints.I40, Ints.Ihalf]
  scale_cases

set_option maxRecDepth 2000 in
theorem single_rsd_g5_growth (par : Par) (hl : par.pk_type = .COFFE_PK_LINEAR) (bg : Bg) (I : Ints) (c : ℝ) (v : SingleEnv) :
    single_rsd_g5 par (bg.growth c) I v = c ^ 2 * single_rsd_g5 par bg I v := by
  simp only [single_rsd_g5, Bg.growth, hl, ne_eq, not_true_eq_false, false_and, if_false]
  scale_cases

theorem single_d1_g4_amp (par : Par) (bg : Bg) (I : Ints) (c : ℝ) (v : SingleEnv) :
    single_d1_g4 par bg (I.amp c) { v with ren1 := c * v.ren1, ren2 := c * v.ren2 } = c * single_d1_g4 par bg I v := by
  simp only [single_d1_g4, Ints.amp, Ints.I00, Ints.I02, Ints.I04, Ints.I11, Ints.I13, Ints.I20, Ints.I22, Ints.I31,
    Ints.I40, Ints.Ihalf]
  scale_cases

set_option maxRecDepth 2000 in
theorem single_d1_g4_growth (par : Par) (hl : par.pk_type = .COFFE_PK_LINEAR) (bg : Bg) (I : Ints) (c : ℝ) (v : SingleEnv) :
    single_d1_g4 par (bg.growth c) I v = c ^ 2 * single_d1_g4 par bg I v := by
  simp only [single_d1_g4, Bg.growth, hl, ne_eq, not_true_eq_false, false_and, if_false]
  scale_cases

theorem single_d1_g5_amp (par : Par) (bg : Bg) (I : Ints) (c : ℝ) (v : SingleEnv) :
    single_d1_g5 par bg (I.amp c) { v with ren1 := c * v.ren1, ren2 := c * v.ren2 } = c * single_d1_g5 par bg I v := by
  simp only [single_d1_g5, Ints.amp, Ints.I00, Ints.I02, Ints.I04, Ints.I11, Ints.I13, Ints.I20, Ints.I22, Ints.I31,
    Ints.I40, Ints.Ihalf]
  scale_cases

set_option maxRecDepth 2000 in
theorem single_d1_g5_growth (par : Par) (hl : par.pk_type = .COFFE_PK_LINEAR) (bg : Bg) (I : Ints) (c : ℝ) (v : SingleEnv) :
    single_d1_g5 par (bg.growth c) I v = c ^ 2 * single_d1_g5 par bg I v := by
  simp only [single_d1_g5, Bg.growth, hl, ne_eq, not_true_eq_false, false_and, if_false]
  scale_cases

theorem single_d2_g4_amp (par : Par) (bg : Bg) (I : Ints) (c : ℝ) (v : SingleEnv) :
    single_d2_g4 par bg (I.amp c) { v with ren1 := c * v.ren1, ren2 := c * v.ren2 } = c * single_d2_g4 par bg I v := by
  simp only [single_d2_g4, Ints.amp, Ints.I00, Ints.I02, Ints.I04, Ints.I11, Ints.I13, Ints.I20, Ints.I22, Ints.I31,
    Ints.I40, Ints.Ihalf]
  scale_cases

set_option maxRecDepth 2000 in
theorem single_d2_g4_growth (par : Par) (hl : par.pk_type = .COFFE_PK_LINEAR) (bg : Bg) (I : Ints) (c : ℝ) (v : SingleEnv) :
    single_d2_g4 par (bg.growth c) I v = c ^ 2 * single_d2_g4 par bg I v := by
  simp only [single_d2_g4, Bg.growth, hl, ne_eq, not_true_eq_false, false_and, if_false]
  scale_cases

theorem single_d2_g5_amp (par : Par) (bg : Bg) (I : Ints) (c : ℝ) (v : SingleEnv) :
    single_d2_g5 par bg (I.amp c) { v with ren1 := c * v.ren1, ren2 := c * v.ren2 } = c * single_d2_g5 par bg I v := by
  simp only [single_d2_g5, Ints.amp, Ints.I00, Ints.I02, Ints.I04, Ints.I11, Ints.I13, Ints.I20, Ints.I22, Ints.I31,
    Ints.I40, Ints.Ihalf]
  scale_cases

set_option maxRecDepth 2000 in
theorem single_d2_g5_growth (par : Par) (hl : par.pk_type = .COFFE_PK_LINEAR) (bg : Bg) (I : Ints) (c : ℝ) (v : SingleEnv) :
    single_d2_g5 par (bg.growth c) I v = c ^ 2 * single_d2_g5 par bg I v := by
  simp only [single_d2_g5, Bg.growth, hl, ne_eq, not_true_eq_false, false_and, if_false]
  scale_cases

theorem single_g1_g4_amp (par : Par) (bg : Bg) (I : Ints) (c : ℝ) (v : SingleEnv) :
    single_g1_g4 par bg (I.amp c) { v with ren1 := c * v.ren1, ren2 := c * v.ren2 } = c * single_g1_g4 par bg I v := by
  simp only [single_g1_g4, Ints.amp, Ints.I00, Ints.I02, Ints.I04, Ints.I11, Ints.I13, Ints.I20, Ints.I22, Ints.I31,
    Ints.I40, Ints.Ihalf]
  scale_cases

set_option maxRecDepth 2000 in
theorem single_g1_g4_growth (par : Par) (hl : par.pk_type = .COFFE_PK_LINEAR) (bg : Bg) (I : Ints) (c : ℝ) (v : SingleEnv) :
    single_g1_g4 par (bg.growth c) I v = c ^ 2 * single_g1_g4 par bg I v := by
  simp only [single_g1_g4, Bg.growth, hl, ne_eq, not_true_eq_false, false_and, if_false]
  scale_cases

theorem single_g1_g5_amp (par : Par) (bg : Bg) (I : Ints) (c : ℝ) (v : SingleEnv) :
    single_g1_g5 par bg (I.amp c) { v with ren1 := c * v.ren1, ren2 := c * v.ren2 } = c * single_g1_g5 par bg I v := by
  simp only [single_g1_g5, Ints.amp, Ints.I00, Ints.I02, Ints.I04, Ints.I11, Ints.I13, Ints.I20, Ints.I22, Ints.I31,
    Ints.I40, Ints.Ihalf]
  scale_cases

set_option maxRecDepth 2000 in
theorem single_g1_g5_growth (par : Par) (hl : par.pk_type = .COFFE_PK_LINEAR) (bg : Bg) (I : Ints) (c : ℝ) (v : SingleEnv) :
    single_g1_g5 par (bg.growth c) I v = c ^ 2 * single_g1_g5 par bg I v := by
  simp only [single_g1_g5, Bg.growth, hl, ne_eq, not_true_eq_false, false_and, if_false]
  scale_cases

theorem single_g2_g4_amp (par : Par) (bg : Bg) (I : Ints) (c : ℝ) (v : SingleEnv) :
    single_g2_g4 par bg (I.amp c) { v with ren1 := c * v.ren1, ren2 := c * v.ren2 } = c * single_g2_g4 par bg I v := by
  simp only [single_g2_g4, Ints.amp, Ints.I00, Ints.I02, Ints.I04, Ints.I11, Ints.I13, Ints.I20, Ints.I22, Ints.I31,
    Ints.I40, Ints.Ihalf]
  scale_cases

set_option maxRecDepth 2000 in
theorem single_g2_g4_growth (par : Par) (hl : par.pk_type = .COFFE_PK_LINEAR) (bg : Bg) (I : Ints) (c : ℝ) (v : SingleEnv) :
    single_g2_g4 par (bg.growth c) I v = c ^ 2 * single_g2_g4 par bg I v := by
  simp only [single_g2_g4, Bg.growth, hl, ne_eq, not_true_eq_false, false_and, if_false]
  scale_cases

theorem single_g2_g5_amp (par : Par) (bg : Bg) (I : Ints) (c : ℝ) (v : SingleEnv) :
    single_g2_g5 par bg (I.amp c) { v with ren1 := c * v.ren1, ren2 := c * v.ren2 } = c * single_g2_g5 par bg I v := by
  simp only [single_g2_g5, Ints.amp, Ints.I00, Ints.I02, Ints.I04, Ints.I11, Ints.I13, Ints.I20, Ints.I22, Ints.I31,
    Ints.I40, Ints.Ihalf]
  scale_cases

set_option maxRecDepth 2000 in
theorem single_g2_g5_growth (par : Par) (hl : par.pk_type = .COFFE_PK_LINEAR) (bg : Bg) (I : Ints) (c : ℝ) (v : SingleEnv) :
    single_g2_g5 par (bg.growth c) I v = c ^ 2 * single_g2_g5 par bg I v := by
  simp only [single_g2_g5, Bg.growth, hl, ne_eq, not_true_eq_false, false_and, if_false]
  scale_cases

theorem single_g3_g4_amp (par : Par) (bg : Bg) (I : Ints) (c : ℝ) (v : SingleEnv) :
    single_g3_g4 par bg (I.amp c) { v with ren1 := c * v.ren1, ren2 := c * v.ren2 } = c * single_g3_g4 par bg I v := by
  simp only [single_g3_g4, Ints.amp, Ints.I00, Ints.I02, Ints.I04, Ints.I11, Ints.I13, Ints.I20, Ints.I22, Ints.I31,
    Ints.I40, Ints.Ihalf]
  scale_cases

set_option maxRecDepth 2000 in
theorem single_g3_g4_growth (par : Par) (hl : par.pk_type = .COFFE_PK_LINEAR) (bg : Bg) (I : Ints) (c : ℝ) (v : SingleEnv) :
    single_g3_g4 par (bg.growth c) I v = c ^ 2 * single_g3_g4 par bg I v := by
  simp only [single_g3_g4, Bg.growth, hl, ne_eq, not_true_eq_false, false_and, if_false]
  scale_cases

theorem single_g3_g5_amp (par : Par) (bg : Bg) (I : Ints) (c : ℝ) (v : SingleEnv) :
    single_g3_g5 par bg (I.amp c) { v with ren1 := c * v.ren1, ren2 := c * v.ren2 } = c * single_g3_g5 par bg I v := by
  simp only [single_g3_g5, Ints.amp, Ints.I00, Ints.I02, Ints.I04, Ints.I11, Ints.I13, Ints.I20, Ints.I22, Ints.I31,
    Ints.I40, Ints.Ihalf]
  scale_cases

set_option maxRecDepth 2000 in
theorem single_g3_g5_growth (par : Par) (hl : par.pk_type = .COFFE_PK_LINEAR) (bg : Bg) (I : Ints) (c : ℝ) (v : SingleEnv) :
    single_g3_g5 par (bg.growth c) I v = c ^ 2 * single_g3_g5 par bg I v := by
  simp only [single_g3_g5, Bg.growth, hl, ne_eq, not_true_eq_false, false_and, if_false]
  scale_cases

theorem double_len_len_amp (par : Par) (bg : Bg) (I : Ints) (c : ℝ) (v : DoubleEnv) (h0 : Distinct par v) :
    double_len_len par bg (I.amp c) { v with ren := c * v.ren } = c * double_len_len par bg I v := by
  simp only [double_len_len, Ints.amp, Ints.I00, Ints.I02, Ints.I04, Ints.I11, Ints.I13, Ints.I20, Ints.I22, Ints.I31,
    Ints.I40, Ints.Ihalf]
  repeat' (first
    | exact zero_scale
    | (refine ite_scale (fun hc => ?_) (fun hc => ?_)))
  all_goals first
    | ring1
    | (exfalso; simp_all [Distinct])

theorem double_len_len_growth (par : Par) (hl : par.pk_type = .COFFE_PK_LINEAR) (bg : Bg) (I : Ints) (c : ℝ) (v : DoubleEnv) :
    double_len_len par (bg.growth c) I v = c ^ 2 * double_len_len par bg I v := by
  simp only [double_len_len, Bg.growth, hl, ne_eq, not_true_eq_false, false_and, if_false]
  scale_cases

theorem double_g4_g4_amp (par : Par) (bg : Bg) (I : Ints) (c : ℝ) (v : DoubleEnv) :
    double_g4_g4 par bg (I.amp c) { v with ren := c * v.ren } = c * double_g4_g4 par bg I v := by
  simp only [double_g4_g4, Ints.amp, Ints.I00, Ints.I02, Ints.I04, Ints.I11, Ints.I13, Ints.I20, Ints.I22, Ints.I31,
    Ints.I40, Ints.Ihalf]
  scale_cases

theorem double_g4_g4_growth (par : Par) (hl : par.pk_type = .COFFE_PK_LINEAR) (bg : Bg) (I : Ints) (c : ℝ) (v : DoubleEnv) :
    double_g4_g4 par (bg.growth c) I v = c ^ 2 * double_g4_g4 par bg I v := by
  simp only [double_g4_g4, Bg.growth, hl, ne_eq, not_true_eq_false, false_and, if_false]
  scale_cases

theorem double_g5_g5_amp (par : Par) (bg : Bg) (I : Ints) (c : ℝ) (v : DoubleEnv) :
    double_g5_g5 par bg (I.amp c) { v with ren := c * v.ren } = c * double_g5_g5 par bg I v := by
  simp only [double_g5_g5, Ints.amp, Ints.I00, Ints.I02, Ints.I04, Ints.I11, Ints.I13, Ints.I20, Ints.I22, Ints.I31,
    Ints.I40, Ints.Ihalf]
  scale_cases

theorem double_g5_g5_growth (par : Par) (hl : par.pk_type = .COFFE_PK_LINEAR) (bg : Bg) (I : Ints) (c : ℝ) (v : DoubleEnv) :
    double_g5_g5 par (bg.growth c) I v = c ^ 2 * double_g5_g5 par bg I v := by
  simp only [double_g5_g5, Bg.growth, hl, ne_eq, not_true_eq_false, false_and, if_false]
  scale_cases

theorem double_g4_len_amp (par : Par) (bg : Bg) (I : Ints) (c : ℝ) (v : DoubleEnv) :
    double_g4_len par bg (I.amp c) { v with ren := c * v.ren } = c * double_g4_len par bg I v := by
  simp only [double_g4_len, Ints.amp, Ints.I00, Ints.I02, Ints.I04, Ints.I11, Ints.I13, Ints.I20, Ints.I22, Ints.I31,
    Ints.I40, Ints.Ihalf]
  scale_cases

theorem double_g4_len_growth (par : Par) (hl : par.pk_type = .COFFE_PK_LINEAR) (bg : Bg) (I : Ints) (c : ℝ) (v : DoubleEnv) :
    double_g4_len par (bg.growth c) I v = c ^ 2 * double_g4_len par bg I v := by
  simp only [double_g4_len, Bg.growth, hl, ne_eq, not_true_eq_false, false_and, if_false]
  scale_cases

theorem double_g5_len_amp (par : Par) (bg : Bg) (I : Ints) (c : ℝ) (v : DoubleEnv) :
    double_g5_len par bg (I.amp c) { v with ren := c * v.ren } = c * double_g5_len par bg I v := by
  simp only [double_g5_len, Ints.amp, Ints.I00, Ints.I02, Ints.I04, Ints.I11, Ints.I13, Ints.I20, Ints.I22, Ints.I31,
    Ints.I40, Ints.Ihalf]
  scale_cases

theorem double_g5_len_growth (par : Par) (hl : par.pk_type = .COFFE_PK_LINEAR) (bg : Bg) (I : Ints) (c : ℝ) (v : DoubleEnv) :
    double_g5_len par (bg.growth c) I v = c ^ 2 * double_g5_len par bg I v := by
  simp only [double_g5_len, Bg.growth, hl, ne_eq, not_true_eq_false, false_and, if_false]
  scale_cases

theorem double_g4_g5_amp (par : Par) (bg : Bg) (I : Ints) (c : ℝ) (v : DoubleEnv) :
    double_g4_g5 par bg (I.amp c) { v with ren := c * v.ren } = c * double_g4_g5 par bg I v := by
  simp only [double_g4_g5, Ints.amp, Ints.I00, Ints.I02, Ints.I04, Ints.I11, Ints.I13, Ints.I20, Ints.I22, Ints.I31,
    Ints.I40, Ints.Ihalf]
  scale_cases

theorem double_g4_g5_growth (par : Par) (hl : par.pk_type = .COFFE_PK_LINEAR) (bg : Bg) (I : Ints) (c : ℝ) (v : DoubleEnv) :
    double_g4_g5 par (bg.growth c) I v = c ^ 2 * double_g4_g5 par bg I v := by
  simp only [double_g4_g5, Bg.growth, hl, ne_eq, not_true_eq_false, false_and, if_false]
  scale_cases

theorem non_result_amp (par : Par) (bg : Bg) (I : Ints) (c : ℝ) (v : NonEnv) :
    non_result par bg (I.amp c) v = c * non_result par bg I v := by
  simp only [non_result, non_den_den_amp, non_rsd_rsd_amp, non_d1_d1_amp, non_d2_d2_amp, non_g1_g1_amp, non_g2_g2_amp, non_g3_g3_amp, non_den_rsd_amp, non_den_d1_amp, non_den_d2_amp, non_den_g1_amp, non_den_g2_amp, non_den_g3_amp, non_rsd_d1_amp, non_rsd_d2_amp, non_rsd_g1_amp, non_rsd_g2_amp, non_rsd_g3_amp, non_d1_d2_amp, non_d1_g1_amp, non_d1_g2_amp, non_d1_g3_amp, non_d2_g1_amp, non_d2_g2_amp, non_d2_g3_amp, non_g1_g2_amp, non_g1_g3_amp, non_g2_g3_amp]
  ring

theorem non_result_growth (par : Par) (bg : Bg) (I : Ints) (c : ℝ) (v : NonEnv) :
    non_result par (bg.growth c) I v = non_result par bg I v := rfl

theorem single_result_amp (par : Par) (bg : Bg) (I : Ints) (c : ℝ) (v : SingleEnv) :
    single_result par bg (I.amp c) { v with ren1 := c * v.ren1, ren2 := c * v.ren2 } =
      c * single_result par bg I v := by
  simp only [single_result, single_den_len_amp, single_rsd_len_amp, single_d1_len_amp, single_d2_len_amp, single_g1_len_amp, single_g2_len_amp, single_g3_len_amp, single_den_g4_amp, single_den_g5_amp, single_rsd_g4_amp, single_rsd_g5_amp, single_d1_g4_amp, single_d1_g5_amp, single_d2_g4_amp, single_d2_g5_amp, single_g1_g4_amp, single_g1_g5_amp, single_g2_g4_amp, single_g2_g5_amp, single_g3_g4_amp, single_g3_g5_amp]
  ring

theorem single_result_growth (par : Par) (hl : par.pk_type = .COFFE_PK_LINEAR) (bg : Bg) (I : Ints) (c : ℝ)
    (v : SingleEnv) : single_result par (bg.growth c) I v = c ^ 2 * single_result par bg I v := by
  simp only [single_result, single_den_len_growth _ hl, single_rsd_len_growth _ hl, single_d1_len_growth _ hl, single_d2_len_growth _ hl, single_g1_len_growth _ hl, single_g2_len_growth _ hl, single_g3_len_growth _ hl, single_den_g4_growth _ hl, single_den_g5_growth _ hl, single_rsd_g4_growth _ hl, single_rsd_g5_growth _ hl, single_d1_g4_growth _ hl, single_d1_g5_growth _ hl, single_d2_g4_growth _ hl, single_d2_g5_growth _ hl, single_g1_g4_growth _ hl, single_g1_g5_growth _ hl, single_g2_g4_growth _ hl, single_g2_g5_growth _ hl, single_g3_g4_growth _ hl, single_g3_g5_growth _ hl]
  ring

theorem double_result_amp (par : Par) (bg : Bg) (I : Ints) (c : ℝ) (v : DoubleEnv) (h0 : Distinct par v) :
    double_result par bg (I.amp c) { v with ren := c * v.ren } = c * double_result par bg I v := by
  simp only [double_result, double_len_len_amp _ _ _ _ _ h0, double_g4_g4_amp, double_g5_g5_amp, double_g4_len_amp, double_g5_len_amp, double_g4_g5_amp]
  ring

theorem double_result_growth (par : Par) (hl : par.pk_type = .COFFE_PK_LINEAR) (bg : Bg) (I : Ints) (c : ℝ)
    (v : DoubleEnv) : double_result par (bg.growth c) I v = c ^ 2 * double_result par bg I v := by
  simp only [double_result, double_len_len_growth _ hl, double_g4_g4_growth _ hl, double_g5_g5_growth _ hl, double_g4_len_growth _ hl, double_g5_len_growth _ hl, double_g4_g5_growth _ hl]
  ring

end Coffe
