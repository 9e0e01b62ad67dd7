import Verif.Model.Signal.Dispatch
import Verif.Spec.Witness
import Mathlib.Analysis.Calculus.Deriv.Pow
import Mathlib.Analysis.Calculus.Deriv.Mul
import Mathlib.Analysis.Calculus.Deriv.Add
import Mathlib.Tactic.FieldSimp
import Mathlib.Tactic.NormNum

/-!
# C16: the derivative switches return derivatives
-/

namespace Coffe
open Classical

/-- The four derivative switches. -/
structure Switches where
  b : Bool := false
  f : Bool := false
  bt : Bool := false
  ft : Bool := false

/-- The parameters with the given derivative switches. -/
def Par.deriv (par : Par) (s : Switches) : Par :=
  { par with b_derivative := s.b, f_derivative := s.f, b_tilde_derivative := s.bt, f_tilde_derivative := s.ft }

/-- The parameters in which both populations have the galaxy bias `b`. -/
def Par.bias (par : Par) (b : ℝ → ℝ) : Par := { par with galaxy_bias1 := b, galaxy_bias2 := b }

/-- Density and redshift-space distortions only (any subset). -/
def Contrib.Kaiser (c : Contrib) : Prop :=
  c.len = false ∧ c.d1 = false ∧ c.d2 = false ∧ c.g1 = false ∧ c.g2 = false ∧ c.g3 = false ∧ c.g4 = false ∧
    c.g5 = false

theorem hasDerivAt_quadratic {S : ℝ → ℝ} {B C : ℝ} (h : ∀ e, S e = S 0 + B * e + C * e ^ 2) : HasDerivAt S B 0 := by
  have h1 : HasDerivAt (fun e : ℝ => S 0 + B * e + C * e ^ 2) (B * 1 + C * ((2 : ℕ) * 0 ^ (2 - 1) * 1)) 0 :=
    (((hasDerivAt_id (0 : ℝ)).const_mul B).const_add (S 0)).add (((hasDerivAt_id (0 : ℝ)).pow 2).const_mul C)
  have h2 : S = fun e : ℝ => S 0 + B * e + C * e ^ 2 := funext h
  rw [h2]
  simpa using h1

section
variable (par : Par) (bg : Bg) (I : Ints) (z mu sep : ℝ)

/-- The Kaiser formula the flat-sky code evaluates, before the growth factor. -/
noncomputable def kaiser (c : Contrib) (oc : Bool) (I : Ints) (b1 b2 f mu sep : ℝ) : ℝ :=
  (if c.den ∧ ¬ oc then b1 * b2 * I.I00.result sep else 0)
  + (if c.rsd ∧ ¬ oc then
      f * f * I.I00.result sep / 5 - 4 * f * f * I.I02.result sep / 7 * legP2 mu
        + 8 * f * f * I.I04.result sep / 35 * legP4 mu else 0)
  + (if c.den ∧ c.rsd then
      (b1 * f / 3 + b2 * f / 3) * I.I00.result sep - (2 * b1 * f / 3 + 2 * b2 * f / 3) * I.I02.result sep * legP2 mu
     else 0)

theorem signal_kaiser (hc : par.correlation_contrib.Kaiser) (hf : par.flatsky_local = true)
    (hm : ¬ (par.pk_type ≠ .COFFE_PK_LINEAR ∧ par.midpoint_approximation)) (hs : par = par.deriv {}) :
    functions_nonintegrated par bg I z mu sep =
      kaiser par.correlation_contrib par.only_cross_correlations I (par.galaxy_bias1 z) (par.galaxy_bias2 z) (bg.f z)
        mu sep * bg.D1 z ^ 2 := by
  obtain ⟨c1, c2, c3, c4, c5, c6, c7, c8⟩ := hc
  have d1 : par.b_derivative = false := by rw [hs]; rfl
  have d2 : par.f_derivative = false := by rw [hs]; rfl
  have d3 : par.b_tilde_derivative = false := by rw [hs]; rfl
  have d4 : par.f_tilde_derivative = false := by rw [hs]; rfl
  have hg : non_growth par bg (NonEnv.of par bg z mu sep) = bg.D1 z ^ 2 := by
    unfold non_growth
    rw [if_neg hm]
    simp [d1, d2, d3, d4, hf, NonEnv.of]
  unfold functions_nonintegrated
  refine congrArg₂ (· * ·) ?_ hg
  unfold non_result kaiser
  simp only [non_den_den, non_rsd_rsd, non_den_rsd, if_neg hm, hf, d1, d2, d3, d4, non_d1_d1, non_d2_d2, non_g1_g1,
    non_g2_g2, non_g3_g3, non_den_d1, non_den_d2, non_den_g1, non_den_g2, non_den_g3, non_rsd_d1, non_rsd_d2,
    non_rsd_g1, non_rsd_g2, non_rsd_g3, non_d1_d2, non_d1_g1, non_d1_g2, non_d1_g3, non_d2_g1, non_d2_g2, non_d2_g3,
    non_g1_g2, non_g1_g3, non_g2_g3, c1, c2, c3, c4, c5, c6, c7, c8, if_true, if_false, Bool.false_eq_true, or_self,
    false_and, and_false, add_zero, NonEnv.of]

/-- Switch `b` or `b tilde`. -/
theorem signal_kaiser_b (hc : par.correlation_contrib.Kaiser) (hf : par.flatsky_local = true)
    (hm : ¬ (par.pk_type ≠ .COFFE_PK_LINEAR ∧ par.midpoint_approximation)) (t : Bool) :
    functions_nonintegrated (par.deriv (bif t then { bt := true } else { b := true })) bg I z mu sep =
      ((if par.correlation_contrib.den ∧ ¬ par.only_cross_correlations then
          2 * par.galaxy_bias1 z * I.I00.result sep else 0)
       + (if par.correlation_contrib.den ∧ par.correlation_contrib.rsd then
          (bg.f z / 3 + bg.f z / 3) * I.I00.result sep
            - (2 * bg.f z / 3 + 2 * bg.f z / 3) * I.I02.result sep * legP2 mu else 0)) *
        (bif t then bg.D1 z else bg.D1 z ^ 2) := by
  obtain ⟨c1, c2, c3, c4, c5, c6, c7, c8⟩ := hc
  unfold functions_nonintegrated non_result
  refine congrArg₂ (· * ·) ?_ ?_
  · cases t <;>
    simp only [Par.deriv, cond_true, cond_false, non_den_den, non_rsd_rsd, non_den_rsd, if_neg hm, hf, non_d1_d1,
      non_d2_d2, non_g1_g1,
      non_g2_g2, non_g3_g3, non_den_d1, non_den_d2, non_den_g1, non_den_g2, non_den_g3, non_rsd_d1, non_rsd_d2,
      non_rsd_g1, non_rsd_g2, non_rsd_g3, non_d1_d2, non_d1_g1, non_d1_g2, non_d1_g3, non_d2_g1, non_d2_g2, non_d2_g3,
      non_g1_g2, non_g1_g3, non_g2_g3, c1, c2, c3, c4, c5, c6, c7, c8, if_true, if_false, Bool.false_eq_true, or_self,
      or_true, true_or, ite_self, false_and, and_false, add_zero, NonEnv.of]
  · unfold non_growth
    refine (if_neg hm).trans ?_
    cases t <;> simp [Par.deriv, NonEnv.of, hf]

/-- Switch `f` or `f tilde`. -/
theorem signal_kaiser_f (hc : par.correlation_contrib.Kaiser) (hf : par.flatsky_local = true)
    (hm : ¬ (par.pk_type ≠ .COFFE_PK_LINEAR ∧ par.midpoint_approximation)) (t : Bool) :
    functions_nonintegrated (par.deriv (bif t then { ft := true } else { f := true })) bg I z mu sep =
      ((if par.correlation_contrib.rsd ∧ ¬ par.only_cross_correlations then
          2 * bg.f z * I.I00.result sep / 5 - 8 * bg.f z * I.I02.result sep / 7 * legP2 mu
            + 16 * bg.f z * I.I04.result sep / 35 * legP4 mu else 0)
       + (if par.correlation_contrib.den ∧ par.correlation_contrib.rsd then
          (par.galaxy_bias1 z / 3 + par.galaxy_bias2 z / 3) * I.I00.result sep
            - (2 * par.galaxy_bias1 z / 3 + 2 * par.galaxy_bias2 z / 3) * I.I02.result sep * legP2 mu else 0)) *
        (bif t then bg.D1 z else bg.D1 z ^ 2) := by
  obtain ⟨c1, c2, c3, c4, c5, c6, c7, c8⟩ := hc
  unfold functions_nonintegrated non_result
  refine congrArg₂ (· * ·) ?_ ?_
  · cases t <;>
    simp only [Par.deriv, cond_true, cond_false, non_den_den, non_rsd_rsd, non_den_rsd, if_neg hm, hf, non_d1_d1,
      non_d2_d2, non_g1_g1,
      non_g2_g2, non_g3_g3, non_den_d1, non_den_d2, non_den_g1, non_den_g2, non_den_g3, non_rsd_d1, non_rsd_d2,
      non_rsd_g1, non_rsd_g2, non_rsd_g3, non_d1_d2, non_d1_g1, non_d1_g2, non_d1_g3, non_d2_g1, non_d2_g2, non_d2_g3,
      non_g1_g2, non_g1_g3, non_g2_g3, c1, c2, c3, c4, c5, c6, c7, c8, if_true, if_false, Bool.false_eq_true, or_self,
      or_true, true_or, ite_self, false_and, and_false, add_zero, zero_add, NonEnv.of]
  · unfold non_growth
    refine (if_neg hm).trans ?_
    cases t <;> simp [Par.deriv, NonEnv.of, hf]

/-- **C16, bias.** With the `b` switch the flat-sky density+RSD signal is the derivative of the signal with
respect to the bias shared by both populations. (Holds except with a non-linear spectrum in the midpoint
approximation, see `C16_nonlinear_false`.) -/
theorem C16_b_partial (b : ℝ → ℝ) (hc : par.correlation_contrib.Kaiser) (hf : par.flatsky_local = true)
    (hm : ¬ (par.pk_type ≠ .COFFE_PK_LINEAR ∧ par.midpoint_approximation)) :
    HasDerivAt (fun e => functions_nonintegrated ((par.bias fun x => b x + e).deriv {}) bg I z mu sep)
      (functions_nonintegrated ((par.bias b).deriv { b := true }) bg I z mu sep) 0 := by
  refine hasDerivAt_quadratic
    (C := (if par.correlation_contrib.den ∧ ¬ par.only_cross_correlations then I.I00.result sep else 0) * bg.D1 z ^ 2)
    fun e => ?_
  have hk : functions_nonintegrated ((par.bias b).deriv { b := true }) bg I z mu sep = _ := signal_kaiser_b (par.bias b) bg I z mu sep hc hf hm false
  rw [hk]
  rw [signal_kaiser ((par.bias fun x => b x + e).deriv {}) bg I z mu sep hc hf hm rfl,
    signal_kaiser ((par.bias fun x => b x + 0).deriv {}) bg I z mu sep hc hf hm rfl]
  simp only [kaiser, Par.bias, Par.deriv, cond_false]
  by_cases h1 : par.correlation_contrib.den = true <;> by_cases h2 : par.correlation_contrib.rsd = true <;>
    by_cases h3 : par.only_cross_correlations = true <;> simp only [h1, h2, h3, Bool.false_eq_true, not_true, not_false_iff, and_true, and_false, and_self, false_and, if_true,
      if_false] <;> ring

/-- **C16, growth rate.** -/
theorem C16_f_partial (b : ℝ → ℝ) (hc : par.correlation_contrib.Kaiser) (hf : par.flatsky_local = true)
    (hm : ¬ (par.pk_type ≠ .COFFE_PK_LINEAR ∧ par.midpoint_approximation)) :
    HasDerivAt (fun e => functions_nonintegrated ((par.bias b).deriv {}) { bg with f := fun x => bg.f x + e } I z mu
        sep)
      (functions_nonintegrated ((par.bias b).deriv { f := true }) bg I z mu sep) 0 := by
  refine hasDerivAt_quadratic
    (C := (if par.correlation_contrib.rsd ∧ ¬ par.only_cross_correlations then
      I.I00.result sep / 5 - 4 * I.I02.result sep / 7 * legP2 mu + 8 * I.I04.result sep / 35 * legP4 mu else 0) *
      bg.D1 z ^ 2)
    fun e => ?_
  have hk : functions_nonintegrated ((par.bias b).deriv { f := true }) bg I z mu sep = _ := signal_kaiser_f (par.bias b) bg I z mu sep hc hf hm false
  rw [hk]
  rw [signal_kaiser ((par.bias b).deriv {}) { bg with f := fun x => bg.f x + e } I z mu sep hc hf hm rfl,
    signal_kaiser ((par.bias b).deriv {}) { bg with f := fun x => bg.f x + 0 } I z mu sep hc hf hm rfl]
  simp only [kaiser, Par.bias, Par.deriv, cond_false]
  by_cases h1 : par.correlation_contrib.den = true <;> by_cases h2 : par.correlation_contrib.rsd = true <;>
    by_cases h3 : par.only_cross_correlations = true <;> simp only [h1, h2, h3, Bool.false_eq_true, not_true, not_false_iff, and_true, and_false, and_self, false_and, if_true,
      if_false] <;> ring

/-- **C16, b tilde.** Derivative with respect to `b D1` at fixed `f D1` and growth factor. -/
theorem C16_b_tilde_partial (b : ℝ → ℝ) (hc : par.correlation_contrib.Kaiser) (hf : par.flatsky_local = true)
    (hm : ¬ (par.pk_type ≠ .COFFE_PK_LINEAR ∧ par.midpoint_approximation)) (hD : bg.D1 z ≠ 0) :
    HasDerivAt (fun e => functions_nonintegrated ((par.bias fun x => (b x * bg.D1 x + e) / bg.D1 x).deriv {}) bg I z mu
        sep)
      (functions_nonintegrated ((par.bias b).deriv { bt := true }) bg I z mu sep) 0 := by
  refine hasDerivAt_quadratic
    (C := (if par.correlation_contrib.den ∧ ¬ par.only_cross_correlations then I.I00.result sep else 0))
    fun e => ?_
  have hk : functions_nonintegrated ((par.bias b).deriv { bt := true }) bg I z mu sep = _ := signal_kaiser_b (par.bias b) bg I z mu sep hc hf hm true
  rw [hk]
  rw [signal_kaiser ((par.bias fun x => (b x * bg.D1 x + e) / bg.D1 x).deriv {}) bg I z mu sep hc hf hm rfl,
    signal_kaiser ((par.bias fun x => (b x * bg.D1 x + 0) / bg.D1 x).deriv {}) bg I z mu sep hc hf hm rfl]
  simp only [kaiser, Par.bias, Par.deriv, cond_true]
  by_cases h1 : par.correlation_contrib.den = true <;> by_cases h2 : par.correlation_contrib.rsd = true <;>
    by_cases h3 : par.only_cross_correlations = true <;> simp only [h1, h2, h3, Bool.false_eq_true, not_true, not_false_iff, and_true, and_false, and_self, false_and, if_true,
      if_false] <;> field_simp <;> ring

/-- **C16, f tilde.** Derivative with respect to `f D1` at fixed `b D1` and growth factor. -/
theorem C16_f_tilde_partial (b : ℝ → ℝ) (hc : par.correlation_contrib.Kaiser) (hf : par.flatsky_local = true)
    (hm : ¬ (par.pk_type ≠ .COFFE_PK_LINEAR ∧ par.midpoint_approximation)) (hD : bg.D1 z ≠ 0) :
    HasDerivAt (fun e => functions_nonintegrated ((par.bias b).deriv {})
        { bg with f := fun x => (bg.f x * bg.D1 x + e) / bg.D1 x } I z mu sep)
      (functions_nonintegrated ((par.bias b).deriv { ft := true }) bg I z mu sep) 0 := by
  refine hasDerivAt_quadratic
    (C := (if par.correlation_contrib.rsd ∧ ¬ par.only_cross_correlations then
      I.I00.result sep / 5 - 4 * I.I02.result sep / 7 * legP2 mu + 8 * I.I04.result sep / 35 * legP4 mu else 0))
    fun e => ?_
  have hk : functions_nonintegrated ((par.bias b).deriv { ft := true }) bg I z mu sep = _ := signal_kaiser_f (par.bias b) bg I z mu sep hc hf hm true
  rw [hk]
  rw [signal_kaiser ((par.bias b).deriv {}) { bg with f := fun x => (bg.f x * bg.D1 x + e) / bg.D1 x } I z mu sep hc
      hf hm rfl,
    signal_kaiser ((par.bias b).deriv {}) { bg with f := fun x => (bg.f x * bg.D1 x + 0) / bg.D1 x } I z mu sep hc hf
      hm rfl]
  simp only [kaiser, Par.bias, Par.deriv, cond_true]
  by_cases h1 : par.correlation_contrib.den = true <;> by_cases h2 : par.correlation_contrib.rsd = true <;>
    by_cases h3 : par.only_cross_correlations = true <;> simp only [h1, h2, h3, Bool.false_eq_true, not_true, not_false_iff, and_true, and_false, and_self, false_and, if_true,
      if_false] <;> field_simp <;> ring

end

/-- Density only, flat sky. -/
noncomputable def wDen : Par :=
  { wPar with correlation_contrib := { Contrib.none with den := true }, flatsky_local := true }

/-- **C16 fails for non-linear spectra.** With a halofit/HMcode (or CLASS) spectrum and the midpoint
approximation the switch is ignored: the value returned is the signal, not its derivative. -/
theorem C16_nonlinear_false : ∃ (par : Par) (bg : Bg) (I : Ints) (b : ℝ → ℝ) (z mu sep : ℝ),
    par.correlation_contrib.Kaiser ∧ par.flatsky_local = true ∧
    ¬ HasDerivAt (fun e => functions_nonintegrated ((par.bias fun x => b x + e).deriv {}) bg I z mu sep)
      (functions_nonintegrated ((par.bias b).deriv { b := true }) bg I z mu sep) 0 := by
  refine ⟨{ wDen with pk_type := .COFFE_PK_NONLINEAR_HALOFIT, midpoint_approximation := true }, wBg,
    fun _ => wConst 1, fun _ => 1, 1, 0, 1, ⟨rfl, rfl, rfl, rfl, rfl, rfl, rfl, rfl⟩, rfl, fun h => ?_⟩
  have val : ∀ (s : Switches) (b : ℝ), functions_nonintegrated
      (({ wDen with pk_type := .COFFE_PK_NONLINEAR_HALOFIT, midpoint_approximation := true } : Par).bias
        (fun _ => b) |>.deriv s) wBg (fun _ => wConst 1) 1 0 1 = b * b := by
    intro s b
    simp [functions_nonintegrated, non_growth, non_result, non_den_den, non_rsd_rsd, non_den_rsd, non_d1_d1,
      non_d2_d2, non_g1_g1, non_g2_g2, non_g3_g3, non_den_d1, non_den_d2, non_den_g1, non_den_g2, non_den_g3,
      non_rsd_d1, non_rsd_d2, non_rsd_g1, non_rsd_g2, non_rsd_g3, non_d1_d2, non_d1_g1, non_d1_g2, non_d1_g3,
      non_d2_g1, non_d2_g2, non_d2_g3, non_g1_g2, non_g1_g3, non_g2_g3, Par.deriv, Par.bias, wDen, wPar, wBg,
      Contrib.none, NonEnv.of, Ints.I00, wConst]
  have h2 : HasDerivAt (fun e => functions_nonintegrated
      ((({ wDen with pk_type := .COFFE_PK_NONLINEAR_HALOFIT, midpoint_approximation := true } : Par).bias
        (fun x => (fun _ => (1 : ℝ)) x + e)).deriv {}) wBg (fun _ => wConst 1) 1 0 1) 2 0 :=
    hasDerivAt_quadratic (C := 1) fun e => by rw [val, val]; ring
  have h3 := h.unique h2
  rw [val] at h3
  norm_num at h3

/-- Non-vacuity: density and distortions in flat sky, a growth factor that is not one. -/
example : let par : Par := { wDen with correlation_contrib := { Contrib.none with den := true, rsd := true } }
    let bg : Bg := { wBg with D1 := fun _ => 3 }
    par.correlation_contrib.Kaiser ∧ par.flatsky_local = true ∧
    ¬ (par.pk_type ≠ .COFFE_PK_LINEAR ∧ par.midpoint_approximation) ∧ bg.D1 1 ≠ 0 ∧
    functions_nonintegrated ((par.bias fun _ => 2).deriv { b := true }) bg (fun _ => wConst 1) 1 1 1 = 30 := by
  refine ⟨⟨rfl, rfl, rfl, rfl, rfl, rfl, rfl, rfl⟩, rfl, by simp [wDen, wPar], by norm_num, ?_⟩
  refine (signal_kaiser_b _ _ _ _ _ _ ⟨rfl, rfl, rfl, rfl, rfl, rfl, rfl, rfl⟩ rfl (by simp [wDen, wPar, Par.bias])
    false).trans ?_
  simp [Par.bias, wDen, wPar, wBg, Contrib.none, Ints.I00, Ints.I02, wConst, legP2]
  norm_num

end Coffe
