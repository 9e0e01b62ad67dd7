import Verif.Model.Signal.Dispatch
import Verif.Spec.Contributions

/-!
# Helper lemmas: every term of the signal formulas is gated by its own pair of switches

For each term `t`: its value is `if (switches) then (value with everything switched on) else 0`.
-/

namespace Coffe
open Classical
set_option linter.unusedSimpArgs false
set_option linter.unusedVariables false

/-- Everything on, autos kept: the value of a term without its gate. -/
abbrev Par.full (par : Par) : Par :=
  { par with correlation_contrib := .ofFun (fun _ => true), only_cross_correlations := false }

theorem sum_effect {M : Type*} [AddCommMonoid M] (f : Effect → M) :
    ∑ e : Effect, f e = f .den + f .rsd + f .len + f .d1 + f .d2 + f .g1 + f .g2 + f .g3 + f .g4 + f .g5 := by
  have h : (Finset.univ : Finset Effect)
    = {.den, .rsd, .len, .d1, .d2, .g1, .g2, .g3, .g4, .g5} := by decide
  rw [h]
  simp [Finset.sum_insert, add_assoc]

theorem non_den_den_gate (par : Par) (bg : Bg) (I : Ints) (v : NonEnv) :
    non_den_den par bg I v = if par.correlation_contrib.den ∧ ¬ par.only_cross_correlations then non_den_den par.full bg I v else 0 := by
  unfold non_den_den
  by_cases h : par.correlation_contrib.den ∧ ¬ par.only_cross_correlations
  · simp only [if_pos h, Contrib.ofFun]; simp only [Bool.false_eq_true, not_false_eq_true, and_self, and_true, if_true]
  · simp only [if_neg h]

theorem non_rsd_rsd_gate (par : Par) (bg : Bg) (I : Ints) (v : NonEnv) :
    non_rsd_rsd par bg I v = if par.correlation_contrib.rsd ∧ ¬ par.only_cross_correlations then non_rsd_rsd par.full bg I v else 0 := by
  unfold non_rsd_rsd
  by_cases h : par.correlation_contrib.rsd ∧ ¬ par.only_cross_correlations
  · simp only [if_pos h, Contrib.ofFun]; simp only [Bool.false_eq_true, not_false_eq_true, and_self, and_true, if_true]
  · simp only [if_neg h]

theorem non_d1_d1_gate (par : Par) (bg : Bg) (I : Ints) (v : NonEnv) :
    non_d1_d1 par bg I v = if par.correlation_contrib.d1 ∧ ¬ par.only_cross_correlations then non_d1_d1 par.full bg I v else 0 := by
  unfold non_d1_d1
  by_cases h : par.correlation_contrib.d1 ∧ ¬ par.only_cross_correlations
  · simp only [if_pos h, Contrib.ofFun]; simp only [Bool.false_eq_true, not_false_eq_true, and_self, and_true, if_true]
  · simp only [if_neg h]

theorem non_d2_d2_gate (par : Par) (bg : Bg) (I : Ints) (v : NonEnv) :
    non_d2_d2 par bg I v = if par.correlation_contrib.d2 ∧ ¬ par.only_cross_correlations then non_d2_d2 par.full bg I v else 0 := by
  unfold non_d2_d2
  by_cases h : par.correlation_contrib.d2 ∧ ¬ par.only_cross_correlations
  · simp only [if_pos h, Contrib.ofFun]; simp only [Bool.false_eq_true, not_false_eq_true, and_self, and_true, if_true]
  · simp only [if_neg h]

theorem non_g1_g1_gate (par : Par) (bg : Bg) (I : Ints) (v : NonEnv) :
    non_g1_g1 par bg I v = if par.correlation_contrib.g1 ∧ ¬ par.only_cross_correlations then non_g1_g1 par.full bg I v else 0 := by
  unfold non_g1_g1
  by_cases h : par.correlation_contrib.g1 ∧ ¬ par.only_cross_correlations
  · simp only [if_pos h, Contrib.ofFun]; simp only [Bool.false_eq_true, not_false_eq_true, and_self, and_true, if_true]
  · simp only [if_neg h]

theorem non_g2_g2_gate (par : Par) (bg : Bg) (I : Ints) (v : NonEnv) :
    non_g2_g2 par bg I v = if par.correlation_contrib.g2 ∧ ¬ par.only_cross_correlations then non_g2_g2 par.full bg I v else 0 := by
  unfold non_g2_g2
  by_cases h : par.correlation_contrib.g2 ∧ ¬ par.only_cross_correlations
  · simp only [if_pos h, Contrib.ofFun]; simp only [Bool.false_eq_true, not_false_eq_true, and_self, and_true, if_true]
  · simp only [if_neg h]

theorem non_g3_g3_gate (par : Par) (bg : Bg) (I : Ints) (v : NonEnv) :
    non_g3_g3 par bg I v = if par.correlation_contrib.g3 ∧ ¬ par.only_cross_correlations then non_g3_g3 par.full bg I v else 0 := by
  unfold non_g3_g3
  by_cases h : par.correlation_contrib.g3 ∧ ¬ par.only_cross_correlations
  · simp only [if_pos h, Contrib.ofFun]; simp only [Bool.false_eq_true, not_false_eq_true, and_self, and_true, if_true]
  · simp only [if_neg h]

theorem non_den_rsd_gate (par : Par) (bg : Bg) (I : Ints) (v : NonEnv) :
    non_den_rsd par bg I v = if par.correlation_contrib.den ∧ par.correlation_contrib.rsd then non_den_rsd par.full bg I v else 0 := by
  unfold non_den_rsd
  by_cases h : par.correlation_contrib.den ∧ par.correlation_contrib.rsd
  · simp only [if_pos h, Contrib.ofFun]; simp only [Bool.false_eq_true, not_false_eq_true, and_self, and_true, if_true]
  · simp only [if_neg h]

theorem non_den_d1_gate (par : Par) (bg : Bg) (I : Ints) (v : NonEnv) :
    non_den_d1 par bg I v = if par.correlation_contrib.den ∧ par.correlation_contrib.d1 then non_den_d1 par.full bg I v else 0 := by
  unfold non_den_d1
  by_cases h : par.correlation_contrib.den ∧ par.correlation_contrib.d1
  · simp only [if_pos h, Contrib.ofFun]; simp only [Bool.false_eq_true, not_false_eq_true, and_self, and_true, if_true]
  · simp only [if_neg h]

theorem non_den_d2_gate (par : Par) (bg : Bg) (I : Ints) (v : NonEnv) :
    non_den_d2 par bg I v = if par.correlation_contrib.den ∧ par.correlation_contrib.d2 then non_den_d2 par.full bg I v else 0 := by
  unfold non_den_d2
  by_cases h : par.correlation_contrib.den ∧ par.correlation_contrib.d2
  · simp only [if_pos h, Contrib.ofFun]; simp only [Bool.false_eq_true, not_false_eq_true, and_self, and_true, if_true]
  · simp only [if_neg h]

theorem non_den_g1_gate (par : Par) (bg : Bg) (I : Ints) (v : NonEnv) :
    non_den_g1 par bg I v = if par.correlation_contrib.den ∧ par.correlation_contrib.g1 then non_den_g1 par.full bg I v else 0 := by
  unfold non_den_g1
  by_cases h : par.correlation_contrib.den ∧ par.correlation_contrib.g1
  · simp only [if_pos h, Contrib.ofFun]; simp only [Bool.false_eq_true, not_false_eq_true, and_self, and_true, if_true]
  · simp only [if_neg h]

theorem non_den_g2_gate (par : Par) (bg : Bg) (I : Ints) (v : NonEnv) :
    non_den_g2 par bg I v = if par.correlation_contrib.den ∧ par.correlation_contrib.g2 then non_den_g2 par.full bg I v else 0 := by
  unfold non_den_g2
  by_cases h : par.correlation_contrib.den ∧ par.correlation_contrib.g2
  · simp only [if_pos h, Contrib.ofFun]; simp only [Bool.false_eq_true, not_false_eq_true, and_self, and_true, if_true]
  · simp only [if_neg h]

theorem non_den_g3_gate (par : Par) (bg : Bg) (I : Ints) (v : NonEnv) :
    non_den_g3 par bg I v = if par.correlation_contrib.den ∧ par.correlation_contrib.g3 then non_den_g3 par.full bg I v else 0 := by
  unfold non_den_g3
  by_cases h : par.correlation_contrib.den ∧ par.correlation_contrib.g3
  · simp only [if_pos h, Contrib.ofFun]; simp only [Bool.false_eq_true, not_false_eq_true, and_self, and_true, if_true]
  · simp only [if_neg h]

theorem non_rsd_d1_gate (par : Par) (bg : Bg) (I : Ints) (v : NonEnv) :
    non_rsd_d1 par bg I v = if par.correlation_contrib.rsd ∧ par.correlation_contrib.d1 then non_rsd_d1 par.full bg I v else 0 := by
  unfold non_rsd_d1
  by_cases h : par.correlation_contrib.rsd ∧ par.correlation_contrib.d1
  · simp only [if_pos h, Contrib.ofFun]; simp only [Bool.false_eq_true, not_false_eq_true, and_self, and_true, if_true]
  · simp only [if_neg h]

theorem non_rsd_d2_gate (par : Par) (bg : Bg) (I : Ints) (v : NonEnv) :
    non_rsd_d2 par bg I v = if par.correlation_contrib.rsd ∧ par.correlation_contrib.d2 then non_rsd_d2 par.full bg I v else 0 := by
  unfold non_rsd_d2
  by_cases h : par.correlation_contrib.rsd ∧ par.correlation_contrib.d2
  · simp only [if_pos h, Contrib.ofFun]; simp only [Bool.false_eq_true, not_false_eq_true, and_self, and_true, if_true]
  · simp only [if_neg h]

theorem non_rsd_g1_gate (par : Par) (bg : Bg) (I : Ints) (v : NonEnv) :
    non_rsd_g1 par bg I v = if par.correlation_contrib.rsd ∧ par.correlation_contrib.g1 then non_rsd_g1 par.full bg I v else 0 := by
  unfold non_rsd_g1
  by_cases h : par.correlation_contrib.rsd ∧ par.correlation_contrib.g1
  · simp only [if_pos h, Contrib.ofFun]; simp only [Bool.false_eq_true, not_false_eq_true, and_self, and_true, if_true]
  · simp only [if_neg h]

theorem non_rsd_g2_gate (par : Par) (bg : Bg) (I : Ints) (v : NonEnv) :
    non_rsd_g2 par bg I v = if par.correlation_contrib.rsd ∧ par.correlation_contrib.g2 then non_rsd_g2 par.full bg I v else 0 := by
  unfold non_rsd_g2
  by_cases h : par.correlation_contrib.rsd ∧ par.correlation_contrib.g2
  · simp only [if_pos h, Contrib.ofFun]; simp only [Bool.false_eq_true, not_false_eq_true, and_self, and_true, if_true]
  · simp only [if_neg h]

theorem non_rsd_g3_gate (par : Par) (bg : Bg) (I : Ints) (v : NonEnv) :
    non_rsd_g3 par bg I v = if par.correlation_contrib.rsd ∧ par.correlation_contrib.g3 then non_rsd_g3 par.full bg I v else 0 := by
  unfold non_rsd_g3
  by_cases h : par.correlation_contrib.rsd ∧ par.correlation_contrib.g3
  · simp only [if_pos h, Contrib.ofFun]; simp only [Bool.false_eq_true, not_false_eq_true, and_self, and_true, if_true]
  · simp only [if_neg h]

theorem non_d1_d2_gate (par : Par) (bg : Bg) (I : Ints) (v : NonEnv) :
    non_d1_d2 par bg I v = if par.correlation_contrib.d1 ∧ par.correlation_contrib.d2 then non_d1_d2 par.full bg I v else 0 := by
  unfold non_d1_d2
  by_cases h : par.correlation_contrib.d1 ∧ par.correlation_contrib.d2
  · simp only [if_pos h, Contrib.ofFun]; simp only [Bool.false_eq_true, not_false_eq_true, and_self, and_true, if_true]
  · simp only [if_neg h]

theorem non_d1_g1_gate (par : Par) (bg : Bg) (I : Ints) (v : NonEnv) :
    non_d1_g1 par bg I v = if par.correlation_contrib.d1 ∧ par.correlation_contrib.g1 then non_d1_g1 par.full bg I v else 0 := by
  unfold non_d1_g1
  by_cases h : par.correlation_contrib.d1 ∧ par.correlation_contrib.g1
  · simp only [if_pos h, Contrib.ofFun]; simp only [Bool.false_eq_true, not_false_eq_true, and_self, and_true, if_true]
  · simp only [if_neg h]

theorem non_d1_g2_gate (par : Par) (bg : Bg) (I : Ints) (v : NonEnv) :
    non_d1_g2 par bg I v = if par.correlation_contrib.d1 ∧ par.correlation_contrib.g2 then non_d1_g2 par.full bg I v else 0 := by
  unfold non_d1_g2
  by_cases h : par.correlation_contrib.d1 ∧ par.correlation_contrib.g2
  · simp only [if_pos h, Contrib.ofFun]; simp only [Bool.false_eq_true, not_false_eq_true, and_self, and_true, if_true]
  · simp only [if_neg h]

theorem non_d1_g3_gate (par : Par) (bg : Bg) (I : Ints) (v : NonEnv) :
    non_d1_g3 par bg I v = if par.correlation_contrib.d1 ∧ par.correlation_contrib.g3 then non_d1_g3 par.full bg I v else 0 := by
  unfold non_d1_g3
  by_cases h : par.correlation_contrib.d1 ∧ par.correlation_contrib.g3
  · simp only [if_pos h, Contrib.ofFun]; simp only [Bool.false_eq_true, not_false_eq_true, and_self, and_true, if_true]
  · simp only [if_neg h]

theorem non_d2_g1_gate (par : Par) (bg : Bg) (I : Ints) (v : NonEnv) :
    non_d2_g1 par bg I v = if par.correlation_contrib.d2 ∧ par.correlation_contrib.g1 then non_d2_g1 par.full bg I v else 0 := by
  unfold non_d2_g1
  by_cases h : par.correlation_contrib.d2 ∧ par.correlation_contrib.g1
  · simp only [if_pos h, Contrib.ofFun]; simp only [Bool.false_eq_true, not_false_eq_true, and_self, and_true, if_true]
  · simp only [if_neg h]

theorem non_d2_g2_gate (par : Par) (bg : Bg) (I : Ints) (v : NonEnv) :
    non_d2_g2 par bg I v = if par.correlation_contrib.d2 ∧ par.correlation_contrib.g2 then non_d2_g2 par.full bg I v else 0 := by
  unfold non_d2_g2
  by_cases h : par.correlation_contrib.d2 ∧ par.correlation_contrib.g2
  · simp only [if_pos h, Contrib.ofFun]; simp only [Bool.false_eq_true, not_false_eq_true, and_self, and_true, if_true]
  · simp only [if_neg h]

theorem non_d2_g3_gate (par : Par) (bg : Bg) (I : Ints) (v : NonEnv) :
    non_d2_g3 par bg I v = if par.correlation_contrib.d2 ∧ par.correlation_contrib.g3 then non_d2_g3 par.full bg I v else 0 := by
  unfold non_d2_g3
  by_cases h : par.correlation_contrib.d2 ∧ par.correlation_contrib.g3
  · simp only [if_pos h, Contrib.ofFun]; simp only [Bool.false_eq_true, not_false_eq_true, and_self, and_true, if_true]
  · simp only [if_neg h]

theorem non_g1_g2_gate (par : Par) (bg : Bg) (I : Ints) (v : NonEnv) :
    non_g1_g2 par bg I v = if par.correlation_contrib.g1 ∧ par.correlation_contrib.g2 then non_g1_g2 par.full bg I v else 0 := by
  unfold non_g1_g2
  by_cases h : par.correlation_contrib.g1 ∧ par.correlation_contrib.g2
  · simp only [if_pos h, Contrib.ofFun]; simp only [Bool.false_eq_true, not_false_eq_true, and_self, and_true, if_true]
  · simp only [if_neg h]

theorem non_g1_g3_gate (par : Par) (bg : Bg) (I : Ints) (v : NonEnv) :
    non_g1_g3 par bg I v = if par.correlation_contrib.g1 ∧ par.correlation_contrib.g3 then non_g1_g3 par.full bg I v else 0 := by
  unfold non_g1_g3
  by_cases h : par.correlation_contrib.g1 ∧ par.correlation_contrib.g3
  · simp only [if_pos h, Contrib.ofFun]; simp only [Bool.false_eq_true, not_false_eq_true, and_self, and_true, if_true]
  · simp only [if_neg h]

theorem non_g2_g3_gate (par : Par) (bg : Bg) (I : Ints) (v : NonEnv) :
    non_g2_g3 par bg I v = if par.correlation_contrib.g2 ∧ par.correlation_contrib.g3 then non_g2_g3 par.full bg I v else 0 := by
  unfold non_g2_g3
  by_cases h : par.correlation_contrib.g2 ∧ par.correlation_contrib.g3
  · simp only [if_pos h, Contrib.ofFun]; simp only [Bool.false_eq_true, not_false_eq_true, and_self, and_true, if_true]
  · simp only [if_neg h]

/-- all gates of `non_result` -/
theorem non_result_gated (par : Par) (bg : Bg) (I : Ints) (v : NonEnv) :
    non_result par bg I v =
      (if par.correlation_contrib.den ∧ ¬ par.only_cross_correlations then non_den_den par.full bg I v else 0)
      + (if par.correlation_contrib.rsd ∧ ¬ par.only_cross_correlations then non_rsd_rsd par.full bg I v else 0)
      + (if par.correlation_contrib.d1 ∧ ¬ par.only_cross_correlations then non_d1_d1 par.full bg I v else 0)
      + (if par.correlation_contrib.d2 ∧ ¬ par.only_cross_correlations then non_d2_d2 par.full bg I v else 0)
      + (if par.correlation_contrib.g1 ∧ ¬ par.only_cross_correlations then non_g1_g1 par.full bg I v else 0)
      + (if par.correlation_contrib.g2 ∧ ¬ par.only_cross_correlations then non_g2_g2 par.full bg I v else 0)
      + (if par.correlation_contrib.g3 ∧ ¬ par.only_cross_correlations then non_g3_g3 par.full bg I v else 0)
      + (if par.correlation_contrib.den ∧ par.correlation_contrib.rsd then non_den_rsd par.full bg I v else 0)
      + (if par.correlation_contrib.den ∧ par.correlation_contrib.d1 then non_den_d1 par.full bg I v else 0)
      + (if par.correlation_contrib.den ∧ par.correlation_contrib.d2 then non_den_d2 par.full bg I v else 0)
      + (if par.correlation_contrib.den ∧ par.correlation_contrib.g1 then non_den_g1 par.full bg I v else 0)
      + (if par.correlation_contrib.den ∧ par.correlation_contrib.g2 then non_den_g2 par.full bg I v else 0)
      + (if par.correlation_contrib.den ∧ par.correlation_contrib.g3 then non_den_g3 par.full bg I v else 0)
      + (if par.correlation_contrib.rsd ∧ par.correlation_contrib.d1 then non_rsd_d1 par.full bg I v else 0)
      + (if par.correlation_contrib.rsd ∧ par.correlation_contrib.d2 then non_rsd_d2 par.full bg I v else 0)
      + (if par.correlation_contrib.rsd ∧ par.correlation_contrib.g1 then non_rsd_g1 par.full bg I v else 0)
      + (if par.correlation_contrib.rsd ∧ par.correlation_contrib.g2 then non_rsd_g2 par.full bg I v else 0)
      + (if par.correlation_contrib.rsd ∧ par.correlation_contrib.g3 then non_rsd_g3 par.full bg I v else 0)
      + (if par.correlation_contrib.d1 ∧ par.correlation_contrib.d2 then non_d1_d2 par.full bg I v else 0)
      + (if par.correlation_contrib.d1 ∧ par.correlation_contrib.g1 then non_d1_g1 par.full bg I v else 0)
      + (if par.correlation_contrib.d1 ∧ par.correlation_contrib.g2 then non_d1_g2 par.full bg I v else 0)
      + (if par.correlation_contrib.d1 ∧ par.correlation_contrib.g3 then non_d1_g3 par.full bg I v else 0)
      + (if par.correlation_contrib.d2 ∧ par.correlation_contrib.g1 then non_d2_g1 par.full bg I v else 0)
      + (if par.correlation_contrib.d2 ∧ par.correlation_contrib.g2 then non_d2_g2 par.full bg I v else 0)
      + (if par.correlation_contrib.d2 ∧ par.correlation_contrib.g3 then non_d2_g3 par.full bg I v else 0)
      + (if par.correlation_contrib.g1 ∧ par.correlation_contrib.g2 then non_g1_g2 par.full bg I v else 0)
      + (if par.correlation_contrib.g1 ∧ par.correlation_contrib.g3 then non_g1_g3 par.full bg I v else 0)
      + (if par.correlation_contrib.g2 ∧ par.correlation_contrib.g3 then non_g2_g3 par.full bg I v else 0) := by
  unfold non_result
  rw [non_den_den_gate]
  rw [non_rsd_rsd_gate]
  rw [non_d1_d1_gate]
  rw [non_d2_d2_gate]
  rw [non_g1_g1_gate]
  rw [non_g2_g2_gate]
  rw [non_g3_g3_gate]
  rw [non_den_rsd_gate]
  rw [non_den_d1_gate]
  rw [non_den_d2_gate]
  rw [non_den_g1_gate]
  rw [non_den_g2_gate]
  rw [non_den_g3_gate]
  rw [non_rsd_d1_gate]
  rw [non_rsd_d2_gate]
  rw [non_rsd_g1_gate]
  rw [non_rsd_g2_gate]
  rw [non_rsd_g3_gate]
  rw [non_d1_d2_gate]
  rw [non_d1_g1_gate]
  rw [non_d1_g2_gate]
  rw [non_d1_g3_gate]
  rw [non_d2_g1_gate]
  rw [non_d2_g2_gate]
  rw [non_d2_g3_gate]
  rw [non_g1_g2_gate]
  rw [non_g1_g3_gate]
  rw [non_g2_g3_gate]

theorem single_den_len_gate (par : Par) (bg : Bg) (I : Ints) (v : SingleEnv) :
    single_den_len par bg I v = if par.correlation_contrib.den ∧ par.correlation_contrib.len then single_den_len par.full bg I v else 0 := by
  unfold single_den_len
  by_cases h : par.correlation_contrib.den ∧ par.correlation_contrib.len
  · simp only [if_pos h, Contrib.ofFun]; simp only [Bool.false_eq_true, not_false_eq_true, and_self, and_true, if_true]
  · simp only [if_neg h]

theorem single_rsd_len_gate (par : Par) (bg : Bg) (I : Ints) (v : SingleEnv) :
    single_rsd_len par bg I v = if par.correlation_contrib.rsd ∧ par.correlation_contrib.len then single_rsd_len par.full bg I v else 0 := by
  unfold single_rsd_len
  by_cases h : par.correlation_contrib.rsd ∧ par.correlation_contrib.len
  · simp only [if_pos h, Contrib.ofFun]; simp only [Bool.false_eq_true, not_false_eq_true, and_self, and_true, if_true]
  · simp only [if_neg h]

theorem single_d1_len_gate (par : Par) (bg : Bg) (I : Ints) (v : SingleEnv) :
    single_d1_len par bg I v = if par.correlation_contrib.d1 ∧ par.correlation_contrib.len then single_d1_len par.full bg I v else 0 := by
  unfold single_d1_len
  by_cases h : par.correlation_contrib.d1 ∧ par.correlation_contrib.len
  · simp only [if_pos h, Contrib.ofFun]; simp only [Bool.false_eq_true, not_false_eq_true, and_self, and_true, if_true]
  · simp only [if_neg h]

theorem single_d2_len_gate (par : Par) (bg : Bg) (I : Ints) (v : SingleEnv) :
    single_d2_len par bg I v = if par.correlation_contrib.d2 ∧ par.correlation_contrib.len then single_d2_len par.full bg I v else 0 := by
  unfold single_d2_len
  by_cases h : par.correlation_contrib.d2 ∧ par.correlation_contrib.len
  · simp only [if_pos h, Contrib.ofFun]; simp only [Bool.false_eq_true, not_false_eq_true, and_self, and_true, if_true]
  · simp only [if_neg h]

theorem single_g1_len_gate (par : Par) (bg : Bg) (I : Ints) (v : SingleEnv) :
    single_g1_len par bg I v = if par.correlation_contrib.g1 ∧ par.correlation_contrib.len then single_g1_len par.full bg I v else 0 := by
  unfold single_g1_len
  by_cases h : par.correlation_contrib.g1 ∧ par.correlation_contrib.len
  · simp only [if_pos h, Contrib.ofFun]; simp only [Bool.false_eq_true, not_false_eq_true, and_self, and_true, if_true]
  · simp only [if_neg h]

theorem single_g2_len_gate (par : Par) (bg : Bg) (I : Ints) (v : SingleEnv) :
    single_g2_len par bg I v = if par.correlation_contrib.g2 ∧ par.correlation_contrib.len then single_g2_len par.full bg I v else 0 := by
  unfold single_g2_len
  by_cases h : par.correlation_contrib.g2 ∧ par.correlation_contrib.len
  · simp only [if_pos h, Contrib.ofFun]; simp only [Bool.false_eq_true, not_false_eq_true, and_self, and_true, if_true]
  · simp only [if_neg h]

theorem single_g3_len_gate (par : Par) (bg : Bg) (I : Ints) (v : SingleEnv) :
    single_g3_len par bg I v = if par.correlation_contrib.g3 ∧ par.correlation_contrib.len then single_g3_len par.full bg I v else 0 := by
  unfold single_g3_len
  by_cases h : par.correlation_contrib.g3 ∧ par.correlation_contrib.len
  · simp only [if_pos h, Contrib.ofFun]; simp only [Bool.false_eq_true, not_false_eq_true, and_self, and_true, if_true]
  · simp only [if_neg h]

theorem single_den_g4_gate (par : Par) (bg : Bg) (I : Ints) (v : SingleEnv) :
    single_den_g4 par bg I v = if par.correlation_contrib.den ∧ par.correlation_contrib.g4 then single_den_g4 par.full bg I v else 0 := by
  unfold single_den_g4
  by_cases h : par.correlation_contrib.den ∧ par.correlation_contrib.g4
  · simp only [if_pos h, Contrib.ofFun]; simp only [Bool.false_eq_true, not_false_eq_true, and_self, and_true, if_true]
  · simp only [if_neg h]

theorem single_den_g5_gate (par : Par) (bg : Bg) (I : Ints) (v : SingleEnv) :
    single_den_g5 par bg I v = if par.correlation_contrib.den ∧ par.correlation_contrib.g5 then single_den_g5 par.full bg I v else 0 := by
  unfold single_den_g5
  by_cases h : par.correlation_contrib.den ∧ par.correlation_contrib.g5
  · simp only [if_pos h, Contrib.ofFun]; simp only [Bool.false_eq_true, not_false_eq_true, and_self, and_true, if_true]
  · simp only [if_neg h]

theorem single_rsd_g4_gate (par : Par) (bg : Bg) (I : Ints) (v : SingleEnv) :
    single_rsd_g4 par bg I v = if par.correlation_contrib.rsd ∧ par.correlation_contrib.g4 then single_rsd_g4 par.full bg I v else 0 := by
  unfold single_rsd_g4
  by_cases h : par.correlation_contrib.rsd ∧ par.correlation_contrib.g4
  · simp only [if_pos h, Contrib.ofFun]; simp only [Bool.false_eq_true, not_false_eq_true, and_self, and_true, if_true]
  · simp only [if_neg h]

theorem single_rsd_g5_gate (par : Par) (bg : Bg) (I : Ints) (v : SingleEnv) :
    single_rsd_g5 par bg I v = if par.correlation_contrib.rsd ∧ par.correlation_contrib.g5 then single_rsd_g5 par.full bg I v else 0 := by
  unfold single_rsd_g5
  by_cases h : par.correlation_contrib.rsd ∧ par.correlation_contrib.g5
  · simp only [if_pos h, Contrib.ofFun]; simp only [Bool.false_eq_true, not_false_eq_true, and_self, and_true, if_true]
  · simp only [if_neg h]

theorem single_d1_g4_gate (par : Par) (bg : Bg) (I : Ints) (v : SingleEnv) :
    single_d1_g4 par bg I v = if par.correlation_contrib.d1 ∧ par.correlation_contrib.g4 then single_d1_g4 par.full bg I v else 0 := by
  unfold single_d1_g4
  by_cases h : par.correlation_contrib.d1 ∧ par.correlation_contrib.g4
  · simp only [if_pos h, Contrib.ofFun]; simp only [Bool.false_eq_true, not_false_eq_true, and_self, and_true, if_true]
  · simp only [if_neg h]

theorem single_d1_g5_gate (par : Par) (bg : Bg) (I : Ints) (v : SingleEnv) :
    single_d1_g5 par bg I v = if par.correlation_contrib.d1 ∧ par.correlation_contrib.g5 then single_d1_g5 par.full bg I v else 0 := by
  unfold single_d1_g5
  by_cases h : par.correlation_contrib.d1 ∧ par.correlation_contrib.g5
  · simp only [if_pos h, Contrib.ofFun]; simp only [Bool.false_eq_true, not_false_eq_true, and_self, and_true, if_true]
  · simp only [if_neg h]

theorem single_d2_g4_gate (par : Par) (bg : Bg) (I : Ints) (v : SingleEnv) :
    single_d2_g4 par bg I v = if par.correlation_contrib.d2 ∧ par.correlation_contrib.g4 then single_d2_g4 par.full bg I v else 0 := by
  unfold single_d2_g4
  by_cases h : par.correlation_contrib.d2 ∧ par.correlation_contrib.g4
  · simp only [if_pos h, Contrib.ofFun]; simp only [Bool.false_eq_true, not_false_eq_true, and_self, and_true, if_true]
  · simp only [if_neg h]

theorem single_d2_g5_gate (par : Par) (bg : Bg) (I : Ints) (v : SingleEnv) :
    single_d2_g5 par bg I v = if par.correlation_contrib.d2 ∧ par.correlation_contrib.g5 then single_d2_g5 par.full bg I v else 0 := by
  unfold single_d2_g5
  by_cases h : par.correlation_contrib.d2 ∧ par.correlation_contrib.g5
  · simp only [if_pos h, Contrib.ofFun]; simp only [Bool.false_eq_true, not_false_eq_true, and_self, and_true, if_true]
  · simp only [if_neg h]

theorem single_g1_g4_gate (par : Par) (bg : Bg) (I : Ints) (v : SingleEnv) :
    single_g1_g4 par bg I v = if par.correlation_contrib.g1 ∧ par.correlation_contrib.g4 then single_g1_g4 par.full bg I v else 0 := by
  unfold single_g1_g4
  by_cases h : par.correlation_contrib.g1 ∧ par.correlation_contrib.g4
  · simp only [if_pos h, Contrib.ofFun]; simp only [Bool.false_eq_true, not_false_eq_true, and_self, and_true, if_true]
  · simp only [if_neg h]

theorem single_g1_g5_gate (par : Par) (bg : Bg) (I : Ints) (v : SingleEnv) :
    single_g1_g5 par bg I v = if par.correlation_contrib.g1 ∧ par.correlation_contrib.g5 then single_g1_g5 par.full bg I v else 0 := by
  unfold single_g1_g5
  by_cases h : par.correlation_contrib.g1 ∧ par.correlation_contrib.g5
  · simp only [if_pos h, Contrib.ofFun]; simp only [Bool.false_eq_true, not_false_eq_true, and_self, and_true, if_true]
  · simp only [if_neg h]

theorem single_g2_g4_gate (par : Par) (bg : Bg) (I : Ints) (v : SingleEnv) :
    single_g2_g4 par bg I v = if par.correlation_contrib.g2 ∧ par.correlation_contrib.g4 then single_g2_g4 par.full bg I v else 0 := by
  unfold single_g2_g4
  by_cases h : par.correlation_contrib.g2 ∧ par.correlation_contrib.g4
  · simp only [if_pos h, Contrib.ofFun]; simp only [Bool.false_eq_true, not_false_eq_true, and_self, and_true, if_true]
  · simp only [if_neg h]

theorem single_g2_g5_gate (par : Par) (bg : Bg) (I : Ints) (v : SingleEnv) :
    single_g2_g5 par bg I v = if par.correlation_contrib.g2 ∧ par.correlation_contrib.g5 then single_g2_g5 par.full bg I v else 0 := by
  unfold single_g2_g5
  by_cases h : par.correlation_contrib.g2 ∧ par.correlation_contrib.g5
  · simp only [if_pos h, Contrib.ofFun]; simp only [Bool.false_eq_true, not_false_eq_true, and_self, and_true, if_true]
  · simp only [if_neg h]

theorem single_g3_g4_gate (par : Par) (bg : Bg) (I : Ints) (v : SingleEnv) :
    single_g3_g4 par bg I v = if par.correlation_contrib.g3 ∧ par.correlation_contrib.g4 then single_g3_g4 par.full bg I v else 0 := by
  unfold single_g3_g4
  by_cases h : par.correlation_contrib.g3 ∧ par.correlation_contrib.g4
  · simp only [if_pos h, Contrib.ofFun]; simp only [Bool.false_eq_true, not_false_eq_true, and_self, and_true, if_true]
  · simp only [if_neg h]

theorem single_g3_g5_gate (par : Par) (bg : Bg) (I : Ints) (v : SingleEnv) :
    single_g3_g5 par bg I v = if par.correlation_contrib.g3 ∧ par.correlation_contrib.g5 then single_g3_g5 par.full bg I v else 0 := by
  unfold single_g3_g5
  by_cases h : par.correlation_contrib.g3 ∧ par.correlation_contrib.g5
  · simp only [if_pos h, Contrib.ofFun]; simp only [Bool.false_eq_true, not_false_eq_true, and_self, and_true, if_true]
  · simp only [if_neg h]

/-- all gates of `single_result` -/
theorem single_result_gated (par : Par) (bg : Bg) (I : Ints) (v : SingleEnv) :
    single_result par bg I v =
      (if par.correlation_contrib.den ∧ par.correlation_contrib.len then single_den_len par.full bg I v else 0)
      + (if par.correlation_contrib.rsd ∧ par.correlation_contrib.len then single_rsd_len par.full bg I v else 0)
      + (if par.correlation_contrib.d1 ∧ par.correlation_contrib.len then single_d1_len par.full bg I v else 0)
      + (if par.correlation_contrib.d2 ∧ par.correlation_contrib.len then single_d2_len par.full bg I v else 0)
      + (if par.correlation_contrib.g1 ∧ par.correlation_contrib.len then single_g1_len par.full bg I v else 0)
      + (if par.correlation_contrib.g2 ∧ par.correlation_contrib.len then single_g2_len par.full bg I v else 0)
      + (if par.correlation_contrib.g3 ∧ par.correlation_contrib.len then single_g3_len par.full bg I v else 0)
      + (if par.correlation_contrib.den ∧ par.correlation_contrib.g4 then single_den_g4 par.full bg I v else 0)
      + (if par.correlation_contrib.den ∧ par.correlation_contrib.g5 then single_den_g5 par.full bg I v else 0)
      + (if par.correlation_contrib.rsd ∧ par.correlation_contrib.g4 then single_rsd_g4 par.full bg I v else 0)
      + (if par.correlation_contrib.rsd ∧ par.correlation_contrib.g5 then single_rsd_g5 par.full bg I v else 0)
      + (if par.correlation_contrib.d1 ∧ par.correlation_contrib.g4 then single_d1_g4 par.full bg I v else 0)
      + (if par.correlation_contrib.d1 ∧ par.correlation_contrib.g5 then single_d1_g5 par.full bg I v else 0)
      + (if par.correlation_contrib.d2 ∧ par.correlation_contrib.g4 then single_d2_g4 par.full bg I v else 0)
      + (if par.correlation_contrib.d2 ∧ par.correlation_contrib.g5 then single_d2_g5 par.full bg I v else 0)
      + (if par.correlation_contrib.g1 ∧ par.correlation_contrib.g4 then single_g1_g4 par.full bg I v else 0)
      + (if par.correlation_contrib.g1 ∧ par.correlation_contrib.g5 then single_g1_g5 par.full bg I v else 0)
      + (if par.correlation_contrib.g2 ∧ par.correlation_contrib.g4 then single_g2_g4 par.full bg I v else 0)
      + (if par.correlation_contrib.g2 ∧ par.correlation_contrib.g5 then single_g2_g5 par.full bg I v else 0)
      + (if par.correlation_contrib.g3 ∧ par.correlation_contrib.g4 then single_g3_g4 par.full bg I v else 0)
      + (if par.correlation_contrib.g3 ∧ par.correlation_contrib.g5 then single_g3_g5 par.full bg I v else 0) := by
  unfold single_result
  rw [single_den_len_gate]
  rw [single_rsd_len_gate]
  rw [single_d1_len_gate]
  rw [single_d2_len_gate]
  rw [single_g1_len_gate]
  rw [single_g2_len_gate]
  rw [single_g3_len_gate]
  rw [single_den_g4_gate]
  rw [single_den_g5_gate]
  rw [single_rsd_g4_gate]
  rw [single_rsd_g5_gate]
  rw [single_d1_g4_gate]
  rw [single_d1_g5_gate]
  rw [single_d2_g4_gate]
  rw [single_d2_g5_gate]
  rw [single_g1_g4_gate]
  rw [single_g1_g5_gate]
  rw [single_g2_g4_gate]
  rw [single_g2_g5_gate]
  rw [single_g3_g4_gate]
  rw [single_g3_g5_gate]

theorem double_len_len_gate (par : Par) (bg : Bg) (I : Ints) (v : DoubleEnv) :
    double_len_len par bg I v = if par.correlation_contrib.len ∧ ¬ par.only_cross_correlations then double_len_len par.full bg I v else 0 := by
  unfold double_len_len
  by_cases h : par.correlation_contrib.len ∧ ¬ par.only_cross_correlations
  · simp only [if_pos h, Contrib.ofFun]; simp only [Bool.false_eq_true, not_false_eq_true, and_self, and_true, if_true]
  · simp only [if_neg h]

theorem double_g4_g4_gate (par : Par) (bg : Bg) (I : Ints) (v : DoubleEnv) :
    double_g4_g4 par bg I v = if par.correlation_contrib.g4 ∧ ¬ par.only_cross_correlations then double_g4_g4 par.full bg I v else 0 := by
  unfold double_g4_g4
  by_cases h : par.correlation_contrib.g4 ∧ ¬ par.only_cross_correlations
  · simp only [if_pos h, Contrib.ofFun]; simp only [Bool.false_eq_true, not_false_eq_true, and_self, and_true, if_true]
  · simp only [if_neg h]

theorem double_g5_g5_gate (par : Par) (bg : Bg) (I : Ints) (v : DoubleEnv) :
    double_g5_g5 par bg I v = if par.correlation_contrib.g5 ∧ ¬ par.only_cross_correlations then double_g5_g5 par.full bg I v else 0 := by
  unfold double_g5_g5
  by_cases h : par.correlation_contrib.g5 ∧ ¬ par.only_cross_correlations
  · simp only [if_pos h, Contrib.ofFun]; simp only [Bool.false_eq_true, not_false_eq_true, and_self, and_true, if_true]
  · simp only [if_neg h]

theorem double_g4_len_gate (par : Par) (bg : Bg) (I : Ints) (v : DoubleEnv) :
    double_g4_len par bg I v = if par.correlation_contrib.g4 ∧ par.correlation_contrib.len then double_g4_len par.full bg I v else 0 := by
  unfold double_g4_len
  by_cases h : par.correlation_contrib.g4 ∧ par.correlation_contrib.len
  · simp only [if_pos h, Contrib.ofFun]; simp only [Bool.false_eq_true, not_false_eq_true, and_self, and_true, if_true]
  · simp only [if_neg h]

theorem double_g5_len_gate (par : Par) (bg : Bg) (I : Ints) (v : DoubleEnv) :
    double_g5_len par bg I v = if par.correlation_contrib.g5 ∧ par.correlation_contrib.len then double_g5_len par.full bg I v else 0 := by
  unfold double_g5_len
  by_cases h : par.correlation_contrib.g5 ∧ par.correlation_contrib.len
  · simp only [if_pos h, Contrib.ofFun]; simp only [Bool.false_eq_true, not_false_eq_true, and_self, and_true, if_true]
  · simp only [if_neg h]

theorem double_g4_g5_gate (par : Par) (bg : Bg) (I : Ints) (v : DoubleEnv) :
    double_g4_g5 par bg I v = if par.correlation_contrib.g4 ∧ par.correlation_contrib.g5 then double_g4_g5 par.full bg I v else 0 := by
  unfold double_g4_g5
  by_cases h : par.correlation_contrib.g4 ∧ par.correlation_contrib.g5
  · simp only [if_pos h, Contrib.ofFun]; simp only [Bool.false_eq_true, not_false_eq_true, and_self, and_true, if_true]
  · simp only [if_neg h]

/-- all gates of `double_result` -/
theorem double_result_gated (par : Par) (bg : Bg) (I : Ints) (v : DoubleEnv) :
    double_result par bg I v =
      (if par.correlation_contrib.len ∧ ¬ par.only_cross_correlations then double_len_len par.full bg I v else 0)
      + (if par.correlation_contrib.g4 ∧ ¬ par.only_cross_correlations then double_g4_g4 par.full bg I v else 0)
      + (if par.correlation_contrib.g5 ∧ ¬ par.only_cross_correlations then double_g5_g5 par.full bg I v else 0)
      + (if par.correlation_contrib.g4 ∧ par.correlation_contrib.len then double_g4_len par.full bg I v else 0)
      + (if par.correlation_contrib.g5 ∧ par.correlation_contrib.len then double_g5_len par.full bg I v else 0)
      + (if par.correlation_contrib.g4 ∧ par.correlation_contrib.g5 then double_g4_g5 par.full bg I v else 0) := by
  unfold double_result
  rw [double_len_len_gate]
  rw [double_g4_g4_gate]
  rw [double_g5_g5_gate]
  rw [double_g4_len_gate]
  rw [double_g5_len_gate]
  rw [double_g4_g5_gate]

end Coffe
