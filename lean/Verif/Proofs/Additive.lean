import Verif.Proofs.Gates

/-! # Helper lemmas for additivity over pairs of effects -/

namespace Coffe
open Classical
set_option linter.unusedSimpArgs false

theorem full_auto (par : Par) (e : Effect) : (par.auto e).full = par.full := rfl
theorem full_cross (par : Par) (a b : Effect) : (par.cross a b).full = par.full := rfl

theorem non_result_pairs (bg : Bg) (I : Ints) (v : NonEnv) (par : Par) :
    SumsOverPairs (fun p => non_result p bg I v) par := by
  unfold SumsOverPairs
  simp only [sum_effect]
  simp only [non_result_gated, full_auto, full_cross, Contrib.ofFun, Contrib.has, Effect.rank]
  simp only [reduceCtorEq, decide_true, decide_false, Bool.or_false, Bool.or_true,
    Bool.false_eq_true, not_true_eq_false, not_false_eq_true, and_true, true_and, and_false,
    false_and, if_true, if_false, add_zero, zero_add, Nat.reduceLT, Nat.lt_irrefl, ite_self]
  ring1

theorem single_result_pairs (bg : Bg) (I : Ints) (v : SingleEnv) (par : Par) :
    SumsOverPairs (fun p => single_result p bg I v) par := by
  unfold SumsOverPairs
  simp only [sum_effect]
  simp only [single_result_gated, full_auto, full_cross, Contrib.ofFun, Contrib.has, Effect.rank]
  simp only [reduceCtorEq, decide_true, decide_false, Bool.or_false, Bool.or_true,
    Bool.false_eq_true, not_true_eq_false, not_false_eq_true, and_true, true_and, and_false,
    false_and, if_true, if_false, add_zero, zero_add, Nat.reduceLT, Nat.lt_irrefl, ite_self]
  ring1

theorem double_result_pairs (bg : Bg) (I : Ints) (v : DoubleEnv) (par : Par) :
    SumsOverPairs (fun p => double_result p bg I v) par := by
  unfold SumsOverPairs
  simp only [sum_effect]
  simp only [double_result_gated, full_auto, full_cross, Contrib.ofFun, Contrib.has, Effect.rank]
  simp only [reduceCtorEq, decide_true, decide_false, Bool.or_false, Bool.or_true,
    Bool.false_eq_true, not_true_eq_false, not_false_eq_true, and_true, true_and, and_false,
    false_and, if_true, if_false, add_zero, zero_add, Nat.reduceLT, Nat.lt_irrefl, ite_self]
  simp only [and_comm (a := par.correlation_contrib.len = true)
      (b := par.correlation_contrib.g4 = true),
    and_comm (a := par.correlation_contrib.len = true) (b := par.correlation_contrib.g5 = true)]
  ring1

theorem SumsOverPairs.add {F G : Par → ℝ} {par : Par} (hF : SumsOverPairs F par)
    (hG : SumsOverPairs G par) : SumsOverPairs (fun p => F p + G p) par := by
  unfold SumsOverPairs at *
  have ha : ∀ (P : Prop) [Decidable P] (a b : ℝ), (if P then a + b else 0)
      = (if P then a else 0) + (if P then b else 0) := by
    intro P _ a b; split_ifs <;> simp
  simp only [ha, Finset.sum_add_distrib]
  rw [hF, hG]; ring

/-- Additive functionals preserve sums over pairs. -/
theorem SumsOverPairs.map {X : Type*} (L : (X → ℝ) →+ ℝ) {F : Par → X → ℝ} {par : Par}
    (hF : ∀ x, SumsOverPairs (fun p => F p x) par) : SumsOverPairs (fun p => L (F p)) par := by
  unfold SumsOverPairs at *
  have h : F par = (∑ e : Effect, if par.correlation_contrib.has e ∧ ¬ par.only_cross_correlations
      then F (par.auto e) else 0)
    + ∑ a : Effect, ∑ b : Effect,
        if a.rank < b.rank ∧ par.correlation_contrib.has a ∧ par.correlation_contrib.has b
        then F (par.cross a b) else 0 := by
    funext x
    refine (hF x).trans ?_
    simp only [Pi.add_apply, Finset.sum_apply]
    congr 1
    · refine Finset.sum_congr rfl fun e _ => ?_
      split_ifs <;> rfl
    · refine Finset.sum_congr rfl fun a _ => Finset.sum_congr rfl fun b _ => ?_
      split_ifs <;> rfl
  have hite : ∀ (P : Prop) [Decidable P] (a : X → ℝ), L (if P then a else 0) = if P then L a else 0 := by
    intro P _ a; split_ifs <;> simp
  simp only [h, map_add, map_sum, hite]

theorem SumsOverPairs.const_mul {F : Par → ℝ} {par : Par} (c : ℝ)
    (hF : SumsOverPairs F par) : SumsOverPairs (fun p => c * F p) par := by
  have := SumsOverPairs.map (X := Unit) (F := fun p _ => F p) (par := par)
    { toFun := fun g => c * g (), map_zero' := by simp, map_add' := by intros; simp [mul_add] }
    (fun _ => hF)
  simpa using this

theorem SumsOverPairs.mul_const {F : Par → ℝ} {par : Par} (c : ℝ)
    (hF : SumsOverPairs F par) : SumsOverPairs (fun p => F p * c) par := by
  simpa [mul_comm] using hF.const_mul c

end Coffe
