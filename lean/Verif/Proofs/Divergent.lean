import Verif.Proofs.FrameSignal
import Verif.Model.Python.Compute

/-! # Helper lemmas: the `divergent` switch is irrelevant when no term needs the divergent integral -/

namespace Coffe
open Classical

theorem Contrib.divergent_false {c : Contrib} (h : c.divergent = false) :
    c.d2 = false ∧ c.g1 = false ∧ c.g2 = false ∧ c.g3 = false ∧ c.g4 = false ∧ c.g5 = false := by
  simp only [Contrib.divergent, Bool.or_eq_false_iff] at h
  tauto

theorem fun_non_div (par : Par) (bg : Bg) (I : Ints) (d : Bool) (z mu sep : ℝ) :
    functions_nonintegrated { par with divergent := d } bg I z mu sep =
      functions_nonintegrated par bg I z mu sep := rfl

theorem fun_single_div (par : Par) (h : par.correlation_contrib.divergent = false) (bg : Bg) (I : Ints)
    (d : Bool) (z mu sep x : ℝ) :
    functions_single_integrated { par with divergent := d } bg I z mu sep x =
      functions_single_integrated par bg I z mu sep x := by
  obtain ⟨h1, h2, h3, h4, h5, h6⟩ := Contrib.divergent_false h
  have e1 : single_den_len { par with divergent := d } bg I
      (SingleEnv.of { par with divergent := d } bg I z mu sep x) =
      single_den_len par bg I (SingleEnv.of par bg I z mu sep x) := rfl
  have e2 : single_rsd_len { par with divergent := d } bg I
      (SingleEnv.of { par with divergent := d } bg I z mu sep x) =
      single_rsd_len par bg I (SingleEnv.of par bg I z mu sep x) := rfl
  have e3 : single_d1_len { par with divergent := d } bg I
      (SingleEnv.of { par with divergent := d } bg I z mu sep x) =
      single_d1_len par bg I (SingleEnv.of par bg I z mu sep x) := rfl
  unfold functions_single_integrated single_result
  rw [e1, e2, e3]
  generalize SingleEnv.of par bg I z mu sep x = v
  generalize SingleEnv.of { par with divergent := d } bg I z mu sep x = v'
  simp [single_d2_len, single_g1_len, single_g2_len, single_g3_len, single_den_g4, single_den_g5,
    single_rsd_g4, single_rsd_g5, single_d1_g4, single_d1_g5, single_d2_g4, single_d2_g5, single_g1_g4,
    single_g1_g5, single_g2_g4, single_g2_g5, single_g3_g4, single_g3_g5, h1, h2, h3, h4, h5, h6]

theorem fun_double_div (par : Par) (h : par.correlation_contrib.divergent = false) (bg : Bg) (I : Ints)
    (d : Bool) (z mu sep x y : ℝ) :
    functions_double_integrated { par with divergent := d } bg I z mu sep x y =
      functions_double_integrated par bg I z mu sep x y := by
  obtain ⟨h1, h2, h3, h4, h5, h6⟩ := Contrib.divergent_false h
  have e1 : double_len_len { par with divergent := d } bg I
      (DoubleEnv.of { par with divergent := d } bg I z mu sep x y) =
      double_len_len par bg I (DoubleEnv.of par bg I z mu sep x y) := rfl
  unfold functions_double_integrated double_result
  rw [e1]
  generalize DoubleEnv.of par bg I z mu sep x y = v
  generalize DoubleEnv.of { par with divergent := d } bg I z mu sep x y = v'
  simp [double_g4_g4, double_g5_g5, double_g4_len, double_g5_len, double_g4_g5, h5, h6]

theorem signal_value_div (Q : Quad) (par : Par) (h : par.correlation_contrib.divergent = false)
    (bg : Bg) (I : Ints) (d : Bool) (z zmin zmax sep mu : ℝ) (l : ℕ) (out : OutputType) :
    signal_value Q { par with divergent := d } bg I z zmin zmax sep mu l out =
      signal_value Q par bg I z zmin zmax sep mu l out := by
  have hn : functions_nonintegrated { par with divergent := d } bg I =
      functions_nonintegrated par bg I := rfl
  have hs : functions_single_integrated { par with divergent := d } bg I =
      functions_single_integrated par bg I := by
    funext; exact fun_single_div par h bg I d _ _ _ _
  have hd : functions_double_integrated { par with divergent := d } bg I =
      functions_double_integrated par bg I := by
    funext; exact fun_double_div par h bg I d _ _ _ _ _
  have f1 : flatsky_den_len_multipoles { par with divergent := d } bg I =
      flatsky_den_len_multipoles par bg I := rfl
  have f2 : flatsky_len_len_multipoles { par with divergent := d } bg I =
      flatsky_len_len_multipoles par bg I := rfl
  have w : average_weight { par with divergent := d } bg = average_weight par bg := rfl
  have m1 : multipoles_nonintegrated_integrand { par with divergent := d } bg I =
      multipoles_nonintegrated_integrand par bg I := by
    funext; simp only [multipoles_nonintegrated_integrand, hn]
  have m2 : multipoles_single_integrated_integrand { par with divergent := d } bg I =
      multipoles_single_integrated_integrand par bg I := by
    funext; simp only [multipoles_single_integrated_integrand, hs]
  have m3 : multipoles_double_integrated_integrand { par with divergent := d } bg I =
      multipoles_double_integrated_integrand par bg I := by
    funext; simp only [multipoles_double_integrated_integrand, hd]
  have a1 : average_nonintegrated_integrand { par with divergent := d } bg I =
      average_nonintegrated_integrand par bg I := by
    funext; simp only [average_nonintegrated_integrand, hn, w]
  have a2 : average_single_integrated_integrand { par with divergent := d } bg I =
      average_single_integrated_integrand par bg I := by
    funext; simp only [average_single_integrated_integrand, hs, w]
  have a3 : average_double_integrated_integrand { par with divergent := d } bg I =
      average_double_integrated_integrand par bg I := by
    funext; simp only [average_double_integrated_integrand, hd, w]
  have g1 : single_flat_gate { par with divergent := d } = single_flat_gate par := rfl
  have g2 : single_multi_gate { par with divergent := d } = single_multi_gate par := rfl
  have g3 : double_flat_gate { par with divergent := d } l = double_flat_gate par l := rfl
  have g4 : double_multi_gate { par with divergent := d } = double_multi_gate par := rfl
  cases out <;>
    simp only [signal_value, coffe_integrate, integrate_non, integrate_single, integrate_double, hn, hs,
      hd, f1, f2, m1, m2, m3, a1, a2, a3, g1, g2, g3, g4]

end Coffe
