import Verif.Proofs.Scale
import Verif.Spec.Witness
import Mathlib.Tactic.NormNum

/-!
# C57, C58: the signal is proportional to the power spectrum and to the square of the growth factor

Vocabulary: `Verif/Spec/Scale.lean`.
-/

namespace Coffe
open Classical

/-! ## From integrands to signal values -/

theorem signal_value_scale (Q : Quad) (hQ : Q.Homogeneous) (par : Par) (bg bg' : Bg) (I I' : Ints) (c : ℝ)
    (hb : bg'.comoving_distance = bg.comoving_distance ∧ bg'.z_as_chi = bg.z_as_chi ∧
      bg'.conformal_Hz = bg.conformal_Hz)
    (hn : ∀ z mu s, functions_nonintegrated par bg' I' z mu s = c * functions_nonintegrated par bg I z mu s)
    (hs : ∀ z mu s x, functions_single_integrated par bg' I' z mu s x =
      c * functions_single_integrated par bg I z mu s x)
    (hd : ∀ z mu s x y, functions_double_integrated par bg' I' z mu s x y =
      c * functions_double_integrated par bg I z mu s x y)
    (hf : ∀ z s l, flatsky_den_len_multipoles par bg' I' z s l = c * flatsky_den_len_multipoles par bg I z s l)
    (hl : ∀ z s l x, flatsky_len_len_multipoles par bg' I' z s l x =
      c * flatsky_len_len_multipoles par bg I z s l x)
    (z zmin zmax sep mu : ℝ) (l : ℕ) (out : OutputType) :
    signal_value Q par bg' I' z zmin zmax sep mu l out = c * signal_value Q par bg I z zmin zmax sep mu l out := by
  obtain ⟨h1, h2, h3⟩ := hb
  have hz : average_z bg' = average_z bg := by unfold average_z; rw [h1, h2]
  have hw : average_weight par bg' = average_weight par bg := by unfold average_weight; rw [h3]
  have e1 : ∀ z s l, multipoles_nonintegrated_integrand par bg' I' z s l =
      fun x => c * multipoles_nonintegrated_integrand par bg I z s l x := by
    intro z s l; funext x; simp only [multipoles_nonintegrated_integrand, hn]; ring
  have e2 : ∀ z s l, multipoles_single_integrated_integrand par bg' I' z s l =
      fun x => c * multipoles_single_integrated_integrand par bg I z s l x := by
    intro z s l; funext x; simp only [multipoles_single_integrated_integrand, hs]; ring
  have e3 : ∀ z s l, multipoles_double_integrated_integrand par bg' I' z s l =
      fun x => c * multipoles_double_integrated_integrand par bg I z s l x := by
    intro z s l; funext x; simp only [multipoles_double_integrated_integrand, hd]; ring
  have e4 : ∀ a b s l, average_nonintegrated_integrand par bg' I' a b s l =
      fun x => c * average_nonintegrated_integrand par bg I a b s l x := by
    intro a b s l; funext x; simp only [average_nonintegrated_integrand, hn, hz, hw]; ring
  have e5 : ∀ a b s l, average_single_integrated_integrand par bg' I' a b s l =
      fun x => c * average_single_integrated_integrand par bg I a b s l x := by
    intro a b s l; funext x; simp only [average_single_integrated_integrand, hs, hz, hw]; ring
  have e6 : ∀ a b s l, average_double_integrated_integrand par bg' I' a b s l =
      fun x => c * average_double_integrated_integrand par bg I a b s l x := by
    intro a b s l; funext x; simp only [average_double_integrated_integrand, hd, hz, hw]; ring
  cases out <;>
    simp only [signal_value, coffe_integrate, integrate_non, integrate_single, integrate_double, e1, e2, e3, e4,
      e5, e6, hn, hs, hd, hf, hl, hQ.one, hQ.multi] <;>
    split_ifs <;> ring

/-! ## Proportional to the power spectrum -/

/-- **C57, no integral along the line of sight.** Multiplying the power spectrum by `c` multiplies the
correlation function by `c`: all effects, modes, splines and coordinates. -/
theorem C57_nonintegrated (par : Par) (bg : Bg) (I : Ints) (c z mu s : ℝ) :
    functions_nonintegrated par bg (I.amp c) z mu s = c * functions_nonintegrated par bg I z mu s := by
  simp only [functions_nonintegrated, non_result_amp]; ring

/-- **C57, one integral along the line of sight.** -/
theorem C57_single (par : Par) (bg : Bg) (I : Ints) (c z mu s x : ℝ) :
    functions_single_integrated par bg (I.amp c) z mu s x = c * functions_single_integrated par bg I z mu s x := by
  have he : SingleEnv.of par bg (I.amp c) z mu s x =
      { SingleEnv.of par bg I z mu s x with ren1 := c * (SingleEnv.of par bg I z mu s x).ren1,
                                            ren2 := c * (SingleEnv.of par bg I z mu s x).ren2 } := by
    simp only [SingleEnv.of, Ints.amp, Ints.I40, SingleEnv.mk.injEq, true_and]
    constructor <;> split_ifs <;> ring
  simp only [functions_single_integrated]
  rw [he, single_result_amp]
  try ring

/-- **C57, two integrals along the line of sight (partial).**  Missing: the lensing-lensing term at two
coincident points of the lines of sight, where the property is false (`C57_coincident_false`). -/
theorem C57_double_partial (par : Par) (bg : Bg) (I : Ints) (c z mu s x y : ℝ)
    (h0 : par.correlation_contrib.len = true → par.only_cross_correlations = false →
      par.flatsky_nonlocal = false → (DoubleEnv.of par bg I z mu s x y).r2 > 1e-20) :
    functions_double_integrated par bg (I.amp c) z mu s x y =
      c * functions_double_integrated par bg I z mu s x y := by
  have he : DoubleEnv.of par bg (I.amp c) z mu s x y =
      { DoubleEnv.of par bg I z mu s x y with ren := c * (DoubleEnv.of par bg I z mu s x y).ren } := by
    simp only [DoubleEnv.of, Ints.amp, Ints.I40, DoubleEnv.mk.injEq, true_and]
    split_ifs <;> ring
  simp only [functions_double_integrated]
  rw [he, double_result_amp _ _ _ _ _ h0]
  ring

theorem den_len_multipoles_amp (par : Par) (bg : Bg) (I : Ints) (c z s : ℝ) (l : ℕ) :
    flatsky_den_len_multipoles par bg (I.amp c) z s l = c * flatsky_den_len_multipoles par bg I z s l := by
  have e1 : ∀ (f : ℕ → ℝ) (g : ℕ → ℝ), (∑ k ∈ Finset.range (l / 2 + 1), f k * (c * g k)) =
      c * ∑ k ∈ Finset.range (l / 2 + 1), f k * g k := by
    intro f g
    rw [Finset.mul_sum]
    exact Finset.sum_congr rfl fun k _ => by ring
  simp only [flatsky_den_len_multipoles, Ints.amp, e1]
  split_ifs <;> ring

theorem len_len_multipoles_amp (par : Par) (bg : Bg) (I : Ints) (c z s : ℝ) (l : ℕ) (x : ℝ) :
    flatsky_len_len_multipoles par bg (I.amp c) z s l x = c * flatsky_len_len_multipoles par bg I z s l x := by
  simp only [flatsky_len_len_multipoles, Ints.amp]
  split_ifs <;> ring

/-- **C57 (partial).** Every value of the correlation function, of its multipoles and of its averaged
multipoles is proportional to the power spectrum.  Missing: the lensing-lensing term without the flat-sky
approximation, whose integrand is proportional to the spectrum except at coincident points
(`C57_double_partial`, `C57_coincident_false`). -/
theorem C57_signal_partial (Q : Quad) (hQ : Q.Homogeneous) (par : Par) (bg : Bg) (I : Ints) (c : ℝ)
    (h0 : par.correlation_contrib.len = true → par.only_cross_correlations = true ∨ par.flatsky_nonlocal = true)
    (z zmin zmax sep mu : ℝ) (l : ℕ) (out : OutputType) :
    signal_value Q par bg (I.amp c) z zmin zmax sep mu l out =
      c * signal_value Q par bg I z zmin zmax sep mu l out := by
  refine signal_value_scale Q hQ par bg bg I _ c ⟨rfl, rfl, rfl⟩ (fun z mu s => C57_nonintegrated _ _ _ _ _ _ _)
    (fun z mu s x => C57_single _ _ _ _ _ _ _ _) (fun z mu s x y => C57_double_partial _ _ _ _ _ _ _ _ _ ?_)
    (fun z s l => den_len_multipoles_amp _ _ _ _ _ _ _) (fun z s l x => len_len_multipoles_amp _ _ _ _ _ _ _ _)
    z zmin zmax sep mu l out
  intro h1 h2 h3
  rcases h0 h1 with h | h <;> simp_all

/-- **C57 fails at coincident points.** With lensing on and a power spectrum that is zero everywhere, the
lensing-lensing integrand at the observer is not zero. -/
theorem C57_coincident_false :
    functions_double_integrated { wPar with correlation_contrib := { Contrib.none with len := true } } wBg
      (Ints.amp (fun _ => wConst 1) 0) 2 0 1 0 0 ≠
    0 * functions_double_integrated { wPar with correlation_contrib := { Contrib.none with len := true } } wBg
      (fun _ => wConst 1) 2 0 1 0 0 := by
  simp [functions_double_integrated, double_result, double_len_len, double_g4_g4, double_g5_g5, double_g4_len,
    double_g5_len, double_g4_g5, DoubleEnv.of, Ints.amp, wPar, wBg, Contrib.none, COFFE_H0, wConst]
  norm_num

/-! ## Proportional to the square of the growth factor -/

/-- **C58, no integral along the line of sight.**  `hm` excludes the two modes covered by `C58_tilde`. -/
theorem C58_nonintegrated (par : Par) (hl : par.pk_type = .COFFE_PK_LINEAR) (bg : Bg) (I : Ints) (c z mu s : ℝ)
    (hm : (par.b_tilde_derivative = true ∨ par.f_tilde_derivative = true) →
      par.b_derivative = true ∨ par.f_derivative = true) :
    functions_nonintegrated par (bg.growth c) I z mu s = c ^ 2 * functions_nonintegrated par bg I z mu s := by
  have he : NonEnv.of par (bg.growth c) z mu s = NonEnv.of par bg z mu s := rfl
  simp only [functions_nonintegrated, non_result_growth, non_growth, he, hl, ne_eq, not_true_eq_false, false_and,
    if_false]
  simp only [Bg.growth]
  split_ifs with h1 h2 h3
  · ring
  · exact absurd (hm h2) h1
  · ring
  · ring

/-- **C58, derivatives with respect to `b D1` or `f D1`.**  One power of the growth factor is left. -/
theorem C58_tilde (par : Par) (hl : par.pk_type = .COFFE_PK_LINEAR) (bg : Bg) (I : Ints) (c z mu s : ℝ)
    (hm : par.b_tilde_derivative = true ∨ par.f_tilde_derivative = true)
    (hm' : par.b_derivative = false ∧ par.f_derivative = false) :
    functions_nonintegrated par (bg.growth c) I z mu s = c * functions_nonintegrated par bg I z mu s := by
  have he : NonEnv.of par (bg.growth c) z mu s = NonEnv.of par bg z mu s := rfl
  simp only [functions_nonintegrated, non_result_growth, non_growth, he, hl, ne_eq, not_true_eq_false, false_and,
    if_false, hm, hm'.1, hm'.2, Bool.false_eq_true, or_self, if_true]
  simp only [Bg.growth]
  ring

/-- **C58.** With a linear spectrum every value of the correlation function, of its multipoles and of its
averaged multipoles scales with the square of the growth factor: all effects, flat-sky switches, coordinates.
`hm` excludes the two modes that differentiate with respect to a bias or growth rate that already contains one
power of the growth factor. -/
theorem C58_growth (Q : Quad) (hQ : Q.Homogeneous) (par : Par) (hl : par.pk_type = .COFFE_PK_LINEAR)
    (bg : Bg) (I : Ints) (c : ℝ)
    (hm : (par.b_tilde_derivative = true ∨ par.f_tilde_derivative = true) →
      par.b_derivative = true ∨ par.f_derivative = true)
    (z zmin zmax sep mu : ℝ) (l : ℕ) (out : OutputType) :
    signal_value Q par (bg.growth c) I z zmin zmax sep mu l out =
      c ^ 2 * signal_value Q par bg I z zmin zmax sep mu l out := by
  refine signal_value_scale Q hQ par bg (bg.growth c) I I (c ^ 2) ⟨rfl, rfl, rfl⟩
    (fun z mu s => C58_nonintegrated _ hl _ _ _ _ _ _ hm) (fun z mu s x => ?_) (fun z mu s x y => ?_)
    (fun z s l => ?_) (fun z s l x => ?_) z zmin zmax sep mu l out
  · have he : SingleEnv.of par (bg.growth c) I z mu s x = SingleEnv.of par bg I z mu s x := rfl
    simp only [functions_single_integrated, he, single_result_growth _ hl]
    try ring
  · have he : DoubleEnv.of par (bg.growth c) I z mu s x y = DoubleEnv.of par bg I z mu s x y := rfl
    simp only [functions_double_integrated, he, double_result_growth _ hl]
    ring
  · simp only [flatsky_den_len_multipoles, Bg.growth, hl, ne_eq, not_true_eq_false, false_and, if_false]
    split_ifs <;> ring
  · simp only [flatsky_len_len_multipoles, Bg.growth, hl, ne_eq, not_true_eq_false, false_and, if_false]
    split_ifs <;> ring

/-- The rule that evaluates at the centre is homogeneous. -/
theorem wCentre_homogeneous :
    (Quad.mk (fun f => f (1 / 2)) (fun _ f => f fun _ => 1 / 2)).Homogeneous :=
  ⟨fun _ _ => rfl, fun _ _ _ => rfl⟩

/-- Non-vacuity of C57, C58: with lensing-lensing in flat sky the value is not zero. -/
example : signal_value (Quad.mk (fun f => f (1 / 2)) (fun _ f => f fun _ => 1 / 2))
    { wPar with correlation_contrib := { Contrib.none with len := true }, flatsky_nonlocal := true } wBg
    (fun _ => wConst 1) 2 0 0 1 0 0 .MULTIPOLES ≠ 0 := by
  simp [signal_value, coffe_integrate, integrate_double, double_gate, double_flat_gate,
    double_multi_gate, single_gate, non_gate, flatsky_len_len_multipoles, wPar, wBg, Contrib.none, COFFE_H0,
    wConst]
  norm_num

end Coffe
