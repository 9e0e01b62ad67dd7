import Verif.Proofs.Amplitude
import Verif.Proofs.Divergent
import Verif.Props.Contributions
import Verif.Spec.Amplitude

/-!
# C17: an effect with zero amplitude contributes nothing

The quadrature rule may be anything that integrates the zero function to zero.
-/

namespace Coffe
open Classical

theorem switch_signal (Q : Quad) (hQ : Q.Zero) (par : Par) (bg : Bg) (I : Ints) (e : Effect)
    (hn : ∀ D : Bool, functions_nonintegrated { par with correlation_contrib := par.correlation_contrib.set e true, divergent := D } bg I =
      functions_nonintegrated { par with correlation_contrib := par.correlation_contrib.set e false, divergent := D } bg I)
    (hs : ∀ D : Bool, functions_single_integrated { par with correlation_contrib := par.correlation_contrib.set e true, divergent := D } bg I =
      functions_single_integrated { par with correlation_contrib := par.correlation_contrib.set e false, divergent := D } bg I)
    (hd : ∀ D : Bool, functions_double_integrated { par with correlation_contrib := par.correlation_contrib.set e true, divergent := D } bg I =
      functions_double_integrated { par with correlation_contrib := par.correlation_contrib.set e false, divergent := D } bg I)
    (hf : flatDenLen { par with correlation_contrib := par.correlation_contrib.set e true } bg I =
      flatDenLen { par with correlation_contrib := par.correlation_contrib.set e false } bg I)
    (hl : flatLenLen Q { par with correlation_contrib := par.correlation_contrib.set e true } bg I =
      flatLenLen Q { par with correlation_contrib := par.correlation_contrib.set e false } bg I)
    (z zmin zmax sep mu : ℝ) (l : ℕ) (out : OutputType)
    (ho : out = .MULTIPOLES → par.output_type = .MULTIPOLES) :
    signal_value Q (par.switch e true) bg I z zmin zmax sep mu l out =
      signal_value Q (par.switch e false) bg I z zmin zmax sep mu l out := by
  have key : ∀ D, signal_value Q { par with correlation_contrib := par.correlation_contrib.set e true, divergent := D } bg I z zmin zmax sep mu l out =
      signal_value Q { par with correlation_contrib := par.correlation_contrib.set e false, divergent := D } bg I z zmin zmax sep mu l out := by
    intro D
    rw [C19_parts_never_skipped Q hQ, C19_parts_never_skipped Q hQ] <;> try exact ho
    have f1 : ∀ b, flatDenLen { par with correlation_contrib := par.correlation_contrib.set e b, divergent := D } bg I =
        flatDenLen { par with correlation_contrib := par.correlation_contrib.set e b } bg I := fun b => rfl
    have f2 : ∀ b, flatLenLen Q { par with correlation_contrib := par.correlation_contrib.set e b, divergent := D } bg I =
        flatLenLen Q { par with correlation_contrib := par.correlation_contrib.set e b } bg I := fun b => rfl
    have f3 : average_weight { par with correlation_contrib := par.correlation_contrib.set e true, divergent := D } bg =
      average_weight { par with correlation_contrib := par.correlation_contrib.set e false, divergent := D } bg := rfl
    cases out <;> simp only [fullSignal, hn, hs, hd, f1, f2, hf, hl, f3]
  have hdiv : ∀ c : Contrib, c.needsDivergent = c.divergent := fun c => rfl
  rcases h : (par.correlation_contrib.set e false).divergent with _ | _
  · have := signal_value_div Q (par.switch e false) h bg I (par.switch e true).divergent z zmin zmax sep mu l out
    rw [← this]
    exact key _
  · have h2 : (par.correlation_contrib.set e true).divergent = true := by
      revert h
      cases e <;> simp [Contrib.set, Contrib.divergent] <;> tauto
    unfold Par.switch
    rw [hdiv, hdiv, h, h2]
    exact key _

theorem noMag {par : Par} (h : NoMagnification par) :
    (∀ z, par.magnification_bias1 z = 2 / 5) ∧ ∀ z, par.magnification_bias2 z = 2 / 5 :=
  ⟨fun z => by have := (h z).1; linarith, fun z => by have := (h z).2; linarith⟩

theorem flatDenLen_noMag {par : Par} (h : NoMagnification par) (bg : Bg) (I : Ints) :
    flatDenLen par bg I = fun _ _ _ => 0 := by
  obtain ⟨h1, h2⟩ := noMag h
  funext z sep l
  unfold flatDenLen flatsky_den_len_multipoles
  simp only [h1, h2, amp_s1, zero_mul, add_zero, mul_zero, ite_self, zero_div]

theorem flatLenLen_noMag {Q : Quad} (hQ : Q.Zero) {par : Par} (h : NoMagnification par) (bg : Bg) (I : Ints) :
    flatLenLen Q par bg I = fun _ _ _ => 0 := by
  obtain ⟨h1, h2⟩ := noMag h
  funext z sep l
  unfold flatLenLen flatsky_len_len_multipoles
  simp only [h1, h2, amp_s1, zero_mul, mul_zero, ite_self, zero_div, hQ.one]

/-- **C17, magnification.** If `5 s = 2` for both populations, switching lensing, the second potential term or
the Shapiro time delay on does not change the signal: any other effects, any output, all coordinates. -/
theorem C17_magnification (Q : Quad) (hQ : Q.Zero) (par : Par) (bg : Bg) (I : Ints) (h : NoMagnification par)
    (e : Effect) (he : e = .len ∨ e = .g2 ∨ e = .g4) (z zmin zmax sep mu : ℝ) (l : ℕ) (out : OutputType)
    (ho : out = .MULTIPOLES → par.output_type = .MULTIPOLES) :
    signal_value Q (par.switch e true) bg I z zmin zmax sep mu l out =
      signal_value Q (par.switch e false) bg I z zmin zmax sep mu l out := by
  obtain ⟨h1, h2⟩ := noMag h
  rcases he with rfl | rfl | rfl
  · refine switch_signal Q hQ par bg I _ (fun D => ?_) (fun D => ?_) (fun D => ?_) ?_ ?_ z zmin zmax sep mu l out ho
    · funext z mu sep
      exact non_switch_lenS { par with divergent := D } bg I true false h1 h2 z mu sep
    · funext z mu sep x
      exact single_switch_lenS { par with divergent := D } bg I true false h1 h2 z mu sep x
    · funext z mu sep x y
      exact double_switch_lenS { par with divergent := D } bg I true false h1 h2 z mu sep x y
    · rw [flatDenLen_noMag, flatDenLen_noMag]
      · exact h
      · exact h
    · rw [flatLenLen_noMag hQ, flatLenLen_noMag hQ]
      · exact h
      · exact h
  · refine switch_signal Q hQ par bg I _ (fun D => ?_) (fun D => ?_) (fun D => ?_) rfl rfl z zmin zmax sep mu l out ho
    · funext z mu sep
      exact non_switch_g2S { par with divergent := D } bg I true false h1 h2 z mu sep
    · funext z mu sep x
      exact single_switch_g2S { par with divergent := D } bg I true false h1 h2 z mu sep x
    · funext z mu sep x y
      exact double_switch_g2S { par with divergent := D } bg I true false h1 h2 z mu sep x y
  · refine switch_signal Q hQ par bg I _ (fun D => ?_) (fun D => ?_) (fun D => ?_) rfl rfl z zmin zmax sep mu l out ho
    · funext z mu sep
      exact non_switch_g4S { par with divergent := D } bg I true false h1 h2 z mu sep
    · funext z mu sep x
      exact single_switch_g4S { par with divergent := D } bg I true false h1 h2 z mu sep x
    · funext z mu sep x y
      exact double_switch_g4S { par with divergent := D } bg I true false h1 h2 z mu sep x y

/-- **C17, third potential term.** With growth rate one, switching it on does not change the signal. -/
theorem C17_g3 (Q : Quad) (hQ : Q.Zero) (par : Par) (bg : Bg) (I : Ints) (h : NoEvolution bg)
    (z zmin zmax sep mu : ℝ) (l : ℕ) (out : OutputType)
    (ho : out = .MULTIPOLES → par.output_type = .MULTIPOLES) :
    signal_value Q (par.switch .g3 true) bg I z zmin zmax sep mu l out =
      signal_value Q (par.switch .g3 false) bg I z zmin zmax sep mu l out := by
  refine switch_signal Q hQ par bg I _ (fun D => ?_) (fun D => ?_) (fun D => ?_) rfl rfl z zmin zmax sep mu l out ho
  · funext z mu sep
    exact non_switch_g3F { par with divergent := D } bg I true false h z mu sep
  · funext z mu sep x
    exact single_switch_g3F { par with divergent := D } bg I true false h z mu sep x
  · funext z mu sep x y
    exact double_switch_g3F { par with divergent := D } bg I true false h z mu sep x y

/-- **C17, integrated Sachs-Wolfe effect, vanishing Doppler factor.** -/
theorem C17_g5_doppler (Q : Quad) (hQ : Q.Zero) (par : Par) (bg : Bg) (I : Ints) (h : NoDoppler bg)
    (z zmin zmax sep mu : ℝ) (l : ℕ) (out : OutputType)
    (ho : out = .MULTIPOLES → par.output_type = .MULTIPOLES) :
    signal_value Q (par.switch .g5 true) bg I z zmin zmax sep mu l out =
      signal_value Q (par.switch .g5 false) bg I z zmin zmax sep mu l out := by
  refine switch_signal Q hQ par bg I _ (fun D => ?_) (fun D => ?_) (fun D => ?_) rfl rfl z zmin zmax sep mu l out ho
  · funext z mu sep
    exact non_switch_g5G { par with divergent := D } bg I true false (fun z => (h z).1) (fun z => (h z).2) z mu sep
  · funext z mu sep x
    exact single_switch_g5G { par with divergent := D } bg I true false (fun z => (h z).1) (fun z => (h z).2) z mu sep x
  · funext z mu sep x y
    exact double_switch_g5G { par with divergent := D } bg I true false (fun z => (h z).1) (fun z => (h z).2) z mu sep x y

/-- **C17, integrated Sachs-Wolfe effect, growth rate one.**  Missing: lensing switched on, where the property
is false (`C17_g5_lensing_false`). -/
theorem C17_g5_partial (Q : Quad) (hQ : Q.Zero) (par : Par) (bg : Bg) (I : Ints) (h : NoEvolution bg)
    (hl : par.correlation_contrib.len = false)
    (z zmin zmax sep mu : ℝ) (l : ℕ) (out : OutputType)
    (ho : out = .MULTIPOLES → par.output_type = .MULTIPOLES) :
    signal_value Q (par.switch .g5 true) bg I z zmin zmax sep mu l out =
      signal_value Q (par.switch .g5 false) bg I z zmin zmax sep mu l out := by
  refine switch_signal Q hQ par bg I _ (fun D => ?_) (fun D => ?_) (fun D => ?_) rfl rfl z zmin zmax sep mu l out ho
  · funext z mu sep
    exact non_switch_g5F { par with divergent := D } bg I true false h hl z mu sep
  · funext z mu sep x
    exact single_switch_g5F { par with divergent := D } bg I true false h hl z mu sep x
  · funext z mu sep x y
    exact double_switch_g5F { par with divergent := D } bg I true false h hl z mu sep x y

/-- **C17, Doppler.**  With a vanishing Doppler factor switching the velocity term on does not change the
signal.  Missing: the second velocity term or a potential term switched on, where the property is false
(`C17_d1_potential_false`). -/
theorem C17_d1_partial (Q : Quad) (hQ : Q.Zero) (par : Par) (bg : Bg) (I : Ints) (h : NoDoppler bg)
    (hc : par.correlation_contrib.d2 = false ∧ par.correlation_contrib.g1 = false ∧
      par.correlation_contrib.g2 = false ∧ par.correlation_contrib.g3 = false ∧
      par.correlation_contrib.g4 = false)
    (z zmin zmax sep mu : ℝ) (l : ℕ) (out : OutputType)
    (ho : out = .MULTIPOLES → par.output_type = .MULTIPOLES) :
    signal_value Q (par.switch .d1 true) bg I z zmin zmax sep mu l out =
      signal_value Q (par.switch .d1 false) bg I z zmin zmax sep mu l out := by
  obtain ⟨c1, c2, c3, c4, c5⟩ := hc
  refine switch_signal Q hQ par bg I _ (fun D => ?_) (fun D => ?_) (fun D => ?_) rfl rfl z zmin zmax sep mu l out ho
  · funext z mu sep
    exact non_switch_d1G { par with divergent := D } bg I true false (fun z => (h z).1) (fun z => (h z).2)
      c1 c2 c3 c4 c5 z mu sep
  · funext z mu sep x
    exact single_switch_d1G { par with divergent := D } bg I true false (fun z => (h z).1) (fun z => (h z).2)
      c1 c2 c3 c4 c5 z mu sep x
  · funext z mu sep x y
    exact double_switch_d1G { par with divergent := D } bg I true false (fun z => (h z).1) (fun z => (h z).2)
      c1 c2 c3 c4 c5 z mu sep x y

/-- A background without Doppler factor. -/
noncomputable def wNoDoppler : Bg := { wBg with G1 := fun _ => 0 }

/-- With the first potential term on, switching the velocity term on changes the signal although the Doppler
factor is zero: the code drops the factor from the mixed terms.  Whatever the quadrature rule. -/
theorem C17_d1_potential_false : ∃ par : Par, NoDoppler wNoDoppler ∧ ∀ Q : Quad,
      signal_value Q (par.switch .d1 true) wNoDoppler (wOnly ⟨3, 1, .int, .int⟩) 2 0 0 2 0 0 .CORRFUNC ≠
        signal_value Q (par.switch .d1 false) wNoDoppler (wOnly ⟨3, 1, .int, .int⟩) 2 0 0 2 0 0 .CORRFUNC := by
  refine ⟨{ wPar with correlation_contrib := { Contrib.none with g1 := true } }, fun z => ⟨rfl, rfl⟩, fun Q => ?_⟩
  have hH : COFFE_H0 ≠ 0 := by unfold COFFE_H0; norm_num
  simp [signal_value, coffe_integrate, non_gate, single_gate, double_gate, integrate_non, Par.switch,
    Contrib.set, wPar, Contrib.none, functions_nonintegrated, non_result, non_growth, NonEnv.of, non_den_den,
    non_rsd_rsd, non_d1_d1, non_d2_d2, non_g1_g1, non_g2_g2, non_g3_g3, non_den_rsd, non_den_d1, non_den_d2,
    non_den_g1, non_den_g2, non_den_g3, non_rsd_d1, non_rsd_d2, non_rsd_g1, non_rsd_g2, non_rsd_g3, non_d1_d2,
    non_d1_g1, non_d1_g2, non_d1_g3, non_d2_g1, non_d2_g2, non_d2_g3, non_g1_g2, non_g1_g3, non_g2_g3,
    Ints.I20, Ints.I22, Ints.I40, Ints.I31, wOnly, wConst, wZero, wNoDoppler, wBg, hH]
  norm_num

/-- The one-point rule. -/
noncomputable def wQuad : Quad := ⟨fun g => g (1 / 2), fun _ g => g (fun _ => 1 / 2)⟩

theorem wQuad_zero : wQuad.Zero := ⟨rfl, fun _ => rfl⟩

/-- A background whose potentials do not evolve. -/
noncomputable def wNoEvolution : Bg := { wBg with conformal_Hz := fun _ => 2 }

/-- With lensing on, switching the integrated Sachs-Wolfe effect on changes the signal although the growth rate
is one: the mixed term uses the Hubble rate where the growth rate belongs. -/
theorem C17_g5_lensing_false : ∃ par : Par, NoEvolution wNoEvolution ∧ wQuad.Zero ∧
      signal_value wQuad (par.switch .g5 true) wNoEvolution (wOnly ⟨3, 1, .int, .int⟩) 2 0 0 2 0 0 .CORRFUNC ≠
        signal_value wQuad (par.switch .g5 false) wNoEvolution (wOnly ⟨3, 1, .int, .int⟩) 2 0 0 2 0 0 .CORRFUNC := by
  refine ⟨{ wPar with correlation_contrib := { Contrib.none with len := true } }, fun z => rfl, wQuad_zero, ?_⟩
  have hH : COFFE_H0 ≠ 0 := by unfold COFFE_H0; norm_num
  simp [signal_value, coffe_integrate, non_gate, single_gate, double_gate, integrate_double, Par.switch,
    Contrib.set, wPar, Contrib.none, functions_double_integrated, double_result, DoubleEnv.of, double_len_len,
    double_g4_g4, double_g5_g5, double_g4_len, double_g5_len, double_g4_g5, Contrib.needsDivergent, Contrib.has,
    Ints.I00, Ints.I02, Ints.I04, Ints.I11, Ints.I13, Ints.I20, Ints.I22, Ints.I40, Ints.I31, wOnly, wConst,
    wZero, wNoEvolution, wBg, hH, wQuad]
  norm_num
  exact hH

/-- Non-vacuity: two populations with `s = 2/5`, the other settings arbitrary. -/
example : NoMagnification { wPar with magnification_bias1 := (fun _ => 2 / 5), magnification_bias2 := (fun _ => 2 / 5), correlation_contrib := Contrib.ofFun (fun _ => true) } := fun z => by norm_num

end Coffe
