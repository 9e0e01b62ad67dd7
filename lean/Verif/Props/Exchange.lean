import Verif.Proofs.Exchange
import Verif.Spec.Witness
import Mathlib.Tactic.NormNum
import Mathlib.Tactic.Linarith
import Mathlib.Tactic.Positivity
import Verif.Model.Signal.Dispatch

/-!
# C08, C09, C10 — population-exchange symmetry

Vocabulary: `Par.swap`/`Bg.swap` (`Verif/Spec/Exchange.lean`).  `functions_*` are the models of the
three signal integrands of `src/functions.c`.
-/

namespace Coffe
open Classical

/-- **C08.** Exchanging the two populations and flipping `mu` leaves the non-integrated correlation
function unchanged: for all splines, contribution sets and modes.  The only hypotheses are that the
renormalisation table is a symmetric function of its two distances and, in the bias-derivative modes
(where the code differentiates with respect to *one* common bias), that the two biases agree. -/
theorem C08_nonintegrated_exchange (par : Par) (bg : Bg) (I : Ints) (z mu r : ℝ)
    (hr : ∀ x y, I.I40.renormalization x y = I.I40.renormalization y x)
    (hb : (par.b_derivative = true ∨ par.b_tilde_derivative = true) →
      par.galaxy_bias1 z = par.galaxy_bias2 z) :
    functions_nonintegrated par.swap bg.swap I z (-mu) r =
      functions_nonintegrated par bg I z mu r := by
  simp only [functions_nonintegrated, NonEnv.of_swap]
  have hg : non_growth par.swap bg.swap (NonEnv.of par bg z mu r).swap =
      non_growth par bg (NonEnv.of par bg z mu r) := by
    simp only [non_growth]; split_ifs <;> first | rfl | ring1
  rw [hg]
  congr 1
  simp only [non_result, swap_non_rsd_rsd, swap_non_d1_d1, swap_non_d2_d2 _ _ _ _ hr,
    swap_non_g1_g1 _ _ _ _ hr, swap_non_g2_g2 _ _ _ _ hr, swap_non_g3_g3 _ _ _ _ hr,
    swap_non_den_rsd, swap_non_den_d1, swap_non_den_d2, swap_non_den_g1, swap_non_den_g2,
    swap_non_den_g3, swap_non_rsd_d1, swap_non_rsd_d2, swap_non_rsd_g1, swap_non_rsd_g2,
    swap_non_rsd_g3, swap_non_d1_d2, swap_non_d1_g1, swap_non_d1_g2, swap_non_d1_g3,
    swap_non_d2_g1 _ _ _ _ hr, swap_non_d2_g2 _ _ _ _ hr, swap_non_d2_g3 _ _ _ _ hr,
    swap_non_g1_g2 _ _ _ _ hr, swap_non_g1_g3 _ _ _ _ hr, swap_non_g2_g3 _ _ _ _ hr]
  rw [swap_non_den_den _ _ _ _ (by simpa [NonEnv.of] using hb)]

/-- Non-vacuity of C08: two different biases, density and Doppler on, and the value is non-zero. -/
example :
    (∀ x y, (wOnly ⟨1, 1, .int, .int⟩).I40.renormalization x y =
      (wOnly ⟨1, 1, .int, .int⟩).I40.renormalization y x) ∧
    functions_nonintegrated
      { wPar with correlation_contrib := { Contrib.none with den := true, d1 := true } } wBg
      (wOnly ⟨1, 1, .int, .int⟩) 2 (1 / 2) 1 ≠ 0 := by
  constructor
  · intro x y; simp [wOnly, Ints.I40, wZero]
  · simp [functions_nonintegrated, non_result, non_growth, NonEnv.of, wPar, wBg, wOnly, Contrib.none,
      non_den_den, non_rsd_rsd, non_d1_d1, non_d2_d2, non_g1_g1, non_g2_g2, non_g3_g3, non_den_rsd,
      non_den_d1, non_den_d2, non_den_g1, non_den_g2, non_den_g3, non_rsd_d1, non_rsd_d2, non_rsd_g1,
      non_rsd_g2, non_rsd_g3, non_d1_d2, non_d1_g1, non_d1_g2, non_d1_g3, non_d2_g1, non_d2_g2,
      non_d2_g3, non_g1_g2, non_g1_g3, non_g2_g3, Ints.I00, Ints.I11, Ints.I20, Ints.I22, wConst, wZero]
    norm_num

/-- **C09 (partial).** Exchange symmetry of the signal with one line-of-sight integral, at every
quadrature point `x`.  Full statement: the same equation without `hd1` and `hclass`.  It is false of
the code: see `C09_single_exchange_false` (Doppler-lensing) and `C09_single_exchange_class_false`
(density-lensing with a CLASS spectrum when one of the two distances vanishes). -/
theorem C09_single_exchange_partial (par : Par) (bg : Bg) (I : Ints) (z mu r x : ℝ)
    (hd1 : par.correlation_contrib.d1 = true → par.correlation_contrib.len = true →
      (∀ z, bg.G1 z = bg.G2 z) ∧ ∀ z z', par.magnification_bias1 z = par.magnification_bias2 z')
    (hclass : par.correlation_contrib.den = true → par.correlation_contrib.len = true →
      par.pk_type = .COFFE_PK_LINEAR ∨
      ((SingleEnv.of par bg I z mu r x).r21 ≠ 0 ∧ (SingleEnv.of par bg I z mu r x).r22 ≠ 0)) :
    functions_single_integrated par.swap bg.swap I z (-mu) r x =
      functions_single_integrated par bg I z mu r x := by
  simp only [functions_single_integrated, SingleEnv.of_swap, single_result]
  rw [swap_single_den_len _ _ _ _ hclass,
    swap_single_d1_len _ _ _ _ (fun a b => ⟨(hd1 a b).1, by simp only [SingleEnv.of]; exact (hd1 a b).2 _ _⟩)]
  simp only [swap_single_rsd_len, swap_single_d2_len, swap_single_g1_len,
    swap_single_g2_len, swap_single_g3_len, swap_single_den_g4, swap_single_den_g5,
    swap_single_rsd_g4, swap_single_rsd_g5, swap_single_d1_g4, swap_single_d1_g5,
    swap_single_d2_g4, swap_single_d2_g5, swap_single_g1_g4, swap_single_g1_g5,
    swap_single_g2_g4, swap_single_g2_g5, swap_single_g3_g4, swap_single_g3_g5]

/-- Non-vacuity of C09: every contribution on, linear spectrum, constant equal magnification biases. -/
example : ∃ (par : Par) (bg : Bg), par.correlation_contrib.d1 = true ∧ par.correlation_contrib.len = true ∧
    par.correlation_contrib.den = true ∧ par.pk_type = .COFFE_PK_LINEAR ∧
    (∀ z, bg.G1 z = bg.G2 z) ∧ (∀ z z', par.magnification_bias1 z = par.magnification_bias2 z') ∧
    par.galaxy_bias1 ≠ par.galaxy_bias2 :=
  ⟨{ wPar with correlation_contrib := ⟨true, true, true, true, true, true, true, true, true, true⟩ },
    { wBg with G2 := fun _ => 1 }, rfl, rfl, rfl, rfl, fun _ => rfl, fun _ _ => rfl, by
      intro h; have := congrFun h 0; norm_num [wPar] at this⟩

/-- **C09 is false of the code.** With only Doppler and lensing on, a linear spectrum and generic
coordinates, exchanging the populations changes the signal: the mirrored half of the Doppler-lensing
term (src/functions.c:2485-2999) uses the Doppler amplitude of population 1 for both halves. -/
theorem C09_single_exchange_false :
    ¬ ∀ (par : Par) (bg : Bg) (I : Ints) (z mu r x : ℝ),
      par.pk_type = .COFFE_PK_LINEAR →
      functions_single_integrated par.swap bg.swap I z (-mu) r x =
        functions_single_integrated par bg I z mu r x := by
  intro h
  have := h { wPar with correlation_contrib := { Contrib.none with d1 := true, len := true } } wBg
    (wOnly ⟨2, 0, .int, .int⟩) 2 1 2 (1 / 2) rfl
  simp [functions_single_integrated, single_result, SingleEnv.of, wPar, wBg, wOnly, Contrib.none,
    single_den_len, single_rsd_len, single_d1_len, single_d2_len, single_g1_len, single_g2_len,
    single_g3_len, single_den_g4, single_den_g5, single_rsd_g4, single_rsd_g5, single_d1_g4,
    single_d1_g5, single_d2_g4, single_d2_g5, single_g1_g4, single_g1_g5, single_g2_g4, single_g2_g5,
    single_g3_g4, single_g3_g5, Ints.I11, Ints.I13, Ints.I20, wConst, wZero] at this
  norm_num [COFFE_H0] at this

/-- **C09 is also false for density-lensing with a CLASS spectrum** on the configurations where the
integration point coincides with one of the galaxies: two of the four branches
(src/functions.c:1878-2024) use the integral `(0,2)` where the mirrored branch uses `(1,1)`. -/
theorem C09_single_exchange_class_false :
    ¬ ∀ (par : Par) (bg : Bg) (I : Ints) (z mu r x : ℝ),
      par.correlation_contrib = { Contrib.none with den := true, len := true } →
      functions_single_integrated par.swap bg.swap I z (-mu) r x =
        functions_single_integrated par bg I z mu r x := by
  intro h
  have := h { wPar with
    correlation_contrib := { Contrib.none with den := true, len := true }
    pk_type := .COFFE_PK_NONLINEAR_HALOFIT, midpoint_approximation := true } wBg
    (wOnly ⟨1, 1, .int, .int⟩) 2 1 2 (1 / 3) rfl
  simp [functions_single_integrated, single_result, SingleEnv.of, wPar, wBg, wOnly, Contrib.none,
    single_den_len, single_rsd_len, single_d1_len, single_d2_len, single_g1_len, single_g2_len,
    single_g3_len, single_den_g4, single_den_g5, single_rsd_g4, single_rsd_g5, single_d1_g4,
    single_d1_g5, single_d2_g4, single_d2_g5, single_g1_g4, single_g1_g5, single_g2_g4, single_g2_g5,
    single_g3_g4, single_g3_g5, Ints.I11, Ints.I02, wConst, wZero] at this
  norm_num [COFFE_H0] at this

/-- **C10.** Exchange symmetry of the doubly integrated signal: exchanging populations, the sign of
`mu` and the two integration variables changes nothing.  `hr`: the renormalisation table is
symmetric; `h0`: at (numerically) coincident points the zero-separation table is evaluated at the
same distance; `hf` excludes the flat-sky lensing-lensing integrand, which depends on one
integration variable only and is covered by `C10_flatsky_len_len_exchange`. -/
theorem C10_double_exchange (par : Par) (bg : Bg) (I : Ints) (z mu r x1 x2 : ℝ)
    (hr : ∀ x y, I.I40.renormalization x y = I.I40.renormalization y x)
    (h0 : par.divergent = true → (DoubleEnv.of par bg I z mu r x1 x2).r2 ≤ (0.000001 : ℝ) ^ 2 →
      (DoubleEnv.of par bg I z mu r x1 x2).lambda1 = (DoubleEnv.of par bg I z mu r x1 x2).lambda2)
    (hf : par.correlation_contrib.len = true →
      ¬ (par.flatsky_nonlocal = true ∧ par.output_type ≠ .MULTIPOLES)) :
    functions_double_integrated par.swap bg.swap I z (-mu) r x2 x1 =
      functions_double_integrated par bg I z mu r x1 x2 := by
  simp only [functions_double_integrated]
  rw [DoubleEnv.of_swap _ _ _ _ _ _ _ _ hr (fun a b => by rw [h0 a b])]
  simp only [double_result, swap_double_g4_g4, swap_double_g5_g5, swap_double_g4_len,
    swap_double_g5_len, swap_double_g4_g5]
  rw [swap_double_len_len _ _ _ _ hf]

/-- **C10, flat-sky lensing-lensing integrand** (depends on the first integration variable only):
exchange symmetric at fixed integration variables. -/
theorem C10_flatsky_len_len_exchange (par : Par) (bg : Bg) (I : Ints) (z mu r x1 x2 : ℝ)
    (hl : par.correlation_contrib = { Contrib.none with len := true })
    (hf : par.flatsky_nonlocal = true ∧ par.output_type ≠ .MULTIPOLES) :
    functions_double_integrated par.swap bg.swap I z (-mu) r x1 x2 =
      functions_double_integrated par bg I z mu r x1 x2 := by
  obtain ⟨hf1, hf2⟩ := hf
  simp [functions_double_integrated, double_result, double_len_len, double_g4_g4, double_g5_g5,
    double_g4_len, double_g5_len, double_g4_g5, hl, Contrib.none, hf1, hf2, DoubleEnv.of]
  split_ifs <;> ring1

/-- **C10, flat-sky multipoles.** The closed formula for the lensing-lensing multipoles is symmetric under
exchange of the two populations. -/
theorem C10_flatsky_len_len_multipoles (par : Par) (bg : Bg) (I : Ints) (z r : ℝ) (l : ℕ) (x : ℝ) :
    flatsky_len_len_multipoles par.swap bg.swap I z r l x = flatsky_len_len_multipoles par bg I z r l x := by
  simp only [flatsky_len_len_multipoles]
  split_ifs <;> ring

/-- **C09, flat-sky multipoles.** So is the closed formula for the density-lensing multipoles. -/
theorem C09_flatsky_den_len_multipoles (par : Par) (bg : Bg) (I : Ints) (z r : ℝ) (l : ℕ) :
    flatsky_den_len_multipoles par.swap bg.swap I z r l = flatsky_den_len_multipoles par bg I z r l := by
  simp only [flatsky_den_len_multipoles]
  split_ifs <;> ring

/-- Non-vacuity: two different galaxy biases, and the density-lensing quadrupole is not zero. -/
example : flatsky_den_len_multipoles wPar wBg (fun _ => wConst 1) 2 1 2 ≠ 0 := by
  have hp : (Real.sqrt (2 * Real.pi)) ≠ 0 := by positivity
  have hq := Real.pi_ne_zero
  have hr : Real.sqrt Real.pi ≠ 0 := by positivity
  simp [flatsky_den_len_multipoles, wPar, wBg, wConst, COFFE_H0, Finset.sum_range_succ, Nat.choose]
  norm_num
  exact hr

/-- Non-vacuity of C10: two populations, all contributions on, divergent terms on, at a point
where the two integration points are well separated. -/
example : ∃ (par : Par) (bg : Bg) (I : Ints), par.correlation_contrib.len = true ∧
    par.correlation_contrib.g5 = true ∧ par.divergent = true ∧
    (DoubleEnv.of par bg I 2 1 2 (1 / 2) (1 / 2)).r2 > (0.000001 : ℝ) ^ 2 ∧
    ¬ (par.flatsky_nonlocal = true ∧ par.output_type ≠ .MULTIPOLES) := by
  refine ⟨{ wPar with correlation_contrib := ⟨true, true, true, true, true, true, true, true, true, true⟩,
                      divergent := true }, wBg, fun _ => wConst 1, rfl, rfl, rfl, ?_, by simp [wPar]⟩
  simp [DoubleEnv.of, wBg, wPar]
  norm_num

end Coffe
