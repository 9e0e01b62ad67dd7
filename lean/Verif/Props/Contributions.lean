import Verif.Proofs.Dispatch
import Verif.Spec.Witness
import Mathlib.Tactic.NormNum
import Mathlib.Tactic.Positivity

/-!
# C11, C12, C19 — contributions add up, nothing is dropped, nothing is counted twice

Vocabulary: `Verif/Spec/Contributions.lean` (`SumsOverPairs`), `Verif/Spec/Dispatch.lean`
(`fullSignal`, laws a quadrature rule may satisfy).
-/

namespace Coffe
open Classical

/-! ## C19 -/

/-- **C19, skipping.** Whatever the dispatcher skips has a vanishing integrand, for every set of
contributions and all flags: it returns the sum of all parts evaluated unconditionally. -/
theorem C19_parts_never_skipped (Q : Quad) (hQ : Q.Zero) (par : Par) (bg : Bg) (I : Ints)
    (z zmin zmax sep mu : ℝ) (l : ℕ) (out : OutputType)
    (ho : out = .MULTIPOLES → par.output_type = .MULTIPOLES) :
    signal_value Q par bg I z zmin zmax sep mu l out =
      fullSignal Q par bg I z zmin zmax sep mu l out := by
  have hnon : ∀ z mu sep, non_gate par.correlation_contrib = false →
      functions_nonintegrated par bg I z mu sep = 0 := fun z mu sep h => non_zero_of_gate _ _ _ _ _ _ h
  have hsin : ∀ z mu sep x, single_gate par.correlation_contrib = false →
      functions_single_integrated par bg I z mu sep x = 0 :=
    fun z mu sep x h => single_zero_of_gate _ _ _ _ _ _ _ h
  have hdou : ∀ z mu sep x y, double_gate par.correlation_contrib = false →
      functions_double_integrated par bg I z mu sep x y = 0 :=
    fun z mu sep x y h => double_zero_of_gate _ _ _ _ _ _ _ _ h
  cases out with
  | COVARIANCE_MULTIPOLES => simp [signal_value, coffe_integrate, integrate_non, integrate_single, integrate_double, fullSignal]
  | COVARIANCE_AVERAGE_MULTIPOLES => simp [signal_value, coffe_integrate, integrate_non, integrate_single, integrate_double, fullSignal]
  | CORRFUNC =>
    simp only [signal_value, coffe_integrate, integrate_non, integrate_single, integrate_double, fullSignal]
    congr 1
    · congr 1
      · split_ifs with h
        · rfl
        · rw [hnon _ _ _ (by simpa using h)]
      · split_ifs with h
        · rfl
        · simp only [hsin _ _ _ _ (by simpa using h), hQ.one]
    · split_ifs with h
      · rfl
      · simp only [hdou _ _ _ _ _ (by simpa using h), hQ.multi]
  | AVERAGE_MULTIPOLES =>
    simp only [signal_value, coffe_integrate, integrate_non, integrate_single, integrate_double, fullSignal]
    congr 1
    · congr 1
      · split_ifs with h
        · rfl
        · simp only [hnon _ _ _ (by simpa using h), zero_mul, hQ.multi, mul_zero]
      · split_ifs with h
        · rfl
        · simp only [hsin _ _ _ _ (by simpa using h), zero_mul, hQ.multi, mul_zero]
    · split_ifs with h
      · rfl
      · simp only [hdou _ _ _ _ _ (by simpa using h), zero_mul, hQ.multi, mul_zero]
  | MULTIPOLES =>
    have e1 : coffe_integrate Q par bg I z zmin zmax sep mu l .NONINTEGRATED .MULTIPOLES
        = (2 * l + 1) * Q.one (fun x =>
          functions_nonintegrated par bg I z (2 * x - 1) sep * legWeight l (2 * x - 1)) := by
      simp only [coffe_integrate, integrate_non, integrate_single, integrate_double]
      split_ifs with h
      · rfl
      · simp only [hnon _ _ _ (by simpa using h), zero_mul, hQ.one, mul_zero]
    have e2 : coffe_integrate Q par bg I z zmin zmax sep mu l .SINGLE_INTEGRATED .MULTIPOLES
        = flatDenLen par bg I z sep l + (2 * l + 1) * Q.multi 2 (fun v =>
          functions_single_integrated par bg I z (2 * v 0 - 1) sep (v 1)
            * legWeight l (2 * v 0 - 1)) := by
      simp only [coffe_integrate, integrate_non, integrate_single, integrate_double]
      have hm : (if single_multi_gate par then (2 * (l : ℝ) + 1) * Q.multi 2
            (multipoles_single_integrated_integrand par bg I z sep l) else 0)
          = (2 * l + 1) * Q.multi 2 (fun v =>
          functions_single_integrated par bg I z (2 * v 0 - 1) sep (v 1)
            * legWeight l (2 * v 0 - 1)) := by
        split_ifs with h
        · rfl
        · simp only [single_zero_of_multi_gate par bg I _ _ _ _ (ho rfl) (by simpa using h), zero_mul,
            hQ.multi, mul_zero]
      have hd : (if single_flat_gate par then (if par.correlation_contrib.den then
            2 * Real.pi * Real.pi * flatsky_den_len_multipoles par bg I z sep l else 0) else 0)
          = flatDenLen par bg I z sep l := by
        simp only [single_flat_gate, flatDenLen]
        by_cases h1 : par.correlation_contrib.den = true <;>
        by_cases h2 : par.correlation_contrib.len = true <;>
        by_cases h3 : par.flatsky_local_nonlocal = true <;> simp [h1, h2, h3]
      rw [hm, hd]
      split_ifs with h
      · rfl
      · have hz := hsin
        simp only [hsin _ _ _ _ (by simpa using h), zero_mul, hQ.multi, mul_zero, add_zero]
        have : ¬ (par.correlation_contrib.den = true ∧ par.correlation_contrib.len = true ∧
            par.flatsky_local_nonlocal = true) := by
          rintro ⟨h1, h2, -⟩
          exact h (by simp [single_gate, h1, h2])
        simp only [flatDenLen, if_neg this]
    have e3 : coffe_integrate Q par bg I z zmin zmax sep mu l .DOUBLE_INTEGRATED .MULTIPOLES
        = flatLenLen Q par bg I z sep l + (2 * l + 1) * Q.multi 3 (fun v =>
          functions_double_integrated par bg I z (2 * v 0 - 1) sep (v 1) (v 2)
            * legWeight l (2 * v 0 - 1)) := by
      simp only [coffe_integrate, integrate_non, integrate_single, integrate_double]
      have hm : (if double_multi_gate par then (2 * (l : ℝ) + 1) * Q.multi 3
            (multipoles_double_integrated_integrand par bg I z sep l) else 0)
          = (2 * l + 1) * Q.multi 3 (fun v =>
          functions_double_integrated par bg I z (2 * v 0 - 1) sep (v 1) (v 2)
            * legWeight l (2 * v 0 - 1)) := by
        split_ifs with h
        · rfl
        · simp only [double_zero_of_multi_gate par bg I _ _ _ _ _ (ho rfl) (by simpa using h), zero_mul,
            hQ.multi, mul_zero]
      have hd : (if double_flat_gate par l then 2 * Real.pi * Real.pi *
            Q.one (fun x => flatsky_len_len_multipoles par bg I z sep l x) else 0)
          = flatLenLen Q par bg I z sep l := by
        simp only [double_flat_gate, flatLenLen]
        by_cases h1 : par.correlation_contrib.len = true <;>
        by_cases h2 : par.only_cross_correlations = true <;>
        by_cases h3 : par.flatsky_nonlocal = true <;> simp [h1, h2, h3]
      rw [hm, hd]
      split_ifs with h
      · rfl
      · simp only [hdou _ _ _ _ _ (by simpa using h), zero_mul, hQ.multi, mul_zero, add_zero]
        have : ¬ (par.correlation_contrib.len = true ∧ ¬ par.only_cross_correlations = true ∧
            par.flatsky_nonlocal = true ∧ l % 2 = 0) := by
          rintro ⟨h1, -⟩
          exact h (by simp [double_gate, h1])
        simp only [flatLenLen, if_neg this]
    simp only [signal_value, e1, e2, e3, fullSignal]
    ring

theorem single_output_kind (par : Par) (o : OutputType) (bg : Bg) (I : Ints) (z mu sep x : ℝ)
    (h : par.flatsky_local_nonlocal = false) :
    functions_single_integrated { par with output_type := o } bg I z mu sep x =
      functions_single_integrated par bg I z mu sep x := by
  have : ∀ v, single_den_len { par with output_type := o } bg I v = single_den_len par bg I v := by
    intro v
    simp only [single_den_len, h, Bool.false_eq_true, false_and, if_false]
  unfold functions_single_integrated single_result
  rw [this]
  rfl

theorem double_output_kind (par : Par) (o : OutputType) (bg : Bg) (I : Ints) (z mu sep x y : ℝ)
    (h : par.flatsky_nonlocal = false) :
    functions_double_integrated { par with output_type := o } bg I z mu sep x y =
      functions_double_integrated par bg I z mu sep x y := by
  have : ∀ v, double_len_len { par with output_type := o } bg I v = double_len_len par bg I v := by
    intro v
    simp only [double_len_len, h, Bool.false_eq_true, false_and, if_false]
  unfold functions_double_integrated double_result
  rw [this]
  rfl

/-- **C19.** The dispatcher returns the complete signal of the requested kind, i.e. the unconditional sum
of all parts evaluated with that output kind, whenever the requested kind is the one stored in the
settings (as in the command-line program for every kind, and in the Python object for multipoles), or no
flat-sky approximation is used for integrated terms.  Partial: the remaining case (Python correlation
function or redshift-averaged multipoles with a flat-sky flag) is false, see
`C19_python_flatsky_corrfunc_false`. -/
theorem C19_dispatch_complete_partial (Q : Quad) (hQ : Q.Zero) (par : Par) (bg : Bg) (I : Ints)
    (z zmin zmax sep mu : ℝ) (l : ℕ) (out : OutputType)
    (ho : par.output_type = out ∨ (par.output_type = .MULTIPOLES ∧ par.flatsky_local_nonlocal = false
      ∧ par.flatsky_nonlocal = false)) :
    signal_value Q par bg I z zmin zmax sep mu l out =
      fullSignal Q { par with output_type := out } bg I z zmin zmax sep mu l out := by
  rw [C19_parts_never_skipped Q hQ par bg I z zmin zmax sep mu l out]
  · rcases ho with h | ⟨-, h1, h2⟩
    · subst h; rfl
    · cases out <;>
        simp only [fullSignal, single_output_kind par _ bg I _ _ _ _ h1,
          double_output_kind par _ bg I _ _ _ _ _ h2] <;> rfl
  · rintro rfl
    rcases ho with h | h
    · exact h
    · exact h.1

/-- **C19, no double counting.** When a flat-sky multipole formula is used for a pair, the full-sky
integrand of the same pair vanishes identically: lensing-lensing, and local x lensing. -/
theorem C19_no_double_count (par : Par) (bg : Bg) (I : Ints) (z mu sep x y : ℝ)
    (ho : par.output_type = .MULTIPOLES) :
    (par.flatsky_nonlocal = true →
      functions_double_integrated (par.auto .len) bg I z mu sep x y = 0) ∧
    (par.flatsky_local_nonlocal = true →
      functions_single_integrated (par.cross .den .len) bg I z mu sep x = 0 ∧
      functions_single_integrated (par.cross .rsd .len) bg I z mu sep x = 0 ∧
      functions_single_integrated (par.cross .d1 .len) bg I z mu sep x = 0) := by
  refine ⟨fun hf => ?_, fun hf => ⟨?_, ?_, ?_⟩⟩
  · exact double_zero_of_multi_gate _ _ _ _ _ _ _ _ ho (by simp [double_multi_gate, Contrib.ofFun, hf])
  · exact single_zero_of_multi_gate _ _ _ _ _ _ _ ho (by simp [single_multi_gate, Contrib.ofFun, hf])
  · exact single_zero_of_multi_gate _ _ _ _ _ _ _ ho (by simp [single_multi_gate, Contrib.ofFun, hf])
  · exact single_zero_of_multi_gate _ _ _ _ _ _ _ ho (by simp [single_multi_gate, Contrib.ofFun, hf])

/-- The midpoint rule: a lawful quadrature used in the examples. -/
noncomputable def midQuad : Quad := ⟨fun g => g (1 / 2), fun _ g => g (fun _ => 1 / 2)⟩

theorem midQuad_zero : midQuad.Zero := ⟨rfl, fun _ => rfl⟩
theorem midQuad_additive : midQuad.Additive := ⟨fun _ _ => rfl, fun _ _ _ => rfl⟩

/-- Lensing only, flat-sky for integrated terms: the settings of the counterexample and the example
below. -/
noncomputable def flatLensing (out : OutputType) : Par :=
  { wPar with correlation_contrib := { Contrib.none with len := true }, flatsky_nonlocal := true,
              output_type := out }

theorem flatLensing_multipoles (z mu sep x y : ℝ) :
    functions_double_integrated (flatLensing .MULTIPOLES) wBg (fun _ => wConst 1) z mu sep x y = 0 := by
  simp [functions_double_integrated, double_result_gated, double_len_len, flatLensing, wPar,
    Contrib.none, Contrib.ofFun]

/-- **C19 is false for the Python `compute_corrfunc_bulk`.**  The Python object keeps the stored output
kind at MULTIPOLES while it computes a correlation function (python/coffe/coffe.pyx:3303-3340,
`_parameters.output_type` is only changed around the covariance), so with
`has_flatsky_nonlocal = True` the lensing-lensing correlation function comes out as exactly zero,
while the same computation with the output kind stored correctly does not. -/
theorem C19_python_flatsky_corrfunc_false :
    signal_value midQuad (flatLensing .MULTIPOLES) wBg (fun _ => wConst 1) 1 0 0 1 0 0 .CORRFUNC = 0 ∧
    fullSignal midQuad { flatLensing .MULTIPOLES with output_type := .CORRFUNC } wBg (fun _ => wConst 1)
      1 0 0 1 0 0 .CORRFUNC ≠ 0 := by
  constructor
  · simp only [signal_value, coffe_integrate, integrate_non, integrate_single, integrate_double, flatLensing_multipoles, midQuad]
    simp [flatLensing, wPar, Contrib.none, non_gate, single_gate]
  · rw [← C19_dispatch_complete_partial midQuad midQuad_zero _ _ _ _ _ _ _ _ _ _
      (Or.inl rfl : ({ flatLensing .MULTIPOLES with output_type := .CORRFUNC } : Par).output_type
        = .CORRFUNC ∨ _)]
    simp only [signal_value, coffe_integrate, integrate_non, integrate_single, integrate_double, midQuad]
    simp [flatLensing, wPar, Contrib.none, non_gate, single_gate, double_gate,
      functions_double_integrated, double_result_gated, double_len_len, Contrib.ofFun, DoubleEnv.of,
      wBg, wConst, Ints.Ihalf, COFFE_H0]
    norm_num [Real.pi_ne_zero]

/-- Non-vacuity of C19: with the flat-sky lensing multipole the completed signal is non-zero and comes
from the special formula. -/
example : fullSignal midQuad (flatLensing .MULTIPOLES) wBg (fun _ => wConst 1) 1 0 0 1 0 0 .MULTIPOLES
    ≠ 0 := by
  have h1 : ∀ mu, functions_nonintegrated (flatLensing .MULTIPOLES) wBg (fun _ => wConst 1) 1 mu 1 = 0 :=
    fun mu => non_zero_of_gate _ _ _ _ _ _ (by simp [flatLensing, wPar, Contrib.none, non_gate])
  have h2 : ∀ mu x,
      functions_single_integrated (flatLensing .MULTIPOLES) wBg (fun _ => wConst 1) 1 mu 1 x = 0 :=
    fun mu x => single_zero_of_gate _ _ _ _ _ _ _ (by simp [flatLensing, wPar, Contrib.none, single_gate])
  simp only [fullSignal, midQuad, h1, h2, flatLensing_multipoles]
  simp [flatDenLen, flatLenLen, flatLensing, wPar, Contrib.none, flatsky_len_len_multipoles, wBg, wConst,
    COFFE_H0]
  norm_num [Real.pi_ne_zero]

/-! ## C12 -/

/-- **C12.** With every contribution switched off the signal is exactly zero, for every output kind,
coordinate, flag and quadrature rule (nothing at all is assumed about the quadrature). -/
theorem C12_no_contributions_zero (Q : Quad) (par : Par) (bg : Bg) (I : Ints)
    (z zmin zmax sep mu : ℝ) (l : ℕ) (out : OutputType)
    (h : ∀ e, par.correlation_contrib.has e = false) :
    signal_value Q par bg I z zmin zmax sep mu l out = 0 := by
  have hd : par.correlation_contrib.den = false := h .den
  have hr : par.correlation_contrib.rsd = false := h .rsd
  have hl : par.correlation_contrib.len = false := h .len
  have h1 : par.correlation_contrib.d1 = false := h .d1
  have h2 : par.correlation_contrib.d2 = false := h .d2
  have h3 : par.correlation_contrib.g1 = false := h .g1
  have h4 : par.correlation_contrib.g2 = false := h .g2
  have h5 : par.correlation_contrib.g3 = false := h .g3
  have h6 : par.correlation_contrib.g4 = false := h .g4
  have h7 : par.correlation_contrib.g5 = false := h .g5
  cases out <;>
    simp [signal_value, coffe_integrate, integrate_non, integrate_single, integrate_double, non_gate, single_gate, double_gate, hd, hr, hl, h1, h2, h3,
      h4, h5, h6, h7]

/-- Non-vacuity of C12: such settings exist, and it is the contributions that make the signal
vanish: density alone gives a non-zero value. -/
example : (∀ e, wPar.correlation_contrib.has e = false) ∧
    signal_value midQuad (wPar.auto .den) wBg (fun _ => wConst 1) 1 0 0 1 0 0 .MULTIPOLES ≠ 0 := by
  constructor
  · intro e; cases e <;> rfl
  · simp [signal_value, coffe_integrate, integrate_non, integrate_single, integrate_double, non_gate, single_gate, double_gate, Contrib.ofFun, midQuad,
      multipoles_nonintegrated_integrand, functions_nonintegrated, non_result_gated, non_growth,
      non_den_den, legWeight, NonEnv.of, wPar, wBg, wConst, Ints.I00]

/-! ## C11 -/

/-- **C11, integrands.** At every point, each of the three integrands is the sum over unordered pairs
of active effects (`has_only_cross_correlations` removing exactly the autos). -/
theorem C11_integrands_sum_over_pairs (bg : Bg) (I : Ints) (z mu sep x y : ℝ) (par : Par) :
    SumsOverPairs (fun p => functions_nonintegrated p bg I z mu sep) par ∧
    SumsOverPairs (fun p => functions_single_integrated p bg I z mu sep x) par ∧
    SumsOverPairs (fun p => functions_double_integrated p bg I z mu sep x y) par := by
  refine ⟨?_, ?_, ?_⟩
  · exact (non_result_pairs bg I (NonEnv.of par bg z mu sep) par).mul_const
      (non_growth par bg (NonEnv.of par bg z mu sep))
  · exact single_result_pairs bg I (SingleEnv.of par bg I z mu sep x) par
  · exact (double_result_pairs bg I (DoubleEnv.of par bg I z mu sep x y) par).mul_const
      ((COFFE_H0 * par.h) ^ 4)

/-- **C11, signal.** For every output kind, with a quadrature rule that is additive in the integrand,
the computed signal is the sum over unordered pairs of active effects of the signal computed for
that pair alone. -/
theorem C11_signal_sums_over_pairs (Q : Quad) (hQ : Q.Additive) (par : Par) (bg : Bg) (I : Ints)
    (z zmin zmax sep mu : ℝ) (l : ℕ) (out : OutputType)
    (ho : out = .MULTIPOLES → par.output_type = .MULTIPOLES) :
    SumsOverPairs (fun p => signal_value Q p bg I z zmin zmax sep mu l out) par := by
  have z1 : Q.one (fun _ => 0) = 0 := by
    have := hQ.one (fun _ => 0) (fun _ => 0)
    have e : ((fun _ => 0 : ℝ → ℝ) + fun _ => 0) = fun _ => 0 := by funext; simp
    rw [e] at this; linarith
  have z2 : ∀ n, Q.multi n (fun _ => 0) = 0 := by
    intro n
    have := hQ.multi n (fun _ => 0) (fun _ => 0)
    have e : ((fun _ => 0 : (ℕ → ℝ) → ℝ) + fun _ => 0) = fun _ => 0 := by funext; simp
    rw [e] at this; linarith
  have hz : Q.Zero := ⟨z1, z2⟩
  let L1 : (ℝ → ℝ) →+ ℝ := ⟨⟨Q.one, z1⟩, hQ.one⟩
  let Lm : ℕ → ((ℕ → ℝ) → ℝ) →+ ℝ := fun n => ⟨⟨Q.multi n, z2 n⟩, hQ.multi n⟩
  have hF : ∀ p : Par, (out = .MULTIPOLES → p.output_type = .MULTIPOLES) →
      signal_value Q p bg I z zmin zmax sep mu l out = fullSignal Q p bg I z zmin zmax sep mu l out :=
    fun p hp => C19_parts_never_skipped Q hz p bg I z zmin zmax sep mu l out hp
  have key : SumsOverPairs (fun p => fullSignal Q p bg I z zmin zmax sep mu l out) par := by
    have hN := fun z mu sep => (C11_integrands_sum_over_pairs bg I z mu sep 0 0 par).1
    have hS := fun z mu sep x => (C11_integrands_sum_over_pairs bg I z mu sep x 0 par).2.1
    have hD := fun z mu sep x y => (C11_integrands_sum_over_pairs bg I z mu sep x y par).2.2
    cases out with
    | COVARIANCE_MULTIPOLES => simp [SumsOverPairs, fullSignal]
    | COVARIANCE_AVERAGE_MULTIPOLES => simp [SumsOverPairs, fullSignal]
    | CORRFUNC =>
      refine ((hN z mu sep).add ?_).add ?_
      · exact SumsOverPairs.map L1 (fun x => hS z mu sep x)
      · exact SumsOverPairs.map (Lm 2) (fun v => hD z mu sep (v 0) (v 1))
    | AVERAGE_MULTIPOLES =>
      refine (SumsOverPairs.add ?_ ?_).add ?_
      · exact (SumsOverPairs.map (Lm 2) (fun v => (hN (average_z bg zmin zmax sep (v 0))
          (2 * v 1 - 1) sep).mul_const (legWeight l (2 * v 1 - 1)) |>.mul_const
          (average_weight par bg (average_z bg zmin zmax sep (v 0))))).const_mul _
      · exact (SumsOverPairs.map (Lm 3) (fun v => (hS (average_z bg zmin zmax sep (v 0))
          (2 * v 1 - 1) sep (v 2)).mul_const (legWeight l (2 * v 1 - 1)) |>.mul_const
          (average_weight par bg (average_z bg zmin zmax sep (v 0))))).const_mul _
      · exact (SumsOverPairs.map (Lm 4) (fun v => (hD (average_z bg zmin zmax sep (v 0))
          (2 * v 1 - 1) sep (v 2) (v 3)).mul_const (legWeight l (2 * v 1 - 1)) |>.mul_const
          (average_weight par bg (average_z bg zmin zmax sep (v 0))))).const_mul _
    | MULTIPOLES =>
      refine (((SumsOverPairs.add ?_ ?_).add ?_).add ?_).add ?_
      · exact (SumsOverPairs.map L1 (fun x =>
          (hN z (2 * x - 1) sep).mul_const (legWeight l (2 * x - 1)))).const_mul _
      · exact (SumsOverPairs.map (Lm 2) (fun v =>
          (hS z (2 * v 0 - 1) sep (v 1)).mul_const (legWeight l (2 * v 0 - 1)))).const_mul _
      · exact (SumsOverPairs.map (Lm 3) (fun v =>
          (hD z (2 * v 0 - 1) sep (v 1) (v 2)).mul_const (legWeight l (2 * v 0 - 1)))).const_mul _
      · unfold SumsOverPairs
        simp only [sum_effect]
        simp only [flatDenLen, Contrib.ofFun, Contrib.has, Effect.rank]
        simp only [reduceCtorEq, decide_true, decide_false, Bool.or_false, Bool.or_true,
          Bool.false_eq_true, and_true, true_and, and_false,
          false_and, if_true, if_false, add_zero, zero_add, Nat.reduceLT, Nat.lt_irrefl, ite_self]
        by_cases h1 : par.correlation_contrib.den = true <;>
        by_cases h2 : par.correlation_contrib.len = true <;> simp [h1, h2] <;> rfl
      · unfold SumsOverPairs
        simp only [sum_effect]
        simp only [flatLenLen, Contrib.ofFun, Contrib.has, Effect.rank]
        simp only [reduceCtorEq, decide_true, decide_false, Bool.or_false, Bool.or_true,
          Bool.false_eq_true, not_true_eq_false, not_false_eq_true, and_true, true_and, and_false,
          false_and, if_true, if_false, add_zero, zero_add, Nat.reduceLT, Nat.lt_irrefl, ite_self]
        by_cases h1 : par.correlation_contrib.len = true <;>
        by_cases h2 : par.only_cross_correlations = true <;> simp [h1, h2] <;> rfl
  unfold SumsOverPairs at key ⊢
  simp only at key ⊢
  rw [hF par ho, key]
  congr 1
  · refine Finset.sum_congr rfl fun e _ => ?_
    rw [hF (par.auto e) ho]
  · refine Finset.sum_congr rfl fun a _ => Finset.sum_congr rfl fun b _ => ?_
    rw [hF (par.cross a b) ho]

/-- Non-vacuity of C11: density and Doppler with different biases; the cross pair is non-zero, and so
is the density auto pair. -/
example :
    functions_nonintegrated (wPar.cross .den .d1) wBg (fun _ => wConst 1) 2 (1 / 2) 1 ≠ 0 ∧
    functions_nonintegrated (wPar.auto .den) wBg (fun _ => wConst 1) 2 (1 / 2) 1 ≠ 0 := by
  constructor
  · simp [Contrib.ofFun, functions_nonintegrated, non_result_gated, non_growth, non_den_d1, NonEnv.of,
      wPar, wBg, wConst, Ints.I11]
    norm_num
  · simp [Contrib.ofFun, functions_nonintegrated, non_result_gated, non_growth,
      non_den_den, NonEnv.of, wPar, wBg, wConst, Ints.I00]

/-- **C11/C19, pairs and parts.** A pair of effects contributes to exactly the part with as many
line-of-sight integrals as the pair has integrated effects; the other two integrands vanish. -/
theorem C11_pair_in_one_part (par : Par) (bg : Bg) (I : Ints) (z mu sep x y : ℝ) (a b : Effect) :
    ((a.isLocal ∧ b.isLocal) →
      functions_single_integrated (par.cross a b) bg I z mu sep x = 0 ∧
      functions_double_integrated (par.cross a b) bg I z mu sep x y = 0) ∧
    (a.isLocal ≠ b.isLocal →
      functions_nonintegrated (par.cross a b) bg I z mu sep = 0 ∧
      functions_double_integrated (par.cross a b) bg I z mu sep x y = 0) ∧
    ((¬ a.isLocal ∧ ¬ b.isLocal) →
      functions_nonintegrated (par.cross a b) bg I z mu sep = 0 ∧
      functions_single_integrated (par.cross a b) bg I z mu sep x = 0) := by
  refine ⟨?_, ?_, ?_⟩
  · rintro ⟨ha, hb⟩
    refine ⟨single_zero_of_gate _ _ _ _ _ _ _ ?_, double_zero_of_gate _ _ _ _ _ _ _ _ ?_⟩
    · cases a <;> cases b <;> first | rfl | simp [Effect.isLocal] at ha hb
    · cases a <;> cases b <;> first | rfl | simp [Effect.isLocal] at ha hb
  · intro h
    refine ⟨?_, ?_⟩
    · have : non_result (par.cross a b) bg I (NonEnv.of par bg z mu sep) = 0 := by
        cases a <;> cases b <;> first
          | (exact absurd rfl h)
          | simp [non_result_gated, Contrib.ofFun]
      show non_result _ _ _ _ * _ = 0
      rw [show NonEnv.of (par.cross a b) bg z mu sep = NonEnv.of par bg z mu sep from rfl, this,
        zero_mul]
    · have : double_result (par.cross a b) bg I (DoubleEnv.of par bg I z mu sep x y) = 0 := by
        cases a <;> cases b <;> first
          | (exact absurd rfl h)
          | simp [double_result_gated, Contrib.ofFun]
      show double_result _ _ _ _ * _ = 0
      rw [show DoubleEnv.of (par.cross a b) bg I z mu sep x y = DoubleEnv.of par bg I z mu sep x y
        from rfl, this, zero_mul]
  · rintro ⟨ha, hb⟩
    refine ⟨non_zero_of_gate _ _ _ _ _ _ ?_, single_zero_of_gate _ _ _ _ _ _ _ ?_⟩
    · cases a <;> cases b <;> first | rfl | simp [Effect.isLocal] at ha hb
    · cases a <;> cases b <;> first | rfl | simp [Effect.isLocal] at ha hb

end Coffe
