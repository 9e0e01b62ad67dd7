import Verif.Proofs.FlatMultipoles
import Verif.Spec.Witness

/-!
# C73: the multipoles are the Legendre coefficients of the correlation function
-/

namespace Coffe
open Classical intervalIntegral

/-- The flat-sky density-lensing term of the correlation function (src/functions.c:1559-1619), linear spectrum. -/
noncomputable def corrDenLen (par : Par) (bg : Bg) (I : Ints) (z sep μ : ℝ) : ℝ :=
  if par.correlation_contrib.den ∧ par.correlation_contrib.len ∧ par.flatsky_local_nonlocal then
    (COFFE_H0 * par.h) ^ 2
    * ((-3) * (par.Omega0_cdm + par.Omega0_baryon) / Real.pi / 8 * bg.D1 z
       * bg.D1 z * (1 + z) * |μ| * sep
       * ((2 - 5 * par.magnification_bias1 z) * par.galaxy_bias2 z + (2 - 5 * par.magnification_bias2 z) * par.galaxy_bias1 z)
       * I.Ihalf.result (sep * Real.sqrt (1 - μ * μ)))
  else 0

/-- The weight of the flat-sky lensing-lensing term at the fraction `x` of the distance. -/
noncomputable def corrLenWeight (par : Par) (bg : Bg) (z x : ℝ) : ℝ :=
  9 * (par.Omega0_cdm + par.Omega0_baryon) ^ 2 * (2 - 5 * par.magnification_bias1 z) * (2 - 5 * par.magnification_bias2 z)
    * bg.comoving_distance z ^ 3 / 8 / Real.pi * (bg.D1 (bg.z_as_chi (x * bg.comoving_distance z))) ^ 2
    * (1 + bg.z_as_chi (x * bg.comoving_distance z)) ^ 2 * (x * (1 - x)) ^ 2 * (COFFE_H0 * par.h) ^ 4

/-- The flat-sky lensing-lensing term of the correlation function (src/functions.c:3517-3550). -/
noncomputable def corrLenLen (par : Par) (bg : Bg) (I : Ints) (z sep μ x : ℝ) : ℝ :=
  if par.correlation_contrib.len ∧ ¬ par.only_cross_correlations ∧ par.flatsky_nonlocal then
    corrLenWeight par bg z x * I.Ihalf.result (x * sep * Real.sqrt (1 - μ * μ))
  else 0

theorem single_split (par : Par) (bg : Bg) (I : Ints) (z μ sep x : ℝ)
    (hlin : par.flatsky_local_nonlocal = true → ¬ (par.pk_type ≠ .COFFE_PK_LINEAR ∧ par.midpoint_approximation = true)) :
    functions_single_integrated { par with output_type := .CORRFUNC } bg I z μ sep x =
      corrDenLen par bg I z sep μ + functions_single_integrated { par with output_type := .MULTIPOLES } bg I z μ sep x := by
  have he : single_den_len { par with output_type := .CORRFUNC } bg I (SingleEnv.of par bg I z μ sep x) =
      corrDenLen par bg I z sep μ + single_den_len { par with output_type := .MULTIPOLES } bg I (SingleEnv.of par bg I z μ sep x) := by
    unfold single_den_len corrDenLen
    by_cases h : par.correlation_contrib.den = true ∧ par.correlation_contrib.len = true
    · by_cases hf : par.flatsky_local_nonlocal = true
      · simp [h.1, h.2, hf, hlin hf, SingleEnv.of]
      · simp [h.1, h.2, hf]
    · rw [if_neg h, if_neg (fun hh => h ⟨hh.1, hh.2.1⟩), if_neg h, add_zero]
  have hr : single_result { par with output_type := .CORRFUNC } bg I (SingleEnv.of par bg I z μ sep x)
        - single_den_len { par with output_type := .CORRFUNC } bg I (SingleEnv.of par bg I z μ sep x) =
      single_result { par with output_type := .MULTIPOLES } bg I (SingleEnv.of par bg I z μ sep x)
        - single_den_len { par with output_type := .MULTIPOLES } bg I (SingleEnv.of par bg I z μ sep x) := by
    generalize SingleEnv.of par bg I z μ sep x = v
    have e : ∀ o, single_result { par with output_type := o } bg I v - single_den_len { par with output_type := o } bg I v =
        single_result par bg I v - single_den_len par bg I v := fun o => by
      simp only [single_result]
      have r1 : single_rsd_len { par with output_type := o } bg I v = single_rsd_len par bg I v := rfl
      have r2 : single_d1_len { par with output_type := o } bg I v = single_d1_len par bg I v := rfl
      have r3 : single_d2_len { par with output_type := o } bg I v = single_d2_len par bg I v := rfl
      have r4 : single_g1_len { par with output_type := o } bg I v = single_g1_len par bg I v := rfl
      have r5 : single_g2_len { par with output_type := o } bg I v = single_g2_len par bg I v := rfl
      have r6 : single_g3_len { par with output_type := o } bg I v = single_g3_len par bg I v := rfl
      have r7 : single_den_g4 { par with output_type := o } bg I v = single_den_g4 par bg I v := rfl
      have r8 : single_den_g5 { par with output_type := o } bg I v = single_den_g5 par bg I v := rfl
      have r9 : single_rsd_g4 { par with output_type := o } bg I v = single_rsd_g4 par bg I v := rfl
      have r10 : single_rsd_g5 { par with output_type := o } bg I v = single_rsd_g5 par bg I v := rfl
      have r11 : single_d1_g4 { par with output_type := o } bg I v = single_d1_g4 par bg I v := rfl
      have r12 : single_d1_g5 { par with output_type := o } bg I v = single_d1_g5 par bg I v := rfl
      have r13 : single_d2_g4 { par with output_type := o } bg I v = single_d2_g4 par bg I v := rfl
      have r14 : single_d2_g5 { par with output_type := o } bg I v = single_d2_g5 par bg I v := rfl
      have r15 : single_g1_g4 { par with output_type := o } bg I v = single_g1_g4 par bg I v := rfl
      have r16 : single_g1_g5 { par with output_type := o } bg I v = single_g1_g5 par bg I v := rfl
      have r17 : single_g2_g4 { par with output_type := o } bg I v = single_g2_g4 par bg I v := rfl
      have r18 : single_g2_g5 { par with output_type := o } bg I v = single_g2_g5 par bg I v := rfl
      have r19 : single_g3_g4 { par with output_type := o } bg I v = single_g3_g4 par bg I v := rfl
      have r20 : single_g3_g5 { par with output_type := o } bg I v = single_g3_g5 par bg I v := rfl
      rw [r1, r2, r3, r4, r5, r6, r7, r8, r9, r10, r11, r12, r13, r14, r15, r16, r17, r18, r19, r20]
      ring
    exact (e _).trans (e _).symm
  show single_result { par with output_type := .CORRFUNC } bg I (SingleEnv.of par bg I z μ sep x) =
    _ + single_result { par with output_type := .MULTIPOLES } bg I (SingleEnv.of par bg I z μ sep x)
  linarith

theorem double_split (par : Par) (bg : Bg) (I : Ints) (z μ sep x y : ℝ) :
    functions_double_integrated { par with output_type := .CORRFUNC } bg I z μ sep x y =
      corrLenLen par bg I z sep μ x + functions_double_integrated { par with output_type := .MULTIPOLES } bg I z μ sep x y := by
  have he : double_len_len { par with output_type := .CORRFUNC } bg I (DoubleEnv.of par bg I z μ sep x y) * (COFFE_H0 * par.h) ^ 4 =
      corrLenLen par bg I z sep μ x
        + double_len_len { par with output_type := .MULTIPOLES } bg I (DoubleEnv.of par bg I z μ sep x y) * (COFFE_H0 * par.h) ^ 4 := by
    unfold double_len_len corrLenLen corrLenWeight
    by_cases h : par.correlation_contrib.len = true ∧ ¬ par.only_cross_correlations = true
    · by_cases hf : par.flatsky_nonlocal = true
      · simp only [h.1, h.2, hf, DoubleEnv.of]
        simp only [not_false_eq_true, and_self, if_true, not_true_eq_false, ne_eq, reduceCtorEq, and_false, if_false]
        ring
      · simp only [h.1, h.2, hf]
        simp only [not_false_eq_true, and_self, if_true, Bool.false_eq_true, false_and, and_false, if_false, zero_add]
    · rw [if_neg h, if_neg (fun hh => h ⟨hh.1, hh.2.1⟩), if_neg h, zero_mul, add_zero]
  show double_result { par with output_type := .CORRFUNC } bg I (DoubleEnv.of par bg I z μ sep x y) * (COFFE_H0 * par.h) ^ 4 =
    _ + double_result { par with output_type := .MULTIPOLES } bg I (DoubleEnv.of par bg I z μ sep x y) * (COFFE_H0 * par.h) ^ 4
  generalize DoubleEnv.of par bg I z μ sep x y = v at he ⊢
  have e : ∀ o, double_result { par with output_type := o } bg I v - double_len_len { par with output_type := o } bg I v =
      double_result par bg I v - double_len_len par bg I v := fun o => by
    simp only [double_result]
    have r1 : double_g4_g4 { par with output_type := o } bg I v = double_g4_g4 par bg I v := rfl
    have r2 : double_g5_g5 { par with output_type := o } bg I v = double_g5_g5 par bg I v := rfl
    have r3 : double_g4_len { par with output_type := o } bg I v = double_g4_len par bg I v := rfl
    have r4 : double_g5_len { par with output_type := o } bg I v = double_g5_len par bg I v := rfl
    have r5 : double_g4_g5 { par with output_type := o } bg I v = double_g4_g5 par bg I v := rfl
    rw [r1, r2, r3, r4, r5]
    ring
  have e1 := e .CORRFUNC
  have e2 := e .MULTIPOLES
  linear_combination he + (COFFE_H0 * par.h) ^ 4 * (e1 - e2)

/-! ## Multipoles of sums -/

theorem legWeight_eq (l : ℕ) (μ : ℝ) : legWeight l μ = legP l μ := by
  unfold legWeight
  split_ifs with h
  · rw [h, legP]
  · rfl

/-- The change of variable of the code, `μ = 2 x - 1`. -/
theorem multipoleOf_unit (l : ℕ) (f : ℝ → ℝ) :
    (2 * (l : ℝ) + 1) * (∫ x in (0 : ℝ)..1, f (2 * x - 1) * legWeight l (2 * x - 1)) = multipoleOf l f := by
  have h := integral_comp_mul_sub (a := 0) (b := 1) (fun μ => f μ * legP l μ) (two_ne_zero) (1 : ℝ)
  simp only [legWeight_eq]
  rw [multipoleOf, h]
  norm_num
  ring

theorem multipoleOf_add (l : ℕ) {f g : ℝ → ℝ} (hf : IntervalIntegrable f MeasureTheory.volume (-1) 1)
    (hg : IntervalIntegrable g MeasureTheory.volume (-1) 1) :
    multipoleOf l (fun μ => f μ + g μ) = multipoleOf l f + multipoleOf l g := by
  have c := (legP_continuous l).continuousOn (s := Set.uIcc (-1 : ℝ) 1)
  rw [multipoleOf, multipoleOf, multipoleOf, ← mul_add, ← integral_add (hf.mul_continuousOn c) (hg.mul_continuousOn c)]
  simp only [add_mul]

theorem multipoleOf_zero (l : ℕ) : multipoleOf l (fun _ => 0) = 0 := by simp [multipoleOf]

theorem multipoleOf_const_mul (l : ℕ) (c : ℝ) (f : ℝ → ℝ) : multipoleOf l (fun μ => c * f μ) = c * multipoleOf l f := by
  have h : ∫ μ in (-1 : ℝ)..1, c * f μ * legP l μ = c * ∫ μ in (-1 : ℝ)..1, f μ * legP l μ := by
    rw [← integral_const_mul]
    exact integral_congr fun μ _ => by ring
  rw [multipoleOf, multipoleOf, h]
  ring

theorem multipoleOf_congr (l : ℕ) {f g : ℝ → ℝ} (h : ∀ μ ∈ Set.Icc (-1 : ℝ) 1, f μ = g μ) : multipoleOf l f = multipoleOf l g := by
  rw [multipoleOf, multipoleOf]
  congr 1
  refine integral_congr fun μ hμ => ?_
  rw [Set.uIcc_of_le (by norm_num)] at hμ
  simp only [h μ hμ]

/-! ## The density-lensing multipoles -/

theorem corrDenLen_eq {P : ℝ → ℝ} {kmin kmax : ℝ} (h0 : 0 < kmin) (h1 : kmin ≤ kmax)
    (hP : ContinuousOn P (Set.Icc kmin kmax)) (par : Par) (bg : Bg) {I : Ints} (hI : FlatTables P kmin kmax I) (z : ℝ) {sep : ℝ}
    (hs : 0 < sep) (μ : ℝ) : corrDenLen par bg I z sep μ =
      (if par.correlation_contrib.den ∧ par.correlation_contrib.len ∧ par.flatsky_local_nonlocal then
        (COFFE_H0 * par.h) ^ 2 * ((-3) * (par.Omega0_cdm + par.Omega0_baryon) / Real.pi / 8 * bg.D1 z
       * bg.D1 z * (1 + z) * sep
       * ((2 - 5 * par.magnification_bias1 z) * par.galaxy_bias2 z + (2 - 5 * par.magnification_bias2 z) * par.galaxy_bias1 z)) else 0)
        * (|μ| * transverse P kmin kmax (sep * Real.sqrt (1 - μ ^ 2))) := by
  unfold corrDenLen
  split_ifs
  · rw [hI.result h0 h1 hP (by positivity), sq μ]
    ring
  · simp

theorem multipoleOf_corrDenLen {P : ℝ → ℝ} {kmin kmax : ℝ} (h0 : 0 < kmin) (h1 : kmin ≤ kmax)
    (hP : ContinuousOn P (Set.Icc kmin kmax)) (par : Par) (bg : Bg) {I : Ints} (hI : FlatTables P kmin kmax I) (z : ℝ) {sep : ℝ}
    (hs : 0 < sep) (hlin : ¬ (par.pk_type ≠ .COFFE_PK_LINEAR ∧ par.midpoint_approximation = true)) (l : ℕ) :
    multipoleOf l (corrDenLen par bg I z sep) =
      if single_flat_gate par then (if par.correlation_contrib.den then
        2 * Real.pi * Real.pi * flatsky_den_len_multipoles par bg I z sep l else 0) else 0 := by
  rw [show corrDenLen par bg I z sep = fun μ => _ from funext (corrDenLen_eq h0 h1 hP par bg hI z hs), multipoleOf_const_mul]
  by_cases hg : par.correlation_contrib.den = true ∧ par.correlation_contrib.len = true ∧ par.flatsky_local_nonlocal = true
  · rw [if_pos hg, if_pos (by simp [single_flat_gate, hg.1, hg.2.1, hg.2.2]), if_pos hg.1]
    by_cases hl : l % 2 = 0
    · obtain ⟨p, rfl⟩ : ∃ p, l = 2 * p := ⟨l / 2, by omega⟩
      have hp2 : 2 * p / 2 = p := by omega
      rw [multipoleOf_abs_transverse h0 h1 hP p hs, flatsky_den_len_multipoles]
      simp only [if_neg hlin, if_pos hl, hp2]
      have ht : ∀ k ∈ Finset.range (p + 1), (I (flatsky_den_len_key (2 * p) k)).result sep =
          Real.sqrt (Real.pi / 2) / (2 * Real.pi ^ 2) * ∫ q in kmin..kmax, q * P q * (gsl_sf_bessel_Jn (p - k + 1) (q * sep) / (q * sep) ^ (p - k + 1)) := fun k hk => by
        have hk : k ≤ p := Nat.lt_succ_iff.1 (Finset.mem_range.1 hk)
        rw [hI.den_len _ _ (by omega) _ hs, ← direct_value_half P h0 h1 hs (p - k + 1)]
        congr 1
        simp only [flatsky_den_len_key, Key.mk.injEq, and_true]
        push_cast [Nat.cast_sub hk]
        constructor <;> ring
      have hsum : (∑ k ∈ Finset.range (p + 1), (-1 : ℝ) ^ k / 2 ^ k * ((2 * p).choose k : ℝ) * ((2 * (2 * p) - 2 * k).choose (2 * p) : ℝ)
          * ((p - k).factorial : ℝ) * (I (flatsky_den_len_key (2 * p) k)).result sep) =
          Real.sqrt (Real.pi / 2) / (2 * Real.pi ^ 2) * 2 ^ p * ∑ k ∈ Finset.range (p + 1), (-1) ^ k / 2 ^ (2 * p) * ((2 * p).choose k : ℝ)
            * ((2 * (2 * p) - 2 * k).choose (2 * p) : ℝ) * (2 ^ (p - k) * ((p - k).factorial : ℝ)
            * ∫ q in kmin..kmax, q * P q * (gsl_sf_bessel_Jn (p - k + 1) (q * sep) / (q * sep) ^ (p - k + 1))) := by
        rw [Finset.mul_sum]
        refine Finset.sum_congr rfl fun k hk => ?_
        rw [ht k hk]
        have hk : k ≤ p := Nat.lt_succ_iff.1 (Finset.mem_range.1 hk)
        have e2 : (2 : ℝ) ^ (2 * p) = 2 ^ p * (2 ^ (p - k) * 2 ^ k) := by
          rw [← pow_add, ← pow_add]; congr 1; omega
        rw [e2]
        generalize (∫ q in kmin..kmax, q * P q * (gsl_sf_bessel_Jn (p - k + 1) (q * sep) / (q * sep) ^ (p - k + 1))) = T
        field_simp
      rw [hsum]
      generalize (∑ k ∈ Finset.range (p + 1), (-1 : ℝ) ^ k / 2 ^ (2 * p) * ((2 * p).choose k : ℝ)
            * ((2 * (2 * p) - 2 * k).choose (2 * p) : ℝ) * (2 ^ (p - k) * ((p - k).factorial : ℝ)
            * ∫ q in kmin..kmax, q * P q * (gsl_sf_bessel_Jn (p - k + 1) (q * sep) / (q * sep) ^ (p - k + 1)))) = S
      have e3 : (2 : ℝ) ^ (1 - ((p : ℕ) : ℤ)) = 2 / 2 ^ p := by
        rw [zpow_sub₀ two_ne_zero, zpow_one, zpow_natCast]
      have e4 : Real.sqrt (2 * Real.pi) = 2 * Real.sqrt (Real.pi / 2) := by
        rw [show 2 * Real.pi = 2 ^ 2 * (Real.pi / 2) by ring, Real.sqrt_mul (by norm_num), Real.sqrt_sq (by norm_num)]
      have hq : Real.sqrt (Real.pi / 2) ≠ 0 := (Real.sqrt_pos.2 (by positivity)).ne'
      have hp := Real.pi_ne_zero
      rw [e3, e4]
      generalize Real.sqrt (Real.pi / 2) = q at hq ⊢
      push_cast
      field_simp
    · rw [multipoleOf_odd (fun μ => by rw [abs_neg, neg_sq]) hl, flatsky_den_len_multipoles]
      simp [hl]
  · rw [if_neg hg, zero_mul]
    symm
    split_ifs with ha hb
    · exfalso
      simp only [single_flat_gate, Bool.and_eq_true] at ha
      exact hg ⟨hb, ha.1.2, ha.2⟩
    · rfl
    · rfl

theorem corrDenLen_continuous {P : ℝ → ℝ} {kmin kmax : ℝ} (h0 : 0 < kmin) (h1 : kmin ≤ kmax)
    (hP : ContinuousOn P (Set.Icc kmin kmax)) (par : Par) (bg : Bg) {I : Ints} (hI : FlatTables P kmin kmax I) (z : ℝ) {sep : ℝ}
    (hs : 0 < sep) : Continuous (corrDenLen par bg I z sep) := by
  rw [show corrDenLen par bg I z sep = fun μ => _ from funext (corrDenLen_eq h0 h1 hP par bg hI z hs)]
  have := transverse_continuous h1 hP
  fun_prop

/-! ## The lensing-lensing multipoles -/

theorem corrLenWeight_zero (par : Par) (bg : Bg) (z : ℝ) : corrLenWeight par bg z 0 = 0 := by simp [corrLenWeight]

theorem corrLenWeight_continuous (par : Par) (bg : Bg) (z : ℝ) (hc : 0 ≤ bg.comoving_distance z)
    (hz : ContinuousOn bg.z_as_chi (Set.Icc 0 (bg.comoving_distance z)))
    (hD : ContinuousOn (fun c => bg.D1 (bg.z_as_chi c)) (Set.Icc 0 (bg.comoving_distance z))) :
    ContinuousOn (corrLenWeight par bg z) (Set.Icc 0 1) := by
  have hm : Set.MapsTo (fun x : ℝ => x * bg.comoving_distance z) (Set.Icc 0 1) (Set.Icc 0 (bg.comoving_distance z)) := fun x hx =>
    ⟨mul_nonneg hx.1 hc, mul_le_of_le_one_left hc hx.2⟩
  have hx : ContinuousOn (fun x : ℝ => x * bg.comoving_distance z) (Set.Icc 0 1) := by fun_prop
  have e1 := hz.comp hx hm
  have e2 := hD.comp hx hm
  simp only [Function.comp_def] at e1 e2
  unfold corrLenWeight
  fun_prop

theorem corrLenLen_eq {P : ℝ → ℝ} {kmin kmax : ℝ} (h0 : 0 < kmin) (h1 : kmin ≤ kmax)
    (hP : ContinuousOn P (Set.Icc kmin kmax)) (par : Par) (bg : Bg) {I : Ints} (hI : FlatTables P kmin kmax I) (z : ℝ) {sep : ℝ}
    (hs : 0 < sep) {W : ℝ → ℝ} (hW : ∀ x ∈ Set.Icc (0 : ℝ) 1, W x = corrLenWeight par bg z x) (μ : ℝ) {x : ℝ} (hx : x ∈ Set.Icc (0 : ℝ) 1) :
    corrLenLen par bg I z sep μ x =
      (if par.correlation_contrib.len ∧ ¬ par.only_cross_correlations ∧ par.flatsky_nonlocal then 1 else 0)
        * (W x * transverse P kmin kmax (x * sep * Real.sqrt (1 - μ ^ 2))) := by
  unfold corrLenLen
  have : 0 ≤ x := hx.1
  split_ifs
  · rw [hI.result h0 h1 hP (by positivity), sq μ, hW x hx, one_mul]
  · simp

theorem momentIntegral_one (P : ℝ → ℝ) {kmin kmax : ℝ} (h0 : 0 < kmin) (h1 : kmin ≤ kmax) (l : ℕ) (r : ℝ) :
    momentIntegral P kmin kmax 1 l r = (∫ k in kmin..kmax, k * P k * gsl_sf_bessel_jl l (k * r)) / (2 * Real.pi ^ 2) := by
  rw [momentIntegral]
  congr 1
  refine integral_congr fun k hk => ?_
  rw [Set.uIcc_of_le h1] at hk
  have hk0 : k ≠ 0 := (h0.trans_le hk.1).ne'
  show k ^ 2 * P k * (gsl_sf_bessel_jl l (k * r) / k ^ 1) = k * P k * gsl_sf_bessel_jl l (k * r)
  generalize gsl_sf_bessel_jl l (k * r) = J
  field_simp

set_option maxHeartbeats 1000000 in
theorem len_len_point {P : ℝ → ℝ} {kmin kmax : ℝ} (h0 : 0 < kmin) (h1 : kmin ≤ kmax) (par : Par) (bg : Bg) {I : Ints}
    (hI : FlatTables P kmin kmax I) (z : ℝ) {sep : ℝ} (hs : 0 < sep)
    (hlin : ¬ (par.pk_type ≠ .COFFE_PK_LINEAR ∧ par.midpoint_approximation = true)) (p : ℕ) {x : ℝ} (hx : 0 ≤ x) :
    corrLenWeight par bg z x * ((2 * (2 * p : ℕ) + 1) * ((2 * p).factorial : ℝ) / 2 ^ (2 * p) / (p.factorial : ℝ) ^ 2
        * ∫ k in kmin..kmax, k * P k * gsl_sf_bessel_jl (2 * p) (k * (x * sep))) =
      2 * Real.pi * Real.pi * flatsky_len_len_multipoles par bg I z sep (2 * p) x := by
  have hp2 : 2 * p / 2 = p := by omega
  simp only [flatsky_len_len_multipoles, if_neg hlin, hp2]
  rcases hx.eq_or_lt with rfl | hx0
  · simp [corrLenWeight_zero]
  · have hr : 0 < x * sep := mul_pos hx0 hs
    have hm := direct_value_moment P h0 h1 hr 1 (2 * p)
    have hpi := Real.pi_ne_zero
    rw [Nat.cast_one, ← hI.len _ _ hr, momentIntegral_one P h0 h1 (2 * p) (x * sep), div_eq_iff (by positivity)] at hm
    rw [hm, corrLenWeight, mul_comm x (bg.comoving_distance z)]
    generalize (I ⟨1, ((2 * p : ℕ) : ℤ), .int, .int⟩).result (x * sep) = T
    generalize bg.z_as_chi (bg.comoving_distance z * x) = zx
    generalize bg.D1 zx = d
    generalize bg.comoving_distance z = c
    generalize 2 - 5 * par.magnification_bias1 z = m1
    generalize 2 - 5 * par.magnification_bias2 z = m2
    generalize COFFE_H0 * par.h = h
    generalize par.Omega0_cdm + par.Omega0_baryon = O
    clear hm hI hlin
    rcases Nat.eq_zero_or_pos p with rfl | hpp
    · simp
      field_simp
    · rw [if_pos (by omega), min_eq_left (by omega), pow_one]
      have : (p.factorial : ℝ) ≠ 0 := by positivity
      generalize ((2 * p).factorial : ℝ) = a
      generalize (p.factorial : ℝ) = b at this ⊢
      push_cast
      generalize (p : ℝ) = q
      field_simp

theorem multipoleOf_corrLenLen {P : ℝ → ℝ} {kmin kmax : ℝ} (h0 : 0 < kmin) (h1 : kmin ≤ kmax)
    (hP : ContinuousOn P (Set.Icc kmin kmax)) (par : Par) (bg : Bg) {I : Ints} (hI : FlatTables P kmin kmax I) (z : ℝ) {sep : ℝ}
    (hs : 0 < sep) (hlin : ¬ (par.pk_type ≠ .COFFE_PK_LINEAR ∧ par.midpoint_approximation = true))
    (hc : 0 ≤ bg.comoving_distance z) (hz : ContinuousOn bg.z_as_chi (Set.Icc 0 (bg.comoving_distance z)))
    (hD : ContinuousOn (fun c => bg.D1 (bg.z_as_chi c)) (Set.Icc 0 (bg.comoving_distance z))) (l : ℕ) :
    multipoleOf l (fun μ => ∫ x in (0 : ℝ)..1, corrLenLen par bg I z sep μ x) =
      if double_flat_gate par l then 2 * Real.pi * Real.pi * ∫ x in (0 : ℝ)..1, flatsky_len_len_multipoles par bg I z sep l x
      else 0 := by
  obtain ⟨W, hWc, hW⟩ := exists_continuous_ext zero_le_one (corrLenWeight_continuous par bg z hc hz hD)
  have hT := transverse_continuous h1 hP
  have hL := legP_continuous l
  by_cases hg : par.correlation_contrib.len = true ∧ ¬ par.only_cross_correlations = true ∧ par.flatsky_nonlocal = true
  · have e1 : ∀ μ, ∫ x in (0 : ℝ)..1, corrLenLen par bg I z sep μ x =
        ∫ x in (0 : ℝ)..1, W x * transverse P kmin kmax (x * sep * Real.sqrt (1 - μ ^ 2)) := fun μ =>
      integral_congr fun x hx => by
        rw [Set.uIcc_of_le zero_le_one] at hx
        simp only [corrLenLen_eq h0 h1 hP par bg hI z hs hW μ hx, if_pos hg, one_mul]
    simp_rw [e1]
    by_cases hl : l % 2 = 0
    · obtain ⟨p, rfl⟩ : ∃ p, l = 2 * p := ⟨l / 2, by omega⟩
      have hp2 : 2 * p / 2 = p := by omega
      rw [if_pos (by simp [double_flat_gate, hg.1, hg.2.1, hg.2.2])]
      have e2 : multipoleOf (2 * p) (fun μ => ∫ x in (0 : ℝ)..1, W x * transverse P kmin kmax (x * sep * Real.sqrt (1 - μ ^ 2))) =
          ∫ x in (0 : ℝ)..1, W x * multipoleOf (2 * p) (fun μ => transverse P kmin kmax (x * sep * Real.sqrt (1 - μ ^ 2))) := by
        have e3 : ∀ μ, (∫ x in (0 : ℝ)..1, W x * transverse P kmin kmax (x * sep * Real.sqrt (1 - μ ^ 2))) * legP (2 * p) μ =
            ∫ x in (0 : ℝ)..1, W x * transverse P kmin kmax (x * sep * Real.sqrt (1 - μ ^ 2)) * legP (2 * p) μ := fun μ => by
          rw [integral_mul_const]
        rw [multipoleOf]
        simp_rw [e3]
        rw [swap_of_continuous (F := fun μ x => W x * transverse P kmin kmax (x * sep * Real.sqrt (1 - μ ^ 2)) * legP (2 * p) μ)
          (by simp only [Function.uncurry_def]; fun_prop), ← integral_const_mul]
        refine integral_congr fun x _ => ?_
        simp only [multipoleOf]
        simp_rw [mul_assoc, integral_const_mul]
        ring
      rw [e2, ← integral_const_mul]
      refine integral_congr fun x hx => ?_
      rw [Set.uIcc_of_le zero_le_one] at hx
      simp only [multipoleOf_transverse h1 hP, hW x hx]
      exact len_len_point h0 h1 par bg hI z hs hlin p hx.1
    · rw [if_neg (by simp [double_flat_gate, hl])]
      exact multipoleOf_odd (fun μ => by rw [neg_sq]) hl
  · rw [if_neg (fun h => hg (by simp only [double_flat_gate, Bool.and_eq_true] at h; exact ⟨h.1.1.1, by simpa using h.1.2, h.1.1.2⟩))]
    have : ∀ μ x, corrLenLen par bg I z sep μ x = 0 := fun μ x => by rw [corrLenLen, if_neg hg]
    simp_rw [this]
    simp [multipoleOf]

/-! ## The sum -/

theorem consCoord_two (t x : ℝ) : consCoord t (fun _ => x) 0 = t ∧ consCoord t (fun _ => x) 1 = x := ⟨rfl, rfl⟩

/-- The multipoles from the multipoles of the flat-sky parts `dl` and `ll` of the correlation function. -/
theorem multipole_of_parts {Q : Quad} (hQ : Q.Exact) (par : Par) (bg : Bg) (I : Ints) (z sep : ℝ) (l : ℕ)
    (dl : ℝ → ℝ) (ll : ℝ → ℝ → ℝ) (F : ℝ)
    (hs : ∀ μ x, functions_single_integrated { par with output_type := .CORRFUNC } bg I z μ sep x =
      dl μ + functions_single_integrated { par with output_type := .MULTIPOLES } bg I z μ sep x)
    (hd : ∀ μ x y, functions_double_integrated { par with output_type := .CORRFUNC } bg I z μ sep x y =
      ll μ x + functions_double_integrated { par with output_type := .MULTIPOLES } bg I z μ sep x y)
    (hdl : IntervalIntegrable dl MeasureTheory.volume (-1) 1)
    (hll : ∀ μ ∈ Set.Icc (-1 : ℝ) 1, IntervalIntegrable (ll μ) MeasureTheory.volume 0 1)
    (hll' : IntervalIntegrable (fun μ => ∫ x in (0 : ℝ)..1, ll μ x) MeasureTheory.volume (-1) 1)
    (edl : multipoleOf l dl = if single_flat_gate par then (if par.correlation_contrib.den then
        2 * Real.pi * Real.pi * flatsky_den_len_multipoles par bg I z sep l else 0) else 0)
    (ell : multipoleOf l (fun μ => ∫ x in (0 : ℝ)..1, ll μ x) =
      if double_flat_gate par l then 2 * Real.pi * Real.pi * F else 0)
    (eF : double_flat_gate par l = true → F = ∫ x in (0 : ℝ)..1, flatsky_len_len_multipoles par bg I z sep l x)
    (hA : AngleIntegrable { par with output_type := .MULTIPOLES } bg I z sep) :
    multipoleAt Q par bg I z sep l = multipoleOf l (corrfuncAt Q par bg I z sep) := by
  have hq2 : ∀ g : (ℕ → ℝ) → ℝ, Q.multi 2 g = ∫ t in (0 : ℝ)..1, ∫ x in (0 : ℝ)..1, g (consCoord t fun _ => x) := fun g => by
    rw [hQ.product.first, hQ.one]
    simp_rw [hQ.one]
  have hq3 : ∀ g : (ℕ → ℝ) → ℝ, Q.multi 3 g =
      ∫ t in (0 : ℝ)..1, ∫ x in (0 : ℝ)..1, ∫ y in (0 : ℝ)..1, g (consCoord t (consCoord x fun _ => y)) := fun g => by
    rw [hQ.product.step 2 le_rfl, hQ.one]
    simp_rw [hq2]
  obtain ⟨iN, iS, iSa, iD, iDm, iDa⟩ := hA
  -- the three parts of the correlation function
  let A : ℝ → ℝ := fun μ => if non_gate par.correlation_contrib then functions_nonintegrated { par with output_type := .MULTIPOLES } bg I z μ sep else 0
  let B : ℝ → ℝ := fun μ => if single_gate par.correlation_contrib then
    dl μ + ∫ x in (0 : ℝ)..1, functions_single_integrated { par with output_type := .MULTIPOLES } bg I z μ sep x else 0
  let C : ℝ → ℝ := fun μ => if double_gate par.correlation_contrib then
    (∫ x in (0 : ℝ)..1, ll μ x) + ∫ x in (0 : ℝ)..1, ∫ y in (0 : ℝ)..1, functions_double_integrated { par with output_type := .MULTIPOLES } bg I z μ sep x y else 0
  have hcorr : ∀ μ ∈ Set.Icc (-1 : ℝ) 1, corrfuncAt Q par bg I z sep μ = A μ + B μ + C μ := fun μ hμ => by
    have eB : coffe_integrate Q { par with output_type := .CORRFUNC } bg I z 0 0 sep μ 0 .SINGLE_INTEGRATED .CORRFUNC = B μ := by
      simp only [coffe_integrate, integrate_single, hQ.one, B, hs]
      rw [integral_add (intervalIntegrable_const) (iS μ hμ), integral_const]
      simp
    have eC : coffe_integrate Q { par with output_type := .CORRFUNC } bg I z 0 0 sep μ 0 .DOUBLE_INTEGRATED .CORRFUNC = C μ := by
      simp only [coffe_integrate, integrate_double, hq2, C, hd, consCoord_two]
      split_ifs
      · rw [← integral_add (hll μ hμ) (iDm μ hμ)]
        refine integral_congr fun x hx => ?_
        rw [Set.uIcc_of_le zero_le_one] at hx
        rw [integral_add (intervalIntegrable_const) (iD μ hμ x hx), integral_const]
        simp
      · rfl
    rw [corrfuncAt, signal_value, eB, eC]
    rfl
  have iA : IntervalIntegrable A MeasureTheory.volume (-1) 1 := by
    by_cases h : non_gate par.correlation_contrib = true
    · simpa only [A, if_pos h] using iN
    · simp only [A, if_neg h]; exact intervalIntegrable_const
  have iB : IntervalIntegrable B MeasureTheory.volume (-1) 1 := by
    by_cases h : single_gate par.correlation_contrib = true
    · simpa only [B, if_pos h] using hdl.add iSa
    · simp only [B, if_neg h]; exact intervalIntegrable_const
  have iC : IntervalIntegrable C MeasureTheory.volume (-1) 1 := by
    by_cases h : double_gate par.correlation_contrib = true
    · simpa only [C, if_pos h] using hll'.add iDa
    · simp only [C, if_neg h]; exact intervalIntegrable_const
  rw [multipoleOf_congr l hcorr, multipoleOf_add l (iA.add iB) iC, multipoleOf_add l iA iB, multipoleAt, signal_value]
  congr 1
  · congr 1
    · simp only [coffe_integrate, A]
      split_ifs with h
      · simp only [integrate_non, hQ.one, multipoles_nonintegrated_integrand]
        exact multipoleOf_unit l fun μ => functions_nonintegrated { par with output_type := .MULTIPOLES } bg I z μ sep
      · exact (multipoleOf_zero l).symm
    · simp only [coffe_integrate, B]
      split_ifs with h
      · rw [multipoleOf_add l hdl iSa, edl]
        simp only [integrate_single]
        congr 1
        · rw [← multipoleOf_unit]
          by_cases hm : single_multi_gate { par with output_type := .MULTIPOLES } = true
          · rw [if_pos hm, hq2]
            simp only [multipoles_single_integrated_integrand, consCoord_two, integral_mul_const]
          · rw [if_neg hm]
            simp only [single_zero_of_multi_gate { par with output_type := .MULTIPOLES } bg I _ _ _ _ rfl (by simpa using hm)]
            simp
      · exact (multipoleOf_zero l).symm
  · simp only [coffe_integrate, C]
    split_ifs with h
    · rw [multipoleOf_add l hll' iDa, ell]
      simp only [integrate_double]
      congr 1
      · show (if double_flat_gate par l then _ else _) = _
        split_ifs with hf
        · rw [eF hf, hQ.one]
          rfl
        · rfl
      · rw [← multipoleOf_unit]
        by_cases hm : double_multi_gate { par with output_type := .MULTIPOLES } = true
        · rw [if_pos hm, hq3]
          congr 1
          refine integral_congr fun t _ => ?_
          simp only [← integral_mul_const]
          rfl
        · rw [if_neg hm]
          simp only [double_zero_of_multi_gate { par with output_type := .MULTIPOLES } bg I _ _ _ _ _ rfl (by simpa using hm)]
          simp
    · exact (multipoleOf_zero l).symm

/-- **C73** (full sky, any spectrum): the multipoles the library returns are `(2 l + 1) / 2 ∫ ξ(μ) P_l(μ) dμ` of the
correlation function it returns. -/
theorem C73_full_sky {Q : Quad} (hQ : Q.Exact) (par : Par) (bg : Bg) (I : Ints) (z sep : ℝ) (l : ℕ)
    (hf1 : par.flatsky_local_nonlocal = false) (hf2 : par.flatsky_nonlocal = false)
    (hA : AngleIntegrable { par with output_type := .MULTIPOLES } bg I z sep) :
    multipoleAt Q par bg I z sep l = multipoleOf l (corrfuncAt Q par bg I z sep) := by
  refine multipole_of_parts hQ par bg I z sep l (fun _ => 0) (fun _ _ => 0) 0 (fun μ x => ?_) (fun μ x y => ?_)
    intervalIntegrable_const (fun _ _ => intervalIntegrable_const) ?_ ?_ ?_ ?_ hA
  · rw [single_split _ _ _ _ _ _ _ (by simp [hf1]), corrDenLen, if_neg (by simp [hf1])]
  · rw [double_split, corrLenLen, if_neg (by simp [hf2])]
  · simp only [integral_zero]; exact intervalIntegrable_const
  · rw [multipoleOf_zero, if_neg (by simp [single_flat_gate, hf1])]
  · simp only [integral_zero, multipoleOf_zero, mul_zero, ite_self]
  · intro h; simp [double_flat_gate, hf2] at h

/-- **C73** (partial: not for the flat-sky lensing terms of a spectrum that comes from CLASS for each redshift): with the
flat-sky approximations of the lensing terms, which the code computes from different tables for the two outputs, the
multipoles are still those of the correlation function. -/
theorem C73_multipoles_partial {Q : Quad} (hQ : Q.Exact) (par : Par) (bg : Bg) (I : Ints) (z : ℝ) {sep : ℝ} (hs : 0 < sep) (l : ℕ)
    {P : ℝ → ℝ} {kmin kmax : ℝ} (h0 : 0 < kmin) (h1 : kmin ≤ kmax) (hP : ContinuousOn P (Set.Icc kmin kmax))
    (hI : FlatTables P kmin kmax I)
    (hlin : ¬ (par.pk_type ≠ .COFFE_PK_LINEAR ∧ par.midpoint_approximation = true))
    (hc : 0 ≤ bg.comoving_distance z) (hz : ContinuousOn bg.z_as_chi (Set.Icc 0 (bg.comoving_distance z)))
    (hD : ContinuousOn (fun c => bg.D1 (bg.z_as_chi c)) (Set.Icc 0 (bg.comoving_distance z)))
    (hA : AngleIntegrable { par with output_type := .MULTIPOLES } bg I z sep) :
    multipoleAt Q par bg I z sep l = multipoleOf l (corrfuncAt Q par bg I z sep) := by
  obtain ⟨W, hWc, hW⟩ := exists_continuous_ext zero_le_one (corrLenWeight_continuous par bg z hc hz hD)
  have hT := transverse_continuous h1 hP
  have hll : ∀ μ, Set.EqOn (corrLenLen par bg I z sep μ) (fun x =>
      (if par.correlation_contrib.len ∧ ¬ par.only_cross_correlations ∧ par.flatsky_nonlocal then (1 : ℝ) else 0)
        * (W x * transverse P kmin kmax (x * sep * Real.sqrt (1 - μ ^ 2)))) (Set.uIcc 0 1) := fun μ x hx => by
    rw [Set.uIcc_of_le zero_le_one] at hx
    exact corrLenLen_eq h0 h1 hP par bg hI z hs hW μ hx
  refine multipole_of_parts hQ par bg I z sep l (corrDenLen par bg I z sep) (corrLenLen par bg I z sep) _
    (fun μ x => single_split _ _ _ _ _ _ _ fun _ => hlin) (fun μ x y => double_split _ _ _ _ _ _ _ _)
    ((corrDenLen_continuous h0 h1 hP par bg hI z hs).intervalIntegrable _ _) (fun μ _ => ?_) ?_
    (multipoleOf_corrDenLen h0 h1 hP par bg hI z hs hlin l)
    (multipoleOf_corrLenLen h0 h1 hP par bg hI z hs hlin hc hz hD l) (fun _ => rfl) hA
  · refine IntervalIntegrable.congr ((hll μ).symm.mono Set.uIoc_subset_uIcc) (Continuous.intervalIntegrable ?_ _ _)
    fun_prop
  · have : (fun μ => ∫ x in (0 : ℝ)..1, corrLenLen par bg I z sep μ x) = fun μ => ∫ x in (0 : ℝ)..1,
        (if par.correlation_contrib.len ∧ ¬ par.only_cross_correlations ∧ par.flatsky_nonlocal then (1 : ℝ) else 0)
        * (W x * transverse P kmin kmax (x * sep * Real.sqrt (1 - μ ^ 2))) := funext fun μ => integral_congr (hll μ)
    rw [this]
    refine Continuous.intervalIntegrable (continuous_parametric_intervalIntegral_of_continuous' ?_ _ _) _ _
    simp only [Function.uncurry_def]
    fun_prop

/-! ## Spectra from CLASS -/

/-- The tables of the flat-sky terms when CLASS gives a spectrum `P z` for each redshift (src/integrals.c:975-1079,
1140-1240, 1305-1405): nothing is rescaled. -/
structure ClassTables (P : ℝ → ℝ → ℝ) (kmin kmax : ℝ) (I : Ints) : Prop where
  half : ∀ z, ∀ r > 0, I.Ihalf.result2d z r = direct_value exactQuad (P z) ⟨1, -1, .half, .half⟩ kmin kmax r
  zero : ∀ z, I.Ihalf.result2d z 0 = zero_separation_value exactQuad (P z) ⟨1, -1, .half, .half⟩ kmin kmax * integrals_coefficients (-1) .half
  den_len : ∀ z, ∀ l k : ℕ, k ≤ l / 2 → ∀ r > 0, (I (flatsky_den_len_key l k)).result2d z r =
    direct_value exactQuad (P z) (flatsky_den_len_key l k) kmin kmax r

/-- The cross correlation of density and lensing alone, flat-sky, with a spectrum from CLASS for each redshift. -/
def OnlyDensityLensing (par : Par) : Prop :=
  par.correlation_contrib = { Contrib.none with den := true, len := true } ∧ par.only_cross_correlations = true ∧
    par.flatsky_local_nonlocal = true ∧ par.pk_type ≠ .COFFE_PK_LINEAR ∧ par.midpoint_approximation = true

theorem den_len_key_ne {l k : ℕ} (hk : k ≤ l / 2) : flatsky_den_len_key l k ≠ ⟨1, -1, .half, .half⟩ := by
  intro h
  simp only [flatsky_den_len_key, Key.mk.injEq] at h
  omega

/-- With a spectrum from CLASS the flat-sky density-lensing multipoles are `√(2/π) 2π²` times those of the correlation
function: the table of the correlation function is not rescaled. -/
theorem C73_class_ratio {Q : Quad} (hQ : Q.Exact) (par : Par) (hpar : OnlyDensityLensing par) (bg : Bg) (I : Ints) (z : ℝ) {sep : ℝ}
    (hs : 0 < sep) (l : ℕ) {P : ℝ → ℝ → ℝ} {kmin kmax : ℝ} (h0 : 0 < kmin) (h1 : kmin ≤ kmax)
    (hP : ContinuousOn (P z) (Set.Icc kmin kmax)) (hI : ClassTables P kmin kmax I) :
    multipoleAt Q par bg I z sep l =
      Real.sqrt (2 / Real.pi) * 2 * Real.pi * Real.pi * multipoleOf l (corrfuncAt Q par bg I z sep) ∧
    multipoleAt Q par bg I z sep 0 = (-3) * (par.Omega0_cdm + par.Omega0_baryon) / Real.pi / 8 * (1 + z) * sep
       * ((2 - 5 * par.magnification_bias1 z) * par.galaxy_bias2 z + (2 - 5 * par.magnification_bias2 z) * par.galaxy_bias1 z)
       * (COFFE_H0 * par.h) ^ 2 * ∫ k in kmin..kmax, k * P z k * (gsl_sf_bessel_Jn 1 (k * sep) / (k * sep) ^ 1) := by
  obtain ⟨hc, ho, hf, hp, hm⟩ := hpar
  obtain ⟨c, hcd⟩ : ∃ c, c = Real.sqrt (2 / Real.pi) * 2 * Real.pi * Real.pi := ⟨_, rfl⟩
  have hc0 : c ≠ 0 := by
    rw [hcd]
    have : 0 < Real.sqrt (2 / Real.pi) := Real.sqrt_pos.2 (by positivity)
    positivity
  -- the linear computation with the spectrum of the redshift
  let par' : Par := { par with pk_type := .COFFE_PK_LINEAR }
  let bg' : Bg := { bg with D1 := fun _ => 1 }
  let I' : Ints := fun e => { I e with result := fun r => if e = ⟨1, -1, .half, .half⟩ then I.Ihalf.result2d z r * c
    else if e.state_l = .int then direct_value exactQuad (P z) e kmin kmax r else (I e).result2d z r }
  have hI' : FlatTables (P z) kmin kmax I' := by
    refine ⟨fun r hr => ?_, ?_, fun l r hr => ?_, fun l k hk r hr => ?_⟩
    · simp only [I', Ints.Ihalf, if_true]
      rw [show I ⟨1, -1, .half, .half⟩ = I.Ihalf from rfl, hI.half z r hr, hcd]
    · simp only [I', Ints.Ihalf, if_true]
      rw [show I ⟨1, -1, .half, .half⟩ = I.Ihalf from rfl, hI.zero z, hcd]
    · simp [I']
    · simp only [I', if_neg (den_len_key_ne hk)]
      rw [if_neg (by simp [flatsky_den_len_key]), hI.den_len z l k hk r hr]
  have hdl := fun l => multipoleOf_corrDenLen h0 h1 hP par' bg' hI' z hs (by simp [par']) l
  have hmul : ∀ l, flatsky_den_len_multipoles par' bg' I' z sep l = flatsky_den_len_multipoles par bg I z sep l := fun l => by
    unfold flatsky_den_len_multipoles
    have hsum : ∑ k ∈ Finset.range (l / 2 + 1), (-1 : ℝ) ^ k / 2 ^ k * (l.choose k : ℝ) * ((2 * l - 2 * k).choose l : ℝ)
          * ((l / 2 - k).factorial : ℝ) * (I' (flatsky_den_len_key l k)).result sep =
        ∑ k ∈ Finset.range (l / 2 + 1), (-1 : ℝ) ^ k / 2 ^ k * (l.choose k : ℝ) * ((2 * l - 2 * k).choose l : ℝ)
          * ((l / 2 - k).factorial : ℝ) * (I (flatsky_den_len_key l k)).result2d z sep := by
      refine Finset.sum_congr rfl fun k hk => ?_
      have hk : k ≤ l / 2 := Nat.lt_succ_iff.1 (Finset.mem_range.1 hk)
      simp only [I', if_neg (den_len_key_ne hk)]
      rw [if_neg (by simp [flatsky_den_len_key])]
    simp only [par', bg', ne_eq, not_true_eq_false, false_and, if_false, hp, hm, not_false_eq_true, and_self, if_true, hsum, mul_one]
  have hcorr : ∀ μ, corrDenLen par' bg' I' z sep μ = c * corrfuncAt Q par bg I z sep μ := fun μ => by
    have e1 : functions_nonintegrated { par with output_type := .CORRFUNC } bg I z μ sep = 0 := by
      simp only [functions_nonintegrated, non_result_gated]
      simp [hc, ho, Contrib.none]
    have e2 : ∀ x y, functions_double_integrated { par with output_type := .CORRFUNC } bg I z μ sep x y = 0 := fun x y => by
      simp only [functions_double_integrated, double_result_gated]
      simp [hc, ho, Contrib.none]
    have e3 : ∀ x, c * functions_single_integrated { par with output_type := .CORRFUNC } bg I z μ sep x = corrDenLen par' bg' I' z sep μ := fun x => by
      simp only [functions_single_integrated, single_result_gated]
      simp only [hc, Contrib.none, Bool.false_eq_true, false_and, and_false, if_false, add_zero, and_self, if_true]
      simp only [single_den_len, corrDenLen, par', bg', I', Ints.Ihalf, hc, hf, hp, hm, Contrib.none, Contrib.ofFun, SingleEnv.of, ne_eq, reduceCtorEq,
        not_false_eq_true, and_self, if_true, mul_one]
      ring
    have hq2 : ∀ g : (ℕ → ℝ) → ℝ, Q.multi 2 g = ∫ t in (0 : ℝ)..1, ∫ x in (0 : ℝ)..1, g (consCoord t fun _ => x) := fun g => by
      rw [hQ.product.first, hQ.one]
      simp_rw [hQ.one]
    have e4 : c * Q.one (fun x => functions_single_integrated { par with output_type := .CORRFUNC } bg I z μ sep x) = corrDenLen par' bg' I' z sep μ := by
      rw [hQ.one, ← integral_const_mul]
      simp only [e3, integral_const]
      simp
    rw [← e4, corrfuncAt, signal_value]
    have gs : single_gate par.correlation_contrib = true := by simp [single_gate, hc, Contrib.none]
    simp only [coffe_integrate, integrate_non, integrate_single, integrate_double, e1, e2, hq2, gs]
    simp
  have hval : ∀ l, multipoleAt Q par bg I z sep l = 2 * Real.pi * Real.pi * flatsky_den_len_multipoles par bg I z sep l := fun l => by
    have e1 : ∀ x, multipoles_nonintegrated_integrand { par with output_type := .MULTIPOLES } bg I z sep l x = 0 := fun x => by
      simp only [multipoles_nonintegrated_integrand, functions_nonintegrated, non_result_gated]
      simp [hc, ho, Contrib.none]
    have e2 : ∀ v, multipoles_double_integrated_integrand { par with output_type := .MULTIPOLES } bg I z sep l v = 0 := fun v => by
      simp only [multipoles_double_integrated_integrand, functions_double_integrated, double_result_gated]
      simp [hc, ho, Contrib.none]
    have hq3 : Q.multi 3 (multipoles_double_integrated_integrand { par with output_type := .MULTIPOLES } bg I z sep l) = 0 := by
      rw [hQ.product.step 2 le_rfl, hQ.one]
      simp [hQ.product.first, hQ.one, e2]
    have hq1 : Q.one (multipoles_nonintegrated_integrand { par with output_type := .MULTIPOLES } bg I z sep l) = 0 := by
      rw [hQ.one]; simp [e1]
    rw [multipoleAt, signal_value]
    simp only [coffe_integrate, integrate_non, integrate_single, integrate_double, hq1, hq3]
    have g : single_multi_gate { par with output_type := .MULTIPOLES } = false := by simp [single_multi_gate, hc, hf, Contrib.none]
    have g2 : double_flat_gate { par with output_type := .MULTIPOLES } l = false := by simp [double_flat_gate, ho]
    have g3 : single_flat_gate { par with output_type := .MULTIPOLES } = true := by simp [single_flat_gate, hc, hf, Contrib.none]
    simp only [g, g2, g3]
    simp [hc, single_gate, Contrib.none]
    rfl
  have hgate : single_flat_gate par' = true ∧ par'.correlation_contrib.den = true := by
    simp [single_flat_gate, par', hc, hf, Contrib.none]
  refine ⟨?_, ?_⟩
  · have := hdl l
    rw [if_pos hgate.1, if_pos hgate.2, hmul, ← hval] at this
    rw [← this, show corrDenLen par' bg' I' z sep = fun μ => c * corrfuncAt Q par bg I z sep μ from funext hcorr,
      multipoleOf_const_mul, hcd]
  · have := hdl 0
    rw [if_pos hgate.1, if_pos hgate.2, hmul, ← hval] at this
    rw [← this, show corrDenLen par' bg' I' z sep = fun μ => _ from funext (corrDenLen_eq h0 h1 hP par' bg' hI' z hs),
      multipoleOf_const_mul]
    have e0 := multipoleOf_abs_transverse h0 h1 hP 0 hs
    rw [Nat.mul_zero] at e0
    rw [e0, if_pos ⟨hgate.2, by simp [par', hc], hf⟩]
    simp [par', bg']
    exact Or.inl (by ring)

/-- The quadrature that returns the integrals. -/
noncomputable def exactMulti : ℕ → ((ℕ → ℝ) → ℝ) → ℝ
  | 0, g => g fun _ => 0
  | 1, g => ∫ x in (0 : ℝ)..1, g fun _ => x
  | 2, g => ∫ t in (0 : ℝ)..1, ∫ x in (0 : ℝ)..1, g (consCoord t fun _ => x)
  | n + 3, g => ∫ t in (0 : ℝ)..1, exactMulti (n + 2) fun v => g (consCoord t v)

noncomputable def integralQuad : Quad := ⟨fun g => ∫ x in (0 : ℝ)..1, g x, exactMulti⟩

theorem integralQuad_exact : integralQuad.Exact where
  one _ := rfl
  product := ⟨fun _ => rfl, fun n hn g => by obtain ⟨m, rfl⟩ := Nat.exists_eq_add_of_le' hn; rfl⟩

/-- Tables that hold the computed values, of a spectrum for the one-dimensional and one for each redshift for the two-dimensional. -/
noncomputable def tablesOf (P : ℝ → ℝ) (Pz : ℝ → ℝ → ℝ) (kmin kmax : ℝ) : Ints := fun e =>
  { result := fun r => if e = ⟨1, -1, .half, .half⟩ then
      (if r = 0 then zero_separation_value exactQuad P e kmin kmax * integrals_coefficients e.l e.state_l
        else direct_value exactQuad P e kmin kmax r) * (Real.sqrt (2 / Real.pi) * 2 * Real.pi * Real.pi)
      else direct_value exactQuad P e kmin kmax r
    result2d := fun z r => if r = 0 then zero_separation_value exactQuad (Pz z) e kmin kmax * integrals_coefficients e.l e.state_l
      else direct_value exactQuad (Pz z) e kmin kmax r
    renormalization := fun _ _ => 0
    renormalization_zero_separation := fun _ => 0 }

theorem tablesOf_flat (P : ℝ → ℝ) (Pz : ℝ → ℝ → ℝ) (kmin kmax : ℝ) : FlatTables P kmin kmax (tablesOf P Pz kmin kmax) where
  half r hr := by simp [tablesOf, Ints.Ihalf, hr.ne']
  zero := by simp [tablesOf, Ints.Ihalf]
  len l r _ := by simp [tablesOf]
  den_len l k hk r _ := by simp only [tablesOf, if_neg (den_len_key_ne hk)]

theorem tablesOf_class (P : ℝ → ℝ) (Pz : ℝ → ℝ → ℝ) (kmin kmax : ℝ) : ClassTables Pz kmin kmax (tablesOf P Pz kmin kmax) where
  half z r hr := by simp [tablesOf, Ints.Ihalf, hr.ne']
  zero z := by simp [tablesOf, Ints.Ihalf]
  den_len z l k hk r hr := by simp only [tablesOf, if_neg hr.ne']

/-- Density and lensing, flat-sky, linear. -/
noncomputable def flatPar : Par :=
  { wPar with correlation_contrib := { Contrib.none with den := true, len := true }, flatsky_local := true,
              flatsky_local_nonlocal := true, flatsky_nonlocal := true }

/-- The hypotheses of `C73_multipoles_partial` are met: density and lensing with all flat-sky approximations. -/
example (l : ℕ) : multipoleAt integralQuad flatPar wBg (tablesOf (fun _ => 1) (fun _ _ => 1) (1 / 10) 10) 1 (1 / 2) l =
    multipoleOf l (corrfuncAt integralQuad flatPar wBg (tablesOf (fun _ => 1) (fun _ _ => 1) (1 / 10) 10) 1 (1 / 2)) := by
  have e0 : (fun μ => functions_nonintegrated flatPar wBg (tablesOf (fun _ => 1) (fun _ _ => 1) (1 / 10) 10)
      1 μ (1 / 2)) = fun _ => 2 * (tablesOf (fun _ => 1) (fun _ _ => 1) (1 / 10) 10).I00.result (1 / 2) := funext fun μ => by
    simp only [functions_nonintegrated, non_result_gated]
    simp [flatPar, Contrib.none, Contrib.ofFun, non_den_den, non_growth, wPar, wBg, NonEnv.of]
  have e1 : ∀ μ, functions_single_integrated flatPar wBg (tablesOf (fun _ => 1) (fun _ _ => 1) (1 / 10) 10)
      1 μ (1 / 2) = fun _ => 0 := fun μ => funext fun x => by
    simp only [functions_single_integrated, single_result_gated]
    simp [flatPar, Contrib.none, single_den_len, wPar]
  have e2 : ∀ μ x, functions_double_integrated flatPar wBg
      (tablesOf (fun _ => 1) (fun _ _ => 1) (1 / 10) 10) 1 μ (1 / 2) x = fun _ => 0 := fun μ x => funext fun y => by
    simp only [functions_double_integrated, double_result_gated]
    simp [flatPar, Contrib.none, double_len_len, wPar]
  have hA : AngleIntegrable flatPar wBg (tablesOf (fun _ => 1) (fun _ _ => 1) (1 / 10) 10) 1 (1 / 2) := by
    refine ⟨?_, fun μ _ => ?_, ?_, fun μ _ x _ => ?_, fun μ _ => ?_, ?_⟩
    · rw [e0]; exact intervalIntegrable_const
    · rw [e1]; exact intervalIntegrable_const
    · simp only [e1]; exact intervalIntegrable_const
    · rw [e2]; exact intervalIntegrable_const
    · simp only [e2]; exact intervalIntegrable_const
    · simp only [e2]; exact intervalIntegrable_const
  exact C73_multipoles_partial integralQuad_exact flatPar wBg _ 1 (by norm_num) l (by norm_num : (0 : ℝ) < 1 / 10)
    (by norm_num : (1 : ℝ) / 10 ≤ 10) continuousOn_const (tablesOf_flat _ _ _ _) (by simp [flatPar, wPar]) (by simp [wBg])
    continuousOn_id continuousOn_const hA

/-- The same with the spectra of CLASS, and with the cross-correlation of density and lensing only. -/
noncomputable def classPar : Par :=
  { flatPar with only_cross_correlations := true, pk_type := .COFFE_PK_LINEAR_CLASS, midpoint_approximation := true }

theorem classPar_only : OnlyDensityLensing classPar := by simp [OnlyDensityLensing, classPar, flatPar, wPar]

/-- With a spectrum from CLASS at each redshift the multipoles are not those of the correlation function. -/
theorem C73_class_false : ∃ (Q : Quad) (par : Par) (bg : Bg) (I : Ints) (P : ℝ → ℝ → ℝ) (kmin kmax : ℝ),
    Q.Exact ∧ OnlyDensityLensing par ∧ 0 < kmin ∧ kmin < kmax ∧ (∀ z k, P z k = 1) ∧ ClassTables P kmin kmax I ∧
      multipoleAt Q par bg I 0 1 0 ≠ multipoleOf 0 (corrfuncAt Q par bg I 0 1) := by
  have hev := (tendsto_Jn 1).eventually_const_lt (show (0 : ℝ) < 1 / (2 ^ 1 * (Nat.factorial 1 : ℝ)) by simp)
  obtain ⟨δ, hδ, hpos⟩ := (Metric.mem_nhdsWithin_iff (s := {x : ℝ | 0 < gsl_sf_bessel_Jn 1 x / x ^ 1})).1 hev
  have hj : ∀ k ∈ Set.Icc (δ / 4) (δ / 2), 0 < gsl_sf_bessel_Jn 1 k / k ^ 1 := fun k hk => hpos ⟨by
    rw [Metric.mem_ball, Real.dist_eq, sub_zero, abs_of_pos (by linarith [hk.1])]; linarith [hk.2], show 0 < k by linarith [hk.1]⟩
  refine ⟨integralQuad, classPar, wBg, tablesOf (fun _ => 1) (fun _ _ => 1) (δ / 4) (δ / 2), fun _ _ => 1, δ / 4, δ / 2,
    integralQuad_exact, classPar_only, by positivity, by linarith, fun _ _ => rfl, tablesOf_class _ _ _ _, ?_⟩
  obtain ⟨h1, h2⟩ := C73_class_ratio integralQuad_exact classPar classPar_only wBg (tablesOf (fun _ => 1) (fun _ _ => 1) (δ / 4) (δ / 2)) 0
    one_pos 0 (P := fun _ _ => 1) (by positivity : 0 < δ / 4) (by linarith : δ / 4 ≤ δ / 2) continuousOn_const (tablesOf_class _ _ _ _)
  have hint : 0 < ∫ k in δ / 4..δ / 2, k * 1 * (gsl_sf_bessel_Jn 1 (k * 1) / (k * 1) ^ 1) := by
    refine intervalIntegral_pos_of_pos_on (ContinuousOn.intervalIntegrable ?_) (fun k hk => ?_) (by linarith)
    · rw [Set.uIcc_of_le (by linarith)]
      have := continuous_Jn 1
      refine ContinuousOn.mul (by fun_prop) (ContinuousOn.div (by fun_prop) (by fun_prop) fun k hk => ?_)
      have : 0 < k := by linarith [hk.1]
      positivity
    · rw [mul_one]
      exact mul_pos (by linarith [hk.1]) (hj k ⟨hk.1.le, hk.2.le⟩)
  have hne : multipoleAt integralQuad classPar wBg (tablesOf (fun _ => 1) (fun _ _ => 1) (δ / 4) (δ / 2)) 0 1 0 ≠ 0 := by
    rw [h2]
    refine mul_ne_zero ?_ hint.ne'
    have := Real.pi_pos.ne'
    simp [classPar, flatPar, wPar, COFFE_H0]
    norm_num
  have hc : 1 < Real.sqrt (2 / Real.pi) * 2 * Real.pi * Real.pi := by
    have hpi := Real.pi_gt_three
    have h3 : 2 / Real.pi ≤ Real.sqrt (2 / Real.pi) := by
      refine Real.le_sqrt_of_sq_le ?_
      have h4 : 2 / Real.pi ≤ 1 := by rw [div_le_one Real.pi_pos]; linarith
      have h5 : 0 < 2 / Real.pi := by positivity
      nlinarith
    have h6 : 2 / Real.pi * 2 * Real.pi * Real.pi = 4 * Real.pi := by field_simp; norm_num
    have h7 : 2 / Real.pi * 2 * Real.pi * Real.pi ≤ Real.sqrt (2 / Real.pi) * 2 * Real.pi * Real.pi := by gcongr
    linarith
  intro h
  rw [← h] at h1
  have : (Real.sqrt (2 / Real.pi) * 2 * Real.pi * Real.pi - 1) *
      multipoleAt integralQuad classPar wBg (tablesOf (fun _ => 1) (fun _ _ => 1) (δ / 4) (δ / 2)) 0 1 0 = 0 := by linarith
  rcases mul_eq_zero.1 this with h8 | h8
  · linarith
  · exact hne h8

/-- The flat-sky lensing-lensing correlation function does not look at the spectra of CLASS at all. -/
theorem C73_len_len_ignores_class (Q : Quad) (par : Par) (hc : par.correlation_contrib = { Contrib.none with len := true })
    (hf : par.flatsky_nonlocal = true) (bg : Bg) (I I' : Ints) (h : I.Ihalf.result = I'.Ihalf.result) (z sep μ : ℝ) :
    corrfuncAt Q par bg I z sep μ = corrfuncAt Q par bg I' z sep μ := by
  have e1 : ∀ I, functions_nonintegrated { par with output_type := .CORRFUNC } bg I z μ sep = 0 := fun I => by
    simp only [functions_nonintegrated, non_result_gated]
    simp [hc, Contrib.none]
  have e2 : ∀ x y, functions_double_integrated { par with output_type := .CORRFUNC } bg I z μ sep x y =
      functions_double_integrated { par with output_type := .CORRFUNC } bg I' z μ sep x y := fun x y => by
    simp only [functions_double_integrated, double_result_gated]
    simp [hc, hf, h, Contrib.none, Contrib.ofFun, double_len_len, DoubleEnv.of]
  have g : single_gate par.correlation_contrib = false := by simp [single_gate, hc, Contrib.none]
  simp only [corrfuncAt, signal_value, coffe_integrate, integrate_non, integrate_double, e1, e2, g, Bool.false_eq_true, if_false]

/-- But its multipoles do. -/
theorem C73_len_len_class_false : ∃ (Q : Quad) (par : Par) (bg : Bg) (I I' : Ints), Q.Exact ∧ (∀ e, (I e).result = (I' e).result) ∧
    (∀ z sep μ, corrfuncAt Q par bg I z sep μ = corrfuncAt Q par bg I' z sep μ) ∧
    multipoleAt Q par bg I 1 1 0 ≠ multipoleAt Q par bg I' 1 1 0 := by
  let par : Par := { wPar with correlation_contrib := { Contrib.none with len := true }, flatsky_nonlocal := true,
                               pk_type := .COFFE_PK_NONLINEAR_HALOFIT, midpoint_approximation := true }
  let T : ℝ → Ints := fun c _ => { wZero with result2d := fun _ _ => c }
  have hval : ∀ c, multipoleAt integralQuad par wBg (T c) 1 1 0 =
      2 * Real.pi * Real.pi * (9 * 4 / 8 / Real.pi * c * COFFE_H0 ^ 4 * (8 / 105)) := fun c => by
    have e1 : ∀ x, multipoles_nonintegrated_integrand { par with output_type := .MULTIPOLES } wBg (T c) 1 1 0 x = 0 := fun x => by
      simp only [multipoles_nonintegrated_integrand, functions_nonintegrated, non_result_gated]
      simp [par, Contrib.none]
    have hq1 : integralQuad.one (multipoles_nonintegrated_integrand { par with output_type := .MULTIPOLES } wBg (T c) 1 1 0) = 0 := by
      rw [integralQuad_exact.one]; simp [e1]
    have g1 : single_gate par.correlation_contrib = false := by simp [single_gate, par, Contrib.none]
    have g2 : double_flat_gate { par with output_type := .MULTIPOLES } 0 = true := by simp [double_flat_gate, par, wPar]
    have g3 : double_gate par.correlation_contrib = true := by simp [double_gate, par]
    have g4 : double_multi_gate { par with output_type := .MULTIPOLES } = false := by simp [double_multi_gate, par, Contrib.none]
    have e4 : integralQuad.one (fun x => flatsky_len_len_multipoles { par with output_type := .MULTIPOLES } wBg (T c) 1 1 0 x) =
        9 * 4 / 8 / Real.pi * c * COFFE_H0 ^ 4 * (8 / 105) := by
      rw [integralQuad_exact.one, show (8 : ℝ) / 105 = ∫ x in (0 : ℝ)..1, (x ^ 2 - 2 * x ^ 4 + x ^ 6) by
        rw [integral_add, integral_sub, integral_const_mul]
        · simp [integral_pow]; norm_num
        all_goals exact Continuous.intervalIntegrable (by fun_prop) _ _, ← integral_const_mul]
      refine integral_congr fun x _ => ?_
      simp [flatsky_len_len_multipoles, par, T, wPar, wBg]
      ring
    rw [multipoleAt, signal_value]
    simp only [coffe_integrate, integrate_non, integrate_double, hq1, e4, g1, g2, g3, g4]
    simp
  refine ⟨integralQuad, par, wBg, T 0, T 1, integralQuad_exact, fun _ => rfl,
    fun z sep μ => C73_len_len_ignores_class _ par rfl rfl _ _ _ rfl _ _ _, ?_⟩
  rw [hval, hval]
  have := Real.pi_pos
  have : 0 < COFFE_H0 := by norm_num [COFFE_H0]
  have h : 0 < 2 * Real.pi * Real.pi * (9 * 4 / 8 / Real.pi * 1 * COFFE_H0 ^ 4 * (8 / 105)) := by positivity
  simpa using h.ne

end Coffe
