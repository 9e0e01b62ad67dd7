import Verif.Proofs.TwofastValues
import Verif.Spec.RedshiftTables
import Verif.Spec.IntegralValues
import Mathlib.Analysis.SpecialFunctions.Integrals.Basic
import Verif.Model.Signal.SingleIntegrated

/-!
# C64: the tables that depend on the redshift and the tables at redshift zero
-/

namespace Coffe

theorem fftValue_smul {N : TableNum} (hN : Homogeneous N) (S T : ℕ → ℝ) (c l nu kmin kmax : ℝ) (len : ℕ)
    (h : ∀ i < len, T i = c * S i) (i : ℕ) :
    fftValue N.fft N.ifft N.mql T l nu kmin kmax len i = c * fftValue N.fft N.ifft N.mql S l nu kmin kmax len i := by
  have h1 : ∀ q, fftSample T q kmin kmax len = fun j => c * fftSample S q kmin kmax len j := by
    intro q; funext j; unfold fftSample
    by_cases hj : j < len
    · rw [if_pos hj, if_pos hj, h j hj]; ring
    · rw [if_neg hj, if_neg hj, mul_zero]
  have h2 : ∀ q j, fftCoeff N.fft T q kmin kmax len j = c * fftCoeff N.fft S q kmin kmax len j := by
    intro q j; unfold fftCoeff
    rw [h1, hN.fft, map_mul, Complex.conj_ofReal]; ring
  have h3 : fftMode N.fft N.mql T l nu kmin kmax len = fun j => c * fftMode N.fft N.mql S l nu kmin kmax len j := by
    funext j; unfold fftMode
    split_ifs
    · rw [h2]; ring
    · rw [mul_zero]
  unfold fftValue
  rw [h3, hN.ifft]; ring

theorem integrals_integrate_function_smul {N : TableNum} (hN : Homogeneous N) (f g : ℝ → ℝ) (e : Key) (c r kmin kmax : ℝ)
    (h : ∀ x, g x = c * f x) : integrals_integrate_function N.quad g e r kmin kmax
      = c * integrals_integrate_function N.quad f e r kmin kmax := by
  have : g = fun x => c * f x := funext h
  unfold integrals_integrate_function
  dsimp only
  rw [this, hN.quad]
  split_ifs <;> ring

theorem direct_value_smul {N : TableNum} (hN : Homogeneous N) (P Q : ℝ → ℝ) (e : Key) (c r kmin kmax : ℝ)
    (h : ∀ x, Q x = c * P x) : direct_value N.quad Q e kmin kmax r = c * direct_value N.quad P e kmin kmax r := by
  refine integrals_integrate_function_smul hN _ _ e c r kmin kmax fun x => ?_
  unfold integrals_bessel_integrand
  simp only [h]; ring

theorem zero_separation_value_smul {N : TableNum} (hN : Homogeneous N) (P Q : ℝ → ℝ) (e : Key) (c kmin kmax : ℝ)
    (h : ∀ x, Q x = c * P x) : zero_separation_value N.quad Q e kmin kmax = c * zero_separation_value N.quad P e kmin kmax := by
  refine integrals_integrate_function_smul hN _ _ e c 0 kmin kmax fun x => ?_
  unfold integrals_prefactor
  simp only [h]
  split_ifs <;> ring

theorem tableValue_smul {N : TableNum} (hN : Homogeneous N) (S T : ℕ → ℝ) (P Q : ℝ → ℝ) (e : Key) (c kmin kmax : ℝ) (len : ℕ)
    (h : ∀ i < len, T i = c * S i) (hP : ∀ x, Q x = c * P x) (i : ℕ) :
    tableValue N.fft N.ifft N.mql T (zero_separation_value N.quad Q e kmin kmax) (direct_value N.quad Q e kmin kmax) e kmin kmax
      len i = c * tableValue N.fft N.ifft N.mql S (zero_separation_value N.quad P e kmin kmax) (direct_value N.quad P e kmin kmax)
      e kmin kmax len i := by
  unfold tableValue
  dsimp only
  rw [zero_separation_value_smul hN P Q e c kmin kmax hP]
  split_ifs
  · rw [mul_zero]
  · ring
  · exact direct_value_smul hN P Q e c _ kmin kmax hP
  · rw [fftValue_smul hN S T c _ _ kmin kmax len h]; ring
  · rw [fftValue_smul hN S T c _ _ kmin kmax len h]; ring

/-- The table of one spectrum, cell by cell. -/
theorem integral_table_val (N : TableNum) (S : SpectrumSpline) (e : Key) (len : ℕ) (kmin kmax : ℝ) (v : ℕ → ℝ)
    (hlen : 2 ≤ len) (hsz : len < 2 ^ 62) (h0 : 0 < kmin) (h1 : kmin < kmax) (hc : ClearGrid kmin kmax len)
    (hS : ∀ i < len, S.cubic (logGrid kmin kmin kmax len i) = .ok (v i)) :
    ∃ x y, integral_table N S e len kmin kmax = .ok (x, y, len + 43) ∧ x.IsArray (len + 43) (tableSep len (kmax / kmin)) ∧
      y.IsArray (len + 43) (tableValue N.fft N.ifft N.mql v (zero_separation_value N.quad S.eval e kmin kmax)
        (direct_value N.quad S.eval e kmin kmax) e kmin kmax len) :=
  coffe_integrals_renormalizable_val S.cubic N.fft N.ifft N.mql _ _ len e kmin kmax v hlen hsz h0 h1 hc hS

/-- The array behind `result2d` holds, at separation `j` and redshift `i`, the table of the spectrum at that redshift. -/
theorem integral_result2d_val (N : TableNum) (S : ℝ → SpectrumSpline) (e : Key) (len : ℕ) (kmin kmax : ℝ) (v : ℕ → ℕ → ℝ)
    (hlen : 2 ≤ len) (hsz : len < 2 ^ 62) (h0 : 0 < kmin) (h1 : kmin < kmax) (hc : ClearGrid kmin kmax len)
    (hS : ∀ i < 100, ∀ j < len, (S (result2d_z i)).cubic (logGrid kmin kmin kmax len j) = .ok (v i j)) :
    ∃ b, integral_result2d N S e len kmin kmax (len + 43) = .ok b ∧ ∀ i < 100, ∀ j < len + 43,
      b.load (j * 100 + i) = .ok (tableValue N.fft N.ifft N.mql (v i)
        (zero_separation_value N.quad (S (result2d_z i)).eval e kmin kmax)
        (direct_value N.quad (S (result2d_z i)).eval e kmin kmax) e kmin kmax len j) := by
  let g : ℕ → ℝ := fun p => tableValue N.fft N.ifft N.mql (v (p % 100))
        (zero_separation_value N.quad (S (result2d_z (p % 100))).eval e kmin kmax)
        (direct_value N.quad (S (result2d_z (p % 100))).eval e kmin kmax) e kmin kmax len (p / 100)
  have hg : ∀ i < 100, ∀ j, g (j * 100 + i) = tableValue N.fft N.ifft N.mql (v i)
        (zero_separation_value N.quad (S (result2d_z i)).eval e kmin kmax)
        (direct_value N.quad (S (result2d_z i)).eval e kmin kmax) e kmin kmax len j := by
    intro i hi j
    have e1 : (j * 100 + i) % 100 = i := by omega
    have e2 : (j * 100 + i) / 100 = j := by omega
    simp only [g, e1, e2]
  obtain ⟨b, hb, hd, hw, -⟩ := cfor_regions (upTo 0 100) (fun i p => ∃ j < len + 43, p = j * 100 + i) g
    (fun i pk_at_z2d => do
      let (_, final_result, output_real_len) ← integral_table N (S (result2d_z i)) e len kmin kmax
      cfor (upTo 0 output_real_len) (fun j b => do
          let v ← final_result.load j
          b.store (j * 100 + i) v) pk_at_z2d) (cmalloc (100 * (len + 43))) (by
      intro i hi c hcd _
      have hi' : i < 100 := (mem_upTo.1 hi).2
      obtain ⟨x, y, hT, -, -, hy⟩ := integral_table_val N (S (result2d_z i)) e len kmin kmax (v i) hlen hsz h0 h1 hc (hS i hi')
      obtain ⟨c', hc', hw'⟩ := cfor_regions (upTo 0 (len + 43)) (fun j p => p = j * 100 + i) g
        (fun j b => do
          let v ← y.load j
          b.store (j * 100 + i) v) c (by
        intro j hj d hdd _
        have hj' : j < len + 43 := (mem_upTo.1 hj).2
        have hdom : d.dom (j * 100 + i) := by
          rw [hdd, hcd]; show j * 100 + i < 100 * (len + 43); omega
        refine ⟨d.upd (j * 100 + i) (g (j * 100 + i)), ?_, rfl, ?_, ?_⟩
        · rw [hy.load hj', hg i hi' j]
          exact store_ok hdom _
        · intro p hp; subst hp; simp [Buf.upd]
        · intro p hp; simp [Buf.upd, hp])
      refine ⟨c', ?_, ?_⟩
      · rw [hT]; exact hc'
      · convert hw' using 1
        funext p
        simp only [mem_upTo, eq_iff_iff]
        constructor
        · rintro ⟨j, hj, e⟩; exact ⟨j, ⟨by omega, hj⟩, e⟩
        · rintro ⟨j, ⟨-, hj⟩, e⟩; exact ⟨j, hj, e⟩)
  refine ⟨b, hb, fun i hi j hj => ?_⟩
  rw [← hg i hi j]
  exact Buf.load_eq.2 ⟨by rw [hd]; show j * 100 + i < 100 * (len + 43); omega,
    hw _ ⟨i, mem_upTo.2 ⟨by omega, hi⟩, j, hj, rfl⟩⟩

/-- The redshifts of the table. -/
theorem result2d_z_range (i : ℕ) (hi : i < 100) : 0 ≤ result2d_z i ∧ result2d_z i ≤ 2.97 := by
  unfold result2d_z result2d_z_size
  have h : (i : ℝ) ≤ 99 := by exact_mod_cast Nat.le_of_lt_succ hi
  have h2 : (0 : ℝ) ≤ i := Nat.cast_nonneg i
  constructor
  · push_cast; positivity
  · push_cast; linarith

/-- **C64.** If the spectrum grows by the factor `c z` between redshifts zero and `z`, every entry of the table for that
redshift is `c z` times the entry of the table at redshift zero, except in the flat-sky entry. -/
theorem C64_partial (N : TableNum) (hN : Homogeneous N) (S0 : SpectrumSpline) (S : ℝ → SpectrumSpline) (c : ℝ → ℝ) (e : Key)
    (he : e ≠ ⟨1, -1, .half, .half⟩) (len : ℕ) (kmin kmax : ℝ)
    (hlen : 2 ≤ len) (hsz : len < 2 ^ 62) (h0 : 0 < kmin) (h1 : kmin < kmax) (hc : ClearGrid kmin kmax len)
    (hS : ∀ z, Multiple S0 (S z) (c z) kmin kmax len) :
    ∃ x y b, ∃ Y : ℕ → ℝ, integral_result N S0 e len kmin kmax = .ok (x, y, len + 43) ∧
      integral_result2d N S e len kmin kmax (len + 43) = .ok b ∧
      (∀ j < len + 43, y.load j = .ok (Y j)) ∧
      ∀ i < 100, ∀ j < len + 43, b.load (j * 100 + i) = .ok (c (result2d_z i) * Y j) := by
  choose! v hv hcv using fun z => (hS z).cubic
  obtain ⟨x, y, hT, -, -, hy⟩ := integral_table_val N S0 e len kmin kmax (v 0) hlen hsz h0 h1 hc (hv 0)
  obtain ⟨b, hb, hbv⟩ := integral_result2d_val N S e len kmin kmax (fun i j => c (result2d_z i) * v (result2d_z i) j)
    hlen hsz h0 h1 hc (fun i _ j hj => hcv _ j hj)
  refine ⟨x, y, b, _, ?_, hb, fun j hj => hy.load hj, fun i hi j hj => ?_⟩
  · unfold integral_result
    rw [hT]
    simp only [bind, Except.bind, if_neg he]
    rfl
  · rw [hbv i hi j hj, tableValue_smul hN (v 0) _ S0.eval _ e (c (result2d_z i)) kmin kmax len (fun k hk => ?_) (hS _).eval]
    have := (hv 0 k hk).symm.trans (hv (result2d_z i) k hk)
    rw [Except.ok.inj this]

/-- **C64, negated.** In the flat-sky entry the table for a redshift lacks the factor the table at redshift zero has. -/
theorem C64_missing_factor (N : TableNum) (hN : Homogeneous N) (S0 : SpectrumSpline) (S : ℝ → SpectrumSpline) (c : ℝ → ℝ)
    (len : ℕ) (kmin kmax : ℝ)
    (hlen : 2 ≤ len) (hsz : len < 2 ^ 62) (h0 : 0 < kmin) (h1 : kmin < kmax) (hc : ClearGrid kmin kmax len)
    (hS : ∀ z, Multiple S0 (S z) (c z) kmin kmax len) :
    ∃ x y b, ∃ Y : ℕ → ℝ, integral_result N S0 ⟨1, -1, .half, .half⟩ len kmin kmax = .ok (x, y, len + 43) ∧
      integral_result2d N S ⟨1, -1, .half, .half⟩ len kmin kmax (len + 43) = .ok b ∧
      (∀ j < len + 43, y.load j = .ok (flatSkyFactor * Y j)) ∧
      (∀ i < 100, ∀ j < len + 43, b.load (j * 100 + i) = .ok (c (result2d_z i) * Y j)) ∧
      flatSkyFactor * Y 0 = N.quad (fun k => k * S0.eval k) kmin kmax := by
  choose! v hv hcv using fun z => (hS z).cubic
  obtain ⟨x, y, hT, -, -, hy⟩ := integral_table_val N S0 ⟨1, -1, .half, .half⟩ len kmin kmax (v 0) hlen hsz h0 h1 hc (hv 0)
  obtain ⟨y', hy', hh, -⟩ := C46_rescale y (len + 43) _ flatSkyFactor hy
  obtain ⟨b, hb, hbv⟩ := integral_result2d_val N S ⟨1, -1, .half, .half⟩ len kmin kmax
    (fun i j => c (result2d_z i) * v (result2d_z i) j) hlen hsz h0 h1 hc (fun i _ j hj => hcv _ j hj)
  refine ⟨x, y', b, tableValue N.fft N.ifft N.mql (v 0) (zero_separation_value N.quad S0.eval ⟨1, -1, .half, .half⟩ kmin kmax)
      (direct_value N.quad S0.eval ⟨1, -1, .half, .half⟩ kmin kmax) ⟨1, -1, .half, .half⟩ kmin kmax len, ?_, hb,
      fun j hj => ?_, fun i hi j hj => ?_, ?_⟩
  · unfold integral_result
    rw [hT]
    simp only [bind, Except.bind, if_true]
    rw [show (Real.sqrt (2 / Real.pi) * 2 * Real.pi * Real.pi) = flatSkyFactor from rfl, hy']
    rfl
  · rw [hh.load hj, mul_comm]
  · rw [hbv i hi j hj, tableValue_smul hN (v 0) _ S0.eval _ ⟨1, -1, .half, .half⟩ (c (result2d_z i)) kmin kmax len
      (fun k hk => ?_) (hS _).eval]
    have := (hv 0 k hk).symm.trans (hv (result2d_z i) k hk)
    rw [Except.ok.inj this]
  · have hl : integrals_local (-1) .half = -1 / 2 := by simp [integrals_local]
    have hn : integrals_local 1 .half = 1 / 2 := by simp [integrals_local]
    have hcf : integrals_coefficients (-1) .half = 1 := by
      unfold integrals_coefficients
      rw [if_pos rfl, show ((-1 : ℤ) : ℝ) / 2 + 0.5 = 0 by norm_num, show ((-1 : ℤ) : ℝ) / 2 + 1.5 = 1 by norm_num,
        Real.rpow_zero, Real.Gamma_one]
      norm_num
    have hz : zero_separation_value N.quad S0.eval ⟨1, -1, .half, .half⟩ kmin kmax
        = Real.sqrt (Real.pi / 2) * N.quad (fun k => k * S0.eval k) kmin kmax / 2 / Real.pi / Real.pi := by
      unfold zero_separation_value integrals_integrate_function
      dsimp only
      rw [if_neg (fun h => lt_irrefl _ h.2), ← hN.quad]
      congr 5
      funext k
      unfold integrals_prefactor
      dsimp only
      rw [if_pos ⟨rfl, rfl⟩, hl, hn, show (2 + -1 / 2 - 1 / 2 : ℝ) = 1 by norm_num, Real.rpow_one]
      ring
    unfold tableValue
    dsimp only
    rw [if_pos rfl, hl, hn, if_neg (by norm_num), hcf, hz]
    unfold flatSkyFactor
    have hs : Real.sqrt (2 / Real.pi) * Real.sqrt (Real.pi / 2) = 1 := by
      rw [← Real.sqrt_mul (by positivity), show 2 / Real.pi * (Real.pi / 2) = 1 by field_simp, Real.sqrt_one]
    have hp := Real.pi_ne_zero
    field_simp
    linear_combination (N.quad (fun k => k * S0.eval k) kmin kmax) * hs

/-- The exact integral and the sums of the discrete Fourier transforms. -/
noncomputable def exactTableNum : TableNum where
  quad := exactQuad
  fft n f i := ∑ j ∈ Finset.range n, Complex.exp (-(2 * Real.pi * Complex.I * i * j / n)) * f j
  ifft n f i := (f 0 + 2 * ∑ j ∈ Finset.Ico 1 (n / 2), Complex.exp (2 * Real.pi * Complex.I * i * j / n) * f j
    + (-1) ^ i * f (n / 2)).re
  mql t q l x := t + q * l * x

theorem exactTableNum_homogeneous : Homogeneous exactTableNum where
  quad f a b c := by
    show exactQuad _ _ _ = c * exactQuad _ _ _
    unfold exactQuad
    exact intervalIntegral.integral_const_mul c f
  fft n f c i := by
    simp only [exactTableNum, Finset.mul_sum, Complex.ofReal_mul]
    exact Finset.sum_congr rfl fun j _ => by ring
  ifft n f c i := by
    simp only [exactTableNum]
    rw [← Complex.re_ofReal_mul]
    congr 1
    simp only [mul_add, Finset.mul_sum]
    congr 1
    · congr 1
      exact Finset.sum_congr rfl fun j _ => by ring
    · ring

/-- A spectrum that does not depend on the wavenumber, twice as large at every other redshift. -/
noncomputable def flatSpectrum (c : ℝ) : SpectrumSpline := ⟨fun _ => c, fun _ => .ok c⟩

theorem flatSpectrum_multiple (c kmin kmax : ℝ) (len : ℕ) : Multiple (flatSpectrum 1) (flatSpectrum c) c kmin kmax len where
  eval _ := (mul_one c).symm
  cubic _ _ := ⟨1, rfl, by rw [mul_one]; rfl⟩

/-- Non-vacuity of C64. -/
example : ∃ x y b, ∃ Y : ℕ → ℝ, integral_result exactTableNum (flatSpectrum 1) ⟨0, 2, .int, .int⟩ 2 1e-3 0.1 = .ok (x, y, 45) ∧
      integral_result2d exactTableNum (fun z => flatSpectrum (1 / (1 + z) ^ 2)) ⟨0, 2, .int, .int⟩ 2 1e-3 0.1 45 = .ok b ∧
      (∀ j < 45, y.load j = .ok (Y j)) ∧
      ∀ i < 100, ∀ j < 45, b.load (j * 100 + i) = .ok (1 / (1 + result2d_z i) ^ 2 * Y j) :=
  C64_partial exactTableNum exactTableNum_homogeneous (flatSpectrum 1) _ (fun z => 1 / (1 + z) ^ 2) ⟨0, 2, .int, .int⟩ (by decide) 2 1e-3
    0.1 (by norm_num) (by norm_num) (by norm_num) (by norm_num) clear_example fun z => flatSpectrum_multiple _ _ _ _

theorem flatSkyFactor_gt : 15 < flatSkyFactor := by
  unfold flatSkyFactor
  have hp := Real.pi_gt_d2
  have hp4 := Real.pi_lt_d2
  have hs : (0.79 : ℝ) < Real.sqrt (2 / Real.pi) := by
    apply Real.lt_sqrt_of_sq_lt
    rw [lt_div_iff₀ Real.pi_pos]
    nlinarith
  have : (3.14 : ℝ) * 3.14 < Real.pi * Real.pi := by nlinarith
  calc (15 : ℝ) < 0.79 * 2 * (3.14 * 3.14) := by norm_num
    _ < Real.sqrt (2 / Real.pi) * 2 * (Real.pi * Real.pi) := by
      apply mul_lt_mul'' _ this (by norm_num) (by norm_num)
      linarith
    _ = _ := by ring

/-- **C64, negated.** A spectrum with positive values, the same at all redshifts: the flat-sky entry for a redshift differs
from the flat-sky entry at redshift zero. -/
theorem C64_false : ∃ (S : SpectrumSpline), Multiple S S 1 1e-3 0.1 2 ∧
    ∃ x y b u w, integral_result exactTableNum S ⟨1, -1, .half, .half⟩ 2 1e-3 0.1 = .ok (x, y, 45) ∧
      integral_result2d exactTableNum (fun _ => S) ⟨1, -1, .half, .half⟩ 2 1e-3 0.1 45 = .ok b ∧
      y.load 0 = .ok u ∧ b.load 0 = .ok w ∧ 0 < w ∧ 15 * w < u := by
  refine ⟨flatSpectrum 1, flatSpectrum_multiple 1 _ _ _, ?_⟩
  obtain ⟨x, y, b, Y, h1, h2, h3, h4, h5⟩ := C64_missing_factor exactTableNum exactTableNum_homogeneous (flatSpectrum 1)
    (fun _ => flatSpectrum 1) (fun _ => 1) 2 1e-3 0.1 (by norm_num) (by norm_num) (by norm_num) (by norm_num) clear_example
    fun z => flatSpectrum_multiple _ _ _ _
  have hpos : 0 < flatSkyFactor * Y 0 := by
    rw [h5]
    show 0 < exactQuad _ _ _
    unfold exactQuad
    simp only [flatSpectrum, mul_one]
    rw [integral_id]
    norm_num
  have hf := flatSkyFactor_gt
  have hY : 0 < Y 0 := (mul_pos_iff_of_pos_left (by linarith)).1 hpos
  refine ⟨x, y, b, _, _, h1, h2, h3 0 (by norm_num), ?_, hY, ?_⟩
  · simpa using h4 0 (by norm_num) 0 (by norm_num)
  · exact mul_lt_mul_of_pos_right hf hY

/-- **C64, its effect.** With such a table, the flat-sky density--lensing term of the correlation function is
too small by that factor as soon as a spectrum from CLASS is asked for, although that spectrum is the linear one. -/
theorem C64_flatsky (par : Par) (bg : Bg) (I : Ints) (v : SingleEnv)
    (hf : par.flatsky_local_nonlocal = true) (ho : par.output_type ≠ .MULTIPOLES) (hm : par.midpoint_approximation = true)
    (hI : bg.D1 v.z_mean ^ 2 * I.Ihalf.result (v.sep * Real.sqrt (1 - v.mu * v.mu))
      = flatSkyFactor * I.Ihalf.result2d v.z_mean (v.sep * Real.sqrt (1 - v.mu * v.mu))) :
    single_den_len { par with pk_type := .COFFE_PK_LINEAR } bg I v
      = flatSkyFactor * single_den_len { par with pk_type := .COFFE_PK_LINEAR_CLASS } bg I v := by
  unfold single_den_len
  dsimp only
  by_cases hd : par.correlation_contrib.den = true ∧ par.correlation_contrib.len = true
  · rw [if_pos hd, if_pos hd, if_pos (⟨hf, ho⟩ : _ ∧ par.output_type ≠ _), if_pos (⟨hf, ho⟩ : _ ∧ par.output_type ≠ _),
      if_neg (fun h : (PkType.COFFE_PK_LINEAR ≠ .COFFE_PK_LINEAR) ∧ _ => h.1 rfl),
      if_pos (⟨by decide, hm⟩ : (PkType.COFFE_PK_LINEAR_CLASS ≠ .COFFE_PK_LINEAR) ∧ _)]
    linear_combination ((COFFE_H0 * par.h) ^ 2 * ((-3) * (par.Omega0_cdm + par.Omega0_baryon) / Real.pi / 8 *
      (1 + v.z_mean) * |v.mu| * v.sep * ((2 - 5 * v.sz_mean1) * v.bz_mean2 + (2 - 5 * v.sz_mean2) * v.bz_mean1))) * hI
  · rw [if_neg hd, if_neg hd, mul_zero]

end Coffe
