import Verif.Proofs.Units
import Verif.Proofs.EnsembleTables
import Verif.Model.C.Background
import Verif.Spec.Witness
import Mathlib.Tactic.NormNum

/-!
# C77: the Hubble constant is only a unit

Vocabulary: `Verif/Spec/Units.lean`.
-/

namespace Coffe
open Classical

/-! ## The signal -/

/-- **C77, no integral along the line of sight.** -/
theorem C77_nonintegrated (par : Par) (bg : Bg) (I : Ints) {c : ℝ} (hc : 0 < c) (z mu s : ℝ) :
    functions_nonintegrated (par.unit c) (bg.unit c) (I.unit c) z mu (c * s) =
      functions_nonintegrated par bg I z mu s := by
  simp only [functions_nonintegrated, NonEnv.of_unit hc.ne', non_result_unit I hc.ne']
  rfl

/-- **C77, one integral along the line of sight.** -/
theorem C77_single (par : Par) (bg : Bg) (I : Ints) {c : ℝ} (hc : 0 < c) (z mu s x : ℝ) :
    functions_single_integrated (par.unit c) (bg.unit c) (I.unit c) z mu (c * s) x =
      functions_single_integrated par bg I z mu s x := by
  simp only [functions_single_integrated, SingleEnv.of_unit I hc, single_result_unit I hc]

/-- **C77, two integrals along the line of sight (partial).**  Missing: lensing together with the fifth potential term
(`C77_g5_lensing_false`), and two points so close that the code takes them for one (`C77_coincident_false`). -/
theorem C77_double_partial (par : Par) (bg : Bg) (I : Ints) {c : ℝ} (hc : 0 < c) (z mu s x y : ℝ)
    (hg : ¬ (par.correlation_contrib.g5 = true ∧ par.correlation_contrib.len = true))
    (ha : Apart par c (DoubleEnv.of par bg I z mu s x y).r2) :
    functions_double_integrated (par.unit c) (bg.unit c) (I.unit c) z mu (c * s) x y =
      functions_double_integrated par bg I z mu s x y := by
  simp only [functions_double_integrated, DoubleEnv.of_unit I hc par bg z mu s x y ha.2,
    double_result_unit I hc par bg _ hg ha.1]
  have h0 := hc.ne'
  have e : c ^ 4 * (COFFE_H0 * (par.unit c).h) ^ 4 = (COFFE_H0 * par.h) ^ 4 := by
    simp only [Par.unit]; field_simp
  rw [← e]; ring

theorem unit_key_int (l : ℕ) : (⟨1, l, .int, .int⟩ : Key).power = if l > 0 then 0 else 1 := by
  simp only [Key.power]
  split_ifs <;> omega

theorem unit_key_half (l k : ℕ) : (flatsky_den_len_key l k).power = 1 := by
  simp only [Key.power, flatsky_den_len_key]
  omega

theorem den_len_leaf {c : ℝ} (hc : c ≠ 0) (S A s b t q H h : ℝ) :
    c * S * (A * (c * s) * b * t) / q * (H * (h / c)) ^ 2 = S * (A * s * b * t) / q * (H * h) ^ 2 := by
  have e : c ^ 2 * (H * (h / c)) ^ 2 = (H * h) ^ 2 := by field_simp
  rw [← e]; ring

theorem C77_flat_den_len (par : Par) (bg : Bg) (I : Ints) {c : ℝ} (hc : 0 < c) (z s : ℝ) (l : ℕ) :
    flatsky_den_len_multipoles (par.unit c) (bg.unit c) (I.unit c) z (c * s) l =
      flatsky_den_len_multipoles par bg I z s l := by
  have h0 := hc.ne'
  have e1 : ∀ (f : ℕ → ℝ) (g : ℕ → ℝ), (∑ k ∈ Finset.range (l / 2 + 1), f k * (c ^ 1 * g k)) =
      c * ∑ k ∈ Finset.range (l / 2 + 1), f k * g k := by
    intro f g
    rw [Finset.mul_sum]
    exact Finset.sum_congr rfl fun k _ => by ring
  simp only [flatsky_den_len_multipoles, unit_result I h0, unit_result2d I h0, unit_key_half, e1, Par.unit, Bg.unit]
  split_ifs
  · exact den_len_leaf h0 _ _ _ _ _ _ _ _
  · rw [zero_div, zero_mul, zero_mul]
  · exact den_len_leaf h0 _ _ _ _ _ _ _ _
  · rw [zero_div, zero_mul, zero_mul]

theorem C77_flat_len_len (par : Par) (bg : Bg) (I : Ints) {c : ℝ} (hc : 0 < c) (z s : ℝ) (l : ℕ) (x : ℝ) :
    flatsky_len_len_multipoles (par.unit c) (bg.unit c) (I.unit c) z (c * s) l x =
      flatsky_len_len_multipoles par bg I z s l x := by
  have h0 := hc.ne'
  have e1 : x * (c * s) = c * (x * s) := by ring
  have e2 : ∀ a : ℝ, c * a * x / c = a * x := fun a => by field_simp
  simp only [flatsky_len_len_multipoles, e1, unit_result I h0, unit_result2d I h0, unit_key_int, Par.unit, Bg.unit, e2]
  have e3 : c ^ 4 * (COFFE_H0 * (par.h / c)) ^ 4 = (COFFE_H0 * par.h) ^ 4 := by field_simp
  rw [← e3]
  generalize COFFE_H0 * (par.h / c) = H
  split_ifs <;> ring

theorem average_z_unit (bg : Bg) {c : ℝ} (hc : 0 < c) (a b s t : ℝ) :
    average_z (bg.unit c) a b (c * s) t = average_z bg a b s t := by
  have h0 := hc.ne'
  have e1 : ∀ x : ℝ, (c * x + c * s / 2) / c = x + s / 2 := fun x => by field_simp
  have e2 : ∀ x : ℝ, (c * x - c * s / 2) / c = x - s / 2 := fun x => by field_simp
  simp only [average_z, Bg.unit, e1, e2]

theorem average_weight_unit (par : Par) (bg : Bg) {c : ℝ} (hc : 0 < c) (z : ℝ) :
    average_weight (par.unit c) (bg.unit c) z = average_weight par bg z := by
  have h0 := hc.ne'
  simp only [average_weight, Bg.unit, Par.unit]
  field_simp

/-- **C77 (partial).**  Every value of the correlation function, of its multipoles and of its averaged multipoles is the
same in all units of length: the Hubble constant divided by `c`, the background and the integral tables in the new unit and the
separation multiplied by `c`.  All effects, modes, splines and coordinates.  Missing: lensing together with the fifth
potential term; a quadrature that reads two points of the lines of sight so close that the code takes them for one. -/
theorem C77_signal_partial (Q : Quad) (S : ℕ → (ℕ → ℝ) → Prop) (hQ : Q.ReadsAt S) (par : Par) (bg : Bg) (I : Ints)
    {c : ℝ} (hc : 0 < c) (hg : ¬ (par.correlation_contrib.g5 = true ∧ par.correlation_contrib.len = true))
    (z zmin zmax sep mu : ℝ) (l : ℕ) (out : OutputType) (hS : NodesApart S par bg I c z zmin zmax sep mu out) :
    signal_value Q (par.unit c) (bg.unit c) (I.unit c) z zmin zmax (c * sep) mu l out =
      signal_value Q par bg I z zmin zmax sep mu l out := by
  have e1 : ∀ z s l, multipoles_nonintegrated_integrand (par.unit c) (bg.unit c) (I.unit c) z (c * s) l =
      multipoles_nonintegrated_integrand par bg I z s l := by
    intro z s l; funext x; simp only [multipoles_nonintegrated_integrand, C77_nonintegrated _ _ _ hc]
  have e2 : ∀ z s l, multipoles_single_integrated_integrand (par.unit c) (bg.unit c) (I.unit c) z (c * s) l =
      multipoles_single_integrated_integrand par bg I z s l := by
    intro z s l; funext x; simp only [multipoles_single_integrated_integrand, C77_single _ _ _ hc]
  have e4 : ∀ a b s l, average_nonintegrated_integrand (par.unit c) (bg.unit c) (I.unit c) a b (c * s) l =
      average_nonintegrated_integrand par bg I a b s l := by
    intro a b s l; funext x
    simp only [average_nonintegrated_integrand, C77_nonintegrated _ _ _ hc, average_z_unit _ hc, average_weight_unit _ _ hc]
  have e5 : ∀ a b s l, average_single_integrated_integrand (par.unit c) (bg.unit c) (I.unit c) a b (c * s) l =
      average_single_integrated_integrand par bg I a b s l := by
    intro a b s l; funext x
    simp only [average_single_integrated_integrand, C77_single _ _ _ hc, average_z_unit _ hc, average_weight_unit _ _ hc]
  have hc' : (par.unit c).correlation_contrib = par.correlation_contrib := rfl
  have g1 : single_flat_gate (par.unit c) = single_flat_gate par := rfl
  have g2 : single_multi_gate (par.unit c) = single_multi_gate par := rfl
  have g3 : double_flat_gate (par.unit c) = double_flat_gate par := rfl
  have g4 : double_multi_gate (par.unit c) = double_multi_gate par := rfl
  have hn : coffe_integrate Q (par.unit c) (bg.unit c) (I.unit c) z zmin zmax (c * sep) mu l .NONINTEGRATED out =
      coffe_integrate Q par bg I z zmin zmax sep mu l .NONINTEGRATED out := by
    cases out <;> simp only [coffe_integrate, integrate_non, e1, e4, C77_nonintegrated _ _ _ hc, hc']
  have hs : coffe_integrate Q (par.unit c) (bg.unit c) (I.unit c) z zmin zmax (c * sep) mu l .SINGLE_INTEGRATED out =
      coffe_integrate Q par bg I z zmin zmax sep mu l .SINGLE_INTEGRATED out := by
    cases out <;> simp only [coffe_integrate, integrate_single, e2, e5, C77_single _ _ _ hc, hc', g1, g2,
      C77_flat_den_len _ _ _ hc]
  have hd : coffe_integrate Q (par.unit c) (bg.unit c) (I.unit c) z zmin zmax (c * sep) mu l .DOUBLE_INTEGRATED out =
      coffe_integrate Q par bg I z zmin zmax sep mu l .DOUBLE_INTEGRATED out := by
    simp only [coffe_integrate, hc']
    split_ifs with hgate
    · cases out
      · simp only [integrate_double]
        exact hQ 2 _ _ fun v hv => C77_double_partial _ _ _ hc _ _ _ _ _ hg (hS v hv)
      · simp only [integrate_double, g3, g4, C77_flat_len_len _ _ _ hc]
        rw [hQ 3 (multipoles_double_integrated_integrand (par.unit c) (bg.unit c) (I.unit c) z (c * sep) l)
          (multipoles_double_integrated_integrand par bg I z sep l) fun v hv => by
            simp only [multipoles_double_integrated_integrand]
            rw [C77_double_partial _ _ _ hc _ _ _ _ _ hg (hS v hv)]]
      · simp only [integrate_double]
        rw [hQ 4 (average_double_integrated_integrand (par.unit c) (bg.unit c) (I.unit c) zmin zmax (c * sep) l)
          (average_double_integrated_integrand par bg I zmin zmax sep l) fun v hv => by
            simp only [average_double_integrated_integrand, average_z_unit _ hc, average_weight_unit _ _ hc]
            rw [C77_double_partial _ _ _ hc _ _ _ _ _ hg (hS v hv)]]
      · rfl
      · rfl
    · rfl
  simp only [signal_value, hn, hs, hd]

/-- **C77 fails for lensing with the fifth potential term.**  The code subtracts one from the expansion rate, an inverse
length: in a unit half as long the integrand is another one. -/
theorem C77_g5_lensing_false : ¬ ∀ (par : Par) (bg : Bg) (I : Ints) (c z mu s x y : ℝ), 0 < c →
    Apart par c (DoubleEnv.of par bg I z mu s x y).r2 →
    functions_double_integrated (par.unit c) (bg.unit c) (I.unit c) z mu (c * s) x y =
      functions_double_integrated par bg I z mu s x y := by
  intro h
  have h1 := h { wPar with correlation_contrib := { Contrib.none with len := true, g5 := true }, flatsky_nonlocal := true }
    wBg (fun _ => wConst 1) 2 2 0 1 (1 / 2) (1 / 2) (by norm_num) ⟨by simp, by simp [wPar]⟩
  simp [functions_double_integrated, double_result, double_len_len, double_g4_g4, double_g5_g5, double_g4_len,
    double_g5_len, double_g4_g5, DoubleEnv.of, Ints.unit, Par.unit, Bg.unit, wPar, wBg, Contrib.none, COFFE_H0, wConst,
    Ints.I31, Ints.I22, Key.power] at h1
  norm_num at h1

/-- **C77 fails at coincident points.** -/
theorem C77_coincident_false : ¬ ∀ (par : Par) (bg : Bg) (I : Ints) (c z mu s x y : ℝ), 0 < c →
    par.correlation_contrib.g5 = false →
    functions_double_integrated (par.unit c) (bg.unit c) (I.unit c) z mu (c * s) x y =
      functions_double_integrated par bg I z mu s x y := by
  intro h
  have := h { wPar with correlation_contrib := { Contrib.none with len := true } } wBg (fun _ => wConst 1) 2 2 0 1 0 0
    (by norm_num) rfl
  simp [functions_double_integrated, double_result, double_len_len, double_g4_g4, double_g5_g5, double_g4_len,
    double_g5_len, double_g4_g5, DoubleEnv.of, Ints.unit, Par.unit, Bg.unit, wPar, wBg, Contrib.none, COFFE_H0, wConst,
    Ints.I11, Key.power] at this
  norm_num at this

/-! ## The background -/

/-- **C77, background.**  With the Hubble constant divided by `c`, every row of the background table holds the same
redshift, scale factor, growth and bias coefficients, distances multiplied by `c` and expansion rates divided by `c`; and a
row that cannot be computed cannot be computed in the other unit. -/
theorem C77_background (Q : Integrator) (solve : ℕ → ℝ → ℝ × ℝ) (p : BgPar) {c : ℝ} (hc : 0 < c) (i : ℕ) :
    bg_row Q solve { p with h := p.h / c } i = (bg_row Q solve p i).map fun r =>
      { r with Hz := r.Hz / c, conformal_Hz := r.conformal_Hz / c, conformal_Hz_prime := r.conformal_Hz_prime / c ^ 2,
               comoving_distance := c * r.comoving_distance } := by
  have h0 := hc.ne'
  have hG : ∀ a H x s e z : ℝ, bg_G (a / c ^ 2) (H / c) (c * x) s e z = bg_G a H x s e z := by
    intro a H x s e z
    have e1 : (H / c = 0 ∨ c * x = 0) = (H = 0 ∨ x = 0) := by simp [h0]
    have e2 : a / c ^ 2 / (H / c) ^ 2 = a / H ^ 2 := by field_simp
    have e3 : c * x * (H / c) = x * H := by field_simp
    simp only [bg_G, e1, e2, e3]
  have eE : bg_E { p with h := p.h / c } = bg_E p := rfl
  have eC : integrand_comoving { p with h := p.h / c } = integrand_comoving p := rfl
  have eW : de_wint Q { p with h := p.h / c } = de_wint Q p := rfl
  have ew : de_w { p with h := p.h / c } = de_w p := rfl
  have e4 : ∀ x : ℝ, x / c * COFFE_H0 = x * COFFE_H0 / c := fun s => by ring
  have e5 : ∀ a s : ℝ, a * (s / c) = a * s / c := fun a s => by ring
  have e6 : ∀ s x : ℝ, s * (x / c) ^ 2 = s * x ^ 2 / c ^ 2 := fun s x => by field_simp
  have e7 : (p.h * COFFE_H0 / c = 0) = (p.h * COFFE_H0 = 0) := by simp [h0]
  have e8 : ∀ q x : ℝ, q / (x / c) = c * (q / x) := fun q x => by field_simp
  simp only [bg_row, eE, eC, eW, ew, e4, e5, e6, e7, e8, hG]
  split_ifs
  · rfl
  · rfl
  · rfl
  · generalize bg_G _ _ _ (p.magnification_bias1 _) _ _ = g1
    generalize bg_G _ _ _ (p.magnification_bias2 _) _ _ = g2
    cases g1 <;> cases g2 <;> rfl

/-! ## The tables -/

/-- The integral itself is linear and moves its points with the interval. -/
theorem exactQuad_scalingRule : ScalingRule exactQuad := by
  constructor
  · intro m f a b
    simp only [exactQuad, intervalIntegral.integral_const_mul]
  · intro f a b c hc
    simp only [exactQuad]
    rw [intervalIntegral.integral_comp_div (fun k => f k) hc.ne', smul_eq_mul, mul_div_cancel_left₀ _ hc.ne']

theorem unit_power_int (n l : ℕ) {c r : ℝ} (hc : 0 < c) (hr : 0 < r) :
    (if (n : ℝ) ≥ (l : ℝ) ∧ c * r > 0 then (c * r) ^ ((n : ℝ) - l) else 1) =
      c ^ (⟨n, l, .int, .int⟩ : Key).power * (if (n : ℝ) ≥ (l : ℝ) ∧ r > 0 then r ^ ((n : ℝ) - l) else 1) := by
  by_cases h : l ≤ n
  · have h' : (n : ℝ) ≥ (l : ℝ) := by exact_mod_cast h
    rw [if_pos ⟨h', by positivity⟩, if_pos ⟨h', hr⟩, Real.mul_rpow hc.le hr.le]
    congr 1
    have e : ((n : ℝ) - l) = ((n - l : ℕ) : ℝ) := by push_cast [h]; ring
    rw [e, Real.rpow_natCast]
    simp only [Key.power]
    congr 1
    omega
  · have h' : ¬ (n : ℝ) ≥ (l : ℝ) := by simpa using h
    rw [if_neg (fun hh => h' hh.1), if_neg (fun hh => h' hh.1)]
    simp only [Key.power]
    rw [show ((n : ℤ) - l).toNat = 0 by omega]
    ring

/-- **C77, tables.**  The value of an entry of the table for a spectrum in the new unit is the old value, times the power of
`c` that the entry has as a length.  All whole orders, all spectra, all wavenumber ranges and positive separations. -/
theorem C77_table (quad : (ℝ → ℝ) → ℝ → ℝ → ℝ) (hq : ScalingRule quad) (P : ℝ → ℝ) (n l : ℕ) {c : ℝ} (hc : 0 < c)
    (kmin kmax : ℝ) {r : ℝ} (hr : 0 < r) :
    direct_value quad (spectrumUnit P c) ⟨n, l, .int, .int⟩ (kmin / c) (kmax / c) (c * r) =
      c ^ (⟨n, l, .int, .int⟩ : Key).power * direct_value quad P ⟨n, l, .int, .int⟩ kmin kmax r := by
  have h0 := hc.ne'
  have e : quad (integrals_bessel_integrand (spectrumUnit P c) ⟨n, l, .int, .int⟩ (c * r)) (kmin / c) (kmax / c) =
      quad (integrals_bessel_integrand P ⟨n, l, .int, .int⟩ r) kmin kmax := by
    rw [hq.stretch _ _ _ _ hc, ← mul_div_cancel_left₀ (quad (integrals_bessel_integrand P _ r) kmin kmax) h0, ← hq.mul]
    congr 2
    funext k
    have e1 : k / c * (c * r) = k * r := by field_simp
    have e2 : c * (k / c) = k := by field_simp
    simp only [integrals_bessel_integrand, spectrumUnit, e1, e2, reduceCtorEq, if_false]
    field_simp
  have hp := unit_power_int n l hc hr
  simp only [direct_value, integrals_integrate_function, e, integrals_local, Int.cast_natCast, reduceCtorEq, if_false] at hp ⊢
  have e3 : ∀ (p : Prop) [Decidable p] (J x : ℝ), (if p then J * x else J) = J * (if p then x else 1) := fun p _ J x => by
    split_ifs <;> ring
  rw [e3, e3, hp]
  ring

/-- **C77, flat-sky tables.**  The same for the entries of the flat-sky formulas, whose orders are halves: a length. -/
theorem C77_table_half (quad : (ℝ → ℝ) → ℝ → ℝ → ℝ) (hq : ScalingRule quad) (P : ℝ → ℝ) (l : ℤ) {c : ℝ} (hc : 0 < c)
    (kmin kmax : ℝ) {r : ℝ} (hr : 0 < r) :
    direct_value quad (spectrumUnit P c) ⟨l + 2, l, .half, .half⟩ (kmin / c) (kmax / c) (c * r) =
      c ^ (⟨l + 2, l, .half, .half⟩ : Key).power * direct_value quad P ⟨l + 2, l, .half, .half⟩ kmin kmax r := by
  have h0 := hc.ne'
  have e : quad (integrals_bessel_integrand (spectrumUnit P c) ⟨l + 2, l, .half, .half⟩ (c * r)) (kmin / c) (kmax / c) =
      quad (integrals_bessel_integrand P ⟨l + 2, l, .half, .half⟩ r) kmin kmax := by
    rw [hq.stretch _ _ _ _ hc, ← mul_div_cancel_left₀ (quad (integrals_bessel_integrand P _ r) kmin kmax) h0, ← hq.mul]
    congr 2
    funext k
    have e1 : k / c * (c * r) = k * r := by field_simp
    have e2 : c * (k / c) = k := by field_simp
    have e3 : ∀ B : ℝ, k / c * (k / c) * (c ^ 3 * P k) * B = c * (k * k * P k * B) := fun B => by field_simp
    simp only [integrals_bessel_integrand, spectrumUnit, e1, e2, if_true, e3]
  have hp : (⟨l + 2, l, .half, .half⟩ : Key).power = 1 := by
    simp only [Key.power]
    omega
  have hl : ((l + 2 : ℤ) : ℝ) / 2 ≥ (l : ℝ) / 2 := by push_cast; linarith
  have hd : ((l + 2 : ℤ) : ℝ) / 2 - (l : ℝ) / 2 = 1 := by push_cast; ring
  simp only [direct_value, integrals_integrate_function, e, integrals_local, if_true, hp, hd, Real.rpow_one]
  rw [if_pos ⟨hl, mul_pos hc hr⟩, if_pos ⟨hl, hr⟩]
  ring

theorem C77_renormalization (quad : (ℝ → ℝ) → ℝ → ℝ → ℝ) (hq : ScalingRule quad) (P : ℝ → ℝ) {c : ℝ} (hc : 0 < c)
    (x y kmin kmax : ℝ) :
    integrals_renormalization quad (spectrumUnit P c) (c * x) (c * y) (kmin / c) (kmax / c) =
      c ^ 4 * integrals_renormalization quad P x y kmin kmax := by
  have h0 := hc.ne'
  have e : quad (integrals_renormalization_integrand (spectrumUnit P c) (c * x) (c * y)) (kmin / c) (kmax / c) =
      c ^ 4 * quad (integrals_renormalization_integrand P x y) kmin kmax := by
    rw [hq.stretch _ _ _ _ hc, eq_comm, eq_div_iff h0, mul_right_comm, ← pow_succ, ← hq.mul]
    congr 1
    funext k
    have e1 : ∀ r : ℝ, k / c * (c * r) = k * r := fun r => by field_simp
    have e2 : c * (k / c) = k := by field_simp
    simp only [integrals_renormalization_integrand, spectrumUnit, e1, e2]
    field_simp
    ring
  simp only [integrals_renormalization, e]
  ring

/-- **C77, exact tables.**  Tables that hold the integrals of a spectrum hold, in the new unit, the integrals of the
spectrum in the new unit. -/
theorem C77_exact_tables {P : ℝ → ℝ} {kmin kmax : ℝ} {I : Ints} (h : ExactTables P kmin kmax I) {c : ℝ} (hc : 0 < c) :
    ExactTables (spectrumUnit P c) (kmin / c) (kmax / c) (I.unit c) := by
  have h0 := hc.ne'
  refine ⟨fun n l r hr => ?_, fun x y => ?_⟩
  · have e : r = c * (r / c) := by field_simp
    rw [e, unit_result I h0, C77_table _ exactQuad_scalingRule _ _ _ hc _ _ (div_pos hr hc), h.1 n l _ (div_pos hr hc)]
  · have ex : ∀ x : ℝ, x = c * (x / c) := fun x => by field_simp
    rw [ex x, ex y, unit_ren I h0, C77_renormalization _ exactQuad_scalingRule _ hc, h.2]

/-- **C77 is violated by the tabulated limit of the divergent entry at coincident points**: the code multiplies it by the fourth
power of the distance once too often, so that in the new unit it is `c ^ 8` times as large, not `c ^ 4` times.  Here the
value at one distance, before it is put into the table. -/
theorem C77_zero_separation_power (P : ℝ → ℝ) {c : ℝ} (hc : 0 < c) {s : ℝ} (hs : 0 < s) (kmin kmax : ℝ) :
    integrals_integrate_function exactQuad (integrals_renormalization0_integrand (spectrumUnit P c) (c * s))
        ⟨4, 0, .int, .int⟩ (c * s) (kmin / c) (kmax / c) =
      c ^ 8 * integrals_integrate_function exactQuad (integrals_renormalization0_integrand P s) ⟨4, 0, .int, .int⟩ s
        kmin kmax := by
  have h0 := hc.ne'
  have hq := exactQuad_scalingRule
  have e : exactQuad (integrals_renormalization0_integrand (spectrumUnit P c) (c * s)) (kmin / c) (kmax / c) =
      c ^ 4 * exactQuad (integrals_renormalization0_integrand P s) kmin kmax := by
    rw [hq.stretch _ _ _ _ hc, eq_comm, eq_div_iff h0, mul_right_comm, ← pow_succ, ← hq.mul]
    congr 1
    funext k
    have e1 : ∀ r : ℝ, k / c * (c * r) = k * r := fun r => by field_simp
    have e2 : c * (k / c) = k := by field_simp
    simp only [integrals_renormalization0_integrand, spectrumUnit, e1, e2]
    field_simp
    ring
  simp only [integrals_integrate_function, e, integrals_local, reduceCtorEq, if_false]
  have e5 : ∀ r : ℝ, r ^ (((4 : ℤ) : ℝ) - ((0 : ℤ) : ℝ)) = r ^ 4 := fun r => by
    rw [show ((4 : ℤ) : ℝ) - ((0 : ℤ) : ℝ) = ((4 : ℕ) : ℝ) by norm_num, Real.rpow_natCast]
  rw [if_pos ⟨by norm_num, by positivity⟩, if_pos ⟨by norm_num, hs⟩, e5, e5]
  ring

/-! ## Non-vacuity -/

/-- The rule that reads one point reads no other. -/
theorem wCentre_readsAt : (Quad.mk (fun f => f (1 / 2)) (fun _ f => f fun i => if i = 1 then 1 / 4 else 1 / 2)).ReadsAt
    fun _ v => v = fun i => if i = 1 then 1 / 4 else 1 / 2 := fun _ _ _ h => h _ rfl

/-- Lensing without the flat-sky approximation meets the hypotheses of `C77_signal_partial`, and its value is not zero. -/
example :
    let par := { wPar with correlation_contrib := { Contrib.none with len := true }, output_type := .CORRFUNC }
    NodesApart (fun _ v => v = fun i => if i = 1 then 1 / 4 else 1 / 2) par wBg (fun _ => wConst 1) 2 2 0 0 1 0 .CORRFUNC ∧
    signal_value (Quad.mk (fun f => f (1 / 2)) (fun _ f => f fun i => if i = 1 then 1 / 4 else 1 / 2)) par wBg
      (fun _ => wConst 1) 2 0 0 1 0 0 .CORRFUNC ≠ 0 := by
  constructor
  · intro v hv
    subst hv
    constructor
    · intro _ _ _
      simp only [DoubleEnv.of, wBg]
      norm_num
    · simp [wPar]
  · simp [signal_value, coffe_integrate, integrate_double, double_gate, single_gate, non_gate, functions_double_integrated,
      double_result, double_len_len, double_g4_g4, double_g5_g5, double_g4_len, double_g5_len, double_g4_g5, DoubleEnv.of,
      wPar, wBg, Contrib.none, COFFE_H0, wConst, Ints.I00, Ints.I20, Ints.I11, Ints.I02, Ints.I13, Ints.I04]
    norm_num

end Coffe
