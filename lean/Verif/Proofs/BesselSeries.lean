import Verif.Model.C.IntegralValues
import Verif.Spec.Bessel
import Mathlib.Analysis.SpecialFunctions.Exponential
import Mathlib.Analysis.SpecialFunctions.Trigonometric.Series
import Mathlib.Analysis.Normed.Group.FunctionSeries

/-! # The Bessel functions as power series -/

namespace Coffe
open Filter Topology

/-- Coefficients that are bounded by those of the exponential function. -/
def ExpBounded (a : ℕ → ℝ) : Prop := ∀ n, |a n| ≤ 1 / (n.factorial : ℝ)

theorem ExpBounded.le {a : ℕ → ℝ} (ha : ExpBounded a) (u : ℝ) (n : ℕ) : ‖a n * u ^ n‖ ≤ |u| ^ n / (n.factorial : ℝ) := by
  rw [Real.norm_eq_abs, abs_mul, abs_pow, div_eq_mul_one_div, mul_comm]
  exact mul_le_mul_of_nonneg_left (ha n) (by positivity)

theorem ExpBounded.summable {a : ℕ → ℝ} (ha : ExpBounded a) (u : ℝ) : Summable fun n => a n * u ^ n :=
  Summable.of_norm_bounded (Real.summable_pow_div_factorial |u|) (ha.le u)

theorem ExpBounded.continuous {a : ℕ → ℝ} (ha : ExpBounded a) : Continuous fun u => ∑' n, a n * u ^ n := by
  rw [continuous_iff_continuousAt]
  intro u
  have h : ContinuousOn (fun u => ∑' n, a n * u ^ n) (Set.Ioo (-(|u| + 1)) (|u| + 1)) := by
    refine continuousOn_tsum (fun n => (continuous_const.mul (continuous_pow n)).continuousOn)
      (Real.summable_pow_div_factorial (|u| + 1)) fun n x hx => (ha.le x n).trans ?_
    have : |x| ≤ |u| + 1 := (abs_lt.2 ⟨hx.1, hx.2⟩).le
    gcongr
  exact h.continuousAt (Ioo_mem_nhds (by linarith [neg_abs_le u]) (by linarith [le_abs_self u]))

theorem tsum_zero_pow (a : ℕ → ℝ) : ∑' n, a n * (0 : ℝ) ^ n = a 0 := by
  rw [tsum_eq_single 0 (fun n hn => by simp [hn])]
  simp

/-- Coefficients of the spherical Bessel function. -/
noncomputable def jlCoeff (l n : ℕ) : ℝ :=
  (-1) ^ n / (2 ^ n * (n.factorial : ℝ) * (Nat.doubleFactorial (2 * (n + l) + 1) : ℝ))

/-- Coefficients of the cylindrical Bessel function. -/
noncomputable def JnCoeff (m n : ℕ) : ℝ := (-1) ^ n / ((n.factorial : ℝ) * ((n + m).factorial : ℝ))

theorem jlCoeff_bounded (l : ℕ) : ExpBounded (jlCoeff l) := fun n => by
  unfold jlCoeff
  rw [abs_div, abs_pow, abs_neg, abs_one, one_pow, abs_of_pos (by
    have := Nat.doubleFactorial_pos (2 * (n + l) + 1); positivity)]
  have h1 : (1 : ℝ) ≤ Nat.doubleFactorial (2 * (n + l) + 1) := by exact_mod_cast Nat.doubleFactorial_pos _
  have h2 : (1 : ℝ) ≤ 2 ^ n := one_le_pow₀ (by norm_num)
  have h3 : (0 : ℝ) < n.factorial := by positivity
  refine one_div_le_one_div_of_le h3 ?_
  nlinarith [mul_le_mul h2 h1 (by norm_num) (by positivity)]

theorem JnCoeff_bounded (m : ℕ) : ExpBounded (JnCoeff m) := fun n => by
  unfold JnCoeff
  rw [abs_div, abs_pow, abs_neg, abs_one, one_pow, abs_of_pos (by positivity)]
  have h1 : (1 : ℝ) ≤ (n + m).factorial := by exact_mod_cast Nat.factorial_pos _
  have h3 : (0 : ℝ) < n.factorial := by positivity
  refine one_div_le_one_div_of_le h3 ?_
  nlinarith

theorem gsl_sf_bessel_jl_eq (l : ℕ) (x : ℝ) : gsl_sf_bessel_jl l x = x ^ l * ∑' n, jlCoeff l n * (x ^ 2) ^ n := rfl

theorem gsl_sf_bessel_Jn_eq (m : ℕ) (x : ℝ) : gsl_sf_bessel_Jn m x = (x / 2) ^ m * ∑' n, JnCoeff m n * ((x / 2) ^ 2) ^ n := rfl

theorem continuous_jl (l : ℕ) : Continuous (gsl_sf_bessel_jl l) := by
  have := (continuous_pow l).mul ((jlCoeff_bounded l).continuous.comp (continuous_pow 2 : Continuous fun x : ℝ => x ^ 2))
  exact this

theorem continuous_Jn (m : ℕ) : Continuous (gsl_sf_bessel_Jn m) := by
  have h2 : Continuous fun x : ℝ => x / 2 := continuous_id.div_const 2
  have := (h2.pow m).mul ((JnCoeff_bounded m).continuous.comp (h2.pow 2))
  exact this

/-- `j_l(x) / x ^ l` tends to `1 / (2 l + 1)!!`. -/
theorem tendsto_jl (l : ℕ) : Tendsto (fun x => gsl_sf_bessel_jl l x / x ^ l) (𝓝[>] 0)
    (𝓝 (1 / (Nat.doubleFactorial (2 * l + 1) : ℝ))) := by
  have h : Tendsto (fun x : ℝ => ∑' n, jlCoeff l n * (x ^ 2) ^ n) (𝓝[>] 0) (𝓝 (jlCoeff l 0)) := by
    have := ((jlCoeff_bounded l).continuous.comp (continuous_pow 2 : Continuous fun x : ℝ => x ^ 2)).tendsto 0
    simp only [Function.comp, ne_eq, OfNat.ofNat_ne_zero, not_false_eq_true, zero_pow, tsum_zero_pow] at this
    exact this.mono_left nhdsWithin_le_nhds
  have e : jlCoeff l 0 = 1 / (Nat.doubleFactorial (2 * l + 1) : ℝ) := by simp [jlCoeff]
  rw [e] at h
  refine h.congr' (eventually_nhdsWithin_of_forall fun x hx => ?_)
  show _ = gsl_sf_bessel_jl l x / x ^ l
  rw [gsl_sf_bessel_jl_eq, mul_div_cancel_left₀ _ (pow_ne_zero l (Set.mem_Ioi.1 hx).ne')]

/-- `J_m(x) / x ^ m` tends to `1 / (2 ^ m m!)`. -/
theorem tendsto_Jn (m : ℕ) : Tendsto (fun x => gsl_sf_bessel_Jn m x / x ^ m) (𝓝[>] 0)
    (𝓝 (1 / (2 ^ m * (m.factorial : ℝ)))) := by
  have h : Tendsto (fun x : ℝ => (1 / 2 : ℝ) ^ m * ∑' n, JnCoeff m n * ((x / 2) ^ 2) ^ n) (𝓝[>] 0)
      (𝓝 ((1 / 2 : ℝ) ^ m * JnCoeff m 0)) := by
    have h2 : Continuous fun x : ℝ => x / 2 := continuous_id.div_const 2
    have : Tendsto (fun x : ℝ => ∑' n, JnCoeff m n * ((x / 2) ^ 2) ^ n) (𝓝 0) (𝓝 (∑' n, JnCoeff m n * (((0 : ℝ) / 2) ^ 2) ^ n)) :=
      ((JnCoeff_bounded m).continuous.comp (h2.pow 2)).tendsto 0
    simp only [zero_div, ne_eq, OfNat.ofNat_ne_zero, not_false_eq_true, zero_pow, tsum_zero_pow] at this
    exact (this.mono_left nhdsWithin_le_nhds).const_mul _
  have e : (1 / 2 : ℝ) ^ m * JnCoeff m 0 = 1 / (2 ^ m * (m.factorial : ℝ)) := by
    simp [JnCoeff, div_eq_mul_inv, mul_comm]
  rw [e] at h
  refine h.congr' (eventually_nhdsWithin_of_forall fun x hx => ?_)
  have hx' : x ≠ 0 := (Set.mem_Ioi.1 hx).ne'
  show _ = gsl_sf_bessel_Jn m x / x ^ m
  rw [gsl_sf_bessel_Jn_eq, div_pow x 2 m, div_pow, one_pow]
  field_simp

/-! ## The series and the closed form -/

theorem series_shift {C D : ℕ → ℝ} (hD : ∀ u, Summable fun n => D n * u ^ n) (h0 : D 0 = 0)
    (h : ∀ n, D (n + 1) = C n) (u : ℝ) : ∑' n, D n * u ^ n = u * ∑' n, C n * u ^ n := by
  rw [(hD u).tsum_eq_zero_add, h0, zero_mul, zero_add, ← tsum_mul_left]
  exact tsum_congr fun n => by rw [h, pow_succ]; ring

theorem factorial_odd (n : ℕ) :
    ((2 * n + 1).factorial : ℝ) = 2 ^ n * n.factorial * Nat.doubleFactorial (2 * n + 1) := by
  rw [Nat.factorial_eq_mul_doubleFactorial, Nat.doubleFactorial_two_mul]
  push_cast
  ring

theorem jl_zero (x : ℝ) (hx : x ≠ 0) : gsl_sf_bessel_jl 0 x = Real.sin x / x := by
  have h : HasSum (fun n => jlCoeff 0 n * (x ^ 2) ^ n) (Real.sin x / x) := by
    have e : (fun n => jlCoeff 0 n * (x ^ 2) ^ n) = fun n : ℕ => (-1) ^ n * x ^ (2 * n + 1) / ((2 * n + 1).factorial : ℝ) / x := by
      funext n
      rw [factorial_odd, jlCoeff, add_zero, ← pow_mul, pow_succ x (2 * n)]
      field_simp
    rw [e]
    exact (Real.hasSum_sin x).div_const x
  rw [gsl_sf_bessel_jl_eq, pow_zero, one_mul, h.tsum_eq]

theorem jlCoeff_succ (l n : ℕ) : jlCoeff (l + 2) n = (2 * (l : ℝ) + 3) * jlCoeff (l + 1) (n + 1) - jlCoeff l (n + 1) := by
  unfold jlCoeff
  have e1 : Nat.doubleFactorial (2 * (n + 1 + (l + 1)) + 1)
      = (2 * (n + l) + 5) * Nat.doubleFactorial (2 * (n + 1 + l) + 1) := by
    rw [show 2 * (n + 1 + (l + 1)) + 1 = (2 * (n + 1 + l) + 1) + 2 by ring, Nat.doubleFactorial_add_two]
    ring_nf
  rw [show 2 * (n + (l + 2)) + 1 = 2 * (n + 1 + (l + 1)) + 1 by ring, e1]
  have hd : (Nat.doubleFactorial (2 * (n + 1 + l) + 1) : ℝ) ≠ 0 := by
    have := Nat.doubleFactorial_pos (2 * (n + 1 + l) + 1)
    positivity
  have hf : (2 * ((n : ℝ) + l) + 5) ≠ 0 := by positivity
  rw [Nat.factorial_succ]
  push_cast
  field_simp
  ring

theorem jlCoeff_head (l : ℕ) : (2 * (l : ℝ) + 3) * jlCoeff (l + 1) 0 - jlCoeff l 0 = 0 := by
  unfold jlCoeff
  rw [show 2 * (0 + (l + 1)) + 1 = (2 * (0 + l) + 1) + 2 by ring, Nat.doubleFactorial_add_two]
  have hd : (Nat.doubleFactorial (2 * (0 + l) + 1) : ℝ) ≠ 0 := by
    have := Nat.doubleFactorial_pos (2 * (0 + l) + 1)
    positivity
  have hf : (2 * (l : ℝ) + 3) ≠ 0 := by positivity
  push_cast
  field_simp
  ring

theorem jl_succ (l : ℕ) (x : ℝ) (hx : x ≠ 0) :
    gsl_sf_bessel_jl (l + 2) x = (2 * (l : ℝ) + 3) / x * gsl_sf_bessel_jl (l + 1) x - gsl_sf_bessel_jl l x := by
  simp only [gsl_sf_bessel_jl_eq]
  have h := series_shift (C := jlCoeff (l + 2)) (D := fun n => (2 * (l : ℝ) + 3) * jlCoeff (l + 1) n - jlCoeff l n)
    (fun u => by
      have := ((jlCoeff_bounded (l + 1)).summable u).mul_left (2 * (l : ℝ) + 3) |>.sub ((jlCoeff_bounded l).summable u)
      refine this.congr fun n => by ring)
    (jlCoeff_head l) (fun n => (jlCoeff_succ l n).symm) (x ^ 2)
  have e : ∑' n, ((2 * (l : ℝ) + 3) * jlCoeff (l + 1) n - jlCoeff l n) * (x ^ 2) ^ n
      = (2 * (l : ℝ) + 3) * ∑' n, jlCoeff (l + 1) n * (x ^ 2) ^ n - ∑' n, jlCoeff l n * (x ^ 2) ^ n := by
    rw [← tsum_mul_left, ← (((jlCoeff_bounded (l + 1)).summable (x ^ 2)).mul_left _).tsum_sub ((jlCoeff_bounded l).summable (x ^ 2))]
    exact tsum_congr fun n => by ring
  rw [e] at h
  generalize (∑' n, jlCoeff (l + 2) n * (x ^ 2) ^ n) = A at *
  generalize (∑' n, jlCoeff (l + 1) n * (x ^ 2) ^ n) = B at *
  generalize (∑' n, jlCoeff l n * (x ^ 2) ^ n) = C at *
  rw [show x ^ (l + 2) * A = x ^ l * (x ^ 2 * A) by ring, ← h]
  field_simp
  ring

theorem jl_one (x : ℝ) (hx : x ≠ 0) : gsl_sf_bessel_jl 1 x = Real.sin x / x ^ 2 - Real.cos x / x := by
  have hc : ExpBounded fun n : ℕ => (-1) ^ n / ((2 * n).factorial : ℝ) := fun n => by
    rw [abs_div, abs_pow, abs_neg, abs_one, one_pow, abs_of_pos (by positivity)]
    exact one_div_le_one_div_of_le (by positivity) (by exact_mod_cast Nat.factorial_le (by omega))
  have hcos : ∑' n : ℕ, (-1) ^ n / ((2 * n).factorial : ℝ) * (x ^ 2) ^ n = Real.cos x := by
    rw [← (Real.hasSum_cos x).tsum_eq]
    exact tsum_congr fun n => by rw [pow_mul]; ring
  have h := series_shift (C := jlCoeff 1) (D := fun n => jlCoeff 0 n - (-1) ^ n / ((2 * n).factorial : ℝ))
    (fun u => by
      have := ((jlCoeff_bounded 0).summable u).sub (hc.summable u)
      refine this.congr fun n => by ring)
    (by simp [jlCoeff]) (fun n => by
      have e := factorial_odd (n + 1)
      have e2 : ((2 * (n + 1) + 1).factorial : ℝ) = (2 * (n + 1) + 1) * (2 * (n + 1)).factorial := by
        rw [Nat.factorial_succ]; push_cast; ring
      have hd : (Nat.doubleFactorial (2 * (n + 1) + 1) : ℝ) ≠ 0 := by
        have := Nat.doubleFactorial_pos (2 * (n + 1) + 1)
        positivity
      have hq : (2 * ((n : ℝ) + 1) + 1) ≠ 0 := by positivity
      have e3 : ((2 * (n + 1)).factorial : ℝ) = 2 ^ (n + 1) * (n + 1).factorial * Nat.doubleFactorial (2 * (n + 1) + 1)
          / (2 * (n + 1) + 1) := by
        rw [eq_div_iff hq, ← e, e2]; ring
      simp only [jlCoeff, add_zero]
      rw [e3, Nat.factorial_succ]
      push_cast
      field_simp
      ring) (x ^ 2)
  have e : ∑' n, (jlCoeff 0 n - (-1) ^ n / ((2 * n).factorial : ℝ)) * (x ^ 2) ^ n = Real.sin x / x - Real.cos x := by
    rw [← jl_zero x hx, ← hcos, gsl_sf_bessel_jl_eq, pow_zero, one_mul,
      ← ((jlCoeff_bounded 0).summable (x ^ 2)).tsum_sub (hc.summable (x ^ 2))]
    exact tsum_congr fun n => by ring
  rw [e] at h
  rw [gsl_sf_bessel_jl_eq, pow_one]
  generalize (∑' n, jlCoeff 1 n * (x ^ 2) ^ n) = A at *
  have : x * A = (x ^ 2 * A) / x := by field_simp
  rw [this, ← h]
  field_simp

/-- The series is the spherical Bessel function. -/
theorem jl_eq_sphericalBessel (l : ℕ) {x : ℝ} (hx : x ≠ 0) : gsl_sf_bessel_jl l x = sphericalBessel l x := by
  have key : ∀ l, gsl_sf_bessel_jl l x = sphericalBessel l x ∧ gsl_sf_bessel_jl (l + 1) x = sphericalBessel (l + 1) x := by
    intro l
    induction l with
    | zero => exact ⟨jl_zero x hx, jl_one x hx⟩
    | succ l ih => exact ⟨ih.2, by rw [jl_succ l x hx, ih.1, ih.2]; rfl⟩
  exact (key l).1

end Coffe
