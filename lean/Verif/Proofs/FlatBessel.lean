import Verif.Proofs.BesselSeries
import Verif.Proofs.Legendre
import Mathlib.MeasureTheory.Integral.DominatedConvergence
import Mathlib.Analysis.SpecialFunctions.Integrals.Basic
import Mathlib.Algebra.BigOperators.NatAntidiagonal
import Mathlib.Data.Nat.Factorial.DoubleFactorial

/-!
# Integrals over the angle of the Bessel function of the transverse separation

`J₀(x √(1 - μ²))` against the Legendre polynomials, and against `|μ|` times the Legendre polynomials.
-/

namespace Coffe
open intervalIntegral

/-! ## Legendre polynomials against powers of `1 - μ²` -/

/-- `∫ P_l(μ) (1 - μ²)ⁿ dμ`. -/
noncomputable def legMoment (l n : ℕ) : ℝ := ∫ μ in (-1 : ℝ)..1, legP l μ * (1 - μ ^ 2) ^ n

/-- `∫ μ P_l(μ) (1 - μ²)ⁿ dμ`. -/
noncomputable def legMoment' (l n : ℕ) : ℝ := ∫ μ in (-1 : ℝ)..1, μ * legP l μ * (1 - μ ^ 2) ^ n

/-- The value of `legMoment (2 p) n`. -/
noncomputable def legMomentValue (p n : ℕ) : ℝ :=
  (-1) ^ p * 2 * ((2 * p).factorial : ℝ) / ((p.factorial : ℝ) ^ 2 * 2 ^ p) * (2 ^ n * (n.factorial : ℝ))
    * (n.descFactorial p : ℝ) / (Nat.doubleFactorial (2 * n + 2 * p + 1) : ℝ)

theorem legMoment_integrable (l n m : ℕ) (a b : ℝ) :
    IntervalIntegrable (fun μ : ℝ => μ ^ m * legP l μ * (1 - μ ^ 2) ^ n) MeasureTheory.volume a b := by
  have := legP_continuous l
  exact Continuous.intervalIntegrable (by fun_prop) _ _

theorem legMoment_zero : ∀ n : ℕ, legMoment 0 n = 2 * (2 ^ n * (n.factorial : ℝ)) / (Nat.doubleFactorial (2 * n + 1) : ℝ)
  | 0 => by simp [legMoment, legP]; norm_num
  | n + 1 => by
    have ih := legMoment_zero n
    have hd : ∀ x ∈ Set.uIcc (-1 : ℝ) 1, HasDerivAt (fun μ : ℝ => μ * (1 - μ ^ 2) ^ (n + 1))
        ((2 * n + 3) * (legP 0 x * (1 - x ^ 2) ^ (n + 1)) - (2 * n + 2) * (legP 0 x * (1 - x ^ 2) ^ n)) x := fun x _ => by
      have h := (hasDerivAt_id x).mul (((hasDerivAt_const x (1 : ℝ)).sub (hasDerivAt_pow 2 x)).pow (n + 1))
      refine h.congr_deriv ?_
      simp [legP]
      ring
    have i1 : ∀ m, IntervalIntegrable (fun μ : ℝ => legP 0 μ * (1 - μ ^ 2) ^ m) MeasureTheory.volume (-1) 1 := fun m => by
      simpa using legMoment_integrable 0 m 0 (-1) 1
    have h := integral_eq_sub_of_hasDerivAt hd (((i1 _).const_mul _).sub ((i1 _).const_mul _))
    rw [integral_sub ((i1 _).const_mul _) ((i1 _).const_mul _), integral_const_mul, integral_const_mul] at h
    change (2 * (n : ℝ) + 3) * legMoment 0 (n + 1) - (2 * n + 2) * legMoment 0 n = _ at h
    rw [ih] at h
    norm_num at h
    have h3 : (2 * (n : ℝ) + 3) ≠ 0 := by positivity
    have e : legMoment 0 (n + 1) = (2 * n + 2) * (2 * (2 ^ n * (n.factorial : ℝ)) / (Nat.doubleFactorial (2 * n + 1) : ℝ)) / (2 * n + 3) := by
      rw [eq_div_iff h3]; linarith
    have hD : (Nat.doubleFactorial (2 * n + 1) : ℝ) ≠ 0 := by
      have := Nat.doubleFactorial_pos (2 * n + 1)
      positivity
    rw [e, show 2 * (n + 1) + 1 = (2 * n + 1) + 2 by ring, Nat.doubleFactorial_add_two, Nat.factorial_succ]
    push_cast
    field_simp
    ring

theorem legMoment_rec (l n : ℕ) :
    ((l : ℝ) + 2) * legMoment (l + 2) n = (2 * l + 3) * legMoment' (l + 1) n - (l + 1) * legMoment l n := by
  have i0 := legMoment_integrable l n 0 (-1) 1
  have i1 := legMoment_integrable (l + 1) n 1 (-1) 1
  simp only [pow_zero, one_mul, pow_one] at i0 i1
  unfold legMoment legMoment'
  rw [← integral_const_mul, ← integral_const_mul, ← integral_const_mul, ← integral_sub (i1.const_mul _) (i0.const_mul _)]
  refine integral_congr fun μ _ => ?_
  have := legP_rec l μ
  show ((l : ℝ) + 2) * (legP (l + 2) μ * (1 - μ ^ 2) ^ n) = _
  linear_combination (1 - μ ^ 2) ^ n * this

theorem legMoment'_rec (l n : ℕ) :
    ((l : ℝ) + 2) * legMoment' (l + 2) n =
      (2 * l + 3) * (legMoment (l + 1) n - legMoment (l + 1) (n + 1)) - (l + 1) * legMoment' l n := by
  have i0 := legMoment_integrable l n 1 (-1) 1
  have i1 := legMoment_integrable (l + 1) n 0 (-1) 1
  have i2 := legMoment_integrable (l + 1) (n + 1) 0 (-1) 1
  simp only [pow_zero, one_mul, pow_one] at i0 i1 i2
  unfold legMoment legMoment'
  rw [← integral_sub i1 i2, ← integral_const_mul, ← integral_const_mul, ← integral_const_mul,
    ← integral_sub ((i1.sub i2).const_mul _) (i0.const_mul _)]
  refine integral_congr fun μ _ => ?_
  have := legP_rec l μ
  show ((l : ℝ) + 2) * (μ * legP (l + 2) μ * (1 - μ ^ 2) ^ n) = _
  linear_combination μ * (1 - μ ^ 2) ^ n * this

theorem descFactorial_succ_real (n p : ℕ) : (n.descFactorial (p + 1) : ℝ) = ((n : ℝ) - p) * n.descFactorial p := by
  rw [Nat.descFactorial_succ]
  rcases le_or_gt p n with h | h
  · push_cast [Nat.cast_sub h]; ring
  · rw [Nat.descFactorial_eq_zero_iff_lt.2 h]; simp

theorem legMoment_even (p : ℕ) : ∀ n : ℕ, legMoment (2 * p) n = legMomentValue p n ∧
    legMoment' (2 * p + 1) n = (2 * p + 1) / (2 * n + 2 * p + 3) * legMomentValue p n := by
  have hD : ∀ m, (Nat.doubleFactorial m : ℝ) ≠ 0 := fun m => by
    have := Nat.doubleFactorial_pos m
    positivity
  induction p with
  | zero =>
    intro n
    have h0 : legMoment 0 n = legMomentValue 0 n := by
      rw [legMoment_zero]; simp [legMomentValue]
    have h1 : legMoment 0 (n + 1) = legMomentValue 0 (n + 1) := by
      rw [legMoment_zero]; simp [legMomentValue]
    refine ⟨h0, ?_⟩
    have i0 := legMoment_integrable 0 n 0 (-1) 1
    have i1 := legMoment_integrable 0 (n + 1) 0 (-1) 1
    simp only [pow_zero, one_mul] at i0 i1
    have e : legMoment' 1 n = legMoment 0 n - legMoment 0 (n + 1) := by
      unfold legMoment legMoment'
      rw [← integral_sub i0 i1]
      refine integral_congr fun μ _ => ?_
      simp only [legP]
      ring
    have h3 : (2 * (n : ℝ) + 3) ≠ 0 := by positivity
    rw [mul_zero, zero_add, e, h0, h1, legMomentValue, legMomentValue, show 2 * (n + 1) + 2 * 0 + 1 = (2 * n + 1) + 2 by ring,
      Nat.doubleFactorial_add_two, Nat.factorial_succ]
    have := hD (2 * n + 1)
    simp only [mul_zero, add_zero, Nat.descFactorial_zero, Nat.factorial_zero, pow_zero, Nat.cast_one, Nat.cast_zero]
    push_cast
    field_simp
    ring
  | succ p ih =>
    have hA : ∀ n, legMoment (2 * (p + 1)) n = legMomentValue (p + 1) n := fun n => by
      have h := legMoment_rec (2 * p) n
      rw [(ih n).1, (ih n).2] at h
      push_cast at h
      have h2 : (2 * (p : ℝ) + 2) ≠ 0 := by positivity
      have e : legMoment (2 * (p + 1)) n = ((2 * (2 * (p : ℝ)) + 3) * ((2 * p + 1) / (2 * n + 2 * p + 3) * legMomentValue p n)
          - (2 * p + 1) * legMomentValue p n) / (2 * p + 2) := by
        rw [eq_div_iff h2, mul_comm]; exact h
      rw [e, legMomentValue, legMomentValue, descFactorial_succ_real, show 2 * n + 2 * (p + 1) + 1 = (2 * n + 2 * p + 1) + 2 by ring,
        Nat.doubleFactorial_add_two, show 2 * (p + 1) = 2 * p + 1 + 1 by ring, Nat.factorial_succ, Nat.factorial_succ,
        Nat.factorial_succ p]
      have := hD (2 * n + 2 * p + 1)
      have h3 : (2 * (n : ℝ) + 2 * p + 3) ≠ 0 := by positivity
      push_cast
      have h4 : (2 * (n : ℝ) + 2 * p + 1 + 2) ≠ 0 := by positivity
      field_simp
      ring
    intro n
    refine ⟨hA n, ?_⟩
    have h := legMoment'_rec (2 * p + 1) n
    rw [show 2 * p + 1 + 1 = 2 * (p + 1) by ring, hA, hA, (ih n).2] at h
    push_cast at h
    have h2 : (2 * (p : ℝ) + 1 + 2) ≠ 0 := by positivity
    have e : legMoment' (2 * (p + 1) + 1) n = ((2 * (2 * (p : ℝ) + 1) + 3) * (legMomentValue (p + 1) n - legMomentValue (p + 1) (n + 1))
        - (2 * p + 1 + 1) * ((2 * p + 1) / (2 * n + 2 * p + 3) * legMomentValue p n)) / (2 * p + 1 + 2) := by
      rw [eq_div_iff h2, mul_comm]; exact h
    rw [e, legMomentValue, legMomentValue, legMomentValue, descFactorial_succ_real, Nat.succ_descFactorial_succ,
      show 2 * (n + 1) + 2 * (p + 1) + 1 = (2 * n + 2 * p + 1) + 2 + 2 by ring,
      show 2 * n + 2 * (p + 1) + 1 = (2 * n + 2 * p + 1) + 2 by ring,
      Nat.doubleFactorial_add_two (2 * n + 2 * p + 1 + 2), Nat.doubleFactorial_add_two (2 * n + 2 * p + 1),
      show 2 * (p + 1) = 2 * p + 1 + 1 by ring, Nat.factorial_succ,
      Nat.factorial_succ, Nat.factorial_succ p, Nat.factorial_succ n]
    have := hD (2 * n + 2 * p + 1)
    have h3 : (2 * (n : ℝ) + 2 * p + 3) ≠ 0 := by positivity
    have h4 : (2 * (n : ℝ) + 2 * p + 1 + 2) ≠ 0 := by positivity
    have h5 : (2 * (n : ℝ) + 2 * p + 1 + 2 + 2) ≠ 0 := by positivity
    have h6 : (2 * (n : ℝ) + 2 * (p + 1) + 3) ≠ 0 := by positivity
    push_cast
    field_simp
    ring

/-! ## Odd powers against powers of `1 - μ²` -/

theorem oddMoment (n : ℕ) : ∀ m : ℕ, ∫ μ in (0 : ℝ)..1, μ ^ (2 * m + 1) * (1 - μ ^ 2) ^ n =
    (m.factorial : ℝ) * n.factorial / (2 * (m + n + 1).factorial) := by
  induction n with
  | zero =>
    intro m
    simp only [pow_zero, mul_one, integral_pow, add_zero]
    rw [Nat.factorial_succ]
    push_cast
    have : (m.factorial : ℝ) ≠ 0 := by positivity
    have h2 : (2 * (m : ℝ) + 1 + 1) ≠ 0 := by positivity
    norm_num
    field_simp
    ring
  | succ n ih =>
    intro m
    have hi : ∀ j, IntervalIntegrable (fun μ : ℝ => μ ^ j * (1 - μ ^ 2) ^ n) MeasureTheory.volume 0 1 := fun j =>
      Continuous.intervalIntegrable (by fun_prop) _ _
    have e : ∫ μ in (0 : ℝ)..1, μ ^ (2 * m + 1) * (1 - μ ^ 2) ^ (n + 1) =
        (∫ μ in (0 : ℝ)..1, μ ^ (2 * m + 1) * (1 - μ ^ 2) ^ n) - ∫ μ in (0 : ℝ)..1, μ ^ (2 * (m + 1) + 1) * (1 - μ ^ 2) ^ n := by
      rw [← integral_sub (hi _) (hi _)]
      refine integral_congr fun μ _ => ?_
      ring
    rw [e, ih, ih, show m + 1 + n + 1 = m + n + 1 + 1 by ring, show m + (n + 1) + 1 = m + n + 1 + 1 by ring,
      Nat.factorial_succ (m + n + 1), Nat.factorial_succ m, Nat.factorial_succ n]
    have : ((m + n + 1).factorial : ℝ) ≠ 0 := by positivity
    push_cast
    have h2 : ((m : ℝ) + n + 1 + 1) ≠ 0 := by positivity
    field_simp
    ring

/-! ## Summing the series of `J₀` -/

/-- The series of `J₀(x √(1 - μ²))` is integrated term by term against a continuous weight. -/
theorem hasSum_J0 {w : ℝ → ℝ} (hw : Continuous w) {a b : ℝ} (ha : -1 ≤ a) (hab : a ≤ b) (hb : b ≤ 1) (x : ℝ) :
    HasSum (fun n => JnCoeff 0 n * ((x / 2) ^ 2) ^ n * ∫ μ in a..b, w μ * (1 - μ ^ 2) ^ n)
      (∫ μ in a..b, w μ * gsl_sf_bessel_Jn 0 (x * Real.sqrt (1 - μ ^ 2))) := by
  have hin : ∀ μ ∈ Set.uIoc a b, 0 ≤ 1 - μ ^ 2 ∧ 1 - μ ^ 2 ≤ 1 := fun μ hμ => by
    rw [Set.uIoc_of_le hab] at hμ
    constructor <;> nlinarith [hμ.1, hμ.2]
  simp_rw [← integral_const_mul]
  have hb' : Summable fun n : ℕ => |(x / 2) ^ 2| ^ n / (n.factorial : ℝ) := Real.summable_pow_div_factorial _
  refine hasSum_integral_of_dominated_convergence (fun n μ => |w μ| * (|(x / 2) ^ 2| ^ n / (n.factorial : ℝ)))
    (fun n => ?_) (fun n => ?_) ?_ ?_ ?_
  · exact Continuous.aestronglyMeasurable (by fun_prop)
  · refine Filter.Eventually.of_forall fun μ hμ => ?_
    have hm := hin μ hμ
    have hk := (JnCoeff_bounded 0).le ((x / 2) ^ 2) n
    rw [Real.norm_eq_abs] at hk ⊢
    rw [abs_mul, abs_mul (w μ), abs_pow (1 - μ ^ 2), abs_of_nonneg hm.1]
    have h1 : (1 - μ ^ 2) ^ n ≤ 1 := pow_le_one₀ hm.1 hm.2
    calc _ ≤ |JnCoeff 0 n * ((x / 2) ^ 2) ^ n| * (|w μ| * 1) := by gcongr
      _ ≤ _ := by
          rw [mul_one, mul_comm]
          gcongr
  · exact Filter.Eventually.of_forall fun μ _ => hb'.mul_left _
  · simp_rw [tsum_mul_left]
    exact Continuous.intervalIntegrable (by fun_prop) _ _
  · refine Filter.Eventually.of_forall fun μ hμ => ?_
    have hm := hin μ hμ
    have h := ((JnCoeff_bounded 0).summable ((x * Real.sqrt (1 - μ ^ 2) / 2) ^ 2)).hasSum.mul_left (w μ)
    have e : gsl_sf_bessel_Jn 0 (x * Real.sqrt (1 - μ ^ 2)) = ∑' n, JnCoeff 0 n * ((x * Real.sqrt (1 - μ ^ 2) / 2) ^ 2) ^ n := by
      rw [gsl_sf_bessel_Jn_eq, pow_zero, one_mul]
    rw [e]
    refine h.congr_fun fun n => ?_
    rw [show (x * Real.sqrt (1 - μ ^ 2) / 2) ^ 2 = (x / 2) ^ 2 * Real.sqrt (1 - μ ^ 2) ^ 2 by ring, Real.sq_sqrt hm.1, mul_pow]
    ring

/-- `∫ P_l(μ) J₀(x √(1 - μ²)) dμ = 2 l! / (2^l (l/2)!²) j_l(x)` for even `l`. -/
theorem integral_legP_J0 (p : ℕ) (x : ℝ) :
    ∫ μ in (-1 : ℝ)..1, legP (2 * p) μ * gsl_sf_bessel_Jn 0 (x * Real.sqrt (1 - μ ^ 2)) =
      2 * ((2 * p).factorial : ℝ) / (2 ^ (2 * p) * (p.factorial : ℝ) ^ 2) * gsl_sf_bessel_jl (2 * p) x := by
  have h := hasSum_J0 (legP_continuous (2 * p)) (le_refl (-1)) (by norm_num) (le_refl 1) x
  have hm : ∀ n, ∫ μ in (-1 : ℝ)..1, legP (2 * p) μ * (1 - μ ^ 2) ^ n = legMomentValue p n := fun n => (legMoment_even p n).1
  simp only [hm] at h
  have hz : ∑ n ∈ Finset.range p, JnCoeff 0 n * ((x / 2) ^ 2) ^ n * legMomentValue p n = 0 :=
    Finset.sum_eq_zero fun n hn => by
      rw [legMomentValue, Nat.descFactorial_eq_zero_iff_lt.2 (Finset.mem_range.1 hn)]; simp
  rw [← hasSum_nat_add_iff' p, hz, sub_zero] at h
  rw [← h.tsum_eq, gsl_sf_bessel_jl_eq, ← mul_assoc, ← tsum_mul_left]
  refine tsum_congr fun n => ?_
  have hdf : ((n + p).descFactorial p : ℝ) = (n + p).factorial / n.factorial := by
    have := Nat.factorial_mul_descFactorial (Nat.le_add_left p n)
    rw [Nat.add_sub_cancel] at this
    rw [eq_div_iff (by positivity), ← this]
    push_cast
    ring
  rw [legMomentValue, hdf, jlCoeff, JnCoeff, show 2 * (n + p) + 2 * p + 1 = 2 * (n + 2 * p) + 1 by ring, add_zero,
    show x ^ (2 * p) = (x ^ 2) ^ p by rw [pow_mul], show (2 : ℝ) ^ (2 * p) = 2 ^ p * 2 ^ p by rw [two_mul, pow_add],
    div_pow, div_pow, ← pow_mul, ← pow_mul, show (2 : ℝ) ^ (2 * (n + p)) = 2 ^ n * 2 ^ n * (2 ^ p * 2 ^ p) by ring,
    show x ^ (2 * (n + p)) = x ^ (2 * n) * x ^ (2 * p) by ring]
  have hD : (Nat.doubleFactorial (2 * (n + 2 * p) + 1) : ℝ) ≠ 0 := by
    have := Nat.doubleFactorial_pos (2 * (n + 2 * p) + 1)
    positivity
  have h1 : ((-1 : ℝ) ^ p) * (-1) ^ p = 1 := by rw [← mul_pow]; norm_num
  rw [pow_add, pow_add]
  field_simp
  linear_combination x ^ (2 * n) * x ^ (2 * p) * h1

/-- `∫₀¹ μ^(2m+1) J₀(x √(1 - μ²)) dμ = 2^m m! J_{m+1}(x) / x^(m+1)`. -/
theorem integral_pow_J0 (m : ℕ) {x : ℝ} (hx : x ≠ 0) :
    ∫ μ in (0 : ℝ)..1, μ ^ (2 * m + 1) * gsl_sf_bessel_Jn 0 (x * Real.sqrt (1 - μ ^ 2)) =
      2 ^ m * (m.factorial : ℝ) * gsl_sf_bessel_Jn (m + 1) x / x ^ (m + 1) := by
  have h := hasSum_J0 (w := fun μ => μ ^ (2 * m + 1)) (by fun_prop) (by norm_num : (-1 : ℝ) ≤ 0) zero_le_one (le_refl 1) x
  simp only [oddMoment] at h
  rw [← h.tsum_eq, gsl_sf_bessel_Jn_eq, ← mul_assoc, div_pow x 2 (m + 1), mul_div_right_comm, ← tsum_mul_left]
  refine tsum_congr fun n => ?_
  rw [JnCoeff, JnCoeff, add_zero, show m + n + 1 = n + (m + 1) by ring, pow_succ (2 : ℝ) m]
  field_simp

/-! ## The coefficients of the Legendre polynomials -/

/-- The coefficient of `μ^j` in the Legendre polynomial of degree `j + 2 k`. -/
noncomputable def legCoeff (j k : ℕ) : ℝ :=
  (-1) ^ k * ((2 * j + 2 * k).factorial : ℝ) / (2 ^ (j + 2 * k) * (k.factorial * (j + k).factorial * j.factorial))

theorem legCoeff_rec (j k : ℕ) : ((j : ℝ) + 1 + 2 * (k + 1)) * legCoeff (j + 1) (k + 1) =
    (2 * (j + 2 * (k + 1)) + 1) * legCoeff j (k + 1) - (j + 2 * (k + 1)) * legCoeff (j + 1) k := by
  unfold legCoeff
  rw [show 2 * (j + 1) + 2 * (k + 1) = 2 * j + 2 * k + 2 + 1 + 1 by ring, show 2 * j + 2 * (k + 1) = 2 * j + 2 * k + 2 by ring,
    show 2 * (j + 1) + 2 * k = 2 * j + 2 * k + 2 by ring, show j + 1 + (k + 1) = j + k + 1 + 1 by ring,
    show j + (k + 1) = j + k + 1 by ring, show j + 1 + k = j + k + 1 by ring,
    show j + 1 + 2 * (k + 1) = j + 2 * k + 1 + 1 + 1 by ring, show j + 2 * (k + 1) = j + 2 * k + 1 + 1 by ring,
    show j + 1 + 2 * k = j + 2 * k + 1 by ring,
    Nat.factorial_succ (2 * j + 2 * k + 2 + 1), Nat.factorial_succ (2 * j + 2 * k + 2), Nat.factorial_succ (j + k + 1),
    Nat.factorial_succ k, Nat.factorial_succ j, pow_succ, pow_succ, pow_succ]
  push_cast
  field_simp
  ring

theorem legCoeff_rec_zero (k : ℕ) : (2 * ((k : ℝ) + 1)) * legCoeff 0 (k + 1) = - (2 * k + 1) * legCoeff 0 k := by
  unfold legCoeff
  simp only [mul_zero, zero_add, Nat.factorial_zero, Nat.cast_one, mul_one]
  rw [show 2 * (k + 1) = 2 * k + 1 + 1 by ring, Nat.factorial_succ (2 * k + 1), Nat.factorial_succ (2 * k), Nat.factorial_succ k,
    pow_succ, pow_succ, pow_succ]
  push_cast
  field_simp
  ring

theorem legCoeff_rec_head (j : ℕ) : ((j : ℝ) + 1) * legCoeff (j + 1) 0 = (2 * j + 1) * legCoeff j 0 := by
  unfold legCoeff
  simp only [mul_zero, add_zero, pow_zero, Nat.factorial_zero, Nat.cast_one, one_mul]
  rw [show 2 * (j + 1) = 2 * j + 1 + 1 by ring, Nat.factorial_succ (2 * j + 1), Nat.factorial_succ (2 * j), Nat.factorial_succ j, pow_succ]
  push_cast
  field_simp
  ring

theorem legP_explicit (μ : ℝ) (p : ℕ) :
    legP (2 * p) μ = ∑ q ∈ Finset.antidiagonal p, legCoeff (2 * q.1) q.2 * μ ^ (2 * q.1) ∧
    legP (2 * p + 1) μ = ∑ q ∈ Finset.antidiagonal p, legCoeff (2 * q.1 + 1) q.2 * μ ^ (2 * q.1 + 1) := by
  have hstep : ∀ p, legP (2 * p) μ = ∑ q ∈ Finset.antidiagonal p, legCoeff (2 * q.1) q.2 * μ ^ (2 * q.1) →
      legP (2 * p + 1) μ = ∑ q ∈ Finset.antidiagonal p, legCoeff (2 * q.1 + 1) q.2 * μ ^ (2 * q.1 + 1) →
      legP (2 * (p + 1)) μ = ∑ q ∈ Finset.antidiagonal (p + 1), legCoeff (2 * q.1) q.2 * μ ^ (2 * q.1) := fun p h0 h1 => by
    have h2 : (2 * (p : ℝ) + 2) ≠ 0 := by positivity
    have e1 : ∑ q ∈ Finset.antidiagonal (p + 1), (if q.1 = 0 then 0 else legCoeff (2 * q.1 - 1) q.2 * μ ^ (2 * q.1)) =
        μ * legP (2 * p + 1) μ := by
      rw [Finset.Nat.sum_antidiagonal_succ, h1, Finset.mul_sum]
      simp only [if_true, zero_add, Nat.add_eq_zero_iff, one_ne_zero, and_false, if_false]
      refine Finset.sum_congr rfl fun q _ => ?_
      rw [show 2 * (q.1 + 1) - 1 = 2 * q.1 + 1 by omega]
      ring
    have e2 : ∑ q ∈ Finset.antidiagonal (p + 1), (if q.2 = 0 then 0 else legCoeff (2 * q.1) (q.2 - 1) * μ ^ (2 * q.1)) =
        legP (2 * p) μ := by
      rw [Finset.Nat.sum_antidiagonal_succ', h0]
      simp
    have h := legP_rec (2 * p) μ
    rw [mul_assoc (2 * ((2 * p : ℕ) : ℝ) + 3), ← e1, ← e2, Finset.mul_sum, Finset.mul_sum, ← Finset.sum_sub_distrib] at h
    push_cast at h
    refine mul_left_cancel₀ h2 (h.trans ?_)
    rw [Finset.mul_sum]
    refine Finset.sum_congr rfl fun q hq => ?_
    have hq : (q.1 : ℝ) + q.2 = p + 1 := by exact_mod_cast Finset.mem_antidiagonal.1 hq
    obtain ⟨i, k⟩ := q
    rcases i with - | i <;> rcases k with - | k
    · exfalso; simp at hq; linarith [(Nat.cast_nonneg p : (0 : ℝ) ≤ p)]
    · have := legCoeff_rec_zero k
      simp at hq ⊢
      rw [← hq]
      linear_combination -this
    · have := legCoeff_rec_head (2 * i + 1)
      simp at hq ⊢
      rw [show 2 * (i + 1) - 1 = 2 * i + 1 by omega, show 2 * (i + 1) = 2 * i + 1 + 1 by ring, ← hq]
      push_cast at this
      linear_combination - μ ^ (2 * i + 1 + 1) * this
    · have := legCoeff_rec (2 * i + 1) k
      simp at hq ⊢
      have hp : (p : ℝ) = i + 1 + k := by linarith
      rw [show 2 * (i + 1) - 1 = 2 * i + 1 by omega, show 2 * (i + 1) = 2 * i + 1 + 1 by ring, hp]
      push_cast at this
      linear_combination - μ ^ (2 * i + 1 + 1) * this
  have hstep' : ∀ p, legP (2 * (p + 1)) μ = ∑ q ∈ Finset.antidiagonal (p + 1), legCoeff (2 * q.1) q.2 * μ ^ (2 * q.1) →
      legP (2 * p + 1) μ = ∑ q ∈ Finset.antidiagonal p, legCoeff (2 * q.1 + 1) q.2 * μ ^ (2 * q.1 + 1) →
      legP (2 * (p + 1) + 1) μ = ∑ q ∈ Finset.antidiagonal (p + 1), legCoeff (2 * q.1 + 1) q.2 * μ ^ (2 * q.1 + 1) := fun p h0 h1 => by
    have h2 : (2 * (p : ℝ) + 1 + 2) ≠ 0 := by positivity
    have e1 : ∑ q ∈ Finset.antidiagonal (p + 1), (legCoeff (2 * q.1) q.2 * μ ^ (2 * q.1 + 1)) =
        μ * legP (2 * (p + 1)) μ := by
      rw [h0, Finset.mul_sum]
      exact Finset.sum_congr rfl fun q _ => by ring
    have e2 : ∑ q ∈ Finset.antidiagonal (p + 1), (if q.2 = 0 then 0 else legCoeff (2 * q.1 + 1) (q.2 - 1) * μ ^ (2 * q.1 + 1)) =
        legP (2 * p + 1) μ := by
      rw [Finset.Nat.sum_antidiagonal_succ', h1]
      simp
    have h := legP_rec (2 * p + 1) μ
    rw [mul_assoc (2 * ((2 * p + 1 : ℕ) : ℝ) + 3), show 2 * p + 1 + 1 = 2 * (p + 1) by ring, ← e1, ← e2, Finset.mul_sum, Finset.mul_sum, ← Finset.sum_sub_distrib] at h
    push_cast at h
    refine mul_left_cancel₀ h2 (h.trans ?_)
    rw [Finset.mul_sum]
    refine Finset.sum_congr rfl fun q hq => ?_
    have hq : (q.1 : ℝ) + q.2 = p + 1 := by exact_mod_cast Finset.mem_antidiagonal.1 hq
    obtain ⟨i, k⟩ := q
    have hp : (p : ℝ) = i + k - 1 := by linarith
    rcases k with - | k
    · have := legCoeff_rec_head (2 * i)
      simp at hp ⊢
      rw [hp]
      push_cast at this
      linear_combination - μ ^ (2 * i + 1) * this
    · have := legCoeff_rec (2 * i) k
      simp at hp ⊢
      rw [hp]
      push_cast at this
      linear_combination - μ ^ (2 * i + 1) * this
  induction p with
  | zero => constructor <;> simp [legP, legCoeff]
  | succ p ih =>
    have h := hstep p ih.1 ih.2
    exact ⟨h, hstep' p h ih.2⟩

/-- The polynomial as the code writes it. -/
theorem legP_even (p : ℕ) (μ : ℝ) : legP (2 * p) μ = ∑ k ∈ Finset.range (p + 1),
    (-1) ^ k / 2 ^ (2 * p) * ((2 * p).choose k : ℝ) * ((2 * (2 * p) - 2 * k).choose (2 * p) : ℝ) * μ ^ (2 * (p - k)) := by
  rw [(legP_explicit μ p).1, ← Finset.Nat.sum_antidiagonal_swap]
  refine (Finset.Nat.sum_antidiagonal_eq_sum_range_succ (fun k i => legCoeff (2 * i) k * μ ^ (2 * i)) p).trans ?_
  refine Finset.sum_congr rfl fun k hk => ?_
  obtain ⟨i, rfl⟩ := Nat.exists_eq_add_of_le (Nat.lt_succ_iff.1 (Finset.mem_range.1 hk))
  rw [Nat.add_sub_cancel_left]
  have h1 : ((2 * (k + i)).choose k : ℝ) = (2 * (k + i)).factorial / (k.factorial * (2 * i + k).factorial) := by
    rw [Nat.cast_choose ℝ (by omega), show 2 * (k + i) - k = 2 * i + k by omega]
  have h2 : ((2 * (2 * (k + i)) - 2 * k).choose (2 * (k + i)) : ℝ) =
      (2 * (2 * i) + 2 * k).factorial / ((2 * (k + i)).factorial * (2 * i).factorial) := by
    rw [show 2 * (2 * (k + i)) - 2 * k = 2 * (2 * i) + 2 * k by omega, Nat.cast_choose ℝ (by omega),
      show 2 * (2 * i) + 2 * k - 2 * (k + i) = 2 * i by omega]
  rw [h1, h2, legCoeff, show 2 * i + 2 * k = 2 * (k + i) by ring]
  field_simp

end Coffe
