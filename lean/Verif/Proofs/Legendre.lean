import Verif.Model.Signal.Dispatch
import Mathlib.Analysis.Calculus.Deriv.Mul
import Mathlib.Analysis.Calculus.Deriv.Add
import Mathlib.MeasureTheory.Integral.IntervalIntegral.FundThmCalculus
import Mathlib.Tactic.FieldSimp
import Mathlib.Tactic.Linarith
import Mathlib.Tactic.FunProp

/-!
# Legendre polynomials: derivative identities, orthogonality, products

Everything follows from the three-term recursion `legP`.
-/

namespace Coffe

theorem legP_rec (n : ℕ) (x : ℝ) :
    ((n : ℝ) + 2) * legP (n + 2) x = (2 * n + 3) * x * legP (n + 1) x - (n + 1) * legP n x := by
  have : ((n : ℝ) + 2) ≠ 0 := by positivity
  rw [legP]; field_simp

/-- `x P_n` in terms of the neighbours, for all `n` (with `n P_{n-1} = 0` for `n = 0`). -/
theorem legP_mul_x (n : ℕ) (x : ℝ) :
    (2 * (n : ℝ) + 1) * (x * legP n x) = (n + 1) * legP (n + 1) x + n * legP (n - 1) x := by
  cases n with
  | zero => simp [legP]
  | succ n =>
    have := legP_rec n x
    rw [Nat.add_sub_cancel]
    push_cast
    linear_combination -this

/-- Derivative of the Legendre polynomial. -/
noncomputable def legD : ℕ → ℝ → ℝ
  | 0, _ => 0
  | 1, _ => 1
  | (n + 2), x => ((2 * n + 3) * (legP (n + 1) x + x * legD (n + 1) x) - (n + 1) * legD n x) / (n + 2)

theorem legP_hasDerivAt : ∀ (n : ℕ) (x : ℝ), HasDerivAt (legP n) (legD n x) x
  | 0, x => by
    have : legP 0 = fun _ => 1 := rfl
    rw [this]; exact hasDerivAt_const x 1
  | 1, x => by
    have : legP 1 = fun x => x := rfl
    rw [this]; exact hasDerivAt_id x
  | (n + 2), x => by
    have h1 := legP_hasDerivAt (n + 1) x
    have h0 := legP_hasDerivAt n x
    have e : legP (n + 2) = fun x => ((2 * n + 3) * (x * legP (n + 1) x) - (n + 1) * legP n x) / (n + 2) := by
      funext y; rw [legP]; ring
    rw [e, legD]
    have := (((((hasDerivAt_id x).mul h1).const_mul (2 * (n : ℝ) + 3)).sub (h0.const_mul ((n : ℝ) + 1))).div_const
      ((n : ℝ) + 2))
    refine this.congr_deriv ?_
    simp only [id, one_mul]

theorem legD_AB (x : ℝ) : ∀ n : ℕ, legD (n + 1) x = x * legD n x + (n + 1) * legP n x ∧
    x * legD (n + 1) x = legD n x + (n + 1) * legP (n + 1) x
  | 0 => by simp [legD, legP]
  | (n + 1) => by
    obtain ⟨hA, hB⟩ := legD_AB x n
    have n2 : ((n : ℝ) + 2) ≠ 0 := by positivity
    have hD : ((n : ℝ) + 2) * legD (n + 2) x =
        (2 * n + 3) * (legP (n + 1) x + x * legD (n + 1) x) - (n + 1) * legD n x := by
      rw [legD]; field_simp
    have hP := legP_rec n x
    have hA' : legD (n + 2) x = x * legD (n + 1) x + ((n : ℝ) + 2) * legP (n + 1) x := by
      apply mul_left_cancel₀ n2
      linear_combination hD + (n + 1 : ℝ) * hB
    refine ⟨by rw [hA']; push_cast; ring, ?_⟩
    rw [hA']
    push_cast
    linear_combination x * hB - hA - hP

/-- `P'_{n+2} - P'_n = (2n+3) P_{n+1}`. -/
theorem legD_sub (n : ℕ) (x : ℝ) : legD (n + 2) x - legD n x = (2 * n + 3) * legP (n + 1) x := by
  have h1 := (legD_AB x (n + 1)).1
  have h2 := (legD_AB x n).2
  push_cast at h1
  linear_combination h1 + h2

theorem legP_one : ∀ n : ℕ, legP n 1 = 1
  | 0 => rfl
  | 1 => rfl
  | (n + 2) => by
    have n2 : ((n : ℝ) + 2) ≠ 0 := by positivity
    rw [legP, legP_one (n + 1), legP_one n, div_eq_one_iff_eq n2]; ring

theorem legP_neg (x : ℝ) : ∀ n : ℕ, legP n (-x) = (-1) ^ n * legP n x
  | 0 => by simp [legP]
  | 1 => by simp [legP]
  | (n + 2) => by
    rw [legP, legP, legP_neg x (n + 1), legP_neg x n]; ring

theorem legP_continuous (n : ℕ) : Continuous (legP n) :=
  continuous_iff_continuousAt.2 fun x => (legP_hasDerivAt n x).continuousAt

open intervalIntegral MeasureTheory

/-- The integral of a Legendre polynomial. -/
theorem legP_integral (n : ℕ) : (∫ x in (-1 : ℝ)..1, legP n x) = if n = 0 then 2 else 0 := by
  cases n with
  | zero => simp [legP]; norm_num
  | succ n =>
    have hd : ∀ x ∈ Set.uIcc (-1 : ℝ) 1,
        HasDerivAt (fun x => (legP (n + 2) x - legP n x) / (2 * n + 3)) (legP (n + 1) x) x := fun x _ => by
      have h := ((legP_hasDerivAt (n + 2) x).sub (legP_hasDerivAt n x)).div_const (2 * (n : ℝ) + 3)
      refine h.congr_deriv ?_
      rw [legD_sub]
      have : 2 * (n : ℝ) + 3 ≠ 0 := by positivity
      field_simp
    rw [integral_eq_sub_of_hasDerivAt hd ((legP_continuous _).intervalIntegrable _ _)]
    have e := legP_neg 1
    simp only [legP_one] at e
    rw [legP_one, legP_one, e, e, pow_add]
    simp

/-- Moving a factor `x` from one Legendre polynomial to another under the integral sign. -/
theorem leg_shift (g : ℝ → ℝ) (hg : Continuous g) (n m : ℕ) :
    ((n : ℝ) + 1) / (2 * n + 1) * (∫ x in (-1 : ℝ)..1, g x * legP (n + 1) x * legP m x)
      + n / (2 * n + 1) * (∫ x in (-1 : ℝ)..1, g x * legP (n - 1) x * legP m x) =
    ((m : ℝ) + 1) / (2 * m + 1) * (∫ x in (-1 : ℝ)..1, g x * legP n x * legP (m + 1) x)
      + m / (2 * m + 1) * (∫ x in (-1 : ℝ)..1, g x * legP n x * legP (m - 1) x) := by
  have c := legP_continuous
  have ii : ∀ a b : ℕ, IntervalIntegrable (fun x => g x * legP a x * legP b x) volume (-1) 1 := fun a b =>
    ((hg.mul (c a)).mul (c b)).intervalIntegrable _ _
  rw [← intervalIntegral.integral_const_mul, ← intervalIntegral.integral_const_mul,
    ← intervalIntegral.integral_const_mul, ← intervalIntegral.integral_const_mul,
    ← intervalIntegral.integral_add ((ii _ _).const_mul _) ((ii _ _).const_mul _),
    ← intervalIntegral.integral_add ((ii _ _).const_mul _) ((ii _ _).const_mul _)]
  congr 1
  funext x
  have n1 : 2 * (n : ℝ) + 1 ≠ 0 := by positivity
  have m1 : 2 * (m : ℝ) + 1 ≠ 0 := by positivity
  have hn := legP_mul_x n x
  have hm := legP_mul_x m x
  have e1 : x * legP n x = ((n + 1) * legP (n + 1) x + n * legP (n - 1) x) / (2 * n + 1) := by
    rw [eq_div_iff n1]; linear_combination hn
  have e2 : x * legP m x = ((m + 1) * legP (m + 1) x + m * legP (m - 1) x) / (2 * m + 1) := by
    rw [eq_div_iff m1]; linear_combination hm
  have : g x * (x * legP n x) * legP m x = g x * legP n x * (x * legP m x) := by ring
  rw [e1, e2] at this
  linear_combination this

/-- Two symbols that satisfy the same shift relation and agree for `m = 0` are equal. -/
theorem shift_unique {A B : ℕ → ℕ → ℝ}
    (hA : ∀ n m : ℕ, ((n : ℝ) + 1) / (2 * n + 1) * A (n + 1) m + n / (2 * n + 1) * A (n - 1) m =
      ((m : ℝ) + 1) / (2 * m + 1) * A n (m + 1) + m / (2 * m + 1) * A n (m - 1))
    (hB : ∀ n m : ℕ, ((n : ℝ) + 1) / (2 * n + 1) * B (n + 1) m + n / (2 * n + 1) * B (n - 1) m =
      ((m : ℝ) + 1) / (2 * m + 1) * B n (m + 1) + m / (2 * m + 1) * B n (m - 1))
    (h0 : ∀ n, A n 0 = B n 0) : ∀ m n : ℕ, A n m = B n m := by
  intro m
  induction m using Nat.strong_induction_on with
  | _ m ih =>
    cases m with
    | zero => exact h0
    | succ m =>
      intro n
      have a := hA n m
      have b := hB n m
      rw [ih m (Nat.lt_succ_self m), ih m (Nat.lt_succ_self m)] at a
      have hz : (m : ℝ) / (2 * m + 1) * A n (m - 1) = m / (2 * m + 1) * B n (m - 1) := by
        cases m with
        | zero => simp
        | succ m => rw [ih _ (by simp)]
      have hc : ((m : ℝ) + 1) / (2 * m + 1) ≠ 0 := by positivity
      apply mul_left_cancel₀ hc
      linear_combination b - a - hz

/-- Orthogonality. -/
theorem leg_orthogonal (n m : ℕ) : (∫ x in (-1 : ℝ)..1, legP n x * legP m x) = if n = m then 2 / (2 * (n : ℝ) + 1) else 0 := by
  have h := leg_shift (fun _ => 1) continuous_const
  simp only [one_mul] at h
  refine shift_unique (A := fun n m => ∫ x in (-1 : ℝ)..1, legP n x * legP m x) h
    (B := fun n m => if n = m then 2 / (2 * (n : ℝ) + 1) else 0) ?_ ?_ m n
  · intro n m
    by_cases h1 : n + 1 = m
    · subst h1
      rw [if_pos rfl, if_neg (by omega), if_neg (by omega), if_pos (by omega)]
      push_cast
      field_simp
      ring
    · by_cases h2 : n = m + 1
      · subst h2
        rw [if_neg (by omega), if_pos (by omega), if_pos rfl, if_neg (by omega)]
        push_cast
        field_simp
        ring
      · rw [if_neg h1, if_neg h2]
        have z1 : (n : ℝ) / (2 * n + 1) * (if n - 1 = m then 2 / (2 * ((n - 1 : ℕ) : ℝ) + 1) else 0) = 0 := by
          rcases Nat.eq_zero_or_pos n with h0 | h0
          · simp [h0]
          · rw [if_neg (by omega), mul_zero]
        have z2 : (m : ℝ) / (2 * m + 1) * (if n = m - 1 then 2 / (2 * (n : ℝ) + 1) else 0) = 0 := by
          rcases Nat.eq_zero_or_pos m with h0 | h0
          · simp [h0]
          · rw [if_neg (by omega), mul_zero]
        rw [z1, z2]; simp
  · intro n
    simp only [legP, mul_one, legP_integral]
    split_ifs with h0
    · subst h0; norm_num
    · rfl

end Coffe
