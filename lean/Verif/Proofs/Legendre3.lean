import Verif.Proofs.Legendre
import Verif.Model.C.Angular
import Mathlib.Data.Nat.Choose.Central
import Mathlib.Algebra.BigOperators.Ring.Finset
import Mathlib.Tactic.Ring

/-!
# Products of three and four Legendre polynomials
-/

namespace Coffe

/-- Central binomial coefficient, zero for negative arguments. -/
noncomputable def cb (k : ℤ) : ℝ := if 0 ≤ k then (Nat.centralBinom k.toNat : ℝ) else 0

theorem cb_nat (k : ℕ) : cb k = Nat.centralBinom k := by simp [cb]

theorem cb_succ (k : ℕ) : ((k : ℝ) + 1) * cb ((k : ℤ) + 1) = 2 * (2 * k + 1) * cb k := by
  have h : ((k : ℤ) + 1) = ((k + 1 : ℕ) : ℤ) := by push_cast; ring
  rw [h, cb_nat, cb_nat]
  exact_mod_cast Nat.succ_mul_centralBinom_succ k

theorem cb_pos (k : ℕ) : 0 < cb k := by rw [cb_nat]; exact_mod_cast Nat.centralBinom_pos k

/-- The square of the 3j symbol as a function of the degrees. -/
noncomputable def T (n m l : ℕ) : ℝ :=
  if (n + m + l) % 2 = 0 ∧ l ≤ n + m ∧ n ≤ m + l ∧ m ≤ n + l then
    let s := (n + m + l) / 2
    cb ((s - n : ℕ) : ℤ) * cb ((s - m : ℕ) : ℤ) * cb ((s - l : ℕ) : ℤ) / (cb (s : ℤ) * (2 * s + 1))
  else 0

theorem coupling3j_sq (n m l : ℕ) : coupling3j n m l ^ 2 = T n m l := by
  unfold coupling3j T
  split_ifs with h
  · have hf : ∀ k : ℕ, ((2 * k).factorial : ℝ) = (Nat.centralBinom k : ℝ) * (k.factorial : ℝ) ^ 2 := fun k => by
      have := Nat.choose_mul_factorial_mul_factorial (show k ≤ 2 * k by omega)
      rw [Nat.centralBinom_eq_two_mul_choose, ← this, show 2 * k - k = k by omega]
      push_cast; ring
    have hs : ∀ k : ℕ, ((2 * k + 1).factorial : ℝ) = (2 * k + 1) * ((Nat.centralBinom k : ℝ) * (k.factorial : ℝ) ^ 2) :=
      fun k => by rw [Nat.factorial_succ]; push_cast; rw [hf k]
    have hp : ∀ k : ℕ, (k.factorial : ℝ) ≠ 0 := fun k => by exact_mod_cast Nat.factorial_ne_zero k
    dsimp only
    rw [mul_pow, mul_pow, ← pow_mul, mul_comm _ 2, pow_mul, neg_one_sq, one_pow, one_mul,
      Real.sq_sqrt (by positivity), cb_nat, cb_nat, cb_nat, cb_nat]
    push_cast
    rw [hf, hf, hf, hs]
    have := hp ((n + m + l) / 2)
    have := hp ((n + m + l) / 2 - n)
    have := hp ((n + m + l) / 2 - m)
    have := hp ((n + m + l) / 2 - l)
    have : (Nat.centralBinom ((n + m + l) / 2) : ℝ) ≠ 0 := by exact_mod_cast Nat.centralBinom_ne_zero _
    field_simp
  · simp

theorem T_even (α β γ : ℕ) : T (β + γ) (α + γ) (α + β) =
    cb α * cb β * cb γ / (cb ((α + β + γ : ℕ) : ℤ) * (2 * ((α + β + γ : ℕ) : ℝ) + 1)) := by
  unfold T
  have e : (β + γ + (α + γ) + (α + β)) / 2 = α + β + γ := by omega
  rw [if_pos ⟨by omega, by omega, by omega, by omega⟩, e]
  dsimp only
  rw [show α + β + γ - (β + γ) = α by omega, show α + β + γ - (α + γ) = β by omega,
    show α + β + γ - (α + β) = γ by omega]

theorem T_zero {n m l : ℕ} (h : ¬ ((n + m + l) % 2 = 0 ∧ l ≤ n + m ∧ n ≤ m + l ∧ m ≤ n + l)) : T n m l = 0 := if_neg h

theorem cb_eq (k : ℕ) : cb ((k + 1 : ℕ) : ℤ) = 2 * (2 * k + 1) / (k + 1) * cb k := by
  have h := cb_succ k
  have e : ((k + 1 : ℕ) : ℤ) = (k : ℤ) + 1 := by push_cast; ring
  have : (k : ℝ) + 1 ≠ 0 := by positivity
  rw [e]; field_simp; linear_combination h

theorem cb_zero : cb ((0 : ℕ) : ℤ) = 1 := by simp [cb]

theorem T_generic (α β γ : ℕ) :
    ((β : ℝ) + γ + 1 + 1) / (2 * (β + γ + 1) + 1) * T (β + γ + 2) (α + γ + 1) (α + β + 1)
      + (β + γ + 1) / (2 * (β + γ + 1) + 1) * T (β + γ) (α + γ + 1) (α + β + 1) =
    ((α : ℝ) + β + 1 + 1) / (2 * (α + β + 1) + 1) * T (β + γ + 1) (α + γ + 1) (α + β + 2)
      + (α + β + 1) / (2 * (α + β + 1) + 1) * T (β + γ + 1) (α + γ + 1) (α + β) := by
  have e1 := T_even α (β + 1) (γ + 1)
  have e2 := T_even (α + 1) β γ
  have e3 := T_even (α + 1) (β + 1) γ
  have e4 := T_even α β (γ + 1)
  rw [show β + 1 + (γ + 1) = β + γ + 2 by ring, show α + (γ + 1) = α + γ + 1 by ring,
    show α + (β + 1) = α + β + 1 by ring, show α + β + 1 + (γ + 1) = (α + β + γ + 1) + 1 by ring] at e1
  rw [show α + 1 + γ = α + γ + 1 by ring, show α + 1 + β = α + β + 1 by ring,
    show α + β + 1 + γ = α + β + γ + 1 by ring] at e2
  rw [show β + 1 + γ = β + γ + 1 by ring, show α + 1 + γ = α + γ + 1 by ring, show α + 1 + (β + 1) = α + β + 2 by ring,
    show α + β + 2 + γ = (α + β + γ + 1) + 1 by ring] at e3
  rw [show β + (γ + 1) = β + γ + 1 by ring, show α + (γ + 1) = α + γ + 1 by ring,
    show α + β + (γ + 1) = α + β + γ + 1 by ring] at e4
  rw [e1, e2, e3, e4, cb_eq α, cb_eq β, cb_eq γ, cb_eq (α + β + γ + 1)]
  have hs := (cb_pos (α + β + γ + 1)).ne'
  push_cast
  push_cast at hs
  field_simp
  ring

theorem T_edge1 (β γ : ℕ) :
    ((β : ℝ) + γ + 1) / (2 * (β + γ + 1) + 1) * T (β + γ) γ β =
    ((β : ℝ) + 1) / (2 * β + 1) * T (β + γ + 1) γ (β + 1) := by
  have e2 := T_even 0 β γ
  have e3 := T_even 0 (β + 1) γ
  rw [show 0 + γ = γ by ring, show 0 + β = β by ring] at e2
  rw [show 0 + γ = γ by ring, show 0 + (β + 1) = β + 1 by ring, show β + 1 + γ = β + γ + 1 by ring] at e3
  rw [e2, e3, cb_eq β, cb_eq (β + γ), cb_zero]
  have hs := (cb_pos (β + γ)).ne'
  push_cast
  push_cast at hs
  field_simp

theorem T_edge2 (α β : ℕ) :
    ((β : ℝ) + 1) / (2 * β + 1) * T (β + 1) α (α + β + 1) =
    ((α : ℝ) + β + 1) / (2 * (α + β + 1) + 1) * T β α (α + β) := by
  have e2 := T_even α β 0
  have e3 := T_even α (β + 1) 0
  rw [show α + 0 = α by ring, show β + 0 = β by ring, show α + β + 0 = α + β by ring] at e2
  rw [show α + 0 = α by ring, show β + 1 + 0 = β + 1 by ring, show α + (β + 1) + 0 = α + β + 1 by ring,
    show α + (β + 1) = α + β + 1 by ring] at e3
  rw [e2, e3, cb_eq β, cb_eq (α + β), cb_zero]
  have hs := (cb_pos (α + β)).ne'
  push_cast
  push_cast at hs
  field_simp

theorem T_edge3 (α γ : ℕ) :
    ((γ : ℝ) + 1) / (2 * γ + 1) * T (γ + 1) (α + γ + 1) α =
    ((α : ℝ) + 1) / (2 * α + 1) * T γ (α + γ + 1) (α + 1) := by
  have e1 := T_even α 0 (γ + 1)
  have e3 := T_even (α + 1) 0 γ
  rw [show 0 + (γ + 1) = γ + 1 by ring, show α + (γ + 1) = α + γ + 1 by ring, show α + 0 = α by ring,
    show α + (γ + 1) = α + γ + 1 by ring] at e1
  rw [show 0 + γ = γ by ring, show α + 1 + γ = α + γ + 1 by ring, show α + 1 + 0 = α + 1 by ring] at e3
  rw [e1, e3, cb_eq α, cb_eq γ, cb_zero]
  have hs := (cb_pos (α + γ + 1)).ne'
  push_cast
  push_cast at hs
  field_simp

theorem T_shift (m n l : ℕ) :
    ((n : ℝ) + 1) / (2 * n + 1) * T (n + 1) m l + n / (2 * n + 1) * T (n - 1) m l =
      ((l : ℝ) + 1) / (2 * l + 1) * T n m (l + 1) + l / (2 * l + 1) * T n m (l - 1) := by
  have zn : (n + m + l) % 2 = 0 ∨ n = 0 ∨ ¬ (n ≤ m + l + 1 ∧ m + 1 ≤ n + l ∧ l + 1 ≤ m + n) →
      (n : ℝ) / (2 * n + 1) * T (n - 1) m l = 0 := by
    rintro h
    by_cases h0 : n = 0
    · simp [h0]
    · rw [T_zero (by omega), mul_zero]
  have zl : (n + m + l) % 2 = 0 ∨ l = 0 ∨ ¬ (l ≤ n + m + 1 ∧ m + 1 ≤ n + l ∧ n + 1 ≤ m + l) →
      (l : ℝ) / (2 * l + 1) * T n m (l - 1) = 0 := by
    rintro h
    by_cases h0 : l = 0
    · simp [h0]
    · rw [T_zero (by omega), mul_zero]
  by_cases hpar : (n + m + l) % 2 = 0
  · rw [zn (Or.inl hpar), zl (Or.inl hpar), T_zero (by omega), T_zero (by omega)]; simp
  · by_cases h1 : n > m + l + 1 ∨ l > m + n + 1 ∨ m > n + l + 1
    · rw [zn (by omega), zl (by omega), T_zero (by omega), T_zero (by omega)]; simp
    · by_cases a1 : n = m + l + 1
      · obtain rfl := a1
        rw [zl (by omega), T_zero (by omega)]
        have := T_edge1 l m
        rw [show l + m + 1 = m + l + 1 by ring, show l + m = m + l by ring] at this
        rw [Nat.add_sub_cancel]
        push_cast
        rw [mul_zero, zero_add, add_zero]
        rw [show ((m : ℝ) + l + 1) / (2 * (m + l + 1) + 1) = (l + m + 1) / (2 * (l + m + 1) + 1) by ring]
        exact this
      · by_cases a2 : l = m + n + 1
        · obtain rfl := a2
          rw [zn (by omega), T_zero (n := n) (m := m) (by omega)]
          have := T_edge2 m n
          rw [Nat.add_sub_cancel]
          push_cast
          rw [mul_zero, zero_add, add_zero]
          exact this
        · by_cases a3 : m = n + l + 1
          · obtain rfl := a3
            rw [zn (by omega), zl (by omega)]
            have := T_edge3 l n
            rw [show l + n + 1 = n + l + 1 by ring] at this
            rw [add_zero, add_zero]
            exact this
          · obtain ⟨s, hs⟩ : ∃ s, n + m + l = 2 * s + 1 := ⟨(n + m + l) / 2, by omega⟩
            obtain ⟨α, hα⟩ : ∃ α, s = n + α := ⟨s - n, by omega⟩
            obtain ⟨β, hβ⟩ : ∃ β, s = m + β := ⟨s - m, by omega⟩
            obtain ⟨γ, hγ⟩ : ∃ γ, s = l + γ := ⟨s - l, by omega⟩
            obtain rfl : n = β + γ + 1 := by omega
            obtain rfl : m = α + γ + 1 := by omega
            obtain rfl : l = α + β + 1 := by omega
            have := T_generic α β γ
            rw [Nat.add_sub_cancel, Nat.add_sub_cancel]
            push_cast
            exact this

theorem T_swap (n m l : ℕ) : T n m l = T n l m := by
  unfold T
  by_cases h : (n + m + l) % 2 = 0 ∧ l ≤ n + m ∧ n ≤ m + l ∧ m ≤ n + l
  · rw [if_pos h, if_pos (by omega), show n + l + m = n + m + l by ring]
    dsimp only
    ring
  · rw [if_neg h, if_neg (by omega)]

theorem T_swap' (n m l : ℕ) : T n m l = T m n l := by
  unfold T
  by_cases h : (n + m + l) % 2 = 0 ∧ l ≤ n + m ∧ n ≤ m + l ∧ m ≤ n + l
  · rw [if_pos h, if_pos (by omega), show m + n + l = n + m + l by ring]
    dsimp only
    ring
  · rw [if_neg h, if_neg (by omega)]

theorem T_l_zero (n m : ℕ) : T n m 0 = if n = m then 1 / (2 * (n : ℝ) + 1) else 0 := by
  split_ifs with h
  · subst h
    have := T_even 0 0 n
    rw [show 0 + n = n by ring, show (0 : ℕ) + 0 = 0 by ring, cb_zero] at this
    rw [this]
    have := (cb_pos n).ne'
    field_simp
  · exact T_zero (by omega)

open intervalIntegral MeasureTheory

/-- The integral of three Legendre polynomials. -/
theorem leg_three (m l n : ℕ) : (∫ x in (-1 : ℝ)..1, legP m x * legP n x * legP l x) = 2 * T n m l := by
  refine shift_unique (A := fun n l => ∫ x in (-1 : ℝ)..1, legP m x * legP n x * legP l x)
    (leg_shift (legP m) (legP_continuous m)) (B := fun n l => 2 * T n m l) ?_ ?_ l n
  · intro n l
    have := T_shift m n l
    linear_combination 2 * this
  · intro n
    simp only [legP, mul_one]
    rw [leg_orthogonal, T_l_zero]
    by_cases h : m = n
    · subst h; simp; ring
    · rw [if_neg h, if_neg (Ne.symm h), mul_zero]

/-- The integral of four Legendre polynomials. -/
theorem leg_four (n m b a N : ℕ) (hN : n + m < N) :
    (∫ x in (-1 : ℝ)..1, (legP n x * legP m x) * legP a x * legP b x) =
      2 * ∑ l ∈ Finset.range N, (2 * (l : ℝ) + 1) * T n m l * T a b l := by
  refine shift_unique (A := fun a b => ∫ x in (-1 : ℝ)..1, (legP n x * legP m x) * legP a x * legP b x)
    (leg_shift (fun x => legP n x * legP m x) ((legP_continuous n).mul (legP_continuous m)))
    (B := fun a b => 2 * ∑ l ∈ Finset.range N, (2 * (l : ℝ) + 1) * T n m l * T a b l) ?_ ?_ b a
  · intro a b
    simp only [mul_left_comm _ (2 : ℝ), ← mul_add]
    congr 1
    simp only [Finset.mul_sum, ← Finset.sum_add_distrib]
    refine Finset.sum_congr rfl fun l _ => ?_
    have := T_shift l a b
    rw [T_swap (a + 1), T_swap (a - 1), T_swap a l, T_swap a l] at this
    linear_combination (2 * (l : ℝ) + 1) * T n m l * this
  · intro a
    simp only [legP, mul_one]
    rw [leg_three, Finset.sum_eq_single a]
    · rw [T_swap a 0, T_l_zero, if_pos rfl, T_swap m n a, T_swap' m a n, T_swap a m n, T_swap' a n m, T_swap n a m]
      field_simp
    · intro l _ hl
      rw [T_swap a 0 l, T_l_zero, if_neg (Ne.symm hl), mul_zero]
    · intro ha
      rw [Finset.mem_range, not_lt] at ha
      rw [T_zero (n := n) (m := m) (l := a) (by omega), mul_zero, zero_mul]

end Coffe
