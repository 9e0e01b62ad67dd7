import Verif.Spec.GaussianCovariance
import Verif.Proofs.Bessel
import Verif.Proofs.CovValues
import Verif.Proofs.Legendre
import Mathlib.Algebra.MonoidAlgebra.Basic

namespace Coffe
open Classical

variable {ι R : Type} [Fintype ι] [CommRing R] [Algebra ℂ R]

/-! ## Box -/

theorem box_mean_sum (b : Box ι R) (A B : ℤ) (l : ℕ) (s : ℝ) (Y : R) :
    b.mean (b.multipole A B l s * Y) = (2 * l + 1 : ℂ) * Complex.I ^ l / b.V ^ 2 *
      ∑ i, ((sphericalBessel l (b.k i * s) * legP l (b.mu i) : ℝ) : ℂ) * b.mean (b.δ A (b.neg i) * b.δ B i * Y) := by
  unfold Box.multipole
  rw [smul_mul_assoc, map_smul, smul_eq_mul, Finset.sum_mul, map_sum]
  simp only [smul_mul_assoc, map_smul, smul_eq_mul]

theorem box_cov_eq (b : Box ι R) (P : ℤ → ℤ → ℝ → ℝ → ℝ) (h : b.Gaussian P) (hP : ∀ A B k mu, P A B k (-mu) = P A B k mu)
    (a a' c d : ℤ) (l1 : ℕ) (s1 : ℝ) (l2 : ℕ) (s2 : ℝ) :
    b.cov (b.multipole a a' l1 s1) (b.multipole c d l2 s2) =
      (2 * l1 + 1) * (2 * l2 + 1) / b.V * (Complex.I ^ l1 * (-Complex.I) ^ l2)
        * ((1 / b.V * ∑ i, sphericalBessel l1 (b.k i * s1) * sphericalBessel l2 (b.k i * s2) * legP l1 (b.mu i) * legP l2 (b.mu i)
          * (P a c (b.k i) (b.mu i) * P a' d (b.k i) (b.mu i) + (-1) ^ l2 * P a d (b.k i) (b.mu i) * P a' c (b.k i) (b.mu i)) : ℝ) : ℂ) := by
  have hV : (b.V : ℂ) ≠ 0 := by exact_mod_cast h.volume
  obtain ⟨Z, hZ⟩ : ∃ Z : ℝ, (∑ i, sphericalBessel l1 (b.k i * s1) * sphericalBessel l2 (b.k i * s2) * legP l1 (b.mu i) * legP l2 (b.mu i)
          * (P a c (b.k i) (b.mu i) * P a' d (b.k i) (b.mu i) + (-1) ^ l2 * P a d (b.k i) (b.mu i) * P a' c (b.k i) (b.mu i))) = Z := ⟨_, rfl⟩
  rw [hZ]
  -- mean of the product of two multipoles
  have e1 : ∀ X : R, b.mean (X * b.multipole c d l2 s2) = (2 * l2 + 1 : ℂ) * Complex.I ^ l2 / b.V ^ 2 *
      ∑ j, ((sphericalBessel l2 (b.k j * s2) * legP l2 (b.mu j) : ℝ) : ℂ) * b.mean (X * (b.δ c (b.neg j) * b.δ d j)) := by
    intro X
    rw [mul_comm X, box_mean_sum]
    simp only [mul_comm X]
  have e2 : b.mean (b.multipole a a' l1 s1) = (2 * l1 + 1 : ℂ) * Complex.I ^ l1 / b.V ^ 2 *
      ∑ i, ((sphericalBessel l1 (b.k i * s1) * legP l1 (b.mu i) : ℝ) : ℂ) * b.mean (b.δ a (b.neg i) * b.δ a' i) := by
    have := box_mean_sum b a a' l1 s1 1
    simpa only [mul_one] using this
  have e3 : b.mean (b.multipole c d l2 s2) = (2 * l2 + 1 : ℂ) * Complex.I ^ l2 / b.V ^ 2 *
      ∑ j, ((sphericalBessel l2 (b.k j * s2) * legP l2 (b.mu j) : ℝ) : ℂ) * b.mean (b.δ c (b.neg j) * b.δ d j) := by
    have := box_mean_sum b c d l2 s2 1
    simpa only [mul_one] using this
  have neg_inj : ∀ i j, b.neg i = b.neg j ↔ i = j := fun i j =>
    ⟨fun e => by rw [← b.neg_neg i, e, b.neg_neg], fun e => by rw [e]⟩
  obtain ⟨W, hW⟩ : ∃ W : ι → ℝ, ∀ i, W i = sphericalBessel l2 (b.k i * s2) * legP l2 (b.mu i) * (b.V ^ 2 * ((-1) ^ l2 * P a c (b.k i) (b.mu i) * P a' d (b.k i) (b.mu i)
            + P a d (b.k i) (b.mu i) * P a' c (b.k i) (b.mu i))) := ⟨_, fun _ => rfl⟩
  -- the inner sum
  have e4 : ∀ i, (∑ j, ((sphericalBessel l2 (b.k j * s2) * legP l2 (b.mu j) : ℝ) : ℂ)
        * b.mean (b.δ a (b.neg i) * b.δ a' i * (b.δ c (b.neg j) * b.δ d j)))
      = b.mean (b.δ a (b.neg i) * b.δ a' i)
          * ∑ j, ((sphericalBessel l2 (b.k j * s2) * legP l2 (b.mu j) : ℝ) : ℂ) * b.mean (b.δ c (b.neg j) * b.δ d j)
        + (W i : ℂ) := by
    intro i
    rw [hW i]
    simp only [h.four]
    have t1 : ∀ j, b.mean (b.δ a (b.neg i) * b.δ c (b.neg j)) * b.mean (b.δ a' i * b.δ d j)
        = if j = b.neg i then ((b.V ^ 2 * (P a c (b.k i) (b.mu i) * P a' d (b.k i) (b.mu i)) : ℝ) : ℂ) else 0 := by
      intro j
      rw [h.two, h.two]
      by_cases hj : j = b.neg i
      · subst hj
        rw [if_pos rfl, if_pos rfl, if_pos rfl, b.k_neg, b.mu_neg, hP]
        push_cast; ring
      · rw [if_neg hj, if_neg hj, Complex.ofReal_zero, mul_zero]
    have t2 : ∀ j, b.mean (b.δ a (b.neg i) * b.δ d j) * b.mean (b.δ a' i * b.δ c (b.neg j))
        = if j = i then ((b.V ^ 2 * (P a d (b.k i) (b.mu i) * P a' c (b.k i) (b.mu i)) : ℝ) : ℂ) else 0 := by
      intro j
      rw [h.two, h.two, b.neg_neg]
      by_cases hj : j = i
      · subst hj
        rw [if_pos rfl, if_pos rfl, if_pos rfl, b.k_neg, b.mu_neg, hP]
        push_cast; ring
      · rw [if_neg hj, if_neg hj, Complex.ofReal_zero, zero_mul]
    simp only [t1, t2, mul_add, Finset.sum_add_distrib, mul_ite, mul_zero, Finset.sum_ite_eq', Finset.mem_univ, if_true]
    rw [b.k_neg, b.mu_neg, legP_neg, Finset.mul_sum]
    have : ∀ j, ((sphericalBessel l2 (b.k j * s2) * legP l2 (b.mu j) : ℝ) : ℂ) * (b.mean (b.δ a (b.neg i) * b.δ a' i) * b.mean (b.δ c (b.neg j) * b.δ d j))
        = b.mean (b.δ a (b.neg i) * b.δ a' i) * (((sphericalBessel l2 (b.k j * s2) * legP l2 (b.mu j) : ℝ) : ℂ) * b.mean (b.δ c (b.neg j) * b.δ d j)) :=
      fun j => by ring
    simp only [this]
    push_cast
    ring
  unfold Box.cov
  rw [box_mean_sum, e2, e3]
  simp only [e1, e4]
  have hI : Complex.I ^ l1 * Complex.I ^ l2 = (-1) ^ l2 * (Complex.I ^ l1 * (-Complex.I) ^ l2) := by
    rw [show (-Complex.I) ^ l2 = (-1) ^ l2 * Complex.I ^ l2 by rw [← mul_pow]; ring_nf]
    rw [show (-1 : ℂ) ^ l2 * (Complex.I ^ l1 * ((-1) ^ l2 * Complex.I ^ l2)) = ((-1) ^ l2 * (-1) ^ l2) * (Complex.I ^ l1 * Complex.I ^ l2) by ring,
      ← mul_pow]
    norm_num
  have hs : ((-1 : ℂ) ^ l2) * (-1) ^ l2 = 1 := by rw [← mul_pow]; norm_num
  generalize hS : (∑ j, ((sphericalBessel l2 (b.k j * s2) * legP l2 (b.mu j) : ℝ) : ℂ) * b.mean (b.δ c (b.neg j) * b.δ d j)) = S
  simp only [mul_add, Finset.sum_add_distrib]
  have c1 : (∑ i, ((sphericalBessel l1 (b.k i * s1) * legP l1 (b.mu i) : ℝ) : ℂ) * ((2 * l2 + 1 : ℂ) * Complex.I ^ l2 / b.V ^ 2
        * (b.mean (b.δ a (b.neg i) * b.δ a' i) * S)))
      = (∑ i, ((sphericalBessel l1 (b.k i * s1) * legP l1 (b.mu i) : ℝ) : ℂ) * b.mean (b.δ a (b.neg i) * b.δ a' i))
        * ((2 * l2 + 1 : ℂ) * Complex.I ^ l2 / b.V ^ 2 * S) := by
    rw [Finset.sum_mul]
    exact Finset.sum_congr rfl fun i _ => by ring
  rw [c1]
  have c2 : (∑ i, ((sphericalBessel l1 (b.k i * s1) * legP l1 (b.mu i) : ℝ) : ℂ) * ((2 * l2 + 1 : ℂ) * Complex.I ^ l2 / b.V ^ 2
        * (W i : ℂ)))
      = (2 * l2 + 1 : ℂ) * Complex.I ^ l2 * (-1) ^ l2 * (Z : ℂ) := by
    rw [← hZ, Complex.ofReal_sum, Finset.mul_sum]
    refine Finset.sum_congr rfl fun i _ => ?_
    rw [hW i]
    have ev : ∀ w x y : ℂ, w * (x / (b.V : ℂ) ^ 2 * ((b.V : ℂ) ^ 2 * y)) = w * x * y := by
      intro w x y; field_simp
    rw [show ((sphericalBessel l2 (b.k i * s2) * legP l2 (b.mu i) * (b.V ^ 2 * ((-1) ^ l2 * P a c (b.k i) (b.mu i) * P a' d (b.k i) (b.mu i)
            + P a d (b.k i) (b.mu i) * P a' c (b.k i) (b.mu i))) : ℝ) : ℂ) = (b.V : ℂ) ^ 2 * ((sphericalBessel l2 (b.k i * s2) * legP l2 (b.mu i)
              * ((-1) ^ l2 * P a c (b.k i) (b.mu i) * P a' d (b.k i) (b.mu i) + P a d (b.k i) (b.mu i) * P a' c (b.k i) (b.mu i)) : ℝ) : ℂ) by
        push_cast; ring, ev]
    push_cast
    linear_combination (-(sphericalBessel l1 (b.k i * s1) * legP l1 (b.mu i) * (2 * l2 + 1) * Complex.I ^ l2 * sphericalBessel l2 (b.k i * s2) * legP l2 (b.mu i)
      * P a d (b.k i) (b.mu i) * P a' c (b.k i) (b.mu i)) : ℂ) * hs
  rw [c2]
  push_cast
  linear_combination ((2 * l1 + 1) * (2 * l2 + 1) * (-1) ^ l2 * Z / b.V ^ 2 : ℂ) * hI
    + ((2 * l1 + 1) * (2 * l2 + 1) * Z * (Complex.I ^ l1 * (-Complex.I) ^ l2) / b.V ^ 2 : ℂ) * hs

/-- Odd multipoles of one tracer with itself vanish. -/
theorem box_odd_zero (b : Box ι R) (A : ℤ) (l : ℕ) (hl : l % 2 = 1) (s : ℝ) : b.multipole A A l s = 0 := by
  unfold Box.multipole
  have hodd : ∀ x, legP l (-x) = -legP l x := fun x => by rw [legP_neg, (Nat.odd_iff.2 hl).neg_one_pow]; ring
  have key : (∑ i, ((sphericalBessel l (b.k i * s) * legP l (b.mu i) : ℝ) : ℂ) • (b.δ A (b.neg i) * b.δ A i))
      = -∑ i, ((sphericalBessel l (b.k i * s) * legP l (b.mu i) : ℝ) : ℂ) • (b.δ A (b.neg i) * b.δ A i) := by
    rw [← Finset.sum_neg_distrib]
    refine Fintype.sum_equiv ⟨b.neg, b.neg, b.neg_neg, b.neg_neg⟩ _ _ fun i => ?_
    simp only [Equiv.coe_fn_mk]
    rw [b.k_neg, b.mu_neg, hodd, b.neg_neg, mul_comm (b.δ A i)]
    push_cast
    rw [mul_neg, neg_smul, neg_neg]
  have h2 : (2 : ℂ) • (∑ i, ((sphericalBessel l (b.k i * s) * legP l (b.mu i) : ℝ) : ℂ) • (b.δ A (b.neg i) * b.δ A i)) = 0 := by
    rw [two_smul]
    nth_rewrite 2 [key]
    exact add_neg_cancel _
  have h3 := congrArg (fun x => (2⁻¹ : ℂ) • x) h2
  simp only [smul_smul, smul_zero] at h3
  rw [inv_mul_cancel₀ two_ne_zero, one_smul] at h3
  rw [h3, smul_zero]

/-! ## Angular integrals -/

theorem kaiser_expand (b b' f mu : ℝ) : (b + f * mu ^ 2) * (b' + f * mu ^ 2) =
    covariance_coefficient b b' f 0 * legP 0 mu + covariance_coefficient b b' f 2 * legP 2 mu
      + covariance_coefficient b b' f 4 * legP 4 mu := by
  simp only [legP, covariance_coefficient]
  push_cast
  ring

theorem leg_lin (g : ℝ → ℝ) (hg : Continuous g) (a b c : ℝ) :
    (∫ x in (-1 : ℝ)..1, g x * (a * legP 0 x + b * legP 2 x + c * legP 4 x)) =
      a * (∫ x in (-1 : ℝ)..1, g x * legP 0 x) + b * (∫ x in (-1 : ℝ)..1, g x * legP 2 x) + c * ∫ x in (-1 : ℝ)..1, g x * legP 4 x := by
  have h : ∀ l, Continuous fun x => g x * legP l x := fun l => hg.mul (legP_continuous l)
  have hi : ∀ (d : ℝ) l, IntervalIntegrable (fun x => d * (g x * legP l x)) MeasureTheory.volume (-1) 1 :=
    fun d l => (continuous_const.mul (h l)).intervalIntegrable _ _
  rw [← intervalIntegral.integral_const_mul, ← intervalIntegral.integral_const_mul, ← intervalIntegral.integral_const_mul,
    ← intervalIntegral.integral_add (hi _ _) (hi _ _), ← intervalIntegral.integral_add ((hi _ _).add (hi _ _)) (hi _ _)]
  congr 1
  funext x
  ring

/-- The angular integral of four Kaiser factors. -/
theorem leg_kaiser4 (l1 l2 : ℕ) (b1 b2 b3 b4 f : ℝ) :
    (∫ x in (-1 : ℝ)..1, legP l1 x * legP l2 x * ((b1 + f * x ^ 2) * (b3 + f * x ^ 2)) * ((b2 + f * x ^ 2) * (b4 + f * x ^ 2))) =
      (([0, 2, 4] : List ℕ).map fun c1 => (([0, 2, 4] : List ℕ).map fun c2 =>
        covariance_coefficient b1 b3 f c1 * covariance_coefficient b2 b4 f c2 * legendre_integral l1 l2 c1 c2).sum).sum := by
  have c2 : Continuous fun x => legP l1 x * legP l2 x := (legP_continuous l1).mul (legP_continuous l2)
  have ck : Continuous fun x : ℝ => (b1 + f * x ^ 2) * (b3 + f * x ^ 2) := by fun_prop
  have e1 : ∀ x : ℝ, legP l1 x * legP l2 x * ((b1 + f * x ^ 2) * (b3 + f * x ^ 2)) * ((b2 + f * x ^ 2) * (b4 + f * x ^ 2))
      = (legP l1 x * legP l2 x * ((b1 + f * x ^ 2) * (b3 + f * x ^ 2)))
        * (covariance_coefficient b2 b4 f 0 * legP 0 x + covariance_coefficient b2 b4 f 2 * legP 2 x
          + covariance_coefficient b2 b4 f 4 * legP 4 x) := fun x => by rw [kaiser_expand b2 b4]
  have e2 : ∀ c, (∫ x in (-1 : ℝ)..1, legP l1 x * legP l2 x * ((b1 + f * x ^ 2) * (b3 + f * x ^ 2)) * legP c x)
      = covariance_coefficient b1 b3 f 0 * legendre_integral l1 l2 0 c + covariance_coefficient b1 b3 f 2 * legendre_integral l1 l2 2 c
        + covariance_coefficient b1 b3 f 4 * legendre_integral l1 l2 4 c := by
    intro c
    have e3 : ∀ x : ℝ, legP l1 x * legP l2 x * ((b1 + f * x ^ 2) * (b3 + f * x ^ 2)) * legP c x
      = (legP l1 x * legP l2 x * legP c x) * (covariance_coefficient b1 b3 f 0 * legP 0 x + covariance_coefficient b1 b3 f 2 * legP 2 x
          + covariance_coefficient b1 b3 f 4 * legP 4 x) := fun x => by rw [kaiser_expand b1 b3]; ring
    simp only [e3]
    rw [leg_lin (fun x => legP l1 x * legP l2 x * legP c x) (c2.mul (legP_continuous c))]
    simp only [C28_integral, mul_right_comm _ (legP c _)]
  simp only [e1]
  rw [leg_lin (fun x => legP l1 x * legP l2 x * ((b1 + f * x ^ 2) * (b3 + f * x ^ 2))) (c2.mul ck), e2, e2, e2]
  simp only [List.map_cons, List.map_nil, List.sum_cons, List.sum_nil]
  ring

theorem leg_kaiser2 (l1 l2 : ℕ) (b b' f : ℝ) :
    (∫ x in (-1 : ℝ)..1, legP l1 x * legP l2 x * ((b + f * x ^ 2) * (b' + f * x ^ 2))) =
      (([0, 2, 4] : List ℕ).map fun c => covariance_coefficient b b' f c * legendre_integral l1 l2 c 0).sum := by
  have c2 : Continuous fun x => legP l1 x * legP l2 x := (legP_continuous l1).mul (legP_continuous l2)
  have e1 : ∀ x : ℝ, legP l1 x * legP l2 x * ((b + f * x ^ 2) * (b' + f * x ^ 2))
      = (legP l1 x * legP l2 x) * (covariance_coefficient b b' f 0 * legP 0 x + covariance_coefficient b b' f 2 * legP 2 x
          + covariance_coefficient b b' f 4 * legP 4 x) := fun x => by rw [kaiser_expand b b']
  simp only [e1]
  rw [leg_lin (fun x => legP l1 x * legP l2 x) c2]
  simp only [List.map_cons, List.map_nil, List.sum_cons, List.sum_nil, C28_integral]
  have : ∀ x, legP 0 x = 1 := fun x => rfl
  simp only [this, mul_one]
  ring

theorem coeff_cosmic_eq (l1 l2 : ℕ) (b1 b2 b3 b4 f : ℝ) :
    coeff_cosmic b1 b2 b3 b4 f l1 l2 = (∫ x in (-1 : ℝ)..1, legP l1 x * legP l2 x * ((b1 + f * x ^ 2) * (b3 + f * x ^ 2) * ((b2 + f * x ^ 2) * (b4 + f * x ^ 2))
      + (b1 + f * x ^ 2) * (b4 + f * x ^ 2) * ((b2 + f * x ^ 2) * (b3 + f * x ^ 2)))) / 4 := by
  have hc : ∀ b1 b2 b3 b4 : ℝ, IntervalIntegrable (fun x => legP l1 x * legP l2 x * ((b1 + f * x ^ 2) * (b3 + f * x ^ 2)) * ((b2 + f * x ^ 2) * (b4 + f * x ^ 2)))
      MeasureTheory.volume (-1) 1 := fun b1 b2 b3 b4 =>
    ((((legP_continuous l1).mul (legP_continuous l2)).mul (by fun_prop)).mul (by fun_prop)).intervalIntegrable _ _
  have e : ∀ x : ℝ, legP l1 x * legP l2 x * ((b1 + f * x ^ 2) * (b3 + f * x ^ 2) * ((b2 + f * x ^ 2) * (b4 + f * x ^ 2))
      + (b1 + f * x ^ 2) * (b4 + f * x ^ 2) * ((b2 + f * x ^ 2) * (b3 + f * x ^ 2)))
      = legP l1 x * legP l2 x * ((b1 + f * x ^ 2) * (b3 + f * x ^ 2)) * ((b2 + f * x ^ 2) * (b4 + f * x ^ 2))
        + legP l1 x * legP l2 x * ((b1 + f * x ^ 2) * (b4 + f * x ^ 2)) * ((b2 + f * x ^ 2) * (b3 + f * x ^ 2)) := fun x => by ring
  simp only [e]
  rw [intervalIntegral.integral_add (hc b1 b2 b3 b4) (hc b1 b2 b4 b3), leg_kaiser4, leg_kaiser4]
  have hs : ∀ c ∈ ([0, 2, 4] : List ℕ), sign (c : ℤ) = 1 := by
    intro c hc
    rw [sign_nat]
    fin_cases hc <;> norm_num
  unfold coeff_cosmic
  simp only [List.map_cons, List.map_nil, List.sum_cons, List.sum_nil, hs 0 (by simp), hs 2 (by simp), hs 4 (by simp)]
  ring

theorem coeff_mixed_eq (p : CovPar) (l1 l2 : ℕ) (b1 b2 b3 b4 f n1 n2 : ℝ) :
    coeff_mixed p b1 b2 b3 b4 f n1 n2 l1 l2 = (∫ x in (-1 : ℝ)..1, legP l1 x * legP l2 x * ((b1 + f * x ^ 2) * (b3 + f * x ^ 2) * (kronecker_delta p.pop2 p.pop4 / n2)
      + (kronecker_delta p.pop1 p.pop3 / n1) * ((b2 + f * x ^ 2) * (b4 + f * x ^ 2))
      + ((b1 + f * x ^ 2) * (b4 + f * x ^ 2) * (kronecker_delta p.pop2 p.pop3 / n2)
      + (kronecker_delta p.pop1 p.pop4 / n1) * ((b2 + f * x ^ 2) * (b3 + f * x ^ 2))))) / 8 := by
  have hc : ∀ c b b' : ℝ, IntervalIntegrable (fun x => c * (legP l1 x * legP l2 x * ((b + f * x ^ 2) * (b' + f * x ^ 2))))
      MeasureTheory.volume (-1) 1 := fun c b b' =>
    (continuous_const.mul (((legP_continuous l1).mul (legP_continuous l2)).mul (by fun_prop))).intervalIntegrable _ _
  have e : ∀ x : ℝ, legP l1 x * legP l2 x * ((b1 + f * x ^ 2) * (b3 + f * x ^ 2) * (kronecker_delta p.pop2 p.pop4 / n2)
      + (kronecker_delta p.pop1 p.pop3 / n1) * ((b2 + f * x ^ 2) * (b4 + f * x ^ 2))
      + ((b1 + f * x ^ 2) * (b4 + f * x ^ 2) * (kronecker_delta p.pop2 p.pop3 / n2)
      + (kronecker_delta p.pop1 p.pop4 / n1) * ((b2 + f * x ^ 2) * (b3 + f * x ^ 2))))
      = (kronecker_delta p.pop2 p.pop4 / n2) * (legP l1 x * legP l2 x * ((b1 + f * x ^ 2) * (b3 + f * x ^ 2)))
        + (kronecker_delta p.pop1 p.pop3 / n1) * (legP l1 x * legP l2 x * ((b2 + f * x ^ 2) * (b4 + f * x ^ 2)))
        + (kronecker_delta p.pop2 p.pop3 / n2) * (legP l1 x * legP l2 x * ((b1 + f * x ^ 2) * (b4 + f * x ^ 2)))
        + (kronecker_delta p.pop1 p.pop4 / n1) * (legP l1 x * legP l2 x * ((b2 + f * x ^ 2) * (b3 + f * x ^ 2))) := fun x => by ring
  simp only [e]
  rw [intervalIntegral.integral_add (((hc _ b1 b3).add (hc _ b2 b4)).add (hc _ b1 b4)) (hc _ b2 b3),
    intervalIntegral.integral_add ((hc _ b1 b3).add (hc _ b2 b4)) (hc _ b1 b4),
    intervalIntegral.integral_add (hc _ b1 b3) (hc _ b2 b4)]
  simp only [intervalIntegral.integral_const_mul, leg_kaiser2]
  unfold coeff_mixed
  simp only [List.map_cons, List.map_nil, List.sum_cons, List.sum_nil]
  ring

/-! ## Phases -/

theorem phase_same (l1 l2 : ℕ) (h : l1 % 2 = l2 % 2) :
    (Complex.I ^ l1 * (-Complex.I) ^ l2).re = sign (((l2 : ℤ) - l1).tdiv 2) := by
  have hp : ∀ a b : ℕ, sign ((b : ℤ) - a) = (-1) ^ a * (-1) ^ b := by
    intro a b
    have : sign ((b : ℤ) - a) = sign ((a + b : ℕ) : ℤ) := by
      unfold sign
      have : ((b : ℤ) - a).natAbs % 2 = ((a + b : ℕ) : ℤ).natAbs % 2 := by omega
      rw [this]
    rw [this, sign_nat, pow_add]
  have hI : ∀ a : ℕ, Complex.I ^ (2 * a) = (-1) ^ a := fun a => by rw [pow_mul, Complex.I_sq]
  have hI' : ∀ a : ℕ, (-Complex.I) ^ (2 * a) = (-1) ^ a := fun a => by rw [pow_mul, neg_sq, Complex.I_sq]
  rcases Nat.even_or_odd' l1 with ⟨a, rfl | rfl⟩ <;> rcases Nat.even_or_odd' l2 with ⟨b, rfl | rfl⟩
  · rw [hI, hI', show (((2 * b : ℕ) : ℤ) - (2 * a : ℕ)).tdiv 2 = (b : ℤ) - a by
      rw [show ((2 * b : ℕ) : ℤ) - (2 * a : ℕ) = 2 * ((b : ℤ) - a) by push_cast; ring, Int.mul_tdiv_cancel_left _ (by norm_num)], hp,
      show ((-1 : ℂ) ^ a * (-1) ^ b) = (((-1 : ℝ) ^ a * (-1) ^ b : ℝ) : ℂ) by push_cast; ring, Complex.ofReal_re]
  · omega
  · omega
  · rw [pow_succ, pow_succ (-Complex.I), hI, hI', show (((2 * b + 1 : ℕ) : ℤ) - (2 * a + 1 : ℕ)).tdiv 2 = (b : ℤ) - a by
      rw [show ((2 * b + 1 : ℕ) : ℤ) - (2 * a + 1 : ℕ) = 2 * ((b : ℤ) - a) by push_cast; ring, Int.mul_tdiv_cancel_left _ (by norm_num)], hp,
      show ((-1 : ℂ) ^ a * Complex.I * ((-1) ^ b * -Complex.I)) = (((-1 : ℝ) ^ a * (-1) ^ b : ℝ) : ℂ) by
        push_cast; linear_combination (-(-1 : ℂ) ^ a * (-1) ^ b) * Complex.I_sq, Complex.ofReal_re]

theorem phase_mixed (l1 l2 : ℕ) (h : l1 % 2 ≠ l2 % 2) : (Complex.I ^ l1 * (-Complex.I) ^ l2).re = 0 := by
  have hI : ∀ a : ℕ, Complex.I ^ (2 * a) = (-1) ^ a := fun a => by rw [pow_mul, Complex.I_sq]
  have hI' : ∀ a : ℕ, (-Complex.I) ^ (2 * a) = (-1) ^ a := fun a => by rw [pow_mul, neg_sq, Complex.I_sq]
  rcases Nat.even_or_odd' l1 with ⟨a, rfl | rfl⟩ <;> rcases Nat.even_or_odd' l2 with ⟨b, rfl | rfl⟩
  · omega
  · rw [pow_succ (-Complex.I), hI, hI', show ((-1 : ℂ) ^ a * ((-1) ^ b * -Complex.I)) = (((-(-1 : ℝ) ^ a * (-1) ^ b : ℝ) : ℂ) * Complex.I) by push_cast; ring,
      Complex.re_ofReal_mul, Complex.I_re, mul_zero]
  · rw [pow_succ, hI, hI', show ((-1 : ℂ) ^ a * Complex.I * (-1) ^ b) = ((((-1 : ℝ) ^ a * (-1) ^ b : ℝ) : ℂ) * Complex.I) by push_cast; ring,
      Complex.re_ofReal_mul, Complex.I_re, mul_zero]
  · omega

end Coffe
