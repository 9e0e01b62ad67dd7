import Verif.Spec.PositiveCovariance
import Verif.Proofs.GaussianCovariance
import Verif.Props.Covariance

/-!
# Lemmas for C83: quadratic forms of products of integrals
-/

namespace Coffe
open MeasureTheory Classical

variable {ι κ : Type}

/-- The matrix of the integrals of products is positive semi-definite. -/
theorem gram_nonneg (T : Finset ι) (L : ι → ℝ → ℝ) (hL : ∀ x, Continuous (L x)) (G : ℝ → ℝ) (hG : Continuous G) (h0 : ∀ t, 0 ≤ G t)
    (v : ι → ℝ) : 0 ≤ ∑ x ∈ T, ∑ y ∈ T, v x * v y * ∫ t in (-1 : ℝ)..1, L x t * L y t * G t := by
  have e : ∑ x ∈ T, ∑ y ∈ T, v x * v y * ∫ t in (-1 : ℝ)..1, L x t * L y t * G t
      = ∫ t in (-1 : ℝ)..1, (∑ x ∈ T, v x * L x t) ^ 2 * G t := by
    have e1 : ∀ t, (∑ x ∈ T, v x * L x t) ^ 2 * G t = ∑ x ∈ T, ∑ y ∈ T, v x * v y * (L x t * L y t * G t) := by
      intro t
      rw [sq, Finset.sum_mul_sum, Finset.sum_mul]
      refine Finset.sum_congr rfl fun x _ => ?_
      rw [Finset.sum_mul]
      exact Finset.sum_congr rfl fun y _ => by ring
    simp only [e1]
    have hc : ∀ x y, Continuous fun t => v x * v y * (L x t * L y t * G t) := fun x y =>
      continuous_const.mul (((hL x).mul (hL y)).mul hG)
    rw [intervalIntegral.integral_finsetSum fun x _ => (continuous_finset_sum _ fun y _ => hc x y).intervalIntegrable _ _]
    refine Finset.sum_congr rfl fun x _ => ?_
    rw [intervalIntegral.integral_finsetSum fun y _ => (hc x y).intervalIntegrable _ _]
    exact Finset.sum_congr rfl fun y _ => (intervalIntegral.integral_const_mul _ _).symm
  rw [e]
  exact intervalIntegral.integral_nonneg (by norm_num) fun t _ => mul_nonneg (sq_nonneg _) (h0 t)

/-- So is the product of such a matrix with the one of an integral over wave numbers. -/
theorem gram_mul_nonneg (T : Finset ι) (μ : Measure ℝ) (φ : ℝ → ℝ) (hφ : ∀ q, 0 ≤ φ q) (J : ι → ℝ → ℝ)
    (hI : ∀ x ∈ T, ∀ y ∈ T, Integrable (fun q => φ q * J x q * J y q) μ) (L : ι → ℝ → ℝ) (hL : ∀ x, Continuous (L x))
    (G : ℝ → ℝ) (hG : Continuous G) (h0 : ∀ t, 0 ≤ G t) (c : ι → ℝ) :
    0 ≤ ∑ x ∈ T, ∑ y ∈ T, c x * c y * ((∫ q, φ q * J x q * J y q ∂μ) * ∫ t in (-1 : ℝ)..1, L x t * L y t * G t) := by
  have e : ∑ x ∈ T, ∑ y ∈ T, c x * c y * ((∫ q, φ q * J x q * J y q ∂μ) * ∫ t in (-1 : ℝ)..1, L x t * L y t * G t)
      = ∫ q, ∑ x ∈ T, ∑ y ∈ T, (c x * c y * ∫ t in (-1 : ℝ)..1, L x t * L y t * G t) * (φ q * J x q * J y q) ∂μ := by
    rw [integral_finsetSum _ fun x hx => integrable_finsetSum _ fun y hy => (hI x hx y hy).const_mul _]
    refine Finset.sum_congr rfl fun x hx => ?_
    rw [integral_finsetSum _ fun y hy => (hI x hx y hy).const_mul _]
    refine Finset.sum_congr rfl fun y _ => ?_
    rw [integral_const_mul]; ring
  rw [e]
  refine integral_nonneg fun q => ?_
  have h := mul_nonneg (hφ q) (gram_nonneg T L hL G hG h0 fun x => c x * J x q)
  refine h.trans_eq ?_
  show _ = ∑ x ∈ T, ∑ y ∈ T, _
  rw [Finset.mul_sum]
  refine Finset.sum_congr rfl fun x _ => ?_
  rw [Finset.mul_sum]
  exact Finset.sum_congr rfl fun y _ => by ring

/-- A matrix that is constant and non-negative on the blocks of equal keys, and zero elsewhere. -/
theorem block_nonneg [DecidableEq κ] (T : Finset ι) (key : ι → κ) (f : κ → ℝ) (hf : ∀ x ∈ T, 0 ≤ f (key x)) (w : ι → ℝ) :
    0 ≤ ∑ x ∈ T, ∑ y ∈ T, w x * w y * (if key x = key y then f (key x) else 0) := by
  have e : ∑ x ∈ T, ∑ y ∈ T, w x * w y * (if key x = key y then f (key x) else 0)
      = ∑ t ∈ T.image key, f t * (∑ x ∈ T, if key x = t then w x else 0) ^ 2 := by
    have e1 : ∀ t, f t * (∑ x ∈ T, if key x = t then w x else 0) ^ 2
        = ∑ x ∈ T, ∑ y ∈ T, if key x = t then w x * w y * (if key x = key y then f (key x) else 0) else 0 := by
      intro t
      rw [sq, Finset.sum_mul_sum, Finset.mul_sum]
      refine Finset.sum_congr rfl fun x _ => ?_
      rw [Finset.mul_sum]
      refine Finset.sum_congr rfl fun y _ => ?_
      by_cases h : key x = t
      · subst h
        by_cases h2 : key x = key y
        · simp [h2]; ring
        · simp [h2, Ne.symm h2]
      · simp [h]
    simp only [e1]
    symm
    rw [Finset.sum_comm]
    refine Finset.sum_congr rfl fun x hx => ?_
    rw [Finset.sum_comm]
    refine Finset.sum_congr rfl fun y _ => ?_
    rw [Finset.sum_ite_eq, if_pos (Finset.mem_image_of_mem key hx)]
  rw [e]
  refine Finset.sum_nonneg fun t ht => mul_nonneg ?_ (sq_nonneg _)
  obtain ⟨x, hx, rfl⟩ := Finset.mem_image.1 ht
  exact hf x hx

/-- (-1)^(l/2) -/
noncomputable def halfSign (l : ℕ) : ℝ := (-1) ^ (l / 2)

/-- The sign in front of the cosmic variance is a product when the multipoles have the same parity. -/
theorem sign_tdiv_same (l1 l2 : ℕ) (h : l1 % 2 = l2 % 2) : sign (((l2 : ℤ) - l1).tdiv 2) = halfSign l1 * halfSign l2 := by
  have e : ((l2 : ℤ) - l1).tdiv 2 = (l2 / 2 : ℕ) - (l1 / 2 : ℕ) := by
    have : (l2 : ℤ) - l1 = 2 * ((l2 / 2 : ℕ) - (l1 / 2 : ℕ)) := by omega
    rw [this, Int.mul_tdiv_cancel_left _ (by norm_num)]
  have e2 : sign (((l2 / 2 : ℕ) : ℤ) - (l1 / 2 : ℕ)) = sign ((l1 / 2 + l2 / 2 : ℕ) : ℤ) := by
    unfold sign
    have : (((l2 / 2 : ℕ) : ℤ) - (l1 / 2 : ℕ)).natAbs % 2 = ((l1 / 2 + l2 / 2 : ℕ) : ℤ).natAbs % 2 := by omega
    rw [this]
  rw [e, e2, sign_nat, pow_add]; rfl

/-- Legendre polynomials of different parity are orthogonal with respect to every even weight. -/
theorem legP_parity_zero (l1 l2 : ℕ) (h : l1 % 2 ≠ l2 % 2) (G : ℝ → ℝ) (hG : ∀ t, G (-t) = G t) :
    ∫ t in (-1 : ℝ)..1, legP l1 t * legP l2 t * G t = 0 := by
  have e : ∫ t in (-1 : ℝ)..1, legP l1 t * legP l2 t * G t = ∫ t in (-1 : ℝ)..1, legP l1 (-t) * legP l2 (-t) * G (-t) := by
    rw [intervalIntegral.integral_comp_neg fun t => legP l1 t * legP l2 t * G t]; norm_num
  have o : ((-1 : ℝ)) ^ l1 * (-1) ^ l2 = -1 := by
    rw [← pow_add]
    exact Odd.neg_one_pow (Nat.odd_iff.2 (by omega))
  have e2 : ∀ t, legP l1 (-t) * legP l2 (-t) * G (-t) = -(legP l1 t * legP l2 t * G t) := by
    intro t
    rw [legP_neg, legP_neg, hG]
    linear_combination (legP l1 t * legP l2 t * G t) * o
  simp only [e2, intervalIntegral.integral_neg] at e
  linarith

end Coffe
