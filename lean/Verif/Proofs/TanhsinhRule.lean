import Verif.Proofs.Tanhsinh
import Mathlib.Analysis.SpecialFunctions.Integrals.Basic

/-! Algebra of the estimates of the double-exponential rule. -/

namespace Coffe
open Finset

theorem tsEstimate_congr {f g : ℝ → ℝ} {c d : ℝ} (k : ℕ)
    (h : ∀ x, |x - d| ≤ |c| → f x = g x) : tsEstimate k f c d = tsEstimate k g c d := by
  have hn : ∀ i, |c * tsNode i| ≤ |c| := fun i => by
    rw [abs_mul, abs_of_nonneg (tsNode_nonneg i)]
    exact mul_le_of_le_one_right (abs_nonneg c) (tsNode_le_one i)
  unfold tsEstimate
  rw [h d (by simp)]
  congr 2
  refine Finset.sum_congr rfl fun i _ => ?_
  rw [h (d + c * tsNode i) (by simpa using hn i), h (d - c * tsNode i) (by simpa using hn i)]

theorem tsEstimate_smul (k : ℕ) (a : ℝ) (f : ℝ → ℝ) (c d : ℝ) :
    tsEstimate k (fun x => a * f x) c d = a * tsEstimate k f c d := by
  unfold tsEstimate
  rw [mul_div_assoc', mul_add, Finset.mul_sum]
  congr 2
  · ring
  · exact Finset.sum_congr rfl fun i _ => by ring

theorem tsEstimate_add (k : ℕ) (f g : ℝ → ℝ) (c d : ℝ) :
    tsEstimate k (fun x => f x + g x) c d = tsEstimate k f c d + tsEstimate k g c d := by
  unfold tsEstimate
  rw [← add_div, add_add_add_comm, ← Finset.sum_add_distrib]
  congr 2
  · ring
  · exact Finset.sum_congr rfl fun i _ => by ring

theorem tsEstimate_neg (k : ℕ) (f : ℝ → ℝ) (c d : ℝ) : tsEstimate k f (-c) d = tsEstimate k f c d := by
  unfold tsEstimate
  congr 2
  refine Finset.sum_congr rfl fun i _ => ?_
  rw [neg_mul, sub_neg_eq_add, ← sub_eq_add_neg, add_comm (f (d - _))]

theorem tsEstimate_odd {f : ℝ → ℝ} {c d : ℝ} (k : ℕ)
    (h : ∀ t, |t| ≤ |c| → f (d - t) = - f (d + t)) : tsEstimate k f c d = 0 := by
  have hn : ∀ i, |c * tsNode i| ≤ |c| := fun i => by
    rw [abs_mul, abs_of_nonneg (tsNode_nonneg i)]
    exact mul_le_of_le_one_right (abs_nonneg c) (tsNode_le_one i)
  have h0 : f d = 0 := by
    have := h 0 (by simp)
    simp only [sub_zero, add_zero] at this
    linarith
  unfold tsEstimate
  rw [h0, mul_zero, zero_add, Finset.sum_eq_zero, zero_div]
  intro i _
  rw [h _ (hn i), add_neg_cancel, mul_zero]

theorem tsEstimate_nonneg {f : ℝ → ℝ} {c d : ℝ} (k : ℕ)
    (h : ∀ x, |x - d| ≤ |c| → 0 ≤ f x) : 0 ≤ tsEstimate k f c d := by
  have hn : ∀ i, |c * tsNode i| ≤ |c| := fun i => by
    rw [abs_mul, abs_of_nonneg (tsNode_nonneg i)]
    exact mul_le_of_le_one_right (abs_nonneg c) (tsNode_le_one i)
  unfold tsEstimate
  refine div_nonneg (add_nonneg (mul_nonneg (tsWeight_nonneg 0) (h d (by simp))) ?_) (by positivity)
  refine Finset.sum_nonneg fun i _ => mul_nonneg (tsWeight_nonneg i) ?_
  exact add_nonneg (h _ (by simpa using hn i)) (h _ (by simpa using hn i))

/-! ### Moments of the tables -/

/-- `10^31 * weight`, an integer. -/
def tsWNum (i : ℕ) : ℕ := (ts_weights.getD i (0, 0)).1 * 10 ^ (31 - (ts_weights.getD i (0, 0)).2)
/-- `10^21 * node`, an integer. -/
def nNum (i : ℕ) : ℕ := (ts_nodes.getD i (0, 0)).1 * 10 ^ (21 - (ts_nodes.getD i (0, 0)).2)

theorem ts_weights_exp : ∀ p ∈ ts_weights, p.2 ≤ 31 := by decide +kernel
theorem ts_nodes_exp : ∀ p ∈ ts_nodes, p.2 ≤ 21 := by decide +kernel

theorem getD_mem_or {α : Type} (l : List α) (i : ℕ) (d : α) : l.getD i d ∈ l ∨ l.getD i d = d := by
  by_cases h : i < l.length
  · left; rw [getD_lt _ h]; exact List.getElem_mem h
  · right; rw [List.getD_eq_getElem?_getD, List.getElem?_eq_none (by omega)]; rfl

theorem dec_scale (p : Dec) (K : ℕ) (h : p.2 ≤ K) : p.val = ((p.1 * 10 ^ (K - p.2) : ℕ) : ℝ) / 10 ^ K := by
  unfold Dec.val
  rw [div_eq_div_iff (by positivity) (by positivity)]
  push_cast
  rw [mul_assoc, ← pow_add, Nat.sub_add_cancel h]

theorem tsWeight_eq (i : ℕ) : tsWeight i = (tsWNum i : ℝ) / 10 ^ 31 := by
  refine dec_scale _ 31 ?_
  rcases getD_mem_or ts_weights i (0, 0) with h | h
  · exact ts_weights_exp _ h
  · rw [h]; norm_num

theorem tsNode_eq (i : ℕ) : tsNode i = (nNum i : ℝ) / 10 ^ 21 := by
  refine dec_scale _ 21 ?_
  rcases getD_mem_or ts_nodes i (0, 0) with h | h
  · exact ts_nodes_exp _ h
  · rw [h]; norm_num

/-- Sum of `w n^p` over the given indices, times `10^31 * 10^(21 p)`. -/
def momentNum (p : ℕ) (l : List ℕ) : ℕ := (l.map fun i => tsWNum i * nNum i ^ p).sum

theorem moment_eq (p N : ℕ) : ∑ i ∈ Ico 1 N, tsWeight i * tsNode i ^ p
    = (momentNum p (List.range' 1 (N - 1)) : ℝ) / (10 ^ 31 * 10 ^ (21 * p)) := by
  have h : ∀ i, tsWeight i * tsNode i ^ p = ((tsWNum i * nNum i ^ p : ℕ) : ℝ) / (10 ^ 31 * 10 ^ (21 * p)) := by
    intro i
    rw [tsWeight_eq, tsNode_eq, div_pow, ← pow_mul]; push_cast
    rw [div_mul_div_comm]
  simp only [h]
  rw [← Finset.sum_div, ← Nat.cast_sum]
  congr 2

/-- Zeroth moment. -/
theorem estimate_one (k : ℕ) (c d : ℝ) : tsEstimate k (fun _ => 1) c d =
    ((tsWNum 0 + 2 * momentNum 0 (List.range' 1 (tsCount k - 1)) : ℕ) : ℝ) / 10 ^ 31 / 2 ^ k := by
  unfold tsEstimate
  congr 1
  have := moment_eq 0 (tsCount k)
  simp only [pow_zero, mul_one, mul_zero] at this
  rw [← Finset.sum_mul, this, tsWeight_eq]
  push_cast; ring

/-- Second moment. -/
theorem estimate_sq (k : ℕ) (c d : ℝ) : tsEstimate k (fun x => (x - d) ^ 2) c d =
    c ^ 2 * (((2 * momentNum 2 (List.range' 1 (tsCount k - 1)) : ℕ) : ℝ) / (10 ^ 31 * 10 ^ 42) / 2 ^ k) := by
  unfold tsEstimate
  have := moment_eq 2 (tsCount k)
  have h : ∀ i, tsWeight i * ((d + c * tsNode i - d) ^ 2 + (d - c * tsNode i - d) ^ 2)
      = c ^ 2 * 2 * (tsWeight i * tsNode i ^ 2) := fun i => by ring
  simp only [h]
  rw [← Finset.mul_sum, this]
  push_cast
  simp only [sub_self, ne_eq, OfNat.ofNat_ne_zero, not_false_eq_true, zero_pow, mul_zero, zero_add]
  ring

theorem moment_one_bound (k : ℕ) (h2 : 2 ≤ k) (h6 : k ≤ 6) (c d : ℝ) :
    |tsEstimate k (fun _ => 1) c d - 2| ≤ 1 / 10 ^ 12 := by
  have hb : ∀ k ∈ List.range' 2 5,
      (tsWNum 0 + 2 * momentNum 0 (List.range' 1 (tsCount k - 1))) ≤ 2 ^ k * (2 * 10 ^ 31 + 10 ^ 19) ∧
      2 ^ k * (2 * 10 ^ 31 - 10 ^ 19) ≤ tsWNum 0 + 2 * momentNum 0 (List.range' 1 (tsCount k - 1)) := by
    decide +kernel
  obtain ⟨hu, hl⟩ := hb k (by rw [List.mem_range']; exact ⟨k - 2, by omega, by omega⟩)
  rw [estimate_one]
  generalize tsWNum 0 + 2 * momentNum 0 (List.range' 1 (tsCount k - 1)) = n at hu hl
  have hu' : (n : ℝ) ≤ 2 ^ k * (2 * 10 ^ 31 + 10 ^ 19) := by exact_mod_cast hu
  have hl' : (2 : ℝ) ^ k * (2 * 10 ^ 31 - 10 ^ 19) ≤ n := by
    have h3 : ((2 ^ k * (2 * 10 ^ 31 - 10 ^ 19) : ℕ) : ℝ) ≤ n := by exact_mod_cast hl
    rw [Nat.cast_mul, Nat.cast_sub (by norm_num)] at h3
    push_cast at h3
    refine le_trans (le_of_eq ?_) h3
    norm_num
  have hp : (0 : ℝ) < 2 ^ k := by positivity
  rw [abs_le]
  constructor
  · rw [neg_le_sub_iff_le_add, ← sub_le_iff_le_add, le_div_iff₀ hp, le_div_iff₀ (by positivity)]
    calc _ = (2 : ℝ) ^ k * (2 * 10 ^ 31 - 10 ^ 19) := by ring
      _ ≤ n := hl'
  · rw [sub_le_iff_le_add, div_le_iff₀ hp, div_le_iff₀ (by positivity)]
    calc (n : ℝ) ≤ _ := hu'
      _ = _ := by ring

theorem moment_sq_bound (k : ℕ) (h2 : 2 ≤ k) (h6 : k ≤ 6) (c d : ℝ) :
    |tsEstimate k (fun x => (x - d) ^ 2) c d - 2 / 3 * c ^ 2| ≤ c ^ 2 / 10 ^ 9 := by
  have hb : ∀ k ∈ List.range' 2 5,
      3 * (2 * momentNum 2 (List.range' 1 (tsCount k - 1))) ≤ 2 ^ k * (2 * 10 ^ 73 + 10 ^ 64) ∧
      2 ^ k * (2 * 10 ^ 73 - 10 ^ 64) ≤ 3 * (2 * momentNum 2 (List.range' 1 (tsCount k - 1))) := by
    decide +kernel
  obtain ⟨hu, hl⟩ := hb k (by rw [List.mem_range']; exact ⟨k - 2, by omega, by omega⟩)
  rw [estimate_sq]
  generalize 2 * momentNum 2 (List.range' 1 (tsCount k - 1)) = n at hu hl
  have hu' : 3 * (n : ℝ) ≤ 2 ^ k * (2 * 10 ^ 73 + 10 ^ 64) := by exact_mod_cast hu
  have hl' : (2 : ℝ) ^ k * (2 * 10 ^ 73 - 10 ^ 64) ≤ 3 * n := by
    have h3 : ((2 ^ k * (2 * 10 ^ 73 - 10 ^ 64) : ℕ) : ℝ) ≤ ((3 * n : ℕ) : ℝ) := by exact_mod_cast hl
    rw [Nat.cast_mul, Nat.cast_sub (by norm_num)] at h3
    push_cast at h3
    refine le_trans (le_of_eq ?_) h3
    norm_num
  have hp : (0 : ℝ) < 2 ^ k := by positivity
  have key : |(n : ℝ) / (10 ^ 31 * 10 ^ 42) / 2 ^ k - 2 / 3| ≤ 1 / 10 ^ 9 := by
    rw [abs_le]
    constructor
    · rw [neg_le_sub_iff_le_add, ← sub_le_iff_le_add, le_div_iff₀ hp, le_div_iff₀ (by positivity)]
      nlinarith [hl', hp]
    · rw [sub_le_iff_le_add, div_le_iff₀ hp, div_le_iff₀ (by positivity)]
      nlinarith [hu', hp]
  have hc : c ^ 2 * ((n : ℝ) / (10 ^ 31 * 10 ^ 42) / 2 ^ k) - 2 / 3 * c ^ 2
      = c ^ 2 * ((n : ℝ) / (10 ^ 31 * 10 ^ 42) / 2 ^ k - 2 / 3) := by ring
  rw [hc, abs_mul, abs_of_nonneg (sq_nonneg c)]
  calc _ ≤ c ^ 2 * (1 / 10 ^ 9) := mul_le_mul_of_nonneg_left key (sq_nonneg c)
    _ = _ := by ring

end Coffe
