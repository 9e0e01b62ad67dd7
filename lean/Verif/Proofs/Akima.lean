import Verif.Model.C.Akima
import Mathlib.Tactic.Linarith
import Mathlib.Tactic.FieldSimp
import Mathlib.Tactic.Ring
import Mathlib.Topology.ContinuousOn
import Mathlib.Topology.Algebra.Ring.Real
import Mathlib.Topology.Order.OrderClosed

/-! # The Akima spline goes through its samples -/

namespace Coffe.Akima

theorem segment_node {x : ℕ → ℝ} {n i : ℕ} (hx : ∀ j k, j < k → k < n → x j < x k) (hi : i + 2 ≤ n) :
    segment x n (x i) = i := by
  classical
  unfold segment
  rw [Nat.findGreatest_eq_iff]
  refine ⟨by omega, fun _ => le_rfl, fun k h1 h2 h3 => ?_⟩
  exact absurd h3 (not_le.2 (hx i k h1 (by omega)))

theorem segment_last {x : ℕ → ℝ} {n : ℕ} (hx : ∀ j k, j < k → k < n → x j < x k) (hn : 2 ≤ n) :
    segment x n (x (n - 1)) = n - 2 := by
  classical
  unfold segment
  rw [Nat.findGreatest_eq_iff]
  refine ⟨le_rfl, fun _ => (hx _ _ (by omega) (by omega)).le, fun k h1 h2 => by omega⟩

theorem cubic_left (x y m : ℕ → ℝ) (i : ℕ) : cubic x y m i 0 = y i := by
  unfold cubic
  ring

theorem cubic_right {x y : ℕ → ℝ} {n i : ℕ} (hx : x i < x (i + 1)) (hi : i + 1 < n) :
    cubic x y (slope x y n) i (x (i + 1) - x i) = y (i + 1) := by
  have hm : slope x y n (i + 2) = seg x y i := by
    show (if i < n - 1 then seg x y i else _) = _
    rw [if_pos (by omega)]
  have h0 : x (i + 1) - x i ≠ 0 := by linarith
  have hs : (x (i + 1) - x i) * seg x y i = y (i + 1) - y i := by
    unfold seg
    field_simp
  unfold cubic
  dsimp only
  rw [hm]
  by_cases hw : weight (slope x y n) i = 0
  · simp only [if_pos hw]
    linear_combination hs
  · simp only [if_neg hw]
    generalize left (slope x y n) i = b
    generalize right (slope x y n) i = r
    have e1 : (3 * seg x y i - 2 * b - r) / (x (i + 1) - x i) +
        (b + r - 2 * seg x y i) / ((x (i + 1) - x i) * (x (i + 1) - x i)) * (x (i + 1) - x i) =
        (seg x y i - b) / (x (i + 1) - x i) := by
      field_simp
      ring
    rw [e1, mul_div_cancel₀ _ h0]
    linear_combination hs

/-- The spline takes the sampled values at the samples. -/
theorem eval_node {x y : ℕ → ℝ} {n i : ℕ} (hx : ∀ j k, j < k → k < n → x j < x k) (hn : 2 ≤ n) (hi : i < n) :
    eval x y n (x i) = y i := by
  unfold eval
  by_cases h : i + 2 ≤ n
  · rw [segment_node hx h, sub_self, cubic_left]
  · obtain rfl : i = n - 1 := by omega
    rw [segment_last hx hn]
    obtain ⟨k, rfl⟩ : ∃ k, n = k + 2 := ⟨n - 2, by omega⟩
    exact cubic_right (hx k (k + 1) (by omega) (by omega)) (by omega)

theorem slope_zero {x y : ℕ → ℝ} {n : ℕ} (hs : ∀ i, i + 1 < n → seg x y i = 0) (hn : 3 ≤ n) (j : ℕ) :
    slope x y n j = 0 := by
  match j with
  | 0 => show 3 * seg x y 0 - 2 * seg x y 1 = 0; rw [hs 0 (by omega), hs 1 (by omega)]; ring
  | 1 => show 2 * seg x y 0 - seg x y 1 = 0; rw [hs 0 (by omega), hs 1 (by omega)]; ring
  | j + 2 =>
    show (if j < n - 1 then seg x y j
      else if j = n - 1 then 2 * seg x y (n - 2) - seg x y (n - 3)
      else 3 * seg x y (n - 2) - 2 * seg x y (n - 3)) = 0
    by_cases h1 : j < n - 1
    · rw [if_pos h1, hs j (by omega)]
    · rw [if_neg h1, hs (n - 2) (by omega), hs (n - 3) (by omega)]
      split_ifs <;> ring

/-- Equal samples give a constant function. -/
theorem eval_const {x y : ℕ → ℝ} {n : ℕ} {c : ℝ} (hy : ∀ i, i < n → y i = c) (hn : 3 ≤ n) (z : ℝ) :
    eval x y n z = c := by
  have hs : ∀ i, i + 1 < n → seg x y i = 0 := by
    intro i hi
    unfold seg
    rw [hy _ hi, hy i (by omega), sub_self, zero_div]
  have hm := slope_zero hs hn
  have hseg : segment x n z < n := by
    classical
    have := Nat.findGreatest_le (P := fun i => x i ≤ z) (n - 2)
    unfold segment
    convert (show Nat.findGreatest (fun i => x i ≤ z) (n - 2) < n by omega)
  unfold eval cubic
  dsimp only
  have hw : weight (slope x y n) (segment x n z) = 0 := by
    unfold weight
    simp only [hm, sub_self, abs_zero, add_zero]
  rw [if_pos hw, if_pos hw, if_pos hw, hm, hy _ hseg]
  ring

theorem segment_inside {x : ℕ → ℝ} {n i : ℕ} {z : ℝ} (hx : ∀ j k, j < k → k < n → x j < x k) (hi : i + 2 ≤ n)
    (h1 : x i ≤ z) (h2 : z < x (i + 1)) : segment x n z = i := by
  classical
  unfold segment
  rw [Nat.findGreatest_eq_iff]
  refine ⟨by omega, fun _ => h1, fun k h3 h4 h5 => ?_⟩
  rcases Nat.lt_or_ge (i + 1) k with h | h
  · have := hx (i + 1) k h (by omega)
    linarith
  · obtain rfl : k = i + 1 := by omega
    linarith

theorem eval_inside {x y : ℕ → ℝ} {n i : ℕ} {z : ℝ} (hx : ∀ j k, j < k → k < n → x j < x k) (hi : i + 2 ≤ n)
    (h1 : x i ≤ z) (h2 : z ≤ x (i + 1)) : eval x y n z = cubic x y (slope x y n) i (z - x i) := by
  rcases h2.lt_or_eq with h | rfl
  · unfold eval
    rw [segment_inside hx hi h1 h]
  · rw [eval_node hx (by omega) (by omega), cubic_right (hx i (i + 1) (by omega) (by omega)) (by omega)]

theorem cubic_continuous (x y m : ℕ → ℝ) (i : ℕ) : Continuous (cubic x y m i) := by
  unfold cubic
  fun_prop

theorem eval_continuous {x y : ℕ → ℝ} {n : ℕ} (hx : ∀ j k, j < k → k < n → x j < x k) :
    ∀ k, k < n → ContinuousOn (eval x y n) (Set.Icc (x 0) (x k))
  | 0, _ => by
    rw [Set.Icc_self]
    exact continuousOn_singleton _ _
  | k + 1, hk => by
    have h0 : x 0 ≤ x k := by
      rcases Nat.eq_zero_or_pos k with rfl | h
      · exact le_rfl
      · exact (hx 0 k h (by omega)).le
    rw [← Set.Icc_union_Icc_eq_Icc h0 (hx k (k + 1) (by omega) hk).le]
    refine (eval_continuous hx k (by omega)).union_of_isClosed ?_ isClosed_Icc isClosed_Icc
    have : ContinuousOn (fun z => cubic x y (slope x y n) k (z - x k)) (Set.Icc (x k) (x (k + 1))) :=
      ((cubic_continuous x y _ k).comp (continuous_id.sub continuous_const)).continuousOn
    exact this.congr fun z hz => eval_inside hx (by omega) hz.1 hz.2

end Coffe.Akima

namespace Coffe

theorem akimaSpline_node {l : Samples} (hx : (l.map Prod.fst).Pairwise (· < ·)) (hl : 2 ≤ l.length) {i : ℕ}
    (hi : i < l.length) : akimaSpline l l[i].1 = l[i].2 := by
  have h1 : ∀ j, (hj : j < l.length) → l.getD j (0, 0) = l[j] := by
    intro j hj
    simp [List.getD, List.getElem?_eq_getElem hj]
  have := Akima.eval_node (x := fun i => (l.getD i (0, 0)).1) (y := fun i => (l.getD i (0, 0)).2)
    (n := l.length) (i := i) (by
      intro j k hjk hk
      have := List.pairwise_iff_getElem.1 hx j k (by simpa using by omega) (by simpa using hk) hjk
      rw [h1 j (by omega), h1 k hk]
      simpa using this) hl hi
  rw [h1 i hi] at this
  exact this

end Coffe
