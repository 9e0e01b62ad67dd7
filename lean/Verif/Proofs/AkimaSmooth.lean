import Verif.Proofs.Akima
import Mathlib.Analysis.Calculus.Deriv.Mul
import Mathlib.Analysis.Calculus.Deriv.Add
import Mathlib.Analysis.Calculus.Deriv.Pow
import Mathlib.Analysis.Calculus.Deriv.Comp
import Mathlib.Tactic.NormNum
import Mathlib.Tactic.LinearCombination

/-! # The Akima spline reproduces lines and parabolas; its derivative at the samples -/

namespace Coffe.Akima

theorem slope_const {x y : ℕ → ℝ} {n : ℕ} {c : ℝ} (hs : ∀ i, i + 1 < n → seg x y i = c) (hn : 3 ≤ n) (j : ℕ) :
    slope x y n j = c := by
  match j with
  | 0 => show 3 * seg x y 0 - 2 * seg x y 1 = c; rw [hs 0 (by omega), hs 1 (by omega)]; ring
  | 1 => show 2 * seg x y 0 - seg x y 1 = c; rw [hs 0 (by omega), hs 1 (by omega)]; ring
  | j + 2 =>
    show (if j < n - 1 then seg x y j
      else if j = n - 1 then 2 * seg x y (n - 2) - seg x y (n - 3)
      else 3 * seg x y (n - 2) - 2 * seg x y (n - 3)) = c
    by_cases h1 : j < n - 1
    · rw [if_pos h1, hs j (by omega)]
    · rw [if_neg h1, hs (n - 2) (by omega), hs (n - 3) (by omega)]
      split_ifs <;> ring

theorem segment_le (x : ℕ → ℝ) (n : ℕ) (z : ℝ) : segment x n z ≤ n - 2 := by
  classical
  have := Nat.findGreatest_le (P := fun i => x i ≤ z) (n - 2)
  unfold segment
  convert this

/-- Samples on a straight line give that line. -/
theorem eval_line {x y : ℕ → ℝ} {n : ℕ} {α β : ℝ} (hx : ∀ j k, j < k → k < n → x j < x k)
    (hy : ∀ i, i < n → y i = α + β * x i) (hn : 3 ≤ n) (z : ℝ) : eval x y n z = α + β * z := by
  have hs : ∀ i, i + 1 < n → seg x y i = β := by
    intro i hi
    have h0 : x (i + 1) - x i ≠ 0 := by linarith [hx i (i + 1) (by omega) hi]
    unfold seg
    rw [hy _ hi, hy i (by omega)]
    field_simp
    ring
  have hm := slope_const hs hn
  have hseg := segment_le x n z
  unfold eval cubic
  dsimp only
  have hw : weight (slope x y n) (segment x n z) = 0 := by
    unfold weight
    simp only [hm, sub_self, abs_zero, add_zero]
  rw [if_pos hw, if_pos hw, if_pos hw, hm, hy _ (by omega)]
  ring

/-- Samples of a parabola at equidistant points give that parabola. -/
theorem eval_parabola {x y : ℕ → ℝ} {n : ℕ} {a h α β γ : ℝ} (hh : 0 < h) (hx : ∀ i, i < n → x i = a + h * i)
    (hy : ∀ i, i < n → y i = α + β * x i + γ * x i ^ 2) (hn : 3 ≤ n) (z : ℝ) :
    eval x y n z = α + β * z + γ * z ^ 2 := by
  have hinc : ∀ j k, j < k → k < n → x j < x k := by
    intro j k h1 h2
    rw [hx j (by omega), hx k h2]
    have : (j : ℝ) < k := by exact_mod_cast h1
    nlinarith
  rcases eq_or_ne γ 0 with rfl | hγ
  · rw [eval_line (α := α) (β := β) hinc (fun i hi => by rw [hy i hi]; ring) hn]
    ring
  have hs : ∀ i, i + 1 < n → seg x y i = β + γ * (2 * a + h * (2 * i + 1)) := by
    intro i hi
    unfold seg
    rw [hy _ hi, hy i (by omega), hx _ hi, hx i (by omega)]
    push_cast
    rw [show a + h * ((i : ℝ) + 1) - (a + h * i) = h by ring, div_eq_iff hh.ne']
    ring
  have hm : ∀ j, j ≤ n + 2 → slope x y n j = β + γ * (2 * a + h * (2 * j - 3)) := by
    intro j hj
    match j with
    | 0 => show 3 * seg x y 0 - 2 * seg x y 1 = _; rw [hs 0 (by omega), hs 1 (by omega)]; push_cast; ring
    | 1 => show 2 * seg x y 0 - seg x y 1 = _; rw [hs 0 (by omega), hs 1 (by omega)]; push_cast; ring
    | j + 2 =>
      show (if j < n - 1 then seg x y j
        else if j = n - 1 then 2 * seg x y (n - 2) - seg x y (n - 3)
        else 3 * seg x y (n - 2) - 2 * seg x y (n - 3)) = _
      by_cases h1 : j < n - 1
      · rw [if_pos h1, hs j (by omega)]; push_cast; ring
      · rw [if_neg h1, hs (n - 2) (by omega), hs (n - 3) (by omega)]
        obtain ⟨k, rfl⟩ : ∃ k, n = k + 3 := ⟨n - 3, by omega⟩
        simp only [show k + 3 - 2 = k + 1 by omega, show k + 3 - 3 = k by omega, show k + 3 - 1 = k + 2 by omega]
        split_ifs with h2
        · rw [h2]; push_cast; ring
        · obtain rfl : j = k + 3 := by omega
          push_cast; ring
  have hd : |2 * γ * h| ≠ 0 := abs_ne_zero.2 (by positivity)
  have hwt : ∀ i, i + 1 ≤ n → weight (slope x y n) i = 2 * |2 * γ * h| := by
    intro i hi
    unfold weight
    rw [hm (i + 3) (by omega), hm (i + 2) (by omega), hm (i + 1) (by omega), hm i (by omega), two_mul]
    push_cast
    congr 2 <;> ring
  have hl : ∀ i, i + 1 ≤ n → left (slope x y n) i = β + γ * (2 * a + 2 * h * i) := by
    intro i hi
    unfold left
    rw [hwt i hi, hm (i + 2) (by omega), hm (i + 1) (by omega), hm i (by omega)]
    push_cast
    rw [show β + γ * (2 * a + h * (2 * ((i : ℝ) + 1) - 3)) - (β + γ * (2 * a + h * (2 * i - 3))) = 2 * γ * h by ring,
      show |2 * γ * h| / (2 * |2 * γ * h|) = 1 / 2 by field_simp]
    ring
  have hseg := segment_le x n z
  unfold eval
  generalize segment x n z = i at *
  have hwi : weight (slope x y n) i ≠ 0 := by rw [hwt i (by omega)]; exact mul_ne_zero two_ne_zero hd
  have hr : right (slope x y n) i = β + γ * (2 * a + 2 * h * (i + 1)) := by
    unfold right
    rw [if_neg (by rw [hwt (i + 1) (by omega)]; exact mul_ne_zero two_ne_zero hd), hl (i + 1) (by omega)]
    push_cast
    ring
  unfold cubic
  dsimp only
  rw [if_neg hwi, if_neg hwi, if_neg hwi, hr, hl i (by omega), hm (i + 2) (by omega), hy i (by omega), hx (i + 1) (by omega),
    hx i (by omega)]
  push_cast
  rw [show a + h * ((i : ℝ) + 1) - (a + h * i) = h by ring]
  field_simp
  ring

theorem cubic_deriv (p q c e t : ℝ) :
    HasDerivAt (fun d => p + d * (q + d * (c + e * d))) (q + 2 * c * t + 3 * e * t ^ 2) t := by
  have := ((hasDerivAt_id t).mul (((hasDerivAt_id t).mul (((hasDerivAt_id t).const_mul e).const_add c)).const_add q)).const_add p
  refine (this.congr_deriv ?_)
  simp only [id_eq, Pi.mul_apply]
  ring

theorem cubic_deriv_left (x y m : ℕ → ℝ) (i : ℕ) (hw : weight m i ≠ 0) : HasDerivAt (cubic x y m i) (left m i) 0 := by
  have := cubic_deriv (y i) (left m i) ((3 * m (i + 2) - 2 * left m i - right m i) / (x (i + 1) - x i))
    ((left m i + right m i - 2 * m (i + 2)) / ((x (i + 1) - x i) * (x (i + 1) - x i))) 0
  unfold cubic
  simp only [if_neg hw]
  exact this.congr_deriv (by ring)

theorem cubic_deriv_right {x y m : ℕ → ℝ} {i : ℕ} (hx : x i < x (i + 1)) (hw : weight m (i + 1) ≠ 0) :
    HasDerivAt (cubic x y m i) (left m (i + 1)) (x (i + 1) - x i) := by
  have h0 : x (i + 1) - x i ≠ 0 := by linarith
  have hr : right m i = left m (i + 1) := if_neg hw
  by_cases hi : weight m i = 0
  · have := cubic_deriv (y i) (m (i + 2)) 0 0 (x (i + 1) - x i)
    unfold cubic
    simp only [if_pos hi]
    refine this.congr_deriv ?_
    have h3 : m (i + 3) = m (i + 2) := by
      unfold weight at hi
      have := (add_eq_zero_iff_of_nonneg (abs_nonneg _) (abs_nonneg _)).1 hi
      linarith [abs_eq_zero.1 this.1]
    unfold left
    rw [show i + 1 + 1 = i + 2 from rfl, show i + 1 + 2 = i + 3 from rfl, h3]
    ring
  · have := cubic_deriv (y i) (left m i) ((3 * m (i + 2) - 2 * left m i - right m i) / (x (i + 1) - x i))
      ((left m i + right m i - 2 * m (i + 2)) / ((x (i + 1) - x i) * (x (i + 1) - x i))) (x (i + 1) - x i)
    unfold cubic
    simp only [if_neg hi]
    refine this.congr_deriv ?_
    rw [← hr]
    field_simp
    ring

/-- The derivative at an inner sample. -/
theorem eval_deriv {x y : ℕ → ℝ} {n i : ℕ} (hx : ∀ j k, j < k → k < n → x j < x k) (hi : i + 2 < n)
    (hw : weight (slope x y n) (i + 1) ≠ 0) :
    HasDerivAt (eval x y n) (left (slope x y n) (i + 1)) (x (i + 1)) := by
  have h1 := hx i (i + 1) (by omega) (by omega)
  have h2 := hx (i + 1) (i + 2) (by omega) (by omega)
  have a : HasDerivWithinAt (eval x y n) (left (slope x y n) (i + 1)) (Set.Icc (x i) (x (i + 1))) (x (i + 1)) := by
    have := (cubic_deriv_right (y := y) h1 hw).comp_sub_const (x (i + 1)) (x i)
    exact this.hasDerivWithinAt.congr (fun z hz => eval_inside hx (by omega) hz.1 hz.2)
      (eval_inside hx (by omega) h1.le le_rfl)
  have b : HasDerivWithinAt (eval x y n) (left (slope x y n) (i + 1)) (Set.Icc (x (i + 1)) (x (i + 2))) (x (i + 1)) := by
    have h0 : HasDerivAt (cubic x y (slope x y n) (i + 1)) (left (slope x y n) (i + 1)) (x (i + 1) - x (i + 1)) := by
      rw [sub_self]; exact cubic_deriv_left x y _ (i + 1) hw
    have := h0.comp_sub_const (x (i + 1)) (x (i + 1))
    exact this.hasDerivWithinAt.congr (fun z hz => eval_inside hx (by omega) hz.1 hz.2)
      (eval_inside hx (by omega) le_rfl h2.le)
  have := a.union b
  rw [Set.Icc_union_Icc_eq_Icc h1.le h2.le] at this
  exact this.hasDerivAt (Icc_mem_nhds h1 h2)

end Coffe.Akima
