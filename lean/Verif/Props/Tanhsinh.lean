import Verif.Proofs.TanhsinhRule

/-!
# C36: the double-exponential integrator

`coffe_integrate_1d_prec_double_exponential f a b prec` is what every one-dimensional integral of the code uses
when `integration_1d_type` is `exponential`.
-/

namespace Coffe
open Finset Set

private theorem mid_iff {a b x : ℝ} : |x - 1 / 2 * (b + a)| ≤ |1 / 2 * (b - a)| ↔ x ∈ uIcc a b := by
  rcases le_total a b with h | h
  · rw [uIcc_of_le h, abs_of_nonneg (show 0 ≤ 1 / 2 * (b - a) by linarith), abs_le, Set.mem_Icc]
    constructor <;> rintro ⟨h1, h2⟩ <;> constructor <;> linarith
  · rw [uIcc_of_ge h, abs_of_nonpos (show 1 / 2 * (b - a) ≤ 0 by linarith), abs_le, Set.mem_Icc]
    constructor <;> rintro ⟨h1, h2⟩ <;> constructor <;> linarith

private theorem de_ok (f : ℝ → ℝ) (a b p : ℝ) : ∃ k,
    coffe_integrate_1d_prec_double_exponential f a b p
      = .ok (1 / 2 * (b - a) * tsEstimate k f (1 / 2 * (b - a)) (1 / 2 * (b + a))) ∧
    TsStops f (1 / 2 * (b - a)) (1 / 2 * (b + a)) k := by
  obtain ⟨r, k, hr, h2, h6, hres, -, -, hs⟩ := ts_integrate_ok f (1 / 2 * (b - a)) (1 / 2 * (b + a)) 0
  refine ⟨k, ?_, hs rfl⟩
  simp only [coffe_integrate_1d_prec_double_exponential, tanhsinh_quad, hr, bind, Except.bind, pure, Except.pure,
    hres]

/-- C36: for every function, interval and tolerance the integrator ends, makes at most 385 evaluations, reports
that number, evaluates the function only in the closed interval between the endpoints, and returns the estimate of
one of the levels two to six of the trapezoidal rule. -/
theorem C36_samples (f : ℝ → ℝ) (a b abs_err : ℝ) :
    ∃ r k, tanhsinh_quad f a b abs_err = .ok r ∧ 2 ≤ k ∧ k ≤ 6 ∧
      r.result = (b - a) / 2 * tsEstimate k f ((b - a) / 2) ((a + b) / 2) ∧
      r.num_eval = r.calls.length ∧ r.calls.length ≤ 385 ∧ ∀ x ∈ r.calls, x ∈ uIcc a b := by
  obtain ⟨r, k, hr, h2, h6, hres, hn, hc, -⟩ :=
    ts_integrate_ok f (1 / 2 * (b - a)) (1 / 2 * (b + a)) abs_err
  have hg := tsCount_ge (show k < 7 by omega)
  have hl := tsCount_le (show k < 7 by omega)
  have hlen : r.calls.length = 2 * tsCount k - 1 := by rw [hc, List.length_cons, tsPts_length]; omega
  refine ⟨r, k, hr, h2, h6, ?_, by rw [hn, hlen], by omega, ?_⟩
  · rw [hres, show (b - a) / 2 = 1 / 2 * (b - a) by ring, show (a + b) / 2 = 1 / 2 * (b + a) by ring]
  · intro x hx
    rw [← mid_iff]
    rw [hc, List.mem_cons] at hx
    rcases hx with rfl | hx
    · simp
    · rw [tsPts, List.mem_flatMap] at hx
      obtain ⟨i, -, hx⟩ := hx
      have hni : |1 / 2 * (b - a) * tsNode i| ≤ |1 / 2 * (b - a)| := by
        rw [abs_mul, abs_of_nonneg (tsNode_nonneg i)]
        exact mul_le_of_le_one_right (abs_nonneg _) (tsNode_le_one i)
      simp only [List.mem_cons, List.not_mem_nil, or_false] at hx
      rcases hx with rfl | rfl
      · simpa using hni
      · simpa using hni

/-- C36: the result depends only on the values of the function in the closed interval (so the integrand need not be
defined elsewhere). -/
theorem C36_local (f g : ℝ → ℝ) (a b abs_err : ℝ) (h : ∀ x ∈ uIcc a b, f x = g x) :
    tanhsinh_quad f a b abs_err = tanhsinh_quad g a b abs_err := by
  have hfg : ∀ x, |x - 1 / 2 * (b + a)| ≤ |1 / 2 * (b - a)| → f x = g x := fun x hx => h x (mid_iff.1 hx)
  unfold tanhsinh_quad
  generalize 1 / 2 * (b - a) = c at *
  generalize 1 / 2 * (b + a) = d at *
  have hn : ∀ i, |c * tsNode i| ≤ |c| := fun i => by
    rw [abs_mul, abs_of_nonneg (tsNode_nonneg i)]
    exact mul_le_of_le_one_right (abs_nonneg c) (tsNode_le_one i)
  have hsum : ∀ lo hi, tsSum f c d lo hi = tsSum g c d lo hi := by
    intro lo hi
    refine Finset.sum_congr rfl fun i _ => ?_
    rw [hfg (c * tsNode i + d) (by simpa using hn i), hfg (-c * tsNode i + d) (by simpa using hn i)]
  have hpan : ∀ level, level < 7 → ∀ s, ts_panel f c d level s = ts_panel g c d level s := by
    intro level hl s
    rcases level with _ | m
    · rw [ts_panel_ok f c d 0 1 (tsCount 0) ts_ld_offset0 (ts_ld_offset 0 (by omega)) (by simp [tsCount])
        (by simp [tsCount]), ts_panel_ok g c d 0 1 (tsCount 0) ts_ld_offset0 (ts_ld_offset 0 (by omega))
        (by simp [tsCount]) (by simp [tsCount]), hsum]
    · rw [ts_panel_ok f c d (m + 1) _ _ (ts_ld_offset m (by omega)) (ts_ld_offset (m + 1) (by omega))
        (tsCount_mono (Nat.le_succ m) (by omega)) (tsCount_le (by omega)),
        ts_panel_ok g c d (m + 1) _ _ (ts_ld_offset m (by omega)) (ts_ld_offset (m + 1) (by omega))
        (tsCount_mono (Nat.le_succ m) (by omega)) (tsCount_le (by omega)), hsum]
  have hlev : ∀ (l : List ℕ), (∀ level ∈ l, level < 7) → ∀ s,
      ts_levels f c d abs_err l s = ts_levels g c d abs_err l s := by
    intro l
    induction l with
    | nil => intro _ _; rfl
    | cons a l ih =>
      intro hl s
      have ih' := ih fun x hx => hl x (List.mem_cons_of_mem a hx)
      simp only [ts_levels, hpan a (hl a List.mem_cons_self), ih']
  have h0 : ∀ x : ℝ, x = d → f x = g x := fun x hx => hfg x (by simp [hx])
  obtain ⟨n0, hn0, hnv⟩ := ts_ld_node (i := 0) (by norm_num)
  have hx : c * n0.val + d = d := by rw [hnv, ts_node_zero]; ring
  unfold ts_integrate
  generalize ld ts_nodes 0 = q at hn0
  subst hn0
  have h7 : ∀ level ∈ upTo 1 ts_num_levels, level < 7 := by
    intro level hl
    have := (mem_upTo.1 hl).2
    rwa [show ts_num_levels = 7 from rfl] at this
  simp only [bind, Except.bind, hpan 0 (by omega), hlev _ h7, hx, h0 d rfl]

/-- Non-trivial case: two functions that agree on `[0, 1]` and differ elsewhere. -/
example : tanhsinh_quad (fun x => x) 0 1 0 = tanhsinh_quad (fun x => |x|) 0 1 0 :=
  C36_local _ _ 0 1 0 fun x hx => by
    rw [Set.uIcc_of_le zero_le_one] at hx; exact (abs_of_nonneg hx.1).symm

/-- C36: multiplying the function by a constant multiplies the integral. -/
theorem C36_homogeneous (f : ℝ → ℝ) (k a b p : ℝ) :
    ∃ v, coffe_integrate_1d_prec_double_exponential f a b p = .ok v ∧
      coffe_integrate_1d_prec_double_exponential (fun x => k * f x) a b p = .ok (k * v) := by
  obtain ⟨i, hi, hsi⟩ := de_ok f a b p
  obtain ⟨j, hj, hsj⟩ := de_ok (fun x => k * f x) a b p
  refine ⟨_, hi, ?_⟩
  rw [hj, tsEstimate_smul]
  by_cases hk : k = 0
  · simp [hk]
  · have : i = j := hsi.unique hsj fun m _ _ => by
      rw [tsEstimate_smul, tsEstimate_smul, mul_right_inj' hk]
    subst this
    congr 1; ring

/-- C36: a function that is odd about the midpoint of the interval integrates to zero. -/
theorem C36_odd (f : ℝ → ℝ) (a b p : ℝ) (h : ∀ x ∈ uIcc a b, f (a + b - x) = - f x) :
    coffe_integrate_1d_prec_double_exponential f a b p = .ok 0 := by
  obtain ⟨i, hi, -⟩ := de_ok f a b p
  rw [hi, tsEstimate_odd, mul_zero]
  intro t ht
  have := h (1 / 2 * (b + a) + t) (mid_iff.1 (by simpa using ht))
  rw [← this]; congr 1; ring

example : coffe_integrate_1d_prec_double_exponential (fun x => (x - 2) ^ 3) 1 3 0 = .ok 0 :=
  C36_odd _ _ _ _ fun x _ => by ring

/-- C36: exchanging the endpoints changes the sign. -/
theorem C36_exchange (f : ℝ → ℝ) (a b p : ℝ) :
    ∃ v, coffe_integrate_1d_prec_double_exponential f a b p = .ok v ∧
      coffe_integrate_1d_prec_double_exponential f b a p = .ok (-v) := by
  obtain ⟨i, hi, hsi⟩ := de_ok f a b p
  obtain ⟨j, hj, hsj⟩ := de_ok f b a p
  have hc : 1 / 2 * (a - b) = -(1 / 2 * (b - a)) := by ring
  have hd : 1 / 2 * (a + b) = 1 / 2 * (b + a) := by ring
  rw [hc, hd] at hj hsj
  have : i = j := hsi.unique hsj fun m _ _ => by rw [tsEstimate_neg, tsEstimate_neg]
  subst this
  refine ⟨_, hi, ?_⟩
  rw [hj, tsEstimate_neg, neg_mul]

/-- C36: the integral over an empty interval is zero. -/
theorem C36_empty (f : ℝ → ℝ) (a p : ℝ) : coffe_integrate_1d_prec_double_exponential f a a p = .ok 0 := by
  obtain ⟨i, hi, -⟩ := de_ok f a a p
  rw [hi]; simp

/-- C36: the integral of a function that is nowhere negative is not negative. -/
theorem C36_nonneg (f : ℝ → ℝ) (a b p : ℝ) (hab : a ≤ b) (h : ∀ x ∈ uIcc a b, 0 ≤ f x) :
    ∃ v, coffe_integrate_1d_prec_double_exponential f a b p = .ok v ∧ 0 ≤ v := by
  obtain ⟨i, hi, -⟩ := de_ok f a b p
  exact ⟨_, hi, mul_nonneg (by linarith) (tsEstimate_nonneg i fun x hx => h x (mid_iff.1 hx))⟩

/-- C36 (additivity), proved for functions whose successive estimates never agree exactly before the last level, as
for the sum.  Missing: the case in which one of the three stops early, see `C36_additive_false`. -/
theorem C36_additive_partial (f g : ℝ → ℝ) (a b p : ℝ)
    (hf : ∀ j, 2 ≤ j → j < 6 →
      tsEstimate j f ((b - a) / 2) ((a + b) / 2) ≠ tsEstimate (j - 1) f ((b - a) / 2) ((a + b) / 2))
    (hg : ∀ j, 2 ≤ j → j < 6 →
      tsEstimate j g ((b - a) / 2) ((a + b) / 2) ≠ tsEstimate (j - 1) g ((b - a) / 2) ((a + b) / 2))
    (hfg : ∀ j, 2 ≤ j → j < 6 → tsEstimate j (fun x => f x + g x) ((b - a) / 2) ((a + b) / 2)
      ≠ tsEstimate (j - 1) (fun x => f x + g x) ((b - a) / 2) ((a + b) / 2)) :
    ∃ u v, coffe_integrate_1d_prec_double_exponential f a b p = .ok u ∧
      coffe_integrate_1d_prec_double_exponential g a b p = .ok v ∧
      coffe_integrate_1d_prec_double_exponential (fun x => f x + g x) a b p = .ok (u + v) := by
  have key : ∀ h : ℝ → ℝ, (∀ j, 2 ≤ j → j < 6 →
      tsEstimate j h ((b - a) / 2) ((a + b) / 2) ≠ tsEstimate (j - 1) h ((b - a) / 2) ((a + b) / 2)) →
      coffe_integrate_1d_prec_double_exponential h a b p
        = .ok (1 / 2 * (b - a) * tsEstimate 6 h (1 / 2 * (b - a)) (1 / 2 * (b + a))) := by
    intro h hh
    rw [show (b - a) / 2 = 1 / 2 * (b - a) by ring, show (a + b) / 2 = 1 / 2 * (b + a) by ring] at hh
    obtain ⟨i, hi, h2, h6, hs, -⟩ := de_ok h a b p
    rcases hs with rfl | hs
    · exact hi
    · rcases Nat.lt_or_ge i 6 with hlt | hge
      · exact absurd hs (hh i h2 hlt)
      · obtain rfl : i = 6 := by omega
        exact hi
  refine ⟨_, _, key f hf, key g hg, ?_⟩
  rw [key _ hfg, tsEstimate_add, mul_add]

/-- Witnesses for `C36_additive_false`: functions on `[-1, 1]` that vanish except at one node, the midpoint or the
first node of the third refinement. -/
noncomputable def spike (y x : ℝ) : ℝ := if x = y then 1 else 0

private theorem node13 : ∀ i, i ≠ 13 → tsNode i ≠ tsNode 13 := by
  intro i hi
  rw [tsNode_eq, tsNode_eq]
  have h : nNum i ≠ nNum 13 := by
    by_cases h : i < 193
    · have hd : ∀ j ∈ List.range 193, j ≠ 13 → nNum j ≠ nNum 13 := by decide +kernel
      exact hd i (List.mem_range.2 h) hi
    · have h0 : nNum i = 0 := by
        rw [nNum, List.getD_eq_getElem?_getD, List.getElem?_eq_none (by rw [ts_nodes_length]; omega)]; rfl
      have h1 : nNum 13 ≠ 0 := by decide +kernel
      omega
  intro h'
  rw [div_left_inj' (by positivity)] at h'
  exact h (by exact_mod_cast h')

private theorem node13_pos : 0 < tsNode 13 :=
  lt_of_le_of_ne (tsNode_nonneg 13) (by rw [← ts_node_zero]; exact node13 0 (by norm_num))

private theorem node_pos : ∀ i ∈ Finset.Ico 1 193, 0 < tsNode i := by
  intro i hi
  have hd : ∀ j ∈ List.range' 1 192, 0 < nNum j := by decide +kernel
  rw [Finset.mem_Ico] at hi
  have := hd i (by rw [List.mem_range']; exact ⟨i - 1, by omega, by omega⟩)
  rw [tsNode_eq]
  have h' : (0 : ℝ) < nNum i := by exact_mod_cast this
  positivity

private theorem spike_zero (k : ℕ) (hk : k < 7) : tsEstimate k (spike 0) 1 0 = tsWeight 0 / 2 ^ k := by
  unfold tsEstimate
  rw [Finset.sum_eq_zero]
  · simp [spike]
  · intro i hi
    have hp := node_pos i (by
      rw [Finset.mem_Ico] at hi ⊢
      exact ⟨hi.1, lt_of_lt_of_le hi.2 (tsCount_le hk)⟩)
    have h1 : (0 : ℝ) + 1 * tsNode i ≠ 0 := by linarith
    have h2 : (0 : ℝ) - 1 * tsNode i ≠ 0 := by linarith
    simp [spike, h1, h2, hp.ne']

private theorem spike_13 (k : ℕ) :
    tsEstimate k (spike (tsNode 13)) 1 0 = (if 13 < tsCount k then tsWeight 13 else 0) / 2 ^ k := by
  have hp := node13_pos
  have hterm : ∀ i, tsWeight i * (spike (tsNode 13) (0 + 1 * tsNode i) + spike (tsNode 13) (0 - 1 * tsNode i))
      = if i = 13 then tsWeight 13 else 0 := by
    intro i
    have hneg : (0 : ℝ) - 1 * tsNode i ≠ tsNode 13 := by have := tsNode_nonneg i; linarith
    have e2 : spike (tsNode 13) (0 - 1 * tsNode i) = 0 := if_neg hneg
    have e1 : spike (tsNode 13) (0 + 1 * tsNode i) = if i = 13 then 1 else 0 := by
      by_cases hi : i = 13
      · subst hi; simp [spike]
      · simp [spike, node13 i hi, hi]
    rw [e1, e2, add_zero]
    by_cases hi : i = 13
    · subst hi; simp
    · simp [hi]
  unfold tsEstimate
  congr 1
  rw [show spike (tsNode 13) 0 = 0 by simp [spike, hp.ne], mul_zero, zero_add]
  rw [Finset.sum_congr rfl fun i _ => hterm i, Finset.sum_ite_eq']
  simp only [Finset.mem_Ico]
  congr 1
  simp

private theorem weight_ne : tsWeight 0 ≠ tsWeight 13 ∧ 0 < tsWeight 0 ∧ 0 < tsWeight 13 := by
  rw [tsWeight_eq, tsWeight_eq]
  have h : tsWNum 0 ≠ tsWNum 13 ∧ 0 < tsWNum 0 ∧ 0 < tsWNum 13 := by decide +kernel
  have h1 : (0 : ℝ) < tsWNum 0 := by exact_mod_cast h.2.1
  have h2 : (0 : ℝ) < tsWNum 13 := by exact_mod_cast h.2.2
  refine ⟨fun h' => ?_, by positivity, by positivity⟩
  rw [div_left_inj' (by positivity)] at h'
  exact h.1 (by exact_mod_cast h')

private theorem de_unit (f : ℝ → ℝ) (k : ℕ) (hs : TsStops f 1 0 k) :
    coffe_integrate_1d_prec_double_exponential f (-1) 1 0 = .ok (tsEstimate k f 1 0) := by
  obtain ⟨i, hi, hsi⟩ := de_ok f (-1) 1 0
  norm_num at hi hsi
  obtain rfl : i = k := hsi.unique hs fun _ _ _ => Iff.rfl
  exact hi

/-- C36: the integral of a sum is not always the sum of the integrals.  The integrator stops at the second level when
two successive estimates agree exactly, which for a function vanishing at the first nodes it does with the value
zero, but for the sum with another function it does not. -/
theorem C36_additive_false : ¬ ∀ (f g : ℝ → ℝ) (a b p u v w : ℝ),
    coffe_integrate_1d_prec_double_exponential f a b p = .ok u →
    coffe_integrate_1d_prec_double_exponential g a b p = .ok v →
    coffe_integrate_1d_prec_double_exponential (fun x => f x + g x) a b p = .ok w → w = u + v := by
  intro h
  obtain ⟨hne, h0, h13⟩ := weight_ne
  have c2 : tsCount 2 = 13 := rfl
  have c1 : tsCount 1 = 7 := rfl
  have c3 : tsCount 3 = 25 := rfl
  have c4 : tsCount 4 = 49 := rfl
  have c5 : tsCount 5 = 97 := rfl
  have c6 : tsCount 6 = 193 := rfl
  have hf : TsStops (spike (tsNode 13)) 1 0 2 := by
    refine ⟨le_rfl, by norm_num, Or.inr ?_, fun j hj hj' => by omega⟩
    rw [spike_13, spike_13]; simp [c1, c2]
  have hg : TsStops (spike 0) 1 0 6 := by
    refine ⟨by norm_num, le_rfl, Or.inl rfl, fun j hj hj' => ?_⟩
    rw [spike_zero j (by omega), spike_zero (j - 1) (by omega)]
    interval_cases j <;> norm_num <;> intro h <;> linarith
  have hfg : TsStops (fun x => spike (tsNode 13) x + spike 0 x) 1 0 6 := by
    refine ⟨by norm_num, le_rfl, Or.inl rfl, fun j hj hj' => ?_⟩
    rw [tsEstimate_add, tsEstimate_add, spike_13, spike_13, spike_zero j (by omega), spike_zero (j - 1) (by omega)]
    interval_cases j
    · simp only [c2, c1]; norm_num; intro h; linarith
    · simp only [c2, c3]; norm_num; intro h; exact hne (by linarith)
    · simp only [c4, c3]; norm_num; intro h; linarith
    · simp only [c4, c5]; norm_num; intro h; linarith
  have := h _ _ (-1) 1 0 _ _ _ (de_unit _ 2 hf) (de_unit _ 6 hg) (de_unit _ 6 hfg)
  rw [tsEstimate_add, spike_13, spike_13, c2, c6] at this
  norm_num at this
  linarith

/-- The hypotheses of `C36_additive_partial` hold for a function that is different from zero at the midpoint only. -/
example : ∀ j, 2 ≤ j → j < 6 →
    tsEstimate j (spike 0) ((1 - (-1)) / 2) ((-1 + 1) / 2) ≠ tsEstimate (j - 1) (spike 0) ((1 - (-1)) / 2) ((-1 + 1) / 2) := by
  intro j h2 h6
  obtain ⟨-, h0, -⟩ := weight_ne
  norm_num
  rw [spike_zero j (by omega), spike_zero (j - 1) (by omega)]
  interval_cases j <;> norm_num <;> intro h <;> linarith

/-- C36: polynomials of degree at most three are integrated up to a relative error of one part in `10^12` of the
constant and one part in `10^9` of the quadratic term, wherever the rule stops. -/
theorem C36_cubic (A B C D a b p : ℝ) :
    ∃ v, coffe_integrate_1d_prec_double_exponential
        (fun x => A + B * (x - (a + b) / 2) + C * (x - (a + b) / 2) ^ 2 + D * (x - (a + b) / 2) ^ 3) a b p = .ok v ∧
      |v - ∫ x in a..b, (A + B * (x - (a + b) / 2) + C * (x - (a + b) / 2) ^ 2 + D * (x - (a + b) / 2) ^ 3)|
        ≤ |(b - a) / 2| * (|A| / 10 ^ 12 + |C| * ((b - a) / 2) ^ 2 / 10 ^ 9) := by
  set c := 1 / 2 * (b - a) with hc
  set d := 1 / 2 * (b + a) with hd
  have hd' : (a + b) / 2 = d := by rw [hd]; ring
  have hc' : (b - a) / 2 = c := by rw [hc]; ring
  rw [hd', hc']
  obtain ⟨k, hk, h2, h6, -, -⟩ := de_ok
    (fun x => A + B * (x - d) + C * (x - d) ^ 2 + D * (x - d) ^ 3) a b p
  rw [← hc, ← hd] at hk
  refine ⟨_, hk, ?_⟩
  have hest : tsEstimate k (fun x => A + B * (x - d) + C * (x - d) ^ 2 + D * (x - d) ^ 3) c d
      = A * tsEstimate k (fun _ => 1) c d + C * tsEstimate k (fun x => (x - d) ^ 2) c d := by
    have h3 : tsEstimate k (fun x => B * (x - d) + D * (x - d) ^ 3) c d = 0 :=
      tsEstimate_odd k fun t _ => by ring
    have e : (fun x => A + B * (x - d) + C * (x - d) ^ 2 + D * (x - d) ^ 3)
        = fun x => (A * 1 + C * (x - d) ^ 2) + (B * (x - d) + D * (x - d) ^ 3) := by
      funext x; ring
    rw [e, tsEstimate_add, h3, add_zero, tsEstimate_add, tsEstimate_smul, tsEstimate_smul]
  have hint : ∫ x in a..b, (A + B * (x - d) + C * (x - d) ^ 2 + D * (x - d) ^ 3)
      = c * (A * 2 + C * (2 / 3 * c ^ 2)) := by
    rw [intervalIntegral.integral_comp_sub_right (fun y => A + B * y + C * y ^ 2 + D * y ^ 3) d]
    have e1 : a - d = -c := by rw [hc, hd]; ring
    have e2 : b - d = c := by rw [hc, hd]; ring
    rw [e1, e2]
    have i1 : IntervalIntegrable (fun _ : ℝ => A) MeasureTheory.volume (-c) c :=
      (continuous_const).intervalIntegrable _ _
    have i2 : IntervalIntegrable (fun y : ℝ => B * y) MeasureTheory.volume (-c) c :=
      (Continuous.intervalIntegrable (by fun_prop) _ _)
    have i3 : IntervalIntegrable (fun y : ℝ => C * y ^ 2) MeasureTheory.volume (-c) c :=
      (Continuous.intervalIntegrable (by fun_prop) _ _)
    have i4 : IntervalIntegrable (fun y : ℝ => D * y ^ 3) MeasureTheory.volume (-c) c :=
      (Continuous.intervalIntegrable (by fun_prop) _ _)
    rw [intervalIntegral.integral_add ((i1.add i2).add i3) i4, intervalIntegral.integral_add (i1.add i2) i3,
      intervalIntegral.integral_add i1 i2, intervalIntegral.integral_const_mul,
      intervalIntegral.integral_const_mul, intervalIntegral.integral_const_mul, integral_id, integral_pow,
      integral_pow, intervalIntegral.integral_const]
    simp only [smul_eq_mul]
    norm_num
    ring
  rw [hest, hint, ← mul_sub, abs_mul]
  refine mul_le_mul_of_nonneg_left ?_ (abs_nonneg c)
  have e : A * tsEstimate k (fun _ => 1) c d + C * tsEstimate k (fun x => (x - d) ^ 2) c d
      - (A * 2 + C * (2 / 3 * c ^ 2))
      = A * (tsEstimate k (fun _ => 1) c d - 2) + C * (tsEstimate k (fun x => (x - d) ^ 2) c d - 2 / 3 * c ^ 2) := by
    ring
  rw [e]
  refine (abs_add_le _ _).trans ?_
  rw [abs_mul, abs_mul]
  have m1 := mul_le_mul_of_nonneg_left (moment_one_bound k h2 h6 c d) (abs_nonneg A)
  have m2 := mul_le_mul_of_nonneg_left (moment_sq_bound k h2 h6 c d) (abs_nonneg C)
  calc _ ≤ |A| * (1 / 10 ^ 12) + |C| * (c ^ 2 / 10 ^ 9) := add_le_add m1 m2
    _ = _ := by ring

end Coffe
