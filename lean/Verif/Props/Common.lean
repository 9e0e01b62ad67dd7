import Verif.Proofs.Common

/-! # C27, C29, C46: helpers of src/common.c -/

namespace Coffe
open Classical

/-! ## C46: array helpers -/

/-- **C46.** Rescaling multiplies every element, keeps the length and leaves cells past `size` alone. -/
theorem C46_rescale (a : Buf ℕ ℝ) (n : ℕ) (f : ℕ → ℝ) (k : ℝ) (ha : a.Holds n f) :
    ∃ c, coffe_rescale_array (some a) n k = .ok c ∧ c.Holds n (fun i => f i * k) ∧ c.SameFrom a n := by
  refine cfor_cells a n (fun i => f i * k) _ (fun i hi => (ha i hi).1) fun i hi c hc hv => ?_
  have : c.load i = .ok (f i) := Buf.load_eq.2 ⟨by rw [hc]; exact (ha i hi).1, by rw [hv]; exact (ha i hi).2⟩
  simp only [this]

/-- **C46.** Multiplying two arrays into a third. -/
theorem C46_multiply (o a b : Buf ℕ ℝ) (n : ℕ) (f g : ℕ → ℝ) (ho : ∀ i < n, o.dom i) (ha : a.Holds n f)
    (hb : b.Holds n g) :
    ∃ c, coffe_multiply_array (some o) (some a) (some b) n = .ok c ∧ c.Holds n (fun i => f i * g i) ∧
      c.SameFrom o n := by
  refine cfor_cells o n (fun i => f i * g i) _ ho fun i hi c hc hv => ?_
  simp only [ha.load hi, hb.load hi]

/-- **C46.** Multiplying in place. -/
theorem C46_multiply_self (a b : Buf ℕ ℝ) (n : ℕ) (f g : ℕ → ℝ) (ha : a.Holds n f) (hb : b.Holds n g) :
    ∃ c, coffe_multiply_array_self (some a) (some b) n = .ok c ∧ c.Holds n (fun i => f i * g i) ∧
      c.SameFrom a n := by
  refine cfor_cells a n (fun i => f i * g i) _ (fun i hi => (ha i hi).1) fun i hi c hc hv => ?_
  have : c.load i = .ok (f i) := Buf.load_eq.2 ⟨by rw [hc]; exact (ha i hi).1, by rw [hv]; exact (ha i hi).2⟩
  simp only [this, hb.load hi]

/-- **C46.** Multiplying by a power, for positive bases. -/
theorem C46_multiply_power (o a b : Buf ℕ ℝ) (n : ℕ) (f g : ℕ → ℝ) (p : ℝ) (ho : ∀ i < n, o.dom i)
    (ha : a.Holds n f) (hb : b.Holds n g) (hg : ∀ i < n, 0 < g i) :
    ∃ c, coffe_multiply_power_array (some o) (some a) (some b) n p = .ok c ∧
      c.Holds n (fun i => f i * g i ^ p) ∧ c.SameFrom o n := by
  refine cfor_cells o n (fun i => f i * g i ^ p) _ ho fun i hi c hc hv => ?_
  simp only [ha.load hi, hb.load hi, cpow, if_pos (hg i hi)]

/-- **C46.** Multiplying by a power in place. -/
theorem C46_multiply_power_self (a b : Buf ℕ ℝ) (n : ℕ) (f g : ℕ → ℝ) (p : ℝ) (ha : a.Holds n f)
    (hb : b.Holds n g) (hg : ∀ i < n, 0 < g i) :
    ∃ c, coffe_multiply_power_array_self (some a) (some b) n p = .ok c ∧
      c.Holds n (fun i => f i * g i ^ p) ∧ c.SameFrom a n := by
  refine cfor_cells a n (fun i => f i * g i ^ p) _ (fun i hi => (ha i hi).1) fun i hi c hc hv => ?_
  have : c.load i = .ok (f i) := Buf.load_eq.2 ⟨by rw [hc]; exact (ha i hi).1, by rw [hv]; exact (ha i hi).2⟩
  simp only [this, hb.load hi, cpow, if_pos (hg i hi)]

/-- **C46.** The maximum search returns an element that no element exceeds; for an empty array a NaN. -/
theorem C46_max (a : Buf ℕ ℝ) (n : ℕ) (f : ℕ → ℝ) (ha : a.Holds n f) :
    (n = 0 ∧ coffe_max_array_double a n = .ok none) ∨
      ∃ m, coffe_max_array_double a n = .ok (some m) ∧ (∃ i < n, m = f i) ∧ ∀ i < n, f i ≤ m := by
  rcases Nat.eq_zero_or_pos n with rfl | hn
  · exact Or.inl ⟨rfl, by simp [coffe_max_array_double]⟩
  · right
    obtain ⟨m, e, h1, h2, h3⟩ := cfor_max a n f ha (upTo 1 n) (fun i hi => (mem_upTo.1 hi).2) (f 0)
    refine ⟨m, ?_, ?_, ?_⟩
    · unfold coffe_max_array_double
      rw [if_pos hn]
      simp only [ha.load hn]
      exact congrArg (Except.map some) e
    · rcases h1 with h1 | ⟨i, hi, h1⟩
      · exact ⟨0, hn, h1⟩
      · exact ⟨i, (mem_upTo.1 hi).2, h1⟩
    · intro i hi
      rcases Nat.eq_zero_or_pos i with rfl | h
      · exact h2
      · exact h3 i (mem_upTo.2 ⟨h, hi⟩)

/-- **C46.** A missing array ends the program. -/
theorem C46_missing (a b : Option (Buf ℕ ℝ)) (n : ℕ) (k : ℝ) :
    coffe_rescale_array none n k = .error .exit ∧
    coffe_multiply_array none a b n = .error .exit ∧ coffe_multiply_array a none b n = .error .exit ∧
    coffe_multiply_array a b none n = .error .exit ∧ coffe_multiply_power_array none a b n k = .error .exit ∧
    coffe_multiply_power_array a none b n k = .error .exit ∧
    coffe_multiply_power_array a b none n k = .error .exit := by
  refine ⟨rfl, rfl, ?_, ?_, rfl, ?_, ?_⟩ <;> cases a <;> try rfl
  all_goals cases b <;> rfl

/-- **C46.** Copying a row or a column of a full matrix gives a new array with exactly those elements; an
index outside the matrix ends the program. -/
theorem C46_copy (m : Buf (ℕ × ℕ) ℝ) (rows columns index : ℕ) (f : ℕ → ℕ → ℝ)
    (hm : ∀ i < rows, ∀ j < columns, m.dom (i, j) ∧ m.val (i, j) = some (f i j)) :
    (if index < rows then ∃ c, copy_matrix_array m rows columns index .row = .ok (some c) ∧
        c.IsArray columns (f index)
      else copy_matrix_array m rows columns index .row = .error .exit) ∧
    (if index < columns then ∃ c, copy_matrix_array m rows columns index .column = .ok (some c) ∧
        c.IsArray rows (fun i => f i index)
      else copy_matrix_array m rows columns index .column = .error .exit) := by
  constructor
  · split_ifs with h
    · obtain ⟨c, e, h1, h2⟩ := cfor_cells (cmalloc columns) columns (f index) (fun i out =>
        match m.load (index, i) with
        | .ok v => out.store i v
        | .error e => .error e) (fun i hi => hi) fun i hi c hc hv => by
          simp only [Buf.load_eq.2 (hm index h i hi)]
      refine ⟨c, ?_, fun i => by rw [h2.1]; exact Iff.rfl, h1⟩
      unfold copy_matrix_array
      simp only [if_neg (not_le.2 h)]
      exact congrArg (Except.map some) e
    · unfold copy_matrix_array
      simp only [if_pos (not_lt.1 h)]
  · split_ifs with h
    · obtain ⟨c, e, h1, h2⟩ := cfor_cells (cmalloc rows) rows (fun i => f i index) (fun i out =>
        match m.load (i, index) with
        | .ok v => out.store i v
        | .error e => .error e) (fun i hi => hi) fun i hi c hc hv => by
          simp only [Buf.load_eq.2 (hm i hi index h)]
      refine ⟨c, ?_, fun i => by rw [h2.1]; exact Iff.rfl, h1⟩
      unfold copy_matrix_array
      simp only [if_neg (not_le.2 h)]
      exact congrArg (Except.map some) e
    · unfold copy_matrix_array
      simp only [if_pos (not_lt.1 h)]

/-- Non-vacuity: an array of three cells. -/
example : (Buf.of (· < 3) (fun i : ℕ => (i : ℝ) + 1)).Holds 3 (fun i => (i : ℝ) + 1) :=
  fun i hi => ⟨hi, if_pos hi⟩
example : ∃ m : Buf (ℕ × ℕ) ℝ, ∀ i < 2, ∀ j < 3, m.dom (i, j) ∧ m.val (i, j) = some ((i : ℝ) + 10 * j) :=
  ⟨Buf.of (fun p => p.1 < 2 ∧ p.2 < 3) (fun p => (p.1 : ℝ) + 10 * p.2),
    fun i hi j hj => ⟨⟨hi, hj⟩, if_pos ⟨hi, hj⟩⟩⟩

/-- The helpers do not check the length: an array that is too short is read outside its bounds. -/
example : coffe_rescale_array (some (Buf.of (· < 0) (fun _ : ℕ => (1 : ℝ)))) 1 2 = .error .oob := by
  simp [coffe_rescale_array, upTo, cfor, Buf.load, Buf.of]

/-! ## C29: generated ranges -/

/-- **C29.** A range has exactly `steps` strictly increasing, equally spaced points, the first one `xmin`, all
below `xmax`; a reversed or empty interval ends the program. -/
theorem C29_range (xmin xmax : ℝ) (steps : ℕ) :
    if xmin < xmax then
      ∃ c f, coffe_generate_range xmin xmax steps = .ok c ∧ c.IsArray steps f ∧
        (0 < steps → f 0 = xmin) ∧ (∀ i j, i < j → j < steps → f i < f j) ∧
        (∀ i < steps, xmin ≤ f i ∧ f i < xmax) ∧
        (∀ i j, i + 1 < steps → j + 1 < steps → f (i + 1) - f i = f (j + 1) - f j)
    else coffe_generate_range xmin xmax steps = .error .exit := by
  split_ifs with h
  · let f : ℕ → ℝ := fun i => xmin + (xmax - xmin) * i / steps
    obtain ⟨c, e, h1, h2⟩ := cfor_cells (cmalloc steps) steps f
      (fun i result => result.store i (xmin + (xmax - xmin) * i / steps)) (fun i hi => hi) fun i hi c hc hv => rfl
    have hd : 0 < xmax - xmin := by linarith
    have hpos : ∀ i, i < steps → (0 : ℝ) < steps := fun i hi => by
      exact_mod_cast lt_of_le_of_lt (Nat.zero_le _) hi
    refine ⟨c, f, by unfold coffe_generate_range; rw [if_neg (not_le.2 h), e],
      ⟨fun i => by rw [h2.1]; exact Iff.rfl, h1⟩, fun _ => by simp [f], ?_, ?_, ?_⟩
    · intro i j hij hj
      have := hpos j hj
      have hij' : (i : ℝ) < j := by exact_mod_cast hij
      have : (xmax - xmin) * i / steps < (xmax - xmin) * j / steps := by gcongr
      simp only [f]; linarith
    · intro i hi
      have h0 := hpos i hi
      have hi' : (i : ℝ) < steps := by exact_mod_cast hi
      have h3 : (xmax - xmin) * i / steps < xmax - xmin := by
        rw [div_lt_iff₀ h0]; gcongr
      have h4 : 0 ≤ (xmax - xmin) * i / steps := by positivity
      simp only [f]
      constructor <;> linarith
    · intro i j hi hj
      simp only [f]; push_cast; ring
  · unfold coffe_generate_range
    rw [if_pos (not_lt.1 h)]

/-- Non-vacuity: the default separations. -/
example : (5 : ℝ) < 305 := by norm_num

/-! ## C27: approximate equality -/

/-- A value is approximately equal to itself, with a positive tolerance.  Missing: the call with
`abs_epsilon = 0` for the value zero, for which the property is false (below). -/
theorem C27_reflexive_partial (a rel ab : ℝ) (hr : 0 < rel) (ha : 0 < ab ∨ a ≠ 0) :
    coffe_approx_equal a a rel ab = true := by
  unfold coffe_approx_equal
  simp only [sub_self, abs_zero, zero_div, hr, decide_true]
  split_ifs with h
  · rfl
  · rcases ha with ha | ha
    · simpa using ha
    · exact absurd ⟨ha, ha⟩ h

/-- A separation of zero is not equal to itself with the tolerances `coffe_covariance_find` uses. -/
theorem C27_zero_false : coffe_approx_equal 0 0 1e-3 0 = false := by
  simp [coffe_approx_equal]

/-- The comparison is symmetric only up to the size of the tolerance: what is close seen from `a` is close
seen from `b` with the larger tolerance `rel / (1 - rel)`.  Missing: symmetry itself, which is false
(below). -/
theorem C27_symmetric_partial (a b rel ab : ℝ) (h1 : rel < 1)
    (h : coffe_approx_equal a b rel ab = true) : coffe_approx_equal b a (rel / (1 - rel)) ab = true := by
  unfold coffe_approx_equal at h ⊢
  split_ifs at h ⊢ with h2 h3 h3
  · have ha := abs_pos.2 h3.1
    have hb := abs_pos.2 h3.2
    simp only [decide_eq_true_eq] at h ⊢
    rw [div_lt_iff₀ ha] at h
    have h0 : 0 < 1 - rel := by linarith
    rw [abs_sub_comm, div_lt_iff₀ hb, div_mul_eq_mul_div, lt_div_iff₀ h0]
    have h4 : |a| ≤ |a - b| + |b| := by
      have := abs_add_le (a - b) b
      simpa using this
    have h5 : 0 ≤ |a - b| := abs_nonneg _
    rcases le_or_gt rel 0 with h6 | h6
    · nlinarith
    · nlinarith
  · exact absurd ⟨h2.2, h2.1⟩ h3
  · exact absurd ⟨h3.2, h3.1⟩ h2
  · rw [abs_sub_comm]; exact h

/-- Approximate equality is not symmetric: the relative error is taken with respect to the first argument. -/
theorem C27_symmetric_false : ∃ a b, coffe_approx_equal a b 1e-3 0 = true ∧
    coffe_approx_equal b a 1e-3 0 = false := by
  refine ⟨1001, 1000, ?_, ?_⟩ <;> simp [coffe_approx_equal] <;> norm_num

/-- An entry with non-zero separations and redshift is found; the first match, which may be another entry
whose coordinates agree to one part in a thousand, is returned.  Missing: entries with a zero coordinate
and exactness, for which the property is false (below). -/
theorem C27_find_partial (cov : List (CovCoords × ℝ)) (e : CovCoords × ℝ) (he : e ∈ cov)
    (h1 : e.1.separation1 ≠ 0) (h2 : e.1.separation2 ≠ 0) (h3 : e.1.z_mean ≠ 0) :
    ∃ c, coffe_covariance_find cov e.1.z_mean e.1.l1 e.1.l2 e.1.separation1 e.1.separation2 = .ok c ∧
      c ∈ cov ∧ c.1.l1 = e.1.l1 ∧ c.1.l2 = e.1.l2 ∧
      |c.1.separation1 - e.1.separation1| < 1e-3 * |c.1.separation1| ∧
      |c.1.separation2 - e.1.separation2| < 1e-3 * |c.1.separation2| ∧
      |c.1.z_mean - e.1.z_mean| < 1e-3 * |c.1.z_mean| := by
  unfold coffe_covariance_find
  rcases hf : cov.find? _ with _ | c
  · exfalso
    have := List.find?_eq_none.1 hf e he
    simp [C27_reflexive_partial _ _ _ (by norm_num : (0 : ℝ) < 1e-3) (Or.inr h1),
      C27_reflexive_partial _ _ _ (by norm_num : (0 : ℝ) < 1e-3) (Or.inr h2),
      C27_reflexive_partial _ _ _ (by norm_num : (0 : ℝ) < 1e-3) (Or.inr h3)] at this
  · have hp := List.find?_some hf
    simp only [decide_eq_true_eq] at hp
    have key : ∀ x y : ℝ, y ≠ 0 → coffe_approx_equal x y 1e-3 0 = true → |x - y| < 1e-3 * |x| := by
      intro x y hy h
      unfold coffe_approx_equal at h
      split_ifs at h with hx
      · rw [decide_eq_true_eq, div_lt_iff₀ (abs_pos.2 hx.1)] at h
        exact h
      · rw [decide_eq_true_eq] at h
        exact absurd h (not_lt.2 (abs_nonneg _))
    exact ⟨c, rfl, List.mem_of_find?_eq_some hf, hp.1, hp.2.1, key _ _ h1 hp.2.2.1, key _ _ h2 hp.2.2.2.1,
      key _ _ h3 hp.2.2.2.2⟩

/-- Non-vacuity of `C27_find_partial`. -/
example : ∃ (cov : List (CovCoords × ℝ)) (e : CovCoords × ℝ), e ∈ cov ∧ e.1.separation1 ≠ 0 ∧
    e.1.separation2 ≠ 0 ∧ e.1.z_mean ≠ 0 :=
  ⟨[(⟨1, 0, 2, 10, 20⟩, 5)], (⟨1, 0, 2, 10, 20⟩, 5), by simp, by norm_num, by norm_num, by norm_num⟩

/-- Asking for an entry of the array can return a different one: separations 1000 and 1000.5 are not told
apart. -/
theorem C27_find_other_false : ∃ (cov : List (CovCoords × ℝ)) (e : CovCoords × ℝ), e ∈ cov ∧
    ∃ c, coffe_covariance_find cov e.1.z_mean e.1.l1 e.1.l2 e.1.separation1 e.1.separation2 = .ok c ∧
      c.1.separation1 ≠ e.1.separation1 ∧ c.2 ≠ e.2 := by
  refine ⟨[(⟨1, 0, 0, 1000, 1000⟩, 1), (⟨1, 0, 0, 1000.5, 1000⟩, 2)], (⟨1, 0, 0, 1000.5, 1000⟩, 2), by simp,
    (⟨1, 0, 0, 1000, 1000⟩, 1), ?_, by norm_num, by norm_num⟩
  unfold coffe_covariance_find
  rw [List.find?_cons_of_pos]
  simp [coffe_approx_equal]
  norm_num

end Coffe
