import Verif.Model.Python.Bias
import Verif.Proofs.PyFileLoad
import Verif.Proofs.Akima
import Verif.Spec.WitnessPy

/-!
# The bias functions (C55)
-/

namespace Coffe
open Classical

theorem checkSpline_accepts {x y : List ℝ} {s s' : PyObj} {sp : Samples}
    (h : checkSpline x y s = (.ok sp, s')) :
    x.length = y.length ∧ 5 ≤ x.length ∧ x.Pairwise (· < ·) := by
  unfold checkSpline at h
  by_cases h1 : ¬ sortedUpToTolerance x
  · rw [if_pos h1] at h; cases h
  rw [if_neg h1] at h
  by_cases h2 : x.length ≠ y.length
  · rw [if_pos h2] at h; cases h
  rw [if_neg h2] at h
  cases hx : x.head? with
  | none => rw [hx] at h; cases h
  | some a =>
    cases hy : x.getLast? with
    | none => rw [hx, hy] at h; cases h
    | some b =>
      rw [hx, hy] at h
      dsimp only at h
      by_cases h3 : a < 0
      · rw [if_pos h3] at h; cases h
      rw [if_neg h3] at h
      by_cases h4 : b > 15
      · rw [if_pos h4] at h; cases h
      rw [if_neg h4] at h
      by_cases h5 : x.length < 5 ∨ ¬ x.Pairwise (· < ·)
      · rw [if_pos h5] at h; cases h
      rw [not_or, not_lt, not_not] at h5
      exact ⟨not_not.1 h2, h5.1, h5.2⟩

theorem checkSpline_fails {x y : List ℝ} {s s' : PyObj} {e : Err} (h : checkSpline x y s = (.error e, s')) :
    s' = s := by
  unfold checkSpline at h
  by_cases h1 : ¬ sortedUpToTolerance x
  · rw [if_pos h1] at h; cases h; rfl
  rw [if_neg h1] at h
  by_cases h2 : x.length ≠ y.length
  · rw [if_pos h2] at h; cases h; rfl
  rw [if_neg h2] at h
  cases hx : x.head? with
  | none => rw [hx] at h; cases h; rfl
  | some a =>
    cases hy : x.getLast? with
    | none => rw [hx, hy] at h; cases h; rfl
    | some b =>
      rw [hx, hy] at h
      dsimp only at h
      by_cases h3 : a < 0
      · rw [if_pos h3] at h; cases h; rfl
      rw [if_neg h3] at h
      by_cases h4 : b > 15
      · rw [if_pos h4] at h; cases h; rfl
      rw [if_neg h4] at h
      by_cases h5 : x.length < 5 ∨ ¬ x.Pairwise (· < ·)
      · rw [if_pos h5] at h; cases h; rfl
      rw [if_neg h5] at h
      cases h

theorem setBias_accepts {b : BiasName} {x y : List ℝ} {s t : PyObj} {u : Unit}
    (h : setBias b x y s = (.ok u, t)) :
    x.length = y.length ∧ 5 ≤ x.length ∧ x.Pairwise (· < ·) ∧ t.par.bias.get b = x.zip y := by
  obtain ⟨sp, s', h1, -⟩ := Py.bind_done h
  obtain ⟨e1, e2, e3⟩ := checkSpline_accepts h1
  refine ⟨e1, e2, e3, ?_⟩
  rw [setBias_done h]
  show (Biases.put _ b _).get b = _
  cases b <;> rfl

theorem biasAt_inside {N : Num} {b : BiasName} {x y : List ℝ} {s : PyObj} {z : ℝ} (h1 : x.length = y.length)
    (h2 : 5 ≤ x.length) (hb : s.par.bias.get b = x.zip y) (hl : x[0] ≤ z) (hr : z ≤ x[x.length - 1]) :
    biasAt N b z s = (.ok (N.akima (x.zip y) z), s) := by
  have hlen : (x.zip y).length = x.length := by simp [h1]
  have e1 : (x.zip y).head? = some (x[0], y[0]) := by
    rw [List.head?_eq_getElem?, List.getElem?_eq_getElem (by omega), List.getElem_zip]
  have e2 : (x.zip y).getLast? = some (x[x.length - 1], y[x.length - 1]) := by
    rw [List.getLast?_eq_getElem?, List.getElem?_eq_getElem (by omega), List.getElem_zip]
    simp only [hlen]
  unfold biasAt
  rw [hb, e1, e2]
  dsimp only
  rw [if_neg (not_lt.2 hl), if_neg (not_lt.2 hr)]

/-- After a bias has been set, reading it at a sampled redshift gives the sampled value. -/
theorem C55_at_samples (N : Num) (hN : N.akima = akimaSpline) (b : BiasName) (x y : List ℝ) (s t : PyObj)
    (u : Unit) (h : setBias b x y s = (.ok u, t)) (i : ℕ) (hi : i < x.length) (hj : i < y.length) :
    biasAt N b x[i] t = (.ok y[i], t) := by
  obtain ⟨h1, h2, h3, h4⟩ := setBias_accepts h
  have hlen : (x.zip y).length = x.length := by simp [h1]
  have hle : ∀ j k, (hk : k < x.length) → (hjk : j ≤ k) → x[j] ≤ x[k] := by
    intro j k hk hjk
    rcases hjk.lt_or_eq with h | rfl
    · exact (List.pairwise_iff_getElem.1 h3 j k (by omega) hk h).le
    · exact le_rfl
  rw [biasAt_inside h1 h2 h4 (hle 0 i hi (by omega)) (hle i _ (by omega) (by omega)), hN]
  have := akimaSpline_node (l := x.zip y) (by rw [List.map_fst_zip (by omega)]; exact h3) (by omega) (i := i)
    (by omega)
  rw [List.getElem_zip] at this
  rw [this]

/-- A bias set to one value everywhere has that value at every redshift in its range. -/
theorem C55_constant (N : Num) (hN : N.akima = akimaSpline) (b : BiasName) (x : List ℝ) (c : ℝ) (s t : PyObj)
    (u : Unit) (h : setBias b x (List.replicate x.length c) s = (.ok u, t)) (hx : 0 < x.length) (z : ℝ)
    (hl : x[0] ≤ z) (hr : z ≤ x[x.length - 1]) : biasAt N b z t = (.ok c, t) := by
  obtain ⟨h1, h2, h3, h4⟩ := setBias_accepts h
  rw [biasAt_inside h1 h2 h4 hl hr, hN]
  have hlen : (x.zip (List.replicate x.length c)).length = x.length := by simp
  unfold akimaSpline
  rw [Akima.eval_const (c := c) (by
    intro i hi
    simp [List.getD, List.getElem?_eq_getElem hi]) (by omega)]

/-- Between its samples a bias is a continuous function of the redshift. -/
theorem C55_continuous (N : Num) (hN : N.akima = akimaSpline) (b : BiasName) (x y : List ℝ) (s t : PyObj)
    (u : Unit) (h : setBias b x y s = (.ok u, t)) (hx : 0 < x.length) :
    ∃ f : ℝ → ℝ, ContinuousOn f (Set.Icc x[0] x[x.length - 1]) ∧
      ∀ z ∈ Set.Icc x[0] x[x.length - 1], biasAt N b z t = (.ok (f z), t) := by
  obtain ⟨h1, h2, h3, h4⟩ := setBias_accepts h
  refine ⟨akimaSpline (x.zip y), ?_, fun z hz => by rw [biasAt_inside h1 h2 h4 hz.1 hz.2, hN]⟩
  have hlen : (x.zip y).length = x.length := by simp [h1]
  have hg : ∀ j, (hj : j < x.length) → ((x.zip y).getD j (0, 0)).1 = x[j] := by
    intro j hj
    simp [List.getD, List.getElem?_eq_getElem (show j < (x.zip y).length by omega)]
  have := Akima.eval_continuous (x := fun i => ((x.zip y).getD i (0, 0)).1)
    (y := fun i => ((x.zip y).getD i (0, 0)).2) (n := (x.zip y).length) (by
      intro j k hjk hk
      rw [hg j (by omega), hg k (by omega)]
      exact List.pairwise_iff_getElem.1 h3 j k (by omega) (by omega) hjk) (x.length - 1) (by omega)
  rw [hg 0 (by omega), hg _ (by omega)] at this
  exact this

/-- Setting one bias leaves the other seven as they were. -/
theorem C55_others (b b' : BiasName) (hb : b' ≠ b) (x y : List ℝ) (s t : PyObj) (u : Unit)
    (h : setBias b x y s = (.ok u, t)) : t.par.bias.get b' = s.par.bias.get b' := by
  rw [setBias_done h]
  show (Biases.put _ b _).get b' = _
  rw [put_get, if_neg hb]

/-- A bias that is refused leaves the object as it was. -/
theorem C55_refused (b : BiasName) (x y : List ℝ) (s t : PyObj) (e : Err)
    (h : setBias b x y s = (.error e, t)) : t = s := by
  unfold setBias at h
  rw [Py.bind_eq] at h
  cases h1 : checkSpline x y s with
  | mk r s' =>
    rw [h1] at h
    cases r with
    | error e' => cases h; exact checkSpline_fails h1
    | ok a => cases h

/-- Five or more strictly increasing redshifts between 0 and 15 are accepted. -/
theorem C55_accepted_partial (b : BiasName) (x y : List ℝ) (s : PyObj) (h1 : x.Pairwise (· < ·))
    (h2 : x.length = y.length) (h3 : 5 ≤ x.length) (h4 : ∀ z ∈ x, 0 ≤ z ∧ z ≤ 15) :
    ∃ t, setBias b x y s = (.ok (), t) := by
  have hn : x ≠ [] := by rintro rfl; simp at h3
  exact setBias_ok h1 h2 h3 (List.head?_eq_some_head hn) (List.getLast?_eq_some_getLast hn)
    (h4 _ (List.head_mem hn)).1 (h4 _ (List.getLast_mem hn)).2

example (N : Num) (hN : N.akima = akimaSpline) (s : PyObj) :
    ∃ t, setBias .galaxy1 [0, 1, 2, 3, 4] [1, 2, 3, 5, 8] s = (.ok (), t) ∧
      biasAt N .galaxy1 3 t = (.ok 5, t) := by
  obtain ⟨t, ht⟩ := C55_accepted_partial .galaxy1 [0, 1, 2, 3, 4] [1, 2, 3, 5, 8] s (by norm_num) rfl
    (by simp) (by norm_num)
  exact ⟨t, ht, C55_at_samples N hN _ _ _ _ _ _ ht 3 (by simp) (by simp)⟩

/-- Reading a bias outside the sampled redshifts raises `ValueError`. -/
theorem C55_outside (N : Num) (b : BiasName) (x y : List ℝ) (s t : PyObj) (u : Unit)
    (h : setBias b x y s = (.ok u, t)) (hx : 0 < x.length) (z : ℝ) (hz : z < x[0] ∨ x[x.length - 1] < z) :
    biasAt N b z t = (.error .valueError, t) := by
  obtain ⟨h1, h2, h3, h4⟩ := setBias_accepts h
  have hlen : (x.zip y).length = x.length := by simp [h1]
  have e1 : (x.zip y).head? = some (x[0], y[0]) := by
    rw [List.head?_eq_getElem?, List.getElem?_eq_getElem (by omega), List.getElem_zip]
  have e2 : (x.zip y).getLast? = some (x[x.length - 1], y[x.length - 1]) := by
    rw [List.getLast?_eq_getElem?, List.getElem?_eq_getElem (by omega), List.getElem_zip]
    simp only [hlen]
  unfold biasAt
  rw [h4, e1, e2]
  dsimp only
  by_cases hl : z < x[0]
  · rw [if_pos hl]
  · rw [if_neg hl, if_pos (hz.resolve_left hl)]

/-- Samples that are sorted but contain a redshift twice are not refused: the interpreter is aborted. -/
theorem C55_repeated_false (b : BiasName) (s : PyObj) :
    setBias b [0, 1, 1, 2, 3] [1, 1, 1, 1, 1] s = (.error .abort, s) := by
  have : checkSpline [0, 1, 1, 2, 3] [1, 1, 1, 1, 1] s = (.error .abort, s) := by
    unfold checkSpline
    rw [if_neg (not_not.2 (wSorted _ (by norm_num))), if_neg (by simp)]
    simp only [List.head?_cons, List.getLast?_cons_cons, List.getLast?_singleton]
    rw [if_neg (by norm_num), if_neg (by norm_num), if_pos (Or.inr (by norm_num))]
    rfl
  unfold setBias
  rw [Py.bind_eq, this]

/-- So are four samples. -/
theorem C55_four_false (b : BiasName) (s : PyObj) :
    setBias b [0, 1, 2, 3] [1, 1, 1, 1] s = (.error .abort, s) := by
  have : checkSpline [0, 1, 2, 3] [1, 1, 1, 1] s = (.error .abort, s) := by
    unfold checkSpline
    rw [if_neg (not_not.2 (wSorted _ (by norm_num))), if_neg (by simp)]
    simp only [List.head?_cons, List.getLast?_cons_cons, List.getLast?_singleton]
    rw [if_neg (by norm_num), if_neg (by norm_num), if_pos (Or.inl (by simp))]
    rfl
  unfold setBias
  rw [Py.bind_eq, this]

end Coffe
