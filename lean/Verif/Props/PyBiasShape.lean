import Verif.Proofs.AkimaSmooth
import Verif.Props.PyBias
import Verif.Spec.Chord

/-!
# The shape of a bias between its samples (C55)
-/

namespace Coffe
open Classical

section
variable {x y : List ℝ}

theorem zip_fst (h1 : x.length = y.length) (j : ℕ) (hj : j < x.length) : ((x.zip y).getD j (0, 0)).1 = x.getD j 0 := by
  simp [List.getD, List.getElem?_eq_getElem (show j < (x.zip y).length by simp; omega), List.getElem?_eq_getElem hj]

theorem zip_snd (h1 : x.length = y.length) (j : ℕ) (hj : j < x.length) : ((x.zip y).getD j (0, 0)).2 = y.getD j 0 := by
  simp [List.getD, List.getElem?_eq_getElem (show j < (x.zip y).length by simp; omega),
    List.getElem?_eq_getElem (show j < y.length by omega)]

theorem getD_get (j : ℕ) (hj : j < x.length) : x.getD j 0 = x[j] := by
  simp [List.getD, List.getElem?_eq_getElem hj]

theorem zip_increasing (h1 : x.length = y.length) (h3 : x.Pairwise (· < ·)) :
    ∀ j k, j < k → k < (x.zip y).length → ((x.zip y).getD j (0, 0)).1 < ((x.zip y).getD k (0, 0)).1 := by
  intro j k hjk hk
  have hlen : (x.zip y).length = x.length := by simp [h1]
  rw [zip_fst h1 j (by omega), zip_fst h1 k (by omega), getD_get _ (by omega), getD_get _ (by omega)]
  exact List.pairwise_iff_getElem.1 h3 j k (by omega) (by omega) hjk

/-- Samples on a straight line, at any redshifts, give that line. -/
theorem C55_line (N : Num) (hN : N.akima = akimaSpline) (b : BiasName) (α β : ℝ) (s t : PyObj)
    (u : Unit) (h : setBias b x (x.map fun z => α + β * z) s = (.ok u, t)) (hx : 0 < x.length) (z : ℝ)
    (hl : x[0] ≤ z) (hr : z ≤ x[x.length - 1]) : biasAt N b z t = (.ok (α + β * z), t) := by
  obtain ⟨h1, h2, h3, h4⟩ := setBias_accepts h
  rw [biasAt_inside h1 h2 h4 hl hr, hN]
  have hlen : (x.zip (x.map fun z => α + β * z)).length = x.length := by simp
  unfold akimaSpline
  rw [Akima.eval_line (α := α) (β := β) (zip_increasing h1 h3) (fun i hi => ?_) (by omega)]
  rw [zip_fst h1 i (by omega), zip_snd h1 i (by omega), getD_get _ (by omega), getD_get _ (by simpa using by omega),
    List.getElem_map]

/-- Samples of a parabola at equidistant redshifts give that parabola. -/
theorem C55_parabola (N : Num) (hN : N.akima = akimaSpline) (b : BiasName) (α β γ a d : ℝ) (hd : 0 < d) (s t : PyObj)
    (u : Unit) (h : setBias b x (x.map fun z => α + β * z + γ * z ^ 2) s = (.ok u, t))
    (heq : ∀ i, (hi : i < x.length) → x[i] = a + d * i) (hx : 0 < x.length) (z : ℝ)
    (hl : x[0] ≤ z) (hr : z ≤ x[x.length - 1]) : biasAt N b z t = (.ok (α + β * z + γ * z ^ 2), t) := by
  obtain ⟨h1, h2, h3, h4⟩ := setBias_accepts h
  rw [biasAt_inside h1 h2 h4 hl hr, hN]
  have hlen : (x.zip (x.map fun z => α + β * z + γ * z ^ 2)).length = x.length := by simp
  unfold akimaSpline
  rw [Akima.eval_parabola (a := a) (h := d) (α := α) (β := β) (γ := γ) hd (fun i hi => ?_) (fun i hi => ?_) (by omega)]
  · rw [zip_fst h1 i (by omega), getD_get _ (by omega), heq i (by omega)]
  · rw [zip_fst h1 i (by omega), zip_snd h1 i (by omega), getD_get _ (by omega), getD_get _ (by simpa using by omega),
      List.getElem_map]

/-- At a sample with two segments on each side, not both pairs of which are straight, the bias has a derivative: Akima's mean
of the adjacent slopes. -/
theorem C55_smooth_partial (N : Num) (hN : N.akima = akimaSpline) (b : BiasName) (s t : PyObj)
    (u : Unit) (h : setBias b x y s = (.ok u, t)) (i : ℕ) (hi : i + 4 < x.length)
    (hk : chord x y (i + 3) ≠ chord x y (i + 2) ∨ chord x y (i + 1) ≠ chord x y i) :
    ∃ f : ℝ → ℝ, (∀ z ∈ Set.Icc x[0] x[x.length - 1], biasAt N b z t = (.ok (f z), t)) ∧
      HasDerivAt f (akimaMean (chord x y i) (chord x y (i + 1)) (chord x y (i + 2)) (chord x y (i + 3))) x[i + 2] := by
  obtain ⟨h1, h2, h3, h4⟩ := setBias_accepts h
  refine ⟨akimaSpline (x.zip y), fun z hz => by rw [biasAt_inside h1 h2 h4 hz.1 hz.2, hN], ?_⟩
  have hlen : (x.zip y).length = x.length := by simp [h1]
  have hs : ∀ j, j + 1 < x.length → Akima.slope (fun i => ((x.zip y).getD i (0, 0)).1)
      (fun i => ((x.zip y).getD i (0, 0)).2) (x.zip y).length (j + 2) = chord x y j := by
    intro j hj
    show (if j < (x.zip y).length - 1 then _ else _) = _
    rw [if_pos (by omega)]
    unfold Akima.seg chord
    simp only [zip_fst h1 j (by omega), zip_fst h1 (j + 1) hj, zip_snd h1 j (by omega), zip_snd h1 (j + 1) hj]
  have hw : Akima.weight (Akima.slope (fun i => ((x.zip y).getD i (0, 0)).1)
      (fun i => ((x.zip y).getD i (0, 0)).2) (x.zip y).length) (i + 2) =
      |chord x y (i + 3) - chord x y (i + 2)| + |chord x y (i + 1) - chord x y i| := by
    unfold Akima.weight
    rw [hs (i + 3) (by omega), hs (i + 2) (by omega), show i + 2 + 1 = i + 1 + 2 by omega, hs (i + 1) (by omega),
      hs i (by omega)]
  have hw0 : |chord x y (i + 3) - chord x y (i + 2)| + |chord x y (i + 1) - chord x y i| ≠ 0 := by
    rcases hk with e | e
    · have := abs_pos.2 (sub_ne_zero.2 e)
      have := abs_nonneg (chord x y (i + 1) - chord x y i)
      linarith
    · have := abs_pos.2 (sub_ne_zero.2 e)
      have := abs_nonneg (chord x y (i + 3) - chord x y (i + 2))
      linarith
  have key := Akima.eval_deriv (i := i + 1) (zip_increasing h1 h3) (by omega) (by rw [hw]; exact hw0)
  have hp : ((x.zip y).getD (i + 1 + 1) (0, 0)).1 = x[i + 2] := by
    rw [zip_fst h1 _ (by omega), getD_get _ (by omega)]
  rw [hp] at key
  refine key.congr_deriv ?_
  unfold Akima.left
  rw [show i + 1 + 1 = i + 2 from rfl, hw, hs (i + 2) (by omega), show i + 2 + 1 = i + 1 + 2 by omega, hs (i + 1) (by omega),
    hs i (by omega)]
  unfold akimaMean
  field_simp
  ring

end

example (N : Num) (hN : N.akima = akimaSpline) (s : PyObj) :
    ∃ t, setBias .galaxy1 [0, 1, 2, 3, 4] [1, 2, 4, 8, 10] s = (.ok (), t) ∧ ∃ f : ℝ → ℝ,
      (∀ z ∈ Set.Icc (0 : ℝ) 4, biasAt N .galaxy1 z t = (.ok (f z), t)) ∧ HasDerivAt f (8 / 3) 2 := by
  obtain ⟨t, ht⟩ := C55_accepted_partial .galaxy1 [0, 1, 2, 3, 4] [1, 2, 4, 8, 10] s (by norm_num) rfl
    (by simp) (by norm_num)
  obtain ⟨f, h1, h2⟩ := C55_smooth_partial N hN _ _ _ _ ht 0 (by simp) (Or.inl (by norm_num [chord]))
  exact ⟨t, ht, f, h1, by norm_num [chord, akimaMean] at h2; exact h2⟩

example (N : Num) (hN : N.akima = akimaSpline) (s : PyObj) :
    ∃ t, setBias .galaxy1 [0, 1, 2, 3, 4] [1, 2, 5, 10, 17] s = (.ok (), t) ∧
      biasAt N .galaxy1 (7 / 2) t = (.ok (53 / 4), t) := by
  have e : ([1, 2, 5, 10, 17] : List ℝ) = [0, 1, 2, 3, 4].map fun z : ℝ => 1 + 0 * z + 1 * z ^ 2 := by norm_num
  rw [e]
  obtain ⟨t, ht⟩ := C55_accepted_partial .galaxy1 [0, 1, 2, 3, 4] ([0, 1, 2, 3, 4].map fun z : ℝ => 1 + 0 * z + 1 * z ^ 2) s
    (by norm_num) rfl (by simp) (by norm_num)
  refine ⟨t, ht, ?_⟩
  rw [C55_parabola N hN _ 1 0 1 0 1 one_pos _ _ _ ht (fun i hi => ?_) (by simp) (7 / 2) (by norm_num) (by norm_num)]
  · norm_num
  · simp only [List.length_cons, List.length_nil] at hi
    interval_cases i <;> norm_num

/-- Between two straight pieces there is a kink: such a bias has no derivative at the sample where they meet. -/
theorem C55_smooth_false (N : Num) (hN : N.akima = akimaSpline) (b : BiasName) (s : PyObj) :
    ∃ t, setBias b [0, 1, 2, 3, 4] [0, 1, 2, 1, 0] s = (.ok (), t) ∧ ∀ f : ℝ → ℝ,
      (∀ z ∈ Set.Icc (0 : ℝ) 4, biasAt N b z t = (.ok (f z), t)) → ¬ DifferentiableAt ℝ f 2 := by
  obtain ⟨t, ht⟩ := C55_accepted_partial b [0, 1, 2, 3, 4] [0, 1, 2, 1, 0] s (by norm_num) rfl
    (by simp) (by norm_num)
  refine ⟨t, ht, fun f hf hd => ?_⟩
  obtain ⟨h1, h2, h3, h4⟩ := setBias_accepts ht
  have hfz : ∀ z ∈ Set.Icc (0 : ℝ) 4, f z = akimaSpline ([0, 1, 2, 3, 4].zip [0, 1, 2, 1, 0]) z := by
    intro z hz
    have e := hf z hz
    rw [biasAt_inside h1 h2 h4 (by simpa using hz.1) (by simpa using hz.2), hN] at e
    injection e with e _
    injection e with e
    exact e.symm
  have hinc := zip_increasing h1 h3
  have hl : ∀ z ∈ Set.Icc (1 : ℝ) 2, f z = z := by
    intro z hz
    rw [hfz z ⟨by linarith [hz.1], by linarith [hz.2]⟩]
    unfold akimaSpline
    rw [Akima.eval_inside (i := 1) hinc (by simp) (by simpa using hz.1) (by simpa using hz.2)]
    have hw : Akima.weight (Akima.slope (fun i => (([0, 1, 2, 3, 4].zip [0, 1, 2, 1, 0] : Samples).getD i (0, 0)).1)
      (fun i => (([0, 1, 2, 3, 4].zip [0, 1, 2, 1, 0] : Samples).getD i (0, 0)).2) 5) 1 ≠ 0 := by
      norm_num [Akima.weight, Akima.slope, Akima.seg]
    have hw2 : Akima.weight (Akima.slope (fun i => (([0, 1, 2, 3, 4].zip [0, 1, 2, 1, 0] : Samples).getD i (0, 0)).1)
      (fun i => (([0, 1, 2, 3, 4].zip [0, 1, 2, 1, 0] : Samples).getD i (0, 0)).2) 5) 2 = 0 := by
      norm_num [Akima.weight, Akima.slope, Akima.seg]
    unfold Akima.cubic
    simp only [Akima.right, Akima.left, List.length_zip, List.length_cons, List.length_nil] at *
    norm_num [hw, hw2, Akima.weight, Akima.slope, Akima.seg]
  have hr : ∀ z ∈ Set.Icc (2 : ℝ) 3, f z = 4 - z := by
    intro z hz
    rw [hfz z ⟨by linarith [hz.1], by linarith [hz.2]⟩]
    unfold akimaSpline
    rw [Akima.eval_inside (i := 2) hinc (by simp) (by simpa using hz.1) (by simpa using hz.2)]
    have hw2 : Akima.weight (Akima.slope (fun i => (([0, 1, 2, 3, 4].zip [0, 1, 2, 1, 0] : Samples).getD i (0, 0)).1)
      (fun i => (([0, 1, 2, 3, 4].zip [0, 1, 2, 1, 0] : Samples).getD i (0, 0)).2) 5) 2 = 0 := by
      norm_num [Akima.weight, Akima.slope, Akima.seg]
    unfold Akima.cubic
    simp only [Akima.right, Akima.left, List.length_zip, List.length_cons, List.length_nil] at *
    norm_num [hw2, Akima.weight, Akima.slope, Akima.seg]
    ring
  have a : HasDerivWithinAt f (deriv f 2) (Set.Icc 1 2) 2 := hd.hasDerivAt.hasDerivWithinAt
  have b' : HasDerivWithinAt f (deriv f 2) (Set.Icc 2 3) 2 := hd.hasDerivAt.hasDerivWithinAt
  have a1 : HasDerivWithinAt f 1 (Set.Icc 1 2) 2 :=
    (hasDerivAt_id (2 : ℝ)).hasDerivWithinAt.congr hl (hl 2 ⟨by norm_num, le_rfl⟩)
  have b1 : HasDerivWithinAt f (-1) (Set.Icc 2 3) 2 :=
    ((hasDerivAt_id (2 : ℝ)).const_sub 4).hasDerivWithinAt.congr hr (hr 2 ⟨le_rfl, by norm_num⟩)
  have ua := (uniqueDiffOn_Icc (show (1 : ℝ) < 2 by norm_num) 2 ⟨by norm_num, le_rfl⟩).eq_deriv _ a a1
  have ub := (uniqueDiffOn_Icc (show (2 : ℝ) < 3 by norm_num) 2 ⟨le_rfl, by norm_num⟩).eq_deriv _ b' b1
  linarith

end Coffe
