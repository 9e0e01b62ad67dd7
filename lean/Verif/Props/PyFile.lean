import Verif.Proofs.PyFileBack
import Verif.Proofs.Akima
import Verif.Spec.WitnessPy

/-!
# Saving and loading settings from Python (C43)
-/

namespace Coffe
open Classical

/-- Loading a file saved from `s` gives back every parameter, except the lost ones; a cosmological parameter
may be replaced by the default if it is within the tolerance of `np.allclose` of it. -/
theorem C43_read_back_partial (N : Num) (o : SetOrder) (ho : o.Valid) (s s' t : PyObj) (c : Config)
    (h1 : toFile N s = (.ok c, s')) (h2 : fromFile o c = .ok t) (n : Name) (hn : ¬ n.Lost) :
    getattr t.par n = getattr s.par n ∨
    (n.Tolerant ∧ getattr t.par n = getattr PyPar.default n ∧
      (getattr s.par n).Near (getattr PyPar.default n)) :=
  (round_trip ho h1 h2).1 n hn

/-- The lost parameters come back as those of a new object. -/
theorem C43_lost_false (N : Num) (o : SetOrder) (ho : o.Valid) (s s' t : PyObj) (c : Config)
    (h1 : toFile N s = (.ok c, s')) (h2 : fromFile o c = .ok t) (n : Name) (hn : n.Lost) (hc : n ≠ .omega_cdm) :
    getattr t.par n = getattr PyPar.default n :=
  (round_trip ho h1 h2).2.1 n hn hc

/-- Saving and then loading succeeds, whatever the order, for parameters with documented values and room for
the densities.  Missing (false): it should succeed for every object. -/
theorem C43_succeeds_partial (N : Num) (o : SetOrder) (ho : o.Valid) (s : PyObj) (hs : s.par.Loadable) :
    ∃ c s' t, toFile N s = (.ok c, s') ∧ fromFile o c = .ok t :=
  let ⟨c, s', h1⟩ := toFile_done N hs.documented
  let ⟨t, h2⟩ := fromFile_done ho hs h1
  ⟨c, s', t, h1, h2⟩

/-! ## Examples -/

/-- The order in which the options are listed in the source. -/
def sourceOrder : SetOrder := ⟨floatArrayOptions, floatOptions, intOptions, choiceOptions⟩

theorem sourceOrder_valid : sourceOrder.Valid := ⟨.refl _, .refl _, .refl _, .refl _⟩

theorem constBias_usable (b : ℝ) : (constBias b).Usable := by
  refine ⟨by simp [constBias], ?_, ?_⟩
  · unfold constBias
    rw [List.map_map, List.pairwise_map]
    refine List.pairwise_lt_range.imp ?_
    intro i j h
    show (i : ℝ) < j
    exact_mod_cast h
  · intro x hx
    unfold constBias at hx
    obtain ⟨i, hi, rfl⟩ := List.mem_map.1 hx
    rw [List.mem_range] at hi
    have : (i : ℝ) < 11 := by exact_mod_cast hi
    exact ⟨Nat.cast_nonneg i, by dsimp only; linarith⟩

theorem default_documented : PyPar.default.Documented := by
  have hsep : ∀ x ∈ PyPar.default.sep, 0 < x ∧ x < 10000 := by
    intro x hx
    obtain ⟨i, hi, rfl⟩ := List.mem_map.1 (show x ∈ generateRange 5 305 100 from hx)
    rw [List.mem_range] at hi
    have h1 : (i : ℝ) < 100 := by exact_mod_cast hi
    have h2 : (0 : ℝ) ≤ i := Nat.cast_nonneg i
    constructor
    · have : 0 ≤ (305 - 5 : ℝ) * i / (100 : ℕ) := by positivity
      linarith
    · have : (305 - 5 : ℝ) * i / (100 : ℕ) = 3 * i := by push_cast; ring
      linarith
  intro n
  have hc : ∀ (x a b : ℝ), a ≤ x → x ≤ b → (Doc.cosmology a b).Accepted (.float x) (.float x) (.float x) :=
    fun x a b h1 h2 => ⟨x, Or.inl rfl, h1, h2, Or.inl rfl⟩
  have hr : ∀ (x a b : ℝ), a ≤ x → x ≤ b → (Doc.real a b).Accepted (.float x) (.float x) (.float x) :=
    fun x a b h1 h2 => ⟨x, Or.inl rfl, h1, h2, rfl⟩
  have hi : ∀ (x a b : ℤ), a ≤ x → x ≤ b → (Doc.int a b).Accepted (.int x) (.int x) (.int x) :=
    fun x a b h1 h2 => ⟨x, Or.inl rfl, h1, h2, rfl⟩
  have hl : ∀ (ok : ℝ → Prop) (l : List ℝ), (∀ x ∈ l, ok x) →
      (Doc.reals ok).Accepted (.floats l) (.floats l) (.floats l) := fun ok l h => ⟨l, Or.inl rfl, h, rfl⟩
  have h1 : ∀ (ok : ℝ → Prop) (x : ℝ), ok x → (Doc.reals ok).Accepted (.floats [x]) (.floats [x]) (.floats [x]) :=
    fun ok x h => hl ok [x] (by simpa using h)
  cases n
  case sep => exact hl _ _ hsep
  case l => exact ⟨[0, 2, 4], Or.inl rfl, by simp, rfl⟩
  case covariance_populations => exact ⟨[1, 1, 1, 1], Or.inl rfl, rfl, by simp, rfl⟩
  case N_ncdm => exact ⟨1, Or.inl rfl, by norm_num, by norm_num, Or.inl rfl⟩
  case integration_1d_prec =>
    exact ⟨1e-5, rfl, by norm_num, by norm_num, rfl⟩
  case covariance_integration_method => exact ⟨0, _, rfl, Or.inr rfl, rfl⟩
  case covariance_interpolation_method => exact ⟨1, _, rfl, Or.inr rfl, rfl⟩
  case integration_1d_type => exact ⟨0, _, rfl, Or.inr rfl, rfl⟩
  case pk_type => exact ⟨0, _, rfl, Or.inr rfl, rfl⟩
  all_goals first
    | rfl
    | exact ⟨_, Or.inl rfl, rfl⟩
    | exact ⟨_, Or.inl (Or.inl rfl), rfl⟩
    | (refine hc _ _ _ ?_ ?_ <;> (show (_ : ℝ) ≤ _; norm_num [PyPar.default]; done))
    | (refine hr _ _ _ ?_ ?_ <;> (show (_ : ℝ) ≤ _; norm_num [PyPar.default]; done))
    | (refine hi _ _ _ ?_ ?_ <;> (show (_ : ℤ) ≤ _; norm_num [PyPar.default]; done))
    | (refine h1 _ _ ?_; norm_num; done)

theorem default_bias (b : BiasName) : (PyPar.default.bias.get b).Usable := by
  cases b <;> exact constBias_usable _

theorem default_loadable : PyPar.default.Loadable := by
  refine ⟨default_documented, ?_, ?_, ?_, ?_, ?_, default_bias⟩ <;> norm_num [PyPar.default, generateRange]
  exact List.cons_ne_nil _ _

/-- A new object can be saved and loaded. -/
example (N : Num) : ∃ c s' t, toFile N (fresh PyPar.default) = (.ok c, s') ∧ fromFile sourceOrder c = .ok t :=
  C43_succeeds_partial N _ sourceOrder_valid _ default_loadable

/-- C43 fails: a switch that does not survive. -/
theorem C43_has_g2_false (N : Num) (o : SetOrder) (ho : o.Valid) :
    ∃ s c s' t, run N [.setattr (.settable .has_g2) (.bool true)] (fresh PyPar.default) = some s ∧
      toFile N s = (.ok c, s') ∧ fromFile o c = .ok t ∧
      getattr s.par .has_g2 = .bool true ∧ getattr t.par .has_g2 = .bool false := by
  obtain ⟨s, hs, hp⟩ : ∃ s, setattr .has_g2 (.bool true) (fresh PyPar.default) = (.ok (), s) ∧
      s.par = { PyPar.default with contrib := { PyPar.default.contrib with g2 := true } } := ⟨_, rfl, rfl⟩
  have hd : s.par.Documented := by
    intro n
    by_cases hn : n = .has_g2
    · subst hn; exact rfl
    · have h : getattr s.par n = getattr PyPar.default n := by
        rw [hp]
        cases n <;> first | rfl | exact absurd rfl hn
      rw [h]
      exact default_documented n
  have hl : s.par.Loadable := by
    have := default_loadable
    rw [hp] at hd ⊢
    exact ⟨hd, this.lists, this.h, this.m_ncdm, this.baryon, this.budget, this.bias⟩
  obtain ⟨c, s', t, h1, h2⟩ := C43_succeeds_partial N o ho s hl
  refine ⟨s, c, s', t, (run_setattr hs).trans rfl, h1, h2, by rw [hp]; rfl, ?_⟩
  exact C43_lost_false N o ho s s' t c h1 h2 .has_g2 (by simp [Name.Lost]) (by simp)

/-- C43 fails: an object with an empty list of separations can be saved, but not loaded. -/
theorem C43_empty_false (N : Num) (o : SetOrder) (ho : o.Valid) :
    ∃ s c s', run N [.setattr (.settable .sep) (.floats [])] (fresh PyPar.default) = some s ∧
      toFile N s = (.ok c, s') ∧ ∀ t, fromFile o c ≠ .ok t := by
  obtain ⟨s, hs, hp⟩ : ∃ s, setattr .sep (.floats []) (fresh PyPar.default) = (.ok (), s) ∧
      s.par = { PyPar.default with sep := [] } := by
    have h : checkFloats (.floats []) (fun x => 0 < x ∧ x < 10000) (fresh PyPar.default) =
        (.ok [], fresh PyPar.default) := by
      unfold checkFloats
      dsimp only
      rw [if_pos (by simp)]
      rfl
    unfold setattr
    exact ⟨_, (Py.bind_ok h).trans (Py.modify_eq _ _), rfl⟩
  have hd : s.par.Documented := by
    intro n
    by_cases hn : n = .sep
    · subst hn; rw [hp]; exact ⟨[], Or.inl rfl, by simp, rfl⟩
    · have h : getattr s.par n = getattr PyPar.default n := by
        rw [hp]
        cases n <;> first | rfl | exact absurd rfl hn
      rw [h]
      exact default_documented n
  obtain ⟨c, s', h1⟩ := toFile_done N hd
  refine ⟨s, c, s', (run_setattr hs).trans rfl, h1, fun t h2 => ?_⟩
  obtain ⟨c1, c2, c3, c4, c5, -⟩ := toFile_opt h1
  obtain ⟨t1, t2, t3, t4, t5, e1, e2, e3, e4, e5, e6⟩ := fromFile_stages c3 c4 h2
  refine loop_reads e1 (ho.floatArrays.mem_iff.2 (by simp [floatArrayOptions])) (c1 .sep (by simp)) .valueError ?_
  rw [hp]
  rfl

/-! ## Biases -/

theorem even_redshifts {l : Samples} (hu : l.Usable) (he : l.Even) : biasRedshifts l = l.map Prod.fst := by
  obtain ⟨a, e, h1, h2, -, -, -⟩ := head_lt_last hu
  obtain ⟨a0, d, hd, hm⟩ := he
  have h5 := hu.five
  obtain ⟨m, hl⟩ : ∃ m, l.length = m + 1 := ⟨l.length - 1, by omega⟩
  have ha : a.1 = a0 := by
    have : (l.map Prod.fst).head? = some a.1 := by rw [List.head?_map, h1]; rfl
    rw [hm, hl, List.range_succ_eq_map] at this
    simpa using this.symm
  have hb : e.1 = a0 + m * d := by
    have : (l.map Prod.fst).getLast? = some e.1 := by rw [List.getLast?_map, h2]; rfl
    rw [hm, hl, List.range_succ, List.map_append, List.map_singleton, List.getLast?_append] at this
    simpa using this.symm
  unfold biasRedshifts
  rw [h1, h2, hm]
  unfold linspace
  dsimp only
  refine List.map_congr_left fun i _ => ?_
  rw [ha, hb, hl]
  have hm0 : (m : ℝ) ≠ 0 := by
    have : m ≠ 0 := by omega
    exact_mod_cast this
  push_cast
  rw [show a0 + m * d - a0 = m * d by ring, show (m : ℝ) + 1 - 1 = m by ring, mul_div_cancel_left₀ d hm0]

theorem even_back {N : Num} (hN : N.akima = akimaSpline) {l : Samples} (hu : l.Usable) (he : l.Even) :
    (biasRedshifts l).zip (biasValues N l) = l := by
  unfold biasValues
  rw [even_redshifts hu he, hN]
  have h5 := hu.five
  refine List.ext_getElem (by simp) fun i h1 h2 => ?_
  simp only [List.getElem_zip, List.getElem_map]
  rw [akimaSpline_node hu.increasing (by omega) h2]

/-- A bias function sampled at evenly spaced redshifts comes back sample by sample.  Missing (false): other
samples. -/
theorem C43_bias_partial (N : Num) (hN : N.akima = akimaSpline) (o : SetOrder) (ho : o.Valid) (s s' t : PyObj)
    (c : Config) (h1 : toFile N s = (.ok c, s')) (h2 : fromFile o c = .ok t) (b : BiasName)
    (hu : (s.par.bias.get b).Usable) (he : (s.par.bias.get b).Even) :
    t.par.bias.get b = s.par.bias.get b := by
  rw [(round_trip ho h1 h2).2.2 b, even_back hN hu he]

/-- The biases of a new object are of this kind. -/
example (b : ℝ) : (constBias b).Usable ∧ (constBias b).Even := by
  refine ⟨constBias_usable b, 0, 1, one_pos, ?_⟩
  simp only [constBias, List.map_map, List.length_map, List.length_range]
  exact List.map_congr_left fun i _ => by simp

/-- Samples of a bias with a peak at redshift 2. -/
noncomputable def peak : Samples := [0, 1, 2, 3, 4, 15].zip [0, 0, 1, 0, 0, 0]

theorem peak_usable : peak.Usable := by
  refine ⟨by simp [peak], by norm_num [peak], by norm_num [peak]⟩

theorem peak_redshifts : biasRedshifts peak = [0, 3, 6, 9, 12, 15] := by
  unfold biasRedshifts peak linspace
  simp [List.range_succ]
  norm_num

theorem peak_node (i : ℕ) (hi : i < 6) : akimaSpline peak (peak[i]'hi).1 = (peak[i]'hi).2 :=
  akimaSpline_node peak_usable.increasing (by simp [peak]) hi

/-- Between the last two samples the spline vanishes. -/
theorem peak_tail {z : ℝ} (h4 : 4 ≤ z) : akimaSpline peak z = 0 := by
  unfold akimaSpline
  have hlen : peak.length = 6 := rfl
  rw [hlen]
  set x : ℕ → ℝ := fun i => (peak.getD i (0, 0)).1 with hx
  set y : ℕ → ℝ := fun i => (peak.getD i (0, 0)).2 with hy
  have hseg : Akima.segment x 6 z = 4 := by
    unfold Akima.segment
    rw [Nat.findGreatest_eq_iff]
    refine ⟨le_rfl, fun _ => ?_, fun k h1 h2 => by omega⟩
    exact h4
  have s2 : Akima.seg x y 2 = -1 := by
    show ((0 : ℝ) - 1) / (3 - 2) = -1
    norm_num
  have s3 : Akima.seg x y 3 = 0 := by
    show ((0 : ℝ) - 0) / (4 - 3) = 0
    norm_num
  have s4 : Akima.seg x y 4 = 0 := by
    show ((0 : ℝ) - 0) / (15 - 4) = 0
    norm_num
  have m4 : Akima.slope x y 6 4 = -1 := s2
  have m5 : Akima.slope x y 6 5 = 0 := s3
  have m6 : Akima.slope x y 6 6 = 0 := s4
  have m7 : Akima.slope x y 6 7 = 0 := by
    show 2 * Akima.seg x y 4 - Akima.seg x y 3 = 0
    rw [s3, s4]; norm_num
  have m8 : Akima.slope x y 6 8 = 0 := by
    show 3 * Akima.seg x y 4 - 2 * Akima.seg x y 3 = 0
    rw [s3, s4]; norm_num
  have w4 : Akima.weight (Akima.slope x y 6) 4 = 1 := by
    show |Akima.slope x y 6 7 - Akima.slope x y 6 6| + |Akima.slope x y 6 5 - Akima.slope x y 6 4| = 1
    rw [m4, m5, m6, m7]; norm_num
  have w5 : Akima.weight (Akima.slope x y 6) 5 = 0 := by
    show |Akima.slope x y 6 8 - Akima.slope x y 6 7| + |Akima.slope x y 6 6 - Akima.slope x y 6 5| = 0
    rw [m5, m6, m7, m8]; norm_num
  have l4 : Akima.left (Akima.slope x y 6) 4 = 0 := by
    unfold Akima.left
    rw [m5, m6]; norm_num
  have r4 : Akima.right (Akima.slope x y 6) 4 = 0 := by
    unfold Akima.right
    rw [if_pos w5, m6]
  have y4 : y 4 = 0 := rfl
  unfold Akima.eval
  rw [hseg]
  unfold Akima.cubic
  dsimp only
  rw [w4]
  simp only [one_ne_zero, if_false, l4, r4, m6, y4]
  norm_num

theorem peak_values {N : Num} (hN : N.akima = akimaSpline) : biasValues N peak = [0, 0, 0, 0, 0, 0] := by
  unfold biasValues
  rw [peak_redshifts, hN]
  simp only [List.map_cons, List.map_nil]
  rw [show akimaSpline peak 0 = 0 from peak_node 0 (by norm_num),
    show akimaSpline peak 3 = 0 from peak_node 3 (by norm_num), peak_tail (by norm_num), peak_tail (by norm_num),
    peak_tail (by norm_num), peak_tail (by norm_num)]

/-- C43 fails: a bias with a peak at redshift 2, sampled at 0, 1, 2, 3, 4 and 15, comes back as zero. -/
theorem C43_bias_false (N : Num) (hN : N.akima = akimaSpline) (o : SetOrder) (ho : o.Valid) :
    ∃ s c s' t, run N [.setBias .galaxy1 [0, 1, 2, 3, 4, 15] [0, 0, 1, 0, 0, 0]] (fresh PyPar.default) = some s ∧
      toFile N s = (.ok c, s') ∧ fromFile o c = .ok t ∧
      N.akima s.par.bias.galaxy1 2 = 1 ∧ ∀ z, N.akima t.par.bias.galaxy1 z = 0 := by
  obtain ⟨s, hs⟩ := setBias_ok (b := .galaxy1) (x := [0, 1, 2, 3, 4, 15]) (y := [0, 0, 1, 0, 0, 0]) (a := 0)
    (e := 15) (s := fresh PyPar.default) (by norm_num) rfl (by norm_num) rfl rfl le_rfl le_rfl
  have hp : s.par = { PyPar.default with bias := PyPar.default.bias.put .galaxy1 peak } := setBias_done hs
  have hg : ∀ b, s.par.bias.get b = if b = .galaxy1 then peak else PyPar.default.bias.get b := by
    intro b
    rw [hp]
    exact put_get _ _ _ _
  have hl : s.par.Loadable := by
    have h := default_loadable
    refine ⟨fun n => ?_, ?_, ?_, ?_, ?_, ?_, fun b => ?_⟩
    · have : getattr s.par n = getattr PyPar.default n := by rw [hp, getattr_bias]
      rw [this]
      exact h.documented n
    · rw [hp]; exact h.lists
    · rw [hp]; exact h.h
    · rw [hp]; exact h.m_ncdm
    · rw [hp]; exact h.baryon
    · rw [hp]; exact h.budget
    · rw [hg]
      by_cases hb : b = .galaxy1
      · rw [if_pos hb]; exact peak_usable
      · rw [if_neg hb]; exact h.bias b
  obtain ⟨c, s', t, h1, h2⟩ := C43_succeeds_partial N o ho s hl
  have h3 : s.par.bias.galaxy1 = peak := hg .galaxy1
  have h4 : t.par.bias.galaxy1 = [0, 3, 6, 9, 12, 15].zip [0, 0, 0, 0, 0, 0] := by
    have := (round_trip ho h1 h2).2.2 .galaxy1
    rw [hg, if_pos rfl, peak_redshifts, peak_values hN] at this
    exact this
  refine ⟨s, c, s', t, ?_, h1, h2, ?_, fun z => ?_⟩
  · have : exec N (.setBias .galaxy1 [0, 1, 2, 3, 4, 15] [0, 0, 1, 0, 0, 0]) (fresh PyPar.default) =
        (.ok .unit, s) := Py.bind_ok hs
    rw [run, this]
    rfl
  · rw [h3, hN]
    exact peak_node 2 (by norm_num)
  · rw [h4, hN]
    refine Akima.eval_const (fun i hi => ?_) (by simp) z
    have hi : i < 6 := by simpa using hi
    interval_cases i <;> rfl

example : ∃ N : Num, N.akima = akimaSpline := ⟨{ wNum with akima := akimaSpline }, rfl⟩

end Coffe
