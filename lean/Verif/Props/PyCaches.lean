import Verif.Proofs.PyEval
import Verif.Spec.WitnessPy

/-! # C02: cached results are never stale (holds for safe histories only) -/

namespace Coffe
open Classical

/-- After any history of safe calls, every computing method returns (or raises) exactly what it does on a
newly built object with the same settings.  Missing: the unsafe calls listed in `SafeOp`, for which the
property is false (below), and fewer widths of the redshift bins than mean redshifts after an effect that needs the
divergent integral was on (`C01_stale_switch_false`). -/
theorem C02_cached_equals_new_partial (N : Num) (ops : List Op) (s : PyObj)
    (safe : SafeRun N ops (fresh PyPar.default)) (hs : run N ops (fresh PyPar.default) = some s)
    (hw : s.par.WidthsFit) :
    ∃ r, Reference N s r ∧
      (∀ b, (computeBulk N false b s).1 = (computeBulk N false b r).1) ∧
      (∀ z x mu, (computeCorrfunc N z x mu false s).1 = (computeCorrfunc N z x mu false r).1) ∧
      (∀ z x l, (computeMultipole N z x l false s).1 = (computeMultipole N z x l false r).1) ∧
      (¬ s.par.FitOob → ∀ f z, (backgroundAt N f z s).1 = (backgroundAt N f z r).1) := by
  obtain ⟨p0, up, h⟩ := run_coherent ops _ ⟨_, _, coh_fresh PyPar.default⟩ safe s hs
  obtain ⟨h1, h2⟩ := h.reference
  by_cases ho : s.par.sep = []
  · obtain ⟨a1, a2, a3⟩ := noSep_raises (N := N) ho
    have ho' : ({ fresh p0.visible with ps := up } : PyObj).par.sep = [] := by
      show p0.sep = []
      rw [core_eq h.core]; exact ho
    obtain ⟨b1, b2, b3⟩ := noSep_raises (N := N) ho'
    exact ⟨_, h2, fun b => (a1 b).trans (b1 b).symm, fun z x mu => (a2 z x mu).trans (b2 z x mu).symm,
      fun z x l => (a3 z x l).trans (b3 z x l).symm, fun hf f z => (background_ref N f z).fst (h1 hf hw)⟩
  have hf : ¬ s.par.FitOob := fun hf => ho hf.2.2
  exact ⟨_, h2, fun b => (computeBulk_ref N b).fst (h1 hf hw), fun z x mu => ((point_ref N z x).1 mu).fst (h1 hf hw),
    fun z x l => ((point_ref N z x).2 l).fst (h1 hf hw), fun _ f z => (background_ref N f z).fst (h1 hf hw)⟩

/-! ## Where it fails -/

section
/-- Background and CLASS run of the witness back end on the default parameters. -/
noncomputable def wB : Bg := { wBg with comoving_distance := fun z => z / 0.67 }
/-- See `wB`. -/
noncomputable def wC : ClassOut := ⟨1e-5, 100, [(1e-5, 0.8156), (100, 0.96)], [0.67]⟩

theorem wSep (x : ℝ) (hx : 0 < x ∧ x < 10000) (s : PyObj) :
    exec wNum (.setattr (.settable .sep) (.floats [x])) s =
      (.ok .unit, { s with par := { s.par with sep := [x] }, cf := [], mp := [] }) := by
  have h : setattr .sep (.floats [x]) s =
      (.ok (), { s with par := { s.par with sep := [x] }, cf := [], mp := [] }) := by
    unfold setattr checkFloats
    dsimp only
    rw [if_pos (by simpa using hx)]; rfl
  exact Py.bind_ok h

theorem wSorted (l : List ℝ) (h : l.Pairwise (· ≤ ·)) : sortedUpToTolerance l := by
  unfold sortedUpToTolerance
  rw [List.mergeSort_of_pairwise (by simpa using h)]
  rw [List.forall₂_same]
  intro x _
  unfold allclose
  simp only [sub_self, abs_zero]
  positivity

theorem wBias (s : PyObj) :
    exec wNum (.setBias .galaxy1 [0, 1, 2, 3, 4] [2, 2, 2, 2, 2]) s =
      (.ok .unit, { s with
        par := { s.par with bias := s.par.bias.put .galaxy1 ([0, 1, 2, 3, 4].zip [2, 2, 2, 2, 2]) }
        cf := [], mp := [] }) := by
  have h1 : checkSpline [0, 1, 2, 3, 4] [2, 2, 2, 2, 2] s =
      (.ok ([0, 1, 2, 3, 4].zip [2, 2, 2, 2, 2]), s) := by
    unfold checkSpline
    rw [if_neg (not_not.2 (wSorted _ (by simp; norm_num))), if_neg (by simp)]
    simp only [List.head?_cons, List.getLast?_cons_cons, List.getLast?_singleton]
    rw [if_neg (by norm_num), if_neg (by norm_num), if_neg (by simp; norm_num)]
    rfl
  have h : setBias .galaxy1 [0, 1, 2, 3, 4] [2, 2, 2, 2, 2] s = _ := Py.bind_ok h1
  exact Py.bind_ok (h.trans rfl)

theorem wUpload (s : PyObj) :
    exec wNum (.setPowerSpectrumLinear [1, 2, 3, 4, 5] [7, 7, 7, 7, 7]) s =
      (.ok .unit, { s with
        par := { s.par with k_min := 1, k_max := 5 }
        ps := some ([1, 2, 3, 4, 5].zip [7, 7, 7, 7, 7]), pk2d := false, ints := [] }) := by
  have h : setPowerSpectrumLinear [1, 2, 3, 4, 5] [7, 7, 7, 7, 7] s = (.ok (), { s with
        par := { s.par with k_min := 1, k_max := 5 }
        ps := some ([1, 2, 3, 4, 5].zip [7, 7, 7, 7, 7]), pk2d := false, ints := [] }) := by
    unfold setPowerSpectrumLinear
    rw [if_neg (not_not.2 (wSorted _ (by simp; norm_num))), if_neg (by simp)]
    simp only [List.head?_cons, List.getLast?_cons_cons, List.getLast?_singleton]
    rw [if_neg (by simp; norm_num)]
    rfl
  exact Py.bind_ok h

theorem wSum : ((constBias 1).map Prod.snd).sum = 11 := by
  simp [constBias, Function.comp_def]
  norm_num

theorem wSpec : (wC.spectrum.map Prod.snd).sum = 0.8156 + 0.96 := by
  simp [wC]

theorem wSpec' : ((([1, 2, 3, 4, 5].zip [7, 7, 7, 7, 7] : Samples)).map Prod.snd).sum = 35 := by
  simp; norm_num

theorem wRow : ∃ x, x ∈ covRows wNum (PyPar.default.afterRun wC) wC.spectrum wB := by
  have h5 : (5 : ℝ) ∈ PyPar.default.sep := List.mem_map.2 ⟨0, by simp, by simp⟩
  exact ⟨_, List.mem_flatMap.2 ⟨1, by simp [PyPar.afterRun, PyPar.default], List.mem_flatMap.2
    ⟨0, by simp [PyPar.afterRun, PyPar.default], List.mem_flatMap.2 ⟨5, h5, List.mem_flatMap.2
    ⟨0, by simp [PyPar.afterRun, PyPar.default], List.mem_map.2 ⟨5, h5, rfl⟩⟩⟩⟩⟩⟩

/-- The hypotheses of `C02_cached_equals_new_partial` are met by a history that assigns, computes and
assigns again; at its end the background, the integrals and a result are cached. -/
example : ∃ s, SafeRun wNum [.setattr (.settable .mu) (.floats [0]), .computeBulk .corrfunc false,
      .setattr (.settable .l) (.ints [2])] (fresh PyPar.default) ∧
    run wNum [.setattr (.settable .mu) (.floats [0]), .computeBulk .corrfunc false,
      .setattr (.settable .l) (.ints [2])] (fresh PyPar.default) = some s ∧
    s.par.WidthsFit ∧ s.bg ≠ none ∧ s.ints ≠ [] ∧ s.cf ≠ [] := by
  have h1 : exec wNum (.setattr (.settable .mu) (.floats [0])) (fresh PyPar.default) =
      (.ok .unit, fresh { PyPar.default with mu := [0] }) := by
    have h : setattr .mu (.floats [0]) (fresh PyPar.default) =
        (.ok (), fresh { PyPar.default with mu := [0] }) := by
      unfold setattr checkFloats
      dsimp only
      rw [if_pos (by simp)]; rfl
    exact Py.bind_ok h
  have h2 := corrfunc_fresh (N := wNum) (p := { PyPar.default with mu := [0] }) (b := wB) (c := wC)
    rfl rfl rfl (by simp [PyPar.default, generateRange])
  have h3 : ∀ s, exec wNum (.setattr (.settable .l) (.ints [2])) s =
      (.ok .unit, { s with par := { s.par with l := [2] }, mp := [], amp := [], cov := [], acov := [] }) := by
    intro s
    have h : setattr .l (.ints [2]) s = (.ok (),
        { s with par := { s.par with l := [2] }, mp := [], amp := [], cov := [], acov := [] }) := by
      unfold setattr checkMultipoles
      dsimp only
      rw [if_pos (by simp)]; rfl
    exact Py.bind_ok h
  refine ⟨_, ⟨trivial, ?_⟩, (run_cons h1).trans ((run_cons (op := .computeBulk .corrfunc false) h2).trans
    (run_cons (h3 _))), Or.inl (le_refl _), by simp [ready], integrals_ne_nil _ _ _, ?_⟩
  · intro o s' e _ _
    obtain ⟨-, rfl⟩ := Prod.mk.inj (h1.symm.trans e)
    refine ⟨trivial, ?_⟩
    intro o s' e _ _
    obtain ⟨-, rfl⟩ := Prod.mk.inj (h2.symm.trans e)
    exact ⟨Or.inr ⟨rfl, rfl⟩, fun _ _ _ _ _ => trivial⟩
  · have h5 : (5 : ℝ) ∈ PyPar.default.sep := List.mem_map.2 ⟨0, by simp, by simp⟩
    exact List.ne_nil_of_mem (List.mem_flatMap.2 ⟨1, by simp [ready, fresh, PyPar.afterRun, PyPar.default],
      List.mem_flatMap.2 ⟨0, by simp [ready, fresh, PyPar.afterRun],
        List.mem_map.2 ⟨5, h5, rfl⟩⟩⟩)

/-- A new separation does not reach redshift-averaged multipoles that were computed before: the method
returns the values at the old separations. -/
theorem C02_sep_average_false : ∃ N s r,
    run N [.computeBulk .average false, .setattr (.settable .sep) (.floats [20])] (fresh PyPar.default)
      = some s ∧
    run N [.setattr (.settable .sep) (.floats [20])] (fresh PyPar.default) = some r ∧
    ∃ rows rows', (computeBulk N false .average s).1 = .ok (.average rows) ∧
      (computeBulk N false .average r).1 = .ok (.average rows') ∧
      (∀ x ∈ rows', x.r = 20) ∧ ∃ x ∈ rows, x.r = 5 := by
  have e1 := average_fresh (N := wNum) (p := PyPar.default) (b := wB) (c := wC) rfl rfl rfl
    (by simp [PyPar.default, generateRange]) (by simp [PyPar.default])
  have e2 := average_fresh (N := wNum) (p := { PyPar.default with sep := [20] }) (b := wB) (c := wC)
    rfl rfl rfl (by simp [PyPar.default]) (by simp [PyPar.default])
  refine ⟨wNum, _, _, (run_cons (op := .computeBulk .average false) e1).trans
    (run_cons (wSep 20 (by norm_num) _)), run_cons (wSep 20 (by norm_num) _), ?_⟩
  refine ⟨_, _, average_cached (b := wB) rfl (by simp [ready]) (integrals_ne_nil _ _ _) rfl
      (by simp [ready, fresh, PyPar.afterRun, PyPar.default]) ?_, congrArg Prod.fst e2, ?_, ?_⟩
  · simp [averageRows, ready, fresh, PyPar.afterRun, PyPar.default, generateRange]
  · simp [averageRows, ready, fresh, PyPar.afterRun, PyPar.default]
  · have h5 : (5 : ℝ) ∈ PyPar.default.sep :=
      List.mem_map.2 ⟨0, by simp, by simp⟩
    exact ⟨_, List.mem_flatMap.2 ⟨(0.9, 1.1), by simp [ready, fresh, PyPar.afterRun, PyPar.default],
      List.mem_flatMap.2 ⟨0, by simp [ready, fresh, PyPar.afterRun, PyPar.default],
        List.mem_map.2 ⟨5, h5, rfl⟩⟩⟩, rfl⟩

/-- A new galaxy bias does not reach a covariance computed before. -/
theorem C02_bias_covariance_false : ∃ N s r,
    run N [.computeBulk .covariance false, .setBias .galaxy1 [0, 1, 2, 3, 4] [2, 2, 2, 2, 2]]
      (fresh PyPar.default) = some s ∧
    run N [.setBias .galaxy1 [0, 1, 2, 3, 4] [2, 2, 2, 2, 2]] (fresh PyPar.default) = some r ∧
    ∃ rows rows', (computeBulk N false .covariance s).1 = .ok (.covariance rows) ∧
      (computeBulk N false .covariance r).1 = .ok (.covariance rows') ∧
      (∃ x ∈ rows, True) ∧ ∀ x ∈ rows, ∀ y ∈ rows', x.value ≠ y.value := by
  have e1 := covariance_fresh (N := wNum) (p := PyPar.default) (b := wB) (c := wC) rfl rfl rfl
    (by simp [PyPar.default, generateRange]) (by simp [PyPar.default, CovLengths])
    (by simp [PyPar.default]; norm_num)
  have e2 := covariance_fresh (N := wNum)
    (p := { PyPar.default with bias := (PyPar.default.bias.put .galaxy1
      ([0, 1, 2, 3, 4].zip [2, 2, 2, 2, 2])) }) (b := wB) (c := wC) rfl rfl rfl
    (by simp [PyPar.default, generateRange]) (by simp [PyPar.default, CovLengths])
    (by simp [PyPar.default]; norm_num)
  refine ⟨wNum, _, _, (run_cons (op := .computeBulk .covariance false) e1).trans
    (run_cons (wBias _)), run_cons (wBias _), ?_⟩
  refine ⟨_, _, covariance_cached (b := wB) rfl (by simp [readyCov]) rfl
      (by simp [readyCov, fresh, PyPar.afterRun, PyPar.default, generateRange])
      (by simp [readyCov, fresh, PyPar.afterRun, PyPar.default, CovLengths])
      (by simp [readyCov, fresh, PyPar.afterRun, PyPar.default]; norm_num) ?_, congrArg Prod.fst e2, ?_, ?_⟩
  · exact wRow.elim fun x hx => List.ne_nil_of_mem hx
  · exact wRow.imp fun x hx => ⟨hx, trivial⟩
  · intro x hx y hy
    have h1 : x.value = 11 + (0.8156 + 0.96) := by
      simp only [covRows, List.mem_flatMap, List.mem_map] at hx
      obtain ⟨_, _, _, _, _, _, _, _, _, _, rfl⟩ := hx
      exact congrArg₂ (· + ·) wSum wSpec
    have h2 : y.value = 10 + (0.8156 + 0.96) := by
      simp only [covRows, List.mem_flatMap, List.mem_map] at hy
      obtain ⟨_, _, _, _, _, _, _, _, _, _, rfl⟩ := hy
      simp [wNum, PyPar.covView, PyPar.afterRun, PyPar.default, Biases.put, wC]
      norm_num
    rw [h1, h2]; norm_num

/-- An uploaded spectrum does not reach a covariance computed before. -/
theorem C02_upload_covariance_false : ∃ N s r,
    run N [.computeBulk .covariance false, .setPowerSpectrumLinear [1, 2, 3, 4, 5] [7, 7, 7, 7, 7]]
      (fresh PyPar.default) = some s ∧
    run N [.setPowerSpectrumLinear [1, 2, 3, 4, 5] [7, 7, 7, 7, 7]] (fresh PyPar.default) = some r ∧
    ∃ rows rows', (computeBulk N false .covariance s).1 = .ok (.covariance rows) ∧
      (computeBulk N false .covariance r).1 = .ok (.covariance rows') ∧
      (∃ x ∈ rows, True) ∧ ∀ x ∈ rows, ∀ y ∈ rows', x.value ≠ y.value := by
  have e1 := covariance_fresh (N := wNum) (p := PyPar.default) (b := wB) (c := wC) rfl rfl rfl
    (by simp [PyPar.default, generateRange]) (by simp [PyPar.default, CovLengths])
    (by simp [PyPar.default]; norm_num)
  have e2 := covariance_uploaded (N := wNum)
    (s := { fresh { PyPar.default with k_min := 1, k_max := 5 } with
      ps := some ([1, 2, 3, 4, 5].zip [7, 7, 7, 7, 7]) }) (b := wB) rfl rfl rfl rfl rfl
    (by simp [fresh, PyPar.default, generateRange]) (by simp [fresh, PyPar.default, CovLengths])
    (by simp [fresh, PyPar.default]; norm_num)
  refine ⟨wNum, _, _, (run_cons (op := .computeBulk .covariance false) e1).trans
    (run_cons (wUpload _)), run_cons (wUpload _), ?_⟩
  refine ⟨_, _, covariance_cached (b := wB) rfl (by simp) rfl
      (by simp [readyCov, fresh, PyPar.afterRun, PyPar.default, generateRange])
      (by simp [readyCov, fresh, PyPar.afterRun, PyPar.default, CovLengths])
      (by simp [readyCov, fresh, PyPar.afterRun, PyPar.default]; norm_num) ?_, e2, ?_, ?_⟩
  · exact wRow.elim fun x hx => List.ne_nil_of_mem hx
  · exact wRow.imp fun x hx => ⟨hx, trivial⟩
  · intro x hx y hy
    have h1 : x.value = 11 + (0.8156 + 0.96) := by
      simp only [covRows, List.mem_flatMap, List.mem_map] at hx
      obtain ⟨_, _, _, _, _, _, _, _, _, _, rfl⟩ := hx
      exact congrArg₂ (· + ·) wSum wSpec
    have h2 : y.value = 11 + 35 := by
      simp only [covRows, List.mem_flatMap, List.mem_map] at hy
      obtain ⟨_, _, _, _, _, _, _, _, _, _, rfl⟩ := hy
      exact congrArg₂ (· + ·) wSum wSpec'
    rw [h1, h2]; norm_num

/-- New redshifts do not reach the divergent integral. -/
theorem C02_z_mean_integral_false : ∃ N s r,
    run N [.setattr (.settable .has_g4) (.bool true), .computeBulk .corrfunc false,
      .setattr (.settable .z_mean) (.floats [2])] (fresh PyPar.default) = some s ∧
    run N [.setattr (.settable .has_g4) (.bool true), .setattr (.settable .z_mean) (.floats [2]),
      .computeBulk .corrfunc false] (fresh PyPar.default) = some r ∧
    (integralAt N 10 4 0 s).1 = .ok (.real 1) ∧ (integralAt N 10 4 0 r).1 = .ok (.real 2) := by
  have hg : ∀ p : PyPar, exec wNum (.setattr (.settable .has_g4) (.bool true)) (fresh p) =
      (.ok .unit, fresh { p with contrib := { p.contrib with g4 := true } }) := fun p => rfl
  have hz : ∀ s, exec wNum (.setattr (.settable .z_mean) (.floats [2])) s =
      (.ok .unit, { s with par := { s.par with z_mean := [2] }, cf := [], mp := [], cov := [] }) := by
    intro s
    have h : setattr .z_mean (.floats [2]) s =
        (.ok (), { s with par := { s.par with z_mean := [2] }, cf := [], mp := [], cov := [] }) := by
      unfold setattr checkFloats
      dsimp only
      rw [if_pos (by simp; norm_num)]; rfl
    exact Py.bind_ok h
  have e1 := corrfunc_fresh (N := wNum)
    (p := { PyPar.default with contrib := { PyPar.default.contrib with g4 := true } }) (b := wB) (c := wC)
    rfl rfl rfl (by simp [PyPar.default, generateRange])
  have e2 := corrfunc_fresh (N := wNum)
    (p := { PyPar.default with contrib := { PyPar.default.contrib with g4 := true }, z_mean := [2] })
    (b := wB) (c := wC) rfl rfl rfl (by simp [PyPar.default, generateRange])
  refine ⟨wNum, _, _, (run_cons (hg _)).trans ((run_cons (op := .computeBulk .corrfunc false) e1).trans
    (run_cons (hz _))), (run_cons (hg _)).trans ((run_cons (hz _)).trans
    (run_cons (op := .computeBulk .corrfunc false) e2)), ?_, ?_⟩
  · rw [integralAt_cached (b := wB) rfl (by simp [ready]) (integrals_ne_nil _ _ _) (by norm_num) (by norm_num)
      (by norm_num) (by norm_num) (by norm_num) (by norm_num) (find_four _ _ _ rfl) (by norm_num [wNum])]
    simp [intNum, wNum, wConst, PyPar.intView4, PyPar.afterRun, PyPar.default]
  · rw [integralAt_cached (b := wB) rfl (by simp [ready]) (integrals_ne_nil _ _ _) (by norm_num) (by norm_num)
      (by norm_num) (by norm_num) (by norm_num) (by norm_num) (find_four _ _ _ rfl) (by norm_num [wNum])]
    simp [intNum, wNum, wConst, PyPar.intView4, PyPar.afterRun, PyPar.default]

end

end Coffe
