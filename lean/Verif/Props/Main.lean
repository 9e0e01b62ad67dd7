import Verif.Proofs.MainStages
import Verif.Props.Parser
import Verif.Spec.WitnessMain

/-! # C40: the requested output is produced -/

namespace Coffe
open Classical

variable {I : Type} {L : Lib I} {opts : List Opt} {settings : Text} {w : RunState} {p : MainPar} {c : Conf}
  {bg : BgTable} {row : ℕ → BgRow} {i : I}

/-- C40: every stage comes after the stages it needs. -/
theorem C40_in_order (ty : ℤ) : InOrder (stagesOf ty) := by
  have key : ∀ l : List Stage, (∀ k : Fin l.length, ∀ t ∈ (l.get k).needs, t ∈ l.take k) → InOrder l := by
    rintro l hl pre s post rfl t ht
    have := hl ⟨pre.length, by simp⟩ t (by simpa using ht)
    simpa using this
  unfold stagesOf
  split_ifs
  all_goals exact key _ (by decide)

/-- C40 for the correlation function: all stages run in order, and the file gets one line for every entry after whatever
it held before. -/
theorem C40_corrfunc (ha : Asks L opts settings) (hp : L.parser settings w.disk = .ok p)
    (hc : (w.disk.file (path_of settings)).bind L.read_conf = some c) (ht : p.output_type = CORRFUNC)
    (hb : L.background p.toCPar = .ok bg) (hr : BgReady p bg row) (hi : L.integrals p.toCPar bg = .ok i)
    {a : CArray CfCoord} {l : List (CfCoord × ℝ)} (hf : L.corrfunc p.toCPar bg (some i) = .ok a) (hl : a.Holds l)
    (hw : CanWrite w.disk p ["settings.cfg", "background.dat", "corrfunc.dat"]) :
    ∃ d, main L opts w = (.ok (), ⟨d, w.log ++ stagesOf CORRFUNC⟩) ∧
      RunWrote p w.disk d (L.show_conf c) (bgText L.rounding p.type_bg bg.size row)
        (some ("corrfunc.dat", w.disk.contents (p.place "corrfunc.dat") ++ corrfuncText L.rounding p.contrib l)) := by
  obtain ⟨c', hc', hpc⟩ := parser_conf hp
  obtain rfl : c' = c := Option.some.inj (hc'.symm.trans hc)
  obtain ⟨out, e, h1, h2, h3, _⟩ := output_front hw hpc hr L.rounding (by simp) (by simp) (w.log ++ stagesOf CORRFUNC)
  obtain ⟨g1, g2⟩ := h3 "corrfunc.dat" (by simp) ⟨by decide +kernel, by decide +kernel, by decide +kernel⟩
  obtain ⟨k1, k2⟩ := wrote_of (n := "corrfunc.dat") (t := w.disk.contents (p.place "corrfunc.dat") ++ 
    corrfuncText L.rounding p.contrib l) h2 (by decide) (by decide)
  refine ⟨_, ?_, k1⟩
  rw [main_asks ha]
  unfold main_sequence
  rw [Prog.bind_ok (rfl : Prog.start _ _ = _), Prog.bind_ok (rfl : Prog.disk _ = _), Prog.bind_ok (Prog.lift_ok hp _),
    Prog.bind_ok (rfl : Prog.start _ _ = _), Prog.bind_ok (Prog.lift_ok hb _),
    Prog.bind_ok (stage_yes (.inl ht) (show (L.integrals p.toCPar bg).map some = .ok (some i) by rw [hi]; rfl) _ _),
    Prog.bind_ok (stage_yes (ht) hf _ _),
    Prog.bind_ok (stage_no (by rw [ht]; decide) _ _ _ _),
    Prog.bind_ok (stage_no (by rw [ht]; decide) _ _ _ _),
    Prog.bind_ok (stage_no (by rw [ht]; decide) _ _ _ _),
    Prog.bind_ok (rfl : Prog.start _ _ = _)]
  have hlog : w.log ++ [Stage.parser] ++ [.background] ++ [.integrals] ++ [.corrfunc] ++ [.output] =
      w.log ++ stagesOf CORRFUNC := by simp [stagesOf, CORRFUNC, MULTIPOLES, AVERAGE_MULTIPOLES, COVARIANCE_MULTIPOLES, COVARIANCE_AVERAGE_MULTIPOLES]
  simp only [hlog]
  rw [h1]
  unfold output_result output_corrfunc
  rw [if_pos ht]
  rw [Prog.bind_ok (Prog.lift_ok (result_header_ok p.contrib "# z_mean, sep, mu, value".toList _ (by decide +kernel) (by decide +kernel)) _),
    Prog.bind_ok (fopen_a_ok g2 _),
    Prog.bind_ok (fputs_ok _ _ _ _), Prog.bind_ok (Prog.lift_ok (array_text_ok hl _) _), fputs_ok, put_contents,
    put_contents, put_put, put_put, g1, k2, List.append_assoc]
  congr 4
  simp [corrfuncText, ofLines, blankLine, List.intercalate, sp, List.map_map, Function.comp_def]

/-- C40 for the multipoles. -/
theorem C40_multipoles (ha : Asks L opts settings) (hp : L.parser settings w.disk = .ok p)
    (hc : (w.disk.file (path_of settings)).bind L.read_conf = some c) (ht : p.output_type = MULTIPOLES)
    (hb : L.background p.toCPar = .ok bg) (hr : BgReady p bg row) (hi : L.integrals p.toCPar bg = .ok i)
    {a : CArray MpCoord} {l : List (MpCoord × ℝ)} (hf : L.multipoles p.toCPar bg (some i) = .ok a) (hl : a.Holds l)
    (hw : CanWrite w.disk p ["settings.cfg", "background.dat", "multipoles.dat"]) :
    ∃ d, main L opts w = (.ok (), ⟨d, w.log ++ stagesOf MULTIPOLES⟩) ∧
      RunWrote p w.disk d (L.show_conf c) (bgText L.rounding p.type_bg bg.size row)
        (some ("multipoles.dat", w.disk.contents (p.place "multipoles.dat") ++ multipolesText L.rounding p.contrib l)) := by
  obtain ⟨c', hc', hpc⟩ := parser_conf hp
  obtain rfl : c' = c := Option.some.inj (hc'.symm.trans hc)
  obtain ⟨out, e, h1, h2, h3, _⟩ := output_front hw hpc hr L.rounding (by simp) (by simp) (w.log ++ stagesOf MULTIPOLES)
  obtain ⟨g1, g2⟩ := h3 "multipoles.dat" (by simp) ⟨by decide +kernel, by decide +kernel, by decide +kernel⟩
  obtain ⟨k1, k2⟩ := wrote_of (n := "multipoles.dat") (t := w.disk.contents (p.place "multipoles.dat") ++ 
    multipolesText L.rounding p.contrib l) h2 (by decide) (by decide)
  refine ⟨_, ?_, k1⟩
  rw [main_asks ha]
  unfold main_sequence
  rw [Prog.bind_ok (rfl : Prog.start _ _ = _), Prog.bind_ok (rfl : Prog.disk _ = _), Prog.bind_ok (Prog.lift_ok hp _),
    Prog.bind_ok (rfl : Prog.start _ _ = _), Prog.bind_ok (Prog.lift_ok hb _),
    Prog.bind_ok (stage_yes (.inr (.inl ht)) (show (L.integrals p.toCPar bg).map some = .ok (some i) by rw [hi]; rfl) _ _),
    Prog.bind_ok (stage_no (by rw [ht]; decide) _ _ _ _),
    Prog.bind_ok (stage_yes (ht) hf _ _),
    Prog.bind_ok (stage_no (by rw [ht]; decide) _ _ _ _),
    Prog.bind_ok (stage_no (by rw [ht]; decide) _ _ _ _),
    Prog.bind_ok (rfl : Prog.start _ _ = _)]
  have hlog : w.log ++ [Stage.parser] ++ [.background] ++ [.integrals] ++ [.multipoles] ++ [.output] =
      w.log ++ stagesOf MULTIPOLES := by simp [stagesOf, CORRFUNC, MULTIPOLES, AVERAGE_MULTIPOLES, COVARIANCE_MULTIPOLES, COVARIANCE_AVERAGE_MULTIPOLES]
  simp only [hlog]
  rw [h1]
  unfold output_result output_multipoles
  rw [if_neg (by rw [ht]; decide), if_pos ht]
  rw [Prog.bind_ok (Prog.lift_ok (result_header_ok p.contrib "# z_mean, l, sep, value".toList _ (by decide +kernel) (by decide +kernel)) _),
    Prog.bind_ok (fopen_a_ok g2 _),
    Prog.bind_ok (fputs_ok _ _ _ _), Prog.bind_ok (Prog.lift_ok (array_text_ok hl _) _), fputs_ok, put_contents,
    put_contents, put_put, put_put, g1, k2, List.append_assoc]
  congr 4
  simp [multipolesText, ofLines, blankLine, List.intercalate, sp, List.map_map, Function.comp_def]

/-- C40 for the covariance of the multipoles. -/
theorem C40_covariance (ha : Asks L opts settings) (hp : L.parser settings w.disk = .ok p)
    (hc : (w.disk.file (path_of settings)).bind L.read_conf = some c) (ht : p.output_type = COVARIANCE_MULTIPOLES)
    (hb : L.background p.toCPar = .ok bg) (hr : BgReady p bg row) 
    {a : CArray CovCoord} {l : List (CovCoord × ℝ)} (hf : L.covariance p.toCPar bg = .ok a) (hl : a.Holds l)
    (hw : CanWrite w.disk p ["settings.cfg", "background.dat", "covariance_multipoles.dat"]) :
    ∃ d, main L opts w = (.ok (), ⟨d, w.log ++ stagesOf COVARIANCE_MULTIPOLES⟩) ∧
      RunWrote p w.disk d (L.show_conf c) (bgText L.rounding p.type_bg bg.size row)
        (some ("covariance_multipoles.dat", w.disk.contents (p.place "covariance_multipoles.dat") ++ covarianceText L.rounding p.contrib l)) := by
  obtain ⟨c', hc', hpc⟩ := parser_conf hp
  obtain rfl : c' = c := Option.some.inj (hc'.symm.trans hc)
  obtain ⟨out, e, h1, h2, h3, _⟩ := output_front hw hpc hr L.rounding (by simp) (by simp) (w.log ++ stagesOf COVARIANCE_MULTIPOLES)
  obtain ⟨g1, g2⟩ := h3 "covariance_multipoles.dat" (by simp) ⟨by decide +kernel, by decide +kernel, by decide +kernel⟩
  obtain ⟨k1, k2⟩ := wrote_of (n := "covariance_multipoles.dat") (t := w.disk.contents (p.place "covariance_multipoles.dat") ++ 
    covarianceText L.rounding p.contrib l) h2 (by decide) (by decide)
  refine ⟨_, ?_, k1⟩
  rw [main_asks ha]
  unfold main_sequence
  rw [Prog.bind_ok (rfl : Prog.start _ _ = _), Prog.bind_ok (rfl : Prog.disk _ = _), Prog.bind_ok (Prog.lift_ok hp _),
    Prog.bind_ok (rfl : Prog.start _ _ = _), Prog.bind_ok (Prog.lift_ok hb _),
    Prog.bind_ok (stage_no (by rw [ht]; decide) _ _ _ _),
    Prog.bind_ok (stage_no (by rw [ht]; decide) _ _ _ _),
    Prog.bind_ok (stage_no (by rw [ht]; decide) _ _ _ _),
    Prog.bind_ok (stage_no (by rw [ht]; decide) _ _ _ _),
    Prog.bind_ok (stage_yes (.inl ht) hf _ _),
    Prog.bind_ok (rfl : Prog.start _ _ = _)]
  have hlog : w.log ++ [Stage.parser] ++ [.background] ++ [.covariance] ++ [.output] =
      w.log ++ stagesOf COVARIANCE_MULTIPOLES := by simp [stagesOf, CORRFUNC, MULTIPOLES, AVERAGE_MULTIPOLES, COVARIANCE_MULTIPOLES, COVARIANCE_AVERAGE_MULTIPOLES]
  simp only [hlog]
  rw [if_pos ht, if_pos ht]
  rw [h1]
  unfold output_result output_covariance
  rw [if_neg (by rw [ht]; decide), if_neg (by rw [ht]; decide), if_pos ht]
  rw [Prog.bind_ok (fopen_a_ok g2 _),
    Prog.bind_ok (Prog.lift_ok (result_header_ok p.contrib "# z_mean, l1, l2, sep1, sep2, value".toList _ (by decide +kernel) (by decide +kernel)) _),
    Prog.bind_ok (fputs_ok _ _ _ _), Prog.bind_ok (Prog.lift_ok (array_text_ok hl _) _), fputs_ok, put_contents,
    put_contents, put_put, put_put, g1, k2, List.append_assoc]
  congr 4
  simp [covarianceText, ofLines, blankLine, List.intercalate, sp, List.map_map, Function.comp_def]

/-- C40 for the covariance of the redshift averaged multipoles; an older file is replaced. -/
theorem C40_average_covariance (ha : Asks L opts settings) (hp : L.parser settings w.disk = .ok p)
    (hc : (w.disk.file (path_of settings)).bind L.read_conf = some c) (ht : p.output_type = COVARIANCE_AVERAGE_MULTIPOLES)
    (hb : L.background p.toCPar = .ok bg) (hr : BgReady p bg row) 
    {a : CArray CovCoord} {l : List (CovCoord × ℝ)} (hf : L.covariance p.toCPar bg = .ok a) (hl : a.Holds l)
    (hw : CanWrite w.disk p ["settings.cfg", "background.dat", "covariance_average_multipoles.dat"]) :
    ∃ d, main L opts w = (.ok (), ⟨d, w.log ++ stagesOf COVARIANCE_AVERAGE_MULTIPOLES⟩) ∧
      RunWrote p w.disk d (L.show_conf c) (bgText L.rounding p.type_bg bg.size row)
        (some ("covariance_average_multipoles.dat", averageCovarianceText L.rounding l)) := by
  obtain ⟨c', hc', hpc⟩ := parser_conf hp
  obtain rfl : c' = c := Option.some.inj (hc'.symm.trans hc)
  obtain ⟨out, e, h1, h2, h3, _⟩ := output_front hw hpc hr L.rounding (by simp) (by simp) (w.log ++ stagesOf COVARIANCE_AVERAGE_MULTIPOLES)
  obtain ⟨g1, g2⟩ := h3 "covariance_average_multipoles.dat" (by simp) ⟨by decide +kernel, by decide +kernel, by decide +kernel⟩
  obtain ⟨k1, k2⟩ := wrote_of (n := "covariance_average_multipoles.dat") (t := 
    averageCovarianceText L.rounding l) h2 (by decide) (by decide)
  refine ⟨_, ?_, k1⟩
  rw [main_asks ha]
  unfold main_sequence
  rw [Prog.bind_ok (rfl : Prog.start _ _ = _), Prog.bind_ok (rfl : Prog.disk _ = _), Prog.bind_ok (Prog.lift_ok hp _),
    Prog.bind_ok (rfl : Prog.start _ _ = _), Prog.bind_ok (Prog.lift_ok hb _),
    Prog.bind_ok (stage_no (by rw [ht]; decide) _ _ _ _),
    Prog.bind_ok (stage_no (by rw [ht]; decide) _ _ _ _),
    Prog.bind_ok (stage_no (by rw [ht]; decide) _ _ _ _),
    Prog.bind_ok (stage_no (by rw [ht]; decide) _ _ _ _),
    Prog.bind_ok (stage_yes (.inr ht) hf _ _),
    Prog.bind_ok (rfl : Prog.start _ _ = _)]
  have hlog : w.log ++ [Stage.parser] ++ [.background] ++ [.covariance] ++ [.output] =
      w.log ++ stagesOf COVARIANCE_AVERAGE_MULTIPOLES := by simp [stagesOf, CORRFUNC, MULTIPOLES, AVERAGE_MULTIPOLES, COVARIANCE_MULTIPOLES, COVARIANCE_AVERAGE_MULTIPOLES]
  simp only [hlog]
  rw [if_neg (by rw [ht]; decide), if_neg (by rw [ht]; decide)]
  rw [h1]
  unfold output_result output_average_covariance
  rw [if_neg (by rw [ht]; decide), if_neg (by rw [ht]; decide), if_neg (by rw [ht]; decide), if_pos ht]
  rw [Prog.bind_ok (fopen_w_ok g2 _), Prog.bind_ok (fputs_ok _ _ _ _), Prog.bind_ok (Prog.lift_ok (array_text_ok hl _) _),
    fputs_ok, put_contents, put_contents, put_put, put_put, g1, List.nil_append]
  congr 3
  have hh : "# sep[Mpc/h]\tsep[Mpc/h]\tresult\n".toList = "# sep[Mpc/h]\tsep[Mpc/h]\tresult".toList ++ ['\n'] := by
    decide +kernel
  rw [hh]
  unfold averageCovarianceText
  generalize "# sep[Mpc/h]\tsep[Mpc/h]\tresult".toList = t
  simp [ofLines, blankLine, List.intercalate, sp, List.map_map, Function.comp_def]

/-- **C40**: whatever happens, the stages that were started are in order and belong to the requested output; a run that
succeeds has gone through all of them; and a run that fails before the output leaves all files as they were. -/
theorem C40_stages (ha : Asks L opts settings) : ∃ pre, (main L opts w).2.log = w.log ++ pre ∧ InOrder pre ∧
    (∀ p, L.parser settings w.disk = .ok p → pre <+: stagesOf p.output_type) ∧
    ((main L opts w).1 = .ok () → ∃ p, L.parser settings w.disk = .ok p ∧ pre = stagesOf p.output_type) ∧
    (Stage.output ∉ pre → (main L opts w).2.disk = w.disk) := by
  rw [main_asks ha]
  rcases sequence_cases L settings w with ⟨e, pre, h1, h2, h3⟩ | ⟨p, bg, cf, mp, ramp, c1, c2, h1, h2, h3⟩
  · rw [h1]
    refine ⟨pre, rfl, ?_, ?_, fun h => absurd h (by simp), fun _ => rfl⟩
    · rcases h3 with rfl | ⟨p, _, h4⟩
      · exact (C40_in_order 1).of_prefix ⟨[.background, .integrals, .corrfunc, .output], rfl⟩
      · exact (C40_in_order _).of_prefix h4
    · intro p hp
      rcases h3 with rfl | ⟨q, h4, h5⟩
      · rw [stages_eq]
        exact List.prefix_append _ _
      · rw [hp] at h4
        cases h4
        exact h5
  · rw [h3]
    refine ⟨stagesOf p.output_type, KeepsLog.output _ _ _ _ _ _ _ _ _, C40_in_order _, fun q hq => ?_, fun _ => ⟨p, h1, rfl⟩,
      fun h => absurd ?_ h⟩
    · rw [hq] at h1
      cases h1
      exact List.prefix_rfl
    · rw [stages_eq]
      simp

/-- **C40 fails**: redshift averaged multipoles are calculated, the run succeeds, and they are not written. -/
theorem C40_average_false (ha : Asks L opts settings) (hp : L.parser settings w.disk = .ok p)
    (hc : (w.disk.file (path_of settings)).bind L.read_conf = some c) (ht : p.output_type = AVERAGE_MULTIPOLES)
    (hb : L.background p.toCPar = .ok bg) (hr : BgReady p bg row) (hi : L.integrals p.toCPar bg = .ok i)
    {a : CArray AmpCoord} (hf : L.average_multipoles p.toCPar bg (some i) = .ok a)
    (hw : CanWrite w.disk p ["settings.cfg", "background.dat"]) :
    ∃ d, main L opts w = (.ok (), ⟨d, w.log ++ stagesOf AVERAGE_MULTIPOLES⟩) ∧
      RunWrote p w.disk d (L.show_conf c) (bgText L.rounding p.type_bg bg.size row) none := by
  obtain ⟨c', hc', hpc⟩ := parser_conf hp
  obtain rfl : c' = c := Option.some.inj (hc'.symm.trans hc)
  obtain ⟨out, e, h1, h2, _⟩ := output_front hw hpc hr L.rounding (by simp) (by simp) (w.log ++ stagesOf AVERAGE_MULTIPOLES)
  refine ⟨e, ?_, wrote_none h2⟩
  rw [main_asks ha]
  unfold main_sequence
  rw [Prog.bind_ok (rfl : Prog.start _ _ = _), Prog.bind_ok (rfl : Prog.disk _ = _), Prog.bind_ok (Prog.lift_ok hp _),
    Prog.bind_ok (rfl : Prog.start _ _ = _), Prog.bind_ok (Prog.lift_ok hb _),
    Prog.bind_ok (stage_yes (.inr (.inr ht)) (show (L.integrals p.toCPar bg).map some = .ok (some i) by rw [hi]; rfl) _ _),
    Prog.bind_ok (stage_no (by rw [ht]; decide) _ _ _ _),
    Prog.bind_ok (stage_no (by rw [ht]; decide) _ _ _ _),
    Prog.bind_ok (stage_yes ht hf _ _),
    Prog.bind_ok (stage_no (by rw [ht]; decide) _ _ _ _),
    Prog.bind_ok (rfl : Prog.start _ _ = _)]
  have hlog : w.log ++ [Stage.parser] ++ [.background] ++ [.integrals] ++ [.average_multipoles] ++ [.output] =
      w.log ++ stagesOf AVERAGE_MULTIPOLES := by
    simp [stagesOf, CORRFUNC, MULTIPOLES, AVERAGE_MULTIPOLES, COVARIANCE_MULTIPOLES, COVARIANCE_AVERAGE_MULTIPOLES]
  simp only [hlog]
  rw [h1]
  unfold output_result
  rw [if_neg (by rw [ht]; decide), if_neg (by rw [ht]; decide), if_neg (by rw [ht]; decide), if_neg (by rw [ht]; decide)]
  rfl

/-- **C40 fails**: if there is a file from an earlier run, the new results come after the old ones. -/
theorem C40_rerun_false (ha : Asks L opts settings) (hp : L.parser settings w.disk = .ok p)
    (hc : (w.disk.file (path_of settings)).bind L.read_conf = some c) (ht : p.output_type = CORRFUNC)
    (hb : L.background p.toCPar = .ok bg) (hr : BgReady p bg row) (hi : L.integrals p.toCPar bg = .ok i)
    {a : CArray CfCoord} {l : List (CfCoord × ℝ)} (hf : L.corrfunc p.toCPar bg (some i) = .ok a) (hl : a.Holds l)
    (hw : CanWrite w.disk p ["settings.cfg", "background.dat", "corrfunc.dat"])
    (hold : w.disk.contents (p.place "corrfunc.dat") ≠ []) :
    (main L opts w).1 = .ok () ∧
      (main L opts w).2.disk.file (p.place "corrfunc.dat") ≠ some (corrfuncText L.rounding p.contrib l) := by
  obtain ⟨d, h1, h2⟩ := C40_corrfunc ha hp hc ht hb hr hi hf hl hw
  rw [h1]
  refine ⟨rfl, ?_⟩
  have := h2.main _ rfl
  simp only at this ⊢
  rw [this]
  intro h
  exact hold (List.append_left_eq_self.mp (Option.some.inj h))

/-- **C40 fails**: the program crashes if it may not write the file of the correlation function. -/
theorem C40_unwritable_false (ha : Asks L opts settings) (hp : L.parser settings w.disk = .ok p)
    (ht : p.output_type = CORRFUNC)
    (hb : L.background p.toCPar = .ok bg) (hr : BgReady p bg row) (hi : L.integrals p.toCPar bg = .ok i)
    {a : CArray CfCoord} (hf : L.corrfunc p.toCPar bg (some i) = .ok a)
    (hw : CanWrite w.disk p ["settings.cfg", "background.dat"])
    (hno : w.disk.may (p.place "corrfunc.dat") = false) : (main L opts w).1 = .error .null := by
  obtain ⟨c, hc, hpc⟩ := parser_conf hp
  obtain ⟨out, e, h1, h2, _, h4, h5⟩ := output_front hw hpc hr L.rounding (by simp) (by simp) (w.log ++ stagesOf CORRFUNC)
  rw [main_asks ha]
  unfold main_sequence
  rw [Prog.bind_ok (rfl : Prog.start _ _ = _), Prog.bind_ok (rfl : Prog.disk _ = _), Prog.bind_ok (Prog.lift_ok hp _),
    Prog.bind_ok (rfl : Prog.start _ _ = _), Prog.bind_ok (Prog.lift_ok hb _),
    Prog.bind_ok (stage_yes (.inl ht) (show (L.integrals p.toCPar bg).map some = .ok (some i) by rw [hi]; rfl) _ _),
    Prog.bind_ok (stage_yes (ht) hf _ _),
    Prog.bind_ok (stage_no (by rw [ht]; decide) _ _ _ _),
    Prog.bind_ok (stage_no (by rw [ht]; decide) _ _ _ _),
    Prog.bind_ok (stage_no (by rw [ht]; decide) _ _ _ _),
    Prog.bind_ok (rfl : Prog.start _ _ = _)]
  have hlog : w.log ++ [Stage.parser] ++ [.background] ++ [.integrals] ++ [.corrfunc] ++ [.output] =
      w.log ++ stagesOf CORRFUNC := by simp [stagesOf]
  simp only [hlog]
  rw [h1]
  unfold output_result output_corrfunc
  rw [if_pos ht]
  have hn : ¬ e.opens (composed out p.begins "corrfunc.dat") := by
    intro h
    have := h.2.2.2
    rw [h4 _ ⟨by decide +kernel, by decide +kernel, by decide +kernel⟩, h5, hno] at this
    exact absurd this (by simp)
  have hfo : fopen_a (composed out p.begins "corrfunc.dat") ⟨e, w.log ++ stagesOf CORRFUNC⟩ =
      (.ok none, ⟨e, w.log ++ stagesOf CORRFUNC⟩) := by
    unfold fopen_a
    rw [Prog.bind_ok (rfl : Prog.disk _ = _), if_neg hn]
    rfl
  rw [Prog.bind_ok (Prog.lift_ok (result_header_ok p.contrib "# z_mean, sep, mu, value".toList _ (by decide +kernel) (by decide +kernel)) _),
    Prog.bind_ok hfo, Prog.bind_err (rfl : fputs none _ _ = _)]

/-- **C40 fails**: with an empty `output_path`, no run that gets to the output succeeds; it reads before the beginning of
the path. -/
theorem C40_empty_path_false (ha : Asks L opts settings) (hp : L.parser settings w.disk = .ok p) (he : p.output_path = []) :
    (main L opts w).1 ≠ .ok () ∧ ∀ pre, (main L opts w).2.log = w.log ++ pre → Stage.output ∈ pre →
      (main L opts w).1 = .error .oob := by
  rw [main_asks ha]
  rcases sequence_cases L settings w with ⟨e, pre, h1, h2, h3⟩ | ⟨q, bg, cf, mp, ramp, c1, c2, h1, h2, h3⟩
  · rw [h1]
    refine ⟨by simp, fun pre' h4 h5 => ?_⟩
    rw [List.append_cancel_left h4] at h2
    exact absurd h5 h2
  · have hpq : p = q := by rw [h1] at hp; cases hp; rfl
    subst hpq
    have hm : output_make_path [] ⟨w.disk, w.log ++ stagesOf p.output_type⟩ =
        (.error .oob, ⟨w.disk, w.log ++ stagesOf p.output_type⟩) := by
      unfold output_make_path
      rw [Prog.bind_ok (rfl : Prog.disk _ = _), if_neg (by simp [Disk.stat])]
      have : ([] : Text).splitOnP (fun x => decide (x = '/')) = [[]] := by simp
      rw [this]
      rfl
    have : main_sequence L settings w = (.error .oob, ⟨w.disk, w.log ++ stagesOf p.output_type⟩) := by
      rw [h3, output_split, he]
      exact Prog.bind_err hm
    rw [this]
    exact ⟨by simp, fun _ _ _ => rfl⟩

/-- **C40 fails**: an unknown name in the list of background columns hides all later columns, although they
keep their titles. -/
theorem C40_unknown_column_false (R : Rounding) (s : Text) (h : ∀ i < bg.size, bg.rows.load i = .ok (row i)) {e : Disk}
    (ho : e.opens s) (log : List Stage) :
    output_background R s (["z", "x", "a"].map String.toList) bg.size bg ⟨e, log⟩ =
      (.ok (), ⟨e.put (path_of s) (ofLines ("# 1)z\t3)a\t".toList ::
        (List.range bg.size).map fun i => fmt R 10 (row i).z ++ ['\t'])), log⟩) := by
  have := output_background_upTo R s h rfl (["z"].map String.toList) (["x", "a"].map String.toList)
    (by simp [bgNames]) (by simp) (by simp [bgNames]) (by simp)
    (by decide +kernel) ho log
  have e1 : bgTitles (["z"].map String.toList ++ ["x", "a"].map String.toList) = "# 1)z\t3)a\t".toList := by decide +kernel
  have e2 : ∀ i, rowText (fmt R 10) ['\t'] ((["z"].map String.toList).map fun name => bgValue name (row i)) =
      fmt R 10 (row i).z ++ ['\t'] := fun i => by
    have hz : bgValue "z".toList (row i) = (row i).z := if_pos rfl
    simp only [List.map_cons, List.map_nil, rowText, hz, List.flatMap_cons, List.flatMap_nil, List.append_nil]
  rw [e1] at this
  simp only [e2] at this
  exact this

/-- **C40 fails**: if the first name is unknown, there is no background file at all. -/
theorem C40_unknown_first_false (R : Rounding) (s : Text) (h : ∀ i < bg.size, bg.rows.load i = .ok (row i)) (w : RunState) :
    output_background R s (["x", "z"].map String.toList) bg.size bg w = (.ok (), w) := by
  obtain ⟨o, h1, h2, h3⟩ := bg_loop h (["x", "z"].map String.toList) (by simp) (by decide +kernel)
  have hld : ∀ i < 20, o.load i = .ok ((o.val i).getD none) := by
    intro i hi
    rw [Buf.load_eq, h2, h3 i hi]
    exact ⟨hi, rfl⟩
  have hargs : collect (fun i => o.load i) (List.range 20) = .ok ((List.range 20).map fun i => (o.val i).getD none) := by
    rw [collect_iff]
    refine List.forall₂_iff_get.mpr ⟨by simp, fun i hi hi2 => ?_⟩
    simpa using hld i (by simpa using hi)
  have h0 : (o.val 0).getD none = none := by
    rw [h3 0 (by norm_num)]
    simp [bgNames]
  have hw : ∀ t, write_ncol_null R ((List.range 20).map fun i => (o.val i).getD none) (bg.size : ℤ).toNat (some t) ['\t'] =
      .ok none := by
    intro t
    rw [show List.range 20 = 0 :: (List.range 19).map (· + 1) from rfl, List.map_cons, h0]
    unfold write_ncol_null
    obtain ⟨v, hv, -⟩ := (cmalloc COFFE_MAX_ALLOCABLE : Buf ℕ (Option (Buf ℕ ℝ))).store_wrote 0 (fun _ => none)
      (by show 0 < COFFE_MAX_ALLOCABLE; decide)
    simp only [hv]
    rfl
  have hfit : (bgTitles ((["x", "z"].map String.toList))).length + ['\n'].length < COFFE_MAX_STRLEN := by decide +kernel
  unfold output_background
  rw [Prog.bind_ok (Prog.lift_ok h1 _), Prog.bind_ok (Prog.lift_ok (strncat_ok hfit) _),
    Prog.bind_ok (Prog.lift_ok hargs _), Prog.bind_ok (Prog.lift_ok (hw _) _)]
  rfl

/-! ## A concrete run -/

theorem wDisk_settings : path_of ['s'] = wSettingsPath := by
  unfold path_of wSettingsPath
  rw [components_plain (by decide)]
  rfl

theorem wDisk_read (c : Conf) : (wDisk.file (path_of ['s'])).bind (wLib c).read_conf = some c := by
  rw [wDisk_settings]
  rfl

theorem wAsks (c : Conf) : Asks (wLib c) wOpts ['s'] :=
  ⟨by simp [wOpts], rfl, by decide, by show (0 : ℤ) < 4; norm_num⟩

/-- The last of several settings files. -/
example (c : Conf) : Asks (wLib c) [.s ['t'], .n ['2'], .other, .s ['s']] ['s'] :=
  ⟨by simp, rfl, by decide, by show (0 : ℤ) < atoi ['2']; decide⟩

theorem wArray_holds {κ : Type} (k : κ) : (wArray k).Holds [(k, 1)] where
  size := rfl
  coords := fun i hi => by
    obtain rfl : i = 0 := by simpa using hi
    exact Buf.load_of (dom := (· < 1)) _ (by norm_num)
  value := fun i hi => by
    obtain rfl : i = 0 := by simpa using hi
    exact Buf.load_of (dom := (· < 1)) _ (by norm_num)

/-- A complete settings file is read, and the output can be written. -/
theorem wMain_ready {ty : ℤ} {l : List (String × Setting)} {d : Disk} (hd : d.file (path_of ['s']) = some [])
    (H : Complete ((wLib (wConf ty l)).env d) (wConf ty l) ty)
    (h1 : lookup_string (wConf ty l) "output_path" = some "./".toList)
    (h2 : lookup_string (wConf ty l) "output_prefix" = some "a".toList)
    (h3 : lookup_int (wConf ty l) "background_sampling" = some 100)
    (h4 : ListsText (wConf ty l) "output_background" ["z".toList])
    (hdir : ∀ q, d.dir q = q.2.isEmpty) (hf : ∀ b, d.file (b, []) = none) :
    ∃ p, (wLib (wConf ty l)).parser ['s'] d = .ok p ∧ p.output_type = ty ∧
      (wLib (wConf ty l)).background p.toCPar = .ok ⟨100, Buf.of (· < 100) fun _ => wBgRow⟩ ∧
      BgReady p ⟨100, Buf.of (· < 100) fun _ => wBgRow⟩ (fun _ => wBgRow) ∧
      (∀ n, p.place n = (false, ["a".toList ++ n.toList])) ∧
      ∀ names, (∀ n ∈ names, d.may (false, ["a".toList ++ n.toList]) = true) → CanWrite d p names := by
  obtain ⟨q, hq⟩ := C39_accepts (R := wRun) H
  have F := C39_faithful hq
  have e0 : q.output_type = ty := (Option.some.inj (H.type.symm.trans F.output_type)).symm
  have e1 : q.output_path = "./".toList := (Option.some.inj (h1.symm.trans F.output_path)).symm
  have e2 : q.output_prefix = "a".toList := (Option.some.inj (h2.symm.trans F.output_prefix)).symm
  have e3 : q.background_bins = 100 := (Option.some.inj (h3.symm.trans F.background_bins)).symm
  have e4 : q.type_bg = ["z".toList] := F.type_bg _ h4
  have hb : ({ q with timestamp := [], conf := some ['x'] } : MainPar).begins = "a".toList := by
    unfold MainPar.begins
    rw [show ({ q with timestamp := [], conf := some ['x'] } : MainPar).output_prefix = "a".toList from e2, if_neg (by decide)]
  have hpath : path_of "./".toList = (false, []) := by
    have : "./".toList = ['.'] ++ ['/'] := rfl
    rw [this, path_slash (by simp)]
    unfold path_of
    rw [components_plain (by decide)]
    rfl
  have hplace : ∀ n, ({ q with timestamp := [], conf := some ['x'] } : MainPar).place n = (false, ["a".toList ++ n.toList]) := by
    intro n
    unfold MainPar.place
    rw [hb, show ({ q with timestamp := [], conf := some ['x'] } : MainPar).output_path = "./".toList from e1, hpath]
    rfl
  refine ⟨{ q with timestamp := [], conf := some ['x'] }, ?_, e0, ?_, ⟨?_, ?_, ?_, ?_, ?_, ?_⟩, hplace, fun names hn =>
    ⟨?_, ?_, ?_, ?_, ?_, ?_, ?_⟩⟩
  · unfold Lib.parser
    rw [hd]
    show (do
      let p ← coffe_parser_init ((wLib (wConf ty l)).env d) wRun (wConf ty l)
      pure _ : CRes MainPar) = _
    rw [hq]
    rfl
  · show (Except.ok _ : CRes BgTable) = _
    simp [e3]
  · exact e3.symm
  · intro i hi
    exact Buf.load_of (dom := (· < 100)) _ hi
  · show ∀ n ∈ q.type_bg, _
    rw [e4]
    simp [bgNames]
  · show q.type_bg ≠ []
    rw [e4]
    simp
  · show q.type_bg.length < 20
    rw [e4]
    simp
  · show (bgHeader q.type_bg).length + 1 < _
    rw [e4]
    decide +kernel
  · show q.output_path ≠ []
    rw [e1]
    decide
  · rw [hb]
    show q.output_path.length + _ + 40 < _
    rw [e1]
    decide
  · rw [hb]
    decide
  · intro b
    rw [hdir]
    rfl
  · intro r hr
    rw [hdir] at hr
    obtain ⟨b, r2⟩ := r
    obtain rfl : r2 = [] := List.isEmpty_iff.mp hr
    exact hf b
  · intro r hr
    have : path_of ({ q with timestamp := [], conf := some ['x'] } : MainPar).output_path = (false, []) := by
      rw [show ({ q with timestamp := [], conf := some ['x'] } : MainPar).output_path = "./".toList from e1, hpath]
    rw [this] at hr ⊢
    obtain rfl : r = [] := List.prefix_nil.mp hr
    left
    rw [hdir]
    rfl
  · intro n hnn
    rw [hplace, hdir]
    exact ⟨rfl, hn n hnn⟩

theorem wMain_env (c : Conf) : ((wLib c).env wDisk).file "p".toList = none := by
  show wDisk.file (path_of "p".toList) = none
  have : path_of "p".toList = (false, [['p']]) := by
    unfold path_of
    rw [components_plain (by decide)]
    rfl
  rw [this]
  rfl

theorem wSpectrum (c : Conf) : 5 ≤ ((wLib c).env wDisk).default_spectrum.length ∧
    (((wLib c).env wDisk).default_spectrum.map Prod.fst).Pairwise (· < ·) :=
  ⟨by show 5 ≤ 5; norm_num, by simp only [Lib.env, wLib]; norm_num⟩

/-- A run for the correlation function. -/
example : ∃ p d, (wLib (wConf 1 [("z_mean", wIntList [1]), ("mu", wIntList [0]), ("separations_sampling", wIntOne 1)])).parser
      ['s'] wDisk = .ok p ∧
    main (wLib (wConf 1 [("z_mean", wIntList [1]), ("mu", wIntList [0]), ("separations_sampling", wIntOne 1)])) wOpts
      ⟨wDisk, []⟩ = (.ok (), ⟨d, [.parser, .background, .integrals, .corrfunc, .output]⟩) ∧
    d.file (false, ["acorrfunc.dat".toList]) = some (corrfuncText halfUp p.contrib [(⟨1, 0, 10⟩, 1)]) := by
  obtain ⟨p, h1, h2, h3, h4, h5, h6⟩ := wMain_ready (by rw [wDisk_settings]; rfl) (wConf_complete_of rfl (wMain_env _) (wSpectrum _) 1
    [("z_mean", wIntList [1]), ("mu", wIntList [0]), ("separations_sampling", wIntOne 1)] (by simp)
    (fun _ => .inr ⟨[1], ⟨_, rfl, by simp [Scalar.toFloat]⟩, by simp⟩) (fun _ => ⟨by decide, by decide⟩)
    ⟨0, 0, 0, rfl, rfl, rfl, by decide⟩ (by decide) (by decide) ⟨_, rfl, by decide⟩ ⟨["z".toList], rfl⟩) rfl rfl rfl rfl
    (fun _ => rfl) (fun _ => if_neg (by simp [wSettingsPath]))
  obtain ⟨d, g1, g2⟩ := C40_corrfunc (w := ⟨wDisk, []⟩) (wAsks _) h1 (wDisk_read _) h2 h3 h4 rfl rfl (wArray_holds _)
    (h6 _ fun _ _ => rfl)
  refine ⟨p, d, h1, g1, ?_⟩
  have := g2.main _ rfl
  simp only [h5] at this
  exact this

/-- A run for the multipoles. -/
example : ∃ p d, (wLib (wConf 2 [("z_mean", wIntList [1]), ("multipoles", wIntList [2]), ("separations_sampling", wIntOne 1)])).parser
      ['s'] wDisk = .ok p ∧
    main (wLib (wConf 2 [("z_mean", wIntList [1]), ("multipoles", wIntList [2]), ("separations_sampling", wIntOne 1)])) wOpts
      ⟨wDisk, []⟩ = (.ok (), ⟨d, [.parser, .background, .integrals, .multipoles, .output]⟩) ∧
    d.file (false, ["amultipoles.dat".toList]) = some (multipolesText halfUp p.contrib [(⟨1, 2, 10⟩, 1)]) := by
  obtain ⟨p, h1, h2, h3, h4, h5, h6⟩ := wMain_ready (by rw [wDisk_settings]; rfl) (wConf_complete_of rfl (wMain_env _) (wSpectrum _) 2
    [("z_mean", wIntList [1]), ("multipoles", wIntList [2]), ("separations_sampling", wIntOne 1)] (by simp)
    (fun _ => .inr ⟨[1], ⟨_, rfl, by simp [Scalar.toFloat]⟩, by simp⟩) (fun _ => ⟨by decide, by decide⟩)
    ⟨0, 0, 0, rfl, rfl, rfl, by decide⟩ (by decide) (by decide) ⟨_, rfl, by decide⟩ ⟨["z".toList], rfl⟩) rfl rfl rfl rfl
    (fun _ => rfl) (fun _ => if_neg (by simp [wSettingsPath]))
  obtain ⟨d, g1, g2⟩ := C40_multipoles (w := ⟨wDisk, []⟩) (wAsks _) h1 (wDisk_read _) h2 h3 h4 rfl rfl (wArray_holds _)
    (h6 _ fun _ _ => rfl)
  refine ⟨p, d, h1, g1, ?_⟩
  have := g2.main _ rfl
  simp only [h5] at this
  exact this

/-- A run for the redshift averaged multipoles: it succeeds, and writes no result. -/
example : ∃ d, main (wLib (wConf 3 [("z_min", wIntList [1]), ("z_max", wIntList [2]), ("multipoles", wIntList [0]),
      ("separations_sampling", wIntOne 1)])) wOpts ⟨wDisk, []⟩ =
        (.ok (), ⟨d, [.parser, .background, .integrals, .average_multipoles, .output]⟩) ∧
    ∀ q, q ≠ wSettingsPath → q ≠ (false, ["asettings.cfg".toList]) → q ≠ (false, ["abackground.dat".toList]) →
      d.file q = none := by
  obtain ⟨p, h1, h2, h3, h4, h5, h6⟩ := wMain_ready (by rw [wDisk_settings]; rfl) (wConf_complete_of rfl (wMain_env _) (wSpectrum _) 3
    [("z_min", wIntList [1]), ("z_max", wIntList [2]), ("multipoles", wIntList [0]), ("separations_sampling", wIntOne 1)] (by simp)
    (fun e => by simp at e) (fun _ => ⟨by decide, by decide⟩)
    ⟨0, 0, 0, rfl, rfl, rfl, by decide⟩ (by decide) (by decide) ⟨_, rfl, by decide⟩ ⟨["z".toList], rfl⟩) rfl rfl rfl rfl
    (fun _ => rfl) (fun _ => if_neg (by simp [wSettingsPath]))
  obtain ⟨d, g1, g2⟩ := C40_average_false (w := ⟨wDisk, []⟩) (wAsks _) h1 (wDisk_read _) h2 h3 h4 rfl rfl
    (h6 _ fun _ _ => rfl)
  refine ⟨d, g1, fun q q1 q2 q3 => ?_⟩
  rw [g2.others q (by rw [h5]; exact q2) (by rw [h5]; exact q3) (by simp)]
  exact if_neg q1

/-- A run for the covariance of the multipoles. -/
example : ∃ p d, (wLib (wConf 4 [("z_mean", wIntList [1]), ("deltaz", wIntList [1]), ("density1", wIntList [1]), ("density2", wIntList [1]),
      ("fsky", wIntList [1]), ("pixelsize", wIntList [1]), ("multipoles", wIntList [0, 2]), ("separations_sampling", wIntOne 1)])).parser
      ['s'] wDisk = .ok p ∧
    main (wLib (wConf 4 [("z_mean", wIntList [1]), ("deltaz", wIntList [1]), ("density1", wIntList [1]), ("density2", wIntList [1]),
      ("fsky", wIntList [1]), ("pixelsize", wIntList [1]), ("multipoles", wIntList [0, 2]), ("separations_sampling", wIntOne 1)])) wOpts
      ⟨wDisk, []⟩ = (.ok (), ⟨d, [.parser, .background, .covariance, .output]⟩) ∧
    d.file (false, ["acovariance_multipoles.dat".toList]) =
      some (covarianceText halfUp p.contrib [(⟨1, 1, 0, 2, 10, 10⟩, 1)]) := by
  have one : ∀ s, (wConf 4 [("z_mean", wIntList [1]), ("deltaz", wIntList [1]), ("density1", wIntList [1]), ("density2", wIntList [1]),
      ("fsky", wIntList [1]), ("pixelsize", wIntList [1]), ("multipoles", wIntList [0, 2]), ("separations_sampling", wIntOne 1)]) s =
      some (wIntList [1]) → ListsReal (wConf 4 [("z_mean", wIntList [1]), ("deltaz", wIntList [1]), ("density1", wIntList [1]), ("density2", wIntList [1]),
      ("fsky", wIntList [1]), ("pixelsize", wIntList [1]), ("multipoles", wIntList [0, 2]), ("separations_sampling", wIntOne 1)]) s [1] :=
    fun s hs => ⟨_, hs, by simp [Scalar.toFloat]⟩
  obtain ⟨p, h1, h2, h3, h4, h5, h6⟩ := wMain_ready (by rw [wDisk_settings]; rfl) (wConf_complete_of rfl (wMain_env _) (wSpectrum _) 4
    [("z_mean", wIntList [1]), ("deltaz", wIntList [1]), ("density1", wIntList [1]), ("density2", wIntList [1]),
      ("fsky", wIntList [1]), ("pixelsize", wIntList [1]), ("multipoles", wIntList [0, 2]), ("separations_sampling", wIntOne 1)] (by simp)
    (fun _ => .inr ⟨[1], one _ rfl, by simp⟩) (fun _ => ⟨by decide, by decide⟩)
    ⟨0, 0, 0, rfl, rfl, rfl, by decide⟩ (fun _ => ⟨[1], [1], [1], [1], [1], [1], one _ rfl, one _ rfl, one _ rfl, one _ rfl, one _ rfl,
      one _ rfl, rfl, rfl, rfl, rfl, rfl⟩) (by decide) ⟨_, rfl, by decide⟩ ⟨["z".toList], rfl⟩) rfl rfl rfl rfl
    (fun _ => rfl) (fun _ => if_neg (by simp [wSettingsPath]))
  obtain ⟨d, g1, g2⟩ := C40_covariance (w := ⟨wDisk, []⟩) (wAsks _) h1 (wDisk_read _) h2 h3 h4 rfl (wArray_holds _)
    (h6 _ fun _ _ => rfl)
  refine ⟨p, d, h1, g1, ?_⟩
  have := g2.main _ rfl
  simp only [h5] at this
  exact this

/-- A run for the covariance of the redshift averaged multipoles. -/
example : ∃ d, main (wLib (wConf 5 [("zmin", wIntList [1]), ("zmax", wIntList [1]), ("density1", wIntList [1]),
      ("density2", wIntList [1]), ("fsky", wIntList [1]), ("pixelsize", wIntList [1]), ("multipoles", wIntList [0, 2])])) wOpts
      ⟨wDisk, []⟩ = (.ok (), ⟨d, [.parser, .background, .covariance, .output]⟩) ∧
    d.file (false, ["acovariance_average_multipoles.dat".toList]) =
      some (averageCovarianceText halfUp [(⟨1, 1, 0, 2, 10, 10⟩, 1)]) := by
  have one : ∀ s, (wConf 5 [("zmin", wIntList [1]), ("zmax", wIntList [1]), ("density1", wIntList [1]),
      ("density2", wIntList [1]), ("fsky", wIntList [1]), ("pixelsize", wIntList [1]), ("multipoles", wIntList [0, 2])]) s =
      some (wIntList [1]) → ListsReal (wConf 5 [("zmin", wIntList [1]), ("zmax", wIntList [1]), ("density1", wIntList [1]),
      ("density2", wIntList [1]), ("fsky", wIntList [1]), ("pixelsize", wIntList [1]), ("multipoles", wIntList [0, 2])]) s [1] :=
    fun s hs => ⟨_, hs, by simp [Scalar.toFloat]⟩
  obtain ⟨p, h1, h2, h3, h4, h5, h6⟩ := wMain_ready (by rw [wDisk_settings]; rfl) (wConf_complete_of rfl (wMain_env _) (wSpectrum _) 5
    [("zmin", wIntList [1]), ("zmax", wIntList [1]), ("density1", wIntList [1]),
      ("density2", wIntList [1]), ("fsky", wIntList [1]), ("pixelsize", wIntList [1]), ("multipoles", wIntList [0, 2])] (by simp)
    (fun e => by simp at e) (fun e => by simp at e)
    ⟨0, 0, 0, rfl, rfl, rfl, by decide⟩ (by decide) (fun _ => ⟨[1], [1], [1], [1], [1], one _ rfl, one _ rfl, one _ rfl, one _ rfl, one _ rfl,
      rfl, rfl, rfl, rfl⟩) ⟨_, rfl, by decide⟩ ⟨["z".toList], rfl⟩) rfl rfl rfl rfl
    (fun _ => rfl) (fun _ => if_neg (by simp [wSettingsPath]))
  obtain ⟨d, g1, g2⟩ := C40_average_covariance (w := ⟨wDisk, []⟩) (wAsks _) h1 (wDisk_read _) h2 h3 h4 rfl (wArray_holds _)
    (h6 _ fun _ _ => rfl)
  refine ⟨d, g1, ?_⟩
  have := g2.main _ rfl
  simp only [h5] at this
  exact this

/-- A disk that already has a file of results. -/
noncomputable def wOldDisk : Disk := wDisk.put (false, ["acorrfunc.dat".toList]) ['o', 'l', 'd']

/-- The hypotheses of `C40_rerun_false` can be met. -/
example : ∃ p, (wLib (wConf 1 [("z_mean", wIntList [1]), ("mu", wIntList [0]), ("separations_sampling", wIntOne 1)])).parser
      ['s'] wOldDisk = .ok p ∧ CanWrite wOldDisk p ["settings.cfg", "background.dat", "corrfunc.dat"] ∧
    wOldDisk.contents (p.place "corrfunc.dat") ≠ [] := by
  have hs : wOldDisk.file (path_of ['s']) = some [] := by
    rw [wDisk_settings]
    exact (put_other _ _ (by decide +kernel)).trans rfl
  have he : ∀ c, ((wLib c).env wOldDisk).file "p".toList = none := by
    intro c
    have h0 : path_of "p".toList = (false, [['p']]) := by
      unfold path_of
      rw [components_plain (by decide)]
      rfl
    show wOldDisk.file (path_of "p".toList) = none
    rw [h0]
    exact (put_other _ _ (by decide +kernel)).trans rfl
  obtain ⟨p, h1, h2, h3, h4, h5, h6⟩ := wMain_ready (d := wOldDisk) hs (wConf_complete_of rfl (he _) (wSpectrum _) 1
    [("z_mean", wIntList [1]), ("mu", wIntList [0]), ("separations_sampling", wIntOne 1)] (by simp)
    (fun _ => .inr ⟨[1], ⟨_, rfl, by simp [Scalar.toFloat]⟩, by simp⟩) (fun _ => ⟨by decide, by decide⟩)
    ⟨0, 0, 0, rfl, rfl, rfl, by decide⟩ (by decide) (by decide) ⟨_, rfl, by decide⟩ ⟨["z".toList], rfl⟩) rfl rfl rfl rfl
    (fun _ => rfl) (fun b => (put_other _ _ (by simp)).trans (if_neg (by simp [wSettingsPath])))
  refine ⟨p, h1, h6 _ fun _ _ => rfl, ?_⟩
  rw [h5]
  have : (false, ["a".toList ++ "corrfunc.dat".toList]) = ((false, ["acorrfunc.dat".toList]) : Path) := rfl
  rw [this]
  show ((wDisk.put _ _).file _).getD [] ≠ []
  rw [put_file]
  decide

/-- A disk where the file of results may not be written. -/
def wLockedDisk : Disk := { wDisk with may := fun q => q ≠ (false, ["acorrfunc.dat".toList]) }

/-- The program crashes on that disk. -/
example : (main (wLib (wConf 1 [("z_mean", wIntList [1]), ("mu", wIntList [0]), ("separations_sampling", wIntOne 1)])) wOpts
    ⟨wLockedDisk, []⟩).1 = .error .null := by
  obtain ⟨p, h1, h2, h3, h4, h5, h6⟩ := wMain_ready (d := wLockedDisk) (by rw [wDisk_settings]; rfl)
    (wConf_complete_of rfl (wMain_env _) (wSpectrum _) 1
    [("z_mean", wIntList [1]), ("mu", wIntList [0]), ("separations_sampling", wIntOne 1)] (by simp)
    (fun _ => .inr ⟨[1], ⟨_, rfl, by simp [Scalar.toFloat]⟩, by simp⟩) (fun _ => ⟨by decide, by decide⟩)
    ⟨0, 0, 0, rfl, rfl, rfl, by decide⟩ (by decide) (by decide) ⟨_, rfl, by decide⟩ ⟨["z".toList], rfl⟩) rfl rfl rfl rfl
    (fun _ => rfl) (fun _ => if_neg (by simp [wSettingsPath]))
  refine C40_unwritable_false (w := ⟨wLockedDisk, []⟩) (wAsks _) h1 h2 h3 h4 rfl rfl (h6 _ ?_) ?_
  · intro n hn
    simp only [List.mem_cons, List.not_mem_nil, or_false] at hn
    rcases hn with rfl | rfl <;> decide +kernel
  · rw [h5]
    decide +kernel

/-- A settings file with an empty `output_path` is accepted, and the run fails. -/
example : (main (wLib (wConf 0 [("output_path", wStrOne "")])) wOpts ⟨wDisk, []⟩).1 ≠ .ok () := by
  have H := wConf_complete_of rfl (wMain_env (wConf 0 [("output_path", wStrOne "")])) (wSpectrum _) 0 [("output_path", wStrOne "")] (by simp)
    (fun e => by simp at e) (fun e => by simp at e) ⟨0, 0, 0, rfl, rfl, rfl, by decide⟩ (by decide) (by decide)
    ⟨_, rfl, by decide⟩ ⟨["z".toList], rfl⟩
  obtain ⟨q, hq⟩ := C39_accepts (R := wRun) H
  have F := C39_faithful hq
  have e1 : q.output_path = [] := (Option.some.inj F.output_path).symm
  have hp : (wLib (wConf 0 [("output_path", wStrOne "")])).parser ['s'] wDisk =
      .ok { q with timestamp := [], conf := some ['x'] } := by
    unfold Lib.parser
    rw [wDisk_read]
    show (do
      let p ← coffe_parser_init ((wLib (wConf 0 [("output_path", wStrOne "")])).env wDisk) wRun (wConf 0 [("output_path", wStrOne "")])
      pure _ : CRes MainPar) = _
    rw [hq]
    rfl
  exact (C40_empty_path_false (w := ⟨wDisk, []⟩) (wAsks _) hp e1).1

end Coffe
