import Verif.Proofs.MainBg

/-! # A run of the program -/

namespace Coffe
open Classical

/-- A name that the program adds to the prefix. -/
structure FileName (n : String) : Prop where
  long : 2 ≤ n.toList.length
  short : n.toList.length ≤ 33
  plain : '/' ∉ n.toList

theorem place_inj {p : MainPar} {m n : String} (h : p.place m = p.place n) : m = n := by
  unfold MainPar.place at h
  have := List.append_cancel_left (congrArg Prod.snd h)
  simp only [List.cons.injEq, and_true] at this
  exact String.toList_inj.mp (List.append_cancel_left this)

/-- The name of a file as the program composes it. -/
def composed (out begins : Text) (n : String) : Text := snprintf (snprintf (out ++ begins) ++ n.toList)

theorem composed_path {d : Disk} {p : MainPar} {names : List String} (h : CanWrite d p names) {out : Text}
    (h1 : out.getLast? = some '/') (h2 : path_of out = path_of p.output_path) (h3 : out.length ≤ p.output_path.length + 1)
    {n : String} (hf : FileName n) :
    composed out p.begins n = out ++ (p.begins ++ n.toList) ∧ path_of (composed out p.begins n) = p.place n := by
  have hlong := hf.long
  have hshort := hf.short
  have hfits := h.fits
  have hne : n.toList ≠ [] := by intro h0; rw [h0] at hlong; simp at hlong
  have hs : composed out p.begins n = out ++ (p.begins ++ n.toList) := by
    unfold composed snprintf
    have e1 : (out ++ p.begins).take (COFFE_MAX_STRLEN - 1) = out ++ p.begins :=
      List.take_of_length_le (by simp only [List.length_append, COFFE_MAX_STRLEN] at *; omega)
    rw [e1, List.take_of_length_le (by simp only [List.length_append, COFFE_MAX_STRLEN] at *; omega), List.append_assoc]
  have hplain : '/' ∉ p.begins ++ n.toList := by
    rw [List.mem_append]
    rintro (h0 | h0)
    · exact h.plain h0
    · exact hf.plain h0
  refine ⟨hs, ?_⟩
  rw [hs, path_below h1, h2, components_plain hplain, if_neg]
  · rfl
  · rintro (h0 | h0)
    · exact hne (List.append_eq_nil_iff.mp h0).2
    · have := congrArg List.length h0
      simp only [List.length_append, List.length_singleton] at this
      omega

theorem composed_opens {d e : Disk} {p : MainPar} {names : List String} (h : CanWrite d p names) {out : Text}
    (h1 : out.getLast? = some '/') (h2 : path_of out = path_of p.output_path) (h3 : out.length ≤ p.output_path.length + 1)
    (h4 : Made (path_of p.output_path).1 (path_of p.output_path).2 d e) (h5 : e.dir (path_of p.output_path) = true)
    {n : String} (hn : n ∈ names) (hf : FileName n) :
    path_of (composed out p.begins n) = p.place n ∧ e.opens (composed out p.begins n) := by
  have hlong := hf.long
  have hne : n.toList ≠ [] := by intro h0; rw [h0] at hlong; simp at hlong
  obtain ⟨hs, hpath⟩ := composed_path h h1 h2 h3 hf
  refine ⟨hpath, ?_⟩
  unfold Disk.opens
  rw [hpath]
  obtain ⟨hd, hm⟩ := h.free n hn
  refine ⟨?_, ?_, ?_, by rw [h4.may]; exact hm⟩
  · rw [hs, ← List.append_assoc, List.getLast?_append_of_ne_nil _ hne]
    exact fun h0 => hf.plain (List.mem_of_getLast? h0)
  · unfold Disk.parent MainPar.place
    simpa using h5
  · cases hc : e.dir (p.place n) with
    | false => rfl
    | true =>
      rcases h4.new _ hc with h0 | ⟨_, h0⟩
      · rw [hd] at h0; exact absurd h0 (by simp)
      · have := h0.length_le
        simp only [MainPar.place, List.length_append, List.length_singleton] at this
        omega

theorem name_settings : FileName "settings.cfg" := ⟨by decide, by decide, by decide⟩
theorem name_background : FileName "background.dat" := ⟨by decide, by decide, by decide⟩

/-- The part of the output that depends on the output type. -/
noncomputable def output_result (R : Rounding) (par : MainPar) (out : Text) (cf : CArray CfCoord) (mp : CArray MpCoord)
    (cov_mp cov_ramp : CArray CovCoord) : Prog Unit :=
  if par.output_type = CORRFUNC then output_corrfunc R (composed out par.begins "corrfunc.dat") par.contrib cf
  else if par.output_type = MULTIPOLES then
    output_multipoles R (composed out par.begins "multipoles.dat") par.contrib mp
  else if par.output_type = COVARIANCE_MULTIPOLES then
    output_covariance R (composed out par.begins "covariance_multipoles.dat") par.contrib cov_mp
  else if par.output_type = COVARIANCE_AVERAGE_MULTIPOLES then
    output_average_covariance R (composed out par.begins "covariance_average_multipoles.dat") cov_ramp
  else pure ()

theorem output_split (R : Rounding) (par : MainPar) (bg : BgTable) (cf : CArray CfCoord) (mp : CArray MpCoord)
    (ramp : CArray AmpCoord) (c1 c2 : CArray CovCoord) :
    coffe_output_init R par bg cf mp ramp c1 c2 = (output_make_path par.output_path >>= fun out =>
      ((match par.conf with
        | none => pure ()
        | some conf => config_write_file conf (composed out par.begins "settings.cfg") : Prog Unit) >>= fun _ =>
      (output_background R (composed out par.begins "background.dat") par.type_bg par.background_bins bg >>= fun _ =>
      output_result R par out cf mp c1 c2))) := by
  unfold coffe_output_init output_result composed MainPar.begins
  congr 1
  funext out
  by_cases h : par.output_prefix = "$TIME".toList
  · simp only [h, if_true, List.append_assoc]
    cases par.conf <;> rfl
  · simp only [h, if_false]
    cases par.conf <;> rfl

/-- The front of the output stage: the directory, the copy of the settings, the background. -/
theorem output_front {d : Disk} {p : MainPar} {names : List String} (h : CanWrite d p names) {settings : Text}
    (hc : p.conf = some settings) {bg : BgTable} {row : ℕ → BgRow} (hbg : BgReady p bg row) (R : Rounding)
    (h1 : "settings.cfg" ∈ names) (h2 : "background.dat" ∈ names) (log : List Stage) :
    ∃ out e, (∀ cf mp ramp c1 c2, coffe_output_init R p bg cf mp ramp c1 c2 ⟨d, log⟩ =
        output_result R p out cf mp c1 c2 ⟨e, log⟩) ∧
      e.file = (((d.put (p.place "settings.cfg") settings).put (p.place "background.dat")
        (bgText R p.type_bg bg.size row)).file) ∧
      (∀ n ∈ names, FileName n → path_of (composed out p.begins n) = p.place n ∧ e.opens (composed out p.begins n)) ∧
      (∀ n, FileName n → path_of (composed out p.begins n) = p.place n) ∧ e.may = d.may := by
  obtain ⟨out, e, g1, g2, g3, g4, g5, g6⟩ := make_path_ok h log
  have hop := fun (n : String) (hn : n ∈ names) (hf : FileName n) => composed_opens h g2 g3 g4 g5 g6 hn hf
  obtain ⟨s1, s2⟩ := hop _ h1 name_settings
  obtain ⟨b1, b2⟩ := hop _ h2 name_background
  refine ⟨out, (e.put (p.place "settings.cfg") settings).put (p.place "background.dat")
    (bgText R p.type_bg bg.size row), fun cf mp ramp c1 c2 => ?_, ?_, fun n hn hf => hop n hn hf,
    fun n hf => (composed_path h g2 g3 g4 hf).2, g5.may⟩
  · rw [output_split, Prog.bind_ok g1, hc]
    have hset : config_write_file settings (composed out p.begins "settings.cfg") ⟨e, log⟩ =
        (.ok (), ⟨e.put (p.place "settings.cfg") settings, log⟩) := by
      unfold config_write_file
      rw [Prog.bind_ok (fopen_w_ok s2 log)]
      simp only
      rw [fputs_ok, put_contents, put_put, List.nil_append, s1]
    rw [Prog.bind_ok hset, Prog.bind_ok (output_background_ok R _ hbg (e := e.put (p.place "settings.cfg") settings)
      ((put_opens _ _ _ _).mpr b2) log), b1]
  · simp only [Disk.put, g5.file]

/-- What has been written, from the contents after the front and one more file. -/
theorem wrote_of {d e : Disk} {p : MainPar} {settings background : Text} {n : String} {t : Text}
    (he : e.file = (((d.put (p.place "settings.cfg") settings).put (p.place "background.dat") background).file))
    (h1 : n ≠ "settings.cfg") (h2 : n ≠ "background.dat") :
    RunWrote p d (e.put (p.place n) t) settings background (some (n, t)) ∧ e.contents (p.place n) = d.contents (p.place n) := by
  have i1 : p.place "settings.cfg" ≠ p.place n := fun h => h1 (place_inj h).symm
  have i2 : p.place "background.dat" ≠ p.place n := fun h => h2 (place_inj h).symm
  have i3 : p.place "settings.cfg" ≠ p.place "background.dat" := fun h => absurd (place_inj h) (by decide)
  refine ⟨⟨?_, ?_, ?_, ?_⟩, ?_⟩
  · rw [put_other _ _ i1, he, put_other _ _ i3, put_file]
  · rw [put_other _ _ i2, he, put_file]
  · rintro x hx
    rw [Option.mem_some_iff] at hx
    subst hx
    exact put_file _ _ _
  · intro q q1 q2 q3
    rw [put_other _ _ (q3 _ rfl), he, put_other _ _ q2, put_other _ _ q1]
  · unfold Disk.contents
    rw [he, put_other _ _ i2.symm, put_other _ _ i1.symm]

theorem wrote_none {d e : Disk} {p : MainPar} {settings background : Text}
    (he : e.file = (((d.put (p.place "settings.cfg") settings).put (p.place "background.dat") background).file)) :
    RunWrote p d e settings background none := by
  have i3 : p.place "settings.cfg" ≠ p.place "background.dat" := fun h => absurd (place_inj h) (by decide)
  refine ⟨?_, ?_, fun x hx => absurd hx (by simp), fun q q1 q2 _ => ?_⟩
  · rw [he, put_other _ _ i3, put_file]
  · rw [he, put_file]
  · rw [he, put_other _ _ q2, put_other _ _ q1]

/-! ## Running to the output stage -/

theorem parser_conf {I : Type} {L : Lib I} {settings : Text} {d : Disk} {p : MainPar} (h : L.parser settings d = .ok p) :
    ∃ c, (d.file (path_of settings)).bind L.read_conf = some c ∧ p.conf = some (L.show_conf c) := by
  unfold Lib.parser at h
  cases hc : (d.file (path_of settings)).bind L.read_conf with
  | none => rw [hc] at h; exact absurd h (by simp)
  | some c =>
    rw [hc] at h
    obtain ⟨q, _, h2⟩ := cbind_iff.mp h
    rw [cpure_iff] at h2
    subst h2
    exact ⟨c, rfl, rfl⟩

/-- What the loop over the options finds. -/
theorem scan_options_eq : ∀ (opts : List Opt) (a b : Option Text), (∀ o ∈ opts, o ≠ .h ∧ o ≠ .v ∧ o ≠ .C) →
    scan_options opts a b =
      some ((opts.filterMap Opt.file).getLast?.or a, (opts.filterMap Opt.threads).getLast?.or b)
  | [], a, b, _ => by simp [scan_options]
  | o :: l, a, b, h => by
    have h' := h o List.mem_cons_self
    have hl : ∀ o ∈ l, o ≠ .h ∧ o ≠ .v ∧ o ≠ .C := fun o ho => h o (List.mem_cons_of_mem _ ho)
    have hc : ∀ (x : Text) (l : List Text) (a : Option Text), l.getLast?.or (some x) = ((x :: l).getLast?).or a := by
      intro x l a
      cases l with
      | nil => simp
      | cons y l => simp [List.getLast?_cons]
    cases o with
    | h => exact absurd rfl h'.1
    | v => exact absurd rfl h'.2.1
    | C => exact absurd rfl h'.2.2
    | s x =>
      unfold scan_options
      rw [scan_options_eq l _ _ hl]
      simp only [List.filterMap_cons, Opt.file, Opt.threads]
      rw [hc x _ a]
    | n x =>
      unfold scan_options
      rw [scan_options_eq l _ _ hl]
      simp only [List.filterMap_cons, Opt.file, Opt.threads]
      rw [hc x _ b]
    | other =>
      unfold scan_options
      rw [scan_options_eq l _ _ hl]
      simp only [List.filterMap_cons, Opt.file, Opt.threads]

theorem main_asks {I : Type} {L : Lib I} {opts : List Opt} {settings : Text} (h : Asks L opts settings) :
    main L opts = main_sequence L settings := by
  obtain ⟨h0, h1, h2, h3⟩ := h
  unfold main
  rw [scan_options_eq opts _ _ h0, h1]
  funext w
  have h4 : settings_name settings = .ok settings := if_pos h2
  simp only [Option.or_none, Option.some_or]
  rw [Prog.bind_ok (Prog.lift_ok h4 w)]
  refine congrFun (if_neg (not_le.mpr ?_)) w
  cases hn : (opts.filterMap Opt.threads).getLast? <;> rw [hn] at h3 <;> exact h3

/-- A stage that runs. -/
theorem stage_yes {α : Type} {b : Prop} [Decidable b] (hb : b) {s : Stage} {r : CRes α} {a : α} (h : r = .ok a)
    (x : α) (w : RunState) : stage_if b s r x w = (.ok a, ⟨w.disk, w.log ++ [s]⟩) := by
  unfold stage_if
  rw [if_pos hb, Prog.bind_ok (rfl : Prog.start _ _ = _)]
  exact Prog.lift_ok h _

/-- A stage that does not run. -/
theorem stage_no {α : Type} {b : Prop} [Decidable b] (hb : ¬ b) (s : Stage) (r : CRes α) (x : α) (w : RunState) :
    stage_if b s r x w = (.ok x, w) := by
  unfold stage_if
  rw [if_neg hb]
  rfl

end Coffe
