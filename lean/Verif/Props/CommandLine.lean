import Verif.Proofs.CommandLine
import Verif.Spec.Main
import Verif.Spec.WitnessPy

/-!
# The command line of the Python package writes what the object calculates (C76)
-/

namespace Coffe
open Classical

/-- The calculation for a kind of output fails with the exception. -/
def OutKind.Fails (M : CliNum) (s : PyObj) (e : Err) : OutKind → Prop
  | .bg => (backgroundInit M.num s).1 = .error e
  | .cf => (computeBulk M.num false .corrfunc s).1 = .error e
  | .mp => (computeBulk M.num false .multipoles s).1 = .error e
  | .avg_mp => (computeBulk M.num false .average s).1 = .error e
  | .cov => (computeBulk M.num false .covariance s).1 = .error e
  | .avg_cov => (computeBulk M.num false .averageCovariance s).1 = .error e

theorem record_shape {M : CliNum} {s : PyObj} {k : OutKind} {r : List (List (String × Cell))} (h : k.Gives M s r) :
    ∀ x ∈ r, x.map Prod.fst = k.names ∧ (x.map Prod.snd).map Cell.conversion = k.conversions := by
  intro x hx
  cases k <;> obtain ⟨l, t, h⟩ := h
  case bg =>
    obtain ⟨-, -, rfl⟩ := h
    obtain ⟨y, -, rfl⟩ := List.mem_map.1 hx
    exact ⟨rfl, rfl⟩
  all_goals
    obtain ⟨-, rfl⟩ := h
    obtain ⟨y, -, rfl⟩ := List.mem_map.1 hx
    exact ⟨rfl, rfl⟩

/-- Either the calculation fails or there are records, and the rows are those of the records. -/
theorem kind_cases (M : CliNum) {s : PyObj} (hs : Listed s) (k : OutKind) :
    (∃ e t, k.rows M s = (.error e, t) ∧ k.Fails M s e) ∨
      ∃ r t, k.rows M s = (.ok (r.map fun x => (x.map Prod.snd).map Cell.number), t) ∧ k.Gives M s r ∧
        (k = .bg ∨ r ≠ []) := by
  have bulk : ∀ b : Bulk, (∃ e t, (do let o ← computeBulk M.num false b; pure o.rows : Py (List (List ℝ))) s = (.error e, t) ∧
      (computeBulk M.num false b s).1 = .error e) ∨
      ∃ o t, (do let o ← computeBulk M.num false b; pure o.rows : Py (List (List ℝ))) s = (.ok o.rows, t) ∧
        computeBulk M.num false b s = (.ok o, t) ∧ b.Returned o := by
    intro b
    rcases hc : computeBulk M.num false b s with ⟨o | o, t⟩
    · exact .inl ⟨o, t, Py.bind_err hc, rfl⟩
    · exact .inr ⟨o, t, (Py.bind_ok hc).trans rfl, rfl, bulk_returns M.num b s hs o t hc⟩
  cases k
  case bg =>
    rcases backgroundInit_cases M.num s with ⟨e, h⟩ | ⟨b, h⟩
    · exact .inl ⟨e, s, Py.bind_err h, by rw [OutKind.Fails, h]⟩
    · exact .inr ⟨_, _, backgroundRows_ok h, ⟨b, _, h, rfl, rfl⟩, .inl rfl⟩
  case cf =>
    rcases bulk .corrfunc with h | ⟨o, t, h1, h2, l, rfl, hl⟩
    · exact .inl h
    · exact .inr ⟨_, t, h1.trans (by rw [rows_records]; rfl), ⟨l, t, h2, rfl⟩, .inr (map_ne_nil hl)⟩
  case mp =>
    rcases bulk .multipoles with h | ⟨o, t, h1, h2, l, rfl, hl⟩
    · exact .inl h
    · exact .inr ⟨_, t, h1.trans (by rw [rows_records]; rfl), ⟨l, t, h2, rfl⟩, .inr (map_ne_nil hl)⟩
  case avg_mp =>
    rcases bulk .average with h | ⟨o, t, h1, h2, l, rfl, hl⟩
    · exact .inl h
    · exact .inr ⟨_, t, h1.trans (by rw [rows_records]; rfl), ⟨l, t, h2, rfl⟩, .inr (map_ne_nil hl)⟩
  case cov =>
    rcases bulk .covariance with h | ⟨o, t, h1, h2, l, rfl, hl⟩
    · exact .inl h
    · exact .inr ⟨_, t, h1.trans (by rw [rows_records]; rfl), ⟨l, t, h2, rfl⟩, .inr (map_ne_nil hl)⟩
  case avg_cov =>
    rcases bulk .averageCovariance with h | ⟨o, t, h1, h2, l, rfl, hl⟩
    · exact .inl h
    · exact .inr ⟨_, t, h1.trans (by rw [rows_records]; rfl), ⟨l, t, h2, rfl⟩, .inr (map_ne_nil hl)⟩

theorem gives_or_fails {M : CliNum} {s : PyObj} {k : OutKind} {r : List (List (String × Cell))} {e : Err}
    (h : k.Gives M s r) (h' : k.Fails M s e) : False := by
  cases k <;> unfold OutKind.Fails at h' <;> dsimp only at h' <;> obtain ⟨l, t, h1, -⟩ := h <;> rw [h1] at h' <;> cases h'

/-- **C76**: the command ends without an exception exactly when the settings file can be loaded and the calculation for the
kind of output succeeds on the loaded object, whatever the kind. -/
theorem C76_succeeds (M : CliNum) (R : Rounding) (o : SetOrder) (ho : o.Valid) (c : Config) (k : OutKind) (old : Option Text) :
    (compute_output M R o c k old).1 = .ok () ↔ ∃ s r, fromFile o c = .ok s ∧ k.Gives M s r := by
  unfold compute_output
  cases hf : fromFile o c with
  | error e => simp
  | ok s =>
    dsimp only
    rcases kind_cases M (loaded_listed ho hf) k with ⟨e, t, h1, h2⟩ | ⟨r, t, h1, h2, h3⟩
    · rw [h1]
      refine ⟨fun h => by simp at h, ?_⟩
      rintro ⟨s', r, h, h'⟩
      cases h
      exact (gives_or_fails h' h2).elim
    · obtain ⟨T, h4, -⟩ := savetxt_table R k r (record_shape h2) h3
      rw [h1]
      dsimp only
      rw [h4]
      exact ⟨fun _ => ⟨s, r, rfl, h2⟩, fun _ => rfl⟩

/-- **C76**: when the command ends without an exception, the output file is the table of what the object loaded from the
settings file gives, one line for every result in the order of the results; what was in the file before is gone. -/
theorem C76_table (M : CliNum) (R : Rounding) (o : SetOrder) (ho : o.Valid) (c : Config) (k : OutKind) (old : Option Text)
    (h : (compute_output M R o c k old).1 = .ok ()) : ∃ s r T, fromFile o c = .ok s ∧ k.Gives M s r ∧
      (compute_output M R o c k old).2 = some T ∧ IsTable T k.names r := by
  obtain ⟨s, r, hf, -⟩ := (C76_succeeds M R o ho c k old).1 h
  unfold compute_output at h ⊢
  rw [hf] at h ⊢
  dsimp only at h ⊢
  rcases kind_cases M (loaded_listed ho hf) k with ⟨e, t, h1, h2⟩ | ⟨r, t, h1, h2, h3⟩
  · rw [h1] at h
    simp at h
  · obtain ⟨T, h4, h5⟩ := savetxt_table R k r (record_shape h2) h3
    refine ⟨s, r, T, rfl, h2, ?_, h5⟩
    rw [h1]
    dsimp only
    rw [h4]

/-- **C76**: an exception is that of loading the file or of the calculation, and the output file is not touched then. -/
theorem C76_fails (M : CliNum) (R : Rounding) (o : SetOrder) (ho : o.Valid) (c : Config) (k : OutKind) (old : Option Text)
    (e : Err) (h : (compute_output M R o c k old).1 = .error e) : (compute_output M R o c k old).2 = old ∧
      (fromFile o c = .error e ∨ ∃ s, fromFile o c = .ok s ∧ k.Fails M s e) := by
  unfold compute_output at h ⊢
  cases hf : fromFile o c with
  | error e' =>
    rw [hf] at h
    cases h
    exact ⟨rfl, .inl rfl⟩
  | ok s =>
    rw [hf] at h
    dsimp only at h ⊢
    rcases kind_cases M (loaded_listed ho hf) k with ⟨e', t, h1, h2⟩ | ⟨r, t, h1, h2, h3⟩
    · rw [h1] at h ⊢
      cases h
      exact ⟨rfl, .inr ⟨s, rfl, h2⟩⟩
    · obtain ⟨T, h4, -⟩ := savetxt_table R k r (record_shape h2) h3
      rw [h1] at h
      dsimp only at h
      rw [h4] at h
      cases h

/-! ## The background file of the C program -/

/-- The splines pass through the rows of a table of the C program with the same redshifts. -/
structure Through (M : CliNum) (s : PyObj) (b : Bg) (row : ℕ → BgRow) : Prop where
  z : ∀ i < s.par.background_bins.toNat, (row i).z = i * (15 / ((s.par.background_bins.toNat : ℝ) - 1))
  a : ∀ i < s.par.background_bins.toNat, b.a (row i).z = (row i).a
  Hz : ∀ i < s.par.background_bins.toNat, M.Hz s.par.bgView (row i).z = (row i).Hz
  conformal_Hz : ∀ i < s.par.background_bins.toNat, b.conformal_Hz (row i).z = (row i).conformal_Hz
  conformal_Hz_prime : ∀ i < s.par.background_bins.toNat,
    M.conformal_Hz_prime s.par.bgView (row i).z = (row i).conformal_Hz_prime
  D1 : ∀ i < s.par.background_bins.toNat, b.D1 (row i).z = (row i).D1
  f : ∀ i < s.par.background_bins.toNat, b.f (row i).z = (row i).f
  comoving_distance : ∀ i < s.par.background_bins.toNat, b.comoving_distance (row i).z = (row i).comoving_distance

theorem fields_join (R : Rounding) : ∀ l : List ℝ, fields (join ['\t'] (l.map (fmt R 10))) = l.map (fmt R 10)
  | [] => rfl
  | [x] => by
    simp only [List.map_cons, List.map_nil, join]
    exact fields_single _ (fmt_ne_nil R 10 x) fun c hc => (numChar_props (fmt_chars R 10 x c hc)).2.2
  | x :: y :: l => by
    have ih := fields_join R (y :: l)
    simp only [List.map_cons] at ih ⊢
    rw [join, List.append_assoc, fields_token _ ['\t'] _ (fmt_ne_nil R 10 x)
      (fun c hc => (numChar_props (fmt_chars R 10 x c hc)).2.2) ⟨by simp, by decide⟩, ih]

/-- **C76**: the background file of the command line and that of the C program, asked for all eight columns, have the same
titles and the same numbers, if the splines of the object pass through the rows of the table. -/
theorem C76_background (M : CliNum) (R : Rounding) (o : SetOrder) (c : Config) (old : Option Text) {s t : PyObj} {b : Bg}
    (hf : fromFile o c = .ok s) (hb : backgroundInit M.num s = (.ok (), t)) (hbg : t.bg = some b) {row : ℕ → BgRow}
    (hrow : Through M s b row) : ∃ head lines head' lines',
      (compute_output M R o c .bg old).2 = some (ofLines (head :: lines)) ∧
      bgText R bgNames s.par.background_bins.toNat row = ofLines (head' :: lines') ∧
      IsComment head = true ∧ IsComment head' = true ∧ fields head = fields head' ∧ lines.map fields = lines'.map fields := by
  obtain ⟨b', hb'⟩ : ∃ b', backgroundInit M.num s = (.ok (), { s with bg := some b' }) := by
    rcases backgroundInit_cases M.num s with ⟨e, h⟩ | h
    · rw [h] at hb; cases hb
    · exact h
  rw [hb'] at hb
  cases hb
  cases hbg
  set rows := (linspace 0 15 s.par.background_bins.toNat).map fun z =>
    ((b.record (M.Hz s.par.bgView) (M.conformal_Hz_prime s.par.bgView) z).map Prod.snd).map Cell.number with hrows
  have hlen : ∀ l ∈ rows, l.length = 8 := by
    intro l hl
    obtain ⟨z, -, rfl⟩ := List.mem_map.1 hl
    rfl
  refine ⟨"# ".toList ++ join ['\t'] (OutKind.bg.names.map String.toList), rows.map fun l => join ['\t'] (l.map (fmt R 10)),
    bgHeader bgNames, (List.range s.par.background_bins.toNat).map fun i =>
      rowText (fmt R 10) ['\t'] (bgNames.map fun name => bgValue name (row i)), ?_, rfl, by decide +kernel, by decide +kernel,
    by decide +kernel, ?_⟩
  · unfold compute_output OutKind.rows
    rw [hf]
    dsimp only
    rw [backgroundRows_ok hb']
    dsimp only
    rw [List.map_map]
    have e : ((fun r : List (String × Cell) => (r.map Prod.snd).map Cell.number) ∘
        b.record (M.Hz s.par.bgView) (M.conformal_Hz_prime s.par.bgView)) =
        fun z => ((b.record (M.Hz s.par.bgView) (M.conformal_Hz_prime s.par.bgView) z).map Prod.snd).map Cell.number := rfl
    rw [e, ← hrows]
    unfold savetxt OutKind.format
    dsimp only
    rw [ofLines_cons]
    have key : ∀ n (rs : List (List ℝ)), (∀ l ∈ rs, l.length = n) →
        (rs.flatMap fun r => join ['\t'] (List.zipWith (Conversion.text R) (List.replicate n .e10) r) ++ ['\n']) =
          ofLines (rs.map fun l => join ['\t'] (l.map (fmt R 10))) := by
      intro n rs
      induction rs with
      | nil => intro _; rfl
      | cons r rs ih =>
        intro h
        rw [List.flatMap_cons, List.map_cons, ofLines_cons, ih fun l hl => h l (by simp [hl]), ← h r (by simp)]
        have : ∀ r : List ℝ, List.zipWith (Conversion.text R) (List.replicate r.length .e10) r = r.map (fmt R 10) := by
          intro r
          induction r with
          | nil => rfl
          | cons x r ih => rw [List.length_cons, List.replicate_succ, List.zipWith_cons_cons, ih]; rfl
        rw [this]
        simp
    have hc : rows = [] ∨ arrayColumns rows = 8 := by
      rcases rows with _ | ⟨r, rs⟩
      · exact .inl rfl
      · exact .inr (hlen r (by simp))
    rcases hc with hc | hc
    · rw [hc]; simp [ofLines]
    · rw [hc, key 8 rows hlen]; simp
  · rw [hrows, List.map_map, List.map_map, List.map_map]
    unfold linspace
    rw [List.map_map]
    refine List.map_congr_left fun i hi => ?_
    rw [List.mem_range] at hi
    have hz : 0 + (i : ℝ) * ((15 - 0) / ((s.par.background_bins.toNat : ℝ) - 1)) = (row i).z := by
      rw [hrow.z i hi]; ring
    have h1 : fields (join ['\t'] ((((b.record (M.Hz s.par.bgView) (M.conformal_Hz_prime s.par.bgView) (row i).z).map Prod.snd).map
        Cell.number).map (fmt R 10))) = bgNames.map fun name => fmt R 10 (bgValue name (row i)) := by
      rw [fields_join]
      unfold Bg.record
      simp only [List.map_cons, List.map_nil, Cell.number, hrow.a i hi, hrow.Hz i hi, hrow.conformal_Hz i hi,
        hrow.conformal_Hz_prime i hi, hrow.D1 i hi, hrow.f i hi, hrow.comoving_distance i hi, bgNames]
      congr
    have h2 : fields (rowText (fmt R 10) ['\t'] (bgNames.map fun name => bgValue name (row i))) =
        bgNames.map fun name => fmt R 10 (bgValue name (row i)) := by
      rw [fields_row R 10 ['\t'] ⟨by simp, by decide⟩, List.map_map]
      rfl
    simp only [Function.comp_apply, hz]
    rw [h2]
    exact h1

/-! ## Concrete runs -/

/-- The back end of the examples: the Hubble rate is constant. -/
noncomputable def wCli : CliNum := ⟨wNum, fun v _ => v.h / 2997.92458, fun _ _ => 0⟩

theorem empty_loads : fromFile sourceOrder Config.empty = .ok (fresh PyPar.default) :=
  empty_load sourceOrder sourceOrder_valid _ (fun _ _ => rfl) rfl (fun _ => ⟨none, rfl⟩) fun _ => rfl

/-- Non-vacuity: a settings file without options; the correlation function can be calculated and there are results. -/
example (R : Rounding) (old : Option Text) : (compute_output wCli R sourceOrder Config.empty .cf old).1 = .ok () ∧
    ∃ T r, (compute_output wCli R sourceOrder Config.empty .cf old).2 = some T ∧ r ≠ [] ∧ IsTable T OutKind.cf.names r := by
  have h2 := corrfunc_fresh (N := wNum) (p := PyPar.default)
    (b := { wBg with comoving_distance := fun z => z / 0.67 })
    (c := ⟨1e-5, 100, [(1e-5, 0.8156), (100, 0.96)], [0.67]⟩)
    rfl rfl rfl (by simp [PyPar.default, generateRange])
  have h : (compute_output wCli R sourceOrder Config.empty .cf old).1 = .ok () :=
    (C76_succeeds wCli R sourceOrder sourceOrder_valid Config.empty .cf old).2 ⟨_, _, empty_loads, _, _, h2, rfl⟩
  obtain ⟨s, r, T, h3, h4, h5, h6⟩ := C76_table wCli R sourceOrder sourceOrder_valid Config.empty .cf old h
  refine ⟨h, T, r, h5, ?_, h6⟩
  obtain ⟨l, t, h7, rfl⟩ := h4
  obtain ⟨l', e, hl⟩ := bulk_returns wNum .corrfunc s (loaded_listed sourceOrder_valid h3) _ _ h7
  cases e
  exact map_ne_nil hl

/-- Non-vacuity: every object has a table that its splines pass through. -/
example (M : CliNum) (s : PyObj) (b : Bg) : ∃ row, Through M s b row := by
  let z : ℕ → ℝ := fun i => i * (15 / ((s.par.background_bins.toNat : ℝ) - 1))
  exact ⟨fun i => ⟨z i, b.a (z i), M.Hz s.par.bgView (z i), b.conformal_Hz (z i), M.conformal_Hz_prime s.par.bgView (z i),
    b.D1 (z i), b.f (z i), b.comoving_distance (z i), 0, 0⟩, fun _ _ => rfl, fun _ _ => rfl, fun _ _ => rfl, fun _ _ => rfl,
    fun _ _ => rfl, fun _ _ => rfl, fun _ _ => rfl, fun _ _ => rfl⟩

/-- Non-vacuity: the same file and the background. -/
example (R : Rounding) (old : Option Text) : ∃ t b, backgroundInit wCli.num (fresh PyPar.default) = (.ok (), t) ∧
    t.bg = some b ∧ (compute_output wCli R sourceOrder Config.empty .bg old).1 = .ok () := by
  have h : backgroundInit wCli.num (fresh PyPar.default) =
      (.ok (), { fresh PyPar.default with bg := some { wBg with comoving_distance := fun z => z / 0.67 } }) := by
    rw [backgroundInit_eq, if_neg (by rintro ⟨h, -⟩; cases h)]
    have : wCli.num.background (fresh PyPar.default).par.bgView =
        some { wBg with comoving_distance := fun z => z / 0.67 } := by
      unfold wCli wNum
      dsimp only
      rw [if_pos (by show (5 : ℤ) ≤ 10000; norm_num)]
      rfl
    rw [this]
  exact ⟨_, _, h, rfl, (C76_succeeds wCli R sourceOrder sourceOrder_valid Config.empty .bg old).2
    ⟨_, _, empty_loads, _, _, h, rfl, rfl⟩⟩

end Coffe
