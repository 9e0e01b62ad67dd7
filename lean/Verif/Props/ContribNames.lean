import Verif.Proofs.ParserCongr
import Verif.Proofs.PyFile
import Verif.Props.Parser

/-!
# The names of contributions are a set (C41)
-/

namespace Coffe
open Classical

/-- The names that mean something. -/
def knownNames : List String := ["den", "rsd", "len", "d1", "d2", "g1", "g2", "g3", "g4", "g5"]

/-- Two lists with the same known names: order, duplicates and other names do not matter. -/
def SameNames (l l' : List String) : Prop := ∀ s ∈ knownNames, s ∈ l ↔ s ∈ l'

theorem toList_inj_mem {s : String} {l : List String} : s.toList ∈ l.map String.toList ↔ s ∈ l := by
  rw [List.mem_map]
  exact ⟨fun ⟨t, h1, h2⟩ => by rw [← String.toList_inj.1 h2]; exact h1, fun h => ⟨s, h, rfl⟩⟩

theorem SameNames.listed {l l' : List String} (h : SameNames l l') :
    Contrib.listed (l.map String.toList) = Contrib.listed (l'.map String.toList) := by
  unfold Contrib.listed
  simp only [toList_inj_mem]
  simp only [h "den" (by decide), h "rsd" (by decide), h "len" (by decide), h "d1" (by decide), h "d2" (by decide),
    h "g1" (by decide), h "g2" (by decide), h "g3" (by decide), h "g4" (by decide), h "g5" (by decide)]

/-- **C41**, the C program: two settings files that differ only in the list of contributions, with the same
known names, give the same outcome. -/
theorem C41_c {E : ParserEnv} {R : ClassRun} {c c' : Conf} {l l' : List String} (h : SameNames l l')
    (hc : ∀ s, s ≠ "correlation_contributions" → c' s = c s)
    (hl : ListsText c "correlation_contributions" (l.map String.toList))
    (hl' : ListsText c' "correlation_contributions" (l'.map String.toList)) :
    coffe_parser_init E R c' = coffe_parser_init E R c := parser_congr hc hl hl' h.listed.symm

/-- **C41**, the C program: the contributions that are on are those in the list. -/
theorem C41_c_exact {E : ParserEnv} {R : ClassRun} {c : Conf} {p : CPar} {l : List String}
    (hl : ListsText c "correlation_contributions" (l.map String.toList)) (h : coffe_parser_init E R c = .ok p) :
    (p.contrib.den = true ↔ "den" ∈ l) ∧ (p.contrib.rsd = true ↔ "rsd" ∈ l) ∧ (p.contrib.len = true ↔ "len" ∈ l) ∧
    (p.contrib.d1 = true ↔ "d1" ∈ l) ∧ (p.contrib.d2 = true ↔ "d2" ∈ l) ∧ (p.contrib.g1 = true ↔ "g1" ∈ l) ∧
    (p.contrib.g2 = true ↔ "g2" ∈ l) ∧ (p.contrib.g3 = true ↔ "g3" ∈ l) ∧ (p.contrib.g4 = true ↔ "g4" ∈ l) ∧
    (p.contrib.g5 = true ↔ "g5" ∈ l) := by
  rw [(parser_faithful h).contributions _ hl]
  unfold Contrib.listed
  simp only [toList_inj_mem, decide_eq_true_eq, iff_self, and_self]

/-- Order, a duplicate and an unknown name. -/
example : SameNames ["den", "rsd"] ["rsd", "lensing", "den", "rsd"] := by
  intro s _
  simp only [List.mem_cons, List.not_mem_nil, or_false]
  constructor
  · rintro (h | h) <;> simp [h]
  · rename_i hs
    rintro (h | rfl | h | h)
    · exact .inr h
    · exact absurd hs (by simp [knownNames])
    · exact .inl h
    · exact .inr h

example : ∃ c c', (∀ s, s ≠ "correlation_contributions" → c' s = c s) ∧
    ListsText c "correlation_contributions" (["den", "rsd"].map String.toList) ∧
    ListsText c' "correlation_contributions" (["rsd", "x", "den"].map String.toList) ∧
    ∃ p, coffe_parser_init wEnv wRun c = .ok p := by
  refine ⟨Function.update (wConf 0 []) "correlation_contributions" (some (.many [.str "den".toList, .str "rsd".toList])),
    Function.update (wConf 0 []) "correlation_contributions"
      (some (.many [.str "rsd".toList, .str "x".toList, .str "den".toList])),
    fun s hs => by rw [Function.update_of_ne hs, Function.update_of_ne hs], rfl, rfl, ?_⟩
  have H := wConf_complete 0 [] (by simp) (fun e => by simp at e) (fun e => by simp at e)
    ⟨0, 0, 0, rfl, rfl, rfl, by decide⟩ (by decide) (by decide)
  exact C39_accepts (ty := 0) {
    ints := fun s hs => by
      obtain ⟨n, hn⟩ := H.ints s hs
      refine ⟨n, ?_⟩
      unfold lookup_int at hn ⊢
      rw [Function.update_of_ne (by rintro rfl; revert hs; decide)]
      exact hn
    floats := fun s hs => by
      obtain ⟨n, hn⟩ := H.floats s hs
      refine ⟨n, ?_⟩
      unfold lookup_float at hn ⊢
      rw [Function.update_of_ne (by rintro rfl; revert hs; decide)]
      exact hn
    strings := fun s hs => by
      obtain ⟨n, hn⟩ := H.strings s hs
      refine ⟨n, ?_⟩
      unfold lookup_string at hn ⊢
      rw [Function.update_of_ne (by rintro rfl; revert hs; decide)]
      exact hn
    texts := by
      simp only [List.forall_mem_cons]
      exact ⟨⟨["z".toList], rfl⟩, ⟨["den".toList, "rsd".toList], rfl⟩, by simp⟩
    flags := fun s hs => by
      have := H.flags s hs
      unfold lookup_int at this ⊢
      rw [Function.update_of_ne (by rintro rfl; revert hs; decide)]
      exact this
    type := rfl
    method := ⟨2, rfl, by decide, by decide⟩
    covariance_method := rfl
    derivatives := ⟨0, 0, 0, 0, rfl, rfl, rfl, rfl, by decide⟩
    window := rfl
    no_class := .inl rfl
    no_file := fun _ _ => rfl
    spectrum := H.spectrum
    redshifts := fun e => by simp at e
    separations := fun e => by simp at e
    covariance := fun e => by simp at e
    covariance_average := fun e => by simp at e }

/-- **C41**, the Python interface: two settings files that differ only in the list of contributions, with the
same known names, give the same outcome. -/
theorem C41_python (o : SetOrder) (c : Config) {l l' : List String} (h : SameNames l l') :
    fromFile o { c with contributions := some l } = fromFile o { c with contributions := some l' } := by
  have : readContributions { c with contributions := some l } = readContributions { c with contributions := some l' } := by
    unfold readContributions contributionNames
    simp only [List.forM_eq_forM, List.forM_cons, List.forM_nil]
    simp only [h "den" (by decide), h "rsd" (by decide), h "len" (by decide), h "d1" (by decide), h "d2" (by decide),
      h "g1" (by decide), h "g2" (by decide), h "g3" (by decide), h "g4" (by decide), h "g5" (by decide)]
  unfold fromFile
  have h2 : readConfig o { c with contributions := some l } = readConfig o { c with contributions := some l' } := by
    unfold readConfig
    rw [this]
    rfl
  rw [h2]

/-- A settings file with a list of contributions only. -/
def onlyContributions (l : List String) : Config where
  opt := fun _ => none
  legacy := fun _ => none
  contributions := some l
  bias := fun _ => ⟨none, none, none, none, none⟩

theorem forM_nothing {α : Type} (l : List α) (f : α → Py Unit) (h : ∀ a ∈ l, f a = pure ()) :
    l.forM f = (pure () : Py Unit) := by
  induction l with
  | nil => rfl
  | cons a l ih =>
    show (f a >>= fun _ => (l.forM f : Py Unit)) = _
    rw [h a (by simp), ih fun b hb => h b (by simp [hb])]
    rfl

theorem onlyContributions_load (o : SetOrder) (l : List String) : readConfig o (onlyContributions l) =
    readContributions (onlyContributions l) := by
  have e1 : ∀ L : List Name, ∀ r, L.forM (readOption (onlyContributions l) r) = (pure () : Py Unit) :=
    fun L r => forM_nothing _ _ fun a _ => rfl
  have e2 : Legacy.all.forM (readLegacy (onlyContributions l)) = (pure () : Py Unit) := forM_nothing _ _ fun a _ => rfl
  have e3 : BiasName.order.forM (readBias (onlyContributions l)) = (pure () : Py Unit) := forM_nothing _ _ fun a _ => rfl
  unfold readConfig
  rw [e2, e1, e1, e1, e1, e1, e3]
  funext s
  show (readContributions (onlyContributions l) >>= fun _ => (pure () : Py Unit)) s = _
  cases h : readContributions (onlyContributions l) s with
  | mk r s' =>
    cases r with
    | error e => exact Py.bind_err h
    | ok u => exact (Py.bind_ok h).trans rfl

theorem step_den (l : List String) (s : PyObj) : ∃ s',
    ((if "den" ∈ l then setattr .has_density (.bool true) else pure () : Py Unit) s = (.ok (), s')) ∧
      s'.par.contrib = { s.par.contrib with den := s.par.contrib.den || decide ("den" ∈ l) } := by
  by_cases h : "den" ∈ l
  · rw [if_pos h]
    exact ⟨_, rfl, by rw [decide_eq_true h, Bool.or_true]; rfl⟩
  · rw [if_neg h]
    exact ⟨_, rfl, by simp [h]⟩

theorem step_rsd (l : List String) (s : PyObj) : ∃ s',
    ((if "rsd" ∈ l then setattr .has_rsd (.bool true) else pure () : Py Unit) s = (.ok (), s')) ∧
      s'.par.contrib = { s.par.contrib with rsd := s.par.contrib.rsd || decide ("rsd" ∈ l) } := by
  by_cases h : "rsd" ∈ l
  · rw [if_pos h]
    exact ⟨_, rfl, by rw [decide_eq_true h, Bool.or_true]; rfl⟩
  · rw [if_neg h]
    exact ⟨_, rfl, by simp [h]⟩

theorem step_len (l : List String) (s : PyObj) : ∃ s',
    ((if "len" ∈ l then setattr .has_lensing (.bool true) else pure () : Py Unit) s = (.ok (), s')) ∧
      s'.par.contrib = { s.par.contrib with len := s.par.contrib.len || decide ("len" ∈ l) } := by
  by_cases h : "len" ∈ l
  · rw [if_pos h]
    exact ⟨_, rfl, by rw [decide_eq_true h, Bool.or_true]; rfl⟩
  · rw [if_neg h]
    exact ⟨_, rfl, by simp [h]⟩

theorem step_d1 (l : List String) (s : PyObj) : ∃ s',
    ((if "d1" ∈ l then setattr .has_d1 (.bool true) else pure () : Py Unit) s = (.ok (), s')) ∧
      s'.par.contrib = { s.par.contrib with d1 := s.par.contrib.d1 || decide ("d1" ∈ l) } := by
  by_cases h : "d1" ∈ l
  · rw [if_pos h]
    exact ⟨_, rfl, by rw [decide_eq_true h, Bool.or_true]; rfl⟩
  · rw [if_neg h]
    exact ⟨_, rfl, by simp [h]⟩

theorem step_d2 (l : List String) (s : PyObj) : ∃ s',
    ((if "d2" ∈ l then setattr .has_d2 (.bool true) else pure () : Py Unit) s = (.ok (), s')) ∧
      s'.par.contrib = { s.par.contrib with d2 := s.par.contrib.d2 || decide ("d2" ∈ l) } := by
  by_cases h : "d2" ∈ l
  · rw [if_pos h]
    exact ⟨_, rfl, by rw [decide_eq_true h, Bool.or_true]; rfl⟩
  · rw [if_neg h]
    exact ⟨_, rfl, by simp [h]⟩

theorem step_g1 (l : List String) (s : PyObj) : ∃ s',
    ((if "g1" ∈ l then setattr .has_g1 (.bool true) else pure () : Py Unit) s = (.ok (), s')) ∧
      s'.par.contrib = { s.par.contrib with g1 := s.par.contrib.g1 || decide ("g1" ∈ l) } := by
  by_cases h : "g1" ∈ l
  · rw [if_pos h]
    exact ⟨_, rfl, by rw [decide_eq_true h, Bool.or_true]; rfl⟩
  · rw [if_neg h]
    exact ⟨_, rfl, by simp [h]⟩

theorem step_g2 (l : List String) (s : PyObj) : ∃ s',
    ((if "g2" ∈ l then setattr .has_g2 (.bool true) else pure () : Py Unit) s = (.ok (), s')) ∧
      s'.par.contrib = { s.par.contrib with g2 := s.par.contrib.g2 || decide ("g2" ∈ l) } := by
  by_cases h : "g2" ∈ l
  · rw [if_pos h]
    exact ⟨_, rfl, by rw [decide_eq_true h, Bool.or_true]; rfl⟩
  · rw [if_neg h]
    exact ⟨_, rfl, by simp [h]⟩

theorem step_g3 (l : List String) (s : PyObj) : ∃ s',
    ((if "g3" ∈ l then setattr .has_g3 (.bool true) else pure () : Py Unit) s = (.ok (), s')) ∧
      s'.par.contrib = { s.par.contrib with g3 := s.par.contrib.g3 || decide ("g3" ∈ l) } := by
  by_cases h : "g3" ∈ l
  · rw [if_pos h]
    exact ⟨_, rfl, by rw [decide_eq_true h, Bool.or_true]; rfl⟩
  · rw [if_neg h]
    exact ⟨_, rfl, by simp [h]⟩

theorem step_g4 (l : List String) (s : PyObj) : ∃ s',
    ((if "g4" ∈ l then setattr .has_g4 (.bool true) else pure () : Py Unit) s = (.ok (), s')) ∧
      s'.par.contrib = { s.par.contrib with g4 := s.par.contrib.g4 || decide ("g4" ∈ l) } := by
  by_cases h : "g4" ∈ l
  · rw [if_pos h]
    exact ⟨_, rfl, by rw [decide_eq_true h, Bool.or_true]; rfl⟩
  · rw [if_neg h]
    exact ⟨_, rfl, by simp [h]⟩

theorem step_g5 (l : List String) (s : PyObj) : ∃ s',
    ((if "g5" ∈ l then setattr .has_g5 (.bool true) else pure () : Py Unit) s = (.ok (), s')) ∧
      s'.par.contrib = { s.par.contrib with g5 := s.par.contrib.g5 || decide ("g5" ∈ l) } := by
  by_cases h : "g5" ∈ l
  · rw [if_pos h]
    exact ⟨_, rfl, by rw [decide_eq_true h, Bool.or_true]; rfl⟩
  · rw [if_neg h]
    exact ⟨_, rfl, by simp [h]⟩

/-- The contributions after a settings file with a list of contributions only: those in the list, and density. -/
theorem C41_python_exact (o : SetOrder) (l : List String) : ∃ t, fromFile o (onlyContributions l) = .ok t ∧
    t.par.contrib.den = true ∧ (t.par.contrib.rsd = true ↔ "rsd" ∈ l) ∧ (t.par.contrib.len = true ↔ "len" ∈ l) ∧
    (t.par.contrib.d1 = true ↔ "d1" ∈ l) ∧ (t.par.contrib.d2 = true ↔ "d2" ∈ l) ∧
    (t.par.contrib.g1 = true ↔ "g1" ∈ l) ∧ (t.par.contrib.g2 = true ↔ "g2" ∈ l) ∧
    (t.par.contrib.g3 = true ↔ "g3" ∈ l) ∧ (t.par.contrib.g4 = true ↔ "g4" ∈ l) ∧
    (t.par.contrib.g5 = true ↔ "g5" ∈ l) := by
  obtain ⟨s0, h0, e0⟩ := step_den l (fresh PyPar.default)
  obtain ⟨s1, h1, e1⟩ := step_rsd l s0
  obtain ⟨s2, h2, e2⟩ := step_len l s1
  obtain ⟨s3, h3, e3⟩ := step_d1 l s2
  obtain ⟨s4, h4, e4⟩ := step_d2 l s3
  obtain ⟨s5, h5, e5⟩ := step_g1 l s4
  obtain ⟨s6, h6, e6⟩ := step_g2 l s5
  obtain ⟨s7, h7, e7⟩ := step_g3 l s6
  obtain ⟨s8, h8, e8⟩ := step_g4 l s7
  obtain ⟨s9, h9, e9⟩ := step_g5 l s8
  have e : readContributions (onlyContributions l) (fresh PyPar.default) = (.ok (), s9) := by
    unfold readContributions contributionNames
    show (List.forM _ _ : Py Unit) _ = _
    exact (Py.bind_ok h0).trans ((Py.bind_ok h1).trans ((Py.bind_ok h2).trans ((Py.bind_ok h3).trans ((Py.bind_ok h4).trans ((Py.bind_ok h5).trans ((Py.bind_ok h6).trans ((Py.bind_ok h7).trans ((Py.bind_ok h8).trans ((Py.bind_ok h9).trans (rfl))))))))))
  refine ⟨s9, ?_, ?_⟩
  · unfold fromFile
    rw [onlyContributions_load, e]
  · rw [e9, e8, e7, e6, e5, e4, e3, e2, e1, e0]
    have : (fresh PyPar.default).par.contrib = ⟨true, false, false, false, false, false, false, false, false, false⟩ := rfl
    rw [this]
    simp

/-- **C41 fails** between the two interfaces: a list without density switches density off in the C program, not in
Python. -/
theorem C41_density_false (o : SetOrder) {E : ParserEnv} {R : ClassRun} {c : Conf} {p : CPar} {l : List String}
    (hd : "den" ∉ l) (hl : ListsText c "correlation_contributions" (l.map String.toList))
    (h : coffe_parser_init E R c = .ok p) :
    p.contrib.den = false ∧ ∃ t, fromFile o (onlyContributions l) = .ok t ∧ t.par.contrib.den = true := by
  constructor
  · have := (C41_c_exact hl h).1
    cases hb : p.contrib.den with
    | false => rfl
    | true => exact absurd (this.1 hb) hd
  · obtain ⟨t, h1, h2, _⟩ := C41_python_exact o l
    exact ⟨t, h1, h2⟩

end Coffe
