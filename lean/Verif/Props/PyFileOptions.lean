import Verif.Proofs.PyFileOptions
import Verif.Props.PyFile
import Verif.Props.ContribNames

/-!
# Every option of a settings file takes effect (C67)
-/

namespace Coffe
open Classical

/-- C67: after loading a settings file, a parameter has the value given under its own name, else the value given
under its old name, else it is on if the old list of contributions has it, else it is that of a new object.
Missing (false): the parameters whose own name is not looked at. -/
theorem C67_partial (o : SetOrder) (ho : o.Valid) (c : Config) (t : PyObj) (h : fromFile o c = .ok t) (n : Name)
    (hn : ¬ n.Ignored) (hw : ∀ x v, c.opt n = some x → x.Spells v → n.Whole v) :
    c.Gives n (getattr t.par n) ((c.opt n).or (c.oldText n)) := by
  obtain ⟨s0, s1, t1, t2, t3, t4, t5, e0, e0', e1, e2, e3, e4, e5, e6⟩ := file_stages h
  have hcdm : n ≠ .omega_cdm := by rintro rfl; exact hn (by simp [Name.Ignored])
  obtain ⟨l1, -, l3⟩ := legacy_loop legacy_all_nodup e0
  have c1 := (contributions_done e0').1 n hcdm
  obtain ⟨o1, o2⟩ := own_names ho e1 e2 e3 e4 e5 n hcdm
  have b1 := (bias_loop (by decide) e6).1 n
  rw [b1]
  have hdef : ∀ n, getattr (fresh PyPar.default).par n = getattr PyPar.default n := fun _ => rfl
  cases hopt : c.opt n with
  | some x =>
    rw [Option.some_or]
    obtain ⟨v, h1, h2⟩ := o2 x hn hopt fun v hv => hw x v hopt hv
    refine ⟨v, h1, ?_⟩
    by_cases hq : n.old ≠ none ∨ n.effect ≠ none
    · exact accepted_old hq h2
    · simp only [ne_eq, not_or, not_not] at hq
      rw [c1, if_neg, l1 n hcdm fun ℓ _ he => by rw [hq.1] at he; cases he] at h2
      · exact h2
      · rintro ⟨l, e, -, he, -⟩
        rw [hq.2] at he
        cases he
  | none =>
    rw [Option.none_or, o1 (Or.inr hopt), c1]
    cases hold : c.oldText n with
    | none =>
      rw [l1 n hcdm fun ℓ _ he => by
        unfold Config.oldText at hold
        rw [he] at hold
        exact hold]
      rfl
    | some x =>
      obtain ⟨ℓ, ha, hb⟩ := Option.bind_eq_some_iff.1 (show n.old.bind c.legacy = some x from hold)
      have hno : n.old ≠ none := by rw [ha]; simp
      have heff : n.effect = none := (old_or_effect n).resolve_left hno
      obtain ⟨v, h1, h2⟩ := l3 ℓ (legacy_all ℓ) n x hcdm ha hb
      refine ⟨v, h1, ?_⟩
      rw [if_neg]
      · exact h2 (whole_old hno v)
      · rintro ⟨l, e, -, he, -⟩
        rw [heff] at he
        cases he

/-- What happens to the parameters whose own name is not looked at: only the old names count. -/
theorem C67_old_names (o : SetOrder) (ho : o.Valid) (c : Config) (t : PyObj) (h : fromFile o c = .ok t) (n : Name)
    (hn : n.Ignored) (hc : n ≠ .omega_cdm) : c.Gives n (getattr t.par n) (c.oldText n) := by
  obtain ⟨s0, s1, t1, t2, t3, t4, t5, e0, e0', e1, e2, e3, e4, e5, e6⟩ := file_stages h
  obtain ⟨l1, -, l3⟩ := legacy_loop legacy_all_nodup e0
  have c1 := (contributions_done e0').1 n hc
  rw [(bias_loop (by decide) e6).1 n, (own_names ho e1 e2 e3 e4 e5 n hc).1 (Or.inl hn), c1]
  cases hold : c.oldText n with
  | none =>
    rw [l1 n hc fun ℓ _ he => by
      unfold Config.oldText at hold
      rw [he] at hold
      exact hold]
    rfl
  | some x =>
    obtain ⟨ℓ, ha, hb⟩ := Option.bind_eq_some_iff.1 (show n.old.bind c.legacy = some x from hold)
    have hno : n.old ≠ none := by rw [ha]; simp
    have heff : n.effect = none := (old_or_effect n).resolve_left hno
    obtain ⟨v, h1, h2⟩ := l3 ℓ (legacy_all ℓ) n x hc ha hb
    refine ⟨v, h1, ?_⟩
    rw [if_neg]
    · exact h2 (whole_old hno v)
    · rintro ⟨l, e, -, he, -⟩
      rw [heff] at he
      cases he

/-- C67 for the bias functions: if the file says what a bias function is, that is what it is after loading, and
otherwise it is that of a new object.  Missing (false): a single value without a file name. -/
theorem C67_bias_partial (o : SetOrder) (c : Config) (t : PyObj) (h : fromFile o c = .ok t) (b : BiasName)
    (hv : (c.bias b).value ≠ none → (c.bias b).input ≠ none) :
    ((∃ S, (c.bias b).Says S) → (c.bias b).Says (t.par.bias.get b)) ∧
    ((¬ ∃ S, (c.bias b).Says S) → t.par.bias.get b = PyPar.default.bias.get b) := by
  obtain ⟨s0, s1, t1, t2, t3, t4, t5, e0, e0', e1, e2, e3, e4, e5, e6⟩ := file_stages h
  obtain ⟨-, l2, -⟩ := legacy_loop legacy_all_nodup e0
  have hb : b ∈ BiasName.order := by cases b <;> decide
  have hkeep : t5.par.bias = PyPar.default.bias := by
    rw [(loop_keep e5).2, (loop_keep e4).2, (loop_keep e3).2, (loop_keep e2).2, (loop_keep e1).2,
      (contributions_done e0').2, l2]
    rfl
  rcases (bias_loop (by decide) e6).2.2 b hb with h1 | ⟨h1, h2, h3, h4⟩
  · exact ⟨fun _ => h1, fun hno => absurd ⟨_, h1⟩ hno⟩
  · refine ⟨?_, fun _ => by rw [h1, hkeep]⟩
    rintro ⟨S, hS⟩
    exfalso
    cases hS with
    | file x y q1 q2 => exact h2 q1
    | value s x q1 q2 q3 => exact hv (by rw [q2]; simp) h3
    | lists s s' x y q1 q2 q3 =>
      rcases h4 with h4 | h4
      · rw [h4] at q2; cases q2
      · rw [h4] at q3; cases q3

/-! ## What fails -/

theorem never_ignored : ∀ L ∈ [floatArrayOptions, [Name.l], floatOptions, intOptions, choiceOptions], ∀ n ∈ L,
    ¬ n.Ignored := by
  intro L hL n hn hi
  unfold Name.Ignored at hi
  simp only [List.mem_cons, List.not_mem_nil, or_false] at hi hL
  rcases hL with rfl | rfl | rfl | rfl | rfl <;> rcases hi with rfl | rfl | rfl | rfl | rfl | rfl | rfl <;>
    simp [floatArrayOptions, floatOptions, intOptions, choiceOptions] at hn

theorem forM_same {α : Type} (l : List α) (f g : α → Py Unit) (h : ∀ a ∈ l, f a = g a) :
    l.forM f = (l.forM g : Py Unit) := by
  induction l with
  | nil => rfl
  | cons a l ih =>
    show (f a >>= fun _ => (l.forM f : Py Unit)) = (g a >>= fun _ => (l.forM g : Py Unit))
    rw [h a (by simp), ih fun b hb => h b (by simp [hb])]

/-- C67 fails: giving any of seven parameters under its own name makes no difference at all, whatever the text. -/
theorem C67_ignored_false (o : SetOrder) (ho : o.Valid) (c : Config) (f : Name → Option Txt)
    (hf : ∀ n, ¬ n.Ignored → f n = c.opt n) : fromFile o { c with opt := f } = fromFile o c := by
  have e : ∀ L : List Name, (∀ n ∈ L, ¬ n.Ignored) → ∀ r,
      L.forM (readOption { c with opt := f } r) = (L.forM (readOption c r) : Py Unit) := fun L hL r =>
    forM_same L _ _ fun n hn => by unfold readOption; dsimp only; rw [hf n (hL n hn)]
  have : readConfig o { c with opt := f } = readConfig o c := by
    unfold readConfig
    rw [e o.floatArrays fun n hn => never_ignored _ (by simp) n (ho.floatArrays.mem_iff.1 hn),
      e [Name.l] (never_ignored _ (by simp)),
      e o.floats fun n hn => never_ignored floatOptions (by simp) n (ho.floats.mem_iff.1 hn),
      e o.ints fun n hn => never_ignored intOptions (by simp) n (ho.ints.mem_iff.1 hn),
      e o.choices fun n hn => never_ignored choiceOptions (by simp) n (ho.choices.mem_iff.1 hn)]
    rfl
  unfold fromFile
  rw [this]

/-- C67 fails: a file that gives `integrals_fftlog_sampling` cannot be loaded, whatever the text. -/
theorem C67_sampling_false (o : SetOrder) (ho : o.Valid) (c : Config) (x : Txt)
    (hx : c.opt .integrals_fftlog_sampling = some x) (t : PyObj) : fromFile o c ≠ .ok t := by
  intro h
  obtain ⟨s0, s1, t1, t2, t3, t4, t5, e0, e0', e1, e2, e3, e4, e5, e6⟩ := file_stages h
  exact sampling_loop hx o.ints (ho.ints.mem_iff.2 (by decide)) e4

/-! ## Examples -/

theorem load_old (o : SetOrder) (c : Config) (h1 : ∀ n, ¬ n.Ignored → c.opt n = none) (h2 : c.contributions = none)
    (h3 : ∀ b, ∃ x, c.bias b = ⟨none, none, x, none, none⟩)
    (ho : o.Valid) : readConfig o c = (Legacy.all.forM (readLegacy c) : Py Unit) := by
  have e1 : ∀ L : List Name, (∀ n ∈ L, ¬ n.Ignored) → ∀ r, L.forM (readOption c r) = (pure () : Py Unit) :=
    fun L hL r => forM_nothing _ _ fun a ha => by unfold readOption; rw [h1 a (hL a ha)]
  have e3 : BiasName.order.forM (readBias c) = (pure () : Py Unit) := forM_nothing _ _ fun b _ => by
    unfold readBias
    obtain ⟨x, h⟩ := h3 b
    rw [h]
    rfl
  have e0 : readContributions c = pure () := by unfold readContributions; rw [h2]
  unfold readConfig
  rw [e1 o.floatArrays fun n hn => never_ignored _ (by simp) n (ho.floatArrays.mem_iff.1 hn),
    e1 [Name.l] (never_ignored _ (by simp)),
    e1 o.floats fun n hn => never_ignored floatOptions (by simp) n (ho.floats.mem_iff.1 hn),
    e1 o.ints fun n hn => never_ignored intOptions (by simp) n (ho.ints.mem_iff.1 hn),
    e1 o.choices fun n hn => never_ignored choiceOptions (by simp) n (ho.choices.mem_iff.1 hn), e3, e0]
  funext s
  show (Legacy.all.forM (readLegacy c) >>= fun _ => (pure () : Py Unit)) s = _
  cases h : (Legacy.all.forM (readLegacy c) : Py Unit) s with
  | mk r s' =>
    cases r with
    | error e => exact Py.bind_err h
    | ok u => exact (Py.bind_ok h).trans rfl

/-- A file with one old option, for both number densities. -/
noncomputable def oldDensity : Config := { Config.empty with
  legacy := fun ℓ => if ℓ = .covariance_density then some (.floats [1, 2]) else none }

/-- It loads, and sets both densities. -/
example (o : SetOrder) (ho : o.Valid) : ∃ t, fromFile o oldDensity = .ok t ∧
    getattr t.par .number_density1 = .floats [1, 2] ∧ getattr t.par .number_density2 = .floats [1, 2] ∧
    getattr t.par .z_mean = getattr PyPar.default .z_mean := by
  have ok : ∀ s n, n = .number_density1 ∨ n = .number_density2 → ∃ s', setattr n (.floats [1, 2]) s = (.ok (), s') := by
    intro s n hn
    rcases hn with rfl | rfl
    · obtain ⟨s', h, -⟩ := (C33_list_round_trip .number_density1 (by simp [listParameters]) [1, 2] s).1
        (by simp [entryOk]; norm_num)
      exact ⟨s', h⟩
    · obtain ⟨s', h, -⟩ := (C33_list_round_trip .number_density2 (by simp [listParameters]) [1, 2] s).1
        (by simp [entryOk]; norm_num)
      exact ⟨s', h⟩
  obtain ⟨u1, h1⟩ := ok (fresh PyPar.default) .number_density1 (Or.inl rfl)
  obtain ⟨u2, h2⟩ := ok u1 .number_density2 (Or.inr rfl)
  have hl : fromFile o oldDensity = .ok u2 := by
    unfold fromFile
    rw [load_old o oldDensity (fun _ _ => rfl) rfl (fun _ => ⟨none, rfl⟩) ho]
    have skip : ∀ ℓ, ℓ ≠ .covariance_density → ∀ s, readLegacy oldDensity ℓ s = (.ok (), s) := by
      intro ℓ hℓ s
      unfold readLegacy
      rw [show oldDensity.legacy ℓ = none from if_neg hℓ]
      rfl
    have here : readLegacy oldDensity .covariance_density (fresh PyPar.default) = (.ok (), u2) := by
      unfold readLegacy
      rw [show oldDensity.legacy .covariance_density = some (.floats [1, 2]) by simp [oldDensity]]
      exact (Py.bind_ok h1).trans ((Py.bind_ok h2).trans rfl)
    have : (Legacy.all.forM (readLegacy oldDensity) : Py Unit) (fresh PyPar.default) = (.ok (), u2) := by
      unfold Legacy.all
      refine (Py.bind_ok (skip _ (by simp) _)).trans ((Py.bind_ok (skip _ (by simp) _)).trans
        ((Py.bind_ok (skip _ (by simp) _)).trans ((Py.bind_ok (skip _ (by simp) _)).trans
        ((Py.bind_ok (skip _ (by simp) _)).trans ((Py.bind_ok (skip _ (by simp) _)).trans
        ((Py.bind_ok (skip _ (by simp) _)).trans ((Py.bind_ok (skip _ (by simp) _)).trans
        ((Py.bind_ok here).trans ((Py.bind_ok (skip _ (by simp) _)).trans
        ((Py.bind_ok (skip _ (by simp) _)).trans ((Py.bind_ok (skip _ (by simp) _)).trans
        ((Py.bind_ok (skip _ (by simp) _)).trans rfl))))))))))))
    rw [this]
  have get : ∀ n, n = .number_density1 ∨ n = .number_density2 → getattr u2.par n = .floats [1, 2] := by
    intro n hn
    have hi : ¬ n.Ignored := by rcases hn with rfl | rfl <;> simp [Name.Ignored]
    have hold : oldDensity.oldText n = some (.floats [1, 2]) := by
      rcases hn with rfl | rfl <;> simp [Config.oldText, Name.old, oldDensity]
    have hdoc : ∃ ok, n.doc = .reals ok := by rcases hn with rfl | rfl <;> exact ⟨_, rfl⟩
    have := C67_partial o ho _ _ hl n hi fun x v hx => by cases hx
    rw [hold] at this
    obtain ⟨w, ⟨⟨-, rfl⟩, -⟩, h3⟩ := this
    obtain ⟨ok, hok⟩ := hdoc
    rw [hok] at h3
    obtain ⟨l, h4 | ⟨_, h4, -⟩, -, h5⟩ := h3 <;> cases h4
    exact h5
  refine ⟨u2, hl, get _ (Or.inl rfl), get _ (Or.inr rfl), ?_⟩
  have := C67_partial o ho _ _ hl .z_mean (by simp [Name.Ignored]) fun x v hx => by cases hx
  have e : oldDensity.oldText .z_mean = none := by simp [Config.oldText, Name.old, oldDensity]
  rw [e] at this
  refine Eq.trans this (if_neg ?_)
  rintro ⟨l, e, h, -⟩
  cases h

/-- A file that asks for the cross-correlations only, with the name of today. -/
def crossFile : Config := { Config.empty with
  opt := fun n => if n = .has_only_cross_correlations then some (.int 1) else none }

theorem empty_load (o : SetOrder) (ho : o.Valid) (c : Config) (h1 : ∀ n, ¬ n.Ignored → c.opt n = none)
    (h2 : c.contributions = none) (h3 : ∀ b, ∃ x, c.bias b = ⟨none, none, x, none, none⟩)
    (h4 : ∀ ℓ, c.legacy ℓ = none) : fromFile o c = .ok (fresh PyPar.default) := by
  unfold fromFile
  rw [load_old o c h1 h2 h3 ho, forM_nothing _ _ fun ℓ _ => by unfold readLegacy; rw [h4]]
  rfl

/-- C67 fails: the file is loaded without an error, and the parameter is off. -/
theorem C67_cross_false (o : SetOrder) (ho : o.Valid) : ∃ t, fromFile o crossFile = .ok t ∧
    crossFile.opt .has_only_cross_correlations = some (.int 1) ∧
    getattr t.par .has_only_cross_correlations = .bool false := by
  refine ⟨_, empty_load o ho _ (fun n hn => ?_) rfl (fun _ => ⟨none, rfl⟩) fun _ => rfl, ?_, rfl⟩
  · unfold crossFile
    dsimp only
    rw [if_neg]
    rintro rfl
    exact hn (by simp [Name.Ignored])
  · simp [crossFile]

/-- A file that gives one value for the first galaxy bias. -/
noncomputable def biasFile : Config := { Config.empty with
  bias := fun b => if b = .galaxy1 then ⟨none, none, some (.int 2), none, none⟩ else ⟨none, none, none, none, none⟩ }

/-- C67 fails for the bias functions: a single value without a file name is not used. -/
theorem C67_bias_false (o : SetOrder) (ho : o.Valid) : ∃ t, fromFile o biasFile = .ok t ∧
    (∀ S, (biasFile.bias .galaxy1).Says S ↔ S = (linspace 0 10 100).map fun z => (z, 2)) ∧
    t.par.bias.get .galaxy1 = constBias 1 := by
  have hb : biasFile.bias .galaxy1 = ⟨none, none, some (.int 2), none, none⟩ := by simp [biasFile]
  refine ⟨_, empty_load o ho _ (fun n hn => rfl) rfl (fun b => ?_) fun _ => rfl, fun S => ?_, rfl⟩
  · by_cases h : b = .galaxy1
    · subst h
      exact ⟨_, hb⟩
    · exact ⟨none, if_neg h⟩
  · rw [hb]
    constructor
    · intro h
      cases h with
      | file x y h => cases h
      | lists s t x y _ h => cases h
      | value t x _ h1 h2 =>
        cases h1
        have : x = 2 := by
          rcases h2 with h2 | h2 | h2 | h2 <;> cases h2
          norm_num
        rw [this]
    · rintro rfl
      exact .value (.int 2) 2 (by simp) rfl (by simp [Txt.Spells])

end Coffe
