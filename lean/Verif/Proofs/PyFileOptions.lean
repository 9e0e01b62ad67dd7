import Verif.Spec.FileOptions
import Verif.Proofs.PyFileBack

/-! # Helper lemmas: what each option of a settings file does -/

namespace Coffe
open Classical

theorem getfloatArray_spells {x : Txt} {v : PyVal} (h : (x.getfloatArray.map .floats : Except Err PyVal) = .ok v) :
    x.Spells v := by
  cases x with
  | int n => cases h; simp [Txt.Spells]
  | float y => cases h; simp [Txt.Spells]
  | ints l => cases l <;> cases h; simp [Txt.Spells]
  | floats l => cases l <;> cases h; simp [Txt.Spells]
  | str s => cases h

theorem getintArray_spells {x : Txt} {v : PyVal} (h : x.getintArray = .ok v) : x.Spells v := by
  cases x with
  | int n => cases h; simp [Txt.Spells]
  | float y => cases h
  | ints l => cases l <;> cases h; simp [Txt.Spells]
  | floats l => cases h
  | str s => cases h

theorem getfloat_spells {x : Txt} {v : PyVal} (h : x.getfloat = .ok v) : x.Spells v := by
  cases x <;> cases h <;> simp [Txt.Spells]

theorem getint_spells {x : Txt} {v : PyVal} (h : x.getint = .ok v) : x.Spells v := by
  cases x <;> cases h; simp [Txt.Spells]

theorem read_spells {x : Txt} {v : PyVal} {r : Reader} (h : r.read x = .ok v) : x.Spells v := by
  cases r
  · exact getint_spells h
  · exact getfloatArray_spells h
  · exact getintArray_spells h

/-! ## Old names -/

theorem assign_done {n : Name} {r : Except Err PyVal} {s t : PyObj} {u : Unit} (h : assign n r s = (.ok u, t)) :
    ∃ v, r = .ok v ∧ setattr n v s = (.ok (), t) := by
  cases r with
  | error e => cases h
  | ok v => exact ⟨v, rfl, h⟩

theorem set_keep {n : Name} {v : PyVal} {s t : PyObj} {u : Unit} (h : setattr n v s = (.ok u, t)) :
    (∀ m, m ≠ n → ¬ n.Drives m → getattr t.par m = getattr s.par m) ∧ t.par.bias = s.par.bias := by
  constructor
  · intro m hm hd
    have := C47_assignments_independent n m v s hm hd
    rw [h] at this
    exact this
  · have := setattr_bias n v s
    rw [h] at this
    exact this

/-- Assigning one value to several parameters. -/
theorem assign_loop {r : Except Err PyVal} : ∀ {l : List Name}, l.Nodup → Name.omega_cdm ∉ l →
    ∀ {s t : PyObj} {u : Unit}, (l.forM (fun n => assign n r) : Py Unit) s = (.ok u, t) →
    (∀ m, m ≠ .omega_cdm → m ∉ l → getattr t.par m = getattr s.par m) ∧ t.par.bias = s.par.bias ∧
    ∀ m ∈ l, ∃ v, r = .ok v ∧ (m.Whole v → m.doc.Accepted v (getattr s.par m) (getattr t.par m)) := by
  intro l
  induction l with
  | nil => intro _ _ s t u h; cases h; exact ⟨fun _ _ _ => rfl, rfl, by simp⟩
  | cons n l ih =>
    intro hl hc s t u h
    rw [List.nodup_cons] at hl
    simp only [List.mem_cons, not_or] at hc
    obtain ⟨s', h1, h2⟩ := Py.forM_done h
    obtain ⟨v, h3, h4⟩ := assign_done h1
    obtain ⟨k1, b1⟩ := set_keep h4
    obtain ⟨k2, b2, a2⟩ := ih hl.2 hc.2 h2
    refine ⟨fun m hm hn => ?_, b2.trans b1, fun m hm => ?_⟩
    · simp only [List.mem_cons, not_or] at hn
      rw [k2 m hm hn.2, k1 m hn.1 (not_drives (Ne.symm hc.1) hm)]
    · by_cases hmn : m = n
      · subst hmn
        refine ⟨v, h3, fun hw => ?_⟩
        rw [k2 m (Ne.symm hc.1) hl.1]
        exact setattr_ok_accepted h4 hw
      · have hm' : m ∈ l := (List.mem_cons.1 hm).resolve_left hmn
        obtain ⟨v', q1, q2⟩ := a2 m hm'
        refine ⟨v', q1, fun hw => ?_⟩
        rw [k1 m hmn (not_drives (Ne.symm hc.1) (fun e => hc.2 (e ▸ hm')))] at q2
        exact q2 hw

theorem legacy_names (ℓ : Legacy) : ℓ.names.Nodup ∧ Name.omega_cdm ∉ ℓ.names := by cases ℓ <;> decide

/-- The two directions of the list of old names agree. -/
theorem old_iff (n : Name) (ℓ : Legacy) : n.old = some ℓ ↔ n ∈ ℓ.names := by
  cases n <;> cases ℓ <;> simp [Name.old, Legacy.names]

/-- What one old option does. -/
theorem flag_read {m : Name} {ℓ : Legacy} (hm : m.old = some ℓ) (hf : m.doc = .flag) {x : Txt} {v : PyVal}
    (h : ℓ.reader.read x = .ok v) : ∃ k, v = .int k := by
  have hr : ℓ.reader = .int := by
    cases m <;> cases hf <;> cases hm <;> rfl
  rw [hr] at h
  cases x <;> cases h
  exact ⟨_, rfl⟩

theorem flag_lists : ∀ L ∈ [floatArrayOptions, [Name.l], floatOptions, choiceOptions], ∀ n ∈ L, n.doc ≠ .flag := by
  intro L hL n hn hf
  simp only [List.mem_cons, List.not_mem_nil, or_false] at hL
  rcases hL with rfl | rfl | rfl | rfl <;> (cases n <;> cases hf <;> simp [floatArrayOptions, floatOptions, choiceOptions] at hn)

theorem legacy_step {c : Config} {ℓ : Legacy} {s t : PyObj} {u : Unit} (h : readLegacy c ℓ s = (.ok u, t)) :
    (∀ m, m ≠ .omega_cdm → m.old ≠ some ℓ → getattr t.par m = getattr s.par m) ∧ t.par.bias = s.par.bias ∧
    (c.legacy ℓ = none → t = s) ∧
    ∀ (m : Name) x, m.old = some ℓ → c.legacy ℓ = some x → ∃ v, x.SpellsFor m v ∧
      (m.Whole v → m.doc.Accepted v (getattr s.par m) (getattr t.par m)) := by
  unfold readLegacy at h
  cases hl : c.legacy ℓ with
  | none =>
    rw [hl] at h
    cases h
    exact ⟨fun _ _ _ => rfl, rfl, fun _ => rfl, fun m x _ hx => by cases hx⟩
  | some x =>
    rw [hl] at h
    obtain ⟨n1, n2⟩ := legacy_names ℓ
    obtain ⟨a, b, d⟩ := assign_loop n1 n2 h
    refine ⟨fun m hm hn => a m hm (fun hh => hn ((old_iff m ℓ).2 hh)), b, fun hx => (by cases hx), fun m x' hm hx => ?_⟩
    cases hx
    obtain ⟨v, h1, h2⟩ := d m ((old_iff m ℓ).1 hm)
    exact ⟨v, ⟨read_spells h1, fun hf => flag_read hm hf h1⟩, h2⟩

/-- What the old options do. -/
theorem legacy_loop {c : Config} : ∀ {l : List Legacy}, l.Nodup → ∀ {s t : PyObj} {u : Unit},
    (l.forM (readLegacy c) : Py Unit) s = (.ok u, t) →
    (∀ m, m ≠ .omega_cdm → (∀ ℓ ∈ l, m.old = some ℓ → c.legacy ℓ = none) → getattr t.par m = getattr s.par m) ∧
    t.par.bias = s.par.bias ∧
    ∀ ℓ ∈ l, ∀ (m : Name) x, m ≠ .omega_cdm → m.old = some ℓ → c.legacy ℓ = some x → ∃ v, x.SpellsFor m v ∧
      (m.Whole v → m.doc.Accepted v (getattr s.par m) (getattr t.par m)) := by
  intro l
  induction l with
  | nil => intro _ s t u h; cases h; exact ⟨fun _ _ _ => rfl, rfl, by simp⟩
  | cons a l ih =>
    intro hl s t u h
    rw [List.nodup_cons] at hl
    obtain ⟨s', h1, h2⟩ := Py.forM_done h
    obtain ⟨k1, b1, e1, d1⟩ := legacy_step h1
    obtain ⟨k2, b2, d2⟩ := ih hl.2 h2
    have first : ∀ m, m ≠ .omega_cdm → (m.old = some a → c.legacy a = none) → getattr s'.par m = getattr s.par m := by
      intro m hm hn
      by_cases ho : m.old = some a
      · rw [e1 (hn ho)]
      · exact k1 m hm ho
    refine ⟨fun m hm hn => ?_, b2.trans b1, fun ℓ hℓ m x hm ho hx => ?_⟩
    · rw [k2 m hm fun ℓ hℓ => hn ℓ (List.mem_cons_of_mem _ hℓ), first m hm (hn a List.mem_cons_self)]
    · by_cases hla : ℓ = a
      · subst hla
        obtain ⟨v, q1, q2⟩ := d1 m x ho hx
        refine ⟨v, q1, fun hw => ?_⟩
        rw [k2 m hm fun ℓ' hℓ' he => absurd hℓ' (by rw [ho] at he; cases he; exact hl.1)]
        exact q2 hw
      · obtain ⟨v, q1, q2⟩ := d2 ℓ ((List.mem_cons.1 hℓ).resolve_left hla) m x hm ho hx
        refine ⟨v, q1, fun hw => ?_⟩
        rw [← first m hm fun he => absurd (by rw [ho] at he; cases he; rfl) hla]
        exact q2 hw

theorem legacy_all_nodup : Legacy.all.Nodup := by decide

theorem legacy_all (ℓ : Legacy) : ℓ ∈ Legacy.all := by cases ℓ <;> decide

/-! ## The old list of contributions -/

theorem contrib_loop {l : List String} : ∀ {L : List (String × Name)},
    (∀ kv ∈ L, kv.2.doc = .flag ∧ kv.2 ≠ .omega_cdm) → ∀ {s t : PyObj} {u : Unit},
    (L.forM (fun kv : String × Name => if kv.1 ∈ l then setattr kv.2 (.bool true) else pure ()) : Py Unit) s =
      (.ok u, t) →
    (∀ m, m ≠ .omega_cdm → getattr t.par m =
      if ∃ e, (e, m) ∈ L ∧ e ∈ l then .bool true else getattr s.par m) ∧ t.par.bias = s.par.bias := by
  intro L
  induction L with
  | nil =>
    intro _ s t u h
    cases h
    exact ⟨fun m _ => by simp, rfl⟩
  | cons kv L ih =>
    intro hL s t u h
    obtain ⟨s', h1, h2⟩ := Py.forM_done h
    obtain ⟨k2, b2⟩ := ih (fun kv hkv => hL kv (List.mem_cons_of_mem _ hkv)) h2
    obtain ⟨hdoc, hcdm⟩ := hL kv List.mem_cons_self
    by_cases hin : kv.1 ∈ l
    · rw [if_pos hin] at h1
      obtain ⟨k1, b1⟩ := set_keep h1
      have hset : getattr s'.par kv.2 = .bool true := by
        have hw : kv.2.Whole (.bool true) := fun _ x hx => by cases hx
        have := setattr_ok_accepted h1 hw
        rw [hdoc] at this
        exact this
      refine ⟨fun m hm => ?_, b2.trans b1⟩
      rw [k2 m hm]
      by_cases hmn : m = kv.2
      · subst hmn
        rw [hset, ite_self, if_pos ⟨kv.1, List.mem_cons_self, hin⟩]
      · rw [k1 m hmn (not_drives hcdm hm)]
        refine if_congr ?_ rfl rfl
        constructor
        · rintro ⟨e, h1, h2⟩; exact ⟨e, List.mem_cons_of_mem _ h1, h2⟩
        · rintro ⟨e, h1, h2⟩
          rcases List.mem_cons.1 h1 with h | h
          · exact absurd (congrArg Prod.snd h) hmn
          · exact ⟨e, h, h2⟩
    · rw [if_neg hin] at h1
      cases h1
      refine ⟨fun m hm => ?_, b2⟩
      rw [k2 m hm]
      refine if_congr ?_ rfl rfl
      constructor
      · rintro ⟨e, h1, h2⟩; exact ⟨e, List.mem_cons_of_mem _ h1, h2⟩
      · rintro ⟨e, h1, h2⟩
        rcases List.mem_cons.1 h1 with h | h
        · rw [show e = kv.1 from congrArg Prod.fst h] at h2; exact absurd h2 hin
        · exact ⟨e, h, h2⟩

theorem effect_iff (n : Name) (e : String) : (e, n) ∈ contributionNames ↔ n.effect = some e := by
  cases n <;> simp [contributionNames, Name.effect, eq_comm]

theorem contributions_done {c : Config} {s t : PyObj} {u : Unit} (h : readContributions c s = (.ok u, t)) :
    (∀ m, m ≠ .omega_cdm → getattr t.par m = if c.Lists m then .bool true else getattr s.par m) ∧
    t.par.bias = s.par.bias := by
  unfold readContributions at h
  cases hc : c.contributions with
  | none =>
    rw [hc] at h
    cases h
    refine ⟨fun m _ => ?_, rfl⟩
    rw [if_neg]
    rintro ⟨l, e, h, -⟩
    rw [hc] at h
    cases h
  | some l =>
    rw [hc] at h
    obtain ⟨h1, h2⟩ := contrib_loop (by simp [contributionNames, Name.doc]) h
    refine ⟨fun m hm => ?_, h2⟩
    rw [h1 m hm]
    refine if_congr ?_ rfl rfl
    unfold Config.Lists
    rw [hc]
    constructor
    · rintro ⟨e, q1, q2⟩; exact ⟨l, e, rfl, (effect_iff m e).1 q1, q2⟩
    · rintro ⟨l', e, q1, q2, q3⟩; cases q1; exact ⟨e, (effect_iff m e).2 q2, q3⟩

/-! ## All stages -/

theorem file_stages {o : SetOrder} {c : Config} {t : PyObj} (h : fromFile o c = .ok t) : ∃ s0 s1 t1 t2 t3 t4 t5,
    (Legacy.all.forM (readLegacy c) : Py Unit) (fresh PyPar.default) = (.ok (), s0) ∧
    readContributions c s0 = (.ok (), s1) ∧
    (o.floatArrays.forM (readOption c fun t => t.getfloatArray.map .floats) : Py Unit) s1 = (.ok (), t1) ∧
    ([Name.l].forM (readOption c Txt.getintArray) : Py Unit) t1 = (.ok (), t2) ∧
    (o.floats.forM (readOption c Txt.getfloat) : Py Unit) t2 = (.ok (), t3) ∧
    (o.ints.forM (readOption c Txt.getint) : Py Unit) t3 = (.ok (), t4) ∧
    (o.choices.forM (readOption c Txt.getintOrStr) : Py Unit) t4 = (.ok (), t5) ∧
    (BiasName.order.forM (readBias c) : Py Unit) t5 = (.ok (), t) := by
  unfold fromFile at h
  rcases hx : readConfig o c (fresh PyPar.default) with ⟨r, t'⟩
  rw [hx] at h
  cases r with
  | error e => cases h
  | ok u =>
    cases h
    unfold readConfig at hx
    obtain ⟨_, s0, h0, hx⟩ := Py.bind_done hx
    obtain ⟨_, s1, h0', hx⟩ := Py.bind_done hx
    obtain ⟨_, t1, h1, hx⟩ := Py.bind_done hx
    obtain ⟨_, t2, h2, hx⟩ := Py.bind_done hx
    obtain ⟨_, t3, h3, hx⟩ := Py.bind_done hx
    obtain ⟨_, t4, h4, hx⟩ := Py.bind_done hx
    obtain ⟨_, t5, h5, hx⟩ := Py.bind_done hx
    exact ⟨s0, s1, t1, t2, t3, t4, t5, h0, h0', h1, h2, h3, h4, h5, hx⟩

/-- The samples of a constant bias. -/
theorem const_samples (y : ℝ) :
    linspace100.zip (List.replicate 100 y) = (linspace 0 10 100).map fun z => (z, y) := by
  unfold linspace100 linspace
  refine List.ext_getElem (by simp) fun i h1 h2 => ?_
  simp only [List.getElem_zip, List.getElem_map, List.getElem_range, List.getElem_replicate, Prod.mk.injEq, and_true]
  norm_num

theorem bias_rest {b : BiasName} {s t : PyObj} {u : Unit} {read value redshifts values : Option Txt}
    {input : Option (List ℝ × List ℝ)} (hr : read ≠ some (.int 1)) (h : (if input.isSome then
      match value with
      | none => Py.raise .typeError
      | some t => match t.getfloat with
        | .ok (.float x) => setBias b linspace100 (List.replicate 100 x)
        | .ok _ => Py.raise .typeError
        | .error e => Py.raise e
    else
      match redshifts, values with
      | some x, some y => match x.getfloatArray, y.getfloatArray with
        | .ok x, .ok y => setBias b x y
        | .error e, _ => Py.raise e
        | _, .error e => Py.raise e
      | _, _ => pure () : Py Unit) s = (.ok u, t)) :
    (∃ S, BiasOptions.Says ⟨read, input, value, redshifts, values⟩ S ∧
      t.par = { s.par with bias := s.par.bias.put b S }) ∨
    (t = s ∧ read ≠ some (.int 1) ∧ input = none ∧ (redshifts = none ∨ values = none)) := by
  cases input with
  | some xy =>
    left
    rw [if_pos (Option.isSome_some)] at h
    cases value with
    | none => cases h
    | some x =>
      dsimp only at h
      cases hx : x.getfloat with
      | error e => rw [hx] at h; cases h
      | ok v =>
        rw [hx] at h
        cases v with
        | float y =>
          refine ⟨_, .value x y hr rfl (getfloat_spells hx), ?_⟩
          rw [setBias_done h]
          rw [const_samples]
        | _ => cases h
  | none =>
    rw [if_neg (by simp)] at h
    cases redshifts with
    | none => right; cases h; exact ⟨rfl, hr, rfl, Or.inl rfl⟩
    | some x =>
      cases values with
      | none => right; cases h; exact ⟨rfl, hr, rfl, Or.inr rfl⟩
      | some y =>
        left
        dsimp only at h
        have sp : ∀ (x : Txt) l, x.getfloatArray = .ok l → x.Spells (.floats l) := fun x l hx =>
          getfloatArray_spells (by rw [hx]; rfl)
        cases hx : x.getfloatArray with
        | error e => rw [hx] at h; cases h
        | ok X =>
          cases hy : y.getfloatArray with
          | error e => rw [hx, hy] at h; cases h
          | ok Y =>
            rw [hx, hy] at h
            exact ⟨_, .lists x y X Y hr rfl rfl (sp x X hx) (sp y Y hy), setBias_done h⟩

/-- One bias function: either the file says what it is, or it is left alone. -/
theorem readBias_any {c : Config} {b : BiasName} {s t : PyObj} {u : Unit} (h : readBias c b s = (.ok u, t)) :
    (∃ S, (c.bias b).Says S ∧ t.par = { s.par with bias := s.par.bias.put b S }) ∨
    (t = s ∧ (c.bias b).read ≠ some (.int 1) ∧ (c.bias b).input = none ∧
      ((c.bias b).redshifts = none ∨ (c.bias b).values = none)) := by
  unfold readBias at h
  generalize c.bias b = B at h ⊢
  obtain ⟨read, input, value, redshifts, values⟩ := B
  dsimp only at h ⊢
  cases read with
  | none => exact bias_rest (by simp) h
  | some r =>
    dsimp only at h
    cases r with
    | int k =>
      by_cases hk : k = 1
      · subst hk
        left
        cases input with
        | none => cases h
        | some xy => exact ⟨_, .file xy.1 xy.2 rfl rfl, setBias_done h⟩
      · refine bias_rest (u := u) (by simpa using hk) ?_
        match k, hk, h with
        | Int.ofNat 0, _, h => exact h
        | Int.ofNat 1, hk, _ => exact absurd rfl hk
        | Int.ofNat (n + 2), _, h => exact h
        | Int.negSucc n, _, h => exact h
    | _ => cases h

theorem bias_loop {c : Config} : ∀ {l : List BiasName}, l.Nodup → ∀ {s t : PyObj} {u : Unit},
    (l.forM (readBias c) : Py Unit) s = (.ok u, t) →
    (∀ n, getattr t.par n = getattr s.par n) ∧ (∀ b ∉ l, t.par.bias.get b = s.par.bias.get b) ∧
    ∀ b ∈ l, (c.bias b).Says (t.par.bias.get b) ∨ (t.par.bias.get b = s.par.bias.get b ∧
      (c.bias b).read ≠ some (.int 1) ∧ (c.bias b).input = none ∧
      ((c.bias b).redshifts = none ∨ (c.bias b).values = none)) := by
  intro l
  induction l with
  | nil => intro _ s t u h; cases h; exact ⟨fun _ => rfl, fun _ _ => rfl, by simp⟩
  | cons a l ih =>
    intro hl s t u h
    rw [List.nodup_cons] at hl
    obtain ⟨s', h1, h2⟩ := Py.forM_done h
    obtain ⟨i1, i2, i3⟩ := ih hl.2 h2
    have hs : (∀ n, getattr s'.par n = getattr s.par n) ∧ (∀ b, b ≠ a → s'.par.bias.get b = s.par.bias.get b) ∧
        ((c.bias a).Says (s'.par.bias.get a) ∨ (s'.par.bias.get a = s.par.bias.get a ∧
          (c.bias a).read ≠ some (.int 1) ∧ (c.bias a).input = none ∧
          ((c.bias a).redshifts = none ∨ (c.bias a).values = none))) := by
      rcases readBias_any h1 with ⟨S, q1, q2⟩ | ⟨rfl, q⟩
      · refine ⟨fun n => by rw [q2, getattr_bias], fun b hb => by rw [q2]; dsimp only; rw [put_get, if_neg hb], Or.inl ?_⟩
        rw [q2]
        dsimp only
        rw [put_get, if_pos rfl]
        exact q1
      · exact ⟨fun _ => rfl, fun _ _ => rfl, Or.inr ⟨rfl, q⟩⟩
    obtain ⟨j1, j2, j3⟩ := hs
    refine ⟨fun n => (i1 n).trans (j1 n), fun b hb => ?_, fun b hb => ?_⟩
    · simp only [List.mem_cons, not_or] at hb
      rw [i2 b hb.2, j2 b hb.1]
    · by_cases hba : b = a
      · subst hba
        rw [i2 b hl.1]
        exact j3
      · rw [← j2 b hba]
        exact i3 b ((List.mem_cons.1 hb).resolve_left hba)

/-! ## Parameters -/

/-- The number of points of the integral tables cannot be assigned. -/
theorem sampling_fails (v : PyVal) (s t : PyObj) (u : Unit) :
    setattr .integrals_fftlog_sampling v s ≠ (.ok u, t) := by
  intro h
  have := setattr_post .integrals_fftlog_sampling v s (fun _ => True) trivial fun _ _ => trivial
  unfold setattr at h
  obtain ⟨a, s', _, h2⟩ := Py.bind_done h
  cases h2

theorem sampling_loop {c : Config} {x : Txt} (hopt : c.opt .integrals_fftlog_sampling = some x) :
    ∀ (l : List Name), Name.integrals_fftlog_sampling ∈ l → ∀ {s t : PyObj} {u : Unit} {r : Txt → Except Err PyVal},
    ¬ (l.forM (readOption c r) : Py Unit) s = (.ok u, t) := by
  intro l
  induction l with
  | nil => intro h; cases h
  | cons a l ih =>
    intro hmem s t u r h
    obtain ⟨s', h1, h2⟩ := Py.forM_done h
    rcases List.mem_cons.1 hmem with rfl | hm
    · rcases readOption_done h1 with ⟨h3, -⟩ | ⟨x', v', h3, h4, h5⟩
      · rw [h3] at hopt; cases hopt
      · exact sampling_fails _ _ _ _ h5
    · exact ih hm h2

theorem lost_iff (n : Name) : n.Lost ↔ n.Ignored ∨ n = .integrals_fftlog_sampling := by
  cases n <;> simp [Name.Lost, Name.Ignored]

theorem choice_spells {n : Name} (hn : n ∈ choiceOptions) {x : Txt} {v old new : PyVal}
    (hv : x.getintOrStr = .ok v) (h : n.doc.Accepted v old new) : x.Spells v := by
  have key : ∀ (k : ℕ) (names : List String), "number or list" ∉ names → (Doc.choice k names).Accepted v old new → x.Spells v := by
    intro k names hnn h
    obtain ⟨i, name, h1, h2, -⟩ := h
    cases x with
    | int k => cases hv; simp [Txt.Spells]
    | str s => cases hv; simp [Txt.Spells]
    | _ =>
      exfalso
      cases hv
      rcases h2 with ((h2 | ⟨h2, -⟩ | ⟨h2, -⟩) | h2) | h2 <;> cases h2
      exact hnn (List.mem_of_getElem? h1)
  simp only [choiceOptions, List.mem_cons, List.not_mem_nil, or_false] at hn
  rcases hn with rfl | rfl | rfl | rfl <;> exact key _ _ (by decide +kernel) h

/-- What the options under their own names do. -/
theorem own_names {o : SetOrder} (ho : o.Valid) {c : Config} {s1 t1 t2 t3 t4 t5 : PyObj}
    (e1 : (o.floatArrays.forM (readOption c fun t => t.getfloatArray.map .floats) : Py Unit) s1 = (.ok (), t1))
    (e2 : ([Name.l].forM (readOption c Txt.getintArray) : Py Unit) t1 = (.ok (), t2))
    (e3 : (o.floats.forM (readOption c Txt.getfloat) : Py Unit) t2 = (.ok (), t3))
    (e4 : (o.ints.forM (readOption c Txt.getint) : Py Unit) t3 = (.ok (), t4))
    (e5 : (o.choices.forM (readOption c Txt.getintOrStr) : Py Unit) t4 = (.ok (), t5))
    (n : Name) (hcdm : n ≠ .omega_cdm) :
    (n.Ignored ∨ c.opt n = none → getattr t5.par n = getattr s1.par n) ∧
    ∀ x, ¬ n.Ignored → c.opt n = some x → (∀ v, x.Spells v → n.Whole v) →
      ∃ v, x.SpellsFor n v ∧ n.doc.Accepted v (getattr s1.par n) (getattr t5.par n) := by
  have m1 : ∀ n, n ∈ o.floatArrays ↔ n ∈ floatArrayOptions := fun n => ho.floatArrays.mem_iff
  have m3 : ∀ n, n ∈ o.floats ↔ n ∈ floatOptions := fun n => ho.floats.mem_iff
  have m4 : ∀ n, n ∈ o.ints ↔ n ∈ intOptions := fun n => ho.ints.mem_iff
  have m5 : ∀ n, n ∈ o.choices ↔ n ∈ choiceOptions := fun n => ho.choices.mem_iff
  have hnd : floatArrayOptions.Nodup ∧ floatOptions.Nodup ∧ intOptions.Nodup ∧ choiceOptions.Nodup := options_nodup
  have d1 : ∀ m ∈ o.floatArrays, ¬ m.Drives n := fun m hm =>
    not_drives (fun e => lists_no_cdm _ (by simp) (e ▸ (m1 m).1 hm)) hcdm
  have d2 : ∀ m ∈ [Name.l], ¬ m.Drives n := fun m hm =>
    not_drives (fun e => lists_no_cdm [Name.l] (by simp) (e ▸ hm)) hcdm
  have d3 : ∀ m ∈ o.floats, ¬ m.Drives n := fun m hm =>
    not_drives (fun e => lists_no_cdm floatOptions (by simp) (e ▸ (m3 m).1 hm)) hcdm
  have d4 : ∀ m ∈ o.ints, ¬ m.Drives n := fun m hm =>
    not_drives (fun e => lists_no_cdm intOptions (by simp) (e ▸ (m4 m).1 hm)) hcdm
  have d5 : ∀ m ∈ o.choices, ¬ m.Drives n := fun m hm =>
    not_drives (fun e => lists_no_cdm choiceOptions (by simp) (e ▸ (m5 m).1 hm)) hcdm
  have k1 : n ∉ floatArrayOptions → getattr t1.par n = getattr s1.par n :=
    fun hn => (loop_keep e1).1 n (fun h => hn ((m1 n).1 h)) d1
  have k2 : n ∉ [Name.l] → getattr t2.par n = getattr t1.par n := fun hn => (loop_keep e2).1 n hn d2
  have k3 : n ∉ floatOptions → getattr t3.par n = getattr t2.par n :=
    fun hn => (loop_keep e3).1 n (fun h => hn ((m3 n).1 h)) d3
  have k4 : n ∉ intOptions → getattr t4.par n = getattr t3.par n :=
    fun hn => (loop_keep e4).1 n (fun h => hn ((m4 n).1 h)) d4
  have k5 : n ∉ choiceOptions → getattr t5.par n = getattr t4.par n :=
    fun hn => (loop_keep e5).1 n (fun h => hn ((m5 n).1 h)) d5
  obtain ⟨D1, D2, D3, D4, D5⟩ := lists_disjoint
  constructor
  · rintro (hi | hopt)
    · have hl : n.Lost := (lost_iff n).2 (Or.inl hi)
      have hf : n ≠ .integrals_fftlog_sampling := by
        rintro rfl
        simp [Name.Ignored] at hi
      obtain ⟨q1, q2, q3, q4, q5⟩ := lost_nowhere n hl hf
      rw [k5 q5, k4 q4, k3 q3, k2 q2, k1 q1]
    · rw [loop_skip e5 d5 hopt, loop_skip e4 d4 hopt, loop_skip e3 d3 hopt, loop_skip e2 d2 hopt,
        loop_skip e1 d1 hopt]
  · intro x hi hopt hw
    by_cases hf : n = .integrals_fftlog_sampling
    · subst hf
      exfalso
      exact sampling_loop hopt o.ints ((m4 _).2 (by decide)) e4
    · have hlost : ¬ n.Lost := fun h => ((lost_iff n).1 h).elim hi hf
      rcases read_somewhere n hlost with h | rfl | h | h | h
      · obtain ⟨q2, q3, q4, q5⟩ := D1 n h
        rw [k5 q5, k4 q4, k3 q3, k2 q2]
        rcases hr : (x.getfloatArray.map .floats : Except Err PyVal) with e | v
        · exact absurd hr (loop_reads e1 ((m1 n).2 h) hopt e)
        · have hs := getfloatArray_spells hr
          exact ⟨v, ⟨hs, fun hf => absurd hf (flag_lists _ (by simp) n h)⟩, loop_set (ho.floatArrays.nodup_iff.2 hnd.1) e1 ((m1 n).2 h) d1 hopt hr (hw v hs)⟩
      · obtain ⟨q1, q3, q4, q5⟩ := D2 .l (by simp)
        rw [k5 q5, k4 q4, k3 q3, ← k1 q1]
        rcases hr : x.getintArray with e | v
        · exact absurd hr (loop_reads e2 (by simp) hopt e)
        · have hs := getintArray_spells hr
          exact ⟨v, ⟨hs, fun hf => absurd hf (flag_lists [Name.l] (by simp) .l (by simp))⟩, loop_set (by simp) e2 (by simp) d2 hopt hr (hw v hs)⟩
      · obtain ⟨q1, q2, q4, q5⟩ := D3 n h
        rw [k5 q5, k4 q4, ← k1 q1, ← k2 q2]
        rcases hr : x.getfloat with e | v
        · exact absurd hr (loop_reads e3 ((m3 n).2 h) hopt e)
        · have hs := getfloat_spells hr
          exact ⟨v, ⟨hs, fun hf => absurd hf (flag_lists floatOptions (by simp) n h)⟩, loop_set (ho.floats.nodup_iff.2 hnd.2.1) e3 ((m3 n).2 h) d3 hopt hr (hw v hs)⟩
      · obtain ⟨q1, q2, q3, q5⟩ := D4 n h
        rw [k5 q5, ← k1 q1, ← k2 q2, ← k3 q3]
        rcases hr : x.getint with e | v
        · exact absurd hr (loop_reads e4 ((m4 n).2 h) hopt e)
        · have hs := getint_spells hr
          exact ⟨v, ⟨hs, fun _ => by cases x <;> cases hr; exact ⟨_, rfl⟩⟩, loop_set (ho.ints.nodup_iff.2 hnd.2.2.1) e4 ((m4 n).2 h) d4 hopt hr (hw v hs)⟩
      · obtain ⟨q1, q2, q3, q4⟩ := D5 n h
        rw [← k1 q1, ← k2 q2, ← k3 q3, ← k4 q4]
        rcases hr : x.getintOrStr with e | v
        · exact absurd hr (loop_reads e5 ((m5 n).2 h) hopt e)
        · have ha := loop_set (ho.choices.nodup_iff.2 hnd.2.2.2) e5 ((m5 n).2 h) d5 hopt hr
            (by rintro (rfl | rfl) <;> exact absurd h (by decide))
          exact ⟨v, ⟨choice_spells h hr ha, fun hf => absurd hf (flag_lists choiceOptions (by simp) n h)⟩, ha⟩

/-- The documentation of a parameter with an old name does not depend on the value before. -/
theorem accepted_old {n : Name} (hn : n.old ≠ none ∨ n.effect ≠ none) {v a b new : PyVal}
    (h : n.doc.Accepted v a new) : n.doc.Accepted v b new := by
  cases n <;> first | exact h | simp [Name.old, Name.effect] at hn

theorem whole_old {n : Name} (hn : n.old ≠ none) (v : PyVal) : n.Whole v := by
  rintro (rfl | rfl) <;> simp [Name.old] at hn

theorem old_or_effect (n : Name) : n.old = none ∨ n.effect = none := by
  cases n <;> simp [Name.old, Name.effect]

end Coffe
