import Verif.Spec.FileAccept
import Verif.Proofs.PyFileLoad
import Verif.Proofs.PyFileOptions

/-! # Which settings files the Python object loads -/

namespace Coffe
open Classical

/-! ## Reading one option -/

theorem isReal_spells {x : Txt} {v : PyVal} {y : ℝ} (h1 : x.Spells v) (h2 : v.IsReal y) : x.getfloat = .ok (.float y) := by
  cases x with
  | int n => rcases h1 with rfl | rfl | rfl | rfl <;> rcases h2 with h | ⟨k, h, rfl⟩ | ⟨h, -⟩ | ⟨h, -⟩ <;> cases h <;> rfl
  | float z => rcases h1 with rfl | rfl <;> rcases h2 with h | ⟨k, h, rfl⟩ | ⟨h, -⟩ | ⟨h, -⟩ <;> cases h <;> rfl
  | ints l => obtain ⟨-, rfl | rfl⟩ := h1 <;> rcases h2 with h | ⟨k, h, rfl⟩ | ⟨h, -⟩ | ⟨h, -⟩ <;> cases h
  | floats l => obtain ⟨-, rfl⟩ := h1; rcases h2 with h | ⟨k, h, rfl⟩ | ⟨h, -⟩ | ⟨h, -⟩ <;> cases h
  | str s => cases h1; rcases h2 with h | ⟨k, h, rfl⟩ | ⟨h, -⟩ | ⟨h, -⟩ <;> cases h

theorem isInt_spells {x : Txt} {v : PyVal} {n : ℤ} (h1 : x.Spells v) (h2 : v.IsInt n) : x = .int n ∧ v = .int n := by
  cases x with
  | int k => rcases h1 with rfl | rfl | rfl | rfl <;> rcases h2 with h | ⟨h, -⟩ | ⟨h, -⟩ <;> cases h; exact ⟨rfl, rfl⟩
  | float z => rcases h1 with rfl | rfl <;> rcases h2 with h | ⟨h, -⟩ | ⟨h, -⟩ <;> cases h
  | ints l => obtain ⟨-, rfl | rfl⟩ := h1 <;> rcases h2 with h | ⟨h, -⟩ | ⟨h, -⟩ <;> cases h
  | floats l => obtain ⟨-, rfl⟩ := h1; rcases h2 with h | ⟨h, -⟩ | ⟨h, -⟩ <;> cases h
  | str s => cases h1; rcases h2 with h | ⟨h, -⟩ | ⟨h, -⟩ <;> cases h

theorem isIntegral_spells {x : Txt} {v : PyVal} {n : ℤ} (h1 : x.Spells v) (h2 : v.IsIntegral n) :
    x.getfloat = .ok (.float n) := by
  rcases h2 with h2 | rfl
  · obtain ⟨rfl, rfl⟩ := isInt_spells h1 h2
    rfl
  · exact isReal_spells h1 (.inl rfl)

theorem isReals_spells {x : Txt} {v : PyVal} {l : List ℝ} (h1 : x.Spells v) (h2 : v.IsReals l) :
    x.getfloatArray = .ok l := by
  cases x with
  | int n => rcases h1 with rfl | rfl | rfl | rfl <;> rcases h2 with h | ⟨k, h, rfl⟩ <;> cases h <;> rfl
  | float z => rcases h1 with rfl | rfl <;> rcases h2 with h | ⟨k, h, rfl⟩ <;> cases h <;> rfl
  | ints l =>
    obtain ⟨hl, rfl | rfl⟩ := h1 <;> rcases h2 with h | ⟨k, h, rfl⟩ <;> cases h <;>
      (cases l with
       | nil => exact absurd rfl hl
       | cons a l => rfl)
  | floats l =>
    obtain ⟨hl, rfl⟩ := h1
    rcases h2 with h | ⟨k, h, rfl⟩ <;> cases h
    cases l with
    | nil => exact absurd rfl hl
    | cons a l => rfl
  | str s => cases h1; rcases h2 with h | ⟨k, h, rfl⟩ <;> cases h

theorem multipoles_spells {x : Txt} {v : PyVal} {l : List ℤ} (h1 : x.Spells v)
    (h2 : v = .ints l ∨ (v = .floats [] ∧ l = [])) : x.getintArray = .ok (.ints l) := by
  cases x with
  | int n => rcases h1 with rfl | rfl | rfl | rfl <;> rcases h2 with h | ⟨h, rfl⟩ <;> cases h; rfl
  | float z => rcases h1 with rfl | rfl <;> rcases h2 with h | ⟨h, rfl⟩ <;> cases h
  | ints l' =>
    cases l' with
    | nil => exact absurd rfl h1.1
    | cons a l' =>
      obtain ⟨-, rfl | rfl⟩ := h1
      · rcases h2 with h | ⟨h, rfl⟩ <;> cases h
        rfl
      · rcases h2 with h | ⟨h, rfl⟩ <;> cases h
  | floats l' =>
    obtain ⟨hl, rfl⟩ := h1
    rcases h2 with h | ⟨h, rfl⟩ <;> cases h
    exact absurd rfl hl
  | str s => cases h1; rcases h2 with h | ⟨h, rfl⟩ <;> cases h

/-! ## The loops -/

theorem plain_step {n : Name} {v old new : PyVal} {s : PyObj} (h : n.doc.Accepted v old new)
    (hn : n ≠ .integrals_fftlog_sampling)
    (hd : n ≠ .omega_cdm ∧ n ≠ .omega_m ∧ n ≠ .omega_baryon ∧ n ≠ .omega_gamma ∧ n ≠ .m_ncdm ∧ n ≠ .h) :
    ∃ s', setattr n v s = (.ok (), s') ∧ s'.dens = s.dens := by
  obtain ⟨u, s', hs'⟩ := setattr_valid (s := s) h hn (fun e => absurd e hd.2.2.2.2.1)
    ⟨hd.1, hd.2.1, hd.2.2.1, hd.2.2.2.1⟩
  refine ⟨s', hs', ?_⟩
  have hpost := setattr_post n v s (fun t => t.par.dens = s.par.dens) rfl fun t ht => stores_dens' ht hd
  unfold Post at hpost
  rw [hs'] at hpost
  exact hpost

theorem reals_doc {n : Name} (hn : n ∈ floatArrayOptions) : ∃ ok, n.doc = .reals ok := by
  simp only [floatArrayOptions, List.mem_cons, List.not_mem_nil, or_false] at hn
  rcases hn with rfl | rfl | rfl | rfl | rfl | rfl | rfl | rfl | rfl | rfl <;> exact ⟨_, rfl⟩

/-- One option that is not about the densities. -/
theorem option_step {c : Config} {r : Txt → Except Err PyVal} {n : Name} {s : PyObj}
    (h : ∀ x, c.opt n = some x → n ≠ .integrals_fftlog_sampling ∧ ∃ v new, r x = .ok v ∧ n.doc.Accepted v .other new)
    (hd : n ≠ .omega_cdm ∧ n ≠ .omega_m ∧ n ≠ .omega_baryon ∧ n ≠ .omega_gamma ∧ n ≠ .m_ncdm ∧ n ≠ .h) :
    ∃ s', readOption c r n s = (.ok (), s') ∧ s'.dens = s.dens := by
  cases hx : c.opt n with
  | none => exact ⟨s, by unfold readOption; rw [hx]; rfl, rfl⟩
  | some x =>
    obtain ⟨h1, v, new, h2, h3⟩ := h x hx
    obtain ⟨s', h4, h5⟩ := plain_step (s := s) h3 h1 hd
    exact ⟨s', readOption_ok hx h2 h4, h5⟩

theorem reals_read {n : Name} (hn : n ∈ floatArrayOptions) {x : Txt} {v new : PyVal} (h1 : x.Spells v)
    (h2 : n.doc.Accepted v .other new) :
    ∃ w, (x.getfloatArray.map .floats : Except Err PyVal) = .ok w ∧ n.doc.Accepted w .other new := by
  obtain ⟨ok, hd⟩ := reals_doc hn
  rw [hd] at h2 ⊢
  obtain ⟨l, h3, h4, h5⟩ := h2
  refine ⟨.floats l, by rw [isReals_spells h1 h3]; rfl, l, .inl rfl, h4, h5⟩

theorem l_read {x : Txt} {v new : PyVal} (h1 : x.Spells v) (h2 : Name.l.doc.Accepted v .other new) :
    ∃ w, x.getintArray = .ok w ∧ Name.l.doc.Accepted w .other new := by
  obtain ⟨l, h3, h4, h5⟩ := h2
  exact ⟨.ints l, multipoles_spells h1 h3, l, .inl rfl, h4, h5⟩

theorem int_read {n : Name} (hn : n ∈ intOptions) {x : Txt} {v new : PyVal} (hw : n.Written x) (h1 : x.Spells v)
    (h2 : n.doc.Accepted v .other new) : ∃ w new', x.getint = .ok w ∧ n.doc.Accepted w .other new' := by
  have flag : n.doc = .flag → ∃ w new', x.getint = .ok w ∧ n.doc.Accepted w .other new' := by
    intro hd
    obtain ⟨k, rfl⟩ := hw.1 hd
    rw [hd]
    exact ⟨_, _, rfl, rfl⟩
  have int : ∀ a b, n.doc = .int a b → ∃ w new', x.getint = .ok w ∧ n.doc.Accepted w .other new' := by
    intro a b hd
    rw [hd] at h2 ⊢
    obtain ⟨k, h3, h4, h5, h6⟩ := h2
    obtain ⟨rfl, rfl⟩ := isInt_spells h1 h3
    exact ⟨_, _, rfl, k, h3, h4, h5, rfl⟩
  have cint : ∀ a b, n.doc = .cosmologyInt a b → ∃ w new', x.getint = .ok w ∧ n.doc.Accepted w .other new' := by
    intro a b hd
    rw [hd] at h2 ⊢
    obtain ⟨k, h3, h4, h5, h6⟩ := h2
    obtain ⟨rfl, rfl⟩ := isInt_spells h1 h3
    exact ⟨_, _, rfl, k, h3, h4, h5, .inl rfl⟩
  clear h2 hw h1
  simp only [intOptions, List.mem_cons, List.not_mem_nil, or_false] at hn
  rcases hn with rfl | rfl | rfl | rfl | rfl | rfl | rfl | rfl | rfl | rfl | rfl | rfl | rfl | rfl | rfl |
    rfl | rfl | rfl | rfl | rfl | rfl <;> first
    | exact flag rfl
    | exact int _ _ rfl
    | exact cint _ _ rfl

theorem choice_read {n : Name} (hn : n ∈ choiceOptions) {x : Txt} {v new : PyVal} (hw : n.Written x) (h1 : x.Spells v)
    (h2 : n.doc.Accepted v .other new) : ∃ w, x.getintOrStr = .ok w ∧ n.doc.Accepted w .other new := by
  have key : ∀ first names, n.doc = .choice first names → ∃ w, x.getintOrStr = .ok w ∧ n.doc.Accepted w .other new := by
    intro first names hd
    have hw' := hw.2 first names hd
    rw [hd] at h2 ⊢
    obtain ⟨i, name, h3, h4, h5⟩ := h2
    rcases hw' with ⟨k, rfl⟩ | ⟨s, rfl⟩
    · refine ⟨.int k, rfl, i, name, h3, .inl (.inl (.inl ?_)), h5⟩
      rcases h4 with (h4 | h4) | rfl
      · rw [Txt.int.inj (isInt_spells h1 h4).1]
      · subst h4
        rcases h1 with h1 | h1 | h1 | h1
        · cases h1
        · have := PyVal.float.inj h1
          have : ((first + i : ℕ) : ℤ) = k := by exact_mod_cast this
          rw [this]
        · cases h1
        · cases h1
      · rcases h1 with h1 | h1 | h1 | h1 <;> cases h1
    · cases h1
      exact ⟨.str s, rfl, i, name, h3, h4, h5⟩
  clear h2 hw h1
  simp only [choiceOptions, List.mem_cons, List.not_mem_nil, or_false] at hn
  rcases hn with rfl | rfl | rfl | rfl <;> exact key _ _ rfl

theorem float_read {n : Name} (hn : n ∈ floatOptions) {p : PyPar} {x : Txt} {v : PyVal} (h1 : x.Spells v)
    (h2 : n.doc.Accepted v .other (getattr p n)) : x.getfloat = (getattr p n).text.getfloat := by
  have cosm : ∀ a b, n.doc = .cosmology a b → x.getfloat = (getattr p n).text.getfloat := by
    intro a b hd
    rw [hd] at h2
    obtain ⟨y, h3, -, -, h4 | ⟨-, z, h4, -⟩⟩ := h2
    · rw [h4, isReal_spells h1 h3]; rfl
    · cases h4
  have real : ∀ a b, n.doc = .real a b → x.getfloat = (getattr p n).text.getfloat := by
    intro a b hd
    rw [hd] at h2
    obtain ⟨y, h3, -, -, h4⟩ := h2
    rw [h4, isReal_spells h1 h3]; rfl
  have any : n.doc = .anyReal → x.getfloat = (getattr p n).text.getfloat := by
    intro hd
    rw [hd] at h2
    obtain ⟨y, h3, h4⟩ := h2
    rw [h4, isReal_spells h1 h3]; rfl
  have anyi : n.doc = .anyInt → x.getfloat = (getattr p n).text.getfloat := by
    intro hd
    rw [hd] at h2
    obtain ⟨y, h3, h4⟩ := h2
    rw [h4, isIntegral_spells h1 h3]; rfl
  clear h2
  simp only [floatOptions, List.mem_cons, List.not_mem_nil, or_false] at hn
  rcases hn with rfl | rfl | rfl | rfl | rfl | rfl | rfl | rfl | rfl | rfl | rfl | rfl | rfl | rfl | rfl |
    rfl | rfl | rfl | rfl | rfl | rfl | rfl <;> first
    | exact cosm _ _ rfl
    | exact real _ _ rfl
    | exact any rfl
    | exact anyi rfl

/-! ## The old names, the contributions, the bias functions -/

theorem all_ok {α : Type} {l : List α} {f : α → Py Unit} (P : PyObj → Prop)
    (h : ∀ n ∈ l, ∀ s, P s → ∃ s', f n s = (.ok (), s') ∧ P s') :
    ∀ s, P s → ∃ s', (l.forM f : Py Unit) s = (.ok (), s') ∧ P s' := by
  induction l with
  | nil => intro s hs; exact ⟨s, rfl, hs⟩
  | cons n l ih =>
    intro s hs
    obtain ⟨t, h1, h2⟩ := h n List.mem_cons_self s hs
    obtain ⟨u, h3, h4⟩ := ih (fun n hn => h n (List.mem_cons_of_mem _ hn)) t h2
    refine ⟨u, ?_, h4⟩
    show (f n >>= fun _ => (l.forM f : Py Unit)) s = _
    rw [Py.bind_ok h1, h3]

theorem legacy_read {n : Name} {ℓ : Legacy} (hn : n.old = some ℓ) {x : Txt} {v new : PyVal} (hw : n.Written x)
    (h1 : x.Spells v) (h2 : n.doc.Accepted v .other new) :
    ∃ w new', ℓ.reader.read x = .ok w ∧ n.doc.Accepted w .other new' := by
  by_cases hf : n.doc = .flag
  · obtain ⟨k, rfl⟩ := hw.1 hf
    have : ℓ.reader = .int := by cases n <;> cases hf <;> cases hn <;> rfl
    rw [this, hf]
    exact ⟨_, _, rfl, rfl⟩
  · by_cases hl : n = .l
    · subst hl
      cases hn
      obtain ⟨w, h3, h4⟩ := l_read h1 h2
      exact ⟨w, new, h3, h4⟩
    · have hr : n ∈ floatArrayOptions ∧ ℓ.reader = .floats := by
        cases n <;> first
          | exact absurd rfl hf
          | exact absurd rfl hl
          | (exfalso; cases hn; done)
          | (cases hn; exact ⟨by simp [floatArrayOptions], rfl⟩)
      obtain ⟨w, h3, h4⟩ := reals_read hr.1 h1 h2
      rw [hr.2]
      exact ⟨w, new, h3, h4⟩

theorem old_plain {n : Name} (hn : n.old ≠ none ∨ n.effect ≠ none) : n ≠ .integrals_fftlog_sampling ∧
    n ≠ .omega_cdm ∧ n ≠ .omega_m ∧ n ≠ .omega_baryon ∧ n ≠ .omega_gamma ∧ n ≠ .m_ncdm ∧ n ≠ .h := by
  refine ⟨?_, ?_, ?_, ?_, ?_, ?_, ?_⟩ <;> rintro rfl <;> simp [Name.old, Name.effect] at hn

theorem readLegacy_ok {c : Config} {p : PyPar} (h : c.AsksFor p) (ℓ : Legacy) (s : PyObj) :
    ∃ s', readLegacy c ℓ s = (.ok (), s') ∧ s'.dens = s.dens := by
  unfold readLegacy
  cases hx : c.legacy ℓ with
  | none => exact ⟨s, rfl, rfl⟩
  | some x =>
    refine all_ok (fun u => u.dens = s.dens) ?_ s rfl
    intro n hn u hu
    have ho : n.old = some ℓ := (old_iff n ℓ).2 hn
    obtain ⟨hw, v, new, h1, h2⟩ := h.old n x (by unfold Config.oldText; rw [ho]; exact hx)
    obtain ⟨w, new', h3, h4⟩ := legacy_read ho hw h1 h2
    obtain ⟨q1, q2⟩ := old_plain (n := n) (.inl (by rw [ho]; simp))
    obtain ⟨u', h5, h6⟩ := plain_step (s := u) h4 q1 q2
    refine ⟨u', ?_, h6.trans hu⟩
    unfold assign
    rw [h3]
    exact h5

theorem readContributions_ok (c : Config) (s : PyObj) :
    ∃ s', readContributions c s = (.ok (), s') ∧ s'.dens = s.dens := by
  unfold readContributions
  cases hx : c.contributions with
  | none => exact ⟨s, rfl, rfl⟩
  | some l =>
    refine all_ok (fun u => u.dens = s.dens) ?_ s rfl
    intro kv hkv u hu
    by_cases hm : kv.1 ∈ l
    · rw [if_pos hm]
      have hf : kv.2.doc = .flag ∧ kv.2.effect ≠ none := by
        simp only [contributionNames, List.mem_cons, List.not_mem_nil, or_false] at hkv
        rcases hkv with rfl | rfl | rfl | rfl | rfl | rfl | rfl | rfl | rfl | rfl <;> exact ⟨rfl, by simp [Name.effect]⟩
      obtain ⟨q1, q2⟩ := old_plain (n := kv.2) (.inr hf.2)
      obtain ⟨u', h5, h6⟩ := plain_step (n := kv.2) (v := .bool true) (old := .other) (new := .bool true) (s := u)
        (by rw [hf.1]; rfl) q1 q2
      exact ⟨u', h5, h6.trans hu⟩
    · rw [if_neg hm]
      exact ⟨u, rfl, hu⟩

theorem usable_ends {x y : List ℝ} (hl : x.length = y.length) (h : Samples.Usable (x.zip y)) :
    x.Pairwise (· < ·) ∧ 5 ≤ x.length ∧ ∃ a e, x.head? = some a ∧ x.getLast? = some e ∧ 0 ≤ a ∧ e ≤ 15 := by
  have hx : (x.zip y).map Prod.fst = x := List.map_fst_zip hl.le
  obtain ⟨h1, h2, h3⟩ := h
  rw [hx] at h2
  have h5 : 5 ≤ x.length := by
    rw [List.length_zip, ← hl, min_self] at h1
    exact h1
  have hr : ∀ z ∈ x, 0 ≤ z ∧ z ≤ 15 := by
    intro z hz
    rw [← hx] at hz
    obtain ⟨w, hw, rfl⟩ := List.mem_map.1 hz
    exact h3 w hw
  have hne : x ≠ [] := by rintro rfl; simp at h5
  exact ⟨h2, h5, _, _, List.head?_eq_some_head hne, List.getLast?_eq_some_getLast hne,
    (hr _ (List.head_mem hne)).1, (hr _ (List.getLast_mem hne)).2⟩

theorem constant_ok (b : BiasName) (x : ℝ) (s : PyObj) : ∃ s', setBias b linspace100 (List.replicate 100 x) s = (.ok (), s') := by
  have e : linspace100 = linspace 0 10 100 := by
    unfold linspace100 linspace
    refine List.map_congr_left fun i _ => ?_
    norm_num
  obtain ⟨f1, f2, f3, f4⟩ := linspace_facts (a := 0) (b := 10) (n := 100) (by norm_num) (by norm_num)
  rw [e]
  exact setBias_ok f2 (by rw [f1, List.length_replicate]) (by rw [f1]; norm_num) f3 f4 le_rfl (by norm_num)

theorem readBias_fine {c : Config} {b : BiasName} (h : (c.bias b).Fine) (s : PyObj) :
    ∃ s', readBias c b s = (.ok (), s') := by
  have list : ∀ x y, x.length = y.length → Samples.Usable (x.zip y) → ∃ s', setBias b x y s = (.ok (), s') := by
    intro x y h1 h2
    obtain ⟨g1, g2, a, e, g3, g4, g5, g6⟩ := usable_ends h1 h2
    exact setBias_ok g1 h1 g2 g3 g4 g5 g6
  have rest : (c.bias b).read ≠ some (.int 1) → ∃ s', (if (c.bias b).input.isSome then
      match (c.bias b).value with
      | none => Py.raise .typeError
      | some t => match t.getfloat with
        | .ok (.float x) => setBias b linspace100 (List.replicate 100 x)
        | .ok _ => Py.raise .typeError
        | .error e => Py.raise e
    else
      match (c.bias b).redshifts, (c.bias b).values with
      | some x, some y => match x.getfloatArray, y.getfloatArray with
        | .ok x, .ok y => setBias b x y
        | .error e, _ => Py.raise e
        | _, .error e => Py.raise e
      | _, _ => pure () : Py Unit) s = (.ok (), s') := by
    intro hne
    cases hi : (c.bias b).input with
    | some i =>
      rw [Option.isSome_some, if_pos rfl]
      obtain ⟨t, x, h1, h2⟩ := h.value hne (by rw [hi]; simp)
      rw [h1]
      dsimp only
      rw [isReal_spells h2 (.inl rfl)]
      exact constant_ok b x s
    | none =>
      rw [Option.isSome_none, if_neg (by simp)]
      cases hx : (c.bias b).redshifts with
      | none => exact ⟨s, rfl⟩
      | some x =>
        cases hy : (c.bias b).values with
        | none => exact ⟨s, rfl⟩
        | some y =>
          obtain ⟨l, m, h1, h2, h3, h4⟩ := h.lists hne hi x y hx hy
          dsimp only
          rw [isReals_spells h1 (.inl rfl), isReals_spells h2 (.inl rfl)]
          exact list l m h3 h4
  unfold readBias
  cases hr : (c.bias b).read with
  | none => exact rest (by rw [hr]; simp)
  | some x =>
    obtain ⟨k, rfl⟩ := h.switch x hr
    by_cases hk : k = 1
    · subst hk
      obtain ⟨x, y, h1, h2, h3⟩ := h.file hr
      dsimp only [Txt.getint]
      rw [h1]
      exact list x y h2 h3
    · have : (Txt.int k).getint = .ok (.int k) := rfl
      dsimp only
      rw [this]
      have hne : (c.bias b).read ≠ some (.int 1) := by rw [hr]; simpa using hk
      have e : ∀ a r : Py Unit, (match (Except.ok (PyVal.int k) : Except Err PyVal) with
          | .error e => Py.raise e
          | .ok (.int 1) => a
          | .ok _ => r) = r := by
        intro a r
        split
        · rename_i e; cases e
        · rename_i e; cases e; exact absurd rfl hk
        · rfl
      obtain ⟨s', hs'⟩ := rest hne
      exact ⟨s', (congrFun (e _ _) s).trans hs'⟩

theorem never_ignored' (n : Name) (h : n ∈ floatArrayOptions ∨ n ∈ floatOptions ∨ n ∈ intOptions ∨ n ∈ choiceOptions) :
    ¬ n.Ignored := by
  intro hi
  unfold Name.Ignored at hi
  simp only [List.mem_cons, List.not_mem_nil, or_false] at hi
  rcases hi with rfl | rfl | rfl | rfl | rfl | rfl | rfl <;>
    simp [floatArrayOptions, floatOptions, intOptions, choiceOptions] at h

/-- A file that asks for parameters that can be loaded is loaded. -/
theorem asked_loads {o : SetOrder} (ho : o.Valid) {c : Config} {p : PyPar} (hp : p.Loadable) (h : c.AsksFor p) :
    ∃ t, fromFile o c = .ok t := by
  obtain ⟨a1, b1, q1⟩ := all_ok (l := Legacy.all) (fun u => u.dens = (fresh PyPar.default).dens)
    (fun ℓ _ s hs => (by
      obtain ⟨s', h1, h2⟩ := readLegacy_ok h ℓ s
      exact ⟨s', h1, h2.trans hs⟩ : ∃ s', readLegacy c ℓ s = (.ok (), s') ∧ s'.dens = (fresh PyPar.default).dens))
    (fresh PyPar.default) rfl
  obtain ⟨a2, b2, q2⟩ := readContributions_ok c a1
  obtain ⟨t1, e1, d1⟩ := loop_done (c := c) (r := fun t => t.getfloatArray.map .floats)
    (fun s => s.dens = (fresh PyPar.default).dens) (l := o.floatArrays) (by
      intro n hn t ht
      have hn := ho.floatArrays.mem_iff.1 hn
      obtain ⟨t', h1, h2⟩ := option_step (c := c) (r := fun t => t.getfloatArray.map .floats) (n := n) (s := t) (by
        intro x hx
        obtain ⟨g1, -, v, g2, g3⟩ := h.own n x (never_ignored' n (.inl hn)) hx
        obtain ⟨w, g4, g5⟩ := reals_read hn g2 g3
        exact ⟨g1, w, _, g4, g5⟩) (by
          refine ⟨?_, ?_, ?_, ?_, ?_, ?_⟩ <;> rintro rfl <;> simp [floatArrayOptions] at hn)
      exact ⟨t', h1, h2.trans ht⟩) a2 (q2.trans q1)
  obtain ⟨t2, e2, d2⟩ := loop_done (c := c) (r := Txt.getintArray)
    (fun s => s.dens = (fresh PyPar.default).dens) (l := [Name.l]) (by
      intro n hn t ht
      rw [List.mem_singleton] at hn
      subst hn
      obtain ⟨t', h1, h2⟩ := option_step (c := c) (r := Txt.getintArray) (n := .l) (s := t) (by
        intro x hx
        obtain ⟨g1, -, v, g2, g3⟩ := h.own .l x (by simp [Name.Ignored]) hx
        obtain ⟨w, g4, g5⟩ := l_read g2 g3
        exact ⟨g1, w, _, g4, g5⟩) (by simp)
      exact ⟨t', h1, h2.trans ht⟩) t1 d1
  obtain ⟨t3, e3, -⟩ := loop_done (c := c) (r := Txt.getfloat)
    (fun t => Between p t.dens) (l := o.floats) (by
      intro n hn t ht
      have hn := ho.floats.mem_iff.1 hn
      cases hx : c.opt n with
      | none => exact ⟨t, by unfold readOption; rw [hx]; rfl, ht⟩
      | some x =>
        obtain ⟨g1, -, v, g2, g3⟩ := h.own n x (never_ignored' n (.inr (.inl hn))) hx
        obtain ⟨v, t', h2, h3, h4⟩ := float_step hp hn ht
        exact ⟨t', readOption_ok hx ((float_read hn g2 g3).trans h2) h3, h4⟩) t2 (by
        rw [d2, default_dens]
        refine ⟨Or.inl ?_, Or.inl ?_, Or.inl ?_, Or.inl ?_, ?_, ?_, fun _ => ⟨rfl, rfl⟩⟩ <;> norm_num)
  obtain ⟨t4, e4, -⟩ := loop_done (c := c) (r := Txt.getint) (fun _ => True) (l := o.ints) (by
      intro n hn t _
      have hn := ho.ints.mem_iff.1 hn
      obtain ⟨t', h1, -⟩ := option_step (c := c) (r := Txt.getint) (n := n) (s := t) (by
        intro x hx
        obtain ⟨g1, gw, v, g2, g3⟩ := h.own n x (never_ignored' n (.inr (.inr (.inl hn)))) hx
        obtain ⟨w, new', g4, g5⟩ := int_read hn gw g2 g3
        exact ⟨g1, w, _, g4, g5⟩) (by
          refine ⟨?_, ?_, ?_, ?_, ?_, ?_⟩ <;> rintro rfl <;> simp [intOptions] at hn)
      exact ⟨t', h1, trivial⟩) t3 trivial
  obtain ⟨t5, e5, -⟩ := loop_done (c := c) (r := Txt.getintOrStr) (fun _ => True) (l := o.choices) (by
      intro n hn t _
      have hn := ho.choices.mem_iff.1 hn
      obtain ⟨t', h1, -⟩ := option_step (c := c) (r := Txt.getintOrStr) (n := n) (s := t) (by
        intro x hx
        obtain ⟨g1, gw, v, g2, g3⟩ := h.own n x (never_ignored' n (.inr (.inr (.inr hn)))) hx
        obtain ⟨w, g4, g5⟩ := choice_read hn gw g2 g3
        exact ⟨g1, w, _, g4, g5⟩) (by
          refine ⟨?_, ?_, ?_, ?_, ?_, ?_⟩ <;> rintro rfl <;> simp [choiceOptions] at hn)
      exact ⟨t', h1, trivial⟩) t4 trivial
  obtain ⟨t6, e6, -⟩ := all_ok (l := BiasName.order) (f := readBias c) (fun _ => True)
    (fun b _ s _ => by
      obtain ⟨s', h1⟩ := readBias_fine (h.bias b) s
      exact ⟨s', h1, trivial⟩) t5 trivial
  have : readConfig o c (fresh PyPar.default) = (.ok (), t6) := by
    unfold readConfig
    rw [Py.bind_ok b1, Py.bind_ok b2, Py.bind_ok e1, Py.bind_ok e2, Py.bind_ok e3, Py.bind_ok e4,
      Py.bind_ok e5, e6]
  refine ⟨t6, ?_⟩
  unfold fromFile
  rw [this]

end Coffe
