import Verif.Proofs.PyFile
import Verif.Props.PyDensity
import Verif.Props.PyCaches

/-! # When saving and loading succeed -/

namespace Coffe
open Classical

theorem allclose_self (x : ℝ) : allclose x x := by
  unfold allclose
  rw [sub_self, abs_zero]
  positivity

theorem guarded_still {v : PyVal} {a b x : ℝ} {old : PyPar → ℝ} {act : ℝ → Py Unit} {s : PyObj}
    (h : v.IsReal x) (ha : a ≤ x) (hb : x ≤ b) (hc : allclose x (old s.par)) :
    guarded v .intFloat a b old act s = (.ok (), s) := by
  unfold guarded
  refine (Py.bind_ok (checkParameter_ok (isReal_kind h) ha hb)).trans ?_
  refine (Py.bind_ok (Py.get_eq _)).trans ?_
  exact congrFun (if_pos hc) _

/-- Assigning a documented value to itself succeeds. -/
theorem self_done {n : Name} {s : PyObj} (hn : n ≠ .integrals_fftlog_sampling)
    (h : n.doc.Accepted (getattr s.par n) (getattr s.par n) (getattr s.par n)) :
    ∃ s', setattr n (getattr s.par n) s = (.ok (), s') := by
  by_cases h3 : n ≠ .omega_cdm ∧ n ≠ .omega_m ∧ n ≠ .omega_baryon ∧ n ≠ .omega_gamma ∧ n ≠ .m_ncdm
  · obtain ⟨u, s', hs⟩ := setattr_valid h hn (fun e => absurd e h3.2.2.2.2) ⟨h3.1, h3.2.1, h3.2.2.1, h3.2.2.2.1⟩
    exact ⟨s', hs⟩
  · have key : ∀ (x a b : ℝ) (old : PyPar → ℝ) (act : ℝ → Py Unit), old s.par = x →
        (Doc.cosmology a b).Accepted (.float x) (.float x) (.float x) →
        ∃ s', guarded (.float x) .intFloat a b old act s = (.ok (), s') := by
      intro x a b old act hx hd
      obtain ⟨y, hy, h1, h2, -⟩ := hd
      have hxy : y = x := by
        rcases hy with hy | ⟨k, hy, -⟩ | ⟨hy, -⟩ | ⟨hy, -⟩ <;> cases hy
        rfl
      subst hxy
      exact ⟨s, guarded_still (Or.inl rfl) h1 h2 (hx ▸ allclose_self _)⟩
    have : n = .omega_cdm ∨ n = .omega_m ∨ n = .omega_baryon ∨ n = .omega_gamma ∨ n = .m_ncdm := by tauto
    rcases this with rfl | rfl | rfl | rfl | rfl <;> exact key _ _ _ _ _ rfl h

theorem parametersLoop_done (ns : List Name) : ∀ s : PyObj, s.par.Documented →
    ∃ l s', parametersLoop ns s = (.ok l, s') := by
  induction ns with
  | nil => intro s _; exact ⟨_, _, rfl⟩
  | cons n ns ih =>
    intro s hs
    unfold parametersLoop
    have h1 : ∃ l t, parametersStep n s = (.ok l, t) ∧ t.par = s.par := by
      have hp := self_par n s
      unfold parametersStep
      by_cases hn : n = .integrals_fftlog_sampling
      · subst hn
        have : setattr .integrals_fftlog_sampling (getattr s.par .integrals_fftlog_sampling) s =
            (.error .attributeError, s) := by
          obtain ⟨k, hk, h1, h2, -⟩ := hs .integrals_fftlog_sampling
          have hk' : s.par.bessel_bins = k := by
            rcases hk with hk | ⟨hk, -⟩ | ⟨hk, -⟩ <;> cases hk
            rfl
          unfold setattr
          show (checkInt (.int s.par.bessel_bins) 0 1000000 >>= _) s = _
          unfold checkInt
          rw [Py.bind_eq]
          dsimp only
          rw [if_neg (by omega), if_neg (by omega)]
          rfl
        rw [this]
        exact ⟨_, _, rfl, rfl⟩
      · obtain ⟨t, ht⟩ := self_done hn (hs n)
        rw [ht] at hp ⊢
        exact ⟨_, _, rfl, hp⟩
    obtain ⟨l, t, h1, h2⟩ := h1
    obtain ⟨l', t', h3⟩ := ih t (h2 ▸ hs)
    exact ⟨_, _, (Py.bind_ok h1).trans ((Py.bind_ok h3).trans rfl)⟩

theorem toFile_done (N : Num) {s : PyObj} (hs : s.par.Documented) : ∃ c s', toFile N s = (.ok c, s') := by
  obtain ⟨l, s', h⟩ := parametersLoop_done Name.all s hs
  exact ⟨_, _, (Py.bind_ok h).trans rfl⟩

/-! ## Loops that succeed -/

theorem loop_done {c : Config} {r : Txt → Except Err PyVal} (P : PyObj → Prop) {l : List Name}
    (h : ∀ n ∈ l, ∀ s, P s → ∃ s', readOption c r n s = (.ok (), s') ∧ P s') :
    ∀ s, P s → ∃ s', (l.forM (readOption c r) : Py Unit) s = (.ok (), s') ∧ P s' := by
  induction l with
  | nil => intro s hs; exact ⟨s, rfl, hs⟩
  | cons n l ih =>
    intro s hs
    obtain ⟨t, h1, h2⟩ := h n List.mem_cons_self s hs
    obtain ⟨u, h3, h4⟩ := ih (fun n hn => h n (List.mem_cons_of_mem _ hn)) t h2
    refine ⟨u, ?_, h4⟩
    show (readOption c r n >>= fun _ => (l.forM (readOption c r) : Py Unit)) s = _
    rw [Py.bind_ok h1, h3]

theorem readOption_ok {c : Config} {r : Txt → Except Err PyVal} {n : Name} {s s' : PyObj} {x : Txt} {v : PyVal}
    (h1 : c.opt n = some x) (h2 : r x = .ok v) (h3 : setattr n v s = (.ok (), s')) :
    readOption c r n s = (.ok (), s') := by
  unfold readOption
  rw [h1]
  dsimp only
  rw [h2]
  exact h3

/-! ## The densities while the numbers are read -/

/-- Between reading two numbers, every density is the default or the saved one. -/
structure Between (p : PyPar) (d : Dens) : Prop where
  m : d.m = 0.3 ∨ d.m = p.Omega0_m
  gamma : d.gamma = 9e-5 ∨ d.gamma = p.Omega0_gamma
  h : d.h = 0.67 ∨ d.h = p.h
  baryon : d.baryon = 0.05 ∨ d.baryon = p.Omega0_baryon
  nu : 0 ≤ d.nu
  cdm : d.cdm = d.m - d.baryon - d.nu
  massless : p.m_ncdm = 0 → d.nu = 0 ∧ d.m_ncdm = 0

theorem stores_dens' {n : Name} {p p' : PyPar} (h : Stores n p p')
    (hn : n ≠ .omega_cdm ∧ n ≠ .omega_m ∧ n ≠ .omega_baryon ∧ n ≠ .omega_gamma ∧ n ≠ .m_ncdm ∧ n ≠ .h) :
    p'.dens = p.dens := by
  cases n <;> first
    | (simp at hn; done)
    | exact h.elim
    | (obtain ⟨x, rfl⟩ := h; rfl)

theorem float_doc {n : Name} {a b x : ℝ} {old new : PyVal} (hn : n.doc = .cosmology a b)
    (h : n.doc.Accepted (.float x) old new) : a ≤ x ∧ x ≤ b := by
  rw [hn] at h
  obtain ⟨y, hy, h1, h2, -⟩ := h
  rcases hy with hy | ⟨k, hy, -⟩ | ⟨hy, -⟩ | ⟨hy, -⟩ <;> cases hy
  exact ⟨h1, h2⟩

theorem float_step {p : PyPar} (hp : p.Loadable) {n : Name} (hn : n ∈ floatOptions) {s : PyObj}
    (hs : Between p s.dens) : ∃ v s', (getattr p n).text.getfloat = .ok v ∧ setattr n v s = (.ok (), s') ∧
      Between p s'.dens := by
  obtain ⟨i1, i2, i3, i4, i5, i6, i7⟩ := hs
  have hb := hp.budget
  have m1 : s.dens.m ≤ max p.Omega0_m 0.3 := by
    rcases i1 with h | h <;> rw [h]
    exacts [le_max_right _ _, le_max_left _ _]
  have m2 : s.dens.gamma ≤ max p.Omega0_gamma 9e-5 := by
    rcases i2 with h | h <;> rw [h]
    exacts [le_max_right _ _, le_max_left _ _]
  have m3 : 0 ≤ s.dens.baryon := by
    rcases i4 with h | h <;> rw [h]
    exacts [by norm_num, hp.baryon]
  have m4 := hp.baryon
  have m5 : p.Omega0_m ≤ max p.Omega0_m 0.3 := le_max_left _ _
  have m6 : p.Omega0_gamma ≤ max p.Omega0_gamma 9e-5 := le_max_left _ _
  have m7 : s.par.h ≠ 0 := by
    rcases i3 with h | h
    · have : s.par.h = 0.67 := h
      rw [this]; norm_num
    · have : s.par.h = p.h := h
      rw [this]; exact hp.h
  by_cases hd : n ≠ .omega_cdm ∧ n ≠ .omega_m ∧ n ≠ .omega_baryon ∧ n ≠ .omega_gamma ∧ n ≠ .m_ncdm ∧ n ≠ .h
  · have hv : ∃ v new, (getattr p n).text.getfloat = .ok v ∧ n.doc.Accepted v (getattr p n) new ∧
        n ≠ .integrals_fftlog_sampling := by
      have hdoc := hp.documented n
      clear hb i1 i2 i3 i4 i5 i6 i7 m1 m2 m3 m4 m5 m6 m7
      simp only [floatOptions, List.mem_cons, List.not_mem_nil, or_false] at hn
      rcases hn with rfl | rfl | rfl | rfl | rfl | rfl | rfl | rfl | rfl | rfl | rfl | rfl | rfl | rfl | rfl |
        rfl | rfl | rfl | rfl | rfl | rfl | rfl <;> first
        | (simp at hd; done)
        | exact ⟨_, _, rfl, hdoc, by simp⟩
        | exact ⟨_, _, rfl, ⟨_, Or.inr rfl, rfl⟩, by simp⟩
    obtain ⟨v, new, h1, h2, h3⟩ := hv
    obtain ⟨u, s', hs⟩ := setattr_valid (s := s) h2 h3 (fun e => absurd e hd.2.2.2.2.1)
      ⟨hd.1, hd.2.1, hd.2.2.1, hd.2.2.2.1⟩
    refine ⟨v, s', h1, hs, ?_⟩
    have hpost := setattr_post n v s (fun t => t.par.dens = s.par.dens) rfl fun t ht => stores_dens' ht hd
    unfold Post at hpost
    rw [hs] at hpost
    have : s'.dens = s.dens := hpost
    rw [this]
    exact ⟨i1, i2, i3, i4, i5, i6, i7⟩
  · have hn' : n = .omega_m ∨ n = .omega_baryon ∨ n = .omega_gamma ∨ n = .m_ncdm ∨ n = .h := by
      have : n ≠ .omega_cdm := by rintro rfl; exact absurd hn (by simp [floatOptions])
      tauto
    rcases hn' with rfl | rfl | rfl | rfl | rfl
    · have hx := float_doc (x := p.Omega0_m) rfl (hp.documented .omega_m)
      by_cases hc : allclose p.Omega0_m s.par.Omega0_m
      · exact ⟨_, s, rfl, guarded_still (Or.inl rfl) hx.1 hx.2 hc, i1, i2, i3, i4, i5, i6, i7⟩
      · have hle : p.Omega0_m + s.par.Omega0_gamma ≤ 1 := by
          have : s.par.Omega0_gamma = s.dens.gamma := rfl
          linarith
        have : ∃ s', setattr .omega_m (.float p.Omega0_m) s = (.ok (), s') ∧ s'.dens = { s.dens with
            m := p.Omega0_m, cdm := p.Omega0_m - s.dens.baryon - s.dens.nu
            de := 1 - p.Omega0_m - s.dens.gamma } := by
          unfold setattr
          exact ⟨_, (guarded_run (Or.inl rfl) hx.1 hx.2 hc).trans ((Py.bind_ok (Py.get_eq _)).trans
            ((omegas_run hle).trans (Py.modify_eq _ _))), rfl⟩
        obtain ⟨s', h1, h2⟩ := this
        refine ⟨_, s', rfl, h1, ?_⟩
        rw [h2]
        exact ⟨Or.inr rfl, i2, i3, i4, i5, rfl, i7⟩
    · have hx := float_doc (x := p.Omega0_baryon) rfl (hp.documented .omega_baryon)
      by_cases hc : allclose p.Omega0_baryon s.par.Omega0_baryon
      · exact ⟨_, s, rfl, guarded_still (Or.inl rfl) hx.1 hx.2 hc, i1, i2, i3, i4, i5, i6, i7⟩
      · obtain ⟨s', h1, h2⟩ := set_omega_baryon s p.Omega0_baryon hx hc (by rw [i6]; linarith)
        refine ⟨_, s', rfl, h1, ?_⟩
        rw [h2]
        exact ⟨i1, i2, i3, Or.inr rfl, i5, rfl, i7⟩
    · have hx := float_doc (x := p.Omega0_gamma) rfl (hp.documented .omega_gamma)
      by_cases hc : allclose p.Omega0_gamma s.par.Omega0_gamma
      · exact ⟨_, s, rfl, guarded_still (Or.inl rfl) hx.1 hx.2 hc, i1, i2, i3, i4, i5, i6, i7⟩
      · obtain ⟨s', h1, h2⟩ := set_omega_gamma s p.Omega0_gamma hx hc (by linarith)
        refine ⟨_, s', rfl, h1, ?_⟩
        rw [h2]
        exact ⟨i1, Or.inr rfl, i3, i4, i5, i6, i7⟩
    · have hx := float_doc (x := p.m_ncdm) rfl (hp.documented .m_ncdm)
      by_cases hc : allclose p.m_ncdm s.par.m_ncdm
      · exact ⟨_, s, rfl, guarded_still (Or.inl rfl) hx.1 hx.2 hc, i1, i2, i3, i4, i5, i6, i7⟩
      · obtain ⟨s', h1, h2⟩ := set_m_ncdm s p.m_ncdm hx m7 hc
        refine ⟨_, s', rfl, h1, ?_⟩
        rw [h2]
        refine ⟨i1, i2, i3, i4, ?_, rfl, fun h0 => absurd ?_ hc⟩
        rotate_left
        · have : s.par.m_ncdm = 0 := (i7 h0).2
          rw [h0, this]
          exact allclose_self 0
        show 0 ≤ p.m_ncdm / 93.14 / s.dens.h / s.dens.h
        rw [div_div, div_div]
        refine div_nonneg hp.m_ncdm ?_
        exact mul_nonneg (by norm_num) (mul_self_nonneg _)
    · have hx := float_doc (x := p.h) rfl (hp.documented .h)
      by_cases hc : allclose p.h s.par.h
      · exact ⟨_, s, rfl, guarded_still (Or.inl rfl) hx.1 hx.2 hc, i1, i2, i3, i4, i5, i6, i7⟩
      · obtain ⟨s', h1, h2⟩ := set_h s p.h hx hc
        refine ⟨_, s', rfl, h1, ?_⟩
        rw [h2]
        exact ⟨i1, i2, Or.inr rfl, i4, i5, i6, i7⟩

/-! ## The other loops -/

theorem floats_step {p : PyPar} (hp : p.Loadable) {n : Name} (hn : n ∈ floatArrayOptions) {s : PyObj}
    (hs : s.dens = (fresh PyPar.default).dens) :
    ∃ v s', ((getattr p n).text.getfloatArray.map .floats : Except Err PyVal) = .ok v ∧
      setattr n v s = (.ok (), s') ∧ s'.dens = (fresh PyPar.default).dens := by
  obtain ⟨l1, l2, l3, l4, l5, l6, l7, l8, l9, l10, l11⟩ := hp.lists
  have key : ∀ l : List ℝ, l ≠ [] →
      ((PyVal.floats l).text.getfloatArray.map .floats : Except Err PyVal) = .ok (.floats l) := by
    intro l hl
    cases l with
    | nil => exact absurd rfl hl
    | cons x l => rfl
  have hv : ((getattr p n).text.getfloatArray.map .floats : Except Err PyVal) = .ok (getattr p n) := by
    simp only [floatArrayOptions, List.mem_cons, List.not_mem_nil, or_false] at hn
    rcases hn with rfl | rfl | rfl | rfl | rfl | rfl | rfl | rfl | rfl | rfl <;>
      exact key _ (by assumption)
  have hd : n ≠ .omega_cdm ∧ n ≠ .omega_m ∧ n ≠ .omega_baryon ∧ n ≠ .omega_gamma ∧ n ≠ .m_ncdm ∧ n ≠ .h := by
    refine ⟨?_, ?_, ?_, ?_, ?_, ?_⟩ <;> rintro rfl <;> simp [floatArrayOptions] at hn
  obtain ⟨u, s', hs'⟩ := setattr_valid (s := s) (hp.documented n)
    (by rintro rfl; simp [floatArrayOptions] at hn) (fun e => absurd e hd.2.2.2.2.1)
    ⟨hd.1, hd.2.1, hd.2.2.1, hd.2.2.2.1⟩
  refine ⟨_, s', hv, hs', ?_⟩
  have hpost := setattr_post n (getattr p n) s (fun t => t.par.dens = s.par.dens) rfl fun t ht => stores_dens' ht hd
  unfold Post at hpost
  rw [hs'] at hpost
  exact Eq.trans hpost hs

theorem l_step {p : PyPar} (hp : p.Loadable) {s : PyObj} (hs : s.dens = (fresh PyPar.default).dens) :
    ∃ v s', (getattr p .l).text.getintArray = .ok v ∧
      setattr .l v s = (.ok (), s') ∧ s'.dens = (fresh PyPar.default).dens := by
  have hv : (getattr p .l).text.getintArray = .ok (getattr p .l) := by
    have hl := hp.lists.2.2.1
    have : ∀ l : List ℤ, l ≠ [] → (PyVal.ints l).text.getintArray = .ok (.ints l) := by
      intro l hl
      cases l with
      | nil => exact absurd rfl hl
      | cons x l => rfl
    exact this _ (by simpa using hl)
  obtain ⟨u, s', hs'⟩ := setattr_valid (s := s) (hp.documented .l) (by simp) (by simp) (by simp)
  refine ⟨_, s', hv, hs', ?_⟩
  have hpost := setattr_post .l (getattr p .l) s (fun t => t.par.dens = s.par.dens) rfl fun t ht =>
    stores_dens' ht (by simp)
  unfold Post at hpost
  rw [hs'] at hpost
  exact Eq.trans hpost hs

theorem int_step {p : PyPar} (hp : p.Loadable) {n : Name} (hn : n ∈ intOptions)
    (hf : n ≠ .integrals_fftlog_sampling) (s : PyObj) :
    ∃ v s', (getattr p n).text.getint = .ok v ∧ setattr n v s = (.ok (), s') := by
  have hdoc := hp.documented n
  have h : ∃ v new, (getattr p n).text.getint = .ok v ∧ n.doc.Accepted v (getattr p n) new := by
    simp only [intOptions, List.mem_cons, List.not_mem_nil, or_false] at hn
    rcases hn with rfl | rfl | rfl | rfl | rfl | rfl | rfl | rfl | rfl | rfl | rfl | rfl | rfl | rfl | rfl |
      rfl | rfl | rfl | rfl | rfl | rfl <;> first
      | exact absurd rfl hf
      | exact ⟨_, _, rfl, rfl⟩
      | exact ⟨_, _, rfl, hdoc⟩
  obtain ⟨v, new, h1, h2⟩ := h
  obtain ⟨u, s', hs'⟩ := setattr_valid (s := s) h2 hf (by rintro rfl; simp [intOptions] at hn)
    (by refine ⟨?_, ?_, ?_, ?_⟩ <;> rintro rfl <;> simp [intOptions] at hn)
  exact ⟨v, s', h1, hs'⟩

theorem choice_step {p : PyPar} (hp : p.Loadable) {n : Name} (hn : n ∈ choiceOptions) (s : PyObj) :
    ∃ v s', (getattr p n).text.getintOrStr = .ok v ∧ setattr n v s = (.ok (), s') := by
  have hdoc := hp.documented n
  have h : (getattr p n).text.getintOrStr = .ok (getattr p n) := by
    simp only [choiceOptions, List.mem_cons, List.not_mem_nil, or_false] at hn
    rcases hn with rfl | rfl | rfl | rfl <;> rfl
  obtain ⟨u, s', hs'⟩ := setattr_valid (s := s) hdoc (by rintro rfl; simp [choiceOptions] at hn)
    (by rintro rfl; simp [choiceOptions] at hn)
    (by refine ⟨?_, ?_, ?_, ?_⟩ <;> rintro rfl <;> simp [choiceOptions] at hn)
  exact ⟨_, s', h, hs'⟩

/-! ## The biases -/

theorem head_lt_last {l : Samples} (h : l.Usable) : ∃ a b, l.head? = some a ∧ l.getLast? = some b ∧
    0 ≤ a.1 ∧ a.1 < b.1 ∧ b.1 ≤ 15 := by
  obtain ⟨h1, h2, h3⟩ := h
  have hl : l ≠ [] := by rintro rfl; simp at h1
  refine ⟨l.head hl, l.getLast hl, List.head?_eq_some_head hl, List.getLast?_eq_some_getLast hl,
    (h3 _ (List.head_mem hl)).1, ?_, (h3 _ (List.getLast_mem hl)).2⟩
  rw [List.head_eq_getElem, List.getLast_eq_getElem]
  have := List.pairwise_iff_getElem.1 h2 0 (l.length - 1) (by simpa using by omega) (by simpa using by omega)
    (by omega)
  simpa using this

theorem linspace_facts {a b : ℝ} {n : ℕ} (hn : 5 ≤ n) (hab : a < b) :
    (linspace a b n).length = n ∧ (linspace a b n).Pairwise (· < ·) ∧
    (linspace a b n).head? = some a ∧ (linspace a b n).getLast? = some b := by
  have hn' : (0 : ℝ) < n - 1 := by
    have : (5 : ℝ) ≤ n := by exact_mod_cast hn
    linarith
  have hd : 0 < (b - a) / ((n : ℝ) - 1) := div_pos (by linarith) hn'
  refine ⟨by simp [linspace], ?_, ?_, ?_⟩
  · unfold linspace
    rw [List.pairwise_map]
    refine List.pairwise_lt_range.imp ?_
    intro i j hij
    have : (i : ℝ) < j := by exact_mod_cast hij
    nlinarith
  · unfold linspace
    obtain ⟨m, rfl⟩ : ∃ m, n = m + 1 := ⟨n - 1, by omega⟩
    rw [List.range_succ_eq_map]
    simp
  · unfold linspace
    obtain ⟨m, rfl⟩ : ∃ m, n = m + 1 := ⟨n - 1, by omega⟩
    rw [List.range_succ]
    rw [List.map_append, List.map_singleton, List.getLast?_append]
    simp only [List.getLast?_singleton, Option.some_or, Option.some.injEq]
    push_cast at hn' ⊢
    field_simp
    ring

theorem setBias_ok {b : BiasName} {x y : List ℝ} {a e : ℝ} {s : PyObj} (h1 : x.Pairwise (· < ·))
    (h2 : x.length = y.length) (h3 : 5 ≤ x.length) (h4 : x.head? = some a) (h5 : x.getLast? = some e)
    (h6 : 0 ≤ a) (h7 : e ≤ 15) : ∃ s', setBias b x y s = (.ok (), s') := by
  have : checkSpline x y s = (.ok (x.zip y), s) := by
    unfold checkSpline
    rw [if_neg (not_not.2 (wSorted x (h1.imp le_of_lt))), if_neg (not_not.2 h2), h4, h5]
    dsimp only
    rw [if_neg (not_lt.2 h6), if_neg (not_lt.2 h7), if_neg (by
      rintro (h | h)
      · omega
      · exact h h1)]
    rfl
  exact ⟨_, (Py.bind_ok this).trans rfl⟩

theorem readBias_ok {c : Config} {b : BiasName} {N : Num} {l : Samples} (hl : l.Usable)
    (hc : c.bias b = ⟨none, none, none, some (.floats (biasRedshifts l)), some (.floats (biasValues N l))⟩)
    (s : PyObj) : ∃ s', readBias c b s = (.ok (), s') := by
  obtain ⟨a, e, h1, h2, h3, h4, h5⟩ := head_lt_last hl
  obtain ⟨f1, f2, f3, f4⟩ := linspace_facts hl.five h4
  have hX : biasRedshifts l = linspace a.1 e.1 l.length := by
    unfold biasRedshifts
    rw [h1, h2]
  have hlen : (biasValues N l).length = l.length := by
    unfold biasValues
    rw [List.length_map, hX, f1]
  obtain ⟨s', hs⟩ := setBias_ok (b := b) (x := biasRedshifts l) (y := biasValues N l) (s := s)
    (by rw [hX]; exact f2) (by rw [hlen, hX, f1]) (by rw [hX, f1]; exact hl.five) (by rw [hX]; exact f3)
    (by rw [hX]; exact f4) h3 h5
  refine ⟨s', ?_⟩
  unfold readBias
  rw [hc]
  simp only [Option.isSome_none, Bool.false_eq_true, if_false]
  have hX0 : biasRedshifts l ≠ [] := by rw [hX]; intro h; rw [h] at f3; cases f3
  have hY0 : biasValues N l ≠ [] := by
    intro h
    rw [h] at hlen
    have := hl.five
    simp at hlen
    omega
  obtain ⟨x, X, hx⟩ := List.exists_cons_of_ne_nil hX0
  obtain ⟨y, Y, hy⟩ := List.exists_cons_of_ne_nil hY0
  rw [hx, hy] at hs ⊢
  exact hs

theorem biasLoop_ok {c : Config} {N : Num} {B : Biases} (hB : ∀ b, (B.get b).Usable)
    (hc : ∀ b, c.bias b = ⟨none, none, none, some (.floats (biasRedshifts (B.get b))),
      some (.floats (biasValues N (B.get b)))⟩) :
    ∀ (l : List BiasName) (s : PyObj), ∃ s', (l.forM (readBias c) : Py Unit) s = (.ok (), s') := by
  intro l
  induction l with
  | nil => intro s; exact ⟨s, rfl⟩
  | cons b l ih =>
    intro s
    obtain ⟨t, h1⟩ := readBias_ok (hB b) (hc b) s
    obtain ⟨u, h2⟩ := ih t
    refine ⟨u, ?_⟩
    show (readBias c b >>= fun _ => (l.forM (readBias c) : Py Unit)) s = _
    rw [Py.bind_ok h1, h2]

/-! ## The whole file -/

theorem fromFile_done {N : Num} {o : SetOrder} (ho : o.Valid) {s s' : PyObj} {c : Config}
    (hp : s.par.Loadable) (h1 : toFile N s = (.ok c, s')) : ∃ t, fromFile o c = .ok t := by
  obtain ⟨c1, c2, c3, c4, c5, -⟩ := toFile_opt h1
  have c1' : ∀ n : Name, n ≠ .integrals_fftlog_sampling → c.opt n = some (getattr s.par n).text := c1
  obtain ⟨t1, e1, d1⟩ := loop_done (c := c) (r := fun t => t.getfloatArray.map .floats)
    (fun s => s.dens = (fresh PyPar.default).dens) (l := o.floatArrays) (by
      intro n hn t ht
      have hn := ho.floatArrays.mem_iff.1 hn
      obtain ⟨v, t', h2, h3, h4⟩ := floats_step hp hn ht
      exact ⟨t', readOption_ok (c1 n (by rintro rfl; simp [floatArrayOptions] at hn)) h2 h3, h4⟩)
    (fresh PyPar.default) rfl
  obtain ⟨t2, e2, d2⟩ := loop_done (c := c) (r := Txt.getintArray)
    (fun s => s.dens = (fresh PyPar.default).dens) (l := [Name.l]) (by
      intro n hn t ht
      rw [List.mem_singleton] at hn
      subst hn
      obtain ⟨v, t', h2, h3, h4⟩ := l_step hp ht
      exact ⟨t', readOption_ok (c1 _ (by simp)) h2 h3, h4⟩) t1 d1
  obtain ⟨t3, e3, -⟩ := loop_done (c := c) (r := Txt.getfloat)
    (fun t => Between s.par t.dens) (l := o.floats) (by
      intro n hn t ht
      have hn := ho.floats.mem_iff.1 hn
      obtain ⟨v, t', h2, h3, h4⟩ := float_step hp hn ht
      exact ⟨t', readOption_ok (c1 n (by rintro rfl; simp [floatOptions] at hn)) h2 h3, h4⟩) t2 (by
        rw [d2, default_dens]
        refine ⟨Or.inl ?_, Or.inl ?_, Or.inl ?_, Or.inl ?_, ?_, ?_, fun _ => ⟨rfl, rfl⟩⟩ <;> norm_num)
  obtain ⟨t4, e4, -⟩ := loop_done (c := c) (r := Txt.getint) (fun _ => True) (l := o.ints) (by
      intro n hn t _
      have hn := ho.ints.mem_iff.1 hn
      by_cases hf : n = .integrals_fftlog_sampling
      · subst hf
        refine ⟨t, ?_, trivial⟩
        unfold readOption
        rw [c2]
        rfl
      · obtain ⟨v, t', h2, h3⟩ := int_step hp hn hf t
        exact ⟨t', readOption_ok (c1 n hf) h2 h3, trivial⟩) t3 trivial
  obtain ⟨t5, e5, -⟩ := loop_done (c := c) (r := Txt.getintOrStr) (fun _ => True) (l := o.choices) (by
      intro n hn t _
      have hn := ho.choices.mem_iff.1 hn
      obtain ⟨v, t', h2, h3⟩ := choice_step hp hn t
      exact ⟨t', readOption_ok (c1 n (by rintro rfl; simp [choiceOptions] at hn)) h2 h3, trivial⟩) t4 trivial
  obtain ⟨t6, e6⟩ := biasLoop_ok hp.bias c5 BiasName.order t5
  have hleg : ∀ (l : List Legacy) (s : PyObj), (l.forM (readLegacy c) : Py Unit) s = (.ok (), s) := by
    intro l
    induction l with
    | nil => intro s; rfl
    | cons a l ih =>
      intro s
      show (readLegacy c a >>= fun _ => (l.forM (readLegacy c) : Py Unit)) s = _
      rw [Py.bind_eq]
      have : readLegacy c a s = (.ok (), s) := by unfold readLegacy; rw [c3]; rfl
      rw [this]
      exact ih s
  have hcon : ∀ s, readContributions c s = (.ok (), s) := by
    intro s; unfold readContributions; rw [c4]; rfl
  have : readConfig o c (fresh PyPar.default) = (.ok (), t6) := by
    unfold readConfig
    rw [Py.bind_ok (hleg _ _), Py.bind_ok (hcon _), Py.bind_ok e1, Py.bind_ok e2, Py.bind_ok e3, Py.bind_ok e4,
      Py.bind_ok e5, e6]
  refine ⟨t6, ?_⟩
  unfold fromFile
  rw [this]

end Coffe
