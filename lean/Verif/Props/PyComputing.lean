import Verif.Proofs.PyNoKill
import Verif.Proofs.PyEval
import Verif.Props.PyCaches
import Verif.Props.PyLookups
import Verif.Props.MaxSeparation

/-!
# C70: computing changes no settings; C71: an uploaded spectrum is used; C72: no call ends the process
-/

namespace Coffe
open Classical

/-! ## C70 -/

/-- Nothing but the k-range differs, and the k-range has not grown. -/
def SameButRange (s t : PyObj) : Prop :=
  { t.par with divergent := false, k_min := 0, k_max := 0 } = { s.par with divergent := false, k_min := 0, k_max := 0 } ∧
    s.par.k_min ≤ t.par.k_min ∧ t.par.k_max ≤ s.par.k_max

theorem sameButRange_stable (re : Bool) : Stable SameButRange re where
  refl _ := ⟨rfl, le_refl _, le_refl _⟩
  trans h h' := ⟨h'.1.trans h.1, h.2.1.trans h'.2.1, h'.2.2.trans h.2.2⟩
  div _ _ := ⟨rfl, le_refl _, le_refl _⟩
  bg _ _ := ⟨rfl, le_refl _, le_refl _⟩
  ps _ _ _ := ⟨rfl, le_max_left _ _, min_le_left _ _⟩
  ints _ _ := ⟨rfl, le_refl _, le_refl _⟩
  cf _ _ := ⟨rfl, le_refl _, le_refl _⟩
  mp _ _ := ⟨rfl, le_refl _, le_refl _⟩
  amp _ _ := ⟨rfl, le_refl _, le_refl _⟩
  covs _ _ _ := ⟨rfl, le_refl _, le_refl _⟩

theorem getattr_but_range {p q : PyPar}
    (h : { p with divergent := false, k_min := 0, k_max := 0 } = { q with divergent := false, k_min := 0, k_max := 0 })
    (n : Name) (h1 : n ≠ .k_min) (h2 : n ≠ .k_max) : getattr p n = getattr q n := by
  have : ∀ r : PyPar, getattr r n = getattr { r with divergent := false, k_min := 0, k_max := 0 } n := by
    intro r
    cases n <;> first | rfl | exact absurd rfl h1 | exact absurd rfl h2
  rw [this p, h, ← this q]

/-- Every computing call, with any arguments and however it ends, leaves every attribute except `k_min` and `k_max` as it
was, and the bias functions and derived densities too; `k_min` can only grow and `k_max` can only shrink. -/
theorem C70_settings_partial (N : Num) (op : Op) (re : Bool) (hop : op.computes = some re) (s : PyObj) :
    (∀ n, n ≠ .k_min → n ≠ .k_max → getattr (exec N op s).2.par n = getattr s.par n) ∧
    (exec N op s).2.par.bias = s.par.bias ∧
    (exec N op s).2.par.Omega0_de = s.par.Omega0_de ∧ (exec N op s).2.par.Omega0_nu = s.par.Omega0_nu ∧
    s.par.k_min ≤ (exec N op s).2.par.k_min ∧ (exec N op s).2.par.k_max ≤ s.par.k_max := by
  obtain ⟨h, h1, h2⟩ := (sameButRange_stable re).exec N op hop s
  have hb := congrArg PyPar.bias h
  have hd := congrArg PyPar.Omega0_de h
  have hn := congrArg PyPar.Omega0_nu h
  exact ⟨getattr_but_range h, hb, hd, hn, h1, h2⟩

/-- As long as there is a spectrum, it and the k-range stay. -/
def SpectrumStays (s t : PyObj) : Prop :=
  s.ps ≠ none → t.ps = s.ps ∧ t.par.k_min = s.par.k_min ∧ t.par.k_max = s.par.k_max

theorem spectrumStays_stable : Stable SpectrumStays false where
  refl _ _ := ⟨rfl, rfl, rfl⟩
  trans h h' hs := by
    obtain ⟨a, b, c⟩ := h hs
    obtain ⟨a', b', c'⟩ := h' (by rw [a]; exact hs)
    exact ⟨a'.trans a, b'.trans b, c'.trans c⟩
  div _ _ _ := ⟨rfl, rfl, rfl⟩
  bg _ _ _ := ⟨rfl, rfl, rfl⟩
  ps s _ h hs := absurd (h.resolve_right (by simp)) hs
  ints _ _ _ := ⟨rfl, rfl, rfl⟩
  cf _ _ _ := ⟨rfl, rfl, rfl⟩
  mp _ _ _ := ⟨rfl, rfl, rfl⟩
  amp _ _ _ := ⟨rfl, rfl, rfl⟩
  covs _ _ _ _ := ⟨rfl, rfl, rfl⟩

/-- When a spectrum is present and `recompute=False`, a computing call changes no attribute at all. -/
theorem C70_reuse_partial (N : Num) (op : Op) (hop : op.computes = some false) (s : PyObj) (hs : s.ps ≠ none) (n : Name) :
    getattr (exec N op s).2.par n = getattr s.par n := by
  obtain ⟨-, h1, h2⟩ := spectrumStays_stable.exec N op hop s hs
  by_cases hn1 : n = .k_min
  · subst hn1; exact congrArg PyVal.float h1
  by_cases hn2 : n = .k_max
  · subst hn2; exact congrArg PyVal.float h2
  exact (C70_settings_partial N op false hop s).1 n hn1 hn2

/-- C70 fails for the k-range: a new object has `k_max = 300`; after computing the correlation function `k_max` is
the largest wave number CLASS has returned. -/
theorem C70_k_max_false : ∃ (N : Num) (t : PyObj), run N [.computeBulk .corrfunc false] (fresh PyPar.default) = some t ∧
    getattr PyPar.default .k_max = .float 300 ∧ getattr t.par .k_max = .float 100 := by
  have h2 := corrfunc_fresh (N := wNum) (p := PyPar.default) (b := wB) (c := wC) rfl rfl rfl
    (by simp [PyPar.default, generateRange])
  refine ⟨wNum, _, run_cons h2, rfl, ?_⟩
  show PyVal.float (min 300 100) = _
  norm_num

/-! ## C71 -/

theorem surveySettings_keep (n : Name) (hn : n ∈ surveySettings) (v : PyVal) :
    Keeps (fun s => (s.ps, s.par.k_min, s.par.k_max)) (setattr n v) := by
  have hb : ∀ {α : Type} {m : Py α} {f : α → PyPar → PyPar} {free : PyObj → PyObj}, Still m →
      (∀ x (s : PyObj), ((free (s.upd (f x))).ps, (free (s.upd (f x))).par.k_min, (free (s.upd (f x))).par.k_max) =
        (s.ps, s.par.k_min, s.par.k_max)) →
      Keeps (fun s => (s.ps, s.par.k_min, s.par.k_max)) (do let x ← m; store (f x) free) :=
    fun h h' => Keeps.bind h.keeps fun x => keeps_modify (h' x)
  simp only [surveySettings, List.mem_cons, List.not_mem_nil, or_false] at hn
  rcases hn with rfl | rfl | rfl | rfl | rfl | rfl | rfl | rfl | rfl | rfl | rfl | rfl | rfl | rfl | rfl | rfl | rfl |
    rfl | rfl | rfl | rfl | rfl | rfl | rfl | rfl | rfl | rfl | rfl <;> unfold setattr <;> dsimp only
  all_goals first
    | exact keeps_modify fun _ => rfl
    | exact hb (still_checkFloats _ _) fun _ _ => rfl
    | exact hb (still_checkMultipoles _) fun _ _ => rfl
    | exact hb (still_checkPopulations _) fun _ _ => rfl
    | exact hb (still_checkDiscrete _ _ _) fun _ _ => rfl
    | exact hb (still_checkInt _ _ _) fun _ _ => rfl

theorem spares_exec (N : Num) (op : Op) (h : op.SparesSpectrum) : Moves SpectrumStays (exec N op) := by
  rcases h with h | ⟨n, hn, v, rfl⟩ | ⟨n, x, y, rfl⟩
  · exact spectrumStays_stable.exec N op h
  · intro s _
    have := Keeps.map (g := fun _ => Out.unit) (surveySettings_keep n hn v) s
    exact ⟨congrArg (·.1) this, congrArg (·.2.1) this, congrArg (·.2.2) this⟩
  · exact spectrumStays_stable.bind (spectrumStays_stable.bind (spectrumStays_stable.still (still_checkSpline x y))
      fun _ _ _ => ⟨rfl, rfl, rfl⟩) fun _ => spectrumStays_stable.still (still_pure _)

theorem run_spares (N : Num) (ops : List Op) (h : ∀ op ∈ ops, op.SparesSpectrum) : ∀ s t,
    run N ops s = some t → SpectrumStays s t := by
  induction ops with
  | nil => intro s t ht; cases ht; exact spectrumStays_stable.refl s
  | cons op ops ih =>
    intro s t ht
    have h1 := spares_exec N op (h op List.mem_cons_self) s
    have h2 := ih (fun o ho => h o (List.mem_cons_of_mem _ ho))
    unfold run at ht
    rcases hx : exec N op s with ⟨o, s'⟩
    rw [hx] at ht h1
    cases o with
    | ok a => exact spectrumStays_stable.trans h1 (h2 s' t ht)
    | error e =>
      cases e <;> first | exact spectrumStays_stable.trans h1 (h2 s' t ht) | cases ht

/-- After a successful `set_power_spectrum_linear(k, pk)`, through any history of computations without `recompute`,
assignments of survey settings and of bias functions, the object holds exactly the uploaded samples and the range of
the uploaded wave numbers; whatever `power_spectrum` or `cross_spectrum` then return is evaluated on them. -/
theorem C71_upload_used_partial (N : Num) (k pk : List ℝ) (s s1 s2 : PyObj) (o : Out)
    (hup : exec N (.setPowerSpectrumLinear k pk) s = (.ok o, s1)) (ops : List Op)
    (hops : ∀ op ∈ ops, op.SparesSpectrum) (hrun : run N ops s1 = some s2) :
    s2.ps = some (k.zip pk) ∧ k.head? = some s2.par.k_min ∧ k.getLast? = some s2.par.k_max ∧
    ∀ two f q z1 z2 x s3, exec N (.spectrum two f q z1 z2) s2 = (.ok (.real x), s3) →
      ∃ b, s3.bg = some b ∧ x = f s2.par.pk_type (k.zip pk) b := by
  have h1 : s1.ps = some (k.zip pk) ∧ k.head? = some s1.par.k_min ∧ k.getLast? = some s1.par.k_max := by
    have h : setPowerSpectrumLinear k pk s = (.ok (), s1) := by
      have h0 := hup
      change (Coffe.setPowerSpectrumLinear k pk >>= fun _ => pure Out.unit) s = _ at h0
      rw [Py.bind_eq] at h0
      rcases hx : Coffe.setPowerSpectrumLinear k pk s with ⟨o', s'⟩
      rw [hx] at h0
      cases o' with
      | error e => simp at h0
      | ok a => rw [← (Prod.mk.inj h0).2]
    unfold setPowerSpectrumLinear at h
    by_cases ha : sortedUpToTolerance k
    swap
    · rw [if_pos ha] at h; cases h
    by_cases hb : k.length = pk.length
    swap
    · rw [if_neg (not_not.2 ha), if_pos hb] at h; cases h
    rw [if_neg (not_not.2 ha), if_neg (not_not.2 hb)] at h
    cases hk : k.head? with
    | none => rw [hk] at h; cases h
    | some a =>
      cases hl : k.getLast? with
      | none => rw [hk, hl] at h; cases h
      | some b =>
        rw [hk, hl] at h
        dsimp only at h
        by_cases hc : k.length < 5 ∨ ¬ k.Pairwise (· < ·)
        · rw [if_pos hc] at h; cases h
        · rw [if_neg hc] at h
          cases h
          exact ⟨rfl, rfl, rfl⟩
  obtain ⟨ha, hb, hc⟩ := run_spares N ops hops s1 s2 hrun (by rw [h1.1]; simp)
  have hps : s2.ps = some (k.zip pk) := ha.trans h1.1
  refine ⟨hps, by rw [hb]; exact h1.2.1, by rw [hc]; exact h1.2.2, ?_⟩
  intro two f q z1 z2 x s3 h
  have hs3 : s3.ps = some (k.zip pk) := by
    have := spectrumStays_stable.exec N (.spectrum two f q z1 z2) rfl s2 (by rw [hps]; simp)
    rw [h] at this
    exact this.1.trans hps
  have hpk : s3.par.pk_type = s2.par.pk_type := by
    have := ((sameButRange_stable false).exec N (.spectrum two f q z1 z2) rfl s2).1
    rw [h] at this
    have h := congrArg PyPar.pk_type this
    exact h
  change spectrumAt N two f q z1 z2 s2 = _ at h
  unfold spectrumAt at h
  rw [Py.bind_ok (Py.get_eq s2)] at h
  have peel : ∀ {α β : Type} {m : Py α} {g : α → Py β} {s t : PyObj} {y : β}, (m >>= g) s = (.ok y, t) →
      ∃ a s', m s = (.ok a, s') ∧ g a s' = (.ok y, t) := by
    intro α β m g s t y he
    rw [Py.bind_eq] at he
    rcases hx : m s with ⟨o', s'⟩
    rw [hx] at he
    cases o' with
    | error e => simp at he
    | ok a => exact ⟨a, s', rfl, he⟩
  obtain ⟨_, t1, -, h⟩ := peel h
  obtain ⟨_, t2, -, h⟩ := peel h
  obtain ⟨_, t3, -, h⟩ := peel h
  obtain ⟨_, t4, -, h⟩ := peel h
  obtain ⟨_, t5, -, h⟩ := peel h
  cases hbg : t5.bg with
  | none => rw [hbg] at h; cases h
  | some b =>
    cases hp : t5.ps with
    | none => rw [hbg, hp] at h; cases h
    | some ps =>
      rw [hbg, hp] at h
      dsimp only at h
      split_ifs at h
      · cases h
      · cases h
      obtain ⟨h4, h5⟩ := Prod.mk.inj h
      subst h5
      refine ⟨b, hbg, ?_⟩
      rw [hp] at hs3
      cases hs3
      rw [← hpk]
      simpa using h4.symm

/-- The default object after the upload of a constant spectrum. -/
noncomputable def uploaded (p : PyPar) : PyObj :=
  { fresh { p with k_min := 1, k_max := 5 } with ps := some ([1, 2, 3, 4, 5].zip [7, 7, 7, 7, 7]) }

theorem corrfunc_uploaded_true (p : PyPar) (hp : p.contrib.any = true) (hpk : p.pk_type = .COFFE_PK_LINEAR)
    (h1 : ¬ (p.mu = [] ∨ p.sep = [] ∨ p.z_mean = [])) (h5 : 5 ≤ p.background_bins)
    (hw : p.z_mean.length ≤ p.deltaz.length) : ∃ o t,
    exec wNum (.computeBulk .corrfunc true) (uploaded p) = (.ok o, t) ∧ t.ps = some [(1e-5, p.sigma8), (100, p.n_s)] := by
  show ∃ o t, computeCorrfuncBulk wNum true _ = _ ∧ _
  unfold computeCorrfuncBulk
  have e1 : checkCoordsCorrfunc (uploaded p) = (.ok (), uploaded p) := checkCoordsCorrfunc_ok _ h1
  have e2 : checkContributions (uploaded p) =
      (.ok (), (uploaded p).upd fun p => { p with divergent := p.divergent || p.contrib.divergent }) := by
    rw [checkContributions_eq]; exact if_neg (by simp [uploaded, fresh, hp])
  have e : ∀ {m : PyObj → Prop} {i : Py Unit} {s : PyObj}, ensure m true i s = i s := by
    intro m i s
    rw [ensure_eq, if_pos (Or.inr rfl)]
  have e3 : ∀ s : PyObj, s.par.sep ≠ [] → 5 ≤ s.par.background_bins → ensureBg wNum true s =
      (.ok (), { s with bg := some { wBg with comoving_distance := fun z => z / s.par.h } }) := fun s h1 h2 =>
    e.trans (backgroundInit_of (fun h => h1 h.2.2) (if_pos h2))
  have e4 : ∀ (s : PyObj) β (g : Unit → Py β), ∃ u, (ensurePs wNum true >>= g) s = g () u ∧ u.bg = s.bg ∧
      u.ps = some [(1e-5, s.par.sigma8), (100, s.par.n_s)] ∧ u.par.pk_type = s.par.pk_type ∧
        (u.par.RenormOob ↔ s.par.RenormOob) :=
    fun s β g => ⟨{ s with
      par := { s.par with k_min := max s.par.k_min 1e-5, k_max := min s.par.k_max 100 }
      ps := some [(1e-5, s.par.sigma8), (100, s.par.n_s)], cls := some [s.par.h], pk2d := s.par.has2d }, Py.bind_ok (e.trans rfl), rfl, rfl, rfl, Iff.rfl⟩
  have e5 : ∀ (s : PyObj) b ps β (g : Unit → Py β), s.bg = some b → s.ps = some ps →
      s.par.pk_type = .COFFE_PK_LINEAR → ¬ s.par.RenormOob → ∃ l, (ensureInts wNum true >>= g) s = g () { s with ints := l } :=
    fun s b ps β g hb hp hk hw =>
      ⟨_, Py.bind_ok (e.trans ((integralsInit_some _ _ _ _ hb hp).trans (if_neg fun h => h.elim (fun h => h.1 hk) hw)))⟩
  have e6 : ∀ (s : PyObj) b β (g : Unit → Py β), s.bg = some b →
      ∃ l, (ensure (fun s => s.cf = []) true (corrfuncInit wNum) >>= g) s = g () { s with cf := l } := by
    intro s b β g hb
    refine ⟨corrfuncRows wNum s b, Py.bind_ok (e.trans ?_)⟩
    unfold corrfuncInit
    rw [hb]
  rw [Py.bind_ok e1, Py.bind_ok e2, Py.bind_ok (e3 _ (fun h => h1 (Or.inr (Or.inl h))) h5)]
  obtain ⟨u, hu, hb, hu2, hu3, hu4⟩ := e4 { ((uploaded p).upd fun p => { p with
    divergent := p.divergent || p.contrib.divergent }) with
    bg := some { wBg with comoving_distance := fun z => z / p.h } } _ (fun _ => do
      ensureInts wNum true
      ensure (fun s => s.cf = []) true (corrfuncInit wNum)
      let s ← Py.get
      pure (Out.corrfunc s.cf))
  obtain ⟨l, hl⟩ := e5 u _ _ _ (fun _ => do
      ensure (fun s => s.cf = []) true (corrfuncInit wNum)
      let s ← Py.get
      pure (Out.corrfunc s.cf)) hb hu2 (hu3.trans hpk) (fun h => absurd (hu4.1 h).2 (not_lt.2 hw))
  obtain ⟨l', hl'⟩ := e6 { u with ints := l } _ _ (fun _ => do
      let s ← Py.get
      pure (Out.corrfunc s.cf)) hb
  exact ⟨_, _, hu.trans (hl.trans hl'), hu2⟩

/-- C71 fails with `recompute=True`: the uploaded spectrum is replaced by the one of CLASS. -/
theorem C71_recompute_false : ∃ (N : Num) (k pk : List ℝ) (t : PyObj),
    run N [.setPowerSpectrumLinear k pk, .computeBulk .corrfunc true] (fresh PyPar.default) = some t ∧
      t.ps ≠ none ∧ t.ps ≠ some (k.zip pk) := by
  obtain ⟨o, t, h, ht⟩ := corrfunc_uploaded_true PyPar.default rfl rfl (by simp [PyPar.default, generateRange])
    (by decide) (by simp [PyPar.default])
  refine ⟨wNum, [1, 2, 3, 4, 5], [7, 7, 7, 7, 7], t, ?_, by rw [ht]; simp, by rw [ht]; simp⟩
  rw [run_cons (wUpload _)]
  exact run_cons h

/-- C71 fails when another effect is switched on: the uploaded spectrum is lost, and the next computation runs CLASS. -/
theorem C71_effect_false : ∃ (N : Num) (k pk : List ℝ) (t u : PyObj),
    run N [.setPowerSpectrumLinear k pk, .setattr (.settable .has_d1) (.bool true)] (fresh PyPar.default) = some t ∧
      t.ps = none ∧ run N [.computeBulk .corrfunc false] t = some u ∧ u.ps ≠ none ∧ u.ps ≠ some (k.zip pk) := by
  set p : PyPar := { PyPar.default with
    k_min := 1, k_max := 5, contrib := { PyPar.default.contrib with d1 := true } } with hp
  have h2 := corrfunc_fresh (N := wNum) (p := p) (b := wB) (c := wC) rfl rfl rfl (by simp [p, PyPar.default, generateRange])
    (by simp [PyPar.RenormOob, PyPar.afterRun, p, PyPar.default])
  refine ⟨wNum, [1, 2, 3, 4, 5], [7, 7, 7, 7, 7], fresh p, _, ?_, rfl, run_cons h2, by simp [ready], ?_⟩
  · rw [run_cons (wUpload _)]
    exact run_cons (o := .unit) rfl
  · simp [ready, wC]

/-! ## C72 -/

/-- With numerical libraries that succeed, no call of a history of careful calls ends the process: each returns or
raises an exception. -/
theorem C72_alive_partial (N : Num) (hN : N.Total) (ops : List Op) (hc : CarefulRun N ops (fresh PyPar.default)) :
    ∃ s, run N ops (fresh PyPar.default) = some s := by
  obtain ⟨s, hs, -⟩ := run_alive N hN ops _ (Or.inr (Or.inl rfl)) hc
  exact ⟨s, hs⟩

/-- Assignments of other attributes keep the mean redshifts and the widths of the bins. -/
theorem setattr_widths (n : Name) (hn : n ≠ .z_mean ∧ n ≠ .deltaz) (v : PyVal) (s : PyObj) :
    (setattr n v s).2.par.z_mean = s.par.z_mean ∧ (setattr n v s).2.par.deltaz = s.par.deltaz :=
  setattr_post n v s (fun t => t.par.z_mean = s.par.z_mean ∧ t.par.deltaz = s.par.deltaz) ⟨rfl, rfl⟩ fun t ht => by
    have hc : ∀ {p : PyPar}, t.par = p → p.z_mean = s.par.z_mean ∧ p.deltaz = s.par.deltaz →
        t.par.z_mean = s.par.z_mean ∧ t.par.deltaz = s.par.deltaz := fun h h' => by rw [h]; exact h'
    cases n <;> first
      | exact absurd rfl hn.1
      | exact absurd rfl hn.2
      | exact ht.elim
      | (obtain ⟨x, hx⟩ := ht; exact hc hx ⟨rfl, rfl⟩)
      | (obtain ⟨x, hx | hx⟩ := ht <;> exact hc hx ⟨rfl, rfl⟩)

/-- The effects that need the divergent integral. -/
def divergentEffects : List Name := [.has_d2, .has_g1, .has_g2, .has_g3, .has_g4, .has_g5]

/-- Assignments of other attributes do not switch such an effect on. -/
theorem setattr_switch (n : Name) (hn : n ∉ divergentEffects) (v : PyVal) (s : PyObj) :
    (setattr n v s).2.par.divergent = s.par.divergent ∧
      (setattr n v s).2.par.contrib.divergent = s.par.contrib.divergent :=
  setattr_post n v s (fun t => t.par.divergent = s.par.divergent ∧ t.par.contrib.divergent = s.par.contrib.divergent)
    ⟨rfl, rfl⟩ fun t ht => by
    have hc : ∀ {p : PyPar}, t.par = p → p.divergent = s.par.divergent ∧ p.contrib.divergent = s.par.contrib.divergent →
        t.par.divergent = s.par.divergent ∧ t.par.contrib.divergent = s.par.contrib.divergent :=
      fun h h' => by rw [h]; exact h'
    cases n <;> first
      | exact absurd (by decide) hn
      | exact ht.elim
      | (obtain ⟨x, hx⟩ := ht; exact hc hx ⟨rfl, rfl⟩)
      | (obtain ⟨x, hx | hx⟩ := ht <;> exact hc hx ⟨rfl, rfl⟩)

/-- Assignments other than that of `background_sampling` keep the sampling of the background. -/
theorem setattr_bins (n : Name) (hn : n ≠ .background_sampling) (v : PyVal) (s : PyObj) :
    (setattr n v s).2.par.background_bins = s.par.background_bins :=
  setattr_post n v s (fun t => t.par.background_bins = s.par.background_bins) rfl fun t ht => by
    have hc : ∀ {p : PyPar}, t.par = p → p.background_bins = s.par.background_bins →
        t.par.background_bins = s.par.background_bins := fun h h' => by rw [h, h']
    cases n <;> first
      | exact absurd rfl hn
      | exact ht.elim
      | (obtain ⟨x, hx⟩ := ht; exact hc hx rfl)
      | (obtain ⟨x, hx | hx⟩ := ht <;> exact hc hx rfl)

/-- Assignments of settings other than those in `avoid`, reading the parameters, and the computations of the
correlation function and of the multipoles. -/
def Op.Plain (avoid : List Name) : Op → Prop
  | .setattr a _ => ∀ n ∈ avoid, a ≠ .settable n
  | .parameters => True
  | .computeBulk .corrfunc _ => True
  | .computeBulk .multipoles _ => True
  | .computeCorrfunc _ _ _ _ => True
  | .computeMultipole _ _ _ _ => True
  | _ => False

/-- What a property of the settings must satisfy to be kept by such calls. -/
theorem plain_keeps {avoid : List Name} {P : PyPar → Prop} (N : Num) (op : Op) (h : op.Plain avoid) (s : PyObj)
    (hset : ∀ n ∉ avoid, ∀ v, P s.par → P (setattr n v s).2.par)
    (hcomp : ∀ (op : Op) (re : Bool), op.computes = some re → P s.par → P (exec N op s).2.par) :
    P s.par → P (exec N op s).2.par := by
  cases op with
  | setattr a v =>
    cases a with
    | settable n =>
      have h1 := hset n (fun hh => h n hh rfl) v
      show _ → P ((setattr n v >>= fun _ => pure Out.unit) s).2.par
      rw [Py.bind_eq]
      rcases hx : setattr n v s with ⟨o, t⟩
      rw [hx] at h1
      cases o <;> exact h1
    | readonly => exact id
    | unknown => exact id
  | parameters =>
    have := Keeps.map (g := fun ps => Out.params ps) parameters_par s
    intro hp
    exact (show (exec N .parameters s).2.par = s.par from this) ▸ hp
  | computeBulk b re => exact hcomp _ _ rfl
  | computeCorrfunc z r mu re => exact hcomp _ _ rfl
  | computeMultipole z r l re => exact hcomp _ _ rfl
  | _ => exact h.elim

/-- A history of such calls is careful if the settings keep `P`. -/
theorem plain_careful {avoid : List Name} {P : PyPar → Prop} (N : Num) (hP : ∀ p, P p → 5 ≤ p.background_bins ∧ p.WidthsFine)
    (hset : ∀ n ∉ avoid, ∀ v (s : PyObj), P s.par → P (setattr n v s).2.par)
    (hcomp : ∀ (op : Op) (re : Bool) (s : PyObj), op.computes = some re → P s.par → P (exec N op s).2.par)
    (ops : List Op) (hops : ∀ op ∈ ops, op.Plain avoid) (s : PyObj) (hs : P s.par) : CarefulRun N ops s := by
  induction ops generalizing s with
  | nil => trivial
  | cons op ops ih =>
    have h1 := hops op List.mem_cons_self
    refine ⟨?_, ih (fun o ho => hops o (List.mem_cons_of_mem _ ho)) _
      (plain_keeps N op h1 s (fun n hn v => hset n hn v s) (fun o re => hcomp o re s) hs)⟩
    cases op with
    | setattr a v => trivial
    | parameters => trivial
    | computeBulk b re => cases b <;> first | exact hP _ hs | exact h1.elim
    | computeCorrfunc z r mu re => exact hP _ hs
    | computeMultipole z r l re => exact hP _ hs
    | _ => exact h1.elim

/-- In particular no assignment, with any value, to any attribute but `background_sampling`, `z_mean` and `deltaz`, no
reading of the parameters and no computation of the correlation function or of the multipoles needs any care: whatever
such a history is, the process is alive at its end. -/
theorem C72_plain_partial (N : Num) (hN : N.Total) (ops : List Op)
    (hops : ∀ op ∈ ops, op.Plain [.background_sampling, .z_mean, .deltaz]) :
    ∃ s, run N ops (fresh PyPar.default) = some s := by
  refine C72_alive_partial N hN ops (plain_careful (P := fun p => 5 ≤ p.background_bins ∧ p.z_mean.length ≤ p.deltaz.length)
    N (fun p h => ⟨h.1, fun _ => h.2⟩) (fun n hn v s h => ?_) (fun op re s hop h => ?_) ops hops _
    ⟨by decide, by simp [fresh, PyPar.default]⟩)
  · simp only [List.mem_cons, List.not_mem_nil, or_false, not_or] at hn
    obtain ⟨h1, h2⟩ := setattr_widths n ⟨hn.2.1, hn.2.2⟩ v s
    rw [setattr_bins n hn.1 v s, h1, h2]; exact h
  · have := ((sameButRange_stable re).exec N op hop s).1
    have h1 : (exec N op s).2.par.background_bins = s.par.background_bins := by
      have := congrArg PyPar.background_bins this
      exact this
    have h2 : (exec N op s).2.par.z_mean = s.par.z_mean := by
      have := congrArg PyPar.z_mean this
      exact this
    have h3 : (exec N op s).2.par.deltaz = s.par.deltaz := by
      have := congrArg PyPar.deltaz this
      exact this
    rw [h1, h2, h3]; exact h

/-- The internal switch is switched on only if an effect needs it. -/
def SwitchKept (s t : PyObj) : Prop :=
  s.par.divergent = false → s.par.contrib.divergent = false → t.par.divergent = false ∧ t.par.contrib.divergent = false

theorem switchKept_exec (N : Num) (op : Op) (re : Bool) (hop : op.computes = some re) (s : PyObj) :
    SwitchKept s (exec N op s).2 := by
  have H : Stable SwitchKept re := by
    constructor
    case refl => exact fun _ h h' => ⟨h, h'⟩
    case trans => exact fun h h' a b => h' (h a b).1 (h a b).2
    case div => exact fun s hd _ h => by rw [hd] at h; cases h
    all_goals intros; exact fun h h' => ⟨h, h'⟩
  exact H.exec N op hop s

/-- Nor does any assignment, with any value, to any attribute but `background_sampling` and the effects that need the
divergent integral. -/
theorem C72_plain_local_partial (N : Num) (hN : N.Total) (ops : List Op)
    (hops : ∀ op ∈ ops, op.Plain (.background_sampling :: divergentEffects)) :
    ∃ s, run N ops (fresh PyPar.default) = some s := by
  refine C72_alive_partial N hN ops (plain_careful (P := fun p => 5 ≤ p.background_bins ∧ p.divergent = false ∧
      p.contrib.divergent = false) N (fun p h => ⟨h.1, fun hh => ?_⟩) (fun n hn v s h => ?_) (fun op re s hop h => ?_) ops hops _
    ⟨by decide, rfl, rfl⟩)
  · rw [h.2.1, h.2.2] at hh
    rcases hh with hh | hh <;> cases hh
  · simp only [List.mem_cons, not_or] at hn
    obtain ⟨h1, h2⟩ := setattr_switch n hn.2 v s
    rw [setattr_bins n hn.1 v s, h1, h2]; exact h
  · have := ((sameButRange_stable re).exec N op hop s).1
    have h1 : (exec N op s).2.par.background_bins = s.par.background_bins := by
      have := congrArg PyPar.background_bins this
      exact this
    rw [h1]; exact ⟨h.1, switchKept_exec N op re hop s h.2.1 h.2.2⟩

theorem wNum_total : wNum.Total := by
  refine ⟨fun v => ?_, fun _ => ⟨_, rfl⟩⟩
  by_cases h : 5 ≤ v.background_bins
  · exact ⟨fun _ => h, fun _ => ⟨_, if_pos h⟩⟩
  · refine ⟨?_, fun h' => absurd h' h⟩
    rintro ⟨b, hb⟩
    rw [show wNum.background v = none from if_neg h] at hb
    cases hb

theorem run_crash {N : Num} {op : Op} {ops : List Op} {s : PyObj} {e : Err} (he : e = .abort ∨ e = .crash)
    (h : (exec N op s).1 = .error e) : run N (op :: ops) s = none := by
  unfold run
  rcases hx : exec N op s with ⟨o, s'⟩
  rw [hx] at h
  change o = _ at h
  subst h
  rcases he with rfl | rfl <;> rfl

/-- C72 fails: uploading a spectrum on a new object whose spectrum type is not `linear` and computing dereferences the
null pointer of the CLASS structures. -/
theorem C72_upload_false : ∃ N : Num, N.Total ∧ ∃ k pk : List ℝ, Interpolable k ∧
    run N [.setattr (.settable .pk_type) (.str "halofit"), .setPowerSpectrumLinear k pk, .computeBulk .corrfunc false]
      (fresh PyPar.default) = none := by
  refine ⟨wNum, wNum_total, [1, 2, 3, 4, 5], [7, 7, 7, 7, 7], Or.inr ⟨by simp, by simp; norm_num⟩, ?_⟩
  set p : PyPar := { PyPar.default with pk_type := .COFFE_PK_NONLINEAR_HALOFIT } with hp
  have h1 : exec wNum (.setattr (.settable .pk_type) (.str "halofit")) (fresh PyPar.default) = (.ok .unit, fresh p) := by
    have : pkOfStr "halofit" = some .COFFE_PK_NONLINEAR_HALOFIT := by decide
    have h : setattr .pk_type (.str "halofit") (fresh PyPar.default) = (.ok (), fresh p) := by
      unfold setattr checkDiscrete
      dsimp only
      rw [this]; rfl
    exact Py.bind_ok h
  rw [run_cons h1, run_cons (wUpload _)]
  refine run_crash (Or.inr rfl) ?_
  show (computeCorrfuncBulk wNum false (uploaded p)).1 = _
  unfold computeCorrfuncBulk
  have e1 : checkCoordsCorrfunc (uploaded p) = (.ok (), uploaded p) :=
    checkCoordsCorrfunc_ok _ (by simp [uploaded, fresh, p, PyPar.default, generateRange])
  have e2 : checkContributions (uploaded p) =
      (.ok (), (uploaded p).upd fun p => { p with divergent := p.divergent || p.contrib.divergent }) := by
    rw [checkContributions_eq]; exact if_neg (by simp [uploaded, fresh, p, PyPar.default, Contrib.any])
  rw [Py.bind_ok e1, Py.bind_ok e2,
    Py.bind_ok ((ensureBg_none _ _ (by rfl)).trans (backgroundInit_of (fun h => by cases h.1) rfl))]
  rw [Py.bind_ok (show ensurePs wNum false _ = (.ok (), _) from (ensure_eq _ _ _ _).trans (if_neg (by
    rintro (h | h)
    · cases h
    · cases h)))]
  rw [Py.bind_eq, ensureInts_none _ _ (by rfl), integralsInit_some _ _ _ _ rfl rfl]
  rw [if_pos (Or.inl ⟨by simp [uploaded, fresh, PyObj.upd, p], rfl⟩)]

theorem set_floats {n : Name} {l : List ℝ} {ok : ℝ → Prop} {f : List ℝ → PyPar → PyPar} {free : PyObj → PyObj} {N : Num}
    {s : PyObj} (h : setattr n (.floats l) = (do let x ← checkFloats (.floats l) ok; store (f x) free))
    (hl : ∀ x ∈ l, ok x) :
    exec N (.setattr (.settable n) (.floats l)) s = (.ok .unit, free (s.upd (f l))) := by
  have h1 : setattr n (.floats l) s = (.ok (), free (s.upd (f l))) := by
    rw [h]
    unfold checkFloats
    dsimp only
    rw [if_pos hl]; rfl
  exact Py.bind_ok h1

/-- C72 fails: with an effect that needs the divergent integral, two mean redshifts and the one width of a redshift bin that
a new object has, the correlation function reads behind the end of the list of widths. -/
theorem C72_widths_false : ∃ N : Num, N.Total ∧
    run N [.setattr (.settable .has_d2) (.bool true), .setattr (.settable .z_mean) (.floats [1, 2]),
      .computeBulk .corrfunc false] (fresh PyPar.default) = none := by
  refine ⟨wNum, wNum_total, ?_⟩
  rw [run_cons (o := .unit) rfl,
    run_cons (set_floats rfl (by intro x hx; simp at hx; rcases hx with rfl | rfl <;> norm_num))]
  refine run_crash (Or.inr rfl) ?_
  set p : PyPar := { PyPar.default with
    z_mean := [1, 2], contrib := { PyPar.default.contrib with d2 := true } } with hp
  exact corrfunc_oob (N := wNum) (p := p) (b := wB) (c := wC) rfl rfl rfl
    (by simp [p, PyPar.default, generateRange]) ⟨rfl, by simp [PyPar.afterRun, p, PyPar.default]⟩

/-- C72 fails: with fewer upper than lower ends of the redshift bins, `compute_average_multipoles_bulk` reads behind the
end of the list. -/
theorem C72_average_false : ∃ N : Num, N.Total ∧
    run N [.setattr (.settable .z_min) (.floats [1, 2]), .setattr (.settable .z_max) (.floats [1.5]),
      .computeBulk .average false] (fresh PyPar.default) = none := by
  refine ⟨wNum, wNum_total, ?_⟩
  rw [run_cons (set_floats rfl (by intro x hx; simp at hx; rcases hx with rfl | rfl <;> norm_num)),
    run_cons (set_floats rfl (by intro x hx; simp at hx; rw [hx]; norm_num))]
  refine run_crash (Or.inr rfl) ?_
  set p : PyPar := { PyPar.default with z_min := [1, 2], z_max := [1.5] } with hp
  show (computeAverageBulk wNum false (fresh p)).1 = _
  unfold computeAverageBulk
  rw [Py.bind_ok (checkCoordsAverage_ok _ (by simp [fresh, p, PyPar.default, generateRange])),
    prefix_fresh (N := wNum) (p := p) (b := wB) (c := wC) rfl rfl rfl (fun h => by cases h.1) (fun h => by cases h.1)
      (k := fun _ => _)]
  rw [Py.bind_eq, ensure_none _ _ (by rfl)]
  have : ∀ (s : PyObj) b, s.bg = some b → s.par.z_max.length < s.par.z_min.length →
      averageInit wNum s = (.error .crash, s) := by
    intro s b h1 h2
    unfold averageInit
    rw [h1]
    exact if_pos h2
  rw [this _ wB rfl (by simp [ready, fresh, PyPar.afterRun, p])]

/-- C72 fails: with a spectrum type other than `linear` and more redshift bins than mean redshifts,
`compute_average_covariance_bulk` passes its checks and indexes the integrals of the mean redshifts out of bounds. -/
theorem C72_average_covariance_false : ∃ N : Num, N.Total ∧
    run N [.setattr (.settable .pk_type) (.str "halofit"),
      .setattr (.settable .z_min) (.floats [1, 2]), .setattr (.settable .z_max) (.floats [1.5, 2.5]),
      .setattr (.settable .deltaz) (.floats [0.1, 0.1]),
      .setattr (.settable .number_density1) (.floats [0.1, 0.1]),
      .setattr (.settable .number_density2) (.floats [0.1, 0.1]),
      .setattr (.settable .pixelsize) (.floats [1, 1]), .setattr (.settable .fsky) (.floats [1, 1]),
      .computeBulk .averageCovariance false] (fresh PyPar.default) = none := by
  refine ⟨wNum, wNum_total, ?_⟩
  have h1 : exec wNum (.setattr (.settable .pk_type) (.str "halofit")) (fresh PyPar.default) =
      (.ok .unit, fresh { PyPar.default with pk_type := .COFFE_PK_NONLINEAR_HALOFIT }) := by
    have : pkOfStr "halofit" = some .COFFE_PK_NONLINEAR_HALOFIT := by decide
    have h : setattr .pk_type (.str "halofit") (fresh PyPar.default) =
        (.ok (), fresh { PyPar.default with pk_type := .COFFE_PK_NONLINEAR_HALOFIT }) := by
      unfold setattr checkDiscrete
      dsimp only
      rw [this]; rfl
    exact Py.bind_ok h
  rw [run_cons h1]
  rw [run_cons (set_floats rfl (by intro x hx; simp at hx; rcases hx with rfl | rfl <;> norm_num)),
    run_cons (set_floats rfl (by intro x hx; simp at hx; rcases hx with rfl | rfl <;> norm_num)),
    run_cons (set_floats rfl (by intro x hx; simp at hx; rw [hx]; norm_num)),
    run_cons (set_floats rfl (by intro x hx; simp at hx; rw [hx]; norm_num)),
    run_cons (set_floats rfl (by intro x hx; simp at hx; rw [hx]; norm_num)),
    run_cons (set_floats rfl (by intro x hx; simp at hx; rw [hx]; norm_num)),
    run_cons (set_floats rfl (by intro x hx; simp at hx; rw [hx]; norm_num))]
  refine run_crash (Or.inr rfl) ?_
  set p : PyPar := { PyPar.default with
    pk_type := .COFFE_PK_NONLINEAR_HALOFIT, z_min := [1, 2], z_max := [1.5, 2.5], deltaz := [0.1, 0.1]
    density1 := [0.1, 0.1], density2 := [0.1, 0.1], pixelsize := [1, 1], fsky := [1, 1] } with hp
  show (computeAverageCovarianceBulk wNum false (fresh p)).1 = _
  unfold computeAverageCovarianceBulk
  have e2 : checkContributions (fresh p) =
      (.ok (), (fresh p).upd fun p => { p with divergent := p.divergent || p.contrib.divergent }) := by
    rw [checkContributions_eq]; exact if_neg (by simp [fresh, p, PyPar.default, Contrib.any])
  rw [Py.bind_ok (checkCoordsMultipoles_ok _ (by simp [fresh, p, PyPar.default, generateRange])), Py.bind_ok e2,
    Py.bind_ok (Py.get_eq _)]
  rw [if_neg (by simp [fresh, p, PyObj.upd])]
  dsimp only
  rw [Py.bind_ok ((ensurePs_none _ _ (by rfl)).trans rfl),
    Py.bind_ok ((ensureBg_none _ _ (by rfl)).trans (backgroundInit_of (fun h => by cases h.1) rfl)),
    Py.bind_ok (Py.get_eq _)]
  rw [Py.bind_ok (checkBins_ok wNum _ _ rfl _ (by
    intro zd hz
    simp [fresh, p, PyObj.upd] at hz
    rcases hz with rfl | rfl <;> norm_num))]
  rw [Py.bind_eq, ensure_none _ _ (by rfl)]
  have : ∀ s b ps, s.bg = some b → s.ps = some ps → s.par.pk_type ≠ .COFFE_PK_LINEAR →
      s.par.z_mean.length < s.par.z_min.length → acovInit wNum s = (.error .crash, s) := by
    intro s b ps h1 h2 h3 h4
    unfold acovInit
    rw [h1, h2]
    exact if_pos ⟨h3, h4⟩
  rw [this _ _ _ rfl rfl (by simp [fresh, p, PyObj.upd]) (by simp [fresh, p, PyObj.upd, PyPar.default])]

/-- C72 fails: a bias function given by four samples ends the process instead of raising an exception. -/
theorem C72_spline_false : ∃ N : Num, N.Total ∧
    run N [.setBias .galaxy1 [0, 1, 2, 3] [1, 1, 1, 1]] (fresh PyPar.default) = none := by
  refine ⟨wNum, wNum_total, run_crash (Or.inl rfl) ?_⟩
  have h1 : checkSpline [0, 1, 2, 3] [1, 1, 1, 1] (fresh PyPar.default) = (.error .abort, fresh PyPar.default) := by
    unfold checkSpline
    rw [if_neg (not_not.2 (wSorted _ (by simp; norm_num))), if_neg (by simp)]
    simp only [List.head?_cons, List.getLast?_cons_cons, List.getLast?_singleton]
    rw [if_neg (by norm_num), if_neg (by norm_num), if_pos (by simp)]
    rfl
  show ((setBias .galaxy1 [0, 1, 2, 3] [1, 1, 1, 1] >>= fun _ => pure Out.unit) (fresh PyPar.default)).1 = _
  unfold setBias
  rw [Py.bind_eq, Py.bind_eq, h1]

/-- C72 fails: fewer than five samples of the background are accepted and end the process. -/
theorem C72_sampling_false (N : Num) (hN : N.Total) (n : ℤ) (h0 : 0 ≤ n) (h5 : n < 5) :
    run N [.setattr (.settable .background_sampling) (.int n), .computeBulk .corrfunc false] (fresh PyPar.default) = none := by
  set p : PyPar := { PyPar.default with background_bins := n } with hp
  have h1 : exec N (.setattr (.settable .background_sampling) (.int n)) (fresh PyPar.default) = (.ok .unit, fresh p) := by
    have h : setattr .background_sampling (.int n) (fresh PyPar.default) = (.ok (), fresh p) := by
      unfold setattr checkInt
      dsimp only
      rw [if_neg (by omega), if_neg (by omega)]
      rfl
    exact Py.bind_ok h
  rw [run_cons h1]
  refine run_crash (Or.inl rfl) ?_
  show (computeCorrfuncBulk N false (fresh p)).1 = _
  unfold computeCorrfuncBulk
  have e2 : checkContributions (fresh p) =
      (.ok (), (fresh p).upd fun p => { p with divergent := p.divergent || p.contrib.divergent }) := by
    rw [checkContributions_eq]; exact if_neg (by simp [fresh, p, PyPar.default, Contrib.any])
  rw [Py.bind_ok (checkCoordsCorrfunc_ok _ (by simp [fresh, p, PyPar.default, generateRange])), Py.bind_ok e2]
  have e3 : N.background p.bgView = none := by
    cases hb : N.background p.bgView with
    | none => rfl
    | some b => exact absurd ((hN.background _).1 ⟨b, hb⟩) (not_le.2 h5)
  rw [Py.bind_eq, ensureBg_none _ _ (by rfl), backgroundInit_eq, if_neg (fun h => by cases h.1),
    show (((fresh p).upd fun p => { p with divergent := p.divergent || p.contrib.divergent }).par.bgView) = p.bgView from rfl,
    e3]

/-- C72 fails: with the "flat-sky nonlocal" terms switched on and no separations, asking for the comoving distance reads
in front of the list of separations. -/
theorem C72_no_separation_false (N : Num) (f : Bg → ℝ → ℝ) :
    run N [.setattr (.settable .has_flatsky_nonlocal) (.bool true), .setattr (.settable .sep) (.floats []),
      .background f 0] (fresh PyPar.default) = none := by
  rw [run_cons (s' := fresh { PyPar.default with flatsky_nonlocal := true }) (o := .unit) rfl,
    run_cons (set_floats rfl (by simp))]
  refine run_crash (Or.inr rfl) ?_
  show (backgroundAt N f 0 (fresh { PyPar.default with flatsky_nonlocal := true, sep := [] })).1 = _
  unfold backgroundAt
  rw [Py.bind_ok (checkReal_ok (le_refl _) (by norm_num) _)]
  exact congrArg Prod.fst (Py.bind_err (f := fun _ => _) (by
    rw [ensureBg_none _ _ (by rfl), backgroundInit_eq, if_pos ⟨rfl, by simp [fresh, PyPar.default], rfl⟩]))

/-- C72 fails: an odd sampling of the covariance is accepted and, with FFTLog, ends the process. -/
theorem C72_fftlog_false (N : Num) (hN : N.Total) :
    run N [.setattr (.settable .covariance_integration_method) (.str "fftlog"),
      .setattr (.settable .covariance_integration_sampling) (.int 8001), .computeBulk .covariance false]
      (fresh PyPar.default) = none := by
  set p : PyPar := { PyPar.default with
    covariance_integration_method := .fftlog, covariance_integration_bins := 8001 } with hp
  have h1 : exec N (.setattr (.settable .covariance_integration_method) (.str "fftlog")) (fresh PyPar.default) =
      (.ok .unit, fresh { PyPar.default with covariance_integration_method := .fftlog }) := by
    have : covMethodOfStr "fftlog" = some .fftlog := by decide
    have h : setattr .covariance_integration_method (.str "fftlog") (fresh PyPar.default) =
        (.ok (), fresh { PyPar.default with covariance_integration_method := .fftlog }) := by
      unfold setattr checkDiscrete
      dsimp only
      rw [this]; rfl
    exact Py.bind_ok h
  have h2 : exec N (.setattr (.settable .covariance_integration_sampling) (.int 8001))
      (fresh { PyPar.default with covariance_integration_method := .fftlog }) = (.ok .unit, fresh p) := by
    have h : setattr .covariance_integration_sampling (.int 8001)
        (fresh { PyPar.default with covariance_integration_method := .fftlog }) = (.ok (), fresh p) := by
      unfold setattr checkInt
      dsimp only
      rw [if_neg (by decide), if_neg (by decide)]; rfl
    exact Py.bind_ok h
  rw [run_cons h1, run_cons h2]
  refine run_crash (Or.inl rfl) ?_
  show (computeCovarianceBulk N false (fresh p)).1 = _
  unfold computeCovarianceBulk
  have e2 : checkContributions (fresh p) =
      (.ok (), (fresh p).upd fun p => { p with divergent := p.divergent || p.contrib.divergent }) := by
    rw [checkContributions_eq]; exact if_neg (by simp [fresh, p, PyPar.default, Contrib.any])
  obtain ⟨b, hb⟩ := (hN.background p.bgView).2 (by decide)
  obtain ⟨c, hc⟩ := hN.classRun p.classView
  rw [Py.bind_ok (checkCoordsMultipoles_ok _ (by simp [fresh, p, PyPar.default, generateRange])), Py.bind_ok e2,
    Py.bind_ok (Py.get_eq _)]
  rw [if_neg (by simp [fresh, p, PyObj.upd, PyPar.default])]
  dsimp only
  have e3 : ensurePs N false ((fresh p).upd fun p => { p with divergent := p.divergent || p.contrib.divergent }) =
      (.ok (), { fresh (p.afterRun c) with ps := some c.spectrum, cls := some c.cls, pk2d := p.has2d }) := by
    rw [ensurePs_none _ _ (by rfl), powerSpectrumInit_eq]
    show (match N.classRun p.classView with | some c => _ | none => _) = _
    rw [hc]; rfl
  have e4 : ensureBg N false { fresh (p.afterRun c) with ps := some c.spectrum, cls := some c.cls, pk2d := p.has2d } =
      (.ok (), readyCov p b c) := by
    rw [ensureBg_none _ _ (by rfl)]
    exact backgroundInit_of (fun hf => by cases hf.1) hb
  rw [Py.bind_ok e3, Py.bind_ok e4, Py.bind_ok (Py.get_eq _),
    Py.bind_ok (checkBins_ok N (readyCov p b c) b rfl ((readyCov p b c).par.z_mean.zip (readyCov p b c).par.deltaz) (by
      intro zd hz
      simp [readyCov, fresh, p, PyPar.afterRun, PyPar.default] at hz
      rw [hz]; norm_num))]
  rw [Py.bind_eq, ensure_none _ _ (by rfl)]
  have : covInit N (readyCov p b c) = (.error .abort, readyCov p b c) := by
    unfold covInit
    rfl
  rw [this]

/-- C72 fails: `maximum_separation` accepts a bin that ends beyond redshift 15, where the tables end. -/
theorem C72_separation_false (N : Num) (hN : N.Total) :
    run N [.maximumSeparation 10 10] (fresh PyPar.default) = none := by
  refine run_crash (Or.inl rfl) ?_
  obtain ⟨b, hb⟩ := (hN.background PyPar.default.bgView).2 (by decide)
  have h := C44_table_false.1 N (fresh PyPar.default) 10 10 (by norm_num) (by norm_num) (by norm_num) (by norm_num)
    (by norm_num) (fun h => by cases h.1) rfl ⟨b, hb⟩
  show ((Coffe.maximumSeparation N 10 10 >>= fun x => pure (Out.real x)) (fresh PyPar.default)).1 = _
  rw [Py.bind_eq]
  rcases hx : Coffe.maximumSeparation N 10 10 (fresh PyPar.default) with ⟨o, t⟩
  rw [hx] at h
  change o = _ at h
  rw [h]

/-- The last step of `power_spectrum` and `cross_spectrum`. -/
noncomputable def readSpectrum (two : Bool) (f : PkType → Spectrum → Bg → ℝ) (k z1 : ℝ) : Py Out := fun s =>
  match s.bg, s.ps with
  | some b, some ps =>
    if two = true ∧ s.par.pk_type ≠ .COFFE_PK_LINEAR ∧ s.pk2d = false then (.error .crash, s)
    else if ps.Outside k ∨ (two = true ∧ s.par.pk_type ≠ .COFFE_PK_LINEAR ∧ z1 > 2.97) then (.error .abort, s)
    else (.ok (.real (f s.par.pk_type ps b)), s)
  | _, _ => (.error .crash, s)

theorem spectrumAt_eq (N : Num) (two : Bool) (f : PkType → Spectrum → Bg → ℝ) (k z1 z2 : ℝ) (s : PyObj) :
    spectrumAt N two f k z1 z2 s = (checkReal k s.par.k_min s.par.k_max >>= fun _ => checkReal z1 0 15 >>= fun _ =>
      checkReal z2 0 15 >>= fun _ => ensurePs N false >>= fun _ => ensureBg N false >>= fun _ =>
      readSpectrum two f k z1) s := rfl

theorem spectrum_class (N : Num) (p : PyPar) (b : Bg) (c : ClassOut) (hb : N.background p.bgView = some b)
    (hc : N.classRun p.classView = some c) (ho : ¬ p.FitOob) (two : Bool) (f : PkType → Spectrum → Bg → ℝ) (k z : ℝ)
    (h1 : p.k_min ≤ k) (h2 : k ≤ p.k_max) (h3 : 0 ≤ z) (h4 : z ≤ 15) :
    (exec N (.spectrum two f k z z) (fresh p)).1 =
      if two = true ∧ p.pk_type ≠ .COFFE_PK_LINEAR ∧ p.has2d = false then .error .crash
      else if c.spectrum.Outside k ∨ (two = true ∧ p.pk_type ≠ .COFFE_PK_LINEAR ∧ z > 2.97) then .error .abort
      else .ok (.real (f p.pk_type c.spectrum b)) := by
  show (spectrumAt N two f k z z (fresh p)).1 = _
  rw [spectrumAt_eq, Py.bind_ok (show checkReal k (fresh p).par.k_min (fresh p).par.k_max _ = _ from checkReal_ok h1 h2 _), Py.bind_ok (checkReal_ok h3 h4 _),
    Py.bind_ok (checkReal_ok h3 h4 _)]
  have e3 : ensurePs N false (fresh p) = (.ok (), { fresh { p with
      k_min := max p.k_min c.k_first, k_max := min p.k_max c.k_last } with
      ps := some c.spectrum, cls := some c.cls, pk2d := p.has2d }) := by
    rw [ensurePs_none _ _ (by rfl), powerSpectrumInit_eq]
    show (match N.classRun p.classView with | some c => _ | none => _) = _
    rw [hc]; rfl
  rw [Py.bind_ok e3, Py.bind_ok ((ensureBg_none _ _ (by rfl)).trans (backgroundInit_of ho hb))]
  dsimp only [fresh, readSpectrum]
  split_ifs <;> rfl

theorem spectrum_state (N : Num) (p : PyPar) (b : Bg) (c : ClassOut) (hb : N.background p.bgView = some b)
    (hc : N.classRun p.classView = some c) (ho : ¬ p.FitOob) (two : Bool) (f : PkType → Spectrum → Bg → ℝ) (k z : ℝ)
    (h1 : p.k_min ≤ k) (h2 : k ≤ p.k_max) (h3 : 0 ≤ z) (h4 : z ≤ 15) :
    (exec N (.spectrum two f k z z) (fresh p)).2 = { fresh { p with
      k_min := max p.k_min c.k_first, k_max := min p.k_max c.k_last } with
      bg := some b, ps := some c.spectrum, cls := some c.cls, pk2d := p.has2d } := by
  show (spectrumAt N two f k z z (fresh p)).2 = _
  rw [spectrumAt_eq, Py.bind_ok (show checkReal k (fresh p).par.k_min (fresh p).par.k_max _ = _ from checkReal_ok h1 h2 _),
    Py.bind_ok (checkReal_ok h3 h4 _), Py.bind_ok (checkReal_ok h3 h4 _)]
  have e3 : ensurePs N false (fresh p) = (.ok (), { fresh { p with
      k_min := max p.k_min c.k_first, k_max := min p.k_max c.k_last } with
      ps := some c.spectrum, cls := some c.cls, pk2d := p.has2d }) := by
    rw [ensurePs_none _ _ (by rfl), powerSpectrumInit_eq]
    show (match N.classRun p.classView with | some c => _ | none => _) = _
    rw [hc]; rfl
  rw [Py.bind_ok e3, Py.bind_ok ((ensureBg_none _ _ (by rfl)).trans (backgroundInit_of ho hb))]
  dsimp only [fresh, readSpectrum]
  split_ifs <;> rfl

/-- C72 fails: `cross_spectrum` compares the wave number with the requested range, then CLASS, run by the same call,
covers less, and the look-up outside its samples ends the process.  Asked again, the same call would raise an
exception. -/
theorem C72_range_false : ∃ N : Num, N.Total ∧ ∀ f,
    run N [.spectrum false f 200 0 0] (fresh PyPar.default) = none := by
  refine ⟨wNum, wNum_total, fun f => run_crash (Or.inl rfl) ?_⟩
  rw [spectrum_class wNum PyPar.default wB wC rfl rfl (fun h => by cases h.1) false f 200 0
    (by norm_num [PyPar.default]) (by norm_num [PyPar.default]) (by norm_num) (by norm_num), if_neg (by simp),
    if_pos (Or.inl (by norm_num [Spectrum.Outside, wC]))]

/-- C72 fails: `power_spectrum` of a type other than `linear` accepts redshifts up to 15, but its table ends near 3. -/
theorem C72_redshift_false (N : Num) (hN : N.Total) (f : PkType → Spectrum → Bg → ℝ) :
    run N [.setattr (.settable .pk_type) (.str "halofit"), .spectrum true f 1 5 5] (fresh PyPar.default) = none := by
  set p : PyPar := { PyPar.default with pk_type := .COFFE_PK_NONLINEAR_HALOFIT } with hp
  have h1 : exec N (.setattr (.settable .pk_type) (.str "halofit")) (fresh PyPar.default) = (.ok .unit, fresh p) := by
    have : pkOfStr "halofit" = some .COFFE_PK_NONLINEAR_HALOFIT := by decide
    have h : setattr .pk_type (.str "halofit") (fresh PyPar.default) = (.ok (), fresh p) := by
      unfold setattr checkDiscrete
      dsimp only
      rw [this]; rfl
    exact Py.bind_ok h
  rw [run_cons h1]
  refine run_crash (Or.inl rfl) ?_
  obtain ⟨b, hb⟩ := (hN.background p.bgView).2 (by decide)
  obtain ⟨c, hc⟩ := hN.classRun p.classView
  rw [spectrum_class N p b c hb hc (fun h => by cases h.1) true f 1 5 (by norm_num [p, PyPar.default])
    (by norm_num [p, PyPar.default]) (by norm_num) (by norm_num), if_neg (fun h => by cases h.2.2),
    if_pos (Or.inr ⟨rfl, by simp [p], by norm_num⟩)]

/-- C72 fails: after an upload on an object whose spectrum type is not `linear`, `power_spectrum` reads a table that was
never made. -/
theorem C72_table_false : ∃ (k pk : List ℝ), Interpolable k ∧ ∀ f,
    run wNum [.setattr (.settable .pk_type) (.str "halofit"), .setPowerSpectrumLinear k pk, .spectrum true f 2 1 1]
      (fresh PyPar.default) = none := by
  refine ⟨[1, 2, 3, 4, 5], [7, 7, 7, 7, 7], Or.inr ⟨by simp, by simp; norm_num⟩, fun f => ?_⟩
  set p : PyPar := { PyPar.default with pk_type := .COFFE_PK_NONLINEAR_HALOFIT } with hp
  have h1 : exec wNum (.setattr (.settable .pk_type) (.str "halofit")) (fresh PyPar.default) = (.ok .unit, fresh p) := by
    have : pkOfStr "halofit" = some .COFFE_PK_NONLINEAR_HALOFIT := by decide
    have h : setattr .pk_type (.str "halofit") (fresh PyPar.default) = (.ok (), fresh p) := by
      unfold setattr checkDiscrete
      dsimp only
      rw [this]; rfl
    exact Py.bind_ok h
  rw [run_cons h1, run_cons (wUpload _)]
  refine run_crash (Or.inr rfl) ?_
  show (spectrumAt wNum true f 2 1 1 (uploaded p)).1 = _
  rw [spectrumAt_eq, Py.bind_ok (checkReal_ok (by norm_num [uploaded, fresh]) (by norm_num [uploaded, fresh]) _),
    Py.bind_ok (checkReal_ok (by norm_num) (by norm_num) _), Py.bind_ok (checkReal_ok (by norm_num) (by norm_num) _)]
  rw [Py.bind_ok (show ensurePs wNum false (uploaded p) = (.ok (), _) from (ensure_eq _ _ _ _).trans (if_neg (by
    rintro (h | h)
    · cases h
    · cases h)))]
  rw [Py.bind_ok ((ensureBg_none _ _ (by rfl)).trans (backgroundInit_of (b := wB) (fun h => by cases h.1) rfl))]
  dsimp only [uploaded, fresh, readSpectrum]
  rw [if_pos ⟨rfl, by simp [p], rfl⟩]

/-- C72 fails: `integral` accepts separations up to 25000, but the table ends where the ratio of the wave numbers of the
spectrum ends it. -/
theorem C72_integral_false : ∃ N : Num, N.Total ∧ run N [.integral 10 0 0] (fresh PyPar.default) = none := by
  refine ⟨{ wNum with top := fun _ => 5 }, ⟨wNum_total.1, wNum_total.2⟩, run_crash (Or.inl rfl) ?_⟩
  show (integralAt { wNum with top := fun _ => 5 } 10 0 0 (fresh PyPar.default)).1 = _
  unfold integralAt
  rw [Py.bind_ok (checkReal_ok (by norm_num) (by norm_num) _), Py.bind_ok (checkReal_ok (by norm_num) (by norm_num) _),
    Py.bind_ok (checkReal_ok (by norm_num) (by norm_num) _),
    Py.bind_ok ((ensureBg_none _ _ (by rfl)).trans (backgroundInit_of (b := wB) (fun h => by cases h.1) rfl)),
    Py.bind_ok ((ensurePs_none _ _ (by rfl)).trans rfl),
    Py.bind_ok ((ensureInts_none _ _ (by rfl)).trans ((integralsInit_some _ _ wB wC.spectrum rfl rfl).trans
      (if_neg (fun h => h.elim (fun h => h.1 rfl) fun h => by cases h.1)))), Py.bind_ok (Py.get_eq _)]
  dsimp only
  rw [find_zero]
  dsimp only
  rw [if_pos (by norm_num)]
  rfl

/-! ## Non-vacuity -/

/-- The history "upload, assign a separation, compute" meets the hypotheses of `C71_upload_used_partial`, and that of
assignments, upload, computations those of `C72_alive_partial`. -/
example : (∀ op ∈ [Op.setattr (.settable .sep) (.floats [3]), .computeBulk .corrfunc false], op.SparesSpectrum) ∧
    (∃ s1, exec wNum (.setPowerSpectrumLinear [1, 2, 3, 4, 5] [7, 7, 7, 7, 7]) (fresh PyPar.default) = (.ok .unit, s1)) ∧
    CarefulRun wNum [.setPowerSpectrumLinear [1, 2, 3, 4, 5] [7, 7, 7, 7, 7], .setattr (.settable .sep) (.floats [3]),
      .setBias .galaxy1 [0, 1, 2, 3, 4] [2, 2, 2, 2, 2], .computeBulk .covariance true] (fresh PyPar.default) ∧
    CarefulRun wNum [.spectrum true (fun _ _ _ => 0) 2 1 1, .maximumSeparation 1 0.5] (fresh PyPar.default) := by
  refine ⟨?_, ⟨_, wUpload _⟩, ⟨⟨Or.inr ⟨by simp, by simp; norm_num⟩, Or.inl rfl⟩, trivial,
    Or.inr ⟨by simp, by simp; norm_num⟩, ?_, trivial⟩, ⟨⟨by decide, fun h => by cases h⟩, ?_, fun _ => Or.inl rfl⟩, ?_, trivial⟩
  rotate_left
  · rw [wUpload, set_floats (n := .sep) rfl (by intro x hx; simp at hx; rw [hx]; norm_num), wBias]
    refine ⟨by decide, (show PyPar.EvenSampling _ ∧ _ from ⟨fun h => (by cases h), ?_⟩)⟩
    intro zd hz
    change zd ∈ [((1 : ℝ), (0.2 : ℝ))] at hz
    have : zd = (1, 0.2) := by simpa using hz
    rw [this]; norm_num
  · intro ps hps
    rw [spectrum_state wNum PyPar.default wB wC rfl rfl (fun h => by cases h.1) _ _ 2 1
      (by norm_num [PyPar.default]) (by norm_num [PyPar.default]) (by norm_num) (by norm_num)] at hps
    cases hps
    norm_num [Spectrum.Outside, wC]
  · rw [spectrum_state wNum PyPar.default wB wC rfl rfl (fun h => by cases h.1) _ _ 2 1
      (by norm_num [PyPar.default]) (by norm_num [PyPar.default]) (by norm_num) (by norm_num)]
    exact ⟨⟨by decide, fun h => by cases h⟩, by norm_num⟩
  intro op hop
  simp only [List.mem_cons, List.not_mem_nil, or_false] at hop
  rcases hop with rfl | rfl
  · exact Or.inr (Or.inl ⟨.sep, by simp [surveySettings], _, rfl⟩)
  · exact Or.inl rfl

end Coffe
