import Verif.Proofs.PyHistory2

/-! # Helper lemmas: safe histories keep the caches coherent -/

namespace Coffe
open Classical

/-- Every cache of the second object is that of the first or empty. -/
structure Shrinks (s s' : PyObj) : Prop where
  bg : s'.bg = s.bg ∨ s'.bg = none
  ps : s'.ps = s.ps ∨ s'.ps = none
  ints : s'.ints = s.ints ∨ s'.ints = []
  cf : s'.cf = s.cf ∨ s'.cf = []
  mp : s'.mp = s.mp ∨ s'.mp = []
  amp : s'.amp = s.amp ∨ s'.amp = []
  cov : s'.cov = s.cov ∨ s'.cov = []
  acov : s'.acov = s.acov ∨ s'.acov = []
  cls : s'.cls = s.cls

theorem Shrinks.refl (s : PyObj) : Shrinks s s :=
  ⟨Or.inl rfl, Or.inl rfl, Or.inl rfl, Or.inl rfl, Or.inl rfl, Or.inl rfl, Or.inl rfl, Or.inl rfl, rfl⟩

theorem Shrinks.trans {s t u : PyObj} (h : Shrinks s t) (h' : Shrinks t u) : Shrinks s u where
  bg := h'.bg.elim (fun e => h.bg.imp (e.trans ·) (e.trans ·)) Or.inr
  ps := h'.ps.elim (fun e => h.ps.imp (e.trans ·) (e.trans ·)) Or.inr
  ints := h'.ints.elim (fun e => h.ints.imp (e.trans ·) (e.trans ·)) Or.inr
  cf := h'.cf.elim (fun e => h.cf.imp (e.trans ·) (e.trans ·)) Or.inr
  mp := h'.mp.elim (fun e => h.mp.imp (e.trans ·) (e.trans ·)) Or.inr
  amp := h'.amp.elim (fun e => h.amp.imp (e.trans ·) (e.trans ·)) Or.inr
  cov := h'.cov.elim (fun e => h.cov.imp (e.trans ·) (e.trans ·)) Or.inr
  acov := h'.acov.elim (fun e => h.acov.imp (e.trans ·) (e.trans ·)) Or.inr
  cls := h'.cls.trans h.cls

theorem Shrinks.onlyBg {s s' : PyObj} (h : Shrinks s s') (hs : s.OnlyBg) : s'.OnlyBg where
  ps := h.ps.elim (·.trans hs.ps) id
  ints := h.ints.elim (·.trans hs.ints) id
  cf := h.cf.elim (·.trans hs.cf) id
  mp := h.mp.elim (·.trans hs.mp) id
  amp := h.amp.elim (·.trans hs.amp) id
  cov := h.cov.elim (·.trans hs.cov) id
  acov := h.acov.elim (·.trans hs.acov) id

/-- Closes `Shrinks s (free (s.upd f))` for a concrete `free`. -/
macro "shrinks" : tactic => `(tactic| (constructor <;> first | exact Or.inl rfl | exact Or.inr rfl | rfl))

theorem shrinks_store {s : PyObj} {f : PyPar → PyPar} {free : PyObj → PyObj}
    (h : Shrinks s (free (s.upd f)) := by shrinks) : Post (Shrinks s) (store f free) s := h

theorem setattr_shrinks (n : Name) (v : PyVal) (s : PyObj) : Post (Shrinks s) (setattr n v) s := by
  have h := Shrinks.refl s
  cases n <;> unfold setattr <;> dsimp only
  case verbose => exact shrinks_store
  case has_only_cross_correlations => exact shrinks_store
  case omega_cdm =>
    exact Post.guarded h fun x => Post.bind_still still_get h fun _ =>
      Post.bind_still (still_checkOmegas _) h fun _ => shrinks_store
  case omega_m =>
    exact Post.guarded h fun x => Post.bind_still still_get h fun _ =>
      Post.bind_still (still_checkOmegas _) h fun _ => shrinks_store
  case omega_baryon =>
    exact Post.guarded h fun x => Post.bind_still still_get h fun _ =>
      Post.bind_still (still_checkOmegas _) h fun _ => shrinks_store
  case omega_gamma =>
    exact Post.guarded h fun x => Post.bind_still still_get h fun _ =>
      Post.bind_still (still_checkOmegas _) h fun _ => shrinks_store
  case h => exact Post.guarded h fun x => shrinks_store
  case w0 => exact Post.guarded h fun x => shrinks_store
  case wa => exact Post.guarded h fun x => shrinks_store
  case n_s => exact Post.guarded h fun x => shrinks_store
  case T_cmb => exact Post.guarded h fun x => shrinks_store
  case N_ur => exact Post.guarded h fun x => shrinks_store
  case YHe => exact Post.guarded h fun x => shrinks_store
  case N_ncdm =>
    refine Post.bind_still (still_checkInt _ _ _) h fun x => Post.bind_still still_get h fun _ => ?_
    split_ifs
    · exact h
    · exact shrinks_store
  case m_ncdm =>
    refine Post.guarded h fun x => ?_
    unfold Post
    rw [Py.bind_eq]
    dsimp only [store, Py.modify_eq]
    rw [Py.bind_eq]
    dsimp only [Py.get_eq]
    split_ifs
    · shrinks
    · shrinks
  case sigma8 => exact Post.guarded h fun x => shrinks_store
  case A_s => exact Post.bind_still (still_checkParameter _ _ _ _) h fun x => shrinks_store
  case k_per_decade_for_bao => exact Post.bind_still (still_toDouble _) h fun x => shrinks_store
  case k_per_decade_for_pk => exact Post.bind_still (still_toDouble _) h fun x => shrinks_store
  case start_large_k_at_tau_h_over_tau_k => exact Post.bind_still (still_toDouble _) h fun x => shrinks_store
  case l_max_g => exact Post.bind_still (still_toInt _) h fun x => shrinks_store
  case l_max_ur => exact Post.bind_still (still_toInt _) h fun x => shrinks_store
  case tol_perturb_integration => exact Post.bind_still (still_toDouble _) h fun x => shrinks_store
  case radiation_streaming_trigger_tau_over_tau_k =>
    exact Post.bind_still (still_toDouble _) h fun x => shrinks_store
  case ur_fluid_trigger_tau_over_tau_k => exact Post.bind_still (still_toDouble _) h fun x => shrinks_store
  case sep => exact Post.bind_still (still_checkFloats _ _) h fun x => shrinks_store
  case mu => exact Post.bind_still (still_checkFloats _ _) h fun x => shrinks_store
  case integrals_fftlog_sampling => exact Post.bind_still (still_checkInt _ _ _) h fun x => h
  case l => exact Post.bind_still (still_checkMultipoles _) h fun x => shrinks_store
  case z_mean => exact Post.bind_still (still_checkFloats _ _) h fun x => shrinks_store
  case z_min => exact Post.bind_still (still_checkFloats _ _) h fun x => shrinks_store
  case z_max => exact Post.bind_still (still_checkFloats _ _) h fun x => shrinks_store
  case number_density1 => exact Post.bind_still (still_checkFloats _ _) h fun x => shrinks_store
  case number_density2 => exact Post.bind_still (still_checkFloats _ _) h fun x => shrinks_store
  case covariance_populations => exact Post.bind_still (still_checkPopulations _) h fun x => shrinks_store
  case covariance_cosmic => exact shrinks_store
  case covariance_mixed => exact shrinks_store
  case covariance_poisson => exact shrinks_store
  case covariance_integration_method =>
    exact Post.bind_still (still_checkDiscrete _ _ _) h fun x => shrinks_store
  case covariance_integration_sampling => exact Post.bind_still (still_checkInt _ _ _) h fun x => shrinks_store
  case covariance_interpolation_method =>
    exact Post.bind_still (still_checkDiscrete _ _ _) h fun x => shrinks_store
  case pixelsize => exact Post.bind_still (still_checkFloats _ _) h fun x => shrinks_store
  case fsky => exact Post.bind_still (still_checkFloats _ _) h fun x => shrinks_store
  case deltaz => exact Post.bind_still (still_checkFloats _ _) h fun x => shrinks_store
  case integration_1d_type => exact Post.bind_still (still_checkDiscrete _ _ _) h fun x => shrinks_store
  case integration_1d_prec => exact Post.bind_still (still_checkParameter _ _ _ _) h fun x => shrinks_store
  case integration_sampling => exact Post.bind_still (still_checkInt _ _ _) h fun x => shrinks_store
  case background_sampling => exact Post.bind_still (still_checkInt _ _ _) h fun x => shrinks_store
  case has_binned_covariance => exact shrinks_store
  case has_density => exact shrinks_store
  case has_rsd => exact shrinks_store
  case has_lensing => exact shrinks_store
  case has_d1 => exact shrinks_store
  case has_d2 => exact shrinks_store
  case has_g1 => exact shrinks_store
  case has_g2 => exact shrinks_store
  case has_g3 => exact shrinks_store
  case has_g4 => exact shrinks_store
  case has_g5 => exact shrinks_store
  case has_flatsky_local => exact shrinks_store
  case has_flatsky_local_nonlocal => exact shrinks_store
  case has_flatsky_nonlocal => exact shrinks_store
  case pk_type => exact Post.bind_still (still_checkDiscrete _ _ _) h fun x => shrinks_store
  case k_min => exact Post.bind_still (still_checkParameter _ _ _ _) h fun x => shrinks_store
  case k_max => exact Post.bind_still (still_checkParameter _ _ _ _) h fun x => shrinks_store

theorem safeSet_of_onlyBg {s : PyObj} (h : s.OnlyBg) (n : Name) : SafeSet s n := by
  cases n <;> simp only [SafeSet] <;>
    first
      | trivial
      | exact ⟨h.amp, h.cov, h.acov⟩
      | exact h.amp
      | exact ⟨Or.inl h.ints, Or.inl h.acov⟩
      | exact Or.inl h.ints
      | exact Or.inr h

theorem setAttr_coherent {N : Num} {s : PyObj} (a : Attr) (v : PyVal) (h : Coherent N s)
    (hs : ∀ n, a = .settable n → SafeSet s n) : Post (Coherent N) (setAttr a v) s := by
  cases a with
  | settable n => exact setattr_coherent n v h (hs n rfl)
  | readonly => exact h
  | unknown => exact h

theorem setAll_coherent {N : Num} (kvs : List (Attr × PyVal)) :
    ∀ s, Coherent N s → SafeSets s kvs → Post (Coherent N) (kvs.forM fun kv => setAttr kv.1 kv.2) s := by
  induction kvs with
  | nil => intro s h _; exact h
  | cons kv kvs ih =>
    intro s h hs
    simp only [List.forM]
    unfold Post
    rw [Py.bind_eq]
    obtain ⟨a, v⟩ := kv
    cases a with
    | settable n =>
      have h1 := setattr_coherent n v h hs.1
      have h2 := hs.2
      simp only [setAttr]
      unfold Post at h1
      rcases e : setattr n v s with ⟨o, s'⟩
      rw [e] at h1 h2
      cases o with
      | error e => exact h1
      | ok a => exact ih s' h1 h2
    | readonly => exact h
    | unknown => exact h

theorem setParameters_coherent {N : Num} {s : PyObj} (kvs : List (Attr × PyVal)) (h : Coherent N s)
    (hs : SafeSets s kvs) : Post (Coherent N) (setParameters kvs) s := by
  unfold setParameters
  dsimp only
  split_ifs
  · exact h
  · exact setAll_coherent kvs s h hs

theorem parametersLoop_onlyBg {N : Num} (ns : List Name) :
    ∀ s, Coherent N s ∧ s.OnlyBg → Post (fun s => Coherent N s ∧ s.OnlyBg) (parametersLoop ns) s := by
  induction ns with
  | nil => intro s h; exact h
  | cons n ns ih =>
    rintro s ⟨h, hb⟩
    unfold parametersLoop Post
    rw [Py.bind_eq]
    have h1 := setattr_coherent n (getattr s.par n) h (safeSet_of_onlyBg hb n)
    have h2 := (setattr_shrinks n (getattr s.par n) s).onlyBg hb
    unfold Post at h1
    unfold parametersStep
    rcases e : setattr n (getattr s.par n) s with ⟨o, s'⟩
    rw [e] at h1 h2
    have key : ∀ x : List (Name × PyVal), (fun s => Coherent N s ∧ s.OnlyBg)
        ((parametersLoop ns >>= fun b => pure (x ++ b)) s').2 := by
      intro x
      have := ih s' ⟨h1, h2⟩
      unfold Post at this
      rw [Py.bind_eq]
      rcases e : parametersLoop ns s' with ⟨o, s''⟩
      rw [e] at this
      cases o <;> exact this
    cases o with
    | ok a => exact key _
    | error x => cases x <;> first | exact key _ | exact ⟨h1, h2⟩

theorem parameters_coherent {N : Num} {s : PyObj} (h : Coherent N s) :
    Post (Coherent N) parameters s := by
  unfold parameters Name.all parametersLoop Post
  rw [Py.bind_eq]
  unfold parametersStep
  have h1 := setattr_coherent (N := N) (s := s) .A_s (getattr s.par .A_s) h trivial
  unfold Post at h1
  have h2 : ∀ s', setattr .A_s (getattr s.par .A_s) s = (.ok (), s') → s'.OnlyBg := by
    intro s' e
    simp only [setattr, getattr, checkParameter, PyVal.asKind] at e
    rw [Py.bind_eq] at e
    split_ifs at e
    · simp [Py.raise] at e
    · simp [Py.raise] at e
    · have := (Prod.mk.inj e).2
      rw [← this]
      exact ⟨rfl, rfl, rfl, rfl, rfl, rfl, rfl⟩
  have h3 : ∀ s' e, setattr .A_s (getattr s.par .A_s) s = (.error e, s') → e = .valueError := by
    intro s' e' e
    simp only [setattr, getattr, checkParameter, PyVal.asKind] at e
    rw [Py.bind_eq] at e
    split_ifs at e
    · simp [Py.raise] at e; exact e.1.symm
    · simp [Py.raise] at e; exact e.1.symm
    · simp [Py.pure_eq, store, Py.modify] at e
  rcases e : setattr .A_s (getattr s.par .A_s) s with ⟨o, s'⟩
  rw [e] at h1
  cases o with
  | error x =>
    have := h3 _ _ e
    subst this
    exact h1
  | ok a =>
    dsimp only
    rw [Py.bind_eq]
    have h4 := parametersLoop_onlyBg (N := N) Name.all.tail s' ⟨h1, h2 _ e⟩
    unfold Post at h4
    rcases e' : parametersLoop Name.all.tail s' with ⟨o, s''⟩
    rw [e'] at h4
    simp only [Name.all, List.tail] at e'
    rw [e']
    cases o <;> exact h4.1

theorem flags_safe {s : PyObj} {n : Name} (h : n ∈ Name.flags) : SafeSet s n := by
  simp only [Name.flags, List.mem_cons, List.not_mem_nil, or_false] at h
  rcases h with rfl | rfl | rfl | rfl | rfl | rfl | rfl | rfl | rfl | rfl | rfl | rfl | rfl | rfl | rfl <;>
    trivial

theorem resetContributions_coherent {N : Num} {s : PyObj} (h : Coherent N s) :
    Post (Coherent N) resetContributions s := by
  unfold resetContributions Post
  rw [Py.bind_eq]
  have h1 := parameters_coherent h
  unfold Post at h1
  rcases hx : parameters s with ⟨o, s'⟩
  rw [hx] at h1
  cases o with
  | error e => exact h1
  | ok ps =>
    dsimp only at h1 ⊢
    have : ∀ (l : List (Name × PyVal)), (∀ kv ∈ l, kv.1 ∈ Name.flags) → ∀ s, Coherent N s →
        Post (Coherent N) (l.forM fun kv => setattr kv.1 (.bool false)) s := by
      intro l
      induction l with
      | nil => intro _ s h; exact h
      | cons kv l ih =>
        intro hl s h
        simp only [List.forM]
        unfold Post
        rw [Py.bind_eq]
        have h1 := setattr_coherent kv.1 (.bool false) h (flags_safe (hl kv (by simp)))
        unfold Post at h1
        rcases hx : setattr kv.1 (.bool false) s with ⟨o, s'⟩
        rw [hx] at h1
        cases o with
        | error e => exact h1
        | ok a => exact ih (fun kv h => hl kv (by simp [h])) s' h1
    refine this _ ?_ s' h1
    intro kv hkv
    simpa using (List.mem_filter.1 hkv).2

theorem still_checkSpline (x y : List ℝ) : Still (checkSpline x y) := by
  intro s
  unfold checkSpline
  cases x.head? <;> cases x.getLast? <;> dsimp only <;> split_ifs <;> rfl

theorem setBias_coherent {N : Num} {s : PyObj} (n : BiasName) (x y : List ℝ) (h : Coherent N s)
    (hs : SafeBias s n) : Post (Coherent N) (setBias n x y) s := by
  unfold setBias
  refine Post.bind_still (still_checkSpline _ _) h fun sp => ?_
  have hbg : s.bg = none → Post (Coherent N)
      (store (fun p => { p with bias := p.bias.put n sp }) fun s => s.freeCf.freeMp) s := by
    intro hb
    obtain ⟨p0, up, h⟩ := h
    obtain ⟨h1, h2, h3, h4, h5, h6⟩ := h.noBg hb
    refine ⟨{ p0 with bias := p0.bias.put n sp }, up, ?_, ?_, h.ps, Or.inl h1, Or.inl rfl, Or.inl rfl,
      Or.inl h4, Or.inl h5, Or.inl h6⟩
    · show ({ s.par with bias := s.par.bias.put n sp } : PyPar).core = _
      rw [core_eq h.core]; rfl
    · intro b hb'
      have : s.bg = some b := hb'
      rw [hb] at this; simp at this
  cases n
  case galaxy1 => exact coh_store h (hamp := Or.inl hs.1) (hcov := Or.inl hs.2.1) (hacov := Or.inl hs.2.2)
  case galaxy2 => exact coh_store h (hamp := Or.inl hs.1) (hcov := Or.inl hs.2.1) (hacov := Or.inl hs.2.2)
  case galaxy3 => exact coh_store h (hcov := Or.inl hs.1) (hacov := Or.inl hs.2)
  case galaxy4 => exact coh_store h (hcov := Or.inl hs.1) (hacov := Or.inl hs.2)
  case magnification1 => exact hbg hs
  case magnification2 => exact hbg hs
  case evolution1 => exact hbg hs
  case evolution2 => exact hbg hs

theorem setPowerSpectrumLinear_fine {N : Num} {s : PyObj} (k pk : List ℝ) (h : Coherent N s)
    (hs : SafeOp s (.setPowerSpectrumLinear k pk)) : Fine N (setPowerSpectrumLinear k pk) s := by
  obtain ⟨hr, hpk, hk⟩ := hs
  have h0 := h
  obtain ⟨p0, up, h⟩ := h
  refine Tri.fine (P := fun t => t = s) (Q := Coherent N) ?_ (fun _ h => h) rfl
  unfold setPowerSpectrumLinear
  dsimp only
  by_cases c1 : ¬ sortedUpToTolerance k
  · rw [if_pos c1]; exact Tri.raise_bind fun _ e => e ▸ h0
  rw [if_neg c1]
  by_cases c2 : k.length ≠ pk.length
  · rw [if_pos c2]; exact Tri.raise_bind fun _ e => e ▸ h0
  rw [if_neg c2]
  rintro t rfl
  have empty : k = [] ∨ ∃ a b, k.head? = some a ∧ k.getLast? = some b := by
    cases k with
    | nil => exact Or.inl rfl
    | cons x xs => exact Or.inr ⟨x, _, rfl, List.getLast?_cons ..⟩
  rcases empty with rfl | ⟨a, b, ha, hb⟩
  · have hi : t.ints = [] := by rcases hk with h | h <;> [exact absurd rfl h; exact h]
    exact Or.inr ⟨_, _, rfl, Or.inr (Or.inr
      ⟨_, none, coh_onlyBg h.bg ⟨rfl, hi, hr.cf, hr.mp, hr.amp, hr.cov, hr.acov⟩⟩)⟩
  · rw [ha, hb]
    dsimp only
    by_cases c3 : k.length < 5 ∨ ¬ k.Pairwise (· < ·)
    · rw [if_pos c3]
      exact Or.inr ⟨_, _, rfl, Or.inl rfl⟩
    · rw [if_neg c3]
      refine Or.inl ⟨(), _, rfl, ⟨{ t.par with k_min := a, k_max := b }, some (k.zip pk), rfl, h.bg,
          Or.inl ⟨rfl, rfl, rfl, fun _ => hpk⟩, Or.inl rfl, Or.inl hr.cf, Or.inl hr.mp, Or.inl hr.amp,
          Or.inl hr.cov, Or.inl hr.acov⟩⟩

/-- Single-point computations. -/
theorem point_fine {N : Num} {s : PyObj} {re : Bool} {c : Py Unit} {x1 a1 b1 x2 a2 b2 x3 a3 b3 : ℝ}
    {z r mu : ℝ} {l : ℕ} {out : OutputType} (hc : Still c) (h : Coherent N s) (hs : re = true → s.NoResults) :
    Fine N (do
      c
      checkContributions
      ensureBg N re
      ensurePs N re
      ensureInts N re
      checkReal x1 a1 b1
      checkReal x2 a2 b2
      checkReal x3 a3 b3
      signalHere N z r mu l out) s := by
  have tail : ∀ (P : PyObj → Prop), (∀ s, P s → Coherent N s) → (∀ s, P s → ∃ b, s.bg = some b) →
      Tri N P (do
        checkReal x1 a1 b1
        checkReal x2 a2 b2
        checkReal x3 a3 b3
        signalHere N z r mu l out) (Coherent N) := by
    intro P hP hb
    refine Tri.bind (Tri.still (still_checkReal _ _ _) hP) fun _ =>
      Tri.bind (Tri.still (still_checkReal _ _ _) hP) fun _ =>
      Tri.bind (Tri.still (still_checkReal _ _ _) hP) fun _ => ?_
    intro s hs
    obtain ⟨b, e⟩ := hb s hs
    refine Or.inl ⟨.real (signalAt N s b z 0 0 r mu l out), s, ?_, hP s hs⟩
    simp only [signalHere, e]
  cases re
  · refine Tri.fine (P := Coherent N) (Q := Coherent N) ?_ (fun _ h => h) h
    refine Tri.bind (Tri.still hc fun _ h => h) fun _ => ?_
    refine (prefix_tri N (fun _ _ _ _ _ => True) (k := fun _ => _) ?_).mono (fun _ h => ⟨h, trivial⟩) fun _ h => h
    exact tail _ (fun s h => h.1) fun s h => h.2.2.2.2
  · have hs := hs rfl
    refine Tri.fine (P := fun s => Coherent N s ∧ s.cf = [] ∧ s.mp = [] ∧ s.amp = [] ∧ s.cov = [] ∧ s.acov = [])
      (Q := Coherent N) ?_ (fun _ h => h) ⟨h, hs.cf, hs.mp, hs.amp, hs.cov, hs.acov⟩
    refine Tri.bind (Tri.still hc fun _ h => h.1) fun _ => ?_
    refine prefix_tri_re N (fun a b c d e => a = [] ∧ b = [] ∧ c = [] ∧ d = [] ∧ e = []) (k := fun _ => _) ?_
    exact tail _ (fun s ⟨h, hd, ht, ⟨a1, a2, a3, a4, a5⟩, hb⟩ =>
      coh_build h ht hd (Or.inl a1) (Or.inl a2) (Or.inl a3) a4 a5) fun s h => h.2.2.2.2

theorem ensureBg_tri0 (N : Num) : Tri N (Coherent N) (ensureBg N false)
    (fun s => Coherent N s ∧ ∃ b, s.bg = some b) :=
  (ensureBg_tri N false (fun _ _ _ _ _ _ _ => True)).mono (fun _ h => ⟨h, trivial⟩) fun _ h => ⟨h.1, h.2.2⟩

theorem maximumSeparation_fine {N : Num} {s : PyObj} (z dz : ℝ) (h : Coherent N s) :
    Fine N (maximumSeparation N z dz) s := by
  refine Tri.fine (P := Coherent N) (Q := Coherent N) ?_ (fun _ h => h) h
  unfold maximumSeparation
  refine Tri.bind (Tri.still (still_checkReal _ _ _) fun _ h => h) fun _ =>
    Tri.bind (Tri.still (still_checkReal _ _ _) fun _ h => h) fun _ =>
    Tri.bind (ensureBg_tri0 N) fun _ => ?_
  rintro s ⟨h, b, hb⟩
  by_cases hz : z + dz > 15
  · exact Or.inr ⟨.abort, s, by simp only [hb]; rw [if_pos hz], Or.inl rfl⟩
  exact Or.inl ⟨2 * (b.comoving_distance (z + dz) - b.comoving_distance z), s, by simp only [hb]; rw [if_neg hz], h⟩

theorem backgroundAt_fine {N : Num} {s : PyObj} (f : Bg → ℝ → ℝ) (z : ℝ) (h : Coherent N s) :
    Fine N (backgroundAt N f z) s := by
  refine Tri.fine (P := Coherent N) (Q := Coherent N) ?_ (fun _ h => h) h
  unfold backgroundAt
  refine Tri.bind (Tri.still (still_checkReal _ _ _) fun _ h => h) fun _ =>
    Tri.bind (ensureBg_tri0 N) fun _ => ?_
  rintro s ⟨h, b, hb⟩
  exact Or.inl ⟨.real (f b z), s, by simp only [hb], h⟩

theorem spectrumAt_fine {N : Num} {s : PyObj} (two : Bool) (f : PkType → Spectrum → Bg → ℝ) (k z1 z2 : ℝ)
    (h : Coherent N s) : Fine N (spectrumAt N two f k z1 z2) s := by
  refine Tri.fine (P := Coherent N) (Q := Coherent N) ?_ (fun _ h => h) h
  unfold spectrumAt
  refine Tri.get fun s0 => Tri.bind (Tri.still (still_checkReal _ _ _) fun _ h => h) fun _ =>
    Tri.bind (Tri.still (still_checkReal _ _ _) fun _ h => h) fun _ =>
    Tri.bind (Tri.still (still_checkReal _ _ _) fun _ h => h) fun _ => ?_
  refine covPrefix_tri N ?_
  rintro s ⟨h, ⟨b, hb⟩, ps, hp⟩
  by_cases h1 : two = true ∧ s.par.pk_type ≠ .COFFE_PK_LINEAR ∧ s.pk2d = false
  · exact Or.inr ⟨.crash, s, by simp only [hb, hp]; rw [if_pos h1], Or.inr (Or.inl rfl)⟩
  by_cases h2 : ps.Outside k ∨ (two = true ∧ s.par.pk_type ≠ .COFFE_PK_LINEAR ∧ z1 > 2.97)
  · exact Or.inr ⟨.abort, s, by simp only [hb, hp]; rw [if_neg h1, if_pos h2], Or.inl rfl⟩
  exact Or.inl ⟨.real (f s.par.pk_type ps b), s, by simp only [hb, hp]; rw [if_neg h1, if_neg h2], h⟩

theorem integralAt_fine {N : Num} {s : PyObj} (r : ℝ) (n l : ℤ) (h : Coherent N s)
    (hd : DivOk s) : Fine N (integralAt N r n l) s := by
  refine Tri.fine (P := fun s => Coherent N s ∧ DivOk s) (Q := Coherent N) ?_ (fun _ h => h) ⟨h, hd⟩
  unfold integralAt
  refine Tri.bind (Tri.still (still_checkReal _ _ _) fun _ h => h.1) fun _ =>
    Tri.bind (Tri.still (still_checkReal _ _ _) fun _ h => h.1) fun _ =>
    Tri.bind (Tri.still (still_checkReal _ _ _) fun _ h => h.1) fun _ => ?_
  refine Tri.bind ((ensureBg_tri N false (fun c d _ _ _ _ _ => c.divergent = true → d = true)).mono
    (fun s h => h) fun s h => h) fun _ => ?_
  refine Tri.bind ((ensurePs_tri N (fun c d _ _ _ _ _ => c.divergent = true → d = true)
    (fun b => ∃ x, b = some x)).mono (fun s h => h) fun s h => h) fun _ => ?_
  refine Tri.bind ((ensureInts_tri N (fun _ _ _ _ _ _ _ => True)).mono
    (fun s h => ⟨h.1, h.2.1, trivial, h.2.2⟩) fun s h => h.1) fun _ => ?_
  refine Tri.get fun s => ?_
  cases coffe_find_integral s.ints ⟨n, l, .int, .int⟩ with
  | none => exact Tri.raise _ fun _ h => h
  | some e =>
    dsimp only
    split_ifs
    · exact Tri.raise _ fun _ h => h
    · exact Tri.still (still_pure _) fun _ h => h

theorem Fine.map {α β : Type} {N : Num} {m : Py α} {s : PyObj} (f : α → β) (h : Fine N m s) :
    Fine N (m >>= fun a => pure (f a)) s := by
  intro o s' e h1 h2
  rw [Py.bind_eq] at e
  rcases hm : m s with ⟨o', s''⟩
  rw [hm] at e
  cases o' with
  | ok a =>
    rw [← (Prod.mk.inj e).2]
    exact h _ _ hm (by simp) (by simp)
  | error x =>
    obtain ⟨rfl, rfl⟩ := Prod.mk.inj e
    exact h _ _ hm (by simpa using h1) (by simpa using h2)

/-- Every safe call keeps the caches coherent. -/
theorem exec_fine {N : Num} {s : PyObj} (op : Op) (h : Coherent N s) (hs : SafeOp s op) :
    Fine N (exec N op) s := by
  cases op with
  | setattr a v =>
    refine Fine.map (fun _ => Out.unit) (Post.fine (setAttr_coherent a v h ?_))
    rintro n rfl; exact hs
  | setParameters kvs => exact Fine.map (fun _ => Out.unit) (Post.fine (setParameters_coherent kvs h hs))
  | parameters => exact Fine.map Out.params (Post.fine (parameters_coherent h))
  | resetContributions => exact Fine.map (fun _ => Out.unit) (Post.fine (resetContributions_coherent h))
  | setBias n x y => exact Fine.map (fun _ => Out.unit) (Post.fine (setBias_coherent n x y h hs))
  | setPowerSpectrumLinear k pk =>
    exact Fine.map (fun _ => Out.unit) (setPowerSpectrumLinear_fine k pk h hs)
  | computeBulk b re => exact computeBulk_fine N b re s h hs
  | computeCorrfunc z r mu re => exact point_fine still_coordsC h hs
  | computeMultipole z r l re => exact point_fine still_coordsM h hs
  | integral r n l => exact integralAt_fine r n l h hs
  | maximumSeparation z dz => exact Fine.map Out.real (maximumSeparation_fine z dz h)
  | background f z => exact backgroundAt_fine f z h
  | spectrum two f k z1 z2 => exact spectrumAt_fine two f k z1 z2 h

theorem run_coherent {N : Num} (ops : List Op) : ∀ (s : PyObj), Coherent N s → SafeRun N ops s →
    ∀ s', run N ops s = some s' → Coherent N s' := by
  induction ops with
  | nil => intro s h _ s' e; simp only [run, Option.some.injEq] at e; rw [← e]; exact h
  | cons op ops ih =>
    rintro s h ⟨h1, h2⟩ s' e
    unfold run at e
    rcases hx : exec N op s with ⟨o, t⟩
    rw [hx] at e
    by_cases ha : o = .error .abort
    · subst ha; simp at e
    by_cases hc : o = .error .crash
    · subst hc; simp at e
    have e' : run N ops t = some s' := by
      cases o with
      | ok a => exact e
      | error x => cases x <;> first | exact e | exact absurd rfl ha | exact absurd rfl hc
    exact ih t (exec_fine op h h1 _ _ hx ha hc) (h2 _ _ hx ha hc) s' e'

end Coffe
