import Verif.Proofs.PyCoherent

/-! # Helper lemmas: safe assignments keep the caches coherent -/

namespace Coffe
open Classical

/-- The switch is on if needed. -/
def DivOk (s : PyObj) : Prop := s.par.contrib.divergent = true → s.par.divergent = true

theorem coh_store {N : Num} {s : PyObj} {f : PyPar → PyPar} {free : PyObj → PyObj} (h : Coherent N s)
    (hbg : (free (s.upd f)).bg = s.bg := by rfl)
    (hps : (free (s.upd f)).ps = s.ps := by rfl)
    (hcls : (free (s.upd f)).cls = s.cls := by rfl)
    (hpar : (free (s.upd f)).par = f s.par := by rfl)
    (hbv : (f s.par).bgView = s.par.bgView := by rfl)
    (hcv : ∀ p, (f p).classView = p.classView := by intro p; rfl)
    (hcore : ∀ p d a b, f { p with divergent := d, k_min := a, k_max := b } =
      { f p with divergent := d, k_min := a, k_max := b } := by intros; rfl)
    (hdiv : DivOk s → DivOk (free (s.upd f)) := by exact fun h => h)
    (hint : (free (s.upd f)).ints = [] ∨
      ((free (s.upd f)).ints = s.ints ∧ (TabOk N s → TabOk N (free (s.upd f)))) := by
        first
          | exact Or.inl rfl
          | exact Or.inr ⟨rfl, tabOk_upd rfl rfl rfl rfl rfl (fun h => h) fun _ _ => rfl⟩)
    (hsig : (free (s.upd f)).ints = [] → s.ints = [] ∨ ((free (s.upd f)).cf = [] ∧
      (free (s.upd f)).mp = [] ∧ (free (s.upd f)).amp = []) := by
        first
          | exact fun _ => Or.inr ⟨rfl, rfl, rfl⟩
          | exact fun h => Or.inl h)
    (hcf : (free (s.upd f)).cf = [] ∨
      ((free (s.upd f)).cf = s.cf ∧ ∀ b, corrfuncRows N (free (s.upd f)) b = corrfuncRows N s b) := by
        first | exact Or.inl rfl | exact Or.inr ⟨rfl, fun _ => rfl⟩)
    (hmp : (free (s.upd f)).mp = [] ∨
      ((free (s.upd f)).mp = s.mp ∧ ∀ b, multipoleRows N (free (s.upd f)) b = multipoleRows N s b) := by
        first | exact Or.inl rfl | exact Or.inr ⟨rfl, fun _ => rfl⟩)
    (hamp : (free (s.upd f)).amp = [] ∨
      ((free (s.upd f)).amp = s.amp ∧ (f s.par).z_max = s.par.z_max ∧ (f s.par).z_min = s.par.z_min ∧
        ∀ b, averageRows N (free (s.upd f)) b = averageRows N s b) := by
        first | exact Or.inl rfl | exact Or.inr ⟨rfl, rfl, rfl, fun _ => rfl⟩)
    (hcov : (free (s.upd f)).cov = [] ∨
      ((free (s.upd f)).cov = s.cov ∧ (f s.par).covBad = s.par.covBad ∧
        ∀ ps b, covRows N (f s.par) ps b = covRows N s.par ps b) := by
        first | exact Or.inl rfl | exact Or.inr ⟨rfl, rfl, fun _ _ => rfl⟩)
    (hacov : (free (s.upd f)).acov = [] ∨
      ((free (s.upd f)).acov = s.acov ∧
        (¬ (s.par.pk_type ≠ .COFFE_PK_LINEAR ∧ s.par.z_mean.length < s.par.z_min.length) →
          ¬ ((f s.par).pk_type ≠ .COFFE_PK_LINEAR ∧ (f s.par).z_mean.length < (f s.par).z_min.length)) ∧
        (f s.par).covBad = s.par.covBad ∧ ∀ ps b, acovRows N (f s.par) ps b = acovRows N s.par ps b) := by
        first | exact Or.inl rfl | exact Or.inr ⟨rfl, fun h => h, rfl, fun _ _ => rfl⟩) :
    Post (Coherent N) (store f free) s := by
  obtain ⟨p0, up, h⟩ := h
  have key : ∀ p q : PyPar, p.core = q.core → (f p).core = (f q).core := by
    intro p q e
    have e2 : f q = { f p with divergent := q.divergent, k_min := q.k_min, k_max := q.k_max } :=
      (congrArg f (core_eq e)).trans (hcore p _ _ _)
    rw [e2]; rfl
  have hkmin : ∀ p, (f p).k_min = p.k_min := fun p => congrArg ClassView.k_min (hcv p)
  have hkmax : ∀ p, (f p).k_max = p.k_max := fun p => congrArg ClassView.k_max (hcv p)
  have hpk : ∀ p, (f p).pk_type = p.pk_type := fun p => congrArg ClassView.pk_type (hcv p)
  have htab : ∀ x : Prop, ((free (s.upd f)).ints = [] → x) → TabOk N s → x ∨ TabOk N (free (s.upd f)) := by
    intro x hx ht
    rcases hint with h | ⟨-, h⟩
    · exact Or.inl (hx h)
    · exact Or.inr (h ht)
  have tabNe : TabOk N s → s.ints ≠ [] := by
    rintro ⟨b, ps, -, -, -, hi⟩ he
    rw [hi] at he
    simp [integrals_init, baseKeys] at he
  refine ⟨f p0, up, ?_⟩
  show Coh N (free (s.upd f)) (f p0) up
  refine ⟨?_, ?_, ?_, ?_, ?_, ?_, ?_, ?_, ?_⟩
  · rw [hpar]; exact key _ _ h.core
  · intro b hb
    rw [hbg] at hb
    rw [hpar, hbv]; exact h.bg b hb
  · rw [hps, hpar, hcls, hkmin, hkmax, hkmin, hkmax, hcv, hpk]
    exact h.ps
  · rcases h.ints with hi | ⟨ht, hd⟩
    · rcases hint with h | ⟨h, -⟩
      · exact Or.inl h
      · left; rw [h, hi]
    · rcases hint with h | ⟨h, h'⟩
      · exact Or.inl h
      · exact Or.inr ⟨h' ht, hdiv hd⟩
  · rcases hcf with e | ⟨e, hr⟩
    · exact Or.inl e
    rcases h.cf with hc | ⟨ht, hd, b, hb, hc⟩
    · left; rw [e, hc]
    · rcases htab _ hsig ht with (h' | h') | h'
      · exact absurd h' (tabNe ht)
      · exact Or.inl h'.1
      · exact Or.inr ⟨h', hdiv hd, b, by rw [hbg, hb], by rw [e, hr, hc]⟩
  · rcases hmp with e | ⟨e, hr⟩
    · exact Or.inl e
    rcases h.mp with hc | ⟨ht, hd, b, hb, hc⟩
    · left; rw [e, hc]
    · rcases htab _ hsig ht with (h' | h') | h'
      · exact absurd h' (tabNe ht)
      · exact Or.inl h'.2.1
      · exact Or.inr ⟨h', hdiv hd, b, by rw [hbg, hb], by rw [e, hr, hc]⟩
  · rcases hamp with e | ⟨e, e1, e2, hr⟩
    · exact Or.inl e
    rcases h.amp with hc | ⟨ht, hd, hz, b, hb, hc⟩
    · left; rw [e, hc]
    · rcases htab _ hsig ht with (h' | h') | h'
      · exact absurd h' (tabNe ht)
      · exact Or.inl h'.2.2
      · exact Or.inr ⟨h', hdiv hd, by rw [hpar, e1, e2]; exact hz, b, by rw [hbg, hb], by rw [e, hr, hc]⟩
  · rcases hcov with e | ⟨e, he, hr⟩
    · exact Or.inl e
    rcases h.cov with hc | ⟨b, ps, hb, hp, hbad, hc⟩
    · left; rw [e, hc]
    · exact Or.inr ⟨b, ps, by rw [hbg, hb], by rw [hps, hp], by rw [hpar, he, hbad], by rw [e, hpar, hr, hc]⟩
  · rcases hacov with e | ⟨e, hz, he, hr⟩
    · exact Or.inl e
    rcases h.acov with hc | ⟨hz', b, ps, hb, hp, hbad, hc⟩
    · left; rw [e, hc]
    · exact Or.inr ⟨by rw [hpar]; exact hz hz', b, ps, by rw [hbg, hb], by rw [hps, hp],
        by rw [hpar, he, hbad], by rw [e, hpar, hr, hc]⟩

theorem coh_storeAll {N : Num} {s : PyObj} {f : PyPar → PyPar} :
    Post (Coherent N) (store f PyObj.freeAll) s := coh_freeAll _

theorem coh_storeSpectral {N : Num} {s : PyObj} {f : PyPar → PyPar} (h : Coherent N s)
    (hbv : (f s.par).bgView = s.par.bgView := by rfl) :
    Post (Coherent N) (store f PyObj.freeSpectral) s := by
  obtain ⟨p0, up, h⟩ := h
  refine ⟨f s.par, none, ?_⟩
  refine coh_onlyBg (s := PyObj.freeSpectral (s.upd f)) ?_ ⟨rfl, rfl, rfl, rfl, rfl, rfl, rfl⟩
  intro b hb
  show N.background (f s.par).bgView = some b
  rw [hbv]; exact h.bg b hb

set_option maxHeartbeats 1000000 in
theorem setattr_coherent {N : Num} {s : PyObj} (n : Name) (v : PyVal) (h : Coherent N s)
    (hs : SafeSet s n) : Post (Coherent N) (setattr n v) s := by
  cases n <;> unfold setattr <;> dsimp only
  case verbose => exact coh_store h
  case has_only_cross_correlations => exact coh_store h
  case omega_cdm =>
    exact Post.guarded h fun x => Post.bind_still still_get h fun _ =>
      Post.bind_still (still_checkOmegas _) h fun _ => coh_storeAll
  case omega_m =>
    exact Post.guarded h fun x => Post.bind_still still_get h fun _ =>
      Post.bind_still (still_checkOmegas _) h fun _ => coh_storeAll
  case omega_baryon =>
    exact Post.guarded h fun x => Post.bind_still still_get h fun _ =>
      Post.bind_still (still_checkOmegas _) h fun _ => coh_storeAll
  case omega_gamma =>
    exact Post.guarded h fun x => Post.bind_still still_get h fun _ =>
      Post.bind_still (still_checkOmegas _) h fun _ => coh_storeAll
  case h => exact Post.guarded h fun x => coh_storeAll
  case w0 => exact Post.guarded h fun x => coh_storeAll
  case wa => exact Post.guarded h fun x => coh_storeAll
  case n_s => exact Post.guarded h fun x => coh_storeAll
  case T_cmb => exact Post.guarded h fun x => coh_storeAll
  case N_ur => exact Post.guarded h fun x => coh_storeAll
  case YHe => exact Post.guarded h fun x => coh_storeAll
  case N_ncdm =>
    refine Post.bind_still (still_checkInt _ _ _) h fun x => Post.bind_still still_get h fun _ => ?_
    split_ifs
    · exact h
    · exact coh_storeAll
  case m_ncdm =>
    refine Post.guarded h fun x => ?_
    unfold Post
    by_cases hh : s.par.h = 0
    · rcases hs with hs | hs
      · exact absurd hh hs
      · have e : ((do
            store (fun p => { p with m_ncdm := x }) id
            let s ← Py.get
            if s.par.h = 0 then Py.raise .zeroDivision
            else store (fun p => PyPar.balance { p with
              Omega0_nu := x / 93.14 / p.h / p.h
              Omega0_cdm := p.Omega0_m - p.Omega0_baryon - x / 93.14 / p.h / p.h }) PyObj.freeAll : Py Unit) s).2
            = s.upd fun p => { p with m_ncdm := x } := by
          simp [Py.bind_eq, store, Py.modify_eq, Py.get_eq, PyObj.upd, hh, Py.raise_eq]
        rw [e]
        obtain ⟨p0, up, hc⟩ := h
        exact ⟨_, none, coh_onlyBg (s := s.upd fun p => { p with m_ncdm := x })
          (fun b hb => hc.bg b hb) ⟨hs.ps, hs.ints, hs.cf, hs.mp, hs.amp, hs.cov, hs.acov⟩⟩
    · have e : ∃ t : PyObj, ((do
            store (fun p => { p with m_ncdm := x }) id
            let s ← Py.get
            if s.par.h = 0 then Py.raise .zeroDivision
            else store (fun p => PyPar.balance { p with
              Omega0_nu := x / 93.14 / p.h / p.h
              Omega0_cdm := p.Omega0_m - p.Omega0_baryon - x / 93.14 / p.h / p.h }) PyObj.freeAll : Py Unit) s).2
            = t.freeAll := by
        refine ⟨(s.upd fun p => { p with m_ncdm := x }).upd fun p => PyPar.balance { p with
              Omega0_nu := x / 93.14 / p.h / p.h
              Omega0_cdm := p.Omega0_m - p.Omega0_baryon - x / 93.14 / p.h / p.h }, ?_⟩
        simp [Py.bind_eq, store, Py.modify_eq, Py.get_eq, PyObj.upd, hh]
      obtain ⟨t, e⟩ := e
      rw [e]
      exact coh_freeAll t
  case sigma8 => exact Post.guarded h fun x => coh_storeSpectral h
  case A_s => exact Post.bind_still (still_checkParameter _ _ _ _) h fun x => coh_storeSpectral h
  case k_per_decade_for_bao => exact Post.bind_still (still_toDouble _) h fun x => coh_storeAll
  case k_per_decade_for_pk => exact Post.bind_still (still_toDouble _) h fun x => coh_storeAll
  case start_large_k_at_tau_h_over_tau_k => exact Post.bind_still (still_toDouble _) h fun x => coh_storeAll
  case l_max_g => exact Post.bind_still (still_toInt _) h fun x => coh_storeAll
  case l_max_ur => exact Post.bind_still (still_toInt _) h fun x => coh_storeAll
  case tol_perturb_integration => exact Post.bind_still (still_toDouble _) h fun x => coh_storeAll
  case radiation_streaming_trigger_tau_over_tau_k =>
    exact Post.bind_still (still_toDouble _) h fun x => coh_storeAll
  case ur_fluid_trigger_tau_over_tau_k => exact Post.bind_still (still_toDouble _) h fun x => coh_storeAll
  case sep =>
    refine Post.bind_still (still_checkFloats _ _) h fun x => ?_
    exact coh_store h (hamp := Or.inl hs.1) (hcov := Or.inl hs.2.1) (hacov := Or.inl hs.2.2)
  case mu => exact Post.bind_still (still_checkFloats _ _) h fun x => coh_store h
  case integrals_fftlog_sampling => exact Post.bind_still (still_checkInt _ _ _) h fun x => h
  case l =>
    refine Post.bind_still (still_checkMultipoles _) h fun x => ?_
    refine coh_store h (hint := ?_)
    rcases hs with hs | ⟨h1, h2⟩
    · exact Or.inl hs
    · refine Or.inr ⟨rfl, tabOk_upd rfl rfl rfl rfl rfl (fun h => h) fun ps b => ?_⟩
      exact integrals_init_noFlat _ (s.par.toPar N) _ _ h1 h2
  case z_mean =>
    refine Post.bind_still (still_checkFloats _ _) h fun x => ?_
    refine coh_store h (hint := ?_) (hacov := ?_)
    · rcases hs.1 with hs | hs
      · exact Or.inl hs
      · refine Or.inr ⟨rfl, tabOk_upd rfl rfl rfl rfl rfl (fun h => absurd (h.1.symm.trans hs) (by simp)) fun ps b => ?_⟩
        exact integrals_init_noDiv _ _ (s.par.toPar N) _ hs fun k hk => by
          simp only [intNum, if_neg hk]; rfl
    · rcases hs.2 with hs | hs
      · exact Or.inl hs
      · exact Or.inr ⟨rfl, fun _ h => h.1 hs, rfl, fun _ _ => rfl⟩
  case z_min =>
    refine Post.bind_still (still_checkFloats _ _) h fun x => ?_
    exact coh_store h (hamp := Or.inl hs)
  case z_max =>
    refine Post.bind_still (still_checkFloats _ _) h fun x => ?_
    exact coh_store h (hamp := Or.inl hs)
  case number_density1 => exact Post.bind_still (still_checkFloats _ _) h fun x => coh_store h
  case number_density2 => exact Post.bind_still (still_checkFloats _ _) h fun x => coh_store h
  case covariance_populations => exact Post.bind_still (still_checkPopulations _) h fun x => coh_store h
  case covariance_cosmic => exact coh_store h
  case covariance_mixed => exact coh_store h
  case covariance_poisson => exact coh_store h
  case covariance_integration_method =>
    exact Post.bind_still (still_checkDiscrete _ _ _) h fun x => coh_store h
  case covariance_integration_sampling => exact Post.bind_still (still_checkInt _ _ _) h fun x => coh_store h
  case covariance_interpolation_method =>
    refine Post.bind_still (still_checkDiscrete _ _ _) h fun x => ?_
    refine coh_store h (hint := ?_)
    rcases hs with hs | hs
    · exact Or.inl hs
    · refine Or.inr ⟨rfl, tabOk_upd rfl rfl rfl rfl rfl (fun h => h) fun ps b => ?_⟩
      have e1 : ∀ q : PyPar, q.pk_type = .COFFE_PK_LINEAR → ∀ cls, q.intView ps cls =
          ⟨q.bessel_bins, ps, q.k_min, q.k_max, q.pk_type, none⟩ := by
        intro q hq cls; simp [PyPar.intView, hq]
      have e2 : intNum N { s.par with covariance_interpolation_method := x } ps s.cls b =
          intNum N s.par ps s.cls b := by
        funext k
        simp only [intNum, PyPar.intView4, e1 _ hs, e1 { s.par with covariance_interpolation_method := x } hs]
      show integrals_init (intNum N { s.par with covariance_interpolation_method := x } ps s.cls b)
        (s.par.toPar N) s.par.l = _
      rw [e2]
  case pixelsize => exact Post.bind_still (still_checkFloats _ _) h fun x => coh_store h
  case fsky => exact Post.bind_still (still_checkFloats _ _) h fun x => coh_store h
  case deltaz =>
    refine Post.bind_still (still_checkFloats _ _) h fun x => ?_
    refine coh_store h (hint := ?_)
    rcases hs with hs | hs
    · exact Or.inl hs
    · refine Or.inr ⟨rfl, tabOk_upd rfl rfl rfl rfl rfl (fun h => absurd (h.1.symm.trans hs) (by simp)) fun ps b => ?_⟩
      exact integrals_init_noDiv _ _ (s.par.toPar N) _ hs fun k hk => by
        simp only [intNum, if_neg hk]; rfl
  case integration_1d_type => exact Post.bind_still (still_checkDiscrete _ _ _) h fun x => coh_storeAll
  case integration_1d_prec => exact Post.bind_still (still_checkParameter _ _ _ _) h fun x => coh_storeAll
  case integration_sampling => exact Post.bind_still (still_checkInt _ _ _) h fun x => coh_store h
  case background_sampling => exact Post.bind_still (still_checkInt _ _ _) h fun x => coh_storeAll
  case has_binned_covariance => exact coh_store h
  case has_density => exact coh_store h
  case has_rsd => exact coh_store h
  case has_lensing => exact coh_store h
  case has_d1 => exact coh_storeAll
  case has_d2 => exact coh_storeAll
  case has_g1 => exact coh_storeAll
  case has_g2 => exact coh_storeAll
  case has_g3 => exact coh_storeAll
  case has_g4 => exact coh_storeAll
  case has_g5 => exact coh_storeAll
  case has_flatsky_local => exact coh_store h
  case has_flatsky_local_nonlocal => exact coh_store h
  case has_flatsky_nonlocal => exact coh_store h
  case pk_type => exact Post.bind_still (still_checkDiscrete _ _ _) h fun x => coh_storeAll
  case k_min => exact Post.bind_still (still_checkParameter _ _ _ _) h fun x => coh_storeAll
  case k_max => exact Post.bind_still (still_checkParameter _ _ _ _) h fun x => coh_storeAll

end Coffe
