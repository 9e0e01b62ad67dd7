import Verif.Props.PyFile

/-!
# The cold dark matter density in a saved file (C43)
-/

namespace Coffe

/-- The numbers that are read after `h` and `m_ncdm` in the two orders below. -/
def otherFloats : List Name :=
  [.omega_m, .omega_baryon, .omega_gamma, .w0, .wa, .sigma8, .n_s, .T_cmb, .A_s, .k_per_decade_for_bao,
   .k_per_decade_for_pk, .l_max_g, .l_max_ur, .tol_perturb_integration,
   .radiation_streaming_trigger_tau_over_tau_k, .ur_fluid_trigger_tau_over_tau_k, .N_ur, .k_min,
   .k_max, .YHe]

/-- `h` is read before `m_ncdm`. -/
def hFirst : SetOrder := ⟨floatArrayOptions, .h :: .m_ncdm :: otherFloats, intOptions, choiceOptions⟩

/-- `m_ncdm` is read before `h`. -/
def massFirst : SetOrder := ⟨floatArrayOptions, .m_ncdm :: .h :: otherFloats, intOptions, choiceOptions⟩

theorem hFirst_valid : hFirst.Valid := ⟨.refl _, by decide, .refl _, .refl _⟩

theorem massFirst_valid : massFirst.Valid := ⟨.refl _, by decide, .refl _, .refl _⟩

theorem not_drive_cdm : (∀ n ∈ intOptions, ¬ n.Drives .omega_cdm) ∧ (∀ n ∈ choiceOptions, ¬ n.Drives .omega_cdm) ∧
    Name.omega_cdm ∉ intOptions ∧ Name.omega_cdm ∉ choiceOptions := by
  refine ⟨?_, ?_, by decide, by decide⟩ <;> intro n hn <;> cases n <;> first
    | exact fun h => h
    | exact absurd hn (by decide)

open Classical

/-- Reading the other numbers leaves the densities alone when the saved ones are the default ones. -/
theorem others_dens {c : Config} {p : PyPar} (hc : ∀ n : Name, n ≠ .integrals_fftlog_sampling →
      c.opt n = some (getattr p n).text)
    (hp : p.Omega0_m = 0.3 ∧ p.Omega0_baryon = 0.05 ∧ p.Omega0_gamma = 9e-5) :
    ∀ (l : List Name), (∀ n ∈ l, n ∈ otherFloats) → ∀ {s t : PyObj} {u : Unit},
      s.dens.m = 0.3 ∧ s.dens.baryon = 0.05 ∧ s.dens.gamma = 9e-5 →
      (l.forM (readOption c Txt.getfloat) : Py Unit) s = (.ok u, t) → t.dens = s.dens := by
  intro l
  induction l with
  | nil => intro _ s t u _ h; cases h; rfl
  | cons n l ih =>
    intro hl s t u hs h
    obtain ⟨s', h1, h2⟩ := Py.forM_done h
    have hn := hl n List.mem_cons_self
    have hd : s'.dens = s.dens := by
      have hf : n ≠ .integrals_fftlog_sampling := by rintro rfl; simp [otherFloats] at hn
      rcases readOption_done h1 with ⟨h3, -⟩ | ⟨x, v, h3, h4, h5⟩
      · rw [hc n hf] at h3; cases h3
      · rw [hc n hf] at h3
        cases h3
        by_cases hq : n ≠ .omega_cdm ∧ n ≠ .omega_m ∧ n ≠ .omega_baryon ∧ n ≠ .omega_gamma ∧ n ≠ .m_ncdm ∧ n ≠ .h
        · have hpost := setattr_post n v s (fun t => t.par.dens = s.par.dens) rfl fun t ht => stores_dens' ht hq
          unfold Post at hpost
          rw [h5] at hpost
          exact hpost
        · have hn' : n = .omega_m ∨ n = .omega_baryon ∨ n = .omega_gamma := by
            by_contra hcon
            simp only [otherFloats, List.mem_cons, List.not_mem_nil, or_false] at hn
            rcases hn with rfl | rfl | rfl | rfl | rfl | rfl | rfl | rfl | rfl | rfl | rfl | rfl | rfl | rfl |
              rfl | rfl | rfl | rfl | rfl | rfl <;> simp at hq hcon
          have hsm : s.par.Omega0_m = 0.3 := hs.1
          have hsb : s.par.Omega0_baryon = 0.05 := hs.2.1
          have hsg : s.par.Omega0_gamma = 9e-5 := hs.2.2
          rcases hn' with rfl | rfl | rfl
          · cases h4
            rw [hp.1] at h5
            have : setattr .omega_m (.float 0.3) s = (.ok (), s) :=
              guarded_still (Or.inl rfl) (by norm_num) (by norm_num) (by rw [hsm]; exact allclose_self _)
            rw [this] at h5
            cases h5; rfl
          · cases h4
            rw [hp.2.1] at h5
            have : setattr .omega_baryon (.float 0.05) s = (.ok (), s) :=
              guarded_still (Or.inl rfl) (by norm_num) (by norm_num) (by rw [hsb]; exact allclose_self _)
            rw [this] at h5
            cases h5; rfl
          · cases h4
            rw [hp.2.2] at h5
            have : setattr .omega_gamma (.float 9e-5) s = (.ok (), s) :=
              guarded_still (Or.inl rfl) (by norm_num) (by norm_num) (by rw [hsg]; exact allclose_self _)
            rw [this] at h5
            cases h5; rfl
    rw [ih (fun n hn => hl n (List.mem_cons_of_mem _ hn)) (by rw [hd]; exact hs) h2, hd]

/-- Reading one number. -/
theorem read_float {c : Config} {n : Name} {x : ℝ} {s t : PyObj} {u : Unit}
    (hc : c.opt n = some (.float x)) (h : readOption c Txt.getfloat n s = (.ok u, t)) :
    setattr n (.float x) s = (.ok (), t) := by
  rcases readOption_done h with ⟨h3, -⟩ | ⟨x', v, h3, h4, h5⟩
  · rw [hc] at h3; cases h3
  · rw [hc] at h3
    cases h3
    cases h4
    exact h5

/-- The densities before and after reading the numbers. -/
theorem float_stage {N : Num} {s s' : PyObj} {c : Config} (hl : s.par.Loadable) (h1 : toFile N s = (.ok c, s'))
    {o : SetOrder} (ho : o.Valid) {t : PyObj} (ht : fromFile o c = .ok t) : ∃ t2 t3 : PyObj,
      t2.dens = (fresh PyPar.default).dens ∧
      (o.floats.forM (readOption c Txt.getfloat) : Py Unit) t2 = (.ok (), t3) ∧
      getattr t.par .omega_cdm = .float t3.dens.cdm ∧ getattr t.par .omega_m = .float t3.dens.m ∧
      getattr t.par .omega_baryon = .float t3.dens.baryon := by
  obtain ⟨c1, c2, c3, c4, c5, -⟩ := toFile_opt h1
  obtain ⟨t1, t2, t3, t4, t5, e1, e2, e3, e4, e5, e6⟩ := fromFile_stages c3 c4 ht
  have keep : ∀ m, m ∉ o.ints → m ∉ o.choices → (∀ n ∈ o.ints, ¬ n.Drives m) → (∀ n ∈ o.choices, ¬ n.Drives m) →
      getattr t.par m = getattr t3.par m := by
    intro m a1 a2 a3 a4
    rw [(biasLoop c5 _ e6).1, (loop_keep e5).1 _ a2 a4, (loop_keep e4).1 _ a1 a3]
  have d4 : ∀ m : Name, m ≠ .omega_cdm → ∀ n ∈ o.ints, ¬ n.Drives m := fun m hm n hn =>
    not_drives (fun e => lists_no_cdm intOptions (by simp) (e ▸ ho.ints.mem_iff.1 hn)) hm
  have d5 : ∀ m : Name, m ≠ .omega_cdm → ∀ n ∈ o.choices, ¬ n.Drives m := fun m hm n hn =>
    not_drives (fun e => lists_no_cdm choiceOptions (by simp) (e ▸ ho.choices.mem_iff.1 hn)) hm
  obtain ⟨q1, q2, q3, q4⟩ := not_drive_cdm
  refine ⟨t2, t3, ?_, e3, ?_, ?_, ?_⟩
  · obtain ⟨u1, g1, g2⟩ := loop_done (c := c) (r := fun t => t.getfloatArray.map .floats)
      (fun s => s.dens = (fresh PyPar.default).dens) (l := o.floatArrays) (by
        intro n hn t ht
        have hn := ho.floatArrays.mem_iff.1 hn
        obtain ⟨v, t', h2, h3, h4⟩ := floats_step hl hn ht
        exact ⟨t', readOption_ok (c1 n (by rintro rfl; simp [floatArrayOptions] at hn)) h2 h3, h4⟩)
      (fresh PyPar.default) rfl
    rw [e1] at g1
    cases g1
    obtain ⟨u2, g3, g4⟩ := loop_done (c := c) (r := Txt.getintArray)
      (fun s => s.dens = (fresh PyPar.default).dens) (l := [Name.l]) (by
        intro n hn t ht
        rw [List.mem_singleton] at hn
        subst hn
        obtain ⟨v, t', h2, h3, h4⟩ := l_step hl ht
        exact ⟨t', readOption_ok (c1 _ (by simp)) h2 h3, h4⟩) t1 g2
    rw [e2] at g3
    cases g3
    exact g4
  · rw [keep .omega_cdm (fun h => q3 (ho.ints.mem_iff.1 h)) (fun h => q4 (ho.choices.mem_iff.1 h))
      (fun n hn => q1 n (ho.ints.mem_iff.1 hn)) fun n hn => q2 n (ho.choices.mem_iff.1 hn)]
    rfl
  · rw [keep .omega_m (fun h => absurd (ho.ints.mem_iff.1 h) (by simp [intOptions]))
      (fun h => absurd (ho.choices.mem_iff.1 h) (by simp [choiceOptions])) (d4 _ (by simp)) (d5 _ (by simp))]
    rfl
  · rw [keep .omega_baryon (fun h => absurd (ho.ints.mem_iff.1 h) (by simp [intOptions]))
      (fun h => absurd (ho.choices.mem_iff.1 h) (by simp [choiceOptions])) (d4 _ (by simp)) (d5 _ (by simp))]
    rfl

/-- Without massive neutrinos, the cold dark matter density after loading is what the other two leave. -/
theorem C43_omega_cdm_partial (N : Num) (o : SetOrder) (ho : o.Valid) (s s' t : PyObj) (c : Config)
    (hs : s.par.Loadable) (h0 : s.par.m_ncdm = 0) (h1 : toFile N s = (.ok c, s')) (h2 : fromFile o c = .ok t) :
    ∃ m b, getattr t.par .omega_m = .float m ∧ getattr t.par .omega_baryon = .float b ∧
      getattr t.par .omega_cdm = .float (m - b) := by
  obtain ⟨t2, t3, d2, e3, k1, k2, k3⟩ := float_stage hs h1 ho h2
  obtain ⟨c1, -⟩ := toFile_opt h1
  obtain ⟨u, g1, g2⟩ := loop_done (c := c) (r := Txt.getfloat)
    (fun t => Between s.par t.dens) (l := o.floats) (by
      intro n hn t ht
      have hn := ho.floats.mem_iff.1 hn
      obtain ⟨v, t', h2, h3, h4⟩ := float_step hs hn ht
      exact ⟨t', readOption_ok (c1 n (by rintro rfl; simp [floatOptions] at hn)) h2 h3, h4⟩) t2 (by
        rw [d2, default_dens]
        refine ⟨Or.inl ?_, Or.inl ?_, Or.inl ?_, Or.inl ?_, ?_, ?_, fun _ => ⟨rfl, rfl⟩⟩ <;> norm_num)
  rw [e3] at g1
  cases g1
  refine ⟨_, _, k2, k3, ?_⟩
  rw [k1, g2.cdm, (g2.massless h0).1, sub_zero]

example : PyPar.default.Loadable ∧ PyPar.default.m_ncdm = 0 := ⟨default_loadable, rfl⟩

/-- C43 fails: with massive neutrinos, the density of cold dark matter after loading depends on the order in
which Python happens to go through a set; saved from an object with `h = 0.5` and `m_ncdm = 0.9314`. -/
theorem C43_order_false (N : Num) :
    ∃ s c s' t t', run N [.setattr (.settable .h) (.float 0.5), .setattr (.settable .m_ncdm) (.float 0.9314)]
        (fresh PyPar.default) = some s ∧ toFile N s = (.ok c, s') ∧
      fromFile hFirst c = .ok t ∧ fromFile massFirst c = .ok t' ∧
      getattr t.par .omega_cdm = getattr s.par .omega_cdm ∧
      getattr t'.par .omega_cdm ≠ getattr s.par .omega_cdm := by
  have n1 : ¬ allclose 0.5 0.67 := by unfold allclose; norm_num [abs_of_neg, abs_of_pos]
  have n2 : ¬ allclose 0.9314 0 := by unfold allclose; norm_num [abs_of_pos]
  obtain ⟨s1, hs1, hp1⟩ : ∃ s1, setattr .h (.float 0.5) (fresh PyPar.default) = (.ok (), s1) ∧
      s1.par = { PyPar.default with h := 0.5, Omega0_de := 1 - 0.3 - 9e-5 } := by
    unfold setattr
    exact ⟨_, (guarded_run (Or.inl rfl) (by norm_num) (by norm_num) n1).trans (Py.modify_eq _ _), rfl⟩
  obtain ⟨s, hs, hp⟩ : ∃ s, setattr .m_ncdm (.float 0.9314) s1 = (.ok (), s) ∧
      s.par = { PyPar.default with
        h := 0.5, Omega0_de := 1 - 0.3 - 9e-5, m_ncdm := 0.9314, Omega0_nu := 0.9314 / 93.14 / 0.5 / 0.5
        Omega0_cdm := 0.3 - 0.05 - 0.9314 / 93.14 / 0.5 / 0.5 } := by
    unfold setattr
    refine ⟨_, (guarded_run (Or.inl rfl) (by norm_num) (by norm_num) (by rw [hp1]; exact n2)).trans
      ((Py.bind_ok (s' := s1.upd fun p => { p with m_ncdm := 0.9314 }) (Py.modify_eq _ s1)).trans
      ((Py.bind_ok (Py.get_eq _)).trans ((congrFun (if_neg ?_) _).trans (Py.modify_eq _ _)))), ?_⟩
    · show s1.par.h ≠ 0
      rw [hp1]
      norm_num
    · show PyPar.balance { s1.par with
        m_ncdm := 0.9314, Omega0_nu := 0.9314 / 93.14 / s1.par.h / s1.par.h
        Omega0_cdm := s1.par.Omega0_m - s1.par.Omega0_baryon - 0.9314 / 93.14 / s1.par.h / s1.par.h } = _
      rw [hp1]
      rfl
  have hl : s.par.Loadable := by
    have h := default_loadable
    rw [hp]
    refine ⟨fun n => ?_, h.lists, by norm_num, by norm_num, h.baryon, h.budget, h.bias⟩
    by_cases hn : n = .h ∨ n = .m_ncdm ∨ n = .omega_cdm
    · rcases hn with rfl | rfl | rfl <;> refine ⟨_, Or.inl rfl, ?_, ?_, Or.inl rfl⟩ <;> norm_num
    · refine Eq.mp ?_ (h.documented n)
      cases n <;> first | rfl | simp at hn
  obtain ⟨c, s', h1⟩ := toFile_done N hl.documented
  obtain ⟨t, h2⟩ := fromFile_done hFirst_valid hl h1
  obtain ⟨t', h3⟩ := fromFile_done massFirst_valid hl h1
  have hcdm : getattr s.par .omega_cdm = .float 0.21 := by
    rw [hp]
    show PyVal.float (0.3 - 0.05 - 0.9314 / 93.14 / 0.5 / 0.5) = _
    norm_num
  obtain ⟨c1, c2, c3, c4, c5, -⟩ := toFile_opt h1
  have ch : c.opt .h = some (.float 0.5) := by rw [c1 _ (by simp), hp]; rfl
  have cm : c.opt .m_ncdm = some (.float 0.9314) := by rw [c1 _ (by simp), hp]; rfl
  have hpd : s.par.Omega0_m = 0.3 ∧ s.par.Omega0_baryon = 0.05 ∧ s.par.Omega0_gamma = 9e-5 := by
    rw [hp]; exact ⟨rfl, rfl, rfl⟩
  refine ⟨s, c, s', t, t', ?_, h1, h2, h3, ?_, ?_⟩
  · exact (run_setattr hs1).trans ((run_setattr hs).trans rfl)
  · obtain ⟨t2, t3, d2, e3, hc, -⟩ := float_stage hl h1 hFirst_valid h2
    obtain ⟨u1, f1, e3⟩ := Py.forM_done e3
    obtain ⟨u2, f2, e3⟩ := Py.forM_done e3
    have dh : t2.par.h = 0.67 := congrArg Dens.h d2
    have dm : t2.par.m_ncdm = 0 := congrArg Dens.m_ncdm d2
    obtain ⟨v1, g1, g2⟩ := set_h t2 0.5 (by norm_num) (by rw [dh]; exact n1)
    have := (read_float ch f1).symm.trans g1
    cases this
    have dm1 : u1.par.m_ncdm = 0 := (congrArg Dens.m_ncdm g2).trans dm
    have dh1 : u1.par.h = 0.5 := congrArg Dens.h g2
    obtain ⟨v2, g3, g4⟩ := set_m_ncdm u1 0.9314 (by norm_num) (by rw [dh1]; norm_num) (by rw [dm1]; exact n2)
    have := (read_float cm f2).symm.trans g3
    cases this
    rw [g2, d2] at g4
    have g5 := others_dens c1 hpd otherFloats (fun _ h => h) (by rw [g4]; exact ⟨rfl, rfl, rfl⟩) e3
    rw [hc, hcdm, g5, g4]
    show PyVal.float (0.3 - 0.05 - 0.9314 / 93.14 / 0.5 / 0.5) = _
    norm_num
  · obtain ⟨t2, t3, d2, e3, hc, -⟩ := float_stage hl h1 massFirst_valid h3
    obtain ⟨u1, f1, e3⟩ := Py.forM_done e3
    obtain ⟨u2, f2, e3⟩ := Py.forM_done e3
    have dh : t2.par.h = 0.67 := congrArg Dens.h d2
    have dm : t2.par.m_ncdm = 0 := congrArg Dens.m_ncdm d2
    obtain ⟨v1, g1, g2⟩ := set_m_ncdm t2 0.9314 (by norm_num) (by rw [dh]; norm_num) (by rw [dm]; exact n2)
    have := (read_float cm f1).symm.trans g1
    cases this
    have dh1 : u1.par.h = 0.67 := (congrArg Dens.h g2).trans dh
    obtain ⟨v2, g3, g4⟩ := set_h u1 0.5 (by norm_num) (by rw [dh1]; exact n1)
    have := (read_float ch f2).symm.trans g3
    cases this
    rw [g2, d2] at g4
    have g5 := others_dens c1 hpd otherFloats (fun _ h => h) (by rw [g4]; exact ⟨rfl, rfl, rfl⟩) e3
    rw [hc, hcdm, g5, g4]
    intro h
    have h := PyVal.float.inj h
    have h' : (0.3 - 0.05 - 0.9314 / 93.14 / 0.67 / 0.67 : ℝ) = 0.21 := h
    norm_num at h'

end Coffe
