import Verif.Proofs.PyHistory3

/-! # Helper lemmas: an object with coherent caches computes what a new object computes -/

namespace Coffe
open Classical

/-- `s` has coherent caches; `r` is its reference, on which nothing has been computed. -/
structure Ref0 (N : Num) (s r : PyObj) : Prop where
  coh : Coh N s r.par r.ps
  rbg : r.bg = none
  rints : r.ints = []
  rres : r.NoResults
  oob : ¬ s.par.FitOob
  switch : s.par.contrib.divergent = false → (s.par.RenormOob ↔ r.par.RenormOob)

/-- ... and the switch is on if needed. -/
structure Ref1 (N : Num) (s r : PyObj) : Prop extends Ref0 N s r where
  div : s.par.contrib.divergent = true → s.par.divergent = true ∧ r.par.divergent = true
  widths : s.par.RenormOob ↔ r.par.RenormOob

/-- Background done. -/
structure Ref2 (N : Num) (s r : PyObj) : Prop where
  coh : Coh N s r.par r.ps
  rints : r.ints = []
  rres : r.NoResults
  div : s.par.contrib.divergent = true → s.par.divergent = true ∧ r.par.divergent = true
  widths : s.par.RenormOob ↔ r.par.RenormOob
  bg : ∃ b, s.bg = some b ∧ r.bg = some b

/-- Background and spectrum done. -/
structure Ref3 (N : Num) (s r : PyObj) : Prop extends Rdy s r where
  coh : Coherent N s
  rints : r.ints = []
  rres : r.NoResults

/-- Integrals done. -/
structure Ref4 (N : Num) (s r : PyObj) : Prop extends Tabs N s r where
  coh : Coherent N s
  rres : r.NoResults

theorem checkContributions_ref (N : Num) : Sim (Ref0 N) checkContributions checkContributions (Ref1 N) := by
  intro s r h
  rw [checkContributions_eq, checkContributions_eq]
  have hc : r.par.contrib = s.par.contrib := by rw [core_eq h.coh.core]
  by_cases h1 : s.par.contrib.any = false
  · left; exact ⟨.valueError, s, r, by simp [h1], by simp [hc, h1]⟩
  · right
    have hw : (s.upd fun p => { p with divergent := p.divergent || p.contrib.divergent }).par.RenormOob ↔
        (r.upd fun p => { p with divergent := p.divergent || p.contrib.divergent }).par.RenormOob := by
      have hz : r.par.z_mean = s.par.z_mean := by rw [core_eq h.coh.core]
      have hw : r.par.deltaz = s.par.deltaz := by rw [core_eq h.coh.core]
      have := h.switch
      simp only [PyObj.upd, PyPar.RenormOob, hc, hz, hw, Bool.or_eq_true] at this ⊢
      cases hd : s.par.contrib.divergent with
      | true => simp
      | false => simpa using this hd
    refine ⟨(), _, _, if_neg h1, if_neg (by rw [hc]; exact h1), ⟨?_, h.rbg, h.rints,
      ⟨h.rres.cf, h.rres.mp, h.rres.amp, h.rres.cov, h.rres.acov⟩, h.oob, fun _ => hw⟩, ?_, hw⟩
    · have := h.coh.setDiv
      exact ⟨this.core, this.bg, this.ps, this.ints, this.cf, this.mp, this.amp, this.cov, this.acov⟩
    · intro hd
      have hd' : s.par.contrib.divergent = true := hd
      refine ⟨?_, ?_⟩
      · show (s.par.divergent || s.par.contrib.divergent) = true
        rw [hd']; simp
      · show (r.par.divergent || r.par.contrib.divergent) = true
        rw [hc, hd']; simp

theorem ensureBg_eq (N : Num) (re : Bool) (s : PyObj) :
    ensureBg N re s = if s.bg = none ∨ re = true then backgroundInit N s else (.ok (), s) := by
  simp only [ensureBg, ensure, Py.bind_eq, Py.get_eq]
  split_ifs <;> rfl

theorem fitOob_ref {N : Num} {s : PyObj} {p0 : PyPar} {up : Option Spectrum} (h : Coh N s p0 up) :
    p0.FitOob ↔ s.par.FitOob := by rw [core_eq h.core]; rfl

theorem bgView_ref {N : Num} {s : PyObj} {p0 : PyPar} {up : Option Spectrum} (h : Coh N s p0 up) :
    p0.bgView = s.par.bgView := by rw [core_eq h.core]; rfl

/-- On `r` the background is computed; on `s` it is computed or already there. -/
theorem bg_same {N : Num} {s r : PyObj} (hcoh : ∀ b, s.bg = some b → N.background s.par.bgView = some b)
    (hv : r.par.bgView = s.par.bgView) (hr : r.bg = none) (ho : ¬ s.par.FitOob)
    (hor : r.par.FitOob ↔ s.par.FitOob) :
    (∃ e s' r', ensureBg N false s = (.error e, s') ∧ ensureBg N false r = (.error e, r')) ∨
    (∃ b, N.background s.par.bgView = some b ∧ ensureBg N false s = (.ok (), { s with bg := some b }) ∧
      ensureBg N false r = (.ok (), { r with bg := some b })) := by
  rw [ensureBg_eq, ensureBg_eq, if_pos (Or.inl hr), backgroundInit_eq, backgroundInit_eq, hv, if_neg ho,
    if_neg (mt hor.1 ho)]
  by_cases hs : s.bg = none
  · rw [if_pos (Or.inl hs)]
    cases hb : N.background s.par.bgView with
    | none => exact Or.inl ⟨_, _, _, rfl, rfl⟩
    | some b => exact Or.inr ⟨b, rfl, rfl, rfl⟩
  · obtain ⟨b, hb⟩ := Option.ne_none_iff_exists'.1 hs
    rw [if_neg (by simpa using hs), hcoh b hb]
    refine Or.inr ⟨b, rfl, ?_, rfl⟩
    rw [← hb]

theorem ensureBg_ref (N : Num) : Sim (Ref1 N) (ensureBg N false) (ensureBg N false) (Ref2 N) := by
  intro s r h
  rcases bg_same h.coh.bg (bgView_ref h.coh) h.rbg h.oob (fitOob_ref h.coh) with h1 | ⟨b, hb, e1, e2⟩
  · exact Or.inl h1
  · refine Or.inr ⟨(), _, _, e1, e2, ?_, h.rints, ⟨h.rres.cf, h.rres.mp, h.rres.amp, h.rres.cov, h.rres.acov⟩,
      h.div, h.widths, b, rfl, rfl⟩
    exact h.coh.setBg b hb

/-- The spectrum stage. -/
theorem ps_same {N : Num} {s r : PyObj} (h : Coh N s r.par r.ps)
    (hd : s.par.contrib.divergent = true → s.par.divergent = true ∧ r.par.divergent = true)
    (hw : s.par.RenormOob ↔ r.par.RenormOob) :
    (∃ e s' r', ensurePs N false s = (.error e, s') ∧ ensurePs N false r = (.error e, r')) ∨
    (∃ s' r', ensurePs N false s = (.ok (), s') ∧ ensurePs N false r = (.ok (), r') ∧ Coherent N s' ∧
      VisPs s' r' ∧ s'.bg = s.bg ∧ r'.bg = r.bg ∧ s'.ints = s.ints ∧ r'.ints = r.ints ∧
      (r.NoResults → r'.NoResults) ∧ s'.par.bgView = s.par.bgView ∧ r'.par.bgView = r.par.bgView ∧
      (s'.par.FitOob ↔ s.par.FitOob)) := by
  have hcore := core_eq h.core
  have vis : s.par.k_min = r.par.k_min → s.par.k_max = r.par.k_max → s.par.visible = r.par.visible := by
    intro h1 h2
    rw [hcore, ← h1, ← h2]; rfl
  rw [ensurePs_eq, ensurePs_eq]
  rcases h.ps with ⟨hp, h1, h2, hl⟩ | ⟨hu, c, hc, hp, hcl, h1, h2⟩
  · cases hr : r.ps with
    | none =>
      rw [hr] at hp
      rw [if_pos (Or.inl hp), if_pos (Or.inl rfl), powerSpectrumInit_eq, powerSpectrumInit_eq]
      have hv : r.par.classView = s.par.classView := by rw [hcore, ← h1, ← h2]; rfl
      rw [hv]
      cases hb : N.classRun s.par.classView with
      | none => exact Or.inl ⟨_, _, _, rfl, rfl⟩
      | some c =>
        refine Or.inr ⟨_, _, rfl, rfl, ⟨_, none, h.setPs hp c hb⟩, ⟨⟨?_, hd, hw⟩, ⟨_, rfl, rfl⟩, fun _ => rfl⟩, rfl, rfl,
          rfl, rfl, fun h => ⟨h.cf, h.mp, h.amp, h.cov, h.acov⟩, rfl, rfl, Iff.rfl⟩
        exact clamp_vis ⟨vis h1 h2, hd, hw⟩ _ _
    | some ps =>
      rw [hr] at hp
      rw [if_neg (by simp [hp]), if_neg (by simp)]
      refine Or.inr ⟨_, _, rfl, rfl, ⟨_, _, h⟩, ⟨⟨vis h1 h2, hd, hw⟩, ⟨ps, hp, hr⟩, ?_⟩, rfl, rfl,
          rfl, rfl, id, rfl, rfl, Iff.rfl⟩
      intro hn; exact absurd (hl (by simp [hr])) hn
  · rw [if_neg (by simp [hp]), if_pos (Or.inl hu), powerSpectrumInit_eq, hc]
    refine Or.inr ⟨_, _, rfl, rfl, ⟨_, _, h⟩, ⟨⟨?_, hd, hw⟩, ⟨_, hp, rfl⟩, fun _ => hcl⟩, rfl, rfl,
          rfl, rfl, fun h => ⟨h.cf, h.mp, h.amp, h.cov, h.acov⟩, rfl, rfl, Iff.rfl⟩
    rw [← h1, ← h2, hcore]; rfl

theorem ensurePs_ref (N : Num) : Sim (Ref2 N) (ensurePs N false) (ensurePs N false) (Ref3 N) := by
  intro s r h
  obtain ⟨b, hb, hb'⟩ := h.bg
  rcases ps_same h.coh h.div h.widths with h1 | ⟨s', r', e1, e2, hc, hv, a1, a2, a3, a4, a5, -, -, afo⟩
  · exact Or.inl h1
  · exact Or.inr ⟨(), s', r', e1, e2, ⟨hv.toVis, ⟨b, a1.trans hb, a2.trans hb'⟩, hv.ps, hv.cls⟩, hc,
      a4.trans h.rints, a5 h.rres⟩

theorem ensureInts_ref (N : Num) : Sim (Ref3 N) (ensureInts N false) (ensureInts N false) (Ref4 N) := by
  intro s r h
  obtain ⟨b, hb, hb'⟩ := h.bg
  obtain ⟨ps, hp, hp'⟩ := h.ps
  have hdiv : DivOk s := fun hd => (h.div hd).1
  have key := integralsInit_sim N s r h.toRdy
  rw [ensureInts_eq, ensureInts_eq, if_pos (Or.inl h.rints)]
  have coh := ensureInts_tri N (fun _ _ _ _ _ _ _ => True) s ⟨h.coh, hdiv, trivial, ⟨b, hb⟩, ps, hp⟩
  rw [ensureInts_eq] at coh
  have hrr : ∀ r', integralsInit N r = (.ok (), r') → r'.NoResults := by
    intro r' e
    rw [integralsInit_some N r b ps hb' hp'] at e
    split_ifs at e
    · simp at e
    · rw [← (Prod.mk.inj e).2]
      exact ⟨h.rres.cf, h.rres.mp, h.rres.amp, h.rres.cov, h.rres.acov⟩
  by_cases hi : s.ints = []
  · rw [if_pos (Or.inl hi)] at coh ⊢
    rcases key with h1 | ⟨a, s', r', e1, e2, ht⟩
    · exact Or.inl h1
    · refine Or.inr ⟨a, s', r', e1, e2, ht, ?_, hrr r' (by rw [e2])⟩
      rcases coh with ⟨a', s'', e', hc, -⟩ | ⟨e, s'', e', -⟩
      · rw [e1] at e'; rw [(Prod.mk.inj e').2]; exact hc
      · rw [e1] at e'; simp at e'
  · rw [if_neg (by simpa using hi)]
    obtain ⟨p0, up, hco⟩ := h.coh
    have hts : TabOk N s := by rcases hco.ints with h | ⟨h, -⟩ <;> [exact absurd h hi; exact h]
    have hpk : r.par.pk_type = s.par.pk_type := by rw [h.eq]
    have hc' : ¬ ((r.par.pk_type ≠ .COFFE_PK_LINEAR ∧ r.cls = none) ∨ r.par.RenormOob) := by
      obtain ⟨b1, ps1, -, -, h3, -⟩ := hts
      rintro (⟨h1, h2⟩ | h1)
      · rw [hpk] at h1
        exact h3.1 h1 ((h.cls h1).trans h2)
      · exact h3.2 (h.oob.2 h1)
    have e2 := integralsInit_some N r b ps hb' hp'
    rw [if_neg hc'] at e2
    refine Or.inr ⟨(), s, _, rfl, e2, ⟨⟨⟨h.vis, h.div, h.oob⟩, h.bg, h.ps, h.cls⟩, hts, ?_⟩, ⟨p0, up, hco⟩, hrr _ e2⟩
    exact ⟨b, ps, hb', hp', ⟨fun h1 h2 => hc' (Or.inl ⟨h1, h2⟩), fun h1 => hc' (Or.inr h1)⟩, rfl⟩

/-- The common prefix of the signal methods. -/
theorem prefix_ref (N : Num) {β : Type} {k : Unit → Py β} {R : PyObj → PyObj → Prop}
    (hk : Sim (Ref4 N) (k ()) (k ()) R) :
    Sim (Ref0 N)
      (do checkContributions; ensureBg N false; ensurePs N false; ensureInts N false; k ())
      (do checkContributions; ensureBg N false; ensurePs N false; ensureInts N false; k ()) R :=
  Sim.bind (checkContributions_ref N) fun _ => Sim.bind (ensureBg_ref N) fun _ =>
    Sim.bind (ensurePs_ref N) fun _ => Sim.bind (ensureInts_ref N) fun _ => hk

theorem ensure_eq (m : PyObj → Prop) (re : Bool) (i : Py Unit) (s : PyObj) :
    ensure m re i s = if m s ∨ re = true then i s else (.ok (), s) := by
  simp only [ensure, Py.bind_eq, Py.get_eq]
  split_ifs <;> rfl

/-- A final stage: the result is cached on `s` and equal to what `r` computes, or both compute it. -/
theorem Sim.last {α : Type} {P : PyObj → PyObj → Prop} {f : PyObj → List α} {i : Py Unit}
    (hi : Sim P i i (fun s r => f s = f r)) (hr : ∀ s r, P s r → f r = [])
    (hc : ∀ s r, P s r → f s ≠ [] → ∃ r', i r = (.ok (), r') ∧ f s = f r') :
    Sim P (ensure (fun s => f s = []) false i) (ensure (fun s => f s = []) false i)
      (fun s r => f s = f r) := by
  intro s r h
  rw [ensure_eq, ensure_eq, if_pos (Or.inl (hr s r h))]
  by_cases he : f s = []
  · rw [if_pos (Or.inl he)]; exact hi s r h
  · rw [if_neg (by simpa using he)]
    obtain ⟨r', e, h'⟩ := hc s r h he
    exact Or.inr ⟨(), s, r', rfl, e, h'⟩

theorem corrfunc_last (N : Num) : Sim (Ref4 N) (ensure (fun s => s.cf = []) false (corrfuncInit N))
    (ensure (fun s => s.cf = []) false (corrfuncInit N)) (fun s r => s.cf = r.cf) := by
  refine Sim.last ((corrfuncInit_sim N).mono (fun s r h => h.toTabs) fun _ _ h => h) (fun s r h => h.rres.cf) ?_
  intro s r h hne
  obtain ⟨b, hb, hb'⟩ := h.bg
  obtain ⟨p0, up, hc⟩ := h.coh
  refine ⟨_, corrfuncInit_some N r b hb', ?_⟩
  rcases hc.cf with h' | ⟨-, -, b', hb2, h'⟩
  · exact absurd h' hne
  · rw [hb] at hb2; obtain rfl := Option.some.inj hb2
    rw [h']; exact corrfuncRows_congr N s r h.toRdy h.ts h.tr b

theorem multipoles_last (N : Num) : Sim (Ref4 N) (ensure (fun s => s.mp = []) false (multipolesInit N))
    (ensure (fun s => s.mp = []) false (multipolesInit N)) (fun s r => s.mp = r.mp) := by
  refine Sim.last ((multipolesInit_sim N).mono (fun s r h => h.toTabs) fun _ _ h => h) (fun s r h => h.rres.mp) ?_
  intro s r h hne
  obtain ⟨b, hb, hb'⟩ := h.bg
  obtain ⟨p0, up, hc⟩ := h.coh
  refine ⟨_, multipolesInit_some N r b hb', ?_⟩
  rcases hc.mp with h' | ⟨-, -, b', hb2, h'⟩
  · exact absurd h' hne
  · rw [hb] at hb2; obtain rfl := Option.some.inj hb2
    rw [h']; exact multipoleRows_congr N s r h.toRdy h.ts h.tr b

theorem average_last (N : Num) : Sim (Ref4 N) (ensure (fun s => s.amp = []) false (averageInit N))
    (ensure (fun s => s.amp = []) false (averageInit N)) (fun s r => s.amp = r.amp) := by
  refine Sim.last ((averageInit_sim N).mono (fun s r h => h.toTabs) fun _ _ h => h) (fun s r h => h.rres.amp) ?_
  intro s r h hne
  obtain ⟨b, hb, hb'⟩ := h.bg
  obtain ⟨p0, up, hc⟩ := h.coh
  rcases hc.amp with h' | ⟨-, -, hl, b', hb2, h'⟩
  · exact absurd h' hne
  · have e1 : r.par.z_max = s.par.z_max := by rw [h.eq]
    have e2 : r.par.z_min = s.par.z_min := by rw [h.eq]
    have e := averageInit_some N r b hb'
    rw [if_neg (by rw [e1, e2]; exact hl)] at e
    refine ⟨_, e, ?_⟩
    rw [hb] at hb2; obtain rfl := Option.some.inj hb2
    rw [h']; exact averageRows_congr N s r h.toRdy h.ts h.tr b

/-! ## Covariances -/

/-- Ready for the covariance. -/
structure RefC (N : Num) (s r : PyObj) : Prop extends Rdy s r where
  coh : Coherent N s
  rres : r.NoResults

theorem covPrefix_ref (N : Num) {β : Type} {k : Py β} {R : PyObj → PyObj → Prop}
    (hk : Sim (RefC N) k k R) :
    Sim (Ref1 N) (do ensurePs N false; ensureBg N false; k) (do ensurePs N false; ensureBg N false; k) R := by
  refine Sim.bind (Q := fun s r => Coherent N s ∧ VisPs s r ∧ r.bg = none ∧ r.NoResults ∧ ¬ s.par.FitOob) ?_ fun _ =>
    Sim.bind (Q := RefC N) ?_ fun _ => hk
  · intro s r h
    rcases ps_same h.coh h.div h.widths with h1 | ⟨s', r', e1, e2, hc, hv, a1, a2, a3, a4, a5, -, -, afo⟩
    · exact Or.inl h1
    · exact Or.inr ⟨(), s', r', e1, e2, hc, hv, a2.trans h.rbg, a5 h.rres, mt afo.1 h.oob⟩
  · rintro s r ⟨⟨p0, up, hc⟩, hv, hb, hr, ho⟩
    rcases bg_same (r := r) hc.bg (by rw [hv.eq]; rfl) hb ho (by rw [hv.eq]; rfl) with h1 | ⟨b, hb, e1, e2⟩
    · exact Or.inl h1
    · exact Or.inr ⟨(), _, _, e1, e2, ⟨⟨hv.vis, hv.div, hv.oob⟩, ⟨b, rfl, rfl⟩, hv.ps, hv.cls⟩,
        ⟨p0, up, hc.setBg b hb⟩, ⟨hr.cf, hr.mp, hr.amp, hr.cov, hr.acov⟩⟩

theorem maximumSeparation_same (N : Num) (z dz : ℝ) {P : PyObj → PyObj → Prop}
    (hP : ∀ s r, P s r → ∃ b, s.bg = some b ∧ r.bg = some b) :
    Sim P (maximumSeparation N z dz) (maximumSeparation N z dz) P := by
  unfold maximumSeparation
  refine Sim.bind (checkReal_sim _ _ _) fun _ => Sim.bind (checkReal_sim _ _ _) fun _ => ?_
  intro s r h
  obtain ⟨b, hb, hb'⟩ := hP s r h
  by_cases hz : z + dz > 15
  · left
    refine ⟨.abort, s, r, ?_, ?_⟩
    · exact (Py.bind_ok (ensureBg_some N s b hb)).trans (by simp only [hb]; rw [if_pos hz])
    · exact (Py.bind_ok (ensureBg_some N r b hb')).trans (by simp only [hb']; rw [if_pos hz])
  right
  refine ⟨2 * (b.comoving_distance (z + dz) - b.comoving_distance z), s, r, ?_, ?_, h⟩
  · exact (Py.bind_ok (ensureBg_some N s b hb)).trans (by simp only [hb]; rw [if_neg hz])
  · exact (Py.bind_ok (ensureBg_some N r b hb')).trans (by simp only [hb']; rw [if_neg hz])

theorem checkBins_same (N : Num) (l : List (ℝ × ℝ)) {P : PyObj → PyObj → Prop}
    (hP : ∀ s r, P s r → ∃ b, s.bg = some b ∧ r.bg = some b) :
    Sim P (checkBins N l) (checkBins N l) P := by
  refine Sim.forM l fun i _ => ?_
  exact Sim.bind (maximumSeparation_same N _ _ hP) fun _ => Sim.ret0 _

theorem cov_last (N : Num) : Sim (RefC N) (ensure (fun s => s.cov = []) false (covInit N))
    (ensure (fun s => s.cov = []) false (covInit N)) (fun s r => s.cov = r.cov) := by
  refine Sim.last ((covInit_sim N).mono (fun s r h => h.toRdy) fun _ _ h => h) (fun s r h => h.rres.cov) ?_
  intro s r h hne
  obtain ⟨b, hb, hb'⟩ := h.bg
  obtain ⟨ps, hp, hp'⟩ := h.ps
  obtain ⟨p0, up, hc⟩ := h.coh
  rcases hc.cov with h' | ⟨b', ps', hb2, hp2, hbad, h'⟩
  · exact absurd h' hne
  · refine ⟨_, covInit_some N r b ps hb' hp' (by rw [h.eq]; exact hbad), ?_⟩
    rw [hb] at hb2; obtain rfl := Option.some.inj hb2
    rw [hp] at hp2; obtain rfl := Option.some.inj hp2
    rw [h']; exact covRows_congr N s r h.toVis ps b

theorem acov_last (N : Num) : Sim (RefC N) (ensure (fun s => s.acov = []) false (acovInit N))
    (ensure (fun s => s.acov = []) false (acovInit N)) (fun s r => s.acov = r.acov) := by
  refine Sim.last ((acovInit_sim N).mono (fun s r h => h.toRdy) fun _ _ h => h) (fun s r h => h.rres.acov) ?_
  intro s r h hne
  obtain ⟨b, hb, hb'⟩ := h.bg
  obtain ⟨ps, hp, hp'⟩ := h.ps
  obtain ⟨p0, up, hc⟩ := h.coh
  rcases hc.acov with h' | ⟨hl, b', ps', hb2, hp2, hbad, h'⟩
  · exact absurd h' hne
  · have e1 : r.par.pk_type = s.par.pk_type := by rw [h.eq]
    have e2 : r.par.z_mean = s.par.z_mean := by rw [h.eq]
    have e3 : r.par.z_min = s.par.z_min := by rw [h.eq]
    have e := acovInit_some N r b ps hb' hp' (by rw [h.eq]; exact hbad)
    rw [if_neg (by rw [e1, e2, e3]; exact hl)] at e
    refine ⟨_, e, ?_⟩
    rw [hb] at hb2; obtain rfl := Option.some.inj hb2
    rw [hp] at hp2; obtain rfl := Option.some.inj hp2
    rw [h']; exact acovRows_congr N s r h.toVis ps b

theorem Ref1.eq {N : Num} {s r : PyObj} (h : Ref1 N s r) :
    r.par = { s.par with divergent := r.par.divergent, k_min := r.par.k_min, k_max := r.par.k_max } :=
  core_eq h.coh.core

theorem computeBulk_ref (N : Num) (b : Bulk) :
    Sim (Ref0 N) (computeBulk N false b) (computeBulk N false b) (fun _ _ => True) := by
  cases b
  · unfold computeBulk computeCorrfuncBulk
    refine Sim.bind (checkCoordsCorrfunc_sim fun _ _ h => h.coh.core) fun _ => prefix_ref N (k := fun _ => _) ?_
    exact Sim.bind (corrfunc_last N) fun _ =>
      (Sim.ret (f := fun s => Out.corrfunc s.cf) fun s r h => congrArg Out.corrfunc h).mono
        (fun _ _ h => h) fun _ _ _ => trivial
  · unfold computeBulk computeMultipolesBulk
    refine Sim.bind (checkCoordsMultipoles_sim fun _ _ h => h.coh.core) fun _ => prefix_ref N (k := fun _ => _) ?_
    exact Sim.bind (multipoles_last N) fun _ =>
      (Sim.ret (f := fun s => Out.multipoles s.mp) fun s r h => congrArg Out.multipoles h).mono
        (fun _ _ h => h) fun _ _ _ => trivial
  · unfold computeBulk computeAverageBulk
    refine Sim.bind (checkCoordsAverage_sim fun _ _ h => h.coh.core) fun _ => prefix_ref N (k := fun _ => _) ?_
    exact Sim.bind (average_last N) fun _ =>
      (Sim.ret (f := fun s => Out.average s.amp) fun s r h => congrArg Out.average h).mono
        (fun _ _ h => h) fun _ _ _ => trivial
  · unfold computeBulk computeCovarianceBulk
    refine Sim.bind (checkCoordsMultipoles_sim fun _ _ h => h.coh.core) fun _ => ?_
    refine Sim.bind (checkContributions_ref N) fun _ => ?_
    refine Sim.read (fun s r h => by rw [h.eq]) fun s => ?_
    dsimp only
    split_ifs
    rotate_left
    · exact Sim.raise_bind
    refine covPrefix_ref N ?_
    refine Sim.read (fun s r h => by rw [h.eq]) fun s => ?_
    refine Sim.bind (checkBins_same N _ fun _ _ h => h.bg) fun _ => Sim.bind (cov_last N) fun _ => ?_
    exact (Sim.ret (f := fun s => Out.covariance s.cov) fun s r h => congrArg Out.covariance h).mono
        (fun _ _ h => h) fun _ _ _ => trivial
  · unfold computeBulk computeAverageCovarianceBulk
    refine Sim.bind (checkCoordsMultipoles_sim fun _ _ h => h.coh.core) fun _ => ?_
    refine Sim.bind (checkContributions_ref N) fun _ => ?_
    refine Sim.read (fun s r h => by rw [h.eq]) fun s => ?_
    dsimp only
    split_ifs
    rotate_left
    · exact Sim.raise_bind
    refine covPrefix_ref N ?_
    refine Sim.read (fun s r h => by rw [h.eq]) fun s => ?_
    refine Sim.bind (checkBins_same N _ fun _ _ h => h.bg) fun _ => Sim.bind (acov_last N) fun _ => ?_
    exact (Sim.ret (f := fun s => Out.averageCovariance s.acov)
      fun s r h => congrArg Out.averageCovariance h).mono (fun _ _ h => h) fun _ _ _ => trivial

/-- The single-point methods. -/
theorem point_ref (N : Num) (z x : ℝ) :
    (∀ mu, Sim (Ref0 N) (computeCorrfunc N z x mu false) (computeCorrfunc N z x mu false) (fun _ _ => True)) ∧
    (∀ l, Sim (Ref0 N) (computeMultipole N z x l false) (computeMultipole N z x l false) (fun _ _ => True)) := by
  constructor
  · intro mu
    unfold computeCorrfunc
    refine Sim.bind (checkCoordsCorrfunc_sim fun _ _ h => h.coh.core) fun _ => prefix_ref N (k := fun _ => _) ?_
    exact Sim.bind (checkReal_sim _ _ _) fun _ => Sim.bind (checkReal_sim _ _ _) fun _ =>
      Sim.bind (checkReal_sim _ _ _) fun _ => (signalHere_sim N _ _ _ _ _).mono (fun _ _ h => h.toTabs)
        fun _ _ _ => trivial
  · intro l
    unfold computeMultipole
    refine Sim.bind (checkCoordsMultipoles_sim fun _ _ h => h.coh.core) fun _ => prefix_ref N (k := fun _ => _) ?_
    exact Sim.bind (checkReal_sim _ _ _) fun _ => Sim.bind (checkReal_sim _ _ _) fun _ =>
      Sim.bind (checkReal_sim _ _ _) fun _ => (signalHere_sim N _ _ _ _ _).mono (fun _ _ h => h.toTabs)
        fun _ _ _ => trivial

theorem background_ref (N : Num) (f : Bg → ℝ → ℝ) (z : ℝ) :
    Sim (Ref0 N) (backgroundAt N f z) (backgroundAt N f z) (fun _ _ => True) := by
  unfold backgroundAt
  refine Sim.bind (checkReal_sim _ _ _) fun _ => ?_
  refine Sim.bind (Q := fun s r => ∃ b, s.bg = some b ∧ r.bg = some b) ?_ fun _ => ?_
  · intro s r h
    rcases bg_same h.coh.bg (bgView_ref h.coh) h.rbg h.oob (fitOob_ref h.coh) with h1 | ⟨b, hb, e1, e2⟩
    · exact Or.inl h1
    · exact Or.inr ⟨(), _, _, e1, e2, b, rfl, rfl⟩
  · rintro s r ⟨b, hb, hb'⟩
    refine Or.inr ⟨.real (f b z), s, r, ?_, ?_, trivial⟩
    · simp only [hb]
    · simp only [hb']

/-- The reference object of a coherent one. -/
theorem Coh.reference {N : Num} {s : PyObj} {p0 : PyPar} {up : Option Spectrum} (h : Coh N s p0 up) :
    (¬ s.par.FitOob → s.par.WidthsFit → Ref0 N s { fresh p0.visible with ps := up }) ∧
      Reference N s { fresh p0.visible with ps := up } := by
  have hv : Coh N s p0.visible up :=
    ⟨h.core, h.bg, h.ps, h.ints, h.cf, h.mp, h.amp, h.cov, h.acov⟩
  refine ⟨fun ho hw => ⟨hv, rfl, rfl, ⟨rfl, rfl, rfl, rfl, rfl⟩, ho, fun hd => ?_⟩,
    ⟨h.core, rfl, rfl, rfl, ⟨rfl, rfl, rfl, rfl, rfl⟩, ?_⟩⟩
  · have hr : ¬ (p0.visible).RenormOob := fun h => by cases h.1
    refine ⟨fun hs => ?_, fun h => absurd h hr⟩
    rcases hw with hw | hw | hw
    · exact absurd hs.2 (not_lt.2 hw)
    · rw [hd] at hw; cases hw
    · exact absurd (hs.1.symm.trans hw) (by simp)
  rcases h.ps with ⟨h1, h2, h3, -⟩ | ⟨h1, c, h2, h3, -, h4, h5⟩
  · exact Or.inl ⟨h1, h2, h3⟩
  · exact Or.inr ⟨h1, c, h2, h3, h4, h5⟩

/-- Without separations the checks of the coordinates end every signal and covariance method. -/
theorem noSep_raises {N : Num} {s : PyObj} (hs : s.par.sep = []) :
    (∀ b, (computeBulk N false b s).1 = .error .valueError) ∧
    (∀ z x mu, (computeCorrfunc N z x mu false s).1 = .error .valueError) ∧
    (∀ z x l, (computeMultipole N z x l false s).1 = .error .valueError) := by
  have h1 : checkCoordsCorrfunc s = (.error .valueError, s) := by
    simp [checkCoordsCorrfunc, Py.bind_eq, Py.get_eq, hs, Py.raise_eq]
  have h2 : checkCoordsMultipoles s = (.error .valueError, s) := by
    simp [checkCoordsMultipoles, Py.bind_eq, Py.get_eq, hs, Py.raise_eq]
  have h3 : checkCoordsAverage s = (.error .valueError, s) := by
    simp [checkCoordsAverage, Py.bind_eq, Py.get_eq, hs, Py.raise_eq]
  refine ⟨fun b => ?_, fun z x mu => ?_, fun z x l => ?_⟩
  · cases b
    · exact congrArg Prod.fst (Py.bind_err (f := fun _ => _) h1)
    · exact congrArg Prod.fst (Py.bind_err (f := fun _ => _) h2)
    · exact congrArg Prod.fst (Py.bind_err (f := fun _ => _) h3)
    · exact congrArg Prod.fst (Py.bind_err (f := fun _ => _) h2)
    · exact congrArg Prod.fst (Py.bind_err (f := fun _ => _) h2)
  · unfold computeCorrfunc; rw [Py.bind_err h1]
  · unfold computeMultipole; rw [Py.bind_err h2]

end Coffe
