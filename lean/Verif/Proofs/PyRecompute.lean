import Verif.Proofs.PyStages

/-! # Helper lemmas: every stage re-run from scratch -/

namespace Coffe
open Classical

/-- Same visible parameters; where it matters, the switch is the same too. -/
structure SameVis (s r : PyObj) : Prop where
  vis : s.par.visible = r.par.visible
  oob : s.par.contrib.divergent = false → (s.par.RenormOob ↔ r.par.RenormOob)

/-- A check that only reads visible parameters. -/
theorem Sim.check {c : PyPar → Prop} {_ : ∀ p, Decidable (c p)} (e : Err) {P : PyObj → PyObj → Prop}
    (hc : ∀ s r, P s r → (c s.par ↔ c r.par)) :
    Sim P (do let s ← Py.get; if c s.par then Py.raise e else pure ())
      (do let s ← Py.get; if c s.par then Py.raise e else pure ()) P := by
  intro s r h
  by_cases h1 : c s.par
  · left
    exact ⟨e, s, r, by simp [Py.bind_eq, Py.get_eq, h1, Py.raise_eq],
      by simp [Py.bind_eq, Py.get_eq, (hc s r h).1 h1, Py.raise_eq]⟩
  · right
    refine ⟨(), s, r, by simp [Py.bind_eq, Py.get_eq, h1, Py.pure_eq], ?_, h⟩
    simp [Py.bind_eq, Py.get_eq, mt (hc s r h).2 h1, Py.pure_eq]

theorem SameVis.eq {s r : PyObj} (h : SameVis s r) :
    r.par = { s.par with divergent := r.par.divergent } := visible_eq h.vis

theorem checkCoordsCorrfunc_sim {P : PyObj → PyObj → Prop} (h : ∀ s r, P s r → s.par.core = r.par.core) :
    Sim P checkCoordsCorrfunc checkCoordsCorrfunc P :=
  Sim.check (c := fun p => p.mu = [] ∨ p.sep = [] ∨ p.z_mean = []) _ fun s r hp => by
    rw [core_eq (h s r hp)]

theorem checkCoordsMultipoles_sim {P : PyObj → PyObj → Prop} (h : ∀ s r, P s r → s.par.core = r.par.core) :
    Sim P checkCoordsMultipoles checkCoordsMultipoles P :=
  Sim.check (c := fun p => p.l = [] ∨ p.sep = [] ∨ p.z_mean = []) _ fun s r hp => by
    rw [core_eq (h s r hp)]

theorem checkCoordsAverage_sim {P : PyObj → PyObj → Prop} (h : ∀ s r, P s r → s.par.core = r.par.core) :
    Sim P checkCoordsAverage checkCoordsAverage P :=
  Sim.check (c := fun p => p.l = [] ∨ p.sep = [] ∨ p.z_min = [] ∨ p.z_max = []) _ fun s r hp => by
    rw [core_eq (h s r hp)]

/-- `_check_contributions` on one object. -/
theorem checkContributions_eq (s : PyObj) :
    checkContributions s = if s.par.contrib.any = false then (.error .valueError, s)
      else (.ok (), s.upd fun p => { p with divergent := p.divergent || p.contrib.divergent }) := by
  unfold checkContributions
  by_cases h : s.par.contrib.any = false
  · simp [Py.bind_eq, Py.get_eq, h, Py.raise_eq]
  · by_cases h2 : s.par.contrib.divergent = true
    · simp [Py.bind_eq, Py.get_eq, h, Py.raise_eq, h2, Py.modify_eq, Py.pure_eq, PyObj.upd]
    · simp only [Bool.not_eq_true] at h2
      simp [Py.bind_eq, Py.get_eq, h, h2, Py.pure_eq, PyObj.upd]

theorem checkContributions_vis : Sim SameVis checkContributions checkContributions Vis := by
  intro s r h
  rw [checkContributions_eq, checkContributions_eq]
  have e := h.eq
  have hc : r.par.contrib = s.par.contrib := by rw [e]
  by_cases h1 : s.par.contrib.any = false
  · left; exact ⟨.valueError, s, r, by simp [h1], by simp [hc, h1]⟩
  · right
    refine ⟨(), _, _, by rw [if_neg h1], by rw [hc, if_neg h1], ?_, ?_, ?_⟩
    · simp only [PyObj.upd]
      exact h.vis
    · simp only [PyObj.upd, hc]
      intro hd; simp [hd]
    · have hz : r.par.z_mean = s.par.z_mean := by rw [e]
      have hw : r.par.deltaz = s.par.deltaz := by rw [e]
      have := h.oob
      simp only [PyObj.upd, PyPar.RenormOob, hc, hz, hw, Bool.or_eq_true] at this ⊢
      cases hd : s.par.contrib.divergent with
      | true => simp
      | false => simpa using this hd

theorem ensure_true (m : PyObj → Prop) (i : Py Unit) : ensure m true i = i := by
  funext s
  simp [ensure, Py.bind_eq, Py.get_eq]

/-- Same visible parameters and background. -/
structure VisBg (s r : PyObj) : Prop extends Vis s r where
  bg : ∃ b, s.bg = some b ∧ r.bg = some b

/-- Same visible parameters and spectrum. -/
structure VisPs (s r : PyObj) : Prop extends Vis s r where
  ps : ∃ ps, s.ps = some ps ∧ r.ps = some ps
  cls : s.par.pk_type ≠ .COFFE_PK_LINEAR → s.cls = r.cls

theorem backgroundInit_eq (N : Num) (s : PyObj) :
    backgroundInit N s = if s.par.FitOob then (.error .crash, s) else match N.background s.par.bgView with
      | some b => (.ok (), { s with bg := some b })
      | none => (.error .abort, s) := rfl

/-- The state after the background stage that has succeeded. -/
theorem backgroundInit_of {N : Num} {s : PyObj} {b : Bg} (ho : ¬ s.par.FitOob)
    (hb : N.background s.par.bgView = some b) : backgroundInit N s = (.ok (), { s with bg := some b }) := by
  rw [backgroundInit_eq, if_neg ho, hb]

theorem powerSpectrumInit_eq (N : Num) (s : PyObj) :
    powerSpectrumInit N s = match N.classRun s.par.classView with
      | some c => (.ok (), { s with
          par := { s.par with
            k_min := max s.par.k_min c.k_first
            k_max := min s.par.k_max c.k_last }
          ps := some c.spectrum
          cls := some c.cls
          pk2d := s.par.has2d })
      | none => (.error .abort, s) := rfl

theorem backgroundInit_sim (N : Num) : Sim Vis (backgroundInit N) (backgroundInit N) VisBg := by
  intro s r h
  have hv : r.par.bgView = s.par.bgView := by rw [h.eq]; rfl
  have ho : r.par.FitOob ↔ s.par.FitOob := by rw [h.eq]; rfl
  rw [backgroundInit_eq, backgroundInit_eq, hv]
  by_cases hf : s.par.FitOob
  · rw [if_pos hf, if_pos (ho.2 hf)]; exact Or.inl ⟨_, _, _, rfl, rfl⟩
  rw [if_neg hf, if_neg (mt ho.1 hf)]
  cases hb : N.background s.par.bgView with
  | none => exact Or.inl ⟨_, _, _, rfl, rfl⟩
  | some b => exact Or.inr ⟨_, _, _, rfl, rfl, ⟨h.vis, h.div, h.oob⟩, b, rfl, rfl⟩

theorem backgroundInit_sim' (N : Num) : Sim VisPs (backgroundInit N) (backgroundInit N) Rdy := by
  intro s r h
  have hv : r.par.bgView = s.par.bgView := by rw [h.eq]; rfl
  have ho : r.par.FitOob ↔ s.par.FitOob := by rw [h.eq]; rfl
  rw [backgroundInit_eq, backgroundInit_eq, hv]
  by_cases hf : s.par.FitOob
  · rw [if_pos hf, if_pos (ho.2 hf)]; exact Or.inl ⟨_, _, _, rfl, rfl⟩
  rw [if_neg hf, if_neg (mt ho.1 hf)]
  cases hb : N.background s.par.bgView with
  | none => exact Or.inl ⟨_, _, _, rfl, rfl⟩
  | some b => exact Or.inr ⟨_, _, _, rfl, rfl, ⟨h.vis, h.div, h.oob⟩, ⟨b, rfl, rfl⟩, h.ps, h.cls⟩

theorem clamp_vis {s r : PyObj} (h : Vis s r) (a b : ℝ) :
    ({ s.par with k_min := max s.par.k_min a, k_max := min s.par.k_max b } : PyPar).visible =
      ({ r.par with k_min := max r.par.k_min a, k_max := min r.par.k_max b } : PyPar).visible := by
  rw [h.eq]; rfl

theorem powerSpectrumInit_sim (N : Num) : Sim VisBg (powerSpectrumInit N) (powerSpectrumInit N) Rdy := by
  intro s r h
  have hv : r.par.classView = s.par.classView := by rw [h.eq]; rfl
  rw [powerSpectrumInit_eq, powerSpectrumInit_eq, hv]
  cases hb : N.classRun s.par.classView with
  | none => exact Or.inl ⟨_, _, _, rfl, rfl⟩
  | some c =>
    exact Or.inr ⟨_, _, _, rfl, rfl, ⟨clamp_vis h.toVis _ _, h.div, h.oob⟩, h.bg, ⟨_, rfl, rfl⟩, fun _ => rfl⟩

theorem powerSpectrumInit_sim' (N : Num) : Sim Vis (powerSpectrumInit N) (powerSpectrumInit N) VisPs := by
  intro s r h
  have hv : r.par.classView = s.par.classView := by rw [h.eq]; rfl
  rw [powerSpectrumInit_eq, powerSpectrumInit_eq, hv]
  cases hb : N.classRun s.par.classView with
  | none => exact Or.inl ⟨_, _, _, rfl, rfl⟩
  | some c =>
    exact Or.inr ⟨_, _, _, rfl, rfl, ⟨clamp_vis h _ _, h.div, h.oob⟩, ⟨_, rfl, rfl⟩, fun _ => rfl⟩

/-- Both objects have a table that belongs to their settings. -/
structure Tabs (N : Num) (s r : PyObj) : Prop extends Rdy s r where
  ts : TabOk N s
  tr : TabOk N r

theorem integralsInit_some (N : Num) (s : PyObj) (b : Bg) (ps : Spectrum) (hb : s.bg = some b)
    (hp : s.ps = some ps) :
    integralsInit N s = if (s.par.pk_type ≠ .COFFE_PK_LINEAR ∧ s.cls = none) ∨ s.par.RenormOob then (.error .crash, s)
      else (.ok (), { s with
        ints := integrals_init (intNum N s.par ps s.cls b) (s.par.toPar N) s.par.l }) := by
  simp only [integralsInit, hb, hp]

theorem integralsInit_sim (N : Num) : Sim Rdy (integralsInit N) (integralsInit N) (Tabs N) := by
  intro s r h
  obtain ⟨b, hb, hb'⟩ := h.bg
  obtain ⟨ps, hp, hp'⟩ := h.ps
  rw [integralsInit_some N s b ps hb hp, integralsInit_some N r b ps hb' hp']
  have hpk : r.par.pk_type = s.par.pk_type := by rw [h.eq]
  by_cases hc : (s.par.pk_type ≠ .COFFE_PK_LINEAR ∧ s.cls = none) ∨ s.par.RenormOob
  · left
    refine ⟨.crash, s, r, by rw [if_pos hc], ?_⟩
    rw [if_pos]
    rcases hc with hc | hc
    · left; rw [hpk, ← h.cls hc.1]; exact hc
    · exact Or.inr (h.oob.1 hc)
  · right
    have hc' : ¬ ((r.par.pk_type ≠ .COFFE_PK_LINEAR ∧ r.cls = none) ∨ r.par.RenormOob) := by
      rintro (⟨h1, h2⟩ | h1)
      · rw [hpk] at h1
        exact hc (Or.inl ⟨h1, by rw [h.cls h1]; exact h2⟩)
      · exact hc (Or.inr (h.oob.2 h1))
    refine ⟨(), _, _, if_neg hc, if_neg hc', ⟨⟨h.vis, h.div, h.oob⟩, h.bg, h.ps, h.cls⟩, ?_, ?_⟩
    · exact ⟨b, ps, hb, hp, ⟨fun h1 h2 => hc (Or.inl ⟨h1, h2⟩), fun h1 => hc (Or.inr h1)⟩, rfl⟩
    · exact ⟨b, ps, hb', hp', ⟨fun h1 h2 => hc' (Or.inl ⟨h1, h2⟩), fun h1 => hc' (Or.inr h1)⟩, rfl⟩

theorem Rdy.core {s r : PyObj} (h : Vis s r) : s.par.core = r.par.core := by
  rw [h.eq]; rfl

theorem SameVis.core {s r : PyObj} (h : SameVis s r) : s.par.core = r.par.core := by
  rw [h.eq]; rfl

theorem checkReal_sim {P : PyObj → PyObj → Prop} (x a b : ℝ) : Sim P (checkReal x a b) (checkReal x a b) P := by
  unfold checkReal
  split_ifs
  · exact Sim.raise _
  · exact Sim.raise _
  · exact Sim.ret0 _

/-- Returning a cached list that is the same on both sides. -/
theorem Sim.ret {α : Type} {P : PyObj → PyObj → Prop} {f : PyObj → α} (h : ∀ s r, P s r → f s = f r) :
    Sim P (do let s ← Py.get; pure (f s)) (do let s ← Py.get; pure (f s)) P := by
  intro s r hp
  exact Or.inr ⟨f s, s, r, rfl, by rw [h s r hp]; rfl, hp⟩

theorem corrfuncInit_sim (N : Num) :
    Sim (Tabs N) (corrfuncInit N) (corrfuncInit N) (fun s r => s.cf = r.cf) := by
  intro s r h
  obtain ⟨b, hb, hb'⟩ := h.bg
  right
  refine ⟨(), { s with cf := corrfuncRows N s b }, { r with cf := corrfuncRows N r b }, ?_, ?_, ?_⟩
  · simp only [corrfuncInit, hb]
  · simp only [corrfuncInit, hb']
  · exact corrfuncRows_congr N s r h.toRdy h.ts h.tr b

theorem multipolesInit_sim (N : Num) :
    Sim (Tabs N) (multipolesInit N) (multipolesInit N) (fun s r => s.mp = r.mp) := by
  intro s r h
  obtain ⟨b, hb, hb'⟩ := h.bg
  right
  refine ⟨(), { s with mp := multipoleRows N s b }, { r with mp := multipoleRows N r b }, ?_, ?_, ?_⟩
  · simp only [multipolesInit, hb]
  · simp only [multipolesInit, hb']
  · exact multipoleRows_congr N s r h.toRdy h.ts h.tr b

theorem averageInit_sim (N : Num) :
    Sim (Tabs N) (averageInit N) (averageInit N) (fun s r => s.amp = r.amp) := by
  intro s r h
  obtain ⟨b, hb, hb'⟩ := h.bg
  have e1 : r.par.z_max = s.par.z_max := by rw [h.eq]
  have e2 : r.par.z_min = s.par.z_min := by rw [h.eq]
  by_cases hl : s.par.z_max.length < s.par.z_min.length
  · left
    exact ⟨.crash, s, r, by simp only [averageInit, hb]; rw [if_pos hl],
      by simp only [averageInit, hb', e1, e2]; rw [if_pos hl]⟩
  · right
    refine ⟨(), { s with amp := averageRows N s b }, { r with amp := averageRows N r b }, ?_, ?_, ?_⟩
    · simp only [averageInit, hb]; rw [if_neg hl]
    · simp only [averageInit, hb', e1, e2]; rw [if_neg hl]
    · exact averageRows_congr N s r h.toRdy h.ts h.tr b

theorem covInit_sim (N : Num) : Sim Rdy (covInit N) (covInit N) (fun s r => s.cov = r.cov) := by
  intro s r h
  obtain ⟨b, hb, hb'⟩ := h.bg
  obtain ⟨ps, hp, hp'⟩ := h.ps
  have e0 : r.par.covBad = s.par.covBad := by rw [h.eq]; rfl
  cases hc : s.par.covBad with
  | some e => exact Or.inl ⟨e, s, r, by simp only [covInit, hb, hp, hc], by simp only [covInit, hb', hp', e0, hc]⟩
  | none =>
  right
  refine ⟨(), { s with cov := covRows N s.par ps b, acov := [] },
    { r with cov := covRows N r.par ps b, acov := [] }, ?_, ?_, ?_⟩
  · simp only [covInit, hb, hp, hc]
  · simp only [covInit, hb', hp', e0, hc]
  · exact covRows_congr N s r h.toVis ps b

theorem acovInit_sim (N : Num) : Sim Rdy (acovInit N) (acovInit N) (fun s r => s.acov = r.acov) := by
  intro s r h
  obtain ⟨b, hb, hb'⟩ := h.bg
  obtain ⟨ps, hp, hp'⟩ := h.ps
  have e1 : r.par.pk_type = s.par.pk_type := by rw [h.eq]
  have e2 : r.par.z_mean = s.par.z_mean := by rw [h.eq]
  have e3 : r.par.z_min = s.par.z_min := by rw [h.eq]
  by_cases hl : s.par.pk_type ≠ .COFFE_PK_LINEAR ∧ s.par.z_mean.length < s.par.z_min.length
  · left
    exact ⟨.crash, s, r, by simp only [acovInit, hb, hp]; rw [if_pos hl],
      by simp only [acovInit, hb', hp', e1, e2, e3]; rw [if_pos hl]⟩
  · have e0 : r.par.covBad = s.par.covBad := by rw [h.eq]; rfl
    cases hc : s.par.covBad with
    | some e => exact Or.inl ⟨e, s, r, by simp only [acovInit, hb, hp, hc]; rw [if_neg hl],
        by simp only [acovInit, hb', hp', e0, e1, e2, e3, hc]; rw [if_neg hl]⟩
    | none =>
    right
    refine ⟨(), { s with acov := acovRows N s.par ps b, cov := [] },
      { r with acov := acovRows N r.par ps b, cov := [] }, ?_, ?_, ?_⟩
    · simp only [acovInit, hb, hp, hc]; rw [if_neg hl]
    · simp only [acovInit, hb', hp', e0, e1, e2, e3, hc]; rw [if_neg hl]
    · exact acovRows_congr N s r h.toVis ps b

theorem Py.bind_ok {α β : Type} {m : Py α} {f : α → Py β} {s s' : PyObj} {a : α}
    (h : m s = (.ok a, s')) : (m >>= f) s = f a s' := by
  rw [Py.bind_eq, h]

theorem Py.bind_err {α β : Type} {m : Py α} {f : α → Py β} {s s' : PyObj} {e : Err}
    (h : m s = (.error e, s')) : (m >>= f) s = (.error e, s') := by
  rw [Py.bind_eq, h]

theorem ensureBg_some (N : Num) (s : PyObj) (b : Bg) (h : s.bg = some b) :
    ensureBg N false s = (.ok (), s) := by
  simp [ensureBg, ensure, Py.bind_eq, Py.get_eq, h, Py.pure_eq]

theorem maximumSeparation_sim (N : Num) (z dz : ℝ) :
    Sim Rdy (maximumSeparation N z dz) (maximumSeparation N z dz) Rdy := by
  unfold maximumSeparation
  refine Sim.bind (checkReal_sim _ _ _) fun _ => Sim.bind (checkReal_sim _ _ _) fun _ => ?_
  intro s r h
  obtain ⟨b, hb, hb'⟩ := h.bg
  by_cases hz : z + dz > 15
  · left
    refine ⟨.abort, s, r, ?_, ?_⟩
    · exact (Py.bind_ok (ensureBg_some N s b hb)).trans (by simp only [hb]; rw [if_pos hz])
    · exact (Py.bind_ok (ensureBg_some N r b hb')).trans (by simp only [hb']; rw [if_pos hz])
  right
  refine ⟨2 * (b.comoving_distance (z + dz) - b.comoving_distance z), s, r, ?_, ?_, h⟩
  · exact (Py.bind_ok (ensureBg_some N s b hb)).trans (by simp only [hb]; rw [if_neg hz])
  · exact (Py.bind_ok (ensureBg_some N r b hb')).trans (by simp only [hb']; rw [if_neg hz])

theorem checkBins_sim (N : Num) (l : List (ℝ × ℝ)) : Sim Rdy (checkBins N l) (checkBins N l) Rdy := by
  refine Sim.forM l fun i _ => ?_
  exact Sim.bind (maximumSeparation_sim N _ _) fun _ => Sim.ret0 _

theorem signalHere_sim (N : Num) (z x mu : ℝ) (l : ℕ) (out : OutputType) :
    Sim (Tabs N) (signalHere N z x mu l out) (signalHere N z x mu l out) (Tabs N) := by
  intro s r h
  obtain ⟨b, hb, hb'⟩ := h.bg
  right
  refine ⟨.real (signalAt N s b z 0 0 x mu l out), s, r, ?_, ?_, h⟩
  · simp only [signalHere, hb]
  · simp only [signalHere, hb', signalAt_congr N s r h.toRdy h.ts h.tr b]

/-- Reading the object before a block that depends on visible parameters only. -/
theorem Sim.read {β : Type} {P R : PyObj → PyObj → Prop} {f : PyObj → Py β}
    (h : ∀ s r, P s r → f r = f s) (hf : ∀ s, Sim P (f s) (f s) R) :
    Sim P (Py.get >>= f) (Py.get >>= f) R := by
  intro s r hP
  have : (Py.get >>= f) r = f r r := rfl
  rw [this, h s r hP]
  exact hf s s r hP

theorem Sim.raise_bind {α β : Type} {P Q : PyObj → PyObj → Prop} {e : Err} {k k' : α → Py β} :
    Sim P (Py.raise e >>= k) (Py.raise e >>= k') Q :=
  fun s r _ => Or.inl ⟨e, s, r, rfl, rfl⟩

end Coffe
