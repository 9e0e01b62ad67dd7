import Verif.Proofs.PySetters

/-! # Helper lemmas: safe calls keep the caches coherent -/

namespace Coffe
open Classical

/-- From `P`, the method returns in a state satisfying `Q`, or ends the process, or raises in a coherent
state. -/
def Tri {α : Type} (N : Num) (P : PyObj → Prop) (m : Py α) (Q : PyObj → Prop) : Prop :=
  ∀ s, P s → (∃ a s', m s = (.ok a, s') ∧ Q s') ∨
    (∃ e s', m s = (.error e, s') ∧ (e = .abort ∨ e = .crash ∨ Coherent N s'))

theorem Tri.bind {α β : Type} {N : Num} {P Q R : PyObj → Prop} {m : Py α} {f : α → Py β}
    (h1 : Tri N P m Q) (h2 : ∀ a, Tri N Q (f a) R) : Tri N P (m >>= f) R := by
  intro s hs
  rcases h1 s hs with ⟨a, s', e, hq⟩ | ⟨e, s', he, h⟩
  · rw [Py.bind_ok e]; exact h2 a s' hq
  · right; exact ⟨e, s', Py.bind_err he, h⟩

theorem Tri.still {α : Type} {N : Num} {P : PyObj → Prop} {m : Py α} (hm : Still m)
    (h : ∀ s, P s → Coherent N s) : Tri N P m P := by
  intro s hs
  rcases hms : m s with ⟨o, s'⟩
  have : s' = s := by have := hm s; rw [hms] at this; exact this
  subst this
  cases o with
  | ok a => exact Or.inl ⟨a, s', rfl, hs⟩
  | error e => exact Or.inr ⟨e, s', rfl, Or.inr (Or.inr (h s' hs))⟩

theorem Tri.mono {α : Type} {N : Num} {P P' Q Q' : PyObj → Prop} {m : Py α} (h : Tri N P m Q)
    (hp : ∀ s, P' s → P s) (hq : ∀ s, Q s → Q' s) : Tri N P' m Q' := by
  intro s hs
  rcases h s (hp s hs) with ⟨a, s', e, h⟩ | h
  · exact Or.inl ⟨a, s', e, hq s' h⟩
  · exact Or.inr h

theorem Tri.raise {α : Type} {N : Num} {P Q : PyObj → Prop} (e : Err) (h : ∀ s, P s → Coherent N s) :
    Tri N P (Py.raise e : Py α) Q :=
  fun s hs => Or.inr ⟨e, s, rfl, Or.inr (Or.inr (h s hs))⟩

theorem Tri.get {N : Num} {P R : PyObj → Prop} {β : Type} {f : PyObj → Py β} (h : ∀ s, Tri N P (f s) R) :
    Tri N P (Py.get >>= f) R := fun s hs => h s s hs

/-- Everything removed that is computed from the background and the spectrum. -/
def PyObj.strip (s : PyObj) : PyObj :=
  { s with ints := [], cf := [], mp := [], amp := [], cov := [], acov := [] }

theorem Coh.strip {N : Num} {s : PyObj} {p0 : PyPar} {up : Option Spectrum} (h : Coh N s p0 up) :
    Coh N s.strip p0 up :=
  ⟨h.core, h.bg, h.ps, Or.inl rfl, Or.inl rfl, Or.inl rfl, Or.inl rfl, Or.inl rfl, Or.inl rfl⟩

/-- A property of the contributions, the switch and the cached results. -/
abbrev Res := Contrib → Bool → List CfRow → List MpRow → List AmpRow → List CovRow → List AcovRow → Prop
/-- `G` holds of the object. -/
def Res.on (G : Res) (s : PyObj) : Prop :=
  G s.par.contrib s.par.divergent s.cf s.mp s.amp s.cov s.acov

theorem Coh.setBg {N : Num} {s : PyObj} {p0 : PyPar} {up : Option Spectrum} (h : Coh N s p0 up) (b : Bg)
    (hb : N.background s.par.bgView = some b) : Coh N { s with bg := some b } p0 up := by
  cases hs : s.bg with
  | none =>
    obtain ⟨h1, h2, h3, h4, h5, h6⟩ := h.noBg hs
    exact ⟨h.core, fun b' hb' => by rw [← Option.some.inj hb']; exact hb, h.ps, Or.inl h1, Or.inl h2,
      Or.inl h3, Or.inl h4, Or.inl h5, Or.inl h6⟩
  | some b' =>
    have : b = b' := by have := h.bg b' hs; rw [hb] at this; exact Option.some.inj this
    have e : { s with bg := some b } = s := by rw [this, ← hs]
    rw [e]; exact h

theorem Coh.setPs {N : Num} {s : PyObj} {p0 : PyPar} {up : Option Spectrum} (h : Coh N s p0 up)
    (hs : s.ps = none) (c : ClassOut) (hc : N.classRun s.par.classView = some c) :
    Coh N { s with
      par := { s.par with k_min := max s.par.k_min c.k_first, k_max := min s.par.k_max c.k_last }
      ps := some c.spectrum, cls := some c.cls, pk2d := s.par.has2d } p0 none := by
  obtain ⟨h1, h2, h3, h4, h5, h6⟩ := h.noPs hs
  have hup : s.par.k_min = p0.k_min ∧ s.par.k_max = p0.k_max := by
    rcases h.ps with ⟨-, h1, h2, -⟩ | ⟨-, c', -, h1, -⟩
    · exact ⟨h1, h2⟩
    · rw [hs] at h1; simp at h1
  have hv : p0.classView = s.par.classView := by
    rw [core_eq h.core, ← hup.1, ← hup.2]; rfl
  refine ⟨h.core, h.bg, Or.inr ⟨rfl, c, by rw [hv]; exact hc, rfl, rfl, by rw [← hup.1], by rw [← hup.2]⟩,
    Or.inl h1, Or.inl h2, Or.inl h3, Or.inl h4, Or.inl h5, Or.inl h6⟩

theorem coh_newPs {N : Num} {s : PyObj} (hb : ∀ b, s.bg = some b → N.background s.par.bgView = some b)
    (c : ClassOut) (hc : N.classRun s.par.classView = some c) :
    Coh N (PyObj.strip { s with
      par := { s.par with k_min := max s.par.k_min c.k_first, k_max := min s.par.k_max c.k_last }
      ps := some c.spectrum, cls := some c.cls, pk2d := s.par.has2d }) s.par none :=
  ⟨rfl, hb, Or.inr ⟨rfl, c, hc, rfl, rfl, rfl, rfl⟩, Or.inl rfl, Or.inl rfl, Or.inl rfl, Or.inl rfl,
    Or.inl rfl, Or.inl rfl⟩

/-- Coherent background and spectrum, all ready. -/
structure Base (N : Num) (s : PyObj) : Prop where
  coh : Coherent N s.strip
  bg : ∃ b, s.bg = some b
  ps : ∃ ps, s.ps = some ps

theorem Coh.setDiv {N : Num} {s : PyObj} {p0 : PyPar} {up : Option Spectrum} (h : Coh N s p0 up) :
    Coh N (s.upd fun p => { p with divergent := p.divergent || p.contrib.divergent }) p0 up := by
  by_cases hd : s.par.contrib.divergent = true
  swap
  · have : (s.upd fun p => { p with divergent := p.divergent || p.contrib.divergent }) = s := by
      simp only [Bool.not_eq_true] at hd
      simp [PyObj.upd, hd]
    rw [this]; exact h
  · by_cases hd2 : s.par.divergent = true
    · have : (s.upd fun p => { p with divergent := p.divergent || p.contrib.divergent }) = s := by
        simp only [PyObj.upd, hd2, Bool.true_or]
        rw [← hd2]
      rw [this]; exact h
    · have no : ¬ (s.par.contrib.divergent = true → s.par.divergent = true) := fun h => hd2 (h hd)
      refine ⟨h.core, h.bg, h.ps, ?_, ?_, ?_, ?_, h.cov, h.acov⟩
      · rcases h.ints with h | ⟨-, h⟩ <;> [exact Or.inl h; exact absurd h no]
      · rcases h.cf with h | ⟨-, h, -⟩ <;> [exact Or.inl h; exact absurd h no]
      · rcases h.mp with h | ⟨-, h, -⟩ <;> [exact Or.inl h; exact absurd h no]
      · rcases h.amp with h | ⟨-, h, -⟩ <;> [exact Or.inl h; exact absurd h no]

theorem checkContributions_tri (N : Num) :
    Tri N (Coherent N) checkContributions (fun s => Coherent N s ∧ DivOk s) := by
  intro s h
  rw [checkContributions_eq]
  split_ifs with h1
  · exact Or.inr ⟨_, s, rfl, Or.inr (Or.inr h)⟩
  · refine Or.inl ⟨(), _, rfl, ?_, ?_⟩
    · obtain ⟨p0, up, h⟩ := h
      exact ⟨p0, up, h.setDiv⟩
    · intro hd
      show (s.par.divergent || s.par.contrib.divergent) = true
      rw [show s.par.contrib.divergent = true from hd]; simp

/-- `_check_contributions` also keeps the cached results. -/
theorem checkContributions_tri' (N : Num) (G : List CfRow → List MpRow → List AmpRow → List CovRow →
    List AcovRow → Prop) :
    Tri N (fun s => Coherent N s ∧ G s.cf s.mp s.amp s.cov s.acov) checkContributions
      (fun s => Coherent N s ∧ DivOk s ∧ G s.cf s.mp s.amp s.cov s.acov) := by
  rintro s ⟨h, hG⟩
  rcases checkContributions_tri N s h with ⟨a, s', e, h1, h2⟩ | h
  · refine Or.inl ⟨a, s', e, h1, h2, ?_⟩
    rw [checkContributions_eq] at e
    split_ifs at e
    · simp at e
    · have := (Prod.mk.inj e).2
      rw [← this]; exact hG
  · exact Or.inr h

theorem backgroundInit_tri (N : Num) (G : Res) :
    Tri N (fun s => Coherent N s ∧ G.on s) (backgroundInit N)
      (fun s => Coherent N s ∧ G.on s ∧ ∃ b, s.bg = some b) := by
  rintro s ⟨⟨p0, up, h⟩, hG⟩
  rw [backgroundInit_eq]
  by_cases ho : s.par.FitOob
  · rw [if_pos ho]; exact Or.inr ⟨_, _, rfl, Or.inr (Or.inl rfl)⟩
  rw [if_neg ho]
  cases hb : N.background s.par.bgView with
  | none => exact Or.inr ⟨_, _, rfl, Or.inl rfl⟩
  | some b => exact Or.inl ⟨_, _, rfl, ⟨p0, up, h.setBg b hb⟩, hG, b, rfl⟩

theorem ensureBg_tri (N : Num) (re : Bool) (G : Res) :
    Tri N (fun s => Coherent N s ∧ G.on s) (ensureBg N re)
      (fun s => Coherent N s ∧ G.on s ∧ ∃ b, s.bg = some b) := by
  intro s hs
  have : ensureBg N re s = if s.bg = none ∨ re = true then backgroundInit N s else (.ok (), s) := by
    simp only [ensureBg, ensure, Py.bind_eq, Py.get_eq]
    split_ifs <;> rfl
  rw [this]
  split_ifs with h
  · exact backgroundInit_tri N G s hs
  · push Not at h
    exact Or.inl ⟨(), s, rfl, hs.1, hs.2, Option.ne_none_iff_exists'.1 h.1⟩

theorem ensurePs_eq (N : Num) (re : Bool) (s : PyObj) :
    ensurePs N re s = if s.ps = none ∨ re = true then powerSpectrumInit N s else (.ok (), s) := by
  simp only [ensurePs, ensure, Py.bind_eq, Py.get_eq]
  split_ifs <;> rfl

theorem ensureInts_eq (N : Num) (re : Bool) (s : PyObj) :
    ensureInts N re s = if s.ints = [] ∨ re = true then integralsInit N s else (.ok (), s) := by
  simp only [ensureInts, ensure, Py.bind_eq, Py.get_eq]
  split_ifs <;> rfl

/-- The spectrum stage without recomputation. -/
theorem ensurePs_tri (N : Num) (G : Res) (K : Option Bg → Prop) :
    Tri N (fun s => Coherent N s ∧ G.on s ∧ K s.bg) (ensurePs N false)
      (fun s => Coherent N s ∧ G.on s ∧ K s.bg ∧ ∃ ps, s.ps = some ps) := by
  rintro s ⟨⟨p0, up, h⟩, hG, hK⟩
  rw [ensurePs_eq]
  by_cases hp : s.ps = none
  · rw [if_pos (Or.inl hp), powerSpectrumInit_eq]
    cases hb : N.classRun s.par.classView with
    | none => exact Or.inr ⟨_, _, rfl, Or.inl rfl⟩
    | some c => exact Or.inl ⟨_, _, rfl, ⟨p0, none, h.setPs hp c hb⟩, hG, hK, _, rfl⟩
  · rw [if_neg (by simpa using hp)]
    exact Or.inl ⟨(), s, rfl, ⟨p0, up, h⟩, hG, hK, Option.ne_none_iff_exists'.1 hp⟩

/-- The spectrum stage with recomputation: what was derived from the old spectrum is not claimed. -/
theorem ensurePs_tri_re (N : Num) (G : Res) (K : Option Bg → Prop) :
    Tri N (fun s => Coherent N s.strip ∧ G.on s ∧ K s.bg) (ensurePs N true)
      (fun s => Coherent N s.strip ∧ G.on s ∧ K s.bg ∧ ∃ ps, s.ps = some ps) := by
  rintro s ⟨⟨p0, up, h⟩, hG, hK⟩
  rw [ensurePs_eq, if_pos (Or.inr rfl), powerSpectrumInit_eq]
  cases hb : N.classRun s.par.classView with
  | none => exact Or.inr ⟨_, _, rfl, Or.inl rfl⟩
  | some c => exact Or.inl ⟨_, _, rfl, ⟨s.par, none, coh_newPs h.bg c hb⟩, hG, hK, _, rfl⟩

/-- Assemble coherence from the pieces. -/
theorem coh_build {N : Num} {s : PyObj} (h : Coherent N s.strip) (ht : TabOk N s) (hd : DivOk s)
    (hcf : s.cf = [] ∨ ∃ b, s.bg = some b ∧ s.cf = corrfuncRows N s b)
    (hmp : s.mp = [] ∨ ∃ b, s.bg = some b ∧ s.mp = multipoleRows N s b)
    (hamp : s.amp = [] ∨ (¬ s.par.z_max.length < s.par.z_min.length ∧
      ∃ b, s.bg = some b ∧ s.amp = averageRows N s b))
    (hcov : s.cov = []) (hacov : s.acov = []) : Coherent N s := by
  obtain ⟨p0, up, h⟩ := h
  refine ⟨p0, up, h.core, h.bg, h.ps, Or.inr ⟨ht, hd⟩, ?_, ?_, ?_, Or.inl hcov, Or.inl hacov⟩
  · exact hcf.imp id fun h => ⟨ht, hd, h⟩
  · exact hmp.imp id fun h => ⟨ht, hd, h⟩
  · exact hamp.imp id fun h => ⟨ht, hd, h⟩

/-- The integral stage without recomputation. -/
theorem ensureInts_tri (N : Num) (G : Res) :
    Tri N (fun s => Coherent N s ∧ DivOk s ∧ G.on s ∧ (∃ b, s.bg = some b) ∧ ∃ ps, s.ps = some ps)
      (ensureInts N false)
      (fun s => Coherent N s ∧ DivOk s ∧ TabOk N s ∧ G.on s ∧ ∃ b, s.bg = some b) := by
  rintro s ⟨⟨p0, up, h⟩, hd, hG, ⟨b, hb⟩, ⟨ps, hp⟩⟩
  rw [ensureInts_eq]
  by_cases hi : s.ints = []
  · rw [if_pos (Or.inl hi), integralsInit_some N s b ps hb hp]
    have tabNe : ¬ TabOk N s := by
      rintro ⟨b, ps, -, -, -, hi'⟩
      rw [hi'] at hi
      simp [integrals_init, baseKeys] at hi
    split_ifs with hc
    · exact Or.inr ⟨_, _, rfl, Or.inr (Or.inl rfl)⟩
    · have ht : TabOk N { s with
          ints := integrals_init (intNum N s.par ps s.cls b) (s.par.toPar N) s.par.l } :=
        ⟨b, ps, hb, hp, ⟨fun h1 h2 => hc (Or.inl ⟨h1, h2⟩), fun h1 => hc (Or.inr h1)⟩, rfl⟩
      refine Or.inl ⟨(), _, rfl, ⟨p0, up, h.core, h.bg, h.ps, Or.inr ⟨ht, hd⟩, ?_, ?_, ?_, h.cov, h.acov⟩,
        hd, ht, hG, b, hb⟩
      · rcases h.cf with h | ⟨h, -⟩ <;> [exact Or.inl h; exact absurd h tabNe]
      · rcases h.mp with h | ⟨h, -⟩ <;> [exact Or.inl h; exact absurd h tabNe]
      · rcases h.amp with h | ⟨h, -⟩ <;> [exact Or.inl h; exact absurd h tabNe]
  · rw [if_neg (by simpa using hi)]
    refine Or.inl ⟨(), s, rfl, ⟨p0, up, h⟩, hd, ?_, hG, b, hb⟩
    rcases h.ints with h | ⟨h, -⟩ <;> [exact absurd h hi; exact h]

/-- The integral stage with recomputation. -/
theorem ensureInts_tri_re (N : Num) (G : Res) :
    Tri N (fun s => Coherent N s.strip ∧ DivOk s ∧ G.on s ∧ (∃ b, s.bg = some b) ∧ ∃ ps, s.ps = some ps)
      (ensureInts N true)
      (fun s => Coherent N s.strip ∧ DivOk s ∧ TabOk N s ∧ G.on s ∧ ∃ b, s.bg = some b) := by
  rintro s ⟨h, hd, hG, ⟨b, hb⟩, ⟨ps, hp⟩⟩
  rw [ensureInts_eq, if_pos (Or.inr rfl), integralsInit_some N s b ps hb hp]
  split_ifs with hc
  · exact Or.inr ⟨_, _, rfl, Or.inr (Or.inl rfl)⟩
  · exact Or.inl ⟨(), _, rfl, h, hd, ⟨b, ps, hb, hp, ⟨fun h1 h2 => hc (Or.inl ⟨h1, h2⟩), fun h1 => hc (Or.inr h1)⟩, rfl⟩, hG, b, hb⟩

end Coffe
