import Verif.Proofs.PyHistory

/-! # Helper lemmas: every safe call keeps the caches coherent -/

namespace Coffe
open Classical

/-- However it ends (except ending the process), the caches are coherent. -/
def Fine {α : Type} (N : Num) (m : Py α) (s : PyObj) : Prop :=
  ∀ o s', m s = (o, s') → o ≠ .error .abort → o ≠ .error .crash → Coherent N s'

theorem Tri.fine {α : Type} {N : Num} {P Q : PyObj → Prop} {m : Py α} (h : Tri N P m Q)
    (hq : ∀ s, Q s → Coherent N s) {s : PyObj} (hs : P s) : Fine N m s := by
  intro o s' e h1 h2
  rcases h s hs with ⟨a, s'', e', h⟩ | ⟨x, s'', e', h⟩
  · rw [e] at e'; obtain ⟨-, rfl⟩ := Prod.mk.inj e'; exact hq _ h
  · rw [e] at e'; obtain ⟨rfl, rfl⟩ := Prod.mk.inj e'
    rcases h with rfl | rfl | h
    · exact absurd rfl h1
    · exact absurd rfl h2
    · exact h

theorem Post.fine {α : Type} {N : Num} {m : Py α} {s : PyObj} (h : Post (Coherent N) m s) : Fine N m s := by
  intro o s' e _ _
  unfold Post at h
  rw [e] at h; exact h

theorem still_coordsC : Still checkCoordsCorrfunc := by
  intro s; unfold checkCoordsCorrfunc; rw [Py.bind_eq]; dsimp only [Py.get_eq]; split_ifs <;> rfl
theorem still_coordsM : Still checkCoordsMultipoles := by
  intro s; unfold checkCoordsMultipoles; rw [Py.bind_eq]; dsimp only [Py.get_eq]; split_ifs <;> rfl
theorem still_coordsA : Still checkCoordsAverage := by
  intro s; unfold checkCoordsAverage; rw [Py.bind_eq]; dsimp only [Py.get_eq]; split_ifs <;> rfl

/-- Property of the cached results alone. -/
abbrev Lists := List CfRow → List MpRow → List AmpRow → List CovRow → List AcovRow → Prop

/-- `G` with the switch condition. -/
def Lists.res (G : Lists) : Res := fun c d a b e f g => (c.divergent = true → d = true) ∧ G a b e f g

theorem prefix_tri (N : Num) (G : Lists) {β : Type} {k : Unit → Py β} {R : PyObj → Prop}
    (hk : Tri N (fun s => Coherent N s ∧ DivOk s ∧ TabOk N s ∧ G s.cf s.mp s.amp s.cov s.acov ∧
      ∃ b, s.bg = some b) (k ()) R) :
    Tri N (fun s => Coherent N s ∧ G s.cf s.mp s.amp s.cov s.acov)
      (do checkContributions; ensureBg N false; ensurePs N false; ensureInts N false; k ()) R := by
  refine Tri.bind (checkContributions_tri' N G) fun _ => ?_
  refine Tri.bind ((ensureBg_tri N false G.res).mono (fun s h => ⟨h.1, h.2.1, h.2.2⟩) fun s h => h) fun _ => ?_
  refine Tri.bind ((ensurePs_tri N G.res (fun b => ∃ x, b = some x)).mono (fun s h => h) fun s h => h)
    fun _ => ?_
  refine Tri.bind ((ensureInts_tri N G.res).mono (fun s h => ⟨h.1, h.2.1.1, h.2.1, h.2.2⟩) fun s h => h)
    fun _ => ?_
  exact hk.mono (fun s h => ⟨h.1, h.2.1, h.2.2.1, h.2.2.2.1.2, h.2.2.2.2⟩) fun s h => h

theorem prefix_tri_re (N : Num) (G : Lists) {β : Type} {k : Unit → Py β} {R : PyObj → Prop}
    (hk : Tri N (fun s => Coherent N s.strip ∧ DivOk s ∧ TabOk N s ∧ G s.cf s.mp s.amp s.cov s.acov ∧
      ∃ b, s.bg = some b) (k ()) R) :
    Tri N (fun s => Coherent N s ∧ G s.cf s.mp s.amp s.cov s.acov)
      (do checkContributions; ensureBg N true; ensurePs N true; ensureInts N true; k ()) R := by
  refine Tri.bind (checkContributions_tri' N G) fun _ => ?_
  refine Tri.bind ((ensureBg_tri N true G.res).mono (fun s h => ⟨h.1, h.2.1, h.2.2⟩) fun s h => h) fun _ => ?_
  refine Tri.bind ((ensurePs_tri_re N G.res (fun b => ∃ x, b = some x)).mono
    (fun s h => ⟨let ⟨p0, up, h⟩ := h.1; ⟨p0, up, h.strip⟩, h.2⟩) fun s h => h) fun _ => ?_
  refine Tri.bind ((ensureInts_tri_re N G.res).mono (fun s h => ⟨h.1, h.2.1.1, h.2.1, h.2.2⟩) fun s h => h)
    fun _ => ?_
  exact hk.mono (fun s h => ⟨h.1, h.2.1, h.2.2.1, h.2.2.2.1.2, h.2.2.2.2⟩) fun s h => h

theorem TabOk.congr {N : Num} {s s' : PyObj} (h : TabOk N s) (h1 : s'.par = s.par) (h2 : s'.bg = s.bg)
    (h3 : s'.ps = s.ps) (h4 : s'.cls = s.cls) (h5 : s'.ints = s.ints) : TabOk N s' := by
  obtain ⟨b, ps, a1, a2, a3, a4⟩ := h
  exact ⟨b, ps, by rw [h2, a1], by rw [h3, a2], by rw [h1, h4]; exact a3, by rw [h5, h4, h1, a4]⟩

theorem corrfuncInit_some (N : Num) (s : PyObj) (b : Bg) (hb : s.bg = some b) :
    corrfuncInit N s = (.ok (), { s with cf := corrfuncRows N s b }) := by
  simp only [corrfuncInit, hb]

theorem multipolesInit_some (N : Num) (s : PyObj) (b : Bg) (hb : s.bg = some b) :
    multipolesInit N s = (.ok (), { s with mp := multipoleRows N s b }) := by
  simp only [multipolesInit, hb]

theorem averageInit_some (N : Num) (s : PyObj) (b : Bg) (hb : s.bg = some b) :
    averageInit N s = if s.par.z_max.length < s.par.z_min.length then (.error .crash, s)
      else (.ok (), { s with amp := averageRows N s b }) := by
  simp only [averageInit, hb]

theorem covInit_some (N : Num) (s : PyObj) (b : Bg) (ps : Spectrum) (hb : s.bg = some b)
    (hp : s.ps = some ps) (hc : s.par.covBad = none) :
    covInit N s = (.ok (), { s with cov := covRows N s.par ps b, acov := [] }) := by
  simp only [covInit, hb, hp, hc]

/-- What `covBad` can be. -/
theorem covBad_cases (p : PyPar) : p.covBad = none ∨ p.covBad = some .abort ∨ p.covBad = some .crash := by
  unfold PyPar.covBad
  split_ifs <;> simp

theorem acovInit_some (N : Num) (s : PyObj) (b : Bg) (ps : Spectrum) (hb : s.bg = some b)
    (hp : s.ps = some ps) (hc : s.par.covBad = none) :
    acovInit N s =
      if s.par.pk_type ≠ .COFFE_PK_LINEAR ∧ s.par.z_mean.length < s.par.z_min.length then
        (.error .crash, s)
      else (.ok (), { s with acov := acovRows N s.par ps b, cov := [] }) := by
  simp only [acovInit, hb, hp, hc]

/-- The final stage without recomputation, for the three signals. -/
theorem corrfuncInit_tri (N : Num) :
    Tri N (fun s => Coherent N s ∧ DivOk s ∧ TabOk N s ∧ True ∧ ∃ b, s.bg = some b)
      (ensure (fun s => s.cf = []) false (corrfuncInit N)) (Coherent N) := by
  rintro s ⟨⟨p0, up, h⟩, hd, ht, -, b, hb⟩
  simp only [ensure, Py.bind_eq, Py.get_eq, Bool.false_eq_true, or_false]
  split_ifs with hc
  · rw [corrfuncInit_some N s b hb]
    refine Or.inl ⟨(), _, rfl, p0, up, h.core, h.bg, h.ps, ?_, ?_, ?_, ?_, h.cov, h.acov⟩
    · exact Or.inr ⟨ht.congr rfl rfl rfl rfl rfl, hd⟩
    · exact Or.inr ⟨ht.congr rfl rfl rfl rfl rfl, hd, b, hb, rfl⟩
    · exact h.mp.imp id fun h => ⟨h.1.congr rfl rfl rfl rfl rfl, h.2⟩
    · exact h.amp.imp id fun h => ⟨h.1.congr rfl rfl rfl rfl rfl, h.2⟩
  · exact Or.inl ⟨(), s, rfl, p0, up, h⟩

theorem multipolesInit_tri (N : Num) :
    Tri N (fun s => Coherent N s ∧ DivOk s ∧ TabOk N s ∧ True ∧ ∃ b, s.bg = some b)
      (ensure (fun s => s.mp = []) false (multipolesInit N)) (Coherent N) := by
  rintro s ⟨⟨p0, up, h⟩, hd, ht, -, b, hb⟩
  simp only [ensure, Py.bind_eq, Py.get_eq, Bool.false_eq_true, or_false]
  split_ifs with hc
  · rw [multipolesInit_some N s b hb]
    refine Or.inl ⟨(), _, rfl, p0, up, h.core, h.bg, h.ps, ?_, ?_, ?_, ?_, h.cov, h.acov⟩
    · exact Or.inr ⟨ht.congr rfl rfl rfl rfl rfl, hd⟩
    · exact h.cf.imp id fun h => ⟨h.1.congr rfl rfl rfl rfl rfl, h.2⟩
    · exact Or.inr ⟨ht.congr rfl rfl rfl rfl rfl, hd, b, hb, rfl⟩
    · exact h.amp.imp id fun h => ⟨h.1.congr rfl rfl rfl rfl rfl, h.2⟩
  · exact Or.inl ⟨(), s, rfl, p0, up, h⟩

theorem averageInit_tri (N : Num) :
    Tri N (fun s => Coherent N s ∧ DivOk s ∧ TabOk N s ∧ True ∧ ∃ b, s.bg = some b)
      (ensure (fun s => s.amp = []) false (averageInit N)) (Coherent N) := by
  rintro s ⟨⟨p0, up, h⟩, hd, ht, -, b, hb⟩
  simp only [ensure, Py.bind_eq, Py.get_eq, Bool.false_eq_true, or_false]
  split_ifs with hc
  · rw [averageInit_some N s b hb]
    split_ifs with hz
    · exact Or.inr ⟨_, _, rfl, Or.inr (Or.inl rfl)⟩
    refine Or.inl ⟨(), _, rfl, p0, up, h.core, h.bg, h.ps, ?_, ?_, ?_, ?_, h.cov, h.acov⟩
    · exact Or.inr ⟨ht.congr rfl rfl rfl rfl rfl, hd⟩
    · exact h.cf.imp id fun h => ⟨h.1.congr rfl rfl rfl rfl rfl, h.2⟩
    · exact h.mp.imp id fun h => ⟨h.1.congr rfl rfl rfl rfl rfl, h.2⟩
    · exact Or.inr ⟨ht.congr rfl rfl rfl rfl rfl, hd, hz, b, hb, rfl⟩
  · exact Or.inl ⟨(), s, rfl, p0, up, h⟩

/-- The final stage with recomputation. -/
theorem corrfuncInit_tri_re (N : Num) :
    Tri N (fun s => Coherent N s.strip ∧ DivOk s ∧ TabOk N s ∧
      (s.mp = [] ∧ s.amp = [] ∧ s.cov = [] ∧ s.acov = []) ∧ ∃ b, s.bg = some b)
      (corrfuncInit N) (Coherent N) := by
  rintro s ⟨h, hd, ht, ⟨h1, h2, h3, h4⟩, b, hb⟩
  rw [corrfuncInit_some N s b hb]
  exact Or.inl ⟨(), _, rfl, coh_build h (ht.congr rfl rfl rfl rfl rfl) hd (Or.inr ⟨b, hb, rfl⟩) (Or.inl h1)
    (Or.inl h2) h3 h4⟩

theorem multipolesInit_tri_re (N : Num) :
    Tri N (fun s => Coherent N s.strip ∧ DivOk s ∧ TabOk N s ∧
      (s.cf = [] ∧ s.amp = [] ∧ s.cov = [] ∧ s.acov = []) ∧ ∃ b, s.bg = some b)
      (multipolesInit N) (Coherent N) := by
  rintro s ⟨h, hd, ht, ⟨h1, h2, h3, h4⟩, b, hb⟩
  rw [multipolesInit_some N s b hb]
  exact Or.inl ⟨(), _, rfl, coh_build h (ht.congr rfl rfl rfl rfl rfl) hd (Or.inl h1) (Or.inr ⟨b, hb, rfl⟩)
    (Or.inl h2) h3 h4⟩

theorem averageInit_tri_re (N : Num) :
    Tri N (fun s => Coherent N s.strip ∧ DivOk s ∧ TabOk N s ∧
      (s.cf = [] ∧ s.mp = [] ∧ s.cov = [] ∧ s.acov = []) ∧ ∃ b, s.bg = some b)
      (averageInit N) (Coherent N) := by
  rintro s ⟨h, hd, ht, ⟨h1, h2, h3, h4⟩, b, hb⟩
  rw [averageInit_some N s b hb]
  split_ifs with hz
  · exact Or.inr ⟨_, _, rfl, Or.inr (Or.inl rfl)⟩
  · exact Or.inl ⟨(), _, rfl, coh_build h (ht.congr rfl rfl rfl rfl rfl) hd (Or.inl h1) (Or.inl h2)
      (Or.inr ⟨hz, b, hb, rfl⟩) h3 h4⟩

theorem maximumSeparation_tri (N : Num) (P : PyObj → Prop) (z dz : ℝ)
    (hP : ∀ s, P s → ∃ b, s.bg = some b) (hc : ∀ s, P s → Coherent N s) :
    Tri N P (maximumSeparation N z dz) P := by
  unfold maximumSeparation
  refine Tri.bind (Tri.still (still_checkReal _ _ _) hc) fun _ =>
    Tri.bind (Tri.still (still_checkReal _ _ _) hc) fun _ => ?_
  intro s hs
  obtain ⟨b, hb⟩ := hP s hs
  by_cases hz : z + dz > 15
  · refine Or.inr ⟨.abort, s, ?_, Or.inl rfl⟩
    exact (Py.bind_ok (ensureBg_some N s b hb)).trans (by simp only [hb]; rw [if_pos hz])
  refine Or.inl ⟨2 * (b.comoving_distance (z + dz) - b.comoving_distance z), s, ?_, hs⟩
  exact (Py.bind_ok (ensureBg_some N s b hb)).trans (by simp only [hb]; rw [if_neg hz])

theorem checkBins_tri (N : Num) (P : PyObj → Prop) (l : List (ℝ × ℝ))
    (hP : ∀ s, P s → ∃ b, s.bg = some b) (hc : ∀ s, P s → Coherent N s) : Tri N P (checkBins N l) P := by
  unfold checkBins
  induction l with
  | nil => exact Tri.still (still_pure _) hc
  | cons x l ih =>
    simp only [List.forM]
    exact Tri.bind (Tri.bind (maximumSeparation_tri N P _ _ hP hc) fun _ =>
      Tri.still (still_pure _) hc) fun _ => ih

theorem covInit_tri (N : Num) :
    Tri N (fun s => Coherent N s ∧ (∃ b, s.bg = some b) ∧ ∃ ps, s.ps = some ps)
      (covInit N) (Coherent N) := by
  rintro s ⟨⟨p0, up, h⟩, ⟨b, hb⟩, ⟨ps, hp⟩⟩
  rcases covBad_cases s.par with hc | hc | hc
  rotate_left
  · exact Or.inr ⟨.abort, s, by simp only [covInit, hb, hp, hc], Or.inl rfl⟩
  · exact Or.inr ⟨.crash, s, by simp only [covInit, hb, hp, hc], Or.inr (Or.inl rfl)⟩
  rw [covInit_some N s b ps hb hp hc]
  refine Or.inl ⟨(), _, rfl, p0, up, h.core, ?_, h.ps, ?_, ?_, ?_, ?_, Or.inr ⟨b, ps, hb, hp, hc, rfl⟩, Or.inl rfl⟩
  · exact h.bg
  · exact h.ints.imp id fun h => ⟨h.1.congr rfl rfl rfl rfl rfl, h.2⟩
  · exact h.cf.imp id fun h => ⟨h.1.congr rfl rfl rfl rfl rfl, h.2⟩
  · exact h.mp.imp id fun h => ⟨h.1.congr rfl rfl rfl rfl rfl, h.2⟩
  · exact h.amp.imp id fun h => ⟨h.1.congr rfl rfl rfl rfl rfl, h.2⟩

theorem acovInit_tri (N : Num) :
    Tri N (fun s => Coherent N s ∧ (∃ b, s.bg = some b) ∧ ∃ ps, s.ps = some ps)
      (acovInit N) (Coherent N) := by
  rintro s ⟨⟨p0, up, h⟩, ⟨b, hb⟩, ⟨ps, hp⟩⟩
  by_cases hz : s.par.pk_type ≠ .COFFE_PK_LINEAR ∧ s.par.z_mean.length < s.par.z_min.length
  · exact Or.inr ⟨.crash, s, by simp only [acovInit, hb, hp]; rw [if_pos hz], Or.inr (Or.inl rfl)⟩
  rcases covBad_cases s.par with hc | hc | hc
  rotate_left
  · exact Or.inr ⟨.abort, s, by simp only [acovInit, hb, hp, hc]; rw [if_neg hz], Or.inl rfl⟩
  · exact Or.inr ⟨.crash, s, by simp only [acovInit, hb, hp, hc]; rw [if_neg hz], Or.inr (Or.inl rfl)⟩
  rw [acovInit_some N s b ps hb hp hc, if_neg hz]
  refine Or.inl ⟨(), _, rfl, p0, up, h.core, ?_, h.ps, ?_, ?_, ?_, ?_, Or.inl rfl,
    Or.inr ⟨hz, b, ps, hb, hp, hc, rfl⟩⟩
  · exact h.bg
  · exact h.ints.imp id fun h => ⟨h.1.congr rfl rfl rfl rfl rfl, h.2⟩
  · exact h.cf.imp id fun h => ⟨h.1.congr rfl rfl rfl rfl rfl, h.2⟩
  · exact h.mp.imp id fun h => ⟨h.1.congr rfl rfl rfl rfl rfl, h.2⟩
  · exact h.amp.imp id fun h => ⟨h.1.congr rfl rfl rfl rfl rfl, h.2⟩

theorem Tri.ensure {N : Num} {P : PyObj → Prop} {m : PyObj → Prop} {re : Bool} {i : Py Unit}
    (h : Tri N P i (Coherent N)) (hc : ∀ s, P s → Coherent N s) :
    Tri N P (ensure m re i) (Coherent N) := by
  refine Tri.get fun s => ?_
  split_ifs
  · exact h
  · exact (Tri.still (still_pure _) hc).mono (fun _ h => h) hc

theorem Tri.ret {N : Num} {α : Type} {f : PyObj → α} :
    Tri N (Coherent N) (do let s ← Py.get; pure (f s)) (Coherent N) :=
  fun s h => Or.inl ⟨f s, s, rfl, h⟩

theorem Tri.raise_bind {α β : Type} {N : Num} {P Q : PyObj → Prop} {e : Err} {k : α → Py β}
    (h : ∀ s, P s → Coherent N s) : Tri N P (Py.raise e >>= k) Q :=
  fun s hs => Or.inr ⟨e, s, rfl, Or.inr (Or.inr (h s hs))⟩

/-- The two stages of the covariance, without recomputation. -/
theorem covPrefix_tri (N : Num) {β : Type} {k : Py β} {R : PyObj → Prop}
    (hk : Tri N (fun s => Coherent N s ∧ (∃ b, s.bg = some b) ∧ ∃ ps, s.ps = some ps) k R) :
    Tri N (Coherent N) (do ensurePs N false; ensureBg N false; k) R := by
  refine Tri.bind (Q := fun s => Coherent N s ∧ ∃ ps, s.ps = some ps)
    ((ensurePs_tri N (fun _ _ _ _ _ _ _ => True) (fun _ => True)).mono (fun s h => ⟨h, trivial, trivial⟩)
      fun s h => ⟨h.1, h.2.2.2⟩) fun _ => ?_
  refine Tri.bind ?_ fun _ => hk
  rintro s ⟨h, ps, hp⟩
  have : ensureBg N false s = if s.bg = none ∨ false = true then backgroundInit N s else (.ok (), s) := by
    simp only [ensureBg, Coffe.ensure, Py.bind_eq, Py.get_eq]
    split_ifs <;> rfl
  obtain ⟨p0, up, h⟩ := h
  by_cases hb : s.bg = none
  · rw [this, if_pos (Or.inl hb), backgroundInit_eq]
    by_cases ho : s.par.FitOob
    · rw [if_pos ho]; exact Or.inr ⟨_, _, rfl, Or.inr (Or.inl rfl)⟩
    rw [if_neg ho]
    cases hn : N.background s.par.bgView with
    | none => exact Or.inr ⟨_, _, rfl, Or.inl rfl⟩
    | some b => exact Or.inl ⟨_, _, rfl, ⟨p0, up, h.setBg b hn⟩, ⟨b, rfl⟩, ps, hp⟩
  · rw [this, if_neg (by simpa using hb)]
    exact Or.inl ⟨(), s, rfl, ⟨p0, up, h⟩, Option.ne_none_iff_exists'.1 hb, ps, hp⟩

/-- Same with recomputation, when nothing else is cached. -/
theorem covPrefix_tri_re (N : Num) {β : Type} {k : Py β} {R : PyObj → Prop}
    (hk : Tri N (fun s => Coherent N s ∧ (∃ b, s.bg = some b) ∧ ∃ ps, s.ps = some ps) k R) :
    Tri N (fun s => Coherent N s ∧ s.ints = [] ∧ s.NoResults) (do ensurePs N true; ensureBg N true; k) R := by
  refine Tri.bind (Q := fun s => Coherent N s ∧ ∃ ps, s.ps = some ps) ?_ fun _ => ?_
  · rintro s ⟨⟨p0, up, h⟩, hi, hr⟩
    rw [ensurePs_eq, if_pos (Or.inr rfl), powerSpectrumInit_eq]
    cases hb : N.classRun s.par.classView with
    | none => exact Or.inr ⟨_, _, rfl, Or.inl rfl⟩
    | some c =>
      refine Or.inl ⟨_, _, rfl, ⟨s.par, none, ?_⟩, _, rfl⟩
      have := coh_newPs h.bg c hb
      simpa [PyObj.strip, hi, hr.cf, hr.mp, hr.amp, hr.cov, hr.acov] using this
  · refine Tri.bind ?_ fun _ => hk
    rintro s ⟨⟨p0, up, h⟩, ps, hp⟩
    unfold ensureBg
    rw [ensure_true, backgroundInit_eq]
    by_cases ho : s.par.FitOob
    · rw [if_pos ho]; exact Or.inr ⟨_, _, rfl, Or.inr (Or.inl rfl)⟩
    rw [if_neg ho]
    cases hn : N.background s.par.bgView with
    | none => exact Or.inr ⟨_, _, rfl, Or.inl rfl⟩
    | some b => exact Or.inl ⟨_, _, rfl, ⟨p0, up, h.setBg b hn⟩, ⟨b, rfl⟩, ps, hp⟩

/-- Tail of the covariance methods. -/
theorem covTail_tri (N : Num) (re : Bool) :
    Tri N (fun s => Coherent N s ∧ (∃ b, s.bg = some b) ∧ ∃ ps, s.ps = some ps)
      (do
        let s ← Py.get
        checkBins N (s.par.z_mean.zip s.par.deltaz)
        ensure (fun s => s.cov = []) re (covInit N)
        let s ← Py.get
        pure (Out.covariance s.cov)) (Coherent N) := by
  refine Tri.get fun s => ?_
  refine Tri.bind (checkBins_tri N _ _ (fun _ h => h.2.1) fun _ h => h.1) fun _ => ?_
  exact Tri.bind (Tri.ensure (covInit_tri N) fun _ h => h.1) fun _ => Tri.ret

theorem acovTail_tri (N : Num) (re : Bool) :
    Tri N (fun s => Coherent N s ∧ (∃ b, s.bg = some b) ∧ ∃ ps, s.ps = some ps)
      (do
        let s ← Py.get
        checkBins N ((s.par.z_min.zip s.par.z_max).map fun zz => ((zz.1 + zz.2) / 2, (zz.2 - zz.1) / 2))
        ensure (fun s => s.acov = []) re (acovInit N)
        let s ← Py.get
        pure (Out.averageCovariance s.acov)) (Coherent N) := by
  refine Tri.get fun s => ?_
  refine Tri.bind (checkBins_tri N _ _ (fun _ h => h.2.1) fun _ h => h.1) fun _ => ?_
  exact Tri.bind (Tri.ensure (acovInit_tri N) fun _ h => h.1) fun _ => Tri.ret

theorem computeBulk_fine (N : Num) (b : Bulk) (re : Bool) (s : PyObj) (h : Coherent N s)
    (hs : SafeOp s (.computeBulk b re)) : Fine N (computeBulk N re b) s := by
  cases re
  · cases b
    · refine Tri.fine (P := Coherent N) (Q := Coherent N) ?_ (fun _ h => h) h
      unfold computeBulk computeCorrfuncBulk
      refine Tri.bind (Tri.still still_coordsC fun _ h => h) fun _ => ?_
      refine (prefix_tri N (fun _ _ _ _ _ => True) (k := fun _ => _) ?_).mono (fun _ h => ⟨h, trivial⟩) fun _ h => h
      exact Tri.bind (corrfuncInit_tri N) fun _ => Tri.ret
    · refine Tri.fine (P := Coherent N) (Q := Coherent N) ?_ (fun _ h => h) h
      unfold computeBulk computeMultipolesBulk
      refine Tri.bind (Tri.still still_coordsM fun _ h => h) fun _ => ?_
      refine (prefix_tri N (fun _ _ _ _ _ => True) (k := fun _ => _) ?_).mono (fun _ h => ⟨h, trivial⟩) fun _ h => h
      exact Tri.bind (multipolesInit_tri N) fun _ => Tri.ret
    · refine Tri.fine (P := Coherent N) (Q := Coherent N) ?_ (fun _ h => h) h
      unfold computeBulk computeAverageBulk
      refine Tri.bind (Tri.still still_coordsA fun _ h => h) fun _ => ?_
      refine (prefix_tri N (fun _ _ _ _ _ => True) (k := fun _ => _) ?_).mono (fun _ h => ⟨h, trivial⟩) fun _ h => h
      exact Tri.bind (averageInit_tri N) fun _ => Tri.ret
    · refine Tri.fine (P := Coherent N) (Q := Coherent N) ?_ (fun _ h => h) h
      unfold computeBulk computeCovarianceBulk
      refine Tri.bind (Tri.still still_coordsM fun _ h => h) fun _ => ?_
      refine Tri.bind ((checkContributions_tri N).mono (fun _ h => h) fun _ h => h.1) fun _ => ?_
      refine Tri.get fun s => ?_
      dsimp only
      split_ifs
      · exact covPrefix_tri N (covTail_tri N false)
      · exact Tri.raise_bind fun _ h => h
    · refine Tri.fine (P := Coherent N) (Q := Coherent N) ?_ (fun _ h => h) h
      unfold computeBulk computeAverageCovarianceBulk
      refine Tri.bind (Tri.still still_coordsM fun _ h => h) fun _ => ?_
      refine Tri.bind ((checkContributions_tri N).mono (fun _ h => h) fun _ h => h.1) fun _ => ?_
      refine Tri.get fun s => ?_
      dsimp only
      split_ifs
      · exact covPrefix_tri N (acovTail_tri N false)
      · exact Tri.raise_bind fun _ h => h
  · cases b
    · refine Tri.fine (P := fun s => Coherent N s ∧ s.mp = [] ∧ s.amp = [] ∧ s.cov = [] ∧ s.acov = [])
        (Q := Coherent N) ?_ (fun _ h => h) ⟨h, hs⟩
      unfold computeBulk computeCorrfuncBulk
      refine Tri.bind (Tri.still still_coordsC fun _ h => h.1) fun _ => ?_
      refine prefix_tri_re N (fun _ b c d e => b = [] ∧ c = [] ∧ d = [] ∧ e = []) (k := fun _ => _) ?_
      rw [ensure_true]
      exact Tri.bind (corrfuncInit_tri_re N) fun _ => Tri.ret
    · refine Tri.fine (P := fun s => Coherent N s ∧ s.cf = [] ∧ s.amp = [] ∧ s.cov = [] ∧ s.acov = [])
        (Q := Coherent N) ?_ (fun _ h => h) ⟨h, hs⟩
      unfold computeBulk computeMultipolesBulk
      refine Tri.bind (Tri.still still_coordsM fun _ h => h.1) fun _ => ?_
      refine prefix_tri_re N (fun a _ c d e => a = [] ∧ c = [] ∧ d = [] ∧ e = []) (k := fun _ => _) ?_
      rw [ensure_true]
      exact Tri.bind (multipolesInit_tri_re N) fun _ => Tri.ret
    · refine Tri.fine (P := fun s => Coherent N s ∧ s.cf = [] ∧ s.mp = [] ∧ s.cov = [] ∧ s.acov = [])
        (Q := Coherent N) ?_ (fun _ h => h) ⟨h, hs⟩
      unfold computeBulk computeAverageBulk
      refine Tri.bind (Tri.still still_coordsA fun _ h => h.1) fun _ => ?_
      refine prefix_tri_re N (fun a b _ d e => a = [] ∧ b = [] ∧ d = [] ∧ e = []) (k := fun _ => _) ?_
      rw [ensure_true]
      exact Tri.bind (averageInit_tri_re N) fun _ => Tri.ret
    · refine Tri.fine (P := fun s => Coherent N s ∧ s.ints = [] ∧ s.NoResults) (Q := Coherent N) ?_
        (fun _ h => h) ⟨h, hs⟩
      unfold computeBulk computeCovarianceBulk
      refine Tri.bind (Tri.still still_coordsM fun _ h => h.1) fun _ => ?_
      refine Tri.bind (Q := fun s => Coherent N s ∧ s.ints = [] ∧ s.NoResults) ?_ fun _ => ?_
      · rintro s ⟨h, hi, hr⟩
        rcases checkContributions_tri N s h with ⟨a, s', e, h1, h2⟩ | h
        · refine Or.inl ⟨a, s', e, h1, ?_⟩
          rw [checkContributions_eq] at e
          split_ifs at e
          · simp at e
          · have := (Prod.mk.inj e).2
            rw [← this]; exact ⟨hi, hr.cf, hr.mp, hr.amp, hr.cov, hr.acov⟩
        · exact Or.inr h
      refine Tri.get fun s => ?_
      dsimp only
      split_ifs
      · exact covPrefix_tri_re N (covTail_tri N true)
      · exact Tri.raise_bind fun _ h => h.1
    · refine Tri.fine (P := fun s => Coherent N s ∧ s.ints = [] ∧ s.NoResults) (Q := Coherent N) ?_
        (fun _ h => h) ⟨h, hs⟩
      unfold computeBulk computeAverageCovarianceBulk
      refine Tri.bind (Tri.still still_coordsM fun _ h => h.1) fun _ => ?_
      refine Tri.bind (Q := fun s => Coherent N s ∧ s.ints = [] ∧ s.NoResults) ?_ fun _ => ?_
      · rintro s ⟨h, hi, hr⟩
        rcases checkContributions_tri N s h with ⟨a, s', e, h1, h2⟩ | h
        · refine Or.inl ⟨a, s', e, h1, ?_⟩
          rw [checkContributions_eq] at e
          split_ifs at e
          · simp at e
          · have := (Prod.mk.inj e).2
            rw [← this]; exact ⟨hi, hr.cf, hr.mp, hr.amp, hr.cov, hr.acov⟩
        · exact Or.inr h
      refine Tri.get fun s => ?_
      dsimp only
      split_ifs
      · exact covPrefix_tri_re N (acovTail_tri N true)
      · exact Tri.raise_bind fun _ h => h.1

end Coffe
