import Verif.Proofs.PyStale

/-! # Helper lemmas: on a new object `recompute` makes no difference -/

namespace Coffe
open Classical

/-- Both objects are the same and satisfy `P`. -/
def Same (P : PyObj → Prop) (s r : PyObj) : Prop := s = r ∧ P s

theorem Sim.same {α : Type} {P Q : PyObj → Prop} {m : Py α} (h : ∀ s a s', P s → m s = (.ok a, s') → Q s') :
    Sim (Same P) m m (Same Q) := by
  rintro s r ⟨rfl, hp⟩
  rcases hm : m s with ⟨o, s'⟩
  cases o with
  | error e => exact Or.inl ⟨e, s', s', rfl, rfl⟩
  | ok a => exact Or.inr ⟨a, s', s', rfl, rfl, rfl, h s a s' hp hm⟩

theorem Sim.still_same {α : Type} {P : PyObj → Prop} {m : Py α} (hm : Still m) :
    Sim (Same P) m m (Same P) :=
  Sim.same fun s a s' hp e => by
    have := hm s
    rw [e] at this
    rw [show s' = s from this]; exact hp

theorem Sim.ensure_same {P Q : PyObj → Prop} {m : PyObj → Prop} {i : Py Unit} (hm : ∀ s, P s → m s)
    (hi : Sim (Same P) i i (Same Q)) : Sim (Same P) (ensure m true i) (ensure m false i) (Same Q) := by
  rintro s r ⟨rfl, hp⟩
  rw [ensure_eq, ensure_eq, if_pos (Or.inr rfl), if_pos (Or.inl (hm s hp))]
  exact hi s s ⟨rfl, hp⟩

theorem checkContributions_same {P : PyObj → Prop}
    (hP : ∀ s, P s → P (s.upd fun p => { p with divergent := p.divergent || p.contrib.divergent })) :
    Sim (Same P) checkContributions checkContributions (Same P) := by
  refine Sim.same fun s a s' hp e => ?_
  rw [checkContributions_eq] at e
  split_ifs at e
  · simp at e
  · rw [← (Prod.mk.inj e).2]; exact hP s hp

theorem backgroundInit_ok {N : Num} {s s' : PyObj} (e : backgroundInit N s = (.ok (), s')) :
    ∃ b, s' = { s with bg := some b } := by
  rw [backgroundInit_eq] at e
  split_ifs at e
  · simp at e
  cases hb : N.background s.par.bgView with
  | none => rw [hb] at e; simp at e
  | some b => rw [hb] at e; exact ⟨b, (Prod.mk.inj e).2.symm⟩

theorem powerSpectrumInit_ok {N : Num} {s s' : PyObj} (e : powerSpectrumInit N s = (.ok (), s')) :
    ∃ c : ClassOut, s' = { s with
      par := { s.par with k_min := max s.par.k_min c.k_first, k_max := min s.par.k_max c.k_last }
      ps := some c.spectrum, cls := some c.cls, pk2d := s.par.has2d } := by
  rw [powerSpectrumInit_eq] at e
  cases hb : N.classRun s.par.classView with
  | none => rw [hb] at e; simp at e
  | some c => rw [hb] at e; exact ⟨c, (Prod.mk.inj e).2.symm⟩

theorem integralsInit_ok {N : Num} {s s' : PyObj} (e : integralsInit N s = (.ok (), s')) :
    ∃ l, s' = { s with ints := l } := by
  unfold integralsInit at e
  split at e
  · split_ifs at e
    · simp at e
    · exact ⟨_, (Prod.mk.inj e).2.symm⟩
  · simp at e

/-- The signal prefix. -/
theorem prefix_same (N : Num) {β : Type} {k k' : Unit → Py β} {R : PyObj → PyObj → Prop}
    (hk : Sim (Same PyObj.NoResults) (k ()) (k' ()) R) :
    Sim (Same PyObj.NoCaches)
      (do checkContributions; ensureBg N true; ensurePs N true; ensureInts N true; k ())
      (do checkContributions; ensureBg N false; ensurePs N false; ensureInts N false; k' ()) R := by
  refine Sim.bind (checkContributions_same fun s h => ⟨h.bg, h.ps, h.ints, h.cf, h.mp, h.amp, h.cov, h.acov⟩)
    fun _ => ?_
  refine Sim.bind (Q := Same fun s => s.ps = none ∧ s.ints = [] ∧ s.NoResults) ?_ fun _ =>
    Sim.bind (Q := Same fun s => s.ints = [] ∧ s.NoResults) ?_ fun _ =>
    Sim.bind (Q := Same PyObj.NoResults) ?_ fun _ => hk
  · refine Sim.ensure_same (fun s h => h.bg) (Sim.same fun s a s' h e => ?_)
    obtain ⟨b, rfl⟩ := backgroundInit_ok e
    exact ⟨h.ps, h.ints, h.cf, h.mp, h.amp, h.cov, h.acov⟩
  · refine Sim.ensure_same (fun s h => h.1) (Sim.same fun s a s' h e => ?_)
    obtain ⟨b, rfl⟩ := powerSpectrumInit_ok e
    exact ⟨h.2.1, h.2.2.cf, h.2.2.mp, h.2.2.amp, h.2.2.cov, h.2.2.acov⟩
  · refine Sim.ensure_same (fun s h => h.1) (Sim.same fun s a s' h e => ?_)
    obtain ⟨b, rfl⟩ := integralsInit_ok e
    exact ⟨h.2.cf, h.2.mp, h.2.amp, h.2.cov, h.2.acov⟩

/-- The covariance prefix. -/
theorem covPrefix_same (N : Num) {β : Type} {k k' : Py β} {R : PyObj → PyObj → Prop}
    (hk : Sim (Same PyObj.NoResults) k k' R) :
    Sim (Same PyObj.NoCaches) (do ensurePs N true; ensureBg N true; k)
      (do ensurePs N false; ensureBg N false; k') R := by
  refine Sim.bind (Q := Same fun s => s.bg = none ∧ s.NoResults) ?_ fun _ =>
    Sim.bind (Q := Same PyObj.NoResults) ?_ fun _ => hk
  · refine Sim.ensure_same (fun s h => h.ps) (Sim.same fun s a s' h e => ?_)
    obtain ⟨b, rfl⟩ := powerSpectrumInit_ok e
    exact ⟨h.bg, h.cf, h.mp, h.amp, h.cov, h.acov⟩
  · refine Sim.ensure_same (fun s h => h.1) (Sim.same fun s a s' h e => ?_)
    obtain ⟨b, rfl⟩ := backgroundInit_ok e
    exact ⟨h.2.cf, h.2.mp, h.2.amp, h.2.cov, h.2.acov⟩

theorem Sim.any {α : Type} {P : PyObj → Prop} (m : Py α) : Sim (Same P) m m (Same fun _ => True) :=
  Sim.same fun _ _ _ _ _ => trivial

theorem checkBins_noResults (N : Num) (l : List (ℝ × ℝ)) :
    Sim (Same PyObj.NoResults) (checkBins N l) (checkBins N l) (Same PyObj.NoResults) := by
  refine Sim.forM l fun i _ => Sim.bind (Q := Same PyObj.NoResults) ?_ fun _ => Sim.ret0 _
  unfold maximumSeparation
  refine Sim.bind (Sim.still_same (still_checkReal _ _ _)) fun _ =>
    Sim.bind (Sim.still_same (still_checkReal _ _ _)) fun _ => Sim.bind (Q := Same PyObj.NoResults) ?_ fun _ => ?_
  · refine Sim.same fun s a s' h e => ?_
    rw [ensureBg_eq] at e
    by_cases hb : s.bg = none
    · rw [if_pos (Or.inl hb)] at e
      obtain ⟨b, rfl⟩ := backgroundInit_ok e
      exact ⟨h.cf, h.mp, h.amp, h.cov, h.acov⟩
    · rw [if_neg (by simpa using hb)] at e
      rw [← (Prod.mk.inj e).2]; exact h
  · refine Sim.still_same fun s => ?_
    cases s.bg
    · rfl
    · dsimp only
      split_ifs <;> rfl

theorem last_same {m : PyObj → Prop} {i : Py Unit} {f : PyObj → Out} (hm : ∀ s : PyObj, s.NoResults → m s) :
    Sim (Same PyObj.NoResults) (do ensure m true i; let s ← Py.get; pure (f s))
      (do ensure m false i; let s ← Py.get; pure (f s)) (Same fun _ => True) :=
  Sim.bind (Sim.ensure_same hm (Sim.any _)) fun _ => Sim.any _

/-- On an object without cached values `recompute=True` and the default do the same. -/
theorem computeBulk_same (N : Num) (b : Bulk) :
    Sim (Same PyObj.NoCaches) (computeBulk N true b) (computeBulk N false b) (Same fun _ => True) := by
  cases b
  · unfold computeBulk computeCorrfuncBulk
    refine Sim.bind (Sim.still_same still_coordsC) fun _ => prefix_same N (k := fun _ => _) (k' := fun _ => _) ?_
    exact last_same (f := fun s => Out.corrfunc s.cf) fun s h => h.cf
  · unfold computeBulk computeMultipolesBulk
    refine Sim.bind (Sim.still_same still_coordsM) fun _ => prefix_same N (k := fun _ => _) (k' := fun _ => _) ?_
    exact last_same (f := fun s => Out.multipoles s.mp) fun s h => h.mp
  · unfold computeBulk computeAverageBulk
    refine Sim.bind (Sim.still_same still_coordsA) fun _ => prefix_same N (k := fun _ => _) (k' := fun _ => _) ?_
    exact last_same (f := fun s => Out.average s.amp) fun s h => h.amp
  · unfold computeBulk computeCovarianceBulk
    refine Sim.bind (Sim.still_same still_coordsM) fun _ => Sim.bind (checkContributions_same fun s h =>
      ⟨h.bg, h.ps, h.ints, h.cf, h.mp, h.amp, h.cov, h.acov⟩) fun _ => ?_
    refine Sim.get_bind fun s r h => ?_
    obtain ⟨rfl, h⟩ := h
    dsimp only
    split_ifs
    rotate_left
    · exact Sim.raise_bind
    refine (covPrefix_same N ?_).mono (fun _ _ ⟨h1, h2, h3⟩ => ⟨by rw [h1, h2], by rw [h1]; exact h3.2⟩) fun _ _ h => h
    refine Sim.get_bind fun s r h => ?_
    obtain ⟨rfl, h⟩ := h
    refine (Sim.bind (checkBins_noResults N _) fun _ => ?_).mono
      (fun _ _ ⟨h1, h2, h3⟩ => ⟨by rw [h1, h2], by rw [h1]; exact h3.2⟩) fun _ _ h => h
    exact last_same (f := fun s => Out.covariance s.cov) fun s h => h.cov
  · unfold computeBulk computeAverageCovarianceBulk
    refine Sim.bind (Sim.still_same still_coordsM) fun _ => Sim.bind (checkContributions_same fun s h =>
      ⟨h.bg, h.ps, h.ints, h.cf, h.mp, h.amp, h.cov, h.acov⟩) fun _ => ?_
    refine Sim.get_bind fun s r h => ?_
    obtain ⟨rfl, h⟩ := h
    dsimp only
    split_ifs
    rotate_left
    · exact Sim.raise_bind
    refine (covPrefix_same N ?_).mono (fun _ _ ⟨h1, h2, h3⟩ => ⟨by rw [h1, h2], by rw [h1]; exact h3.2⟩) fun _ _ h => h
    refine Sim.get_bind fun s r h => ?_
    obtain ⟨rfl, h⟩ := h
    refine (Sim.bind (checkBins_noResults N _) fun _ => ?_).mono
      (fun _ _ ⟨h1, h2, h3⟩ => ⟨by rw [h1, h2], by rw [h1]; exact h3.2⟩) fun _ _ h => h
    exact last_same (f := fun s => Out.averageCovariance s.acov) fun s h => h.acov

end Coffe
