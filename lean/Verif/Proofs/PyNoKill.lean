import Verif.Proofs.PyMoves
import Verif.Proofs.PyStores
import Verif.Proofs.PyDensity

/-! # Helper lemmas: calls that do not end the process -/

namespace Coffe
open Classical

/-- An outcome that leaves the process alive. -/
def Alive {α : Type} (o : Except Err α) : Prop := o ≠ .error .abort ∧ o ≠ .error .crash

theorem alive_ok {α : Type} (a : α) : Alive (.ok a) := ⟨by simp, by simp⟩

/-- From `P` the method leaves the process alive, and ends in `Q` if it returns. -/
def Runs {α : Type} (P : PyObj → Prop) (m : Py α) (Q : PyObj → Prop) : Prop :=
  ∀ s, P s → Alive (m s).1 ∧ ∀ a s', m s = (.ok a, s') → Q s'

theorem Runs.bind {α β : Type} {P Q R : PyObj → Prop} {m : Py α} {f : α → Py β} (h : Runs P m Q)
    (h' : ∀ a, Runs Q (f a) R) : Runs P (m >>= f) R := by
  intro s hs
  have h1 := h s hs
  rw [Py.bind_eq]
  rcases hx : m s with ⟨o, s'⟩
  rw [hx] at h1
  cases o with
  | error e =>
    refine ⟨⟨fun hh => h1.1.1 ?_, fun hh => h1.1.2 ?_⟩, fun a s'' hh => ?_⟩
    · simpa using hh
    · simpa using hh
    · simp at hh
  | ok a => exact h' a s' (h1.2 a s' rfl)

/-- The method leaves the process alive from every state. -/
def NoKill {α : Type} (m : Py α) : Prop := ∀ s, Alive (m s).1

/-- A check. -/
theorem Runs.still {α : Type} {P : PyObj → Prop} {m : Py α} (h : Still m) (h' : NoKill m) : Runs P m P := by
  intro s hs
  refine ⟨h' s, fun a s' e => ?_⟩
  have := h s
  rw [e] at this
  rw [show s' = s from this]; exact hs

theorem Runs.pure {α : Type} {P : PyObj → Prop} (a : α) : Runs P (Pure.pure a : Py α) P :=
  Runs.still (still_pure a) fun _ => alive_ok a

theorem Runs.get {P : PyObj → Prop} : Runs P Py.get P := Runs.still still_get fun _ => alive_ok _

theorem Runs.modify {P : PyObj → Prop} {f : PyObj → PyObj} (Q : PyObj → Prop) (h : ∀ s, P s → Q (f s)) : Runs P (Py.modify f) Q := by
  intro s hs
  refine ⟨alive_ok _, fun a s' e => ?_⟩
  rw [← (Prod.mk.inj e).2]; exact h s hs

theorem Runs.raise {α : Type} {P Q : PyObj → Prop} (e : Err) (h : e ≠ .abort ∧ e ≠ .crash) : Runs P (Py.raise e : Py α) Q := by
  intro s _
  refine ⟨⟨fun hh => h.1 ?_, fun hh => h.2 ?_⟩, fun a s' hh => ?_⟩
  · exact Except.error.inj hh
  · exact Except.error.inj hh
  · simp [Py.raise] at hh

theorem Runs.ite {α : Type} {P Q : PyObj → Prop} {c : Prop} [Decidable c] {m m' : Py α} (h : Runs P m Q)
    (h' : Runs P m' Q) : Runs P (if c then m else m') Q := by split_ifs <;> assumption

theorem Runs.mono {α : Type} {P P' Q Q' : PyObj → Prop} {m : Py α} (h : Runs P m Q) (h1 : ∀ s, P' s → P s)
    (h2 : ∀ s, Q s → Q' s) : Runs P' m Q' :=
  fun s hs => ⟨(h s (h1 s hs)).1, fun a s' e => h2 _ ((h s (h1 s hs)).2 a s' e)⟩

abbrev Any : PyObj → Prop := fun _ => True

/-! ## Assignments -/

/-- Closes the cases of a check. -/
macro "alive_check" : tactic =>
  `(tactic| ((repeat' split) <;> (intro s; first | exact alive_ok _ | exact ⟨by simp [Py.raise], by simp [Py.raise]⟩)))

theorem runs_checkParameter {P} (v : PyVal) (k : Kind) (a b : ℝ) : Runs P (checkParameter v k a b) P :=
  Runs.still (still_checkParameter v k a b) (by unfold checkParameter; alive_check)
theorem runs_checkInt {P} (v : PyVal) (a b : ℤ) : Runs P (checkInt v a b) P :=
  Runs.still (still_checkInt v a b) (by unfold checkInt; alive_check)
theorem runs_toDouble {P} (v : PyVal) : Runs P (toDouble v) P :=
  Runs.still (still_toDouble v) (by unfold toDouble; alive_check)
theorem runs_toInt {P} (v : PyVal) : Runs P (toInt v) P :=
  Runs.still (still_toInt v) (by unfold toInt; alive_check)
theorem runs_checkOmegas {P} (x : ℝ) : Runs P (checkOmegas x) P :=
  Runs.still (still_checkOmegas x) (by unfold checkOmegas; alive_check)
theorem runs_checkFloats {P} (v : PyVal) (ok : ℝ → Prop) : Runs P (checkFloats v ok) P :=
  Runs.still (still_checkFloats v ok) (by unfold checkFloats; alive_check)
theorem runs_checkMultipoles {P} (v : PyVal) : Runs P (checkMultipoles v) P :=
  Runs.still (still_checkMultipoles v) (by unfold checkMultipoles; alive_check)
theorem runs_checkPopulations {P} (v : PyVal) : Runs P (checkPopulations v) P :=
  Runs.still (still_checkPopulations v) (by unfold checkPopulations; alive_check)
theorem runs_checkDiscrete {P} {α : Type} (v : PyVal) (f : ℤ → Option α) (g : String → Option α) :
    Runs P (checkDiscrete v f g) P :=
  Runs.still (still_checkDiscrete v f g) (by unfold checkDiscrete; alive_check)
theorem runs_checkReal {P} (x a b : ℝ) : Runs P (checkReal x a b) P :=
  Runs.still (still_checkReal x a b) (by unfold checkReal; alive_check)
theorem runs_store {P} (f : PyPar → PyPar) (free : PyObj → PyObj) : Runs P (store f free) Any :=
  Runs.modify Any fun _ _ => trivial

theorem runs_guarded {v : PyVal} {k : Kind} {a b : ℝ} {old : PyPar → ℝ} {act : ℝ → Py Unit}
    (h : ∀ x, Runs Any (act x) Any) : Runs Any (guarded v k a b old act) Any :=
  (runs_checkParameter _ _ _ _).bind fun x => Runs.get.bind fun s => Runs.ite (Runs.pure _) (h x)

/-- No assignment ends the process. -/
theorem runs_setattr (n : Name) (v : PyVal) : Runs Any (setattr n v) Any := by
  cases n <;> unfold setattr <;> dsimp only
  all_goals first
    | exact runs_store _ _
    | exact (runs_checkFloats _ _).bind fun _ => runs_store _ _
    | exact (runs_checkDiscrete _ _ _).bind fun _ => runs_store _ _
    | exact (runs_checkInt _ _ _).bind fun _ => runs_store _ _
    | exact (runs_checkParameter _ _ _ _).bind fun _ => runs_store _ _
    | exact (runs_checkMultipoles _).bind fun _ => runs_store _ _
    | exact (runs_checkPopulations _).bind fun _ => runs_store _ _
    | exact (runs_toInt _).bind fun _ => runs_store _ _
    | exact (runs_toDouble _).bind fun _ => runs_store _ _
    | exact (runs_checkInt _ _ _).bind fun _ => Runs.raise _ ⟨by simp, by simp⟩
    | exact runs_guarded fun x => runs_store _ _
    | exact runs_guarded fun x => Runs.get.bind fun _ => (runs_checkOmegas _).bind fun _ => runs_store _ _
    | exact (runs_checkInt _ _ _).bind fun _ => Runs.get.bind fun _ => Runs.ite (Runs.pure _) (runs_store _ _)
    | exact runs_guarded fun x => (runs_store _ _).bind fun _ => Runs.get.bind fun _ =>
        Runs.ite (Runs.raise _ ⟨by simp, by simp⟩) (runs_store _ _)

theorem setattr_alive (n : Name) (v : PyVal) : NoKill (setattr n v) := fun s => (runs_setattr n v s trivial).1

theorem runs_setAttr (a : Attr) (v : PyVal) : Runs Any (setAttr a v) Any := by
  cases a with
  | settable n => exact runs_setattr n v
  | readonly => exact Runs.raise _ ⟨by simp, by simp⟩
  | unknown => exact Runs.raise _ ⟨by simp, by simp⟩

theorem runs_forM {α : Type} {g : α → Py Unit} (h : ∀ a, Runs Any (g a) Any) (l : List α) :
    Runs Any (l.forM g) Any := by
  induction l with
  | nil => exact Runs.pure _
  | cons a l ih =>
    simp only [List.forM]
    exact (h a).bind fun _ => ih

theorem runs_setParameters (kvs : List (Attr × PyVal)) : Runs Any (setParameters kvs) Any := by
  unfold setParameters
  dsimp only
  refine Runs.ite ((Runs.raise (Q := Any) _ ⟨by simp, by simp⟩).bind fun _ => ?_) ?_ <;>
  exact runs_forM (fun kv => runs_setAttr _ _) _

theorem runs_parametersLoop (ns : List Name) : Runs Any (parametersLoop ns) Any := by
  induction ns with
  | nil => exact Runs.pure _
  | cons n ns ih =>
    unfold parametersLoop
    refine Runs.bind (Q := Any) (fun s _ => ⟨?_, fun _ _ _ => trivial⟩) fun _ => ih.bind fun _ => Runs.pure _
    have h := setattr_alive n (getattr s.par n) s
    unfold parametersStep
    rcases hx : setattr n (getattr s.par n) s with ⟨o, s'⟩
    rw [hx] at h
    cases o with
    | ok a => exact alive_ok _
    | error e =>
      have h1 : e ≠ .abort := fun hh => h.1 (by rw [hh])
      have h2 : e ≠ .crash := fun hh => h.2 (by rw [hh])
      cases e <;> first | exact alive_ok _ | exact absurd rfl h1 | exact absurd rfl h2 | exact ⟨by simp, by simp⟩

theorem runs_resetContributions : Runs Any resetContributions Any := by
  unfold resetContributions
  exact Runs.bind (runs_parametersLoop _) fun ps => runs_forM (fun kv => runs_setattr _ _) _

theorem runs_checkSpline {P} (x y : List ℝ) (h : Interpolable x) : Runs P (checkSpline x y) P := by
  refine Runs.still (still_checkSpline x y) fun s => ?_
  unfold checkSpline
  have hr : ∀ e : Err, e ≠ .abort ∧ e ≠ .crash → Alive ((Py.raise e : Py Samples) s).1 := fun e he =>
    ⟨fun hh => he.1 (Except.error.inj hh), fun hh => he.2 (Except.error.inj hh)⟩
  by_cases hs : sortedUpToTolerance x
  swap
  · rw [if_pos hs]; exact hr _ ⟨by simp, by simp⟩
  rw [if_neg (not_not.2 hs)]
  by_cases hl : x.length = y.length
  swap
  · rw [if_pos hl]; exact hr _ ⟨by simp, by simp⟩
  rw [if_neg (not_not.2 hl)]
  cases h1 : x.head? with
  | none => exact hr _ ⟨by simp, by simp⟩
  | some a =>
    cases h2 : x.getLast? with
    | none => exact hr _ ⟨by simp, by simp⟩
    | some b =>
      dsimp only
      by_cases h3 : a < 0
      · rw [if_pos h3]; exact hr _ ⟨by simp, by simp⟩
      rw [if_neg h3]
      by_cases h4 : b > 15
      · rw [if_pos h4]; exact hr _ ⟨by simp, by simp⟩
      rw [if_neg h4, if_neg]
      · exact alive_ok _
      · rcases h with rfl | h
        · simp at h1
        · rintro (h5 | h5)
          · omega
          · exact h5 h.2

theorem runs_setBias (n : BiasName) (x y : List ℝ) (h : Interpolable x) : Runs Any (setBias n x y) Any :=
  (runs_checkSpline x y h).bind fun _ => runs_store _ _

theorem runs_upload (k pk : List ℝ) (h : Interpolable k) : Runs Any (setPowerSpectrumLinear k pk) Any := by
  unfold setPowerSpectrumLinear
  dsimp only
  refine Runs.ite ((Runs.raise (Q := Any) _ ⟨by simp, by simp⟩).bind fun _ => ?_) ?_ <;>
  refine Runs.ite ((Runs.raise (Q := Any) _ ⟨by simp, by simp⟩).bind fun _ => ?_) ?_ <;>
  · refine (Runs.modify Any fun _ _ => trivial).bind fun _ => ?_
    split
    · refine (Runs.modify Any fun _ _ => trivial).bind fun _ => ?_
      rw [if_neg]
      · exact Runs.modify Any fun _ _ => trivial
      · rcases h with rfl | h
        · rename_i h1 h2; simp at h1
        · rintro (h5 | h5)
          · omega
          · exact h5 h.2
    · exact Runs.raise _ ⟨by simp, by simp⟩

/-! ## Computing -/

/-- The integral tables can be computed: with a spectrum type other than `linear`, CLASS has run if there is a
spectrum. -/
def Good (s : PyObj) : Prop := s.par.pk_type = .COFFE_PK_LINEAR ∨ s.ps = none ∨ s.cls ≠ none

/-- `Good`, the background can be computed, and `K` holds of the settings. -/
structure Fit (K : PyPar → Prop) (s : PyObj) : Prop where
  good : Good s
  bins : 5 ≤ s.par.background_bins
  oob : ¬ s.par.FitOob
  keep : K s.par

/-- `K` does not look at what the computations change. -/
def Inv (K : PyPar → Prop) : Prop :=
  ∀ p a b, K p → K { p with k_min := a, k_max := b } ∧
    (p.contrib.divergent = true → K { p with k_min := a, k_max := b, divergent := true })

theorem fitOob_iff (p : PyPar) : ¬ p.FitOob ↔ (p.flatsky_nonlocal = true → p.z_mean ≠ [] → p.sep ≠ []) :=
  ⟨fun h h1 h2 h3 => h ⟨h1, h2, h3⟩, fun h h1 => h h1.1 h1.2.1 h1.2.2⟩

theorem covBad_even {p : PyPar} (h : p.EvenSampling) : p.covBad = none := by
  unfold PyPar.covBad
  split_ifs with h1 h2 h3
  · exact absurd h2 (h h1).1
  · rfl
  · exact absurd (h h1).2 h3
  · rfl

/-- From `P` the method leaves the process alive if it ends in `R`. -/
def RunsIf {α : Type} (P R : PyObj → Prop) (m : Py α) : Prop := ∀ s, P s → R (m s).2 → Alive (m s).1

theorem RunsIf.bind {α β : Type} {P Q R : PyObj → Prop} {m : Py α} {f : α → Py β} (h : Runs P m Q)
    (h' : ∀ a, RunsIf Q R (f a)) : RunsIf P R (m >>= f) := by
  intro s hs
  have h1 := h s hs
  rw [Py.bind_eq]
  rcases hx : m s with ⟨o, s'⟩
  rw [hx] at h1
  cases o with
  | error e => exact fun _ => ⟨fun hh => h1.1.1 (by simpa using hh), fun hh => h1.1.2 (by simpa using hh)⟩
  | ok a => exact h' a s' (h1.2 a s' rfl)

section
variable {N : Num} (hN : N.Total) {K : PyPar → Prop} (hK : Inv K) {re : Bool}
include hN

omit hN in
include hK in
theorem runs_checkContributions : Runs (Fit K) checkContributions (Fit K) := by
  intro s hs
  rw [checkContributions_eq]
  split_ifs
  · exact ⟨⟨by simp, by simp⟩, fun a s' e => by simp at e⟩
  · refine ⟨alive_ok _, fun a s' e => ?_⟩
    rw [← (Prod.mk.inj e).2]
    refine ⟨hs.good, hs.bins, hs.oob, ?_⟩
    show K { s.par with divergent := s.par.divergent || s.par.contrib.divergent }
    cases hd : s.par.contrib.divergent with
    | false => rw [Bool.or_false]; exact (hK s.par s.par.k_min s.par.k_max hs.keep).1
    | true => rw [Bool.or_true]; exact (hK s.par s.par.k_min s.par.k_max hs.keep).2 hd

omit hN in
theorem runs_ensure {P Q : PyObj → Prop} {p : PyObj → Prop} {i : Py Unit} (h : Runs P i Q)
    (h' : ∀ s, P s → ¬ p s → Q s) : Runs P (ensure p re i) Q := by
  intro s hs
  rw [ensure_eq]
  split_ifs with hc
  · exact h s hs
  · refine ⟨alive_ok _, fun a s' e => ?_⟩
    rw [← (Prod.mk.inj e).2]
    exact h' s hs fun hp => hc (Or.inl hp)

theorem runs_ensureBg {P : PyObj → Prop} (hP : ∀ s b, P s → P { s with bg := some b })
    (hP' : ∀ s, P s → 5 ≤ s.par.background_bins ∧ ¬ s.par.FitOob) :
    Runs P (ensureBg N re) fun s => P s ∧ s.bg ≠ none := by
  refine runs_ensure (fun s hs => ?_) fun s hs hb => ⟨hs, hb⟩
  rw [backgroundInit_eq, if_neg (hP' s hs).2]
  obtain ⟨b, hb⟩ := (hN.background s.par.bgView).2 (hP' s hs).1
  rw [hb]
  refine ⟨alive_ok _, fun a s' e => ?_⟩
  rw [← (Prod.mk.inj e).2]
  exact ⟨hP s b hs, by simp⟩

theorem runs_ensurePs {P : PyObj → Prop} (hP : ∀ (s : PyObj) (c : ClassOut), P s → P { s with
      par := { s.par with k_min := max s.par.k_min c.k_first, k_max := min s.par.k_max c.k_last }
      ps := some c.spectrum, cls := some c.cls, pk2d := s.par.has2d }) :
    Runs P (ensurePs N re) fun s => P s ∧ s.ps ≠ none := by
  refine runs_ensure (fun s hs => ?_) fun s hs hb => ⟨hs, hb⟩
  rw [powerSpectrumInit_eq]
  obtain ⟨c, hc⟩ := hN.classRun s.par.classView
  rw [hc]
  refine ⟨alive_ok _, fun a s' e => ?_⟩
  rw [← (Prod.mk.inj e).2]
  exact ⟨hP s c hs, by simp⟩

omit hN in
include hK in
theorem fit_ps {s : PyObj} (c : ClassOut) (h : Fit K s) : Fit K { s with
      par := { s.par with k_min := max s.par.k_min c.k_first, k_max := min s.par.k_max c.k_last }
      ps := some c.spectrum, cls := some c.cls, pk2d := s.par.has2d } :=
  ⟨Or.inr (Or.inr (by simp)), h.bins, h.oob, (hK _ _ _ h.keep).1⟩

omit hN in
theorem fit_bg {s : PyObj} (h : Fit K s) : 5 ≤ s.par.background_bins ∧ ¬ s.par.FitOob := ⟨h.bins, h.oob⟩

omit hN in
theorem fit_set {s : PyObj} (b : Bg) (h : Fit K s) : Fit K { s with bg := some b } := ⟨h.good, h.bins, h.oob, h.keep⟩

omit hN in
theorem runs_ensureInts (hW : ∀ p, K p → p.WidthsFine) : Runs (fun s => (Fit K s ∧ s.bg ≠ none) ∧ s.ps ≠ none) (ensureInts N re)
    (fun s => (Fit K s ∧ s.bg ≠ none) ∧ s.ps ≠ none) := by
  refine runs_ensure (fun s hs => ?_) fun s hs _ => hs
  obtain ⟨⟨hf, hb⟩, hp⟩ := hs
  obtain ⟨b, hb⟩ := Option.ne_none_iff_exists'.1 hb
  obtain ⟨ps, hp⟩ := Option.ne_none_iff_exists'.1 hp
  unfold integralsInit
  rw [hb, hp]
  dsimp only
  rw [if_neg]
  · refine ⟨alive_ok _, fun a s' e => ?_⟩
    rw [← (Prod.mk.inj e).2]
    exact ⟨⟨⟨by
      rcases hf.good with h | h | h
      · exact Or.inl h
      · rw [hp] at h; cases h
      · exact Or.inr (Or.inr h), hf.bins, hf.oob, hf.keep⟩, by simp [hb]⟩, by simp [hp]⟩
  · rintro (⟨h1, h2⟩ | h1)
    · rcases hf.good with h | h | h
      · exact h1 h
      · rw [hp] at h; cases h
      · exact h h2
    · exact absurd (hW _ hf.keep (Or.inl h1.1)) (not_le.2 h1.2)

include hK in
theorem runs_stages {α : Type} {m : Py α} (hW : ∀ p, K p → p.WidthsFine) (h : Runs (fun s => (Fit K s ∧ s.bg ≠ none) ∧ s.ps ≠ none) m Any) :
    Runs (Fit K) (do checkContributions; ensureBg N re; ensurePs N re; ensureInts N re; m) Any :=
  (runs_checkContributions hK).bind fun _ => (runs_ensureBg hN (fun _ b h => fit_set b h) fun _ h => fit_bg h).bind fun _ =>
    (runs_ensurePs hN fun _ c h => ⟨fit_ps hK c h.1, h.2⟩).bind fun _ => (runs_ensureInts hW).bind fun _ => h

/-- Before the coordinates are checked. -/
def Fit0 (K : PyPar → Prop) (s : PyObj) : Prop := Good s ∧ 5 ≤ s.par.background_bins ∧ K s.par

omit hN in
theorem Fit0.fit {s : PyObj} (h : Fit0 K s) (h' : s.par.sep ≠ []) : Fit K s := ⟨h.1, h.2.1, fun h1 => h' h1.2.2, h.2.2⟩

omit hN in
theorem runs_coordsC : Runs (Fit0 K) checkCoordsCorrfunc (Fit K) := by
  intro s hs
  unfold checkCoordsCorrfunc
  rw [Py.bind_ok (Py.get_eq s)]
  split_ifs with h
  · exact ⟨⟨by simp [Py.raise], by simp [Py.raise]⟩, fun a s' e => by simp [Py.raise] at e⟩
  · refine ⟨alive_ok _, fun a s' e => ?_⟩
    rw [← (Prod.mk.inj e).2]
    exact hs.fit fun h1 => h (Or.inr (Or.inl h1))

omit hN in
theorem runs_coordsM : Runs (Fit0 K) checkCoordsMultipoles (Fit K) := by
  intro s hs
  unfold checkCoordsMultipoles
  rw [Py.bind_ok (Py.get_eq s)]
  split_ifs with h
  · exact ⟨⟨by simp [Py.raise], by simp [Py.raise]⟩, fun a s' e => by simp [Py.raise] at e⟩
  · refine ⟨alive_ok _, fun a s' e => ?_⟩
    rw [← (Prod.mk.inj e).2]
    exact hs.fit fun h1 => h (Or.inr (Or.inl h1))

omit hN in
theorem runs_coordsA : Runs (Fit0 K) checkCoordsAverage (Fit K) := by
  intro s hs
  unfold checkCoordsAverage
  rw [Py.bind_ok (Py.get_eq s)]
  split_ifs with h
  · exact ⟨⟨by simp [Py.raise], by simp [Py.raise]⟩, fun a s' e => by simp [Py.raise] at e⟩
  · refine ⟨alive_ok _, fun a s' e => ?_⟩
    rw [← (Prod.mk.inj e).2]
    exact hs.fit fun h1 => h (Or.inr (Or.inl h1))

theorem runs_maximumSeparation {P : PyObj → Prop} (hP : ∀ s b, P s → P { s with bg := some b })
    (hP' : ∀ s, P s → 5 ≤ s.par.background_bins ∧ ¬ s.par.FitOob) (z dz : ℝ) (hz : z + dz ≤ 15) :
    Runs P (maximumSeparation N z dz) P := by
  unfold maximumSeparation
  refine (runs_checkReal _ _ _).bind fun _ => (runs_checkReal _ _ _).bind fun _ =>
    (runs_ensureBg hN hP hP').bind fun _ s hs => ?_
  obtain ⟨b, hb⟩ := Option.ne_none_iff_exists'.1 hs.2
  rw [hb]
  dsimp only
  rw [if_neg (not_lt.2 hz)]
  refine ⟨alive_ok _, fun a s' e => ?_⟩
  rw [← (Prod.mk.inj e).2]; exact hs.1

theorem runs_checkBins {P : PyObj → Prop} (hP : ∀ s b, P s → P { s with bg := some b })
    (hP' : ∀ s, P s → 5 ≤ s.par.background_bins ∧ ¬ s.par.FitOob) (l : List (ℝ × ℝ)) (hl : ∀ zd ∈ l, zd.1 + zd.2 ≤ 15) :
    Runs P (checkBins N l) P := by
  induction l with
  | nil => exact Runs.pure _
  | cons a l ih =>
    unfold checkBins
    simp only [List.forM]
    exact Runs.bind (Runs.bind (runs_maximumSeparation hN hP hP' _ _ (hl a List.mem_cons_self)) fun _ => Runs.pure _)
      fun _ => ih fun zd h => hl zd (List.mem_cons_of_mem _ h)

omit hN in
theorem runs_init {P : PyObj → Prop} {i : Py Unit} (h : ∀ s, P s → Alive (i s).1) : Runs P i Any :=
  fun s hs => ⟨h s hs, fun _ _ _ => trivial⟩

omit hN in
theorem runs_result {α : Type} {f : PyObj → α} : Runs Any (do let s ← Py.get; pure (f s)) Any :=
  Runs.get.bind fun _ => Runs.pure _

omit hN in
/-- The list of bins is read from the state. -/
theorem runs_getBins {α : Type} {P Q : PyObj → Prop} {m : List (ℝ × ℝ) → Py α} (f : PyObj → List (ℝ × ℝ))
    (hf : ∀ s, P s → ∀ zd ∈ f s, zd.1 + zd.2 ≤ 15)
    (h : ∀ l, (∀ zd ∈ l, zd.1 + zd.2 ≤ 15) → Runs P (m l) Q) : Runs P (do let s ← Py.get; m (f s)) Q := by
  intro s hs
  rw [Py.bind_ok (Py.get_eq s)]
  exact h _ (hf s hs) s hs

omit hN in
theorem inv_widths : Inv PyPar.WidthsFine := fun _ _ _ h => ⟨h, fun hd _ => h (Or.inr hd)⟩

omit hN in
theorem inv_bulk (b : Bulk) : Inv fun p => CarefulBulk p b := fun p x y h => by
  cases b
  case corrfunc => exact inv_widths p x y h
  case multipoles => exact inv_widths p x y h
  case average => exact ⟨⟨(inv_widths p x y h.1).1, h.2⟩, fun hd => ⟨(inv_widths p x y h.1).2 hd, h.2⟩⟩
  all_goals exact ⟨h, fun _ => h⟩

theorem runs_computeBulk (b : Bulk) : Runs (Fit0 fun p => CarefulBulk p b) (computeBulk N re b) Any := by
  have hK := inv_bulk b
  have hbg : ∀ {K : PyPar → Prop} {i : Py Unit} (p : PyObj → Prop),
      (∀ s b, Fit K s → s.bg = some b → Alive (i s).1) →
      Runs (fun s => (Fit K s ∧ s.bg ≠ none) ∧ s.ps ≠ none) (ensure p re i) Any := by
    intro K i p h
    refine runs_ensure (runs_init fun s hs => ?_) fun _ _ _ => trivial
    obtain ⟨b, hb⟩ := Option.ne_none_iff_exists'.1 hs.1.2
    exact h s b hs.1.1 hb
  have hcov : ∀ {K : PyPar → Prop} {i : Py Unit} (p : PyObj → Prop),
      (∀ s b ps, Fit K s → s.bg = some b → s.ps = some ps → Alive (i s).1) →
      Runs (fun s => (Fit K s ∧ s.ps ≠ none) ∧ s.bg ≠ none) (ensure p re i) Any := by
    intro K i p h
    refine runs_ensure (runs_init fun s hs => ?_) fun _ _ _ => trivial
    obtain ⟨b, hb⟩ := Option.ne_none_iff_exists'.1 hs.2
    obtain ⟨ps, hp⟩ := Option.ne_none_iff_exists'.1 hs.1.2
    exact h s b ps hs.1.1 hb hp
  cases b <;> unfold computeBulk <;> dsimp only
  case corrfunc =>
    unfold computeCorrfuncBulk
    exact runs_coordsC.bind fun _ => runs_stages hN hK (fun _ h => h) ((hbg _ fun s b _ hb => by
      unfold corrfuncInit; rw [hb]; exact alive_ok _).bind fun _ => runs_result)
  case multipoles =>
    unfold computeMultipolesBulk
    exact runs_coordsM.bind fun _ => runs_stages hN hK (fun _ h => h) ((hbg _ fun s b _ hb => by
      unfold multipolesInit; rw [hb]; exact alive_ok _).bind fun _ => runs_result)
  case average =>
    unfold computeAverageBulk
    exact runs_coordsA.bind fun _ => runs_stages hN hK (fun _ h => h.1) ((hbg _ fun s b hf hb => by
      unfold averageInit; rw [hb]; dsimp only
      rw [if_neg (not_lt.2 hf.keep.2)]; exact alive_ok _).bind fun _ => runs_result)
  case covariance =>
    unfold computeCovarianceBulk
    have hb : ∀ s, ((Fit (fun p => CarefulBulk p .covariance) s ∧ s.ps ≠ none) ∧ s.bg ≠ none) →
        ∀ zd ∈ s.par.z_mean.zip s.par.deltaz, zd.1 + zd.2 ≤ 15 := fun s h => h.1.1.keep.2
    have hi : ∀ s b ps, Fit (fun p => CarefulBulk p .covariance) s → s.bg = some b → s.ps = some ps → Alive (covInit N s).1 := by
      intro s b ps hf hb hp
      unfold covInit; rw [hb, hp]; dsimp only
      rw [covBad_even hf.keep.1]; exact alive_ok _
    refine runs_coordsM.bind fun _ => (runs_checkContributions hK).bind fun _ => Runs.get.bind fun _ => ?_
    dsimp only
    refine Runs.ite ((Runs.raise (Q := Fit fun p => CarefulBulk p .covariance) _ ⟨by simp, by simp⟩).bind fun _ => ?_) ?_ <;>
    exact (runs_ensurePs hN fun _ c h => fit_ps hK c h).bind fun _ =>
      (runs_ensureBg hN (fun _ b h => ⟨fit_set b h.1, h.2⟩) fun _ h => fit_bg h.1).bind fun _ =>
      runs_getBins _ hb fun l hl =>
      (runs_checkBins hN (fun _ b h => ⟨⟨fit_set b h.1.1, h.1.2⟩, by simp⟩) (fun _ h => fit_bg h.1.1) l hl).bind fun _ =>
      (hcov (fun s => s.cov = []) hi).bind fun _ => runs_result (f := fun s => Out.covariance s.cov)
  case averageCovariance =>
    unfold computeAverageCovarianceBulk
    have hb : ∀ s, ((Fit (fun p => CarefulBulk p .averageCovariance) s ∧ s.ps ≠ none) ∧ s.bg ≠ none) →
        ∀ zd ∈ (s.par.z_min.zip s.par.z_max).map fun zz => ((zz.1 + zz.2) / 2, (zz.2 - zz.1) / 2), zd.1 + zd.2 ≤ 15 := fun s h => by
        intro zd hz
        obtain ⟨zz, hy, rfl⟩ := List.mem_map.1 hz
        have := h.1.1.keep.2.1 zz hy
        dsimp only
        linarith
    have hi : ∀ s b ps, Fit (fun p => CarefulBulk p .averageCovariance) s → s.bg = some b → s.ps = some ps → Alive (acovInit N s).1 := by
      intro s b ps hf hb hp
      unfold acovInit; rw [hb, hp]; dsimp only
      rw [if_neg]
      · rw [covBad_even hf.keep.1]; exact alive_ok _
      · rintro ⟨h1, h2⟩
        exact hf.keep.2.2.elim h1 fun h => absurd h2 (not_lt.2 h)
    refine runs_coordsM.bind fun _ => (runs_checkContributions hK).bind fun _ => Runs.get.bind fun _ => ?_
    dsimp only
    refine Runs.ite ((Runs.raise (Q := Fit fun p => CarefulBulk p .averageCovariance) _ ⟨by simp, by simp⟩).bind fun _ => ?_) ?_ <;>
    exact (runs_ensurePs hN fun _ c h => fit_ps hK c h).bind fun _ =>
      (runs_ensureBg hN (fun _ b h => ⟨fit_set b h.1, h.2⟩) fun _ h => fit_bg h.1).bind fun _ =>
      runs_getBins _ hb fun l hl =>
      (runs_checkBins hN (fun _ b h => ⟨⟨fit_set b h.1.1, h.1.2⟩, by simp⟩) (fun _ h => fit_bg h.1.1) l hl).bind fun _ =>
      (hcov (fun s => s.acov = []) hi).bind fun _ => runs_result (f := fun s => Out.averageCovariance s.acov)

omit hN in
theorem runs_signalHere {P : PyObj → Prop} (hP : ∀ s, P s → s.bg ≠ none) (z r mu : ℝ) (l : ℕ) (out : OutputType) :
    Runs P (signalHere N z r mu l out) Any := by
  intro s hs
  obtain ⟨b, hb⟩ := Option.ne_none_iff_exists'.1 (hP s hs)
  unfold signalHere
  rw [hb]
  exact ⟨alive_ok _, fun _ _ _ => trivial⟩

/-- A careful call leaves the process alive. -/
theorem exec_alive (op : Op) (s : PyObj) (hg : Good s) (hc : Careful N s op) : Alive (exec N op s).1 := by
  have hT : Inv PyPar.WidthsFine := inv_widths
  have hpoint : ∀ {z r mu zmax rmax x a b y w : ℝ} {l : ℕ} {out : OutputType},
      Runs (fun s => (Fit PyPar.WidthsFine s ∧ s.bg ≠ none) ∧ s.ps ≠ none)
        (do checkReal z y zmax; checkReal r w rmax; checkReal x a b; signalHere N z r mu l out) Any :=
    (runs_checkReal _ _ _).bind fun _ => (runs_checkReal _ _ _).bind fun _ => (runs_checkReal _ _ _).bind fun _ =>
      runs_signalHere (fun _ h => h.1.2) _ _ _ _ _
  have hfit : ∀ {K : PyPar → Prop}, s.par.BgFine → K s.par → Fit K s := fun h k => ⟨hg, h.1, (fitOob_iff _).2 h.2, k⟩
  cases op with
  | setattr a v => exact ((runs_setAttr a v).bind (fun _ => Runs.pure _) s trivial).1
  | setParameters kvs => exact ((runs_setParameters kvs).bind (fun _ => Runs.pure _) s trivial).1
  | parameters => exact (Runs.bind (runs_parametersLoop _) (fun _ => Runs.pure _) s trivial).1
  | resetContributions => exact (runs_resetContributions.bind (fun _ => Runs.pure _) s trivial).1
  | setBias n x y => exact ((runs_setBias n x y hc).bind (fun _ => Runs.pure _) s trivial).1
  | setPowerSpectrumLinear k pk => exact ((runs_upload k pk hc.1).bind (fun _ => Runs.pure _) s trivial).1
  | computeBulk b re => exact (runs_computeBulk hN b s ⟨hg, hc⟩).1
  | computeCorrfunc z r mu re =>
    exact (Runs.bind runs_coordsC (fun _ => runs_stages hN hT (fun _ h => h) hpoint) s ⟨hg, hc⟩).1
  | computeMultipole z r l re =>
    exact (Runs.bind runs_coordsM (fun _ => runs_stages hN hT (fun _ h => h) hpoint) s ⟨hg, hc⟩).1
  | integral r n l =>
    have h : RunsIf (Fit PyPar.WidthsFine) (fun t => ∀ e ∈ t.ints, r ≤ N.top e.val) (integralAt N r n l) := by
      unfold integralAt
      refine .bind (runs_checkReal _ _ _) fun _ => .bind (runs_checkReal _ _ _) fun _ =>
        .bind (runs_checkReal _ _ _) fun _ => .bind (runs_ensureBg hN (fun _ b h => fit_set b h) fun _ h => fit_bg h) fun _ =>
        .bind (runs_ensurePs hN fun _ c h => ⟨fit_ps hT c h.1, h.2⟩) fun _ => .bind (runs_ensureInts fun _ h => h) fun _ =>
        fun s _ => ?_
      rw [Py.bind_ok (Py.get_eq s)]
      cases he : coffe_find_integral s.ints ⟨n, l, .int, .int⟩ with
      | none => exact fun _ => ⟨by simp [Py.raise], by simp [Py.raise]⟩
      | some e =>
        dsimp only
        intro hr
        have hr' : r ≤ N.top e.val := by
          refine hr e ?_
          have := List.mem_of_find?_eq_some he
          split_ifs <;> exact this
        rw [if_neg (not_lt.2 hr')]
        exact alive_ok _
    exact h s (hfit hc.1 hc.2.1) hc.2.2
  | maximumSeparation z dz =>
    exact ((runs_maximumSeparation (P := Fit fun _ => True) hN (fun _ b h => fit_set b h) (fun _ h => fit_bg h) z dz
      hc.2).bind (fun _ => Runs.pure _) s (hfit hc.1 trivial)).1
  | background f z =>
    have h : Runs (Fit fun _ => True) (backgroundAt N f z) Any := by
      unfold backgroundAt
      refine (runs_checkReal _ _ _).bind fun _ =>
        (runs_ensureBg hN (fun _ b h => fit_set b h) fun _ h => fit_bg h).bind fun _ s hs => ?_
      obtain ⟨b, hb⟩ := Option.ne_none_iff_exists'.1 hs.2
      rw [hb]
      exact ⟨alive_ok _, fun _ _ _ => trivial⟩
    exact (h s (hfit hc trivial)).1
  | spectrum two f k z1 z2 =>
    have hL : Inv fun p => p.pk_type = s.par.pk_type := fun _ _ _ h => ⟨h, fun _ => h⟩
    have h : RunsIf (Fit fun p => p.pk_type = s.par.pk_type) (fun t => (∀ ps, t.ps = some ps → ¬ ps.Outside k) ∧
        (two = true → s.par.pk_type = .COFFE_PK_LINEAR ∨ (t.pk2d = true ∧ z1 ≤ 2.97))) (spectrumAt N two f k z1 z2) := by
      unfold spectrumAt
      refine .bind Runs.get fun _ => .bind (runs_checkReal _ _ _) fun _ => .bind (runs_checkReal _ _ _) fun _ =>
        .bind (runs_checkReal _ _ _) fun _ => .bind (runs_ensurePs hN fun _ c h => fit_ps hL c h) fun _ =>
        .bind (runs_ensureBg hN (fun _ b h => ⟨fit_set b h.1, h.2⟩) fun _ h => fit_bg h.1) fun _ t hs => ?_
      obtain ⟨b, hb⟩ := Option.ne_none_iff_exists'.1 hs.2
      obtain ⟨ps, hp⟩ := Option.ne_none_iff_exists'.1 hs.1.2
      have ht := hs.1.1.keep
      simp only [hb, hp]
      split_ifs with h1 h2
      · rintro ⟨-, h3⟩
        rcases h3 h1.1 with h3 | h3
        · exact absurd (ht.trans h3) h1.2.1
        · rw [h1.2.2] at h3; cases h3.1
      · rintro ⟨h3, h4⟩
        rcases h2 with h2 | h2
        · exact absurd h2 (h3 ps hp)
        · rcases h4 h2.1 with h4 | h4
          · exact absurd (ht.trans h4) h2.2.1
          · exact absurd h4.2 (not_le.2 h2.2.2)
      · exact fun _ => alive_ok _
    exact h s (hfit hc.1 rfl) hc.2

end

/-! ## The invariant -/

/-- Assignments keep `Good`. -/
theorem setattr_good (n : Name) (v : PyVal) (s : PyObj) (h : Good s) : Good (setattr n v s).2 := by
  by_cases hn : n = .pk_type
  · subst hn
    unfold setattr
    dsimp only
    exact Post.bind_still (still_checkDiscrete _ _ _) h fun _ => Or.inr (Or.inl rfl)
  · have h1 : (setattr n v s).2.par.pk_type = s.par.pk_type :=
      setattr_post n v s (fun t => t.par.pk_type = s.par.pk_type) rfl fun t ht => by
        have hc : ∀ {p : PyPar}, t.par = p → p.pk_type = s.par.pk_type → t.par.pk_type = s.par.pk_type :=
          fun h h' => by rw [h, h']
        cases n <;> first
          | exact absurd rfl hn
          | exact ht.elim
          | (obtain ⟨x, hx⟩ := ht; exact hc hx rfl)
          | (obtain ⟨x, hx | hx⟩ := ht <;> exact hc hx rfl)
    have h2 : Shrinks s (setattr n v s).2 := setattr_shrinks n v s
    rcases h with h | h | h
    · exact Or.inl (h1.trans h)
    · exact Or.inr (Or.inl (h2.ps.elim (fun e => e.trans h) id))
    · exact Or.inr (Or.inr (by rw [h2.cls]; exact h))

/-- `Good` is kept. -/
def KeepsGood (s t : PyObj) : Prop := Good s → Good t

theorem good_stable (re : Bool) : Stable KeepsGood re where
  refl _ h := h
  trans h h' g := h' (h g)
  div _ _ h := h
  bg _ _ h := h
  ps _ _ _ _ := Or.inr (Or.inr (by simp))
  ints _ _ h := h
  cf _ _ h := h
  mp _ _ h := h
  amp _ _ h := h
  covs _ _ _ h := h

theorem good_setAttr (a : Attr) (v : PyVal) : Moves KeepsGood (setAttr a v) := by
  cases a with
  | settable n => exact setattr_good n v
  | readonly => exact (good_stable false).still (still_raise _)
  | unknown => exact (good_stable false).still (still_raise _)

theorem good_forM {α : Type} {g : α → Py Unit} (h : ∀ a, Moves KeepsGood (g a)) (l : List α) :
    Moves KeepsGood (l.forM g) := by
  induction l with
  | nil => exact (good_stable false).still (still_pure _)
  | cons a l ih =>
    simp only [List.forM]
    exact (good_stable false).bind (h a) fun _ => ih

theorem good_parametersLoop (ns : List Name) : Moves KeepsGood (parametersLoop ns) := by
  induction ns with
  | nil => exact (good_stable false).still (still_pure _)
  | cons n ns ih =>
    unfold parametersLoop
    refine (good_stable false).bind (fun s hs => ?_) fun _ => (good_stable false).bind ih fun _ =>
      (good_stable false).still (still_pure _)
    have h := setattr_good n (getattr s.par n) s hs
    unfold parametersStep
    rcases hx : setattr n (getattr s.par n) s with ⟨o, s'⟩
    rw [hx] at h
    cases o with
    | ok a => exact h
    | error e => cases e <;> exact h

theorem upload_keeps (k pk : List ℝ) : Keeps (fun s => (s.par.pk_type, s.cls)) (setPowerSpectrumLinear k pk) := by
  unfold setPowerSpectrumLinear
  dsimp only
  refine keeps_ite (Keeps.bind (still_raise _).keeps fun _ => ?_) ?_ <;>
  refine keeps_ite (Keeps.bind (still_raise _).keeps fun _ => ?_) ?_ <;>
  · refine Keeps.bind (keeps_modify fun s => rfl) fun _ => ?_
    split
    · refine Keeps.bind (keeps_modify fun s => rfl) fun _ => ?_
      refine keeps_ite (Keeps.bind (still_raise _).keeps fun _ => ?_) ?_ <;>
      exact keeps_modify fun s => rfl
    · exact (still_raise _).keeps

/-- A careful call keeps `Good`. -/
theorem exec_good (N : Num) (op : Op) (s : PyObj) (hg : Good s) (hc : Careful N s op) : Good (exec N op s).2 := by
  have H := good_stable false
  have hm : ∀ {α β : Type} {m : Py α} {f : α → β}, Moves KeepsGood m → Moves KeepsGood (do let a ← m; pure (f a)) :=
    fun h => H.bind h fun _ => H.still (still_pure _)
  cases hop : op.computes with
  | some re => exact (good_stable re).exec N op hop s hg
  | none =>
    cases op <;> simp only [Op.computes, reduceCtorEq] at hop
    case setattr a v => exact hm (good_setAttr a v) s hg
    case setParameters kvs =>
      refine hm (f := fun _ => Out.unit) ?_ s hg
      unfold setParameters
      dsimp only
      refine Moves.ite (H.bind (H.still (still_raise _)) fun _ => ?_) ?_ <;>
      exact good_forM (fun kv => good_setAttr _ _) _
    case parameters => exact hm (good_parametersLoop _) s hg
    case resetContributions =>
      refine hm (f := fun _ => Out.unit) ?_ s hg
      unfold resetContributions
      exact H.bind (good_parametersLoop _) fun _ => good_forM (fun kv s => setattr_good _ _ s) _
    case setBias n x y =>
      exact hm (f := fun _ => Out.unit) (H.bind (H.still (still_checkSpline x y)) fun _ _ h => h) s hg
    case setPowerSpectrumLinear k pk =>
      have h := Keeps.map (g := fun _ => Out.unit) (upload_keeps k pk) s
      have h1 : (exec N (.setPowerSpectrumLinear k pk) s).2.par.pk_type = s.par.pk_type := congrArg Prod.fst h
      have h2 : (exec N (.setPowerSpectrumLinear k pk) s).2.cls = s.cls := congrArg Prod.snd h
      rcases hc.2 with h | h
      · exact Or.inl (h1.trans h)
      · exact Or.inr (Or.inr (by rw [h2]; exact h))

theorem run_alive (N : Num) (hN : N.Total) (ops : List Op) : ∀ s, Good s → CarefulRun N ops s →
    ∃ t, run N ops s = some t ∧ Good t := by
  induction ops with
  | nil => intro s hs _; exact ⟨s, rfl, hs⟩
  | cons op ops ih =>
    intro s hs hc
    have ha := exec_alive hN op s hs hc.1
    have hg := exec_good N op s hs hc.1
    obtain ⟨t, ht⟩ := ih _ hg hc.2
    refine ⟨t, ?_, ht.2⟩
    rw [← ht.1, run]
    rcases hx : exec N op s with ⟨o, s'⟩
    rw [hx] at ha
    cases o with
    | ok a => rfl
    | error e =>
      have h1 : e ≠ .abort := fun hh => ha.1 (by rw [hh])
      have h2 : e ≠ .crash := fun hh => ha.2 (by rw [hh])
      cases e <;> first | rfl | exact absurd rfl h1 | exact absurd rfl h2

end Coffe
