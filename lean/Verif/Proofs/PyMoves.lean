import Verif.Proofs.PyKeeps
import Verif.Proofs.PyFresh
import Verif.Spec.PyComputing

/-! # Helper lemmas: relations between the object before and after a call -/

namespace Coffe
open Classical

/-- However the method ends, the object before and after are related by `R`. -/
def Moves {α : Type} (R : PyObj → PyObj → Prop) (m : Py α) : Prop := ∀ s, R s (m s).2

/-- What a relation has to satisfy to hold between the objects before and after a computing call. -/
structure Stable (R : PyObj → PyObj → Prop) (re : Bool) : Prop where
  refl : ∀ s, R s s
  trans : ∀ {s t u}, R s t → R t u → R s u
  div : ∀ s : PyObj, s.par.contrib.divergent = true → R s (s.upd fun p => { p with divergent := true })
  bg : ∀ s b, R s { s with bg := some b }
  ps : ∀ (s : PyObj) (c : ClassOut), s.ps = none ∨ re = true → R s { s with
      par := { s.par with k_min := max s.par.k_min c.k_first, k_max := min s.par.k_max c.k_last }
      ps := some c.spectrum, cls := some c.cls, pk2d := s.par.has2d }
  ints : ∀ s l, R s { s with ints := l }
  cf : ∀ s l, R s { s with cf := l }
  mp : ∀ s l, R s { s with mp := l }
  amp : ∀ s l, R s { s with amp := l }
  covs : ∀ s l l', R s { s with cov := l, acov := l' }

section
variable {R : PyObj → PyObj → Prop} {re : Bool} (H : Stable R re)
include H

theorem Stable.lower : Stable R false :=
  { H with ps := fun s c h => H.ps s c (Or.inl (by simpa using h)) }

theorem Stable.bind {α β : Type} {m : Py α} {g : α → Py β} (h : Moves R m) (h' : ∀ a, Moves R (g a)) :
    Moves R (m >>= g) := by
  intro s
  rw [Py.bind_eq]
  have h1 := h s
  rcases hx : m s with ⟨o, s'⟩
  rw [hx] at h1
  cases o with
  | error e => exact h1
  | ok a => exact H.trans h1 (h' a s')

theorem Stable.still {α : Type} {m : Py α} (h : Still m) : Moves R m := by
  intro s; rw [h s]; exact H.refl s

omit H in
theorem Moves.ite {α : Type} {c : Prop} [Decidable c] {m m' : Py α} (h : Moves R m) (h' : Moves R m') :
    Moves R (if c then m else m') := by split_ifs <;> assumption

theorem Stable.ensure {p : PyObj → Prop} {i : Py Unit} (h : ∀ s, p s ∨ re = true → R s (i s).2) :
    Moves R (Coffe.ensure p re i) := by
  intro s
  rw [ensure_eq]
  split_ifs with hc
  · exact h s hc
  · exact H.refl s

theorem Stable.checkContributions : Moves R checkContributions := by
  intro s
  rw [checkContributions_eq]
  split_ifs
  · exact H.refl s
  · show R s (s.upd fun p => { p with divergent := p.divergent || p.contrib.divergent })
    cases hd : s.par.contrib.divergent with
    | false =>
      have : (s.upd fun p => { p with divergent := p.divergent || p.contrib.divergent }) = s := by
        simp only [PyObj.upd, hd, Bool.or_false]
      rw [this]; exact H.refl s
    | true =>
      have : (s.upd fun p => { p with divergent := p.divergent || p.contrib.divergent }) =
          s.upd fun p => { p with divergent := true } := by
        simp only [PyObj.upd, hd, Bool.or_true]
      rw [this]; exact H.div s hd

theorem Stable.ensureBg : Moves R (ensureBg N re) := by
  refine H.ensure fun s _ => ?_
  rw [backgroundInit_eq]
  split_ifs
  · exact H.refl s
  cases N.background s.par.bgView with
  | none => exact H.refl s
  | some b => exact H.bg s b

theorem Stable.ensurePs : Moves R (ensurePs N re) := by
  refine H.ensure fun s hc => ?_
  rw [powerSpectrumInit_eq]
  cases N.classRun s.par.classView with
  | none => exact H.refl s
  | some c => exact H.ps s c hc

theorem Stable.ensureInts : Moves R (ensureInts N re) := by
  refine H.ensure fun s _ => ?_
  unfold integralsInit
  split
  · split_ifs
    · exact H.refl s
    · exact H.ints s _
  · exact H.refl s

theorem Stable.corrfuncInit {s : PyObj} : R s (corrfuncInit N s).2 := by
  unfold Coffe.corrfuncInit
  split
  · exact H.cf s _
  · exact H.refl s

theorem Stable.multipolesInit {s : PyObj} : R s (multipolesInit N s).2 := by
  unfold Coffe.multipolesInit
  split
  · exact H.mp s _
  · exact H.refl s

theorem Stable.averageInit {s : PyObj} : R s (averageInit N s).2 := by
  unfold Coffe.averageInit
  split
  · split_ifs
    · exact H.refl s
    · exact H.amp s _
  · exact H.refl s

theorem Stable.covInit {s : PyObj} : R s (covInit N s).2 := by
  unfold Coffe.covInit
  split
  · split
    · exact H.refl s
    · exact H.covs s _ _
  · exact H.refl s

theorem Stable.acovInit {s : PyObj} : R s (acovInit N s).2 := by
  unfold Coffe.acovInit
  split
  · split_ifs
    · exact H.refl s
    · split
      · exact H.refl s
      · exact H.covs s _ _
  · exact H.refl s

theorem Stable.maximumSeparation (z dz : ℝ) : Moves R (maximumSeparation N z dz) := by
  unfold Coffe.maximumSeparation
  refine H.bind (H.still (still_checkReal _ _ _)) fun _ => H.bind (H.still (still_checkReal _ _ _)) fun _ =>
    H.bind H.lower.ensureBg fun _ s => ?_
  split
  · split_ifs <;> exact H.refl s
  · exact H.refl s

theorem Stable.checkBins (l : List (ℝ × ℝ)) : Moves R (checkBins N l) := by
  induction l with
  | nil => exact H.still (still_pure _)
  | cons a l ih =>
    unfold Coffe.checkBins
    simp only [List.forM]
    exact H.bind (H.bind (H.maximumSeparation _ _) fun _ => H.still (still_pure _)) fun _ => ih

theorem Stable.stages {α : Type} {m : Py α} (h : Moves R m) :
    Moves R (do Coffe.checkContributions; Coffe.ensureBg N re; Coffe.ensurePs N re; Coffe.ensureInts N re; m) :=
  H.bind H.checkContributions fun _ => H.bind H.ensureBg fun _ => H.bind H.ensurePs fun _ =>
    H.bind H.ensureInts fun _ => h

theorem Stable.computeBulk (N : Num) (b : Bulk) : Moves R (computeBulk N re b) := by
  cases b <;> unfold Coffe.computeBulk <;> dsimp only
  case corrfunc =>
    unfold computeCorrfuncBulk
    exact H.bind (H.still still_coordsC) fun _ => H.stages (H.bind (H.ensure fun _ _ => H.corrfuncInit) fun _ =>
      H.bind (H.still still_get) fun _ => H.still (still_pure _))
  case multipoles =>
    unfold computeMultipolesBulk
    exact H.bind (H.still still_coordsM) fun _ => H.stages (H.bind (H.ensure fun _ _ => H.multipolesInit) fun _ =>
      H.bind (H.still still_get) fun _ => H.still (still_pure _))
  case average =>
    unfold computeAverageBulk
    exact H.bind (H.still still_coordsA) fun _ => H.stages (H.bind (H.ensure fun _ _ => H.averageInit) fun _ =>
      H.bind (H.still still_get) fun _ => H.still (still_pure _))
  case covariance =>
    unfold computeCovarianceBulk
    refine H.bind (H.still still_coordsM) fun _ => H.bind H.checkContributions fun _ =>
      H.bind (H.still still_get) fun _ => ?_
    dsimp only
    refine Moves.ite (H.bind (H.still (still_raise _)) fun _ => ?_) ?_
    all_goals
    exact H.bind H.ensurePs fun _ => H.bind H.ensureBg fun _ => H.bind (H.still still_get) fun _ =>
      H.bind (H.checkBins _) fun _ => H.bind (H.ensure fun _ _ => H.covInit) fun _ =>
      H.bind (H.still still_get) fun _ => H.still (still_pure _)
  case averageCovariance =>
    unfold computeAverageCovarianceBulk
    refine H.bind (H.still still_coordsM) fun _ => H.bind H.checkContributions fun _ =>
      H.bind (H.still still_get) fun _ => ?_
    dsimp only
    refine Moves.ite (H.bind (H.still (still_raise _)) fun _ => ?_) ?_
    all_goals
    exact H.bind H.ensurePs fun _ => H.bind H.ensureBg fun _ => H.bind (H.still still_get) fun _ =>
      H.bind (H.checkBins _) fun _ => H.bind (H.ensure fun _ _ => H.acovInit) fun _ =>
      H.bind (H.still still_get) fun _ => H.still (still_pure _)

theorem Stable.point {z r mu zmax rmax : ℝ} {x a b : ℝ} {l : ℕ} {out : OutputType} {y w : ℝ} :
    Moves R (do checkReal z y zmax; checkReal r w rmax; checkReal x a b; signalHere N z r mu l out) :=
  H.bind (H.still (still_checkReal _ _ _)) fun _ => H.bind (H.still (still_checkReal _ _ _)) fun _ =>
    H.bind (H.still (still_checkReal _ _ _)) fun _ => H.still (signalHere_still _ _ _ _ _ _)

/-- Every computing call. -/
theorem Stable.exec (N : Num) (op : Op) (hop : op.computes = some re) : Moves R (exec N op) := by
  cases op <;> unfold Op.computes at hop <;> simp only [Option.some.injEq, reduceCtorEq] at hop
  case computeBulk b re' => subst hop; exact H.computeBulk N b
  case computeCorrfunc z r mu re' =>
    subst hop
    unfold Coffe.exec computeCorrfunc
    exact H.bind (H.still still_coordsC) fun _ => H.stages H.point
  case computeMultipole z r l re' =>
    subst hop
    unfold Coffe.exec computeMultipole
    exact H.bind (H.still still_coordsM) fun _ => H.stages H.point
  case integral r n l =>
    unfold Coffe.exec integralAt
    refine H.bind (H.still (still_checkReal _ _ _)) fun _ =>
      H.bind (H.still (still_checkReal _ _ _)) fun _ => H.bind (H.still (still_checkReal _ _ _)) fun _ =>
      H.bind H.lower.ensureBg fun _ => H.bind H.lower.ensurePs fun _ =>
      H.bind H.lower.ensureInts fun _ => H.bind (H.still still_get) fun s => ?_
    split
    · exact H.still (still_raise _)
    · split_ifs
      · exact H.still (still_raise _)
      · exact H.still (still_pure _)
  case maximumSeparation z dz =>
    exact H.bind (H.maximumSeparation z dz) fun _ => H.still (still_pure _)
  case background f z =>
    unfold Coffe.exec backgroundAt
    refine H.bind (H.still (still_checkReal _ _ _)) fun _ => H.bind H.lower.ensureBg fun _ s => ?_
    split <;> exact H.refl s
  case spectrum two f k z1 z2 =>
    unfold Coffe.exec spectrumAt
    refine H.bind (H.still still_get) fun _ => H.bind (H.still (still_checkReal _ _ _)) fun _ =>
      H.bind (H.still (still_checkReal _ _ _)) fun _ => H.bind (H.still (still_checkReal _ _ _)) fun _ =>
      H.bind H.lower.ensurePs fun _ => H.bind H.lower.ensureBg fun _ s => ?_
    split
    · split_ifs <;> exact H.refl s
    · exact H.refl s

end

end Coffe
