import Verif.Proofs.PyFresh

/-! # Helper lemmas: evaluating the methods on a new object and on one with everything cached -/

namespace Coffe
open Classical

/-- The parameters after a first successful run of the stages. -/
noncomputable def PyPar.afterRun (p : PyPar) (c : ClassOut) : PyPar :=
  { p with
    divergent := p.divergent || p.contrib.divergent
    k_min := max p.k_min c.k_first
    k_max := min p.k_max c.k_last }

/-- A new object after background, CLASS and integrals. -/
noncomputable def ready (N : Num) (p : PyPar) (b : Bg) (c : ClassOut) : PyObj :=
  { fresh (p.afterRun c) with
    bg := some b
    ps := some c.spectrum
    cls := some c.cls
    pk2d := p.has2d
    ints := integrals_init (intNum N (p.afterRun c) c.spectrum (some c.cls) b) ((p.afterRun c).toPar N)
      p.l }

/-- A new object after CLASS and background. -/
noncomputable def readyCov (p : PyPar) (b : Bg) (c : ClassOut) : PyObj :=
  { fresh (p.afterRun c) with
    bg := some b
    ps := some c.spectrum
    cls := some c.cls, pk2d := p.has2d }

theorem checkCoordsAverage_ok (s : PyObj)
    (h : ¬ (s.par.l = [] ∨ s.par.sep = [] ∨ s.par.z_min = [] ∨ s.par.z_max = [])) :
    checkCoordsAverage s = (.ok (), s) := by
  unfold checkCoordsAverage
  rw [Py.bind_ok (Py.get_eq s), if_neg h]; rfl
theorem checkCoordsCorrfunc_ok (s : PyObj)
    (h : ¬ (s.par.mu = [] ∨ s.par.sep = [] ∨ s.par.z_mean = [])) :
    checkCoordsCorrfunc s = (.ok (), s) := by
  unfold checkCoordsCorrfunc
  rw [Py.bind_ok (Py.get_eq s), if_neg h]; rfl
theorem checkCoordsMultipoles_ok (s : PyObj)
    (h : ¬ (s.par.l = [] ∨ s.par.sep = [] ∨ s.par.z_mean = [])) :
    checkCoordsMultipoles s = (.ok (), s) := by
  unfold checkCoordsMultipoles
  rw [Py.bind_ok (Py.get_eq s), if_neg h]; rfl

theorem integrals_ne_nil (num : Key → Integral) (par : Par) (ls : List ℕ) :
    integrals_init num par ls ≠ [] := by simp [integrals_init, baseKeys]

theorem ensureBg_none (N : Num) (re : Bool) {s : PyObj} (h : s.bg = none) :
    ensureBg N re s = backgroundInit N s := by rw [ensureBg_eq, if_pos (Or.inl h)]
theorem ensurePs_none (N : Num) (re : Bool) {s : PyObj} (h : s.ps = none) :
    ensurePs N re s = powerSpectrumInit N s := by rw [ensurePs_eq, if_pos (Or.inl h)]
theorem ensureInts_none (N : Num) (re : Bool) {s : PyObj} (h : s.ints = []) :
    ensureInts N re s = integralsInit N s := by rw [ensureInts_eq, if_pos (Or.inl h)]
theorem ensure_none {m : PyObj → Prop} (re : Bool) (i : Py Unit) {s : PyObj} (h : m s) :
    ensure m re i s = i s := by rw [ensure_eq, if_pos (Or.inl h)]

section
variable {N : Num} {p : PyPar} {b : Bg} {c : ClassOut} (hb : N.background p.bgView = some b)
  (hc : N.classRun p.classView = some c) (hp : p.contrib.any = true)
include hb hc hp

theorem prefix_fresh {β : Type} (ho : ¬ p.FitOob) (hw : ¬ (p.afterRun c).RenormOob) {k : Unit → Py β} :
    (do checkContributions; ensureBg N false; ensurePs N false; ensureInts N false; k () : Py β) (fresh p) =
      k () (ready N p b c) := by
  have e1 : checkContributions (fresh p) =
      (.ok (), fresh { p with divergent := p.divergent || p.contrib.divergent }) := by
    rw [checkContributions_eq]; exact if_neg (by simp [fresh, hp])
  rw [Py.bind_ok e1]
  have e2 : ensureBg N false (fresh { p with divergent := p.divergent || p.contrib.divergent }) =
      (.ok (), { fresh { p with divergent := p.divergent || p.contrib.divergent } with bg := some b }) := by
    rw [ensureBg_none _ _ (by rfl)]
    exact backgroundInit_of ho hb
  rw [Py.bind_ok e2]
  have e3 : ensurePs N false
      { fresh { p with divergent := p.divergent || p.contrib.divergent } with bg := some b } =
      (.ok (), readyCov p b c) := by
    rw [ensurePs_none _ _ (by rfl), powerSpectrumInit_eq]
    show (match N.classRun p.classView with | some c => _ | none => _) = _
    rw [hc]; rfl
  rw [Py.bind_ok e3]
  have e4 : ensureInts N false (readyCov p b c) = (.ok (), ready N p b c) := by
    rw [ensureInts_none _ _ (by rfl), integralsInit_some N _ b c.spectrum rfl rfl,
      if_neg (by rintro (⟨-, h⟩ | h); · cases h
                 · exact hw h)]
    rfl
  rw [Py.bind_ok e4]

theorem prefix_oob {β : Type} (ho : ¬ p.FitOob) (hw : (p.afterRun c).RenormOob) {k : Unit → Py β} :
    (do checkContributions; ensureBg N false; ensurePs N false; ensureInts N false; k () : Py β) (fresh p) =
      (.error .crash, readyCov p b c) := by
  have e1 : checkContributions (fresh p) =
      (.ok (), fresh { p with divergent := p.divergent || p.contrib.divergent }) := by
    rw [checkContributions_eq]; exact if_neg (by simp [fresh, hp])
  rw [Py.bind_ok e1]
  have e2 : ensureBg N false (fresh { p with divergent := p.divergent || p.contrib.divergent }) =
      (.ok (), { fresh { p with divergent := p.divergent || p.contrib.divergent } with bg := some b }) := by
    rw [ensureBg_none _ _ (by rfl)]
    exact backgroundInit_of ho hb
  rw [Py.bind_ok e2]
  have e3 : ensurePs N false
      { fresh { p with divergent := p.divergent || p.contrib.divergent } with bg := some b } =
      (.ok (), readyCov p b c) := by
    rw [ensurePs_none _ _ (by rfl), powerSpectrumInit_eq]
    show (match N.classRun p.classView with | some c => _ | none => _) = _
    rw [hc]; rfl
  rw [Py.bind_ok e3]
  have e4 : ensureInts N false (readyCov p b c) = (.error .crash, readyCov p b c) := by
    rw [ensureInts_none _ _ (by rfl), integralsInit_some N _ b c.spectrum rfl rfl]
    exact if_pos (Or.inr hw)
  rw [Py.bind_eq, e4]

/-- Too few widths of the redshift bins: the computation reads behind the end of the list. -/
theorem corrfunc_oob (h1 : ¬ (p.mu = [] ∨ p.sep = [] ∨ p.z_mean = [])) (hw : (p.afterRun c).RenormOob) :
    (computeBulk N false .corrfunc (fresh p)).1 = .error .crash := by
  show (computeCorrfuncBulk N false _).1 = _
  unfold computeCorrfuncBulk
  have e1 : checkCoordsCorrfunc (fresh p) = (.ok (), fresh p) := by
    exact checkCoordsCorrfunc_ok _ h1
  rw [Py.bind_ok e1, prefix_oob hb hc hp (fun hf => h1 (by simp [hf.2.2])) hw (k := fun _ => _)]

theorem average_fresh (h1 : ¬ (p.l = [] ∨ p.sep = [] ∨ p.z_min = [] ∨ p.z_max = []))
    (h2 : ¬ p.z_max.length < p.z_min.length)
    (hw : ¬ (p.afterRun c).RenormOob := by simp [PyPar.RenormOob, PyPar.afterRun, PyPar.default]) :
    computeBulk N false .average (fresh p) = (.ok (.average (averageRows N (ready N p b c) b)),
      { ready N p b c with amp := averageRows N (ready N p b c) b }) := by
  show computeAverageBulk N false _ = _
  unfold computeAverageBulk
  have e1 : checkCoordsAverage (fresh p) = (.ok (), fresh p) := by
    exact checkCoordsAverage_ok _ h1
  rw [Py.bind_ok e1, prefix_fresh hb hc hp (fun hf => h1 (by simp [hf.2.2])) hw (k := fun _ => _)]
  have e2 : ensure (fun s => s.amp = []) false (averageInit N) (ready N p b c) =
      (.ok (), { ready N p b c with amp := averageRows N (ready N p b c) b }) := by
    rw [ensure_none _ _ (by rfl), averageInit_some N _ b rfl]
    exact if_neg h2
  rw [Py.bind_ok e2]; rfl

theorem corrfunc_fresh (h1 : ¬ (p.mu = [] ∨ p.sep = [] ∨ p.z_mean = []))
    (hw : ¬ (p.afterRun c).RenormOob := by simp [PyPar.RenormOob, PyPar.afterRun, PyPar.default]) :
    computeBulk N false .corrfunc (fresh p) = (.ok (.corrfunc (corrfuncRows N (ready N p b c) b)),
      { ready N p b c with cf := corrfuncRows N (ready N p b c) b }) := by
  show computeCorrfuncBulk N false _ = _
  unfold computeCorrfuncBulk
  have e1 : checkCoordsCorrfunc (fresh p) = (.ok (), fresh p) := by
    exact checkCoordsCorrfunc_ok _ h1
  rw [Py.bind_ok e1, prefix_fresh hb hc hp (fun hf => h1 (by simp [hf.2.2])) hw (k := fun _ => _)]
  have e2 : ensure (fun s => s.cf = []) false (corrfuncInit N) (ready N p b c) =
      (.ok (), { ready N p b c with cf := corrfuncRows N (ready N p b c) b }) := by
    rw [ensure_none _ _ (by rfl), corrfuncInit_some N _ b rfl]
  rw [Py.bind_ok e2]; rfl

theorem multipoles_fresh (h1 : ¬ (p.l = [] ∨ p.sep = [] ∨ p.z_mean = []))
    (hw : ¬ (p.afterRun c).RenormOob := by simp [PyPar.RenormOob, PyPar.afterRun, PyPar.default]) :
    computeBulk N false .multipoles (fresh p) = (.ok (.multipoles (multipoleRows N (ready N p b c) b)),
      { ready N p b c with mp := multipoleRows N (ready N p b c) b }) := by
  show computeMultipolesBulk N false _ = _
  unfold computeMultipolesBulk
  have e1 : checkCoordsMultipoles (fresh p) = (.ok (), fresh p) := by
    exact checkCoordsMultipoles_ok _ h1
  rw [Py.bind_ok e1, prefix_fresh hb hc hp (fun hf => h1 (by simp [hf.2.2])) hw (k := fun _ => _)]
  have e2 : ensure (fun s => s.mp = []) false (multipolesInit N) (ready N p b c) =
      (.ok (), { ready N p b c with mp := multipoleRows N (ready N p b c) b }) := by
    rw [ensure_none _ _ (by rfl), multipolesInit_some N _ b rfl]
  rw [Py.bind_ok e2]; rfl

end

theorem checkReal_ok {x a b : ℝ} (h1 : a ≤ x) (h2 : x ≤ b) (s : PyObj) : checkReal x a b s = (.ok (), s) := by
  unfold checkReal
  rw [if_neg (not_lt.2 h1), if_neg (not_lt.2 h2)]; rfl

theorem checkBins_ok (N : Num) (s : PyObj) (b : Bg) (hb : s.bg = some b) (l : List (ℝ × ℝ))
    (h : ∀ zd ∈ l, 0 ≤ zd.1 ∧ zd.1 + zd.2 ≤ 15 ∧ 0 ≤ zd.2 ∧ zd.2 ≤ zd.1) : checkBins N l s = (.ok (), s) := by
  induction l with
  | nil => rfl
  | cons zd l ih =>
    obtain ⟨h1, h2, h3, h4⟩ := h zd (by simp)
    have e : maximumSeparation N zd.1 zd.2 s =
        (.ok (2 * (b.comoving_distance (zd.1 + zd.2) - b.comoving_distance zd.1)), s) := by
      unfold maximumSeparation
      rw [Py.bind_ok (checkReal_ok h1 (by linarith) s), Py.bind_ok (checkReal_ok h3 h4 s)]
      exact (Py.bind_ok (ensureBg_some N s b hb)).trans (by simp only [hb]; rw [if_neg (not_lt.2 h2)])
    have e' : (do let _ ← maximumSeparation N zd.1 zd.2; pure () : Py Unit) s = (.ok (), s) := by
      rw [Py.bind_ok e]; rfl
    unfold checkBins
    simp only [List.forM]
    rw [Py.bind_ok e']
    exact ih fun zd h' => h zd (by simp [h'])

/-- The lists of the covariance have the same length. -/
def CovLengths (p : PyPar) : Prop :=
  p.deltaz.length = p.z_mean.length ∧ p.density1.length = p.z_mean.length ∧
    p.density2.length = p.z_mean.length ∧ p.pixelsize.length = p.z_mean.length ∧
    p.fsky.length = p.z_mean.length

theorem covariance_fresh {N : Num} {p : PyPar} {b : Bg} {c : ClassOut}
    (hb : N.background p.bgView = some b) (hc : N.classRun p.classView = some c)
    (hp : p.contrib.any = true) (h1 : ¬ (p.l = [] ∨ p.sep = [] ∨ p.z_mean = [])) (h2 : CovLengths p)
    (h3 : ∀ zd ∈ p.z_mean.zip p.deltaz, 0 ≤ zd.1 ∧ zd.1 + zd.2 ≤ 15 ∧ 0 ≤ zd.2 ∧ zd.2 ≤ zd.1)
    (hcb : p.covBad = none := by rfl) : computeBulk N false .covariance (fresh p) =
      (.ok (.covariance (covRows N (p.afterRun c) c.spectrum b)),
        { readyCov p b c with cov := covRows N (p.afterRun c) c.spectrum b }) := by
  show computeCovarianceBulk N false _ = _
  unfold computeCovarianceBulk
  have e1 : checkCoordsMultipoles (fresh p) = (.ok (), fresh p) := by
    exact checkCoordsMultipoles_ok _ h1
  have e2 : checkContributions (fresh p) =
      (.ok (), fresh { p with divergent := p.divergent || p.contrib.divergent }) := by
    rw [checkContributions_eq]; exact if_neg (by simp [fresh, hp])
  rw [Py.bind_ok e1, Py.bind_ok e2, Py.bind_ok (Py.get_eq _)]
  dsimp only
  rw [if_neg (by simpa [fresh, CovLengths] using h2)]
  have e3 : ensurePs N false (fresh { p with divergent := p.divergent || p.contrib.divergent }) =
      (.ok (), { fresh (p.afterRun c) with ps := some c.spectrum, cls := some c.cls, pk2d := p.has2d }) := by
    rw [ensurePs_none _ _ (by rfl), powerSpectrumInit_eq]
    show (match N.classRun p.classView with | some c => _ | none => _) = _
    rw [hc]; rfl
  have e4 : ensureBg N false { fresh (p.afterRun c) with ps := some c.spectrum, cls := some c.cls, pk2d := p.has2d } =
      (.ok (), readyCov p b c) := by
    rw [ensureBg_none _ _ (by rfl)]
    exact backgroundInit_of (fun hf => h1 (Or.inr (Or.inl hf.2.2))) hb
  rw [Py.bind_ok e3, Py.bind_ok e4, Py.bind_ok (Py.get_eq _),
    Py.bind_ok (checkBins_ok N (readyCov p b c) b rfl
      ((readyCov p b c).par.z_mean.zip (readyCov p b c).par.deltaz) h3)]
  have e5 : ensure (fun s => s.cov = []) false (covInit N) (readyCov p b c) =
      (.ok (), { readyCov p b c with cov := covRows N (p.afterRun c) c.spectrum b }) := by
    rw [ensure_none _ _ (by rfl), covInit_some N _ b c.spectrum rfl rfl hcb]
    rfl
  rw [Py.bind_ok e5]; rfl

/-! ## Everything cached -/

section
variable {N : Num} {s : PyObj} {b : Bg} (hb : s.bg = some b) (hps : s.ps ≠ none)
  (hi : s.ints ≠ []) (hp : s.par.contrib.any = true)
include hb hps hi hp

theorem prefix_cached {β : Type} {k : Unit → Py β} :
    (do checkContributions; ensureBg N false; ensurePs N false; ensureInts N false; k () : Py β) s =
      k () (s.upd fun p => { p with divergent := p.divergent || p.contrib.divergent }) := by
  have e1 : checkContributions s =
      (.ok (), s.upd fun p => { p with divergent := p.divergent || p.contrib.divergent }) := by
    rw [checkContributions_eq]; exact if_neg (by simp [hp])
  rw [Py.bind_ok e1]
  have e2 : ensureBg N false (s.upd fun p => { p with divergent := p.divergent || p.contrib.divergent }) =
      (.ok (), s.upd fun p => { p with divergent := p.divergent || p.contrib.divergent }) :=
    ensureBg_some N _ b hb
  rw [Py.bind_ok e2]
  have e3 : ensurePs N false (s.upd fun p => { p with divergent := p.divergent || p.contrib.divergent }) =
      (.ok (), s.upd fun p => { p with divergent := p.divergent || p.contrib.divergent }) := by
    rw [ensurePs_eq, if_neg (by simpa [PyObj.upd] using hps)]
  rw [Py.bind_ok e3]
  have e4 : ensureInts N false (s.upd fun p => { p with divergent := p.divergent || p.contrib.divergent }) =
      (.ok (), s.upd fun p => { p with divergent := p.divergent || p.contrib.divergent }) := by
    rw [ensureInts_eq, if_neg (by simpa [PyObj.upd] using hi)]
  rw [Py.bind_ok e4]

theorem average_cached (h1 : ¬ (s.par.l = [] ∨ s.par.sep = [] ∨ s.par.z_min = [] ∨ s.par.z_max = []))
    (h2 : s.amp ≠ []) : (computeBulk N false .average s).1 = .ok (.average s.amp) := by
  show (computeAverageBulk N false _).1 = _
  unfold computeAverageBulk
  have e1 : checkCoordsAverage s = (.ok (), s) := by
    exact checkCoordsAverage_ok _ h1
  rw [Py.bind_ok e1, prefix_cached hb hps hi hp (k := fun _ => _)]
  rw [Py.bind_ok (by rw [ensure_eq, if_neg (by simpa [PyObj.upd] using h2)])]; rfl

theorem corrfunc_cached (h1 : ¬ (s.par.mu = [] ∨ s.par.sep = [] ∨ s.par.z_mean = []))
    (h2 : s.cf ≠ []) : (computeBulk N false .corrfunc s).1 = .ok (.corrfunc s.cf) := by
  show (computeCorrfuncBulk N false _).1 = _
  unfold computeCorrfuncBulk
  have e1 : checkCoordsCorrfunc s = (.ok (), s) := by
    exact checkCoordsCorrfunc_ok _ h1
  rw [Py.bind_ok e1, prefix_cached hb hps hi hp (k := fun _ => _)]
  rw [Py.bind_ok (by rw [ensure_eq, if_neg (by simpa [PyObj.upd] using h2)])]; rfl

end

theorem covariance_cached {N : Num} {s : PyObj} {b : Bg} (hb : s.bg = some b) (hps : s.ps ≠ none)
    (hp : s.par.contrib.any = true) (h1 : ¬ (s.par.l = [] ∨ s.par.sep = [] ∨ s.par.z_mean = []))
    (h2 : CovLengths s.par)
    (h3 : ∀ zd ∈ s.par.z_mean.zip s.par.deltaz, 0 ≤ zd.1 ∧ zd.1 + zd.2 ≤ 15 ∧ 0 ≤ zd.2 ∧ zd.2 ≤ zd.1)
    (h4 : s.cov ≠ []) : (computeBulk N false .covariance s).1 = .ok (.covariance s.cov) := by
  show (computeCovarianceBulk N false _).1 = _
  unfold computeCovarianceBulk
  have e1 : checkCoordsMultipoles s = (.ok (), s) := by
    exact checkCoordsMultipoles_ok _ h1
  have e2 : checkContributions s =
      (.ok (), s.upd fun p => { p with divergent := p.divergent || p.contrib.divergent }) := by
    rw [checkContributions_eq]; exact if_neg (by simp [hp])
  rw [Py.bind_ok e1, Py.bind_ok e2, Py.bind_ok (Py.get_eq _)]
  dsimp only
  rw [if_neg (by simpa [PyObj.upd, CovLengths] using h2)]
  have e3 : ensurePs N false (s.upd fun p => { p with divergent := p.divergent || p.contrib.divergent }) =
      (.ok (), s.upd fun p => { p with divergent := p.divergent || p.contrib.divergent }) := by
    rw [ensurePs_eq, if_neg (by simpa [PyObj.upd] using hps)]
  rw [Py.bind_ok e3]
  have e4 : ensureBg N false (s.upd fun p => { p with divergent := p.divergent || p.contrib.divergent }) =
      (.ok (), s.upd fun p => { p with divergent := p.divergent || p.contrib.divergent }) :=
    ensureBg_some N _ b hb
  rw [Py.bind_ok e4, Py.bind_ok (Py.get_eq _), Py.bind_ok (checkBins_ok N
      (s.upd fun p => { p with divergent := p.divergent || p.contrib.divergent }) b hb
      ((s.upd fun p => { p with divergent := p.divergent || p.contrib.divergent }).par.z_mean.zip
        (s.upd fun p => { p with divergent := p.divergent || p.contrib.divergent }).par.deltaz) h3)]
  rw [Py.bind_ok (by rw [ensure_eq, if_neg (by simpa [PyObj.upd] using h4)])]; rfl

/-- The covariance on an object with nothing but an uploaded spectrum. -/
theorem covariance_uploaded {N : Num} {s : PyObj} {b : Bg} {ps : Spectrum} (hs : s.bg = none)
    (hb : N.background s.par.bgView = some b) (hps : s.ps = some ps) (hc : s.cov = [])
    (hp : s.par.contrib.any = true) (h1 : ¬ (s.par.l = [] ∨ s.par.sep = [] ∨ s.par.z_mean = []))
    (h2 : CovLengths s.par)
    (h3 : ∀ zd ∈ s.par.z_mean.zip s.par.deltaz, 0 ≤ zd.1 ∧ zd.1 + zd.2 ≤ 15 ∧ 0 ≤ zd.2 ∧ zd.2 ≤ zd.1)
    (hcb : s.par.covBad = none := by rfl) : (computeBulk N false .covariance s).1 = .ok (.covariance (covRows N s.par ps b)) := by
  show (computeCovarianceBulk N false _).1 = _
  unfold computeCovarianceBulk
  have e1 : checkCoordsMultipoles s = (.ok (), s) := checkCoordsMultipoles_ok _ h1
  have e2 : checkContributions s =
      (.ok (), s.upd fun p => { p with divergent := p.divergent || p.contrib.divergent }) := by
    rw [checkContributions_eq]; exact if_neg (by simp [hp])
  rw [Py.bind_ok e1, Py.bind_ok e2, Py.bind_ok (Py.get_eq _)]
  dsimp only
  rw [if_neg (by simpa [PyObj.upd, CovLengths] using h2)]
  generalize hq : (s.upd fun p => { p with divergent := p.divergent || p.contrib.divergent }) = q
  have q1 : q.bg = none := by rw [← hq]; exact hs
  have q2 : q.ps = some ps := by rw [← hq]; exact hps
  have q3 : N.background q.par.bgView = some b := by rw [← hq]; exact hb
  have q4 : q.cov = [] := by rw [← hq]; exact hc
  have q5 : q.par.z_mean.zip q.par.deltaz = s.par.z_mean.zip s.par.deltaz := by rw [← hq]; rfl
  have q6 : covRows N q.par ps b = covRows N s.par ps b := by rw [← hq]; rfl
  have e3 : ensurePs N false q = (.ok (), q) := by rw [ensurePs_eq, if_neg (by simp [q2])]
  have e4 : ensureBg N false q = (.ok (), { q with bg := some b }) := by
    rw [ensureBg_none _ _ q1]
    exact backgroundInit_of (by rw [← hq]; exact fun hf => h1 (Or.inr (Or.inl hf.2.2))) q3
  rw [Py.bind_ok e3, Py.bind_ok e4, Py.bind_ok (Py.get_eq _), Py.bind_ok (checkBins_ok N
      { q with bg := some b } b rfl
      (({ q with bg := some b } : PyObj).par.z_mean.zip ({ q with bg := some b } : PyObj).par.deltaz)
      (q5 ▸ h3))]
  have e5 : ensure (fun s => s.cov = []) false (covInit N) { q with bg := some b } =
      (.ok (), { q with bg := some b, cov := covRows N q.par ps b, acov := [] }) := by
    rw [ensure_none _ _ q4, covInit_some N { q with bg := some b } b ps rfl q2 (by rw [← hq]; exact hcb)]
  rw [Py.bind_ok e5, ← q6]; rfl

theorem integralAt_cached {N : Num} {s : PyObj} {b : Bg} {r : ℝ} {n l : ℤ} {e : Entry}
    (hb : s.bg = some b) (hps : s.ps ≠ none) (hi : s.ints ≠ []) (h1 : 0 ≤ r) (h2 : r ≤ 25000)
    (h3 : (-2 : ℝ) ≤ n) (h4 : (n : ℝ) ≤ 4) (h5 : (0 : ℝ) ≤ l) (h6 : (l : ℝ) ≤ 4)
    (h7 : coffe_find_integral s.ints ⟨n, l, .int, .int⟩ = some e) (h8 : r ≤ N.top e.val) :
    (integralAt N r n l s).1 = .ok (.real (e.val.result r)) := by
  unfold integralAt
  rw [Py.bind_ok (checkReal_ok h1 h2 s), Py.bind_ok (checkReal_ok h3 h4 s),
    Py.bind_ok (checkReal_ok h5 h6 s), Py.bind_ok (ensureBg_some N s b hb),
    Py.bind_ok (by rw [ensurePs_eq, if_neg (by simpa using hps)]),
    Py.bind_ok (by rw [ensureInts_eq, if_neg (by simpa using hi)]), Py.bind_ok (Py.get_eq s), h7]
  dsimp only
  rw [if_neg (not_lt.2 h8)]
  rfl

theorem find_four (num : Key → Integral) (par : Par) (ls : List ℕ) (h : par.divergent = true) :
    coffe_find_integral (integrals_init num par ls) ⟨4, 0, .int, .int⟩ =
      some ⟨⟨4, 0, .int, .int⟩, [.result, .renormalization_zero_separation, .renormalization],
        num ⟨4, 0, .int, .int⟩⟩ := by
  simp [coffe_find_integral, integrals_init, baseKeys, plainEntry, h]

theorem run_cons {N : Num} {op : Op} {ops : List Op} {s s' : PyObj} {o : Out}
    (h : exec N op s = (.ok o, s')) : run N (op :: ops) s = run N ops s' := by
  simp only [run, h]

end Coffe
