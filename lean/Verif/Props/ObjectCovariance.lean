import Verif.Spec.ObjectCovariance
import Verif.Props.PositiveCovariance
import Verif.Props.PyCaches
import Verif.Proofs.Grid

/-!
# C84: the covariance of an object
-/

namespace Coffe
open Classical MeasureTheory

/-- The covariance for mean redshifts does not read the limits of the bins. -/
theorem covariance_ignores_limits (p : CovPar) (hp : p.average = false) (a b : List ℝ) (E : CovNum) (bg : Bg) (k l1 : ℕ) (s1 : ℝ) (l2 : ℕ)
    (s2 : ℝ) : ({ p with zmin := a, zmax := b } : CovPar).covariance E bg k l1 s1 l2 s2 = p.covariance E bg k l1 s1 l2 s2 := by
  unfold CovPar.covariance CovPar.mixedPart CovPar.cosmicPart CovPar.bessels CovPar.poissonPart CovPar.unitVolume CovPar.zOf
    CovPar.spectrum CovPar.biasOf coeff_mixed
  simp only [hp, if_false, Bool.false_eq_true]

/-- The covariance for redshift bins does not read the mean redshifts and the widths. -/
theorem covariance_ignores_means (p : CovPar) (hp : p.average = true) (a b : List ℝ) (E : CovNum) (bg : Bg) (k l1 : ℕ) (s1 : ℝ) (l2 : ℕ)
    (s2 : ℝ) : ({ p with z_mean := a, deltaz := b } : CovPar).covariance E bg k l1 s1 l2 s2 = p.covariance E bg k l1 s1 l2 s2 := by
  unfold CovPar.covariance CovPar.mixedPart CovPar.cosmicPart CovPar.bessels CovPar.poissonPart CovPar.unitVolume CovPar.zOf
    CovPar.spectrum CovPar.biasOf coeff_mixed
  simp only [hp, if_true]

/-- Without `have_class` the table of CLASS is not used. -/
theorem covNum_python (M : CovMethods) (cls : ℝ → Samples) (p : PyPar) (ps : Spectrum) (a : Bool) :
    p.covNum M pyHaveClass cls ps = (p.covView ps a).covNum M := by
  unfold PyPar.covNum CovView.covNum cov_spectrum cov_range pyHaveClass
  simp [PyPar.covView]

/-- **C84** (inputs): what the object hands to the covariance stage is enough to compute the covariance of its settings: each
setting that src/covariance.c reads is passed on, to the right place, for both kinds of redshifts. -/
theorem C84_inputs (N : Num) (M : CovMethods) (cls : ℝ → Samples) : (N.withCov M).CovBy M cls := by
  constructor
  · intro p ps b k hk hn r1 r2 l1 l2
    show ((p.covView ps false).covPar N.akima).covariance _ b (if (p.covView ps false).average then _ else (p.covView ps false).z_mean.idxOf _) l1 r1 l2 r2 = _
    have e : (p.covView ps false).z_mean = p.z_mean := rfl
    rw [if_neg (by simp [PyPar.covView]), e, listGetD hk, hn.idxOf_getElem, covNum_python M cls p ps false]
    exact covariance_ignores_limits (p.covPar N.akima false) rfl [] [] _ b k l1 r1 l2 r2
  · intro p ps b k hk hn r1 r2 l1 l2
    show ((p.covView ps true).covPar N.akima).covariance _ b (if (p.covView ps true).average then
      (((p.covView ps true).z_min.zip (p.covView ps true).z_max).map fun zz => (zz.1 + zz.2) / 2).idxOf _ else _) l1 r1 l2 r2 = _
    have e : ((p.covView ps true).z_min.zip (p.covView ps true).z_max).map (fun zz => (zz.1 + zz.2) / 2) = p.middles := rfl
    rw [if_pos (by simp [PyPar.covView]), e, listGetD hk, hn.idxOf_getElem, covNum_python M cls p ps true]
    exact covariance_ignores_means (p.covPar N.akima true) rfl [] [] _ b k l1 r1 l2 r2

/-- Position in five nested loops. -/
theorem five_get {α β : Type} (zs : List α) (ls : List ℕ) (ss : List ℝ) (f : α → ℕ → ℝ → ℕ → ℝ → β) (k i m j n : ℕ) (hk : k < zs.length)
    (hi : i < ls.length) (hm : m < ss.length) (hj : j < ls.length) (hn : n < ss.length) :
    (zs.flatMap fun z => ls.flatMap fun l1 => ss.flatMap fun r1 => ls.flatMap fun l2 => ss.map fun r2 => f z l1 r1 l2 r2)[
      pos5 ls.length ss.length k i m j n]? = some (f zs[k] (ls.getD i 0) (ss.getD m 0) (ls.getD j 0) (ss.getD n 0)) := by
  have h1 : ∀ z l1 r1 l2, (ss.map fun r2 => f z l1 r1 l2 r2).length = ss.length := fun _ _ _ _ => List.length_map _
  have h2 : ∀ z l1 r1, (ls.flatMap fun l2 => ss.map fun r2 => f z l1 r1 l2 r2).length = ls.length * ss.length :=
    fun z l1 r1 => length_flatMap_const _ _ _ fun l2 _ => h1 z l1 r1 l2
  have h3 : ∀ z l1, (ss.flatMap fun r1 => ls.flatMap fun l2 => ss.map fun r2 => f z l1 r1 l2 r2).length
      = ss.length * (ls.length * ss.length) := fun z l1 => length_flatMap_const _ _ _ fun r1 _ => h2 z l1 r1
  have h4 : ∀ z, (ls.flatMap fun l1 => ss.flatMap fun r1 => ls.flatMap fun l2 => ss.map fun r2 => f z l1 r1 l2 r2).length
      = ls.length * (ss.length * (ls.length * ss.length)) := fun z => length_flatMap_const _ _ _ fun l1 _ => h3 z l1
  have b1 : j * ss.length + n < ls.length * ss.length := by
    have := Nat.mul_le_mul_right ss.length (Nat.succ_le_of_lt hj)
    rw [Nat.succ_mul] at this; omega
  have b2 : m * (ls.length * ss.length) + (j * ss.length + n) < ss.length * (ls.length * ss.length) := by
    have := Nat.mul_le_mul_right (ls.length * ss.length) (Nat.succ_le_of_lt hm)
    rw [Nat.succ_mul] at this; omega
  have b3 : i * (ss.length * (ls.length * ss.length)) + (m * (ls.length * ss.length) + (j * ss.length + n))
      < ls.length * (ss.length * (ls.length * ss.length)) := by
    have := Nat.mul_le_mul_right (ss.length * (ls.length * ss.length)) (Nat.succ_le_of_lt hi)
    rw [Nat.succ_mul] at this; omega
  have e : pos5 ls.length ss.length k i m j n = k * (ls.length * (ss.length * (ls.length * ss.length)))
      + (i * (ss.length * (ls.length * ss.length)) + (m * (ls.length * ss.length) + (j * ss.length + n))) := by
    unfold pos5; ring
  rw [e, getElem?_flatMap_const _ _ _ (fun z _ => h4 z) k _ b3 hk, getElem?_flatMap_const _ _ _ (fun l1 _ => h3 _ l1) i _ b2 hi,
    getElem?_flatMap_const _ _ _ (fun r1 _ => h2 _ _ r1) m _ b1 hm, getElem?_flatMap_const _ _ _ (fun l2 _ => h1 _ _ _ l2) j _ hn hj]
  rw [List.getElem?_map, List.getElem?_eq_getElem hn, listGetD hi, listGetD hm, listGetD hj, listGetD hn]
  rfl

theorem covRows_get (N : Num) (p : PyPar) (ps : Spectrum) (b : Bg) (k i m j n : ℕ) (hk : k < p.z_mean.length) (hi : i < p.l.length)
    (hm : m < p.sep.length) (hj : j < p.l.length) (hn : n < p.sep.length) :
    (covRows N p ps b)[pos5 p.l.length p.sep.length k i m j n]? = some ⟨p.z_mean.getD k 0, p.sep.getD m 0, p.sep.getD n 0,
      p.l.getD i 0, p.l.getD j 0,
      N.cov (p.covView ps false) b (p.z_mean.getD k 0) (p.sep.getD m 0) (p.sep.getD n 0) (p.l.getD i 0) (p.l.getD j 0)⟩ := by
  rw [listGetD hk]
  exact five_get p.z_mean p.l p.sep (fun z l1 r1 l2 r2 => (⟨z, r1, r2, l1, l2, N.cov (p.covView ps false) b z r1 r2 l1 l2⟩ : CovRow))
    k i m j n hk hi hm hj hn

theorem acovRows_get (N : Num) (p : PyPar) (ps : Spectrum) (b : Bg) (k i m j n : ℕ) (hx : p.z_max.length = p.z_min.length)
    (hk : k < p.z_min.length) (hi : i < p.l.length) (hm : m < p.sep.length) (hj : j < p.l.length) (hn : n < p.sep.length) :
    (acovRows N p ps b)[pos5 p.l.length p.sep.length k i m j n]? = some ⟨p.z_min.getD k 0, p.z_max.getD k 0, p.sep.getD m 0,
      p.sep.getD n 0, p.l.getD i 0, p.l.getD j 0,
      N.cov (p.covView ps true) b (p.middles.getD k 0) (p.sep.getD m 0) (p.sep.getD n 0) (p.l.getD i 0) (p.l.getD j 0)⟩ := by
  have hz : k < (p.z_min.zip p.z_max).length := by rw [List.length_zip]; omega
  have e := five_get (p.z_min.zip p.z_max) p.l p.sep (fun zz l1 r1 l2 r2 => (⟨zz.1, zz.2, r1, r2, l1, l2,
    N.cov (p.covView ps true) b ((zz.1 + zz.2) / 2) r1 r2 l1 l2⟩ : AcovRow)) k i m j n hz hi hm hj hn
  have ez : (p.z_min.zip p.z_max)[k] = (p.z_min.getD k 0, p.z_max.getD k 0) := by
    rw [List.getElem_zip, listGetD hk, listGetD (by omega)]
  have em : p.middles.getD k 0 = (p.z_min.getD k 0 + p.z_max.getD k 0) / 2 := by
    unfold PyPar.middles
    rw [listGetD (by rw [List.length_map]; exact hz), List.getElem_map, ez]
  rw [em]
  refine e.trans ?_
  simp only [ez]

/-- **C84**: `compute_covariance_bulk` of an object with these settings returns, row for row, the array that the computation of
src/covariance.c makes of the same settings, of the background of the object and of its spectrum (partial: distinct redshifts and
separations; the covariance with a spectrum type other than linear is the wrong one, see `C84_spectrum_false`). -/
theorem C84_rows_partial (N : Num) (M : CovMethods) (cls : ℝ → Samples) (hN : N.CovBy M cls) (p : PyPar) (b : Bg) (c : ClassOut)
    (hb : N.background p.bgView = some b) (hc : N.classRun p.classView = some c) (hp : p.contrib.any = true)
    (h1 : ¬ (p.l = [] ∨ p.sep = [] ∨ p.z_mean = [])) (h2 : CovLengths p)
    (h3 : ∀ zd ∈ p.z_mean.zip p.deltaz, 0 ≤ zd.1 ∧ zd.1 + zd.2 ≤ 15 ∧ 0 ≤ zd.2 ∧ zd.2 ≤ zd.1) (hcb : p.covBad = none)
    (hpop : ∀ x ∈ [p.covariance_pop.1, p.covariance_pop.2.1, p.covariance_pop.2.2.1, p.covariance_pop.2.2.2], 1 ≤ x ∧ x ≤ 4)
    (hz : p.z_mean.Nodup) (hs : p.sep.Nodup) (hl : p.covariance_integration_method = .fftlog → p.l.Pairwise (· < ·)) :
    ∃ rows C V, (computeBulk N false .covariance (fresh p)).1 = .ok (.covariance rows) ∧
      covariance_init (p.covPar N.akima false) ((p.afterRun c).covNum M pyHaveClass cls c.spectrum) b = .ok (C, V) ∧
      ∀ k < p.z_mean.length, ∀ i < p.l.length, ∀ m < p.sep.length, ∀ j < p.l.length, ∀ n < p.sep.length, ∃ v,
        rows[pos5 p.l.length p.sep.length k i m j n]? = some ⟨p.z_mean.getD k 0, p.sep.getD m 0, p.sep.getD n 0, p.l.getD i 0, p.l.getD j 0, v⟩ ∧
        V.val (pos5 p.l.length p.sep.length k i m j n) = some v := by
  have e := covariance_fresh hb hc hp h1 h2 h3 hcb
  obtain ⟨hd, hn1, hn2, hpx, hf⟩ := h2
  have hM : (p.covPar N.akima false).Matching := by
    refine ⟨?_, hn1, hn2, hf, hpx, by simp [PyPar.covPar], fun _ => hd, hpop⟩
    show 0 < p.z_mean.length
    exact List.length_pos_iff.2 fun h => h1 (Or.inr (Or.inr h))
  obtain ⟨C, V, eC, -, -, h⟩ := C24_rows_partial (p.covPar N.akima false) ((p.afterRun c).covNum M pyHaveClass cls c.spectrum) b hM
    (Or.inr rfl) hs (fun h => hl (by simpa [PyPar.covPar] using h))
  refine ⟨_, C, V, by rw [e], eC, fun k hk i hi m hm j hj n hn => ⟨_, covRows_get N (p.afterRun c) c.spectrum b k i m j n hk hi hm hj hn, ?_⟩⟩
  refine (h k hk i hi m hm j hj n hn).2.trans (congrArg some ?_)
  exact (hN.mean (p.afterRun c) c.spectrum b k hk hz (p.sep.getD m 0) (p.sep.getD n 0) (p.l.getD i 0) (p.l.getD j 0)).symm

/-- **C83** for an object with standard integration: the numbers in the rows that `compute_covariance_bulk` returns for one redshift
form a symmetric positive semi-definite matrix, positive definite with shot noise and distinct even multipoles (or distinct
multipoles of two populations). -/
theorem C83_object_partial (N : Num) (M : CovMethods) (cls : ℝ → Samples) (hN : N.CovBy M cls) (p : PyPar) (b : Bg) (c : ClassOut)
    (hb : N.background p.bgView = some b) (hc : N.classRun p.classView = some c) (hp : p.contrib.any = true)
    (h1 : ¬ (p.l = [] ∨ p.sep = [] ∨ p.z_mean = [])) (h2 : CovLengths p)
    (h3 : ∀ zd ∈ p.z_mean.zip p.deltaz, 0 ≤ zd.1 ∧ zd.1 + zd.2 ≤ 15 ∧ 0 ≤ zd.2 ∧ zd.2 ≤ zd.1)
    (hpop : ∀ x ∈ [p.covariance_pop.1, p.covariance_pop.2.1, p.covariance_pop.2.2.1, p.covariance_pop.2.2.2], 1 ≤ x ∧ x ≤ 4)
    (hz : p.z_mean.Nodup) (hs : p.sep.Nodup) (hf : p.covariance_integration_method ≠ .fftlog) (W : ℕ → Measure ℝ)
    (hW : ((p.afterRun c).covNum M pyHaveClass cls c.spectrum).Weighs (p.covPar N.akima false) W)
    (hO : (p.covPar N.akima false).OneMeasurement ((p.afterRun c).covNum M pyHaveClass cls c.spectrum) b) :
    ∃ rows, (computeBulk N false .covariance (fresh p)).1 = .ok (.covariance rows) ∧
      ∀ k < p.z_mean.length, ∃ v : ℕ → ℕ → ℕ → ℕ → ℝ,
        (∀ i < p.l.length, ∀ m < p.sep.length, ∀ j < p.l.length, ∀ n < p.sep.length,
          rows[pos5 p.l.length p.sep.length k i m j n]?
            = some ⟨p.z_mean.getD k 0, p.sep.getD m 0, p.sep.getD n 0, p.l.getD i 0, p.l.getD j 0, v i m j n⟩ ∧
          v i m j n = v j n i m) ∧
        PositiveSemidefinite p.l.length p.sep.length v ∧
        (p.covariance_poisson = true → p.l.Nodup → (p.covariance_pop.1 ≠ p.covariance_pop.2.1 ∨ ∀ l ∈ p.l, l % 2 = 0) →
          PositiveDefinite p.l.length p.sep.length v) := by
  have hcb : p.covBad = none := by unfold PyPar.covBad; rw [if_neg hf]
  obtain ⟨rows, C, V, e, eC, h⟩ := C84_rows_partial N M cls hN p b c hb hc hp h1 h2 h3 hcb hpop hz hs fun h => absurd h hf
  obtain ⟨hd, hn1, hn2, hpx, hfs⟩ := h2
  have hM : (p.covPar N.akima false).Matching := by
    refine ⟨?_, hn1, hn2, hfs, hpx, by simp [PyPar.covPar], fun _ => hd, hpop⟩
    show 0 < p.z_mean.length
    exact List.length_pos_iff.2 fun h => h1 (Or.inr (Or.inr h))
  have hff : (p.covPar N.akima false).fftlog = false := by simpa [PyPar.covPar] using hf
  obtain ⟨C', V', e', h'⟩ := C83_partial _ _ b hM (Or.inr rfl) hs hff W hW hO
  have eV : V' = V := by
    have := e'.symm.trans eC
    simpa using (Prod.mk.inj (Except.ok.inj this)).2
  refine ⟨rows, e, fun k hk => ?_⟩
  obtain ⟨v, hv, hps⟩ := h' k hk
  refine ⟨v, fun i hi m hm j hj n hn => ?_, hps, fun hpo hl ho w hw => ?_⟩
  · obtain ⟨x, hx, hx'⟩ := h k hk i hi m hm j hj n hn
    obtain ⟨a1, a2, -⟩ := hv i hi m hm j hj n hn
    rw [eV] at a1
    exact ⟨by rw [hx, Option.some.inj (hx'.symm.trans a1)], a2⟩
  · obtain ⟨C'', V'', e'', h''⟩ := C83_definite_partial _ _ b hM (Or.inr rfl) hs hff W hW hO hl hpo ho
    have eV' : V'' = V' := by
      have := e''.symm.trans e'
      simpa using (Prod.mk.inj (Except.ok.inj this)).2
    obtain ⟨u, hu, hpd⟩ := h'' k hk
    refine (hpd w hw).trans_eq ?_
    refine Finset.sum_congr rfl fun i hi => Finset.sum_congr rfl fun m hm => Finset.sum_congr rfl fun j hj =>
      Finset.sum_congr rfl fun n hn => ?_
    have a1 := hu i (Finset.mem_range.1 hi) m (Finset.mem_range.1 hm) j (Finset.mem_range.1 hj) n (Finset.mem_range.1 hn)
    have a2 := (hv i (Finset.mem_range.1 hi) m (Finset.mem_range.1 hm) j (Finset.mem_range.1 hj) n (Finset.mem_range.1 hn)).1
    rw [eV'] at a1
    rw [Option.some.inj (a1.symm.trans a2)]

/-- The lists of the averaged covariance have the same length. -/
def AcovLengths (p : PyPar) : Prop :=
  p.deltaz.length = p.z_min.length ∧ p.z_max.length = p.z_min.length ∧ p.density1.length = p.z_min.length ∧
    p.density2.length = p.z_min.length ∧ p.pixelsize.length = p.z_min.length ∧ p.fsky.length = p.z_min.length

theorem averageCovariance_fresh {N : Num} {p : PyPar} {b : Bg} {c : ClassOut}
    (hb : N.background p.bgView = some b) (hc : N.classRun p.classView = some c)
    (hp : p.contrib.any = true) (h1 : ¬ (p.l = [] ∨ p.sep = [] ∨ p.z_mean = [])) (h2 : AcovLengths p)
    (h3 : ∀ zz ∈ p.z_min.zip p.z_max, 0 ≤ zz.1 ∧ zz.1 ≤ zz.2 ∧ zz.2 ≤ 15)
    (hm : p.pk_type = .COFFE_PK_LINEAR ∨ p.z_min.length ≤ p.z_mean.length) (hcb : p.covBad = none) :
    (computeBulk N false .averageCovariance (fresh p)).1 = .ok (.averageCovariance (acovRows N (p.afterRun c) c.spectrum b)) := by
  show (computeAverageCovarianceBulk N false _).1 = _
  unfold computeAverageCovarianceBulk
  have e1 : checkCoordsMultipoles (fresh p) = (.ok (), fresh p) := checkCoordsMultipoles_ok _ h1
  have e2 : checkContributions (fresh p) = (.ok (), fresh { p with divergent := p.divergent || p.contrib.divergent }) := by
    rw [checkContributions_eq]; exact if_neg (by simp [fresh, hp])
  rw [Py.bind_ok e1, Py.bind_ok e2, Py.bind_ok (Py.get_eq _)]
  dsimp only
  rw [if_neg (by simpa [fresh, AcovLengths] using h2)]
  have e3 : ensurePs N false (fresh { p with divergent := p.divergent || p.contrib.divergent }) =
      (.ok (), { fresh (p.afterRun c) with ps := some c.spectrum, cls := some c.cls, pk2d := p.has2d }) := by
    rw [ensurePs_none _ _ (by rfl), powerSpectrumInit_eq]
    show (match N.classRun p.classView with | some c => _ | none => _) = _
    rw [hc]; rfl
  have e4 : ensureBg N false { fresh (p.afterRun c) with ps := some c.spectrum, cls := some c.cls, pk2d := p.has2d } =
      (.ok (), readyCov p b c) := by
    rw [ensureBg_none _ _ (by rfl)]
    exact backgroundInit_of (fun hf => h1 (Or.inr (Or.inl hf.2.2))) hb
  rw [Py.bind_ok e3, Py.bind_ok e4, Py.bind_ok (Py.get_eq _),
    Py.bind_ok (checkBins_ok N (readyCov p b c) b rfl
      (((readyCov p b c).par.z_min.zip (readyCov p b c).par.z_max).map fun zz => ((zz.1 + zz.2) / 2, (zz.2 - zz.1) / 2)) (by
        intro zd hz
        obtain ⟨zz, hzz, rfl⟩ := List.mem_map.1 hz
        obtain ⟨a1, a2, a3⟩ := h3 zz hzz
        refine ⟨?_, ?_, ?_, ?_⟩ <;> dsimp only <;> linarith))]
  have e5 : ensure (fun s => s.acov = []) false (acovInit N) (readyCov p b c) =
      (.ok (), { readyCov p b c with acov := acovRows N (p.afterRun c) c.spectrum b }) := by
    rw [ensure_none _ _ (by rfl)]
    show (if p.pk_type ≠ .COFFE_PK_LINEAR ∧ p.z_mean.length < p.z_min.length then _ else _) = _
    rw [if_neg (by rintro ⟨h, h'⟩; rcases hm with hm | hm; exacts [h hm, by omega])]
    show (match p.covBad with | some e => _ | none => _) = _
    rw [hcb]; rfl
  rw [Py.bind_ok e5]; rfl

/-- **C84** for redshift bins: `compute_average_covariance_bulk` likewise. -/
theorem C84_average_partial (N : Num) (M : CovMethods) (cls : ℝ → Samples) (hN : N.CovBy M cls) (p : PyPar) (b : Bg) (c : ClassOut)
    (hb : N.background p.bgView = some b) (hc : N.classRun p.classView = some c) (hp : p.contrib.any = true)
    (h1 : ¬ (p.l = [] ∨ p.sep = [] ∨ p.z_mean = [])) (h0 : p.z_min ≠ []) (h2 : AcovLengths p)
    (h3 : ∀ zz ∈ p.z_min.zip p.z_max, 0 ≤ zz.1 ∧ zz.1 ≤ zz.2 ∧ zz.2 ≤ 15)
    (hm : p.pk_type = .COFFE_PK_LINEAR ∨ p.z_mean.length = p.z_min.length) (hcb : p.covBad = none)
    (hpop : ∀ x ∈ [p.covariance_pop.1, p.covariance_pop.2.1, p.covariance_pop.2.2.1, p.covariance_pop.2.2.2], 1 ≤ x ∧ x ≤ 4)
    (hz : p.middles.Nodup) (hs : p.sep.Nodup) (hl : p.covariance_integration_method = .fftlog → p.l.Pairwise (· < ·)) :
    ∃ rows C V, (computeBulk N false .averageCovariance (fresh p)).1 = .ok (.averageCovariance rows) ∧
      covariance_init (p.covPar N.akima true) ((p.afterRun c).covNum M pyHaveClass cls c.spectrum) b = .ok (C, V) ∧
      ∀ k < p.z_min.length, ∀ i < p.l.length, ∀ m < p.sep.length, ∀ j < p.l.length, ∀ n < p.sep.length, ∃ v,
        rows[pos5 p.l.length p.sep.length k i m j n]? = some ⟨p.z_min.getD k 0, p.z_max.getD k 0, p.sep.getD m 0, p.sep.getD n 0,
          p.l.getD i 0, p.l.getD j 0, v⟩ ∧
        V.val (pos5 p.l.length p.sep.length k i m j n) = some v := by
  have e := averageCovariance_fresh hb hc hp h1 h2 h3 (hm.imp id fun h => h.ge) hcb
  obtain ⟨hd, hx, hn1, hn2, hpx, hf⟩ := h2
  have hM : (p.covPar N.akima true).Matching := by
    refine ⟨?_, hn1, hn2, hf, hpx, fun _ => hx, by simp [PyPar.covPar], hpop⟩
    show 0 < p.z_min.length
    exact List.length_pos_iff.2 h0
  obtain ⟨C, V, eC, -, -, h⟩ := C24_rows_partial (p.covPar N.akima true) ((p.afterRun c).covNum M pyHaveClass cls c.spectrum) b hM
    (hm.imp (fun h => by simp [PyPar.covPar, h]) fun h => h) hs (fun h => hl (by simpa [PyPar.covPar] using h))
  refine ⟨_, C, V, e, eC, fun k hk i hi m hm j hj n hn => ⟨_, acovRows_get N (p.afterRun c) c.spectrum b k i m j n hx hk hi hm hj hn, ?_⟩⟩
  refine (h k hk i hi m hm j hj n hn).2.trans (congrArg some ?_)
  exact (hN.average (p.afterRun c) c.spectrum b k (by
    show k < (p.z_min.zip p.z_max |>.map _).length
    rw [List.length_map, List.length_zip]; omega) hz (p.sep.getD m 0) (p.sep.getD n 0) (p.l.getD i 0) (p.l.getD j 0)).symm

/-- **C84** fails for spectrum types other than linear: without pixel averages, the covariance of an object is that of the linear spectrum
at redshift zero, without the growth of structure. -/
theorem C84_growth_false (M : CovMethods) (cls : ℝ → Samples) (p : PyPar) (akima : Samples → ℝ → ℝ) (a : Bool) (ps : Spectrum) (b : Bg)
    (hw : p.covariance_window = false) (ht : p.pk_type ≠ .COFFE_PK_LINEAR) (k l1 : ℕ) (s1 : ℝ) (l2 : ℕ) (s2 : ℝ) :
    (p.covPar akima a).covariance (p.covNum M pyHaveClass cls ps) b k l1 s1 l2 s2
      = (({ p with pk_type := .COFFE_PK_LINEAR } : PyPar).covPar akima a).covariance
          (({ p with pk_type := .COFFE_PK_LINEAR } : PyPar).covNum M pyHaveClass cls ps) { b with D1 := fun _ => 1 } k l1 s1 l2 s2 := by
  rw [covNum_python M cls p ps a, covNum_python M cls _ ps a]
  have ht' : (p.pk_type == PkType.COFFE_PK_LINEAR) = false := by simpa using ht
  unfold CovPar.covariance CovPar.mixedPart CovPar.cosmicPart CovPar.bessels CovPar.poissonPart CovPar.unitVolume CovPar.zOf
    CovPar.spectrum CovPar.biasOf coeff_mixed
  simp only [PyPar.covPar, ht', hw, if_false, Bool.false_eq_true, beq_self_eq_true, if_true, one_pow]
  rfl

/-- Procedures that look at one wave number. -/
noncomputable def wMethods : CovMethods where
  interp s _ := (s.map Prod.snd).sum
  quad _ _ _ _ f := f 1
  bessel _ _ := 1
  Si _ := 0
  fft _ _ _ _ _ _ _ _ _ _ := 0
  H0 := 1

/-- Three multipoles of two populations at two redshifts and two separations, linear spectrum. -/
example : let p : PyPar := { PyPar.default with z_mean := [1, 2], deltaz := [0.1, 0.2], density1 := [1, 1], density2 := [2, 3], pixelsize := [10, 20],
                                                fsky := [1, 1], sep := [100, 150], covariance_pop := (1, 2, 1, 2) }
    (wNum.withCov wMethods).CovBy wMethods (fun _ => []) ∧ (wNum.withCov wMethods).background p.bgView = some wB ∧
      (wNum.withCov wMethods).classRun p.classView = some wC ∧ p.contrib.any = true ∧ ¬ (p.l = [] ∨ p.sep = [] ∨ p.z_mean = []) ∧ CovLengths p ∧
      (∀ zd ∈ p.z_mean.zip p.deltaz, 0 ≤ zd.1 ∧ zd.1 + zd.2 ≤ 15 ∧ 0 ≤ zd.2 ∧ zd.2 ≤ zd.1) ∧ p.covBad = none ∧
      (∀ x ∈ [p.covariance_pop.1, p.covariance_pop.2.1, p.covariance_pop.2.2.1, p.covariance_pop.2.2.2], 1 ≤ x ∧ x ≤ 4) ∧
      p.z_mean.Nodup ∧ p.sep.Nodup ∧ p.l.Pairwise (· < ·) := by
  refine ⟨C84_inputs _ _ _, rfl, rfl, rfl, by simp [PyPar.default], ⟨rfl, rfl, rfl, rfl, rfl⟩, by norm_num, rfl, by simp, by norm_num, by norm_num,
    by simp [PyPar.default]⟩

/-- The additional hypotheses of `C83_object_partial` for these settings. -/
example : let p : PyPar := { PyPar.default with z_mean := [1, 2], deltaz := [0.1, 0.2], density1 := [1, 1], density2 := [2, 3], pixelsize := [10, 20],
                                                fsky := [1, 1], sep := [100, 150], covariance_pop := (1, 2, 1, 2) }
    p.covariance_integration_method ≠ .fftlog ∧
      ((p.afterRun wC).covNum wMethods pyHaveClass (fun _ => []) wC.spectrum).Weighs (p.covPar wNum.akima false) (fun _ => Measure.dirac 1) ∧
      (p.covPar wNum.akima false).OneMeasurement ((p.afterRun wC).covNum wMethods pyHaveClass (fun _ => []) wC.spectrum) wB ∧
      p.covariance_poisson = true ∧ p.l.Nodup ∧ p.covariance_pop.1 ≠ p.covariance_pop.2.1 := by
  have hb : ∀ k < (2 : ℕ), k = 0 ∨ k = 1 := fun k hk => by omega
  have hi : ∀ g : ℝ → ℝ, Integrable g (Measure.dirac 1) := fun g => integrable_dirac (by simp)
  refine ⟨by simp [PyPar.default], ⟨fun r g => (integral_dirac g 1).symm, fun r q => ?_, fun r q => ?_, ?_⟩, ?_, rfl, by simp [PyPar.default], by simp⟩
  · norm_num [PyPar.covNum, cov_spectrum, pyHaveClass, wMethods, wC]
  · norm_num [PyPar.covNum, cov_spectrum, pyHaveClass, wMethods, wC]
  · intro k _ P _ l1 _ s1 _ l2 _ s2 _
    exact hi _
  · constructor
    · rfl
    · rfl
    · intro s hs
      have hs : s = 100 ∨ s = 150 := by simpa [PyPar.covPar] using hs
      rcases hs with rfl | rfl <;> norm_num
    all_goals
      intro k hk
      have hk : k < 2 := hk
      rcases hb k hk with rfl | rfl <;> norm_num [PyPar.covPar, CovPar.unitVolume, wB, wBg] <;> positivity

/-- The same in two redshift bins. -/
example : let p : PyPar := { PyPar.default with z_min := [0.5, 1.5], z_max := [1.5, 3.5], z_mean := [1, 2], deltaz := [0.1, 0.2], density1 := [1, 1], density2 := [2, 3],
                                                pixelsize := [10, 20], fsky := [1, 1], sep := [100, 150], covariance_pop := (1, 2, 1, 2) }
    (wNum.withCov wMethods).CovBy wMethods (fun _ => []) ∧ (wNum.withCov wMethods).background p.bgView = some wB ∧
      (wNum.withCov wMethods).classRun p.classView = some wC ∧ p.contrib.any = true ∧ ¬ (p.l = [] ∨ p.sep = [] ∨ p.z_mean = []) ∧ p.z_min ≠ [] ∧
      AcovLengths p ∧ (∀ zz ∈ p.z_min.zip p.z_max, 0 ≤ zz.1 ∧ zz.1 ≤ zz.2 ∧ zz.2 ≤ 15) ∧ p.pk_type = .COFFE_PK_LINEAR ∧ p.covBad = none ∧
      (∀ x ∈ [p.covariance_pop.1, p.covariance_pop.2.1, p.covariance_pop.2.2.1, p.covariance_pop.2.2.2], 1 ≤ x ∧ x ≤ 4) ∧
      p.middles.Nodup ∧ p.sep.Nodup ∧ p.l.Pairwise (· < ·) := by
  refine ⟨C84_inputs _ _ _, rfl, rfl, rfl, by simp [PyPar.default], by simp, ⟨rfl, rfl, rfl, rfl, rfl, rfl⟩, by norm_num, rfl, rfl, by simp,
    by norm_num [PyPar.middles], by norm_num, by simp [PyPar.default]⟩

/-- Cosmic variance of the monopole at one separation with a non-linear spectrum. -/
noncomputable def wHalofit : PyPar :=
  { PyPar.default with
    pk_type := .COFFE_PK_NONLINEAR_HALOFIT
    contrib := { PyPar.default.contrib with den := true, rsd := false }
    l := [0]
    sep := [100]
    covariance_mixed := false
    covariance_poisson := false }

theorem wHalofit_value : ∃ K : ℝ, 0 < K ∧ ∀ E : CovNum, (∀ r f, E.quadK r f = f 1) → (∀ l x, E.bessel l x = 1) →
    (wHalofit.covPar wNum.akima false).covariance E wB 0 0 100 0 100 = K * E.pk2 0 1 := by
  have hc : 0 < coeff_cosmic 11 11 11 11 0 0 0 := by
    rw [coeff_cosmic_eq]
    norm_num [legP]
  have hE : ∀ E, (wHalofit.covPar wNum.akima false).unitVolume E wB 0 = (wHalofit.covPar wNum.akima false).unitVolume (gaussNum 1 2) wB 0 :=
    fun E => rfl
  have hV : 0 < (wHalofit.covPar wNum.akima false).unitVolume (gaussNum 1 2) wB 0 := by
    have := Real.pi_pos
    norm_num [CovPar.unitVolume, PyPar.covPar, wHalofit, PyPar.default, wB, wBg]
    exact this
  refine ⟨1 / Real.pi ^ 2 * coeff_cosmic 11 11 11 11 0 0 0 / (wHalofit.covPar wNum.akima false).unitVolume (gaussNum 1 2) wB 0,
    div_pos (mul_pos (by have := Real.pi_pos; positivity) hc) hV, fun E hq hb => ?_⟩
  have hbias : (wHalofit.covPar wNum.akima false).biasOf ((wHalofit.covPar wNum.akima false).zOf 0) 1 = 11 := by
    show ((constBias 1).map Prod.snd).sum = 11
    exact wSum
  unfold CovPar.covariance CovPar.cosmicPart CovPar.bessels
  rw [hE E]
  have e1 : (wHalofit.covPar wNum.akima false).covariance_poisson = false := rfl
  have e2 : (wHalofit.covPar wNum.akima false).covariance_mixed = false := rfl
  have e3 : (wHalofit.covPar wNum.akima false).covariance_cosmic = true := rfl
  have e4 : (wHalofit.covPar wNum.akima false).pk_linear = false := rfl
  have e5 : (wHalofit.covPar wNum.akima false).fftlog = false := rfl
  have e6 : (wHalofit.covPar wNum.akima false).covariance_window = false := rfl
  have e7 : (wHalofit.covPar wNum.akima false).rsd = false := rfl
  have e8 : (wHalofit.covPar wNum.akima false).fsky.getD 0 0 = 1 := rfl
  have p1 : (wHalofit.covPar wNum.akima false).pop1 = 1 := rfl
  have p2 : (wHalofit.covPar wNum.akima false).pop2 = 1 := rfl
  have p3 : (wHalofit.covPar wNum.akima false).pop3 = 1 := rfl
  have p4 : (wHalofit.covPar wNum.akima false).pop4 = 1 := rfl
  have e9 : (wHalofit.covPar wNum.akima false).spectrum 0 = 0 := rfl
  simp only [e1, e2, e3, e4, e5, e6, e7, e8, e9, p1, p2, p3, p4, hbias, hq, if_true, if_false, Bool.false_eq_true, windowed_bessel, hb]
  norm_num [sign]
  ring

/-- **C84** fails for spectrum types other than linear: no line of the Python package sets `have_class`, so the covariance of an
object with a non-linear spectrum is computed from the linear spectrum at redshift zero, whatever the spectrum of CLASS at the
redshift is, and without the growth of structure. -/
theorem C84_spectrum_false : ∃ (N : Num) (M : CovMethods) (cls : ℝ → Samples) (p : PyPar) (b : Bg) (c : ClassOut) (rows : List CovRow) (v : ℝ),
    N.CovBy M cls ∧ N.background p.bgView = some b ∧ N.classRun p.classView = some c ∧ p.pk_type = .COFFE_PK_NONLINEAR_HALOFIT ∧
    (computeBulk N false .covariance (fresh p)).1 = .ok (.covariance rows) ∧ rows[0]? = some ⟨1, 100, 100, 0, 0, v⟩ ∧
    (p.covPar N.akima false).covariance ((p.afterRun c).covNum M true cls c.spectrum) b 0 0 100 0 100 ≠ v := by
  have hN := C84_inputs wNum wMethods fun _ => [(1, 2)]
  have e := covariance_fresh (N := wNum.withCov wMethods) (p := wHalofit) (b := wB) (c := wC) rfl rfl rfl
    (by simp [wHalofit, PyPar.default]) ⟨rfl, rfl, rfl, rfl, rfl⟩ (by norm_num [wHalofit, PyPar.default]) rfl
  refine ⟨wNum.withCov wMethods, wMethods, fun _ => [(1, 2)], wHalofit, wB, wC, _, _, hN, rfl, rfl, rfl, congrArg Prod.fst e,
    covRows_get (wNum.withCov wMethods) (wHalofit.afterRun wC) wC.spectrum wB 0 0 0 0 0 (by simp [wHalofit, PyPar.default, PyPar.afterRun])
      (by simp [wHalofit, PyPar.afterRun]) (by simp [wHalofit, PyPar.afterRun]) (by simp [wHalofit, PyPar.afterRun])
      (by simp [wHalofit, PyPar.afterRun]), ?_⟩
  rw [hN.mean (wHalofit.afterRun wC) wC.spectrum wB 0 (by simp [wHalofit, PyPar.default, PyPar.afterRun])
    (by simp [wHalofit, PyPar.default, PyPar.afterRun])]
  obtain ⟨K, hK, h1⟩ := wHalofit_value
  have a1 := h1 ((wHalofit.afterRun wC).covNum wMethods true (fun _ => [(1, 2)]) wC.spectrum) (fun _ _ => rfl) fun _ _ => rfl
  have a2 := h1 ((wHalofit.afterRun wC).covNum wMethods pyHaveClass (fun _ => [(1, 2)]) wC.spectrum) (fun _ _ => rfl) fun _ _ => rfl
  have b1 : ((wHalofit.afterRun wC).covNum wMethods true (fun _ => [(1, 2)]) wC.spectrum).pk2 0 1 = 4 := by
    show (((cov_spectrum true .COFFE_PK_NONLINEAR_HALOFIT (fun _ => [(1, 2)]) wC.spectrum
        (wHalofit.afterRun wC).z_mean 0).map fun x => (x.1, x.2 ^ 2)).map Prod.snd).sum = 4
    rw [cov_spectrum, if_pos ⟨rfl, by decide⟩]
    norm_num
  have b2 : ((wHalofit.afterRun wC).covNum wMethods pyHaveClass (fun _ => [(1, 2)]) wC.spectrum).pk2 0 1 < 4 := by
    norm_num [PyPar.covNum, cov_spectrum, wMethods, wHalofit, PyPar.afterRun, pyHaveClass, wC]
  rw [b1] at a1
  intro h
  have : K * ((wHalofit.afterRun wC).covNum wMethods pyHaveClass (fun _ => [(1, 2)]) wC.spectrum).pk2 0 1 = K * 4 :=
    (a2.symm.trans h.symm).trans a1
  have := mul_lt_mul_of_pos_left b2 hK
  linarith

end Coffe
