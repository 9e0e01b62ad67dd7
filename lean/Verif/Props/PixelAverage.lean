import Verif.Proofs.Bessel
import Verif.Props.Covariance

/-!
# C61, C62: spectra and pixel averages of the covariance
-/

namespace Coffe
open Classical

/-! ## C61: a nonlinear spectrum -/

/-- **C61** (partial: standard integration; false for FFTLog integration, see `C61_fftlog_false`): with a spectrum for
each redshift, the rows of a redshift depend on the spectrum at this redshift only. -/
theorem C61_standard_partial (p : CovPar) (E E' : CovNum) (bg : Bg) (hp : p.Matching) (hf : p.fftlog = false) (hl : p.pk_linear = false)
    (hz : p.z_mean.length = p.bins) (hq : E'.quadZ = E.quadZ) (hb : E'.bessel = E.bessel) (hS : E'.Si = E.Si) (hH : E'.H0 = E.H0)
    (k : ℕ) (hk : k < p.bins) (h1 : E'.pk k = E.pk k) (h2 : E'.pk2 k = E.pk2 k) (h3 : E'.quadK k = E.quadK k) :
    ∃ C V C' V', covariance_init p E bg = .ok (C, V) ∧ covariance_init p E' bg = .ok (C', V') ∧
      ∀ i < p.multipole_values.length, ∀ m < p.sep.length, ∀ j < p.multipole_values.length, ∀ n < p.sep.length, ∃ v,
        V.val (pos5 p.multipole_values.length p.sep.length k i m j n) = some v ∧
          V'.val (pos5 p.multipole_values.length p.sep.length k i m j n) = some v := by
  obtain ⟨C, V, e, _, _, h⟩ := covariance_init_ok p E bg hp (Or.inr hz)
  obtain ⟨C', V', e', _, _, h'⟩ := covariance_init_ok p E' bg hp (Or.inr hz)
  refine ⟨C, V, C', V', e, e', fun i hi m hm j hj n hn => ⟨_, (h k hk i hi m hm j hj n hn).2, ?_⟩⟩
  rw [(h' k hk i hi m hm j hj n hn).2]
  have hbu : ∀ l x, integral_bessel_unit E' l x = integral_bessel_unit E l x := by
    intro l x; unfold integral_bessel_unit; rw [hS]
  have hw : windowed_bessel E' = windowed_bessel E := by
    funext s l q a b
    unfold windowed_bessel integral_bessel
    simp only [hbu, hb]
  have hr : ∀ power a b c d, rawTable p E' power k a b c d = rawTable p E power k a b c d := by
    intro power a b c d
    simp only [rawTable, hf, if_false, Bool.false_eq_true, rawStandard, covariance_integral]
    rw [h3]
    congr 6
    funext q
    unfold covariance_integrand
    rw [hw]
    by_cases hpw : power = 1
    · simp only [hpw, if_true, h1]
    · simp only [hpw, if_false, h2]
  have hs : p.spectrum k = k := by simp [CovPar.spectrum, hl]
  have ht : ∀ power, tableCell p E' power k i m j n = tableCell p E power k i m j n := by
    intro power
    unfold tableCell
    rw [hs, hr, hr]
  have hu : p.unitVolume E' bg k = p.unitVolume E bg k := by
    unfold CovPar.unitVolume; rw [hq, hH]
  unfold cellFormula
  rw [ht, ht, hu]

/-- **C61** fails for FFTLog integration: the covariance does not depend on the spectra at the redshifts at all, neither
through their values nor through the wavenumbers they cover. -/
theorem C61_fftlog_false (p : CovPar) (E : CovNum) (bg : Bg) (hf : p.fftlog = true) (pk pk2 : ℕ → ℝ → ℝ) (quadK : ℕ → (ℝ → ℝ) → ℝ) :
    covariance_init p { E with pk := pk, pk2 := pk2, quadK := quadK } bg = covariance_init p E bg := by
  have h1 : ∀ r power c, fill_fftlog p { E with pk := pk, pk2 := pk2, quadK := quadK } r power c = fill_fftlog p E r power c :=
    fun _ _ _ => rfl
  have h2 : cov_values p { E with pk := pk, pk2 := pk2, quadK := quadK } bg = cov_values p E bg := rfl
  unfold covariance_init integral_tables
  simp only [hf, if_true, h1, h2]

/-! ## C62: averages over pixels -/

/-- The quadrature over wavenumbers evaluates its integrand at positive wavenumbers only. -/
def CovNum.PositiveK (E : CovNum) : Prop := ∀ r f g, (∀ q > 0, f q = g q) → E.quadK r f = E.quadK r g

/-- **C62** (partial: standard integration, multipoles up to 6, the first redshift or a spectrum for each redshift): with
pixel averaging, every spherical Bessel function is replaced by its mean over the volume of the shell given by the pixel
size of the redshift bin. -/
theorem C62_average_partial (p : CovPar) (E : CovNum) (hE : E.PositiveK) (hS : IsSineIntegral E.Si) (hf : p.fftlog = false)
    (hw : p.covariance_window = true) (k : ℕ) (hk : k = 0 ∨ p.pk_linear = false) (power l1 l2 : ℕ) (h1 : l1 ≤ 6) (h2 : l2 ≤ 6)
    (s1 s2 : ℝ) (hd : 0 < p.pixelsize.getD k 0) (hs1 : p.pixelsize.getD k 0 / 2 < s1) (hs2 : p.pixelsize.getD k 0 / 2 < s2) :
    p.bessels E power k l1 s1 l2 s2 = (2 * (l1 : ℝ) + 1) * (2 * l2 + 1) * (2 / power) / Real.pi ^ 2 *
      E.quadK k fun q => q ^ 2 * (if power = 1 then E.pk else E.pk2) k q
        * shellMean l1 q s1 (p.pixelsize.getD k 0) * shellMean l2 q s2 (p.pixelsize.getD k 0) := by
  have hsp : p.spectrum k = k := by
    unfold CovPar.spectrum
    rcases hk with rfl | hk
    · simp
    · simp [hk]
  unfold CovPar.bessels
  rw [if_neg (by simp [hf]), hsp]
  refine congrArg _ (hE _ _ _ fun q hq => ?_)
  simp only [hw, if_true]
  rw [windowed_bessel_eq E hS l1 h1 hq hd hs1, windowed_bessel_eq E hS l2 h2 hq hd hs2]

/-- **C62** fails for the later redshifts of a linear spectrum: only the pixel size of the first one is used (outside
of the shot noise). -/
theorem C62_pixelsize_false (p : CovPar) (E : CovNum) (bg : Bg) (hp : p.Matching) (hl : p.pk_linear = true)
    (hn : p.covariance_poisson = false) (px : List ℝ) (hlen : px.length = p.pixelsize.length) (h0 : px.getD 0 0 = p.pixelsize.getD 0 0) :
    ∃ C V C' V', covariance_init p E bg = .ok (C, V) ∧ covariance_init { p with pixelsize := px } E bg = .ok (C', V') ∧
      ∀ q, V'.dom q = V.dom q ∧ (V.dom q → ∃ v, V.val q = some v ∧ V'.val q = some v) := by
  obtain ⟨C, V, e, _, hV, h⟩ := covariance_init_ok p E bg hp (Or.inl hl)
  have hp' : ({ p with pixelsize := px } : CovPar).Matching :=
    ⟨hp.pos, hp.density1, hp.density2, hp.fsky, hlen.trans hp.pixelsize, hp.zmax, hp.deltaz, hp.pops⟩
  obtain ⟨C', V', e', _, hV', h'⟩ := covariance_init_ok { p with pixelsize := px } E bg hp' (Or.inl hl)
  refine ⟨C, V, C', V', e, e', fun q => ⟨propext ((hV' q).trans (hV q).symm), fun hq => ?_⟩⟩
  obtain ⟨⟨k, i, m, j, n⟩, ⟨⟨hk, hi, hm, hj, hn'⟩, rfl⟩, -⟩ := C24_complete _ _ _ q ((hV q).1 hq)
  refine ⟨_, (h k hk i hi m hm j hj n hn').2, ?_⟩
  refine ((h' k hk i hi m hm j hj n hn').2).trans (congrArg some ?_)
  have hs : p.spectrum k = 0 := by simp [CovPar.spectrum, hl]
  have hr : ∀ power a b c d, rawTable { p with pixelsize := px } E power 0 a b c d = rawTable p E power 0 a b c d := by
    intro power a b c d
    unfold rawTable
    by_cases hf : p.fftlog = true
    · simp only [hf, if_true]; rfl
    · simp only [hf, if_false, Bool.false_eq_true, rawStandard, h0]
  have ht : ∀ power, tableCell { p with pixelsize := px } E power k i m j n = tableCell p E power k i m j n := by
    intro power
    unfold tableCell
    have : ({ p with pixelsize := px } : CovPar).spectrum k = 0 := hs
    rw [hs, this, hr, hr]
  unfold cellFormula
  rw [ht, ht]
  simp only [hn, if_false, Bool.false_eq_true]
  rfl

/-- **C62** fails for the multipoles 7, 8 and 9 (which the setter accepts): their covariance is zero apart from shot noise. -/
theorem C62_multipoles_false (p : CovPar) (E : CovNum) (bg : Bg) (hq : ∀ r, E.quadK r (fun _ => 0) = 0) (hf : p.fftlog = false)
    (hw : p.covariance_window = true) (hn : p.covariance_poisson = false) (hpix : ∀ k, p.pixelsize.getD (p.spectrum k) 0 ≠ 0)
    (k l1 l2 : ℕ) (h : 7 ≤ l1 ∨ 7 ≤ l2) (s1 s2 : ℝ) : p.covariance E bg k l1 s1 l2 s2 = 0 := by
  have hz : ∀ l, 7 ≤ l → ∀ q s d, d ≠ 0 → windowed_bessel E s l q s d = 0 := by
    intro l hl q s d hd
    unfold windowed_bessel integral_bessel
    obtain ⟨l, rfl⟩ := Nat.exists_eq_add_of_le' hl
    rw [if_neg hd]
    simp [integral_bessel_unit]
  have hb : ∀ power, p.bessels E power k l1 s1 l2 s2 = 0 := by
    intro power
    unfold CovPar.bessels
    simp only [hf, hw, if_true, if_false, Bool.false_eq_true]
    have : (fun q => q ^ 2 * (if power = 1 then E.pk else E.pk2) (p.spectrum k) q
        * windowed_bessel E s1 l1 q s1 (p.pixelsize.getD (p.spectrum k) 0)
        * windowed_bessel E s2 l2 q s2 (p.pixelsize.getD (p.spectrum k) 0)) = fun _ => 0 := by
      funext q
      rcases h with h | h
      · rw [hz l1 h q s1 _ (hpix k)]; ring
      · rw [hz l2 h q s2 _ (hpix k)]; ring
    rw [this, hq, mul_zero]
  simp [CovPar.covariance, CovPar.mixedPart, CovPar.cosmicPart, hb, hn]

/-- **C62** fails for FFTLog integration: apart from shot noise, switching pixel averaging on changes nothing. -/
theorem C62_fftlog_false (p : CovPar) (E : CovNum) (bg : Bg) (hf : p.fftlog = true) (hn : p.covariance_poisson = false) (w : Bool) :
    covariance_init { p with covariance_window := w } E bg = covariance_init p E bg := by
  have h3 : cov_cell { p with covariance_window := w } bg = cov_cell p bg := by
    funext A B v z k i m j n
    cases p
    simp only at hn
    subst hn
    rfl
  have h4 : cov_values { p with covariance_window := w } E bg = cov_values p E bg := by
    funext A B size
    unfold cov_values
    rw [h3]
    cases p
    rfl
  have h5 : cov_coords { p with covariance_window := w } = cov_coords p := rfl
  have h6 : integral_tables { p with covariance_window := w } E = integral_tables p E := by
    cases p
    simp only at hf
    subst hf
    rfl
  unfold covariance_init
  rw [h4, h5, h6]

/-! ### The hypotheses are met -/

/-- A sine integral. -/
noncomputable def sineIntegral (x : ℝ) : ℝ := ∫ t in (1 : ℝ)..x, Real.sin t / t

theorem isSineIntegral_sineIntegral : IsSineIntegral sineIntegral := by
  intro x hx
  have hc : ContinuousOn (fun t : ℝ => Real.sin t / t) (Set.Ioi 0) :=
    Real.continuous_sin.continuousOn.div continuousOn_id fun t ht => (Set.mem_Ioi.1 ht).ne'
  refine intervalIntegral.integral_hasDerivAt_right (ContinuousOn.intervalIntegrable (hc.mono fun t ht => ?_))
    (hc.stronglyMeasurableAtFilter isOpen_Ioi x hx) (hc.continuousAt (Ioi_mem_nhds hx))
  rcases Set.mem_uIcc.1 ht with h | h
  · exact Set.mem_Ioi.2 (by linarith [h.1])
  · exact Set.mem_Ioi.2 (by linarith [h.1])

/-- Numerics whose quadrature evaluates the integrand at two wavenumbers. -/
noncomputable def covNumPixel : CovNum :=
  ⟨fun r f => f (r + 1) + f (r + 2), fun _ _ _ => 1, fun _ _ => 1, sineIntegral, fun _ k => k, fun _ k => k ^ 2, fun _ _ _ _ _ => 1, 1⟩

example : covNumPixel.PositiveK ∧ IsSineIntegral covNumPixel.Si ∧ (∀ r, covNumPixel.quadK r (fun _ => 0) = 0) ∧
    ∃ p : CovPar, p.Matching ∧ p.Accepted ∧ p.fftlog = false ∧ p.covariance_window = true ∧ p.pk_linear = true ∧
      p.pixelsize = [10, 20] ∧ 10 / 2 < p.sep.getD 0 0 := by
  refine ⟨fun r f g h => ?_, isSineIntegral_sineIntegral, fun r => by simp [covNumPixel],
    { covGood with fftlog := false, covariance_window := true, pk_linear := true, pixelsize := [10, 20], sep := [50, 100] }, ?_, ?_,
    rfl, rfl, rfl, rfl, by norm_num⟩
  · show f _ + f _ = g _ + g _
    rw [h _ (by positivity), h _ (by positivity)]
  · constructor <;> simp [covGood, covWitness, CovPar.bins]
  · constructor <;> simp [covGood, covWitness, CovPar.bins]

end Coffe
