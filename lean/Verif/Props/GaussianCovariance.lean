import Verif.Proofs.GaussianCovariance
import Verif.Props.Covariance
import Verif.Props.PixelAverage

/-!
# C68: the covariance is that of the multipoles of Gaussian fields
-/

namespace Coffe
open Classical

variable {ι R : Type} [Fintype ι] [CommRing R] [Algebra ℂ R]

/-- **C68** (the formula): the covariance of the multipoles of the measured correlation functions of Gaussian fields in a
periodic box is the sum over wave vectors that `Survey.gaussian` replaces by an integral. -/
theorem C68_box (b : Box ι R) (P : ℤ → ℤ → ℝ → ℝ → ℝ) (hb : b.Gaussian P) (hP : ∀ A B k mu, P A B k (-mu) = P A B k mu)
    (A B C D : ℤ) (l1 : ℕ) (s1 : ℝ) (l2 : ℕ) (s2 : ℝ) :
    b.cov (b.multipole A B l1 s1) (b.multipole C D l2 s2) =
      (2 * l1 + 1) * (2 * l2 + 1) / b.V * (Complex.I ^ l1 * (-Complex.I) ^ l2) *
        ((1 / b.V * ∑ i, sphericalBessel l1 (b.k i * s1) * sphericalBessel l2 (b.k i * s2) * legP l1 (b.mu i) * legP l2 (b.mu i)
          * (P A C (b.k i) (b.mu i) * P B D (b.k i) (b.mu i) + (-1) ^ l2 * P A D (b.k i) (b.mu i) * P B C (b.k i) (b.mu i)) : ℝ) : ℂ) :=
  box_cov_eq b P hb hP A B C D l1 s1 l2 s2

/-- With the spectra of signal and noise together, the sum has the terms of the cosmic variance, of signal and noise, and of
the noise alone. -/
theorem C68_parts (T : Survey) (a b c d : ℤ) (l2 : ℕ) (k mu : ℝ) :
    let X := fun A B => T.signal A B k mu + T.noise A B
    X a c * X b d + (-1) ^ l2 * X a d * X b c =
      (T.signal a c k mu * T.signal b d k mu + (-1) ^ l2 * T.signal a d k mu * T.signal b c k mu)
      + (T.signal a c k mu * T.noise b d + T.noise a c * T.signal b d k mu
        + (-1) ^ l2 * (T.signal a d k mu * T.noise b c + T.noise a d * T.signal b c k mu))
      + (T.noise a c * T.noise b d + (-1) ^ l2 * T.noise a d * T.noise b c) := by
  dsimp only
  ring

/-! ## The parts computed by the code -/

theorem bessels_exact (p : CovPar) (E : CovNum) (bg : Bg) (kmin kmax : ℕ → ℝ) (hE : E.Exact kmin kmax) (hf : p.fftlog = false)
    (k l1 : ℕ) (s1 : ℝ) (l2 : ℕ) (s2 : ℝ) (h1 : p.Admissible k l1 s1) (h2 : p.Admissible k l2 s2) (power : ℕ) :
    p.bessels E power k l1 s1 l2 s2 = (2 * (l1 : ℝ) + 1) * (2 * l2 + 1) * (2 / power) / Real.pi ^ 2 *
      ∫ q in (kmin (p.spectrum k))..(kmax (p.spectrum k)), q ^ 2 * (if power = 1 then E.pk (p.spectrum k) q else E.pk (p.spectrum k) q ^ 2)
        * (p.survey E bg kmin kmax k).J l1 q s1 * (p.survey E bg kmin kmax k).J l2 q s2 := by
  unfold CovPar.bessels
  rw [if_neg (by simp [hf]), hE.quad]
  congr 1
  refine intervalIntegral.integral_congr fun q hq => ?_
  rw [Set.uIcc_of_le (hE.range _).2] at hq
  have hq0 : 0 < q := (hE.range _).1.trans_le hq.1
  have key : ∀ l s, p.Admissible k l s →
      windowed_bessel E s l q s (if p.covariance_window then p.pixelsize.getD (p.spectrum k) 0 else 0) = (p.survey E bg kmin kmax k).J l q s := by
    intro l s h
    simp only [CovPar.survey]
    by_cases hw : p.covariance_window = true
    · have hsp : p.spectrum k = k := by
        unfold CovPar.spectrum
        rcases h.first hw with rfl | hk
        · simp
        · simp [hk]
      rw [if_pos hw, if_pos hw, hsp, windowed_bessel_eq E hE.Si l (h.order hw) hq0 (h.pixel hw).1 (h.pixel hw).2]
    · rw [if_neg hw, if_neg hw]
      unfold windowed_bessel
      rw [if_pos rfl, ← hE.bessel l _ (mul_pos hq0 h.sep), mul_comm]
  rw [key l1 s1 h1, key l2 s2 h2]
  by_cases hp : power = 1
  · simp only [hp, if_true]
  · simp only [hp, if_false, hE.square]

theorem survey_volume (p : CovPar) (E : CovNum) (bg : Bg) (kmin kmax : ℕ → ℝ) (ha : p.average = false) (k : ℕ) :
    p.fsky.getD k 0 * p.unitVolume E bg k = (p.survey E bg kmin kmax k).V := by
  unfold CovPar.unitVolume
  rw [if_neg (by simp [ha])]
  simp only [CovPar.survey]
  ring

theorem survey_zOf (p : CovPar) (ha : p.average = false) (k : ℕ) : p.zOf k = p.z_mean.getD k 0 := by
  unfold CovPar.zOf
  rw [if_neg (by simp [ha])]

theorem odd_integral (l1 l2 : ℕ) (h : l1 % 2 ≠ l2 % 2) (g : ℝ → ℝ) (hg : ∀ x, g (-x) = g x) :
    ∫ x in (-1 : ℝ)..1, legP l1 x * legP l2 x * g x = 0 := by
  have e := intervalIntegral.integral_comp_neg (a := -1) (b := 1) fun x => legP l1 x * legP l2 x * g x
  rw [_root_.neg_neg] at e
  have s : (-1 : ℝ) ^ l1 * (-1) ^ l2 = -1 := by
    rw [← pow_add]
    exact (Nat.odd_iff.2 (by omega)).neg_one_pow
  have e2 : ∀ x, legP l1 (-x) * legP l2 (-x) * g (-x) = -(legP l1 x * legP l2 x * g x) := fun x => by
    rw [legP_neg, legP_neg, hg]
    linear_combination (legP l1 x * legP l2 x * g x) * s
  simp only [e2, intervalIntegral.integral_neg] at e
  linarith

/-- The sum of a product of a function of the wavenumber and one of the cosine. -/
theorem pairs_separate (T : Survey) (l1 : ℕ) (s1 : ℝ) (l2 : ℕ) (s2 : ℝ) (h g : ℝ → ℝ) :
    T.pairs l1 s1 l2 s2 (fun k mu => h k * g mu) = (2 * (l1 : ℝ) + 1) * (2 * l2 + 1) / T.V * (Complex.I ^ l1 * (-Complex.I) ^ l2).re
      * (1 / (4 * Real.pi ^ 2)) * (∫ x in (-1 : ℝ)..1, legP l1 x * legP l2 x * g x)
      * ∫ k in T.kmin..T.kmax, k ^ 2 * h k * T.J l1 k s1 * T.J l2 k s2 := by
  unfold Survey.pairs Survey.modes
  have e : ∀ k, k ^ 2 * (∫ mu in (-1 : ℝ)..1, T.J l1 k s1 * T.J l2 k s2 * legP l1 mu * legP l2 mu * (h k * g mu))
      = (∫ x in (-1 : ℝ)..1, legP l1 x * legP l2 x * g x) * (k ^ 2 * h k * T.J l1 k s1 * T.J l2 k s2) := by
    intro k
    have : ∀ mu, T.J l1 k s1 * T.J l2 k s2 * legP l1 mu * legP l2 mu * (h k * g mu)
        = (T.J l1 k s1 * T.J l2 k s2 * h k) * (legP l1 mu * legP l2 mu * g mu) := fun mu => by ring
    simp only [this, intervalIntegral.integral_const_mul]
    ring
  simp only [e, intervalIntegral.integral_const_mul]
  ring

/-- The cosmic variance of the code: the two terms have the same sign for all multipoles. -/
theorem cosmicPart_eq (p : CovPar) (E : CovNum) (bg : Bg) (kmin kmax : ℕ → ℝ) (hE : E.Exact kmin kmax) (hf : p.fftlog = false)
    (ha : p.average = false) (k l1 : ℕ) (s1 : ℝ) (l2 : ℕ) (s2 : ℝ) (h1 : p.Admissible k l1 s1) (h2 : p.Admissible k l2 s2) :
    let T := p.survey E bg kmin kmax k
    p.cosmicPart E bg k l1 s1 l2 s2 / (p.fsky.getD k 0 * p.unitVolume E bg k) = T.pairs l1 s1 l2 s2 fun q mu =>
      T.signal p.pop1 p.pop3 q mu * T.signal p.pop2 p.pop4 q mu + T.signal p.pop1 p.pop4 q mu * T.signal p.pop2 p.pop3 q mu := by
  intro T
  have eX : (fun q mu => T.signal p.pop1 p.pop3 q mu * T.signal p.pop2 p.pop4 q mu + T.signal p.pop1 p.pop4 q mu * T.signal p.pop2 p.pop3 q mu)
      = fun q mu => (T.P q ^ 2) * ((T.bias p.pop1 + T.f * mu ^ 2) * (T.bias p.pop3 + T.f * mu ^ 2) * ((T.bias p.pop2 + T.f * mu ^ 2) * (T.bias p.pop4 + T.f * mu ^ 2))
        + (T.bias p.pop1 + T.f * mu ^ 2) * (T.bias p.pop4 + T.f * mu ^ 2) * ((T.bias p.pop2 + T.f * mu ^ 2) * (T.bias p.pop3 + T.f * mu ^ 2))) := by
    funext q mu
    simp only [Survey.signal]
    ring
  rw [eX, pairs_separate T l1 s1 l2 s2 (fun q => T.P q ^ 2) (fun mu => (T.bias p.pop1 + T.f * mu ^ 2) * (T.bias p.pop3 + T.f * mu ^ 2) * ((T.bias p.pop2 + T.f * mu ^ 2) * (T.bias p.pop4 + T.f * mu ^ 2))
        + (T.bias p.pop1 + T.f * mu ^ 2) * (T.bias p.pop4 + T.f * mu ^ 2) * ((T.bias p.pop2 + T.f * mu ^ 2) * (T.bias p.pop3 + T.f * mu ^ 2))),
    survey_volume p E bg kmin kmax ha k]
  unfold CovPar.cosmicPart
  rw [bessels_exact p E bg kmin kmax hE hf k l1 s1 l2 s2 h1 h2, coeff_cosmic_eq, survey_zOf p ha]
  have hP : ∀ q, T.P q ^ 2 = (if p.pk_linear then bg.D1 (p.z_mean.getD k 0) ^ 4 else 1) * E.pk (p.spectrum k) q ^ 2 := by
    intro q
    show (if p.pk_linear then bg.D1 (p.z_mean.getD k 0) ^ 2 * E.pk 0 q else E.pk k q) ^ 2 = _
    unfold CovPar.spectrum
    split_ifs <;> ring
  have eP : (∫ q in T.kmin..T.kmax, q ^ 2 * T.P q ^ 2 * T.J l1 q s1 * T.J l2 q s2) = (if p.pk_linear then bg.D1 (p.z_mean.getD k 0) ^ 4 else 1)
      * ∫ q in (kmin (p.spectrum k))..(kmax (p.spectrum k)), q ^ 2 * E.pk (p.spectrum k) q ^ 2 * T.J l1 q s1 * T.J l2 q s2 := by
    rw [← intervalIntegral.integral_const_mul]
    refine intervalIntegral.integral_congr fun q _ => ?_
    rw [hP]
    ring
  rw [eP]
  simp only [show ¬ (2 = 1) by decide, if_false]
  by_cases hl : l1 % 2 = l2 % 2
  · rw [phase_same l1 l2 hl]
    change _ * _ * (_ * ∫ q in _.._, q ^ 2 * E.pk (p.spectrum k) q ^ 2 * T.J l1 q s1 * T.J l2 q s2) * ((∫ x in (-1 : ℝ)..1, legP l1 x * legP l2 x *
      ((T.bias p.pop1 + T.f * x ^ 2) * (T.bias p.pop3 + T.f * x ^ 2) * ((T.bias p.pop2 + T.f * x ^ 2) * (T.bias p.pop4 + T.f * x ^ 2))
        + (T.bias p.pop1 + T.f * x ^ 2) * (T.bias p.pop4 + T.f * x ^ 2) * ((T.bias p.pop2 + T.f * x ^ 2) * (T.bias p.pop3 + T.f * x ^ 2)))) / 4) / T.V = _
    push_cast
    ring
  · rw [phase_mixed l1 l2 hl, odd_integral l1 l2 hl _ (fun x => by simp only [neg_sq])]
    ring

theorem mixedPart_eq (p : CovPar) (E : CovNum) (bg : Bg) (kmin kmax : ℕ → ℝ) (hE : E.Exact kmin kmax) (hf : p.fftlog = false)
    (ha : p.average = false) (k l1 : ℕ) (s1 : ℝ) (l2 : ℕ) (s2 : ℝ) (h1 : p.Admissible k l1 s1) (h2 : p.Admissible k l2 s2)
    (hd1 : (p.survey E bg kmin kmax k).density p.pop1 = p.density1.getD k 0) (hd2 : (p.survey E bg kmin kmax k).density p.pop2 = p.density2.getD k 0) :
    let T := p.survey E bg kmin kmax k
    p.mixedPart E bg k l1 s1 l2 s2 / (p.fsky.getD k 0 * p.unitVolume E bg k) = T.pairs l1 s1 l2 s2 fun q mu =>
      T.signal p.pop1 p.pop3 q mu * T.noise p.pop2 p.pop4 + T.noise p.pop1 p.pop3 * T.signal p.pop2 p.pop4 q mu
        + (T.signal p.pop1 p.pop4 q mu * T.noise p.pop2 p.pop3 + T.noise p.pop1 p.pop4 * T.signal p.pop2 p.pop3 q mu) := by
  intro T
  have n1 : ∀ B, T.noise p.pop1 B = kronecker_delta p.pop1 B / p.density1.getD k 0 := by
    intro B
    unfold Survey.noise kronecker_delta
    rw [hd1]
    split_ifs <;> simp
  have n2 : ∀ B, T.noise p.pop2 B = kronecker_delta p.pop2 B / p.density2.getD k 0 := by
    intro B
    unfold Survey.noise kronecker_delta
    rw [hd2]
    split_ifs <;> simp
  obtain ⟨G, hG⟩ : ∃ G : ℝ → ℝ, G = fun mu => (T.bias p.pop1 + T.f * mu ^ 2) * (T.bias p.pop3 + T.f * mu ^ 2) * (kronecker_delta p.pop2 p.pop4 / p.density2.getD k 0)
      + (kronecker_delta p.pop1 p.pop3 / p.density1.getD k 0) * ((T.bias p.pop2 + T.f * mu ^ 2) * (T.bias p.pop4 + T.f * mu ^ 2))
      + ((T.bias p.pop1 + T.f * mu ^ 2) * (T.bias p.pop4 + T.f * mu ^ 2) * (kronecker_delta p.pop2 p.pop3 / p.density2.getD k 0)
      + (kronecker_delta p.pop1 p.pop4 / p.density1.getD k 0) * ((T.bias p.pop2 + T.f * mu ^ 2) * (T.bias p.pop3 + T.f * mu ^ 2))) := ⟨_, rfl⟩
  have eX : (fun q mu => T.signal p.pop1 p.pop3 q mu * T.noise p.pop2 p.pop4 + T.noise p.pop1 p.pop3 * T.signal p.pop2 p.pop4 q mu
        + (T.signal p.pop1 p.pop4 q mu * T.noise p.pop2 p.pop3 + T.noise p.pop1 p.pop4 * T.signal p.pop2 p.pop3 q mu))
      = fun q mu => T.P q * G mu := by
    funext q mu
    rw [hG]
    simp only [Survey.signal, n1, n2]
    ring
  rw [eX, pairs_separate T l1 s1 l2 s2 T.P G, survey_volume p E bg kmin kmax ha k]
  unfold CovPar.mixedPart
  rw [bessels_exact p E bg kmin kmax hE hf k l1 s1 l2 s2 h1 h2, coeff_mixed_eq, survey_zOf p ha]
  have hP : ∀ q, T.P q = (if p.pk_linear then bg.D1 (p.z_mean.getD k 0) ^ 2 else 1) * E.pk (p.spectrum k) q := by
    intro q
    show (if p.pk_linear then bg.D1 (p.z_mean.getD k 0) ^ 2 * E.pk 0 q else E.pk k q) = _
    unfold CovPar.spectrum
    split_ifs <;> ring
  have eP : (∫ q in T.kmin..T.kmax, q ^ 2 * T.P q * T.J l1 q s1 * T.J l2 q s2) = (if p.pk_linear then bg.D1 (p.z_mean.getD k 0) ^ 2 else 1)
      * ∫ q in (kmin (p.spectrum k))..(kmax (p.spectrum k)), q ^ 2 * E.pk (p.spectrum k) q * T.J l1 q s1 * T.J l2 q s2 := by
    rw [← intervalIntegral.integral_const_mul]
    refine intervalIntegral.integral_congr fun q _ => ?_
    rw [hP]
    ring
  rw [eP]
  simp only [if_true]
  change _ * _ * _ * (_ * ∫ q in _.._, q ^ 2 * E.pk (p.spectrum k) q * T.J l1 q s1 * T.J l2 q s2) * ((∫ x in (-1 : ℝ)..1, legP l1 x * legP l2 x *
    ((T.bias p.pop1 + T.f * x ^ 2) * (T.bias p.pop3 + T.f * x ^ 2) * (kronecker_delta p.pop2 p.pop4 / p.density2.getD k 0)
      + (kronecker_delta p.pop1 p.pop3 / p.density1.getD k 0) * ((T.bias p.pop2 + T.f * x ^ 2) * (T.bias p.pop4 + T.f * x ^ 2))
      + ((T.bias p.pop1 + T.f * x ^ 2) * (T.bias p.pop4 + T.f * x ^ 2) * (kronecker_delta p.pop2 p.pop3 / p.density2.getD k 0)
      + (kronecker_delta p.pop1 p.pop4 / p.density1.getD k 0) * ((T.bias p.pop2 + T.f * x ^ 2) * (T.bias p.pop3 + T.f * x ^ 2))))) / 8) / T.V = _
  have hGx : ∀ x, ((T.bias p.pop1 + T.f * x ^ 2) * (T.bias p.pop3 + T.f * x ^ 2) * (kronecker_delta p.pop2 p.pop4 / p.density2.getD k 0)
      + (kronecker_delta p.pop1 p.pop3 / p.density1.getD k 0) * ((T.bias p.pop2 + T.f * x ^ 2) * (T.bias p.pop4 + T.f * x ^ 2))
      + ((T.bias p.pop1 + T.f * x ^ 2) * (T.bias p.pop4 + T.f * x ^ 2) * (kronecker_delta p.pop2 p.pop3 / p.density2.getD k 0)
      + (kronecker_delta p.pop1 p.pop4 / p.density1.getD k 0) * ((T.bias p.pop2 + T.f * x ^ 2) * (T.bias p.pop3 + T.f * x ^ 2)))) = G x := by
    intro x; rw [hG]
  simp only [hGx]
  by_cases hl : l1 % 2 = l2 % 2
  · have hsg : sign ((l1 : ℤ) + l2) = 1 := by
      unfold sign
      rw [if_pos (by omega)]
    rw [phase_same l1 l2 hl, hsg]
    push_cast
    ring
  · rw [phase_mixed l1 l2 hl, odd_integral l1 l2 hl G (fun x => by rw [hG]; simp only [neg_sq])]
    ring

theorem poissonPart_eq (p : CovPar) (E : CovNum) (bg : Bg) (kmin kmax : ℕ → ℝ) (ha : p.average = false) (k l1 : ℕ) (s1 : ℝ) (l2 : ℕ) (s2 : ℝ)
    (hd1 : (p.survey E bg kmin kmax k).density p.pop1 = p.density1.getD k 0) (hd2 : (p.survey E bg kmin kmax k).density p.pop2 = p.density2.getD k 0) :
    p.poissonPart k l1 s1 l2 s2 / (p.fsky.getD k 0 * p.unitVolume E bg k)
      = (p.survey E bg kmin kmax k).poisson p.pop1 p.pop2 p.pop3 p.pop4 l1 s1 l2 s2 := by
  have n1 : ∀ B, (p.survey E bg kmin kmax k).noise p.pop1 B = kronecker_delta p.pop1 B / p.density1.getD k 0 := by
    intro B
    unfold Survey.noise kronecker_delta
    rw [hd1]
    split_ifs <;> simp
  have n2 : ∀ B, (p.survey E bg kmin kmax k).noise p.pop2 B = kronecker_delta p.pop2 B / p.density2.getD k 0 := by
    intro B
    unfold Survey.noise kronecker_delta
    rw [hd2]
    split_ifs <;> simp
  have hsh : (p.survey E bg kmin kmax k).shell s1 = if p.covariance_window then
      3 / ((s1 + p.pixelsize.getD k 0 / 2) ^ 3 - (s1 - p.pixelsize.getD k 0 / 2) ^ 3) else 1 / (s1 ^ 2 * p.pixelsize.getD k 0) := by
    simp only [CovPar.survey, integral_pow, Nat.reduceAdd, Nat.cast_ofNat]
    split_ifs
    · rw [one_div_div]
      norm_num
    · rfl
  rw [survey_volume p E bg kmin kmax ha k]
  unfold CovPar.poissonPart Survey.poisson
  rw [hsh]
  simp only [n1, n2]
  generalize (p.survey E bg kmin kmax k).V = V
  generalize (if p.covariance_window then _ else _ : ℝ) = sh
  split_ifs with h
  · ring
  · simp

/-! ## C68 -/

/-- **C68** (partial: standard integration, fixed redshifts, exact numerical procedures, not two odd multipoles; the first
tracer belongs to the first population and the second one does not, unless the densities are the same): the value
for each pair of multipoles and separations is the covariance of these multipoles for Gaussian fields in the volume of the
bin, with the requested ones of its three parts: the product of the noise spectra, of signal and noise, and of the
signals. -/
theorem C68_partial (p : CovPar) (E : CovNum) (bg : Bg) (kmin kmax : ℕ → ℝ) (hp : p.Matching) (hz : p.MeanFits) (hs : p.sep.Nodup)
    (ha : p.average = false) (hf : p.fftlog = false) (hE : E.Exact kmin kmax)
    (hd1 : p.pop1 = 1 ∨ p.density1 = p.density2) (hd2 : p.pop2 ≠ 1 ∨ p.density1 = p.density2) :
    ∃ C V, covariance_init p E bg = .ok (C, V) ∧
      ∀ k < p.bins, ∀ i < p.multipole_values.length, ∀ m < p.sep.length, ∀ j < p.multipole_values.length, ∀ n < p.sep.length,
        let T := p.survey E bg kmin kmax k
        let l1 := p.multipole_values.getD i 0
        let l2 := p.multipole_values.getD j 0
        let s1 := p.sep.getD m 0
        let s2 := p.sep.getD n 0
        p.Admissible k l1 s1 → p.Admissible k l2 s2 → ¬ (l1 % 2 = 1 ∧ l2 % 2 = 1) →
        V.val (pos5 p.multipole_values.length p.sep.length k i m j n) = some
          ((if p.covariance_poisson then T.poisson p.pop1 p.pop2 p.pop3 p.pop4 l1 s1 l2 s2 else 0)
          + (if p.covariance_mixed then T.mixed p.pop1 p.pop2 p.pop3 p.pop4 l1 s1 l2 s2 else 0)
          + (if p.covariance_cosmic then T.cosmic p.pop1 p.pop2 p.pop3 p.pop4 l1 s1 l2 s2 else 0)) := by
  obtain ⟨C, V, e, -, -, h⟩ := C24_rows_partial p E bg hp hz hs (by simp [hf])
  refine ⟨C, V, e, fun k hk i hi m hm j hj n hn => ?_⟩
  intro T l1 l2 s1 s2 a1 a2 hodd
  rw [(h k hk i hi m hm j hj n hn).2]
  congr 1
  show p.covariance E bg k l1 s1 l2 s2 = _
  have e1 : T.density p.pop1 = p.density1.getD k 0 := by
    show (if p.pop1 = 1 then p.density1.getD k 0 else p.density2.getD k 0) = _
    rcases hd1 with h | h
    · rw [if_pos h]
    · rw [h, ite_self]
  have e2 : T.density p.pop2 = p.density2.getD k 0 := by
    show (if p.pop2 = 1 then p.density1.getD k 0 else p.density2.getD k 0) = _
    rcases hd2 with h | h
    · rw [if_neg h]
    · rw [h, ite_self]
  have hX : ∀ X Y : ℝ → ℝ → ℝ, (T.pairs l1 s1 l2 s2 fun q mu => X q mu + Y q mu) = T.pairs l1 s1 l2 s2 fun q mu => X q mu + (-1) ^ l2 * Y q mu := by
    intro X Y
    by_cases hl : l1 % 2 = l2 % 2
    · rw [(Nat.even_iff.2 (by omega) : Even l2).neg_one_pow]
      simp only [one_mul]
    · unfold Survey.pairs
      rw [phase_mixed l1 l2 hl]
      ring
  unfold CovPar.covariance
  rw [add_div, add_div]
  congr 1
  · congr 1
    · split_ifs
      · exact poissonPart_eq p E bg kmin kmax ha k l1 s1 l2 s2 e1 e2
      · exact zero_div _
    · split_ifs
      · rw [mixedPart_eq p E bg kmin kmax hE hf ha k l1 s1 l2 s2 a1 a2 e1 e2]
        exact hX _ _
      · exact zero_div _
  · split_ifs
    · rw [cosmicPart_eq p E bg kmin kmax hE hf ha k l1 s1 l2 s2 a1 a2]
      exact (hX (fun q mu => T.signal p.pop1 p.pop3 q mu * T.signal p.pop2 p.pop4 q mu) (fun q mu => T.signal p.pop1 p.pop4 q mu * T.signal p.pop2 p.pop3 q mu)).trans
        (by simp only [Survey.cosmic, Survey.gaussian, mul_assoc])
    · exact zero_div _

/-- Exact numerical procedures for the constant spectrum. -/
noncomputable def gaussNum (kmin kmax : ℝ) : CovNum where
  quadK _ g := ∫ q in kmin..kmax, g q
  quadZ a b g := ∫ z in a..b, g z
  bessel := sphericalBessel
  Si := sineIntegral
  pk _ _ := 1
  pk2 _ _ := 1
  fft _ _ _ _ _ := 0
  H0 := 1

theorem gaussNum_exact {kmin kmax : ℝ} (h : 0 < kmin) (h' : kmin ≤ kmax) : (gaussNum kmin kmax).Exact (fun _ => kmin) (fun _ => kmax) :=
  ⟨fun _ _ => rfl, fun _ => ⟨h, h'⟩, fun _ _ _ => rfl, isSineIntegral_sineIntegral, fun _ _ => by simp [gaussNum]⟩

/-- Two populations, two redshifts with a spectrum each, pixel averages. -/
example : let p : CovPar := { covGood with pop2 := 2, pop4 := 2, covariance_window := true, density2 := [2, 3] }
    p.Matching ∧ p.MeanFits ∧ p.sep.Nodup ∧ p.average = false ∧ p.fftlog = false ∧ (gaussNum 1 2).Exact (fun _ => 1) (fun _ => 2) ∧
      (p.pop1 = 1 ∨ p.density1 = p.density2) ∧ (p.pop2 ≠ 1 ∨ p.density1 = p.density2) ∧
      ∀ k < p.bins, ∀ l ∈ p.multipole_values, ∀ s ∈ p.sep, p.Admissible k l s ∧ ¬ l % 2 = 1 := by
  refine ⟨?_, ?_, ?_, rfl, rfl, gaussNum_exact (by norm_num) (by norm_num), Or.inl rfl, Or.inl (by decide), ?_⟩
  · constructor <;> simp [covGood, covWitness, CovPar.bins]
  · simp [CovPar.MeanFits, covGood, covWitness, CovPar.bins]
  · norm_num [covGood]
  · intro k hk l hl s hs
    have hk : k < 2 := by simpa [covGood, covWitness, CovPar.bins] using hk
    have hl : l = 0 ∨ l = 2 := by simpa [covGood] using hl
    have hs : s = 100 ∨ s = 150 := by simpa [covGood] using hs
    have hpx : (covGood.pixelsize).getD k 0 = 10 := by
      interval_cases k <;> simp [covGood, covWitness]
    refine ⟨⟨by rcases hs with rfl | rfl <;> norm_num, fun _ => by omega, fun _ => ?_, fun _ => Or.inr rfl⟩, by omega⟩
    show 0 < (covGood.pixelsize).getD k 0 ∧ (covGood.pixelsize).getD k 0 / 2 < s
    rw [hpx]
    rcases hs with rfl | rfl <;> norm_num

/-! ### Odd multipoles -/

/-- The cosmic variance of a pair of odd multipoles of the same two tracers vanishes: all tracers follow the matter, so the odd
multipoles are pure noise. -/
theorem C68_odd_true (T : Survey) (a b : ℤ) (l1 : ℕ) (s1 : ℝ) (l2 : ℕ) (s2 : ℝ) (h2 : l2 % 2 = 1) :
    T.cosmic a b a b l1 s1 l2 s2 = 0 := by
  unfold Survey.cosmic Survey.gaussian
  rw [(Nat.odd_iff.2 h2 : Odd l2).neg_one_pow]
  have : (fun k mu => T.signal a a k mu * T.signal b b k mu + -1 * T.signal a b k mu * T.signal b a k mu) = fun _ _ => 0 := by
    funext k mu
    unfold Survey.signal
    ring
  rw [this]
  simp [Survey.pairs, Survey.modes]

/-- The dipole of two populations at one separation and redshift; cosmic variance only. -/
noncomputable def covOdd : CovPar :=
  { covGood with z_mean := [1], deltaz := [1/10], density1 := [1], density2 := [1], fsky := [1], pixelsize := [1/10],
                 multipole_values := [1], sep := [1], pop2 := 2, pop4 := 2, rsd := false,
                 covariance_mixed := false, covariance_poisson := false }

theorem j1_pos {x : ℝ} (h2 : 2 ≤ x) (h3 : x ≤ 3) : 0 < sphericalBessel 1 x := by
  have hs : 0 < Real.sin x := Real.sin_pos_of_pos_of_lt_pi (by linarith) (by linarith [Real.pi_gt_three])
  have hc : Real.cos x < 0 := Real.cos_neg_of_pi_div_two_lt_of_lt (by linarith [Real.pi_lt_four]) (by linarith [Real.pi_gt_three])
  have : 0 < x := by linarith
  unfold sphericalBessel
  have h4 : Real.cos x / x < 0 := div_neg_of_neg_of_pos hc this
  have h5 : 0 < Real.sin x / x ^ 2 := by positivity
  linarith

theorem covOdd_pos : 0 < ∫ q in (2 : ℝ)..3, q ^ 2 * 1 * sphericalBessel 1 (q * 1) * sphericalBessel 1 (q * 1) := by
  refine intervalIntegral.intervalIntegral_pos_of_pos_on ?_ (fun q hq => ?_) (by norm_num)
  · apply ContinuousOn.intervalIntegrable
    rw [Set.uIcc_of_le (by norm_num)]
    have : ∀ q ∈ Set.Icc (2 : ℝ) 3, q * 1 ≠ 0 := fun q hq => by linarith [hq.1]
    have this2 : ∀ q ∈ Set.Icc (2 : ℝ) 3, (q * 1) ^ 2 ≠ 0 := fun q hq => pow_ne_zero _ (this q hq)
    unfold sphericalBessel
    fun_prop (disch := assumption)
  · have := j1_pos hq.1.le hq.2.le
    rw [mul_one, mul_one]
    have hq2 : 0 < q := by linarith [hq.1]
    positivity

/-- **C68** fails for odd multipoles: the terms that exchange the tracers of one pair have the sign `+` instead of `(-1)^l`
(src/covariance.c:878-896, 898-945), so that the cosmic variance of the dipole of two populations, which is zero, comes out
positive. -/
theorem C68_odd_false :
    covOdd.Matching ∧ covOdd.MeanFits ∧ covOdd.sep.Nodup ∧ (gaussNum 2 3).Exact (fun _ => 2) (fun _ => 3) ∧ covOdd.Admissible 0 1 1 ∧
    (covOdd.survey (gaussNum 2 3) wBg (fun _ => 2) (fun _ => 3) 0).cosmic 1 2 1 2 1 1 1 1 = 0 ∧
    ∃ C V v, covariance_init covOdd (gaussNum 2 3) wBg = .ok (C, V) ∧ V.val 0 = some v ∧ 0 < v := by
  have hM : covOdd.Matching := by constructor <;> simp [covOdd, covGood, covWitness, CovPar.bins]
  have hF : covOdd.MeanFits := by simp [CovPar.MeanFits, covOdd, covGood, covWitness, CovPar.bins]
  have hN : covOdd.sep.Nodup := by simp [covOdd]
  have hE := gaussNum_exact (kmin := 2) (kmax := 3) (by norm_num) (by norm_num)
  have hA : covOdd.Admissible 0 1 1 := ⟨by norm_num, by simp [covOdd, covGood, covWitness], by simp [covOdd, covGood, covWitness], fun _ => Or.inl rfl⟩
  refine ⟨hM, hF, hN, hE, hA, C68_odd_true _ _ _ _ _ _ _ (by norm_num), ?_⟩
  obtain ⟨C, V, e, -, -, h⟩ := C24_rows_partial covOdd (gaussNum 2 3) wBg hM hF hN (by simp [covOdd, covGood, covWitness])
  refine ⟨C, V, _, e, (h 0 (by simp [covOdd, covGood, covWitness, CovPar.bins]) 0 (by simp [covOdd]) 0 (by simp [covOdd]) 0 (by simp [covOdd]) 0 (by simp [covOdd])).2, ?_⟩
  show 0 < covOdd.covariance (gaussNum 2 3) wBg 0 1 1 1 1
  have e1 : covOdd.covariance (gaussNum 2 3) wBg 0 1 1 1 1
      = covOdd.cosmicPart (gaussNum 2 3) wBg 0 1 1 1 1 / (covOdd.fsky.getD 0 0 * covOdd.unitVolume (gaussNum 2 3) wBg 0) := by
    unfold CovPar.covariance
    simp only [covOdd, covGood, covWitness, if_true, if_false, Bool.false_eq_true, zero_add]
  rw [e1, cosmicPart_eq covOdd (gaussNum 2 3) wBg _ _ hE rfl rfl 0 1 1 1 1 hA hA]
  obtain ⟨T, hT⟩ : ∃ T, T = covOdd.survey (gaussNum 2 3) wBg (fun _ => 2) (fun _ => 3) 0 := ⟨_, rfl⟩
  have hsig : ∀ A ∈ [(1 : ℤ), 2], ∀ B ∈ [(1 : ℤ), 2], ∀ q mu, T.signal A B q mu = 1 := by
    intro A hA B hB q mu
    fin_cases hA <;> fin_cases hB <;>
      simp [hT, Survey.signal, CovPar.survey, CovPar.biasOf, covOdd, covGood, covWitness, gaussNum]
  have eX : (fun q mu => T.signal covOdd.pop1 covOdd.pop3 q mu * T.signal covOdd.pop2 covOdd.pop4 q mu
      + T.signal covOdd.pop1 covOdd.pop4 q mu * T.signal covOdd.pop2 covOdd.pop3 q mu) = fun _ _ => (1 : ℝ) * 2 := by
    funext q mu
    rw [show covOdd.pop1 = 1 from rfl, show covOdd.pop3 = 1 from rfl, show covOdd.pop2 = 2 from rfl, show covOdd.pop4 = 2 from rfl,
      hsig 1 (by simp) 1 (by simp), hsig 2 (by simp) 2 (by simp), hsig 1 (by simp) 2 (by simp), hsig 2 (by simp) 1 (by simp)]
    norm_num
  rw [← hT]
  rw [eX, pairs_separate T 1 1 1 1 (fun _ => 1) (fun _ => 2)]
  have eI : ∫ x in (-1 : ℝ)..1, legP 1 x * legP 1 x * 2 = 4 / 3 := by
    have : ∀ x : ℝ, legP 1 x * legP 1 x * 2 = 2 * x ^ 2 := fun x => by simp only [legP]; ring
    simp only [this, intervalIntegral.integral_const_mul, integral_pow]
    norm_num
  have eJ : (∫ k in T.kmin..T.kmax, k ^ 2 * 1 * T.J 1 k 1 * T.J 1 k 1) = ∫ q in (2 : ℝ)..3, q ^ 2 * 1 * sphericalBessel 1 (q * 1) * sphericalBessel 1 (q * 1) := by
    rw [hT]
    rfl
  have eV : 0 < T.V := by
    rw [hT]
    have : 0 < Real.pi := Real.pi_pos
    simp only [CovPar.survey, covOdd, covGood, covWitness, wBg, List.getD_cons_zero]
    norm_num
    positivity
  rw [eI, eJ, phase_same 1 1 rfl]
  have h3 : sign ((((1 : ℕ) : ℤ) - (1 : ℕ)).tdiv 2) = 1 := by simp [sign]
  rw [h3]
  have := covOdd_pos
  have hpi := Real.pi_pos
  push_cast
  positivity

/-! ### Number densities -/

/-- The default populations, shot noise only, different number densities of the first and the second population. -/
noncomputable def covDensity : CovPar :=
  { covGood with z_mean := [1], deltaz := [1/10], density1 := [1], density2 := [2], fsky := [1], pixelsize := [1/10],
                 multipole_values := [0], sep := [1], covariance_mixed := false, covariance_cosmic := false }

/-- **C68** fails for two tracers of the same population: the shot noise is that of the given densities of the first and the
second population, whatever the populations are (src/covariance.c:898-985).  Here all tracers are of the first population,
and the result is half of the right one. -/
theorem C68_density_false (E : CovNum) (kmin kmax : ℕ → ℝ) :
    covDensity.Matching ∧ covDensity.MeanFits ∧ covDensity.sep.Nodup ∧ covDensity.Admissible 0 0 1 ∧
    covDensity.pop1 = 1 ∧ covDensity.pop2 = 1 ∧ covDensity.pop3 = 1 ∧ covDensity.pop4 = 1 ∧
    (covDensity.survey E wBg kmin kmax 0).poisson 1 1 1 1 0 1 0 1 ≠ 0 ∧
    ∃ C V, covariance_init covDensity E wBg = .ok (C, V) ∧
      V.val 0 = some ((covDensity.survey E wBg kmin kmax 0).poisson 1 1 1 1 0 1 0 1 / 2) := by
  have hM : covDensity.Matching := by constructor <;> simp [covDensity, covGood, covWitness, CovPar.bins]
  have hF : covDensity.MeanFits := by simp [CovPar.MeanFits, covDensity, covGood, covWitness, CovPar.bins]
  have hN : covDensity.sep.Nodup := by simp [covDensity]
  have hpi := Real.pi_pos
  have eT : (covDensity.survey E wBg kmin kmax 0).poisson 1 1 1 1 0 1 0 1 = 1 / (4 * Real.pi * (covDensity.survey E wBg kmin kmax 0).V) * 20 := by
    unfold Survey.poisson Survey.noise
    simp only [and_self, if_true]
    have : (covDensity.survey E wBg kmin kmax 0).shell 1 = 10 := by simp [CovPar.survey, covDensity, covGood, covWitness]
    rw [this]
    have : (covDensity.survey E wBg kmin kmax 0).density 1 = 1 := by simp [CovPar.survey, covDensity, covGood, covWitness]
    rw [this]
    norm_num
    ring
  have eV : 0 < (covDensity.survey E wBg kmin kmax 0).V := by
    simp only [CovPar.survey, covDensity, covGood, covWitness, wBg, List.getD_cons_zero]
    norm_num
    positivity
  refine ⟨hM, hF, hN, ⟨by norm_num, by simp [covDensity, covGood, covWitness], by simp [covDensity, covGood, covWitness], fun _ => Or.inl rfl⟩,
    rfl, rfl, rfl, rfl, ?_, ?_⟩
  · rw [eT]
    positivity
  · obtain ⟨C, V, e, -, -, h⟩ := C24_rows_partial covDensity E wBg hM hF hN (by simp [covDensity, covGood, covWitness])
    refine ⟨C, V, e, ((h 0 (by simp [covDensity, covGood, covWitness, CovPar.bins]) 0 (by simp [covDensity]) 0 (by simp [covDensity]) 0 (by simp [covDensity]) 0 (by simp [covDensity])).2).trans ?_⟩
    congr 1
    show covDensity.covariance E wBg 0 0 1 0 1 = _
    have e1 : covDensity.covariance E wBg 0 0 1 0 1
        = covDensity.poissonPart 0 0 1 0 1 / (covDensity.fsky.getD 0 0 * covDensity.unitVolume E wBg 0) := by
      unfold CovPar.covariance
      simp only [covDensity, covGood, covWitness, if_true, if_false, Bool.false_eq_true, add_zero]
    rw [e1, survey_volume covDensity E wBg kmin kmax rfl 0, eT]
    generalize (covDensity.survey E wBg kmin kmax 0).V = V
    simp only [CovPar.poissonPart, covDensity, covGood, covWitness, kronecker_delta, and_self, if_true, Bool.false_eq_true, if_false, List.getD_cons_zero]
    norm_num
    ring

/-! ### Gaussian fields exist -/

/-- Moments of two conjugate complex Gaussian variables `z`, `w`: the mean of `z^a w^b` is `a!` if `a = b`, otherwise 0. -/
noncomputable def boxMean : AddMonoidAlgebra ℂ (ℕ × ℕ) →ₗ[ℂ] ℂ where
  toFun x := x.coeff.sum fun ab c => c * if ab.1 = ab.2 then (ab.1.factorial : ℂ) else 0
  map_add' x y := by
    rw [AddMonoidAlgebra.coeff_add, Finsupp.sum_add_index (by simp) (by intros; ring)]
  map_smul' c x := by
    rw [AddMonoidAlgebra.coeff_smul, Finsupp.sum_smul_index (by simp), RingHom.id_apply, smul_eq_mul, Finsupp.mul_sum]
    simp only [mul_assoc]

noncomputable def boxWitness : Box Bool (AddMonoidAlgebra ℂ (ℕ × ℕ)) where
  V := 1
  neg := not
  k _ := 1
  mu i := if i then 1 else -1
  neg_neg i := by cases i <;> rfl
  k_neg _ := rfl
  mu_neg i := by cases i <;> simp
  δ _ i := if i then AddMonoidAlgebra.single (1, 0) 1 else AddMonoidAlgebra.single (0, 1) 1
  mean := boxMean

theorem boxMean_single (a b : ℕ) : boxMean (AddMonoidAlgebra.single (a, b) 1) = if a = b then (a.factorial : ℂ) else 0 := by
  simp [boxMean, AddMonoidAlgebra.coeff_single]

/-- One wave vector and its opposite: a complex Gaussian amplitude and its conjugate. -/
example : boxWitness.Gaussian fun _ _ _ _ => 1 := by
  refine ⟨by simp [boxWitness], fun A B i j => ?_, fun A B C D i j k l => ?_⟩
  · cases i <;> cases j <;>
      simp [boxWitness, AddMonoidAlgebra.single_mul_single, boxMean_single]
  · cases i <;> cases j <;> cases k <;> cases l <;>
      simp [boxWitness, AddMonoidAlgebra.single_mul_single, boxMean_single] <;> norm_num

end Coffe
