import Verif.Proofs.PositiveCovariance
import Verif.Props.GaussianCovariance

/-!
# C83: the covariance matrix is positive semi-definite
-/

namespace Coffe
open MeasureTheory Classical

variable {ι : Type}

/-- Integral over the wave numbers of a pair of multipoles. -/
noncomputable def CovPar.waveInt (p : CovPar) (E : CovNum) (W : ℕ → Measure ℝ) (P : ℕ → ℝ → ℝ) (k l1 : ℕ) (s1 : ℝ) (l2 : ℕ) (s2 : ℝ) : ℝ :=
  ∫ q, q ^ 2 * P (p.spectrum k) q * windowed_bessel E s1 l1 q s1 (p.width k) * windowed_bessel E s2 l2 q s2 (p.width k) ∂(W (p.spectrum k))

/-- Weight of the angle in the cosmic variance. -/
noncomputable def cosmicWeight (a b f x : ℝ) : ℝ :=
  (a + f * x ^ 2) * (a + f * x ^ 2) * ((b + f * x ^ 2) * (b + f * x ^ 2))
    + (a + f * x ^ 2) * (b + f * x ^ 2) * ((b + f * x ^ 2) * (a + f * x ^ 2))

/-- Weight of the angle in the mixed term. -/
noncomputable def mixedWeight (p : CovPar) (a b f n1 n2 x : ℝ) : ℝ :=
  (a + f * x ^ 2) * (a + f * x ^ 2) * (1 / n2) + (1 / n1) * ((b + f * x ^ 2) * (b + f * x ^ 2))
    + ((a + f * x ^ 2) * (b + f * x ^ 2) * (kronecker_delta p.pop2 p.pop1 / n2)
    + (kronecker_delta p.pop1 p.pop2 / n1) * ((b + f * x ^ 2) * (a + f * x ^ 2)))

theorem cosmicWeight_nonneg (a b f x : ℝ) : 0 ≤ cosmicWeight a b f x := by
  have : cosmicWeight a b f x = 2 * ((a + f * x ^ 2) * (b + f * x ^ 2)) ^ 2 := by unfold cosmicWeight; ring
  rw [this]; positivity

theorem mixedWeight_nonneg (p : CovPar) (g : ℤ → ℝ) (f n1 n2 x : ℝ) (h1 : 0 < n1) (h2 : 0 < n2) :
    0 ≤ mixedWeight p (g p.pop1) (g p.pop2) f n1 n2 x := by
  unfold mixedWeight kronecker_delta
  by_cases h : p.pop1 = p.pop2
  · rw [h, if_pos rfl]
    have : 0 ≤ (g p.pop2 + f * x ^ 2) * (g p.pop2 + f * x ^ 2) := mul_self_nonneg _
    have := one_div_pos.2 h1
    have := one_div_pos.2 h2
    positivity
  · rw [if_neg h, if_neg (Ne.symm h)]
    have := mul_self_nonneg (g p.pop1 + f * x ^ 2)
    have := mul_self_nonneg (g p.pop2 + f * x ^ 2)
    have := one_div_pos.2 h1
    have := one_div_pos.2 h2
    simp only [zero_div, mul_zero, zero_mul, add_zero]
    positivity

/-- The cosmic variance of a measurement with itself, as a product of two matrices of integrals. -/
theorem cosmicPart_product (p : CovPar) (E : CovNum) (bg : Bg) (W : ℕ → Measure ℝ) (hW : ∀ r g, E.quadK r g = ∫ q, g q ∂(W r))
    (h3 : p.pop3 = p.pop1) (h4 : p.pop4 = p.pop2) (hf : p.fftlog = false) (k l1 : ℕ) (s1 : ℝ) (l2 : ℕ) (s2 : ℝ) :
    p.cosmicPart E bg k l1 s1 l2 s2 = (if p.pk_linear then bg.D1 (p.zOf k) ^ 4 else 1) / (4 * Real.pi ^ 2)
      * ((halfSign l1 * (2 * (l1 : ℝ) + 1)) * (halfSign l2 * (2 * (l2 : ℝ) + 1)) * (p.waveInt E W E.pk2 k l1 s1 l2 s2
        * ∫ x in (-1 : ℝ)..1, legP l1 x * legP l2 x * cosmicWeight (p.biasOf (p.zOf k) p.pop1) (p.biasOf (p.zOf k) p.pop2)
            (if p.rsd then bg.f (p.zOf k) else 0) x)) := by
  unfold CovPar.cosmicPart CovPar.bessels CovPar.waveInt
  rw [coeff_cosmic_eq, h3, h4, hf, hW, if_neg (show ¬ (false = true) by simp)]
  simp only [CovPar.width, show ((2 : ℕ) = 1) = False by simp, if_false]
  unfold cosmicWeight
  by_cases h : l1 % 2 = l2 % 2
  · rw [sign_tdiv_same l1 l2 h]
    have a : ∀ e1 e2 D a b I M : ℝ, e1 * e2 * D * (a * b * (2 / ((2 : ℕ) : ℝ)) / Real.pi ^ 2 * I) * (M / 4)
        = D / (4 * Real.pi ^ 2) * (e1 * a * (e2 * b) * (I * M)) := by
      intro e1 e2 D a b I M
      have := Real.pi_ne_zero
      field_simp
      push_cast
      ring
    exact a ..
  · have z := legP_parity_zero l1 l2 h (cosmicWeight (p.biasOf (p.zOf k) p.pop1) (p.biasOf (p.zOf k) p.pop2)
      (if p.rsd then bg.f (p.zOf k) else 0)) (fun t => by simp [cosmicWeight])
    unfold cosmicWeight at z
    rw [z]; ring

/-- The mixed term likewise. -/
theorem mixedPart_product (p : CovPar) (E : CovNum) (bg : Bg) (W : ℕ → Measure ℝ) (hW : ∀ r g, E.quadK r g = ∫ q, g q ∂(W r))
    (h3 : p.pop3 = p.pop1) (h4 : p.pop4 = p.pop2) (hf : p.fftlog = false) (k l1 : ℕ) (s1 : ℝ) (l2 : ℕ) (s2 : ℝ) :
    p.mixedPart E bg k l1 s1 l2 s2 = (if p.pk_linear then bg.D1 (p.zOf k) ^ 2 else 1) / (4 * Real.pi ^ 2)
      * ((halfSign l1 * (2 * (l1 : ℝ) + 1)) * (halfSign l2 * (2 * (l2 : ℝ) + 1)) * (p.waveInt E W E.pk k l1 s1 l2 s2
        * ∫ x in (-1 : ℝ)..1, legP l1 x * legP l2 x * mixedWeight p (p.biasOf (p.zOf k) p.pop1) (p.biasOf (p.zOf k) p.pop2)
            (if p.rsd then bg.f (p.zOf k) else 0) (p.density1.getD k 0) (p.density2.getD k 0) x)) := by
  unfold CovPar.mixedPart CovPar.bessels CovPar.waveInt
  rw [coeff_mixed_eq, h3, h4, hf, hW, if_neg (show ¬ (false = true) by simp)]
  have hk : ∀ a : ℤ, kronecker_delta a a = 1 := fun a => if_pos rfl
  simp only [CovPar.width, if_true, hk]
  unfold mixedWeight
  by_cases h : l1 % 2 = l2 % 2
  · rw [sign_tdiv_same l1 l2 h]
    have : sign ((l1 : ℤ) + l2) = 1 := by unfold sign; rw [if_pos (by omega)]
    rw [this]
    have a : ∀ e1 e2 D a b I M : ℝ, e1 * e2 * 1 * D * (a * b * (2 / ((1 : ℕ) : ℝ)) / Real.pi ^ 2 * I) * (M / 8)
        = D / (4 * Real.pi ^ 2) * (e1 * a * (e2 * b) * (I * M)) := by
      intro e1 e2 D a b I M
      have := Real.pi_ne_zero
      field_simp
      push_cast
      ring
    exact a ..
  · have z := legP_parity_zero l1 l2 h (mixedWeight p (p.biasOf (p.zOf k) p.pop1) (p.biasOf (p.zOf k) p.pop2)
      (if p.rsd then bg.f (p.zOf k) else 0) (p.density1.getD k 0) (p.density2.getD k 0)) (fun t => by simp [mixedWeight])
    unfold mixedWeight at z
    rw [z]; ring

/-- The shot noise of a multipole. -/
noncomputable def CovPar.noise (p : CovPar) (k : ℕ) (x : ℕ × ℝ) : ℝ := p.poissonPart k x.1 x.2 x.1 x.2

theorem shell_pos {s d : ℝ} (hd : 0 < d) : 0 < (s + d / 2) ^ 3 - (s - d / 2) ^ 3 := by
  have : (s + d / 2) ^ 3 - (s - d / 2) ^ 3 = d * (3 * s ^ 2 + d ^ 2 / 4) := by ring
  rw [this]; positivity

theorem noise_factor (p : CovPar) (k l : ℕ) (s : ℝ) (h3 : p.pop3 = p.pop1) (h4 : p.pop4 = p.pop2) :
    p.noise k (l, s) = (2 * (l : ℝ) + 1) / (4 * Real.pi) * (1 + (-1) ^ l * (if p.pop1 = p.pop2 then 1 else 0))
      * (if p.covariance_window then 3 / ((s + p.pixelsize.getD k 0 / 2) ^ 3 - (s - p.pixelsize.getD k 0 / 2) ^ 3)
        else 1 / (s ^ 2 * p.pixelsize.getD k 0)) / (p.density1.getD k 0 * p.density2.getD k 0) := by
  unfold CovPar.noise CovPar.poissonPart kronecker_delta
  rw [if_pos ⟨rfl, rfl⟩, h3, h4]
  by_cases h : p.pop1 = p.pop2
  · simp [h]
  · simp [h]

theorem noise_nonneg (p : CovPar) (E : CovNum) (bg : Bg) (hp : p.OneMeasurement E bg) (k : ℕ) (hk : k < p.bins) (l : ℕ) (s : ℝ)
    (hs : 0 < s) : 0 ≤ p.noise k (l, s) := by
  rw [noise_factor p k l s hp.pop3 hp.pop4]
  have h1 := hp.density1 k hk
  have h2 := hp.density2 k hk
  have h3 := hp.pixelsize k hk
  have h4 := shell_pos (s := s) h3
  have hv : 0 ≤ (if p.covariance_window then 3 / ((s + p.pixelsize.getD k 0 / 2) ^ 3 - (s - p.pixelsize.getD k 0 / 2) ^ 3)
        else 1 / (s ^ 2 * p.pixelsize.getD k 0)) := by
    split_ifs <;> positivity
  have hn : (0 : ℝ) ≤ 1 + (-1) ^ l * (if p.pop1 = p.pop2 then 1 else 0) := by
    rcases neg_one_pow_eq_or ℝ l with h | h <;> rw [h] <;> split_ifs <;> norm_num
  have := Real.pi_pos
  positivity

theorem noise_pos (p : CovPar) (E : CovNum) (bg : Bg) (hp : p.OneMeasurement E bg) (k : ℕ) (hk : k < p.bins) (l : ℕ) (s : ℝ)
    (hs : 0 < s) (h : p.pop1 ≠ p.pop2 ∨ l % 2 = 0) : 0 < p.noise k (l, s) := by
  rw [noise_factor p k l s hp.pop3 hp.pop4]
  have h1 := hp.density1 k hk
  have h2 := hp.density2 k hk
  have h3 := hp.pixelsize k hk
  have h4 := shell_pos (s := s) h3
  have hv : 0 < (if p.covariance_window then 3 / ((s + p.pixelsize.getD k 0 / 2) ^ 3 - (s - p.pixelsize.getD k 0 / 2) ^ 3)
        else 1 / (s ^ 2 * p.pixelsize.getD k 0)) := by
    split_ifs <;> positivity
  have hn : (0 : ℝ) < 1 + (-1) ^ l * (if p.pop1 = p.pop2 then 1 else 0) := by
    rcases h with h | h
    · rw [if_neg h]; norm_num
    · rw [Even.neg_one_pow (Nat.even_iff.2 h)]; split_ifs <;> norm_num
  have := Real.pi_pos
  positivity

/-- The shot noise of a set of multipoles at separations. -/
noncomputable def CovPar.noiseForm (p : CovPar) (k : ℕ) (T : Finset ι) (key : ι → ℕ × ℝ) (w : ι → ℝ) : ℝ :=
  ∑ x ∈ T, ∑ y ∈ T, w x * w y * (if key x = key y then p.noise k (key x) else 0)

/-- The variance of a linear combination is at least what the shot noise alone contributes, divided by the volume. -/
theorem covariance_form (p : CovPar) (E : CovNum) (bg : Bg) (W : ℕ → Measure ℝ) (hW : E.Weighs p W) (hp : p.OneMeasurement E bg)
    (hf : p.fftlog = false) (k : ℕ) (hk : k < p.bins) (T : Finset ι) (key : ι → ℕ × ℝ)
    (hT : ∀ x ∈ T, (key x).1 ∈ p.multipole_values ∧ (key x).2 ∈ p.sep) (w : ι → ℝ) :
    (if p.covariance_poisson then p.noiseForm k T key w else 0) / (p.fsky.getD k 0 * p.unitVolume E bg k)
      ≤ ∑ x ∈ T, ∑ y ∈ T, w x * w y * p.covariance E bg k (key x).1 (key x).2 (key y).1 (key y).2 := by
  have hV : 0 < p.fsky.getD k 0 * p.unitVolume E bg k := mul_pos (hp.fsky k hk) (hp.volume k hk)
  have hg : ∀ (P : ℕ → ℝ → ℝ), P ∈ [E.pk, E.pk2] → (∀ r q, 0 ≤ P r q) → ∀ (G : ℝ → ℝ), Continuous G → (∀ t, 0 ≤ G t) →
      ∀ c : ι → ℝ, 0 ≤ ∑ x ∈ T, ∑ y ∈ T, c x * c y * (p.waveInt E W P k (key x).1 (key x).2 (key y).1 (key y).2
        * ∫ t in (-1 : ℝ)..1, legP (key x).1 t * legP (key y).1 t * G t) := by
    intro P hP h0 G hG hG0 c
    exact gram_mul_nonneg T (W (p.spectrum k)) (fun q => q ^ 2 * P (p.spectrum k) q) (fun q => mul_nonneg (sq_nonneg _) (h0 _ _))
      (fun x q => windowed_bessel E (key x).2 (key x).1 q (key x).2 (p.width k))
      (fun x hx y hy => hW.int k hk P hP _ (hT x hx).1 _ (hT x hx).2 _ (hT y hy).1 _ (hT y hy).2)
      (fun x => legP (key x).1) (fun x => legP_continuous _) G hG hG0 c
  have hc : 0 ≤ ∑ x ∈ T, ∑ y ∈ T, w x * w y * p.cosmicPart E bg k (key x).1 (key x).2 (key y).1 (key y).2 := by
    have h := hg E.pk2 (by simp) hW.pk2 (cosmicWeight (p.biasOf (p.zOf k) p.pop1) (p.biasOf (p.zOf k) p.pop2)
      (if p.rsd then bg.f (p.zOf k) else 0)) (by unfold cosmicWeight; fun_prop) (cosmicWeight_nonneg _ _ _)
      (fun x => w x * (halfSign (key x).1 * (2 * ((key x).1 : ℝ) + 1)))
    have hD : 0 ≤ (if p.pk_linear then bg.D1 (p.zOf k) ^ 4 else 1) / (4 * Real.pi ^ 2) := by
      split_ifs <;> positivity
    refine (mul_nonneg hD h).trans_eq ?_
    rw [Finset.mul_sum]
    refine Finset.sum_congr rfl fun x _ => ?_
    rw [Finset.mul_sum]
    refine Finset.sum_congr rfl fun y _ => ?_
    rw [cosmicPart_product p E bg W hW.quad hp.pop3 hp.pop4 hf]
    ring
  have hm : 0 ≤ ∑ x ∈ T, ∑ y ∈ T, w x * w y * p.mixedPart E bg k (key x).1 (key x).2 (key y).1 (key y).2 := by
    have h := hg E.pk (by simp) hW.pk (mixedWeight p (p.biasOf (p.zOf k) p.pop1) (p.biasOf (p.zOf k) p.pop2)
      (if p.rsd then bg.f (p.zOf k) else 0) (p.density1.getD k 0) (p.density2.getD k 0)) (by unfold mixedWeight; fun_prop)
      (fun t => mixedWeight_nonneg p (p.biasOf (p.zOf k)) _ _ _ _ (hp.density1 k hk) (hp.density2 k hk))
      (fun x => w x * (halfSign (key x).1 * (2 * ((key x).1 : ℝ) + 1)))
    have hD : 0 ≤ (if p.pk_linear then bg.D1 (p.zOf k) ^ 2 else 1) / (4 * Real.pi ^ 2) := by
      split_ifs <;> positivity
    refine (mul_nonneg hD h).trans_eq ?_
    rw [Finset.mul_sum]
    refine Finset.sum_congr rfl fun x _ => ?_
    rw [Finset.mul_sum]
    refine Finset.sum_congr rfl fun y _ => ?_
    rw [mixedPart_product p E bg W hW.quad hp.pop3 hp.pop4 hf]
    ring
  have hn : ∀ x y, p.poissonPart k (key x).1 (key x).2 (key y).1 (key y).2 = if key x = key y then p.noise k (key x) else 0 := by
    intro x y
    by_cases h : key x = key y
    · rw [if_pos h, ← h]; rfl
    · rw [if_neg h]
      unfold CovPar.poissonPart
      rw [if_neg fun h' => h (Prod.ext h'.1 h'.2)]
  have e : ∑ x ∈ T, ∑ y ∈ T, w x * w y * p.covariance E bg k (key x).1 (key x).2 (key y).1 (key y).2
      = ((if p.covariance_poisson then p.noiseForm k T key w else 0)
        + (if p.covariance_mixed then ∑ x ∈ T, ∑ y ∈ T, w x * w y * p.mixedPart E bg k (key x).1 (key x).2 (key y).1 (key y).2 else 0)
        + (if p.covariance_cosmic then ∑ x ∈ T, ∑ y ∈ T, w x * w y * p.cosmicPart E bg k (key x).1 (key x).2 (key y).1 (key y).2 else 0))
        / (p.fsky.getD k 0 * p.unitVolume E bg k) := by
    have hi : ∀ (b : Bool) (g : ι → ι → ℝ), (if b then ∑ x ∈ T, ∑ y ∈ T, w x * w y * g x y else 0)
        = ∑ x ∈ T, ∑ y ∈ T, w x * w y * (if b then g x y else 0) := by
      intro b g; cases b <;> simp
    unfold CovPar.noiseForm
    rw [hi, hi, hi, ← Finset.sum_add_distrib, ← Finset.sum_add_distrib, Finset.sum_div]
    refine Finset.sum_congr rfl fun x _ => ?_
    rw [← Finset.sum_add_distrib, ← Finset.sum_add_distrib, Finset.sum_div]
    refine Finset.sum_congr rfl fun y _ => ?_
    unfold CovPar.covariance
    rw [hn]
    ring
  rw [e]
  refine div_le_div_of_nonneg_right ?_ hV.le
  have : 0 ≤ (if p.covariance_mixed then ∑ x ∈ T, ∑ y ∈ T, w x * w y * p.mixedPart E bg k (key x).1 (key x).2 (key y).1 (key y).2 else 0) := by
    split_ifs
    · exact hm
    · exact le_rfl
  have : 0 ≤ (if p.covariance_cosmic then ∑ x ∈ T, ∑ y ∈ T, w x * w y * p.cosmicPart E bg k (key x).1 (key x).2 (key y).1 (key y).2 else 0) := by
    split_ifs
    · exact hc
    · exact le_rfl
  linarith

theorem noiseForm_nonneg (p : CovPar) (E : CovNum) (bg : Bg) (hp : p.OneMeasurement E bg) (k : ℕ) (hk : k < p.bins) (T : Finset ι)
    (key : ι → ℕ × ℝ) (hT : ∀ x ∈ T, 0 < (key x).2) (w : ι → ℝ) : 0 ≤ p.noiseForm k T key w :=
  block_nonneg T key (p.noise k) (fun x hx => noise_nonneg p E bg hp k hk _ _ (hT x hx)) w

/-- Without repeated multipoles or separations the shot noise is diagonal. -/
theorem noiseForm_pos (p : CovPar) (E : CovNum) (bg : Bg) (hp : p.OneMeasurement E bg) (k : ℕ) (hk : k < p.bins) (T : Finset ι)
    (key : ι → ℕ × ℝ) (hT : ∀ x ∈ T, 0 < (key x).2) (hi : ∀ x ∈ T, ∀ y ∈ T, key x = key y → x = y)
    (h : ∀ x ∈ T, p.pop1 ≠ p.pop2 ∨ (key x).1 % 2 = 0) (w : ι → ℝ) (hw : ∃ x ∈ T, w x ≠ 0) : 0 < p.noiseForm k T key w := by
  have e : p.noiseForm k T key w = ∑ x ∈ T, w x ^ 2 * p.noise k (key x) := by
    refine Finset.sum_congr rfl fun x hx => ?_
    rw [Finset.sum_eq_single x]
    · rw [if_pos rfl]; ring
    · intro y hy hyx
      rw [if_neg fun h' => hyx (hi x hx y hy h').symm, mul_zero]
    · exact fun h' => absurd hx h'
  rw [e]
  have hpos : ∀ x ∈ T, 0 < p.noise k (key x) := fun x hx => noise_pos p E bg hp k hk _ _ (hT x hx) (h x hx)
  obtain ⟨x, hx, hwx⟩ := hw
  exact Finset.sum_pos' (fun x hx => mul_nonneg (sq_nonneg _) (hpos x hx).le)
    ⟨x, hx, mul_pos (by positivity) (hpos x hx)⟩

theorem listGetD {α : Type} {l : List α} {i : ℕ} {d : α} (h : i < l.length) : l.getD i d = l[i] := by simp [h]

/-- Multipole and separation with given numbers. -/
noncomputable def CovPar.keyOf (p : CovPar) (x : ℕ × ℕ) : ℕ × ℝ := (p.multipole_values.getD x.1 0, p.sep.getD x.2 0)

theorem CovPar.keyOf_mem (p : CovPar) (x : ℕ × ℕ) (h1 : x.1 < p.multipole_values.length) (h2 : x.2 < p.sep.length) :
    (p.keyOf x).1 ∈ p.multipole_values ∧ (p.keyOf x).2 ∈ p.sep := by
  unfold CovPar.keyOf
  rw [listGetD h1, listGetD h2]
  exact ⟨List.getElem_mem _, List.getElem_mem _⟩

theorem sum_four (L S : ℕ) (g : ℕ × ℕ → ℕ × ℕ → ℝ) :
    ∑ i ∈ Finset.range L, ∑ m ∈ Finset.range S, ∑ j ∈ Finset.range L, ∑ n ∈ Finset.range S, g (i, m) (j, n)
      = ∑ x ∈ Finset.range L ×ˢ Finset.range S, ∑ y ∈ Finset.range L ×ˢ Finset.range S, g x y := by
  rw [Finset.sum_product]
  refine Finset.sum_congr rfl fun i _ => Finset.sum_congr rfl fun m _ => ?_
  rw [Finset.sum_product]

/-- **C83**, standard integration: the covariance of a measurement with itself that the computation delivers is, in every redshift
bin, symmetric and positive semi-definite, for all multipoles, separations, populations and switches: no linear combination of
the multipoles has a negative variance, the variance of each multipole is not negative and the correlation of two of them is at
most one. -/
theorem C83_partial (p : CovPar) (E : CovNum) (bg : Bg) (hM : p.Matching) (hz : p.MeanFits) (hs : p.sep.Nodup)
    (hf : p.fftlog = false) (W : ℕ → Measure ℝ) (hW : E.Weighs p W) (hp : p.OneMeasurement E bg) :
    ∃ C V, covariance_init p E bg = .ok (C, V) ∧ ∀ k < p.bins, ∃ v : ℕ → ℕ → ℕ → ℕ → ℝ,
      (∀ i < p.multipole_values.length, ∀ m < p.sep.length, ∀ j < p.multipole_values.length, ∀ n < p.sep.length,
        V.val (pos5 p.multipole_values.length p.sep.length k i m j n) = some (v i m j n) ∧ v i m j n = v j n i m ∧
        0 ≤ v i m i m ∧ v i m j n ^ 2 ≤ v i m i m * v j n j n) ∧
      PositiveSemidefinite p.multipole_values.length p.sep.length v := by
  obtain ⟨C, V, e, -, -, h⟩ := C24_rows_partial p E bg hM hz hs (by simp [hf])
  have key : ∀ k < p.bins, ∀ (T : Finset (ℕ × ℕ)), (∀ x ∈ T, x.1 < p.multipole_values.length ∧ x.2 < p.sep.length) → ∀ w : ℕ × ℕ → ℝ,
      0 ≤ ∑ x ∈ T, ∑ y ∈ T, w x * w y * p.covariance E bg k (p.keyOf x).1 (p.keyOf x).2 (p.keyOf y).1 (p.keyOf y).2 := by
    intro k hk T hT w
    have hT' : ∀ x ∈ T, (p.keyOf x).1 ∈ p.multipole_values ∧ (p.keyOf x).2 ∈ p.sep := fun x hx =>
      p.keyOf_mem x (hT x hx).1 (hT x hx).2
    refine le_trans (div_nonneg ?_ (mul_pos (hp.fsky k hk) (hp.volume k hk)).le)
      (covariance_form p E bg W hW hp hf k hk T p.keyOf hT' w)
    split_ifs
    · exact noiseForm_nonneg p E bg hp k hk T p.keyOf (fun x hx => hp.sep _ (hT' x hx).2) w
    · exact le_rfl
  refine ⟨C, V, e, fun k hk => ⟨fun i m j n => p.covariance E bg k (p.multipole_values.getD i 0) (p.sep.getD m 0)
        (p.multipole_values.getD j 0) (p.sep.getD n 0), fun i hi m hm j hj n hn => ?_, fun w => ?_⟩⟩
  · have sym := C23_formula_partial p E bg k (p.multipole_values.getD i 0) (p.sep.getD m 0) (p.multipole_values.getD j 0) (p.sep.getD n 0)
      (Or.inl hf)
    have diag : ∀ i < p.multipole_values.length, ∀ m < p.sep.length, 0 ≤ p.covariance E bg k (p.multipole_values.getD i 0) (p.sep.getD m 0)
        (p.multipole_values.getD i 0) (p.sep.getD m 0) := by
      intro i hi m hm
      simpa [CovPar.keyOf] using key k hk {(i, m)} (by simpa using ⟨hi, hm⟩) fun _ => 1
    refine ⟨(h k hk i hi m hm j hj n hn).2, sym, diag i hi m hm, ?_⟩
    by_cases hij : ((i, m) : ℕ × ℕ) = (j, n)
    · obtain ⟨rfl, rfl⟩ := Prod.mk.inj hij
      rw [sq]
    · have q : ∀ t : ℝ, 0 ≤ p.covariance E bg k (p.multipole_values.getD i 0) (p.sep.getD m 0) (p.multipole_values.getD i 0) (p.sep.getD m 0) * (t * t)
          + 2 * p.covariance E bg k (p.multipole_values.getD i 0) (p.sep.getD m 0) (p.multipole_values.getD j 0) (p.sep.getD n 0) * t
          + p.covariance E bg k (p.multipole_values.getD j 0) (p.sep.getD n 0) (p.multipole_values.getD j 0) (p.sep.getD n 0) := by
        intro t
        have := key k hk {(i, m), (j, n)} (by
          intro x hx
          rcases Finset.mem_insert.1 hx with rfl | hx
          · exact ⟨hi, hm⟩
          · rw [Finset.mem_singleton.1 hx]; exact ⟨hj, hn⟩) (fun x => if x = (i, m) then t else 1)
        rw [Finset.sum_pair hij, Finset.sum_pair hij, Finset.sum_pair hij] at this
        simp only [if_true, if_neg (Ne.symm hij), CovPar.keyOf, ← sym] at this
        linarith
      have d := discrim_le_zero q
      unfold discrim at d
      dsimp only
      nlinarith
  · have := key k hk (Finset.range p.multipole_values.length ×ˢ Finset.range p.sep.length)
      (fun x hx => by simpa using hx) (fun x => w x.1 x.2)
    rwa [← sum_four p.multipole_values.length p.sep.length (fun x y => w x.1 x.2 * w y.1 y.2 *
      p.covariance E bg k (p.keyOf x).1 (p.keyOf x).2 (p.keyOf y).1 (p.keyOf y).2)] at this

/-- **C83** (inverse): with shot noise and without repeated multipoles, the covariance matrix of even multipoles, and that of all
multipoles of two different populations, is positive definite, so that it can be inverted to weigh the data. -/
theorem C83_definite_partial (p : CovPar) (E : CovNum) (bg : Bg) (hM : p.Matching) (hz : p.MeanFits) (hs : p.sep.Nodup)
    (hf : p.fftlog = false) (W : ℕ → Measure ℝ) (hW : E.Weighs p W) (hp : p.OneMeasurement E bg) (hl : p.multipole_values.Nodup)
    (hn : p.covariance_poisson = true) (ho : p.pop1 ≠ p.pop2 ∨ ∀ l ∈ p.multipole_values, l % 2 = 0) :
    ∃ C V, covariance_init p E bg = .ok (C, V) ∧ ∀ k < p.bins, ∃ v : ℕ → ℕ → ℕ → ℕ → ℝ,
      (∀ i < p.multipole_values.length, ∀ m < p.sep.length, ∀ j < p.multipole_values.length, ∀ n < p.sep.length,
        V.val (pos5 p.multipole_values.length p.sep.length k i m j n) = some (v i m j n)) ∧
      PositiveDefinite p.multipole_values.length p.sep.length v := by
  obtain ⟨C, V, e, -, -, h⟩ := C24_rows_partial p E bg hM hz hs (by simp [hf])
  refine ⟨C, V, e, fun k hk => ⟨fun i m j n => p.covariance E bg k (p.multipole_values.getD i 0) (p.sep.getD m 0)
        (p.multipole_values.getD j 0) (p.sep.getD n 0), fun i hi m hm j hj n hn => (h k hk i hi m hm j hj n hn).2, fun w hw => ?_⟩⟩
  set T := Finset.range p.multipole_values.length ×ˢ Finset.range p.sep.length
  have hT : ∀ x ∈ T, x.1 < p.multipole_values.length ∧ x.2 < p.sep.length := fun x hx => by simpa [T] using hx
  have hT' : ∀ x ∈ T, (p.keyOf x).1 ∈ p.multipole_values ∧ (p.keyOf x).2 ∈ p.sep := fun x hx =>
    p.keyOf_mem x (hT x hx).1 (hT x hx).2
  have q := covariance_form p E bg W hW hp hf k hk T p.keyOf hT' (fun x => w x.1 x.2)
  rw [if_pos hn] at q
  have e4 := sum_four p.multipole_values.length p.sep.length (fun x y => w x.1 x.2 * w y.1 y.2 *
      p.covariance E bg k (p.keyOf x).1 (p.keyOf x).2 (p.keyOf y).1 (p.keyOf y).2)
  refine lt_of_lt_of_eq ?_ e4.symm
  refine lt_of_lt_of_le (div_pos ?_ (mul_pos (hp.fsky k hk) (hp.volume k hk))) q
  refine noiseForm_pos p E bg hp k hk T p.keyOf (fun x hx => hp.sep _ (hT' x hx).2) ?_ ?_ _ ?_
  · intro x hx y hy hxy
    obtain ⟨h1, h2⟩ := Prod.mk.inj hxy
    have hx := hT x hx
    have hy := hT y hy
    rw [listGetD hx.1, listGetD hy.1] at h1
    rw [listGetD hx.2, listGetD hy.2] at h2
    exact Prod.ext ((List.Nodup.getElem_inj_iff hl).1 h1) ((List.Nodup.getElem_inj_iff hs).1 h2)
  · intro x hx
    exact ho.imp id fun h => h _ (hT' x hx).1
  · obtain ⟨i, hi, m, hm, hw⟩ := hw
    exact ⟨(i, m), by simpa [T] using ⟨hi, hm⟩, hw⟩

/-- Two wave numbers with positive weights. -/
noncomputable def twoNodes : CovNum := { gaussNum 1 2 with quadK := fun _ g => g 1 + 2 * g 2 }

/-- Two populations, two redshifts with a spectrum each, an even and an odd multipole, pixel averages, two wave numbers. -/
example : let p : CovPar := { covGood with pop2 := 2, pop4 := 2, covariance_window := true, density2 := [2, 3], multipole_values := [0, 1] }
    p.Matching ∧ p.MeanFits ∧ p.sep.Nodup ∧ p.fftlog = false ∧
      twoNodes.Weighs p (fun _ => Measure.dirac 1 + (2 : NNReal) • Measure.dirac 2) ∧ p.OneMeasurement twoNodes wBg ∧
      p.multipole_values.Nodup ∧ p.covariance_poisson = true ∧ (p.pop1 ≠ p.pop2 ∨ ∀ l ∈ p.multipole_values, l % 2 = 0) := by
  have hi : ∀ (g : ℝ → ℝ) (a : ℝ), Integrable g (Measure.dirac a) := fun g a => integrable_dirac (by simp)
  have hi2 : ∀ g : ℝ → ℝ, Integrable g ((2 : NNReal) • Measure.dirac (2 : ℝ)) := fun g => (hi g 2).smul_measure_nnreal
  refine ⟨?_, ?_, ?_, rfl, ⟨fun r g => ?_, fun _ _ => zero_le_one, fun _ _ => zero_le_one, ?_⟩, ?_, by decide, rfl, Or.inl (by decide)⟩
  · constructor <;> simp [covGood, covWitness, CovPar.bins]
  · simp [CovPar.MeanFits, covGood, covWitness, CovPar.bins]
  · norm_num [covGood]
  · rw [integral_add_measure (hi g 1) (hi2 g), integral_smul_nnreal_measure, integral_dirac, integral_dirac]
    rfl
  · intro k _ P _ l1 _ s1 _ l2 _ s2 _
    exact (hi _ 1).add_measure (hi2 _)
  · have hb : ∀ k < (2 : ℕ), k = 0 ∨ k = 1 := fun k hk => by omega
    constructor
    · rfl
    · rfl
    · intro s hs
      have hs : s = 100 ∨ s = 150 := by simpa [covGood] using hs
      rcases hs with rfl | rfl <;> norm_num
    all_goals
      intro k hk
      have hk : k < 2 := by simpa [covGood, covWitness, CovPar.bins] using hk
      rcases hb k hk with rfl | rfl <;> norm_num [covGood, covWitness, CovPar.unitVolume, wBg] <;> positivity

end Coffe
