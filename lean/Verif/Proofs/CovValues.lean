import Verif.Proofs.Covariance
import Verif.Props.Legendre

namespace Coffe
open Classical

theorem sign_nat (l : ℕ) : sign (l : ℤ) = (-1) ^ l := by
  unfold sign
  rw [Int.natAbs_natCast]
  split_ifs with h
  · rw [(Nat.even_iff.2 h).neg_one_pow]
  · rw [(Nat.odd_iff.2 (by omega)).neg_one_pow]

theorem sign_tdiv_swap (a b : ℕ) : sign (((a : ℤ) - b).tdiv 2) = sign (((b : ℤ) - a).tdiv 2) := by
  unfold sign
  rw [show ((a : ℤ) - b) = -((b : ℤ) - a) by ring, Int.neg_tdiv, Int.natAbs_neg]

theorem coeff_cosmic_swap (b1 b2 b3 b4 f : ℝ) (l1 l2 : ℕ) :
    coeff_cosmic b1 b2 b3 b4 f l1 l2 = coeff_cosmic b1 b2 b3 b4 f l2 l1 := by
  unfold coeff_cosmic
  simp only [fun c1 c2 => (C28_symmetric l1 l2 c1 c2).1]

theorem coeff_mixed_swap (p : CovPar) (b1 b2 b3 b4 f n1 n2 : ℝ) (l1 l2 : ℕ) :
    coeff_mixed p b1 b2 b3 b4 f n1 n2 l1 l2 = coeff_mixed p b1 b2 b3 b4 f n1 n2 l2 l1 := by
  unfold coeff_mixed
  simp only [fun c => (C28_symmetric l1 l2 c 0).1]

theorem bessels_swap (p : CovPar) (E : CovNum) (power k l1 : ℕ) (s1 : ℝ) (l2 : ℕ)
    (s2 : ℝ) (h : p.fftlog = false ∨ l1 ≠ l2) : p.bessels E power k l1 s1 l2 s2 = p.bessels E power k l2 s2 l1 s1 := by
  unfold CovPar.bessels
  by_cases hf : p.fftlog = true
  · simp only [hf, if_true]
    have hne : l1 ≠ l2 := h.resolve_left (by simp [hf])
    rcases lt_or_gt_of_ne hne with hlt | hlt
    · rw [if_pos hlt.le, if_neg (by omega)]; ring
    · rw [if_neg (by omega), if_pos hlt.le]; ring
  · simp only [hf, if_false, Bool.false_eq_true]
    have : ∀ g g' : ℝ → ℝ, g = g' → E.quadK (p.spectrum k) g = E.quadK (p.spectrum k) g' := fun _ _ e => by rw [e]
    rw [this _ _ (funext fun q => by
      rw [mul_assoc, mul_comm (windowed_bessel E s1 l1 q s1 _), ← mul_assoc])]
    ring

theorem raw_bessels (p : CovPar) (E : CovNum) (power : ℕ) (hpw : power = 1 ∨ power = 2) (k i j m n : ℕ)
    (hle : p.fftlog = true → p.multipole_values.getD i 0 ≤ p.multipole_values.getD j 0) :
    rawTable p E power (p.spectrum k) i j m n = p.bessels E power k (p.multipole_values.getD i 0) (p.sep.getD m 0)
      (p.multipole_values.getD j 0) (p.sep.getD n 0) := by
  unfold rawTable CovPar.bessels
  by_cases hf : p.fftlog = true
  · simp only [hf, if_true, rawFFT, if_pos (hle hf)]
    rcases hpw with rfl | rfl <;> norm_num <;> ring
  · simp only [hf, if_false, Bool.false_eq_true, rawStandard, covariance_integral]
    have : ∀ g g' : ℝ → ℝ, g = g' → E.quadK (p.spectrum k) g = E.quadK (p.spectrum k) g' := fun _ _ e => by rw [e]
    rw [this _ _ (funext fun q => by rw [covariance_integrand, ← pow_two])]
    rcases hpw with rfl | rfl <;> norm_num <;> ring

theorem cov_bias_ok (p : CovPar) (z : ℝ) (x : ℤ) (h : 1 ≤ x ∧ x ≤ 4) : cov_bias p z x = .ok (p.biasOf z x) := by
  unfold cov_bias CovPar.biasOf
  have : x = 1 ∨ x = 2 ∨ x = 3 ∨ x = 4 := by omega
  rcases this with rfl | rfl | rfl | rfl <;> simp

theorem cov_volume_ok (p : CovPar) (E : CovNum) (bg : Bg) (hp : p.Matching) (k : ℕ) (hk : k < p.bins) :
    cov_volume p E bg k = .ok (p.fsky.getD k 0 * p.unitVolume E bg k) := by
  unfold cov_volume CovPar.unitVolume
  by_cases ha : p.average = true
  · have h0 : k < p.zmin.length := by simpa [CovPar.bins, ha] using hk
    simp only [ld_getD 0 (hp.fsky ▸ hk : k < p.fsky.length), ha, if_true, ld_getD 0 h0,
      ld_getD 0 ((hp.zmax ha) ▸ hk : k < p.zmax.length), bind, Except.bind, pure, Except.pure]
    congr 1; ring
  · have ha' : p.average = false := by simpa using ha
    have h0 : k < p.z_mean.length := by simpa [CovPar.bins, ha'] using hk
    simp only [ld_getD 0 (hp.fsky ▸ hk : k < p.fsky.length), ha', if_false, Bool.false_eq_true, ld_getD 0 h0,
      ld_getD 0 ((hp.deltaz ha') ▸ hk : k < p.deltaz.length), bind, Except.bind, pure, Except.pure, covariance_volume_no_4pi]
    congr 1; ring

theorem cov_z_mean_ok (p : CovPar) (hp : p.Matching) (k : ℕ) (hk : k < p.bins) : cov_z_mean p k = .ok (p.zOf k) := by
  unfold cov_z_mean CovPar.zOf
  by_cases ha : p.average = true
  · have h0 : k < p.zmin.length := by simpa [CovPar.bins, ha] using hk
    simp only [ha, if_true, ld_getD 0 h0, ld_getD 0 ((hp.zmax ha) ▸ hk : k < p.zmax.length), bind, Except.bind, pure, Except.pure]
  · have ha' : p.average = false := by simpa using ha
    have h0 : k < p.z_mean.length := by simpa [CovPar.bins, ha'] using hk
    simp only [ha', if_false, Bool.false_eq_true, ld_getD 0 h0]

/-- The table cell used for bin `k`. -/
noncomputable def tableCell (p : CovPar) (E : CovNum) (power k i m j n : ℕ) : ℝ :=
  if i ≤ j then rawTable p E power (p.spectrum k) i j m n else rawTable p E power (p.spectrum k) j i n m

theorem getD_le_of_sorted {l : List ℕ} (h : l.Pairwise (· < ·)) {i j : ℕ} (hij : i ≤ j) (hj : j < l.length) :
    l.getD i 0 ≤ l.getD j 0 := by
  rw [getD_lt 0 (by omega : i < l.length), getD_lt 0 hj]
  rcases Nat.eq_or_lt_of_le hij with rfl | hlt
  · exact le_rfl
  · exact (List.pairwise_iff_getElem.1 h i j (by omega) hj hlt).le

theorem tableCell_bessels (p : CovPar) (E : CovNum) (h : p.fftlog = true → p.multipole_values.Pairwise (· < ·)) (power : ℕ)
    (hpw : power = 1 ∨ power = 2) (k i m j n : ℕ) (hi : i < p.multipole_values.length) (hj : j < p.multipole_values.length) :
    tableCell p E power k i m j n = p.bessels E power k (p.multipole_values.getD i 0) (p.sep.getD m 0)
      (p.multipole_values.getD j 0) (p.sep.getD n 0) := by
  unfold tableCell
  split_ifs with hij
  · exact raw_bessels p E power hpw k i j m n fun hf => getD_le_of_sorted (h hf) hij hj
  · rw [raw_bessels p E power hpw k j i n m fun hf => getD_le_of_sorted (h hf) (by omega) hi]
    refine bessels_swap p E power k _ _ _ _ ?_
    by_cases hf : p.fftlog = true
    · right
      rw [getD_lt 0 hi, getD_lt 0 hj]
      exact (List.pairwise_iff_getElem.1 (h hf) j i hj hi (by omega)).ne
    · left; simpa using hf

/-- The table is symmetric off the diagonal because it is copied, and on the diagonal for the standard integration. -/
theorem tableCell_swap (p : CovPar) (E : CovNum) (power : ℕ) (hpw : power = 1 ∨ power = 2) (k i m j n : ℕ)
    (h : p.fftlog = false ∨ i ≠ j) : tableCell p E power k i m j n = tableCell p E power k j n i m := by
  unfold tableCell
  by_cases hij : i = j
  · subst hij
    have hf : p.fftlog = false := h.resolve_right (by simp)
    rw [if_pos le_rfl, if_pos le_rfl, raw_bessels p E power hpw k i i m n (by simp), raw_bessels p E power hpw k i i n m (by simp),
      bessels_swap p E power k _ _ _ _ (Or.inl hf)]
  · rcases lt_or_gt_of_ne hij with hlt | hlt
    · rw [if_pos hlt.le, if_neg (by omega)]
    · rw [if_neg (by omega), if_pos hlt.le]

/-- What the code computes for one entry, as a formula. -/
noncomputable def cellFormula (p : CovPar) (E : CovNum) (bg : Bg) (k i m j n : ℕ) : ℝ :=
  let l1 := p.multipole_values.getD i 0
  let l2 := p.multipole_values.getD j 0
  let V := p.fsky.getD k 0 * p.unitVolume E bg k
  let f := if p.rsd then bg.f (p.zOf k) else 0
  (if p.covariance_poisson then
    (2 * (l1 : ℝ) + 1) / 4 / Real.pi * kronecker_delta l1 l2 * kronecker_delta m n
        * (kronecker_delta p.pop1 p.pop3 * kronecker_delta p.pop2 p.pop4
          + sign l2 * kronecker_delta p.pop1 p.pop4 * kronecker_delta p.pop2 p.pop3)
        * (if p.covariance_window then 1 / covariance_volume_no_4pi (p.sep.getD m 0 - p.pixelsize.getD k 0 / 2)
              (p.sep.getD m 0 + p.pixelsize.getD k 0 / 2)
            else 1 / p.sep.getD n 0 / p.sep.getD m 0 / p.pixelsize.getD k 0)
        / p.density1.getD k 0 / p.density2.getD k 0 / V else 0)
  + (if p.covariance_mixed then
      sign (((l2 : ℤ) - l1).tdiv 2) * sign (l1 + l2) * (if p.pk_linear then bg.D1 (p.zOf k) * bg.D1 (p.zOf k) else 1)
        * tableCell p E 1 k i m j n
        * coeff_mixed p (p.biasOf (p.zOf k) p.pop1) (p.biasOf (p.zOf k) p.pop2) (p.biasOf (p.zOf k) p.pop3)
            (p.biasOf (p.zOf k) p.pop4) f (p.density1.getD k 0) (p.density2.getD k 0) l1 l2 / V else 0)
  + (if p.covariance_cosmic then
      sign (((l2 : ℤ) - l1).tdiv 2)
        * (if p.pk_linear then bg.D1 (p.zOf k) * bg.D1 (p.zOf k) * bg.D1 (p.zOf k) * bg.D1 (p.zOf k) else 1)
        * tableCell p E 2 k i m j n
        * coeff_cosmic (p.biasOf (p.zOf k) p.pop1) (p.biasOf (p.zOf k) p.pop2) (p.biasOf (p.zOf k) p.pop3)
            (p.biasOf (p.zOf k) p.pop4) f l1 l2 / V else 0)

theorem cov_cell_ok (p : CovPar) (E : CovNum) (bg : Bg) (A B : IBuf) (hp : p.Matching) (k i m j n : ℕ) (hk : k < p.bins)
    (hi : i < p.multipole_values.length) (hm : m < p.sep.length) (hj : j < p.multipole_values.length) (hn : n < p.sep.length)
    (hA : p.covariance_mixed = true → A.load (p.spectrum k, i * p.multipole_values.length + j, p.sep.length * n + m)
      = .ok (tableCell p E 1 k i m j n))
    (hB : p.covariance_cosmic = true → B.load (p.spectrum k, i * p.multipole_values.length + j, p.sep.length * n + m)
      = .ok (tableCell p E 2 k i m j n)) :
    cov_cell p bg A B (p.fsky.getD k 0 * p.unitVolume E bg k) (p.zOf k) k i m j n = .ok (cellFormula p E bg k i m j n) := by
  have b := fun x hx => cov_bias_ok p (p.zOf k) x (hp.pops x hx)
  unfold cov_cell
  simp only [ld_getD 0 hi, ld_getD 0 hj, b p.pop1 (by simp), b p.pop2 (by simp), b p.pop3 (by simp), b p.pop4 (by simp),
    ld_getD 0 (hp.density1 ▸ hk : k < p.density1.length), ld_getD 0 (hp.density2 ▸ hk : k < p.density2.length),
    ld_getD 0 (hp.pixelsize ▸ hk : k < p.pixelsize.length), ld_getD 0 hm, ld_getD 0 hn, bind, Except.bind, pure, Except.pure]
  unfold cellFormula
  unfold CovPar.spectrum at hA hB
  by_cases h1 : p.covariance_poisson = true <;> by_cases h2 : p.covariance_mixed = true <;>
    by_cases h3 : p.covariance_cosmic = true <;>
    simp only [h1, h2, h3, if_true, if_false, Bool.false_eq_true] at hA hB ⊢ <;>
    simp only [hA, hB, true_imp_iff] <;> rfl

theorem cellFormula_eq (p : CovPar) (E : CovNum) (bg : Bg) (h : p.fftlog = true → p.multipole_values.Pairwise (· < ·)) (hs : p.sep.Nodup)
    (k i m j n : ℕ) (hi : i < p.multipole_values.length) (hj : j < p.multipole_values.length) (hm : m < p.sep.length) (hn : n < p.sep.length) :
    cellFormula p E bg k i m j n = p.covariance E bg k (p.multipole_values.getD i 0) (p.sep.getD m 0)
      (p.multipole_values.getD j 0) (p.sep.getD n 0) := by
  have hmn : (m : ℤ) = n ↔ p.sep.getD m 0 = p.sep.getD n 0 := by
    rw [getD_lt 0 hm, getD_lt 0 hn, hs.getElem_inj_iff, Int.natCast_inj]
  unfold cellFormula CovPar.covariance
  rw [tableCell_bessels p E h 1 (Or.inl rfl) k i m j n hi hj, tableCell_bessels p E h 2 (Or.inr rfl) k i m j n hi hj]
  generalize p.multipole_values.getD i 0 = l1
  generalize p.multipole_values.getD j 0 = l2
  dsimp only
  rw [add_div (_ + _) (if p.covariance_cosmic then _ else _), add_div (if p.covariance_poisson then _ else _)]
  refine congrArg₂ (· + ·) (congrArg₂ (· + ·) ?_ ?_) ?_
  · · by_cases h1 : p.covariance_poisson = true
      · simp only [h1, if_true]
        unfold CovPar.poissonPart
        by_cases hl : l1 = l2
        · by_cases hss : p.sep.getD m 0 = p.sep.getD n 0
          · rw [if_pos (show l1 = l2 ∧ p.sep.getD m 0 = p.sep.getD n 0 from ⟨hl, hss⟩)]
            have k1 : kronecker_delta (l1 : ℤ) l2 = 1 := by rw [kronecker_delta, if_pos (by rw [hl])]
            have k2 : kronecker_delta (m : ℤ) n = 1 := by rw [kronecker_delta, if_pos (hmn.2 hss)]
            rw [k1, k2, sign_nat, ← hss, covariance_volume_no_4pi, one_div_div]
            generalize p.sep.getD m 0 = s
            generalize kronecker_delta p.pop1 p.pop3 * kronecker_delta p.pop2 p.pop4 = x1
            by_cases hw : p.covariance_window = true
            · simp only [hw, if_true]
              simp only [div_eq_mul_inv, mul_inv]; ring
            · simp only [hw, if_false, Bool.false_eq_true]
              simp only [div_eq_mul_inv, mul_inv, pow_two]; ring
          · rw [if_neg (show ¬ (l1 = l2 ∧ p.sep.getD m 0 = p.sep.getD n 0) from fun h => hss h.2)]
            have k2 : kronecker_delta (m : ℤ) n = 0 := by rw [kronecker_delta, if_neg fun h => hss (hmn.1 h)]
            rw [k2]; simp
        · rw [if_neg (show ¬ (l1 = l2 ∧ p.sep.getD m 0 = p.sep.getD n 0) from fun h => hl h.1)]
          have k1 : kronecker_delta (l1 : ℤ) l2 = 0 := by
            rw [kronecker_delta, if_neg (by exact_mod_cast hl)]
          rw [k1]; simp
      · simp only [h1, if_false, Bool.false_eq_true, zero_div]
  · · by_cases h1 : p.covariance_mixed = true
      · simp only [h1, if_true, CovPar.mixedPart, ← pow_two]
      · simp only [h1, if_false, Bool.false_eq_true, zero_div]
  · by_cases h1 : p.covariance_cosmic = true
    · simp only [h1, if_true, CovPar.cosmicPart]
      have : bg.D1 (p.zOf k) * bg.D1 (p.zOf k) * bg.D1 (p.zOf k) * bg.D1 (p.zOf k) = bg.D1 (p.zOf k) ^ 4 := by ring
      rw [this]
    · simp only [h1, if_false, Bool.false_eq_true, zero_div]

/-- The whole computation, before the symmetry of the integrals is used. -/
theorem covariance_init_ok (p : CovPar) (E : CovNum) (bg : Bg) (hp : p.Matching) (hz : p.MeanFits) :
    ∃ C V, covariance_init p E bg = .ok (C, V) ∧ IsTable5 C V p.bins p.multipole_values.length p.sep.length
      p.coords (cellFormula p E bg) := by
  have hsp : p.spectra ≤ p.bins := by
    rcases hz with h | h
    · simp only [CovPar.spectra, h, if_true]; exact hp.pos
    · simp only [CovPar.spectra]
      split_ifs
      · exact hp.pos
      · exact h.le
  have hspec : ∀ k < p.bins, p.spectrum k < p.spectra := by
    intro k hk
    unfold CovPar.spectrum CovPar.spectra
    by_cases hl : p.pk_linear = true
    · simp [hl]
    · have := hz.resolve_left hl
      simp only [hl, if_false, Bool.false_eq_true]; omega
  obtain ⟨A, B, e1, hA, hB⟩ := tables_ok p E fun _ _ => by rw [hp.pixelsize]; exact hsp
  have hsize : p.multipole_values.length * p.multipole_values.length * p.sep.length * p.sep.length
      * (if p.average then p.zmin.length else p.z_mean.length)
      = p.bins * p.multipole_values.length * p.sep.length * p.multipole_values.length * p.sep.length := by
    unfold CovPar.bins; ring
  obtain ⟨V, e2, vd, vv⟩ := grid5 p.bins p.multipole_values.length p.sep.length p.multipole_values.length p.sep.length
    (cellFormula p E bg) (fun k i m j n s => do
        let v ← cov_cell p bg A B (p.fsky.getD k 0 * p.unitVolume E bg k) (p.zOf k) k i m j n
        push v s) _ hsize fun k hk i hi m hm j hj n hn s => by
      simp only [cov_cell_ok p E bg A B hp k i m j n hk hi hm hj hn
        (fun h => hA h _ (hspec k hk) i hi j hj m hm n hn) (fun h => hB h _ (hspec k hk) i hi j hj m hm n hn)]
      rfl
  obtain ⟨C, e3, cd, cv⟩ := grid5 p.bins p.multipole_values.length p.sep.length p.multipole_values.length p.sep.length
    p.coords (fun k i m j n s => do
        let z1 ← ld (if p.average then p.zmin else p.z_mean) k
        let z2 ← ld (if p.average then p.zmax else p.z_mean) k
        let l1 ← ld p.multipole_values i
        let l2 ← ld p.multipole_values j
        let r1 ← ld p.sep m
        let r2 ← ld p.sep n
        push (⟨z1, z2, l1, l2, r1, r2⟩ : CovCoord) s) _ hsize fun k hk i hi m hm j hj n hn s => by
      unfold CovPar.coords
      by_cases ha : p.average = true
      · have h0 : k < p.zmin.length := by simpa [CovPar.bins, ha] using hk
        simp only [ha, if_true, ld_getD 0 hi, ld_getD 0 hj, ld_getD 0 hm, ld_getD 0 hn, ld_getD 0 h0,
          ld_getD 0 ((hp.zmax ha) ▸ hk : k < p.zmax.length), bind, Except.bind]
      · have h0 : k < p.z_mean.length := by simpa [CovPar.bins, ha] using hk
        simp only [ha, if_false, Bool.false_eq_true, ld_getD 0 hi, ld_getD 0 hj, ld_getD 0 hm, ld_getD 0 hn, ld_getD 0 h0,
          bind, Except.bind]
  have e2' : cov_values p E bg A B (p.multipole_values.length * p.multipole_values.length * p.sep.length * p.sep.length
      * (if p.average then p.zmin.length else p.z_mean.length)) = .ok (V, p.multipole_values.length * p.multipole_values.length * p.sep.length * p.sep.length
      * (if p.average then p.zmin.length else p.z_mean.length)) := by
    refine Eq.trans ?_ e2
    unfold cov_values
    rw [hp.density1]
    refine cfor_congr (fun k hk s => ?_) _
    have hk' := (mem_upTo.1 hk).2
    simp only [cov_volume_ok p E bg hp k hk', cov_z_mean_ok p hp k hk', bind, Except.bind]
  have e3' : cov_coords p (p.multipole_values.length * p.multipole_values.length * p.sep.length * p.sep.length
      * (if p.average then p.zmin.length else p.z_mean.length)) = .ok (C, p.multipole_values.length * p.multipole_values.length * p.sep.length * p.sep.length
      * (if p.average then p.zmin.length else p.z_mean.length)) := e3
  refine ⟨C, V, ?_, ?_, ?_, ?_⟩
  · unfold covariance_init
    simp only [e1, e2', e3', bind, Except.bind, pure, Except.pure]
  · rw [← hsize]; exact cd
  · rw [← hsize]; exact vd
  · intro k hk i hi m hm j hj n hn
    exact ⟨cv k hk i hi m hm j hj n hn, vv k hk i hi m hm j hj n hn⟩

end Coffe
