import Verif.Proofs.Interp
import Verif.Proofs.Common
import Verif.Spec.Background
import Mathlib.Analysis.SpecialFunctions.Sqrt

namespace Coffe
open Set

theorem cfor_ok_all {κ σ : Type} {is : List κ} {body : κ → σ → CRes σ} {s s' : σ} (h : cfor is body s = .ok s') :
    ∀ i ∈ is, ∃ s1 s2, body i s1 = .ok s2 := by
  induction is generalizing s with
  | nil => simp
  | cons i is ih =>
    intro j hj
    unfold cfor at h
    split at h
    · next s1 e =>
      rcases List.mem_cons.1 hj with rfl | hj
      · exact ⟨_, _, e⟩
      · exact ih h j hj
    · cases h

theorem bind_ok_inv {α β : Type} {x : CRes α} {f : α → CRes β} {b : β} (h : x >>= f = .ok b) :
    ∃ a, x = .ok a ∧ f a = .ok b := by
  cases x with
  | error e => cases h
  | ok a => exact ⟨a, rfl, h⟩

variable {Q : Integrator} {solve : ℕ → ℝ → ℝ × ℝ} {p : BgPar}

/-- The rows before the growth factor is normalised. -/
theorem background_rows_ok {R : ℕ → BgRow} (hR : ∀ i < p.background_bins, bg_row Q solve p i = .ok (R i))
    (hn : 0 < p.background_bins) (h0 : (R 0).D1 ≠ 0) :
    ∃ b, background_rows Q solve p = .ok b ∧
      b.IsArray p.background_bins (fun i => { R i with D1 := (R i).D1 / (R 0).D1 }) := by
  obtain ⟨b, hb, hh, hs⟩ := cfor_cells (cmalloc p.background_bins : Buf ℕ BgRow) p.background_bins R
    (fun i b => do let r ← bg_row Q solve p i; b.store i r) (fun i hi => hi)
    (fun i hi c _ _ => by simp only [hR i hi, bind, Except.bind])
  obtain ⟨c, hc, hh', hs'⟩ := cfor_cells b p.background_bins (fun i => { R i with D1 := (R i).D1 / (R 0).D1 })
    (fun i b => do
      let r ← b.load i
      if (R 0).D1 = 0 then .error .nan else b.store i { r with D1 := r.D1 / (R 0).D1 })
    (fun i hi => (hh i hi).1) (fun i hi c hd hv => by
      have : c.load i = .ok (R i) := Buf.load_eq.2 ⟨by rw [hd]; exact (hh i hi).1, by rw [hv]; exact (hh i hi).2⟩
      simp only [this, bind, Except.bind, if_neg h0])
  refine ⟨c, ?_, ⟨fun i => ?_, hh'⟩⟩
  · unfold background_rows
    rw [hb]
    simp only [bind, Except.bind]
    rw [hh.load hn]
    exact hc
  · rw [hs'.1, hs.1]; exact Iff.rfl

theorem background_rows_inv {b : Buf ℕ BgRow} (h : background_rows Q solve p = .ok b) :
    ∃ R : ℕ → BgRow, (∀ i < p.background_bins, bg_row Q solve p i = .ok (R i)) ∧ 0 < p.background_bins ∧
      (R 0).D1 ≠ 0 ∧ b.IsArray p.background_bins (fun i => { R i with D1 := (R i).D1 / (R 0).D1 }) := by
  have h' := h
  unfold background_rows at h
  obtain ⟨c, hc, h⟩ := bind_ok_inv h
  obtain ⟨r0, hr0, h⟩ := bind_ok_inv h
  have hall : ∀ i < p.background_bins, ∃ r, bg_row Q solve p i = .ok r := fun i hi => by
    obtain ⟨s1, s2, e⟩ := cfor_ok_all hc i (mem_upTo.2 ⟨Nat.zero_le _, hi⟩)
    obtain ⟨r, hr, -⟩ := bind_ok_inv e
    exact ⟨r, hr⟩
  haveI : Nonempty BgRow := ⟨r0⟩
  choose! R hR using hall
  obtain ⟨c', hc', hh, hs⟩ := cfor_cells (cmalloc p.background_bins : Buf ℕ BgRow) p.background_bins R
    (fun i b => do let r ← bg_row Q solve p i; b.store i r) (fun i hi => hi)
    (fun i hi c _ _ => by simp only [hR i hi, bind, Except.bind])
  have ec : c' = c := by rw [hc] at hc'; exact (Except.ok.inj hc').symm
  subst ec
  have hn : 0 < p.background_bins := by
    have := (Buf.load_eq.1 hr0).1
    rw [hs.1] at this
    exact this
  have e0 : r0 = R 0 := by
    rw [hh.load hn] at hr0
    exact (Except.ok.inj hr0).symm
  subst e0
  have hD : (R 0).D1 ≠ 0 := fun hz => by
    obtain ⟨s1, s2, e⟩ := cfor_ok_all h 0 (mem_upTo.2 ⟨Nat.zero_le _, hn⟩)
    obtain ⟨r, hr, e⟩ := bind_ok_inv e
    rw [if_pos hz] at e
    cases e
  refine ⟨R, hR, hn, hD, ?_⟩
  obtain ⟨b', hb', hA⟩ := background_rows_ok hR hn hD
  rw [h'] at hb'
  rw [Except.ok.inj hb']
  exact hA

theorem background_init_inv {b : Buf ℕ BgRow} (h : background_init Q solve p = .ok b) :
    background_rows Q solve p = .ok b ∧ 5 ≤ p.background_bins := by
  unfold background_init at h
  obtain ⟨c, hc, h⟩ := bind_ok_inv h
  obtain ⟨_, h1, h⟩ := bind_ok_inv h
  obtain ⟨_, h2, h⟩ := bind_ok_inv h
  cases h
  refine ⟨hc, ?_⟩
  unfold init_akima at h1
  by_contra hlt
  by_cases hz : p.background_bins = 0
  · rw [if_pos hz] at h1; cases h1
  · rw [if_neg hz, if_pos (by omega)] at h1; cases h1

theorem bg_row_inv {i : ℕ} {r : BgRow} (h : bg_row Q solve p i = .ok r) :
    p.background_bins ≠ 1 ∧ r.z = 15 * i / ((p.background_bins : ℝ) - 1) ∧ r.a = 1 / (1 + r.z) ∧
    0 ≤ bg_E p (de_wint Q p) r.z ∧ r.Hz = Real.sqrt (bg_E p (de_wint Q p) r.z) * p.h * COFFE_H0 ∧
    r.conformal_Hz = r.a * r.Hz ∧
    r.conformal_Hz_prime = -((1 + r.z) ^ 3 * (2 * (1 + r.z) * p.Omega0_gamma + (p.Omega0_cdm + p.Omega0_baryon))
          + (1 + 3 * de_w p r.z) * p.Omega0_de * de_wint Q p r.z) / (1 + r.z) ^ 2 / 2 * (p.h * COFFE_H0) ^ 2 ∧
    r.D1 = (solve i r.a).1 ∧ r.D1 ≠ 0 ∧ r.f = (solve i r.a).2 * r.a / r.D1 ∧ p.h * COFFE_H0 ≠ 0 ∧
    r.comoving_distance = Q (integrand_comoving p (de_wint Q p)) 0 r.z / (p.h * COFFE_H0) ∧
    bg_G r.conformal_Hz_prime r.conformal_Hz r.comoving_distance (p.magnification_bias1 r.z) (p.evolution_bias1 r.z) r.z
      = .ok r.G1 ∧
    bg_G r.conformal_Hz_prime r.conformal_Hz r.comoving_distance (p.magnification_bias2 r.z) (p.evolution_bias2 r.z) r.z
      = .ok r.G2 := by
  unfold bg_row at h
  by_cases h1 : p.background_bins = 1
  · rw [if_pos h1] at h; cases h
  rw [if_neg h1] at h
  dsimp only at h
  by_cases h2 : bg_E p (de_wint Q p) (15 * i / ((p.background_bins : ℝ) - 1)) < 0
  · rw [if_pos h2] at h; cases h
  rw [if_neg h2] at h
  by_cases h3 : (solve i (1 / (1 + 15 * (i : ℝ) / ((p.background_bins : ℝ) - 1)))).1 = 0 ∨ p.h * COFFE_H0 = 0
  · rw [if_pos h3] at h; cases h
  rw [if_neg h3] at h
  obtain ⟨G1, hG1, h⟩ := bind_ok_inv h
  obtain ⟨G2, hG2, h⟩ := bind_ok_inv h
  cases h
  push Not at h3
  exact ⟨h1, rfl, rfl, not_lt.1 h2, rfl, rfl, rfl, rfl, h3.1, rfl, h3.2, rfl, hG1, hG2⟩

theorem bg_row_ok (i : ℕ) (h1 : p.background_bins ≠ 1) (h2 : 0 ≤ bg_E p (de_wint Q p) (15 * i / ((p.background_bins : ℝ) - 1)))
    (h3 : (solve i (1 / (1 + 15 * (i : ℝ) / ((p.background_bins : ℝ) - 1)))).1 ≠ 0) (h4 : p.h * COFFE_H0 ≠ 0)
    (h5 : 1 / 10 ^ 10 < 15 * i / ((p.background_bins : ℝ) - 1) →
      bg_E p (de_wint Q p) (15 * i / ((p.background_bins : ℝ) - 1)) ≠ 0 ∧
      1 + 15 * i / ((p.background_bins : ℝ) - 1) ≠ 0 ∧
      Q (integrand_comoving p (de_wint Q p)) 0 (15 * i / ((p.background_bins : ℝ) - 1)) ≠ 0) :
    ∃ r, bg_row Q solve p i = .ok r := by
  unfold bg_row
  rw [if_neg h1]
  dsimp only
  rw [if_neg (not_lt.2 h2), if_neg (by push Not; exact ⟨h3, h4⟩)]
  have hG : ∀ Hp s evo, ∃ g, bg_G Hp (1 / (1 + 15 * (i : ℝ) / ((p.background_bins : ℝ) - 1)) *
      (Real.sqrt (bg_E p (de_wint Q p) (15 * i / ((p.background_bins : ℝ) - 1))) * p.h * COFFE_H0))
      (Q (integrand_comoving p (de_wint Q p)) 0 (15 * i / ((p.background_bins : ℝ) - 1)) / (p.h * COFFE_H0)) s evo
      (15 * i / ((p.background_bins : ℝ) - 1)) = .ok g := by
    intro Hp s evo
    unfold bg_G
    by_cases hz : (15 * i / ((p.background_bins : ℝ) - 1) : ℝ) > 1 / 10 ^ 10
    · obtain ⟨a, b, c⟩ := h5 hz
      have hs : Real.sqrt (bg_E p (de_wint Q p) (15 * i / ((p.background_bins : ℝ) - 1))) ≠ 0 :=
        (Real.sqrt_pos.2 (lt_of_le_of_ne h2 (Ne.symm a))).ne'
      rw [if_pos hz, if_neg]
      · exact ⟨_, rfl⟩
      · push Not
        refine ⟨mul_ne_zero (one_div_ne_zero b) ?_, div_ne_zero c h4⟩
        rw [mul_assoc]
        exact mul_ne_zero hs h4
    · rw [if_neg hz]; exact ⟨_, rfl⟩
  obtain ⟨g1, e1⟩ := hG _ _ _
  obtain ⟨g2, e2⟩ := hG _ _ _
  rw [e1]
  simp only [bind, Except.bind]
  rw [e2]
  exact ⟨_, rfl⟩

theorem de_wint_pos {z : ℝ} (h0 : 0 ≤ z) (h1 : z ≤ 100) : 0 < de_wint Q p z :=
  interp_pos de_z_strictMono (by norm_num [de_bins]) (fun i _ => Real.exp_pos _) (by rwa [de_z_zero]) (by rwa [de_z_last])

theorem de_wint_continuousOn : ContinuousOn (de_wint Q p) (Icc 0 100) := by
  have := interp_continuousOn (ya := fun i => Real.exp (3 * Q (integrand_w p) 0 (de_z i))) de_z_strictMono (de_bins + 1)
    (by norm_num [de_bins])
  rwa [de_z_zero, de_z_last] at this

theorem de_w_continuousOn : ContinuousOn (de_w p) (Icc 0 100) := by
  have := interp_continuousOn (ya := fun i => coffe_dark_energy_eos p (de_z i)) de_z_strictMono (de_bins + 1)
    (by norm_num [de_bins])
  rwa [de_z_zero, de_z_last] at this

theorem de_wint_zero (hQ : Q (integrand_w p) 0 0 = 0) : de_wint Q p 0 = 1 := by
  have := interp_node (ya := fun i => Real.exp (3 * Q (integrand_w p) 0 (de_z i))) de_z_strictMono (n := de_bins + 1)
    (i := 0) (by omega) (by norm_num [de_bins])
  rw [de_z_zero, hQ] at this
  simpa [de_wint] using this

theorem bg_E_pos (hp : p.Expanding) {z : ℝ} (h0 : 0 ≤ z) (h1 : z ≤ 100) : 0 < bg_E p (de_wint Q p) z := by
  unfold bg_E
  have hw : 0 < de_wint Q p z := de_wint_pos h0 h1
  have a3 : (0 : ℝ) < (1 + z) ^ 3 := by positivity
  have a4 : (0 : ℝ) < (1 + z) ^ 4 := by positivity
  rcases hp.m.lt_or_eq with h | h
  · have := mul_pos h a3; have := mul_nonneg hp.g a4.le; have := mul_nonneg hp.de hw.le; linarith
  · rcases hp.g.lt_or_eq with h' | h'
    · have := mul_nonneg hp.m a3.le; have := mul_pos h' a4; have := mul_nonneg hp.de hw.le; linarith
    · have hd : 0 < p.Omega0_de := by have := hp.some; linarith
      have := mul_nonneg hp.m a3.le; have := mul_nonneg hp.g a4.le; have := mul_pos hd hw; linarith

theorem integrand_comoving_continuousOn (hp : p.Expanding) :
    ContinuousOn (integrand_comoving p (de_wint Q p)) (Icc 0 100) := by
  unfold integrand_comoving
  refine ContinuousOn.div continuousOn_const (ContinuousOn.sqrt ?_) fun z hz =>
    (Real.sqrt_pos.2 (bg_E_pos hp hz.1 hz.2)).ne'
  unfold bg_E
  exact ((by fun_prop : ContinuousOn (fun z : ℝ => (p.Omega0_cdm + p.Omega0_baryon) * (1 + z) ^ 3
    + p.Omega0_gamma * (1 + z) ^ 4) _)).add (continuousOn_const.mul de_wint_continuousOn)

/-- Exact integrals of the inverse expansion rate grow. -/
theorem comoving_lt (hQ : Q.Exact) (hp : p.Expanding) {u v : ℝ} (h0 : 0 ≤ u) (h : u < v) (h1 : v ≤ 100) :
    Q (integrand_comoving p (de_wint Q p)) 0 u < Q (integrand_comoving p (de_wint Q p)) 0 v := by
  have hc := integrand_comoving_continuousOn (Q := Q) hp
  have cu : ContinuousOn (integrand_comoving p (de_wint Q p)) (uIcc 0 u) := by
    rw [uIcc_of_le h0]; exact hc.mono (Icc_subset_Icc le_rfl (by linarith))
  have cv : ContinuousOn (integrand_comoving p (de_wint Q p)) (uIcc 0 v) := by
    rw [uIcc_of_le (by linarith)]; exact hc.mono (Icc_subset_Icc le_rfl (by linarith))
  have cuv : ContinuousOn (integrand_comoving p (de_wint Q p)) (Icc u v) := hc.mono (Icc_subset_Icc h0 h1)
  rw [hQ _ _ _ cu, hQ _ _ _ cv, ← intervalIntegral.integral_add_adjacent_intervals cu.intervalIntegrable
    (b := u) (c := v) (by apply ContinuousOn.intervalIntegrable; rwa [uIcc_of_le h.le])]
  have : 0 < ∫ x in u..v, integrand_comoving p (de_wint Q p) x := by
    refine intervalIntegral.intervalIntegral_pos_of_pos_on
      (by apply ContinuousOn.intervalIntegrable; rwa [uIcc_of_le h.le]) (fun x hx => ?_) h
    exact one_div_pos.2 (Real.sqrt_pos.2 (bg_E_pos hp (by linarith [hx.1]) (by linarith [hx.2])))
  linarith

end Coffe
