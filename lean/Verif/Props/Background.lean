import Verif.Proofs.Background
import Verif.Props.PyDensity
import Mathlib.Analysis.SpecialFunctions.ExpDeriv

/-!
# C34, C35: the background tables and the growth equation; C49: distances
-/

namespace Coffe
open Set MeasureTheory

variable {Q : Integrator} {solve : ℕ → ℝ → ℝ × ℝ} {p : BgPar} {t : Buf ℕ BgRow}

/-- C34: what the tables contain, whenever the stage succeeds. -/
theorem C34_rows (h : background_init Q solve p = .ok t) :
    (∀ i, t.dom i ↔ i < p.background_bins) ∧ ∀ i < p.background_bins, ∃ r, t.load i = .ok r ∧
      r.z = 15 * i / ((p.background_bins : ℝ) - 1) ∧ r.a = 1 / (1 + r.z) ∧ r.Hz = hubble p (de_wint Q p) r.z ∧
      r.conformal_Hz = r.Hz / (1 + r.z) ∧
      r.comoving_distance = 2997.92458 / p.h * Q (fun z => p.h / 2997.92458 / hubble p (de_wint Q p) z) 0 r.z := by
  obtain ⟨hr, h5⟩ := background_init_inv h
  obtain ⟨R, hR, -, -, hA⟩ := background_rows_inv hr
  refine ⟨hA.1, fun i hi => ⟨_, hA.2.load hi, ?_⟩⟩
  obtain ⟨-, e1, e2, e3, e4, e5, -, -, -, -, hh, e7, -⟩ := bg_row_inv (hR i hi)
  dsimp only
  have hH : (R i).Hz = hubble p (de_wint Q p) (R i).z := by
    rw [e4]; unfold hubble bg_E COFFE_H0; ring
  have hne : p.h ≠ 0 := fun h0 => hh (by rw [h0, zero_mul])
  refine ⟨e1, e2, hH, by rw [e5, e2]; ring, ?_⟩
  have hf : integrand_comoving p (de_wint Q p) = fun z => p.h / 2997.92458 / hubble p (de_wint Q p) z := by
    funext z
    unfold integrand_comoving hubble bg_E
    rw [← div_div, div_self (by norm_num [hne])]
  rw [e7, hf]
  unfold COFFE_H0
  field_simp

/-- C34: today.  The growth factor is one, the distance is zero, and the expansion rate is `h / 2997.92458` times the
square root of the sum of the densities; for any integrator that gives zero on an empty interval. -/
theorem C34_today (hQ : ∀ f, Q f 0 0 = 0) (h : background_init Q solve p = .ok t) :
    ∃ r, t.load 0 = .ok r ∧ r.z = 0 ∧ r.a = 1 ∧ r.D1 = 1 ∧ r.comoving_distance = 0 ∧
      r.conformal_Hz = r.Hz ∧
      r.Hz = p.h / 2997.92458 * Real.sqrt (p.Omega0_cdm + p.Omega0_baryon + p.Omega0_gamma + p.Omega0_de) := by
  obtain ⟨hr, h5⟩ := background_init_inv h
  obtain ⟨R, hR, hn, hD, hA⟩ := background_rows_inv hr
  refine ⟨_, hA.2.load hn, ?_⟩
  obtain ⟨-, e1, e2, e3, e4, e5, -, -, -, -, hh, e7, -⟩ := bg_row_inv (hR 0 hn)
  dsimp only
  have hz : (R 0).z = 0 := by rw [e1]; simp
  have ha : (R 0).a = 1 := by rw [e2, hz]; norm_num
  refine ⟨hz, ha, div_self hD, by rw [e7, hz, hQ, zero_div], by rw [e5, ha, one_mul], ?_⟩
  rw [e4, hz]
  unfold bg_E
  rw [de_wint_zero (hQ _)]
  unfold COFFE_H0
  norm_num
  ring

/-- C34: the two Doppler amplitudes are those of the two populations, with the biases at the redshift of the row;
they are set to zero today. -/
theorem C34_doppler (h : background_init Q solve p = .ok t) (i : ℕ) (r : BgRow) (hr : t.load i = .ok r) :
    (i = 0 → r.G1 = 0 ∧ r.G2 = 0) ∧
    (1 / 10 ^ 10 < r.z →
      r.G1 = dopplerAmplitude r.conformal_Hz_prime r.conformal_Hz r.comoving_distance
        (p.magnification_bias1 r.z) (p.evolution_bias1 r.z) ∧
      r.G2 = dopplerAmplitude r.conformal_Hz_prime r.conformal_Hz r.comoving_distance
        (p.magnification_bias2 r.z) (p.evolution_bias2 r.z)) := by
  obtain ⟨hrow, h5⟩ := background_init_inv h
  obtain ⟨R, hR, -, -, hA⟩ := background_rows_inv hrow
  have hi : i < p.background_bins := (hA.1 i).1 (Buf.load_eq.1 hr).1
  have hr' := hA.2.load hi
  rw [hr] at hr'
  obtain ⟨-, e1, -, -, -, -, -, -, -, -, -, -, g1, g2⟩ := bg_row_inv (hR i hi)
  rw [Except.ok.inj hr']
  dsimp only
  unfold bg_G at g1 g2
  refine ⟨fun h0 => ?_, fun hz => ?_⟩
  · have hz : (R i).z = 0 := by rw [e1, h0]; simp
    rw [if_neg (by rw [hz]; norm_num)] at g1 g2
    exact ⟨(Except.ok.inj g1).symm, (Except.ok.inj g2).symm⟩
  · rw [if_pos hz] at g1 g2
    split_ifs at g1 g2
    exact ⟨(Except.ok.inj g1).symm, (Except.ok.inj g2).symm⟩

/-- C34: the growth factor is the solution of the growth equation divided by its value today, and the growth rate is
its logarithmic derivative with respect to the scale factor. -/
theorem C34_growth (h : background_init Q solve p = .ok t) (i : ℕ) (r : BgRow) (hr : t.load i = .ok r) :
    r.D1 = (solve i (1 / (1 + r.z))).1 / (solve 0 1).1 ∧
    r.f = (1 / (1 + r.z)) * (solve i (1 / (1 + r.z))).2 / (solve i (1 / (1 + r.z))).1 := by
  obtain ⟨hrow, h5⟩ := background_init_inv h
  obtain ⟨R, hR, hn, -, hA⟩ := background_rows_inv hrow
  have hi : i < p.background_bins := (hA.1 i).1 (Buf.load_eq.1 hr).1
  have hr' := hA.2.load hi
  rw [hr] at hr'
  obtain ⟨-, -, e2, -, -, -, -, e7, -, e9, -⟩ := bg_row_inv (hR i hi)
  obtain ⟨-, z0, a0, -, -, -, -, d0, -⟩ := bg_row_inv (hR 0 hn)
  have ha : (R 0).a = 1 := by rw [a0, z0]; simp
  rw [Except.ok.inj hr']
  dsimp only
  refine ⟨by rw [e7, d0, ha, e2], ?_⟩
  rw [e9, e7, e2]
  ring

/-- C34: so the expansion rate today is `h / 2997.92458` exactly when the densities add up to one. -/
theorem C34_expansion_rate (hQ : ∀ f, Q f 0 0 = 0) (hp : 0 < p.h) (h : background_init Q solve p = .ok t) :
    ∃ r, t.load 0 = .ok r ∧ r.z = 0 ∧
      (r.Hz = p.h / 2997.92458 ↔ p.Omega0_cdm + p.Omega0_baryon + p.Omega0_gamma + p.Omega0_de = 1) := by
  obtain ⟨r, hr, hz, -, -, -, -, hH⟩ := C34_today hQ h
  refine ⟨r, hr, hz, ?_⟩
  rw [hH]
  have h0 : p.h / 2997.92458 ≠ 0 := by positivity
  constructor
  · intro e
    have : Real.sqrt (p.Omega0_cdm + p.Omega0_baryon + p.Omega0_gamma + p.Omega0_de) = 1 :=
      mul_left_cancel₀ h0 (by rw [e, mul_one])
    exact Real.sqrt_eq_one.1 this
  · intro e; rw [e, Real.sqrt_one, mul_one]

/-- C34: the stage succeeds for every expanding universe, every number of redshifts from five on, exact quadrature
and every growth solver whose values are not zero. -/
theorem C34_success (hQ : Q.Exact) (hp : p.Expanding) (hb : 5 ≤ p.background_bins) (hs : ∀ i a, (solve i a).1 ≠ 0) :
    ∃ t, background_init Q solve p = .ok t := by
  have hH : p.h * COFFE_H0 ≠ 0 := mul_ne_zero hp.h.ne' (by norm_num [COFFE_H0])
  have hb1 : (0 : ℝ) < (p.background_bins : ℝ) - 1 := by
    have : (5 : ℝ) ≤ p.background_bins := by exact_mod_cast hb
    linarith
  have hz : ∀ i : ℕ, i < p.background_bins → 0 ≤ (15 * i / ((p.background_bins : ℝ) - 1) : ℝ) ∧
      (15 * i / ((p.background_bins : ℝ) - 1) : ℝ) ≤ 15 := fun i hi => by
    have : (i : ℝ) + 1 ≤ p.background_bins := by exact_mod_cast hi
    exact ⟨by positivity, by rw [div_le_iff₀ hb1]; nlinarith⟩
  have h00 : Q (integrand_comoving p (de_wint Q p)) 0 0 = 0 := by
    rw [hQ _ _ _ (by simp), intervalIntegral.integral_same]
  have hrow : ∀ i, ∃ r, i < p.background_bins → bg_row Q solve p i = .ok r := fun i => by
    by_cases hi : i < p.background_bins
    · obtain ⟨z0, z1⟩ := hz i hi
      obtain ⟨r, hr⟩ := bg_row_ok (Q := Q) (solve := solve) (p := p) i (by omega) (bg_E_pos hp z0 (by linarith)).le
        (hs _ _) hH fun hlt => ⟨(bg_E_pos hp z0 (by linarith)).ne', by positivity, by
          have := comoving_lt hQ hp le_rfl (lt_trans (by positivity) hlt) (by linarith)
          rw [h00] at this
          exact this.ne'⟩
      exact ⟨r, fun _ => hr⟩
    · exact ⟨⟨0, 0, 0, 0, 0, 0, 0, 0, 0, 0⟩, fun h => absurd h hi⟩
  choose R hR using hrow
  have hinv := fun i (hi : i < p.background_bins) => bg_row_inv (hR i hi)
  obtain ⟨b, hb', hA⟩ := background_rows_ok hR (by omega) (hinv 0 (by omega)).2.2.2.2.2.2.2.2.1
  have hsome : ∀ i r, b.val i = some r → i < p.background_bins → r = { R i with D1 := (R i).D1 / (R 0).D1 } :=
    fun i r e hi => by rw [(hA.2 i hi).2] at e; exact (Option.some.inj e).symm
  have hout : ∀ i r, b.val i = some r → i < p.background_bins := fun i r e => by
    by_contra hge
    have hfr : b.val i = none := by
      obtain ⟨c, hc, h⟩ := bind_ok_inv hb'
      obtain ⟨r0, hr0, h⟩ := bind_ok_inv h
      obtain ⟨c1, hc1, hh1, hs1⟩ := cfor_cells (cmalloc p.background_bins : Buf ℕ BgRow) p.background_bins R
        (fun i b => do let r ← bg_row Q solve p i; b.store i r) (fun i hi => hi)
        (fun i hi c _ _ => by simp only [hR i hi, bind, Except.bind])
      rw [hc] at hc1
      cases hc1
      have e0 : r0 = R 0 := by
        rw [hh1.load (show 0 < p.background_bins by omega)] at hr0
        exact (Except.ok.inj hr0).symm
      subst e0
      obtain ⟨c2, hc2, -, hs2⟩ := cfor_cells c p.background_bins (fun i => { R i with D1 := (R i).D1 / (R 0).D1 })
        (fun i b => do
          let r ← b.load i
          if (R 0).D1 = 0 then .error .nan else b.store i { r with D1 := r.D1 / (R 0).D1 })
        (fun i hi => (hh1 i hi).1) (fun i hi c hd hv => by
          have : c.load i = .ok (R i) := Buf.load_eq.2 ⟨by rw [hd]; exact (hh1 i hi).1, by rw [hv]; exact (hh1 i hi).2⟩
          simp only [this, bind, Except.bind, if_neg (hinv 0 (by omega)).2.2.2.2.2.2.2.2.1])
      rw [h] at hc2
      cases hc2
      rw [hs2.2 i (by omega), hs1.2 i (by omega)]
      rfl
    rw [hfr] at e
    cases e
  have hzlt : ∀ i j : ℕ, i < j → j < p.background_bins → (R i).z < (R j).z := fun i j hij hj => by
    rw [(hinv i (by omega)).2.1, (hinv j hj).2.1]
    have : (i : ℝ) < j := by exact_mod_cast hij
    gcongr
  refine ⟨b, ?_⟩
  unfold background_init
  rw [hb']
  simp only [bind, Except.bind]
  unfold init_akima
  rw [if_neg (by omega), if_neg (by omega), if_pos, if_neg (by omega), if_neg (by omega), if_pos]
  · rfl
  · intro i j ri rj hij hi hj
    rw [hsome i ri hi (hout i ri hi), hsome j rj hj (hout j rj hj)]
    have hj' := hout j rj hj
    have hi' := hout i ri hi
    dsimp only
    rw [(hinv i hi').2.2.2.2.2.2.2.2.2.2.2.1, (hinv j hj').2.2.2.2.2.2.2.2.2.2.2.1]
    have hpos : 0 < p.h * COFFE_H0 := mul_pos hp.h (by norm_num [COFFE_H0])
    refine div_lt_div_of_pos_right (comoving_lt hQ hp ?_ (hzlt i j hij hj') ?_) hpos
    · rw [(hinv i hi').2.1]; exact (hz i hi').1
    · rw [(hinv j hj').2.1]; linarith [(hz j hj').2]
  · intro i j ri rj hij hi hj
    rw [hsome i ri hi (hout i ri hi), hsome j rj hj (hout j rj hj)]
    exact hzlt i j hij (hout j rj hj)

/-- C49: the tabulated distance is strictly increasing in redshift, so that the inverse look-up (redshift as a function
of distance) is well defined. -/
theorem C49_increasing (hQ : Q.Exact) (hp : p.Expanding) (h : background_init Q solve p = .ok t) (i j : ℕ) (hij : i < j)
    (hj : j < p.background_bins) :
    ∃ r s, t.load i = .ok r ∧ t.load j = .ok s ∧ r.z < s.z ∧ r.comoving_distance < s.comoving_distance := by
  obtain ⟨hr, h5⟩ := background_init_inv h
  obtain ⟨R, hR, -, -, hA⟩ := background_rows_inv hr
  refine ⟨_, _, hA.2.load (hij.trans hj), hA.2.load hj, ?_⟩
  obtain ⟨-, e1, -, -, -, -, -, -, -, -, -, e7, -⟩ := bg_row_inv (hR i (hij.trans hj))
  obtain ⟨-, f1, -, -, -, -, -, -, -, -, -, f7, -⟩ := bg_row_inv (hR j hj)
  dsimp only
  have hb1 : (0 : ℝ) < (p.background_bins : ℝ) - 1 := by
    have : (5 : ℝ) ≤ p.background_bins := by exact_mod_cast h5
    linarith
  have hlt : (R i).z < (R j).z := by
    rw [e1, f1]
    have : (i : ℝ) < j := by exact_mod_cast hij
    gcongr
  refine ⟨hlt, ?_⟩
  rw [e7, f7]
  refine div_lt_div_of_pos_right (comoving_lt hQ hp (by rw [e1]; positivity) hlt ?_)
    (mul_pos hp.h (by norm_num [COFFE_H0]))
  rw [f1, div_le_iff₀ hb1]
  have : (j : ℝ) + 1 ≤ p.background_bins := by exact_mod_cast hj
  nlinarith

/-- C49: looking up the distance of a tabulated redshift and then the redshift of that distance gives the redshift back,
for any interpolation `I` that passes through the points of a table with increasing abscissae. -/
theorem C49_round_trip (hQ : Q.Exact) (hp : p.Expanding) (h : background_init Q solve p = .ok t)
    (I : (ℕ → ℝ) → (ℕ → ℝ) → ℕ → ℝ → ℝ)
    (hI : ∀ xs ys n, (∀ i j, i < j → j < n → xs i < xs j) → ∀ i < n, I xs ys n (xs i) = ys i) :
    ∃ zs chis : ℕ → ℝ, (∀ i < p.background_bins, ∃ r, t.load i = .ok r ∧ r.z = zs i ∧ r.comoving_distance = chis i) ∧
      ∀ i < p.background_bins,
        I chis zs p.background_bins (I zs chis p.background_bins (zs i)) = zs i := by
  obtain ⟨-, hall⟩ := C34_rows h
  have hall' : ∀ i, ∃ r, i < p.background_bins → t.load i = .ok r := fun i => by
    by_cases hi : i < p.background_bins
    · obtain ⟨r, hr, -⟩ := hall i hi; exact ⟨r, fun _ => hr⟩
    · exact ⟨⟨0, 0, 0, 0, 0, 0, 0, 0, 0, 0⟩, fun h => absurd h hi⟩
  choose R hR using hall'
  have hmono : ∀ i j, i < j → j < p.background_bins → (R i).z < (R j).z ∧
      (R i).comoving_distance < (R j).comoving_distance := fun i j hij hj => by
    obtain ⟨r, s, hr, hs, h1, h2⟩ := C49_increasing hQ hp h i j hij hj
    rw [hR i (hij.trans hj)] at hr
    rw [hR j hj] at hs
    cases hr
    cases hs
    exact ⟨h1, h2⟩
  refine ⟨fun i => (R i).z, fun i => (R i).comoving_distance, fun i hi => ⟨R i, hR i hi, rfl, rfl⟩, fun i hi => ?_⟩
  rw [hI (fun i => (R i).z) _ _ (fun i j a b => (hmono i j a b).1) i hi]
  exact hI (fun i => (R i).comoving_distance) _ _ (fun i j a b => (hmono i j a b).2) i hi

/-! ## The derivative of the conformal expansion rate -/

/-- C34: the stored derivative is the derivative of the conformal rate `H / (1 + z)` with respect to conformal time
(`dz/dη = - H`), if the tabulated dark energy density and equation of state are exact at this redshift: `W` is the
growth of the dark energy density, `w` its equation of state. -/
theorem C34_conformal_derivative (h : background_init Q solve p = .ok t) (i : ℕ) (r : BgRow) (hr : t.load i = .ok r)
    (W : ℝ → ℝ) (hW : HasDerivAt W (3 * (1 + de_w p r.z) / (1 + r.z) * W r.z) r.z) (hv : W r.z = de_wint Q p r.z)
    (hE : r.Hz ≠ 0) :
    ∃ d, HasDerivAt (fun z => hubble p W z / (1 + z)) d r.z ∧ r.conformal_Hz_prime = - r.Hz * d := by
  obtain ⟨hrow, h5⟩ := background_init_inv h
  obtain ⟨R, hR, -, -, hA⟩ := background_rows_inv hrow
  have hi : i < p.background_bins := (hA.1 i).1 (Buf.load_eq.1 hr).1
  have hr' := hA.2.load hi
  rw [hr] at hr'
  obtain ⟨-, e1, -, e3, e4, -, e6, -⟩ := bg_row_inv (hR i hi)
  have er := Except.ok.inj hr'
  have ez : r.z = (R i).z := by rw [er]
  have eH : r.Hz = (R i).Hz := by rw [er]
  have eP : r.conformal_Hz_prime = (R i).conformal_Hz_prime := by rw [er]
  rw [eP, e6]
  rw [eH, e4] at hE
  rw [eH, e4]
  rw [ez] at hW hv ⊢
  clear eP eH ez er hr' hr e6 e4
  have hz0 : 0 ≤ (R i).z := by
    rw [e1]
    have : (5 : ℝ) ≤ p.background_bins := by exact_mod_cast h5
    exact div_nonneg (by positivity) (by linarith)
  clear e1
  generalize (R i).z = z at *
  have h1z : (1 + z) ≠ 0 := by positivity
  have hpos : 0 < bg_E p (de_wint Q p) z := by
    refine lt_of_le_of_ne e3 fun h0 => hE ?_
    rw [← h0, Real.sqrt_zero]; ring
  have hEE : bg_E p (de_wint Q p) z = (p.Omega0_cdm + p.Omega0_baryon) * (1 + z) ^ 3 + p.Omega0_gamma * (1 + z) ^ 4
      + p.Omega0_de * W z := by rw [hv]; rfl
  rw [← hv]
  rw [hEE] at hpos ⊢
  have d1 : HasDerivAt (fun z : ℝ => 1 + z) 1 z := by simpa using (hasDerivAt_id z).const_add 1
  have dE : HasDerivAt (fun z => (p.Omega0_cdm + p.Omega0_baryon) * (1 + z) ^ 3 + p.Omega0_gamma * (1 + z) ^ 4
      + p.Omega0_de * W z) ((p.Omega0_cdm + p.Omega0_baryon) * (3 * (1 + z) ^ 2 * 1) + p.Omega0_gamma * (4 * (1 + z) ^ 3 * 1)
      + p.Omega0_de * (3 * (1 + de_w p z) / (1 + z) * W z)) z := by
    have a := (d1.pow 3).const_mul (p.Omega0_cdm + p.Omega0_baryon)
    have b := (d1.pow 4).const_mul p.Omega0_gamma
    have c := hW.const_mul p.Omega0_de
    refine ((a.add b).add c).congr_deriv ?_
    norm_num
  have dF := (((dE.sqrt hpos.ne').const_mul (p.h / 2997.92458)).div d1 h1z)
  refine ⟨_, dF, ?_⟩
  unfold COFFE_H0
  have hs := Real.mul_self_sqrt hpos.le
  have hs0 := (Real.sqrt_pos.2 hpos).ne'
  generalize hE' : Real.sqrt ((p.Omega0_cdm + p.Omega0_baryon) * (1 + z) ^ 3 + p.Omega0_gamma * (1 + z) ^ 4
      + p.Omega0_de * W z) = e at *
  field_simp
  rw [show e ^ 2 = e * e by ring, hs]
  field_simp
  ring

/-- C34: for a cosmological constant (`w = -1`) no assumption on the tables is left. -/
theorem C34_conformal_derivative_lcdm (hQ : Q.Exact) (hw0 : p.w0 = -1) (hwa : p.wa = 0)
    (h : background_init Q solve p = .ok t) (i : ℕ) (r : BgRow) (hr : t.load i = .ok r) (hE : r.Hz ≠ 0) :
    r.Hz = hubble p (fun _ => 1) r.z ∧
    ∃ d, HasDerivAt (fun z => hubble p (fun _ => 1) z / (1 + z)) d r.z ∧ r.conformal_Hz_prime = - r.Hz * d := by
  have hz : 0 ≤ r.z ∧ r.z ≤ 100 := by
    obtain ⟨hd, hall⟩ := C34_rows h
    obtain ⟨-, h5⟩ := background_init_inv h
    have hi : i < p.background_bins := (hd i).1 (Buf.load_eq.1 hr).1
    obtain ⟨r', hr', e1, -⟩ := hall i hi
    rw [hr] at hr'
    rw [Except.ok.inj hr', e1]
    have : (5 : ℝ) ≤ p.background_bins := by exact_mod_cast h5
    have hb1 : (0 : ℝ) < (p.background_bins : ℝ) - 1 := by linarith
    have : (i : ℝ) + 1 ≤ p.background_bins := by exact_mod_cast hi
    exact ⟨by positivity, by rw [div_le_iff₀ hb1]; nlinarith⟩
  have hw : ∀ z, 0 ≤ z → z ≤ 100 → de_w p z = -1 := fun z h0 h1 =>
    interp_const de_z_strictMono (by norm_num [de_bins])
      (fun i _ => by simp [coffe_dark_energy_eos, hw0, hwa]) (by rwa [de_z_zero]) (by rwa [de_z_last])
  have hi0 : ∀ i < de_bins + 1, Real.exp (3 * Q (integrand_w p) 0 (de_z i)) = 1 := fun i hi => by
    have h0 : 0 ≤ de_z i := by rw [← de_z_zero]; exact de_z_strictMono.monotone (Nat.zero_le _)
    have h1 : de_z i ≤ 100 := by rw [← de_z_last]; exact de_z_strictMono.monotone (by omega)
    have hf : ∀ x ∈ uIcc 0 (de_z i), integrand_w p x = 0 := fun x hx => by
      rw [uIcc_of_le h0] at hx
      unfold integrand_w
      rw [hw x hx.1 (hx.2.trans h1)]
      simp
    rw [hQ _ _ _ (continuousOn_const.congr hf), intervalIntegral.integral_congr hf]
    simp
  have hwi : de_wint Q p r.z = 1 :=
    interp_const de_z_strictMono (by norm_num [de_bins]) hi0 (by rw [de_z_zero]; exact hz.1) (by rw [de_z_last]; exact hz.2)
  refine ⟨?_, C34_conformal_derivative h i r hr (fun _ => 1) ?_ hwi.symm hE⟩
  · obtain ⟨hd, hall⟩ := C34_rows h
    obtain ⟨r', hr', -, -, e3, -⟩ := hall i ((hd i).1 (Buf.load_eq.1 hr).1)
    rw [hr] at hr'
    cases hr'
    rw [e3]
    unfold hubble
    rw [hwi]
  · rw [hw _ hz.1 hz.2]
    simpa using hasDerivAt_const r.z (1 : ℝ)

/-- C34: for any equation of state, at redshifts that are nodes of the internal table: the stored derivative belongs to
the dark energy whose equation of state is the tabulated one. -/
theorem C34_conformal_derivative_node (hQ : Q.Exact) (h : background_init Q solve p = .ok t) (i : ℕ) (r : BgRow)
    (hr : t.load i = .ok r) (hE : r.Hz ≠ 0) (j : ℕ) (hj : 0 < j) (hj' : j < de_bins) (hz : r.z = de_z j) :
    de_w p r.z = eos p r.z ∧
    r.Hz = hubble p (fun z => Real.exp (3 * ∫ x in (0 : ℝ)..z, (1 + de_w p x) / (1 + x))) r.z ∧
    ∃ d, HasDerivAt (fun z => hubble p (fun z => Real.exp (3 * ∫ x in (0 : ℝ)..z, (1 + de_w p x) / (1 + x))) z / (1 + z))
      d r.z ∧ r.conformal_Hz_prime = - r.Hz * d := by
  have hz0 : 0 < de_z j := by rw [← de_z_zero]; exact de_z_strictMono hj
  have hz1 : de_z j < 100 := by
    rw [← de_z_last]; exact de_z_strictMono (by omega)
  have hc : ContinuousOn (fun x => (1 + de_w p x) / (1 + x)) (Icc 0 100) :=
    ((continuousOn_const.add de_w_continuousOn).div (by fun_prop) fun x hx => by have := hx.1; positivity)
  have hcz : ContinuousOn (fun x => (1 + de_w p x) / (1 + x)) (uIcc 0 (de_z j)) := by
    rw [uIcc_of_le hz0.le]; exact hc.mono (Icc_subset_Icc le_rfl hz1.le)
  have hnode : de_wint Q p (de_z j) = Real.exp (3 * ∫ x in (0 : ℝ)..de_z j, (1 + de_w p x) / (1 + x)) := by
    unfold de_wint
    rw [interp_node de_z_strictMono (by omega) (by norm_num [de_bins])]
    rw [hQ (integrand_w p) 0 (de_z j) hcz]
    rfl
  refine ⟨?_, ?_, ?_⟩
  · rw [hz]
    unfold de_w
    rw [interp_node de_z_strictMono (by omega) (by norm_num [de_bins])]
    rfl
  · obtain ⟨hd, hall⟩ := C34_rows h
    obtain ⟨r', hr', -, -, e3, -⟩ := hall i ((hd i).1 (Buf.load_eq.1 hr).1)
    rw [hr] at hr'
    cases hr'
    rw [e3, hz]
    unfold hubble
    rw [hnode]
  · refine C34_conformal_derivative h i r hr _ ?_ ?_ hE
    · rw [hz]
      have hnb : Icc (0 : ℝ) 100 ∈ nhds (de_z j) := Icc_mem_nhds hz0 hz1
      have hd := intervalIntegral.integral_hasDerivAt_right hcz.intervalIntegrable
        (hc.stronglyMeasurableAtFilter_nhdsWithin measurableSet_Icc (de_z j) |>.filter_mono
          (by rw [nhdsWithin_eq_nhds.2 hnb])) (hc.continuousAt hnb)
      refine ((hd.const_mul 3).exp).congr_deriv ?_
      ring
    · rw [hz, hnode]

/-! ## From Python -/

/-- C34 (expansion rate today), through the Python object: after any history of consistent assignments the rate is that of
the densities without the neutrinos. -/
theorem C34_python_partial (N : Num) (ops : List Op) (s : PyObj) (ok : OkRun N consistentSet ops (fresh PyPar.default))
    (hs : run N ops (fresh PyPar.default) = some s) (hh : 0 < s.par.h) (Q : Integrator) (hQ : ∀ f, Q f 0 0 = 0)
    (solve : ℕ → ℝ → ℝ × ℝ) (t : Buf ℕ BgRow)
    (h : background_init Q solve (s.par.bgView.toPar N.akima) = .ok t) :
    ∃ r, t.load 0 = .ok r ∧ r.z = 0 ∧ r.Hz = s.par.h / 2997.92458 * Real.sqrt (1 - s.par.Omega0_nu) ∧
      (r.Hz = s.par.h / 2997.92458 ↔ s.par.m_ncdm = 0) := by
  obtain ⟨hF, hM, hN⟩ := C03_matter_closes_partial N ops s ok hs
  obtain ⟨r, hr, hz, -, -, -, -, hH⟩ := C34_today hQ h
  obtain ⟨r', hr', -, hiff⟩ := C34_expansion_rate hQ (show 0 < (s.par.bgView.toPar N.akima).h from hh) h
  rw [hr] at hr'
  cases hr'
  have hsum : s.par.Omega0_cdm + s.par.Omega0_baryon + s.par.Omega0_gamma + s.par.Omega0_de = 1 - s.par.Omega0_nu := by
    have a : s.par.Omega0_de = 1 - s.par.Omega0_m - s.par.Omega0_gamma := hF
    have b : s.par.Omega0_m = s.par.Omega0_cdm + s.par.Omega0_baryon + s.par.Omega0_nu := hM
    linarith
  refine ⟨r, hr, hz, ?_, ?_⟩
  · rw [hH]
    show s.par.h / 2997.92458 * Real.sqrt (s.par.Omega0_cdm + s.par.Omega0_baryon + s.par.Omega0_gamma + s.par.Omega0_de) = _
    rw [hsum]
  · have hiff' : r.Hz = s.par.h / 2997.92458 ↔
        s.par.Omega0_cdm + s.par.Omega0_baryon + s.par.Omega0_gamma + s.par.Omega0_de = 1 := hiff
    rw [hiff', hsum]
    have hN' : (s.par.m_ncdm = 0 ∧ s.par.Omega0_nu = 0) ∨
        (s.par.h ≠ 0 ∧ s.par.Omega0_nu = s.par.m_ncdm / 93.14 / s.par.h ^ 2) := hN
    rcases hN' with ⟨a, b⟩ | ⟨-, b⟩
    · simp [a, b]
    · rw [b]
      have : (93.14 : ℝ) ≠ 0 := by norm_num
      constructor
      · intro e
        have e' : s.par.m_ncdm / 93.14 / s.par.h ^ 2 = 0 := by linarith
        have h2 : s.par.h ^ 2 ≠ 0 := by positivity
        simpa [this, h2] using e'
      · intro e; rw [e]; simp

/-- The exact integral, as an integrator. -/
noncomputable def exactQ : Integrator := fun f a b => ∫ x in a..b, f x

theorem exactQ_exact : exactQ.Exact := fun _ _ _ _ => rfl

theorem exactQ_empty (f : ℝ → ℝ) : exactQ f 0 0 = 0 := intervalIntegral.integral_same

theorem set_m_ncdm_bins (s : PyObj) (x : ℝ) (hx : -100 ≤ x ∧ x ≤ 100) (h0 : s.par.h ≠ 0) (hne : ¬ allclose x s.par.m_ncdm) :
    ∃ s', setattr .m_ncdm (.float x) s = (.ok (), s') ∧ s'.par.background_bins = s.par.background_bins := by
  unfold setattr
  refine ⟨_, (guarded_run (Or.inl rfl) hx.1 hx.2 hne).trans
    ((Py.bind_ok (s' := s.upd fun p => { p with m_ncdm := x }) (Py.modify_eq _ s)).trans
    ((Py.bind_ok (Py.get_eq _)).trans ((congrFun (if_neg h0) _).trans (Py.modify_eq _ _)))), rfl⟩

/-- C34 (expansion rate today) fails for massive neutrinos: a neutrino mass of 1 eV is set on a new object, all densities
including the neutrinos add up to one, and the tabulated rate today is not `h / 2997.92458`. -/
theorem C34_neutrinos_false :
    ¬ ∀ (N : Num) (ops : List Op) (s : PyObj) (t : Buf ℕ BgRow) (r : BgRow), run N ops (fresh PyPar.default) = some s →
      s.dens.Flat → s.dens.Matter →
      background_init exactQ (fun _ _ => (1, 1)) (s.par.bgView.toPar N.akima) = .ok t → t.load 0 = .ok r →
      r.Hz = s.par.h / 2997.92458 := by
  intro H
  have hh0 : (fresh PyPar.default).par.h ≠ 0 := by show (0.67 : ℝ) ≠ 0; norm_num
  have hm0 : ¬ allclose 1 (fresh PyPar.default).par.m_ncdm := by
    show ¬ allclose 1 (0 : ℝ); unfold allclose; norm_num
  obtain ⟨s1, h1, e1⟩ := set_m_ncdm (fresh PyPar.default) 1 (by norm_num) hh0 hm0
  obtain ⟨s2, h2, hbins⟩ := set_m_ncdm_bins (fresh PyPar.default) 1 (by norm_num) hh0 hm0
  obtain rfl : s1 = s2 := congrArg Prod.snd (h1.symm.trans h2)
  rw [default_dens] at e1
  have hops : run wNum [.setattr (.settable .m_ncdm) (.float 1)] (fresh PyPar.default) = some s1 := by
    rw [run_setattr h1]; rfl
  have c1 : s1.par.Omega0_cdm = 0.3 - 0.05 - 1 / 93.14 / 0.67 / 0.67 := congrArg Dens.cdm e1
  have c2 : s1.par.Omega0_baryon = 0.05 := congrArg Dens.baryon e1
  have c3 : s1.par.Omega0_gamma = 9e-5 := congrArg Dens.gamma e1
  have c4 : s1.par.Omega0_de = 1 - 0.3 - 9e-5 := congrArg Dens.de e1
  have c5 : s1.par.h = 0.67 := congrArg Dens.h e1
  have hexp : (s1.par.bgView.toPar wNum.akima).Expanding := by
    refine ⟨?_, ?_, ?_, ?_, ?_⟩
    · show 0 < s1.par.h; rw [c5]; norm_num
    · show 0 ≤ s1.par.Omega0_cdm + s1.par.Omega0_baryon; rw [c1, c2]; norm_num
    · show 0 ≤ s1.par.Omega0_gamma; rw [c3]; norm_num
    · show 0 ≤ s1.par.Omega0_de; rw [c4]; norm_num
    · show 0 < s1.par.Omega0_cdm + s1.par.Omega0_baryon + s1.par.Omega0_gamma + s1.par.Omega0_de
      rw [c1, c2, c3, c4]; norm_num
  have hb : 5 ≤ (s1.par.bgView.toPar wNum.akima).background_bins := by
    show 5 ≤ s1.par.background_bins.toNat
    rw [hbins]
    show 5 ≤ (10000 : ℤ).toNat
    decide
  obtain ⟨t, ht⟩ := C34_success (solve := fun _ _ => (1, 1)) exactQ_exact hexp hb (fun _ _ => one_ne_zero)
  obtain ⟨r, hr, -, hiff⟩ := C34_expansion_rate exactQ_empty hexp.h ht
  have := H wNum _ s1 t r hops (by unfold Dens.Flat; rw [e1]) (by unfold Dens.Matter; rw [e1]; norm_num) ht hr
  have h2 : s1.par.Omega0_cdm + s1.par.Omega0_baryon + s1.par.Omega0_gamma + s1.par.Omega0_de = 1 := hiff.1 this
  rw [c1, c2, c3, c4] at h2
  norm_num at h2

/-- The parameters of a new object. -/
noncomputable def wBgPar : BgPar := (PyPar.default).bgView.toPar wNum.akima

theorem wBgPar_expanding : wBgPar.Expanding := by
  refine ⟨?_, ?_, ?_, ?_, ?_⟩
  · show (0 : ℝ) < 0.67; norm_num
  · show (0 : ℝ) ≤ 0.3 - 0.05 - 0 + 0.05; norm_num
  · show (0 : ℝ) ≤ 9e-5; norm_num
  · show (0 : ℝ) ≤ 1 - (0.3 + 9e-5); norm_num
  · show (0 : ℝ) < 0.3 - 0.05 - 0 + 0.05 + 9e-5 + (1 - (0.3 + 9e-5)); norm_num

/-- Non-vacuity of the theorems on C34 and C49: the stage succeeds for the parameters of a new object, with exact
quadrature. -/
theorem wBg_success : ∃ t, background_init exactQ (fun _ _ => (1, 1)) wBgPar = .ok t :=
  C34_success exactQ_exact wBgPar_expanding (by show 5 ≤ (10000 : ℤ).toNat; decide) fun _ _ => one_ne_zero

/-- … its rate today is `0.67 / 2997.92458`, and the second distance is larger than the first. -/
example : ∃ t r s, background_init exactQ (fun _ _ => (1, 1)) wBgPar = .ok t ∧ t.load 0 = .ok r ∧ t.load 1 = .ok s ∧
    r.Hz = 0.67 / 2997.92458 ∧ 0 < s.comoving_distance := by
  obtain ⟨t, ht⟩ := wBg_success
  obtain ⟨r, hr, hz, hiff⟩ := C34_expansion_rate exactQ_empty wBgPar_expanding.h ht
  obtain ⟨r', s, hr', hs, -, hlt⟩ := C49_increasing exactQ_exact wBgPar_expanding ht 0 1 (by norm_num)
    (by show 1 < (10000 : ℤ).toNat; decide)
  obtain ⟨r2, hr2, -, -, -, h0, -⟩ := C34_today exactQ_empty ht
  rw [hr] at hr' hr2
  cases hr'
  cases hr2
  refine ⟨t, r, s, ht, hr, hs, hiff.2 ?_, by rw [h0] at hlt; exact hlt⟩
  show (0.3 - 0.05 - 0 + 0.05 + 9e-5 + (1 - (0.3 + 9e-5)) : ℝ) = 1
  norm_num

/-- C50, proved for at least five redshifts and an expanding universe.  Missing: smaller tables, for which the claim is
false (`C50_few_redshifts_false`), and negative densities or `h = 0`. -/
theorem C50_partial (Q : Integrator) (hQ : Q.Exact) (solve : ℕ → ℝ → ℝ × ℝ) (hs : ∀ i a, (solve i a).1 ≠ 0) (p : BgPar)
    (hp : p.Expanding) (n : ℕ) (hn : 5 ≤ n) : ∃ t, background_init Q solve { p with background_bins := n } = .ok t :=
  C34_success hQ ⟨hp.h, hp.m, hp.g, hp.de, hp.some⟩ hn hs

/-- C50 fails for small tables: every number of redshifts below five, all of them accepted by the setter, ends in undefined
behaviour or produces NaN. -/
theorem C50_few_redshifts_false (Q : Integrator) (solve : ℕ → ℝ → ℝ × ℝ) (p : BgPar) (h : p.background_bins < 5) :
    ¬ ∃ t, background_init Q solve p = .ok t := by
  rintro ⟨t, ht⟩
  have := (background_init_inv ht).2
  omega

/-- … an empty table: the first element is read although there is none. -/
theorem C50_no_redshift_false (Q : Integrator) (solve : ℕ → ℝ → ℝ × ℝ) (p : BgPar) (h : p.background_bins = 0) :
    background_init Q solve p = .error .oob := by
  unfold background_init background_rows
  rw [h]
  simp [upTo, cfor, cmalloc, Buf.load, Buf.new, bind, Except.bind]

/-! ## The growth equation -/

/-- C35: the first row, the derivative of the second equation with respect to the growth factor, and the explicit
dependence of the first equation on `a` are right. -/
theorem C35_jacobian_partial (w xint xint' : ℝ → ℝ) (a : ℝ) (y : ℝ × ℝ) :
    HasDerivAt (fun u => (growth_rate_ode w xint a (u, y.2)).1) (growth_rate_jac w xint xint' a y).1.1.1 y.1 ∧
    HasDerivAt (fun u => (growth_rate_ode w xint a (y.1, u)).1) (growth_rate_jac w xint xint' a y).1.1.2 y.2 ∧
    HasDerivAt (fun u => (growth_rate_ode w xint a (u, y.2)).2) (growth_rate_jac w xint xint' a y).1.2.1 y.1 ∧
    HasDerivAt (fun u => (growth_rate_ode w xint u y).1) (growth_rate_jac w xint xint' a y).2.1 a := by
  unfold growth_rate_ode growth_rate_jac
  dsimp only
  refine ⟨hasDerivAt_const _ _, hasDerivAt_id _, ?_, hasDerivAt_const _ _⟩
  have := (((hasDerivAt_id y.1).const_mul (3 / 2 * xint (1 / a - 1) / (1 + xint (1 / a - 1)))).div_const (a ^ 2)).const_add
    (-3 / 2 * (1 - w (1 / a - 1) / (1 + xint (1 / a - 1))) * y.2 / a)
  refine this.congr_deriv ?_
  ring

/-- C35: the remaining entry of the matrix is the partial derivative exactly if `(1 - w / (1 + x)) ^ 2 = 1`. -/
theorem C35_damping_iff (w xint xint' : ℝ → ℝ) (a : ℝ) (y : ℝ × ℝ) (ha : a ≠ 0)
    (hw : 1 - w (1 / a - 1) / (1 + xint (1 / a - 1)) ≠ 0) :
    HasDerivAt (fun u => (growth_rate_ode w xint a (y.1, u)).2) (growth_rate_jac w xint xint' a y).1.2.2 y.2 ↔
      (1 - w (1 / a - 1) / (1 + xint (1 / a - 1))) ^ 2 = 1 := by
  have hd : HasDerivAt (fun u => (growth_rate_ode w xint a (y.1, u)).2)
      (-3 / 2 * (1 - w (1 / a - 1) / (1 + xint (1 / a - 1))) / a) y.2 := by
    unfold growth_rate_ode
    dsimp only
    have := (((hasDerivAt_id y.2).const_mul (-3 / 2 * (1 - w (1 / a - 1) / (1 + xint (1 / a - 1))))).div_const a).add_const
      (3 / 2 * xint (1 / a - 1) / (1 + xint (1 / a - 1)) * y.1 / a ^ 2)
    refine this.congr_deriv ?_
    ring
  have he : (growth_rate_jac w xint xint' a y).1.2.2 = -3 / a / 2 / (1 - w (1 / a - 1) / (1 + xint (1 / a - 1))) := rfl
  rw [he]
  generalize 1 - w (1 / a - 1) / (1 + xint (1 / a - 1)) = k at *
  constructor
  · intro h
    have e := h.unique hd
    field_simp at e
    linarith
  · intro h
    refine hd.congr_deriv ?_
    field_simp
    linarith

/-- C35 fails: for a new object, today, the damping entry of the Jacobian is not the partial derivative. -/
theorem C35_damping_false : ¬ ∀ (Q : Integrator) (p : BgPar) (xint' : ℝ → ℝ) (a : ℝ) (y : ℝ × ℝ), 0 < a → a ≤ 1 →
    HasDerivAt (fun u => (growth_rate_ode (de_w p) (de_xint Q p) a (y.1, u)).2)
      (growth_rate_jac (de_w p) (de_xint Q p) xint' a y).1.2.2 y.2 := by
  intro H
  have hw : de_w wBgPar (1 / 1 - 1) = -1 := by
    have := interp_node (ya := fun i => coffe_dark_energy_eos wBgPar (de_z i)) de_z_strictMono (n := de_bins + 1) (i := 0)
      (by omega) (by norm_num [de_bins])
    rw [de_z_zero] at this
    rw [show (1 / 1 - 1 : ℝ) = 0 by norm_num]
    unfold de_w
    rw [this]
    show (-1 : ℝ) + 0 * 0 / (1 + 0) = -1
    norm_num
  have hx : de_xint exactQ wBgPar (1 / 1 - 1) = 0.3 / 0.7 := by
    have := interp_node (ya := fun i =>
      if i ≠ 0 then
        (wBgPar.Omega0_cdm + wBgPar.Omega0_baryon) / (1 - (wBgPar.Omega0_cdm + wBgPar.Omega0_baryon))
          * Real.exp (-3 * exactQ (integrand_x wBgPar) (1 / (1 + de_z i)) 1)
      else (wBgPar.Omega0_cdm + wBgPar.Omega0_baryon) / (1 - (wBgPar.Omega0_cdm + wBgPar.Omega0_baryon)))
      de_z_strictMono (n := de_bins + 1) (i := 0) (by omega) (by norm_num [de_bins])
    rw [de_z_zero] at this
    rw [show (1 / 1 - 1 : ℝ) = 0 by norm_num]
    unfold de_xint
    refine this.trans ?_
    rw [if_neg (by simp)]
    show ((0.3 - 0.05 - 0 : ℝ) + 0.05) / (1 - ((0.3 - 0.05 - 0) + 0.05)) = _
    norm_num
  have h := H exactQ wBgPar (fun _ => 0) 1 (0, 0) one_pos le_rfl
  rw [C35_damping_iff _ _ _ _ _ one_ne_zero (by rw [hw, hx]; norm_num), hw, hx] at h
  norm_num at h

/-- C35: the explicit dependence of the second equation on `a`, for constant tables and no velocity. -/
theorem C35_time_partial (w0 x0 a y : ℝ) (ha : a ≠ 0) (hx : 1 + x0 ≠ 0) :
    HasDerivAt (fun u => (growth_rate_ode (fun _ => w0) (fun _ => x0) u (y, 0)).2)
      (growth_rate_jac (fun _ => w0) (fun _ => x0) (fun _ => 0) a (y, 0)).2.2 a := by
  unfold growth_rate_ode growth_rate_jac
  dsimp only
  have hd : HasDerivAt (fun u : ℝ => 3 / 2 * x0 / (1 + x0) * y / u ^ 2)
      ((0 * a ^ 2 - 3 / 2 * x0 / (1 + x0) * y * (2 * a ^ 1 * 1)) / (a ^ 2) ^ 2) a := by
    have := (hasDerivAt_const a (3 / 2 * x0 / (1 + x0) * y)).div ((hasDerivAt_id a).pow 2) (pow_ne_zero 2 ha)
    refine HasDerivAt.congr_deriv (f := fun u : ℝ => 3 / 2 * x0 / (1 + x0) * y / u ^ 2) this ?_
    simp
  have he : (fun u : ℝ => -3 / 2 * (1 - w0 / (1 + x0)) * 0 / u + 3 / 2 * x0 / (1 + x0) * y / u ^ 2) =
      fun u => 3 / 2 * x0 / (1 + x0) * y / u ^ 2 := by funext u; simp
  rw [he]
  refine hd.congr_deriv ?_
  field_simp
  ring

/-- C35 fails for the explicit dependence on `a`: constant tables with a velocity … -/
theorem C35_time_false : ¬ ∀ (w0 x0 a y1 y2 : ℝ), 0 < a → 0 ≤ x0 → w0 < 0 →
    HasDerivAt (fun u => (growth_rate_ode (fun _ => w0) (fun _ => x0) u (y1, y2)).2)
      (growth_rate_jac (fun _ => w0) (fun _ => x0) (fun _ => 0) a (y1, y2)).2.2 a := by
  intro H
  have h := H (-1) 1 1 0 1 one_pos one_pos.le (by norm_num)
  have hd : HasDerivAt (fun u : ℝ => (growth_rate_ode (fun _ => -1) (fun _ => 1) u (0, 1)).2) (9 / 4) 1 := by
    unfold growth_rate_ode
    dsimp only
    have e : (fun u : ℝ => -3 / 2 * (1 - -1 / (1 + 1)) * 1 / u + 3 / 2 * 1 / (1 + 1) * 0 / u ^ 2) =
        fun u : ℝ => -9 / 4 * u⁻¹ := by funext u; ring
    rw [e]
    refine ((hasDerivAt_inv one_ne_zero).const_mul (-9 / 4)).congr_deriv ?_
    norm_num
  have := h.unique hd
  unfold growth_rate_jac at this
  norm_num at this

/-- … and tables that vary, without velocity: the factor `-1 / a ^ 2` of the chain rule is missing. -/
theorem C35_chain_false : ¬ ∀ (x x' : ℝ → ℝ) (a y1 : ℝ), 0 < a → (∀ z, HasDerivAt x (x' z) z) → 0 < x (1 / a - 1) →
    HasDerivAt (fun u => (growth_rate_ode (fun _ => -1) x u (y1, 0)).2)
      (growth_rate_jac (fun _ => -1) x x' a (y1, 0)).2.2 a := by
  intro H
  have h := H (fun z => z) (fun _ => 1) (1 / 2) 1 (by norm_num) (fun z => hasDerivAt_id z) (by norm_num)
  have hd : HasDerivAt (fun u : ℝ => (growth_rate_ode (fun _ => -1) (fun z => z) u (1, 0)).2) (-18) (1 / 2) := by
    unfold growth_rate_ode
    dsimp only
    have e : ∀ u : ℝ, u ≠ 0 → -3 / 2 * (1 - -1 / (1 + (1 / u - 1))) * 0 / u + 3 / 2 * (1 / u - 1) / (1 + (1 / u - 1)) * 1 / u ^ 2
        = 3 / 2 * (u⁻¹ ^ 2 - u⁻¹) := by
      intro u hu; field_simp; ring
    have hi := hasDerivAt_inv (x := (1 / 2 : ℝ)) (by norm_num)
    have hg : HasDerivAt (fun u : ℝ => 3 / 2 * (u⁻¹ ^ 2 - u⁻¹)) (-18) (1 / 2) := by
      refine (((hi.pow 2).sub hi).const_mul (3 / 2)).congr_deriv ?_
      norm_num
    refine hg.congr_of_eventuallyEq ?_
    filter_upwards [isOpen_ne.mem_nhds (show (1 / 2 : ℝ) ≠ 0 by norm_num)] with u hu
    exact e u hu
  have := h.unique hd
  unfold growth_rate_jac at this
  norm_num at this

end Coffe
