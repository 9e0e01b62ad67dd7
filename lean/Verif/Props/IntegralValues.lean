import Verif.Proofs.IntegralValues
import Verif.Spec.IntegralValues
import Verif.Props.Twofast
import Verif.Model.Signal.DoubleIntegrated

/-!
# C52, C63: the values of the tables at zero separation
-/

namespace Coffe
open Filter Topology Set

/-! ## The limit of zero separation -/

/-- Orders of the tables that are looked up: a spherical Bessel function, or a cylindrical one of the order `(l + 1) / 2`. -/
def Key.Regular (e : Key) : Prop :=
  (e.state_n = .int ∧ e.state_l = .int ∧ 0 ≤ e.l) ∨ (e.state_n = .half ∧ e.state_l = .half ∧ ∃ m : ℕ, e.l = 2 * m - 1)

/-- C52: the value stored at zero separation is the limit of the values at small separations, for every continuous spectrum
and all orders that are looked up. -/
theorem C52_limit (P : ℝ → ℝ) (e : Key) (he : e.Regular) {kmin kmax : ℝ} (h0 : 0 < kmin) (h1 : kmin ≤ kmax)
    (hP : ContinuousOn P (Icc kmin kmax)) :
    Tendsto (direct_value exactQuad P e kmin kmax) (𝓝[>] 0)
      (𝓝 (if integrals_local e.n e.state_n < integrals_local e.l e.state_l then 0
        else zero_separation_value exactQuad P e kmin kmax * integrals_coefficients e.l e.state_l)) := by
  obtain ⟨n, l, sn, sl⟩ := e
  simp only [Key.Regular] at he
  rcases he with ⟨rfl, rfl, hl⟩ | ⟨rfl, rfl, m, rfl⟩
  · obtain ⟨l, rfl⟩ := Int.eq_ofNat_of_zero_le hl
    have h := (tendsto_integrand (s := 1) (a := n) h0 h1 hP (continuous_jl l) (tendsto_jl l)).div_const 2
      |>.div_const Real.pi |>.div_const Real.pi
    have e1 : integrals_local n .int = n := by simp [integrals_local]
    have e2 : integrals_local (l : ℤ) .int = l := by simp [integrals_local]
    have e3 : integrals_coefficients (l : ℤ) .int = 1 / (Nat.doubleFactorial (2 * l + 1) : ℝ) := C52_spherical l
    refine (h.congr' (eventually_nhdsWithin_of_forall fun r hr => ?_)).trans (le_of_eq ?_)
    · have hr : 0 < r := hr
      simp only [direct_value, integrals_integrate_function, integrals_bessel_integrand, e1, e2, exactQuad, reduceCtorEq,
        if_false, Int.ofNat_eq_natCast, Int.toNat_natCast, one_mul]
      by_cases hnl : (n : ℝ) ≥ l
      · rw [if_pos hnl, if_pos ⟨hnl, hr⟩]
      · rw [if_neg hnl, if_neg fun h => hnl h.1, mul_one]
    · congr 1
      simp only [Int.ofNat_eq_natCast, e1, e2, e3, zero_separation_value, integrals_integrate_function, integrals_prefactor, exactQuad,
        reduceCtorEq, false_and, if_false, gt_iff_lt, lt_irrefl, and_false, one_mul]
      by_cases hnl : (n : ℝ) ≥ l
      · rw [if_pos hnl, if_neg (not_lt.2 hnl)]; ring
      · rw [if_neg hnl, if_pos (not_le.1 hnl)]; ring
  · have h := (tendsto_integrand (s := Real.sqrt (Real.pi / 2)) (a := (n : ℝ) / 2 + 0.5) h0 h1 hP (continuous_Jn m)
      (tendsto_Jn m)).div_const 2 |>.div_const Real.pi |>.div_const Real.pi
    have e1 : integrals_local n .half = (n : ℝ) / 2 := by simp [integrals_local]
    have e2 : integrals_local (2 * m - 1) .half = m - 0.5 := by
      simp only [integrals_local, if_true]; push_cast; ring
    have e3 := C52_cylindrical m
    have e4 : ((2 * (m : ℤ) - 1 + 1).tdiv 2).toNat = m := by
      rw [sub_add_cancel, Int.mul_tdiv_cancel_left _ (by norm_num), Int.toNat_natCast]
    have e5 : (n : ℝ) / 2 ≥ m - 0.5 ↔ (n : ℝ) / 2 + 0.5 ≥ m := by constructor <;> intro h <;> linarith
    refine (h.congr' (eventually_nhdsWithin_of_forall fun r hr => ?_)).trans (le_of_eq ?_)
    · have hr : 0 < r := hr
      simp only [direct_value, integrals_integrate_function, integrals_bessel_integrand, e1, e2, e4, exactQuad, if_true]
      by_cases hnl : (n : ℝ) / 2 + 0.5 ≥ m
      · rw [if_pos hnl, if_pos ⟨e5.2 hnl, hr⟩, show (n : ℝ) / 2 + 0.5 - m = (n : ℝ) / 2 - (m - 0.5) by ring]
      · rw [if_neg hnl, if_neg fun h => hnl (e5.1 h.1), mul_one]
    · congr 1
      simp only [e1, e2, e3, zero_separation_value, integrals_integrate_function, integrals_prefactor, exactQuad,
        and_self, if_true, gt_iff_lt, lt_irrefl, and_false, if_false]
      by_cases hnl : (n : ℝ) / 2 + 0.5 ≥ m
      · rw [if_pos hnl, if_neg (not_lt.2 (e5.2 hnl)), show 2 + (m : ℝ) - ((n : ℝ) / 2 + 0.5) = 2 + (m - 0.5) - (n : ℝ) / 2 by ring]
        ring
      · rw [if_neg hnl, if_pos (not_le.1 (fun h => hnl (e5.1 h)))]; ring

/-- C52 applies to every entry of the table of integrals for even multipoles. -/
theorem C52_table (num : Key → Integral) (par : Par) (ls : List ℕ) (hls : ∀ l ∈ ls, l % 2 = 0) :
    ∀ e ∈ integrals_init num par ls, e.key.Regular := by
  intro e he
  unfold integrals_init at he
  simp only [List.mem_append] at he
  rcases he with (((he | he) | he) | he) | he
  · simp only [baseKeys, List.map_cons, List.map_nil, List.mem_cons, List.not_mem_nil, or_false] at he
    rcases he with rfl | rfl | rfl | rfl | rfl | rfl | rfl | rfl <;>
      exact Or.inl ⟨rfl, rfl, by simp [plainEntry]⟩
  · split_ifs at he
    · simp only [List.mem_singleton] at he
      subst he
      exact Or.inl ⟨rfl, rfl, le_rfl⟩
    · simp at he
  · split_ifs at he
    · simp only [List.mem_singleton] at he
      subst he
      exact Or.inr ⟨rfl, rfl, 0, by simp [plainEntry]⟩
    · simp at he
  · split_ifs at he
    · simp only [List.mem_map] at he
      obtain ⟨l, -, rfl⟩ := he
      exact Or.inl ⟨rfl, rfl, by simp [plainEntry]⟩
    · simp at he
  · split_ifs at he
    · simp only [List.mem_flatMap, List.mem_map, List.mem_range] at he
      obtain ⟨l, hl, k, hk, rfl⟩ := he
      have := hls l hl
      refine Or.inr ⟨rfl, rfl, l / 2 - k + 1, ?_⟩
      simp only [plainEntry, den_len_entry_key]
      omega
    · simp at he

/-- Non-vacuity: for the entry `n = 2`, `l = 0` and the spectrum `P(k) = 1` the value at zero separation is positive. -/
example : 0 < zero_separation_value exactQuad (fun _ => 1) ⟨2, 0, .int, .int⟩ 1 2 * integrals_coefficients 0 .int := by
  have e : integrals_coefficients 0 .int = 1 := by have := C52_spherical 0; simpa using this
  rw [e]
  simp only [zero_separation_value, integrals_integrate_function, integrals_prefactor, exactQuad, integrals_local]
  have e2 : (∫ x in (1 : ℝ)..2, x ^ (2 + ((0 : ℤ) : ℝ) - ((2 : ℤ) : ℝ)) * 1) = 1 := by
    have : ∀ x : ℝ, x ^ (2 + ((0 : ℤ) : ℝ) - ((2 : ℤ) : ℝ)) * 1 = 1 := fun x => by norm_num
    simp only [this]
    norm_num
  simp only [reduceCtorEq, false_and, if_false, gt_iff_lt, lt_irrefl, and_false, e2]
  have := Real.pi_pos
  positivity

/-! ## Coincident points -/

theorem gsl_sf_bessel_j0_eq (x : ℝ) : gsl_sf_bessel_j0 x = Real.sinc x := by
  unfold gsl_sf_bessel_j0
  by_cases hx : x = 0
  · subst hx
    rw [gsl_sf_bessel_jl_eq, pow_zero, one_mul, show ((0 : ℝ) ^ 2) = 0 by norm_num, tsum_zero_pow, Real.sinc_zero]
    simp [jlCoeff]
  · rw [jl_zero x hx, Real.sinc_of_ne_zero hx]

/-- The tables of the divergent integral off the diagonal: the difference of the two look-ups is the renormalised correlation. -/
theorem C63_off_diagonal (P : ℝ → ℝ) {kmin kmax : ℝ} (h0 : 0 < kmin) (h1 : kmin ≤ kmax)
    (hP : ContinuousOn P (Icc kmin kmax)) {r : ℝ} (hr : 0 < r) (chi1 chi2 : ℝ) :
    direct_value exactQuad P ⟨4, 0, .int, .int⟩ kmin kmax r - integrals_renormalization exactQuad P chi1 chi2 kmin kmax =
      renormalised P kmin kmax r chi1 chi2 := by
  have hpos : ∀ k ∈ uIcc kmin kmax, 0 < k := fun k hk => by rw [uIcc_of_le h1] at hk; exact h0.trans_le hk.1
  have hP' : ContinuousOn P (uIcc kmin kmax) := by rwa [uIcc_of_le h1]
  have hcont : ∀ g : ℝ → ℝ, Continuous g → IntervalIntegrable (fun k => P k * g k / k ^ 2) MeasureTheory.volume kmin kmax :=
    fun g hg => ContinuousOn.intervalIntegrable ((hP'.mul hg.continuousOn).div (continuousOn_id.pow 2) fun k hk =>
      pow_ne_zero 2 (hpos k hk).ne')
  have hs : ∀ c : ℝ, Continuous fun k : ℝ => Real.sinc (k * c) := fun c =>
    Real.continuous_sinc.comp (continuous_id.mul continuous_const)
  have e1 : direct_value exactQuad P ⟨4, 0, .int, .int⟩ kmin kmax r =
      (∫ k in kmin..kmax, P k * Real.sinc (k * r) / k ^ 2) / (2 * Real.pi ^ 2) := by
    simp only [direct_value, integrals_integrate_function, integrals_bessel_integrand, exactQuad, integrals_local, reduceCtorEq, if_false]
    rw [if_pos ⟨by norm_num, hr⟩, ← intervalIntegral.integral_mul_const, div_div, div_div]
    congr 1
    · refine intervalIntegral.integral_congr fun k hk => ?_
      have hk := hpos k hk
      have hkr : (k * r) ^ (((4 : ℤ)) : ℝ) = k ^ 4 * r ^ 4 := by
        rw [Real.rpow_intCast, ← mul_pow]; rfl
      have hr4 : r ^ (((4 : ℤ) : ℝ) - ((0 : ℤ) : ℝ)) = r ^ 4 := by
        rw [Int.cast_zero, sub_zero, Real.rpow_intCast]; rfl
      have hj : gsl_sf_bessel_jl (Int.toNat 0) (k * r) = Real.sinc (k * r) := gsl_sf_bessel_j0_eq _
      show k * k * P k * (gsl_sf_bessel_jl (Int.toNat 0) (k * r) / (k * r) ^ (((4 : ℤ)) : ℝ)) * r ^ (((4 : ℤ) : ℝ) - ((0 : ℤ) : ℝ)) = _
      rw [hkr, hr4, hj]
      field_simp
    · ring
  have e2 : integrals_renormalization exactQuad P chi1 chi2 kmin kmax =
      (∫ k in kmin..kmax, P k * (Real.sinc (k * chi1) * Real.sinc (k * chi2)) / k ^ 2) / (2 * Real.pi ^ 2) := by
    simp only [integrals_renormalization, integrals_renormalization_integrand, exactQuad, gsl_sf_bessel_j0_eq]
    rw [div_div, div_div]
    congr 1
    · exact intervalIntegral.integral_congr fun k _ => by ring
    · ring
  rw [e1, e2, ← sub_div, ← intervalIntegral.integral_sub (hcont _ (hs r)) (hcont (fun k => Real.sinc (k * chi1) * Real.sinc (k * chi2)) ((hs chi1).mul (hs chi2)))]
  unfold renormalised
  congr 1
  exact intervalIntegral.integral_congr fun k _ => by ring

/-- The renormalised correlation is continuous in the positions of the two points, and its value for two coincident points at the
distance `chi` is `coincidentPotential`. -/
theorem C63_continuous (P : ℝ → ℝ) {kmin kmax : ℝ} (h0 : 0 < kmin) (h1 : kmin ≤ kmax) (hP : ContinuousOn P (Icc kmin kmax)) :
    Continuous (fun x : ℝ × ℝ × ℝ => renormalised P kmin kmax x.1 x.2.1 x.2.2) ∧
    ∀ chi, renormalised P kmin kmax 0 chi chi = coincidentPotential P kmin kmax chi := by
  have hsub : uIoc kmin kmax ⊆ Icc kmin kmax := by rw [uIoc_of_le h1]; exact Ioc_subset_Icc_self
  constructor
  · unfold renormalised
    refine Continuous.div_const ?_ _
    refine intervalIntegral.continuous_of_dominated_interval (bound := fun k => ‖P k‖ * 2 / k ^ 2) ?_ ?_ ?_ ?_
    · intro x
      refine ContinuousOn.aestronglyMeasurable ?_ measurableSet_uIoc
      have hs : ∀ c : ℝ, Continuous fun k : ℝ => Real.sinc (k * c) := fun c =>
        Real.continuous_sinc.comp (continuous_id.mul continuous_const)
      exact ((hP.mono hsub).mul ((hs _).sub ((hs _).mul (hs _))).continuousOn).div (continuousOn_id.pow 2) fun k hk =>
        pow_ne_zero 2 (h0.trans_le (hsub hk).1).ne'
    · refine fun x => Filter.Eventually.of_forall fun k hk => ?_
      rw [norm_div, norm_mul, norm_pow, Real.norm_eq_abs k, sq_abs]
      refine div_le_div_of_nonneg_right (mul_le_mul_of_nonneg_left ?_ (norm_nonneg _)) (sq_nonneg k)
      have h2 : ∀ y, |Real.sinc y| ≤ 1 := Real.abs_sinc_le_one
      rw [Real.norm_eq_abs]
      calc |Real.sinc (k * x.1) - Real.sinc (k * x.2.1) * Real.sinc (k * x.2.2)|
          ≤ |Real.sinc (k * x.1)| + |Real.sinc (k * x.2.1) * Real.sinc (k * x.2.2)| := abs_sub _ _
        _ ≤ 1 + 1 * 1 := by
          rw [abs_mul]
          exact add_le_add (h2 _) (mul_le_mul (h2 _) (h2 _) (abs_nonneg _) zero_le_one)
        _ = 2 := by norm_num
    · refine ContinuousOn.intervalIntegrable ?_
      rw [uIcc_of_le h1]
      exact (hP.norm.mul continuousOn_const).div (continuousOn_id.pow 2) fun k hk => pow_ne_zero 2 (h0.trans_le hk.1).ne'
    · refine Filter.Eventually.of_forall fun k hk => ?_
      have hs := Real.continuous_sinc
      fun_prop
  · intro chi
    unfold renormalised coincidentPotential
    congr 1
    exact intervalIntegral.integral_congr fun k _ => by simp only [mul_zero, Real.sinc_zero]; ring

/-- What the code stores for two coincident points: the right value times the fourth power of the distance. -/
theorem C63_stored (P : ℝ → ℝ) {kmin kmax : ℝ} : ∀ p ∈ divergent_result0 exactQuad P kmin kmax,
    p.2 = p.1 ^ 4 * coincidentPotential P kmin kmax p.1 := by
  intro p hp
  unfold divergent_result0 at hp
  rcases List.mem_or_eq_of_mem_set hp with hp | rfl
  · obtain ⟨s, hs, rfl⟩ := List.mem_map.1 hp
    have hs0 : (0 : ℚ) < s := by
      have : ∀ s ∈ coffe_sep, (0 : ℚ) < s := by decide +kernel
      exact this s hs
    have hs0' : (0 : ℝ) < s := by exact_mod_cast hs0
    have e4 : (s : ℝ) ^ (((4 : ℤ) : ℝ) - ((0 : ℤ) : ℝ)) = (s : ℝ) ^ 4 := by
      rw [Int.cast_zero, sub_zero, Real.rpow_intCast]; rfl
    simp only [integrals_integrate_function, integrals_local, reduceCtorEq, if_false, exactQuad, coincidentPotential]
    rw [if_pos ⟨by norm_num, hs0'⟩, e4]
    have : (∫ x in kmin..kmax, integrals_renormalization0_integrand P s x) =
        ∫ k in kmin..kmax, P k * (1 - Real.sinc (k * s) ^ 2) / k ^ 2 :=
      intervalIntegral.integral_congr fun k _ => by
        simp only [integrals_renormalization0_integrand, gsl_sf_bessel_j0_eq]; ring
    rw [this]
    ring
  · simp

/-- What the code stores for the divergent integral: at every separation of the table, less the stored renormalisation,
it is the renormalised correlation. -/
theorem C63_divergent_stored (P : ℝ → ℝ) {kmin kmax : ℝ} (h0 : 0 < kmin) (h1 : kmin ≤ kmax)
    (hP : ContinuousOn P (Icc kmin kmax)) (chi1 chi2 : ℝ) : ∀ p ∈ divergent_result exactQuad P kmin kmax,
    p.2 - integrals_renormalization exactQuad P chi1 chi2 kmin kmax = renormalised P kmin kmax p.1 chi1 chi2 := by
  intro p hp
  obtain ⟨s, hs, rfl⟩ := List.mem_map.1 hp
  have hs0 : (0 : ℚ) < s := by
    have : ∀ s ∈ coffe_sep, (0 : ℚ) < s := by decide +kernel
    exact this s hs
  exact C63_off_diagonal P h0 h1 hP (by exact_mod_cast hs0) chi1 chi2

theorem sinc_sq_lt_one {x : ℝ} (hx : 0 < x) : Real.sinc x ^ 2 < 1 := by
  rw [Real.sinc_of_ne_zero hx.ne', div_pow, div_lt_one (pow_pos hx 2)]
  refine sq_lt_sq' ?_ (Real.sin_lt hx)
  rcases le_or_gt x 1 with h | h
  · linarith [Real.sin_pos_of_pos_of_le_one hx h]
  · linarith [Real.neg_one_le_sin x]

theorem coincident_pos {P : ℝ → ℝ} {kmin kmax : ℝ} (h0 : 0 < kmin) (h1 : kmin < kmax) (hP : ContinuousOn P (Icc kmin kmax))
    (hpos : ∀ k ∈ Icc kmin kmax, 0 < P k) {chi : ℝ} (hc : 0 < chi) : 0 < coincidentPotential P kmin kmax chi := by
  unfold coincidentPotential
  refine div_pos (intervalIntegral.intervalIntegral_pos_of_pos_on ?_ (fun k hk => ?_) h1) (by have := Real.pi_pos; positivity)
  · refine ContinuousOn.intervalIntegrable ?_
    rw [uIcc_of_le h1.le]
    have hs : Continuous fun k : ℝ => Real.sinc (k * chi) := Real.continuous_sinc.comp (continuous_id.mul continuous_const)
    exact (hP.mul (continuous_const.sub (hs.pow 2)).continuousOn).div (continuousOn_id.pow 2) fun k hk =>
      pow_ne_zero 2 (h0.trans_le hk.1).ne'
  · have hk0 : 0 < k := h0.trans hk.1
    have := sinc_sq_lt_one (mul_pos hk0 hc)
    exact div_pos (mul_pos (hpos k ⟨hk.1.le, hk.2.le⟩) (by linarith)) (pow_pos hk0 2)

/-- C63 is false: for every positive continuous spectrum and all separations of the table except 0 and 1 the stored value differs
from the limit of the renormalised correlation. -/
theorem C63_false (P : ℝ → ℝ) {kmin kmax : ℝ} (h0 : 0 < kmin) (h1 : kmin < kmax) (hP : ContinuousOn P (Icc kmin kmax))
    (hpos : ∀ k ∈ Icc kmin kmax, 0 < P k) : ∀ p ∈ divergent_result0 exactQuad P kmin kmax, p.1 ≠ 0 → p.1 ≠ 1 →
      ¬ Tendsto (fun x : ℝ × ℝ × ℝ => renormalised P kmin kmax x.1 x.2.1 x.2.2) (𝓝 (0, p.1, p.1)) (𝓝 p.2) := by
  intro p hp hp0 hp1 hlim
  have hc := C63_continuous P h0 h1.le hP
  have e := tendsto_nhds_unique hlim (hc.1.tendsto (0, p.1, p.1))
  simp only [hc.2] at e
  rw [C63_stored P p hp] at e
  have hpp : 0 < p.1 := by
    rcases List.mem_or_eq_of_mem_set hp with hp | rfl
    · obtain ⟨s, hs, rfl⟩ := List.mem_map.1 hp
      have hs0 : (0 : ℚ) < s := by
        have : ∀ s ∈ coffe_sep, (0 : ℚ) < s := by decide +kernel
        exact this s hs
      show (0 : ℝ) < (s : ℝ)
      exact_mod_cast hs0
    · exact absurd rfl hp0
  have hcp := coincident_pos h0 h1 hP hpos hpp
  have h4 : p.1 ^ 4 = 1 := by
    have : p.1 ^ 4 * coincidentPotential P kmin kmax p.1 = 1 * coincidentPotential P kmin kmax p.1 := by rw [e, one_mul]
    exact mul_right_cancel₀ hcp.ne' this
  exact hp1 ((pow_eq_one_iff_of_nonneg hpp.le (by norm_num)).1 h4)

/-- The table has such a separation: 1000 Mpc, where the stored value is too large by a factor of 10¹². -/
theorem C63_example (P : ℝ → ℝ) (kmin kmax : ℝ) :
    (1000, (10 : ℝ) ^ 12 * coincidentPotential P kmin kmax 1000) ∈ divergent_result0 exactQuad P kmin kmax := by
  have hi : coffe_sep[170]? = some 1000 := by decide +kernel
  have hm : ∃ v, ((1000 : ℝ), v) ∈ divergent_result0 exactQuad P kmin kmax := by
    refine ⟨integrals_integrate_function exactQuad (integrals_renormalization0_integrand P ((1000 : ℚ) : ℝ)) ⟨4, 0, .int, .int⟩
      ((1000 : ℚ) : ℝ) kmin kmax, List.mem_iff_getElem?.2 ⟨170, ?_⟩⟩
    unfold divergent_result0
    rw [List.getElem?_set_ne (by norm_num), List.getElem?_map, hi]
    simp only [Option.map_some, Rat.cast_ofNat]
  obtain ⟨v, hv⟩ := hm
  have := C63_stored P _ hv
  simp only at this
  rw [this] at hv
  norm_num at hv ⊢
  exact hv

/-- C63 at the level of the integrand of the doubly integrated terms: with tables that hold these values, the correlation of the
potential used where the two lines of sight meet is the right one times the fourth power of the distance, and elsewhere it is the
right one. -/
theorem C63_double (par : Par) (bg : Bg) (I : Ints) (P : ℝ → ℝ) {kmin kmax : ℝ} (h0 : 0 < kmin) (h1 : kmin ≤ kmax)
    (hP : ContinuousOn P (Icc kmin kmax)) (z mu sep x1 x2 : ℝ) (hd : par.divergent = true)
    (hr : ∀ r > 0, I.I40.result r = direct_value exactQuad P ⟨4, 0, .int, .int⟩ kmin kmax r)
    (hn : ∀ a b, I.I40.renormalization a b = integrals_renormalization exactQuad P a b kmin kmax)
    (hz : ∀ a > 0, I.I40.renormalization_zero_separation a = integrals_integrate_function exactQuad
      (integrals_renormalization0_integrand P a) ⟨4, 0, .int, .int⟩ a kmin kmax) :
    let v := DoubleEnv.of par bg I z mu sep x1 x2
    (v.r2 > 0.000001 ^ 2 → v.ren = renormalised P kmin kmax (Real.sqrt v.r2) v.lambda1 v.lambda2) ∧
    (v.r2 ≤ 0.000001 ^ 2 → v.lambda1 > 0 → v.ren = v.lambda1 ^ 4 * coincidentPotential P kmin kmax v.lambda1) := by
  intro v
  constructor
  · intro h
    have hren : v.ren = I.I40.result (Real.sqrt v.r2) - I.I40.renormalization v.lambda1 v.lambda2 := by
      have h' := not_le.2 h
      simp only [v, DoubleEnv.of] at h' ⊢
      rw [if_pos hd, if_neg h']
    have hs : 0 < Real.sqrt v.r2 := Real.sqrt_pos.2 (lt_trans (by norm_num) h)
    rw [hren, hr _ hs, hn, C63_off_diagonal P h0 h1 hP hs]
  · intro h hl
    have hren : v.ren = I.I40.renormalization_zero_separation v.lambda1 := by
      have h' : v.r2 ≤ 0.000001 ^ 2 := h
      simp only [v, DoubleEnv.of] at h' ⊢
      rw [if_pos hd, if_pos h']
    have e4 : v.lambda1 ^ (((4 : ℤ) : ℝ) - ((0 : ℤ) : ℝ)) = v.lambda1 ^ 4 := by
      rw [Int.cast_zero, sub_zero, Real.rpow_intCast]; rfl
    rw [hren, hz _ hl]
    simp only [integrals_integrate_function, integrals_local, reduceCtorEq, if_false, exactQuad, coincidentPotential]
    rw [if_pos ⟨by norm_num, hl⟩, e4]
    have : (∫ x in kmin..kmax, integrals_renormalization0_integrand P v.lambda1 x) =
        ∫ k in kmin..kmax, P k * (1 - Real.sinc (k * v.lambda1) ^ 2) / k ^ 2 :=
      intervalIntegral.integral_congr fun k _ => by
        simp only [integrals_renormalization0_integrand, gsl_sf_bessel_j0_eq]; ring
    rw [this]
    ring

/-- Non-vacuity of `C63_double`: such tables exist, and both lines of sight meet in the middle of a pair at separation zero. -/
example (par : Par) (hd : par.divergent = true) (bg : Bg) (hb : bg.comoving_distance 1 = 2000) : ∃ I : Ints,
    (DoubleEnv.of par bg I 1 0 0 1 1).ren = 2000 ^ 4 * coincidentPotential (fun _ => 1) 1e-3 1 2000 ∧
    0 < coincidentPotential (fun _ => 1) 1e-3 1 2000 := by
  let I : Ints := fun _ =>
    { result := direct_value exactQuad (fun _ => 1) ⟨4, 0, .int, .int⟩ 1e-3 1
      result2d := fun _ _ => 0
      renormalization := fun a b => integrals_renormalization exactQuad (fun _ => 1) a b 1e-3 1
      renormalization_zero_separation := fun a => integrals_integrate_function exactQuad
        (integrals_renormalization0_integrand (fun _ => 1) a) ⟨4, 0, .int, .int⟩ a 1e-3 1 }
  have h := (C63_double par bg I (fun _ => 1) (kmin := 1e-3) (kmax := 1) (by norm_num) (by norm_num) continuousOn_const 1 0 0 1 1 hd
    (fun _ _ => rfl) (fun _ _ => rfl) (fun _ _ => rfl)).2
  have hl : (DoubleEnv.of par bg I 1 0 0 1 1).lambda1 = 2000 := by
    simp [DoubleEnv.of, hb]
  have hr : (DoubleEnv.of par bg I 1 0 0 1 1).r2 = 0 := by
    simp [DoubleEnv.of, hb]
    norm_num
  rw [hl, hr] at h
  exact ⟨I, h (by norm_num) (by norm_num),
    coincident_pos (by norm_num) (by norm_num) continuousOn_const (fun _ _ => by norm_num) (by norm_num)⟩

end Coffe
