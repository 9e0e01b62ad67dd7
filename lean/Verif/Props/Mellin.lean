import Verif.Proofs.MellinBessel
import Verif.Model.C.Twobessel
import Verif.Model.C.Twofast
import Mathlib.Analysis.Complex.ExponentialBounds
import Mathlib.Analysis.Real.Pi.Bounds

/-!
# C80: the response functions of the FFTLog transforms are the Mellin transforms of the Bessel functions
-/

namespace Coffe
open MeasureTheory Set Filter Topology

theorem response_recurrence (l z : ℂ) (hu : l - 1 + z ≠ 0) (hv : l + 2 - z ≠ 0) :
    (2 * l + 1) * response Complex.Gamma l (z - 1) = response Complex.Gamma (l - 1) z + response Complex.Gamma (l + 1) z := by
  unfold response
  have e1 : (l + (z - 1)) / 2 = (l - 1 + z) / 2 := by ring
  have e2 : (3 + l - (z - 1)) / 2 = (l + 2 - z) / 2 + 1 := by ring
  have e3 : (3 + (l - 1) - z) / 2 = (l + 2 - z) / 2 := by ring
  have e4 : (l + 1 + z) / 2 = (l - 1 + z) / 2 + 1 := by ring
  have e5 : (3 + (l + 1) - z) / 2 = (l + 2 - z) / 2 + 1 := by ring
  have hu' : (l - 1 + z) / 2 ≠ 0 := div_ne_zero hu two_ne_zero
  have hv' : (l + 2 - z) / 2 ≠ 0 := div_ne_zero hv two_ne_zero
  rw [e1, e2, e3, e4, e5, Complex.Gamma_add_one _ hu', Complex.Gamma_add_one _ hv', Complex.cpow_sub _ _ two_ne_zero, Complex.cpow_one]
  by_cases hg : Complex.Gamma ((l + 2 - z) / 2) = 0
  · rw [hg]; simp
  · field_simp
    ring

/-- The specification of the integral and the recurrence determine the value. -/
theorem response_closed (l : ℕ) (z : ℂ) (hz : ∀ n : ℤ, n ≤ l + 1 → z ≠ n) :
    (Real.sqrt Real.pi / 4 : ℝ) * response Complex.Gamma l z * falling (l + 1) z = Complex.Gamma z * besselPart 0 l z := by
  have hpi : ((Real.sqrt Real.pi : ℝ) : ℂ) * ((Real.sqrt Real.pi : ℝ) : ℂ) = (Real.pi : ℂ) := by
    rw [← Complex.ofReal_mul, Real.mul_self_sqrt Real.pi_pos.le]
  have hpi0 : (Real.pi : ℂ) ≠ 0 := Complex.ofReal_ne_zero.2 Real.pi_ne_zero
  have hs0 : ((Real.sqrt Real.pi : ℝ) : ℂ) ≠ 0 := fun h => hpi0 (by rw [← hpi, h, zero_mul])
  have two : ∀ z : ℂ, (2 : ℂ) ^ z * (2 : ℂ) ^ (1 - z) = 2 := fun z => by
    rw [← Complex.cpow_add _ _ two_ne_zero]; simp
  have dup : ∀ z : ℂ, Complex.Gamma (z / 2) * Complex.Gamma ((z + 1) / 2) = Complex.Gamma z * (2 : ℂ) ^ (1 - z) * (Real.sqrt Real.pi : ℝ) := fun z => by
    have := Complex.Gamma_mul_Gamma_add_half (z / 2)
    rw [show z / 2 + 1 / 2 = (z + 1) / 2 by ring, show 2 * (z / 2) = z by ring] at this
    exact this
  suffices key : (∀ z : ℂ, (∀ n : ℤ, n ≤ l + 1 → z ≠ n) →
        (Real.sqrt Real.pi / 4 : ℝ) * response Complex.Gamma l z * falling (l + 1) z = Complex.Gamma z * besselPart 0 l z) ∧
      ∀ z : ℂ, (∀ n : ℤ, n ≤ l + 2 → z ≠ n) →
        (Real.sqrt Real.pi / 4 : ℝ) * response Complex.Gamma (l + 1 : ℕ) z * falling (l + 2) z = Complex.Gamma z * besselPart 0 (l + 1) z from key.1 z hz
  clear hz
  clear z
  · induction l with
    | zero =>
      constructor
      · intro z hz
        have h1 : z ≠ 1 := by simpa using hz 1 (by norm_num)
        have hne : (1 - z) / 2 ≠ 0 := div_ne_zero (sub_ne_zero.2 (Ne.symm h1)) two_ne_zero
        have refl := Complex.Gamma_mul_Gamma_one_sub ((1 - z) / 2)
        rw [show 1 - (1 - z) / 2 = (z + 1) / 2 by ring] at refl
        have hsin : Complex.sin (Real.pi * ((1 - z) / 2)) = Complex.cos (Real.pi * z / 2) := by
          rw [← Complex.sin_pi_div_two_sub]; congr 1; ring
        rw [hsin] at refl
        simp only [besselPart]
        rw [sinPart_zero]
        simp only [response, falling, Finset.prod_range_succ, Finset.prod_range_zero]
        push_cast
        rw [show ((0 : ℂ) + z) / 2 = z / 2 by ring, show (3 + 0 - z) / 2 = (1 - z) / 2 + 1 by ring, Complex.Gamma_add_one _ hne]
        have d := dup z
        have t := two z
        by_cases hg : Complex.Gamma ((1 - z) / 2) = 0
        · rw [hg, zero_mul] at refl
          have hc : Complex.cos (Real.pi * z / 2) = 0 := by
            by_contra hc
            exact div_ne_zero hpi0 hc refl.symm
          rw [hg, hc]; simp
        · by_cases hc : Complex.cos (Real.pi * z / 2) = 0
          · exfalso
            rw [hc, div_zero] at refl
            rcases mul_eq_zero.1 refl with h | h
            · exact hg h
            · obtain ⟨m, hm⟩ := Complex.Gamma_eq_zero_iff _ |>.1 h
              refine hz (-(2 * m + 1)) (by have := Int.natCast_nonneg m; push_cast; omega) ?_
              push_cast
              linear_combination 2 * hm
          · rw [eq_div_iff hc] at refl
            have hz1 : z - 1 ≠ 0 := sub_ne_zero.2 h1
            have : (Real.sqrt Real.pi : ℝ) * (2 : ℂ) ^ z * Complex.Gamma (z / 2) * 2 =
                4 * Complex.Gamma z * Complex.cos (Real.pi * z / 2) * Complex.Gamma ((1 - z) / 2) := by
              have hG : Complex.Gamma ((z + 1) / 2) ≠ 0 := fun h => by
                rw [h, mul_zero, zero_mul] at refl; exact hpi0 refl.symm
              refine mul_right_cancel₀ hG ?_
              linear_combination (Real.sqrt Real.pi : ℝ) * (2 : ℂ) ^ z * 2 * d + Complex.Gamma z * 2 * (2 * (Real.sqrt Real.pi : ℝ) * (Real.sqrt Real.pi : ℝ)) * (t / 2)
                + 4 * Complex.Gamma z * (hpi) - 4 * Complex.Gamma z * refl
            generalize Complex.cos (Real.pi * z / 2) = c at *
            field_simp
            linear_combination (z - 1) * this
      · intro z hz
        have h1 : z ≠ 1 := by simpa using hz 1 (by norm_num)
        have h2 : z ≠ 2 := by simpa using hz 2 (by norm_num)
        have hne : (2 - z) / 2 ≠ 0 := div_ne_zero (sub_ne_zero.2 (Ne.symm h2)) two_ne_zero
        have refl := Complex.Gamma_mul_Gamma_one_sub (z / 2)
        rw [show 1 - z / 2 = (2 - z) / 2 by ring, show (Real.pi : ℂ) * (z / 2) = Real.pi * z / 2 by ring] at refl
        simp only [besselPart]
        rw [sinPart_zero, cosPart_zero]
        have hcs : Complex.cos (Real.pi * (z - 1) / 2) = Complex.sin (Real.pi * z / 2) := by
          rw [← Complex.cos_sub_pi_div_two]; congr 1; ring
        rw [hcs]
        simp only [response, falling, Finset.prod_range_succ, Finset.prod_range_zero]
        push_cast
        rw [show (1 + z) / 2 = (z + 1) / 2 by ring, show (3 + 1 - z) / 2 = (2 - z) / 2 + 1 by ring, Complex.Gamma_add_one _ hne]
        have d := dup z
        have t := two z
        have hz2 : 2 - z ≠ 0 := sub_ne_zero.2 (Ne.symm h2)
        by_cases hg : Complex.Gamma ((2 - z) / 2) = 0
        · rw [hg, mul_zero] at refl
          have hc : Complex.sin (Real.pi * z / 2) = 0 := by
            by_contra hc
            exact div_ne_zero hpi0 hc refl.symm
          rw [hg, hc]; simp
        · by_cases hc : Complex.sin (Real.pi * z / 2) = 0
          · exfalso
            rw [hc, div_zero] at refl
            rcases mul_eq_zero.1 refl with h | h
            · obtain ⟨m, hm⟩ := Complex.Gamma_eq_zero_iff _ |>.1 h
              refine hz (-(2 * m)) (by have := Int.natCast_nonneg m; push_cast; omega) ?_
              push_cast
              linear_combination 2 * hm
            · exact hg h
          · rw [eq_div_iff hc] at refl
            have : (Real.sqrt Real.pi : ℝ) * (2 : ℂ) ^ z * Complex.Gamma ((z + 1) / 2) * 2 =
                4 * Complex.Gamma z * Complex.sin (Real.pi * z / 2) * Complex.Gamma ((2 - z) / 2) := by
              have hG : Complex.Gamma (z / 2) ≠ 0 := fun h => by
                rw [h, zero_mul, zero_mul] at refl; exact hpi0 refl.symm
              refine mul_right_cancel₀ hG ?_
              linear_combination (Real.sqrt Real.pi : ℝ) * (2 : ℂ) ^ z * 2 * d + Complex.Gamma z * 2 * (2 * (Real.sqrt Real.pi : ℝ) * (Real.sqrt Real.pi : ℝ)) * (t / 2)
                + 4 * Complex.Gamma z * (hpi) - 4 * Complex.Gamma z * refl
            generalize Complex.sin (Real.pi * z / 2) = c at *
            field_simp
            linear_combination ((z - 1) * (z - 2)) * this
    | succ l ih =>
      obtain ⟨ih1, ih2⟩ := ih
      refine ⟨fun z hz => ?_, fun z hz => ?_⟩
      · have := ih2 z (fun n hn => hz n (by push_cast; omega))
        exact_mod_cast this
      · have a1 := ih1 z (fun n hn => hz n (by push_cast at *; omega))
        have a2 := ih2 (z - 1) (fun n hn h => hz (n + 1) (by push_cast at *; omega) (by push_cast; rw [← h]; ring))
        have hu : ((l + 1 : ℕ) : ℂ) + 1 - 1 + z ≠ 0 := fun h => hz (-(l + 1)) (by push_cast; omega) (by push_cast at *; linear_combination h)
        have hv : ((l + 1 : ℕ) : ℂ) + 2 - z ≠ 0 := fun h => hz (l + 3) (by push_cast; omega) (by push_cast at *; linear_combination -h)
        have hr := response_recurrence ((l + 1 : ℕ) : ℂ) z (by push_cast at *; exact fun h => hz (-l) (by push_cast; omega) (by push_cast; linear_combination h)) hv
        have hz1 : z - 1 ≠ 0 := fun h => hz 1 (by push_cast; omega) (by push_cast; linear_combination h)
        have hG : Complex.Gamma z = (z - 1) * Complex.Gamma (z - 1) := by
          have := Complex.Gamma_add_one (z - 1) hz1
          rwa [sub_add_cancel] at this
        simp only [besselPart]
        have f1 : falling (l + 1 + 2) z = (z - 1) * falling (l + 2) (z - 1) := falling_shift _ _
        have f2 : falling (l + 1 + 2) z = falling (l + 1) z * ((z - (l + 2)) * (z - (l + 3))) := by
          rw [show l + 1 + 2 = l + 1 + 1 + 1 from rfl, falling_succ, falling_succ]; push_cast; ring
        have hr' : response Complex.Gamma ((l + 1 + 1 : ℕ) : ℂ) z = (2 * (l : ℂ) + 3) * response Complex.Gamma ((l + 1 : ℕ) : ℂ) (z - 1) - response Complex.Gamma (l : ℂ) z := by
          have e1 : ((l + 1 : ℕ) : ℂ) - 1 = l := by push_cast; ring
          have e2 : ((l + 1 : ℕ) : ℂ) + 1 = ((l + 1 + 1 : ℕ) : ℂ) := by push_cast; ring
          rw [e1, e2] at hr
          rw [eq_sub_iff_add_eq, add_comm, ← hr]
          push_cast; ring
        rw [hr', mul_sub, sub_mul]
        nth_rewrite 1 [f1]
        rw [f2]
        rw [hG] at a1 ⊢
        linear_combination (2 * (l : ℂ) + 3) * (z - 1) * a2 - ((z - (l + 2)) * (z - (l + 3))) * a1

theorem mellin_right (l : ℕ) (z : ℂ) (hl : 0 < z.re) (hz : ∀ n : ℤ, n ≤ l + 1 → z ≠ n) :
    IsBesselMellin l z ((Real.sqrt Real.pi / 4 : ℝ) * response Complex.Gamma l z) := by
  have hf : falling (l + 1) z ≠ 0 := by
    unfold falling
    refine Finset.prod_ne_zero_iff.2 fun k hk h => ?_
    refine hz (k + 1) (by have := Finset.mem_range.1 hk; omega) ?_
    push_cast
    linear_combination h
  rw [show (Real.sqrt Real.pi / 4 : ℝ) * response Complex.Gamma l z = Complex.Gamma z * besselPart 0 l z / falling (l + 1) z by
    rw [eq_div_iff hf, response_closed l z hz]]
  unfold IsBesselMellin
  have ht : Tendsto (fun ε : ℝ => Complex.Gamma z * besselPart ε l z / falling (l + 1) z) (𝓝[>] 0)
      (𝓝 (Complex.Gamma z * besselPart 0 l z / falling (l + 1) z)) :=
    (((besselPart_tendsto l z).const_mul _).div_const _).mono_left nhdsWithin_le_nhds
  refine ht.congr' (eventually_mem_nhdsWithin.mono fun ε hε => ?_)
  rw [div_eq_iff hf]
  exact (mellin_damped hε l hl).symm

/-- **C80**: the integral of `x ^ (z - 1) j_l(x)` is `√π / 4` times the quotient of Gamma functions, wherever the integral
converges at the origin, for all orders. -/
theorem C80_mellin (l : ℕ) (z : ℂ) (hl : -(l : ℝ) < z.re) (hz : ∀ n : ℤ, -l < n → n ≤ l + 1 → z ≠ n) :
    IsBesselMellin l z ((Real.sqrt Real.pi / 4 : ℝ) * response Complex.Gamma l z) := by
  have key : ∀ (k l : ℕ) (z : ℂ), k ≤ l → -(k : ℝ) < z.re → (∀ n : ℤ, n ≤ l + 1 → z ≠ n) →
      IsBesselMellin l z ((Real.sqrt Real.pi / 4 : ℝ) * response Complex.Gamma l z) := by
    intro k
    induction k with
    | zero => exact fun l z _ hl hz => mellin_right l z (by simpa using hl) hz
    | succ k ih =>
      intro l z hk hl hz
      obtain ⟨l, rfl⟩ : ∃ m, l = m + 1 := ⟨l - 1, by omega⟩
      have hre : -(k : ℝ) < (z + 1).re := by push_cast at hl; simp; linarith
      have i0 := ih l (z + 1) (by omega) hre fun n hn h => hz (n - 1) (by push_cast at *; omega) (by push_cast; linear_combination h)
      have i2 := ih (l + 2) (z + 1) (by omega) hre fun n hn h => hz (n - 1) (by push_cast at *; omega) (by push_cast; linear_combination h)
      have hc : (2 * (l : ℂ) + 3) ≠ 0 := by
        have : ((2 * l + 3 : ℕ) : ℂ) ≠ 0 := Nat.cast_ne_zero.2 (by omega)
        push_cast at this
        exact this
      have hr := response_recurrence ((l + 1 : ℕ) : ℂ) (z + 1)
        (fun h => hz (-(l + 1)) (by push_cast; omega) (by push_cast at *; linear_combination h))
        (fun h => hz (l + 2) (by push_cast; omega) (by push_cast at *; linear_combination -h))
      rw [show ((l + 1 : ℕ) : ℂ) - 1 = l by push_cast; ring, show ((l + 1 : ℕ) : ℂ) + 1 = (l + 2 : ℕ) by push_cast; ring,
        add_sub_cancel_right] at hr
      have e : (Real.sqrt Real.pi / 4 : ℝ) * response Complex.Gamma ((l + 1 : ℕ) : ℂ) z =
          ((Real.sqrt Real.pi / 4 : ℝ) * response Complex.Gamma l (z + 1) +
            (Real.sqrt Real.pi / 4 : ℝ) * response Complex.Gamma ((l + 2 : ℕ) : ℂ) (z + 1)) / (2 * (l : ℂ) + 3) := by
        rw [eq_div_iff hc, ← mul_add, ← hr]
        push_cast
        ring
      rw [e]
      refine ((i0.add i2).div_const _).congr' (eventually_mem_nhdsWithin.mono fun ε hε => ?_)
      rw [div_eq_iff hc, mul_comm]
      have hkl : (k : ℝ) ≤ l := by exact_mod_cast (by omega : k ≤ l)
      refine (mellin_recurrence hε l ?_).symm
      push_cast at hl
      linarith
  refine key l l z le_rfl hl fun n hn h => ?_
  refine hz n ?_ hn h
  rw [h, Complex.intCast_re] at hl
  exact_mod_cast hl

/-- **C80**: an error of the Gamma function in the response is at most about twice as large. -/
theorem response_within {δ : ℝ} {G : ℂ → ℂ} {l z : ℂ} (hδ : δ < 1) (h1 : GammaWithin δ G ((l + z) / 2))
    (h2 : GammaWithin δ G ((3 + l - z) / 2)) :
    ‖response G l z - response Complex.Gamma l z‖ ≤ 2 * δ / (1 - δ) * ‖response Complex.Gamma l z‖ := by
  unfold response GammaWithin at *
  rw [← mul_sub, norm_mul, norm_mul, mul_left_comm]
  refine mul_le_mul_of_nonneg_left ?_ (norm_nonneg _)
  generalize G ((l + z) / 2) = a at *
  generalize G ((3 + l - z) / 2) = b at *
  generalize Complex.Gamma ((l + z) / 2) = A at *
  generalize Complex.Gamma ((3 + l - z) / 2) = B at *
  have hd : 0 < 1 - δ := by linarith
  by_cases hB : B = 0
  · rw [hB, norm_zero, mul_zero, sub_zero] at h2
    have : b = 0 := norm_le_zero_iff.1 h2
    rw [hB, this]
    simp
  · have hB0 : 0 < ‖B‖ := norm_pos_iff.2 hB
    have hb : (1 - δ) * ‖B‖ ≤ ‖b‖ := by
      have := norm_sub_norm_le B b
      rw [norm_sub_rev] at this
      linarith
    have hb0 : 0 < ‖b‖ := lt_of_lt_of_le (mul_pos hd hB0) hb
    have hbne : b ≠ 0 := norm_pos_iff.1 hb0
    have e : a / b - A / B = ((a - A) * B - A * (b - B)) / (b * B) := by field_simp; ring
    rw [e, norm_div, norm_mul, norm_div, div_le_iff₀ (by positivity)]
    have n1 : ‖(a - A) * B - A * (b - B)‖ ≤ δ * ‖A‖ * ‖B‖ + ‖A‖ * (δ * ‖B‖) := by
      refine (norm_sub_le _ _).trans ?_
      rw [norm_mul, norm_mul]
      exact add_le_add (mul_le_mul_of_nonneg_right h1 (norm_nonneg _)) (mul_le_mul_of_nonneg_left h2 (norm_nonneg _))
    refine n1.trans ?_
    have e2 : 2 * δ / (1 - δ) * (‖A‖ / ‖B‖) * (‖b‖ * ‖B‖) = 2 * δ / (1 - δ) * ‖A‖ * ‖b‖ := by field_simp
    rw [e2]
    have hδ0 : 0 ≤ δ * ‖B‖ := (norm_nonneg _).trans h2
    have hδ1 : 0 ≤ δ := nonneg_of_mul_nonneg_left hδ0 hB0
    have : 2 * δ / (1 - δ) * ‖A‖ * ((1 - δ) * ‖B‖) ≤ 2 * δ / (1 - δ) * ‖A‖ * ‖b‖ :=
      mul_le_mul_of_nonneg_left hb (by positivity)
    refine le_trans (le_of_eq ?_) this
    field_simp
    ring

/-- The Gamma function of the two-dimensional transform. -/
noncomputable def lanczosGamma (z : ℂ) : ℂ := Complex.exp (lngamma_lanczos z)

/-- The Gamma function of the one-dimensional transform. -/
noncomputable def twofastGamma (z : ℂ) : ℂ := Complex.exp (twofast_lgamma z)

theorem g_l_response (l nu : ℝ) (eta : ℕ → ℝ) (i : ℕ) : g_l l nu eta i = response lanczosGamma l (nu + Complex.I * eta i) := by
  unfold g_l response lanczosGamma
  dsimp only
  rw [add_sub_assoc, Complex.exp_add, Complex.exp_sub, Complex.cpow_def_of_ne_zero two_ne_zero]
  congr 2
  rw [mul_comm, Complex.ofReal_log (by norm_num)]
  norm_num

theorem mql_response (t q l alpha : ℝ) : twofast_mql t q l alpha =
    (alpha : ℂ) ^ (t * Complex.I - q) * ((Real.sqrt Real.pi / 4 : ℝ) * response twofastGamma l (q - t * Complex.I)) := by
  unfold twofast_mql response twofastGamma
  dsimp only
  rw [show (q - 1 - t * Complex.I - 1 : ℂ) = (q - t * Complex.I) - 2 by ring, Complex.cpow_sub _ _ two_ne_zero,
    show (1 + l + (q - 1 - t * Complex.I) : ℂ) = l + (q - t * Complex.I) by ring,
    show (2 + l - (q - 1 - t * Complex.I) : ℂ) = 3 + l - (q - t * Complex.I) by ring, Complex.exp_sub]
  rw [show ((2 : ℂ) ^ (2 : ℂ)) = 4 by rw [Complex.cpow_ofNat]; norm_num]
  push_cast
  ring

/-- **C80** for the covariance: up to the error of the Gamma function, the response function of the two-dimensional
transform is the Mellin transform of the spherical Bessel function. -/
theorem C80_covariance_partial (l : ℕ) (nu : ℝ) (eta : ℕ → ℝ) (i : ℕ) (δ : ℝ) (hδ : δ < 1) (hl : -(l : ℝ) < nu)
    (hz : ∀ n : ℤ, -l < n → n ≤ l + 1 → (nu + Complex.I * eta i : ℂ) ≠ n)
    (h1 : GammaWithin δ lanczosGamma ((l + (nu + Complex.I * eta i)) / 2))
    (h2 : GammaWithin δ lanczosGamma ((3 + l - (nu + Complex.I * eta i)) / 2)) :
    ∃ v, IsBesselMellin l (nu + Complex.I * eta i) v ∧
      ‖(Real.sqrt Real.pi / 4 : ℝ) * g_l l nu eta i - v‖ ≤ 2 * δ / (1 - δ) * ‖v‖ := by
  refine ⟨_, C80_mellin l _ (by simpa using hl) hz, ?_⟩
  rw [g_l_response, ← mul_sub, norm_mul, norm_mul, mul_left_comm]
  refine mul_le_mul_of_nonneg_left ?_ (norm_nonneg _)
  exact response_within hδ (by exact_mod_cast h1) (by exact_mod_cast h2)

/-- **C80** for the tables of the integrals: the same of the one-dimensional transform.  The factor of the scale comes from
the change of variables `k r = x`. -/
theorem C80_tables_partial (l : ℕ) (t q alpha : ℝ) (δ : ℝ) (hδ : δ < 1) (hl : -(l : ℝ) < q)
    (hz : ∀ n : ℤ, -l < n → n ≤ l + 1 → (q - t * Complex.I : ℂ) ≠ n)
    (h1 : GammaWithin δ twofastGamma ((l + (q - t * Complex.I)) / 2))
    (h2 : GammaWithin δ twofastGamma ((3 + l - (q - t * Complex.I)) / 2)) :
    ∃ v, IsBesselMellin l (q - t * Complex.I) v ∧
      ‖twofast_mql t q l alpha - (alpha : ℂ) ^ (t * Complex.I - q) * v‖ ≤
        2 * δ / (1 - δ) * ‖(alpha : ℂ) ^ (t * Complex.I - q) * v‖ := by
  refine ⟨_, C80_mellin l _ (by simpa using hl) hz, ?_⟩
  rw [mql_response, ← mul_sub, norm_mul, norm_mul, mul_left_comm]
  refine mul_le_mul_of_nonneg_left ?_ (norm_nonneg _)
  rw [← mul_sub, norm_mul, norm_mul, mul_left_comm]
  refine mul_le_mul_of_nonneg_left ?_ (norm_nonneg _)
  exact response_within hδ (by exact_mod_cast h1) (by exact_mod_cast h2)

theorem reflection_of {R : ℂ → ℂ} {z : ℂ} (hs : Complex.sin (Real.pi * z) ≠ 0) :
    Complex.exp ((Real.log Real.pi : ℂ) - Complex.log (Complex.sin (Real.pi * z)) - R (1 - z)) * Complex.exp (R (1 - z)) =
      Real.pi / Complex.sin (Real.pi * z) := by
  rw [← Complex.exp_add, sub_add_cancel, Complex.exp_sub, Complex.exp_log hs, ← Complex.ofReal_exp, Real.exp_log Real.pi_pos]

/-- **C80**: both Gamma functions obey the reflection formula, so that their relative error at the left is that at the right. -/
theorem C80_reflection (z : ℂ) (h : z.re < 0.5) (hs : Complex.sin (Real.pi * z) ≠ 0) :
    lanczosGamma z * lanczosGamma (1 - z) = Complex.Gamma z * Complex.Gamma (1 - z) ∧
      twofastGamma z * twofastGamma (1 - z) = Complex.Gamma z * Complex.Gamma (1 - z) := by
  have h2 : ¬ (1 - z).re < 0.5 := by
    simp only [Complex.sub_re, Complex.one_re]
    norm_num at h ⊢
    linarith
  rw [Complex.Gamma_mul_Gamma_one_sub]
  unfold lanczosGamma twofastGamma lngamma_lanczos twofast_lgamma
  rw [if_pos h, if_neg h2, if_pos h, if_neg h2]
  exact ⟨reflection_of hs, reflection_of hs⟩

/-! The symmetry and the size of the error -/

/-- Lanczos' formula with the series `X`. -/
noncomputable def lanczosForm (X : ℂ → ℂ) (z : ℂ) : ℂ :=
  (Real.log (2 * Real.pi) : ℂ) / 2 + (z - 1 + 0.5) * Complex.log (z - 1 + 7.5) - (z - 1 + 7.5) + Complex.log (X z)

/-- The series of `lngamma_lanczos`. -/
noncomputable def lanczosSeries (z : ℂ) : ℂ :=
  ((upTo 1 9).map fun n => (lanczos_p.getD n 0 : ℂ) / (z - 1 + n)).foldl (· + ·) (lanczos_p.getD 0 0 : ℂ)

/-- The series of `twofast_lgamma`. -/
noncomputable def twofastSeries (z : ℂ) : ℂ :=
  ((upTo 0 8).map fun i => (gamma_coeff.getD i 0 : ℂ) / (z - 1 + i + 1)).foldl (· + ·) (0.99999999999980993 : ℝ)

theorem lngamma_form (z : ℂ) : lngamma_right z = lanczosForm lanczosSeries z := rfl

theorem twofast_form (z : ℂ) : twofast_lgamma_right z = lanczosForm twofastSeries z := by
  unfold twofast_lgamma_right lanczosForm twofastSeries
  dsimp only
  rw [show (z - 1 + 8 - 0.5 : ℂ) = z - 1 + 7.5 by ring]

theorem conj_foldl {c d : ℕ → ℂ} (l : List ℕ) (h : ∀ n, d n = (starRingEnd ℂ) (c n)) (x : ℂ) :
    (l.map d).foldl (· + ·) ((starRingEnd ℂ) x) = (starRingEnd ℂ) ((l.map c).foldl (· + ·) x) := by
  induction l generalizing x with
  | nil => rfl
  | cons n l ih =>
    simp only [List.map_cons, List.foldl_cons]
    rw [← ih, h, map_add]

theorem lanczosSeries_conj (z : ℂ) : lanczosSeries ((starRingEnd ℂ) z) = (starRingEnd ℂ) (lanczosSeries z) := by
  unfold lanczosSeries
  rw [← conj_foldl (d := fun n => (lanczos_p.getD n 0 : ℂ) / ((starRingEnd ℂ) z - 1 + n)), Complex.conj_ofReal]
  intro n
  simp

theorem twofastSeries_conj (z : ℂ) : twofastSeries ((starRingEnd ℂ) z) = (starRingEnd ℂ) (twofastSeries z) := by
  unfold twofastSeries
  rw [← conj_foldl (d := fun n => (gamma_coeff.getD n 0 : ℂ) / ((starRingEnd ℂ) z - 1 + n + 1)), Complex.conj_ofReal]
  intro n
  simp

theorem exp_log_conj (x : ℂ) : Complex.exp (Complex.log ((starRingEnd ℂ) x)) = (starRingEnd ℂ) (Complex.exp (Complex.log x)) := by
  by_cases h : x = 0
  · simp [h]
  · rw [Complex.exp_log h, Complex.exp_log (by simpa using h)]

theorem lanczosForm_conj {X : ℂ → ℂ} (hX : ∀ z, X ((starRingEnd ℂ) z) = (starRingEnd ℂ) (X z)) {z : ℂ} (hz : ¬ z.re < 0.5) :
    Complex.exp (lanczosForm X ((starRingEnd ℂ) z)) = (starRingEnd ℂ) (Complex.exp (lanczosForm X z)) := by
  have ht : (z - 1 + 7.5 : ℂ).arg ≠ Real.pi := by
    have : 0 < (z - 1 + 7.5 : ℂ).re := by
      norm_num at hz ⊢
      linarith
    exact (Complex.mem_slitPlane_iff_arg.1 (Or.inl this)).1
  have e1 : (starRingEnd ℂ) z - 1 + 7.5 = (starRingEnd ℂ) (z - 1 + 7.5) := by
    simp only [map_add, map_sub, map_one]
    congr 1
    rw [show (7.5 : ℂ) = ((7.5 : ℝ) : ℂ) by norm_num, Complex.conj_ofReal]
  have e2 : (starRingEnd ℂ) z - 1 + 0.5 = (starRingEnd ℂ) (z - 1 + 0.5) := by
    simp only [map_add, map_sub, map_one]
    congr 1
    rw [show (0.5 : ℂ) = ((0.5 : ℝ) : ℂ) by norm_num, Complex.conj_ofReal]
  have e3 : (Real.log (2 * Real.pi) : ℂ) / 2 = (starRingEnd ℂ) ((Real.log (2 * Real.pi) : ℂ) / 2) := by
    rw [map_div₀, Complex.conj_ofReal, Complex.conj_ofNat]
  unfold lanczosForm
  rw [e1, e2, hX, Complex.log_conj _ ht, Complex.exp_add, exp_log_conj, Complex.exp_add, map_mul]
  congr 1
  rw [← Complex.exp_conj]
  congr 1
  simp only [map_add, map_sub, map_mul]
  rw [← e3]

theorem gamma_conj_of {X : ℂ → ℂ} (hX : ∀ z, X ((starRingEnd ℂ) z) = (starRingEnd ℂ) (X z)) (z : ℂ) :
    Complex.exp (if ((starRingEnd ℂ) z).re < 0.5 then (Real.log Real.pi : ℂ) - Complex.log (Complex.sin (Real.pi * (starRingEnd ℂ) z)) - lanczosForm X (1 - (starRingEnd ℂ) z)
      else lanczosForm X ((starRingEnd ℂ) z)) =
    (starRingEnd ℂ) (Complex.exp (if z.re < 0.5 then (Real.log Real.pi : ℂ) - Complex.log (Complex.sin (Real.pi * z)) - lanczosForm X (1 - z)
      else lanczosForm X z)) := by
  rw [Complex.conj_re]
  split_ifs with h
  · have h2 : ¬ (1 - z).re < 0.5 := by
      simp only [Complex.sub_re, Complex.one_re]
      norm_num at h ⊢
      linarith
    have e1 : (1 : ℂ) - (starRingEnd ℂ) z = (starRingEnd ℂ) (1 - z) := by simp
    have e2 : Complex.sin (Real.pi * (starRingEnd ℂ) z) = (starRingEnd ℂ) (Complex.sin (Real.pi * z)) := by
      rw [← Complex.sin_conj, map_mul, Complex.conj_ofReal]
    rw [e1, e2, Complex.exp_sub, Complex.exp_sub, Complex.exp_sub, Complex.exp_sub, exp_log_conj, lanczosForm_conj hX h2, map_div₀, map_div₀,
      ← Complex.exp_conj ((Real.log Real.pi : ℝ) : ℂ), Complex.conj_ofReal]
  · exact lanczosForm_conj hX h

/-- **C80**: both Gamma functions are real on the real axis and symmetric about it. -/
theorem C80_conj (z : ℂ) : lanczosGamma ((starRingEnd ℂ) z) = (starRingEnd ℂ) (lanczosGamma z) ∧
    twofastGamma ((starRingEnd ℂ) z) = (starRingEnd ℂ) (twofastGamma z) := by
  constructor
  · exact gamma_conj_of lanczosSeries_conj z
  · unfold twofastGamma twofast_lgamma
    rw [twofast_form, twofast_form, twofast_form, twofast_form]
    exact gamma_conj_of twofastSeries_conj z

/-- **C80**: the response at a negative frequency is the conjugate of that at the positive one, which is what the
two-dimensional transform takes for the negative frequencies of its first axis; the one-dimensional transform is real. -/
theorem C80_negative (l nu : ℝ) (eta : ℕ → ℝ) (i : ℕ) : g_l l nu (fun i => -eta i) i = (starRingEnd ℂ) (g_l l nu eta i) := by
  rw [g_l_response, g_l_response]
  have e : (nu + Complex.I * ((-eta i : ℝ) : ℂ) : ℂ) = (starRingEnd ℂ) (nu + Complex.I * eta i) := by simp
  have e2 : ∀ w : ℂ, (((l : ℂ) + (starRingEnd ℂ) w) / 2) = (starRingEnd ℂ) (((l : ℂ) + w) / 2) := fun w => by
    rw [map_div₀, map_add, Complex.conj_ofReal, Complex.conj_ofNat]
  have e3 : ∀ w : ℂ, ((3 + (l : ℂ) - (starRingEnd ℂ) w) / 2) = (starRingEnd ℂ) ((3 + (l : ℂ) - w) / 2) := fun w => by
    rw [map_div₀, map_sub, map_add, Complex.conj_ofReal, Complex.conj_ofNat, Complex.conj_ofNat]
  rw [e]
  unfold response
  rw [e2, e3, (C80_conj _).1, (C80_conj _).1, map_mul, map_div₀]
  congr 1
  rw [Complex.cpow_conj _ _ (by simp [Real.pi_ne_zero.symm]), Complex.conj_ofNat]

theorem lanczosForm_real {X : ℂ → ℂ} {s r : ℝ} (hs : 0 ≤ s + 6.5) (hr : 0 < r) (hX : X s = r) :
    Complex.exp (lanczosForm X s) = ((Real.exp (Real.log (2 * Real.pi) / 2 + (s - 0.5) * Real.log (s + 6.5) - (s + 6.5)) * r : ℝ) : ℂ) := by
  unfold lanczosForm
  rw [hX, show ((s : ℂ) - 1 + 7.5) = ((s + 6.5 : ℝ) : ℂ) by push_cast; ring, show ((s : ℂ) - 1 + 0.5) = ((s - 0.5 : ℝ) : ℂ) by push_cast; ring,
    ← Complex.ofReal_log hs, Complex.exp_add, Complex.exp_log (Complex.ofReal_ne_zero.2 hr.ne')]
  push_cast
  ring_nf

theorem within_of_sq {y δ : ℝ} (hy : 0 < y) (hδ : δ ≤ 1) (hδ0 : 0 ≤ δ) (h1 : (1 - δ) ^ 2 ≤ y ^ 2) (h2 : y ^ 2 ≤ (1 + δ) ^ 2) : |y - 1| ≤ δ := by
  have a := (pow_le_pow_iff_left₀ (by linarith) hy.le two_ne_zero).1 h1
  have b := (pow_le_pow_iff_left₀ hy.le (by linarith) two_ne_zero).1 h2
  rw [abs_le]
  constructor <;> linarith

theorem lanczos_at_one {r : ℝ} (h1 : 263.38318698 < r) (h2 : r < 263.38318699) :
    |Real.exp (Real.log (2 * Real.pi) / 2 + (1 - 0.5) * Real.log (1 + 6.5) - (1 + 6.5)) * r - 1| ≤ 1e-9 := by
  have hr : 0 < r := by linarith
  have hp := Real.pi_pos
  have e1 := Real.exp_one_gt_d9
  have e2 := Real.exp_one_lt_d9
  have hE : Real.exp (Real.log (2 * Real.pi) / 2 + (1 - 0.5) * Real.log (1 + 6.5) - (1 + 6.5)) ^ 2 = 15 * Real.pi / Real.exp 1 ^ 15 := by
    rw [← Real.exp_nat_mul, show ((2 : ℕ) : ℝ) * (Real.log (2 * Real.pi) / 2 + (1 - 0.5) * Real.log (1 + 6.5) - (1 + 6.5)) =
      Real.log (2 * Real.pi) + Real.log (1 + 6.5) - 15 by push_cast; ring, Real.exp_sub, Real.exp_add, Real.exp_log (by positivity),
      Real.exp_log (by norm_num), ← Real.exp_nat_mul]
    congr 1
    · ring
    · norm_num
  have u1 : (2.7182818283 : ℝ) ^ 15 ≤ Real.exp 1 ^ 15 := pow_le_pow_left₀ (by norm_num) e1.le 15
  have u2 : Real.exp 1 ^ 15 ≤ (2.7182818286 : ℝ) ^ 15 := pow_le_pow_left₀ (Real.exp_pos 1).le e2.le 15
  have hpos : 0 < Real.exp 1 ^ 15 := by positivity
  have q1 : (263.38318698 : ℝ) ^ 2 ≤ r ^ 2 := pow_le_pow_left₀ (by norm_num) h1.le 2
  have q2 : r ^ 2 ≤ (263.38318699 : ℝ) ^ 2 := pow_le_pow_left₀ hr.le h2.le 2
  have p1 := Real.pi_gt_d20
  have p2 := Real.pi_lt_d20
  refine within_of_sq (by positivity) (by norm_num) (by norm_num) ?_ ?_
  · rw [mul_pow, hE, div_mul_eq_mul_div, le_div_iff₀ hpos]
    calc (1 - 1e-9 : ℝ) ^ 2 * Real.exp 1 ^ 15 ≤ (1 - 1e-9 : ℝ) ^ 2 * 2.7182818286 ^ 15 := mul_le_mul_of_nonneg_left u2 (by norm_num)
      _ ≤ 15 * 3.14159265358979323846 * 263.38318698 ^ 2 := by norm_num
      _ ≤ 15 * Real.pi * r ^ 2 := by
        refine mul_le_mul ?_ q1 (by norm_num) (by positivity)
        linarith
  · rw [mul_pow, hE, div_mul_eq_mul_div, div_le_iff₀ hpos]
    calc 15 * Real.pi * r ^ 2 ≤ 15 * 3.14159265358979323847 * 263.38318699 ^ 2 := by
          refine mul_le_mul ?_ q2 (by positivity) (by norm_num)
          linarith
      _ ≤ (1 + 1e-9 : ℝ) ^ 2 * 2.7182818283 ^ 15 := by norm_num
      _ ≤ (1 + 1e-9 : ℝ) ^ 2 * Real.exp 1 ^ 15 := mul_le_mul_of_nonneg_left u1 (by norm_num)

theorem lanczos_at_half {r : ℝ} (h1 : 775.43674279 < r) (h2 : r < 775.43674280) :
    |Real.exp (Real.log (2 * Real.pi) / 2 + (0.5 - 0.5) * Real.log (0.5 + 6.5) - (0.5 + 6.5)) * r / Real.sqrt Real.pi - 1| ≤ 1e-9 := by
  have hr : 0 < r := by linarith
  have hp := Real.pi_pos
  have e1 := Real.exp_one_gt_d9
  have e2 := Real.exp_one_lt_d9
  have hE : Real.exp (Real.log (2 * Real.pi) / 2 + (0.5 - 0.5) * Real.log (0.5 + 6.5) - (0.5 + 6.5)) ^ 2 = 2 * Real.pi / Real.exp 1 ^ 14 := by
    rw [← Real.exp_nat_mul, show ((2 : ℕ) : ℝ) * (Real.log (2 * Real.pi) / 2 + (0.5 - 0.5) * Real.log (0.5 + 6.5) - (0.5 + 6.5)) =
      Real.log (2 * Real.pi) - 14 by push_cast; ring, Real.exp_sub, Real.exp_log (by positivity), ← Real.exp_nat_mul]
    congr 1
    norm_num
  have u1 : (2.7182818283 : ℝ) ^ 14 ≤ Real.exp 1 ^ 14 := pow_le_pow_left₀ (by norm_num) e1.le 14
  have u2 : Real.exp 1 ^ 14 ≤ (2.7182818286 : ℝ) ^ 14 := pow_le_pow_left₀ (Real.exp_pos 1).le e2.le 14
  have hpos : 0 < Real.exp 1 ^ 14 := by positivity
  have q1 : (775.43674279 : ℝ) ^ 2 ≤ r ^ 2 := pow_le_pow_left₀ (by norm_num) h1.le 2
  have q2 : r ^ 2 ≤ (775.43674280 : ℝ) ^ 2 := pow_le_pow_left₀ hr.le h2.le 2
  have hs : (Real.exp (Real.log (2 * Real.pi) / 2 + (0.5 - 0.5) * Real.log (0.5 + 6.5) - (0.5 + 6.5)) * r / Real.sqrt Real.pi) ^ 2 =
      2 * r ^ 2 / Real.exp 1 ^ 14 := by
    rw [div_pow, mul_pow, hE, Real.sq_sqrt hp.le]
    field_simp
  refine within_of_sq (by positivity) (by norm_num) (by norm_num) ?_ ?_
  · rw [hs, le_div_iff₀ hpos]
    calc (1 - 1e-9 : ℝ) ^ 2 * Real.exp 1 ^ 14 ≤ (1 - 1e-9 : ℝ) ^ 2 * 2.7182818286 ^ 14 := mul_le_mul_of_nonneg_left u2 (by norm_num)
      _ ≤ 2 * 775.43674279 ^ 2 := by norm_num
      _ ≤ 2 * r ^ 2 := by linarith
  · rw [hs, div_le_iff₀ hpos]
    calc 2 * r ^ 2 ≤ 2 * 775.43674280 ^ 2 := by linarith
      _ ≤ (1 + 1e-9 : ℝ) ^ 2 * 2.7182818283 ^ 14 := by norm_num
      _ ≤ (1 + 1e-9 : ℝ) ^ 2 * Real.exp 1 ^ 14 := mul_le_mul_of_nonneg_left u1 (by norm_num)

/-- The value of the series of `lngamma_lanczos` at a real number. -/
noncomputable def lanczosValue (s : ℝ) : ℝ :=
  0.99999999999980993227684700473478 + 676.520368121885098567009190444019 / s + -1259.13921672240287047156078755283 / (s + 1) +
    771.3234287776530788486528258894 / (s + 2) + -176.61502916214059906584551354 / (s + 3) + 12.507343278686904814458936853 / (s + 4) +
    -0.13857109526572011689554707 / (s + 5) + 9.984369578019570859563e-6 / (s + 6) + 1.50563273514931155834e-7 / (s + 7)

theorem lanczosSeries_value (s : ℝ) : lanczosSeries s = lanczosValue s := by
  unfold lanczosSeries lanczosValue upTo lanczos_p
  simp only [List.range', List.map_cons, List.map_nil, List.foldl_cons, List.foldl_nil, List.getD_cons_zero, List.getD_cons_succ]
  push_cast
  ring_nf

/-- The value of the series of `twofast_lgamma` at a real number. -/
noncomputable def twofastValue (s : ℝ) : ℝ :=
  0.99999999999980993 + 676.5203681218851 / s + -1259.1392167224028 / (s + 1) + 771.32342877765313 / (s + 2) +
    -176.61502916214059 / (s + 3) + 12.507343278686905 / (s + 4) + -0.13857109526572012 / (s + 5) +
    9.9843695780195716e-6 / (s + 6) + 1.5056327351493116e-7 / (s + 7)

theorem twofastSeries_value (s : ℝ) : twofastSeries s = twofastValue s := by
  unfold twofastSeries twofastValue upTo gamma_coeff
  simp only [List.range', List.map_cons, List.map_nil, List.foldl_cons, List.foldl_nil, List.getD_cons_zero, List.getD_cons_succ]
  push_cast
  ring_nf

theorem form_within {X : ℂ → ℂ} {V : ℝ → ℝ} (hX : ∀ s : ℝ, X s = V s) (a1 : 263.38318698 < V 1) (a2 : V 1 < 263.38318699)
    (b1 : 775.43674279 < V 0.5) (b2 : V 0.5 < 775.43674280) :
    GammaWithin 1e-9 (fun z => Complex.exp (lanczosForm X z)) 1 ∧ GammaWithin 1e-9 (fun z => Complex.exp (lanczosForm X z)) (1 / 2) := by
  constructor
  · unfold GammaWithin
    have e := lanczosForm_real (X := X) (s := 1) (r := V 1) (by norm_num) (by linarith) (hX 1)
    rw [Complex.ofReal_one] at e
    dsimp only
    rw [e, Complex.Gamma_one, norm_one, mul_one, ← Complex.ofReal_one, ← Complex.ofReal_sub, Complex.norm_real]
    exact lanczos_at_one a1 a2
  · unfold GammaWithin
    have e := lanczosForm_real (X := X) (s := 0.5) (r := V 0.5) (by norm_num) (by linarith) (hX 0.5)
    rw [show ((0.5 : ℝ) : ℂ) = 1 / 2 by norm_num] at e
    dsimp only
    have hg : Complex.Gamma (1 / 2) = ((Real.sqrt Real.pi : ℝ) : ℂ) := by
      have := Complex.Gamma_ofReal (1 / 2)
      rw [Real.Gamma_one_half_eq] at this
      rw [← this]
      norm_num
    rw [e, hg, ← Complex.ofReal_sub, Complex.norm_real, Complex.norm_real, Real.norm_of_nonneg (Real.sqrt_nonneg _)]
    have hs : 0 < Real.sqrt Real.pi := Real.sqrt_pos.2 Real.pi_pos
    have := lanczos_at_half b1 b2
    rw [div_sub_one hs.ne', abs_div, abs_of_pos hs, div_le_iff₀ hs] at this
    exact this

/-- Both Gamma functions are right to one part in 10⁹ at one and at one half. -/
theorem C80_values : GammaWithin 1e-9 lanczosGamma 1 ∧ GammaWithin 1e-9 lanczosGamma (1 / 2) ∧
    GammaWithin 1e-9 twofastGamma 1 ∧ GammaWithin 1e-9 twofastGamma (1 / 2) := by
  have h1 : ¬ (1 : ℂ).re < 0.5 := by norm_num
  have h2 : ¬ (1 / 2 : ℂ).re < 0.5 := by norm_num
  have a := form_within lanczosSeries_value (by unfold lanczosValue; norm_num) (by unfold lanczosValue; norm_num)
    (by unfold lanczosValue; norm_num) (by unfold lanczosValue; norm_num)
  have b := form_within twofastSeries_value (by unfold twofastValue; norm_num) (by unfold twofastValue; norm_num)
    (by unfold twofastValue; norm_num) (by unfold twofastValue; norm_num)
  unfold GammaWithin lanczosGamma twofastGamma lngamma_lanczos twofast_lgamma at *
  rw [if_neg h1, if_neg h2, if_neg h1, if_neg h2, twofast_form, twofast_form, lngamma_form, lngamma_form]
  exact ⟨a.1, a.2, b.1, b.2⟩

/-- Non-vacuity of `C80_covariance_partial` and `C80_tables_partial`: order zero, exponent two, frequency zero. -/
example : ∃ v, IsBesselMellin 0 2 v ∧ ‖(Real.sqrt Real.pi / 4 : ℝ) * g_l 0 2 (fun _ => 0) 0 - v‖ ≤ 2 * 1e-9 / (1 - 1e-9) * ‖v‖ := by
  obtain ⟨a, b, -, -⟩ := C80_values
  have := C80_covariance_partial 0 2 (fun _ => 0) 0 1e-9 (by norm_num) (by norm_num) (fun n h1 h2 h => by
      have : (2 : ℂ) = (n : ℂ) := by simpa using h
      have h3 : (2 : ℤ) = n := by exact_mod_cast this
      push_cast at h2
      omega) (by norm_num at a ⊢; exact a) (by norm_num at b ⊢; exact b)
  simpa using this

example : ∃ v, IsBesselMellin 0 2 v ∧ ‖twofast_mql 0 2 0 1 - v‖ ≤ 2 * 1e-9 / (1 - 1e-9) * ‖v‖ := by
  obtain ⟨-, -, a, b⟩ := C80_values
  have := C80_tables_partial 0 0 2 1 1e-9 (by norm_num) (by norm_num) (fun n h1 h2 h => by
      have : (2 : ℂ) = (n : ℂ) := by simpa using h
      have h3 : (2 : ℤ) = n := by exact_mod_cast this
      push_cast at h2
      omega) (by norm_num at a ⊢; exact a) (by norm_num at b ⊢; exact b)
  simpa using this

/-- Non-vacuity of `C80_mellin`: the exponents of the covariance, all frequencies and orders. -/
example (l : ℕ) (η : ℝ) : -(l : ℝ) < ((1.01 : ℝ) + Complex.I * η : ℂ).re ∧
    ∀ n : ℤ, -l < n → n ≤ l + 1 → ((1.01 : ℝ) + Complex.I * η : ℂ) ≠ n := by
  have hl := Nat.cast_nonneg (α := ℝ) l
  constructor
  · simp
    linarith
  · intro n _ _ h
    have := congrArg Complex.re h
    simp at this
    have h2 : (101 : ℝ) = 100 * n := by linarith
    have h3 : (101 : ℤ) = 100 * n := by exact_mod_cast h2
    omega

/-- Non-vacuity of `C80_reflection`: one quarter. -/
example : Complex.sin (Real.pi * (1 / 4 : ℝ)) ≠ 0 ∧ ((1 / 4 : ℝ) : ℂ).re < 0.5 := by
  refine ⟨?_, by norm_num⟩
  rw [← Complex.ofReal_mul, ← Complex.ofReal_sin, Complex.ofReal_ne_zero]
  refine (Real.sin_pos_of_pos_of_lt_pi (by have := Real.pi_pos; positivity) ?_).ne'
  have := Real.pi_pos
  linarith

end Coffe
