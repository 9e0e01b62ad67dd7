import Verif.Model.Signal.Dispatch
import Verif.Spec.Witness
import Mathlib.Tactic.FieldSimp
import Mathlib.Tactic.Linarith
import Mathlib.Tactic.NormNum

/-!
# C14: full sky and flat sky agree along the line of sight
-/

namespace Coffe
open Classical

/-- Nothing evolves between the two galaxies of the pair at `z`, `mu`, `r`: every background and bias quantity
has the same value at the first galaxy, at the second one and at the mean redshift. -/
structure NoEvolutionBetween (par : Par) (bg : Bg) (z mu r : ℝ) : Prop where
  f : ∀ s ∈ ({-1, 1} : Set ℝ), bg.f (bg.z_as_chi (bg.comoving_distance z + s * (r * mu / 2))) = bg.f z
  H : ∀ s ∈ ({-1, 1} : Set ℝ), bg.conformal_Hz (bg.z_as_chi (bg.comoving_distance z + s * (r * mu / 2))) =
    bg.conformal_Hz z
  D1 : ∀ s ∈ ({-1, 1} : Set ℝ), bg.D1 (bg.z_as_chi (bg.comoving_distance z + s * (r * mu / 2))) = bg.D1 z
  G1 : ∀ s ∈ ({-1, 1} : Set ℝ), bg.G1 (bg.z_as_chi (bg.comoving_distance z + s * (r * mu / 2))) = bg.G1 z
  G2 : ∀ s ∈ ({-1, 1} : Set ℝ), bg.G2 (bg.z_as_chi (bg.comoving_distance z + s * (r * mu / 2))) = bg.G2 z
  b1 : ∀ s ∈ ({-1, 1} : Set ℝ), par.galaxy_bias1 (bg.z_as_chi (bg.comoving_distance z + s * (r * mu / 2))) =
    par.galaxy_bias1 z
  b2 : ∀ s ∈ ({-1, 1} : Set ℝ), par.galaxy_bias2 (bg.z_as_chi (bg.comoving_distance z + s * (r * mu / 2))) =
    par.galaxy_bias2 z

/-- Only density, redshift-space distortions and the Doppler term (any subset of them) are switched on. -/
def Contrib.Local (c : Contrib) : Prop :=
  c.len = false ∧ c.d2 = false ∧ c.g1 = false ∧ c.g2 = false ∧ c.g3 = false ∧ c.g4 = false ∧ c.g5 = false

/-- No derivative mode. -/
def Par.NoDerivative (par : Par) : Prop :=
  par.b_derivative = false ∧ par.f_derivative = false ∧ par.b_tilde_derivative = false ∧
    par.f_tilde_derivative = false

/-- **C14.** For galaxies on one line of sight and quantities that do not evolve between them the full-sky and
the flat-sky formulas agree, for every subset of density, redshift-space distortions and Doppler (autos and
crosses), linear and non-linear spectra. -/
theorem C14_line_of_sight (par : Par) (bg : Bg) (I : Ints) (z mu r : ℝ) (hmu : mu = 1 ∨ mu = -1) (hr : 0 < r)
    (hchi : r < 2 * bg.comoving_distance z) (hc : par.correlation_contrib.Local) (hd : par.NoDerivative)
    (he : NoEvolutionBetween par bg z mu r) :
    functions_nonintegrated { par with flatsky_local := false } bg I z mu r =
      functions_nonintegrated { par with flatsky_local := true } bg I z mu r := by
  obtain ⟨c1, c2, c3, c4, c5, c6, c7⟩ := hc
  obtain ⟨d1, d2, d3, d4⟩ := hd
  have hm2 : mu * mu = 1 := by rcases hmu with rfl | rfl <;> norm_num
  have hcos : (2 * bg.comoving_distance z * bg.comoving_distance z - r * r + mu * mu * r * r / 2) /
      (2 * bg.comoving_distance z * bg.comoving_distance z - mu * mu * r * r / 2) = 1 := by
    rw [hm2]
    have : 2 * bg.comoving_distance z * bg.comoving_distance z - 1 * r * r / 2 ≠ 0 := by nlinarith
    rw [div_eq_one_iff_eq this]; ring
  have m1 : bg.comoving_distance z - r * mu / 2 = bg.comoving_distance z + (-1) * (r * mu / 2) := by ring
  have m2 : bg.comoving_distance z + r * mu / 2 = bg.comoving_distance z + 1 * (r * mu / 2) := by ring
  have i1 : (-1 : ℝ) ∈ ({-1, 1} : Set ℝ) := by simp
  have i2 : (1 : ℝ) ∈ ({-1, 1} : Set ℝ) := by simp
  have P2 : legP2 mu = 1 := by rcases hmu with rfl | rfl <;> norm_num [legP2]
  have P4 : legP4 mu = 1 := by rcases hmu with rfl | rfl <;> norm_num [legP4]
  have P3 : legP3 mu = mu := by rcases hmu with rfl | rfl <;> norm_num [legP3]
  have P3' : legP3 (-mu) = -mu := by rcases hmu with rfl | rfl <;> norm_num [legP3]
  have m3 : mu ^ 3 = mu := by rcases hmu with rfl | rfl <;> norm_num
  have hr0 : r ≠ 0 := hr.ne'
  unfold functions_nonintegrated
  have hg : non_growth { par with flatsky_local := false } bg (NonEnv.of { par with flatsky_local := false } bg z mu r) =
      non_growth { par with flatsky_local := true } bg (NonEnv.of { par with flatsky_local := true } bg z mu r) := by
    simp only [non_growth, d1, d2, d3, d4, NonEnv.of, m1, m2, he.D1 _ i1, he.D1 _ i2]
    simp [pow_two]
  refine congrArg₂ (· * ·) ?_ hg
  set v := NonEnv.of par bg z mu r with hv
  have e1 : v.chi2 = v.chi1 + r * mu := by simp only [hv, NonEnv.of]; ring
  have e2 : v.costheta = 1 := hcos
  have e3 : v.f1 = v.fmean := by simp only [hv, NonEnv.of, m1]; exact he.f _ i1
  have e4 : v.f2 = v.fmean := by simp only [hv, NonEnv.of, m2]; exact he.f _ i2
  have e5 : v.curlyH1 = v.curlyH_mean := by simp only [hv, NonEnv.of, m1]; exact he.H _ i1
  have e6 : v.curlyH2 = v.curlyH_mean := by simp only [hv, NonEnv.of, m2]; exact he.H _ i2
  have e7 : v.b1 = v.bz_mean1 := by simp only [hv, NonEnv.of, m1]; exact he.b1 _ i1
  have e8 : v.b2 = v.bz_mean2 := by simp only [hv, NonEnv.of, m2]; exact he.b2 _ i2
  have e9 : v.G1 = v.Gz_mean1 := by simp only [hv, NonEnv.of, m1]; exact he.G1 _ i1
  have e10 : v.G2 = v.Gz_mean2 := by simp only [hv, NonEnv.of, m2]; exact he.G2 _ i2
  have e11 : v.sep = r := rfl
  have e12 : v.mu = mu := rfl
  change non_result { par with flatsky_local := false } bg I v = non_result { par with flatsky_local := true } bg I v
  clear_value v
  have q1 : legP1 mu = mu := rfl
  have q2 : legP1 (-mu) = -mu := rfl
  have k1 : non_den_den { par with flatsky_local := false } bg I v =
      non_den_den { par with flatsky_local := true } bg I v := by
    simp [non_den_den, d1, d2, d3, d4, e7, e8]
  have k2 : non_rsd_rsd { par with flatsky_local := false } bg I v =
      non_rsd_rsd { par with flatsky_local := true } bg I v := by
    simp only [non_rsd_rsd, d1, d2, d3, d4, e2, e3, e4, e12, P2, P4, e1, e11, if_true, if_false, Bool.false_eq_true,
      or_self]
    rcases hmu with rfl | rfl <;> split_ifs <;> first | rfl | (field_simp; ring)
  have k3 : non_d1_d1 { par with flatsky_local := false } bg I v =
      non_d1_d1 { par with flatsky_local := true } bg I v := by
    simp only [non_d1_d1, e2, e3, e4, e5, e6, e9, e10, e12, P2, P4, e1, e11, if_true, if_false, Bool.false_eq_true]
    rcases hmu with rfl | rfl <;> split_ifs <;> first | rfl | (field_simp; ring)
  have k4 : non_den_rsd { par with flatsky_local := false } bg I v =
      non_den_rsd { par with flatsky_local := true } bg I v := by
    simp only [non_den_rsd, d1, d2, d3, d4, e2, e3, e4, e7, e8, e12, P2, P4, e1, e11, if_true, if_false,
      Bool.false_eq_true, or_self]
    rcases hmu with rfl | rfl <;> split_ifs <;> first | rfl | (field_simp; ring)
  have k5 : non_den_d1 { par with flatsky_local := false } bg I v =
      non_den_d1 { par with flatsky_local := true } bg I v := by
    simp only [non_den_d1, e2, e3, e4, e5, e6, e7, e8, e9, e10, e12, q1, q2, e1, e11, if_true, if_false,
      Bool.false_eq_true]
    rcases hmu with rfl | rfl <;> split_ifs <;> first | rfl | (field_simp; ring)
  have k6 : non_rsd_d1 { par with flatsky_local := false } bg I v =
      non_rsd_d1 { par with flatsky_local := true } bg I v := by
    simp only [non_rsd_d1, e2, e3, e4, e5, e6, e7, e8, e9, e10, e12, q1, q2, P3, P3', e1, e11, if_true, if_false,
      Bool.false_eq_true]
    rcases hmu with rfl | rfl <;> split_ifs <;> first | rfl | (field_simp; ring)
  unfold non_result
  rw [k1, k2, k3, k4, k5, k6]
  simp [non_d2_d2, non_g1_g1, non_g2_g2, non_g3_g3, non_den_d2, non_den_g1, non_den_g2, non_den_g3, non_rsd_d2,
    non_rsd_g1, non_rsd_g2, non_rsd_g3, non_d1_d2, non_d1_g1, non_d1_g2, non_d1_g3, non_d2_g1, non_d2_g2, non_d2_g3,
    non_g1_g2, non_g1_g3, non_g2_g3, c1, c2, c3, c4, c5, c6, c7]

/-- A universe without evolution, seen at a distance of two: density, distortions and Doppler on. -/
noncomputable def wLocal : Par :=
  { wPar with correlation_contrib := { Contrib.none with den := true, rsd := true, d1 := true } }

/-- Non-vacuity: the hypotheses hold for a pair on either side, with the three effects on. -/
example : (wLocal.correlation_contrib.Local ∧ wLocal.NoDerivative ∧
    (∀ mu, NoEvolutionBetween wLocal wBg 2 mu 1) ∧ (1 : ℝ) < 2 * wBg.comoving_distance 2) := by
  refine ⟨⟨rfl, rfl, rfl, rfl, rfl, rfl, rfl⟩, ⟨rfl, rfl, rfl, rfl⟩, fun mu => ?_, ?_⟩
  · constructor <;> intros <;> rfl
  · simp [wBg]; norm_num

end Coffe
