import Verif.Proofs.Inside
import Verif.Spec.Witness
import Mathlib.Tactic.NormNum

/-!
# C74: nothing beyond the pair matters

A value of the signal depends on the background and the biases only between the observer and the farther of
the two points, and on the Fourier-Bessel integrals only up to the larger of the separation and that distance.
-/

namespace Coffe
open Classical

variable {Z : ℝ} {par par' : Par} {bg bg' : Bg} {I I' : Ints}

theorem Bg.RulerUpTo.nonneg (hb : bg.RulerUpTo Z) {z : ℝ} (hz : Within Z z) :
    0 ≤ bg.comoving_distance z ∧ bg.comoving_distance z ≤ bg.comoving_distance Z := by
  constructor
  · rcases hz.1.eq_or_lt with e | e
    · rw [← e, hb.zero]
    · have := hb.grows 0 z le_rfl e hz.2
      rw [hb.zero] at this
      exact this.le
  · rcases hz.2.eq_or_lt with e | e
    · rw [e]
    · exact (hb.grows z Z hz.1 e le_rfl).le

/-- **C74, the correlation function.** `Z` is a redshift at least as far as the farther point of the pair; two
universes that agree up to there give the same correlation function. -/
theorem C74_corrfunc_partial {Q : Quad} (hQ : Q.InsideCube) (hb : bg.RulerUpTo Z) {z m s : ℝ}
    (h : AgreeUpTo Z (bg.comoving_distance Z) (max s (bg.comoving_distance Z)) par par' bg bg' I I')
    (hz : Within Z z) (hs : 0 ≤ s) (hfront : s * |m| / 2 < bg.comoving_distance z)
    (hfar : bg.comoving_distance z + s * |m| / 2 ≤ bg.comoving_distance Z) (zmin zmax : ℝ) (l : ℕ) :
    signal_value Q par' bg' I' z zmin zmax s m l .CORRFUNC =
      signal_value Q par bg I z zmin zmax s m l .CORRFUNC :=
  inside_corrfunc hQ h (fun c hc => (hb.inverse c hc).1)
    ⟨hz, ⟨hs, le_max_left _ _⟩, hfront, hfar, le_max_right _ _⟩

/-- **C74, the multipoles.** -/
theorem C74_multipoles_partial {Q : Quad} (hQ : Q.InsideCube) (hb : bg.RulerUpTo Z) {z s : ℝ}
    (h : AgreeUpTo Z (bg.comoving_distance Z) (max s (bg.comoving_distance Z)) par par' bg bg' I I')
    (hz : Within Z z) (hs : 0 ≤ s) (hfront : s / 2 < bg.comoving_distance z)
    (hfar : bg.comoving_distance z + s / 2 ≤ bg.comoving_distance Z) (zmin zmax m : ℝ) (l : ℕ) :
    signal_value Q par' bg' I' z zmin zmax s m l .MULTIPOLES =
      signal_value Q par bg I z zmin zmax s m l .MULTIPOLES :=
  inside_multipoles hQ h (fun c hc => (hb.inverse c hc).1) hz ⟨hs, le_max_left _ _⟩ hfront hfar (le_max_right _ _)

/-- **C74, the redshift-averaged multipoles.** They depend on nothing beyond the far side of the redshift bin. -/
theorem C74_average_partial {Q : Quad} (hQ : Q.InsideCube) {zmin zmax s : ℝ} (hb : bg.RulerUpTo zmax)
    (h : AgreeUpTo zmax (bg.comoving_distance zmax) (max s (bg.comoving_distance zmax)) par par' bg bg' I I')
    (hmin : 0 < zmin) (hlt : zmin ≤ zmax) (hs : 0 ≤ s)
    (hfit : bg.comoving_distance zmin + s / 2 ≤ bg.comoving_distance zmax - s / 2) (z m : ℝ) (l : ℕ) :
    signal_value Q par' bg' I' z zmin zmax s m l .AVERAGE_MULTIPOLES =
      signal_value Q par bg I z zmin zmax s m l .AVERAGE_MULTIPOLES := by
  have h0 : 0 < bg.comoving_distance zmin := by
    have := hb.grows 0 zmin le_rfl hmin hlt
    rwa [hb.zero] at this
  have hmax : Within zmax zmax := ⟨hmin.le.trans hlt, le_rfl⟩
  refine inside_average hQ h (fun c hc => (hb.inverse c hc).1) ⟨hmin.le, hlt⟩ hmax ⟨hs, le_max_left _ _⟩ h0.le hfit
    le_rfl (le_max_right _ _) fun t ht => ?_
  obtain ⟨a1, a2⟩ := hb.inverse (bg.comoving_distance zmin + s / 2) ⟨by linarith, by linarith⟩
  obtain ⟨b1, b2⟩ := hb.inverse (bg.comoving_distance zmax - s / 2) ⟨by linarith, by linarith⟩
  unfold average_z
  generalize bg.z_as_chi (bg.comoving_distance zmin + s / 2) = p at *
  generalize bg.z_as_chi (bg.comoving_distance zmax - s / 2) = q at *
  have hpq : p ≤ q := by
    by_contra hc
    have := hb.grows q p b1.1 (not_le.1 hc) a1.2
    linarith
  obtain ⟨t0, t1⟩ := ht
  have l1 : p ≤ (q - p) * t + p := by nlinarith
  have l2 : (q - p) * t + p ≤ q := by nlinarith
  generalize (q - p) * t + p = w at *
  have m1 : bg.comoving_distance p ≤ bg.comoving_distance w := by
    rcases l1.eq_or_lt with e | e
    · rw [e]
    · exact (hb.grows p w a1.1 e (l2.trans b1.2)).le
  have m2 : bg.comoving_distance w ≤ bg.comoving_distance q := by
    rcases l2.eq_or_lt with e | e
    · rw [e]
    · exact (hb.grows w q (a1.1.trans l1) e b1.2).le
  exact ⟨⟨a1.1.trans l1, l2.trans b1.2⟩, by linarith, by linarith⟩

/-! ## A case that meets the hypotheses -/

/-- The midpoint rule. -/
noncomputable def midpointRule : Quad := ⟨fun f => f (1 / 2), fun _ f => f fun _ => 1 / 2⟩

theorem midpointRule_inside : midpointRule.InsideCube :=
  ⟨fun _ _ h => h _ ⟨by norm_num, by norm_num⟩, fun _ _ _ h => h _ fun _ _ => ⟨by norm_num, by norm_num⟩⟩

/-- A second universe: growth, bias and integrals differ beyond redshift, distance and separation three. -/
noncomputable def farBg : Bg := { wBg with D1 := fun z => if z ≤ 3 then 1 else 0, z_as_chi := fun c => min c 3 }
noncomputable def farPar (par : Par) : Par :=
  { par with galaxy_bias1 := fun z => if z ≤ 3 then par.galaxy_bias1 z else 7 }
noncomputable def farInts : Ints := fun _ => ⟨fun r => if r ≤ 3 then 1 else r, fun _ _ => 1, fun _ _ => 0, fun _ => 0⟩

theorem wBg_ruler (Z : ℝ) : wBg.RulerUpTo Z := ⟨rfl, fun _ _ _ h _ => h, fun _ h => ⟨h, rfl⟩⟩

theorem far_agree (par : Par) : AgreeUpTo 3 (wBg.comoving_distance 3) (max 1 (wBg.comoving_distance 3)) par (farPar par)
    wBg farBg (fun _ => wConst 1) farInts where
  settings := rfl
  galaxy_bias1 z h := by simp [farPar, h.2]
  galaxy_bias2 _ _ := rfl
  magnification_bias1 _ _ := rfl
  magnification_bias2 _ _ := rfl
  evolution_bias1 _ _ := rfl
  evolution_bias2 _ _ := rfl
  comoving_distance _ _ := rfl
  f _ _ := rfl
  conformal_Hz _ _ := rfl
  G1 _ _ := rfl
  G2 _ _ := rfl
  a _ _ := rfl
  D1 z h := by simp [farBg, wBg, h.2]
  z_as_chi c h := by
    have : c ≤ 3 := h.2
    simp [farBg, wBg, this]
  result k r h := by
    have : r ≤ 3 := h.2.trans (by simp [wBg])
    simp [farInts, wConst, this]
  result2d _ _ _ _ _ := rfl
  renormalization _ _ _ _ _ := rfl
  renormalization_zero_separation _ _ _ := rfl

/-- Non-vacuity of C74: all effects switched on, a pair at redshift two with separation one. -/
example (c : Contrib) : signal_value midpointRule (farPar { wPar with correlation_contrib := c }) farBg farInts 2 0 0 1 0 2
      .MULTIPOLES =
    signal_value midpointRule { wPar with correlation_contrib := c } wBg (fun _ => wConst 1) 2 0 0 1 0 2 .MULTIPOLES :=
  C74_multipoles_partial midpointRule_inside (wBg_ruler 3) (far_agree _) ⟨by norm_num, by norm_num⟩ zero_le_one
    (by simp [wBg]; norm_num) (by simp [wBg]; norm_num) 0 0 0 2

example (c : Contrib) : signal_value midpointRule (farPar { wPar with correlation_contrib := c }) farBg farInts 2 0 0 1 1 0
      .CORRFUNC =
    signal_value midpointRule { wPar with correlation_contrib := c } wBg (fun _ => wConst 1) 2 0 0 1 1 0 .CORRFUNC :=
  C74_corrfunc_partial midpointRule_inside (wBg_ruler 3) (far_agree _) ⟨by norm_num, by norm_num⟩ zero_le_one
    (by simp [wBg]; norm_num) (by simp [wBg]; norm_num) 0 0 0

example (c : Contrib) : signal_value midpointRule (farPar { wPar with correlation_contrib := c }) farBg farInts 0 1 3 1 0 4
      .AVERAGE_MULTIPOLES =
    signal_value midpointRule { wPar with correlation_contrib := c } wBg (fun _ => wConst 1) 0 1 3 1 0 4
      .AVERAGE_MULTIPOLES :=
  C74_average_partial midpointRule_inside (wBg_ruler 3) (far_agree _) one_pos (by norm_num) zero_le_one
    (by simp [wBg]; norm_num) 0 0 4

/-! ## Where it fails -/

/-- Density only, with a bias that changes with redshift. -/
noncomputable def risingPar : Par :=
  { wPar with correlation_contrib := { Contrib.none with den := true }, galaxy_bias1 := fun z => 1 + z }

theorem rising_value (bg : Bg) (z m s : ℝ) (hD : ∀ z, bg.D1 z = 1) :
    signal_value midpointRule risingPar bg (fun _ => wConst 1) z 0 0 s m 0 .CORRFUNC =
      (1 + bg.z_as_chi (bg.comoving_distance z - s * m / 2)) * 2 := by
  simp [signal_value, coffe_integrate, integrate_non, non_gate, single_gate, double_gate, functions_nonintegrated,
    non_result, non_growth, NonEnv.of, risingPar, wPar, Contrib.none, wConst, hD, Ints.I00, non_den_den, non_rsd_rsd,
    non_d1_d1, non_d2_d2, non_g1_g1, non_g2_g2, non_g3_g3, non_den_rsd, non_den_d1, non_den_d2, non_den_g1, non_den_g2,
    non_den_g3, non_rsd_d1, non_rsd_d2, non_rsd_g1, non_rsd_g2, non_rsd_g3, non_d1_d2, non_d1_g1, non_d1_g2,
    non_d1_g3, non_d2_g1, non_d2_g2, non_d2_g3, non_g1_g2, non_g1_g3, non_g2_g3]

/-- Two universes that differ only in the table of redshifts, where `p` does not hold. -/
theorem agree_of_z_as_chi {Z X R : ℝ} (g : ℝ → ℝ) (h : ∀ c, Within X c → g c = c) :
    AgreeUpTo Z X R risingPar risingPar wBg { wBg with z_as_chi := g } (fun _ => wConst 1) (fun _ => wConst 1) :=
  ⟨rfl, fun _ _ => rfl, fun _ _ => rfl, fun _ _ => rfl, fun _ _ => rfl, fun _ _ => rfl, fun _ _ => rfl, fun _ _ => rfl,
    fun _ _ => rfl, fun _ _ => rfl, fun _ _ => rfl, fun _ _ => rfl, fun _ _ => rfl, fun _ _ => rfl, h,
    fun _ _ _ => rfl, fun _ _ _ _ _ => rfl, fun _ _ _ _ _ => rfl, fun _ _ _ => rfl⟩

/-- **C74, negated (separation more than twice the distance).** One point then lies behind the observer, its
distance is negative, and the value depends on what the table of redshifts returns there: two universes that agree at
every redshift, distance and separation give different correlation functions. -/
theorem C74_behind_false : ∃ (par : Par) (bg bg' : Bg) (I : Ints) (Q : Quad), Q.InsideCube ∧ bg.RulerUpTo 15 ∧
    (∀ Z X R, AgreeUpTo Z X R par par bg bg' I I) ∧
    signal_value Q par bg' I 1 0 0 4 1 0 .CORRFUNC ≠ signal_value Q par bg I 1 0 0 4 1 0 .CORRFUNC := by
  refine ⟨risingPar, wBg, { wBg with z_as_chi := fun c => |c| }, fun _ => wConst 1, midpointRule, midpointRule_inside,
    wBg_ruler 15, fun Z X R => agree_of_z_as_chi _ fun c hc => abs_of_nonneg hc.1, ?_⟩
  rw [rising_value _ _ _ _ (fun _ => rfl), rising_value _ _ _ _ (fun _ => rfl)]
  norm_num [wBg]

/-- **C74, negated (the end of the background tables).** The background is tabulated up to redshift 15; a mean
redshift below 10 and a separation below 10000 are accepted, and the farther point of the pair can be beyond 15. -/
theorem C74_end_false : ∃ (par : Par) (bg bg' : Bg) (I : Ints) (Q : Quad), Q.InsideCube ∧ bg.RulerUpTo 15 ∧
    (∀ R, AgreeUpTo 15 (bg.comoving_distance 15) R par par bg bg' I I) ∧
    signal_value Q par bg' I 9 0 0 14 (-1) 0 .CORRFUNC ≠ signal_value Q par bg I 9 0 0 14 (-1) 0 .CORRFUNC := by
  refine ⟨risingPar, wBg, { wBg with z_as_chi := fun c => min c 15 }, fun _ => wConst 1, midpointRule,
    midpointRule_inside, wBg_ruler 15, fun R => agree_of_z_as_chi _ fun c hc => min_eq_left hc.2, ?_⟩
  rw [rising_value _ _ _ _ (fun _ => rfl), rising_value _ _ _ _ (fun _ => rfl)]
  norm_num [wBg]

/-- **C74, negated (the end of the default biases).** The default biases are tabulated up to redshift 10
(src/parser.c:34-50); a mean redshift just below 10 is accepted, and the farther point of the pair is then beyond. -/
theorem C74_bias_false : ∃ (par par' : Par) (bg : Bg) (I : Ints) (Q : Quad), Q.InsideCube ∧ bg.RulerUpTo 15 ∧
    (∀ X R, AgreeUpTo 10 X R par par' bg bg I I) ∧
    signal_value Q par' bg I 9.5 0 0 2 (-1) 0 .CORRFUNC ≠ signal_value Q par bg I 9.5 0 0 2 (-1) 0 .CORRFUNC := by
  refine ⟨risingPar, { risingPar with galaxy_bias1 := fun z => if z ≤ 10 then 1 + z else 0 }, wBg, fun _ => wConst 1,
    midpointRule, midpointRule_inside, wBg_ruler 15, fun X R => ⟨rfl, fun z h => by simp [risingPar, h.2],
      fun _ _ => rfl, fun _ _ => rfl, fun _ _ => rfl, fun _ _ => rfl, fun _ _ => rfl, fun _ _ => rfl, fun _ _ => rfl,
      fun _ _ => rfl, fun _ _ => rfl, fun _ _ => rfl, fun _ _ => rfl, fun _ _ => rfl, fun _ _ => rfl, fun _ _ _ => rfl,
      fun _ _ _ _ _ => rfl, fun _ _ _ _ _ => rfl, fun _ _ _ => rfl⟩, ?_⟩
  rw [rising_value _ _ _ _ (fun _ => rfl)]
  simp [signal_value, coffe_integrate, integrate_non, non_gate, single_gate, double_gate, functions_nonintegrated,
    non_result, non_growth, NonEnv.of, risingPar, wPar, wBg, Contrib.none, wConst, Ints.I00, non_den_den, non_rsd_rsd,
    non_d1_d1, non_d2_d2, non_g1_g1, non_g2_g2, non_g3_g3, non_den_rsd, non_den_d1, non_den_d2, non_den_g1, non_den_g2,
    non_den_g3, non_rsd_d1, non_rsd_d2, non_rsd_g1, non_rsd_g2, non_rsd_g3, non_d1_d2, non_d1_g1, non_d1_g2,
    non_d1_g3, non_d2_g1, non_d2_g2, non_d2_g3, non_g1_g2, non_g1_g3, non_g2_g3]
  norm_num

end Coffe
