import Verif.Proofs.EnsembleTables
import Verif.Spec.Effects
import Verif.Model.Signal.NonIntegrated

/-!
# The terms of `functions_nonintegrated` through the tables
-/

namespace Coffe
open Complex Classical

/-- The matter density that the code uses, and its Hubble constant. -/
noncomputable def Par.omega (par : Par) : ℝ := par.Omega0_cdm + par.Omega0_baryon
/-- The Hubble constant. -/
noncomputable def Par.hubble (par : Par) : ℝ := COFFE_H0 * par.h

/-- The properties of the first galaxy. -/
noncomputable def NonEnv.sample1 (bg : Bg) (v : NonEnv) : Sample := ⟨v.b1, v.f1, v.curlyH1, v.G1, v.fevo1, v.s1, v.a1, bg.D1 v.z1⟩
/-- The properties of the second galaxy. -/
noncomputable def NonEnv.sample2 (bg : Bg) (v : NonEnv) : Sample := ⟨v.b2, v.f2, v.curlyH2, v.G2, v.fevo2, v.s2, v.a2, bg.D1 v.z2⟩

/-- The linear spectrum in full sky. -/
def Par.FullSky (par : Par) : Prop :=
  par.flatsky_local = false ∧ par.flatsky_local_nonlocal = false ∧ par.flatsky_nonlocal = false ∧
  (par.pk_type = .COFFE_PK_LINEAR ∨ par.midpoint_approximation = false) ∧ par.b_derivative = false ∧
  par.f_derivative = false ∧ par.b_tilde_derivative = false ∧ par.f_tilde_derivative = false

/-- The value of the two-point function of two local effects through the tables. -/
noncomputable def localTable (par : Par) (I : Ints) (g₁ g₂ : Sample) (χ₁ χ₂ r : ℝ) (A B : LocalEffect) : ℝ :=
  let R₁ := localResponse par.hubble par.omega g₁ A
  let R₂ := localResponse par.hubble par.omega g₂ B
  tableSum I r (weights R₁ R₂ ((χ₂ ^ 2 - χ₁ ^ 2 - r ^ 2) / (2 * χ₁ * r)) ((χ₂ ^ 2 - χ₁ ^ 2 + r ^ 2) / (2 * χ₂ * r))
    (cosObserver χ₁ χ₂ r)) - R₁.potential * R₂.potential * I.I40.renormalization χ₁ χ₂

section terms
variable {par : Par} (bg : Bg) (I : Ints) {v : NonEnv}

/-- What the terms need: full sky, linear spectrum, two separate places in front of the observer. -/
structure NonEnv.Regular (par : Par) (v : NonEnv) : Prop where
  full : par.FullSky
  cos : v.costheta = cosObserver v.chi1 v.chi2 v.sep
  pos1 : 0 < v.chi1
  pos2 : 0 < v.chi2
  pos : 0 < v.sep

theorem Par.FullSky.linear (h : par.FullSky) : ¬ ((par.pk_type ≠ .COFFE_PK_LINEAR) ∧ par.midpoint_approximation = true) :=
  fun hh => by
    rcases h.2.2.2.1 with f | f
    · exact hh.1 f
    · simp [f] at hh

/-- The table value for the two galaxies of the pair. -/
noncomputable abbrev NonEnv.pairTable (par : Par) (bg : Bg) (I : Ints) (v : NonEnv) (A B : LocalEffect) : ℝ :=
  localTable par I (v.sample1 bg) (v.sample2 bg) v.chi1 v.chi2 v.sep A B

/-- The table value with the Doppler amplitude of the first galaxy replaced by one. -/
noncomputable abbrev NonEnv.pairTable1 (par : Par) (bg : Bg) (I : Ints) (v : NonEnv) (A B : LocalEffect) : ℝ :=
  localTable par I { v.sample1 bg with G := 1 } (v.sample2 bg) v.chi1 v.chi2 v.sep A B

/-- The table value with the Doppler amplitude of the second galaxy replaced by one. -/
noncomputable abbrev NonEnv.pairTable2 (par : Par) (bg : Bg) (I : Ints) (v : NonEnv) (A B : LocalEffect) : ℝ :=
  localTable par I (v.sample1 bg) { v.sample2 bg with G := 1 } v.chi1 v.chi2 v.sep A B

theorem non_den_den_eq (h : v.Regular par) :
    non_den_den par bg I v = if par.correlation_contrib.den ∧ ¬ par.only_cross_correlations then
      v.pairTable par bg I .den .den else 0 := by
  have p1 := h.pos1
  have p2 := h.pos2
  have p3 := h.pos
  unfold non_den_den
  try simp only [h.full.1, Bool.false_eq_true, if_false, h.full.linear, h.cos]
  refine if_congr Iff.rfl ?_ rfl
  simp only [NonEnv.pairTable, NonEnv.pairTable1, NonEnv.pairTable2, localTable, localResponse, potentialOf, tableSum, weights,
    NonEnv.sample1, NonEnv.sample2, Par.omega, Par.hubble, cosObserver]
  field_simp
  ring

theorem non_rsd_rsd_eq (h : v.Regular par) :
    non_rsd_rsd par bg I v = if par.correlation_contrib.rsd ∧ ¬ par.only_cross_correlations then
      v.pairTable par bg I .rsd .rsd else 0 := by
  have p1 := h.pos1
  have p2 := h.pos2
  have p3 := h.pos
  unfold non_rsd_rsd
  try simp only [h.full.1, Bool.false_eq_true, if_false, h.full.linear, h.cos]
  refine if_congr Iff.rfl ?_ rfl
  simp only [NonEnv.pairTable, NonEnv.pairTable1, NonEnv.pairTable2, localTable, localResponse, potentialOf, tableSum, weights,
    NonEnv.sample1, NonEnv.sample2, Par.omega, Par.hubble, cosObserver]
  field_simp
  ring

theorem non_d1_d1_eq (h : v.Regular par) :
    non_d1_d1 par bg I v = if par.correlation_contrib.d1 ∧ ¬ par.only_cross_correlations then
      v.pairTable par bg I .d1 .d1
        - 2 * (v.curlyH1 * v.f1 * v.G1 * (v.curlyH2 * v.f2 * v.G2) * (v.costheta / 3
          - (v.chi2 ^ 2 - v.chi1 ^ 2 - v.sep ^ 2) / (2 * v.chi1 * v.sep) * ((v.chi2 ^ 2 - v.chi1 ^ 2 + v.sep ^ 2) / (2 * v.chi2 * v.sep)))
          * (v.sep ^ 2 * I.I22.result v.sep)) else 0 := by
  have p1 := h.pos1
  have p2 := h.pos2
  have p3 := h.pos
  unfold non_d1_d1
  try simp only [h.full.1, Bool.false_eq_true, if_false, h.full.linear, h.cos]
  refine if_congr Iff.rfl ?_ rfl
  simp only [NonEnv.pairTable, NonEnv.pairTable1, NonEnv.pairTable2, localTable, localResponse, potentialOf, tableSum, weights,
    NonEnv.sample1, NonEnv.sample2, Par.omega, Par.hubble, cosObserver]
  field_simp
  ring

theorem non_d2_d2_eq (h : v.Regular par) :
    non_d2_d2 par bg I v = if par.correlation_contrib.d2 ∧ ¬ par.only_cross_correlations then
      v.pairTable par bg I .d2 .d2 else 0 := by
  have p1 := h.pos1
  have p2 := h.pos2
  have p3 := h.pos
  unfold non_d2_d2
  try simp only [h.full.1, Bool.false_eq_true, if_false, h.full.linear, h.cos]
  refine if_congr Iff.rfl ?_ rfl
  simp only [NonEnv.pairTable, NonEnv.pairTable1, NonEnv.pairTable2, localTable, localResponse, potentialOf, tableSum, weights,
    NonEnv.sample1, NonEnv.sample2, Par.omega, Par.hubble, cosObserver]
  field_simp
  ring

theorem non_g1_g1_eq (h : v.Regular par) :
    non_g1_g1 par bg I v = if par.correlation_contrib.g1 ∧ ¬ par.only_cross_correlations then
      v.pairTable par bg I .g1 .g1 else 0 := by
  have p1 := h.pos1
  have p2 := h.pos2
  have p3 := h.pos
  unfold non_g1_g1
  try simp only [h.full.1, Bool.false_eq_true, if_false, h.full.linear, h.cos]
  refine if_congr Iff.rfl ?_ rfl
  simp only [NonEnv.pairTable, NonEnv.pairTable1, NonEnv.pairTable2, localTable, localResponse, potentialOf, tableSum, weights,
    NonEnv.sample1, NonEnv.sample2, Par.omega, Par.hubble, cosObserver]
  field_simp
  ring

theorem non_g2_g2_eq (h : v.Regular par) :
    non_g2_g2 par bg I v = if par.correlation_contrib.g2 ∧ ¬ par.only_cross_correlations then
      v.pairTable par bg I .g2 .g2 else 0 := by
  have p1 := h.pos1
  have p2 := h.pos2
  have p3 := h.pos
  unfold non_g2_g2
  try simp only [h.full.1, Bool.false_eq_true, if_false, h.full.linear, h.cos]
  refine if_congr Iff.rfl ?_ rfl
  simp only [NonEnv.pairTable, NonEnv.pairTable1, NonEnv.pairTable2, localTable, localResponse, potentialOf, tableSum, weights,
    NonEnv.sample1, NonEnv.sample2, Par.omega, Par.hubble, cosObserver]
  field_simp
  ring

theorem non_g3_g3_eq (h : v.Regular par) :
    non_g3_g3 par bg I v = if par.correlation_contrib.g3 ∧ ¬ par.only_cross_correlations then
      v.pairTable par bg I .g3 .g3 else 0 := by
  have p1 := h.pos1
  have p2 := h.pos2
  have p3 := h.pos
  unfold non_g3_g3
  try simp only [h.full.1, Bool.false_eq_true, if_false, h.full.linear, h.cos]
  refine if_congr Iff.rfl ?_ rfl
  simp only [NonEnv.pairTable, NonEnv.pairTable1, NonEnv.pairTable2, localTable, localResponse, potentialOf, tableSum, weights,
    NonEnv.sample1, NonEnv.sample2, Par.omega, Par.hubble, cosObserver]
  field_simp
  ring

theorem non_den_rsd_eq (h : v.Regular par) :
    non_den_rsd par bg I v = if par.correlation_contrib.den ∧ par.correlation_contrib.rsd then
      v.pairTable par bg I .den .rsd + v.pairTable par bg I .rsd .den else 0 := by
  have p1 := h.pos1
  have p2 := h.pos2
  have p3 := h.pos
  unfold non_den_rsd
  try simp only [h.full.1, Bool.false_eq_true, if_false, h.full.linear, h.cos]
  refine if_congr Iff.rfl ?_ rfl
  simp only [NonEnv.pairTable, NonEnv.pairTable1, NonEnv.pairTable2, localTable, localResponse, potentialOf, tableSum, weights,
    NonEnv.sample1, NonEnv.sample2, Par.omega, Par.hubble, cosObserver]
  field_simp
  ring

theorem non_den_d1_eq (h : v.Regular par) :
    non_den_d1 par bg I v = if par.correlation_contrib.den ∧ par.correlation_contrib.d1 then
      v.pairTable par bg I .den .d1 + v.pairTable par bg I .d1 .den else 0 := by
  have p1 := h.pos1
  have p2 := h.pos2
  have p3 := h.pos
  unfold non_den_d1
  try simp only [h.full.1, Bool.false_eq_true, if_false, h.full.linear, h.cos]
  refine if_congr Iff.rfl ?_ rfl
  simp only [NonEnv.pairTable, NonEnv.pairTable1, NonEnv.pairTable2, localTable, localResponse, potentialOf, tableSum, weights,
    NonEnv.sample1, NonEnv.sample2, Par.omega, Par.hubble, cosObserver]
  field_simp
  ring

theorem non_den_d2_eq (h : v.Regular par) :
    non_den_d2 par bg I v = if par.correlation_contrib.den ∧ par.correlation_contrib.d2 then
      v.pairTable par bg I .den .d2 + v.pairTable par bg I .d2 .den else 0 := by
  have p1 := h.pos1
  have p2 := h.pos2
  have p3 := h.pos
  unfold non_den_d2
  try simp only [h.full.1, Bool.false_eq_true, if_false, h.full.linear, h.cos]
  refine if_congr Iff.rfl ?_ rfl
  simp only [NonEnv.pairTable, NonEnv.pairTable1, NonEnv.pairTable2, localTable, localResponse, potentialOf, tableSum, weights,
    NonEnv.sample1, NonEnv.sample2, Par.omega, Par.hubble, cosObserver]
  field_simp
  ring

theorem non_den_g1_eq (h : v.Regular par) :
    non_den_g1 par bg I v = if par.correlation_contrib.den ∧ par.correlation_contrib.g1 then
      v.pairTable par bg I .den .g1 + v.pairTable par bg I .g1 .den else 0 := by
  have p1 := h.pos1
  have p2 := h.pos2
  have p3 := h.pos
  unfold non_den_g1
  try simp only [h.full.1, Bool.false_eq_true, if_false, h.full.linear, h.cos]
  refine if_congr Iff.rfl ?_ rfl
  simp only [NonEnv.pairTable, NonEnv.pairTable1, NonEnv.pairTable2, localTable, localResponse, potentialOf, tableSum, weights,
    NonEnv.sample1, NonEnv.sample2, Par.omega, Par.hubble, cosObserver]
  field_simp
  ring

theorem non_den_g2_eq (h : v.Regular par) :
    non_den_g2 par bg I v = if par.correlation_contrib.den ∧ par.correlation_contrib.g2 then
      v.pairTable par bg I .den .g2 + v.pairTable par bg I .g2 .den else 0 := by
  have p1 := h.pos1
  have p2 := h.pos2
  have p3 := h.pos
  unfold non_den_g2
  try simp only [h.full.1, Bool.false_eq_true, if_false, h.full.linear, h.cos]
  refine if_congr Iff.rfl ?_ rfl
  simp only [NonEnv.pairTable, NonEnv.pairTable1, NonEnv.pairTable2, localTable, localResponse, potentialOf, tableSum, weights,
    NonEnv.sample1, NonEnv.sample2, Par.omega, Par.hubble, cosObserver]
  field_simp
  ring

theorem non_den_g3_eq (h : v.Regular par) :
    non_den_g3 par bg I v = if par.correlation_contrib.den ∧ par.correlation_contrib.g3 then
      v.pairTable par bg I .den .g3 + v.pairTable par bg I .g3 .den else 0 := by
  have p1 := h.pos1
  have p2 := h.pos2
  have p3 := h.pos
  unfold non_den_g3
  try simp only [h.full.1, Bool.false_eq_true, if_false, h.full.linear, h.cos]
  refine if_congr Iff.rfl ?_ rfl
  simp only [NonEnv.pairTable, NonEnv.pairTable1, NonEnv.pairTable2, localTable, localResponse, potentialOf, tableSum, weights,
    NonEnv.sample1, NonEnv.sample2, Par.omega, Par.hubble, cosObserver]
  field_simp
  ring

theorem non_rsd_d1_eq (h : v.Regular par) :
    non_rsd_d1 par bg I v = if par.correlation_contrib.rsd ∧ par.correlation_contrib.d1 then
      v.pairTable par bg I .rsd .d1 + v.pairTable par bg I .d1 .rsd else 0 := by
  have p1 := h.pos1
  have p2 := h.pos2
  have p3 := h.pos
  unfold non_rsd_d1
  try simp only [h.full.1, Bool.false_eq_true, if_false, h.full.linear, h.cos]
  refine if_congr Iff.rfl ?_ rfl
  simp only [NonEnv.pairTable, NonEnv.pairTable1, NonEnv.pairTable2, localTable, localResponse, potentialOf, tableSum, weights,
    NonEnv.sample1, NonEnv.sample2, Par.omega, Par.hubble, cosObserver]
  field_simp
  ring

theorem non_rsd_d2_eq (h : v.Regular par) :
    non_rsd_d2 par bg I v = if par.correlation_contrib.rsd ∧ par.correlation_contrib.d2 then
      v.pairTable par bg I .rsd .d2 + v.pairTable par bg I .d2 .rsd else 0 := by
  have p1 := h.pos1
  have p2 := h.pos2
  have p3 := h.pos
  unfold non_rsd_d2
  try simp only [h.full.1, Bool.false_eq_true, if_false, h.full.linear, h.cos]
  refine if_congr Iff.rfl ?_ rfl
  simp only [NonEnv.pairTable, NonEnv.pairTable1, NonEnv.pairTable2, localTable, localResponse, potentialOf, tableSum, weights,
    NonEnv.sample1, NonEnv.sample2, Par.omega, Par.hubble, cosObserver]
  field_simp
  ring

theorem non_rsd_g1_eq (h : v.Regular par) :
    non_rsd_g1 par bg I v = if par.correlation_contrib.rsd ∧ par.correlation_contrib.g1 then
      v.pairTable par bg I .rsd .g1 + v.pairTable par bg I .g1 .rsd else 0 := by
  have p1 := h.pos1
  have p2 := h.pos2
  have p3 := h.pos
  unfold non_rsd_g1
  try simp only [h.full.1, Bool.false_eq_true, if_false, h.full.linear, h.cos]
  refine if_congr Iff.rfl ?_ rfl
  simp only [NonEnv.pairTable, NonEnv.pairTable1, NonEnv.pairTable2, localTable, localResponse, potentialOf, tableSum, weights,
    NonEnv.sample1, NonEnv.sample2, Par.omega, Par.hubble, cosObserver]
  field_simp
  ring

theorem non_rsd_g2_eq (h : v.Regular par) :
    non_rsd_g2 par bg I v = if par.correlation_contrib.rsd ∧ par.correlation_contrib.g2 then
      v.pairTable par bg I .rsd .g2 + v.pairTable par bg I .g2 .rsd else 0 := by
  have p1 := h.pos1
  have p2 := h.pos2
  have p3 := h.pos
  unfold non_rsd_g2
  try simp only [h.full.1, Bool.false_eq_true, if_false, h.full.linear, h.cos]
  refine if_congr Iff.rfl ?_ rfl
  simp only [NonEnv.pairTable, NonEnv.pairTable1, NonEnv.pairTable2, localTable, localResponse, potentialOf, tableSum, weights,
    NonEnv.sample1, NonEnv.sample2, Par.omega, Par.hubble, cosObserver]
  field_simp
  ring

theorem non_rsd_g3_eq (h : v.Regular par) :
    non_rsd_g3 par bg I v = if par.correlation_contrib.rsd ∧ par.correlation_contrib.g3 then
      v.pairTable par bg I .rsd .g3 + v.pairTable par bg I .g3 .rsd else 0 := by
  have p1 := h.pos1
  have p2 := h.pos2
  have p3 := h.pos
  unfold non_rsd_g3
  try simp only [h.full.1, Bool.false_eq_true, if_false, h.full.linear, h.cos]
  refine if_congr Iff.rfl ?_ rfl
  simp only [NonEnv.pairTable, NonEnv.pairTable1, NonEnv.pairTable2, localTable, localResponse, potentialOf, tableSum, weights,
    NonEnv.sample1, NonEnv.sample2, Par.omega, Par.hubble, cosObserver]
  field_simp
  ring

theorem non_d1_d2_eq (h : v.Regular par) :
    non_d1_d2 par bg I v = if par.correlation_contrib.d1 ∧ par.correlation_contrib.d2 then
      v.pairTable1 par bg I .d1 .d2 + v.pairTable2 par bg I .d2 .d1 else 0 := by
  have p1 := h.pos1
  have p2 := h.pos2
  have p3 := h.pos
  unfold non_d1_d2
  try simp only [h.full.1, Bool.false_eq_true, if_false, h.full.linear, h.cos]
  refine if_congr Iff.rfl ?_ rfl
  simp only [NonEnv.pairTable, NonEnv.pairTable1, NonEnv.pairTable2, localTable, localResponse, potentialOf, tableSum, weights,
    NonEnv.sample1, NonEnv.sample2, Par.omega, Par.hubble, cosObserver]
  field_simp
  ring

theorem non_d1_g1_eq (h : v.Regular par) :
    non_d1_g1 par bg I v = if par.correlation_contrib.d1 ∧ par.correlation_contrib.g1 then
      v.pairTable1 par bg I .d1 .g1 + v.pairTable2 par bg I .g1 .d1 else 0 := by
  have p1 := h.pos1
  have p2 := h.pos2
  have p3 := h.pos
  unfold non_d1_g1
  try simp only [h.full.1, Bool.false_eq_true, if_false, h.full.linear, h.cos]
  refine if_congr Iff.rfl ?_ rfl
  simp only [NonEnv.pairTable, NonEnv.pairTable1, NonEnv.pairTable2, localTable, localResponse, potentialOf, tableSum, weights,
    NonEnv.sample1, NonEnv.sample2, Par.omega, Par.hubble, cosObserver]
  field_simp
  ring

theorem non_d1_g2_eq (h : v.Regular par) :
    non_d1_g2 par bg I v = if par.correlation_contrib.d1 ∧ par.correlation_contrib.g2 then
      v.pairTable1 par bg I .d1 .g2 + v.pairTable2 par bg I .g2 .d1 else 0 := by
  have p1 := h.pos1
  have p2 := h.pos2
  have p3 := h.pos
  unfold non_d1_g2
  try simp only [h.full.1, Bool.false_eq_true, if_false, h.full.linear, h.cos]
  refine if_congr Iff.rfl ?_ rfl
  simp only [NonEnv.pairTable, NonEnv.pairTable1, NonEnv.pairTable2, localTable, localResponse, potentialOf, tableSum, weights,
    NonEnv.sample1, NonEnv.sample2, Par.omega, Par.hubble, cosObserver]
  field_simp
  ring

theorem non_d1_g3_eq (h : v.Regular par) :
    non_d1_g3 par bg I v = if par.correlation_contrib.d1 ∧ par.correlation_contrib.g3 then
      v.pairTable1 par bg I .d1 .g3 + v.pairTable2 par bg I .g3 .d1 else 0 := by
  have p1 := h.pos1
  have p2 := h.pos2
  have p3 := h.pos
  unfold non_d1_g3
  try simp only [h.full.1, Bool.false_eq_true, if_false, h.full.linear, h.cos]
  refine if_congr Iff.rfl ?_ rfl
  simp only [NonEnv.pairTable, NonEnv.pairTable1, NonEnv.pairTable2, localTable, localResponse, potentialOf, tableSum, weights,
    NonEnv.sample1, NonEnv.sample2, Par.omega, Par.hubble, cosObserver]
  field_simp
  ring

theorem non_d2_g1_eq (h : v.Regular par) :
    non_d2_g1 par bg I v = if par.correlation_contrib.d2 ∧ par.correlation_contrib.g1 then
      v.pairTable par bg I .d2 .g1 + v.pairTable par bg I .g1 .d2 else 0 := by
  have p1 := h.pos1
  have p2 := h.pos2
  have p3 := h.pos
  unfold non_d2_g1
  try simp only [h.full.1, Bool.false_eq_true, if_false, h.full.linear, h.cos]
  refine if_congr Iff.rfl ?_ rfl
  simp only [NonEnv.pairTable, NonEnv.pairTable1, NonEnv.pairTable2, localTable, localResponse, potentialOf, tableSum, weights,
    NonEnv.sample1, NonEnv.sample2, Par.omega, Par.hubble, cosObserver]
  field_simp
  ring

theorem non_d2_g2_eq (h : v.Regular par) :
    non_d2_g2 par bg I v = if par.correlation_contrib.d2 ∧ par.correlation_contrib.g2 then
      v.pairTable par bg I .d2 .g2 + v.pairTable par bg I .g2 .d2 else 0 := by
  have p1 := h.pos1
  have p2 := h.pos2
  have p3 := h.pos
  unfold non_d2_g2
  try simp only [h.full.1, Bool.false_eq_true, if_false, h.full.linear, h.cos]
  refine if_congr Iff.rfl ?_ rfl
  simp only [NonEnv.pairTable, NonEnv.pairTable1, NonEnv.pairTable2, localTable, localResponse, potentialOf, tableSum, weights,
    NonEnv.sample1, NonEnv.sample2, Par.omega, Par.hubble, cosObserver]
  field_simp
  ring

theorem non_d2_g3_eq (h : v.Regular par) :
    non_d2_g3 par bg I v = if par.correlation_contrib.d2 ∧ par.correlation_contrib.g3 then
      v.pairTable par bg I .d2 .g3 + v.pairTable par bg I .g3 .d2 else 0 := by
  have p1 := h.pos1
  have p2 := h.pos2
  have p3 := h.pos
  unfold non_d2_g3
  try simp only [h.full.1, Bool.false_eq_true, if_false, h.full.linear, h.cos]
  refine if_congr Iff.rfl ?_ rfl
  simp only [NonEnv.pairTable, NonEnv.pairTable1, NonEnv.pairTable2, localTable, localResponse, potentialOf, tableSum, weights,
    NonEnv.sample1, NonEnv.sample2, Par.omega, Par.hubble, cosObserver]
  field_simp
  ring

theorem non_g1_g2_eq (h : v.Regular par) :
    non_g1_g2 par bg I v = if par.correlation_contrib.g1 ∧ par.correlation_contrib.g2 then
      v.pairTable par bg I .g1 .g2 + v.pairTable par bg I .g2 .g1 else 0 := by
  have p1 := h.pos1
  have p2 := h.pos2
  have p3 := h.pos
  unfold non_g1_g2
  try simp only [h.full.1, Bool.false_eq_true, if_false, h.full.linear, h.cos]
  refine if_congr Iff.rfl ?_ rfl
  simp only [NonEnv.pairTable, NonEnv.pairTable1, NonEnv.pairTable2, localTable, localResponse, potentialOf, tableSum, weights,
    NonEnv.sample1, NonEnv.sample2, Par.omega, Par.hubble, cosObserver]
  field_simp
  ring

theorem non_g1_g3_eq (h : v.Regular par) :
    non_g1_g3 par bg I v = if par.correlation_contrib.g1 ∧ par.correlation_contrib.g3 then
      v.pairTable par bg I .g1 .g3 + v.pairTable par bg I .g3 .g1 else 0 := by
  have p1 := h.pos1
  have p2 := h.pos2
  have p3 := h.pos
  unfold non_g1_g3
  try simp only [h.full.1, Bool.false_eq_true, if_false, h.full.linear, h.cos]
  refine if_congr Iff.rfl ?_ rfl
  simp only [NonEnv.pairTable, NonEnv.pairTable1, NonEnv.pairTable2, localTable, localResponse, potentialOf, tableSum, weights,
    NonEnv.sample1, NonEnv.sample2, Par.omega, Par.hubble, cosObserver]
  field_simp
  ring

theorem non_g2_g3_eq (h : v.Regular par) :
    non_g2_g3 par bg I v = if par.correlation_contrib.g2 ∧ par.correlation_contrib.g3 then
      v.pairTable par bg I .g2 .g3 + v.pairTable par bg I .g3 .g2 else 0 := by
  have p1 := h.pos1
  have p2 := h.pos2
  have p3 := h.pos
  unfold non_g2_g3
  try simp only [h.full.1, Bool.false_eq_true, if_false, h.full.linear, h.cos]
  refine if_congr Iff.rfl ?_ rfl
  simp only [NonEnv.pairTable, NonEnv.pairTable1, NonEnv.pairTable2, localTable, localResponse, potentialOf, tableSum, weights,
    NonEnv.sample1, NonEnv.sample2, Par.omega, Par.hubble, cosObserver]
  field_simp
  ring

/-! ## The sum over the requested effects -/

/-- Whether an effect is requested. -/
def Contrib.atGalaxy (c : Contrib) : LocalEffect → Bool
  | .den => c.den
  | .rsd => c.rsd
  | .d1 => c.d1
  | .d2 => c.d2
  | .g1 => c.g1
  | .g2 => c.g2
  | .g3 => c.g3

/-- A sum over the local effects. -/
theorem sum_local {M : Type*} [AddCommMonoid M] (g : LocalEffect → M) :
    ∑ A, g A = g .den + g .rsd + g .d1 + g .d2 + g .g1 + g .g2 + g .g3 := by
  have : (Finset.univ : Finset LocalEffect) = {.den, .rsd, .d1, .d2, .g1, .g2, .g3} := rfl
  rw [this]
  simp [Finset.sum_insert, add_assoc]

/-- The properties of the first galaxy, as the terms use them. -/
noncomputable def NonEnv.used1 (bg : Bg) (v : NonEnv) : LocalEffect → LocalEffect → Sample
  | .d1, .d2 => { v.sample1 bg with G := 1 }
  | .d1, .g1 => { v.sample1 bg with G := 1 }
  | .d1, .g2 => { v.sample1 bg with G := 1 }
  | .d1, .g3 => { v.sample1 bg with G := 1 }
  | _, _ => v.sample1 bg

/-- The properties of the second galaxy, as the terms use them. -/
noncomputable def NonEnv.used2 (bg : Bg) (v : NonEnv) : LocalEffect → LocalEffect → Sample
  | .d2, .d1 => { v.sample2 bg with G := 1 }
  | .g1, .d1 => { v.sample2 bg with G := 1 }
  | .g2, .d1 => { v.sample2 bg with G := 1 }
  | .g3, .d1 => { v.sample2 bg with G := 1 }
  | _, _ => v.sample2 bg

theorem NonEnv.used1_eq (v : NonEnv) {A B : LocalEffect} (h : ¬ (A = .d1 ∧ (B = .d2 ∨ B = .g1 ∨ B = .g2 ∨ B = .g3))) :
    v.used1 bg A B = v.sample1 bg := by
  cases A <;> cases B <;> first | (exfalso; simp at h; done) | rfl

theorem NonEnv.used2_eq (v : NonEnv) {A B : LocalEffect} (h : ¬ (B = .d1 ∧ (A = .d2 ∨ A = .g1 ∨ A = .g2 ∨ A = .g3))) :
    v.used2 bg A B = v.sample2 bg := by
  cases A <;> cases B <;> first | (exfalso; simp at h; done) | rfl

/-- The deviation of the term Doppler-Doppler. -/
noncomputable def NonEnv.dopplerError (I : Ints) (v : NonEnv) : ℝ :=
  2 * (v.curlyH1 * v.f1 * v.G1 * (v.curlyH2 * v.f2 * v.G2) * (v.costheta / 3
    - (v.chi2 ^ 2 - v.chi1 ^ 2 - v.sep ^ 2) / (2 * v.chi1 * v.sep) * ((v.chi2 ^ 2 - v.chi1 ^ 2 + v.sep ^ 2) / (2 * v.chi2 * v.sep)))
    * (v.sep ^ 2 * I.I22.result v.sep))

/-- The value of all terms through the tables. -/
theorem non_result_eq (h : v.Regular par) :
    non_result par bg I v = (∑ A : LocalEffect, ∑ B : LocalEffect,
      if par.correlation_contrib.atGalaxy A ∧ par.correlation_contrib.atGalaxy B ∧ ¬ (A = B ∧ par.only_cross_correlations) then
        localTable par I (v.used1 bg A B) (v.used2 bg A B) v.chi1 v.chi2 v.sep A B else 0)
      - if par.correlation_contrib.d1 ∧ ¬ par.only_cross_correlations then v.dopplerError I else 0 := by
  have pair : ∀ (a b : Bool) (x y : ℝ), (if a = true ∧ b = true then x + y else 0)
      = (if a = true ∧ b = true then x else 0) + (if b = true ∧ a = true then y else 0) := by
    intro a b x y
    cases a <;> cases b <;> simp
  have sub : ∀ (a b : Bool) (x y : ℝ), (if a = true ∧ ¬ b = true then x - y else 0)
      = (if a = true ∧ ¬ b = true then x else 0) - (if a = true ∧ ¬ b = true then y else 0) := by
    intro a b x y
    cases a <;> cases b <;> simp
  unfold non_result
  rw [non_d1_d1_eq bg I h, non_d1_d2_eq bg I h, non_d1_g1_eq bg I h, non_d1_g2_eq bg I h, non_d1_g3_eq bg I h, non_den_den_eq bg I h, non_rsd_rsd_eq bg I h, non_d2_d2_eq bg I h, non_g1_g1_eq bg I h,
    non_g2_g2_eq bg I h, non_g3_g3_eq bg I h, non_den_rsd_eq bg I h, non_den_d1_eq bg I h, non_den_d2_eq bg I h,
    non_den_g1_eq bg I h, non_den_g2_eq bg I h, non_den_g3_eq bg I h, non_rsd_d1_eq bg I h, non_rsd_d2_eq bg I h,
    non_rsd_g1_eq bg I h, non_rsd_g2_eq bg I h, non_rsd_g3_eq bg I h, non_d2_g1_eq bg I h, non_d2_g2_eq bg I h,
    non_d2_g3_eq bg I h, non_g1_g2_eq bg I h, non_g1_g3_eq bg I h, non_g2_g3_eq bg I h]
  simp only [pair, sub, sum_local, Contrib.atGalaxy, NonEnv.used1, NonEnv.used2, reduceCtorEq, false_and, not_false_eq_true, and_true, true_and, and_self_left]
  simp only [NonEnv.dopplerError]
  ring

/-- Multiples of the responses multiply the two-point function. -/
theorem twoPoint_scale {P : ℝ → ℝ} {kmin kmax : ℝ} (h0 : 0 < kmin) (h1 : kmin ≤ kmax)
    (hP : ContinuousOn P (Set.Icc kmin kmax)) {I : Ints} (hI : ExactTables P kmin kmax I) (R₁ R₂ : Response) (a b : ℝ)
    {X₁ X₂ : Place} {r χ₁ χ₂ : ℝ} (hr : 0 < r) (hχ₁ : 0 < χ₁) (hχ₂ : 0 < χ₂) (hX : Places r χ₁ χ₂ X₁ X₂) :
    twoPoint P kmin kmax (R₁.scale a) X₁ (R₂.scale b) X₂ =
      ((a * b * (tableSum I r (weights R₁ R₂ ((χ₂ ^ 2 - χ₁ ^ 2 - r ^ 2) / (2 * χ₁ * r))
        ((χ₂ ^ 2 - χ₁ ^ 2 + r ^ 2) / (2 * χ₂ * r)) (cosObserver χ₁ χ₂ r))
        - R₁.potential * R₂.potential * I.I40.renormalization χ₁ χ₂) : ℝ) : ℂ) := by
  obtain ⟨p, q, rfl, rfl, e₁, e₂⟩ := hX
  rw [twoPoint_tables h0 h1 hP hI _ _ hr hχ₁ hχ₂ e₁ e₂]
  congr 1
  simp only [tableSum, weights, Response.scale]
  ring

/-- The environment of the code is a triangle. -/
theorem nonEnv_cos (par : Par) (bg : Bg) (z mu sep : ℝ) (h1 : 0 < (NonEnv.of par bg z mu sep).chi1)
    (h2 : 0 < (NonEnv.of par bg z mu sep).chi2) :
    (NonEnv.of par bg z mu sep).costheta =
      cosObserver (NonEnv.of par bg z mu sep).chi1 (NonEnv.of par bg z mu sep).chi2 (NonEnv.of par bg z mu sep).sep := by
  simp only [NonEnv.of] at h1 h2 ⊢
  simp only [cosObserver]
  have hm := mul_pos h1 h2
  have e : (2 * bg.comoving_distance z * bg.comoving_distance z - mu * mu * sep * sep / 2) =
      2 * ((bg.comoving_distance z - sep * mu / 2) * (bg.comoving_distance z + sep * mu / 2)) := by ring
  rw [e, mul_assoc 2 (bg.comoving_distance z - sep * mu / 2)]
  congr 1
  ring

end terms

end Coffe
