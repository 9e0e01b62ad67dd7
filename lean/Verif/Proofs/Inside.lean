import Verif.Spec.Inside
import Mathlib.Tactic.Linarith
import Mathlib.Tactic.FieldSimp
import Mathlib.Tactic.Positivity

/-! # Proofs for C74: the signal of a pair uses nothing beyond the pair -/

namespace Coffe
open Classical

variable {Z X R : ℝ} {par par' : Par} {bg bg' : Bg} {I I' : Ints}

theorem Within.mid {B s t : ℝ} (hs : Within B s) (ht : Within B t) : Within B ((s + t) / 2) :=
  ⟨by have := hs.1; have := ht.1; linarith, by have := hs.2; have := ht.2; linarith⟩

theorem Within.mono {B C t : ℝ} (h : Within B t) (hBC : B ≤ C) : Within C t := ⟨h.1, h.2.trans hBC⟩

/-- One field of the settings at a time. -/
theorem AgreeUpTo.set (h : AgreeUpTo Z X R par par' bg bg' I I') :
    par'.correlation_contrib = par.correlation_contrib ∧
    par'.only_cross_correlations = par.only_cross_correlations ∧
    par'.flatsky_local = par.flatsky_local ∧
    par'.flatsky_local_nonlocal = par.flatsky_local_nonlocal ∧
    par'.flatsky_nonlocal = par.flatsky_nonlocal ∧
    par'.divergent = par.divergent ∧ par'.output_type = par.output_type ∧
    par'.pk_type = par.pk_type ∧ par'.midpoint_approximation = par.midpoint_approximation ∧
    par'.b_derivative = par.b_derivative ∧ par'.f_derivative = par.f_derivative ∧
    par'.b_tilde_derivative = par.b_tilde_derivative ∧
    par'.f_tilde_derivative = par.f_tilde_derivative ∧
    par'.Omega0_cdm = par.Omega0_cdm ∧ par'.Omega0_baryon = par.Omega0_baryon ∧ par'.h = par.h := by
  have e := h.settings
  refine ⟨?_, ?_, ?_, ?_, ?_, ?_, ?_, ?_, ?_, ?_, ?_, ?_, ?_, ?_, ?_, ?_⟩ <;> rw [e]

/-- The points at which the terms of `functions_nonintegrated` look things up. -/
structure NonEnv.Inside (Z X R : ℝ) (v : NonEnv) : Prop where
  z_mean : Within Z v.z_mean
  z1 : Within Z v.z1
  z2 : Within Z v.z2
  chi1 : Within X v.chi1
  chi2 : Within X v.chi2
  sep : Within R v.sep

theorem inside_non_den_den (h : AgreeUpTo Z X R par par' bg bg' I I') {v : NonEnv} (k : v.Inside Z X R) :
    non_den_den par' bg' I' v = non_den_den par bg I v := by
  unfold non_den_den
  obtain ⟨e1, e2, e3, e4, e5, e6, e7, e8, e9, e10, e11, e12, e13, e14, e15, e16⟩ := h.set
  simp only [e1, e2, e3, e4, e5, e6, e7, e8, e9, e10, e11, e12, e13, e14, e15, e16,
    h.galaxy_bias1, h.galaxy_bias2, h.magnification_bias1, h.magnification_bias2, h.evolution_bias1,
    h.evolution_bias2, h.comoving_distance, h.f, h.conformal_Hz, h.G1, h.G2, h.a, h.D1, h.z_as_chi, h.result,
    h.result2d, h.renormalization, h.renormalization_zero_separation,
    Ints.I00, Ints.I02, Ints.I04, Ints.I20, Ints.I22, Ints.I40, Ints.I11, Ints.I13, Ints.I31, Ints.Ihalf,
    Within.mid, k.z_mean, k.z1, k.z2, k.chi1, k.chi2, k.sep]

theorem inside_non_rsd_rsd (h : AgreeUpTo Z X R par par' bg bg' I I') {v : NonEnv} (k : v.Inside Z X R) :
    non_rsd_rsd par' bg' I' v = non_rsd_rsd par bg I v := by
  unfold non_rsd_rsd
  obtain ⟨e1, e2, e3, e4, e5, e6, e7, e8, e9, e10, e11, e12, e13, e14, e15, e16⟩ := h.set
  simp only [e1, e2, e3, e4, e5, e6, e7, e8, e9, e10, e11, e12, e13, e14, e15, e16,
    h.galaxy_bias1, h.galaxy_bias2, h.magnification_bias1, h.magnification_bias2, h.evolution_bias1,
    h.evolution_bias2, h.comoving_distance, h.f, h.conformal_Hz, h.G1, h.G2, h.a, h.D1, h.z_as_chi, h.result,
    h.result2d, h.renormalization, h.renormalization_zero_separation,
    Ints.I00, Ints.I02, Ints.I04, Ints.I20, Ints.I22, Ints.I40, Ints.I11, Ints.I13, Ints.I31, Ints.Ihalf,
    Within.mid, k.z_mean, k.z1, k.z2, k.chi1, k.chi2, k.sep]

theorem inside_non_d1_d1 (h : AgreeUpTo Z X R par par' bg bg' I I') {v : NonEnv} (k : v.Inside Z X R) :
    non_d1_d1 par' bg' I' v = non_d1_d1 par bg I v := by
  unfold non_d1_d1
  obtain ⟨e1, e2, e3, e4, e5, e6, e7, e8, e9, e10, e11, e12, e13, e14, e15, e16⟩ := h.set
  simp only [e1, e2, e3, e4, e5, e6, e7, e8, e9, e10, e11, e12, e13, e14, e15, e16,
    h.galaxy_bias1, h.galaxy_bias2, h.magnification_bias1, h.magnification_bias2, h.evolution_bias1,
    h.evolution_bias2, h.comoving_distance, h.f, h.conformal_Hz, h.G1, h.G2, h.a, h.D1, h.z_as_chi, h.result,
    h.result2d, h.renormalization, h.renormalization_zero_separation,
    Ints.I00, Ints.I02, Ints.I04, Ints.I20, Ints.I22, Ints.I40, Ints.I11, Ints.I13, Ints.I31, Ints.Ihalf,
    Within.mid, k.z_mean, k.z1, k.z2, k.chi1, k.chi2, k.sep]

theorem inside_non_d2_d2 (h : AgreeUpTo Z X R par par' bg bg' I I') {v : NonEnv} (k : v.Inside Z X R) :
    non_d2_d2 par' bg' I' v = non_d2_d2 par bg I v := by
  unfold non_d2_d2
  obtain ⟨e1, e2, e3, e4, e5, e6, e7, e8, e9, e10, e11, e12, e13, e14, e15, e16⟩ := h.set
  simp only [e1, e2, e3, e4, e5, e6, e7, e8, e9, e10, e11, e12, e13, e14, e15, e16,
    h.galaxy_bias1, h.galaxy_bias2, h.magnification_bias1, h.magnification_bias2, h.evolution_bias1,
    h.evolution_bias2, h.comoving_distance, h.f, h.conformal_Hz, h.G1, h.G2, h.a, h.D1, h.z_as_chi, h.result,
    h.result2d, h.renormalization, h.renormalization_zero_separation,
    Ints.I00, Ints.I02, Ints.I04, Ints.I20, Ints.I22, Ints.I40, Ints.I11, Ints.I13, Ints.I31, Ints.Ihalf,
    Within.mid, k.z_mean, k.z1, k.z2, k.chi1, k.chi2, k.sep]

theorem inside_non_g1_g1 (h : AgreeUpTo Z X R par par' bg bg' I I') {v : NonEnv} (k : v.Inside Z X R) :
    non_g1_g1 par' bg' I' v = non_g1_g1 par bg I v := by
  unfold non_g1_g1
  obtain ⟨e1, e2, e3, e4, e5, e6, e7, e8, e9, e10, e11, e12, e13, e14, e15, e16⟩ := h.set
  simp only [e1, e2, e3, e4, e5, e6, e7, e8, e9, e10, e11, e12, e13, e14, e15, e16,
    h.galaxy_bias1, h.galaxy_bias2, h.magnification_bias1, h.magnification_bias2, h.evolution_bias1,
    h.evolution_bias2, h.comoving_distance, h.f, h.conformal_Hz, h.G1, h.G2, h.a, h.D1, h.z_as_chi, h.result,
    h.result2d, h.renormalization, h.renormalization_zero_separation,
    Ints.I00, Ints.I02, Ints.I04, Ints.I20, Ints.I22, Ints.I40, Ints.I11, Ints.I13, Ints.I31, Ints.Ihalf,
    Within.mid, k.z_mean, k.z1, k.z2, k.chi1, k.chi2, k.sep]

theorem inside_non_g2_g2 (h : AgreeUpTo Z X R par par' bg bg' I I') {v : NonEnv} (k : v.Inside Z X R) :
    non_g2_g2 par' bg' I' v = non_g2_g2 par bg I v := by
  unfold non_g2_g2
  obtain ⟨e1, e2, e3, e4, e5, e6, e7, e8, e9, e10, e11, e12, e13, e14, e15, e16⟩ := h.set
  simp only [e1, e2, e3, e4, e5, e6, e7, e8, e9, e10, e11, e12, e13, e14, e15, e16,
    h.galaxy_bias1, h.galaxy_bias2, h.magnification_bias1, h.magnification_bias2, h.evolution_bias1,
    h.evolution_bias2, h.comoving_distance, h.f, h.conformal_Hz, h.G1, h.G2, h.a, h.D1, h.z_as_chi, h.result,
    h.result2d, h.renormalization, h.renormalization_zero_separation,
    Ints.I00, Ints.I02, Ints.I04, Ints.I20, Ints.I22, Ints.I40, Ints.I11, Ints.I13, Ints.I31, Ints.Ihalf,
    Within.mid, k.z_mean, k.z1, k.z2, k.chi1, k.chi2, k.sep]

theorem inside_non_g3_g3 (h : AgreeUpTo Z X R par par' bg bg' I I') {v : NonEnv} (k : v.Inside Z X R) :
    non_g3_g3 par' bg' I' v = non_g3_g3 par bg I v := by
  unfold non_g3_g3
  obtain ⟨e1, e2, e3, e4, e5, e6, e7, e8, e9, e10, e11, e12, e13, e14, e15, e16⟩ := h.set
  simp only [e1, e2, e3, e4, e5, e6, e7, e8, e9, e10, e11, e12, e13, e14, e15, e16,
    h.galaxy_bias1, h.galaxy_bias2, h.magnification_bias1, h.magnification_bias2, h.evolution_bias1,
    h.evolution_bias2, h.comoving_distance, h.f, h.conformal_Hz, h.G1, h.G2, h.a, h.D1, h.z_as_chi, h.result,
    h.result2d, h.renormalization, h.renormalization_zero_separation,
    Ints.I00, Ints.I02, Ints.I04, Ints.I20, Ints.I22, Ints.I40, Ints.I11, Ints.I13, Ints.I31, Ints.Ihalf,
    Within.mid, k.z_mean, k.z1, k.z2, k.chi1, k.chi2, k.sep]

theorem inside_non_den_rsd (h : AgreeUpTo Z X R par par' bg bg' I I') {v : NonEnv} (k : v.Inside Z X R) :
    non_den_rsd par' bg' I' v = non_den_rsd par bg I v := by
  unfold non_den_rsd
  obtain ⟨e1, e2, e3, e4, e5, e6, e7, e8, e9, e10, e11, e12, e13, e14, e15, e16⟩ := h.set
  simp only [e1, e2, e3, e4, e5, e6, e7, e8, e9, e10, e11, e12, e13, e14, e15, e16,
    h.galaxy_bias1, h.galaxy_bias2, h.magnification_bias1, h.magnification_bias2, h.evolution_bias1,
    h.evolution_bias2, h.comoving_distance, h.f, h.conformal_Hz, h.G1, h.G2, h.a, h.D1, h.z_as_chi, h.result,
    h.result2d, h.renormalization, h.renormalization_zero_separation,
    Ints.I00, Ints.I02, Ints.I04, Ints.I20, Ints.I22, Ints.I40, Ints.I11, Ints.I13, Ints.I31, Ints.Ihalf,
    Within.mid, k.z_mean, k.z1, k.z2, k.chi1, k.chi2, k.sep]

theorem inside_non_den_d1 (h : AgreeUpTo Z X R par par' bg bg' I I') {v : NonEnv} (k : v.Inside Z X R) :
    non_den_d1 par' bg' I' v = non_den_d1 par bg I v := by
  unfold non_den_d1
  obtain ⟨e1, e2, e3, e4, e5, e6, e7, e8, e9, e10, e11, e12, e13, e14, e15, e16⟩ := h.set
  simp only [e1, e2, e3, e4, e5, e6, e7, e8, e9, e10, e11, e12, e13, e14, e15, e16,
    h.galaxy_bias1, h.galaxy_bias2, h.magnification_bias1, h.magnification_bias2, h.evolution_bias1,
    h.evolution_bias2, h.comoving_distance, h.f, h.conformal_Hz, h.G1, h.G2, h.a, h.D1, h.z_as_chi, h.result,
    h.result2d, h.renormalization, h.renormalization_zero_separation,
    Ints.I00, Ints.I02, Ints.I04, Ints.I20, Ints.I22, Ints.I40, Ints.I11, Ints.I13, Ints.I31, Ints.Ihalf,
    Within.mid, k.z_mean, k.z1, k.z2, k.chi1, k.chi2, k.sep]

theorem inside_non_den_d2 (h : AgreeUpTo Z X R par par' bg bg' I I') {v : NonEnv} (k : v.Inside Z X R) :
    non_den_d2 par' bg' I' v = non_den_d2 par bg I v := by
  unfold non_den_d2
  obtain ⟨e1, e2, e3, e4, e5, e6, e7, e8, e9, e10, e11, e12, e13, e14, e15, e16⟩ := h.set
  simp only [e1, e2, e3, e4, e5, e6, e7, e8, e9, e10, e11, e12, e13, e14, e15, e16,
    h.galaxy_bias1, h.galaxy_bias2, h.magnification_bias1, h.magnification_bias2, h.evolution_bias1,
    h.evolution_bias2, h.comoving_distance, h.f, h.conformal_Hz, h.G1, h.G2, h.a, h.D1, h.z_as_chi, h.result,
    h.result2d, h.renormalization, h.renormalization_zero_separation,
    Ints.I00, Ints.I02, Ints.I04, Ints.I20, Ints.I22, Ints.I40, Ints.I11, Ints.I13, Ints.I31, Ints.Ihalf,
    Within.mid, k.z_mean, k.z1, k.z2, k.chi1, k.chi2, k.sep]

theorem inside_non_den_g1 (h : AgreeUpTo Z X R par par' bg bg' I I') {v : NonEnv} (k : v.Inside Z X R) :
    non_den_g1 par' bg' I' v = non_den_g1 par bg I v := by
  unfold non_den_g1
  obtain ⟨e1, e2, e3, e4, e5, e6, e7, e8, e9, e10, e11, e12, e13, e14, e15, e16⟩ := h.set
  simp only [e1, e2, e3, e4, e5, e6, e7, e8, e9, e10, e11, e12, e13, e14, e15, e16,
    h.galaxy_bias1, h.galaxy_bias2, h.magnification_bias1, h.magnification_bias2, h.evolution_bias1,
    h.evolution_bias2, h.comoving_distance, h.f, h.conformal_Hz, h.G1, h.G2, h.a, h.D1, h.z_as_chi, h.result,
    h.result2d, h.renormalization, h.renormalization_zero_separation,
    Ints.I00, Ints.I02, Ints.I04, Ints.I20, Ints.I22, Ints.I40, Ints.I11, Ints.I13, Ints.I31, Ints.Ihalf,
    Within.mid, k.z_mean, k.z1, k.z2, k.chi1, k.chi2, k.sep]

theorem inside_non_den_g2 (h : AgreeUpTo Z X R par par' bg bg' I I') {v : NonEnv} (k : v.Inside Z X R) :
    non_den_g2 par' bg' I' v = non_den_g2 par bg I v := by
  unfold non_den_g2
  obtain ⟨e1, e2, e3, e4, e5, e6, e7, e8, e9, e10, e11, e12, e13, e14, e15, e16⟩ := h.set
  simp only [e1, e2, e3, e4, e5, e6, e7, e8, e9, e10, e11, e12, e13, e14, e15, e16,
    h.galaxy_bias1, h.galaxy_bias2, h.magnification_bias1, h.magnification_bias2, h.evolution_bias1,
    h.evolution_bias2, h.comoving_distance, h.f, h.conformal_Hz, h.G1, h.G2, h.a, h.D1, h.z_as_chi, h.result,
    h.result2d, h.renormalization, h.renormalization_zero_separation,
    Ints.I00, Ints.I02, Ints.I04, Ints.I20, Ints.I22, Ints.I40, Ints.I11, Ints.I13, Ints.I31, Ints.Ihalf,
    Within.mid, k.z_mean, k.z1, k.z2, k.chi1, k.chi2, k.sep]

theorem inside_non_den_g3 (h : AgreeUpTo Z X R par par' bg bg' I I') {v : NonEnv} (k : v.Inside Z X R) :
    non_den_g3 par' bg' I' v = non_den_g3 par bg I v := by
  unfold non_den_g3
  obtain ⟨e1, e2, e3, e4, e5, e6, e7, e8, e9, e10, e11, e12, e13, e14, e15, e16⟩ := h.set
  simp only [e1, e2, e3, e4, e5, e6, e7, e8, e9, e10, e11, e12, e13, e14, e15, e16,
    h.galaxy_bias1, h.galaxy_bias2, h.magnification_bias1, h.magnification_bias2, h.evolution_bias1,
    h.evolution_bias2, h.comoving_distance, h.f, h.conformal_Hz, h.G1, h.G2, h.a, h.D1, h.z_as_chi, h.result,
    h.result2d, h.renormalization, h.renormalization_zero_separation,
    Ints.I00, Ints.I02, Ints.I04, Ints.I20, Ints.I22, Ints.I40, Ints.I11, Ints.I13, Ints.I31, Ints.Ihalf,
    Within.mid, k.z_mean, k.z1, k.z2, k.chi1, k.chi2, k.sep]

theorem inside_non_rsd_d1 (h : AgreeUpTo Z X R par par' bg bg' I I') {v : NonEnv} (k : v.Inside Z X R) :
    non_rsd_d1 par' bg' I' v = non_rsd_d1 par bg I v := by
  unfold non_rsd_d1
  obtain ⟨e1, e2, e3, e4, e5, e6, e7, e8, e9, e10, e11, e12, e13, e14, e15, e16⟩ := h.set
  simp only [e1, e2, e3, e4, e5, e6, e7, e8, e9, e10, e11, e12, e13, e14, e15, e16,
    h.galaxy_bias1, h.galaxy_bias2, h.magnification_bias1, h.magnification_bias2, h.evolution_bias1,
    h.evolution_bias2, h.comoving_distance, h.f, h.conformal_Hz, h.G1, h.G2, h.a, h.D1, h.z_as_chi, h.result,
    h.result2d, h.renormalization, h.renormalization_zero_separation,
    Ints.I00, Ints.I02, Ints.I04, Ints.I20, Ints.I22, Ints.I40, Ints.I11, Ints.I13, Ints.I31, Ints.Ihalf,
    Within.mid, k.z_mean, k.z1, k.z2, k.chi1, k.chi2, k.sep]

theorem inside_non_rsd_d2 (h : AgreeUpTo Z X R par par' bg bg' I I') {v : NonEnv} (k : v.Inside Z X R) :
    non_rsd_d2 par' bg' I' v = non_rsd_d2 par bg I v := by
  unfold non_rsd_d2
  obtain ⟨e1, e2, e3, e4, e5, e6, e7, e8, e9, e10, e11, e12, e13, e14, e15, e16⟩ := h.set
  simp only [e1, e2, e3, e4, e5, e6, e7, e8, e9, e10, e11, e12, e13, e14, e15, e16,
    h.galaxy_bias1, h.galaxy_bias2, h.magnification_bias1, h.magnification_bias2, h.evolution_bias1,
    h.evolution_bias2, h.comoving_distance, h.f, h.conformal_Hz, h.G1, h.G2, h.a, h.D1, h.z_as_chi, h.result,
    h.result2d, h.renormalization, h.renormalization_zero_separation,
    Ints.I00, Ints.I02, Ints.I04, Ints.I20, Ints.I22, Ints.I40, Ints.I11, Ints.I13, Ints.I31, Ints.Ihalf,
    Within.mid, k.z_mean, k.z1, k.z2, k.chi1, k.chi2, k.sep]

theorem inside_non_rsd_g1 (h : AgreeUpTo Z X R par par' bg bg' I I') {v : NonEnv} (k : v.Inside Z X R) :
    non_rsd_g1 par' bg' I' v = non_rsd_g1 par bg I v := by
  unfold non_rsd_g1
  obtain ⟨e1, e2, e3, e4, e5, e6, e7, e8, e9, e10, e11, e12, e13, e14, e15, e16⟩ := h.set
  simp only [e1, e2, e3, e4, e5, e6, e7, e8, e9, e10, e11, e12, e13, e14, e15, e16,
    h.galaxy_bias1, h.galaxy_bias2, h.magnification_bias1, h.magnification_bias2, h.evolution_bias1,
    h.evolution_bias2, h.comoving_distance, h.f, h.conformal_Hz, h.G1, h.G2, h.a, h.D1, h.z_as_chi, h.result,
    h.result2d, h.renormalization, h.renormalization_zero_separation,
    Ints.I00, Ints.I02, Ints.I04, Ints.I20, Ints.I22, Ints.I40, Ints.I11, Ints.I13, Ints.I31, Ints.Ihalf,
    Within.mid, k.z_mean, k.z1, k.z2, k.chi1, k.chi2, k.sep]

theorem inside_non_rsd_g2 (h : AgreeUpTo Z X R par par' bg bg' I I') {v : NonEnv} (k : v.Inside Z X R) :
    non_rsd_g2 par' bg' I' v = non_rsd_g2 par bg I v := by
  unfold non_rsd_g2
  obtain ⟨e1, e2, e3, e4, e5, e6, e7, e8, e9, e10, e11, e12, e13, e14, e15, e16⟩ := h.set
  simp only [e1, e2, e3, e4, e5, e6, e7, e8, e9, e10, e11, e12, e13, e14, e15, e16,
    h.galaxy_bias1, h.galaxy_bias2, h.magnification_bias1, h.magnification_bias2, h.evolution_bias1,
    h.evolution_bias2, h.comoving_distance, h.f, h.conformal_Hz, h.G1, h.G2, h.a, h.D1, h.z_as_chi, h.result,
    h.result2d, h.renormalization, h.renormalization_zero_separation,
    Ints.I00, Ints.I02, Ints.I04, Ints.I20, Ints.I22, Ints.I40, Ints.I11, Ints.I13, Ints.I31, Ints.Ihalf,
    Within.mid, k.z_mean, k.z1, k.z2, k.chi1, k.chi2, k.sep]

theorem inside_non_rsd_g3 (h : AgreeUpTo Z X R par par' bg bg' I I') {v : NonEnv} (k : v.Inside Z X R) :
    non_rsd_g3 par' bg' I' v = non_rsd_g3 par bg I v := by
  unfold non_rsd_g3
  obtain ⟨e1, e2, e3, e4, e5, e6, e7, e8, e9, e10, e11, e12, e13, e14, e15, e16⟩ := h.set
  simp only [e1, e2, e3, e4, e5, e6, e7, e8, e9, e10, e11, e12, e13, e14, e15, e16,
    h.galaxy_bias1, h.galaxy_bias2, h.magnification_bias1, h.magnification_bias2, h.evolution_bias1,
    h.evolution_bias2, h.comoving_distance, h.f, h.conformal_Hz, h.G1, h.G2, h.a, h.D1, h.z_as_chi, h.result,
    h.result2d, h.renormalization, h.renormalization_zero_separation,
    Ints.I00, Ints.I02, Ints.I04, Ints.I20, Ints.I22, Ints.I40, Ints.I11, Ints.I13, Ints.I31, Ints.Ihalf,
    Within.mid, k.z_mean, k.z1, k.z2, k.chi1, k.chi2, k.sep]

theorem inside_non_d1_d2 (h : AgreeUpTo Z X R par par' bg bg' I I') {v : NonEnv} (k : v.Inside Z X R) :
    non_d1_d2 par' bg' I' v = non_d1_d2 par bg I v := by
  unfold non_d1_d2
  obtain ⟨e1, e2, e3, e4, e5, e6, e7, e8, e9, e10, e11, e12, e13, e14, e15, e16⟩ := h.set
  simp only [e1, e2, e3, e4, e5, e6, e7, e8, e9, e10, e11, e12, e13, e14, e15, e16,
    h.galaxy_bias1, h.galaxy_bias2, h.magnification_bias1, h.magnification_bias2, h.evolution_bias1,
    h.evolution_bias2, h.comoving_distance, h.f, h.conformal_Hz, h.G1, h.G2, h.a, h.D1, h.z_as_chi, h.result,
    h.result2d, h.renormalization, h.renormalization_zero_separation,
    Ints.I00, Ints.I02, Ints.I04, Ints.I20, Ints.I22, Ints.I40, Ints.I11, Ints.I13, Ints.I31, Ints.Ihalf,
    Within.mid, k.z_mean, k.z1, k.z2, k.chi1, k.chi2, k.sep]

theorem inside_non_d1_g1 (h : AgreeUpTo Z X R par par' bg bg' I I') {v : NonEnv} (k : v.Inside Z X R) :
    non_d1_g1 par' bg' I' v = non_d1_g1 par bg I v := by
  unfold non_d1_g1
  obtain ⟨e1, e2, e3, e4, e5, e6, e7, e8, e9, e10, e11, e12, e13, e14, e15, e16⟩ := h.set
  simp only [e1, e2, e3, e4, e5, e6, e7, e8, e9, e10, e11, e12, e13, e14, e15, e16,
    h.galaxy_bias1, h.galaxy_bias2, h.magnification_bias1, h.magnification_bias2, h.evolution_bias1,
    h.evolution_bias2, h.comoving_distance, h.f, h.conformal_Hz, h.G1, h.G2, h.a, h.D1, h.z_as_chi, h.result,
    h.result2d, h.renormalization, h.renormalization_zero_separation,
    Ints.I00, Ints.I02, Ints.I04, Ints.I20, Ints.I22, Ints.I40, Ints.I11, Ints.I13, Ints.I31, Ints.Ihalf,
    Within.mid, k.z_mean, k.z1, k.z2, k.chi1, k.chi2, k.sep]

theorem inside_non_d1_g2 (h : AgreeUpTo Z X R par par' bg bg' I I') {v : NonEnv} (k : v.Inside Z X R) :
    non_d1_g2 par' bg' I' v = non_d1_g2 par bg I v := by
  unfold non_d1_g2
  obtain ⟨e1, e2, e3, e4, e5, e6, e7, e8, e9, e10, e11, e12, e13, e14, e15, e16⟩ := h.set
  simp only [e1, e2, e3, e4, e5, e6, e7, e8, e9, e10, e11, e12, e13, e14, e15, e16,
    h.galaxy_bias1, h.galaxy_bias2, h.magnification_bias1, h.magnification_bias2, h.evolution_bias1,
    h.evolution_bias2, h.comoving_distance, h.f, h.conformal_Hz, h.G1, h.G2, h.a, h.D1, h.z_as_chi, h.result,
    h.result2d, h.renormalization, h.renormalization_zero_separation,
    Ints.I00, Ints.I02, Ints.I04, Ints.I20, Ints.I22, Ints.I40, Ints.I11, Ints.I13, Ints.I31, Ints.Ihalf,
    Within.mid, k.z_mean, k.z1, k.z2, k.chi1, k.chi2, k.sep]

theorem inside_non_d1_g3 (h : AgreeUpTo Z X R par par' bg bg' I I') {v : NonEnv} (k : v.Inside Z X R) :
    non_d1_g3 par' bg' I' v = non_d1_g3 par bg I v := by
  unfold non_d1_g3
  obtain ⟨e1, e2, e3, e4, e5, e6, e7, e8, e9, e10, e11, e12, e13, e14, e15, e16⟩ := h.set
  simp only [e1, e2, e3, e4, e5, e6, e7, e8, e9, e10, e11, e12, e13, e14, e15, e16,
    h.galaxy_bias1, h.galaxy_bias2, h.magnification_bias1, h.magnification_bias2, h.evolution_bias1,
    h.evolution_bias2, h.comoving_distance, h.f, h.conformal_Hz, h.G1, h.G2, h.a, h.D1, h.z_as_chi, h.result,
    h.result2d, h.renormalization, h.renormalization_zero_separation,
    Ints.I00, Ints.I02, Ints.I04, Ints.I20, Ints.I22, Ints.I40, Ints.I11, Ints.I13, Ints.I31, Ints.Ihalf,
    Within.mid, k.z_mean, k.z1, k.z2, k.chi1, k.chi2, k.sep]

theorem inside_non_d2_g1 (h : AgreeUpTo Z X R par par' bg bg' I I') {v : NonEnv} (k : v.Inside Z X R) :
    non_d2_g1 par' bg' I' v = non_d2_g1 par bg I v := by
  unfold non_d2_g1
  obtain ⟨e1, e2, e3, e4, e5, e6, e7, e8, e9, e10, e11, e12, e13, e14, e15, e16⟩ := h.set
  simp only [e1, e2, e3, e4, e5, e6, e7, e8, e9, e10, e11, e12, e13, e14, e15, e16,
    h.galaxy_bias1, h.galaxy_bias2, h.magnification_bias1, h.magnification_bias2, h.evolution_bias1,
    h.evolution_bias2, h.comoving_distance, h.f, h.conformal_Hz, h.G1, h.G2, h.a, h.D1, h.z_as_chi, h.result,
    h.result2d, h.renormalization, h.renormalization_zero_separation,
    Ints.I00, Ints.I02, Ints.I04, Ints.I20, Ints.I22, Ints.I40, Ints.I11, Ints.I13, Ints.I31, Ints.Ihalf,
    Within.mid, k.z_mean, k.z1, k.z2, k.chi1, k.chi2, k.sep]

theorem inside_non_d2_g2 (h : AgreeUpTo Z X R par par' bg bg' I I') {v : NonEnv} (k : v.Inside Z X R) :
    non_d2_g2 par' bg' I' v = non_d2_g2 par bg I v := by
  unfold non_d2_g2
  obtain ⟨e1, e2, e3, e4, e5, e6, e7, e8, e9, e10, e11, e12, e13, e14, e15, e16⟩ := h.set
  simp only [e1, e2, e3, e4, e5, e6, e7, e8, e9, e10, e11, e12, e13, e14, e15, e16,
    h.galaxy_bias1, h.galaxy_bias2, h.magnification_bias1, h.magnification_bias2, h.evolution_bias1,
    h.evolution_bias2, h.comoving_distance, h.f, h.conformal_Hz, h.G1, h.G2, h.a, h.D1, h.z_as_chi, h.result,
    h.result2d, h.renormalization, h.renormalization_zero_separation,
    Ints.I00, Ints.I02, Ints.I04, Ints.I20, Ints.I22, Ints.I40, Ints.I11, Ints.I13, Ints.I31, Ints.Ihalf,
    Within.mid, k.z_mean, k.z1, k.z2, k.chi1, k.chi2, k.sep]

theorem inside_non_d2_g3 (h : AgreeUpTo Z X R par par' bg bg' I I') {v : NonEnv} (k : v.Inside Z X R) :
    non_d2_g3 par' bg' I' v = non_d2_g3 par bg I v := by
  unfold non_d2_g3
  obtain ⟨e1, e2, e3, e4, e5, e6, e7, e8, e9, e10, e11, e12, e13, e14, e15, e16⟩ := h.set
  simp only [e1, e2, e3, e4, e5, e6, e7, e8, e9, e10, e11, e12, e13, e14, e15, e16,
    h.galaxy_bias1, h.galaxy_bias2, h.magnification_bias1, h.magnification_bias2, h.evolution_bias1,
    h.evolution_bias2, h.comoving_distance, h.f, h.conformal_Hz, h.G1, h.G2, h.a, h.D1, h.z_as_chi, h.result,
    h.result2d, h.renormalization, h.renormalization_zero_separation,
    Ints.I00, Ints.I02, Ints.I04, Ints.I20, Ints.I22, Ints.I40, Ints.I11, Ints.I13, Ints.I31, Ints.Ihalf,
    Within.mid, k.z_mean, k.z1, k.z2, k.chi1, k.chi2, k.sep]

theorem inside_non_g1_g2 (h : AgreeUpTo Z X R par par' bg bg' I I') {v : NonEnv} (k : v.Inside Z X R) :
    non_g1_g2 par' bg' I' v = non_g1_g2 par bg I v := by
  unfold non_g1_g2
  obtain ⟨e1, e2, e3, e4, e5, e6, e7, e8, e9, e10, e11, e12, e13, e14, e15, e16⟩ := h.set
  simp only [e1, e2, e3, e4, e5, e6, e7, e8, e9, e10, e11, e12, e13, e14, e15, e16,
    h.galaxy_bias1, h.galaxy_bias2, h.magnification_bias1, h.magnification_bias2, h.evolution_bias1,
    h.evolution_bias2, h.comoving_distance, h.f, h.conformal_Hz, h.G1, h.G2, h.a, h.D1, h.z_as_chi, h.result,
    h.result2d, h.renormalization, h.renormalization_zero_separation,
    Ints.I00, Ints.I02, Ints.I04, Ints.I20, Ints.I22, Ints.I40, Ints.I11, Ints.I13, Ints.I31, Ints.Ihalf,
    Within.mid, k.z_mean, k.z1, k.z2, k.chi1, k.chi2, k.sep]

theorem inside_non_g1_g3 (h : AgreeUpTo Z X R par par' bg bg' I I') {v : NonEnv} (k : v.Inside Z X R) :
    non_g1_g3 par' bg' I' v = non_g1_g3 par bg I v := by
  unfold non_g1_g3
  obtain ⟨e1, e2, e3, e4, e5, e6, e7, e8, e9, e10, e11, e12, e13, e14, e15, e16⟩ := h.set
  simp only [e1, e2, e3, e4, e5, e6, e7, e8, e9, e10, e11, e12, e13, e14, e15, e16,
    h.galaxy_bias1, h.galaxy_bias2, h.magnification_bias1, h.magnification_bias2, h.evolution_bias1,
    h.evolution_bias2, h.comoving_distance, h.f, h.conformal_Hz, h.G1, h.G2, h.a, h.D1, h.z_as_chi, h.result,
    h.result2d, h.renormalization, h.renormalization_zero_separation,
    Ints.I00, Ints.I02, Ints.I04, Ints.I20, Ints.I22, Ints.I40, Ints.I11, Ints.I13, Ints.I31, Ints.Ihalf,
    Within.mid, k.z_mean, k.z1, k.z2, k.chi1, k.chi2, k.sep]

theorem inside_non_g2_g3 (h : AgreeUpTo Z X R par par' bg bg' I I') {v : NonEnv} (k : v.Inside Z X R) :
    non_g2_g3 par' bg' I' v = non_g2_g3 par bg I v := by
  unfold non_g2_g3
  obtain ⟨e1, e2, e3, e4, e5, e6, e7, e8, e9, e10, e11, e12, e13, e14, e15, e16⟩ := h.set
  simp only [e1, e2, e3, e4, e5, e6, e7, e8, e9, e10, e11, e12, e13, e14, e15, e16,
    h.galaxy_bias1, h.galaxy_bias2, h.magnification_bias1, h.magnification_bias2, h.evolution_bias1,
    h.evolution_bias2, h.comoving_distance, h.f, h.conformal_Hz, h.G1, h.G2, h.a, h.D1, h.z_as_chi, h.result,
    h.result2d, h.renormalization, h.renormalization_zero_separation,
    Ints.I00, Ints.I02, Ints.I04, Ints.I20, Ints.I22, Ints.I40, Ints.I11, Ints.I13, Ints.I31, Ints.Ihalf,
    Within.mid, k.z_mean, k.z1, k.z2, k.chi1, k.chi2, k.sep]

theorem inside_non_growth (h : AgreeUpTo Z X R par par' bg bg' I I') {v : NonEnv} (k : v.Inside Z X R) :
    non_growth par' bg' v = non_growth par bg v := by
  unfold non_growth
  obtain ⟨e1, e2, e3, e4, e5, e6, e7, e8, e9, e10, e11, e12, e13, e14, e15, e16⟩ := h.set
  simp only [e1, e2, e3, e4, e5, e6, e7, e8, e9, e10, e11, e12, e13, e14, e15, e16,
    h.galaxy_bias1, h.galaxy_bias2, h.magnification_bias1, h.magnification_bias2, h.evolution_bias1,
    h.evolution_bias2, h.comoving_distance, h.f, h.conformal_Hz, h.G1, h.G2, h.a, h.D1, h.z_as_chi, h.result,
    h.result2d, h.renormalization, h.renormalization_zero_separation,
    Ints.I00, Ints.I02, Ints.I04, Ints.I20, Ints.I22, Ints.I40, Ints.I11, Ints.I13, Ints.I31, Ints.Ihalf,
    Within.mid, k.z_mean, k.z1, k.z2, k.chi1, k.chi2, k.sep]

theorem inside_non_result (h : AgreeUpTo Z X R par par' bg bg' I I') {v : NonEnv} (k : v.Inside Z X R) :
    non_result par' bg' I' v = non_result par bg I v := by
  unfold non_result
  rw [inside_non_den_den h k, inside_non_rsd_rsd h k, inside_non_d1_d1 h k, inside_non_d2_d2 h k,
    inside_non_g1_g1 h k, inside_non_g2_g2 h k, inside_non_g3_g3 h k, inside_non_den_rsd h k,
    inside_non_den_d1 h k, inside_non_den_d2 h k, inside_non_den_g1 h k, inside_non_den_g2 h k,
    inside_non_den_g3 h k, inside_non_rsd_d1 h k, inside_non_rsd_d2 h k, inside_non_rsd_g1 h k,
    inside_non_rsd_g2 h k, inside_non_rsd_g3 h k, inside_non_d1_d2 h k, inside_non_d1_g1 h k, inside_non_d1_g2
    h k, inside_non_d1_g3 h k, inside_non_d2_g1 h k, inside_non_d2_g2 h k, inside_non_d2_g3 h k,
    inside_non_g1_g2 h k, inside_non_g1_g3 h k, inside_non_g2_g3 h k]

/-- The points at which the terms of `functions_single_integrated` look things up. -/
structure SingleEnv.Inside (Z X R : ℝ) (v : SingleEnv) : Prop where
  z_mean : Within Z v.z_mean
  z1 : Within Z v.z1
  z2 : Within Z v.z2
  z1_const : Within Z v.z1_const
  z2_const : Within Z v.z2_const
  zero : Within R 0
  across : Within R (v.sep * Real.sqrt (1 - v.mu * v.mu))
  r21 : Within R (Real.sqrt v.r21)
  r22 : Within R (Real.sqrt v.r22)

theorem inside_single_den_len (h : AgreeUpTo Z X R par par' bg bg' I I') {v : SingleEnv} (k : v.Inside Z X R) :
    single_den_len par' bg' I' v = single_den_len par bg I v := by
  unfold single_den_len
  obtain ⟨e1, e2, e3, e4, e5, e6, e7, e8, e9, e10, e11, e12, e13, e14, e15, e16⟩ := h.set
  simp only [e1, e2, e3, e4, e5, e6, e7, e8, e9, e10, e11, e12, e13, e14, e15, e16,
    h.galaxy_bias1, h.galaxy_bias2, h.magnification_bias1, h.magnification_bias2, h.evolution_bias1,
    h.evolution_bias2, h.comoving_distance, h.f, h.conformal_Hz, h.G1, h.G2, h.a, h.D1, h.z_as_chi, h.result,
    h.result2d, h.renormalization, h.renormalization_zero_separation,
    Ints.I00, Ints.I02, Ints.I04, Ints.I20, Ints.I22, Ints.I40, Ints.I11, Ints.I13, Ints.I31, Ints.Ihalf,
    Within.mid, k.z_mean, k.z1, k.z2, k.z1_const, k.z2_const, k.zero, k.across, k.r21, k.r22]

theorem inside_single_rsd_len (h : AgreeUpTo Z X R par par' bg bg' I I') {v : SingleEnv} (k : v.Inside Z X R) :
    single_rsd_len par' bg' I' v = single_rsd_len par bg I v := by
  unfold single_rsd_len
  obtain ⟨e1, e2, e3, e4, e5, e6, e7, e8, e9, e10, e11, e12, e13, e14, e15, e16⟩ := h.set
  simp only [e1, e2, e3, e4, e5, e6, e7, e8, e9, e10, e11, e12, e13, e14, e15, e16,
    h.galaxy_bias1, h.galaxy_bias2, h.magnification_bias1, h.magnification_bias2, h.evolution_bias1,
    h.evolution_bias2, h.comoving_distance, h.f, h.conformal_Hz, h.G1, h.G2, h.a, h.D1, h.z_as_chi, h.result,
    h.result2d, h.renormalization, h.renormalization_zero_separation,
    Ints.I00, Ints.I02, Ints.I04, Ints.I20, Ints.I22, Ints.I40, Ints.I11, Ints.I13, Ints.I31, Ints.Ihalf,
    Within.mid, k.z_mean, k.z1, k.z2, k.z1_const, k.z2_const, k.zero, k.across, k.r21, k.r22]

theorem inside_single_d1_len (h : AgreeUpTo Z X R par par' bg bg' I I') {v : SingleEnv} (k : v.Inside Z X R) :
    single_d1_len par' bg' I' v = single_d1_len par bg I v := by
  unfold single_d1_len
  obtain ⟨e1, e2, e3, e4, e5, e6, e7, e8, e9, e10, e11, e12, e13, e14, e15, e16⟩ := h.set
  simp only [e1, e2, e3, e4, e5, e6, e7, e8, e9, e10, e11, e12, e13, e14, e15, e16,
    h.galaxy_bias1, h.galaxy_bias2, h.magnification_bias1, h.magnification_bias2, h.evolution_bias1,
    h.evolution_bias2, h.comoving_distance, h.f, h.conformal_Hz, h.G1, h.G2, h.a, h.D1, h.z_as_chi, h.result,
    h.result2d, h.renormalization, h.renormalization_zero_separation,
    Ints.I00, Ints.I02, Ints.I04, Ints.I20, Ints.I22, Ints.I40, Ints.I11, Ints.I13, Ints.I31, Ints.Ihalf,
    Within.mid, k.z_mean, k.z1, k.z2, k.z1_const, k.z2_const, k.zero, k.across, k.r21, k.r22]

theorem inside_single_d2_len (h : AgreeUpTo Z X R par par' bg bg' I I') {v : SingleEnv} (k : v.Inside Z X R) :
    single_d2_len par' bg' I' v = single_d2_len par bg I v := by
  unfold single_d2_len
  obtain ⟨e1, e2, e3, e4, e5, e6, e7, e8, e9, e10, e11, e12, e13, e14, e15, e16⟩ := h.set
  simp only [e1, e2, e3, e4, e5, e6, e7, e8, e9, e10, e11, e12, e13, e14, e15, e16,
    h.galaxy_bias1, h.galaxy_bias2, h.magnification_bias1, h.magnification_bias2, h.evolution_bias1,
    h.evolution_bias2, h.comoving_distance, h.f, h.conformal_Hz, h.G1, h.G2, h.a, h.D1, h.z_as_chi, h.result,
    h.result2d, h.renormalization, h.renormalization_zero_separation,
    Ints.I00, Ints.I02, Ints.I04, Ints.I20, Ints.I22, Ints.I40, Ints.I11, Ints.I13, Ints.I31, Ints.Ihalf,
    Within.mid, k.z_mean, k.z1, k.z2, k.z1_const, k.z2_const, k.zero, k.across, k.r21, k.r22]

theorem inside_single_g1_len (h : AgreeUpTo Z X R par par' bg bg' I I') {v : SingleEnv} (k : v.Inside Z X R) :
    single_g1_len par' bg' I' v = single_g1_len par bg I v := by
  unfold single_g1_len
  obtain ⟨e1, e2, e3, e4, e5, e6, e7, e8, e9, e10, e11, e12, e13, e14, e15, e16⟩ := h.set
  simp only [e1, e2, e3, e4, e5, e6, e7, e8, e9, e10, e11, e12, e13, e14, e15, e16,
    h.galaxy_bias1, h.galaxy_bias2, h.magnification_bias1, h.magnification_bias2, h.evolution_bias1,
    h.evolution_bias2, h.comoving_distance, h.f, h.conformal_Hz, h.G1, h.G2, h.a, h.D1, h.z_as_chi, h.result,
    h.result2d, h.renormalization, h.renormalization_zero_separation,
    Ints.I00, Ints.I02, Ints.I04, Ints.I20, Ints.I22, Ints.I40, Ints.I11, Ints.I13, Ints.I31, Ints.Ihalf,
    Within.mid, k.z_mean, k.z1, k.z2, k.z1_const, k.z2_const, k.zero, k.across, k.r21, k.r22]

theorem inside_single_g2_len (h : AgreeUpTo Z X R par par' bg bg' I I') {v : SingleEnv} (k : v.Inside Z X R) :
    single_g2_len par' bg' I' v = single_g2_len par bg I v := by
  unfold single_g2_len
  obtain ⟨e1, e2, e3, e4, e5, e6, e7, e8, e9, e10, e11, e12, e13, e14, e15, e16⟩ := h.set
  simp only [e1, e2, e3, e4, e5, e6, e7, e8, e9, e10, e11, e12, e13, e14, e15, e16,
    h.galaxy_bias1, h.galaxy_bias2, h.magnification_bias1, h.magnification_bias2, h.evolution_bias1,
    h.evolution_bias2, h.comoving_distance, h.f, h.conformal_Hz, h.G1, h.G2, h.a, h.D1, h.z_as_chi, h.result,
    h.result2d, h.renormalization, h.renormalization_zero_separation,
    Ints.I00, Ints.I02, Ints.I04, Ints.I20, Ints.I22, Ints.I40, Ints.I11, Ints.I13, Ints.I31, Ints.Ihalf,
    Within.mid, k.z_mean, k.z1, k.z2, k.z1_const, k.z2_const, k.zero, k.across, k.r21, k.r22]

theorem inside_single_g3_len (h : AgreeUpTo Z X R par par' bg bg' I I') {v : SingleEnv} (k : v.Inside Z X R) :
    single_g3_len par' bg' I' v = single_g3_len par bg I v := by
  unfold single_g3_len
  obtain ⟨e1, e2, e3, e4, e5, e6, e7, e8, e9, e10, e11, e12, e13, e14, e15, e16⟩ := h.set
  simp only [e1, e2, e3, e4, e5, e6, e7, e8, e9, e10, e11, e12, e13, e14, e15, e16,
    h.galaxy_bias1, h.galaxy_bias2, h.magnification_bias1, h.magnification_bias2, h.evolution_bias1,
    h.evolution_bias2, h.comoving_distance, h.f, h.conformal_Hz, h.G1, h.G2, h.a, h.D1, h.z_as_chi, h.result,
    h.result2d, h.renormalization, h.renormalization_zero_separation,
    Ints.I00, Ints.I02, Ints.I04, Ints.I20, Ints.I22, Ints.I40, Ints.I11, Ints.I13, Ints.I31, Ints.Ihalf,
    Within.mid, k.z_mean, k.z1, k.z2, k.z1_const, k.z2_const, k.zero, k.across, k.r21, k.r22]

theorem inside_single_den_g4 (h : AgreeUpTo Z X R par par' bg bg' I I') {v : SingleEnv} (k : v.Inside Z X R) :
    single_den_g4 par' bg' I' v = single_den_g4 par bg I v := by
  unfold single_den_g4
  obtain ⟨e1, e2, e3, e4, e5, e6, e7, e8, e9, e10, e11, e12, e13, e14, e15, e16⟩ := h.set
  simp only [e1, e2, e3, e4, e5, e6, e7, e8, e9, e10, e11, e12, e13, e14, e15, e16,
    h.galaxy_bias1, h.galaxy_bias2, h.magnification_bias1, h.magnification_bias2, h.evolution_bias1,
    h.evolution_bias2, h.comoving_distance, h.f, h.conformal_Hz, h.G1, h.G2, h.a, h.D1, h.z_as_chi, h.result,
    h.result2d, h.renormalization, h.renormalization_zero_separation,
    Ints.I00, Ints.I02, Ints.I04, Ints.I20, Ints.I22, Ints.I40, Ints.I11, Ints.I13, Ints.I31, Ints.Ihalf,
    Within.mid, k.z_mean, k.z1, k.z2, k.z1_const, k.z2_const, k.zero, k.across, k.r21, k.r22]

theorem inside_single_den_g5 (h : AgreeUpTo Z X R par par' bg bg' I I') {v : SingleEnv} (k : v.Inside Z X R) :
    single_den_g5 par' bg' I' v = single_den_g5 par bg I v := by
  unfold single_den_g5
  obtain ⟨e1, e2, e3, e4, e5, e6, e7, e8, e9, e10, e11, e12, e13, e14, e15, e16⟩ := h.set
  simp only [e1, e2, e3, e4, e5, e6, e7, e8, e9, e10, e11, e12, e13, e14, e15, e16,
    h.galaxy_bias1, h.galaxy_bias2, h.magnification_bias1, h.magnification_bias2, h.evolution_bias1,
    h.evolution_bias2, h.comoving_distance, h.f, h.conformal_Hz, h.G1, h.G2, h.a, h.D1, h.z_as_chi, h.result,
    h.result2d, h.renormalization, h.renormalization_zero_separation,
    Ints.I00, Ints.I02, Ints.I04, Ints.I20, Ints.I22, Ints.I40, Ints.I11, Ints.I13, Ints.I31, Ints.Ihalf,
    Within.mid, k.z_mean, k.z1, k.z2, k.z1_const, k.z2_const, k.zero, k.across, k.r21, k.r22]

theorem inside_single_rsd_g4 (h : AgreeUpTo Z X R par par' bg bg' I I') {v : SingleEnv} (k : v.Inside Z X R) :
    single_rsd_g4 par' bg' I' v = single_rsd_g4 par bg I v := by
  unfold single_rsd_g4
  obtain ⟨e1, e2, e3, e4, e5, e6, e7, e8, e9, e10, e11, e12, e13, e14, e15, e16⟩ := h.set
  simp only [e1, e2, e3, e4, e5, e6, e7, e8, e9, e10, e11, e12, e13, e14, e15, e16,
    h.galaxy_bias1, h.galaxy_bias2, h.magnification_bias1, h.magnification_bias2, h.evolution_bias1,
    h.evolution_bias2, h.comoving_distance, h.f, h.conformal_Hz, h.G1, h.G2, h.a, h.D1, h.z_as_chi, h.result,
    h.result2d, h.renormalization, h.renormalization_zero_separation,
    Ints.I00, Ints.I02, Ints.I04, Ints.I20, Ints.I22, Ints.I40, Ints.I11, Ints.I13, Ints.I31, Ints.Ihalf,
    Within.mid, k.z_mean, k.z1, k.z2, k.z1_const, k.z2_const, k.zero, k.across, k.r21, k.r22]

theorem inside_single_rsd_g5 (h : AgreeUpTo Z X R par par' bg bg' I I') {v : SingleEnv} (k : v.Inside Z X R) :
    single_rsd_g5 par' bg' I' v = single_rsd_g5 par bg I v := by
  unfold single_rsd_g5
  obtain ⟨e1, e2, e3, e4, e5, e6, e7, e8, e9, e10, e11, e12, e13, e14, e15, e16⟩ := h.set
  simp only [e1, e2, e3, e4, e5, e6, e7, e8, e9, e10, e11, e12, e13, e14, e15, e16,
    h.galaxy_bias1, h.galaxy_bias2, h.magnification_bias1, h.magnification_bias2, h.evolution_bias1,
    h.evolution_bias2, h.comoving_distance, h.f, h.conformal_Hz, h.G1, h.G2, h.a, h.D1, h.z_as_chi, h.result,
    h.result2d, h.renormalization, h.renormalization_zero_separation,
    Ints.I00, Ints.I02, Ints.I04, Ints.I20, Ints.I22, Ints.I40, Ints.I11, Ints.I13, Ints.I31, Ints.Ihalf,
    Within.mid, k.z_mean, k.z1, k.z2, k.z1_const, k.z2_const, k.zero, k.across, k.r21, k.r22]

theorem inside_single_d1_g4 (h : AgreeUpTo Z X R par par' bg bg' I I') {v : SingleEnv} (k : v.Inside Z X R) :
    single_d1_g4 par' bg' I' v = single_d1_g4 par bg I v := by
  unfold single_d1_g4
  obtain ⟨e1, e2, e3, e4, e5, e6, e7, e8, e9, e10, e11, e12, e13, e14, e15, e16⟩ := h.set
  simp only [e1, e2, e3, e4, e5, e6, e7, e8, e9, e10, e11, e12, e13, e14, e15, e16,
    h.galaxy_bias1, h.galaxy_bias2, h.magnification_bias1, h.magnification_bias2, h.evolution_bias1,
    h.evolution_bias2, h.comoving_distance, h.f, h.conformal_Hz, h.G1, h.G2, h.a, h.D1, h.z_as_chi, h.result,
    h.result2d, h.renormalization, h.renormalization_zero_separation,
    Ints.I00, Ints.I02, Ints.I04, Ints.I20, Ints.I22, Ints.I40, Ints.I11, Ints.I13, Ints.I31, Ints.Ihalf,
    Within.mid, k.z_mean, k.z1, k.z2, k.z1_const, k.z2_const, k.zero, k.across, k.r21, k.r22]

theorem inside_single_d1_g5 (h : AgreeUpTo Z X R par par' bg bg' I I') {v : SingleEnv} (k : v.Inside Z X R) :
    single_d1_g5 par' bg' I' v = single_d1_g5 par bg I v := by
  unfold single_d1_g5
  obtain ⟨e1, e2, e3, e4, e5, e6, e7, e8, e9, e10, e11, e12, e13, e14, e15, e16⟩ := h.set
  simp only [e1, e2, e3, e4, e5, e6, e7, e8, e9, e10, e11, e12, e13, e14, e15, e16,
    h.galaxy_bias1, h.galaxy_bias2, h.magnification_bias1, h.magnification_bias2, h.evolution_bias1,
    h.evolution_bias2, h.comoving_distance, h.f, h.conformal_Hz, h.G1, h.G2, h.a, h.D1, h.z_as_chi, h.result,
    h.result2d, h.renormalization, h.renormalization_zero_separation,
    Ints.I00, Ints.I02, Ints.I04, Ints.I20, Ints.I22, Ints.I40, Ints.I11, Ints.I13, Ints.I31, Ints.Ihalf,
    Within.mid, k.z_mean, k.z1, k.z2, k.z1_const, k.z2_const, k.zero, k.across, k.r21, k.r22]

theorem inside_single_d2_g4 (h : AgreeUpTo Z X R par par' bg bg' I I') {v : SingleEnv} (k : v.Inside Z X R) :
    single_d2_g4 par' bg' I' v = single_d2_g4 par bg I v := by
  unfold single_d2_g4
  obtain ⟨e1, e2, e3, e4, e5, e6, e7, e8, e9, e10, e11, e12, e13, e14, e15, e16⟩ := h.set
  simp only [e1, e2, e3, e4, e5, e6, e7, e8, e9, e10, e11, e12, e13, e14, e15, e16,
    h.galaxy_bias1, h.galaxy_bias2, h.magnification_bias1, h.magnification_bias2, h.evolution_bias1,
    h.evolution_bias2, h.comoving_distance, h.f, h.conformal_Hz, h.G1, h.G2, h.a, h.D1, h.z_as_chi, h.result,
    h.result2d, h.renormalization, h.renormalization_zero_separation,
    Ints.I00, Ints.I02, Ints.I04, Ints.I20, Ints.I22, Ints.I40, Ints.I11, Ints.I13, Ints.I31, Ints.Ihalf,
    Within.mid, k.z_mean, k.z1, k.z2, k.z1_const, k.z2_const, k.zero, k.across, k.r21, k.r22]

theorem inside_single_d2_g5 (h : AgreeUpTo Z X R par par' bg bg' I I') {v : SingleEnv} (k : v.Inside Z X R) :
    single_d2_g5 par' bg' I' v = single_d2_g5 par bg I v := by
  unfold single_d2_g5
  obtain ⟨e1, e2, e3, e4, e5, e6, e7, e8, e9, e10, e11, e12, e13, e14, e15, e16⟩ := h.set
  simp only [e1, e2, e3, e4, e5, e6, e7, e8, e9, e10, e11, e12, e13, e14, e15, e16,
    h.galaxy_bias1, h.galaxy_bias2, h.magnification_bias1, h.magnification_bias2, h.evolution_bias1,
    h.evolution_bias2, h.comoving_distance, h.f, h.conformal_Hz, h.G1, h.G2, h.a, h.D1, h.z_as_chi, h.result,
    h.result2d, h.renormalization, h.renormalization_zero_separation,
    Ints.I00, Ints.I02, Ints.I04, Ints.I20, Ints.I22, Ints.I40, Ints.I11, Ints.I13, Ints.I31, Ints.Ihalf,
    Within.mid, k.z_mean, k.z1, k.z2, k.z1_const, k.z2_const, k.zero, k.across, k.r21, k.r22]

theorem inside_single_g1_g4 (h : AgreeUpTo Z X R par par' bg bg' I I') {v : SingleEnv} (k : v.Inside Z X R) :
    single_g1_g4 par' bg' I' v = single_g1_g4 par bg I v := by
  unfold single_g1_g4
  obtain ⟨e1, e2, e3, e4, e5, e6, e7, e8, e9, e10, e11, e12, e13, e14, e15, e16⟩ := h.set
  simp only [e1, e2, e3, e4, e5, e6, e7, e8, e9, e10, e11, e12, e13, e14, e15, e16,
    h.galaxy_bias1, h.galaxy_bias2, h.magnification_bias1, h.magnification_bias2, h.evolution_bias1,
    h.evolution_bias2, h.comoving_distance, h.f, h.conformal_Hz, h.G1, h.G2, h.a, h.D1, h.z_as_chi, h.result,
    h.result2d, h.renormalization, h.renormalization_zero_separation,
    Ints.I00, Ints.I02, Ints.I04, Ints.I20, Ints.I22, Ints.I40, Ints.I11, Ints.I13, Ints.I31, Ints.Ihalf,
    Within.mid, k.z_mean, k.z1, k.z2, k.z1_const, k.z2_const, k.zero, k.across, k.r21, k.r22]

theorem inside_single_g1_g5 (h : AgreeUpTo Z X R par par' bg bg' I I') {v : SingleEnv} (k : v.Inside Z X R) :
    single_g1_g5 par' bg' I' v = single_g1_g5 par bg I v := by
  unfold single_g1_g5
  obtain ⟨e1, e2, e3, e4, e5, e6, e7, e8, e9, e10, e11, e12, e13, e14, e15, e16⟩ := h.set
  simp only [e1, e2, e3, e4, e5, e6, e7, e8, e9, e10, e11, e12, e13, e14, e15, e16,
    h.galaxy_bias1, h.galaxy_bias2, h.magnification_bias1, h.magnification_bias2, h.evolution_bias1,
    h.evolution_bias2, h.comoving_distance, h.f, h.conformal_Hz, h.G1, h.G2, h.a, h.D1, h.z_as_chi, h.result,
    h.result2d, h.renormalization, h.renormalization_zero_separation,
    Ints.I00, Ints.I02, Ints.I04, Ints.I20, Ints.I22, Ints.I40, Ints.I11, Ints.I13, Ints.I31, Ints.Ihalf,
    Within.mid, k.z_mean, k.z1, k.z2, k.z1_const, k.z2_const, k.zero, k.across, k.r21, k.r22]

theorem inside_single_g2_g4 (h : AgreeUpTo Z X R par par' bg bg' I I') {v : SingleEnv} (k : v.Inside Z X R) :
    single_g2_g4 par' bg' I' v = single_g2_g4 par bg I v := by
  unfold single_g2_g4
  obtain ⟨e1, e2, e3, e4, e5, e6, e7, e8, e9, e10, e11, e12, e13, e14, e15, e16⟩ := h.set
  simp only [e1, e2, e3, e4, e5, e6, e7, e8, e9, e10, e11, e12, e13, e14, e15, e16,
    h.galaxy_bias1, h.galaxy_bias2, h.magnification_bias1, h.magnification_bias2, h.evolution_bias1,
    h.evolution_bias2, h.comoving_distance, h.f, h.conformal_Hz, h.G1, h.G2, h.a, h.D1, h.z_as_chi, h.result,
    h.result2d, h.renormalization, h.renormalization_zero_separation,
    Ints.I00, Ints.I02, Ints.I04, Ints.I20, Ints.I22, Ints.I40, Ints.I11, Ints.I13, Ints.I31, Ints.Ihalf,
    Within.mid, k.z_mean, k.z1, k.z2, k.z1_const, k.z2_const, k.zero, k.across, k.r21, k.r22]

theorem inside_single_g2_g5 (h : AgreeUpTo Z X R par par' bg bg' I I') {v : SingleEnv} (k : v.Inside Z X R) :
    single_g2_g5 par' bg' I' v = single_g2_g5 par bg I v := by
  unfold single_g2_g5
  obtain ⟨e1, e2, e3, e4, e5, e6, e7, e8, e9, e10, e11, e12, e13, e14, e15, e16⟩ := h.set
  simp only [e1, e2, e3, e4, e5, e6, e7, e8, e9, e10, e11, e12, e13, e14, e15, e16,
    h.galaxy_bias1, h.galaxy_bias2, h.magnification_bias1, h.magnification_bias2, h.evolution_bias1,
    h.evolution_bias2, h.comoving_distance, h.f, h.conformal_Hz, h.G1, h.G2, h.a, h.D1, h.z_as_chi, h.result,
    h.result2d, h.renormalization, h.renormalization_zero_separation,
    Ints.I00, Ints.I02, Ints.I04, Ints.I20, Ints.I22, Ints.I40, Ints.I11, Ints.I13, Ints.I31, Ints.Ihalf,
    Within.mid, k.z_mean, k.z1, k.z2, k.z1_const, k.z2_const, k.zero, k.across, k.r21, k.r22]

theorem inside_single_g3_g4 (h : AgreeUpTo Z X R par par' bg bg' I I') {v : SingleEnv} (k : v.Inside Z X R) :
    single_g3_g4 par' bg' I' v = single_g3_g4 par bg I v := by
  unfold single_g3_g4
  obtain ⟨e1, e2, e3, e4, e5, e6, e7, e8, e9, e10, e11, e12, e13, e14, e15, e16⟩ := h.set
  simp only [e1, e2, e3, e4, e5, e6, e7, e8, e9, e10, e11, e12, e13, e14, e15, e16,
    h.galaxy_bias1, h.galaxy_bias2, h.magnification_bias1, h.magnification_bias2, h.evolution_bias1,
    h.evolution_bias2, h.comoving_distance, h.f, h.conformal_Hz, h.G1, h.G2, h.a, h.D1, h.z_as_chi, h.result,
    h.result2d, h.renormalization, h.renormalization_zero_separation,
    Ints.I00, Ints.I02, Ints.I04, Ints.I20, Ints.I22, Ints.I40, Ints.I11, Ints.I13, Ints.I31, Ints.Ihalf,
    Within.mid, k.z_mean, k.z1, k.z2, k.z1_const, k.z2_const, k.zero, k.across, k.r21, k.r22]

theorem inside_single_g3_g5 (h : AgreeUpTo Z X R par par' bg bg' I I') {v : SingleEnv} (k : v.Inside Z X R) :
    single_g3_g5 par' bg' I' v = single_g3_g5 par bg I v := by
  unfold single_g3_g5
  obtain ⟨e1, e2, e3, e4, e5, e6, e7, e8, e9, e10, e11, e12, e13, e14, e15, e16⟩ := h.set
  simp only [e1, e2, e3, e4, e5, e6, e7, e8, e9, e10, e11, e12, e13, e14, e15, e16,
    h.galaxy_bias1, h.galaxy_bias2, h.magnification_bias1, h.magnification_bias2, h.evolution_bias1,
    h.evolution_bias2, h.comoving_distance, h.f, h.conformal_Hz, h.G1, h.G2, h.a, h.D1, h.z_as_chi, h.result,
    h.result2d, h.renormalization, h.renormalization_zero_separation,
    Ints.I00, Ints.I02, Ints.I04, Ints.I20, Ints.I22, Ints.I40, Ints.I11, Ints.I13, Ints.I31, Ints.Ihalf,
    Within.mid, k.z_mean, k.z1, k.z2, k.z1_const, k.z2_const, k.zero, k.across, k.r21, k.r22]

theorem inside_single_result (h : AgreeUpTo Z X R par par' bg bg' I I') {v : SingleEnv} (k : v.Inside Z X R) :
    single_result par' bg' I' v = single_result par bg I v := by
  unfold single_result
  rw [inside_single_den_len h k, inside_single_rsd_len h k, inside_single_d1_len h k, inside_single_d2_len h
    k, inside_single_g1_len h k, inside_single_g2_len h k, inside_single_g3_len h k, inside_single_den_g4 h k,
    inside_single_den_g5 h k, inside_single_rsd_g4 h k, inside_single_rsd_g5 h k, inside_single_d1_g4 h k,
    inside_single_d1_g5 h k, inside_single_d2_g4 h k, inside_single_d2_g5 h k, inside_single_g1_g4 h k,
    inside_single_g1_g5 h k, inside_single_g2_g4 h k, inside_single_g2_g5 h k, inside_single_g3_g4 h k,
    inside_single_g3_g5 h k]

/-- The points at which the terms of `functions_double_integrated` look things up. -/
structure DoubleEnv.Inside (Z X R : ℝ) (v : DoubleEnv) : Prop where
  z_mean : Within Z v.z_mean
  z1 : Within Z v.z1
  z2 : Within Z v.z2
  z1_const : Within Z v.z1_const
  z2_const : Within Z v.z2_const
  mean : Within X (v.x1 * v.chi_mean)
  z_of_mean : ∀ bg : Bg, Reaches Z X bg → Within Z (bg.z_as_chi (v.x1 * v.chi_mean))
  zero : Within R 0
  across : Within R (v.x1 * v.sep * Real.sqrt (1 - v.mu * v.mu))
  r2 : Within R (Real.sqrt v.r2)

theorem inside_double_len_len (h : AgreeUpTo Z X R par par' bg bg' I I') (hr : Reaches Z X bg) {v : DoubleEnv}
    (k : v.Inside Z X R) : double_len_len par' bg' I' v = double_len_len par bg I v := by
  unfold double_len_len
  obtain ⟨e1, e2, e3, e4, e5, e6, e7, e8, e9, e10, e11, e12, e13, e14, e15, e16⟩ := h.set
  simp only [e1, e2, e3, e4, e5, e6, e7, e8, e9, e10, e11, e12, e13, e14, e15, e16,
    h.galaxy_bias1, h.galaxy_bias2, h.magnification_bias1, h.magnification_bias2, h.evolution_bias1,
    h.evolution_bias2, h.comoving_distance, h.f, h.conformal_Hz, h.G1, h.G2, h.a, h.D1, h.z_as_chi, h.result,
    h.result2d, h.renormalization, h.renormalization_zero_separation,
    Ints.I00, Ints.I02, Ints.I04, Ints.I20, Ints.I22, Ints.I40, Ints.I11, Ints.I13, Ints.I31, Ints.Ihalf,
    Within.mid, k.z_mean, k.z1, k.z2, k.z1_const, k.z2_const, k.mean, k.z_of_mean bg hr, k.zero, k.across, k.r2]

theorem inside_double_g4_g4 (h : AgreeUpTo Z X R par par' bg bg' I I') (hr : Reaches Z X bg) {v : DoubleEnv}
    (k : v.Inside Z X R) : double_g4_g4 par' bg' I' v = double_g4_g4 par bg I v := by
  unfold double_g4_g4
  obtain ⟨e1, e2, e3, e4, e5, e6, e7, e8, e9, e10, e11, e12, e13, e14, e15, e16⟩ := h.set
  simp only [e1, e2, e3, e4, e5, e6, e7, e8, e9, e10, e11, e12, e13, e14, e15, e16,
    h.galaxy_bias1, h.galaxy_bias2, h.magnification_bias1, h.magnification_bias2, h.evolution_bias1,
    h.evolution_bias2, h.comoving_distance, h.f, h.conformal_Hz, h.G1, h.G2, h.a, h.D1, h.z_as_chi, h.result,
    h.result2d, h.renormalization, h.renormalization_zero_separation,
    Ints.I00, Ints.I02, Ints.I04, Ints.I20, Ints.I22, Ints.I40, Ints.I11, Ints.I13, Ints.I31, Ints.Ihalf,
    Within.mid, k.z_mean, k.z1, k.z2, k.z1_const, k.z2_const, k.mean, k.z_of_mean bg hr, k.zero, k.across, k.r2]

theorem inside_double_g5_g5 (h : AgreeUpTo Z X R par par' bg bg' I I') (hr : Reaches Z X bg) {v : DoubleEnv}
    (k : v.Inside Z X R) : double_g5_g5 par' bg' I' v = double_g5_g5 par bg I v := by
  unfold double_g5_g5
  obtain ⟨e1, e2, e3, e4, e5, e6, e7, e8, e9, e10, e11, e12, e13, e14, e15, e16⟩ := h.set
  simp only [e1, e2, e3, e4, e5, e6, e7, e8, e9, e10, e11, e12, e13, e14, e15, e16,
    h.galaxy_bias1, h.galaxy_bias2, h.magnification_bias1, h.magnification_bias2, h.evolution_bias1,
    h.evolution_bias2, h.comoving_distance, h.f, h.conformal_Hz, h.G1, h.G2, h.a, h.D1, h.z_as_chi, h.result,
    h.result2d, h.renormalization, h.renormalization_zero_separation,
    Ints.I00, Ints.I02, Ints.I04, Ints.I20, Ints.I22, Ints.I40, Ints.I11, Ints.I13, Ints.I31, Ints.Ihalf,
    Within.mid, k.z_mean, k.z1, k.z2, k.z1_const, k.z2_const, k.mean, k.z_of_mean bg hr, k.zero, k.across, k.r2]

theorem inside_double_g4_len (h : AgreeUpTo Z X R par par' bg bg' I I') (hr : Reaches Z X bg) {v : DoubleEnv}
    (k : v.Inside Z X R) : double_g4_len par' bg' I' v = double_g4_len par bg I v := by
  unfold double_g4_len
  obtain ⟨e1, e2, e3, e4, e5, e6, e7, e8, e9, e10, e11, e12, e13, e14, e15, e16⟩ := h.set
  simp only [e1, e2, e3, e4, e5, e6, e7, e8, e9, e10, e11, e12, e13, e14, e15, e16,
    h.galaxy_bias1, h.galaxy_bias2, h.magnification_bias1, h.magnification_bias2, h.evolution_bias1,
    h.evolution_bias2, h.comoving_distance, h.f, h.conformal_Hz, h.G1, h.G2, h.a, h.D1, h.z_as_chi, h.result,
    h.result2d, h.renormalization, h.renormalization_zero_separation,
    Ints.I00, Ints.I02, Ints.I04, Ints.I20, Ints.I22, Ints.I40, Ints.I11, Ints.I13, Ints.I31, Ints.Ihalf,
    Within.mid, k.z_mean, k.z1, k.z2, k.z1_const, k.z2_const, k.mean, k.z_of_mean bg hr, k.zero, k.across, k.r2]

theorem inside_double_g5_len (h : AgreeUpTo Z X R par par' bg bg' I I') (hr : Reaches Z X bg) {v : DoubleEnv}
    (k : v.Inside Z X R) : double_g5_len par' bg' I' v = double_g5_len par bg I v := by
  unfold double_g5_len
  obtain ⟨e1, e2, e3, e4, e5, e6, e7, e8, e9, e10, e11, e12, e13, e14, e15, e16⟩ := h.set
  simp only [e1, e2, e3, e4, e5, e6, e7, e8, e9, e10, e11, e12, e13, e14, e15, e16,
    h.galaxy_bias1, h.galaxy_bias2, h.magnification_bias1, h.magnification_bias2, h.evolution_bias1,
    h.evolution_bias2, h.comoving_distance, h.f, h.conformal_Hz, h.G1, h.G2, h.a, h.D1, h.z_as_chi, h.result,
    h.result2d, h.renormalization, h.renormalization_zero_separation,
    Ints.I00, Ints.I02, Ints.I04, Ints.I20, Ints.I22, Ints.I40, Ints.I11, Ints.I13, Ints.I31, Ints.Ihalf,
    Within.mid, k.z_mean, k.z1, k.z2, k.z1_const, k.z2_const, k.mean, k.z_of_mean bg hr, k.zero, k.across, k.r2]

theorem inside_double_g4_g5 (h : AgreeUpTo Z X R par par' bg bg' I I') (hr : Reaches Z X bg) {v : DoubleEnv}
    (k : v.Inside Z X R) : double_g4_g5 par' bg' I' v = double_g4_g5 par bg I v := by
  unfold double_g4_g5
  obtain ⟨e1, e2, e3, e4, e5, e6, e7, e8, e9, e10, e11, e12, e13, e14, e15, e16⟩ := h.set
  simp only [e1, e2, e3, e4, e5, e6, e7, e8, e9, e10, e11, e12, e13, e14, e15, e16,
    h.galaxy_bias1, h.galaxy_bias2, h.magnification_bias1, h.magnification_bias2, h.evolution_bias1,
    h.evolution_bias2, h.comoving_distance, h.f, h.conformal_Hz, h.G1, h.G2, h.a, h.D1, h.z_as_chi, h.result,
    h.result2d, h.renormalization, h.renormalization_zero_separation,
    Ints.I00, Ints.I02, Ints.I04, Ints.I20, Ints.I22, Ints.I40, Ints.I11, Ints.I13, Ints.I31, Ints.Ihalf,
    Within.mid, k.z_mean, k.z1, k.z2, k.z1_const, k.z2_const, k.mean, k.z_of_mean bg hr, k.zero, k.across, k.r2]

theorem inside_double_result (h : AgreeUpTo Z X R par par' bg bg' I I') (hr : Reaches Z X bg) {v : DoubleEnv}
    (k : v.Inside Z X R) : double_result par' bg' I' v = double_result par bg I v := by
  unfold double_result
  obtain ⟨e1, e2, e3, e4, e5, e6, e7, e8, e9, e10, e11, e12, e13, e14, e15, e16⟩ := h.set
  rw [inside_double_len_len h hr k, inside_double_g4_g4 h hr k, inside_double_g5_g5 h hr k,
    inside_double_g4_len h hr k, inside_double_g5_len h hr k, inside_double_g4_g5 h hr k]

/-! ## The points themselves -/

theorem inside_chi {c s m : ℝ} (hs : 0 ≤ s) (hf : s * |m| / 2 < c) (hX : c + s * |m| / 2 ≤ X) :
    (0 < c - s * m / 2 ∧ c - s * m / 2 ≤ X) ∧ (0 < c + s * m / 2 ∧ c + s * m / 2 ≤ X) := by
  have h1 : s * m ≤ s * |m| := mul_le_mul_of_nonneg_left (le_abs_self m) hs
  have h2 : -(s * |m|) ≤ s * m := by
    have := mul_le_mul_of_nonneg_left (neg_abs_le m) hs
    linarith
  refine ⟨⟨?_, ?_⟩, ⟨?_, ?_⟩⟩ <;> linarith

/-- The law of cosines for the two points: twice the product of the distances with the cosine. -/
theorem two_chi_cos {c s m : ℝ} (h1 : 0 < c - s * m / 2) (h2 : 0 < c + s * m / 2) :
    2 * (c - s * m / 2) * (c + s * m / 2) * ((2 * c * c - s * s + m * m * s * s / 2)
      / (2 * c * c - m * m * s * s / 2)) = (c - s * m / 2) ^ 2 + (c + s * m / 2) ^ 2 - s ^ 2 := by
  have e : 2 * c * c - m * m * s * s / 2 = 2 * (c - s * m / 2) * (c + s * m / 2) := by ring
  have h0 : 2 * (c - s * m / 2) * (c + s * m / 2) ≠ 0 := by positivity
  rw [e, mul_div_assoc', mul_comm, mul_div_assoc, div_self h0]
  ring

/-- A point on one line of sight is no farther from the other galaxy than the larger of the separation and
the distance of the galaxy. -/
theorem cross_le {p q s K x r : ℝ} (hK : K = p ^ 2 + q ^ 2 - s ^ 2) (hx : Within 1 x) (hp : p ^ 2 ≤ r ^ 2)
    (hs : s ^ 2 ≤ r ^ 2) : q * x * (q * x) + p * p - K * x ≤ r ^ 2 := by
  obtain ⟨x0, x1⟩ := hx
  have a1 : x * x ≤ x := by nlinarith
  have a2 : q ^ 2 * (x * x) ≤ q ^ 2 * x := mul_le_mul_of_nonneg_left a1 (sq_nonneg q)
  have a3 : (1 - x) * p ^ 2 ≤ (1 - x) * r ^ 2 := mul_le_mul_of_nonneg_left hp (by linarith)
  have a4 : x * s ^ 2 ≤ x * r ^ 2 := mul_le_mul_of_nonneg_left hs x0
  rw [hK]
  nlinarith

theorem cross2_le {p q s K x y r : ℝ} (hK : K = p ^ 2 + q ^ 2 - s ^ 2) (hx : Within 1 x) (hy : Within 1 y)
    (hp : p ^ 2 ≤ r ^ 2) (hq : q ^ 2 ≤ r ^ 2) (hs : s ^ 2 ≤ r ^ 2) :
    p * x * (p * x) + q * y * (q * y) - K * (x * y) ≤ r ^ 2 := by
  obtain ⟨x0, x1⟩ := hx
  obtain ⟨y0, y1⟩ := hy
  have a1 : p ^ 2 * (x * x) ≤ p ^ 2 * x := mul_le_mul_of_nonneg_left (by nlinarith) (sq_nonneg p)
  have a2 : q ^ 2 * (y * y) ≤ q ^ 2 * y := mul_le_mul_of_nonneg_left (by nlinarith) (sq_nonneg q)
  have b1 : x * (1 - y) * p ^ 2 ≤ x * (1 - y) * r ^ 2 :=
    mul_le_mul_of_nonneg_left hp (mul_nonneg x0 (by linarith))
  have b2 : y * (1 - x) * q ^ 2 ≤ y * (1 - x) * r ^ 2 :=
    mul_le_mul_of_nonneg_left hq (mul_nonneg y0 (by linarith))
  have b3 : x * y * s ^ 2 ≤ x * y * r ^ 2 := mul_le_mul_of_nonneg_left hs (mul_nonneg x0 y0)
  have b4 : 0 ≤ (1 - x) * (1 - y) * r ^ 2 :=
    mul_nonneg (mul_nonneg (by linarith) (by linarith)) (sq_nonneg r)
  rw [hK]
  nlinarith

theorem sqrt_within {t r : ℝ} (hr : 0 ≤ r) (h : t ≤ r ^ 2) : Within r (Real.sqrt t) :=
  ⟨Real.sqrt_nonneg _, Real.sqrt_le_iff.2 ⟨hr, h⟩⟩

theorem within_scale {B t x : ℝ} (h : Within B t) (hx : Within 1 x) : Within B (t * x) := by
  obtain ⟨h0, h1⟩ := h
  obtain ⟨x0, x1⟩ := hx
  exact ⟨mul_nonneg h0 x0, by nlinarith⟩

theorem across_within {B s m : ℝ} (h : Within B s) : Within B (s * Real.sqrt (1 - m * m)) := by
  refine within_scale h ⟨Real.sqrt_nonneg _, Real.sqrt_le_iff.2 ⟨by norm_num, ?_⟩⟩
  nlinarith [mul_self_nonneg m]

theorem inside_functions_nonintegrated (h : AgreeUpTo Z X R par par' bg bg' I I') (hr : Reaches Z X bg)
    {z m s : ℝ} (k : PairInside Z X R bg z m s) :
    functions_nonintegrated par' bg' I' z m s = functions_nonintegrated par bg I z m s := by
  obtain ⟨⟨p1, p2⟩, ⟨q1, q2⟩⟩ := inside_chi k.sep.1 k.front k.far
  have w1 : Within X (bg.comoving_distance z - s * m / 2) := ⟨p1.le, p2⟩
  have w2 : Within X (bg.comoving_distance z + s * m / 2) := ⟨q1.le, q2⟩
  have z1 := hr _ w1
  have z2 := hr _ w2
  have hv : NonEnv.of par' bg' z m s = NonEnv.of par bg z m s := by
    unfold NonEnv.of
    simp only [h.galaxy_bias1, h.galaxy_bias2, h.magnification_bias1, h.magnification_bias2, h.evolution_bias1,
      h.evolution_bias2, h.comoving_distance, h.f, h.conformal_Hz, h.G1, h.G2, h.a, h.z_as_chi, k.redshift, w1, w2, z1, z2]
  have hi : (NonEnv.of par bg z m s).Inside Z X R := ⟨k.redshift, z1, z2, w1, w2, k.sep⟩
  unfold functions_nonintegrated
  simp only [hv, inside_non_result h hi, inside_non_growth h hi]

theorem inside_functions_single_integrated (h : AgreeUpTo Z X R par par' bg bg' I I') (hr : Reaches Z X bg)
    {z m s x : ℝ} (k : PairInside Z X R bg z m s) (hx : Within 1 x) :
    functions_single_integrated par' bg' I' z m s x = functions_single_integrated par bg I z m s x := by
  obtain ⟨⟨p1, p2⟩, ⟨q1, q2⟩⟩ := inside_chi k.sep.1 k.front k.far
  have w1 : Within X (bg.comoving_distance z - s * m / 2) := ⟨p1.le, p2⟩
  have w2 : Within X (bg.comoving_distance z + s * m / 2) := ⟨q1.le, q2⟩
  have z1 := hr _ w1
  have z2 := hr _ w2
  have l1 := within_scale w1 hx
  have l2 := within_scale w2 hx
  have y1 := hr _ l1
  have y2 := hr _ l2
  have R0 : 0 ≤ R := k.sep.1.trans k.sep.2
  have hs2 : s ^ 2 ≤ R ^ 2 := pow_le_pow_left₀ k.sep.1 k.sep.2 2
  have hp2 : (bg.comoving_distance z - s * m / 2) ^ 2 ≤ R ^ 2 := pow_le_pow_left₀ p1.le (p2.trans k.tables) 2
  have hq2 : (bg.comoving_distance z + s * m / 2) ^ 2 ≤ R ^ 2 := pow_le_pow_left₀ q1.le (q2.trans k.tables) 2
  have hcos := two_chi_cos p1 q1
  have b21 := cross_le (q := bg.comoving_distance z + s * m / 2) rfl hx hp2 hs2
  have b22 := cross_le (q := bg.comoving_distance z - s * m / 2) rfl hx hq2 hs2
  have r21 : Within R (Real.sqrt (SingleEnv.of par bg I z m s x).r21) := by
    refine sqrt_within R0 ?_
    simp only [SingleEnv.of]
    split_ifs with hneg
    · exact sq_nonneg R
    · rw [← hcos] at b21
      refine le_trans (le_of_eq ?_) b21
      ring
  have r22 : Within R (Real.sqrt (SingleEnv.of par bg I z m s x).r22) := by
    refine sqrt_within R0 ?_
    simp only [SingleEnv.of]
    split_ifs with hneg
    · exact sq_nonneg R
    · rw [add_comm ((bg.comoving_distance z + s * m / 2) ^ 2), ← hcos] at b22
      refine le_trans (le_of_eq ?_) b22
      ring
  have hi : (SingleEnv.of par bg I z m s x).Inside Z X R :=
    ⟨k.redshift, y1, y2, z1, z2, ⟨le_rfl, R0⟩, across_within k.sep, r21, r22⟩
  have hv : SingleEnv.of par' bg' I' z m s x = SingleEnv.of par bg I z m s x := by
    simp only [SingleEnv.of] at r21 r22
    unfold SingleEnv.of
    simp only [h.set.2.2.2.2.2.1, h.galaxy_bias1, h.galaxy_bias2, h.magnification_bias1, h.magnification_bias2,
      h.comoving_distance, h.z_as_chi, h.result, h.renormalization, h.renormalization_zero_separation, Ints.I40,
      k.redshift, w1, w2, z1, z2, l1, l2, r21, r22]
  unfold functions_single_integrated
  rw [hv, inside_single_result h hi]

theorem inside_functions_double_integrated (h : AgreeUpTo Z X R par par' bg bg' I I') (hr : Reaches Z X bg)
    {z m s x y : ℝ} (k : PairInside Z X R bg z m s) (hx : Within 1 x) (hy : Within 1 y) :
    functions_double_integrated par' bg' I' z m s x y = functions_double_integrated par bg I z m s x y := by
  obtain ⟨⟨p1, p2⟩, ⟨q1, q2⟩⟩ := inside_chi k.sep.1 k.front k.far
  have w1 : Within X (bg.comoving_distance z - s * m / 2) := ⟨p1.le, p2⟩
  have w2 : Within X (bg.comoving_distance z + s * m / 2) := ⟨q1.le, q2⟩
  have z1 := hr _ w1
  have z2 := hr _ w2
  have l1 := within_scale w1 hx
  have l2 := within_scale w2 hy
  have y1 := hr _ l1
  have y2 := hr _ l2
  have R0 : 0 ≤ R := k.sep.1.trans k.sep.2
  have hs2 : s ^ 2 ≤ R ^ 2 := pow_le_pow_left₀ k.sep.1 k.sep.2 2
  have hp2 : (bg.comoving_distance z - s * m / 2) ^ 2 ≤ R ^ 2 := pow_le_pow_left₀ p1.le (p2.trans k.tables) 2
  have hq2 : (bg.comoving_distance z + s * m / 2) ^ 2 ≤ R ^ 2 := pow_le_pow_left₀ q1.le (q2.trans k.tables) 2
  have hcos := two_chi_cos p1 q1
  have b := cross2_le (p := bg.comoving_distance z - s * m / 2) (q := bg.comoving_distance z + s * m / 2) rfl hx hy
    hp2 hq2 hs2
  have r2 : Within R (Real.sqrt (DoubleEnv.of par bg I z m s x y).r2) := by
    refine sqrt_within R0 ?_
    simp only [DoubleEnv.of]
    split_ifs with hneg
    · exact sq_nonneg R
    · rw [← hcos] at b
      refine le_trans (le_of_eq ?_) b
      ring
  have wm : Within X (x * bg.comoving_distance z) := by
    rw [mul_comm]
    refine within_scale ⟨?_, ?_⟩ hx <;>
      · have := k.far
        have := k.front
        have : 0 ≤ s * |m| / 2 := by have := mul_nonneg k.sep.1 (abs_nonneg m); linarith
        linarith
  have wx : Within R (x * s) := by
    rw [mul_comm]
    exact within_scale k.sep hx
  have hi : (DoubleEnv.of par bg I z m s x y).Inside Z X R :=
    ⟨k.redshift, y1, y2, z1, z2, wm, fun b hb => hb _ wm, ⟨le_rfl, R0⟩,
      across_within wx, r2⟩
  have hv : DoubleEnv.of par' bg' I' z m s x y = DoubleEnv.of par bg I z m s x y := by
    simp only [DoubleEnv.of] at r2
    unfold DoubleEnv.of
    simp only [h.set.2.2.2.2.2.1, h.magnification_bias1, h.magnification_bias2,
      h.comoving_distance, h.z_as_chi, h.result, h.renormalization, h.renormalization_zero_separation, Ints.I40,
      k.redshift, w1, w2, z1, z2, l1, l2, r2]
  unfold functions_double_integrated
  rw [hv, inside_double_result h hr hi, h.set.2.2.2.2.2.2.2.2.2.2.2.2.2.2.2]

theorem inside_len_len_multipoles (h : AgreeUpTo Z X R par par' bg bg' I I') (hr : Reaches Z X bg)
    {z s x : ℝ} {l : ℕ} (hz : Within Z z) (hs : Within R s) (h0 : 0 ≤ bg.comoving_distance z)
    (hX : bg.comoving_distance z ≤ X) (hx : Within 1 x) :
    flatsky_len_len_multipoles par' bg' I' z s l x = flatsky_len_len_multipoles par bg I z s l x := by
  have w := within_scale (⟨h0, hX⟩ : Within X _) hx
  have wz := hr _ w
  have wr : Within R (x * s) := by
    rw [mul_comm]
    exact within_scale hs hx
  obtain ⟨e1, e2, e3, e4, e5, e6, e7, e8, e9, e10, e11, e12, e13, e14, e15, e16⟩ := h.set
  unfold flatsky_len_len_multipoles
  simp only [e8, e9, e14, e15, e16, h.magnification_bias1, h.magnification_bias2, h.comoving_distance, h.z_as_chi,
    h.D1, h.result, h.result2d, hz, w, wz, wr]

theorem inside_den_len_multipoles (h : AgreeUpTo Z X R par par' bg bg' I I') {z s : ℝ} {l : ℕ} (hz : Within Z z)
    (hs : Within R s) :
    flatsky_den_len_multipoles par' bg' I' z s l = flatsky_den_len_multipoles par bg I z s l := by
  obtain ⟨e1, e2, e3, e4, e5, e6, e7, e8, e9, e10, e11, e12, e13, e14, e15, e16⟩ := h.set
  unfold flatsky_den_len_multipoles
  simp only [e8, e9, e14, e15, e16, h.magnification_bias1, h.magnification_bias2, h.galaxy_bias1, h.galaxy_bias2,
    h.D1, h.result, h.result2d, hz, hs]

/-- The pair of a multipole integrand: the cosine runs over the whole interval. -/
theorem PairInside.turn {z s : ℝ} (hz : Within Z z) (hs : Within R s) (hf : s / 2 < bg.comoving_distance z)
    (hX : bg.comoving_distance z + s / 2 ≤ X) (hR : X ≤ R) {t : ℝ} (ht : Within 1 t) :
    PairInside Z X R bg z (2 * t - 1) s := by
  have h1 : |2 * t - 1| ≤ 1 := abs_le.2 ⟨by linarith [ht.1], by linarith [ht.2]⟩
  have h2 : s * |2 * t - 1| ≤ s := by nlinarith [hs.1]
  exact ⟨hz, hs, by linarith, by linarith, hR⟩

theorem inside_corrfunc {Q : Quad} (hQ : Q.InsideCube) (h : AgreeUpTo Z X R par par' bg bg' I I')
    (hr : Reaches Z X bg) {z zmin zmax m s : ℝ} {l : ℕ} (k : PairInside Z X R bg z m s) :
    signal_value Q par' bg' I' z zmin zmax s m l .CORRFUNC =
      signal_value Q par bg I z zmin zmax s m l .CORRFUNC := by
  have hc := h.set.1
  have e1 := inside_functions_nonintegrated h hr k
  have e2 := hQ.one _ _ (fun x hx => inside_functions_single_integrated h hr k hx)
  have e3 := hQ.multi 2 (fun v => functions_double_integrated par' bg' I' z m s (v 0) (v 1))
    (fun v => functions_double_integrated par bg I z m s (v 0) (v 1))
    (fun v hv => inside_functions_double_integrated h hr k (hv 0 (by norm_num)) (hv 1 (by norm_num)))
  simp only [signal_value, coffe_integrate, integrate_non, integrate_single, integrate_double, hc, e1, e2, e3]

theorem inside_multipoles {Q : Quad} (hQ : Q.InsideCube) (h : AgreeUpTo Z X R par par' bg bg' I I')
    (hr : Reaches Z X bg) {z zmin zmax m s : ℝ} {l : ℕ} (hz : Within Z z) (hs : Within R s)
    (hf : s / 2 < bg.comoving_distance z) (hX : bg.comoving_distance z + s / 2 ≤ X) (hR : X ≤ R) :
    signal_value Q par' bg' I' z zmin zmax s m l .MULTIPOLES =
      signal_value Q par bg I z zmin zmax s m l .MULTIPOLES := by
  obtain ⟨s1, s2, s3, s4, s5, s6, s7, s8, s9, s10, s11, s12, s13, s14, s15, s16⟩ := h.set
  have hk := fun {t : ℝ} => PairInside.turn (bg := bg) hz hs hf hX hR (t := t)
  have e1 : Q.one (multipoles_nonintegrated_integrand par' bg' I' z s l) =
      Q.one (multipoles_nonintegrated_integrand par bg I z s l) := hQ.one _ _ fun x hx => by
    simp only [multipoles_nonintegrated_integrand, inside_functions_nonintegrated h hr (hk hx)]
  have e2 : Q.multi 2 (multipoles_single_integrated_integrand par' bg' I' z s l) =
      Q.multi 2 (multipoles_single_integrated_integrand par bg I z s l) := hQ.multi _ _ _ fun v hv => by
    simp only [multipoles_single_integrated_integrand,
      inside_functions_single_integrated h hr (hk (hv 0 (by norm_num))) (hv 1 (by norm_num))]
  have e3 : Q.multi 3 (multipoles_double_integrated_integrand par' bg' I' z s l) =
      Q.multi 3 (multipoles_double_integrated_integrand par bg I z s l) := hQ.multi _ _ _ fun v hv => by
    simp only [multipoles_double_integrated_integrand, inside_functions_double_integrated h hr
      (hk (hv 0 (by norm_num))) (hv 1 (by norm_num)) (hv 2 (by norm_num))]
  have e4 := inside_den_len_multipoles h hz hs (l := l)
  have e5 : Q.one (fun x => flatsky_len_len_multipoles par' bg' I' z s l x) =
      Q.one (fun x => flatsky_len_len_multipoles par bg I z s l x) := hQ.one _ _ fun x hx =>
    inside_len_len_multipoles h hr hz hs (by linarith [hs.1]) (by linarith [hs.1]) hx
  have g1 : single_flat_gate par' = single_flat_gate par := by simp only [single_flat_gate, s1, s4]
  have g2 : single_multi_gate par' = single_multi_gate par := by simp only [single_multi_gate, s1, s4]
  have g3 : double_flat_gate par' l = double_flat_gate par l := by simp only [double_flat_gate, s1, s2, s5]
  have g4 : double_multi_gate par' = double_multi_gate par := by simp only [double_multi_gate, s1, s5]
  simp only [signal_value, coffe_integrate, integrate_non, integrate_single, integrate_double, g1, g2, g3, g4, s1,
    e1, e2, e3, e4, e5]

theorem inside_average {Q : Quad} (hQ : Q.InsideCube) (h : AgreeUpTo Z X R par par' bg bg' I I')
    (hr : Reaches Z X bg) {z zmin zmax m s : ℝ} {l : ℕ} (hmin : Within Z zmin) (hmax : Within Z zmax)
    (hs : Within R s) (h0 : 0 ≤ bg.comoving_distance zmin) (hfit : bg.comoving_distance zmin + s / 2 ≤
      bg.comoving_distance zmax - s / 2) (hX : bg.comoving_distance zmax ≤ X) (hR : X ≤ R)
    (hin : ∀ t, Within 1 t → Within Z (average_z bg zmin zmax s t) ∧
      s / 2 < bg.comoving_distance (average_z bg zmin zmax s t) ∧
      bg.comoving_distance (average_z bg zmin zmax s t) + s / 2 ≤ X) :
    signal_value Q par' bg' I' z zmin zmax s m l .AVERAGE_MULTIPOLES =
      signal_value Q par bg I z zmin zmax s m l .AVERAGE_MULTIPOLES := by
  obtain ⟨s1, s2, s3, s4, s5, s6, s7, s8, s9, s10, s11, s12, s13, s14, s15, s16⟩ := h.set
  have hs0 := hs.1
  have w1 : Within X (bg.comoving_distance zmin + s / 2) := ⟨by linarith, by linarith⟩
  have w2 : Within X (bg.comoving_distance zmax - s / 2) := ⟨by linarith, by linarith⟩
  have ez : ∀ t, average_z bg' zmin zmax s t = average_z bg zmin zmax s t := fun t => by
    simp only [average_z, h.comoving_distance _ hmin, h.comoving_distance _ hmax, h.z_as_chi _ w1, h.z_as_chi _ w2]
  have ew : ∀ t, Within 1 t → average_weight par' bg' (average_z bg zmin zmax s t) =
      average_weight par bg (average_z bg zmin zmax s t) := fun t ht => by
    simp only [average_weight, h.conformal_Hz _ (hin t ht).1, s16]
  have hk : ∀ {u t : ℝ}, Within 1 u → Within 1 t →
      PairInside Z X R bg (average_z bg zmin zmax s u) (2 * t - 1) s := fun {u t} hu ht =>
    PairInside.turn (hin u hu).1 hs (hin u hu).2.1 (hin u hu).2.2 hR ht
  have e1 : Q.multi 2 (average_nonintegrated_integrand par' bg' I' zmin zmax s l) =
      Q.multi 2 (average_nonintegrated_integrand par bg I zmin zmax s l) := hQ.multi _ _ _ fun v hv => by
    simp only [average_nonintegrated_integrand, ez, ew _ (hv 0 (by norm_num)),
      inside_functions_nonintegrated h hr (hk (hv 0 (by norm_num)) (hv 1 (by norm_num)))]
  have e2 : Q.multi 3 (average_single_integrated_integrand par' bg' I' zmin zmax s l) =
      Q.multi 3 (average_single_integrated_integrand par bg I zmin zmax s l) := hQ.multi _ _ _ fun v hv => by
    simp only [average_single_integrated_integrand, ez, ew _ (hv 0 (by norm_num)),
      inside_functions_single_integrated h hr (hk (hv 0 (by norm_num)) (hv 1 (by norm_num))) (hv 2 (by norm_num))]
  have e3 : Q.multi 4 (average_double_integrated_integrand par' bg' I' zmin zmax s l) =
      Q.multi 4 (average_double_integrated_integrand par bg I zmin zmax s l) := hQ.multi _ _ _ fun v hv => by
    simp only [average_double_integrated_integrand, ez, ew _ (hv 0 (by norm_num)),
      inside_functions_double_integrated h hr (hk (hv 0 (by norm_num)) (hv 1 (by norm_num))) (hv 2 (by norm_num))
        (hv 3 (by norm_num))]
  simp only [signal_value, coffe_integrate, integrate_non, integrate_single, integrate_double, s1, e1, e2, e3]

end Coffe
