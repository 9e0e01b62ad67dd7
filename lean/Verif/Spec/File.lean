import Verif.Model.Python.File
import Verif.Spec.PySetters

/-! # Specification of saving and loading settings from Python -/

namespace Coffe

/-- The four sets may be iterated over in any order. -/
structure SetOrder.Valid (o : SetOrder) : Prop where
  floatArrays : o.floatArrays.Perm floatArrayOptions
  floats : o.floats.Perm floatOptions
  ints : o.ints.Perm intOptions
  choices : o.choices.Perm choiceOptions

/-- The parameters a saved file does not bring back: they are not in the file, or reading ignores them, or
(`omega_cdm`) they are recomputed from others. -/
def Name.Lost (n : Name) : Prop :=
  n ∈ [.has_g2, .has_only_cross_correlations, .verbose, .integration_1d_prec, .covariance_populations,
    .start_large_k_at_tau_h_over_tau_k, .integrals_fftlog_sampling, .omega_cdm]

/-- Cosmological parameters, for which an assignment close to the current value is ignored. -/
def Name.Tolerant (n : Name) : Prop :=
  n ∈ [.omega_m, .omega_baryon, .omega_gamma, .w0, .wa, .h, .sigma8, .n_s, .T_cmb, .N_ur, .m_ncdm, .YHe]

/-- Two numbers agree within the tolerances of `np.allclose`. -/
def PyVal.Near (v w : PyVal) : Prop :=
  ∃ x y : ℝ, v = .float x ∧ w = .float y ∧ |x - y| ≤ 1e-8 + 1e-5 * |y|

/-- The samples of a bias function are evenly spaced in redshift and increasing. -/
def Samples.Even (l : Samples) : Prop :=
  ∃ a d : ℝ, 0 < d ∧ l.map Prod.fst = (List.range l.length).map fun i : ℕ => a + i * d

/-- What `set_galaxy_bias1` and its siblings accept. -/
structure Samples.Usable (l : Samples) : Prop where
  five : 5 ≤ l.length
  increasing : (l.map Prod.fst).Pairwise (· < ·)
  range : ∀ x ∈ l, 0 ≤ x.1 ∧ x.1 ≤ 15

/-- Every parameter has a value that its documentation allows. -/
def PyPar.Documented (p : PyPar) : Prop := ∀ n : Name, n.doc.Accepted (getattr p n) (getattr p n) (getattr p n)

/-- Parameters whose saved file can be loaded whatever the order: no list is empty, the Hubble parameter is
not zero, and the densities leave room for the default ones. -/
structure PyPar.Loadable (p : PyPar) : Prop where
  documented : p.Documented
  lists : p.sep ≠ [] ∧ p.mu ≠ [] ∧ p.l ≠ [] ∧ p.z_mean ≠ [] ∧ p.z_min ≠ [] ∧ p.z_max ≠ [] ∧ p.deltaz ≠ [] ∧
    p.density1 ≠ [] ∧ p.density2 ≠ [] ∧ p.pixelsize ≠ [] ∧ p.fsky ≠ []
  h : p.h ≠ 0
  m_ncdm : 0 ≤ p.m_ncdm
  baryon : 0 ≤ p.Omega0_baryon
  budget : p.Omega0_baryon + max p.Omega0_m 0.3 + max p.Omega0_gamma 9e-5 ≤ 1
  bias : ∀ b, (p.bias.get b).Usable

end Coffe
