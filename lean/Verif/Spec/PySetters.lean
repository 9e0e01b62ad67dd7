import Verif.Model.Python.Setters

/-!
# Specification of the settable parameters

For each settable parameter: which values its documentation allows, and what reading it back must give.
-/

namespace Coffe

/-- Documented kinds of parameters. -/
inductive Doc where
  /-- A real number in a range; an assignment close to the current value may be ignored. -/
  | cosmology (lo hi : ℝ)
  /-- An integer in a range; an assignment close to the current value may be ignored. -/
  | cosmologyInt (lo hi : ℤ)
  /-- A real number in a range. -/
  | real (lo hi : ℝ)
  /-- A Python `float` in a range. -/
  | float (lo hi : ℝ)
  /-- Any real number. -/
  | anyReal
  /-- Any integer. -/
  | anyInt
  /-- An integer in a range. -/
  | int (lo hi : ℤ)
  /-- A switch. -/
  | flag
  /-- One of the names, or its number, counted from `first`. -/
  | choice (first : ℕ) (names : List String)
  /-- A list of reals, each in a range. -/
  | reals (ok : ℝ → Prop)
  /-- A list of integers 0..9. -/
  | multipoles
  /-- Four integers 1..4. -/
  | populations

/-- The documentation of each parameter. -/
noncomputable def Name.doc : Name → Doc
  | .omega_cdm | .omega_m | .omega_baryon | .omega_gamma | .w0 | .wa | .n_s | .T_cmb | .N_ur | .YHe
  | .m_ncdm | .sigma8 => .cosmology (-100) 100
  | .h => .cosmology 0 100
  | .N_ncdm => .cosmologyInt (-100) 100
  | .A_s => .real (-100) 100
  | .k_min => .real 0 1e-3
  | .k_max => .real 0.1 1e3
  | .integration_1d_prec => .float 0 1
  | .k_per_decade_for_bao | .k_per_decade_for_pk | .start_large_k_at_tau_h_over_tau_k
  | .tol_perturb_integration | .radiation_streaming_trigger_tau_over_tau_k
  | .ur_fluid_trigger_tau_over_tau_k => .anyReal
  | .l_max_g | .l_max_ur => .anyInt
  | .integrals_fftlog_sampling | .covariance_integration_sampling => .int 0 1000000
  | .integration_sampling | .background_sampling => .int 0 2147483647
  | .covariance_integration_method => .choice 1 ["standard", "fftlog"]
  | .covariance_interpolation_method => .choice 1 ["bilinear", "bicubic"]
  | .integration_1d_type => .choice 1 ["gsl", "exponential"]
  | .pk_type => .choice 0 ["linear", "linear_class", "halofit", "hmcode"]
  | .sep => .reals fun x => 0 < x ∧ x < 10000
  | .mu => .reals fun x => -1 < x ∧ x < 1
  | .z_mean | .z_min | .z_max | .deltaz | .number_density1 | .number_density2 =>
    .reals fun x => 0 ≤ x ∧ x < 10
  | .pixelsize => .reals fun x => 0 < x ∧ x < 1000
  | .fsky => .reals fun x => 0 < x ∧ x ≤ 1
  | .l => .multipoles
  | .covariance_populations => .populations
  | .verbose | .has_only_cross_correlations | .covariance_cosmic | .covariance_mixed
  | .covariance_poisson | .has_binned_covariance | .has_density | .has_rsd | .has_lensing | .has_d1
  | .has_d2 | .has_g1 | .has_g2 | .has_g3 | .has_g4 | .has_g5 | .has_flatsky_local
  | .has_flatsky_local_nonlocal | .has_flatsky_nonlocal => .flag

/-- A Python number (`True` is 1, `False` is 0). -/
def PyVal.IsReal (v : PyVal) (x : ℝ) : Prop :=
  v = .float x ∨ (∃ n : ℤ, v = .int n ∧ x = n) ∨ (v = .bool true ∧ x = 1) ∨ (v = .bool false ∧ x = 0)

/-- A Python integer (`True` is 1, `False` is 0). -/
def PyVal.IsInt (v : PyVal) (n : ℤ) : Prop :=
  v = .int n ∨ (v = .bool true ∧ n = 1) ∨ (v = .bool false ∧ n = 0)

/-- A Python number with an integer value. -/
def PyVal.IsIntegral (v : PyVal) (n : ℤ) : Prop := v.IsInt n ∨ v = .float n

/-- The value assigned to a parameter that takes any integer is not a fraction. -/
def Name.Whole (n : Name) (v : PyVal) : Prop :=
  n = .l_max_g ∨ n = .l_max_ur → ∀ x, v = .float x → ∃ k : ℤ, x = k

/-- A Python list of reals. -/
def PyVal.IsReals (v : PyVal) (l : List ℝ) : Prop :=
  v = .floats l ∨ ∃ ns : List ℤ, v = .ints ns ∧ l = ns.map fun n : ℤ => (n : ℝ)

/-- `v` is an allowed value for the parameter and `new` is what reading it should give afterwards, when
reading gave `old` before. -/
def Doc.Accepted : Doc → (v old new : PyVal) → Prop
  | .cosmology lo hi, v, old, new => ∃ x, v.IsReal x ∧ lo ≤ x ∧ x ≤ hi ∧
      (new = .float x ∨ (new = old ∧ ∃ y, old = .float y ∧ |x - y| ≤ 1e-8 + 1e-5 * |y|))
  | .cosmologyInt lo hi, v, old, new => ∃ n : ℤ, v.IsInt n ∧ lo ≤ n ∧ n ≤ hi ∧
      (new = .int n ∨ (new = old ∧ ∃ m : ℤ, old = .int m ∧ |(n : ℝ) - m| ≤ 1e-8 + 1e-5 * |(m : ℝ)|))
  | .real lo hi, v, _, new => ∃ x, v.IsReal x ∧ lo ≤ x ∧ x ≤ hi ∧ new = .float x
  | .float lo hi, v, _, new => ∃ x, v = .float x ∧ lo ≤ x ∧ x ≤ hi ∧ new = .float x
  | .anyReal, v, _, new => ∃ x, v.IsReal x ∧ new = .float x
  | .anyInt, v, _, new => ∃ n, v.IsIntegral n ∧ new = .int n
  | .int lo hi, v, _, new => ∃ n, v.IsInt n ∧ lo ≤ n ∧ n ≤ hi ∧ new = .int n
  | .flag, v, _, new => new = .bool v.truth
  | .choice first names, v, _, new => ∃ (i : ℕ) (name : String), names[i]? = some name ∧
      (v.IsIntegral (first + i : ℕ) ∨ v = .str name) ∧ new = .str name
  | .reals ok, v, _, new => ∃ l, v.IsReals l ∧ (∀ x ∈ l, ok x) ∧ new = .floats l
  | .multipoles, v, _, new => ∃ l : List ℤ, (v = .ints l ∨ (v = .floats [] ∧ l = [])) ∧
      (∀ n ∈ l, 0 ≤ n ∧ n < 10) ∧ new = .ints l
  | .populations, v, _, new => ∃ l : List ℤ,
      (v = .ints l ∨ v = .floats (l.map fun n : ℤ => (n : ℝ))) ∧ l.length = 4 ∧
      (∀ n ∈ l, 1 ≤ n ∧ n ≤ 4) ∧ new = .ints l

/-- Parameters whose assignment may also change other density parameters. -/
def Name.density : Name → Prop
  | .omega_cdm | .omega_m | .omega_baryon | .omega_gamma | .m_ncdm => True
  | _ => False

/-- `n.Drives m`: assigning `n` may also change the reading of `m` (the density bookkeeping). -/
def Name.Drives : Name → Name → Prop
  | .omega_cdm, .omega_m => True
  | .omega_m, .omega_cdm => True
  | .omega_baryon, .omega_cdm => True
  | .m_ncdm, .omega_cdm => True
  | _, _ => False

end Coffe
