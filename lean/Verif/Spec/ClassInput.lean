import Verif.Model.C.ClassInput

/-!
# Specification for C86: which setting is which parameter of CLASS
-/

namespace Coffe

/-- The names CLASS uses for the settings of an object that are numbers. -/
def classNumbers : List (String × (PyPar → ℝ)) :=
  [("h", fun p => p.h), ("T_cmb", fun p => p.T_cmb), ("Omega_b", fun p => p.Omega0_baryon), ("Omega_cdm", fun p => p.Omega0_cdm),
    ("N_ur", fun p => p.N_ur), ("m_ncdm", fun p => p.m_ncdm), ("n_s", fun p => p.n_s), ("w0_fld", fun p => p.w0), ("wa_fld", fun p => p.wa),
    ("k_per_decade_for_bao", fun p => p.prec.k_per_decade_for_bao), ("k_per_decade_for_pk", fun p => p.prec.k_per_decade_for_pk),
    ("start_large_k_at_tau_h_over_tau_k", fun p => p.prec.start_large_k_at_tau_h_over_tau_k),
    ("tol_perturb_integration", fun p => p.prec.tol_perturb_integration),
    ("radiation_streaming_trigger_tau_over_tau_k", fun p => p.prec.radiation_streaming_trigger_tau_over_tau_k),
    ("ur_fluid_trigger_tau_over_tau_k", fun p => p.prec.ur_fluid_trigger_tau_over_tau_k)]

/-- CLASS finds the number `x` under the name `n`, up to half a unit of the seventh digit. -/
def Receives (f : List (String × Option Text)) (n : String) (x : ℝ) : Prop :=
  ∃ t, f.lookup n = some (some t) ∧ |atof t - x| ≤ 5e-7 * |x|

end Coffe
