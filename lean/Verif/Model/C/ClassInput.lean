import Verif.Model.C.Text
import Verif.Model.Python.Compute

/-!
# What CLASS is given

`parse_external_power_spectrum`, src/parser.c:283-533: the parameters of CLASS are written as text into an array of 35 entries
(`struct file_content`).  A value that is not written is `none`: CLASS reads memory that nobody has set.
-/

namespace Coffe
open Classical

/-- `sprintf("%d", i)`. -/
def fmt_int (i : ℤ) : Text := (if i < 0 then ['-'] else []) ++ Nat.toDigits 10 i.natAbs

/-- `class_parameters_len`, src/parser.c:314. -/
def class_parameters_len : ℕ := 35

/-- The entries written to `fc->name` and `fc->value`, in order, src/parser.c:323-533; `k_pivot` is that of src/parser.c:759. -/
noncomputable def class_file (R : Rounding) (v : ClassView) : List (String × Option Text) :=
  [("h", some (fmt R 6 v.h)),
    ("T_cmb", some (fmt R 6 v.T_cmb)),
    ("Omega_b", some (fmt R 6 v.Omega0_baryon)),
    ("N_ur", some (fmt R 6 v.N_ur))] ++
  (if 1 / 10 ^ 10 < |v.YHe| then [("YHe", some (fmt R 6 v.YHe))] else []) ++
  [("Omega_cdm", some (fmt R 6 v.Omega0_cdm)),
    ("Omega_k", some (fmt R 6 0)),
    ("w0_fld", some (fmt R 6 v.w0)),
    ("wa_fld", some (fmt R 6 v.wa)),
    ("output", some ['m', 'P', 'k']),
    ("gauge", some ['s', 'y', 'n', 'c', 'h', 'r', 'o', 'n', 'o', 'u', 's']),
    ("P_k_ini type", some ['a', 'n', 'a', 'l', 'y', 't', 'i', 'c', '_', 'P', 'k']),
    ("N_ncdm", some (fmt_int v.N_ncdm)),
    ("m_ncdm", some (fmt R 6 v.m_ncdm)),
    ("k_pivot", some (fmt R 6 0.05)),
    ("n_s", some (fmt R 6 v.n_s)),
    (if 1 / 10 ^ 10 < |v.A_s| then ("A_s", some (fmt R 6 v.A_s)) else ("sigma8", some (fmt R 6 v.sigma8))),
    ("alpha_s", some (fmt R 6 0)),
    ("k_min_tau0", some (fmt R 6 0.002)),
    ("P_k_max_h/Mpc", some (fmt R 6 v.k_max)),
    ("tau_reio", some (fmt R 6 0.0925)),
    ("k_per_decade_for_bao", some (fmt R 6 v.prec.k_per_decade_for_bao)),
    ("k_per_decade_for_pk", some (fmt R 6 v.prec.k_per_decade_for_pk)),
    ("start_large_k_at_tau_h_over_tau_k", some (fmt R 6 v.prec.start_large_k_at_tau_h_over_tau_k)),
    ("l_max_g", some (fmt_int v.prec.l_max_g)),
    ("l_max_ur", some (fmt_int v.prec.l_max_ur)),
    ("tol_perturb_integration", some (fmt R 6 v.prec.tol_perturb_integration)),
    ("radiation_streaming_trigger_tau_over_tau_k", some (fmt R 6 v.prec.radiation_streaming_trigger_tau_over_tau_k)),
    ("ur_fluid_trigger_tau_over_tau_k", some (fmt R 6 v.prec.ur_fluid_trigger_tau_over_tau_k)),
    ("z_pk", some (fmt R 6 0)),
    ("z_max_pk", some (fmt R 6 3)),
    ("non linear", match v.pk_type with
      | .COFFE_PK_NONLINEAR_HALOFIT => some ['h', 'a', 'l', 'o', 'f', 'i', 't']
      | .COFFE_PK_NONLINEAR_HMCODE => some ['h', 'm', 'c', 'o', 'd', 'e']
      | _ => none)]

end Coffe
