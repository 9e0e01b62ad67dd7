import Verif.Spec.Parser
import Verif.Model.Python.State

/-!
# Specification of what a settings file may leave out
-/

namespace Coffe
open Classical

/-- What the settings file leaves out is what a new Python object has. -/
structure Defaulted (E : ParserEnv) (c : Conf) (p : CPar) : Prop where
  mu : p.output_type = CORRFUNC → c "mu" = none → p.mu = PyPar.default.mu
  deltaz : p.output_type = COVARIANCE_MULTIPOLES → c "deltaz" = none → p.deltaz = PyPar.default.deltaz
  z_min : p.output_type = AVERAGE_MULTIPOLES → c "z_min" = none → p.zmin = PyPar.default.z_min
  z_max : p.output_type = AVERAGE_MULTIPOLES → c "z_max" = none → p.zmax = PyPar.default.z_max
  zmin : p.output_type = COVARIANCE_AVERAGE_MULTIPOLES → c "zmin" = none → p.zmin = PyPar.default.z_min
  zmax : p.output_type = COVARIANCE_AVERAGE_MULTIPOLES → c "zmax" = none → p.zmax = PyPar.default.z_max
  density1 : HasSurvey p → c "density1" = none → p.density1 = PyPar.default.density1
  density2 : HasSurvey p → c "density2" = none → p.density2 = PyPar.default.density2
  fsky : HasSurvey p → c "fsky" = none → p.fsky = PyPar.default.fsky
  pixelsize : HasSurvey p → c "pixelsize" = none → p.pixelsize = PyPar.default.pixelsize
  covariance_integration_bins : p.covariance_integration_method ≠ 2 →
    p.covariance_integration_bins = PyPar.default.covariance_integration_bins
  sigma8 : UsesClass E c → lookup_float c "sigma8" = none → p.sigma8 = PyPar.default.sigma8
  A_s : UsesClass E c → lookup_float c "A_s" = none → p.A_s = PyPar.default.A_s
  T_cmb : UsesClass E c → lookup_float c "T_cmb" = none → p.T_cmb = PyPar.default.T_cmb
  N_ur : UsesClass E c → lookup_float c "N_ur" = none → p.N_ur = PyPar.default.N_ur
  m_ncdm : UsesClass E c → lookup_float c "m_ncdm" = none → p.m_ncdm = PyPar.default.m_ncdm
  N_ncdm : UsesClass E c → lookup_int c "N_ncdm" = none → p.N_ncdm = PyPar.default.N_ncdm
  YHe : UsesClass E c → lookup_float c "YHe" = none → p.YHe = PyPar.default.YHe
  h : ¬ UsesClass E c → p.h = PyPar.default.h
  n_s : ¬ UsesClass E c → p.n_s = PyPar.default.n_s
  Omega0_nu : ¬ UsesClass E c → p.Omega0_nu = PyPar.default.Omega0_nu
  spectrum : ¬ UsesClass E c → (∀ name, lookup_string c "input_power_spectrum" = some name → E.file name = none) →
    p.power_spectrum = E.default_spectrum.map fun x => (x.1 * PyPar.default.h, x.2 / PyPar.default.h ^ 3)

end Coffe
