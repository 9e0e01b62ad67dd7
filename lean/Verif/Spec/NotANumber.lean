import Verif.Model.Python.NotANumber

/-!
# What it means for a setting to be a number, and for the two models of an object to agree
-/

namespace Coffe

/-- A number, not an infinity and not NaN. -/
def Dbl.Finite (d : Dbl) : Prop := ∃ x : ℝ, d = .fin x

/-- A number in a range. -/
def Dbl.Within (d : Dbl) (lo hi : ℝ) : Prop := ∃ x : ℝ, d = .fin x ∧ lo ≤ x ∧ x ≤ hi

/-- The property of the object that a name stands for. -/
def CName.name : CName → Name
  | .omega_cdm => .omega_cdm | .omega_m => .omega_m | .omega_baryon => .omega_baryon | .omega_gamma => .omega_gamma
  | .h => .h | .w0 => .w0 | .wa => .wa | .n_s => .n_s | .sigma8 => .sigma8 | .A_s => .A_s | .T_cmb => .T_cmb
  | .N_ur => .N_ur | .m_ncdm => .m_ncdm | .YHe => .YHe | .integration_1d_prec => .integration_1d_prec
  | .k_min => .k_min | .k_max => .k_max

/-- The documented range of a setting. -/
noncomputable def CName.range : CName → ℝ × ℝ
  | .h => (0, 100)
  | .integration_1d_prec => (0, 1)
  | .k_min => (0, 1e-3)
  | .k_max => (0.1, 1e3)
  | _ => (-100, 100)

/-- The parameters of the model with exact reals. -/
def PyPar.doubles (p : PyPar) : DCosmo where
  Omega0_cdm := .fin p.Omega0_cdm
  Omega0_baryon := .fin p.Omega0_baryon
  Omega0_gamma := .fin p.Omega0_gamma
  Omega0_nu := .fin p.Omega0_nu
  Omega0_m := .fin p.Omega0_m
  Omega0_de := .fin p.Omega0_de
  h := .fin p.h
  w0 := .fin p.w0
  wa := .fin p.wa
  n_s := .fin p.n_s
  sigma8 := .fin p.sigma8
  A_s := .fin p.A_s
  T_cmb := .fin p.T_cmb
  N_ur := .fin p.N_ur
  m_ncdm := .fin p.m_ncdm
  YHe := .fin p.YHe
  integration_1d_prec := .fin p.integration_1d_prec
  k_min := .fin p.k_min
  k_max := .fin p.k_max

/-- The two models hold the same object. -/
def DObj.Agrees (d : DObj) (s : PyObj) : Prop := d.par = s.par.doubles ∧ { d.obj with par := s.par } = s

/-- The same argument in the model with special values. -/
def PyVal.double : PyVal → DVal
  | .float x => .float (.fin x)
  | v => .val v

/-- Nothing calculated from the settings is kept. -/
def PyObj.Cleared (s : PyObj) : Prop :=
  s.ps = none ∧ s.ints = [] ∧ s.cf = [] ∧ s.mp = [] ∧ s.amp = [] ∧ s.cov = [] ∧ s.acov = []

end Coffe
