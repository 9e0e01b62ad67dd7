import Verif.Model.Python.Compute

/-!
# Specification of the density parameters

The readings of the density parameters of an object, the closure relations between them, and histories in
which every assignment satisfies a condition.
-/

namespace Coffe

/-- The density parameters. -/
structure Dens where
  cdm : ℝ
  baryon : ℝ
  gamma : ℝ
  nu : ℝ
  m : ℝ
  de : ℝ
  h : ℝ
  m_ncdm : ℝ

/-- The density parameters as read from the object. -/
def PyPar.dens (p : PyPar) : Dens :=
  ⟨p.Omega0_cdm, p.Omega0_baryon, p.Omega0_gamma, p.Omega0_nu, p.Omega0_m, p.Omega0_de, p.h, p.m_ncdm⟩

/-- The density parameters as read from the object. -/
def PyObj.dens (s : PyObj) : Dens := s.par.dens

/-- The neutrino density is that of the neutrino mass: `m / 93.14 / h^2` (zero for massless neutrinos). -/
def Dens.Neutrinos (d : Dens) : Prop :=
  (d.m_ncdm = 0 ∧ d.nu = 0) ∨ (d.h ≠ 0 ∧ d.nu = d.m_ncdm / 93.14 / d.h ^ 2)

/-- Everything adds up to one. -/
def Dens.Flat (d : Dens) : Prop := d.de = 1 - d.m - d.gamma

/-- The matter density is made of cold dark matter, baryons and neutrinos. -/
def Dens.Matter (d : Dens) : Prop := d.m = d.cdm + d.baryon + d.nu

/-- `ok state parameter value` holds for every assignment of the dictionary, in order. -/
def OkSets (ok : PyObj → Name → PyVal → Prop) (s : PyObj) : List (Attr × PyVal) → Prop
  | [] => True
  | (.settable n, v) :: kvs => ok s n v ∧ OkSets ok (setattr n v s).2 kvs
  | _ :: _ => True

/-- `ok state parameter value` holds for every assignment made by the call. -/
def OkOp (ok : PyObj → Name → PyVal → Prop) (s : PyObj) : Op → Prop
  | .setattr (.settable n) v => ok s n v
  | .setParameters kvs => OkSets ok s kvs
  | _ => True

/-- `ok state parameter value` holds for every assignment made in the history. -/
def OkRun (N : Num) (ok : PyObj → Name → PyVal → Prop) : List Op → PyObj → Prop
  | [], _ => True
  | op :: ops, s => OkOp ok s op ∧ OkRun N ok ops (exec N op s).2

/-- Assignments that keep the densities consistent: `omega_cdm` is assigned only without neutrinos, `h`
only while the neutrino mass is zero, and the neutrino mass only while `h` is not zero. -/
def consistentSet (s : PyObj) (n : Name) (_ : PyVal) : Prop :=
  match n with
  | .omega_cdm => s.par.Omega0_nu = 0
  | .h => s.par.m_ncdm = 0
  | .m_ncdm => s.par.h ≠ 0
  | _ => True

/-- Assignments of non-negative densities and neutrino masses. -/
def nonnegativeSet (_ : PyObj) (n : Name) (v : PyVal) : Prop :=
  match n with
  | .omega_cdm | .omega_m | .omega_baryon | .omega_gamma | .m_ncdm =>
    ∀ x, (v = .float x ∨ ∃ k : ℤ, v = .int k ∧ x = k) → 0 ≤ x
  | _ => True

end Coffe
