import Verif.Model.Python.Compute

/-! # Specification vocabulary for the Python object -/

namespace Coffe

/-- The parameters a user can see or set (everything except the internal `divergent` switch). -/
def PyPar.visible (p : PyPar) : PyPar := { p with divergent := false }

/-- There are enough widths of the redshift bins; or an effect that needs the divergent integral is on; or none was on when
something was computed.  Otherwise the internal switch is still on although no effect needs it. -/
def PyPar.WidthsFit (p : PyPar) : Prop :=
  p.z_mean.length ≤ p.deltaz.length ∨ p.contrib.divergent = true ∨ p.divergent = false

/-- Nothing has been computed or uploaded yet. -/
structure PyObj.NoCaches (s : PyObj) : Prop where
  bg : s.bg = none
  ps : s.ps = none
  ints : s.ints = []
  cf : s.cf = []
  mp : s.mp = []
  amp : s.amp = []
  cov : s.cov = []
  acov : s.acov = []

/-- Nothing is cached except possibly the background. -/
structure PyObj.OnlyBg (s : PyObj) : Prop where
  ps : s.ps = none
  ints : s.ints = []
  cf : s.cf = []
  mp : s.mp = []
  amp : s.amp = []
  cov : s.cov = []
  acov : s.acov = []

/-- Assignments whose setter frees everything that depends on the parameter.  The conditions are what the
setters forget: each names the caches that must not hold a value when the parameter is assigned. -/
def SafeSet (s : PyObj) : Name → Prop
  | .sep => s.amp = [] ∧ s.cov = [] ∧ s.acov = []
  | .z_min => s.amp = []
  | .z_max => s.amp = []
  | .l => s.ints = [] ∨ (s.par.flatsky_local_nonlocal = false ∧ s.par.flatsky_nonlocal = false)
  | .z_mean => (s.ints = [] ∨ s.par.divergent = false) ∧ (s.acov = [] ∨ s.par.pk_type = .COFFE_PK_LINEAR)
  | .deltaz => s.ints = [] ∨ s.par.divergent = false
  | .covariance_interpolation_method => s.ints = [] ∨ s.par.pk_type = .COFFE_PK_LINEAR
  | .m_ncdm => s.par.h ≠ 0 ∨ s.OnlyBg
  | _ => True

/-- Safe bias assignments. -/
def SafeBias (s : PyObj) : BiasName → Prop
  | .galaxy1 => s.amp = [] ∧ s.cov = [] ∧ s.acov = []
  | .galaxy2 => s.amp = [] ∧ s.cov = [] ∧ s.acov = []
  | .galaxy3 => s.cov = [] ∧ s.acov = []
  | .galaxy4 => s.cov = [] ∧ s.acov = []
  | .magnification1 => s.bg = none
  | .magnification2 => s.bg = none
  | .evolution1 => s.bg = none
  | .evolution2 => s.bg = none

/-- No signal and no covariance is cached. -/
structure PyObj.NoResults (s : PyObj) : Prop where
  cf : s.cf = []
  mp : s.mp = []
  amp : s.amp = []
  cov : s.cov = []
  acov : s.acov = []

/-- A sequence of safe assignments. -/
def SafeSets (s : PyObj) : List (Attr × PyVal) → Prop
  | [] => True
  | (.settable n, v) :: kvs => SafeSet s n ∧ SafeSets (setattr n v s).2 kvs
  | _ :: _ => True

/-- Calls after which no cached value is stale.  Recomputing re-runs CLASS on the k-range left by the
previous run, so results of another kind must not be kept. -/
def SafeOp (s : PyObj) : Op → Prop
  | .setattr (.settable n) _ => SafeSet s n
  | .setattr _ _ => True
  | .setParameters kvs => SafeSets s kvs
  | .parameters => True
  | .resetContributions => True
  | .setBias n _ _ => SafeBias s n
  | .setPowerSpectrumLinear k _ => s.NoResults ∧ s.par.pk_type = .COFFE_PK_LINEAR ∧ (k ≠ [] ∨ s.ints = [])
  | .computeBulk _ false => True
  | .computeBulk .corrfunc true => s.mp = [] ∧ s.amp = [] ∧ s.cov = [] ∧ s.acov = []
  | .computeBulk .multipoles true => s.cf = [] ∧ s.amp = [] ∧ s.cov = [] ∧ s.acov = []
  | .computeBulk .average true => s.cf = [] ∧ s.mp = [] ∧ s.cov = [] ∧ s.acov = []
  | .computeBulk .covariance true => s.ints = [] ∧ s.NoResults
  | .computeBulk .averageCovariance true => s.ints = [] ∧ s.NoResults
  | .computeCorrfunc _ _ _ re => re = true → s.NoResults
  | .computeMultipole _ _ _ re => re = true → s.NoResults
  | .integral _ _ _ => s.par.contrib.divergent = true → s.par.divergent = true
  | .maximumSeparation _ _ => True
  | .background _ _ => True
  | .spectrum _ _ _ _ _ => True

/-- Every call of the history is safe in the state in which it is made. -/
def SafeRun (N : Num) : List Op → PyObj → Prop
  | [], _ => True
  | op :: ops, s => SafeOp s op ∧
    ∀ o s', exec N op s = (o, s') → o ≠ .error .abort → o ≠ .error .crash → SafeRun N ops s'

/-- `r` is a newly built object with the settings of `s`: all parameters agree except possibly the
k-range, the internal switch of `r` is off, and nothing has been computed on `r`.  Either the k-ranges agree too and `r` has the uploaded
spectrum of `s` (if any), or `s` has run CLASS on the k-range of `r` and keeps that spectrum and the
k-range CLASS covered. -/
structure Reference (N : Num) (s r : PyObj) : Prop where
  par : { s.par with divergent := false, k_min := 0, k_max := 0 } =
    { r.par with divergent := false, k_min := 0, k_max := 0 }
  switch : r.par.divergent = false
  bg : r.bg = none
  ints : r.ints = []
  res : r.NoResults
  spectrum : (s.ps = r.ps ∧ s.par.k_min = r.par.k_min ∧ s.par.k_max = r.par.k_max) ∨
    (r.ps = none ∧ ∃ c, N.classRun r.par.classView = some c ∧ s.ps = some c.spectrum ∧
      s.par.k_min = max r.par.k_min c.k_first ∧ s.par.k_max = min r.par.k_max c.k_last)

end Coffe
