import Verif.Model.Python.Setters
import Verif.Spec.Lookups

/-!
# Computing methods of a `Coffe` object (python/coffe/coffe.pyx)

The stages call the C library on `self._parameters`; which cached stage is reused follows the Python
code exactly.
-/

namespace Coffe
open Classical

/-! ## What the stages read -/

/-- What the background stage reads, src/background.c:300-640. -/
def PyPar.bgView (p : PyPar) : BgView where
  Omega0_cdm := p.Omega0_cdm
  Omega0_baryon := p.Omega0_baryon
  Omega0_gamma := p.Omega0_gamma
  Omega0_de := p.Omega0_de
  h := p.h
  w0 := p.w0
  wa := p.wa
  integration_1d_type := p.integration_1d_type
  integration_1d_prec := p.integration_1d_prec
  background_bins := p.background_bins
  magnification1 := p.bias.magnification1
  magnification2 := p.bias.magnification2
  evolution1 := p.bias.evolution1
  evolution2 := p.bias.evolution2

/-- What the spectrum stage reads, src/parser.c:283-729. -/
def PyPar.classView (p : PyPar) : ClassView where
  h := p.h
  T_cmb := p.T_cmb
  Omega0_baryon := p.Omega0_baryon
  N_ur := p.N_ur
  YHe := p.YHe
  Omega0_cdm := p.Omega0_cdm
  w0 := p.w0
  wa := p.wa
  N_ncdm := p.N_ncdm
  m_ncdm := p.m_ncdm
  n_s := p.n_s
  A_s := p.A_s
  sigma8 := p.sigma8
  k_min := p.k_min
  k_max := p.k_max
  prec := p.prec
  pk_type := p.pk_type

/-- What the integral stage reads, src/integrals.c:580-1423. -/
def PyPar.intView (p : PyPar) (ps : Spectrum) (cls : Option (List ℝ)) : IntView where
  bessel_bins := p.bessel_bins
  spectrum := ps
  k_min := p.k_min
  k_max := p.k_max
  pk_type := p.pk_type
  class_data := if p.pk_type = .COFFE_PK_LINEAR then none
    else cls.map fun c => (c, p.covariance_interpolation_method)

/-- What the divergent integral reads, src/integrals.c:771-925. -/
def PyPar.intView4 (p : PyPar) (ps : Spectrum) (cls : Option (List ℝ)) (b : Bg) : IntView4 where
  base := p.intView ps cls
  z_mean := p.z_mean
  deltaz := p.deltaz
  comoving_distance := b.comoving_distance

/-- What the quadrature reads, src/common.c:1004-1179. -/
def PyPar.quadView (p : PyPar) : QuadView where
  integration_1d_type := p.integration_1d_type
  integration_1d_prec := p.integration_1d_prec
  integration_bins := p.integration_bins

/-- What the covariance reads, src/covariance.c:477-1103.  The bins are `z_mean`, `deltaz` for the
covariance of multipoles and `z_min`, `z_max` for the redshift-averaged one. -/
def PyPar.covView (p : PyPar) (ps : Spectrum) (average : Bool) : CovView where
  average := average
  den := p.contrib.den
  rsd := p.contrib.rsd
  cosmic := p.covariance_cosmic
  mixed := p.covariance_mixed
  poisson := p.covariance_poisson
  window := p.covariance_window
  method := p.covariance_integration_method
  bins := p.covariance_integration_bins
  interp := p.covariance_interpolation_method
  pop := p.covariance_pop
  density1 := p.density1
  density2 := p.density2
  fsky := p.fsky
  galaxy1 := p.bias.galaxy1
  galaxy2 := p.bias.galaxy2
  galaxy3 := p.bias.galaxy3
  galaxy4 := p.bias.galaxy4
  h := p.h
  integration_1d_type := p.integration_1d_type
  integration_1d_prec := p.integration_1d_prec
  k_min := p.k_min
  k_max := p.k_max
  l := p.l
  sep := p.sep
  pixelsize := p.pixelsize
  pk_type := p.pk_type
  spectrum := ps
  z_mean := if average then [] else p.z_mean
  deltaz := if average then [] else p.deltaz
  z_min := if average then p.z_min else []
  z_max := if average then p.z_max else []

/-- The parameters seen by the signal code (src/functions.c, src/signal.c).  The mid-point approximation
is on and the derivative switches are off in Python (src/parser.c:762-765, 843). -/
noncomputable def PyPar.toPar (N : Num) (p : PyPar) : Par where
  correlation_contrib := p.contrib
  only_cross_correlations := p.only_cross_correlations
  flatsky_local := p.flatsky_local
  flatsky_local_nonlocal := p.flatsky_local_nonlocal
  flatsky_nonlocal := p.flatsky_nonlocal
  divergent := p.divergent
  output_type := .MULTIPOLES
  pk_type := p.pk_type
  midpoint_approximation := true
  b_derivative := false
  f_derivative := false
  b_tilde_derivative := false
  f_tilde_derivative := false
  Omega0_cdm := p.Omega0_cdm
  Omega0_baryon := p.Omega0_baryon
  h := p.h
  galaxy_bias1 := N.akima p.bias.galaxy1
  galaxy_bias2 := N.akima p.bias.galaxy2
  magnification_bias1 := N.akima p.bias.magnification1
  magnification_bias2 := N.akima p.bias.magnification2
  evolution_bias1 := N.akima p.bias.evolution1
  evolution_bias2 := N.akima p.bias.evolution2

/-! ## Checks before computing -/

/-- `_check_coords_corrfunc`, coffe.pyx:1064-1069. -/
def checkCoordsCorrfunc : Py Unit := do
  let s ← Py.get
  if s.par.mu = [] ∨ s.par.sep = [] ∨ s.par.z_mean = [] then Py.raise .valueError else pure ()

/-- `_check_coords_multipoles`, coffe.pyx:1072-1077. -/
def checkCoordsMultipoles : Py Unit := do
  let s ← Py.get
  if s.par.l = [] ∨ s.par.sep = [] ∨ s.par.z_mean = [] then Py.raise .valueError else pure ()

/-- `_check_coords_average_multipoles`, coffe.pyx:1080-1084. -/
def checkCoordsAverage : Py Unit := do
  let s ← Py.get
  if s.par.l = [] ∨ s.par.sep = [] ∨ s.par.z_min = [] ∨ s.par.z_max = [] then Py.raise .valueError
  else pure ()

/-- Some contribution is switched on, coffe.pyx:1088-1101. -/
def Contrib.any (c : Contrib) : Bool :=
  c.den || c.rsd || c.len || c.d1 || c.d2 || c.g1 || c.g2 || c.g3 || c.g4 || c.g5

/-- A contribution that needs the divergent integral is switched on, coffe.pyx:1108. -/
def Contrib.divergent (c : Contrib) : Bool := c.d2 || c.g1 || c.g2 || c.g3 || c.g4 || c.g5

/-- `_check_contributions`, coffe.pyx:1087-1109. -/
def checkContributions : Py Unit := do
  let s ← Py.get
  if s.par.contrib.any = false then Py.raise .valueError
  if s.par.contrib.divergent then Py.modify fun s => s.upd fun p => { p with divergent := true }

/-! ## Stages -/

/-- The fits of the biases at the end of the background stage (src/background.c:639-681,
src/common.c:1259-1330; the results are never read) look at the last separation, `sep[sep_len - 1]`, also
when there is none. -/
def PyPar.FitOob (p : PyPar) : Prop := p.flatsky_nonlocal = true ∧ p.z_mean ≠ [] ∧ p.sep = []

/-- `_background_init`, coffe.pyx:3538-3542; `coffe_background_init`, src/background.c:300-681 (frees the
old background first). -/
noncomputable def backgroundInit (N : Num) : Py Unit := fun s =>
  if s.par.FitOob then (.error .crash, s) else
  match N.background s.par.bgView with
  | some b => (.ok (), { s with bg := some b })
  | none => (.error .abort, s)

/-- The two-dimensional table of the spectrum is made for the spectrum types other than `LINEAR`,
src/parser.c:640-727. -/
def PyPar.has2d (p : PyPar) : Bool := p.pk_type != .COFFE_PK_LINEAR

/-- `_power_spectrum_init`, coffe.pyx:3544-3546; `parse_external_power_spectrum`, src/parser.c:283-729:
runs CLASS, cuts the k-range to what CLASS covers (608-615), stores the spectrum and `class_struct`. -/
noncomputable def powerSpectrumInit (N : Num) : Py Unit := fun s =>
  match N.classRun s.par.classView with
  | some c => (.ok (), { s with
      par := { s.par with
        k_min := max s.par.k_min c.k_first
        k_max := min s.par.k_max c.k_last }
      ps := some c.spectrum
      cls := some c.cls
      pk2d := s.par.has2d })
  | none => (.error .abort, s)

/-- The numerical content of the integral table. -/
noncomputable def intNum (N : Num) (p : PyPar) (ps : Spectrum) (cls : Option (List ℝ)) (b : Bg) :
    Key → Integral := fun k =>
  if k = ⟨4, 0, .int, .int⟩ then N.four (p.intView4 ps cls b) else N.plain (p.intView ps cls) k

/-- The divergent integral looks at the width `deltaz[i]` of every mean redshift `z_mean[i]` (src/integrals.c:857-870), also
when there are fewer widths than mean redshifts. -/
def PyPar.RenormOob (p : PyPar) : Prop := p.divergent = true ∧ p.deltaz.length < p.z_mean.length

/-- `_integrals_init`, coffe.pyx:3548-3553; `coffe_integrals_init`, src/integrals.c:580-1423.  With a
non-linear spectrum type and no CLASS run so far, `class_struct` is NULL and is dereferenced
(src/integrals.c:664-700). -/
noncomputable def integralsInit (N : Num) : Py Unit := fun s =>
  match s.bg, s.ps with
  | some b, some ps =>
    if (s.par.pk_type ≠ .COFFE_PK_LINEAR ∧ s.cls = none) ∨ s.par.RenormOob then (.error .crash, s)
    else (.ok (), { s with
      ints := integrals_init (intNum N s.par ps s.cls b) (s.par.toPar N) s.par.l })
  | _, _ => (.error .crash, s)

/-- `if not flag or recompute: init()`. -/
noncomputable def ensure (missing : PyObj → Prop) (re : Bool) (init : Py Unit) : Py Unit := do
  let s ← Py.get
  if missing s ∨ re = true then init else pure ()

/-- `if not self._background.flag or recompute: self._background_init()`. -/
noncomputable def ensureBg (N : Num) (re : Bool) : Py Unit :=
  ensure (fun s => s.bg = none) re (backgroundInit N)
/-- `if not self._power_spectrum_flag or recompute: self._power_spectrum_init()`. -/
noncomputable def ensurePs (N : Num) (re : Bool) : Py Unit :=
  ensure (fun s => s.ps = none) re (powerSpectrumInit N)
/-- `if not self._integral.size or recompute: self._integrals_init()`. -/
noncomputable def ensureInts (N : Num) (re : Bool) : Py Unit :=
  ensure (fun s => s.ints = []) re (integralsInit N)

/-- The signal at one point, from the cached background and integrals. -/
noncomputable def signalAt (N : Num) (s : PyObj) (b : Bg) (z zmin zmax sep mu : ℝ) (l : ℕ)
    (out : OutputType) : ℝ :=
  signal_value (N.quad s.par.quadView) (s.par.toPar N) b (tableInts s.ints N.junk) z zmin zmax sep mu l
    out

/-- `coffe_corrfunc_init`, src/corrfunc.c: coordinates in the order redshift, angle, separation. -/
noncomputable def corrfuncRows (N : Num) (s : PyObj) (b : Bg) : List CfRow :=
  s.par.z_mean.flatMap fun z => s.par.mu.flatMap fun mu => s.par.sep.map fun r =>
    ⟨z, mu, r, signalAt N s b z 0 0 r mu 0 .CORRFUNC⟩

/-- `coffe_multipoles_init`, src/multipoles.c: order redshift, multipole, separation. -/
noncomputable def multipoleRows (N : Num) (s : PyObj) (b : Bg) : List MpRow :=
  s.par.z_mean.flatMap fun z => s.par.l.flatMap fun l => s.par.sep.map fun r =>
    ⟨z, l, r, signalAt N s b z 0 0 r 0 l .MULTIPOLES⟩

/-- `coffe_average_multipoles_init`, src/average_multipoles.c:69-160: bins `zmin[i], zmax[i]` for
`i < zmin_len`, then multipole, then separation. -/
noncomputable def averageRows (N : Num) (s : PyObj) (b : Bg) : List AmpRow :=
  (s.par.z_min.zip s.par.z_max).flatMap fun zz => s.par.l.flatMap fun l => s.par.sep.map fun r =>
    ⟨zz.1, zz.2, l, r, signalAt N s b ((zz.1 + zz.2) / 2) zz.1 zz.2 r 0 l .AVERAGE_MULTIPOLES⟩

/-- `_corrfunc_init`, coffe.pyx:3555-3561. -/
noncomputable def corrfuncInit (N : Num) : Py Unit := fun s =>
  match s.bg with
  | some b => (.ok (), { s with cf := corrfuncRows N s b })
  | none => (.error .crash, s)

/-- `_multipoles_init`, coffe.pyx:3563-3569. -/
noncomputable def multipolesInit (N : Num) : Py Unit := fun s =>
  match s.bg with
  | some b => (.ok (), { s with mp := multipoleRows N s b })
  | none => (.error .crash, s)

/-- `_average_multipoles_init`, coffe.pyx:3571-3577; reads `zmax[i]` out of bounds when `z_max` is
shorter than `z_min`. -/
noncomputable def averageInit (N : Num) : Py Unit := fun s =>
  match s.bg with
  | some b =>
    if s.par.z_max.length < s.par.z_min.length then (.error .crash, s)
    else (.ok (), { s with amp := averageRows N s b })
  | none => (.error .crash, s)

/-- Rows of `coffe_covariance_init` for `COVARIANCE_MULTIPOLES`, order redshift, l1, r1, l2, r2
(src/covariance.c:1010-1060). -/
noncomputable def covRows (N : Num) (p : PyPar) (ps : Spectrum) (b : Bg) : List CovRow :=
  p.z_mean.flatMap fun z => p.l.flatMap fun l1 => p.sep.flatMap fun r1 =>
    p.l.flatMap fun l2 => p.sep.map fun r2 =>
      ⟨z, r1, r2, l1, l2, N.cov (p.covView ps false) b z r1 r2 l1 l2⟩

/-- Rows of `coffe_covariance_init` for `COVARIANCE_AVERAGE_MULTIPOLES`. -/
noncomputable def acovRows (N : Num) (p : PyPar) (ps : Spectrum) (b : Bg) : List AcovRow :=
  (p.z_min.zip p.z_max).flatMap fun zz => p.l.flatMap fun l1 => p.sep.flatMap fun r1 =>
    p.l.flatMap fun l2 => p.sep.map fun r2 =>
      ⟨zz.1, zz.2, r1, r2, l1, l2, N.cov (p.covView ps true) b ((zz.1 + zz.2) / 2) r1 r2 l1 l2⟩

/-- FFTLog (`twobessel`, src/twobessel.c:43-103, 139-146) with an odd number of sampling points prints an
error and calls `exit` (src/twobessel.c:149-152); with none it writes outside its arrays. -/
def PyPar.covBad (p : PyPar) : Option Err :=
  if p.covariance_integration_method = .fftlog then
    if p.covariance_integration_bins = 0 then some .crash
    else if p.covariance_integration_bins % 2 = 0 then none else some .abort
  else none

/-- `_covariance_init`, coffe.pyx:3579-3585, for `COVARIANCE_MULTIPOLES`: both covariances are freed
first (src/covariance.c:485-486). -/
noncomputable def covInit (N : Num) : Py Unit := fun s =>
  match s.bg, s.ps with
  | some b, some ps =>
    match s.par.covBad with
    | some e => (.error e, s)
    | none => (.ok (), { s with cov := covRows N s.par ps b, acov := [] })
  | _, _ => (.error .crash, s)

/-- `_covariance_init` for `COVARIANCE_AVERAGE_MULTIPOLES`; with a spectrum type other than `LINEAR` the
per-redshift integrals are allocated for `z_mean_len` redshifts (src/covariance.c:527-531) and indexed by
the bin number. -/
noncomputable def acovInit (N : Num) : Py Unit := fun s =>
  match s.bg, s.ps with
  | some b, some ps =>
    if s.par.pk_type ≠ .COFFE_PK_LINEAR ∧ s.par.z_mean.length < s.par.z_min.length then
      (.error .crash, s)
    else match s.par.covBad with
    | some e => (.error e, s)
    | none => (.ok (), { s with acov := acovRows N s.par ps b, cov := [] })
  | _, _ => (.error .crash, s)

/-! ## Methods -/

/-- Results returned by the methods. -/
inductive Out where
  | unit
  | real (x : ℝ)
  | corrfunc (l : List CfRow)
  | multipoles (l : List MpRow)
  | average (l : List AmpRow)
  | covariance (l : List CovRow)
  | averageCovariance (l : List AcovRow)
  | params (l : List (Name × PyVal))

/-- `_check_parameter` on a real argument. -/
noncomputable def checkReal (x xmin xmax : ℝ) : Py Unit :=
  if x < xmin then Py.raise .valueError else if x > xmax then Py.raise .valueError else pure ()

/-- `maximum_separation`, coffe.pyx:2764-2793; the table of the distance ends at redshift 15
(src/background.c:366-377) and GSL's handler is on (src/background.c:683), so a look-up beyond aborts. -/
noncomputable def maximumSeparation (N : Num) (z dz : ℝ) : Py ℝ := do
  checkReal z 0 15
  checkReal dz 0 z
  ensureBg N false
  fun s => match s.bg with
    | some b => if z + dz > 15 then (.error .abort, s)
      else (.ok (2 * (b.comoving_distance (z + dz) - b.comoving_distance z)), s)
    | none => (.error .crash, s)

/-- The five bulk computations. -/
inductive Bulk where
  | corrfunc
  | multipoles
  | average
  | covariance
  | averageCovariance
deriving DecidableEq, Repr

/-- `compute_corrfunc_bulk`, coffe.pyx:3386-3425. -/
noncomputable def computeCorrfuncBulk (N : Num) (re : Bool) : Py Out := do
  checkCoordsCorrfunc
  checkContributions
  ensureBg N re
  ensurePs N re
  ensureInts N re
  ensure (fun s => s.cf = []) re (corrfuncInit N)
  let s ← Py.get
  pure (.corrfunc s.cf)

/-- `compute_multipoles_bulk`, coffe.pyx:3303-3341. -/
noncomputable def computeMultipolesBulk (N : Num) (re : Bool) : Py Out := do
  checkCoordsMultipoles
  checkContributions
  ensureBg N re
  ensurePs N re
  ensureInts N re
  ensure (fun s => s.mp = []) re (multipolesInit N)
  let s ← Py.get
  pure (.multipoles s.mp)

/-- `compute_average_multipoles_bulk`, coffe.pyx:3344-3383. -/
noncomputable def computeAverageBulk (N : Num) (re : Bool) : Py Out := do
  checkCoordsAverage
  checkContributions
  ensureBg N re
  ensurePs N re
  ensureInts N re
  ensure (fun s => s.amp = []) re (averageInit N)
  let s ← Py.get
  pure (.average s.amp)

/-- The bins are acceptable to `maximum_separation`, coffe.pyx:3459-3462. -/
noncomputable def checkBins (N : Num) (l : List (ℝ × ℝ)) : Py Unit :=
  l.forM fun zd => do
    let _ ← maximumSeparation N zd.1 zd.2
    pure ()

/-- `compute_covariance_bulk`, coffe.pyx:3428-3480. -/
noncomputable def computeCovarianceBulk (N : Num) (re : Bool) : Py Out := do
  checkCoordsMultipoles
  checkContributions
  let s ← Py.get
  if ¬ (s.par.deltaz.length = s.par.z_mean.length ∧ s.par.density1.length = s.par.z_mean.length
      ∧ s.par.density2.length = s.par.z_mean.length ∧ s.par.pixelsize.length = s.par.z_mean.length
      ∧ s.par.fsky.length = s.par.z_mean.length) then Py.raise .valueError
  ensurePs N re
  ensureBg N re
  let s ← Py.get
  checkBins N (s.par.z_mean.zip s.par.deltaz)
  ensure (fun s => s.cov = []) re (covInit N)
  let s ← Py.get
  pure (.covariance s.cov)

/-- `compute_average_covariance_bulk`, coffe.pyx:3482-3535. -/
noncomputable def computeAverageCovarianceBulk (N : Num) (re : Bool) : Py Out := do
  checkCoordsMultipoles
  checkContributions
  let s ← Py.get
  if ¬ (s.par.deltaz.length = s.par.z_min.length ∧ s.par.z_max.length = s.par.z_min.length
      ∧ s.par.density1.length = s.par.z_min.length ∧ s.par.density2.length = s.par.z_min.length
      ∧ s.par.pixelsize.length = s.par.z_min.length ∧ s.par.fsky.length = s.par.z_min.length) then
    Py.raise .valueError
  ensurePs N re
  ensureBg N re
  let s ← Py.get
  checkBins N ((s.par.z_min.zip s.par.z_max).map fun zz => ((zz.1 + zz.2) / 2, (zz.2 - zz.1) / 2))
  ensure (fun s => s.acov = []) re (acovInit N)
  let s ← Py.get
  pure (.averageCovariance s.acov)

/-- `compute_*_bulk(recompute=re)`. -/
noncomputable def computeBulk (N : Num) (re : Bool) : Bulk → Py Out
  | .corrfunc => computeCorrfuncBulk N re
  | .multipoles => computeMultipolesBulk N re
  | .average => computeAverageBulk N re
  | .covariance => computeCovarianceBulk N re
  | .averageCovariance => computeAverageCovarianceBulk N re

/-- The signal at one point from the current caches (the three `coffe_integrate` calls of
coffe.pyx:3205-3228 and 3276-3299). -/
noncomputable def signalHere (N : Num) (z r mu : ℝ) (l : ℕ) (out : OutputType) : Py Out := fun s =>
  match s.bg with
  | some b => (.ok (.real (signalAt N s b z 0 0 r mu l out)), s)
  | none => (.error .crash, s)

/-- `compute_corrfunc`, coffe.pyx:3159-3229. -/
noncomputable def computeCorrfunc (N : Num) (z r mu : ℝ) (re : Bool) : Py Out := do
  checkCoordsCorrfunc
  checkContributions
  ensureBg N re
  ensurePs N re
  ensureInts N re
  checkReal z 0 15
  checkReal r 0 1500
  checkReal mu (-1) 1
  signalHere N z r mu 0 .CORRFUNC

/-- `compute_multipole`, coffe.pyx:3232-3300. -/
noncomputable def computeMultipole (N : Num) (z r : ℝ) (l : ℤ) (re : Bool) : Py Out := do
  checkCoordsMultipoles
  checkContributions
  ensureBg N re
  ensurePs N re
  ensureInts N re
  checkReal z 0 15
  checkReal r 0 1500
  checkReal l 0 10
  signalHere N z r 0 l.toNat .MULTIPOLES

/-- `integral`, coffe.pyx:1657-1713; a separation beyond the end of the table aborts. -/
noncomputable def integralAt (N : Num) (r : ℝ) (n l : ℤ) : Py Out := do
  checkReal r 0 25000
  checkReal n (-2) 4
  checkReal l 0 4
  ensureBg N false
  ensurePs N false
  ensureInts N false
  let s ← Py.get
  match coffe_find_integral s.ints ⟨n, l, .int, .int⟩ with
  | none => Py.raise .valueError
  | some e => if r > N.top e.val then Py.raise .abort else pure (.real (e.val.result r))

/-- The background getters, coffe.pyx:2998-3156; `f` selects the quantity. -/
noncomputable def backgroundAt (N : Num) (f : Bg → ℝ → ℝ) (z : ℝ) : Py Out := do
  checkReal z 0 15
  ensureBg N false
  fun s => match s.bg with
    | some b => (.ok (.real (f b z)), s)
    | none => (.error .crash, s)

/-- The wave number is outside the samples of the spectrum. -/
def Spectrum.Outside (ps : Spectrum) (k : ℝ) : Prop :=
  match ps.head?, ps.getLast? with
  | some a, some b => k < a.1 ∨ b.1 < k
  | _, _ => True

/-- `cross_spectrum` (`two = false`) and `power_spectrum` (`two = true`, `z2 = z1`), coffe.pyx:2821-2892;
`f` is the final evaluation.  `k` is compared with the k-range before CLASS may cut it; a look-up outside
the samples aborts.  For a spectrum type other than `LINEAR`, `power_spectrum` reads the two-dimensional
table, which is missing after an upload (a null pointer is dereferenced) and ends at redshift
3·99/100 (src/parser.c:651-664). -/
noncomputable def spectrumAt (N : Num) (two : Bool) (f : PkType → Spectrum → Bg → ℝ) (k z1 z2 : ℝ) :
    Py Out := do
  let s ← Py.get
  checkReal k s.par.k_min s.par.k_max
  checkReal z1 0 15
  checkReal z2 0 15
  ensurePs N false
  ensureBg N false
  fun s => match s.bg, s.ps with
    | some b, some ps =>
      if two = true ∧ s.par.pk_type ≠ .COFFE_PK_LINEAR ∧ s.pk2d = false then (.error .crash, s)
      else if ps.Outside k ∨ (two = true ∧ s.par.pk_type ≠ .COFFE_PK_LINEAR ∧ z1 > 2.97) then
        (.error .abort, s)
      else (.ok (.real (f s.par.pk_type ps b)), s)
    | _, _ => (.error .crash, s)

/-- The eight `set_*_bias*` methods. -/
inductive BiasName where
  | galaxy1 | galaxy2 | galaxy3 | galaxy4 | magnification1 | magnification2 | evolution1 | evolution2
deriving DecidableEq, Repr

/-- Replace one bias. -/
def Biases.put (b : Biases) (n : BiasName) (x : Samples) : Biases :=
  match n with
  | .galaxy1 => { b with galaxy1 := x }
  | .galaxy2 => { b with galaxy2 := x }
  | .galaxy3 => { b with galaxy3 := x }
  | .galaxy4 => { b with galaxy4 := x }
  | .magnification1 => { b with magnification1 := x }
  | .magnification2 => { b with magnification2 := x }
  | .evolution1 => { b with evolution1 := x }
  | .evolution2 => { b with evolution2 := x }

/-- `np.allclose(x, np.sort(x))`, element by element. -/
def sortedUpToTolerance (x : List ℝ) : Prop :=
  List.Forall₂ allclose x (x.mergeSort (fun a b => decide (a ≤ b)))

/-- `set_spline`, coffe.pyx:158-193, followed by `coffe_init_spline` (src/common.c:524-576): GSL's Akima
spline needs five strictly increasing points and aborts otherwise. -/
noncomputable def checkSpline (x y : List ℝ) : Py Samples :=
  if ¬ sortedUpToTolerance x then Py.raise .valueError
  else if x.length ≠ y.length then Py.raise .valueError
  else match x.head?, x.getLast? with
    | some a, some b =>
      if a < 0 then Py.raise .valueError
      else if b > 15 then Py.raise .valueError
      else if x.length < 5 ∨ ¬ x.Pairwise (· < ·) then Py.raise .abort
      else pure (x.zip y)
    | _, _ => Py.raise .indexError

/-- `set_galaxy_bias1` .. `set_evolution_bias2`, coffe.pyx:1728-1932. -/
noncomputable def setBias (n : BiasName) (x y : List ℝ) : Py Unit := do
  let sp ← checkSpline x y
  store (fun p => { p with bias := p.bias.put n sp }) fun s => s.freeCf.freeMp

/-- `set_power_spectrum_linear`, coffe.pyx:2929-2995: the old spectrum is freed before `k[0]` is read;
only the integrals are freed afterwards. -/
noncomputable def setPowerSpectrumLinear (k pk : List ℝ) : Py Unit := do
  if ¬ sortedUpToTolerance k then Py.raise .valueError
  if k.length ≠ pk.length then Py.raise .valueError
  Py.modify PyObj.freePs
  match k.head?, k.getLast? with
  | some a, some b => do
    Py.modify fun s => s.upd fun p => { p with k_min := a, k_max := b }
    if k.length < 5 ∨ ¬ k.Pairwise (· < ·) then Py.raise .abort
    Py.modify fun s => PyObj.freeInts { s with ps := some (k.zip pk) }
  | _, _ => Py.raise .indexError

/-- The calls a user can make on an object. -/
inductive Op where
  | setattr (a : Attr) (v : PyVal)
  | setParameters (kvs : List (Attr × PyVal))
  | parameters
  | resetContributions
  | setBias (n : BiasName) (x y : List ℝ)
  | setPowerSpectrumLinear (k pk : List ℝ)
  | computeBulk (b : Bulk) (re : Bool)
  | computeCorrfunc (z r mu : ℝ) (re : Bool)
  | computeMultipole (z r : ℝ) (l : ℤ) (re : Bool)
  | integral (r : ℝ) (n l : ℤ)
  | maximumSeparation (z dz : ℝ)
  | background (f : Bg → ℝ → ℝ) (z : ℝ)
  | spectrum (two : Bool) (f : PkType → Spectrum → Bg → ℝ) (k z1 z2 : ℝ)

/-- Run one call. -/
noncomputable def exec (N : Num) : Op → Py Out
  | .setattr a v => do setAttr a v; pure .unit
  | .setParameters kvs => do Coffe.setParameters kvs; pure .unit
  | .parameters => do let l ← Coffe.parameters; pure (.params l)
  | .resetContributions => do Coffe.resetContributions; pure .unit
  | .setBias n x y => do Coffe.setBias n x y; pure .unit
  | .setPowerSpectrumLinear k pk => do Coffe.setPowerSpectrumLinear k pk; pure .unit
  | .computeBulk b re => Coffe.computeBulk N re b
  | .computeCorrfunc z r mu re => Coffe.computeCorrfunc N z r mu re
  | .computeMultipole z r l re => Coffe.computeMultipole N z r l re
  | .integral r n l => integralAt N r n l
  | .maximumSeparation z dz => do let x ← Coffe.maximumSeparation N z dz; pure (.real x)
  | .background f z => backgroundAt N f z
  | .spectrum two f k z1 z2 => spectrumAt N two f k z1 z2

/-- The object after a history of calls; an exception is caught by the caller and the history goes on,
but `abort` and `crash` end the process. -/
noncomputable def run (N : Num) : List Op → PyObj → Option PyObj
  | [], s => some s
  | op :: ops, s =>
    match exec N op s with
    | (.error .abort, _) => none
    | (.error .crash, _) => none
    | (_, s') => run N ops s'

end Coffe
