import Verif.Model.Python.State

/-!
# Properties of a `Coffe` object: getters and setters (python/coffe/coffe.pyx)

A float given where a C integer or enumeration is stored is truncated (Cython below version 3, which
pyproject.toml:85 asks for).  Integers that do not fit in a C `int` are not modelled.  Strings given to
list properties raise `ValueError` (Python would accept a string of digits).
-/

namespace Coffe
open Classical

/-- Names of the settable properties, in the order of `dir(Coffe)` (coffe.pyx:1000-2927). -/
inductive Name where
  | A_s | N_ncdm | N_ur | T_cmb | YHe | background_sampling | covariance_cosmic
  | covariance_integration_method | covariance_integration_sampling | covariance_interpolation_method
  | covariance_mixed | covariance_poisson | covariance_populations | deltaz | fsky | h
  | has_binned_covariance | has_d1 | has_d2 | has_density | has_flatsky_local
  | has_flatsky_local_nonlocal | has_flatsky_nonlocal | has_g1 | has_g2 | has_g3 | has_g4 | has_g5
  | has_lensing | has_only_cross_correlations | has_rsd | integrals_fftlog_sampling
  | integration_1d_prec | integration_1d_type | integration_sampling | k_max | k_min
  | k_per_decade_for_bao | k_per_decade_for_pk | l | l_max_g | l_max_ur | m_ncdm | mu | n_s
  | number_density1 | number_density2 | omega_baryon | omega_cdm | omega_gamma | omega_m | pixelsize
  | pk_type | radiation_streaming_trigger_tau_over_tau_k | sep | sigma8
  | start_large_k_at_tau_h_over_tau_k | tol_perturb_integration | ur_fluid_trigger_tau_over_tau_k
  | verbose | w0 | wa | z_max | z_mean | z_min
deriving DecidableEq, Repr

/-- All settable properties, in the order of `dir(Coffe)`. -/
def Name.all : List Name :=
  [.A_s, .N_ncdm, .N_ur, .T_cmb, .YHe, .background_sampling, .covariance_cosmic,
   .covariance_integration_method, .covariance_integration_sampling, .covariance_interpolation_method,
   .covariance_mixed, .covariance_poisson, .covariance_populations, .deltaz, .fsky, .h,
   .has_binned_covariance, .has_d1, .has_d2, .has_density, .has_flatsky_local,
   .has_flatsky_local_nonlocal, .has_flatsky_nonlocal, .has_g1, .has_g2, .has_g3, .has_g4, .has_g5,
   .has_lensing, .has_only_cross_correlations, .has_rsd, .integrals_fftlog_sampling,
   .integration_1d_prec, .integration_1d_type, .integration_sampling, .k_max, .k_min,
   .k_per_decade_for_bao, .k_per_decade_for_pk, .l, .l_max_g, .l_max_ur, .m_ncdm, .mu, .n_s,
   .number_density1, .number_density2, .omega_baryon, .omega_cdm, .omega_gamma, .omega_m, .pixelsize,
   .pk_type, .radiation_streaming_trigger_tau_over_tau_k, .sep, .sigma8,
   .start_large_k_at_tau_h_over_tau_k, .tol_perturb_integration, .ur_fluid_trigger_tau_over_tau_k,
   .verbose, .w0, .wa, .z_max, .z_mean, .z_min]

/-- The names of the `has_*` properties, in the same order (`reset_contributions`,
coffe.pyx:2702-2708). -/
def Name.flags : List Name :=
  [.has_binned_covariance, .has_d1, .has_d2, .has_density, .has_flatsky_local,
   .has_flatsky_local_nonlocal, .has_flatsky_nonlocal, .has_g1, .has_g2, .has_g3, .has_g4, .has_g5,
   .has_lensing, .has_only_cross_correlations, .has_rsd]

/-! ## Freeing cached results, coffe.pyx:948-992 -/

/-- `_free_background`, coffe.pyx:948-949. -/
def PyObj.freeBg (s : PyObj) : PyObj := { s with bg := none }
/-- `_free_power_spectrum`, coffe.pyx:952-957: frees the spectrum and its two-dimensional table, not
`class_struct`. -/
def PyObj.freePs (s : PyObj) : PyObj := { s with ps := none, pk2d := false }
/-- `_free_integrals`, coffe.pyx:960-961. -/
def PyObj.freeInts (s : PyObj) : PyObj := { s with ints := [] }
/-- `_free_corrfunc`, coffe.pyx:964-965. -/
def PyObj.freeCf (s : PyObj) : PyObj := { s with cf := [] }
/-- `_free_multipoles`, coffe.pyx:968-969. -/
def PyObj.freeMp (s : PyObj) : PyObj := { s with mp := [] }
/-- `_free_average_multipoles`, coffe.pyx:972-973. -/
def PyObj.freeAmp (s : PyObj) : PyObj := { s with amp := [] }
/-- `_free_covariance_multipoles`, coffe.pyx:976-977. -/
def PyObj.freeCov (s : PyObj) : PyObj := { s with cov := [] }
/-- `_free_average_covariance_multipoles`, coffe.pyx:980-981. -/
def PyObj.freeAcov (s : PyObj) : PyObj := { s with acov := [] }
/-- `_free_except_parameters`, coffe.pyx:984-992. -/
def PyObj.freeAll (s : PyObj) : PyObj :=
  s.freeBg.freePs.freeInts.freeCf.freeMp.freeAmp.freeCov.freeAcov

/-- Change the parameters. -/
def PyObj.upd (s : PyObj) (f : PyPar → PyPar) : PyObj := { s with par := f s.par }

/-! ## Checks -/

/-- The type argument of `_check_parameter`. -/
inductive Kind where
  | intFloat
  | int
  | float
deriving DecidableEq

/-- `isinstance(value, kind)` (a `bool` is an `int`), returning the numerical value. -/
noncomputable def PyVal.asKind : PyVal → Kind → Option ℝ
  | .float x, .intFloat => some x
  | .int n, .intFloat => some n
  | .bool b, .intFloat => some (if b then 1 else 0)
  | .int n, .int => some n
  | .bool b, .int => some (if b then 1 else 0)
  | .float x, .float => some x
  | _, _ => none

/-- `_check_parameter`, coffe.pyx:86-109; returns the number that was checked. -/
noncomputable def checkParameter (v : PyVal) (k : Kind) (xmin xmax : ℝ) : Py ℝ :=
  match v.asKind k with
  | none => Py.raise .typeError
  | some x =>
    if x < xmin then Py.raise .valueError
    else if x > xmax then Py.raise .valueError
    else pure x

/-- `_check_parameter(.., int, ..)`; returns the integer. -/
noncomputable def checkInt (v : PyVal) (xmin xmax : ℤ) : Py ℤ :=
  match v with
  | .int n =>
    if n < xmin then Py.raise .valueError
    else if n > xmax then Py.raise .valueError
    else pure n
  | .bool b =>
    if (if b then 1 else 0) < xmin then Py.raise .valueError
    else if (if b then 1 else 0) > xmax then Py.raise .valueError
    else pure (if b then 1 else 0)
  | _ => Py.raise .typeError

/-- `np.allclose(value, old)` with its default tolerances. -/
def allclose (value old : ℝ) : Prop := |value - old| ≤ 1e-8 + 1e-5 * |old|

/-- `_check_omegas`, coffe.pyx:1056-1061. -/
noncomputable def checkOmegas (total : ℝ) : Py Unit :=
  if total > 1 then Py.raise .valueError else pure ()

/-- `bool(value)`. -/
noncomputable def PyVal.truth : PyVal → Bool
  | .float x => decide (x ≠ 0)
  | .int n => decide (n ≠ 0)
  | .bool b => b
  | .str s => decide (s ≠ "")
  | .floats l => !l.isEmpty
  | .ints l => !l.isEmpty
  | .other => false

/-- Conversion of a Python value to a C `double` (Cython). -/
noncomputable def toDouble (v : PyVal) : Py ℝ :=
  match v with
  | .float x => pure x
  | .int n => pure n
  | .bool b => pure (if b then 1 else 0)
  | _ => Py.raise .typeError

/-- `int(x)` for a float: rounding towards zero. -/
noncomputable def truncInt (x : ℝ) : ℤ := if 0 ≤ x then ⌊x⌋ else ⌈x⌉

/-- Conversion of a Python value to a C `int` (Cython). -/
noncomputable def toInt (v : PyVal) : Py ℤ :=
  match v with
  | .int n => pure n
  | .float x => pure (truncInt x)
  | .bool b => pure (if b then 1 else 0)
  | _ => Py.raise .typeError

/-- `iter(value)`, `[float(_) for _ in value]` and the range test, coffe.pyx:1563-1575 and the other
list properties. -/
noncomputable def checkFloats (v : PyVal) (ok : ℝ → Prop) : Py (List ℝ) :=
  match v with
  | .floats l => if ∀ x ∈ l, ok x then pure l else Py.raise .valueError
  | .ints l => if ∀ n ∈ l, ok ((n : ℤ) : ℝ) then pure (l.map fun n : ℤ => (n : ℝ))
      else Py.raise .valueError
  | .str _ => Py.raise .valueError
  | _ => Py.raise .typeError

/-- Same for `l`, coffe.pyx:1946-1957 (`__index__`, then `0 <= l < 10`). -/
noncomputable def checkMultipoles (v : PyVal) : Py (List ℕ) :=
  match v with
  | .ints l => if ∀ n ∈ l, 0 ≤ n ∧ n < 10 then pure (l.map Int.toNat) else Py.raise .valueError
  | .floats [] => pure []
  | _ => Py.raise .typeError

/-- Same for `covariance_populations`, coffe.pyx:2173-2188. -/
noncomputable def checkPopulations (v : PyVal) : Py (ℤ × ℤ × ℤ × ℤ) :=
  match v with
  | .ints [a, b, c, d] =>
    if ∀ n ∈ [a, b, c, d], n = 1 ∨ n = 2 ∨ n = 3 ∨ n = 4 then pure (a, b, c, d)
    else Py.raise .valueError
  | .ints _ => Py.raise .valueError
  | .floats [a, b, c, d] =>
    if ∀ x ∈ [a, b, c, d], x = 1 ∨ x = 2 ∨ x = 3 ∨ x = 4 then
      pure (truncInt a, truncInt b, truncInt c, truncInt d)
    else Py.raise .valueError
  | .floats _ => Py.raise .valueError
  | .str _ => Py.raise .valueError
  | _ => Py.raise .typeError

/-- `_check_parameter_discrete` and the conversion after it, coffe.pyx:112-118 and 2806-2817: the value
is one of the integer keys or one of the names. -/
noncomputable def checkDiscrete {α : Type} (v : PyVal) (ofInt : ℤ → Option α) (ofStr : String → Option α) :
    Py α :=
  match v with
  | .int n => match ofInt n with
    | some a => pure a
    | none => Py.raise .valueError
  | .bool b => match ofInt (if b then 1 else 0) with
    | some a => pure a
    | none => Py.raise .valueError
  | .str s => match ofStr s with
    | some a => pure a
    | none => Py.raise .valueError
  | .float x => match if x = (truncInt x : ℝ) then ofInt (truncInt x) else none with
    | some a => pure a
    | none => Py.raise .valueError
  | _ => Py.raise .valueError

/-- `_allowed_pk_types`, coffe.pyx:213-218, with the numbers of src/common.h:290-296. -/
def pkOfInt : ℤ → Option PkType
  | 0 => some .COFFE_PK_LINEAR
  | 1 => some .COFFE_PK_LINEAR_CLASS
  | 2 => some .COFFE_PK_NONLINEAR_HALOFIT
  | 3 => some .COFFE_PK_NONLINEAR_HMCODE
  | _ => none

/-- `_allowed_pk_types`, coffe.pyx:213-218. -/
def pkName : PkType → String
  | .COFFE_PK_LINEAR => "linear"
  | .COFFE_PK_LINEAR_CLASS => "linear_class"
  | .COFFE_PK_NONLINEAR_HALOFIT => "halofit"
  | .COFFE_PK_NONLINEAR_HMCODE => "hmcode"

/-- `_invert_dict(_allowed_pk_types)`, coffe.pyx:196-218. -/
def pkOfStr (s : String) : Option PkType :=
  [PkType.COFFE_PK_LINEAR, .COFFE_PK_LINEAR_CLASS, .COFFE_PK_NONLINEAR_HALOFIT,
   .COFFE_PK_NONLINEAR_HMCODE].find? fun p => decide (pkName p = s)

/-- `_allowed_integration_1d_types`, coffe.pyx:220-223, with the numbers of src/common.h:306-310. -/
def int1dOfInt : ℤ → Option Int1d
  | 1 => some .gsl
  | 2 => some .exponential
  | _ => none
/-- `_allowed_integration_1d_types`, coffe.pyx:220-223. -/
def int1dName : Int1d → String
  | .gsl => "gsl"
  | .exponential => "exponential"
/-- `_invert_dict(_allowed_integration_1d_types)`. -/
def int1dOfStr (s : String) : Option Int1d :=
  [Int1d.gsl, .exponential].find? fun p => decide (int1dName p = s)

/-- `_allowed_covariance_integration_methods`, coffe.pyx:225-228, with the numbers of src/common.h:299-303. -/
def covMethodOfInt : ℤ → Option CovMethod
  | 1 => some .standard
  | 2 => some .fftlog
  | _ => none
/-- `_allowed_covariance_integration_methods`, coffe.pyx:225-228. -/
def covMethodName : CovMethod → String
  | .standard => "standard"
  | .fftlog => "fftlog"
/-- `_invert_dict(_allowed_covariance_integration_methods)`. -/
def covMethodOfStr (s : String) : Option CovMethod :=
  [CovMethod.standard, .fftlog].find? fun p => decide (covMethodName p = s)

/-- `_allowed_interpolation_2d_methods`, coffe.pyx:230-233, with the numbers of src/common.h:283-287. -/
def interp2dOfInt : ℤ → Option Interp2d
  | 1 => some .bilinear
  | 2 => some .bicubic
  | _ => none
/-- `_allowed_interpolation_2d_methods`, coffe.pyx:230-233. -/
def interp2dName : Interp2d → String
  | .bilinear => "bilinear"
  | .bicubic => "bicubic"
/-- `_invert_dict(_allowed_interpolation_2d_methods)`. -/
def interp2dOfStr (s : String) : Option Interp2d :=
  [Interp2d.bilinear, .bicubic].find? fun p => decide (interp2dName p = s)

/-- `_balance_content`, coffe.pyx:1112-1117. -/
noncomputable def PyPar.balance (p : PyPar) : PyPar :=
  { p with Omega0_de := 1 - p.Omega0_m - p.Omega0_gamma }

/-- Shape of the guarded scalar setters: check, compare with the old value, then act. -/
noncomputable def guarded (v : PyVal) (k : Kind) (xmin xmax : ℝ) (old : PyPar → ℝ) (act : ℝ → Py Unit) :
    Py Unit := do
  let x ← checkParameter v k xmin xmax
  let s ← Py.get
  if allclose x (old s.par) then pure () else act x

/-- Write parameters, then free. -/
def store (f : PyPar → PyPar) (free : PyObj → PyObj) : Py Unit :=
  Py.modify fun s => free (s.upd f)

/-- Everything depending on the spectrum, coffe.pyx:1433-1440. -/
def PyObj.freeSpectral (s : PyObj) : PyObj :=
  s.freePs.freeInts.freeCf.freeMp.freeAmp.freeCov.freeAcov
/-- The three signals, coffe.pyx:1131-1133. -/
def PyObj.freeSignals (s : PyObj) : PyObj := s.freeCf.freeMp.freeAmp
/-- Both covariances, coffe.pyx:2207-2208. -/
def PyObj.freeCovs (s : PyObj) : PyObj := s.freeCov.freeAcov

/-- A `has_*` contribution setter, coffe.pyx:2546-2699. -/
noncomputable def setContrib (v : PyVal) (f : Contrib → Bool → Contrib) (free : PyObj → PyObj) : Py Unit :=
  store (fun p => { p with contrib := f p.contrib v.truth }) free

/-- An unchecked CLASS precision setter, coffe.pyx:1305-1382. -/
noncomputable def setPrec (v : PyVal) (f : ClassPrec → ℝ → ClassPrec) : Py Unit := do
  let x ← toDouble v
  store (fun p => { p with prec := f p.prec x }) PyObj.freeAll

/-- Assignment `object.name = value`. -/
noncomputable def setattr (n : Name) (v : PyVal) : Py Unit :=
  match n with
  -- coffe.pyx:1009-1010
  | .verbose => store (fun p => { p with verbose := v.truth }) id
  -- coffe.pyx:1129-1133
  | .has_only_cross_correlations =>
    store (fun p => { p with only_cross_correlations := v.truth }) PyObj.freeSignals
  -- coffe.pyx:1180-1188
  | .omega_cdm => guarded v .intFloat (-100) 100 (·.Omega0_cdm) fun x => do
      let s ← Py.get
      checkOmegas (x + s.par.Omega0_baryon + s.par.Omega0_gamma + s.par.Omega0_nu)
      store (fun p => PyPar.balance { p with
        Omega0_cdm := x, Omega0_m := x + p.Omega0_baryon }) PyObj.freeAll
  -- coffe.pyx:1208-1217
  | .omega_m => guarded v .intFloat (-100) 100 (·.Omega0_m) fun x => do
      let s ← Py.get
      checkOmegas (x + s.par.Omega0_gamma)
      store (fun p => PyPar.balance { p with
        Omega0_m := x, Omega0_cdm := x - p.Omega0_baryon - p.Omega0_nu }) PyObj.freeAll
  -- coffe.pyx:1229-1237
  | .omega_baryon => guarded v .intFloat (-100) 100 (·.Omega0_baryon) fun x => do
      let s ← Py.get
      checkOmegas (x + s.par.Omega0_cdm + s.par.Omega0_gamma)
      store (fun p => PyPar.balance { p with
        Omega0_baryon := x, Omega0_cdm := p.Omega0_m - x - p.Omega0_nu }) PyObj.freeAll
  -- coffe.pyx:1249-1255
  | .omega_gamma => guarded v .intFloat (-100) 100 (·.Omega0_gamma) fun x => do
      let s ← Py.get
      checkOmegas (x + s.par.Omega0_m)
      store (fun p => PyPar.balance { p with Omega0_gamma := x }) PyObj.freeAll
  -- coffe.pyx:1276-1282
  | .h => guarded v .intFloat 0 100 (·.h) fun x =>
      store (fun p => PyPar.balance { p with h := x }) PyObj.freeAll
  -- coffe.pyx:1298-1302
  | .w0 => guarded v .intFloat (-100) 100 (·.w0) fun x =>
      store (fun p => { p with w0 := x }) PyObj.freeAll
  -- coffe.pyx:1398-1402
  | .wa => guarded v .intFloat (-100) 100 (·.wa) fun x =>
      store (fun p => { p with wa := x }) PyObj.freeAll
  -- coffe.pyx:1414-1418
  | .n_s => guarded v .intFloat (-100) 100 (·.n_s) fun x =>
      store (fun p => { p with n_s := x }) PyObj.freeAll
  -- coffe.pyx:1473-1477
  | .T_cmb => guarded v .intFloat (-100) 100 (·.T_cmb) fun x =>
      store (fun p => { p with T_cmb := x }) PyObj.freeAll
  -- coffe.pyx:1489-1493
  | .N_ur => guarded v .intFloat (-100) 100 (·.N_ur) fun x =>
      store (fun p => { p with N_ur := x }) PyObj.freeAll
  -- coffe.pyx:1527-1531
  | .YHe => guarded v .intFloat (-100) 100 (·.YHe) fun x =>
      store (fun p => { p with YHe := x }) PyObj.freeAll
  -- coffe.pyx:1543-1547
  | .N_ncdm => do
      let x ← checkInt v (-100) 100
      let s ← Py.get
      if allclose x s.par.N_ncdm then pure ()
      else store (fun p => { p with N_ncdm := x }) PyObj.freeAll
  -- coffe.pyx:1506-1516; `value / 93.14 / self.h / self.h` raises when `h == 0`
  | .m_ncdm => guarded v .intFloat (-100) 100 (·.m_ncdm) fun x => do
      store (fun p => { p with m_ncdm := x }) id
      let s ← Py.get
      if s.par.h = 0 then Py.raise .zeroDivision
      else store (fun p => PyPar.balance { p with
        Omega0_nu := x / 93.14 / p.h / p.h
        Omega0_cdm := p.Omega0_m - p.Omega0_baryon - x / 93.14 / p.h / p.h }) PyObj.freeAll
  -- coffe.pyx:1430-1440
  | .sigma8 => guarded v .intFloat (-100) 100 (·.sigma8) fun x =>
      store (fun p => { p with sigma8 := x }) PyObj.freeSpectral
  -- coffe.pyx:1452-1461
  | .A_s => do
      let x ← checkParameter v .intFloat (-100) 100
      store (fun p => { p with A_s := x }) PyObj.freeSpectral
  -- coffe.pyx:1310-1312
  | .k_per_decade_for_bao => setPrec v fun c x => { c with k_per_decade_for_bao := x }
  -- coffe.pyx:1320-1322
  | .k_per_decade_for_pk => setPrec v fun c x => { c with k_per_decade_for_pk := x }
  -- coffe.pyx:1330-1332
  | .start_large_k_at_tau_h_over_tau_k =>
    setPrec v fun c x => { c with start_large_k_at_tau_h_over_tau_k := x }
  -- coffe.pyx:1340-1342
  | .l_max_g => do
      let x ← toInt v
      store (fun p => { p with prec := { p.prec with l_max_g := x } }) PyObj.freeAll
  -- coffe.pyx:1350-1352
  | .l_max_ur => do
      let x ← toInt v
      store (fun p => { p with prec := { p.prec with l_max_ur := x } }) PyObj.freeAll
  -- coffe.pyx:1360-1362
  | .tol_perturb_integration => setPrec v fun c x => { c with tol_perturb_integration := x }
  -- coffe.pyx:1370-1372
  | .radiation_streaming_trigger_tau_over_tau_k =>
    setPrec v fun c x => { c with radiation_streaming_trigger_tau_over_tau_k := x }
  -- coffe.pyx:1380-1382
  | .ur_fluid_trigger_tau_over_tau_k =>
    setPrec v fun c x => { c with ur_fluid_trigger_tau_over_tau_k := x }
  -- coffe.pyx:1563-1585
  | .sep => do
      let x ← checkFloats v (fun x => 0 < x ∧ x < 10000)
      store (fun p => { p with sep := x }) fun s => s.freeCf.freeMp
  -- coffe.pyx:1604-1627
  | .mu => do
      let x ← checkFloats v (fun x => -1 < x ∧ x < 1)
      store (fun p => { p with mu := x }) PyObj.freeCf
  -- coffe.pyx:1644-1654: writes through the missing attribute `self._parameter`
  | .integrals_fftlog_sampling => do
      let _ ← checkInt v 0 1000000
      Py.raise .attributeError
  -- coffe.pyx:1946-1971
  | .l => do
      let x ← checkMultipoles v
      store (fun p => { p with l := x }) fun s => s.freeMp.freeAmp.freeCov.freeAcov
  -- coffe.pyx:1986-2008
  | .z_mean => do
      let x ← checkFloats v (fun x => 0 ≤ x ∧ x < 10)
      store (fun p => { p with z_mean := x }) fun s => s.freeCf.freeMp.freeCov
  -- coffe.pyx:2022-2046
  | .z_min => do
      let x ← checkFloats v (fun x => 0 ≤ x ∧ x < 10)
      store (fun p => { p with z_min := x }) fun s => s.freeCf.freeMp.freeCov.freeAcov
  -- coffe.pyx:2060-2084
  | .z_max => do
      let x ← checkFloats v (fun x => 0 ≤ x ∧ x < 10)
      store (fun p => { p with z_max := x }) fun s => s.freeCf.freeMp.freeCov.freeAcov
  -- coffe.pyx:2098-2120
  | .number_density1 => do
      let x ← checkFloats v (fun x => 0 ≤ x ∧ x < 10)
      store (fun p => { p with density1 := x }) PyObj.freeCovs
  -- coffe.pyx:2134-2156
  | .number_density2 => do
      let x ← checkFloats v (fun x => 0 ≤ x ∧ x < 10)
      store (fun p => { p with density2 := x }) PyObj.freeCovs
  -- coffe.pyx:2173-2192
  | .covariance_populations => do
      let x ← checkPopulations v
      store (fun p => { p with covariance_pop := x }) PyObj.freeCovs
  -- coffe.pyx:2205-2208
  | .covariance_cosmic => store (fun p => { p with covariance_cosmic := v.truth }) PyObj.freeCovs
  -- coffe.pyx:2221-2224
  | .covariance_mixed => store (fun p => { p with covariance_mixed := v.truth }) PyObj.freeCovs
  -- coffe.pyx:2236-2239
  | .covariance_poisson => store (fun p => { p with covariance_poisson := v.truth }) PyObj.freeCovs
  -- coffe.pyx:2258-2271
  | .covariance_integration_method => do
      let x ← checkDiscrete v covMethodOfInt covMethodOfStr
      store (fun p => { p with covariance_integration_method := x }) PyObj.freeCovs
  -- coffe.pyx:2284-2295
  | .covariance_integration_sampling => do
      let x ← checkInt v 0 1000000
      store (fun p => { p with covariance_integration_bins := x }) PyObj.freeCovs
  -- coffe.pyx:2313-2325
  | .covariance_interpolation_method => do
      let x ← checkDiscrete v interp2dOfInt interp2dOfStr
      store (fun p => { p with covariance_interpolation_method := x }) PyObj.freeCovs
  -- coffe.pyx:2340-2362
  | .pixelsize => do
      let x ← checkFloats v (fun x => 0 < x ∧ x < 1000)
      store (fun p => { p with pixelsize := x }) PyObj.freeCovs
  -- coffe.pyx:2376-2398
  | .fsky => do
      let x ← checkFloats v (fun x => 0 < x ∧ x ≤ 1)
      store (fun p => { p with fsky := x }) PyObj.freeCovs
  -- coffe.pyx:2412-2435
  | .deltaz => do
      let x ← checkFloats v (fun x => 0 ≤ x ∧ x < 10)
      store (fun p => { p with deltaz := x }) fun s => s.freeCf.freeMp.freeCov
  -- coffe.pyx:2449-2461
  | .integration_1d_type => do
      let x ← checkDiscrete v int1dOfInt int1dOfStr
      store (fun p => { p with integration_1d_type := x }) PyObj.freeAll
  -- coffe.pyx:2473-2482
  | .integration_1d_prec => do
      let x ← checkParameter v .float 0 1
      store (fun p => { p with integration_1d_prec := x }) PyObj.freeAll
  -- coffe.pyx:2495-2502
  | .integration_sampling => do
      let x ← checkInt v 0 2147483647
      store (fun p => { p with integration_bins := x }) PyObj.freeSignals
  -- coffe.pyx:2515-2519
  | .background_sampling => do
      let x ← checkInt v 0 2147483647
      store (fun p => { p with background_bins := x }) PyObj.freeAll
  -- coffe.pyx:2540-2543
  | .has_binned_covariance => store (fun p => { p with covariance_window := v.truth }) PyObj.freeCovs
  -- coffe.pyx:2555-2561
  | .has_density => setContrib v (fun c b => { c with den := b }) fun s => s.freeSignals.freeCovs
  -- coffe.pyx:2574-2580
  | .has_rsd => setContrib v (fun c b => { c with rsd := b }) fun s => s.freeSignals.freeCovs
  -- coffe.pyx:2592-2596
  | .has_lensing => setContrib v (fun c b => { c with len := b }) PyObj.freeSignals
  -- coffe.pyx:2608-2610
  | .has_d1 => setContrib v (fun c b => { c with d1 := b }) PyObj.freeAll
  -- coffe.pyx:2622-2624
  | .has_d2 => setContrib v (fun c b => { c with d2 := b }) PyObj.freeAll
  -- coffe.pyx:2637-2639
  | .has_g1 => setContrib v (fun c b => { c with g1 := b }) PyObj.freeAll
  -- coffe.pyx:2652-2654
  | .has_g2 => setContrib v (fun c b => { c with g2 := b }) PyObj.freeAll
  -- coffe.pyx:2667-2669
  | .has_g3 => setContrib v (fun c b => { c with g3 := b }) PyObj.freeAll
  -- coffe.pyx:2682-2684
  | .has_g4 => setContrib v (fun c b => { c with g4 := b }) PyObj.freeAll
  -- coffe.pyx:2697-2699
  | .has_g5 => setContrib v (fun c b => { c with g5 := b }) PyObj.freeAll
  -- coffe.pyx:2720-2725
  | .has_flatsky_local =>
    store (fun p => { p with flatsky_local := v.truth }) fun s => s.freeInts.freeSignals
  -- coffe.pyx:2738-2743
  | .has_flatsky_local_nonlocal =>
    store (fun p => { p with flatsky_local_nonlocal := v.truth }) fun s => s.freeInts.freeSignals
  -- coffe.pyx:2756-2761
  | .has_flatsky_nonlocal =>
    store (fun p => { p with flatsky_nonlocal := v.truth }) fun s => s.freeInts.freeSignals
  -- coffe.pyx:2806-2818
  | .pk_type => do
      let x ← checkDiscrete v pkOfInt pkOfStr
      store (fun p => { p with pk_type := x }) PyObj.freeAll
  -- coffe.pyx:2905-2909
  | .k_min => do
      let x ← checkParameter v .intFloat 0 1e-3
      store (fun p => { p with k_min := x }) PyObj.freeAll
  -- coffe.pyx:2922-2926
  | .k_max => do
      let x ← checkParameter v .intFloat 0.1 1e3
      store (fun p => { p with k_max := x }) PyObj.freeAll

/-- Reading `object.name` (the `@property` getters, coffe.pyx:1000-2917; `_coeff` is 1). -/
noncomputable def getattr (p : PyPar) : Name → PyVal
  | .A_s => .float p.A_s
  | .N_ncdm => .int p.N_ncdm
  | .N_ur => .float p.N_ur
  | .T_cmb => .float p.T_cmb
  | .YHe => .float p.YHe
  | .background_sampling => .int p.background_bins
  | .covariance_cosmic => .bool p.covariance_cosmic
  | .covariance_integration_method => .str (covMethodName p.covariance_integration_method)
  | .covariance_integration_sampling => .int p.covariance_integration_bins
  | .covariance_interpolation_method => .str (interp2dName p.covariance_interpolation_method)
  | .covariance_mixed => .bool p.covariance_mixed
  | .covariance_poisson => .bool p.covariance_poisson
  | .covariance_populations => .ints [p.covariance_pop.1, p.covariance_pop.2.1, p.covariance_pop.2.2.1,
      p.covariance_pop.2.2.2]
  | .deltaz => .floats p.deltaz
  | .fsky => .floats p.fsky
  | .h => .float p.h
  | .has_binned_covariance => .bool p.covariance_window
  | .has_d1 => .bool p.contrib.d1
  | .has_d2 => .bool p.contrib.d2
  | .has_density => .bool p.contrib.den
  | .has_flatsky_local => .bool p.flatsky_local
  | .has_flatsky_local_nonlocal => .bool p.flatsky_local_nonlocal
  | .has_flatsky_nonlocal => .bool p.flatsky_nonlocal
  | .has_g1 => .bool p.contrib.g1
  | .has_g2 => .bool p.contrib.g2
  | .has_g3 => .bool p.contrib.g3
  | .has_g4 => .bool p.contrib.g4
  | .has_g5 => .bool p.contrib.g5
  | .has_lensing => .bool p.contrib.len
  | .has_only_cross_correlations => .bool p.only_cross_correlations
  | .has_rsd => .bool p.contrib.rsd
  | .integrals_fftlog_sampling => .int p.bessel_bins
  | .integration_1d_prec => .float p.integration_1d_prec
  | .integration_1d_type => .str (int1dName p.integration_1d_type)
  | .integration_sampling => .int p.integration_bins
  | .k_max => .float p.k_max
  | .k_min => .float p.k_min
  | .k_per_decade_for_bao => .float p.prec.k_per_decade_for_bao
  | .k_per_decade_for_pk => .float p.prec.k_per_decade_for_pk
  | .l => .ints (p.l.map fun n : ℕ => (n : ℤ))
  | .l_max_g => .int p.prec.l_max_g
  | .l_max_ur => .int p.prec.l_max_ur
  | .m_ncdm => .float p.m_ncdm
  | .mu => .floats p.mu
  | .n_s => .float p.n_s
  | .number_density1 => .floats p.density1
  | .number_density2 => .floats p.density2
  | .omega_baryon => .float p.Omega0_baryon
  | .omega_cdm => .float p.Omega0_cdm
  | .omega_gamma => .float p.Omega0_gamma
  | .omega_m => .float p.Omega0_m
  | .pixelsize => .floats p.pixelsize
  | .pk_type => .str (pkName p.pk_type)
  | .radiation_streaming_trigger_tau_over_tau_k =>
    .float p.prec.radiation_streaming_trigger_tau_over_tau_k
  | .sep => .floats p.sep
  | .sigma8 => .float p.sigma8
  | .start_large_k_at_tau_h_over_tau_k => .float p.prec.start_large_k_at_tau_h_over_tau_k
  | .tol_perturb_integration => .float p.prec.tol_perturb_integration
  | .ur_fluid_trigger_tau_over_tau_k => .float p.prec.ur_fluid_trigger_tau_over_tau_k
  | .verbose => .bool p.verbose
  | .w0 => .float p.w0
  | .wa => .float p.wa
  | .z_max => .floats p.z_max
  | .z_mean => .floats p.z_mean
  | .z_min => .floats p.z_min

/-- Attribute names that can be looked up on a `Coffe` object: settable properties, read-only properties
(coffe.pyx:1013-1053, 1191-1197, 1258-1264) and everything else. -/
inductive Attr where
  | settable (n : Name)
  | readonly
  | unknown

/-- `setattr(object, key, value)`; assigning a read-only property raises `AttributeError`. -/
noncomputable def setAttr (a : Attr) (v : PyVal) : Py Unit :=
  match a with
  | .settable n => setattr n v
  | .readonly => Py.raise .attributeError
  | .unknown => Py.raise .attributeError

/-- `set_parameters`, coffe.pyx:1157-1168. -/
noncomputable def setParameters (kvs : List (Attr × PyVal)) : Py Unit := do
  if kvs.any (fun kv => match kv.1 with | .unknown => true | _ => false) then
    Py.raise .attributeError
  kvs.forM fun kv => setAttr kv.1 kv.2

/-- One step of the loop of the `parameters` getter, coffe.pyx:1148-1153: assign the attribute to
itself, ignoring `AttributeError`. -/
noncomputable def parametersStep (n : Name) : Py (List (Name × PyVal)) := fun s =>
  match setattr n (getattr s.par n) s with
  | (.ok _, s') => (.ok [(n, getattr s'.par n)], s')
  | (.error .attributeError, s') => (.ok [], s')
  | (.error e, s') => (.error e, s')

/-- The loop of the `parameters` getter over the names `ns`, coffe.pyx:1147-1154. -/
noncomputable def parametersLoop : List Name → Py (List (Name × PyVal))
  | [] => pure []
  | n :: ns => do
    let a ← parametersStep n
    let b ← parametersLoop ns
    pure (a ++ b)

/-- The `parameters` getter, coffe.pyx:1137-1154 (read-only properties raise `AttributeError` in the loop
and are skipped). -/
noncomputable def parameters : Py (List (Name × PyVal)) := parametersLoop Name.all

/-- `reset_contributions`, coffe.pyx:2702-2708. -/
noncomputable def resetContributions : Py Unit := do
  let ps ← parameters
  (ps.filter fun kv => decide (kv.1 ∈ Name.flags)).forM fun kv => setattr kv.1 (.bool false)

end Coffe
