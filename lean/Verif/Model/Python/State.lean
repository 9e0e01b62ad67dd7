import Verif.Model.Integrals

/-!
# State of a `Coffe` object (python/coffe/coffe.pyx)

Numbers are exact reals (no rounding, no NaN or infinity).  The numerical stages (background solver,
CLASS, FFTLog, covariance integrals, quadrature, Akima splines) are arbitrary functions of exactly the
data they read, collected in `Num`; what they read, when they run and what they overwrite is modelled.
-/

namespace Coffe
open Classical

/-- Python values passed to or returned by the API.  Lists are lists of floats or of ints; `other` is
any object that is neither a number, a string nor iterable (for example `None`). -/
inductive PyVal where
  | float (x : ℝ)
  | int (n : ℤ)
  | bool (b : Bool)
  | str (s : String)
  | floats (l : List ℝ)
  | ints (l : List ℤ)
  | other

/-- Exceptions, plus two outcomes that end the process: `abort` (the C library calls `exit` or the GSL
error handler) and `crash` (undefined behaviour: null pointer or out-of-bounds access). -/
inductive Err where
  | typeError
  | valueError
  | attributeError
  | indexError
  | zeroDivision
  | abort
  | crash
deriving DecidableEq, Repr

/-- `enum coffe_integration_1d_type`, src/common.h; names coffe.pyx:220-223. -/
inductive Int1d where
  | gsl
  | exponential
deriving DecidableEq, Repr

/-- `enum coffe_covariance_integration_method`, src/common.h; names coffe.pyx:225-228. -/
inductive CovMethod where
  | standard
  | fftlog
deriving DecidableEq, Repr

/-- `enum coffe_interp2d_type`, src/common.h; names coffe.pyx:230-233. -/
inductive Interp2d where
  | bilinear
  | bicubic
deriving DecidableEq, Repr

/-- Samples `(redshift, value)` of a bias spline (`coffe_interpolation`, src/common.h). -/
abbrev Samples := List (ℝ × ℝ)

/-- `struct coffe_class_precision`, src/common.h. -/
structure ClassPrec where
  k_per_decade_for_bao : ℝ
  k_per_decade_for_pk : ℝ
  start_large_k_at_tau_h_over_tau_k : ℝ
  l_max_g : ℤ
  l_max_ur : ℤ
  tol_perturb_integration : ℝ
  radiation_streaming_trigger_tau_over_tau_k : ℝ
  ur_fluid_trigger_tau_over_tau_k : ℝ

/-- The eight bias splines of `coffe_parameters_t`, src/common.h. -/
structure Biases where
  galaxy1 : Samples
  galaxy2 : Samples
  galaxy3 : Samples
  galaxy4 : Samples
  magnification1 : Samples
  magnification2 : Samples
  evolution1 : Samples
  evolution2 : Samples

/-- The part of `coffe_parameters_t` (src/common.h) that the Python API can change.  `k_min_norm` and
`k_max_norm` always equal `k_min` and `k_max` there (src/parser.c:600-615, 860-861,
coffe.pyx:2904-2926, 2962-2965) and are not stored separately.  `output_type` is `MULTIPOLES`
(src/parser.c defaults) outside the covariance methods, which restore it (coffe.pyx:3465-3469). -/
structure PyPar where
  Omega0_cdm : ℝ
  Omega0_baryon : ℝ
  Omega0_gamma : ℝ
  Omega0_nu : ℝ
  Omega0_m : ℝ
  Omega0_de : ℝ
  h : ℝ
  w0 : ℝ
  wa : ℝ
  n_s : ℝ
  sigma8 : ℝ
  A_s : ℝ
  T_cmb : ℝ
  N_ur : ℝ
  m_ncdm : ℝ
  YHe : ℝ
  N_ncdm : ℤ
  prec : ClassPrec
  bias : Biases
  contrib : Contrib
  only_cross_correlations : Bool
  flatsky_local : Bool
  flatsky_local_nonlocal : Bool
  flatsky_nonlocal : Bool
  divergent : Bool
  pk_type : PkType
  integration_1d_type : Int1d
  integration_1d_prec : ℝ
  k_min : ℝ
  k_max : ℝ
  sep : List ℝ
  mu : List ℝ
  l : List ℕ
  z_mean : List ℝ
  z_min : List ℝ
  z_max : List ℝ
  deltaz : List ℝ
  density1 : List ℝ
  density2 : List ℝ
  pixelsize : List ℝ
  fsky : List ℝ
  covariance_pop : ℤ × ℤ × ℤ × ℤ
  covariance_cosmic : Bool
  covariance_mixed : Bool
  covariance_poisson : Bool
  covariance_window : Bool
  covariance_integration_method : CovMethod
  covariance_integration_bins : ℤ
  covariance_interpolation_method : Interp2d
  background_bins : ℤ
  bessel_bins : ℤ
  integration_bins : ℤ
  verbose : Bool

/-- `parse_bias_default`, src/parser.c:36-51: a constant bias sampled at 0, 1, .., 10. -/
noncomputable def constBias (b : ℝ) : Samples :=
  (List.range 11).map fun i : ℕ => ((i : ℝ), b)

/-- `coffe_generate_range`, src/common.c:1181-1203, after its check `xmin < xmax`. -/
noncomputable def generateRange (xmin xmax : ℝ) (steps : ℕ) : List ℝ :=
  (List.range steps).map fun i : ℕ => xmin + (xmax - xmin) * i / steps

/-- `coffe_parse_default_parameters`, src/parser.c:733-1033. -/
noncomputable def PyPar.default : PyPar where
  Omega0_cdm := 0.3 - 0.05 - 0
  Omega0_baryon := 0.05
  Omega0_gamma := 9e-5
  Omega0_nu := 0
  Omega0_m := 0.3
  Omega0_de := 1 - (0.3 + 9e-5)
  h := 0.67
  w0 := -1
  wa := 0
  n_s := 0.96
  sigma8 := 0.8156
  A_s := 0
  T_cmb := 2.726
  N_ur := 2.0328
  m_ncdm := 0
  YHe := 0
  N_ncdm := 1
  prec := ⟨70, 10, 0.07, 12, 17, 1e-5, 45, 30⟩
  bias := ⟨constBias 1, constBias 1, constBias 1, constBias 1, constBias 0, constBias 0, constBias 0,
    constBias 0⟩
  contrib := ⟨true, false, false, false, false, false, false, false, false, false⟩
  only_cross_correlations := false
  flatsky_local := false
  flatsky_local_nonlocal := false
  flatsky_nonlocal := false
  divergent := false
  pk_type := .COFFE_PK_LINEAR
  integration_1d_type := .gsl
  integration_1d_prec := 1e-5
  k_min := 1e-5
  k_max := 300
  sep := generateRange 5 305 100
  mu := [0.5]
  l := [0, 2, 4]
  z_mean := [1]
  z_min := [0.9]
  z_max := [1.1]
  deltaz := [0.2]
  density1 := [1e-3]
  density2 := [1e-3]
  pixelsize := [10]
  fsky := [1]
  covariance_pop := (1, 1, 1, 1)
  covariance_cosmic := true
  covariance_mixed := true
  covariance_poisson := true
  covariance_window := false
  covariance_integration_method := .standard
  covariance_integration_bins := 8000
  covariance_interpolation_method := .bicubic
  background_bins := 10000
  bessel_bins := 10000
  integration_bins := 750000
  verbose := false

/-- Power spectrum stored in `par->power_spectrum` / `power_spectrum_norm` (src/common.h). -/
abbrev Spectrum := Samples

/-- What the CLASS run keeps: its k-range, the tabulated spectrum and `par->class_struct`
(src/parser.c:283-729).  The content of `class_struct` is an opaque table. -/
structure ClassOut where
  k_first : ℝ
  k_last : ℝ
  spectrum : Spectrum
  cls : List ℝ

/-- What `coffe_background_init` reads, src/background.c:300-640. -/
structure BgView where
  Omega0_cdm : ℝ
  Omega0_baryon : ℝ
  Omega0_gamma : ℝ
  Omega0_de : ℝ
  h : ℝ
  w0 : ℝ
  wa : ℝ
  integration_1d_type : Int1d
  integration_1d_prec : ℝ
  background_bins : ℤ
  magnification1 : Samples
  magnification2 : Samples
  evolution1 : Samples
  evolution2 : Samples

/-- What `parse_external_power_spectrum` passes to CLASS, src/parser.c:283-729. -/
structure ClassView where
  h : ℝ
  T_cmb : ℝ
  Omega0_baryon : ℝ
  N_ur : ℝ
  YHe : ℝ
  Omega0_cdm : ℝ
  w0 : ℝ
  wa : ℝ
  N_ncdm : ℤ
  m_ncdm : ℝ
  n_s : ℝ
  A_s : ℝ
  sigma8 : ℝ
  k_min : ℝ
  k_max : ℝ
  prec : ClassPrec
  pk_type : PkType

/-- What every integral of `coffe_integrals_init` reads, src/integrals.c:580-1423.  CLASS data and the
two-dimensional interpolation method are read only when `pk_type` is not `LINEAR`. -/
structure IntView where
  bessel_bins : ℤ
  spectrum : Spectrum
  k_min : ℝ
  k_max : ℝ
  pk_type : PkType
  class_data : Option (List ℝ × Interp2d)

/-- What the divergent (4,0) integral reads in addition, src/integrals.c:771-925. -/
structure IntView4 where
  base : IntView
  z_mean : List ℝ
  deltaz : List ℝ
  comoving_distance : ℝ → ℝ

/-- What the quadrature routines read, src/common.c:1004-1179. -/
structure QuadView where
  integration_1d_type : Int1d
  integration_1d_prec : ℝ
  integration_bins : ℤ

/-- What `coffe_covariance_init` reads, src/covariance.c:477-1103, apart from the background.
`z_mean` and `deltaz` are read by the average covariance only through the number of redshifts when
`pk_type` is not `LINEAR`; `bias` is the four galaxy biases. -/
structure CovView where
  average : Bool
  den : Bool
  rsd : Bool
  cosmic : Bool
  mixed : Bool
  poisson : Bool
  window : Bool
  method : CovMethod
  bins : ℤ
  interp : Interp2d
  pop : ℤ × ℤ × ℤ × ℤ
  density1 : List ℝ
  density2 : List ℝ
  fsky : List ℝ
  galaxy1 : Samples
  galaxy2 : Samples
  galaxy3 : Samples
  galaxy4 : Samples
  h : ℝ
  integration_1d_type : Int1d
  integration_1d_prec : ℝ
  k_min : ℝ
  k_max : ℝ
  l : List ℕ
  sep : List ℝ
  pixelsize : List ℝ
  pk_type : PkType
  spectrum : Spectrum
  z_mean : List ℝ
  deltaz : List ℝ
  z_min : List ℝ
  z_max : List ℝ

/-- The numerical stages.  `none` stands for a run that terminates the process (GSL error handler,
CLASS error). `junk` is what a failed table lookup would read; `top` is the last separation of a table. -/
structure Num where
  background : BgView → Option Bg
  classRun : ClassView → Option ClassOut
  plain : IntView → Key → Integral
  four : IntView4 → Integral
  quad : QuadView → Quad
  cov : CovView → Bg → ℝ → ℝ → ℝ → ℕ → ℕ → ℝ
  akima : Samples → ℝ → ℝ
  junk : Ints
  top : Integral → ℝ

/-- `coffe_corrfunc_t`, src/corrfunc.h; result class `Corrfunc`. -/
structure CfRow where
  z : ℝ
  mu : ℝ
  r : ℝ
  value : ℝ

/-- `coffe_multipoles_t`, src/multipoles.h; result class `Multipoles`. -/
structure MpRow where
  z : ℝ
  l : ℕ
  r : ℝ
  value : ℝ

/-- `coffe_average_multipoles_t`, src/average_multipoles.h; result class `AverageMultipoles`. -/
structure AmpRow where
  z_min : ℝ
  z_max : ℝ
  l : ℕ
  r : ℝ
  value : ℝ

/-- `coffe_covariance_t`, src/covariance.h; result class `Covariance`. -/
structure CovRow where
  z : ℝ
  r1 : ℝ
  r2 : ℝ
  l1 : ℕ
  l2 : ℕ
  value : ℝ

/-- `coffe_average_covariance_t`, src/covariance.h; result class `AverageCovariance`. -/
structure AcovRow where
  z_min : ℝ
  z_max : ℝ
  r1 : ℝ
  r2 : ℝ
  l1 : ℕ
  l2 : ℕ
  value : ℝ

/-- The `cdef class Coffe`, coffe.pyx:485-495.  `bg = none` is `_background.flag == 0`, `ps = none` is
`_power_spectrum_flag == 0`, an empty list is an array of size 0.  `cls` is `par->class_struct`, which
no Python method frees; `pk2d` says that `par->power_spectrum2d` is there. -/
structure PyObj where
  par : PyPar
  bg : Option Bg
  ps : Option Spectrum
  cls : Option (List ℝ)
  pk2d : Bool
  ints : List Entry
  cf : List CfRow
  mp : List MpRow
  amp : List AmpRow
  cov : List CovRow
  acov : List AcovRow

/-- A freshly constructed object with the parameters `p` (`__cinit__`, coffe.pyx:497-533). -/
def fresh (p : PyPar) : PyObj :=
  ⟨p, none, none, none, false, [], [], [], [], [], []⟩

/-- A Python method: returns a value or raises, and leaves the object in some state either way. -/
def Py (α : Type) : Type := PyObj → Except Err α × PyObj

namespace Py

/-- Sequencing: an exception stops the method, keeping the state reached so far. -/
instance : Monad Py where
  pure a := fun s => (.ok a, s)
  bind m f := fun s =>
    match m s with
    | (.ok a, s') => f a s'
    | (.error e, s') => (.error e, s')

/-- Read the object. -/
def get : Py PyObj := fun s => (.ok s, s)
/-- Change the object. -/
def modify (f : PyObj → PyObj) : Py Unit := fun s => (.ok (), f s)
/-- Raise an exception. -/
def raise {α : Type} (e : Err) : Py α := fun s => (.error e, s)

end Py

end Coffe
