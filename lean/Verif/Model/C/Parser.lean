import Verif.Model.C.Common
import Verif.Model.C.Text
import Verif.Model.Signal.Types
import Verif.Model.Python.State

/-!
# The settings parser of the C program

src/parser.c.  A settings file that libconfig has read is a partial map from names to settings.  Groups, paths
with dots and integers outside the range of `int` are not covered; `config_set_auto_convert` (line 1061)
makes integers and floating-point numbers interchangeable.  What is printed is left out.
-/

namespace Coffe
open Classical

/-- A scalar of libconfig. -/
inductive Scalar where
  | int (n : ℤ)
  | float (x : ℝ)
  | str (s : Text)

/-- A setting: a scalar, or an array or list of scalars. -/
inductive Setting where
  | one (v : Scalar)
  | many (l : List Scalar)

/-- The settings of a file. -/
abbrev Conf := String → Option Setting

/-- Integer behind a scalar; floating-point numbers are truncated (`__config_setting_get_int` of libconfig). -/
noncomputable def Scalar.toInt : Scalar → Option ℤ
  | .int n => some n
  | .float x => some (if 0 ≤ x then ⌊x⌋ else ⌈x⌉)
  | .str _ => none

/-- Floating-point number behind a scalar. -/
noncomputable def Scalar.toFloat : Scalar → Option ℝ
  | .int n => some n
  | .float x => some x
  | .str _ => none

/-- `config_lookup_int`. -/
noncomputable def lookup_int (c : Conf) (name : String) : Option ℤ :=
  match c name with
  | some (.one v) => v.toInt
  | _ => none

/-- `config_lookup_float`. -/
noncomputable def lookup_float (c : Conf) (name : String) : Option ℝ :=
  match c name with
  | some (.one v) => v.toFloat
  | _ => none

/-- `config_lookup_string`. -/
def lookup_string (c : Conf) (name : String) : Option Text :=
  match c name with
  | some (.one (.str s)) => some s
  | _ => none

/-- The elements of a setting; `config_setting_length` of a scalar is 0. -/
def Setting.elements : Setting → List Scalar
  | .one _ => []
  | .many l => l

/-- `parse_double` with `safe == COFFE_TRUE`, src/parser.c:57-82. -/
noncomputable def parse_double (c : Conf) (name : String) : CRes ℝ :=
  match lookup_float c name with
  | some x => .ok x
  | none => .error .exit

/-- `parse_int` with `safe == COFFE_TRUE`, src/parser.c:84-107. -/
noncomputable def parse_int (c : Conf) (name : String) : CRes ℤ :=
  match lookup_int c name with
  | some x => .ok x
  | none => .error .exit

/-- `parse_string`, src/parser.c:109-134, into an array of `COFFE_MAX_STRLEN` characters.  `strcpy` comes before
the check, so a missing setting copies from an uninitialised pointer. -/
noncomputable def parse_string (c : Conf) (name : String) : CRes Text :=
  match lookup_string c name with
  | some s => if s.length < COFFE_MAX_STRLEN then .ok s else .error .oob
  | none => .error .uninit

/-- `parse_double_array`, src/parser.c:210-233: a missing setting keeps `old`, an element that is not a number is
read as 0 (`config_setting_get_float_elem`). -/
noncomputable def parse_double_array (c : Conf) (name : String) (old : List ℝ) : List ℝ :=
  match c name with
  | none => old
  | some s => s.elements.map fun v => v.toFloat.getD 0

/-- `parse_int_array`, src/parser.c:179-202. -/
noncomputable def parse_int_array (c : Conf) (name : String) (old : List ℤ) : List ℤ :=
  match c name with
  | none => old
  | some s => s.elements.map fun v => v.toInt.getD 0

/-- A loop that stops at the first failure and collects the results. -/
def collect {α β : Type} (f : α → CRes β) : List α → CRes (List β)
  | [] => .ok []
  | a :: l => do
    let b ← f a
    let bs ← collect f l
    pure (b :: bs)

/-- `parse_string_array`, src/parser.c:142-171: an element that is not a string is `NULL`. -/
def parse_string_array (c : Conf) (name : String) (old : List Text) : CRes (List Text) :=
  match c name with
  | none => .ok old
  | some s => collect (fun v => match v with
    | .str t => .ok t
    | _ => .error .null) s.elements

/-- The smallest table of the interpolation methods of GSL, src/common.c:537-565. -/
def spline_min_size (method : ℤ) : ℕ :=
  if method = 1 then 2 else if method = 2 then 3 else if method = 3 then 3 else if method = 4 then 2
  else if method = 7 then 3 else 5

/-- `coffe_init_spline`, src/common.c:524-576, with GSL's default error handler: too few points, or points that do
not increase, end the program.  The samples stand for the spline. -/
noncomputable def init_spline (method : ℤ) (l : Samples) : CRes Samples :=
  if l.length = 0 then .error .exit
  else if l.length < spline_min_size method then .error .exit
  else if ¬ (l.map Prod.fst).Pairwise (· < ·) then .error .exit
  else .ok l

/-- What surrounds the parser. -/
structure ParserEnv where
  /-- the files that can be opened -/
  file : Text → Option Text
  /-- `HAVE_CLASS` -/
  have_class : Bool
  /-- `HAVE_CUBA` -/
  have_cuba : Bool
  /-- `coffe_resolution_window`, src/common.c:808-813 -/
  window : ℝ → ℝ
  /-- the power spectrum in `WAVENUMBER_HEADER.dat` and `POWER_SPECTRUM_HEADER.dat` -/
  default_spectrum : Samples

/-- The table read by `read_2col` as a list. -/
noncomputable def read_samples (data : Text) : CRes Samples := do
  let r ← read_2col data
  collect (fun i => r.1.load i) (List.range r.2)

/-- The fields of `coffe_parameters_t` that the parser sets. -/
structure CPar where
  output_type : ℤ
  type_bg : List Text
  background_bins : ℤ
  Omega0_m : ℝ
  Omega0_baryon : ℝ
  Omega0_gamma : ℝ
  Omega0_de : ℝ
  z_mean : List ℝ
  deltaz : List ℝ
  zmin : List ℝ
  zmax : List ℝ
  interp_method : ℤ
  mu : List ℝ
  multipoles : List ℤ
  sep : List ℝ
  bessel_bins : ℤ
  integration_method : ℤ
  integration_bins : ℤ
  covariance_integration_method : ℤ
  covariance_integration_bins : ℤ
  covariance_interpolation_method : ℤ
  w0 : ℝ
  wa : ℝ
  galaxy_bias1 : Samples
  galaxy_bias2 : Samples
  magnification_bias1 : Samples
  magnification_bias2 : Samples
  evolution_bias1 : Samples
  evolution_bias2 : Samples
  density1 : List ℝ
  density2 : List ℝ
  fsky : List ℝ
  pixelsize : List ℝ
  covariance_window : ℤ
  contrib : Contrib
  divergent : Bool
  output_path : Text
  output_prefix : Text
  flatsky_local : ℤ
  flatsky_local_nonlocal : ℤ
  flatsky_nonlocal : ℤ
  b_derivative : ℤ
  f_derivative : ℤ
  b_tilde_derivative : ℤ
  f_tilde_derivative : ℤ
  k_min : ℝ
  k_max : ℝ
  have_window : ℤ
  only_cross_correlations : ℤ
  window_size : ℝ
  pk_type : ℤ
  h : ℝ
  sigma8 : ℝ
  A_s : ℝ
  n_s : ℝ
  k_pivot : ℝ
  T_cmb : ℝ
  N_ur : ℝ
  m_ncdm : ℝ
  N_ncdm : ℤ
  YHe : ℝ
  Omega0_nu : ℝ
  Omega0_cdm : ℝ
  power_spectrum : Samples

/-- The numbers of a list of output types, src/common.h. -/
def CORRFUNC : ℤ := 1
/-- src/common.h. -/
def MULTIPOLES : ℤ := 2
/-- src/common.h. -/
def AVERAGE_MULTIPOLES : ℤ := 3
/-- src/common.h. -/
def COVARIANCE_MULTIPOLES : ℤ := 4
/-- src/common.h. -/
def COVARIANCE_AVERAGE_MULTIPOLES : ℤ := 5

/-- No contribution, src/parser.c:1437-1446. -/
def Contrib.zero : Contrib :=
  ⟨false, false, false, false, false, false, false, false, false, false⟩

/-- `parse_bias_default`, src/parser.c:36-51. -/
def bias_default (value : ℝ) : Samples := (List.range 11).map fun i : ℕ => ((i : ℝ), value)

/-- `coffe_parse_default_parameters`, src/parser.c:733-1033. -/
noncomputable def CPar.default (E : ParserEnv) : CPar where
  output_type := MULTIPOLES
  type_bg := []
  background_bins := 10000
  Omega0_m := 0.3
  Omega0_baryon := 0.05
  Omega0_gamma := 9e-5
  Omega0_de := 1 - (0.3 + 9e-5)
  z_mean := [1]
  deltaz := [0.2]
  zmin := [0.9]
  zmax := [1.1]
  interp_method := 5
  mu := [0.5]
  multipoles := [0, 2, 4]
  sep := (List.range 100).map fun i : ℕ => 5 + (305 - 5) * (i : ℝ) / 100
  bessel_bins := 10000
  integration_method := 2
  integration_bins := 750000
  covariance_integration_method := 1
  covariance_integration_bins := 8000
  covariance_interpolation_method := 2
  w0 := -1
  wa := 0
  galaxy_bias1 := bias_default 1
  galaxy_bias2 := bias_default 1
  magnification_bias1 := bias_default 0
  magnification_bias2 := bias_default 0
  evolution_bias1 := bias_default 0
  evolution_bias2 := bias_default 0
  density1 := [1e-3]
  density2 := [1e-3]
  fsky := [1]
  pixelsize := [10]
  covariance_window := 0
  contrib := { Contrib.zero with den := true }
  divergent := false
  output_path := "./".toList
  output_prefix := "$TIME".toList
  flatsky_local := 0
  flatsky_local_nonlocal := 0
  flatsky_nonlocal := 0
  b_derivative := 0
  f_derivative := 0
  b_tilde_derivative := 0
  f_tilde_derivative := 0
  k_min := 1e-5
  k_max := 300
  have_window := 0
  only_cross_correlations := 0
  window_size := 0
  pk_type := 0
  h := 0.67
  sigma8 := 0.8156
  A_s := 0
  n_s := 0.96
  k_pivot := 0.05
  T_cmb := 2.726
  N_ur := 2.0328
  m_ncdm := 0
  N_ncdm := 1
  YHe := 0
  Omega0_nu := 0
  Omega0_cdm := 0.3 - 0.05
  power_spectrum := E.default_spectrum.map fun x => (x.1 * 0.67, x.2 / 0.67 ^ 3)

/-- `if (!ok) exit(EXIT_FAILURE);` -/
noncomputable def require (ok : Prop) : CRes Unit := if ok then .ok () else .error .exit

/-- src/parser.c:1063-1079. -/
noncomputable def parse_general (c : Conf) (p : CPar) : CRes CPar := do
  let _ ← parse_int c "verbose"
  let ty ← parse_int c "output_type"
  let bg ← parse_string_array c "output_background" p.type_bg
  let bins ← parse_int c "background_sampling"
  let m ← parse_double c "omega_m"
  let b ← parse_double c "omega_baryon"
  let g ← parse_double c "omega_gamma"
  pure { p with
    output_type := ty, type_bg := bg, background_bins := bins, Omega0_m := m, Omega0_baryon := b,
    Omega0_gamma := g, Omega0_de := 1 - (m + g) }

/-- src/parser.c:1081-1097. -/
noncomputable def parse_z_mean (c : Conf) (p : CPar) : CRes CPar :=
  if p.output_type = CORRFUNC ∨ p.output_type = MULTIPOLES ∨ p.output_type = COVARIANCE_MULTIPOLES then do
    let z := parse_double_array c "z_mean" []
    require (∀ x ∈ z, ¬ x ≤ 0)
    pure { p with z_mean := z }
  else pure p

/-- src/parser.c:1099-1103. -/
noncomputable def parse_z_range (c : Conf) (p : CPar) : CPar :=
  if p.output_type = AVERAGE_MULTIPOLES then
    { p with zmin := parse_double_array c "z_min" p.zmin, zmax := parse_double_array c "z_max" p.zmax }
  else p

/-- src/parser.c:1105-1110: the variable is not initialised if the setting is missing. -/
noncomputable def parse_interpolation (c : Conf) (p : CPar) : CRes CPar :=
  match lookup_int c "interpolation" with
  | some n => .ok { p with interp_method := n }
  | none => .error .uninit

/-- src/parser.c:1112-1128. -/
noncomputable def parse_mu_multipoles (c : Conf) (p : CPar) : CPar :=
  if p.output_type = CORRFUNC then { p with mu := parse_double_array c "mu" p.mu }
  else if p.output_type = MULTIPOLES ∨ p.output_type = AVERAGE_MULTIPOLES ∨
      p.output_type = COVARIANCE_MULTIPOLES ∨ p.output_type = COVARIANCE_AVERAGE_MULTIPOLES then
    { p with multipoles := parse_int_array c "multipoles" [] }
  else p

/-- The contents of an array of `n` elements. -/
noncomputable def buf_list (b : Buf ℕ ℝ) (n : ℕ) : CRes (List ℝ) := collect (fun i => b.load i) (List.range n)

/-- src/parser.c:1137-1159.  With `separations_step` the number of separations stays 0; a negative number is
converted to a size that cannot be allocated. -/
noncomputable def read_separations (c : Conf) : CRes (List ℝ) := do
  let xmin ← parse_double c "separations_min"
  let xmax ← parse_double c "separations_max"
  let sampling := lookup_int c "separations_sampling"
  let step := lookup_float c "separations_step"
  require ¬ (sampling.isSome ∧ step.isSome)
  require ¬ (sampling.isNone ∧ step.isNone)
  require (0 ≤ sampling.getD 0)
  let b ← coffe_generate_range xmin xmax (sampling.getD 0).toNat
  buf_list b (sampling.getD 0).toNat

/-- src/parser.c:1130-1160. -/
noncomputable def parse_separations (c : Conf) (p : CPar) : CRes CPar :=
  if p.output_type = CORRFUNC ∨ p.output_type = MULTIPOLES ∨ p.output_type = AVERAGE_MULTIPOLES ∨
      p.output_type = COVARIANCE_MULTIPOLES then do
    let s ← read_separations c
    pure { p with sep := s }
  else pure p

/-- src/parser.c:1187-1206. -/
noncomputable def parse_fftlog (c : Conf) (p : CPar) : CRes CPar :=
  if p.covariance_integration_method = 2 then do
    let bins ← parse_int c "covariance_integration_bins"
    require (0 < bins)
    let t ← parse_int c "covariance_interpolation_method"
    require (t = 1 ∨ t = 2)
    pure { p with covariance_integration_bins := bins, covariance_interpolation_method := t }
  else pure p

/-- src/parser.c:1165-1172; with CUBA the method is not used. -/
noncomputable def parse_method (E : ParserEnv) (c : Conf) (p : CPar) : CRes CPar :=
  if E.have_cuba then pure p
  else do
    let m ← parse_int c "integration_method"
    require (0 ≤ m ∧ m ≤ 2)
    pure { p with integration_method := m }

/-- src/parser.c:1162-1210. -/
noncomputable def parse_integration (E : ParserEnv) (c : Conf) (p : CPar) : CRes CPar := do
  let bessel ← parse_int c "bessel_sampling"
  let p ← parse_method E c { p with bessel_bins := bessel }
  let bins ← parse_int c "integration_sampling"
  let m ← parse_int c "covariance_integration_method"
  require (m = 1 ∨ m = 2)
  let p ← parse_fftlog c { p with integration_bins := bins, covariance_integration_method := m }
  let w0 ← parse_double c "w0"
  let wa ← parse_double c "wa"
  pure { p with w0 := w0, wa := wa }

/-- `parse_bias`, src/parser.c:241-272, with the flag that precedes it.  A file that cannot be opened leaves the
arrays uninitialised (`read_2col`'s result is ignored).  The degrees of the fits are not modelled. -/
noncomputable def parse_bias (E : ParserEnv) (c : Conf) (method : ℤ) (flag setting single : String) : CRes Samples :=
  if (lookup_int c flag).getD 0 = 1 then do
    let name ← parse_string c setting
    match E.file name with
    | some data => do
      let l ← read_samples data
      init_spline method l
    | none => .error .uninit
  else do
    let v ← parse_double c single
    init_spline method (bias_default v)

/-- src/parser.c:1215-1327; `galaxy_bias_analytic` is always 0. -/
noncomputable def parse_biases (E : ParserEnv) (c : Conf) (p : CPar) : CRes CPar := do
  let g1 ← parse_bias E c p.interp_method "read_galaxy_bias1" "input_galaxy_bias1" "galaxy_bias1"
  let g2 ← parse_bias E c p.interp_method "read_galaxy_bias2" "input_galaxy_bias2" "galaxy_bias2"
  let m1 ← parse_bias E c p.interp_method "read_magnification_bias1" "input_magnification_bias1" "magnification_bias1"
  let m2 ← parse_bias E c p.interp_method "read_magnification_bias2" "input_magnification_bias2" "magnification_bias2"
  let e1 ← parse_bias E c p.interp_method "read_evolution_bias1" "input_evolution_bias1" "evolution_bias1"
  let e2 ← parse_bias E c p.interp_method "read_evolution_bias2" "input_evolution_bias2" "evolution_bias2"
  pure { p with
    galaxy_bias1 := g1, galaxy_bias2 := g2, magnification_bias1 := m1, magnification_bias2 := m2,
    evolution_bias1 := e1, evolution_bias2 := e2 }

/-- src/parser.c:1329-1364. -/
noncomputable def parse_survey (c : Conf) (p : CPar) : CRes CPar :=
  if p.output_type = COVARIANCE_MULTIPOLES ∨ p.output_type = COVARIANCE_AVERAGE_MULTIPOLES then do
    let w ← parse_int c "covariance_window"
    pure { p with
      density1 := parse_double_array c "density1" p.density1
      density2 := parse_double_array c "density2" p.density2
      fsky := parse_double_array c "fsky" p.fsky
      pixelsize := parse_double_array c "pixelsize" p.pixelsize
      covariance_window := w }
  else pure p

/-- src/parser.c:1366-1399. -/
noncomputable def parse_covariance_multipoles (c : Conf) (p : CPar) : CRes CPar :=
  if p.output_type = COVARIANCE_MULTIPOLES then do
    let z := parse_double_array c "z_mean" p.z_mean
    let d := parse_double_array c "deltaz" p.deltaz
    let f := parse_double_array c "fsky" p.fsky
    require ¬ (p.density1.length ≠ f.length ∨ p.density1.length ≠ p.density2.length ∨
      p.density1.length ≠ z.length ∨ p.density1.length ≠ d.length ∨ p.density1.length ≠ p.pixelsize.length)
    pure { p with z_mean := z, deltaz := d, fsky := f }
  else pure p

/-- src/parser.c:1401-1426. -/
noncomputable def parse_covariance_average (c : Conf) (p : CPar) : CRes CPar :=
  if p.output_type = COVARIANCE_AVERAGE_MULTIPOLES then do
    let a := parse_double_array c "zmin" p.zmin
    let b := parse_double_array c "zmax" p.zmax
    require ¬ (p.density1.length ≠ p.fsky.length ∨ p.density1.length ≠ p.density2.length ∨
      p.density1.length ≠ a.length ∨ p.density1.length ≠ b.length)
    pure { p with zmin := a, zmax := b }
  else pure p

/-- One iteration of the loop over the contributions, src/parser.c:1449-1468. -/
def set_contribution (k : Contrib) (s : Text) : Contrib :=
  if s = "den".toList then { k with den := true }
  else if s = "rsd".toList then { k with rsd := true }
  else if s = "len".toList then { k with len := true }
  else if s = "d1".toList then { k with d1 := true }
  else if s = "d2".toList then { k with d2 := true }
  else if s = "g1".toList then { k with g1 := true }
  else if s = "g2".toList then { k with g2 := true }
  else if s = "g3".toList then { k with g3 := true }
  else if s = "g4".toList then { k with g4 := true }
  else if s = "g5".toList then { k with g5 := true }
  else k

/-- src/parser.c:1428-1485. -/
def parse_contributions (c : Conf) (p : CPar) : CRes CPar := do
  let l ← parse_string_array c "correlation_contributions" []
  let k := l.foldl set_contribution Contrib.zero
  pure { p with contrib := k, divergent := p.divergent || (k.d2 || k.g1 || k.g2 || k.g3 || k.g4 || k.g5) }

/-- src/parser.c:1487-1496. -/
noncomputable def parse_output (c : Conf) (p : CPar) : CRes CPar := do
  let path ← parse_string c "output_path"
  let pre ← parse_string c "output_prefix"
  let a ← parse_int c "flatsky_local"
  let b ← parse_int c "flatsky_local_nonlocal"
  let d ← parse_int c "flatsky_nonlocal"
  pure { p with
    output_path := path, output_prefix := pre, flatsky_local := a, flatsky_local_nonlocal := b,
    flatsky_nonlocal := d }

/-- src/parser.c:1498-1516; the sum is assumed not to overflow. -/
noncomputable def parse_derivatives (c : Conf) (p : CPar) : CRes CPar := do
  let b ← parse_int c "b_derivative"
  let f ← parse_int c "f_derivative"
  let bt ← parse_int c "b_tilde_derivative"
  let ft ← parse_int c "f_tilde_derivative"
  require ¬ (b + f + bt + ft > 1)
  pure { p with b_derivative := b, f_derivative := f, b_tilde_derivative := bt, f_tilde_derivative := ft }

/-- src/parser.c:1529-1536. -/
noncomputable def parse_window_size (c : Conf) (p : CPar) : CRes CPar :=
  if p.have_window ≠ 0 then do
    let w ← parse_double c "window_size"
    require ¬ (w ≤ 0 ∨ w ≥ 1000)
    pure { p with window_size := w }
  else pure p

/-- src/parser.c:1518-1536. -/
noncomputable def parse_range (c : Conf) (p : CPar) : CRes CPar := do
  let a ← parse_double c "k_min"
  let b ← parse_double c "k_max"
  let w ← parse_int c "have_window"
  let x ← parse_int c "only_cross_correlations"
  parse_window_size c { p with k_min := a, k_max := b, have_window := w, only_cross_correlations := x }

/-- `parse_external_power_spectrum`, src/parser.c:283-720: CLASS is not modelled, it gives some spectrum or ends the
program. -/
abbrev ClassRun := CPar → CRes Samples

/-- src/parser.c:1543-1570. -/
noncomputable def parse_class (class_run : ClassRun) (c : Conf) (p : CPar) : CRes CPar := do
  let t ← parse_int c "pk_type"
  let h ← parse_double c "h"
  require ¬ ((lookup_float c "sigma8").isSome ∧ (lookup_float c "A_s").isSome)
  let n ← parse_double c "n_s"
  let k ← parse_double c "k_pivot"
  let m := (lookup_float c "m_ncdm").getD p.m_ncdm
  let nu := m / 93.14 / h / h
  let q := { p with
    pk_type := t, h := h, sigma8 := (lookup_float c "sigma8").getD p.sigma8,
    A_s := (lookup_float c "A_s").getD p.A_s, n_s := n, k_pivot := k,
    T_cmb := (lookup_float c "T_cmb").getD p.T_cmb, N_ur := (lookup_float c "N_ur").getD p.N_ur, m_ncdm := m,
    N_ncdm := (lookup_int c "N_ncdm").getD p.N_ncdm, YHe := (lookup_float c "YHe").getD p.YHe,
    Omega0_nu := nu, Omega0_cdm := p.Omega0_m - p.Omega0_baryon - nu }
  let l ← class_run q
  pure { q with power_spectrum := l }

/-- src/parser.c:1574-1620: a spectrum that cannot be read is replaced by the default one. -/
noncomputable def parse_spectrum_file (E : ParserEnv) (c : Conf) (p : CPar) : CRes CPar := do
  let name ← parse_string c "input_power_spectrum"
  let p := { p with Omega0_cdm := p.Omega0_m - p.Omega0_baryon - p.Omega0_nu }
  match E.file name with
  | some data => do
    let l ← read_samples data
    let l ← init_spline p.interp_method
      (if p.have_window ≠ 0 then l.map fun x => (x.1, x.2 * E.window (p.window_size * x.1) ^ 2) else l)
    pure { p with power_spectrum := l }
  | none => pure p

/-- src/parser.c:1538-1623. -/
noncomputable def parse_spectrum (E : ParserEnv) (class_run : ClassRun) (c : Conf) (p : CPar) : CRes CPar :=
  if E.have_class then do
    let k ← parse_int c "have_class"
    if k ≠ 0 then parse_class class_run c p else parse_spectrum_file E c p
  else parse_spectrum_file E c p

/-- src/parser.c:1625-1669; an empty spectrum is a read outside the array.  The copy that is called normalised is the
spectrum itself. -/
noncomputable def clamp_range (p : CPar) : CRes CPar :=
  match p.power_spectrum.head?, p.power_spectrum.getLast? with
  | some a, some b => do
    let _ ← init_spline p.interp_method p.power_spectrum
    pure { p with
      k_min := if p.k_min < a.1 then a.1 else p.k_min
      k_max := if p.k_max > b.1 then b.1 else p.k_max }
  | _, _ => .error .oob

/-- `coffe_parser_init`, src/parser.c:1041-1697, for a file that libconfig can read. -/
noncomputable def coffe_parser_init (E : ParserEnv) (class_run : ClassRun) (c : Conf) : CRes CPar := do
  let p ← parse_general c (CPar.default E)
  let p ← parse_z_mean c p
  let p ← parse_interpolation c (parse_z_range c p)
  let p ← parse_separations c (parse_mu_multipoles c p)
  let p ← parse_integration E c p
  let p ← parse_biases E c p
  let p ← parse_survey c p
  let p ← parse_covariance_multipoles c p
  let p ← parse_covariance_average c p
  let p ← parse_contributions c p
  let p ← parse_output c p
  let p ← parse_derivatives c p
  let p ← parse_range c p
  let p ← parse_spectrum E class_run c p
  clamp_range p

end Coffe
