import Verif.Model.Python.Compute

/-!
# Saving and loading settings files from Python (python/coffe/coffe.pyx:58-83, 536-843)

A settings file is modelled after `configparser` has split it into options: which options it has and the
text of each.  A text is described by what it spells (an integer, a decimal number, a list of either, or
something else).  Python writes a number with enough digits to read back the same number, so writing and
reading a number is exact.  Option names are compared without regard to case, and no two names of the model
differ only by case.  Not modelled: repeated options (rejected by `configparser`), warnings, and the
misspelt option `start_large_k_at_tau_c_over_tau_h` (coffe.pyx:677; giving it raises `AttributeError`).
-/

namespace Coffe
open Classical

/-- What the text of an option spells. -/
inductive Txt where
  | int (n : ℤ)
  | float (x : ℝ)
  | ints (l : List ℤ)
  | floats (l : List ℝ)
  | str (s : String)

/-- `f"{value}"` in `to_file` after the conversions of booleans and arrays, coffe.pyx:803-808. -/
def PyVal.text : PyVal → Txt
  | .float x => .float x
  | .int n => .int n
  | .bool b => .int (if b then 1 else 0)
  | .str s => .str s
  | .floats l => .floats l
  | .ints l => .ints l
  | .other => .str "None"

/-- `config.getfloat`: `float(text)`. -/
noncomputable def Txt.getfloat : Txt → Except Err PyVal
  | .int n => .ok (.float n)
  | .float x => .ok (.float x)
  | _ => .error .valueError

/-- `config.getint`: `int(text)`. -/
def Txt.getint : Txt → Except Err PyVal
  | .int n => .ok (.int n)
  | _ => .error .valueError

/-- `getfloat_array`, coffe.pyx:64-68: strips the brackets and converts what is between the commas; the
empty list has one empty piece, which is not a number. -/
noncomputable def Txt.getfloatArray : Txt → Except Err (List ℝ)
  | .int n => .ok [(n : ℝ)]
  | .float x => .ok [x]
  | .ints (n :: l) => .ok ((n :: l).map fun n : ℤ => (n : ℝ))
  | .floats (x :: l) => .ok (x :: l)
  | _ => .error .valueError

/-- `getint_array`, coffe.pyx:70-74. -/
def Txt.getintArray : Txt → Except Err PyVal
  | .int n => .ok (.ints [n])
  | .ints (n :: l) => .ok (.ints (n :: l))
  | _ => .error .valueError

/-- `getint`, and the text itself if that fails, coffe.pyx:728-731.  The spelling of a decimal number or of
a list is none of the names the four options accept. -/
def Txt.getintOrStr : Txt → Except Err PyVal
  | .int n => .ok (.int n)
  | .str s => .ok (.str s)
  | _ => .ok (.str "number or list")

/-- How a legacy option is read, coffe.pyx:571-590. -/
inductive Reader where
  | int
  | floats
  | ints

/-- `getattr(config, f"get{kind}")`, coffe.pyx:601-613. -/
noncomputable def Reader.read (t : Txt) : Reader → Except Err PyVal
  | .int => t.getint
  | .floats => t.getfloatArray.map .floats
  | .ints => t.getintArray

/-- Options of older versions that are still understood (the three others are ignored),
coffe.pyx:571-590. -/
inductive Legacy where
  | only_cross_correlations | covariance_z_mean | covariance_deltaz | covariance_fsky | covariance_pixelsize
  | covariance_zmin | covariance_zmax | covariance_window | covariance_density | multipoles | flatsky_local
  | flatsky_local_nonlocal | flatsky_nonlocal
deriving DecidableEq, Repr

/-- In the order of coffe.pyx:571-590. -/
def Legacy.all : List Legacy :=
  [.only_cross_correlations, .covariance_z_mean, .covariance_deltaz, .covariance_fsky, .covariance_pixelsize,
   .covariance_zmin, .covariance_zmax, .covariance_window, .covariance_density, .multipoles, .flatsky_local,
   .flatsky_local_nonlocal, .flatsky_nonlocal]

/-- `LegacyOption.kind`, coffe.pyx:571-590. -/
def Legacy.reader : Legacy → Reader
  | .only_cross_correlations | .covariance_window | .flatsky_local | .flatsky_local_nonlocal
  | .flatsky_nonlocal => .int
  | .multipoles => .ints
  | _ => .floats

/-- `LegacyOption.replaced_by`, coffe.pyx:571-590. -/
def Legacy.names : Legacy → List Name
  | .only_cross_correlations => [.has_only_cross_correlations]
  | .covariance_z_mean => [.z_mean]
  | .covariance_deltaz => [.deltaz]
  | .covariance_fsky => [.fsky]
  | .covariance_pixelsize => [.pixelsize]
  | .covariance_zmin => [.z_min]
  | .covariance_zmax => [.z_max]
  | .covariance_window => [.has_binned_covariance]
  | .covariance_density => [.number_density1, .number_density2]
  | .multipoles => [.l]
  | .flatsky_local => [.has_flatsky_local]
  | .flatsky_local_nonlocal => [.has_flatsky_local_nonlocal]
  | .flatsky_nonlocal => [.has_flatsky_nonlocal]

/-- The options about one bias function, coffe.pyx:734-789: `read_…`, `input_…` (with the two columns of
the named file), the value itself, `…_redshifts` and `…_values`. -/
structure BiasOptions where
  read : Option Txt
  input : Option (List ℝ × List ℝ)
  value : Option Txt
  redshifts : Option Txt
  values : Option Txt

/-- The options of a settings file. -/
structure Config where
  opt : Name → Option Txt
  legacy : Legacy → Option Txt
  contributions : Option (List String)
  bias : BiasName → BiasOptions

/-- Assign the value that was read, or raise. -/
noncomputable def assign (n : Name) (v : Except Err PyVal) : Py Unit :=
  match v with
  | .ok v => setattr n v
  | .error e => Py.raise e

/-- One legacy option, coffe.pyx:592-618. -/
noncomputable def readLegacy (c : Config) (o : Legacy) : Py Unit :=
  match c.legacy o with
  | none => pure ()
  | some t => o.names.forM fun n => assign n (o.reader.read t)

/-- The mapping of contribution names, coffe.pyx:627-638. -/
def contributionNames : List (String × Name) :=
  [("den", .has_density), ("rsd", .has_rsd), ("len", .has_lensing), ("d1", .has_d1), ("d2", .has_d2),
   ("g1", .has_g1), ("g2", .has_g2), ("g3", .has_g3), ("g4", .has_g4), ("g5", .has_g5)]

/-- `correlation_contributions`, coffe.pyx:620-641. -/
noncomputable def readContributions (c : Config) : Py Unit :=
  match c.contributions with
  | none => pure ()
  | some l => contributionNames.forM fun kv =>
      if kv.1 ∈ l then setattr kv.2 (.bool true) else pure ()

/-- `if option in config: setattr(cosmo, option, config.get…(option))`. -/
noncomputable def readOption (c : Config) (read : Txt → Except Err PyVal) (n : Name) : Py Unit :=
  match c.opt n with
  | none => pure ()
  | some t => assign n (read t)

/-- `options_float_array`, coffe.pyx:643-654 (a Python set). -/
def floatArrayOptions : List Name :=
  [.sep, .z_mean, .deltaz, .z_min, .z_max, .mu, .number_density1, .number_density2, .pixelsize, .fsky]

/-- `options_float`, coffe.pyx:664-688 (a Python set), without the misspelt option. -/
def floatOptions : List Name :=
  [.omega_m, .omega_baryon, .omega_gamma, .w0, .wa, .h, .sigma8, .n_s, .T_cmb, .A_s, .k_per_decade_for_bao,
   .k_per_decade_for_pk, .l_max_g, .l_max_ur, .tol_perturb_integration,
   .radiation_streaming_trigger_tau_over_tau_k, .ur_fluid_trigger_tau_over_tau_k, .N_ur, .m_ncdm, .k_min,
   .k_max, .YHe]

/-- `options_int`, coffe.pyx:693-715 (a Python set). -/
def intOptions : List Name :=
  [.has_density, .has_lensing, .has_rsd, .has_d1, .has_d2, .has_g1, .has_g3, .has_g4, .has_g5,
   .integration_sampling, .background_sampling, .has_binned_covariance, .has_flatsky_local,
   .has_flatsky_nonlocal, .has_flatsky_local_nonlocal, .covariance_cosmic, .covariance_mixed,
   .covariance_poisson, .covariance_integration_sampling, .integrals_fftlog_sampling, .N_ncdm]

/-- `options_int_or_string`, coffe.pyx:720-725 (a Python set). -/
def choiceOptions : List Name :=
  [.covariance_integration_method, .pk_type, .covariance_interpolation_method, .integration_1d_type]

/-- The order in which the four sets are iterated over; it changes from one run of Python to the next. -/
structure SetOrder where
  floatArrays : List Name
  floats : List Name
  ints : List Name
  choices : List Name

/-- `np.linspace(0, 10, 100)`, coffe.pyx:752. -/
noncomputable def linspace100 : List ℝ := (List.range 100).map fun i : ℕ => (i : ℝ) * (10 / 99)

/-- One bias function, coffe.pyx:739-762 and 766-789. -/
noncomputable def readBias (c : Config) (n : BiasName) : Py Unit :=
  let b := c.bias n
  let rest : Py Unit :=
    if b.input.isSome then
      match b.value with
      | none => Py.raise .typeError
      | some t => match t.getfloat with
        | .ok (.float x) => setBias n linspace100 (List.replicate 100 x)
        | .ok _ => Py.raise .typeError
        | .error e => Py.raise e
    else
      match b.redshifts, b.values with
      | some x, some y => match x.getfloatArray, y.getfloatArray with
        | .ok x, .ok y => setBias n x y
        | .error e, _ => Py.raise e
        | _, .error e => Py.raise e
      | _, _ => pure ()
  match b.read with
  | none => rest
  | some t => match t.getint with
    | .error e => Py.raise e
    | .ok (.int 1) => match b.input with
      | none => Py.raise .attributeError
      | some (x, y) => setBias n x y
    | .ok _ => rest

/-- The bias functions in the order of coffe.pyx:735-789. -/
def BiasName.order : List BiasName :=
  [.galaxy1, .galaxy2, .magnification1, .magnification2, .evolution1, .evolution2, .galaxy3, .galaxy4]

/-- The statements of `from_file` after the new object has been made, coffe.pyx:567-789. -/
noncomputable def readConfig (o : SetOrder) (c : Config) : Py Unit := do
  Legacy.all.forM (readLegacy c)
  readContributions c
  o.floatArrays.forM (readOption c fun t => t.getfloatArray.map .floats)
  [Name.l].forM (readOption c Txt.getintArray)
  o.floats.forM (readOption c Txt.getfloat)
  o.ints.forM (readOption c Txt.getint)
  o.choices.forM (readOption c Txt.getintOrStr)
  BiasName.order.forM (readBias c)

/-- `Coffe.from_file`, coffe.pyx:536-791. -/
noncomputable def fromFile (o : SetOrder) (c : Config) : Except Err PyObj :=
  match readConfig o c (fresh PyPar.default) with
  | (.ok _, t) => .ok t
  | (.error e, _) => .error e

/-- The samples of one bias function. -/
def Biases.get (b : Biases) : BiasName → Samples
  | .galaxy1 => b.galaxy1
  | .galaxy2 => b.galaxy2
  | .galaxy3 => b.galaxy3
  | .galaxy4 => b.galaxy4
  | .magnification1 => b.magnification1
  | .magnification2 => b.magnification2
  | .evolution1 => b.evolution1
  | .evolution2 => b.evolution2

/-- `np.linspace(a, b, n)` for at least two points. -/
noncomputable def linspace (a b : ℝ) (n : ℕ) : List ℝ :=
  (List.range n).map fun i : ℕ => a + i * ((b - a) / (n - 1))

/-- `galaxy_bias1_redshifts` and its seven siblings, coffe.pyx:846-941 (with `get_spline_size`,
`get_spline_min` and `get_spline_max`, coffe.pyx:120-138): as many redshifts as there are samples, evenly
spaced. -/
noncomputable def biasRedshifts (l : Samples) : List ℝ :=
  match l.head?, l.getLast? with
  | some a, some b => linspace a.1 b.1 l.length
  | _, _ => []

/-- `galaxy_bias1_values` and its seven siblings, coffe.pyx:854-945: the spline at these redshifts. -/
noncomputable def biasValues (N : Num) (l : Samples) : List ℝ := (biasRedshifts l).map (N.akima l)

/-- The file written from a dictionary of parameters and the biases, coffe.pyx:803-843. -/
noncomputable def writeConfig (N : Num) (ps : List (Name × PyVal)) (b : Biases) : Config where
  opt n := (ps.lookup n).map PyVal.text
  legacy _ := none
  contributions := none
  bias n := ⟨none, none, none, some (.floats (biasRedshifts (b.get n))), some (.floats (biasValues N (b.get n)))⟩

/-- `to_file`, coffe.pyx:794-843. -/
noncomputable def toFile (N : Num) : Py Config := do
  let ps ← parameters
  let s ← Py.get
  pure (writeConfig N ps s.par.bias)

end Coffe
