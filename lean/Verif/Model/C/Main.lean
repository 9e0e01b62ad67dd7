import Verif.Model.C.Grid
import Verif.Model.C.Covariance
import Verif.Model.C.Background
import Verif.Model.C.Parser

/-!
# The program: its stages and what it writes

src/main.c and src/output.c, built without `HAVE_INTEGRALS`.  The stages between the parser and the output are
parameters; `Model/C/Background.lean`, `Model/C/Grid.lean` and `Model/C/Covariance.lean` have their models.  What is
printed to the terminal and the release of memory at the end are left out.
-/

namespace Coffe
open Classical

/-! ## The operating system -/

/-- A path without `..`: whether it starts at the root, and the names on the way. -/
abbrev Path := Bool × List Text

/-- The names between slashes; empty names and `.` do not count. -/
def components (s : Text) : List Text := (s.splitOnP (· = '/')).filter fun t => !t.isEmpty && t ≠ ['.']

/-- The path that a string stands for. -/
def path_of (s : Text) : Path := (s.head? = some '/', components s)

/-- A file system: directories, files with their contents, and where the program may create or write. -/
structure Disk where
  dir : Path → Bool
  file : Path → Option Text
  may : Path → Bool

/-- `stat(s) == 0`. -/
def Disk.stat (d : Disk) (s : Text) : Bool :=
  s ≠ [] && (d.dir (path_of s) || ((d.file (path_of s)).isSome && s.getLast? ≠ some '/'))

/-- The directory that holds a path is there. -/
def Disk.parent (d : Disk) (q : Path) : Bool := q.2 ≠ [] && d.dir (q.1, q.2.dropLast)

/-- `mkdir(s, 0700)` after `stat(s) == -1`. -/
noncomputable def Disk.mkdir (d : Disk) (s : Text) : Option Disk :=
  if s ≠ [] ∧ d.parent (path_of s) ∧ (d.file (path_of s)).isNone ∧ d.may (path_of s) then
    some { d with dir := Function.update d.dir (path_of s) true }
  else none

/-- `fopen(s, "w")` or `fopen(s, "a")` gives a stream. -/
def Disk.opens (d : Disk) (s : Text) : Prop :=
  s.getLast? ≠ some '/' ∧ d.parent (path_of s) ∧ d.dir (path_of s) = false ∧ d.may (path_of s)

/-- The contents of a file become `t`. -/
noncomputable def Disk.put (d : Disk) (q : Path) (t : Text) : Disk :=
  { d with file := Function.update d.file q (some t) }

/-- The stages of the main sequence. -/
inductive Stage where
  | parser
  | background
  | integrals
  | corrfunc
  | multipoles
  | average_multipoles
  | covariance
  | output
deriving DecidableEq, Repr

/-- What a run changes: the file system, and the list of the stages it has started. -/
structure RunState where
  disk : Disk
  log : List Stage

/-- A part of the program: it ends with a result or a failure, and leaves the world in some state either way. -/
def Prog (α : Type) : Type := RunState → CRes α × RunState

namespace Prog

/-- Sequencing. -/
instance : Monad Prog where
  pure a := fun w => (.ok a, w)
  bind m f := fun w =>
    match m w with
    | (.ok a, w') => f a w'
    | (.error e, w') => (.error e, w')

/-- A computation that does not touch the world. -/
def lift {α : Type} (r : CRes α) : Prog α := fun w => (r, w)

/-- Read the file system. -/
def disk : Prog Disk := fun w => (.ok w.disk, w)

/-- Replace the file system. -/
def setDisk (d : Disk) : Prog Unit := fun w => (.ok (), { w with disk := d })

/-- Start a stage. -/
def start (s : Stage) : Prog Unit := fun w => (.ok (), { w with log := w.log ++ [s] })

end Prog

/-- `fopen(s, "w")`: `NULL` or an empty file. -/
noncomputable def fopen_w (s : Text) : Prog (Option Path) := do
  let d ← Prog.disk
  if d.opens s then do
    Prog.setDisk (d.put (path_of s) [])
    pure (some (path_of s))
  else pure none

/-- `fopen(s, "a")`: `NULL` or the file, which is created if it is missing. -/
noncomputable def fopen_a (s : Text) : Prog (Option Path) := do
  let d ← Prog.disk
  if d.opens s then do
    Prog.setDisk (d.put (path_of s) ((d.file (path_of s)).getD []))
    pure (some (path_of s))
  else pure none

/-- `fprintf(stream, …)`: appends; the stream is not checked. -/
noncomputable def fputs (stream : Option Path) (t : Text) : Prog Unit :=
  match stream with
  | none => Prog.lift (.error .null)
  | some q => do
    let d ← Prog.disk
    Prog.setDisk (d.put q ((d.file q).getD [] ++ t))

/-- `strncat(s, t, COFFE_MAX_STRLEN)` into an array of `COFFE_MAX_STRLEN` characters: the bound is the one of the
array, not of the space that is left. -/
def strncat (s t : Text) : CRes Text := if s.length + t.length < COFFE_MAX_STRLEN then .ok (s ++ t) else .error .oob

/-- `snprintf(s, COFFE_MAX_STRLEN, …)`. -/
def snprintf (t : Text) : Text := t.take (COFFE_MAX_STRLEN - 1)

/-- `%d` and `%zu` for numbers that are not negative. -/
def int_text (n : ℕ) : Text := Nat.toDigits 10 n

/-- `atoi`; numbers out of range are not covered. -/
def atoi (s : Text) : ℤ :=
  let t := sign_of (s.dropWhile isSpace)
  t.1 * (Nat.ofDigitChars 10 (digits t.2).1 0 : ℤ)

/-! ## Output -/

/-- `s[strlen(s) - 1] == '/'`. -/
def ends_slash (s : Text) : CRes Bool :=
  match s.getLast? with
  | none => .error .oob
  | some c => .ok (c = '/')

/-- The end of `output_make_path`: a slash is added unless there is one. -/
def add_slash (s : Text) : CRes Text := do
  let e ← ends_slash s
  if e then pure s else strncat s ['/']

/-- The loop of `output_make_path`, src/output.c:65-76: `none` if a directory cannot be made. -/
noncomputable def make_dirs : List Text → Text → Prog (Option Text)
  | [], temp_output => pure (some temp_output)
  | c :: cs, temp_output => do
    let s ← Prog.lift (strncat temp_output c)
    let d ← Prog.disk
    if d.stat s then do
      let s ← Prog.lift (strncat s ['/'])
      make_dirs cs s
    else
      match d.mkdir s with
      | none => pure none
      | some d' => do
        Prog.setDisk d'
        let s ← Prog.lift (strncat s ['/'])
        make_dirs cs s

/-- `output_make_path`, src/output.c:42-80: the new value of `par->output_path`. -/
noncomputable def output_make_path (path : Text) : Prog Text := do
  let d ← Prog.disk
  if d.stat path then Prog.lift (add_slash path)
  else do
    let r ← make_dirs ((path.splitOnP (· = '/')).filter fun t => !t.isEmpty) (if path.head? = some '/' then ['/'] else [])
    match r with
    | none => pure path
    | some s => Prog.lift (add_slash s)

/-- `output_correlation_contributions_header`, src/output.c:82-101. -/
def contributions_header (cc : Contrib) (header : Text) : CRes Text := do
  let add := fun (b : Bool) (s : String) (h : Text) => if b then strncat h s.toList else pure h
  let h ← add cc.den "den " header
  let h ← add cc.rsd "rsd " h
  let h ← add cc.d1 "d1 " h
  let h ← add cc.d2 "d2 " h
  let h ← add cc.g1 "g1 " h
  let h ← add cc.g2 "g2 " h
  let h ← add cc.g3 "g3 " h
  let h ← add cc.g4 "g4 " h
  let h ← add cc.g5 "g5 " h
  add cc.len "len " h

/-- The header of the result files, src/output.c:110-117, 143-150, 178-185.  It is used as a format; it has no `%`. -/
def result_header (cc : Contrib) (columns : String) : CRes Text := do
  let h ← contributions_header cc (snprintf "# correlation contributions: ".toList)
  let h ← strncat h ['\n']
  strncat h columns.toList

/-- An array of results: coordinates and values. -/
structure CArray (κ : Type) where
  coords : Buf ℕ κ
  value : Buf ℕ ℝ
  size : ℕ

/-- `{.array = NULL, .size = 0}`. -/
def CArray.empty {κ : Type} : CArray κ := ⟨cmalloc 0, cmalloc 0, 0⟩

/-- The loop over the results: one line each. -/
noncomputable def array_text {κ : Type} (row : κ → ℝ → Text) (a : CArray κ) : CRes Text :=
  cfor (upTo 0 a.size) (fun i data => do
    let c ← a.coords.load i
    let v ← a.value.load i
    pure (data ++ row c v ++ ['\n'])) []

/-- A space. -/
def sp : Text := [' ']

/-- `output_corrfunc`, src/output.c:104-134. -/
noncomputable def output_corrfunc (R : Rounding) (filepath : Text) (cc : Contrib) (cf : CArray CfCoord) : Prog Unit := do
  let header ← Prog.lift (result_header cc "# z_mean, sep, mu, value\n")
  let data ← fopen_a filepath
  fputs data header
  let t ← Prog.lift (array_text (fun c v =>
    fmt R 10 c.z ++ sp ++ fmt R 10 c.sep ++ sp ++ fmt R 10 c.mu ++ sp ++ fmt R 10 v) cf)
  fputs data t

/-- `output_multipoles`, src/output.c:137-168. -/
noncomputable def output_multipoles (R : Rounding) (filepath : Text) (cc : Contrib) (mp : CArray MpCoord) : Prog Unit := do
  let header ← Prog.lift (result_header cc "# z_mean, l, sep, value\n")
  let data ← fopen_a filepath
  fputs data header
  let t ← Prog.lift (array_text (fun c v =>
    fmt R 10 c.z ++ sp ++ int_text c.l ++ sp ++ fmt R 10 c.sep ++ sp ++ fmt R 10 v) mp)
  fputs data t

/-- `output_covariance`, src/output.c:171-203. -/
noncomputable def output_covariance (R : Rounding) (filepath : Text) (cc : Contrib) (cov : CArray CovCoord) :
    Prog Unit := do
  let output ← fopen_a filepath
  let header ← Prog.lift (result_header cc "# z_mean, l1, l2, sep1, sep2, value\n")
  fputs output header
  let t ← Prog.lift (array_text (fun c v => fmt R 10 c.z1 ++ sp ++ int_text c.l1 ++ sp ++ int_text c.l2 ++ sp ++
    fmt R 10 c.sep1 ++ sp ++ fmt R 10 c.sep2 ++ sp ++ fmt R 10 v) cov)
  fputs output t

/-- The covariance of redshift averaged multipoles, src/output.c:380-404. -/
noncomputable def output_average_covariance (R : Rounding) (filepath : Text) (cov : CArray CovCoord) : Prog Unit := do
  let output ← fopen_w filepath
  fputs output "# sep[Mpc/h]\tsep[Mpc/h]\tresult\n".toList
  let t ← Prog.lift (array_text (fun c v => fmt R 10 c.sep1 ++ sp ++ fmt R 10 c.sep2 ++ sp ++ int_text c.l1 ++ sp ++
    int_text c.l2 ++ sp ++ fmt R 10 c.z1 ++ sp ++ fmt R 10 c.z2 ++ sp ++ fmt R 10 v) cov)
  fputs output t

/-- The tables behind the background splines; all have the same length (`Model/C/Background.lean`). -/
structure BgTable where
  size : ℕ
  rows : Buf ℕ BgRow

/-- The column and the unit that belong to a name, src/output.c:223-291. -/
def bg_column_of (name : Text) : Option ((BgRow → ℝ) × Text) :=
  if name = "z".toList then some (BgRow.z, [])
  else if name = "a".toList then some (BgRow.a, [])
  else if name = "H".toList then some (BgRow.Hz, "[1/Mpc]".toList)
  else if name = "conformal_H".toList then some (BgRow.conformal_Hz, "[1/Mpc]".toList)
  else if name = "conformal_H_prime".toList then some (BgRow.conformal_Hz_prime, "[1/Mpc^2]".toList)
  else if name = "D1".toList then some (BgRow.D1, [])
  else if name = "f".toList then some (BgRow.f, [])
  else if name = "comoving_distance".toList then some (BgRow.comoving_distance, "[Mpc]".toList)
  else none

/-- A copy of a column, for instance src/output.c:224-227. -/
noncomputable def bg_copy (bg : BgTable) (g : BgRow → ℝ) : CRes (Buf ℕ ℝ) :=
  cfor (upTo 0 bg.size) (fun n b => do
    let r ← bg.rows.load n
    b.store n (g r)) (cmalloc bg.size)

/-- The loop over the names, src/output.c:217-293: the pointers and the header. -/
noncomputable def bg_outputs (bg : BgTable) (type_bg : List Text) : CRes (Buf ℕ (Option (Buf ℕ ℝ)) × Text) :=
  cfor (upTo 0 type_bg.length) (fun i s => do
    let name ← ld type_bg i
    match bg_column_of name with
    | none => pure s
    | some g => do
      let col ← bg_copy bg g.1
      let o ← s.1.store i (some col)
      let h ← strncat s.2 (snprintf (int_text (i + 1) ++ [')'] ++ name ++ g.2 ++ ['\t']))
      pure (o, h)) (Buf.of (· < 20) (fun _ => none), "# ".toList)

/-- `output_background`, src/output.c:210-321: a file that cannot be opened is passed over.  The conversion of a
negative `background_bins` is not covered. -/
noncomputable def output_background (R : Rounding) (filename : Text) (type_bg : List Text) (background_bins : ℤ)
    (bg : BgTable) : Prog Unit := do
  let o ← Prog.lift (bg_outputs bg type_bg)
  let header ← Prog.lift (strncat o.2 ['\n'])
  let args ← Prog.lift (collect (fun i => o.1.load i) (List.range 20))
  let t ← Prog.lift (write_ncol_null R args background_bins.toNat (some header) ['\t'])
  match t with
  | none => pure ()
  | some t => do
    let data ← fopen_w filename
    match data with
    | none => pure ()
    | some q => fputs (some q) t

/-- `coffe_parameters_t` after the parser: the settings, the time, and the settings as `config_write_file` shows them. -/
structure MainPar extends CPar where
  timestamp : Text
  conf : Option Text

/-- `config_write_file`: a file that cannot be opened is passed over. -/
noncomputable def config_write_file (conf : Text) (filepath : Text) : Prog Unit := do
  let data ← fopen_w filepath
  match data with
  | none => pure ()
  | some q => fputs (some q) conf

/-- `coffe_output_init`, src/output.c:323-404 and 584-597. -/
noncomputable def coffe_output_init (R : Rounding) (par : MainPar) (bg : BgTable) (cf : CArray CfCoord)
    (mp : CArray MpCoord) (_ramp : CArray AmpCoord) (cov_mp cov_ramp : CArray CovCoord) : Prog Unit := do
  let output_path ← output_make_path par.output_path
  let pre := if par.output_prefix = "$TIME".toList then snprintf (output_path ++ par.timestamp ++ ['_'])
    else snprintf (output_path ++ par.output_prefix)
  match par.conf with
  | none => pure ()
  | some conf => config_write_file conf (snprintf (pre ++ "settings.cfg".toList))
  output_background R (snprintf (pre ++ "background.dat".toList)) par.type_bg par.background_bins bg
  if par.output_type = CORRFUNC then
    output_corrfunc R (snprintf (pre ++ "corrfunc.dat".toList)) par.contrib cf
  else if par.output_type = MULTIPOLES then
    output_multipoles R (snprintf (pre ++ "multipoles.dat".toList)) par.contrib mp
  else if par.output_type = COVARIANCE_MULTIPOLES then
    output_covariance R (snprintf (pre ++ "covariance_multipoles.dat".toList)) par.contrib cov_mp
  else if par.output_type = COVARIANCE_AVERAGE_MULTIPOLES then
    output_average_covariance R (snprintf (pre ++ "covariance_average_multipoles.dat".toList)) cov_ramp
  else pure ()

/-! ## The main sequence -/

/-- What the program is linked with: the libraries, the clock, and its stages. -/
structure Lib (I : Type) where
  rounding : Rounding
  /-- `config_read_file` on the contents of a file -/
  read_conf : Text → Option Conf
  /-- `config_write_file` -/
  show_conf : Conf → Text
  have_class : Bool
  have_cuba : Bool
  window : ℝ → ℝ
  default_spectrum : Samples
  class_run : ClassRun
  /-- `coffe_get_time` -/
  time : Text
  max_threads : ℤ
  background : CPar → CRes BgTable
  integrals : CPar → BgTable → CRes I
  corrfunc : CPar → BgTable → Option I → CRes (CArray CfCoord)
  multipoles : CPar → BgTable → Option I → CRes (CArray MpCoord)
  average_multipoles : CPar → BgTable → Option I → CRes (CArray AmpCoord)
  covariance : CPar → BgTable → CRes (CArray CovCoord)

/-- The environment of the parser. -/
def Lib.env {I : Type} (L : Lib I) (d : Disk) : ParserEnv where
  file s := d.file (path_of s)
  have_class := L.have_class
  have_cuba := L.have_cuba
  window := L.window
  default_spectrum := L.default_spectrum

/-- `coffe_parser_init`, src/parser.c:1041-1697, with the reading of the file. -/
noncomputable def Lib.parser {I : Type} (L : Lib I) (filename : Text) (d : Disk) : CRes MainPar :=
  match (d.file (path_of filename)).bind L.read_conf with
  | none => .error .exit
  | some c => do
    let p ← coffe_parser_init (L.env d) L.class_run c
    pure { p with timestamp := L.time, conf := some (L.show_conf c) }

/-- An option that `getopt` returns. -/
inductive Opt where
  | h
  | v
  | C
  | s (arg : Text)
  | n (arg : Text)
  /-- unknown options and missing arguments -/
  | other

/-- The loop over the options, src/main.c:60-92: `none` if the program ends there. -/
def scan_options : List Opt → Option Text → Option Text → Option (Option Text × Option Text)
  | [], settings_opt, nthreads_opt => some (settings_opt, nthreads_opt)
  | .h :: _, _, _ => none
  | .v :: _, _, _ => none
  | .C :: _, _, _ => none
  | .s a :: l, _, nthreads_opt => scan_options l (some a) nthreads_opt
  | .n a :: l, settings_opt, _ => scan_options l settings_opt (some a)
  | .other :: l, settings_opt, nthreads_opt => scan_options l settings_opt nthreads_opt

/-- `strncpy(settings_file, settings_opt, COFFE_MAX_STRLEN)`: a longer name is not terminated. -/
def settings_name (s : Text) : CRes Text := if s.length < COFFE_MAX_STRLEN then .ok s else .error .oob

/-- A stage that runs only for some output types. -/
def stage_if {α : Type} (b : Prop) [Decidable b] (s : Stage) (r : CRes α) (otherwise : α) : Prog α :=
  if b then do
    Prog.start s
    Prog.lift r
  else pure otherwise

/-- The main sequence, src/main.c:121-172. -/
noncomputable def main_sequence {I : Type} (L : Lib I) (settings_file : Text) : Prog Unit := do
  Prog.start .parser
  let d ← Prog.disk
  let par ← Prog.lift (L.parser settings_file d)
  Prog.start .background
  let bg ← Prog.lift (L.background par.toCPar)
  let integral ← stage_if
    (par.output_type = CORRFUNC ∨ par.output_type = MULTIPOLES ∨ par.output_type = AVERAGE_MULTIPOLES)
    .integrals ((L.integrals par.toCPar bg).map some) none
  let cf ← stage_if (par.output_type = CORRFUNC) .corrfunc (L.corrfunc par.toCPar bg integral) CArray.empty
  let mp ← stage_if (par.output_type = MULTIPOLES) .multipoles (L.multipoles par.toCPar bg integral) CArray.empty
  let ramp ← stage_if (par.output_type = AVERAGE_MULTIPOLES) .average_multipoles
    (L.average_multipoles par.toCPar bg integral) CArray.empty
  let cov ← stage_if
    (par.output_type = COVARIANCE_MULTIPOLES ∨ par.output_type = COVARIANCE_AVERAGE_MULTIPOLES)
    .covariance (L.covariance par.toCPar bg) CArray.empty
  Prog.start .output
  coffe_output_init L.rounding par bg cf mp ramp
    (if par.output_type = COVARIANCE_MULTIPOLES then cov else CArray.empty)
    (if par.output_type = COVARIANCE_MULTIPOLES then CArray.empty else cov)

/-- `main`, src/main.c:44-194: success unless it fails. -/
noncomputable def main {I : Type} (L : Lib I) (opts : List Opt) : Prog Unit :=
  match scan_options opts none none with
  | none => pure ()
  | some (none, _) => pure ()
  | some (some settings_opt, nthreads_opt) => do
    let settings_file ← Prog.lift (settings_name settings_opt)
    let n : ℤ := match nthreads_opt with
      | some a => atoi a
      | none => L.max_threads
    if n ≤ 0 then Prog.lift (.error .exit) else main_sequence L settings_file

end Coffe
