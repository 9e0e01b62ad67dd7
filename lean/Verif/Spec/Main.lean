import Verif.Model.C.Main
import Verif.Spec.Text

/-! # Specification: a run of the program -/

namespace Coffe

/-- The stages a run goes through. -/
def stagesOf (output_type : ℤ) : List Stage :=
  if output_type = CORRFUNC then [.parser, .background, .integrals, .corrfunc, .output]
  else if output_type = MULTIPOLES then [.parser, .background, .integrals, .multipoles, .output]
  else if output_type = AVERAGE_MULTIPOLES then [.parser, .background, .integrals, .average_multipoles, .output]
  else if output_type = COVARIANCE_MULTIPOLES ∨ output_type = COVARIANCE_AVERAGE_MULTIPOLES then
    [.parser, .background, .covariance, .output]
  else [.parser, .background, .output]

/-- What a stage needs. -/
def Stage.needs : Stage → List Stage
  | .parser => []
  | .background => [.parser]
  | .integrals => [.parser, .background]
  | .corrfunc => [.parser, .background, .integrals]
  | .multipoles => [.parser, .background, .integrals]
  | .average_multipoles => [.parser, .background, .integrals]
  | .covariance => [.parser, .background]
  | .output => [.parser, .background]

/-- Whatever a stage needs comes before it. -/
def InOrder (l : List Stage) : Prop := ∀ pre s post, l = pre ++ s :: post → ∀ t ∈ s.needs, t ∈ pre

/-- The beginning of the names of the files: a time or the given prefix. -/
def MainPar.begins (p : MainPar) : Text :=
  if p.output_prefix = "$TIME".toList then p.timestamp ++ ['_'] else p.output_prefix

/-- A file in the output directory. -/
def MainPar.place (p : MainPar) (name : String) : Path :=
  ((path_of p.output_path).1, (path_of p.output_path).2 ++ [p.begins ++ name.toList])

/-- The output directory exists or can be made, and a file with the given name can be written there. -/
structure CanWrite (d : Disk) (p : MainPar) (names : List String) : Prop where
  path : p.output_path ≠ []
  fits : p.output_path.length + p.begins.length + 40 < COFFE_MAX_STRLEN
  plain : '/' ∉ p.begins
  root : ∀ b, d.dir (b, []) = true
  apart : ∀ q, d.dir q = true → d.file q = none
  way : ∀ l, l <+: (path_of p.output_path).2 →
    d.dir ((path_of p.output_path).1, l) = true ∨
      d.file ((path_of p.output_path).1, l) = none ∧ d.may ((path_of p.output_path).1, l) = true
  free : ∀ n ∈ names, d.dir (p.place n) = false ∧ d.may (p.place n) = true

/-- The names of the columns of the background file that the program knows. -/
def bgNames : List Text :=
  ["z", "a", "H", "conformal_H", "conformal_H_prime", "D1", "f", "comoving_distance"].map String.toList

/-- The quantity behind a name. -/
def bgValue (name : Text) (r : BgRow) : ℝ :=
  if name = "z".toList then r.z
  else if name = "a".toList then r.a
  else if name = "H".toList then r.Hz
  else if name = "conformal_H".toList then r.conformal_Hz
  else if name = "conformal_H_prime".toList then r.conformal_Hz_prime
  else if name = "D1".toList then r.D1
  else if name = "f".toList then r.f
  else r.comoving_distance

/-- The unit behind a name. -/
def bgUnit (name : Text) : Text :=
  if name = "H".toList ∨ name = "conformal_H".toList then "[1/Mpc]".toList
  else if name = "conformal_H_prime".toList then "[1/Mpc^2]".toList
  else if name = "comoving_distance".toList then "[Mpc]".toList
  else []

/-- The title of column `i`. -/
def bgTitle (i : ℕ) (name : Text) : Text := int_text (i + 1) ++ [')'] ++ name ++ bgUnit name ++ ['\t']

/-- The first line of the background file. -/
def bgHeader (names : List Text) : Text := "# ".toList ++ (names.zipIdx.flatMap fun p => bgTitle p.2 p.1)

/-- The same for names that may be unknown: they have no title. -/
def bgTitles (names : List Text) : Text :=
  "# ".toList ++ (names.zipIdx.flatMap fun p => if p.1 ∈ bgNames then bgTitle p.2 p.1 else [])

/-- The background file: one line for every redshift, one column for every name. -/
noncomputable def bgText (R : Rounding) (names : List Text) (n : ℕ) (row : ℕ → BgRow) : Text :=
  ofLines (bgHeader names ::
    (List.range n).map fun i => rowText (fmt R 10) ['\t'] (names.map fun name => bgValue name (row i)))

/-- The selected contributions by name. -/
def contribNames (c : Contrib) : List String :=
  (if c.den then ["den"] else []) ++ (if c.rsd then ["rsd"] else []) ++ (if c.d1 then ["d1"] else []) ++
  (if c.d2 then ["d2"] else []) ++ (if c.g1 then ["g1"] else []) ++ (if c.g2 then ["g2"] else []) ++
  (if c.g3 then ["g3"] else []) ++ (if c.g4 then ["g4"] else []) ++ (if c.g5 then ["g5"] else []) ++
  (if c.len then ["len"] else [])

/-- The first line of a result file. -/
def contribLine (c : Contrib) : Text :=
  "# correlation contributions: ".toList ++ (contribNames c).flatMap fun s => s.toList ++ [' ']

/-- A line of values between blanks. -/
def blankLine (l : List Text) : Text := [' '].intercalate l

/-- The array holds the given coordinates and values. -/
structure CArray.Holds {κ : Type} (a : CArray κ) (l : List (κ × ℝ)) : Prop where
  size : a.size = l.length
  coords : ∀ i (h : i < l.length), a.coords.load i = .ok l[i].1
  value : ∀ i (h : i < l.length), a.value.load i = .ok l[i].2

/-- The file of the correlation function. -/
noncomputable def corrfuncText (R : Rounding) (c : Contrib) (l : List (CfCoord × ℝ)) : Text :=
  ofLines (contribLine c :: "# z_mean, sep, mu, value".toList :: l.map fun x =>
    blankLine [fmt R 10 x.1.z, fmt R 10 x.1.sep, fmt R 10 x.1.mu, fmt R 10 x.2])

/-- The file of the multipoles. -/
noncomputable def multipolesText (R : Rounding) (c : Contrib) (l : List (MpCoord × ℝ)) : Text :=
  ofLines (contribLine c :: "# z_mean, l, sep, value".toList :: l.map fun x =>
    blankLine [fmt R 10 x.1.z, int_text x.1.l, fmt R 10 x.1.sep, fmt R 10 x.2])

/-- The file of the covariance of the multipoles. -/
noncomputable def covarianceText (R : Rounding) (c : Contrib) (l : List (CovCoord × ℝ)) : Text :=
  ofLines (contribLine c :: "# z_mean, l1, l2, sep1, sep2, value".toList :: l.map fun x =>
    blankLine [fmt R 10 x.1.z1, int_text x.1.l1, int_text x.1.l2, fmt R 10 x.1.sep1, fmt R 10 x.1.sep2, fmt R 10 x.2])

/-- The file of the covariance of the redshift averaged multipoles. -/
noncomputable def averageCovarianceText (R : Rounding) (l : List (CovCoord × ℝ)) : Text :=
  ofLines ("# sep[Mpc/h]\tsep[Mpc/h]\tresult".toList :: l.map fun x =>
    blankLine [fmt R 10 x.1.sep1, fmt R 10 x.1.sep2, int_text x.1.l1, int_text x.1.l2, fmt R 10 x.1.z1,
      fmt R 10 x.1.z2, fmt R 10 x.2])

/-- What a run has done to the files: the copy of the settings, the background, and the file `name`. -/
structure RunWrote (p : MainPar) (d d' : Disk) (settings background : Text) (result : Option (String × Text)) : Prop where
  copy : d'.file (p.place "settings.cfg") = some settings
  table : d'.file (p.place "background.dat") = some background
  main : ∀ x ∈ result, d'.file (p.place x.1) = some x.2
  others : ∀ q, q ≠ p.place "settings.cfg" → q ≠ p.place "background.dat" → (∀ x ∈ result, q ≠ p.place x.1) →
    d'.file q = d.file q

/-- A file that may be missing. -/
def Disk.contents (d : Disk) (q : Path) : Text := (d.file q).getD []

/-- The settings file named by one option. -/
def Opt.file : Opt → Option Text
  | .s a => some a
  | _ => none

/-- The number of threads given by one option. -/
def Opt.threads : Opt → Option Text
  | .n a => some a
  | _ => none

/-- The command line asks for a run with the given settings file and a positive number of threads: there is no
option that only prints something, the last `-s` names the file and the last `-n`, if any, gives the threads. -/
structure Asks {I : Type} (L : Lib I) (opts : List Opt) (settings : Text) : Prop where
  runs : ∀ o ∈ opts, o ≠ .h ∧ o ≠ .v ∧ o ≠ .C
  file : (opts.filterMap Opt.file).getLast? = some settings
  short : settings.length < COFFE_MAX_STRLEN
  threads : 0 < ((opts.filterMap Opt.threads).getLast?.elim L.max_threads atoi : ℤ)

/-- The background tables hold the given rows, and the settings ask for known columns, at least one and fewer than
twenty, whose titles fit. -/
structure BgReady (p : MainPar) (bg : BgTable) (row : ℕ → BgRow) : Prop where
  size : (bg.size : ℤ) = p.background_bins
  rows : ∀ i < bg.size, bg.rows.load i = .ok (row i)
  known : ∀ n ∈ p.type_bg, n ∈ bgNames
  some_ : p.type_bg ≠ []
  few : p.type_bg.length < 20
  fits : (bgHeader p.type_bg).length + 1 < COFFE_MAX_STRLEN

end Coffe
