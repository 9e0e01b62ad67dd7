import Verif.Model.Python.File
import Verif.Model.C.Main

/-!
# The command line of the Python package

Model of python/coffe/__main__.py.  `argparse` is taken as it is documented: all three options are required and the kind is
one of the six names, so a run has a settings file, an output file and a kind.
-/

namespace Coffe
open Classical

/-- The choices of `--kind`, __main__.py:42-49. -/
inductive OutKind where
  | bg
  | cf
  | mp
  | cov
  | avg_cov
  | avg_mp
deriving DecidableEq, Repr

/-- The numerical back end with the two splines of `coffe_background_t` that the signal does not use. -/
structure CliNum where
  num : Num
  Hz : BgView → ℝ → ℝ
  conformal_Hz_prime : BgView → ℝ → ℝ

/-- A conversion of `np.savetxt`: `"%.10e"` or `"%d"`. -/
inductive Conversion where
  | e10
  | d
deriving DecidableEq, Repr

/-- `"%d" % x` for a floating point number: its whole part. -/
noncomputable def fmt_d (x : ℝ) : Text :=
  if x < 0 ∧ ⌊|x|⌋₊ ≠ 0 then '-' :: int_text ⌊|x|⌋₊ else int_text ⌊|x|⌋₊

/-- One number. -/
noncomputable def Conversion.text (R : Rounding) : Conversion → ℝ → Text
  | .e10 => fmt R 10
  | .d => fmt_d

/-- `sep.join(l)`. -/
def join (sep : Text) : List Text → Text
  | [] => []
  | [x] => x
  | x :: y :: l => x ++ sep ++ join sep (y :: l)

/-- The format of `np.savetxt`: one conversion for all columns or a list of conversions. -/
inductive SaveFmt where
  | one (c : Conversion)
  | many (l : List Conversion)

/-- The number of columns of `np.array(rows)`: an empty list becomes an array with one column. -/
def arrayColumns : List (List ℝ) → ℕ
  | [] => 1
  | row :: _ => row.length

/-- `np.savetxt(output, rows, header="\t".join(names), fmt=…, delimiter="\t")`: the file is opened, and emptied, first; then
the number of conversions is compared with the number of columns; then the header is written behind `"# "`, then the rows.
The first component is the outcome, the second one the file. -/
noncomputable def savetxt (R : Rounding) (names : List String) (f : SaveFmt) (rows : List (List ℝ)) :
    Except Err Unit × Option Text :=
  let body : List Conversion → Text := fun cs =>
    rows.flatMap fun row => join ['\t'] (List.zipWith (Conversion.text R) cs row) ++ ['\n']
  let head : Text := "# ".toList ++ join ['\t'] (names.map String.toList) ++ ['\n']
  match f with
  | .one c => (.ok (), some (head ++ body (List.replicate (arrayColumns rows) c)))
  | .many l => if l.length = arrayColumns rows then (.ok (), some (head ++ body l)) else (.error .attributeError, some [])

/-- The eight numbers at one redshift, __main__.py:69-78; the methods are those of coffe.pyx:2998-3156. -/
noncomputable def backgroundRow (M : CliNum) (v : BgView) (z : ℝ) : Py (List ℝ) := do
  let a ← backgroundAt M.num (fun b z => b.a z) z
  let H ← backgroundAt M.num (fun _ z => M.Hz v z) z
  let cH ← backgroundAt M.num (fun b z => b.conformal_Hz z) z
  let cHp ← backgroundAt M.num (fun _ z => M.conformal_Hz_prime v z) z
  let D1 ← backgroundAt M.num (fun b z => b.D1 z) z
  let f ← backgroundAt M.num (fun b z => b.f z) z
  let chi ← backgroundAt M.num (fun b z => b.comoving_distance z) z
  let real : Out → ℝ := fun o => match o with
    | .real x => x
    | _ => 0
  pure [z, real a, real H, real cH, real cHp, real D1, real f, real chi]

/-- One row after the other. -/
noncomputable def eachRow (f : ℝ → Py (List ℝ)) : List ℝ → Py (List (List ℝ))
  | [] => pure []
  | z :: zs => do
    let x ← f z
    let xs ← eachRow f zs
    pure (x :: xs)

/-- The rows of the background table, __main__.py:64-82; the splines are those made from the parameters of the object. -/
noncomputable def backgroundRows (M : CliNum) : Py (List (List ℝ)) := do
  backgroundInit M.num
  let s ← Py.get
  eachRow (backgroundRow M s.par.bgView) (linspace 0 15 s.par.background_bins.toNat)

/-- The names of the columns, __main__.py:87-98, 107, 116, 125, 135-137, 148-158. -/
def OutKind.names : OutKind → List String
  | .bg => ["1)z", "2)a", "3)H[1/Mpc]", "4)conformal_H[1/Mpc]", "5)conformal_H_prime[1/Mpc^2]", "6)D1", "7)f",
      "8)comoving_distance[Mpc]"]
  | .cf => ["r[Mpc]", "mu", "z", "corrfunc_value"]
  | .mp => ["r[Mpc]", "l", "z", "multipoles_value"]
  | .avg_mp => ["r[Mpc]", "l", "z_min", "z_max", "avg_multipoles_value"]
  | .cov => ["r1[Mpc]", "r2[Mpc]", "l1", "l2", "z", "covariance_multipoles_value"]
  | .avg_cov => ["r1[Mpc]", "r2[Mpc]", "l1", "l2", "z_min", "z_max", "covariance_avg_multipoles_value"]

/-- The formats, __main__.py:57-61, 117, 126, 138, 159. -/
def OutKind.format : OutKind → SaveFmt
  | .bg => .one .e10
  | .cf => .one .e10
  | .mp => .many [.e10, .d, .e10, .e10]
  | .avg_mp => .many [.e10, .d, .e10, .e10, .e10]
  | .cov => .many [.e10, .e10, .d, .d, .e10, .e10]
  | .avg_cov => .many [.e10, .e10, .d, .d, .e10, .e10, .e10]

/-- The rows made from a list of results, __main__.py:106, 115, 124, 134, 145-147. -/
def Out.rows : Out → List (List ℝ)
  | .corrfunc l => l.map fun x => [x.r, x.mu, x.z, x.value]
  | .multipoles l => l.map fun x => [x.r, x.l, x.z, x.value]
  | .average l => l.map fun x => [x.r, x.l, x.z_min, x.z_max, x.value]
  | .covariance l => l.map fun x => [x.r1, x.r2, x.l1, x.l2, x.z, x.value]
  | .averageCovariance l => l.map fun x => [x.r1, x.r2, x.l1, x.l2, x.z_min, x.z_max, x.value]
  | _ => []

/-- The calculation of one kind, __main__.py:63-82, 103, 112, 121, 131, 142. -/
noncomputable def OutKind.rows (M : CliNum) : OutKind → Py (List (List ℝ))
  | .bg => backgroundRows M
  | .cf => do let o ← computeBulk M.num false .corrfunc; pure o.rows
  | .mp => do let o ← computeBulk M.num false .multipoles; pure o.rows
  | .avg_mp => do let o ← computeBulk M.num false .average; pure o.rows
  | .cov => do let o ← computeBulk M.num false .covariance; pure o.rows
  | .avg_cov => do let o ← computeBulk M.num false .averageCovariance; pure o.rows

/-- `compute_output`, __main__.py:54-161: the outcome and the output file, `old` being what it was before. -/
noncomputable def compute_output (M : CliNum) (R : Rounding) (o : SetOrder) (c : Config) (k : OutKind)
    (old : Option Text) : Except Err Unit × Option Text :=
  match fromFile o c with
  | .error e => (.error e, old)
  | .ok s =>
    match k.rows M s with
    | (.error e, _) => (.error e, old)
    | (.ok rows, _) => savetxt R k.names k.format rows

end Coffe
