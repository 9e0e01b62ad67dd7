import Verif.Model.Python.CommandLine
import Verif.Spec.Text

/-! # Specification: the file written by the command line of the Python package -/

namespace Coffe

/-- A number in a table: a real number or a whole one. -/
inductive Cell where
  | real (x : ℝ)
  | whole (n : ℕ)

/-- The text stands for the number: a real number is off by at most half a unit of the eleventh digit, a whole number is
given by its digits. -/
def Cell.Shown (t : Text) : Cell → Prop
  | .real x => |atof t - x| ≤ 1 / 2 * 10 ^ (-10 : ℤ) * |x|
  | .whole n => t = Nat.toDigits 10 n

/-- The text is a table: a comment with the names of the columns, then one line for every record, and what stands below a
name is the number that the record has under this name.  Names and numbers are separated by tabs. -/
def IsTable (T : Text) (names : List String) (records : List (List (String × Cell))) : Prop :=
  ∃ head lines, T = ofLines (('#' :: ' ' :: head) :: lines) ∧ '\n' ∉ head ∧
    head.splitOn '\t' = names.map String.toList ∧
    List.Forall₂ (fun record line => '\n' ∉ line ∧ record.map Prod.fst = names ∧
      List.Forall₂ (fun cell t => cell.Shown t) (record.map Prod.snd) (line.splitOn '\t')) records lines

/-- A value of the correlation function. -/
def CfRow.record (x : CfRow) : List (String × Cell) :=
  [("r[Mpc]", .real x.r), ("mu", .real x.mu), ("z", .real x.z), ("corrfunc_value", .real x.value)]

/-- A multipole. -/
def MpRow.record (x : MpRow) : List (String × Cell) :=
  [("r[Mpc]", .real x.r), ("l", .whole x.l), ("z", .real x.z), ("multipoles_value", .real x.value)]

/-- A redshift averaged multipole. -/
def AmpRow.record (x : AmpRow) : List (String × Cell) :=
  [("r[Mpc]", .real x.r), ("l", .whole x.l), ("z_min", .real x.z_min), ("z_max", .real x.z_max),
    ("avg_multipoles_value", .real x.value)]

/-- A covariance. -/
def CovRow.record (x : CovRow) : List (String × Cell) :=
  [("r1[Mpc]", .real x.r1), ("r2[Mpc]", .real x.r2), ("l1", .whole x.l1), ("l2", .whole x.l2), ("z", .real x.z),
    ("covariance_multipoles_value", .real x.value)]

/-- A covariance of redshift averaged multipoles. -/
def AcovRow.record (x : AcovRow) : List (String × Cell) :=
  [("r1[Mpc]", .real x.r1), ("r2[Mpc]", .real x.r2), ("l1", .whole x.l1), ("l2", .whole x.l2),
    ("z_min", .real x.z_min), ("z_max", .real x.z_max), ("covariance_avg_multipoles_value", .real x.value)]

/-- The background at one redshift. -/
def Bg.record (b : Bg) (H H' : ℝ → ℝ) (z : ℝ) : List (String × Cell) :=
  [("1)z", .real z), ("2)a", .real (b.a z)), ("3)H[1/Mpc]", .real (H z)),
    ("4)conformal_H[1/Mpc]", .real (b.conformal_Hz z)), ("5)conformal_H_prime[1/Mpc^2]", .real (H' z)),
    ("6)D1", .real (b.D1 z)), ("7)f", .real (b.f z)), ("8)comoving_distance[Mpc]", .real (b.comoving_distance z))]

/-- What the object loaded from the settings file gives for a kind of output: the results of the matching calculation, or
the background at evenly spaced redshifts from 0 to 15. -/
def OutKind.Gives (M : CliNum) (s : PyObj) : OutKind → List (List (String × Cell)) → Prop
  | .bg, r => ∃ b t, backgroundInit M.num s = (.ok (), t) ∧ t.bg = some b ∧ r =
      (linspace 0 15 s.par.background_bins.toNat).map (b.record (M.Hz s.par.bgView) (M.conformal_Hz_prime s.par.bgView))
  | .cf, r => ∃ l t, computeBulk M.num false .corrfunc s = (.ok (.corrfunc l), t) ∧ r = l.map CfRow.record
  | .mp, r => ∃ l t, computeBulk M.num false .multipoles s = (.ok (.multipoles l), t) ∧ r = l.map MpRow.record
  | .avg_mp, r => ∃ l t, computeBulk M.num false .average s = (.ok (.average l), t) ∧ r = l.map AmpRow.record
  | .cov, r => ∃ l t, computeBulk M.num false .covariance s = (.ok (.covariance l), t) ∧ r = l.map CovRow.record
  | .avg_cov, r => ∃ l t, computeBulk M.num false .averageCovariance s = (.ok (.averageCovariance l), t) ∧
      r = l.map AcovRow.record

end Coffe
