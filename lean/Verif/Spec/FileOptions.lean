import Verif.Spec.File

/-! # Specification of what a settings file says about each parameter -/

namespace Coffe

/-- The Python values a text can stand for. -/
def Txt.Spells : Txt → PyVal → Prop
  | .int n, v => v = .int n ∨ v = .float n ∨ v = .ints [n] ∨ v = .floats [(n : ℝ)]
  | .float x, v => v = .float x ∨ v = .floats [x]
  | .ints l, v => l ≠ [] ∧ (v = .ints l ∨ v = .floats (l.map fun n : ℤ => (n : ℝ)))
  | .floats l, v => l ≠ [] ∧ v = .floats l
  | .str s, v => v = .str s

/-- The Python values a text can stand for as the value of a parameter: that of a switch is a number. -/
def Txt.SpellsFor (x : Txt) (n : Name) (w : PyVal) : Prop := x.Spells w ∧ (n.doc = .flag → ∃ k, w = .int k)

/-- The name of a parameter in settings files of older versions. -/
def Name.old : Name → Option Legacy
  | .has_only_cross_correlations => some .only_cross_correlations
  | .z_mean => some .covariance_z_mean
  | .deltaz => some .covariance_deltaz
  | .fsky => some .covariance_fsky
  | .pixelsize => some .covariance_pixelsize
  | .z_min => some .covariance_zmin
  | .z_max => some .covariance_zmax
  | .has_binned_covariance => some .covariance_window
  | .number_density1 => some .covariance_density
  | .number_density2 => some .covariance_density
  | .l => some .multipoles
  | .has_flatsky_local => some .flatsky_local
  | .has_flatsky_local_nonlocal => some .flatsky_local_nonlocal
  | .has_flatsky_nonlocal => some .flatsky_nonlocal
  | _ => none

/-- The name of an effect in the old list of contributions. -/
def Name.effect : Name → Option String
  | .has_density => some "den"
  | .has_rsd => some "rsd"
  | .has_lensing => some "len"
  | .has_d1 => some "d1"
  | .has_d2 => some "d2"
  | .has_g1 => some "g1"
  | .has_g2 => some "g2"
  | .has_g3 => some "g3"
  | .has_g4 => some "g4"
  | .has_g5 => some "g5"
  | _ => none

/-- The text a settings file gives for a parameter under its old name. -/
def Config.oldText (c : Config) (n : Name) : Option Txt := n.old.bind c.legacy

/-- The parameter is an effect in the old list of contributions of the file. -/
def Config.Lists (c : Config) (n : Name) : Prop := ∃ l e, c.contributions = some l ∧ n.effect = some e ∧ e ∈ l

open Classical in
/-- A parameter whose text in the file is `x`, or that is only in the old list of contributions, or not in the
file at all, has the value it should have. -/
def Config.Gives (c : Config) (n : Name) (v : PyVal) : Option Txt → Prop
  | some x => ∃ w, x.SpellsFor n w ∧ n.doc.Accepted w (getattr PyPar.default n) v
  | none => v = if c.Lists n then .bool true else getattr PyPar.default n

/-- Parameters whose own name in a settings file is not looked at. -/
def Name.Ignored (n : Name) : Prop :=
  n ∈ [.has_g2, .has_only_cross_correlations, .verbose, .integration_1d_prec, .covariance_populations,
    .start_large_k_at_tau_h_over_tau_k, .omega_cdm]

/-- What a settings file says about a bias function: a file to read, one value, or lists of redshifts and values. -/
inductive BiasOptions.Says (b : BiasOptions) : Samples → Prop where
  | file (x y : List ℝ) : b.read = some (.int 1) → b.input = some (x, y) → b.Says (x.zip y)
  | value (t : Txt) (x : ℝ) : b.read ≠ some (.int 1) → b.value = some t → t.Spells (.float x) →
      b.Says ((linspace 0 10 100).map fun z => (z, x))
  | lists (s t : Txt) (x y : List ℝ) : b.read ≠ some (.int 1) → b.redshifts = some s → b.values = some t →
      s.Spells (.floats x) → t.Spells (.floats y) → b.Says (x.zip y)

/-- A file without any options. -/
def Config.empty : Config where
  opt _ := none
  legacy _ := none
  contributions := none
  bias _ := ⟨none, none, none, none, none⟩

end Coffe
