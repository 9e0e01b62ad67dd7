import Verif.Model.Signal.Types
import Mathlib.Data.Fintype.Basic
import Mathlib.Algebra.BigOperators.Group.Finset.Basic

/-!
# Specification vocabulary: effects and pairs of effects

An *effect* is one of the ten contributions a user can switch on.  The two-point signal is meant to
be a sum over unordered pairs of active effects.
-/

namespace Coffe

/-- The ten effects (`has_density`, `has_rsd`, `has_lensing`, `has_d1`, … of the Python API). -/
inductive Effect where
  | den | rsd | len | d1 | d2 | g1 | g2 | g3 | g4 | g5
deriving DecidableEq, Repr

instance : Fintype Effect where
  elems := {.den, .rsd, .len, .d1, .d2, .g1, .g2, .g3, .g4, .g5}
  complete := by intro x; cases x <;> decide

/-- Position in a fixed enumeration, used only to list each unordered pair once. -/
def Effect.rank : Effect → ℕ
  | .den => 0 | .rsd => 1 | .d1 => 2 | .d2 => 3 | .g1 => 4 | .g2 => 5 | .g3 => 6
  | .len => 7 | .g4 => 8 | .g5 => 9

/-- Effects without / with a line-of-sight integral. -/
def Effect.isLocal : Effect → Bool
  | .len | .g4 | .g5 => false
  | _ => true

/-- Is the effect switched on? -/
def Contrib.has (c : Contrib) : Effect → Bool
  | .den => c.den | .rsd => c.rsd | .len => c.len | .d1 => c.d1 | .d2 => c.d2
  | .g1 => c.g1 | .g2 => c.g2 | .g3 => c.g3 | .g4 => c.g4 | .g5 => c.g5

/-- The set of effects given by a predicate. -/
def Contrib.ofFun (p : Effect → Bool) : Contrib :=
  { den := p .den, rsd := p .rsd, len := p .len, d1 := p .d1, d2 := p .d2,
    g1 := p .g1, g2 := p .g2, g3 := p .g3, g4 := p .g4, g5 := p .g5 }

/-- Settings with exactly one effect switched on, auto-correlation kept. -/
abbrev Par.auto (par : Par) (e : Effect) : Par :=
  { par with correlation_contrib := .ofFun (fun x => x = e), only_cross_correlations := false }

/-- Settings with exactly the effects `a`, `b` switched on and their auto-correlations removed. -/
abbrev Par.cross (par : Par) (a b : Effect) : Par :=
  { par with correlation_contrib := .ofFun (fun x => x = a || x = b),
             only_cross_correlations := true }

/-- What "the signal is a sum over unordered pairs of active effects" means for a quantity `F`
computed from the settings: autos (unless only cross-correlations are wanted) plus crosses. -/
def SumsOverPairs (F : Par → ℝ) (par : Par) : Prop :=
  F par =
    (∑ e : Effect, if par.correlation_contrib.has e ∧ ¬ par.only_cross_correlations
      then F (par.auto e) else 0)
    + ∑ a : Effect, ∑ b : Effect,
        if a.rank < b.rank ∧ par.correlation_contrib.has a ∧ par.correlation_contrib.has b
        then F (par.cross a b) else 0

end Coffe
