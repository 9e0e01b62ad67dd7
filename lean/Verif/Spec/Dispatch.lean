import Verif.Model.Signal.Dispatch
import Verif.Spec.Contributions

/-!
# Specification of one value of the signal: everything integrated, nothing skipped

`fullSignal` integrates the three integrands unconditionally and adds the two closed flat-sky
multipole formulas where the flat-sky switches ask for them.  No gate on the set of contributions
appears, except that a flat-sky formula belongs to a pair of effects and is added when that pair is
active.
-/

namespace Coffe
open Classical

/-- A quadrature rule that gives zero for the zero function. -/
structure Quad.Zero (Q : Quad) : Prop where
  one : Q.one (fun _ => 0) = 0
  multi : ∀ n, Q.multi n (fun _ => 0) = 0

/-- A quadrature rule that is additive in the integrand (any fixed-node rule is). -/
structure Quad.Additive (Q : Quad) : Prop where
  one : ∀ f g : ℝ → ℝ, Q.one (f + g) = Q.one f + Q.one g
  multi : ∀ n (f g : (ℕ → ℝ) → ℝ), Q.multi n (f + g) = Q.multi n f + Q.multi n g

/-- Flat-sky density-lensing multipole, present iff both effects are active and the flat-sky
approximation was requested for local-nonlocal pairs. -/
noncomputable def flatDenLen (par : Par) (bg : Bg) (I : Ints) (z sep : ℝ) (l : ℕ) : ℝ :=
  if par.correlation_contrib.den ∧ par.correlation_contrib.len ∧ par.flatsky_local_nonlocal then
    2 * Real.pi * Real.pi * flatsky_den_len_multipoles par bg I z sep l
  else 0

/-- Flat-sky lensing-lensing multipole (an auto-correlation; odd multipoles vanish in flat sky). -/
noncomputable def flatLenLen (Q : Quad) (par : Par) (bg : Bg) (I : Ints) (z sep : ℝ) (l : ℕ) : ℝ :=
  if par.correlation_contrib.len ∧ ¬ par.only_cross_correlations ∧ par.flatsky_nonlocal
      ∧ l % 2 = 0 then
    2 * Real.pi * Real.pi * Q.one (fun x => flatsky_len_len_multipoles par bg I z sep l x)
  else 0

/-- The complete signal, without any "do we need it" test. -/
noncomputable def fullSignal (Q : Quad) (par : Par) (bg : Bg) (I : Ints)
    (z zmin zmax sep mu : ℝ) (l : ℕ) : OutputType → ℝ
  | .CORRFUNC =>
      functions_nonintegrated par bg I z mu sep
      + Q.one (fun x => functions_single_integrated par bg I z mu sep x)
      + Q.multi 2 (fun v => functions_double_integrated par bg I z mu sep (v 0) (v 1))
  | .MULTIPOLES =>
      (2 * l + 1) * Q.one (fun x =>
        functions_nonintegrated par bg I z (2 * x - 1) sep * legWeight l (2 * x - 1))
      + (2 * l + 1) * Q.multi 2 (fun v =>
          functions_single_integrated par bg I z (2 * v 0 - 1) sep (v 1) * legWeight l (2 * v 0 - 1))
      + (2 * l + 1) * Q.multi 3 (fun v =>
          functions_double_integrated par bg I z (2 * v 0 - 1) sep (v 1) (v 2)
            * legWeight l (2 * v 0 - 1))
      + flatDenLen par bg I z sep l + flatLenLen Q par bg I z sep l
  | .AVERAGE_MULTIPOLES =>
      (2 * l + 1) * Q.multi 2 (fun v =>
        functions_nonintegrated par bg I (average_z bg zmin zmax sep (v 0)) (2 * v 1 - 1) sep
          * legWeight l (2 * v 1 - 1) * average_weight par bg (average_z bg zmin zmax sep (v 0)))
      + (2 * l + 1) * Q.multi 3 (fun v =>
        functions_single_integrated par bg I (average_z bg zmin zmax sep (v 0)) (2 * v 1 - 1) sep (v 2)
          * legWeight l (2 * v 1 - 1) * average_weight par bg (average_z bg zmin zmax sep (v 0)))
      + (2 * l + 1) * Q.multi 4 (fun v =>
        functions_double_integrated par bg I (average_z bg zmin zmax sep (v 0)) (2 * v 1 - 1) sep
            (v 2) (v 3)
          * legWeight l (2 * v 1 - 1) * average_weight par bg (average_z bg zmin zmax sep (v 0)))
  | _ => 0

end Coffe
