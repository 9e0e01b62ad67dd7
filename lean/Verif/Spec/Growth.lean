import Verif.Model.C.Background
import Mathlib.Analysis.Calculus.Deriv.Basic

/-!
# The growth of matter perturbations, for C79

`a` is the scale factor, `H a` the expansion rate in units of today's, `D` the growth factor, `V` its derivative.
-/

namespace Coffe

/-- The second derivative of the growth factor: `D'' = -(3/a + H'/H) D' + (3/2) Ωm / (a⁵ H²) D`. -/
noncomputable def standardGrowth (Om : ℝ) (H : ℝ → ℝ) (a D V : ℝ) : ℝ :=
  -(3 / a + deriv H a / H a) * V + 3 / 2 * Om / (a ^ 5 * H a ^ 2) * D

/-- The fraction of matter today. -/
noncomputable def BgPar.matter (p : BgPar) : ℝ := p.Omega0_cdm + p.Omega0_baryon

/-- The expansion rate as a function of the scale factor, for a dark energy of density `W` in units of today's. -/
noncomputable def BgPar.rate (p : BgPar) (W : ℝ → ℝ) (a : ℝ) : ℝ :=
  Real.sqrt (p.matter / a ^ 3 + p.Omega0_gamma / a ^ 4 + p.Omega0_de * W (1 / a - 1))

/-- `W` is the density of a dark energy with the equation of state `w` at redshift `z`. -/
def DarkEnergyAt (w W : ℝ → ℝ) (z : ℝ) : Prop := HasDerivAt W (3 * (1 + w z) / (1 + z) * W z) z

end Coffe
