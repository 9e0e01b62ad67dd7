import Verif.Model.C.Background
import Verif.Model.Python.State
import Mathlib.MeasureTheory.Integral.IntervalIntegral.FundThmCalculus

/-! # Specification of the background quantities -/

namespace Coffe
open MeasureTheory

/-- The expansion rate of a universe with matter, radiation and dark energy, whose dark energy density grows by the
factor `W z`. -/
noncomputable def hubble (p : BgPar) (W : ℝ → ℝ) (z : ℝ) : ℝ :=
  p.h / 2997.92458 * Real.sqrt ((p.Omega0_cdm + p.Omega0_baryon) * (1 + z) ^ 3 + p.Omega0_gamma * (1 + z) ^ 4
    + p.Omega0_de * W z)

/-- The equation of state of the dark energy. -/
noncomputable def eos (p : BgPar) (z : ℝ) : ℝ := p.w0 + p.wa * z / (1 + z)

/-- The growth of the dark energy density, `exp (3 ∫ (1 + w) / (1 + z))`. -/
noncomputable def darkEnergy (p : BgPar) (z : ℝ) : ℝ := Real.exp (3 * ∫ t in (0 : ℝ)..z, (1 + eos p t) / (1 + t))

/-- The amplitude of the Doppler term of a population with magnification bias `s` and evolution bias `e`. -/
noncomputable def dopplerAmplitude (Hprime H chi s e : ℝ) : ℝ :=
  Hprime / H ^ 2 + (2 - 5 * s) / (chi * H) + 5 * s - e

/-- The integrator gives the exact integral of continuous functions. -/
def Integrator.Exact (Q : Integrator) : Prop :=
  ∀ (f : ℝ → ℝ) (a b : ℝ), ContinuousOn f (Set.uIcc a b) → Q f a b = ∫ x in a..b, f x

/-- Parameters of a universe that expands: no negative density, not empty, positive `h`. -/
structure BgPar.Expanding (p : BgPar) : Prop where
  h : 0 < p.h
  m : 0 ≤ p.Omega0_cdm + p.Omega0_baryon
  g : 0 ≤ p.Omega0_gamma
  de : 0 ≤ p.Omega0_de
  some : 0 < p.Omega0_cdm + p.Omega0_baryon + p.Omega0_gamma + p.Omega0_de

/-- The parameters of the C code that belong to what the Python object stores; `akima` evaluates the bias splines. -/
noncomputable def BgView.toPar (akima : Samples → ℝ → ℝ) (v : BgView) : BgPar where
  Omega0_cdm := v.Omega0_cdm
  Omega0_baryon := v.Omega0_baryon
  Omega0_gamma := v.Omega0_gamma
  Omega0_de := v.Omega0_de
  h := v.h
  w0 := v.w0
  wa := v.wa
  background_bins := v.background_bins.toNat
  magnification_bias1 := akima v.magnification1
  magnification_bias2 := akima v.magnification2
  evolution_bias1 := akima v.evolution1
  evolution_bias2 := akima v.evolution2

end Coffe
