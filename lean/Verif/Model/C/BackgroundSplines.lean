import Verif.Model.C.Background
import Verif.Model.Python.Compute

/-!
# The background functions of a Python object
-/

namespace Coffe
open Classical

/-- The numerical procedures of the background stage: integration with one of the two methods and a precision
(src/background.c:352-371), and the solver of the growth equation with the tables of the equation of state and of the density
ratio (src/background.c:424-500). -/
structure BgMethods where
  quad : Int1d → ℝ → Integrator
  solve : (ℝ → ℝ) → (ℝ → ℝ) → ℕ → ℝ → ℝ × ℝ

/-- The settings of an object as `coffe_background_init` sees them (`coffe_parameters_t`, filled by the setters of
python/coffe/coffe.pyx). -/
noncomputable def PyPar.bgPar (akima : Samples → ℝ → ℝ) (p : PyPar) : BgPar where
  Omega0_cdm := p.Omega0_cdm
  Omega0_baryon := p.Omega0_baryon
  Omega0_gamma := p.Omega0_gamma
  Omega0_de := p.Omega0_de
  h := p.h
  w0 := p.w0
  wa := p.wa
  background_bins := p.background_bins.toNat
  magnification_bias1 := akima p.bias.magnification1
  magnification_bias2 := akima p.bias.magnification2
  evolution_bias1 := akima p.bias.evolution1
  evolution_bias2 := akima p.bias.evolution2

/-- Two of the arrays of `struct temp_background`, as they are given to `coffe_init_spline`. -/
def bg_samples (t : Buf ℕ BgRow) (n : ℕ) (x y : BgRow → ℝ) : Samples :=
  (List.range n).filterMap fun i => (t.val i).map fun r => (x r, y r)

/-- The splines, src/background.c:545-618 (those that the signal reads). -/
noncomputable def bg_splines (akima : Samples → ℝ → ℝ) (t : Buf ℕ BgRow) (n : ℕ) : Bg where
  comoving_distance := akima (bg_samples t n BgRow.z BgRow.comoving_distance)
  z_as_chi := akima (bg_samples t n BgRow.comoving_distance BgRow.z)
  f := akima (bg_samples t n BgRow.z BgRow.f)
  conformal_Hz := akima (bg_samples t n BgRow.z BgRow.conformal_Hz)
  G1 := akima (bg_samples t n BgRow.z BgRow.G1)
  G2 := akima (bg_samples t n BgRow.z BgRow.G2)
  a := akima (bg_samples t n BgRow.z BgRow.a)
  D1 := akima (bg_samples t n BgRow.z BgRow.D1)

/-- `coffe_background_init` on the settings of an object, src/background.c:301-696; `none` if it does not return. -/
noncomputable def PyPar.bgInit (M : BgMethods) (akima : Samples → ℝ → ℝ) (p : PyPar) : Option Bg :=
  match background_init (M.quad p.integration_1d_type p.integration_1d_prec)
    (M.solve (de_w (p.bgPar akima)) (de_xint (M.quad p.integration_1d_type p.integration_1d_prec) (p.bgPar akima))) (p.bgPar akima) with
  | .ok t => some (bg_splines akima t p.background_bins.toNat)
  | .error _ => none

end Coffe
