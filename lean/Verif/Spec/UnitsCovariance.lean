import Verif.Spec.Units
import Verif.Spec.Covariance

/-!
# The covariance in another unit of length

Separations and pixel sizes are lengths, number densities inverse volumes, spectra volumes.
-/

namespace Coffe

/-- The settings of the covariance in a unit that is `c` times smaller. -/
noncomputable def CovPar.unit (p : CovPar) (c : ℝ) : CovPar :=
  { p with sep := p.sep.map (c * ·), pixelsize := p.pixelsize.map (c * ·), density1 := p.density1.map (· / c ^ 3),
           density2 := p.density2.map (· / c ^ 3), h := p.h / c }

/-- The numerical procedures in the new unit: the spectra and their squares as functions of the new wavenumber, the
quadrature with its points moved, the FFTLog values (a pure number for the spectrum, a volume for its square) at
the old separations. -/
noncomputable def CovNum.unit (E : CovNum) (c : ℝ) : CovNum :=
  { E with
    quadK := fun r f => E.quadK r (fun k => f (k / c)) / c
    pk := fun r => spectrumUnit (E.pk r) c
    pk2 := fun r k => (c ^ 3) ^ 2 * E.pk2 r (c * k)
    fft := fun power l1 l2 x y => c ^ (3 * (power - 1)) * E.fft power l1 l2 (x / c) (y / c) }

/-- The quadratures are linear. -/
structure CovNum.Linear (E : CovNum) : Prop where
  quadK : ∀ r m f, E.quadK r (fun k => m * f k) = m * E.quadK r f
  quadZ : ∀ a b m f, E.quadZ a b (fun z => m * f z) = m * E.quadZ a b f

/-- A two-dimensional spline looks only at the `N` abscissae and ordinates and the `N × N` values, follows a change of the unit
of both coordinates, and is proportional to the values. -/
def Spline2d.Scales (s : Spline2d) : Prop :=
  ∀ (x y z x' y' z' : ℕ → ℝ) (N : ℕ) (c w u v : ℝ), 0 < c → (∀ i < N, x' i = c * x i) → (∀ i < N, y' i = c * y i) →
    (∀ i < N, ∀ j < N, z' (j * N + i) = w * z (j * N + i)) → s x' y' z' N (c * u) (c * v) = w * s x y z N u v

/-- A row in the new unit. -/
noncomputable def CovCoord.unit (x : CovCoord) (c : ℝ) : CovCoord := { x with sep1 := c * x.sep1, sep2 := c * x.sep2 }

end Coffe
