import Verif.Model.Signal.Dispatch

/-!
# A change of the unit of length

Lengths measured in a unit that is `c` times smaller are `c` times larger.  In the settings only the Hubble constant
carries a unit (an inverse length); the background has distances and conformal expansion rates; the entry `(n, l)` of
the integral table is a length to the power `n - l` (a pure number if `l` exceeds `n`), as a function of a length.
-/

namespace Coffe

/-- The settings in the new unit. -/
noncomputable def Par.unit (par : Par) (c : ℝ) : Par := { par with h := par.h / c }

/-- The background in the new unit. -/
noncomputable def Bg.unit (bg : Bg) (c : ℝ) : Bg where
  comoving_distance := fun z => c * bg.comoving_distance z
  z_as_chi := fun x => bg.z_as_chi (x / c)
  f := bg.f
  conformal_Hz := fun z => bg.conformal_Hz z / c
  G1 := bg.G1
  G2 := bg.G2
  a := bg.a
  D1 := bg.D1

/-- The power of the length in an entry of the integral table. -/
def Key.power (k : Key) : ℕ :=
  match k.state_n with
  | .int => (k.n - k.l).toNat
  | .half => ((k.n - k.l) / 2).toNat

/-- The integral table in the new unit. -/
noncomputable def Ints.unit (I : Ints) (c : ℝ) : Ints := fun k => {
  result := fun r => c ^ k.power * (I k).result (r / c)
  result2d := fun z r => c ^ k.power * (I k).result2d z (r / c)
  renormalization := fun x y => c ^ k.power * (I k).renormalization (x / c) (y / c)
  renormalization_zero_separation := fun x => c ^ k.power * (I k).renormalization_zero_separation (x / c) }

/-- A spectrum in the new unit: a volume, as a function of an inverse length. -/
noncomputable def spectrumUnit (P : ℝ → ℝ) (c : ℝ) : ℝ → ℝ := fun k => c ^ 3 * P (c * k)

/-- A rule for integrals over an interval that is linear and moves its points with the interval. -/
structure ScalingRule (quad : (ℝ → ℝ) → ℝ → ℝ → ℝ) : Prop where
  mul : ∀ m f a b, quad (fun k => m * f k) a b = m * quad f a b
  stretch : ∀ f a b c, 0 < c → quad f (a / c) (b / c) = quad (fun k => f (k / c)) a b / c

/-- The rule for integrals over the unit cube reads the integrand only at the points `S`. -/
def Quad.ReadsAt (Q : Quad) (S : ℕ → (ℕ → ℝ) → Prop) : Prop :=
  ∀ n f g, (∀ v, S n v → f v = g v) → Q.multi n f = Q.multi n g

/-- The two points of the lines of sight are not so close that the code takes them for one, in either unit; `r2` is
the square of their distance. -/
def Apart (par : Par) (c r2 : ℝ) : Prop :=
  (par.correlation_contrib.len = true → par.only_cross_correlations = false → par.flatsky_nonlocal = false →
    1e-20 < r2 ∧ 1e-20 < c ^ 2 * r2) ∧
  (par.divergent = true → (r2 ≤ 0.000001 ^ 2 ↔ c ^ 2 * r2 ≤ 0.000001 ^ 2))

/-- At all points the rule reads for a quantity of the kind `out`, the two points are apart. -/
def NodesApart (S : ℕ → (ℕ → ℝ) → Prop) (par : Par) (bg : Bg) (I : Ints) (c z zmin zmax sep mu : ℝ)
    (out : OutputType) : Prop :=
  match out with
  | .CORRFUNC => ∀ v, S 2 v → Apart par c (DoubleEnv.of par bg I z mu sep (v 0) (v 1)).r2
  | .MULTIPOLES => ∀ v, S 3 v → Apart par c (DoubleEnv.of par bg I z (2 * v 0 - 1) sep (v 1) (v 2)).r2
  | .AVERAGE_MULTIPOLES => ∀ v, S 4 v → Apart par c
      (DoubleEnv.of par bg I (average_z bg zmin zmax sep (v 0)) (2 * v 1 - 1) sep (v 2) (v 3)).r2
  | _ => True

end Coffe
