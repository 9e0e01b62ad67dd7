import Verif.Model.Signal.Dispatch

/-!
# Agreement between the observer and the pair, for C74

What it means that two universes, two surveys and two sets of integral tables are the same as far as a
given pair of points is concerned.
-/

namespace Coffe

/-- `t` lies between zero and `B`. -/
def Within (B t : ℝ) : Prop := 0 ≤ t ∧ t ≤ B

/-- The background functions agree up to redshift `Z`, the redshifts of distances up to distance `X`, the
biases up to redshift `Z`, the integrals up to separation `R`, and all the other settings are the same. -/
structure AgreeUpTo (Z X R : ℝ) (par par' : Par) (bg bg' : Bg) (I I' : Ints) : Prop where
  settings : par' = { par with
    galaxy_bias1 := par'.galaxy_bias1, galaxy_bias2 := par'.galaxy_bias2,
    magnification_bias1 := par'.magnification_bias1, magnification_bias2 := par'.magnification_bias2,
    evolution_bias1 := par'.evolution_bias1, evolution_bias2 := par'.evolution_bias2 }
  galaxy_bias1 : ∀ z, Within Z z → par'.galaxy_bias1 z = par.galaxy_bias1 z
  galaxy_bias2 : ∀ z, Within Z z → par'.galaxy_bias2 z = par.galaxy_bias2 z
  magnification_bias1 : ∀ z, Within Z z → par'.magnification_bias1 z = par.magnification_bias1 z
  magnification_bias2 : ∀ z, Within Z z → par'.magnification_bias2 z = par.magnification_bias2 z
  evolution_bias1 : ∀ z, Within Z z → par'.evolution_bias1 z = par.evolution_bias1 z
  evolution_bias2 : ∀ z, Within Z z → par'.evolution_bias2 z = par.evolution_bias2 z
  comoving_distance : ∀ z, Within Z z → bg'.comoving_distance z = bg.comoving_distance z
  f : ∀ z, Within Z z → bg'.f z = bg.f z
  conformal_Hz : ∀ z, Within Z z → bg'.conformal_Hz z = bg.conformal_Hz z
  G1 : ∀ z, Within Z z → bg'.G1 z = bg.G1 z
  G2 : ∀ z, Within Z z → bg'.G2 z = bg.G2 z
  a : ∀ z, Within Z z → bg'.a z = bg.a z
  D1 : ∀ z, Within Z z → bg'.D1 z = bg.D1 z
  z_as_chi : ∀ c, Within X c → bg'.z_as_chi c = bg.z_as_chi c
  result : ∀ k r, Within R r → (I' k).result r = (I k).result r
  result2d : ∀ k z r, Within Z z → Within R r → (I' k).result2d z r = (I k).result2d z r
  renormalization : ∀ k c d, Within X c → Within X d →
    (I' k).renormalization c d = (I k).renormalization c d
  renormalization_zero_separation : ∀ k c, Within X c →
    (I' k).renormalization_zero_separation c = (I k).renormalization_zero_separation c

/-- Distances up to `X` have redshifts up to `Z`. -/
def Reaches (Z X : ℝ) (bg : Bg) : Prop := ∀ c, Within X c → Within Z (bg.z_as_chi c)

/-- Up to redshift `Z` the comoving distance starts at zero and grows with redshift, and the table of redshifts is
its inverse (this is what C49 is about). -/
structure Bg.RulerUpTo (bg : Bg) (Z : ℝ) : Prop where
  zero : bg.comoving_distance 0 = 0
  grows : ∀ z w, 0 ≤ z → z < w → w ≤ Z → bg.comoving_distance z < bg.comoving_distance w
  inverse : ∀ c, Within (bg.comoving_distance Z) c → Within Z (bg.z_as_chi c) ∧
    bg.comoving_distance (bg.z_as_chi c) = c

/-- The pair of points at mean redshift `z`, separation `s` and cosine `m` lies in front of the observer and not
beyond distance `X`; the integral tables reach as far as `X` and as the separation. -/
structure PairInside (Z X R : ℝ) (bg : Bg) (z m s : ℝ) : Prop where
  redshift : Within Z z
  sep : Within R s
  front : s * |m| / 2 < bg.comoving_distance z
  far : bg.comoving_distance z + s * |m| / 2 ≤ X
  tables : X ≤ R

/-- A quadrature rule for the unit cube looks at its integrand only inside the cube. -/
structure Quad.InsideCube (Q : Quad) : Prop where
  one : ∀ f g : ℝ → ℝ, (∀ x, Within 1 x → f x = g x) → Q.one f = Q.one g
  multi : ∀ (n : ℕ) (f g : (ℕ → ℝ) → ℝ), (∀ v, (∀ i < n, Within 1 (v i)) → f v = g v) →
    Q.multi n f = Q.multi n g

end Coffe
