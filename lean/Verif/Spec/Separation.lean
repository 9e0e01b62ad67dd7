import Verif.Spec.Background
import Verif.Model.Python.Compute
import Verif.Model.Signal.DoubleIntegrated

/-! # Specification: pairs inside a redshift bin -/

namespace Coffe

/-- The distance `c` belongs to a redshift of the bin with centre `z` and half-width `dz`. -/
def InBin (bg : Bg) (z dz c : ℝ) : Prop := bg.comoving_distance (z - dz) ≤ c ∧ c ≤ bg.comoving_distance (z + dz)

/-- All pairs with mean redshift `z` and separations up to `m`, under all angles, have both galaxies in the bin.  The
distances of the galaxies are those of the three integrands. -/
def PairsInside (bg : Bg) (z dz m : ℝ) : Prop :=
  ∀ r mu, 0 ≤ r → r ≤ m → |mu| ≤ 1 → ∀ par I x y,
    (InBin bg z dz (NonEnv.of par bg z mu r).chi1 ∧ InBin bg z dz (NonEnv.of par bg z mu r).chi2) ∧
    (InBin bg z dz (SingleEnv.of par bg I z mu r x).chi1 ∧ InBin bg z dz (SingleEnv.of par bg I z mu r x).chi2) ∧
    (InBin bg z dz (DoubleEnv.of par bg I z mu r x y).chi1 ∧ InBin bg z dz (DoubleEnv.of par bg I z mu r x y).chi2)

/-- The background is that of the parameters `p`: distances are the integral of the inverse expansion rate, and the look-up
of the redshift inverts them, up to the redshift `zmax`. -/
structure Bg.Faithful (bg : Bg) (Q : Integrator) (p : BgPar) (zmax : ℝ) : Prop where
  distance : ∀ z, 0 ≤ z → z ≤ zmax → bg.comoving_distance z = ∫ t in (0 : ℝ)..z, 1 / hubble p (de_wint Q p) t
  redshift : ∀ z, 0 ≤ z → z ≤ zmax → bg.z_as_chi (bg.comoving_distance z) = z

/-- The background held by the object, if any, is that of its settings. -/
def PyObj.OwnBackground (N : Num) (s : PyObj) : Prop := ∀ b, s.bg = some b → N.background s.par.bgView = some b

/-- The equation of state is never below minus one. -/
def BgPar.NotPhantom (p : BgPar) : Prop := ∀ z, 0 ≤ z → -1 ≤ eos p z

end Coffe
