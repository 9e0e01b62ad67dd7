import Verif.Model.C.BackgroundSplines
import Verif.Spec.Background

/-!
# Specification for C85: the background of an object
-/

namespace Coffe

/-- The background stage of the object is the computation of src/background.c with the numerical procedures `M`. -/
def Num.BgBy (N : Num) (M : BgMethods) : Prop := ∀ p : PyPar, N.background p.bgView = p.bgInit M N.akima

/-- The stage of `N` with the background computed from what it is given. -/
noncomputable def Num.withBg (N : Num) (M : BgMethods) : Num :=
  { N with
    background := fun v =>
      match background_init (M.quad v.integration_1d_type v.integration_1d_prec)
        (M.solve (de_w (v.toPar N.akima)) (de_xint (M.quad v.integration_1d_type v.integration_1d_prec) (v.toPar N.akima)))
        (v.toPar N.akima) with
      | .ok t => some (bg_splines N.akima t v.background_bins.toNat)
      | .error _ => none }

/-- The interpolation passes through the points of a table of at least five rows with increasing abscissae. -/
def Interpolates (akima : Samples → ℝ → ℝ) : Prop :=
  ∀ s : Samples, 5 ≤ s.length → (s.map Prod.fst).Pairwise (· < ·) → ∀ x ∈ s, akima s x.1 = x.2

/-- The expansion rate for the cosmology of the object, whose dark energy density grows by `W`. -/
noncomputable def PyPar.hubble (p : PyPar) (W : ℝ → ℝ) (z : ℝ) : ℝ :=
  p.h / 2997.92458 * Real.sqrt ((p.Omega0_cdm + p.Omega0_baryon) * (1 + z) ^ 3 + p.Omega0_gamma * (1 + z) ^ 4 + p.Omega0_de * W z)

/-- Redshift number `i` of the tables. -/
noncomputable def PyPar.node (p : PyPar) (i : ℕ) : ℝ := 15 * i / ((p.background_bins.toNat : ℝ) - 1)

/-- The cosmology of the object expands: no negative density, not empty, positive `h`. -/
structure PyPar.Expands (p : PyPar) : Prop where
  h : 0 < p.h
  m : 0 ≤ p.Omega0_cdm + p.Omega0_baryon
  g : 0 ≤ p.Omega0_gamma
  de : 0 ≤ p.Omega0_de
  some : 0 < p.Omega0_cdm + p.Omega0_baryon + p.Omega0_gamma + p.Omega0_de

end Coffe
