import Verif.Spec.Average
import Verif.Spec.IntegralValues
import Verif.Model.C.IntegralValues
import Verif.Model.Signal.Dispatch
import Mathlib.MeasureTheory.Integral.IntervalIntegral.Basic

/-!
# Specification: the multipoles of a function of the angle, exact quadrature, the tables of the flat-sky terms
-/

namespace Coffe

/-- The multipole of order `l` of a function of the cosine of the angle: `(2 l + 1) / 2 ∫ f(μ) P_l(μ) dμ`. -/
noncomputable def multipoleOf (l : ℕ) (f : ℝ → ℝ) : ℝ := (2 * l + 1) / 2 * ∫ μ in (-1 : ℝ)..1, f μ * legP l μ

/-- The quadrature returns the integrals (over the interval, and iterated over the cubes). -/
structure Quad.Exact (Q : Quad) : Prop where
  one : ∀ g : ℝ → ℝ, Q.one g = ∫ x in (0 : ℝ)..1, g x
  product : Q.Product

/-- The tables of the flat-sky terms hold the values that are computed for them (src/integrals.c:916-1411): the entry of the
correlation function, which is rescaled (958-962), the entries of the lensing multipoles and those of the
density-lensing multipoles.  The splines reproduce the values. -/
structure FlatTables (P : ℝ → ℝ) (kmin kmax : ℝ) (I : Ints) : Prop where
  half : ∀ r > 0, I.Ihalf.result r =
    direct_value exactQuad P ⟨1, -1, .half, .half⟩ kmin kmax r * (Real.sqrt (2 / Real.pi) * 2 * Real.pi * Real.pi)
  zero : I.Ihalf.result 0 = zero_separation_value exactQuad P ⟨1, -1, .half, .half⟩ kmin kmax
    * integrals_coefficients (-1) .half * (Real.sqrt (2 / Real.pi) * 2 * Real.pi * Real.pi)
  len : ∀ l : ℕ, ∀ r > 0, (I ⟨1, l, .int, .int⟩).result r = direct_value exactQuad P ⟨1, l, .int, .int⟩ kmin kmax r
  den_len : ∀ l k : ℕ, k ≤ l / 2 → ∀ r > 0, (I (flatsky_den_len_key l k)).result r =
    direct_value exactQuad P (flatsky_den_len_key l k) kmin kmax r

/-- The correlation function at the mean redshift `z` and the separation `sep`, as a function of the cosine `μ` of the angle. -/
noncomputable def corrfuncAt (Q : Quad) (par : Par) (bg : Bg) (I : Ints) (z sep : ℝ) (μ : ℝ) : ℝ :=
  signal_value Q { par with output_type := .CORRFUNC } bg I z 0 0 sep μ 0 .CORRFUNC

/-- Its multipoles as the library returns them. -/
noncomputable def multipoleAt (Q : Quad) (par : Par) (bg : Bg) (I : Ints) (z sep : ℝ) (l : ℕ) : ℝ :=
  signal_value Q { par with output_type := .MULTIPOLES } bg I z 0 0 sep 0 l .MULTIPOLES

/-- The parts of the signal that are integrated over the angle are integrable (with the multipoles selected, so without the
flat-sky terms, for which there is nothing to assume). -/
structure AngleIntegrable (par : Par) (bg : Bg) (I : Ints) (z sep : ℝ) : Prop where
  non : IntervalIntegrable (fun μ => functions_nonintegrated par bg I z μ sep) MeasureTheory.volume (-1) 1
  single : ∀ μ ∈ Set.Icc (-1 : ℝ) 1, IntervalIntegrable (functions_single_integrated par bg I z μ sep) MeasureTheory.volume 0 1
  single_angle : IntervalIntegrable (fun μ => ∫ x in (0 : ℝ)..1, functions_single_integrated par bg I z μ sep x) MeasureTheory.volume (-1) 1
  double : ∀ μ ∈ Set.Icc (-1 : ℝ) 1, ∀ x ∈ Set.Icc (0 : ℝ) 1,
    IntervalIntegrable (functions_double_integrated par bg I z μ sep x) MeasureTheory.volume 0 1
  double_middle : ∀ μ ∈ Set.Icc (-1 : ℝ) 1,
    IntervalIntegrable (fun x => ∫ y in (0 : ℝ)..1, functions_double_integrated par bg I z μ sep x y) MeasureTheory.volume 0 1
  double_angle : IntervalIntegrable (fun μ => ∫ x in (0 : ℝ)..1, ∫ y in (0 : ℝ)..1, functions_double_integrated par bg I z μ sep x y)
    MeasureTheory.volume (-1) 1

end Coffe
