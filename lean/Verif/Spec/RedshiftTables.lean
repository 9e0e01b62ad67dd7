import Verif.Model.C.IntegralValues

/-!
# Linear growth, for C64

What "the spectrum grows linearly" and "the numerical routines are linear" mean.
-/

namespace Coffe

/-- Multiplying the input of a numerical routine by a number multiplies its output by that number. -/
structure Homogeneous (N : TableNum) : Prop where
  quad : ∀ (f : ℝ → ℝ) (a b c : ℝ), N.quad (fun x => c * f x) a b = c * N.quad f a b
  fft : ∀ (n : ℕ) (f : ℕ → ℝ) (c : ℝ) (i : ℕ), N.fft n (fun j => c * f j) i = c * N.fft n f i
  ifft : ∀ (n : ℕ) (f : ℕ → ℂ) (c : ℝ) (i : ℕ), N.ifft n (fun j => c * f j) i = c * N.ifft n f i

/-- `T` is `c` times `S`: everywhere for the spline, at the nodes of the logarithmic grid for the cubic one. -/
structure Multiple (S T : SpectrumSpline) (c kmin kmax : ℝ) (len : ℕ) : Prop where
  eval : ∀ k, T.eval k = c * S.eval k
  cubic : ∀ i < len, ∃ v, S.cubic (logGrid kmin kmin kmax len i) = .ok v ∧
    T.cubic (logGrid kmin kmin kmax len i) = .ok (c * v)

/-- The factor of src/integrals.c:958-962. -/
noncomputable def flatSkyFactor : ℝ := Real.sqrt (2 / Real.pi) * 2 * Real.pi * Real.pi

end Coffe
