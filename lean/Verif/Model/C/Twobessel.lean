import Verif.Model.C.Mem
import Mathlib.Analysis.SpecialFunctions.Trigonometric.Basic
import Mathlib.Analysis.SpecialFunctions.Pow.Real
import Mathlib.Analysis.SpecialFunctions.Pow.Complex
import Mathlib.Analysis.Complex.Basic
import Mathlib.Algebra.BigOperators.Intervals

/-!
# The two-dimensional FFTLog, src/twobessel.c:16-113, src/utils.c:179-258, src/covariance.c:357-470

Numbers are reals and complex numbers.  The two FFTW transforms are the sums of FFTW's manual.  The two-dimensional
spline (GSL) is a parameter.  `out[i*(halfN2+1) + j]` is the cell `(i, j)`.
-/

namespace Coffe
open Classical Finset

/-- `config`, src/twobessel.h:1-6. -/
structure TwoBesselConfig where
  l1 : ℝ
  l2 : ℝ
  nu1 : ℝ
  nu2 : ℝ
  c_window_width : ℝ

/-- The coefficients `p`, src/utils.c:181-190. -/
noncomputable def lanczos_p : List ℝ :=
  [0.99999999999980993227684700473478, 676.520368121885098567009190444019, -1259.13921672240287047156078755283,
    771.3234287776530788486528258894, -176.61502916214059906584551354, 12.507343278686904814458936853,
    -0.13857109526572011689554707, 9.984369578019570859563e-6, 1.50563273514931155834e-7]

/-- `lngamma_lanczos` for `creal(z) >= 0.5`, src/utils.c:193-198. -/
noncomputable def lngamma_right (z : ℂ) : ℂ :=
  let z := z - 1
  let x : ℂ := ((upTo 1 9).map fun n => (lanczos_p.getD n 0 : ℂ) / (z + n)).foldl (· + ·) (lanczos_p.getD 0 0 : ℂ)
  let t := z + 7.5
  (Real.log (2 * Real.pi) : ℂ) / 2 + (z + 0.5) * Complex.log t - t + Complex.log x

/-- `lngamma_lanczos`, src/utils.c:179-199.  The function calls itself at most once: `1 - z` has the larger real part. -/
noncomputable def lngamma_lanczos (z : ℂ) : ℂ :=
  if z.re < 0.5 then (Real.log Real.pi : ℂ) - Complex.log (Complex.sin (Real.pi * z)) - lngamma_right (1 - z)
  else lngamma_right z

/-- `gl[i]` of `g_l`, src/utils.c:201-210. -/
noncomputable def g_l (l nu : ℝ) (eta : ℕ → ℝ) (i : ℕ) : ℂ :=
  let z : ℂ := nu + Complex.I * eta i
  Complex.exp (z * (Real.log 2 : ℂ) + lngamma_lanczos ((l + z) / 2) - lngamma_lanczos ((3 + l - z) / 2))

/-- `b[q] *= w`. -/
noncomputable def Buf.scale {ι : Type} (b : Buf ι ℂ) (q : ι) (w : ℂ) : CRes (Buf ι ℂ) := do
  let v ← b.load q
  b.store q (v * w)

/-- `W`, src/utils.c:234, 245.  `0. / 0` is a NaN. -/
noncomputable def window_W (j Ncut : ℕ) : CRes ℝ :=
  if Ncut = 0 then .error .nan
  else .ok ((j : ℝ) / Ncut - 1 / (2 * Real.pi) * Real.sin (2 * j * Real.pi / Ncut))

/-- `c_window_2d`, src/utils.c:224-258. -/
noncomputable def c_window_2d (out : Buf (ℕ × ℕ) ℂ) (c_window_width : ℝ) (halfN1 halfN2 : ℕ) :
    CRes (Buf (ℕ × ℕ) ℂ) := do
  let N1 := 2 * halfN1
  let Ncut1 := ⌊(halfN1 : ℝ) * c_window_width⌋₊
  let Ncut2 := ⌊(halfN2 : ℝ) * c_window_width⌋₊
  let out ← cfor (upTo 0 (Ncut2 + 1)) (fun j out => do
    let W ← window_W j Ncut2
    cfor (upTo 0 N1) (fun i out => out.scale (i, halfN2 - j) W) out) out
  cfor (upTo 0 (Ncut1 + 1)) (fun i out => do
    let W ← window_W i Ncut1
    cfor (upTo 0 (halfN2 + 1)) (fun j out => do
      let out ← out.scale (halfN1 - i, j) W
      out.scale (halfN1 + 1 + i, j) W) out) out

/-- exp(2πi t / N) -/
noncomputable def twiddle (N : ℕ) (t : ℤ) : ℂ := Complex.exp (2 * Real.pi * Complex.I * t / N)

/-- `fftw_plan_dft_r2c_2d` executed: the unnormalised transform with negative exponent, FFTW manual 4.8. -/
noncomputable def r2c_2d (N1 N2 : ℕ) (x : ℕ → ℕ → ℝ) (i j : ℕ) : ℂ :=
  ∑ a ∈ range N1, ∑ b ∈ range N2, (x a b : ℂ) * twiddle N1 (-(a * i)) * twiddle N2 (-(b * j))

/-- `fftw_plan_dft_c2r_2d` executed: a complex transform with positive exponent along the first dimension, then
the transform from half-complex to real along the second, FFTW manual 2.4, 4.8.  The cells 1, …, `N2/2 - 1` count
twice (they stand for the conjugates at negative frequencies), imaginary parts at 0 and `N2/2` are ignored. -/
noncomputable def c2r_2d (N1 N2 : ℕ) (H : ℕ → ℕ → ℂ) (a b : ℕ) : ℝ :=
  ∑ j ∈ range (N2 / 2 + 1), (if j = 0 ∨ j = N2 / 2 then 1 else 2) *
    ((∑ i ∈ range N1, H i j * twiddle N1 (a * i)) * twiddle N2 (b * j)).re

/-- `two_sph_bessel`, src/twobessel.c:16-113.  The local arrays `eta_m`, `eta_n`, `g1`, `g2` (which are filled before
their use) are functions of the index; the last call `twobessel.c:104-110` writes the result. -/
noncomputable def two_sph_bessel (k1 k2 : Buf ℕ ℝ) (fk1k2 : Buf (ℕ × ℕ) ℝ) (N1 N2 : ℕ) (config : TwoBesselConfig)
    (r1 r2 : Buf ℕ ℝ) (result : Buf (ℕ × ℕ) ℝ) : CRes (Buf ℕ ℝ × Buf ℕ ℝ × Buf (ℕ × ℕ) ℝ) :=
  if N1 % 2 ≠ 0 then .error .exit_success
  else if N2 % 2 ≠ 0 then .error .exit_success
  else do
    let halfN1 := N1 / 2
    let halfN2 := N2 / 2
    let k10 ← k1.load 0
    let k20 ← k2.load 0
    let k11 ← k1.load 1
    let k21 ← k2.load 1
    let dlnk1 := Real.log (k11 / k10)
    let dlnk2 := Real.log (k21 / k20)
    let eta_m : ℕ → ℝ := fun i => 2 * Real.pi / dlnk1 / N1 * i
    let eta_n : ℕ → ℝ := fun j => 2 * Real.pi / dlnk2 / N2 * j
    let g1 := g_l config.l1 config.nu1 eta_m
    let g2 := g_l config.l2 config.nu2 eta_n
    let r1 ← cfor (upTo 0 N1) (fun i r1 => do
      let k ← k1.load (N1 - 1 - i)
      r1.store i (1 / k)) r1
    let r2 ← cfor (upTo 0 N2) (fun i r2 => do
      let k ← k2.load (N2 - 1 - i)
      r2.store i (1 / k)) r2
    let r10 ← r1.load 0
    let r20 ← r2.load 0
    let Pb ← cfor (upTo 0 N1) (fun i => cfor (upTo 0 N2) fun j Pb => do
      let f ← fk1k2.load (i, j)
      let x ← k1.load i
      let y ← k2.load j
      Pb.store (i, j) (f / x ^ config.nu1 / y ^ config.nu2)) (Buf.new fun q : ℕ × ℕ => q.1 < N1 ∧ q.2 < N2)
    let out : Buf (ℕ × ℕ) ℂ := Buf.of (fun q => q.1 < N1 ∧ q.2 < halfN2 + 1) fun q =>
      r2c_2d N1 N2 (fun a b => (Pb.val (a, b)).getD 0) q.1 q.2
    let out ← c_window_2d out config.c_window_width halfN1 halfN2
    let out ← cfor (upTo 0 (halfN1 + 1)) (fun i => cfor (upTo 0 (halfN2 + 1)) fun j out => do
      let v ← out.load (i, j)
      out.store (i, j) ((starRingEnd ℂ) (v * (((k20 * r20 : ℝ) : ℂ) ^ (-Complex.I * eta_n j) * g2 j
        * ((k10 * r10 : ℝ) : ℂ) ^ (-Complex.I * eta_m i) * g1 i)))) out
    let out ← cfor (upTo (halfN1 + 1) N1) (fun i => cfor (upTo 0 (halfN2 + 1)) fun j out => do
      let v ← out.load (i, j)
      out.store (i, j) ((starRingEnd ℂ) (v * (((k20 * r20 : ℝ) : ℂ) ^ (-Complex.I * eta_n j) * g2 j
        * ((k10 * r10 : ℝ) : ℂ) ^ (Complex.I * eta_m (N1 - i)) * (starRingEnd ℂ) (g1 (N1 - i)))))) out
    let out_ifft := c2r_2d N1 N2 fun i j => (out.val (i, j)).getD 0
    let result ← cfor (upTo 0 N1) (fun i => cfor (upTo 0 N2) fun j result => do
      let y ← r2.load j
      let x ← r1.load i
      result.store (i, j) (out_ifft i j * Real.pi / (16 * N1 * N2 * y ^ config.nu2 * x ^ config.nu1))) result
    pure (r1, r2, result)

/-- `coffe_init_spline2d` and `coffe_interp_spline2d` (GSL): abscissae, ordinates, values (row by row), their number and
the two arguments. -/
abbrev Spline2d := (ℕ → ℝ) → (ℕ → ℝ) → (ℕ → ℝ) → ℕ → ℝ → ℝ → ℝ

/-- `covariance_integrate_fftlog`, src/covariance.c:357-470.  `spline` evaluates the power spectrum. -/
noncomputable def covariance_integrate_fftlog (interp2d : Spline2d) (spline : ℝ → ℝ) (power l1 l2 : ℝ)
    (sampling_points : ℕ) (separations : Buf ℕ ℝ) (npixels_max : ℕ) (k_min_norm k_max_norm : ℝ)
    (result : Buf ℕ ℝ) : CRes (Buf ℕ ℝ) := do
  let N := sampling_points
  let step := Real.log (k_max_norm / k_min_norm) / N
  let k : ℕ → ℝ := fun i => k_min_norm * (k_max_norm / k_min_norm) ^ ((i : ℝ) / N)
  let k_sampled ← cfor (upTo 0 N) (fun i b => b.store i (k i)) (cmalloc N)
  let pk_sampled ← cfor (upTo 0 N) (fun i b => do
    let b ← cfor (upTo 0 N) (fun j b => b.store (i, j) 0) b
    let x ← k_sampled.load i
    b.store (i, i) (x ^ 3 * (spline x) ^ power / step)) (Buf.new fun q : ℕ × ℕ => q.1 < N ∧ q.2 < N)
  let (r1, r2, result_pk) ← two_sph_bessel k_sampled k_sampled pk_sampled N N ⟨l1, l2, 1.01, 1.01, 0.25⟩
    (cmalloc N) (cmalloc N) (Buf.new fun q : ℕ × ℕ => q.1 < N ∧ q.2 < N)
  let result2d_pk ← cfor (upTo 0 N) (fun m => cfor (upTo 0 N) fun n b => do
    let v ← result_pk.load (m, n)
    b.store (n * N + m) v) (cmalloc (N * N))
  let pk := interp2d (fun i => (r1.val i).getD 0) (fun i => (r2.val i).getD 0)
    (fun i => (result2d_pk.val i).getD 0) N
  cfor (upTo 0 npixels_max) (fun m => cfor (upTo 0 npixels_max) fun n b => do
    let x ← separations.load m
    let y ← separations.load n
    b.store (npixels_max * n + m) (pk x y)) result

end Coffe
