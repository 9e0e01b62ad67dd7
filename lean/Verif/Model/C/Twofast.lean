import Verif.Model.C.Common
import Verif.Model.Integrals
import Mathlib.Analysis.SpecialFunctions.Trigonometric.Basic
import Mathlib.Analysis.SpecialFunctions.Pow.Real
import Mathlib.Analysis.Complex.Basic
import Mathlib.Analysis.SpecialFunctions.Gamma.Basic

/-!
# The FFTLog transform, src/twofast.c and src/integrals.c:111-133, 189-231, 459-573

FFTW and the spline evaluation are parameters; `twofast_1bessel` takes `twofast_mql` as one, too.  Numbers are reals.
-/

namespace Coffe
open Classical

/-- `twofast_window`, src/twofast.c:54-90.  `result` is a local variable without initial value. -/
noncomputable def twofast_window (value xmin xmax xleft xright : ℝ) : CRes ℝ :=
  if xmin ≤ xleft ∧ xleft ≤ xright ∧ xright ≤ xmax then
    if value > xleft ∧ value < xright ∧ value > xmin ∧ value < xmax then .ok 1
    else if value ≤ xmin ∨ value ≥ xmax then .ok 0
    else if value < xleft ∧ value > xmin then
      let result := (value - xmin) / (xleft - xmin)
      .ok (result - Real.sin (2 * Real.pi * result) / 2 / Real.pi)
    else if value > xright ∧ value < xmax then
      let result := (xmax - value) / (xmax - xright)
      .ok (result - Real.sin (2 * Real.pi * result) / 2 / Real.pi)
    else .error .uninit
  else .error .exit

/-- `twofast_min`, src/twofast.c:226-231. -/
noncomputable def twofast_min (a b : ℝ) : ℝ := if a > b then b else a

/-- `twofast_max`, src/twofast.c:233-238. -/
noncomputable def twofast_max (a b : ℝ) : ℝ := if a < b then b else a

/-- `qmin` and `qmax` of `twofast_selectqnu`, src/twofast.c:242-244. -/
noncomputable def twofast_qmin (l nu : ℝ) : ℝ := twofast_max (0.9999 - 1 - nu) (-l)
/-- see `twofast_qmin` -/
noncomputable def twofast_qmax (l nu : ℝ) : ℝ := twofast_min (0.9 + 3 - nu) 2

/-- `twofast_selectqnu`, src/twofast.c:240-250. -/
noncomputable def twofast_selectqnu (l nu : ℝ) : ℝ :=
  let qbest := (2 + 0.9 + 0.9999) / 2 - nu
  if ¬ (twofast_qmin l nu < qbest ∧ qbest < twofast_qmax l nu) then (twofast_qmin l nu + 2 * twofast_qmax l nu) / 3
  else qbest

/-- The product of two `size_t` differences: `a - b + c` in 64-bit unsigned arithmetic. -/
def size_t_sub_add (a b c : ℕ) : ℕ := (a + c + (2 ^ 64 - b)) % 2 ^ 64

/-- Samples of a logarithmic grid, src/twofast.c:278, 286, 430. -/
noncomputable def logGrid (k0 kmin kmax : ℝ) (len : ℕ) (i : ℝ) : ℝ := k0 * (kmax / kmin) ^ (i / len)

/-- The window as it is called in `twofast_fft_input`, src/twofast.c:287-293 and 345-351. -/
noncomputable def fft_window (k0 kmin kmax : ℝ) (len : ℕ) (value : ℝ) : CRes ℝ :=
  twofast_window value kmin (logGrid k0 kmin kmax len (len - 1 : ℝ)) (Real.exp 0.46 * kmin)
    (Real.exp (-0.46) * logGrid k0 kmin kmax len (len - 1 : ℝ))

/-- `twofast_fft_input`, src/twofast.c:252-360.  `spline` is `gsl_spline_eval`, `fft` the real-to-complex transform.
A transform of length zero has no plan: `fftw_execute(NULL)`. -/
noncomputable def twofast_fft_input (spline : ℝ → CRes ℝ) (fft : ℕ → (ℕ → ℝ) → ℕ → ℂ) (output_y : Buf ℕ ℂ)
    (output_len : ℕ) (q k0 kmin kmax : ℝ) : CRes (Buf ℕ ℂ) := do
  let N2 := output_len / 2 + 1
  let L := 2 * Real.pi * output_len / Real.log (kmax / kmin)
  let input_x_mod ← cfor (upTo 0 output_len) (fun i b => b.store i (logGrid k0 kmin kmax output_len i))
    (cmalloc output_len : Buf ℕ ℝ)
  let input_y_mod ← cfor (upTo 0 output_len) (fun i b => do
      let s ← spline (logGrid k0 kmin kmax output_len i)
      let w ← fft_window k0 kmin kmax output_len (logGrid k0 kmin kmax output_len i)
      b.store i ((kmax / kmin) ^ ((3 - q) * i / output_len) * s * w))
    (cmalloc output_len : Buf ℕ ℝ)
  if output_len = 0 then .error .null
  else do
    let input_y_fft : Buf ℕ ℂ := Buf.of (· < N2) (fft output_len fun i => (input_y_mod.val i).getD 0)
    cfor (upTo 0 N2) (fun i b => do
      let x ← input_x_mod.load (size_t_sub_add N2 2 i)
      let w ← fft_window k0 kmin kmax output_len x
      let y ← input_y_fft.load i
      b.store i (w * (starRingEnd ℂ) y / L)) output_y

/-- `gamma_coeff`, src/twofast.c:99-108. -/
noncomputable def gamma_coeff : List ℝ :=
  [676.5203681218851, -1259.1392167224028, 771.32342877765313, -176.61502916214059, 12.507343278686905,
    -0.13857109526572012, 9.9843695780195716e-6, 1.5056327351493116e-7]

/-- `twofast_lgamma` for `creal(z) >= 0.5`, src/twofast.c:115-121 (the result is assumed to be finite). -/
noncomputable def twofast_lgamma_right (z : ℂ) : ℂ :=
  let z := z - 1
  let x : ℂ := ((upTo 0 8).map fun i => (gamma_coeff.getD i 0 : ℂ) / (z + i + 1)).foldl (· + ·) (0.99999999999980993 : ℝ)
  let t := z + 8 - 0.5
  (Real.log (2 * Real.pi) : ℂ) / 2 + (z + 0.5) * Complex.log t - t + Complex.log x

/-- `twofast_lgamma`, src/twofast.c:97-143.  The function calls itself at most once. -/
noncomputable def twofast_lgamma (z : ℂ) : ℂ :=
  if z.re < 0.5 then (Real.log Real.pi : ℂ) - Complex.log (Complex.sin (Real.pi * z)) - twofast_lgamma_right (1 - z)
  else twofast_lgamma_right z

/-- `twofast_mql`, src/twofast.c:196-224 (the value is assumed to be finite). -/
noncomputable def twofast_mql (t q l alpha : ℝ) : ℂ :=
  let n : ℂ := q - 1 - t * Complex.I
  let unl := (2 : ℂ) ^ (n - 1) * (Real.sqrt Real.pi : ℝ) *
    Complex.exp (twofast_lgamma ((1 + l + n) / 2) - twofast_lgamma ((2 + l - n) / 2))
  (alpha : ℂ) ^ (t * Complex.I - q) * unl

/-- `twofast_1bessel`, src/twofast.c:362-483: the two arrays that the caller passes are filled.  `mql` is
`twofast_mql`, `ifft` the complex-to-real transform. -/
noncomputable def twofast_1bessel (spline : ℝ → CRes ℝ) (fft : ℕ → (ℕ → ℝ) → ℕ → ℂ) (ifft : ℕ → (ℕ → ℂ) → ℕ → ℝ)
    (mql : ℝ → ℝ → ℝ → ℝ → ℂ) (output_x output_y : Buf ℕ ℝ) (output_len : ℕ) (l nu r0 k0 kmin kmax : ℝ) :
    CRes (Buf ℕ ℝ × Buf ℕ ℝ) := do
  let N2 := output_len / 2 + 1
  let qnu := twofast_selectqnu l nu
  let G := Real.log (kmax / kmin)
  let input_y_fft ← twofast_fft_input spline fft (cmalloc N2) output_len (qnu + nu) k0 kmin kmax
  let output_x ← cfor (upTo 0 output_len) (fun i b => b.store i (logGrid r0 kmin kmax output_len i)) output_x
  let prefactors ← cfor (upTo 0 output_len) (fun i b =>
      b.store i (k0 * k0 * k0 * (kmax / kmin) ^ (-((qnu + nu) * i / output_len)) / Real.pi / (r0 * k0) ^ nu / G))
    (cmalloc output_len : Buf ℕ ℝ)
  let temp_input ← cfor (upTo 0 N2) (fun i b => do
      let y ← input_y_fft.load i
      b.store i (y * mql (2 * Real.pi * i / G) qnu l (k0 * r0))) (cmalloc N2 : Buf ℕ ℂ)
  let input_y_fft ← cfor (upTo 0 N2) (fun i b => do
      let y ← temp_input.load i
      b.store i y) input_y_fft
  let temp_output_y : Buf ℕ ℝ := Buf.of (· < output_len) (ifft output_len fun i => (input_y_fft.val i).getD 0)
  let temp_output_y ← cfor (upTo 0 output_len) (fun i b => do
      let v ← b.load i
      let c ← prefactors.load i
      b.store i (v * c)) temp_output_y
  let output_y ← cfor (upTo 0 output_len) (fun i b => do
      let v ← temp_output_y.load i
      b.store i v) output_y
  pure (output_x, output_y)

/-- `integrals_check_parameters`, src/integrals.c:189-208. -/
noncomputable def integrals_local (m : ℤ) (s : State) : ℝ := if s = .half then (m : ℝ) / 2 else m

/-- `integrals_coefficients`, src/integrals.c:215-231. -/
noncomputable def integrals_coefficients (l : ℤ) (state : State) : ℝ :=
  if state = .half then 1 / (2 : ℝ) ^ ((l : ℝ) / 2 + 0.5) / Real.Gamma ((l : ℝ) / 2 + 1.5)
  else Real.sqrt (Real.pi / 2) / (2 : ℝ) ^ ((l : ℝ) + 0.5) / Real.Gamma ((l : ℝ) + 1.5)

/-- `min_sep`, src/integrals.c:111-126 (`NORM` is the identity, line 42). -/
def min_sep : List ℚ :=
  [1 / 10 ^ 6, 1 / 10 ^ 5, 1 / 10 ^ 4, 1 / 10 ^ 3, 2 / 10 ^ 3, 5 / 10 ^ 3, 7 / 10 ^ 3, 8 / 10 ^ 3, 9 / 10 ^ 3,
   10 / 10 ^ 3, 11 / 10 ^ 3, 12 / 10 ^ 3, 125 / 10 ^ 4, 130 / 10 ^ 4, 135 / 10 ^ 4, 15 / 10 ^ 3, 20 / 10 ^ 3, 25 / 10 ^ 3,
   30 / 10 ^ 3, 35 / 10 ^ 3, 50 / 10 ^ 3, 70 / 10 ^ 3, 80 / 10 ^ 3, 90 / 10 ^ 3, 100 / 10 ^ 3, 110 / 10 ^ 3, 120 / 10 ^ 3,
   125 / 10 ^ 3, 130 / 10 ^ 3, 135 / 10 ^ 3, 150 / 10 ^ 3, 175 / 10 ^ 3, 200 / 10 ^ 3, 250 / 10 ^ 3, 300 / 10 ^ 3,
   350 / 10 ^ 3, 400 / 10 ^ 3, 500 / 10 ^ 3, 600 / 10 ^ 3, 700 / 10 ^ 3, 800 / 10 ^ 3, 900 / 10 ^ 3]

/-- `min_sep_len`, src/integrals.c:133. -/
def min_sep_len : ℕ := min_sep.length

/-- `coffe_integrals_renormalizable`, src/integrals.c:459-573.  `bessel` is the call of `twofast_1bessel` (496-510),
`zero` the integral of `integrals_prefactor` at zero separation (525-535) and `direct` that of
`integrals_bessel_integrand` at a given separation (551-561).  The result is `(output_x, output_y, real_output_len)`. -/
noncomputable def coffe_integrals_renormalizable (bessel : Buf ℕ ℝ → Buf ℕ ℝ → CRes (Buf ℕ ℝ × Buf ℕ ℝ)) (zero : ℝ)
    (direct : ℝ → ℝ) (output_len : ℕ) (k : Key) : CRes (Buf ℕ ℝ × Buf ℕ ℝ × ℕ) := do
  let real_output_len := output_len + min_sep_len + 1
  let local_n := integrals_local k.n k.state_n
  let local_l := integrals_local k.l k.state_l
  let (fft_x, fft_y) ← bessel (cmalloc output_len) (cmalloc output_len)
  let (fft_y, x0_result) ← (if local_n ≥ local_l then do
      let fft_y ← coffe_multiply_power_array_self (some fft_y) (some fft_x) output_len (local_n - local_l)
      pure (fft_y, zero * integrals_coefficients k.l k.state_l)
    else pure (fft_y, 0) : CRes (Buf ℕ ℝ × ℝ))
  let output_x ← (cmalloc real_output_len : Buf ℕ ℝ).store 0 0
  let output_y ← (cmalloc real_output_len : Buf ℕ ℝ).store 0 x0_result
  let (output_x, output_y) ← cfor (upTo 1 (min_sep_len + 1)) (fun i b => do
      let x ← b.1.store i (min_sep.getD (i - 1) 0 : ℝ)
      let v ← x.load i
      let y ← b.2.store i (direct v)
      pure (x, y)) (output_x, output_y)
  let (output_x, output_y) ← cfor (upTo (real_output_len - output_len) real_output_len) (fun i b => do
      let u ← fft_x.load (i - (real_output_len - output_len))
      let x ← b.1.store i u
      let v ← fft_y.load (i - (real_output_len - output_len))
      let y ← b.2.store i v
      pure (x, y)) (output_x, output_y)
  pure (output_x, output_y, real_output_len)

end Coffe
