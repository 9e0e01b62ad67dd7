import Verif.Model.C.Grid
import Verif.Model.C.Angular
import Mathlib.Analysis.SpecialFunctions.Trigonometric.Basic

/-!
# The covariance

`coffe_covariance_init` (src/covariance.c:476-1082) and the functions it uses.  `double ***integral_pk` is a buffer
indexed by redshift, pair of multipoles and pair of separations.  External: spherical Bessel functions and the sine
integral (GSL), the one-dimensional quadratures, the two-dimensional FFTLog.  The results are real numbers; division
by zero is not an error here.
-/

namespace Coffe
open Classical

/-- `coffe_kronecker_delta`, src/common.c:1401-1407. -/
noncomputable def kronecker_delta (i j : ℤ) : ℝ := if i = j then 1 else 0

/-- `coffe_sign`, src/common.c:1414-1419. -/
noncomputable def sign (m : ℤ) : ℝ := if m.natAbs % 2 = 0 then 1 else -1

/-- The settings the covariance depends on (fields of `coffe_parameters_t`). -/
structure CovPar where
  z_mean : List ℝ
  deltaz : List ℝ
  zmin : List ℝ
  zmax : List ℝ
  multipole_values : List ℕ
  sep : List ℝ
  density1 : List ℝ
  density2 : List ℝ
  fsky : List ℝ
  pixelsize : List ℝ
  /-- `pk_type == COFFE_PK_LINEAR` -/
  pk_linear : Bool
  covariance_window : Bool
  covariance_cosmic : Bool
  covariance_mixed : Bool
  covariance_poisson : Bool
  /-- `covariance_integration_method == COFFE_COVARIANCE_INTEGRATION_FFTLOG` (otherwise standard) -/
  fftlog : Bool
  pop1 : ℤ
  pop2 : ℤ
  pop3 : ℤ
  pop4 : ℤ
  den : Bool
  rsd : Bool
  galaxy_bias1 : ℝ → ℝ
  galaxy_bias2 : ℝ → ℝ
  galaxy_bias3 : ℝ → ℝ
  galaxy_bias4 : ℝ → ℝ
  h : ℝ
  /-- `output_type == COVARIANCE_AVERAGE_MULTIPOLES` (otherwise `COVARIANCE_MULTIPOLES`) -/
  average : Bool

/-- External numerics. -/
structure CovNum where
  /-- quadrature between `k_min` and `k_max` of the spectrum of redshift number `r` (src/covariance.c:290-351) -/
  quadK : ℕ → (ℝ → ℝ) → ℝ
  /-- quadrature between two redshifts (src/covariance.c:812-845) -/
  quadZ : ℝ → ℝ → (ℝ → ℝ) → ℝ
  /-- spherical Bessel function -/
  bessel : ℕ → ℝ → ℝ
  /-- sine integral -/
  Si : ℝ → ℝ
  /-- interpolated P(k), P(k)² for redshift number `r` (src/covariance.c:549-640) -/
  pk : ℕ → ℝ → ℝ
  pk2 : ℕ → ℝ → ℝ
  /-- `covariance_integrate_fftlog` (src/covariance.c:357-470) with power 1 or 2: interpolated at two separations -/
  fft : ℕ → ℕ → ℕ → ℝ → ℝ → ℝ
  /-- `COFFE_H0` -/
  H0 : ℝ

/-- `covariance_volume_no_4pi`, src/covariance.c:168-174. -/
noncomputable def covariance_volume_no_4pi (r_min r_max : ℝ) : ℝ := (r_max ^ 3 - r_min ^ 3) / 3

/-- `integral_power_spherical_bessel1_unit` with `n = 2`, src/covariance.c:196-238. -/
noncomputable def integral_bessel_unit (E : CovNum) (l : ℕ) (x : ℝ) : ℝ :=
  match l with
  | 0 => -x * Real.cos x + Real.sin x
  | 1 => -2 * Real.cos x - x * Real.sin x
  | 2 => x * Real.cos x - 4 * Real.sin x + 3 * E.Si x
  | 3 => 7 * Real.cos x + ((-15 + x * x) * Real.sin x) / x
  | 4 => ((105 / x - 2 * x) * Real.cos x + (22 - 105 / x ^ 2) * Real.sin x + 15 * E.Si x) / 2
  | 5 => ((315 * x - 16 * x ^ 3) * Real.cos x - (315 - 105 * x ^ 2 + x ^ 4) * Real.sin x) / x ^ 3
  | 6 => (x * (20790 - 1575 * x ^ 2 + 8 * x ^ 4) * Real.cos x
      + (-20790 + 8505 * x ^ 2 - 176 * x ^ 4) * Real.sin x + 105 * x ^ 4 * E.Si x) / (8 * x ^ 4)
  | _ => 0

/-- `integral_power_spherical_bessel1` with `n = 2`, src/covariance.c:241-254. -/
noncomputable def integral_bessel (E : CovNum) (l : ℕ) (k x : ℝ) : ℝ := integral_bessel_unit E l (k * x) / k ^ 3

/-- `covariance_windowed_bessel`, src/covariance.c:257-284. -/
noncomputable def windowed_bessel (E : CovNum) (s : ℝ) (ell : ℕ) (k s_mean s_delta : ℝ) : ℝ :=
  if s_delta = 0 then E.bessel ell (s * k)
  else 1 / covariance_volume_no_4pi (s_mean - s_delta / 2) (s_mean + s_delta / 2)
    * (integral_bessel E ell k (s_mean + s_delta / 2) - integral_bessel E ell k (s_mean - s_delta / 2))

/-- `covariance_integrand`, src/covariance.c:287-309. -/
noncomputable def covariance_integrand (E : CovNum) (P : ℝ → ℝ) (chi1 chi2 d1 d2 : ℝ) (l1 l2 : ℕ) (k : ℝ) : ℝ :=
  k * k * P k * windowed_bessel E chi1 l1 k chi1 d1 * windowed_bessel E chi2 l2 k chi2 d2

/-- `covariance_integral`, src/covariance.c:312-351. -/
noncomputable def covariance_integral (E : CovNum) (r : ℕ) (P : ℝ → ℝ) (chi1 chi2 d1 d2 : ℝ) (l1 l2 : ℕ) : ℝ :=
  2 * E.quadK r (covariance_integrand E P chi1 chi2 d1 d2 l1 l2) / Real.pi

/-- `integral_pk` or `integral_pk2`: cell (redshift, `i * L + j`, `S * n + m`). -/
abbrev IBuf := Buf (ℕ × ℕ × ℕ) ℝ

/-- Allocation of `integral_pk`, src/covariance.c:531-548. -/
def alloc_integral (R L S : ℕ) : IBuf := Buf.new fun p => p.1 < R ∧ p.2.1 < L * L ∧ p.2.2 < S * S

/-- Standard integration of one table for one redshift, src/covariance.c:651-705: the loops over `m`, `n` for
`i ≤ j`.  `c` is 1 for `integral_pk` and 2 for `integral_pk2` (which is divided by 2); `on` is the flag of
the part that needs the table. -/
noncomputable def fill_standard (p : CovPar) (E : CovNum) (r : ℕ) (P : ℝ → ℝ) (on : Bool) (c : ℝ) (b : IBuf) : CRes IBuf :=
  cfor (upTo 0 p.multipole_values.length) (fun i => cfor (upTo i p.multipole_values.length) fun j =>
    cfor (upTo 0 p.sep.length) fun m => cfor (upTo 0 p.sep.length) fun n b =>
      if on then do
        let li ← ld p.multipole_values i
        let lj ← ld p.multipole_values j
        let sm ← ld p.sep m
        let sn ← ld p.sep n
        let d ← if p.covariance_window then ld p.pixelsize r else pure 0
        b.store (r, i * p.multipole_values.length + j, p.sep.length * n + m)
          ((2 * (li : ℝ) + 1) * (2 * lj + 1) * covariance_integral E r P sm sn d d li lj / c / Real.pi)
      else .ok b) b

/-- FFTLog integration of one table for one redshift, src/covariance.c:727-771. -/
noncomputable def fill_fftlog (p : CovPar) (E : CovNum) (r : ℕ) (power : ℕ) (c : ℝ) (b : IBuf) : CRes IBuf :=
  cfor (upTo 0 p.multipole_values.length) (fun i => cfor (upTo i p.multipole_values.length) fun j =>
    cfor (upTo 0 p.sep.length) fun m => cfor (upTo 0 p.sep.length) fun n b => do
      let li ← ld p.multipole_values i
      let lj ← ld p.multipole_values j
      let sm ← ld p.sep m
      let sn ← ld p.sep n
      b.store (r, i * p.multipole_values.length + j, p.sep.length * n + m)
        (E.fft power li lj sm sn * ((2 * (li : ℝ) + 1) * (2 * lj + 1) * c / Real.pi / Real.pi))) b

/-- Copy one cell; an indeterminate `double` may be copied (but not used). -/
noncomputable def Buf.copy {ι α : Type} (b : Buf ι α) (dst src : ι) : CRes (Buf ι α) :=
  if b.dom src ∧ b.dom dst then .ok ⟨b.dom, Function.update b.val dst (b.val src)⟩ else .error .oob

/-- Setting the transpose, src/covariance.c:780-791. -/
noncomputable def fill_transpose (p : CovPar) (R : ℕ) (b : IBuf) : CRes IBuf :=
  cfor (upTo 0 R) (fun r => cfor (upTo 0 p.multipole_values.length) fun i => cfor (upTo 0 i) fun j =>
    cfor (upTo 0 p.sep.length) fun m => cfor (upTo 0 p.sep.length) fun n b =>
      b.copy (r, i * p.multipole_values.length + j, p.sep.length * n + m)
        (r, j * p.multipole_values.length + i, p.sep.length * m + n)) b

/-- Both tables, src/covariance.c:549-791. -/
noncomputable def integral_tables (p : CovPar) (E : CovNum) : CRes (IBuf × IBuf) := do
  let R := if p.pk_linear then 1 else p.z_mean.length
  let L := p.multipole_values.length
  let S := p.sep.length
  let a ← cfor (upTo 0 R) (fun r a =>
    if p.fftlog then fill_fftlog p E r 1 2 a else fill_standard p E r (E.pk r) p.covariance_mixed 1 a) (alloc_integral R L S)
  let b ← cfor (upTo 0 R) (fun r b =>
    if p.fftlog then fill_fftlog p E r 2 1 b else fill_standard p E r (E.pk2 r) p.covariance_cosmic 2 b) (alloc_integral R L S)
  let a ← fill_transpose p R a
  let b ← fill_transpose p R b
  pure (a, b)

/-- The mean redshift of bin `k`, src/covariance.c:800, 814. -/
noncomputable def cov_z_mean (p : CovPar) (k : ℕ) : CRes ℝ :=
  if p.average then do
    let a ← ld p.zmin k
    let b ← ld p.zmax k
    pure ((a + b) / 2)
  else ld p.z_mean k

/-- `volume[k]`, src/covariance.c:798-846. -/
noncomputable def cov_volume (p : CovPar) (E : CovNum) (bg : Bg) (k : ℕ) : CRes ℝ := do
  let fsky ← ld p.fsky k
  if p.average then do
    let a ← ld p.zmin k
    let b ← ld p.zmax k
    pure (4 * Real.pi * fsky / E.quadZ a b (fun z => 1 / bg.conformal_Hz z / bg.comoving_distance z ^ 2 / (1 + z))
      / (E.H0 * p.h) ^ 2)
  else do
    let z ← ld p.z_mean k
    let dz ← ld p.deltaz k
    pure (4 * Real.pi * fsky * covariance_volume_no_4pi (bg.comoving_distance (z - dz)) (bg.comoving_distance (z + dz)))

/-- `bias[population - 1]` in the array of four values, src/covariance.c:60-74, 863. -/
noncomputable def cov_bias (p : CovPar) (z : ℝ) (population : ℤ) : CRes ℝ :=
  if population = 1 then .ok (if p.den then p.galaxy_bias1 z else 0)
  else if population = 2 then .ok (if p.den then p.galaxy_bias2 z else 0)
  else if population = 3 then .ok (if p.den then p.galaxy_bias3 z else 0)
  else if population = 4 then .ok (if p.den then p.galaxy_bias4 z else 0)
  else .error .oob

/-- `coeff_cosmic_sum`, src/covariance.c:880-903. -/
noncomputable def coeff_cosmic (b1 b2 b3 b4 f : ℝ) (l1 l2 : ℕ) : ℝ :=
  (([0, 2, 4] : List ℕ).map fun c1 => (([0, 2, 4] : List ℕ).map fun c2 =>
    (covariance_coefficient b1 b3 f c1 * covariance_coefficient b2 b4 f c2
      + sign c2 * covariance_coefficient b1 b4 f c1 * covariance_coefficient b2 b3 f c2)
      * legendre_integral l1 l2 c1 c2).sum).sum / 4

/-- `coeff_mixed_sum`, src/covariance.c:905-947. -/
noncomputable def coeff_mixed (p : CovPar) (b1 b2 b3 b4 f n1 n2 : ℝ) (l1 l2 : ℕ) : ℝ :=
  (([0, 2, 4] : List ℕ).map fun c =>
    (covariance_coefficient b1 b3 f c * kronecker_delta p.pop2 p.pop4 / n2
      + covariance_coefficient b2 b4 f c * kronecker_delta p.pop1 p.pop3 / n1
      + covariance_coefficient b1 b4 f c * kronecker_delta p.pop2 p.pop3 / n2
      + covariance_coefficient b2 b3 f c * kronecker_delta p.pop1 p.pop4 / n1)
      * legendre_integral l1 l2 c 0).sum / 8

/-- One value, src/covariance.c:872-1022: redshift number `k`, multipoles number `i`, `j`, separations
number `m`, `n`. -/
noncomputable def cov_cell (p : CovPar) (bg : Bg) (A B : IBuf) (volume z : ℝ) (k i m j n : ℕ) : CRes ℝ := do
  let L := p.multipole_values.length
  let S := p.sep.length
  let f := if p.rsd then bg.f z else 0
  let D1z := bg.D1 z
  let l1 ← ld p.multipole_values i
  let l2 ← ld p.multipole_values j
  let b1 ← cov_bias p z p.pop1
  let b2 ← cov_bias p z p.pop2
  let b3 ← cov_bias p z p.pop3
  let b4 ← cov_bias p z p.pop4
  let n1 ← ld p.density1 k
  let n2 ← ld p.density2 k
  let poisson ← if p.covariance_poisson then do
      let pix ← ld p.pixelsize k
      let sm ← ld p.sep m
      let sn ← ld p.sep n
      pure ((2 * (l1 : ℝ) + 1) / 4 / Real.pi * kronecker_delta l1 l2 * kronecker_delta m n
        * (kronecker_delta p.pop1 p.pop3 * kronecker_delta p.pop2 p.pop4
          + sign l2 * kronecker_delta p.pop1 p.pop4 * kronecker_delta p.pop2 p.pop3)
        * (if p.covariance_window then 1 / covariance_volume_no_4pi (sm - pix / 2) (sm + pix / 2) else 1 / sn / sm / pix)
        / n1 / n2 / volume)
    else pure 0
  let mixed ← if p.covariance_mixed then do
      let v ← A.load (if p.pk_linear then 0 else k, i * L + j, S * n + m)
      pure (sign (((l2 : ℤ) - l1).tdiv 2) * sign (l1 + l2) * (if p.pk_linear then D1z * D1z else 1) * v
        * coeff_mixed p b1 b2 b3 b4 f n1 n2 l1 l2 / volume)
    else pure 0
  let cosmic ← if p.covariance_cosmic then do
      let v ← B.load (if p.pk_linear then 0 else k, i * L + j, S * n + m)
      pure (sign (((l2 : ℤ) - l1).tdiv 2) * (if p.pk_linear then D1z * D1z * D1z * D1z else 1) * v
        * coeff_cosmic b1 b2 b3 b4 f l1 l2 / volume)
    else pure 0
  pure (poisson + mixed + cosmic)

/-- Coordinates of an entry: mean redshift (or the two limits), multipoles and separations. -/
structure CovCoord where
  z1 : ℝ
  z2 : ℝ
  l1 : ℕ
  l2 : ℕ
  sep1 : ℝ
  sep2 : ℝ

/-- The value loop, src/covariance.c:793-1033. -/
noncomputable def cov_values (p : CovPar) (E : CovNum) (bg : Bg) (A B : IBuf) (size : ℕ) : CRes (Buf ℕ ℝ × ℕ) :=
  cfor (upTo 0 p.density1.length) (fun k s => do
    let volume ← cov_volume p E bg k
    let z ← cov_z_mean p k
    cfor (upTo 0 p.multipole_values.length) (fun i => cfor (upTo 0 p.sep.length) fun m =>
      cfor (upTo 0 p.multipole_values.length) fun j => cfor (upTo 0 p.sep.length) fun n s => do
        let v ← cov_cell p bg A B volume z k i m j n
        push v s) s) (cmalloc size, 0)

/-- The coordinate loops, src/covariance.c:1034-1068.  For mean redshifts `z2` repeats `z1`. -/
noncomputable def cov_coords (p : CovPar) (size : ℕ) : CRes (Buf ℕ CovCoord × ℕ) :=
  cfor (upTo 0 (if p.average then p.zmin.length else p.z_mean.length)) (fun k =>
    cfor (upTo 0 p.multipole_values.length) fun i => cfor (upTo 0 p.sep.length) fun m =>
      cfor (upTo 0 p.multipole_values.length) fun j => cfor (upTo 0 p.sep.length) fun n s => do
        let z1 ← ld (if p.average then p.zmin else p.z_mean) k
        let z2 ← ld (if p.average then p.zmax else p.z_mean) k
        let l1 ← ld p.multipole_values i
        let l2 ← ld p.multipole_values j
        let r1 ← ld p.sep m
        let r2 ← ld p.sep n
        push (⟨z1, z2, l1, l2, r1, r2⟩ : CovCoord) s) (cmalloc size, 0)

/-- `coffe_covariance_init` with one of the two covariance output types, src/covariance.c:476-1082. -/
noncomputable def covariance_init (p : CovPar) (E : CovNum) (bg : Bg) : CRes (Buf ℕ CovCoord × Buf ℕ ℝ) := do
  let size := p.multipole_values.length * p.multipole_values.length * p.sep.length * p.sep.length
    * (if p.average then p.zmin.length else p.z_mean.length)
  let (A, B) ← integral_tables p E
  let (values, _) ← cov_values p E bg A B size
  let (coords, _) ← cov_coords p size
  pure (coords, values)

end Coffe
