import Verif.Model.C.Twofast
import Verif.Model.C.Common
import Mathlib.Data.Nat.Factorial.DoubleFactorial
import Mathlib.Topology.Algebra.InfiniteSum.Defs
import Mathlib.Analysis.SpecialFunctions.Pow.Real

/-!
# Model of the values in the integral tables, src/integrals.c

The integrands (215-446), the divergent entry (773-914), the rescaled flat-sky entry (916-974) and the tables that depend
on the redshift (663-767, 975-1078).  `quad f a b` is `coffe_integrate_1d_prec_gsl` with the relative precision 1e-5.
`P` is `coffe_interp_spline` on the spectrum.  The Bessel functions of GSL are taken to be exact.
-/

namespace Coffe
open Classical

/-- `gsl_sf_bessel_jl`, the spherical Bessel function (used in src/integrals.c:309-312 with `l ≥ 0`). -/
noncomputable def gsl_sf_bessel_jl (l : ℕ) (x : ℝ) : ℝ :=
  x ^ l * ∑' n : ℕ, (-1) ^ n / (2 ^ n * (n.factorial : ℝ) * (Nat.doubleFactorial (2 * (n + l) + 1) : ℝ)) * (x ^ 2) ^ n

/-- `gsl_sf_bessel_j0` (src/integrals.c:397, 414-415). -/
noncomputable def gsl_sf_bessel_j0 (x : ℝ) : ℝ := gsl_sf_bessel_jl 0 x

/-- `gsl_sf_bessel_Jn`, the cylindrical Bessel function (used in src/integrals.c:300-303 with an order that is not
negative). -/
noncomputable def gsl_sf_bessel_Jn (m : ℕ) (x : ℝ) : ℝ :=
  (x / 2) ^ m * ∑' n : ℕ, (-1) ^ n / ((n.factorial : ℝ) * ((n + m).factorial : ℝ)) * ((x / 2) ^ 2) ^ n

/-- `integrals_prefactor`, src/integrals.c:238-269. -/
noncomputable def integrals_prefactor (P : ℝ → ℝ) (e : Key) (k : ℝ) : ℝ :=
  let local_n := integrals_local e.n e.state_n
  let local_l := integrals_local e.l e.state_l
  if e.state_n = .half ∧ e.state_l = .half then
    Real.sqrt (Real.pi / 2) * k ^ (2 + local_l - local_n) * P k
  else k ^ (2 + local_l - local_n) * P k

/-- `integrals_bessel_integrand`, src/integrals.c:280-325.  `(int)((l + 1) / 2)` is a division of integers. -/
noncomputable def integrals_bessel_integrand (P : ℝ → ℝ) (e : Key) (r k : ℝ) : ℝ :=
  let local_n := integrals_local e.n e.state_n
  let bessel_function :=
    if e.state_l = .half then
      Real.sqrt (Real.pi / 2) * gsl_sf_bessel_Jn ((e.l + 1).tdiv 2).toNat (k * r) / (k * r) ^ (local_n + 0.5)
    else gsl_sf_bessel_jl e.l.toNat (k * r) / (k * r) ^ local_n
  k * k * P k * bessel_function

/-- `integrals_integrate_function`, src/integrals.c:333-383, applied to the integrand `func`. -/
noncomputable def integrals_integrate_function (quad : (ℝ → ℝ) → ℝ → ℝ → ℝ) (func : ℝ → ℝ) (e : Key)
    (sep kmin kmax : ℝ) : ℝ :=
  let local_n := integrals_local e.n e.state_n
  let local_l := integrals_local e.l e.state_l
  let result := quad func kmin kmax
  let output := if local_n ≥ local_l ∧ sep > 0 then result * sep ^ (local_n - local_l) else result
  output / 2 / Real.pi / Real.pi

/-- `integrals_renormalization0_integrand`, src/integrals.c:390-399. -/
noncomputable def integrals_renormalization0_integrand (P : ℝ → ℝ) (r k : ℝ) : ℝ :=
  P k * (1 - gsl_sf_bessel_j0 (k * r) ^ 2) / k / k

/-- `integrals_renormalization_integrand`, src/integrals.c:406-417. -/
noncomputable def integrals_renormalization_integrand (P : ℝ → ℝ) (chi1 chi2 k : ℝ) : ℝ :=
  P k * gsl_sf_bessel_j0 (k * chi1) * gsl_sf_bessel_j0 (k * chi2) / k / k

/-- `integrals_renormalization`, src/integrals.c:424-446. -/
noncomputable def integrals_renormalization (quad : (ℝ → ℝ) → ℝ → ℝ → ℝ) (P : ℝ → ℝ) (chi1 chi2 kmin kmax : ℝ) : ℝ :=
  quad (integrals_renormalization_integrand P chi1 chi2) kmin kmax / 2 / Real.pi / Real.pi

/-- The value at zero separation before the factor `integrals_coefficients`, src/integrals.c:525-535. -/
noncomputable def zero_separation_value (quad : (ℝ → ℝ) → ℝ → ℝ → ℝ) (P : ℝ → ℝ) (e : Key) (kmin kmax : ℝ) : ℝ :=
  integrals_integrate_function quad (integrals_prefactor P e) e 0 kmin kmax

/-- The value at a positive separation computed without the FFT, src/integrals.c:551-561. -/
noncomputable def direct_value (quad : (ℝ → ℝ) → ℝ → ℝ → ℝ) (P : ℝ → ℝ) (e : Key) (kmin kmax r : ℝ) : ℝ :=
  integrals_integrate_function quad (integrals_bessel_integrand P e r) e r kmin kmax

/-! ## The divergent entry -/

/-- `coffe_sep`, src/integrals.c:76-96. -/
def coffe_sep : List ℚ :=
  [1 / 10 ^ 6, 5 / 10 ^ 6, 1 / 10 ^ 4, 5 / 10 ^ 3, 1 / 100, 2 / 100, 5 / 100, 1 / 10, 2 / 10, 4 / 10, 8 / 10, 1, 15 / 10,
   2, 3, 4, 5, 6, 7, 8, 9, 10, 11, 12, 13, 14, 15, 16, 17, 18, 19, 20, 21, 22, 23, 24, 25, 26, 27, 28, 29, 30, 32,
   34, 36, 38, 40, 42, 44, 46, 48, 50, 52, 54, 56, 58, 60, 62, 64, 66, 68, 70, 72, 74, 76, 78, 80, 81, 82, 83, 84,
   85, 86, 87, 88, 89, 90, 91, 92, 93, 94, 95, 191 / 2, 96, 193 / 2, 97, 195 / 2, 98, 197 / 2, 99, 199 / 2, 100,
   201 / 2, 101, 203 / 2, 102, 205 / 2, 103, 207 / 2, 104, 209 / 2, 105, 106, 107, 108, 109, 110, 112, 114, 116, 118,
   120, 124, 128, 132, 136, 140, 144, 148, 152, 156, 160, 164, 168, 172, 176, 180, 185, 190, 195, 200, 205, 210, 215,
   220, 225, 230, 235, 240, 250, 260, 270, 280, 290, 300, 320, 340, 360, 380, 400, 420, 440, 460, 480, 500, 520, 540,
   560, 580, 600, 620, 640, 660, 680, 700, 750, 800, 850, 900, 950, 1000, 1050, 1100, 1150, 1200, 1250, 1300, 1350,
   1400, 1450, 1500, 1550, 1600, 1650, 1700, 1750, 1800, 1850, 1900, 1950, 2000, 2050, 2100, 2150, 2200, 2250, 2300,
   2350, 2400, 2450, 2500, 2550, 2600, 2650, 2700, 2750, 2800, 2850, 2900, 2950, 3000, 3050, 3100, 3150, 3200, 3250,
   3300, 3350, 3400, 3450, 3500, 3550, 3600, 3650, 3700, 3750, 3800, 3850, 3900, 3950, 4000, 4050, 4100, 4150, 4200,
   4250, 4300, 4350, 4400, 4450, 4500, 4550, 4600, 4650, 4700, 4750, 4800, 4850, 4900, 4950, 5000, 5050, 5100, 5150,
   5200, 5250, 5300, 5350, 5400, 5450, 5500, 5550, 5600, 5650, 5700, 5750, 5800, 5850, 5900, 5950, 6000, 6050, 6100,
   6150, 6200, 6250, 6300, 6350, 6400, 6450, 6500, 6550, 6600, 7000, 8000, 9000, 10000, 11000, 12000, 13000, 14000,
   15000, 16000, 17000, 18000, 19000, 20000]

/-- `separations` and `result`, the table of the divergent entry, src/integrals.c:797-835.  The iterations of the loop
write different cells. -/
noncomputable def divergent_result (quad : (ℝ → ℝ) → ℝ → ℝ → ℝ) (P : ℝ → ℝ) (kmin kmax : ℝ) : List (ℝ × ℝ) :=
  coffe_sep.map fun s : ℚ => ((s : ℝ), integrals_integrate_function quad
    (integrals_bessel_integrand P ⟨4, 0, .int, .int⟩ s) ⟨4, 0, .int, .int⟩ s kmin kmax)

/-- `separations` and `result0`, the table `renormalization_zero_separation`, src/integrals.c:797-846: the first separation
and the first value are replaced by zero. -/
noncomputable def divergent_result0 (quad : (ℝ → ℝ) → ℝ → ℝ → ℝ) (P : ℝ → ℝ) (kmin kmax : ℝ) : List (ℝ × ℝ) :=
  (coffe_sep.map fun s : ℚ => ((s : ℝ), integrals_integrate_function quad
    (integrals_renormalization0_integrand P s) ⟨4, 0, .int, .int⟩ s kmin kmax)).set 0 (0, 0)

/-- `nbins`, src/integrals.c:851. -/
def renormalization_nbins : ℕ := 200

/-- `chi_array`, src/integrals.c:856, 879-884. -/
noncomputable def renormalization_chi (chi_max : ℝ) (j : ℕ) : ℝ := 0 + (j : ℝ) / renormalization_nbins * (chi_max - 0)

/-- `chi_max`, src/integrals.c:857-878; `coffe_max_array_double` starts from the first entry. -/
noncomputable def renormalization_chi_max (out : OutputType) (comoving_distance : ℝ → ℝ) (z_mean deltaz zmax : List ℝ) : ℝ :=
  if out = .CORRFUNC ∨ out = .MULTIPOLES then
    comoving_distance ((List.zipWith (· + ·) z_mean deltaz).foldl max ((List.zipWith (· + ·) z_mean deltaz).headD 0))
  else if out = .AVERAGE_MULTIPOLES then comoving_distance (zmax.foldl max (zmax.headD 0))
  else 0

/-! ## The tables that depend on the redshift -/

/-- `z_size`, src/integrals.c:677, 989. -/
def result2d_z_size : ℕ := 100

/-- `z`, src/integrals.c:675, 682-683 (and 987, 994-995). -/
noncomputable def result2d_z (i : ℕ) : ℝ := 0 + 3 * (i : ℝ) / result2d_z_size

/-- A spectrum as it is handed over to `coffe_integrals_renormalizable`: its own spline (`coffe_interp_spline`) and the cubic
spline that `twofast_1bessel` builds from the same samples. -/
structure SpectrumSpline where
  eval : ℝ → ℝ
  cubic : ℝ → CRes ℝ

/-- The routines that are not modelled: quadrature, the two Fourier transforms and `twofast_mql`. -/
structure TableNum where
  quad : (ℝ → ℝ) → ℝ → ℝ → ℝ
  fft : ℕ → (ℕ → ℝ) → ℕ → ℂ
  ifft : ℕ → (ℕ → ℂ) → ℕ → ℝ
  mql : ℝ → ℝ → ℝ → ℝ → ℂ

/-- The call of `coffe_integrals_renormalizable` with its numerical routines filled in, src/integrals.c:459-573. -/
noncomputable def integral_table (N : TableNum) (S : SpectrumSpline) (e : Key) (npoints : ℕ) (kmin kmax : ℝ) :
    CRes (Buf ℕ ℝ × Buf ℕ ℝ × ℕ) :=
  coffe_integrals_renormalizable
    (fun X Y => twofast_1bessel S.cubic N.fft N.ifft N.mql X Y npoints (integrals_local e.l e.state_l)
      (integrals_local e.n e.state_n) 1 kmin kmin kmax)
    (zero_separation_value N.quad S.eval e kmin kmax) (direct_value N.quad S.eval e kmin kmax) npoints e

/-- The samples of `result`.  Only the flat-sky entry (src/integrals.c:916-970) is rescaled (958-962); the others are not
(638-658, 1112-1134, 1277-1299). -/
noncomputable def integral_result (N : TableNum) (S : SpectrumSpline) (e : Key) (npoints : ℕ) (kmin kmax : ℝ) :
    CRes (Buf ℕ ℝ × Buf ℕ ℝ × ℕ) := do
  let (x, y, len) ← integral_table N S e npoints kmin kmax
  if e = ⟨1, -1, .half, .half⟩ then
    let y ← coffe_rescale_array (some y) len (Real.sqrt (2 / Real.pi) * 2 * Real.pi * Real.pi)
    pure (x, y, len)
  else pure (x, y, len)

/-- The samples `pk_at_z2d` of `result2d`, src/integrals.c:686-750, 998-1062, 1162-1226, 1327-1391 (the same in the four places).
`S z` is the spectrum that CLASS returns for the redshift `z` (694-720). -/
noncomputable def integral_result2d (N : TableNum) (S : ℝ → SpectrumSpline) (e : Key) (npoints : ℕ) (kmin kmax : ℝ)
    (output_real_len : ℕ) : CRes (Buf ℕ ℝ) :=
  cfor (upTo 0 result2d_z_size) (fun i pk_at_z2d => do
      let (_, final_result, output_real_len) ← integral_table N (S (result2d_z i)) e npoints kmin kmax
      cfor (upTo 0 output_real_len) (fun j b => do
          let v ← final_result.load j
          b.store (j * result2d_z_size + i) v) pk_at_z2d)
    (cmalloc (result2d_z_size * output_real_len))

end Coffe
