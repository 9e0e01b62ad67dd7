import Verif.Model.C.Grid
import Verif.Model.C.Parallel
import Mathlib.Analysis.SpecialFunctions.Exp

/-!
# The background stage, src/background.c

The ten arrays of `struct temp_background` are one array of rows here.  The one-dimensional integrator and the
solver of the growth equation (GSL) are parameters.  NaN and infinities are the outcome `nan`.
-/

namespace Coffe
open Classical

/-- What the background stage reads from the parameters. -/
structure BgPar where
  Omega0_cdm : ℝ
  Omega0_baryon : ℝ
  Omega0_gamma : ℝ
  Omega0_de : ℝ
  h : ℝ
  w0 : ℝ
  wa : ℝ
  background_bins : ℕ
  magnification_bias1 : ℝ → ℝ
  magnification_bias2 : ℝ → ℝ
  evolution_bias1 : ℝ → ℝ
  evolution_bias2 : ℝ → ℝ

/-- `coffe_dark_energy_eos`, src/common.c:678-685. -/
noncomputable def coffe_dark_energy_eos (p : BgPar) (z : ℝ) : ℝ := p.w0 + p.wa * z / (1 + z)

/-- `coffe_interp_spline` on a spline of type `COFFE_INTERP_LINEAR`, src/common.c:702-708: GSL's `linear_eval` on the
interval found by the look-up. -/
noncomputable def interp_linear (xa ya : ℕ → ℝ) (n : ℕ) (x : ℝ) : ℝ :=
  linearSegment xa ya (bsearch xa x 0 (n - 1)) x

/-- `bins`, src/background.c:338. -/
def de_bins : ℕ := 16384

/-- `z_array[i]`, src/background.c:337-344. -/
noncomputable def de_z (i : ℕ) : ℝ := 100 * i / de_bins

/-- `ipar.w`, src/background.c:341-347. -/
noncomputable def de_w (p : BgPar) : ℝ → ℝ :=
  interp_linear de_z (fun i => coffe_dark_energy_eos p (de_z i)) (de_bins + 1)

/-- `integrand_w`, src/background.c:255-262. -/
noncomputable def integrand_w (p : BgPar) (z : ℝ) : ℝ := (1 + de_w p z) / (1 + z)

/-- `integrand_x`, src/background.c:268-276. -/
noncomputable def integrand_x (p : BgPar) (a : ℝ) : ℝ := de_w p (1 / a - 1) / a

/-- One-dimensional integration of a function between two points
(`coffe_integrate_1d_prec_gsl` or `coffe_integrate_1d_prec_double_exponential`). -/
abbrev Integrator := (ℝ → ℝ) → ℝ → ℝ → ℝ

/-- `ipar.wint`, src/background.c:350-377. -/
noncomputable def de_wint (Q : Integrator) (p : BgPar) : ℝ → ℝ :=
  interp_linear de_z (fun i => Real.exp (3 * Q (integrand_w p) 0 (de_z i))) (de_bins + 1)

/-- `ipar.xint`, src/background.c:380-421, for a matter density different from one. -/
noncomputable def de_xint (Q : Integrator) (p : BgPar) : ℝ → ℝ :=
  interp_linear de_z (fun i =>
    if i ≠ 0 then
      (p.Omega0_cdm + p.Omega0_baryon) / (1 - (p.Omega0_cdm + p.Omega0_baryon))
        * Real.exp (-3 * Q (integrand_x p) (1 / (1 + de_z i)) 1)
    else (p.Omega0_cdm + p.Omega0_baryon) / (1 - (p.Omega0_cdm + p.Omega0_baryon))) (de_bins + 1)

/-- The sum under the square root, src/background.c:290-292 and 459-461. -/
noncomputable def bg_E (p : BgPar) (wint : ℝ → ℝ) (z : ℝ) : ℝ :=
  (p.Omega0_cdm + p.Omega0_baryon) * (1 + z) ^ 3 + p.Omega0_gamma * (1 + z) ^ 4 + p.Omega0_de * wint z

/-- `integrand_comoving`, src/background.c:283-295. -/
noncomputable def integrand_comoving (p : BgPar) (wint : ℝ → ℝ) (z : ℝ) : ℝ := 1 / Real.sqrt (bg_E p wint z)

/-- `growth_rate_ode`, src/background.c:196-213, for `a ≠ 0`, `x ≠ -1`. -/
noncomputable def growth_rate_ode (w xint : ℝ → ℝ) (a : ℝ) (y : ℝ × ℝ) : ℝ × ℝ :=
  let z := 1 / a - 1
  let w := w z
  let x := xint z
  (y.2, -3 / 2 * (1 - w / (1 + x)) * y.2 / a + 3 / 2 * x / (1 + x) * y.1 / a ^ 2)

/-- `growth_rate_jac`, src/background.c:220-248: the matrix `dfdy`, row by row, and `dfdt`.  `xint'` is
`gsl_spline_eval_deriv` of the spline. -/
noncomputable def growth_rate_jac (w xint xint' : ℝ → ℝ) (a : ℝ) (y : ℝ × ℝ) :
    ((ℝ × ℝ) × (ℝ × ℝ)) × (ℝ × ℝ) :=
  let z := 1 / a - 1
  let w := w z
  let x := xint z
  let x_der := xint' z
  (((0, 1), (3 / 2 / a ^ 2 * (x / (1 + x)), -3 / a / 2 / (1 - w / (1 + x)))),
    (0, 3 * y.2 / a ^ 2 / 2 / (1 - w / (1 + x)) - 3 * y.1 / a ^ 3 * (x / (1 + x))
      - 3 * y.1 / 2 / a ^ 2 * (x * x_der / (1 + x) ^ 2) + 3 * y.1 / 2 / a ^ 2 * (x_der / (1 + x))))

/-- One row of the arrays of `struct temp_background`, src/background.c:169-189. -/
structure BgRow where
  z : ℝ
  a : ℝ
  Hz : ℝ
  conformal_Hz : ℝ
  conformal_Hz_prime : ℝ
  D1 : ℝ
  f : ℝ
  comoving_distance : ℝ
  G1 : ℝ
  G2 : ℝ

/-- `G1`, `G2`, src/background.c:504-536. -/
noncomputable def bg_G (Hp H chi s evo z : ℝ) : CRes ℝ :=
  if z > 1 / 10 ^ 10 then
    if H = 0 ∨ chi = 0 then .error .nan
    else .ok (Hp / H ^ 2 + (2 - 5 * s) / (chi * H) + 5 * s - evo)
  else .ok 0

/-- The body of the loop over the redshifts, src/background.c:446-537.  `solve i a` is the solution of the growth
equation at `a`, started at `a = 0.05` with the values `0.05`, `1`; it may depend on `i` because the solver keeps its
step size from one redshift to the next. -/
noncomputable def bg_row (Q : Integrator) (solve : ℕ → ℝ → ℝ × ℝ) (p : BgPar) (i : ℕ) : CRes BgRow :=
  if p.background_bins = 1 then .error .nan
  else do
    let z : ℝ := 15 * i / ((p.background_bins : ℝ) - 1)
    let w := de_w p z
    let wint := de_wint Q p z
    let a := 1 / (1 + z)
    if bg_E p (de_wint Q p) z < 0 then .error .nan
    else do
      let Hz := Real.sqrt (bg_E p (de_wint Q p) z) * p.h * COFFE_H0
      let conformal_Hz := a * Hz
      let conformal_Hz_prime :=
        -((1 + z) ^ 3 * (2 * (1 + z) * p.Omega0_gamma + (p.Omega0_cdm + p.Omega0_baryon))
          + (1 + 3 * w) * p.Omega0_de * wint) / (1 + z) ^ 2 / 2 * (p.h * COFFE_H0) ^ 2
      let y := solve i a
      if y.1 = 0 ∨ p.h * COFFE_H0 = 0 then .error .nan
      else do
        let f := y.2 * a / y.1
        let chi := Q (integrand_comoving p (de_wint Q p)) 0 z / (p.h * COFFE_H0)
        let G1 ← bg_G conformal_Hz_prime conformal_Hz chi (p.magnification_bias1 z) (p.evolution_bias1 z) z
        let G2 ← bg_G conformal_Hz_prime conformal_Hz chi (p.magnification_bias2 z) (p.evolution_bias2 z) z
        pure ⟨z, a, Hz, conformal_Hz, conformal_Hz_prime, y.1, f, chi, G1, G2⟩

/-- The loops of `coffe_background_init`, src/background.c:446-543. -/
noncomputable def background_rows (Q : Integrator) (solve : ℕ → ℝ → ℝ × ℝ) (p : BgPar) : CRes (Buf ℕ BgRow) := do
  let rows ← cfor (upTo 0 p.background_bins) (fun i b => do
    let r ← bg_row Q solve p i
    b.store i r) (cmalloc p.background_bins)
  let r0 ← rows.load 0
  cfor (upTo 0 p.background_bins) (fun i b => do
    let r ← b.load i
    if r0.D1 = 0 then .error .nan else b.store i { r with D1 := r.D1 / r0.D1 }) rows

/-- `coffe_init_spline` with Akima interpolation while GSL's error handler is switched off, src/common.c:524-576:
an empty table leaves the program, and for less than five points `gsl_spline_alloc` returns NULL, which is then
dereferenced.  Values of `x` that do not increase leave the spline uninitialised. -/
noncomputable def init_akima (n : ℕ) (increasing : Prop) : CRes Unit :=
  if n = 0 then .error .exit
  else if n < 5 then .error .null
  else if increasing then .ok ()
  else .error .uninit

/-- `coffe_background_init`, src/background.c:301-696, without the bias coefficients (lines 639-683): the tables
that are given to the splines; all are functions of `z` except the last one, which inverts the distance. -/
noncomputable def background_init (Q : Integrator) (solve : ℕ → ℝ → ℝ × ℝ) (p : BgPar) : CRes (Buf ℕ BgRow) := do
  let rows ← background_rows Q solve p
  init_akima p.background_bins (∀ i j ri rj, i < j → rows.val i = some ri → rows.val j = some rj → ri.z < rj.z)
  init_akima p.background_bins (∀ i j ri rj, i < j → rows.val i = some ri → rows.val j = some rj →
    ri.comoving_distance < rj.comoving_distance)
  pure rows

end Coffe
