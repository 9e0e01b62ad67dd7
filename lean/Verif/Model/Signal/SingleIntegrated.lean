import Verif.Model.Signal.Types

/-!
# Model of `functions_single_integrated`, src/functions.c:1486-3457

One definition per `/* X-Y term */` block; each `result += e` of the C code is the value of the
block.  The expressions below follow the C text token by token (the transcription was made
mechanically from the C source with `HAVE_CLASS` defined; the build without CLASS is the case
`pk_type = COFFE_PK_LINEAR`).  Simplifications: doubles are reals, splines are functions, and the
`gsl_finite(result)` test (line 3425) is always true over ℝ.
-/

namespace Coffe
open Classical

/-- Local variables of `functions_single_integrated` (src/functions.c:1496-1557). -/
structure SingleEnv where
  z_mean : ℝ
  mu : ℝ
  sep : ℝ
  x : ℝ
  chi_mean : ℝ
  chi1 : ℝ
  chi2 : ℝ
  costheta : ℝ
  lambda1 : ℝ
  lambda2 : ℝ
  r21 : ℝ
  r22 : ℝ
  z1_const : ℝ
  z2_const : ℝ
  z1 : ℝ
  z2 : ℝ
  s1 : ℝ
  s2 : ℝ
  sz_mean1 : ℝ
  sz_mean2 : ℝ
  b1 : ℝ
  b2 : ℝ
  bz_mean1 : ℝ
  bz_mean2 : ℝ
  ren1 : ℝ
  ren2 : ℝ

/-- Values given to the local variables of `functions_single_integrated`, src/functions.c:1496-1557. -/
noncomputable def SingleEnv.of (par : Par) (bg : Bg) (I : Ints)
    (z_mean mu sep x : ℝ) : SingleEnv :=
  let chi_mean : ℝ := bg.comoving_distance z_mean
  let chi1 : ℝ := chi_mean - sep * mu / 2
  let chi2 : ℝ := chi_mean + sep * mu / 2
  let costheta : ℝ :=
    (2 * chi_mean * chi_mean - sep * sep + mu * mu * sep * sep / 2)
    / (2 * chi_mean * chi_mean - mu * mu * sep * sep / 2)
  let lambda1 : ℝ := chi1 * x
  let lambda2 : ℝ := chi2 * x
  let r21 : ℝ := lambda2 * lambda2 + chi1 * chi1 - 2 * chi1 * lambda2 * costheta
  let r22 : ℝ := lambda1 * lambda1 + chi2 * chi2 - 2 * chi2 * lambda1 * costheta
  let r21 : ℝ := if r21 < 0 then 0 else r21
  let r22 : ℝ := if r22 < 0 then 0 else r22
  let z1_const : ℝ := bg.z_as_chi chi1
  let z2_const : ℝ := bg.z_as_chi chi2
  let z1 : ℝ := bg.z_as_chi lambda1
  let z2 : ℝ := bg.z_as_chi lambda2
  let s1 : ℝ := par.magnification_bias1 z1_const
  let s2 : ℝ := par.magnification_bias2 z2_const
  let sz_mean1 : ℝ := par.magnification_bias1 z_mean
  let sz_mean2 : ℝ := par.magnification_bias2 z_mean
  let b1 : ℝ := par.galaxy_bias1 z1_const
  let b2 : ℝ := par.galaxy_bias2 z2_const
  let bz_mean1 : ℝ := par.galaxy_bias1 z_mean
  let bz_mean2 : ℝ := par.galaxy_bias2 z_mean
  let ren1 : ℝ := 0
  let ren2 : ℝ := 0
  let ren1 : ℝ := if par.divergent then if r21 = 0 then I.I40.renormalization_zero_separation lambda2 else
      I.I40.result (Real.sqrt r21) - I.I40.renormalization lambda2 chi1 else ren1
  let ren2 : ℝ := if par.divergent then if r22 = 0 then I.I40.renormalization_zero_separation lambda1 else
      I.I40.result (Real.sqrt r22) - I.I40.renormalization lambda1 chi2 else ren2
  { z_mean := z_mean, mu := mu, sep := sep, x := x, chi_mean := chi_mean, chi1 := chi1, chi2 :=
    chi2, costheta := costheta, lambda1 := lambda1, lambda2 := lambda2, r21 := r21, r22 := r22,
    z1_const := z1_const, z2_const := z2_const, z1 := z1, z2 := z2, s1 := s1, s2 := s2, sz_mean1 :=
    sz_mean1, sz_mean2 := sz_mean2, b1 := b1, b2 := b2, bz_mean1 := bz_mean1, bz_mean2 := bz_mean2,
    ren1 := ren1, ren2 := ren2 }

/-- den-len + len-den term of `functions_single_integrated`, src/functions.c:1559-2052. -/
noncomputable def single_den_len (par : Par) (bg : Bg) (I : Ints) (v : SingleEnv) : ℝ :=
  if par.correlation_contrib.den ∧ par.correlation_contrib.len then
    if par.flatsky_local_nonlocal ∧ par.output_type ≠ .MULTIPOLES then
      if (par.pk_type ≠ .COFFE_PK_LINEAR) ∧ par.midpoint_approximation then
        (COFFE_H0 * par.h) ^ 2
        * ((-3) * (par.Omega0_cdm + par.Omega0_baryon) / Real.pi / 8 * (1 + v.z_mean) * |v.mu|
           * v.sep * ((2 - 5 * v.sz_mean1) * v.bz_mean2 + (2 - 5 * v.sz_mean2) * v.bz_mean1)
           * I.Ihalf.result2d v.z_mean (v.sep * Real.sqrt (1 - v.mu * v.mu)))
      else
        (COFFE_H0 * par.h) ^ 2
        * ((-3) * (par.Omega0_cdm + par.Omega0_baryon) / Real.pi / 8 * bg.D1 v.z_mean
           * bg.D1 v.z_mean * (1 + v.z_mean) * |v.mu| * v.sep
           * ((2 - 5 * v.sz_mean1) * v.bz_mean2 + (2 - 5 * v.sz_mean2) * v.bz_mean1)
           * I.Ihalf.result (v.sep * Real.sqrt (1 - v.mu * v.mu)))
    else
      if ¬ par.flatsky_local_nonlocal then
        if (v.r21 ≠ 0) ∧ v.r22 ≠ 0 then
          if (par.pk_type ≠ .COFFE_PK_LINEAR) ∧ par.midpoint_approximation then
            (COFFE_H0 * par.h) ^ 2
            * ((-3) * (par.Omega0_cdm + par.Omega0_baryon) / 2
               * (v.b1 * (2 - 5 * v.s2) * v.chi2 * (1 - v.x) / bg.a v.z2
                  * (2 * v.chi1 * v.costheta
                     * I.I11.result2d ((v.z1_const + v.z2) / 2) (Real.sqrt v.r21)
                     - v.chi1 * v.chi1 * v.lambda2 * (1 - v.costheta * v.costheta)
                       * I.I02.result2d ((v.z1_const + v.z2) / 2) (Real.sqrt v.r21) / v.r21)
                  + v.b2 * (2 - 5 * v.s1) * v.chi1 * (1 - v.x) / bg.a v.z1
                    * (2 * v.chi2 * v.costheta
                       * I.I11.result2d ((v.z2_const + v.z1) / 2) (Real.sqrt v.r22)
                       - v.chi2 * v.chi2 * v.lambda1 * (1 - v.costheta * v.costheta)
                         * I.I02.result2d ((v.z2_const + v.z1) / 2) (Real.sqrt v.r22) / v.r22)))
          else
            (COFFE_H0 * par.h) ^ 2
            * ((-3) * (par.Omega0_cdm + par.Omega0_baryon) / 2
               * (v.b1 * (2 - 5 * v.s2) * bg.D1 v.z1_const * v.chi2 * (1 - v.x) * bg.D1 v.z2
                  / bg.a v.z2
                  * (2 * v.chi1 * v.costheta * I.I11.result (Real.sqrt v.r21)
                     - v.chi1 * v.chi1 * v.lambda2 * (1 - v.costheta * v.costheta)
                       * I.I02.result (Real.sqrt v.r21) / v.r21)
                  + v.b2 * (2 - 5 * v.s1) * bg.D1 v.z2_const * v.chi1 * (1 - v.x) * bg.D1 v.z1
                    / bg.a v.z1
                    * (2 * v.chi2 * v.costheta * I.I11.result (Real.sqrt v.r22)
                       - v.chi2 * v.chi2 * v.lambda1 * (1 - v.costheta * v.costheta)
                         * I.I02.result (Real.sqrt v.r22) / v.r22)))
        else
          if (v.r21 = 0) ∧ v.r22 ≠ 0 then
            if par.pk_type ≠ .COFFE_PK_LINEAR then
              (COFFE_H0 * par.h) ^ 2
              * ((-3) * (par.Omega0_cdm + par.Omega0_baryon) / 2
                 * (v.b1 * (2 - 5 * v.s2) * v.chi2 * (1 - v.x) / bg.a v.z2
                    * (2 * v.chi1 * I.I11.result2d ((v.z1_const + v.z2) / 2) 0)
                    + v.b2 * (2 - 5 * v.s1) * v.chi1 * (1 - v.x) / bg.a v.z1
                      * (2 * v.chi2 * v.costheta
                         * I.I11.result2d ((v.z2_const + v.z1) / 2) (Real.sqrt v.r22)
                         - v.chi2 * v.chi2 * v.lambda1 * (1 - v.costheta * v.costheta)
                           * I.I02.result2d ((v.z2_const + v.z1) / 2) (Real.sqrt v.r22) / v.r22)))
            else
              (COFFE_H0 * par.h) ^ 2
              * ((-3) * (par.Omega0_cdm + par.Omega0_baryon) / 2
                 * (v.b1 * (2 - 5 * v.s2) * v.chi2 * bg.D1 v.z1_const * (1 - v.x) * bg.D1 v.z2
                    / bg.a v.z2 * (2 * v.chi1 * I.I11.result 0)
                    + v.b2 * (2 - 5 * v.s1) * v.chi1 * bg.D1 v.z2_const * (1 - v.x) * bg.D1 v.z1
                      / bg.a v.z1
                      * (2 * v.chi2 * v.costheta * I.I11.result (Real.sqrt v.r22)
                         - v.chi2 * v.chi2 * v.lambda1 * (1 - v.costheta * v.costheta)
                           * I.I02.result (Real.sqrt v.r22) / v.r22)))
          else
            if (v.r21 ≠ 0) ∧ v.r22 = 0 then
              if (par.pk_type ≠ .COFFE_PK_LINEAR) ∧ par.midpoint_approximation then
                (COFFE_H0 * par.h) ^ 2
                * ((-3) * (par.Omega0_cdm + par.Omega0_baryon) / 2
                   * (v.b1 * (2 - 5 * v.s2) * v.chi2 * (1 - v.x) / bg.a v.z2
                      * (2 * v.chi1 * v.costheta
                         * I.I11.result2d ((v.z1_const + v.z2) / 2) (Real.sqrt v.r21)
                         - v.chi1 * v.chi1 * v.lambda2 * (1 - v.costheta * v.costheta)
                           * I.I02.result2d ((v.z1_const + v.z2) / 2) (Real.sqrt v.r21) / v.r21)
                      + v.b2 * (2 - 5 * v.s1) * v.chi1 * (1 - v.x) / bg.a v.z1
                        * (2 * v.chi2 * I.I02.result2d ((v.z2_const + v.z1) / 2) 0)))
              else
                (COFFE_H0 * par.h) ^ 2
                * ((-3) * (par.Omega0_cdm + par.Omega0_baryon) / 2
                   * (v.b1 * (2 - 5 * v.s2) * bg.D1 v.z1_const * v.chi2 * (1 - v.x) * bg.D1 v.z2
                      / bg.a v.z2
                      * (2 * v.chi1 * v.costheta * I.I11.result (Real.sqrt v.r21)
                         - v.chi1 * v.chi1 * v.lambda2 * (1 - v.costheta * v.costheta)
                           * I.I02.result (Real.sqrt v.r21) / v.r21)
                      + v.b2 * (2 - 5 * v.s1) * bg.D1 v.z2_const * v.chi1 * (1 - v.x) * bg.D1 v.z1
                        / bg.a v.z1 * (2 * v.chi2 * I.I11.result 0)))
            else
              if (par.pk_type ≠ .COFFE_PK_LINEAR) ∧ par.midpoint_approximation then
                (COFFE_H0 * par.h) ^ 2
                * ((-3) * (par.Omega0_cdm + par.Omega0_baryon) / 2
                   * (v.b1 * (2 - 5 * v.s2) * (1 - v.x) / bg.a v.z2
                      * (2 * v.chi1 * v.chi2 * I.I02.result2d ((v.z1_const + v.z2) / 2) 0)
                      + v.b2 * (2 - 5 * v.s1) * (1 - v.x) / bg.a v.z1
                        * (2 * v.chi2 * v.chi1 * I.I02.result2d ((v.z2_const + v.z1) / 2) 0)))
              else
                (COFFE_H0 * par.h) ^ 2
                * ((-3) * (par.Omega0_cdm + par.Omega0_baryon) / 2
                   * (v.b1 * (2 - 5 * v.s2) * bg.D1 v.z1_const * (1 - v.x) * bg.D1 v.z2
                      / bg.a v.z2 * (2 * v.chi1 * v.chi2 * I.I11.result 0)
                      + v.b2 * (2 - 5 * v.s1) * bg.D1 v.z2_const * (1 - v.x) * bg.D1 v.z1
                        / bg.a v.z1 * (2 * v.chi2 * v.chi1 * I.I11.result 0)))
      else
        0
  else
    0

/-- rsd-len + len-rsd term of `functions_single_integrated`, src/functions.c:2054-2483. -/
noncomputable def single_rsd_len (par : Par) (bg : Bg) (I : Ints) (v : SingleEnv) : ℝ :=
  if par.correlation_contrib.rsd ∧ par.correlation_contrib.len then
    if ¬ par.flatsky_local_nonlocal then
      if (v.r21 ≠ 0) ∧ v.r22 ≠ 0 then
        (if (par.pk_type ≠ .COFFE_PK_LINEAR) ∧ par.midpoint_approximation then
          (COFFE_H0 * par.h) ^ 2
          * (3 * (par.Omega0_cdm + par.Omega0_baryon) / 2
             * (v.chi2 * bg.f v.z1_const * (2 - 5 * v.s2) * (1 - v.x) / bg.a v.z2
                * ((v.lambda2
                    - 6 * v.chi1 * v.costheta
                    + 3 * v.lambda2 * (2 * v.costheta * v.costheta - 1))
                   * I.I00.result2d ((v.z1_const + v.z2) / 2) (Real.sqrt v.r21) / 15
                   - (6 * v.chi1 * v.chi1 * v.chi1 * v.costheta
                      - v.chi1 * v.chi1 * v.lambda2 * (9 * v.costheta * v.costheta + 11)
                      + v.chi1 * v.lambda2 * v.lambda2 * v.costheta
                        * (3 * (2 * v.costheta * v.costheta - 1) + 19)
                      - 2 * v.lambda2 * v.lambda2 * v.lambda2
                        * (3 * (2 * v.costheta * v.costheta - 1) + 1))
                     * I.I02.result2d ((v.z1_const + v.z2) / 2) (Real.sqrt v.r21) / v.r21 / 21)
                + v.chi1 * bg.f v.z2_const * (2 - 5 * v.s1) * (1 - v.x) / bg.a v.z1
                  * ((v.lambda1
                      - 6 * v.chi2 * v.costheta
                      + 3 * v.lambda1 * (2 * v.costheta * v.costheta - 1))
                     * I.I00.result2d ((v.z2_const + v.z1) / 2) (Real.sqrt v.r22) / 15
                     - (6 * v.chi2 * v.chi2 * v.chi2 * v.costheta
                        - v.chi2 * v.chi2 * v.lambda1 * (9 * v.costheta * v.costheta + 11)
                        + v.chi2 * v.lambda1 * v.lambda1 * v.costheta
                          * (3 * (2 * v.costheta * v.costheta - 1) + 19)
                        - 2 * v.lambda1 * v.lambda1 * v.lambda1
                          * (3 * (2 * v.costheta * v.costheta - 1) + 1))
                       * I.I02.result2d ((v.z2_const + v.z1) / 2) (Real.sqrt v.r22) / v.r22 / 21)))
        else
          (COFFE_H0 * par.h) ^ 2
          * (3 * (par.Omega0_cdm + par.Omega0_baryon) / 2
             * (v.chi2 * bg.f v.z1_const * (2 - 5 * v.s2) * bg.D1 v.z1_const * (1 - v.x)
                * bg.D1 v.z2 / bg.a v.z2
                * ((v.lambda2
                    - 6 * v.chi1 * v.costheta
                    + 3 * v.lambda2 * (2 * v.costheta * v.costheta - 1))
                   * I.I00.result (Real.sqrt v.r21) / 15
                   - (6 * v.chi1 * v.chi1 * v.chi1 * v.costheta
                      - v.chi1 * v.chi1 * v.lambda2 * (9 * v.costheta * v.costheta + 11)
                      + v.chi1 * v.lambda2 * v.lambda2 * v.costheta
                        * (3 * (2 * v.costheta * v.costheta - 1) + 19)
                      - 2 * v.lambda2 * v.lambda2 * v.lambda2
                        * (3 * (2 * v.costheta * v.costheta - 1) + 1))
                     * I.I02.result (Real.sqrt v.r21) / v.r21 / 21)
                + v.chi1 * bg.f v.z2_const * (2 - 5 * v.s1) * bg.D1 v.z2_const * (1 - v.x)
                  * bg.D1 v.z1 / bg.a v.z1
                  * ((v.lambda1
                      - 6 * v.chi2 * v.costheta
                      + 3 * v.lambda1 * (2 * v.costheta * v.costheta - 1))
                     * I.I00.result (Real.sqrt v.r22) / 15
                     - (6 * v.chi2 * v.chi2 * v.chi2 * v.costheta
                        - v.chi2 * v.chi2 * v.lambda1 * (9 * v.costheta * v.costheta + 11)
                        + v.chi2 * v.lambda1 * v.lambda1 * v.costheta
                          * (3 * (2 * v.costheta * v.costheta - 1) + 19)
                        - 2 * v.lambda1 * v.lambda1 * v.lambda1
                          * (3 * (2 * v.costheta * v.costheta - 1) + 1))
                       * I.I02.result (Real.sqrt v.r22) / v.r22 / 21)))) + (if |v.mu| < 0.999 then
          if (par.pk_type ≠ .COFFE_PK_LINEAR) ∧ par.midpoint_approximation then
            (COFFE_H0 * par.h) ^ 2
            * (3 * (par.Omega0_cdm + par.Omega0_baryon) / 2
               * (v.chi2 * bg.f v.z1_const * (2 - 5 * v.s2) * (1 - v.x) / bg.a v.z2
                  * ((-((-4) * v.chi1 ^ 5 * v.costheta - v.chi1 ^ 3 * v.lambda2 ^ 2 * v.costheta *
                     (2 * v.costheta * v.costheta - 1 + 7) + v.chi1 ^ 2 * v.lambda2 ^ 3 *
                     (v.costheta ^ 4 + 12 * v.costheta * v.costheta - 21) - 3 * v.chi1 * v.lambda2
                     ^ 4 * v.costheta * (2 * v.costheta * v.costheta - 1 - 5) - v.lambda2 ^ 5 * (3
                     * (2 * v.costheta * v.costheta - 1) + 1) + 12 * v.chi1 ^ 4 * v.lambda2))
                     * I.I04.result2d ((v.z1_const + v.z2) / 2) (Real.sqrt v.r21) / v.r21 / v.r21
                     / 35)
                  + v.chi1 * bg.f v.z2_const * (2 - 5 * v.s1) * (1 - v.x) / bg.a v.z1
                    * ((-((-4) * v.chi2 ^ 5 * v.costheta - v.chi2 ^ 3 * v.lambda1 ^ 2 * v.costheta
                       * (2 * v.costheta * v.costheta - 1 + 7) + v.chi2 ^ 2 * v.lambda1 ^ 3 *
                       (v.costheta ^ 4 + 12 * v.costheta * v.costheta - 21) - 3 * v.chi2 *
                       v.lambda1 ^ 4 * v.costheta * (2 * v.costheta * v.costheta - 1 - 5) -
                       v.lambda1 ^ 5 * (3 * (2 * v.costheta * v.costheta - 1) + 1) + 12 * v.chi2 ^
                       4 * v.lambda1))
                       * I.I04.result2d ((v.z2_const + v.z1) / 2) (Real.sqrt v.r22) / v.r22
                       / v.r22 / 35)))
          else
            (COFFE_H0 * par.h) ^ 2
            * (3 * (par.Omega0_cdm + par.Omega0_baryon) / 2
               * (v.chi2 * bg.f v.z1_const * (2 - 5 * v.s2) * bg.D1 v.z1_const * (1 - v.x)
                  * bg.D1 v.z2 / bg.a v.z2
                  * ((-((-4) * v.chi1 ^ 5 * v.costheta - v.chi1 ^ 3 * v.lambda2 ^ 2 * v.costheta *
                     (2 * v.costheta * v.costheta - 1 + 7) + v.chi1 ^ 2 * v.lambda2 ^ 3 *
                     (v.costheta ^ 4 + 12 * v.costheta * v.costheta - 21) - 3 * v.chi1 * v.lambda2
                     ^ 4 * v.costheta * (2 * v.costheta * v.costheta - 1 - 5) - v.lambda2 ^ 5 * (3
                     * (2 * v.costheta * v.costheta - 1) + 1) + 12 * v.chi1 ^ 4 * v.lambda2))
                     * I.I04.result (Real.sqrt v.r21) / v.r21 / v.r21 / 35)
                  + v.chi1 * bg.f v.z2_const * (2 - 5 * v.s1) * bg.D1 v.z2_const * (1 - v.x)
                    * bg.D1 v.z1 / bg.a v.z1
                    * ((-((-4) * v.chi2 ^ 5 * v.costheta - v.chi2 ^ 3 * v.lambda1 ^ 2 * v.costheta
                       * (2 * v.costheta * v.costheta - 1 + 7) + v.chi2 ^ 2 * v.lambda1 ^ 3 *
                       (v.costheta ^ 4 + 12 * v.costheta * v.costheta - 21) - 3 * v.chi2 *
                       v.lambda1 ^ 4 * v.costheta * (2 * v.costheta * v.costheta - 1 - 5) -
                       v.lambda1 ^ 5 * (3 * (2 * v.costheta * v.costheta - 1) + 1) + 12 * v.chi2 ^
                       4 * v.lambda1))
                       * I.I04.result (Real.sqrt v.r22) / v.r22 / v.r22 / 35)))
        else
          if (par.pk_type ≠ .COFFE_PK_LINEAR) ∧ par.midpoint_approximation then
            (COFFE_H0 * par.h) ^ 2
            * (3 * (par.Omega0_cdm + par.Omega0_baryon) / 2
               * (v.chi2 * bg.f v.z1_const * (2 - 5 * v.s2) * (1 - v.x) / bg.a v.z2 * 4
                  * (v.lambda2 + v.chi1)
                  * I.I04.result2d ((v.z1_const + v.z2) / 2) (Real.sqrt v.r21) / 35
                  + v.chi1 * bg.f v.z2_const * (2 - 5 * v.s1) * (1 - v.x) / bg.a v.z1 * 4
                    * (v.lambda1 + v.chi2)
                    * I.I04.result2d ((v.z2_const + v.z1) / 2) (Real.sqrt v.r22) / 35))
          else
            (COFFE_H0 * par.h) ^ 2
            * (3 * (par.Omega0_cdm + par.Omega0_baryon) / 2
               * (v.chi2 * bg.f v.z1_const * (2 - 5 * v.s2) * bg.D1 v.z1_const * (1 - v.x)
                  * bg.D1 v.z2 / bg.a v.z2 * 4 * (v.lambda2 + v.chi1)
                  * I.I04.result (Real.sqrt v.r21) / 35
                  + v.chi1 * bg.f v.z2_const * (2 - 5 * v.s1) * bg.D1 v.z2_const * (1 - v.x)
                    * bg.D1 v.z1 / bg.a v.z1 * 4 * (v.lambda1 + v.chi2)
                    * I.I04.result (Real.sqrt v.r22) / 35)))
      else
        if (v.r21 = 0) ∧ v.r22 ≠ 0 then
          (COFFE_H0 * par.h) ^ 2
          * (3 * (par.Omega0_cdm + par.Omega0_baryon) / 2
             * (v.chi2 * bg.f v.z1_const * (2 - 5 * v.s2) * bg.D1 v.z1_const
                * (1 - v.chi1 / v.chi2) * bg.D1 v.z2 / bg.a v.z2
                * ((-2) * v.chi1 * I.I00.result 0 / 15)
                + v.chi1 * bg.f v.z2_const * (2 - 5 * v.s1) * bg.D1 v.z2_const * (1 - v.x)
                  * bg.D1 v.z1 / bg.a v.z1
                  * ((v.lambda1
                      - 6 * v.chi2 * v.costheta
                      + 3 * v.lambda1 * (2 * v.costheta * v.costheta - 1))
                     * I.I00.result (Real.sqrt v.r22) / 15
                     - (6 * v.chi2 * v.chi2 * v.chi2 * v.costheta
                        - v.chi2 * v.chi2 * v.lambda1 * (9 * v.costheta * v.costheta + 11)
                        + v.chi2 * v.lambda1 * v.lambda1 * v.costheta
                          * (3 * (2 * v.costheta * v.costheta - 1) + 19)
                        - 2 * v.lambda1 * v.lambda1 * v.lambda1
                          * (3 * (2 * v.costheta * v.costheta - 1) + 1))
                       * I.I02.result (Real.sqrt v.r22) / v.r22 / 21
                     - ((-4) * v.chi2 ^ 5 * v.costheta
                        - v.chi2 ^ 3 * v.lambda1 ^ 2 * v.costheta
                          * (2 * v.costheta * v.costheta - 1 + 7)
                        + v.chi2 ^ 2 * v.lambda1 ^ 3
                          * (v.costheta ^ 4 + 12 * v.costheta * v.costheta - 21)
                        - 3 * v.chi2 * v.lambda1 ^ 4 * v.costheta
                          * (2 * v.costheta * v.costheta - 1 - 5)
                        - v.lambda1 ^ 5 * (3 * (2 * v.costheta * v.costheta - 1) + 1)
                        + 12 * v.chi2 ^ 4 * v.lambda1)
                       * I.I04.result (Real.sqrt v.r22) / v.r22 / v.r22 / 35)))
        else
          if (v.r21 ≠ 0) ∧ v.r22 = 0 then
            (COFFE_H0 * par.h) ^ 2
            * (3 * (par.Omega0_cdm + par.Omega0_baryon) / 2
               * (v.chi2 * bg.f v.z1_const * (2 - 5 * v.s2) * bg.D1 v.z1_const * (1 - v.x)
                  * bg.D1 v.z2 / bg.a v.z2
                  * ((v.lambda2
                      - 6 * v.chi1 * v.costheta
                      + 3 * v.lambda2 * (2 * v.costheta * v.costheta - 1))
                     * I.I00.result (Real.sqrt v.r21) / 15
                     - (6 * v.chi1 * v.chi1 * v.chi1 * v.costheta
                        - v.chi1 * v.chi1 * v.lambda2 * (9 * v.costheta * v.costheta + 11)
                        + v.chi1 * v.lambda2 * v.lambda2 * v.costheta
                          * (3 * (2 * v.costheta * v.costheta - 1) + 19)
                        - 2 * v.lambda2 * v.lambda2 * v.lambda2
                          * (3 * (2 * v.costheta * v.costheta - 1) + 1))
                       * I.I02.result (Real.sqrt v.r21) / v.r21 / 21
                     - ((-4) * v.chi1 ^ 5 * v.costheta
                        - v.chi1 ^ 3 * v.lambda2 ^ 2 * v.costheta
                          * (2 * v.costheta * v.costheta - 1 + 7)
                        + v.chi1 ^ 2 * v.lambda2 ^ 3
                          * (v.costheta ^ 4 + 12 * v.costheta * v.costheta - 21)
                        - 3 * v.chi1 * v.lambda2 ^ 4 * v.costheta
                          * (2 * v.costheta * v.costheta - 1 - 5)
                        - v.lambda2 ^ 5 * (3 * (2 * v.costheta * v.costheta - 1) + 1)
                        + 12 * v.chi1 ^ 4 * v.lambda2)
                       * I.I04.result (Real.sqrt v.r21) / v.r21 / v.r21 / 35)
                  + v.chi1 * bg.f v.z2_const * (2 - 5 * v.s1) * bg.D1 v.z2_const
                    * (1 - v.chi2 / v.chi1) * bg.D1 v.z1 / bg.a v.z1
                    * ((-2) * v.chi2 * I.I00.result 0 / 15)))
          else
            (COFFE_H0 * par.h) ^ 2
            * (3 * (par.Omega0_cdm + par.Omega0_baryon) / 2
               * (v.chi2 * bg.f v.z1_const * (2 - 5 * v.s2) * bg.D1 v.z1_const
                  * (1 - v.chi1 / v.chi2) * bg.D1 v.z2 / bg.a v.z2
                  * ((-2) * v.chi1 * I.I00.result 0 / 15)
                  + v.chi1 * bg.f v.z2_const * (2 - 5 * v.s1) * bg.D1 v.z2_const
                    * (1 - v.chi2 / v.chi1) * bg.D1 v.z1 / bg.a v.z1
                    * ((-2) * v.chi2 * I.I00.result 0 / 15)))
    else
      0
  else
    0

/-- d1-len + len-d1 term of `functions_single_integrated`, src/functions.c:2485-2999. -/
noncomputable def single_d1_len (par : Par) (bg : Bg) (I : Ints) (v : SingleEnv) : ℝ :=
  if par.correlation_contrib.d1 ∧ par.correlation_contrib.len then
    if ¬ par.flatsky_local_nonlocal then
      if (v.r21 ≠ 0) ∧ v.r22 ≠ 0 then
        if (par.pk_type ≠ .COFFE_PK_LINEAR) ∧ par.midpoint_approximation then
          (COFFE_H0 * par.h) ^ 2
          * (3 * (par.Omega0_cdm + par.Omega0_baryon) / 2
             * (v.chi2 * bg.conformal_Hz v.z1_const * bg.f v.z1_const * bg.G1 v.z1_const
                * (2 - 5 * v.s2) * (1 - v.x) / bg.a v.z2
                * (2
                   * (v.costheta * (v.lambda2 * v.lambda2 - 2 * v.chi1 * v.chi1)
                      + v.chi1 * v.lambda2 * (2 * (2 * v.costheta * v.costheta - 1) - 1))
                   * I.I11.result2d ((v.z1_const + v.z2) / 2) (Real.sqrt v.r21) / 15
                   + 2 * v.costheta * I.I20.result2d ((v.z1_const + v.z2) / 2) (Real.sqrt v.r21)
                     / 3
                   - (4 * v.chi1 ^ 4 * v.costheta
                      - v.chi1 ^ 3 * v.lambda2 * (v.costheta * v.costheta + 9)
                      + v.chi1 * v.chi1 * v.lambda2 * v.lambda2 * v.costheta
                        * (v.costheta * v.costheta + 5)
                      - 2 * v.chi1 * v.lambda2 ^ 3 * (2 * v.costheta * v.costheta - 1 - 2)
                      - 2 * v.lambda2 ^ 4 * v.costheta)
                     * I.I13.result2d ((v.z1_const + v.z2) / 2) (Real.sqrt v.r21) / v.r21 / 15)
                + v.chi1 * bg.conformal_Hz v.z2_const * bg.f v.z2_const * bg.G1 v.z2_const
                  * (2 - 5 * v.s2) * (1 - v.x) / bg.a v.z1
                  * (2
                     * (v.costheta * (v.lambda1 * v.lambda1 - 2 * v.chi2 * v.chi2)
                        + v.chi2 * v.lambda1 * (2 * (2 * v.costheta * v.costheta - 1) - 1))
                     * I.I11.result2d ((v.z1 + v.z2_const) / 2) (Real.sqrt v.r22) / 15
                     + 2 * v.costheta * I.I20.result2d ((v.z1 + v.z2_const) / 2) (Real.sqrt v.r22)
                       / 3
                     - (4 * v.chi2 ^ 4 * v.costheta
                        - v.chi2 ^ 3 * v.lambda1 * (v.costheta * v.costheta + 9)
                        + v.chi2 * v.chi2 * v.lambda1 * v.lambda1 * v.costheta
                          * (v.costheta * v.costheta + 5)
                        - 2 * v.chi2 * v.lambda1 ^ 3 * (2 * v.costheta * v.costheta - 1 - 2)
                        - 2 * v.lambda1 ^ 4 * v.costheta)
                       * I.I13.result2d ((v.z1 + v.z2_const) / 2) (Real.sqrt v.r22) / v.r22 / 15)))
        else
          (COFFE_H0 * par.h) ^ 2
          * (3 * (par.Omega0_cdm + par.Omega0_baryon) / 2
             * (v.chi2 * bg.conformal_Hz v.z1_const * bg.f v.z1_const * bg.G1 v.z1_const
                * (2 - 5 * v.s2) * bg.D1 v.z1_const * (1 - v.x) * bg.D1 v.z2 / bg.a v.z2
                * (2
                   * (v.costheta * (v.lambda2 * v.lambda2 - 2 * v.chi1 * v.chi1)
                      + v.chi1 * v.lambda2 * (2 * (2 * v.costheta * v.costheta - 1) - 1))
                   * I.I11.result (Real.sqrt v.r21) / 15
                   + 2 * v.costheta * I.I20.result (Real.sqrt v.r21) / 3
                   - (4 * v.chi1 ^ 4 * v.costheta
                      - v.chi1 ^ 3 * v.lambda2 * (v.costheta * v.costheta + 9)
                      + v.chi1 * v.chi1 * v.lambda2 * v.lambda2 * v.costheta
                        * (v.costheta * v.costheta + 5)
                      - 2 * v.chi1 * v.lambda2 ^ 3 * (2 * v.costheta * v.costheta - 1 - 2)
                      - 2 * v.lambda2 ^ 4 * v.costheta)
                     * I.I13.result (Real.sqrt v.r21) / v.r21 / 15)
                + v.chi1 * bg.conformal_Hz v.z2_const * bg.f v.z2_const * bg.G1 v.z2_const
                  * (2 - 5 * v.s2) * bg.D1 v.z2_const * (1 - v.x) * bg.D1 v.z1 / bg.a v.z1
                  * (2
                     * (v.costheta * (v.lambda1 * v.lambda1 - 2 * v.chi2 * v.chi2)
                        + v.chi2 * v.lambda1 * (2 * (2 * v.costheta * v.costheta - 1) - 1))
                     * I.I11.result (Real.sqrt v.r22) / 15
                     + 2 * v.costheta * I.I20.result (Real.sqrt v.r22) / 3
                     - (4 * v.chi2 ^ 4 * v.costheta
                        - v.chi2 ^ 3 * v.lambda1 * (v.costheta * v.costheta + 9)
                        + v.chi2 * v.chi2 * v.lambda1 * v.lambda1 * v.costheta
                          * (v.costheta * v.costheta + 5)
                        - 2 * v.chi2 * v.lambda1 ^ 3 * (2 * v.costheta * v.costheta - 1 - 2)
                        - 2 * v.lambda1 ^ 4 * v.costheta)
                       * I.I13.result (Real.sqrt v.r22) / v.r22 / 15)))
      else
        if (v.r21 = 0) ∧ v.r22 ≠ 0 then
          if (par.pk_type ≠ .COFFE_PK_LINEAR) ∧ par.midpoint_approximation then
            (COFFE_H0 * par.h) ^ 2
            * (3 * (par.Omega0_cdm + par.Omega0_baryon) / 2
               * (v.chi2 * bg.conformal_Hz v.z1_const * bg.f v.z1_const * bg.G1 v.z1_const
                  * (2 - 5 * v.s2) * (1 - v.x) / bg.a v.z2
                  * (2 * I.I20.result2d ((v.z1_const + v.z2) / 2) 0 / 3)
                  + v.chi1 * bg.conformal_Hz v.z2_const * bg.f v.z2_const * bg.G1 v.z2_const
                    * (2 - 5 * v.s2) * (1 - v.x) / bg.a v.z1
                    * (2
                       * (v.costheta * (v.lambda1 * v.lambda1 - 2 * v.chi2 * v.chi2)
                          + v.chi2 * v.lambda1 * (2 * (2 * v.costheta * v.costheta - 1) - 1))
                       * I.I11.result2d ((v.z1 + v.z2_const) / 2) (Real.sqrt v.r22) / 15
                       + 2 * v.costheta
                         * I.I20.result2d ((v.z1 + v.z2_const) / 2) (Real.sqrt v.r22) / 3
                       - (4 * v.chi2 ^ 4 * v.costheta
                          - v.chi2 ^ 3 * v.lambda1 * (v.costheta * v.costheta + 9)
                          + v.chi2 * v.chi2 * v.lambda1 * v.lambda1 * v.costheta
                            * (v.costheta * v.costheta + 5)
                          - 2 * v.chi2 * v.lambda1 ^ 3 * (2 * v.costheta * v.costheta - 1 - 2)
                          - 2 * v.lambda1 ^ 4 * v.costheta)
                         * I.I13.result2d ((v.z1 + v.z2_const) / 2) (Real.sqrt v.r22) / v.r22 / 15)))
          else
            (COFFE_H0 * par.h) ^ 2
            * (3 * (par.Omega0_cdm + par.Omega0_baryon) / 2
               * (v.chi2 * bg.conformal_Hz v.z1_const * bg.f v.z1_const * bg.G1 v.z1_const
                  * (2 - 5 * v.s2) * bg.D1 v.z1_const * (1 - v.x) * bg.D1 v.z2 / bg.a v.z2
                  * (2 * I.I20.result 0 / 3)
                  + v.chi1 * bg.conformal_Hz v.z2_const * bg.f v.z2_const * bg.G1 v.z2_const
                    * (2 - 5 * v.s2) * bg.D1 v.z2_const * (1 - v.x) * bg.D1 v.z1 / bg.a v.z1
                    * (2
                       * (v.costheta * (v.lambda1 * v.lambda1 - 2 * v.chi2 * v.chi2)
                          + v.chi2 * v.lambda1 * (2 * (2 * v.costheta * v.costheta - 1) - 1))
                       * I.I11.result (Real.sqrt v.r22) / 15
                       + 2 * v.costheta * I.I20.result (Real.sqrt v.r22) / 3
                       - (4 * v.chi2 ^ 4 * v.costheta
                          - v.chi2 ^ 3 * v.lambda1 * (v.costheta * v.costheta + 9)
                          + v.chi2 * v.chi2 * v.lambda1 * v.lambda1 * v.costheta
                            * (v.costheta * v.costheta + 5)
                          - 2 * v.chi2 * v.lambda1 ^ 3 * (2 * v.costheta * v.costheta - 1 - 2)
                          - 2 * v.lambda1 ^ 4 * v.costheta)
                         * I.I13.result (Real.sqrt v.r22) / v.r22 / 15)))
        else
          if (v.r21 ≠ 0) ∧ v.r22 = 0 then
            if (par.pk_type ≠ .COFFE_PK_LINEAR) ∧ par.midpoint_approximation then
              (COFFE_H0 * par.h) ^ 2
              * (3 * (par.Omega0_cdm + par.Omega0_baryon) / 2
                 * (v.chi2 * bg.conformal_Hz v.z1_const * bg.f v.z1_const * bg.G1 v.z1_const
                    * (2 - 5 * v.s2) * (1 - v.x) / bg.a v.z2
                    * (2
                       * (v.costheta * (v.lambda2 * v.lambda2 - 2 * v.chi1 * v.chi1)
                          + v.chi1 * v.lambda2 * (2 * (2 * v.costheta * v.costheta - 1) - 1))
                       * I.I11.result2d ((v.z1_const + v.z2) / 2) (Real.sqrt v.r21) / 15
                       + 2 * v.costheta
                         * I.I20.result2d ((v.z1_const + v.z2) / 2) (Real.sqrt v.r21) / 3
                       - (4 * v.chi1 ^ 4 * v.costheta
                          - v.chi1 ^ 3 * v.lambda2 * (v.costheta * v.costheta + 9)
                          + v.chi1 * v.chi1 * v.lambda2 * v.lambda2 * v.costheta
                            * (v.costheta * v.costheta + 5)
                          - 2 * v.chi1 * v.lambda2 ^ 3 * (2 * v.costheta * v.costheta - 1 - 2)
                          - 2 * v.lambda2 ^ 4 * v.costheta)
                         * I.I13.result2d ((v.z1_const + v.z2) / 2) (Real.sqrt v.r21) / v.r21 / 15)
                    + v.chi1 * bg.conformal_Hz v.z2_const * bg.f v.z2_const * bg.G1 v.z2_const
                      * (2 - 5 * v.s2) * (1 - v.x) / bg.a v.z1
                      * (2 * I.I20.result2d ((v.z1 + v.z2_const) / 2) 0 / 3)))
            else
              (COFFE_H0 * par.h) ^ 2
              * (3 * (par.Omega0_cdm + par.Omega0_baryon) / 2
                 * (v.chi2 * bg.conformal_Hz v.z1_const * bg.f v.z1_const * bg.G1 v.z1_const
                    * (2 - 5 * v.s2) * bg.D1 v.z1_const * (1 - v.x) * bg.D1 v.z2 / bg.a v.z2
                    * (2
                       * (v.costheta * (v.lambda2 * v.lambda2 - 2 * v.chi1 * v.chi1)
                          + v.chi1 * v.lambda2 * (2 * (2 * v.costheta * v.costheta - 1) - 1))
                       * I.I11.result (Real.sqrt v.r21) / 15
                       + 2 * v.costheta * I.I20.result (Real.sqrt v.r21) / 3
                       - (4 * v.chi1 ^ 4 * v.costheta
                          - v.chi1 ^ 3 * v.lambda2 * (v.costheta * v.costheta + 9)
                          + v.chi1 * v.chi1 * v.lambda2 * v.lambda2 * v.costheta
                            * (v.costheta * v.costheta + 5)
                          - 2 * v.chi1 * v.lambda2 ^ 3 * (2 * v.costheta * v.costheta - 1 - 2)
                          - 2 * v.lambda2 ^ 4 * v.costheta)
                         * I.I13.result (Real.sqrt v.r21) / v.r21 / 15)
                    + v.chi1 * bg.conformal_Hz v.z2_const * bg.f v.z2_const * bg.G1 v.z2_const
                      * (2 - 5 * v.s2) * bg.D1 v.z2_const * (1 - v.x) * bg.D1 v.z1 / bg.a v.z1
                      * (2 * I.I20.result 0 / 3)))
          else
            if (par.pk_type ≠ .COFFE_PK_LINEAR) ∧ par.midpoint_approximation then
              (COFFE_H0 * par.h) ^ 2
              * (3 * (par.Omega0_cdm + par.Omega0_baryon) / 2
                 * (v.chi2 * bg.conformal_Hz v.z1_const * bg.f v.z1_const * bg.G1 v.z1_const
                    * (2 - 5 * v.s2) * (1 - v.x) / bg.a v.z2
                    * (2 * I.I20.result2d ((v.z1_const + v.z2) / 2) 0 / 3)
                    + v.chi1 * bg.conformal_Hz v.z2_const * bg.f v.z2_const * bg.G1 v.z2_const
                      * (2 - 5 * v.s2) * (1 - v.x) / bg.a v.z1
                      * (2 * I.I20.result2d ((v.z1 + v.z2_const) / 2) 0 / 3)))
            else
              (COFFE_H0 * par.h) ^ 2
              * (3 * (par.Omega0_cdm + par.Omega0_baryon) / 2
                 * (v.chi2 * bg.conformal_Hz v.z1_const * bg.f v.z1_const * bg.G1 v.z1_const
                    * (2 - 5 * v.s2) * bg.D1 v.z1_const * (1 - v.x) * bg.D1 v.z2 / bg.a v.z2
                    * (2 * I.I20.result 0 / 3)
                    + v.chi1 * bg.conformal_Hz v.z2_const * bg.f v.z2_const * bg.G1 v.z2_const
                      * (2 - 5 * v.s2) * bg.D1 v.z2_const * (1 - v.x) * bg.D1 v.z1 / bg.a v.z1
                      * (2 * I.I20.result 0 / 3)))
    else
      0
  else
    0

/-- d2-len + len-d2 term of `functions_single_integrated`, src/functions.c:3001-3031. -/
noncomputable def single_d2_len (par : Par) (bg : Bg) (I : Ints) (v : SingleEnv) : ℝ :=
  if par.correlation_contrib.d2 ∧ par.correlation_contrib.len then
    (COFFE_H0 * par.h) ^ 2
    * ((-3) * (par.Omega0_cdm + par.Omega0_baryon) / 2
       * (v.chi2 * (3 - par.evolution_bias1 v.z1_const) * bg.f v.z1_const
          * (bg.conformal_Hz v.z1_const) ^ 2 * (2 - 5 * v.s2) * bg.D1 v.z1_const
          * ((1 - v.x) * bg.D1 v.z2 / bg.a v.z2
             * (2 * v.chi1 * v.costheta * I.I31.result (Real.sqrt v.r21)
                - v.chi1 * v.chi1 * v.lambda2 * (1 - v.costheta * v.costheta)
                  * I.I22.result (Real.sqrt v.r21)))
          + v.chi1 * (3 - par.evolution_bias2 v.z2_const) * bg.f v.z2_const
            * (bg.conformal_Hz v.z2_const) ^ 2 * (2 - 5 * v.s1) * bg.D1 v.z2_const
            * ((1 - v.x) * bg.D1 v.z1 / bg.a v.z1
               * (2 * v.chi2 * v.costheta * I.I31.result (Real.sqrt v.r22)
                  - v.chi2 * v.chi2 * v.lambda1 * (1 - v.costheta * v.costheta)
                    * I.I22.result (Real.sqrt v.r22)))))
  else
    0

/-- g1-len + len-g1 term of `functions_single_integrated`, src/functions.c:3033-3061. -/
noncomputable def single_g1_len (par : Par) (bg : Bg) (I : Ints) (v : SingleEnv) : ℝ :=
  if par.correlation_contrib.g1 ∧ par.correlation_contrib.len then
    (COFFE_H0 * par.h) ^ 4
    * (9 * (par.Omega0_cdm + par.Omega0_baryon) * (par.Omega0_cdm + par.Omega0_baryon) / 4
       * (v.chi2 * (1 + bg.G1 v.z1_const) * (2 - 5 * v.s2) * bg.D1 v.z1_const
          * ((1 - v.x) * bg.D1 v.z2 / bg.a v.z2
             * (2 * v.chi1 * v.costheta * I.I31.result (Real.sqrt v.r21)
                - v.chi1 * v.chi1 * v.lambda2 * (1 - v.costheta * v.costheta)
                  * I.I22.result (Real.sqrt v.r21)))
          + v.chi1 * (1 + bg.G2 v.z2_const) * (2 - 5 * v.s1) * bg.D1 v.z2_const
            * ((1 - v.x) * bg.D1 v.z1 / bg.a v.z1
               * (2 * v.chi2 * v.costheta * I.I31.result (Real.sqrt v.r22)
                  - v.chi2 * v.chi2 * v.lambda1 * (1 - v.costheta * v.costheta)
                    * I.I22.result (Real.sqrt v.r22)))))
  else
    0

/-- g2-len + len-g2 term of `functions_single_integrated`, src/functions.c:3063-3091. -/
noncomputable def single_g2_len (par : Par) (bg : Bg) (I : Ints) (v : SingleEnv) : ℝ :=
  if par.correlation_contrib.g2 ∧ par.correlation_contrib.len then
    (COFFE_H0 * par.h) ^ 4
    * (9 * (par.Omega0_cdm + par.Omega0_baryon) * (par.Omega0_cdm + par.Omega0_baryon) / 4
       * (v.chi2 * (5 * v.s1 - 2) * (2 - 5 * v.s2) * bg.D1 v.z1_const
          * ((1 - v.x) * bg.D1 v.z2 / bg.a v.z2
             * (2 * v.chi1 * v.costheta * I.I31.result (Real.sqrt v.r21)
                - v.chi1 * v.chi1 * v.lambda2 * (1 - v.costheta * v.costheta)
                  * I.I22.result (Real.sqrt v.r21)))
          + v.chi1 * (5 * v.s2 - 2) * (2 - 5 * v.s1) * bg.D1 v.z2_const
            * ((1 - v.x) * bg.D1 v.z1 / bg.a v.z1
               * (2 * v.chi2 * v.costheta * I.I31.result (Real.sqrt v.r22)
                  - v.chi2 * v.chi2 * v.lambda1 * (1 - v.costheta * v.costheta)
                    * I.I22.result (Real.sqrt v.r22)))))
  else
    0

/-- g3-len + len-g3 term of `functions_single_integrated`, src/functions.c:3093-3121. -/
noncomputable def single_g3_len (par : Par) (bg : Bg) (I : Ints) (v : SingleEnv) : ℝ :=
  if par.correlation_contrib.g3 ∧ par.correlation_contrib.len then
    (COFFE_H0 * par.h) ^ 4
    * (9 * (par.Omega0_cdm + par.Omega0_baryon) * (par.Omega0_cdm + par.Omega0_baryon) / 4
       * (v.chi2 * (bg.f v.z1_const - 1) * (2 - 5 * v.s2) * bg.D1 v.z1_const
          * ((1 - v.x) * bg.D1 v.z2 / bg.a v.z2
             * (2 * v.chi1 * v.costheta * I.I31.result (Real.sqrt v.r21)
                - v.chi1 * v.chi1 * v.lambda2 * (1 - v.costheta * v.costheta)
                  * I.I22.result (Real.sqrt v.r21)))
          + v.chi1 * (bg.f v.z2_const - 1) * (2 - 5 * v.s1) * bg.D1 v.z2_const
            * ((1 - v.x) * bg.D1 v.z1 / bg.a v.z1
               * (2 * v.chi2 * v.costheta * I.I31.result (Real.sqrt v.r22)
                  - v.chi2 * v.chi2 * v.lambda1 * (1 - v.costheta * v.costheta)
                    * I.I22.result (Real.sqrt v.r22)))))
  else
    0

/-- den-g4 + g4-den term of `functions_single_integrated`, src/functions.c:3123-3141. -/
noncomputable def single_den_g4 (par : Par) (bg : Bg) (I : Ints) (v : SingleEnv) : ℝ :=
  if par.correlation_contrib.den ∧ par.correlation_contrib.g4 then
    (COFFE_H0 * par.h) ^ 2
    * ((-3) * (par.Omega0_cdm + par.Omega0_baryon)
       * (v.b1 * (2 - 5 * v.s2) * bg.D1 v.z1_const * bg.D1 v.z2 / bg.a v.z2
          * I.I20.result (Real.sqrt v.r21)
          + v.b2 * (2 - 5 * v.s1) * bg.D1 v.z2_const * bg.D1 v.z1 / bg.a v.z1
            * I.I20.result (Real.sqrt v.r22)))
  else
    0

/-- den-g5 + g5-den term of `functions_single_integrated`, src/functions.c:3143-3163. -/
noncomputable def single_den_g5 (par : Par) (bg : Bg) (I : Ints) (v : SingleEnv) : ℝ :=
  if par.correlation_contrib.den ∧ par.correlation_contrib.g5 then
    (COFFE_H0 * par.h) ^ 2
    * ((-3) * (par.Omega0_cdm + par.Omega0_baryon)
       * (v.chi2 * v.b1 * bg.G2 v.z2_const * bg.D1 v.z1_const * bg.conformal_Hz v.z2
          * (bg.f v.z2 - 1) * bg.D1 v.z2 * bg.a v.z2 * I.I20.result (Real.sqrt v.r21)
          + v.chi1 * v.b2 * bg.G1 v.z1_const * bg.D1 v.z2_const * bg.conformal_Hz v.z1
            * (bg.f v.z1 - 1) * bg.D1 v.z1 * bg.a v.z1 * I.I20.result (Real.sqrt v.r22)))
  else
    0

/-- rsd-g4 + g4-rsd term of `functions_single_integrated`, src/functions.c:3165-3190. -/
noncomputable def single_rsd_g4 (par : Par) (bg : Bg) (I : Ints) (v : SingleEnv) : ℝ :=
  if par.correlation_contrib.rsd ∧ par.correlation_contrib.g4 then
    (COFFE_H0 * par.h) ^ 2
    * (3 * (par.Omega0_cdm + par.Omega0_baryon)
       * (bg.f v.z1_const * (2 - 5 * v.s2) * bg.D1 v.z1_const * bg.D1 v.z2 / bg.a v.z2
          * ((2 * v.r21 / 3 + (v.costheta * v.costheta - 1) * v.lambda2 * v.lambda2)
             * I.I22.result (Real.sqrt v.r21)
             - I.I20.result (Real.sqrt v.r21) / 3)
          + bg.f v.z2_const * (2 - 5 * v.s1) * bg.D1 v.z2_const * bg.D1 v.z1 / bg.a v.z1
            * ((2 * v.r22 / 3 + (v.costheta * v.costheta - 1) * v.lambda1 * v.lambda1)
               * I.I22.result (Real.sqrt v.r22)
               - I.I20.result (Real.sqrt v.r22) / 3)))
  else
    0

/-- rsd-g5 + g5-rsd term of `functions_single_integrated`, src/functions.c:3192-3219. -/
noncomputable def single_rsd_g5 (par : Par) (bg : Bg) (I : Ints) (v : SingleEnv) : ℝ :=
  if par.correlation_contrib.rsd ∧ par.correlation_contrib.g5 then
    (COFFE_H0 * par.h) ^ 2
    * (3 * (par.Omega0_cdm + par.Omega0_baryon)
       * (v.chi2 * bg.f v.z1_const * bg.G2 v.z2_const * bg.D1 v.z1_const * bg.conformal_Hz v.z2
          * (bg.f v.z2 - 1) * bg.D1 v.z2 / bg.a v.z2
          * ((2 * v.r21 / 3 + (v.costheta * v.costheta - 1) * v.lambda2 * v.lambda2)
             * I.I22.result (Real.sqrt v.r21)
             - I.I20.result (Real.sqrt v.r21) / 3)
          + v.chi1 * bg.f v.z2_const * bg.G1 v.z1_const * bg.D1 v.z2_const * bg.conformal_Hz v.z1
            * (bg.f v.z1 - 1) * bg.D1 v.z1 / bg.a v.z1
            * ((2 * v.r22 / 3 + (v.costheta * v.costheta - 1) * v.lambda1 * v.lambda1)
               * I.I22.result (Real.sqrt v.r22)
               - I.I20.result (Real.sqrt v.r22) / 3)))
  else
    0

/-- d1-g4 + d1-g4 term of `functions_single_integrated`, src/functions.c:3221-3236. -/
noncomputable def single_d1_g4 (par : Par) (bg : Bg) (I : Ints) (v : SingleEnv) : ℝ :=
  if par.correlation_contrib.d1 ∧ par.correlation_contrib.g4 then
    (COFFE_H0 * par.h) ^ 2
    * (3 * (par.Omega0_cdm + par.Omega0_baryon)
       * (bg.conformal_Hz v.z1_const * bg.f v.z1_const * (2 - 5 * v.s2) * bg.D1 v.z1_const
          * bg.D1 v.z2 / bg.a v.z2 * (v.lambda2 * v.costheta - v.chi1)
          * I.I31.result (Real.sqrt v.r21)
          + bg.conformal_Hz v.z2_const * bg.f v.z2_const * (2 - 5 * v.s1) * bg.D1 v.z2_const
            * bg.D1 v.z1 / bg.a v.z1 * (v.lambda1 * v.costheta - v.chi2)
            * I.I31.result (Real.sqrt v.r22)))
  else
    0

/-- d1-g5 + d1-g5 term of `functions_single_integrated`, src/functions.c:3238-3257. -/
noncomputable def single_d1_g5 (par : Par) (bg : Bg) (I : Ints) (v : SingleEnv) : ℝ :=
  if par.correlation_contrib.d1 ∧ par.correlation_contrib.g5 then
    (COFFE_H0 * par.h) ^ 2
    * (3 * (par.Omega0_cdm + par.Omega0_baryon)
       * (v.chi2 * bg.conformal_Hz v.z1_const * bg.f v.z1_const * bg.G2 v.z2_const
          * bg.D1 v.z1_const * bg.conformal_Hz v.z2 * (bg.f v.z2 - 1) * bg.D1 v.z2 / bg.a v.z2
          * (v.lambda2 * v.costheta - v.chi1) * I.I31.result (Real.sqrt v.r21)
          + v.chi1 * bg.conformal_Hz v.z2_const * bg.f v.z2_const * bg.G1 v.z1_const
            * bg.D1 v.z2_const * bg.conformal_Hz v.z1 * (bg.f v.z1 - 1) * bg.D1 v.z1 / bg.a v.z1
            * (v.lambda1 * v.costheta - v.chi2) * I.I31.result (Real.sqrt v.r22)))
  else
    0

/-- d2-g4 + g4-d2 term of `functions_single_integrated`, src/functions.c:3259-3276. -/
noncomputable def single_d2_g4 (par : Par) (bg : Bg) (_I : Ints) (v : SingleEnv) : ℝ :=
  if par.correlation_contrib.d2 ∧ par.correlation_contrib.g4 then
    (COFFE_H0 * par.h) ^ 2
    * ((-3) * (par.Omega0_cdm + par.Omega0_baryon)
       * ((3 - par.evolution_bias1 v.z1_const) * bg.f v.z1_const
          * (bg.conformal_Hz v.z1_const) ^ 2 * (2 - 5 * v.s2) * bg.D1 v.z1_const * bg.D1 v.z2
          / bg.a v.z2 * v.ren1
          + (3 - par.evolution_bias2 v.z2_const) * bg.f v.z2_const
            * (bg.conformal_Hz v.z2_const) ^ 2 * (2 - 5 * v.s1) * bg.D1 v.z2_const * bg.D1 v.z1
            / bg.a v.z1 * v.ren2))
  else
    0

/-- d2-g5 + g5-d2 term of `functions_single_integrated`, src/functions.c:3278-3297. -/
noncomputable def single_d2_g5 (par : Par) (bg : Bg) (_I : Ints) (v : SingleEnv) : ℝ :=
  if par.correlation_contrib.d2 ∧ par.correlation_contrib.g5 then
    (COFFE_H0 * par.h) ^ 2
    * ((-3) * (par.Omega0_cdm + par.Omega0_baryon)
       * (v.chi2 * (3 - par.evolution_bias1 v.z1_const) * bg.f v.z1_const
          * (bg.conformal_Hz v.z1_const) ^ 2 * bg.G2 v.z2_const * bg.D1 v.z1_const
          * bg.conformal_Hz v.z2 * (bg.f v.z2 - 1) * bg.D1 v.z2 / bg.a v.z2 * v.ren1
          + v.chi1 * (3 - par.evolution_bias2 v.z2_const) * bg.f v.z2_const
            * (bg.conformal_Hz v.z2_const) ^ 2 * bg.G1 v.z1_const * bg.D1 v.z2_const
            * bg.conformal_Hz v.z1 * (bg.f v.z1 - 1) * bg.D1 v.z1 / bg.a v.z1 * v.ren2))
  else
    0

/-- g1-g4 + g4-g1 term of `functions_single_integrated`, src/functions.c:3299-3316. -/
noncomputable def single_g1_g4 (par : Par) (bg : Bg) (_I : Ints) (v : SingleEnv) : ℝ :=
  if par.correlation_contrib.g1 ∧ par.correlation_contrib.g4 then
    (COFFE_H0 * par.h) ^ 4
    * (9 * (par.Omega0_cdm + par.Omega0_baryon) * (par.Omega0_cdm + par.Omega0_baryon) / 2
       * ((1 + bg.G1 v.z1_const) * (2 - 5 * v.s2) * bg.D1 v.z1_const / bg.a v.z1_const
          * bg.D1 v.z2 / bg.a v.z2 * v.ren1
          + (1 + bg.G2 v.z2_const) * (2 - 5 * v.s1) * bg.D1 v.z2_const / bg.a v.z2_const
            * bg.D1 v.z1 / bg.a v.z1 * v.ren2))
  else
    0

/-- g1-g5 + g5-g1 term of `functions_single_integrated`, src/functions.c:3318-3339. -/
noncomputable def single_g1_g5 (par : Par) (bg : Bg) (_I : Ints) (v : SingleEnv) : ℝ :=
  if par.correlation_contrib.g1 ∧ par.correlation_contrib.g5 then
    (COFFE_H0 * par.h) ^ 4
    * (9 * (par.Omega0_cdm + par.Omega0_baryon) * (par.Omega0_cdm + par.Omega0_baryon) / 2
       * (v.chi2 * (1 + bg.G1 v.z1_const) * bg.G2 v.z2_const * bg.D1 v.z1_const / bg.a v.z1_const
          * bg.conformal_Hz v.z2 * (bg.f v.z2 - 1) * bg.D1 v.z2 / bg.a v.z2 * v.ren1
          + v.chi1 * (1 + bg.G2 v.z2_const) * bg.G1 v.z1_const * bg.D1 v.z2_const
            / bg.a v.z2_const * bg.conformal_Hz v.z1 * (bg.f v.z1 - 1) * bg.D1 v.z1 / bg.a v.z1
            * v.ren2))
  else
    0

/-- g2-g4 + g4-g2 term of `functions_single_integrated`, src/functions.c:3341-3358. -/
noncomputable def single_g2_g4 (par : Par) (bg : Bg) (_I : Ints) (v : SingleEnv) : ℝ :=
  if par.correlation_contrib.g2 ∧ par.correlation_contrib.g4 then
    (COFFE_H0 * par.h) ^ 4
    * (9 * (par.Omega0_cdm + par.Omega0_baryon) * (par.Omega0_cdm + par.Omega0_baryon) / 2
       * ((5 * v.s1 - 2) * (2 - 5 * v.s2) * bg.D1 v.z1_const / bg.a v.z1_const * bg.D1 v.z2
          / bg.a v.z2 * v.ren1
          + (5 * v.s2 - 2) * (2 - 5 * v.s1) * bg.D1 v.z2_const / bg.a v.z2_const * bg.D1 v.z1
            / bg.a v.z1 * v.ren2))
  else
    0

/-- g2-g5 + g5-g2 term of `functions_single_integrated`, src/functions.c:3360-3381. -/
noncomputable def single_g2_g5 (par : Par) (bg : Bg) (_I : Ints) (v : SingleEnv) : ℝ :=
  if par.correlation_contrib.g2 ∧ par.correlation_contrib.g5 then
    (COFFE_H0 * par.h) ^ 4
    * (9 * (par.Omega0_cdm + par.Omega0_baryon) * (par.Omega0_cdm + par.Omega0_baryon) / 2
       * (v.chi2 * (5 * v.s1 - 2) * bg.G2 v.z2_const * bg.D1 v.z1_const / bg.a v.z1_const
          * bg.conformal_Hz v.z2 * (bg.f v.z2 - 1) * bg.D1 v.z2 / bg.a v.z2 * v.ren1
          + v.chi1 * (5 * v.s2 - 2) * bg.G1 v.z1_const * bg.D1 v.z2_const / bg.a v.z2_const
            * bg.conformal_Hz v.z1 * (bg.f v.z1 - 1) * bg.D1 v.z1 / bg.a v.z1 * v.ren2))
  else
    0

/-- g3-g4 + g4-g3 term of `functions_single_integrated`, src/functions.c:3383-3400. -/
noncomputable def single_g3_g4 (par : Par) (bg : Bg) (_I : Ints) (v : SingleEnv) : ℝ :=
  if par.correlation_contrib.g3 ∧ par.correlation_contrib.g4 then
    (COFFE_H0 * par.h) ^ 4
    * (9 * (par.Omega0_cdm + par.Omega0_baryon) * (par.Omega0_cdm + par.Omega0_baryon) / 2
       * ((bg.f v.z1_const - 1) * (2 - 5 * v.s2) * bg.D1 v.z1_const / bg.a v.z1_const * bg.D1 v.z2
          / bg.a v.z2 * v.ren1
          + (bg.f v.z2_const - 1) * (2 - 5 * v.s1) * bg.D1 v.z2_const / bg.a v.z2_const
            * bg.D1 v.z1 / bg.a v.z1 * v.ren2))
  else
    0

/-- g3-g5 + g5-g3 term of `functions_single_integrated`, src/functions.c:3402-3423. -/
noncomputable def single_g3_g5 (par : Par) (bg : Bg) (_I : Ints) (v : SingleEnv) : ℝ :=
  if par.correlation_contrib.g3 ∧ par.correlation_contrib.g5 then
    (COFFE_H0 * par.h) ^ 4
    * (9 * (par.Omega0_cdm + par.Omega0_baryon) * (par.Omega0_cdm + par.Omega0_baryon) / 2
       * (v.chi2 * (bg.f v.z1_const - 1) * bg.G2 v.z2_const * bg.D1 v.z1_const / bg.a v.z1_const
          * bg.conformal_Hz v.z2 * (bg.f v.z2 - 1) * bg.D1 v.z2 / bg.a v.z2 * v.ren1
          + v.chi1 * (bg.f v.z2_const - 1) * bg.G1 v.z1_const * bg.D1 v.z2_const / bg.a v.z2_const
            * bg.conformal_Hz v.z1 * (bg.f v.z1 - 1) * bg.D1 v.z1 / bg.a v.z1 * v.ren2))
  else
    0
/-- Value of `result` after all terms, src/functions.c:1558-3423. -/
noncomputable def single_result (par : Par) (bg : Bg) (I : Ints) (v : SingleEnv) : ℝ :=
  single_den_len par bg I v
  + single_rsd_len par bg I v
  + single_d1_len par bg I v
  + single_d2_len par bg I v
  + single_g1_len par bg I v
  + single_g2_len par bg I v
  + single_g3_len par bg I v
  + single_den_g4 par bg I v
  + single_den_g5 par bg I v
  + single_rsd_g4 par bg I v
  + single_rsd_g5 par bg I v
  + single_d1_g4 par bg I v
  + single_d1_g5 par bg I v
  + single_d2_g4 par bg I v
  + single_d2_g5 par bg I v
  + single_g1_g4 par bg I v
  + single_g1_g5 par bg I v
  + single_g2_g4 par bg I v
  + single_g2_g5 par bg I v
  + single_g3_g4 par bg I v
  + single_g3_g5 par bg I v

/-- `functions_single_integrated`, src/functions.c:1486-3457. -/
noncomputable def functions_single_integrated (par : Par) (bg : Bg) (I : Ints)
    (z_mean mu sep x : ℝ) : ℝ :=
  single_result par bg I (SingleEnv.of par bg I z_mean mu sep x)

end Coffe
