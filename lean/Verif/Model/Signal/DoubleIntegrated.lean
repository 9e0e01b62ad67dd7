import Verif.Model.Signal.Types

/-!
# Model of `functions_double_integrated`, src/functions.c:3460-4016

One definition per `/* X-Y term */` block; each `result += e` of the C code is the value of the
block.  The expressions below follow the C text token by token (the transcription was made
mechanically from the C source with `HAVE_CLASS` defined; the build without CLASS is the case
`pk_type = COFFE_PK_LINEAR`).  Simplifications: doubles are reals, splines are functions, and the
`gsl_finite(result)` test (line 3988) is always true over ℝ.
-/

namespace Coffe
open Classical

/-- Local variables of `functions_double_integrated` (src/functions.c:3471-3515). -/
structure DoubleEnv where
  z_mean : ℝ
  mu : ℝ
  sep : ℝ
  x1 : ℝ
  x2 : ℝ
  chi_mean : ℝ
  chi1 : ℝ
  chi2 : ℝ
  costheta : ℝ
  lambda1 : ℝ
  lambda2 : ℝ
  r2 : ℝ
  z1_const : ℝ
  z2_const : ℝ
  z1 : ℝ
  z2 : ℝ
  s1 : ℝ
  s2 : ℝ
  sz_mean1 : ℝ
  sz_mean2 : ℝ
  ren : ℝ

/-- Values given to the local variables of `functions_double_integrated`, src/functions.c:3471-3515. -/
noncomputable def DoubleEnv.of (par : Par) (bg : Bg) (I : Ints)
    (z_mean mu sep x1 x2 : ℝ) : DoubleEnv :=
  let chi_mean : ℝ := bg.comoving_distance z_mean
  let chi1 : ℝ := chi_mean - sep * mu / 2
  let chi2 : ℝ := chi_mean + sep * mu / 2
  let costheta : ℝ :=
    (2 * chi_mean * chi_mean - sep * sep + mu * mu * sep * sep / 2)
    / (2 * chi_mean * chi_mean - mu * mu * sep * sep / 2)
  let lambda1 : ℝ := chi1 * x1
  let lambda2 : ℝ := chi2 * x2
  let r2 : ℝ := lambda1 * lambda1 + lambda2 * lambda2 - 2 * lambda1 * lambda2 * costheta
  let r2 : ℝ := if r2 < 0 then 0 else r2
  let z1_const : ℝ := bg.z_as_chi chi1
  let z2_const : ℝ := bg.z_as_chi chi2
  let z1 : ℝ := bg.z_as_chi lambda1
  let z2 : ℝ := bg.z_as_chi lambda2
  let s1 : ℝ := par.magnification_bias1 z1_const
  let s2 : ℝ := par.magnification_bias2 z2_const
  let sz_mean1 : ℝ := par.magnification_bias1 z_mean
  let sz_mean2 : ℝ := par.magnification_bias2 z_mean
  let ren : ℝ := 0
  let ren : ℝ := if par.divergent then if r2 ≤ 0.000001 ^ 2 then I.I40.renormalization_zero_separation lambda1
      else I.I40.result (Real.sqrt r2) - I.I40.renormalization lambda1 lambda2 else ren
  { z_mean := z_mean, mu := mu, sep := sep, x1 := x1, x2 := x2, chi_mean := chi_mean, chi1 := chi1,
    chi2 := chi2, costheta := costheta, lambda1 := lambda1, lambda2 := lambda2, r2 := r2, z1_const
    := z1_const, z2_const := z2_const, z1 := z1, z2 := z2, s1 := s1, s2 := s2, sz_mean1 := sz_mean1,
    sz_mean2 := sz_mean2, ren := ren }

/-- len-len term of `functions_double_integrated`, src/functions.c:3517-3836. -/
noncomputable def double_len_len (par : Par) (bg : Bg) (I : Ints) (v : DoubleEnv) : ℝ :=
  if par.correlation_contrib.len ∧ ¬ par.only_cross_correlations then
    if par.flatsky_nonlocal ∧ par.output_type ≠ .MULTIPOLES then
      9 * (par.Omega0_cdm + par.Omega0_baryon) ^ 2 * (2 - 5 * v.sz_mean1) * (2 - 5 * v.sz_mean2)
      * v.chi_mean ^ 3 / 8 / Real.pi * I.Ihalf.result (v.x1 * v.sep * Real.sqrt (1 - v.mu * v.mu))
      * (bg.D1 (bg.z_as_chi (v.x1 * v.chi_mean))) ^ 2 * (1 + bg.z_as_chi (v.x1 * v.chi_mean)) ^ 2
      * (v.x1 * (1 - v.x1)) ^ 2
    else
      if ¬ par.flatsky_nonlocal then
        if v.r2 > 1e-20 then
          if (par.pk_type ≠ .COFFE_PK_LINEAR) ∧ par.midpoint_approximation then
            9 * (par.Omega0_cdm + par.Omega0_baryon) * (par.Omega0_cdm + par.Omega0_baryon)
            * (2 - 5 * v.s1) * (2 - 5 * v.s2) / 4 * v.chi1 * v.chi2 / bg.a v.z1 / bg.a v.z2
            * (1 - v.x1) * (1 - v.x2)
            * (2 * (v.costheta * v.costheta - 1) * v.lambda1 * v.lambda2
               * I.I00.result2d ((v.z1 + v.z2) / 2) (Real.sqrt v.r2) / 5
               + 4 * v.costheta * I.I20.result2d ((v.z1 + v.z2) / 2) (Real.sqrt v.r2) / 3
               + 4 * v.costheta * (v.r2 + 6 * v.costheta * v.lambda1 * v.lambda2)
                 * I.I11.result2d ((v.z1 + v.z2) / 2) (Real.sqrt v.r2) / 15
               + 2 * (v.costheta * v.costheta - 1) * v.lambda1 * v.lambda2
                 * (2 * v.r2 + 3 * v.costheta * v.lambda1 * v.lambda2)
                 * I.I02.result2d ((v.z1 + v.z2) / 2) (Real.sqrt v.r2) / 7 / v.r2
               + 2 * v.costheta
                 * (2 * v.r2 * v.r2
                    + 12 * v.costheta * v.r2 * v.lambda1 * v.lambda2
                    + 15 * (v.costheta * v.costheta - 1) * v.lambda1 * v.lambda1 * v.lambda2
                      * v.lambda2)
                 * I.I13.result2d ((v.z1 + v.z2) / 2) (Real.sqrt v.r2) / 15 / v.r2
               + (v.costheta * v.costheta - 1) * v.lambda1 * v.lambda2
                 * (6 * v.r2 * v.r2
                    + 30 * v.costheta * v.r2 * v.lambda1 * v.lambda2
                    + 35 * (v.costheta * v.costheta - 1) * v.lambda1 * v.lambda1 * v.lambda2
                      * v.lambda2)
                 * I.I04.result2d ((v.z1 + v.z2) / 2) (Real.sqrt v.r2) / 35 / v.r2 / v.r2)
          else
            9 * (par.Omega0_cdm + par.Omega0_baryon) * (par.Omega0_cdm + par.Omega0_baryon)
            * (2 - 5 * v.s1) * (2 - 5 * v.s2) / 4 * v.chi1 * v.chi2 * bg.D1 v.z1 * bg.D1 v.z2
            / bg.a v.z1 / bg.a v.z2 * (1 - v.x1) * (1 - v.x2)
            * (2 * (v.costheta * v.costheta - 1) * v.lambda1 * v.lambda2
               * I.I00.result (Real.sqrt v.r2) / 5
               + 4 * v.costheta * I.I20.result (Real.sqrt v.r2) / 3
               + 4 * v.costheta * (v.r2 + 6 * v.costheta * v.lambda1 * v.lambda2)
                 * I.I11.result (Real.sqrt v.r2) / 15
               + 2 * (v.costheta * v.costheta - 1) * v.lambda1 * v.lambda2
                 * (2 * v.r2 + 3 * v.costheta * v.lambda1 * v.lambda2)
                 * I.I02.result (Real.sqrt v.r2) / 7 / v.r2
               + 2 * v.costheta
                 * (2 * v.r2 * v.r2
                    + 12 * v.costheta * v.r2 * v.lambda1 * v.lambda2
                    + 15 * (v.costheta * v.costheta - 1) * v.lambda1 * v.lambda1 * v.lambda2
                      * v.lambda2)
                 * I.I13.result (Real.sqrt v.r2) / 15 / v.r2
               + (v.costheta * v.costheta - 1) * v.lambda1 * v.lambda2
                 * (6 * v.r2 * v.r2
                    + 30 * v.costheta * v.r2 * v.lambda1 * v.lambda2
                    + 35 * (v.costheta * v.costheta - 1) * v.lambda1 * v.lambda1 * v.lambda2
                      * v.lambda2)
                 * I.I04.result (Real.sqrt v.r2) / 35 / v.r2 / v.r2)
        else
          if (par.pk_type ≠ .COFFE_PK_LINEAR) ∧ par.midpoint_approximation then
            9 / 4 * (par.Omega0_cdm + par.Omega0_baryon) ^ 2 * (2 - 5 * v.s1) * (2 - 5 * v.s2)
            * v.chi1 * v.chi2 / bg.a v.z1 / bg.a v.z2 * (1 - v.x1) * (1 - v.x2)
            * (4
               + 24 * v.lambda1 * v.lambda2 * I.I20.result2d ((v.z1 + v.z2) / 2) (Real.sqrt v.r2)
                 / 15)
          else
            9 / 4 * (par.Omega0_cdm + par.Omega0_baryon) ^ 2 * (2 - 5 * v.s1) * (2 - 5 * v.s2)
            * v.chi1 * v.chi2 * bg.D1 v.z1 * bg.D1 v.z2 / bg.a v.z1 / bg.a v.z2 * (1 - v.x1)
            * (1 - v.x2) * (4 + 24 * v.lambda1 * v.lambda2 * I.I11.result 0 / 15)
      else
        0
  else
    0

/-- g4-g4 term of `functions_double_integrated`, src/functions.c:3838-3852. -/
noncomputable def double_g4_g4 (par : Par) (bg : Bg) (_I : Ints) (v : DoubleEnv) : ℝ :=
  if par.correlation_contrib.g4 ∧ ¬ par.only_cross_correlations then
    9 * (par.Omega0_cdm + par.Omega0_baryon) * (par.Omega0_cdm + par.Omega0_baryon)
    * (2 - 5 * v.s1) * (2 - 5 * v.s2) * bg.D1 v.z1 * bg.D1 v.z2 / bg.a v.z1 / bg.a v.z2 * v.ren
  else
    0

/-- g5-g5 term of `functions_double_integrated`, src/functions.c:3854-3875. -/
noncomputable def double_g5_g5 (par : Par) (bg : Bg) (_I : Ints) (v : DoubleEnv) : ℝ :=
  if par.correlation_contrib.g5 ∧ ¬ par.only_cross_correlations then
    9 * (par.Omega0_cdm + par.Omega0_baryon) * (par.Omega0_cdm + par.Omega0_baryon)
    * bg.G1 v.z1_const * bg.G2 v.z2_const * v.chi1 * v.chi2 * bg.D1 v.z1 * bg.D1 v.z2 / bg.a v.z1
    / bg.a v.z2 * bg.conformal_Hz v.z1 * bg.conformal_Hz v.z2 * (bg.f v.z1 - 1) * (bg.f v.z2 - 1)
    * v.ren
  else
    0

/-- g4-len + len-g4 term of `functions_double_integrated`, src/functions.c:3877-3918. -/
noncomputable def double_g4_len (par : Par) (bg : Bg) (I : Ints) (v : DoubleEnv) : ℝ :=
  if par.correlation_contrib.g4 ∧ par.correlation_contrib.len then
    if v.r2 ≠ 0 then
      9 * (par.Omega0_cdm + par.Omega0_baryon) * (par.Omega0_cdm + par.Omega0_baryon) / 2
      * ((2 - 5 * v.s1) * (2 - 5 * v.s2) * (1 - v.x2) / v.x2 * bg.D1 v.z1 * bg.D1 v.z2 / bg.a v.z1
         / bg.a v.z2
         * (2 * v.lambda1 * v.lambda2 * v.costheta * I.I31.result (Real.sqrt v.r2)
            - v.lambda1 * v.lambda1 * v.lambda2 * v.lambda2 * (1 - v.costheta * v.costheta)
              * I.I22.result (Real.sqrt v.r2))
         + (2 - 5 * v.s1) * (2 - 5 * v.s2) * (1 - v.x1) / v.x1 * bg.D1 v.z1 * bg.D1 v.z2
           / bg.a v.z1 / bg.a v.z2
           * (2 * v.lambda1 * v.lambda2 * v.costheta * I.I31.result (Real.sqrt v.r2)
              - v.lambda1 * v.lambda1 * v.lambda2 * v.lambda2 * (1 - v.costheta * v.costheta)
                * I.I22.result (Real.sqrt v.r2)))
    else
      9 * (par.Omega0_cdm + par.Omega0_baryon) * (par.Omega0_cdm + par.Omega0_baryon) / 2
      * ((2 - 5 * v.s1) * (2 - 5 * v.s2) * (1 - v.x2) / v.x2 * bg.D1 v.z1 * bg.D1 v.z2 / bg.a v.z1
         / bg.a v.z2 * 2 * v.lambda1 * v.lambda2 * I.I31.result 0
         + (2 - 5 * v.s1) * (2 - 5 * v.s2) * (1 - v.x1) / v.x1 * bg.D1 v.z2 * bg.D1 v.z1
           / bg.a v.z2 / bg.a v.z1 * 2 * v.lambda1 * v.lambda2 * I.I31.result 0)
  else
    0

/-- g5-len + len-g5 term of `functions_double_integrated`, src/functions.c:3920-3965. -/
noncomputable def double_g5_len (par : Par) (bg : Bg) (I : Ints) (v : DoubleEnv) : ℝ :=
  if par.correlation_contrib.g5 ∧ par.correlation_contrib.len then
    if v.r2 ≠ 0 then
      9 * (par.Omega0_cdm + par.Omega0_baryon) * (par.Omega0_cdm + par.Omega0_baryon) / 2
      * ((2 - 5 * v.s2) * bg.G1 v.z1_const * v.chi1 * bg.conformal_Hz v.z1
         * (bg.conformal_Hz v.z1 - 1) * (1 - v.x2) / v.x2 * bg.D1 v.z1 * bg.D1 v.z2 / bg.a v.z1
         / bg.a v.z2
         * (2 * v.lambda1 * v.lambda2 * v.costheta * I.I31.result (Real.sqrt v.r2)
            - v.lambda1 * v.lambda1 * v.lambda2 * v.lambda2 * (1 - v.costheta * v.costheta)
              * I.I22.result (Real.sqrt v.r2))
         + (2 - 5 * v.s1) * bg.G2 v.z2_const * v.chi2 * bg.conformal_Hz v.z2
           * (bg.conformal_Hz v.z2 - 1) * (1 - v.x1) / v.x1 * bg.D1 v.z1 * bg.D1 v.z2 / bg.a v.z1
           / bg.a v.z2
           * (2 * v.lambda1 * v.lambda2 * v.costheta * I.I31.result (Real.sqrt v.r2)
              - v.lambda1 * v.lambda1 * v.lambda2 * v.lambda2 * (1 - v.costheta * v.costheta)
                * I.I22.result (Real.sqrt v.r2)))
    else
      9 * (par.Omega0_cdm + par.Omega0_baryon) * (par.Omega0_cdm + par.Omega0_baryon) / 2
      * ((2 - 5 * v.s2) * bg.G1 v.z1_const * v.chi1 * bg.conformal_Hz v.z1
         * (bg.conformal_Hz v.z1 - 1) * (1 - v.x2) / v.x2 * bg.D1 v.z1 * bg.D1 v.z2 / bg.a v.z1
         / bg.a v.z2 * 2 * v.lambda1 * v.lambda2 * I.I31.result 0
         + (2 - 5 * v.s1) * bg.G2 v.z2_const * v.chi2 * bg.conformal_Hz v.z2
           * (bg.conformal_Hz v.z2 - 1) * (1 - v.x1) / v.x1 * bg.D1 v.z1 * bg.D1 v.z2 / bg.a v.z1
           / bg.a v.z2 * 2 * v.lambda1 * v.lambda2 * I.I31.result 0)
  else
    0

/-- g4-g5 + g5-g4 term of `functions_double_integrated`, src/functions.c:3967-3987. -/
noncomputable def double_g4_g5 (par : Par) (bg : Bg) (_I : Ints) (v : DoubleEnv) : ℝ :=
  if par.correlation_contrib.g4 ∧ par.correlation_contrib.g5 then
    9 * (par.Omega0_cdm + par.Omega0_baryon) * (par.Omega0_cdm + par.Omega0_baryon)
    * (bg.G2 v.z2_const * (2 - 5 * v.s1) * v.chi2 * bg.conformal_Hz v.z2 * (bg.f v.z2 - 1)
       * bg.D1 v.z1 * bg.D1 v.z2 / bg.a v.z1 / bg.a v.z2 * v.ren
       + bg.G1 v.z1_const * (2 - 5 * v.s2) * v.chi1 * bg.conformal_Hz v.z1 * (bg.f v.z1 - 1)
         * bg.D1 v.z1 * bg.D1 v.z2 / bg.a v.z1 / bg.a v.z2 * v.ren)
  else
    0
/-- Value of `result` after all terms, src/functions.c:3516-3987. -/
noncomputable def double_result (par : Par) (bg : Bg) (I : Ints) (v : DoubleEnv) : ℝ :=
  double_len_len par bg I v
  + double_g4_g4 par bg I v
  + double_g5_g5 par bg I v
  + double_g4_len par bg I v
  + double_g5_len par bg I v
  + double_g4_g5 par bg I v

/-- `functions_double_integrated`, src/functions.c:3460-4016. -/
noncomputable def functions_double_integrated (par : Par) (bg : Bg) (I : Ints)
    (z_mean mu sep x1 x2 : ℝ) : ℝ :=
  double_result par bg I (DoubleEnv.of par bg I z_mean mu sep x1 x2) * (COFFE_H0 * par.h) ^ 4

end Coffe
