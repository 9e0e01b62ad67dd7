import Verif.Model.Signal.Types

/-!
# Model of `functions_nonintegrated`, src/functions.c:89-1484

One definition per `/* X-Y term */` block; each `result += e` of the C code is the value of the
block.  The expressions below follow the C text token by token (the transcription was made
mechanically from the C source with `HAVE_CLASS` defined; the build without CLASS is the case
`pk_type = COFFE_PK_LINEAR`).  Simplifications: doubles are reals, splines are functions, and the
`gsl_finite(result)` test (line 1429) is always true over ℝ.
-/

namespace Coffe
open Classical

/-- Local variables of `functions_nonintegrated` (src/functions.c:98-128). -/
structure NonEnv where
  z_mean : ℝ
  mu : ℝ
  sep : ℝ
  chi_mean : ℝ
  chi1 : ℝ
  chi2 : ℝ
  costheta : ℝ
  z1 : ℝ
  z2 : ℝ
  f1 : ℝ
  f2 : ℝ
  fmean : ℝ
  curlyH1 : ℝ
  curlyH2 : ℝ
  curlyH_mean : ℝ
  b1 : ℝ
  b2 : ℝ
  bz_mean1 : ℝ
  bz_mean2 : ℝ
  G1 : ℝ
  G2 : ℝ
  Gz_mean1 : ℝ
  Gz_mean2 : ℝ
  s1 : ℝ
  s2 : ℝ
  fevo1 : ℝ
  fevo2 : ℝ
  a1 : ℝ
  a2 : ℝ

/-- Values given to the local variables of `functions_nonintegrated`, src/functions.c:98-128. -/
noncomputable def NonEnv.of (par : Par) (bg : Bg)
    (z_mean mu sep : ℝ) : NonEnv :=
  let chi_mean : ℝ := bg.comoving_distance z_mean
  let chi1 : ℝ := chi_mean - sep * mu / 2
  let chi2 : ℝ := chi_mean + sep * mu / 2
  let costheta : ℝ :=
    (2 * chi_mean * chi_mean - sep * sep + mu * mu * sep * sep / 2)
    / (2 * chi_mean * chi_mean - mu * mu * sep * sep / 2)
  let z1 : ℝ := bg.z_as_chi chi1
  let z2 : ℝ := bg.z_as_chi chi2
  let f1 : ℝ := bg.f z1
  let f2 : ℝ := bg.f z2
  let fmean : ℝ := bg.f z_mean
  let curlyH1 : ℝ := bg.conformal_Hz z1
  let curlyH2 : ℝ := bg.conformal_Hz z2
  let curlyH_mean : ℝ := bg.conformal_Hz z_mean
  let b1 : ℝ := par.galaxy_bias1 z1
  let b2 : ℝ := par.galaxy_bias2 z2
  let bz_mean1 : ℝ := par.galaxy_bias1 z_mean
  let bz_mean2 : ℝ := par.galaxy_bias2 z_mean
  let G1 : ℝ := bg.G1 z1
  let G2 : ℝ := bg.G2 z2
  let Gz_mean1 : ℝ := bg.G1 z_mean
  let Gz_mean2 : ℝ := bg.G2 z_mean
  let s1 : ℝ := par.magnification_bias1 z1
  let s2 : ℝ := par.magnification_bias2 z2
  let fevo1 : ℝ := par.evolution_bias1 z1
  let fevo2 : ℝ := par.evolution_bias2 z2
  let a1 : ℝ := bg.a z1
  let a2 : ℝ := bg.a z2
  { z_mean := z_mean, mu := mu, sep := sep, chi_mean := chi_mean, chi1 := chi1, chi2 := chi2,
    costheta := costheta, z1 := z1, z2 := z2, f1 := f1, f2 := f2, fmean := fmean, curlyH1 :=
    curlyH1, curlyH2 := curlyH2, curlyH_mean := curlyH_mean, b1 := b1, b2 := b2, bz_mean1 :=
    bz_mean1, bz_mean2 := bz_mean2, G1 := G1, G2 := G2, Gz_mean1 := Gz_mean1, Gz_mean2 := Gz_mean2,
    s1 := s1, s2 := s2, fevo1 := fevo1, fevo2 := fevo2, a1 := a1, a2 := a2 }

/-- den-den term of `functions_nonintegrated`, src/functions.c:130-229. -/
noncomputable def non_den_den (par : Par) (_bg : Bg) (I : Ints) (v : NonEnv) : ℝ :=
  if par.correlation_contrib.den ∧ ¬ par.only_cross_correlations then
    if par.flatsky_local then
      if (par.pk_type ≠ .COFFE_PK_LINEAR) ∧ par.midpoint_approximation then
        v.bz_mean1 * v.bz_mean2 * I.I00.result2d v.z_mean v.sep
      else
        if par.b_derivative ∨ par.b_tilde_derivative then
          2 * v.bz_mean1 * I.I00.result v.sep
        else
          if par.f_derivative ∨ par.f_tilde_derivative then
            0
          else
            v.bz_mean1 * v.bz_mean2 * I.I00.result v.sep
    else
      if (par.pk_type ≠ .COFFE_PK_LINEAR) ∧ par.midpoint_approximation then
        v.b1 * v.b2 * I.I00.result2d v.z_mean v.sep
      else
        v.b1 * v.b2 * I.I00.result v.sep
  else
    0

/-- rsd-rsd term of `functions_nonintegrated`, src/functions.c:231-362. -/
noncomputable def non_rsd_rsd (par : Par) (_bg : Bg) (I : Ints) (v : NonEnv) : ℝ :=
  if par.correlation_contrib.rsd ∧ ¬ par.only_cross_correlations then
    if par.flatsky_local then
      if (par.pk_type ≠ .COFFE_PK_LINEAR) ∧ par.midpoint_approximation then
        v.fmean * v.fmean * I.I00.result2d v.z_mean v.sep / 5
        - 4 * v.fmean * v.fmean * I.I02.result2d v.z_mean v.sep / 7 * legP2 v.mu
        + 8 * v.fmean * v.fmean * I.I04.result2d v.z_mean v.sep / 35 * legP4 v.mu
      else
        if par.b_derivative ∨ par.b_tilde_derivative then
          0
        else
          if par.f_derivative ∨ par.f_tilde_derivative then
            2 * v.fmean * I.I00.result v.sep / 5
            - 8 * v.fmean * I.I02.result v.sep / 7 * legP2 v.mu
            + 16 * v.fmean * I.I04.result v.sep / 35 * legP4 v.mu
          else
            v.fmean * v.fmean * I.I00.result v.sep / 5
            - 4 * v.fmean * v.fmean * I.I02.result v.sep / 7 * legP2 v.mu
            + 8 * v.fmean * v.fmean * I.I04.result v.sep / 35 * legP4 v.mu
    else
      if (par.pk_type ≠ .COFFE_PK_LINEAR) ∧ par.midpoint_approximation then
        v.f1 * v.f2 * (1 + 2 * v.costheta ^ 2) / 15 * I.I00.result2d v.z_mean v.sep
        - v.f1 * v.f2 / 21
          * (1
             + 11 * v.costheta ^ 2
             + 18 * v.costheta * (v.costheta ^ 2 - 1) * v.chi1 * v.chi2 / v.sep / v.sep)
          * I.I02.result2d v.z_mean v.sep
        + v.f1 * v.f2
          * (4 * (3 * v.costheta ^ 2 - 1) * (v.chi1 ^ 4 + v.chi2 ^ 4) / 35 / v.sep ^ 4
             + v.chi1 * v.chi2 * (3 + v.costheta ^ 2)
               * (3 * (3 + v.costheta ^ 2) * v.chi1 * v.chi2
                  - 8 * (v.chi1 ^ 2 + v.chi2 ^ 2) * v.costheta)
               / 35 / v.sep ^ 4)
          * I.I04.result2d v.z_mean v.sep
      else
        v.f1 * v.f2 * (1 + 2 * v.costheta ^ 2) / 15 * I.I00.result v.sep
        - v.f1 * v.f2 / 21
          * (1
             + 11 * v.costheta ^ 2
             + 18 * v.costheta * (v.costheta ^ 2 - 1) * v.chi1 * v.chi2 / v.sep / v.sep)
          * I.I02.result v.sep
        + v.f1 * v.f2
          * (4 * (3 * v.costheta ^ 2 - 1) * (v.chi1 ^ 4 + v.chi2 ^ 4) / 35 / v.sep ^ 4
             + v.chi1 * v.chi2 * (3 + v.costheta ^ 2)
               * (3 * (3 + v.costheta ^ 2) * v.chi1 * v.chi2
                  - 8 * (v.chi1 ^ 2 + v.chi2 ^ 2) * v.costheta)
               / 35 / v.sep ^ 4)
          * I.I04.result v.sep
  else
    0

/-- d1-d1 term of `functions_nonintegrated`, src/functions.c:364-573. -/
noncomputable def non_d1_d1 (par : Par) (_bg : Bg) (I : Ints) (v : NonEnv) : ℝ :=
  if par.correlation_contrib.d1 ∧ ¬ par.only_cross_correlations then
    if par.flatsky_local then
      if (par.pk_type ≠ .COFFE_PK_LINEAR) ∧ par.midpoint_approximation then
        v.curlyH_mean * v.curlyH_mean * v.fmean * v.fmean * v.Gz_mean1 * v.Gz_mean2
        * I.I20.result2d v.z_mean v.sep / 3
        + 2 * v.curlyH_mean * v.curlyH_mean * v.fmean * v.fmean * v.Gz_mean1 * v.Gz_mean2
          * v.sep ^ 2 * I.I22.result2d v.z_mean v.sep * legP2 v.mu / 3
      else
        v.curlyH_mean * v.curlyH_mean * v.fmean * v.fmean * v.Gz_mean1 * v.Gz_mean2
        * I.I20.result v.sep / 3
        + 2 * v.curlyH_mean * v.curlyH_mean * v.fmean * v.fmean * v.Gz_mean1 * v.Gz_mean2
          * v.sep ^ 2 * I.I22.result v.sep * legP2 v.mu / 3
    else
      if (par.pk_type ≠ .COFFE_PK_LINEAR) ∧ par.midpoint_approximation then
        v.curlyH1 * v.curlyH2 * v.f1 * v.f2 * v.G1 * v.G2 * v.costheta
        * I.I20.result2d v.z_mean v.sep / 3
        - v.curlyH1 * v.curlyH2 * v.f1 * v.f2 * v.G1 * v.G2
          * ((v.chi2 - v.chi1 * v.costheta) * (v.chi1 - v.chi2 * v.costheta)
             + v.sep ^ 2 * v.costheta / 3)
          * I.I22.result2d v.z_mean v.sep
      else
        v.curlyH1 * v.curlyH2 * v.f1 * v.f2 * v.G1 * v.G2 * v.costheta * I.I20.result v.sep / 3
        - v.curlyH1 * v.curlyH2 * v.f1 * v.f2 * v.G1 * v.G2
          * ((v.chi2 - v.chi1 * v.costheta) * (v.chi1 - v.chi2 * v.costheta)
             + v.sep ^ 2 * v.costheta / 3)
          * I.I22.result v.sep
  else
    0

/-- d2-d2 term of `functions_nonintegrated`, src/functions.c:575-597. -/
noncomputable def non_d2_d2 (par : Par) (_bg : Bg) (I : Ints) (v : NonEnv) : ℝ :=
  if par.correlation_contrib.d2 ∧ ¬ par.only_cross_correlations then
    (3 - v.fevo1) * (3 - v.fevo2) * v.curlyH1 ^ 2 * v.curlyH2 ^ 2 * v.f1 * v.f2
    * (I.I40.result v.sep - I.I40.renormalization v.chi1 v.chi2)
  else
    0

/-- g1-g1 term of `functions_nonintegrated`, src/functions.c:599-621. -/
noncomputable def non_g1_g1 (par : Par) (_bg : Bg) (I : Ints) (v : NonEnv) : ℝ :=
  if par.correlation_contrib.g1 ∧ ¬ par.only_cross_correlations then
    (COFFE_H0 * par.h) ^ 4
    * (9 * (par.Omega0_cdm + par.Omega0_baryon) ^ 2 * (1 + v.G1) * (1 + v.G2) / 4 / v.a1 / v.a2
       * (I.I40.result v.sep - I.I40.renormalization v.chi1 v.chi2))
  else
    0

/-- g2-g2 term of `functions_nonintegrated`, src/functions.c:623-645. -/
noncomputable def non_g2_g2 (par : Par) (_bg : Bg) (I : Ints) (v : NonEnv) : ℝ :=
  if par.correlation_contrib.g2 ∧ ¬ par.only_cross_correlations then
    (COFFE_H0 * par.h) ^ 4
    * (9 * (par.Omega0_cdm + par.Omega0_baryon) ^ 2 * (5 * v.s1 - 2) * (5 * v.s2 - 2) / 4 / v.a1
       / v.a2 * (I.I40.result v.sep - I.I40.renormalization v.chi1 v.chi2))
  else
    0

/-- g3-g3 term of `functions_nonintegrated`, src/functions.c:647-669. -/
noncomputable def non_g3_g3 (par : Par) (_bg : Bg) (I : Ints) (v : NonEnv) : ℝ :=
  if par.correlation_contrib.g3 ∧ ¬ par.only_cross_correlations then
    (COFFE_H0 * par.h) ^ 4
    * (9 * (par.Omega0_cdm + par.Omega0_baryon) ^ 2 * (v.f1 - 1) * (v.f2 - 1) / 4 / v.a1 / v.a2
       * (I.I40.result v.sep - I.I40.renormalization v.chi1 v.chi2))
  else
    0

/-- den-rsd + rsd-den term of `functions_nonintegrated`, src/functions.c:671-771. -/
noncomputable def non_den_rsd (par : Par) (_bg : Bg) (I : Ints) (v : NonEnv) : ℝ :=
  if par.correlation_contrib.den ∧ par.correlation_contrib.rsd then
    if par.flatsky_local then
      if (par.pk_type ≠ .COFFE_PK_LINEAR) ∧ par.midpoint_approximation then
        (v.bz_mean1 * v.fmean / 3 + v.bz_mean2 * v.fmean / 3) * I.I00.result2d v.z_mean v.sep
        - (2 * v.bz_mean1 * v.fmean / 3 + 2 * v.bz_mean2 * v.fmean / 3)
          * I.I02.result2d v.z_mean v.sep * legP2 v.mu
      else
        if par.b_derivative ∨ par.b_tilde_derivative then
          (v.fmean / 3 + v.fmean / 3) * I.I00.result v.sep
          - (2 * v.fmean / 3 + 2 * v.fmean / 3) * I.I02.result v.sep * legP2 v.mu
        else
          if par.f_derivative ∨ par.f_tilde_derivative then
            (v.bz_mean1 / 3 + v.bz_mean2 / 3) * I.I00.result v.sep
            - (2 * v.bz_mean1 / 3 + 2 * v.bz_mean2 / 3) * I.I02.result v.sep * legP2 v.mu
          else
            (v.bz_mean1 * v.fmean / 3 + v.bz_mean2 * v.fmean / 3) * I.I00.result v.sep
            - (2 * v.bz_mean1 * v.fmean / 3 + 2 * v.bz_mean2 * v.fmean / 3) * I.I02.result v.sep
              * legP2 v.mu
    else
      if (par.pk_type ≠ .COFFE_PK_LINEAR) ∧ par.midpoint_approximation then
        (v.b1 * v.f2 / 3 + v.b2 * v.f1 / 3) * I.I00.result2d v.z_mean v.sep
        - (v.b1 * v.f2 * (2 / 3 - (1 - v.costheta ^ 2) * (v.chi1 / v.sep) ^ 2)
           + v.b2 * v.f1 * (2 / 3 - (1 - v.costheta ^ 2) * (v.chi2 / v.sep) ^ 2))
          * I.I02.result2d v.z_mean v.sep
      else
        (v.b1 * v.f2 / 3 + v.b2 * v.f1 / 3) * I.I00.result v.sep
        - (v.b1 * v.f2 * (2 / 3 - (1 - v.costheta ^ 2) * (v.chi1 / v.sep) ^ 2)
           + v.b2 * v.f1 * (2 / 3 - (1 - v.costheta ^ 2) * (v.chi2 / v.sep) ^ 2))
          * I.I02.result v.sep
  else
    0

/-- den-d1 + d1-den term of `functions_nonintegrated`, src/functions.c:773-855. -/
noncomputable def non_den_d1 (par : Par) (_bg : Bg) (I : Ints) (v : NonEnv) : ℝ :=
  if par.correlation_contrib.den ∧ par.correlation_contrib.d1 then
    if par.flatsky_local then
      if (par.pk_type ≠ .COFFE_PK_LINEAR) ∧ par.midpoint_approximation then
        (v.bz_mean1 * v.fmean * v.curlyH_mean * v.Gz_mean2 * legP1 v.mu
         + v.bz_mean2 * v.fmean * v.curlyH_mean * v.Gz_mean1 * legP1 (-v.mu))
        * v.sep * I.I11.result2d v.z_mean v.sep
      else
        (v.bz_mean1 * v.fmean * v.curlyH_mean * v.Gz_mean2 * legP1 v.mu
         + v.bz_mean2 * v.fmean * v.curlyH_mean * v.Gz_mean1 * legP1 (-v.mu))
        * v.sep * I.I11.result v.sep
    else
      if (par.pk_type ≠ .COFFE_PK_LINEAR) ∧ par.midpoint_approximation then
        (-(v.b1 * v.f2 * v.curlyH2 * v.G2 * (v.chi1 * v.costheta - v.chi2) + v.b2 * v.f1 *
        v.curlyH1 * v.G1 * (v.chi2 * v.costheta - v.chi1)))
        * I.I11.result2d v.z_mean v.sep
      else
        (-(v.b1 * v.f2 * v.curlyH2 * v.G2 * (v.chi1 * v.costheta - v.chi2) + v.b2 * v.f1 *
        v.curlyH1 * v.G1 * (v.chi2 * v.costheta - v.chi1)))
        * I.I11.result v.sep
  else
    0

/-- den-d2 + d2-den term of `functions_nonintegrated`, src/functions.c:857-867. -/
noncomputable def non_den_d2 (par : Par) (_bg : Bg) (I : Ints) (v : NonEnv) : ℝ :=
  if par.correlation_contrib.den ∧ par.correlation_contrib.d2 then
    ((3 - v.fevo2) * v.b1 * v.f2 * v.curlyH2 ^ 2 + (3 - v.fevo1) * v.b2 * v.f1 * v.curlyH1 ^ 2)
    * I.I20.result v.sep
  else
    0

/-- den-g1 + g1-den term of `functions_nonintegrated`, src/functions.c:869-879. -/
noncomputable def non_den_g1 (par : Par) (_bg : Bg) (I : Ints) (v : NonEnv) : ℝ :=
  if par.correlation_contrib.den ∧ par.correlation_contrib.g1 then
    (COFFE_H0 * par.h) ^ 2
    * ((-(v.b1 * 3 * (par.Omega0_cdm + par.Omega0_baryon) / 2 / v.a2 * (1 + v.G2) + v.b2 * 3 *
       (par.Omega0_cdm + par.Omega0_baryon) / 2 / v.a1 * (1 + v.G1)))
       * I.I20.result v.sep)
  else
    0

/-- den-g2 + g2-den term of `functions_nonintegrated`, src/functions.c:881-891. -/
noncomputable def non_den_g2 (par : Par) (_bg : Bg) (I : Ints) (v : NonEnv) : ℝ :=
  if par.correlation_contrib.den ∧ par.correlation_contrib.g2 then
    (COFFE_H0 * par.h) ^ 2
    * ((-(v.b1 * 3 * (par.Omega0_cdm + par.Omega0_baryon) / 2 / v.a2 * (5 * v.s2 - 2) + v.b2 * 3 *
       (par.Omega0_cdm + par.Omega0_baryon) / 2 / v.a1 * (5 * v.s1 - 2)))
       * I.I20.result v.sep)
  else
    0

/-- den-g3 + g3-den term of `functions_nonintegrated`, src/functions.c:893-903. -/
noncomputable def non_den_g3 (par : Par) (_bg : Bg) (I : Ints) (v : NonEnv) : ℝ :=
  if par.correlation_contrib.den ∧ par.correlation_contrib.g3 then
    (COFFE_H0 * par.h) ^ 2
    * ((-(v.b1 * 3 * (par.Omega0_cdm + par.Omega0_baryon) / 2 / v.a2 * (v.f2 - 1) + v.b2 * 3 *
       (par.Omega0_cdm + par.Omega0_baryon) / 2 / v.a1 * (v.f1 - 1)))
       * I.I20.result v.sep)
  else
    0

/-- rsd-d1 + d1-rsd term of `functions_nonintegrated`, src/functions.c:905-1143. -/
noncomputable def non_rsd_d1 (par : Par) (_bg : Bg) (I : Ints) (v : NonEnv) : ℝ :=
  if par.correlation_contrib.rsd ∧ par.correlation_contrib.d1 then
    if par.flatsky_local then
      if (par.pk_type ≠ .COFFE_PK_LINEAR) ∧ par.midpoint_approximation then
        (-3) / 5
        * (v.fmean * v.fmean * v.curlyH_mean * v.Gz_mean2 * legP1 (-v.mu)
           + v.fmean * v.fmean * v.curlyH_mean * v.Gz_mean1 * legP1 v.mu)
        * I.I11.result2d v.z_mean v.sep * v.sep
        + (v.fmean * v.fmean * v.curlyH_mean * v.Gz_mean2 * 2 / 5 * legP3 (-v.mu)
           + v.fmean * v.fmean * v.curlyH_mean * v.Gz_mean1 * 2 / 5 * legP3 v.mu)
          * I.I13.result2d v.z_mean v.sep * v.sep
      else
        (-3) / 5
        * (v.fmean * v.fmean * v.curlyH_mean * v.Gz_mean2 * legP1 (-v.mu)
           + v.fmean * v.fmean * v.curlyH_mean * v.Gz_mean1 * legP1 v.mu)
        * I.I11.result v.sep * v.sep
        + (v.fmean * v.fmean * v.curlyH_mean * v.Gz_mean2 * 2 / 5 * legP3 (-v.mu)
           + v.fmean * v.fmean * v.curlyH_mean * v.Gz_mean1 * 2 / 5 * legP3 v.mu)
          * I.I13.result v.sep * v.sep
    else
      if (par.pk_type ≠ .COFFE_PK_LINEAR) ∧ par.midpoint_approximation then
        (v.f1 * v.f2 * v.curlyH2 * v.G2
         * ((1 + 2 * v.costheta ^ 2) * v.chi2 - 3 * v.chi1 * v.costheta) / 5
         + v.f2 * v.f1 * v.curlyH1 * v.G1
           * ((1 + 2 * v.costheta ^ 2) * v.chi1 - 3 * v.chi2 * v.costheta) / 5)
        * I.I11.result2d v.z_mean v.sep
        + (v.f1 * v.f2 * v.curlyH2 * v.G2
           * ((1 - 3 * v.costheta * v.costheta) * v.chi2 ^ 3
              + v.costheta * (5 + v.costheta ^ 2) * v.chi2 ^ 2 * v.chi1
              - 2 * (2 + v.costheta ^ 2) * v.chi2 * v.chi1 ^ 2
              + 2 * v.chi1 ^ 3 * v.costheta)
           / 5
           + v.f2 * v.f1 * v.curlyH1 * v.G1
             * ((1 - 3 * v.costheta * v.costheta) * v.chi1 ^ 3
                + v.costheta * (5 + v.costheta ^ 2) * v.chi1 ^ 2 * v.chi2
                - 2 * (2 + v.costheta ^ 2) * v.chi1 * v.chi2 ^ 2
                + 2 * v.chi2 ^ 3 * v.costheta)
             / 5)
          * I.I13.result2d v.z_mean v.sep / v.sep ^ 2
      else
        (v.f1 * v.f2 * v.curlyH2 * v.G2
         * ((1 + 2 * v.costheta ^ 2) * v.chi2 - 3 * v.chi1 * v.costheta) / 5
         + v.f2 * v.f1 * v.curlyH1 * v.G1
           * ((1 + 2 * v.costheta ^ 2) * v.chi1 - 3 * v.chi2 * v.costheta) / 5)
        * I.I11.result v.sep
        + (v.f1 * v.f2 * v.curlyH2 * v.G2
           * ((1 - 3 * v.costheta * v.costheta) * v.chi2 ^ 3
              + v.costheta * (5 + v.costheta ^ 2) * v.chi2 ^ 2 * v.chi1
              - 2 * (2 + v.costheta ^ 2) * v.chi2 * v.chi1 ^ 2
              + 2 * v.chi1 ^ 3 * v.costheta)
           / 5
           + v.f2 * v.f1 * v.curlyH1 * v.G1
             * ((1 - 3 * v.costheta * v.costheta) * v.chi1 ^ 3
                + v.costheta * (5 + v.costheta ^ 2) * v.chi1 ^ 2 * v.chi2
                - 2 * (2 + v.costheta ^ 2) * v.chi1 * v.chi2 ^ 2
                + 2 * v.chi2 ^ 3 * v.costheta)
             / 5)
          * I.I13.result v.sep / v.sep ^ 2
  else
    0

/-- rsd-d2 + d2-rsd term of `functions_nonintegrated`, src/functions.c:1145-1163. -/
noncomputable def non_rsd_d2 (par : Par) (_bg : Bg) (I : Ints) (v : NonEnv) : ℝ :=
  if par.correlation_contrib.rsd ∧ par.correlation_contrib.d2 then
    ((3 - v.fevo2) / 3 * v.f1 * v.f2 * v.curlyH2 ^ 2
     + (3 - v.fevo1) / 3 * v.f2 * v.f1 * v.curlyH1 ^ 2)
    * I.I20.result v.sep
    - ((3 - v.fevo2) * v.f1 * v.f2 * v.curlyH2 ^ 2
       * (2 / 3 * v.sep ^ 2 - (1 - v.costheta ^ 2) * v.chi2 ^ 2)
       + (3 - v.fevo1) * v.f2 * v.f1 * v.curlyH1 ^ 2
         * (2 / 3 * v.sep ^ 2 - (1 - v.costheta ^ 2) * v.chi1 ^ 2))
      * I.I22.result v.sep
  else
    0

/-- rsd-g1 + g1-rsd term of `functions_nonintegrated`, src/functions.c:1165-1181. -/
noncomputable def non_rsd_g1 (par : Par) (_bg : Bg) (I : Ints) (v : NonEnv) : ℝ :=
  if par.correlation_contrib.rsd ∧ par.correlation_contrib.g1 then
    (COFFE_H0 * par.h) ^ 2
    * ((-((par.Omega0_cdm + par.Omega0_baryon) / 2 / v.a2 * v.f1 * (1 + v.G2) + (par.Omega0_cdm +
       par.Omega0_baryon) / 2 / v.a1 * v.f2 * (1 + v.G1)))
       * I.I20.result v.sep
       + (3 * (par.Omega0_cdm + par.Omega0_baryon) / 2 / v.a2 * v.f1 * (1 + v.G2)
          * (2 / 3 * v.sep ^ 2 - (1 - v.costheta ^ 2) * v.chi2 ^ 2)
          + 3 * (par.Omega0_cdm + par.Omega0_baryon) / 2 / v.a1 * v.f2 * (1 + v.G1)
            * (2 / 3 * v.sep ^ 2 - (1 - v.costheta ^ 2) * v.chi1 ^ 2))
         * I.I22.result v.sep)
  else
    0

/-- rsd-g2 + g2-rsd term of `functions_nonintegrated`, src/functions.c:1183-1199. -/
noncomputable def non_rsd_g2 (par : Par) (_bg : Bg) (I : Ints) (v : NonEnv) : ℝ :=
  if par.correlation_contrib.rsd ∧ par.correlation_contrib.g2 then
    (COFFE_H0 * par.h) ^ 2
    * ((-((par.Omega0_cdm + par.Omega0_baryon) / 2 / v.a2 * v.f1 * (5 * v.s2 - 2) +
       (par.Omega0_cdm + par.Omega0_baryon) / 2 / v.a1 * v.f2 * (5 * v.s1 - 2)))
       * I.I20.result v.sep
       + (3 * (par.Omega0_cdm + par.Omega0_baryon) / 2 / v.a2 * v.f1 * (5 * v.s2 - 2)
          * (2 / 3 * v.sep ^ 2 - (1 - v.costheta ^ 2) * v.chi2 ^ 2)
          + 3 * (par.Omega0_cdm + par.Omega0_baryon) / 2 / v.a1 * v.f2 * (5 * v.s1 - 2)
            * (2 / 3 * v.sep ^ 2 - (1 - v.costheta ^ 2) * v.chi1 ^ 2))
         * I.I22.result v.sep)
  else
    0

/-- rsd-g3 + g3-rsd term of `functions_nonintegrated`, src/functions.c:1201-1218. -/
noncomputable def non_rsd_g3 (par : Par) (_bg : Bg) (I : Ints) (v : NonEnv) : ℝ :=
  if par.correlation_contrib.rsd ∧ par.correlation_contrib.g3 then
    (COFFE_H0 * par.h) ^ 2
    * ((-((par.Omega0_cdm + par.Omega0_baryon) / 2 / v.a2 * v.f1 * (v.f2 - 1) + (par.Omega0_cdm +
       par.Omega0_baryon) / 2 / v.a1 * v.f2 * (v.f1 - 1)))
       * I.I20.result v.sep
       + (3 * (par.Omega0_cdm + par.Omega0_baryon) / 2 / v.a2 * v.f1 * (v.f2 - 1)
          * (2 / 3 * v.sep ^ 2 - (1 - v.costheta ^ 2) * v.chi2 ^ 2)
          + 3 * (par.Omega0_cdm + par.Omega0_baryon) / 2 / v.a1 * v.f2 * (v.f1 - 1)
            * (2 / 3 * v.sep ^ 2 - (1 - v.costheta ^ 2) * v.chi1 ^ 2))
         * I.I22.result v.sep)
  else
    0

/-- d1-d2 + d2-d1 term of `functions_nonintegrated`, src/functions.c:1220-1230. -/
noncomputable def non_d1_d2 (par : Par) (_bg : Bg) (I : Ints) (v : NonEnv) : ℝ :=
  if par.correlation_contrib.d1 ∧ par.correlation_contrib.d2 then
    (-((3 - v.fevo2) * v.curlyH1 * v.curlyH2 ^ 2 * v.f1 * v.f2 * (v.chi2 * v.costheta - v.chi1) +
    (3 - v.fevo1) * v.curlyH2 * v.curlyH1 ^ 2 * v.f2 * v.f1 * (v.chi1 * v.costheta - v.chi2)))
    * I.I31.result v.sep
  else
    0

/-- d1-g1 + g1-d1 term of `functions_nonintegrated`, src/functions.c:1232-1242. -/
noncomputable def non_d1_g1 (par : Par) (_bg : Bg) (I : Ints) (v : NonEnv) : ℝ :=
  if par.correlation_contrib.d1 ∧ par.correlation_contrib.g1 then
    (COFFE_H0 * par.h) ^ 2
    * ((3 * (par.Omega0_cdm + par.Omega0_baryon) / 2 / v.a2 * v.curlyH1 * v.f1 * (1 + v.G2)
        * (v.chi2 * v.costheta - v.chi1)
        + 3 * (par.Omega0_cdm + par.Omega0_baryon) / 2 / v.a1 * v.curlyH2 * v.f2 * (1 + v.G1)
          * (v.chi1 * v.costheta - v.chi2))
       * I.I31.result v.sep)
  else
    0

/-- d1-g2 + g2-d1 term of `functions_nonintegrated`, src/functions.c:1244-1254. -/
noncomputable def non_d1_g2 (par : Par) (_bg : Bg) (I : Ints) (v : NonEnv) : ℝ :=
  if par.correlation_contrib.d1 ∧ par.correlation_contrib.g2 then
    (COFFE_H0 * par.h) ^ 2
    * ((3 * (par.Omega0_cdm + par.Omega0_baryon) / 2 / v.a2 * v.curlyH1 * v.f1 * (5 * v.s2 - 2)
        * (v.chi2 * v.costheta - v.chi1)
        + 3 * (par.Omega0_cdm + par.Omega0_baryon) / 2 / v.a1 * v.curlyH2 * v.f2 * (5 * v.s1 - 2)
          * (v.chi1 * v.costheta - v.chi2))
       * I.I31.result v.sep)
  else
    0

/-- d1-g3 + g3-d1 term of `functions_nonintegrated`, src/functions.c:1256-1266. -/
noncomputable def non_d1_g3 (par : Par) (_bg : Bg) (I : Ints) (v : NonEnv) : ℝ :=
  if par.correlation_contrib.d1 ∧ par.correlation_contrib.g3 then
    (COFFE_H0 * par.h) ^ 2
    * ((3 * (par.Omega0_cdm + par.Omega0_baryon) / 2 / v.a2 * v.curlyH1 * v.f1 * (v.f2 - 1)
        * (v.chi2 * v.costheta - v.chi1)
        + 3 * (par.Omega0_cdm + par.Omega0_baryon) / 2 / v.a1 * v.curlyH2 * v.f2 * (v.f1 - 1)
          * (v.chi1 * v.costheta - v.chi2))
       * I.I31.result v.sep)
  else
    0

/-- d2-g1 + g1-d2 term of `functions_nonintegrated`, src/functions.c:1268-1293. -/
noncomputable def non_d2_g1 (par : Par) (_bg : Bg) (I : Ints) (v : NonEnv) : ℝ :=
  if par.correlation_contrib.d2 ∧ par.correlation_contrib.g1 then
    (COFFE_H0 * par.h) ^ 2
    * ((-(3 * (3 - v.fevo1) * (par.Omega0_cdm + par.Omega0_baryon) / 2 / v.a2 * v.curlyH1 ^ 2 *
       v.f1 * (1 + v.G2) + 3 * (3 - v.fevo2) * (par.Omega0_cdm + par.Omega0_baryon) / 2 / v.a1 *
       v.curlyH2 ^ 2 * v.f2 * (1 + v.G1)))
       * (I.I40.result v.sep - I.I40.renormalization v.chi1 v.chi2))
  else
    0

/-- d2-g2 + g2-d2 term of `functions_nonintegrated`, src/functions.c:1295-1320. -/
noncomputable def non_d2_g2 (par : Par) (_bg : Bg) (I : Ints) (v : NonEnv) : ℝ :=
  if par.correlation_contrib.d2 ∧ par.correlation_contrib.g2 then
    (COFFE_H0 * par.h) ^ 2
    * ((-(3 * (3 - v.fevo1) * (par.Omega0_cdm + par.Omega0_baryon) / 2 / v.a2 * v.curlyH1 ^ 2 *
       v.f1 * (5 * v.s2 - 2) + 3 * (3 - v.fevo2) * (par.Omega0_cdm + par.Omega0_baryon) / 2 / v.a1
       * v.curlyH2 ^ 2 * v.f2 * (5 * v.s1 - 2)))
       * (I.I40.result v.sep - I.I40.renormalization v.chi1 v.chi2))
  else
    0

/-- d2-g3 + g3-d2 term of `functions_nonintegrated`, src/functions.c:1322-1347. -/
noncomputable def non_d2_g3 (par : Par) (_bg : Bg) (I : Ints) (v : NonEnv) : ℝ :=
  if par.correlation_contrib.d2 ∧ par.correlation_contrib.g3 then
    (COFFE_H0 * par.h) ^ 2
    * ((-(3 * (3 - v.fevo1) * (par.Omega0_cdm + par.Omega0_baryon) / 2 / v.a2 * v.curlyH1 ^ 2 *
       v.f1 * (v.f2 - 1) + 3 * (3 - v.fevo2) * (par.Omega0_cdm + par.Omega0_baryon) / 2 / v.a1 *
       v.curlyH2 ^ 2 * v.f2 * (v.f1 - 1)))
       * (I.I40.result v.sep - I.I40.renormalization v.chi1 v.chi2))
  else
    0

/-- g1-g2 + g2-g1 term of `functions_nonintegrated`, src/functions.c:1349-1374. -/
noncomputable def non_g1_g2 (par : Par) (_bg : Bg) (I : Ints) (v : NonEnv) : ℝ :=
  if par.correlation_contrib.g1 ∧ par.correlation_contrib.g2 then
    (COFFE_H0 * par.h) ^ 4
    * ((9 * (par.Omega0_cdm + par.Omega0_baryon) ^ 2 / 4 / v.a1 / v.a2 * (1 + v.G1)
        * (5 * v.s2 - 2)
        + 9 * (par.Omega0_cdm + par.Omega0_baryon) ^ 2 / 4 / v.a2 / v.a1 * (1 + v.G2)
          * (5 * v.s1 - 2))
       * (I.I40.result v.sep - I.I40.renormalization v.chi1 v.chi2))
  else
    0

/-- g1-g3 + g3-g1 term of `functions_nonintegrated`, src/functions.c:1376-1401. -/
noncomputable def non_g1_g3 (par : Par) (_bg : Bg) (I : Ints) (v : NonEnv) : ℝ :=
  if par.correlation_contrib.g1 ∧ par.correlation_contrib.g3 then
    (COFFE_H0 * par.h) ^ 4
    * ((9 * (par.Omega0_cdm + par.Omega0_baryon) ^ 2 / 4 / v.a1 / v.a2 * (1 + v.G1) * (v.f2 - 1)
        + 9 * (par.Omega0_cdm + par.Omega0_baryon) ^ 2 / 4 / v.a2 / v.a1 * (1 + v.G2) * (v.f1 - 1))
       * (I.I40.result v.sep - I.I40.renormalization v.chi1 v.chi2))
  else
    0

/-- g2-g3 + g3-g2 term of `functions_nonintegrated`, src/functions.c:1403-1428. -/
noncomputable def non_g2_g3 (par : Par) (_bg : Bg) (I : Ints) (v : NonEnv) : ℝ :=
  if par.correlation_contrib.g2 ∧ par.correlation_contrib.g3 then
    (COFFE_H0 * par.h) ^ 4
    * (9 * (par.Omega0_cdm + par.Omega0_baryon) ^ 2 / 4
       * ((5 * v.s1 - 2) * (v.f2 - 1) / v.a1 / v.a2 + (5 * v.s2 - 2) * (v.f1 - 1) / v.a2 / v.a1)
       * (I.I40.result v.sep - I.I40.renormalization v.chi1 v.chi2))
  else
    0
/-- Value of `result` after all terms, src/functions.c:129-1428. -/
noncomputable def non_result (par : Par) (bg : Bg) (I : Ints) (v : NonEnv) : ℝ :=
  non_den_den par bg I v
  + non_rsd_rsd par bg I v
  + non_d1_d1 par bg I v
  + non_d2_d2 par bg I v
  + non_g1_g1 par bg I v
  + non_g2_g2 par bg I v
  + non_g3_g3 par bg I v
  + non_den_rsd par bg I v
  + non_den_d1 par bg I v
  + non_den_d2 par bg I v
  + non_den_g1 par bg I v
  + non_den_g2 par bg I v
  + non_den_g3 par bg I v
  + non_rsd_d1 par bg I v
  + non_rsd_d2 par bg I v
  + non_rsd_g1 par bg I v
  + non_rsd_g2 par bg I v
  + non_rsd_g3 par bg I v
  + non_d1_d2 par bg I v
  + non_d1_g1 par bg I v
  + non_d1_g2 par bg I v
  + non_d1_g3 par bg I v
  + non_d2_g1 par bg I v
  + non_d2_g2 par bg I v
  + non_d2_g3 par bg I v
  + non_g1_g2 par bg I v
  + non_g1_g3 par bg I v
  + non_g2_g3 par bg I v

/-- The growth factor multiplying `result`, src/functions.c:1430-1467. -/
noncomputable def non_growth (par : Par) (bg : Bg) (v : NonEnv) : ℝ :=
  if par.pk_type ≠ .COFFE_PK_LINEAR ∧ par.midpoint_approximation then 1
  else if par.b_derivative ∨ par.f_derivative then (bg.D1 v.z_mean) ^ 2
  else if par.b_tilde_derivative ∨ par.f_tilde_derivative then (bg.D1 v.z_mean) ^ 1
  else if par.flatsky_local then (bg.D1 v.z_mean) ^ 2
  else bg.D1 v.z1 * bg.D1 v.z2

/-- `functions_nonintegrated`, src/functions.c:89-1484. -/
noncomputable def functions_nonintegrated (par : Par) (bg : Bg) (I : Ints) (z_mean mu sep : ℝ) : ℝ :=
  let v := NonEnv.of par bg z_mean mu sep
  non_result par bg I v * non_growth par bg v

end Coffe
