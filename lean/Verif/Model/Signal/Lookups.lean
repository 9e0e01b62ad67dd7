import Verif.Model.Signal.NonIntegrated
import Verif.Model.Signal.SingleIntegrated
import Verif.Model.Signal.DoubleIntegrated

/-!
# Integral look-ups performed by `src/functions.c`

For each term, the integrals passed to `coffe_find_integral` on the path that is executed, with the
spline of the integral that is evaluated (same guards as the value; extracted mechanically from the
same source text).
-/

namespace Coffe
open Classical

/-- Integrals looked up (key and spline used) by the den-den term of `functions_nonintegrated`, src/functions.c:130-229. -/
noncomputable def non_den_den_looks (par : Par) (_v : NonEnv) : List Look :=
  (if par.correlation_contrib.den ∧ ¬ par.only_cross_correlations then
    (if par.flatsky_local then
      (if (par.pk_type ≠ .COFFE_PK_LINEAR) ∧ par.midpoint_approximation then
        [⟨⟨0, 0, .int, .int⟩, .result2d⟩]
      else
        (if par.b_derivative ∨ par.b_tilde_derivative then
          [⟨⟨0, 0, .int, .int⟩, .result⟩]
        else
          (if par.f_derivative ∨ par.f_tilde_derivative then
            []
          else
            [⟨⟨0, 0, .int, .int⟩, .result⟩])))
    else
      (if (par.pk_type ≠ .COFFE_PK_LINEAR) ∧ par.midpoint_approximation then
        [⟨⟨0, 0, .int, .int⟩, .result2d⟩]
      else
        [⟨⟨0, 0, .int, .int⟩, .result⟩]))
  else
    [])

/-- Integrals looked up (key and spline used) by the rsd-rsd term of `functions_nonintegrated`, src/functions.c:231-362. -/
noncomputable def non_rsd_rsd_looks (par : Par) (_v : NonEnv) : List Look :=
  (if par.correlation_contrib.rsd ∧ ¬ par.only_cross_correlations then
    (if par.flatsky_local then
      (if (par.pk_type ≠ .COFFE_PK_LINEAR) ∧ par.midpoint_approximation then
        [⟨⟨0, 0, .int, .int⟩, .result2d⟩, ⟨⟨0, 2, .int, .int⟩, .result2d⟩, ⟨⟨0, 4, .int, .int⟩, .result2d⟩]
      else
        (if par.b_derivative ∨ par.b_tilde_derivative then
          []
        else
          (if par.f_derivative ∨ par.f_tilde_derivative then
            [⟨⟨0, 0, .int, .int⟩, .result⟩, ⟨⟨0, 2, .int, .int⟩, .result⟩, ⟨⟨0, 4, .int, .int⟩, .result⟩]
          else
            [⟨⟨0, 0, .int, .int⟩, .result⟩, ⟨⟨0, 2, .int, .int⟩, .result⟩, ⟨⟨0, 4, .int, .int⟩, .result⟩])))
    else
      (if (par.pk_type ≠ .COFFE_PK_LINEAR) ∧ par.midpoint_approximation then
        [⟨⟨0, 0, .int, .int⟩, .result2d⟩, ⟨⟨0, 2, .int, .int⟩, .result2d⟩, ⟨⟨0, 4, .int, .int⟩, .result2d⟩]
      else
        [⟨⟨0, 0, .int, .int⟩, .result⟩, ⟨⟨0, 2, .int, .int⟩, .result⟩, ⟨⟨0, 4, .int, .int⟩, .result⟩]))
  else
    [])

/-- Integrals looked up (key and spline used) by the d1-d1 term of `functions_nonintegrated`, src/functions.c:364-573. -/
noncomputable def non_d1_d1_looks (par : Par) (_v : NonEnv) : List Look :=
  (if par.correlation_contrib.d1 ∧ ¬ par.only_cross_correlations then
    (if par.flatsky_local then
      (if (par.pk_type ≠ .COFFE_PK_LINEAR) ∧ par.midpoint_approximation then
        [⟨⟨2, 0, .int, .int⟩, .result2d⟩, ⟨⟨2, 2, .int, .int⟩, .result2d⟩]
      else
        [⟨⟨2, 0, .int, .int⟩, .result⟩, ⟨⟨2, 2, .int, .int⟩, .result⟩])
    else
      (if (par.pk_type ≠ .COFFE_PK_LINEAR) ∧ par.midpoint_approximation then
        [⟨⟨2, 0, .int, .int⟩, .result2d⟩, ⟨⟨2, 2, .int, .int⟩, .result2d⟩]
      else
        [⟨⟨2, 0, .int, .int⟩, .result⟩, ⟨⟨2, 2, .int, .int⟩, .result⟩]))
  else
    [])

/-- Integrals looked up (key and spline used) by the d2-d2 term of `functions_nonintegrated`, src/functions.c:575-597. -/
noncomputable def non_d2_d2_looks (par : Par) (_v : NonEnv) : List Look :=
  (if par.correlation_contrib.d2 ∧ ¬ par.only_cross_correlations then
    [⟨⟨4, 0, .int, .int⟩, .result⟩, ⟨⟨4, 0, .int, .int⟩, .renormalization⟩]
  else
    [])

/-- Integrals looked up (key and spline used) by the g1-g1 term of `functions_nonintegrated`, src/functions.c:599-621. -/
noncomputable def non_g1_g1_looks (par : Par) (_v : NonEnv) : List Look :=
  (if par.correlation_contrib.g1 ∧ ¬ par.only_cross_correlations then
    [⟨⟨4, 0, .int, .int⟩, .result⟩, ⟨⟨4, 0, .int, .int⟩, .renormalization⟩]
  else
    [])

/-- Integrals looked up (key and spline used) by the g2-g2 term of `functions_nonintegrated`, src/functions.c:623-645. -/
noncomputable def non_g2_g2_looks (par : Par) (_v : NonEnv) : List Look :=
  (if par.correlation_contrib.g2 ∧ ¬ par.only_cross_correlations then
    [⟨⟨4, 0, .int, .int⟩, .result⟩, ⟨⟨4, 0, .int, .int⟩, .renormalization⟩]
  else
    [])

/-- Integrals looked up (key and spline used) by the g3-g3 term of `functions_nonintegrated`, src/functions.c:647-669. -/
noncomputable def non_g3_g3_looks (par : Par) (_v : NonEnv) : List Look :=
  (if par.correlation_contrib.g3 ∧ ¬ par.only_cross_correlations then
    [⟨⟨4, 0, .int, .int⟩, .result⟩, ⟨⟨4, 0, .int, .int⟩, .renormalization⟩]
  else
    [])

/-- Integrals looked up (key and spline used) by the den-rsd term of `functions_nonintegrated`, src/functions.c:671-771. -/
noncomputable def non_den_rsd_looks (par : Par) (_v : NonEnv) : List Look :=
  (if par.correlation_contrib.den ∧ par.correlation_contrib.rsd then
    (if par.flatsky_local then
      (if (par.pk_type ≠ .COFFE_PK_LINEAR) ∧ par.midpoint_approximation then
        [⟨⟨0, 0, .int, .int⟩, .result2d⟩, ⟨⟨0, 2, .int, .int⟩, .result2d⟩]
      else
        (if par.b_derivative ∨ par.b_tilde_derivative then
          [⟨⟨0, 0, .int, .int⟩, .result⟩, ⟨⟨0, 2, .int, .int⟩, .result⟩]
        else
          (if par.f_derivative ∨ par.f_tilde_derivative then
            [⟨⟨0, 0, .int, .int⟩, .result⟩, ⟨⟨0, 2, .int, .int⟩, .result⟩]
          else
            [⟨⟨0, 0, .int, .int⟩, .result⟩, ⟨⟨0, 2, .int, .int⟩, .result⟩])))
    else
      (if (par.pk_type ≠ .COFFE_PK_LINEAR) ∧ par.midpoint_approximation then
        [⟨⟨0, 0, .int, .int⟩, .result2d⟩, ⟨⟨0, 2, .int, .int⟩, .result2d⟩]
      else
        [⟨⟨0, 0, .int, .int⟩, .result⟩, ⟨⟨0, 2, .int, .int⟩, .result⟩]))
  else
    [])

/-- Integrals looked up (key and spline used) by the den-d1 term of `functions_nonintegrated`, src/functions.c:773-855. -/
noncomputable def non_den_d1_looks (par : Par) (_v : NonEnv) : List Look :=
  (if par.correlation_contrib.den ∧ par.correlation_contrib.d1 then
    (if par.flatsky_local then
      (if (par.pk_type ≠ .COFFE_PK_LINEAR) ∧ par.midpoint_approximation then
        [⟨⟨1, 1, .int, .int⟩, .result2d⟩]
      else
        [⟨⟨1, 1, .int, .int⟩, .result⟩])
    else
      (if (par.pk_type ≠ .COFFE_PK_LINEAR) ∧ par.midpoint_approximation then
        [⟨⟨1, 1, .int, .int⟩, .result2d⟩]
      else
        [⟨⟨1, 1, .int, .int⟩, .result⟩]))
  else
    [])

/-- Integrals looked up (key and spline used) by the den-d2 term of `functions_nonintegrated`, src/functions.c:857-867. -/
noncomputable def non_den_d2_looks (par : Par) (_v : NonEnv) : List Look :=
  (if par.correlation_contrib.den ∧ par.correlation_contrib.d2 then
    [⟨⟨2, 0, .int, .int⟩, .result⟩]
  else
    [])

/-- Integrals looked up (key and spline used) by the den-g1 term of `functions_nonintegrated`, src/functions.c:869-879. -/
noncomputable def non_den_g1_looks (par : Par) (_v : NonEnv) : List Look :=
  (if par.correlation_contrib.den ∧ par.correlation_contrib.g1 then
    [⟨⟨2, 0, .int, .int⟩, .result⟩]
  else
    [])

/-- Integrals looked up (key and spline used) by the den-g2 term of `functions_nonintegrated`, src/functions.c:881-891. -/
noncomputable def non_den_g2_looks (par : Par) (_v : NonEnv) : List Look :=
  (if par.correlation_contrib.den ∧ par.correlation_contrib.g2 then
    [⟨⟨2, 0, .int, .int⟩, .result⟩]
  else
    [])

/-- Integrals looked up (key and spline used) by the den-g3 term of `functions_nonintegrated`, src/functions.c:893-903. -/
noncomputable def non_den_g3_looks (par : Par) (_v : NonEnv) : List Look :=
  (if par.correlation_contrib.den ∧ par.correlation_contrib.g3 then
    [⟨⟨2, 0, .int, .int⟩, .result⟩]
  else
    [])

/-- Integrals looked up (key and spline used) by the rsd-d1 term of `functions_nonintegrated`, src/functions.c:905-1143. -/
noncomputable def non_rsd_d1_looks (par : Par) (_v : NonEnv) : List Look :=
  (if par.correlation_contrib.rsd ∧ par.correlation_contrib.d1 then
    (if par.flatsky_local then
      (if (par.pk_type ≠ .COFFE_PK_LINEAR) ∧ par.midpoint_approximation then
        [⟨⟨1, 1, .int, .int⟩, .result2d⟩, ⟨⟨1, 3, .int, .int⟩, .result2d⟩]
      else
        [⟨⟨1, 1, .int, .int⟩, .result⟩, ⟨⟨1, 3, .int, .int⟩, .result⟩])
    else
      (if (par.pk_type ≠ .COFFE_PK_LINEAR) ∧ par.midpoint_approximation then
        [⟨⟨1, 1, .int, .int⟩, .result2d⟩, ⟨⟨1, 3, .int, .int⟩, .result2d⟩]
      else
        [⟨⟨1, 1, .int, .int⟩, .result⟩, ⟨⟨1, 3, .int, .int⟩, .result⟩]))
  else
    [])

/-- Integrals looked up (key and spline used) by the rsd-d2 term of `functions_nonintegrated`, src/functions.c:1145-1163. -/
noncomputable def non_rsd_d2_looks (par : Par) (_v : NonEnv) : List Look :=
  (if par.correlation_contrib.rsd ∧ par.correlation_contrib.d2 then
    [⟨⟨2, 0, .int, .int⟩, .result⟩, ⟨⟨2, 2, .int, .int⟩, .result⟩]
  else
    [])

/-- Integrals looked up (key and spline used) by the rsd-g1 term of `functions_nonintegrated`, src/functions.c:1165-1181. -/
noncomputable def non_rsd_g1_looks (par : Par) (_v : NonEnv) : List Look :=
  (if par.correlation_contrib.rsd ∧ par.correlation_contrib.g1 then
    [⟨⟨2, 0, .int, .int⟩, .result⟩, ⟨⟨2, 2, .int, .int⟩, .result⟩]
  else
    [])

/-- Integrals looked up (key and spline used) by the rsd-g2 term of `functions_nonintegrated`, src/functions.c:1183-1199. -/
noncomputable def non_rsd_g2_looks (par : Par) (_v : NonEnv) : List Look :=
  (if par.correlation_contrib.rsd ∧ par.correlation_contrib.g2 then
    [⟨⟨2, 0, .int, .int⟩, .result⟩, ⟨⟨2, 2, .int, .int⟩, .result⟩]
  else
    [])

/-- Integrals looked up (key and spline used) by the rsd-g3 term of `functions_nonintegrated`, src/functions.c:1201-1218. -/
noncomputable def non_rsd_g3_looks (par : Par) (_v : NonEnv) : List Look :=
  (if par.correlation_contrib.rsd ∧ par.correlation_contrib.g3 then
    [⟨⟨2, 0, .int, .int⟩, .result⟩, ⟨⟨2, 2, .int, .int⟩, .result⟩]
  else
    [])

/-- Integrals looked up (key and spline used) by the d1-d2 term of `functions_nonintegrated`, src/functions.c:1220-1230. -/
noncomputable def non_d1_d2_looks (par : Par) (_v : NonEnv) : List Look :=
  (if par.correlation_contrib.d1 ∧ par.correlation_contrib.d2 then
    [⟨⟨3, 1, .int, .int⟩, .result⟩]
  else
    [])

/-- Integrals looked up (key and spline used) by the d1-g1 term of `functions_nonintegrated`, src/functions.c:1232-1242. -/
noncomputable def non_d1_g1_looks (par : Par) (_v : NonEnv) : List Look :=
  (if par.correlation_contrib.d1 ∧ par.correlation_contrib.g1 then
    [⟨⟨3, 1, .int, .int⟩, .result⟩]
  else
    [])

/-- Integrals looked up (key and spline used) by the d1-g2 term of `functions_nonintegrated`, src/functions.c:1244-1254. -/
noncomputable def non_d1_g2_looks (par : Par) (_v : NonEnv) : List Look :=
  (if par.correlation_contrib.d1 ∧ par.correlation_contrib.g2 then
    [⟨⟨3, 1, .int, .int⟩, .result⟩]
  else
    [])

/-- Integrals looked up (key and spline used) by the d1-g3 term of `functions_nonintegrated`, src/functions.c:1256-1266. -/
noncomputable def non_d1_g3_looks (par : Par) (_v : NonEnv) : List Look :=
  (if par.correlation_contrib.d1 ∧ par.correlation_contrib.g3 then
    [⟨⟨3, 1, .int, .int⟩, .result⟩]
  else
    [])

/-- Integrals looked up (key and spline used) by the d2-g1 term of `functions_nonintegrated`, src/functions.c:1268-1293. -/
noncomputable def non_d2_g1_looks (par : Par) (_v : NonEnv) : List Look :=
  (if par.correlation_contrib.d2 ∧ par.correlation_contrib.g1 then
    [⟨⟨4, 0, .int, .int⟩, .result⟩, ⟨⟨4, 0, .int, .int⟩, .renormalization⟩]
  else
    [])

/-- Integrals looked up (key and spline used) by the d2-g2 term of `functions_nonintegrated`, src/functions.c:1295-1320. -/
noncomputable def non_d2_g2_looks (par : Par) (_v : NonEnv) : List Look :=
  (if par.correlation_contrib.d2 ∧ par.correlation_contrib.g2 then
    [⟨⟨4, 0, .int, .int⟩, .result⟩, ⟨⟨4, 0, .int, .int⟩, .renormalization⟩]
  else
    [])

/-- Integrals looked up (key and spline used) by the d2-g3 term of `functions_nonintegrated`, src/functions.c:1322-1347. -/
noncomputable def non_d2_g3_looks (par : Par) (_v : NonEnv) : List Look :=
  (if par.correlation_contrib.d2 ∧ par.correlation_contrib.g3 then
    [⟨⟨4, 0, .int, .int⟩, .result⟩, ⟨⟨4, 0, .int, .int⟩, .renormalization⟩]
  else
    [])

/-- Integrals looked up (key and spline used) by the g1-g2 term of `functions_nonintegrated`, src/functions.c:1349-1374. -/
noncomputable def non_g1_g2_looks (par : Par) (_v : NonEnv) : List Look :=
  (if par.correlation_contrib.g1 ∧ par.correlation_contrib.g2 then
    [⟨⟨4, 0, .int, .int⟩, .result⟩, ⟨⟨4, 0, .int, .int⟩, .renormalization⟩]
  else
    [])

/-- Integrals looked up (key and spline used) by the g1-g3 term of `functions_nonintegrated`, src/functions.c:1376-1401. -/
noncomputable def non_g1_g3_looks (par : Par) (_v : NonEnv) : List Look :=
  (if par.correlation_contrib.g1 ∧ par.correlation_contrib.g3 then
    [⟨⟨4, 0, .int, .int⟩, .result⟩, ⟨⟨4, 0, .int, .int⟩, .renormalization⟩]
  else
    [])

/-- Integrals looked up (key and spline used) by the g2-g3 term of `functions_nonintegrated`, src/functions.c:1403-1428. -/
noncomputable def non_g2_g3_looks (par : Par) (_v : NonEnv) : List Look :=
  (if par.correlation_contrib.g2 ∧ par.correlation_contrib.g3 then
    [⟨⟨4, 0, .int, .int⟩, .result⟩, ⟨⟨4, 0, .int, .int⟩, .renormalization⟩]
  else
    [])

/-- All integrals looked up by `functions_nonintegrated`. -/
noncomputable def non_looks (par : Par) (v : NonEnv) : List Look :=
  non_den_den_looks par v
  ++ non_rsd_rsd_looks par v
  ++ non_d1_d1_looks par v
  ++ non_d2_d2_looks par v
  ++ non_g1_g1_looks par v
  ++ non_g2_g2_looks par v
  ++ non_g3_g3_looks par v
  ++ non_den_rsd_looks par v
  ++ non_den_d1_looks par v
  ++ non_den_d2_looks par v
  ++ non_den_g1_looks par v
  ++ non_den_g2_looks par v
  ++ non_den_g3_looks par v
  ++ non_rsd_d1_looks par v
  ++ non_rsd_d2_looks par v
  ++ non_rsd_g1_looks par v
  ++ non_rsd_g2_looks par v
  ++ non_rsd_g3_looks par v
  ++ non_d1_d2_looks par v
  ++ non_d1_g1_looks par v
  ++ non_d1_g2_looks par v
  ++ non_d1_g3_looks par v
  ++ non_d2_g1_looks par v
  ++ non_d2_g2_looks par v
  ++ non_d2_g3_looks par v
  ++ non_g1_g2_looks par v
  ++ non_g1_g3_looks par v
  ++ non_g2_g3_looks par v

/-- Integrals looked up (key and spline used) by the den-len term of `functions_single_integrated`, src/functions.c:1559-2052. -/
noncomputable def single_den_len_looks (par : Par) (v : SingleEnv) : List Look :=
  (if par.correlation_contrib.den ∧ par.correlation_contrib.len then
    (if par.flatsky_local_nonlocal ∧ par.output_type ≠ .MULTIPOLES then
      (if (par.pk_type ≠ .COFFE_PK_LINEAR) ∧ par.midpoint_approximation then
        [⟨⟨1, -1, .half, .half⟩, .result2d⟩]
      else
        [⟨⟨1, -1, .half, .half⟩, .result⟩])
    else
      (if ¬ par.flatsky_local_nonlocal then
        (if (v.r21 ≠ 0) ∧ v.r22 ≠ 0 then
          (if (par.pk_type ≠ .COFFE_PK_LINEAR) ∧ par.midpoint_approximation then
            [⟨⟨1, 1, .int, .int⟩, .result2d⟩, ⟨⟨0, 2, .int, .int⟩, .result2d⟩]
          else
            [⟨⟨1, 1, .int, .int⟩, .result⟩, ⟨⟨0, 2, .int, .int⟩, .result⟩])
        else
          (if (v.r21 = 0) ∧ v.r22 ≠ 0 then
            (if par.pk_type ≠ .COFFE_PK_LINEAR then
              [⟨⟨1, 1, .int, .int⟩, .result2d⟩, ⟨⟨0, 2, .int, .int⟩, .result2d⟩]
            else
              [⟨⟨1, 1, .int, .int⟩, .result⟩, ⟨⟨0, 2, .int, .int⟩, .result⟩])
          else
            (if (v.r21 ≠ 0) ∧ v.r22 = 0 then
              (if (par.pk_type ≠ .COFFE_PK_LINEAR) ∧ par.midpoint_approximation then
                [⟨⟨1, 1, .int, .int⟩, .result2d⟩, ⟨⟨0, 2, .int, .int⟩, .result2d⟩]
              else
                [⟨⟨1, 1, .int, .int⟩, .result⟩, ⟨⟨0, 2, .int, .int⟩, .result⟩])
            else
              (if (par.pk_type ≠ .COFFE_PK_LINEAR) ∧ par.midpoint_approximation then
                [⟨⟨0, 2, .int, .int⟩, .result2d⟩]
              else
                [⟨⟨1, 1, .int, .int⟩, .result⟩]))))
      else
        []))
  else
    [])

/-- Integrals looked up (key and spline used) by the rsd-len term of `functions_single_integrated`, src/functions.c:2054-2483. -/
noncomputable def single_rsd_len_looks (par : Par) (v : SingleEnv) : List Look :=
  (if par.correlation_contrib.rsd ∧ par.correlation_contrib.len then
    (if ¬ par.flatsky_local_nonlocal then
      (if (v.r21 ≠ 0) ∧ v.r22 ≠ 0 then
        (if (par.pk_type ≠ .COFFE_PK_LINEAR) ∧ par.midpoint_approximation then
          [⟨⟨0, 0, .int, .int⟩, .result2d⟩, ⟨⟨0, 2, .int, .int⟩, .result2d⟩]
        else
          [⟨⟨0, 0, .int, .int⟩, .result⟩, ⟨⟨0, 2, .int, .int⟩, .result⟩]) ++ (if |v.mu| < 0.999 then
          (if (par.pk_type ≠ .COFFE_PK_LINEAR) ∧ par.midpoint_approximation then
            [⟨⟨0, 4, .int, .int⟩, .result2d⟩]
          else
            [⟨⟨0, 4, .int, .int⟩, .result⟩])
        else
          (if (par.pk_type ≠ .COFFE_PK_LINEAR) ∧ par.midpoint_approximation then
            [⟨⟨0, 4, .int, .int⟩, .result2d⟩]
          else
            [⟨⟨0, 4, .int, .int⟩, .result⟩]))
      else
        (if (v.r21 = 0) ∧ v.r22 ≠ 0 then
          [⟨⟨0, 0, .int, .int⟩, .result⟩, ⟨⟨0, 2, .int, .int⟩, .result⟩, ⟨⟨0, 4, .int, .int⟩, .result⟩]
        else
          (if (v.r21 ≠ 0) ∧ v.r22 = 0 then
            [⟨⟨0, 0, .int, .int⟩, .result⟩, ⟨⟨0, 2, .int, .int⟩, .result⟩, ⟨⟨0, 4, .int, .int⟩, .result⟩]
          else
            [⟨⟨0, 0, .int, .int⟩, .result⟩])))
    else
      [])
  else
    [])

/-- Integrals looked up (key and spline used) by the d1-len term of `functions_single_integrated`, src/functions.c:2485-2999. -/
noncomputable def single_d1_len_looks (par : Par) (v : SingleEnv) : List Look :=
  (if par.correlation_contrib.d1 ∧ par.correlation_contrib.len then
    (if ¬ par.flatsky_local_nonlocal then
      (if (v.r21 ≠ 0) ∧ v.r22 ≠ 0 then
        (if (par.pk_type ≠ .COFFE_PK_LINEAR) ∧ par.midpoint_approximation then
          [⟨⟨1, 1, .int, .int⟩, .result2d⟩, ⟨⟨2, 0, .int, .int⟩, .result2d⟩, ⟨⟨1, 3, .int, .int⟩, .result2d⟩]
        else
          [⟨⟨1, 1, .int, .int⟩, .result⟩, ⟨⟨2, 0, .int, .int⟩, .result⟩, ⟨⟨1, 3, .int, .int⟩, .result⟩])
      else
        (if (v.r21 = 0) ∧ v.r22 ≠ 0 then
          (if (par.pk_type ≠ .COFFE_PK_LINEAR) ∧ par.midpoint_approximation then
            [⟨⟨2, 0, .int, .int⟩, .result2d⟩, ⟨⟨1, 1, .int, .int⟩, .result2d⟩, ⟨⟨1, 3, .int, .int⟩, .result2d⟩]
          else
            [⟨⟨2, 0, .int, .int⟩, .result⟩, ⟨⟨1, 1, .int, .int⟩, .result⟩, ⟨⟨1, 3, .int, .int⟩, .result⟩])
        else
          (if (v.r21 ≠ 0) ∧ v.r22 = 0 then
            (if (par.pk_type ≠ .COFFE_PK_LINEAR) ∧ par.midpoint_approximation then
              [⟨⟨1, 1, .int, .int⟩, .result2d⟩, ⟨⟨2, 0, .int, .int⟩, .result2d⟩, ⟨⟨1, 3, .int, .int⟩, .result2d⟩]
            else
              [⟨⟨1, 1, .int, .int⟩, .result⟩, ⟨⟨2, 0, .int, .int⟩, .result⟩, ⟨⟨1, 3, .int, .int⟩, .result⟩])
          else
            (if (par.pk_type ≠ .COFFE_PK_LINEAR) ∧ par.midpoint_approximation then
              [⟨⟨2, 0, .int, .int⟩, .result2d⟩]
            else
              [⟨⟨2, 0, .int, .int⟩, .result⟩]))))
    else
      [])
  else
    [])

/-- Integrals looked up (key and spline used) by the d2-len term of `functions_single_integrated`, src/functions.c:3001-3031. -/
noncomputable def single_d2_len_looks (par : Par) (_v : SingleEnv) : List Look :=
  (if par.correlation_contrib.d2 ∧ par.correlation_contrib.len then
    [⟨⟨3, 1, .int, .int⟩, .result⟩, ⟨⟨2, 2, .int, .int⟩, .result⟩]
  else
    [])

/-- Integrals looked up (key and spline used) by the g1-len term of `functions_single_integrated`, src/functions.c:3033-3061. -/
noncomputable def single_g1_len_looks (par : Par) (_v : SingleEnv) : List Look :=
  (if par.correlation_contrib.g1 ∧ par.correlation_contrib.len then
    [⟨⟨3, 1, .int, .int⟩, .result⟩, ⟨⟨2, 2, .int, .int⟩, .result⟩]
  else
    [])

/-- Integrals looked up (key and spline used) by the g2-len term of `functions_single_integrated`, src/functions.c:3063-3091. -/
noncomputable def single_g2_len_looks (par : Par) (_v : SingleEnv) : List Look :=
  (if par.correlation_contrib.g2 ∧ par.correlation_contrib.len then
    [⟨⟨3, 1, .int, .int⟩, .result⟩, ⟨⟨2, 2, .int, .int⟩, .result⟩]
  else
    [])

/-- Integrals looked up (key and spline used) by the g3-len term of `functions_single_integrated`, src/functions.c:3093-3121. -/
noncomputable def single_g3_len_looks (par : Par) (_v : SingleEnv) : List Look :=
  (if par.correlation_contrib.g3 ∧ par.correlation_contrib.len then
    [⟨⟨3, 1, .int, .int⟩, .result⟩, ⟨⟨2, 2, .int, .int⟩, .result⟩]
  else
    [])

/-- Integrals looked up (key and spline used) by the den-g4 term of `functions_single_integrated`, src/functions.c:3123-3141. -/
noncomputable def single_den_g4_looks (par : Par) (_v : SingleEnv) : List Look :=
  (if par.correlation_contrib.den ∧ par.correlation_contrib.g4 then
    [⟨⟨2, 0, .int, .int⟩, .result⟩]
  else
    [])

/-- Integrals looked up (key and spline used) by the den-g5 term of `functions_single_integrated`, src/functions.c:3143-3163. -/
noncomputable def single_den_g5_looks (par : Par) (_v : SingleEnv) : List Look :=
  (if par.correlation_contrib.den ∧ par.correlation_contrib.g5 then
    [⟨⟨2, 0, .int, .int⟩, .result⟩]
  else
    [])

/-- Integrals looked up (key and spline used) by the rsd-g4 term of `functions_single_integrated`, src/functions.c:3165-3190. -/
noncomputable def single_rsd_g4_looks (par : Par) (_v : SingleEnv) : List Look :=
  (if par.correlation_contrib.rsd ∧ par.correlation_contrib.g4 then
    [⟨⟨2, 2, .int, .int⟩, .result⟩, ⟨⟨2, 0, .int, .int⟩, .result⟩]
  else
    [])

/-- Integrals looked up (key and spline used) by the rsd-g5 term of `functions_single_integrated`, src/functions.c:3192-3219. -/
noncomputable def single_rsd_g5_looks (par : Par) (_v : SingleEnv) : List Look :=
  (if par.correlation_contrib.rsd ∧ par.correlation_contrib.g5 then
    [⟨⟨2, 2, .int, .int⟩, .result⟩, ⟨⟨2, 0, .int, .int⟩, .result⟩]
  else
    [])

/-- Integrals looked up (key and spline used) by the d1-g4 term of `functions_single_integrated`, src/functions.c:3221-3236. -/
noncomputable def single_d1_g4_looks (par : Par) (_v : SingleEnv) : List Look :=
  (if par.correlation_contrib.d1 ∧ par.correlation_contrib.g4 then
    [⟨⟨3, 1, .int, .int⟩, .result⟩]
  else
    [])

/-- Integrals looked up (key and spline used) by the d1-g5 term of `functions_single_integrated`, src/functions.c:3238-3257. -/
noncomputable def single_d1_g5_looks (par : Par) (_v : SingleEnv) : List Look :=
  (if par.correlation_contrib.d1 ∧ par.correlation_contrib.g5 then
    [⟨⟨3, 1, .int, .int⟩, .result⟩]
  else
    [])

/-- Integrals looked up (key and spline used) by the d2-g4 term of `functions_single_integrated`, src/functions.c:3259-3276. -/
noncomputable def single_d2_g4_looks (_par : Par) (_v : SingleEnv) : List Look :=
  []

/-- Integrals looked up (key and spline used) by the d2-g5 term of `functions_single_integrated`, src/functions.c:3278-3297. -/
noncomputable def single_d2_g5_looks (_par : Par) (_v : SingleEnv) : List Look :=
  []

/-- Integrals looked up (key and spline used) by the g1-g4 term of `functions_single_integrated`, src/functions.c:3299-3316. -/
noncomputable def single_g1_g4_looks (_par : Par) (_v : SingleEnv) : List Look :=
  []

/-- Integrals looked up (key and spline used) by the g1-g5 term of `functions_single_integrated`, src/functions.c:3318-3339. -/
noncomputable def single_g1_g5_looks (_par : Par) (_v : SingleEnv) : List Look :=
  []

/-- Integrals looked up (key and spline used) by the g2-g4 term of `functions_single_integrated`, src/functions.c:3341-3358. -/
noncomputable def single_g2_g4_looks (_par : Par) (_v : SingleEnv) : List Look :=
  []

/-- Integrals looked up (key and spline used) by the g2-g5 term of `functions_single_integrated`, src/functions.c:3360-3381. -/
noncomputable def single_g2_g5_looks (_par : Par) (_v : SingleEnv) : List Look :=
  []

/-- Integrals looked up (key and spline used) by the g3-g4 term of `functions_single_integrated`, src/functions.c:3383-3400. -/
noncomputable def single_g3_g4_looks (_par : Par) (_v : SingleEnv) : List Look :=
  []

/-- Integrals looked up (key and spline used) by the g3-g5 term of `functions_single_integrated`, src/functions.c:3402-3423. -/
noncomputable def single_g3_g5_looks (_par : Par) (_v : SingleEnv) : List Look :=
  []

/-- Integrals looked up for the renormalisation terms, src/functions.c:1525-1556. -/
def single_ren_looks (par : Par) : List Look :=
  if par.divergent then [⟨⟨4, 0, .int, .int⟩, .result⟩, ⟨⟨4, 0, .int, .int⟩, .renormalization⟩,
    ⟨⟨4, 0, .int, .int⟩, .renormalization_zero_separation⟩] else []

/-- All integrals looked up by `functions_single_integrated`. -/
noncomputable def single_looks (par : Par) (v : SingleEnv) : List Look :=
  single_ren_looks par ++ single_den_len_looks par v
  ++ single_rsd_len_looks par v
  ++ single_d1_len_looks par v
  ++ single_d2_len_looks par v
  ++ single_g1_len_looks par v
  ++ single_g2_len_looks par v
  ++ single_g3_len_looks par v
  ++ single_den_g4_looks par v
  ++ single_den_g5_looks par v
  ++ single_rsd_g4_looks par v
  ++ single_rsd_g5_looks par v
  ++ single_d1_g4_looks par v
  ++ single_d1_g5_looks par v
  ++ single_d2_g4_looks par v
  ++ single_d2_g5_looks par v
  ++ single_g1_g4_looks par v
  ++ single_g1_g5_looks par v
  ++ single_g2_g4_looks par v
  ++ single_g2_g5_looks par v
  ++ single_g3_g4_looks par v
  ++ single_g3_g5_looks par v

/-- Integrals looked up (key and spline used) by the len-len term of `functions_double_integrated`, src/functions.c:3517-3836. -/
noncomputable def double_len_len_looks (par : Par) (v : DoubleEnv) : List Look :=
  (if par.correlation_contrib.len ∧ ¬ par.only_cross_correlations then
    (if par.flatsky_nonlocal ∧ par.output_type ≠ .MULTIPOLES then
      [⟨⟨1, -1, .half, .half⟩, .result⟩]
    else
      (if ¬ par.flatsky_nonlocal then
        (if v.r2 > 1e-20 then
          (if (par.pk_type ≠ .COFFE_PK_LINEAR) ∧ par.midpoint_approximation then
            [⟨⟨0, 0, .int, .int⟩, .result2d⟩, ⟨⟨2, 0, .int, .int⟩, .result2d⟩, ⟨⟨1, 1, .int, .int⟩, .result2d⟩,
             ⟨⟨0, 2, .int, .int⟩, .result2d⟩, ⟨⟨1, 3, .int, .int⟩, .result2d⟩, ⟨⟨0, 4, .int, .int⟩, .result2d⟩]
          else
            [⟨⟨0, 0, .int, .int⟩, .result⟩, ⟨⟨2, 0, .int, .int⟩, .result⟩, ⟨⟨1, 1, .int, .int⟩, .result⟩,
             ⟨⟨0, 2, .int, .int⟩, .result⟩, ⟨⟨1, 3, .int, .int⟩, .result⟩, ⟨⟨0, 4, .int, .int⟩, .result⟩])
        else
          (if (par.pk_type ≠ .COFFE_PK_LINEAR) ∧ par.midpoint_approximation then
            [⟨⟨2, 0, .int, .int⟩, .result2d⟩]
          else
            [⟨⟨1, 1, .int, .int⟩, .result⟩]))
      else
        []))
  else
    [])

/-- Integrals looked up (key and spline used) by the g4-g4 term of `functions_double_integrated`, src/functions.c:3838-3852. -/
noncomputable def double_g4_g4_looks (_par : Par) (_v : DoubleEnv) : List Look :=
  []

/-- Integrals looked up (key and spline used) by the g5-g5 term of `functions_double_integrated`, src/functions.c:3854-3875. -/
noncomputable def double_g5_g5_looks (_par : Par) (_v : DoubleEnv) : List Look :=
  []

/-- Integrals looked up (key and spline used) by the g4-len term of `functions_double_integrated`, src/functions.c:3877-3918. -/
noncomputable def double_g4_len_looks (par : Par) (v : DoubleEnv) : List Look :=
  (if par.correlation_contrib.g4 ∧ par.correlation_contrib.len then
    (if v.r2 ≠ 0 then
      [⟨⟨3, 1, .int, .int⟩, .result⟩, ⟨⟨2, 2, .int, .int⟩, .result⟩]
    else
      [⟨⟨3, 1, .int, .int⟩, .result⟩])
  else
    [])

/-- Integrals looked up (key and spline used) by the g5-len term of `functions_double_integrated`, src/functions.c:3920-3965. -/
noncomputable def double_g5_len_looks (par : Par) (v : DoubleEnv) : List Look :=
  (if par.correlation_contrib.g5 ∧ par.correlation_contrib.len then
    (if v.r2 ≠ 0 then
      [⟨⟨3, 1, .int, .int⟩, .result⟩, ⟨⟨2, 2, .int, .int⟩, .result⟩]
    else
      [⟨⟨3, 1, .int, .int⟩, .result⟩])
  else
    [])

/-- Integrals looked up (key and spline used) by the g4-g5 term of `functions_double_integrated`, src/functions.c:3967-3987. -/
noncomputable def double_g4_g5_looks (_par : Par) (_v : DoubleEnv) : List Look :=
  []

/-- Integrals looked up for the renormalisation term, src/functions.c:3494-3514. -/
def double_ren_looks (par : Par) : List Look :=
  if par.divergent then [⟨⟨4, 0, .int, .int⟩, .result⟩, ⟨⟨4, 0, .int, .int⟩, .renormalization⟩,
    ⟨⟨4, 0, .int, .int⟩, .renormalization_zero_separation⟩] else []

/-- All integrals looked up by `functions_double_integrated`. -/
noncomputable def double_looks (par : Par) (v : DoubleEnv) : List Look :=
  double_ren_looks par ++ double_len_len_looks par v
  ++ double_g4_g4_looks par v
  ++ double_g5_g5_looks par v
  ++ double_g4_len_looks par v
  ++ double_g5_len_looks par v
  ++ double_g4_g5_looks par v

end Coffe
