import Verif.Model.C.Mem
import Mathlib.Analysis.SpecialFunctions.Log.Basic

/-!
# The padding helpers of src/utils.c

Array indices are integers, as in C: `fk[N_origin-2]` with one sample is an access outside the array.
-/

namespace Coffe
open Classical

/-- `log(a / b)`; a NaN or an infinity unless the quotient is a positive number. -/
noncomputable def clogdiv (a b : ℝ) : CRes ℝ :=
  if b ≠ 0 ∧ 0 < a / b then .ok (Real.log (a / b)) else .error .nan

/-- `mk_diag_g_to_ng`, src/utils.c:10-18, for `dlnk` different from zero. -/
noncomputable def mk_diag_g_to_ng (inp : Buf ℤ ℝ) (N : ℕ) (dlnk : ℝ) (out : Buf (ℤ × ℤ) ℝ) :
    CRes (Buf (ℤ × ℤ) ℝ) :=
  cfor (upTo 0 N) (fun i out => do
    let out ← cfor (upTo 0 N) (fun j out => out.store (i, j) 0) out
    let v ← inp.load i
    if dlnk = 0 then .error .nan else out.store (i, i) (v / dlnk)) out

/-- `extrap_log_linear`, src/utils.c:20-52. -/
noncomputable def extrap_log_linear (fk : Buf ℤ ℝ) (N_origin N_extra : ℕ) (large_fk : Buf ℤ ℝ) :
    CRes (Buf ℤ ℝ) := do
  let f1 ← fk.load 1
  let f0 ← fk.load 0
  let large_fk ←
    if f0 ≤ 0 then cfor (upTo 0 N_extra) (fun i large_fk => large_fk.store i 0) large_fk
    else cfor (upTo 0 N_extra) (fun i large_fk => do
      let dln_left ← clogdiv f1 f0
      large_fk.store i (Real.exp (Real.log f0 + ((i : ℝ) - N_extra) * dln_left))) large_fk
  let large_fk ← cfor (upTo N_extra (N_extra + N_origin)) (fun i large_fk => do
    let v ← fk.load ((i : ℤ) - N_extra)
    large_fk.store i v) large_fk
  let g1 ← fk.load ((N_origin : ℤ) - 1)
  let g2 ← fk.load ((N_origin : ℤ) - 2)
  if g1 ≤ 0 then
    cfor (upTo (N_extra + N_origin) (2 * N_extra + N_origin)) (fun i large_fk => large_fk.store i 0) large_fk
  else
    cfor (upTo (N_extra + N_origin) (2 * N_extra + N_origin)) (fun i large_fk => do
      let dln_right ← clogdiv g1 g2
      large_fk.store i (Real.exp (Real.log g1 + ((i : ℝ) - N_extra - N_origin + 1) * dln_right))) large_fk

/-- One row of the first loop of `extrap_bilinear`, src/utils.c:91-105. -/
noncomputable def extrap_row (fk : Buf (ℤ × ℤ) ℝ) (N_origin N_extra : ℕ) (i : ℕ)
    (large_fk : Buf (ℤ × ℤ) ℝ) : CRes (Buf (ℤ × ℤ) ℝ) := do
  let f1 ← fk.load ((i : ℤ) - N_extra, 1)
  let f0 ← fk.load ((i : ℤ) - N_extra, 0)
  let g1 ← fk.load ((i : ℤ) - N_extra, (N_origin : ℤ) - 1)
  let g2 ← fk.load ((i : ℤ) - N_extra, (N_origin : ℤ) - 2)
  let large_fk ← cfor (upTo 0 N_extra) (fun j large_fk =>
    large_fk.store (i, j) (f0 + ((j : ℝ) - N_extra) * (f1 - f0))) large_fk
  let large_fk ← cfor (upTo N_extra (N_extra + N_origin)) (fun j large_fk => do
    let v ← fk.load ((i : ℤ) - N_extra, (j : ℤ) - N_extra)
    large_fk.store (i, j) v) large_fk
  cfor (upTo (N_extra + N_origin) (2 * N_extra + N_origin)) (fun j large_fk =>
    large_fk.store (i, j) (g1 + ((j : ℝ) - N_extra - N_origin + 1) * (g1 - g2))) large_fk

/-- One column of the second loop of `extrap_bilinear`, src/utils.c:107-118. -/
noncomputable def extrap_column (N_origin N_extra : ℕ) (j : ℕ) (large_fk : Buf (ℤ × ℤ) ℝ) :
    CRes (Buf (ℤ × ℤ) ℝ) := do
  let f1 ← large_fk.load ((N_extra : ℤ) + 1, j)
  let f0 ← large_fk.load (N_extra, j)
  let g1 ← large_fk.load ((N_extra : ℤ) + N_origin - 1, j)
  let g2 ← large_fk.load ((N_extra : ℤ) + N_origin - 2, j)
  let large_fk ← cfor (upTo 0 N_extra) (fun i large_fk =>
    large_fk.store (i, j) (f0 + ((i : ℝ) - N_extra) * (f1 - f0))) large_fk
  cfor (upTo (N_extra + N_origin) (2 * N_extra + N_origin)) (fun i large_fk =>
    large_fk.store (i, j) (g1 + ((i : ℝ) - N_extra - N_origin + 1) * (g1 - g2))) large_fk

/-- `extrap_bilinear`, src/utils.c:88-119.  The values `large_fk[N_extra][j]` and
`large_fk[N_extra+N_origin-1][j]` are read once per column; C re-reads them in each iteration, but the loops do
not write them. -/
noncomputable def extrap_bilinear (fk : Buf (ℤ × ℤ) ℝ) (N_origin N_extra : ℕ) (large_fk : Buf (ℤ × ℤ) ℝ) :
    CRes (Buf (ℤ × ℤ) ℝ) := do
  let large_fk ← cfor (upTo N_extra (N_origin + N_extra)) (extrap_row fk N_origin N_extra) large_fk
  cfor (upTo 0 (N_origin + 2 * N_extra)) (extrap_column N_origin N_extra) large_fk

/-- A padded value of `extrap_log_bilinear`, src/utils.c:61-62, 68-69: `exp(log(v) + k * log(a / b))`, replaced by zero if it is
a NaN, for the edge sample `v`, its neighbour `w` and `a / b = w / v`, `k < 0` or `a / b = v / w`, `k > 0`.  An edge sample that
is not positive or a negative neighbour gives a NaN or `exp(-∞)`; a zero neighbour of a positive edge sample gives infinity,
which is stored (here `.error .nan`). -/
noncomputable def log_pad (v w a b k : ℝ) : CRes ℝ :=
  if v ≤ 0 then .ok 0 else if w < 0 then .ok 0 else if w = 0 then .error .nan
  else .ok (Real.exp (Real.log v + k * Real.log (a / b)))

/-- One row of the first loop of `extrap_log_bilinear`, src/utils.c:57-71. -/
noncomputable def extrap_log_row (fk : Buf (ℤ × ℤ) ℝ) (N_origin N_extra : ℕ) (i : ℕ)
    (large_fk : Buf (ℤ × ℤ) ℝ) : CRes (Buf (ℤ × ℤ) ℝ) := do
  let f1 ← fk.load ((i : ℤ) - N_extra, 1)
  let f0 ← fk.load ((i : ℤ) - N_extra, 0)
  let g1 ← fk.load ((i : ℤ) - N_extra, (N_origin : ℤ) - 1)
  let g2 ← fk.load ((i : ℤ) - N_extra, (N_origin : ℤ) - 2)
  let large_fk ← cfor (upTo 0 N_extra) (fun j large_fk => do
    let v ← log_pad f0 f1 f1 f0 ((j : ℝ) - N_extra)
    large_fk.store (i, j) v) large_fk
  let large_fk ← cfor (upTo N_extra (N_extra + N_origin)) (fun j large_fk => do
    let v ← fk.load ((i : ℤ) - N_extra, (j : ℤ) - N_extra)
    large_fk.store (i, j) v) large_fk
  cfor (upTo (N_extra + N_origin) (2 * N_extra + N_origin)) (fun j large_fk => do
    let v ← log_pad g1 g2 g1 g2 ((j : ℝ) - N_extra - N_origin + 1)
    large_fk.store (i, j) v) large_fk

/-- One column of the second loop of `extrap_log_bilinear`, src/utils.c:73-85. -/
noncomputable def extrap_log_column (N_origin N_extra : ℕ) (j : ℕ) (large_fk : Buf (ℤ × ℤ) ℝ) :
    CRes (Buf (ℤ × ℤ) ℝ) := do
  let f1 ← large_fk.load ((N_extra : ℤ) + 1, j)
  let f0 ← large_fk.load (N_extra, j)
  let g1 ← large_fk.load ((N_extra : ℤ) + N_origin - 1, j)
  let g2 ← large_fk.load ((N_extra : ℤ) + N_origin - 2, j)
  let large_fk ← cfor (upTo 0 N_extra) (fun i large_fk => do
    let v ← log_pad f0 f1 f1 f0 ((i : ℝ) - N_extra)
    large_fk.store (i, j) v) large_fk
  cfor (upTo (N_extra + N_origin) (2 * N_extra + N_origin)) (fun i large_fk => do
    let v ← log_pad g1 g2 g1 g2 ((i : ℝ) - N_extra - N_origin + 1)
    large_fk.store (i, j) v) large_fk

/-- `extrap_log_bilinear`, src/utils.c:54-86.  The edge values are read once per row and column; C re-reads them in each
iteration, but the loops do not write them. -/
noncomputable def extrap_log_bilinear (fk : Buf (ℤ × ℤ) ℝ) (N_origin N_extra : ℕ) (large_fk : Buf (ℤ × ℤ) ℝ) :
    CRes (Buf (ℤ × ℤ) ℝ) := do
  let large_fk ← cfor (upTo N_extra (N_origin + N_extra)) (extrap_log_row fk N_origin N_extra) large_fk
  cfor (upTo 0 (N_origin + 2 * N_extra)) (extrap_log_column N_origin N_extra) large_fk

/-- `extrap_2dzeros`, src/utils.c:121-145. -/
noncomputable def extrap_2dzeros (fk : Buf (ℤ × ℤ) ℝ) (N_origin N_extra : ℕ) (large_fk : Buf (ℤ × ℤ) ℝ) :
    CRes (Buf (ℤ × ℤ) ℝ) := do
  let large_fk ← cfor (upTo N_extra (N_origin + N_extra)) (fun i large_fk => do
    let large_fk ← cfor (upTo 0 N_extra) (fun j large_fk => large_fk.store (i, j) 0) large_fk
    let large_fk ← cfor (upTo N_extra (N_extra + N_origin)) (fun j large_fk => do
      let v ← fk.load ((i : ℤ) - N_extra, (j : ℤ) - N_extra)
      large_fk.store (i, j) v) large_fk
    cfor (upTo (N_extra + N_origin) (2 * N_extra + N_origin))
      (fun j large_fk => large_fk.store (i, j) 0) large_fk) large_fk
  cfor (upTo 0 (N_origin + 2 * N_extra)) (fun j large_fk => do
    let large_fk ← cfor (upTo 0 N_extra) (fun i large_fk => large_fk.store (i, j) 0) large_fk
    cfor (upTo (N_extra + N_origin) (2 * N_extra + N_origin))
      (fun i large_fk => large_fk.store (i, j) 0) large_fk) large_fk

end Coffe
