import Verif.Model.C.Mem
import Mathlib.Analysis.SpecialFunctions.Pow.Real

/-! # The helpers of src/common.c -/

namespace Coffe
open Classical

/-- `coffe_max_array_double`, src/common.c:49-63; `none` is the NaN returned for an empty array. -/
noncomputable def coffe_max_array_double (a : Buf ℕ ℝ) (size : ℕ) : CRes (Option ℝ) :=
  if size > 0 then
    match a.load 0 with
    | .error e => .error e
    | .ok x => (cfor (upTo 1 size) (fun i current =>
        match a.load i with
        | .error e => .error e
        | .ok v => .ok (if current < v then v else current)) x).map some
  else .ok none

/-- `coffe_rescale_array`, src/common.c:920-937; `none` is the null pointer. -/
noncomputable def coffe_rescale_array (a : Option (Buf ℕ ℝ)) (size : ℕ) (factor : ℝ) : CRes (Buf ℕ ℝ) :=
  match a with
  | none => .error .exit
  | some a => cfor (upTo 0 size) (fun i a =>
      match a.load i with
      | .error e => .error e
      | .ok v => a.store i (v * factor)) a

/-- `coffe_multiply_array`, src/common.c:944-966, for an output array that is neither of the inputs. -/
noncomputable def coffe_multiply_array (out a1 a2 : Option (Buf ℕ ℝ)) (size : ℕ) : CRes (Buf ℕ ℝ) :=
  match out, a1, a2 with
  | some out, some a1, some a2 => cfor (upTo 0 size) (fun i out =>
      match a1.load i, a2.load i with
      | .ok v, .ok w => out.store i (v * w)
      | .error e, _ => .error e
      | _, .error e => .error e) out
  | _, _, _ => .error .exit

/-- `coffe_multiply_array` with `array_out == array1`. -/
noncomputable def coffe_multiply_array_self (out a2 : Option (Buf ℕ ℝ)) (size : ℕ) : CRes (Buf ℕ ℝ) :=
  match out, a2 with
  | some out, some a2 => cfor (upTo 0 size) (fun i out =>
      match out.load i, a2.load i with
      | .ok v, .ok w => out.store i (v * w)
      | .error e, _ => .error e
      | _, .error e => .error e) out
  | _, _ => .error .exit

/-- C's `pow(x, y)` for real numbers: a NaN for a negative base with a fractional exponent, an infinity for
`0` raised to a negative power. -/
noncomputable def cpow (x y : ℝ) : CRes ℝ :=
  if 0 < x then .ok (x ^ y)
  else if x = 0 then (if y < 0 then .error .nan else .ok (x ^ y))
  else if ∃ n : ℤ, y = n then .ok (x ^ ⌊y⌋) else .error .nan

/-- `coffe_multiply_power_array`, src/common.c:973-996. -/
noncomputable def coffe_multiply_power_array (out a1 a2 : Option (Buf ℕ ℝ)) (size : ℕ) (power : ℝ) :
    CRes (Buf ℕ ℝ) :=
  match out, a1, a2 with
  | some out, some a1, some a2 => cfor (upTo 0 size) (fun i out =>
      match a1.load i, a2.load i with
      | .ok v, .ok w => match cpow w power with
        | .ok q => out.store i (v * q)
        | .error e => .error e
      | .error e, _ => .error e
      | _, .error e => .error e) out
  | _, _, _ => .error .exit

/-- `coffe_multiply_power_array` with `array_out == array1`, as called at src/integrals.c:516-522. -/
noncomputable def coffe_multiply_power_array_self (out a2 : Option (Buf ℕ ℝ)) (size : ℕ) (power : ℝ) :
    CRes (Buf ℕ ℝ) :=
  match out, a2 with
  | some out, some a2 => cfor (upTo 0 size) (fun i out =>
      match out.load i, a2.load i with
      | .ok v, .ok w => match cpow w power with
        | .ok q => out.store i (v * q)
        | .error e => .error e
      | .error e, _ => .error e
      | _, .error e => .error e) out
  | _, _ => .error .exit

/-- The argument `type` of `copy_matrix_array`: `"row"`, `"column"` or anything else. -/
inductive CopyType where
  | row
  | column
  | other
deriving DecidableEq, Repr

/-- `copy_matrix_array`, src/common.c:492-521.  The result is the new value of `*destination`, `none` if it is
left alone. -/
noncomputable def copy_matrix_array (source : Buf (ℕ × ℕ) ℝ) (rows columns index : ℕ) :
    CopyType → CRes (Option (Buf ℕ ℝ))
  | .row =>
    if index ≥ rows then .error .exit
    else (cfor (upTo 0 columns) (fun i out =>
      match source.load (index, i) with
      | .ok v => out.store i v
      | .error e => .error e) (cmalloc columns)).map some
  | .column =>
    if index ≥ columns then .error .exit
    else (cfor (upTo 0 rows) (fun i out =>
      match source.load (i, index) with
      | .ok v => out.store i v
      | .error e => .error e) (cmalloc rows)).map some
  | .other => .ok none

/-- `coffe_generate_range`, src/common.c:1181-1203. -/
noncomputable def coffe_generate_range (xmin xmax : ℝ) (steps : ℕ) : CRes (Buf ℕ ℝ) :=
  if xmin ≥ xmax then .error .exit
  else cfor (upTo 0 steps) (fun i result => result.store i (xmin + (xmax - xmin) * i / steps))
    (cmalloc steps)

/-- `coffe_approx_equal`, src/common.c:1206-1219. -/
noncomputable def coffe_approx_equal (a b rel_epsilon abs_epsilon : ℝ) : Bool :=
  if a ≠ 0 ∧ b ≠ 0 then |a - b| / |a| < rel_epsilon
  else |a - b| < abs_epsilon

/-- Coordinates of a covariance entry, src/common.h. -/
structure CovCoords where
  z_mean : ℝ
  l1 : ℤ
  l2 : ℤ
  separation1 : ℝ
  separation2 : ℝ

/-- `coffe_covariance_find`, src/covariance.c:82-110: the first matching entry; the program ends if there is
none. -/
noncomputable def coffe_covariance_find (cov : List (CovCoords × ℝ)) (z_mean : ℝ) (l1 l2 : ℤ)
    (sep1 sep2 : ℝ) : CRes (CovCoords × ℝ) :=
  match cov.find? (fun e => e.1.l1 = l1 ∧ e.1.l2 = l2 ∧ coffe_approx_equal e.1.separation1 sep1 1e-3 0
      ∧ coffe_approx_equal e.1.separation2 sep2 1e-3 0 ∧ coffe_approx_equal e.1.z_mean z_mean 1e-3 0) with
  | some e => .ok e
  | none => .error .exit

end Coffe
