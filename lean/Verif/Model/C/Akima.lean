import Verif.Model.Python.State

/-!
# The spline behind the bias functions

`coffe_init_spline` and `coffe_interp_spline` (src/common.c:524-576 and 704-710) hand the samples to GSL.
The default method (`COFFE_INTERP_AKIMA`, src/parser.c:807), which Python cannot change, is GSL's
non-periodic Akima spline; its formulas (akima.c) are transcribed here.  Numbers
are exact.
-/

namespace Coffe.Akima

/-- Slope of the segment `i`. -/
noncomputable def seg (x y : ℕ → ℝ) (i : ℕ) : ℝ := (y (i + 1) - y i) / (x (i + 1) - x i)

/-- The array `m` of GSL shifted by two: `m[-2], m[-1], m[0], .., m[n-2], m[n-1], m[n]`. -/
noncomputable def slope (x y : ℕ → ℝ) (n : ℕ) : ℕ → ℝ
  | 0 => 3 * seg x y 0 - 2 * seg x y 1
  | 1 => 2 * seg x y 0 - seg x y 1
  | j + 2 =>
    if j < n - 1 then seg x y j
    else if j = n - 1 then 2 * seg x y (n - 2) - seg x y (n - 3)
    else 3 * seg x y (n - 2) - 2 * seg x y (n - 3)

/-- `NE` in GSL for the segment `i`. -/
noncomputable def weight (m : ℕ → ℝ) (i : ℕ) : ℝ := |m (i + 3) - m (i + 2)| + |m (i + 1) - m i|

/-- Derivative at the left end of the segment `i` when `weight m i ≠ 0`. -/
noncomputable def left (m : ℕ → ℝ) (i : ℕ) : ℝ :=
  (1 - |m (i + 1) - m i| / weight m i) * m (i + 1) + |m (i + 1) - m i| / weight m i * m (i + 2)

open Classical in
/-- `tL_ip1`: derivative at the right end of the segment `i`. -/
noncomputable def right (m : ℕ → ℝ) (i : ℕ) : ℝ :=
  if weight m (i + 1) = 0 then m (i + 2) else left m (i + 1)

open Classical in
/-- The cubic of the segment `i` at `d` from its left end. -/
noncomputable def cubic (x y : ℕ → ℝ) (m : ℕ → ℝ) (i : ℕ) (d : ℝ) : ℝ :=
  let h := x (i + 1) - x i
  let b := if weight m i = 0 then m (i + 2) else left m i
  let c := if weight m i = 0 then 0 else (3 * m (i + 2) - 2 * left m i - right m i) / h
  let e := if weight m i = 0 then 0 else (left m i + right m i - 2 * m (i + 2)) / (h * h)
  y i + d * (b + d * (c + e * d))

open Classical in
/-- The segment used for `z`: the last one starting at or before `z`. -/
noncomputable def segment (x : ℕ → ℝ) (n : ℕ) (z : ℝ) : ℕ := Nat.findGreatest (fun i => x i ≤ z) (n - 2)

/-- The spline through the points `(x 0, y 0), .., (x (n-1), y (n-1))`. -/
noncomputable def eval (x y : ℕ → ℝ) (n : ℕ) (z : ℝ) : ℝ :=
  cubic x y (slope x y n) (segment x n z) (z - x (segment x n z))

end Coffe.Akima

namespace Coffe

/-- The spline through a list of samples. -/
noncomputable def akimaSpline (l : Samples) (z : ℝ) : ℝ :=
  Akima.eval (fun i => (l.getD i (0, 0)).1) (fun i => (l.getD i (0, 0)).2) l.length z

end Coffe
