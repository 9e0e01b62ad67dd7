import Verif.Model.Python.File

/-!
# Reading the bias functions from Python
-/

namespace Coffe
open Classical

/-- `galaxy_bias1` .. `evolution_bias2`, coffe.pyx:1716-1725 and its siblings, through `evaluate_spline`
(coffe.pyx:142-155): a redshift outside the samples is refused.  An object always has its eight biases
(`_setup`, coffe.pyx:285-305, sets the defaults). -/
noncomputable def biasAt (N : Num) (n : BiasName) (z : ℝ) : Py ℝ :=
  fun s => match (s.par.bias.get n).head?, (s.par.bias.get n).getLast? with
    | some a, some b =>
      if z < a.1 then (.error .valueError, s)
      else if z > b.1 then (.error .valueError, s)
      else (.ok (N.akima (s.par.bias.get n) z), s)
    | _, _ => (.error .crash, s)

end Coffe
