import Verif.Spec.Python
import Verif.Model.Python.Compute

/-! # Specification for C20 on the Python object -/

namespace Coffe
open Classical

/-- The call evaluates a signal of kind `out` and multipole `l` on an object with parameters `p`. -/
inductive Evaluates (p : PyPar) : Op → OutputType → ℕ → Prop
  | corrfuncBulk (re : Bool) : Evaluates p (.computeBulk .corrfunc re) .CORRFUNC 0
  | multipolesBulk (re : Bool) (l : ℕ) (h : l ∈ p.l) : Evaluates p (.computeBulk .multipoles re) .MULTIPOLES l
  | averageBulk (re : Bool) (l : ℕ) (h : l ∈ p.l) :
      Evaluates p (.computeBulk .average re) .AVERAGE_MULTIPOLES l
  | corrfunc (z r mu : ℝ) (re : Bool) : Evaluates p (.computeCorrfunc z r mu re) .CORRFUNC 0
  | multipole (z r : ℝ) (l : ℤ) (re : Bool) : Evaluates p (.computeMultipole z r l re) .MULTIPOLES l.toNat

/-- The call asks the object to recompute everything. -/
def Op.Recomputes : Op → Prop
  | .computeBulk _ re => re = true
  | .computeCorrfunc _ _ _ re => re = true
  | .computeMultipole _ _ _ re => re = true
  | _ => False

/-- Every integral and every one of its splines that the signal reads is in the object's table. -/
def PyObj.AllFound (N : Num) (s : PyObj) (out : OutputType) (l : ℕ) : Prop :=
  ∀ u, SignalLooks (s.par.toPar N) out l u → LookOk s.ints u

end Coffe
