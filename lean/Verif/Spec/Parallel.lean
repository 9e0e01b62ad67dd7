import Verif.Model.C.Parallel

/-! # Specification of parallel loops -/

namespace Coffe

/-- `t` is a possible sequence of memory accesses of a parallel loop over `0..n`: the iterations are distributed
over any number of threads, each iteration to one thread, and the threads are interleaved. -/
def Schedule (n : ℕ) (t : List Act) : Prop :=
  ∃ threads : List (List ℕ), threads.flatten.Perm (List.range n) ∧ Interleave (threads.map threadProgram) t

/-- Interval `i` of the knots contains `x` (the last interval is closed on the right). -/
def Brackets (xa : ℕ → ℝ) (len i : ℕ) (x : ℝ) : Prop :=
  i + 1 < len ∧ xa i ≤ x ∧ (x < xa (i + 1) ∨ i + 2 = len)

end Coffe
