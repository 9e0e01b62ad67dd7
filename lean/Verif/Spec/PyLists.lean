import Verif.Model.Python.Lists

/-!
# The lists of an object and the arrays behind them

What a history of an object looks like on both levels: the Python values and the memory.
-/

namespace Coffe.Lists
open Mem

/-- A list, element by element. -/
def cells : PyVal → List Cell
  | .floats l => l.map .double
  | .ints l => l.map .int
  | _ => []

/-- The states an object can be in, with the memory `m` and the pointers and lengths `f` behind its lists. -/
inductive Reach (A : Allocator) : PyObj → Memory → (ParList → Arr) → Prop
  /-- a new object: the defaults, in any memory and with any pointers left in the structure -/
  | start (m : Memory) (f₀ : ParList → Arr) (m' : Memory) (f : ParList → Arr)
      (h : puts A defaultContents f₀ m = .ok (f, m')) : Reach A (fresh PyPar.default) m' f
  /-- an assignment to a list parameter, accepted or not -/
  | assign (s : PyObj) (m : Memory) (f : ParList → Arr) (h : Reach A s m f) (n : Name) (i : ParList)
      (hn : parList n = some i) (v : PyVal) (r : Except Err Unit) (f' : ParList → Arr) (m' : Memory)
      (hs : setter A i v s f m = .ok ((r, f'), m')) : Reach A (setattr n v s).2 m' f'
  /-- anything else: it may use the memory as it likes, except the blocks of the lists -/
  | other (s : PyObj) (m : Memory) (f : ParList → Arr) (h : Reach A s m f) (s' : PyObj) (m' : Memory)
      (hs : ∀ n i, parList n = some i → getattr s'.par n = getattr s.par n)
      (hm : ∀ i a, (f i).size ≠ 0 → (f i).array = .addr a → m'.block a = m.block a) : Reach A s' m' f

/-- The object and its memory agree: every list is read from the memory as it is seen from Python, and every
assignment of a list, accepted or not, runs to its end and raises what it should. -/
def Faithful (A : Allocator) (s : PyObj) (m : Memory) (f : ParList → Arr) : Prop :=
  ∀ n i, parList n = some i →
    read (f i) m = .ok (cells (getattr s.par n), m) ∧
    ∀ v, ∃ f' m', setter A i v s f m = .ok (((setattr n v s).1, f'), m')

end Coffe.Lists
