import Verif.Model.Python.Setters

/-! # Specification of updating several parameters at once -/

namespace Coffe

/-- `Assigned s kvs t`: assigning the entries of `kvs` one after the other to `s` succeeds each time and
ends in `t`. -/
inductive Assigned : PyObj → List (Attr × PyVal) → PyObj → Prop
  | nil (s : PyObj) : Assigned s [] s
  | cons {s t u : PyObj} {n : Name} {v : PyVal} {kvs : List (Attr × PyVal)} :
      setattr n v s = (.ok (), t) → Assigned t kvs u → Assigned s ((.settable n, v) :: kvs) u

end Coffe
