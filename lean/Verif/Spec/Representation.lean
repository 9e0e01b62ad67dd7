import Verif.Model.Python.Representation

/-!
# Specification of the result classes, for C81
-/

namespace Coffe

/-- A class whose properties are the parameters of its constructor. -/
structure ReprClass.Regular (c : ReprClass) : Prop where
  names : (c.properties.map Prod.fst).Perm c.params
  held : ∀ x ∈ c.properties, x.2 = '_' :: x.1
  once : c.params.Nodup
  public_ : ∀ p ∈ c.params, p.head? ≠ some '_'

/-- The object after a sequence of assignments `obj.key = value`; those that raise change nothing. -/
def assigned {α : Type} (c : ReprClass) (o : ReprObj α) : List (RAttr × α) → ReprObj α
  | [] => o
  | (key, v) :: l => match c.setattr o key v with
    | .ok o' => assigned c o' l
    | .error _ => assigned c o l

end Coffe
