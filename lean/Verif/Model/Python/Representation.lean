import Mathlib.Data.Real.Basic
import Mathlib.Data.List.Sort

/-!
# The result classes of the Python package

python/coffe/representation.py.  Names are lists of characters.
-/

namespace Coffe

/-- The name of an attribute. -/
abbrev RAttr := List Char

/-- What the interpreter raises. -/
inductive ReprError
  | typeError
  | attributeError
  deriving DecidableEq

/-- What `getattr(cls, key)` gives for a name in `dir(cls)`. -/
inductive ClassAttr
  /-- `@property` that returns `self.<stored>`; it has `__set__`, which raises -/
  | property (stored : RAttr)
  /-- a descriptor of the interpreter that has `__set__`, such as `__weakref__` -/
  | slot
  /-- anything without `__set__`: functions and data -/
  | plain

/-- `hasattr(getattr(cls, key), "__set__")`. -/
def ClassAttr.hasSet : ClassAttr → Bool
  | .property _ => true
  | .slot => true
  | .plain => false

/-- A subclass of `Representation`: the keyword-only parameters of its constructor, and its own properties. -/
structure ReprClass where
  params : List RAttr
  properties : List (RAttr × RAttr)

/-- An instance: the dictionary of its attributes. -/
structure ReprObj (α : Type) where
  fields : List (RAttr × α)

/-- The attribute of the instance that a parameter is stored in, representation.py:58-63 and the like. -/
def stored (p : RAttr) : RAttr := '_' :: p

/-- `Covariance`, representation.py:47-87. -/
def covarianceClass : ReprClass where
  params := ["r1".toList, "r2".toList, "l1".toList, "l2".toList, "z".toList, "value".toList]
  properties := [("r1".toList, "_r1".toList), ("r2".toList, "_r2".toList), ("l1".toList, "_l1".toList),
    ("l2".toList, "_l2".toList), ("z".toList, "_z".toList), ("value".toList, "_value".toList)]

/-- `AverageCovariance`, representation.py:90-136. -/
def averageCovarianceClass : ReprClass where
  params := ["r1".toList, "r2".toList, "l1".toList, "l2".toList, "z_min".toList, "z_max".toList, "value".toList]
  properties := [("r1".toList, "_r1".toList), ("r2".toList, "_r2".toList), ("l1".toList, "_l1".toList),
    ("l2".toList, "_l2".toList), ("z_min".toList, "_z_min".toList), ("z_max".toList, "_z_max".toList),
    ("value".toList, "_value".toList)]

/-- `Corrfunc`, representation.py:139-167. -/
def corrfuncClass : ReprClass where
  params := ["r".toList, "mu".toList, "z".toList, "value".toList]
  properties := [("mu".toList, "_mu".toList), ("r".toList, "_r".toList), ("z".toList, "_z".toList), ("value".toList, "_value".toList)]

/-- `Multipoles`, representation.py:170-198. -/
def multipolesClass : ReprClass where
  params := ["l".toList, "r".toList, "z".toList, "value".toList]
  properties := [("l".toList, "_l".toList), ("r".toList, "_r".toList), ("z".toList, "_z".toList), ("value".toList, "_value".toList)]

/-- `AverageMultipoles`, representation.py:201-235. -/
def averageMultipolesClass : ReprClass where
  params := ["l".toList, "r".toList, "z_min".toList, "z_max".toList, "value".toList]
  properties := [("l".toList, "_l".toList), ("r".toList, "_r".toList), ("z_min".toList, "_z_min".toList),
    ("z_max".toList, "_z_max".toList), ("value".toList, "_value".toList)]

/-- A loop that stops at the first exception. -/
def mapAll {ε α β : Type} (f : α → Except ε β) : List α → Except ε (List β)
  | [] => .ok []
  | a :: l => match f a with
    | .error e => .error e
    | .ok b => match mapAll f l with
      | .error e => .error e
      | .ok bs => .ok (b :: bs)

/-- `self._p = p`, with `p` from the keyword arguments. -/
def keep {α : Type} (args : List (RAttr × α)) (p : RAttr) : Except ReprError (RAttr × α) :=
  match args.lookup p with
  | some v => .ok (stored p, v)
  | none => .error .typeError

/-- The constructor with keyword arguments: every parameter once, nothing else. -/
def ReprClass.construct {α : Type} (c : ReprClass) (args : List (RAttr × α)) : Except ReprError (ReprObj α) :=
  if ∃ a ∈ args, a.1 ∉ c.params then .error .typeError
  else if ¬ (args.map Prod.fst).Nodup then .error .typeError
  else match mapAll (keep args) c.params with
    | .ok f => .ok ⟨f⟩
    | .error e => .error e

/-- The attributes of the class: its properties, the three methods of `Representation` and `_abc_impl`, and whatever the
interpreter adds, python/coffe/representation.py:4-45. -/
def ReprClass.attrs (c : ReprClass) (extra : List (RAttr × ClassAttr)) : List (RAttr × ClassAttr) :=
  c.properties.map (fun x => (x.1, .property x.2)) ++
    [("to_dict".toList, .plain), ("_repr_html_".toList, .plain), ("_abc_impl".toList, .plain)] ++ extra

/-- `getattr(obj, key)`: a property of the class comes first, then the dictionary of the instance.  The value of the class
itself (a method) is not a number and is left out. -/
def ReprClass.getattr {α : Type} (c : ReprClass) (o : ReprObj α) (key : RAttr) : Except ReprError α :=
  match c.properties.lookup key with
  | some s => match o.fields.lookup s with
    | some v => .ok v
    | none => .error .attributeError
  | none => match o.fields.lookup key with
    | some v => .ok v
    | none => .error .attributeError

/-- `obj.key = value`: a property without a setter raises, otherwise the dictionary of the instance is changed.  Names that
begin with two underscores are left out. -/
def ReprClass.setattr {α : Type} (c : ReprClass) (o : ReprObj α) (key : RAttr) (v : α) : Except ReprError (ReprObj α) :=
  match c.properties.lookup key with
  | some _ => .error .attributeError
  | none => .ok ⟨(key, v) :: o.fields⟩

/-- `key.startswith("__")`. -/
def dunder : RAttr → Bool
  | '_' :: '_' :: _ => true
  | _ => false

/-- `dir(cls)`: the names in the order of their characters, each once. -/
def dirOf (l : List (RAttr × ClassAttr)) : List (RAttr × ClassAttr) := l.insertionSort fun a b => a.1 ≤ b.1

/-- `Representation.to_dict`, representation.py:9-18. -/
def ReprClass.toDict {α : Type} (c : ReprClass) (extra : List (RAttr × ClassAttr)) (o : ReprObj α) :
    Except ReprError (List (RAttr × α)) :=
  mapAll (fun x => match c.getattr o x.1 with
    | .ok v => .ok (x.1, v)
    | .error e => .error e) ((dirOf (c.attrs extra)).filter fun x => x.2.hasSet && !dunder x.1)

end Coffe
