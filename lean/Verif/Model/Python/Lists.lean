import Verif.Model.Python.Setters
import Verif.Model.C.Heap

/-!
# The memory behind the list parameters

The list parameters of a `Coffe` object are C arrays of the structure `coffe_parameters_t`: a pointer and a length
each.  Here the memory has contents: a block is a list of cells, and a cell that nothing was stored in has no value.
The allocator is arbitrary: it may hand out any address that is not in use, also one that was released before.
Requests for memory are assumed to succeed; for a request of no bytes the answer may also be `NULL`.
-/

namespace Coffe.Lists
open Classical Mem

/-- What one element of an array holds (`double` or `int`). -/
inductive Cell where
  | double (x : ℝ)
  | int (n : ℤ)

/-- Ways in which an access to the memory is undefined. -/
inductive Fault where
  /-- a block is released that is not in use -/
  | doubleFree
  /-- a block is used that is not in use -/
  | dangling
  /-- an indeterminate pointer is used or released -/
  | badPointer
  /-- `NULL` is dereferenced -/
  | null
  /-- an array is used beyond its end -/
  | oob
  /-- a cell is read that nothing was stored in -/
  | uninit
deriving DecidableEq, Repr

/-- The memory: the blocks in use with their contents.  All blocks are below some address.  `requests` counts the
calls of `malloc`, so that an allocator may answer differently each time. -/
structure Memory where
  requests : ℕ
  block : ℕ → Option (List (Option Cell))
  bound : ℕ
  finite : ∀ a, bound ≤ a → block a = none

/-- Replace, add or remove (`none`) a block. -/
noncomputable def Memory.set (m : Memory) (a : ℕ) (b : Option (List (Option Cell))) : Memory where
  requests := m.requests
  block := Function.update m.block a b
  bound := max m.bound (a + 1)
  finite := fun c hc => by
    rw [Function.update_of_ne (by have := le_max_right m.bound (a + 1); omega)]
    exact m.finite c (le_trans (le_max_left _ _) hc)

/-- An allocator: it hands out addresses that are not in use. -/
structure Allocator where
  pick : Memory → ℕ → Ptr
  unused : ∀ m n, n ≠ 0 → ∃ a, pick m n = .addr a ∧ m.block a = none
  empty : ∀ m, pick m 0 = .null ∨ ∃ a, pick m 0 = .addr a ∧ m.block a = none

/-- Programs over the memory. -/
abbrev LM := StateT Memory (Except Fault)

/-- `malloc` for `n` elements: a block of cells without values. -/
noncomputable def malloc (A : Allocator) (n : ℕ) : LM Ptr := fun m =>
  let m' : Memory := ⟨m.requests + 1, m.block, m.bound, m.finite⟩
  match A.pick m n with
  | .addr a => .ok (.addr a, m'.set a (some (List.replicate n none)))
  | p => .ok (p, m')

/-- `free`. -/
noncomputable def free : Ptr → LM Unit
  | .null => pure ()
  | .garbage => throw .badPointer
  | .addr a => fun m =>
    match m.block a with
    | none => .error .doubleFree
    | some _ => .ok ((), m.set a none)

/-- `p[k] = x` -/
noncomputable def store (p : Ptr) (k : ℕ) (x : Cell) : LM Unit :=
  match p with
  | .null => throw .null
  | .garbage => throw .badPointer
  | .addr a => fun m =>
    match m.block a with
    | none => .error .dangling
    | some b => if k < b.length then .ok ((), m.set a (some (b.set k (some x)))) else .error .oob

/-- `p[k]` -/
def load (p : Ptr) (k : ℕ) : LM Cell :=
  match p with
  | .null => throw .null
  | .garbage => throw .badPointer
  | .addr a => fun m =>
    match m.block a with
    | none => .error .dangling
    | some b =>
      match b[k]? with
      | none => .error .oob
      | some none => .error .uninit
      | some (some x) => .ok (x, m)

/-- `for i in range(len): p[i] = temp[i]`, from element `k` on. -/
noncomputable def fill (p : Ptr) : List Cell → ℕ → LM Unit
  | [], _ => pure ()
  | x :: xs, k => do
    store p k x
    fill p xs (k + 1)

/-- `[p[i] for i in range(len)]`: the `n` elements from `k` on. -/
def loads (p : Ptr) : ℕ → ℕ → LM (List Cell)
  | 0, _ => pure []
  | n + 1, k => do
    let x ← load p k
    let xs ← loads p n (k + 1)
    pure (x :: xs)

/-- The getters, coffe.pyx:1557-1559, 1597-1599, 1939-1941, 1980-1982, 2017-2019, 2055-2057, 2093-2095, 2129-2131,
2335-2337, 2371-2373, 2407-2409. -/
def read (a : Arr) : LM (List Cell) := loads a.array a.size 0

/-- `len = len(temp)`, `p = malloc(..)` and the loop, e.g. coffe.pyx:1580-1583. -/
noncomputable def put (A : Allocator) (i : ParList) (temp : List Cell) (f : ParList → Arr) : LM (ParList → Arr) := do
  let p ← malloc A temp.length
  fill p temp 0
  pure (Function.update f i ⟨p, temp.length⟩)

/-- The part of the list setters that stores the list, coffe.pyx:1577-1583 (`sep`), 1618-1624 (`mu`), 1960-1966 (`l`),
2000-2006 (`z_mean`), 2036-2042 (`z_min`), 2074-2080 (`z_max`), 2112-2118, 2148-2154 (number densities), 2354-2360
(`pixelsize`), 2390-2396 (`fsky`), 2426-2432 (`deltaz`): the old array is released if its length is not zero. -/
noncomputable def assign (A : Allocator) (i : ParList) (temp : List Cell) (f : ParList → Arr) :
    LM (ParList → Arr) := do
  (if (f i).size ≠ 0 then free (f i).array else pure ())
  put A i temp f

/-- `coffe_parse_default_parameters`, the lists in order: src/parser.c:803-804, 928-939, 979-981, 995-1017.  Nothing is
released: the structure is new. -/
noncomputable def defaultContents : List (ParList × List Cell) :=
  [(.sep, PyPar.default.sep.map .double), (.density1, [.double 1e-3]), (.density2, [.double 1e-3]),
    (.fsky, [.double 1]), (.pixelsize, [.double 10]), (.mu, [.double 0.5]), (.z_mean, [.double 1]),
    (.deltaz, [.double 0.2]), (.zmin, [.double 0.9]), (.zmax, [.double 1.1]),
    (.multipole_values, [.int 0, .int 2, .int 4])]

/-- Store the listed lists one after the other. -/
noncomputable def puts (A : Allocator) : List (ParList × List Cell) → (ParList → Arr) → LM (ParList → Arr)
  | [], f => pure f
  | (i, l) :: rest, f => do
    let f ← put A i l f
    puts A rest f

/-- The C array behind a property (coffe.pyx:1549-2435). -/
def parList : Name → Option ParList
  | .sep => some .sep
  | .mu => some .mu
  | .l => some .multipole_values
  | .z_mean => some .z_mean
  | .z_min => some .zmin
  | .z_max => some .zmax
  | .number_density1 => some .density1
  | .number_density2 => some .density2
  | .pixelsize => some .pixelsize
  | .fsky => some .fsky
  | .deltaz => some .deltaz
  | _ => none

/-- `temp` of the setters after its checks, coffe.pyx:1563-1575 and the other list properties. -/
noncomputable def temp (v : PyVal) : ParList → Py (List Cell)
  | .sep => do let x ← checkFloats v (fun x => 0 < x ∧ x < 10000); pure (x.map .double)
  | .mu => do let x ← checkFloats v (fun x => -1 < x ∧ x < 1); pure (x.map .double)
  | .multipole_values => do let x ← checkMultipoles v; pure (x.map fun n : ℕ => .int n)
  | .pixelsize => do let x ← checkFloats v (fun x => 0 < x ∧ x < 1000); pure (x.map .double)
  | .fsky => do let x ← checkFloats v (fun x => 0 < x ∧ x ≤ 1); pure (x.map .double)
  | _ => do let x ← checkFloats v (fun x => 0 ≤ x ∧ x < 10); pure (x.map .double)

/-- A list setter: an exception leaves the arrays alone. -/
noncomputable def setter (A : Allocator) (i : ParList) (v : PyVal) (s : PyObj) (f : ParList → Arr) :
    LM (Except Err Unit × (ParList → Arr)) :=
  match (temp v i s).1 with
  | .error e => pure (.error e, f)
  | .ok x => do
    let f ← assign A i x f
    pure (.ok (), f)

end Coffe.Lists
