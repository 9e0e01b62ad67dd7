import Mathlib.Data.Real.Basic

/-!
# C arrays, loops and failures

The C functions of the project that fill arrays are modelled as programs over buffers.  A buffer knows which
indices it owns (`dom`) and which of them have been written (`val`).  Reading or writing outside the buffer,
reading a cell that was never written, dereferencing a missing array and leaving the program are separate
outcomes.
-/

namespace Coffe
open Classical

/-- The ways a C function can fail. -/
inductive CErr where
  /-- access outside an array (undefined behaviour) -/
  | oob
  /-- read of an uninitialised cell (undefined behaviour) -/
  | uninit
  /-- `NULL` dereferenced (undefined behaviour) -/
  | null
  /-- a NaN or an infinity is produced -/
  | nan
  /-- `exit(EXIT_FAILURE)` -/
  | exit
  /-- `exit(0)`: the process ends and reports success -/
  | exit_success
deriving DecidableEq, Repr

/-- Result of a C function. -/
abbrev CRes := Except CErr

/-- An allocated array of `α` with indices in `ι`. -/
structure Buf (ι α : Type) where
  dom : ι → Prop
  val : ι → Option α

/-- A new, uninitialised buffer. -/
def Buf.new {ι α : Type} (dom : ι → Prop) : Buf ι α := ⟨dom, fun _ => none⟩

/-- A buffer holding known values. -/
noncomputable def Buf.of {ι α : Type} (dom : ι → Prop) (f : ι → α) : Buf ι α :=
  ⟨dom, fun i => if dom i then some (f i) else none⟩

/-- `coffe_malloc(n * sizeof(α))`, src/common.c:69-79.  A request of zero bytes prints a message and goes on
with an array without elements; the memory is assumed to be available. -/
def cmalloc {α : Type} (n : ℕ) : Buf ℕ α := Buf.new (· < n)

/-- Read `b[i]`. -/
noncomputable def Buf.load {ι α : Type} (b : Buf ι α) (i : ι) : CRes α :=
  if b.dom i then
    match b.val i with
    | some v => .ok v
    | none => .error .uninit
  else .error .oob

/-- Write `b[i] = v`. -/
noncomputable def Buf.store {ι α : Type} (b : Buf ι α) (i : ι) (v : α) : CRes (Buf ι α) :=
  if b.dom i then .ok ⟨b.dom, Function.update b.val i (some v)⟩ else .error .oob

/-- A `for` loop over the given indices with state `σ`. -/
def cfor {κ σ : Type} : List κ → (κ → σ → CRes σ) → σ → CRes σ
  | [], _, s => .ok s
  | i :: is, body, s => match body i s with
    | .ok s' => cfor is body s'
    | .error e => .error e

/-- `for (i = lo; i < hi; ++i)` -/
def upTo (lo hi : ℕ) : List ℕ := List.range' lo (hi - lo)

end Coffe
