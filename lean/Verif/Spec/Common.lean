import Verif.Model.C.Mem

/-! # Specification vocabulary for the C helpers -/

namespace Coffe

/-- The first `n` cells of the array are the values `f 0, …, f (n-1)`. -/
def Buf.Holds {α : Type} (b : Buf ℕ α) (n : ℕ) (f : ℕ → α) : Prop :=
  ∀ i < n, b.dom i ∧ b.val i = some (f i)

/-- The two arrays own the same cells and agree from index `n` on. -/
def Buf.SameFrom {α : Type} (b c : Buf ℕ α) (n : ℕ) : Prop :=
  b.dom = c.dom ∧ ∀ i, n ≤ i → b.val i = c.val i

/-- `b` is an array of exactly `n` cells holding `f 0, …, f (n-1)`. -/
def Buf.IsArray {α : Type} (b : Buf ℕ α) (n : ℕ) (f : ℕ → α) : Prop :=
  (∀ i, b.dom i ↔ i < n) ∧ b.Holds n f

end Coffe
