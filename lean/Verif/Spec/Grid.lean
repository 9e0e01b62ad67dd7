import Verif.Model.C.Mem
import Verif.Model.C.Grid

/-! # Specification vocabulary for the output arrays -/

namespace Coffe

/-- Position of the combination `(i, j, k)` in a table of `· × B × C` rows in lexicographic order. -/
def pos3 (B C i j k : ℕ) : ℕ := (i * B + j) * C + k

/-- A table with one row for each combination of an index below `A`, one below `B` and one below `C`, in
lexicographic order: row `pos3 i j k` has the coordinates `c i j k` and the value `v i j k`, and there are
no other rows. -/
def IsTable3 {κ : Type} (coords : Buf ℕ κ) (value : Buf ℕ ℝ) (A B C : ℕ) (c : ℕ → ℕ → ℕ → κ) (v : ℕ → ℕ → ℕ → ℝ) :
    Prop :=
  (∀ p, coords.dom p ↔ p < A * B * C) ∧ (∀ p, value.dom p ↔ p < A * B * C) ∧
  ∀ i < A, ∀ j < B, ∀ k < C,
    coords.val (pos3 B C i j k) = some (c i j k) ∧ value.val (pos3 B C i j k) = some (v i j k)

/-- `(i, j, k)` comes before `(i', j', k')`. -/
def Before3 (i j k i' j' k' : ℕ) : Prop := i < i' ∨ i = i' ∧ (j < j' ∨ j = j' ∧ k < k')

end Coffe
