import Verif.Model.C.Text
import Mathlib.Data.List.Basic

/-! # Specification: text tables -/

namespace Coffe

/-- The text made of the given lines. -/
def ofLines (ls : List Text) : Text := (ls.map fun l => l ++ ['\n']).flatten

/-- A line: no newline inside, at most 254 characters. -/
def IsLine (l : Text) : Prop := '\n' ∉ l ∧ l.length ≤ 254

/-- A line that starts with `#`. -/
def IsComment (l : Text) : Bool := l.head? = some '#'

/-- The lines that carry data. -/
def dataLines (ls : List Text) : List Text := ls.filter fun l => !IsComment l

/-- The fields of a line: the pieces between commas, tabs, colons and blanks that are not empty. -/
def fields (l : Text) : List Text := (l.splitOnP isDelim).filter fun t => !t.isEmpty

/-- A separator: at least one comma, tab, colon or blank and nothing else. -/
def IsSep (sep : Text) : Prop := sep ≠ [] ∧ ∀ c ∈ sep, isDelim c = true

/-- A row of a table: every value, in order, followed by the separator. -/
def rowText (show_ : ℝ → Text) (sep : Text) (vals : List ℝ) : Text := vals.flatMap fun v => show_ v ++ sep

end Coffe
