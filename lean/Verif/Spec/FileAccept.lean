import Verif.Spec.FileOptions

/-! # Specification of the settings files that the Python object should load -/

namespace Coffe

/-- The text of an option is written the way its parameter is read: switches as integers, choices as integers or names. -/
def Name.Written (n : Name) (x : Txt) : Prop :=
  (n.doc = .flag → ∃ k, x = .int k) ∧
  (∀ first names, n.doc = .choice first names → (∃ k, x = .int k) ∨ ∃ s, x = .str s)

/-- The options of a file about a bias function can be used. -/
structure BiasOptions.Fine (b : BiasOptions) : Prop where
  switch : ∀ x, b.read = some x → ∃ k, x = .int k
  file : b.read = some (.int 1) → ∃ x y, b.input = some (x, y) ∧ x.length = y.length ∧ Samples.Usable (x.zip y)
  value : b.read ≠ some (.int 1) → b.input ≠ none → ∃ t x, b.value = some t ∧ t.Spells (.float x)
  lists : b.read ≠ some (.int 1) → b.input = none → ∀ s t, b.redshifts = some s → b.values = some t →
    ∃ x y, s.Spells (.floats x) ∧ t.Spells (.floats y) ∧ x.length = y.length ∧ Samples.Usable (x.zip y)

/-- A settings file that asks for the parameters `p`, and for nothing that is not documented. -/
structure Config.AsksFor (c : Config) (p : PyPar) : Prop where
  own : ∀ (n : Name) x, ¬ n.Ignored → c.opt n = some x → n ≠ .integrals_fftlog_sampling ∧ n.Written x ∧
    ∃ v, x.Spells v ∧ n.doc.Accepted v .other (getattr p n)
  old : ∀ (n : Name) x, c.oldText n = some x → n.Written x ∧ ∃ v new, x.Spells v ∧ n.doc.Accepted v .other new
  bias : ∀ b, (c.bias b).Fine

end Coffe
