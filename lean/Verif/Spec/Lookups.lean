import Verif.Model.Integrals

/-! # Specification for the integral table -/

namespace Coffe

/-- The settings are consistent: the divergent integral is requested whenever a contribution needs it
and the mid-point approximation is on (its only value, src/parser.c:843). -/
structure Par.Consistent (par : Par) : Prop where
  divergent : (par.correlation_contrib.d2 || par.correlation_contrib.g1 || par.correlation_contrib.g2
    || par.correlation_contrib.g3 || par.correlation_contrib.g4 || par.correlation_contrib.g5) = true →
    par.divergent = true
  midpoint : par.midpoint_approximation = true
/-- The two tables hold the same spline `u`. -/
def SplAgree (I I' : Ints) (u : Look) : Prop :=
  match u.spl with
  | .result => (I u.key).result = (I' u.key).result
  | .result2d => (I u.key).result2d = (I' u.key).result2d
  | .renormalization => (I u.key).renormalization = (I' u.key).renormalization
  | .renormalization_zero_separation =>
    (I u.key).renormalization_zero_separation = (I' u.key).renormalization_zero_separation

/-- The integrals read from the table `t`; `junk` stands for what a failed lookup would read. -/
def tableInts (t : List Entry) (junk : Ints) : Ints := fun k =>
  match coffe_find_integral t k with
  | some e => e.val
  | none => junk k

end Coffe
