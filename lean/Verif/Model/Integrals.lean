import Verif.Model.Signal.Dispatch
import Verif.Model.Signal.Lookups

/-!
# Model of the integral table, src/integrals.c

`coffe_integrals_init` (src/integrals.c:580-1423) appends entries one by one; `coffe_find_integral`
(140-169) returns the first matching entry or NULL.  The numerical content of an entry is an
arbitrary function of what the code passes to the numerical routine for it; which entries exist and
which of their splines are initialised is modelled exactly.
-/

namespace Coffe
open Classical

/-- An entry of `coffe_integral_array_t`: orders, the splines that were initialised
(`coffe_integral_new` sets all of them to NULL, src/integrals.c:42-52), and their content. -/
structure Entry where
  key : Key
  splines : List Spl
  val : Integral

/-- The `terms[]` table of `coffe_integrals_init`, src/integrals.c:599-610. -/
def baseKeys : List Key :=
  [⟨0, 0, .int, .int⟩, ⟨0, 2, .int, .int⟩, ⟨0, 4, .int, .int⟩, ⟨1, 1, .int, .int⟩,
   ⟨1, 3, .int, .int⟩, ⟨2, 0, .int, .int⟩, ⟨2, 2, .int, .int⟩, ⟨3, 1, .int, .int⟩]

/-- A renormalizable entry: `result` always, `result2d` under
`par->pk_type && par->midpoint_approximation` (src/integrals.c:664-768, 976-1079, 1140-1240,
1305-1405).  Its content depends on the settings and on the orders only: `num k` stands for the output
of `coffe_integrals_renormalizable`, called with the same arguments everywhere (636-648, 948-960,
1112-1124, 1277-1289). -/
def plainEntry (num : Key → Integral) (par : Par) (k : Key) : Entry :=
  ⟨k, if par.pk_type ≠ .COFFE_PK_LINEAR ∧ par.midpoint_approximation = true
      then [.result, .result2d] else [.result], num k⟩

/-- Orders of entry `k` written for the density-lensing multipole of order `l`,
src/integrals.c:1268-1271. -/
def den_len_entry_key (l k : ℕ) : Key := ⟨(l : Int) - 2 * k + 3, (l : Int) - 2 * k + 1, .half, .half⟩

/-- The entries appended by `coffe_integrals_init` for the multipoles `ls`
(`par->multipole_values`), src/integrals.c:597-1411. -/
def integrals_init (num : Key → Integral) (par : Par) (ls : List ℕ) : List Entry :=
  baseKeys.map (plainEntry num par)
  ++ (if par.divergent then
        [⟨⟨4, 0, .int, .int⟩, [.result, .renormalization_zero_separation, .renormalization],
          num ⟨4, 0, .int, .int⟩⟩] else [])
  ++ (if par.flatsky_local_nonlocal || par.flatsky_nonlocal then
        [plainEntry num par ⟨1, -1, .half, .half⟩] else [])
  ++ (if par.flatsky_nonlocal && par.output_type = .MULTIPOLES then
        ls.map (fun l : ℕ => plainEntry num par ⟨1, l, .int, .int⟩) else [])
  ++ (if par.flatsky_local_nonlocal && par.output_type = .MULTIPOLES then
        ls.flatMap (fun l : ℕ => (List.range (l / 2 + 1)).map
          (fun k => plainEntry num par (den_len_entry_key l k))) else [])

/-- `coffe_find_integral`, src/integrals.c:140-169: first match, or NULL. -/
def coffe_find_integral (t : List Entry) (k : Key) : Option Entry :=
  t.find? (fun e => decide (e.key = k))

/-- A use of the table that does not dereference a null pointer: the entry is found and the spline it
evaluates was initialised. -/
def LookOk (t : List Entry) (u : Look) : Prop :=
  ∃ e, coffe_find_integral t u.key = some e ∧ u.spl ∈ e.splines

/-- Look-ups of `functions_flatsky_lensing_lensing_multipoles`, src/functions.c:4065-4082 and
4098-4108. -/
noncomputable def flatsky_len_len_looks (par : Par) (l : ℕ) : List Look :=
  if par.pk_type ≠ .COFFE_PK_LINEAR ∧ par.midpoint_approximation then
    [⟨⟨1, l, .int, .int⟩, .result2d⟩]
  else [⟨⟨1, l, .int, .int⟩, .result⟩]

/-- Look-ups of `functions_flatsky_density_lensing_multipoles`, src/functions.c:4173-4192 and
4208-4226. -/
noncomputable def flatsky_den_len_looks (par : Par) (l : ℕ) : List Look :=
  if l % 2 = 0 then
    (List.range (l / 2 + 1)).map (fun k => ⟨flatsky_den_len_key l k,
      if par.pk_type ≠ .COFFE_PK_LINEAR ∧ par.midpoint_approximation then .result2d else .result⟩)
  else []

/-- `u` is looked up by `functions_nonintegrated` at some argument. -/
def NonLooks (par : Par) (u : Look) : Prop := ∃ v, u ∈ non_looks par v
/-- `u` is looked up by `functions_single_integrated` at some argument. -/
def SingleLooks (par : Par) (u : Look) : Prop := ∃ v, u ∈ single_looks par v
/-- `u` is looked up by `functions_double_integrated` at some argument. -/
def DoubleLooks (par : Par) (u : Look) : Prop := ∃ v, u ∈ double_looks par v

/-- `u` may be looked up while `coffe_integrate` (src/signal.c:472-771) computes a value of kind `out`
for multipole `l`: same gates as `coffe_integrate`. -/
def SignalLooks (par : Par) (out : OutputType) (l : ℕ) (u : Look) : Prop :=
  (out = .CORRFUNC ∨ out = .MULTIPOLES ∨ out = .AVERAGE_MULTIPOLES) ∧
  ((non_gate par.correlation_contrib = true ∧ NonLooks par u)
  ∨ (single_gate par.correlation_contrib = true ∧
      if out = .MULTIPOLES then
        (single_flat_gate par = true ∧ par.correlation_contrib.den = true
          ∧ u ∈ flatsky_den_len_looks par l)
        ∨ (single_multi_gate par = true ∧ SingleLooks par u)
      else SingleLooks par u)
  ∨ (double_gate par.correlation_contrib = true ∧
      if out = .MULTIPOLES then
        (double_flat_gate par l = true ∧ u ∈ flatsky_len_len_looks par l)
        ∨ (double_multi_gate par = true ∧ DoubleLooks par u)
      else DoubleLooks par u))

end Coffe
