import Verif.Model.C.Common
import Verif.Model.C.Grid
import Verif.Model.C.IntegralValues

/-! # How far the table of the renormalisation reaches, with the array accesses -/

namespace Coffe
open Classical

/-- `chi_max`, src/integrals.c:857-878: the redshifts are added up in an array of `z_mean_len` numbers, whatever the length of
`deltaz` is. -/
noncomputable def renormalization_range (out : OutputType) (comoving_distance : ℝ → ℝ) (z_mean deltaz zmax : List ℝ) :
    CRes ℝ :=
  if out = .CORRFUNC ∨ out = .MULTIPOLES then do
    let temp ← cfor (upTo 0 z_mean.length) (fun i b => do
      let z ← ld z_mean i
      let d ← ld deltaz i
      b.store i (z + d)) (cmalloc z_mean.length)
    match ← coffe_max_array_double temp z_mean.length with
    | some m => .ok (comoving_distance m)
    | none => .error .nan
  else if out = .AVERAGE_MULTIPOLES then do
    match ← coffe_max_array_double (Buf.of (· < zmax.length) fun i => zmax.getD i 0) zmax.length with
    | some m => .ok (comoving_distance m)
    | none => .error .nan
  else .ok 0

end Coffe
