import Verif.Model.C.Parallel
import Verif.Model.C.Covariance
import Verif.Model.C.IntegralValues

/-!
# Parallel loops over several arrays

The loops marked `#pragma omp parallel for` in src/integrals.c:797-828 (three arrays in one iteration), 886-897 and
src/covariance.c:653-678, 680-706 (two loops collapsed into one).  An iteration is a sequence of accesses to the shared
memory; its local variables are the values it has read.  As in `Model/C/Parallel` the look-ups of the spectrum inside the
integrands are taken to be without side effect; the messages of the verbose mode are not modelled.
-/

namespace Coffe
open Classical

/-- One access to the shared memory: reading a cell into a new local variable, or storing a function of the local
variables. -/
inductive Access (ι : Type) where
  | load (c : ι)
  | store (c : ι) (v : List ℝ → ℝ)

/-- The local variables of the iterations, and the shared memory. -/
structure LoopState (κ ι : Type) where
  loc : κ → List ℝ
  mem : Buf ι ℝ

/-- One access of iteration `i`. -/
noncomputable def Access.step {κ ι : Type} (i : κ) (s : LoopState κ ι) : Access ι → CRes (LoopState κ ι)
  | .load c => match s.mem.load c with
    | .ok v => .ok { s with loc := Function.update s.loc i (s.loc i ++ [v]) }
    | .error e => .error e
  | .store c v => match s.mem.store c (v (s.loc i)) with
    | .ok m => .ok { s with mem := m }
    | .error e => .error e

/-- A sequence of accesses, each with the iteration it belongs to. -/
noncomputable def runAccesses {κ ι : Type} : List (κ × Access ι) → LoopState κ ι → CRes (LoopState κ ι)
  | [], s => .ok s
  | (i, a) :: t, s => match a.step i s with
    | .ok s' => runAccesses t s'
    | .error e => .error e

/-- The accesses of a thread that was given the iterations `is` of a loop. -/
def threadAccesses {κ ι : Type} (body : κ → List (Access ι)) (is : List κ) : List (κ × Access ι) :=
  is.flatMap fun i => (body i).map fun a => (i, a)

/-- The iterations of two collapsed loops `for (a = 0; a < n; ++a) for (b = 0; b < m; ++b)`. -/
def collapse2 (n m : ℕ) : List (ℕ × ℕ) := (List.range n).flatMap fun a => (List.range m).map fun b => (a, b)

/-- The three arrays of the loop src/integrals.c:797-828. -/
inductive DivArray where
  | separations | result | result0
deriving DecidableEq

/-- One iteration of src/integrals.c:797-828: `separations[i]` is stored, and read again for each of the two integrals. -/
noncomputable def divergent_body (quad : (ℝ → ℝ) → ℝ → ℝ → ℝ) (P : ℝ → ℝ) (kmin kmax : ℝ) (i : ℕ) :
    List (Access (DivArray × ℕ)) :=
  [.store (.separations, i) (fun _ => ((coffe_sep.getD i 0 : ℚ) : ℝ)),
   .load (.separations, i),
   .store (.result, i) (fun loc => integrals_integrate_function quad
     (integrals_bessel_integrand P ⟨4, 0, .int, .int⟩ (loc.getD 0 0)) ⟨4, 0, .int, .int⟩ (loc.getD 0 0) kmin kmax),
   .load (.separations, i),
   .store (.result0, i) (fun loc => integrals_integrate_function quad
     (integrals_renormalization0_integrand P (loc.getD 1 0)) ⟨4, 0, .int, .int⟩ (loc.getD 1 0) kmin kmax)]

/-- `chi_array` and `result2d`, src/integrals.c:851-897. -/
inductive RenormArray where
  | chi | result2d
deriving DecidableEq

/-- One iteration of src/integrals.c:886-897. -/
noncomputable def renormalization_body (quad : (ℝ → ℝ) → ℝ → ℝ → ℝ) (P : ℝ → ℝ) (kmin kmax : ℝ) (jk : ℕ × ℕ) :
    List (Access (RenormArray × ℕ)) :=
  [.load (.chi, jk.1), .load (.chi, jk.2),
   .store (.result2d, jk.2 * (renormalization_nbins + 1) + jk.1) (fun loc =>
     integrals_renormalization quad P (loc.getD 0 0) (loc.getD 1 0) kmin kmax)]

/-- The arrays `chi_array` (filled, src/integrals.c:879-884) and `result2d` (allocated, src/integrals.c:852-854) before the
loop. -/
noncomputable def renormalization_memory (chi_max : ℝ) : Buf (RenormArray × ℕ) ℝ where
  dom p := match p.1 with
    | .chi => p.2 < renormalization_nbins + 1
    | .result2d => p.2 < (renormalization_nbins + 1) * (renormalization_nbins + 1)
  val p := match p.1 with
    | .chi => if p.2 < renormalization_nbins + 1 then some (renormalization_chi chi_max p.2) else none
    | .result2d => none

/-- One iteration of the collapsed loops src/covariance.c:653-678 and 680-706 for the multipoles number `i`, `j` (see
`fill_standard`).  `separations`, `multipole_values` and `pixelsize` are only read in these loops. -/
noncomputable def covariance_body (p : CovPar) (E : CovNum) (r : ℕ) (P : ℝ → ℝ) (on : Bool) (c : ℝ) (i j : ℕ)
    (mn : ℕ × ℕ) : List (Access (ℕ × ℕ × ℕ)) :=
  if on then
    [.store (r, i * p.multipole_values.length + j, p.sep.length * mn.2 + mn.1) (fun _ =>
      (2 * (p.multipole_values.getD i 0 : ℝ) + 1) * (2 * (p.multipole_values.getD j 0 : ℝ) + 1)
        * covariance_integral E r P (p.sep.getD mn.1 0) (p.sep.getD mn.2 0)
          (if p.covariance_window then p.pixelsize.getD r 0 else 0) (if p.covariance_window then p.pixelsize.getD r 0 else 0)
          (p.multipole_values.getD i 0) (p.multipole_values.getD j 0) / c / Real.pi)]
  else []

end Coffe
