import Verif.Model.C.Mem
import Verif.Model.Signal.Dispatch

/-!
# The output arrays

`coffe_corrfunc_init` (src/corrfunc.c:55-134), `coffe_multipoles_init` (src/multipoles.c),
`coffe_average_multipoles_init` (src/average_multipoles.c).  The array of structures is modelled by two arrays
of the same length, one for the member `coords` and one for the member `value`.  The loops marked
`#pragma omp parallel for` are run in order here; `Model/C/Parallel.lean` has the parallel version.
-/

namespace Coffe
open Classical

/-- Read element `i` of an input array (`par->sep[i]`, …); the arrays have exactly the length stored beside them. -/
def ld {α : Type} (l : List α) (i : ℕ) : CRes α :=
  match l[i]? with
  | some v => .ok v
  | none => .error .oob

/-- `array[counter] = v; ++counter;` -/
noncomputable def push {α : Type} (v : α) (s : Buf ℕ α × ℕ) : CRes (Buf ℕ α × ℕ) := do
  let b ← s.1.store s.2 v
  pure (b, s.2 + 1)

/-- `array[i].value = f(coords)` for all `i`, src/corrfunc.c:92-103. -/
noncomputable def setLoop {κ : Type} (coords : Buf ℕ κ) (f : κ → ℝ) (size : ℕ) (value : Buf ℕ ℝ) : CRes (Buf ℕ ℝ) :=
  cfor (upTo 0 size) (fun i v => do
    let c ← coords.load i
    v.store i (f c)) value

/-- `array[i].value += f(coords)` for all `i`, src/corrfunc.c:105-129. -/
noncomputable def addLoop {κ : Type} (coords : Buf ℕ κ) (f : κ → ℝ) (size : ℕ) (value : Buf ℕ ℝ) : CRes (Buf ℕ ℝ) :=
  cfor (upTo 0 size) (fun i v => do
    let c ← coords.load i
    let old ← v.load i
    v.store i (old + f c)) value

/-- Coordinates of an entry of the correlation function. -/
structure CfCoord where
  z : ℝ
  mu : ℝ
  sep : ℝ

/-- `coffe_corrfunc_init`, src/corrfunc.c:55-134. -/
noncomputable def corrfunc_init (Q : Quad) (par : Par) (bg : Bg) (I : Ints) (z_mean mus seps : List ℝ) :
    CRes (Buf ℕ CfCoord × Buf ℕ ℝ) := do
  let size := mus.length * z_mean.length * seps.length
  let (coords, _) ← cfor (upTo 0 z_mean.length) (fun i => cfor (upTo 0 mus.length) fun j =>
    cfor (upTo 0 seps.length) fun k s => do
      let z ← ld z_mean i
      let mu ← ld mus j
      let sep ← ld seps k
      push (⟨z, mu, sep⟩ : CfCoord) s) (cmalloc size, 0)
  let f := fun ty (c : CfCoord) => coffe_integrate Q par bg I c.z 0 0 c.sep c.mu 0 ty .CORRFUNC
  let value ← setLoop coords (f .NONINTEGRATED) size (cmalloc size)
  let value ← addLoop coords (f .SINGLE_INTEGRATED) size value
  let value ← addLoop coords (f .DOUBLE_INTEGRATED) size value
  pure (coords, value)

/-- Coordinates of an entry of the multipoles. -/
structure MpCoord where
  z : ℝ
  l : ℕ
  sep : ℝ

/-- `coffe_multipoles_init`, src/multipoles.c:52-134. -/
noncomputable def multipoles_init (Q : Quad) (par : Par) (bg : Bg) (I : Ints) (z_mean : List ℝ) (ls : List ℕ)
    (seps : List ℝ) : CRes (Buf ℕ MpCoord × Buf ℕ ℝ) := do
  let size := ls.length * z_mean.length * seps.length
  let (coords, _) ← cfor (upTo 0 z_mean.length) (fun i => cfor (upTo 0 ls.length) fun j =>
    cfor (upTo 0 seps.length) fun k s => do
      let z ← ld z_mean i
      let l ← ld ls j
      let sep ← ld seps k
      push (⟨z, l, sep⟩ : MpCoord) s) (cmalloc size, 0)
  let f := fun ty (c : MpCoord) => coffe_integrate Q par bg I c.z 0 0 c.sep 0 c.l ty .MULTIPOLES
  let value ← setLoop coords (f .NONINTEGRATED) size (cmalloc size)
  let value ← addLoop coords (f .SINGLE_INTEGRATED) size value
  let value ← addLoop coords (f .DOUBLE_INTEGRATED) size value
  pure (coords, value)

/-- Coordinates of an entry of the redshift averaged multipoles. -/
structure AmpCoord where
  z_min : ℝ
  z_max : ℝ
  l : ℕ
  sep : ℝ

/-- `coffe_average_multipoles_init`, src/average_multipoles.c:53-140. -/
noncomputable def average_multipoles_init (Q : Quad) (par : Par) (bg : Bg) (I : Ints) (zmin zmax : List ℝ)
    (ls : List ℕ) (seps : List ℝ) : CRes (Buf ℕ AmpCoord × Buf ℕ ℝ) := do
  let size := ls.length * zmin.length * seps.length
  let (coords, _) ← cfor (upTo 0 zmin.length) (fun i => cfor (upTo 0 ls.length) fun j =>
    cfor (upTo 0 seps.length) fun k s => do
      let z1 ← ld zmin i
      let z2 ← ld zmax i
      let l ← ld ls j
      let sep ← ld seps k
      push (⟨z1, z2, l, sep⟩ : AmpCoord) s) (cmalloc size, 0)
  let f := fun ty (c : AmpCoord) =>
    coffe_integrate Q par bg I ((c.z_min + c.z_max) / 2) c.z_min c.z_max c.sep 0 c.l ty .AVERAGE_MULTIPOLES
  let value ← setLoop coords (f .NONINTEGRATED) size (cmalloc size)
  let value ← addLoop coords (f .SINGLE_INTEGRATED) size value
  let value ← addLoop coords (f .DOUBLE_INTEGRATED) size value
  pure (coords, value)

end Coffe
