import Mathlib.Data.Multiset.AddSub

/-!
# Dynamic memory

The functions that allocate and release the memory of the project's structures, as programs over a heap of blocks.
Only the pointers, the lengths and the flags of the structures are kept; the numbers stored in the blocks are modelled
elsewhere.  Freeing a block twice, using a released block, using a pointer that was never set and dereferencing `NULL`
are separate outcomes.  A block allocated and filled by a library (a GSL spline or accelerator, a CLASS structure) is
one block.  Requests for memory are assumed to succeed.
-/

namespace Coffe.Mem

/-- A C pointer. -/
inductive Ptr where
  | null
  /-- an indeterminate value -/
  | garbage
  | addr (a : ℕ)
deriving DecidableEq, Repr

/-- The ways a program can go wrong with its memory. -/
inductive HErr where
  /-- a block is released twice -/
  | doubleFree
  /-- a released block is used -/
  | dangling
  /-- an indeterminate pointer is used or released -/
  | badPointer
  /-- an array is read beyond its end -/
  | oob
  /-- `NULL` is dereferenced -/
  | null
  /-- the last element of an empty array is read -/
  | empty
deriving DecidableEq, Repr

/-- The blocks in use.  An address is handed out once only. -/
structure Heap where
  next : ℕ
  live : Multiset ℕ
  nodup : live.Nodup
  fresh : ∀ a ∈ live, a < next

/-- Programs over the heap. -/
abbrev HM := StateT Heap (Except HErr)

/-- `malloc`, also `gsl_spline_alloc`, `gsl_interp_accel_alloc`, …: a block that is not in use. -/
def malloc : HM Ptr := fun h => .ok (.addr h.next, {
  next := h.next + 1
  live := h.next ::ₘ h.live
  nodup := Multiset.nodup_cons.2 ⟨fun hm => absurd (h.fresh _ hm) (lt_irrefl _), h.nodup⟩
  fresh := fun a ha => by
    rcases Multiset.mem_cons.1 ha with rfl | ha
    · exact Nat.lt_succ_self _
    · exact Nat.lt_succ_of_lt (h.fresh a ha) })

/-- `free`, also `gsl_spline_free`, …: releasing `NULL` does nothing. -/
def free : Ptr → HM Unit
  | .null => pure ()
  | .garbage => throw .badPointer
  | .addr a => fun h =>
    if a ∈ h.live then .ok ((), {
      next := h.next
      live := h.live.erase a
      nodup := h.nodup.erase a
      fresh := fun b hb => h.fresh b (Multiset.mem_of_mem_erase hb) })
    else .error .doubleFree

/-- Any access through a pointer. -/
def use : Ptr → HM Unit
  | .null => throw .null
  | .garbage => throw .badPointer
  | .addr a => fun h => if a ∈ h.live then .ok ((), h) else .error .dangling

/-- `if (c) m;` -/
def cif (c : Prop) [Decidable c] (m : HM Unit) : HM Unit := if c then m else pure ()

/-- `if (c) a = m;` -/
def cset {α : Type} (c : Prop) [Decidable c] (m : HM α) (a : α) : HM α := if c then m else pure a

/-- `realloc`: the block moves. -/
def realloc (p : Ptr) : HM Ptr := do
  use p
  free p
  malloc

/-- `coffe_interpolation`, src/common.h. -/
structure Spline where
  spline : Ptr
  accel : Ptr

/-- `coffe_interpolation2d`, src/common.h. -/
structure Spline2d where
  spline : Ptr
  xaccel : Ptr
  yaccel : Ptr

/-- `coffe_new_spline`, src/common.c:1222-1229. -/
def coffe_new_spline : Spline := ⟨.null, .null⟩

/-- `coffe_new_spline2d`, src/common.c:1231-1240. -/
def coffe_new_spline2d : Spline2d := ⟨.null, .null, .null⟩

/-- `coffe_init_spline`, src/common.c:524-576, with at least one point: the old pointers are overwritten. -/
def coffe_init_spline : HM Spline := do
  let spline ← malloc
  let accel ← malloc
  pure ⟨spline, accel⟩

/-- `coffe_init_spline2d`, src/common.c:579-613. -/
def coffe_init_spline2d : HM Spline2d := do
  let spline ← malloc
  let xaccel ← malloc
  let yaccel ← malloc
  pure ⟨spline, xaccel, yaccel⟩

/-- `if (p != NULL) free(p)` -/
def free_if (p : Ptr) : HM Unit := cif (p ≠ .null) (free p)

/-- `coffe_free_spline`, src/common.c:616-629. -/
def coffe_free_spline (s : Spline) : HM Spline := do
  free_if s.spline
  free_if s.accel
  pure ⟨.null, .null⟩

/-- `coffe_free_spline2d`, src/common.c:632-648. -/
def coffe_free_spline2d (s : Spline2d) : HM Spline2d := do
  free_if s.spline
  free_if s.xaccel
  free_if s.yaccel
  pure ⟨.null, .null, .null⟩

/-- `coffe_interp_spline`, src/common.c:702-708: both blocks are used. -/
def coffe_interp_spline (s : Spline) : HM Unit := do
  use s.spline
  use s.accel

/-- `n` temporary arrays, allocated and released by the same function. -/
def scratch : ℕ → HM Unit
  | 0 => pure ()
  | n + 1 => do
    let p ← malloc
    scratch n
    free p

/-! ## Arrays of results -/

/-- `coffe_corrfunc_array_t`, `coffe_multipoles_array_t`, `coffe_average_multipoles_array_t`, `coffe_covariance_array_t`
and `coffe_average_covariance_array_t`: an array and its length.  Also a list parameter and its length. -/
structure Arr where
  array : Ptr
  size : ℕ

/-- `coffe_corrfunc_free`, src/corrfunc.c:143-153; the same body in `coffe_multipoles_free` (src/multipoles.c:138-148),
`coffe_average_multipoles_free` (src/average_multipoles.c:159-169), `coffe_covariance_free` and
`coffe_average_covariance_free` (src/covariance.c:1105-1126). -/
def result_free (r : Arr) : HM Arr := do
  cif (r.size ≠ 0) (free r.array)
  pure ⟨.null, 0⟩

/-- The memory side of `coffe_corrfunc_init` (src/corrfunc.c:62, 73-79), `coffe_multipoles_init` (src/multipoles.c:55,
68-74) and `coffe_average_multipoles_init` (src/average_multipoles.c:76, 87-93): release the old array, allocate one of
the new size. -/
def result_init (size : ℕ) (r : Arr) : HM Arr := do
  let _ ← result_free r
  let array ← malloc
  pure ⟨array, size⟩

/-- `coffe_covariance_init`, src/covariance.c:477-521: nothing unless a covariance was requested; both structures are
released, one is allocated.  `average` tells which.  The temporary arrays of lines 522-1048 are not modelled. -/
def coffe_covariance_init (requested average : Bool) (size : ℕ) (mp ramp : Arr) : HM (Arr × Arr) :=
  if requested then do
    let mp' ← result_free mp
    let ramp' ← result_free ramp
    let array ← malloc
    if average then pure (mp', ⟨array, size⟩) else pure (⟨array, size⟩, ramp')
  else pure (mp, ramp)

/-! ## Background -/

/-- The splines of `coffe_background_t`. -/
inductive BgName where
  | z_as_chi | a | Hz | conformal_Hz | conformal_Hz_prime | D1 | f | G1 | G2 | comoving_distance
deriving DecidableEq, Repr

/-- All of them, in the order of src/background.c:703-712. -/
def BgName.all : List BgName :=
  [.z_as_chi, .a, .Hz, .conformal_Hz, .conformal_Hz_prime, .D1, .f, .G1, .G2, .comoving_distance]

/-- `coffe_background_t` -/
structure Background where
  flag : Bool
  splines : BgName → Spline

/-- Free the listed splines of a family. -/
def free_splines {ι : Type} [DecidableEq ι] : List ι → (ι → Spline) → HM (ι → Spline)
  | [], s => pure s
  | i :: is, s => do
    let n ← coffe_free_spline (s i)
    free_splines is (Function.update s i n)

/-- Set the listed splines of a family. -/
def init_splines {ι : Type} [DecidableEq ι] : List ι → (ι → Spline) → HM (ι → Spline)
  | [], s => pure s
  | i :: is, s => do
    let n ← coffe_init_spline
    init_splines is (Function.update s i n)

/-- `coffe_background_free`, src/background.c:698-718. -/
def coffe_background_free (bg : Background) : HM Background :=
  if bg.flag then do
    let s ← free_splines BgName.all bg.splines
    pure ⟨false, s⟩
  else pure bg

/-! ## Parameters -/

/-- The splines of `coffe_parameters_t`. -/
inductive ParSpline where
  | power_spectrum | power_spectrum_norm
  | galaxy_bias1 | galaxy_bias2 | galaxy_bias3 | galaxy_bias4
  | magnification_bias1 | magnification_bias2 | evolution_bias1 | evolution_bias2
deriving DecidableEq, Repr

/-- All of them. -/
def ParSpline.all : List ParSpline :=
  [.power_spectrum, .power_spectrum_norm, .galaxy_bias1, .galaxy_bias2, .galaxy_bias3, .galaxy_bias4,
    .magnification_bias1, .magnification_bias2, .evolution_bias1, .evolution_bias2]

/-- The list parameters of `coffe_parameters_t`. -/
inductive ParList where
  | sep | mu | multipole_values | z_mean | deltaz | fsky | density1 | density2 | pixelsize | zmin | zmax
deriving DecidableEq, Repr

/-- All of them, in the order of src/common.c:752-793. -/
def ParList.all : List ParList :=
  [.sep, .mu, .multipole_values, .z_mean, .deltaz, .fsky, .density1, .density2, .pixelsize, .zmin, .zmax]

/-- The polynomial fits of `coffe_parameters_t`. -/
inductive ParFit where
  | galaxy_bias1 | galaxy_bias2 | magnification_bias1 | magnification_bias2 | evolution_bias1 | evolution_bias2
deriving DecidableEq, Repr

/-- All of them, in the order of src/background.c:641-681. -/
def ParFit.all : List ParFit :=
  [.galaxy_bias1, .galaxy_bias2, .magnification_bias1, .magnification_bias2, .evolution_bias1, .evolution_bias2]

/-- The ones released by `coffe_parameters_free`, src/common.c:797-800. -/
def ParFit.freed : List ParFit := [.galaxy_bias1, .galaxy_bias2, .magnification_bias1, .magnification_bias2]

/-- The spline a fit is made of, src/background.c:641-681. -/
def ParFit.source : ParFit → ParSpline
  | .galaxy_bias1 => .galaxy_bias1
  | .galaxy_bias2 => .galaxy_bias2
  | .magnification_bias1 => .magnification_bias1
  | .magnification_bias2 => .magnification_bias2
  | .evolution_bias1 => .evolution_bias1
  | .evolution_bias2 => .evolution_bias2

/-- The blocks of `coffe_class_struct_t`, in the order of src/common.c:1307-1345. -/
inductive ClassName where
  | file_content | background | thermodynamics | perturb | primordial | nonlinear | transfer | spectra
deriving DecidableEq, Repr

/-- All of them. -/
def ClassName.all : List ClassName :=
  [.file_content, .background, .thermodynamics, .perturb, .primordial, .nonlinear, .transfer, .spectra]

/-- `coffe_fit_coefficients_array_t`: the array, its length, and its contents (`coffe_fit_coefficients_t`, an array and
its length each). -/
structure Fit where
  array : Ptr
  size : ℕ
  entries : List Arr

/-- `coffe_new_fit_coefficients_array`, src/common.c:1267-1275. -/
def Fit.new : Fit := ⟨.null, 0, []⟩

/-- `coffe_parameters_t`: what owns memory.  `conf` (only without Cython) is left out. -/
structure Par where
  flag : Bool
  splines : ParSpline → Spline
  power_spectrum2d : Spline2d
  power_spectrum2d_norm : Spline2d
  lists : ParList → Arr
  type_bg : Ptr
  type_bg_elems : List Ptr
  classes : ClassName → Ptr
  fits : ParFit → Fit

/-- A structure on the stack, before anything is stored in it (src/main.c:46). -/
def Par.uninit (flag : Bool) : Par where
  flag := flag
  splines := fun _ => ⟨.garbage, .garbage⟩
  power_spectrum2d := ⟨.garbage, .garbage, .garbage⟩
  power_spectrum2d_norm := ⟨.garbage, .garbage, .garbage⟩
  lists := fun _ => ⟨.garbage, 1⟩
  type_bg := .garbage
  type_bg_elems := []
  classes := fun _ => .garbage
  fits := fun _ => ⟨.garbage, 1, []⟩

/-- Allocate the listed arrays with the given lengths. -/
def init_lists : List (ParList × ℕ) → (ParList → Arr) → HM (ParList → Arr)
  | [], s => pure s
  | (i, n) :: is, s => do
    let p ← malloc
    init_lists is (Function.update s i ⟨p, n⟩)

/-- The lists set by `coffe_parse_default_parameters`, in order, with their lengths (src/parser.c:803-804, 928-939,
980-982, 996-1017). -/
def defaultLists : List (ParList × ℕ) :=
  [(.sep, 100), (.density1, 1), (.density2, 1), (.fsky, 1), (.pixelsize, 1), (.mu, 1), (.z_mean, 1), (.deltaz, 1),
    (.zmin, 1), (.zmax, 1), (.multipole_values, 3)]

/-- `coffe_parse_default_parameters`, src/parser.c:733-1033.  Temporaries: two arrays at 847-863, one string at 950-959. -/
def coffe_parse_default_parameters (par : Par) : HM Par := do
  -- 771-776, 790, 803-804, 828-838, 868-875
  let splines ← init_splines ParSpline.all (fun _ => coffe_new_spline)
  scratch 3
  let lists ← init_lists defaultLists par.lists
  pure {
    flag := true
    splines := splines
    power_spectrum2d := coffe_new_spline2d
    power_spectrum2d_norm := coffe_new_spline2d
    lists := lists
    type_bg := .null
    type_bg_elems := []
    classes := fun _ => .null
    fits := fun _ => Fit.new }

/-- `if (len) free(list)` for the listed arrays, with `len = 0` afterwards except for `zmin` (src/common.c:752-793). -/
def free_lists : List ParList → (ParList → Arr) → HM (ParList → Arr)
  | [], s => pure s
  | i :: is, s => do
    cif ((s i).size ≠ 0) (free (s i).array)
    free_lists is (Function.update s i ⟨(s i).array, if i = .zmin then (s i).size else 0⟩)

/-- `free` on every element. -/
def free_ptrs : List Ptr → HM Unit
  | [] => pure ()
  | p :: ps => do
    free p
    free_ptrs ps

/-- `coffe_free_class_struct`, src/common.c:1303-1365: the library's own release and `free` are one step. -/
def free_classes : List ClassName → (ClassName → Ptr) → HM (ClassName → Ptr)
  | [], s => pure s
  | i :: is, s => do
    free_if (s i)
    free_classes is (Function.update s i .null)

/-- `coffe_free_fit_coefficients`, src/common.c:1254-1264, on every element of the array: the array is read. -/
def free_entries (array : Ptr) : List Arr → HM (List Arr)
  | [] => pure []
  | e :: es => do
    use array
    cif (e.size ≠ 0) (free e.array)
    let r ← free_entries array es
    pure (⟨.null, 0⟩ :: r)

/-- `coffe_free_fit_coefficients_array`, src/common.c:1279-1290: the array itself is kept. -/
def coffe_free_fit_coefficients_array (f : Fit) : HM Fit := do
  cif (f.entries.length < f.size) (throw .oob)
  let e ← free_entries f.array (f.entries.take f.size)
  pure ⟨f.array, 0, e ++ f.entries.drop f.size⟩

/-- On every listed fit. -/
def free_fits : List ParFit → (ParFit → Fit) → HM (ParFit → Fit)
  | [], s => pure s
  | i :: is, s => do
    let n ← coffe_free_fit_coefficients_array (s i)
    free_fits is (Function.update s i n)

/-- `coffe_parameters_free`, src/common.c:721-806. -/
def coffe_parameters_free (par : Par) : HM Par :=
  if par.flag then do
    let splines ← free_splines ParSpline.all par.splines
    let p2 ← coffe_free_spline2d par.power_spectrum2d
    let p2n ← coffe_free_spline2d par.power_spectrum2d_norm
    free_ptrs par.type_bg_elems
    free par.type_bg
    let lists ← free_lists ParList.all par.lists
    let classes ← free_classes ClassName.all par.classes
    let fits ← free_fits ParFit.freed par.fits
    pure { par with
      flag := false, splines := splines, power_spectrum2d := p2, power_spectrum2d_norm := p2n, lists := lists,
      classes := classes, fits := fits }
  else pure par

/-- A list setter, python/coffe/coffe.pyx:1577-1584 (`sep`), 1618-1625, 1960-1967, …: release the old array if there was
one, allocate the new one. -/
def set_list (i : ParList) (n : ℕ) (par : Par) : HM Par := do
  cif ((par.lists i).size ≠ 0) (free (par.lists i).array)
  let p ← malloc
  pure { par with lists := Function.update par.lists i ⟨p, n⟩ }

/-- `parse_double_array` and `parse_int_array`, src/parser.c:182-233: the old array is overwritten. -/
def parse_list (i : ParList) (n : ℕ) (par : Par) : HM Par := do
  let p ← malloc
  pure { par with lists := Function.update par.lists i ⟨p, n⟩ }

/-- `n` blocks. -/
def mallocs : ℕ → HM (List Ptr)
  | 0 => pure []
  | n + 1 => do
    let p ← malloc
    let ps ← mallocs n
    pure (p :: ps)

/-- `parse_string_array` on `type_bg`, src/parser.c:142-171 and 1071. -/
def parse_type_bg (n : ℕ) (par : Par) : HM Par := do
  let p ← malloc
  let ps ← mallocs n
  pure { par with type_bg := p, type_bg_elems := ps }

/-- A bias setter, python/coffe/coffe.pyx:154-193: the new spline replaces the old one. -/
def set_bias (i : ParSpline) (par : Par) : HM Par := do
  let x ← malloc
  let y ← malloc
  let s ← coffe_init_spline
  free x
  free y
  pure { par with splines := Function.update par.splines i s }

/-- `_free_power_spectrum`, python/coffe/coffe.pyx:952-957. -/
def free_power_spectrum (par : Par) : HM Par := do
  let s ← free_splines [.power_spectrum, .power_spectrum_norm] par.splines
  let p2 ← coffe_free_spline2d par.power_spectrum2d
  let p2n ← coffe_free_spline2d par.power_spectrum2d_norm
  pure { par with splines := s, power_spectrum2d := p2, power_spectrum2d_norm := p2n }

/-- `set_power_spectrum_linear`, python/coffe/coffe.pyx:2958-2993, the part before `_free_integrals`. -/
def set_power_spectrum_linear (par : Par) : HM Par := do
  let par ← free_power_spectrum par
  scratch 4
  let s ← init_splines [.power_spectrum, .power_spectrum_norm] par.splines
  pure { par with splines := s }

/-- The eight blocks kept by `parse_external_power_spectrum`. -/
def init_classes : List ClassName → (ClassName → Ptr) → HM (ClassName → Ptr)
  | [], s => pure s
  | i :: is, s => do
    let p ← malloc
    init_classes is (Function.update s i p)

/-- `parse_external_power_spectrum`, src/parser.c:283-729: the old blocks of CLASS are overwritten.  `nonlinear` is
`pk_type != COFFE_PK_LINEAR` (641).  Temporaries: `ppr`, `pop`, `ple` and four arrays; with `nonlinear` six more. -/
def parse_external_power_spectrum (nonlinear : Bool) (par : Par) : HM Par := do
  let s ← free_splines [.power_spectrum, .power_spectrum_norm] par.splines
  let classes ← init_classes ClassName.all par.classes
  let s ← init_splines [.power_spectrum, .power_spectrum_norm] s
  scratch 7
  if nonlinear then
    let _ ← coffe_free_spline2d par.power_spectrum2d
    let _ ← coffe_free_spline2d par.power_spectrum2d_norm
    let p2 ← coffe_init_spline2d
    let p2n ← coffe_init_spline2d
    scratch 6
    pure { par with splines := s, classes := classes, power_spectrum2d := p2, power_spectrum2d_norm := p2n }
  else pure { par with splines := s, classes := classes }

/-! ## Background, continued -/

/-- The body of the loop of `coffe_get_bias_coefficients`, src/background.c:105-143: two temporary arrays, one array of
coefficients (src/background.c:69). -/
def fit_entry (bg : Background) (bias : Spline) (degree : ℕ) : HM Arr := do
  coffe_interp_spline (bg.splines .comoving_distance)
  coffe_interp_spline (bg.splines .z_as_chi)
  coffe_interp_spline bias
  let x ← malloc
  let y ← malloc
  let c ← malloc
  free x
  free y
  pure ⟨c, degree + 1⟩

/-- `n` of them. -/
def fit_entries (bg : Background) (bias : Spline) (degree : ℕ) : ℕ → HM (List Arr)
  | 0 => pure []
  | n + 1 => do
    let e ← fit_entry bg bias degree
    let es ← fit_entries bg bias degree n
    pure (e :: es)

/-- `coffe_get_bias_coefficients`, src/background.c:83-147: the old array is overwritten. -/
def coffe_get_bias_coefficients (bg : Background) (bias : Spline) (degree n : ℕ) : HM Fit := do
  let array ← malloc
  let e ← fit_entries bg bias degree n
  pure ⟨array, n, e⟩

/-- The six calls, src/background.c:641-681. -/
def init_fits (bg : Background) (par : Par) (degree n : ℕ) : List ParFit → (ParFit → Fit) → HM (ParFit → Fit)
  | [], s => pure s
  | i :: is, s => do
    use (par.lists .z_mean).array
    cif ((par.lists .sep).size = 0) (throw .empty)
    use (par.lists .sep).array
    let f ← coffe_get_bias_coefficients bg (par.splines i.source) degree n
    init_fits bg par degree n is (Function.update s i f)

/-- `coffe_background_init`, src/background.c:305-696.  Temporaries: eleven blocks (319-329), four arrays (339-424), the
integrator (three blocks) and three splines (634-636).  `nonlocal` is `flatsky_nonlocal`. -/
def coffe_background_init (nonlocal : Bool) (degree : ℕ) (par : Par) (bg : Background) : HM (Par × Background) := do
  let bg ← coffe_background_free bg
  scratch 24
  let s ← init_splines BgName.all bg.splines
  let bg : Background := ⟨true, s⟩
  if nonlocal ∧ (par.lists .z_mean).size ≠ 0 then
    let fits ← init_fits bg par degree (par.lists .z_mean).size ParFit.all par.fits
    pure ({ par with fits := fits }, bg)
  else pure (par, bg)

/-! ## Integrals -/

/-- `coffe_integral_t` -/
structure Entry where
  result : Spline
  renormalization_zero_separation : Spline
  renormalization : Spline2d
  result2d : Spline2d

/-- `coffe_integral_new`, src/integrals.c:172-182. -/
def coffe_integral_new : Entry := ⟨coffe_new_spline, coffe_new_spline, coffe_new_spline2d, coffe_new_spline2d⟩

/-- `coffe_integral_array_t`: the array, its length, and its contents. -/
structure Integral where
  array : Ptr
  size : ℕ
  entries : List Entry

/-- The loop of `coffe_integrals_free`, src/integrals.c:1431-1436. -/
def free_integrals (array : Ptr) : List Entry → HM Unit
  | [] => pure ()
  | e :: es => do
    use array
    let _ ← coffe_free_spline e.result
    let _ ← coffe_free_spline e.renormalization_zero_separation
    let _ ← coffe_free_spline2d e.renormalization
    let _ ← coffe_free_spline2d e.result2d
    free_integrals array es

/-- `coffe_integrals_free`, src/integrals.c:1426-1444. -/
def coffe_integrals_free (I : Integral) : HM Integral := do
  cif (I.size ≠ 0) (do
    cif (I.entries.length < I.size) (throw .oob)
    free_integrals I.array (I.entries.take I.size)
    free I.array)
  pure ⟨.null, 0, []⟩

/-- What decides which integrals are computed. -/
structure IntCfg where
  /-- `pk_type && midpoint_approximation`, src/integrals.c:664-667 -/
  nonlinear : Bool
  divergent : Bool
  flatsky_local_nonlocal : Bool
  flatsky_nonlocal : Bool
  /-- `output_type == MULTIPOLES` -/
  multipoles : Bool
  /-- `output_type` is `CORRFUNC` or `MULTIPOLES` (else `AVERAGE_MULTIPOLES`) -/
  narrow : Bool
  /-- `multipole_values` -/
  l : List ℕ

/-- Space for one more integral, src/integrals.c:617-625 and 775-783, 921-929, 1093-1101, 1258-1266. -/
def grow (I : Integral) : HM Ptr := if I.size = 0 then malloc else realloc I.array

/-- `coffe_integrals_renormalizable`, src/integrals.c:455-572: two arrays for the caller, two temporaries. -/
def coffe_integrals_renormalizable (spectrum : Spline) : HM (Ptr × Ptr) := do
  let x ← malloc
  let y ← malloc
  let fft_x ← malloc
  let fft_y ← malloc
  use spectrum.spline
  use spectrum.accel
  free fft_x
  free fft_y
  pure (x, y)

/-- `z_size`, src/integrals.c:677. -/
def zSize : ℕ := 100

/-- The loop over redshifts, src/integrals.c:689-750; `final_sep` is kept in the last round only. -/
def nl_loop (par : Par) : List ℕ → Ptr → HM Ptr
  | [], final_sep => pure final_sep
  | i :: is, _ => do
    use (par.classes .nonlinear)
    let k ← malloc
    let pk ← malloc
    use (par.classes .background)
    let pk_at_z ← coffe_init_spline
    free k
    free pk
    let (sep, res) ← coffe_integrals_renormalizable pk_at_z
    cif (i ≠ zSize - 1) (free sep)
    free res
    nl_loop par is sep

/-- The table in redshift and separation, src/integrals.c:663-766 (also 975-1078, 1139-1242, 1304-1407). -/
def nonlinear_table (par : Par) (final_sep : Ptr) : HM Spline2d := do
  let _z ← malloc
  let _pk_at_z2d ← malloc
  let sep ← nl_loop par (List.range zSize) final_sep
  let s ← coffe_init_spline2d
  free sep
  pure s

/-- One integral that can be renormalised, src/integrals.c:609-769 (also 916-1082, 1088-1245, 1253-1411). -/
def add_integral (cfg : IntCfg) (par : Par) (I : Integral) : HM Integral := do
  let array ← grow I
  let (final_sep, final_result) ← coffe_integrals_renormalizable (par.splines .power_spectrum_norm)
  let result ← coffe_init_spline
  free final_sep
  free final_result
  let t ← cset cfg.nonlinear (nonlinear_table par final_sep) coffe_integral_new.result2d
  pure ⟨array, I.size + 1, I.entries.take I.size ++ [{ coffe_integral_new with result := result, result2d := t }]⟩

/-- `n` of them. -/
def add_integrals (cfg : IntCfg) (par : Par) : ℕ → Integral → HM Integral
  | 0, I => pure I
  | n + 1, I => do
    let I' ← add_integral cfg par I
    add_integrals cfg par n I'

/-- The largest distance, src/integrals.c:854-879. -/
def chi_max (cfg : IntCfg) (bg : Background) : HM Unit :=
  if cfg.narrow then do
    let temp ← malloc
    coffe_interp_spline (bg.splines .comoving_distance)
    free temp
  else coffe_interp_spline (bg.splines .comoving_distance)

/-- The divergent integral, src/integrals.c:772-914. -/
def add_divergent (cfg : IntCfg) (par : Par) (bg : Background) (I : Integral) : HM Integral := do
  let array ← grow I
  let result ← malloc
  let separations ← malloc
  let result0 ← malloc
  coffe_interp_spline (par.splines .power_spectrum_norm)
  let r ← coffe_init_spline
  let r0 ← coffe_init_spline
  free separations
  free result
  free result0
  let result2d ← malloc
  chi_max cfg bg
  let chi_array ← malloc
  coffe_interp_spline (par.splines .power_spectrum_norm)
  let rn ← coffe_init_spline2d
  free chi_array
  free result2d
  pure ⟨array, I.size + 1, I.entries.take I.size ++
    [{ coffe_integral_new with result := r, renormalization_zero_separation := r0, renormalization := rn }]⟩

/-- `coffe_integrals_init`, src/integrals.c:577-1423: eight integrals (599-770), the divergent one, one for the flat sky
(916), one per multipole for lensing-lensing (1085-1247) and `l / 2 + 1` per multipole for density-lensing (1248-1413). -/
def coffe_integrals_init (cfg : IntCfg) (par : Par) (bg : Background) (I : Integral) : HM Integral := do
  let I ← coffe_integrals_free I
  let I ← add_integrals cfg par 8 I
  let I ← cset cfg.divergent (add_divergent cfg par bg I) I
  let I ← cset (cfg.flatsky_local_nonlocal ∨ cfg.flatsky_nonlocal) (add_integral cfg par I) I
  let I ← cset (cfg.flatsky_nonlocal ∧ cfg.multipoles) (add_integrals cfg par cfg.l.length I) I
  cset (cfg.flatsky_local_nonlocal ∧ cfg.multipoles) (add_integrals cfg par (cfg.l.map (fun l => l / 2 + 1)).sum I) I

/-! ## The whole program -/

/-- The structures of src/main.c:46-53, and the fields of the Python class (python/coffe/coffe.pyx:508-530). -/
structure World where
  par : Par
  bg : Background
  integral : Integral
  cf : Arr
  mp : Arr
  ramp : Arr
  cov_mp : Arr
  cov_ramp : Arr

/-- src/main.c:46-53: the parameters are not initialised, the rest is zero. -/
def World.start (flag : Bool) : World where
  par := Par.uninit flag
  bg := ⟨false, fun _ => ⟨.null, .null⟩⟩
  integral := ⟨.null, 0, []⟩
  cf := ⟨.null, 0⟩
  mp := ⟨.null, 0⟩
  ramp := ⟨.null, 0⟩
  cov_mp := ⟨.null, 0⟩
  cov_ramp := ⟨.null, 0⟩

/-- Calls on the structures. -/
inductive Op where
  | par_default
  | par_free
  | set_list (i : ParList) (n : ℕ)
  | parse_list (i : ParList) (n : ℕ)
  | parse_type_bg (n : ℕ)
  | set_bias (i : ParSpline)
  | set_power_spectrum
  | free_power_spectrum
  | run_class (nonlinear : Bool)
  | bg_init (nonlocal : Bool) (degree : ℕ)
  | bg_free
  | int_init (cfg : IntCfg)
  | int_free
  | cf_init (size : ℕ)
  | cf_free
  | mp_init (size : ℕ)
  | mp_free
  | ramp_init (size : ℕ)
  | ramp_free
  | cov_init (requested average : Bool) (size : ℕ)
  | cov_mp_free
  | cov_ramp_free
  /-- evaluate a spline of the background (python/coffe/coffe.pyx:2996-, src/output.c, all signals) -/
  | bg_use (i : BgName)
  /-- evaluate a spline of the parameters -/
  | par_use (i : ParSpline)

/-- One call. -/
def exec (w : World) : Op → HM World
  | .par_default => do return { w with par := ← coffe_parse_default_parameters w.par }
  | .par_free => do return { w with par := ← coffe_parameters_free w.par }
  | .set_list i n => do return { w with par := ← set_list i n w.par }
  | .parse_list i n => do return { w with par := ← parse_list i n w.par }
  | .parse_type_bg n => do return { w with par := ← parse_type_bg n w.par }
  | .set_bias i => do return { w with par := ← set_bias i w.par }
  | .set_power_spectrum => do
    let par ← set_power_spectrum_linear w.par
    let I ← coffe_integrals_free w.integral
    return { w with par := par, integral := I }
  | .free_power_spectrum => do return { w with par := ← free_power_spectrum w.par }
  | .run_class nl => do return { w with par := ← parse_external_power_spectrum nl w.par }
  | .bg_init nonlocal degree => do
    let (par, bg) ← coffe_background_init nonlocal degree w.par w.bg
    return { w with par := par, bg := bg }
  | .bg_free => do return { w with bg := ← coffe_background_free w.bg }
  | .int_init cfg => do return { w with integral := ← coffe_integrals_init cfg w.par w.bg w.integral }
  | .int_free => do return { w with integral := ← coffe_integrals_free w.integral }
  | .cf_init n => do return { w with cf := ← result_init n w.cf }
  | .cf_free => do return { w with cf := ← result_free w.cf }
  | .mp_init n => do return { w with mp := ← result_init n w.mp }
  | .mp_free => do return { w with mp := ← result_free w.mp }
  | .ramp_init n => do return { w with ramp := ← result_init n w.ramp }
  | .ramp_free => do return { w with ramp := ← result_free w.ramp }
  | .cov_init requested average n => do
    let (a, b) ← coffe_covariance_init requested average n w.cov_mp w.cov_ramp
    return { w with cov_mp := a, cov_ramp := b }
  | .cov_mp_free => do return { w with cov_mp := ← result_free w.cov_mp }
  | .cov_ramp_free => do return { w with cov_ramp := ← result_free w.cov_ramp }
  | .bg_use i => do
    coffe_interp_spline (w.bg.splines i)
    return w
  | .par_use i => do
    coffe_interp_spline (w.par.splines i)
    return w

/-- Any sequence of calls. -/
def execs : List Op → World → HM World
  | [], w => pure w
  | o :: os, w => do
    let w' ← exec w o
    execs os w'

end Coffe.Mem
