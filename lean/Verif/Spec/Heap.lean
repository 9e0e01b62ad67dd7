import Verif.Model.C.Heap
import Mathlib.Algebra.Order.Group.Multiset
import Mathlib.Algebra.BigOperators.Group.Multiset.Basic

/-!
# Ownership

Which blocks a structure owns, and when its pointers are determinate.
-/

namespace Coffe.Mem

/-- The block a pointer points to. -/
def Ptr.blocks : Ptr → Multiset ℕ
  | .addr a => {a}
  | _ => 0

/-- Not an indeterminate value. -/
def Ptr.Ok (p : Ptr) : Prop := p ≠ .garbage

/-- The blocks of a spline. -/
def Spline.blocks (s : Spline) : Multiset ℕ := s.spline.blocks + s.accel.blocks

/-- Both pointers are determinate. -/
def Spline.Ok (s : Spline) : Prop := s.spline.Ok ∧ s.accel.Ok

/-- The blocks of a two-dimensional spline. -/
def Spline2d.blocks (s : Spline2d) : Multiset ℕ := s.spline.blocks + s.xaccel.blocks + s.yaccel.blocks

/-- All pointers are determinate. -/
def Spline2d.Ok (s : Spline2d) : Prop := s.spline.Ok ∧ s.xaccel.Ok ∧ s.yaccel.Ok

/-- The blocks of the listed members of a family. -/
def sumOver {ι : Type} (l : List ι) (b : ι → Multiset ℕ) : Multiset ℕ := (l.map b).sum

/-- The block of an array that is not empty.  The block of an empty array belongs to nobody. -/
def Arr.blocks (r : Arr) : Multiset ℕ := if r.size = 0 then 0 else r.array.blocks

/-- The pointer is determinate. -/
def Arr.Ok (r : Arr) : Prop := r.array.Ok

/-- The blocks of the background. -/
def Background.blocks (bg : Background) : Multiset ℕ := sumOver BgName.all fun i => (bg.splines i).blocks

/-- The pointers of the background are determinate, and `NULL` unless the flag is set. -/
def Background.Ok (bg : Background) : Prop :=
  (∀ i, (bg.splines i).Ok) ∧ (bg.flag = false → ∀ i, bg.splines i = coffe_new_spline)

/-- The blocks of a polynomial fit. -/
def Fit.blocks (f : Fit) : Multiset ℕ := f.array.blocks + sumOver f.entries Arr.blocks

/-- The array has the length it is said to have. -/
structure Fit.Ok (f : Fit) : Prop where
  array : f.array.Ok
  size : f.size ≤ f.entries.length
  nonnull : f.size ≠ 0 → f.array ≠ .null
  entries : ∀ e ∈ f.entries, e.Ok

/-- The blocks of the parameters.  Once they are released (the flag is not set), `zmin` and `type_bg` are stale. -/
def Par.blocks (par : Par) : Multiset ℕ :=
  sumOver ParSpline.all (fun i => (par.splines i).blocks) + par.power_spectrum2d.blocks + par.power_spectrum2d_norm.blocks
    + sumOver ParList.all (fun i => if i = .zmin ∧ par.flag = false then 0 else (par.lists i).blocks)
    + (if par.flag then par.type_bg.blocks + sumOver par.type_bg_elems Ptr.blocks else 0)
    + sumOver ClassName.all (fun i => (par.classes i).blocks)
    + sumOver ParFit.all (fun i => (par.fits i).blocks)

/-- The pointers of the parameters are determinate. -/
structure Par.Ok (par : Par) : Prop where
  splines : ∀ i, (par.splines i).Ok
  p2 : par.power_spectrum2d.Ok
  p2n : par.power_spectrum2d_norm.Ok
  lists : ∀ i, (par.lists i).Ok
  type_bg : par.type_bg.Ok
  elems : ∀ p ∈ par.type_bg_elems, p.Ok
  classes : ∀ i, (par.classes i).Ok
  fits : ∀ i, (par.fits i).Ok

/-- The blocks of one integral. -/
def Entry.blocks (e : Entry) : Multiset ℕ :=
  e.result.blocks + e.renormalization_zero_separation.blocks + e.renormalization.blocks + e.result2d.blocks

/-- Its pointers are determinate. -/
def Entry.Ok (e : Entry) : Prop :=
  e.result.Ok ∧ e.renormalization_zero_separation.Ok ∧ e.renormalization.Ok ∧ e.result2d.Ok

/-- The blocks of the integrals. -/
def Integral.blocks (I : Integral) : Multiset ℕ := I.array.blocks + sumOver I.entries Entry.blocks

/-- The array has the length it is said to have. -/
structure Integral.Ok (I : Integral) : Prop where
  array : I.array.Ok
  size : I.entries.length = I.size
  null : I.size = 0 → I.array = .null
  nonnull : I.size ≠ 0 → I.array ≠ .null
  entries : ∀ e ∈ I.entries, e.Ok

/-- All blocks owned by the structures. -/
def World.blocks (w : World) : Multiset ℕ :=
  w.par.blocks + w.bg.blocks + w.integral.blocks + w.cf.blocks + w.mp.blocks + w.ramp.blocks + w.cov_mp.blocks
    + w.cov_ramp.blocks

/-- All structures are in order. -/
structure World.Ok (w : World) : Prop where
  par : w.par.Ok
  bg : w.bg.Ok
  integral : w.integral.Ok
  cf : w.cf.Ok
  mp : w.mp.Ok
  ramp : w.ramp.Ok
  cov_mp : w.cov_mp.Ok
  cov_ramp : w.cov_ramp.Ok

/-- Whether the parameters are in use after a call. -/
def flagAfter : Op → Bool → Bool
  | .par_default, _ => true
  | .par_free, _ => false
  | _, f => f

/-- The setter of `z_min` is not called on parameters that have been released (`alive` is false). -/
def Allowed (alive : Bool) : Op → Prop
  | .set_list .zmin _ => alive = true
  | _ => True

/-- The same along a sequence of calls. -/
def AllowedSeq : Bool → List Op → Prop
  | _, [] => True
  | alive, o :: os => Allowed alive o ∧ AllowedSeq (flagAfter o alive) os

/-- A call that gives back all memory it does not keep: no results of size zero, no tables of a non-linear spectrum, no
polynomial fits, nothing overwritten. -/
def Tidy : Op → Prop
  | .par_default | .parse_list _ _ | .parse_type_bg _ | .set_bias _ | .run_class _ => False
  | .set_list _ n => n ≠ 0
  | .bg_init nonlocal _ => nonlocal = false
  | .int_init cfg => cfg.nonlinear = false
  | .cf_init n | .mp_init n | .ramp_init n => n ≠ 0
  | .cov_init _ _ n => n ≠ 0
  | _ => True

end Coffe.Mem
