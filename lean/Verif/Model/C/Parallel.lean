import Verif.Model.C.Grid

/-!
# OpenMP loops and the shared look-up accelerator

The loops marked `#pragma omp parallel for` in src/corrfunc.c:92-129, src/multipoles.c:88-125 and
src/average_multipoles.c:108-145: every iteration belongs to one thread; a thread runs its iterations one after
another; the memory accesses of different threads are interleaved arbitrarily.
-/

namespace Coffe
open Classical

/-- A memory access of iteration `i`: it reads its own cell (and the coordinates, which nobody writes), computes,
and writes its own cell. -/
inductive Act where
  | rd (i : ℕ)
  | wr (i : ℕ)
deriving DecidableEq

/-- What the iterations have read so far, and the array. -/
structure ParState where
  loc : ℕ → Option (Option ℝ)
  mem : Buf ℕ ℝ

/-- One access.  `upd i old` is the value iteration `i` stores when it found `old` (nothing, for a cell that was
never written). -/
noncomputable def Act.step (upd : ℕ → Option ℝ → CRes ℝ) : Act → ParState → CRes ParState
  | .rd i, s => if s.mem.dom i then .ok { s with loc := Function.update s.loc i (some (s.mem.val i)) } else .error .oob
  | .wr i, s => match s.loc i with
    | none => .error .uninit
    | some old => do
      let v ← upd i old
      let m ← s.mem.store i v
      pure { s with mem := m }

/-- A sequence of accesses. -/
noncomputable def runActs (upd : ℕ → Option ℝ → CRes ℝ) : List Act → ParState → CRes ParState
  | [], s => .ok s
  | a :: as, s => match a.step upd s with
    | .ok s' => runActs upd as s'
    | .error e => .error e

/-- The accesses of a thread that was given the iterations `is`. -/
def threadProgram (is : List ℕ) : List Act := is.flatMap fun i => [.rd i, .wr i]

/-- `t` is an interleaving of the given programs. -/
inductive Interleave {α : Type} : List (List α) → List α → Prop
  | done (ps : List (List α)) : (∀ p ∈ ps, p = []) → Interleave ps []
  | step (ps qs : List (List α)) (a : α) (p t : List α) :
      Interleave (ps ++ p :: qs) t → Interleave (ps ++ (a :: p) :: qs) (a :: t)

/-- `array[i].value = f(coords)` -/
noncomputable def setUpd {κ : Type} (coords : Buf ℕ κ) (f : κ → ℝ) (i : ℕ) (_ : Option ℝ) : CRes ℝ := do
  let c ← coords.load i
  pure (f c)

/-- `array[i].value += f(coords)` -/
noncomputable def addUpd {κ : Type} (coords : Buf ℕ κ) (f : κ → ℝ) (i : ℕ) (old : Option ℝ) : CRes ℝ := do
  let c ← coords.load i
  match old with
  | some o => pure (o + f c)
  | none => .error .uninit

/-! ## The accelerator

`coffe_interp_spline` (src/common.c:702-708) hands the accelerator stored with the spline (allocated once in
`coffe_init_spline`, src/common.c:570-572) to `gsl_spline_eval`; the splines are shared by all threads.  The two
functions below are GSL's `gsl_interp_bsearch` and `gsl_interp_accel_find` (from GSL's sources, not in this
repository). -/

/-- `gsl_interp_bsearch`: halving between `lo` and `hi`. -/
noncomputable def bsearch (xa : ℕ → ℝ) (x : ℝ) (lo hi : ℕ) : ℕ :=
  if h : hi > lo + 1 then
    if xa ((hi + lo) / 2) > x then bsearch xa x lo ((hi + lo) / 2) else bsearch xa x ((hi + lo) / 2) hi
  else lo
termination_by hi - lo
decreasing_by all_goals omega

/-- The progress of one call of `gsl_interp_accel_find`. -/
inductive Find where
  | start
  | read (index : ℕ)
  | updated
  | returned (index : ℕ)
deriving DecidableEq

/-- The next access to the shared field `cache` by a call looking for `x`. -/
noncomputable def Find.step (xa : ℕ → ℝ) (len : ℕ) (x : ℝ) : Find → ℕ → Find × ℕ
  | .start, cache => (.read cache, cache)
  | .read i, cache =>
      if x < xa i then (.updated, bsearch xa x 0 i)
      else if x ≥ xa (i + 1) then (.updated, bsearch xa x i (len - 1))
      else (.updated, cache)
  | .updated, cache => (.returned cache, cache)
  | .returned i, cache => (.returned i, cache)

/-- `gsl_interp_accel_find` without interference: the index and the new cache. -/
noncomputable def accel_find (xa : ℕ → ℝ) (len : ℕ) (cache : ℕ) (x : ℝ) : ℕ × ℕ :=
  let c := if x < xa cache then bsearch xa x 0 cache
    else if x ≥ xa (cache + 1) then bsearch xa x cache (len - 1) else cache
  (c, c)

/-- Two calls on the same accelerator, by threads `false` and `true`, in the given order of accesses. -/
noncomputable def runFinds (xa : ℕ → ℝ) (len : ℕ) (x y : ℝ) : List Bool → Find × Find × ℕ → Find × Find × ℕ
  | [], s => s
  | false :: t, (p, q, c) => let r := p.step xa len x c; runFinds xa len x y t (r.1, q, r.2)
  | true :: t, (p, q, c) => let r := q.step xa len y c; runFinds xa len x y t (p, r.1, r.2)

/-- `linear_eval` of GSL on interval `i`. -/
noncomputable def linearSegment (xa ya : ℕ → ℝ) (i : ℕ) (x : ℝ) : ℝ :=
  ya i + (x - xa i) / (xa (i + 1) - xa i) * (ya (i + 1) - ya i)

end Coffe
