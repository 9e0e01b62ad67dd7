import Verif.Model.C.ParallelLoops

/-! # Specification of parallel loops over several arrays -/

namespace Coffe

/-- `t` is a possible sequence of accesses of a parallel loop over `iters`: the iterations are distributed over any number
of threads, each to one thread, and the threads are interleaved. -/
def ParSchedule {κ ι : Type} (body : κ → List (Access ι)) (iters : List κ) (t : List (κ × Access ι)) : Prop :=
  ∃ threads : List (List κ), threads.flatten.Perm iters ∧ Interleave (threads.map (threadAccesses body)) t

/-- The cell an access writes. -/
def Access.writes {ι : Type} (c : ι) : Access ι → Prop
  | .load _ => False
  | .store d _ => c = d

/-- The cell an access reads or writes. -/
def Access.touches {ι : Type} (c : ι) : Access ι → Prop
  | .load d => c = d
  | .store d _ => c = d

/-- No iteration writes a cell that another iteration reads or writes. -/
def RaceFree {κ ι : Type} (body : κ → List (Access ι)) (iters : List κ) : Prop :=
  ∀ i ∈ iters, ∀ j ∈ iters, i ≠ j → ∀ c, (∃ a ∈ body i, a.writes c) → ¬ ∃ b ∈ body j, b.touches c

/-- The state at the beginning of a loop. -/
def LoopState.init {κ ι : Type} (m : Buf ι ℝ) : LoopState κ ι := ⟨fun _ => [], m⟩

end Coffe
