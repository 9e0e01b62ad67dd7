import Verif.Proofs.PyLists
import Verif.Props.PySetters

/-!
# The memory behind the list parameters (C33)
-/

namespace Coffe
open Lists Mem

/-- C33, down to the memory: whatever was assigned to the lists of an object and whatever else the process did with
its memory in between, every list is read back from its array as it is seen from Python (the last list that was
accepted, see `C33_history`), and every further assignment runs without a fault.  For every allocator. -/
theorem C33_memory {A : Allocator} {s : PyObj} {m : Memory} {f : ParList → Arr} (h : Reach A s m f) :
    Faithful A s m f := by
  intro n i hn
  refine ⟨?_, fun v => ?_⟩
  · rw [cells_view hn]
    exact read_ok h.inv trivial
  · unfold setter
    rcases bridge hn v s with ⟨e, h1, h2⟩ | ⟨x, s', h1, h2, h3⟩
    · rw [h1, h2]
      exact ⟨f, m, rfl⟩
    · obtain ⟨g, m₁, h4, -⟩ := assign_ok A h.inv i x
      rw [h1, h2]
      exact ⟨g, m₁, (lbind h4).trans rfl⟩

/-- C33: a new object can be made in any memory, and any assignment can follow any history. -/
theorem C33_reachable (A : Allocator) :
    (∀ m f₀, ∃ m' f, puts A defaultContents f₀ m = .ok (f, m') ∧ Reach A (fresh PyPar.default) m' f) ∧
    ∀ s m f, Reach A s m f → ∀ n i, parList n = some i → ∀ v, ∃ m' f', Reach A (setattr n v s).2 m' f' := by
  constructor
  · intro m f₀
    obtain ⟨f, m', h, -⟩ := default_ok A f₀ m
    exact ⟨m', f, h, .start m f₀ m' f h⟩
  · intro s m f h n i hn v
    obtain ⟨f', m', hs⟩ := (C33_memory h n i hn).2 v
    exact ⟨m', f', .assign s m f h n i hn v _ f' m' hs⟩

/-- An allocator that always takes the first address beyond all blocks. -/
def wAllocator : Allocator where
  pick := fun m _ => .addr m.bound
  unused := fun m _ _ => ⟨m.bound, rfl, m.finite _ le_rfl⟩
  empty := fun m => .inr ⟨m.bound, rfl, m.finite _ le_rfl⟩

/-- A memory without blocks. -/
def wMemory : Memory := ⟨0, fun _ => none, 0, fun _ _ => rfl⟩

/-- Two lists assigned, one of them twice: the arrays hold the last ones. -/
example : ∃ s m f, Reach wAllocator s m f ∧
    read (f .sep) m = .ok ([.double 3, .double 1, .double 2], m) ∧
    read (f .mu) m = .ok ([.double 0], m) := by
  obtain ⟨m, f, -, h⟩ := (C33_reachable wAllocator).1 wMemory (fun _ => ⟨.garbage, 0⟩)
  obtain ⟨m, f, h⟩ := (C33_reachable wAllocator).2 _ _ _ h .sep _ rfl (.floats [5])
  obtain ⟨m, f, h⟩ := (C33_reachable wAllocator).2 _ _ _ h .mu _ rfl (.floats [0])
  obtain ⟨m, f, h⟩ := (C33_reachable wAllocator).2 _ _ _ h .sep _ rfl (.floats [3, 1, 2])
  have h1 := C33_history .sep (by simp [listParameters]) [3, 1, 2] (by simp [entryOk]; norm_num)
    (setattr .mu (.floats [0]) (setattr .sep (.floats [5]) (fresh PyPar.default)).2).2 [] (by simp)
  have h2 := C33_history .mu (by simp [listParameters]) [0] (by simp [entryOk])
    (setattr .sep (.floats [5]) (fresh PyPar.default)).2 [(.sep, .floats [3, 1, 2])] (by simp)
  rw [List.foldl_nil] at h1
  rw [List.foldl_cons, List.foldl_nil] at h2
  refine ⟨_, m, f, h, ?_, ?_⟩
  · rw [(C33_memory h .sep _ rfl).1, h1]
    rfl
  · rw [(C33_memory h .mu _ rfl).1, h2]
    rfl

end Coffe
