import Verif.Proofs.PyStores

/-! # Helper lemmas: what an assignment leaves alone -/

namespace Coffe
open Classical

theorem stores_dens {n : Name} {p p' : PyPar} (h : Stores n p p') (hn : ¬ n.density) (hh : n ≠ .h) :
    p'.dens = p.dens := by
  cases n <;> first
    | exact absurd trivial hn
    | exact absurd rfl hh
    | (obtain ⟨x, rfl⟩ := h; rfl)
    | exact h.elim

set_option maxHeartbeats 4000000 in
theorem stores_indep {n : Name} {p p' : PyPar} (h : Stores n p p') (m : Name) (hm : m ≠ n)
    (hd : ¬ n.Drives m) : getattr p' m = getattr p m := by
  cases n
  case integrals_fftlog_sampling => exact h.elim
  case m_ncdm =>
    obtain ⟨x, rfl | rfl⟩ := h <;>
    cases m <;> first | exact absurd rfl hm | exact absurd trivial hd | rfl
  all_goals
    obtain ⟨x, rfl⟩ := h
    cases m <;> first | exact absurd rfl hm | exact absurd trivial hd | rfl

end Coffe
