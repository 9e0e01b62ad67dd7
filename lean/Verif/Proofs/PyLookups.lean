import Verif.Spec.PyLookups
import Verif.Props.Lookups
import Verif.Proofs.PyEval

/-! # Helper lemmas for C20 on the Python object -/

namespace Coffe
open Classical

/-- A bind that succeeds. -/
theorem Py.bind_split {α β : Type} {m : Py α} {k : α → Py β} {s s' : PyObj} {o : β}
    (h : (m >>= k) s = (.ok o, s')) : ∃ a s1, m s = (.ok a, s1) ∧ k a s1 = (.ok o, s') := by
  rw [Py.bind_eq] at h
  rcases hx : m s with ⟨a | a, s1⟩
  · rw [hx] at h; simp at h
  · rw [hx] at h; exact ⟨a, s1, rfl, h⟩

/-- What holds when the signal is about to be evaluated. -/
structure Prepared (N : Num) (re : Bool) (s : PyObj) : Prop where
  ne : s.ints ≠ []
  div : s.par.contrib.divergent = true → s.par.divergent = true
  tab : re = true → TabOk N s

theorem prefix_prepared {N : Num} {re : Bool} {β : Type} {k : Py β} {s s' : PyObj} {o : β}
    (h : (do checkContributions; ensureBg N re; ensurePs N re; ensureInts N re; k : Py β) s = (.ok o, s')) :
    ∃ s1, Prepared N re s1 ∧ k s1 = (.ok o, s') := by
  obtain ⟨⟨⟩, s1, h1, h⟩ := Py.bind_split h
  obtain ⟨⟨⟩, s2, h2, h⟩ := Py.bind_split h
  obtain ⟨⟨⟩, s3, h3, h⟩ := Py.bind_split h
  obtain ⟨⟨⟩, s4, h4, h⟩ := Py.bind_split h
  refine ⟨s4, ?_, h⟩
  have d1 : s1.par.contrib.divergent = true → s1.par.divergent = true := by
    rw [checkContributions_eq] at h1
    split_ifs at h1
    · simp at h1
    · rw [← (Prod.mk.inj h1).2]; intro h; simp only [PyObj.upd] at h ⊢; simp [h]
  have d2 : s2.par = s1.par := by
    rw [ensureBg_eq] at h2
    split_ifs at h2
    · unfold backgroundInit at h2
      split_ifs at h2
      · simp at h2
      split at h2
      · rw [← (Prod.mk.inj h2).2]
      · simp at h2
    · rw [← (Prod.mk.inj h2).2]
  have d3 : s3.par.contrib = s2.par.contrib ∧ s3.par.divergent = s2.par.divergent := by
    rw [ensurePs_eq] at h3
    split_ifs at h3
    · unfold powerSpectrumInit at h3
      split at h3
      · rw [← (Prod.mk.inj h3).2]; exact ⟨rfl, rfl⟩
      · simp at h3
    · rw [← (Prod.mk.inj h3).2]; exact ⟨rfl, rfl⟩
  have e3 : s3.par.contrib.divergent = true → s3.par.divergent = true := by
    rw [d3.1, d3.2, d2]; exact d1
  rw [ensureInts_eq] at h4
  split_ifs at h4 with hc
  · unfold integralsInit at h4
    split at h4
    · rename_i b ps hb hp
      split_ifs at h4 with hk
      · simp at h4
      · rw [← (Prod.mk.inj h4).2]
        refine ⟨?_, e3, fun _ => ⟨b, ps, hb, hp, ⟨fun h1 h2 => hk (Or.inl ⟨h1, h2⟩), fun h1 => hk (Or.inr h1)⟩, rfl⟩⟩
        simp [integrals_init, baseKeys]
    · simp at h4
  · have := (Prod.mk.inj h4).2
    subst this
    rw [not_or] at hc
    exact ⟨hc.1, e3, fun h => absurd h hc.2⟩

/-- What the final stages leave alone. -/
theorem Prepared.frame {N : Num} {re : Bool} {s s' : PyObj} (h : Prepared N re s)
    (h1 : s'.par = s.par) (h2 : s'.ints = s.ints) (h3 : s'.bg = s.bg) (h4 : s'.ps = s.ps)
    (h5 : s'.cls = s.cls) : Prepared N re s' := by
  refine ⟨by rw [h2]; exact h.ne, by rw [h1]; exact h.div, fun hr => ?_⟩
  obtain ⟨b, ps, e1, e2, e3, e4⟩ := h.tab hr
  exact ⟨b, ps, by rw [h3, e1], by rw [h4, e2], by rw [h1, h5]; exact e3, by rw [h2, h1, h5]; exact e4⟩

theorem ensure_ok {m : PyObj → Prop} {re : Bool} {i : Py Unit} {s s' : PyObj} {o : Unit}
    (h : ensure m re i s = (.ok o, s')) : s' = s ∨ i s = (.ok o, s') := by
  rw [ensure_eq] at h
  split_ifs at h
  · exact Or.inr h
  · exact Or.inl (Prod.mk.inj h).2.symm

theorem call_prepared {N : Num} {s s' : PyObj} {op : Op} {o : Out} {out : OutputType} {l : ℕ}
    (hop : Evaluates s'.par op out l) (h : exec N op s = (.ok o, s')) :
    ∃ re : Bool, Prepared N re s' ∧ (op.Recomputes → re = true) := by
  cases hop with
  | corrfuncBulk re =>
    refine ⟨re, ?_, id⟩
    obtain ⟨⟨⟩, s1, h1, h⟩ := Py.bind_split (show computeCorrfuncBulk N re s = _ from h)
    obtain ⟨s2, hp, h⟩ := prefix_prepared h
    obtain ⟨⟨⟩, s3, h3, h⟩ := Py.bind_split h
    have := (Prod.mk.inj (show (_, s3) = _ from h)).2
    subst this
    rcases ensure_ok h3 with e | e
    · rw [e]; exact hp
    · unfold corrfuncInit at e
      split at e
      · rw [← (Prod.mk.inj e).2]; exact hp.frame rfl rfl rfl rfl rfl
      · simp at e
  | multipolesBulk re =>
    refine ⟨re, ?_, id⟩
    obtain ⟨⟨⟩, s1, h1, h⟩ := Py.bind_split (show computeMultipolesBulk N re s = _ from h)
    obtain ⟨s2, hp, h⟩ := prefix_prepared h
    obtain ⟨⟨⟩, s3, h3, h⟩ := Py.bind_split h
    have := (Prod.mk.inj (show (_, s3) = _ from h)).2
    subst this
    rcases ensure_ok h3 with e | e
    · rw [e]; exact hp
    · unfold multipolesInit at e
      split at e
      · rw [← (Prod.mk.inj e).2]; exact hp.frame rfl rfl rfl rfl rfl
      · simp at e
  | averageBulk re =>
    refine ⟨re, ?_, id⟩
    obtain ⟨⟨⟩, s1, h1, h⟩ := Py.bind_split (show computeAverageBulk N re s = _ from h)
    obtain ⟨s2, hp, h⟩ := prefix_prepared h
    obtain ⟨⟨⟩, s3, h3, h⟩ := Py.bind_split h
    have := (Prod.mk.inj (show (_, s3) = _ from h)).2
    subst this
    rcases ensure_ok h3 with e | e
    · rw [e]; exact hp
    · unfold averageInit at e
      split at e
      · split_ifs at e
        · simp at e
        · rw [← (Prod.mk.inj e).2]; exact hp.frame rfl rfl rfl rfl rfl
      · simp at e
  | corrfunc z r mu re =>
    refine ⟨re, ?_, id⟩
    obtain ⟨⟨⟩, s1, h1, h⟩ := Py.bind_split (show computeCorrfunc N z r mu re s = _ from h)
    obtain ⟨s2, hp, h⟩ := prefix_prepared h
    obtain ⟨⟨⟩, s3, h3, h⟩ := Py.bind_split h
    obtain ⟨⟨⟩, s4, h4, h⟩ := Py.bind_split h
    obtain ⟨⟨⟩, s5, h5, h⟩ := Py.bind_split h
    have e : s' = s2 := by
      unfold checkReal at h3 h4 h5
      unfold signalHere at h
      have a3 : s3 = s2 := by split_ifs at h3 <;> simp [Py.raise_eq, Py.pure_eq] at h3; exact h3.symm
      have a4 : s4 = s3 := by split_ifs at h4 <;> simp [Py.raise_eq, Py.pure_eq] at h4; exact h4.symm
      have a5 : s5 = s4 := by split_ifs at h5 <;> simp [Py.raise_eq, Py.pure_eq] at h5; exact h5.symm
      split at h
      · rw [← (Prod.mk.inj h).2, a5, a4, a3]
      · simp at h
    rw [e]; exact hp
  | multipole z r l re =>
    refine ⟨re, ?_, id⟩
    obtain ⟨⟨⟩, s1, h1, h⟩ := Py.bind_split (show computeMultipole N z r l re s = _ from h)
    obtain ⟨s2, hp, h⟩ := prefix_prepared h
    obtain ⟨⟨⟩, s3, h3, h⟩ := Py.bind_split h
    obtain ⟨⟨⟩, s4, h4, h⟩ := Py.bind_split h
    obtain ⟨⟨⟩, s5, h5, h⟩ := Py.bind_split h
    have e : s' = s2 := by
      unfold checkReal at h3 h4 h5
      unfold signalHere at h
      have a3 : s3 = s2 := by split_ifs at h3 <;> simp [Py.raise_eq, Py.pure_eq] at h3; exact h3.symm
      have a4 : s4 = s3 := by split_ifs at h4 <;> simp [Py.raise_eq, Py.pure_eq] at h4; exact h4.symm
      have a5 : s5 = s4 := by split_ifs at h5 <;> simp [Py.raise_eq, Py.pure_eq] at h5; exact h5.symm
      split at h
      · rw [← (Prod.mk.inj h).2, a5, a4, a3]
      · simp at h
    rw [e]; exact hp

theorem allFound_of_tab {N : Num} {s : PyObj} (ht : TabOk N s)
    (hd : s.par.contrib.divergent = true → s.par.divergent = true) {out : OutputType} {l : ℕ}
    (hl : out = .MULTIPOLES → l ∈ s.par.l) : s.AllFound N out l := by
  obtain ⟨b, ps, -, -, -, hi⟩ := ht
  intro u hu
  rw [hi]
  exact C20_lookups_exist _ _ _ out l (show (s.par.toPar N).Consistent from ⟨hd, rfl⟩) (fun h => ⟨rfl, hl h⟩) u hu

end Coffe
