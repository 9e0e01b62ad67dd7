import Verif.Proofs.Divergent
import Verif.Props.Lookups

/-! # Helper lemmas: running the same method on two objects -/

namespace Coffe
open Classical

theorem Py.bind_eq {α β : Type} (m : Py α) (f : α → Py β) (s : PyObj) :
    (m >>= f) s = match m s with
      | (.ok a, s') => f a s'
      | (.error e, s') => (.error e, s') := rfl

theorem Py.pure_eq {α : Type} (a : α) (s : PyObj) : (pure a : Py α) s = (.ok a, s) := rfl
theorem Py.get_eq (s : PyObj) : Py.get s = (.ok s, s) := rfl
theorem Py.modify_eq (f : PyObj → PyObj) (s : PyObj) : Py.modify f s = (.ok (), f s) := rfl
theorem Py.raise_eq {α : Type} (e : Err) (s : PyObj) : (Py.raise e : Py α) s = (.error e, s) := rfl

/-- From states related by `P`, the two methods raise the same exception, or return the same value and
end in states related by `Q`. -/
def Sim {α : Type} (P : PyObj → PyObj → Prop) (m m' : Py α) (Q : PyObj → PyObj → Prop) : Prop :=
  ∀ s r, P s r →
    (∃ e s' r', m s = (.error e, s') ∧ m' r = (.error e, r')) ∨
    (∃ a s' r', m s = (.ok a, s') ∧ m' r = (.ok a, r') ∧ Q s' r')

theorem Sim.fst {α : Type} {P Q : PyObj → PyObj → Prop} {m m' : Py α} (h : Sim P m m' Q) {s r : PyObj}
    (hs : P s r) : (m s).1 = (m' r).1 := by
  rcases h s r hs with ⟨e, s', r', h1, h2⟩ | ⟨a, s', r', h1, h2, -⟩ <;> rw [h1, h2]

theorem Sim.bind {α β : Type} {P Q R : PyObj → PyObj → Prop} {m m' : Py α} {f f' : α → Py β}
    (h1 : Sim P m m' Q) (h2 : ∀ a, Sim Q (f a) (f' a) R) : Sim P (m >>= f) (m' >>= f') R := by
  intro s r hP
  rcases h1 s r hP with ⟨e, s', r', e1, e2⟩ | ⟨a, s', r', e1, e2, hQ⟩
  · left
    exact ⟨e, s', r', by simp [Py.bind_eq, e1], by simp [Py.bind_eq, e2]⟩
  · rcases h2 a s' r' hQ with ⟨e, s'', r'', e3, e4⟩ | ⟨b, s'', r'', e3, e4, hR⟩
    · left
      exact ⟨e, s'', r'', by simp [Py.bind_eq, e1, e3], by simp [Py.bind_eq, e2, e4]⟩
    · right
      exact ⟨b, s'', r'', by simp [Py.bind_eq, e1, e3], by simp [Py.bind_eq, e2, e4], hR⟩

theorem Sim.ret0 {α : Type} {P : PyObj → PyObj → Prop} (a : α) :
    Sim P (pure a : Py α) (Pure.pure a) P :=
  fun s r h => Or.inr ⟨a, s, r, rfl, rfl, h⟩

theorem Sim.raise {α : Type} {P Q : PyObj → PyObj → Prop} (e : Err) :
    Sim P (Py.raise e : Py α) (Py.raise e) Q :=
  fun s r _ => Or.inl ⟨e, s, r, rfl, rfl⟩

/-- Reading the object: the continuations must agree on related objects. -/
theorem Sim.get_bind {β : Type} {P R : PyObj → PyObj → Prop} {f f' : PyObj → Py β}
    (h : ∀ s r, P s r → Sim (fun s' r' => s' = s ∧ r' = r ∧ P s r) (f s) (f' r) R) :
    Sim P (Py.get >>= f) (Py.get >>= f') R := by
  intro s r hP
  exact h s r hP s r ⟨rfl, rfl, hP⟩

theorem Sim.mono {α : Type} {P P' Q Q' : PyObj → PyObj → Prop} {m m' : Py α} (h : Sim P m m' Q)
    (hP : ∀ s r, P' s r → P s r) (hQ : ∀ s r, Q s r → Q' s r) : Sim P' m m' Q' := by
  intro s r hs
  rcases h s r (hP s r hs) with h1 | ⟨a, s', r', h1, h2, h3⟩
  · exact Or.inl h1
  · exact Or.inr ⟨a, s', r', h1, h2, hQ _ _ h3⟩

theorem Sim.forM {ι : Type} {P : PyObj → PyObj → Prop} {f f' : ι → Py Unit} (l : List ι)
    (h : ∀ i ∈ l, Sim P (f i) (f' i) P) : Sim P (l.forM f) (l.forM f') P := by
  induction l with
  | nil => exact Sim.ret0 ()
  | cons i l ih =>
    simp only [List.forM]
    exact Sim.bind (h i (by simp)) fun _ => ih fun j hj => h j (by simp [hj])

/-- The parameters other than the k-range and the internal `divergent` switch. -/
def PyPar.core (p : PyPar) : PyPar := { p with divergent := false, k_min := 0, k_max := 0 }

theorem core_eq {p q : PyPar} (h : p.core = q.core) :
    q = { p with divergent := q.divergent, k_min := q.k_min, k_max := q.k_max } := by
  have : p = { q.core with divergent := p.divergent, k_min := p.k_min, k_max := p.k_max } := by
    rw [← h]; rfl
  rw [this]; rfl

/-- A table with and without the divergent integral agree elsewhere. -/
theorem tableInts_div (num num' : Key → Integral) (par : Par) (ls : List ℕ) (junk : Ints) (d : Bool)
    (k : Key) (hk : k ≠ ⟨4, 0, .int, .int⟩) (hn : ∀ k, k ≠ ⟨4, 0, .int, .int⟩ → num k = num' k) :
    tableInts (integrals_init num { par with divergent := d } ls) junk k =
      tableInts (integrals_init num' par ls) junk k := by
  have hv : ∀ (n : Key → Integral) (p : Par) (e : Entry),
      coffe_find_integral (integrals_init n p ls) k = some e → e.val = n k := by
    intro n p e he
    have h1 : e.key = k := by simpa using List.find?_some he
    have h2 := (mem_table (List.mem_of_find?_eq_some he))
    rw [h2, h1]
    simp [entryOf, hk, plainEntry]
  have hex : ∀ (n n' : Key → Integral) (p : Par) (d : Bool) (e : Entry),
      coffe_find_integral (integrals_init n p ls) k = some e →
      ∃ e', coffe_find_integral (integrals_init n' { p with divergent := d } ls) k = some e' := by
    intro n n' p d e he
    have h1 : e.key = k := by simpa using List.find?_some he
    have hm := List.mem_of_find?_eq_some he
    have hm' : ∃ e' ∈ integrals_init n' { p with divergent := d } ls, e'.key = k := by
      simp only [integrals_init, List.mem_append, or_assoc] at hm
      rcases hm with h | h | h | h | h
      · obtain ⟨k', hk', rfl⟩ := List.mem_map.1 h
        refine ⟨plainEntry n' { p with divergent := d } k', ?_, h1⟩
        simp only [integrals_init, List.mem_append, or_assoc]
        exact Or.inl (List.mem_map.2 ⟨k', hk', rfl⟩)
      · split_ifs at h with hd
        · simp only [List.mem_singleton] at h
          subst h
          exact absurd h1.symm hk
        · simp at h
      · split_ifs at h with hd
        · simp only [List.mem_singleton] at h
          subst h
          refine ⟨plainEntry n' { p with divergent := d } ⟨1, -1, .half, .half⟩, ?_, h1⟩
          simp only [integrals_init, List.mem_append, or_assoc]
          right; right; left
          rw [if_pos hd]; simp
        · simp at h
      · split_ifs at h with hd
        · obtain ⟨l, hl, rfl⟩ := List.mem_map.1 h
          refine ⟨plainEntry n' { p with divergent := d } ⟨1, l, .int, .int⟩, ?_, h1⟩
          simp only [integrals_init, List.mem_append, or_assoc]
          right; right; right; left
          rw [if_pos hd]
          exact List.mem_map.2 ⟨l, hl, rfl⟩
        · simp at h
      · split_ifs at h with hd
        · obtain ⟨l, hl, h⟩ := List.mem_flatMap.1 h
          obtain ⟨j, hj, rfl⟩ := List.mem_map.1 h
          refine ⟨plainEntry n' { p with divergent := d } (den_len_entry_key l j), ?_, h1⟩
          simp only [integrals_init, List.mem_append, or_assoc]
          right; right; right; right
          rw [if_pos hd]
          exact List.mem_flatMap.2 ⟨l, hl, List.mem_map.2 ⟨j, hj, rfl⟩⟩
        · simp at h
    obtain ⟨e', he', hk'⟩ := hm'
    exact ⟨e', by rw [← hk']; exact find_of_mem he'⟩
  unfold tableInts
  cases h1 : coffe_find_integral (integrals_init num { par with divergent := d } ls) k with
  | some e =>
    obtain ⟨e', h2⟩ := hex num num' { par with divergent := d } par.divergent e h1
    have h2 : coffe_find_integral (integrals_init num' par ls) k = some e' := h2
    rw [h2]
    simp only
    rw [hv _ _ _ h1, hv _ _ _ h2, hn k hk]
  | none =>
    cases h2 : coffe_find_integral (integrals_init num' par ls) k with
    | none => rfl
    | some e =>
      obtain ⟨e', h3⟩ := hex num' num par d e h2
      rw [h3] at h1
      simp at h1

/-- Without potential terms, no look-up of the divergent integral is made (switch off). -/
theorem looks_not_I40 (par : Par) (h : par.correlation_contrib.divergent = false)
    (hd : par.divergent = false) (hm : par.midpoint_approximation = true)
    (out : OutputType) (l : ℕ) (u : Look) (hu : SignalLooks par out l u) :
    u.key ≠ ⟨4, 0, .int, .int⟩ := by
  have hc : par.Consistent := ⟨fun h' => by
    simp only [Contrib.divergent] at h
    rw [h] at h'; simp at h', hm⟩
  have av : Avail par u → u.key ≠ ⟨4, 0, .int, .int⟩ := by
    rintro (⟨hk, -⟩ | ⟨hd', -⟩ | ⟨-, hk, -⟩)
    · rintro e; rw [e] at hk; simp [baseKeys] at hk
    · rw [hd] at hd'; simp at hd'
    · rw [hk]; simp
  obtain ⟨-, ⟨-, v, hv⟩ | ⟨-, h⟩ | ⟨-, h⟩⟩ := hu
  · exact av (non_looks_avail par hc v u hv)
  · split_ifs at h with ho
    · rcases h with ⟨-, -, hf⟩ | ⟨-, v, hv⟩
      · simp only [flatsky_den_len_looks] at hf
        by_cases hl2 : l % 2 = 0
        · rw [if_pos hl2, List.mem_map] at hf
          obtain ⟨k, hk, rfl⟩ := hf
          simp [flatsky_den_len_key]
        · rw [if_neg hl2] at hf
          simp at hf
      · exact av (single_looks_avail par hc v u hv)
    · obtain ⟨v, hv⟩ := h
      exact av (single_looks_avail par hc v u hv)
  · split_ifs at h with ho
    · rcases h with ⟨-, hf⟩ | ⟨-, v, hv⟩
      · have : u.key = ⟨1, l, .int, .int⟩ := by
          simp only [flatsky_len_len_looks] at hf
          split_ifs at hf <;> simp only [List.mem_singleton] at hf <;> rw [hf]
        rw [this]; simp
      · exact av (double_looks_avail par hc v u hv)
    · obtain ⟨v, hv⟩ := h
      exact av (double_looks_avail par hc v u hv)

/-- Two tables built with different `divergent` switches give the same signal when no contribution needs
the divergent integral. -/
theorem signal_div_irrelevant (Q : Quad) (par : Par) (h : par.correlation_contrib.divergent = false)
    (hm : par.midpoint_approximation = true) (bg : Bg) (num num' : Key → Integral) (junk : Ints)
    (ls : List ℕ) (d : Bool) (hn : ∀ k, k ≠ ⟨4, 0, .int, .int⟩ → num k = num' k)
    (z zmin zmax sep mu : ℝ) (l : ℕ) (out : OutputType) :
    signal_value Q { par with divergent := d } bg
        (tableInts (integrals_init num { par with divergent := d } ls) junk) z zmin zmax sep mu l out =
      signal_value Q par bg (tableInts (integrals_init num' par ls) junk) z zmin zmax sep mu l out := by
  have key : ∀ (p : Par) (n n' : Key → Integral) (e : Bool), p.correlation_contrib.divergent = false →
      p.midpoint_approximation = true → p.divergent = false →
      (∀ k, k ≠ ⟨4, 0, .int, .int⟩ → n k = n' k) →
      signal_value Q { p with divergent := e } bg
        (tableInts (integrals_init n { p with divergent := e } ls) junk) z zmin zmax sep mu l out =
      signal_value Q p bg (tableInts (integrals_init n' p ls) junk) z zmin zmax sep mu l out := by
    intro p n n' e hp hpm hpd hnn
    rw [signal_value_div Q p hp]
    apply C20_value_uses_only_lookups
    intro u hu
    have hk := looks_not_I40 p hp hpd hpm out l u hu
    have := tableInts_div n n' p ls junk e u.key hk hnn
    cases hs : u.spl <;> simp only [SplAgree, hs, this]
  have h1 := key { par with divergent := false } num num' d h hm rfl hn
  have h2 := key { par with divergent := false } num' num' par.divergent h hm rfl (fun _ _ => rfl)
  exact h1.trans h2.symm

end Coffe
