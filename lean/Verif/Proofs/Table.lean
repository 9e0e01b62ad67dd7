import Verif.Proofs.Lookups

/-! # Helper lemmas: the integral table -/

namespace Coffe
open Classical

/-- What an entry of the table looks like, as a function of its key. -/
def entryOf (num : Key → Integral) (par : Par) (k : Key) : Entry :=
  if k = ⟨4, 0, .int, .int⟩ then
    ⟨k, [.result, .renormalization_zero_separation, .renormalization], num k⟩
  else plainEntry num par k

theorem mem_table {num : Key → Integral} {par : Par} {ls : List ℕ} {e : Entry}
    (h : e ∈ integrals_init num par ls) : e = entryOf num par e.key := by
  have plain : ∀ k : Key, k ≠ ⟨4, 0, .int, .int⟩ → e = plainEntry num par k →
      e = entryOf num par e.key := by
    intro k hk he
    have : e.key = k := by rw [he]; rfl
    rw [this, entryOf, if_neg hk]; exact he
  simp only [integrals_init, List.mem_append, List.mem_map, or_assoc] at h
  rcases h with ⟨k, hk, he⟩ | h | h | h | h
  · refine plain k ?_ he.symm
    rintro rfl
    simp [baseKeys] at hk
  · split_ifs at h
    · simp only [List.mem_singleton] at h
      subst h; simp [entryOf]
    · simp at h
  · split_ifs at h
    · simp only [List.mem_singleton] at h
      exact plain _ (by simp) h
    · simp at h
  · split_ifs at h
    · simp only [List.mem_map] at h
      obtain ⟨l, -, he⟩ := h
      exact plain _ (by simp) he.symm
    · simp at h
  · split_ifs at h
    · simp only [List.mem_flatMap, List.mem_map] at h
      obtain ⟨l, -, k, -, he⟩ := h
      exact plain _ (by simp [den_len_entry_key]) he.symm
    · simp at h

theorem find_of_mem {num : Key → Integral} {par : Par} {ls : List ℕ} {e : Entry}
    (h : e ∈ integrals_init num par ls) :
    coffe_find_integral (integrals_init num par ls) e.key = some e := by
  unfold coffe_find_integral
  have hs : ((integrals_init num par ls).find? (fun e' => decide (e'.key = e.key))).isSome := by
    rw [List.find?_isSome]
    exact ⟨e, h, by simp⟩
  obtain ⟨e', he'⟩ := Option.isSome_iff_exists.mp hs
  have hm := List.mem_of_find?_eq_some he'
  have hk : e'.key = e.key := by simpa using List.find?_some he'
  rw [he', mem_table hm, mem_table h, hk]

theorem lookOk_of_mem {num : Key → Integral} {par : Par} {ls : List ℕ} {e : Entry} {u : Look}
    (h : e ∈ integrals_init num par ls) (hk : e.key = u.key) (hs : u.spl ∈ e.splines) :
    LookOk (integrals_init num par ls) u :=
  ⟨e, by rw [← hk]; exact find_of_mem h, hs⟩

theorem avail_lookOk {num : Key → Integral} {par : Par} {ls : List ℕ} {u : Look}
    (h : Avail par u) : LookOk (integrals_init num par ls) u := by
  rcases h with ⟨hk, hs⟩ | ⟨hd, hk, hs⟩ | ⟨hf, hk, hs⟩
  · refine lookOk_of_mem (e := plainEntry num par u.key) ?_ rfl ?_
    · simp only [integrals_init, List.mem_append, List.mem_map, or_assoc]
      exact Or.inl ⟨_, hk, rfl⟩
    · rcases hs with hs | ⟨hs, h1, h2⟩ <;> simp only [plainEntry, hs]
      · split_ifs <;> simp
      · simp [h1, h2]
  · refine lookOk_of_mem (e := ⟨⟨4, 0, .int, .int⟩,
      [.result, .renormalization_zero_separation, .renormalization], num ⟨4, 0, .int, .int⟩⟩)
      ?_ hk.symm ?_
    · simp [integrals_init, hd]
    · cases hsp : u.spl <;> simp_all
  · refine lookOk_of_mem (e := plainEntry num par ⟨1, -1, .half, .half⟩) ?_ hk.symm ?_
    · have : (par.flatsky_local_nonlocal || par.flatsky_nonlocal) = true := by simpa using hf
      simp [integrals_init, this]
    · rcases hs with hs | ⟨hs, h1, h2⟩ <;> simp only [plainEntry, hs]
      · split_ifs <;> simp
      · simp [h1, h2]

theorem plain_spl {num : Key → Integral} {par : Par} {k : Key} (_ : par.midpoint_approximation = true)
    {s : Spl} (hs : s = if par.pk_type ≠ .COFFE_PK_LINEAR ∧ par.midpoint_approximation = true
      then .result2d else .result) : s ∈ (plainEntry num par k).splines := by
  subst hs
  simp only [plainEntry]
  split_ifs <;> simp

end Coffe
