import Verif.Proofs.FrameSignal
import Verif.Spec.Witness

/-!
# C20, C42: the integral table

`integrals_init num par ls` is the table the integral stage builds for the settings `par` and multipole
list `ls`; `num` stands for the (arbitrary) numerical content.  `SignalLooks par out l u` says that
evaluating a signal of kind `out` (multipole `l`) may look up the integral `u.key` and evaluate its
spline `u.spl`.  `LookOk t u` says that this does not dereference a null pointer.
-/

namespace Coffe
open Classical

/-- **C20.** For consistent settings, no lookup made while evaluating a signal of any kind fails, for any
contribution set, flat-sky flags, spectrum type and multipole list. -/
theorem C20_lookups_exist (num : Key → Integral) (par : Par) (ls : List ℕ) (out : OutputType) (l : ℕ)
    (hc : par.Consistent)
    (hm : out = .MULTIPOLES → par.output_type = .MULTIPOLES ∧ l ∈ ls)
    (u : Look) (hu : SignalLooks par out l u) : LookOk (integrals_init num par ls) u := by
  obtain ⟨-, ⟨-, v, hv⟩ | ⟨-, h⟩ | ⟨-, h⟩⟩ := hu
  · exact avail_lookOk (non_looks_avail par hc v u hv)
  · split_ifs at h with ho
    · obtain ⟨hout, hl⟩ := hm ho
      rcases h with ⟨hg, -, hf⟩ | ⟨-, v, hv⟩
      · have hflag : par.flatsky_local_nonlocal = true := by
          simp only [single_flat_gate, Bool.and_eq_true] at hg
          tauto
        simp only [flatsky_den_len_looks] at hf
        by_cases hl2 : l % 2 = 0
        · rw [if_pos hl2, List.mem_map] at hf
          obtain ⟨k, hk, rfl⟩ := hf
          refine lookOk_of_mem (e := plainEntry num par (den_len_entry_key l k)) ?_ rfl
            (plain_spl hc.midpoint rfl)
          simp only [integrals_init, List.mem_append]
          right
          simp only [hflag, hout, decide_true, Bool.and_self, if_true, List.mem_flatMap, List.mem_map]
          exact ⟨l, hl, k, hk, rfl⟩
        · rw [if_neg hl2] at hf
          simp at hf
      · exact avail_lookOk (single_looks_avail par hc v u hv)
    · obtain ⟨v, hv⟩ := h
      exact avail_lookOk (single_looks_avail par hc v u hv)
  · split_ifs at h with ho
    · obtain ⟨hout, hl⟩ := hm ho
      rcases h with ⟨hg, hf⟩ | ⟨-, v, hv⟩
      · have hflag : par.flatsky_nonlocal = true := by
          simp only [double_flat_gate, Bool.and_eq_true] at hg
          tauto
        have : u = ⟨⟨1, l, .int, .int⟩, if par.pk_type ≠ .COFFE_PK_LINEAR ∧
            par.midpoint_approximation = true then .result2d else .result⟩ := by
          simp only [flatsky_len_len_looks] at hf
          split_ifs at hf ⊢ <;> simpa using hf
        subst this
        refine lookOk_of_mem (e := plainEntry num par ⟨1, l, .int, .int⟩) ?_ rfl
          (plain_spl hc.midpoint rfl)
        simp only [integrals_init, List.mem_append]
        left; right
        simp only [hflag, hout, decide_true, Bool.and_self, if_true, List.mem_map]
        exact ⟨l, hl, rfl⟩
      · exact avail_lookOk (double_looks_avail par hc v u hv)
    · obtain ⟨v, hv⟩ := h
      exact avail_lookOk (double_looks_avail par hc v u hv)

/-- Non-vacuity of C20: settings with density, lensing and a potential term, flat-sky lensing, and
a multipole list that makes the table contain special entries. -/
noncomputable def c20Par : Par :=
  { wPar with
    correlation_contrib := { Contrib.none with den := true, len := true, g4 := true }
    flatsky_nonlocal := true
    flatsky_local_nonlocal := true
    divergent := true
    midpoint_approximation := true }

example : c20Par.Consistent := ⟨by simp [c20Par], rfl⟩

example : SignalLooks c20Par .MULTIPOLES 2 ⟨⟨1, 2, .int, .int⟩, .result⟩ := by
  refine ⟨by simp, Or.inr (Or.inr ⟨by simp [double_gate, c20Par, Contrib.none], ?_⟩)⟩
  rw [if_pos rfl]
  left
  simp [double_flat_gate, flatsky_len_len_looks, c20Par, wPar, Contrib.none]

/-- **C20.** The list of look-ups is complete: a signal value depends on the table only through the
splines in `SignalLooks`. -/
theorem C20_value_uses_only_lookups (Q : Quad) (par : Par) (bg : Bg) (I I' : Ints) (out : OutputType)
    (l : ℕ) (h : ∀ u, SignalLooks par out l u → SplAgree I I' u) (z zmin zmax sep mu : ℝ) :
    signal_value Q par bg I z zmin zmax sep mu l out =
      signal_value Q par bg I' z zmin zmax sep mu l out := by
  unfold signal_value
  rw [coffe_integrate_frame Q par bg I I' out l h, coffe_integrate_frame Q par bg I I' out l h,
    coffe_integrate_frame Q par bg I I' out l h]

/-- **C20.** A signal evaluated from the table that was built for the same settings is the signal evaluated
from the numerical integrals themselves, whatever a failed lookup would read. -/
theorem C20_signal_from_table (Q : Quad) (num : Key → Integral) (junk : Ints) (par : Par) (bg : Bg)
    (ls : List ℕ) (out : OutputType) (l : ℕ) (hc : par.Consistent)
    (hm : out = .MULTIPOLES → par.output_type = .MULTIPOLES ∧ l ∈ ls) (z zmin zmax sep mu : ℝ) :
    signal_value Q par bg (tableInts (integrals_init num par ls) junk) z zmin zmax sep mu l out =
      signal_value Q par bg num z zmin zmax sep mu l out := by
  apply C20_value_uses_only_lookups
  intro u hu
  obtain ⟨e, he, -⟩ := C20_lookups_exist num par ls out l hc hm u hu
  have hv : tableInts (integrals_init num par ls) junk u.key = num u.key := by
    have hk : e.key = u.key := by simpa using List.find?_some he
    have hmem := mem_table (List.mem_of_find?_eq_some he)
    simp only [tableInts, he]
    rw [hmem, ← hk]
    simp only [entryOf]
    split_ifs <;> rfl
  cases hs : u.spl <;> simp only [SplAgree, hs, hv]

theorem d2_looks_I40 (par : Par) (v : NonEnv) (h : par.correlation_contrib.d2 = true)
    (h' : par.only_cross_correlations = false) :
    (⟨⟨4, 0, .int, .int⟩, .result⟩ : Look) ∈ non_looks par v := by
  have : (⟨⟨4, 0, .int, .int⟩, .result⟩ : Look) ∈ non_d2_d2_looks par v := by
    simp [non_d2_d2_looks, h, h']
  unfold non_looks
  iterate 24 apply List.mem_append_left
  exact List.mem_append_right _ this

/-- Without the consistency condition a lookup can fail: with a table built while `divergent` is off,
the potential terms dereference a null pointer. -/
theorem C20_inconsistent_false (num : Key → Integral) (ls : List ℕ) :
    ∃ (par : Par) (u : Look), SignalLooks par .MULTIPOLES 0 u ∧
      ¬ LookOk (integrals_init num par ls) u := by
  refine ⟨{ wPar with correlation_contrib := { Contrib.none with d2 := true } },
    ⟨⟨4, 0, .int, .int⟩, .result⟩, ?_, ?_⟩
  · refine ⟨by simp, Or.inl ⟨by simp [non_gate, Contrib.none], ?_⟩⟩
    exact ⟨NonEnv.of wPar wBg 1 0 1, d2_looks_I40 _ _ rfl rfl⟩
  · rintro ⟨e, he, -⟩
    have hm := List.mem_of_find?_eq_some he
    have hk : e.key = ⟨4, 0, .int, .int⟩ := by simpa using List.find?_some he
    simp only [integrals_init, List.mem_append, List.mem_map, wPar] at hm
    simp [baseKeys, plainEntry] at hm
    rcases hm with h | h | h | h | h | h | h | h <;> rw [← h] at hk <;> simp at hk

/-- **C42.** A lookup finds an entry exactly when the table holds it, and then it is the only entry with
those orders: its content is the one computed for exactly those orders. -/
theorem C42_lookup_unambiguous (num : Key → Integral) (par : Par) (ls : List ℕ) (k : Key) (e : Entry) :
    coffe_find_integral (integrals_init num par ls) k = some e ↔
      e ∈ integrals_init num par ls ∧ e.key = k := by
  constructor
  · intro h
    exact ⟨List.mem_of_find?_eq_some h, by simpa using List.find?_some h⟩
  · rintro ⟨h, rfl⟩
    exact find_of_mem h

/-- **C42.** Two entries with the same orders are the same entry (also when the multipole list repeats
the orders of the standard entries). -/
theorem C42_no_conflicting_entries (num : Key → Integral) (par : Par) (ls : List ℕ) (e e' : Entry)
    (h : e ∈ integrals_init num par ls) (h' : e' ∈ integrals_init num par ls) (hk : e.key = e'.key) :
    e = e' ∧ e.val = num e.key := by
  have h1 := mem_table h
  refine ⟨by rw [h1, mem_table h', hk], ?_⟩
  rw [h1]
  simp only [entryOf]
  split_ifs <;> rfl

/-- Non-vacuity of C42: with `l = 1` requested, the key (1,1) is in the table twice. -/
example (num : Key → Integral) :
    (integrals_init num c20Par [1]).countP (fun e => decide (e.key = ⟨1, 1, .int, .int⟩)) = 2 := by
  simp [integrals_init, c20Par, wPar, baseKeys, plainEntry, den_len_entry_key, List.countP_cons]

end Coffe
