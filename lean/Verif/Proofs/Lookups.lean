import Verif.Model.Integrals
import Verif.Spec.Lookups
import Mathlib.Tactic.Tauto

/-! # Helper lemmas: which integrals a term may use -/

namespace Coffe
open Classical
set_option linter.unusedSimpArgs false
set_option linter.unusedVariables false
set_option linter.unusedTactic false
set_option linter.unnecessarySeqFocus false
set_option linter.unreachableTactic false

/-- Superset of the integrals that are available for given settings, independent of the order in
which they were created. -/
def Avail (par : Par) (u : Look) : Prop :=
  (u.key ∈ baseKeys ∧ (u.spl = .result ∨ (u.spl = .result2d ∧ par.pk_type ≠ .COFFE_PK_LINEAR
      ∧ par.midpoint_approximation = true)))
  ∨ (par.divergent = true ∧ u.key = ⟨4, 0, .int, .int⟩ ∧ u.spl ≠ .result2d)
  ∨ ((par.flatsky_local_nonlocal = true ∨ par.flatsky_nonlocal = true)
      ∧ u.key = ⟨1, -1, .half, .half⟩ ∧ (u.spl = .result ∨ (u.spl = .result2d ∧
        par.pk_type ≠ .COFFE_PK_LINEAR ∧ par.midpoint_approximation = true)))

/-- Split all guards, then all members of the list, then decide. -/
macro "look_cases " h:ident : tactic => `(tactic|
  (split_ifs at $h:ident <;>
    (try simp only [List.mem_cons, List.mem_append, List.not_mem_nil, or_false] at $h:ident) <;>
    (repeat' (refine Or.elim $h ?_ ?_ <;> clear $h <;> intro $h:ident)) <;>
    (try subst $h) <;> simp_all [Avail, baseKeys]))

theorem non_den_den_looks_avail (par : Par) (hc : par.Consistent) (v : NonEnv) :
    ∀ u ∈ non_den_den_looks par v, Avail par u := by
  have hm := hc.midpoint
  have hd := hc.divergent
  simp only [Bool.or_eq_true] at hd
  unfold non_den_den_looks
  intro u hu
  look_cases hu

theorem non_rsd_rsd_looks_avail (par : Par) (hc : par.Consistent) (v : NonEnv) :
    ∀ u ∈ non_rsd_rsd_looks par v, Avail par u := by
  have hm := hc.midpoint
  have hd := hc.divergent
  simp only [Bool.or_eq_true] at hd
  unfold non_rsd_rsd_looks
  intro u hu
  look_cases hu

theorem non_d1_d1_looks_avail (par : Par) (hc : par.Consistent) (v : NonEnv) :
    ∀ u ∈ non_d1_d1_looks par v, Avail par u := by
  have hm := hc.midpoint
  have hd := hc.divergent
  simp only [Bool.or_eq_true] at hd
  unfold non_d1_d1_looks
  intro u hu
  look_cases hu

theorem non_d2_d2_looks_avail (par : Par) (hc : par.Consistent) (v : NonEnv) :
    ∀ u ∈ non_d2_d2_looks par v, Avail par u := by
  have hm := hc.midpoint
  have hd := hc.divergent
  simp only [Bool.or_eq_true] at hd
  unfold non_d2_d2_looks
  intro u hu
  look_cases hu

theorem non_g1_g1_looks_avail (par : Par) (hc : par.Consistent) (v : NonEnv) :
    ∀ u ∈ non_g1_g1_looks par v, Avail par u := by
  have hm := hc.midpoint
  have hd := hc.divergent
  simp only [Bool.or_eq_true] at hd
  unfold non_g1_g1_looks
  intro u hu
  look_cases hu

theorem non_g2_g2_looks_avail (par : Par) (hc : par.Consistent) (v : NonEnv) :
    ∀ u ∈ non_g2_g2_looks par v, Avail par u := by
  have hm := hc.midpoint
  have hd := hc.divergent
  simp only [Bool.or_eq_true] at hd
  unfold non_g2_g2_looks
  intro u hu
  look_cases hu

theorem non_g3_g3_looks_avail (par : Par) (hc : par.Consistent) (v : NonEnv) :
    ∀ u ∈ non_g3_g3_looks par v, Avail par u := by
  have hm := hc.midpoint
  have hd := hc.divergent
  simp only [Bool.or_eq_true] at hd
  unfold non_g3_g3_looks
  intro u hu
  look_cases hu

theorem non_den_rsd_looks_avail (par : Par) (hc : par.Consistent) (v : NonEnv) :
    ∀ u ∈ non_den_rsd_looks par v, Avail par u := by
  have hm := hc.midpoint
  have hd := hc.divergent
  simp only [Bool.or_eq_true] at hd
  unfold non_den_rsd_looks
  intro u hu
  look_cases hu

theorem non_den_d1_looks_avail (par : Par) (hc : par.Consistent) (v : NonEnv) :
    ∀ u ∈ non_den_d1_looks par v, Avail par u := by
  have hm := hc.midpoint
  have hd := hc.divergent
  simp only [Bool.or_eq_true] at hd
  unfold non_den_d1_looks
  intro u hu
  look_cases hu

theorem non_den_d2_looks_avail (par : Par) (hc : par.Consistent) (v : NonEnv) :
    ∀ u ∈ non_den_d2_looks par v, Avail par u := by
  have hm := hc.midpoint
  have hd := hc.divergent
  simp only [Bool.or_eq_true] at hd
  unfold non_den_d2_looks
  intro u hu
  look_cases hu

theorem non_den_g1_looks_avail (par : Par) (hc : par.Consistent) (v : NonEnv) :
    ∀ u ∈ non_den_g1_looks par v, Avail par u := by
  have hm := hc.midpoint
  have hd := hc.divergent
  simp only [Bool.or_eq_true] at hd
  unfold non_den_g1_looks
  intro u hu
  look_cases hu

theorem non_den_g2_looks_avail (par : Par) (hc : par.Consistent) (v : NonEnv) :
    ∀ u ∈ non_den_g2_looks par v, Avail par u := by
  have hm := hc.midpoint
  have hd := hc.divergent
  simp only [Bool.or_eq_true] at hd
  unfold non_den_g2_looks
  intro u hu
  look_cases hu

theorem non_den_g3_looks_avail (par : Par) (hc : par.Consistent) (v : NonEnv) :
    ∀ u ∈ non_den_g3_looks par v, Avail par u := by
  have hm := hc.midpoint
  have hd := hc.divergent
  simp only [Bool.or_eq_true] at hd
  unfold non_den_g3_looks
  intro u hu
  look_cases hu

theorem non_rsd_d1_looks_avail (par : Par) (hc : par.Consistent) (v : NonEnv) :
    ∀ u ∈ non_rsd_d1_looks par v, Avail par u := by
  have hm := hc.midpoint
  have hd := hc.divergent
  simp only [Bool.or_eq_true] at hd
  unfold non_rsd_d1_looks
  intro u hu
  look_cases hu

theorem non_rsd_d2_looks_avail (par : Par) (hc : par.Consistent) (v : NonEnv) :
    ∀ u ∈ non_rsd_d2_looks par v, Avail par u := by
  have hm := hc.midpoint
  have hd := hc.divergent
  simp only [Bool.or_eq_true] at hd
  unfold non_rsd_d2_looks
  intro u hu
  look_cases hu

theorem non_rsd_g1_looks_avail (par : Par) (hc : par.Consistent) (v : NonEnv) :
    ∀ u ∈ non_rsd_g1_looks par v, Avail par u := by
  have hm := hc.midpoint
  have hd := hc.divergent
  simp only [Bool.or_eq_true] at hd
  unfold non_rsd_g1_looks
  intro u hu
  look_cases hu

theorem non_rsd_g2_looks_avail (par : Par) (hc : par.Consistent) (v : NonEnv) :
    ∀ u ∈ non_rsd_g2_looks par v, Avail par u := by
  have hm := hc.midpoint
  have hd := hc.divergent
  simp only [Bool.or_eq_true] at hd
  unfold non_rsd_g2_looks
  intro u hu
  look_cases hu

theorem non_rsd_g3_looks_avail (par : Par) (hc : par.Consistent) (v : NonEnv) :
    ∀ u ∈ non_rsd_g3_looks par v, Avail par u := by
  have hm := hc.midpoint
  have hd := hc.divergent
  simp only [Bool.or_eq_true] at hd
  unfold non_rsd_g3_looks
  intro u hu
  look_cases hu

theorem non_d1_d2_looks_avail (par : Par) (hc : par.Consistent) (v : NonEnv) :
    ∀ u ∈ non_d1_d2_looks par v, Avail par u := by
  have hm := hc.midpoint
  have hd := hc.divergent
  simp only [Bool.or_eq_true] at hd
  unfold non_d1_d2_looks
  intro u hu
  look_cases hu

theorem non_d1_g1_looks_avail (par : Par) (hc : par.Consistent) (v : NonEnv) :
    ∀ u ∈ non_d1_g1_looks par v, Avail par u := by
  have hm := hc.midpoint
  have hd := hc.divergent
  simp only [Bool.or_eq_true] at hd
  unfold non_d1_g1_looks
  intro u hu
  look_cases hu

theorem non_d1_g2_looks_avail (par : Par) (hc : par.Consistent) (v : NonEnv) :
    ∀ u ∈ non_d1_g2_looks par v, Avail par u := by
  have hm := hc.midpoint
  have hd := hc.divergent
  simp only [Bool.or_eq_true] at hd
  unfold non_d1_g2_looks
  intro u hu
  look_cases hu

theorem non_d1_g3_looks_avail (par : Par) (hc : par.Consistent) (v : NonEnv) :
    ∀ u ∈ non_d1_g3_looks par v, Avail par u := by
  have hm := hc.midpoint
  have hd := hc.divergent
  simp only [Bool.or_eq_true] at hd
  unfold non_d1_g3_looks
  intro u hu
  look_cases hu

theorem non_d2_g1_looks_avail (par : Par) (hc : par.Consistent) (v : NonEnv) :
    ∀ u ∈ non_d2_g1_looks par v, Avail par u := by
  have hm := hc.midpoint
  have hd := hc.divergent
  simp only [Bool.or_eq_true] at hd
  unfold non_d2_g1_looks
  intro u hu
  look_cases hu

theorem non_d2_g2_looks_avail (par : Par) (hc : par.Consistent) (v : NonEnv) :
    ∀ u ∈ non_d2_g2_looks par v, Avail par u := by
  have hm := hc.midpoint
  have hd := hc.divergent
  simp only [Bool.or_eq_true] at hd
  unfold non_d2_g2_looks
  intro u hu
  look_cases hu

theorem non_d2_g3_looks_avail (par : Par) (hc : par.Consistent) (v : NonEnv) :
    ∀ u ∈ non_d2_g3_looks par v, Avail par u := by
  have hm := hc.midpoint
  have hd := hc.divergent
  simp only [Bool.or_eq_true] at hd
  unfold non_d2_g3_looks
  intro u hu
  look_cases hu

theorem non_g1_g2_looks_avail (par : Par) (hc : par.Consistent) (v : NonEnv) :
    ∀ u ∈ non_g1_g2_looks par v, Avail par u := by
  have hm := hc.midpoint
  have hd := hc.divergent
  simp only [Bool.or_eq_true] at hd
  unfold non_g1_g2_looks
  intro u hu
  look_cases hu

theorem non_g1_g3_looks_avail (par : Par) (hc : par.Consistent) (v : NonEnv) :
    ∀ u ∈ non_g1_g3_looks par v, Avail par u := by
  have hm := hc.midpoint
  have hd := hc.divergent
  simp only [Bool.or_eq_true] at hd
  unfold non_g1_g3_looks
  intro u hu
  look_cases hu

theorem non_g2_g3_looks_avail (par : Par) (hc : par.Consistent) (v : NonEnv) :
    ∀ u ∈ non_g2_g3_looks par v, Avail par u := by
  have hm := hc.midpoint
  have hd := hc.divergent
  simp only [Bool.or_eq_true] at hd
  unfold non_g2_g3_looks
  intro u hu
  look_cases hu

theorem non_looks_avail (par : Par) (hc : par.Consistent) (v : NonEnv) :
    ∀ u ∈ non_looks par v, Avail par u := by
  intro u hu
  unfold non_looks at hu
  simp only [List.mem_append, or_assoc] at hu
  rcases hu with h | h | h | h | h | h | h | h | h | h | h | h | h | h | h | h | h | h | h | h | h | h | h | h | h | h | h | h
  · exact non_den_den_looks_avail par hc v u h
  · exact non_rsd_rsd_looks_avail par hc v u h
  · exact non_d1_d1_looks_avail par hc v u h
  · exact non_d2_d2_looks_avail par hc v u h
  · exact non_g1_g1_looks_avail par hc v u h
  · exact non_g2_g2_looks_avail par hc v u h
  · exact non_g3_g3_looks_avail par hc v u h
  · exact non_den_rsd_looks_avail par hc v u h
  · exact non_den_d1_looks_avail par hc v u h
  · exact non_den_d2_looks_avail par hc v u h
  · exact non_den_g1_looks_avail par hc v u h
  · exact non_den_g2_looks_avail par hc v u h
  · exact non_den_g3_looks_avail par hc v u h
  · exact non_rsd_d1_looks_avail par hc v u h
  · exact non_rsd_d2_looks_avail par hc v u h
  · exact non_rsd_g1_looks_avail par hc v u h
  · exact non_rsd_g2_looks_avail par hc v u h
  · exact non_rsd_g3_looks_avail par hc v u h
  · exact non_d1_d2_looks_avail par hc v u h
  · exact non_d1_g1_looks_avail par hc v u h
  · exact non_d1_g2_looks_avail par hc v u h
  · exact non_d1_g3_looks_avail par hc v u h
  · exact non_d2_g1_looks_avail par hc v u h
  · exact non_d2_g2_looks_avail par hc v u h
  · exact non_d2_g3_looks_avail par hc v u h
  · exact non_g1_g2_looks_avail par hc v u h
  · exact non_g1_g3_looks_avail par hc v u h
  · exact non_g2_g3_looks_avail par hc v u h

theorem single_den_len_looks_avail (par : Par) (hc : par.Consistent) (v : SingleEnv) :
    ∀ u ∈ single_den_len_looks par v, Avail par u := by
  have hm := hc.midpoint
  have hd := hc.divergent
  simp only [Bool.or_eq_true] at hd
  unfold single_den_len_looks
  intro u hu
  look_cases hu

theorem single_rsd_len_looks_avail (par : Par) (hc : par.Consistent) (v : SingleEnv) :
    ∀ u ∈ single_rsd_len_looks par v, Avail par u := by
  have hm := hc.midpoint
  have hd := hc.divergent
  simp only [Bool.or_eq_true] at hd
  unfold single_rsd_len_looks
  intro u hu
  look_cases hu

theorem single_d1_len_looks_avail (par : Par) (hc : par.Consistent) (v : SingleEnv) :
    ∀ u ∈ single_d1_len_looks par v, Avail par u := by
  have hm := hc.midpoint
  have hd := hc.divergent
  simp only [Bool.or_eq_true] at hd
  unfold single_d1_len_looks
  intro u hu
  look_cases hu

theorem single_d2_len_looks_avail (par : Par) (hc : par.Consistent) (v : SingleEnv) :
    ∀ u ∈ single_d2_len_looks par v, Avail par u := by
  have hm := hc.midpoint
  have hd := hc.divergent
  simp only [Bool.or_eq_true] at hd
  unfold single_d2_len_looks
  intro u hu
  look_cases hu

theorem single_g1_len_looks_avail (par : Par) (hc : par.Consistent) (v : SingleEnv) :
    ∀ u ∈ single_g1_len_looks par v, Avail par u := by
  have hm := hc.midpoint
  have hd := hc.divergent
  simp only [Bool.or_eq_true] at hd
  unfold single_g1_len_looks
  intro u hu
  look_cases hu

theorem single_g2_len_looks_avail (par : Par) (hc : par.Consistent) (v : SingleEnv) :
    ∀ u ∈ single_g2_len_looks par v, Avail par u := by
  have hm := hc.midpoint
  have hd := hc.divergent
  simp only [Bool.or_eq_true] at hd
  unfold single_g2_len_looks
  intro u hu
  look_cases hu

theorem single_g3_len_looks_avail (par : Par) (hc : par.Consistent) (v : SingleEnv) :
    ∀ u ∈ single_g3_len_looks par v, Avail par u := by
  have hm := hc.midpoint
  have hd := hc.divergent
  simp only [Bool.or_eq_true] at hd
  unfold single_g3_len_looks
  intro u hu
  look_cases hu

theorem single_den_g4_looks_avail (par : Par) (hc : par.Consistent) (v : SingleEnv) :
    ∀ u ∈ single_den_g4_looks par v, Avail par u := by
  have hm := hc.midpoint
  have hd := hc.divergent
  simp only [Bool.or_eq_true] at hd
  unfold single_den_g4_looks
  intro u hu
  look_cases hu

theorem single_den_g5_looks_avail (par : Par) (hc : par.Consistent) (v : SingleEnv) :
    ∀ u ∈ single_den_g5_looks par v, Avail par u := by
  have hm := hc.midpoint
  have hd := hc.divergent
  simp only [Bool.or_eq_true] at hd
  unfold single_den_g5_looks
  intro u hu
  look_cases hu

theorem single_rsd_g4_looks_avail (par : Par) (hc : par.Consistent) (v : SingleEnv) :
    ∀ u ∈ single_rsd_g4_looks par v, Avail par u := by
  have hm := hc.midpoint
  have hd := hc.divergent
  simp only [Bool.or_eq_true] at hd
  unfold single_rsd_g4_looks
  intro u hu
  look_cases hu

theorem single_rsd_g5_looks_avail (par : Par) (hc : par.Consistent) (v : SingleEnv) :
    ∀ u ∈ single_rsd_g5_looks par v, Avail par u := by
  have hm := hc.midpoint
  have hd := hc.divergent
  simp only [Bool.or_eq_true] at hd
  unfold single_rsd_g5_looks
  intro u hu
  look_cases hu

theorem single_d1_g4_looks_avail (par : Par) (hc : par.Consistent) (v : SingleEnv) :
    ∀ u ∈ single_d1_g4_looks par v, Avail par u := by
  have hm := hc.midpoint
  have hd := hc.divergent
  simp only [Bool.or_eq_true] at hd
  unfold single_d1_g4_looks
  intro u hu
  look_cases hu

theorem single_d1_g5_looks_avail (par : Par) (hc : par.Consistent) (v : SingleEnv) :
    ∀ u ∈ single_d1_g5_looks par v, Avail par u := by
  have hm := hc.midpoint
  have hd := hc.divergent
  simp only [Bool.or_eq_true] at hd
  unfold single_d1_g5_looks
  intro u hu
  look_cases hu

theorem single_d2_g4_looks_avail (par : Par) (_hc : par.Consistent) (v : SingleEnv) :
    ∀ u ∈ single_d2_g4_looks par v, Avail par u := by
  unfold single_d2_g4_looks
  intro u hu
  exact absurd hu List.not_mem_nil

theorem single_d2_g5_looks_avail (par : Par) (_hc : par.Consistent) (v : SingleEnv) :
    ∀ u ∈ single_d2_g5_looks par v, Avail par u := by
  unfold single_d2_g5_looks
  intro u hu
  exact absurd hu List.not_mem_nil

theorem single_g1_g4_looks_avail (par : Par) (_hc : par.Consistent) (v : SingleEnv) :
    ∀ u ∈ single_g1_g4_looks par v, Avail par u := by
  unfold single_g1_g4_looks
  intro u hu
  exact absurd hu List.not_mem_nil

theorem single_g1_g5_looks_avail (par : Par) (_hc : par.Consistent) (v : SingleEnv) :
    ∀ u ∈ single_g1_g5_looks par v, Avail par u := by
  unfold single_g1_g5_looks
  intro u hu
  exact absurd hu List.not_mem_nil

theorem single_g2_g4_looks_avail (par : Par) (_hc : par.Consistent) (v : SingleEnv) :
    ∀ u ∈ single_g2_g4_looks par v, Avail par u := by
  unfold single_g2_g4_looks
  intro u hu
  exact absurd hu List.not_mem_nil

theorem single_g2_g5_looks_avail (par : Par) (_hc : par.Consistent) (v : SingleEnv) :
    ∀ u ∈ single_g2_g5_looks par v, Avail par u := by
  unfold single_g2_g5_looks
  intro u hu
  exact absurd hu List.not_mem_nil

theorem single_g3_g4_looks_avail (par : Par) (_hc : par.Consistent) (v : SingleEnv) :
    ∀ u ∈ single_g3_g4_looks par v, Avail par u := by
  unfold single_g3_g4_looks
  intro u hu
  exact absurd hu List.not_mem_nil

theorem single_g3_g5_looks_avail (par : Par) (_hc : par.Consistent) (v : SingleEnv) :
    ∀ u ∈ single_g3_g5_looks par v, Avail par u := by
  unfold single_g3_g5_looks
  intro u hu
  exact absurd hu List.not_mem_nil

theorem single_ren_looks_avail (par : Par) : ∀ u ∈ single_ren_looks par, Avail par u := by
  unfold single_ren_looks
  intro u hu
  split_ifs at hu <;> simp only [List.mem_cons, List.not_mem_nil, or_false] at hu
  rcases hu with rfl | rfl | rfl <;> simp_all [Avail, baseKeys]

theorem single_looks_avail (par : Par) (hc : par.Consistent) (v : SingleEnv) :
    ∀ u ∈ single_looks par v, Avail par u := by
  intro u hu
  unfold single_looks at hu
  simp only [List.mem_append, or_assoc] at hu
  rcases hu with h | h | h | h | h | h | h | h | h | h | h | h | h | h | h | h | h | h | h | h | h | h
  · exact single_ren_looks_avail par u h
  · exact single_den_len_looks_avail par hc v u h
  · exact single_rsd_len_looks_avail par hc v u h
  · exact single_d1_len_looks_avail par hc v u h
  · exact single_d2_len_looks_avail par hc v u h
  · exact single_g1_len_looks_avail par hc v u h
  · exact single_g2_len_looks_avail par hc v u h
  · exact single_g3_len_looks_avail par hc v u h
  · exact single_den_g4_looks_avail par hc v u h
  · exact single_den_g5_looks_avail par hc v u h
  · exact single_rsd_g4_looks_avail par hc v u h
  · exact single_rsd_g5_looks_avail par hc v u h
  · exact single_d1_g4_looks_avail par hc v u h
  · exact single_d1_g5_looks_avail par hc v u h
  · exact single_d2_g4_looks_avail par hc v u h
  · exact single_d2_g5_looks_avail par hc v u h
  · exact single_g1_g4_looks_avail par hc v u h
  · exact single_g1_g5_looks_avail par hc v u h
  · exact single_g2_g4_looks_avail par hc v u h
  · exact single_g2_g5_looks_avail par hc v u h
  · exact single_g3_g4_looks_avail par hc v u h
  · exact single_g3_g5_looks_avail par hc v u h

theorem double_len_len_looks_avail (par : Par) (hc : par.Consistent) (v : DoubleEnv) :
    ∀ u ∈ double_len_len_looks par v, Avail par u := by
  have hm := hc.midpoint
  have hd := hc.divergent
  simp only [Bool.or_eq_true] at hd
  unfold double_len_len_looks
  intro u hu
  look_cases hu

theorem double_g4_g4_looks_avail (par : Par) (_hc : par.Consistent) (v : DoubleEnv) :
    ∀ u ∈ double_g4_g4_looks par v, Avail par u := by
  unfold double_g4_g4_looks
  intro u hu
  exact absurd hu List.not_mem_nil

theorem double_g5_g5_looks_avail (par : Par) (_hc : par.Consistent) (v : DoubleEnv) :
    ∀ u ∈ double_g5_g5_looks par v, Avail par u := by
  unfold double_g5_g5_looks
  intro u hu
  exact absurd hu List.not_mem_nil

theorem double_g4_len_looks_avail (par : Par) (hc : par.Consistent) (v : DoubleEnv) :
    ∀ u ∈ double_g4_len_looks par v, Avail par u := by
  have hm := hc.midpoint
  have hd := hc.divergent
  simp only [Bool.or_eq_true] at hd
  unfold double_g4_len_looks
  intro u hu
  look_cases hu

theorem double_g5_len_looks_avail (par : Par) (hc : par.Consistent) (v : DoubleEnv) :
    ∀ u ∈ double_g5_len_looks par v, Avail par u := by
  have hm := hc.midpoint
  have hd := hc.divergent
  simp only [Bool.or_eq_true] at hd
  unfold double_g5_len_looks
  intro u hu
  look_cases hu

theorem double_g4_g5_looks_avail (par : Par) (_hc : par.Consistent) (v : DoubleEnv) :
    ∀ u ∈ double_g4_g5_looks par v, Avail par u := by
  unfold double_g4_g5_looks
  intro u hu
  exact absurd hu List.not_mem_nil

theorem double_ren_looks_avail (par : Par) : ∀ u ∈ double_ren_looks par, Avail par u := by
  unfold double_ren_looks
  intro u hu
  split_ifs at hu <;> simp only [List.mem_cons, List.not_mem_nil, or_false] at hu
  rcases hu with rfl | rfl | rfl <;> simp_all [Avail, baseKeys]

theorem double_looks_avail (par : Par) (hc : par.Consistent) (v : DoubleEnv) :
    ∀ u ∈ double_looks par v, Avail par u := by
  intro u hu
  unfold double_looks at hu
  simp only [List.mem_append, or_assoc] at hu
  rcases hu with h | h | h | h | h | h | h
  · exact double_ren_looks_avail par u h
  · exact double_len_len_looks_avail par hc v u h
  · exact double_g4_g4_looks_avail par hc v u h
  · exact double_g5_g5_looks_avail par hc v u h
  · exact double_g4_len_looks_avail par hc v u h
  · exact double_g5_len_looks_avail par hc v u h
  · exact double_g4_g5_looks_avail par hc v u h

end Coffe
