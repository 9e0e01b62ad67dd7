import Verif.Proofs.Lookups

/-! # Helper lemmas: a term depends on the integral table only through the integrals it looks up -/

namespace Coffe
open Classical
set_option linter.unusedSimpArgs false
set_option linter.unusedVariables false
set_option linter.unusedTactic false
set_option linter.unnecessarySeqFocus false
set_option linter.unreachableTactic false

theorem forall_mem_nil' (P : Look → Prop) : (∀ u ∈ ([] : List Look), P u) ↔ True := by simp

/-- Split the guards of the term and of its list of look-ups one by one, then rewrite with the
agreements. -/
macro "frame_cases " h:ident : tactic => `(tactic|
  (repeat' (first
    | rfl
    | (refine ite_congr rfl (fun hc => ?_) (fun hc => ?_) <;>
        (first
          | simp only [if_pos hc] at $h:ident
          | simp only [if_neg hc] at $h:ident
          | skip)))) <;>
    (simp only [List.forall_mem_cons, List.forall_mem_append, forall_mem_nil', and_true, SplAgree] at $h:ident
     simp only [Ints.I00, Ints.I02, Ints.I04, Ints.I11, Ints.I13, Ints.I20, Ints.I22, Ints.I31,
         Ints.I40, Ints.Ihalf, $h:ident]))

theorem non_den_den_frame (par : Par) (bg : Bg) (v : NonEnv) (I I' : Ints)
    (h : ∀ u ∈ non_den_den_looks par v, SplAgree I I' u) :
    non_den_den par bg I v = non_den_den par bg I' v := by
  unfold non_den_den
  unfold non_den_den_looks at h
  frame_cases h

theorem non_rsd_rsd_frame (par : Par) (bg : Bg) (v : NonEnv) (I I' : Ints)
    (h : ∀ u ∈ non_rsd_rsd_looks par v, SplAgree I I' u) :
    non_rsd_rsd par bg I v = non_rsd_rsd par bg I' v := by
  unfold non_rsd_rsd
  unfold non_rsd_rsd_looks at h
  frame_cases h

theorem non_d1_d1_frame (par : Par) (bg : Bg) (v : NonEnv) (I I' : Ints)
    (h : ∀ u ∈ non_d1_d1_looks par v, SplAgree I I' u) :
    non_d1_d1 par bg I v = non_d1_d1 par bg I' v := by
  unfold non_d1_d1
  unfold non_d1_d1_looks at h
  frame_cases h

theorem non_d2_d2_frame (par : Par) (bg : Bg) (v : NonEnv) (I I' : Ints)
    (h : ∀ u ∈ non_d2_d2_looks par v, SplAgree I I' u) :
    non_d2_d2 par bg I v = non_d2_d2 par bg I' v := by
  unfold non_d2_d2
  unfold non_d2_d2_looks at h
  frame_cases h

theorem non_g1_g1_frame (par : Par) (bg : Bg) (v : NonEnv) (I I' : Ints)
    (h : ∀ u ∈ non_g1_g1_looks par v, SplAgree I I' u) :
    non_g1_g1 par bg I v = non_g1_g1 par bg I' v := by
  unfold non_g1_g1
  unfold non_g1_g1_looks at h
  frame_cases h

theorem non_g2_g2_frame (par : Par) (bg : Bg) (v : NonEnv) (I I' : Ints)
    (h : ∀ u ∈ non_g2_g2_looks par v, SplAgree I I' u) :
    non_g2_g2 par bg I v = non_g2_g2 par bg I' v := by
  unfold non_g2_g2
  unfold non_g2_g2_looks at h
  frame_cases h

theorem non_g3_g3_frame (par : Par) (bg : Bg) (v : NonEnv) (I I' : Ints)
    (h : ∀ u ∈ non_g3_g3_looks par v, SplAgree I I' u) :
    non_g3_g3 par bg I v = non_g3_g3 par bg I' v := by
  unfold non_g3_g3
  unfold non_g3_g3_looks at h
  frame_cases h

theorem non_den_rsd_frame (par : Par) (bg : Bg) (v : NonEnv) (I I' : Ints)
    (h : ∀ u ∈ non_den_rsd_looks par v, SplAgree I I' u) :
    non_den_rsd par bg I v = non_den_rsd par bg I' v := by
  unfold non_den_rsd
  unfold non_den_rsd_looks at h
  frame_cases h

theorem non_den_d1_frame (par : Par) (bg : Bg) (v : NonEnv) (I I' : Ints)
    (h : ∀ u ∈ non_den_d1_looks par v, SplAgree I I' u) :
    non_den_d1 par bg I v = non_den_d1 par bg I' v := by
  unfold non_den_d1
  unfold non_den_d1_looks at h
  frame_cases h

theorem non_den_d2_frame (par : Par) (bg : Bg) (v : NonEnv) (I I' : Ints)
    (h : ∀ u ∈ non_den_d2_looks par v, SplAgree I I' u) :
    non_den_d2 par bg I v = non_den_d2 par bg I' v := by
  unfold non_den_d2
  unfold non_den_d2_looks at h
  frame_cases h

theorem non_den_g1_frame (par : Par) (bg : Bg) (v : NonEnv) (I I' : Ints)
    (h : ∀ u ∈ non_den_g1_looks par v, SplAgree I I' u) :
    non_den_g1 par bg I v = non_den_g1 par bg I' v := by
  unfold non_den_g1
  unfold non_den_g1_looks at h
  frame_cases h

theorem non_den_g2_frame (par : Par) (bg : Bg) (v : NonEnv) (I I' : Ints)
    (h : ∀ u ∈ non_den_g2_looks par v, SplAgree I I' u) :
    non_den_g2 par bg I v = non_den_g2 par bg I' v := by
  unfold non_den_g2
  unfold non_den_g2_looks at h
  frame_cases h

theorem non_den_g3_frame (par : Par) (bg : Bg) (v : NonEnv) (I I' : Ints)
    (h : ∀ u ∈ non_den_g3_looks par v, SplAgree I I' u) :
    non_den_g3 par bg I v = non_den_g3 par bg I' v := by
  unfold non_den_g3
  unfold non_den_g3_looks at h
  frame_cases h

theorem non_rsd_d1_frame (par : Par) (bg : Bg) (v : NonEnv) (I I' : Ints)
    (h : ∀ u ∈ non_rsd_d1_looks par v, SplAgree I I' u) :
    non_rsd_d1 par bg I v = non_rsd_d1 par bg I' v := by
  unfold non_rsd_d1
  unfold non_rsd_d1_looks at h
  frame_cases h

theorem non_rsd_d2_frame (par : Par) (bg : Bg) (v : NonEnv) (I I' : Ints)
    (h : ∀ u ∈ non_rsd_d2_looks par v, SplAgree I I' u) :
    non_rsd_d2 par bg I v = non_rsd_d2 par bg I' v := by
  unfold non_rsd_d2
  unfold non_rsd_d2_looks at h
  frame_cases h

theorem non_rsd_g1_frame (par : Par) (bg : Bg) (v : NonEnv) (I I' : Ints)
    (h : ∀ u ∈ non_rsd_g1_looks par v, SplAgree I I' u) :
    non_rsd_g1 par bg I v = non_rsd_g1 par bg I' v := by
  unfold non_rsd_g1
  unfold non_rsd_g1_looks at h
  frame_cases h

theorem non_rsd_g2_frame (par : Par) (bg : Bg) (v : NonEnv) (I I' : Ints)
    (h : ∀ u ∈ non_rsd_g2_looks par v, SplAgree I I' u) :
    non_rsd_g2 par bg I v = non_rsd_g2 par bg I' v := by
  unfold non_rsd_g2
  unfold non_rsd_g2_looks at h
  frame_cases h

theorem non_rsd_g3_frame (par : Par) (bg : Bg) (v : NonEnv) (I I' : Ints)
    (h : ∀ u ∈ non_rsd_g3_looks par v, SplAgree I I' u) :
    non_rsd_g3 par bg I v = non_rsd_g3 par bg I' v := by
  unfold non_rsd_g3
  unfold non_rsd_g3_looks at h
  frame_cases h

theorem non_d1_d2_frame (par : Par) (bg : Bg) (v : NonEnv) (I I' : Ints)
    (h : ∀ u ∈ non_d1_d2_looks par v, SplAgree I I' u) :
    non_d1_d2 par bg I v = non_d1_d2 par bg I' v := by
  unfold non_d1_d2
  unfold non_d1_d2_looks at h
  frame_cases h

theorem non_d1_g1_frame (par : Par) (bg : Bg) (v : NonEnv) (I I' : Ints)
    (h : ∀ u ∈ non_d1_g1_looks par v, SplAgree I I' u) :
    non_d1_g1 par bg I v = non_d1_g1 par bg I' v := by
  unfold non_d1_g1
  unfold non_d1_g1_looks at h
  frame_cases h

theorem non_d1_g2_frame (par : Par) (bg : Bg) (v : NonEnv) (I I' : Ints)
    (h : ∀ u ∈ non_d1_g2_looks par v, SplAgree I I' u) :
    non_d1_g2 par bg I v = non_d1_g2 par bg I' v := by
  unfold non_d1_g2
  unfold non_d1_g2_looks at h
  frame_cases h

theorem non_d1_g3_frame (par : Par) (bg : Bg) (v : NonEnv) (I I' : Ints)
    (h : ∀ u ∈ non_d1_g3_looks par v, SplAgree I I' u) :
    non_d1_g3 par bg I v = non_d1_g3 par bg I' v := by
  unfold non_d1_g3
  unfold non_d1_g3_looks at h
  frame_cases h

theorem non_d2_g1_frame (par : Par) (bg : Bg) (v : NonEnv) (I I' : Ints)
    (h : ∀ u ∈ non_d2_g1_looks par v, SplAgree I I' u) :
    non_d2_g1 par bg I v = non_d2_g1 par bg I' v := by
  unfold non_d2_g1
  unfold non_d2_g1_looks at h
  frame_cases h

theorem non_d2_g2_frame (par : Par) (bg : Bg) (v : NonEnv) (I I' : Ints)
    (h : ∀ u ∈ non_d2_g2_looks par v, SplAgree I I' u) :
    non_d2_g2 par bg I v = non_d2_g2 par bg I' v := by
  unfold non_d2_g2
  unfold non_d2_g2_looks at h
  frame_cases h

theorem non_d2_g3_frame (par : Par) (bg : Bg) (v : NonEnv) (I I' : Ints)
    (h : ∀ u ∈ non_d2_g3_looks par v, SplAgree I I' u) :
    non_d2_g3 par bg I v = non_d2_g3 par bg I' v := by
  unfold non_d2_g3
  unfold non_d2_g3_looks at h
  frame_cases h

theorem non_g1_g2_frame (par : Par) (bg : Bg) (v : NonEnv) (I I' : Ints)
    (h : ∀ u ∈ non_g1_g2_looks par v, SplAgree I I' u) :
    non_g1_g2 par bg I v = non_g1_g2 par bg I' v := by
  unfold non_g1_g2
  unfold non_g1_g2_looks at h
  frame_cases h

theorem non_g1_g3_frame (par : Par) (bg : Bg) (v : NonEnv) (I I' : Ints)
    (h : ∀ u ∈ non_g1_g3_looks par v, SplAgree I I' u) :
    non_g1_g3 par bg I v = non_g1_g3 par bg I' v := by
  unfold non_g1_g3
  unfold non_g1_g3_looks at h
  frame_cases h

theorem non_g2_g3_frame (par : Par) (bg : Bg) (v : NonEnv) (I I' : Ints)
    (h : ∀ u ∈ non_g2_g3_looks par v, SplAgree I I' u) :
    non_g2_g3 par bg I v = non_g2_g3 par bg I' v := by
  unfold non_g2_g3
  unfold non_g2_g3_looks at h
  frame_cases h

theorem non_result_frame (par : Par) (bg : Bg) (v : NonEnv) (I I' : Ints)
    (h : ∀ u ∈ non_looks par v, SplAgree I I' u) :
    non_result par bg I v = non_result par bg I' v := by
  unfold non_result
  rw [non_den_den_frame par bg v I I' (fun u hu => h u (by
    unfold non_looks; iterate 27 apply List.mem_append_left
    exact hu))]
  rw [non_rsd_rsd_frame par bg v I I' (fun u hu => h u (by
    unfold non_looks; iterate 26 apply List.mem_append_left
    exact List.mem_append_right _ hu))]
  rw [non_d1_d1_frame par bg v I I' (fun u hu => h u (by
    unfold non_looks; iterate 25 apply List.mem_append_left
    exact List.mem_append_right _ hu))]
  rw [non_d2_d2_frame par bg v I I' (fun u hu => h u (by
    unfold non_looks; iterate 24 apply List.mem_append_left
    exact List.mem_append_right _ hu))]
  rw [non_g1_g1_frame par bg v I I' (fun u hu => h u (by
    unfold non_looks; iterate 23 apply List.mem_append_left
    exact List.mem_append_right _ hu))]
  rw [non_g2_g2_frame par bg v I I' (fun u hu => h u (by
    unfold non_looks; iterate 22 apply List.mem_append_left
    exact List.mem_append_right _ hu))]
  rw [non_g3_g3_frame par bg v I I' (fun u hu => h u (by
    unfold non_looks; iterate 21 apply List.mem_append_left
    exact List.mem_append_right _ hu))]
  rw [non_den_rsd_frame par bg v I I' (fun u hu => h u (by
    unfold non_looks; iterate 20 apply List.mem_append_left
    exact List.mem_append_right _ hu))]
  rw [non_den_d1_frame par bg v I I' (fun u hu => h u (by
    unfold non_looks; iterate 19 apply List.mem_append_left
    exact List.mem_append_right _ hu))]
  rw [non_den_d2_frame par bg v I I' (fun u hu => h u (by
    unfold non_looks; iterate 18 apply List.mem_append_left
    exact List.mem_append_right _ hu))]
  rw [non_den_g1_frame par bg v I I' (fun u hu => h u (by
    unfold non_looks; iterate 17 apply List.mem_append_left
    exact List.mem_append_right _ hu))]
  rw [non_den_g2_frame par bg v I I' (fun u hu => h u (by
    unfold non_looks; iterate 16 apply List.mem_append_left
    exact List.mem_append_right _ hu))]
  rw [non_den_g3_frame par bg v I I' (fun u hu => h u (by
    unfold non_looks; iterate 15 apply List.mem_append_left
    exact List.mem_append_right _ hu))]
  rw [non_rsd_d1_frame par bg v I I' (fun u hu => h u (by
    unfold non_looks; iterate 14 apply List.mem_append_left
    exact List.mem_append_right _ hu))]
  rw [non_rsd_d2_frame par bg v I I' (fun u hu => h u (by
    unfold non_looks; iterate 13 apply List.mem_append_left
    exact List.mem_append_right _ hu))]
  rw [non_rsd_g1_frame par bg v I I' (fun u hu => h u (by
    unfold non_looks; iterate 12 apply List.mem_append_left
    exact List.mem_append_right _ hu))]
  rw [non_rsd_g2_frame par bg v I I' (fun u hu => h u (by
    unfold non_looks; iterate 11 apply List.mem_append_left
    exact List.mem_append_right _ hu))]
  rw [non_rsd_g3_frame par bg v I I' (fun u hu => h u (by
    unfold non_looks; iterate 10 apply List.mem_append_left
    exact List.mem_append_right _ hu))]
  rw [non_d1_d2_frame par bg v I I' (fun u hu => h u (by
    unfold non_looks; iterate 9 apply List.mem_append_left
    exact List.mem_append_right _ hu))]
  rw [non_d1_g1_frame par bg v I I' (fun u hu => h u (by
    unfold non_looks; iterate 8 apply List.mem_append_left
    exact List.mem_append_right _ hu))]
  rw [non_d1_g2_frame par bg v I I' (fun u hu => h u (by
    unfold non_looks; iterate 7 apply List.mem_append_left
    exact List.mem_append_right _ hu))]
  rw [non_d1_g3_frame par bg v I I' (fun u hu => h u (by
    unfold non_looks; iterate 6 apply List.mem_append_left
    exact List.mem_append_right _ hu))]
  rw [non_d2_g1_frame par bg v I I' (fun u hu => h u (by
    unfold non_looks; iterate 5 apply List.mem_append_left
    exact List.mem_append_right _ hu))]
  rw [non_d2_g2_frame par bg v I I' (fun u hu => h u (by
    unfold non_looks; iterate 4 apply List.mem_append_left
    exact List.mem_append_right _ hu))]
  rw [non_d2_g3_frame par bg v I I' (fun u hu => h u (by
    unfold non_looks; iterate 3 apply List.mem_append_left
    exact List.mem_append_right _ hu))]
  rw [non_g1_g2_frame par bg v I I' (fun u hu => h u (by
    unfold non_looks; iterate 2 apply List.mem_append_left
    exact List.mem_append_right _ hu))]
  rw [non_g1_g3_frame par bg v I I' (fun u hu => h u (by
    unfold non_looks; iterate 1 apply List.mem_append_left
    exact List.mem_append_right _ hu))]
  rw [non_g2_g3_frame par bg v I I' (fun u hu => h u (by
    unfold non_looks; iterate 0 apply List.mem_append_left
    exact List.mem_append_right _ hu))]

theorem single_den_len_frame (par : Par) (bg : Bg) (v : SingleEnv) (I I' : Ints)
    (h : ∀ u ∈ single_den_len_looks par v, SplAgree I I' u) :
    single_den_len par bg I v = single_den_len par bg I' v := by
  unfold single_den_len
  unfold single_den_len_looks at h
  frame_cases h

theorem single_rsd_len_frame (par : Par) (bg : Bg) (v : SingleEnv) (I I' : Ints)
    (h : ∀ u ∈ single_rsd_len_looks par v, SplAgree I I' u) :
    single_rsd_len par bg I v = single_rsd_len par bg I' v := by
  unfold single_rsd_len
  unfold single_rsd_len_looks at h
  by_cases hp : par.pk_type ≠ PkType.COFFE_PK_LINEAR ∧ par.midpoint_approximation = true
  · by_cases hmu : |v.mu| < 0.999
    · simp only [if_pos hp, if_pos hmu] at h ⊢
      frame_cases h
    · simp only [if_pos hp, if_neg hmu] at h ⊢
      frame_cases h
  · by_cases hmu : |v.mu| < 0.999
    · simp only [if_neg hp, if_pos hmu] at h ⊢
      frame_cases h
    · simp only [if_neg hp, if_neg hmu] at h ⊢
      frame_cases h

theorem single_d1_len_frame (par : Par) (bg : Bg) (v : SingleEnv) (I I' : Ints)
    (h : ∀ u ∈ single_d1_len_looks par v, SplAgree I I' u) :
    single_d1_len par bg I v = single_d1_len par bg I' v := by
  unfold single_d1_len
  unfold single_d1_len_looks at h
  frame_cases h

theorem single_d2_len_frame (par : Par) (bg : Bg) (v : SingleEnv) (I I' : Ints)
    (h : ∀ u ∈ single_d2_len_looks par v, SplAgree I I' u) :
    single_d2_len par bg I v = single_d2_len par bg I' v := by
  unfold single_d2_len
  unfold single_d2_len_looks at h
  frame_cases h

theorem single_g1_len_frame (par : Par) (bg : Bg) (v : SingleEnv) (I I' : Ints)
    (h : ∀ u ∈ single_g1_len_looks par v, SplAgree I I' u) :
    single_g1_len par bg I v = single_g1_len par bg I' v := by
  unfold single_g1_len
  unfold single_g1_len_looks at h
  frame_cases h

theorem single_g2_len_frame (par : Par) (bg : Bg) (v : SingleEnv) (I I' : Ints)
    (h : ∀ u ∈ single_g2_len_looks par v, SplAgree I I' u) :
    single_g2_len par bg I v = single_g2_len par bg I' v := by
  unfold single_g2_len
  unfold single_g2_len_looks at h
  frame_cases h

theorem single_g3_len_frame (par : Par) (bg : Bg) (v : SingleEnv) (I I' : Ints)
    (h : ∀ u ∈ single_g3_len_looks par v, SplAgree I I' u) :
    single_g3_len par bg I v = single_g3_len par bg I' v := by
  unfold single_g3_len
  unfold single_g3_len_looks at h
  frame_cases h

theorem single_den_g4_frame (par : Par) (bg : Bg) (v : SingleEnv) (I I' : Ints)
    (h : ∀ u ∈ single_den_g4_looks par v, SplAgree I I' u) :
    single_den_g4 par bg I v = single_den_g4 par bg I' v := by
  unfold single_den_g4
  unfold single_den_g4_looks at h
  frame_cases h

theorem single_den_g5_frame (par : Par) (bg : Bg) (v : SingleEnv) (I I' : Ints)
    (h : ∀ u ∈ single_den_g5_looks par v, SplAgree I I' u) :
    single_den_g5 par bg I v = single_den_g5 par bg I' v := by
  unfold single_den_g5
  unfold single_den_g5_looks at h
  frame_cases h

theorem single_rsd_g4_frame (par : Par) (bg : Bg) (v : SingleEnv) (I I' : Ints)
    (h : ∀ u ∈ single_rsd_g4_looks par v, SplAgree I I' u) :
    single_rsd_g4 par bg I v = single_rsd_g4 par bg I' v := by
  unfold single_rsd_g4
  unfold single_rsd_g4_looks at h
  frame_cases h

theorem single_rsd_g5_frame (par : Par) (bg : Bg) (v : SingleEnv) (I I' : Ints)
    (h : ∀ u ∈ single_rsd_g5_looks par v, SplAgree I I' u) :
    single_rsd_g5 par bg I v = single_rsd_g5 par bg I' v := by
  unfold single_rsd_g5
  unfold single_rsd_g5_looks at h
  frame_cases h

theorem single_d1_g4_frame (par : Par) (bg : Bg) (v : SingleEnv) (I I' : Ints)
    (h : ∀ u ∈ single_d1_g4_looks par v, SplAgree I I' u) :
    single_d1_g4 par bg I v = single_d1_g4 par bg I' v := by
  unfold single_d1_g4
  unfold single_d1_g4_looks at h
  frame_cases h

theorem single_d1_g5_frame (par : Par) (bg : Bg) (v : SingleEnv) (I I' : Ints)
    (h : ∀ u ∈ single_d1_g5_looks par v, SplAgree I I' u) :
    single_d1_g5 par bg I v = single_d1_g5 par bg I' v := by
  unfold single_d1_g5
  unfold single_d1_g5_looks at h
  frame_cases h

theorem single_d2_g4_frame (par : Par) (bg : Bg) (v : SingleEnv) (I I' : Ints)
    (h : ∀ u ∈ single_d2_g4_looks par v, SplAgree I I' u) :
    single_d2_g4 par bg I v = single_d2_g4 par bg I' v := by
  unfold single_d2_g4
  unfold single_d2_g4_looks at h
  frame_cases h

theorem single_d2_g5_frame (par : Par) (bg : Bg) (v : SingleEnv) (I I' : Ints)
    (h : ∀ u ∈ single_d2_g5_looks par v, SplAgree I I' u) :
    single_d2_g5 par bg I v = single_d2_g5 par bg I' v := by
  unfold single_d2_g5
  unfold single_d2_g5_looks at h
  frame_cases h

theorem single_g1_g4_frame (par : Par) (bg : Bg) (v : SingleEnv) (I I' : Ints)
    (h : ∀ u ∈ single_g1_g4_looks par v, SplAgree I I' u) :
    single_g1_g4 par bg I v = single_g1_g4 par bg I' v := by
  unfold single_g1_g4
  unfold single_g1_g4_looks at h
  frame_cases h

theorem single_g1_g5_frame (par : Par) (bg : Bg) (v : SingleEnv) (I I' : Ints)
    (h : ∀ u ∈ single_g1_g5_looks par v, SplAgree I I' u) :
    single_g1_g5 par bg I v = single_g1_g5 par bg I' v := by
  unfold single_g1_g5
  unfold single_g1_g5_looks at h
  frame_cases h

theorem single_g2_g4_frame (par : Par) (bg : Bg) (v : SingleEnv) (I I' : Ints)
    (h : ∀ u ∈ single_g2_g4_looks par v, SplAgree I I' u) :
    single_g2_g4 par bg I v = single_g2_g4 par bg I' v := by
  unfold single_g2_g4
  unfold single_g2_g4_looks at h
  frame_cases h

theorem single_g2_g5_frame (par : Par) (bg : Bg) (v : SingleEnv) (I I' : Ints)
    (h : ∀ u ∈ single_g2_g5_looks par v, SplAgree I I' u) :
    single_g2_g5 par bg I v = single_g2_g5 par bg I' v := by
  unfold single_g2_g5
  unfold single_g2_g5_looks at h
  frame_cases h

theorem single_g3_g4_frame (par : Par) (bg : Bg) (v : SingleEnv) (I I' : Ints)
    (h : ∀ u ∈ single_g3_g4_looks par v, SplAgree I I' u) :
    single_g3_g4 par bg I v = single_g3_g4 par bg I' v := by
  unfold single_g3_g4
  unfold single_g3_g4_looks at h
  frame_cases h

theorem single_g3_g5_frame (par : Par) (bg : Bg) (v : SingleEnv) (I I' : Ints)
    (h : ∀ u ∈ single_g3_g5_looks par v, SplAgree I I' u) :
    single_g3_g5 par bg I v = single_g3_g5 par bg I' v := by
  unfold single_g3_g5
  unfold single_g3_g5_looks at h
  frame_cases h

theorem single_result_frame (par : Par) (bg : Bg) (v : SingleEnv) (I I' : Ints)
    (h : ∀ u ∈ single_looks par v, SplAgree I I' u) :
    single_result par bg I v = single_result par bg I' v := by
  unfold single_result
  rw [single_den_len_frame par bg v I I' (fun u hu => h u (by
    unfold single_looks; iterate 20 apply List.mem_append_left
    exact List.mem_append_right _ hu))]
  rw [single_rsd_len_frame par bg v I I' (fun u hu => h u (by
    unfold single_looks; iterate 19 apply List.mem_append_left
    exact List.mem_append_right _ hu))]
  rw [single_d1_len_frame par bg v I I' (fun u hu => h u (by
    unfold single_looks; iterate 18 apply List.mem_append_left
    exact List.mem_append_right _ hu))]
  rw [single_d2_len_frame par bg v I I' (fun u hu => h u (by
    unfold single_looks; iterate 17 apply List.mem_append_left
    exact List.mem_append_right _ hu))]
  rw [single_g1_len_frame par bg v I I' (fun u hu => h u (by
    unfold single_looks; iterate 16 apply List.mem_append_left
    exact List.mem_append_right _ hu))]
  rw [single_g2_len_frame par bg v I I' (fun u hu => h u (by
    unfold single_looks; iterate 15 apply List.mem_append_left
    exact List.mem_append_right _ hu))]
  rw [single_g3_len_frame par bg v I I' (fun u hu => h u (by
    unfold single_looks; iterate 14 apply List.mem_append_left
    exact List.mem_append_right _ hu))]
  rw [single_den_g4_frame par bg v I I' (fun u hu => h u (by
    unfold single_looks; iterate 13 apply List.mem_append_left
    exact List.mem_append_right _ hu))]
  rw [single_den_g5_frame par bg v I I' (fun u hu => h u (by
    unfold single_looks; iterate 12 apply List.mem_append_left
    exact List.mem_append_right _ hu))]
  rw [single_rsd_g4_frame par bg v I I' (fun u hu => h u (by
    unfold single_looks; iterate 11 apply List.mem_append_left
    exact List.mem_append_right _ hu))]
  rw [single_rsd_g5_frame par bg v I I' (fun u hu => h u (by
    unfold single_looks; iterate 10 apply List.mem_append_left
    exact List.mem_append_right _ hu))]
  rw [single_d1_g4_frame par bg v I I' (fun u hu => h u (by
    unfold single_looks; iterate 9 apply List.mem_append_left
    exact List.mem_append_right _ hu))]
  rw [single_d1_g5_frame par bg v I I' (fun u hu => h u (by
    unfold single_looks; iterate 8 apply List.mem_append_left
    exact List.mem_append_right _ hu))]
  rw [single_d2_g4_frame par bg v I I' (fun u hu => h u (by
    unfold single_looks; iterate 7 apply List.mem_append_left
    exact List.mem_append_right _ hu))]
  rw [single_d2_g5_frame par bg v I I' (fun u hu => h u (by
    unfold single_looks; iterate 6 apply List.mem_append_left
    exact List.mem_append_right _ hu))]
  rw [single_g1_g4_frame par bg v I I' (fun u hu => h u (by
    unfold single_looks; iterate 5 apply List.mem_append_left
    exact List.mem_append_right _ hu))]
  rw [single_g1_g5_frame par bg v I I' (fun u hu => h u (by
    unfold single_looks; iterate 4 apply List.mem_append_left
    exact List.mem_append_right _ hu))]
  rw [single_g2_g4_frame par bg v I I' (fun u hu => h u (by
    unfold single_looks; iterate 3 apply List.mem_append_left
    exact List.mem_append_right _ hu))]
  rw [single_g2_g5_frame par bg v I I' (fun u hu => h u (by
    unfold single_looks; iterate 2 apply List.mem_append_left
    exact List.mem_append_right _ hu))]
  rw [single_g3_g4_frame par bg v I I' (fun u hu => h u (by
    unfold single_looks; iterate 1 apply List.mem_append_left
    exact List.mem_append_right _ hu))]
  rw [single_g3_g5_frame par bg v I I' (fun u hu => h u (by
    unfold single_looks; iterate 0 apply List.mem_append_left
    exact List.mem_append_right _ hu))]

theorem double_len_len_frame (par : Par) (bg : Bg) (v : DoubleEnv) (I I' : Ints)
    (h : ∀ u ∈ double_len_len_looks par v, SplAgree I I' u) :
    double_len_len par bg I v = double_len_len par bg I' v := by
  unfold double_len_len
  unfold double_len_len_looks at h
  frame_cases h

theorem double_g4_g4_frame (par : Par) (bg : Bg) (v : DoubleEnv) (I I' : Ints)
    (h : ∀ u ∈ double_g4_g4_looks par v, SplAgree I I' u) :
    double_g4_g4 par bg I v = double_g4_g4 par bg I' v := by
  unfold double_g4_g4
  unfold double_g4_g4_looks at h
  frame_cases h

theorem double_g5_g5_frame (par : Par) (bg : Bg) (v : DoubleEnv) (I I' : Ints)
    (h : ∀ u ∈ double_g5_g5_looks par v, SplAgree I I' u) :
    double_g5_g5 par bg I v = double_g5_g5 par bg I' v := by
  unfold double_g5_g5
  unfold double_g5_g5_looks at h
  frame_cases h

theorem double_g4_len_frame (par : Par) (bg : Bg) (v : DoubleEnv) (I I' : Ints)
    (h : ∀ u ∈ double_g4_len_looks par v, SplAgree I I' u) :
    double_g4_len par bg I v = double_g4_len par bg I' v := by
  unfold double_g4_len
  unfold double_g4_len_looks at h
  frame_cases h

theorem double_g5_len_frame (par : Par) (bg : Bg) (v : DoubleEnv) (I I' : Ints)
    (h : ∀ u ∈ double_g5_len_looks par v, SplAgree I I' u) :
    double_g5_len par bg I v = double_g5_len par bg I' v := by
  unfold double_g5_len
  unfold double_g5_len_looks at h
  frame_cases h

theorem double_g4_g5_frame (par : Par) (bg : Bg) (v : DoubleEnv) (I I' : Ints)
    (h : ∀ u ∈ double_g4_g5_looks par v, SplAgree I I' u) :
    double_g4_g5 par bg I v = double_g4_g5 par bg I' v := by
  unfold double_g4_g5
  unfold double_g4_g5_looks at h
  frame_cases h

theorem double_result_frame (par : Par) (bg : Bg) (v : DoubleEnv) (I I' : Ints)
    (h : ∀ u ∈ double_looks par v, SplAgree I I' u) :
    double_result par bg I v = double_result par bg I' v := by
  unfold double_result
  rw [double_len_len_frame par bg v I I' (fun u hu => h u (by
    unfold double_looks; iterate 5 apply List.mem_append_left
    exact List.mem_append_right _ hu))]
  rw [double_g4_g4_frame par bg v I I' (fun u hu => h u (by
    unfold double_looks; iterate 4 apply List.mem_append_left
    exact List.mem_append_right _ hu))]
  rw [double_g5_g5_frame par bg v I I' (fun u hu => h u (by
    unfold double_looks; iterate 3 apply List.mem_append_left
    exact List.mem_append_right _ hu))]
  rw [double_g4_len_frame par bg v I I' (fun u hu => h u (by
    unfold double_looks; iterate 2 apply List.mem_append_left
    exact List.mem_append_right _ hu))]
  rw [double_g5_len_frame par bg v I I' (fun u hu => h u (by
    unfold double_looks; iterate 1 apply List.mem_append_left
    exact List.mem_append_right _ hu))]
  rw [double_g4_g5_frame par bg v I I' (fun u hu => h u (by
    unfold double_looks; iterate 0 apply List.mem_append_left
    exact List.mem_append_right _ hu))]

end Coffe
