import Verif.Proofs.Frame
import Verif.Proofs.Table

/-! # Helper lemmas: a signal depends on the table only through the integrals it looks up -/

namespace Coffe
open Classical

theorem fun_non_frame (par : Par) (bg : Bg) (I I' : Ints) (h : ∀ u, NonLooks par u → SplAgree I I' u)
    (z mu sep : ℝ) :
    functions_nonintegrated par bg I z mu sep = functions_nonintegrated par bg I' z mu sep := by
  unfold functions_nonintegrated
  simp only
  rw [non_result_frame par bg _ I I' (fun u hu => h u ⟨_, hu⟩)]

theorem fun_single_frame (par : Par) (bg : Bg) (I I' : Ints)
    (h : ∀ u, SingleLooks par u → SplAgree I I' u) (z mu sep x : ℝ) :
    functions_single_integrated par bg I z mu sep x =
      functions_single_integrated par bg I' z mu sep x := by
  have henv : SingleEnv.of par bg I z mu sep x = SingleEnv.of par bg I' z mu sep x := by
    by_cases hd : par.divergent = true
    · have hl : ∀ u ∈ single_ren_looks par, SplAgree I I' u := by
        intro u hu
        refine h u ⟨SingleEnv.of par bg I z mu sep x, ?_⟩
        unfold single_looks
        iterate 21 apply List.mem_append_left
        exact hu
      simp only [single_ren_looks, hd, if_true, List.forall_mem_cons, forall_mem_nil', and_true,
        SplAgree] at hl
      obtain ⟨h1, h2, h3⟩ := hl
      simp only [SingleEnv.of, Ints.I40, h1, h2, h3]
    · simp only [SingleEnv.of, if_neg hd]
  unfold functions_single_integrated
  rw [henv, single_result_frame par bg _ I I' (fun u hu => h u ⟨_, hu⟩)]

theorem fun_double_frame (par : Par) (bg : Bg) (I I' : Ints)
    (h : ∀ u, DoubleLooks par u → SplAgree I I' u) (z mu sep x y : ℝ) :
    functions_double_integrated par bg I z mu sep x y =
      functions_double_integrated par bg I' z mu sep x y := by
  have henv : DoubleEnv.of par bg I z mu sep x y = DoubleEnv.of par bg I' z mu sep x y := by
    by_cases hd : par.divergent = true
    · have hl : ∀ u ∈ double_ren_looks par, SplAgree I I' u := by
        intro u hu
        refine h u ⟨DoubleEnv.of par bg I z mu sep x y, ?_⟩
        unfold double_looks
        iterate 6 apply List.mem_append_left
        exact hu
      simp only [double_ren_looks, hd, if_true, List.forall_mem_cons, forall_mem_nil', and_true,
        SplAgree] at hl
      obtain ⟨h1, h2, h3⟩ := hl
      simp only [DoubleEnv.of, Ints.I40, h1, h2, h3]
    · simp only [DoubleEnv.of, if_neg hd]
  unfold functions_double_integrated
  rw [henv, double_result_frame par bg _ I I' (fun u hu => h u ⟨_, hu⟩)]

theorem flat_len_len_frame (par : Par) (bg : Bg) (I I' : Ints) (l : ℕ)
    (h : ∀ u ∈ flatsky_len_len_looks par l, SplAgree I I' u) (z sep x : ℝ) :
    flatsky_len_len_multipoles par bg I z sep l x = flatsky_len_len_multipoles par bg I' z sep l x := by
  unfold flatsky_len_len_looks at h
  by_cases hp : par.pk_type ≠ .COFFE_PK_LINEAR ∧ par.midpoint_approximation = true
  · simp only [if_pos hp, List.forall_mem_cons, forall_mem_nil', and_true, SplAgree] at h
    simp only [flatsky_len_len_multipoles, if_pos hp, h]
  · simp only [if_neg hp, List.forall_mem_cons, forall_mem_nil', and_true, SplAgree] at h
    simp only [flatsky_len_len_multipoles, if_neg hp, h]

theorem flat_den_len_frame (par : Par) (bg : Bg) (I I' : Ints) (l : ℕ)
    (h : ∀ u ∈ flatsky_den_len_looks par l, SplAgree I I' u) (z sep : ℝ) :
    flatsky_den_len_multipoles par bg I z sep l = flatsky_den_len_multipoles par bg I' z sep l := by
  unfold flatsky_den_len_looks at h
  by_cases hl : l % 2 = 0
  · by_cases hp : par.pk_type ≠ .COFFE_PK_LINEAR ∧ par.midpoint_approximation = true
    · simp only [if_pos hp, if_pos hl, List.forall_mem_map, SplAgree] at h
      simp only [flatsky_den_len_multipoles, if_pos hp, if_pos hl]
      rw [Finset.sum_congr rfl (fun k hk => by rw [h k (by simpa using hk)])]
    · simp only [if_neg hp, if_pos hl, List.forall_mem_map, SplAgree] at h
      simp only [flatsky_den_len_multipoles, if_neg hp, if_pos hl]
      rw [Finset.sum_congr rfl (fun k hk => by rw [h k (by simpa using hk)])]
  · simp only [flatsky_den_len_multipoles, if_neg hl]

theorem coffe_integrate_frame (Q : Quad) (par : Par) (bg : Bg) (I I' : Ints) (out : OutputType) (l : ℕ)
    (h : ∀ u, SignalLooks par out l u → SplAgree I I' u) (z zmin zmax sep mu : ℝ) (ty : IntegralType) :
    coffe_integrate Q par bg I z zmin zmax sep mu l ty out =
      coffe_integrate Q par bg I' z zmin zmax sep mu l ty out := by
  cases ty
  · simp only [coffe_integrate]
    by_cases hg : non_gate par.correlation_contrib = true
    swap; · simp only [hg]; rfl
    rw [if_pos hg, if_pos hg]
    cases out <;> simp only [integrate_non]
    · rw [fun_non_frame par bg I I' (fun u hu => h u ⟨by simp, Or.inl ⟨hg, hu⟩⟩)]
    · have : multipoles_nonintegrated_integrand par bg I z sep l =
          multipoles_nonintegrated_integrand par bg I' z sep l := by
        funext x
        simp only [multipoles_nonintegrated_integrand]
        rw [fun_non_frame par bg I I' (fun u hu => h u ⟨by simp, Or.inl ⟨hg, hu⟩⟩)]
      rw [this]
    · have : average_nonintegrated_integrand par bg I zmin zmax sep l =
          average_nonintegrated_integrand par bg I' zmin zmax sep l := by
        funext x
        simp only [average_nonintegrated_integrand]
        rw [fun_non_frame par bg I I' (fun u hu => h u ⟨by simp, Or.inl ⟨hg, hu⟩⟩)]
      rw [this]
  · simp only [coffe_integrate]
    by_cases hg : single_gate par.correlation_contrib = true
    swap; · simp only [hg]; rfl
    rw [if_pos hg, if_pos hg]
    cases out <;> simp only [integrate_single]
    · congr 1; funext x
      exact fun_single_frame par bg I I'
        (fun u hu => h u ⟨by simp, Or.inr (Or.inl ⟨hg, by simpa using hu⟩)⟩) _ _ _ _
    · congr 1
      · by_cases hf : single_flat_gate par = true
        swap; · simp [hf]
        by_cases hd : par.correlation_contrib.den = true
        swap; · simp [hd]
        rw [if_pos hf, if_pos hf, if_pos hd, if_pos hd]
        rw [flat_den_len_frame par bg I I' l (fun u hu => h u ⟨by simp, Or.inr (Or.inl ⟨hg, by
          rw [if_pos rfl]; exact Or.inl ⟨hf, hd, hu⟩⟩)⟩)]
      · by_cases hm : single_multi_gate par = true
        swap; · simp [hm]
        rw [if_pos hm, if_pos hm]
        have : multipoles_single_integrated_integrand par bg I z sep l =
            multipoles_single_integrated_integrand par bg I' z sep l := by
          funext x
          simp only [multipoles_single_integrated_integrand]
          rw [fun_single_frame par bg I I' (fun u hu => h u ⟨by simp, Or.inr (Or.inl ⟨hg, by
            rw [if_pos rfl]; exact Or.inr ⟨hm, hu⟩⟩)⟩)]
        rw [this]
    · have : average_single_integrated_integrand par bg I zmin zmax sep l =
          average_single_integrated_integrand par bg I' zmin zmax sep l := by
        funext x
        simp only [average_single_integrated_integrand]
        rw [fun_single_frame par bg I I'
          (fun u hu => h u ⟨by simp, Or.inr (Or.inl ⟨hg, by simpa using hu⟩)⟩)]
      rw [this]
  · simp only [coffe_integrate]
    by_cases hg : double_gate par.correlation_contrib = true
    swap; · simp only [hg]; rfl
    rw [if_pos hg, if_pos hg]
    cases out <;> simp only [integrate_double]
    · congr 1; funext x
      exact fun_double_frame par bg I I'
        (fun u hu => h u ⟨by simp, Or.inr (Or.inr ⟨hg, by simpa using hu⟩)⟩) _ _ _ _ _
    · congr 1
      · by_cases hf : double_flat_gate par l = true
        swap; · simp [hf]
        rw [if_pos hf, if_pos hf]
        congr 2; funext x
        exact flat_len_len_frame par bg I I' l (fun u hu => h u ⟨by simp, Or.inr (Or.inr ⟨hg, by
          rw [if_pos rfl]; exact Or.inl ⟨hf, hu⟩⟩)⟩) _ _ _
      · by_cases hm : double_multi_gate par = true
        swap; · simp [hm]
        rw [if_pos hm, if_pos hm]
        have : multipoles_double_integrated_integrand par bg I z sep l =
            multipoles_double_integrated_integrand par bg I' z sep l := by
          funext x
          simp only [multipoles_double_integrated_integrand]
          rw [fun_double_frame par bg I I' (fun u hu => h u ⟨by simp, Or.inr (Or.inr ⟨hg, by
            rw [if_pos rfl]; exact Or.inr ⟨hm, hu⟩⟩)⟩)]
        rw [this]
    · have : average_double_integrated_integrand par bg I zmin zmax sep l =
          average_double_integrated_integrand par bg I' zmin zmax sep l := by
        funext x
        simp only [average_double_integrated_integrand]
        rw [fun_double_frame par bg I I'
          (fun u hu => h u ⟨by simp, Or.inr (Or.inr ⟨hg, by simpa using hu⟩)⟩)]
      rw [this]

end Coffe
