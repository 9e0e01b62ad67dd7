import Verif.Proofs.Additive
import Verif.Spec.Dispatch

/-! # Helper lemmas: a part that `coffe_integrate` skips has a vanishing integrand -/

namespace Coffe
open Classical
set_option linter.unusedSimpArgs false

theorem non_zero_of_gate (par : Par) (bg : Bg) (I : Ints) (z mu sep : ℝ)
    (h : non_gate par.correlation_contrib = false) :
    functions_nonintegrated par bg I z mu sep = 0 := by
  simp only [non_gate, Bool.or_eq_false_iff] at h
  obtain ⟨⟨⟨⟨⟨⟨h1, h2⟩, h3⟩, h4⟩, h5⟩, h6⟩, h7⟩ := h
  simp [functions_nonintegrated, non_result_gated, h1, h2, h3, h4, h5, h6, h7]

theorem single_zero_of_gate (par : Par) (bg : Bg) (I : Ints) (z mu sep x : ℝ)
    (h : single_gate par.correlation_contrib = false) :
    functions_single_integrated par bg I z mu sep x = 0 := by
  simp only [functions_single_integrated, single_result_gated]
  generalize par.correlation_contrib = c at h ⊢
  obtain ⟨den, rsd, len, d1, d2, g1, g2, g3, g4, g5⟩ := c
  simp only [single_gate, Bool.or_eq_false_iff, Bool.and_eq_false_iff] at h
  rcases len with _ | _ <;> rcases g4 with _ | _ <;> rcases g5 with _ | _ <;> simp_all

theorem single_len_zero_of_flat (par : Par) (bg : Bg) (I : Ints) (v : SingleEnv)
    (hf : par.flatsky_local_nonlocal = true) (ho : par.output_type = .MULTIPOLES) :
    single_den_len par bg I v = 0 ∧ single_rsd_len par bg I v = 0 ∧ single_d1_len par bg I v = 0 := by
  refine ⟨?_, ?_, ?_⟩
  · simp [single_den_len, hf, ho]
  · simp [single_rsd_len, hf, ho]
  · simp [single_d1_len, hf, ho]

theorem single_zero_of_multi_gate (par : Par) (bg : Bg) (I : Ints) (z mu sep x : ℝ)
    (ho : par.output_type = .MULTIPOLES)
    (h : single_multi_gate par = false) :
    functions_single_integrated par bg I z mu sep x = 0 := by
  simp only [functions_single_integrated]
  generalize SingleEnv.of par bg I z mu sep x = v
  by_cases hf : par.flatsky_local_nonlocal = true
  · obtain ⟨h1, h2, h3⟩ := single_len_zero_of_flat par.full bg I v hf ho
    simp only [single_result_gated, h1, h2, h3]
    simp only [single_multi_gate, hf] at h
    generalize par.correlation_contrib = c at h ⊢
    obtain ⟨den, rsd, len, d1, d2, g1, g2, g3, g4, g5⟩ := c
    simp only [Bool.or_eq_false_iff, Bool.and_eq_false_iff] at h
    rcases len with _ | _ <;> rcases g4 with _ | _ <;> rcases g5 with _ | _ <;> simp_all
  · simp only [single_result_gated]
    simp only [Bool.not_eq_true] at hf
    simp only [single_multi_gate, hf] at h
    generalize par.correlation_contrib = c at h ⊢
    obtain ⟨den, rsd, len, d1, d2, g1, g2, g3, g4, g5⟩ := c
    simp only [Bool.or_eq_false_iff, Bool.and_eq_false_iff] at h
    rcases len with _ | _ <;> rcases g4 with _ | _ <;> rcases g5 with _ | _ <;> simp_all

theorem double_zero_of_gate (par : Par) (bg : Bg) (I : Ints) (z mu sep x y : ℝ)
    (h : double_gate par.correlation_contrib = false) :
    functions_double_integrated par bg I z mu sep x y = 0 := by
  simp only [functions_double_integrated, double_result_gated]
  simp only [double_gate, Bool.or_eq_false_iff] at h
  simp [h.1.1, h.1.2, h.2]

theorem double_len_zero_of_flat (par : Par) (bg : Bg) (I : Ints) (v : DoubleEnv)
    (hf : par.flatsky_nonlocal = true) (ho : par.output_type = .MULTIPOLES) :
    double_len_len par bg I v = 0 := by
  simp [double_len_len, hf, ho]

theorem double_zero_of_multi_gate (par : Par) (bg : Bg) (I : Ints) (z mu sep x y : ℝ)
    (ho : par.output_type = .MULTIPOLES)
    (h : double_multi_gate par = false) :
    functions_double_integrated par bg I z mu sep x y = 0 := by
  simp only [functions_double_integrated]
  generalize DoubleEnv.of par bg I z mu sep x y = v
  simp only [double_multi_gate, Bool.or_eq_false_iff, Bool.and_eq_false_iff] at h
  obtain ⟨⟨h1, h2⟩, h3⟩ := h
  rcases h3 with h3 | h3
  · simp [double_result_gated, h1, h2, h3]
  · have hf : par.flatsky_nonlocal = true := by simpa using h3
    have := double_len_zero_of_flat par bg I v hf ho
    simp only [double_result, this]
    rw [double_g4_g4_gate, double_g5_g5_gate, double_g4_len_gate, double_g5_len_gate,
      double_g4_g5_gate]
    simp [h1, h2]

end Coffe
