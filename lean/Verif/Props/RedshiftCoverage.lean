import Verif.Props.RedshiftTables
import Verif.Props.Coverage

/-! # C65: the tables that depend on the redshift cover the redshifts a user may ask for -/

namespace Coffe

/-- C65, the part that holds: a redshift between 0 and 2.97 lies in an interval of the table. -/
theorem C65_partial {z : ℝ} (h0 : 0 ≤ z) (h1 : z ≤ 2.97) :
    ∃ i, i + 1 < result2d_z_size ∧ result2d_z i ≤ z ∧ z ≤ result2d_z (i + 1) := by
  have hz : ∀ i : ℕ, result2d_z i = 3 * (i : ℝ) / 100 := fun i => by simp [result2d_z, result2d_z_size]
  by_cases h : z = 2.97
  · refine ⟨98, by decide, ?_, ?_⟩ <;> rw [hz, h] <;> norm_num
  · have hlt : z < 2.97 := lt_of_le_of_ne h1 h
    have h3 : 0 ≤ z * 100 / 3 := by positivity
    have hf : ⌊z * 100 / 3⌋₊ < 99 := (Nat.floor_lt h3).2 (by norm_num; linarith)
    refine ⟨⌊z * 100 / 3⌋₊, by unfold result2d_z_size; omega, ?_, ?_⟩
    · rw [hz]; have := Nat.floor_le h3; linarith
    · rw [hz]; push_cast; have := Nat.lt_floor_add_one (z * 100 / 3); linarith

/-- Non-vacuity of C65. -/
example : ∃ i, i + 1 < result2d_z_size ∧ result2d_z i ≤ 1.5 ∧ (1.5 : ℝ) ≤ result2d_z (i + 1) :=
  C65_partial (by norm_num) (by norm_num)

/-- C65, negated: a non-linear spectrum and a redshift of five, both of which the setters accept. -/
theorem C65_false : ∃ s : PyObj, (∀ N : Num, run N [.setattr (.settable .pk_type) (.int 2),
      .setattr (.settable .z_mean) (.floats [5])] (fresh PyPar.default) = some s) ∧
    s.par.pk_type = .COFFE_PK_NONLINEAR_HALOFIT ∧ (5 : ℝ) ∈ s.par.z_mean ∧
    ∀ i < result2d_z_size, result2d_z i < 5 := by
  have h1 : ∀ s : PyObj, ∃ s', setattr .pk_type (.int 2) s = (.ok (), s') ∧
      s'.par.pk_type = .COFFE_PK_NONLINEAR_HALOFIT := by
    intro s
    have hc : checkDiscrete (.int 2) pkOfInt pkOfStr s = (.ok .COFFE_PK_NONLINEAR_HALOFIT, s) := rfl
    unfold setattr
    exact ⟨_, (Py.bind_ok hc).trans (Py.modify_eq _ _), rfl⟩
  have h2 : ∀ s : PyObj, ∃ s', setattr .z_mean (.floats [5]) s = (.ok (), s') ∧ s'.par.pk_type = s.par.pk_type ∧
      s'.par.z_mean = [5] := by
    intro s
    unfold setattr
    exact ⟨_, (Py.bind_ok (checkFloats_ok (l := [5]) (Or.inl rfl) (by norm_num))).trans (Py.modify_eq _ _), rfl, rfl⟩
  obtain ⟨s1, e1, k1⟩ := h1 (fresh PyPar.default)
  obtain ⟨s2, e2, k2, m2⟩ := h2 s1
  refine ⟨s2, fun N => ?_, by rw [k2, k1], by simp [m2], fun i hi => ?_⟩
  · rw [run_setattr e1, run_setattr e2]; rfl
  · have := (result2d_z_range i hi).2
    linarith

end Coffe
