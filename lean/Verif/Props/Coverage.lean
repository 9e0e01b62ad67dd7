import Verif.Props.Twofast
import Verif.Props.PyDensity

/-! # C53: the tables of the integrals cover the requested separations -/

namespace Coffe

theorem tableSep_lt {len : ℕ} (hl : 0 < len) {ratio : ℝ} (hr : 1 < ratio) {i : ℕ} (hi : i < len + 43) :
    tableSep len ratio i < ratio := by
  refine lt_of_le_of_lt ((tableSep_strictMono hl hr).monotone (show i ≤ len + 42 by omega)) ?_
  unfold tableSep
  have hl' : (0 : ℝ) < len := by exact_mod_cast hl
  rw [if_neg (by omega), if_neg (by omega)]
  calc ratio ^ (((len + 42 - 43 : ℕ) : ℝ) / len) < ratio ^ (1 : ℝ) := by
        refine Real.rpow_lt_rpow_of_exponent_lt hr ?_
        rw [div_lt_one hl']
        exact_mod_cast (by omega : len + 42 - 43 < len)
    _ = ratio := Real.rpow_one _

/-- C53, the part that holds: a separation that does not exceed `(kmax / kmin) ^ ((len - 1) / len)` lies in an interval
of the table. -/
theorem C53_partial (len : ℕ) (hl : 2 ≤ len) {ratio : ℝ} (hr : 1 < ratio) {r : ℝ} (h0 : 0 ≤ r)
    (h : r ≤ ratio ^ (((len : ℝ) - 1) / len)) :
    ∃ i, i + 1 < len + 43 ∧ tableSep len ratio i ≤ r ∧ r ≤ tableSep len ratio (i + 1) := by
  have hlast : tableSep len ratio (len + 42) = ratio ^ (((len : ℝ) - 1) / len) := by
    unfold tableSep
    rw [if_neg (by omega), if_neg (by omega), show len + 42 - 43 = len - 1 by omega,
      Nat.cast_sub (by omega), Nat.cast_one]
  have hex : ∃ i, r ≤ tableSep len ratio (i + 1) := ⟨len + 41, by rw [show len + 41 + 1 = len + 42 by ring, hlast]; exact h⟩
  classical
  have hmin : Nat.find hex ≤ len + 41 := Nat.find_min' hex (by rw [show len + 41 + 1 = len + 42 by ring, hlast]; exact h)
  refine ⟨Nat.find hex, by omega, ?_, Nat.find_spec hex⟩
  rcases Nat.eq_zero_or_pos (Nat.find hex) with e | e
  · rw [e]; simpa [tableSep] using h0
  · have := Nat.find_min hex (show Nat.find hex - 1 < Nat.find hex by omega)
    rw [show Nat.find hex - 1 + 1 = Nat.find hex by omega] at this
    exact (not_le.1 this).le

/-- Non-vacuity of C53. -/
example : ∃ i, i + 1 < 10000 + 43 ∧ tableSep 10000 (300 / 1e-5) i ≤ 1 ∧ 1 ≤ tableSep 10000 (300 / 1e-5) (i + 1) :=
  C53_partial 10000 (by norm_num) (by norm_num) (by norm_num)
    (Real.one_le_rpow (by norm_num) (by norm_num))

/-- C53 is false as stated: with the accepted settings `k_min = 1e-3`, `k_max = 0.1` every table ends below the accepted
separation 150, whatever the number of points. -/
theorem C53_false : ∃ s : PyObj, (∀ N : Num, run N [.setattr (.settable .k_min) (.float 1e-3),
      .setattr (.settable .k_max) (.float 0.1), .setattr (.settable .sep) (.floats [150])] (fresh PyPar.default) = some s) ∧
    (150 : ℝ) ∈ s.par.sep ∧
    ∀ len, 2 ≤ len → ∀ i < len + 43, tableSep len (s.par.k_max / s.par.k_min) i < 150 := by
  have h1 : ∀ s : PyObj, ∃ s', setattr .k_min (.float 1e-3) s = (.ok (), s') ∧ s'.par.k_min = 1e-3 := by
    intro s
    unfold setattr
    exact ⟨_, (Py.bind_ok (checkParameter_ok (isReal_kind (Or.inl rfl)) (by norm_num) (by norm_num))).trans
      (Py.modify_eq _ _), rfl⟩
  have h2 : ∀ s : PyObj, ∃ s', setattr .k_max (.float 0.1) s = (.ok (), s') ∧ s'.par.k_min = s.par.k_min ∧
      s'.par.k_max = 0.1 := by
    intro s
    unfold setattr
    exact ⟨_, (Py.bind_ok (checkParameter_ok (isReal_kind (Or.inl rfl)) (by norm_num) (by norm_num))).trans
      (Py.modify_eq _ _), rfl, rfl⟩
  have h3 : ∀ s : PyObj, ∃ s', setattr .sep (.floats [150]) s = (.ok (), s') ∧ s'.par.k_min = s.par.k_min ∧
      s'.par.k_max = s.par.k_max ∧ s'.par.sep = [150] := by
    intro s
    unfold setattr
    exact ⟨_, (Py.bind_ok (checkFloats_ok (l := [150]) (Or.inl rfl) (by norm_num))).trans (Py.modify_eq _ _), rfl, rfl, rfl⟩
  obtain ⟨s1, e1, k1⟩ := h1 (fresh PyPar.default)
  obtain ⟨s2, e2, k2, m2⟩ := h2 s1
  obtain ⟨s3, e3, k3, m3, p3⟩ := h3 s2
  refine ⟨s3, fun N => ?_, by simp [p3], fun len hl i hi => ?_⟩
  · rw [run_setattr e1, run_setattr e2, run_setattr e3]; rfl
  · rw [k3, k2, k1, m3, m2]
    refine lt_trans (tableSep_lt (by omega) (by norm_num) hi) (by norm_num)

end Coffe
