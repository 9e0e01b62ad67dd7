import Verif.Proofs.EnsembleSingle

/-!
# All terms of `functions_single_integrated` through the tables
-/

namespace Coffe
open Complex Classical

section terms
variable {par : Par} (bg : Bg) (I : Ints) {v : SingleEnv} {r1 r2 : ℝ}

/-- Which effects along the line of sight are requested. -/
def Contrib.along (c : Contrib) : Along → Bool
  | .len => c.len
  | .g4 => c.g4
  | .g5 => c.g5

/-- A sum over the effects along the line of sight. -/
theorem sum_along {M : Type*} [AddCommMonoid M] (g : Along → M) : ∑ A, g A = g .len + g .g4 + g .g5 := by
  have : (Finset.univ : Finset Along) = {.len, .g4, .g5} := rfl
  rw [this]
  simp [Finset.sum_insert, add_assoc]

/-- The properties of the first galaxy, as the terms use them. -/
noncomputable def SingleEnv.used1 (par : Par) (bg : Bg) (v : SingleEnv) : LocalEffect → Along → Sample
  | .d1, .g4 => { v.sample1 par bg with G := 1 }
  | .d1, .g5 => { v.sample1 par bg with G := 1 }
  | .g1, .len => { v.sample1 par bg with a := 1 }
  | .g2, .len => { v.sample1 par bg with a := 1 }
  | .g3, .len => { v.sample1 par bg with a := 1 }
  | _, _ => v.sample1 par bg

/-- The properties of the second galaxy, as the terms use them. -/
noncomputable def SingleEnv.used2 (par : Par) (bg : Bg) (v : SingleEnv) : LocalEffect → Along → Sample
  | .d1, .g4 => { v.sample2 par bg with G := 1 }
  | .d1, .g5 => { v.sample2 par bg with G := 1 }
  | .d1, .len => { v.sample2 par bg with G := bg.G1 v.z2_const }
  | .g1, .len => { v.sample2 par bg with a := 1 }
  | .g2, .len => { v.sample2 par bg with a := 1 }
  | .g3, .len => { v.sample2 par bg with a := 1 }
  | _, _ => v.sample2 par bg

/-- The point of the line of sight to the second galaxy, as the terms use it. -/
noncomputable def SingleEnv.usedRay2 (bg : Bg) (v : SingleEnv) : LocalEffect → Along → Ray
  | .den, .g5 => { v.ray2 bg with a := 1 / bg.a v.z2 }
  | _, _ => v.ray2 bg

/-- The point of the line of sight to the first galaxy, as the terms use it. -/
noncomputable def SingleEnv.usedRay1 (bg : Bg) (v : SingleEnv) : LocalEffect → Along → Ray
  | .den, .g5 => { v.ray1 bg with a := 1 / bg.a v.z1 }
  | .d1, .len => { v.ray1 bg with s := v.s2 }
  | _, _ => v.ray1 bg

/-- The pairs whose terms use wrong properties. -/
def SingleEnv.Faulty (A : LocalEffect) (B : Along) : Prop :=
  (A = .den ∧ B = .g5) ∨ A = .d1 ∨ ((A = .g1 ∨ A = .g2 ∨ A = .g3) ∧ B = .len)

theorem SingleEnv.used_eq (v : SingleEnv) (par : Par) (bg : Bg) {A : LocalEffect} {B : Along} (h : ¬ SingleEnv.Faulty A B) :
    v.used1 par bg A B = v.sample1 par bg ∧ v.used2 par bg A B = v.sample2 par bg ∧
    v.usedRay1 bg A B = v.ray1 bg ∧ v.usedRay2 bg A B = v.ray2 bg := by
  cases A <;> cases B <;> first | (exfalso; simp [SingleEnv.Faulty] at h; done) | exact ⟨rfl, rfl, rfl, rfl⟩

/-- The value of one pair of effects, through the tables. -/
noncomputable def SingleEnv.usedTable (par : Par) (bg : Bg) (I : Ints) (v : SingleEnv) (r1 r2 : ℝ) (A : LocalEffect) (B : Along) : ℝ :=
  mixedTable par I (v.used1 par bg A B) (v.usedRay2 bg A B) v.chi1 v.lambda2 r1 A B
    + mixedTable par I (v.used2 par bg A B) (v.usedRay1 bg A B) v.chi2 v.lambda1 r2 A B

/-- The value of all terms through the tables. -/
theorem single_result_eq (h : v.Regular par I r1 r2)
    (hn : (par.correlation_contrib.d2 ∨ par.correlation_contrib.g1 ∨ par.correlation_contrib.g2 ∨ par.correlation_contrib.g3) →
      (par.correlation_contrib.g4 ∨ par.correlation_contrib.g5) →
      v.ren1 = I.I40.result r1 - I.I40.renormalization v.lambda2 v.chi1 ∧
      v.ren2 = I.I40.result r2 - I.I40.renormalization v.lambda1 v.chi2)
    (hmu : par.correlation_contrib.rsd → par.correlation_contrib.len → |v.mu| < 0.999) :
    single_result par bg I v = ∑ A : LocalEffect, ∑ B : Along,
      if par.correlation_contrib.atGalaxy A ∧ par.correlation_contrib.along B then v.usedTable par bg I r1 r2 A B else 0 := by
  have t_den_len : single_den_len par bg I v = if par.correlation_contrib.atGalaxy .den ∧ par.correlation_contrib.along .len then v.usedTable par bg I r1 r2 .den .len else 0 :=
    single_den_len_eq bg I h
  have t_den_g4 : single_den_g4 par bg I v = if par.correlation_contrib.atGalaxy .den ∧ par.correlation_contrib.along .g4 then v.usedTable par bg I r1 r2 .den .g4 else 0 :=
    single_den_g4_eq bg I h
  have t_den_g5 : single_den_g5 par bg I v = if par.correlation_contrib.atGalaxy .den ∧ par.correlation_contrib.along .g5 then v.usedTable par bg I r1 r2 .den .g5 else 0 :=
    single_den_g5_eq bg I h
  have t_rsd_len : single_rsd_len par bg I v = if par.correlation_contrib.atGalaxy .rsd ∧ par.correlation_contrib.along .len then v.usedTable par bg I r1 r2 .rsd .len else 0 := by
    by_cases hr : par.correlation_contrib.rsd ∧ par.correlation_contrib.len
    · exact single_rsd_len_eq bg I h (hmu hr.1 hr.2)
    · rw [single_rsd_len, if_neg hr, if_neg (by exact hr)]
  have t_rsd_g4 : single_rsd_g4 par bg I v = if par.correlation_contrib.atGalaxy .rsd ∧ par.correlation_contrib.along .g4 then v.usedTable par bg I r1 r2 .rsd .g4 else 0 :=
    single_rsd_g4_eq bg I h
  have t_rsd_g5 : single_rsd_g5 par bg I v = if par.correlation_contrib.atGalaxy .rsd ∧ par.correlation_contrib.along .g5 then v.usedTable par bg I r1 r2 .rsd .g5 else 0 :=
    single_rsd_g5_eq bg I h
  have t_d1_len : single_d1_len par bg I v = if par.correlation_contrib.atGalaxy .d1 ∧ par.correlation_contrib.along .len then v.usedTable par bg I r1 r2 .d1 .len else 0 :=
    single_d1_len_eq bg I h
  have t_d1_g4 : single_d1_g4 par bg I v = if par.correlation_contrib.atGalaxy .d1 ∧ par.correlation_contrib.along .g4 then v.usedTable par bg I r1 r2 .d1 .g4 else 0 :=
    single_d1_g4_eq bg I h
  have t_d1_g5 : single_d1_g5 par bg I v = if par.correlation_contrib.atGalaxy .d1 ∧ par.correlation_contrib.along .g5 then v.usedTable par bg I r1 r2 .d1 .g5 else 0 :=
    single_d1_g5_eq bg I h
  have t_d2_len : single_d2_len par bg I v = if par.correlation_contrib.atGalaxy .d2 ∧ par.correlation_contrib.along .len then v.usedTable par bg I r1 r2 .d2 .len else 0 :=
    single_d2_len_eq bg I h
  have t_d2_g4 : single_d2_g4 par bg I v = if par.correlation_contrib.atGalaxy .d2 ∧ par.correlation_contrib.along .g4 then v.usedTable par bg I r1 r2 .d2 .g4 else 0 := by
    by_cases hr : par.correlation_contrib.d2 ∧ par.correlation_contrib.g4
    · exact single_d2_g4_eq bg I h (hn (by simp [hr.1]) (by simp [hr.2])).1 (hn (by simp [hr.1]) (by simp [hr.2])).2
    · rw [single_d2_g4, if_neg hr, if_neg (by exact hr)]
  have t_d2_g5 : single_d2_g5 par bg I v = if par.correlation_contrib.atGalaxy .d2 ∧ par.correlation_contrib.along .g5 then v.usedTable par bg I r1 r2 .d2 .g5 else 0 := by
    by_cases hr : par.correlation_contrib.d2 ∧ par.correlation_contrib.g5
    · exact single_d2_g5_eq bg I h (hn (by simp [hr.1]) (by simp [hr.2])).1 (hn (by simp [hr.1]) (by simp [hr.2])).2
    · rw [single_d2_g5, if_neg hr, if_neg (by exact hr)]
  have t_g1_len : single_g1_len par bg I v = if par.correlation_contrib.atGalaxy .g1 ∧ par.correlation_contrib.along .len then v.usedTable par bg I r1 r2 .g1 .len else 0 :=
    single_g1_len_eq bg I h
  have t_g1_g4 : single_g1_g4 par bg I v = if par.correlation_contrib.atGalaxy .g1 ∧ par.correlation_contrib.along .g4 then v.usedTable par bg I r1 r2 .g1 .g4 else 0 := by
    by_cases hr : par.correlation_contrib.g1 ∧ par.correlation_contrib.g4
    · exact single_g1_g4_eq bg I h (hn (by simp [hr.1]) (by simp [hr.2])).1 (hn (by simp [hr.1]) (by simp [hr.2])).2
    · rw [single_g1_g4, if_neg hr, if_neg (by exact hr)]
  have t_g1_g5 : single_g1_g5 par bg I v = if par.correlation_contrib.atGalaxy .g1 ∧ par.correlation_contrib.along .g5 then v.usedTable par bg I r1 r2 .g1 .g5 else 0 := by
    by_cases hr : par.correlation_contrib.g1 ∧ par.correlation_contrib.g5
    · exact single_g1_g5_eq bg I h (hn (by simp [hr.1]) (by simp [hr.2])).1 (hn (by simp [hr.1]) (by simp [hr.2])).2
    · rw [single_g1_g5, if_neg hr, if_neg (by exact hr)]
  have t_g2_len : single_g2_len par bg I v = if par.correlation_contrib.atGalaxy .g2 ∧ par.correlation_contrib.along .len then v.usedTable par bg I r1 r2 .g2 .len else 0 :=
    single_g2_len_eq bg I h
  have t_g2_g4 : single_g2_g4 par bg I v = if par.correlation_contrib.atGalaxy .g2 ∧ par.correlation_contrib.along .g4 then v.usedTable par bg I r1 r2 .g2 .g4 else 0 := by
    by_cases hr : par.correlation_contrib.g2 ∧ par.correlation_contrib.g4
    · exact single_g2_g4_eq bg I h (hn (by simp [hr.1]) (by simp [hr.2])).1 (hn (by simp [hr.1]) (by simp [hr.2])).2
    · rw [single_g2_g4, if_neg hr, if_neg (by exact hr)]
  have t_g2_g5 : single_g2_g5 par bg I v = if par.correlation_contrib.atGalaxy .g2 ∧ par.correlation_contrib.along .g5 then v.usedTable par bg I r1 r2 .g2 .g5 else 0 := by
    by_cases hr : par.correlation_contrib.g2 ∧ par.correlation_contrib.g5
    · exact single_g2_g5_eq bg I h (hn (by simp [hr.1]) (by simp [hr.2])).1 (hn (by simp [hr.1]) (by simp [hr.2])).2
    · rw [single_g2_g5, if_neg hr, if_neg (by exact hr)]
  have t_g3_len : single_g3_len par bg I v = if par.correlation_contrib.atGalaxy .g3 ∧ par.correlation_contrib.along .len then v.usedTable par bg I r1 r2 .g3 .len else 0 :=
    single_g3_len_eq bg I h
  have t_g3_g4 : single_g3_g4 par bg I v = if par.correlation_contrib.atGalaxy .g3 ∧ par.correlation_contrib.along .g4 then v.usedTable par bg I r1 r2 .g3 .g4 else 0 := by
    by_cases hr : par.correlation_contrib.g3 ∧ par.correlation_contrib.g4
    · exact single_g3_g4_eq bg I h (hn (by simp [hr.1]) (by simp [hr.2])).1 (hn (by simp [hr.1]) (by simp [hr.2])).2
    · rw [single_g3_g4, if_neg hr, if_neg (by exact hr)]
  have t_g3_g5 : single_g3_g5 par bg I v = if par.correlation_contrib.atGalaxy .g3 ∧ par.correlation_contrib.along .g5 then v.usedTable par bg I r1 r2 .g3 .g5 else 0 := by
    by_cases hr : par.correlation_contrib.g3 ∧ par.correlation_contrib.g5
    · exact single_g3_g5_eq bg I h (hn (by simp [hr.1]) (by simp [hr.2])).1 (hn (by simp [hr.1]) (by simp [hr.2])).2
    · rw [single_g3_g5, if_neg hr, if_neg (by exact hr)]
  rw [single_result, t_den_len, t_den_g4, t_den_g5, t_rsd_len, t_rsd_g4, t_rsd_g5, t_d1_len, t_d1_g4, t_d1_g5, t_d2_len, t_d2_g4, t_d2_g5, t_g1_len, t_g1_g4, t_g1_g5, t_g2_len, t_g2_g4, t_g2_g5, t_g3_len, t_g3_g4, t_g3_g5, sum_local]
  simp only [sum_along]
  ring

end terms

/-- The renormalisation does not depend on the order of the two places. -/
theorem ExactTables.renormalization_comm {P : ℝ → ℝ} {kmin kmax : ℝ} {I : Ints} (hI : ExactTables P kmin kmax I) (a b : ℝ) :
    I.I40.renormalization a b = I.I40.renormalization b a := by
  rw [hI.2, hI.2, renormalization_monopole, renormalization_monopole]
  simp only [mul_comm (Real.sinc (_ * a))]

/-- A pair of a local effect and an effect along the line of sight. -/
theorem twoPoint_mixed {P : ℝ → ℝ} {kmin kmax : ℝ} (h0 : 0 < kmin) (h1 : kmin ≤ kmax)
    (hP : ContinuousOn P (Set.Icc kmin kmax)) {I : Ints} (hI : ExactTables P kmin kmax I) (par : Par) (g : Sample) (q : Ray)
    (A : LocalEffect) (B : Along) {X Y : Place} {r χ lam : ℝ} (hr : 0 < r) (hχ : 0 < χ) (hl : 0 < lam) (hX : Places r χ lam X Y) :
    twoPoint P kmin kmax (galaxyResponse par.hubble par.omega g A) X (lightResponse par.hubble par.omega q B) Y =
      (mixedTable par I g q χ lam r A B : ℝ) := by
  rw [galaxyResponse, lightResponse, twoPoint_scale h0 h1 hP hI _ _ _ _ hr hχ hl hX, mixedTable, hI.renormalization_comm χ lam]

/-- A pair of an effect along the line of sight and a local effect. -/
theorem twoPoint_mixed_swap {P : ℝ → ℝ} {kmin kmax : ℝ} (h0 : 0 < kmin) (h1 : kmin ≤ kmax)
    (hP : ContinuousOn P (Set.Icc kmin kmax)) {I : Ints} (hI : ExactTables P kmin kmax I) (par : Par) (g : Sample) (q : Ray)
    (A : LocalEffect) (B : Along) {X Y : Place} {r χ lam : ℝ} (hr : 0 < r) (hχ : 0 < χ) (hl : 0 < lam) (hX : Places r lam χ Y X) :
    twoPoint P kmin kmax (lightResponse par.hubble par.omega q B) Y (galaxyResponse par.hubble par.omega g A) X =
      (mixedTable par I g q χ lam r A B : ℝ) := by
  rw [galaxyResponse, lightResponse, twoPoint_scale h0 h1 hP hI _ _ _ _ hr hl hχ hX, mixedTable]
  congr 1
  have e1 : (χ ^ 2 - lam ^ 2 - r ^ 2) / (2 * lam * r) = -((lam ^ 2 - χ ^ 2 + r ^ 2) / (2 * lam * r)) := by ring
  have e2 : (χ ^ 2 - lam ^ 2 + r ^ 2) / (2 * χ * r) = -((lam ^ 2 - χ ^ 2 - r ^ 2) / (2 * χ * r)) := by ring
  have e3 : cosObserver lam χ r = cosObserver χ lam r := by rw [cosObserver, cosObserver]; ring
  rw [e1, e2, e3]
  simp only [tableSum, weights]
  ring

/-- The environment of the code is two triangles. -/
theorem singleEnv_regular {P : ℝ → ℝ} {kmin kmax : ℝ} (h0 : 0 < kmin) (h1 : kmin ≤ kmax)
    (hP : ContinuousOn P (Set.Icc kmin kmax)) {I : Ints} (hI : ExactTables P kmin kmax I) {par : Par} (hF : par.FullSky)
    (bg : Bg) (z mu sep x : ℝ) (hx : 0 < x) (p1 : 0 < (SingleEnv.of par bg I z mu sep x).chi1)
    (p2 : 0 < (SingleEnv.of par bg I z mu sep x).chi2) (n1 : (SingleEnv.of par bg I z mu sep x).r21 ≠ 0)
    (n2 : (SingleEnv.of par bg I z mu sep x).r22 ≠ 0) :
    (SingleEnv.of par bg I z mu sep x).Regular par I (Real.sqrt (SingleEnv.of par bg I z mu sep x).r21)
      (Real.sqrt (SingleEnv.of par bg I z mu sep x).r22) := by
  have clamp : ∀ e : ℝ, (if e < 0 then 0 else e) ≠ 0 → 0 < e ∧ (if e < 0 then 0 else e) = e := by
    intro e he
    split_ifs at he ⊢ with hlt
    · exact absurd rfl he
    · exact ⟨lt_of_le_of_ne (not_lt.1 hlt) (Ne.symm he), rfl⟩
  have g1 := clamp _ n1
  have g2 := clamp _ n2
  have q1 : 0 < (SingleEnv.of par bg I z mu sep x).r21 := lt_of_lt_of_eq g1.1 g1.2.symm
  have q2 : 0 < (SingleEnv.of par bg I z mu sep x).r22 := lt_of_lt_of_eq g2.1 g2.2.symm
  have f1 : (SingleEnv.of par bg I z mu sep x).r21 = _ := g1.2
  have f2 : (SingleEnv.of par bg I z mu sep x).r22 = _ := g2.2
  have r1 := Real.sqrt_pos.2 q1
  have r2 := Real.sqrt_pos.2 q2
  have t1 := hI.recurrence h0 h1 hP r1
  have t2 := hI.recurrence h0 h1 hP r2
  have l1 : (SingleEnv.of par bg I z mu sep x).lambda1 = (SingleEnv.of par bg I z mu sep x).chi1 * x := rfl
  have l2 : (SingleEnv.of par bg I z mu sep x).lambda2 = (SingleEnv.of par bg I z mu sep x).chi2 * x := rfl
  refine ⟨hF, p1, p2, hx, rfl, rfl, r1, r2, (Real.sq_sqrt q1.le).symm, (Real.sq_sqrt q2.le).symm, ?_, ?_,
    ⟨t1.1, t1.2.1, t1.2.2.1, t1.2.2.2⟩, ⟨t2.1, t2.2.1, t2.2.2.1, t2.2.2.2⟩⟩
  · rw [cosObserver, Real.sq_sqrt q1.le, f1]
    have : 0 < (SingleEnv.of par bg I z mu sep x).lambda2 := l2 ▸ mul_pos p2 hx
    change _ = ((SingleEnv.of par bg I z mu sep x).chi1 ^ 2 + (SingleEnv.of par bg I z mu sep x).lambda2 ^ 2
      - ((SingleEnv.of par bg I z mu sep x).lambda2 * (SingleEnv.of par bg I z mu sep x).lambda2
        + (SingleEnv.of par bg I z mu sep x).chi1 * (SingleEnv.of par bg I z mu sep x).chi1
        - 2 * (SingleEnv.of par bg I z mu sep x).chi1 * (SingleEnv.of par bg I z mu sep x).lambda2
          * (SingleEnv.of par bg I z mu sep x).costheta)) / _
    field_simp
    ring
  · rw [cosObserver, Real.sq_sqrt q2.le, f2]
    have : 0 < (SingleEnv.of par bg I z mu sep x).lambda1 := l1 ▸ mul_pos p1 hx
    change _ = ((SingleEnv.of par bg I z mu sep x).chi2 ^ 2 + (SingleEnv.of par bg I z mu sep x).lambda1 ^ 2
      - ((SingleEnv.of par bg I z mu sep x).lambda1 * (SingleEnv.of par bg I z mu sep x).lambda1
        + (SingleEnv.of par bg I z mu sep x).chi2 * (SingleEnv.of par bg I z mu sep x).chi2
        - 2 * (SingleEnv.of par bg I z mu sep x).chi2 * (SingleEnv.of par bg I z mu sep x).lambda1
          * (SingleEnv.of par bg I z mu sep x).costheta)) / _
    field_simp
    ring

end Coffe
