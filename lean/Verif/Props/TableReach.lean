import Verif.Model.C.IntegralValues
import Verif.Props.Inside
import Verif.Spec.TableReach

/-!
# C78: the table of the renormalisation reaches as far as the lines of sight
-/

namespace Coffe
open Classical

theorem foldl_max_ge (l : List ℝ) (a : ℝ) : a ≤ l.foldl max a ∧ ∀ x ∈ l, x ≤ l.foldl max a := by
  induction l generalizing a with
  | nil => exact ⟨le_rfl, by simp⟩
  | cons b l ih =>
    obtain ⟨h1, h2⟩ := ih (max a b)
    refine ⟨(le_max_left _ _).trans h1, fun x hx => ?_⟩
    rcases List.mem_cons.1 hx with rfl | hx
    · exact (le_max_right _ _).trans h1
    · exact h2 x hx

theorem foldl_max_mem (l : List ℝ) (a : ℝ) : l.foldl max a = a ∨ l.foldl max a ∈ l := by
  induction l generalizing a with
  | nil => exact Or.inl rfl
  | cons b l ih =>
    rcases ih (max a b) with h | h
    · rcases max_choice a b with e | e
      · exact Or.inl (by rw [List.foldl_cons, h, e])
      · exact Or.inr (by rw [List.foldl_cons, h, e]; exact List.mem_cons_self)
    · exact Or.inr (List.mem_cons_of_mem _ h)

/-- The largest entry of a list, as the code finds it. -/
theorem largest_of (l : List ℝ) (hl : l ≠ []) : l.foldl max (l.headD 0) ∈ l ∧ ∀ x ∈ l, x ≤ l.foldl max (l.headD 0) := by
  refine ⟨?_, (foldl_max_ge l _).2⟩
  rcases foldl_max_mem l (l.headD 0) with h | h
  · rw [h]
    cases l with
    | nil => exact absurd rfl hl
    | cons a l => exact List.mem_cons_self
  · exact h

/-- A ruler up to one redshift is a ruler up to every smaller one. -/
theorem Bg.RulerUpTo.shorter {bg : Bg} {Z W : ℝ} (hb : bg.RulerUpTo Z) (h0 : 0 ≤ W) (h : W ≤ Z) : bg.RulerUpTo W where
  zero := hb.zero
  grows z w h1 h2 h3 := hb.grows z w h1 h2 (h3.trans h)
  inverse c hc := by
    have hW := hb.nonneg ⟨h0, h⟩
    obtain ⟨h1, h2⟩ := hb.inverse c ⟨hc.1, hc.2.trans hW.2⟩
    refine ⟨⟨h1.1, ?_⟩, h2⟩
    by_contra hlt
    have := hb.grows W (bg.z_as_chi c) h0 (not_le.1 hlt) h1.2
    rw [h2] at this
    exact absurd hc.2 (not_le.2 this)

theorem SameBelow.agree {X : ℝ} {I I' : Ints} (h : SameBelow X I I') (Z R : ℝ) (par : Par) (bg : Bg) :
    AgreeUpTo Z X R par par bg bg I I' where
  settings := rfl
  galaxy_bias1 _ _ := rfl
  galaxy_bias2 _ _ := rfl
  magnification_bias1 _ _ := rfl
  magnification_bias2 _ _ := rfl
  evolution_bias1 _ _ := rfl
  evolution_bias2 _ _ := rfl
  comoving_distance _ _ := rfl
  f _ _ := rfl
  conformal_Hz _ _ := rfl
  G1 _ _ := rfl
  G2 _ _ := rfl
  a _ _ := rfl
  D1 _ _ := rfl
  z_as_chi _ _ := rfl
  result k r _ := by rw [h.result]
  result2d k z r _ _ := by rw [h.result2d]
  renormalization k c d hc hd := h.below k c d hc.1 hc.2 hd.1 hd.2
  renormalization_zero_separation k c _ := by rw [h.zero]

section
variable {par : Par} {bg : Bg} {I I' : Ints} {Q : Quad} {Z : ℝ} {z_mean deltaz zmax : List ℝ}

/-- The farthest redshift of the bins, and the distance up to which the table is built. -/
theorem bins_reach (hb : bg.RulerUpTo Z) (hZ : ∀ p ∈ z_mean.zip deltaz, p.1 + p.2 ≤ Z) {z dz : ℝ} (hz : 0 ≤ z)
    (hd : 0 ≤ dz) (hin : (z, dz) ∈ z_mean.zip deltaz) (out : OutputType) (ho : out = .CORRFUNC ∨ out = .MULTIPOLES) :
    ∃ W, bg.RulerUpTo W ∧ z + dz ≤ W ∧ bg.comoving_distance (z + dz) ≤ bg.comoving_distance W ∧
      renormalization_chi_max out bg.comoving_distance z_mean deltaz zmax = bg.comoving_distance W := by
  have hzip : List.zipWith (· + ·) z_mean deltaz = (z_mean.zip deltaz).map fun p => p.1 + p.2 := by
    rw [List.zip, List.map_zipWith]
  have hm : z + dz ∈ List.zipWith (· + ·) z_mean deltaz := by
    rw [hzip]; exact List.mem_map.2 ⟨_, hin, rfl⟩
  obtain ⟨h1, h2⟩ := largest_of _ (List.ne_nil_of_mem hm)
  have hle := h2 _ hm
  have hWZ : (List.zipWith (· + ·) z_mean deltaz).foldl max ((List.zipWith (· + ·) z_mean deltaz).headD 0) ≤ Z := by
    have := h1
    rw [hzip] at this
    obtain ⟨p, hp, e⟩ := List.mem_map.1 this
    rw [hzip, ← e]
    exact hZ p hp
  refine ⟨_, hb.shorter (by linarith) hWZ, hle, ?_, if_pos ho⟩
  exact ((hb.shorter (by linarith) hWZ).nonneg ⟨by linarith, hle⟩).2

/-- The multipoles of a pair that fits into one of the redshift bins do not depend on the renormalisation beyond the end of
its table. -/
theorem C78_multipoles_partial (hQ : Q.InsideCube) (hb : bg.RulerUpTo Z) (hZ : ∀ p ∈ z_mean.zip deltaz, p.1 + p.2 ≤ Z)
    {z dz s : ℝ} (hin : (z, dz) ∈ z_mean.zip deltaz) (hz : 0 ≤ z) (hd : 0 ≤ dz) (hs : 0 ≤ s)
    (hfront : s / 2 < bg.comoving_distance z) (hfit : bg.comoving_distance z + s / 2 ≤ bg.comoving_distance (z + dz))
    (h : SameBelow (renormalization_chi_max .MULTIPOLES bg.comoving_distance z_mean deltaz zmax) I I')
    (zlo zhi m : ℝ) (l : ℕ) :
    signal_value Q par bg I' z zlo zhi s m l .MULTIPOLES = signal_value Q par bg I z zlo zhi s m l .MULTIPOLES := by
  obtain ⟨W, h1, h2, h3, h4⟩ := bins_reach (zmax := zmax) hb hZ hz hd hin .MULTIPOLES (Or.inr rfl)
  rw [h4] at h
  exact C74_multipoles_partial hQ h1 (h.agree _ _ _ _) ⟨hz, by linarith⟩ hs hfront (hfit.trans h3) _ _ _ _

/-- The same for the correlation function; only the separation along the line of sight has to fit. -/
theorem C78_corrfunc_partial (hQ : Q.InsideCube) (hb : bg.RulerUpTo Z) (hZ : ∀ p ∈ z_mean.zip deltaz, p.1 + p.2 ≤ Z)
    {z dz s m : ℝ} (hin : (z, dz) ∈ z_mean.zip deltaz) (hz : 0 ≤ z) (hd : 0 ≤ dz) (hs : 0 ≤ s)
    (hfront : s * |m| / 2 < bg.comoving_distance z)
    (hfit : bg.comoving_distance z + s * |m| / 2 ≤ bg.comoving_distance (z + dz))
    (h : SameBelow (renormalization_chi_max .CORRFUNC bg.comoving_distance z_mean deltaz zmax) I I')
    (zlo zhi : ℝ) (l : ℕ) :
    signal_value Q par bg I' z zlo zhi s m l .CORRFUNC = signal_value Q par bg I z zlo zhi s m l .CORRFUNC := by
  obtain ⟨W, h1, h2, h3, h4⟩ := bins_reach (zmax := zmax) hb hZ hz hd hin .CORRFUNC (Or.inl rfl)
  rw [h4] at h
  exact C74_corrfunc_partial hQ h1 (h.agree _ _ _ _) ⟨hz, by linarith⟩ hs hfront (hfit.trans h3) _ _ _

/-- The same for the redshift-averaged multipoles of the executable. -/
theorem C78_average_partial (hQ : Q.InsideCube) (hb : bg.RulerUpTo Z) (hZ : ∀ w ∈ zmax, w ≤ Z) {zlo zhi s : ℝ}
    (hin : zhi ∈ zmax) (hmin : 0 < zlo) (hlt : zlo ≤ zhi) (hs : 0 ≤ s)
    (hfit : bg.comoving_distance zlo + s / 2 ≤ bg.comoving_distance zhi - s / 2)
    (h : SameBelow (renormalization_chi_max .AVERAGE_MULTIPOLES bg.comoving_distance z_mean deltaz zmax) I I')
    (z m : ℝ) (l : ℕ) :
    signal_value Q par bg I' z zlo zhi s m l .AVERAGE_MULTIPOLES =
      signal_value Q par bg I z zlo zhi s m l .AVERAGE_MULTIPOLES := by
  obtain ⟨h1, h2⟩ := largest_of _ (List.ne_nil_of_mem hin)
  have hle := h2 _ hin
  have h4 : renormalization_chi_max .AVERAGE_MULTIPOLES bg.comoving_distance z_mean deltaz zmax =
      bg.comoving_distance (zmax.foldl max (zmax.headD 0)) := by
    unfold renormalization_chi_max
    rw [if_neg (by simp), if_pos rfl]
  have hr := (hb.shorter (by linarith) (hZ _ h1)).nonneg ⟨by linarith, hle⟩
  rw [h4] at h
  have h' : SameBelow (bg.comoving_distance zhi) I I' :=
    ⟨h.result, h.result2d, h.zero, fun k c d a b e f => h.below k c d a (b.trans hr.2) e (f.trans hr.2)⟩
  exact C74_average_partial hQ (hb.shorter (by linarith) (hZ _ hin)) (h'.agree _ _ _ _) hmin hlt hs hfit _ _ _

/-- The nodes of the table go from the observer to that distance in 200 equal steps. -/
theorem C78_nodes (X : ℝ) : renormalization_chi X 0 = 0 ∧ renormalization_chi X 200 = X ∧
    ∀ j, renormalization_chi X (j + 1) - renormalization_chi X j = X / 200 := by
  refine ⟨?_, ?_, fun j => ?_⟩ <;> simp only [renormalization_chi, renormalization_nbins] <;> push_cast <;> ring

end

/-! ## A case that meets the hypotheses -/

/-- A renormalisation that differs beyond 1.1. -/
noncomputable def beyondInts (c : ℝ) : Ints := fun _ =>
  ⟨fun _ => 1, fun _ _ => 1, fun a b => if a ≤ 11 / 10 ∧ b ≤ 11 / 10 then 0 else c, fun _ => 0⟩

theorem beyond_same (c : ℝ) : SameBelow (11 / 10) (fun _ => wConst 1) (beyondInts c) :=
  ⟨fun _ => rfl, fun _ => rfl, fun _ => rfl, fun _ _ _ _ h1 _ h2 => if_pos ⟨h1, h2⟩⟩

theorem wChiMax {out : OutputType} (ho : out = .CORRFUNC ∨ out = .MULTIPOLES) (zmax : List ℝ) :
    renormalization_chi_max out wBg.comoving_distance [1 / 2, 1] [1 / 10, 1 / 10] zmax = 11 / 10 := by
  unfold renormalization_chi_max
  rw [if_pos ho]
  norm_num [wBg]

example (par : Par) : signal_value midpointRule par wBg (beyondInts 7) 1 0 0 (1 / 5) 0 2 .MULTIPOLES =
    signal_value midpointRule par wBg (fun _ => wConst 1) 1 0 0 (1 / 5) 0 2 .MULTIPOLES :=
  C78_multipoles_partial (z_mean := [1 / 2, 1]) (deltaz := [1 / 10, 1 / 10]) (zmax := []) (dz := 1 / 10) midpointRule_inside
    (wBg_ruler 15) (by norm_num) (by norm_num) (by norm_num) (by norm_num) (by norm_num) (by norm_num [wBg])
    (by norm_num [wBg]) (by rw [wChiMax (Or.inr rfl)]; exact beyond_same 7) 0 0 0 2

example (par : Par) : signal_value midpointRule par wBg (beyondInts 7) 1 0 0 10 0 2 .CORRFUNC =
    signal_value midpointRule par wBg (fun _ => wConst 1) 1 0 0 10 0 2 .CORRFUNC :=
  C78_corrfunc_partial (z_mean := [1 / 2, 1]) (deltaz := [1 / 10, 1 / 10]) (zmax := []) (dz := 1 / 10) midpointRule_inside
    (wBg_ruler 15) (by norm_num) (by norm_num) (by norm_num) (by norm_num) (by norm_num) (by norm_num [wBg])
    (by norm_num [wBg]) (by rw [wChiMax (Or.inl rfl)]; exact beyond_same 7) 0 0 2

example (par : Par) : signal_value midpointRule par wBg (beyondInts 7) 0 (1 / 2) (11 / 10) (1 / 5) 0 2 .AVERAGE_MULTIPOLES =
    signal_value midpointRule par wBg (fun _ => wConst 1) 0 (1 / 2) (11 / 10) (1 / 5) 0 2 .AVERAGE_MULTIPOLES :=
  C78_average_partial (z_mean := []) (deltaz := []) (zmax := [1, 11 / 10]) midpointRule_inside
    (wBg_ruler 15) (by norm_num) (by norm_num) (by norm_num) (by norm_num) (by norm_num) (by norm_num [wBg])
    (by
      have : renormalization_chi_max .AVERAGE_MULTIPOLES wBg.comoving_distance [] [] [1, 11 / 10] = 11 / 10 := by
        unfold renormalization_chi_max
        rw [if_neg (by simp), if_pos rfl]
        norm_num [wBg]
      rw [this]; exact beyond_same 7) 0 0 2

/-! ## Where it fails -/

/-- The rule that looks at the far corner of the cube. -/
noncomputable def cornerRule : Quad := ⟨fun f => f 1, fun _ f => f fun _ => 1⟩

theorem cornerRule_inside : cornerRule.InsideCube :=
  ⟨fun _ _ h => h _ ⟨by norm_num, by norm_num⟩, fun _ _ _ h => h _ fun _ _ => ⟨by norm_num, by norm_num⟩⟩

/-- Only the first integrated potential term, renormalised. -/
noncomputable def timeDelayPar : Par :=
  { wPar with correlation_contrib := { Contrib.none with g4 := true }, divergent := true }

theorem timeDelay_double (I : Ints) (z mu s : ℝ) : functions_double_integrated timeDelayPar wBg I z mu s 1 1 =
    36 * (DoubleEnv.of timeDelayPar wBg I z mu s 1 1).ren * COFFE_H0 ^ 4 := by
  have hs1 : (DoubleEnv.of timeDelayPar wBg I z mu s 1 1).s1 = 0 := rfl
  have hs2 : (DoubleEnv.of timeDelayPar wBg I z mu s 1 1).s2 = 0 := rfl
  unfold functions_double_integrated
  generalize DoubleEnv.of timeDelayPar wBg I z mu s 1 1 = v at *
  simp [double_result, double_len_len, double_g4_g4, double_g5_g5, double_g4_len, double_g5_len,
    double_g4_g5, timeDelayPar, wPar, Contrib.none, wBg, hs1, hs2]
  norm_num

/-- A separation larger than the bin, which the setters accept: the renormalisation is looked up beyond its table.  Two
tables that agree on all of the code's nodes, and between them, give different values. -/
theorem C78_wide_false : ∃ (par : Par) (bg : Bg) (I I' : Ints) (Q : Quad), Q.InsideCube ∧ bg.RulerUpTo 15 ∧
    SameBelow (renormalization_chi_max .CORRFUNC bg.comoving_distance [1 / 2, 1] [1 / 10, 1 / 10] []) I I' ∧
    signal_value Q par bg I' 1 0 0 1 1 0 .CORRFUNC ≠ signal_value Q par bg I 1 0 0 1 1 0 .CORRFUNC := by
  refine ⟨timeDelayPar, wBg, fun _ => wConst 1, beyondInts 7, cornerRule, cornerRule_inside, wBg_ruler 15,
    by rw [wChiMax (Or.inl rfl)]; exact beyond_same 7, ?_⟩
  have e : ∀ I : Ints, signal_value cornerRule timeDelayPar wBg I 1 0 0 1 1 0 .CORRFUNC =
      36 * (DoubleEnv.of timeDelayPar wBg I 1 1 1 1 1).ren * COFFE_H0 ^ 4 := by
    intro I
    rw [← timeDelay_double]
    simp [signal_value, coffe_integrate, integrate_double, non_gate, single_gate, double_gate, timeDelayPar, wPar,
      Contrib.none, cornerRule]
  rw [e, e]
  have r1 : (DoubleEnv.of timeDelayPar wBg (fun _ => wConst 1) 1 1 1 1 1).ren = 1 := by
    norm_num [DoubleEnv.of, timeDelayPar, wPar, wBg, wConst, Ints.I40]
  have r2 : (DoubleEnv.of timeDelayPar wBg (beyondInts 7) 1 1 1 1 1).ren = -6 := by
    norm_num [DoubleEnv.of, timeDelayPar, wPar, wBg, beyondInts, Ints.I40]
  rw [r1, r2]
  norm_num [COFFE_H0]

/-- The Python object builds its integrals for multipoles at the mean redshifts, whatever is computed afterwards: averaged
multipoles of a bin beyond the bins of the mean redshifts are looked up beyond the table. -/
theorem C78_python_average_false : ∃ (par : Par) (bg : Bg) (I I' : Ints) (Q : Quad), Q.InsideCube ∧ bg.RulerUpTo 15 ∧
    SameBelow (renormalization_chi_max .MULTIPOLES bg.comoving_distance [1 / 2, 1] [1 / 10, 1 / 10] [2]) I I' ∧
    signal_value Q par bg I' 0 1 2 (1 / 2) 0 0 .AVERAGE_MULTIPOLES ≠
      signal_value Q par bg I 0 1 2 (1 / 2) 0 0 .AVERAGE_MULTIPOLES := by
  refine ⟨timeDelayPar, wBg, fun _ => wConst 1, beyondInts 7, cornerRule, cornerRule_inside, wBg_ruler 15,
    by rw [wChiMax (Or.inr rfl)]; exact beyond_same 7, ?_⟩
  have e : ∀ I : Ints, signal_value cornerRule timeDelayPar wBg I 0 1 2 (1 / 2) 0 0 .AVERAGE_MULTIPOLES =
      36 * (DoubleEnv.of timeDelayPar wBg I (7 / 4) 1 (1 / 2) 1 1).ren * COFFE_H0 ^ 4 * legWeight 0 1
        * average_weight timeDelayPar wBg (7 / 4) := by
    intro I
    rw [← timeDelay_double]
    have hz : average_z wBg 1 2 (1 / 2) 1 = 7 / 4 := by norm_num [average_z, wBg]
    have hm : (2 * 1 - 1 : ℝ) = 1 := by norm_num
    have hd : average_double_integrated_integrand timeDelayPar wBg I 1 2 (1 / 2) 0 (fun _ => 1) =
        functions_double_integrated timeDelayPar wBg I (7 / 4) 1 (1 / 2) 1 1 * legWeight 0 1
          * average_weight timeDelayPar wBg (7 / 4) := by
      unfold average_double_integrated_integrand
      simp only [hz, hm]
    rw [← hd]
    simp [signal_value, coffe_integrate, integrate_double, non_gate, single_gate, double_gate, timeDelayPar, wPar,
      Contrib.none, cornerRule]
  rw [e, e]
  have r1 : (DoubleEnv.of timeDelayPar wBg (fun _ => wConst 1) (7 / 4) 1 (1 / 2) 1 1).ren = 1 := by
    norm_num [DoubleEnv.of, timeDelayPar, wPar, wBg, wConst, Ints.I40]
  have r2 : (DoubleEnv.of timeDelayPar wBg (beyondInts 7) (7 / 4) 1 (1 / 2) 1 1).ren = -6 := by
    norm_num [DoubleEnv.of, timeDelayPar, wPar, wBg, beyondInts, Ints.I40]
  rw [r1, r2]
  norm_num [COFFE_H0, legWeight, average_weight, wBg, timeDelayPar, wPar]

end Coffe
