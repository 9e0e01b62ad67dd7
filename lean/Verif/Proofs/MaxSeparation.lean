import Verif.Proofs.Background
import Verif.Proofs.PyEval
import Verif.Proofs.PyRecompute
import Mathlib.Order.Monotone.Union
import Verif.Spec.Separation
import Mathlib.MeasureTheory.Integral.IntervalIntegral.FundThmCalculus

/-! # Helper lemmas: concavity of the distance, the reported maximum separation -/

namespace Coffe
open Set MeasureTheory

theorem linearSegment_mono {xa ya : ℕ → ℝ} {i : ℕ} (h : xa i < xa (i + 1)) (hy : ya i ≤ ya (i + 1)) {x y : ℝ} (hxy : x ≤ y) :
    linearSegment xa ya i x ≤ linearSegment xa ya i y := by
  unfold linearSegment
  have hd : 0 < xa (i + 1) - xa i := sub_pos.2 h
  have : (x - xa i) / (xa (i + 1) - xa i) ≤ (y - xa i) / (xa (i + 1) - xa i) := by gcongr
  nlinarith

theorem interp_mono {xa ya : ℕ → ℝ} (hx : StrictMono xa) {n : ℕ} (hn : 2 ≤ n) (hy : ∀ i, i + 1 < n → ya i ≤ ya (i + 1)) :
    MonotoneOn (interp_linear xa ya n) (Icc (xa 0) (xa (n - 1))) := by
  have key : ∀ k, k < n → MonotoneOn (interp_linear xa ya n) (Icc (xa 0) (xa k)) := by
    intro k
    induction k with
    | zero =>
      intro _ a ha b hb _
      have : a = b := by rw [Icc_self] at ha hb; rw [ha, hb]
      rw [this]
    | succ k ih =>
      intro hk
      have hu : Icc (xa 0) (xa (k + 1)) = Icc (xa 0) (xa k) ∪ Icc (xa k) (xa (k + 1)) :=
        (Icc_union_Icc_eq_Icc (hx.monotone (Nat.zero_le _)) (hx (Nat.lt_succ_self _)).le).symm
      rw [hu]
      have hs : MonotoneOn (interp_linear xa ya n) (Icc (xa k) (xa (k + 1))) := fun a ha b hb hab => by
        rw [interp_segment hx hk ha.1 ha.2, interp_segment hx hk hb.1 hb.2]
        exact linearSegment_mono (hx (Nat.lt_succ_self _)) (hy k hk) hab
      exact MonotoneOn.union_right (ih (by omega)) hs
        (isGreatest_Icc (hx.monotone (Nat.zero_le _))) (isLeast_Icc (hx (Nat.lt_succ_self _)).le)
  exact key (n - 1) (by omega)

theorem interp_ge {xa ya : ℕ → ℝ} (hx : StrictMono xa) {n : ℕ} (hn : 2 ≤ n) {x c : ℝ} (hc : ∀ i < n, c ≤ ya i)
    (h0 : xa 0 ≤ x) (h1 : x ≤ xa (n - 1)) : c ≤ interp_linear xa ya n x := by
  obtain ⟨i, hi, a, b⟩ := exists_segment hx hn h0 h1
  rw [interp_segment hx hi a b]
  unfold linearSegment
  have hd : 0 < xa (i + 1) - xa i := sub_pos.2 (hx (Nat.lt_succ_self _))
  have t0 : 0 ≤ (x - xa i) / (xa (i + 1) - xa i) := div_nonneg (by linarith) hd.le
  have t1 : (x - xa i) / (xa (i + 1) - xa i) ≤ 1 := (div_le_one hd).2 (by linarith)
  have p0 := hc i (by omega)
  have p1 := hc (i + 1) hi
  generalize (x - xa i) / (xa (i + 1) - xa i) = t at *
  nlinarith [mul_nonneg t0 (sub_nonneg.2 p1), mul_nonneg (sub_nonneg.2 t1) (sub_nonneg.2 p0)]

variable {Q : Integrator} {p : BgPar}

theorem de_w_ge (hw : p.NotPhantom) {z : ℝ} (h0 : 0 ≤ z) (h1 : z ≤ 100) : -1 ≤ de_w p z :=
  interp_ge de_z_strictMono (by norm_num [de_bins]) (fun i _ => hw _ (by unfold de_z; positivity)) (by rwa [de_z_zero])
    (by rwa [de_z_last])

theorem integrand_w_continuousOn : ContinuousOn (integrand_w p) (Icc 0 100) := by
  unfold integrand_w
  refine ContinuousOn.div (continuousOn_const.add de_w_continuousOn) (by fun_prop) fun z hz => ?_
  have := hz.1
  positivity

theorem de_z_mem {i : ℕ} (h : i < de_bins + 1) : 0 ≤ de_z i ∧ de_z i ≤ 100 := by
  refine ⟨by unfold de_z; positivity, ?_⟩
  rw [← de_z_last]
  exact de_z_strictMono.monotone (by omega)

/-- Dark energy that is not phantom does not lose density towards the past. -/
theorem de_wint_mono (hQ : Q.Exact) (hw : p.NotPhantom) : MonotoneOn (de_wint Q p) (Icc 0 100) := by
  have := interp_mono (xa := de_z) (ya := fun i => Real.exp (3 * Q (integrand_w p) 0 (de_z i))) de_z_strictMono
    (n := de_bins + 1) (by norm_num [de_bins]) ?_
  · rwa [de_z_zero, de_z_last] at this
  intro i hi
  obtain ⟨a0, a1⟩ := de_z_mem (i := i) (by omega)
  obtain ⟨b0, b1⟩ := de_z_mem hi
  have hlt := de_z_strictMono (Nat.lt_succ_self i)
  have hc := integrand_w_continuousOn (p := p)
  have ca : ContinuousOn (integrand_w p) (uIcc 0 (de_z i)) := by
    rw [uIcc_of_le a0]; exact hc.mono (Icc_subset_Icc le_rfl a1)
  have cb : ContinuousOn (integrand_w p) (uIcc 0 (de_z (i + 1))) := by
    rw [uIcc_of_le b0]; exact hc.mono (Icc_subset_Icc le_rfl b1)
  have cab : ContinuousOn (integrand_w p) (uIcc (de_z i) (de_z (i + 1))) := by
    rw [uIcc_of_le hlt.le]; exact hc.mono (Icc_subset_Icc a0 b1)
  have : 0 ≤ ∫ x in de_z i..de_z (i + 1), integrand_w p x := by
    refine intervalIntegral.integral_nonneg hlt.le fun u hu => ?_
    unfold integrand_w
    have h1 := de_w_ge hw (a0.trans hu.1) (hu.2.trans b1)
    have h2 : 0 ≤ u := a0.trans hu.1
    exact div_nonneg (by linarith) (by linarith)
  show Real.exp (3 * Q (integrand_w p) 0 (de_z i)) ≤ Real.exp (3 * Q (integrand_w p) 0 (de_z (i + 1)))
  rw [hQ _ _ _ ca, hQ _ _ _ cb, ← intervalIntegral.integral_add_adjacent_intervals ca.intervalIntegrable
    cab.intervalIntegrable]
  exact Real.exp_le_exp.2 (by linarith)

theorem inverse_hubble (hp : p.h ≠ 0) : (fun z => 1 / hubble p (de_wint Q p) z) =
    fun z => 2997.92458 / p.h * integrand_comoving p (de_wint Q p) z := by
  funext z
  unfold hubble integrand_comoving bg_E
  rw [one_div, mul_inv, inv_div, one_div]

theorem inverse_hubble_continuousOn (hp : p.Expanding) : ContinuousOn (fun z => 1 / hubble p (de_wint Q p) z) (Icc 0 100) := by
  rw [inverse_hubble hp.h.ne']
  exact continuousOn_const.mul (integrand_comoving_continuousOn hp)

theorem inverse_hubble_pos (hp : p.Expanding) {z : ℝ} (h0 : 0 ≤ z) (h1 : z ≤ 100) : 0 < 1 / hubble p (de_wint Q p) z := by
  rw [congrFun (inverse_hubble hp.h.ne') z]
  have : 0 < integrand_comoving p (de_wint Q p) z := one_div_pos.2 (Real.sqrt_pos.2 (bg_E_pos hp h0 h1))
  have := hp.h
  positivity

/-- The expansion rate does not decrease towards the past. -/
theorem inverse_hubble_anti (hQ : Q.Exact) (hp : p.Expanding) (hw : p.NotPhantom) :
    AntitoneOn (fun z => 1 / hubble p (de_wint Q p) z) (Icc 0 100) := by
  rw [inverse_hubble hp.h.ne']
  intro a ha b hb hab
  have hE : bg_E p (de_wint Q p) a ≤ bg_E p (de_wint Q p) b := by
    unfold bg_E
    have h1 := de_wint_mono hQ hw ha hb hab
    have ha0 := ha.1
    have h3 : (1 + a) ^ 3 ≤ (1 + b) ^ 3 := by gcongr
    have h4 : (1 + a) ^ 4 ≤ (1 + b) ^ 4 := by gcongr
    have := mul_le_mul_of_nonneg_left h3 hp.m
    have := mul_le_mul_of_nonneg_left h4 hp.g
    have := mul_le_mul_of_nonneg_left h1 hp.de
    linarith
  have hpos := bg_E_pos (Q := Q) hp ha.1 ha.2
  refine mul_le_mul_of_nonneg_left ?_ (div_nonneg (by norm_num) hp.h.le)
  unfold integrand_comoving
  exact one_div_le_one_div_of_le (Real.sqrt_pos.2 hpos) (Real.sqrt_le_sqrt hE)

/-- The second half of the integral of a decreasing function is not larger than the first half. -/
theorem integral_halves {g : ℝ → ℝ} {a d : ℝ} (hd : 0 ≤ d) (hc : ContinuousOn g (Icc (a - d) (a + d)))
    (hg : AntitoneOn g (Icc (a - d) (a + d))) : (∫ x in a..a + d, g x) ≤ ∫ x in a - d..a, g x := by
  have c1 : IntervalIntegrable g volume a (a + d) := by
    apply ContinuousOn.intervalIntegrable
    rw [uIcc_of_le (by linarith)]
    exact hc.mono (Icc_subset_Icc (by linarith) le_rfl)
  have c2 : IntervalIntegrable g volume (a - d) a := by
    apply ContinuousOn.intervalIntegrable
    rw [uIcc_of_le (by linarith)]
    exact hc.mono (Icc_subset_Icc le_rfl (by linarith))
  have ma : a ∈ Icc (a - d) (a + d) := ⟨by linarith, by linarith⟩
  have h1 := intervalIntegral.integral_mono_on (by linarith : a ≤ a + d) c1 intervalIntegrable_const
    (fun x hx => hg ma ⟨by linarith [hx.1], hx.2⟩ hx.1)
  have h2 := intervalIntegral.integral_mono_on (by linarith : a - d ≤ a) intervalIntegrable_const c2
    (fun x hx => hg ⟨hx.1, by linarith [hx.2]⟩ ma hx.2)
  rw [intervalIntegral.integral_const] at h1 h2
  simp only [add_sub_cancel_left, sub_sub_cancel] at h1 h2
  linarith

/-- The last step of `maximumSeparation`. -/
noncomputable def reportSeparation (z dz : ℝ) : Py ℝ := fun s => match s.bg with
  | some b => if z + dz > 15 then (.error .abort, s)
    else (.ok (2 * (b.comoving_distance (z + dz) - b.comoving_distance z)), s)
  | none => (.error .crash, s)

theorem reportSeparation_some (z dz : ℝ) {s : PyObj} {b : Bg} (h : s.bg = some b) (hz : z + dz ≤ 15) :
    reportSeparation z dz s = (.ok (2 * (b.comoving_distance (z + dz) - b.comoving_distance z)), s) := by
  unfold reportSeparation; simp only [h]; rw [if_neg (not_lt.2 hz)]

theorem reportSeparation_ok {z dz m : ℝ} {s s' : PyObj} {b : Bg} (hb : s.bg = some b)
    (h : reportSeparation z dz s = (.ok m, s')) :
    z + dz ≤ 15 ∧ s' = s ∧ m = 2 * (b.comoving_distance (z + dz) - b.comoving_distance z) := by
  by_cases hz : z + dz > 15
  · unfold reportSeparation at h; simp only [hb] at h; rw [if_pos hz] at h; cases h
  · rw [reportSeparation_some z dz hb (not_lt.1 hz)] at h
    cases h
    exact ⟨not_lt.1 hz, rfl, rfl⟩

/-- What a call reports. -/
theorem maximumSeparation_ok {N : Num} {z dz m : ℝ} {s s' : PyObj} (h : maximumSeparation N z dz s = (.ok m, s')) :
    (0 ≤ z ∧ z ≤ 15) ∧ (0 ≤ dz ∧ dz ≤ z) ∧ z + dz ≤ 15 ∧ ∃ b, s'.bg = some b ∧ (s.bg = some b ∨ N.background s.par.bgView = some b) ∧
      m = 2 * (b.comoving_distance (z + dz) - b.comoving_distance z) := by
  have hm : maximumSeparation N z dz = (checkReal z 0 15 >>= fun _ => checkReal dz 0 z >>= fun _ => ensureBg N false >>=
      fun _ => reportSeparation z dz) := rfl
  rw [hm] at h
  have chk : ∀ (x lo hi : ℝ) (f : Unit → Py ℝ), (checkReal x lo hi >>= f) s = (.ok m, s') →
      (lo ≤ x ∧ x ≤ hi) ∧ f () s = (.ok m, s') := fun x lo hi f e => by
    by_cases h1 : x < lo
    · rw [Py.bind_err (s' := s) (e := .valueError) (by unfold checkReal; rw [if_pos h1]; rfl)] at e; cases e
    by_cases h2 : x > hi
    · rw [Py.bind_err (s' := s) (e := .valueError) (by unfold checkReal; rw [if_neg h1, if_pos h2]; rfl)] at e; cases e
    rw [Py.bind_ok (s' := s) (a := ()) (by unfold checkReal; rw [if_neg h1, if_neg h2]; rfl)] at e
    exact ⟨⟨not_lt.1 h1, not_lt.1 h2⟩, e⟩
  obtain ⟨hz, h⟩ := chk _ _ _ _ h
  obtain ⟨hd, h⟩ := chk _ _ _ _ h
  refine ⟨hz, hd, ?_⟩
  cases hb : s.bg with
  | some b =>
    rw [Py.bind_ok (ensureBg_some N s b hb)] at h
    obtain ⟨hzd, rfl, e⟩ := reportSeparation_ok hb h
    exact ⟨hzd, b, hb, Or.inl rfl, e⟩
  | none =>
    by_cases ho : s.par.FitOob
    · rw [Py.bind_err (s' := s) (e := .crash) (by rw [ensureBg_none N false hb, backgroundInit_eq, if_pos ho])] at h
      cases h
    cases hn : N.background s.par.bgView with
    | none =>
      rw [Py.bind_err (s' := s) (e := .abort)
        (by rw [ensureBg_none N false hb, backgroundInit_eq, if_neg ho, hn])] at h
      cases h
    | some b =>
      rw [Py.bind_ok (s' := { s with bg := some b }) (a := ())
        (by rw [ensureBg_none N false hb, backgroundInit_of ho hn])] at h
      obtain ⟨hzd, rfl, e⟩ := reportSeparation_ok (b := b) rfl h
      exact ⟨hzd, b, rfl, Or.inr rfl, e⟩

end Coffe
