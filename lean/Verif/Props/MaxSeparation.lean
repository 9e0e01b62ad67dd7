import Verif.Proofs.MaxSeparation
import Verif.Props.Background

/-!
# C44: the maximum separation
-/

namespace Coffe
open Set MeasureTheory

variable {N : Num} {Q : Integrator} {z dz m : ℝ} {s s' : PyObj}

theorem half_bounds {r mu D : ℝ} (h0 : 0 ≤ r) (h1 : r ≤ 2 * D) (hm : |mu| ≤ 1) : -D ≤ r * mu / 2 ∧ r * mu / 2 ≤ D := by
  obtain ⟨a, b⟩ := abs_le.1 hm
  constructor <;> nlinarith

/-- C44, the far end: whatever the cosmology, no galaxy of a pair with at most the reported separation is further away than
the far end of the bin; and none is nearer than the mirror image of the far end. -/
theorem C44_far_end (h : maximumSeparation N z dz s = (.ok m, s')) :
    (0 ≤ z ∧ z ≤ 15) ∧ (0 ≤ dz ∧ dz ≤ z) ∧ z + dz ≤ 15 ∧ ∃ b, s'.bg = some b ∧
      m = 2 * (b.comoving_distance (z + dz) - b.comoving_distance z) ∧
      ∀ r mu, 0 ≤ r → r ≤ m → |mu| ≤ 1 → ∀ par, let v := NonEnv.of par b z mu r
        (v.chi1 ≤ b.comoving_distance (z + dz) ∧ v.chi2 ≤ b.comoving_distance (z + dz)) ∧
        (2 * b.comoving_distance z - b.comoving_distance (z + dz) ≤ v.chi1 ∧
          2 * b.comoving_distance z - b.comoving_distance (z + dz) ≤ v.chi2) := by
  obtain ⟨hz, hd, hzd, b, hb, -, e⟩ := maximumSeparation_ok h
  refine ⟨hz, hd, hzd, b, hb, e, fun r mu h0 h1 hm par => ?_⟩
  obtain ⟨l, u⟩ := half_bounds h0 (h1.trans_eq e) hm
  simp only [NonEnv.of]
  refine ⟨⟨?_, ?_⟩, ?_, ?_⟩ <;> linarith

/-- C44, exactly when: all pairs up to the reported separation are inside the bin if and only if the far half of the bin is
not deeper than the near half. -/
theorem C44_iff (h : maximumSeparation N z dz s = (.ok m, s')) :
    ∃ b, s'.bg = some b ∧ (b.comoving_distance z ≤ b.comoving_distance (z + dz) →
      (PairsInside b z dz m ↔
        b.comoving_distance (z + dz) - b.comoving_distance z ≤ b.comoving_distance z - b.comoving_distance (z - dz))) := by
  obtain ⟨-, -, -, b, hb, -, e⟩ := maximumSeparation_ok h
  refine ⟨b, hb, fun hle => ⟨fun H => ?_, fun hc r mu h0 h1 hm par I x y => ?_⟩⟩
  · have := (H m 1 (by rw [e]; linarith) le_rfl (by norm_num) (PyPar.default.toPar wNum) (fun _ => wZero) 0 0).1.1.1
    simp only [NonEnv.of] at this
    rw [e] at this
    linarith
  · obtain ⟨l, u⟩ := half_bounds h0 (h1.trans_eq e) hm
    have k : InBin b z dz (b.comoving_distance z - r * mu / 2) ∧ InBin b z dz (b.comoving_distance z + r * mu / 2) := by
      unfold InBin
      refine ⟨⟨?_, ?_⟩, ?_, ?_⟩ <;> linarith
    exact ⟨k, k, k⟩

/-- Distances of a faithful background. -/
theorem Bg.Faithful.mono {b : Bg} {p : BgPar} {zmax : ℝ} (hb : b.Faithful Q p zmax) (hp : p.Expanding) (hm : zmax ≤ 100)
    {x y : ℝ} (h0 : 0 ≤ x) (hxy : x < y) (h1 : y ≤ zmax) : b.comoving_distance x < b.comoving_distance y := by
  have hc := inverse_hubble_continuousOn (Q := Q) hp
  have cx : ContinuousOn (fun z => 1 / hubble p (de_wint Q p) z) (uIcc 0 x) := by
    rw [uIcc_of_le h0]; exact hc.mono (Icc_subset_Icc le_rfl (by linarith))
  have cxy : ContinuousOn (fun z => 1 / hubble p (de_wint Q p) z) (uIcc x y) := by
    rw [uIcc_of_le hxy.le]; exact hc.mono (Icc_subset_Icc h0 (by linarith))
  rw [hb.distance x h0 (by linarith), hb.distance y (by linarith) h1,
    ← intervalIntegral.integral_add_adjacent_intervals cx.intervalIntegrable cxy.intervalIntegrable]
  have : 0 < ∫ t in x..y, 1 / hubble p (de_wint Q p) t :=
    intervalIntegral.intervalIntegral_pos_of_pos_on cxy.intervalIntegrable
      (fun t ht => inverse_hubble_pos hp (by linarith [ht.1]) (by linarith [ht.2])) hxy
  linarith

theorem Bg.Faithful.continuousOn {b : Bg} {p : BgPar} {zmax : ℝ} (hb : b.Faithful Q p zmax) (hp : p.Expanding)
    (h0 : 0 ≤ zmax) (hm : zmax ≤ 100) : ContinuousOn b.comoving_distance (Icc 0 zmax) := by
  have hc : ContinuousOn (fun z => 1 / hubble p (de_wint Q p) z) (Icc 0 zmax) :=
    (inverse_hubble_continuousOn (Q := Q) hp).mono (Icc_subset_Icc le_rfl hm)
  refine ContinuousOn.congr (f := fun z => ∫ t in (0 : ℝ)..z, 1 / hubble p (de_wint Q p) t) ?_
    fun z hz => hb.distance z hz.1 hz.2
  have := intervalIntegral.continuousOn_primitive_interval (a := (0 : ℝ)) (b := zmax) (μ := volume)
    (f := fun z => 1 / hubble p (de_wint Q p) z) (by
      rw [uIcc_of_le h0]; exact hc.integrableOn_Icc)
  rwa [uIcc_of_le h0] at this

/-- C44, proved for an expanding universe whose dark energy is not phantom (`w ≥ -1` at all redshifts), for every bin for
which a separation is reported, exact quadrature, and look-ups that are faithful between the tabulated redshifts: both
galaxies of every pair, at every angle, up to the reported separation, are inside the bin, in distance and in redshift.
Missing: phantom dark energy, for which the claim is false (`C44_phantom_false`), and accepted bins beyond the end of the
table, for which nothing is reported (`C44_table_false`). -/
theorem C44_partial (h : maximumSeparation N z dz s = (.ok m, s')) (hs : s.OwnBackground N)
    (hN : ∀ b, N.background s.par.bgView = some b → b.Faithful Q (s.par.bgView.toPar N.akima) 15)
    (hQ : Q.Exact) (hp : (s.par.bgView.toPar N.akima).Expanding) (hw : (s.par.bgView.toPar N.akima).NotPhantom) :
    ∃ b, s'.bg = some b ∧ PairsInside b z dz m ∧
      ∀ r mu, 0 ≤ r → r ≤ m → |mu| ≤ 1 → ∀ par, let v := NonEnv.of par b z mu r
        (z - dz ≤ v.z1 ∧ v.z1 ≤ z + dz) ∧ (z - dz ≤ v.z2 ∧ v.z2 ≤ z + dz) := by
  obtain ⟨hz0, hd, hz, b, hb, hor, e⟩ := maximumSeparation_ok h
  have hB : N.background s.par.bgView = some b := hor.elim (fun h => hs b h) id
  have hF := hN b hB
  obtain ⟨b', hb', hiff⟩ := C44_iff h
  rw [hb] at hb'
  obtain rfl := Option.some.inj hb'
  have hc := inverse_hubble_continuousOn (Q := Q) hp
  have ci : ∀ u v : ℝ, 0 ≤ u → u ≤ v → v ≤ 100 → IntervalIntegrable
      (fun t => 1 / hubble (s.par.bgView.toPar N.akima) (de_wint Q (s.par.bgView.toPar N.akima)) t) volume u v :=
    fun u v h0 h1 h2 => by
      apply ContinuousOn.intervalIntegrable
      rw [uIcc_of_le h1]; exact hc.mono (Icc_subset_Icc h0 h2)
  have hle : b.comoving_distance z ≤ b.comoving_distance (z + dz) := by
    rcases hd.1.eq_or_lt with h0 | h0
    · rw [← h0, add_zero]
    · exact (hF.mono hp (by norm_num) hz0.1 (by linarith) hz).le
  have conc : b.comoving_distance (z + dz) - b.comoving_distance z ≤ b.comoving_distance z - b.comoving_distance (z - dz) := by
    rw [hF.distance (z + dz) (by linarith) hz, hF.distance z hz0.1 hz0.2,
      hF.distance (z - dz) (by linarith) (by linarith),
      intervalIntegral.integral_interval_sub_left (ci 0 (z + dz) le_rfl (by linarith) (by linarith))
        (ci 0 z le_rfl hz0.1 (by linarith)),
      intervalIntegral.integral_interval_sub_left (ci 0 z le_rfl hz0.1 (by linarith))
        (ci 0 (z - dz) le_rfl (by linarith) (by linarith))]
    exact integral_halves hd.1 (hc.mono (Icc_subset_Icc (by linarith) (by linarith)))
      ((inverse_hubble_anti hQ hp hw).mono (Icc_subset_Icc (by linarith) (by linarith)))
  have inside := (hiff hle).2 conc
  refine ⟨b, hb, inside, fun r mu h0 h1 hm par => ?_⟩
  have look : ∀ c, InBin b z dz c → z - dz ≤ b.z_as_chi c ∧ b.z_as_chi c ≤ z + dz := fun c hin => by
    obtain ⟨x, hx, rfl⟩ := intermediate_value_Icc (show z - dz ≤ z + dz by linarith)
      ((hF.continuousOn hp (by norm_num) (by norm_num)).mono (Icc_subset_Icc (by linarith) hz)) hin
    rw [hF.redshift x (by linarith [hx.1]) (by linarith [hx.2])]
    exact hx
  have := (inside r mu h0 h1 hm par (fun _ => wZero) 0 0).1
  exact ⟨look _ this.1, look _ this.2⟩

/-! ### Witnesses: numerics that are exact -/

/-- The background with exact distances and their inverse. -/
noncomputable def exactBg (p : BgPar) : Bg :=
  { wBg with
    comoving_distance := fun z => ∫ t in (0 : ℝ)..z, 1 / hubble p (de_wint exactQ p) t
    z_as_chi := Function.invFunOn (fun z => ∫ t in (0 : ℝ)..z, 1 / hubble p (de_wint exactQ p) t) (Icc 0 100) }

theorem exactBg_faithful {p : BgPar} (hp : p.Expanding) : (exactBg p).Faithful exactQ p 100 := by
  refine ⟨fun _ _ _ => rfl, fun z h0 h1 => ?_⟩
  have hinj : InjOn (fun z => ∫ t in (0 : ℝ)..z, 1 / hubble p (de_wint exactQ p) t) (Icc 0 100) := by
    have hc := inverse_hubble_continuousOn (Q := exactQ) hp
    have : StrictMonoOn (fun z => ∫ t in (0 : ℝ)..z, 1 / hubble p (de_wint exactQ p) t) (Icc 0 100) := by
      intro x hx y hy hxy
      have cx : ContinuousOn (fun z => 1 / hubble p (de_wint exactQ p) z) (uIcc 0 x) := by
        rw [uIcc_of_le hx.1]; exact hc.mono (Icc_subset_Icc le_rfl hx.2)
      have cxy : ContinuousOn (fun z => 1 / hubble p (de_wint exactQ p) z) (uIcc x y) := by
        rw [uIcc_of_le hxy.le]; exact hc.mono (Icc_subset_Icc hx.1 hy.2)
      show (∫ t in (0 : ℝ)..x, _) < ∫ t in (0 : ℝ)..y, _
      rw [← intervalIntegral.integral_add_adjacent_intervals cx.intervalIntegrable cxy.intervalIntegrable]
      have : 0 < ∫ t in x..y, 1 / hubble p (de_wint exactQ p) t :=
        intervalIntegral.intervalIntegral_pos_of_pos_on cxy.intervalIntegrable
          (fun t ht => inverse_hubble_pos hp (by linarith [ht.1, hx.1]) (by linarith [ht.2, hy.2])) hxy
      linarith
    exact this.injOn
  exact hinj.leftInvOn_invFunOn ⟨h0, h1⟩

/-- Numerics whose distances are exact. -/
noncomputable def exactNum : Num := { wNum with background := fun v => some (exactBg (v.toPar wNum.akima)) }

theorem maximumSeparation_run (hz : 0 ≤ z ∧ z + dz ≤ 15) (hd : 0 ≤ dz ∧ dz ≤ z) {b : Bg} (hb : s.bg = none)
    (hN : N.background s.par.bgView = some b) (ho : ¬ s.par.FitOob) : maximumSeparation N z dz s =
      (.ok (2 * (b.comoving_distance (z + dz) - b.comoving_distance z)), { s with bg := some b }) := by
  have hm : maximumSeparation N z dz = (checkReal z 0 15 >>= fun _ => checkReal dz 0 z >>= fun _ => ensureBg N false >>=
      fun _ => reportSeparation z dz) := rfl
  have chk : ∀ (x lo hi : ℝ), lo ≤ x ∧ x ≤ hi → checkReal x lo hi s = (.ok (), s) := fun x lo hi h => by
    unfold checkReal
    rw [if_neg (not_lt.2 h.1), if_neg (not_lt.2 h.2)]
    rfl
  rw [hm, Py.bind_ok (chk _ _ _ ⟨hz.1, by linarith [hz.2, hd.1]⟩), Py.bind_ok (chk _ _ _ hd), Py.bind_ok (s' := { s with bg := some b }) (a := ())
    (by rw [ensureBg_none N false hb, backgroundInit_of ho hN])]
  exact reportSeparation_some z dz rfl hz.2

theorem wBgPar_notPhantom : wBgPar.NotPhantom := fun z _ => by
  show (-1 : ℝ) ≤ -1 + 0 * z / (1 + z)
  simp

/-- Non-vacuity of `C44_partial`: a new object, the bin from redshift 0.5 to 1.5. -/
example : ∃ m s' b, maximumSeparation exactNum 1 0.5 (fresh PyPar.default) = (.ok m, s') ∧ s'.bg = some b ∧ 0 < m ∧
    PairsInside b 1 0.5 m := by
  have h := maximumSeparation_run (N := exactNum) (s := fresh PyPar.default) (z := 1) (dz := 0.5) (by norm_num) (by norm_num)
    rfl rfl (fun h => by cases h.1)
  have hF : ∀ b, exactNum.background (fresh PyPar.default).par.bgView = some b →
      b.Faithful exactQ ((fresh PyPar.default).par.bgView.toPar exactNum.akima) 15 := fun b hb => by
    obtain rfl := Option.some.inj hb
    have := exactBg_faithful wBgPar_expanding
    exact ⟨fun z h0 h1 => this.1 z h0 (by linarith), fun z h0 h1 => this.2 z h0 (by linarith)⟩
  obtain ⟨b, hb, hin, -⟩ := C44_partial h (fun _ hb => by cases hb) hF exactQ_exact wBgPar_expanding wBgPar_notPhantom
  refine ⟨_, _, b, h, hb, ?_, hin⟩
  have := (hF _ rfl).mono wBgPar_expanding (by norm_num) (x := 1) (y := 1 + 0.5) (by norm_num) (by norm_num) (by norm_num)
  linarith

/-- C44 fails at the end of the table: the bin is not compared with the last tabulated redshift, 15.  For every object
whose background can be computed and every accepted bin that ends beyond redshift 15, the call ends the process; the bin
from redshift 0 to 20 is such a bin. -/
theorem C44_table_false :
    (∀ (N : Num) (s : PyObj) (z dz : ℝ), 0 ≤ z → z ≤ 15 → 0 ≤ dz → dz ≤ z → z + dz > 15 → ¬ s.par.FitOob →
      s.bg = none → (∃ b, N.background s.par.bgView = some b) → (maximumSeparation N z dz s).1 = .error .abort) ∧
    (maximumSeparation exactNum 10 10 (fresh PyPar.default)).1 = .error .abort := by
  have key : ∀ (N : Num) (s : PyObj) (z dz : ℝ), 0 ≤ z → z ≤ 15 → 0 ≤ dz → dz ≤ z → z + dz > 15 → ¬ s.par.FitOob →
      s.bg = none → (∃ b, N.background s.par.bgView = some b) → (maximumSeparation N z dz s).1 = .error .abort := by
    rintro N s z dz h1 h2 h3 h4 h5 ho hs ⟨b, hb⟩
    have hm : maximumSeparation N z dz = (checkReal z 0 15 >>= fun _ => checkReal dz 0 z >>= fun _ =>
      ensureBg N false >>= fun _ => reportSeparation z dz) := rfl
    rw [hm, Py.bind_ok (checkReal_ok h1 h2 s), Py.bind_ok (checkReal_ok h3 h4 s),
      Py.bind_ok (s' := { s with bg := some b }) (a := ()) (by rw [ensureBg_none N false hs, backgroundInit_of ho hb])]
    unfold reportSeparation
    dsimp only
    rw [if_pos h5]
  exact ⟨key, key _ _ _ _ (by norm_num) (by norm_num) (by norm_num) (by norm_num) (by norm_num) (fun h => by cases h.1) rfl
    ⟨_, rfl⟩⟩

/-! ### Phantom dark energy -/

/-- The state after `w0 = -2` on a new object. -/
noncomputable def wPhantom : PyObj := (fresh { PyPar.default with w0 := -2 })

/-- Its parameters. -/
noncomputable def wPhantomPar : BgPar := wPhantom.par.bgView.toPar exactNum.akima

theorem wPhantomPar_expanding : wPhantomPar.Expanding :=
  ⟨wBgPar_expanding.h, wBgPar_expanding.m, wBgPar_expanding.g, wBgPar_expanding.de, wBgPar_expanding.some⟩

theorem phantom_de_w {z : ℝ} (h0 : 0 ≤ z) (h1 : z ≤ 100) : de_w wPhantomPar z = -2 :=
  interp_const de_z_strictMono (by norm_num [de_bins]) (fun i _ => by
    show (-2 : ℝ) + 0 * de_z i / (1 + de_z i) = -2
    simp) (by rwa [de_z_zero]) (by rwa [de_z_last])

theorem de_z_one : de_z 1 = 100 / 16384 := by norm_num [de_z, de_bins]

theorem phantom_node : Real.exp (3 * exactQ (integrand_w wPhantomPar) 0 (de_z 1)) ≤ 16484 / 16784 := by
  have hc : ContinuousOn (integrand_w wPhantomPar) (uIcc 0 (de_z 1)) := by
    rw [uIcc_of_le (by rw [de_z_one]; norm_num), de_z_one]
    exact integrand_w_continuousOn.mono (Icc_subset_Icc le_rfl (by norm_num))
  have h1 : exactQ (integrand_w wPhantomPar) 0 (de_z 1) ≤ ∫ _ in (0 : ℝ)..de_z 1, (-(16384 / 16484) : ℝ) := by
    refine intervalIntegral.integral_mono_on (by rw [de_z_one]; norm_num) hc.intervalIntegrable intervalIntegrable_const
      fun t ht => ?_
    have t1 : t ≤ 100 / 16384 := by rw [← de_z_one]; exact ht.2
    have t0 := ht.1
    unfold integrand_w
    rw [phantom_de_w t0 (by linarith), div_le_iff₀ (by linarith)]
    linarith
  rw [intervalIntegral.integral_const, de_z_one] at h1
  simp only [sub_zero, smul_eq_mul] at h1
  have h2 : 3 * exactQ (integrand_w wPhantomPar) 0 (de_z 1) ≤ -(300 / 16484) := by rw [de_z_one]; linarith
  have h3 := Real.add_one_le_exp (300 / 16484 : ℝ)
  calc Real.exp (3 * exactQ (integrand_w wPhantomPar) 0 (de_z 1)) ≤ Real.exp (-(300 / 16484)) := Real.exp_le_exp.2 h2
    _ = (Real.exp (300 / 16484))⁻¹ := Real.exp_neg _
    _ ≤ (300 / 16484 + 1)⁻¹ := inv_anti₀ (by norm_num) h3
    _ = 16484 / 16784 := by norm_num

/-- Near today the expansion slows down towards the past. -/
theorem phantom_strict : StrictMonoOn (fun z => 1 / hubble wPhantomPar (de_wint exactQ wPhantomPar) z) (Icc 0 (100 / 16384)) := by
  rw [inverse_hubble wPhantomPar_expanding.h.ne']
  intro a ha b hb hab
  have seg : ∀ x ∈ Icc (0 : ℝ) (100 / 16384), de_wint exactQ wPhantomPar x =
      1 + x / (100 / 16384) * (Real.exp (3 * exactQ (integrand_w wPhantomPar) 0 (de_z 1)) - 1) := fun x hx => by
    unfold de_wint
    rw [interp_segment de_z_strictMono (i := 0) (by norm_num [de_bins]) (by rw [de_z_zero]; exact hx.1)
      (by rw [de_z_one]; exact hx.2)]
    unfold linearSegment
    beta_reduce
    rw [de_z_zero, exactQ_empty, zero_add, de_z_one, mul_zero, Real.exp_zero, sub_zero, sub_zero]
  have hE : bg_E wPhantomPar (de_wint exactQ wPhantomPar) b < bg_E wPhantomPar (de_wint exactQ wPhantomPar) a := by
    unfold bg_E
    rw [seg a ha, seg b hb]
    have hn := phantom_node
    generalize Real.exp (3 * exactQ (integrand_w wPhantomPar) 0 (de_z 1)) = y at hn
    show (0.3 - 0.05 - 0 + 0.05 : ℝ) * (1 + b) ^ 3 + 9e-5 * (1 + b) ^ 4 + (1 - (0.3 + 9e-5)) * (1 + b / (100 / 16384) * (y - 1))
      < (0.3 - 0.05 - 0 + 0.05) * (1 + a) ^ 3 + 9e-5 * (1 + a) ^ 4 + (1 - (0.3 + 9e-5)) * (1 + a / (100 / 16384) * (y - 1))
    obtain ⟨a0, a1⟩ := ha
    obtain ⟨b0, b1⟩ := hb
    have hab' : 0 < b - a := sub_pos.2 hab
    have q3 : (1 + b) ^ 2 + (1 + b) * (1 + a) + (1 + a) ^ 2 ≤ 3.1 := by nlinarith
    have q4 : ((1 + b) ^ 2 + (1 + a) ^ 2) * ((1 + b) + (1 + a)) ≤ 5 := by
      have : (1 + b) ^ 2 + (1 + a) ^ 2 ≤ 2.1 := by nlinarith
      nlinarith
    have e3 : (1 + b) ^ 3 - (1 + a) ^ 3 ≤ (b - a) * 3.1 := by
      have : (1 + b) ^ 3 - (1 + a) ^ 3 = (b - a) * ((1 + b) ^ 2 + (1 + b) * (1 + a) + (1 + a) ^ 2) := by ring
      rw [this]; gcongr
    have e4 : (1 + b) ^ 4 - (1 + a) ^ 4 ≤ (b - a) * 5 := by
      have : (1 + b) ^ 4 - (1 + a) ^ 4 = (b - a) * (((1 + b) ^ 2 + (1 + a) ^ 2) * ((1 + b) + (1 + a))) := by ring
      rw [this]; gcongr
    have e5 : (b - a) * (y - 1) ≤ (b - a) * (-(300 / 16784)) := by gcongr; linarith
    norm_num at e3 e4 e5 ⊢
    nlinarith
  have hpos := bg_E_pos (Q := exactQ) wPhantomPar_expanding hb.1 (hb.2.trans (by norm_num))
  refine mul_lt_mul_of_pos_left ?_ (div_pos (by norm_num) wPhantomPar_expanding.h)
  unfold integrand_comoving
  exact one_div_lt_one_div_of_lt (Real.sqrt_pos.2 hpos) (Real.sqrt_lt_sqrt hpos.le hE)

theorem integral_halves_lt {g : ℝ → ℝ} {a d : ℝ} (hd : 0 < d) (hc : ContinuousOn g (Icc (a - d) (a + d)))
    (hg : StrictMonoOn g (Icc (a - d) (a + d))) : (∫ x in a - d..a, g x) < ∫ x in a..a + d, g x := by
  have ma : a ∈ Icc (a - d) (a + d) := ⟨by linarith, by linarith⟩
  have h1 : (∫ _ in a..a + d, g a) < ∫ x in a..a + d, g x :=
    intervalIntegral.integral_lt_integral_of_continuousOn_of_le_of_exists_lt (by linarith) continuousOn_const
      (hc.mono (Icc_subset_Icc (by linarith) le_rfl))
      (fun x hx => hg.monotoneOn ma ⟨by linarith [hx.1], hx.2⟩ hx.1.le)
      ⟨a + d, ⟨by linarith, le_rfl⟩, hg ma ⟨by linarith, le_rfl⟩ (by linarith)⟩
  have c2 : IntervalIntegrable g volume (a - d) a := by
    apply ContinuousOn.intervalIntegrable
    rw [uIcc_of_le (by linarith)]
    exact hc.mono (Icc_subset_Icc le_rfl (by linarith))
  have h2 := intervalIntegral.integral_mono_on (by linarith : a - d ≤ a) c2 (intervalIntegrable_const (c := g a))
    (fun x hx => hg.monotoneOn ⟨hx.1, by linarith [hx.2]⟩ ma hx.2)
  rw [intervalIntegral.integral_const] at h1 h2
  simp only [add_sub_cancel_left, sub_sub_cancel] at h1 h2
  linarith

/-- C44 fails for phantom dark energy: `w0 = -2` is assigned on a new object, the maximum separation is asked for a bin
that starts at redshift zero, and for a pair along the line of sight with that separation one galaxy has a *negative*
distance, with exact distances. -/
theorem C44_phantom_false : ∃ s z m s' b, run exactNum [.setattr (.settable .w0) (.float (-2))] (fresh PyPar.default) = some s ∧
    0 < z ∧ maximumSeparation exactNum z z s = (.ok m, s') ∧ s'.bg = some b ∧ b.Faithful exactQ wPhantomPar 100 ∧ 0 < m ∧
    b.comoving_distance (z - z) = 0 ∧ ∀ par, (NonEnv.of par b z 1 m).chi1 < 0 := by
  have hset : setattr .w0 (.float (-2)) (fresh PyPar.default) = (.ok (), wPhantom) := by
    unfold setattr
    refine (guarded_run (Or.inl rfl) (by norm_num) (by norm_num) ?_).trans ?_
    · show ¬ allclose (-2) (-1 : ℝ)
      unfold allclose; norm_num
    · rfl
  have hrun : run exactNum [.setattr (.settable .w0) (.float (-2))] (fresh PyPar.default) = some wPhantom := by
    rw [run_setattr hset]; rfl
  have h := maximumSeparation_run (N := exactNum) (s := wPhantom) (z := 50 / 16384) (dz := 50 / 16384) (by norm_num)
    (by norm_num) rfl rfl (fun h => by cases h.1)
  have hF : (exactBg wPhantomPar).Faithful exactQ wPhantomPar 100 := exactBg_faithful wPhantomPar_expanding
  have hmono := hF.mono wPhantomPar_expanding le_rfl (x := 50 / 16384) (y := 50 / 16384 + 50 / 16384) (by norm_num)
    (by norm_num) (by norm_num)
  have hlt := integral_halves_lt (a := 50 / 16384) (d := 50 / 16384) (by norm_num)
    ((inverse_hubble_continuousOn (Q := exactQ) wPhantomPar_expanding).mono (Icc_subset_Icc (by norm_num) (by norm_num)))
    (phantom_strict.mono (Icc_subset_Icc (by norm_num) (by norm_num)))
  have hsum : (∫ x in (0 : ℝ)..50 / 16384, 1 / hubble wPhantomPar (de_wint exactQ wPhantomPar) x)
      + (∫ x in (50 / 16384 : ℝ)..50 / 16384 + 50 / 16384, 1 / hubble wPhantomPar (de_wint exactQ wPhantomPar) x)
      = ∫ x in (0 : ℝ)..50 / 16384 + 50 / 16384, 1 / hubble wPhantomPar (de_wint exactQ wPhantomPar) x := by
    refine intervalIntegral.integral_add_adjacent_intervals ?_ ?_ <;>
    · apply ContinuousOn.intervalIntegrable
      rw [uIcc_of_le (by norm_num)]
      exact (inverse_hubble_continuousOn (Q := exactQ) wPhantomPar_expanding).mono (Icc_subset_Icc (by norm_num) (by norm_num))
  rw [sub_self] at hlt
  refine ⟨wPhantom, _, _, _, exactBg wPhantomPar, hrun, by norm_num, h, rfl, hF, ?_, ?_, fun par => ?_⟩
  · show 0 < 2 * ((exactBg wPhantomPar).comoving_distance (50 / 16384 + 50 / 16384) - (exactBg wPhantomPar).comoving_distance (50 / 16384))
    linarith
  · rw [sub_self]
    exact intervalIntegral.integral_same
  · show (exactBg wPhantomPar).comoving_distance (50 / 16384) - 2 * ((exactBg wPhantomPar).comoving_distance (50 / 16384 + 50 / 16384)
      - (exactBg wPhantomPar).comoving_distance (50 / 16384)) * 1 / 2 < 0
    have e1 : (exactBg wPhantomPar).comoving_distance (50 / 16384)
      = ∫ x in (0 : ℝ)..50 / 16384, 1 / hubble wPhantomPar (de_wint exactQ wPhantomPar) x := rfl
    have e2 : (exactBg wPhantomPar).comoving_distance (50 / 16384 + 50 / 16384)
      = ∫ x in (0 : ℝ)..50 / 16384 + 50 / 16384, 1 / hubble wPhantomPar (de_wint exactQ wPhantomPar) x := rfl
    rw [e1, e2]
    linarith

end Coffe
