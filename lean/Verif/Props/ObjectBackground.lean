import Verif.Spec.ObjectBackground
import Verif.Props.Background
import Verif.Props.PyCaches

/-!
# C85: the background of an object
-/

namespace Coffe
open Classical

/-- **C85** (inputs): the background stage is given every setting that the computation of src/background.c depends on, so it can be
that computation, for all settings. -/
theorem C85_inputs (N : Num) (M : BgMethods) : (N.withBg M).BgBy M := fun _ => rfl

theorem bg_samples_eq (t : Buf ℕ BgRow) (n : ℕ) (R : ℕ → BgRow) (h : ∀ i < n, t.val i = some (R i)) (x y : BgRow → ℝ) :
    bg_samples t n x y = (List.range n).map fun i => (x (R i), y (R i)) := by
  unfold bg_samples
  rw [← List.filterMap_eq_map]
  refine List.filterMap_congr fun i hi => ?_
  rw [h i (List.mem_range.1 hi)]
  rfl

theorem bg_spline_node {akima : Samples → ℝ → ℝ} (hA : Interpolates akima) (t : Buf ℕ BgRow) (n : ℕ) (R : ℕ → BgRow)
    (h : ∀ i < n, t.val i = some (R i)) (hn : 5 ≤ n) (x y : BgRow → ℝ) (hx : ∀ i j, i < j → j < n → x (R i) < x (R j)) (i : ℕ) (hi : i < n) :
    akima (bg_samples t n x y) (x (R i)) = y (R i) := by
  rw [bg_samples_eq t n R h]
  refine hA _ (by simpa using hn) ?_ (x (R i), y (R i)) (List.mem_map.2 ⟨i, List.mem_range.2 hi, rfl⟩)
  rw [List.map_map, List.pairwise_map]
  refine List.Pairwise.imp_of_mem ?_ List.pairwise_lt_range
  intro a b _ hb hab
  exact hx a b hab (List.mem_range.1 hb)

theorem background_fresh {N : Num} {p : PyPar} {b : Bg} (hb : N.background p.bgView = some b) (ho : ¬ p.FitOob) (f : Bg → ℝ → ℝ) (z : ℝ)
    (h0 : 0 ≤ z) (h1 : z ≤ 15) : (exec N (.background f z) (fresh p)).1 = .ok (.real (f b z)) := by
  show (backgroundAt N f z (fresh p)).1 = _
  unfold backgroundAt
  have e : ensureBg N false (fresh p) = (.ok (), { fresh p with bg := some b }) := by
    rw [ensureBg_none _ _ (by rfl)]
    exact backgroundInit_of ho hb
  rw [Py.bind_ok (checkReal_ok h0 h1 _)]
  exact congrArg Prod.fst (Py.bind_ok e)

theorem node_mem (p : PyPar) (hb : 5 ≤ p.background_bins) (i : ℕ) (hi : i < p.background_bins.toNat) : 0 ≤ p.node i ∧ p.node i ≤ 15 := by
  have h5 : (5 : ℝ) ≤ (p.background_bins.toNat : ℝ) := by exact_mod_cast (by omega : 5 ≤ p.background_bins.toNat)
  have h1 : (0 : ℝ) < (p.background_bins.toNat : ℝ) - 1 := by linarith
  have h2 : (i : ℝ) + 1 ≤ (p.background_bins.toNat : ℝ) := by exact_mod_cast hi
  unfold PyPar.node
  exact ⟨by positivity, by rw [div_le_iff₀ h1]; linarith⟩

/-- **C85**, at the redshifts of the tables: for every expanding cosmology the methods of the object return the expansion rate, the
distance, the growth factor and the growth rate of that cosmology, and the signal reads the Doppler amplitudes of the two populations (partial: between the redshifts of the tables the numbers are
interpolated; exact quadrature). -/
theorem C85_partial (N : Num) (M : BgMethods) (hN : N.BgBy M) (hA : Interpolates N.akima) (p : PyPar) (hp : p.Expands)
    (hb : 5 ≤ p.background_bins) (ho : ¬ p.FitOob) (Q : Integrator) (hQ : M.quad p.integration_1d_type p.integration_1d_prec = Q)
    (hE : Q.Exact) (S : ℕ → ℝ → ℝ × ℝ) (hS : M.solve (de_w (p.bgPar N.akima)) (de_xint Q (p.bgPar N.akima)) = S)
    (h0 : ∀ i a, (S i a).1 ≠ 0) (i : ℕ) (hi : i < p.background_bins.toNat) :
    let W := de_wint Q (p.bgPar N.akima)
    let z := p.node i
    let get := fun f : Bg → ℝ → ℝ => (exec N (.background f z) (fresh p)).1
    get Bg.a = .ok (.real (1 / (1 + z))) ∧
    get Bg.conformal_Hz = .ok (.real (p.hubble W z / (1 + z))) ∧
    get Bg.comoving_distance = .ok (.real (2997.92458 / p.h * Q (fun x => p.h / 2997.92458 / p.hubble W x) 0 z)) ∧
    get Bg.D1 = .ok (.real ((S i (1 / (1 + z))).1 / (S 0 1).1)) ∧
    get Bg.f = .ok (.real (1 / (1 + z) * (S i (1 / (1 + z))).2 / (S i (1 / (1 + z))).1)) ∧
    ∃ b, N.background p.bgView = some b ∧ b.z_as_chi (b.comoving_distance z) = z ∧ (1 / 10 ^ 10 < z → ∃ Hp,
      b.G1 z = dopplerAmplitude Hp (b.conformal_Hz z) (b.comoving_distance z) (N.akima p.bias.magnification1 z) (N.akima p.bias.evolution1 z) ∧
      b.G2 z = dopplerAmplitude Hp (b.conformal_Hz z) (b.comoving_distance z) (N.akima p.bias.magnification2 z) (N.akima p.bias.evolution2 z)) := by
  have hx : (p.bgPar N.akima).Expanding := ⟨hp.h, hp.m, hp.g, hp.de, hp.some⟩
  have h5 : 5 ≤ (p.bgPar N.akima).background_bins := by show 5 ≤ p.background_bins.toNat; omega
  obtain ⟨t, ht⟩ := C34_success (solve := S) hE hx h5 h0
  obtain ⟨-, hr⟩ := C34_rows ht
  have hr' : ∀ i, ∃ r, i < (p.bgPar N.akima).background_bins → t.load i = .ok r := fun i => by
    by_cases h : i < (p.bgPar N.akima).background_bins
    · obtain ⟨r, e, -⟩ := hr i h; exact ⟨r, fun _ => e⟩
    · exact ⟨⟨0, 0, 0, 0, 0, 0, 0, 0, 0, 0⟩, fun h' => absurd h' h⟩
  choose R hR using hr'
  have hv : ∀ i < p.background_bins.toNat, t.val i = some (R i) := fun i h => (Buf.load_eq.1 (hR i h)).2
  have hmono : ∀ i j, i < j → j < p.background_bins.toNat → (R i).z < (R j).z ∧ (R i).comoving_distance < (R j).comoving_distance := by
    intro i j hij hj
    obtain ⟨r, s, hr, hs, a, b⟩ := C49_increasing hE hx ht i j hij hj
    rw [hR i (hij.trans hj)] at hr
    rw [hR j hj] at hs
    cases hr
    cases hs
    exact ⟨a, b⟩
  have hbg : N.background p.bgView = some (bg_splines N.akima t p.background_bins.toNat) := by
    rw [hN p]
    unfold PyPar.bgInit
    rw [hQ, hS, ht]
  obtain ⟨r, er, ez, ea, eH, ec, ed⟩ := hr i hi
  have e : r = R i := by rw [hR i hi] at er; cases er; rfl
  subst e
  obtain ⟨eD, ef⟩ := C34_growth ht i _ (hR i hi)
  have ez : (R i).z = p.node i := ez
  obtain ⟨n0, n1⟩ := node_mem p hb i hi
  have key : ∀ y : BgRow → ℝ, N.akima (bg_samples t p.background_bins.toNat BgRow.z y) (p.node i) = y (R i) := fun y => by
    rw [← ez]
    exact bg_spline_node hA t _ R hv (by omega) _ y (fun i j a b => (hmono i j a b).1) i hi
  rw [ez] at ea eH ec ed eD ef
  have get : ∀ (f : Bg → ℝ → ℝ) v, f (bg_splines N.akima t p.background_bins.toNat) (p.node i) = v →
      (exec N (.background f (p.node i)) (fresh p)).1 = .ok (.real v) := fun f v h => by
    rw [background_fresh hbg ho f _ n0 n1, h]
  refine ⟨get _ _ ((key _).trans ea), get _ _ ((key _).trans (by rw [ec, eH]; rfl)), get _ _ ((key _).trans ed), get _ _ ((key _).trans eD),
    get _ _ ((key _).trans ef), _, hbg, ?_, fun hz => ?_⟩
  swap
  · obtain ⟨g1, g2⟩ := (C34_doppler ht i _ (hR i hi)).2 (by rw [ez]; exact hz)
    refine ⟨(R i).conformal_Hz_prime, ?_, ?_⟩
    · show N.akima (bg_samples t _ BgRow.z BgRow.G1) _ = dopplerAmplitude _ (N.akima (bg_samples t _ BgRow.z BgRow.conformal_Hz) _)
        (N.akima (bg_samples t _ BgRow.z BgRow.comoving_distance) _) _ _
      rw [key, key, key, g1, ez]
      rfl
    · show N.akima (bg_samples t _ BgRow.z BgRow.G2) _ = dopplerAmplitude _ (N.akima (bg_samples t _ BgRow.z BgRow.conformal_Hz) _)
        (N.akima (bg_samples t _ BgRow.z BgRow.comoving_distance) _) _ _
      rw [key, key, key, g2, ez]
      rfl
  show N.akima (bg_samples t _ BgRow.comoving_distance BgRow.z) (N.akima (bg_samples t _ BgRow.z BgRow.comoving_distance) _) = _
  rw [key, bg_spline_node hA t _ R hv (by omega) _ BgRow.z (fun i j a b => (hmono i j a b).2) i hi, ez]

/-- A look-up in the table. -/
noncomputable def wLookup (s : Samples) (x : ℝ) : ℝ := ((s.find? fun a => a.1 = x).map Prod.snd).getD 0

theorem wLookup_interpolates : Interpolates wLookup := by
  intro s h5 hs x hx
  clear h5
  unfold wLookup
  induction s with
  | nil => cases hx
  | cons a s ih =>
    rw [List.map_cons, List.pairwise_cons] at hs
    rcases List.mem_cons.1 hx with rfl | h
    · simp
    · have : a.1 ≠ x.1 := (hs.1 _ (List.mem_map_of_mem h)).ne
      rw [List.find?_cons_of_neg (by simpa using this)]
      exact ih hs.2 h

/-- A new object, exact quadrature. -/
example : let M : BgMethods := ⟨fun _ _ => exactQ, fun _ _ _ a => (a, 1)⟩
    let N := ({ wNum with akima := wLookup } : Num).withBg M
    N.BgBy M ∧ Interpolates N.akima ∧ PyPar.default.Expands ∧ 5 ≤ PyPar.default.background_bins ∧ ¬ PyPar.default.FitOob ∧ exactQ.Exact := by
  refine ⟨C85_inputs _ _, wLookup_interpolates, ⟨?_, ?_, ?_, ?_, ?_⟩, by simp [PyPar.default], by simp [PyPar.FitOob, PyPar.default], exactQ_exact⟩
  · show (0 : ℝ) < 0.67; norm_num
  · show (0 : ℝ) ≤ 0.3 - 0.05 - 0 + 0.05; norm_num
  · show (0 : ℝ) ≤ 9e-5; norm_num
  · show (0 : ℝ) ≤ 1 - (0.3 + 9e-5); norm_num
  · show (0 : ℝ) < 0.3 - 0.05 - 0 + 0.05 + 9e-5 + (1 - (0.3 + 9e-5)); norm_num

end Coffe
