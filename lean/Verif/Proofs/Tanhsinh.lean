import Verif.Spec.Tanhsinh
import Verif.Proofs.Grid
import Mathlib.Tactic.Linarith
import Mathlib.Tactic.Ring
import Mathlib.Tactic.FieldSimp
import Mathlib.Tactic.IntervalCases
import Mathlib.Order.Interval.Set.UnorderedInterval

namespace Coffe
open Finset

theorem cfor_foldl {κ σ : Type} (body : κ → σ → CRes σ) (g : σ → κ → σ) :
    ∀ (l : List κ) (s : σ), (∀ i ∈ l, ∀ s, body i s = .ok (g s i)) → cfor l body s = .ok (l.foldl g s)
  | [], s, _ => rfl
  | i :: is, s, h => by
    simp only [cfor, h i (by simp), List.foldl_cons]
    exact cfor_foldl body g is _ fun j hj => h j (by simp [hj])

theorem ts_nodes_length : ts_nodes.length = 193 := by decide +kernel
theorem ts_weights_length : ts_weights.length = 193 := by decide +kernel

theorem ts_nodes_le : ∀ p ∈ ts_nodes, p.1 ≤ 10 ^ p.2 := by decide +kernel

theorem ts_node_zero : tsNode 0 = 0 := by
  have h : ts_nodes.getD 0 (0, 0) = (0, 20) := by decide +kernel
  rw [tsNode, h]; simp [Dec.val]

theorem tsNode_nonneg (i : ℕ) : 0 ≤ tsNode i := by
  unfold tsNode Dec.val; positivity

theorem tsWeight_nonneg (i : ℕ) : 0 ≤ tsWeight i := by
  unfold tsWeight Dec.val; positivity

theorem tsNode_le_one (i : ℕ) : tsNode i ≤ 1 := by
  unfold tsNode Dec.val
  by_cases h : i < ts_nodes.length
  · rw [getD_lt _ h]
    have := ts_nodes_le _ (List.getElem_mem h)
    rw [div_le_one (by positivity)]
    exact_mod_cast this
  · rw [List.getD_eq_getElem?_getD, List.getElem?_eq_none (by omega)]; norm_num

theorem ts_ld_node {i : ℕ} (h : i < 193) : ∃ n, ld ts_nodes i = .ok n ∧ n.val = tsNode i :=
  ⟨_, ld_getD (0, 0) (by rw [ts_nodes_length]; exact h), rfl⟩

theorem ts_ld_weight {i : ℕ} (h : i < 193) : ∃ n, ld ts_weights i = .ok n ∧ n.val = tsWeight i :=
  ⟨_, ld_getD (0, 0) (by rw [ts_weights_length]; exact h), rfl⟩

theorem ts_ld_offset (k : ℕ) (h : k < 7) : ld ts_offsets (k + 1) = .ok (tsCount k) := by
  interval_cases k <;> rfl

theorem ts_ld_offset0 : ld ts_offsets 0 = .ok 1 := rfl

theorem tsCount_mono {j k : ℕ} (hjk : j ≤ k) (hk : k < 7) : tsCount j ≤ tsCount k := by
  interval_cases k <;> interval_cases j <;> simp [tsCount]

theorem tsCount_le {k : ℕ} (h : k < 7) : tsCount k ≤ 193 := by
  interval_cases k <;> simp [tsCount]

theorem tsCount_ge {k : ℕ} (h : k < 7) : 4 ≤ tsCount k := by
  interval_cases k <;> simp [tsCount]

/-- The points of one layer. -/
noncomputable def tsPts (c d : ℝ) (lo hi : ℕ) : List ℝ :=
  (upTo lo hi).flatMap fun i => [c * tsNode i + d, -c * tsNode i + d]

theorem tsPts_length (c d : ℝ) (lo hi : ℕ) : (tsPts c d lo hi).length = 2 * (hi - lo) := by
  have : ∀ l : List ℕ, (l.flatMap fun i => [c * tsNode i + d, -c * tsNode i + d]).length = 2 * l.length := by
    intro l
    induction l with
    | nil => rfl
    | cons a l ih => rw [List.flatMap_cons, List.length_append, ih]; simp; ring
  rw [tsPts, this]; simp [upTo]

theorem tsPts_append (c d : ℝ) {lo mid hi : ℕ} (h1 : lo ≤ mid) (h2 : mid ≤ hi) :
    tsPts c d lo mid ++ tsPts c d mid hi = tsPts c d lo hi := by
  rw [tsPts, tsPts, ← List.flatMap_append, upTo, upTo, tsPts, upTo]
  have : hi - lo = (mid - lo) + (hi - mid) := by omega
  rw [this, ← List.range'_append]
  congr 3; omega

/-- One layer. -/
noncomputable def tsSum (f : ℝ → ℝ) (c d : ℝ) (lo hi : ℕ) : ℝ :=
  ∑ i ∈ Ico lo hi, tsWeight i * (f (c * tsNode i + d) + f (-c * tsNode i + d))

theorem ts_fold (f : ℝ → ℝ) (c d : ℝ) (lo : ℕ) : ∀ (n : ℕ) (s : ℝ × List ℝ),
    (List.range' lo n).foldl (fun s i => (s.1 + tsWeight i * (f (c * tsNode i + d) + f (-c * tsNode i + d)),
      s.2 ++ [c * tsNode i + d, -c * tsNode i + d])) s
      = (s.1 + tsSum f c d lo (lo + n), s.2 ++ tsPts c d lo (lo + n))
  | 0, s => by simp [tsSum, tsPts, upTo]
  | n + 1, s => by
    rw [List.range'_concat, List.foldl_append, ts_fold f c d lo n s]
    have h1 : tsSum f c d lo (lo + (n + 1)) = tsSum f c d lo (lo + n) +
        tsWeight (lo + n) * (f (c * tsNode (lo + n) + d) + f (-c * tsNode (lo + n) + d)) := by
      rw [tsSum, ← Nat.add_assoc, Finset.sum_Ico_succ_top (by omega)]; rfl
    have h2 : tsPts c d lo (lo + (n + 1)) =
        tsPts c d lo (lo + n) ++ [c * tsNode (lo + n) + d, -c * tsNode (lo + n) + d] := by
      rw [← tsPts_append c d (lo := lo) (mid := lo + n) (hi := lo + (n + 1)) (by omega) (by omega)]
      congr 1
      simp [tsPts, upTo, show lo + (n + 1) - (lo + n) = 1 by omega]
    rw [h1, h2]
    simp [add_assoc]

theorem ts_panel_ok (f : ℝ → ℝ) (c d : ℝ) (level lo hi : ℕ) (hlo : ld ts_offsets level = .ok lo)
    (hhi : ld ts_offsets (level + 1) = .ok hi) (hle : lo ≤ hi) (h : hi ≤ 193) (s : ℝ × List ℝ) :
    ts_panel f c d level s = .ok (s.1 + tsSum f c d lo hi, s.2 ++ tsPts c d lo hi) := by
  have hb := cfor_foldl (fun (i : ℕ) (s : ℝ × List ℝ) => (do
      let w ← ld ts_weights i
      let n ← ld ts_nodes i
      pure (s.1 + w.val * (f (c * n.val + d) + f (-c * n.val + d)),
        s.2 ++ [c * n.val + d, -c * n.val + d]) : CRes (ℝ × List ℝ)))
    (fun s i => (s.1 + tsWeight i * (f (c * tsNode i + d) + f (-c * tsNode i + d)),
      s.2 ++ [c * tsNode i + d, -c * tsNode i + d])) (upTo lo hi) s (by
      intro i hi' s
      have hi193 : i < 193 := by have := mem_upTo.1 hi'; omega
      obtain ⟨w, hw, hwv⟩ := ts_ld_weight hi193
      obtain ⟨n, hn, hnv⟩ := ts_ld_node hi193
      simp only [hw, hn, bind, Except.bind, pure, Except.pure, hwv, hnv])
  have hf := ts_fold f c d lo (hi - lo) s
  rw [show lo + (hi - lo) = hi by omega] at hf
  unfold ts_panel
  simp only [hlo, hhi, bind, Except.bind]
  simp only [bind, Except.bind] at hb
  rw [hb]
  exact congrArg Except.ok hf

/-- Everything summed up to layer `k`. -/
noncomputable def tsTotal (f : ℝ → ℝ) (c d : ℝ) (k : ℕ) : ℝ := f d * tsWeight 0 + tsSum f c d 1 (tsCount k)

theorem tsTotal_succ (f : ℝ → ℝ) (c d : ℝ) {k : ℕ} (hk : k + 1 < 7) :
    tsTotal f c d (k + 1) = tsTotal f c d k + tsSum f c d (tsCount k) (tsCount (k + 1)) := by
  unfold tsTotal tsSum
  rw [add_assoc, Finset.sum_Ico_consecutive _ (by have := tsCount_ge (show k < 7 by omega); omega)
    (tsCount_mono (Nat.le_succ k) hk)]

theorem tsEstimate_eq (f : ℝ → ℝ) (c d : ℝ) (k : ℕ) : tsEstimate k f c d = tsTotal f c d k / 2 ^ k := by
  unfold tsEstimate tsTotal tsSum
  congr 1
  rw [mul_comm]
  congr 1
  refine Finset.sum_congr rfl fun i _ => ?_
  rw [show c * tsNode i + d = d + c * tsNode i by ring, show -c * tsNode i + d = d - c * tsNode i by ring]

theorem ts_half (f : ℝ → ℝ) (c d : ℝ) {k : ℕ} (hk : k + 1 < 7) :
    1 / 2 * (tsTotal f c d k / 2 ^ k) + (tsSum f c d (tsCount k) (tsCount (k + 1))) * (1 / 2 ^ k * (1 / 2))
      = tsTotal f c d (k + 1) / 2 ^ (k + 1) := by
  rw [tsTotal_succ f c d hk, pow_succ]; field_simp

/-- What holds when the loop over the levels ends. -/
structure TsDone (f : ℝ → ℝ) (c d abs_err : ℝ) (L : ℕ) (r : TsState) (k : ℕ) : Prop where
  ge : L ≤ k
  two : 2 ≤ k
  le : k ≤ 6
  integral : r.integral = tsEstimate k f c d
  i : r.i = tsCount k
  calls : r.calls = d :: tsPts c d 1 (tsCount k)
  stop : abs_err = 0 → k = 6 ∨ tsEstimate k f c d = tsEstimate (k - 1) f c d
  before : abs_err = 0 → ∀ j, 2 ≤ j → L ≤ j → j < k → tsEstimate j f c d ≠ tsEstimate (j - 1) f c d

theorem ts_levels_ok (f : ℝ → ℝ) (c d abs_err : ℝ) : ∀ (n L : ℕ), L + n = 6 → 1 ≤ L → ∀ (s : TsState),
    s.integral = tsEstimate (L - 1) f c d → s.dx = 1 / 2 ^ (L - 1) →
    s.calls = d :: tsPts c d 1 (tsCount (L - 1)) →
    ∃ r k, ts_levels f c d abs_err (upTo L 7) s = .ok r ∧ TsDone f c d abs_err L r k
  | n, L, hL, hL1, s => by
    intro hint hdx hcalls
    obtain ⟨m, rfl⟩ : ∃ m, L = m + 1 := ⟨L - 1, by omega⟩
    simp only [Nat.add_sub_cancel] at hint hdx hcalls
    have hup : upTo (m + 1) 7 = (m + 1) :: upTo (m + 2) 7 := by
      unfold upTo
      rw [show 7 - (m + 1) = (7 - (m + 2)) + 1 by omega, List.range'_succ]
    have hp := ts_panel_ok f c d (m + 1) (tsCount m) (tsCount (m + 1)) (ts_ld_offset m (by omega))
      (ts_ld_offset (m + 1) (by omega)) (tsCount_mono (Nat.le_succ m) (by omega)) (tsCount_le (by omega))
      (0, s.calls)
    have hdx' : s.dx * (1 / 2) = 1 / 2 ^ (m + 1) := by rw [hdx, pow_succ]; field_simp
    have hnew : (0 + tsSum f c d (tsCount m) (tsCount (m + 1))) * (1 / 2 ^ (m + 1))
        = tsEstimate (m + 1) f c d - 1 / 2 * s.integral := by
      rw [← hdx', zero_add, hdx, hint, tsEstimate_eq, tsEstimate_eq, ← ts_half f c d (show m + 1 < 7 by omega)]; ring
    have hc : s.calls ++ tsPts c d (tsCount m) (tsCount (m + 1)) = d :: tsPts c d 1 (tsCount (m + 1)) := by
      rw [hcalls, List.cons_append, tsPts_append c d (by have := tsCount_ge (show m < 7 by omega); omega)
        (tsCount_mono (Nat.le_succ m) (by omega))]
    have hdelta : |1 / 2 * s.integral - (tsEstimate (m + 1) f c d - 1 / 2 * s.integral)|
        = |tsEstimate (m + 1) f c d - tsEstimate m f c d| := by
      rw [hint, abs_sub_comm]; congr 1; ring
    have hi' : 1 / 2 * s.integral + (tsEstimate (m + 1) f c d - 1 / 2 * s.integral) = tsEstimate (m + 1) f c d := by
      ring
    rw [hup]
    simp only [ts_levels, hp, ts_ld_offset (m + 1) (by omega), bind, Except.bind, pure, Except.pure, hdx', hnew, hdelta,
      hi', hc]
    by_cases h1 : m + 1 = 1
    · rw [if_pos h1]
      obtain rfl : m = 0 := by omega
      obtain ⟨r, k, hr, hd⟩ := ts_levels_ok f c d abs_err 4 2 (by omega) (by omega)
        ⟨tsEstimate 1 f c d, |tsEstimate 1 f c d - tsEstimate 0 f c d|, s.curr_est_err, 1 / 2 ^ 1, tsCount 1,
          d :: tsPts c d 1 (tsCount 1)⟩ (by simp) (by simp) (by simp)
      refine ⟨r, k, by simpa using hr, ⟨by have := hd.ge; omega, hd.two, hd.le, hd.integral, hd.i, hd.calls, hd.stop, ?_⟩⟩
      intro h0 j hj _ hjk
      exact hd.before h0 j hj hj hjk
    · rw [if_neg h1]
      by_cases hz : |tsEstimate (m + 1) f c d - tsEstimate m f c d| = 0
      · rw [if_pos hz]
        refine ⟨_, m + 1, rfl, ⟨le_rfl, by omega, by omega, rfl, rfl, rfl, fun _ => Or.inr ?_, ?_⟩⟩
        · simpa using sub_eq_zero.1 (abs_eq_zero.1 hz)
        · intro _ j _ h3 h4; omega
      · rw [if_neg hz]
        have hne : tsEstimate (m + 1) f c d ≠ tsEstimate m f c d := fun h => hz (by simp [h])
        have hpos : 0 < |tsEstimate (m + 1) f c d - tsEstimate m f c d| :=
          lt_of_le_of_ne (abs_nonneg _) (Ne.symm hz)
        generalize he : (if 19 / 10 < Real.log |tsEstimate (m + 1) f c d - tsEstimate m f c d| /
            Real.log s.curr_delta ∧ Real.log |tsEstimate (m + 1) f c d - tsEstimate m f c d| /
            Real.log s.curr_delta < 21 / 10 then
            |tsEstimate (m + 1) f c d - tsEstimate m f c d| * |tsEstimate (m + 1) f c d - tsEstimate m f c d|
            else |tsEstimate (m + 1) f c d - tsEstimate m f c d|) = e
        have hepos : 0 < e := by
          rw [← he]; split_ifs
          · exact mul_pos hpos hpos
          · exact hpos
        have hsmall : abs_err = 0 → ¬ (if c = 0 then 0 < abs_err else e < 1 / 10 * (abs_err / c)) := by
          rintro rfl
          split_ifs
          · exact lt_irrefl _
          · simpa using hepos.le
        by_cases hs : if c = 0 then 0 < abs_err else e < 1 / 10 * (abs_err / c)
        · rw [if_pos hs]
          refine ⟨_, m + 1, rfl, ⟨le_rfl, by omega, by omega, rfl, rfl, rfl, fun h => absurd hs (hsmall h), ?_⟩⟩
          intro _ j _ h3 h4; omega
        · rw [if_neg hs]
          by_cases hn : n = 0
          · have hm : m = 5 := by omega
            subst hm
            refine ⟨_, 6, by rfl, ⟨le_rfl, by omega, le_rfl, rfl, rfl, rfl, fun _ => Or.inl rfl, ?_⟩⟩
            intro _ j _ h3 h4; omega
          · obtain ⟨r, k, hr, hd⟩ := ts_levels_ok f c d abs_err (n - 1) (m + 2) (by omega) (by omega)
              ⟨tsEstimate (m + 1) f c d, |tsEstimate (m + 1) f c d - tsEstimate m f c d|, e, 1 / 2 ^ (m + 1),
                tsCount (m + 1), d :: tsPts c d 1 (tsCount (m + 1))⟩ rfl rfl rfl
            refine ⟨r, k, hr, ⟨by have := hd.ge; omega, hd.two, hd.le, hd.integral, hd.i, hd.calls, hd.stop, ?_⟩⟩
            intro h0 j hj h3 hjk
            rcases Nat.lt_or_ge (m + 1) j with h4 | h4
            · exact hd.before h0 j hj (by omega) hjk
            · obtain rfl : j = m + 1 := by omega
              simpa using hne
  termination_by n => n
  decreasing_by all_goals omega

/-- The integrator returns the estimate of one of the levels two to six. -/
theorem ts_integrate_ok (f : ℝ → ℝ) (c d abs_err : ℝ) :
    ∃ r k, ts_integrate f c d abs_err = .ok r ∧ 2 ≤ k ∧ k ≤ 6 ∧ r.result = c * tsEstimate k f c d ∧
      r.num_eval = 2 * tsCount k - 1 ∧ r.calls = d :: tsPts c d 1 (tsCount k) ∧
      (abs_err = 0 → TsStops f c d k) := by
  obtain ⟨n0, hn, hnv⟩ := ts_ld_node (i := 0) (by norm_num)
  obtain ⟨w0, hw, hwv⟩ := ts_ld_weight (i := 0) (by norm_num)
  have hp := ts_panel_ok f c d 0 1 (tsCount 0) ts_ld_offset0 (ts_ld_offset 0 (by omega)) (by simp [tsCount])
    (by simp [tsCount]) (f d * tsWeight 0, [d])
  have hN : ts_num_levels = 7 := rfl
  have hO : ld ts_offsets 1 = .ok (tsCount 0) := ts_ld_offset 0 (by omega)
  unfold ts_integrate
  generalize DBL_MAX = M
  generalize ld ts_nodes 0 = ln at hn
  generalize ld ts_weights 0 = lw at hw
  subst hn hw
  obtain ⟨r, k, hr, hd⟩ := ts_levels_ok f c d abs_err 5 1 (by omega) (by omega)
    ⟨f d * tsWeight 0 + tsSum f c d 1 (tsCount 0), M, M, 1, tsCount 0,
      [d] ++ tsPts c d 1 (tsCount 0)⟩ (by simp [tsEstimate_eq, tsTotal]) (by simp) rfl
  refine ⟨⟨c * r.integral, r.curr_est_err * c, 2 * r.i - 1, r.calls⟩, k, ?_, hd.two, hd.le, ?_, ?_, hd.calls, ?_⟩
  · simp only [hnv, hwv, ts_node_zero, mul_zero, zero_add, hp, hO, hN, hr, bind, Except.bind, pure, Except.pure]
  · exact congrArg (c * ·) hd.integral
  · exact congrArg (2 * · - 1) hd.i
  · intro h0
    exact ⟨hd.two, hd.le, hd.stop h0, fun j h2 hj => hd.before h0 j h2 (by omega) hj⟩

theorem TsStops.unique {f g : ℝ → ℝ} {c d c' d' : ℝ} {j k : ℕ} (hj : TsStops f c d j) (hk : TsStops g c' d' k)
    (h : ∀ i, 2 ≤ i → i ≤ 6 →
      (tsEstimate i f c d = tsEstimate (i - 1) f c d ↔ tsEstimate i g c' d' = tsEstimate (i - 1) g c' d')) :
    j = k := by
  obtain ⟨j2, j6, js, jb⟩ := hj
  obtain ⟨k2, k6, ks, kb⟩ := hk
  rcases lt_trichotomy j k with hlt | heq | hlt
  · exfalso
    rcases js with rfl | js
    · omega
    · exact kb j j2 hlt ((h j j2 j6).1 js)
  · exact heq
  · exfalso
    rcases ks with rfl | ks
    · omega
    · exact jb k k2 hlt ((h k k2 k6).2 ks)

end Coffe
