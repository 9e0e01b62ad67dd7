import Verif.Model.C.Background
import Verif.Proofs.Parallel
import Mathlib.Analysis.Real.Sqrt
import Mathlib.Topology.Order.OrderClosed
import Mathlib.Topology.Algebra.Order.LiminfLimsup

/-!
# Piecewise linear interpolation: values at the nodes, continuity, positivity
-/

namespace Coffe
open Set

variable {xa ya : ℕ → ℝ}

theorem linearSegment_left (h : xa i < xa (i + 1)) : linearSegment xa ya i (xa i) = ya i := by
  unfold linearSegment
  simp

theorem linearSegment_right (h : xa i < xa (i + 1)) : linearSegment xa ya i (xa (i + 1)) = ya (i + 1) := by
  unfold linearSegment
  have : xa (i + 1) - xa i ≠ 0 := by linarith [sub_pos.2 h] |> ne_of_gt
  field_simp
  ring

theorem interp_segment (hx : StrictMono xa) {n : ℕ} {i : ℕ} (hi : i + 1 < n) {x : ℝ} (h0 : xa i ≤ x) (h1 : x ≤ xa (i + 1)) :
    interp_linear xa ya n x = linearSegment xa ya i x := by
  unfold interp_linear
  obtain ⟨-, hb, hle, hr⟩ := bsearch_brackets xa x (fun a b h => hx.monotone h) 0 (n - 1) (by omega)
    (le_trans (hx.monotone (Nat.zero_le i)) h0)
  generalize bsearch xa x 0 (n - 1) = j at *
  rcases Nat.lt_trichotomy j i with h | h | h
  · rcases hr with hr | hr
    · have := hx.monotone (show j + 1 ≤ i from h); linarith
    · omega
  · rw [h]
  · have h2 := hx.monotone (show i + 1 ≤ j from h)
    have e : x = xa (i + 1) := le_antisymm h1 (by linarith)
    have e2 : j = i + 1 := by
      have := hx.le_iff_le.1 (show xa j ≤ xa (i + 1) by linarith)
      omega
    rw [e2, e, linearSegment_left (hx (Nat.lt_succ_self _)), linearSegment_right (hx (Nat.lt_succ_self _))]

theorem interp_node (hx : StrictMono xa) {n i : ℕ} (hi : i < n) (hn : 2 ≤ n) : interp_linear xa ya n (xa i) = ya i := by
  rcases Nat.lt_or_ge (i + 1) n with h | h
  · rw [interp_segment hx h le_rfl (hx (Nat.lt_succ_self _)).le, linearSegment_left (hx (Nat.lt_succ_self _))]
  · obtain ⟨k, rfl⟩ : ∃ k, i = k + 1 := ⟨i - 1, by omega⟩
    rw [interp_segment hx hi (hx (Nat.lt_succ_self _)).le le_rfl, linearSegment_right (hx (Nat.lt_succ_self _))]

theorem exists_segment (hx : StrictMono xa) {n : ℕ} (hn : 2 ≤ n) {x : ℝ} (h0 : xa 0 ≤ x) (h1 : x ≤ xa (n - 1)) :
    ∃ i, i + 1 < n ∧ xa i ≤ x ∧ x ≤ xa (i + 1) := by
  obtain ⟨-, hb, hle, hr⟩ := bsearch_brackets xa x (fun a b h => hx.monotone h) 0 (n - 1) (by omega) h0
  refine ⟨_, by omega, hle, ?_⟩
  rcases hr with hr | hr
  · exact hr.le
  · rw [hr]; exact h1

theorem interp_const (hx : StrictMono xa) {n : ℕ} (hn : 2 ≤ n) {x c : ℝ} (hc : ∀ i < n, ya i = c)
    (h0 : xa 0 ≤ x) (h1 : x ≤ xa (n - 1)) : interp_linear xa ya n x = c := by
  obtain ⟨i, hi, a, b⟩ := exists_segment hx hn h0 h1
  rw [interp_segment hx hi a b]
  unfold linearSegment
  rw [hc i (by omega), hc (i + 1) hi]
  simp

theorem interp_pos (hx : StrictMono xa) {n : ℕ} (hn : 2 ≤ n) {x : ℝ} (hc : ∀ i < n, 0 < ya i)
    (h0 : xa 0 ≤ x) (h1 : x ≤ xa (n - 1)) : 0 < interp_linear xa ya n x := by
  obtain ⟨i, hi, a, b⟩ := exists_segment hx hn h0 h1
  rw [interp_segment hx hi a b]
  unfold linearSegment
  have hd : 0 < xa (i + 1) - xa i := sub_pos.2 (hx (Nat.lt_succ_self _))
  have t0 : 0 ≤ (x - xa i) / (xa (i + 1) - xa i) := div_nonneg (by linarith) hd.le
  have t1 : (x - xa i) / (xa (i + 1) - xa i) ≤ 1 := (div_le_one hd).2 (by linarith)
  have p0 := hc i (by omega)
  have p1 := hc (i + 1) hi
  generalize (x - xa i) / (xa (i + 1) - xa i) = t at *
  nlinarith [mul_nonneg t0 p1.le, mul_nonneg (sub_nonneg.2 t1) p0.le]

theorem interp_continuousOn (hx : StrictMono xa) (n : ℕ) (hn : 2 ≤ n) :
    ContinuousOn (interp_linear xa ya n) (Icc (xa 0) (xa (n - 1))) := by
  have key : ∀ k, k < n → ContinuousOn (interp_linear xa ya n) (Icc (xa 0) (xa k)) := by
    intro k
    induction k with
    | zero => intro _; simpa using continuousOn_singleton _ _
    | succ k ih =>
      intro hk
      have hu : Icc (xa 0) (xa (k + 1)) = Icc (xa 0) (xa k) ∪ Icc (xa k) (xa (k + 1)) :=
        (Icc_union_Icc_eq_Icc (hx.monotone (Nat.zero_le _)) (hx (Nat.lt_succ_self _)).le).symm
      rw [hu]
      refine ContinuousOn.union_of_isClosed (ih (by omega)) ?_ isClosed_Icc isClosed_Icc
      refine ContinuousOn.congr (f := fun x => linearSegment xa ya k x) ?_ fun x hx' => interp_segment hx hk hx'.1 hx'.2
      unfold linearSegment
      fun_prop
  exact key (n - 1) (by omega)

theorem de_z_strictMono : StrictMono de_z := fun i j h => by
  unfold de_z
  have : (i : ℝ) < j := by exact_mod_cast h
  have hb : (0 : ℝ) < de_bins := by norm_num [de_bins]
  gcongr

theorem de_z_zero : de_z 0 = 0 := by simp [de_z]

theorem de_z_last : de_z (de_bins + 1 - 1) = 100 := by
  unfold de_z
  have hb : (de_bins : ℝ) ≠ 0 := by norm_num [de_bins]
  simp only [Nat.add_sub_cancel]
  field_simp

end Coffe
