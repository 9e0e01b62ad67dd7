import Verif.Model.C.Common
import Verif.Spec.Common
import Verif.Proofs.CMem

/-! # Helper lemmas for the array helpers -/

namespace Coffe
open Classical

theorem Buf.Holds.load {α : Type} {b : Buf ℕ α} {n : ℕ} {f : ℕ → α} (h : b.Holds n f) {i : ℕ} (hi : i < n) :
    b.load i = .ok (f i) := Buf.load_eq.2 (h i hi)

theorem upTo_map_id (n : ℕ) : ((upTo 0 n).map id).Nodup := by simpa using nodup_upTo 0 n

/-- Loops over `0..n` whose iteration `i` writes `f i` to cell `i`, reading at most cell `i`. -/
theorem cfor_cells {α : Type} (b : Buf ℕ α) (n : ℕ) (f : ℕ → α) (body : ℕ → Buf ℕ α → CRes (Buf ℕ α))
    (hdom : ∀ i < n, b.dom i)
    (hbody : ∀ i < n, ∀ c : Buf ℕ α, c.dom = b.dom → c.val i = b.val i → body i c = c.store i (f i)) :
    ∃ c, cfor (upTo 0 n) body b = .ok c ∧ c.Holds n f ∧ c.SameFrom b n := by
  refine ⟨_, cfor_fill b (upTo 0 n) id f body (upTo_map_id n) (fun i hi => hdom i (mem_upTo.1 hi).2)
    (fun i hi c hc hv => hbody i (mem_upTo.1 hi).2 c hc (hv i (Or.inl rfl))), ?_, ?_, ?_⟩
  · intro i hi
    refine ⟨by rw [Buf.fill_dom]; exact hdom i hi, ?_⟩
    exact b.fill_mem (upTo 0 n) id f (fun i _ j _ e => by rw [show i = j from e]) (mem_upTo.2 ⟨by omega, hi⟩)
  · exact Buf.fill_dom _ _ _ _
  · intro i hi
    exact Buf.fill_not_mem _ _ _ _ fun k hk e => by
      have := (mem_upTo.1 hk).2
      have e' : k = i := e
      omega

/-- The running maximum. -/
theorem cfor_max (a : Buf ℕ ℝ) (n : ℕ) (f : ℕ → ℝ) (ha : a.Holds n f) (is : List ℕ) (his : ∀ i ∈ is, i < n)
    (x : ℝ) : ∃ m, cfor is (fun i current =>
        match a.load i with
        | .error e => .error e
        | .ok v => .ok (if current < v then v else current)) x = .ok m ∧
      (m = x ∨ ∃ i ∈ is, m = f i) ∧ x ≤ m ∧ ∀ i ∈ is, f i ≤ m := by
  induction is generalizing x with
  | nil => exact ⟨x, rfl, Or.inl rfl, le_rfl, by simp⟩
  | cons i is ih =>
    simp only [cfor, ha.load (his i (by simp))]
    obtain ⟨m, e, h1, h2, h3⟩ := ih (fun j hj => his j (by simp [hj])) (if x < f i then f i else x)
    refine ⟨m, e, ?_, ?_, ?_⟩
    · rcases h1 with h1 | ⟨j, hj, h1⟩
      · split_ifs at h1
        · exact Or.inr ⟨i, by simp, h1⟩
        · exact Or.inl h1
      · exact Or.inr ⟨j, by simp [hj], h1⟩
    · split_ifs at h2 <;> linarith
    · intro j hj
      rcases List.mem_cons.1 hj with rfl | hj
      · split_ifs at h2 <;> linarith
      · exact h3 j hj

theorem cmalloc_dom {α : Type} (n i : ℕ) : (cmalloc n : Buf ℕ α).dom i ↔ i < n := Iff.rfl

end Coffe
