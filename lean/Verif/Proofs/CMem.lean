import Verif.Model.C.Mem
import Mathlib.Tactic.Linarith

/-! # Helper lemmas: loops that fill a buffer -/

namespace Coffe
open Classical

variable {ι κ α σ : Type}

theorem Buf.ext' {b c : Buf ι α} (h : b.dom = c.dom) (h' : b.val = c.val) : b = c := by
  cases b; cases c; simp_all

theorem mem_upTo {lo hi i : ℕ} : i ∈ upTo lo hi ↔ lo ≤ i ∧ i < hi := by
  simp only [upTo, List.mem_range'_1]; omega

theorem nodup_upTo (lo hi : ℕ) : (upTo lo hi).Nodup := List.nodup_range'

theorem Buf.load_of (dom : ι → Prop) (f : ι → α) {i : ι} (h : dom i) : (Buf.of dom f).load i = .ok (f i) := by
  simp [Buf.load, Buf.of, h]

theorem Buf.load_oob (b : Buf ι α) {i : ι} (h : ¬ b.dom i) : b.load i = .error .oob := by
  simp [Buf.load, h]

theorem Buf.load_eq {b : Buf ι α} {i : ι} {v : α} : b.load i = .ok v ↔ b.dom i ∧ b.val i = some v := by
  unfold Buf.load
  split_ifs with h
  · split <;> rename_i w <;> simp [h, w]
  · simp [h]

theorem cfor_append (is js : List κ) (body : κ → σ → CRes σ) (s : σ) :
    cfor (is ++ js) body s = match cfor is body s with
      | .ok s' => cfor js body s'
      | .error e => .error e := by
  induction is generalizing s with
  | nil => rfl
  | cons i is ih =>
    simp only [List.cons_append, cfor]
    cases body i s with
    | ok s' => exact ih s'
    | error e => rfl

/-- The buffer in which the cells `pos i`, `i` in the list, have been written with `f i`. -/
noncomputable def Buf.fill (b : Buf ι α) : List κ → (κ → ι) → (κ → α) → Buf ι α
  | [], _, _ => b
  | i :: is, pos, f => Buf.fill ⟨b.dom, Function.update b.val (pos i) (some (f i))⟩ is pos f

theorem Buf.fill_dom (b : Buf ι α) (is : List κ) (pos : κ → ι) (f : κ → α) :
    (b.fill is pos f).dom = b.dom := by
  induction is generalizing b with
  | nil => rfl
  | cons i is ih => exact ih _

theorem Buf.fill_not_mem (b : Buf ι α) (is : List κ) (pos : κ → ι) (f : κ → α) {j : ι}
    (h : ∀ i ∈ is, pos i ≠ j) : (b.fill is pos f).val j = b.val j := by
  induction is generalizing b with
  | nil => rfl
  | cons i is ih =>
    rw [Buf.fill, ih _ fun i hi => h i (by simp [hi])]
    exact Function.update_of_ne (h i (by simp)).symm _ _

theorem Buf.fill_mem (b : Buf ι α) (is : List κ) (pos : κ → ι) (f : κ → α)
    (hinj : ∀ i ∈ is, ∀ j ∈ is, pos i = pos j → f i = f j) {i : κ} (h : i ∈ is) :
    (b.fill is pos f).val (pos i) = some (f i) := by
  induction is generalizing b i with
  | nil => simp at h
  | cons j is ih =>
    rw [Buf.fill]
    by_cases hi : ∃ k ∈ is, pos k = pos i
    · obtain ⟨k, hk, e⟩ := hi
      rw [← e, ih _ (fun a ha c hc => hinj a (by simp [ha]) c (by simp [hc])) hk]
      exact congrArg some (hinj k (by simp [hk]) i h e)
    · have hj : j = i := by
        rcases List.mem_cons.1 h with rfl | h
        · rfl
        · exact absurd ⟨i, h, rfl⟩ hi
      subst hj
      rw [Buf.fill_not_mem _ _ _ _ fun k hk e => hi ⟨k, hk, e⟩]
      simp

/-- A loop whose iteration `i` writes `f i` to the cell `pos i` fills the buffer.  The iteration may read the
buffer: its own cell, and cells that the loop does not write. -/
theorem cfor_fill (b : Buf ι α) (is : List κ) (pos : κ → ι) (f : κ → α) (body : κ → Buf ι α → CRes (Buf ι α))
    (hnd : (is.map pos).Nodup) (hdom : ∀ i ∈ is, b.dom (pos i))
    (hbody : ∀ i ∈ is, ∀ c : Buf ι α, c.dom = b.dom →
      (∀ j, (j = pos i ∨ ∀ k ∈ is, pos k ≠ j) → c.val j = b.val j) → body i c = c.store (pos i) (f i)) :
    cfor is body b = .ok (b.fill is pos f) := by
  induction is generalizing b with
  | nil => rfl
  | cons i is ih =>
    have e : body i b = .ok ⟨b.dom, Function.update b.val (pos i) (some (f i))⟩ := by
      rw [hbody i (by simp) b rfl (fun _ _ => rfl), Buf.store, if_pos (hdom i (by simp))]
    simp only [cfor, e, Buf.fill]
    rw [List.map_cons, List.nodup_cons] at hnd
    refine ih _ hnd.2 (fun j hj => hdom j (by simp [hj])) fun j hj c hc hv => ?_
    refine hbody j (by simp [hj]) c hc fun k hk => ?_
    have hne : pos j ≠ pos i := fun e => hnd.1 (List.mem_map.2 ⟨j, hj, e⟩)
    rcases hk with rfl | hk
    · rw [hv _ (Or.inl rfl)]
      exact Function.update_of_ne hne _ _
    · have hki : k ≠ pos i := fun e => hk i (by simp) e.symm
      rw [hv _ (Or.inr fun a ha => hk a (by simp [ha]))]
      exact Function.update_of_ne hki _ _

/-- A loop that writes each cell of the buffer once turns it into a known buffer. -/
theorem Buf.fill_eq_of (b : Buf ι α) (is : List ι) (f : ι → α)
    (h : ∀ i, b.dom i → i ∈ is) (hd : ∀ i, ¬ b.dom i → b.val i = none) (hs : ∀ i ∈ is, b.dom i) :
    b.fill is id f = Buf.of b.dom f := by
  refine Buf.ext' (Buf.fill_dom _ _ _ _) ?_
  funext i
  by_cases hi : b.dom i
  · have := b.fill_mem is id f (fun i _ j _ e => by rw [show i = j from e]) (h i hi)
    simp only [id] at this
    rw [this]; simp [Buf.of, hi]
  · rw [Buf.fill_not_mem _ _ _ _ fun k hk e => hi (by rw [← show k = i from e]; exact hs k hk)]
    simp [Buf.of, hi, hd i hi]

/-- Two buffers agree if they own the same cells and hold the same values in them. -/
theorem cfor_congr {is : List κ} {body body' : κ → σ → CRes σ} (h : ∀ i ∈ is, ∀ s, body i s = body' i s)
    (s : σ) : cfor is body s = cfor is body' s := by
  induction is generalizing s with
  | nil => rfl
  | cons i is ih =>
    simp only [cfor, h i (by simp)]
    cases body' i s with
    | ok s' => exact ih (fun j hj => h j (by simp [hj])) s'
    | error e => rfl

/-- `c` is `b` with the cells of `R` set to `g`. -/
def Buf.Wrote (b : Buf ι α) (R : ι → Prop) (g : ι → α) (c : Buf ι α) : Prop :=
  c.dom = b.dom ∧ (∀ p, R p → c.val p = some (g p)) ∧ ∀ p, ¬ R p → c.val p = b.val p

theorem Buf.Wrote.trans {b c d : Buf ι α} {R S : ι → Prop} {g : ι → α} (h : b.Wrote R g c)
    (h' : c.Wrote S g d) : b.Wrote (fun p => R p ∨ S p) g d := by
  refine ⟨h'.1.trans h.1, fun p hp => ?_, fun p hp => ?_⟩
  · by_cases hs : S p
    · exact h'.2.1 p hs
    · rw [h'.2.2 p hs]
      exact h.2.1 p (hp.resolve_right hs)
  · rw [h'.2.2 p fun hs => hp (Or.inr hs), h.2.2 p fun hs => hp (Or.inl hs)]

theorem Buf.Wrote.congr {b c : Buf ι α} {R S : ι → Prop} {g g' : ι → α} (h : b.Wrote R g c)
    (hR : ∀ p, R p ↔ S p) (hg : ∀ p, R p → g p = g' p) : b.Wrote S g' c :=
  ⟨h.1, fun p hp => by rw [h.2.1 p ((hR p).2 hp), hg p ((hR p).2 hp)],
    fun p hp => h.2.2 p fun hr => hp ((hR p).1 hr)⟩

theorem Buf.store_wrote (b : Buf ι α) (i : ι) (g : ι → α) (h : b.dom i) :
    ∃ c, b.store i (g i) = .ok c ∧ b.Wrote (· = i) g c := by
  refine ⟨⟨b.dom, Function.update b.val i (some (g i))⟩, by rw [Buf.store, if_pos h], rfl, ?_, ?_⟩
  · rintro p rfl; simp
  · intro p hp; exact Function.update_of_ne hp _ _

/-- A loop whose iteration `i` writes the region `R i`, reading only cells no iteration writes. -/
theorem cfor_regions (is : List κ) (R : κ → ι → Prop) (g : ι → α) (body : κ → Buf ι α → CRes (Buf ι α))
    (b : Buf ι α)
    (h : ∀ i ∈ is, ∀ c : Buf ι α, c.dom = b.dom → (∀ p, (∀ k ∈ is, ¬ R k p) → c.val p = b.val p) →
      ∃ c', body i c = .ok c' ∧ c.Wrote (R i) g c') :
    ∃ c, cfor is body b = .ok c ∧ b.Wrote (fun p => ∃ i ∈ is, R i p) g c := by
  suffices H : ∀ js : List κ, (∀ j ∈ js, j ∈ is) → ∀ c : Buf ι α, c.dom = b.dom →
      (∀ p, (∀ k ∈ is, ¬ R k p) → c.val p = b.val p) →
      ∃ d, cfor js body c = .ok d ∧ c.Wrote (fun p => ∃ i ∈ js, R i p) g d from
    H is (fun _ h => h) b rfl (fun _ _ => rfl)
  intro js
  induction js with
  | nil => intro _ c _ _; exact ⟨c, rfl, rfl, by simp, by simp⟩
  | cons j js ih =>
    intro hjs c hc hv
    obtain ⟨c', e, hw⟩ := h j (hjs j (by simp)) c hc hv
    simp only [cfor, e]
    obtain ⟨d, e', hw'⟩ := ih (fun k hk => hjs k (by simp [hk])) c' (hw.1.trans hc) fun p hp => by
      rw [hw.2.2 p (hp j (hjs j (by simp))), hv p hp]
    refine ⟨d, e', (hw.trans hw').congr (fun p => ?_) fun _ _ => rfl⟩
    simp

/-- A loop over consecutive cells of an array indexed by integers, from values that do not depend on the
array. -/
theorem cfor_segment (lo hi : ℕ) (g : ℤ → α) (body : ℕ → Buf ℤ α → CRes (Buf ℤ α)) (b : Buf ℤ α)
    (hd : ∀ i : ℕ, lo ≤ i → i < hi → b.dom i)
    (h : ∀ i : ℕ, lo ≤ i → i < hi → ∀ c : Buf ℤ α, body i c = c.store i (g i)) :
    ∃ c, cfor (upTo lo hi) body b = .ok c ∧ b.Wrote (fun p => (lo : ℤ) ≤ p ∧ p < hi) g c := by
  obtain ⟨c, e, hw⟩ := cfor_regions (upTo lo hi) (fun i p => p = (i : ℤ)) g body b fun i hi' c hc _ => by
    obtain ⟨h1, h2⟩ := mem_upTo.1 hi'
    rw [h i h1 h2 c]
    exact c.store_wrote _ g (by rw [hc]; exact hd i h1 h2)
  refine ⟨c, e, hw.congr (fun p => ?_) fun _ _ => rfl⟩
  constructor
  · rintro ⟨i, hi', rfl⟩
    have := mem_upTo.1 hi'
    omega
  · rintro ⟨h1, h2⟩
    exact ⟨p.toNat, mem_upTo.2 (by omega), by omega⟩

end Coffe
