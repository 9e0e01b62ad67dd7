import Verif.Spec.Parallel
import Verif.Proofs.CMem
import Mathlib.Data.List.Perm.Basic

namespace Coffe
open Classical

/-- The cell an access belongs to. -/
def Act.cell : Act → ℕ
  | .rd i => i
  | .wr i => i

theorem Interleave.filter {α : Type} (q : α → Bool) {ps : List (List α)} {t : List α} (h : Interleave ps t) :
    Interleave (ps.map (List.filter q)) (t.filter q) := by
  induction h with
  | done ps h =>
    exact .done _ fun p hp => by
      obtain ⟨p', hp', rfl⟩ := List.mem_map.1 hp
      rw [h p' hp']; rfl
  | step ps qs a p t _ ih =>
    simp only [List.map_append, List.map_cons] at ih ⊢
    by_cases ha : q a = true
    · rw [List.filter_cons_of_pos ha, List.filter_cons_of_pos ha]
      exact .step _ _ _ _ _ ih
    · rw [List.filter_cons_of_neg ha, List.filter_cons_of_neg ha]
      exact ih

/-- If only one program is not empty, the interleaving is that program. -/
theorem Interleave.flatten_of_single {α : Type} {ps : List (List α)} {t : List α} (h : Interleave ps t)
    (h1 : ∀ us p vs, ps = us ++ p :: vs → p ≠ [] → (∀ x ∈ us, x = []) ∧ ∀ x ∈ vs, x = []) : t = ps.flatten := by
  induction h with
  | done ps h => exact (List.flatten_eq_nil_iff.2 h).symm
  | step ps qs a p t _ ih =>
    obtain ⟨e1, e2⟩ := h1 ps (a :: p) qs rfl (by simp)
    have f1 : ps.flatten = [] := List.flatten_eq_nil_iff.2 e1
    have f2 : qs.flatten = [] := List.flatten_eq_nil_iff.2 e2
    have := ih fun us r vs e hr => by
      -- the only non-empty program is `p`
      have hmem : ∀ x ∈ ps ++ p :: qs, x ≠ [] → x = p := by
        intro x hx hne
        rcases List.mem_append.1 hx with hx | hx
        · exact absurd (e1 x hx) hne
        · rcases List.mem_cons.1 hx with hx | hx
          · exact hx
          · exact absurd (e2 x hx) hne
      -- compare positions through lengths
      rcases List.append_eq_append_iff.1 e with ⟨w, rfl, hw⟩ | ⟨w, rfl, hw⟩
      · cases w with
        | nil =>
          simp only [List.nil_append, List.cons.injEq] at hw
          obtain ⟨-, rfl⟩ := hw
          exact ⟨by simpa using e1, e2⟩
        | cons b w =>
          simp only [List.cons_append, List.cons.injEq] at hw
          obtain ⟨-, rfl⟩ := hw
          exact absurd (e2 r (by simp)) hr
      · cases w with
        | nil =>
          simp only [List.nil_append, List.cons.injEq] at hw
          obtain ⟨-, rfl⟩ := hw
          exact ⟨fun x hx => e1 x (by simp [hx]), e2⟩
        | cons b w =>
          simp only [List.cons_append, List.cons.injEq] at hw
          obtain ⟨rfl, -⟩ := hw
          exact absurd (e1 _ (by simp)) hr
    rw [this]
    simp [f1, f2]

theorem filter_threadProgram (i : ℕ) (is : List ℕ) :
    (threadProgram is).filter (fun a => a.cell = i) = threadProgram (is.filter (· = i)) := by
  induction is with
  | nil => rfl
  | cons j is ih =>
    have e : threadProgram (j :: is) = [Act.rd j, Act.wr j] ++ threadProgram is := by simp [threadProgram]
    rw [e, List.filter_append, ih]
    by_cases h : j = i
    · subst h; simp [Act.cell, threadProgram]
    · simp [Act.cell, h]

theorem threadProgram_eq_nil {is : List ℕ} (h : threadProgram is = []) : is = [] := by
  cases is with
  | nil => rfl
  | cons j is => simp [threadProgram] at h

/-- In every schedule iteration `i` reads, then writes, and does nothing else. -/
theorem schedule_filter {n : ℕ} {t : List Act} (h : Schedule n t) (i : ℕ) :
    t.filter (fun a => a.cell = i) = if i < n then [.rd i, .wr i] else [] := by
  obtain ⟨threads, hp, hi⟩ := h
  have hf := hi.filter fun a => a.cell = i
  rw [List.map_map] at hf
  have e0 : (List.filter (fun a : Act => a.cell = i) ∘ threadProgram) = fun is => threadProgram (is.filter (· = i)) := by
    funext is; exact filter_threadProgram i is
  rw [e0] at hf
  have hflat : (threads.map fun is => is.filter (· = i)).flatten = if i < n then [i] else [] := by
    rw [← List.filter_flatten]
    have h1 := hp.filter (· = i)
    have h2 : (List.range n).filter (· = i) = if i < n then [i] else [] := by
      by_cases h : i < n
      · rw [if_pos h]
        have hnd : ((List.range n).filter (· = i)).Nodup := List.nodup_range.filter _
        have : ∀ x, x ∈ (List.range n).filter (· = i) ↔ x = i := by
          intro x; simp; rintro rfl; exact h
        exact List.perm_singleton.1 ((List.perm_ext_iff_of_nodup hnd (by simp)).2 (by simpa using this))
      · rw [if_neg h]
        refine List.filter_eq_nil_iff.2 fun x hx => ?_
        have := List.mem_range.1 hx
        simp; omega
    rw [h2] at h1
    by_cases h : i < n
    · rw [if_pos h] at h1 ⊢; exact List.perm_singleton.1 h1
    · rw [if_neg h] at h1 ⊢; exact List.perm_nil.1 h1
  have hone : ∀ us p vs, threads.map (fun is => threadProgram (is.filter (· = i))) = us ++ p :: vs → p ≠ [] →
      (∀ x ∈ us, x = []) ∧ ∀ x ∈ vs, x = [] := by
    intro us p vs e hne
    obtain ⟨us', r, rfl, rfl, e2⟩ := List.map_eq_append_iff.1 e
    obtain ⟨p', vs', rfl, rfl, rfl⟩ := List.map_eq_cons_iff.1 e2
    have hlen : ((us'.map fun is => is.filter (· = i)).flatten).length + (p'.filter (· = i)).length
        + ((vs'.map fun is => is.filter (· = i)).flatten).length ≤ 1 := by
      have := congrArg List.length hflat
      simp only [List.map_append, List.map_cons, List.flatten_append, List.flatten_cons, List.length_append] at this
      have h' : (if i < n then [i] else []).length ≤ 1 := by split_ifs <;> simp
      omega
    have hp' : 1 ≤ (p'.filter (· = i)).length := by
      rcases Nat.eq_zero_or_pos (p'.filter (· = i)).length with h | h
      · exact absurd (by rw [List.length_eq_zero_iff.1 h]; rfl) hne
      · exact h
    have z1 : (us'.map fun is => is.filter (· = i)).flatten = [] := List.length_eq_zero_iff.1 (by omega)
    have z2 : (vs'.map fun is => is.filter (· = i)).flatten = [] := List.length_eq_zero_iff.1 (by omega)
    constructor
    · intro x hx
      obtain ⟨is, his, rfl⟩ := List.mem_map.1 hx
      rw [List.flatten_eq_nil_iff.1 z1 _ (List.mem_map.2 ⟨is, his, rfl⟩)]; rfl
    · intro x hx
      obtain ⟨is, his, rfl⟩ := List.mem_map.1 hx
      rw [List.flatten_eq_nil_iff.1 z2 _ (List.mem_map.2 ⟨is, his, rfl⟩)]; rfl
  have := hf.flatten_of_single hone
  rw [this]
  have e3 : ∀ ls : List (List ℕ), (ls.map fun is => threadProgram (is.filter (· = i))).flatten =
      threadProgram ((ls.map fun is => is.filter (· = i)).flatten) := by
    intro ls
    induction ls with
    | nil => rfl
    | cons a ls ih =>
      simp only [List.map_cons, List.flatten_cons, ih]
      simp [threadProgram]
  rw [e3, hflat]
  split_ifs <;> rfl

theorem runActs_inv (upd : ℕ → Option ℝ → CRes ℝ) (n : ℕ) (v : Buf ℕ ℝ) (x : ℕ → ℝ) (hd : ∀ i < n, v.dom i)
    (hu : ∀ i < n, upd i (v.val i) = .ok (x i)) (w : ℕ → Option ℝ) (hw : ∀ i < n, w i = some (x i)) (t : List Act) (s : ParState)
    (hdom : s.mem.dom = v.dom)
    (h : ∀ i, (i < n ∧ t.filter (fun a => a.cell = i) = [.rd i, .wr i] ∧ s.mem.val i = v.val i) ∨
      (i < n ∧ t.filter (fun a => a.cell = i) = [.wr i] ∧ s.loc i = some (v.val i)) ∨
      (t.filter (fun a => a.cell = i) = [] ∧ s.mem.val i = w i)) :
    ∃ s', runActs upd t s = .ok s' ∧ s'.mem.dom = v.dom ∧ s'.mem.val = w := by
  induction t generalizing s with
  | nil =>
    refine ⟨s, rfl, hdom, ?_⟩
    funext i
    rcases h i with ⟨-, h, -⟩ | ⟨-, h, -⟩ | ⟨-, h⟩
    · simp at h
    · simp at h
    · exact h
  | cons a t ih =>
    cases a with
    | rd i =>
      have hi := h i
      rw [List.filter_cons_of_pos (by simp [Act.cell])] at hi
      rcases hi with ⟨hi, he, hv⟩ | ⟨-, he, -⟩ | ⟨he, -⟩
      · have hs : (Act.rd i).step upd s = .ok { s with loc := Function.update s.loc i (some (s.mem.val i)) } := by
          simp only [Act.step]; rw [if_pos (by rw [hdom]; exact hd i hi)]
        simp only [runActs, hs]
        refine ih _ hdom fun j => ?_
        by_cases hj : j = i
        · subst hj
          right; left
          refine ⟨hi, by simpa using he, ?_⟩
          show Function.update s.loc j _ j = _
          rw [Function.update_self, hv]
        · have := h j
          rw [List.filter_cons_of_neg (by simp [Act.cell, Ne.symm hj])] at this
          show _ ∨ (_ ∧ _ ∧ Function.update s.loc i _ j = _) ∨ _
          rw [Function.update_of_ne hj]
          exact this
      · simp at he
      · simp at he
    | wr i =>
      have hi := h i
      rw [List.filter_cons_of_pos (by simp [Act.cell])] at hi
      rcases hi with ⟨-, he, -⟩ | ⟨hi, he, hv⟩ | ⟨he, -⟩
      · simp at he
      · obtain ⟨m, em, m1, m2, m3⟩ := s.mem.store_wrote i x (by rw [hdom]; exact hd i hi)
        have hs : (Act.wr i).step upd s = .ok { s with mem := m } := by
          simp only [Act.step, hv, hu i hi, bind, Except.bind, em]; rfl
        simp only [runActs, hs]
        refine ih _ (m1.trans hdom) fun j => ?_
        by_cases hj : j = i
        · subst hj
          right; right
          exact ⟨by simpa using he, by rw [hw j hi]; exact m2 j rfl⟩
        · have := h j
          rw [List.filter_cons_of_neg (by simp [Act.cell, Ne.symm hj])] at this
          show (_ ∧ _ ∧ m.val j = _) ∨ _ ∨ (_ ∧ m.val j = _)
          rw [m3 j hj]
          exact this
      · simp at he

/-! ## Binary search -/

theorem bsearch_brackets (xa : ℕ → ℝ) (x : ℝ) (hx : ∀ i j, i ≤ j → xa i ≤ xa j) (lo hi : ℕ) (h : lo < hi) (h1 : xa lo ≤ x) :
    lo ≤ bsearch xa x lo hi ∧ bsearch xa x lo hi < hi ∧ xa (bsearch xa x lo hi) ≤ x ∧
      (x < xa (bsearch xa x lo hi + 1) ∨ bsearch xa x lo hi + 1 = hi) := by
  induction hn : hi - lo using Nat.strong_induction_on generalizing lo hi with
  | _ n ih =>
    rw [bsearch]
    split_ifs with h2 h3
    · obtain ⟨a, b, c, d⟩ := ih ((hi + lo) / 2 - lo) (by omega) lo ((hi + lo) / 2) (by omega) h1 rfl
      refine ⟨a, by omega, c, ?_⟩
      rcases d with d | d
      · exact Or.inl d
      · left; rw [d]; exact h3
    · obtain ⟨a, b, c, d⟩ := ih (hi - (hi + lo) / 2) (by omega) ((hi + lo) / 2) hi (by omega) (not_lt.1 h3) rfl
      exact ⟨by omega, b, c, d⟩
    · exact ⟨le_rfl, h, h1, Or.inr (by omega)⟩

end Coffe
