import Verif.Proofs.Parallel
import Verif.Proofs.Grid
import Mathlib.Tactic.NormNum

/-!
# C22: schedule independence; C48: the look-up accelerator
-/

namespace Coffe
open Classical

theorem parallel_loop (upd : ℕ → Option ℝ → CRes ℝ) (n : ℕ) (v w : Buf ℕ ℝ) (x : ℕ → ℝ)
    (hd : ∀ i < n, v.dom i) (hu : ∀ i < n, upd i (v.val i) = .ok (x i)) (hwd : w.dom = v.dom)
    (hw : ∀ i < n, w.val i = some (x i)) (hr : ∀ i, n ≤ i → w.val i = v.val i) (t : List Act) (ht : Schedule n t)
    (loc : ℕ → Option (Option ℝ)) :
    ∃ s, runActs upd t ⟨loc, v⟩ = .ok s ∧ s.mem = w := by
  obtain ⟨s, e, h1, h2⟩ := runActs_inv upd n v x hd hu w.val hw t ⟨loc, v⟩ rfl fun i => by
    have := schedule_filter ht i
    by_cases h : i < n
    · rw [if_pos h] at this; exact Or.inl ⟨h, this, rfl⟩
    · rw [if_neg h] at this; exact Or.inr (Or.inr ⟨this, (hr i (by omega)).symm⟩)
  exact ⟨s, e, Buf.ext' (h1.trans hwd.symm) h2⟩

theorem load_dom {ι α : Type} {b : Buf ι α} {i : ι} {v : α} (h : b.load i = .ok v) : b.dom i := (Buf.load_eq.1 h).1

/-- **C22**, the loops that store: whatever the number of threads, the assignment of iterations to them and the
interleaving of their memory accesses, the array afterwards is the one of the sequential loop. -/
theorem C22_store_partial {κ : Type} (coords : Buf ℕ κ) (f : κ → ℝ) (n : ℕ) (v w : Buf ℕ ℝ)
    (h : setLoop coords f n v = .ok w) (t : List Act) (ht : Schedule n t) (loc : ℕ → Option (Option ℝ)) :
    ∃ s, runActs (setUpd coords f) t ⟨loc, v⟩ = .ok s ∧ s.mem = w := by
  -- a sequential run that succeeds has read and written every cell
  have key : ∀ (m lo : ℕ) (v w : Buf ℕ ℝ), cfor (List.range' lo m) (fun i v => do
      let c ← coords.load i
      v.store i (f c)) v = .ok w → w.dom = v.dom ∧ (∀ i, (lo ≤ i ∧ i < lo + m) →
        v.dom i ∧ ∃ c, coords.load i = .ok c ∧ w.val i = some (f c)) ∧
        ∀ i, ¬ (lo ≤ i ∧ i < lo + m) → w.val i = v.val i := by
    intro m
    induction m with
    | zero => rintro lo v w h; obtain rfl : v = w := by simpa [cfor] using h
              exact ⟨rfl, fun i h => by omega, fun _ _ => rfl⟩
    | succ m ih =>
      intro lo v w h
      rw [List.range'_succ] at h
      simp only [cfor] at h
      cases hc : coords.load lo with
      | error e => simp [hc, bind, Except.bind] at h
      | ok c =>
        by_cases hdom : v.dom lo
        · obtain ⟨v1, e1, a1, a2, a3⟩ := v.store_wrote lo (fun _ => f c) hdom
          simp only [hc, bind, Except.bind, e1] at h
          obtain ⟨b1, b2, b3⟩ := ih (lo + 1) v1 w h
          refine ⟨b1.trans a1, fun i hi => ?_, fun i hi => ?_⟩
          · by_cases hi' : i = lo
            · subst hi'
              exact ⟨hdom, c, hc, by rw [b3 i (by omega)]; exact a2 i rfl⟩
            · obtain ⟨c1, c2⟩ := b2 i (by omega)
              rw [a1] at c1
              exact ⟨c1, c2⟩
          · rw [b3 i (by omega), a3 i (by omega)]
        · simp only [hc, bind, Except.bind, Buf.store, if_neg hdom] at h
          exact absurd h (by simp)
  obtain ⟨k1, k2, k3⟩ := key n 0 v w (by simpa [setLoop, upTo] using h)
  have hx : ∀ i, ∃ y, i < n → setUpd coords f i (v.val i) = .ok y ∧ w.val i = some y := by
    intro i
    by_cases hi : i < n
    · obtain ⟨-, c, hc, hw⟩ := k2 i (by omega)
      exact ⟨f c, fun _ => ⟨by simp only [setUpd, hc]; rfl, hw⟩⟩
    · exact ⟨0, fun h => absurd h hi⟩
  choose x hx using hx
  exact parallel_loop _ n v w x (fun i hi => (k2 i (by omega)).1) (fun i hi => (hx i hi).1) k1 (fun i hi => (hx i hi).2)
    (fun i hi => k3 i (by omega)) t ht loc

/-- **C22**, the loops that add. -/
theorem C22_add_partial {κ : Type} (coords : Buf ℕ κ) (f : κ → ℝ) (n : ℕ) (v w : Buf ℕ ℝ)
    (h : addLoop coords f n v = .ok w) (t : List Act) (ht : Schedule n t) (loc : ℕ → Option (Option ℝ)) :
    ∃ s, runActs (addUpd coords f) t ⟨loc, v⟩ = .ok s ∧ s.mem = w := by
  have key : ∀ (m lo : ℕ) (v w : Buf ℕ ℝ), cfor (List.range' lo m) (fun i v => do
      let c ← coords.load i
      let old ← v.load i
      v.store i (old + f c)) v = .ok w → w.dom = v.dom ∧ (∀ i, (lo ≤ i ∧ i < lo + m) →
        v.dom i ∧ ∃ c o, coords.load i = .ok c ∧ v.val i = some o ∧ w.val i = some (o + f c)) ∧
        ∀ i, ¬ (lo ≤ i ∧ i < lo + m) → w.val i = v.val i := by
    intro m
    induction m with
    | zero => rintro lo v w h; obtain rfl : v = w := by simpa [cfor] using h
              exact ⟨rfl, fun i h => by omega, fun _ _ => rfl⟩
    | succ m ih =>
      intro lo v w h
      rw [List.range'_succ] at h
      simp only [cfor] at h
      cases hc : coords.load lo with
      | error e => simp [hc, bind, Except.bind] at h
      | ok c =>
        cases ho : v.load lo with
        | error e => simp [hc, ho, bind, Except.bind] at h
        | ok o =>
          obtain ⟨hdom, hval⟩ := Buf.load_eq.1 ho
          obtain ⟨v1, e1, a1, a2, a3⟩ := v.store_wrote lo (fun _ => o + f c) hdom
          simp only [hc, ho, bind, Except.bind, e1] at h
          obtain ⟨b1, b2, b3⟩ := ih (lo + 1) v1 w h
          refine ⟨b1.trans a1, fun i hi => ?_, fun i hi => ?_⟩
          · by_cases hi' : i = lo
            · subst hi'
              exact ⟨hdom, c, o, hc, hval, by rw [b3 i (by omega)]; exact a2 i rfl⟩
            · obtain ⟨c1, c2, o2, c3, c4, c5⟩ := b2 i (by omega)
              rw [a1] at c1
              rw [a3 i hi'] at c4
              exact ⟨c1, c2, o2, c3, c4, c5⟩
          · rw [b3 i (by omega), a3 i (by omega)]
  obtain ⟨k1, k2, k3⟩ := key n 0 v w (by simpa [addLoop, upTo] using h)
  have hx : ∀ i, ∃ y, i < n → addUpd coords f i (v.val i) = .ok y ∧ w.val i = some y := by
    intro i
    by_cases hi : i < n
    · obtain ⟨-, c, o, hc, hv, hw⟩ := k2 i (by omega)
      exact ⟨o + f c, fun _ => ⟨by simp only [addUpd, hc, hv]; rfl, hw⟩⟩
    · exact ⟨0, fun h => absurd h hi⟩
  choose x hx using hx
  exact parallel_loop _ n v w x (fun i hi => (k2 i (by omega)).1) (fun i hi => (hx i hi).1) k1 (fun i hi => (hx i hi).2)
    (fun i hi => k3 i (by omega)) t ht loc

/-- **C22**, the three loops of a table one after the other, each with its own schedule. -/
theorem C22_table_partial {κ : Type} (coords : Buf ℕ κ) (f1 f2 f3 : κ → ℝ) (n : ℕ) (v0 v1 v2 v3 : Buf ℕ ℝ)
    (h1 : setLoop coords f1 n v0 = .ok v1) (h2 : addLoop coords f2 n v1 = .ok v2) (h3 : addLoop coords f3 n v2 = .ok v3)
    (t1 t2 t3 : List Act) (ht1 : Schedule n t1) (ht2 : Schedule n t2) (ht3 : Schedule n t3)
    (l1 l2 l3 : ℕ → Option (Option ℝ)) :
    ∃ s1 s2 s3, runActs (setUpd coords f1) t1 ⟨l1, v0⟩ = .ok s1 ∧ runActs (addUpd coords f2) t2 ⟨l2, s1.mem⟩ = .ok s2 ∧
      runActs (addUpd coords f3) t3 ⟨l3, s2.mem⟩ = .ok s3 ∧ s3.mem = v3 := by
  obtain ⟨s1, e1, m1⟩ := C22_store_partial coords f1 n v0 v1 h1 t1 ht1 l1
  obtain ⟨s2, e2, m2⟩ := C22_add_partial coords f2 n v1 v2 h2 t2 ht2 l2
  obtain ⟨s3, e3, m3⟩ := C22_add_partial coords f3 n v2 v3 h3 t3 ht3 l3
  exact ⟨s1, s2, s3, e1, by rw [m1]; exact e2, by rw [m2]; exact e3, m3⟩

/-- Non-vacuity: two threads with one iteration each, both reading before either writes. -/
example : Schedule 2 [.rd 1, .rd 0, .wr 1, .wr 0] := by
  refine ⟨[[0], [1]], by decide, ?_⟩
  have h4 : Interleave [([] : List Act), []] [] := .done _ (by simp)
  have h3 : Interleave [[Act.wr 0], []] [.wr 0] := Interleave.step [] [[]] (Act.wr 0) [] [] h4
  have h2 : Interleave [[Act.wr 0], [Act.wr 1]] [.wr 1, .wr 0] := Interleave.step [[Act.wr 0]] [] (Act.wr 1) [] _ h3
  have h1 : Interleave [[Act.rd 0, Act.wr 0], [Act.wr 1]] [.rd 0, .wr 1, .wr 0] := Interleave.step [] [[Act.wr 1]] (Act.rd 0) _ _ h2
  exact Interleave.step [[Act.rd 0, Act.wr 0]] [] (Act.rd 1) _ _ h1

/-- **C22 fails** through the interpolation look-ups inside the iterations: all threads share the accelerator of a
spline.  Spline with the knots (0,1), (1,0), (2,1): thread one looks up 1/2, thread two 3/2.  If thread two finishes
between thread one's check and thread one's return, thread one gets the wrong interval and the value -1/2 instead
of 1/2. -/
theorem C22_shared_accelerator_false :
    let xa : ℕ → ℝ := fun i => i
    let ya : ℕ → ℝ := fun i => |(i : ℝ) - 1|
    ∃ (schedule : List Bool) (i j c : ℕ),
      runFinds xa 3 (1 / 2) (3 / 2) schedule (.start, .start, 0) = (.returned i, .returned j, c) ∧
      linearSegment xa ya i (1 / 2) = -1 / 2 ∧
      linearSegment xa ya (accel_find xa 3 0 (1 / 2)).1 (1 / 2) = 1 / 2 := by
  have hb : bsearch (fun i => (i : ℝ)) (3 / 2) 0 2 = 1 := by
    rw [bsearch]; norm_num; rw [bsearch]; norm_num
  refine ⟨[false, false, true, true, true, false], 1, 1, 1, ?_, ?_, ?_⟩
  · simp only [runFinds, Find.step]
    norm_num [hb]
  · norm_num [linearSegment]
  · have : accel_find (fun i => (i : ℝ)) 3 0 (1 / 2) = (0, 0) := by
      simp only [accel_find]; norm_num
    rw [this]
    norm_num [linearSegment]

/-- **C48.** Used by one thread, the accelerator finds the interval containing the argument, whatever was looked up
before, for increasing knots and arguments inside their range; and it leaves a valid cache. -/
theorem C48_look_up (xa : ℕ → ℝ) (hx : ∀ i j, i ≤ j → xa i ≤ xa j) (len : ℕ) (hl : 2 ≤ len) (cache : ℕ) (hc : cache + 1 < len)
    (x : ℝ) (h0 : xa 0 ≤ x) (h1 : x ≤ xa (len - 1)) :
    Brackets xa len (accel_find xa len cache x).1 x ∧ (accel_find xa len cache x).2 + 1 < len := by
  unfold accel_find Brackets
  split_ifs with h2 h3
  · have hpos : 0 < cache := by
      rcases Nat.eq_zero_or_pos cache with h | h
      · rw [h] at h2; linarith
      · exact h
    obtain ⟨a, b, c, d⟩ := bsearch_brackets xa x hx 0 cache hpos h0
    refine ⟨⟨by dsimp only; omega, c, Or.inl ?_⟩, by dsimp only; omega⟩
    rcases d with d | d
    · exact d
    · dsimp only; rw [d]; exact h2
  · obtain ⟨a, b, c, d⟩ := bsearch_brackets xa x hx cache (len - 1) (by omega)
      (le_trans (hx _ _ (Nat.le_succ cache)) h3)
    refine ⟨⟨by dsimp only; omega, c, ?_⟩, by dsimp only; omega⟩
    rcases d with d | d
    · exact Or.inl d
    · right; dsimp only; omega
  · exact ⟨⟨hc, not_lt.1 h2, Or.inl (not_le.1 h3)⟩, hc⟩

/-- … so two look-ups of the same argument with different histories agree, for strictly increasing knots. -/
theorem C48_history_independent (xa : ℕ → ℝ) (hx : ∀ i j, i < j → xa i < xa j) (len : ℕ) (hl : 2 ≤ len) (c d : ℕ)
    (hc : c + 1 < len) (hd : d + 1 < len) (x : ℝ) (h0 : xa 0 ≤ x) (h1 : x ≤ xa (len - 1)) :
    (accel_find xa len c x).1 = (accel_find xa len d x).1 := by
  have hm : ∀ i j, i ≤ j → xa i ≤ xa j := fun i j h => by
    rcases Nat.lt_or_eq_of_le h with h | h
    · exact (hx i j h).le
    · rw [h]
  obtain ⟨⟨a1, a2, a3⟩, -⟩ := C48_look_up xa hm len hl c hc x h0 h1
  obtain ⟨⟨b1, b2, b3⟩, -⟩ := C48_look_up xa hm len hl d hd x h0 h1
  generalize (accel_find xa len c x).1 = i at *
  generalize (accel_find xa len d x).1 = j at *
  rcases Nat.lt_trichotomy i j with h | h | h
  · rcases a3 with a3 | a3
    · have := hm (i + 1) j h; linarith
    · omega
  · exact h
  · rcases b3 with b3 | b3
    · have := hm (j + 1) i h; linarith
    · omega

/-- Non-vacuity of C48. -/
example : (accel_find (fun i => (i : ℝ)) 3 0 (1 / 2)).1 = (accel_find (fun i => (i : ℝ)) 3 1 (1 / 2)).1 :=
  C48_history_independent _ (fun i j h => by exact_mod_cast h) 3 (by norm_num) 0 1 (by norm_num) (by norm_num) _ (by norm_num) (by norm_num)

end Coffe
