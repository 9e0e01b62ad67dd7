import Verif.Proofs.Text
import Mathlib.Tactic.NormNum

/-! # C30, C31: text tables are read and written faithfully -/

namespace Coffe

/-! ## C30: readers -/

/-- C30: `read_1col` returns the first number of every line that is not a comment, in order.  Lines end with a
newline; what follows the last newline (`tail`) is not read. -/
theorem C30_read_1col (ls : List Text) (h : ∀ l ∈ ls, IsLine l) (tail : Text) (htail : '\n' ∉ tail) :
    ∃ v, read_1col (ofLines ls ++ tail) = .ok (v, (dataLines ls).length) ∧
      v.IsArray (dataLines ls).length (fun i => atof ((dataLines ls).getD i [])) := by
  obtain ⟨b', e, hd, -, hv⟩ := fill_loop (fun l => (.ok (atof (l ++ ['\n'])) : CRes ℝ)) (fun l => atof l) (dataLines ls) 0
    (cmalloc (dataLines ls).length : Buf ℕ ℝ) (fun l _ => by rw [atof_newline]) (fun i hi => by simpa [cmalloc, Buf.new] using hi)
  obtain ⟨t', ht⟩ := reader_loop _ 0 ls h
    (fun _ (s : Option Text × Text × Buf ℕ ℝ × ℕ) => do
      let r := fgets s.1 s.2.1
      let c ← is_comment r.1
      if c then pure (r.1, r.2, s.2.2)
      else do
        let v ← s.2.2.1.store s.2.2.2 (atof (r.1.getD []))
        pure (r.1, r.2, v, s.2.2.2 + 1))
    (fun i t l rest a hl => by
      simp only [fgets_eq t l rest hl, is_comment_eq, bind, Except.bind, pure, Except.pure, Option.getD_some]
      cases IsComment l
      · simp only [Bool.false_eq_true, if_false]
        cases a.1.store a.2 (atof (l ++ ['\n'])) <;> rfl
      · rfl) none _ _ e tail
  refine ⟨b', ?_, ?_, ?_⟩
  · unfold read_1col
    dsimp only
    rw [count_rows_eq ls h tail htail, count_ofLines ls h tail htail]
    simp only [bind, Except.bind, upTo, Nat.sub_zero] at ht ⊢
    rw [ht]
    simp [pure, Except.pure]
  · intro i; rw [hd]; exact Iff.rfl
  · intro i hi
    refine ⟨by rw [hd]; exact hi, ?_⟩
    have := hv i hi
    rw [Nat.zero_add] at this
    rw [this]
    simp [List.getD, List.getElem?_eq_getElem hi]

/-- The k-th token of a line, as the readers see it. -/
theorem strtok_fields (s t : Text) (fs : List Text) (h : fields s = t :: fs) :
    (strtok s).1 = some t ∧ fields (strtok s).2 = fs := by
  rw [fields_strtok s] at h
  cases hs : (strtok s).1 with
  | none => rw [hs] at h; simp at h
  | some u => rw [hs] at h; simp at h; exact ⟨by rw [h.1], h.2⟩

/-- C30: `read_2col` returns the first two fields of every line that is not a comment, in order, if all of them have
two fields.  What follows the last newline is not read. -/
theorem C30_read_2col_partial (ls : List Text) (h : ∀ l ∈ ls, IsLine l) (h2 : ∀ l ∈ dataLines ls, 2 ≤ (fields l).length)
    (tail : Text) (htail : '\n' ∉ tail) :
    ∃ v, read_2col (ofLines ls ++ tail) = .ok (v, (dataLines ls).length) ∧
      v.IsArray (dataLines ls).length (fun i => (atof ((fields ((dataLines ls).getD i [])).getD 0 []),
        atof ((fields ((dataLines ls).getD i [])).getD 1 []))) := by
  have hval : ∀ l ∈ dataLines ls, (do
      let a ← atof_token (strtok (l ++ ['\n'])).1
      let b ← atof_token (strtok (strtok (l ++ ['\n'])).2).1
      pure (a, b) : CRes (ℝ × ℝ)) = .ok (atof ((fields l).getD 0 []), atof ((fields l).getD 1 [])) := by
    intro l hl
    have hlen := h2 l hl
    obtain ⟨t0, e0, h0⟩ := fields_newline l 0 (by omega)
    obtain ⟨t1, e1, h1⟩ := fields_newline l 1 (by omega)
    cases hf : fields (l ++ ['\n']) with
    | nil => rw [hf] at e0; simp at e0
    | cons a fs =>
      rw [hf] at e0 e1
      simp only [List.getElem?_cons_zero, Option.some.injEq] at e0
      subst e0
      obtain ⟨s1, s2⟩ := strtok_fields _ _ _ hf
      cases fs with
      | nil => simp at e1
      | cons b fs =>
        simp only [List.getElem?_cons_succ, List.getElem?_cons_zero, Option.some.injEq] at e1
        subst e1
        obtain ⟨s3, -⟩ := strtok_fields _ _ _ s2
        have v0 : atof a = atof ((fields l).getD 0 []) := by
          have : (fields l).getD 0 [] = (fields l)[0] := by
            simp [List.getD, List.getElem?_eq_getElem (show 0 < (fields l).length by omega)]
          rw [this]
          rcases h0 with h0 | h0
          · rw [h0]
          · rw [h0, atof_newline]
        have v1 : atof b = atof ((fields l).getD 1 []) := by
          have : (fields l).getD 1 [] = (fields l)[1] := by
            simp [List.getD, List.getElem?_eq_getElem (show 1 < (fields l).length by omega)]
          rw [this]
          rcases h1 with h1 | h1
          · rw [h1]
          · rw [h1, atof_newline]
        simp only [s1, s3, atof_token, bind, Except.bind, pure, Except.pure, v0, v1]
  obtain ⟨b', e, hd, -, hv⟩ := fill_loop (fun l => (do
      let a ← atof_token (strtok (l ++ ['\n'])).1
      let b ← atof_token (strtok (strtok (l ++ ['\n'])).2).1
      pure (a, b) : CRes (ℝ × ℝ))) (fun l => (atof ((fields l).getD 0 []), atof ((fields l).getD 1 []))) (dataLines ls) 0
    (cmalloc (dataLines ls).length : Buf ℕ (ℝ × ℝ)) hval (fun i hi => by simpa [cmalloc, Buf.new] using hi)
  obtain ⟨t', ht⟩ := reader_loop _ 0 ls h
    (fun _ (s : Option Text × Text × Buf ℕ (ℝ × ℝ) × ℕ) => do
      let r := fgets s.1 s.2.1
      let c ← is_comment r.1
      if c then pure (r.1, r.2, s.2.2)
      else do
        let t := strtok (r.1.getD [])
        let a ← atof_token t.1
        let b ← atof_token (strtok t.2).1
        let v ← s.2.2.1.store s.2.2.2 (a, b)
        pure (r.1, r.2, v, s.2.2.2 + 1))
    (fun i t l rest a hl => by
      simp only [fgets_eq t l rest hl, is_comment_eq, bind, Except.bind, pure, Except.pure, Option.getD_some]
      cases IsComment l
      · simp only [Bool.false_eq_true, if_false]
        cases atof_token (strtok (l ++ ['\n'])).1 with
        | error e => rfl
        | ok x =>
          cases atof_token (strtok (strtok (l ++ ['\n'])).2).1 with
          | error e => rfl
          | ok y =>
            dsimp only
            cases a.1.store a.2 (x, y) <;> rfl
      · rfl) none _ _ e tail
  refine ⟨b', ?_, ?_, ?_⟩
  · unfold read_2col
    dsimp only
    rw [count_rows_eq ls h tail htail, count_ofLines ls h tail htail]
    simp only [bind, Except.bind, upTo, Nat.sub_zero] at ht ⊢
    rw [ht]
    simp [pure, Except.pure]
  · intro i; rw [hd]; exact Iff.rfl
  · intro i hi
    refine ⟨by rw [hd]; exact hi, ?_⟩
    have := hv i hi
    rw [Nat.zero_add] at this
    rw [this]
    simp [List.getD, List.getElem?_eq_getElem hi]

/-- The tokens of one line are stored in one row. -/
theorem row_loop (n : ℕ) (g : ℕ → ℝ) : ∀ (N s : ℕ) (r : Text) (b : Buf (ℕ × ℕ) ℝ),
    (∀ j, s ≤ j → j < s + N → b.dom (j, n)) →
    (∀ j < N, ∃ t, (fields r)[j]? = some t ∧ atof t = g (s + j)) →
    ∃ b' u, cfor (List.range' s N) (read_cell n) (b, strtok r) = .ok (b', u) ∧
      b.Wrote (fun p => p.2 = n ∧ s ≤ p.1 ∧ p.1 < s + N) (fun p => g p.1) b' := by
  intro N
  induction N with
  | zero =>
    intro s r b _ _
    exact ⟨b, _, rfl, rfl, fun p hp => absurd hp.2.2 (by omega), fun p _ => rfl⟩
  | succ N ih =>
    intro s r b hd hf
    obtain ⟨t, ht, hv⟩ := hf 0 (by omega)
    cases hr : fields r with
    | nil => rw [hr] at ht; simp at ht
    | cons a fs =>
      rw [hr] at ht
      simp only [List.getElem?_cons_zero, Option.some.injEq] at ht
      subst ht
      obtain ⟨s1, s2⟩ := strtok_fields _ _ _ hr
      obtain ⟨b1, h1, hw⟩ := Buf.store_wrote b (s, n) (fun p => g p.1) (hd s le_rfl (by omega))
      obtain ⟨b', u, e, hw'⟩ := ih (s + 1) (strtok r).2 b1
        (fun j h1 h2 => by rw [hw.1]; exact hd j (by omega) (by omega))
        (fun j hj => by
          obtain ⟨t, ht, hv⟩ := hf (j + 1) (by omega)
          rw [hr, List.getElem?_cons_succ] at ht
          exact ⟨t, by rw [s2]; exact ht, by rw [hv]; congr 1; omega⟩)
      refine ⟨b', u, ?_, ?_⟩
      · rw [List.range'_succ]
        simp only [cfor, read_cell, s1, bind, Except.bind, pure, Except.pure] at e ⊢
        rw [show atof a = (fun p : ℕ × ℕ => g p.1) (s, n) by simpa using hv, h1]
        exact e
      · have := hw.trans hw'
        refine ⟨this.1, fun p hp => this.2.1 p ?_, fun p hp => this.2.2 p ?_⟩
        · by_cases hs : p.1 = s
          · exact Or.inl (Prod.ext hs hp.1)
          · exact Or.inr ⟨hp.1, by omega, by omega⟩
        · rintro (rfl | h)
          · exact hp ⟨rfl, by simp, by simp⟩
          · exact hp ⟨h.1, by omega, by omega⟩

/-- Filling the rows of a matrix in order. -/
theorem rows_loop (N : ℕ) (f : Text → ℕ → ℝ) (inner : Text → ℕ → Buf (ℕ × ℕ) ℝ → CRes (Buf (ℕ × ℕ) ℝ))
    (ks : List Text) (n : ℕ) (b : Buf (ℕ × ℕ) ℝ)
    (hi : ∀ l ∈ ks, ∀ (b : Buf (ℕ × ℕ) ℝ) n, (∀ j < N, b.dom (j, n)) → ∃ b1, inner l n b = .ok b1 ∧
      b.Wrote (fun p => p.2 = n ∧ p.1 < N) (fun p => f l p.1) b1)
    (hdom : ∀ j i, j < N → i < n + ks.length → b.dom (j, i)) :
    ∃ b', cfor ks (fun l (s : Buf (ℕ × ℕ) ℝ × ℕ) => do
        let v ← inner l s.2 s.1
        pure (v, s.2 + 1)) (b, n) = .ok (b', n + ks.length) ∧ b'.dom = b.dom ∧
      (∀ j, ∀ i < n, b'.val (j, i) = b.val (j, i)) ∧
      ∀ (i : ℕ) (hi : i < ks.length), ∀ j < N, b'.val (j, n + i) = some (f ks[i] j) := by
  induction ks generalizing n b with
  | nil => exact ⟨b, rfl, rfl, fun _ _ _ => rfl, fun i hi => absurd hi (by simp)⟩
  | cons l ks ih =>
    obtain ⟨b1, h1, hw⟩ := hi l (by simp) b n (fun j hj => hdom j n hj (by simp))
    obtain ⟨b', e, hd, hlo, hhi⟩ := ih (n + 1) b1 (fun x hx => hi x (by simp [hx]))
      (fun j i hj hi => by rw [hw.1]; exact hdom j i hj (by simp; omega))
    refine ⟨b', ?_, hd.trans hw.1, fun j i hi => (hlo j i (by omega)).trans (hw.2.2 _ fun h => by
      have : i = n := h.1
      omega), fun i hi j hj => ?_⟩
    · simp only [cfor, bind, Except.bind, h1, pure, Except.pure] at e ⊢
      rw [e]; simp; omega
    · cases i with
      | zero => simpa using (hlo j n (by omega)).trans (hw.2.1 _ ⟨rfl, hj⟩)
      | succ i =>
        have := hhi i (by simpa using hi) j hj
        rw [show n + (i + 1) = n + 1 + i by ring]
        simpa using this

/-- C30: `coffe_read_ncol` returns the first `N` fields of every line that is not a comment, in order, if all of them
have that many.  What follows the last newline is not read. -/
theorem C30_read_ncol_partial (N : ℕ) (ls : List Text) (h : ∀ l ∈ ls, IsLine l)
    (h2 : ∀ l ∈ dataLines ls, N ≤ (fields l).length) (tail : Text) (htail : '\n' ∉ tail) :
    ∃ v, coffe_read_ncol N (ofLines ls ++ tail) = .ok (v, (dataLines ls).length) ∧
      ∀ j i, j < N → i < (dataLines ls).length →
        v.load (j, i) = .ok (atof ((fields ((dataLines ls).getD i [])).getD j [])) := by
  obtain ⟨b', e, hd, -, hv⟩ := rows_loop N (fun l j => atof ((fields l).getD j []))
    (fun l n b => do
      let v ← cfor (upTo 0 N) (read_cell n) (b, strtok (l ++ ['\n']))
      pure v.1) (dataLines ls) 0 (Buf.new (fun i => i.1 < N ∧ i.2 < (dataLines ls).length))
    (fun l hl b n hb => by
      obtain ⟨b1, u, e, hw⟩ := row_loop n (fun j => atof ((fields l).getD j [])) N 0 (l ++ ['\n']) b
        (fun j _ hj => hb j (by omega)) (fun j hj => by
          have hj' : j < (fields l).length := lt_of_lt_of_le hj (h2 l hl)
          obtain ⟨t, ht, hv⟩ := fields_newline l j hj'
          refine ⟨t, ht, ?_⟩
          have : (fields l).getD j [] = (fields l)[j] := by simp [List.getD, List.getElem?_eq_getElem hj']
          rw [Nat.zero_add, this]
          rcases hv with hv | hv
          · rw [hv]
          · rw [hv, atof_newline])
      refine ⟨b1, ?_, hw.1, fun p hp => hw.2.1 p ⟨hp.1, Nat.zero_le _, by omega⟩,
        fun p hp => hw.2.2 p fun h => hp ⟨h.1, by omega⟩⟩
      simp only [bind, Except.bind, upTo, Nat.sub_zero, pure, Except.pure] at e ⊢
      rw [e]) (fun j i hj hi => ⟨hj, by simpa using hi⟩)
  obtain ⟨t', ht⟩ := reader_loop _ 0 ls h
    (fun _ (s : Option Text × Text × Buf (ℕ × ℕ) ℝ × ℕ) => do
      let r := fgets s.1 s.2.1
      let c ← is_comment r.1
      if c then pure (r.1, r.2, s.2.2)
      else do
        let v ← cfor (upTo 0 N) (read_cell s.2.2.2) (s.2.2.1, strtok (r.1.getD []))
        pure (r.1, r.2, v.1, s.2.2.2 + 1))
    (fun i t l rest a hl => by
      simp only [fgets_eq t l rest hl, is_comment_eq, bind, Except.bind, pure, Except.pure, Option.getD_some]
      cases IsComment l
      · simp only [Bool.false_eq_true, if_false]
        generalize cfor (upTo 0 N) _ (a.1, strtok (l ++ ['\n'])) = q
        cases q <;> rfl
      · rfl) none _ _ e tail
  refine ⟨b', ?_, ?_⟩
  · unfold coffe_read_ncol
    dsimp only
    rw [count_rows_eq ls h tail htail, count_ofLines ls h tail htail]
    simp only [bind, Except.bind, upTo, Nat.sub_zero] at ht ⊢
    rw [ht]
    simp [pure, Except.pure]
  · intro j i hj hi
    have := hv i hi j hj
    rw [Nat.zero_add] at this
    refine Buf.load_eq.2 ⟨by rw [hd]; exact ⟨hj, hi⟩, ?_⟩
    rw [this]
    simp [List.getD, List.getElem?_eq_getElem hi]

/-! ## C30: where the readers fail -/

/-- The digits of a line are read. -/
theorem atof_one : atof ['1'] = 1 := by
  have e1 : sign_of (['1'].dropWhile isSpace) = (1, ['1']) := by decide
  have e2 : digits ['1'] = (['1'], []) := by decide
  have e3 : fraction_of [] = ([], []) := rfl
  have e4 : exponent_of [] = 0 := rfl
  unfold atof
  dsimp only
  rw [e1]
  dsimp only
  rw [e2]
  dsimp only
  rw [e3]
  dsimp only
  rw [e4, if_neg (by simp)]
  norm_num [Nat.ofDigitChars]
  rfl

/-- C30 is false without a newline at the end of the file: of the two numbers in this file only one is returned. -/
theorem C30_last_line_false : ∃ v, read_1col (ofLines [['1']] ++ ['2']) = .ok (v, 1) ∧ v.IsArray 1 (fun _ => 1) := by
  obtain ⟨v, h, ha⟩ := C30_read_1col [['1']] (by simp [IsLine]) ['2'] (by decide)
  have e : dataLines [['1']] = [['1']] := by simp [dataLines, IsComment]
  rw [e] at h ha
  refine ⟨v, h, ha.1, fun i hi => ?_⟩
  have hi0 : i = 0 := by omega
  subst hi0
  have := ha.2 0 (by simp)
  simpa [atof_one] using this

/-- C30 is false for two columns if a line is empty: a missing token is dereferenced. -/
theorem C30_empty_line_false : read_2col (ofLines [[]]) = .error .null := by
  simp [read_2col, ofLines, count_lines, count_rows, upTo, List.range', cfor, fgets, fgets_line, is_comment, bind,
    Except.bind, pure, Except.pure, COFFE_MAX_STRLEN, strtok, isDelim, atof_token]

theorem fgets_line_long (m : ℕ) (l rest : Text) (hl : '\n' ∉ l) (hm : l.length = m) :
    fgets_line m (l ++ rest) = (l, rest) := by
  induction l generalizing m with
  | nil => subst hm; simp [fgets_line]
  | cons c l ih =>
    subst hm
    simp only [List.mem_cons, not_or] at hl
    simp only [List.cons_append, List.length_cons, fgets_line, if_neg (Ne.symm hl.1), ih _ hl.2 rfl]

/-- C30 is false for long lines: the rest of a comment of more than 255 characters counts as data, and the last line of the
file is dropped. -/
theorem C30_long_line_false : ∃ l : Text, IsComment l = true ∧ '\n' ∉ l ∧
    ∃ v, read_1col (ofLines [l, ['1']]) = .ok (v, 1) ∧ v.IsArray 1 (fun _ => 0) := by
  obtain ⟨K, hn, hlen⟩ : ∃ K : Text, '\n' ∉ '#' :: K ∧ K.length = 254 := by
    refine ⟨List.replicate 254 'x', fun h => ?_, List.length_replicate⟩
    rcases List.mem_cons.1 h with h | h
    · exact absurd h (by decide)
    · exact absurd (List.eq_of_mem_replicate h) (by decide)
  have hx : '\n' ∉ (['x'] : Text) := by decide
  refine ⟨'#' :: K ++ ['x'], by simp [IsComment], ?_, ?_⟩
  · intro h
    rcases List.mem_append.1 h with h | h
    · exact hn h
    · exact hx h
  · have hfile : ofLines ['#' :: K ++ ['x'], ['1']] =
        ('#' :: K) ++ (['x'] ++ '\n' :: ['1', '\n']) := by simp [ofLines]
    have hcount : count_lines (('#' :: K) ++ (['x'] ++ '\n' :: ['1', '\n'])) = 2 := by
      unfold count_lines
      rw [List.count_append, List.count_eq_zero.2 hn]
      decide
    have f1 : ∀ t, fgets t (('#' :: K) ++ (['x'] ++ '\n' :: ['1', '\n'])) =
        (some ('#' :: K), ['x'] ++ '\n' :: ['1', '\n']) := by
      intro t
      unfold fgets
      rw [if_neg (by simp), show COFFE_MAX_STRLEN - 1 = 255 from rfl, fgets_line_long 255 _ _ hn (by simp [hlen])]
    have f2 : ∀ t, fgets t (['x'] ++ '\n' :: ['1', '\n']) = (some ['x', '\n'], ['1', '\n']) := by
      intro t; exact fgets_eq t ['x'] ['1', '\n'] (by simp [IsLine])
    have c1 : is_comment (some ('#' :: K)) = .ok true := by simp [is_comment]
    have c2 : is_comment (some ['x', '\n']) = .ok false := by simp [is_comment]
    have hr : count_rows 2 (('#' :: K) ++ (['x'] ++ '\n' :: ['1', '\n'])) = .ok 1 := by
      unfold count_rows upTo
      simp only [Nat.sub_zero, List.range'_succ, List.range'_zero, cfor, f1, c1, bind, Except.bind, pure, Except.pure, if_true]
      simp only [f2, c2, Bool.false_eq_true, if_false]
    have ha : atof ['x', '\n'] = 0 := by
      have : Char.isDigit 'x' = false := by decide
      simp [atof, sign_of, digits, fraction_of, isSpace, this]
    obtain ⟨b1, h1, hw⟩ := Buf.store_wrote (cmalloc 1 : Buf ℕ ℝ) 0 (fun _ => (0 : ℝ)) (show 0 < 1 by norm_num)
    refine ⟨b1, ?_, ?_, ?_⟩
    · rw [hfile]
      unfold read_1col
      dsimp only
      rw [hcount, hr]
      unfold upTo
      simp only [Nat.sub_zero, List.range'_succ, List.range'_zero, cfor, f1, c1, bind, Except.bind, pure, Except.pure, if_true]
      simp only [f2, c2, Bool.false_eq_true, if_false, Option.getD_some, ha, h1]
    · intro i; rw [hw.1]; exact Iff.rfl
    · intro i hi
      have hi0 : i = 0 := by omega
      subst hi0
      exact ⟨by rw [hw.1]; exact hi, hw.2.1 0 rfl⟩

end Coffe
