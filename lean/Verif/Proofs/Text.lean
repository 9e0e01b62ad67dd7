import Verif.Proofs.TextNum
import Verif.Proofs.Common
import Mathlib.Data.List.TakeWhile
import Verif.Spec.Text
import Verif.Spec.Common

/-! # Helper lemmas: lines and fields -/

namespace Coffe

theorem fgets_line_eq (m : ℕ) (l rest : Text) (hl : '\n' ∉ l) (hm : l.length < m) :
    fgets_line m (l ++ '\n' :: rest) = (l ++ ['\n'], rest) := by
  induction l generalizing m with
  | nil =>
    cases m with
    | zero => simp at hm
    | succ m => simp [fgets_line]
  | cons c l ih =>
    cases m with
    | zero => simp at hm
    | succ m =>
      simp only [List.mem_cons, not_or] at hl
      simp only [List.length_cons] at hm
      simp only [List.cons_append, fgets_line, if_neg (Ne.symm hl.1), ih m hl.2 (by omega)]

theorem fgets_eq (t : Option Text) (l rest : Text) (hl : IsLine l) :
    fgets t (l ++ '\n' :: rest) = (some (l ++ ['\n']), rest) := by
  unfold fgets
  rw [if_neg (by simp), show COFFE_MAX_STRLEN - 1 = 255 from rfl,
    fgets_line_eq 255 l rest hl.1 (by have := hl.2; omega)]

theorem ofLines_cons (l : Text) (ls : List Text) : ofLines (l :: ls) = l ++ '\n' :: ofLines ls := by
  simp [ofLines]

theorem ofLines_append (a b : List Text) : ofLines (a ++ b) = ofLines a ++ ofLines b := by simp [ofLines]

theorem count_ofLines (ls : List Text) (h : ∀ l ∈ ls, IsLine l) (tail : Text) (ht : '\n' ∉ tail) :
    count_lines (ofLines ls ++ tail) = ls.length := by
  unfold count_lines
  rw [List.count_append, List.count_eq_zero.2 ht, Nat.add_zero]
  induction ls with
  | nil => rfl
  | cons l ls ih =>
    have h0 : l.count '\n' = 0 := List.count_eq_zero.2 (h l (by simp)).1
    rw [ofLines_cons, List.count_append, List.count_cons_self, h0, ih fun x hx => h x (by simp [hx])]
    simp

theorem is_comment_eq (l : Text) : is_comment (some (l ++ ['\n'])) = .ok (IsComment l) := by
  unfold is_comment IsComment
  cases l with
  | nil => simp
  | cons c l => simp

/-- The loop of a reader over the lines of a file. -/
theorem reader_loop {σ : Type} (body : Text → σ → CRes σ) (s : ℕ) (ls : List Text) (h : ∀ l ∈ ls, IsLine l)
    (loop : ℕ → Option Text × Text × σ → CRes (Option Text × Text × σ))
    (hloop : ∀ i (t : Option Text) (l rest : Text) (a : σ), IsLine l → loop i (t, l ++ '\n' :: rest, a) =
      if IsComment l then .ok (some (l ++ ['\n']), rest, a)
      else (body l a).bind fun a' => .ok (some (l ++ ['\n']), rest, a')) (t : Option Text) (a a' : σ)
    (hbody : cfor (dataLines ls) body a = .ok a') (tail : Text) :
    ∃ t', cfor (List.range' s ls.length) loop (t, ofLines ls ++ tail, a) = .ok (t', tail, a') := by
  induction ls generalizing t a s with
  | nil =>
    have : a = a' := by simpa [cfor, dataLines] using hbody
    exact ⟨t, by simp [cfor, ofLines, this]⟩
  | cons l ls ih =>
    rw [ofLines_cons, List.length_cons, List.range'_succ, List.append_assoc, List.cons_append]
    simp only [cfor, hloop s t l (ofLines ls ++ tail) a (h l (by simp))]
    by_cases hc : IsComment l = true
    · simp only [hc, if_true]
      refine ih (s + 1) (fun x hx => h x (by simp [hx])) _ _ ?_
      simpa [dataLines, hc] using hbody
    · have hd : dataLines (l :: ls) = l :: dataLines ls := by simp [dataLines, hc]
      rw [hd] at hbody
      simp only [cfor] at hbody
      simp only [hc]
      cases hb : body l a with
      | error e => rw [hb] at hbody; simp at hbody
      | ok a1 =>
        rw [hb] at hbody
        simp only [Except.bind]
        exact ih (s + 1) (fun x hx => h x (by simp [hx])) _ _ hbody

theorem count_rows_eq (ls : List Text) (h : ∀ l ∈ ls, IsLine l) (tail : Text) (ht : '\n' ∉ tail) :
    count_rows (count_lines (ofLines ls ++ tail)) (ofLines ls ++ tail) = .ok (dataLines ls).length := by
  have key : ∀ (ks : List Text) (k : ℕ), cfor ks (fun _ (k : ℕ) => (.ok (k + 1) : CRes ℕ)) k = .ok (k + ks.length) := by
    intro ks
    induction ks with
    | nil => intro k; rfl
    | cons x xs ih => intro k; simp only [cfor, ih]; congr 1; simp; omega
  unfold count_rows upTo
  rw [count_ofLines ls h tail ht, Nat.sub_zero]
  obtain ⟨t', ht⟩ := reader_loop (fun _ (k : ℕ) => (.ok (k + 1) : CRes ℕ)) 0 ls h
    (fun _ (s : Option Text × Text × ℕ) => do
      let r := fgets s.1 s.2.1
      let c ← is_comment r.1
      pure (r.1, r.2, if c then s.2.2 else s.2.2 + 1))
    (fun i t l rest a hl => by
      simp only [fgets_eq t l rest hl, is_comment_eq, bind, Except.bind, pure, Except.pure]
      cases IsComment l <;> rfl) none 0 _ (key _ 0) tail
  rw [ht]
  simp [bind, Except.bind, pure, Except.pure]

/-- Filling an array in order. -/
theorem fill_loop {α : Type} (val : Text → CRes α) (f : Text → α) (ks : List Text) (n : ℕ)
    (b : Buf ℕ α) (hv : ∀ l ∈ ks, val l = .ok (f l)) (hdom : ∀ i, i < n + ks.length → b.dom i) :
    ∃ b', cfor ks (fun l (s : Buf ℕ α × ℕ) => do
        let x ← val l
        let v ← s.1.store s.2 x
        pure (v, s.2 + 1)) (b, n) = .ok (b', n + ks.length) ∧ b'.dom = b.dom ∧
      (∀ i < n, b'.val i = b.val i) ∧ ∀ (i : ℕ) (hi : i < ks.length), b'.val (n + i) = some (f ks[i]) := by
  induction ks generalizing n b with
  | nil => exact ⟨b, rfl, rfl, fun _ _ => rfl, fun i hi => absurd hi (by simp)⟩
  | cons l ks ih =>
    have hn : b.dom n := hdom n (by simp)
    obtain ⟨b1, h1, hw⟩ : ∃ b1, b.store n (f l) = .ok b1 ∧ b1.dom = b.dom ∧ b1.val n = some (f l) ∧
        ∀ i, i ≠ n → b1.val i = b.val i := by
      obtain ⟨b1, h1, hw⟩ := Buf.store_wrote b n (fun _ => f l) hn
      exact ⟨b1, h1, hw.1, hw.2.1 n rfl, fun i hi => hw.2.2 i hi⟩
    obtain ⟨b', e, hd, hlo, hhi⟩ := ih (n + 1) b1 (fun x hx => hv x (by simp [hx]))
      (fun i hi => by rw [hw.1]; exact hdom i (by simp; omega))
    refine ⟨b', ?_, hd.trans hw.1, fun i hi => (hlo i (by omega)).trans (hw.2.2 i (by omega)), fun i hi => ?_⟩
    · simp only [cfor, hv l (by simp), bind, Except.bind, h1, pure, Except.pure] at e ⊢
      rw [e]; simp; omega
    · cases i with
      | zero => simpa using (hlo n (by omega)).trans hw.2.1
      | succ i =>
        have := hhi i (by simpa using hi)
        rw [show n + (i + 1) = n + 1 + i by ring]
        simpa using this

/-! ## Fields -/

theorem fields_delim {c : Char} (h : isDelim c = true) (s : Text) : fields (c :: s) = fields s := by
  unfold fields
  rw [List.splitOnP_cons, if_pos h]
  simp

theorem fields_dropWhile (s : Text) : fields (s.dropWhile isDelim) = fields s := by
  induction s with
  | nil => rfl
  | cons c s ih =>
    by_cases h : isDelim c = true
    · rw [List.dropWhile_cons_of_pos h, ih, fields_delim h]
    · rw [List.dropWhile_cons_of_neg h]

/-- The tokenizer yields the fields. -/
theorem fields_strtok (s : Text) : fields s = match (strtok s).1 with
    | none => []
    | some t => t :: fields (strtok s).2 := by
  unfold strtok
  by_cases h : s.dropWhile isDelim = []
  · rw [if_pos h]
    rw [← fields_dropWhile, h]; rfl
  · rw [if_neg h, ← fields_dropWhile]
    dsimp only
    cases hs : s.dropWhile isDelim with
    | nil => exact absurd hs h
    | cons c u =>
      have hc : isDelim c = false := by
        have := List.head?_dropWhile_not isDelim s
        rw [hs] at this
        simpa using this
      generalize hv : c :: u = v at *
      have hne : v.takeWhile (fun c => !isDelim c) ≠ [] := by rw [← hv]; simp [hc]
      have hall : ∀ x ∈ v.takeWhile (fun c => !isDelim c), isDelim x = false := by
        intro x hx
        have := List.mem_takeWhile_imp hx
        simpa using this
      have hsplit := List.takeWhile_append_dropWhile (p := fun c => !isDelim c) (l := v)
      cases hd : v.dropWhile (fun c => !isDelim c) with
      | nil =>
        rw [hd, List.append_nil] at hsplit
        unfold fields
        rw [hsplit, List.splitOnP_eq_singleton (fun x hx => by rw [← hsplit] at hx; exact hall x hx)]
        rw [hsplit] at hne
        cases v with
        | nil => exact absurd rfl hne
        | cons a v => simp
      | cons d w =>
        have hdd : isDelim d = true := by
          have := List.head?_dropWhile_not (fun c => !isDelim c) v
          rw [hd] at this
          simpa using this
        conv_lhs => rw [← hsplit, hd]
        unfold fields
        rw [List.splitOnP_append_cons_of_forall_mem hall d hdd]
        generalize v.takeWhile (fun c => !isDelim c) = tk at *
        cases tk with
        | nil => exact absurd rfl hne
        | cons a tk => simp

theorem splitOnP_newline (l : Text) : ∃ init last, l.splitOnP isDelim = init ++ [last] ∧
    (l ++ ['\n']).splitOnP isDelim = init ++ [last ++ ['\n']] := by
  induction l with
  | nil => exact ⟨[], [], by simp, by rw [List.nil_append, List.splitOnP_cons]; simp [isDelim]⟩
  | cons c l ih =>
    obtain ⟨init, last, h1, h2⟩ := ih
    rw [List.cons_append, List.splitOnP_cons, List.splitOnP_cons, h1, h2]
    by_cases h : isDelim c = true
    · rw [if_pos h, if_pos h]
      exact ⟨[] :: init, last, rfl, rfl⟩
    · rw [if_neg h, if_neg h]
      cases init with
      | nil => exact ⟨[], c :: last, rfl, rfl⟩
      | cons a init => exact ⟨(c :: a) :: init, last, rfl, rfl⟩

/-- The newline at the end of a line only touches the last field. -/
theorem fields_newline (l : Text) (k : ℕ) (hk : k < (fields l).length) :
    ∃ t, (fields (l ++ ['\n']))[k]? = some t ∧ (t = (fields l)[k] ∨ t = (fields l)[k] ++ ['\n']) := by
  obtain ⟨init, last, h1, h2⟩ := splitOnP_newline l
  have e2 : fields (l ++ ['\n']) = (init.filter fun t => !t.isEmpty) ++ [last ++ ['\n']] := by
    unfold fields; rw [h2]; simp
  by_cases hl : last = []
  · have e1 : fields l = init.filter fun t => !t.isEmpty := by unfold fields; rw [h1, hl]; simp
    refine ⟨(fields l)[k], ?_, Or.inl rfl⟩
    rw [e2, List.getElem?_append_left (by rw [← e1]; exact hk)]
    simp [e1, List.getElem?_eq_getElem (show k < (init.filter fun t => !t.isEmpty).length by rw [← e1]; exact hk)]
  · have e1 : fields l = (init.filter fun t => !t.isEmpty) ++ [last] := by
      unfold fields; rw [h1]
      cases last with
      | nil => exact absurd rfl hl
      | cons a last => simp
    generalize (init.filter fun t => !t.isEmpty) = F at *
    have hk' : k < F.length + 1 := by rw [e1] at hk; simpa using hk
    by_cases hlt : k < F.length
    · refine ⟨F[k], ?_, Or.inl ?_⟩
      · rw [e2, List.getElem?_append_left hlt, List.getElem?_eq_getElem hlt]
      · simp [e1, List.getElem_append_left hlt]
    · have hk2 : k = F.length := by omega
      subst hk2
      refine ⟨last ++ ['\n'], ?_, Or.inr ?_⟩
      · rw [e2]; simp
      · simp [e1]

/-! ## Trailing newlines do not change a number -/

theorem takeWhile_snoc {α : Type} (p : α → Bool) (l : List α) (c : α) (hc : p c = false) :
    (l ++ [c]).takeWhile p = l.takeWhile p ∧ (l ++ [c]).dropWhile p = l.dropWhile p ++ [c] := by
  induction l with
  | nil => simp [hc]
  | cons a l ih => by_cases h : p a = true <;> simp [h, ih]

theorem digits_snoc (s : Text) : digits (s ++ ['\n']) = ((digits s).1, (digits s).2 ++ ['\n']) := by
  unfold digits
  rw [(takeWhile_snoc Char.isDigit s '\n' (by decide)).1, (takeWhile_snoc Char.isDigit s '\n' (by decide)).2]

theorem sign_snoc (s : Text) : sign_of (s ++ ['\n']) = ((sign_of s).1, (sign_of s).2 ++ ['\n']) := by
  cases s with
  | nil => rfl
  | cons c s =>
    by_cases h1 : c = '-'
    · subst h1; rfl
    · by_cases h2 : c = '+'
      · subst h2; rfl
      · have : ∀ t : Text, sign_of (c :: t) = (1, c :: t) := by
          intro t
          unfold sign_of
          split
          · rename_i h; simp at h; exact absurd h.1 h1
          · rename_i h; simp at h; exact absurd h.1 h2
          · rfl
        rw [List.cons_append, this, this]; rfl

theorem fraction_snoc (s : Text) : fraction_of (s ++ ['\n']) = ((fraction_of s).1, (fraction_of s).2 ++ ['\n']) := by
  cases s with
  | nil => rfl
  | cons c s =>
    by_cases h1 : c = '.'
    · subst h1; exact digits_snoc s
    · have : ∀ t : Text, fraction_of (c :: t) = ([], c :: t) := by
        intro t
        unfold fraction_of
        split
        · rename_i h; simp at h; exact absurd h.1 h1
        · rfl
      rw [List.cons_append, this, this]; rfl

theorem exponent_snoc (s : Text) : exponent_of (s ++ ['\n']) = exponent_of s := by
  cases s with
  | nil => simp [exponent_of]
  | cons c s => simp only [exponent_of, List.cons_append, sign_snoc, digits_snoc]

theorem atof_newline (s : Text) : atof (s ++ ['\n']) = atof s := by
  by_cases h : ∀ c ∈ s, isSpace c = true
  · have e1 : s.dropWhile isSpace = [] := List.dropWhile_eq_nil_iff.2 h
    have e2 : (s ++ ['\n']).dropWhile isSpace = [] := List.dropWhile_eq_nil_iff.2 (by
      intro c hc
      rcases List.mem_append.1 hc with hc | hc
      · exact h c hc
      · simp at hc; subst hc; decide)
    unfold atof
    rw [e1, e2]
  · have e : (s ++ ['\n']).dropWhile isSpace = s.dropWhile isSpace ++ ['\n'] := by
      rw [List.dropWhile_append, if_neg]
      simpa [List.isEmpty_iff, List.dropWhile_eq_nil_iff] using h
    unfold atof
    rw [e, sign_snoc]
    simp only [digits_snoc, fraction_snoc, exponent_snoc]

end Coffe
