import Verif.Props.Text
import Mathlib.Tactic.NormNum

/-! # C31: writers emit every entry once; C30: tables are read back -/

namespace Coffe

theorem cfor_text (n : ℕ) (body : ℕ → Text → CRes Text) (g : ℕ → Text) (s : ℕ)
    (h : ∀ i, s ≤ i → i < s + n → ∀ d, body i d = .ok (d ++ g i)) (d : Text) :
    cfor (List.range' s n) body d = .ok (d ++ (List.range' s n).flatMap g) := by
  induction n generalizing s d with
  | zero => simp [cfor]
  | succ n ih =>
    rw [List.range'_succ]
    simp only [cfor, h s le_rfl (by omega) d]
    rw [ih (s + 1) (fun i h1 h2 => h i (by omega) (by omega))]
    simp

theorem upTo_zero (n : ℕ) : upTo 0 n = List.range n := by simp [upTo, List.range_eq_range']

/-- C31: `write_1col` writes the header and every value once, in order. -/
theorem C31_write_1col (R : Rounding) (values : Buf ℕ ℝ) (len : ℕ) (f : ℕ → ℝ) (h : values.Holds len f)
    (header : Option Text) :
    write_1col R values len header = .ok (header.getD [] ++ ofLines ((List.range len).map fun i => fmt R 15 (f i))) := by
  unfold write_1col upTo
  rw [cfor_text (len - 0) _ (fun i => fmt R 15 (f i) ++ ['\n']) 0 (fun i _ hi d => by
    simp only [h.load (show i < len by omega), bind, Except.bind, pure, Except.pure, List.append_assoc])]
  simp [header_text, ofLines, List.flatMap, List.range_eq_range', Function.comp_def]

/-- C31: `write_2col` writes the header and every pair once, in order. -/
theorem C31_write_2col (R : Rounding) (v1 v2 : Buf ℕ ℝ) (len : ℕ) (f g : ℕ → ℝ) (h1 : v1.Holds len f)
    (h2 : v2.Holds len g) (header : Option Text) (sep : Text) :
    write_2col R v1 v2 len header sep =
      .ok (header.getD [] ++ ofLines ((List.range len).map fun i => fmt R 15 (f i) ++ sep ++ fmt R 15 (g i))) := by
  unfold write_2col upTo
  rw [cfor_text (len - 0) _ (fun i => fmt R 15 (f i) ++ sep ++ fmt R 15 (g i) ++ ['\n']) 0 (fun i _ hi d => by
    simp only [h1.load (show i < len by omega), h2.load (show i < len by omega), bind, Except.bind, pure, Except.pure,
      List.append_assoc])]
  simp [header_text, ofLines, List.flatMap, List.range_eq_range', Function.comp_def]

/-- One row. -/
theorem write_row_eq (R : Rounding) (all : Buf ℕ (Option (Buf ℕ ℝ))) (cols : List (Buf ℕ ℝ)) (fs : List (ℕ → ℝ))
    (hlen : cols.length = fs.length) (hpos : 0 < cols.length) (len i : ℕ) (hi : i < len)
    (hall : ∀ (j : ℕ) (hj : j < cols.length), all.load j = .ok (some cols[j]))
    (hcols : ∀ (j : ℕ) (hj : j < cols.length), (cols[j]).Holds len (fs[j]'(hlen ▸ hj))) (sep d : Text) :
    write_row R all cols.length i sep d = .ok (d ++ (rowText (fmt R 10) sep (fs.map fun f => f i) ++ ['\n'])) := by
  have hbody : ∀ j, 0 ≤ j → j < 0 + cols.length → ∀ d : Text, (do
      let p ← all.load j
      let v ← load_ptr p i
      pure (if j < cols.length - 1 then d ++ fmt R 10 v ++ sep else d ++ fmt R 10 v ++ sep ++ ['\n']) : CRes Text) =
      .ok (d ++ (fmt R 10 ((fs.map fun f => f i).getD j 0) ++ sep ++ if j < cols.length - 1 then [] else ['\n'])) := by
    intro j _ hj d
    have hj' : j < cols.length := by omega
    have hv : (fs.map fun f => f i).getD j 0 = (fs[j]'(hlen ▸ hj')) i := by
      simp [List.getD, List.getElem?_eq_getElem (show j < fs.length from hlen ▸ hj')]
    simp only [hall j hj', load_ptr, (hcols j hj').load hi, bind, Except.bind, pure, Except.pure, hv]
    by_cases h : j < cols.length - 1
    · simp [h]
    · simp [h]
  unfold write_row upTo
  rw [Nat.sub_zero, cfor_text cols.length _ _ 0 hbody d]
  congr 2
  obtain ⟨k, hk⟩ : ∃ k, cols.length = k + 1 := ⟨cols.length - 1, by omega⟩
  have hfl : (fs.map fun f => f i).length = k + 1 := by rw [List.length_map, ← hlen, hk]
  generalize (fs.map fun f => f i) = vals at *
  rw [hk, List.range'_1_concat, List.flatMap_append]
  simp only [Nat.add_sub_cancel, Nat.zero_add, List.flatMap_cons, List.flatMap_nil, List.append_nil, lt_irrefl, if_false]
  have e1 : (List.range' 0 k).flatMap (fun j => fmt R 10 (vals.getD j 0) ++ sep ++ if j < k then [] else ['\n']) =
      (List.range' 0 k).flatMap (fun j => fmt R 10 (vals.getD j 0) ++ sep) := by
    refine List.flatMap_congr fun j hj => ?_
    rw [if_pos (by simpa using (List.mem_range'_1.1 hj).2), List.append_nil]
  rw [e1, ← List.append_assoc]
  congr 1
  have e2 : vals = (List.range' 0 (k + 1)).map fun j => vals.getD j 0 := by
    apply List.ext_getElem
    · simp [hfl]
    · intro n h1 h2
      simp [List.getD, List.getElem?_eq_getElem h1]
  unfold rowText
  conv_rhs => rw [e2, List.range'_1_concat, List.map_append, List.flatMap_append]
  simp [List.flatMap_map]

/-- The arguments up to the first `NULL` are collected. -/
theorem collect_eq (cols : List (Buf ℕ ℝ)) (rest : List (Option (Buf ℕ ℝ))) : ∀ (a : Option (Buf ℕ ℝ))
    (args : List (Option (Buf ℕ ℝ))) (all : Buf ℕ (Option (Buf ℕ ℝ))) (k : ℕ), a :: args = cols.map some ++ none :: rest →
    (∀ i, i ≤ k + cols.length → all.dom i) → all.val k = some a →
    ∃ all', collect_columns a args all k = .ok (all', k + cols.length) ∧ all'.dom = all.dom ∧
      (∀ i < k, all'.val i = all.val i) ∧
      ∀ (j : ℕ) (hj : j < cols.length), all'.val (k + j) = some (some cols[j]) := by
  induction cols with
  | nil =>
    intro a args all k h hd hv
    simp at h
    obtain ⟨rfl, rfl⟩ := h
    exact ⟨all, by simp [collect_columns], rfl, fun _ _ => rfl, fun j hj => absurd hj (by simp)⟩
  | cons c cols ih =>
    intro a args all k h hd hv
    simp only [List.map_cons, List.cons_append, List.cons.injEq] at h
    obtain ⟨rfl, h⟩ := h
    cases args with
    | nil => simp at h
    | cons b args =>
      obtain ⟨all1, h1, hw⟩ := Buf.store_wrote all (k + 1) (fun _ => b) (hd (k + 1) (by simp))
      obtain ⟨all', e, hdom, hlo, hhi⟩ := ih b args all1 (k + 1) h
        (fun i hi => by rw [hw.1]; exact hd i (by simp; omega)) (hw.2.1 _ rfl)
      refine ⟨all', ?_, hdom.trans hw.1, fun i hi => (hlo i (by omega)).trans (hw.2.2 i (by omega)), fun j hj => ?_⟩
      · simp only [collect_columns, h1, bind, Except.bind]
        rw [e]; simp; omega
      · cases j with
        | zero =>
          simp only [Nat.add_zero, List.getElem_cons_zero]
          rw [hlo k (by omega), hw.2.2 k (by omega), hv]
        | succ j =>
          have := hhi j (by simpa using hj)
          rw [show k + (j + 1) = k + 1 + j by ring]
          simpa using this

/-- C31: `write_ncol_null` writes the header and every entry of the columns up to the first `NULL` once, row by row, and
reads nothing else. -/
theorem C31_write_ncol_null (R : Rounding) (cols : List (Buf ℕ ℝ)) (fs : List (ℕ → ℝ)) (hlen : cols.length = fs.length)
    (hpos : 0 < cols.length) (hmax : cols.length < COFFE_MAX_ALLOCABLE) (len : ℕ)
    (hcols : ∀ (j : ℕ) (hj : j < cols.length), (cols[j]).Holds len (fs[j]'(hlen ▸ hj)))
    (rest : List (Option (Buf ℕ ℝ))) (header : Option Text) (sep : Text) :
    write_ncol_null R (cols.map some ++ none :: rest) len header sep = .ok (some (header.getD [] ++
      ofLines ((List.range len).map fun i => rowText (fmt R 10) sep (fs.map fun f => f i)))) := by
  cases hc : cols with
  | nil => rw [hc] at hpos; simp at hpos
  | cons c cs =>
    have hargs : some c :: (cs.map some ++ none :: rest) = cols.map some ++ none :: rest := by rw [hc]; rfl
    have h0 : (0 : ℕ) < COFFE_MAX_ALLOCABLE := by decide
    obtain ⟨v, hv, hw⟩ := Buf.store_wrote (cmalloc COFFE_MAX_ALLOCABLE : Buf ℕ (Option (Buf ℕ ℝ))) 0 (fun _ => some c) h0
    obtain ⟨all, e, hdom, -, hval⟩ := collect_eq cols rest (some c) (cs.map some ++ none :: rest) v 0 hargs
      (fun i hi => by rw [hw.1]; show i < COFFE_MAX_ALLOCABLE; omega) (hw.2.1 0 rfl)
    have hload : ∀ (j : ℕ) (hj : j < cols.length), all.load j = .ok (some cols[j]) := fun j hj =>
      Buf.load_eq.2 ⟨by rw [hdom, hw.1]; show j < COFFE_MAX_ALLOCABLE; omega, by simpa using hval j hj⟩
    unfold write_ncol_null
    simp only [List.map_cons, List.cons_append, hv, bind, Except.bind]
    rw [e]
    simp only [Nat.zero_add]
    rw [if_pos hpos]
    unfold upTo
    rw [cfor_text (len - 0) _ (fun i => rowText (fmt R 10) sep (fs.map fun f => f i) ++ ['\n']) 0 (fun i _ hi d =>
      write_row_eq R all cols fs hlen hpos len i (by omega) hload hcols sep d)]
    simp [header_text, ofLines, List.flatMap, List.range_eq_range', Function.comp_def, pure, Except.pure]

/-- C31, where it fails: without a final `NULL` the function reads arguments that were not passed. -/
theorem C31_unterminated_false (R : Rounding) (cols : List (Buf ℕ ℝ)) (hmax : cols.length < COFFE_MAX_ALLOCABLE)
    (len : ℕ) (header : Option Text) (sep : Text) :
    write_ncol_null R (cols.map some) len header sep = .error .oob := by
  have key : ∀ (cs : List (Buf ℕ ℝ)) (c : Buf ℕ ℝ) (all : Buf ℕ (Option (Buf ℕ ℝ))) (k : ℕ),
      (∀ i, i ≤ k + cs.length → all.dom i) → collect_columns (some c) (cs.map some) all k = .error .oob := by
    intro cs
    induction cs with
    | nil => intro c all k _; rfl
    | cons d cs ih =>
      intro c all k hd
      obtain ⟨all1, h1, hw⟩ := Buf.store_wrote all (k + 1) (fun _ => some d) (hd (k + 1) (by simp))
      simp only [List.map_cons, collect_columns, h1, bind, Except.bind]
      exact ih d all1 (k + 1) (fun i hi => by rw [hw.1]; exact hd i (by simp; omega))
  cases cols with
  | nil => rfl
  | cons c cs =>
    have h0 : (0 : ℕ) < COFFE_MAX_ALLOCABLE := by decide
    obtain ⟨v, hv, hw⟩ := Buf.store_wrote (cmalloc COFFE_MAX_ALLOCABLE : Buf ℕ (Option (Buf ℕ ℝ))) 0 (fun _ => some c) h0
    simp only [List.map_cons, write_ncol_null, hv, bind, Except.bind]
    rw [key cs c v 0 (fun i hi => by rw [hw.1]; show i < COFFE_MAX_ALLOCABLE; simp at hmax; omega)]

/-- C31 for `write_ncol`: right if there are at most as many rows as columns. -/
theorem C31_write_ncol_partial (R : Rounding) (cols : List (Buf ℕ ℝ)) (fs : List (ℕ → ℝ))
    (hlen : cols.length = fs.length) (len : ℕ) (hrows : len ≤ cols.length)
    (hcols : ∀ (j : ℕ) (hj : j < cols.length), (cols[j]).Holds len (fs[j]'(hlen ▸ hj))) (header : Option Text)
    (sep : Text) : write_ncol R (cols.map some) len header sep = .ok (header.getD [] ++
      ofLines ((List.range len).map fun i => rowText (fmt R 10) sep (fs.map fun f => f i))) := by
  have hload : ∀ (j : ℕ) (hj : j < cols.length), (Buf.of (· < (cols.map some).length) fun j =>
      (cols.map some).getD j none).load j = .ok (some cols[j]) := fun j hj => by
    rw [Buf.load_of (dom := (· < (cols.map some).length)) _ (by simpa using hj)]
    simp [List.getD, List.getElem?_eq_getElem hj]
  unfold write_ncol upTo
  dsimp only
  rw [cfor_text (len - 0) _ (fun i => rowText (fmt R 10) sep (fs.map fun f => f i) ++ ['\n']) 0 (fun i _ hi d => by
    have hi' : i < cols.length := by omega
    rw [hload i hi']
    simp only [bind, Except.bind, Option.isSome_some, if_true]
    rw [show (cols.map some).length = cols.length by simp]
    exact write_row_eq R _ cols fs hlen (by omega) len i (by omega) (by simpa using hload) hcols sep d)]
  simp [header_text, ofLines, List.flatMap, List.range_eq_range', Function.comp_def]

/-- C31 for `write_ncol` is false with more rows than columns: the array of columns is read out of bounds. -/
theorem C31_write_ncol_false (R : Rounding) (cols : List (Buf ℕ ℝ)) (fs : List (ℕ → ℝ))
    (hlen : cols.length = fs.length) (len : ℕ) (hrows : cols.length < len)
    (hcols : ∀ (j : ℕ) (hj : j < cols.length), (cols[j]).Holds len (fs[j]'(hlen ▸ hj))) (header : Option Text)
    (sep : Text) : write_ncol R (cols.map some) len header sep = .error .oob := by
  have hload : ∀ (j : ℕ) (hj : j < cols.length), (Buf.of (· < (cols.map some).length) fun j =>
      (cols.map some).getD j none).load j = .ok (some cols[j]) := fun j hj => by
    rw [Buf.load_of (dom := (· < (cols.map some).length)) _ (by simpa using hj)]
    simp [List.getD, List.getElem?_eq_getElem hj]
  have hoob : (Buf.of (· < (cols.map some).length) fun j => (cols.map some).getD j none).load cols.length =
      (.error .oob : CRes (Option (Buf ℕ ℝ))) := by
    unfold Buf.load
    rw [if_neg (by simp [Buf.of])]
  obtain ⟨k, rfl⟩ : ∃ k, len = cols.length + (k + 1) := ⟨len - cols.length - 1, by omega⟩
  have hsplit : upTo 0 (cols.length + (k + 1)) = List.range' 0 cols.length ++ cols.length :: List.range' (cols.length + 1) k := by
    unfold upTo
    rw [Nat.sub_zero, ← List.range'_append_1, List.range'_succ, Nat.zero_add]
  unfold write_ncol
  dsimp only
  rw [hsplit, cfor_append, cfor_text cols.length _ (fun i => rowText (fmt R 10) sep (fs.map fun f => f i) ++ ['\n']) 0
    (fun i _ hi d => by
      have hi' : i < cols.length := by omega
      rw [hload i hi']
      simp only [bind, Except.bind, Option.isSome_some, if_true]
      rw [show (cols.map some).length = cols.length by simp]
      exact write_row_eq R _ cols fs hlen (by omega) _ i (by omega) (by simpa using hload) hcols sep d)]
  simp only [cfor, hoob, bind, Except.bind]

/-- What `write_matrix` writes: of every row all entries but the last one. -/
theorem write_matrix_eq (R : Rounding) (values : Buf (ℕ × ℕ) ℝ) (len1 len2 : ℕ) (h2 : 0 < len2) (f : ℕ → ℕ → ℝ)
    (h : ∀ i < len1, ∀ j < len2 - 1, values.load (i, j) = .ok (f i j)) (header : Option Text) (sep : Text) :
    write_matrix R values len1 len2 header sep = .ok (ofLines header.toList ++
      ofLines ((List.range len1).map fun i => rowText (fmt R 6) sep ((List.range (len2 - 1)).map (f i)))) := by
  obtain ⟨k, rfl⟩ : ∃ k, len2 = k + 1 := ⟨len2 - 1, by omega⟩
  simp only [Nat.add_sub_cancel] at h ⊢
  unfold write_matrix upTo
  rw [cfor_text (len1 - 0) _ (fun i => rowText (fmt R 6) sep ((List.range k).map (f i)) ++ ['\n']) 0 (fun i _ hi d => by
    rw [Nat.sub_zero, List.range'_1_concat, cfor_append, cfor_text k _ (fun j => fmt R 6 (f i j) ++ sep) 0 (fun j _ hj d => by
      rw [if_pos (by simp; omega), h i (by omega) j (by omega)]
      simp [bind, Except.bind, pure, Except.pure])]
    simp [cfor, bind, Except.bind, pure, Except.pure, rowText, List.flatMap_map, List.range_eq_range'])]
  cases header <;>
    simp [ofLines, List.flatMap, List.range_eq_range', Function.comp_def]

/-- C31 for `write_matrix` is false: the last column is never written, so matrices that differ there give the same
file. -/
theorem C31_write_matrix_false : ∃ a b : ℕ → ℕ → ℝ, a 0 0 ≠ b 0 0 ∧ ∀ (R : Rounding) (header : Option Text) (sep : Text),
    write_matrix R (Buf.of (fun p => p.1 < 1 ∧ p.2 < 1) fun p => a p.1 p.2) 1 1 header sep =
      write_matrix R (Buf.of (fun p => p.1 < 1 ∧ p.2 < 1) fun p => b p.1 p.2) 1 1 header sep := by
  refine ⟨fun _ _ => 1, fun _ _ => 2, by norm_num, fun R header sep => ?_⟩
  rw [write_matrix_eq R _ 1 1 (by norm_num) (fun _ _ => 0) (fun i _ j hj => absurd hj (by simp)),
    write_matrix_eq R _ 1 1 (by norm_num) (fun _ _ => 0) (fun i _ j hj => absurd hj (by simp))]

/-! ## C30: what is written is read back -/

/-- The header consists of comments. -/
def IsHeader (hs : List Text) : Prop := ∀ l ∈ hs, IsLine l ∧ IsComment l = true

theorem fields_token (t sep rest : Text) (ht : t ≠ []) (htd : ∀ c ∈ t, isDelim c = false) (hsep : IsSep sep) :
    fields (t ++ (sep ++ rest)) = t :: fields rest := by
  obtain ⟨hne, hall⟩ := hsep
  have key : ∀ (u : Text), (∀ c ∈ u, isDelim c = true) → fields (u ++ rest) = fields rest := by
    intro u
    induction u with
    | nil => intro _; rfl
    | cons c u ih => intro h; rw [List.cons_append, fields_delim (h c (by simp)), ih fun x hx => h x (by simp [hx])]
  cases sep with
  | nil => exact absurd rfl hne
  | cons d u =>
    have e : fields (t ++ (d :: u ++ rest)) = t :: fields (u ++ rest) := by
      unfold fields
      rw [List.cons_append, List.splitOnP_append_cons_of_forall_mem htd d (hall d (by simp))]
      cases t with
      | nil => exact absurd rfl ht
      | cons a t => simp
    rw [e, key u fun x hx => hall x (by simp [hx])]

theorem fields_single (t : Text) (ht : t ≠ []) (htd : ∀ c ∈ t, isDelim c = false) : fields t = [t] := by
  unfold fields
  rw [List.splitOnP_eq_singleton htd]
  cases t with
  | nil => exact absurd rfl ht
  | cons a t => simp

theorem fields_row (R : Rounding) (p : ℕ) (sep : Text) (hsep : IsSep sep) (vals : List ℝ) :
    fields (rowText (fmt R p) sep vals) = vals.map (fmt R p) := by
  unfold rowText
  induction vals with
  | nil => rfl
  | cons v vals ih =>
    rw [List.flatMap_cons, List.append_assoc, fields_token _ _ _ (fmt_ne_nil R p v)
      (fun c hc => (numChar_props (fmt_chars R p v c hc)).2.2) hsep, ih, List.map_cons]

theorem not_comment (R : Rounding) (p : ℕ) (v : ℝ) (rest : Text) : IsComment (fmt R p v ++ rest) = false := by
  cases h : fmt R p v with
  | nil => exact absurd h (fmt_ne_nil R p v)
  | cons c s =>
    have := (numChar_props (fmt_chars R p v c (by rw [h]; simp))).2.1
    simp [IsComment, this]

theorem delim_ne_newline {c : Char} (h : isDelim c = true) : c ≠ '\n' := by rintro rfl; exact absurd h (by decide)

theorem dataLines_table (hs rows : List Text) (hh : IsHeader hs) (hr : ∀ l ∈ rows, IsComment l = false) :
    dataLines (hs ++ rows) = rows := by
  unfold dataLines
  rw [List.filter_append, List.filter_eq_nil_iff.2 (fun l hl => by simp [(hh l hl).2]),
    List.filter_eq_self.2 (fun l hl => by simp [hr l hl])]
  rfl

/-- C30: a table written by `write_ncol_null` below a header of comments is read back by `coffe_read_ncol`: the same number
of rows and, in every cell, the value rounded to eleven significant digits. -/
theorem C30_round_trip_ncol (R : Rounding) (cols : List (Buf ℕ ℝ)) (fs : List (ℕ → ℝ)) (hlen : cols.length = fs.length)
    (hpos : 0 < cols.length) (hmax : cols.length < COFFE_MAX_ALLOCABLE) (len : ℕ)
    (hcols : ∀ (j : ℕ) (hj : j < cols.length), (cols[j]).Holds len (fs[j]'(hlen ▸ hj)))
    (hs : List Text) (hh : IsHeader hs) (sep : Text) (hsep : IsSep sep)
    (hwidth : ∀ i < len, (rowText (fmt R 10) sep (fs.map fun f => f i)).length ≤ 254) :
    ∃ text, write_ncol_null R (cols.map some ++ [none]) len (some (ofLines hs)) sep = .ok (some text) ∧
      ∃ v, coffe_read_ncol cols.length text = .ok (v, len) ∧
        ∀ (j : ℕ) (hj : j < cols.length), ∀ i < len, v.load (j, i) = .ok (shown R 10 ((fs[j]'(hlen ▸ hj)) i)) := by
  refine ⟨_, C31_write_ncol_null R cols fs hlen hpos hmax len hcols [] (some (ofLines hs)) sep, ?_⟩
  set rows := (List.range len).map fun i => rowText (fmt R 10) sep (fs.map fun f => f i) with hrows
  have hne : fs ≠ [] := by rintro rfl; simp at hlen; rw [hlen] at hpos; simp at hpos
  have hrow : ∀ l ∈ rows, ∃ i < len, l = rowText (fmt R 10) sep (fs.map fun f => f i) := by
    intro l hl
    obtain ⟨i, hi, rfl⟩ := List.mem_map.1 hl
    exact ⟨i, List.mem_range.1 hi, rfl⟩
  have hcomment : ∀ l ∈ rows, IsComment l = false := by
    intro l hl
    obtain ⟨i, -, rfl⟩ := hrow l hl
    cases fs with
    | nil => exact absurd rfl hne
    | cons f fs =>
      rw [rowText, List.map_cons, List.flatMap_cons, List.append_assoc]
      exact not_comment R 10 _ _
  have hline : ∀ l ∈ hs ++ rows, IsLine l := by
    intro l hl
    rcases List.mem_append.1 hl with hl | hl
    · exact (hh l hl).1
    · obtain ⟨i, hi, rfl⟩ := hrow l hl
      refine ⟨fun hn => ?_, hwidth i hi⟩
      unfold rowText at hn
      obtain ⟨v, -, hn⟩ := List.mem_flatMap.1 hn
      rcases List.mem_append.1 hn with hn | hn
      · exact (numChar_props (fmt_chars R 10 v _ hn)).1 rfl
      · exact delim_ne_newline (hsep.2 _ hn) rfl
  have hdata : dataLines (hs ++ rows) = rows := dataLines_table hs rows hh hcomment
  obtain ⟨v, hv, hval⟩ := C30_read_ncol_partial cols.length (hs ++ rows) hline (fun l hl => by
    rw [hdata] at hl
    obtain ⟨i, -, rfl⟩ := hrow l hl
    rw [fields_row R 10 sep hsep, hlen]; simp) [] (by simp)
  have hrl : rows.length = len := by simp [hrows]
  rw [hdata, hrl] at hv hval
  rw [List.append_nil] at hv
  refine ⟨v, by rw [Option.getD_some, ← ofLines_append]; exact hv, fun j hj i hi => ?_⟩
  rw [hval j i hj hi]
  have e1 : rows.getD i [] = rowText (fmt R 10) sep (fs.map fun f => f i) := by
    simp [hrows, List.getD, List.getElem?_range hi]
  rw [e1, fields_row R 10 sep hsep]
  have hj' : j < fs.length := hlen ▸ hj
  have e2 : ((fs.map fun f => f i).map (fmt R 10)).getD j [] = fmt R 10 (fs[j] i) := by
    simp [List.getD, List.getElem?_eq_getElem hj']
  rw [e2]
  have := atof_fmt R 10 (fs[j] i) [] (by simp)
  rw [List.append_nil] at this
  rw [this]

/-- C30: the same for `write_2col` and `read_2col`, with sixteen significant digits. -/
theorem C30_round_trip_2col (R : Rounding) (v1 v2 : Buf ℕ ℝ) (len : ℕ) (f g : ℕ → ℝ) (h1 : v1.Holds len f)
    (h2 : v2.Holds len g) (hs : List Text) (hh : IsHeader hs) (sep : Text) (hsep : IsSep sep)
    (hwidth : ∀ i < len, (fmt R 15 (f i) ++ sep ++ fmt R 15 (g i)).length ≤ 254) :
    ∃ text, write_2col R v1 v2 len (some (ofLines hs)) sep = .ok text ∧
      ∃ v, read_2col text = .ok (v, len) ∧ v.IsArray len (fun i => (shown R 15 (f i), shown R 15 (g i))) := by
  refine ⟨_, C31_write_2col R v1 v2 len f g h1 h2 (some (ofLines hs)) sep, ?_⟩
  set rows := (List.range len).map fun i => fmt R 15 (f i) ++ sep ++ fmt R 15 (g i) with hrows
  have hrow : ∀ l ∈ rows, ∃ i < len, l = fmt R 15 (f i) ++ sep ++ fmt R 15 (g i) := by
    intro l hl
    obtain ⟨i, hi, rfl⟩ := List.mem_map.1 hl
    exact ⟨i, List.mem_range.1 hi, rfl⟩
  have hcomment : ∀ l ∈ rows, IsComment l = false := by
    intro l hl
    obtain ⟨i, -, rfl⟩ := hrow l hl
    rw [List.append_assoc]
    exact not_comment R 15 _ _
  have hline : ∀ l ∈ hs ++ rows, IsLine l := by
    intro l hl
    rcases List.mem_append.1 hl with hl | hl
    · exact (hh l hl).1
    · obtain ⟨i, hi, rfl⟩ := hrow l hl
      refine ⟨fun hn => ?_, hwidth i hi⟩
      rcases List.mem_append.1 hn with hn | hn
      · rcases List.mem_append.1 hn with hn | hn
        · exact (numChar_props (fmt_chars R 15 _ _ hn)).1 rfl
        · exact delim_ne_newline (hsep.2 _ hn) rfl
      · exact (numChar_props (fmt_chars R 15 _ _ hn)).1 rfl
  have hfields : ∀ i, fields (fmt R 15 (f i) ++ sep ++ fmt R 15 (g i)) = [fmt R 15 (f i), fmt R 15 (g i)] := by
    intro i
    rw [List.append_assoc, fields_token _ _ _ (fmt_ne_nil R 15 _) (fun c hc => (numChar_props (fmt_chars R 15 _ c hc)).2.2)
      hsep, fields_single _ (fmt_ne_nil R 15 _) (fun c hc => (numChar_props (fmt_chars R 15 _ c hc)).2.2)]
  have hdata : dataLines (hs ++ rows) = rows := dataLines_table hs rows hh hcomment
  obtain ⟨v, hv, hval⟩ := C30_read_2col_partial (hs ++ rows) hline (fun l hl => by
    rw [hdata] at hl
    obtain ⟨i, -, rfl⟩ := hrow l hl
    rw [hfields]; simp) [] (by simp)
  have hrl : rows.length = len := by simp [hrows]
  rw [hdata, hrl] at hv hval
  rw [List.append_nil] at hv
  refine ⟨v, by rw [Option.getD_some, ← ofLines_append]; exact hv, hval.1, fun i hi => ?_⟩
  obtain ⟨hd, hx⟩ := hval.2 i hi
  refine ⟨hd, ?_⟩
  rw [hx]
  have e1 : rows.getD i [] = fmt R 15 (f i) ++ sep ++ fmt R 15 (g i) := by
    simp [hrows, List.getD, List.getElem?_range hi]
  have a1 := atof_fmt R 15 (f i) [] (by simp)
  have a2 := atof_fmt R 15 (g i) [] (by simp)
  rw [List.append_nil] at a1 a2
  dsimp only
  rw [e1, hfields]
  simp [a1, a2]

/-- C30: the same for `write_1col` and `read_1col`. -/
theorem C30_round_trip_1col (R : Rounding) (v1 : Buf ℕ ℝ) (len : ℕ) (f : ℕ → ℝ) (h1 : v1.Holds len f)
    (hs : List Text) (hh : IsHeader hs) (hwidth : ∀ i < len, (fmt R 15 (f i)).length ≤ 254) :
    ∃ text, write_1col R v1 len (some (ofLines hs)) = .ok text ∧
      ∃ v, read_1col text = .ok (v, len) ∧ v.IsArray len (fun i => shown R 15 (f i)) := by
  refine ⟨_, C31_write_1col R v1 len f h1 (some (ofLines hs)), ?_⟩
  set rows := (List.range len).map fun i => fmt R 15 (f i) with hrows
  have hrow : ∀ l ∈ rows, ∃ i < len, l = fmt R 15 (f i) := by
    intro l hl
    obtain ⟨i, hi, rfl⟩ := List.mem_map.1 hl
    exact ⟨i, List.mem_range.1 hi, rfl⟩
  have hcomment : ∀ l ∈ rows, IsComment l = false := by
    intro l hl
    obtain ⟨i, -, rfl⟩ := hrow l hl
    have := not_comment R 15 (f i) []
    rwa [List.append_nil] at this
  have hline : ∀ l ∈ hs ++ rows, IsLine l := by
    intro l hl
    rcases List.mem_append.1 hl with hl | hl
    · exact (hh l hl).1
    · obtain ⟨i, hi, rfl⟩ := hrow l hl
      exact ⟨fun hn => (numChar_props (fmt_chars R 15 _ _ hn)).1 rfl, hwidth i hi⟩
  have hdata : dataLines (hs ++ rows) = rows := dataLines_table hs rows hh hcomment
  obtain ⟨v, hv, hval⟩ := C30_read_1col (hs ++ rows) hline [] (by simp)
  have hrl : rows.length = len := by simp [hrows]
  rw [hdata, hrl] at hv hval
  rw [List.append_nil] at hv
  refine ⟨v, by rw [Option.getD_some, ← ofLines_append]; exact hv, hval.1, fun i hi => ?_⟩
  obtain ⟨hd, hx⟩ := hval.2 i hi
  refine ⟨hd, ?_⟩
  rw [hx]
  have e1 : rows.getD i [] = fmt R 15 (f i) := by simp [hrows, List.getD, List.getElem?_range hi]
  have a1 := atof_fmt R 15 (f i) [] (by simp)
  rw [List.append_nil] at a1
  dsimp only
  rw [e1, a1]

/-- C30: numbers with at most `p + 1` significant digits survive; in general the relative error is at most
`10^-p / 2`. -/
theorem C30_precision (R : Rounding) (p : ℕ) :
    (∀ (x : ℝ) (m : ℕ) (e : ℤ), 10 ^ p ≤ m → m < 10 ^ (p + 1) → |x| = m * 10 ^ (e - p) → shown R p x = x) ∧
    shown R p 0 = 0 ∧ ∀ x, |shown R p x - x| ≤ 1 / 2 * 10 ^ (-(p : ℤ)) * |x| :=
  ⟨fun _ m e h1 h2 h => shown_exact R p m e h1 h2 h, by simp [shown], shown_error R p⟩

/-- C30 is false for exact values: the doubles 1 and `1 + 2^-52` are written as the same text, even with the sixteen
digits of the two-column writer. -/
theorem C30_precision_false (R : Rounding) : fmt R 15 (1 + 2 ^ (-52 : ℤ)) = fmt R 15 1 := by
  have hlog : ∀ x : ℝ, 1 ≤ x → x < 10 → Int.log 10 |x| = 0 := by
    intro x h1 h2
    have hp : 0 < |x| := abs_pos.2 (by linarith)
    apply le_antisymm
    · have := (Int.lt_zpow_iff_log_lt (b := 10) (x := 1) (by norm_num) hp).1 (by rw [abs_of_pos (by linarith)]; norm_num; exact h2)
      omega
    · exact (Int.zpow_le_iff_le_log (b := 10) (by norm_num) hp).1 (by rw [abs_of_pos (by linarith)]; norm_num; exact h1)
  have hr : ∀ y : ℝ, 10 ^ 15 ≤ y → y < 10 ^ 15 + 1 / 2 → R.rnd y = 10 ^ 15 := by
    intro y h1 h2
    have h := abs_le.1 (R.near y)
    have l1 : ((10 ^ 15 - 1 : ℤ) : ℝ) < R.rnd y := by push_cast; linarith
    have l2 : (R.rnd y : ℝ) < ((10 ^ 15 + 1 : ℤ) : ℝ) := by push_cast; linarith
    have l1' : (10 ^ 15 - 1 : ℤ) < R.rnd y := by exact_mod_cast l1
    have l2' : R.rnd y < (10 ^ 15 + 1 : ℤ) := by exact_mod_cast l2
    omega
  have hs : ∀ x : ℝ, 1 ≤ x → x < 1 + 4e-16 → sci R 15 x = (0, 10 ^ 15) := by
    intro x h1 h2
    unfold sci
    dsimp only
    rw [hlog x h1 (by linarith), abs_of_pos (by linarith : 0 < x)]
    rw [hr _ (by norm_num; linarith) (by norm_num; linarith)]
    rw [show ((10 : ℤ) ^ 15).toNat = 10 ^ 15 from rfl, if_neg (by norm_num)]
  have hf : ∀ x : ℝ, 1 ≤ x → x < 1 + 4e-16 → fmt R 15 x = fmt_mantissa (10 ^ 15) ++ 'e' :: fmt_exponent 0 := by
    intro x h1 h2
    unfold fmt
    rw [if_neg (by linarith), if_neg (by linarith), hs x h1 h2]
    rfl
  rw [hf _ (by norm_num) (by norm_num), hf 1 le_rfl (by norm_num)]

/-- Rounding half up is a rounding. -/
noncomputable def halfUp : Rounding := ⟨round, fun y => by rw [abs_sub_comm]; exact abs_sub_round y⟩

/-- Non-vacuity of the round trips: two columns of two numbers below one comment. -/
example : ∃ text, write_ncol_null halfUp (([Buf.of (· < 2) fun i : ℕ => (i : ℝ) + 1, Buf.of (· < 2) fun i : ℕ => (i : ℝ) / 7] :
      List (Buf ℕ ℝ)).map some ++ [none]) 2 (some (ofLines [['#', ' ', 'a']])) [' '] = .ok (some text) ∧
    ∃ v, coffe_read_ncol 2 text = .ok (v, 2) ∧ v.load (0, 1) = .ok 2 := by
  obtain ⟨text, h1, v, h2, h3⟩ := C30_round_trip_ncol halfUp
    [Buf.of (· < 2) fun i : ℕ => (i : ℝ) + 1, Buf.of (· < 2) fun i : ℕ => (i : ℝ) / 7]
    [fun i : ℕ => (i : ℝ) + 1, fun i : ℕ => (i : ℝ) / 7] rfl (by simp) (by decide) 2 (by
      intro j hj
      have hj' : j = 0 ∨ j = 1 := by simp at hj; omega
      rcases hj' with rfl | rfl
      · exact fun i hi => Buf.load_eq.1 (Buf.load_of (dom := (· < 2)) _ hi)
      · exact fun i hi => Buf.load_eq.1 (Buf.load_of (dom := (· < 2)) _ hi))
    [['#', ' ', 'a']] (by simp [IsHeader, IsLine, IsComment]) [' '] (by simp [IsSep, isDelim]) (by
      intro i hi
      have hb : ∀ x : ℝ, (x ≠ 0 → 1 / 10 ≤ |x|) → |x| < 10 → (fmt halfUp 10 x).length ≤ 18 := by
        intro x h1 h2
        refine fmt_length halfUp 10 x (fun h => le_trans ?_ (h1 h)) (lt_of_lt_of_le h2 ?_)
        · calc (10 : ℝ) ^ (-999 : ℤ) ≤ 10 ^ (-1 : ℤ) := zpow_le_zpow_right₀ (by norm_num) (by norm_num)
            _ = 1 / 10 := by norm_num
        · calc (10 : ℝ) = 10 ^ (1 : ℤ) := by norm_num
            _ ≤ 10 ^ (999 : ℤ) := zpow_le_zpow_right₀ (by norm_num) (by norm_num)
      have hi' : i = 0 ∨ i = 1 := by omega
      have b1 := hb ((i : ℝ) + 1) (by rcases hi' with rfl | rfl <;> norm_num [abs_of_pos])
        (by rcases hi' with rfl | rfl <;> norm_num [abs_of_pos])
      have b2 := hb ((i : ℝ) / 7) (by rcases hi' with rfl | rfl <;> norm_num [abs_of_pos])
        (by rcases hi' with rfl | rfl <;> norm_num [abs_of_pos])
      simp [rowText]
      omega)
  refine ⟨text, h1, v, h2, ?_⟩
  rw [h3 0 (by simp) 1 (by norm_num)]
  congr 1
  rw [shown_exact halfUp 10 (2 * 10 ^ 10) 0 (by norm_num) (by norm_num) (by norm_num [abs_of_pos])]
  norm_num

end Coffe
